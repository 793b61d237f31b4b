import Verif.Model.RoundedCross

/-!
`segment_to_segment`, `Segment.shortest_segment` and the method `almost` for two segments with every operation rounded by a function `fl`. `η` is the accuracy of `scipy.spatial.distance.euclidean`.
-/
namespace Verif.Model

open Verif Verif.Np

variable {n : Nat}

/-- `segment_to_segment` (_geomalg.py 342-429). -/
def ToSegTo (fl : ℝ → ℝ) (s r : Seg n ℝ) (tol : ℝ) (x : ℝ × ℝ) : Prop :=
  ∃ a b c d e, VDotTo fl (subFl fl s.p2 s.p1) (subFl fl s.p2 s.p1) a ∧ VDotTo fl (subFl fl s.p2 s.p1) (subFl fl r.p2 r.p1) b ∧
    VDotTo fl (subFl fl r.p2 r.p1) (subFl fl r.p2 r.p1) c ∧ VDotTo fl (subFl fl s.p2 s.p1) (subFl fl s.p1 r.p1) d ∧
    VDotTo fl (subFl fl r.p2 r.p1) (subFl fl s.p1 r.p1) e ∧ x = s2sCore fl tol a b c d e

/-- `Segment.shortest_segment` for a segment (_base.py 860-890). -/
def ShortestTo (fl : ℝ → ℝ) (s r q : Seg n ℝ) : Prop :=
  ∃ x, ToSegTo fl s r F_EPS x ∧ q = ⟨segPointFl fl s x.1, segPointFl fl r x.2⟩

/-- `Segment.seglen` (_base.py 594-604). -/
def LenTo (η : ℝ) (q : Seg n ℝ) (z : ℝ) : Prop := |z - edist q.p1 q.p2| ≤ η * edist q.p1 q.p2

/-- `AlmostIntersectionMethod._intersect_segments` (_intersect.py 634-650) with `correct_overlap=False`. -/
def AlmostTo (fl : ℝ → ℝ) (η distTol : ℝ) (s r : Seg n ℝ) (x : Info n ℝ) : Prop :=
  ∃ q z, ShortestTo fl s r q ∧ LenTo η q z ∧ (z < distTol → x = ⟨.segment q, .almost⟩) ∧ (¬ z < distTol → x = notIntersected)

end Verif.Model
