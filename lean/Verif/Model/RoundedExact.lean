import Verif.Model.RoundedRank

/-!
`ExactIntersectionMethod` (skcurve/_intersect.py) for float segments and curves of the plane: the whole of `_intersect_segments`, with the test of collinearity, and `_intersect_curves` with the bounding boxes.
-/
namespace Verif.Model

open Verif Verif.Np

/-- `ExactIntersectionMethod._intersect_segments` (_intersect.py 467-523). `overlap` only compares coordinates. -/
def ExactTo (fl : ℝ → ℝ) (η feps : ℝ) (s r : Seg 2 ℝ) (x : Info 2 ℝ) : Prop :=
  ∃ b : Bool, s.CollinearTo fl η none (.seg r) (.ok b) ∧
    if b = true then
      x = match s.overlap r false with
        | none => notIntersected
        | some o => ⟨.segment o, .overlap⟩
    else CrossTo fl η feps s r x

/-- One entry of `is_intersect` (_intersect.py 583-586). -/
def BboxFl (fl : ℝ → ℝ) (s r : Seg 2 ℝ) : Prop :=
  ∀ i, ((min (s.p1 i) (s.p2 i) < max (r.p1 i) (r.p2 i)) ∨ CloseFl fl (min (s.p1 i) (s.p2 i)) (max (r.p1 i) (r.p2 i))) ∧
    ((max (s.p1 i) (s.p2 i) > min (r.p1 i) (r.p2 i)) ∨ CloseFl fl (max (s.p1 i) (s.p2 i)) (min (r.p1 i) (r.p2 i)))

open Classical in
/-- `_find_segments_bbox_intersection` (_intersect.py 544-590). -/
noncomputable def bboxPairsFl (fl : ℝ → ℝ) (c1 c2 : GCurve 2 ℝ) : List (Nat × Nat) :=
  let selfInt := decide (c2.cid = c1.cid)
  if c1.data.length = 0 ∨ c2.data.length = 0 then []
  else
    let other := if selfInt then c1 else c2
    curvesIndices c1.numSegs other.numSegs (fun i j => decide (BboxFl fl (c1.segment i).seg (other.segment j).seg)) selfInt

/-- `ExactIntersectionMethod._intersect_curves` (_intersect.py 525-542): `x i j` is the result for the segments `i` and `j`. -/
def ExactCurvesTo (fl : ℝ → ℝ) (η feps : ℝ) (c1 c2 : GCurve 2 ℝ) (xs : List (SegInt 2 ℝ)) : Prop :=
  ∃ x : Nat → Nat → Info 2 ℝ, (∀ q ∈ bboxPairsFl fl c1 c2, ExactTo fl η feps (c1.segment q.1).seg (c2.segment q.2).seg (x q.1 q.2)) ∧
    xs = ((bboxPairsFl fl c1 c2).filter fun q => decide ((x q.1 q.2).type ≠ .none)).map fun q => ⟨c1.segment q.1, c2.segment q.2, x q.1 q.2⟩

end Verif.Model
