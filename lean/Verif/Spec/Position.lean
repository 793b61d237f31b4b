import Verif.Model.Intersect
import Mathlib.Analysis.Normed.Operator.LinearIsometry
import Mathlib.Analysis.InnerProductSpace.PiL2

/-!
Specification vocabulary: points, segments and curves moved by an isometry `x ↦ L x + w` of euclidean spaces.
-/
namespace Verif.Spec

open Verif.Model

variable {n n' : Nat}

/-- The image of a point. -/
noncomputable def movePt (L : EuclideanSpace ℝ (Fin n) →ₗᵢ[ℝ] EuclideanSpace ℝ (Fin n')) (w : EuclideanSpace ℝ (Fin n')) (p : Vec n ℝ) : Vec n' ℝ :=
  WithLp.ofLp (L (WithLp.toLp 2 p) + w)

/-- The image of a segment. -/
noncomputable def moveSeg (L : EuclideanSpace ℝ (Fin n) →ₗᵢ[ℝ] EuclideanSpace ℝ (Fin n')) (w : EuclideanSpace ℝ (Fin n')) (s : Seg n ℝ) : Seg n' ℝ :=
  ⟨movePt L w s.p1, movePt L w s.p2⟩

/-- The image of a point or segment. -/
noncomputable def moveArg (L : EuclideanSpace ℝ (Fin n) →ₗᵢ[ℝ] EuclideanSpace ℝ (Fin n')) (w : EuclideanSpace ℝ (Fin n')) :
    PointOrSeg n ℝ → PointOrSeg n' ℝ
  | .point p => .point (movePt L w p)
  | .seg s => .seg (moveSeg L w s)

/-- The image of what an intersection method reports: the data is moved, the type is kept. -/
noncomputable def moveInfo (L : EuclideanSpace ℝ (Fin n) →ₗᵢ[ℝ] EuclideanSpace ℝ (Fin n')) (w : EuclideanSpace ℝ (Fin n')) (x : Info n ℝ) :
    Info n' ℝ :=
  ⟨match x.data with
    | .none => .none
    | .point p => .point (movePt L w p)
    | .segment s => .segment (moveSeg L w s)
    | .typeClass => .typeClass
    | .other => .other, x.type⟩

/-- The image of an intersection: both segments and the reported data are moved. -/
noncomputable def moveInt (L : EuclideanSpace ℝ (Fin n) →ₗᵢ[ℝ] EuclideanSpace ℝ (Fin n')) (w : EuclideanSpace ℝ (Fin n')) (x : SegInt n ℝ) :
    SegInt n' ℝ :=
  ⟨⟨moveSeg L w x.seg1.seg, x.seg1.origin⟩, ⟨moveSeg L w x.seg2.seg, x.seg2.origin⟩, moveInfo L w x.info⟩

end Verif.Spec
