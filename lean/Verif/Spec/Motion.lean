import Verif.Model.Curve
import Verif.Spec.DiffGeom
import Mathlib.Analysis.Normed.Operator.LinearIsometry

/-!
Specification vocabulary: a curve moved by an isometry, or scaled.
-/
namespace Verif.Spec

open Verif.Model

/-- The points of `c'` are the images of the points of `c` under `x ↦ L x + w`, where `L` keeps lengths. -/
structure MovedBy {n n' : Nat} (L : EuclideanSpace ℝ (Fin n) →ₗᵢ[ℝ] EuclideanSpace ℝ (Fin n')) (w : EuclideanSpace ℝ (Fin n'))
    (c c' : Curve ℝ) : Prop where
  size : c'.size = c.size
  ndim : c.ndim = n
  ndim' : c'.ndim = n'
  pts : ∀ i, i < c.size → rowVec n' c'.rows i = L (rowVec n c.rows i) + w

/-- The points of `c'` are the points of `c` multiplied by `r` and translated by `w`. -/
structure ScaledBy (r : ℝ) (w : Nat → ℝ) (c c' : Curve ℝ) : Prop where
  size : c'.size = c.size
  ndim : c'.ndim = c.ndim
  pts : ∀ i j, i < c.size → j < c.ndim → at2 c'.rows i j = r * at2 c.rows i j + w j

end Verif.Spec
