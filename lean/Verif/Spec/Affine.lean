import Verif.Spec.Smooth
import Verif.Spec.Curve

/-!
Vocabulary: linear filters and affine images of curves.
-/
namespace Verif.Spec

open Verif.Model

/-- On curves of `n` points with property `ok` the function `f` gives a float curve of `n` points without parameter; its
coordinates are combinations of the coordinates of the points, with weights of sum `s` that depend on nothing but the place. -/
def LinearFilter (n : Nat) (s : ℝ) (ok : Curve ℝ → Prop) (f : Curve (Val ℝ) → Except PyErr (Curve (Val ℝ))) : Prop :=
  ∃ B : Nat → Nat → ℝ, (∀ i, i < n → ∑ q ∈ Finset.range n, B i q = s) ∧
    ∀ c : Curve ℝ, WF c → c.size = n → ok c →
      ∃ c', f (finCurve c) = .ok (finCurve c') ∧ WF c' ∧ c'.size = n ∧ c'.ncols = c.ncols ∧ c'.dtype = .float ∧ c'.tdata = none ∧
        ∀ i j, i < n → j < c.ncols → at2 c'.rows i j = ∑ q ∈ Finset.range n, B i q * at2 c.rows q j

/-- The points of `c'` are the images of the points of `c` under the affine map `x ↦ M x + b`. -/
structure AffineImage (M : Nat → Nat → ℝ) (b : Nat → ℝ) (c c' : Curve ℝ) : Prop where
  size : c'.size = c.size
  pts : ∀ i j, i < c.size → j < c'.ncols → at2 c'.rows i j = ∑ k ∈ Finset.range c.ncols, M j k * at2 c.rows i k + b j

/-- The point `p'` is the image of the point `p` (of dimension `n`) under `x ↦ M x + b`. -/
def AffinePt (M : Nat → Nat → ℝ) (b : Nat → ℝ) (n n' : Nat) (p p' : List ℝ) : Prop :=
  p.length = n ∧ p'.length = n' ∧ ∀ j, j < n' → p'.getD j 0 = ∑ k ∈ Finset.range n, M j k * p.getD k 0 + b j

end Verif.Spec
