import Verif.Spec.SplineEnds
import Verif.Spec.Affine
import Verif.Spec.Backwards

/-!
Vocabulary for the symmetries of cubic splines with boundary conditions.
-/
namespace Verif.Spec

open Verif Verif.Model

/-- How an entry of `bc_type` has to change if the points (of dimension `n`) are mapped by the matrix `M` (to dimension `n'`) and the
parameter values are multiplied by `a`: the strings stay, a derivative of order `o` is mapped by `M` and divided by `a ^ o`. -/
inductive EndImage (M : Nat → Nat → ℝ) (a : ℝ) (n n' : Nat) : BcEnd → BcEnd → Prop
  | str (s : String) : EndImage M a n n' (.str s) (.str s)
  | deriv (o : ℤ) (vs vs' : List ℝ) (hl : vs'.length = n')
      (h : ∀ j, j < n' → vs'.getD j 0 = (∑ k ∈ Finset.range n, M j k * vs.getD k 0) / a ^ o) : EndImage M a n n' (.deriv o vs) (.deriv o vs')

/-- The matrix that changes nothing. -/
def unitMat (j k : Nat) : ℝ := if j = k then 1 else 0

end Verif.Spec
