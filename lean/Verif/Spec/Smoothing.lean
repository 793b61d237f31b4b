import Verif.Spec.SplineBc

/-!
Vocabulary for smoothing splines.
-/
namespace Verif.Spec

open Verif Verif.Model

/-- Weighted sum of the squared distances of the values `y` from the function `g` at the values of `t`. -/
noncomputable def misfit (t : List ℝ) (w y : Nat → ℝ) (g : ℝ → ℝ) : ℝ := ∑ i ∈ Finset.range t.length, w i * (y i - g (t.getD i 0)) ^ 2

/-- What a smoothing spline with the parameter `p` makes small: misfit against bending. -/
noncomputable def smoothCost (p : ℝ) (t : List ℝ) (w y : Nat → ℝ) (a b : ℝ) (g g2 : ℝ → ℝ) : ℝ :=
  p * misfit t w y g + (1 - p) * bending a b g2

/-- A number as the argument `smooth`. -/
def SmoothIs (v : ArgVal) (p : ℝ) : Prop := v = .real p ∨ (∃ n : Int, v = .int n ∧ p = n) ∨ (v = .bool true ∧ p = 1) ∨ (v = .bool false ∧ p = 0)

/-- The argument `weights` for `n` points: positive numbers, or None for equal weights. -/
def WeightsFor (v : ArgVal) (n : Nat) (w : Nat → ℝ) : Prop :=
  (v = .none ∧ ∀ i, i < n → w i = 1) ∨ ∃ l : List ℝ, v = .arr l ∧ l.length = n ∧ ∀ i u, l[i]? = some u → w i = u ∧ 0 < u

end Verif.Spec
