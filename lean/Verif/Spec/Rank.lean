import Mathlib.Data.Real.Basic
import Mathlib.Data.Fin.VecNotation
import Mathlib.Algebra.BigOperators.Fin
import Mathlib.Algebra.Order.BigOperators.Group.List

/-! Points that lie near a subspace. No reference to the model. -/
namespace Verif.Spec

variable {n : Nat}

/-- The scalar product of two vectors. -/
def sprod (v w : Fin n → ℝ) : ℝ := ∑ i, v i * w i

/-- The sum of the squares of the scalar products of all points with `w`: for a unit vector `w` the sum of the squared extents of the points in
direction `w`. -/
def spread (ps : List (Fin n → ℝ)) (w : Fin n → ℝ) : ℝ := (ps.map fun p => sprod p w ^ 2).sum

/-- There are `k` directions such that across to all of them the spread of the points is at most `t²`. -/
def FlatWithin (k : Nat) (t : ℝ) (ps : List (Fin n → ℝ)) : Prop :=
  ∃ g : Fin k → Fin n → ℝ, ∀ w : Fin n → ℝ, (∀ i, sprod (g i) w = 0) → spread ps w ≤ t ^ 2 * sprod w w

/-- There are `k` directions such that across to all of them the spread of the points is at most `ρ²` times their spread in the direction `u` where it
is largest. -/
def FlatRel (k : Nat) (ρ : ℝ) (ps : List (Fin n → ℝ)) : Prop :=
  ∃ u : Fin n → ℝ, sprod u u = 1 ∧ ∃ g : Fin k → Fin n → ℝ, ∀ w : Fin n → ℝ, (∀ i, sprod (g i) w = 0) →
    spread ps w ≤ ρ ^ 2 * spread ps u * sprod w w

/-- The vector is a combination of the given ones. -/
def Combination {k : Nat} (g : Fin k → Fin n → ℝ) (q : Fin n → ℝ) : Prop := ∃ x : Fin k → ℝ, ∀ j, q j = ∑ i, x i * g i j

end Verif.Spec
