import Verif.Spec.Savgol

/-!
Vocabulary: the best polynomial through consecutive values, and what is assumed about the shortest least squares solution.
-/
namespace Verif.Spec

open Verif Verif.Model

/-- The squared error of a polynomial at the `wl` positions `a, a + 1, ...` of a sequence. -/
noncomputable def fitErr (a : ℤ) (wl : Nat) (z : ℤ → ℝ) (P : Polynomial ℝ) : ℝ :=
  ∑ k ∈ Finset.range wl, (P.eval ((a : ℝ) + k) - z (a + k)) ^ 2

/-- `P` has at most degree `po` and no such polynomial has a smaller error at the positions `a, ..., a + wl - 1` of the sequence `z`. -/
structure BestFit (po : Nat) (a : ℤ) (wl : Nat) (z : ℤ → ℝ) (P : Polynomial ℝ) : Prop where
  deg : P.natDegree ≤ po
  best : ∀ Q : Polynomial ℝ, Q.natDegree ≤ po → fitErr a wl z P ≤ fitErr a wl z Q

/-- Both solvers find least squares solutions, and `lstsq` finds the shortest one (as documented: the minimum-norm solution). -/
structure MinNormOk (lib : LsqLib) : Prop extends LsqOk lib where
  lstsq_short : ∀ A y L, A ≠ [] → (∀ r ∈ A, r.length = L) → A.length = y.length →
    ∀ c : List ℝ, c.length = L → resid A y c ≤ resid A y (lib.lstsq A y) →
      ∑ k ∈ Finset.range L, (lib.lstsq A y).getD k 0 ^ 2 ≤ ∑ k ∈ Finset.range L, c.getD k 0 ^ 2

end Verif.Spec
