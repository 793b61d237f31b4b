import Verif.Model.Savgol
import Verif.Spec.Smooth

/-!
What is assumed about the least squares solvers under the Savitzky-Golay filter.
-/
namespace Verif.Spec

open Verif Verif.Model

/-- The squared residual of `A c = y`. -/
noncomputable def resid (A : List (List ℝ)) (y c : List ℝ) : ℝ :=
  ∑ i ∈ Finset.range y.length, (∑ k ∈ Finset.range c.length, at2 A i k * c.getD k 0 - y.getD i 0) ^ 2

/-- The squared error of a polynomial at the positions `0, 1, ...`. -/
noncomputable def polyErr (ys : List ℝ) (P : Polynomial ℝ) : ℝ := ∑ k ∈ Finset.range ys.length, (P.eval (k : ℝ) - ys.getD k 0) ^ 2

/-- Both solvers find least squares solutions (of finite data). -/
structure LsqOk (lib : LsqLib) : Prop where
  lstsq_len : ∀ A y L, A ≠ [] → (∀ r ∈ A, r.length = L) → A.length = y.length → (lib.lstsq A y).length = L
  lstsq_min : ∀ A y L, A ≠ [] → (∀ r ∈ A, r.length = L) → A.length = y.length →
    ∀ c : List ℝ, c.length = L → resid A y (lib.lstsq A y) ≤ resid A y c
  polyfit_min : ∀ ys d, d < ys.length → ∃ P, lib.polyfit (fins ys) d = .ok P ∧ P.natDegree ≤ d ∧
    ∀ Q : Polynomial ℝ, Q.natDegree ≤ d → polyErr ys P ≤ polyErr ys Q

end Verif.Spec
