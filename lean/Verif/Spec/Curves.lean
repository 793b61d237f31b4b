import Verif.Spec.Interp

/-!
Vocabulary for the well-known curves.
-/
namespace Verif.Spec

open Verif.Model

/-- The curve is sampled at `n` parameter values from `a` to `b`, has dimension `d`, and every sample meets `P`, which gets the
parameter value and the point. -/
structure Sampled (c : Curve ℝ) (d n : Nat) (a b : ℝ) (P : ℝ → List ℝ → Prop) : Prop where
  size : c.size = n
  dim : c.ncols = d
  dtype : c.dtype = .float
  rect : ∀ row ∈ c.rows, row.length = d
  param : ∃ ts, c.tdata = some ts ∧ (2 ≤ n → EvenlySpaced ts n a b) ∧ (n = 1 → ts = [a]) ∧
    ∀ (i : Nat) t row, ts[i]? = some t → c.rows[i]? = some row → P t row

end Verif.Spec
