import Verif.Spec.Smooth

/-!
Vocabulary: a finite sequence continued beyond its ends.
-/
namespace Verif.Spec

/-- The names of the ways of continuing. -/
def BoundaryMode (mode : String) : Prop := mode ∈ ["reflect", "mirror", "nearest", "wrap", "constant"]

/-- `e` continues the values `f 0, ..., f (n - 1)` beyond the ends: by reflection about the edges (`d c b a | a b c d | d c b a`),
by reflection about the centers of the end points (`d c b | a b c d | c b a`), by repeating the end points, periodically, or by a
constant. -/
structure Continues (mode : String) (n : Nat) (cval : ℝ) (f : Nat → ℝ) (e : ℤ → ℝ) : Prop where
  inside : ∀ i : Nat, i < n → e i = f i
  reflect : mode = "reflect" → ∀ i, e (-1 - i) = e i ∧ e (2 * n - 1 - i) = e i
  mirror : mode = "mirror" → (∀ i, e (-i) = e i ∧ e (2 * (n - 1) - i) = e i) ∧ (n = 1 → ∀ i, e i = e 0)
  nearest : mode = "nearest" → (∀ i, i < 0 → e i = e 0) ∧ ∀ i, (n : ℤ) ≤ i → e i = e (n - 1)
  wrap : mode = "wrap" → ∀ i, e (i + n) = e i
  constant : mode = "constant" → ∀ i, i < 0 ∨ (n : ℤ) ≤ i → e i = cval

end Verif.Spec
