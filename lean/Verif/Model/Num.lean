import Verif.Model.Curve
import Mathlib.Algebra.Order.Floor.Ring
import Mathlib.Algebra.Order.Field.Basic
import Mathlib.Data.Rat.Floor
import Mathlib.Tactic.Linarith
import Mathlib.Tactic.NormNum

/-!
Numbers: truncation, `np.isclose` and the IEEE special values.
-/
namespace Verif.Model

open Verif

section
variable {K : Type} [Field K] [LinearOrder K] [IsStrictOrderedRing K]

/-- Default `atol` of `np.isclose` (1e-8, taken as the exact decimal). -/
def atol : K := 1 / 100000000

/-- Default `rtol` of `np.isclose` (1e-5, taken as the exact decimal). -/
def rtol : K := 1 / 100000

/-- `np.isclose(a, b)` on finite numbers: `|a - b| <= atol + rtol * |b|`. Note the asymmetry. -/
def closeK (a b : K) : Bool := decide (|a - b| ≤ atol + rtol * |b|)

/-- `np.finfo(np.float64).eps` (_numeric.py 12). -/
def F_EPS : K := 1 / 2 ^ 52

variable [FloorRing K]

/-- Conversion of a float to an integer dtype: truncation toward zero. -/
def truncK (x : K) : K := if 0 ≤ x then (⌊x⌋ : K) else (⌈x⌉ : K)

theorem truncK_truncK (x : K) : truncK (truncK x) = truncK x := by
  unfold truncK
  split
  · split
    · simp
    · rename_i h1 h2
      exact absurd (by exact_mod_cast Int.floor_nonneg.2 h1) h2
  · split <;> simp

theorem truncK_intCast (n : ℤ) : truncK (n : K) = n := by
  unfold truncK; split <;> simp

/-- Coordinates from an ordered field: finite numbers only. -/
instance (priority := low) fieldElem : Elem K where
  zero := 0
  trunc := truncK
  isclose := closeK
  trunc_zero := by simpa using truncK_intCast (K := K) 0
  trunc_trunc := truncK_truncK
end

/-- Floating point values: finite numbers and the special values. Signed zeros are not distinguished. -/
inductive Val (K : Type)
  | fin (x : K)
  | nan
  | pinf
  | ninf
  deriving DecidableEq, Repr

section
variable {K : Type} [Field K] [LinearOrder K] [IsStrictOrderedRing K]

/-- `np.isfinite`. -/
def Val.isFin : Val K → Bool
  | .fin _ => true
  | _ => false

/-- IEEE `==`: NaN is unequal to everything. -/
def Val.ieeeEq : Val K → Val K → Bool
  | .fin x, .fin y => decide (x = y)
  | .pinf, .pinf => true
  | .ninf, .ninf => true
  | _, _ => false

/-- `np.isclose(a, b)` (numpy: the tolerance test where both are finite, `==` elsewhere). -/
def Val.isclose : Val K → Val K → Bool
  | .fin x, .fin y => closeK x y
  | a, b => a.ieeeEq b

variable [FloorRing K]

/-- Cast to an integer dtype; NaN and the infinities become the smallest int64 (x86-64). -/
def Val.trunc : Val K → Val K
  | .fin x => .fin (truncK x)
  | _ => .fin (-(2 ^ 63))

instance valElem : Elem (Val K) where
  zero := .fin 0
  trunc := Val.trunc
  isclose := Val.isclose
  trunc_zero := by
    simp only [Val.trunc]; congr 1; simpa using truncK_intCast (K := K) 0
  trunc_trunc := by
    have h : truncK (-(2 ^ 63) : K) = -(2 ^ 63) := by
      have := truncK_intCast (K := K) (-(2 ^ 63)); norm_num at this ⊢; exact this
    intro x
    cases x <;> simp [Val.trunc, truncK_truncK, h]
end

end Verif.Model
