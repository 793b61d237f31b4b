import Verif.Model.Num
import Mathlib.Data.Real.Basic

/-!
Specification vocabulary for grids and interpolation.
-/
namespace Verif.Spec

open Verif Verif.Model

/-- Neighbouring values differ by `h`. -/
def ConstStep (h : ℝ) (xs : List ℝ) : Prop := ∀ i x y, xs[i]? = some x → xs[i + 1]? = some y → y - x = h

/-- `n` equally spaced values from `a` to `b`. -/
structure EvenlySpaced (xs : List ℝ) (n : Nat) (a b : ℝ) : Prop where
  count : xs.length = n
  first : xs.head? = some a
  last : xs.getLast? = some b
  step : ∃ h, ConstStep h xs

/-- The floating point values of a list of real numbers. -/
def fins (xs : List ℝ) : List (Val ℝ) := xs.map .fin

/-- Neighbouring values increase by more than `1e-8`, the absolute tolerance of `np.isclose`. -/
def StepsOver (xs : List ℝ) : Prop := ∀ i x y, xs[i]? = some x → xs[i + 1]? = some y → 1 / 10 ^ 8 < y - x

/-- The curve `r` of floating point values has exactly the (finite) data of the curve `c`. -/
structure Represents (r : Curve (Val ℝ)) (c : Curve ℝ) : Prop where
  rows : r.rows = c.rows.map fins
  ncols : r.ncols = c.ncols
  tdata : r.tdata = c.tdata.map fins
  dtype : r.dtype = c.dtype

/-- The point dividing the way from `p` to `q` in the ratio `u : 1 - u`. -/
def mix (u : ℝ) (p q : List ℝ) : List ℝ := List.zipWith (fun x y => x + u * (y - x)) p q

/-- `lo` is the smallest and `hi` the largest number of the list. -/
structure Extremes (xs : List ℝ) (lo hi : ℝ) : Prop where
  lo_mem : lo ∈ xs
  hi_mem : hi ∈ xs
  lo_le : ∀ x ∈ xs, lo ≤ x
  le_hi : ∀ x ∈ xs, x ≤ hi

end Verif.Spec
