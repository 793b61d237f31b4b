import Verif.Model.Rounded

/-!
`coorientplane` (_diffgeom.py 169-205) with rounded operations: `np.linalg.det` of two rows and columns.
-/
namespace Verif.Model

open Verif Verif.Np

/-- The multiplier of the elimination in LAPACK: the quotient, or the product with the rounded reciprocal of the pivot. -/
def MultTo (fl : ℝ → ℝ) (b a l : ℝ) : Prop := l = fl (b / a) ∨ l = fl (b * fl (1 / a))

/-- The update of the elimination, with or without a fused operation. -/
def UpdTo (fl : ℝ → ℝ) (d l c u : ℝ) : Prop := u = fl (d - fl (l * c)) ∨ u = fl (d - l * c)

/-- `np.linalg.det([[x1, y1], [x2, y2]])` may have sign `s` (_diffgeom.py 202-205): `getrf` eliminates with the entry of larger absolute value of the first
column as pivot, the first one of equal ones; the sign is that of the product of the pivots and of the exchange of rows. The result is `sign * exp(logdet)`, whose
sign is `s` without underflow. -/
noncomputable def DetSignTo (fl : ℝ → ℝ) (x1 y1 x2 y2 : ℝ) (s : SignType) : Prop :=
  if x1 = 0 ∧ x2 = 0 then s = 0
  else if |x2| ≤ |x1| then ∃ l u, MultTo fl x2 x1 l ∧ UpdTo fl y2 l y1 u ∧ s = SignType.sign x1 * SignType.sign u
  else ∃ l u, MultTo fl x1 x2 l ∧ UpdTo fl y1 l y2 u ∧ s = -(SignType.sign x2 * SignType.sign u)

/-- `coorientplane` (_diffgeom.py 169-205) may give `r` (compare `isCoorient`). -/
def CoorientTo (fl : ℝ → ℝ) (c : Curve ℝ) (a1 a2 : Int) (r : Except PyErr Bool) : Prop :=
  if c.size = 0 ∨ c.size = 1 then r = .ok true
  else match CurvePoint.init c 0 0, CurvePoint.init c 0 (-1) with
    | .ok pb, .ok pe =>
      match getIdx pb.point.data a1, getIdx pe.point.data a1, getIdx pb.point.data a2, getIdx pe.point.data a2 with
      | .ok x1, .ok y1, .ok x2, .ok y2 => ∃ s, DetSignTo fl x1 y1 x2 y2 s ∧ r = .ok (decide (0 < s))
      | .error e, _, _, _ => r = .error e
      | _, .error e, _, _ => r = .error e
      | _, _, .error e, _ => r = .error e
      | _, _, _, .error e => r = .error e
    | .error e, _ => r = .error e
    | _, .error e => r = .error e

/-- `Curve.coorientplane` (_base.py 1660-1693) may give `r`. -/
def CoorientplaneTo (fl : ℝ → ℝ) (c : Curve ℝ) (a1 a2 : Int) (r : Except PyErr (Curve ℝ)) : Prop :=
  ∃ b, CoorientTo fl c a1 a2 b ∧ r = match b with
    | .error e => .error e
    | .ok false => c.reverse
    | .ok true => c.copy

end Verif.Model
