import Verif.Model.Curve
import Verif.Model.Rounded
import Verif.Model.RoundedCross

/-!
`nonsingular` of a curve of finite floats in rounded arithmetic (skcurve/_diffgeom.py).
-/
namespace Verif.Model

open Verif Verif.Np

/-- `nonsingular` (_diffgeom.py 41-66, _base.py 2123-2141): the chord lengths are computed with rounding, the flags are `np.isclose(np.hstack([1.0, chord_lengths]), 0.0)` (no coordinate is NaN or infinite), `drop` selects. An empty curve is a
ValueError as in `Curve.nonsingular`. -/
def NonsingularTo (fl : ℝ → ℝ) (c : Curve ℝ) (r : Except PyErr (Curve ℝ)) : Prop :=
  (c.rows = [] ∧ r = .error .valueError) ∨
  c.rows ≠ [] ∧ ∃ zs flags, ChordsTo fl c.rows zs ∧ List.Forall₂ (fun z b => b = true ↔ CloseFl fl z 0) (1 :: zs) flags ∧ r = c.drop fun _ => .boolVec flags

end Verif.Model
