import Verif.Spec.Interp
import Verif.Spec.DiffGeom

/-!
Vocabulary for smoothing.
-/
namespace Verif.Spec

open Verif.Model

/-- The curve of floats with the given finite coordinates. -/
def finCurve (c : Curve ℝ) : Curve (Val ℝ) := ⟨c.rows.map fins, c.ncols, c.tdata.map fins, c.dtype⟩

/-- The boundary modes that only repeat points of the curve. -/
def RepeatMode (mode : String) : Prop := mode ∈ ["reflect", "mirror", "nearest", "wrap"]

end Verif.Spec
