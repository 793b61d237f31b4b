import Verif.Model.Interp
import Verif.Model.Rounded

/-!
Grids by length and by speed in rounded arithmetic (skcurve/_interpolate.py). The curve has no parameter values.
-/
namespace Verif.Model

open Verif Verif.Np

/-- The number of points of `UniformInterpolationGrid(fill, kind='length')` (_interpolate.py 127-128): `int(round(curve.arclen / fill)) + 1`. -/
def LengthCountTo (fl : ℝ → ℝ) (rows : List (List ℝ)) (fill : ℝ) (n : Int) : Prop := ∃ a, ArclenTo fl rows a ∧ n = roundEven (fl (a / fill)) + 1

/-- `np.interp(x, xp, fp)`, to which `interp1d(x, y, kind='linear')` delegates for arrays of numbers (scipy, `_call_linear_np`): the last value from the last node on, the first one before the first, else the line between the two nodes around.
numpy tests whether `x` is a node, which changes nothing (`C121_linear`). -/
noncomputable def npInterpFl (fl : ℝ → ℝ) (xp fp : List ℝ) (x : ℝ) : ℝ :=
  if x < xp.headD 0 then fp.headD 0
  else if xp.getLastD 0 ≤ x then fp.getLastD 0
  else
    let j := (xp.takeWhile fun y => decide (y ≤ x)).length - 1
    lerpFl fl (xp.getD j 0) (xp.getD (j + 1) 0) (fp.getD j 0) (fp.getD (j + 1) 0) x

/-- The interpolated cumulative lengths of `PreservedSpeedInterpolationGrid.__call__` (_interpolate.py 246-250), from the cumulative lengths. -/
noncomputable def speedLensFl (fl : ℝ → ℝ) (ts : List ℝ) (n : Nat) : List ℝ := (linspaceFl fl 0 1 n).map (npInterpFl fl (linspaceFl fl 0 1 ts.length) ts)

/-- `linrescale` of one value from the range `lo`, `hi` to the range 0, `top` (_numeric.py 133-134). -/
noncomputable def rescaleFl (fl : ℝ → ℝ) (lo hi top x : ℝ) : ℝ := fl (fl (fl (fl (x - lo) / fl (hi - lo)) * fl (top - 0)) + 0)

/-- `np.min`. -/
def minR (xs : List ℝ) : ℝ := xs.foldl min (xs.headD 0)

/-- `np.max`. -/
def maxR (xs : List ℝ) : ℝ := xs.foldl max (xs.headD 0)

/-- `PreservedSpeedInterpolationGrid(n)(curve)` (_interpolate.py 244-256). -/
def SpeedTo (fl : ℝ → ℝ) (rows : List (List ℝ)) (n : Nat) (g : List ℝ) : Prop :=
  ∃ zs a, ChordsTo fl rows zs ∧ SumsTo fl zs a ∧
    g = (speedLensFl fl (0 :: cumsumFl fl zs) n).map (rescaleFl fl (minR (speedLensFl fl (0 :: cumsumFl fl zs) n)) (maxR (speedLensFl fl (0 :: cumsumFl fl zs) n)) a)

end Verif.Model
