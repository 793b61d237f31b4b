import Verif.Model.Interp
import Verif.Model.Rounded
import Verif.Model.RoundedCross

/-!
Resampling a curve without parameter values by `curve.interpolate(num, method='linear')` in rounded arithmetic, from the chords to the points (skcurve/_diffgeom.py, skcurve/_interpolate.py).
-/
namespace Verif.Model

open Verif Verif.Np

/-- The test of `_get_interp_grid` (_interpolate.py 358-362): a difference is negative or close to zero. -/
def BadStepsFl (fl : ℝ → ℝ) (g : List ℝ) : Prop := ∃ d ∈ List.zipWith (fun x y => fl (y - x)) g g.tail, d < 0 ∨ CloseFl fl d 0

/-- `interp1d._call_linear` at one value of the grid, see `interp1dAt`; comparisons do not round. The parameter does not decrease (`C119_cumarclen`), so that the stable sort of the constructor changes nothing. -/
noncomputable def interpAtFl (fl : ℝ → ℝ) (ts : List ℝ) (rows : List (List ℝ)) (x : ℝ) : List ℝ :=
  let k := max 1 (min (searchsorted ts (.fin x)) (ts.length - 1))
  List.zipWith (fun ylo yhi => lerpFl fl (ts.getD (k - 1) 0) (ts.getD k 0) ylo yhi x) (rows.getD (k - 1) []) (rows.getD k [])

open Classical in
/-- `interpolate(num, method='linear', extrapolate=extrapolate)` of a curve of at least two points without parameter values (_interpolate.py 126-135, 282-304, 343-373, 400-423): the points of the result or the exception. The parameter is
`cumarclen` (_base.py 1568-1591), the grid is `np.linspace(curve.t[0], curve.t[-1], num)`. -/
def ResampleTo (fl : ℝ → ℝ) (rows : List (List ℝ)) (num : Nat) (extrapolate : Bool) (r : Except PyErr (List (List ℝ))) : Prop :=
  ∃ ts, CumTo fl rows ts ∧
    r = if BadStepsFl fl (linspaceFl fl (ts.headD 0) (ts.getLastD 0) num) then .error .valueError
      else if extrapolate = false ∧ ∃ x ∈ linspaceFl fl (ts.headD 0) (ts.getLastD 0) num, x < ts.headD 0 ∨ ts.getLastD 0 < x then .error .interpolationError
      else .ok ((linspaceFl fl (ts.headD 0) (ts.getLastD 0) num).map (interpAtFl fl ts rows))

end Verif.Model
