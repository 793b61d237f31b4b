import Verif.Model.Smooth
import Mathlib.Algebra.Polynomial.Derivative
import Mathlib.Algebra.Polynomial.Eval.Defs
import Mathlib.Data.Nat.Factorial.Basic

/-!
`savgol_filter` (skcurve/_smooth.py 124-145) and `scipy.signal.savgol_filter` underneath it, in exact real arithmetic.

The two least squares solvers are arbitrary functions (`LsqLib`); what the theorems assume about them is in `Spec/Savgol.lean`.
Polynomials are Mathlib polynomials instead of coefficient arrays.
-/
namespace Verif.Model

open Verif Verif.Np

/-- The library functions: `scipy.linalg.lstsq(A, y)` for the rows of `A`, `np.polyfit(np.arange(len(ys)), ys, deg)` for one
column, and whether this version of scipy accepts even window lengths. -/
structure LsqLib where
  lstsq : List (List ℝ) → List ℝ → List ℝ
  polyfit : List (Val ℝ) → Nat → Except PyErr (Polynomial ℝ)
  evenOk : Bool

/-- `savgol_coeffs(window_length, polyorder, deriv, delta)`: with `pos` the (half-)middle of the window, the least squares solution
of `sum_k c[k] * x[k]^m = [m = deriv] * deriv! / delta^deriv` for `m <= polyorder`, where `x` is `window_length - 1 - pos` down to
`-pos`. A derivative beyond the order gives zeros. -/
noncomputable def savgolCoeffs (lib : LsqLib) (wl po : Int) (deriv : Nat) (delta : ℝ) : Except PyErr (List ℝ) :=
  if wl ≤ po then .error .valueError
  else if wl % 2 = 0 ∧ lib.evenOk = false then .error .valueError
  else
    let pos : ℝ := if wl % 2 = 0 then ((wl / 2 : Int) : ℝ) - 1 / 2 else ((wl / 2 : Int) : ℝ)
    if ¬ (0 ≤ pos ∧ pos < wl) then .error .valueError
    else if po < deriv then .ok (List.replicate wl.toNat 0)
    else if delta = 0 ∧ 0 < deriv then .error .zeroDivision
    else .ok (lib.lstsq
      ((List.range (po.toNat + 1)).map fun m => (List.range wl.toNat).map fun (k : Nat) => ((wl : ℝ) - 1 - pos - k) ^ m)
      ((List.range (po.toNat + 1)).map fun m => if m = deriv then (deriv.factorial : ℝ) / delta ^ deriv else 0))

/-- `_fit_edge`: rows `is..ie` of `y` are replaced by the values of the (derivatives of the) polynomials fitted to the rows
`ws..we` of `x`, column by column. `np.polyfit` rejects negative degrees. -/
noncomputable def fitEdge (lib : LsqLib) (x : List (List (Val ℝ))) (ncols : Nat) (ws we is ie : Nat) (po : Int) (deriv : Nat)
    (delta : ℝ) (y : List (List (Val ℝ))) : Except PyErr (List (List (Val ℝ))) := do
  if po < 0 then .error .valueError
  else
    let ps ← (List.range ncols).mapM fun (j : Nat) =>
      lib.polyfit ((List.range (we - ws)).map fun (k : Nat) => (x.getD (ws + k) []).getD j (.fin 0)) po.toNat
    .ok ((List.range y.length).map fun (i : Nat) =>
      if is ≤ i ∧ i < ie then
        ps.map fun P => (Val.fin (((Polynomial.derivative^[deriv]) P).eval ((i : ℝ) - ws))).div (.fin (delta ^ deriv))
      else y.getD i [])

/-- `scipy.signal.savgol_filter(x, window_length, polyorder, deriv, delta, axis=0, mode, cval)`. The data is converted to
float64. -/
noncomputable def savgolFilter (lib : LsqLib) (c : Curve (Val ℝ)) (p : SavgolParams) : Except PyErr (CurveData (Val ℝ)) := do
  if p.mode ∉ ["mirror", "constant", "nearest", "interp", "wrap"] then .error .valueError
  else
    let coeffs ← savgolCoeffs lib p.windowLength p.polyorder p.deriv p.delta
    if p.mode = "interp" then
      if (c.size : Int) < p.windowLength then .error .valueError
      else
        let wl := p.windowLength.toNat
        let n := c.size
        let y0 := convolve1d c.rows c.ncols .float (coeffs.map Val.fin) .constant (.fin 0)
        let y1 ← fitEdge lib c.rows c.ncols 0 wl 0 (wl / 2) p.polyorder p.deriv p.delta y0
        let y2 ← fitEdge lib c.rows c.ncols (n - wl) n (n - wl / 2) n p.polyorder p.deriv p.delta y1
        .ok (.arr (NdArr.ofRows (.fin 0) y2 c.ncols) .float)
    else match ExtMode.ofString p.mode with
      | none => .error .runtimeError
      | some m => .ok (.arr (NdArr.ofRows (.fin 0) (convolve1d c.rows c.ncols .float (coeffs.map Val.fin) m (.fin p.cval)) c.ncols) .float)

/-- `savgol_filter` (_smooth.py 124-145) called with keyword arguments: a TypeError if they are not its own. -/
noncomputable def savgolFn (lib : LsqLib) : SmoothFn := fun c p =>
  match p with
  | .savgol p => savgolFilter lib c p
  | _ => .error .typeError

end Verif.Model
