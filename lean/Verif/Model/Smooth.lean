import Verif.Model.Interp
import Mathlib.Analysis.SpecialFunctions.Trigonometric.Basic

/-!
Smoothing: `_smooth.py` and the functions of scipy underneath it (`ndimage.convolve1d`, `signal.windows.hann`).

Numbers are exact real numbers with NaN and infinities (`Val ℝ`); sums are not rounded.
-/
namespace Verif.Model

open Verif.Np

/-- What a window function returns: a 1-D array of floats, a 1-D array of integers, a float array of another rank, something
else (a list, say). -/
inductive WinObj
  | floats (w : List (Val ℝ))
  | ints (w : List Int)
  | nd
  | other

/-- The argument `window_type` (_smooth.py 150, 161-168): a callable, or a name for scipy's `get_window`; both are functions
of the window size. -/
inductive WinType
  | callable (f : Int → Except PyErr WinObj)
  | named (f : Int → Except PyErr WinObj)

/-- The sum of an array. -/
noncomputable def sumV (xs : List (Val ℝ)) : Val ℝ := xs.foldl Val.add (.fin 0)

/-- `scipy.signal.windows.hann(n)` (symmetric): ones for `n <= 1`, otherwise `0.5 + 0.5 cos(fac)` with `fac` from `-π` to `π`. -/
noncomputable def hann (n : Int) : Except PyErr WinObj :=
  if n < 0 then .error .valueError
  else if n ≤ 1 then .ok (.floats (List.replicate n.toNat (.fin 1)))
  else .ok (.floats ((List.range n.toNat).map fun (k : Nat) =>
    .fin (1 / 2 + 1 / 2 * Real.cos (-Real.pi + k * (2 * Real.pi / (n.toNat - 1))))))

/-- Creation of the window (_smooth.py 161-168): exceptions of a callable become ValueErrors, those of `get_window` pass. -/
def makeWindow (wt : WinType) (size : Int) : Except PyErr WinObj :=
  match wt with
  | .callable f => wrapErr .valueError (f size)
  | .named f => f size

/-- `window /= window.sum()` (_smooth.py 170): in place, so an integer array is a TypeError and something without `sum` an
AttributeError. The result is the window object after the statement. -/
noncomputable def normWindow : WinObj → Except PyErr WinObj
  | .floats w => .ok (.floats (w.map fun x => x.div (sumV w)))
  | .ints _ => .error .typeError
  | .nd => .ok .nd
  | .other => .error .attributeError

/-- The boundary modes of `scipy.ndimage`. -/
inductive ExtMode
  | reflect | mirror | nearest | wrap | constant
  deriving DecidableEq, Repr

/-- `_extend_mode_to_code`; other names are RuntimeErrors. -/
def ExtMode.ofString (s : String) : Option ExtMode :=
  if s = "reflect" then some .reflect
  else if s = "mirror" then some .mirror
  else if s = "nearest" then some .nearest
  else if s = "wrap" then some .wrap
  else if s = "constant" then some .constant
  else none

/-- Which entry of a line of `n` entries stands at position `i` of the extended line (`NI_ExtendLine`); none is `cval`. -/
def extIndex (m : ExtMode) (n : Nat) (i : Int) : Option Nat :=
  if 0 ≤ i ∧ i < n then some i.toNat
  else match m with
    | .reflect => if i % (2 * n) < n then some (i % (2 * n)).toNat else some (2 * n - 1 - i % (2 * n)).toNat
    | .mirror =>
      if n = 1 then some 0
      else if i % (2 * n - 2) < n then some (i % (2 * n - 2)).toNat else some (2 * n - 2 - i % (2 * n - 2)).toNat
    | .nearest => if i < 0 then some 0 else some (n - 1)
    | .wrap => some (i % n).toNat
    | .constant => none

/-- Column `j` of the extended data at position `i`. -/
def extAt (rows : List (List (Val ℝ))) (m : ExtMode) (cval : Val ℝ) (i : Int) (j : Nat) : Val ℝ :=
  match extIndex m rows.length i with
  | some p => (rows.getD p []).getD j (.fin 0)
  | none => cval

/-- `ndimage.convolve1d(data, weights, mode, cval, axis=0)`: entry `(i, j)` is the sum of `weights[k] * data[i + len // 2 - k, j]`
over the extended data. The output array has the dtype of the data: for integer data the sums are truncated. -/
noncomputable def convolve1d (rows : List (List (Val ℝ))) (ncols : Nat) (dt : DType) (w : List (Val ℝ)) (m : ExtMode) (cval : Val ℝ) :
    List (List (Val ℝ)) :=
  (List.range rows.length).map fun (i : Nat) => (List.range ncols).map fun j =>
    dt.cast (sumV ((List.range w.length).map fun (k : Nat) =>
      (w.getD k (.fin 0)).mul (extAt rows m cval ((i : Int) + ((w.length / 2 : Nat) : Int) - (k : Int)) j)))

/-- The parameters of `window_filter`. -/
structure WinParams where
  size : Int
  wtype : WinType := .named hann
  mode : String := "reflect"
  cval : Val ℝ := .fin 0

/-- `window_filter` (_smooth.py 148-178). scipy rejects empty windows, windows of another rank, unknown modes and object arrays
with RuntimeErrors. -/
noncomputable def windowFilter (c : Curve (Val ℝ)) (p : WinParams) : Except PyErr (CurveData (Val ℝ)) := do
  let w0 ← makeWindow p.wtype p.size
  let w1 ← normWindow w0
  match w1 with
  | .floats w =>
    if w = [] then .error .runtimeError
    else match ExtMode.ofString p.mode with
      | none => .error .runtimeError
      | some m =>
        if c.dtype = .obj then .error .runtimeError
        else .ok (.arr (NdArr.ofRows (.fin 0) (convolve1d c.rows c.ncols c.dtype w m p.cval) c.ncols) c.dtype)
  | _ => .error .runtimeError

/-- `window_filter` with a window function that returns the caller's float array `w` (the same object every time): the outcome and
the content of that array afterwards. `window /= window.sum()` (_smooth.py 170) writes into the array it was given. -/
noncomputable def windowFilterShared (c : Curve (Val ℝ)) (p : WinParams) (w : List (Val ℝ)) :
    Except PyErr (CurveData (Val ℝ)) × List (Val ℝ) :=
  (windowFilter c { p with wtype := .callable fun _ => .ok (.floats w) },
    match normWindow (.floats w) with
    | .ok (.floats w') => w'
    | _ => w)

/-- The parameters of `savgol_filter` (_smooth.py 125-127). -/
structure SavgolParams where
  windowLength : Int
  polyorder : Int
  deriv : Nat := 0
  delta : ℝ := 1
  mode : String := "interp"
  cval : ℝ := 0

/-- The parameters given to `smooth`: those of the window filter, those of the Savitzky-Golay filter, or others. -/
inductive SmoothParams
  | window (p : WinParams)
  | savgol (p : SavgolParams)
  | other (p : String)

/-- A smoothing method: any function. -/
abbrev SmoothFn := Curve (Val ℝ) → SmoothParams → Except PyErr (CurveData (Val ℝ))

/-- `window_filter` called with keyword arguments: a TypeError if they are not its own. -/
noncomputable def windowFn : SmoothFn := fun c p =>
  match p with
  | .window p => windowFilter c p
  | _ => .error .typeError

/-- `Curve.smooth` (_base.py 2224-2258, _smooth.py 181-219): `type(curve)(smoothed_data)`. -/
noncomputable def Curve.smooth (r : Reg SmoothFn) (c : Curve (Val ℝ)) (method : String) (p : SmoothParams) : Except PyErr (Curve (Val ℝ)) :=
  smoothCall r (fun d => Curve.init d none none none none) c method p

/-- The registry after import (_smooth.py 124, 148), with any function in the place of `savgol_filter`. -/
noncomputable def smoothReg (savgol : SmoothFn) : Reg SmoothFn :=
  (registerSmooth (registerSmooth Reg.empty "savgol" ⟨savgol, true⟩).1 "window" ⟨windowFn, true⟩).1

end Verif.Model
