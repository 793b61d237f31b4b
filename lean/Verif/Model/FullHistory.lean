import Verif.Model.History
import Verif.Model.ArcLen
import Verif.Model.Smooth
import Verif.Model.Spline

/-!
Histories of all curve-returning operations on curves of floating point values (used by C01): those of Model/History and
`nonsingular`, `coorientplane`, `interpolate`, `smooth`.
-/
namespace Verif.Model

open Verif Verif.Np

/-- The order in which numpy sorts floating point values: NaN last. -/
def Val.rank : Val ℝ → Nat
  | .ninf => 0
  | .fin _ => 1
  | .pinf => 2
  | .nan => 3

noncomputable instance valLE : LE (Val ℝ) := ⟨fun a b => a.rank < b.rank ∨ a.rank = b.rank ∧ a.real ≤ b.real⟩

noncomputable instance valDecLE : DecidableLE (Val ℝ) := fun _ _ => Classical.propDecidable _

/-- `coorientplane` (_diffgeom.py 169-205) on floating point values. If an entry of the determinant is NaN or infinite the outcome
of LAPACK's elimination is left open (`dec`). -/
noncomputable def isCoorientV (dec : Bool) (c : Curve (Val ℝ)) (a1 a2 : Int) : Except PyErr Bool :=
  if c.size = 0 ∨ c.size = 1 then .ok true
  else match CurvePoint.init c 0 0, CurvePoint.init c 0 (-1) with
    | .ok pb, .ok pe =>
      match getIdx pb.point.data a1, getIdx pe.point.data a1, getIdx pb.point.data a2, getIdx pe.point.data a2 with
      | .ok (.fin x1), .ok (.fin y1), .ok (.fin x2), .ok (.fin y2) => .ok (decide (0 < x1 * y2 - y1 * x2))
      | .ok _, .ok _, .ok _, .ok _ => .ok dec
      | .error e, _, _, _ => .error e
      | _, .error e, _, _ => .error e
      | _, _, .error e, _ => .error e
      | _, _, _, .error e => .error e
    | .error e, _ => .error e
    | _, .error e => .error e

/-- `Curve.coorientplane` (_base.py 1660-1693). -/
noncomputable def Curve.coorientplaneV (dec : Bool) (c : Curve (Val ℝ)) (a1 a2 : Int) : Except PyErr (Curve (Val ℝ)) :=
  match isCoorientV dec c a1 a2 with
  | .error e => .error e
  | .ok false => c.reverse
  | .ok true => c.copy

/-- The number, if finite. -/
def Val.fin? : Val ℝ → Option ℝ
  | .fin x => some x
  | _ => none

/-- The curve of real numbers, if all values are finite. -/
def Curve.fin? (c : Curve (Val ℝ)) : Option (Curve ℝ) := do
  let rows ← c.rows.mapM fun r => r.mapM Val.fin?
  match c.tdata with
  | none => return ⟨rows, c.ncols, none, c.dtype⟩
  | some t => return ⟨rows, c.ncols, some (← t.mapM Val.fin?), c.dtype⟩

/-- One curve-returning call. `interpolate` uses the registry after import (with any libraries); for a curve with NaN or infinite
values the array found by the interpolator and the grid are left open (`other`): only the construction of the new curve
(_interpolate.py 299-304) is modelled. `smooth` uses any registry of methods. -/
inductive AnyOp
  | basic (o : Op (Val ℝ))
  | nonsingular
  | coorientplane (dec : Bool) (a1 a2 : Int)
  | interpolate (lib : SplineLib) (junk : ℝ) (spec : GridSpec) (method : String) (kw : InterpKw)
      (other : Except PyErr (NdArr (Val ℝ) × DType × List (Val ℝ)))
  | smooth (r : Reg SmoothFn) (method : String) (p : SmoothParams)

/-- Effect of one call. -/
noncomputable def AnyOp.step : AnyOp → Curve (Val ℝ) → Except PyErr (Curve (Val ℝ))
  | .basic o, c => o.step c
  | .nonsingular, c => c.nonsingular
  | .coorientplane dec a1 a2, c => c.coorientplaneV dec a1 a2
  | .interpolate lib junk spec m kw other, c =>
    match c.fin? with
    | some c' => c'.interpolate (builtinInterp lib junk) spec m kw
    | none => do
      let d ← other
      Curve.init (.arr d.1 d.2.1) (if c.isparametric then some d.2.2 else none) none none (some c.dtype)
  | .smooth r m p, c => c.smooth r m p

/-- A history: calls one after another; an exception ends it. -/
noncomputable def runAny : List AnyOp → Curve (Val ℝ) → Except PyErr (Curve (Val ℝ))
  | [], c => .ok c
  | o :: os, c => match o.step c with
    | .error e => .error e
    | .ok c' => runAny os c'

end Verif.Model
