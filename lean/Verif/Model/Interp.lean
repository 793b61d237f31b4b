import Verif.Model.ArcLen
import Verif.Model.Registry
import Mathlib.Algebra.Order.Round

/-!
Model of skcurve/_interpolate.py (grids, the interpolator base class, linear interpolation) and of `linrescale`
(_numeric.py 90-138).

Curves to be interpolated have finite coordinates and parameters (`Curve ℝ`); grids and results may contain NaN and the
infinities (`Val ℝ`). Arithmetic on finite numbers is exact. `junk` is the uninitialised number of `chordlen` for an
empty curve (see Model/ArcLen.lean).
-/
namespace Verif.Model

open Verif Verif.Np

/-! ## numpy and python helpers -/

/-- IEEE `<`. -/
noncomputable def Val.ltB : Val ℝ → Val ℝ → Bool
  | .fin x, .fin y => decide (x < y)
  | .nan, _ => false
  | _, .nan => false
  | .ninf, .ninf => false
  | .ninf, _ => true
  | .pinf, _ => false
  | .fin _, .pinf => true
  | .fin _, .ninf => false

/-- `np.minimum`: NaN wins. -/
noncomputable def Val.npmin : Val ℝ → Val ℝ → Val ℝ
  | .nan, _ => .nan
  | _, .nan => .nan
  | a, b => if b.ltB a then b else a

/-- `np.maximum`: NaN wins. -/
noncomputable def Val.npmax : Val ℝ → Val ℝ → Val ℝ
  | .nan, _ => .nan
  | _, .nan => .nan
  | a, b => if a.ltB b then b else a

/-- `np.min`; ValueError for an empty array. -/
noncomputable def npMin : List (Val ℝ) → Except PyErr (Val ℝ)
  | [] => .error .valueError
  | x :: xs => .ok (xs.foldl Val.npmin x)

/-- `np.max`; ValueError for an empty array. -/
noncomputable def npMax : List (Val ℝ) → Except PyErr (Val ℝ)
  | [] => .error .valueError
  | x :: xs => .ok (xs.foldl Val.npmax x)

/-- `np.diff` of a 1-D array. -/
noncomputable def diffV (g : List (Val ℝ)) : List (Val ℝ) := List.zipWith (fun a b => b.sub a) g g.tail

/-- `np.mean` of a 1-D array; NaN for an empty one. -/
noncomputable def meanV (g : List (Val ℝ)) : Val ℝ := (g.foldl Val.add (.fin 0)).div (.fin g.length)

/-- `np.linspace(a, b, n)`. -/
noncomputable def linspace (a b : Val ℝ) (n : Int) : Except PyErr (List (Val ℝ)) :=
  if n < 0 then .error .valueError
  else
    let delta := b.sub a
    let step := if 1 < n then delta.div (.fin (n - 1)) else delta
    .ok ((List.range n.toNat).map fun (i : Nat) => if 1 < n ∧ (i : Int) + 1 = n then b else ((Val.fin (i : ℝ)).mul step).add a)

/-- Round half to even. -/
noncomputable def roundEven (x : ℝ) : Int :=
  if x - ⌊x⌋ < 1 / 2 then ⌊x⌋
  else if 1 / 2 < x - ⌊x⌋ then ⌊x⌋ + 1
  else if ⌊x⌋ % 2 = 0 then ⌊x⌋ else ⌊x⌋ + 1

/-- `int(round(x))` of a float: ValueError for NaN, OverflowError for the infinities. -/
noncomputable def roundInt : Val ℝ → Except PyErr Int
  | .fin x => .ok (roundEven x)
  | .nan => .error .valueError
  | _ => .error .overflowError

/-- An argument that should be a number: an `int`, a `float`, or something else. -/
inductive PyNum
  | int (n : Int)
  | float (x : Val ℝ)
  | other

/-- The value of a number. -/
noncomputable def PyNum.val : PyNum → Val ℝ
  | .int n => .fin n
  | .float x => x
  | .other => .nan

/-- `isinstance(x, int)`. -/
def PyNum.isInt : PyNum → Bool
  | .int _ => true
  | _ => false

/-- `isinstance(x, (int, float))`. -/
def PyNum.isNum : PyNum → Bool
  | .other => false
  | _ => true

/-- `int(x)` of an argument that passed the check for `int`. -/
def PyNum.toInt : PyNum → Int
  | .int n => n
  | _ => 0

/-- Python division of a python float by a number: ZeroDivisionError. -/
noncomputable def pyDiv (x : ℝ) (y : Val ℝ) : Except PyErr (Val ℝ) :=
  if y = .fin 0 then .error .zeroDivision else .ok ((Val.fin x).div y)

/-- `linrescale` (_numeric.py 90-138). -/
noncomputable def linrescale (data : List (Val ℝ)) (inRange outRange : Option (Val ℝ × Val ℝ)) (outDtype : Option DType) :
    Except PyErr (List (Val ℝ)) := do
  let r ← match inRange with
    | some r => pure r
    | none => do
      let lo ← npMin data
      let hi ← npMax data
      pure (lo, hi)
  let o := outRange.getD (.fin 0, .fin 1)
  let data := data.map fun x => (x.sub r.1).div (r.2.sub r.1)
  let out := data.map fun x => (x.mul (o.2.sub o.1)).add o.1
  return out.map (outDtype.getD .float).cast

/-! ## `scipy.interpolate.interp1d(kind='linear')` -/

/-- `np.searchsorted(xs, x)` of a sorted array of finite numbers; NaN sorts after every number. -/
noncomputable def searchsorted (xs : List ℝ) (x : Val ℝ) : Nat :=
  match x with
  | .nan => xs.length
  | x => (xs.takeWhile fun y => (Val.fin y).ltB x).length

/-- The constructor: equal lengths, at least two entries, stable sort by the abscissae. -/
noncomputable def interp1dInit (xs : List ℝ) (ys : List (List ℝ)) : Except PyErr (List (ℝ × List ℝ)) :=
  if xs.length ≠ ys.length then .error .valueError
  else if xs.length < 2 then .error .valueError
  else .ok ((xs.zip ys).mergeSort fun a b => decide (a.1 ≤ b.1))

/-- One coordinate of `_call_linear` between two nodes. -/
noncomputable def lerpV (xlo xhi ylo yhi : ℝ) (x : Val ℝ) : Val ℝ :=
  (((Val.fin (yhi - ylo)).div (.fin (xhi - xlo))).mul (x.sub (.fin xlo))).add (.fin ylo)

/-- `interp1d._call_linear` at one value: the upper node is the clipped result of `searchsorted`. -/
noncomputable def interp1dAt (nodes : List (ℝ × List ℝ)) (x : Val ℝ) : List (Val ℝ) :=
  let k := max 1 (min (searchsorted (nodes.map Prod.fst) x) (nodes.length - 1))
  let lo := nodes.getD (k - 1) (0, [])
  let hi := nodes.getD k (0, [])
  List.zipWith (fun ylo yhi => lerpV lo.1 hi.1 ylo yhi x) lo.2 hi.2

/-- Is the value outside of the range of the nodes? (comparisons with NaN are false) -/
noncomputable def outOfRange (nodes : List (ℝ × List ℝ)) (x : Val ℝ) : Bool :=
  x.ltB (.fin (nodes.getD 0 (0, [])).1) || (Val.fin (nodes.getD (nodes.length - 1) (0, [])).1).ltB x

/-- `interp1d.__call__`: without extrapolation values out of bounds are a ValueError. -/
noncomputable def interp1dCall (nodes : List (ℝ × List ℝ)) (extrapolate : Bool) (xs : List (Val ℝ)) :
    Except PyErr (List (List (Val ℝ))) :=
  if !extrapolate && xs.any (outOfRange nodes) then .error .valueError
  else .ok (xs.map (interp1dAt nodes))

/-! ## Grids -/

/-- `curve.t[0]` of a curve that has one. -/
noncomputable def tFirst (junk : ℝ) (c : Curve ℝ) : ℝ := (c.t junk).headD 0

/-- `curve.t[-1]`. -/
noncomputable def tLast (junk : ℝ) (c : Curve ℝ) : ℝ := (c.t junk).getLastD 0

/-- The argument `kind`. -/
inductive GridKind
  | point | length
  deriving DecidableEq

/-- `kind in ('point', 'length')`. -/
def GridKind.ofString (s : String) : Option GridKind :=
  if s = "point" then some .point else if s = "length" then some .length else none

/-- Attributes of `UniformInterpolationGrid` (_interpolate.py 91-121). -/
structure UniformGrid where
  fill : PyNum
  kind : GridKind

/-- `UniformInterpolationGrid.__init__` (_interpolate.py 109-121). -/
def UniformGrid.init (fill : PyNum) (kind : String) : Except PyErr UniformGrid :=
  match GridKind.ofString kind with
  | none => .error .valueError
  | some .point =>
    if fill.isInt = false then .error .typeError
    else if fill.toInt < 2 then .error .valueError
    else .ok ⟨fill, .point⟩
  | some .length => if fill.isNum = false then .error .typeError else .ok ⟨fill, .length⟩

/-- The number of points (_interpolate.py 127-130). -/
noncomputable def UniformGrid.pcount (junk : ℝ) (g : UniformGrid) (c : Curve ℝ) : Except PyErr Int :=
  match g.kind with
  | .length => do
    let q ← pyDiv (arclen junk c) g.fill.val
    let n ← roundInt q
    return n + 1
  | .point => .ok g.fill.toInt

/-- `UniformInterpolationGrid.__call__` (_interpolate.py 123-132). -/
noncomputable def UniformGrid.call (junk : ℝ) (g : UniformGrid) (c : Curve ℝ) : Except PyErr (List (Val ℝ)) :=
  if c.size < 2 then .error .valueError
  else do
    let n ← g.pcount junk c
    linspace (.fin (tFirst junk c)) (.fin (tLast junk c)) n

/-- A grid object: any behaviour of `__call__` on the curve. -/
abbrev GridFn := Curve ℝ → Except PyErr (List (Val ℝ))

/-- Attributes of `UniformExtrapolationGrid` (_interpolate.py 138-178). -/
structure ExtrapGrid where
  grid : GridFn
  before : PyNum
  after : PyNum
  kind : GridKind

/-- `UniformExtrapolationGrid.__init__` (_interpolate.py 160-176). -/
def ExtrapGrid.init (grid : GridFn) (before after : PyNum) (kind : String) : Except PyErr ExtrapGrid :=
  match GridKind.ofString kind with
  | none => .error .valueError
  | some .point =>
    if before.isInt = false ∨ after.isInt = false then .error .typeError else .ok ⟨grid, before, after, .point⟩
  | some .length =>
    if before.isNum = false ∨ after.isNum = false then .error .typeError else .ok ⟨grid, before, after, .length⟩

/-- The number of points of one extrapolation piece (_interpolate.py 182-187): numpy division. -/
noncomputable def extrapCount (kind : GridKind) (x : PyNum) (h : Val ℝ) : Except PyErr Int :=
  match kind with
  | .point => .ok x.toInt
  | .length => roundInt (x.val.div h)

/-- The piece before the grid (_interpolate.py 189-190). -/
noncomputable def gridBefore (g0 h : Val ℝ) (n : Int) : Except PyErr (List (Val ℝ)) :=
  linspace ((h.neg.mul (.fin n)).add g0) (h.neg.add g0) n

/-- The piece after the grid (_interpolate.py 192-193). -/
noncomputable def gridAfter (gl h : Val ℝ) (n : Int) : Except PyErr (List (Val ℝ)) :=
  linspace (gl.add h) (gl.add (h.mul (.fin n))) n

/-- `UniformExtrapolationGrid.__call__` (_interpolate.py 178-195). `grid[0]` of an empty grid is an IndexError (after
the counts). -/
noncomputable def ExtrapGrid.call (e : ExtrapGrid) (c : Curve ℝ) : Except PyErr (List (Val ℝ)) := do
  let grid ← e.grid c
  let h := meanV (diffV grid)
  let nb ← extrapCount e.kind e.before h
  let na ← extrapCount e.kind e.after h
  match grid with
  | [] => .error .indexError
  | g0 :: gs => do
    let b ← gridBefore g0 h nb
    let a ← gridAfter ((g0 :: gs).getLastD g0) h na
    return b ++ (g0 :: gs) ++ a

/-- The number behind a value known to be finite. -/
noncomputable def Val.real : Val ℝ → ℝ
  | .fin y => y
  | _ => 0

/-- The interpolation of the cumulative lengths (_interpolate.py 246-250), `interp_kind='linear'` only. scipy delegates
this one-dimensional case to `np.interp`; in exact arithmetic it has the values of `_call_linear`. -/
noncomputable def speedLens (junk : ℝ) (pcount : Int) (c : Curve ℝ) : Except PyErr (List (Val ℝ)) := do
  let x ← linspace (.fin 0) (.fin 1) c.size
  let xi ← linspace (.fin 0) (.fin 1) pcount
  let nodes ← interp1dInit (x.map Val.real) ((cumarclen junk c).map fun y => [y])
  let ys ← interp1dCall nodes false xi
  return ys.flatten

/-- `PreservedSpeedInterpolationGrid.__call__` (_interpolate.py 244-260). -/
noncomputable def speedGrid (junk : ℝ) (pcount : PyNum) (c : Curve ℝ) : Except PyErr (List (Val ℝ)) :=
  if c.isparametric = false then
    match pcount with
    | .int n => do
      let lens ← speedLens junk n c
      linrescale lens none (some (.fin 0, .fin (arclen junk c))) none
    | _ => .error .typeError
  else do
    let g ← UniformGrid.init pcount "point"
    g.call junk c

/-! ## Interpolators -/

/-- An array used as a grid: number of dimensions, whether the dtype is numeric, the values if it is 1-D. -/
structure GridArr where
  ndim : Nat
  numeric : Bool
  vals : List (Val ℝ)

/-- The argument `grid_spec` (_interpolate.py 35-40): a grid object, an int, an array or sequence (as the outcome of
`np.array(grid_spec, dtype=np.float64)`), anything else. -/
inductive GridSpec
  | obj (f : Curve ℝ → Except PyErr GridArr)
  | int (n : Int)
  | arr (a : Except PyErr GridArr)
  | other

/-- A numeric one-dimensional array. -/
def GridArr.of (vals : List (Val ℝ)) : GridArr := ⟨1, true, vals⟩

/-- The array given by the specification (_interpolate.py 343-350). -/
noncomputable def gridOfSpec (junk : ℝ) (c : Curve ℝ) : GridSpec → Except PyErr GridArr
  | .obj f => f c
  | .int n => do
    let g ← UniformGrid.init (.int n) "point"
    let vals ← g.call junk c
    return GridArr.of vals
  | .arr a => a
  | .other => .error .valueError

/-- The test of the differences (_interpolate.py 358-362). -/
noncomputable def badSteps (grid : List (Val ℝ)) : Bool :=
  (diffV grid).any (fun d => d.ltB (.fin 0)) || (diffV grid).any fun d => d.isclose (.fin 0)

/-- `InterpolatorBase._get_interpolation_grid` (_interpolate.py 328-372): the grid and whether the warning about the
range was given. -/
noncomputable def getGrid (junk : ℝ) (c : Curve ℝ) (spec : GridSpec) : Except PyErr (List (Val ℝ) × Bool) := do
  let g ← gridOfSpec junk c spec
  if g.ndim ≠ 1 then .error .valueError
  else if g.numeric = false then .error .valueError
  else if badSteps g.vals then .error .valueError
  else do
    let lo ← npMin g.vals
    let hi ← npMax g.vals
    return (g.vals, (Val.fin (tFirst junk c)).ltB lo || hi.ltB (.fin (tLast junk c)))

/-- `_interpolate` of a subclass: any behaviour on the grid. -/
abbrev InterpImpl := List (Val ℝ) → Except PyErr (NdArr (Val ℝ) × DType)

/-- `InterpolatorBase.__call__` (_interpolate.py 282-304). -/
noncomputable def interpolatorCall (junk : ℝ) (c : Curve ℝ) (impl : InterpImpl) (spec : GridSpec) :
    Except PyErr (Curve (Val ℝ)) :=
  if c.size = 0 then Curve.init (.seq []) none none (some c.ndim) (some c.dtype)
  else if c.size = 1 then .error .valueError
  else do
    let (grid, _) ← getGrid junk c spec
    let (data, dt) ← wrapErr .interpolationError (impl grid)
    let tdata := if c.isparametric then some grid else none
    Curve.init (.arr data dt) tdata none none (some c.dtype)

/-- A subclass of `InterpolatorBase` with the inherited `__call__`: its constructor gives `_interpolate`. -/
noncomputable def interpClass {P : Type} (junk : ℝ) (cons : Curve ℝ → P → Except PyErr InterpImpl) :
    PClass (Curve ℝ) P GridSpec (Curve (Val ℝ)) := fun c p => do
  let impl ← cons c p
  return interpolatorCall junk c impl

/-- `LinearInterpolator` (_interpolate.py 400-423); the parameter is `extrapolate`. With `fill_value=None` interp1d
raises for values out of bounds. -/
noncomputable def linearCons (junk : ℝ) (c : Curve ℝ) (extrapolate : Bool) : Except PyErr InterpImpl := do
  let nodes ← interp1dInit (c.t junk) c.rows
  return fun grid => do
    let rows ← interp1dCall nodes extrapolate grid
    return (NdArr.ofRows (.fin 0) rows c.ncols, .float)

/-- `Curve.interpolate` (_base.py 2143-2222) with the registry `r`. -/
noncomputable def Curve.interpolate {P : Type} (r : Reg (PClass (Curve ℝ) P GridSpec (Curve (Val ℝ)))) (c : Curve ℝ)
    (spec : GridSpec) (method : String) (params : P) : Except PyErr (Curve (Val ℝ)) :=
  interpolateCall r c spec method params

/-- A registry in which `linear` is registered (_interpolate.py 400) together with other classes. -/
noncomputable def linearReg (junk : ℝ) : Reg (PClass (Curve ℝ) Bool GridSpec (Curve (Val ℝ))) :=
  (registerInterp Reg.empty "linear" ⟨interpClass junk (linearCons junk), true⟩).1

end Verif.Model
