import Verif.Model.Interp
import Verif.Model.DiffGeom
import Mathlib.LinearAlgebra.Matrix.NonsingularInverse

/-!
Model of the interpolators of skcurve/_interpolate.py 426-638 that are built on scipy's piecewise cubic polynomials:
`cubic`, `hermite`, `akima`, `pchip`; of `csaps`; and of `spline`, over an arbitrary external library.

scipy builds all four piecewise cubics as a `CubicHermiteSpline`: a knot sequence, values and slopes at the knots. The
formulas below are those of scipy.interpolate (`_cubic.py`, `interpolate.PPoly`), in exact arithmetic on finite numbers.
-/
namespace Verif.Model

open Verif Verif.Np

/-- The argument `extrapolate` after its default was filled in: polynomials of the first and last piece, NaN outside,
periodic continuation. -/
inductive Extrap
  | yes | no | periodic
  deriving DecidableEq, Repr

/-- The test of `prepare_input`: at least two knots, one value per knot, strictly increasing (all ValueErrors). -/
noncomputable def knotsOk (xs : List ℝ) (m : Nat) : Bool :=
  decide (2 ≤ xs.length) && decide (xs.length = m) && !(List.zipWith (fun a b => decide (b - a ≤ 0)) xs xs.tail).any id

/-- A piecewise cubic: knots, values and slopes at the knots. -/
structure PPoly where
  xs : List ℝ
  y : NMat
  d : NMat
  ex : Extrap

/-- The number of the piece used at `x` (`find_interval` of scipy's `_ppoly.pyx`): `xs[i] <= x < xs[i+1]`, the first piece
below and the last one above. -/
noncomputable def pieceOf (xs : List ℝ) (x : Val ℝ) : Nat :=
  min (xs.length - 2) ((xs.takeWhile fun u => !x.ltB (.fin u)).length - 1)

/-- The cubic with values `y0`, `y1` and slopes `d0`, `d1` at `x0`, `x1`: the coefficients of `CubicHermiteSpline.__init__`
and their evaluation in `evaluate_poly1`. -/
noncomputable def hermiteAt (x0 x1 y0 y1 d0 d1 : ℝ) (x : Val ℝ) : Val ℝ :=
  let h := x1 - x0
  let slope := (y1 - y0) / h
  let t := (d0 + d1 - 2 * slope) / h
  let s := x.sub (.fin x0)
  (((Val.fin y0).add ((Val.fin d0).mul s)).add ((Val.fin ((slope - d0) / h - t)).mul (s.mul s))).add
    ((Val.fin (t / h)).mul ((s.mul s).mul s))

/-- All coordinates of the piece used at `x`. -/
noncomputable def PPoly.piece (p : PPoly) (x : Val ℝ) : List (Val ℝ) :=
  let i := pieceOf p.xs x
  (List.range p.y.k).map fun j =>
    hermiteAt (p.xs.getD i 0) (p.xs.getD (i + 1) 0) (p.y.v i j) (p.y.v (i + 1) j) (p.d.v i j) (p.d.v (i + 1) j) x

/-- `x` brought into the range of the knots: `x[0] + (x - x[0]) % (x[-1] - x[0])`. -/
noncomputable def wrapPeriod (a b : ℝ) : Val ℝ → Val ℝ
  | .fin x => .fin (a + ((x - a) - (b - a) * ⌊(x - a) / (b - a)⌋))
  | _ => .nan

/-- `PPoly.__call__` at one value. -/
noncomputable def PPoly.at (p : PPoly) (x : Val ℝ) : List (Val ℝ) :=
  let a := p.xs.headD 0
  let b := p.xs.getLastD 0
  match p.ex with
  | .yes => if x = .nan then List.replicate p.y.k .nan else p.piece x
  | .no =>
    if x = .nan ∨ x.ltB (.fin a) = true ∨ (Val.fin b).ltB x = true then List.replicate p.y.k .nan else p.piece x
  | .periodic => if (wrapPeriod a b x) = .nan then List.replicate p.y.k .nan else p.piece (wrapPeriod a b x)

/-- `CubicHermiteSpline(x, y, dydx, axis=0, extrapolate=...)`. -/
noncomputable def cubicHermite (xs : List ℝ) (y d : NMat) (ex : Extrap) : Except PyErr PPoly :=
  if knotsOk xs y.m = false then .error .valueError else .ok ⟨xs, y, d, ex⟩

/-- `_interpolate` of the four classes (468, 500, 529, 557): the polynomial at every grid value. -/
noncomputable def PPoly.impl (p : PPoly) : InterpImpl := fun grid => .ok (NdArr.ofRows (.fin 0) (grid.map p.at) p.y.k, .float)

/-! ## hermite -/

/-- `CubicHermiteSplineInterpolator` (472-501): the slopes are the unit tangent vectors. -/
noncomputable def hermiteCons (junk : ℝ) (c : Curve ℝ) (ex : Extrap) : Except PyErr InterpImpl := do
  let p ← cubicHermite (c.t junk) c.mat (frenet1 c) ex
  return p.impl

/-! ## pchip -/

/-- `np.sign`. -/
noncomputable def npSign (x : ℝ) : Int := if 0 < x then 1 else if x < 0 then -1 else 0

/-- `PchipInterpolator._edge_case`: the slope at an end. -/
noncomputable def pchipEdge (h0 h1 m0 m1 : ℝ) : ℝ :=
  let d := ((2 * h0 + h1) * m0 - h0 * m1) / (h0 + h1)
  if npSign d ≠ npSign m0 then 0
  else if npSign m0 ≠ npSign m1 ∧ 3 * |m0| < |d| then 3 * m0
  else d

/-- `PchipInterpolator._find_derivatives` for one coordinate: `n` knots `x` with values `y`. -/
noncomputable def pchipSlope (n : Nat) (x y : Nat → ℝ) (k : Nat) : ℝ :=
  let h := fun i => x (i + 1) - x i
  let m := fun i => (y (i + 1) - y i) / h i
  if n = 2 then m 0
  else if k = 0 then pchipEdge (h 0) (h 1) (m 0) (m 1)
  else if k = n - 1 then pchipEdge (h (n - 2)) (h (n - 3)) (m (n - 2)) (m (n - 3))
  else if npSign (m k) ≠ npSign (m (k - 1)) ∨ m k = 0 ∨ m (k - 1) = 0 then 0
  else
    let w1 := 2 * h k + h (k - 1)
    let w2 := h k + 2 * h (k - 1)
    1 / ((w1 / m (k - 1) + w2 / m k) / (w1 + w2))

/-- The slopes of all coordinates. -/
noncomputable def pchipSlopes (xs : List ℝ) (y : NMat) : NMat :=
  ⟨y.m, y.k, fun i j => pchipSlope xs.length (fun i => xs.getD i 0) (fun i => y.v i j) i⟩

/-- `PchipInterpolator` (533-558). -/
noncomputable def pchipCons (junk : ℝ) (c : Curve ℝ) (ex : Extrap) : Except PyErr InterpImpl := do
  let p ← cubicHermite (c.t junk) c.mat (pchipSlopes (c.t junk) c.mat) ex
  return p.impl

/-! ## akima -/

/-- The slopes `m` of `Akima1DInterpolator.__init__` for one coordinate of `n ≥ 3` knots: the `n - 1` secant slopes with two
extrapolated ones on either side. -/
noncomputable def akimaM (n : Nat) (x y : Nat → ℝ) (i : Nat) : ℝ :=
  let s := fun i => (y (i + 1) - y i) / (x (i + 1) - x i)
  if i = 0 then 2 * (2 * s 0 - s 1) - s 0
  else if i = 1 then 2 * s 0 - s 1
  else if i ≤ n then s (i - 2)
  else if i = n + 1 then 2 * s (n - 2) - s (n - 3)
  else 2 * (2 * s (n - 2) - s (n - 3)) - s (n - 2)

/-- `f12` at knot `k`. -/
noncomputable def akimaF12 (m : Nat → ℝ) (k : Nat) : ℝ := |m (k + 3) - m (k + 2)| + |m (k + 1) - m k|

/-- The slope at knot `k`; `top` is the largest `f12`. -/
noncomputable def akimaSlope (m : Nat → ℝ) (top : ℝ) (k : Nat) : ℝ :=
  if 1 / 10 ^ 9 * top < akimaF12 m k then
    (|m (k + 3) - m (k + 2)| * m (k + 1) + |m (k + 1) - m k| * m (k + 2)) / akimaF12 m k
  else (m (k + 3) + m k) / 2

/-- The slopes of all coordinates; the largest `f12` is taken over all knots and coordinates. -/
noncomputable def akimaSlopes (xs : List ℝ) (y : NMat) : NMat :=
  let m := fun j => akimaM xs.length (fun i => xs.getD i 0) (fun i => y.v i j)
  let top := (((List.range y.k).flatMap fun j => (List.range xs.length).map (akimaF12 (m j)))).foldl max 0
  ⟨y.m, y.k, fun i j => akimaSlope (m j) top i⟩

/-- One entry of a tuple `bc_type`: a string, `(order, values)` with an array of values, or `(order, value)` with a number. -/
inductive BcEnd
  | str (s : String)
  | deriv (order : Int) (values : List ℝ)
  | scalar (order : Int) (value : ℝ)

/-- Value of a keyword argument. -/
inductive ArgVal
  | none
  | bool (b : Bool)
  | int (n : Int)
  | real (x : ℝ)
  | str (s : String)
  | arr (xs : List ℝ)
  /-- a tuple of boundary conditions (`bc_type`) -/
  | tup (ends : List BcEnd)

/-- Truth value in Python; an array with two or more elements has none (ValueError). -/
noncomputable def ArgVal.truth : ArgVal → Option Bool
  | .none => some false
  | .bool b => some b
  | .int n => some (n != 0)
  | .real x => some (decide (x ≠ 0))
  | .str s => some (s != "")
  | .arr [] => some false
  | .arr [x] => some (decide (x ≠ 0))
  | .arr _ => Option.none
  | .tup l => some (!l.isEmpty)

/-- A boundary condition at one end as `CubicSpline._validate_bc` returns it: the first derivative, the second derivative (one number per
coordinate), or not-a-knot. -/
inductive EndCond
  | slope (values : List ℝ)
  | bend (values : List ℝ)
  | knot

/-- `CubicSpline._validate_bc` for one entry of a pair, with `k` coordinates: the strings (`'periodic'` is not allowed in a pair), or order
and values; the order is 1 or 2 and there is one value per coordinate (a number alone is not accepted). Otherwise a ValueError. -/
noncomputable def BcEnd.validate (k : Nat) : BcEnd → Except PyErr EndCond
  | .str s =>
    if s = "clamped" then .ok (.slope (List.replicate k 0))
    else if s = "natural" then .ok (.bend (List.replicate k 0))
    else if s = "not-a-knot" then .ok .knot
    else .error .valueError
  | .deriv order values =>
    if order = 1 ∧ values.length = k then .ok (.slope values)
    else if order = 2 ∧ values.length = k then .ok (.bend values)
    else .error .valueError
  | .scalar _ _ => .error .valueError

/-- External code whose details are left open. -/
structure SplineLib where
  /-- slopes used by `Akima1DInterpolator` for two knots (older scipy reads uninitialised memory there) -/
  akima2 : List ℝ → NMat → NMat
  /-- solution of the tridiagonal system of `CubicSpline` for a boundary condition: slopes at the knots, or an error -/
  cubic : String → List ℝ → NMat → Except PyErr NMat
  /-- `UnivariateSpline(x, y, w=weights, k=k, s=s, ext=ext)`, the arguments in the order `k`, `s`, `w`, `ext`, `x`, `y`: an elementwise
  function whose evaluation may fail (`ext='raise'`), or an error -/
  univariate : ArgVal → ArgVal → ArgVal → ArgVal → List ℝ → List ℝ → Except PyErr (Val ℝ → Except PyErr (Val ℝ))
  /-- `csaps.CubicSmoothingSpline(x, y, weights=weights, smooth=smooth, axis=0)` for arguments that are not as they are meant to be (see
  `csapsFn`), the arguments in the order `smooth`, `weights`, `x`, `y` -/
  csapsOther : ArgVal → ArgVal → List ℝ → NMat → Except PyErr (Val ℝ → List (Val ℝ))
  /-- the same as `cubic` for conditions at the first and at the last knot -/
  cubicEnds : EndCond → EndCond → List ℝ → NMat → Except PyErr NMat

/-- `AkimaInterpolator` (504-530): NaN outside of the knots. -/
noncomputable def akimaCons (lib : SplineLib) (junk : ℝ) (c : Curve ℝ) (_ : Unit) : Except PyErr InterpImpl := do
  let d := if c.size < 3 then lib.akima2 (c.t junk) c.mat else akimaSlopes (c.t junk) c.mat
  let p ← cubicHermite (c.t junk) c.mat d .no
  return p.impl

/-! ## cubic -/

/-- Parameters of `CubicSplineInterpolator`: `bc_type`, which is the string `bc` or the tuple `ends`, and `extrapolate`. -/
structure CubicParams where
  bc : String := "natural"
  ex : Option Extrap := none
  ends : Option (List BcEnd) := none

/-- The slopes for a tuple of boundary conditions: it has two entries, both are validated (ValueErrors). -/
noncomputable def endSlopes (lib : SplineLib) (xs : List ℝ) (y : NMat) : List BcEnd → Except PyErr NMat
  | [a, b] => do
    let a ← a.validate y.k
    let b ← b.validate y.k
    lib.cubicEnds a b xs y
  | _ => .error .valueError

/-- `CubicSplineInterpolator` (426-469); `extrapolate=None` means periodic for periodic boundary conditions. -/
noncomputable def cubicCons (lib : SplineLib) (junk : ℝ) (c : Curve ℝ) (q : CubicParams) : Except PyErr InterpImpl := do
  if knotsOk (c.t junk) c.mat.m = false then .error .valueError
  else
    let d ← match q.ends with
      | none => lib.cubic q.bc (c.t junk) c.mat
      | some l => endSlopes lib (c.t junk) c.mat l
    let p ← cubicHermite (c.t junk) c.mat d (q.ex.getD (if q.bc = "periodic" then .periodic else .yes))
    return p.impl

/-! ## spline and csaps -/

/-- Parameters of `SplineInterpolator`; they are passed on as they are. -/
structure SplineParams where
  k : ArgVal
  smooth : ArgVal
  weights : ArgVal
  ext : ArgVal

/-- `SplineInterpolator` (561-606): one spline per coordinate, evaluated one after the other; the results are the columns. -/
noncomputable def splineCons (lib : SplineLib) (junk : ℝ) (c : Curve ℝ) (q : SplineParams) : Except PyErr InterpImpl := do
  let fs ← (List.range c.ncols).mapM fun j =>
    lib.univariate q.k q.smooth q.weights q.ext (c.t junk) ((List.range c.size).map fun i => c.mat.v i j)
  return fun grid => do
    let cols ← fs.mapM fun f => grid.mapM f
    return (NdArr.ofRows (.fin 0) ((List.range grid.length).map fun i => cols.map fun col => col.getD i (.fin 0)) c.ncols, .float)

/-! The smoothing spline of csaps (`CubicSmoothingSpline._make_spline`, csaps 0.9 to 0.11), in exact arithmetic: `n ≥ 3` knots `x` with
positive weights `w` and the smoothing parameter `p`; the values `y` are those of one coordinate. -/

/-- The matrix `r`. -/
noncomputable def csapsR (x : Nat → ℝ) (k l : Nat) : ℝ :=
  if l = k then 2 * ((x (k + 2) - x (k + 1)) + (x (k + 1) - x k))
  else if l = k + 1 then x (k + 2) - x (k + 1)
  else if k = l + 1 then x (l + 2) - x (l + 1)
  else 0

/-- The matrix `sp.diags(diags_qtw, [0, 1, 2])`. -/
noncomputable def csapsQ (x : Nat → ℝ) (k i : Nat) : ℝ :=
  if i = k then 1 / (x (k + 1) - x k)
  else if i = k + 1 then -(1 / (x (k + 2) - x (k + 1)) + 1 / (x (k + 1) - x k))
  else if i = k + 2 then 1 / (x (k + 2) - x (k + 1))
  else 0

/-- The matrix `qtwq`. -/
noncomputable def csapsQWQ (n : Nat) (x w : Nat → ℝ) (k l : Nat) : ℝ :=
  ∑ i : Fin n, (csapsQ x k i * (1 / √ (w i))) * (csapsQ x l i * (1 / √ (w i)))

/-- `_compute_smooth`, the parameter for `smooth=None`: `1 / (1 + trace(r) / (6 trace(qtwq)))`. -/
noncomputable def csapsAuto (n : Nat) (x w : Nat → ℝ) : ℝ :=
  1 / (1 + (∑ k : Fin (n - 2), csapsR x k k) / (6 * ∑ k : Fin (n - 2), csapsQWQ n x w k k))

/-- `a = (6 (1 - p)) * qtwq + p * r`. -/
noncomputable def csapsA (n : Nat) (p : ℝ) (x w : Nat → ℝ) : Matrix (Fin (n - 2)) (Fin (n - 2)) ℝ :=
  Matrix.of fun k l => 6 * (1 - p) * csapsQWQ n x w k l + p * csapsR x k l

/-- `b = np.diff(dy / dx)`. -/
noncomputable def csapsB (n : Nat) (x y : Nat → ℝ) (k : Fin (n - 2)) : ℝ :=
  (y (k + 2) - y (k + 1)) / (x (k + 2) - x (k + 1)) - (y (k + 1) - y k) / (x (k + 1) - x k)

/-- `u = spsolve(a, b)` with a zero put before and behind (`vpad`). In exact arithmetic the solution of a regular system is the inverse
matrix times the right side. -/
noncomputable def csapsU (n : Nat) (p : ℝ) (x w y : Nat → ℝ) (i : Nat) : ℝ :=
  if h : 1 ≤ i ∧ i - 1 < n - 2 then ((csapsA n p x w)⁻¹.mulVec (csapsB n x y)) ⟨i - 1, h.2⟩ else 0

/-- `d1 = np.diff(vpad(u)) / dx` with a zero before and behind. -/
noncomputable def csapsD1 (n : Nat) (x U : Nat → ℝ) (i : Nat) : ℝ :=
  if i = 0 ∨ n ≤ i then 0 else (U i - U (i - 1)) / (x i - x (i - 1))

/-- `yi = y - 6 (1 - p) / w * d2`, where `d2 = np.diff(vpad(d1))`: the values of the spline at the knots. -/
noncomputable def csapsY (n : Nat) (p : ℝ) (x w y : Nat → ℝ) (i : Nat) : ℝ :=
  y i - (6 * (1 - p) * (1 / w i)) * (csapsD1 n x (csapsU n p x w y) (i + 1) - csapsD1 n x (csapsU n p x w y) i)

/-- The polynomial of piece `i` at `s` (a difference to the knot), by nested multiplication. -/
noncomputable def csapsPiece (n : Nat) (p : ℝ) (x w y : Nat → ℝ) (i : Nat) (s : Val ℝ) : Val ℝ :=
  let h := x (i + 1) - x i
  let c3 := fun i => p * csapsU n p x w y i
  let yi := csapsY n p x w y
  let c2 := (yi (i + 1) - yi i) / h - h * (2 * c3 i + c3 (i + 1))
  (((((Val.fin ((c3 (i + 1) - c3 i) / h)).mul s).add (.fin (3 * c3 i))).mul s).add (.fin c2)).mul s |>.add (.fin (yi i))

/-- A number. -/
def ArgVal.number : ArgVal → Option ℝ
  | .bool b => some (if b then 1 else 0)
  | .int n => some n
  | .real x => some x
  | _ => Option.none

/-- The spline for given parameter and weights: for two knots the straight line through the values, whatever the parameter. -/
noncomputable def csapsAt (p : ℝ) (w : Nat → ℝ) (xs : List ℝ) (y : NMat) (x : Val ℝ) : List (Val ℝ) :=
  let X := fun i => xs.getD i 0
  let i := pieceOf xs x
  (List.range y.k).map fun j =>
    if xs.length = 2 then ((Val.fin ((y.v 1 j - y.v 0 j) / (X 1 - X 0))).mul (x.sub (.fin (X 0)))).add (.fin (y.v 0 j))
    else csapsPiece xs.length p X w (fun i => y.v i j) i (x.sub (.fin (X i)))

/-- `csaps.CubicSmoothingSpline(x, y, weights=weights, smooth=smooth, axis=0)`: at least two strictly increasing knots, one value per knot
and one weight per knot (ValueErrors). Parameters outside [0, 1], weights that are not positive and arguments of other types are left open. -/
noncomputable def csapsFn (lib : SplineLib) (smooth weights : ArgVal) (xs : List ℝ) (y : NMat) : Except PyErr (Val ℝ → List (Val ℝ)) :=
  if knotsOk xs y.m = false then .error .valueError
  else
    let w : Option (List ℝ) := match weights with
      | .none => some (List.replicate xs.length 1)
      | .arr l => some l
      | _ => Option.none
    match w with
    | Option.none => lib.csapsOther smooth weights xs y
    | some l =>
      if l.length ≠ xs.length then .error .valueError
      else if l.any fun u => decide (u ≤ 0) then lib.csapsOther smooth weights xs y
      else
        let W := fun i => l.getD i 1
        match smooth, smooth.number with
        | .none, _ => .ok (csapsAt (csapsAuto xs.length (fun i => xs.getD i 0) W) W xs y)
        | _, some p => if 0 ≤ p ∧ p ≤ 1 then .ok (csapsAt p W xs y) else lib.csapsOther smooth weights xs y
        | _, _ => lib.csapsOther smooth weights xs y

/-- `CsapsInterpolator` (609-638); the parameters are `smooth` and `weights`, passed on as they are. -/
noncomputable def csapsCons (lib : SplineLib) (junk : ℝ) (c : Curve ℝ) (q : ArgVal × ArgVal) : Except PyErr InterpImpl := do
  let f ← csapsFn lib q.1 q.2 (c.t junk) c.mat
  return fun grid => .ok (NdArr.ofRows (.fin 0) (grid.map f) c.ncols, .float)

/-! ## Keyword arguments -/

/-- The keyword arguments `**params`: a dictionary. (Names of positional parameters of the calls in between, `self`, `curve`,
`grid_spec` and `method`, do not get here.) -/
structure InterpKw where
  args : List (String × ArgVal)

/-- No keyword arguments. -/
def InterpKw.none : InterpKw := ⟨[]⟩

/-- The value bound to a parameter with a default. -/
def InterpKw.getD (kw : InterpKw) (name : String) (default : ArgVal) : ArgVal := (kw.args.lookup name).getD default

/-- Whether all names are in the signature; otherwise the call is a TypeError. -/
def InterpKw.only (kw : InterpKw) (signature : List String) : Bool := kw.args.all fun a => signature.contains a.1

/-- The argument `extrapolate` of scipy's piecewise polynomials (`_PPolyBase.__init__`): None is the default, `'periodic'`, otherwise the
truth value. -/
noncomputable def ArgVal.extrap : ArgVal → Option (Option Extrap)
  | .none => some Option.none
  | .str s => some (some (if s = "periodic" then .periodic else if s = "" then .no else .yes))
  | v => v.truth.map fun b => some (if b then .yes else .no)

/-- A constructor that takes its own keyword arguments out of `InterpKw`. Which error it is does not matter: `get_interpolator`
(_interpolate.py 689-693) replaces every exception. -/
def withKw {Q : Type} (pick : InterpKw → Option Q) (cons : Curve ℝ → Q → Except PyErr InterpImpl) (c : Curve ℝ) (kw : InterpKw) :
    Except PyErr InterpImpl :=
  match pick kw with
  | some q => cons c q
  | Option.none => .error .typeError

/-- Arguments of `LinearInterpolator` (413-418): `if extrapolate`, True by default. -/
noncomputable def pickLinear (kw : InterpKw) : Option Bool :=
  if kw.only ["extrapolate"] then (kw.getD "extrapolate" (.bool true)).truth else Option.none
/-- Arguments of `CubicSplineInterpolator` (460-466); arrays as `bc_type` are left out, other values have no length (TypeError). -/
noncomputable def pickCubic (kw : InterpKw) : Option CubicParams :=
  if kw.only ["bc_type", "extrapolate"] then
    match kw.getD "bc_type" (.str "natural") with
    | .str bc => (kw.getD "extrapolate" .none).extrap.map fun ex => ⟨bc, ex, Option.none⟩
    | .tup l => (kw.getD "extrapolate" .none).extrap.map fun ex => ⟨"", ex, some l⟩
    | _ => Option.none
  else Option.none
/-- Arguments of `CubicHermiteSplineInterpolator` (494-498). -/
noncomputable def pickHermite (kw : InterpKw) : Option Extrap :=
  if kw.only ["extrapolate"] then (kw.getD "extrapolate" .none).extrap.map fun ex => ex.getD .yes else Option.none
/-- `AkimaInterpolator` (525) has no keyword arguments. -/
def pickAkima (kw : InterpKw) : Option Unit := if kw.only [] then some () else Option.none
/-- Arguments of `PchipInterpolator` (553-555). -/
noncomputable def pickPchip (kw : InterpKw) : Option Extrap :=
  if kw.only ["extrapolate"] then (kw.getD "extrapolate" .none).extrap.map fun ex => ex.getD .yes else Option.none
/-- Arguments of `SplineInterpolator` (587-591). -/
noncomputable def pickSpline (kw : InterpKw) : Option SplineParams :=
  if kw.only ["k", "smooth", "weights", "extrapolate"] then
    some ⟨kw.getD "k" (.int 3), kw.getD "smooth" (.real 0), kw.getD "weights" .none, kw.getD "extrapolate" (.int 0)⟩
  else Option.none
/-- Arguments of `CsapsInterpolator` (630-632). -/
noncomputable def pickCsaps (kw : InterpKw) : Option (ArgVal × ArgVal) :=
  if kw.only ["smooth", "weights"] then some (kw.getD "smooth" (.real 1), kw.getD "weights" .none) else Option.none

/-! ## The registry after import -/

/-- The registrations made by importing `_interpolate.py` (400, 426, 472, 504, 533, 561, 609). -/
noncomputable def importInterp (lib : SplineLib) (junk : ℝ) : List (RegOp (PClass (Curve ℝ) InterpKw GridSpec (Curve (Val ℝ)))) :=
  [.register "linear" ⟨interpClass junk (withKw pickLinear (linearCons junk)), true⟩ false,
   .register "cubic" ⟨interpClass junk (withKw pickCubic (cubicCons lib junk)), true⟩ false,
   .register "hermite" ⟨interpClass junk (withKw pickHermite (hermiteCons junk)), true⟩ false,
   .register "akima" ⟨interpClass junk (withKw pickAkima (akimaCons lib junk)), true⟩ false,
   .register "pchip" ⟨interpClass junk (withKw pickPchip (pchipCons junk)), true⟩ false,
   .register "spline" ⟨interpClass junk (withKw pickSpline (splineCons lib junk)), true⟩ false,
   .register "csaps" ⟨interpClass junk (withKw pickCsaps (csapsCons lib junk)), true⟩ false]

/-- The registry after import. -/
noncomputable def builtinInterp (lib : SplineLib) (junk : ℝ) : Reg (PClass (Curve ℝ) InterpKw GridSpec (Curve (Val ℝ))) :=
  (importInterp lib junk).foldl stepInterp Reg.empty

end Verif.Model
