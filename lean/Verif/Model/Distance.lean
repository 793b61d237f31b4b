import Verif.Model.PointOps
import Verif.Model.ArcLen
import Verif.Model.Interp
import Mathlib.Analysis.SpecialFunctions.Pow.Real

/-!
Distance metrics (skcurve/_distance.py) and `Point.distance` (skcurve/_base.py 318-356), on points with finite coordinates in exact
real arithmetic.
-/
namespace Verif.Model

open Verif Verif.Np

/-- Value of a keyword argument: a finite number, infinity, arrays of finite numbers, None; `other` is anything else (among it
NaN and non-finite arrays). -/
inductive KwVal
  | num (x : ℝ)
  | inf
  | vec (l : List ℝ)
  | mat (rows : List (List ℝ))
  | none
  | other

/-- Keyword arguments. -/
abbrev Kw := List (String × KwVal)

/-- A metric called with keyword arguments and two coordinate arrays. -/
abbrev MetricFn := Kw → List ℝ → List ℝ → Except PyErr (Val ℝ)

/-! ## The metrics of scipy.spatial.distance

As in scipy 1.7 (`wminkowski` is gone in later versions), on coordinates that are finite numbers. Arguments that are neither numbers
nor arrays of numbers (`KwVal.other`, and None where None is not allowed) count as TypeErrors here. -/

/-- The call of a scipy metric binds its keyword arguments: TypeError when a name is unknown or a required argument is missing. -/
def bindKw (kw : Kw) (names required : List String) : Except PyErr Unit :=
  if kw.all (fun a => names.contains a.1) ∧ required.all (fun r => (kw.map Prod.fst).contains r) then .ok () else .error .typeError

/-- `_validate_vector`: numbers are arrays with one element. -/
def KwVal.asVec : KwVal → Except PyErr (List ℝ)
  | .num x => .ok [x]
  | .vec l => .ok l
  | .mat [l] => .ok l
  | .mat _ => .error .valueError
  | _ => .error .typeError

/-- `_validate_weights`: negative weights are a ValueError. -/
noncomputable def KwVal.asWeights (v : KwVal) : Except PyErr (List ℝ) := do
  let w ← v.asVec
  if w.any fun x => decide (x < 0) then .error .valueError else .ok w

/-- The optional argument `w`. -/
noncomputable def weightsOf (kw : Kw) : Except PyErr (Option (List ℝ)) :=
  match kw.lookup "w" with
  | Option.none => .ok Option.none
  | some .none => .ok Option.none
  | some v => v.asWeights.map some

/-- `w * x` when weights are given. -/
noncomputable def weighted (w : Option (List ℝ)) (x : List ℝ) : Except PyErr (List ℝ) :=
  match w with
  | Option.none => .ok x
  | some w => bcast2 (· * ·) w x

/-- The order `p` of a norm: a number or infinity. -/
inductive NormOrder
  | fin (p : ℝ)
  | inf

/-- The argument `p`. -/
def KwVal.asOrder : KwVal → Except PyErr NormOrder
  | .num p => .ok (.fin p)
  | .inf => .ok .inf
  | _ => .error .typeError

/-- `max` of an array; ValueError for no elements. -/
noncomputable def maxList : List ℝ → Except PyErr ℝ
  | [] => .error .valueError
  | x :: l => .ok (l.foldl max x)

/-- `norm(x, ord=p)` of a vector with at least one element. -/
noncomputable def NormOrder.norm (x : List ℝ) : NormOrder → Except PyErr ℝ
  | .inf => maxList (x.map abs)
  | .fin p =>
    if p = 1 then .ok (x.map abs).sum
    else if p = 2 then .ok (√ (x.map fun u => u * u).sum)
    else .ok ((x.map fun u => |u| ^ p).sum ^ (1 / p))

/-- The factors `root_w` of `minkowski`. -/
noncomputable def NormOrder.root (w : ℝ) : NormOrder → ℝ
  | .inf => if w ≠ 0 then 1 else 0
  | .fin p => if p = 1 then w else if p = 2 then √ w else w ^ (1 / p)

/-- `minkowski(u, v, p, w)`: an order below 1 is a ValueError. -/
noncomputable def minkowskiCore (p : NormOrder) (w : Option (List ℝ)) (u v : List ℝ) : Except PyErr (Val ℝ) := do
  let bad : Bool := match p with
    | .fin p => decide (p < 1)
    | .inf => false
  if bad then .error .valueError
  else
    let d ← bcast2 (· - ·) u v
    let d ← weighted (w.map fun w => w.map fun x => p.root x) d
    let r ← p.norm d
    return .fin r

/-- `minkowski(u, v, p=2, w=None)`. -/
noncomputable def minkowski : MetricFn := fun kw u v => do
  bindKw kw ["p", "w"] []
  let p ← match kw.lookup "p" with
    | Option.none => Except.ok (NormOrder.fin 2)
    | some p => p.asOrder
  let w ← weightsOf kw
  minkowskiCore p w u v

/-- `w ** p` of `wminkowski`, where infinite powers stand for any number that is not 0 (`root` only asks for that). -/
noncomputable def NormOrder.power (w : ℝ) : NormOrder → ℝ
  | .inf => if w < 1 then 0 else 1
  | .fin p => w ^ p

/-- `wminkowski(u, v, p, w)`. -/
noncomputable def wminkowski : MetricFn := fun kw u v => do
  bindKw kw ["p", "w"] ["p", "w"]
  let p ← ((kw.lookup "p").getD .other).asOrder
  let w ← ((kw.lookup "w").getD .other).asWeights
  minkowskiCore p (some (w.map fun x => p.power x)) u v

/-- `euclidean(u, v, w=None)`. -/
noncomputable def euclidean : MetricFn := fun kw u v => do
  bindKw kw ["w"] []
  let w ← weightsOf kw
  minkowskiCore (.fin 2) w u v

/-- `sqeuclidean(u, v, w=None)`: `np.dot(u_v, w * u_v)`. -/
noncomputable def sqeuclidean : MetricFn := fun kw u v => do
  bindKw kw ["w"] []
  let w ← weightsOf kw
  let d ← bcast2 (· - ·) u v
  let dw ← weighted w d
  let r ← matmul d dw
  return .fin r

/-- `cityblock(u, v, w=None)`: `(w * abs(u - v)).sum()`. -/
noncomputable def cityblock : MetricFn := fun kw u v => do
  bindKw kw ["w"] []
  let w ← weightsOf kw
  let d ← bcast2 (· - ·) u v
  let d ← weighted w (d.map abs)
  return .fin d.sum

/-- The entries of `x` where the weight is positive, `x[w > 0]`: IndexError when the lengths differ. -/
noncomputable def whereWeight (w x : List ℝ) : Except PyErr (List ℝ) :=
  if w.length = x.length then .ok (((List.zip w x).filter fun a => decide (0 < a.1)).map Prod.snd) else .error .indexError

/-- `chebyshev(u, v, w=None)`: `max(abs(u - v))` over the coordinates with a positive weight; ValueError for no coordinates. -/
noncomputable def chebyshev : MetricFn := fun kw u v => do
  bindKw kw ["w"] []
  let w ← weightsOf kw
  let (u, v) ← match w with
    | Option.none => Except.ok (u, v)
    | some w =>
      if w.all fun x => decide (0 < x) then Except.ok (u, v)
      else do
        let u ← whereWeight w u
        let v ← whereWeight w v
        Except.ok (u, v)
  let d ← bcast2 (· - ·) u v
  let r ← maxList (d.map abs)
  return .fin r

/-- `seuclidean(u, v, V)`: a variance that is not positive ends in a ValueError (a negative weight, or an infinite one). -/
noncomputable def seuclidean : MetricFn := fun kw u v => do
  bindKw kw ["V"] ["V"]
  let V ← ((kw.lookup "V").getD .other).asVec
  if V.length ≠ u.length ∨ u.length ≠ v.length then .error .typeError
  else if V.any fun x => decide (x ≤ 0) then .error .valueError
  else minkowskiCore (.fin 2) (some (V.map fun x => 1 / x)) u v

/-- `np.atleast_2d` of the argument `VI`; the rows have one length. -/
def KwVal.asMat : KwVal → Except PyErr (List (List ℝ))
  | .num x => .ok [[x]]
  | .vec l => .ok [l]
  | .mat m => if m.all (fun r => r.length == (m.headD []).length) then .ok m else .error .valueError
  | _ => .error .typeError

/-- `np.dot(d, m)` of a vector and a matrix. -/
noncomputable def vecMat (d : List ℝ) (m : List (List ℝ)) : Except PyErr (List ℝ) :=
  if d.length = m.length then .ok ((List.range (m.headD []).length).map fun j => dot d (m.map fun r => r.getD j 0))
  else .error .valueError

/-- `mahalanobis(u, v, VI)`: `sqrt(d @ VI @ d)`. -/
noncomputable def mahalanobis : MetricFn := fun kw u v => do
  bindKw kw ["VI"] ["VI"]
  let m ← ((kw.lookup "VI").getD .other).asMat
  let d ← bcast2 (· - ·) u v
  let dm ← vecMat d m
  let r ← matmul dm d
  return (Val.fin r).sqrt

/-- `canberra(u, v, w=None)`: `np.nansum(w * abs(u - v) / (abs(u) + abs(v)))`; quotients 0/0 are left out by `nansum`. -/
noncomputable def canberra : MetricFn := fun kw u v => do
  bindKw kw ["w"] []
  let w ← weightsOf kw
  let a ← bcast2 (· - ·) u v
  let b ← bcast2 (fun x y => |x| + |y|) u v
  let d := List.zipWith (fun x y => (Val.fin |x|).div (Val.fin y)) a b
  let d ← match w with
    | Option.none => Except.ok d
    | some w => bcast2 Val.mul (w.map Val.fin) d
  return (d.filter fun x => decide (x ≠ .nan)).foldl Val.add (.fin 0)

/-- `braycurtis(u, v, w=None)`: `(w * abs(u - v)).sum() / (w * abs(u + v)).sum()`. -/
noncomputable def braycurtis : MetricFn := fun kw u v => do
  bindKw kw ["w"] []
  let w ← weightsOf kw
  let a ← bcast2 (· - ·) u v
  let b ← bcast2 (· + ·) u v
  let a ← weighted w (a.map abs)
  let b ← weighted w (b.map abs)
  return (Val.fin a.sum).div (.fin b.sum)

/-- `np.average(x, weights=w)`: TypeError when there are not as many weights, ZeroDivisionError when they sum to 0. The mean of an empty
array is NaN. -/
noncomputable def average (w : Option (List ℝ)) (x : List ℝ) : Except PyErr (Val ℝ) :=
  match w with
  | Option.none => .ok ((Val.fin x.sum).div (.fin x.length))
  | some w =>
    if w.length ≠ x.length then .error .typeError
    else if w.sum = 0 then .error .zeroDivision
    else .ok (.fin ((List.zipWith (· * ·) x w).sum / w.sum))

/-- `x - mean`. -/
def minusMean (m : Val ℝ) (x : List ℝ) : List ℝ :=
  match m with
  | .fin m => x.map fun u => u - m
  | _ => []

/-- Absolute value. -/
def Val.abs : Val ℝ → Val ℝ
  | .fin x => .fin |x|
  | .nan => .nan
  | _ => .pinf

/-- `correlation(u, v, w=None, centered=True)`. -/
noncomputable def correlationCore (w : Option (List ℝ)) (centered : Bool) (u v : List ℝ) : Except PyErr (Val ℝ) := do
  let (u, v) ← if centered then do
      let mu ← average w u
      let mv ← average w v
      Except.ok (minusMean mu u, minusMean mv v)
    else Except.ok (u, v)
  let uv ← bcast2 (· * ·) u v
  let uv ← average w uv
  let uu ← average w (u.map fun x => x * x)
  let vv ← average w (v.map fun x => x * x)
  return ((Val.fin 1).sub (uv.div (uu.mul vv).sqrt)).abs

/-- Truth value of an argument; arrays with several elements have none (ValueError), objects are true. -/
noncomputable def KwVal.truth : KwVal → Except PyErr Bool
  | .num x => .ok (decide (x ≠ 0))
  | .inf => .ok true
  | .vec [] => .ok false
  | .vec [x] => .ok (decide (x ≠ 0))
  | .none => .ok false
  | .other => .ok true
  | _ => .error .valueError

/-- `correlation(u, v, w=None, centered=True)`. -/
noncomputable def correlation : MetricFn := fun kw u v => do
  bindKw kw ["w", "centered"] []
  let w ← weightsOf kw
  let b ← ((kw.lookup "centered").getD (.num 1)).truth
  correlationCore w b u v

/-- `cosine(u, v, w=None)`: `max(0, min(d, 2.0))` of the correlation distance that is not centred; comparisons with NaN are false, so that
NaN becomes 0. -/
noncomputable def cosine : MetricFn := fun kw u v => do
  bindKw kw ["w"] []
  let w ← weightsOf kw
  let d ← correlationCore w false u v
  let d := if (Val.fin 2).ltB d then Val.fin 2 else d
  return if (Val.fin 0).ltB d then d else .fin 0

/-- `np.log`. -/
noncomputable def Val.log : Val ℝ → Val ℝ
  | .fin x => if 0 < x then .fin (Real.log x) else if x = 0 then .ninf else .nan
  | .pinf => .pinf
  | _ => .nan

/-- `scipy.special.rel_entr(x, y)`. -/
noncomputable def relEntr (x y : Val ℝ) : Val ℝ :=
  if x = .nan ∨ y = .nan then .nan
  else if (Val.fin 0).ltB x ∧ (Val.fin 0).ltB y then x.mul (x.div y).log
  else if x = .fin 0 ∧ (y = .fin 0 ∨ (Val.fin 0).ltB y) then .fin 0
  else .pinf

/-- `jensenshannon(p, q, base=None)`; the arguments `axis` and `keepdims` of newer versions are left out. -/
noncomputable def jensenshannon : MetricFn := fun kw u v => do
  bindKw kw ["base"] []
  let p := u.map fun x => (Val.fin x).div (.fin u.sum)
  let q := v.map fun x => (Val.fin x).div (.fin v.sum)
  let m ← bcast2 (fun x y => (x.add y).div (.fin 2)) p q
  let left ← bcast2 relEntr p m
  let right ← bcast2 relEntr q m
  let js := (left.foldl Val.add (.fin 0)).add (right.foldl Val.add (.fin 0))
  let js ← match kw.lookup "base" with
    | Option.none => Except.ok js
    | some .none => Except.ok js
    | some (.num b) => Except.ok (js.div (Val.fin b).log)
    | some .inf => Except.ok (js.div .pinf)
    | some _ => Except.error .typeError
  return (js.div (.fin 2)).sqrt

/-- `_METRICS` (_distance.py 15-29). -/
noncomputable def metrics : List (String × MetricFn) :=
  [("braycurtis", braycurtis), ("canberra", canberra), ("chebyshev", chebyshev), ("cityblock", cityblock), ("correlation", correlation),
   ("cosine", cosine), ("euclidean", euclidean), ("jensenshannon", jensenshannon), ("mahalanobis", mahalanobis), ("minkowski", minkowski),
   ("seuclidean", seuclidean), ("sqeuclidean", sqeuclidean), ("wminkowski", wminkowski)]

/-- `known_metrics` (_distance.py 38-47). -/
def knownMetrics (table : List (String × MetricFn)) : List String := table.map Prod.fst

/-- `get_metric` (_distance.py 50-80); `functools.partial` supplies the keyword arguments. A keyword argument called `name` collides with
its parameter (TypeError). -/
def getMetric (table : List (String × MetricFn)) (name : String) (kw : Kw) : Except PyErr MetricFn :=
  if (kw.map Prod.fst).contains "name" then .error .typeError
  else match table.lookup name with
  | none => .error .nameError
  | some f => match kw with
    | [] => .ok f
    | _ => .ok fun kw2 => f (kw ++ kw2)

/-- The metric argument. -/
inductive MetricArg
  | name (s : String)
  | callable (f : MetricFn)
  | other

/-- `Point.distance` (_base.py 329-356): the keyword arguments are used only when the metric is given by name. -/
def Point.distance (table : List (String × MetricFn)) (p q : Point ℝ) (metric : MetricArg) (kw : Kw) : Except PyErr (Val ℝ) :=
  match metric with
  | .name s => do
    let f ← getMetric table s kw
    f [] p.data q.data
  | .callable f => f [] p.data q.data
  | .other => .error .typeError

/-- `Point.norm` (_base.py 318-327): `np.sqrt(self @ self)`. -/
noncomputable def Point.norm (p : Point ℝ) : Except PyErr ℝ := do
  let d ← matmul p.data p.data
  return √ d

/-- The difference of two points with finite coordinates (_base.py 231-235, 358-380; special values: `Point.op`). -/
noncomputable def Point.sub (p q : Point ℝ) : Except PyErr (Point ℝ) := do
  let d ← bcast2 (· - ·) p.data q.data
  return Point.init d none

/-- `Segment.seglen` (_base.py 594-604). -/
noncomputable def pointSeglen (table : List (String × MetricFn)) (p1 p2 : Point ℝ) : Except PyErr (Val ℝ) :=
  p1.distance table p2 (.name "euclidean") []

/-- `Segment.direction.norm()` (_base.py 619-628, 318-327). -/
noncomputable def pointDirNorm (p1 p2 : Point ℝ) : Except PyErr ℝ := do
  let d ← p2.sub p1
  d.norm

end Verif.Model
