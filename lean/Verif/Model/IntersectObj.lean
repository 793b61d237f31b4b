import Verif.Model.Registry
import Verif.Model.SegmentObj
import Verif.Model.Intersect
import Verif.Model.ArcLen

/-!
`intersect` on the objects the user has: curves, segments and whatever else may be given (_intersect.py 228-271, 441-465, 593-632, 749-809,
_base.py 809-837, 2260-2297), with the registry and the keyword arguments of the methods.

The algorithms themselves are those of Model/Intersect.lean; here the curves and segments of the container model are handed to them.
Coordinates are finite real numbers, dtypes int or float.
-/
namespace Verif.Model

open Verif Verif.Np

/-- An argument of `intersect`: a segment (with curve and index if it is a `CurveSegment`), a curve (with its identity), anything else (a
point, an array, a number, ...) of which only the attribute `ndim` is asked. -/
inductive IObj
  | segment (s : Segment ℝ) (origin : Option (Nat × Nat))
  | curve (c : Curve ℝ) (cid : Nat)
  | other (ndim : Option Nat)

/-- `obj.ndim`. -/
def IObj.ndim? : IObj → Option Nat
  | .segment s _ => some s.ndim
  | .curve c _ => some c.ndim
  | .other d => d

instance : HasNdim IObj := ⟨IObj.ndim?⟩

/-- The result with its dimension. -/
abbrev IRes := Σ n, Result n ℝ

/-- The segment for the algorithms. -/
noncomputable def Segment.asObj (n : Nat) (s : Segment ℝ) (origin : Option (Nat × Nat)) : SegObj n ℝ := ⟨⟨rowVec n s.p1.data, rowVec n s.p2.data⟩, origin⟩

/-- The curve for the algorithms. -/
noncomputable def Curve.asG (n : Nat) (c : Curve ℝ) (cid : Nat) : GCurve n ℝ := ⟨cid, decide (c.dtype = .int), c.rows.map (rowVec n)⟩

/-- What the subclasses of `IntersectionMethodBase` implement (_intersect.py 309-318). -/
structure IAlg where
  segs : ∀ n, SegObj n ℝ → SegObj n ℝ → Except PyErr (Info n ℝ)
  curves : ∀ n, GCurve n ℝ → GCurve n ℝ → Except PyErr (List (SegInt n ℝ))

/-- `IntersectionMethodBase.__call__` (_intersect.py 228-271). `to_curve` makes a new object: its identity is not that of the other curve. -/
noncomputable def IAlg.call (a : IAlg) : IObj → IObj → Except PyErr IRes
  | .segment s g, .segment r h =>
    if s.ndim ≠ r.ndim then .error .valueError
    else do
      let info ← a.segs s.ndim (s.asObj s.ndim g) (r.asObj s.ndim h)
      return ⟨s.ndim, .single ⟨s.asObj s.ndim g, r.asObj s.ndim h, info⟩⟩
  | .curve c i, .curve d j =>
    if c.ndim ≠ d.ndim then .error .valueError
    else if c.size = 0 ∨ d.size = 0 then .ok ⟨c.ndim, .list []⟩
    else do
      let xs ← a.curves c.ndim (c.asG c.ndim i) (d.asG c.ndim j)
      return ⟨c.ndim, .list xs⟩
  | .segment s g, .curve d j =>
    if s.ndim ≠ d.ndim then .error .valueError
    else do
      let c ← s.toCurve
      if c.size = 0 ∨ d.size = 0 then return ⟨s.ndim, .list []⟩
      else
        let xs ← a.curves s.ndim (c.asG s.ndim (j + 1)) (d.asG s.ndim j)
        return ⟨s.ndim, .list (xs.map fun x => ⟨s.asObj s.ndim g, x.seg2, x.info⟩)⟩
  | .curve c i, .segment r h =>
    if c.ndim ≠ r.ndim then .error .valueError
    else do
      let d ← r.toCurve
      if c.size = 0 ∨ d.size = 0 then return ⟨c.ndim, .list []⟩
      else
        let xs ← a.curves c.ndim (c.asG c.ndim i) (d.asG c.ndim (i + 1))
        return ⟨c.ndim, .list (xs.map fun x => ⟨x.seg1, r.asObj c.ndim h, x.info⟩)⟩
  | _, _ => .error .typeError

/-- A value of a keyword argument: a number or a truth value. -/
inductive TolVal
  | num (x : ℝ)
  | bool (b : Bool)

/-- Used as a number: True is 1, False is 0. -/
def TolVal.toNum : TolVal → ℝ
  | .num x => x
  | .bool true => 1
  | .bool false => 0

/-- Used as a condition. -/
noncomputable def TolVal.truth : TolVal → Bool
  | .num x => decide (x ≠ 0)
  | .bool b => b

/-- Keyword arguments: distinct names (Python allows no others), in any order. -/
abbrev IKwargs := List (String × TolVal)

/-- The value of a parameter with a default. -/
def IKwargs.get (kw : IKwargs) (name : String) (dflt : TolVal) : TolVal :=
  match kw.find? fun e => e.1 == name with
  | some e => e.2
  | none => dflt

/-- The names in the signature of a constructor are the only ones accepted: otherwise the call is a TypeError. -/
def acceptsOnly (names : List String) (kw : IKwargs) : Bool := kw.all fun e => names.contains e.1

/-- `ExactIntersectionMethod` (_intersect.py 441-542). -/
noncomputable def exactAlg (feps : ℝ) : IAlg := ⟨fun _ s r => exactSegments feps s.seg r.seg, fun _ => exactCurves feps⟩

/-- `AlmostIntersectionMethod` (_intersect.py 593-746). -/
noncomputable def almostAlg (comps : Nat → (Nat → Nat → Bool) → List (List Nat)) (p : AlmostParams) : IAlg :=
  ⟨fun _ => almostSegments p.distTol p.correctOverlap p.parTol, fun _ => almostCurves p comps⟩

/-- `ExactIntersectionMethod.__init__` (_intersect.py 464-465). -/
noncomputable def exactClass : IClass IObj IKwargs IRes := fun kw =>
  if acceptsOnly ["feps"] kw = false then .error .typeError
  else .ok (exactAlg (kw.get "feps" (.num F_EPS)).toNum).call

/-- The parameters of `AlmostIntersectionMethod.__init__` (_intersect.py 622-632). -/
noncomputable def almostParams (kw : IKwargs) : AlmostParams where
  distTol := (kw.get "dist_tol" (.num (1 / 10 ^ 5))).toNum
  removeExtra := (kw.get "remove_extra" (.bool false)).truth
  extraTol := (kw.get "extra_tol" (.num (1 / 10 ^ 3))).toNum
  correctOverlap := (kw.get "correct_overlap" (.bool false)).truth
  parTol := (kw.get "parallel_tol" (.num F_EPS)).toNum

/-- `AlmostIntersectionMethod.__init__` (_intersect.py 622-632). -/
noncomputable def almostClass (comps : Nat → (Nat → Nat → Bool) → List (List Nat)) : IClass IObj IKwargs IRes := fun kw =>
  if acceptsOnly ["dist_tol", "remove_extra", "extra_tol", "correct_overlap", "parallel_tol"] kw = false then .error .typeError
  else .ok (almostAlg comps (almostParams kw)).call

/-- The registry after the import and any further calls of the module functions. -/
noncomputable def objRegistry (comps : Nat → (Nat → Nat → Bool) → List (List Nat)) (ops : List (RegOp (IClass IObj IKwargs IRes))) :
    Reg (IClass IObj IKwargs IRes) :=
  ops.foldl stepIntersect ((importIntersect exactClass (almostClass comps)).foldl stepIntersect Reg.empty)

/-- `intersect` (_intersect.py 749-809) and `Segment.intersect` (_base.py 809-837). -/
noncomputable def intersectObjs (r : Reg (IClass IObj IKwargs IRes)) (o1 o2 : IObj) (m : MethodArg IObj IRes) (kw : IKwargs) :
    Except PyErr IRes := intersectCall r o1 o2 m kw

/-- `Curve.intersect` (_base.py 2260-2297): `none` is None, the curve itself. -/
noncomputable def Curve.intersect (r : Reg (IClass IObj IKwargs IRes)) (c : Curve ℝ) (cid : Nat) (other : Option IObj)
    (m : MethodArg IObj IRes) (kw : IKwargs) : Except PyErr IRes :=
  intersectObjs r (.curve c cid) (other.getD (.curve c cid)) m kw

/-! What the registering decorators leave behind. -/

/-- The value of a module attribute: a class, or None. -/
inductive Attr (ι : Type)
  | cls (i : ι)
  | none

/-- `@register_…(name)` in front of a class (or function) statement: the class is registered and the name of the class gets what the decorator
returns, which is None (_intersect.py 428-436, _interpolate.py 391-396, _smooth.py 69-73: no return statement). -/
def decorated {ι : Type} (reg : Reg ι → String → Cand ι → Reg ι × Except PyErr Unit) (r : Reg ι) (name : String) (c : Cand ι) :
    Reg ι × Except PyErr (Attr ι) :=
  let (r', out) := reg r name c
  (r', out.map fun _ => Attr.none)

/-- Calling what a module attribute holds: `ExactIntersectionMethod(**kw)`. None is not callable. -/
def Attr.call {P M : Type} (a : Attr (P → Except PyErr M)) (kw : P) : Except PyErr M :=
  match a with
  | .cls f => f kw
  | .none => .error .typeError

end Verif.Model
