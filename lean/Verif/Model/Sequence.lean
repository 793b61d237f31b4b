import Verif.Model.PointOps

/-!
Points and curves as Python sequences: `Point.__getitem__`, `__len__`, `__bool__` (skcurve/_base.py 131-200) and the methods that `Point` and
`Curve` inherit from `collections.abc.Sequence` (_base.py 94, 988; CPython Lib/_collections_abc.py `Sequence`).
-/
namespace Verif.Model

open Verif Verif.Np

section
variable {α : Type} [Elem α]

/-- A point object: usually a vector; `Point(5)` keeps the 0-dimensional array it gets. -/
inductive PointObj (α : Type)
  | vec (p : Point α)
  | scalar (x : α) (dt : DType)

/-- `Point.__init__` (_base.py 131-151) for any array: only more than one axis is refused. -/
def PointObj.init (a : NdArr α) (dtype : Option DType) : Except PyErr (PointObj α) :=
  let dt := dtype.getD .float
  match a.shape with
  | [] => .ok (.scalar (dt.cast (a.get [])) dt)
  | [_] => .ok (.vec (Point.init a.ravel dtype))
  | _ => .error .valueError

/-- `len(point)`, `point.ndim` (159-168, 306-316): the number of entries of the array. -/
def PointObj.len : PointObj α → Nat
  | .vec p => p.ndim
  | .scalar _ _ => 1

/-- `bool(point)` (170-171). -/
def PointObj.bool (p : PointObj α) : Bool := decide (p.len > 0)

/-- What `point[...]` returns: a number, an array, or a point. -/
inductive PItem (α : Type)
  | num (x : α)
  | arr (xs : List α)
  | point (p : Point α)

/-- `self._data[index]` for an index that selects several entries. Unlike in `Curve.__getitem__` an empty list is a valid index; objects that are
no index at all are an IndexError (numpy). None, Ellipsis and tuples are left out. -/
def pickData (xs : List α) : Indexer → Except PyErr (List α)
  | .int _ => .error .indexError
  | .slice s => slice xs s
  | .list is => take xs is
  | .arr is => take xs is
  | .mask bs => mask xs bs
  | .farr => .error .indexError
  | .other => .error .indexError

/-- `Point.__getitem__` (173-200). An array without axes cannot be indexed. -/
def PointObj.getItem : PointObj α → Indexer → Except PyErr (PItem α)
  | .scalar _ _, _ => .error .indexError
  | .vec p, .int i => (getIdx p.data i).map .num
  | .vec p, ix => (pickData p.data ix).map fun ys => if ys.length > 1 then .point (Point.init ys none) else .arr ys

end

/-! ## `collections.abc.Sequence` -/

section
variable {β : Type}

/-- `Sequence.__iter__` from position `i`: the items until `self[i]` raises IndexError; other exceptions get out. None: it does not end. -/
def iterFrom (get : Nat → Except PyErr β) (i : Nat) : Option (Except PyErr (List β)) :=
  match get i with
  | .error .indexError => some (.ok [])
  | .error e => some (.error e)
  | .ok v => do
    let r ← iterFrom get (i + 1)
    return r.map (v :: ·)
partial_fixpoint

/-- `list(seq)`. -/
def seqList (get : Nat → Except PyErr β) : Option (Except PyErr (List β)) := iterFrom get 0

/-- `Sequence.__reversed__`: `for i in reversed(range(len(self)))`. -/
def seqReversed (get : Nat → Except PyErr β) (len : Nat) : Except PyErr (List β) := (List.range len).reverse.mapM get

/-- `Sequence.__contains__` from position `i`: `for v in self: if v is value or v == value: return True`. -/
def containsFrom (get : Nat → Except PyErr β) (eq : β → Bool) (i : Nat) : Option (Except PyErr Bool) :=
  match get i with
  | .error .indexError => some (.ok false)
  | .error e => some (.error e)
  | .ok v => if eq v then some (.ok true) else containsFrom get eq (i + 1)
partial_fixpoint

/-- `Sequence.count`. -/
def seqCount (get : Nat → Except PyErr β) (eq : β → Bool) : Option (Except PyErr Nat) :=
  (seqList get).map fun r => r.map fun xs => (xs.filter eq).length

/-- `stop is None or i < stop`. -/
def beforeStop (stop : Option Int) (i : Nat) : Bool :=
  match stop with
  | none => true
  | some b => decide ((i : Int) < b)

/-- The loop of `Sequence.index` from position `i`. -/
def indexFrom (get : Nat → Except PyErr β) (eq : β → Bool) (stop : Option Int) (i : Nat) : Option (Except PyErr Nat) :=
  if beforeStop stop i then
    match get i with
    | .error .indexError => some (.error .valueError)
    | .error e => some (.error e)
    | .ok v => if eq v then some (.ok i) else indexFrom get eq stop (i + 1)
  else some (.error .valueError)
partial_fixpoint

/-- `Sequence.index(value, start, stop)`. -/
def seqIndex (get : Nat → Except PyErr β) (len : Nat) (eq : β → Bool) (start : Int) (stop : Option Int) : Option (Except PyErr Nat) :=
  let start := if start < 0 then max ((len : Int) + start) 0 else start
  let stop := stop.map fun (b : Int) => if b < 0 then b + (len : Int) else b
  indexFrom get eq stop start.toNat

end

/-! ## The two classes -/

section
variable {α : Type} [Elem α]

/-- `curve[i]`, as the iteration calls it. -/
def Curve.getPoint (c : Curve α) (cid : Nat) (i : Nat) : Except PyErr (CurvePoint α) := CurvePoint.init c cid i

/-- `list(curve)`. -/
def Curve.toList (c : Curve α) (cid : Nat) : Option (Except PyErr (List (CurvePoint α))) := seqList (c.getPoint cid)

/-- `list(reversed(curve))`. -/
def Curve.toListReversed (c : Curve α) (cid : Nat) : Except PyErr (List (CurvePoint α)) := seqReversed (c.getPoint cid) c.size

/-- `copy(curve_point)` (_base.py 417-421). -/
def CurvePoint.copy (p : CurvePoint α) : Except PyErr (CurvePoint α) := CurvePoint.init p.curve p.cid p.idx

/-- `list(curve.values())` (_base.py 1895-1896). -/
def Curve.valuesAll (c : Curve α) : List (List α) := (List.range c.ndim).map fun j => c.rows.map fun r => r.getD j Elem.zero

/-- `point[i]`, as the iteration calls it. -/
def PointObj.getAt (p : PointObj α) (i : Nat) : Except PyErr (PItem α) := p.getItem (.int i)

/-- `list(point)`. -/
def PointObj.toList (p : PointObj α) : Option (Except PyErr (List (PItem α))) := seqList p.getAt

/-- `list(reversed(point))`. -/
def PointObj.toListReversed (p : PointObj α) : Except PyErr (List (PItem α)) := seqReversed p.getAt p.len

end

section
variable {K : Type} [Field K] [LinearOrder K] [IsStrictOrderedRing K] [FloorRing K]

/-- `v is value or v == value` for an item of a point and a number: the items are new objects, so only `==` counts. -/
def itemEq (x : Val K) : PItem (Val K) → Bool
  | .num v => v.ieeeEq x
  | _ => false

/-- `x in point`. -/
def PointObj.contains (p : PointObj (Val K)) (x : Val K) : Option (Except PyErr Bool) := containsFrom p.getAt (itemEq x) 0

/-- `point.count(x)`. -/
def PointObj.count (p : PointObj (Val K)) (x : Val K) : Option (Except PyErr Nat) := seqCount p.getAt (itemEq x)

/-- `point.index(x, start, stop)`. -/
def PointObj.index (p : PointObj (Val K)) (x : Val K) (start : Int) (stop : Option Int) : Option (Except PyErr Nat) :=
  seqIndex p.getAt p.len (itemEq x) start stop

end

end Verif.Model
