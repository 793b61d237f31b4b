import Verif.Model.Utils

/-!
Model of the container part of skcurve/_base.py: `Point`, `CurvePoint`, `Curve` (construction,
indexing, editing, membership, equality).

Element type: any `α` with the operations of class `Elem`. Objects are values; object identity, where
the code asks for it (`subcurve`), is an explicit number.
-/
namespace Verif.Model

open Verif Verif.Np

/-- numpy dtypes, reduced to what the code distinguishes: integers, floats, and non-numeric (`object`).
Simplification: all integer types are one unbounded type, all float types are one. -/
inductive DType
  | int | float | obj
  deriving DecidableEq, Repr

/-- What the container code needs of coordinates: zero, the cast to an integer dtype (truncation), and
`np.isclose` with default tolerances. -/
class Elem (α : Type) where
  zero : α
  trunc : α → α
  isclose : α → α → Bool
  trunc_zero : trunc zero = zero
  trunc_trunc : ∀ x, trunc (trunc x) = trunc x

/-- `arr.astype(dtype)` on one element. -/
def DType.cast {α : Type} [Elem α] : DType → α → α
  | .int, x => Elem.trunc x
  | .float, x => x
  | .obj, x => x

/-- Result dtype of `np.vstack` / `np.hstack` of two dtypes. -/
def DType.promote : DType → DType → DType
  | .int, .int => .int
  | .obj, _ => .obj
  | _, .obj => .obj
  | _, _ => .float

/-- A point (skcurve/_base.py 94-380, attribute `_data`). -/
structure Point (α : Type) where
  data : List α
  dtype : DType
  deriving DecidableEq

/-- A curve (skcurve/_base.py 988-2301, attributes `_data` as rows and `_tdata`). `ncols` is
`_data.shape[1]`. -/
structure Curve (α : Type) where
  rows : List (List α)
  ncols : Nat
  tdata : Option (List α)
  dtype : DType
  deriving DecidableEq

/-- What may be passed as `curve_data` (_base.py 999-1030): an array, a sequence of coordinate
sequences, or a curve. -/
inductive CurveData (α : Type)
  | arr (a : NdArr α) (dt : DType)
  | seq (xs : List (List α))
  | curve (c : Curve α)

variable {α : Type} [Elem α]

/-- `len(curve)`, `curve.size` (_base.py 1179-1188, 1459-1469). -/
def Curve.size (c : Curve α) : Nat := c.rows.length

/-- `curve.ndim` (_base.py 1471-1481). -/
def Curve.ndim (c : Curve α) : Nat := c.ncols

/-- `curve.isparametric` (_base.py 1549-1566). -/
def Curve.isparametric (c : Curve α) : Bool := c.tdata.isSome

/-- `np.asarray` of a sequence of sequences: a 2-D array when all have one length; otherwise a 1-D
object array (numpy < 1.24), whose elements never matter because `as2d` rejects axis 1 of it and axis 0
gives one column, which is rejected too. -/
def asarray (xs : List (List α)) : NdArr α :=
  match xs with
  | [] => ⟨[0], fun _ => Elem.zero⟩
  | x :: _ =>
    if xs.all (fun y => y.length == x.length) then NdArr.ofRows Elem.zero xs x.length
    else ⟨[xs.length], fun _ => Elem.zero⟩

/-- Second half of `Curve.__init__` (_base.py 1142-1168): cast, dimension checks, padding with zero
coordinates, tdata checks. Simplification: `tdata` is a 1-D sequence of numbers (the "must be 1-D"
check has no counterpart). -/
def Curve.finish (raw : Arr2 α) (dtype : DType) (tdata : Option (List α)) (isNdmin : Bool) (ndmin : Nat) :
    Except PyErr (Curve α) :=
  let rows0 := raw.rows.map fun r => r.map dtype.cast                          -- 1142
  let empty : Bool := rows0.length * raw.ncols == 0
  let rows := if empty then [] else rows0                                      -- 1144-1145
  let n := if empty then ndmin else raw.ncols
  let m := rows.length
  if m * n > 0 ∧ n < 2 then .error .valueError                                 -- 1149-1150
  else
    let pad := isNdmin ∧ m > 0 ∧ n < ndmin                                     -- 1152-1154
    let rows' := if pad then rows.map (fun r => r ++ List.replicate (ndmin - n) (dtype.cast Elem.zero)) else rows
    let n' := if pad then ndmin else n
    match tdata with
    | none => .ok ⟨rows', n', none, dtype⟩
    | some t =>
      if t.length ≠ rows'.length then .error .valueError                       -- 1162-1163
      else .ok ⟨rows', n', some t, dtype⟩

/-- `Curve.__init__` (_base.py 1095-1168). The check for a numeric dtype (1139-1140) builds a
ValueError object but does not raise it, so it has no effect. Warnings are not modelled. -/
def Curve.init (data : CurveData α) (tdata : Option (List α)) (axis : Option Int) (ndmin : Option Int)
    (dtype : Option DType) : Except PyErr (Curve α) :=
  let isNdmin := ndmin.isSome                                                  -- 1105-1111
  let ndmin' := ndmin.getD 2
  if ndmin' < 2 then .error .valueError                                        -- 1113-1114
  else match data with
    | .curve c =>                                                              -- 1116-1128
      match as2d (NdArr.ofRows Elem.zero c.rows c.ncols) 0 with
      | .error e => .error e
      | .ok raw => Curve.finish raw (dtype.getD c.dtype) c.tdata isNdmin ndmin'.toNat
    | .arr a dt =>
      match as2d a (axis.getD 0) with                                          -- 1130-1134
      | .error e => .error e
      | .ok raw => Curve.finish raw (dtype.getD dt) tdata isNdmin ndmin'.toNat
    | .seq xs =>
      match as2d (asarray xs) (axis.getD 1) with
      | .error e => .error e
      | .ok raw => Curve.finish raw (dtype.getD .float) tdata isNdmin ndmin'.toNat

/-- `Curve(array2d, tdata=t)` as the methods of `Curve` call it. -/
def Curve.ofRows (rows : List (List α)) (n : Nat) (dt : DType) (t : Option (List α)) :
    Except PyErr (Curve α) :=
  Curve.init (.arr (NdArr.ofRows Elem.zero rows n) dt) t none none none

/-- `Point(data, dtype)` for a 1-D sequence (_base.py 131-151). As in `Curve`, the numeric check
(141-142) raises nothing. -/
def Point.init (data : List α) (dtype : Option DType) : Point α :=
  let dt := dtype.getD .float
  ⟨data.map dt.cast, dt⟩

/-- `Point(point)`, `copy`, `deepcopy` (_base.py 135-139, 274-278): the dtype argument defaults to
float64, the dtype of the source is not consulted. -/
def Point.copy (p : Point α) : Point α := Point.init p.data none

/-- `point.ndim`, `len(point)` (_base.py 159-168). -/
def Point.ndim (p : Point α) : Nat := p.data.length

/-- A curve point (_base.py 383-410): the point data, the index, and the curve it belongs to (value and
object identity). -/
structure CurvePoint (α : Type) where
  point : Point α
  idx : Int
  curve : Curve α
  cid : Nat

/-- `CurvePoint.__init__` (_base.py 403-410): a negative index gets `+size` once, then numpy indexing
normalises again. -/
def CurvePoint.init (c : Curve α) (cid : Nat) (index : Int) : Except PyErr (CurvePoint α) :=
  let i := if index < 0 then (c.size : Int) + index else index
  match getIdx c.rows i with
  | .error e => .error e
  | .ok row => .ok ⟨Point.init row none, i, c, cid⟩

/-- Argument of `curve[...]`. `list` is a python sequence of ints (an empty one becomes a float array),
`arr` an integer ndarray, `farr` a float ndarray, `other` anything else. -/
inductive Indexer
  | int (i : Int)
  | slice (s : PySlice)
  | list (is : List Int)
  | arr (is : List Int)
  | mask (bs : List Bool)
  | farr
  | other
  deriving DecidableEq, Repr

/-- numpy indexing of the first axis by a slice or 1-D array. -/
def npIndex {β : Type} (xs : List β) : Indexer → Except PyErr (List β)
  | .int _ => .error .typeError
  | .slice s => slice xs s
  | .list is => if is.isEmpty then .error .indexError else take xs is
  | .arr is => take xs is
  | .mask bs => mask xs bs
  | .farr => .error .indexError
  | .other => .error .typeError

/-- `get_subcurve` inside `Curve.__getitem__` (_base.py 1228-1233): `tdata` is indexed first. -/
def Curve.getSub (c : Curve α) (ix : Indexer) : Except PyErr (Curve α) :=
  match c.tdata with
  | some t =>
    match npIndex t ix with
    | .error e => .error e
    | .ok t' => match npIndex c.rows ix with
      | .error e => .error e
      | .ok rows => Curve.ofRows rows c.ncols c.dtype (some t')
  | none =>
    match npIndex c.rows ix with
    | .error e => .error e
    | .ok rows => Curve.ofRows rows c.ncols c.dtype none

/-- Result of `curve[...]`. -/
inductive Item (α : Type)
  | point (p : CurvePoint α)
  | curve (c : Curve α)

/-- `Curve.__getitem__` (_base.py 1203-1250). -/
def Curve.getItem (c : Curve α) (cid : Nat) : Indexer → Except PyErr (Item α)
  | .int i => (CurvePoint.init c cid i).map .point
  | ix => (c.getSub ix).map .curve

/-- `CurvePoint.subcurve` (_base.py 466-495) for an argument that is a CurvePoint. -/
def CurvePoint.subcurve (p q : CurvePoint α) (endpoint : Bool) : Except PyErr (Curve α) :=
  if p.cid ≠ q.cid then .error .valueError
  else p.curve.getSub (.slice ⟨some p.idx, some (q.idx + if endpoint then 1 else 0), none⟩)

/-- Argument of `subcurve`: a CurvePoint or any other object. -/
inductive SubcurveArg (α : Type)
  | cpoint (q : CurvePoint α)
  | other

/-- `CurvePoint.subcurve` with its type check (_base.py 488-489). -/
def CurvePoint.subcurveArg (p : CurvePoint α) (arg : SubcurveArg α) (endpoint : Bool) :
    Except PyErr (Curve α) :=
  match arg with
  | .other => .error .typeError
  | .cpoint q => p.subcurve q endpoint

/-- `isequal` on one pair of elements (_numeric.py 15-43). -/
def isequal (d1 d2 : DType) [DecidableEq α] (x y : α) : Bool :=
  if d1 = .int ∧ d2 = .int then decide (x = y) else Elem.isclose x y

/-- `np.all(isequal(a, b))` over two equally long vectors. -/
def rowEq (d1 d2 : DType) [DecidableEq α] (a b : List α) : Bool :=
  (List.zipWith (isequal d1 d2) a b).all id

/-- `allequal(A, B)` over two equally shaped 2-D arrays. -/
def allequal2 (d1 d2 : DType) [DecidableEq α] (A B : List (List α)) : Bool :=
  (List.zipWith (rowEq d1 d2) A B).all id

/-- `Point.__eq__` (_base.py 202-223) between points. -/
def Point.eq [DecidableEq α] (p q : Point α) : Bool :=
  if p.ndim ≠ q.ndim then false else rowEq p.dtype q.dtype p.data q.data

/-- `Curve.__eq__` (_base.py 1292-1315) between curves. -/
def Curve.eq [DecidableEq α] (a b : Curve α) : Bool :=
  if a.ndim ≠ b.ndim then false
  else if a.size ≠ b.size then false
  else allequal2 a.dtype b.dtype a.rows b.rows

/-- `Curve.__contains__` for a point (_base.py 1268-1275). -/
def Curve.containsPoint [DecidableEq α] (c : Curve α) (p : Point α) : Bool :=
  if c.ndim ≠ p.ndim then false
  else (c.rows.map (rowEq p.dtype c.dtype p.data)).any id

/-- `Curve.__contains__` for a curve (_base.py 1276-1290). -/
def Curve.containsCurve [DecidableEq α] (c o : Curve α) : Bool :=
  if c.ndim ≠ o.ndim then false
  else if c.size = o.size then allequal2 c.dtype o.dtype c.rows o.rows
  else if c.size < o.size then false
  else (List.range (c.size - o.size + 1)).any fun i =>
    allequal2 c.dtype o.dtype ((c.rows.drop i).take o.size) o.rows

/-- `Curve._check_ndim` (_base.py 2299-2301). -/
def checkNdim (a b : Nat) : Except PyErr Unit := if a ≠ b then .error .valueError else .ok ()

/-- `Curve.__add__` (_base.py 1317-1346) between curves. -/
def Curve.add (a b : Curve α) : Except PyErr (Curve α) :=
  match checkNdim a.ndim b.ndim with
  | .error e => .error e
  | .ok _ =>
    let t := match a.tdata, b.tdata with
      | some s, some t => some (s ++ t)
      | _, _ => none
    let dt := a.dtype.promote b.dtype
    Curve.ofRows ((a.rows ++ b.rows).map fun r => r.map dt.cast) a.ncols dt t

/-- `copy`, `deepcopy` (_base.py 1348-1352). -/
def Curve.copy (c : Curve α) : Except PyErr (Curve α) := Curve.init (.curve c) none none none none

/-- The rows `Curve.index` searches (_base.py 1380-1383). -/
def Curve.indexData (c : Curve α) (start stop : Option Int) : Except PyErr (List (List α)) :=
  match start, stop with
  | none, none => .ok c.rows
  | _, _ => slice c.rows ⟨start, stop, none⟩

/-- `Curve.index` (_base.py 1354-1397). -/
def Curve.index [DecidableEq α] (c : Curve α) (p : Point α) (start stop : Option Int) : Except PyErr Int :=
  match checkNdim c.ndim p.ndim with
  | .error e => .error e
  | .ok _ =>
    match c.indexData start stop with
    | .error e => .error e
    | .ok data =>
      let isClose := data.map (rowEq p.dtype c.dtype p.data)
      if !(isClose.any id) then .error .valueError
      else
        let indices := (flatnonzero isClose).map fun (k : Nat) => (k : Int)
        let indices := match start with                                -- `if start:` (None and 0 are false)
          | some s => if s ≠ 0 then indices.map (· + s) else indices
          | none => indices
        match indices with
        | k :: _ => .ok k
        | [] => .error .indexError

/-- `Curve.count` (_base.py 1399-1419). -/
def Curve.count [DecidableEq α] (c : Curve α) (p : Point α) : Except PyErr Nat :=
  match checkNdim c.ndim p.ndim with
  | .error e => .error e
  | .ok _ => .ok ((c.rows.map (rowEq p.dtype c.dtype p.data)).filter id).length

/-- `Curve.reverse` (_base.py 1639-1658). -/
def Curve.reverse (c : Curve α) : Except PyErr (Curve α) :=
  Curve.ofRows c.rows.reverse c.ncols c.dtype (c.tdata.map List.reverse)

/-- A point or a curve as an argument of `insert`. -/
inductive PointOrCurve (α : Type)
  | point (p : Point α)
  | curve (c : Curve α)

/-- dimension of the argument -/
def PointOrCurve.ndim : PointOrCurve α → Nat
  | .point p => p.ndim
  | .curve c => c.ndim

/-- the rows to insert (_base.py 1751-1757) -/
def PointOrCurve.rows : PointOrCurve α → List (List α)
  | .point p => [p.data]
  | .curve c => c.rows

/-- `Curve.insert` (_base.py 1695-1766). `np.insert` casts the new values to the dtype of the curve.
An IndexError of numpy is re-raised as IndexError. -/
def Curve.insert (c : Curve α) (ix : Obj) (other : PointOrCurve α) : Except PyErr (Curve α) :=
  match checkNdim c.ndim other.ndim with
  | .error e => .error e
  | .ok _ =>
    match Np.insert c.rows ix (other.rows.map fun r => r.map c.dtype.cast) with
    | .error e => .error e
    | .ok rows => Curve.ofRows rows c.ncols c.dtype none

/-- `Curve.append` (_base.py 1768-1804). -/
def Curve.append (c : Curve α) (other : PointOrCurve α) : Except PyErr (Curve α) :=
  c.insert (.int c.size) other

/-- `Curve.delete` (_base.py 1806-1858). -/
def Curve.delete (c : Curve α) (ix : Obj) : Except PyErr (Curve α) :=
  match c.tdata with
  | some t =>
    match Np.delete t ix with
    | .error e => .error e
    | .ok t' => match Np.delete c.rows ix with
      | .error e => .error e
      | .ok rows => Curve.ofRows rows c.ncols c.dtype (some t')
  | none =>
    match Np.delete c.rows ix with
    | .error e => .error e
    | .ok rows => Curve.ofRows rows c.ncols c.dtype none

/-- `Curve.values(axis)` for an integer axis (_base.py 1860-1896): axis >= ndim is a ValueError, a too
negative axis an IndexError of numpy. -/
def Curve.values (c : Curve α) (axis : Int) : Except PyErr (List α) :=
  if axis ≥ c.ndim then .error .valueError
  else match normIdx c.ncols axis with
    | none => .error .indexError
    | some k => .ok (c.rows.map fun r => r.getD k Elem.zero)

/-- `Curve.insertdim` (_base.py 1898-1946) for a 1-D `values` (a one-element vector is broadcast by
numpy). `np.insert(data, axis, values, axis=1)` with a scalar axis inserts one column. -/
def Curve.insertdim (c : Curve α) (axis : Int) (values : Option (List α)) : Except PyErr (Curve α) :=
  let vals := (values.getD (List.replicate c.size Elem.zero)).map c.dtype.cast
  let n := c.ncols
  if axis < -(n : Int) ∨ axis > n then .error .indexError
  else
    let k := (if axis < 0 then axis + (n : Int) else axis).toNat
    match bcast vals c.size with
    | .error e => .error e
    | .ok vs => Curve.ofRows (List.zipWith (fun r v => r.take k ++ [v] ++ r.drop k) c.rows vs) (n + 1) c.dtype none

/-- `Curve.appenddim` (_base.py 1948-1984). -/
def Curve.appenddim (c : Curve α) (values : Option (List α)) : Except PyErr (Curve α) :=
  c.insertdim c.ndim values

/-- `Curve.deletedim` (_base.py 1986-2033). `np.delete(data, axis, axis=1)` keeps the same columns of
every row. -/
def Curve.deletedim (c : Curve α) (axis : Obj) : Except PyErr (Curve α) :=
  if c.ncols = 2 then .error .valueError
  else match Np.delete (List.range c.ncols) axis with
    | .error e => .error e
    | .ok kept => Curve.ofRows (c.rows.map fun r => gather r kept) kept.length c.dtype none

/-- Lexicographic `<=` of rows, the order `np.unique(axis=0)` sorts by. -/
def lexLe [LE α] [DecidableLE α] [DecidableEq α] : List α → List α → Bool
  | [], _ => true
  | _ :: _, [] => false
  | x :: xs, y :: ys => if x = y then lexLe xs ys else decide (x ≤ y)

/-- Keep the positions whose row differs from the row at the position before (`aux[1:] != aux[:-1]`). -/
def diffPrev [DecidableEq α] (rows : List (List α)) : Nat → List Nat → List Nat
  | _, [] => []
  | prev, j :: rest =>
    if rows[j]? ≠ rows[prev]? then j :: diffPrev rows j rest else diffPrev rows j rest

/-- The mask of `np.unique`: the first position of every run of equal rows in the sorted order. -/
def firstOfRuns [DecidableEq α] (rows : List (List α)) : List Nat → List Nat
  | [] => []
  | i :: rest => i :: diffPrev rows i rest

/-- `np.unique(data, axis=0, return_index=True)[1]`: stable argsort of the rows, then the first position
of every run. NaN is outside the model (the order is total). -/
def uniqueIndex [LE α] [DecidableLE α] [DecidableEq α] (rows : List (List α)) : List Nat :=
  firstOfRuns rows ((List.range rows.length).mergeSort fun a b => lexLe (rows.getD a []) (rows.getD b []))

/-- `Curve.unique` (_base.py 2035-2062). -/
def Curve.unique [LE α] [DecidableLE α] [DecidableEq α] (c : Curve α) : Except PyErr (Curve α) :=
  let sIndex := (uniqueIndex c.rows).mergeSort fun a b => decide (a ≤ b)
  Curve.ofRows (gather c.rows sIndex) c.ncols c.dtype (c.tdata.map (gather · sIndex))

/-- What a checker passed to `Curve.drop` may return. -/
inductive DropRes
  | boolVec (bs : List Bool)
  | boolMat (bss : List (List Bool))
  | idxVec (is : List Int)
  | otherMat
  | floatVec
  deriving DecidableEq

/-- `Curve.drop` (_base.py 2064-2121) for a callable checker. -/
def Curve.drop (c : Curve α) (isa : List (List α) → DropRes) : Except PyErr (Curve α) :=
  let go (flags : List Bool) : Except PyErr (Curve α) :=
    match c.tdata with
    | some t =>
      match mask t (flags.map (!·)) with
      | .error e => .error e
      | .ok t' => match mask c.rows (flags.map (!·)) with
        | .error e => .error e
        | .ok rows => Curve.ofRows rows c.ncols c.dtype (some t')
    | none =>
      match mask c.rows (flags.map (!·)) with
      | .error e => .error e
      | .ok rows => Curve.ofRows rows c.ncols c.dtype none
  match isa c.rows with
  | .otherMat => .error .valueError
  | .floatVec => .error .indexError
  | .idxVec is => c.delete (.arr is)
  | .boolMat bss => go (bss.map fun bs => bs.any id)
  | .boolVec bs => go bs

end Verif.Model
