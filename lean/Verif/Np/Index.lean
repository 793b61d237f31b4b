import Verif.Np.Err

/-!
numpy / CPython indexing of one axis, on lists.
-/
namespace Verif.Np

open Verif

/-- Normalisation of one integer index against an axis of length `n`, as numpy does for `a[i]`,
`np.delete(a, i)` and python lists: valid iff `-n <= i < n`. -/
def normIdx (n : Nat) (i : Int) : Option Nat :=
  if 0 ≤ i then (if i < n then some i.toNat else none)
  else if -(n : Int) ≤ i then some (i + n).toNat else none

/-- `a[i]` for an integer `i`. -/
def getIdx {α : Type _} (xs : List α) (i : Int) : Except PyErr α :=
  match normIdx xs.length i with
  | none => .error .indexError
  | some k => match xs[k]? with
    | some x => .ok x
    | none => .error .indexError

/-- A python slice object `start:stop:step`. -/
structure PySlice where
  start : Option Int := none
  stop : Option Int := none
  step : Option Int := none
  deriving DecidableEq, Repr

/-- The step of a slice (missing = 1). -/
def PySlice.k (s : PySlice) : Int := s.step.getD 1

/-- CPython `PySlice_AdjustIndices` for one bound: negative values count from the end, then clamp;
the clamp limits depend on the sign of the step. -/
def adjust (n : Nat) (neg : Bool) (v : Int) : Int :=
  if v < 0 then
    let w := v + n
    if w < 0 then (if neg then -1 else 0) else w
  else if v ≥ n then (if neg then (n : Int) - 1 else n)
  else v

/-- Adjusted start (CPython `PySlice_Unpack` default + `PySlice_AdjustIndices`). -/
def PySlice.lo (s : PySlice) (n : Nat) : Int :=
  match s.start with
  | some v => adjust n (decide (s.k < 0)) v
  | none => if s.k < 0 then (n : Int) - 1 else 0

/-- Adjusted stop. -/
def PySlice.hi (s : PySlice) (n : Nat) : Int :=
  match s.stop with
  | some v => adjust n (decide (s.k < 0)) v
  | none => if s.k < 0 then -1 else n

/-- Number of selected elements (CPython `PySlice_AdjustIndices` return value). -/
def PySlice.len (s : PySlice) (n : Nat) : Nat :=
  if s.k < 0 then
    if s.hi n < s.lo n then ((s.lo n - s.hi n - 1) / (-s.k) + 1).toNat else 0
  else
    if s.lo n < s.hi n then ((s.hi n - s.lo n - 1) / s.k + 1).toNat else 0

/-- Positions selected by a slice on an axis of length `n`; a zero step is a ValueError. -/
def sliceIndices (n : Nat) (s : PySlice) : Except PyErr (List Nat) :=
  if s.k = 0 then .error .valueError
  else .ok ((List.range (s.len n)).map fun (m : Nat) => (s.lo n + m * s.k).toNat)

/-- Gather positions (positions out of range are skipped; callers only pass positions in range). -/
def gather {α : Type _} (xs : List α) (is : List Nat) : List α := is.filterMap (xs[·]?)

/-- `a[start:stop:step]` along the first axis. -/
def slice {α : Type _} (xs : List α) (s : PySlice) : Except PyErr (List α) :=
  match sliceIndices xs.length s with
  | .error e => .error e
  | .ok is => .ok (gather xs is)

/-- `a[int array]`: every index is normalised separately; any out of range index is an IndexError. -/
def take {α : Type _} (xs : List α) (is : List Int) : Except PyErr (List α) :=
  is.mapM (getIdx xs)

/-- Keep the elements whose flag is set. -/
def compress {α : Type _} : List Bool → List α → List α
  | b :: bs, x :: xs => if b then x :: compress bs xs else compress bs xs
  | _, _ => []

/-- `a[bool array]`: the mask must have the length of the axis, otherwise IndexError. -/
def mask {α : Type _} (xs : List α) (bs : List Bool) : Except PyErr (List α) :=
  if bs.length = xs.length then .ok (compress bs xs) else .error .indexError

/-- `np.flatnonzero`. -/
def flatnonzero (bs : List Bool) : List Nat :=
  (List.range bs.length).filter fun i => bs[i]? == some true

/-- `keep = ones(N); keep[indices] = False` (indices already normalised). -/
def keepMask (n : Nat) (is : List Nat) : List Bool :=
  (List.range n).map fun i => !(is.contains i)

/-- What may be passed to `np.delete` / `np.insert` as `obj`. Python lists, int arrays and bool arrays
behave differently in the empty case of `a[obj]`; for delete and insert they do not. -/
inductive Obj
  | int (i : Int)
  | slice (s : PySlice)
  | arr (is : List Int)
  | mask (bs : List Bool)
  deriving DecidableEq, Repr

/-- `np.delete(a, obj, axis=0)` (numpy 1.19-1.23 `function_base.delete`): slice: copy the initial chunk,
the kept part of the middle chunk, the end chunk, with a negative step inverted first; int: copy two
chunks; array: boolean keep mask; a boolean array of another length is a ValueError. -/
def delete {α : Type _} (xs : List α) : Obj → Except PyErr (List α)
  | .slice s =>
    if s.k = 0 then .error .valueError
    else
      let n := xs.length
      let numtodel := s.len n
      if numtodel = 0 then .ok xs
      else
        let last := s.lo n + (numtodel - 1 : Int) * s.k
        let start := if s.k < 0 then last else s.lo n
        let stop := if s.k < 0 then s.lo n + 1 else s.hi n
        let step := if s.k < 0 then -s.k else s.k
        let mid := (xs.drop start.toNat).take (stop - start).toNat
        let keep := (List.range (stop - start).toNat).map fun (j : Nat) => decide (¬ ((j : Int) % step = 0))
        .ok (xs.take start.toNat ++ compress keep mid ++ xs.drop stop.toNat)
  | .int i =>
    match normIdx xs.length i with
    | none => .error .indexError
    | some k => .ok (xs.take k ++ xs.drop (k + 1))
  | .arr is =>
    match is.mapM (normIdx xs.length) with
    | none => .error .indexError
    | some ks => .ok (compress (keepMask xs.length ks) xs)
  | .mask bs =>
    if bs.length = xs.length then .ok (compress (bs.map (!·)) xs) else .error .valueError

/-- Broadcast a list of rows to `m` rows (numpy: length `m`, or length 1 repeated). -/
def bcast {α : Type _} (vs : List α) (m : Nat) : Except PyErr (List α) :=
  if vs.length = m then .ok vs
  else match vs with
    | [v] => .ok (List.replicate m v)
    | _ => .error .valueError

/-- Stable sort of positions by key: `indices.argsort(kind='mergesort')`. -/
def argsort (is : List Int) : List Nat :=
  (List.range is.length).mergeSort fun a b => decide (is[a]?.getD 0 ≤ is[b]?.getD 0)

/-- `indices[order] += np.arange(numnew)` : the entry at position `order[k]` grows by `k`. -/
def addRank (is : List Int) : List Int :=
  (List.range is.length).map fun j => is[j]?.getD 0 + ((argsort is).idxOf j : Int)

/-- `new[indices] = values; new[old_mask] = arr` read back position by position: position `p` holds
the value of the last `j` with `indices[j] = p`, otherwise the next not yet used old row. -/
def scatter {α : Type _} (pos : List Nat) (vals : List α) : Nat → Nat → List α → List α
  | _, 0, _ => []
  | p, m + 1, old =>
    match ((pos.zip vals).reverse.find? fun q => q.1 == p) with
    | some q => q.2 :: scatter pos vals (p + 1) m old
    | none => match old with
      | o :: old' => o :: scatter pos vals (p + 1) m old'
      | [] => []

/-- `np.insert` with one index (scalar, one-element array, or slice selecting one position): the index
must be in `-N..N`; the whole block `values` goes before it. -/
def insertBlock {α : Type} (xs : List α) (i : Int) (values : List α) : Except PyErr (List α) :=
  let n := xs.length
  if i < -(n : Int) ∨ i > n then .error .indexError
  else
    let k := (if i < 0 then i + (n : Int) else i).toNat
    .ok (xs.take k ++ values ++ xs.drop k)

/-- `np.insert` with zero or several indices: negative ones get `+N` once, then row `values[j]` goes to
`indices[j] + rank of j`; `old_mask[indices] = False` uses numpy index normalisation once more (so an
index that is still negative wraps). -/
def insertMulti {α : Type} (xs : List α) (is : List Int) (values : List α) : Except PyErr (List α) :=
  let n := xs.length
  let is1 := is.map fun i => if i < 0 then i + (n : Int) else i
  let newN := n + is.length
  match (addRank is1).mapM (normIdx newN) with
  | none => .error .indexError
  | some pos =>
    match bcast values is.length with
    | .error e => .error e
    | .ok vals =>
      let cnt := ((List.range newN).filter fun p => !(pos.contains p)).length
      match bcast xs cnt with
      | .error e => .error e
      | .ok old => .ok (scatter pos vals 0 newN old)

/-- The index list of the `obj` argument of `np.insert`. Boolean arrays are cast to integers
(FutureWarning branch of numpy 1.19-1.23). -/
def insertIdxs (n : Nat) : Obj → Except PyErr (List Int)
  | .int i => .ok [i]
  | .slice s => match sliceIndices n s with
    | .error e => .error e
    | .ok l => .ok (l.map fun (k : Nat) => (k : Int))
  | .arr is => .ok is
  | .mask bs => .ok (bs.map fun b => if b then (1 : Int) else 0)

/-- `np.insert(a, obj, values, axis=0)` (numpy 1.19-1.23 `function_base.insert`). `values` is the list
of new rows, already cast to the dtype of `a`. -/
def insert {α : Type} (xs : List α) (obj : Obj) (values : List α) : Except PyErr (List α) :=
  match insertIdxs xs.length obj with
  | .error e => .error e
  | .ok [i] => insertBlock xs i values
  | .ok is => insertMulti xs is values

end Verif.Np
