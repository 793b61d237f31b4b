import Verif.Model.Num

/-!
The cases of tests/test_curve.py, evaluated in the model. They are no proofs of properties; they check
that the definitions of `Model/Curve` give what the authors of the code expect of it. Left out: cases with
trigonometric functions (`test_reverse_parametric`, `test_isplane`, `test_isnotplane`) and the difference
between 32-bit and 64-bit dtypes.
-/
namespace Verif.Tests

open Verif Verif.Np Verif.Model

/-- `Curve(data)` for a sequence of coordinate sequences. -/
def cv (xs : List (List ℚ)) : Except PyErr (Curve ℚ) := Curve.init (.seq xs) none none none none

/-- `Curve(data, tdata=t)`. -/
def cvt (xs : List (List ℚ)) (t : List ℚ) : Except PyErr (Curve ℚ) := Curve.init (.seq xs) (some t) none none none

/-- `Point(data)`. -/
def pt (x : List ℚ) : Point ℚ := Point.init x none

/-- `a == b` for two expressions that must not raise. -/
def same (a b : Except PyErr (Curve ℚ)) : Bool :=
  match a, b with
  | .ok c, .ok d => c.eq d
  | _, _ => false

/-- both expressions are defined and `a != b` -/
def differ (a b : Except PyErr (Curve ℚ)) : Bool :=
  match a, b with
  | .ok c, .ok d => !c.eq d
  | _, _ => false

/-- size, dimension, dtype -/
def shape (a : Except PyErr (Curve ℚ)) : Option (Nat × Nat × DType) :=
  match a with
  | .ok c => some (c.size, c.ndim, c.dtype)
  | .error _ => none

/-- an expression that raises one of the given errors -/
def raises {β : Type} (a : Except PyErr β) (es : List PyErr) : Bool :=
  match a with
  | .ok _ => false
  | .error e => es.contains e

/-- an array of dimension one without elements -/
def noArr : CurveData ℚ := .arr ⟨[0], fun _ => 0⟩ .float

/-- `np.array([], ndmin=2)` -/
def noArr2 : CurveData ℚ := .arr ⟨[1, 0], fun _ => 0⟩ .float

/-- a 2-D array -/
def arr (rows : List (List ℚ)) (n : Nat) : CurveData ℚ := .arr (NdArr.ofRows 0 rows n) .float

/-! `test_construct` -/

example : shape (Curve.init (.seq []) none none none (some .int)) = some (0, 2, .int) := by decide +kernel
example : shape (Curve.init noArr none none none (some .int)) = some (0, 2, .int) := by decide +kernel
example : shape (Curve.init noArr2 none none none (some .int)) = some (0, 2, .int) := by decide +kernel
example : shape (Curve.init (.seq [[1, 2, 3, 4, 5], [1, 2, 3, 4, 5]]) none none none (some .float)) =
    some (5, 2, .float) := by decide +kernel
example : shape (Curve.init (.seq [[1, 2], [1, 2], [1, 2]]) none none none (some .float)) =
    some (2, 3, .float) := by decide +kernel
example : shape (Curve.init (.seq [[1], [1], [1], [1]]) none none none (some .int)) = some (1, 4, .int) := by
  decide +kernel
example : shape ((cv [[1, 2, 3], [4, 5, 6]]).bind fun c => Curve.init (.curve c) none none none (some .int)) =
    some (3, 2, .int) := by decide +kernel
example : shape (Curve.init (arr [[1, 2], [4, 5], [7, 8]] 2) none none none (some .float)) =
    some (3, 2, .float) := by decide +kernel

/-! `test_construct_ndmin` -/

example : shape (Curve.init (.seq []) none none none none) = some (0, 2, .float) := by decide +kernel
example : shape (Curve.init (.seq []) none none (some 3) none) = some (0, 3, .float) := by decide +kernel
example : shape (Curve.init noArr none none (some 4) none) = some (0, 4, .float) := by decide +kernel
example : shape (Curve.init (.seq [[1, 2, 3, 4], [1, 2, 3, 4]]) none none (some 3) none) = some (4, 3, .float) := by
  decide +kernel
example : shape ((cv [[1, 2, 3, 4], [1, 2, 3, 4]]).bind fun c => Curve.init (.curve c) none none (some 3) none) =
    some (4, 3, .float) := by decide +kernel
example : shape (cv [[1, 2, 3, 4, 5], [1, 2, 3, 4, 5]]) = some (5, 2, .float) := by decide +kernel

/-! `test_from_points` -/

example : (Curve.init (arr [[1, 5, 9], [2, 6, 10], [3, 7, 11], [4, 8, 12]] 3) none (some 0) none none).map
    (fun c => (c.size, c.ndim, c.rows)) =
    .ok (4, 3, [[1, 5, 9], [2, 6, 10], [3, 7, 11], [4, 8, 12]]) := by decide +kernel

/-! `test_bool`: a curve is false when its length is 0 -/

example : (cv []).map (fun c => c.size) = .ok 0 := by decide +kernel
example : (cv [[], [], []]).map (fun c => c.size) = .ok 0 := by decide +kernel

/-! `test_eq`, `test_ne` -/

example : same (cv [[1, 2, 3, 4], [5, 6, 7, 8]]) (cv [[1, 2, 3, 4], [5, 6, 7, 8]]) = true := by decide +kernel
example : same (cv []) (cv []) = true := by decide +kernel
example : same (cv [[], []]) (cv [[], []]) = true := by decide +kernel

/-- the curve most of the tests use -/
def base : Except PyErr (Curve ℚ) := cv [[1, 2, 3, 4], [5, 6, 7, 8]]

example : [[[1, 2, 3], [5, 6, 7]], [[2, 3, 4, 5], [6, 7, 8, 9]], [], [[], []]].all
    (fun d => differ base (cv d)) = true := by decide +kernel

/-! `test_reverse` -/

example : same (base.bind (·.reverse)) (cv [[4, 3, 2, 1], [8, 7, 6, 5]]) = true := by decide +kernel

/-! `test_contains_point`, `test_contains_curve`, `test_not_contains` -/

/-- membership of a point -/
def hasPt (a : Except PyErr (Curve ℚ)) (x : List ℚ) : Option Bool :=
  match a with
  | .ok c => some (c.containsPoint (pt x))
  | .error _ => none

/-- membership of a curve -/
def hasCv (a b : Except PyErr (Curve ℚ)) : Option Bool :=
  match a, b with
  | .ok c, .ok d => some (c.containsCurve d)
  | _, _ => none

example : [[1, 5], [2, 6], [4, 8], [3, 7]].all (fun x => hasPt base x == some true) = true := by decide +kernel
example : [[[1, 2], [5, 6]], [[2], [6]], [[2, 3], [6, 7]], [[1, 2, 3], [5, 6, 7]], [[2, 3, 4], [6, 7, 8]],
    [[3, 4], [7, 8]], [[1, 2, 3, 4], [5, 6, 7, 8]]].all (fun d => hasCv base (cv d) == some true) = true := by
  decide +kernel
example : hasPt base [10, 20] = some false := by decide +kernel
example : hasCv base (cv [[10, 20], [30, 40]]) = some false := by decide +kernel

/-! `test_index`, `test_count` -/

/-- `curve.index(Point(x), start, stop)` -/
def idx (x : List ℚ) (start stop : Option Int) : Except PyErr Int :=
  (cv [[1, 2, 3, 4, 2], [5, 6, 7, 8, 6]]).bind fun c => c.index (pt x) start stop

example : idx [1, 5] none none = .ok 0 := by decide +kernel
example : idx [3, 7] (some 1) none = .ok 2 := by decide +kernel
example : idx [2, 6] none none = .ok 1 := by decide +kernel
example : idx [2, 6] (some 2) none = .ok 4 := by decide +kernel
example : idx [4, 8] none (some 4) = .ok 3 := by decide +kernel

/-- `curve.count(Point(x))` -/
def cnt (x : List ℚ) : Except PyErr Nat :=
  (cv [[1, 2, 3, 4, 2, 3, 2], [5, 6, 7, 8, 6, 7, 6]]).bind fun c => c.count (pt x)

example : cnt [0, 0] = .ok 0 := by decide +kernel
example : cnt [1, 5] = .ok 1 := by decide +kernel
example : cnt [3, 7] = .ok 2 := by decide +kernel
example : cnt [2, 6] = .ok 3 := by decide +kernel
example : cnt [4, 8] = .ok 1 := by decide +kernel

/-! `test_getitem_point`, `test_getitem_curve`, `test_getitem_curve_parametric`, `test_getitem_error` -/

/-- `curve[i] == Point(x)` -/
def itemIs (i : Int) (x : List ℚ) : Bool :=
  match base.bind fun c => CurvePoint.init c 0 i with
  | .ok p => p.point.eq (pt x)
  | .error _ => false

example : itemIs 0 [1, 5] = true := by decide +kernel
example : itemIs 1 [2, 6] = true := by decide +kernel
example : itemIs (-1) [4, 8] = true := by decide +kernel
example : itemIs (-2) [3, 7] = true := by decide +kernel

/-- `curve[ix]` -/
def sub (ix : Indexer) : Except PyErr (Curve ℚ) := base.bind (·.getSub ix)

example : same (sub (.slice ⟨none, some 2, none⟩)) (cv [[1, 2], [5, 6]]) = true := by decide +kernel
example : same (sub (.slice ⟨some 1, some 3, none⟩)) (cv [[2, 3], [6, 7]]) = true := by decide +kernel
example : same (sub (.slice ⟨some (-2), some (-1), none⟩)) (cv [[3], [7]]) = true := by decide +kernel
example : same (sub (.slice ⟨some (-2), none, none⟩)) (cv [[3, 4], [7, 8]]) = true := by decide +kernel
example : same (sub (.slice ⟨none, none, none⟩)) (cv [[1, 2, 3, 4], [5, 6, 7, 8]]) = true := by decide +kernel
example : same (sub (.list [0, 2, 3])) (cv [[1, 3, 4], [5, 7, 8]]) = true := by decide +kernel
example : same (sub (.arr [0, 2, 3])) (cv [[1, 3, 4], [5, 7, 8]]) = true := by decide +kernel
example : same (sub (.mask [true, true, true, true])) (cv [[1, 2, 3, 4], [5, 6, 7, 8]]) = true := by decide +kernel
example : same (sub (.mask [false, false, false, false])) (cv []) = true := by decide +kernel
example : ((cvt [[1, 2, 3, 4], [5, 6, 7, 8]] [0, 1, 2, 3]).bind fun c =>
    c.getSub (.slice ⟨none, none, some 2⟩)).map (·.tdata) = .ok (some [0, 2]) := by decide +kernel
example : raises (sub .other) [.typeError, .indexError] = true := by decide +kernel
example : raises (sub .farr) [.typeError, .indexError] = true := by decide +kernel

/-! `test_concatenate`, `test_concatenate_parametric` -/

example : same ((cv [[1, 2], [5, 6]]).bind fun a => (cv [[3, 4], [7, 8]]).bind fun b => a.add b) base = true := by
  decide +kernel
example : ((cvt [[1, 2], [5, 6]] [0, 1]).bind fun a => (cvt [[3, 4], [7, 8]] [2, 3]).bind fun b => a.add b).map
    (·.tdata) = .ok (some [0, 1, 2, 3]) := by decide +kernel

/-! `test_insert_point`, `test_insert_curve`, `test_append_point`, `test_append_curve` -/

example : same (base.bind fun c => c.insert (.int 1) (.point (pt [10, 20])))
    (cv [[1, 10, 2, 3, 4], [5, 20, 6, 7, 8]]) = true := by decide +kernel
example : same (base.bind fun c => (cv [[10, 20], [30, 40]]).bind fun d => c.insert (.int (-3)) (.curve d))
    (cv [[1, 10, 20, 2, 3, 4], [5, 30, 40, 6, 7, 8]]) = true := by decide +kernel
example : same (base.bind fun c => c.append (.point (pt [10, 20])))
    (cv [[1, 2, 3, 4, 10], [5, 6, 7, 8, 20]]) = true := by decide +kernel
example : same (base.bind fun c => (cv [[10, 20], [30, 40]]).bind fun d => c.append (.curve d))
    (cv [[1, 2, 3, 4, 10, 20], [5, 6, 7, 8, 30, 40]]) = true := by decide +kernel

/-! `test_delete_point`, `test_delete_curve` -/

/-- `curve.delete(ix)` -/
def del (ix : Obj) : Except PyErr (Curve ℚ) := base.bind (·.delete ix)

example : same (del (.int 0)) (cv [[2, 3, 4], [6, 7, 8]]) = true := by decide +kernel
example : same (del (.int 1)) (cv [[1, 3, 4], [5, 7, 8]]) = true := by decide +kernel
example : same (del (.int (-1))) (cv [[1, 2, 3], [5, 6, 7]]) = true := by decide +kernel
example : same (del (.int (-2))) (cv [[1, 2, 4], [5, 6, 8]]) = true := by decide +kernel
example : same (del (.slice ⟨none, some 2, none⟩)) (cv [[3, 4], [7, 8]]) = true := by decide +kernel
example : same (del (.slice ⟨some (-2), none, none⟩)) (cv [[1, 2], [5, 6]]) = true := by decide +kernel
example : same (del (.slice ⟨none, none, some 2⟩)) (cv [[2, 4], [6, 8]]) = true := by decide +kernel

/-! `test_get_values`, `test_insert_dim`, `test_append_dim`, `test_delete_dim`, `test_delete_dim_error` -/

/-- the curve in space of these tests -/
def space : Except PyErr (Curve ℚ) := cv [[1, 2, 3, 4], [5, 6, 7, 8], [9, 10, 11, 12]]

example : space.bind (·.values 0) = .ok [1, 2, 3, 4] := by decide +kernel
example : space.bind (·.values 1) = .ok [5, 6, 7, 8] := by decide +kernel
example : space.bind (·.values 2) = .ok [9, 10, 11, 12] := by decide +kernel
example : space.bind (·.values (-1)) = .ok [9, 10, 11, 12] := by decide +kernel
example : same ((cv [[1, 2, 3, 4], [9, 10, 11, 12]]).bind fun c => c.insertdim 1 (some [5, 6, 7, 8])) space = true := by
  decide +kernel
example : same (base.bind fun c => c.appenddim (some [9, 10, 11, 12])) space = true := by decide +kernel
example : same (space.bind (·.deletedim (.int 0))) (cv [[5, 6, 7, 8], [9, 10, 11, 12]]) = true := by decide +kernel
example : same (space.bind (·.deletedim (.int 1))) (cv [[1, 2, 3, 4], [9, 10, 11, 12]]) = true := by decide +kernel
example : same (space.bind (·.deletedim (.int 2))) base = true := by decide +kernel
example : same (space.bind (·.deletedim (.int (-1)))) base = true := by decide +kernel
example : raises (base.bind (·.deletedim (.int 1))) [.valueError] = true := by decide +kernel

/-! `test_unique`; `List.mergeSort` is no structural recursion, hence the simplifier -/

/-- the positions `unique` keeps -/
def kept (rows : List (List ℚ)) : List Nat := (uniqueIndex rows).mergeSort fun a b => decide (a ≤ b)

example : kept [[4, 8], [2, 6], [3, 7], [1, 5]] = [0, 1, 2, 3] := by
  norm_num [kept, uniqueIndex, List.range, List.range.loop, List.mergeSort, List.MergeSort.Internal.splitInTwo,
    List.splitAt, List.splitAt.go, List.merge, lexLe, firstOfRuns, diffPrev]
example : kept [[3, 7], [2, 6], [1, 5], [4, 8], [2, 6]] = [0, 1, 2, 3] := by
  norm_num [kept, uniqueIndex, List.range, List.range.loop, List.mergeSort, List.MergeSort.Internal.splitInTwo,
    List.splitAt, List.splitAt.go, List.merge, lexLe, firstOfRuns, diffPrev]
example : kept [[3, 7], [1, 5], [2, 6], [1, 5], [4, 8], [2, 6]] = [0, 1, 2, 4] := by
  norm_num [kept, uniqueIndex, List.range, List.range.loop, List.mergeSort, List.MergeSort.Internal.splitInTwo,
    List.splitAt, List.splitAt.go, List.merge, lexLe, firstOfRuns, diffPrev]

/-! `test_drop` -/

/-- the first checker: coordinates that are NaN or infinite -/
def notFinite (rows : List (List (Val ℚ))) : DropRes := .boolMat (rows.map fun r => r.map fun x => !x.isFin)

/-- a finite number -/
def f (x : ℚ) : Val ℚ := .fin x

example : ((Curve.init (.seq [[f 1, f 2, .nan, f 3, f 2, f 4], [f 5, f 6, f 1, f 7, .pinf, f 8]]) none none none
    none).bind fun c => c.drop notFinite).map (fun c => c.rows) =
    .ok [[f 1, f 5], [f 2, f 6], [f 3, f 7], [f 4, f 8]] := by decide +kernel
example : same (base.bind fun c => c.drop fun rows => .boolMat (rows.map fun r =>
    List.zipWith (fun a b => a == b) r [2, 6])) (cv [[1, 3, 4], [5, 7, 8]]) = true := by decide +kernel
example : same (base.bind fun c => c.drop fun _ => .idxVec [1, 2]) (cv [[1, 4], [5, 8]]) = true := by decide +kernel

end Verif.Tests
