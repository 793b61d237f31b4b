import Verif.Model.SegPairs
import Mathlib.Data.List.Sort

/-!
Intersections (skcurve/_intersect.py).

Warnings are not modelled. Objects compared or collected by identity carry an explicit identity: a curve has a
number `cid` (`curve2 is curve1` is equality of numbers), a segment remembers the curve and index it was taken
from.
-/
namespace Verif.Model

open Verif

/-- A segment object: a plain `Segment` (`origin = none`) or the `CurveSegment` with the given curve and index. -/
@[ext] structure SegObj (n : Nat) (K : Type) where
  seg : Seg n K
  origin : Option (Nat × Nat)

/-- A curve as seen by the intersection code: identity, whether the dtype is integer, points. -/
structure GCurve (n : Nat) (K : Type) where
  cid : Nat
  int : Bool
  data : List (Vec n K)

/-- `IntersectionType` (_intersect.py 50-57). -/
inductive IType
  | none | exact | overlap | almost
  deriving DecidableEq, Repr

/-- What may be passed as intersection data: None, a point, a segment, the class `IntersectionType` itself,
anything else. -/
inductive IData (n : Nat) (K : Type)
  | none
  | point (p : Vec n K)
  | segment (s : Seg n K)
  | typeClass
  | other

/-- `IntersectionInfo` (_intersect.py 73-76). -/
structure Info (n : Nat) (K : Type) where
  data : IData n K
  type : IType

section
variable {n : Nat} {K : Type}

/-- The `isinstance` / identity tests on the data. -/
def IData.isTypeClass : IData n K → Bool
  | .typeClass => true
  | _ => false
def IData.isPoint : IData n K → Bool
  | .point _ => true
  | _ => false
def IData.isSegment : IData n K → Bool
  | .segment _ => true
  | _ => false

/-- `IntersectionType.__call__` (_intersect.py 59-70). -/
def IType.call (t : IType) (d : IData n K) : Except PyErr (Info n K) :=
  if t = .none ∧ d.isTypeClass = false then .error .valueError
  else if t = .exact ∧ d.isPoint = false then .error .valueError
  else if (t = .overlap ∨ t = .almost) ∧ d.isSegment = false then .error .valueError
  else .ok ⟨d, t⟩

/-- `NOT_INTERSECTED` (_intersect.py 79). -/
def notIntersected : Info n K := ⟨.none, .none⟩

/-- `SegmentsIntersection` (_intersect.py 83-221). -/
structure SegInt (n : Nat) (K : Type) where
  seg1 : SegObj n K
  seg2 : SegObj n K
  info : Info n K

/-- `__bool__` (_intersect.py 115-116). -/
def SegInt.bool (x : SegInt n K) : Bool := x.info.type ≠ .none

end

section
variable {n : Nat} {K : Type} [Field K] [LinearOrder K] [IsStrictOrderedRing K]

/-- `intersect_point` (_intersect.py 167-192); `IData.none` is None. `data.point` on something that is not a segment
is an AttributeError. -/
def SegInt.point (x : SegInt n K) : Except PyErr (IData n K) :=
  if !x.bool then .ok .none
  else if x.info.type = .exact then .ok x.info.data
  else
    match x.info.data with
    | .segment s => .ok (.point (s.point (1 / 2)))
    | _ => .error .attributeError

/-- `intersect_segment` (_intersect.py 194-221). `Segment(data, data)` of something that is not a point is a
TypeError (_base.py 512-513); points of dimension 0 do not occur (`Segment` has refused them before). -/
def SegInt.segment (x : SegInt n K) : Except PyErr (IData n K) :=
  if !x.bool then .ok .none
  else if x.info.type = .exact then
    match x.info.data with
    | .point p => .ok (.segment ⟨p, p⟩)
    | _ => .error .typeError
  else .ok x.info.data

/-- `np.linalg.solve` of the 2x2 system with columns `u`, `-v` and right hand side `b` (Cramer's rule); `none` is
the LinAlgError for a singular matrix. -/
def solve2 (h : n = 2) (u v b : Vec n K) : Option (K × K) :=
  let i : Fin n := ⟨0, by omega⟩
  let j : Fin n := ⟨1, by omega⟩
  let det := u i * (-v j) - (-v i) * u j
  if det = 0 then none
  else some ((b i * (-v j) - (-v i) * b j) / det, (u i * b j - u j * b i) / det)

/-- `np.linalg.lstsq` of the n x 2 system with columns `u`, `-v` and right hand side `b`: the solution of the
normal equations. Only used for linearly independent columns (in the code the call comes after the test that the
segments are not parallel). -/
def lstsq2 (u v b : Vec n K) : K × K :=
  let a := vdot u u
  let c := vdot v v
  let m := vdot u v
  let g := a * c - m * m
  ((c * vdot u b - m * vdot v b) / g, (m * vdot u b - a * vdot v b) / g)

/-- The range test of the parameters (_intersect.py 506-507). -/
def inUnit (t : K) : Bool := (decide (t > 0) || closeK t 0) && (decide (t < 1) || closeK t 1)

/-- The last part of `ExactIntersectionMethod._intersect_segments` (_intersect.py 506-523). The comparison of the
distance of the two points with `feps` is made for the squares unless `feps` is negative. -/
def exactFinish (feps : K) (s r : Seg n K) (t : K × K) : Except PyErr (Info n K) :=
  if inUnit t.1 && inUnit t.2 then
    let p1 := s.point t.1
    let p2 := r.point t.2
    if vecEq p1 p2 = false ∧ (feps < 0 ∨ vdot (p1 - p2) (p1 - p2) > feps * feps) then .ok notIntersected
    else IType.exact.call (.point p1)
  else .ok notIntersected

/-- `ExactIntersectionMethod._intersect_segments` (_intersect.py 467-523). -/
noncomputable def exactSegments (feps : K) (s r : Seg n K) : Except PyErr (Info n K) :=
  if s.collinear (.seg r) then
    match s.overlap r false with
    | none => .ok notIntersected
    | some o => IType.overlap.call (.segment o)
  else if s.parallel r F_EPS then .ok notIntersected
  else
    match s.coplanar (.seg r) with
    | .error e => .error e
    | .ok cop =>
      if !cop then .ok notIntersected
      else if s.singular || r.singular then .ok notIntersected
      else
        let b := r.p1 - s.p1
        if h : n = 2 then
          match solve2 h s.direction r.direction b with
          | none => .ok notIntersected
          | some t => exactFinish feps s r t
        else exactFinish feps s r (lstsq2 s.direction r.direction b)

/-- Segment `i` of a curve: an element of `Curve.segments` (_base.py 1626-1637). -/
def GCurve.segment (c : GCurve n K) (i : Nat) : SegObj n K := ⟨⟨rowAt c.data i, rowAt c.data (i + 1)⟩, some (c.cid, i)⟩

/-- Number of segments. -/
def GCurve.numSegs (c : GCurve n K) : Nat := c.data.length - 1

/-- `np.nonzero` of an m1 x m2 boolean matrix: row-major. -/
def nonzero (m1 m2 : Nat) (mat : Mat Bool) : List (Nat × Nat) :=
  (List.range m1).flatMap fun i => ((List.range m2).filter fun j => mat i j).map fun j => (i, j)

/-- `_curves_intersect_indices` (_intersect.py 273-307). -/
def curvesIndices (m1 m2 : Nat) (mat : Mat Bool) (selfInt : Bool) : List (Nat × Nat) :=
  let mat := if selfInt then (fun i j => if j ≤ i then false else mat i j) else mat
  let s := nonzero m1 m2 mat
  if selfInt then s.filter fun ij => !decide (|(ij.1 : Int) - ij.2| < 2) else s

/-- One entry of `is_intersect` (_intersect.py 583-586) for two segments. -/
def bboxEntry (s r : Seg n K) : Bool :=
  decide (∀ i, ((min (s.p1 i) (s.p2 i) < max (r.p1 i) (r.p2 i)) ∨ closeK (min (s.p1 i) (s.p2 i)) (max (r.p1 i) (r.p2 i)) = true) ∧
    ((max (s.p1 i) (s.p2 i) > min (r.p1 i) (r.p2 i)) ∨ closeK (max (s.p1 i) (s.p2 i)) (min (r.p1 i) (r.p2 i)) = true))

/-- `_find_segments_bbox_intersection` (_intersect.py 544-590). -/
def bboxPairs (c1 c2 : GCurve n K) : List (Nat × Nat) :=
  let selfInt := decide (c2.cid = c1.cid)
  if c1.data.length = 0 ∨ c2.data.length = 0 then []
  else
    let other := if selfInt then c1 else c2
    curvesIndices c1.numSegs other.numSegs (fun i j => bboxEntry (c1.segment i).seg (other.segment j).seg) selfInt

/-- The loop of `_intersect_curves` (_intersect.py 533-540). -/
def collect (f : SegObj n K → SegObj n K → Except PyErr (Info n K)) (c1 c2 : GCurve n K) :
    List (Nat × Nat) → Except PyErr (List (SegInt n K))
  | [] => .ok []
  | ij :: rest => do
    let info ← f (c1.segment ij.1) (c2.segment ij.2)
    let tail ← collect f c1 c2 rest
    .ok (if info.type ≠ .none then ⟨c1.segment ij.1, c2.segment ij.2, info⟩ :: tail else tail)

/-- `ExactIntersectionMethod._intersect_curves` (_intersect.py 525-542). -/
noncomputable def exactCurves (feps : K) (c1 c2 : GCurve n K) : Except PyErr (List (SegInt n K)) :=
  collect (fun s r => exactSegments feps s.seg r.seg) c1 c2 (bboxPairs c1 c2)

/-- An argument of `intersect`. -/
inductive Obj (n : Nat) (K : Type)
  | seg (s : SegObj n K)
  | curve (c : GCurve n K)

/-- A result: one intersection object, or a list. -/
inductive Result (n : Nat) (K : Type)
  | single (x : SegInt n K)
  | list (xs : List (SegInt n K))

/-- `Segment.to_curve` (_base.py 892-900): a new curve object with two points. -/
def SegObj.toCurve (s : SegObj n K) (cid : Nat) (int : Bool) : GCurve n K := ⟨cid, int, [s.seg.p1, s.seg.p2]⟩

/-- Names the original segment (_intersect.py 263-269). -/
def renameSegs (o1 o2 : Obj n K) (x : SegInt n K) : SegInt n K :=
  ⟨match o1 with | .seg s => s | .curve _ => x.seg1, match o2 with | .seg s => s | .curve _ => x.seg2, x.info⟩

/-- `IntersectionMethodBase.__call__` (_intersect.py 228-271) for objects of equal dimension. `fresh` is the
identity of the curve made by `to_curve`, `int` whether the segment has integer data. -/
def methodCall (segs : SegObj n K → SegObj n K → Except PyErr (Info n K))
    (curves : GCurve n K → GCurve n K → Except PyErr (List (SegInt n K))) (fresh : Nat) (int : Bool)
    (o1 o2 : Obj n K) : Except PyErr (Result n K) :=
  match o1, o2 with
  | .seg s, .seg r => do
    let info ← segs s r
    .ok (.single ⟨s, r, info⟩)
  | .curve c, .curve d =>
    if c.data.length = 0 ∨ d.data.length = 0 then .ok (.list [])
    else do
      let xs ← curves c d
      .ok (.list xs)
  | o1, o2 =>
    let c := match o1 with | .seg s => s.toCurve fresh int | .curve c => c
    let d := match o2 with | .seg s => s.toCurve fresh int | .curve c => c
    if c.data.length = 0 ∨ d.data.length = 0 then .ok (.list [])
    else do
      let xs ← curves c d
      .ok (.list (xs.map (renameSegs o1 o2)))

/-- `_correct_overlap` (_intersect.py 730-746). A `Segment` object is always true. -/
noncomputable def correctOverlap (parTol : K) (x : SegInt n K) : Except PyErr (SegInt n K) :=
  if x.seg1.seg.parallel x.seg2.seg parTol then
    match x.seg1.seg.overlap x.seg2.seg false with
    | some o => do
      let info ← IType.overlap.call (.segment o)
      .ok ⟨x.seg1, x.seg2, info⟩
    | none => .ok x
  else .ok x

end

/-! The almost method needs lengths: over the reals. -/

section
variable {n : Nat}

/-- `AlmostIntersectionMethod._intersect_segments` (_intersect.py 634-650). -/
noncomputable def almostSegments (distTol : ℝ) (correct : Bool) (parTol : ℝ) (s r : SegObj n ℝ) : Except PyErr (Info n ℝ) :=
  let short := s.seg.shortest (.seg r.seg)
  if short.seglen < distTol then do
    let info ← IType.almost.call (.segment short)
    if correct then
      let x ← correctOverlap parTol ⟨s, r, info⟩
      .ok x.info
    else .ok info
  else .ok notIntersected

/-- The point and the length used by `_remove_extra_intersections` for one intersection: `intersect_point` and
`intersect_segment.seglen`. Every intersection given to it is of type ALMOST and has them. -/
noncomputable def pointOf (x : SegInt n ℝ) : Vec n ℝ :=
  match x.point with
  | .ok (.point p) => p
  | _ => 0
noncomputable def lenOf (x : SegInt n ℝ) : ℝ :=
  match x.segment with
  | .ok (.segment s) => s.seglen
  | _ => 0

section
variable {α : Type}

/-- Edges given to the graph (_intersect.py 704-716): positions i < j whose points are closer than `tol`. -/
noncomputable def extraEdge (pt : α → Vec n ℝ) (tol : ℝ) (xs : List α) (i j : Nat) : Bool :=
  match xs[i]?, xs[j]? with
  | some x, some y => decide (i < j ∧ edist (pt x) (pt y) < tol)
  | _, _ => false

/-- Positions of the removed intersections (_intersect.py 718-724). `sorted` is stable, as `mergeSort` is. -/
noncomputable def removedIndices (len : α → ℝ) (xs : List α) (comps : List (List Nat)) : List Nat :=
  let key (i : Nat) : ℝ := match xs[i]? with
    | some x => len x
    | none => 0
  comps.flatMap fun blob => (blob.mergeSort fun i j => decide (key i ≤ key j)).tail

/-- `_remove_extra_intersections` (_intersect.py 690-728) for objects `xs` with points `pt` and lengths `len`.
`comps m edge` is what `nx.connected_components` yields for the graph on the numbers below `m` with the given edges
(added by `add_edges_from`, so without isolated vertices): the components, each as a sequence in the order of
iteration over the set. The intersection objects are distinct and hashed by identity, so the set of removed objects
is a set of positions. -/
noncomputable def removeExtra (pt : α → Vec n ℝ) (len : α → ℝ) (tol : ℝ)
    (comps : Nat → (Nat → Nat → Bool) → List (List Nat)) (xs : List α) : List α :=
  let removed := removedIndices len xs (comps xs.length (extraEdge pt tol xs))
  xs.zipIdx.filterMap fun x => if x.2 ∈ removed then none else some x.1

end

/-- Parameters of `AlmostIntersectionMethod` (_intersect.py 621-632). -/
structure AlmostParams where
  distTol : ℝ
  removeExtra : Bool
  extraTol : ℝ
  correctOverlap : Bool
  parTol : ℝ

/-- The closest points of all pairs of segments (_intersect.py 653). The result arrays have the dtype of the data of
both curves: floats assigned to integer arrays are truncated. -/
noncomputable def almostS2S (c1 c2 : GCurve n ℝ) : PairsResult n ℝ :=
  segsToSegs (if c1.int && c2.int then truncK else id) F_EPS c1.data c2.data

/-- Pairs found by `AlmostIntersectionMethod._intersect_curves` (_intersect.py 655-660). -/
noncomputable def almostPairs (distTol : ℝ) (c1 c2 : GCurve n ℝ) : List (Nat × Nat) :=
  let s2s := almostS2S c1 c2
  let dist : Mat ℝ := fun i j => √ (∑ k, (s2s.p1 i j k - s2s.p2 i j k) ^ 2)
  curvesIndices s2s.m1 s2s.m2 (fun i j => decide (dist i j < distTol)) (decide (c1.cid = c2.cid))

/-- The list built by the loop (_intersect.py 665-680). -/
noncomputable def almostList (distTol : ℝ) (c1 c2 : GCurve n ℝ) : Except PyErr (List (SegInt n ℝ)) :=
  let s2s := almostS2S c1 c2
  (almostPairs distTol c1 c2).mapM fun ij => do
    let info ← IType.almost.call (.segment (⟨s2s.p1 ij.1 ij.2, s2s.p2 ij.1 ij.2⟩ : Seg n ℝ))
    .ok ⟨c1.segment ij.1, c2.segment ij.2, info⟩

/-- `AlmostIntersectionMethod._intersect_curves` (_intersect.py 652-688). -/
noncomputable def almostCurves (p : AlmostParams) (comps : Nat → (Nat → Nat → Bool) → List (List Nat))
    (c1 c2 : GCurve n ℝ) : Except PyErr (List (SegInt n ℝ)) := do
  let xs ← almostList p.distTol c1 c2
  if xs.isEmpty then .ok []
  else
    let xs := if p.removeExtra then removeExtra pointOf lenOf p.extraTol comps xs else xs
    if p.correctOverlap then xs.mapM (correctOverlap p.parTol) else .ok xs

end

end Verif.Model
