import Verif.Model.Geom
import Verif.Model.Distance
import Verif.Model.Sequence

/-!
Segments as objects: constructor and methods of `Segment` (skcurve/_base.py 498-912) with arguments of any kind and dimension, and the functions of
_geomalg.py behind them. `Model/Geom.lean` has the same algorithms for points of one dimension; `Props/SegmentObj.lean` shows that they agree.

Coordinates are finite numbers (exact arithmetic). Points are vectors (`Point(5)`, see Model/Sequence.lean, is left out).
-/
namespace Verif.Model

open Verif Verif.Np

/-- A segment object (_base.py 498-521). -/
@[ext] structure Segment (α : Type) where
  p1 : Point α
  p2 : Point α
  deriving DecidableEq

/-- An argument: a point, a segment, or anything else. -/
inductive PyObj (α : Type)
  | point (p : Point α)
  | segment (s : Segment α)
  | other

section
variable {α : Type} [Elem α]

/-- `Segment.__init__` (_base.py 511-520). -/
def Segment.init : PyObj α → PyObj α → Except PyErr (Segment α)
  | .point p1, .point p2 =>
    if p1.ndim = 0 ∨ p2.ndim = 0 then .error .valueError
    else if p1.ndim ≠ p2.ndim then .error .valueError
    else .ok ⟨p1, p2⟩
  | _, _ => .error .typeError

/-- `Segment.ndim` (572-581). -/
def Segment.ndim (s : Segment α) : Nat := s.p1.ndim

/-- `np.vstack` of 1-D arrays. -/
def vstackD : List (List α) → Except PyErr (List (List α))
  | [] => .error .valueError
  | r :: rs => if rs.all (fun x => x.length == r.length) then .ok (r :: rs) else .error .valueError

/-- `Segment.data` (560-569). -/
def Segment.data (s : Segment α) : Except PyErr (List (List α)) := vstackD [s.p1.data, s.p2.data]

/-- `Segment.to_curve` (892-901). `np.vstack` promotes the types. -/
def Segment.toCurve (s : Segment α) : Except PyErr (Curve α) := do
  let d ← s.data
  Curve.ofRows d s.p1.data.length (s.p1.dtype.promote s.p2.dtype) none

/-- `Segment.reverse` (903-912). -/
def Segment.reverse (s : Segment α) : Except PyErr (Segment α) := Segment.init (.point s.p2) (.point s.p1)

/-- `Segment.__eq__` (529-532). -/
def Segment.eq [DecidableEq α] (s r : Segment α) : Bool := s.p1.eq r.p1 && s.p2.eq r.p2

/-- `Segment.singular` (583-592). -/
def Segment.singular [DecidableEq α] (s : Segment α) : Bool := s.p1.eq s.p2

end

section
variable {K : Type} [Field K] [LinearOrder K] [IsStrictOrderedRing K] [FloorRing K]

/-- `p - q`, `p + q` of two points (225-253, 361-380). -/
def ptOp (f : K → K → K) (p q : Point K) : Except PyErr (Point K) := (bcast2 f p.data q.data).map fun d => Point.init d none

/-- `p * t` for a number. -/
def ptScale (p : Point K) (t : K) : Point K := Point.init (p.data.map (· * t)) none

/-- `p @ q` (255-272). -/
def ptDot (p q : Point K) : Except PyErr K := matmul p.data q.data

/-- `Segment.dot` (606-616). -/
def Segment.dot (s : Segment K) : Except PyErr K := ptDot s.p1 s.p2

/-- `Segment.direction` (618-628). -/
def Segment.direction (s : Segment K) : Except PyErr (Point K) := ptOp (· - ·) s.p2 s.p1

/-- The argument of `Segment.point`: a number, a sequence or 1-D array, an array without axes, an array with several axes. -/
inductive TArg (K : Type)
  | num (t : K)
  | seq (ts : List K)
  | arr0 (t : K)
  | arr2

/-- Result of `Segment.point`. -/
inductive PtRes (K : Type)
  | one (p : Point K)
  | many (ps : List (PointObj K))

/-- `segment_point` for a number (_geomalg.py 61). -/
def Segment.pointAt (s : Segment K) (t : K) : Except PyErr (Point K) := do
  let d ← s.direction
  ptOp (· + ·) s.p1 (ptScale d t)

/-- `segment_point` (_geomalg.py 29-61). An array is repeated for every row; from an array without axes the sum is a vector, whose entries become
the "points". -/
def Segment.point (s : Segment K) : TArg K → Except PyErr (PtRes K)
  | .num t => (s.pointAt t).map .one
  | .seq ts => do
    let d ← s.direction
    let rows ← ts.mapM fun t => bcast2 (· + ·) s.p1.data (d.data.map (· * t))
    return .many (rows.map fun r => .vec (Point.init r none))
  | .arr0 t => do
    let d ← s.direction
    let r ← bcast2 (· + ·) s.p1.data (d.data.map (· * t))
    return .many (r.map fun x => .scalar x .float)
  | .arr2 => .error .valueError

/-- `parallel_segments` (_geomalg.py 163-191); `segment2.direction` of another object is an AttributeError. -/
def Segment.parallel (s : Segment K) (tol : K) : PyObj K → Except PyErr Bool
  | .segment r => do
    let u ← s.direction
    let v ← r.direction
    let a ← ptDot u u
    let b ← ptDot u v
    let c ← ptDot v v
    return decide (a * c - b * b < tol)
  | _ => .error .attributeError

/-- The coordinates of a row as a vector. -/
def rowVec (n : Nat) (r : List K) : Vec n K := fun i => r.getD i 0

/-- `np.linalg.matrix_rank` of rows of length `n`. -/
noncomputable def rankRows (n : Nat) (rows : List (List K)) : Nat := matrixRank (rows.map (rowVec n))

/-- `collinear_points` (_geomalg.py 194-228) of a list of points. -/
noncomputable def collinearRows (rows : List (List K)) : Except PyErr Bool := do
  let m ← vstackD rows
  let m := m.dedup
  if m.length < 3 then return true
  else return decide (rankRows (m.headD []).length m ≤ 1)

/-- `Segment.collinear` (718-754). -/
noncomputable def Segment.collinear (s : Segment K) : PyObj K → Except PyErr Bool
  | .point p => if p.eq s.p1 || p.eq s.p2 then .ok true else collinearRows [s.p1.data, s.p2.data, p.data]
  | .segment r =>
    if r.eq s then .ok true
    else do
      let r' ← r.reverse
      if r'.eq s then return true
      else collinearRows [s.p1.data, s.p2.data, r.p1.data, r.p2.data]
  | .other => .error .typeError

/-- `coplanar_points` (_geomalg.py 252-260) of an array with rows of length `n`; see `coplanarPoints`. -/
noncomputable def coplanarData (n : Nat) (m : List (List K)) : Except PyErr Bool :=
  if n < 3 then .ok true
  else match m.getLast? with
    | none => .error .indexError
    | some l =>
      let rel := m.map fun r => List.zipWith (· - ·) r l
      if rel.dropLast.isEmpty then .error .valueError
      else .ok (decide (rankRows n rel.dropLast ≤ 2))

/-- `coplanar_points` (_geomalg.py 231-260) of a list of points. -/
noncomputable def coplanarRows (rows : List (List K)) : Except PyErr Bool := do
  let m ← vstackD rows
  coplanarData (m.headD []).length m

/-- `Curve.isplane` (1530-1548). -/
noncomputable def Curve.isplane (c : Curve K) : Except PyErr Bool := coplanarData c.ncols c.rows

/-- `Curve.is2d`, `is3d`, `isspatial` (1485-1528). -/
def Curve.is2d (c : Curve K) : Bool := c.ndim == 2
@[inherit_doc Curve.is2d]
def Curve.is3d (c : Curve K) : Bool := c.ndim == 3
@[inherit_doc Curve.is2d]
def Curve.isspatial (c : Curve K) : Bool := decide (3 ≤ c.ndim)

/-- `Segment.coplanar` (756-787). -/
noncomputable def Segment.coplanar (s : Segment K) : PyObj K → Except PyErr Bool
  | .point p => coplanarRows [s.p1.data, s.p2.data, p.data]
  | .segment r => coplanarRows [s.p1.data, s.p2.data, r.p1.data, r.p2.data]
  | .other => .error .typeError

/-- The part of `overlap_segments` after the check (_geomalg.py 285-305): numpy broadcasting. -/
def overlapData (s r : Segment K) : Except PyErr (Option (Segment K)) := do
  let hi1 ← bcast2 max s.p1.data s.p2.data
  let hi2 ← bcast2 max r.p1.data r.p2.data
  let minmax ← bcast2 min hi1 hi2
  let lo1 ← bcast2 min s.p1.data s.p2.data
  let lo2 ← bcast2 min r.p1.data r.p2.data
  let maxmin ← bcast2 max lo1 lo2
  if (List.zipWith (fun a b => decide (a > b)) maxmin minmax).any id then return none
  else (Segment.init (.point (Point.init maxmin none)) (.point (Point.init minmax none))).map some

/-- `overlap_segments` (_geomalg.py 263-305); `segment2.p1` of another object is an AttributeError. -/
noncomputable def Segment.overlap (s : Segment K) (check : Bool) (o : PyObj K) : Except PyErr (Option (Segment K)) := do
  let go ← if check then s.collinear o else pure true
  if !go then return none
  else match o with
    | .segment r => overlapData s r
    | _ => .error .attributeError

/-- `segment_to_point` (_geomalg.py 308-339). -/
def segToPointObj (s : Segment K) (p : Point K) : Except PyErr K := do
  let sd ← s.direction
  let tp ← ptOp (· - ·) p s.p1
  let c1 ← ptDot tp sd
  if c1 < 0 ∨ closeK c1 0 = true then return 0
  else
    let c2 ← ptDot sd sd
    if c2 < c1 ∨ closeK c2 c1 = true then return 1
    else return c1 / c2

/-- `segment_to_segment` (_geomalg.py 342-429). -/
def segToSegObj (s r : Segment K) (tol : K) : Except PyErr (K × K) := do
  let u ← s.direction
  let v ← r.direction
  let w ← ptOp (· - ·) s.p1 r.p1
  let a ← ptDot u u
  let b ← ptDot u v
  let c ← ptDot v v
  let d ← ptDot u w
  let e ← ptDot v w
  return s2sCore id tol a b c d e

/-- `Segment.shortest_segment` (860-890). -/
def Segment.shortest (s : Segment K) : PyObj K → Except PyErr (Segment K)
  | .point p => do
    let t ← segToPointObj s p
    let p1 ← s.pointAt t
    Segment.init (.point p1) (.point p.copy)
  | .segment r => do
    let t ← segToSegObj s r F_EPS
    let p1 ← s.pointAt t.1
    let p2 ← r.pointAt t.2
    Segment.init (.point p1) (.point p2)
  | .other => .error .typeError

end

/-! Lengths and angles. -/

/-- `Segment.seglen` (594-604). -/
noncomputable def Segment.seglen (s : Segment ℝ) : Except PyErr (Val ℝ) := pointSeglen metrics s.p1 s.p2

/-- `Segment.distance` (839-858). -/
noncomputable def Segment.distance (s : Segment ℝ) (o : PyObj ℝ) : Except PyErr (Val ℝ) := do
  let r ← s.shortest o
  r.seglen

/-- `Segment.angle` (672-692) and `segments_angle` (_geomalg.py 120-160). `none` is NaN. -/
noncomputable def Segment.angle (s : Segment ℝ) (rd : ℝ → ℝ) : PyObj ℝ → Except PyErr (Option ℝ)
  | .segment r => do
    let u1 ← s.direction
    let u2 ← r.direction
    let n1 ← u1.norm
    let n2 ← u2.norm
    let den := n1 * n2
    if closeK den 0 = true then return none
    else
      let dt ← ptDot u1 u2
      let cosPhi := rd (dt / den)
      let cosPhi := if cosPhi > 1 then 1 else cosPhi
      let cosPhi := if cosPhi < -1 then -1 else cosPhi
      return some (Real.arccos cosPhi)
  | _ => .error .typeError

end Verif.Model
