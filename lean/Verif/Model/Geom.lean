import Verif.Model.Num
import Mathlib.LinearAlgebra.Dimension.Finrank
import Mathlib.LinearAlgebra.FiniteDimensional.Defs
import Mathlib.Data.Matrix.Mul
import Mathlib.Analysis.SpecialFunctions.Trigonometric.Inverse

/-!
Segments and the algorithms of skcurve/_geomalg.py.

A point of dimension `n` is a vector `Fin n → K` over an ordered field (finite float64 coordinates, exact
arithmetic). Objects of different dimension cannot be built here; the code's dimension checks are modelled
where a property is about them.
-/
namespace Verif.Model

open Verif

/-- Coordinates of an n-dimensional point. -/
abbrev Vec (n : Nat) (K : Type) := Fin n → K

/-- A segment (skcurve/_base.py 498-521): two points of one dimension. -/
@[ext] structure Seg (n : Nat) (K : Type) where
  p1 : Vec n K
  p2 : Vec n K

section
variable {K : Type} [Field K] [LinearOrder K] [IsStrictOrderedRing K] {n : Nat}

open Matrix in
/-- `p @ q` (_base.py 255-272): `np.dot`. -/
def vdot (u v : Vec n K) : K := u ⬝ᵥ v

/-- `Point.__eq__` of float points (_base.py 202-223): `np.isclose` in all coordinates. -/
def vecEq (a b : Vec n K) : Bool := decide (∀ i, closeK (a i) (b i) = true)

/-- `Segment.__eq__` (_base.py 529-532). -/
def Seg.eq (s r : Seg n K) : Bool := vecEq s.p1 r.p1 && vecEq s.p2 r.p2

/-- `Segment.singular` (_base.py 583-592). -/
def Seg.singular (s : Seg n K) : Bool := vecEq s.p1 s.p2

/-- `Segment.direction` (_base.py 619-628). -/
def Seg.direction (s : Seg n K) : Vec n K := s.p2 - s.p1

/-- `Segment.reverse` (_base.py 903-912). -/
def Seg.reverse (s : Seg n K) : Seg n K := ⟨s.p2, s.p1⟩

/-- `segment_point` for a number (_geomalg.py 61). -/
def Seg.point (s : Seg n K) (t : K) : Vec n K := s.p1 + (fun i => s.direction i * t)

/-- `segment_point` for a sequence of numbers (_geomalg.py 52-59): `direction.data * t[np.newaxis].T` has
row k equal to `direction * t[k]`. -/
def Seg.points (s : Seg n K) (ts : List K) : List (Vec n K) :=
  let dt := ts.map fun t => (fun i => s.direction i * t : Vec n K)
  dt.map fun d => s.p1 + d

/-- `np.linalg.matrix_rank` of the matrix with the given rows (or columns): dimension of their span.
Simplification: exact rank, no singular value tolerance. -/
noncomputable def matrixRank (rows : List (Vec n K)) : Nat := Module.finrank K (Submodule.span K {v | v ∈ rows})

/-- `collinear_points` (_geomalg.py 194-228): `np.unique` over the points, True for fewer than 3 distinct
ones, otherwise rank of the coordinate matrix at most 1. -/
noncomputable def collinearPoints (pts : List (Vec n K)) : Bool :=
  let m := pts.dedup
  if m.length < 3 then true else decide (matrixRank m ≤ 1)

/-- `coplanar_points` (_geomalg.py 231-260): in dimension < 3 True; otherwise the rank of the differences to the
last point is at most 2. `points_data[-1, :]` of no points is an IndexError; of one point no rows remain, and `matrix_rank` fails on the maximum of no
singular values (ValueError, numpy < 2). -/
noncomputable def coplanarPoints (pts : List (Vec n K)) : Except PyErr Bool :=
  if n < 3 then .ok true
  else match pts.getLast? with
    | none => .error .indexError
    | some l =>
      let rel := pts.map fun p => p - l
      if rel.dropLast.isEmpty then .error .valueError
      else .ok (decide (matrixRank rel.dropLast ≤ 2))

/-- Point or segment argument. -/
inductive PointOrSeg (n : Nat) (K : Type)
  | point (p : Vec n K)
  | seg (s : Seg n K)

/-- `Segment.collinear` (_base.py 718-754). -/
noncomputable def Seg.collinear (s : Seg n K) : PointOrSeg n K → Bool
  | .point p => if vecEq p s.p1 || vecEq p s.p2 then true else collinearPoints [s.p1, s.p2, p]
  | .seg r => if r.eq s || r.reverse.eq s then true else collinearPoints [s.p1, s.p2, r.p1, r.p2]

/-- `Segment.coplanar` (_base.py 756-787). -/
noncomputable def Seg.coplanar (s : Seg n K) : PointOrSeg n K → Except PyErr Bool
  | .point p => coplanarPoints [s.p1, s.p2, p]
  | .seg r => coplanarPoints [s.p1, s.p2, r.p1, r.p2]

/-- `np.linalg.lstsq(a, b)` for a one-column matrix: the minimiser of `|x a - b|` of least absolute value
(0 for a zero column; division by 0 is 0). -/
def lstsq1 (a b : Vec n K) : K := vdot a b / vdot a a

/-- `segment_t` for one point (_geomalg.py 88-109): `none` is NaN. -/
noncomputable def Seg.t (s : Seg n K) (p : Vec n K) : Option K :=
  if !s.collinear (.point p) then none
  else some (lstsq1 s.direction (p - s.p1))

/-- `segment_t` for a sequence of points (_geomalg.py 95-117): `np.stack` of no points is a ValueError; for one
point `t.squeeze()` is 0-dimensional and indexing it with a mask of length 1 is an IndexError. -/
noncomputable def Seg.ts (s : Seg n K) (ps : List (Vec n K)) : Except PyErr (List (Option K)) :=
  let isCollinear := ps.map fun p => s.collinear (.point p)
  if ps.isEmpty then .error .valueError
  else
    let t := ps.map fun p => some (lstsq1 s.direction (p - s.p1))
    if isCollinear.all id then .ok t
    else if ps.length = 1 then .error .indexError
    else .ok (List.zipWith (fun c x => if c then x else none) isCollinear t)

/-- `parallel_segments` (_geomalg.py 163-191). -/
def Seg.parallel (s r : Seg n K) (tol : K) : Bool :=
  let u := s.direction
  let v := r.direction
  let a := vdot u u
  let b := vdot u v
  let c := vdot v v
  let d := a * c - b * b
  decide (d < tol)

/-- `overlap_segments` (_geomalg.py 263-305). -/
noncomputable def Seg.overlap (s r : Seg n K) (checkCollinear : Bool) : Option (Seg n K) :=
  if checkCollinear && !s.collinear (.seg r) then none
  else
    let minmax : Vec n K := fun i => min (max (s.p1 i) (s.p2 i)) (max (r.p1 i) (r.p2 i))
    let maxmin : Vec n K := fun i => max (min (s.p1 i) (s.p2 i)) (min (r.p1 i) (r.p2 i))
    if ∃ i, maxmin i > minmax i then none
    else some ⟨maxmin, minmax⟩

/-- `segment_to_point` (_geomalg.py 308-339). -/
def segToPoint (s : Seg n K) (p : Vec n K) : K :=
  let sd := s.direction
  let tp := p - s.p1
  let c1 := vdot tp sd
  if c1 < 0 ∨ closeK c1 0 = true then 0
  else
    let c2 := vdot sd sd
    if c2 < c1 ∨ closeK c2 c1 = true then 1
    else c1 / c2

/-- Numerators and denominators of the two parameters computed by `segment_to_segment`. -/
structure Fracs (K : Type) where
  sn : K
  sd : K
  tn : K
  td : K

/-- First part of `segment_to_segment` (_geomalg.py 382-401): parameters of the closest points of the lines, the
first clamped to [0,1]. `fl` is applied to the result of every arithmetic operation. -/
def s2sLines (fl : K → K) (tol a b c d e : K) : Fracs K :=
  let dd := fl (fl (a * c) - fl (b * b))
  if dd < tol then ⟨0, 1, e, c⟩
  else
    let sn := fl (fl (b * e) - fl (c * d))
    let tn := fl (fl (a * e) - fl (b * d))
    if sn < 0 then ⟨0, dd, e, c⟩
    else if sn > dd then ⟨dd, dd, fl (e + b), c⟩
    else ⟨sn, dd, tn, dd⟩

/-- Second part (_geomalg.py 403-425): clamp the second parameter and recompute the first. -/
def s2sClamp (fl : K → K) (a b d : K) (f : Fracs K) : Fracs K :=
  if f.tn < 0 then
    if -d < 0 then ⟨0, f.sd, 0, f.td⟩
    else if -d > a then ⟨f.sd, f.sd, 0, f.td⟩
    else ⟨-d, a, 0, f.td⟩
  else if f.tn > f.td then
    if fl (-d + b) < 0 then ⟨0, f.sd, f.td, f.td⟩
    else if fl (-d + b) > a then ⟨f.sd, f.sd, f.td, f.td⟩
    else ⟨fl (-d + b), a, f.td, f.td⟩
  else f

/-- `segment_to_segment` from the dot products on (_geomalg.py 379-429). -/
def s2sCore (fl : K → K) (tol a b c d e : K) : K × K :=
  let f := s2sClamp fl a b d (s2sLines fl tol a b c d e)
  (if |f.sn| < tol then 0 else fl (f.sn / f.sd), if |f.tn| < tol then 0 else fl (f.tn / f.td))

/-- `segment_to_segment` (_geomalg.py 342-429) in exact arithmetic. -/
def segToSeg (s r : Seg n K) (tol : K) : K × K :=
  let u := s.direction
  let v := r.direction
  let w := s.p1 - r.p1
  s2sCore id tol (vdot u u) (vdot u v) (vdot v v) (vdot u w) (vdot v w)

/-- `Segment.shortest_segment` (_base.py 860-890). -/
def Seg.shortest (s : Seg n K) : PointOrSeg n K → Seg n K
  | .point p => ⟨s.point (segToPoint s p), p⟩
  | .seg r => let t := segToSeg s r F_EPS; ⟨s.point t.1, r.point t.2⟩

end

/-! Lengths: over the reals. -/

section
variable {n : Nat}

/-- `Point.norm` (_base.py 318-327). -/
noncomputable def vnorm (u : Vec n ℝ) : ℝ := √ (vdot u u)

/-- `Point.distance` with the default metric (_base.py 329-356): scipy's `euclidean`. -/
noncomputable def edist (p q : Vec n ℝ) : ℝ := √ (∑ i, (p i - q i) ^ 2)

/-- `Segment.seglen` (_base.py 595-604). -/
noncomputable def Seg.seglen (s : Seg n ℝ) : ℝ := edist s.p1 s.p2

/-- `Segment.distance` (_base.py 839-858). -/
noncomputable def Seg.distance (s : Seg n ℝ) (o : PointOrSeg n ℝ) : ℝ := (s.shortest o).seglen

/-- `segments_angle` (_geomalg.py 120-160): `none` is NaN; `rd` is `round(·, ndigits)` or the identity. -/
noncomputable def Seg.angle (s r : Seg n ℝ) (rd : ℝ → ℝ) : Option ℝ :=
  let u1 := s.direction
  let u2 := r.direction
  let den := vnorm u1 * vnorm u2
  if closeK den 0 = true then none
  else
    let cosPhi := rd (vdot u1 u2 / den)
    let cosPhi := if cosPhi > 1 then 1 else cosPhi
    let cosPhi := if cosPhi < -1 then -1 else cosPhi
    some (Real.arccos cosPhi)

end

end Verif.Model
