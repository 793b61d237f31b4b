import Verif.Model.Geom
import Verif.Model.SegmentObj
import Mathlib.Analysis.InnerProductSpace.SingularValues
import Mathlib.Analysis.InnerProductSpace.PiL2

/-!
The rank tests of skcurve/_geomalg.py with the tolerance of `np.linalg.matrix_rank` on the singular values. `Model/Geom.lean` has the same functions with
the exact rank; `Props/Rank.lean` shows how the two are related.

Coordinates are real numbers; singular values are the exact ones.
-/
namespace Verif.Model

open Verif Verif.Np

variable {n : Nat}

/-- The matrix with the given rows as a linear map. -/
noncomputable def rowsMap (rows : List (Vec n ℝ)) : EuclideanSpace ℝ (Fin n) →ₗ[ℝ] EuclideanSpace ℝ (Fin rows.length) where
  toFun v := WithLp.toLp 2 fun i => vdot (rows.get i) (WithLp.ofLp v)
  map_add' v w := by
    ext i
    simp [vdot, dotProduct_add]
  map_smul' x v := by
    ext i
    simp [vdot, dotProduct_smul]

/-- `np.linalg.svd(M, compute_uv=False)`: the singular values, largest first. A matrix with m rows and n columns has min(m, n) of them, and the
same ones as its transpose. -/
noncomputable def svdValues (rows : List (Vec n ℝ)) : List ℝ := (List.range (min rows.length n)).map fun i => (rowsMap rows).singularValues i

/-- `np.linalg.matrix_rank(M, tol=tol)`: the number of singular values above the tolerance; without a tolerance
`S.max() * max(M.shape) * eps`, where the maximum of no singular values is a ValueError. -/
noncomputable def matrixRankTol (tol : Option ℝ) (rows : List (Vec n ℝ)) : Except PyErr Nat :=
  let s := svdValues rows
  match tol with
  | some t => .ok (s.countP fun x => decide (t < x))
  | none =>
    match s with
    | [] => .error .valueError
    | x :: xs =>
      let t := xs.foldl max x * (max rows.length n : Nat) * F_EPS
      .ok (s.countP fun y => decide (t < y))

/-- `collinear_points` (_geomalg.py 194-228), see `collinearPoints`. -/
noncomputable def collinearPointsTol (tol : Option ℝ) (pts : List (Vec n ℝ)) : Except PyErr Bool :=
  let m := pts.dedup
  if m.length < 3 then .ok true
  else (matrixRankTol tol m).map fun r => decide (r ≤ 1)

/-- `coplanar_points` (_geomalg.py 231-260), see `coplanarPoints`. -/
noncomputable def coplanarPointsTol (tol : Option ℝ) (pts : List (Vec n ℝ)) : Except PyErr Bool :=
  if n < 3 then .ok true
  else match pts.getLast? with
    | none => .error .indexError
    | some l =>
      let rel := pts.map fun p => p - l
      (matrixRankTol tol rel.dropLast).map fun r => decide (r ≤ 2)

/-- `Segment.collinear(other, tol)` (_base.py 718-754). -/
noncomputable def Seg.collinearTol (s : Seg n ℝ) (tol : Option ℝ) : PointOrSeg n ℝ → Except PyErr Bool
  | .point p => if vecEq p s.p1 || vecEq p s.p2 then .ok true else collinearPointsTol tol [s.p1, s.p2, p]
  | .seg r => if r.eq s || r.reverse.eq s then .ok true else collinearPointsTol tol [s.p1, s.p2, r.p1, r.p2]

/-- `Segment.coplanar(other, tol)` (_base.py 756-787). -/
noncomputable def Seg.coplanarTol (s : Seg n ℝ) (tol : Option ℝ) : PointOrSeg n ℝ → Except PyErr Bool
  | .point p => coplanarPointsTol tol [s.p1, s.p2, p]
  | .seg r => coplanarPointsTol tol [s.p1, s.p2, r.p1, r.p2]

/-- `Segment.t(point, tol)` for one point (_geomalg.py 88-109): `none` is NaN. -/
noncomputable def Seg.tTol (s : Seg n ℝ) (tol : Option ℝ) (p : Vec n ℝ) : Except PyErr (Option ℝ) := do
  let b ← s.collinearTol tol (.point p)
  return if b then some (lstsq1 s.direction (p - s.p1)) else none

/-- `Curve.isplane` (_base.py 1530-1548): `coplanar_points(self._data)`, without a tolerance. -/
noncomputable def Curve.isplaneTol (c : Curve ℝ) : Except PyErr Bool :=
  coplanarPointsTol none (c.rows.map fun r => (fun i => r.getD i.val 0 : Vec c.ncols ℝ))

end Verif.Model
