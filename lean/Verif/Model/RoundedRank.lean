import Verif.Model.Rank
import Verif.Model.RoundedCross

/-!
The rank tests of skcurve/_geomalg.py for float data: the differences are rounded by a function `fl`, and the singular values are those which LAPACK computes. `η` is the accuracy of the singular values.
-/
namespace Verif.Model

open Verif Verif.Np

variable {n : Nat}

/-- `np.linalg.svd(M, compute_uv=False)` in floating point: min(m, n) numbers from 0 on, largest first; each of them differs from the exact singular value by at most `η` times the largest singular value (LAPACK's error bound for
dgesdd). -/
def SvdTo (η : ℝ) (rows : List (Vec n ℝ)) (s : List ℝ) : Prop :=
  s.length = min rows.length n ∧ s.Pairwise (· ≥ ·) ∧ (∀ x ∈ s, 0 ≤ x) ∧
    ∀ i, i < s.length → |s.getD i 0 - (rowsMap rows).singularValues i| ≤ η * (rowsMap rows).singularValues 0

/-- The number of singular values above the tolerance; without a tolerance it is `S.max() * max(M.shape) * eps`. -/
noncomputable def countFl (fl : ℝ → ℝ) (tol : Option ℝ) (size : Nat) (s : List ℝ) : Except PyErr Nat :=
  match tol with
  | some t => .ok (s.countP fun x => decide (t < x))
  | none =>
    match s with
    | [] => .error .valueError
    | x :: xs => .ok ((x :: xs).countP fun y => decide (fl (fl (xs.foldl max x * size) * F_EPS) < y))

/-- `np.linalg.matrix_rank(M, tol=tol)`, see `matrixRankTol`. -/
def RankTo (fl : ℝ → ℝ) (η : ℝ) (tol : Option ℝ) (rows : List (Vec n ℝ)) (res : Except PyErr Nat) : Prop :=
  ∃ s, SvdTo η rows s ∧ res = countFl fl tol (max rows.length n) s

/-- `collinear_points` (_geomalg.py 194-228), see `collinearPointsTol`; `np.unique` only compares. -/
def CollinearPtsTo (fl : ℝ → ℝ) (η : ℝ) (tol : Option ℝ) (pts : List (Vec n ℝ)) (res : Except PyErr Bool) : Prop :=
  if pts.dedup.length < 3 then res = .ok true
  else ∃ q, RankTo fl η tol pts.dedup q ∧ res = q.map fun r => decide (r ≤ 1)

/-- `coplanar_points` (_geomalg.py 231-260), see `coplanarPointsTol`; the differences to the last point are rounded. -/
def CoplanarPtsTo (fl : ℝ → ℝ) (η : ℝ) (tol : Option ℝ) (pts : List (Vec n ℝ)) (res : Except PyErr Bool) : Prop :=
  if n < 3 then res = .ok true
  else match pts.getLast? with
    | none => res = .error .indexError
    | some l => ∃ q, RankTo fl η tol (pts.map fun p => subFl fl p l).dropLast q ∧ res = q.map fun r => decide (r ≤ 2)

/-- `Segment.__eq__` for floats (_base.py 529-532). -/
def SegCloseFl (fl : ℝ → ℝ) (s r : Seg n ℝ) : Prop := VecCloseFl fl s.p1 r.p1 ∧ VecCloseFl fl s.p2 r.p2

open Classical in
/-- `Segment.collinear(other, tol)` (_base.py 718-754). -/
def Seg.CollinearTo (fl : ℝ → ℝ) (η : ℝ) (s : Seg n ℝ) (tol : Option ℝ) (o : PointOrSeg n ℝ) (res : Except PyErr Bool) : Prop :=
  match o with
  | .point p => if VecCloseFl fl p s.p1 ∨ VecCloseFl fl p s.p2 then res = .ok true else CollinearPtsTo fl η tol [s.p1, s.p2, p] res
  | .seg r => if SegCloseFl fl r s ∨ SegCloseFl fl r.reverse s then res = .ok true else CollinearPtsTo fl η tol [s.p1, s.p2, r.p1, r.p2] res

/-- `Segment.coplanar(other, tol)` (_base.py 756-787). -/
def Seg.CoplanarTo (fl : ℝ → ℝ) (η : ℝ) (s : Seg n ℝ) (tol : Option ℝ) (o : PointOrSeg n ℝ) (res : Except PyErr Bool) : Prop :=
  match o with
  | .point p => CoplanarPtsTo fl η tol [s.p1, s.p2, p] res
  | .seg r => CoplanarPtsTo fl η tol [s.p1, s.p2, r.p1, r.p2] res

/-- `Curve.isplane` (_base.py 1530-1548) for float data. -/
def Curve.IsplaneTo (fl : ℝ → ℝ) (η : ℝ) (c : Curve ℝ) (res : Except PyErr Bool) : Prop :=
  CoplanarPtsTo fl η none (c.rows.map fun r => (fun i => r.getD i.val 0 : Vec c.ncols ℝ)) res

end Verif.Model
