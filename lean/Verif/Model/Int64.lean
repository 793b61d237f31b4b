import Verif.Model.ArcLen

/-!
Arithmetic of numpy on arrays of dtype int64, where the code computes with integers: `chordlen` (and with it arc length, default parameter and
`nonsingular`), `Point.__matmul__`, `Point.norm` and the operators of points. (`np.gradient`, `np.linalg` and scipy convert to float64 first.)
The conversion of an int64 to float64 is taken as exact.
-/
namespace Verif.Model

open Verif Verif.Np

/-- The int64 that an operation stores for the integer `z`. -/
def wrap64 (z : ℤ) : ℤ := (z + 2 ^ 63) % 2 ^ 64 - 2 ^ 63

/-- `np.sum` of an int64 array: every addition wraps around (numpy adds in another order, see `C136_order`). -/
def sum64 : List ℤ → ℤ
  | [] => 0
  | x :: xs => wrap64 (x + sum64 xs)

/-- `np.sqrt` of an int64. -/
noncomputable def sqrt64 (z : ℤ) : Val ℝ := if z < 0 then .nan else .fin (√ (z : ℝ))

/-- One entry of `chordlen` for integer data (_diffgeom.py 91): `np.diff`, `**2`, `np.sum`, `np.sqrt`. -/
noncomputable def chord64 (a b : List ℤ) : Val ℝ :=
  sqrt64 (sum64 (List.zipWith (fun x y => wrap64 (wrap64 (y - x) * wrap64 (y - x))) a b))

/-- `chordlen` of a non-empty curve of dtype int64 (_diffgeom.py 69-91). -/
noncomputable def chordlen64 (rows : List (List ℤ)) : List (Val ℝ) := List.zipWith chord64 rows rows.tail

/-- `np.dot` of two int64 vectors (`Point.__matmul__`, _base.py 255-272). -/
def dot64 (a b : List ℤ) : ℤ := sum64 (List.zipWith (fun x y => wrap64 (x * y)) a b)

/-- `Point.norm` of a point of dtype int64 (_base.py 318-328). -/
noncomputable def norm64 (a : List ℤ) : Val ℝ := sqrt64 (dot64 a a)

/-- The points that `nonsingular` keeps of a non-empty curve of dtype int64 (_diffgeom.py 41-66): no NaN or Inf in integer data, and
`np.isclose(np.hstack([1.0, chord_lengths]), 0.0)`. -/
noncomputable def nonsingular64 (rows : List (List ℤ)) : List (List ℤ) :=
  compress ((Val.fin 1 :: chordlen64 rows).map fun x => !(x.isclose (.fin 0))) rows

end Verif.Model
