import Mathlib.Analysis.InnerProductSpace.PiL2

/-!
Specification vocabulary for lengths: rows of numbers as points of Mathlib's euclidean space.
-/
namespace Verif.Spec

/-- The first `n` numbers of a row as a point of euclidean `n`-space. -/
def pt (n : Nat) (r : List ℝ) : EuclideanSpace ℝ (Fin n) := WithLp.toLp 2 fun i => r.getD i 0

/-- Distance of two rows. -/
noncomputable def gap (n : Nat) (a b : List ℝ) : ℝ := dist (pt n a) (pt n b)

/-- Length of the polygonal line through the rows. -/
noncomputable def pathLen (n : Nat) : List (List ℝ) → ℝ
  | a :: b :: l => gap n a b + pathLen n (b :: l)
  | _ => 0

end Verif.Spec
