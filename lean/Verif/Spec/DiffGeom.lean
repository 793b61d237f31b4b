import Verif.Spec.ArcLen

/-!
Specification vocabulary for arrays of vectors: entries and rows as points of euclidean space.
-/
namespace Verif.Spec

/-- Entry in row `i` and column `j`. -/
def at2 (rows : List (List ℝ)) (i j : Nat) : ℝ := (rows.getD i []).getD j 0

/-- Row `i` as a vector of euclidean `n`-space. -/
def rowVec (n : Nat) (rows : List (List ℝ)) (i : Nat) : EuclideanSpace ℝ (Fin n) := pt n (rows.getD i [])

end Verif.Spec
