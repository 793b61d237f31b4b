import Verif.Spec.Geom
import Mathlib.Algebra.Order.Ring.Abs
import Mathlib.Algebra.BigOperators.Ring.Finset
import Mathlib.Logic.Relation
import Mathlib.Data.Real.Basic

/-! Notions the theorems about intersections are stated with. No reference to the model. -/
namespace Verif.Spec

section
variable {K : Type} [Field K] [LinearOrder K] [IsStrictOrderedRing K] {n : Nat}

/-- Equal up to the default tolerances in all coordinates. -/
def CloseVec (a b : Fin n → K) : Prop := ∀ i, |a i - b i| ≤ 1 / 100000000 + 1 / 100000 * |b i|

/-- Product of the squared lengths of two vectors times the squared sine of their angle. -/
def gram (u v : Fin n → K) : K := (∑ i, u i ^ 2) * (∑ i, v i ^ 2) - (∑ i, u i * v i) ^ 2

/-- Two segments have a common point. -/
def Meet (a b c d : Fin n → K) : Prop := ∃ p, Between a b p ∧ Between c d p

end

/-- Row-major order of index pairs. -/
def Before (p q : Nat × Nat) : Prop := p.1 < q.1 ∨ (p.1 = q.1 ∧ p.2 < q.2)

/-- Linked by a chain of positions below `m`, each closer than `tol` to the next. -/
def Linked (m : Nat) (dist : Nat → Nat → ℝ) (tol : ℝ) : Nat → Nat → Prop :=
  Relation.ReflTransGen fun i j => i < m ∧ j < m ∧ i ≠ j ∧ dist i j < tol

/-- `cs` lists the connected components, without isolated vertices, of the undirected graph with the given edges. -/
structure IsComponents (edge : Nat → Nat → Bool) (cs : List (List Nat)) : Prop where
  nodup : cs.flatten.Nodup
  mem : ∀ i, i ∈ cs.flatten ↔ ∃ j, edge i j = true ∨ edge j i = true
  same : ∀ b ∈ cs, ∀ i ∈ b, ∀ j, j ∈ b ↔ Relation.ReflTransGen (fun a b => edge a b = true ∨ edge b a = true) i j
  nonempty : ∀ b ∈ cs, b ≠ []

end Verif.Spec
