import Mathlib.Algebra.Order.Field.Basic
import Mathlib.Algebra.Module.Pi
import Mathlib.Data.Fin.VecNotation

/-! Geometric notions the theorems are stated with. No reference to the model. -/
namespace Verif.Spec

variable {K : Type} [Field K] [LinearOrder K] [IsStrictOrderedRing K] {n : Nat}

/-- The points lie on a common straight line. -/
def OnLine (ps : List (Fin n → K)) : Prop := ∃ q g : Fin n → K, ∀ p ∈ ps, ∃ x : K, p = q + x • g

/-- The points lie on a common straight line through the origin. -/
def OnLineThroughOrigin (ps : List (Fin n → K)) : Prop := ∃ g : Fin n → K, ∀ p ∈ ps, ∃ x : K, p = x • g

/-- The points lie in a common plane. -/
def InPlane (ps : List (Fin n → K)) : Prop := ∃ q g h : Fin n → K, ∀ p ∈ ps, ∃ x y : K, p = q + x • g + y • h

/-- `p` is on the segment from `a` to `b`. -/
def Between (a b p : Fin n → K) : Prop := ∃ x : K, 0 ≤ x ∧ x ≤ 1 ∧ p = a + x • (b - a)

end Verif.Spec
