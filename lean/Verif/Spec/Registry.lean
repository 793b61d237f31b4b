import Verif.Np.Err

/-!
Specification of method registries, independent of the model: what a history of registration attempts leaves behind.
-/
namespace Verif.Spec

variable {ι : Type}

/-- A registration attempt: name, implementation, whether it is acceptable. -/
structure Attempt (ι : Type) where
  name : String
  impl : ι
  acceptable : Bool

/-- The implementation of a name is that of the first acceptable attempt for this name. -/
def FirstAttempt (h : List (Attempt ι)) (name : String) (i : ι) : Prop :=
  ∃ pre post a, h = pre ++ a :: post ∧ a.name = name ∧ a.impl = i ∧ a.acceptable = true ∧
    ∀ b ∈ pre, b.name = name → b.acceptable = false

/-- `xs` without repetitions, each value at its first place. -/
def firstsOf (xs : List String) : List String :=
  match xs with
  | [] => []
  | x :: xs => x :: (firstsOf xs).filter (· ≠ x)

end Verif.Spec
