import Verif.Tests.Exec
import Mathlib.Data.Rat.Floor

/-!
The cases of tests/test_segment.py and of `test_intersect_segments` in tests/test_intersect.py, evaluated in the
model (see `Tests/Curve` on what this is for). The angles are in `Tests/Angle`; lengths appear as their squares.
-/
namespace Verif.Tests

open Verif Verif.Model

variable {n : Nat}

/-- the square of the length -/
def sqLen (s : Seg n ℚ) : ℚ := ∑ i, (s.p1 i - s.p2 i) ^ 2

/-- the type of an intersection if the intersection point equals the given one (`none` is None) -/
def verdict (p : Option (Vec n ℚ)) (s r : Seg n ℚ) (res : Except PyErr (Info n ℚ)) : Option IType :=
  match res with
  | .error _ => none
  | .ok info =>
    match (⟨⟨s, none⟩, ⟨r, none⟩, info⟩ : SegInt n ℚ).point, p with
    | .ok .none, none => some info.type
    | .ok (.point x), some y => if vecEq x y then some info.type else none
    | _, _ => none

/-- `segment1.intersect(segment2)` has the expected intersection point; its type -/
noncomputable def meets (s r : Seg n ℚ) (p : Option (Vec n ℚ)) : Option IType := verdict p s r (exactSegments F_EPS s r)

/-- see `meets` -/
def meetsX (s r : Seg n ℚ) (p : Option (Vec n ℚ)) : Option IType := verdict p s r (exactSegmentsX F_EPS s r)

theorem meetsX_eq (s r : Seg n ℚ) (p : Option (Vec n ℚ)) : meetsX s r p = meets s r p := by
  rw [meetsX, meets, exactSegmentsX_eq]

/-! `test_create_segment`, `test_equal_segments`, `test_singular` -/

example : vecEq (⟨![1, 1], ![2, 2]⟩ : Seg 2 ℚ).p1 ![1, 1] = true ∧ vecEq (⟨![1, 1], ![2, 2]⟩ : Seg 2 ℚ).p2 ![2, 2] = true :=
  by decide +kernel
example : vecEq (⟨![1, 1, 1], ![2, 2, 2]⟩ : Seg 3 ℚ).p1 ![1, 1, 1] = true ∧ vecEq (⟨![1, 1, 1], ![2, 2, 2]⟩ : Seg 3 ℚ).p2 ![2, 2, 2] = true :=
  by decide +kernel
example : (⟨![1, 1], ![2, 2]⟩ : Seg 2 ℚ).eq ⟨![1, 1], ![2, 2]⟩ = true := by decide +kernel
example : (⟨![1, 1], ![2, 2]⟩ : Seg 2 ℚ).eq ⟨![2, 2], ![1, 1]⟩ = false := by decide +kernel
example : (⟨![1, 1], ![1, 1]⟩ : Seg 2 ℚ).singular = true := by decide +kernel

/-! `test_segment_point` -/

example : vecEq ((⟨![1, 1], ![2, 2]⟩ : Seg 2 ℚ).point (0)) ![1, 1] = true := by decide +kernel
example : vecEq ((⟨![1, 1], ![2, 2]⟩ : Seg 2 ℚ).point (1)) ![2, 2] = true := by decide +kernel
example : vecEq ((⟨![1, 1], ![2, 2]⟩ : Seg 2 ℚ).point (1 / 2)) ![3 / 2, 3 / 2] = true := by decide +kernel

/-! `test_segment_t_2d`, `test_segment_t_3d` -/

example : (⟨![1, 1], ![2, 2]⟩ : Seg 2 ℚ).t ![1, 1] = some (0) := by
  rw [← tX_eq]; decide +kernel
example : (⟨![1, 1], ![2, 2]⟩ : Seg 2 ℚ).t ![2, 2] = some (1) := by
  rw [← tX_eq]; decide +kernel
example : (⟨![1, 1], ![2, 2]⟩ : Seg 2 ℚ).t ![3 / 2, 3 / 2] = some (1 / 2) := by
  rw [← tX_eq]; decide +kernel
example : (⟨![1, 1, 1], ![2, 2, 2]⟩ : Seg 3 ℚ).t ![1, 1, 1] = some (0) := by
  rw [← tX_eq]; decide +kernel
example : (⟨![1, 1, 1], ![2, 2, 2]⟩ : Seg 3 ℚ).t ![2, 2, 2] = some (1) := by
  rw [← tX_eq]; decide +kernel
example : (⟨![1, 1, 1], ![2, 2, 2]⟩ : Seg 3 ℚ).t ![3 / 2, 3 / 2, 3 / 2] = some (1 / 2) :=
  by
  rw [← tX_eq]; decide +kernel

/-! `test_collinear` -/

example : (⟨![1, 1], ![2, 2]⟩ : Seg 2 ℚ).collinear (.seg ⟨![0, 0], ![3, 3]⟩) = true :=
  by
  rw [← collinearX_eq]; decide +kernel
example : (⟨![1, 1], ![2, 2]⟩ : Seg 2 ℚ).collinear (.seg ⟨![3, 3], ![1, 1]⟩) = true :=
  by
  rw [← collinearX_eq]; decide +kernel
example : (⟨![0, 0], ![2, 2]⟩ : Seg 2 ℚ).collinear (.seg ⟨![-1, -1], ![1, 1]⟩) = true :=
  by
  rw [← collinearX_eq]; decide +kernel
example : (⟨![0, 1], ![0, 2]⟩ : Seg 2 ℚ).collinear (.seg ⟨![0, 2], ![0, 3]⟩) = true :=
  by
  rw [← collinearX_eq]; decide +kernel
example : (⟨![0, 1], ![0, 2]⟩ : Seg 2 ℚ).collinear (.seg ⟨![1, 1], ![1, 2]⟩) = false :=
  by
  rw [← collinearX_eq]; decide +kernel
example : (⟨![0, 0], ![1, 2]⟩ : Seg 2 ℚ).collinear (.seg ⟨![0, 0], ![1, 201 / 100]⟩) = false :=
  by
  rw [← collinearX_eq]; decide +kernel
example : (⟨![1, 1, 0], ![1, 2, 0]⟩ : Seg 3 ℚ).collinear (.seg ⟨![1, 2, 0], ![1, 1, 0]⟩) = true :=
  by
  rw [← collinearX_eq]; decide +kernel
example : (⟨![1, 2, 1], ![1, 2, 2]⟩ : Seg 3 ℚ).collinear (.seg ⟨![1, 2, 2], ![1, 2, 1]⟩) = true :=
  by
  rw [← collinearX_eq]; decide +kernel
example : (⟨![0, 0, 0], ![1, 1, 1]⟩ : Seg 3 ℚ).collinear (.seg ⟨![3 / 2, 3 / 2, 3 / 2], ![3, 3, 3]⟩) = true :=
  by
  rw [← collinearX_eq]; decide +kernel
example : (⟨![0, 0, 1], ![1, 1, 2]⟩ : Seg 3 ℚ).collinear (.seg ⟨![0, 0, 0], ![1, 1, 3]⟩) = false :=
  by
  rw [← collinearX_eq]; decide +kernel

/-! `test_parallel`; the default tolerance is `F_EPS` -/

example : (⟨![1, 1], ![2, 2]⟩ : Seg 2 ℚ).parallel ⟨![0, 0], ![3, 3]⟩ F_EPS = true := by decide +kernel
example : (⟨![1, 0], ![2, 0]⟩ : Seg 2 ℚ).parallel ⟨![2, 1], ![1, 1]⟩ F_EPS = true := by decide +kernel
example : (⟨![0, 1], ![1, 1]⟩ : Seg 2 ℚ).parallel ⟨![1, 2], ![2, 1]⟩ F_EPS = false := by decide +kernel
example : (⟨![0, 0], ![2, 0]⟩ : Seg 2 ℚ).parallel ⟨![1, 2], ![2, 2]⟩ F_EPS = true := by decide +kernel
example : (⟨![0, 0], ![2, 0]⟩ : Seg 2 ℚ).parallel ⟨![3, 3], ![3, 3]⟩ F_EPS = true := by decide +kernel
example : (⟨![0, 0], ![0, 0]⟩ : Seg 2 ℚ).parallel ⟨![3, 3], ![3, 3]⟩ F_EPS = true := by decide +kernel
example : (⟨![1, 1, 0], ![1, 2, 0]⟩ : Seg 3 ℚ).parallel ⟨![1, 2, 0], ![1, 1, 0]⟩ F_EPS = true := by decide +kernel
example : (⟨![0, 0, 1], ![1, 1, 2]⟩ : Seg 3 ℚ).parallel ⟨![0, 0, 0], ![1, 1, 3]⟩ F_EPS = false := by decide +kernel

/-! `test_coplanar` -/

example : (⟨![1, 1], ![2, 2]⟩ : Seg 2 ℚ).coplanar (.seg ⟨![0, 0], ![3, 3]⟩) = .ok true :=
  by
  rw [← coplanarX_eq]; decide +kernel
example : (⟨![1, 0], ![2, 0]⟩ : Seg 2 ℚ).coplanar (.seg ⟨![2, 1], ![1, 1]⟩) = .ok true :=
  by
  rw [← coplanarX_eq]; decide +kernel
example : (⟨![0, 1], ![1, 1]⟩ : Seg 2 ℚ).coplanar (.seg ⟨![1, 2], ![2, 1]⟩) = .ok true :=
  by
  rw [← coplanarX_eq]; decide +kernel
example : (⟨![1, 1, 1], ![2, 2, 2]⟩ : Seg 3 ℚ).coplanar (.seg ⟨![1, 1, 2], ![2, 2, 1]⟩) = .ok true :=
  by
  rw [← coplanarX_eq]; decide +kernel
example : (⟨![0, 0, 1], ![1, 1, 2]⟩ : Seg 3 ℚ).coplanar (.seg ⟨![0, 0, 0], ![1, 1, 3]⟩) = .ok true :=
  by
  rw [← coplanarX_eq]; decide +kernel
example : (⟨![1, 1, 2], ![1, 2, 3]⟩ : Seg 3 ℚ).coplanar (.seg ⟨![0, 0, 0], ![2, 3, 1]⟩) = .ok false :=
  by
  rw [← coplanarX_eq]; decide +kernel

/-! `test_overlap` -/

example : ((⟨![1, 1], ![2, 2]⟩ : Seg 2 ℚ).overlap ⟨![0, 0], ![3 / 2, 3 / 2]⟩ true).map (fun o => o.eq ⟨![1, 1], ![3 / 2, 3 / 2]⟩) = some true :=
  by
  rw [← overlapX_eq]; decide +kernel
example : ((⟨![2, 2], ![1, 1]⟩ : Seg 2 ℚ).overlap ⟨![0, 0], ![3 / 2, 3 / 2]⟩ true).map (fun o => o.eq ⟨![1, 1], ![3 / 2, 3 / 2]⟩) = some true :=
  by
  rw [← overlapX_eq]; decide +kernel
example : ((⟨![1, 1], ![2, 2]⟩ : Seg 2 ℚ).overlap ⟨![3 / 2, 3 / 2], ![0, 0]⟩ true).map (fun o => o.eq ⟨![1, 1], ![3 / 2, 3 / 2]⟩) = some true :=
  by
  rw [← overlapX_eq]; decide +kernel
example : ((⟨![2, 2], ![1, 1]⟩ : Seg 2 ℚ).overlap ⟨![3 / 2, 3 / 2], ![0, 0]⟩ true).map (fun o => o.eq ⟨![1, 1], ![3 / 2, 3 / 2]⟩) = some true :=
  by
  rw [← overlapX_eq]; decide +kernel
example : ((⟨![1, 1], ![2, 2]⟩ : Seg 2 ℚ).overlap ⟨![0, 0], ![3, 3]⟩ true).map (fun o => o.eq ⟨![1, 1], ![2, 2]⟩) = some true :=
  by
  rw [← overlapX_eq]; decide +kernel
example : ((⟨![2, 2], ![1, 1]⟩ : Seg 2 ℚ).overlap ⟨![0, 0], ![3, 3]⟩ true).map (fun o => o.eq ⟨![1, 1], ![2, 2]⟩) = some true :=
  by
  rw [← overlapX_eq]; decide +kernel
example : ((⟨![1, 1], ![2, 2]⟩ : Seg 2 ℚ).overlap ⟨![3, 3], ![0, 0]⟩ true).map (fun o => o.eq ⟨![1, 1], ![2, 2]⟩) = some true :=
  by
  rw [← overlapX_eq]; decide +kernel
example : ((⟨![2, 2], ![1, 1]⟩ : Seg 2 ℚ).overlap ⟨![3, 3], ![0, 0]⟩ true).map (fun o => o.eq ⟨![1, 1], ![2, 2]⟩) = some true :=
  by
  rw [← overlapX_eq]; decide +kernel
example : ((⟨![0, 0], ![1, 1]⟩ : Seg 2 ℚ).overlap ⟨![2, 2], ![3, 3]⟩ true).isNone = true :=
  by
  rw [← overlapX_eq]; decide +kernel
example : ((⟨![1, 1], ![0, 0]⟩ : Seg 2 ℚ).overlap ⟨![2, 2], ![3, 3]⟩ true).isNone = true :=
  by
  rw [← overlapX_eq]; decide +kernel
example : ((⟨![0, 0], ![1, 1]⟩ : Seg 2 ℚ).overlap ⟨![3, 3], ![2, 2]⟩ true).isNone = true :=
  by
  rw [← overlapX_eq]; decide +kernel
example : ((⟨![1, 1], ![0, 0]⟩ : Seg 2 ℚ).overlap ⟨![3, 3], ![2, 2]⟩ true).isNone = true :=
  by
  rw [← overlapX_eq]; decide +kernel
example : ((⟨![3, 3], ![2, 2]⟩ : Seg 2 ℚ).overlap ⟨![1, 1], ![0, 0]⟩ true).isNone = true :=
  by
  rw [← overlapX_eq]; decide +kernel
example : ((⟨![0, 0], ![1, 1]⟩ : Seg 2 ℚ).overlap ⟨![1, 1], ![2, 2]⟩ true).map (fun o => o.eq ⟨![1, 1], ![1, 1]⟩) = some true :=
  by
  rw [← overlapX_eq]; decide +kernel
example : ((⟨![0, 0], ![1, 1]⟩ : Seg 2 ℚ).overlap ⟨![2, 2], ![1, 1]⟩ true).map (fun o => o.eq ⟨![1, 1], ![1, 1]⟩) = some true :=
  by
  rw [← overlapX_eq]; decide +kernel
example : ((⟨![1, 1], ![0, 0]⟩ : Seg 2 ℚ).overlap ⟨![1, 1], ![2, 2]⟩ true).map (fun o => o.eq ⟨![1, 1], ![1, 1]⟩) = some true :=
  by
  rw [← overlapX_eq]; decide +kernel
example : ((⟨![1, 1], ![2, 2]⟩ : Seg 2 ℚ).overlap ⟨![1, 1], ![0, 0]⟩ true).map (fun o => o.eq ⟨![1, 1], ![1, 1]⟩) = some true :=
  by
  rw [← overlapX_eq]; decide +kernel

/-! `test_intersect`, and `test_intersect_segments` of tests/test_intersect.py -/

example : meets (⟨![1, 1], ![2, 2]⟩ : Seg 2 ℚ) ⟨![1, 2], ![2, 1]⟩ (some ![3 / 2, 3 / 2]) = some .exact :=
  by
  rw [← meetsX_eq]; decide +kernel
example : meets (⟨![1, 1], ![2, 2]⟩ : Seg 2 ℚ) ⟨![3, 3], ![0, 0]⟩ (some ![3 / 2, 3 / 2]) = some .overlap :=
  by
  rw [← meetsX_eq]; decide +kernel
example : meets (⟨![1, 1], ![2, 2]⟩ : Seg 2 ℚ) ⟨![-5, 2], ![2, 10]⟩ none = some .none :=
  by
  rw [← meetsX_eq]; decide +kernel
example : meets (⟨![1, 1, 1], ![2, 2, 2]⟩ : Seg 3 ℚ) ⟨![1, 2, 1], ![2, 1, 2]⟩ (some ![3 / 2, 3 / 2, 3 / 2]) = some .exact :=
  by
  rw [← meetsX_eq]; decide +kernel
example : meets (⟨![1, 1, 1], ![2, 2, 2]⟩ : Seg 3 ℚ) ⟨![0, 0, 0], ![3, 3, 3]⟩ (some ![3 / 2, 3 / 2, 3 / 2]) = some .overlap :=
  by
  rw [← meetsX_eq]; decide +kernel
example : meets (⟨![1, 1, 2], ![1, 2, 3]⟩ : Seg 3 ℚ) ⟨![0, 0, 0], ![2, 3, 1]⟩ none = some .none :=
  by
  rw [← meetsX_eq]; decide +kernel

example : (meets (⟨![1, 1], ![2, 2]⟩ : Seg 2 ℚ) ⟨![1, 2], ![2, 1]⟩ (some ![3 / 2, 3 / 2])).isSome = true :=
  by
  rw [← meetsX_eq]; decide +kernel
example : (meets (⟨![0, 0], ![0, 2]⟩ : Seg 2 ℚ) ⟨![-1, 1], ![1, 1]⟩ (some ![0, 1])).isSome = true :=
  by
  rw [← meetsX_eq]; decide +kernel
example : (meets (⟨![1, 2], ![2, 2]⟩ : Seg 2 ℚ) ⟨![1, 1], ![2, 1]⟩ none).isSome = true :=
  by
  rw [← meetsX_eq]; decide +kernel
example : (meets (⟨![0, 0], ![1, 1]⟩ : Seg 2 ℚ) ⟨![11 / 10, 11 / 10], ![2, 2]⟩ none).isSome = true :=
  by
  rw [← meetsX_eq]; decide +kernel
example : (meets (⟨![1, 1], ![2, 2]⟩ : Seg 2 ℚ) ⟨![1 / 2, 1 / 2], ![3 / 2, 3 / 2]⟩ (some ![5 / 4, 5 / 4])).isSome = true :=
  by
  rw [← meetsX_eq]; decide +kernel
example : (meets (⟨![1, 1], ![2, 2]⟩ : Seg 2 ℚ) ⟨![1 / 2, 1 / 2], ![5 / 2, 5 / 2]⟩ (some ![3 / 2, 3 / 2])).isSome = true :=
  by
  rw [← meetsX_eq]; decide +kernel
example : (meets (⟨![2, 2], ![2, 2]⟩ : Seg 2 ℚ) ⟨![1, 1], ![1, 1]⟩ none).isSome = true :=
  by
  rw [← meetsX_eq]; decide +kernel
example : (meets (⟨![1, 1], ![2, 2]⟩ : Seg 2 ℚ) ⟨![-1, 3 / 2], ![-1, 3 / 2]⟩ none).isSome = true :=
  by
  rw [← meetsX_eq]; decide +kernel
example : (meets (⟨![0, 0], ![0, 0]⟩ : Seg 2 ℚ) ⟨![0, 0], ![0, 0]⟩ (some ![0, 0])).isSome = true :=
  by
  rw [← meetsX_eq]; decide +kernel
example : (meets (⟨![1, 1], ![2, 2]⟩ : Seg 2 ℚ) ⟨![3 / 2, 3 / 2], ![3 / 2, 3 / 2]⟩ (some ![3 / 2, 3 / 2])).isSome = true :=
  by
  rw [← meetsX_eq]; decide +kernel
example : (meets (⟨![1, 1, 1], ![2, 2, 2]⟩ : Seg 3 ℚ) ⟨![1, 2, 1], ![2, 1, 2]⟩ (some ![3 / 2, 3 / 2, 3 / 2])).isSome = true :=
  by
  rw [← meetsX_eq]; decide +kernel
example : (meets (⟨![0, 0, 0], ![0, 0, 2]⟩ : Seg 3 ℚ) ⟨![-1, 0, 1], ![1, 0, 1]⟩ (some ![0, 0, 1])).isSome = true :=
  by
  rw [← meetsX_eq]; decide +kernel
example : (meets (⟨![2, 2, 2], ![2, 2, 2]⟩ : Seg 3 ℚ) ⟨![1, 1, 1], ![1, 1, 1]⟩ none).isSome = true :=
  by
  rw [← meetsX_eq]; decide +kernel
example : (meets (⟨![-5, 1, 2], ![-5, 1, 2]⟩ : Seg 3 ℚ) ⟨![3, -4, 1], ![3, -4, 1]⟩ none).isSome = true :=
  by
  rw [← meetsX_eq]; decide +kernel
example : (meets (⟨![1, 1, 1], ![2, 2, 2]⟩ : Seg 3 ℚ) ⟨![-2, 5, 3 / 2], ![-2, 5, 3 / 2]⟩ none).isSome = true :=
  by
  rw [← meetsX_eq]; decide +kernel
example : (meets (⟨![1, 1, 1], ![1, 1, 1]⟩ : Seg 3 ℚ) ⟨![1, 1, 1], ![1, 1, 1]⟩ (some ![1, 1, 1])).isSome = true :=
  by
  rw [← meetsX_eq]; decide +kernel
example : (meets (⟨![1, 1, 1], ![2, 2, 2]⟩ : Seg 3 ℚ) ⟨![3 / 2, 3 / 2, 3 / 2], ![3 / 2, 3 / 2, 3 / 2]⟩ (some ![3 / 2, 3 / 2, 3 / 2])).isSome = true :=
  by
  rw [← meetsX_eq]; decide +kernel

/-! `test_distance_point`, `test_distance_segment`: the squares of the lengths -/

example : sqLen ((⟨![0, 0], ![2, 0]⟩ : Seg 2 ℚ).shortest (.point ![1, 1])) = 1 := by decide +kernel
example : sqLen ((⟨![0, 0], ![2, 0]⟩ : Seg 2 ℚ).shortest (.point ![-1, -1])) = 2 := by decide +kernel
example : sqLen ((⟨![0, 0], ![2, 0]⟩ : Seg 2 ℚ).shortest (.point ![3, 1])) = 2 := by decide +kernel
example : sqLen ((⟨![0, 0], ![2, 2]⟩ : Seg 2 ℚ).shortest (.point ![0, 2])) = 2 := by decide +kernel
example : sqLen ((⟨![0, 0], ![2, 2]⟩ : Seg 2 ℚ).shortest (.point ![-2, 0])) = 4 := by decide +kernel
example : sqLen ((⟨![0, 0], ![2, 2]⟩ : Seg 2 ℚ).shortest (.point ![-1, -1])) = 2 := by decide +kernel
example : sqLen ((⟨![0, 0], ![2, 2]⟩ : Seg 2 ℚ).shortest (.point ![1, 0])) = 1 / 2 := by decide +kernel
example : sqLen ((⟨![0, 0], ![2, 2]⟩ : Seg 2 ℚ).shortest (.point ![3, 3])) = 2 := by decide +kernel
example : sqLen ((⟨![0, 0], ![2, 2]⟩ : Seg 2 ℚ).shortest (.point ![3, 2])) = 1 := by decide +kernel
example : sqLen ((⟨![0, 0], ![2, 2]⟩ : Seg 2 ℚ).shortest (.point ![3, 1])) = 2 := by decide +kernel
example : sqLen ((⟨![0, 0], ![2, 2]⟩ : Seg 2 ℚ).shortest (.point ![1, 1])) = 0 := by decide +kernel
example : sqLen ((⟨![0, 0, 0], ![2, 0, 0]⟩ : Seg 3 ℚ).shortest (.point ![1, 1, 0])) = 1 := by decide +kernel
example : sqLen ((⟨![0, 0, 0], ![2, 2, 2]⟩ : Seg 3 ℚ).shortest (.point ![1, 1, 1])) = 0 := by decide +kernel
example : sqLen ((⟨![0, 0, 0], ![2, 2, 2]⟩ : Seg 3 ℚ).shortest (.point ![3, 3, 1])) = 3 := by decide +kernel
example : sqLen ((⟨![0, 0, 0], ![2, 2, 2]⟩ : Seg 3 ℚ).shortest (.point ![3, 3, 3])) = 3 := by decide +kernel
example : sqLen ((⟨![0, 0, 0], ![2, 2, 2]⟩ : Seg 3 ℚ).shortest (.point ![-1, -1, -1])) = 3 := by decide +kernel

example : sqLen ((⟨![0, 0], ![2, 0]⟩ : Seg 2 ℚ).shortest (.seg ⟨![0, 2], ![2, 2]⟩)) = 4 := by decide +kernel
example : sqLen ((⟨![0, 0], ![2, 0]⟩ : Seg 2 ℚ).shortest (.seg ⟨![1, 1], ![3, 1]⟩)) = 1 := by decide +kernel
example : sqLen ((⟨![0, 0], ![2, 0]⟩ : Seg 2 ℚ).shortest (.seg ⟨![-1, 0], ![3, 0]⟩)) = 0 := by decide +kernel
example : sqLen ((⟨![1, 1], ![2, 2]⟩ : Seg 2 ℚ).shortest (.seg ⟨![1, 2], ![2, 1]⟩)) = 0 := by decide +kernel
example : sqLen ((⟨![2, 0], ![2, 2]⟩ : Seg 2 ℚ).shortest (.seg ⟨![1, 1], ![3, 1]⟩)) = 0 := by decide +kernel
example : sqLen ((⟨![0, 0], ![1, 0]⟩ : Seg 2 ℚ).shortest (.seg ⟨![2, 1], ![3, 1]⟩)) = 2 := by decide +kernel
example : sqLen ((⟨![0, 0], ![1, 0]⟩ : Seg 2 ℚ).shortest (.seg ⟨![-2, -1], ![-1, -1]⟩)) = 2 := by decide +kernel
example : sqLen ((⟨![2, 2, 0], ![2, 2, 2]⟩ : Seg 3 ℚ).shortest (.seg ⟨![1, 3, 1], ![3, 3, 1]⟩)) = 1 :=
  by decide +kernel
example : sqLen ((⟨![2, 2, 0], ![2, 2, 2]⟩ : Seg 3 ℚ).shortest (.seg ⟨![1, 2, 1], ![3, 2, 1]⟩)) = 0 :=
  by decide +kernel
example : sqLen ((⟨![0, 0, 0], ![1, 1, 1]⟩ : Seg 3 ℚ).shortest (.seg ⟨![2, 2, 1], ![3, 3, 2]⟩)) = 2 :=
  by decide +kernel

/-! `test_reverse` -/

example : (⟨![1, 1], ![2, 2]⟩ : Seg 2 ℚ).reverse.eq ⟨![2, 2], ![1, 1]⟩ = true := by decide +kernel

end Verif.Tests
