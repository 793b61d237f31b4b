import Verif.Tests.Exec
import Mathlib.Data.Rat.Floor

/-!
The cases of `test_intersect_curves` in tests/test_intersect.py, evaluated in the model (see `Tests/Curve` on what
this is for). Left out: the cases of the almost method, which are about helices.
-/
namespace Verif.Tests

open Verif Verif.Model

variable {n : Nat}

/-- the segment objects and the intersection points are the expected ones -/
def agrees (c1 c2 : GCurve n ℚ) (expected : List (Nat × Nat × Vec n ℚ)) (res : Except PyErr (List (SegInt n ℚ))) :
    Bool :=
  match res with
  | .error _ => false
  | .ok xs => decide (xs.length = expected.length) && (List.zipWith (fun x e =>
      (c1.segment e.1).seg.eq x.seg1.seg && decide ((c1.segment e.1).origin = x.seg1.origin) &&
      (c2.segment e.2.1).seg.eq x.seg2.seg && decide ((c2.segment e.2.1).origin = x.seg2.origin) &&
      match x.point with
      | .ok (.point p) => vecEq e.2.2 p
      | _ => false) xs expected).all id

/-- `curve1.intersect(curve2)` is as expected -/
noncomputable def agree (c1 c2 : GCurve n ℚ) (expected : List (Nat × Nat × Vec n ℚ)) : Bool :=
  agrees c1 c2 expected (exactCurves F_EPS c1 c2)

/-- see `agree` -/
def agreeX (c1 c2 : GCurve n ℚ) (expected : List (Nat × Nat × Vec n ℚ)) : Bool :=
  agrees c1 c2 expected (exactCurvesX F_EPS c1 c2)

theorem agreeX_eq (c1 c2 : GCurve n ℚ) (expected : List (Nat × Nat × Vec n ℚ)) :
    agreeX c1 c2 expected = agree c1 c2 expected := by
  rw [agreeX, agree, exactCurvesX_eq]

/-- no intersections -/
example : agree (n := 2)
    ⟨0, false, [![1, 1], ![2, 2], ![3, 3], ![4, 4]]⟩
    ⟨1, false, [![4, 7], ![5, 6], ![6, 5], ![7, 4]]⟩
    [] = true := by
  rw [← agreeX_eq]; decide +kernel

/-- parallel, no intersections -/
example : agree (n := 2)
    ⟨0, false, [![1, 1], ![2, 2], ![3, 3], ![4, 4]]⟩
    ⟨1, false, [![3 / 2, 1 / 2], ![5 / 2, 3 / 2], ![7 / 2, 5 / 2], ![9 / 2, 7 / 2]]⟩
    [] = true := by
  rw [← agreeX_eq]; decide +kernel

/-- 1 pt -/
example : agree (n := 2)
    ⟨0, false, [![1, 1], ![2, 2], ![3, 3], ![4, 4]]⟩
    ⟨1, false, [![2, 5], ![3, 4], ![4, 3], ![5, 2]]⟩
    [(2, 1, ![7 / 2, 7 / 2])] = true := by
  rw [← agreeX_eq]; decide +kernel

/-- overlap 1 pt -/
example : agree (n := 2)
    ⟨0, false, [![1, 1], ![2, 2]]⟩
    ⟨1, false, [![0, 0], ![3, 3]]⟩
    [(0, 0, ![3 / 2, 3 / 2])] = true := by
  rw [← agreeX_eq]; decide +kernel

/-- overlap 1 pt -/
example : agree (n := 2)
    ⟨0, false, [![1, 1], ![2, 2]]⟩
    ⟨1, false, [![2, 2], ![3, 3]]⟩
    [(0, 0, ![2, 2])] = true := by
  rw [← agreeX_eq]; decide +kernel

/-- overlap 3 pt -/
example : agree (n := 2)
    ⟨0, false, [![1, 1], ![2, 2], ![3, 3]]⟩
    ⟨1, false, [![0, 0], ![5 / 2, 5 / 2], ![4, 4]]⟩
    [(0, 0, ![3 / 2, 3 / 2]), (1, 0, ![9 / 4, 9 / 4]), (1, 1, ![11 / 4, 11 / 4])] = true := by
  rw [← agreeX_eq]; decide +kernel

/-- overlap 5 pt -/
example : agree (n := 2)
    ⟨0, false, [![1, 1], ![2, 2], ![3, 3], ![4, 4]]⟩
    ⟨1, false, [![1 / 2, 1 / 2], ![5 / 2, 5 / 2], ![7 / 2, 7 / 2], ![9 / 2, 9 / 2]]⟩
    [(0, 0, ![3 / 2, 3 / 2]), (1, 0, ![9 / 4, 9 / 4]), (1, 1, ![11 / 4, 11 / 4]), (2, 1, ![13 / 4, 13 / 4]), (2, 2, ![15 / 4, 15 / 4])] = true := by
  rw [← agreeX_eq]; decide +kernel

/-- orthogonal curves -/
example : agree (n := 2)
    ⟨0, false, [![5 / 2, 1], ![5 / 2, 2], ![5 / 2, 3], ![5 / 2, 4]]⟩
    ⟨1, false, [![1, 5 / 2], ![2, 5 / 2], ![3, 5 / 2], ![4, 5 / 2]]⟩
    [(1, 1, ![5 / 2, 5 / 2])] = true := by
  rw [← agreeX_eq]; decide +kernel

/-- self intersect -/
example : agree (n := 2)
    ⟨0, false, [![1, 1], ![2, 1], ![3, 1], ![3, 2], ![5 / 2, 2], ![5 / 2, 3 / 2], ![5 / 2, 1 / 2], ![5 / 2, 0]]⟩
    ⟨0, false, [![1, 1], ![2, 1], ![3, 1], ![3, 2], ![5 / 2, 2], ![5 / 2, 3 / 2], ![5 / 2, 1 / 2], ![5 / 2, 0]]⟩
    [(1, 5, ![5 / 2, 1])] = true := by
  rw [← agreeX_eq]; decide +kernel

/-- self intersect -/
example : agree (n := 2)
    ⟨0, false, [![1, 1], ![2, 0], ![3, 1], ![2, 3], ![1, 1]]⟩
    ⟨0, false, [![1, 1], ![2, 0], ![3, 1], ![2, 3], ![1, 1]]⟩
    [(0, 3, ![1, 1])] = true := by
  rw [← agreeX_eq]; decide +kernel

/-- no intersections (parallel lines) -/
example : agree (n := 3)
    ⟨0, false, [![1, 1, 1], ![2, 2, 2]]⟩
    ⟨1, false, [![1, 1, 2], ![2, 2, 3]]⟩
    [] = true := by
  rw [← agreeX_eq]; decide +kernel

/-- no intersections (parallel lines) -/
example : agree (n := 3)
    ⟨0, false, [![1, 1, 1], ![2, 2, 2]]⟩
    ⟨1, false, [![4 / 5, 1, 1], ![1, 2, 2]]⟩
    [] = true := by
  rw [← agreeX_eq]; decide +kernel

/-- no intersections -/
example : agree (n := 3)
    ⟨0, false, [![1, 1, 1], ![2, 2, 2]]⟩
    ⟨1, false, [![11 / 10, 1, 1], ![21 / 10, 5 / 2, 2]]⟩
    [] = true := by
  rw [← agreeX_eq]; decide +kernel

/-- no intersections (skewness) -/
example : agree (n := 3)
    ⟨0, false, [![1, 1, 1], ![2, 2, 2]]⟩
    ⟨1, false, [![1 / 2, 5 / 2, 1], ![2, 1, 2]]⟩
    [] = true := by
  rw [← agreeX_eq]; decide +kernel

/-- no intersections (skewness) -/
example : agree (n := 3)
    ⟨0, false, [![1, 1, 1], ![2, 2, 2], ![3, 3, 3], ![4, 4, 4]]⟩
    ⟨1, false, [![1, 4, 2], ![2, 3, 3], ![3, 2, 4], ![4, 1, 5]]⟩
    [] = true := by
  rw [← agreeX_eq]; decide +kernel

/-- 1 pt -/
example : agree (n := 3)
    ⟨0, false, [![1, 1, 1], ![2, 2, 2]]⟩
    ⟨1, false, [![1 / 2, 1 / 2, 1], ![2, 2, 2]]⟩
    [(0, 0, ![2, 2, 2])] = true := by
  rw [← agreeX_eq]; decide +kernel

/-- 1 pt -/
example : agree (n := 3)
    ⟨0, false, [![1, 1, 1], ![2, 2, 2], ![3, 3, 3], ![4, 4, 4]]⟩
    ⟨1, false, [![1, 4, 1], ![2, 3, 2], ![3, 2, 3], ![4, 1, 4]]⟩
    [(1, 1, ![5 / 2, 5 / 2, 5 / 2])] = true := by
  rw [← agreeX_eq]; decide +kernel

/-- overlap 1 pt -/
example : agree (n := 3)
    ⟨0, false, [![1, 1, 2], ![2, 2, 2]]⟩
    ⟨1, false, [![1, 1, 2], ![2, 2, 2]]⟩
    [(0, 0, ![3 / 2, 3 / 2, 2])] = true := by
  rw [← agreeX_eq]; decide +kernel

/-- overlap 1 pt -/
example : agree (n := 3)
    ⟨0, false, [![1, 2, 1], ![2, 2, 2]]⟩
    ⟨1, false, [![1, 2, 1], ![2, 2, 2]]⟩
    [(0, 0, ![3 / 2, 2, 3 / 2])] = true := by
  rw [← agreeX_eq]; decide +kernel

/-- overlap 1 pt -/
example : agree (n := 3)
    ⟨0, false, [![1, 1, 1], ![2, 2, 2]]⟩
    ⟨1, false, [![1 / 2, 1 / 2, 1 / 2], ![5 / 2, 5 / 2, 5 / 2]]⟩
    [(0, 0, ![3 / 2, 3 / 2, 3 / 2])] = true := by
  rw [← agreeX_eq]; decide +kernel

/-- overlap 5 pt -/
example : agree (n := 3)
    ⟨0, false, [![1, 1, 1], ![2, 2, 2], ![3, 3, 3], ![4, 4, 4]]⟩
    ⟨1, false, [![1 / 2, 1 / 2, 1 / 2], ![5 / 2, 5 / 2, 5 / 2], ![7 / 2, 7 / 2, 7 / 2], ![9 / 2, 9 / 2, 9 / 2]]⟩
    [(0, 0, ![3 / 2, 3 / 2, 3 / 2]), (1, 0, ![9 / 4, 9 / 4, 9 / 4]), (1, 1, ![11 / 4, 11 / 4, 11 / 4]), (2, 1, ![13 / 4, 13 / 4, 13 / 4]), (2, 2, ![15 / 4, 15 / 4, 15 / 4])] = true := by
  rw [← agreeX_eq]; decide +kernel

end Verif.Tests
