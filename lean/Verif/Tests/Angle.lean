import Verif.Model.Geom
import Mathlib.Analysis.SpecialFunctions.Trigonometric.Inverse

/-!
The angles of tests/test_segment.py (see `Tests/Curve` on what this is for), without `ndigits`.
-/
namespace Verif.Tests

open Verif Verif.Model

variable {n : Nat}

theorem angle_of {s r : Seg n ℝ} {θ : ℝ} (h0 : 0 ≤ θ) (h1 : θ ≤ Real.pi)
    (hq : 1 ≤ vdot s.direction s.direction * vdot r.direction r.direction)
    (hc : Real.cos θ * √ (vdot s.direction s.direction * vdot r.direction r.direction) = vdot s.direction r.direction) :
    s.angle r id = some θ := by
  have hs : 0 ≤ vdot s.direction s.direction := by
    unfold vdot dotProduct; exact Finset.sum_nonneg fun i _ => mul_self_nonneg _
  have hden : vnorm s.direction * vnorm r.direction = √ (vdot s.direction s.direction * vdot r.direction r.direction) := by
    unfold vnorm; rw [Real.sqrt_mul hs]
  have hd1 : 1 ≤ √ (vdot s.direction s.direction * vdot r.direction r.direction) := Real.one_le_sqrt.2 hq
  unfold Seg.angle
  dsimp only [id]
  rw [hden, ← hc, mul_div_assoc, div_self (by linarith), mul_one]
  have hcl : ¬ closeK √ (vdot s.direction s.direction * vdot r.direction r.direction) 0 = true := by
    unfold closeK
    rw [decide_eq_true_iff, sub_zero, abs_zero, mul_zero, add_zero, abs_of_pos (by linarith), atol, not_le]
    refine lt_of_lt_of_le ?_ hd1
    norm_num
  rw [if_neg hcl, if_neg (not_lt.2 (Real.cos_le_one θ)), if_neg (not_lt.2 (Real.neg_one_le_cos θ)), Real.arccos_cos h0 h1]

section
variable {s r : Seg n ℝ} {a b d : ℝ} (ha : vdot s.direction s.direction = a) (hb : vdot r.direction r.direction = b)
  (hd : vdot s.direction r.direction = d) (hq : 1 ≤ a * b)
include ha hb hd hq

theorem angle_zero (h : a * b = d ^ 2) (h0 : 0 ≤ d) : s.angle r id = some 0 :=
  angle_of le_rfl Real.pi_pos.le (by rw [ha, hb]; exact hq) (by rw [ha, hb, hd, h, Real.sqrt_sq h0, Real.cos_zero, one_mul])

theorem angle_pi (h : a * b = d ^ 2) (h0 : d ≤ 0) : s.angle r id = some Real.pi :=
  angle_of Real.pi_pos.le le_rfl (by rw [ha, hb]; exact hq)
    (by rw [ha, hb, hd, h, ← neg_sq, Real.sqrt_sq (by linarith), Real.cos_pi]; ring)

theorem angle_half (h : d = 0) : s.angle r id = some (Real.pi / 2) :=
  angle_of (by linarith [Real.pi_pos]) (by linarith [Real.pi_pos]) (by rw [ha, hb]; exact hq)
    (by rw [ha, hb, hd, h, Real.cos_pi_div_two, zero_mul])

theorem angle_quarter (h : a * b = 2 * d ^ 2) (h0 : 0 ≤ d) : s.angle r id = some (Real.pi / 4) :=
  angle_of (by linarith [Real.pi_pos]) (by linarith [Real.pi_pos]) (by rw [ha, hb]; exact hq)
    (by
      rw [ha, hb, hd, h, Real.sqrt_mul (by norm_num), Real.sqrt_sq h0, Real.cos_pi_div_four]
      have := Real.mul_self_sqrt (show (0 : ℝ) ≤ 2 by norm_num)
      linear_combination d / 2 * this)

theorem angle_three (h : a * b = 2 * d ^ 2) (h0 : d ≤ 0) : s.angle r id = some (3 * Real.pi / 4) :=
  angle_of (by linarith [Real.pi_pos]) (by linarith [Real.pi_pos]) (by rw [ha, hb]; exact hq)
    (by
      rw [ha, hb, hd, h, ← neg_sq d, Real.sqrt_mul (by norm_num), Real.sqrt_sq (by linarith),
        show 3 * Real.pi / 4 = Real.pi - Real.pi / 4 by ring, Real.cos_pi_sub, Real.cos_pi_div_four]
      have := Real.mul_self_sqrt (show (0 : ℝ) ≤ 2 by norm_num)
      linear_combination d / 2 * this)

end

/-! `test_angle` -/

example : (⟨![1, 1], ![2, 2]⟩ : Seg 2 ℝ).angle ⟨![0, 0], ![3, 3]⟩ id = some 0 :=
  angle_zero (a := 2) (b := 18) (d := 6) (by norm_num [vdot, dotProduct, Seg.direction, Fin.sum_univ_two])
    (by norm_num [vdot, dotProduct, Seg.direction, Fin.sum_univ_two])
    (by norm_num [vdot, dotProduct, Seg.direction, Fin.sum_univ_two])
    (by norm_num) (by norm_num) (by norm_num)
example : (⟨![1, 1], ![2, 2]⟩ : Seg 2 ℝ).angle ⟨![3, 3], ![2, 2]⟩ id = some Real.pi :=
  angle_pi (a := 2) (b := 2) (d := -2) (by norm_num [vdot, dotProduct, Seg.direction, Fin.sum_univ_two])
    (by norm_num [vdot, dotProduct, Seg.direction, Fin.sum_univ_two])
    (by norm_num [vdot, dotProduct, Seg.direction, Fin.sum_univ_two])
    (by norm_num) (by norm_num) (by norm_num)
example : (⟨![1, 1], ![2, 2]⟩ : Seg 2 ℝ).angle ⟨![3, 3], ![0, 0]⟩ id = some Real.pi :=
  angle_pi (a := 2) (b := 18) (d := -6) (by norm_num [vdot, dotProduct, Seg.direction, Fin.sum_univ_two])
    (by norm_num [vdot, dotProduct, Seg.direction, Fin.sum_univ_two])
    (by norm_num [vdot, dotProduct, Seg.direction, Fin.sum_univ_two])
    (by norm_num) (by norm_num) (by norm_num)
example : (⟨![1, 1], ![1, 2]⟩ : Seg 2 ℝ).angle ⟨![3, 3], ![5, 3]⟩ id = some (Real.pi / 2) :=
  angle_half (a := 1) (b := 4) (d := 0) (by norm_num [vdot, dotProduct, Seg.direction, Fin.sum_univ_two])
    (by norm_num [vdot, dotProduct, Seg.direction, Fin.sum_univ_two])
    (by norm_num [vdot, dotProduct, Seg.direction, Fin.sum_univ_two])
    (by norm_num) (by norm_num)
example : (⟨![1, 1], ![1, 2]⟩ : Seg 2 ℝ).angle ⟨![0, 0], ![2, 2]⟩ id = some (Real.pi / 4) :=
  angle_quarter (a := 1) (b := 8) (d := 2) (by norm_num [vdot, dotProduct, Seg.direction, Fin.sum_univ_two])
    (by norm_num [vdot, dotProduct, Seg.direction, Fin.sum_univ_two])
    (by norm_num [vdot, dotProduct, Seg.direction, Fin.sum_univ_two])
    (by norm_num) (by norm_num) (by norm_num)
example : (⟨![1, 1], ![1, 2]⟩ : Seg 2 ℝ).angle ⟨![2, 2], ![0, 0]⟩ id = some (3 * Real.pi / 4) :=
  angle_three (a := 1) (b := 8) (d := -2) (by norm_num [vdot, dotProduct, Seg.direction, Fin.sum_univ_two])
    (by norm_num [vdot, dotProduct, Seg.direction, Fin.sum_univ_two])
    (by norm_num [vdot, dotProduct, Seg.direction, Fin.sum_univ_two])
    (by norm_num) (by norm_num) (by norm_num)
example : (⟨![1, 1, 1], ![2, 2, 2]⟩ : Seg 3 ℝ).angle ⟨![0, 0, 0], ![3, 3, 3]⟩ id = some 0 :=
  angle_zero (a := 3) (b := 27) (d := 9) (by norm_num [vdot, dotProduct, Seg.direction, Fin.sum_univ_succ])
    (by norm_num [vdot, dotProduct, Seg.direction, Fin.sum_univ_succ])
    (by norm_num [vdot, dotProduct, Seg.direction, Fin.sum_univ_succ])
    (by norm_num) (by norm_num) (by norm_num)
example : (⟨![1, 1, 1], ![2, 2, 2]⟩ : Seg 3 ℝ).angle ⟨![3, 3, 3], ![2, 2, 2]⟩ id = some Real.pi :=
  angle_pi (a := 3) (b := 3) (d := -3) (by norm_num [vdot, dotProduct, Seg.direction, Fin.sum_univ_succ])
    (by norm_num [vdot, dotProduct, Seg.direction, Fin.sum_univ_succ])
    (by norm_num [vdot, dotProduct, Seg.direction, Fin.sum_univ_succ])
    (by norm_num) (by norm_num) (by norm_num)
example : (⟨![1, 1, 1], ![2, 2, 2]⟩ : Seg 3 ℝ).angle ⟨![3, 3, 3], ![0, 0, 0]⟩ id = some Real.pi :=
  angle_pi (a := 3) (b := 27) (d := -9) (by norm_num [vdot, dotProduct, Seg.direction, Fin.sum_univ_succ])
    (by norm_num [vdot, dotProduct, Seg.direction, Fin.sum_univ_succ])
    (by norm_num [vdot, dotProduct, Seg.direction, Fin.sum_univ_succ])
    (by norm_num) (by norm_num) (by norm_num)
example : (⟨![1, 2, 1], ![1, 2, 2]⟩ : Seg 3 ℝ).angle ⟨![1, 2, 2], ![1, 2, 1]⟩ id = some Real.pi :=
  angle_pi (a := 1) (b := 1) (d := -1) (by norm_num [vdot, dotProduct, Seg.direction, Fin.sum_univ_succ])
    (by norm_num [vdot, dotProduct, Seg.direction, Fin.sum_univ_succ])
    (by norm_num [vdot, dotProduct, Seg.direction, Fin.sum_univ_succ])
    (by norm_num) (by norm_num) (by norm_num)
example : (⟨![1, 1, 1], ![1, 2, 1]⟩ : Seg 3 ℝ).angle ⟨![3, 3, 1], ![5, 3, 1]⟩ id = some (Real.pi / 2) :=
  angle_half (a := 1) (b := 4) (d := 0) (by norm_num [vdot, dotProduct, Seg.direction, Fin.sum_univ_succ])
    (by norm_num [vdot, dotProduct, Seg.direction, Fin.sum_univ_succ])
    (by norm_num [vdot, dotProduct, Seg.direction, Fin.sum_univ_succ])
    (by norm_num) (by norm_num)
example : (⟨![1, 1, 1], ![1, 2, 1]⟩ : Seg 3 ℝ).angle ⟨![0, 0, 1], ![2, 2, 1]⟩ id = some (Real.pi / 4) :=
  angle_quarter (a := 1) (b := 8) (d := 2) (by norm_num [vdot, dotProduct, Seg.direction, Fin.sum_univ_succ])
    (by norm_num [vdot, dotProduct, Seg.direction, Fin.sum_univ_succ])
    (by norm_num [vdot, dotProduct, Seg.direction, Fin.sum_univ_succ])
    (by norm_num) (by norm_num) (by norm_num)
example : (⟨![1, 1, 1], ![1, 2, 1]⟩ : Seg 3 ℝ).angle ⟨![2, 2, 1], ![0, 0, 1]⟩ id = some (3 * Real.pi / 4) :=
  angle_three (a := 1) (b := 8) (d := -2) (by norm_num [vdot, dotProduct, Seg.direction, Fin.sum_univ_succ])
    (by norm_num [vdot, dotProduct, Seg.direction, Fin.sum_univ_succ])
    (by norm_num [vdot, dotProduct, Seg.direction, Fin.sum_univ_succ])
    (by norm_num) (by norm_num) (by norm_num)

/-! `test_angle_nan` -/

example : (⟨![1, 1], ![1, 2]⟩ : Seg 2 ℝ).angle ⟨![0, 0], ![0, 0]⟩ id = none := by
  unfold Seg.angle
  dsimp only
  rw [if_pos (show closeK _ _ = true by simp [vnorm, vdot, dotProduct, Seg.direction, Fin.sum_univ_two, closeK, atol])]

end Verif.Tests
