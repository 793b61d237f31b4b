import Verif.Spec.Rounding

/-!
Values of the binary64 rounding function.
-/
namespace Verif.Spec

theorem rne_near {y : ℝ} {m : ℤ} (h : |y - m| < 1 / 2) : rne y = m := by
  rw [abs_lt] at h
  rcases le_or_gt (m : ℝ) y with hm | hm
  · have hf : ⌊y⌋ = m := by rw [Int.floor_eq_iff]; constructor <;> linarith
    unfold rne
    rw [hf, if_pos (by linarith)]
  · have hf : ⌊y⌋ = m - 1 := by rw [Int.floor_eq_iff]; push_cast; constructor <;> linarith
    unfold rne
    rw [hf, if_neg (by push_cast; linarith), if_pos (by push_cast; linarith)]
    ring

theorem rne_tie {y : ℝ} {m : ℤ} (h : |y - m| = 1 / 2) (he : Even m) : rne y = m := by
  rcases (abs_eq (by norm_num)).1 h with h | h
  · have hf : ⌊y⌋ = m := by rw [Int.floor_eq_iff]; constructor <;> linarith
    unfold rne
    rw [hf, if_neg (by linarith), if_neg (by linarith), if_pos he]
  · have hf : ⌊y⌋ = m - 1 := by rw [Int.floor_eq_iff]; push_cast; constructor <;> linarith
    unfold rne
    rw [hf, if_neg (by push_cast; linarith), if_neg (by push_cast; linarith), if_neg]
    · ring
    · rw [Int.even_sub_one]; exact fun h => h he

/-- How to compute `rnd x`: with the exponent `e` of `x` and the nearest integer multiple `m` of `2 ^ (e - 52)`. -/
theorem rnd_value {x : ℝ} (e m : ℤ) (h1 : 2 ^ e ≤ x) (h2 : x < 2 ^ (e + 1))
    (h : |x / 2 ^ (e - 52) - m| < 1 / 2 ∨ |x / 2 ^ (e - 52) - m| = 1 / 2 ∧ Even m) : rnd x = m * 2 ^ (e - 52) := by
  have hx : 0 < x := lt_of_lt_of_le (by positivity) h1
  have hlog : Int.log 2 |x| = e := by
    rw [abs_of_pos hx]
    have l1 : Int.log 2 x < e + 1 := by
      rw [← Int.lt_zpow_iff_log_lt (by norm_num) hx]; exact_mod_cast h2
    have l2 : e ≤ Int.log 2 x := by
      rw [← Int.zpow_le_iff_le_log (by norm_num) hx]; exact_mod_cast h1
    omega
  unfold rnd ulp
  rw [hlog]
  congr 1
  rcases h with h | ⟨h, he⟩
  · rw [rne_near h]
  · rw [rne_tie h he]

example : rnd (2 ^ 53 + 1) = 2 ^ 53 := by
  rw [rnd_value 53 (2 ^ 52) (by norm_num) (by norm_num) (.inr ⟨by norm_num, ⟨2 ^ 51, by norm_num⟩⟩)]
  norm_num

end Verif.Spec
