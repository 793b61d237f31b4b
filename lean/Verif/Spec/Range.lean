import Verif.Lemmas.Rnd
import Verif.Model.PointOps

/-!
Rounding to binary64 numbers with their range: gradual underflow below `2^-1022` and overflow to the infinities from `2^1024` on.
-/
namespace Verif.Spec

open Verif Verif.Model

/-- Distance of the binary64 numbers near `x`: not less than `2^-1074`. -/
noncomputable def ulpS (x : ℝ) : ℝ := max (ulp x) (2 ^ (-1074 : ℤ))

/-- Rounding to binary64 numbers with gradual underflow, without overflow. -/
noncomputable def rndS (x : ℝ) : ℝ := rne (x / ulpS x) * ulpS x

/-- Rounding of a real number to a binary64 value. -/
noncomputable def rnd64 (x : ℝ) : Val ℝ := if 2 ^ 1024 ≤ |rndS x| then Val.infOfSign x else .fin (rndS x)

theorem ulpS_pos (x : ℝ) : 0 < ulpS x := lt_of_lt_of_le (ulp_pos x) (le_max_left _ _)

theorem two_zpow_le {a b : ℤ} : (2 : ℝ) ^ a ≤ 2 ^ b ↔ a ≤ b := zpow_le_zpow_iff_right₀ (by norm_num)

theorem log_ge {x : ℝ} {e : ℤ} (h : 2 ^ e ≤ |x|) : e ≤ Int.log 2 |x| := by
  rw [← Int.zpow_le_iff_le_log (by norm_num) (lt_of_lt_of_le (by positivity) h)]; exact_mod_cast h

theorem log_lt {x : ℝ} {e : ℤ} (hx : x ≠ 0) (h : |x| < 2 ^ e) : Int.log 2 |x| < e := by
  rw [← Int.lt_zpow_iff_log_lt (by norm_num) (abs_pos.2 hx)]; exact_mod_cast h

theorem ulpS_normal {x : ℝ} (h : 2 ^ (-1022 : ℤ) ≤ |x|) : ulpS x = ulp x := by
  unfold ulpS
  refine max_eq_left ?_
  unfold ulp
  rw [two_zpow_le]
  have := log_ge h
  omega

theorem ulpS_small {x : ℝ} (h : |x| < 2 ^ (-1022 : ℤ)) : ulpS x = 2 ^ (-1074 : ℤ) ∨ x = 0 := by
  rcases eq_or_ne x 0 with rfl | hx
  · exact .inr rfl
  left
  unfold ulpS
  refine max_eq_right ?_
  unfold ulp
  rw [two_zpow_le]
  have := log_lt hx h
  omega

theorem rndS_normal {x : ℝ} (h : 2 ^ (-1022 : ℤ) ≤ |x|) : rndS x = rnd x := by
  unfold rndS rnd
  rw [ulpS_normal h]

theorem rndS_small {x : ℝ} (h : |x| < 2 ^ (-1022 : ℤ)) : rndS x = rne (x / 2 ^ (-1074 : ℤ)) * 2 ^ (-1074 : ℤ) := by
  unfold rndS
  rcases ulpS_small h with e | rfl
  · rw [e]
  · have : rne 0 = 0 := mod_cast rne_int 0
    rw [zero_div, zero_div, this]; simp

theorem rndS_zero : rndS 0 = 0 := by
  rw [rndS_small (by rw [abs_zero]; positivity), zero_div, show rne 0 = 0 from mod_cast rne_int 0]
  simp

theorem rndS_neg (x : ℝ) : rndS (-x) = -rndS x := by
  unfold rndS
  rw [show ulpS (-x) = ulpS x by unfold ulpS; rw [ulp_neg], neg_div, rne_neg]
  push_cast
  ring

/-- Binary64 numbers are multiples of `2^-1074`. -/
theorem rndS_multiple (x : ℝ) : ∃ m : ℤ, rndS x = m * 2 ^ (-1074 : ℤ) := by
  rcases lt_or_ge |x| (2 ^ (-1022 : ℤ)) with h | h
  · exact ⟨_, rndS_small h⟩
  · have := log_ge h
    obtain ⟨j, hj⟩ : ∃ j : ℕ, Int.log 2 |x| - 52 = -1074 + j := ⟨(Int.log 2 |x| - 52 + 1074).toNat, by omega⟩
    refine ⟨rne (x / ulp x) * 2 ^ j, ?_⟩
    rw [rndS_normal h]
    unfold rnd
    conv_lhs => arg 2; unfold ulp
    rw [hj, zpow_add₀ two_ne_zero, zpow_natCast]
    push_cast
    ring

/-- Multiples of `2^-1074` in the range of gradual underflow are not changed. -/
theorem rndS_exact {x : ℝ} {m : ℤ} (h : |x| < 2 ^ (-1022 : ℤ)) (hm : x = m * 2 ^ (-1074 : ℤ)) : rndS x = x := by
  rw [rndS_small h]
  have : x / 2 ^ (-1074 : ℤ) = m := by rw [hm]; exact mul_div_cancel_right₀ _ (by positivity)
  rw [this, rne_int, ← hm]

/-- The error: relative, or at most half the smallest positive number. -/
theorem rndS_err (x : ℝ) : |rndS x - x| ≤ 2⁻¹ ^ 53 * |x| ∨ |rndS x - x| ≤ 2 ^ (-1075 : ℤ) := by
  rcases lt_or_ge |x| (2 ^ (-1022 : ℤ)) with h | h
  · right
    rw [rndS_small h]
    have hu : (0 : ℝ) < 2 ^ (-1074 : ℤ) := by positivity
    have : (rne (x / 2 ^ (-1074 : ℤ)) : ℝ) * 2 ^ (-1074 : ℤ) - x = (rne (x / 2 ^ (-1074 : ℤ)) - x / 2 ^ (-1074 : ℤ)) * 2 ^ (-1074 : ℤ) := by
      rw [sub_mul, div_mul_cancel₀ _ hu.ne']
    rw [this, abs_mul, abs_of_pos hu, show (2 : ℝ) ^ (-1075 : ℤ) = 1 / 2 * 2 ^ (-1074 : ℤ) by
      rw [show (-1075 : ℤ) = -1 + -1074 by norm_num, zpow_add₀ two_ne_zero]; norm_num]
    exact mul_le_mul_of_nonneg_right (rne_close _) hu.le
  · left
    rw [rndS_normal h]
    exact rnd_rel x

/-- Differences of binary64 numbers have a relative error: they cannot underflow. -/
theorem rndS_sub {x y : ℝ} (hx : rndS x = x) (hy : rndS y = y) : |rndS (y - x) - (y - x)| ≤ 2⁻¹ ^ 53 * |y - x| := by
  rcases lt_or_ge |y - x| (2 ^ (-1022 : ℤ)) with h | h
  · obtain ⟨m, hm⟩ := rndS_multiple x
    obtain ⟨k, hk⟩ := rndS_multiple y
    rw [rndS_exact (m := k - m) h (by rw [← hx, ← hy, hm, hk]; push_cast; ring), sub_self, abs_zero]
    positivity
  · rw [rndS_normal h]
    exact rnd_rel _

theorem rndS_le_of_small {x : ℝ} (h : |x| < 2 ^ (-1022 : ℤ)) : |rndS x| ≤ 2 ^ (-1022 : ℤ) := by
  have e : (2 : ℝ) ^ (-1022 : ℤ) = 2 ^ 52 * 2 ^ (-1074 : ℤ) := by
    rw [show (-1022 : ℤ) = 52 + -1074 by norm_num, zpow_add₀ two_ne_zero]; norm_cast
  have hu : (0 : ℝ) < 2 ^ (-1074 : ℤ) := by positivity
  have key : ∀ {y : ℝ}, y < 2 ^ (-1022 : ℤ) → (rne (y / 2 ^ (-1074 : ℤ)) : ℝ) * 2 ^ (-1074 : ℤ) ≤ 2 ^ (-1022 : ℤ) := by
    intro y hy
    rw [e] at hy ⊢
    refine mul_le_mul_of_nonneg_right ?_ hu.le
    have : rne (y / 2 ^ (-1074 : ℤ)) ≤ 2 ^ 52 := by
      rw [← rne_int (2 ^ 52)]
      refine rne_mono ?_
      rw [div_le_iff₀ hu]
      exact hy.le.trans (by norm_num)
    exact_mod_cast this
  rw [abs_lt] at h
  rw [abs_le]
  constructor
  · have := key (y := -x) (by linarith [h.1])
    rw [neg_div, rne_neg] at this
    rw [rndS_small (abs_lt.2 h)]
    push_cast at this
    linarith
  · rw [rndS_small (abs_lt.2 h)]
    exact key h.2

theorem rndS_nonneg {x : ℝ} (hx : 0 ≤ x) : 0 ≤ rndS x := by
  have : (0 : ℤ) ≤ rne (x / ulpS x) := by
    rw [← rne_int 0]
    exact rne_mono (by push_cast; exact div_nonneg hx (ulpS_pos x).le)
  exact mul_nonneg (by exact_mod_cast this) (ulpS_pos x).le

theorem rnd_two_pow (k : ℤ) : rnd (2 ^ k) = 2 ^ k := by
  have := rnd_rep 1 k (by norm_num)
  simpa using this

theorem rndS_two_pow {k : ℤ} (h : -1022 ≤ k) : rndS (2 ^ k) = 2 ^ k := by
  rw [rndS_normal (by rw [abs_of_pos (by positivity)]; exact two_zpow_le.2 h), rnd_two_pow]

theorem rndS_mono_pos {x y : ℝ} (hx : 0 ≤ x) (hxy : x ≤ y) : rndS x ≤ rndS y := by
  have hy := hx.trans hxy
  rcases lt_or_ge |y| (2 ^ (-1022 : ℤ)) with h | h
  · rw [rndS_small h, rndS_small (by rw [abs_of_nonneg hx]; rw [abs_of_nonneg hy] at h; linarith)]
    refine mul_le_mul_of_nonneg_right ?_ (by positivity)
    exact_mod_cast rne_mono (div_le_div_of_nonneg_right hxy (by positivity))
  · rw [rndS_normal h]
    rcases lt_or_ge |x| (2 ^ (-1022 : ℤ)) with h' | h'
    · refine (le_abs_self _).trans ((rndS_le_of_small h').trans ?_)
      rw [← rnd_two_pow]
      rw [abs_of_nonneg hy] at h
      exact rnd_mono h
    · rw [rndS_normal h']
      exact rnd_mono hxy

theorem rndS_mono : Monotone rndS := by
  intro x y hxy
  rcases le_total 0 x with hx | hx
  · exact rndS_mono_pos hx hxy
  · rcases le_total 0 y with hy | hy
    · have := rndS_nonneg (x := -x) (by linarith)
      rw [rndS_neg] at this
      linarith [rndS_nonneg hy]
    · have := rndS_mono_pos (x := -y) (y := -x) (by linarith) (by linarith)
      rw [rndS_neg, rndS_neg] at this
      linarith

/-- Rounded numbers stay. -/
theorem rndS_idem (x : ℝ) : rndS (rndS x) = rndS x := by
  rcases lt_or_ge |rndS x| (2 ^ (-1022 : ℤ)) with h | h
  · obtain ⟨m, hm⟩ := rndS_multiple x
    exact rndS_exact h hm
  · rcases lt_or_ge |x| (2 ^ (-1022 : ℤ)) with h' | h'
    · have e := le_antisymm (rndS_le_of_small h') h
      rcases (abs_eq (by positivity)).1 e with e | e
      · rw [e, rndS_two_pow le_rfl]
      · rw [e, rndS_neg, rndS_two_pow le_rfl]
    · rw [rndS_normal h, rndS_normal h', rnd_idem]

/-- What stays below `2^1023` is finite. -/
theorem rnd64_fin {x : ℝ} (h : |x| ≤ 2 ^ 1023) : rnd64 x = .fin (rndS x) := by
  have e : rndS (2 ^ 1023) = 2 ^ 1023 := by exact_mod_cast rndS_two_pow (k := 1023) (by norm_num)
  have : |rndS x| ≤ 2 ^ 1023 := by
    rw [abs_le] at h ⊢
    constructor
    · have := rndS_mono h.1
      rw [rndS_neg, e] at this
      exact this
    · have := rndS_mono h.2
      rwa [e] at this
  unfold rnd64
  rw [if_neg]
  have h3 : (0 : ℝ) < 2 ^ 1023 := by positivity
  rw [show (2 : ℝ) ^ 1024 = 2 * 2 ^ 1023 from pow_succ' 2 1023]
  generalize (2 : ℝ) ^ 1023 = z at this h3
  linarith

example : rnd64 (2 ^ 1024) = .pinf := by
  unfold rnd64
  have e : rndS (2 ^ 1024) = 2 ^ 1024 := by exact_mod_cast rndS_two_pow (k := 1024) (by norm_num)
  rw [e, if_pos (le_abs_self _)]
  unfold Val.infOfSign
  rw [if_pos (by positivity)]

end Verif.Spec
