import Mathlib.Data.Int.Log
import Mathlib.Algebra.Order.Round
import Mathlib.Algebra.Ring.Int.Parity
import Mathlib.Data.Real.Archimedean
import Mathlib.Algebra.Order.Field.Power
import Mathlib.Data.Nat.Prime.Int
import Mathlib.Tactic.Linarith
import Mathlib.Tactic.Positivity
import Mathlib.Tactic.FieldSimp
import Mathlib.Tactic.NormNum

/-!
Rounding of real numbers. Theorems about rounded arithmetic are stated for every function with the properties `Rounding ε`; `rnd`, rounding to
53 significant binary digits with ties to even, is the rounding of IEEE 754 binary64 without underflow and overflow and has these properties.
-/
namespace Verif.Spec

/-- What the theorems use about rounding: relative error at most `ε`, monotone, odd, and rounded numbers stay. -/
structure Rounding (ε : ℝ) (fl : ℝ → ℝ) : Prop where
  nonneg : 0 ≤ ε
  lt_one : ε < 1
  rel : ∀ x, |fl x - x| ≤ ε * |x|
  mono : Monotone fl
  odd : ∀ x, fl (-x) = -fl x
  idem : ∀ x, fl (fl x) = fl x

/-- The nearest integer, the even one of two. -/
noncomputable def rne (y : ℝ) : ℤ :=
  if y - ⌊y⌋ < 1 / 2 then ⌊y⌋ else if 1 / 2 < y - ⌊y⌋ then ⌊y⌋ + 1 else if Even ⌊y⌋ then ⌊y⌋ else ⌊y⌋ + 1

/-- Distance of the numbers with 53 binary digits near `x`. -/
noncomputable def ulp (x : ℝ) : ℝ := 2 ^ (Int.log 2 |x| - 52)

/-- Rounding to 53 binary digits. -/
noncomputable def rnd (x : ℝ) : ℝ := rne (x / ulp x) * ulp x

theorem rne_cases (y : ℝ) : rne y = ⌊y⌋ ∨ rne y = ⌊y⌋ + 1 := by
  unfold rne; split_ifs <;> simp

theorem rne_close (y : ℝ) : |(rne y : ℝ) - y| ≤ 1 / 2 := by
  have h1 := Int.floor_le y
  have h2 := Int.lt_floor_add_one y
  unfold rne
  split_ifs <;> push_cast <;> rw [abs_le] <;> constructor <;> linarith

theorem rne_int (n : ℤ) : rne n = n := by
  unfold rne; simp

theorem rne_mono : Monotone rne := by
  intro y z hyz
  rcases (Int.floor_mono hyz).eq_or_lt with h | h
  · unfold rne
    rw [← h]
    split_ifs <;> first | omega | (exfalso; linarith)
  · have h1 := rne_cases y
    have h2 := rne_cases z
    omega

theorem rne_neg (y : ℝ) : rne (-y) = -rne y := by
  have h1 := Int.floor_le y
  have h2 := Int.lt_floor_add_one y
  by_cases hi : y = ⌊y⌋
  · rw [hi, show -((⌊y⌋ : ℤ) : ℝ) = ((-⌊y⌋ : ℤ) : ℝ) by push_cast; rfl, rne_int, rne_int]
  have h3 : (⌊y⌋ : ℝ) < y := lt_of_le_of_ne h1 (Ne.symm hi)
  have hf : ⌊-y⌋ = -⌊y⌋ - 1 := by
    rw [Int.floor_eq_iff]; push_cast; constructor <;> linarith
  unfold rne
  rw [hf]
  push_cast
  have hp : Even (-⌊y⌋ - 1) ↔ ¬ Even ⌊y⌋ := by
    rw [Int.even_sub, even_neg]; simp
  simp only [hp]
  split_ifs <;> first | omega | (exfalso; linarith)

theorem ulp_pos (x : ℝ) : 0 < ulp x := by unfold ulp; positivity

theorem ulp_neg (x : ℝ) : ulp (-x) = ulp x := by unfold ulp; rw [abs_neg]

theorem rnd_zero : rnd 0 = 0 := by
  unfold rnd
  rw [zero_div, show rne 0 = 0 from mod_cast rne_int 0]
  simp

theorem rnd_neg (x : ℝ) : rnd (-x) = -rnd x := by
  unfold rnd
  rw [ulp_neg, neg_div, rne_neg]
  push_cast
  ring

theorem zpow_split (e : ℤ) (k : ℕ) : (2 : ℝ) ^ e = 2 ^ k * 2 ^ (e - k) := by
  rw [← zpow_natCast, ← zpow_add₀ two_ne_zero]
  congr 1
  ring

theorem le_ulp {x : ℝ} (hx : x ≠ 0) : 2 ^ 52 * ulp x ≤ |x| := by
  have := Int.zpow_log_le_self (b := 2) (r := |x|) (by norm_num) (abs_pos.2 hx)
  rw [Nat.cast_ofNat, zpow_split _ 52] at this
  exact this

theorem lt_ulp (x : ℝ) : |x| < 2 ^ 53 * ulp x := by
  have := Int.lt_zpow_succ_log_self (b := 2) (by norm_num) |x|
  rw [Nat.cast_ofNat, zpow_split _ 53, show Int.log 2 |x| + 1 - ((53 : ℕ) : ℤ) = Int.log 2 |x| - 52 by push_cast; ring] at this
  exact this

theorem rnd_rel (x : ℝ) : |rnd x - x| ≤ 2⁻¹ ^ 53 * |x| := by
  rcases eq_or_ne x 0 with rfl | hx
  · simp [rnd_zero]
  have hu := ulp_pos x
  have h1 : |rnd x - x| ≤ 1 / 2 * ulp x := by
    have : rnd x - x = (rne (x / ulp x) - x / ulp x) * ulp x := by
      unfold rnd; rw [sub_mul, div_mul_cancel₀ _ hu.ne']
    rw [this, abs_mul, abs_of_pos hu]
    exact mul_le_mul_of_nonneg_right (rne_close _) hu.le
  have h2 := le_ulp hx
  refine h1.trans ?_
  norm_num at h2 ⊢
  linarith

theorem rnd_nonneg {x : ℝ} (hx : 0 ≤ x) : 0 ≤ rnd x := by
  have : (0 : ℤ) ≤ rne (x / ulp x) := by
    rw [← rne_int 0]
    exact rne_mono (by push_cast; exact div_nonneg hx (ulp_pos x).le)
  exact mul_nonneg (by exact_mod_cast this) (ulp_pos x).le

/-- Multiples of the unit are not changed. -/
theorem rnd_mul_ulp {x : ℝ} (m : ℤ) (h : x = m * ulp x) : rnd x = x := by
  unfold rnd
  have : x / ulp x = m := by rw [div_eq_iff (ulp_pos x).ne']; exact h
  rw [this, rne_int, ← h]

/-- Numbers with at most 53 binary digits are not changed. -/
theorem rnd_rep (m k : ℤ) (hm : |m| ≤ 2 ^ 53) : rnd (m * 2 ^ k) = m * 2 ^ k := by
  rcases eq_or_ne m 0 with rfl | h0
  · simp [rnd_zero]
  set x : ℝ := m * 2 ^ k with hx
  have hx0 : x ≠ 0 := mul_ne_zero (by exact_mod_cast h0) (by positivity)
  have habs : |x| = |(m : ℝ)| * 2 ^ k := by rw [hx, abs_mul, abs_of_pos (by positivity : (0 : ℝ) < 2 ^ k)]
  have hm' : |(m : ℝ)| ≤ 2 ^ 53 := by
    have : ((|m| : ℤ) : ℝ) ≤ ((2 ^ 53 : ℤ) : ℝ) := by exact_mod_cast hm
    norm_num at this ⊢
    exact this
  -- the exponent of `x`
  rcases hm'.eq_or_lt with he | hlt
  · -- a power of two
    have hlog : Int.log 2 |x| = k + 53 := by
      have : |x| = ((2 : ℕ) : ℝ) ^ (k + 53) := by
        rw [habs, he, zpow_add₀ (by norm_num)]; push_cast; rw [mul_comm]; norm_cast
      rw [this, Int.log_zpow (by norm_num)]
    have hu : ulp x = 2 * 2 ^ k := by
      unfold ulp; rw [hlog, show k + 53 - 52 = 1 + k by ring, zpow_add₀ two_ne_zero, zpow_one]
    have hm2 : |m| = 2 ^ 53 := by
      have : ((|m| : ℤ) : ℝ) = ((2 ^ 53 : ℤ) : ℝ) := by norm_num at he ⊢; exact he
      exact_mod_cast this
    obtain ⟨m', hm'⟩ : (2 : ℤ) ∣ m := by
      rw [← dvd_abs, hm2]; norm_num
    refine rnd_mul_ulp m' ?_
    rw [hu, hx, hm']; push_cast; ring
  · have hle : Int.log 2 |x| ≤ k + 52 := by
      have : |x| < ((2 : ℕ) : ℝ) ^ (k + 53) := by
        rw [habs, zpow_add₀ (by norm_num), mul_comm]
        push_cast
        exact mul_lt_mul_of_pos_left (by exact_mod_cast hlt) (by positivity)
      have := (Int.lt_zpow_iff_log_lt (by norm_num) (abs_pos.2 hx0)).1 this
      omega
    obtain ⟨j, hj⟩ : ∃ j : ℕ, k = Int.log 2 |x| - 52 + j := ⟨(k - (Int.log 2 |x| - 52)).toNat, by omega⟩
    refine rnd_mul_ulp (m * 2 ^ j) ?_
    unfold ulp
    rw [hx] at hj ⊢
    push_cast
    rw [mul_assoc, ← zpow_natCast, ← zpow_add₀ two_ne_zero, add_comm (j : ℤ), ← hj]

/-- Rounded numbers have at most 53 binary digits. -/
theorem rnd_form (x : ℝ) : ∃ m k : ℤ, |m| ≤ 2 ^ 53 ∧ rnd x = m * 2 ^ k := by
  refine ⟨rne (x / ulp x), Int.log 2 |x| - 52, ?_, rfl⟩
  have h := lt_ulp x
  have hu := ulp_pos x
  have h1 : |x / ulp x| ≤ (2 ^ 53 : ℤ) := by
    rw [abs_div, abs_of_pos hu, div_le_iff₀ hu]; norm_num at h ⊢; exact h.le
  obtain ⟨l, r⟩ := abs_le.1 h1
  rw [abs_le]
  constructor
  · rw [← rne_int (-2 ^ 53)]; exact rne_mono (by push_cast at l ⊢; exact l)
  · rw [← rne_int (2 ^ 53)]; exact rne_mono (by push_cast at r ⊢; exact r)

theorem rnd_idem (x : ℝ) : rnd (rnd x) = rnd x := by
  obtain ⟨m, k, hm, e⟩ := rnd_form x
  rw [e, rnd_rep m k hm]

theorem rnd_mono_pos {x y : ℝ} (hx : 0 < x) (hxy : x ≤ y) : rnd x ≤ rnd y := by
  have hy : 0 < y := hx.trans_le hxy
  have hlog : Int.log 2 |x| ≤ Int.log 2 |y| := by
    rw [abs_of_pos hx, abs_of_pos hy]; exact Int.log_mono_right hx hxy
  rcases hlog.eq_or_lt with h | h
  · have hu : ulp x = ulp y := by unfold ulp; rw [h]
    unfold rnd
    rw [hu]
    refine mul_le_mul_of_nonneg_right ?_ (ulp_pos y).le
    exact_mod_cast rne_mono (div_le_div_of_nonneg_right hxy (ulp_pos y).le)
  · have h1 : rnd x ≤ 2 ^ 53 * ulp x := by
      unfold rnd
      refine mul_le_mul_of_nonneg_right ?_ (ulp_pos x).le
      have : rne (x / ulp x) ≤ 2 ^ 53 := by
        rw [← rne_int (2 ^ 53)]
        refine rne_mono ?_
        rw [div_le_iff₀ (ulp_pos x)]
        have h := lt_ulp x
        rw [abs_of_pos hx] at h
        norm_num at h ⊢
        exact h.le
      exact_mod_cast this
    have h2 : 2 ^ 52 * ulp y ≤ rnd y := by
      unfold rnd
      refine mul_le_mul_of_nonneg_right ?_ (ulp_pos y).le
      have : 2 ^ 52 ≤ rne (y / ulp y) := by
        rw [← rne_int (2 ^ 52)]
        refine rne_mono ?_
        rw [le_div_iff₀ (ulp_pos y)]
        have := le_ulp hy.ne'
        rw [abs_of_pos hy] at this
        norm_num at this ⊢
        exact this
      exact_mod_cast this
    have h3 : 2 * ulp x ≤ ulp y := by
      unfold ulp
      rw [show (2 : ℝ) * 2 ^ (Int.log 2 |x| - 52) = 2 ^ (Int.log 2 |x| - 52 + 1) by rw [zpow_add₀ two_ne_zero, zpow_one, mul_comm]]
      exact zpow_le_zpow_right₀ (by norm_num) (by omega)
    refine h1.trans (le_trans ?_ h2)
    have : (2 : ℝ) ^ 53 * ulp x = 2 ^ 52 * (2 * ulp x) := by ring
    rw [this]
    exact mul_le_mul_of_nonneg_left h3 (by positivity)

theorem rnd_mono : Monotone rnd := by
  intro x y hxy
  rcases lt_trichotomy x 0 with hx | rfl | hx
  · rcases le_or_gt 0 y with hy | hy
    · have h1 := rnd_nonneg (x := -x) (by linarith)
      rw [rnd_neg] at h1
      linarith [rnd_nonneg hy]
    · have := rnd_mono_pos (x := -y) (y := -x) (by linarith) (by linarith)
      rw [rnd_neg, rnd_neg] at this
      linarith
  · rw [rnd_zero]; exact rnd_nonneg hxy
  · exact rnd_mono_pos hx hxy

/-- The rounding of binary64 numbers. -/
theorem rnd_rounding : Rounding (2⁻¹ ^ 53) rnd where
  nonneg := by positivity
  lt_one := by norm_num
  rel := rnd_rel
  mono := rnd_mono
  odd := rnd_neg
  idem := rnd_idem

/-- Integers up to `2^53` are not changed. -/
theorem rnd_int (m : ℤ) (hm : |m| ≤ 2 ^ 53) : rnd m = m := by
  have := rnd_rep m 0 hm
  simpa using this

/-- One third has no finite binary expansion. -/
example : rnd (1 / 3) ≠ 1 / 3 := by
  intro h
  obtain ⟨m, k, -, e⟩ := rnd_form (1 / 3)
  rw [h] at e
  have : (3 : ℝ) * m * 2 ^ k = 1 := by linarith
  rcases le_or_gt 0 k with hk | hk
  · obtain ⟨j, rfl⟩ := Int.eq_ofNat_of_zero_le hk
    have h2 : (3 : ℤ) * m * 2 ^ j = 1 := by exact_mod_cast this
    have : (3 : ℤ) ∣ 1 := ⟨m * 2 ^ j, by rw [← h2]; ring⟩
    norm_num at this
  · obtain ⟨j, hj⟩ := Int.eq_ofNat_of_zero_le (show 0 ≤ -k by omega)
    have hk' : k = -(j : ℤ) := by omega
    rw [hk', zpow_neg, zpow_natCast] at this
    have h2 : (3 : ℝ) * m = 2 ^ j := by
      field_simp at this
      linarith
    have h3 : (3 : ℤ) * m = 2 ^ j := by exact_mod_cast h2
    have h4 : (3 : ℤ) ∣ 2 ^ j := ⟨m, h3.symm⟩
    have h5 : (3 : ℤ) ∣ 2 := Int.prime_three.dvd_of_dvd_pow h4
    norm_num at h5

end Verif.Spec
