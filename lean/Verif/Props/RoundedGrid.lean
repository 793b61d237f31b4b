import Verif.Props.Rounded
import Verif.Model.Curves
import Verif.Lemmas.Interp

/-!
C120 and C121: uniform grids, points of segments and linear interpolation in rounded arithmetic.
-/
namespace Verif.Spec

/-- The test of `InterpolatorBase._get_interp_grid` (_interpolate.py 351-355) in rounded arithmetic: no difference is negative or
close to zero. -/
def AcceptedFl (fl : ℝ → ℝ) (xs : List ℝ) : Prop :=
  ∀ (i : Nat) (x y : ℝ), xs[i]? = some x → xs[i + 1]? = some y → ¬ fl (y - x) < 0 ∧ ¬ |fl (y - x)| ≤ fl (1 / 10 ^ 8)

end Verif.Spec

namespace Verif.Props

open Verif Verif.Np Verif.Model Verif.Spec

section
variable {ε : ℝ} {fl : ℝ → ℝ} (hf : Rounding ε fl)
include hf

theorem fl_eq_zero {x : ℝ} : fl x = 0 ↔ x = 0 := by
  constructor
  · intro h
    have := hf.rel x
    rw [h, zero_sub, abs_neg] at this
    have h1 := hf.lt_one
    have h2 := abs_nonneg x
    by_contra hx
    have : 0 < |x| := abs_pos.2 hx
    nlinarith
  · rintro rfl; exact fl_zero hf

omit hf in
theorem RelErr.mul {k : Nat} {x z c : ℝ} (h : RelErr ε k x z) (hc : 0 ≤ c) : RelErr ε k (c * x) (c * z) := by
  constructor
  · rw [mul_left_comm]; exact mul_le_mul_of_nonneg_left h.1 hc
  · rw [mul_left_comm]; exact mul_le_mul_of_nonneg_left h.2 hc

/-- The products of the entries of a grid. -/
theorem lin_rel {a b : ℝ} (hab : a ≤ b) {n : Nat} (hn : 1 < n) (i : Nat) :
    RelErr ε 3 (i * ((b - a) / ((n : ℝ) - 1))) (fl (i * fl (fl (b - a) / ((n : ℝ) - 1)))) := by
  have hd : (0 : ℝ) < (n : ℝ) - 1 := by
    have : (1 : ℝ) < n := by exact_mod_cast hn
    linarith
  have s0 : 0 ≤ b - a := by linarith
  have r1 := (fl_rel hf s0).mul (c := ((n : ℝ) - 1)⁻¹) (by positivity)
  rw [inv_mul_eq_div, inv_mul_eq_div] at r1
  have p1 : 0 ≤ fl (b - a) / ((n : ℝ) - 1) := div_nonneg (fl_nonneg hf s0) hd.le
  have r2 := (r1.trans hf (fl_rel hf p1)).mul (c := (i : ℝ)) (by positivity)
  exact r2.trans hf (fl_rel hf (mul_nonneg (by positivity) (fl_nonneg hf p1)))

/-- Entries before the last one. -/
theorem lin_entry {a b : ℝ} (ha : fl a = a) {n : Nat} (hn : 1 < n) {i : Nat} (hi : i + 1 < n) :
    linspaceAtFl fl a b n i = fl (fl (i * fl (fl (b - a) / ((n : ℝ) - 1))) + a) := by
  have hd : (n : ℝ) - 1 ≠ 0 := by
    have : (1 : ℝ) < n := by exact_mod_cast hn
    linarith
  unfold linspaceAtFl
  rw [if_pos hn, if_neg (by omega)]
  simp only
  split
  · rename_i h0
    rw [h0]
    have h1 := (fl_eq_zero hf).1 h0
    have h2 : fl (b - a) = 0 := by
      rcases div_eq_zero_iff.1 h1 with h | h
      · exact h
      · exact absurd h hd
    rw [h2, mul_zero, mul_zero, fl_zero hf]
  · rfl

theorem lin_frac {n : Nat} (hε : 6 * (((n : ℝ) - 1) * ε) ≤ 1) {i : Nat} (hi : i + 1 < n) {s w : ℝ} (hs : 0 ≤ s)
    (hw : RelErr ε 3 (i * (s / ((n : ℝ) - 1))) w) : 0 ≤ w ∧ w ≤ s ∧ |w - i * (s / ((n : ℝ) - 1))| ≤ 6 * ε * s := by
  have e0 := hf.nonneg
  have hi' : (i : ℝ) + 1 ≤ (n : ℝ) - 1 := by
    have : (i : ℝ) + 1 + 1 ≤ n := by exact_mod_cast hi
    linarith
  have i0 : (0 : ℝ) ≤ i := Nat.cast_nonneg i
  have hd : (0 : ℝ) < (n : ℝ) - 1 := by linarith
  have hx : 0 ≤ i * (s / ((n : ℝ) - 1)) := by positivity
  have hε3 : 2 * ((3 : ℕ) * ε) ≤ 1 := by push_cast; nlinarith
  have hle : i * (s / ((n : ℝ) - 1)) ≤ s := by
    rw [mul_div_assoc', div_le_iff₀ hd]; nlinarith
  refine ⟨hw.nonneg hf hx, ?_, ?_⟩
  · refine hw.2.trans ?_
    have h1 := pow_one_add_le hf hε3
    push_cast at h1
    refine (mul_le_mul_of_nonneg_right h1 hx).trans ?_
    rw [mul_div_assoc', mul_div_assoc', div_le_iff₀ hd]
    have h2 : (1 + 2 * (3 * ε)) * i ≤ (n : ℝ) - 1 := by nlinarith
    nlinarith
  · have := rel_simple hf hw hx hε3
    push_cast at this
    nlinarith

end

/-! ## C120 -/

section
variable {ε : ℝ} {fl : ℝ → ℝ} {a b : ℝ} {n : Nat}

theorem linspaceFl_get (i : Nat) (hi : i < n) : (linspaceFl fl a b n)[i]? = some (linspaceAtFl fl a b n i) := by
  simp [linspaceFl, hi]

theorem lin_last (hn : 1 < n) : linspaceAtFl fl a b n (n - 1) = b := by
  unfold linspaceAtFl
  rw [if_pos hn, if_pos (by omega)]

/-- **C120 (grid).** `np.linspace(a, b, n)` in rounded arithmetic, for rounded numbers `a ≤ b` and at most `1 / (6 ε)` steps (1.5e15 for
binary64): `n` rounded numbers, the first is `a`, the last is `b`, all lie between them and they do not decrease; each differs from the
exact value by at most `ε` times the value plus `12 ε (b - a)`. -/
theorem C120_grid (hf : Rounding ε fl) (ha : fl a = a) (hb : fl b = b) (hab : a ≤ b) (hn : 1 < n) (hε : 6 * (((n : ℝ) - 1) * ε) ≤ 1) :
    (linspaceFl fl a b n).length = n ∧ (linspaceFl fl a b n)[0]? = some a ∧ (linspaceFl fl a b n)[n - 1]? = some b ∧
    (linspaceFl fl a b n).Pairwise (· ≤ ·) ∧ (∀ x ∈ linspaceFl fl a b n, a ≤ x ∧ x ≤ b ∧ fl x = x) ∧
    ∀ (i : Nat) (x : ℝ), (linspaceFl fl a b n)[i]? = some x →
      |x - (a + i * ((b - a) / ((n : ℝ) - 1)))| ≤ ε * |a + i * ((b - a) / ((n : ℝ) - 1))| + 12 * ε * (b - a) := by
  have e0 := hf.nonneg
  have e1 := hf.lt_one
  have s0 : 0 ≤ b - a := by linarith
  have hn1 : (1 : ℝ) < n := by exact_mod_cast hn
  have hd : (0 : ℝ) < (n : ℝ) - 1 := by linarith
  -- one entry
  have ent : ∀ i, i + 1 < n → a ≤ linspaceAtFl fl a b n i ∧ linspaceAtFl fl a b n i ≤ b ∧ fl (linspaceAtFl fl a b n i) = linspaceAtFl fl a b n i ∧
      |linspaceAtFl fl a b n i - (a + i * ((b - a) / ((n : ℝ) - 1)))| ≤ ε * |a + i * ((b - a) / ((n : ℝ) - 1))| + 12 * ε * (b - a) := by
    intro i hi
    obtain ⟨w0, w1, w2⟩ := lin_frac hf hε hi s0 (lin_rel hf hab hn i)
    rw [lin_entry hf ha hn hi]
    generalize fl (i * fl (fl (b - a) / ((n : ℝ) - 1))) = w at w0 w1 w2
    refine ⟨?_, ?_, hf.idem _, ?_⟩
    · have : fl a ≤ fl (w + a) := hf.mono (by linarith)
      rwa [ha] at this
    · have : fl (w + a) ≤ fl b := hf.mono (by linarith)
      rwa [hb] at this
    · have h1 := hf.rel (w + a)
      generalize hz : a + i * ((b - a) / ((n : ℝ) - 1)) = z
      have h2 : |w + a - z| ≤ 6 * ε * (b - a) := by rw [← hz]; convert w2 using 2; ring
      have h3 : |fl (w + a) - z| ≤ |fl (w + a) - (w + a)| + |w + a - z| := abs_sub_le _ _ _
      have h4 : |w + a| ≤ |z| + |w + a - z| := by
        have := abs_add_le z (w + a - z)
        rwa [show z + (w + a - z) = w + a by ring] at this
      nlinarith [mul_le_mul_of_nonneg_left h4 e0, mul_nonneg e0 s0, mul_nonneg (mul_nonneg e0 s0) (show 0 ≤ 1 - ε by linarith),
        mul_le_mul_of_nonneg_left h2 e0]
  have lst : linspaceAtFl fl a b n (n - 1) = b := lin_last hn
  have lt_or : ∀ i, i < n → i + 1 < n ∨ i = n - 1 := by intro i hi; omega
  refine ⟨by simp [linspaceFl], ?_, ?_, ?_, ?_, ?_⟩
  · rw [linspaceFl_get 0 (by omega), lin_entry hf ha hn (by omega)]
    simp [fl_zero hf, ha]
  · rw [linspaceFl_get _ (by omega), lst]
  · unfold linspaceFl
    rw [List.pairwise_map]
    rw [List.pairwise_iff_getElem]
    intro i j hi hj hij
    simp only [List.getElem_range, List.length_range] at hi hj ⊢
    rcases lt_or j hj with h | rfl
    · rw [lin_entry hf ha hn (by omega), lin_entry hf ha hn h]
      refine hf.mono (add_le_add_left (hf.mono ?_) a)
      refine mul_le_mul_of_nonneg_right (by exact_mod_cast hij.le) ?_
      exact fl_nonneg hf (div_nonneg (fl_nonneg hf s0) hd.le)
    · rw [lst]
      exact (ent i (by omega)).2.1
  · intro x hx
    obtain ⟨i, hi, rfl⟩ := List.mem_map.1 hx
    rcases lt_or i (List.mem_range.1 hi) with h | rfl
    · exact ⟨(ent i h).1, (ent i h).2.1, (ent i h).2.2.1⟩
    · rw [lst]; exact ⟨hab, le_rfl, hb⟩
  · intro i x hx
    have hi : i < n := by simpa [linspaceFl] using (List.getElem?_eq_some_iff.1 hx).1
    rw [linspaceFl_get i hi, Option.some.injEq] at hx
    subst hx
    rcases lt_or i hi with h | rfl
    · exact (ent i h).2.2.2
    · rw [lst, Nat.cast_sub hn.le, Nat.cast_one, mul_div_cancel₀ _ hd.ne']
      rw [show b - (a + (b - a)) = 0 by ring, abs_zero]
      positivity

/-- **C120 (accepted).** The grid is accepted if the step exceeds `1e-8` by more than the rounding errors. -/
theorem C120_accepted_partial (hf : Rounding ε fl) (ha : fl a = a) (hb : fl b = b) (hab : a ≤ b) (hn : 1 < n) (hε : 6 * (((n : ℝ) - 1) * ε) ≤ 1)
    (hs : (1 + ε) / 10 ^ 8 < (1 - ε) * ((b - a) / ((n : ℝ) - 1) - 2 * (ε * max |a| |b| + 12 * ε * (b - a)))) : AcceptedFl fl (linspaceFl fl a b n) := by
  obtain ⟨c1, -, -, -, -, c6⟩ := C120_grid hf ha hb hab hn hε
  have e0 := hf.nonneg
  have e1 := hf.lt_one
  have s0 : 0 ≤ b - a := by linarith
  have hn1 : (1 : ℝ) < n := by exact_mod_cast hn
  have hd : (0 : ℝ) < (n : ℝ) - 1 := by linarith
  intro i x y hx hy
  have hi : i + 1 < n := by
    have := (List.getElem?_eq_some_iff.1 hy).1
    rwa [c1] at this
  have bnd : ∀ j : ℕ, j < n → |a + j * ((b - a) / ((n : ℝ) - 1))| ≤ max |a| |b| := by
    intro j hj
    have hj' : (j : ℝ) ≤ (n : ℝ) - 1 := by
      have : (j : ℝ) + 1 ≤ n := by exact_mod_cast hj
      linarith
    have u : (j : ℝ) * ((b - a) / ((n : ℝ) - 1)) ≤ b - a := by
      rw [mul_div_assoc', div_le_iff₀ hd]; nlinarith
    have l : 0 ≤ (j : ℝ) * ((b - a) / ((n : ℝ) - 1)) := by positivity
    rw [abs_le]
    have m1 := le_max_left |a| |b|
    have m2 := le_max_right |a| |b|
    have := neg_abs_le a
    have := le_abs_self b
    constructor <;> linarith
  have k1 := c6 i x hx
  have k2 := c6 (i + 1) y hy
  have b1 := bnd i (by omega)
  have b2 := bnd (i + 1) hi
  push_cast at k2 b2
  set E := ε * max |a| |b| + 12 * ε * (b - a) with hE
  have q1 : |x - (a + i * ((b - a) / ((n : ℝ) - 1)))| ≤ E := k1.trans (by rw [hE]; nlinarith)
  have q2 : |y - (a + (i + 1) * ((b - a) / ((n : ℝ) - 1)))| ≤ E := k2.trans (by rw [hE]; nlinarith)
  have dd : (b - a) / ((n : ℝ) - 1) - 2 * E ≤ y - x := by
    have z1 := (abs_le.1 q1).2
    have z2 := (abs_le.1 q2).1
    nlinarith
  have pos : 0 < y - x := by
    have : (0 : ℝ) < (1 + ε) / 10 ^ 8 := by positivity
    have h3 := this.trans hs
    have := (pos_iff_pos_of_mul_pos h3).1 (by linarith : 0 < 1 - ε)
    linarith
  have r := (fl_rel hf pos.le).1
  rw [pow_one] at r
  have r2 := (fl_rel hf (by positivity : (0 : ℝ) ≤ 1 / 10 ^ 8)).2
  rw [pow_one] at r2
  have f0 := fl_nonneg hf pos.le
  refine ⟨not_lt.2 f0, ?_⟩
  rw [abs_of_nonneg f0, not_le]
  have := mul_le_mul_of_nonneg_left dd (by linarith : 0 ≤ 1 - ε)
  have h5 : (1 + ε) / 10 ^ 8 = (1 + ε) * (1 / 10 ^ 8) := by ring
  linarith

/-- `np.linspace` without rounding is the exact model. -/
theorem C120_exact (a b : ℝ) (n : Nat) : linspaceE a b n = .ok (linspaceFl id a b n) := by
  unfold linspaceE linspaceFl
  rw [if_neg (by omega)]
  simp only [Int.toNat_natCast]
  congr 1
  refine List.map_congr_left ?_
  intro i _
  unfold linspaceAtFl
  by_cases hn : 1 < n
  · have hd : (n : ℝ) - 1 ≠ 0 := by
      have : (1 : ℝ) < n := by exact_mod_cast hn
      linarith
    by_cases hi : i + 1 = n
    · rw [if_pos ⟨by exact_mod_cast hn, by exact_mod_cast hi⟩, if_pos hn, if_pos hi]
    · rw [if_neg (by rintro ⟨-, h⟩; exact hi (by exact_mod_cast h)), if_pos (by exact_mod_cast hn), if_pos hn, if_neg hi]
      simp only [id, Int.cast_natCast]
      split
      · rename_i h0
        rcases div_eq_zero_iff.1 h0 with h | h
        · rw [h]; simp
        · exact absurd h hd
      · rfl
  · rw [if_neg (by rintro ⟨h, -⟩; exact hn (by exact_mod_cast h)), if_neg (by intro h; exact hn (by exact_mod_cast h)), if_neg hn]
    rfl

theorem rnd_tie : rnd (2 ^ 53 + 1) = 2 ^ 53 := by
  have hlog : Int.log 2 |(2 ^ 53 + 1 : ℝ)| = 53 := by
    rw [abs_of_pos (by positivity)]
    have h1 : Int.log 2 (2 ^ 53 + 1 : ℝ) < 54 := by
      rw [← Int.lt_zpow_iff_log_lt (by norm_num) (by positivity)]
      norm_num
    have h2 : 53 ≤ Int.log 2 (2 ^ 53 + 1 : ℝ) := by
      rw [← Int.zpow_le_iff_le_log (by norm_num) (by positivity)]
      norm_num
    omega
  have hu : ulp (2 ^ 53 + 1) = 2 := by
    unfold ulp; rw [hlog]; norm_num
  unfold rnd
  rw [hu]
  have hfl : ⌊((2 : ℝ) ^ 53 + 1) / 2⌋ = 2 ^ 52 := by
    rw [Int.floor_eq_iff]; norm_num
  have : rne ((2 ^ 53 + 1 : ℝ) / 2) = 2 ^ 52 := by
    unfold rne
    rw [hfl, if_neg (by norm_num), if_neg (by norm_num), if_pos ⟨2 ^ 51, by norm_num⟩]
  rw [this]
  norm_num

/-- **C120 fails for fine grids far from zero.** The exact grid has steps of 1, the computed one repeats a value and is rejected. -/
theorem C120_accepted_fails : rnd (2 ^ 53) = 2 ^ 53 ∧ rnd (2 ^ 53 + 2) = 2 ^ 53 + 2 ∧ linspaceE (2 ^ 53) (2 ^ 53 + 2) 3 = .ok [2 ^ 53, 2 ^ 53 + 1, 2 ^ 53 + 2] ∧
    linspaceFl rnd (2 ^ 53) (2 ^ 53 + 2) 3 = [2 ^ 53, 2 ^ 53, 2 ^ 53 + 2] ∧ ¬ AcceptedFl rnd (linspaceFl rnd (2 ^ 53) (2 ^ 53 + 2) 3) := by
  have r1 : rnd (2 ^ 53) = 2 ^ 53 := by have := rnd_rep 1 53 (by norm_num); norm_num at this ⊢; exact this
  have r2 : rnd (2 ^ 53 + 2) = 2 ^ 53 + 2 := by have := rnd_rep (2 ^ 52 + 1) 1 (by norm_num); norm_num at this ⊢; exact this
  have r3 : rnd 2 = 2 := by have := rnd_int 2 (by norm_num); norm_num at this ⊢; exact this
  have r4 : rnd 1 = 1 := by have := rnd_int 1 (by norm_num); norm_num at this ⊢; exact this
  have e : linspaceFl rnd (2 ^ 53) (2 ^ 53 + 2) 3 = [2 ^ 53, 2 ^ 53, 2 ^ 53 + 2] := by
    have d : rnd (rnd ((2 ^ 53 + 2) - 2 ^ 53) / (((3 : ℕ) : ℝ) - 1)) = 1 := by
      rw [show ((2 : ℝ) ^ 53 + 2) - 2 ^ 53 = 2 by ring, r3, show (2 : ℝ) / (((3 : ℕ) : ℝ) - 1) = 1 by norm_num, r4]
    have l0 : linspaceAtFl rnd (2 ^ 53) (2 ^ 53 + 2) 3 0 = 2 ^ 53 := by
      rw [lin_entry rnd_rounding r1 (by norm_num) (by norm_num), d]
      simp only [Nat.cast_zero, zero_mul, rnd_zero, zero_add, r1]
    have l1 : linspaceAtFl rnd (2 ^ 53) (2 ^ 53 + 2) 3 1 = 2 ^ 53 := by
      rw [lin_entry rnd_rounding r1 (by norm_num) (by norm_num), d]
      rw [Nat.cast_one, one_mul, r4, add_comm, rnd_tie]
    have l2 : linspaceAtFl rnd (2 ^ 53) (2 ^ 53 + 2) 3 2 = 2 ^ 53 + 2 := lin_last (n := 3) (by norm_num)
    unfold linspaceFl
    simp only [List.range_succ, List.range_zero, List.nil_append, List.map_append, List.map_cons, List.map_nil, List.cons_append, l0, l1, l2]
  refine ⟨r1, r2, ?_, e, ?_⟩
  · unfold linspaceE
    rw [if_neg (by norm_num)]
    congr 1
    simp [show Int.toNat 3 = 3 from rfl, List.range_succ]
    norm_num
  · rw [e]
    intro h
    have := (h 0 _ _ rfl rfl).2
    rw [sub_self, rnd_zero, abs_zero] at this
    exact this (fl_nonneg rnd_rounding (by norm_num))

/-- A grid of a thousand steps from 0 to 1 in binary64. -/
example : AcceptedFl rnd (linspaceFl rnd 0 1 1001) := by
  have r4 : rnd 1 = 1 := by have := rnd_int 1 (by norm_num); norm_num at this ⊢; exact this
  exact C120_accepted_partial rnd_rounding rnd_zero r4 zero_le_one (by norm_num) (by norm_num) (by norm_num)

end

/-! ## C121 -/

section
variable {ε : ℝ} {fl : ℝ → ℝ}

/-- Relative error of numbers of any sign. -/
theorem rel_signed (hf : Rounding ε fl) {F : ℝ → ℝ} (hodd : ∀ x, F (-x) = -F x) {k : Nat} (hk : 2 * (k * ε) ≤ 1) {m : ℝ} (hm : 0 ≤ m)
    (h : ∀ x, 0 ≤ x → RelErr ε k (x * m) (F x)) (x : ℝ) : |F x - x * m| ≤ 2 * k * ε * |x * m| := by
  rcases le_total 0 x with hx | hx
  · have h0 : 0 ≤ x * m := mul_nonneg hx hm
    rw [abs_of_nonneg h0]
    exact rel_simple hf (h x hx) h0 hk
  · have h0 : 0 ≤ -x * m := mul_nonneg (by linarith) hm
    have := rel_simple hf (h (-x) (by linarith)) h0 hk
    have e : -x * m = |x * m| := by rw [← abs_of_nonneg h0, show -x * m = -(x * m) by ring, abs_neg]
    rw [hodd] at this
    conv_rhs at this => rw [e]
    rw [show -F x - -x * m = -(F x - x * m) by ring, abs_neg] at this
    exact this

/-- Adding a number of relative error `δ` and rounding. -/
theorem add_close (hf : Rounding ε fl) {y w F δ : ℝ} (hF : |F - w| ≤ δ * |w|) (hδ : 0 ≤ δ) : |fl (F + y) - (w + y)| ≤ ε * |w + y| + 2 * δ * |w| := by
  have e0 := hf.nonneg
  have e1 := hf.lt_one
  have h1 := hf.rel (F + y)
  have h3 : |fl (F + y) - (w + y)| ≤ |fl (F + y) - (F + y)| + |F + y - (w + y)| := abs_sub_le _ _ _
  have h2 : |F + y - (w + y)| = |F - w| := by congr 1; ring
  have h4 : |F + y| ≤ |w + y| + |F + y - (w + y)| := by
    have := abs_add_le (w + y) (F + y - (w + y))
    rwa [show w + y + (F + y - (w + y)) = F + y by ring] at this
  rw [h2] at h3 h4
  have := abs_nonneg w
  nlinarith [mul_le_mul_of_nonneg_left h4 e0, mul_le_mul_of_nonneg_left hF e0, mul_nonneg hδ this,
    mul_nonneg (mul_nonneg hδ this) (show 0 ≤ 1 - ε by linarith)]

theorem point_prod (hf : Rounding ε fl) (hε : 4 * ε ≤ 1) {t : ℝ} (ht : 0 ≤ t) (x : ℝ) : |fl (fl x * t) - x * t| ≤ 4 * ε * |x * t| := by
  have := rel_signed hf (F := fun x => fl (fl x * t)) (k := 2) (m := t) (by intro x; simp only [hf.odd]; rw [neg_mul, hf.odd]) (by push_cast; linarith) ht ?_ x
  · push_cast at this; linarith
  · intro x hx
    have h1 := (fl_rel hf hx).mul ht
    rw [mul_comm t, mul_comm t] at h1
    exact h1.trans hf (fl_rel hf (mul_nonneg (fl_nonneg hf hx) ht))

/-- **C121 (points of segments).** A coordinate of `segment.point(t)` in rounded arithmetic, for `t ≥ 0`: it differs from the exact one by at most
`ε` times its absolute value plus `8 ε` times the distance from the first coordinate; for `t = 0` it is the first coordinate; it moves in one direction only as `t` grows. -/
theorem C121_point (hf : Rounding ε fl) (hε : 4 * ε ≤ 1) {x1 x2 : ℝ} (h1 : fl x1 = x1) :
    pointFl fl x1 x2 0 = x1 ∧
    (∀ t, 0 ≤ t → |pointFl fl x1 x2 t - (x1 + (x2 - x1) * t)| ≤ ε * |x1 + (x2 - x1) * t| + 8 * ε * |(x2 - x1) * t|) ∧
    (x1 ≤ x2 → Monotone (pointFl fl x1 x2)) ∧ (x2 ≤ x1 → Antitone (pointFl fl x1 x2)) := by
  refine ⟨by simp [pointFl, fl_zero hf, h1], ?_, ?_, ?_⟩
  · intro t ht
    have := add_close hf (y := x1) (point_prod hf hε ht (x2 - x1)) (by linarith [hf.nonneg])
    unfold pointFl
    rw [add_comm x1, add_comm x1]
    linarith
  · intro h t t' htt
    have := fl_nonneg hf (show 0 ≤ x2 - x1 by linarith)
    exact hf.mono (by have := hf.mono (mul_le_mul_of_nonneg_left htt this); linarith)
  · intro h t t' htt
    have : fl (x2 - x1) ≤ 0 := by
      have := hf.mono (show x2 - x1 ≤ 0 by linarith)
      rwa [fl_zero hf] at this
    exact hf.mono (by have := hf.mono (mul_le_mul_of_nonpos_left htt this); linarith)

theorem rnd_absorb : rnd ((2 : ℝ)⁻¹ ^ 60 - 1) = -1 := by
  have hlog : Int.log 2 |(2 : ℝ)⁻¹ ^ 60 - 1| = -1 := by
    have e : |(2 : ℝ)⁻¹ ^ 60 - 1| = 1 - (2 : ℝ)⁻¹ ^ 60 := by rw [abs_of_neg (by norm_num)]; ring
    rw [e]
    have h1 : Int.log 2 (1 - (2 : ℝ)⁻¹ ^ 60) < 0 := by
      rw [← Int.lt_zpow_iff_log_lt (by norm_num) (by norm_num)]
      norm_num
    have h2 : -1 ≤ Int.log 2 (1 - (2 : ℝ)⁻¹ ^ 60) := by
      rw [← Int.zpow_le_iff_le_log (by norm_num) (by norm_num)]
      norm_num
    omega
  have hu : ulp ((2 : ℝ)⁻¹ ^ 60 - 1) = (2 : ℝ)⁻¹ ^ 53 := by
    unfold ulp; rw [hlog]; norm_num [zpow_neg]
  unfold rnd
  rw [hu]
  have hfl : ⌊((2 : ℝ)⁻¹ ^ 60 - 1) / (2 : ℝ)⁻¹ ^ 53⌋ = -2 ^ 53 := by
    rw [Int.floor_eq_iff]; norm_num
  have : rne (((2 : ℝ)⁻¹ ^ 60 - 1) / (2 : ℝ)⁻¹ ^ 53) = -2 ^ 53 := by
    unfold rne
    rw [hfl, if_pos (by norm_num)]
  rw [this]
  norm_num

/-- **C121 fails at the end.** In binary64 `segment.point(1)` of the segment from 1 to `2^-60` is 0. -/
theorem C121_end_fails : rnd 1 = 1 ∧ rnd (2⁻¹ ^ 60) = 2⁻¹ ^ 60 ∧ pointFl rnd 1 (2⁻¹ ^ 60) 1 = 0 ∧ pointFl id 1 (2⁻¹ ^ 60) 1 = 2⁻¹ ^ 60 := by
  have r4 : rnd 1 = 1 := by have := rnd_int 1 (by norm_num); norm_num at this ⊢; exact this
  have r5 : rnd (2⁻¹ ^ 60) = 2⁻¹ ^ 60 := by have := rnd_rep 1 (-60) (by norm_num); norm_num [zpow_neg] at this ⊢; exact this
  refine ⟨r4, r5, ?_, ?_⟩
  · unfold pointFl
    rw [rnd_absorb, mul_one, rnd_neg, r4]
    norm_num [rnd_zero]
  · unfold pointFl; norm_num

/-- The reciprocal of a rounded positive number. -/
theorem inv_rel (hf : Rounding ε fl) (hε : 2 * ε ≤ 1) {X : ℝ} (hX : 0 < X) : 0 < fl X ∧ RelErr ε 2 X⁻¹ (fl X)⁻¹ := by
  have e0 := hf.nonneg
  have e1 := hf.lt_one
  have r := fl_rel hf hX.le
  unfold RelErr at r
  rw [pow_one, pow_one] at r
  have p : 0 < fl X := lt_of_lt_of_le (mul_pos (by linarith) hX) r.1
  refine ⟨p, ?_, ?_⟩
  · rw [← div_eq_mul_inv, div_le_iff₀ hX, inv_mul_eq_div, le_div_iff₀ p]
    have : (1 - ε) ^ 2 * (1 + ε) ≤ 1 := by nlinarith [mul_nonneg e0 e0, mul_nonneg (mul_nonneg e0 e0) e0]
    calc (1 - ε) ^ 2 * fl X ≤ (1 - ε) ^ 2 * ((1 + ε) * X) := mul_le_mul_of_nonneg_left r.2 (sq_nonneg _)
      _ = (1 - ε) ^ 2 * (1 + ε) * X := by ring
      _ ≤ 1 * X := mul_le_mul_of_nonneg_right this hX.le
      _ = X := one_mul X
  · rw [← div_eq_mul_inv, le_div_iff₀ hX, inv_mul_eq_div, div_le_iff₀ p]
    have : 1 ≤ (1 + ε) ^ 2 * (1 - ε) := by nlinarith [mul_nonneg e0 e0, mul_nonneg (mul_nonneg e0 e0) e0, mul_nonneg e0 (show 0 ≤ 1 - 2 * ε by linarith)]
    calc X = 1 * X := (one_mul X).symm
      _ ≤ (1 + ε) ^ 2 * (1 - ε) * X := mul_le_mul_of_nonneg_right this hX.le
      _ = (1 + ε) ^ 2 * ((1 - ε) * X) := by ring
      _ ≤ (1 + ε) ^ 2 * fl X := mul_le_mul_of_nonneg_left r.1 (sq_nonneg _)

theorem RelErr.mul2 (hf : Rounding ε fl) {j k : Nat} {x y z w : ℝ} (h1 : RelErr ε j x z) (h2 : RelErr ε k y w) (hx : 0 ≤ x) (hy : 0 ≤ y) :
    RelErr ε (j + k) (x * y) (z * w) := by
  have r1 := h2.mul hx
  have r2 := h1.mul (h2.nonneg hf hy)
  rw [mul_comm w, mul_comm w] at r2
  rw [Nat.add_comm]
  exact r1.trans hf r2

theorem lerp_prod (hf : Rounding ε fl) (hε : 12 * ε ≤ 1) {X u : ℝ} (hX : 0 < X) (hu : 0 ≤ u) (y : ℝ) :
    |fl (fl (fl y / fl X) * fl u) - y * (X⁻¹ * u)| ≤ 12 * ε * |y * (X⁻¹ * u)| := by
  have e0 := hf.nonneg
  obtain ⟨p, r⟩ := inv_rel hf (by linarith) hX
  have := rel_signed hf (F := fun y => fl (fl (fl y / fl X) * fl u)) (k := 6) (m := X⁻¹ * u)
    (by intro x; simp only [hf.odd]; rw [neg_div, hf.odd, neg_mul, hf.odd]) (by push_cast; linarith) (by positivity) ?_ y
  · push_cast at this; linarith
  · intro y hy
    have a1 := (fl_rel hf hy).mul2 hf r hy (by positivity)
    rw [← div_eq_mul_inv (fl y)] at a1
    have a2 := a1.trans hf (fl_rel hf (by rw [div_eq_mul_inv]; exact mul_nonneg (fl_nonneg hf hy) (inv_nonneg.2 p.le)))
    have a3 := a2.mul2 hf (fl_rel hf hu) (by positivity) hu
    have a4 := a3.trans hf (fl_rel hf (a3.nonneg hf (by positivity)))
    rw [mul_assoc] at a4
    exact a4

/-- **C121 (linear interpolation).** One coordinate of linear interpolation between two nodes in rounded arithmetic, for `xlo ≤ x`: it differs from the exact value
by at most `ε` times its absolute value plus `24 ε` times the distance from the value at the lower node; at the lower node it is exact; it moves in one direction only. -/
theorem C121_linear (hf : Rounding ε fl) (hε : 12 * ε ≤ 1) {xlo xhi ylo yhi : ℝ} (hX : xlo < xhi) (h1 : fl ylo = ylo) :
    lerpFl fl xlo xhi ylo yhi xlo = ylo ∧
    (∀ x, xlo ≤ x → |lerpFl fl xlo xhi ylo yhi x - (ylo + (yhi - ylo) * ((x - xlo) / (xhi - xlo)))| ≤
      ε * |ylo + (yhi - ylo) * ((x - xlo) / (xhi - xlo))| + 24 * ε * |(yhi - ylo) * ((x - xlo) / (xhi - xlo))|) ∧
    (ylo ≤ yhi → Monotone (lerpFl fl xlo xhi ylo yhi)) ∧ (yhi ≤ ylo → Antitone (lerpFl fl xlo xhi ylo yhi)) := by
  have hX' : 0 < xhi - xlo := by linarith
  have p := (inv_rel hf (by linarith [hf.nonneg]) hX').1
  refine ⟨by simp [lerpFl, fl_zero hf, h1], ?_, ?_, ?_⟩
  · intro x hx
    have := add_close hf (y := ylo) (lerp_prod hf hε hX' (show 0 ≤ x - xlo by linarith) (yhi - ylo)) (by linarith [hf.nonneg])
    unfold lerpFl
    rw [add_comm ylo, div_eq_mul_inv (x - xlo), mul_comm (x - xlo)]
    linarith
  · intro h x x' hxx
    have : 0 ≤ fl (fl (yhi - ylo) / fl (xhi - xlo)) := fl_nonneg hf (div_nonneg (fl_nonneg hf (by linarith)) p.le)
    exact hf.mono (by have := hf.mono (mul_le_mul_of_nonneg_left (hf.mono (show x - xlo ≤ x' - xlo by linarith)) this); linarith)
  · intro h x x' hxx
    have h0 : fl (yhi - ylo) ≤ 0 := by
      have := hf.mono (show yhi - ylo ≤ 0 by linarith)
      rwa [fl_zero hf] at this
    have : fl (fl (yhi - ylo) / fl (xhi - xlo)) ≤ 0 := by
      have := hf.mono (div_nonpos_of_nonpos_of_nonneg h0 p.le)
      rwa [fl_zero hf] at this
    exact hf.mono (by have := hf.mono (mul_le_mul_of_nonpos_left (hf.mono (show x - xlo ≤ x' - xlo by linarith)) this); linarith)

/-- **C121 fails at the points.** In binary64 linear interpolation of the values 1 and `2^-60` at 0 and 1 gives 0 at 1. -/
theorem C121_node_fails : lerpFl rnd 0 1 1 (2⁻¹ ^ 60) 1 = 0 ∧ lerpFl id 0 1 1 (2⁻¹ ^ 60) 1 = 2⁻¹ ^ 60 := by
  have r4 : rnd 1 = 1 := by have := rnd_int 1 (by norm_num); norm_num at this ⊢; exact this
  constructor
  · unfold lerpFl
    rw [rnd_absorb, sub_zero, r4, div_one, rnd_neg, r4, mul_one, rnd_neg, r4]
    norm_num [rnd_zero]
  · unfold lerpFl; norm_num

/-- **C121 (no rounding).** Without rounding these are the values of the exact model. -/
theorem C121_exact : (∀ {n : Nat} (s : Seg n ℝ) (t : ℝ) (i : Fin n), s.point t i = pointFl id (s.p1 i) (s.p2 i) t) ∧
    ∀ xlo xhi ylo yhi x : ℝ, xlo ≠ xhi → lerpV xlo xhi ylo yhi (.fin x) = .fin (lerpFl id xlo xhi ylo yhi x) := by
  constructor
  · intro n s t i
    simp [Seg.point, Seg.direction, pointFl]
  · intro xlo xhi ylo yhi x h
    have : xhi - xlo ≠ 0 := sub_ne_zero.2 (Ne.symm h)
    simp [lerpV, lerpFl, Val.div, Val.mul, Val.sub, Val.add, this, ← sub_eq_add_neg]

/-- In binary64 the middle of the segment from 1/3 (rounded) to 3. -/
example : |pointFl rnd (rnd (1 / 3)) 3 (1 / 2) - (rnd (1 / 3) + (3 - rnd (1 / 3)) * (1 / 2))| ≤
    2⁻¹ ^ 53 * |rnd (1 / 3) + (3 - rnd (1 / 3)) * (1 / 2)| + 8 * 2⁻¹ ^ 53 * |(3 - rnd (1 / 3)) * (1 / 2)| :=
  (C121_point rnd_rounding (by norm_num) (rnd_idem _)).2.1 _ (by norm_num)

end

/-! ## Concrete cases -/

theorem exRnd1 : rnd 1 = 1 := by have := rnd_int 1 (by norm_num); norm_num at this ⊢; exact this

example := C120_grid rnd_rounding rnd_zero exRnd1 zero_le_one (n := 1001) (by norm_num) (by norm_num)
example := (C121_linear rnd_rounding (by norm_num) (xlo := 0) (xhi := 3) (ylo := 1) (yhi := 1 / 3) (by norm_num) exRnd1).2.2.2 (by norm_num)
example := C121_exact.2 0 3 1 (1 / 3) (1 / 2) (by norm_num)

end Verif.Props
