import Verif.Lemmas.Closest
import Verif.Lemmas.Dist

/-!
Consequences for the parameters of `segment_to_segment`: range, truncation of small numerators, nearly parallel
lines.
-/
namespace Verif.Model

open Verif

section
variable {K : Type} [Field K] [LinearOrder K] [IsStrictOrderedRing K]

/-- All possible final numerators and denominators. -/
theorem s2s_cases {tol : K} (htol : 0 < tol) (a b c d e : K) :
    let f := s2sClamp id a b d (s2sLines id tol a b c d e)
    (f.sn = 0 ∨ (f.sn = f.sd ∧ f.sd = 1 ∧ a * c - b * b < tol) ∨ (f.sn = f.sd ∧ f.sd = a * c - b * b ∧ tol ≤ a * c - b * b) ∨
      (f.sd = a ∧ 0 ≤ f.sn ∧ f.sn ≤ a ∧ (f.sn = -d ∨ f.sn = -d + b)) ∨
      (f.sd = a * c - b * b ∧ tol ≤ a * c - b * b ∧ 0 ≤ f.sn ∧ f.sn ≤ f.sd ∧ f.sn = b * e - c * d)) ∧
    (f.tn = 0 ∨ (f.tn = c ∧ f.td = c) ∨ (f.td = c ∧ 0 ≤ f.tn ∧ f.tn ≤ c ∧ (f.tn = e ∨ f.tn = e + b)) ∨
      (f.td = a * c - b * b ∧ tol ≤ a * c - b * b ∧ 0 ≤ f.tn ∧ f.tn ≤ f.td ∧ (f.tn = a * e - b * d ∨ f.tn = f.td))) := by
  intro f
  -- the first stage
  have h1 : ∀ g : Fracs K, g = s2sLines id tol a b c d e →
      (g.sn = 0 ∧ g.sd = 1 ∧ a * c - b * b < tol ∧ g.tn = e ∧ g.td = c) ∨
      (tol ≤ a * c - b * b ∧ g.sn = 0 ∧ g.sd = a * c - b * b ∧ g.tn = e ∧ g.td = c) ∨
      (tol ≤ a * c - b * b ∧ g.sn = g.sd ∧ g.sd = a * c - b * b ∧ g.tn = e + b ∧ g.td = c) ∨
      (tol ≤ a * c - b * b ∧ g.sn = b * e - c * d ∧ 0 ≤ g.sn ∧ g.sn ≤ g.sd ∧ g.sd = a * c - b * b ∧
        g.tn = a * e - b * d ∧ g.td = a * c - b * b) := by
    rintro g rfl
    unfold s2sLines
    simp only [id]
    by_cases hd : a * c - b * b < tol
    · left; simp [hd]
    · have hd' := not_lt.1 hd
      right
      by_cases hs : b * e - c * d < 0
      · left; simp [hd, hs, hd']
      · by_cases hs2 : b * e - c * d > a * c - b * b
        · right; left; simp [hd, hs, hs2, hd']
        · right; right; simp [hd, hs, hs2, hd', not_lt.1 hs, not_lt.1 hs2]
  obtain ⟨g, hg⟩ : ∃ g, g = s2sLines id tol a b c d e := ⟨_, rfl⟩
  have h1 := h1 g hg
  have hf : f = s2sClamp id a b d g := by rw [hg]
  clear_value f
  subst hf
  unfold s2sClamp
  simp only [id]
  by_cases ht : g.tn < 0
  · simp only [ht, if_true]
    by_cases hd1 : -d < 0
    · simp [hd1]
    · by_cases hd2 : -d > a
      · simp only [hd1, if_false, hd2, if_true]
        refine ⟨.inr ?_, .inl trivial⟩
        rcases h1 with h | h | h | h
        · exact .inl ⟨trivial, h.2.1, h.2.2.1⟩
        · exact .inr (.inl ⟨trivial, h.2.2.1, h.1⟩)
        · exact .inr (.inl ⟨trivial, h.2.2.1, h.1⟩)
        · exact .inr (.inl ⟨trivial, h.2.2.2.2.1, h.1⟩)
      · simp only [hd1, if_false, hd2]
        exact ⟨.inr (.inr (.inr (.inl ⟨trivial, not_lt.1 hd1, not_lt.1 hd2, .inl trivial⟩))), .inl trivial⟩
  · by_cases ht2 : g.tn > g.td
    · simp only [ht, if_false, ht2, if_true]
      have htd : ∀ x : K, (x = g.td → x = 0 ∨ (x = c ∧ g.td = c) ∨ (g.td = c ∧ 0 ≤ x ∧ x ≤ c ∧ (x = e ∨ x = e + b)) ∨
          (g.td = a * c - b * b ∧ tol ≤ a * c - b * b ∧ 0 ≤ x ∧ x ≤ g.td ∧ (x = a * e - b * d ∨ x = g.td))) := by
        rintro x rfl
        rcases h1 with h | h | h | h
        · exact .inr (.inl ⟨h.2.2.2.2, h.2.2.2.2⟩)
        · exact .inr (.inl ⟨h.2.2.2.2, h.2.2.2.2⟩)
        · exact .inr (.inl ⟨h.2.2.2.2, h.2.2.2.2⟩)
        · refine .inr (.inr (.inr ⟨h.2.2.2.2.2.2, h.1, ?_, le_refl _, .inr rfl⟩))
          rw [h.2.2.2.2.2.2]; exact le_trans htol.le h.1
      by_cases hd1 : -d + b < 0
      · simp only [hd1, if_true]
        exact ⟨.inl trivial, by simpa using htd _ rfl⟩
      · by_cases hd2 : -d + b > a
        · simp only [hd1, if_false, hd2, if_true]
          refine ⟨.inr ?_, by simpa using htd _ rfl⟩
          rcases h1 with h | h | h | h
          · exact .inl ⟨trivial, h.2.1, h.2.2.1⟩
          · exact .inr (.inl ⟨trivial, h.2.2.1, h.1⟩)
          · exact .inr (.inl ⟨trivial, h.2.2.1, h.1⟩)
          · exact .inr (.inl ⟨trivial, h.2.2.2.2.1, h.1⟩)
        · simp only [hd1, if_false, hd2]
          exact ⟨.inr (.inr (.inr (.inl ⟨trivial, not_lt.1 hd1, not_lt.1 hd2, .inr trivial⟩))), by simpa using htd _ rfl⟩
    · simp only [ht, if_false, ht2]
      have h0 := not_lt.1 ht
      have h2 := not_lt.1 ht2
      constructor
      · rcases h1 with h | h | h | h
        · exact .inl h.1
        · exact .inl h.2.1
        · exact .inr (.inr (.inl ⟨h.2.1, h.2.2.1, h.1⟩))
        · exact .inr (.inr (.inr (.inr ⟨h.2.2.2.2.1, h.1, h.2.2.1, h.2.2.2.1, h.2.1⟩)))
      · rcases h1 with h | h | h | h
        · exact .inr (.inr (.inl ⟨h.2.2.2.2, h0, h.2.2.2.2 ▸ h2, .inl h.2.2.2.1⟩))
        · exact .inr (.inr (.inl ⟨h.2.2.2.2, h0, h.2.2.2.2 ▸ h2, .inl h.2.2.2.1⟩))
        · exact .inr (.inr (.inl ⟨h.2.2.2.2, h0, h.2.2.2.2 ▸ h2, .inr h.2.2.2.1⟩))
        · exact .inr (.inr (.inr ⟨h.2.2.2.2.2.2, h.1, h0, h2, .inl h.2.2.2.2.2.1⟩))

/-- The truncation leaves a numerator that is 0 or at least `tol` alone. -/
theorem trunc_exact {tol x y : K} (h : x = 0 ∨ tol ≤ |x|) : (if |x| < tol then 0 else x / y) = x / y := by
  rcases h with h | h
  · subst h; simp
  · rw [if_neg (not_lt.2 h)]

/-- All numerators are 0, negative, or at least the tolerance. -/
structure Clear (tol a b c d e : K) : Prop where
  one : tol ≤ 1
  c' : c ≤ 0 ∨ tol ≤ c
  sn : b * e - c * d ≤ 0 ∨ tol ≤ b * e - c * d
  tn : a * e - b * d ≤ 0 ∨ tol ≤ a * e - b * d
  e0 : e ≤ 0 ∨ tol ≤ e
  eb : e + b ≤ 0 ∨ tol ≤ e + b
  d0 : -d ≤ 0 ∨ tol ≤ -d
  db : -d + b ≤ 0 ∨ tol ≤ -d + b

theorem gap_abs {tol x : K} (h : x ≤ 0 ∨ tol ≤ x) (h0 : 0 ≤ x) : x = 0 ∨ tol ≤ |x| := by
  rcases h with h | h
  · exact .inl (le_antisymm h h0)
  · right; rwa [abs_of_nonneg h0]

theorem s2sCore_eq_exact {tol a b c d e : K} (htol : 0 < tol) (hc : 0 ≤ c) (h : Clear tol a b c d e) :
    s2sCore id tol a b c d e = s2sExact tol a b c d e := by
  have hcases := s2s_cases htol a b c d e
  unfold s2sCore s2sExact
  simp only at hcases ⊢
  generalize s2sClamp id a b d (s2sLines id tol a b c d e) = f at hcases
  obtain ⟨hs, ht⟩ := hcases
  simp only [id]
  rw [trunc_exact (tol := tol), trunc_exact (tol := tol)]
  · rcases ht with ht | ⟨ht, _⟩ | ⟨_, h0, _, ht⟩ | ⟨_, hd, h0, _, ht⟩
    · exact .inl ht
    · exact gap_abs (ht ▸ h.c') (ht ▸ hc)
    · rcases ht with ht | ht
      · exact gap_abs (ht ▸ h.e0) h0
      · exact gap_abs (ht ▸ h.eb) h0
    · rcases ht with ht | ht
      · exact gap_abs (ht ▸ h.tn) h0
      · refine gap_abs (.inr ?_) h0
        simp_all
  · rcases hs with hs | ⟨h1, h2, _⟩ | ⟨h1, h2, h3⟩ | ⟨_, h0, _, h1⟩ | ⟨_, hd, h0, _, h1⟩
    · exact .inl hs
    · right; rw [h1, h2, abs_one]; exact h.one
    · right; rw [h1, h2, abs_of_nonneg (le_trans htol.le h3)]; exact h3
    · rcases h1 with h1 | h1
      · exact gap_abs (h1 ▸ h.d0) h0
      · exact gap_abs (h1 ▸ h.db) h0
    · exact gap_abs (h1 ▸ h.sn) h0

/-- The exact parameters are in the unit interval. -/
theorem s2sExact_range {tol : K} (htol : 0 < tol) (a b c d e : K) :
    (0 ≤ (s2sExact tol a b c d e).1 ∧ (s2sExact tol a b c d e).1 ≤ 1) ∧
    (0 ≤ (s2sExact tol a b c d e).2 ∧ (s2sExact tol a b c d e).2 ≤ 1) := by
  have hcases := s2s_cases htol a b c d e
  unfold s2sExact
  simp only at hcases ⊢
  generalize s2sClamp id a b d (s2sLines id tol a b c d e) = f at hcases
  have aux : ∀ x y : K, 0 ≤ x → x ≤ y → 0 ≤ x / y ∧ x / y ≤ 1 := fun x y h0 h1 =>
    ⟨div_nonneg h0 (h0.trans h1), div_le_one_of_le₀ h1 (h0.trans h1)⟩
  have aux2 : ∀ x : K, 0 ≤ x / x ∧ x / x ≤ 1 := fun x => ⟨by rcases eq_or_ne x 0 with h | h <;> simp [h], div_self_le_one x⟩
  obtain ⟨hs, ht⟩ := hcases
  constructor
  · rcases hs with hs | ⟨h1, h2, _⟩ | ⟨h1, h2, h3⟩ | ⟨h2, h0, h1, _⟩ | ⟨_, hd, h0, h1, _⟩
    · simp [hs]
    · rw [h1]; exact aux2 _
    · rw [h1]; exact aux2 _
    · rw [h2]; exact aux _ _ h0 h1
    · exact aux _ _ h0 h1
  · rcases ht with ht | ⟨h1, h2⟩ | ⟨h2, h0, h1, _⟩ | ⟨_, hd, h0, h1, _⟩
    · simp [ht]
    · rw [h1, h2]; exact aux2 _
    · rw [h2]; exact aux _ _ h0 h1
    · exact aux _ _ h0 h1

end

/-! Over the reals. -/

section
variable {n : Nat}

/-- The tolerance in terms of the truncation: the first parameter. -/
theorem s2s_trunc1 {tol a b c d e x : ℝ} (htol : 0 < tol) (ht1 : tol ≤ 1) (hx : 0 ≤ x) (ha : a = x * x) :
    |(s2sCore id tol a b c d e).1 - (s2sExact tol a b c d e).1| * x ≤
      √ tol + (if tol ≤ a * c - b * b then x * (tol / (a * c - b * b)) else 0) := by
  have hcases := s2s_cases htol a b c d e
  unfold s2sCore s2sExact
  simp only [id_eq] at hcases ⊢
  generalize s2sClamp id a b d (s2sLines id tol a b c d e) = f at hcases ⊢
  obtain ⟨hs, _⟩ := hcases
  have hsq : 0 ≤ √ tol := Real.sqrt_nonneg _
  have hif : 0 ≤ (if tol ≤ a * c - b * b then x * (tol / (a * c - b * b)) else 0) := by
    split_ifs with h
    · exact mul_nonneg hx (div_nonneg htol.le (htol.le.trans h))
    · exact le_refl _
  have triv : ∀ y : ℝ, f.sn = 0 ∨ tol ≤ |f.sn| → |(if |f.sn| < tol then 0 else f.sn / y) - f.sn / y| * x ≤
      √ tol + (if tol ≤ a * c - b * b then x * (tol / (a * c - b * b)) else 0) := by
    intro y h
    rw [trunc_exact h, sub_self, abs_zero, zero_mul]
    exact add_nonneg hsq hif
  rcases hs with hs | ⟨h1, h2, _⟩ | ⟨h1, h2, h3⟩ | ⟨h2, h0, h1, _⟩ | ⟨h2, hd, h0, h1, _⟩
  · exact triv _ (.inl hs)
  · apply triv; right; rw [h1, h2, abs_one]; exact ht1
  · apply triv; right; rw [h1, h2, abs_of_nonneg (htol.le.trans h3)]; exact h3
  · by_cases hlt : |f.sn| < tol
    · rw [if_pos hlt, zero_sub, abs_neg, h2]
      rw [abs_of_nonneg h0] at hlt
      have hle : |f.sn / a| * x ≤ √ tol := by
        rw [abs_of_nonneg (div_nonneg h0 (h0.trans h1))]
        apply Real.le_sqrt_of_sq_le
        by_cases hx0 : x = 0
        · rw [hx0]; simp; exact htol.le
        · have hxp : 0 < x := lt_of_le_of_ne hx (Ne.symm hx0)
          have hap : 0 < a := by rw [ha]; positivity
          have e1 : (f.sn / a * x) ^ 2 = f.sn / a * f.sn := by
            have : x ^ 2 = a := by rw [ha, sq]
            rw [mul_pow, this]; field_simp
          rw [e1]
          have h3 : f.sn / a ≤ 1 := (div_le_one hap).2 h1
          have h4 := mul_le_mul_of_nonneg_right h3 h0
          linarith
      linarith
    · exact triv _ (.inr (not_lt.1 hlt))
  · by_cases hlt : |f.sn| < tol
    · rw [if_pos hlt, zero_sub, abs_neg, h2, if_pos hd]
      rw [abs_of_nonneg h0] at hlt
      have hddp : 0 < a * c - b * b := htol.trans_le hd
      rw [abs_of_nonneg (div_nonneg h0 hddp.le)]
      have : f.sn / (a * c - b * b) * x ≤ x * (tol / (a * c - b * b)) := by
        rw [mul_comm]
        exact mul_le_mul_of_nonneg_left (div_le_div_of_nonneg_right hlt.le hddp.le) hx
      linarith
    · exact triv _ (.inr (not_lt.1 hlt))

/-- The second parameter. -/
theorem s2s_trunc2 {tol a b c d e y : ℝ} (htol : 0 < tol) (hy : 0 ≤ y) (hc : c = y * y) :
    |(s2sCore id tol a b c d e).2 - (s2sExact tol a b c d e).2| * y ≤
      √ tol + (if tol ≤ a * c - b * b then y * (tol / (a * c - b * b)) else 0) := by
  have hcases := s2s_cases htol a b c d e
  unfold s2sCore s2sExact
  simp only [id_eq] at hcases ⊢
  generalize s2sClamp id a b d (s2sLines id tol a b c d e) = f at hcases ⊢
  obtain ⟨_, ht⟩ := hcases
  have hsq : 0 ≤ √ tol := Real.sqrt_nonneg _
  have hif : 0 ≤ (if tol ≤ a * c - b * b then y * (tol / (a * c - b * b)) else 0) := by
    split_ifs with h
    · exact mul_nonneg hy (div_nonneg htol.le (htol.le.trans h))
    · exact le_refl _
  have triv : ∀ z : ℝ, f.tn = 0 ∨ tol ≤ |f.tn| → |(if |f.tn| < tol then 0 else f.tn / z) - f.tn / z| * y ≤
      √ tol + (if tol ≤ a * c - b * b then y * (tol / (a * c - b * b)) else 0) := by
    intro z h
    rw [trunc_exact h, sub_self, abs_zero, zero_mul]
    exact add_nonneg hsq hif
  have viaC : 0 ≤ f.tn → f.tn ≤ c → f.td = c → |(if |f.tn| < tol then 0 else f.tn / f.td) - f.tn / f.td| * y ≤
      √ tol + (if tol ≤ a * c - b * b then y * (tol / (a * c - b * b)) else 0) := by
    intro h0 h1 h2
    by_cases hlt : |f.tn| < tol
    · rw [if_pos hlt, zero_sub, abs_neg, h2]
      rw [abs_of_nonneg h0] at hlt
      have hle : |f.tn / c| * y ≤ √ tol := by
        rw [abs_of_nonneg (div_nonneg h0 (h0.trans h1))]
        apply Real.le_sqrt_of_sq_le
        by_cases hx0 : y = 0
        · rw [hx0]; simp; exact htol.le
        · have hyp : 0 < y := lt_of_le_of_ne hy (Ne.symm hx0)
          have hcp : 0 < c := by rw [hc]; positivity
          have e1 : (f.tn / c * y) ^ 2 = f.tn / c * f.tn := by
            have : y ^ 2 = c := by rw [hc, sq]
            rw [mul_pow, this]; field_simp
          rw [e1]
          have h3 : f.tn / c ≤ 1 := (div_le_one hcp).2 h1
          have h4 := mul_le_mul_of_nonneg_right h3 h0
          linarith
      linarith
    · exact triv _ (.inr (not_lt.1 hlt))
  rcases ht with ht | ⟨h1, h2⟩ | ⟨h2, h0, h1, _⟩ | ⟨h2, hd, h0, h1, _⟩
  · exact triv _ (.inl ht)
  · exact viaC (by rw [h1, hc]; positivity) h1.le h2
  · exact viaC h0 h1 h2
  · by_cases hlt : |f.tn| < tol
    · rw [if_pos hlt, zero_sub, abs_neg, h2, if_pos hd]
      rw [abs_of_nonneg h0] at hlt
      have hddp : 0 < a * c - b * b := htol.trans_le hd
      rw [abs_of_nonneg (div_nonneg h0 hddp.le)]
      have : f.tn / (a * c - b * b) * y ≤ y * (tol / (a * c - b * b)) := by
        rw [mul_comm]
        exact mul_le_mul_of_nonneg_left (div_le_div_of_nonneg_right hlt.le hddp.le) hy
      linarith
    · exact triv _ (.inr (not_lt.1 hlt))

theorem vnorm_le_of_sq {u v : Vec n ℝ} (h : vdot u u ≤ vdot v v) : vnorm u ≤ vnorm v := Real.sqrt_le_sqrt h

theorem vnorm_sub_le (u v : Vec n ℝ) : vnorm (u - v) ≤ vnorm u + vnorm v := by
  rw [sub_eq_add_neg, ← vnorm_neg v]; exact vnorm_add_le _ _

/-- The part of `u` orthogonal to `v`. -/
noncomputable def orth (u v : Vec n ℝ) : Vec n ℝ := u - (vdot u v / vdot v v) • v

theorem orth_vdot (u v : Vec n ℝ) (hc : 0 < vdot v v) : vdot (orth u v) v = 0 := by
  unfold orth; rw [sub_vdot, smul_vdot]; field_simp; ring

theorem orth_norm (u v : Vec n ℝ) (hc : 0 < vdot v v) :
    vdot (orth u v) (orth u v) = (vdot u u * vdot v v - vdot u v * vdot u v) / vdot v v := by
  unfold orth
  simp only [sub_vdot, vdot_sub, smul_vdot, vdot_smul, vdot_comm v u]
  field_simp
  ring

theorem orth_min (u v : Vec n ℝ) (hc : 0 < vdot v v) (k : ℝ) : vnorm (orth u v) ≤ vnorm (orth u v + k • v) := by
  apply vnorm_le_of_sq
  rw [vdot_add, add_vdot, add_vdot, vdot_smul, smul_vdot, smul_vdot, orth_vdot u v hc, vdot_comm v, orth_vdot u v hc, vdot_smul]
  have : 0 ≤ k * (k * vdot v v) := by rw [← mul_assoc]; exact mul_nonneg (mul_self_nonneg k) hc.le
  linarith

/-- Nearly parallel lines, second parameter 0. -/
theorem near0 (u v w : Vec n ℝ) (hc : 0 < vdot v v) (he : vdot v w < 0) (s : ℝ)
    (hs : ∀ x : ℝ, 0 ≤ x → x ≤ 1 → vnorm (w + s • u) ≤ vnorm (w + x • u)) {x y : ℝ} (hx0 : 0 ≤ x) (hx1 : x ≤ 1) (hy0 : 0 ≤ y) :
    vnorm (w + s • u) ≤ vnorm (w + x • u - y • v) + 2 * vnorm (orth u v) := by
  set δ := vnorm (orth u v) with hδ
  have hδ0 : 0 ≤ δ := vnorm_nonneg _
  -- replacing `u` by its projection changes the length by at most δ
  set u' := (vdot u v / vdot v v) • v with hu'
  have huu : u = u' + orth u v := by rw [hu', orth]; abel
  have approx1 : ∀ x : ℝ, 0 ≤ x → x ≤ 1 → ∀ z, vnorm (z + x • u) ≤ vnorm (z + x • u') + δ := by
    intro x h0 h1 z
    have e1 : z + x • u = (z + x • u') + x • orth u v := by
      have : x • u = x • u' + x • orth u v := by rw [← smul_add, ← huu]
      rw [this]; abel
    rw [e1]
    refine (vnorm_add_le _ _).trans ?_
    rw [vnorm_smul, abs_of_nonneg h0]
    have := mul_le_mul_of_nonneg_right h1 hδ0
    linarith
  have approx2 : ∀ x : ℝ, 0 ≤ x → x ≤ 1 → ∀ z, vnorm (z + x • u') ≤ vnorm (z + x • u) + δ := by
    intro x h0 h1 z
    have e1 : z + x • u' = (z + x • u) - x • orth u v := by
      have : x • u = x • u' + x • orth u v := by rw [← smul_add, ← huu]
      rw [this]; abel
    rw [e1]
    refine (vnorm_sub_le _ _).trans ?_
    rw [vnorm_smul, abs_of_nonneg h0]
    have := mul_le_mul_of_nonneg_right h1 hδ0
    linarith
  have hgoal : w + x • u - y • v = (w - y • v) + x • u := by abel
  rw [hgoal]
  have hb := approx2 x hx0 hx1 (w - y • v)
  by_cases hcase : vdot v w + x * vdot u v ≤ 0
  · have h1 := hs x hx0 hx1
    have h2 := approx1 x hx0 hx1 w
    have h3 : vnorm (w + x • u') ≤ vnorm (w - y • v + x • u') := by
      apply vnorm_le_of_sq
      have e2 : w - y • v + x • u' = (w + x • u') - y • v := by abel
      rw [e2]
      have hdot : vdot (w + x • u') v = vdot v w + x * vdot u v := by
        rw [hu', add_vdot, smul_vdot, smul_vdot, vdot_comm w v, div_mul_cancel₀ _ hc.ne']
      rw [vdot_sub, sub_vdot, sub_vdot, vdot_smul, smul_vdot, smul_vdot, vdot_comm v (w + x • u'), hdot, vdot_smul]
      have h4 := mul_nonneg hy0 (neg_nonneg.2 hcase)
      have h5 : 0 ≤ y * (y * vdot v v) := by positivity
      nlinarith
    linarith
  · have hpos : 0 < vdot v w + x * vdot u v := not_le.1 hcase
    have hbp : 0 < vdot u v := by
      by_contra hn
      have := mul_nonneg hx0 (neg_nonneg.2 (not_lt.1 hn))
      nlinarith
    set x' := - vdot v w / vdot u v with hx'
    have hx'0 : 0 ≤ x' := div_nonneg (by linarith) hbp.le
    have hx'1 : x' ≤ 1 := by
      rw [hx', div_le_one hbp]
      have : x * vdot u v ≤ vdot u v := by nlinarith
      linarith
    have h1 := hs x' hx'0 hx'1
    have h2 := approx1 x' hx'0 hx'1 w
    have h3 : w + x' • u' = orth w v := by
      rw [hu', orth, smul_smul, hx', vdot_comm w v]
      have : - vdot v w / vdot u v * (vdot u v / vdot v v) = -(vdot v w / vdot v v) := by field_simp
      rw [this, neg_smul]; abel
    have h4 : w - y • v + x • u' = orth w v + (vdot w v / vdot v v - y + x * (vdot u v / vdot v v)) • v := by
      rw [hu', orth, smul_smul, add_smul, sub_smul]; abel
    have h5 := orth_min w v hc (vdot w v / vdot v v - y + x * (vdot u v / vdot v v))
    rw [← h4] at h5
    rw [h3] at h2
    linarith

/-- minimising a quadratic function of one variable over [0, 1] -/
theorem clamp_min {a d : ℝ} (ha : 0 ≤ a) (had : a = 0 → d = 0) {x : ℝ} (hx0 : 0 ≤ x) (hx1 : x ≤ 1) :
    let s := if -d < 0 then 0 else if -d > a then 1 else -d / a
    a * s * s + 2 * d * s ≤ a * x * x + 2 * d * x := by
  intro s
  by_cases h1 : -d < 0
  · have : s = 0 := by simp [s, h1]
    rw [this]
    have := mul_nonneg ha (mul_self_nonneg x)
    nlinarith
  · by_cases h2 : -d > a
    · have : s = 1 := by simp [s, h1, h2]
      rw [this]
      nlinarith [mul_nonneg ha (mul_self_nonneg (1 - x)), mul_nonneg (sub_nonneg.2 hx1) (sub_nonneg.2 h2.le)]
    · have hs : s = -d / a := by simp [s, h1, h2]
      by_cases ha0 : a = 0
      · rw [ha0, had ha0]; simp
      · have hap : 0 < a := lt_of_le_of_ne ha (Ne.symm ha0)
        have e1 : a * x * x + 2 * d * x - (a * s * s + 2 * d * s) = a * (x - s) ^ 2 := by
          rw [hs]; field_simp; ring
        have : 0 ≤ a * (x - s) ^ 2 := mul_nonneg ha (sq_nonneg _)
        linarith

theorem vnorm_lin_le {u z : Vec n ℝ} {s x : ℝ}
    (h : vdot u u * s * s + 2 * vdot u z * s ≤ vdot u u * x * x + 2 * vdot u z * x) :
    vnorm (z + s • u) ≤ vnorm (z + x • u) := by
  apply vnorm_le_of_sq
  simp only [vdot_add, add_vdot, vdot_smul, smul_vdot, vdot_comm z u]
  nlinarith

theorem orth_neg (u v : Vec n ℝ) : orth u (-v) = orth u v := by
  unfold orth
  simp [vdot_neg, neg_vdot, neg_div]

/-- The result of the nearly parallel branch is optimal up to twice the length of the part of the first
direction orthogonal to the second. -/
theorem near_parallel (u v w : Vec n ℝ) {tol : ℝ} (hc : 0 < vdot v v)
    (hdd : vdot u u * vdot v v - vdot u v * vdot u v < tol) {x y : ℝ} (hx0 : 0 ≤ x) (hx1 : x ≤ 1) (hy0 : 0 ≤ y) (hy1 : y ≤ 1) :
    let p := s2sExact tol (vdot u u) (vdot u v) (vdot v v) (vdot u w) (vdot v w)
    vnorm (w + p.1 • u - p.2 • v) ≤ vnorm (w + x • u - y • v) + 2 * vnorm (orth u v) := by
  intro p
  have hδ0 : 0 ≤ vnorm (orth u v) := vnorm_nonneg _
  have hlines : s2sLines id tol (vdot u u) (vdot u v) (vdot v v) (vdot u w) (vdot v w) =
      ⟨0, 1, vdot v w, vdot v v⟩ := by unfold s2sLines; simp [hdd]
  have had : ∀ z, vdot u u = 0 → vdot u z = 0 := by
    intro z h; rw [vdot_self_eq_zero] at h; rw [h, zero_vdot]
  by_cases he : vdot v w < 0
  · have hp2 : p.2 = 0 := by
      simp only [p, s2sExact, hlines, s2sClamp, he, if_true]
      split_ifs <;> simp
    have hp1 : p.1 = if -(vdot u w) < 0 then 0 else if -(vdot u w) > vdot u u then 1 else -(vdot u w) / vdot u u := by
      simp only [p, s2sExact, hlines, s2sClamp, he, if_true]
      split_ifs <;> simp
    rw [hp2, zero_smul, sub_zero]
    refine near0 u v w hc he p.1 ?_ hx0 hx1 hy0
    intro x' h0 h1
    apply vnorm_lin_le
    rw [hp1]
    exact clamp_min (vdot_self_nonneg u) (had w) h0 h1
  · by_cases he2 : vdot v w > vdot v v
    · have hp2 : p.2 = 1 := by
        simp only [p, s2sExact, hlines, s2sClamp, he, if_false, he2, if_true]
        split_ifs <;> simp [hc.ne']
      have hdw : -(vdot u (w - v)) = - vdot u w + vdot u v := by rw [vdot_sub]; ring
      have hp1 : p.1 = if -(vdot u (w - v)) < 0 then 0 else if -(vdot u (w - v)) > vdot u u then 1 else -(vdot u (w - v)) / vdot u u := by
        rw [hdw]
        simp only [p, s2sExact, hlines, s2sClamp, he, if_false, he2, if_true, id]
        split_ifs <;> simp
      rw [hp2, one_smul]
      have hmain := near0 u (-v) (w - v) (by rwa [vdot_neg, neg_vdot, neg_neg])
        (by rw [neg_vdot, vdot_sub]; linarith) p.1 (by
          intro x' h0 h1
          apply vnorm_lin_le
          rw [hp1]
          exact clamp_min (vdot_self_nonneg u) (had _) h0 h1) hx0 hx1 (sub_nonneg.2 hy1)
      rw [orth_neg] at hmain
      have e1 : w + p.1 • u - v = w - v + p.1 • u := by abel
      have e2 : w + x • u - y • v = w - v + x • u - (1 - y) • -v := by
        rw [sub_smul, one_smul, smul_neg]; abel
      rw [e1, e2]
      exact hmain
    · have hp2 : p.2 = vdot v w / vdot v v := by
        simp only [p, s2sExact, hlines, s2sClamp, he, he2, if_false]
      have hp1 : p.1 = 0 := by
        simp only [p, s2sExact, hlines, s2sClamp, he, he2, if_false, zero_div]
      rw [hp1, hp2, zero_smul, add_zero]
      have h1 : w - (vdot v w / vdot v v) • v = orth w v := by rw [orth, vdot_comm w v]
      rw [h1]
      have h2 := orth_min w v hc (vdot w v / vdot v v - y + x * (vdot u v / vdot v v))
      have h3 : w + x • u - y • v = (orth w v + (vdot w v / vdot v v - y + x * (vdot u v / vdot v v)) • v) + x • orth u v := by
        simp only [orth, smul_sub, smul_smul, add_smul, sub_smul]; abel
      have h4 : vnorm (orth w v + (vdot w v / vdot v v - y + x * (vdot u v / vdot v v)) • v) ≤
          vnorm (w + x • u - y • v) + vnorm (orth u v) := by
        have : orth w v + (vdot w v / vdot v v - y + x * (vdot u v / vdot v v)) • v = (w + x • u - y • v) - x • orth u v := by
          rw [h3]; abel
        rw [this]
        refine (vnorm_sub_le _ _).trans ?_
        rw [vnorm_smul, abs_of_nonneg hx0]
        have := mul_le_mul_of_nonneg_right hx1 hδ0
        linarith
      linarith

end

end Verif.Model
