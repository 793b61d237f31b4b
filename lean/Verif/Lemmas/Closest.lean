import Verif.Lemmas.Vec

/-!
Optimality of the clamped closest-point computation (`segment_to_segment`), on the level of the five dot
products.
-/
namespace Verif.Model

open Verif

variable {K : Type} [Field K] [LinearOrder K] [IsStrictOrderedRing K]

/-- First order optimality of (s, t) for the quadratic function
`a s² - 2 b s t + c t² + 2 d s - 2 e t` on the unit square. -/
structure KKT (a b c d e s t : K) : Prop where
  s0 : 0 ≤ s
  s1 : s ≤ 1
  t0 : 0 ≤ t
  t1 : t ≤ 1
  gs : ∀ x, 0 ≤ x → x ≤ 1 → 0 ≤ (a * s - b * t + d) * (x - s)
  gt : ∀ y, 0 ≤ y → y ≤ 1 → 0 ≤ (c * t - b * s - e) * (y - t)

/-- The quadratic function. -/
def qf (a b c d e x y : K) : K := a * x * x - 2 * b * x * y + c * y * y + 2 * d * x - 2 * e * y

theorem quad_nonneg {a b c : K} (ha : 0 ≤ a) (hc : 0 ≤ c) (hb : b * b ≤ a * c) (x y : K) :
    0 ≤ a * x * x - 2 * b * x * y + c * y * y := by
  rcases ha.lt_or_eq with h | h
  · have : 0 ≤ a * (a * x * x - 2 * b * x * y + c * y * y) := by
      have h1 : a * (a * x * x - 2 * b * x * y + c * y * y) = (a * x - b * y) ^ 2 + (a * c - b * b) * y ^ 2 := by ring
      rw [h1]
      have : 0 ≤ a * c - b * b := by linarith
      positivity
    exact nonneg_of_mul_nonneg_right this h
  · subst h
    have hb0 : b = 0 := by
      have : b * b ≤ 0 := by simpa using hb
      have h2 := mul_self_nonneg b
      exact mul_self_eq_zero.1 (le_antisymm this h2)
    subst hb0
    have := mul_nonneg hc (mul_self_nonneg y)
    nlinarith

theorem KKT.min {a b c d e s t : K} (h : KKT a b c d e s t) (ha : 0 ≤ a) (hc : 0 ≤ c) (hb : b * b ≤ a * c)
    {x y : K} (hx0 : 0 ≤ x) (hx1 : x ≤ 1) (hy0 : 0 ≤ y) (hy1 : y ≤ 1) :
    qf a b c d e s t ≤ qf a b c d e x y := by
  have h1 := h.gs x hx0 hx1
  have h2 := h.gt y hy0 hy1
  have h3 := quad_nonneg ha hc hb (x - s) (y - t)
  have : qf a b c d e x y - qf a b c d e s t = 2 * ((a * s - b * t + d) * (x - s)) +
      2 * ((c * t - b * s - e) * (y - t)) +
      (a * (x - s) * (x - s) - 2 * b * (x - s) * (y - t) + c * (y - t) * (y - t)) := by
    unfold qf; ring
  linarith

/-- gradient condition at an interior or clamped value of one variable: `g` the derivative. -/
theorem grad_zero {g s : K} (h : g = 0) : ∀ x : K, 0 ≤ x → x ≤ 1 → 0 ≤ g * (x - s) := by
  intro x _ _; rw [h]; simp

theorem grad_low {g : K} (h : 0 ≤ g) : ∀ x : K, 0 ≤ x → x ≤ 1 → 0 ≤ g * (x - 0) := by
  intro x hx _; exact mul_nonneg h (by linarith)

theorem grad_high {g : K} (h : g ≤ 0) : ∀ x : K, 0 ≤ x → x ≤ 1 → 0 ≤ g * (x - 1) := by
  intro x _ hx; exact mul_nonneg_of_nonpos_of_nonpos h (by linarith)

/-- The parameters before the truncation of small numerators. -/
def s2sExact (tol a b c d e : K) : K × K :=
  let f := s2sClamp id a b d (s2sLines id tol a b c d e)
  (f.sn / f.sd, f.tn / f.td)

/-- t is clamped to 0: `s` is the clamped `-d/a`; the other condition is `e + b s <= 0`. -/
theorem kkt_t0 {a b c d e sd : K} (ha : 0 ≤ a) (hb : b * b ≤ a * c) (had : a = 0 → d = 0) (hsd : 0 < sd) (he : -d < 0 ∨ a = 0 → e ≤ 0)
    (h1 : -d > a → e + b ≤ 0) (h2 : 0 ≤ -d → -d ≤ a → a * e - b * d ≤ 0) :
    ∀ td : K, KKT a b c d e
      ((if -d < 0 then (⟨0, sd, 0, td⟩ : Fracs K) else if -d > a then ⟨sd, sd, 0, td⟩ else ⟨-d, a, 0, td⟩).sn /
       (if -d < 0 then (⟨0, sd, 0, td⟩ : Fracs K) else if -d > a then ⟨sd, sd, 0, td⟩ else ⟨-d, a, 0, td⟩).sd) 0 := by
  intro td
  split
  · rename_i h
    have he := he (.inl h)
    simp only [zero_div]
    refine ⟨le_rfl, zero_le_one, le_rfl, zero_le_one, grad_low (by linarith), grad_low (by linarith)⟩
  · split
    · rename_i h h'
      simp only [div_self hsd.ne']
      have := h1 h'
      exact ⟨zero_le_one, le_rfl, le_rfl, zero_le_one, grad_high (by linarith), grad_low (by linarith)⟩
    · rename_i h h'
      simp only
      have h3 := h2 (by linarith) (by linarith)
      rcases ha.lt_or_eq with ha' | ha'
      · refine ⟨div_nonneg (by linarith) ha, by rw [div_le_one ha']; linarith, le_rfl, zero_le_one, grad_zero ?_, grad_low ?_⟩
        · field_simp; ring
        · have : c * 0 - b * (-d / a) - e = -(a * e - b * d) / a := by field_simp; ring
          rw [this]
          exact div_nonneg (by linarith) ha
      · have hd := had ha'.symm
        have he := he (.inr ha'.symm)
        subst hd
        rw [← ha']
        simp only [neg_zero, zero_div]
        refine ⟨le_rfl, zero_le_one, le_rfl, zero_le_one, grad_low (by simp), grad_low (by linarith)⟩

/-- t is clamped to 1. -/
theorem kkt_t1 {a b c d e sd : K} (ha : 0 ≤ a) (hb : b * b ≤ a * c) (had : a = 0 → d = 0) (hsd : 0 < sd) (he : -d + b < 0 ∨ a = 0 → c ≤ e)
    (h1 : -d + b > a → c - b - e ≤ 0) (h2 : 0 ≤ -d + b → -d + b ≤ a → a * c - b * b ≤ a * e - b * d) :
    ∀ td : K, KKT a b c d e
      ((if -d + b < 0 then (⟨0, sd, td, td⟩ : Fracs K) else if -d + b > a then ⟨sd, sd, td, td⟩ else ⟨-d + b, a, td, td⟩).sn /
       (if -d + b < 0 then (⟨0, sd, td, td⟩ : Fracs K) else if -d + b > a then ⟨sd, sd, td, td⟩ else ⟨-d + b, a, td, td⟩).sd) 1 := by
  intro td
  split
  · rename_i h
    have he := he (.inl h)
    simp only [zero_div]
    refine ⟨le_rfl, zero_le_one, zero_le_one, le_rfl, grad_low (by linarith), grad_high (by linarith)⟩
  · split
    · rename_i h h'
      simp only [div_self hsd.ne']
      have := h1 h'
      exact ⟨zero_le_one, le_rfl, zero_le_one, le_rfl, grad_high (by linarith), grad_high (by linarith)⟩
    · rename_i h h'
      simp only
      have h3 := h2 (by linarith) (by linarith)
      rcases ha.lt_or_eq with ha' | ha'
      · refine ⟨div_nonneg (by linarith) ha, by rw [div_le_one ha']; linarith, zero_le_one, le_rfl, grad_zero ?_, grad_high ?_⟩
        · field_simp; ring
        · have : c * 1 - b * ((-d + b) / a) - e = -((a * e - b * d) - (a * c - b * b)) / a := by field_simp; ring
          rw [this]
          exact div_nonpos_of_nonpos_of_nonneg (by linarith) ha
      · have hd := had ha'.symm
        have he := he (.inr ha'.symm)
        subst hd
        have hb0 : b = 0 := by
          have : b * b ≤ 0 := by rw [← ha'] at hb; simpa using hb
          exact mul_self_eq_zero.1 (le_antisymm this (mul_self_nonneg b))
        subst hb0
        rw [← ha']
        simp only [neg_zero, zero_div, add_zero]
        refine ⟨le_rfl, zero_le_one, zero_le_one, le_rfl, grad_low (by simp), grad_high (by linarith)⟩

theorem closest_aux {a b c D E : K} (ha : 0 < a) (hb : b * b ≤ a * c) (hD : 0 < D)
    (h1 : c * D ≤ b * E) (h2 : a * E < b * D) : E ≤ 0 := by
  by_contra hE
  push Not at hE
  have hc : 0 ≤ c := by
    by_contra hc
    push Not at hc
    have := mul_neg_of_pos_of_neg ha hc
    nlinarith [mul_self_nonneg b]
  have hbp : 0 < b := by
    by_contra hb'
    push Not at hb'
    have : a * E > 0 := mul_pos ha hE
    have : b * D ≤ 0 := mul_nonpos_of_nonpos_of_nonneg hb' hD.le
    linarith
  have h3 : b * (a * E) < b * (b * D) := mul_lt_mul_of_pos_left h2 hbp
  have h4 : b * b * D ≤ a * c * D := mul_le_mul_of_nonneg_right hb hD.le
  have h5 : a * (c * D) ≤ a * (b * E) := mul_le_mul_of_nonneg_left h1 ha.le
  nlinarith

/-- clamp of the second parameter, given what each outcome needs -/
theorem clamp_kkt {a b c d e : K} {f : Fracs K} (ha : 0 ≤ a) (hb : b * b ≤ a * c) (had : a = 0 → d = 0)
    (hsd : 0 < f.sd) (htd : 0 < f.td)
    (mid : 0 ≤ f.tn → f.tn ≤ f.td → KKT a b c d e (f.sn / f.sd) (f.tn / f.td))
    (low : f.tn < 0 → (-d < 0 ∨ a = 0 → e ≤ 0) ∧ (-d > a → e + b ≤ 0) ∧ (0 ≤ -d → -d ≤ a → a * e - b * d ≤ 0))
    (high : f.tn > f.td → (-d + b < 0 ∨ a = 0 → c ≤ e) ∧ (-d + b > a → c - b - e ≤ 0) ∧
      (0 ≤ -d + b → -d + b ≤ a → a * c - b * b ≤ a * e - b * d)) :
    KKT a b c d e ((s2sClamp id a b d f).sn / (s2sClamp id a b d f).sd)
      ((s2sClamp id a b d f).tn / (s2sClamp id a b d f).td) := by
  by_cases h1 : f.tn < 0
  · obtain ⟨l1, l2, l3⟩ := low h1
    have := kkt_t0 (c := c) ha hb had hsd l1 l2 l3 f.td
    unfold s2sClamp
    simp only [h1, if_true]
    have ht : ∀ g : Fracs K, g = (if -d < 0 then (⟨0, f.sd, 0, f.td⟩ : Fracs K) else if -d > a then ⟨f.sd, f.sd, 0, f.td⟩ else ⟨-d, a, 0, f.td⟩) →
        g.tn / g.td = 0 := by
      rintro g rfl
      split
      · simp
      · split <;> simp
    rw [ht _ rfl]
    exact this
  · by_cases h2 : f.tn > f.td
    · obtain ⟨l1, l2, l3⟩ := high h2
      have := kkt_t1 (c := c) ha hb had hsd l1 l2 l3 f.td
      unfold s2sClamp
      simp only [h1, h2, if_true, if_false, id]
      have ht : ∀ g : Fracs K, g = (if -d + b < 0 then (⟨0, f.sd, f.td, f.td⟩ : Fracs K) else if -d + b > a then ⟨f.sd, f.sd, f.td, f.td⟩ else ⟨-d + b, a, f.td, f.td⟩) →
          g.tn / g.td = 1 := by
        rintro g rfl
        split
        · simp [htd.ne']
        · split <;> simp [htd.ne']
      rw [ht _ rfl]
      exact this
    · unfold s2sClamp
      simp only [h1, h2, if_false]
      exact mid (by linarith) (by linarith)

/-- The untruncated parameters are optimal: when the lines are properly skew (`tol <= ac - b²`), or exactly
parallel with a non-degenerate second segment. -/
theorem s2s_kkt {tol a b c d e : K} (htol : 0 < tol) (ha : 0 ≤ a) (hc : 0 ≤ c) (hb : b * b ≤ a * c)
    (had : a = 0 → d = 0)
    (hcase : tol ≤ a * c - b * b ∨ (a * c - b * b = 0 ∧ 0 < c ∧ c * d = b * e)) :
    KKT a b c d e (s2sExact tol a b c d e).1 (s2sExact tol a b c d e).2 := by
  unfold s2sExact
  simp only
  rcases hcase with hdd | ⟨hdd, hcp, hcd⟩
  · have hddp : 0 < a * c - b * b := by linarith
    have hac : 0 < a * c := by nlinarith [mul_self_nonneg b]
    have hap : 0 < a := by
      rcases ha.lt_or_eq with h | h
      · exact h
      · rw [← h] at hac; simp at hac
    have hcp : 0 < c := by
      rcases hc.lt_or_eq with h | h
      · exact h
      · rw [← h] at hac; simp at hac
    have hnl : ¬ a * c - b * b < tol := by linarith
    by_cases hs0 : b * e - c * d < 0
    · -- s = 0 edge
      have hf : s2sLines id tol a b c d e = ⟨0, a * c - b * b, e, c⟩ := by
        unfold s2sLines; simp only [id, hnl, if_false, hs0, if_true]
      rw [hf]
      refine clamp_kkt ha hb had hddp hcp ?_ ?_ ?_
      · intro h0 h1
        simp only [zero_div] at h0 h1 ⊢
        refine ⟨le_rfl, zero_le_one, div_nonneg h0 hc, by rw [div_le_one hcp]; exact h1, grad_low ?_, grad_zero ?_⟩
        · have : a * 0 - b * (e / c) + d = (c * d - b * e) / c := by field_simp; ring
          rw [this]; exact div_nonneg (by linarith) hc
        · field_simp; ring
      · intro h0
        simp only at h0
        refine ⟨fun _ => h0.le, ?_, ?_⟩
        · intro h
          rcases le_or_gt b 0 with hb' | hb'
          · linarith
          · by_contra hcon
            push Not at hcon
            have := mul_pos hb' hcon
            nlinarith
        · intro g1 g2
          rcases le_or_gt b 0 with hb' | hb'
          · nlinarith
          · have : c * (a * e - b * d) ≤ 0 := by nlinarith
            exact nonpos_of_mul_nonpos_right this hcp
      · intro h0
        simp only [gt_iff_lt] at h0
        refine ⟨fun _ => h0.le, ?_, ?_⟩
        · intro h
          rcases le_or_gt 0 b with hb' | hb'
          · linarith
          · by_contra hcon
            push Not at hcon
            have := mul_pos (neg_pos.2 hb') hcon
            nlinarith
        · intro g1 g2
          rcases le_or_gt 0 b with hb' | hb'
          · nlinarith
          · have : 0 ≤ c * ((a * e - b * d) - (a * c - b * b)) := by nlinarith
            have := nonneg_of_mul_nonneg_right this hcp
            linarith
    · by_cases hs1 : b * e - c * d > a * c - b * b
      · have hf : s2sLines id tol a b c d e = ⟨a * c - b * b, a * c - b * b, e + b, c⟩ := by
          unfold s2sLines; simp only [id, hnl, if_false, hs0, hs1, if_true]
        rw [hf]
        refine clamp_kkt ha hb had hddp hcp ?_ ?_ ?_
        · intro h0 h1
          simp only [div_self hddp.ne'] at h0 h1 ⊢
          refine ⟨zero_le_one, le_rfl, div_nonneg h0 hc, by rw [div_le_one hcp]; exact h1, grad_high ?_, grad_zero ?_⟩
          · have : a * 1 - b * ((e + b) / c) + d = ((a * c - b * b) - (b * e - c * d)) / c := by field_simp; ring
            rw [this]; exact div_nonpos_of_nonpos_of_nonneg (by linarith) hc
          · field_simp; ring
        · intro h0
          simp only at h0
          refine ⟨?_, fun _ => h0.le, ?_⟩
          · rintro (h | h)
            · by_contra hcon
              push Not at hcon
              have hbn : b < 0 := by linarith
              have h5 : 0 < -b * e := mul_pos (by linarith) hcon
              have h6 : 0 < c * d := mul_pos hcp (by linarith)
              linarith
            · exact absurd h hap.ne'
          · intro g1 g2
            rcases le_or_gt 0 b with hb' | hb'
            · have h6 : a * (e + b) ≤ 0 := mul_nonpos_of_nonneg_of_nonpos ha h0.le
              have h7 : 0 ≤ b * (d + a) := mul_nonneg hb' (by linarith)
              linarith
            · have h8 : (-b) * (c * (d + a)) ≤ (-b) * (b * (e + b)) :=
                mul_le_mul_of_nonneg_left (by linarith) (by linarith)
              have h9 : (a * c - b * b) * (e + b) ≤ 0 := mul_nonpos_of_nonneg_of_nonpos hddp.le h0.le
              have : c * (a * e - b * d) ≤ 0 := by linarith
              exact nonpos_of_mul_nonpos_right this hcp
        · intro h0
          simp only [gt_iff_lt] at h0
          refine ⟨?_, fun _ => by linarith, ?_⟩
          · rintro (h | h)
            · rcases le_or_gt b 0 with hb' | hb'
              · linarith
              · by_contra hcon
                push Not at hcon
                have h5 : b * e < b * c := mul_lt_mul_of_pos_left hcon hb'
                have h6 : c * b < c * d := mul_lt_mul_of_pos_left (by linarith) hcp
                linarith
            · exact absurd h hap.ne'
          · intro g1 g2
            rcases le_or_gt b 0 with hb' | hb'
            · have h6 : 0 ≤ a * (e + b - c) := mul_nonneg ha (by linarith)
              have h7 : b * (d + a - b) ≤ 0 := mul_nonpos_of_nonpos_of_nonneg hb' (by linarith)
              linarith
            · have h8 : b * (c * (d + a - b)) ≤ b * (b * (e + b - c)) :=
                mul_le_mul_of_nonneg_left (by linarith) hb'.le
              have h9 : 0 ≤ (a * c - b * b) * (e + b - c) := mul_nonneg hddp.le (by linarith)
              have : 0 ≤ c * ((a * e - b * d) - (a * c - b * b)) := by linarith
              have := nonneg_of_mul_nonneg_right this hcp
              linarith
      · have hf : s2sLines id tol a b c d e = ⟨b * e - c * d, a * c - b * b, a * e - b * d, a * c - b * b⟩ := by
          unfold s2sLines; simp only [id, hnl, if_false, hs0, hs1]
        rw [hf]
        push Not at hs0 hs1
        refine clamp_kkt ha hb had hddp hddp ?_ ?_ ?_
        · intro h0 h1
          simp only at h0 h1 ⊢
          refine ⟨div_nonneg hs0 hddp.le, by rw [div_le_one hddp]; exact hs1, div_nonneg h0 hddp.le,
            by rw [div_le_one hddp]; exact h1, grad_zero ?_, grad_zero ?_⟩
          · have hne := hddp.ne'
            have h2 : a * ((b * e - c * d) / (a * c - b * b)) - b * ((a * e - b * d) / (a * c - b * b)) + d =
              (a * (b * e - c * d) - b * (a * e - b * d) + d * (a * c - b * b)) / (a * c - b * b) := by
                rw [eq_div_iff hne, add_mul, sub_mul, mul_assoc a, mul_assoc b, div_mul_cancel₀ _ hne, div_mul_cancel₀ _ hne]
            rw [h2]
            have : a * (b * e - c * d) - b * (a * e - b * d) + d * (a * c - b * b) = 0 := by ring
            rw [this, zero_div]
          · have hne := hddp.ne'
            have h2 : c * ((a * e - b * d) / (a * c - b * b)) - b * ((b * e - c * d) / (a * c - b * b)) - e =
              (c * (a * e - b * d) - b * (b * e - c * d) - e * (a * c - b * b)) / (a * c - b * b) := by
                rw [eq_div_iff hne, sub_mul, sub_mul, mul_assoc c, mul_assoc b, div_mul_cancel₀ _ hne, div_mul_cancel₀ _ hne]
            rw [h2]
            have : c * (a * e - b * d) - b * (b * e - c * d) - e * (a * c - b * b) = 0 := by ring
            rw [this, zero_div]
        · intro h0
          simp only at h0
          refine ⟨?_, ?_, fun _ _ => h0.le⟩
          · rintro (h | h)
            · exact closest_aux hap hb (D := d) (by linarith) (by linarith) (by linarith)
            · exact absurd h hap.ne'
          · intro h
            exact closest_aux (b := -b) (c := c) hap (by linarith) (D := -(a + d)) (by linarith) (by linarith) (by linarith)
        · intro h0
          simp only [gt_iff_lt] at h0
          refine ⟨?_, ?_, fun _ _ => h0.le⟩
          · rintro (h | h)
            · have := closest_aux (b := -b) (c := c) hap (by linarith) (D := d - b) (E := c - e) (by linarith) (by linarith) (by linarith)
              linarith
            · exact absurd h hap.ne'
          · intro h
            exact closest_aux (b := b) (c := c) hap (by linarith) (D := -(d - b + a)) (E := c - b - e) (by linarith) (by linarith) (by linarith)
  · -- parallel
    have hae : a * e = b * d := by
      have : c * (a * e - b * d) = 0 := by
        have h1 : a * c = b * b := by linarith
        calc c * (a * e - b * d) = a * c * e - b * (c * d) := by ring
          _ = 0 := by rw [hcd, h1]; ring
      rcases mul_eq_zero.1 this with h | h
      · exact absurd h hcp.ne'
      · linarith
    have hf : s2sLines id tol a b c d e = ⟨0, 1, e, c⟩ := by
      have : a * c - b * b < tol := by linarith
      unfold s2sLines; simp only [id, this, if_true]
    rw [hf]
    refine clamp_kkt ha hb had one_pos hcp ?_ ?_ ?_
    · intro h0 h1
      simp only [zero_div] at h0 h1 ⊢
      refine ⟨le_rfl, zero_le_one, div_nonneg h0 hc, by rw [div_le_one hcp]; exact h1, grad_zero ?_, grad_zero ?_⟩
      · field_simp; linarith
      · field_simp; ring
    · intro h0
      simp only at h0
      refine ⟨fun _ => h0.le, ?_, fun _ _ => by linarith⟩
      intro h
      rcases le_or_gt b 0 with hb' | hb'
      · linarith
      · have : b * (e + b) < 0 := by
          have h5 : c * (d + a) < 0 := mul_neg_of_pos_of_neg hcp (by linarith)
          linarith
        by_contra hcon
        push Not at hcon
        have := mul_pos hb' hcon
        linarith
    · intro h0
      simp only [gt_iff_lt] at h0
      refine ⟨fun _ => h0.le, ?_, fun _ _ => by linarith⟩
      intro h
      rcases le_or_gt 0 b with hb' | hb'
      · linarith
      · by_contra hcon
        push Not at hcon
        have h5 : c * (d - b + a) < 0 := mul_neg_of_pos_of_neg hcp (by linarith)
        have := mul_pos (neg_pos.2 hb') hcon
        linarith

end Verif.Model
