import Verif.Lemmas.Spline
import Mathlib.Analysis.Calculus.Deriv.MeanValue

/-!
The slopes of `PchipInterpolator` keep every cubic piece monotone.
-/
namespace Verif.Model

open Verif Verif.Np Verif.Spec

/-- The slope `d` lies between 0 and three times the secant slope `m`. -/
def SlopeOk (d m : ℝ) : Prop := (0 ≤ m → 0 ≤ d ∧ d ≤ 3 * m) ∧ (m ≤ 0 → 3 * m ≤ d ∧ d ≤ 0)

theorem slopeOk_zero (m : ℝ) : SlopeOk 0 m := ⟨fun h => ⟨le_refl _, by linarith⟩, fun h => ⟨by linarith, le_refl _⟩⟩

theorem slopeOk_neg {d m : ℝ} (h : SlopeOk d m) : SlopeOk (-d) (-m) :=
  ⟨fun hm => by have := h.2 (by linarith); constructor <;> linarith, fun hm => by have := h.1 (by linarith); constructor <;> linarith⟩

theorem npSign_pos {x : ℝ} (h : 0 < x) : npSign x = 1 := if_pos h
theorem npSign_neg {x : ℝ} (h : x < 0) : npSign x = -1 := by
  unfold npSign; rw [if_neg (by linarith), if_pos h]
theorem npSign_zero : npSign 0 = 0 := by simp [npSign]

theorem npSign_eq_one {x : ℝ} (h : npSign x = 1) : 0 < x := by
  unfold npSign at h; split_ifs at h <;> first | assumption | omega
theorem npSign_eq_neg {x : ℝ} (h : npSign x = -1) : x < 0 := by
  unfold npSign at h; split_ifs at h <;> first | assumption | omega
theorem npSign_eq_zero {x : ℝ} (h : npSign x = 0) : x = 0 := by
  unfold npSign at h; split_ifs at h <;> first | omega | linarith

theorem pchipEdge_ok {h0 h1 : ℝ} (p0 : 0 < h0) (p1 : 0 < h1) (m0 m1 : ℝ) : SlopeOk (pchipEdge h0 h1 m0 m1) m0 := by
  unfold pchipEdge
  simp only
  have hp : 0 < h0 + h1 := by linarith
  obtain ⟨d, hd⟩ : ∃ d, d = ((2 * h0 + h1) * m0 - h0 * m1) / (h0 + h1) := ⟨_, rfl⟩
  have hd' : d * (h0 + h1) = (2 * h0 + h1) * m0 - h0 * m1 := by rw [hd]; field_simp
  rw [← hd]
  split_ifs with h2 h3
  · exact slopeOk_zero m0
  · exact ⟨fun h => ⟨by linarith, le_refl _⟩, fun h => ⟨le_refl _, by linarith⟩⟩
  · simp only [ne_eq, not_not] at h2
    rcases lt_trichotomy m0 0 with hm | hm | hm
    · rw [npSign_neg hm] at h2
      have hdn := npSign_eq_neg h2
      refine ⟨fun h => absurd h (by linarith), fun _ => ⟨?_, hdn.le⟩⟩
      rw [not_and_or] at h3
      rcases h3 with h3 | h3
      · simp only [ne_eq, not_not] at h3
        rw [npSign_neg hm] at h3
        have hm1 := npSign_eq_neg h3.symm
        nlinarith
      · rw [abs_of_neg hm, abs_of_neg hdn] at h3; linarith
    · subst hm
      rw [npSign_zero] at h2
      have := npSign_eq_zero h2
      rw [this]; exact slopeOk_zero _
    · rw [npSign_pos hm] at h2
      have hdn := npSign_eq_one h2
      refine ⟨fun _ => ⟨hdn.le, ?_⟩, fun h => absurd h (by linarith)⟩
      rw [not_and_or] at h3
      rcases h3 with h3 | h3
      · simp only [ne_eq, not_not] at h3
        rw [npSign_pos hm] at h3
        have hm1 := npSign_eq_one h3.symm
        nlinarith
      · rw [abs_of_pos hm, abs_of_pos hdn] at h3; linarith

theorem harmonic_ok {w1 w2 a b : ℝ} (p1 : 0 < w1) (p2 : 0 < w2) (h1 : w1 ≤ 2 * w2) (h2 : w2 ≤ 2 * w1) (ha : 0 < a) (hb : 0 < b) :
    0 ≤ 1 / ((w1 / a + w2 / b) / (w1 + w2)) ∧ 1 / ((w1 / a + w2 / b) / (w1 + w2)) ≤ 3 * a ∧
    1 / ((w1 / a + w2 / b) / (w1 + w2)) ≤ 3 * b := by
  have e : 1 / ((w1 / a + w2 / b) / (w1 + w2)) = (w1 + w2) * (a * b) / (w1 * b + w2 * a) := by
    have : w1 + w2 ≠ 0 := by linarith
    have : w1 * b + w2 * a ≠ 0 := by positivity
    field_simp
  rw [e]
  have hp : 0 < w1 * b + w2 * a := by positivity
  have hab : 0 < a * b := mul_pos ha hb
  refine ⟨by positivity, ?_, ?_⟩
  · rw [div_le_iff₀ hp]
    have : 0 ≤ a * ((2 * w1 - w2) * b + 3 * w2 * a) := by
      apply mul_nonneg ha.le
      have : 0 ≤ (2 * w1 - w2) * b := mul_nonneg (by linarith) hb.le
      positivity
    nlinarith
  · rw [div_le_iff₀ hp]
    have : 0 ≤ b * ((2 * w2 - w1) * a + 3 * w1 * b) := by
      apply mul_nonneg hb.le
      have : 0 ≤ (2 * w2 - w1) * a := mul_nonneg (by linarith) ha.le
      positivity
    nlinarith

theorem harmonic_both {w1 w2 a b : ℝ} (p1 : 0 < w1) (p2 : 0 < w2) (h1 : w1 ≤ 2 * w2) (h2 : w2 ≤ 2 * w1)
    (hab : npSign b = npSign a) (ha0 : a ≠ 0) : SlopeOk (1 / ((w1 / a + w2 / b) / (w1 + w2))) a ∧
    SlopeOk (1 / ((w1 / a + w2 / b) / (w1 + w2))) b := by
  rcases lt_or_gt_of_ne ha0 with ha | ha
  · rw [npSign_neg ha] at hab
    have hb := npSign_eq_neg hab
    obtain ⟨k1, k2, k3⟩ := harmonic_ok p1 p2 h1 h2 (neg_pos.2 ha) (neg_pos.2 hb)
    have e : 1 / ((w1 / -a + w2 / -b) / (w1 + w2)) = -(1 / ((w1 / a + w2 / b) / (w1 + w2))) := by
      rw [div_neg, div_neg, ← neg_add, neg_div, div_neg]
    rw [e] at k1 k2 k3
    exact ⟨⟨fun h => absurd h (by linarith), fun _ => ⟨by linarith, by linarith⟩⟩,
      ⟨fun h => absurd h (by linarith), fun _ => ⟨by linarith, by linarith⟩⟩⟩
  · rw [npSign_pos ha] at hab
    have hb := npSign_eq_one hab
    obtain ⟨k1, k2, k3⟩ := harmonic_ok p1 p2 h1 h2 ha hb
    exact ⟨⟨fun _ => ⟨k1, k2⟩, fun h => absurd h (by linarith)⟩, ⟨fun _ => ⟨k1, k3⟩, fun h => absurd h (by linarith)⟩⟩

/-- The slopes at the two ends of piece `i` fit its secant slope. -/
theorem pchipSlope_ok {n : Nat} {x : Nat → ℝ} (y : Nat → ℝ) (hx : ∀ i, i + 1 < n → x i < x (i + 1)) {i : Nat} (hi : i + 1 < n) :
    SlopeOk (pchipSlope n x y i) ((y (i + 1) - y i) / (x (i + 1) - x i)) ∧
    SlopeOk (pchipSlope n x y (i + 1)) ((y (i + 1) - y i) / (x (i + 1) - x i)) := by
  have hp : ∀ i, i + 1 < n → 0 < x (i + 1) - x i := fun i h => by have := hx i h; linarith
  have self : ∀ m : ℝ, SlopeOk m m := fun m => ⟨fun h => ⟨h, by linarith⟩, fun h => ⟨by linarith, h⟩⟩
  -- an inner knot
  have inner : ∀ k, 0 < k → k + 1 < n → n ≠ 2 →
      SlopeOk (pchipSlope n x y k) ((y (k + 1) - y k) / (x (k + 1) - x k)) ∧
      SlopeOk (pchipSlope n x y k) ((y (k - 1 + 1) - y (k - 1)) / (x (k - 1 + 1) - x (k - 1))) := by
    intro k hk hkn hn
    have q1 := hp k hkn
    have q2 := hp (k - 1) (by omega)
    unfold pchipSlope
    simp only
    rw [if_neg hn, if_neg (by omega), if_neg (by omega)]
    split_ifs with h
    · exact ⟨slopeOk_zero _, slopeOk_zero _⟩
    · rw [not_or, not_or, not_ne_iff] at h
      have := harmonic_both (w1 := 2 * (x (k + 1) - x k) + (x (k - 1 + 1) - x (k - 1)))
        (w2 := (x (k + 1) - x k) + 2 * (x (k - 1 + 1) - x (k - 1))) (by linarith) (by linarith) (by linarith) (by linarith) h.1 h.2.2
      exact ⟨this.2, this.1⟩
  constructor
  · by_cases hn : n = 2
    · have : i = 0 := by omega
      subst this
      unfold pchipSlope; simp only; rw [if_pos hn]; exact self _
    · rcases Nat.eq_zero_or_pos i with rfl | h0
      · unfold pchipSlope; simp only; rw [if_neg hn, if_pos trivial]
        exact pchipEdge_ok (hp 0 hi) (hp 1 (by omega)) _ _
      · exact (inner i h0 hi hn).1
  · by_cases hn : n = 2
    · have : i = 0 := by omega
      subst this
      unfold pchipSlope; simp only; rw [if_pos hn]; exact self _
    · by_cases h1 : i + 1 + 1 < n
      · have := (inner (i + 1) (by omega) h1 hn).2
        rwa [Nat.add_sub_cancel] at this
      · have e : n - 2 = i := by omega
        unfold pchipSlope; simp only
        rw [if_neg hn, if_neg (by omega), if_pos (by omega), e]
        exact pchipEdge_ok (hp i hi) (hp (n - 3) (by omega)) _ _

/-- The slope of the cubic as a function of the relative position. -/
theorem hermD_basis {x0 x1 : ℝ} (h : x0 < x1) (y0 y1 d0 d1 u : ℝ) :
    hermD x0 x1 y0 y1 d0 d1 (x0 + u * (x1 - x0)) =
      6 * ((y1 - y0) / (x1 - x0)) * (u * (1 - u)) + d0 * ((1 - u) * (1 - 3 * u)) + d1 * (u * (3 * u - 2)) := by
  unfold hermD
  have : x1 - x0 ≠ 0 := by linarith
  field_simp
  ring

theorem cubic_slope_nonneg {m d0 d1 u : ℝ} (hm : 0 ≤ m) (h0 : 0 ≤ d0) (h1 : d0 ≤ 3 * m) (h2 : 0 ≤ d1) (h3 : d1 ≤ 3 * m)
    (u0 : 0 ≤ u) (u1 : u ≤ 1) : 0 ≤ 6 * m * (u * (1 - u)) + d0 * ((1 - u) * (1 - 3 * u)) + d1 * (u * (3 * u - 2)) := by
  rcases hm.eq_or_lt with rfl | hm
  · have e0 : d0 = 0 := by linarith
    have e1 : d1 = 0 := by linarith
    rw [e0, e1]; simp
  · obtain ⟨a, ha⟩ : ∃ a, a = d0 / (3 * m) := ⟨_, rfl⟩
    obtain ⟨b, hb⟩ : ∃ b, b = d1 / (3 * m) := ⟨_, rfl⟩
    have ea : d0 = 3 * m * a := by rw [ha]; field_simp
    have eb : d1 = 3 * m * b := by rw [hb]; field_simp
    have a0 : 0 ≤ a := by rw [ha]; positivity
    have b0 : 0 ≤ b := by rw [hb]; positivity
    have a1 : a ≤ 1 := by rw [ha, div_le_one (by linarith)]; exact h1
    have b1 : b ≤ 1 := by rw [hb, div_le_one (by linarith)]; exact h3
    have e : 6 * m * (u * (1 - u)) + d0 * ((1 - u) * (1 - 3 * u)) + d1 * (u * (3 * u - 2)) =
        3 * m * ((1 - a) * (1 - b) * (2 * (u * (1 - u))) + a * (1 - b) * (1 - u) ^ 2 + (1 - a) * b * u ^ 2 + a * b * (1 - 2 * u) ^ 2) := by
      rw [ea, eb]; ring
    rw [e]
    have c1 : 0 ≤ 1 - a := by linarith
    have c2 : 0 ≤ 1 - b := by linarith
    have c3 : 0 ≤ 1 - u := by linarith
    positivity

/-- A cubic whose end slopes fit the secant slope is monotone. -/
theorem hermR_monotoneOn {x0 x1 : ℝ} (h : x0 < x1) {y0 y1 d0 d1 : ℝ} (hy : y0 ≤ y1) (s0 : SlopeOk d0 ((y1 - y0) / (x1 - x0)))
    (s1 : SlopeOk d1 ((y1 - y0) / (x1 - x0))) : MonotoneOn (hermR x0 x1 y0 y1 d0 d1) (Set.Icc x0 x1) := by
  have hm : 0 ≤ (y1 - y0) / (x1 - x0) := div_nonneg (by linarith) (by linarith)
  have hD : ∀ x, HasDerivAt (hermR x0 x1 y0 y1 d0 d1) (hermD x0 x1 y0 y1 d0 d1 x) x := hermR_hasDerivAt x0 x1 y0 y1 d0 d1
  apply monotoneOn_of_deriv_nonneg (convex_Icc _ _)
  · intro x _; exact (hD x).continuousAt.continuousWithinAt
  · intro x _; exact (hD x).differentiableAt.differentiableWithinAt
  · intro x hx
    rw [interior_Icc] at hx
    rw [(hD x).deriv]
    have hp : 0 < x1 - x0 := by linarith
    have e : x = x0 + (x - x0) / (x1 - x0) * (x1 - x0) := by field_simp; ring
    rw [e, hermD_basis h]
    exact cubic_slope_nonneg hm (s0.1 hm).1 (s0.1 hm).2 (s1.1 hm).1 (s1.1 hm).2 (div_nonneg (by linarith [hx.1]) hp.le)
      ((div_le_one hp).2 (by linarith [hx.2]))

theorem hermR_neg (x0 x1 y0 y1 d0 d1 x : ℝ) : hermR x0 x1 (-y0) (-y1) (-d0) (-d1) x = -hermR x0 x1 y0 y1 d0 d1 x := by
  unfold hermR; ring

theorem hermR_antitoneOn {x0 x1 : ℝ} (h : x0 < x1) {y0 y1 d0 d1 : ℝ} (hy : y1 ≤ y0) (s0 : SlopeOk d0 ((y1 - y0) / (x1 - x0)))
    (s1 : SlopeOk d1 ((y1 - y0) / (x1 - x0))) : AntitoneOn (hermR x0 x1 y0 y1 d0 d1) (Set.Icc x0 x1) := by
  have e : (-y1 - -y0) / (x1 - x0) = -((y1 - y0) / (x1 - x0)) := by ring
  have := hermR_monotoneOn h (y0 := -y0) (y1 := -y1) (d0 := -d0) (d1 := -d1) (by linarith) (by rw [e]; exact slopeOk_neg s0)
    (by rw [e]; exact slopeOk_neg s1)
  intro a ha b hb hab
  have := this ha hb hab
  rw [hermR_neg, hermR_neg] at this
  linarith

end Verif.Model
