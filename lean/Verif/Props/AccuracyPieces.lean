import Verif.Props.AccuracySpline
import Verif.Props.AccuracyCurv
import Verif.Props.Slopes

/-!
C149: how close the piecewise cubic curves of `pchip`, `akima` and `hermite` are to the curve through the points.
-/

namespace Verif.Props

open Verif Verif.Np Verif.Model Verif.Spec Set

/-- A cubic whose slopes at both ends are close to that of the chord is close to the chord. -/
theorem herm_dev {u v y0 y1 d0 d1 D x : ℝ} (huv : u < v) (h0 : |d0 - (y1 - y0) / (v - u)| ≤ D) (h1 : |d1 - (y1 - y0) / (v - u)| ≤ D)
    (hx : x ∈ Icc u v) : |hermR u v y0 y1 d0 d1 x - (y0 + (x - u) / (v - u) * (y1 - y0))| ≤ D * (v - u) / 4 := by
  obtain ⟨s, hs⟩ : ∃ s, s = (x - u) / (v - u) := ⟨_, rfl⟩
  have hp : 0 < v - u := by linarith
  have hx' : x = u + s * (v - u) := by rw [hs]; field_simp; ring
  have s0 : 0 ≤ s := by rw [hs]; exact div_nonneg (by linarith [hx.1]) hp.le
  have s1 : s ≤ 1 := by rw [hs, div_le_one hp]; linarith [hx.2]
  obtain ⟨m, hm⟩ : ∃ m, m = (y1 - y0) / (v - u) := ⟨_, rfl⟩
  have hy : y1 - y0 = m * (v - u) := by rw [hm]; field_simp
  rw [← hm] at h0 h1
  rw [← hs]
  have e : hermR u v y0 y1 d0 d1 x - (y0 + s * (y1 - y0)) =
      (v - u) * (s * (1 - s) ^ 2 * (d0 - m) - s ^ 2 * (1 - s) * (d1 - m)) := by
    rw [hx', hermR_basis huv, hy]; ring
  rw [e, abs_mul, abs_of_pos hp]
  have a1 : 0 ≤ s * (1 - s) ^ 2 := by positivity
  have a2 : 0 ≤ s ^ 2 * (1 - s) := mul_nonneg (by positivity) (by linarith)
  have b1 : |s * (1 - s) ^ 2 * (d0 - m) - s ^ 2 * (1 - s) * (d1 - m)| ≤ s * (1 - s) ^ 2 * D + s ^ 2 * (1 - s) * D := by
    refine (abs_sub _ _).trans ?_
    rw [abs_mul (s * (1 - s) ^ 2), abs_mul (s ^ 2 * (1 - s)), abs_of_nonneg a1, abs_of_nonneg a2]
    exact add_le_add (mul_le_mul_of_nonneg_left h0 a1) (mul_le_mul_of_nonneg_left h1 a2)
  have b2 : s * (1 - s) ^ 2 * D + s ^ 2 * (1 - s) * D ≤ D / 4 := by
    have : s * (1 - s) ≤ 1 / 4 := by nlinarith [sq_nonneg (s - 1 / 2)]
    have hD : 0 ≤ D := (abs_nonneg _).trans h0
    have := mul_le_mul_of_nonneg_right this hD
    linarith
  have := mul_le_mul_of_nonneg_left (b1.trans b2) hp.le
  linarith

/-- The chord stays close to the curve. -/
theorem chord_near {E : Type*} [NormedAddCommGroup E] [NormedSpace ℝ E] {a b M h : ℝ} {g d : ℝ → E} (hM : 0 ≤ M) (h1 : DerivOn a b g d) (hl : LipOn a b M d) {u v x s : ℝ} (hu : u ∈ Icc a b) (hv : v ∈ Icc a b) (h0 : 0 ≤ s) (hs1 : s ≤ 1)
    (hx : (v - u) * s = x - u) (hx' : x ∈ Icc a b) (huv : u ≤ v) (hstep : v - u ≤ h) : ‖g u + s • (g v - g u) - g x‖ ≤ M / 8 * h ^ 2 := by
  have e1 := taylor1 h1 hl hx' hu
  have e2 := taylor1 h1 hl hx' hv
  rw [sq_abs] at e1 e2
  have hz : (1 - s) * (u - x) + s * (v - x) = 0 := by linarith
  have : g u + s • (g v - g u) - g x = (1 - s) • (g u - g x - (u - x) • d x) + s • (g v - g x - (v - x) • d x) := by
    have e : (1 - s) • (g u - g x - (u - x) • d x) + s • (g v - g x - (v - x) • d x) =
        g u + s • (g v - g u) - g x - ((1 - s) * (u - x) + s * (v - x)) • d x := by module
    rw [e, hz, zero_smul, sub_zero]
  rw [this]
  refine (norm_add_le _ _).trans ?_
  rw [norm_smul, norm_smul, Real.norm_of_nonneg (by linarith), Real.norm_of_nonneg h0]
  have f1 := mul_le_mul_of_nonneg_left e1 (show 0 ≤ 1 - s by linarith)
  have f2 := mul_le_mul_of_nonneg_left e2 h0
  have g1 : x = u + (v - u) * s := by linarith
  subst g1
  have f3 : (1 - s) * (M / 2 * (u - (u + (v - u) * s)) ^ 2) + s * (M / 2 * (v - (u + (v - u) * s)) ^ 2) = M / 2 * (v - u) ^ 2 * (s * (1 - s)) := by ring
  have f4 : s * (1 - s) ≤ 1 / 4 := by nlinarith [sq_nonneg (s - 1 / 2)]
  have f5 : (v - u) ^ 2 ≤ h ^ 2 := pow_le_pow_left₀ (by linarith) hstep 2
  have f6 : M / 2 * (v - u) ^ 2 * (s * (1 - s)) ≤ M / 2 * (v - u) ^ 2 * (1 / 4) := mul_le_mul_of_nonneg_left f4 (by positivity)
  have f7 : M * (v - u) ^ 2 ≤ M * h ^ 2 := mul_le_mul_of_nonneg_left f5 hM
  linarith

/-- The slope of a chord is close to the derivative at its ends. -/
theorem chord_slope {a b M : ℝ} {g d : ℝ → ℝ} (h1 : DerivOn a b g d) (hl : LipOn a b M d) {x y : ℝ} (hx : x ∈ Icc a b) (hy : y ∈ Icc a b)
    (hxy : x ≠ y) : |(g y - g x) / (y - x) - d x| ≤ M / 2 * |y - x| := by
  have := taylor1 h1 hl hx hy
  rw [Real.norm_eq_abs, smul_eq_mul] at this
  have hne : y - x ≠ 0 := sub_ne_zero.2 (Ne.symm hxy)
  have hp : 0 < |y - x| := abs_pos.2 hne
  have e : (g y - g x) / (y - x) - d x = (g y - g x - (y - x) * d x) / (y - x) := by field_simp
  rw [e, abs_div, div_le_iff₀ hp]
  calc _ ≤ _ := this
    _ = _ := by ring

/-- Neighbouring chords have nearly the same slope. -/
theorem chord_slopes {a b M h : ℝ} {g d : ℝ → ℝ} (h1 : DerivOn a b g d) (hl : LipOn a b M d) (hM : 0 ≤ M) {x y z : ℝ} (hx : x ∈ Icc a b)
    (hz : z ∈ Icc a b) (hxy : x < y) (hyz : y < z) (g1 : y - x ≤ h) (g2 : z - y ≤ h) :
    |(g z - g y) / (z - y) - (g y - g x) / (y - x)| ≤ M * h := by
  have hy : y ∈ Icc a b := ⟨hx.1.trans hxy.le, hyz.le.trans hz.2⟩
  have e1 := chord_slope h1 hl hy hz hyz.ne
  have e2 := chord_slope h1 hl hy hx hxy.ne'
  rw [abs_of_pos (show 0 < z - y by linarith)] at e1
  rw [abs_of_neg (show x - y < 0 by linarith), ← neg_div_neg_eq (g x - g y), neg_sub, neg_sub] at e2
  have m1 : M / 2 * (z - y) ≤ M / 2 * h := mul_le_mul_of_nonneg_left g2 (by positivity)
  have m2 : M / 2 * (y - x) ≤ M / 2 * h := mul_le_mul_of_nonneg_left g1 (by positivity)
  have := abs_sub_le ((g z - g y) / (z - y)) (d y) ((g y - g x) / (y - x))
  rw [abs_sub_comm (d y)] at this
  linarith

/-- The end slope of `pchip` is not farther from the slope of the piece than the slope of the next piece. -/
theorem pchipEdge_dev {h0 h1 m0 m1 D : ℝ} (p0 : 0 < h0) (p1 : 0 < h1) (hm : |m1 - m0| ≤ D) : |pchipEdge h0 h1 m0 m1 - m0| ≤ D := by
  obtain ⟨d, hd⟩ : ∃ d, d = ((2 * h0 + h1) * m0 - h0 * m1) / (h0 + h1) := ⟨_, rfl⟩
  have e : d - m0 = h0 / (h0 + h1) * (m0 - m1) := by rw [hd]; field_simp; ring
  have f : |d - m0| ≤ D := by
    rw [e, abs_mul, abs_of_nonneg (by positivity), abs_sub_comm m0]
    have : h0 / (h0 + h1) ≤ 1 := by rw [div_le_one (by positivity)]; linarith
    have := mul_le_mul_of_nonneg_right this (abs_nonneg (m1 - m0))
    linarith
  unfold pchipEdge
  simp only [← hd]
  rw [abs_le] at f ⊢
  split_ifs with c1 c2
  · -- different signs: 0 is between the two
    unfold npSign at c1
    split_ifs at c1 <;> constructor <;> first | linarith | simp at c1
  · obtain ⟨_, c2⟩ := c2
    simp only [ne_eq, not_not] at c1
    unfold npSign at c1
    rcases abs_cases d with ⟨k1, k2⟩ | ⟨k1, k2⟩ <;> rcases abs_cases m0 with ⟨l1, l2⟩ | ⟨l1, l2⟩ <;> rw [k1, l1] at c2 <;>
      split_ifs at c1 <;> constructor <;> first | linarith | simp at c1
  · exact f

theorem harmonic_between {w1 w2 p q : ℝ} (h1 : 0 < w1) (h2 : 0 < w2) (hp : 0 < p) (hpq : p ≤ q) :
    p ≤ 1 / ((w1 / p + w2 / q) / (w1 + w2)) ∧ 1 / ((w1 / p + w2 / q) / (w1 + w2)) ≤ q := by
  have hq : 0 < q := by linarith
  have e : 1 / ((w1 / p + w2 / q) / (w1 + w2)) = (w1 + w2) * (p * q) / (w1 * q + w2 * p) := by field_simp
  rw [e]
  have hd : 0 < w1 * q + w2 * p := by positivity
  constructor
  · rw [le_div_iff₀ hd]; nlinarith [mul_nonneg (mul_nonneg h2.le hp.le) (show 0 ≤ q - p by linarith)]
  · rw [div_le_iff₀ hd]; nlinarith [mul_nonneg (mul_nonneg h1.le hq.le) (show 0 ≤ q - p by linarith)]

/-- At an inner point the slope of `pchip` is between those of the two pieces, so it is close to either if they are close to one another. -/
theorem harmonic_dev {w1 w2 p q D : ℝ} (h1 : 0 < w1) (h2 : 0 < w2) (hpq : 0 < p * q) (hD : |q - p| ≤ D) :
    |1 / ((w1 / p + w2 / q) / (w1 + w2)) - p| ≤ D ∧ |1 / ((w1 / p + w2 / q) / (w1 + w2)) - q| ≤ D := by
  have key : ∀ p q w1 w2 : ℝ, 0 < w1 → 0 < w2 → 0 < p → 0 < q → |q - p| ≤ D →
      |1 / ((w1 / p + w2 / q) / (w1 + w2)) - p| ≤ D ∧ |1 / ((w1 / p + w2 / q) / (w1 + w2)) - q| ≤ D := by
    intro p q w1 w2 h1 h2 hp hq hD
    rw [abs_le] at hD
    rcases le_total p q with h | h
    · have := harmonic_between h1 h2 hp h
      constructor <;> rw [abs_le] <;> constructor <;> linarith
    · have := harmonic_between h2 h1 hq h
      rw [add_comm (w2 / q), add_comm w2] at this
      constructor <;> rw [abs_le] <;> constructor <;> linarith
  rcases lt_trichotomy p 0 with h | h | h
  · have hq : q < 0 := by by_contra hc; nlinarith
    have := key (-p) (-q) w1 w2 h1 h2 (by linarith) (by linarith) (by rwa [show -q - -p = -(q - p) by ring, abs_neg])
    rw [div_neg, div_neg, ← neg_add, neg_div, div_neg, show ∀ a b : ℝ, -a - -b = -(a - b) by intros; ring,
      show ∀ a b : ℝ, -a - -b = -(a - b) by intros; ring, abs_neg, abs_neg] at this
    exact this
  · rw [h] at hpq; simp at hpq
  · have hq : 0 < q := by by_contra hc; nlinarith
    exact key p q w1 w2 h1 h2 h hq hD

theorem npSign_ne {p q : ℝ} (h : ¬ (npSign q ≠ npSign p ∨ q = 0 ∨ p = 0)) : 0 < p * q := by
  push Not at h
  obtain ⟨h1, h2, h3⟩ := h
  rcases lt_trichotomy p 0 with k | k | k
  · rcases lt_trichotomy q 0 with l | l | l
    · exact mul_pos_of_neg_of_neg k l
    · exact absurd l h2
    · simp [npSign, l, k, not_lt.2 k.le] at h1
  · exact absurd k h3
  · rcases lt_trichotomy q 0 with l | l | l
    · simp [npSign, l, k, not_lt.2 l.le] at h1
    · exact absurd l h2
    · exact mul_pos k l

theorem npSign_zero_between {p q D : ℝ} (h : npSign q ≠ npSign p ∨ q = 0 ∨ p = 0) (hD : |q - p| ≤ D) : |0 - p| ≤ D ∧ |0 - q| ≤ D := by
  rw [abs_le] at hD
  have : p * q ≤ 0 := by
    by_contra hc
    push Not at hc
    rcases h with h | h | h
    · unfold npSign at h
      rcases lt_trichotomy p 0 with k | k | k
      · have : q < 0 := by by_contra hc'; nlinarith
        simp [k, this, not_lt.2 k.le, not_lt.2 this.le] at h
      · rw [k] at hc; simp at hc
      · have : 0 < q := by by_contra hc'; nlinarith
        simp [k, this] at h
    · rw [h] at hc; simp at hc
    · rw [h] at hc; simp at hc
  rcases le_total p 0 with k | k
  · rcases k.eq_or_lt with k | k
    · subst k; simp only [sub_zero, zero_sub, abs_neg, abs_zero] at *; exact ⟨by linarith, by rw [abs_le]; exact hD⟩
    · have : 0 ≤ q := by by_contra hc; nlinarith
      constructor <;> rw [abs_le] <;> constructor <;> linarith
  · rcases k.eq_or_lt with k | k
    · subst k; simp only [sub_zero, zero_sub, abs_neg, abs_zero] at *; exact ⟨by linarith, by rw [abs_le]; exact hD⟩
    · have : q ≤ 0 := by by_contra hc; nlinarith
      constructor <;> rw [abs_le] <;> constructor <;> linarith

/-- The slopes of `pchip` are close to those of the pieces if neighbouring pieces have slopes close to one another. -/
theorem pchipSlope_dev {n : Nat} {x y : Nat → ℝ} {D : ℝ} (hD : 0 ≤ D) (hx : ∀ i, i + 1 < n → x i < x (i + 1))
    (hm : ∀ i, i + 2 < n → |(y (i + 2) - y (i + 1)) / (x (i + 2) - x (i + 1)) - (y (i + 1) - y i) / (x (i + 1) - x i)| ≤ D)
    {i : Nat} (hi : i + 1 < n) : |pchipSlope n x y i - (y (i + 1) - y i) / (x (i + 1) - x i)| ≤ D ∧
      |pchipSlope n x y (i + 1) - (y (i + 1) - y i) / (x (i + 1) - x i)| ≤ D := by
  have hp : ∀ i, i + 1 < n → 0 < x (i + 1) - x i := fun i h => by have := hx i h; linarith
  have inner : ∀ k, k + 2 < n → |pchipSlope n x y (k + 1) - (y (k + 1) - y k) / (x (k + 1) - x k)| ≤ D ∧
      |pchipSlope n x y (k + 1) - (y (k + 2) - y (k + 1)) / (x (k + 2) - x (k + 1))| ≤ D := by
    intro k hk
    have e1 := hp k (by omega)
    have e2 := hp (k + 1) (by omega)
    have := hm k hk
    unfold pchipSlope
    simp only [show n ≠ 2 by omega, show k + 1 ≠ 0 by omega, show k + 1 ≠ n - 1 by omega, if_false, Nat.add_sub_cancel]
    split_ifs with hc
    · exact npSign_zero_between hc this
    · exact harmonic_dev (by positivity) (by positivity) (npSign_ne hc) this
  by_cases h2 : n = 2
  · obtain rfl : i = 0 := by omega
    unfold pchipSlope
    simp [h2, hD]
  constructor
  · by_cases h0 : i = 0
    · subst h0
      have := hm 0 (by omega)
      unfold pchipSlope
      simp only [h2, if_false, if_true]
      exact pchipEdge_dev (hp 0 (by omega)) (hp 1 (by omega)) this
    · obtain ⟨k, rfl⟩ : ∃ k, i = k + 1 := ⟨i - 1, by omega⟩
      exact (inner k (by omega)).2
  · by_cases hl : i + 2 = n
    · obtain ⟨k, rfl⟩ : ∃ k, i = k + 1 := ⟨i - 1, by omega⟩
      have := hm k (by omega)
      unfold pchipSlope
      simp only [h2, if_false, show k + 1 + 1 ≠ 0 by omega, show k + 1 + 1 = n - 1 by omega, if_true]
      rw [show n - 2 = k + 1 by omega, show n - 3 = k by omega, show n - 1 = k + 1 + 1 by omega]
      exact pchipEdge_dev (hp (k + 1) (by omega)) (hp k (by omega)) (by rwa [abs_sub_comm])
    · exact (inner i (by omega)).1

/-- The slope of `akima` differs from those of the two pieces by at most 3/2 of the differences of neighbouring slopes. -/
theorem akimaSlope_dev {m : Nat → ℝ} {top D : ℝ} (hD : 0 ≤ D) (htop : 0 ≤ top) {k : Nat} (hm : ∀ i, i < 3 → |m (k + i + 1) - m (k + i)| ≤ D) :
    |akimaSlope m top k - m (k + 1)| ≤ 3 / 2 * D ∧ |akimaSlope m top k - m (k + 2)| ≤ 3 / 2 * D := by
  have a0 := hm 0 (by omega)
  have a1 := hm 1 (by omega)
  have a2 := hm 2 (by omega)
  simp only [Nat.add_zero, Nat.add_assoc, Nat.reduceAdd] at a0 a1 a2
  unfold akimaSlope
  split_ifs with hc
  · obtain ⟨p, hp⟩ : ∃ p, p = |m (k + 3) - m (k + 2)| := ⟨_, rfl⟩
    obtain ⟨q, hq⟩ : ∃ q, q = |m (k + 1) - m k| := ⟨_, rfl⟩
    unfold akimaF12 at hc ⊢
    rw [← hp, ← hq] at hc ⊢
    have p0 : 0 ≤ p := by rw [hp]; exact abs_nonneg _
    have q0 : 0 ≤ q := by rw [hq]; exact abs_nonneg _
    rcases (add_nonneg p0 q0).eq_or_lt with hs | hs
    · rw [← hs] at hc
      have : 0 ≤ 1 / 10 ^ 9 * top := by positivity
      linarith
    · have e1 : (p * m (k + 1) + q * m (k + 2)) / (p + q) - m (k + 1) = q / (p + q) * (m (k + 2) - m (k + 1)) := by field_simp; ring
      have e2 : (p * m (k + 1) + q * m (k + 2)) / (p + q) - m (k + 2) = - (p / (p + q) * (m (k + 2) - m (k + 1))) := by field_simp; ring
      rw [e1, e2, abs_neg, abs_mul, abs_mul, abs_of_nonneg (div_nonneg q0 hs.le), abs_of_nonneg (div_nonneg p0 hs.le)]
      have f1 : q / (p + q) ≤ 1 := by rw [div_le_one hs]; linarith
      have f2 : p / (p + q) ≤ 1 := by rw [div_le_one hs]; linarith
      have g1 := mul_le_mul_of_nonneg_right f1 (abs_nonneg (m (k + 2) - m (k + 1)))
      have g2 := mul_le_mul_of_nonneg_right f2 (abs_nonneg (m (k + 2) - m (k + 1)))
      constructor <;> linarith
  · rw [abs_le] at a0 a1 a2
    constructor <;> rw [abs_le] <;> constructor <;> linarith

theorem akimaM_dev {n : Nat} {x y : Nat → ℝ} {D : ℝ} (h3 : 3 ≤ n)
    (hm : ∀ i, i + 2 < n → |(y (i + 2) - y (i + 1)) / (x (i + 2) - x (i + 1)) - (y (i + 1) - y i) / (x (i + 1) - x i)| ≤ D)
    {i : Nat} (hi : i ≤ n + 1) : |akimaM n x y (i + 1) - akimaM n x y i| ≤ D := by
  unfold akimaM
  by_cases h0 : i = 0
  · subst h0
    have := hm 0 (by omega)
    simp only [if_true, if_false, Nat.zero_add, one_ne_zero]
    refine le_of_eq_of_le (congrArg _ ?_) this
    ring
  by_cases h1 : i = 1
  · subst h1
    have := hm 0 (by omega)
    simp only [if_true, if_false, Nat.reduceAdd, one_ne_zero, show (2 : Nat) ≠ 0 by omega, show (2 : Nat) ≠ 1 by omega, show 2 ≤ n by omega, Nat.sub_self]
    refine le_of_eq_of_le (congrArg _ ?_) this
    simp only [Nat.zero_add]
    ring
  simp only [h0, h1, if_false, show i + 1 ≠ 0 by omega, show i + 1 ≠ 1 by omega]
  by_cases h2 : i < n
  · have := hm (i - 2) (by omega)
    simp only [show i + 1 ≤ n by omega, show i ≤ n by omega, if_true]
    rw [show i - 2 + 2 = i by omega, show i - 2 + 1 = i - 1 by omega] at this
    rw [show i + 1 - 2 = i - 1 by omega, show i - 2 + 1 = i - 1 by omega, show i - 1 + 1 = i by omega]
    exact this
  have := hm (n - 3) (by omega)
  rw [show n - 3 + 2 = n - 2 + 1 by omega, show n - 3 + 1 = n - 2 by omega] at this
  by_cases h4 : i = n
  · subst h4
    simp only [show ¬ i + 1 ≤ i by omega, le_refl, if_false, if_true]
    rw [show i - 3 + 1 = i - 2 by omega]
    refine le_of_eq_of_le (congrArg _ ?_) this
    ring
  · obtain rfl : i = n + 1 := by omega
    simp only [show ¬ n + 1 + 1 ≤ n by omega, show ¬ n + 1 ≤ n by omega, show n + 1 + 1 ≠ n + 1 by omega, if_false, if_true]
    rw [show n - 3 + 1 = n - 2 by omega]
    refine le_of_eq_of_le (congrArg _ ?_) this
    ring

theorem akimaTop_nonneg (xs : List ℝ) (y : NMat) : 0 ≤ akimaTop xs y := by
  have : ∀ (l : List ℝ) (z : ℝ), 0 ≤ z → 0 ≤ l.foldl max z := by
    intro l
    induction l with
    | nil => exact fun z hz => hz
    | cons a l ih => exact fun z hz => ih _ (hz.trans (le_max_left _ _))
  exact this _ _ le_rfl

/-- A piecewise cubic curve through points of the graph of a function, whose slopes at the points are close to those of the pieces. -/
theorem pieces_close {c : Curve ℝ} (hc : WF c) (hs : 2 ≤ c.size) {junk : ℝ} (ht : (c.t junk).Pairwise (· < ·)) {q : PPoly} (hx : q.xs = c.t junk)
    (hy : q.y = c.mat) {a b h M C : ℝ} (ha : (c.t junk).head? = some a) (hb : (c.t junk).getLast? = some b) (hh : GapsLe h (c.t junk))
    {j : Nat} (hj : j < c.ncols) {g g1 : ℝ → ℝ} (hM : 0 ≤ M) (hC : 0 ≤ C) (h1 : DerivOn a b g g1) (hl : LipOn a b M g1)
    (hv : ∀ i x, (c.t junk)[i]? = some x → g x = at2 c.rows i j)
    (hD : (∀ i, i + 2 < q.xs.length → |(q.y.v (i + 2) j - q.y.v (i + 1) j) / (knot q.xs (i + 2) - knot q.xs (i + 1)) -
        (q.y.v (i + 1) j - q.y.v i j) / (knot q.xs (i + 1) - knot q.xs i)| ≤ M * h) → ∀ i, i + 1 < q.xs.length →
      |q.d.v i j - (q.y.v (i + 1) j - q.y.v i j) / (knot q.xs (i + 1) - knot q.xs i)| ≤ C * (M * h) ∧
      |q.d.v (i + 1) j - (q.y.v (i + 1) j - q.y.v i j) / (knot q.xs (i + 1) - knot q.xs i)| ≤ C * (M * h))
    {x : ℝ} (hxab : x ∈ Icc a b) : |coordOf j (q.row x) - g x| ≤ (C / 4 + 1 / 8) * M * h ^ 2 := by
  have hlen := t_length hc (rows_ne_of_size hs) junk
  obtain ⟨i, u, v, hu, hv', hux, hxv⟩ := between_neighbours (c.t junk) (by omega) ha hb hxab.1 hxab.2
  have hi := (List.getElem?_eq_some_iff.1 hv').1
  have ea : a = knot (c.t junk) 0 := by rw [List.head?_eq_getElem?] at ha; exact (knot_eq ha).symm
  have eb : b = knot (c.t junk) ((c.t junk).length - 1) := by rw [List.getLast?_eq_getElem?] at hb; exact (knot_eq hb).symm
  have hin : ∀ k, k < (c.t junk).length → knot (c.t junk) k ∈ Icc a b := by
    intro k hk
    rw [ea, eb]
    exact ⟨knot_le ht (Nat.zero_le k) hk, knot_le ht (by omega) (by omega)⟩
  have hgap : ∀ k, k + 1 < (c.t junk).length → knot (c.t junk) (k + 1) - knot (c.t junk) k ≤ h := by
    intro k hk
    exact hh k _ _ (knot_some (by omega)) (knot_some hk)
  have hgv : ∀ k, k < (c.t junk).length → g (knot (c.t junk) k) = q.y.v k j := by
    intro k hk
    rw [hv k _ (knot_some hk), hy]; rfl
  have hsl := hD (by
    intro k hk
    rw [hx] at hk ⊢
    rw [← hgv k (by omega), ← hgv (k + 1) (by omega), ← hgv (k + 2) (by omega)]
    exact chord_slopes h1 hl hM (hin k (by omega)) (hin (k + 2) hk) (knot_lt ht (by omega) (by omega)) (knot_lt ht (by omega) (by omega))
      (hgap k (by omega)) (hgap (k + 1) hk)) i (by rw [hx]; exact hi)
  have ku : knot (c.t junk) i = u := knot_eq hu
  have kv : knot (c.t junk) (i + 1) = v := knot_eq hv'
  have huv : u < v := by rw [← ku, ← kv]; exact knot_lt ht (by omega) hi
  have hF : coordOf j (q.row x) = q.cub i j x := by
    have := q.row_getD (by rw [hy]; exact hj) x
    unfold coordOf
    rw [this]
    exact PPoly.coord_on (by rw [hx]; exact ht) (by rw [hx]; exact hi) j (.inr (by rw [hx, ku]; exact hux)) (.inr (by rw [hx, kv]; exact hxv))
  rw [hx, ku, kv] at hsl
  have dev := herm_dev huv hsl.1 hsl.2 ⟨hux, hxv⟩
  have ecub : q.cub i j x = hermR u v (q.y.v i j) (q.y.v (i + 1) j) (q.d.v i j) (q.d.v (i + 1) j) x := by
    unfold PPoly.cub; rw [hx, ku, kv]
  rw [← ecub, ← hF] at dev
  have hp : 0 < v - u := by linarith
  have hst := hgap i hi
  rw [ku, kv] at hst
  have cc := chord_near hM h1 hl (hin i (by omega)) (hin (i + 1) hi) (x := x) (s := (x - u) / (v - u)) (h := h)
    (div_nonneg (by linarith) hp.le) (by rw [div_le_one hp]; linarith) (by rw [ku, kv]; field_simp) hxab (by rw [ku, kv]; exact huv.le)
    (by rw [ku, kv]; exact hst)
  rw [hgv i (by omega), hgv (i + 1) hi, Real.norm_eq_abs, smul_eq_mul] at cc
  have := abs_sub_le (coordOf j (q.row x)) (q.y.v i j + (x - u) / (v - u) * (q.y.v (i + 1) j - q.y.v i j)) (g x)
  have h0 : 0 ≤ h := by linarith
  have e : C * (M * h) * (v - u) / 4 ≤ C * (M * h) * h / 4 := by
    have := mul_le_mul_of_nonneg_left hst (show 0 ≤ C * (M * h) by positivity)
    linarith
  have e2 : (C / 4 + 1 / 8) * M * h ^ 2 = C * (M * h) * h / 4 + M / 8 * h ^ 2 := by ring
  rw [e2]
  linarith

/-- **C149 (pchip).** PCHIP interpolation of a curve of which coordinate `j` is that of a differentiable function `g` at the parameter values, with steps
of the parameter at most `h`: coordinate `j` differs from `g` by at most `3/8 M h²`, where `M` is a Lipschitz constant of the derivative of `g`. Dtypes
that are not integer ones. -/
theorem C149_pchip {c : Curve ℝ} (hc : WF c) (hs : 2 ≤ c.size) {junk : ℝ} (ht : (c.t junk).Pairwise (· < ·))
    (hd : c.dtype ≠ .int) {r : KwReg} {m : String} (hr : IsPchip junk r m) :
    ∃ F, EvaluatesTo c (fun g => c.interpolate r g m .none) (fun _ => True) F ∧
      ∀ a b h, (c.t junk).head? = some a → (c.t junk).getLast? = some b → GapsLe h (c.t junk) → ∀ j, j < c.ncols →
        ∀ (g g1 : ℝ → ℝ) (M : ℝ), 0 ≤ M → DerivOn a b g g1 → LipOn a b M g1 → (∀ i x, (c.t junk)[i]? = some x → g x = at2 c.rows i j) →
          ∀ x ∈ Icc a b, |coordOf j (F x) - g x| ≤ 3 / 8 * M * h ^ 2 := by
  refine ⟨_, spline_eval hc hs ht hd hr (pchip_cons hc hs ht .yes rfl) rfl rfl (.inl rfl), ?_⟩
  intro a b h ha hb hh j hj g g1 M hM h1 hl hv x hx
  have hlen := t_length hc (rows_ne_of_size hs) junk
  have h0 : 0 ≤ h := by
    have := hh 0 _ _ (knot_some (by omega)) (knot_some (by omega))
    have := knot_lt ht (show 0 < 1 by omega) (by omega)
    linarith
  have := pieces_close hc hs ht (q := ⟨c.t junk, c.mat, pchipSlopes (c.t junk) c.mat, .yes⟩) rfl rfl ha hb hh hj hM zero_le_one h1 hl hv
    (fun hm i hi => by
      rw [one_mul]
      exact pchipSlope_dev (n := (c.t junk).length) (x := fun i => (c.t junk).getD i 0) (y := fun i => c.mat.v i j) (mul_nonneg hM h0)
        (fun k hk => knot_lt ht (show k < k + 1 by omega) hk) hm hi) hx
  refine this.trans (le_of_eq ?_)
  ring

/-- **C149 (akima).** The same for Akima interpolation of three points or more, at most `1/2 M h²`. -/
theorem C149_akima {c : Curve ℝ} (hc : WF c) (h3 : 3 ≤ c.size) {junk : ℝ} (ht : (c.t junk).Pairwise (· < ·))
    (hd : c.dtype ≠ .int) {lib : SplineLib} {r : KwReg} {m : String} (hr : IsAkima lib junk r m) :
    ∃ F, EvaluatesTo c (fun g => c.interpolate r g m .none) (WithinEnds (c.t junk)) F ∧
      ∀ a b h, (c.t junk).head? = some a → (c.t junk).getLast? = some b → GapsLe h (c.t junk) → ∀ j, j < c.ncols →
        ∀ (g g1 : ℝ → ℝ) (M : ℝ), 0 ≤ M → DerivOn a b g g1 → LipOn a b M g1 → (∀ i x, (c.t junk)[i]? = some x → g x = at2 c.rows i j) →
          ∀ x ∈ Icc a b, |coordOf j (F x) - g x| ≤ 1 / 2 * M * h ^ 2 := by
  have hs : 2 ≤ c.size := by omega
  have ak := akima_cons hc hs ht lib
  rw [if_neg (show ¬ c.size < 3 by omega)] at ak
  refine ⟨_, spline_eval hc hs ht hd hr ak rfl rfl (.inr ⟨rfl, fun x hx => hx⟩), ?_⟩
  intro a b h ha hb hh j hj g g1 M hM h1 hl hv x hx
  have hlen := t_length hc (rows_ne_of_size hs) junk
  have h0 : 0 ≤ h := by
    have := hh 0 _ _ (knot_some (by omega)) (knot_some (by omega))
    have := knot_lt ht (show 0 < 1 by omega) (by omega)
    linarith
  have := pieces_close hc hs ht (q := ⟨c.t junk, c.mat, akimaSlopes (c.t junk) c.mat, .no⟩) rfl rfl ha hb hh hj hM (C := 3 / 2) (by norm_num) h1 hl hv
    (fun hm i hi => by
      have hi' : i + 1 < (c.t junk).length := hi
      have hA : ∀ k, k ≤ (c.t junk).length + 1 → _ := fun k hk =>
        akimaM_dev (n := (c.t junk).length) (x := fun i => (c.t junk).getD i 0) (y := fun i => c.mat.v i j) (D := M * h) (by omega) hm hk
      have e : ∀ k, k + 1 < (c.t junk).length → akimaM (c.t junk).length (fun i => (c.t junk).getD i 0) (fun i => c.mat.v i j) (k + 2) =
          (c.mat.v (k + 1) j - c.mat.v k j) / (knot (c.t junk) (k + 1) - knot (c.t junk) k) := by
        intro k hk
        unfold akimaM
        simp only [show k + 2 ≠ 0 by omega, show k + 2 ≠ 1 by omega, show k + 2 ≤ (c.t junk).length by omega, if_true, if_false, Nat.add_sub_cancel]
        rfl
      have d1 := akimaSlope_dev (mul_nonneg hM h0) (akimaTop_nonneg (c.t junk) c.mat) (k := i) fun k hk => hA (i + k) (by omega)
      have d2 := akimaSlope_dev (mul_nonneg hM h0) (akimaTop_nonneg (c.t junk) c.mat) (k := i + 1) fun k hk => hA (i + 1 + k) (by omega)
      have e1 := e i hi'
      refine ⟨?_, ?_⟩
      · have := d1.2
        rw [e1] at this
        exact this
      · have := d2.1
        rw [show i + 1 + 1 = i + 2 from rfl, e1] at this
        exact this) hx
  refine this.trans (le_of_eq ?_)
  ring

/-! ## hermite -/

/-- The gradient at both ends of a piece differs from the piece by half of a second difference. -/
theorem gradV_dev {E : Type*} [NormedAddCommGroup E] [NormedSpace ℝ E] {m : Nat} {u : Nat → E} {B : ℝ} (h3 : 3 ≤ m)
    (hB : ∀ k, k + 2 < m → ‖u (k + 2) - (2 : ℝ) • u (k + 1) + u k‖ ≤ B) {i : Nat} (hi : i + 1 < m) :
    ‖gradV m u i - (u (i + 1) - u i)‖ ≤ B / 2 ∧ ‖gradV m u (i + 1) - (u (i + 1) - u i)‖ ≤ B / 2 := by
  have half : ∀ (w : E) (k : Nat), k + 2 < m → (w = (1 / 2 : ℝ) • (u (k + 2) - (2 : ℝ) • u (k + 1) + u k) ∨
      w = (-(1 / 2) : ℝ) • (u (k + 2) - (2 : ℝ) • u (k + 1) + u k)) → ‖w‖ ≤ B / 2 := by
    intro w k hk hw
    have := hB k hk
    rcases hw with rfl | rfl
    · rw [norm_smul, Real.norm_eq_abs, abs_of_nonneg (by norm_num)]; linarith
    · rw [norm_smul, Real.norm_eq_abs, abs_neg, abs_of_nonneg (by norm_num)]; linarith
  constructor
  · by_cases h0 : i = 0
    · subst h0
      refine half _ 0 (by omega) (.inr ?_)
      simp only [gradV, if_true, Nat.zero_add]
      module
    · obtain ⟨k, rfl⟩ : ∃ k, i = k + 1 := ⟨i - 1, by omega⟩
      refine half _ k (by omega) (.inr ?_)
      simp only [gradV, show k + 1 ≠ 0 by omega, show k + 1 ≠ m - 1 by omega, if_false, Nat.add_sub_cancel]
      rw [show k + 1 + 1 = k + 2 from rfl]
      module
  · by_cases hl : i + 2 = m
    · obtain ⟨k, rfl⟩ : ∃ k, i = k + 1 := ⟨i - 1, by omega⟩
      refine half _ k (by omega) (.inl ?_)
      obtain rfl : m = k + 3 := by omega
      rw [gradV, if_neg (by omega), if_pos (by omega), show k + 3 - 3 = k by omega, show k + 3 - 2 = k + 1 by omega,
        show k + 3 - 1 = k + 2 by omega, show k + 1 + 1 = k + 2 from rfl]
      module
    · refine half _ i (by omega) (.inl ?_)
      simp only [gradV, show i + 1 ≠ 0 by omega, show i + 1 ≠ m - 1 by omega, if_false, Nat.add_sub_cancel]
      rw [show i + 1 + 1 = i + 2 from rfl]
      module

/-- A vector `w` turned into the direction of `v` (of unit vector `u`) differs from `w` by at most twice the difference of the two. -/
theorem turned_dev {E : Type*} [NormedAddCommGroup E] [NormedSpace ℝ E] {v w u : E} (hu : ‖u‖ = 1) (hv : v = ‖v‖ • u) :
    ‖‖w‖ • u - w‖ ≤ 2 * ‖v - w‖ := by
  have e : ‖w‖ • u - w = (‖w‖ - ‖v‖) • u + (v - w) := by
    rw [sub_smul, ← hv]; abel
  rw [e]
  refine (norm_add_le _ _).trans ?_
  rw [norm_smul, hu, Real.norm_eq_abs, mul_one, abs_sub_comm]
  have := abs_norm_sub_norm_le v w
  linarith

/-- The point of the cubic on a piece, as a vector. -/
theorem hermite_vec {c : Curve ℝ} (hc : WF c) (hs : 2 ≤ c.size) {junk : ℝ} (ht : (c.t junk).Pairwise (· < ·)) {i : Nat} {u v x : ℝ}
    (hu : (c.t junk)[i]? = some u) (hv : (c.t junk)[i + 1]? = some v) (hx : x ∈ Icc u v) :
    pt c.ndim (PPoly.row ⟨c.t junk, c.mat, frenet1 c, .yes⟩ x) -
        (rowVec c.ndim c.rows i + ((x - u) / (v - u)) • (rowVec c.ndim c.rows (i + 1) - rowVec c.ndim c.rows i)) =
      (((x - u) / (v - u)) * (1 - (x - u) / (v - u)) ^ 2) •
          ((v - u) • rowVec c.ndim (frenet1 c).rows i - (rowVec c.ndim c.rows (i + 1) - rowVec c.ndim c.rows i)) -
        (((x - u) / (v - u)) ^ 2 * (1 - (x - u) / (v - u))) •
          ((v - u) • rowVec c.ndim (frenet1 c).rows (i + 1) - (rowVec c.ndim c.rows (i + 1) - rowVec c.ndim c.rows i)) := by
  have hlen := t_length hc (rows_ne_of_size hs) junk
  have hi := (List.getElem?_eq_some_iff.1 hv).1
  have ku : knot (c.t junk) i = u := knot_eq hu
  have kv : knot (c.t junk) (i + 1) = v := knot_eq hv
  have huv : u < v := by rw [← ku, ← kv]; exact knot_lt ht (by omega) hi
  have hk : (frenet1 c).k = c.ncols := by
    have := firstderiv_k hs
    simpa [frenet1, unitRows] using this
  have hm : (frenet1 c).m = c.size := by simpa [frenet1, unitRows] using (shapes_m c).1
  obtain ⟨s, hs'⟩ : ∃ s, s = (x - u) / (v - u) := ⟨_, rfl⟩
  have hp : 0 < v - u := by linarith
  have hx' : x = u + s * (v - u) := by rw [hs']; field_simp; ring
  rw [← hs']
  ext j
  have hj : j.val < c.ncols := j.2
  have e := PPoly.row_getD ⟨c.t junk, c.mat, frenet1 c, .yes⟩ (show j.val < c.mat.k from hj) x
  have e' := PPoly.coord_on (p := ⟨c.t junk, c.mat, frenet1 c, .yes⟩) ht hi j.val (x := x) (.inr (by rw [ku]; exact hx.1)) (.inr (by rw [kv]; exact hx.2))
  simp only [PiLp.sub_apply, PiLp.add_apply, PiLp.smul_apply, rowVec_apply, smul_eq_mul]
  rw [at2_lt _ (by omega) (by omega), at2_lt _ (by omega) (by omega)]
  have e0 : (pt c.ndim (PPoly.row ⟨c.t junk, c.mat, frenet1 c, .yes⟩ x)).ofLp j = PPoly.cub ⟨c.t junk, c.mat, frenet1 c, .yes⟩ i j x := by
    rw [← e', ← e]; rfl
  rw [e0]
  unfold PPoly.cub
  simp only
  rw [ku, kv, hx', hermR_basis huv, show c.mat.v i j = at2 c.rows i j from rfl, show c.mat.v (i + 1) j = at2 c.rows (i + 1) j from rfl]
  ring

/-- **C149 (hermite).** Hermite interpolation of a curve without own parameter (the parameter is the length along the polyline): between
two neighbouring points the curve stays within half of their distance from the chord, at the place of the same parameter value. With three points or more, if the speed
at these points exceeds `1e-8` and all second differences of the points are at most `B`, it stays within `B / 4`. Dtypes that are not integer ones. -/
theorem C149_hermite {c : Curve ℝ} (hc : WF c) (hs : 2 ≤ c.size) (hp : c.tdata = none) {junk : ℝ} (ht : (c.t junk).Pairwise (· < ·))
    (hd : c.dtype ≠ .int) {r : KwReg} {m : String} (hr : IsHermite junk r m) :
    ∃ F, EvaluatesTo c (fun g => c.interpolate r g m .none) (fun _ => True) F ∧
      ∀ (i : Nat) u v, (c.t junk)[i]? = some u → (c.t junk)[i + 1]? = some v → ∀ x ∈ Icc u v,
        ‖pt c.ndim (F x) - (rowVec c.ndim c.rows i + ((x - u) / (v - u)) • (rowVec c.ndim c.rows (i + 1) - rowVec c.ndim c.rows i))‖ ≤
          ‖rowVec c.ndim c.rows (i + 1) - rowVec c.ndim c.rows i‖ / 2 ∧
        ∀ B, 3 ≤ c.size → 1 / 10 ^ 8 < ‖rowVec c.ndim (firstderiv c).rows i‖ → 1 / 10 ^ 8 < ‖rowVec c.ndim (firstderiv c).rows (i + 1)‖ →
          (∀ k, k + 2 < c.size → ‖rowVec c.ndim c.rows (k + 2) - (2 : ℝ) • rowVec c.ndim c.rows (k + 1) + rowVec c.ndim c.rows k‖ ≤ B) →
          ‖pt c.ndim (F x) - (rowVec c.ndim c.rows i + ((x - u) / (v - u)) • (rowVec c.ndim c.rows (i + 1) - rowVec c.ndim c.rows i))‖ ≤ B / 4 := by
  refine ⟨_, spline_eval hc hs ht hd hr (hermite_cons hc hs ht .yes rfl) rfl rfl (.inl rfl), ?_⟩
  intro i u v hu hv x hx
  have hlen := t_length hc (rows_ne_of_size hs) junk
  have hi := (List.getElem?_eq_some_iff.1 hv).1
  rw [hermite_vec hc hs ht hu hv hx]
  -- the step of the parameter is the length of the chord
  have hst : v - u = ‖rowVec c.ndim c.rows (i + 1) - rowVec c.ndim c.rows i‖ := by
    have et : c.t junk = cumarclen junk c := by unfold Curve.t; rw [hp]
    have h1 : i < c.rows.length := by simp only [Curve.size] at hlen; omega
    have h2 : i + 1 < c.rows.length := by simp only [Curve.size] at hlen; omega
    obtain ⟨p, q, e1, e2, e3⟩ := (C50_cumarclen_partial hc (rows_ne_of_size hs) junk).2.2.2.1 i _ _ (List.getElem?_eq_getElem h1) (List.getElem?_eq_getElem h2)
    rw [← et] at e1 e2
    obtain rfl : u = p := by rw [hu] at e1; exact Option.some.inj e1
    obtain rfl : v = q := by rw [hv] at e2; exact Option.some.inj e2
    rw [e3, gap, dist_comm, dist_eq_norm]
    simp [rowVec, List.getD_eq_getElem?_getD, List.getElem?_eq_getElem h1, List.getElem?_eq_getElem h2]
  have huv : u < v := by rw [← knot_eq hu, ← knot_eq hv]; exact knot_lt ht (by omega) hi
  have hpos : 0 < v - u := by linarith
  obtain ⟨s, hs'⟩ : ∃ s, s = (x - u) / (v - u) := ⟨_, rfl⟩
  have s0 : 0 ≤ s := by rw [hs']; exact div_nonneg (by linarith [hx.1]) hpos.le
  have s1 : s ≤ 1 := by rw [hs', div_le_one hpos]; linarith [hx.2]
  rw [← hs']
  have comb : ∀ (p q : EuclideanSpace ℝ (Fin c.ndim)) (D : ℝ), ‖p‖ ≤ D → ‖q‖ ≤ D → ‖(s * (1 - s) ^ 2) • p - (s ^ 2 * (1 - s)) • q‖ ≤ D / 4 := by
    intro p q D h1 h2
    refine (norm_sub_le _ _).trans ?_
    have a1 : 0 ≤ s * (1 - s) ^ 2 := by positivity
    have a2 : 0 ≤ s ^ 2 * (1 - s) := mul_nonneg (by positivity) (by linarith)
    rw [norm_smul, norm_smul, Real.norm_of_nonneg a1, Real.norm_of_nonneg a2]
    have b1 := mul_le_mul_of_nonneg_left h1 a1
    have b2 := mul_le_mul_of_nonneg_left h2 a2
    have : s * (1 - s) ≤ 1 / 4 := by nlinarith [sq_nonneg (s - 1 / 2)]
    have := mul_le_mul_of_nonneg_right this ((norm_nonneg _).trans h1)
    linarith
  have hi' : i + 1 < c.size := by omega
  have N0 := (C55_unit hc (show i < c.size by omega)).1
  have N1 := (C55_unit hc hi').1
  unfold vT vE1 Normalised at N0 N1
  constructor
  · have le1 : ∀ w e : EuclideanSpace ℝ (Fin c.ndim), ((1 / 10 ^ 8 < ‖w‖ → ‖e‖ = 1 ∧ w = ‖w‖ • e) ∧ (‖w‖ ≤ 1 / 10 ^ 8 → e = w)) → ‖e‖ ≤ 1 := by
      intro w e h
      rcases lt_or_ge (1 / 10 ^ 8) ‖w‖ with k | k
      · exact (h.1 k).1.le
      · rw [h.2 k]; exact k.trans (by norm_num)
    have two : ∀ e : EuclideanSpace ℝ (Fin c.ndim), ‖e‖ ≤ 1 →
        ‖(v - u) • e - (rowVec c.ndim c.rows (i + 1) - rowVec c.ndim c.rows i)‖ ≤ 2 * (v - u) := by
      intro e he
      refine (norm_sub_le _ _).trans ?_
      rw [norm_smul, Real.norm_of_nonneg hpos.le, ← hst]
      have := mul_le_mul_of_nonneg_left he hpos.le
      linarith
    have := comb _ _ _ (two _ (le1 _ _ N0)) (two _ (le1 _ _ N1))
    rw [← hst]
    linarith
  · intro B h3 k0 k1 hB
    have g := gradV_dev (u := fun i => rowVec c.ndim c.rows i) h3 hB hi'
    rw [← first_row hc h3 (by omega), ← first_row hc h3 hi'] at g
    have t0 := turned_dev (w := rowVec c.ndim c.rows (i + 1) - rowVec c.ndim c.rows i) (N0.1 k0).1 (N0.1 k0).2
    have t1 := turned_dev (w := rowVec c.ndim c.rows (i + 1) - rowVec c.ndim c.rows i) (N1.1 k1).1 (N1.1 k1).2
    rw [← hst] at t0 t1
    exact comb _ _ B (by linarith [g.1]) (by linarith [g.2])

/-- **C149 (hermite, sampled curves).** Hermite interpolation of points sampled at equal steps `h` from a smooth curve (a curve without own parameter, all
speeds above `1e-8`): every point of the result is within `3/8 M h²` of the smooth curve, where `M` is a Lipschitz constant of its derivative. -/
theorem C149_sampled {n : Nat} {g d : ℝ → EuclideanSpace ℝ (Fin n)} {a b o h M : ℝ} {c : Curve ℝ} (hc : WF c) (h3 : 3 ≤ c.size) (hp : c.tdata = none)
    {junk : ℝ} (ht : (c.t junk).Pairwise (· < ·)) (hd : c.dtype ≠ .int) {r : KwReg} {m : String} (hr : IsHermite junk r m)
    (hs : SampledAt g a b o h c) (h0 : 0 ≤ h) (hM : 0 ≤ M) (h1 : DerivOn a b g d) (hl : LipOn a b M d)
    (hth : ∀ i, i < c.size → 1 / 10 ^ 8 < ‖rowVec n (firstderiv c).rows i‖) :
    ∃ F, EvaluatesTo c (fun g => c.interpolate r g m .none) (fun _ => True) F ∧
      ∀ x, WithinEnds (c.t junk) x → ∃ τ ∈ Icc a b, ‖pt n (F x) - g τ‖ ≤ 3 / 8 * M * h ^ 2 := by
  obtain ⟨F, hF, hP⟩ := C149_hermite hc (by omega) hp ht hd hr
  refine ⟨F, hF, ?_⟩
  obtain rfl : c.ndim = n := hs.ndim
  have hlen := t_length hc (rows_ne_of_size (show 2 ≤ c.size by omega)) junk
  intro x hx
  have hne : c.t junk ≠ [] := by intro h; rw [h] at hlen; simp at hlen; omega
  obtain ⟨i, u, v, hu, hv, hux, hxv⟩ := between_neighbours (c.t junk) (by omega) (List.head?_eq_some_head hne) (List.getLast?_eq_some_getLast hne)
    (hx.1 _ (List.head?_eq_some_head hne)) (hx.2 _ (List.getLast?_eq_some_getLast hne))
  have hi := (List.getElem?_eq_some_iff.1 hv).1
  have huv : u < v := by rw [← knot_eq hu, ← knot_eq hv]; exact knot_lt ht (by omega) hi
  have hpos : 0 < v - u := by linarith
  have hi' : i + 1 < c.size := by omega
  have hsec : ∀ k, k + 2 < c.size → ‖rowVec c.ndim c.rows (k + 2) - (2 : ℝ) • rowVec c.ndim c.rows (k + 1) + rowVec c.ndim c.rows k‖ ≤ M * h ^ 2 := by
    intro k hk
    rw [hs.pts k (by simp only [Curve.size] at hk; omega), hs.pts (k + 1) (by simp only [Curve.size] at hk; omega),
      hs.pts (k + 2) (by simp only [Curve.size] at hk; omega)]
    have hm := hs.range (k + 1) (by simp only [Curve.size] at hk; omega)
    have e1 := taylor1 h1 hl hm (hs.range (k + 2) (by simp only [Curve.size] at hk; omega))
    have e2 := taylor1 h1 hl hm (hs.range k (by simp only [Curve.size] at hk; omega))
    have p1 : o + ((k + 2 : ℕ) : ℝ) * h - (o + ((k + 1 : ℕ) : ℝ) * h) = h := by push_cast; ring
    have p2 : o + (k : ℝ) * h - (o + ((k + 1 : ℕ) : ℝ) * h) = -h := by push_cast; ring
    rw [p1, sq_abs] at e1
    rw [p2, sq_abs] at e2
    have := norm_add_le_of_le e1 e2
    refine le_of_eq_of_le (congrArg _ ?_) (this.trans (le_of_eq (by ring)))
    module
  have key := (hP i u v hu hv x ⟨hux, hxv⟩).2 (M * h ^ 2) h3 (hth i (by omega)) (hth (i + 1) hi') hsec
  obtain ⟨s, hs'⟩ : ∃ s, s = (x - u) / (v - u) := ⟨_, rfl⟩
  have s0 : 0 ≤ s := by rw [hs']; exact div_nonneg (by linarith) hpos.le
  have s1 : s ≤ 1 := by rw [hs', div_le_one hpos]; linarith
  rw [← hs'] at key
  have r0 := hs.range i (by simp only [Curve.size] at hi'; omega)
  have r1 := hs.range (i + 1) (by simp only [Curve.size] at hi'; omega)
  have est : o + ((i + 1 : ℕ) : ℝ) * h - (o + (i : ℝ) * h) = h := by push_cast; ring
  have hin : o + (i : ℝ) * h + s * h ∈ Icc a b := by
    have q0 : 0 ≤ s * h := by positivity
    have q1 : s * h ≤ h := by nlinarith
    constructor
    · linarith [r0.1]
    · linarith [r1.2]
  refine ⟨o + (i : ℝ) * h + s * h, hin, ?_⟩
  have cc := chord_near hM h1 hl r0 r1 (x := o + (i : ℝ) * h + s * h) (h := h) s0 s1 (by rw [est]; ring) hin (by linarith) est.le
  rw [← hs.pts i (by simp only [Curve.size] at hi'; omega), ← hs.pts (i + 1) (by simp only [Curve.size] at hi'; omega)] at cc
  have := norm_sub_le_norm_sub_add_norm_sub (pt c.ndim (F x)) (rowVec c.ndim c.rows i + s • (rowVec c.ndim c.rows (i + 1) - rowVec c.ndim c.rows i))
    (g (o + (i : ℝ) * h + s * h))
  linarith

/-- The parameter of a curve without own parameter increases if neighbouring points differ. -/
theorem t_lt_of_ne {c : Curve ℝ} (hc : WF c) (hs : 2 ≤ c.size) (hp : c.tdata = none) (junk : ℝ)
    (hne : ∀ i, i + 1 < c.size → rowVec c.ndim c.rows i ≠ rowVec c.ndim c.rows (i + 1)) : (c.t junk).Pairwise (· < ·) := by
  have hlen := t_length hc (rows_ne_of_size hs) junk
  rw [← List.isChain_iff_pairwise, List.isChain_iff_getElem]
  intro i hi
  have et : c.t junk = cumarclen junk c := by unfold Curve.t; rw [hp]
  have h1 : i < c.rows.length := by simp only [Curve.size] at hlen; omega
  have h2 : i + 1 < c.rows.length := by simp only [Curve.size] at hlen; omega
  obtain ⟨p, q, e1, e2, e3⟩ := (C50_cumarclen_partial hc (rows_ne_of_size hs) junk).2.2.2.1 i _ _ (List.getElem?_eq_getElem h1) (List.getElem?_eq_getElem h2)
  rw [← et, List.getElem?_eq_getElem (by omega)] at e1
  rw [← et, List.getElem?_eq_getElem (by omega)] at e2
  rw [Option.some.inj e1, Option.some.inj e2]
  have := hne i h2
  have hg : 0 < gap c.ndim c.rows[i] c.rows[i + 1] := by
    rw [gap, dist_pos]
    simpa [rowVec, List.getD_eq_getElem?_getD, List.getElem?_eq_getElem h1, List.getElem?_eq_getElem h2] using this
  linarith

/-! ## Instances -/

/-- The points of `y = x³` at 0, 1, 2 and 4. -/
example (lib : SplineLib) : (∃ F, EvaluatesTo exCubic (fun g => exCubic.interpolate (builtinInterp lib 0) g "pchip" .none) (fun _ => True) F ∧
      ∀ x ∈ Icc (0 : ℝ) 4, |coordOf 1 (F x) - x ^ 3| ≤ 36) ∧
    ∃ F, EvaluatesTo exCubic (fun g => exCubic.interpolate (builtinInterp lib 0) g "akima" .none) (WithinEnds (exCubic.t 0)) F ∧
      ∀ x ∈ Icc (0 : ℝ) 4, |coordOf 1 (F x) - x ^ 3| ≤ 48 := by
  have hv : ∀ i x, (exCubic.t 0)[i]? = some x → x ^ 3 = at2 exCubic.rows i 1 := by
    intro i x hx
    match i with
    | 0 => simp [exCubic, Curve.t] at hx; subst hx; norm_num [exCubic, at2]
    | 1 => simp [exCubic, Curve.t] at hx; subst hx; norm_num [exCubic, at2]
    | 2 => simp [exCubic, Curve.t] at hx; subst hx; norm_num [exCubic, at2]
    | 3 => simp [exCubic, Curve.t] at hx; subst hx; norm_num [exCubic, at2]
    | (k + 4) => simp [exCubic, Curve.t] at hx
  have hg : GapsLe 2 (exCubic.t 0) := by
    intro i u v hu hv
    match i with
    | 0 => simp [exCubic, Curve.t] at hu hv; subst hu hv; norm_num
    | 1 => simp [exCubic, Curve.t] at hu hv; subst hu hv; norm_num
    | 2 => simp [exCubic, Curve.t] at hu hv; subst hu hv; norm_num
    | (k + 3) => simp [exCubic, Curve.t] at hv
  have d1 : DerivOn 0 4 (fun x : ℝ => x ^ 3) (fun x => 3 * x ^ 2) := by
    intro x _
    have := (hasDerivAt_pow 3 x).hasDerivWithinAt (s := Set.Icc 0 4)
    exact this.congr_deriv (by norm_num)
  have l1 : LipOn 0 4 24 (fun x : ℝ => 3 * x ^ 2) := by
    intro p hp q hq
    rw [show 3 * q ^ 2 - 3 * p ^ 2 = 3 * (q + p) * (q - p) by ring, norm_mul, Real.norm_eq_abs, Real.norm_eq_abs]
    refine mul_le_mul_of_nonneg_right ?_ (abs_nonneg _)
    rw [abs_of_nonneg (by linarith [hp.1, hq.1])]
    linarith [hp.2, hq.2]
  constructor
  · obtain ⟨F, h1, h2⟩ := C149_pchip exCubic_WF (by simp [exCubic, Curve.size]) (junk := 0) (by norm_num [exCubic, Curve.t])
      (by simp [exCubic]) (builtin_names lib 0).2.2.1
    refine ⟨F, h1, fun x hx => ?_⟩
    have := h2 0 4 2 rfl rfl hg 1 (by simp [exCubic]) _ _ 24 (by norm_num) d1 l1 hv x hx
    norm_num at this ⊢
    exact this
  · obtain ⟨F, h1, h2⟩ := C149_akima exCubic_WF (by simp [exCubic, Curve.size]) (junk := 0) (by norm_num [exCubic, Curve.t])
      (by simp [exCubic]) (builtin_names lib 0).2.2.2.1
    refine ⟨F, h1, fun x hx => ?_⟩
    have := h2 0 4 2 rfl rfl hg 1 (by simp [exCubic]) _ _ 24 (by norm_num) d1 l1 hv x hx
    norm_num at this ⊢
    exact this

/-- Samples of an arc of the unit circle in space with a step of 1/100: every interpolated point is within 1/26666 of the circle. -/
example (lib : SplineLib) (m : Nat) (hm : 3 ≤ m) :
    ∃ F, EvaluatesTo (exArc 1 m (1 / 100)) (fun g => (exArc 1 m (1 / 100)).interpolate (builtinInterp lib 0) g "hermite" .none) (fun _ => True) F ∧
      ∀ x, WithinEnds ((exArc 1 m (1 / 100)).t 0) x → ∃ τ ∈ Icc (0 : ℝ) (m * (1 / 100)), ‖pt 3 (F x) - circ (ux 1) (uy 1) τ‖ ≤ 1 / 26666 := by
  have h3 : 3 ≤ (exArc 1 m (1 / 100)).size := by rw [exArc_size]; exact hm
  have hs := exArc_sampled 1 m (h := 1 / 100) (by norm_num)
  have hpos : (0 : ℝ) < 1 / 100 := by norm_num
  obtain ⟨F, h1, h2⟩ := C149_sampled (exArc_WF 1 m _) h3 rfl (junk := 0) (t_lt_of_ne (exArc_WF 1 m _) (by omega) rfl 0 (by
      intro i hi he
      have hi' : i + 1 < m := by rw [exArc_size] at hi; exact hi
      have r0 := hs.range i (by show i < (exArc 1 m (1 / 100)).size; omega)
      have r1 := hs.range (i + 1) (by show i + 1 < (exArc 1 m (1 / 100)).size; omega)
      have e := taylor1 (circ_deriv 0 (m * (1 / 100)) (ux 1) (uy 1)) (LipOn.of_deriv (circ_deriv _ _ _ _) fun x _ => (circ_norm2 1 x).le) r0 r1
      have q : rowVec 3 (exArc 1 m (1 / 100)).rows i = rowVec 3 (exArc 1 m (1 / 100)).rows (i + 1) := he
      rw [hs.pts i (by show i < (exArc 1 m (1 / 100)).size; omega), hs.pts (i + 1) (by show i + 1 < (exArc 1 m (1 / 100)).size; omega)] at q
      rw [← q, sub_self, zero_sub, norm_neg, norm_smul, circ_norm1, Real.norm_eq_abs,
        show (0 : ℝ) + ((i + 1 : ℕ) : ℝ) * (1 / 100) - (0 + (i : ℝ) * (1 / 100)) = 1 / 100 by push_cast; ring] at e
      norm_num [abs_of_pos hpos] at e)) (by simp [exArc]) (builtin_names lib 0).2.1 hs hpos.le zero_le_one (circ_deriv _ _ _ _)
    (LipOn.of_deriv (circ_deriv _ _ _ _) fun x _ => (circ_norm2 1 x).le) (by
      intro i hi
      have b := (C115_first (exArc_WF 1 m _) h3 hs (circ_deriv _ _ _ _) (circ_deriv _ _ _ _) (circ_lip 1 _ _) hi).1
      have e1 := norm_sub_norm_le ((1 / 100 : ℝ) • circ (uy 1) (-ux 1) (0 + i * (1 / 100))) (rowVec 3 (firstderiv (exArc 1 m (1 / 100))).rows i)
      rw [norm_sub_rev, norm_smul, circ_norm1, Real.norm_eq_abs, abs_of_pos (by norm_num : (0 : ℝ) < 1 / 100)] at e1
      rw [abs_of_pos (by norm_num : (0 : ℝ) < 1 / 100)] at b
      have := e1.trans b
      norm_num at this ⊢
      linarith)
  refine ⟨F, h1, fun x hx => ?_⟩
  obtain ⟨τ, hτ, h⟩ := h2 x hx
  exact ⟨τ, hτ, h.trans (by norm_num)⟩

end Verif.Props
