import Verif.Model.Geom
import Verif.Spec.Rounding
import Verif.Props.Rounded

/-!
`segment_to_segment` with rounded dot products and rounded operations: how far the computed parameters miss the conditions of the minimum.
-/
namespace Verif.Model

open Verif Verif.Np Verif.Spec

/-- Conditions of a minimum over the unit interval for a function with derivative `g` at `x`, up to `ρ`. -/
def NearOpt (ρ x g : ℝ) : Prop := 0 ≤ x ∧ x ≤ 1 ∧ (x = 0 ∨ g ≤ ρ) ∧ (x = 1 ∨ -ρ ≤ g)

theorem NearOpt.of_abs {ρ x g : ℝ} (h0 : 0 ≤ x) (h1 : x ≤ 1) (h : |g| ≤ ρ) : NearOpt ρ x g :=
  ⟨h0, h1, .inr (abs_le.1 h).2, .inr (abs_le.1 h).1⟩

theorem NearOpt.mono {ρ σ x g : ℝ} (h : NearOpt ρ x g) (hs : ρ ≤ σ) : NearOpt σ x g :=
  ⟨h.1, h.2.1, h.2.2.1.imp_right fun h => h.trans hs, h.2.2.2.imp_right fun h => by linarith⟩

theorem NearOpt.var {ρ x g y : ℝ} (h : NearOpt ρ x g) (y0 : 0 ≤ y) (y1 : y ≤ 1) : g * (x - y) ≤ ρ * |x - y| := by
  obtain ⟨h0, h1, h2, h3⟩ := h
  rcases le_total y x with hy | hy
  · rw [abs_of_nonneg (by linarith)]
    rcases h2 with h2 | h2
    · rw [show x - y = 0 by linarith]; simp
    · exact mul_le_mul_of_nonneg_right h2 (by linarith)
  · rw [abs_of_nonpos (by linarith)]
    rcases h3 with h3 | h3
    · rw [show x - y = 0 by linarith]; simp
    · nlinarith

section
variable {ε tol ν A : ℝ} {fl : ℝ → ℝ}

/-- The last division with its test. -/
theorem quot_near (hf : Rounding ε fl) (h1 : fl 1 = 1) (ht : 0 < tol) {x y : ℝ} (x0 : 0 ≤ x) (xy : x ≤ y) (y0 : 0 < y) :
    0 ≤ (if |x| < tol then 0 else fl (x / y)) ∧ (if |x| < tol then 0 else fl (x / y)) ≤ 1 ∧
      |y * (if |x| < tol then 0 else fl (x / y)) - x| ≤ max tol (ε * y) := by
  have e0 := hf.nonneg
  split_ifs with h
  · exact ⟨le_refl _, zero_le_one, by rw [mul_zero, zero_sub, abs_neg]; exact h.le.trans (le_max_left _ _)⟩
  · have q0 : 0 ≤ x / y := div_nonneg x0 y0.le
    have q1 : x / y ≤ 1 := (div_le_one y0).2 xy
    refine ⟨by simpa [Props.fl_zero hf] using hf.mono q0, by simpa [h1] using hf.mono q1, ?_⟩
    have := mul_le_mul_of_nonneg_left (hf.rel (x / y)) y0.le
    rw [show y * fl (x / y) - x = y * (fl (x / y) - x / y) by field_simp, abs_mul, abs_of_pos y0]
    refine this.trans (le_trans ?_ (le_max_right _ _))
    rw [abs_of_nonneg q0]
    have := mul_le_mul_of_nonneg_left q1 (mul_nonneg y0.le e0)
    linarith

theorem quot_one (h1 : fl 1 = 1) {y : ℝ} (hy : tol ≤ y) (ht : 0 < tol) : (if |y| < tol then 0 else fl (y / y)) = 1 := by
  have y0 : 0 < y := by linarith
  rw [if_neg (by rw [abs_of_pos y0]; linarith), div_self y0.ne', h1]

theorem quot_zero (ht : 0 < tol) {y : ℝ} : (if |(0 : ℝ)| < tol then 0 else fl (0 / y)) = 0 := by simp [ht]

/-- A rounded difference of rounded products of nearly known numbers. -/
theorem prods_near (hf : Rounding ε fl) (hν : ε ≤ ν) (hν1 : ν ≤ 1 / 1000) (A0 : 0 ≤ A) {x y z w X Y Z W : ℝ} (hX : |X| ≤ A) (hY : |Y| ≤ A) (hZ : |Z| ≤ A) (hW : |W| ≤ A)
    (hx : |x - X| ≤ ν * A) (hy : |y - Y| ≤ ν * A) (hz : |z - Z| ≤ ν * A) (hw : |w - W| ≤ ν * A) :
    |fl (fl (x * y) - fl (z * w)) - (X * Y - Z * W)| ≤ 9 * ν * A ^ 2 := by
  have e0 := hf.nonneg
  have ν0 : 0 ≤ ν := e0.trans hν
  have m0 : 0 ≤ ν * A ^ 2 := by positivity
  have one : ∀ {x y X Y : ℝ}, |X| ≤ A → |Y| ≤ A → |x - X| ≤ ν * A → |y - Y| ≤ ν * A → |fl (x * y) - X * Y| ≤ 3.01 * ν * A ^ 2 := by
    intro x y X Y hX hY hx hy
    have p : |x * y - X * Y| ≤ 2.001 * ν * A ^ 2 := by
      rw [show x * y - X * Y = (x - X) * (y - Y) + (x - X) * Y + X * (y - Y) by ring]
      refine (abs_add_three _ _ _).trans ?_
      rw [abs_mul, abs_mul, abs_mul]
      have q1 := mul_le_mul hx hy (abs_nonneg _) (by positivity)
      have q2 := mul_le_mul hx hY (abs_nonneg _) (by positivity)
      have q3 := mul_le_mul hX hy (abs_nonneg _) A0
      have q4 : ν * A * (ν * A) ≤ 1 / 1000 * (ν * A ^ 2) := by
        have := mul_le_mul_of_nonneg_right hν1 m0
        nlinarith
      nlinarith
    have q : |x * y| ≤ 1.003 * A ^ 2 := by
      have := abs_add_le (x * y - X * Y) (X * Y)
      rw [sub_add_cancel, abs_mul X Y] at this
      have := mul_le_mul hX hY (abs_nonneg _) A0
      have := mul_le_mul_of_nonneg_right hν1 (sq_nonneg A)
      nlinarith
    have r := (hf.rel (x * y)).trans (mul_le_mul hν q (abs_nonneg _) ν0)
    have := abs_sub_le (fl (x * y)) (x * y) (X * Y)
    nlinarith
  have h1 := one hX hY hx hy
  have h2 := one hZ hW hz hw
  obtain ⟨P, hP⟩ : ∃ P, P = fl (x * y) := ⟨_, rfl⟩
  obtain ⟨Q, hQ⟩ : ∃ Q, Q = fl (z * w) := ⟨_, rfl⟩
  rw [← hP] at h1 ⊢
  rw [← hQ] at h2 ⊢
  have h3 : |(P - Q) - (X * Y - Z * W)| ≤ 6.02 * ν * A ^ 2 := by
    rw [show (P - Q) - (X * Y - Z * W) = (P - X * Y) - (Q - Z * W) by ring]
    have := abs_sub (P - X * Y) (Q - Z * W)
    linarith
  have h4 : |P - Q| ≤ 2.01 * A ^ 2 := by
    have t := abs_add_le ((P - Q) - (X * Y - Z * W)) (X * Y - Z * W)
    rw [sub_add_cancel] at t
    have t2 := abs_sub (X * Y) (Z * W)
    rw [abs_mul, abs_mul] at t2
    have := mul_le_mul hX hY (abs_nonneg _) A0
    have := mul_le_mul hZ hW (abs_nonneg _) A0
    have := mul_le_mul_of_nonneg_right hν1 (sq_nonneg A)
    nlinarith
  have r := (hf.rel (P - Q)).trans (mul_le_mul hν h4 (abs_nonneg _) ν0)
  have := abs_sub_le (fl (P - Q)) (P - Q) (X * Y - Z * W)
  nlinarith

/-- The step back to the first segment after the second parameter was set to 0. -/
theorem step_back {a b c d e s D k : ℝ} (ν0 : 0 ≤ ν) (A0 : 0 < A) (ha : 0 < a) (haA : a ≤ A) (hc : 0 < c) (hcA : c ≤ A) (hb : |b| ≤ A) (hD : D = a * c - b * b) (D0 : 0 < D)
    (hk : A ^ 2 ≤ k * D) (hs : NearOpt (8 * ν * A) s (a * s + d))
    (h : (b * e - c * d ≤ 9 * ν * A ^ 2 ∧ e ≤ 6 * ν * A) ∨ (D - 18 * ν * A ^ 2 ≤ b * e - c * d ∧ e + b ≤ 6 * ν * A) ∨
      (-(9 * ν * A ^ 2) ≤ b * e - c * d ∧ b * e - c * d ≤ D + 18 * ν * A ^ 2 ∧ a * e - b * d ≤ 18 * ν * A ^ 2)) :
    e + b * s ≤ 50 * ν * k * A := by
  obtain ⟨s0, s1, l, r⟩ := hs
  obtain ⟨b1, b2⟩ := abs_le.1 hb
  have m3 : 0 ≤ ν * A ^ 3 := by positivity
  have m1 : 0 ≤ ν * A := by positivity
  -- it suffices to bound D times it
  suffices key : D * (e + b * s) ≤ 36 * ν * A ^ 3 by
    have h1 : 36 * ν * A ^ 3 ≤ D * (50 * ν * k * A) := by
      have := mul_le_mul_of_nonneg_left hk (mul_nonneg (by norm_num : (0:ℝ) ≤ 50) m1)
      nlinarith
    exact le_of_mul_le_mul_left (key.trans h1) D0
  have DA : D ≤ A ^ 2 := by
    have := mul_le_mul haA hcA hc.le A0.le
    nlinarith [mul_self_nonneg b]
  have small : ∀ {x : ℝ}, x ≤ 6 * ν * A → D * x ≤ 36 * ν * A ^ 3 := by
    intro x hx
    have h1 := mul_le_mul_of_nonneg_left hx D0.le
    have h2 := mul_le_mul_of_nonneg_right DA m1
    nlinarith
  -- a (e + b s) = TN + b (a s + d)
  have lift : ∀ {B : ℝ}, 0 ≤ B → a * c * (e + b * s) ≤ B → D * (e + b * s) ≤ B := by
    intro B B0 hB
    rcases le_total (e + b * s) 0 with hx | hx
    · exact (mul_nonpos_of_nonneg_of_nonpos D0.le hx).trans B0
    · have : D ≤ a * c := by nlinarith [mul_self_nonneg b]
      exact (mul_le_mul_of_nonneg_right this hx).trans hB
  have id1 : a * c * (e + b * s) = c * (a * e - b * d) + c * (b * (a * s + d)) := by ring
  have id2 : c * (a * e - b * d) = D * e + b * (b * e - c * d) := by rw [hD]; ring
  have bg : b * (a * s + d) ≤ 8 * ν * A ^ 2 → c * (b * (a * s + d)) ≤ 8 * ν * A ^ 3 := by
    intro h
    have h1 := mul_le_mul_of_nonneg_left h hc.le
    have h2 := mul_le_mul_of_nonneg_right hcA (show 0 ≤ 8 * ν * A ^ 2 by positivity)
    nlinarith
  have bp : 0 ≤ b → a * s + d ≤ 8 * ν * A → b * (a * s + d) ≤ 8 * ν * A ^ 2 := by
    intro h0 h
    have h1 := mul_le_mul_of_nonneg_left h h0
    have h2 := mul_le_mul_of_nonneg_right b2 (show 0 ≤ 8 * ν * A by positivity)
    nlinarith
  have bn : b ≤ 0 → -(8 * ν * A) ≤ a * s + d → b * (a * s + d) ≤ 8 * ν * A ^ 2 := by
    intro h0 h
    have h1 := mul_le_mul_of_nonpos_left h h0
    have h2 := mul_le_mul_of_nonneg_right b1 (show 0 ≤ 8 * ν * A by positivity)
    nlinarith
  rcases h with ⟨n1, e1⟩ | ⟨n1, e1⟩ | ⟨n1, n2, t1⟩
  · rcases le_total b 0 with hb0 | hb0
    · refine small ?_
      nlinarith
    · rcases l with l | l
      · subst l; refine small ?_; linarith
      · refine lift (by positivity) ?_
        rw [id1, id2]
        have q1 := bg (bp hb0 l)
        have q2 := mul_le_mul_of_nonneg_left n1 hb0
        have q3 := mul_le_mul_of_nonneg_right b2 (show 0 ≤ 9 * ν * A ^ 2 by positivity)
        have q4 := mul_le_mul_of_nonneg_left e1 D0.le
        have q5 := mul_le_mul_of_nonneg_right DA m1
        nlinarith
  · rcases le_total 0 b with hb0 | hb0
    · refine small ?_
      nlinarith
    · rcases r with r | r
      · subst r; refine small ?_; linarith
      · refine lift (by positivity) ?_
        rw [id1, id2]
        have q1 := bg (bn hb0 r)
        have q2 := mul_le_mul_of_nonpos_left n1 hb0
        have q3 := mul_le_mul_of_nonneg_right b1 (show 0 ≤ 18 * ν * A ^ 2 by positivity)
        have q4 := mul_le_mul_of_nonneg_left e1 D0.le
        have q5 := mul_le_mul_of_nonneg_right DA m1
        nlinarith
  · have ct : c * (a * e - b * d) ≤ 18 * ν * A ^ 3 := by
      have h1 := mul_le_mul_of_nonneg_left t1 hc.le
      have h2 := mul_le_mul_of_nonneg_right hcA (show 0 ≤ 18 * ν * A ^ 2 by positivity)
      nlinarith
    rcases le_total 0 b with hb0 | hb0
    · rcases l with l | l
      · subst l
        rw [mul_zero, add_zero]
        have q2 := mul_le_mul_of_nonneg_left n1 hb0
        have q3 := mul_le_mul_of_nonneg_right b2 (show 0 ≤ 9 * ν * A ^ 2 by positivity)
        nlinarith
      · refine lift (by positivity) ?_
        rw [id1]
        have := bg (bp hb0 l)
        linarith
    · rcases r with r | r
      · subst r
        rw [mul_one]
        have q2 := mul_le_mul_of_nonpos_left n2 hb0
        have q3 := mul_le_mul_of_nonneg_right b1 (show 0 ≤ 18 * ν * A ^ 2 by positivity)
        nlinarith
      · refine lift (by positivity) ?_
        rw [id1]
        have := bg (bn hb0 r)
        linarith

/-- A quotient of nearly known numbers. -/
theorem quot_res (hf : Rounding ε fl) (h1 : fl 1 = 1) (hν : ε ≤ ν) (hν1 : ν ≤ 1 / 1000) (A0 : 0 < A) (ht : 0 < tol) (tA : tol ≤ ν * A) {x y X Y : ℝ} (x0 : 0 ≤ x) (xy : x ≤ y) (y0 : 0 < y)
    (YA : Y ≤ A) (ex : |x - X| ≤ 4.1 * ν * A) (ey : |y - Y| ≤ ν * A) :
    let q := if |x| < tol then 0 else fl (x / y)
    0 ≤ q ∧ q ≤ 1 ∧ |Y * q - X| ≤ 7 * ν * A := by
  intro q
  have e0 := hf.nonneg
  have ν0 : 0 ≤ ν := e0.trans hν
  obtain ⟨q0, q1, r⟩ := quot_near hf h1 ht x0 xy y0
  refine ⟨q0, q1, ?_⟩
  change |y * q - x| ≤ _ at r
  have m : max tol (ε * y) ≤ 1.1 * ν * A := by
    have m1 : 0 ≤ ν * A := by positivity
    refine max_le (by linarith) ?_
    have : y ≤ 1.001 * A := by rw [abs_le] at ey; nlinarith
    have := mul_le_mul hν this y0.le ν0
    linarith
  have h2 : |(Y - y) * q| ≤ ν * A := by
    rw [abs_mul, abs_of_nonneg q0, abs_sub_comm]
    have := mul_le_mul ey q1 q0 (by positivity)
    linarith
  rw [show Y * q - X = (Y - y) * q + (y * q - x) + (x - X) by ring]
  have := abs_add_three ((Y - y) * q) (y * q - x) (x - X)
  have : 0 ≤ ν * A := by positivity
  linarith

/-- A sum of nearly known numbers. -/
theorem sum_near (hf : Rounding ε fl) (hν : ε ≤ ν) (hν1 : ν ≤ 1 / 1000) (A0 : 0 < A) {x y X Y : ℝ} (hX : |X| ≤ A) (hY : |Y| ≤ A) (hx : |x - X| ≤ ν * A) (hy : |y - Y| ≤ ν * A) :
    |fl (x + y) - (X + Y)| ≤ 4.1 * ν * A := by
  have ν0 : 0 ≤ ν := hf.nonneg.trans hν
  have : |x + y| ≤ 2.1 * A := by
    rw [abs_le] at *
    constructor <;> nlinarith
  have r := (hf.rel (x + y)).trans (mul_le_mul hν this (abs_nonneg _) ν0)
  have t1 := abs_sub_le (fl (x + y)) (x + y) (X + Y)
  have t2 := abs_add_le (x - X) (y - Y)
  rw [show x - X + (y - Y) = x + y - (X + Y) by ring] at t2
  linarith

/-- The first parameter, recomputed for an end of the second segment. -/
theorem first_near (hf : Rounding ε fl) (h1 : fl 1 = 1) (hν : ε ≤ ν) (hν1 : ν ≤ 1 / 1000) (A0 : 0 < A) (ht : 0 < tol) (tA : tol ≤ ν * A) {a a' x X sd : ℝ} (aA : a ≤ A) (a0 : 0 < a')
    (hsd : tol ≤ sd) (ea : |a' - a| ≤ ν * A) (ex : |x - X| ≤ 4.1 * ν * A) {p : ℝ × ℝ} (hp : p = if x < 0 then (0, sd) else if x > a' then (sd, sd) else (x, a')) :
    let s := if |p.1| < tol then 0 else fl (p.1 / p.2)
    NearOpt (8 * ν * A) s (a * s - X) := by
  have ν0 : 0 ≤ ν := hf.nonneg.trans hν
  have m1 : 0 ≤ ν * A := by positivity
  split_ifs at hp with q1 q2
  · subst hp
    simp only [quot_zero ht]
    rw [abs_le] at ex
    exact ⟨le_refl _, zero_le_one, .inl rfl, .inr (by linarith)⟩
  · subst hp
    simp only [quot_one h1 hsd ht]
    rw [abs_le] at ex ea
    exact ⟨zero_le_one, le_refl _, .inr (by linarith), .inl rfl⟩
  · subst hp
    obtain ⟨s0, s1, h⟩ := quot_res hf h1 hν hν1 A0 ht tA (not_lt.1 q1) (not_lt.1 q2) a0 aA ex ea
    exact NearOpt.of_abs s0 s1 (by linarith)

/-- What follows from the size of the determinant. -/
theorem det_bounds {a b c D k : ℝ} (νp : 0 < ν) (A0 : 0 < A) (haA : a ≤ A) (hcA : c ≤ A) (ha0 : 0 ≤ a) (hc0 : 0 ≤ c) (hD : D = a * c - b * b) (hk : A ^ 2 ≤ k * D)
    (hνk : 20 * ν * k ≤ 1) (k0 : 0 < k) :
    0 < D ∧ D ≤ A ^ 2 ∧ A ≤ k * a ∧ A ≤ k * c ∧ 0 < a ∧ 0 < c ∧ 20 * ν * A ≤ a ∧ 20 * ν * A ≤ c ∧ 20 * ν * A ^ 2 ≤ D ∧ 1 ≤ k := by
  have D0 : 0 < D := by
    have : 0 < k * D := lt_of_lt_of_le (by positivity) hk
    exact pos_of_mul_pos_right this k0.le
  have acA : a * c ≤ A ^ 2 := by nlinarith [mul_le_mul haA hcA hc0 A0.le]
  have Dac : D ≤ a * c := by nlinarith [mul_self_nonneg b]
  have ka : A ≤ k * a := by
    have : A * A ≤ k * a * A := by
      have := mul_le_mul_of_nonneg_left (Dac.trans (mul_le_mul_of_nonneg_left hcA ha0)) k0.le
      nlinarith
    exact le_of_mul_le_mul_right this A0
  have kc : A ≤ k * c := by
    have : A * A ≤ k * c * A := by
      have h1 := mul_le_mul_of_nonneg_right haA hc0
      have := mul_le_mul_of_nonneg_left (Dac.trans h1) k0.le
      nlinarith
    exact le_of_mul_le_mul_right this A0
  have la : ∀ {x y : ℝ}, 0 ≤ x → y ≤ k * x → 20 * ν * y ≤ x := by
    intro x y x0 h
    have q1 := mul_le_mul_of_nonneg_left h (show 0 ≤ 20 * ν by positivity)
    have q2 := mul_le_mul_of_nonneg_right hνk x0
    nlinarith
  have a20 := la ha0 ka
  have c20 := la hc0 kc
  have m1 : 0 < ν * A := by positivity
  refine ⟨D0, Dac.trans acA, ka, kc, by linarith, by linarith, a20, c20, la D0.le hk, ?_⟩
  have : A ^ 2 * 1 ≤ A ^ 2 * k := by
    have := mul_le_mul_of_nonneg_left (Dac.trans acA) k0.le
    linarith
  exact le_of_mul_le_mul_left this (by positivity)

/-- The first stage: the computed `dd`, and the three cases. -/
theorem lines_near (hf : Rounding ε fl) (hν : ε ≤ ν) (hν1 : ν ≤ 1 / 1000) (A0 : 0 < A) (tA2 : tol ≤ ν * A ^ 2)
    {a b c d e a' b' c' d' e' D : ℝ} (haA : |a| ≤ A) (hcA : |c| ≤ A) (hb : |b| ≤ A) (hd : |d| ≤ A) (he : |e| ≤ A)
    (ea : |a' - a| ≤ ν * A) (eb : |b' - b| ≤ ν * A) (ec : |c' - c| ≤ ν * A) (ed : |d' - d| ≤ ν * A) (ee : |e' - e| ≤ ν * A)
    (hD : D = a * c - b * b) (D20 : 20 * ν * A ^ 2 ≤ D) (DA : D ≤ A ^ 2) :
    ∃ dd sn tn, |dd - D| ≤ 9 * ν * A ^ 2 ∧ |sn - (b * e - c * d)| ≤ 9 * ν * A ^ 2 ∧ |tn - (a * e - b * d)| ≤ 9 * ν * A ^ 2 ∧ tol ≤ dd ∧ dd ≤ 1.01 * A ^ 2 ∧
      ((sn < 0 ∧ s2sLines fl tol a' b' c' d' e' = ⟨0, dd, e', c'⟩) ∨ (dd < sn ∧ s2sLines fl tol a' b' c' d' e' = ⟨dd, dd, fl (e' + b'), c'⟩) ∨
        (0 ≤ sn ∧ sn ≤ dd ∧ s2sLines fl tol a' b' c' d' e' = ⟨sn, dd, tn, dd⟩)) := by
  have ν0 : 0 ≤ ν := hf.nonneg.trans hν
  have m2 : 0 ≤ ν * A ^ 2 := by positivity
  have rd := prods_near hf hν hν1 A0.le haA hcA hb hb ea ec eb eb
  have rs := prods_near hf hν hν1 A0.le hb he hcA hd eb ee ec ed
  have rt := prods_near hf hν hν1 A0.le haA he hb hd ea ee eb ed
  rw [← hD] at rd
  have r := abs_le.1 rd
  have ddp : tol ≤ fl (fl (a' * c') - fl (b' * b')) := by linarith
  refine ⟨_, _, _, rd, rs, rt, ddp, ?_, ?_⟩
  · have := mul_le_mul_of_nonneg_right hν1 (sq_nonneg A)
    linarith
  · unfold s2sLines
    simp only [if_neg (not_lt.2 ddp)]
    split_ifs with q1 q2
    · exact .inl ⟨q1, rfl⟩
    · exact .inr (.inl ⟨q2, rfl⟩)
    · exact .inr (.inr ⟨not_lt.1 q1, not_lt.1 q2, rfl⟩)

/-- The second parameter set to 0. -/
theorem at_zero {a b c d e s D k : ℝ} (ν0 : 0 ≤ ν) (A0 : 0 < A) (ha : 0 < a) (haA : a ≤ A) (hc : 0 < c) (hcA : c ≤ A) (hb : |b| ≤ A) (hD : D = a * c - b * b) (D0 : 0 < D)
    (hk : A ^ 2 ≤ k * D) (k1 : 1 ≤ k) (hs : NearOpt (8 * ν * A) s (a * s - -d))
    (h : (b * e - c * d ≤ 9 * ν * A ^ 2 ∧ e ≤ 6 * ν * A) ∨ (D - 18 * ν * A ^ 2 ≤ b * e - c * d ∧ e + b ≤ 6 * ν * A) ∨
      (-(9 * ν * A ^ 2) ≤ b * e - c * d ∧ b * e - c * d ≤ D + 18 * ν * A ^ 2 ∧ a * e - b * d ≤ 18 * ν * A ^ 2)) :
    NearOpt (50 * ν * k * A) s (a * s - b * 0 + d) ∧ NearOpt (50 * ν * k * A) 0 (c * 0 - b * s - e) := by
  rw [sub_neg_eq_add] at hs
  have := step_back ν0 A0 ha haA hc hcA hb hD D0 hk hs h
  refine ⟨?_, le_refl _, zero_le_one, .inl rfl, .inr (by linarith)⟩
  rw [show a * s - b * 0 + d = a * s + d by ring]
  refine hs.mono ?_
  have := mul_le_mul_of_nonneg_left k1 (show 0 ≤ 50 * ν * A by positivity)
  have : 0 ≤ ν * A := by positivity
  nlinarith

/-- The second parameter set to 1: the second segment reversed. -/
theorem at_one {a b c d e s D k : ℝ} (ν0 : 0 ≤ ν) (A0 : 0 < A) (ha : 0 < a) (haA : a ≤ A) (hc : 0 < c) (hcA : c ≤ A) (hb : |b| ≤ A) (hD : D = a * c - b * b) (D0 : 0 < D)
    (hk : A ^ 2 ≤ k * D) (k1 : 1 ≤ k) (hs : NearOpt (8 * ν * A) s (a * s - (-d + b)))
    (h : (b * e - c * d ≤ 9 * ν * A ^ 2 ∧ c - e ≤ 6 * ν * A) ∨ (D - 18 * ν * A ^ 2 ≤ b * e - c * d ∧ c - (e + b) ≤ 6 * ν * A) ∨
      (-(9 * ν * A ^ 2) ≤ b * e - c * d ∧ b * e - c * d ≤ D + 18 * ν * A ^ 2 ∧ D - (a * e - b * d) ≤ 18 * ν * A ^ 2)) :
    NearOpt (50 * ν * k * A) s (a * s - b * 1 + d) ∧ NearOpt (50 * ν * k * A) 1 (c * 1 - b * s - e) := by
  have := at_zero (b := -b) (e := c - e) (d := d - b) ν0 A0 ha haA hc hcA (by rwa [abs_neg]) (by rw [hD]; ring) D0 hk k1
    (by rwa [show -(d - b) = -d + b by ring]) (by
      rw [show -b * (c - e) - c * (d - b) = b * e - c * d by ring, show a * (c - e) - -b * (d - b) = D - (a * e - b * d) by rw [hD]; ring,
        show c - e + -b = c - (e + b) by ring]
      exact h)
  obtain ⟨h1, -, -, -, h2⟩ := this
  refine ⟨by rwa [show a * s - b * 1 + d = a * s - -b * 0 + (d - b) by ring], zero_le_one, le_refl _, .inr ?_, .inl rfl⟩
  rcases h2 with h2 | h2
  · norm_num at h2
  · linarith

/-- The second parameter is kept. -/
theorem kept {a b c d e s t D k : ℝ} (ν0 : 0 ≤ ν) (A0 : 0 < A) (haA : |a| ≤ A) (hc : 0 < c) (hcA : |c| ≤ A) (hb : |b| ≤ A) (hD : D = a * c - b * b) (D0 : 0 < D)
    (hk : A ^ 2 ≤ k * D) (kc : A ≤ k * c) (k1 : 1 ≤ k) (t0 : 0 ≤ t) (t1 : t ≤ 1)
    (h : (b * e - c * d ≤ 9 * ν * A ^ 2 ∧ s = 0 ∧ |c * t - e| ≤ 7 * ν * A) ∨ (D - 18 * ν * A ^ 2 ≤ b * e - c * d ∧ s = 1 ∧ |c * t - (e + b)| ≤ 7 * ν * A) ∨
      (0 ≤ s ∧ s ≤ 1 ∧ |D * s - (b * e - c * d)| ≤ 20 * ν * A ^ 2 ∧ |D * t - (a * e - b * d)| ≤ 20 * ν * A ^ 2)) :
    NearOpt (50 * ν * k * A) s (a * s - b * t + d) ∧ NearOpt (50 * ν * k * A) t (c * t - b * s - e) := by
  have m1 : 0 ≤ ν * A := by positivity
  have m2 : 0 ≤ ν * A ^ 2 := by positivity
  have m3 : 0 ≤ ν * A ^ 3 := by positivity
  have big : 7 * ν * A ≤ 50 * ν * k * A := by
    have := mul_le_mul_of_nonneg_left k1 (show 0 ≤ 50 * ν * A by positivity)
    nlinarith
  have divc : ∀ {x : ℝ}, c * x ≤ 50 * ν * A ^ 2 → x ≤ 50 * ν * k * A := by
    intro x h
    refine le_of_mul_le_mul_left (h.trans ?_) hc
    have := mul_le_mul_of_nonneg_left kc (show 0 ≤ 50 * ν * A by positivity)
    nlinarith
  have divD : ∀ {x : ℝ}, D * |x| ≤ 50 * ν * A ^ 3 → |x| ≤ 50 * ν * k * A := by
    intro x h
    refine le_of_mul_le_mul_left (h.trans ?_) D0
    have := mul_le_mul_of_nonneg_left hk (show 0 ≤ 50 * ν * A by positivity)
    nlinarith
  rcases h with ⟨n, rfl, r⟩ | ⟨n, rfl, r⟩ | ⟨s0, s1, r1, r2⟩
  · refine ⟨⟨le_refl _, zero_le_one, .inl rfl, .inr ?_⟩, NearOpt.of_abs t0 t1 (by rw [mul_zero, sub_zero]; exact r.trans big)⟩
    rw [neg_le]
    refine divc ?_
    rw [show c * -(a * 0 - b * t + d) = (b * e - c * d) + b * (c * t - e) by ring]
    have := (le_abs_self _).trans ((abs_mul b (c * t - e)).le.trans (mul_le_mul hb r (abs_nonneg _) A0.le))
    nlinarith
  · refine ⟨⟨zero_le_one, le_refl _, .inr ?_, .inl rfl⟩, NearOpt.of_abs t0 t1 (by rw [show c * t - b * 1 - e = c * t - (e + b) by ring]; exact r.trans big)⟩
    refine divc ?_
    rw [show c * (a * 1 - b * t + d) = (D - (b * e - c * d)) - b * (c * t - (e + b)) by rw [hD]; ring]
    have := (neg_le_abs _).trans ((abs_mul b (c * t - (e + b))).le.trans (mul_le_mul hb r (abs_nonneg _) A0.le))
    nlinarith
  · have two : ∀ {x y p q : ℝ}, |x| ≤ A → |y| ≤ A → |p| ≤ 20 * ν * A ^ 2 → |q| ≤ 20 * ν * A ^ 2 → |x * p - y * q| ≤ 50 * ν * A ^ 3 := by
      intro x y p q hx hy hp hq
      refine (abs_sub _ _).trans ?_
      rw [abs_mul, abs_mul]
      have := mul_le_mul hx hp (abs_nonneg _) A0.le
      have := mul_le_mul hy hq (abs_nonneg _) A0.le
      nlinarith
    refine ⟨NearOpt.of_abs s0 s1 (divD ?_), NearOpt.of_abs t0 t1 (divD ?_)⟩
    · rw [← abs_of_pos D0, ← abs_mul, show D * (a * s - b * t + d) = a * (D * s - (b * e - c * d)) - b * (D * t - (a * e - b * d)) by rw [hD]; ring]
      exact two haA hb r1 r2
    · rw [← abs_of_pos D0, ← abs_mul, show D * (c * t - b * s - e) = c * (D * t - (a * e - b * d)) - b * (D * s - (b * e - c * d)) by rw [hD]; ring]
      exact two hcA hb r2 r1

/-- A quotient with the rounded determinant. -/
theorem quot_det (hf : Rounding ε fl) (h1 : fl 1 = 1) (hν : ε ≤ ν) (A0 : 0 < A) (ht : 0 < tol) (tA2 : tol ≤ ν * A ^ 2) {x X dd D : ℝ} (x0 : 0 ≤ x) (xy : x ≤ dd)
    (d0 : tol ≤ dd) (dA : dd ≤ 1.01 * A ^ 2) (ex : |x - X| ≤ 9 * ν * A ^ 2) (ed : |dd - D| ≤ 9 * ν * A ^ 2) :
    let q := if |x| < tol then 0 else fl (x / dd)
    0 ≤ q ∧ q ≤ 1 ∧ |D * q - X| ≤ 20 * ν * A ^ 2 := by
  intro q
  have e0 := hf.nonneg
  have ν0 : 0 ≤ ν := e0.trans hν
  have m2 : 0 ≤ ν * A ^ 2 := by positivity
  obtain ⟨q0, q1, r⟩ := quot_near hf h1 ht x0 xy (by linarith)
  refine ⟨q0, q1, ?_⟩
  change |dd * q - x| ≤ _ at r
  have m : max tol (ε * dd) ≤ 1.1 * ν * A ^ 2 := by
    refine max_le (by linarith) ?_
    have := mul_le_mul hν dA (by linarith) ν0
    linarith
  have h2 : |(D - dd) * q| ≤ 9 * ν * A ^ 2 := by
    rw [abs_mul, abs_of_nonneg q0, abs_sub_comm]
    have := mul_le_mul ed q1 q0 (by positivity)
    linarith
  rw [show D * q - X = (D - dd) * q + (dd * q - x) + (x - X) by ring]
  have := abs_add_three ((D - dd) * q) (dd * q - x) (x - X)
  linarith

theorem core_zero (ht : 0 < tol) {a b c d e dd : ℝ} {f : Fracs ℝ} (h2 : f.sd = dd) (h3 : f.tn < 0) (h4 : s2sLines fl tol a b c d e = f) :
    s2sCore fl tol a b c d e = (let p := if -d < 0 then (0, dd) else if -d > a then (dd, dd) else (-d, a); if |p.1| < tol then 0 else fl (p.1 / p.2), 0) := by
  unfold s2sCore
  rw [h4]
  unfold s2sClamp
  rw [if_pos h3, h2]
  refine Prod.ext ?_ ?_
  · by_cases q1 : -d < 0
    · simp only [if_pos q1]
    · by_cases q2 : -d > a
      · simp only [if_neg q1, if_pos q2]
      · simp only [if_neg q1, if_neg q2]
  · have : ∀ y : ℝ, (if |(0 : ℝ)| < tol then 0 else fl (0 / y)) = 0 := fun y => quot_zero ht
    by_cases q1 : -d < 0
    · simp only [if_pos q1, this]
    · by_cases q2 : -d > a
      · simp only [if_neg q1, if_pos q2, this]
      · simp only [if_neg q1, if_neg q2, this]

theorem core_one (h1 : fl 1 = 1) (ht : 0 < tol) {a b c d e dd : ℝ} {f : Fracs ℝ} (h2 : f.sd = dd) (h3 : ¬ f.tn < 0) (h5 : f.td < f.tn) (h6 : tol ≤ f.td)
    (h4 : s2sLines fl tol a b c d e = f) :
    s2sCore fl tol a b c d e = (let p := if fl (-d + b) < 0 then (0, dd) else if fl (-d + b) > a then (dd, dd) else (fl (-d + b), a);
      if |p.1| < tol then 0 else fl (p.1 / p.2), 1) := by
  unfold s2sCore
  rw [h4]
  unfold s2sClamp
  rw [if_neg h3, if_pos (show f.tn > f.td from h5), h2]
  refine Prod.ext ?_ ?_
  · by_cases q1 : fl (-d + b) < 0
    · simp only [if_pos q1]
    · by_cases q2 : fl (-d + b) > a
      · simp only [if_neg q1, if_pos q2]
      · simp only [if_neg q1, if_neg q2]
  · have := quot_one h1 h6 ht
    by_cases q1 : fl (-d + b) < 0
    · simp only [if_pos q1, this]
    · by_cases q2 : fl (-d + b) > a
      · simp only [if_neg q1, if_pos q2, this]
      · simp only [if_neg q1, if_neg q2, this]

theorem core_keep {a b c d e : ℝ} {f : Fracs ℝ} (h3 : ¬ f.tn < 0) (h5 : ¬ f.td < f.tn) (h4 : s2sLines fl tol a b c d e = f) :
    s2sCore fl tol a b c d e = (if |f.sn| < tol then 0 else fl (f.sn / f.sd), if |f.tn| < tol then 0 else fl (f.tn / f.td)) := by
  unfold s2sCore
  rw [h4]
  unfold s2sClamp
  rw [if_neg h3, if_neg (show ¬ f.tn > f.td from h5)]

/-- The computed parameters nearly satisfy the conditions of the minimum of the squared distance. -/
theorem core_near (hf : Rounding ε fl) (h1 : fl 1 = 1) (hν : ε ≤ ν) (hν1 : ν ≤ 1 / 1000) (A0 : 0 < A) (ht : 0 < tol) (tA : tol ≤ ν * A) (tA2 : tol ≤ ν * A ^ 2)
    {a b c d e a' b' c' d' e' D k : ℝ} (haA : a ≤ A) (hcA : c ≤ A) (ha0 : 0 ≤ a) (hc0 : 0 ≤ c) (hb : |b| ≤ A) (hd : |d| ≤ A) (he : |e| ≤ A)
    (ea : |a' - a| ≤ ν * A) (eb : |b' - b| ≤ ν * A) (ec : |c' - c| ≤ ν * A) (ed : |d' - d| ≤ ν * A) (ee : |e' - e| ≤ ν * A)
    (hD : D = a * c - b * b) (hk : A ^ 2 ≤ k * D) (hνk : 20 * ν * k ≤ 1) (k0 : 0 < k) :
    NearOpt (50 * ν * k * A) (s2sCore fl tol a' b' c' d' e').1 (a * (s2sCore fl tol a' b' c' d' e').1 - b * (s2sCore fl tol a' b' c' d' e').2 + d) ∧
      NearOpt (50 * ν * k * A) (s2sCore fl tol a' b' c' d' e').2 (c * (s2sCore fl tol a' b' c' d' e').2 - b * (s2sCore fl tol a' b' c' d' e').1 - e) := by
  have e0 := hf.nonneg
  have ν0 : 0 ≤ ν := e0.trans hν
  have νp : 0 < ν := by
    rcases ν0.lt_or_eq with h | h
    · exact h
    · rw [← h] at tA; linarith
  have haA' : |a| ≤ A := by rw [abs_of_nonneg ha0]; exact haA
  have hcA' : |c| ≤ A := by rw [abs_of_nonneg hc0]; exact hcA
  obtain ⟨D0, DA, ka, kc, ap, cp, a20, c20, D20, k1⟩ := det_bounds νp A0 haA hcA ha0 hc0 hD hk hνk k0
  obtain ⟨dd, sn, tn, rd, rs, rt, ddt, ddA, hl⟩ := lines_near hf hν hν1 A0 tA2 haA' hcA' hb hd he ea eb ec ed ee hD D20 DA
  have m1 : 0 < ν * A := by positivity
  have m2 : 0 < ν * A ^ 2 := by positivity
  have a'0 : 0 < a' := by linarith [(abs_le.1 ea).1]
  have c't : tol ≤ c' := by linarith [(abs_le.1 ec).1]
  have c'0 : 0 < c' := by linarith
  have xd : |-d' - -d| ≤ 4.1 * ν * A := by
    rw [show -d' - -d = -(d' - d) by ring, abs_neg]; linarith
  have xb : |fl (-d' + b') - (-d + b)| ≤ 4.1 * ν * A :=
    sum_near hf hν hν1 A0 (by rwa [abs_neg]) hb (by rw [show -d' - -d = -(d' - d) by ring, abs_neg]; exact ed) eb
  have xe : |e' - e| ≤ 4.1 * ν * A := by linarith
  have xeb : |fl (e' + b') - (e + b)| ≤ 4.1 * ν * A := sum_near hf hν hν1 A0 he hb ee eb
  have fz := first_near hf h1 hν hν1 A0 ht tA haA a'0 ddt ea xd rfl
  have fo := first_near hf h1 hν hν1 A0 ht tA haA a'0 ddt ea xb rfl
  have az := fun {s : ℝ} => at_zero (s := s) (d := d) (e := e) ν0 A0 ap haA cp hcA hb hD D0 hk k1
  have ao := fun {s : ℝ} => at_one (s := s) (d := d) (e := e) ν0 A0 ap haA cp hcA hb hD D0 hk k1
  have kp := fun {s t : ℝ} => kept (s := s) (t := t) (d := d) (e := e) ν0 A0 haA' cp hcA' hb hD D0 hk kc k1
  -- the clamped parameters
  have clampZ : ∀ {f : Fracs ℝ}, f.sd = dd → f.tn < 0 → s2sLines fl tol a' b' c' d' e' = f →
      NearOpt (8 * ν * A) (s2sCore fl tol a' b' c' d' e').1 (a * (s2sCore fl tol a' b' c' d' e').1 - -d) ∧ (s2sCore fl tol a' b' c' d' e').2 = 0 := by
    intro f h2 h3 h4
    rw [core_zero ht h2 h3 h4]
    exact ⟨fz, rfl⟩
  have clampO : ∀ {f : Fracs ℝ}, f.sd = dd → ¬ f.tn < 0 → f.td < f.tn → tol ≤ f.td → s2sLines fl tol a' b' c' d' e' = f →
      NearOpt (8 * ν * A) (s2sCore fl tol a' b' c' d' e').1 (a * (s2sCore fl tol a' b' c' d' e').1 - (-d + b)) ∧ (s2sCore fl tol a' b' c' d' e').2 = 1 := by
    intro f h2 h3 h5 h6 h4
    rw [core_one h1 ht h2 h3 h5 h6 h4]
    exact ⟨fo, rfl⟩
  obtain ⟨rd1, rd2⟩ := abs_le.1 rd
  obtain ⟨rs1, rs2⟩ := abs_le.1 rs
  obtain ⟨rt1, rt2⟩ := abs_le.1 rt
  obtain ⟨ee1, ee2⟩ := abs_le.1 ee
  obtain ⟨ec1, ec2⟩ := abs_le.1 ec
  obtain ⟨xeb1, xeb2⟩ := abs_le.1 xeb
  rcases hl with ⟨n, hl⟩ | ⟨n, hl⟩ | ⟨n, n', hl⟩
  · by_cases q1 : e' < 0
    · obtain ⟨hs, h2⟩ := clampZ rfl q1 hl
      rw [h2]
      exact az hs (.inl ⟨by linarith, by linarith⟩)
    · by_cases q2 : c' < e'
      · obtain ⟨hs, h2⟩ := clampO rfl q1 q2 c't hl
        rw [h2]
        exact ao hs (.inl ⟨by linarith, by linarith⟩)
      · rw [core_keep q1 q2 hl]
        obtain ⟨t0, t1, r⟩ := quot_res hf h1 hν hν1 A0 ht tA (not_lt.1 q1) (not_lt.1 q2) c'0 hcA xe ec
        exact kp t0 t1 (.inl ⟨by linarith, quot_zero ht, r⟩)
  · by_cases q1 : fl (e' + b') < 0
    · obtain ⟨hs, h2⟩ := clampZ rfl q1 hl
      rw [h2]
      exact az hs (.inr (.inl ⟨by linarith, by linarith⟩))
    · by_cases q2 : c' < fl (e' + b')
      · obtain ⟨hs, h2⟩ := clampO rfl q1 q2 c't hl
        rw [h2]
        exact ao hs (.inr (.inl ⟨by linarith, by linarith⟩))
      · rw [core_keep q1 q2 hl]
        obtain ⟨t0, t1, r⟩ := quot_res hf h1 hν hν1 A0 ht tA (not_lt.1 q1) (not_lt.1 q2) c'0 hcA xeb ec
        exact kp t0 t1 (.inr (.inl ⟨by linarith, quot_one h1 ddt ht, r⟩))
  · by_cases q1 : tn < 0
    · obtain ⟨hs, h2⟩ := clampZ rfl q1 hl
      rw [h2]
      exact az hs (.inr (.inr ⟨by linarith, by linarith, by linarith⟩))
    · by_cases q2 : dd < tn
      · obtain ⟨hs, h2⟩ := clampO rfl q1 q2 ddt hl
        rw [h2]
        exact ao hs (.inr (.inr ⟨by linarith, by linarith, by linarith⟩))
      · rw [core_keep q1 q2 hl]
        obtain ⟨s0, s1, r⟩ := quot_det hf h1 hν A0 ht tA2 n n' ddt ddA rs rd
        obtain ⟨t0, t1, r'⟩ := quot_det hf h1 hν A0 ht tA2 (not_lt.1 q1) (not_lt.1 q2) ddt ddA rt rd
        exact kp t0 t1 (.inr (.inr ⟨s0, s1, r, r'⟩))

end

end Verif.Model
