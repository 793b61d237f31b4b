import Verif.Spec.Rounding
import Mathlib.Analysis.SpecialFunctions.Pow.Real
import Mathlib.Tactic.Linarith
import Mathlib.Tactic.Positivity

/-!
Error of the quotient `(y'' x' - x'' y') / (x'^2 + y'^2)^(3/2)`.
-/
namespace Verif.Props

open Verif Verif.Spec

/-- Length of a vector of the plane. -/
noncomputable def len2 (a b : ℝ) : ℝ := √ (a * a + b * b)

theorem len2_nonneg (a b : ℝ) : 0 ≤ len2 a b := Real.sqrt_nonneg _

theorem len2_sq (a b : ℝ) : len2 a b * len2 a b = a * a + b * b :=
  Real.mul_self_sqrt (add_nonneg (mul_self_nonneg a) (mul_self_nonneg b))

theorem abs_le_len2 (a b : ℝ) : |a| ≤ len2 a b ∧ |b| ≤ len2 a b := by
  constructor
  · exact Real.abs_le_sqrt (by nlinarith [mul_self_nonneg b])
  · exact Real.abs_le_sqrt (by nlinarith [mul_self_nonneg a])

theorem len2_le (a b : ℝ) : len2 a b ≤ |a| + |b| := by
  unfold len2
  rw [Real.sqrt_le_left (by positivity)]
  have h1 := abs_mul_abs_self a
  have h2 := abs_mul_abs_self b
  nlinarith [mul_nonneg (abs_nonneg a) (abs_nonneg b)]

theorem len2_add (a b p q : ℝ) : len2 (a + p) (b + q) ≤ len2 a b + len2 p q := by
  refine Real.sqrt_le_iff.2 ⟨add_nonneg (len2_nonneg _ _) (len2_nonneg _ _), ?_⟩
  have h1 := len2_sq a b
  have h2 := len2_sq p q
  have h3 : a * p + b * q ≤ len2 a b * len2 p q := by
    refine le_of_sq_le_sq' ?_ (mul_nonneg (len2_nonneg _ _) (len2_nonneg _ _))
    rw [mul_pow, sq (len2 a b), sq (len2 p q), h1, h2]
    nlinarith [sq_nonneg (a * q - b * p)]
  nlinarith
where
  le_of_sq_le_sq' {x y : ℝ} (h : x ^ 2 ≤ y ^ 2) (hy : 0 ≤ y) : x ≤ y := abs_le_of_sq_le_sq' h hy |>.2

theorem len2_near {a b a' b' E : ℝ} (ha : |a' - a| ≤ E) (hb : |b' - b| ≤ E) : |len2 a' b' - len2 a b| ≤ 2 * E := by
  have k : ∀ x y x' y' : ℝ, |x' - x| ≤ E → |y' - y| ≤ E → len2 x' y' - len2 x y ≤ 2 * E := by
    intro x y x' y' h1 h2
    have := len2_add x y (x' - x) (y' - y)
    rw [add_sub_cancel, add_sub_cancel] at this
    have := len2_le (x' - x) (y' - y)
    linarith
  rw [abs_le]
  have h1 := k a b a' b' ha hb
  have h2 := k a' b' a b (by rwa [abs_sub_comm]) (by rwa [abs_sub_comm])
  constructor <;> linarith

variable {ε η : ℝ} {fl : ℝ → ℝ}

/-- The numerator. -/
theorem curv_num (hf : Rounding ε fl) (hε : 1000 * ε ≤ 1) {a b p q a' b' p' q' v E F S : ℝ} (hv : v = len2 a b) (ha : |a' - a| ≤ E) (hb : |b' - b| ≤ E) (hp : |p' - p| ≤ F) (hq : |q' - q| ≤ F)
    (sp : |p| ≤ S) (sq : |q| ≤ S) (hE : 8 * E ≤ v) :
    |fl (fl (q' * a') - fl (p' * b')) - (q * a - p * b)| ≤ 2.25 * F * v + 2 * S * E + 8 * ε * (S + F) * v := by
  have e0 := hf.nonneg
  have E0 : 0 ≤ E := (abs_nonneg _).trans ha
  have F0 : 0 ≤ F := (abs_nonneg _).trans hp
  have S0 : 0 ≤ S := (abs_nonneg _).trans sp
  have v0 : 0 ≤ v := hv ▸ len2_nonneg a b
  obtain ⟨va, vb⟩ := abs_le_len2 a b
  rw [← hv] at va vb
  have prod : ∀ {x y x' y' : ℝ}, |x' - x| ≤ F → |x| ≤ S → |y' - y| ≤ E → |y| ≤ v → |x' * y' - x * y| ≤ 9 / 8 * F * v + S * E ∧ |x' * y'| ≤ (S + F) * (9 / 8 * v) := by
    intro x y x' y' h1 h2 h3 h4
    have hy' : |y'| ≤ 9 / 8 * v := by
      have := abs_add_le (y' - y) y
      rw [sub_add_cancel] at this
      linarith
    have hx' : |x'| ≤ S + F := by
      have := abs_add_le (x' - x) x
      rw [sub_add_cancel] at this
      linarith
    constructor
    · rw [show x' * y' - x * y = (x' - x) * y' + x * (y' - y) by ring]
      refine (abs_add_le _ _).trans ?_
      rw [abs_mul, abs_mul]
      have := mul_le_mul h1 hy' (abs_nonneg _) F0
      have := mul_le_mul h2 h3 (abs_nonneg _) S0
      linarith
    · rw [abs_mul]
      exact mul_le_mul hx' hy' (abs_nonneg _) (by linarith)
  obtain ⟨d1, m1⟩ := prod hq sq ha va
  obtain ⟨d2, m2⟩ := prod hp sp hb vb
  have r1 := hf.rel (q' * a')
  have r2 := hf.rel (p' * b')
  have r3 := hf.rel (fl (q' * a') - fl (p' * b'))
  generalize fl (fl (q' * a') - fl (p' * b')) = n at *
  generalize fl (q' * a') = x at *
  generalize fl (p' * b') = y at *
  have W0 : 0 ≤ (S + F) * v := by positivity
  have r1' := r1.trans (mul_le_mul_of_nonneg_left m1 e0)
  have r2' := r2.trans (mul_le_mul_of_nonneg_left m2 e0)
  have hxy : |x - y| ≤ 3 * ((S + F) * v) := by
    have h1 : |x| ≤ |x - q' * a'| + |q' * a'| := by have := abs_add_le (x - q' * a') (q' * a'); rwa [sub_add_cancel] at this
    have h2 : |y| ≤ |y - p' * b'| + |p' * b'| := by have := abs_add_le (y - p' * b') (p' * b'); rwa [sub_add_cancel] at this
    have h3 := abs_sub x y
    have : ε * ((S + F) * (9 / 8 * v)) ≤ 1 / 1000 * ((S + F) * (9 / 8 * v)) := mul_le_mul_of_nonneg_right (by linarith) (by positivity)
    linarith
  have r3' := r3.trans (mul_le_mul_of_nonneg_left hxy e0)
  have key : n - (q * a - p * b) = (n - (x - y)) + (x - q' * a') - (y - p' * b') + ((q' * a' - q * a) - (p' * b' - p * b)) := by ring
  rw [key]
  have t1 := abs_add_le ((n - (x - y)) + (x - q' * a') - (y - p' * b')) ((q' * a' - q * a) - (p' * b' - p * b))
  have t2 := abs_sub ((n - (x - y)) + (x - q' * a')) (y - p' * b')
  have t3 := abs_add_le (n - (x - y)) (x - q' * a')
  have t4 := abs_sub (q' * a' - q * a) (p' * b' - p * b)
  have : 0 ≤ ε * ((S + F) * v) := mul_nonneg e0 W0
  linarith

/-- The computed `x'^2 + y'^2` is the square of a number near the speed. -/
theorem curv_len (hf : Rounding ε fl) (hε : 1000 * ε ≤ 1) {a b a' b' v E : ℝ} (hv : v = len2 a b) (ha : |a' - a| ≤ E) (hb : |b' - b| ≤ E) (hE : 32 * E ≤ v) :
    let q := fl (fl (a' * a') + fl (b' * b'))
    0 ≤ q ∧ |√ q - v| ≤ 2 * E + 3 * ε * v := by
  intro q
  have e0 := hf.nonneg
  have E0 : 0 ≤ E := (abs_nonneg _).trans ha
  have v0 : 0 ≤ v := hv ▸ len2_nonneg a b
  have near := len2_near ha hb
  rw [← hv] at near
  set w := len2 a' b' with hw
  have w0 : 0 ≤ w := len2_nonneg _ _
  have hw2 : w * w = a' * a' + b' * b' := len2_sq _ _
  have wv : w ≤ 17 / 16 * v := by have := (abs_le.1 near).2; linarith
  have r1 := hf.rel (a' * a')
  have r2 := hf.rel (b' * b')
  have r3 := hf.rel (fl (a' * a') + fl (b' * b'))
  rw [abs_of_nonneg (mul_self_nonneg a')] at r1
  rw [abs_of_nonneg (mul_self_nonneg b')] at r2
  have hq : |q - w * w| ≤ 2.5 * ε * (w * w) := by
    show |fl (fl (a' * a') + fl (b' * b')) - w * w| ≤ _
    have s : |fl (a' * a') + fl (b' * b') - w * w| ≤ ε * (w * w) := by
      rw [hw2, show fl (a' * a') + fl (b' * b') - (a' * a' + b' * b') = (fl (a' * a') - a' * a') + (fl (b' * b') - b' * b') by ring]
      refine (abs_add_le _ _).trans ?_
      linarith
    generalize fl (a' * a') + fl (b' * b') = x at *
    have hx : |x| ≤ 1.1 * (w * w) := by
      have h1 := abs_add_le (x - w * w) (w * w)
      rw [sub_add_cancel, abs_of_nonneg (mul_self_nonneg w)] at h1
      have : ε * (w * w) ≤ 1 / 1000 * (w * w) := mul_le_mul_of_nonneg_right (by linarith) (mul_self_nonneg w)
      have := mul_self_nonneg w
      linarith
    have h2 := mul_le_mul_of_nonneg_left hx e0
    have h3 := abs_add_le (fl x - x) (x - w * w)
    rw [sub_add_sub_cancel] at h3
    have : 0 ≤ ε * (w * w) := mul_nonneg e0 (mul_self_nonneg w)
    linarith
  have ww := mul_self_nonneg w
  have small : 2.5 * ε * (w * w) ≤ 0.0025 * (w * w) := mul_le_mul_of_nonneg_right (by linarith) ww
  have q0 : 0 ≤ q := by have := (abs_le.1 hq).1; linarith
  refine ⟨q0, ?_⟩
  have hs : |√ q - w| ≤ 2.5 * ε * w := by
    rcases eq_or_lt_of_le w0 with h0 | h0
    · rw [← h0] at hq ⊢
      have : q = 0 := by simpa using hq
      rw [this]; simp
    · have s0 := Real.sqrt_nonneg q
      have hm : (√ q - w) * (√ q + w) = q - w * w := by
        have := Real.mul_self_sqrt q0
        linear_combination this
      have ha : |√ q - w| * (√ q + w) = |q - w * w| := by rw [← hm, abs_mul, abs_of_nonneg (by linarith : 0 ≤ √ q + w)]
      have : |√ q - w| * w ≤ 2.5 * ε * w * w := by
        have := mul_nonneg (abs_nonneg (√ q - w)) s0
        nlinarith
      exact le_of_mul_le_mul_right this h0
  have h1 := abs_add_le (√ q - w) (w - v)
  rw [sub_add_sub_cancel] at h1
  have h2 : 2.5 * ε * w ≤ 2.5 * ε * (17 / 16 * v) := mul_le_mul_of_nonneg_left wv (by positivity)
  have : 0 ≤ ε * v := mul_nonneg e0 v0
  linarith

/-- The denominator. -/
theorem curv_den {w v D W : ℝ} (e0 : 0 ≤ ε) (hε : 1000 * ε ≤ 1) (h0 : 0 ≤ η) (hη : 100 * η ≤ 1) (v0 : 0 < v) {E : ℝ} (hE : 0 ≤ E) (hE1 : 64 * E ≤ v) (hw0 : 0 ≤ w) (hw : |w - v| ≤ 2 * E + 3 * ε * v)
    (hW : W = w * w * w) (hD : |D - W| ≤ η * W) : |D - v ^ 3| ≤ v ^ 3 * (8 * (E / v) + 12 * ε + 2 * η) ∧ v ^ 3 / 2 ≤ D := by
  obtain ⟨w1, w2⟩ := abs_le.1 hw
  have ev : 3 * ε * v ≤ 3 / 1000 * v := mul_le_mul_of_nonneg_right (by linarith) v0.le
  have hwv : w ≤ 1.05 * v := by linarith
  have hc : |W - v ^ 3| ≤ 4 * v ^ 2 * (2 * E + 3 * ε * v) := by
    have pos : 0 ≤ w * w + w * v + v * v := by positivity
    rw [hW, show w * w * w - v ^ 3 = (w - v) * (w * w + w * v + v * v) by ring, abs_mul, abs_of_nonneg pos]
    have : w * w + w * v + v * v ≤ 4 * v ^ 2 := by nlinarith
    rw [mul_comm]
    exact mul_le_mul this hw (abs_nonneg _) (by positivity)
  have W2 : W ≤ 2 * v ^ 3 := by
    have h1 : w * w ≤ (1.05 * v) * (1.05 * v) := mul_le_mul hwv hwv hw0 (by linarith)
    have h2 : w * w * w ≤ (1.05 * v) * (1.05 * v) * (1.05 * v) := mul_le_mul h1 hwv hw0 (by positivity)
    have : 0 < v ^ 3 := by positivity
    rw [hW]
    nlinarith
  have e1 : v ^ 3 * (8 * (E / v) + 12 * ε + 2 * η) = 4 * v ^ 2 * (2 * E + 3 * ε * v) + η * (2 * v ^ 3) := by
    field_simp
    ring
  have main : |D - v ^ 3| ≤ v ^ 3 * (8 * (E / v) + 12 * ε + 2 * η) := by
    rw [e1]
    have h1 := abs_add_le (D - W) (W - v ^ 3)
    rw [sub_add_sub_cancel] at h1
    have := mul_le_mul_of_nonneg_left W2 h0
    linarith
  refine ⟨main, ?_⟩
  have h1 := (abs_le.1 main).1
  have h2 : 8 * (E / v) + 12 * ε + 2 * η ≤ 1 / 2 := by
    have : E / v ≤ 1 / 64 := by rw [div_le_iff₀ v0]; linarith
    linarith
  have h3 := mul_le_mul_of_nonneg_left h2 (show 0 ≤ v ^ 3 by positivity)
  linarith

/-- The sum of the errors. -/
theorem curv_alg {F S y : ℝ} (e0 : 0 ≤ ε) (hε : 1000 * ε ≤ 1) (h0 : 0 ≤ η) (F0 : 0 ≤ F) (S0 : 0 ≤ S) (y0 : 0 ≤ y) :
    (1 + ε) * (2 * (2.25 * F + 2 * S * y + 8 * ε * (S + F) + 2 * S * (8 * y + 12 * ε + 2 * η))) + ε * (2 * S) ≤
      5 * F + 37 * S * y + 80 * ε * (S + F) + 9 * η * S := by
  have X0 : 0 ≤ 2 * (2.25 * F + 2 * S * y + 8 * ε * (S + F) + 2 * S * (8 * y + 12 * ε + 2 * η)) := by positivity
  have b1 := mul_le_mul_of_nonneg_right (show 1 + ε ≤ 1.001 by linarith) X0
  have s1 : 0 ≤ S * y := mul_nonneg S0 y0
  have s2 : 0 ≤ η * S := mul_nonneg h0 S0
  have s3 : 0 ≤ ε * S := mul_nonneg e0 S0
  have s4 : 0 ≤ ε * F := mul_nonneg e0 F0
  refine le_trans (add_le_add_left b1 _) ?_
  linarith

/-- The quotient. -/
theorem curv_core (hf : Rounding ε fl) (hε : 1000 * ε ≤ 1) (h0 : 0 ≤ η) (hη : 100 * η ≤ 1) {a b p q a' b' p' q' v E F S D : ℝ} (hv : v = len2 a b) (v0 : 0 < v) (ha : |a' - a| ≤ E) (hb : |b' - b| ≤ E)
    (hp : |p' - p| ≤ F) (hq : |q' - q| ≤ F) (sp : |p| ≤ S) (sq : |q| ≤ S) (hE : 64 * E ≤ v)
    (hD : |D - fl (fl (a' * a') + fl (b' * b')) * √ (fl (fl (a' * a') + fl (b' * b')))| ≤ η * (fl (fl (a' * a') + fl (b' * b')) * √ (fl (fl (a' * a') + fl (b' * b'))))) :
    D ≠ 0 ∧ |fl (fl (fl (q' * a') - fl (p' * b')) / D) - (q * a - p * b) / v ^ 3| ≤ (5 * F + 37 * S * (E / v) + 80 * ε * (S + F) + 9 * η * S) / v ^ 2 := by
  have e0 := hf.nonneg
  have E0 : 0 ≤ E := (abs_nonneg _).trans ha
  have F0 : 0 ≤ F := (abs_nonneg _).trans hp
  have S0 : 0 ≤ S := (abs_nonneg _).trans sp
  have N := curv_num hf hε hv ha hb hp hq sp sq (by linarith)
  obtain ⟨q0, L⟩ := curv_len hf hε hv ha hb (by linarith)
  obtain ⟨dD, hD2⟩ := curv_den e0 hε h0 hη v0 E0 hE (Real.sqrt_nonneg _) L (by rw [Real.mul_self_sqrt q0]) hD
  generalize fl (fl (q' * a') - fl (p' * b')) = n at *
  have v3 : 0 < v ^ 3 := by positivity
  have D0 : 0 < D := by linarith
  refine ⟨D0.ne', ?_⟩
  obtain ⟨va, vb⟩ := abs_le_len2 a b
  rw [← hv] at va vb
  have hm : |q * a - p * b| ≤ 2 * S * v := by
    refine (abs_sub _ _).trans ?_
    rw [abs_mul, abs_mul]
    have := mul_le_mul sq va (abs_nonneg _) S0
    have := mul_le_mul sp vb (abs_nonneg _) S0
    linarith
  generalize q * a - p * b = m at *
  set R := 8 * (E / v) + 12 * ε + 2 * η with hR
  set T := 2.25 * F * v + 2 * S * E + 8 * ε * (S + F) * v with hT
  have T0 : 0 ≤ T := by positivity
  have R0 : 0 ≤ R := by rw [hR]; positivity
  -- the quotient before rounding
  have d1 : |n / D - m / v ^ 3| ≤ (T + 2 * S * v * R) / D := by
    have e : n / D - m / v ^ 3 = ((n - m) + m * ((v ^ 3 - D) / v ^ 3)) / D := by field_simp; ring
    rw [e, abs_div, abs_of_pos D0]
    refine div_le_div_of_nonneg_right ((abs_add_le _ _).trans (add_le_add N ?_)) D0.le
    rw [abs_mul]
    refine mul_le_mul hm ?_ (abs_nonneg _) (by positivity)
    rw [abs_div, abs_of_pos v3, div_le_iff₀ v3, abs_sub_comm, mul_comm]
    exact dD
  have d2 : |m / v ^ 3| ≤ 2 * S * v / v ^ 3 := by
    rw [abs_div, abs_of_pos v3]
    exact div_le_div_of_nonneg_right hm v3.le
  have d1' : |n / D - m / v ^ 3| ≤ 2 * (T + 2 * S * v * R) / v ^ 3 := by
    refine d1.trans ?_
    rw [div_le_div_iff₀ D0 v3]
    have : 0 ≤ T + 2 * S * v * R := by positivity
    nlinarith
  have r := hf.rel (n / D)
  have d3 : |n / D| ≤ 2 * (T + 2 * S * v * R) / v ^ 3 + 2 * S * v / v ^ 3 := by
    have := abs_add_le (n / D - m / v ^ 3) (m / v ^ 3)
    rw [sub_add_cancel] at this
    linarith
  have r' := r.trans (mul_le_mul_of_nonneg_left d3 e0)
  have tot := abs_add_le (fl (n / D) - n / D) (n / D - m / v ^ 3)
  rw [sub_add_sub_cancel] at tot
  have fin : |fl (n / D) - m / v ^ 3| ≤ ((1 + ε) * (2 * (T + 2 * S * v * R)) + ε * (2 * S * v)) / v ^ 3 := by
    refine (tot.trans (add_le_add r' d1')).trans (le_of_eq ?_)
    ring
  refine fin.trans ?_
  rw [div_le_div_iff₀ v3 (by positivity)]
  have hEv : E = (E / v) * v := by field_simp
  have Q0 : 0 ≤ E / v := by positivity
  rw [hT, hR]
  generalize E / v = y at *
  have al := curv_alg e0 hε h0 F0 S0 Q0
  have al2 := mul_le_mul_of_nonneg_right al v3.le
  refine le_trans (le_of_eq ?_) al2
  rw [hEv]
  ring

end Verif.Props
