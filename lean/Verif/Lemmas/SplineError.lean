import Verif.Lemmas.Bending
import Verif.Props.AccuracyLen
import Mathlib.Analysis.Calculus.MeanValue
import Mathlib.Tactic.ComputeDegree

/-!
How far a cubic spline is from a function with the same values at the knots.
-/
namespace Verif.Props

open Verif Verif.Np Verif.Model Verif.Spec Set

/-- The square of an integral. -/
theorem sq_integral_le {u v : ℝ} (huv : u ≤ v) {φ : ℝ → ℝ} (hφ : ContinuousOn φ (Icc u v)) :
    (∫ x in u..v, φ x) ^ 2 ≤ (v - u) * ∫ x in u..v, φ x ^ 2 := by
  rcases huv.eq_or_lt with rfl | h
  · simp
  have ii : ∀ {φ : ℝ → ℝ}, ContinuousOn φ (Icc u v) → IntervalIntegrable φ MeasureTheory.volume u v := by
    intro φ hφ
    apply ContinuousOn.intervalIntegrable
    rwa [uIcc_of_le huv]
  obtain ⟨m, hm⟩ : ∃ m, m = (∫ x in u..v, φ x) / (v - u) := ⟨_, rfl⟩
  have hI : (∫ x in u..v, φ x) = m * (v - u) := by rw [hm]; field_simp [sub_ne_zero.2 h.ne']
  have h0 : 0 ≤ ∫ x in u..v, (φ x - m) ^ 2 := intervalIntegral.integral_nonneg huv (fun x _ => sq_nonneg _)
  have e : (fun x => (φ x - m) ^ 2) = fun x => φ x ^ 2 - 2 * m * φ x + m ^ 2 := by funext x; ring
  rw [e, intervalIntegral.integral_add, intervalIntegral.integral_sub, intervalIntegral.integral_const_mul, hI] at h0
  · simp only [intervalIntegral.integral_const, smul_eq_mul] at h0
    rw [hI]
    have : 0 ≤ (v - u) * (∫ x in u..v, φ x ^ 2) - (m * (v - u)) ^ 2 := by
      have k := mul_nonneg (sub_nonneg.2 huv) h0
      nlinarith
    linarith
  · exact ii (hφ.pow 2)
  · exact ii (hφ.const_mul _)
  · exact ii ((hφ.pow 2).sub (hφ.const_mul _))
  · exact ii continuousOn_const

/-- A function that vanishes at both ends of an interval and bends little is small, and so is its derivative. -/
theorem small_of_bend {u v h E : ℝ} (huv : u < v) (hh : v - u ≤ h) {e e1 e2 : ℝ → ℝ} (he : TwiceOn u v e e1 e2) (hu : e u = 0) (hv : e v = 0)
    (hE : ∫ x in u..v, e2 x ^ 2 ≤ E) : ∀ x ∈ Icc u v, |e1 x| ≤ √(h * E) ∧ |e x| ≤ h / 2 * √(h * E) := by
  have ii : ∀ {p q : ℝ}, p ∈ Icc u v → q ∈ Icc u v → ∀ {φ : ℝ → ℝ}, ContinuousOn φ (Icc u v) → IntervalIntegrable φ MeasureTheory.volume p q := by
    intro p q hp hq φ hφ
    apply ContinuousOn.intervalIntegrable
    exact hφ.mono (uIcc_subset_Icc hp hq)
  have step : ∀ p ∈ Icc u v, ∀ q ∈ Icc u v, p ≤ q → |e1 q - e1 p| ≤ √(h * E) := by
    intro p hp q hq hpq
    have hsub : Icc p q ⊆ Icc u v := Icc_subset_Icc hp.1 hq.2
    have hder := he.2.1.mono hp.1 hq.2
    have hint := intervalIntegral.integral_eq_sub_of_hasDerivAt_of_le (f := e1) (f' := e2) hpq (fun x hx => (hder x hx).continuousWithinAt)
      (fun x hx => (hder x (Ioo_subset_Icc_self hx)).hasDerivAt (Icc_mem_nhds hx.1 hx.2)) (ii hp hq he.2.2)
    have hsq := sq_integral_le hpq (he.2.2.mono hsub)
    rw [hint] at hsq
    have hpart : ∫ x in p..q, e2 x ^ 2 ≤ ∫ x in u..v, e2 x ^ 2 := by
      apply intervalIntegral.integral_mono_interval hp.1 hpq hq.2
      · exact Filter.Eventually.of_forall fun x => sq_nonneg _
      · exact ii (left_mem_Icc.2 huv.le) (right_mem_Icc.2 huv.le) (he.2.2.pow 2)
    have h0 : 0 ≤ ∫ x in p..q, e2 x ^ 2 := intervalIntegral.integral_nonneg hpq (fun x _ => sq_nonneg _)
    apply Real.abs_le_sqrt
    refine hsq.trans (mul_le_mul ?_ (hpart.trans hE) h0 (by linarith))
    have := hp.1
    have := hq.2
    linarith
  obtain ⟨z, hz, hz0⟩ : ∃ z ∈ Ioo u v, e1 z = 0 := by
    apply exists_hasDerivAt_eq_zero huv (f := e) (fun x hx => (he.1 x hx).continuousWithinAt) (by rw [hu, hv])
    exact fun x hx => (he.1 x (Ioo_subset_Icc_self hx)).hasDerivAt (Icc_mem_nhds hx.1 hx.2)
  have hz' := Ioo_subset_Icc_self hz
  have h1 : ∀ x ∈ Icc u v, |e1 x| ≤ √(h * E) := by
    intro x hx
    rcases le_total z x with k | k
    · have := step z hz' x hx k
      rwa [hz0, sub_zero] at this
    · have := step x hx z hz' k
      rwa [hz0, zero_sub, abs_neg] at this
  intro x hx
  refine ⟨h1 x hx, ?_⟩
  have ml := (convex_Icc u v).norm_image_sub_le_of_norm_hasDerivWithin_le (f := e) (f' := e1) (C := √(h * E)) he.1 (fun y hy => h1 y hy)
    (left_mem_Icc.2 huv.le) hx
  have mr := (convex_Icc u v).norm_image_sub_le_of_norm_hasDerivWithin_le (f := e) (f' := e1) (C := √(h * E)) he.1 (fun y hy => h1 y hy)
    (right_mem_Icc.2 huv.le) hx
  rw [hu, sub_zero, Real.norm_eq_abs, Real.norm_eq_abs, abs_of_nonneg (sub_nonneg.2 hx.1)] at ml
  rw [hv, sub_zero, Real.norm_eq_abs, Real.norm_eq_abs, abs_of_nonpos (sub_nonpos.2 hx.2)] at mr
  have hs : 0 ≤ √(h * E) := Real.sqrt_nonneg _
  rcases le_total (x - u) (v - x) with k | k
  · have : x - u ≤ h / 2 := by linarith
    have := mul_le_mul_of_nonneg_left this hs
    linarith
  · have : v - x ≤ h / 2 := by linarith
    have := mul_le_mul_of_nonneg_left this hs
    linarith

/-- The line through two values of a function stays close to it. -/
theorem line_close {a b M h : ℝ} {g d : ℝ → ℝ} (hM : 0 ≤ M) (h1 : DerivOn a b g d) (hl : LipOn a b M d) {u v x s : ℝ} (hu : u ∈ Icc a b) (hv : v ∈ Icc a b)
    (h0 : 0 ≤ s) (hs1 : s ≤ 1) (hx : (v - u) * s = x - u) (hx' : x ∈ Icc a b) (huv : u ≤ v) (hstep : v - u ≤ h) :
    |g u + s * (g v - g u) - g x| ≤ M / 8 * h ^ 2 := by
  have e1 := taylor1 h1 hl hx' hu
  have e2 := taylor1 h1 hl hx' hv
  rw [sq_abs, Real.norm_eq_abs, smul_eq_mul] at e1 e2
  have g1 : x = u + (v - u) * s := by linarith
  have : g u + s * (g v - g u) - g x = (1 - s) * (g u - g x - (u - x) * d x) + s * (g v - g x - (v - x) * d x) := by
    rw [g1]; ring
  rw [this]
  refine (abs_add_le _ _).trans ?_
  rw [abs_mul, abs_mul, abs_of_nonneg (show 0 ≤ 1 - s by linarith), abs_of_nonneg h0]
  have f1 := mul_le_mul_of_nonneg_left e1 (show 0 ≤ 1 - s by linarith)
  have f2 := mul_le_mul_of_nonneg_left e2 h0
  subst g1
  have f3 : (1 - s) * (M / 2 * (u - (u + (v - u) * s)) ^ 2) + s * (M / 2 * (v - (u + (v - u) * s)) ^ 2) = M / 2 * (v - u) ^ 2 * (s * (1 - s)) := by ring
  have f4 : s * (1 - s) ≤ 1 / 4 := by nlinarith [sq_nonneg (s - 1 / 2)]
  have f5 : (v - u) ^ 2 ≤ h ^ 2 := pow_le_pow_left₀ (by linarith) hstep 2
  have f6 : M / 2 * (v - u) ^ 2 * (s * (1 - s)) ≤ M / 2 * (v - u) ^ 2 * (1 / 4) := mul_le_mul_of_nonneg_left f4 (by positivity)
  have f7 : M * (v - u) ^ 2 ≤ M * h ^ 2 := mul_le_mul_of_nonneg_left f5 hM
  linarith

section
variable {t : List ℝ} {y : Nat → ℝ} {f : ℝ → ℝ} {P : Nat → Polynomial ℝ}

/-- The bending energy of the difference of a function `g` and the spline with the same values: at most that of the difference of the second
derivative of `g` and any function that is linear between the knots and continuous, if the boundary terms vanish. -/
theorem bend_error (ht : t.Pairwise (· < ·)) (hl : 2 ≤ t.length) (h : CubicOn t y f P) {g g1 g2 : ℝ → ℝ}
    (hg : TwiceOn (knot t 0) (knot t (t.length - 1)) g g1 g2) (hv : ∀ i, i < t.length → g (knot t i) = y i)
    {Q : Nat → Polynomial ℝ} {w : Nat → ℝ} {δ : ℝ} (hQ : ∀ i, (Q i).natDegree ≤ 3)
    (hw : ∀ i, i + 1 < t.length → (Q i).derivative.derivative.eval (knot t i) = w i ∧
      (Q i).derivative.derivative.eval (knot t (i + 1)) = w (i + 1))
    (hδ : ∀ i, i + 1 < t.length → ∀ x ∈ Icc (knot t i) (knot t (i + 1)), |g2 x - (Q i).derivative.derivative.eval x| ≤ δ)
    (h0 : (w 0 - splineD2 t P (knot t 0)) * (g1 (knot t 0) - splineD1 t P (knot t 0)) = 0)
    (h9 : (w (t.length - 1) - splineD2 t P (knot t (t.length - 1))) *
      (g1 (knot t (t.length - 1)) - splineD1 t P (knot t (t.length - 1))) = 0) :
    ∫ x in (knot t 0)..(knot t (t.length - 1)), (g2 x - splineD2 t P x) ^ 2 ≤ δ ^ 2 * (knot t (t.length - 1) - knot t 0) := by
  have hf := cubicOn_twice ht hl h
  have he := hg.sub hf
  have hle : ∀ i, i + 1 < t.length → knot t i ≤ knot t (i + 1) := fun i hi => knot_le ht (by omega) (by omega)
  have hsub : ∀ i, i + 1 < t.length → Icc (knot t i) (knot t (i + 1)) ⊆ Icc (knot t 0) (knot t (t.length - 1)) := by
    intro i hi
    exact Icc_subset_Icc (knot_le ht (by omega) (by omega)) (knot_le ht (by omega) (by omega))
  have piece : ∀ i, i + 1 < t.length → ∫ x in (knot t i)..(knot t (i + 1)), (g2 x - splineD2 t P x) ^ 2 ≤
      (δ ^ 2 * knot t (i + 1) + 2 * ((w (i + 1) - splineD2 t P (knot t (i + 1))) * (g1 (knot t (i + 1)) - splineD1 t P (knot t (i + 1))))) -
      (δ ^ 2 * knot t i + 2 * ((w i - splineD2 t P (knot t i)) * (g1 (knot t i) - splineD1 t P (knot t i)))) := by
    intro i hi
    have hmono := he.mono (knot_le ht (Nat.zero_le i) (by omega)) (knot_le ht (show i + 1 ≤ t.length - 1 by omega) (by omega))
    have hD : (Q i - P i).natDegree ≤ 3 := (Polynomial.natDegree_sub_le _ _).trans (max_le (hQ i) (h.degree i))
    have b := bend_piece (hle i hi) hD hmono (by rw [hv i (by omega), cubicOn_values ht hl h (by omega), sub_self])
      (by rw [hv (i + 1) hi, cubicOn_values ht hl h hi, sub_self])
    simp only [Polynomial.derivative_sub, Polynomial.eval_sub] at b
    rw [(hw i hi).1, (hw i hi).2, ← (splineD_on ht h hi (left_mem_Icc.2 (hle i hi))).2,
      ← (splineD_on ht h hi (right_mem_Icc.2 (hle i hi))).2] at b
    have ii : ∀ {φ : ℝ → ℝ}, ContinuousOn φ (Icc (knot t i) (knot t (i + 1))) →
        IntervalIntegrable φ MeasureTheory.volume (knot t i) (knot t (i + 1)) := by
      intro φ hφ
      apply ContinuousOn.intervalIntegrable
      rwa [uIcc_of_le (hle i hi)]
    have c2 := hmono.2.2
    have cQ : ContinuousOn (fun x => (Q i).derivative.derivative.eval x - (P i).derivative.derivative.eval x) (Icc (knot t i) (knot t (i + 1))) :=
      ((Polynomial.continuous _).sub (Polynomial.continuous _)).continuousOn
    have key : ∫ x in (knot t i)..(knot t (i + 1)), (g2 x - splineD2 t P x) ^ 2 ≤
        ∫ x in (knot t i)..(knot t (i + 1)), (δ ^ 2 + 2 * (((Q i).derivative.derivative.eval x - (P i).derivative.derivative.eval x) *
          (g2 x - splineD2 t P x))) := by
      apply intervalIntegral.integral_mono_on (hle i hi) (ii (c2.pow 2)) (ii (continuousOn_const.add ((cQ.mul c2).const_mul 2)))
      intro x hx
      change (g2 x - splineD2 t P x) ^ 2 ≤ δ ^ 2 + 2 * (((Q i).derivative.derivative.eval x - (P i).derivative.derivative.eval x) *
          (g2 x - splineD2 t P x))
      rw [(splineD_on ht h hi hx).2]
      have k := sq_le_sq' (abs_le.1 (hδ i hi x hx)).1 (abs_le.1 (hδ i hi x hx)).2
      obtain ⟨q, hq⟩ : ∃ q, q = (Q i).derivative.derivative.eval x := ⟨_, rfl⟩
      rw [← hq] at k ⊢
      nlinarith [sq_nonneg (q - (P i).derivative.derivative.eval x)]
    refine key.trans (le_of_eq ?_)
    have cm : ContinuousOn (fun x => 2 * (((Q i).derivative.derivative.eval x - (P i).derivative.derivative.eval x) * (g2 x - splineD2 t P x)))
        (Icc (knot t i) (knot t (i + 1))) := (cQ.mul c2).const_mul 2
    rw [intervalIntegral.integral_add (ii continuousOn_const) (ii cm), intervalIntegral.integral_const_mul, b]
    simp only [intervalIntegral.integral_const, smul_eq_mul]
    ring
  rw [← intervalIntegral.sum_integral_adjacent_intervals (a := knot t) (n := t.length - 1)]
  · refine (Finset.sum_le_sum fun i hi => piece i (by have := Finset.mem_range.1 hi; omega)).trans (le_of_eq ?_)
    rw [Finset.sum_range_sub (fun i => δ ^ 2 * knot t i + 2 * ((w i - splineD2 t P (knot t i)) * (g1 (knot t i) - splineD1 t P (knot t i))))]
    rw [h0, h9]
    ring
  · intro k hk
    apply ContinuousOn.intervalIntegrable
    rw [uIcc_of_le (hle k (by omega))]
    exact (he.2.2.pow 2).mono (hsub k (by omega))

/-- The distance of the spline from `g`, from a bound for the bending energy of the difference. -/
theorem spline_error (ht : t.Pairwise (· < ·)) (hl : 2 ≤ t.length) (h : CubicOn t y f P) {g g1 g2 : ℝ → ℝ}
    (hg : TwiceOn (knot t 0) (knot t (t.length - 1)) g g1 g2) (hv : ∀ i, i < t.length → g (knot t i) = y i) {E s : ℝ} (hh : GapsLe s t)
    (hE : ∫ x in (knot t 0)..(knot t (t.length - 1)), (g2 x - splineD2 t P x) ^ 2 ≤ E) :
    ∀ x ∈ Icc (knot t 0) (knot t (t.length - 1)), |g1 x - splineD1 t P x| ≤ √(s * E) ∧ |g x - f x| ≤ s / 2 * √(s * E) := by
  have hf := cubicOn_twice ht hl h
  have he := hg.sub hf
  intro x hx
  obtain ⟨i, u, v, hu, hv', hux, hxv⟩ := between_neighbours t hl (by rw [List.head?_eq_getElem?]; exact knot_some (by omega))
    (by rw [List.getLast?_eq_getElem?]; exact knot_some (by omega)) hx.1 hx.2
  have hi := (List.getElem?_eq_some_iff.1 hv').1
  obtain rfl := knot_eq hu
  obtain rfl := knot_eq hv'
  have a1 := knot_le ht (Nat.zero_le i) (by omega)
  have a2 := knot_le ht (show i + 1 ≤ t.length - 1 by omega) (by omega)
  have hmono := he.mono a1 a2
  refine small_of_bend (knot_lt ht (by omega) hi) (hh i _ _ hu hv') hmono (by rw [hv i (by omega), cubicOn_values ht hl h (by omega), sub_self])
      (by rw [hv (i + 1) hi, cubicOn_values ht hl h hi, sub_self]) (le_trans ?_ hE) x ⟨hux, hxv⟩
  apply intervalIntegral.integral_mono_interval a1 (knot_le ht (by omega) hi) a2
  · exact Filter.Eventually.of_forall fun x => sq_nonneg _
  · apply ContinuousOn.intervalIntegrable
    rw [uIcc_of_le (knot_le ht (by omega) (by omega))]
    exact he.2.2.pow 2

/-- The cubic polynomial whose second derivative is the line through `(u, α)` and `(v, β)`. -/
noncomputable def bendLine (u v α β : ℝ) : Polynomial ℝ :=
  Polynomial.C (α / 2) * (Polynomial.X - Polynomial.C u) ^ 2 + Polynomial.C ((β - α) / (v - u) / 6) * (Polynomial.X - Polynomial.C u) ^ 3

theorem bendLine_degree (u v α β : ℝ) : (bendLine u v α β).natDegree ≤ 3 := by
  unfold bendLine
  compute_degree

theorem bendLine_eval {u v α β : ℝ} (x : ℝ) :
    (bendLine u v α β).derivative.derivative.eval x = α + (x - u) / (v - u) * (β - α) := by
  unfold bendLine
  simp [Polynomial.derivative_pow]
  ring

/-- The error of the spline is of order 7/2 for a function whose third derivative changes at most by `M` times the distance. -/
theorem spline_error_high (ht : t.Pairwise (· < ·)) (hl : 2 ≤ t.length) (h : CubicOn t y f P) {g g1 g2 g3 : ℝ → ℝ}
    (hg : TwiceOn (knot t 0) (knot t (t.length - 1)) g g1 g2) (hv : ∀ i, i < t.length → g (knot t i) = y i) {M s : ℝ} (hM : 0 ≤ M)
    (h3 : DerivOn (knot t 0) (knot t (t.length - 1)) g2 g3) (hlip : LipOn (knot t 0) (knot t (t.length - 1)) M g3) (hh : GapsLe s t)
    (h0 : splineD2 t P (knot t 0) = g2 (knot t 0) ∨ splineD1 t P (knot t 0) = g1 (knot t 0))
    (h9 : splineD2 t P (knot t (t.length - 1)) = g2 (knot t (t.length - 1)) ∨ splineD1 t P (knot t (t.length - 1)) = g1 (knot t (t.length - 1))) :
    ∀ x ∈ Icc (knot t 0) (knot t (t.length - 1)),
      |g1 x - splineD1 t P x| ≤ M / 8 * s ^ 2 * √(s * (knot t (t.length - 1) - knot t 0)) ∧
      |g x - f x| ≤ M / 16 * s ^ 3 * √(s * (knot t (t.length - 1) - knot t 0)) := by
  have hb := bend_error ht hl h hg hv (Q := fun i => bendLine (knot t i) (knot t (i + 1)) (g2 (knot t i)) (g2 (knot t (i + 1))))
    (w := fun i => g2 (knot t i)) (δ := M / 8 * s ^ 2) (fun i => bendLine_degree _ _ _ _) ?_ ?_ ?_ ?_
  · intro x hx
    have hs : 0 ≤ s := by
      have := hh 0 _ _ (knot_some (by omega)) (knot_some (by omega))
      have := knot_le ht (show 0 ≤ 0 + 1 by omega) (by omega)
      linarith
    obtain ⟨k1, k2⟩ := spline_error ht hl h hg hv hh hb x hx
    have e : √(s * ((M / 8 * s ^ 2) ^ 2 * (knot t (t.length - 1) - knot t 0))) = M / 8 * s ^ 2 * √(s * (knot t (t.length - 1) - knot t 0)) := by
      rw [show s * ((M / 8 * s ^ 2) ^ 2 * (knot t (t.length - 1) - knot t 0)) = (M / 8 * s ^ 2) ^ 2 * (s * (knot t (t.length - 1) - knot t 0)) by ring,
        Real.sqrt_mul (sq_nonneg _), Real.sqrt_sq (by positivity)]
    rw [e] at k1 k2
    refine ⟨k1, k2.trans (le_of_eq (by ring))⟩
  · intro i hi
    have := knot_lt ht (show i < i + 1 by omega) hi
    rw [bendLine_eval, bendLine_eval]
    have h1 : knot t (i + 1) - knot t i ≠ 0 := by linarith
    constructor
    · simp
    · field_simp; ring
  · intro i hi x hx
    have hlt := knot_lt ht (show i < i + 1 by omega) hi
    have a1 := knot_le ht (Nat.zero_le i) (show i < t.length by omega)
    have a2 := knot_le ht (show i + 1 ≤ t.length - 1 by omega) (by omega)
    rw [bendLine_eval, abs_sub_comm]
    have := line_close (g := g2) (d := g3) (a := knot t 0) (b := knot t (t.length - 1)) hM h3 hlip
      (u := knot t i) (v := knot t (i + 1)) (x := x) (s := (x - knot t i) / (knot t (i + 1) - knot t i)) (h := s)
      ⟨a1, by linarith⟩ ⟨by linarith, a2⟩ (div_nonneg (by linarith [hx.1]) (by linarith)) ((div_le_one (by linarith)).2 (by linarith [hx.2]))
      (by field_simp [sub_ne_zero.2 hlt.ne']) ⟨a1.trans hx.1, hx.2.trans a2⟩ hlt.le (hh i _ _ (knot_some (by omega)) (knot_some hi))
    exact this
  · rcases h0 with k | k <;> rw [k] <;> ring
  · rcases h9 with k | k <;> rw [k] <;> ring

/-- The error of a spline with free ends is of order 3/2 for a function with a bounded second derivative. -/
theorem spline_error_low (ht : t.Pairwise (· < ·)) (hl : 2 ≤ t.length) (h : CubicOn t y f P) {g g1 g2 : ℝ → ℝ}
    (hg : TwiceOn (knot t 0) (knot t (t.length - 1)) g g1 g2) (hv : ∀ i, i < t.length → g (knot t i) = y i) {M s : ℝ} (hM : 0 ≤ M)
    (hb2 : ∀ x ∈ Icc (knot t 0) (knot t (t.length - 1)), |g2 x| ≤ M) (hh : GapsLe s t)
    (h0 : splineD2 t P (knot t 0) = 0 ∨ splineD1 t P (knot t 0) = g1 (knot t 0))
    (h9 : splineD2 t P (knot t (t.length - 1)) = 0 ∨ splineD1 t P (knot t (t.length - 1)) = g1 (knot t (t.length - 1))) :
    ∀ x ∈ Icc (knot t 0) (knot t (t.length - 1)),
      |g1 x - splineD1 t P x| ≤ M * √(s * (knot t (t.length - 1) - knot t 0)) ∧
      |g x - f x| ≤ M / 2 * s * √(s * (knot t (t.length - 1) - knot t 0)) := by
  have hb := bend_error ht hl h hg hv (Q := fun _ => 0) (w := fun _ => 0) (δ := M) (fun i => by simp) (fun i _ => by simp) ?_ ?_ ?_
  · intro x hx
    obtain ⟨k1, k2⟩ := spline_error ht hl h hg hv hh hb x hx
    have e : √(s * (M ^ 2 * (knot t (t.length - 1) - knot t 0))) = M * √(s * (knot t (t.length - 1) - knot t 0)) := by
      rw [show s * (M ^ 2 * (knot t (t.length - 1) - knot t 0)) = M ^ 2 * (s * (knot t (t.length - 1) - knot t 0)) by ring,
        Real.sqrt_mul (sq_nonneg _), Real.sqrt_sq hM]
    rw [e] at k1 k2
    refine ⟨k1, k2.trans (le_of_eq (by ring))⟩
  · intro i hi x hx
    have a1 := knot_le ht (Nat.zero_le i) (show i < t.length by omega)
    have a2 := knot_le ht (show i + 1 ≤ t.length - 1 by omega) (by omega)
    simpa using hb2 x ⟨a1.trans hx.1, hx.2.trans a2⟩
  · rcases h0 with k | k <;> rw [k] <;> ring
  · rcases h9 with k | k <;> rw [k] <;> ring

end

end Verif.Props
