import Verif.Props.Curves
import Verif.Props.AccuracyLen

/-!
C144: curvature and length of the spirals, the lemniscate and the circle with ever more samples.
-/
namespace Verif.Props

open Verif Verif.Np Verif.Model Verif.Spec Set MeasureTheory

/-- A plane curve given by its coordinates. -/
noncomputable def planePt (f g : ℝ → ℝ) (t : ℝ) : EuclideanSpace ℝ (Fin 2) := WithLp.toLp 2 ![f t, g t]

/-- The curve object with the points of `(f, g)` at `n` evenly spaced parameter values from `a` to `b`. -/
noncomputable def planeSamples (f g : ℝ → ℝ) (a b : ℝ) (n : Nat) : Curve ℝ :=
  ⟨(List.range n).map fun i : Nat => [f (a + i * ((b - a) / ((n : ℝ) - 1))), g (a + i * ((b - a) / ((n : ℝ) - 1)))], 2, some (linspaceR a b n), .float⟩

theorem planeSamples_eq (f g : ℝ → ℝ) (a b : ℝ) (n : Nat) (hn : 1 ≤ n) :
    coordCurve [(linspaceR a b n).map f, (linspaceR a b n).map g] (linspaceR a b n) = .ok (planeSamples f g a b n) := by
  rw [coordCurve_eq _ _ n (by simp) hn (by simp [linspaceR_length]) (linspaceR_length a b n)]
  congr 1
  simp only [planeSamples, List.length_cons, List.length_nil, Curve.mk.injEq, and_true]
  apply List.map_congr_left
  intro i hi
  rw [List.mem_range] at hi
  simp [List.getD_eq_getElem?_getD, linspaceR_get hi]

theorem planeSamples_WF (f g : ℝ → ℝ) (a b : ℝ) (n : Nat) : WF (planeSamples f g a b n) :=
  ⟨by simp [planeSamples], by simp [planeSamples], by simp [planeSamples, linspaceR_length], by intros; rfl⟩

theorem planeSamples_size (f g : ℝ → ℝ) (a b : ℝ) (n : Nat) : (planeSamples f g a b n).size = n := by simp [planeSamples, Curve.size]

theorem planePt_deriv {f g f' g' : ℝ → ℝ} (a b : ℝ) (hf : ∀ t, HasDerivAt f (f' t) t) (hg : ∀ t, HasDerivAt g (g' t) t) :
    DerivOn a b (planePt f g) (planePt f' g') := by
  have e : ∀ u v : ℝ → ℝ, planePt u v = fun t => u t • planePt (fun _ => 1) (fun _ => 0) 0 + v t • planePt (fun _ => 0) (fun _ => 1) 0 := by
    intro u v
    funext t
    ext i
    fin_cases i <;> simp [planePt]
  intro x _
  apply HasDerivAt.hasDerivWithinAt
  rw [e f g, e f' g']
  exact ((hf x).smul_const _).add ((hg x).smul_const _)

theorem even_range {a b : ℝ} (hab : a ≤ b) {n i : Nat} (hn : 2 ≤ n) (hi : i < n) : a + i * ((b - a) / ((n : ℝ) - 1)) ∈ Icc a b := by
  have h1 : (0 : ℝ) < (n : ℝ) - 1 := by
    have : (2 : ℝ) ≤ n := by exact_mod_cast hn
    linarith
  have h2 : (i : ℝ) ≤ (n : ℝ) - 1 := by
    have : (i : ℝ) + 1 ≤ n := by exact_mod_cast hi
    linarith
  have h3 : 0 ≤ (b - a) / ((n : ℝ) - 1) := div_nonneg (by linarith) h1.le
  constructor
  · have := mul_nonneg (Nat.cast_nonneg (α := ℝ) i) h3
    linarith
  · have := mul_le_mul_of_nonneg_right h2 h3
    rw [mul_div_cancel₀ _ h1.ne'] at this
    linarith

theorem planeSamples_sampled (f g : ℝ → ℝ) {a b : ℝ} (hab : a ≤ b) {n : Nat} (hn : 2 ≤ n) :
    SampledAt (planePt f g) a b a ((b - a) / ((n : ℝ) - 1)) (planeSamples f g a b n) := by
  have hl : (planeSamples f g a b n).rows.length = n := by simp [planeSamples]
  refine ⟨rfl, ?_, ?_⟩
  · intro i hi
    rw [hl] at hi
    exact even_range hab hn hi
  · intro i hi
    rw [hl] at hi
    ext j
    fin_cases j <;> simp [rowVec, pt, planePt, planeSamples, List.getD_eq_getElem?_getD, hi]

theorem step_small {a b : ℝ} (hab : a < b) {δ : ℝ} (hδ : 0 < δ) : ∃ N : Nat, 3 ≤ N ∧ ∀ n : Nat, N ≤ n →
    0 < (b - a) / ((n : ℝ) - 1) ∧ (b - a) / ((n : ℝ) - 1) < δ := by
  obtain ⟨k, hk⟩ := exists_nat_gt ((b - a) / δ)
  refine ⟨k + 3, by omega, ?_⟩
  intro n hn
  have h1 : (k : ℝ) + 3 ≤ n := by exact_mod_cast hn
  have hk0 : (0 : ℝ) ≤ k := Nat.cast_nonneg k
  have hpos : (0 : ℝ) < (n : ℝ) - 1 := by linarith
  refine ⟨div_pos (by linarith) hpos, ?_⟩
  rw [div_lt_iff₀ hpos]
  rw [div_lt_iff₀ hδ] at hk
  nlinarith

/-- The curvature of the samples of a regular plane curve, three times continuously differentiable, tends to that of the curve. -/
theorem planeSamples_curvature {f g f1 g1 f2 g2 f3 g3 : ℝ → ℝ} (hf1 : ∀ t, HasDerivAt f (f1 t) t) (hg1 : ∀ t, HasDerivAt g (g1 t) t)
    (hf2 : ∀ t, HasDerivAt f1 (f2 t) t) (hg2 : ∀ t, HasDerivAt g1 (g2 t) t) (hf3 : ∀ t, HasDerivAt f2 (f3 t) t) (hg3 : ∀ t, HasDerivAt g2 (g3 t) t)
    (hcf : Continuous f3) (hcg : Continuous g3) {a b : ℝ} (hab : a < b) (hreg : ∀ x ∈ Icc a b, 0 < f1 x * f1 x + g1 x * g1 x) {ε : ℝ} (hε : 0 < ε) :
    ∃ N : Nat, 3 ≤ N ∧ ∀ n : Nat, N ≤ n → ∃ ks, curvature (planeSamples f g a b n) = .ok ks ∧ ks.length = n ∧
      ∀ (i : Nat) (t : ℝ), i < n → (linspaceR a b n)[i]? = some t → ∃ k, ks[i]? = some (.fin k) ∧
        |k - (f1 t * g2 t - g1 t * f2 t) / √ (f1 t * f1 t + g1 t * g1 t) ^ 3| < ε := by
  have hc3 : Continuous (planePt f3 g3) := by
    unfold planePt
    apply (PiLp.continuous_toLp 2 _).comp
    rw [continuous_pi_iff]
    intro i
    fin_cases i
    · exact hcf
    · exact hcg
  obtain ⟨M, hM⟩ := (isCompact_Icc (a := a) (b := b)).exists_bound_of_continuousOn hc3.continuousOn
  have hM0 : 0 ≤ M := (norm_nonneg _).trans (hM a ⟨le_refl _, hab.le⟩)
  have hn1 : ∀ x, ‖planePt f1 g1 x‖ = √ (f1 x * f1 x + g1 x * g1 x) := fun x => by
    rw [norm_plane]; simp [planePt]
  obtain ⟨δ, hδ, hall⟩ := C116_plane (planePt_deriv a b hf1 hg1) (planePt_deriv a b hf2 hg2) (LipOn.of_deriv (planePt_deriv a b hf3 hg3) hM) hM0
    (fun x hx h0 => by
      have e := hn1 x
      rw [h0, norm_zero] at e
      have := Real.sqrt_pos.2 (hreg x hx)
      linarith) hε
  obtain ⟨N, h3, hN⟩ := step_small hab hδ
  refine ⟨N, h3, ?_⟩
  intro n hn
  obtain ⟨ks, e1, e2, e3⟩ := hall a _ (planeSamples f g a b n) (planeSamples_WF f g a b n) (by rw [planeSamples_size]; omega) (hN n hn).1 (hN n hn).2
    (planeSamples_sampled f g hab.le (by omega))
  rw [planeSamples_size] at e2 e3
  refine ⟨ks, e1, e2, ?_⟩
  intro i t hi ht
  obtain ⟨k, k1, k2⟩ := e3 i hi
  refine ⟨k, k1, ?_⟩
  rw [linspaceR_get hi] at ht
  injection ht with ht
  rw [ht] at k2
  have e : planeCurv (planePt f1 g1 t) (planePt f2 g2 t) = (f1 t * g2 t - g1 t * f2 t) / √ (f1 t * f1 t + g1 t * g1 t) ^ 3 := by
    unfold planeCurv
    rw [hn1]
    simp [planePt]
  rwa [e] at k2

/-- The curvature array of the curve `c` with `n` points and the parameter values `ts` is `κ` of the parameter value up to `ε`, at every point. -/
def CurvatureNear (c : Curve ℝ) (n : Nat) (ε : ℝ) (κ : ℝ → ℝ) : Prop :=
  ∃ ks ts, curvature c = .ok ks ∧ c.tdata = some ts ∧ ks.length = n ∧ ts.length = n ∧
    ∀ (i : Nat) (t : ℝ), ts[i]? = some t → ∃ k, ks[i]? = some (.fin k) ∧ |k - κ t| < ε

theorem curvatureNear_of {f g : ℝ → ℝ} {a b ε : ℝ} {n : Nat} {κ κ' : ℝ → ℝ} (hκ : ∀ t, κ t = κ' t)
    (h : ∃ ks, curvature (planeSamples f g a b n) = .ok ks ∧ ks.length = n ∧ ∀ (i : Nat) (t : ℝ), i < n → (linspaceR a b n)[i]? = some t →
      ∃ k, ks[i]? = some (.fin k) ∧ |k - κ t| < ε) : CurvatureNear (planeSamples f g a b n) n ε κ' := by
  obtain ⟨ks, e1, e2, e3⟩ := h
  refine ⟨ks, linspaceR a b n, e1, rfl, e2, linspaceR_length _ _ _, ?_⟩
  intro i t ht
  have hi : i < n := by
    have := (List.getElem?_eq_some_iff.1 ht).1
    rwa [linspaceR_length] at this
  rw [← hκ t]
  exact e3 i t hi ht

theorem sqrt_cubed {x : ℝ} : √ (x * x) ^ 3 = |x| ^ 3 := by rw [← sq, Real.sqrt_sq_eq_abs]

/-! ## The circle -/

/-- **C144 (circle).** The curvature of `arc` with ever more points tends to `1 / |r|`, at the ends too. -/
theorem C144_arc {a b r : ℝ} (c : ℝ) (hab : a < b) (hr : r ≠ 0) {ε : ℝ} (hε : 0 < ε) :
    ∃ N : Nat, ∀ n : Nat, N ≤ n → ∃ C, arc a b n r c = .ok C ∧ CurvatureNear C n ε fun _ => 1 / |r| := by
  have hsq : ∀ t, (-(Real.sin t * r)) * (-(Real.sin t * r)) + Real.cos t * r * (Real.cos t * r) = r * r := fun t => by
    linear_combination r ^ 2 * Real.sin_sq_add_cos_sq t
  obtain ⟨N, h3, hN⟩ := planeSamples_curvature (f := fun t => Real.cos t * r + c) (g := fun t => Real.sin t * r + c) (f1 := fun t => -(Real.sin t * r))
    (g1 := fun t => Real.cos t * r) (f2 := fun t => -(Real.cos t * r)) (g2 := fun t => -(Real.sin t * r)) (f3 := fun t => Real.sin t * r) (g3 := fun t => -(Real.cos t * r))
    (fun t => by simpa using ((Real.hasDerivAt_cos t).mul_const r).add_const c) (fun t => by simpa using ((Real.hasDerivAt_sin t).mul_const r).add_const c)
    (fun t => ((Real.hasDerivAt_sin t).mul_const r).neg) (fun t => by simpa using ((Real.hasDerivAt_cos t).mul_const r))
    (fun t => ((Real.hasDerivAt_cos t).mul_const r).neg.congr_deriv (by ring)) (fun t => ((Real.hasDerivAt_sin t).mul_const r).neg)
    (by fun_prop) (by fun_prop) hab (fun x _ => by rw [hsq]; exact mul_self_pos.2 hr) hε
  refine ⟨N, ?_⟩
  intro n hn
  refine ⟨_, ?_, curvatureNear_of ?_ (hN n hn)⟩
  · unfold arc
    simp only [linspaceE_eq, bind, Except.bind]
    exact planeSamples_eq _ _ a b n (by omega)
  · intro t
    beta_reduce
    rw [hsq, sqrt_cubed, show (-(Real.sin t * r)) * (-(Real.sin t * r)) - Real.cos t * r * (-(Real.cos t * r)) = |r| ^ 2 by
      rw [sq_abs]; linear_combination r ^ 2 * Real.sin_sq_add_cos_sq t]
    have : |r| ≠ 0 := abs_ne_zero.2 hr
    field_simp

/-! ## The Archimedean spiral -/

/-- **C144 (spiral).** The curvature of the Archimedean spiral `ρ = a + b θ`, `b ≠ 0`, with ever more points tends to `(ρ² + 2 b²) / (ρ² + b²)^(3/2)`, at the ends too. -/
theorem C144_spiral {t0 t1 b : ℝ} (a : ℝ) (hab : t0 < t1) (hb : b ≠ 0) {ε : ℝ} (hε : 0 < ε) :
    ∃ N : Nat, ∀ n : Nat, N ≤ n → ∃ C, archimedean t0 t1 n a b = .ok C ∧
      CurvatureNear C n ε fun t => ((a + b * t) ^ 2 + 2 * b ^ 2) / √ ((a + b * t) ^ 2 + b ^ 2) ^ 3 := by
  have hR : ∀ t, HasDerivAt (fun t => a + b * t) b t := fun t => by simpa using ((hasDerivAt_id t).const_mul b).const_add a
  have hsq : ∀ t, (b * Real.cos t - (a + b * t) * Real.sin t) * (b * Real.cos t - (a + b * t) * Real.sin t) +
      (b * Real.sin t + (a + b * t) * Real.cos t) * (b * Real.sin t + (a + b * t) * Real.cos t) = (a + b * t) ^ 2 + b ^ 2 := fun t => by
    linear_combination ((a + b * t) ^ 2 + b ^ 2) * Real.sin_sq_add_cos_sq t
  obtain ⟨N, h3, hN⟩ := planeSamples_curvature (f := fun t => (a + b * t) * Real.cos t) (g := fun t => (a + b * t) * Real.sin t)
    (f1 := fun t => b * Real.cos t - (a + b * t) * Real.sin t) (g1 := fun t => b * Real.sin t + (a + b * t) * Real.cos t)
    (f2 := fun t => -2 * b * Real.sin t - (a + b * t) * Real.cos t) (g2 := fun t => 2 * b * Real.cos t - (a + b * t) * Real.sin t)
    (f3 := fun t => -3 * b * Real.cos t + (a + b * t) * Real.sin t) (g3 := fun t => -3 * b * Real.sin t - (a + b * t) * Real.cos t)
    (fun t => ((hR t).mul (Real.hasDerivAt_cos t)).congr_deriv (by ring)) (fun t => ((hR t).mul (Real.hasDerivAt_sin t)).congr_deriv (by ring))
    (fun t => (((Real.hasDerivAt_cos t).const_mul b).sub ((hR t).mul (Real.hasDerivAt_sin t))).congr_deriv (by ring))
    (fun t => (((Real.hasDerivAt_sin t).const_mul b).add ((hR t).mul (Real.hasDerivAt_cos t))).congr_deriv (by ring))
    (fun t => (((Real.hasDerivAt_sin t).const_mul (-2 * b)).sub ((hR t).mul (Real.hasDerivAt_cos t))).congr_deriv (by ring))
    (fun t => (((Real.hasDerivAt_cos t).const_mul (2 * b)).sub ((hR t).mul (Real.hasDerivAt_sin t))).congr_deriv (by ring))
    (by fun_prop) (by fun_prop) hab (fun x _ => by rw [hsq]; positivity) hε
  refine ⟨N, ?_⟩
  intro n hn
  refine ⟨_, ?_, curvatureNear_of ?_ (hN n hn)⟩
  · unfold archimedean
    simp only [linspaceE_eq, bind, Except.bind]
    exact planeSamples_eq _ _ t0 t1 n (by omega)
  · intro t
    beta_reduce
    rw [hsq]
    congr 1
    linear_combination ((a + b * t) ^ 2 + 2 * b ^ 2) * Real.sin_sq_add_cos_sq t

/-! ## The Euler spiral -/

theorem fresnelC_deriv (t : ℝ) : HasDerivAt fresnelC (Real.cos (Real.pi / 2 * t ^ 2)) t :=
  intervalIntegral.integral_hasDerivAt_right (Continuous.intervalIntegrable (by fun_prop) _ _) (Continuous.stronglyMeasurableAtFilter (by fun_prop) _ _)
    (by fun_prop)

theorem fresnelS_deriv (t : ℝ) : HasDerivAt fresnelS (Real.sin (Real.pi / 2 * t ^ 2)) t :=
  intervalIntegral.integral_hasDerivAt_right (Continuous.intervalIntegrable (by fun_prop) _ _) (Continuous.stronglyMeasurableAtFilter (by fun_prop) _ _)
    (by fun_prop)

theorem eulerArg_deriv (t : ℝ) : HasDerivAt (fun t : ℝ => Real.pi / 2 * t ^ 2) (Real.pi * t) t :=
  ((hasDerivAt_pow 2 t).const_mul (Real.pi / 2)).congr_deriv (by push_cast; ring)

theorem eulerCos_deriv (t : ℝ) : HasDerivAt (fun t : ℝ => Real.cos (Real.pi / 2 * t ^ 2)) (-(Real.pi * t * Real.sin (Real.pi / 2 * t ^ 2))) t :=
  ((Real.hasDerivAt_cos _).comp t (eulerArg_deriv t)).congr_deriv (by ring)

theorem eulerSin_deriv (t : ℝ) : HasDerivAt (fun t : ℝ => Real.sin (Real.pi / 2 * t ^ 2)) (Real.pi * t * Real.cos (Real.pi / 2 * t ^ 2)) t :=
  ((Real.hasDerivAt_sin _).comp t (eulerArg_deriv t)).congr_deriv (by ring)

theorem euler_eq (a b : ℝ) (n : Nat) (hn : 1 ≤ n) : euler a b n = .ok (planeSamples fresnelC fresnelS a b n) := by
  unfold euler
  simp only [linspaceE_eq, bind, Except.bind]
  exact planeSamples_eq _ _ a b n hn

/-- **C144 (Euler spiral).** The curvature of the Euler spiral with ever more points tends to `π t`, it grows linearly with the parameter, at the ends too. -/
theorem C144_euler {a b : ℝ} (hab : a < b) {ε : ℝ} (hε : 0 < ε) :
    ∃ N : Nat, ∀ n : Nat, N ≤ n → ∃ C, euler a b n = .ok C ∧ CurvatureNear C n ε fun t => Real.pi * t := by
  have hp : ∀ t : ℝ, HasDerivAt (fun t : ℝ => Real.pi * t) Real.pi t := fun t => by simpa using (hasDerivAt_id t).const_mul Real.pi
  have hsq : ∀ x : ℝ, Real.cos x * Real.cos x + Real.sin x * Real.sin x = 1 := fun x => by
    linear_combination Real.sin_sq_add_cos_sq x
  obtain ⟨N, h3, hN⟩ := planeSamples_curvature fresnelC_deriv fresnelS_deriv eulerCos_deriv eulerSin_deriv
    (f3 := fun t => -(Real.pi * Real.sin (Real.pi / 2 * t ^ 2) + Real.pi * t * (Real.pi * t * Real.cos (Real.pi / 2 * t ^ 2))))
    (g3 := fun t => Real.pi * Real.cos (Real.pi / 2 * t ^ 2) + Real.pi * t * -(Real.pi * t * Real.sin (Real.pi / 2 * t ^ 2)))
    (fun t => ((hp t).mul (eulerSin_deriv t)).neg) (fun t => (hp t).mul (eulerCos_deriv t)) (by fun_prop) (by fun_prop) hab
    (fun x _ => by rw [hsq]; exact one_pos) hε
  refine ⟨N, ?_⟩
  intro n hn
  refine ⟨_, euler_eq a b n (by omega), curvatureNear_of ?_ (hN n hn)⟩
  intro t
  rw [hsq]
  simp only [Real.sqrt_one, one_pow, div_one]
  linear_combination Real.pi * t * Real.sin_sq_add_cos_sq (Real.pi / 2 * t ^ 2)

/-- **C144 (Euler spiral, length).** The parameter of the Euler spiral is its arc length: the cumulative length of `n` samples from `a` to `b` at the parameter value `t` is
at most `t - a`, and less by at most `(π m h)² / 2` times `t - a`, where `m` bounds `|a|` and `|b|` and `h = (b - a) / (n - 1)`. -/
theorem C144_euler_length {a b m : ℝ} (hab : a ≤ b) (ha : |a| ≤ m) (hb : |b| ≤ m) (n : Nat) (hn : 2 ≤ n) (junk : ℝ) :
    ∃ C ts, euler a b n = .ok C ∧ C.tdata = some ts ∧ ts.length = n ∧ (cumarclen junk C).length = n ∧ ∀ (i : Nat) (t l : ℝ), ts[i]? = some t →
      (cumarclen junk C)[i]? = some l → l ≤ t - a ∧ t - a ≤ l + (Real.pi * m * ((b - a) / ((n : ℝ) - 1))) ^ 2 / 2 * (t - a) := by
  have hm : 0 ≤ m := (abs_nonneg _).trans ha
  have hpi := Real.pi_pos
  have hd := planePt_deriv a b fresnelC_deriv fresnelS_deriv
  have hd2 := planePt_deriv a b eulerCos_deriv eulerSin_deriv
  have hn1 : ∀ x : ℝ, ‖planePt (fun t : ℝ => Real.cos (Real.pi / 2 * t ^ 2)) (fun t : ℝ => Real.sin (Real.pi / 2 * t ^ 2)) x‖ = 1 := by
    intro x
    rw [norm_plane]
    simp only [planePt]
    simp only [Matrix.cons_val_zero, Matrix.cons_val_one]
    rw [show Real.cos (Real.pi / 2 * x ^ 2) * Real.cos (Real.pi / 2 * x ^ 2) + Real.sin (Real.pi / 2 * x ^ 2) * Real.sin (Real.pi / 2 * x ^ 2) = 1 by
      linear_combination Real.sin_sq_add_cos_sq (Real.pi / 2 * x ^ 2)]
    exact Real.sqrt_one
  have hn2 : ∀ x ∈ Icc a b, ‖planePt (fun t : ℝ => -(Real.pi * t * Real.sin (Real.pi / 2 * t ^ 2))) (fun t : ℝ => Real.pi * t * Real.cos (Real.pi / 2 * t ^ 2)) x‖ ≤ Real.pi * m := by
    intro x hx
    rw [norm_plane]
    simp only [planePt]
    simp only [Matrix.cons_val_zero, Matrix.cons_val_one]
    rw [show -(Real.pi * x * Real.sin (Real.pi / 2 * x ^ 2)) * -(Real.pi * x * Real.sin (Real.pi / 2 * x ^ 2)) +
      Real.pi * x * Real.cos (Real.pi / 2 * x ^ 2) * (Real.pi * x * Real.cos (Real.pi / 2 * x ^ 2)) = (Real.pi * x) ^ 2 by
      linear_combination (Real.pi * x) ^ 2 * Real.sin_sq_add_cos_sq (Real.pi / 2 * x ^ 2), Real.sqrt_sq_eq_abs, abs_mul, abs_of_pos hpi]
    apply mul_le_mul_of_nonneg_left _ hpi.le
    rw [abs_le] at ha hb ⊢
    exact ⟨ha.1.trans hx.1, hx.2.trans hb.2⟩
  have hsz := planeSamples_size fresnelC fresnelS a b n
  have hl : (planeSamples fresnelC fresnelS a b n).rows.length = n := hsz
  have hne : (planeSamples fresnelC fresnelS a b n).rows ≠ [] := by
    intro e; rw [e] at hl; simp at hl; omega
  have hon : OnCurve (planePt fresnelC fresnelS) a b (linspaceR a b n) (planeSamples fresnelC fresnelS a b n) := by
    have hs := planeSamples_sampled fresnelC fresnelS hab hn
    refine ⟨rfl, by rw [linspaceR_length, hl], ?_, ?_, ?_⟩
    · rcases hab.lt_or_eq with h | h
      · exact (linspaceR_lt h hn).imp le_of_lt
      · subst h
        rw [List.pairwise_iff_getElem]
        intro i j hi hj _
        simp [linspaceR]
    · intro t ht
      obtain ⟨i, hi⟩ := List.getElem?_of_mem ht
      have hin : i < n := by
        have := (List.getElem?_eq_some_iff.1 hi).1
        rwa [linspaceR_length] at this
      rw [linspaceR_get hin] at hi
      injection hi with hi
      rw [← hi]
      exact even_range hab hn hin
    · intro i t p ht hp
      have hin : i < n := by
        have := (List.getElem?_eq_some_iff.1 ht).1
        rwa [linspaceR_length] at this
      rw [linspaceR_get hin] at ht
      injection ht with ht
      have := hs.pts i (by rw [hl]; exact hin)
      rw [rowVec, List.getD_eq_getElem?_getD, hp, Option.getD_some] at this
      rw [this, ht]
  have hg : GapsLe ((b - a) / ((n : ℝ) - 1)) (linspaceR a b n) := by
    intro i u v hu hv
    exact (linspaceR_step a b n i u v hu hv).le
  have h0 : (linspaceR a b n)[0]? = some a := by rw [linspaceR_get (by omega)]; simp
  refine ⟨_, linspaceR a b n, euler_eq a b n (by omega), rfl, linspaceR_length _ _ _, ?_, ?_⟩
  · rw [(C50_cumarclen_partial (planeSamples_WF _ _ _ _ _) hne junk).1, hsz]
  · intro i t l ht hl'
    have := C117_second (v₀ := 1) (planeSamples_WF _ _ _ _ _) hne junk (mul_nonneg hpi.le hm) hd (LipOn.of_deriv hd2 hn2) one_pos (fun s _ => (hn1 s).ge) hon hg h0 i t l ht hl'
    simp only [hn1, intervalIntegral.integral_const, smul_eq_mul, mul_one] at this
    refine ⟨this.1, this.2.trans (le_of_eq ?_)⟩
    ring

/-! ## The lemniscate -/

section
variable (k : ℝ)

theorem lemni_pos (t : ℝ) : 0 < Real.sin t ^ 2 + 1 := by positivity

theorem lemni_den (m : ℕ) (t : ℝ) : HasDerivAt (fun t => (Real.sin t ^ 2 + 1) ^ (m + 1))
    ((m + 1 : ℕ) * (Real.sin t ^ 2 + 1) ^ m * (2 * Real.sin t * Real.cos t)) t := by
  have := (((Real.hasDerivAt_sin t).pow 2).add_const 1).pow (m + 1)
  exact this.congr_deriv (by push_cast; simp only [Nat.add_sub_cancel, Pi.pow_apply]; ring)

theorem lemniX (t : ℝ) : HasDerivAt (fun t => k * Real.cos t / (Real.sin t ^ 2 + 1)) (-(k * (3 * Real.sin t - Real.sin t ^ 3)) / (Real.sin t ^ 2 + 1) ^ 2) t := by
  have h := lemni_pos t
  have hd := lemni_den 0 t
  simp only [zero_add, pow_one] at hd
  refine (((Real.hasDerivAt_cos t).const_mul k).div hd h.ne').congr_deriv ?_
  rw [div_left_inj' (by positivity)]
  push_cast
  linear_combination -2 * k * Real.sin t * Real.sin_sq_add_cos_sq t

theorem lemniY (t : ℝ) : HasDerivAt (fun t => k * Real.cos t * Real.sin t / (Real.sin t ^ 2 + 1)) (k * (1 - 3 * Real.sin t ^ 2) / (Real.sin t ^ 2 + 1) ^ 2) t := by
  have h := lemni_pos t
  have hd := lemni_den 0 t
  simp only [zero_add, pow_one] at hd
  refine ((((Real.hasDerivAt_cos t).const_mul k).mul (Real.hasDerivAt_sin t)).div hd h.ne').congr_deriv ?_
  rw [div_left_inj' (by positivity)]
  push_cast
  simp only [Pi.mul_apply]
  linear_combination k * (1 - Real.sin t ^ 2) * Real.sin_sq_add_cos_sq t

theorem lemniX2 (t : ℝ) : HasDerivAt (fun t => -(k * (3 * Real.sin t - Real.sin t ^ 3)) / (Real.sin t ^ 2 + 1) ^ 2)
    (-(k * Real.cos t * (3 - 12 * Real.sin t ^ 2 + Real.sin t ^ 4)) / (Real.sin t ^ 2 + 1) ^ 3) t := by
  have h := lemni_pos t
  have hd := lemni_den 1 t
  refine (((((Real.hasDerivAt_sin t).const_mul 3).sub ((Real.hasDerivAt_sin t).pow 3)).const_mul k).neg.div hd (by positivity)).congr_deriv ?_
  rw [div_eq_div_iff (by positivity) (by positivity)]
  push_cast
  simp
  ring

theorem lemniY2 (t : ℝ) : HasDerivAt (fun t => k * (1 - 3 * Real.sin t ^ 2) / (Real.sin t ^ 2 + 1) ^ 2)
    (-(k * Real.cos t * (10 * Real.sin t - 6 * Real.sin t ^ 3)) / (Real.sin t ^ 2 + 1) ^ 3) t := by
  have h := lemni_pos t
  have hd := lemni_den 1 t
  refine (((((Real.hasDerivAt_sin t).pow 2).const_mul 3).const_sub 1).const_mul k |>.div hd (by positivity)).congr_deriv ?_
  rw [div_eq_div_iff (by positivity) (by positivity)]
  push_cast
  simp
  ring

/-- **C144 (lemniscate).** The curvature of the lemniscate with ever more points tends to `3 cos t / (√2 |c| √(1 + sin² t))`, at the ends too. -/
theorem C144_lemniscate {a b c : ℝ} (hab : a < b) (hc : c ≠ 0) {ε : ℝ} (hε : 0 < ε) :
    ∃ N : Nat, ∀ n : Nat, N ≤ n → ∃ C, lemniscate a b n c = .ok C ∧
      CurvatureNear C n ε fun t => 3 * Real.cos t / (√ 2 * |c| * √ (1 + Real.sin t ^ 2)) := by
  obtain ⟨k, hk⟩ : ∃ k, k = c * √ 2 := ⟨_, rfl⟩
  have hk0 : k ≠ 0 := by rw [hk]; positivity
  have hsq : ∀ t, -(k * (3 * Real.sin t - Real.sin t ^ 3)) / (Real.sin t ^ 2 + 1) ^ 2 * (-(k * (3 * Real.sin t - Real.sin t ^ 3)) / (Real.sin t ^ 2 + 1) ^ 2) +
      k * (1 - 3 * Real.sin t ^ 2) / (Real.sin t ^ 2 + 1) ^ 2 * (k * (1 - 3 * Real.sin t ^ 2) / (Real.sin t ^ 2 + 1) ^ 2) = k ^ 2 / (Real.sin t ^ 2 + 1) := by
    intro t
    have h := lemni_pos t
    field_simp
    ring
  obtain ⟨N, h3, hN⟩ := planeSamples_curvature (lemniX k) (lemniY k) (lemniX2 k) (lemniY2 k)
    (f3 := deriv fun t => -(k * Real.cos t * (3 - 12 * Real.sin t ^ 2 + Real.sin t ^ 4)) / (Real.sin t ^ 2 + 1) ^ 3)
    (g3 := deriv fun t => -(k * Real.cos t * (10 * Real.sin t - 6 * Real.sin t ^ 3)) / (Real.sin t ^ 2 + 1) ^ 3)
    (fun t => by
      have h := lemni_pos t
      refine DifferentiableAt.hasDerivAt ?_
      refine DifferentiableAt.div (by fun_prop) (by fun_prop) (by positivity)) (fun t => by
      have h := lemni_pos t
      refine DifferentiableAt.hasDerivAt ?_
      refine DifferentiableAt.div (by fun_prop) (by fun_prop) (by positivity))
    (ContDiff.continuous_deriv (n := 1) (ContDiff.div (by fun_prop) (by fun_prop) fun t => by have h := lemni_pos t; positivity) le_rfl)
    (ContDiff.continuous_deriv (n := 1) (ContDiff.div (by fun_prop) (by fun_prop) fun t => by have h := lemni_pos t; positivity) le_rfl)
    hab (fun x _ => by rw [hsq]; have := lemni_pos x; positivity) hε
  refine ⟨N, ?_⟩
  intro n hn
  refine ⟨_, ?_, curvatureNear_of ?_ (hN n hn)⟩
  · unfold lemniscate
    simp only [linspaceE_eq, bind, Except.bind, ← hk]
    exact planeSamples_eq _ _ a b n (by omega)
  · intro t
    have h := lemni_pos t
    rw [hsq, add_comm 1, Real.sqrt_div (sq_nonneg k), Real.sqrt_sq_eq_abs]
    have e : |k| = √ 2 * |c| := by rw [hk, abs_mul, abs_of_nonneg (Real.sqrt_nonneg 2), mul_comm]
    rw [← e]
    have hk1 : 0 < |k| := abs_pos.2 hk0
    obtain ⟨S, hS⟩ : ∃ S, S = √ (Real.sin t ^ 2 + 1) := ⟨_, rfl⟩
    have hS0 : 0 < S := by rw [hS]; exact Real.sqrt_pos.2 h
    have hS2 : Real.sin t ^ 2 + 1 = S ^ 2 := by rw [hS, Real.sq_sqrt h.le]
    have key : -(k * (3 * Real.sin t - Real.sin t ^ 3)) / (Real.sin t ^ 2 + 1) ^ 2 * (-(k * Real.cos t * (10 * Real.sin t - 6 * Real.sin t ^ 3)) / (Real.sin t ^ 2 + 1) ^ 3) -
        k * (1 - 3 * Real.sin t ^ 2) / (Real.sin t ^ 2 + 1) ^ 2 * (-(k * Real.cos t * (3 - 12 * Real.sin t ^ 2 + Real.sin t ^ 4)) / (Real.sin t ^ 2 + 1) ^ 3) =
        3 * |k| ^ 2 * Real.cos t / (Real.sin t ^ 2 + 1) ^ 2 := by
      rw [sq_abs]
      field_simp
      ring
    rw [key, ← hS, hS2]
    field_simp

end

/-! ## Concrete cases -/

/-- The full lemniscate and the default Euler spiral have a curvature that is right up to 0.01 at every point, from some number of points on. -/
example : ∃ N : Nat, ∀ n : Nat, N ≤ n → ∃ C, lemniscate 0 (2 * Real.pi) n 1 = .ok C ∧
    CurvatureNear C n (1 / 100) fun t => 3 * Real.cos t / (√ 2 * |(1 : ℝ)| * √ (1 + Real.sin t ^ 2)) :=
  C144_lemniscate (by have := Real.pi_pos; linarith) one_ne_zero (by norm_num)

example : ∃ N : Nat, ∀ n : Nat, N ≤ n → ∃ C, euler (-3 * Real.pi / 2) (3 * Real.pi / 2) n = .ok C ∧ CurvatureNear C n (1 / 100) fun t => Real.pi * t :=
  C144_euler (by have := Real.pi_pos; linarith) (by norm_num)

/-- The Euler spiral from 0 to 1 with 101 points has length 1 up to 0.0008. -/
example (junk : ℝ) : ∃ C l, euler 0 1 101 = .ok C ∧ (cumarclen junk C)[100]? = some l ∧ l ≤ 1 ∧ 1 - 8 / 10000 ≤ l := by
  obtain ⟨C, ts, h1, h2, h3, h4, h5⟩ := C144_euler_length (m := 1) (zero_le_one' ℝ) (by norm_num) (by norm_num) 101 (by norm_num) junk
  have hl : 100 < (cumarclen junk C).length := by omega
  have e : ts[100]? = some 1 := by
    have := euler_eq 0 1 101 (by norm_num)
    rw [show ((101 : ℕ) : ℤ) = 101 from rfl] at h1 this
    rw [this] at h1
    injection h1 with h1
    rw [← h1] at h2
    injection h2 with h2
    rw [← h2, linspaceR_get (by norm_num)]
    norm_num
  refine ⟨C, _, h1, List.getElem?_eq_getElem hl, ?_⟩
  have := h5 100 1 _ e (List.getElem?_eq_getElem hl)
  refine ⟨by linarith [this.1], ?_⟩
  have h7 := this.2
  have hpi : Real.pi ^ 2 ≤ 16 := by nlinarith [Real.pi_le_four, Real.pi_pos]
  norm_num at h7 ⊢
  nlinarith

/-! ## Concrete cases -/

example := C144_arc (a := 0) (b := 1) (r := 2) 3 (by norm_num) (by norm_num) (ε := 1 / 100) (by norm_num)
example := C144_spiral (t0 := 0) (t1 := 10) (b := 2) 1 (by norm_num) (by norm_num) (ε := 1 / 100) (by norm_num)

end Verif.Props
