import Mathlib.Topology.UniformSpace.HeineCantor
import Verif.Props.Accuracy
import Verif.Props.Sampling

/-!
C116: the curvature of a sampled smooth curve compared to the curvature of the curve.
-/
namespace Verif.Spec

open Verif Verif.Model Set

/-- Signed curvature of a plane curve with first derivative `p` and second derivative `q`. -/
noncomputable def planeCurv (p q : EuclideanSpace ℝ (Fin 2)) : ℝ := (p 0 * q 1 - p 1 * q 0) / ‖p‖ ^ 3

end Verif.Spec

namespace Verif.Props

open Verif Verif.Np Verif.Model Verif.Spec Set

theorem norm_plane (p : EuclideanSpace ℝ (Fin 2)) : ‖p‖ = √ (p 0 * p 0 + p 1 * p 1) := by
  rw [EuclideanSpace.norm_eq, Fin.sum_univ_two]
  simp [sq]

theorem planeCurv_scale (p q : EuclideanSpace ℝ (Fin 2)) {h : ℝ} (hh : 0 < h) : planeCurv (h • p) ((h ^ 2) • q) = planeCurv p q := by
  unfold planeCurv
  rw [norm_smul, Real.norm_eq_abs, abs_of_pos hh]
  simp only [PiLp.smul_apply, smul_eq_mul]
  rw [show h * p 0 * (h ^ 2 * q 1) - h * p 1 * (h ^ 2 * q 0) = h ^ 3 * (p 0 * q 1 - p 1 * q 0) by ring, mul_pow,
    mul_div_mul_left _ _ (by positivity)]

theorem planeCurv_continuousAt {p q : EuclideanSpace ℝ (Fin 2)} (hp : p ≠ 0) :
    ContinuousAt (fun x : EuclideanSpace ℝ (Fin 2) × EuclideanSpace ℝ (Fin 2) => planeCurv x.1 x.2) (p, q) := by
  unfold planeCurv
  refine ContinuousAt.div (by fun_prop) (by fun_prop) ?_
  simpa using hp

/-- The curvature of a plane curve in terms of its derivative vectors. -/
theorem curvature_plane {c : Curve ℝ} (h2 : c.ncols = 2) (hs : 2 ≤ c.size) :
    ∃ ks, curvature c = .ok ks ∧ ks.length = c.size ∧ ∀ i, i < c.size → rowVec 2 (firstderiv c).rows i ≠ 0 →
      ks[i]? = some (.fin (planeCurv (rowVec 2 (firstderiv c).rows i) (rowVec 2 (secondderiv c).rows i))) := by
  have k1 : (firstderiv c).k = c.ndim := firstderiv_k hs
  refine ⟨(List.range c.size).map (curvature2 c), ?_, by simp, ?_⟩
  · unfold curvature
    rw [if_pos (show c.ndim = 2 from h2), if_neg (by rw [k1]; show ¬ c.ncols < 2; omega)]
  · intro i hi hne
    obtain ⟨a1, a2, a3, a4⟩ := curvature2_at2 h2 hs hi
    rw [List.getElem?_map, List.getElem?_range hi]
    simp only [Option.map_some, Option.some.injEq]
    unfold curvature2 planeCurv
    simp only [a1, a2, a3, a4]
    have hn := norm_plane (rowVec 2 (firstderiv c).rows i)
    have e0 : at2 (firstderiv c).rows i 0 = rowVec 2 (firstderiv c).rows i 0 := rfl
    have e1 : at2 (firstderiv c).rows i 1 = rowVec 2 (firstderiv c).rows i 1 := rfl
    have e2 : at2 (secondderiv c).rows i 0 = rowVec 2 (secondderiv c).rows i 0 := rfl
    have e3 : at2 (secondderiv c).rows i 1 = rowVec 2 (secondderiv c).rows i 1 := rfl
    rw [e0, e1, e2, e3, ← hn]
    have hsq : rowVec 2 (firstderiv c).rows i 0 * rowVec 2 (firstderiv c).rows i 0 +
        rowVec 2 (firstderiv c).rows i 1 * rowVec 2 (firstderiv c).rows i 1 = ‖rowVec 2 (firstderiv c).rows i‖ ^ 2 := by
      rw [hn, Real.sq_sqrt]
      nlinarith [sq_nonneg (rowVec 2 (firstderiv c).rows i 0), sq_nonneg (rowVec 2 (firstderiv c).rows i 1)]
    rw [hsq, Val.div_fin]
    · congr 1
      congr 1
      ring
    · have : 0 < ‖rowVec 2 (firstderiv c).rows i‖ := norm_pos_iff.2 hne
      positivity

theorem LipOn.continuousOn' {E : Type*} [NormedAddCommGroup E] {a b M : ℝ} {g : ℝ → E} (hM : 0 ≤ M) (h : LipOn a b M g) : ContinuousOn g (Icc a b) := by
  have : LipschitzOnWith ⟨M, hM⟩ g (Icc a b) := by
    refine LipschitzOnWith.of_dist_le_mul ?_
    intro x hx y hy
    rw [dist_eq_norm, Real.dist_eq]
    exact h y hy x hx
  exact this.continuousOn

/-- **C116 (plane curves).** The curvature of a regular plane curve sampled with step `h` converges to the curvature of the curve for `h` to 0,
uniformly over all samples, those at the ends included. -/
theorem C116_plane {a b M : ℝ} {g d e : ℝ → EuclideanSpace ℝ (Fin 2)} (h1 : DerivOn a b g d) (h2 : DerivOn a b d e) (hl : LipOn a b M e) (hM : 0 ≤ M)
    (hreg : ∀ x ∈ Icc a b, d x ≠ 0) {ε : ℝ} (hε : 0 < ε) :
    ∃ δ > 0, ∀ (o h : ℝ) (c : Curve ℝ), WF c → 3 ≤ c.size → 0 < h → h < δ → SampledAt g a b o h c →
      ∃ ks, curvature c = .ok ks ∧ ks.length = c.size ∧
        ∀ i, i < c.size → ∃ k, ks[i]? = some (.fin k) ∧ |k - planeCurv (d (o + i * h)) (e (o + i * h))| < ε := by
  by_cases hab : a ≤ b
  swap
  · refine ⟨1, one_pos, fun o h c _ h3 _ _ hs => ?_⟩
    have := hs.range 0 (by show 0 < c.size; omega)
    exact absurd (this.1.trans this.2) hab
  have cd : ContinuousOn d (Icc a b) := fun x hx => (h2 x hx).continuousWithinAt
  have ce : ContinuousOn e (Icc a b) := LipOn.continuousOn' hM hl
  have hK : IsCompact ((fun x => (d x, e x)) '' Icc a b) := isCompact_Icc.image_of_continuousOn (cd.prodMk ce)
  have hu := hK.uniformContinuousAt_of_continuousAt (fun x => planeCurv x.1 x.2) (by
    rintro _ ⟨x, hx, rfl⟩
    exact planeCurv_continuousAt (hreg x hx)) (Metric.dist_mem_uniformity hε)
  obtain ⟨η, hη, hclose⟩ := Metric.mem_uniformity_dist.1 hu
  obtain ⟨x0, hx0, hmin⟩ := isCompact_Icc.exists_isMinOn (nonempty_Icc.2 hab) cd.norm
  have hv : 0 < ‖d x0‖ := norm_pos_iff.2 (hreg x0 hx0)
  -- a step small enough
  let δ := min 1 (min η ‖d x0‖ / (6 * M + 1))
  have hδ : 0 < δ := lt_min one_pos (div_pos (lt_min hη hv) (by positivity))
  refine ⟨δ, hδ, fun o h c hc h3 hh hlt hs => ?_⟩
  have hh1 : h < 1 := lt_of_lt_of_le hlt (min_le_left _ _)
  have hmul : (6 * M + 1) * h < min η ‖d x0‖ := by
    have := lt_of_lt_of_le hlt (min_le_right _ _)
    rwa [lt_div_iff₀ (by positivity), mul_comm] at this
  obtain ⟨ks, hk1, hk2, hk3⟩ := curvature_plane (c := c) hs.ndim (by omega)
  refine ⟨ks, hk1, hk2, fun i hi => ?_⟩
  have hx := hs.range i hi
  have b1 := (C115_first hc h3 hs h1 h2 hl hi).1
  have b2 := C115_second hc h3 hs h1 h2 hl hM hi
  rw [abs_of_pos hh] at b1 b2
  obtain ⟨p, hp⟩ : ∃ p, p = h⁻¹ • rowVec 2 (firstderiv c).rows i := ⟨_, rfl⟩
  obtain ⟨q, hq⟩ : ∃ q, q = (h ^ 2)⁻¹ • rowVec 2 (secondderiv c).rows i := ⟨_, rfl⟩
  have ep : rowVec 2 (firstderiv c).rows i = h • p := by rw [hp, smul_inv_smul₀ hh.ne']
  have eq : rowVec 2 (secondderiv c).rows i = (h ^ 2) • q := by rw [hq, smul_inv_smul₀ (by positivity)]
  rw [ep, ← smul_sub, norm_smul, Real.norm_eq_abs, abs_of_pos hh] at b1
  rw [eq, ← smul_sub, norm_smul, Real.norm_eq_abs, abs_of_pos (by positivity)] at b2
  have c1 : ‖p - d (o + i * h)‖ ≤ 6 * M * h := by
    have : ‖p - d (o + i * h)‖ ≤ M * h ^ 2 := by
      refine le_of_mul_le_mul_left ?_ hh
      calc h * ‖p - d (o + i * h)‖ ≤ M * h ^ 3 := b1
        _ = _ := by ring
    have e2 : M * h ^ 2 ≤ M * h := by nlinarith [mul_nonneg hM hh.le]
    have e3 : 0 ≤ M * h := mul_nonneg hM hh.le
    linarith
  have c2 : ‖q - e (o + i * h)‖ ≤ 6 * M * h := by
    refine le_of_mul_le_mul_left ?_ (show 0 < h ^ 2 by positivity)
    calc h ^ 2 * ‖q - e (o + i * h)‖ ≤ 6 * M * h ^ 3 := b2
      _ = _ := by ring
  have c3 : 6 * M * h < min η ‖d x0‖ := by linarith
  have hp0 : p ≠ 0 := by
    intro h0
    rw [h0, zero_sub, norm_neg] at c1
    have := hmin hx
    simp only [mem_setOf_eq] at this
    have := lt_of_le_of_lt (this.trans c1) (lt_of_lt_of_le c3 (min_le_right _ _))
    exact lt_irrefl _ this
  refine ⟨_, hk3 i hi (by rw [ep]; simp [hh.ne', hp0]), ?_⟩
  rw [ep, eq, planeCurv_scale p q hh]
  have hd : dist (d (o + i * h), e (o + i * h)) (p, q) < η := by
    rw [Prod.dist_eq, dist_eq_norm, dist_eq_norm, norm_sub_rev, norm_sub_rev _ q]
    exact max_lt (lt_of_le_of_lt c1 (lt_of_lt_of_le c3 (min_le_left _ _))) (lt_of_le_of_lt c2 (lt_of_lt_of_le c3 (min_le_left _ _)))
  have := hclose hd ⟨_, hx, rfl⟩
  simp only [mem_setOf_eq] at this
  rw [dist_comm, Real.dist_eq] at this
  exact this

/-! ## Curves in space -/

section
variable {E : Type*} [NormedAddCommGroup E] [NormedSpace ℝ E]

/-- Unit vectors of close vectors are close. -/
theorem unit_close (p q : E) (hp : p ≠ 0) (hq : q ≠ 0) : ‖‖p‖⁻¹ • p - ‖q‖⁻¹ • q‖ ≤ 2 * ‖p - q‖ / ‖q‖ := by
  have p0 : 0 < ‖p‖ := norm_pos_iff.2 hp
  have q0 : 0 < ‖q‖ := norm_pos_iff.2 hq
  rw [show ‖p‖⁻¹ • p - ‖q‖⁻¹ • q = ‖q‖⁻¹ • (p - q) + (‖p‖⁻¹ - ‖q‖⁻¹) • p by module]
  refine (norm_add_le _ _).trans ?_
  rw [norm_smul, norm_smul, norm_inv, norm_norm, Real.norm_eq_abs]
  have e1 : |‖p‖⁻¹ - ‖q‖⁻¹| * ‖p‖ = |‖q‖ - ‖p‖| / ‖q‖ := by
    rw [inv_sub_inv p0.ne' q0.ne', abs_div, abs_of_pos (mul_pos p0 q0)]
    field_simp
  have e2 : |‖q‖ - ‖p‖| ≤ ‖p - q‖ := by rw [abs_sub_comm]; exact abs_norm_sub_norm_le p q
  rw [e1]
  have e3 : |‖q‖ - ‖p‖| / ‖q‖ ≤ ‖p - q‖ / ‖q‖ := by gcongr
  have e4 : ‖q‖⁻¹ * ‖p - q‖ = ‖p - q‖ / ‖q‖ := by rw [div_eq_inv_mul]
  have e5 : 2 * ‖p - q‖ / ‖q‖ = ‖p - q‖ / ‖q‖ + ‖p - q‖ / ‖q‖ := by ring
  linarith

/-- Quotients of close numbers are close. -/
theorem quot_close {A P t v h α M v0 B : ℝ} (hh : 0 < h) (hA : |A - h * t| ≤ α * h ^ 2) (hP : |P - h * v| ≤ M * h ^ 3) (hv : v0 ≤ v)
    (h0 : 0 < v0) (ht : 0 ≤ t) (hB : t ≤ B) (hM : 0 ≤ M) (hα : 0 ≤ α) (hsm : M * h ^ 2 ≤ v0 / 2) :
    0 < P ∧ |A / P - t / v| ≤ 2 / v0 * (α * h) + 2 * B * M * h ^ 2 / v0 ^ 2 := by
  have hPl : h * v0 / 2 ≤ P := by
    have := (abs_le.1 hP).1
    have : M * h ^ 3 ≤ h * (v0 / 2) := by
      calc M * h ^ 3 = h * (M * h ^ 2) := by ring
        _ ≤ _ := by gcongr
    nlinarith
  have hP0 : 0 < P := lt_of_lt_of_le (by positivity) hPl
  have hv0 : 0 < v := lt_of_lt_of_le h0 hv
  have hB0 : 0 ≤ B := ht.trans hB
  refine ⟨hP0, ?_⟩
  have e1 : A / P - t / v = (A - h * t) / P - t * (P - h * v) / (P * v) := by
    field_simp
    ring
  rw [e1]
  refine (abs_sub _ _).trans (add_le_add ?_ ?_)
  · rw [abs_div, abs_of_pos hP0]
    calc |A - h * t| / P ≤ α * h ^ 2 / (h * v0 / 2) := by gcongr
      _ = _ := by field_simp
  · rw [abs_div, abs_of_pos (mul_pos hP0 hv0), abs_mul, abs_of_nonneg ht]
    calc t * |P - h * v| / (P * v) ≤ B * (M * h ^ 3) / (h * v0 / 2 * v0) := by gcongr
      _ = _ := by field_simp

end

section
variable {n : Nat} {a b o h M : ℝ} {g d e : ℝ → EuclideanSpace ℝ (Fin n)} {c : Curve ℝ}

theorem frenet1_row (hs : SampledAt g a b o h c) (h3 : 3 ≤ c.size) {i : Nat} (hi : i < c.size) :
    Normalised (rowVec n (firstderiv c).rows i) (rowVec n (frenet1 c).rows i) := by
  have k1 : (firstderiv c).k = c.ncols := firstderiv_k (by omega)
  exact normalised_unitRows (by rw [k1, hs.ndim]) (by rw [(shapes_m c).1]; exact hi)

theorem curvature_space (hs : SampledAt g a b o h c) (hn : n ≠ 2) (h3 : 3 ≤ c.size) :
    ∃ ks, curvature c = .ok ks ∧ ks.length = c.size ∧ ∀ i, i < c.size → 0 < ‖rowVec n (firstderiv c).rows i‖ →
      ks[i]? = some (.fin (‖gradV c.size (fun i => rowVec n (frenet1 c).rows i) i‖ / ‖rowVec n (firstderiv c).rows i‖)) := by
  have k1 : (firstderiv c).k = c.ncols := firstderiv_k (by omega)
  obtain ⟨m1, m2, m3, m4, -⟩ := shapes_m c
  refine ⟨(List.range c.size).map (curvatureN c), ?_, by simp, ?_⟩
  · unfold curvature
    rw [if_neg (show ¬ c.ndim = 2 by show ¬ c.ncols = 2; rw [hs.ndim]; exact hn)]
  · intro i hi hne
    have mf : (frenet1 c).m = c.size := m1
    have kf : (frenet1 c).k = c.ncols := k1
    rw [List.getElem?_map, List.getElem?_range hi]
    simp only [Option.map_some, Option.some.injEq]
    unfold curvatureN
    rw [rowNorm_eq (n := n) (by rw [gradient_k (by omega), kf, hs.ndim]) (by rw [gradient_m, mf]; exact hi),
      rowNorm_eq (a := firstderiv c) (n := n) (by rw [k1, hs.ndim]) (by rw [m1]; exact hi), Val.div_fin hne.ne', grad_row (by omega) (by omega), mf]

/-- **C116 (curves in space, partial).** The curvature of a regular curve in three or more dimensions, sampled with step `h`, is that of the curve
(the norm of the derivative of the unit tangent by arc length) up to a multiple of `h`, as long as all speeds exceed the threshold `1e-8`.
Here `M` and `K` are Lipschitz constants of the second derivative and of the derivative of the unit tangent, `v₀` is the least speed and
`B` bounds the derivative of the unit tangent. Missing: smaller speeds, see `C116_space_fails`. -/
theorem C116_space_partial {K v₀ B : ℝ} {τ : ℝ → EuclideanSpace ℝ (Fin n)} (hc : WF c) (h3 : 3 ≤ c.size) (hn : n ≠ 2) (hs : SampledAt g a b o h c)
    (h1 : DerivOn a b g d) (h2 : DerivOn a b d e) (hl : LipOn a b M e) (hM : 0 ≤ M) (hT : DerivOn a b (fun s => ‖d s‖⁻¹ • d s) τ)
    (hK : LipOn a b K τ) (hK0 : 0 ≤ K) (hv : ∀ x ∈ Icc a b, v₀ ≤ ‖d x‖) (h0 : 0 < v₀) (hB : ∀ x ∈ Icc a b, ‖τ x‖ ≤ B) (hh : 0 < h)
    (hsm : M * h ^ 2 ≤ v₀ / 2) (hth : ∀ i, i < c.size → 1 / 10 ^ 8 < ‖rowVec n (firstderiv c).rows i‖) :
    ∃ ks, curvature c = .ok ks ∧ ks.length = c.size ∧ ∀ i, i < c.size → ∃ k, ks[i]? = some (.fin k) ∧
      |k - ‖τ (o + i * h)‖ / ‖d (o + i * h)‖| ≤ 2 / v₀ * ((2 * K + 8 * M / v₀) * h) + 2 * B * M * h ^ 2 / v₀ ^ 2 := by
  obtain ⟨ks, hk1, hk2, hk3⟩ := curvature_space hs hn h3
  refine ⟨ks, hk1, hk2, fun i hi => ?_⟩
  have hx := hs.range i hi
  have b1 : ∀ i, i < c.size → ‖rowVec n (firstderiv c).rows i - h • d (o + i * h)‖ ≤ M * h ^ 3 := by
    intro i hi
    have := (C115_first hc h3 hs h1 h2 hl hi).1
    rwa [abs_of_pos hh] at this
  -- unit tangents
  have b2 : ∀ i, i < c.size → ‖rowVec n (frenet1 c).rows i - ‖d (o + i * h)‖⁻¹ • d (o + i * h)‖ ≤ 2 * M * h ^ 2 / v₀ := by
    intro i hi
    have hxi := hs.range i hi
    have hd0 : 0 < ‖d (o + i * h)‖ := lt_of_lt_of_le h0 (hv _ hxi)
    have hpos : 0 < ‖rowVec n (firstderiv c).rows i‖ := lt_trans (by norm_num) (hth i hi)
    obtain ⟨u1, u2⟩ := (frenet1_row hs h3 hi).1 (hth i hi)
    have e1 : rowVec n (frenet1 c).rows i = ‖rowVec n (firstderiv c).rows i‖⁻¹ • rowVec n (firstderiv c).rows i := by
      have := congrArg (fun x => ‖rowVec n (firstderiv c).rows i‖⁻¹ • x) u2
      simp only [inv_smul_smul₀ hpos.ne'] at this
      exact this.symm
    have e2 : ‖d (o + i * h)‖⁻¹ • d (o + i * h) = ‖h • d (o + i * h)‖⁻¹ • (h • d (o + i * h)) := by
      rw [norm_smul, Real.norm_eq_abs, abs_of_pos hh, smul_smul, mul_inv, mul_comm h⁻¹, mul_assoc, inv_mul_cancel₀ hh.ne', mul_one]
    rw [e1, e2]
    refine (unit_close _ _ (norm_pos_iff.1 hpos) (smul_ne_zero hh.ne' (norm_pos_iff.1 hd0))).trans ?_
    rw [norm_smul, Real.norm_eq_abs, abs_of_pos hh]
    calc 2 * ‖rowVec n (firstderiv c).rows i - h • d (o + i * h)‖ / (h * ‖d (o + i * h)‖) ≤ 2 * (M * h ^ 3) / (h * v₀) := by
          gcongr
          · exact b1 i hi
          · exact hv _ hxi
      _ = _ := by field_simp
  have b3 : ‖gradV c.size (fun i => rowVec n (frenet1 c).rows i) i - h • τ (o + i * h)‖ ≤ (2 * K + 8 * M / v₀) * h ^ 2 := by
    have e1 : gradV c.size (fun i => rowVec n (frenet1 c).rows i) i = gradV c.size (fun i => ‖d (o + i * h)‖⁻¹ • d (o + i * h)) i +
        gradV c.size (fun i => rowVec n (frenet1 c).rows i - ‖d (o + i * h)‖⁻¹ • d (o + i * h)) i := by
      rw [← gradV_add]
      congr 1
      funext i
      abel
    have f1 := gradV_first1 (g := fun s => ‖d s‖⁻¹ • d s) hs.range hT hK h3 hK0 hi
    have f2 := gradV_le b2 h3 hi
    rw [e1, add_sub_right_comm]
    refine (norm_add_le _ _).trans ((add_le_add f1 f2).trans_eq ?_)
    rw [abs_of_pos hh]
    ring
  have hA : |‖gradV c.size (fun i => rowVec n (frenet1 c).rows i) i‖ - h * ‖τ (o + i * h)‖| ≤ (2 * K + 8 * M / v₀) * h ^ 2 := by
    have := (abs_norm_sub_norm_le _ _).trans b3
    rwa [norm_smul, Real.norm_eq_abs, abs_of_pos hh] at this
  have hP : |‖rowVec n (firstderiv c).rows i‖ - h * ‖d (o + i * h)‖| ≤ M * h ^ 3 := by
    have := (abs_norm_sub_norm_le _ _).trans (b1 i hi)
    rwa [norm_smul, Real.norm_eq_abs, abs_of_pos hh] at this
  obtain ⟨q1, q2⟩ := quot_close hh hA hP (hv _ hx) h0 (norm_nonneg _) (hB _ hx) hM (by positivity) hsm
  exact ⟨_, hk3 i hi q1, q2⟩

/-- **C116 fails in space for fine sampling**: with decreasing step the curvature of a regular curve in three or more dimensions, whatever it is,
comes out closer and closer to 0, since vectors not longer than `1e-8` are not normalised. -/
theorem C116_space_fails {v₀ : ℝ} (hn : n ≠ 2) (h1 : DerivOn a b g d) (h2 : DerivOn a b d e) (hl : LipOn a b M e) (hM : 0 ≤ M)
    (hv : ∀ x ∈ Icc a b, v₀ ≤ ‖d x‖) (h0 : 0 < v₀) {ε : ℝ} (hε : 0 < ε) :
    ∃ δ > 0, ∀ (o h : ℝ) (c : Curve ℝ), WF c → 3 ≤ c.size → 0 < h → h < δ → SampledAt g a b o h c →
      ∃ ks, curvature c = .ok ks ∧ ks.length = c.size ∧ ∀ i, i < c.size → ∃ k, ks[i]? = some (.fin k) ∧ |k| < ε := by
  by_cases hab : a ≤ b
  swap
  · refine ⟨1, one_pos, fun o h c _ h3 _ _ hs => ?_⟩
    have := hs.range 0 (by show 0 < c.size; omega)
    exact absurd (this.1.trans this.2) hab
  have cd : ContinuousOn d (Icc a b) := fun x hx => (h2 x hx).continuousWithinAt
  have ce : ContinuousOn e (Icc a b) := LipOn.continuousOn' hM hl
  obtain ⟨x1, hx1, hmax1⟩ := isCompact_Icc.exists_isMaxOn (nonempty_Icc.2 hab) cd.norm
  obtain ⟨x2, hx2, hmax2⟩ := isCompact_Icc.exists_isMaxOn (nonempty_Icc.2 hab) ce.norm
  obtain ⟨V, hV, hV0⟩ : ∃ V, (∀ x ∈ Icc a b, ‖d x‖ ≤ V) ∧ 0 ≤ V := ⟨_, fun x hx => hmax1 hx, norm_nonneg (d x1)⟩
  obtain ⟨B, hB, hB0⟩ : ∃ B, (∀ x ∈ Icc a b, ‖e x‖ ≤ B) ∧ 0 ≤ B := ⟨_, fun x hx => hmax2 hx, norm_nonneg (e x2)⟩
  let δ := min 1 (min (v₀ / (2 * (M + 1))) (min (1 / 10 ^ 8 / (V + M + 1)) (ε * v₀ / (2 * (B + 6 * M + 1)))))
  have hδ : 0 < δ := by
    refine lt_min one_pos (lt_min (by positivity) (lt_min (by positivity) (by positivity)))
  refine ⟨δ, hδ, fun o h c hc h3 hh hlt hs => ?_⟩
  have l1 : h < 1 := lt_of_lt_of_le hlt (min_le_left _ _)
  have l2 : h < v₀ / (2 * (M + 1)) := lt_of_lt_of_le hlt ((min_le_right _ _).trans (min_le_left _ _))
  have l3 : h < 1 / 10 ^ 8 / (V + M + 1) := lt_of_lt_of_le hlt ((min_le_right _ _).trans ((min_le_right _ _).trans (min_le_left _ _)))
  have l4 : h < ε * v₀ / (2 * (B + 6 * M + 1)) := lt_of_lt_of_le hlt ((min_le_right _ _).trans ((min_le_right _ _).trans (min_le_right _ _)))
  rw [lt_div_iff₀ (by positivity)] at l2 l3 l4
  have hMh : 0 ≤ M * h := mul_nonneg hM hh.le
  have hsq : M * h ^ 2 ≤ M * h := by nlinarith
  have hcu : M * h ^ 3 ≤ h * (v₀ / 2) := by nlinarith
  have hcu' : M * h ^ 3 ≤ M * h := by nlinarith [mul_nonneg hMh hh.le]
  obtain ⟨ks, hk1, hk2, hk3⟩ := curvature_space hs hn h3
  refine ⟨ks, hk1, hk2, fun i hi => ?_⟩
  have b1 : ∀ i, i < c.size → ‖rowVec n (firstderiv c).rows i - h • d (o + i * h)‖ ≤ M * h ^ 3 := by
    intro i hi
    have := (C115_first hc h3 hs h1 h2 hl hi).1
    rwa [abs_of_pos hh] at this
  have b2 : ∀ i, i < c.size → rowVec n (frenet1 c).rows i = rowVec n (firstderiv c).rows i := by
    intro i hi
    refine (frenet1_row hs h3 hi).2 ?_
    have e1 := norm_sub_norm_le (rowVec n (firstderiv c).rows i) (h • d (o + i * h))
    have e2 := b1 i hi
    rw [norm_smul, Real.norm_eq_abs, abs_of_pos hh] at e1
    have e3 : h * ‖d (o + i * h)‖ ≤ h * V := by gcongr; exact hV _ (hs.range i hi)
    nlinarith
  have hlow : h * v₀ / 2 ≤ ‖rowVec n (firstderiv c).rows i‖ := by
    have e1 := norm_sub_norm_le (h • d (o + i * h)) (rowVec n (firstderiv c).rows i)
    rw [norm_sub_rev, norm_smul, Real.norm_eq_abs, abs_of_pos hh] at e1
    have e2 := b1 i hi
    have e3 : h * v₀ ≤ h * ‖d (o + i * h)‖ := by gcongr; exact hv _ (hs.range i hi)
    linarith
  have hpos : 0 < ‖rowVec n (firstderiv c).rows i‖ := lt_of_lt_of_le (by positivity) hlow
  refine ⟨_, hk3 i hi hpos, ?_⟩
  have e1 : gradV c.size (fun i => rowVec n (frenet1 c).rows i) i = rowVec n (secondderiv c).rows i := by
    rw [second_row hc h3 hi]
    exact gradV_congr (fun i hi => by rw [b2 i hi, first_row hc h3 hi]) h3 hi
  have b3 := C115_second hc h3 hs h1 h2 hl hM hi
  rw [abs_of_pos hh] at b3
  have hup : ‖rowVec n (secondderiv c).rows i‖ ≤ (B + 6 * M) * h ^ 2 := by
    have e2 := norm_sub_norm_le (rowVec n (secondderiv c).rows i) ((h ^ 2) • e (o + i * h))
    rw [norm_smul, Real.norm_eq_abs, abs_of_pos (show 0 < h ^ 2 by positivity)] at e2
    have e3 : h ^ 2 * ‖e (o + i * h)‖ ≤ h ^ 2 * B := by gcongr; exact hB _ (hs.range i hi)
    have e4 : 6 * M * h ^ 3 ≤ 6 * M * h ^ 2 := by nlinarith [mul_nonneg hMh hh.le]
    nlinarith
  rw [e1, abs_of_nonneg (by positivity), div_lt_iff₀ hpos]
  refine lt_of_le_of_lt hup (lt_of_lt_of_le ?_ (mul_le_mul_of_nonneg_left hlow hε.le))
  have : (B + 6 * M) * h < ε * v₀ / 2 := by nlinarith
  nlinarith

end

/-! ## The third derivative at the ends -/

/-- **C115 fails for the third derivative at the ends**: for samples of `x³` (whose third derivative is constant) it is 9/4, 15/4 and 21/4 of
the cube of the step at the first three points instead of 6 times it, which it is inside, no matter how small the step is. -/
theorem C115_third_fails {c : Curve ℝ} (hc : WF c) (h7 : 7 ≤ c.size) {j : Nat} {h : ℝ}
    (hp : ∀ i : Nat, i < c.size → at2 c.rows i j = (h * i) ^ 3) :
    at2 (thirdderiv c).rows 0 j = 9 / 4 * h ^ 3 ∧ at2 (thirdderiv c).rows 1 j = 15 / 4 * h ^ 3 ∧ at2 (thirdderiv c).rows 2 j = 21 / 4 * h ^ 3 ∧
    ∀ i, 3 ≤ i → i + 3 < c.size → at2 (thirdderiv c).rows i j = 6 * h ^ 3 := by
  have g0 : ∀ f : Nat → ℝ, grad1 c.size f 0 = -1.5 * f 0 + 2 * f 1 + -0.5 * f 2 := by
    intro f
    unfold grad1 npGradient
    rw [if_pos (by omega), if_pos rfl, if_neg (by omega)]
  have gi : ∀ (f : Nat → ℝ) i, i + 2 < c.size → grad1 c.size f (i + 1) = (f (i + 2) - f i) / 2 := by
    intro f i hi
    unfold grad1 npGradient
    rw [if_pos (by omega), if_neg (by omega), if_neg (by omega)]
    rfl
  have f0 : at2 (firstderiv c).rows 0 j = -2 * h ^ 3 := by
    rw [firstderiv_at2 hc (by omega) j (by omega), g0, hp 0 (by omega), hp 1 (by omega), hp 2 (by omega)]
    push_cast; ring
  have fi : ∀ i, i + 2 < c.size → at2 (firstderiv c).rows (i + 1) j = (3 * (i + 1) ^ 2 + 1) * h ^ 3 := by
    intro i hi
    rw [firstderiv_at2 hc (by omega) j (by omega), gi _ i hi, hp i (by omega), hp (i + 2) (by omega)]
    push_cast; ring
  have s0 : at2 (secondderiv c).rows 0 j = 9 / 2 * h ^ 3 := by
    rw [secondderiv_at2 (by omega) j (by omega), g0, f0, fi 0 (by omega), fi 1 (by omega)]
    push_cast; ring
  have s1 : at2 (secondderiv c).rows 1 j = 15 / 2 * h ^ 3 := by
    rw [secondderiv_at2 (by omega) j (by omega), gi _ 0 (by omega), f0, fi 1 (by omega)]
    push_cast; ring
  have si : ∀ i, i + 4 < c.size → at2 (secondderiv c).rows (i + 2) j = 6 * (i + 2) * h ^ 3 := by
    intro i hi
    rw [secondderiv_at2 (by omega) j (by omega), gi _ (i + 1) (by omega), fi i (by omega), fi (i + 2) (by omega)]
    push_cast; ring
  refine ⟨?_, ?_, ?_, ?_⟩
  · rw [thirdderiv_at2 (by omega) j (by omega), g0, s0, s1, si 0 (by omega)]
    push_cast; ring
  · rw [thirdderiv_at2 (by omega) j (by omega), gi _ 0 (by omega), s0, si 0 (by omega)]
    push_cast; ring
  · rw [thirdderiv_at2 (by omega) j (by omega), gi _ 1 (by omega), s1, si 1 (by omega)]
    push_cast; ring
  · intro i l r
    obtain ⟨k, rfl⟩ : ∃ k, i = k + 3 := ⟨i - 3, by omega⟩
    rw [thirdderiv_at2 (by omega) j (by omega), gi _ (k + 2) (by omega), si k (by omega), si (k + 2) (by omega)]
    push_cast; ring

/-! ## Instances: arcs of the unit circle -/

section
variable {E : Type*} [NormedAddCommGroup E] [NormedSpace ℝ E]

/-- The circle through `u` and `v`. -/
noncomputable def circ (u v : E) (s : ℝ) : E := Real.cos s • u + Real.sin s • v

theorem circ_deriv (a b : ℝ) (u v : E) : DerivOn a b (circ u v) (circ v (-u)) := by
  intro x _
  have := (((Real.hasDerivAt_cos x).smul_const u).add ((Real.hasDerivAt_sin x).smul_const v)).hasDerivWithinAt (s := Icc a b)
  refine this.congr_deriv ?_
  unfold circ
  module

theorem LipOn.of_deriv {a b M : ℝ} {g d : ℝ → E} (h : DerivOn a b g d) (hd : ∀ x ∈ Icc a b, ‖d x‖ ≤ M) : LipOn a b M g :=
  fun _ hx _ hy => (convex_Icc a b).norm_image_sub_le_of_norm_hasDerivWithin_le h hd hx hy

end

/-- Unit vectors of the plane of the first two coordinates. -/
noncomputable def ux (n : Nat) : EuclideanSpace ℝ (Fin (n + 2)) := EuclideanSpace.single 0 1
noncomputable def uy (n : Nat) : EuclideanSpace ℝ (Fin (n + 2)) := EuclideanSpace.single 1 1

theorem circ_norm (n : Nat) (s : ℝ) : ‖circ (ux n) (uy n) s‖ = 1 := by
  have h : ‖circ (ux n) (uy n) s‖ ^ 2 = 1 := by
    rw [← real_inner_self_eq_norm_sq]
    unfold circ ux uy
    simp only [inner_add_left, inner_add_right, inner_smul_left, inner_smul_right, EuclideanSpace.inner_single_left, EuclideanSpace.single_apply]
    simp
    have := Real.sin_sq_add_cos_sq s
    nlinarith
  nlinarith [norm_nonneg (circ (ux n) (uy n) s), sq_nonneg (‖circ (ux n) (uy n) s‖ - 1)]

theorem circ_shift {E : Type*} [NormedAddCommGroup E] [NormedSpace ℝ E] (u v : E) (s : ℝ) : circ v (-u) s = circ u v (s + Real.pi / 2) := by
  unfold circ
  rw [Real.cos_add_pi_div_two, Real.sin_add_pi_div_two]
  module

theorem circ_norm1 (n : Nat) (s : ℝ) : ‖circ (uy n) (-ux n) s‖ = 1 := by rw [circ_shift, circ_norm]
theorem circ_norm2 (n : Nat) (s : ℝ) : ‖circ (-ux n) (-uy n) s‖ = 1 := by rw [circ_shift, circ_norm1]
theorem circ_norm3 (n : Nat) (s : ℝ) : ‖circ (-uy n) (- -ux n) s‖ = 1 := by rw [circ_shift, circ_norm2]

theorem circ_lip (n : Nat) (a b : ℝ) : LipOn a b 1 (circ (-ux n) (-uy n)) :=
  LipOn.of_deriv (circ_deriv a b _ _) fun x _ => (circ_norm3 n x).le

/-- `m` samples of the unit circle, in the plane or in a space of more dimensions. -/
noncomputable def exArc (n m : Nat) (h : ℝ) : Curve ℝ :=
  ⟨(List.range m).map fun (i : Nat) => Real.cos (i * h) :: Real.sin (i * h) :: List.replicate n 0, n + 2, none, .float⟩

theorem exArc_WF (n m : Nat) (h : ℝ) : WF (exArc n m h) where
  two_le := by simp [exArc]
  rect := by
    intro r hr
    obtain ⟨i, _, rfl⟩ := List.mem_map.1 hr
    simp [exArc]
  tlen := by simp [exArc]
  repr := by intro r _ x _; rfl

theorem exArc_size (n m : Nat) (h : ℝ) : (exArc n m h).size = m := by simp [exArc, Curve.size]

theorem exArc_sampled (n m : Nat) {h : ℝ} (hh : 0 ≤ h) : SampledAt (circ (ux n) (uy n)) 0 (m * h) 0 h (exArc n m h) where
  ndim := rfl
  range := by
    intro i hi
    have hi : i < m := by simpa [exArc] using hi
    have : (i : ℝ) ≤ m := by exact_mod_cast hi.le
    rw [zero_add]
    exact ⟨by positivity, by gcongr⟩
  pts := by
    intro i hi
    have hi : i < m := by simpa [exArc] using hi
    ext j
    rw [rowVec_apply]
    have e : (exArc n m h).rows.getD i [] = Real.cos (i * h) :: Real.sin (i * h) :: List.replicate n 0 := by
      simp [exArc, List.getD_eq_getElem?_getD, hi]
    unfold at2
    rw [e, zero_add]
    unfold circ ux uy
    refine Fin.cases ?_ (fun j => ?_) j
    · simp
    · refine Fin.cases ?_ (fun j => ?_) j
      · simp
      · simp [List.getD_eq_getElem?_getD, EuclideanSpace.single_apply, Fin.ext_iff]

/-- The derivatives of sampled arcs. -/
example (n m : Nat) (hm : 3 ≤ m) {h : ℝ} (hh : 0 ≤ h) {i : Nat} (hi : i < m) :
    ‖rowVec (n + 2) (firstderiv (exArc n m h)).rows i - h • circ (uy n) (-ux n) (0 + i * h)‖ ≤ 1 * |h| ^ 3 :=
  (C115_first (exArc_WF n m h) (by rw [exArc_size]; exact hm) (exArc_sampled n m hh) (circ_deriv _ _ _ _) (circ_deriv _ _ _ _) (circ_lip n _ _)
    (by rw [exArc_size]; exact hi)).1

theorem circ_curv (s : ℝ) : planeCurv (circ (uy 0) (-ux 0) s) (circ (-ux 0) (-uy 0) s) = 1 := by
  unfold planeCurv
  rw [circ_norm1]
  unfold circ ux uy
  simp
  have := Real.sin_sq_add_cos_sq s
  nlinarith

/-- The curvature of all sufficiently fine samples of an arc of one radian of the unit circle is close to 1. -/
example {ε : ℝ} (hε : 0 < ε) : ∃ δ > 0, ∀ m : Nat, 3 ≤ m → 1 / (m : ℝ) < δ →
    ∃ ks, curvature (exArc 0 m (1 / m)) = .ok ks ∧ ∀ i, i < m → ∃ k, ks[i]? = some (.fin k) ∧ |k - 1| < ε := by
  obtain ⟨δ, hδ, H⟩ := C116_plane (a := 0) (b := 1) (circ_deriv 0 1 (ux 0) (uy 0)) (circ_deriv _ _ _ _) (circ_lip 0 _ _) zero_le_one
    (fun x _ => by rw [← norm_pos_iff, circ_norm1]; exact one_pos) hε
  refine ⟨δ, hδ, fun m hm hlt => ?_⟩
  have hm0 : (0 : ℝ) < m := by exact_mod_cast (by omega : 0 < m)
  have hs := exArc_sampled 0 m (h := 1 / m) (by positivity)
  rw [mul_one_div_cancel hm0.ne'] at hs
  obtain ⟨ks, h1, h2, h3⟩ := H 0 (1 / m) (exArc 0 m (1 / m)) (exArc_WF _ _ _) (by rw [exArc_size]; exact hm) (by positivity) hlt hs
  refine ⟨ks, h1, fun i hi => ?_⟩
  obtain ⟨k, hk, hlt⟩ := h3 i (by rw [exArc_size]; exact hi)
  rw [circ_curv] at hlt
  exact ⟨k, hk, hlt⟩

/-- The same arc in space has curvature close to 0. -/
example {ε : ℝ} (hε : 0 < ε) : ∃ δ > 0, ∀ m : Nat, 3 ≤ m → 1 / (m : ℝ) < δ →
    ∃ ks, curvature (exArc 1 m (1 / m)) = .ok ks ∧ ∀ i, i < m → ∃ k, ks[i]? = some (.fin k) ∧ |k| < ε := by
  obtain ⟨δ, hδ, H⟩ := C116_space_fails (a := 0) (b := 1) (v₀ := 1) (by decide) (circ_deriv 0 1 (ux 1) (uy 1)) (circ_deriv _ _ _ _)
    (circ_lip 1 _ _) zero_le_one (fun x _ => by rw [circ_norm1]) one_pos hε
  refine ⟨δ, hδ, fun m hm hlt => ?_⟩
  have hm0 : (0 : ℝ) < m := by exact_mod_cast (by omega : 0 < m)
  have hs := exArc_sampled 1 m (h := 1 / m) (by positivity)
  rw [mul_one_div_cancel hm0.ne'] at hs
  obtain ⟨ks, h1, h2, h3⟩ := H 0 (1 / m) (exArc 1 m (1 / m)) (exArc_WF _ _ _) (by rw [exArc_size]; exact hm) (by positivity) hlt hs
  exact ⟨ks, h1, fun i hi => h3 i (by rw [exArc_size]; exact hi)⟩

/-- An arc in space with a step of 1/100: the curvature is 1 up to 0.3. -/
example (m : Nat) (hm : 3 ≤ m) : ∃ ks, curvature (exArc 1 m (1 / 100)) = .ok ks ∧ ∀ i, i < m → ∃ k, ks[i]? = some (.fin k) ∧ |k - 1| ≤ 3 / 10 := by
  have h3 : 3 ≤ (exArc 1 m (1 / 100)).size := by rw [exArc_size]; exact hm
  have hs := exArc_sampled 1 m (h := 1 / 100) (by norm_num)
  have eT : (fun s => ‖circ (uy 1) (-ux 1) s‖⁻¹ • circ (uy 1) (-ux 1) s) = circ (uy 1) (-ux 1) := by
    funext s; rw [circ_norm1]; simp
  obtain ⟨ks, h1, -, h2⟩ := C116_space_partial (K := 1) (v₀ := 1) (B := 1) (τ := circ (-ux 1) (-uy 1)) (exArc_WF 1 m _) h3 (by decide) hs
    (circ_deriv _ _ _ _) (circ_deriv _ _ _ _) (circ_lip 1 _ _) zero_le_one (by rw [eT]; exact circ_deriv _ _ _ _) (circ_lip 1 _ _) zero_le_one
    (fun x _ => by rw [circ_norm1]) one_pos (fun x _ => (circ_norm2 1 x).le) (by norm_num) (by norm_num) (by
      intro i hi
      have b := (C115_first (exArc_WF 1 m _) h3 hs (circ_deriv _ _ _ _) (circ_deriv _ _ _ _) (circ_lip 1 _ _) hi).1
      have e1 := norm_sub_norm_le ((1 / 100 : ℝ) • circ (uy 1) (-ux 1) (0 + i * (1 / 100))) (rowVec 3 (firstderiv (exArc 1 m (1 / 100))).rows i)
      rw [norm_sub_rev, norm_smul, circ_norm1, Real.norm_eq_abs, abs_of_pos (by norm_num : (0 : ℝ) < 1 / 100)] at e1
      rw [abs_of_pos (by norm_num : (0 : ℝ) < 1 / 100)] at b
      have := e1.trans b
      norm_num at this ⊢
      linarith)
  refine ⟨ks, h1, fun i hi => ?_⟩
  obtain ⟨k, hk, hb⟩ := h2 i (by rw [exArc_size]; exact hi)
  rw [circ_norm1, circ_norm2] at hb
  refine ⟨k, hk, ?_⟩
  norm_num at hb ⊢
  linarith

end Verif.Props
