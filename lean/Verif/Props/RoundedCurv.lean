import Verif.Model.RoundedCurv
import Verif.Lemmas.CurvFl
import Verif.Props.RoundedDeriv
import Verif.Props.AccuracyCurv

/-!
C158: curvature in rounded arithmetic.
-/
namespace Verif.Props

open Verif Verif.Np Verif.Model Verif.Spec Set

theorem quotFl_fin (fl : ℝ → ℝ) {x y : ℝ} (h : y ≠ 0) : quotFl fl x y = .fin (fl (x / y)) := by
  unfold quotFl
  rw [Val.div_fin h]

theorem quotFl_id (x y : ℝ) : quotFl id x y = Val.div (.fin x) (.fin y) := by
  unfold quotFl
  cases Val.div (.fin x) (.fin y) <;> rfl

section
variable {ε η : ℝ} {fl : ℝ → ℝ} {c : Curve ℝ}

/-! ## Plane curves -/

theorem curvature2_fin {i : Nat} {v : ℝ} (hv : v = len2 ((firstderiv c).v i 0) ((firstderiv c).v i 1)) (v0 : 0 < v) :
    curvature2 c i = .fin (((secondderiv c).v i 1 * (firstderiv c).v i 0 - (secondderiv c).v i 0 * (firstderiv c).v i 1) / v ^ 3) := by
  unfold curvature2
  simp only
  have h := len2_sq ((firstderiv c).v i 0) ((firstderiv c).v i 1)
  have hs : √ ((firstderiv c).v i 0 * (firstderiv c).v i 0 + (firstderiv c).v i 1 * (firstderiv c).v i 1) = v := hv.symm
  rw [hs, ← h, ← hv, Val.div_fin (by positivity)]
  congr 2
  ring

/-- Any computed value is a finite number near the exact curvature for derivatives `a, b, p, q` near the computed ones. -/
theorem curv2_near (hf : Rounding ε fl) (hε : 1000 * ε ≤ 1) (h0 : 0 ≤ η) (hη : 100 * η ≤ 1) {i : Nat} {x : Val ℝ} (hx : Curv2To fl η c i x)
    {a b p q v E F S : ℝ} (hv : v = len2 a b) (v0 : 0 < v) (ha : |(derivFl fl c 1).v i 0 - a| ≤ E) (hb : |(derivFl fl c 1).v i 1 - b| ≤ E)
    (hp : |(derivFl fl c 2).v i 0 - p| ≤ F) (hq : |(derivFl fl c 2).v i 1 - q| ≤ F) (sp : |p| ≤ S) (sq : |q| ≤ S) (hE : 64 * E ≤ v) :
    ∃ k, x = .fin k ∧ |k - (q * a - p * b) / v ^ 3| ≤ (5 * F + 37 * S * (E / v) + 80 * ε * (S + F) + 9 * η * S) / v ^ 2 := by
  obtain ⟨w, hw, rfl⟩ := hx
  obtain ⟨d0, d1⟩ := curv_core hf hε h0 hη hv v0 ha hb hp hq sp sq hE hw
  exact ⟨_, quotFl_fin fl d0, d1⟩

theorem second_le (h2 : 2 ≤ c.size) {B : ℝ} (hB : ∀ i j, i < c.size → j < c.ndim → |at2 c.rows i j| ≤ B) {i j : Nat} (hi : i < c.size) (hj : j < c.ndim) :
    |(secondderiv c).v i j| ≤ 16 * B := by
  have hB0 : 0 ≤ B := (abs_nonneg _).trans (hB i j hi hj)
  have R0 : Rounding 0 (id : ℝ → ℝ) := ⟨le_rfl, by norm_num, by intro x; simp, monotone_id, fun _ => rfl, fun _ => rfl⟩
  have h := (derivFl_near R0 (c := c) (c' := c) (δ := 0) ⟨rfl, rfl, fun i j _ _ => by simp⟩ le_rfl (mat_le hB) hB0 2).2
  rw [(C130_exact c).2.1] at h
  have m : (secondderiv c).m = c.size := derivEx_m 2
  have k : (secondderiv c).k = c.ndim := derivEx_k h2 2
  have := h i j (by rw [m]; exact hi) (by rw [k]; exact hj)
  norm_num at this
  exact this

/-! ## C158 -/

/-- **C158 (no rounding).** Without rounding and with an exact power the only result is that of the exact model. -/
theorem C158_exact (c : Curve ℝ) (r : Except PyErr (List (Val ℝ))) : CurvatureTo id 0 c r ↔ r = curvature c := by
  obtain ⟨d1, d2, -, hn, hu⟩ := C130_exact c
  have g : gradientFl id = gradient := by
    funext a
    unfold gradientFl gradient
    have : npGradientFl id = npGradient := by
      funext e m f i
      unfold npGradientFl npGradient
      simp
    rw [this]
  have c2 : ∀ i x, Curv2To id 0 c i x ↔ x = curvature2 c i := by
    intro i x
    unfold Curv2To curvature2
    simp only [d1, d2, quotFl_id, zero_mul, id]
    constructor
    · rintro ⟨w, hw, rfl⟩
      rw [sub_eq_zero.1 (abs_nonpos_iff.1 hw)]
    · rintro rfl
      exact ⟨_, by simp, rfl⟩
  have cn : ∀ i x, i < c.size → (CurvNTo id c i x ↔ x = curvatureN c i) := by
    intro i x hi
    unfold CurvNTo curvatureN
    simp only [d1, g, quotFl_id, hn]
    have m1 : (firstderiv c).m = c.size := derivEx_m 1
    have un : ∀ u, UnitTo id (firstderiv c) u → rowNorm (gradient u) i = rowNorm (gradient (frenet1 c)) i := by
      rintro u ⟨z, hz, rfl⟩
      have n0 : MatNear ⟨(firstderiv c).m, (firstderiv c).k, fun i j => unitFl id (firstderiv c) (z i) i j⟩ (frenet1 c) 0 := by
        refine ⟨rfl, rfl, fun i j hi _ => ?_⟩
        have h1 := (hn _ _ _).1 (hz i hi)
        show |unitFl id (firstderiv c) (z i) i j - _| ≤ 0
        rw [h1, hu]
        exact (abs_nonpos_iff.2 (sub_self _))
      have n1 := gradient_near n0 le_rfl
      have m2 : (gradient (frenet1 c)).m = c.size := (gradient_m _).trans m1
      have d := rowNorm_diff n1.1 n1.2.1 (i := i) (by rw [m2]; exact hi)
      have z0 := sqrt_sum_le (k := (gradient (frenet1 c)).k) (u := fun j => (gradient ⟨(firstderiv c).m, (firstderiv c).k, fun i j => unitFl id (firstderiv c) (z i) i j⟩).v i j - (gradient (frenet1 c)).v i j)
        (δ := 0) le_rfl (fun j hj => by simpa using n1.2.2 i j (by rw [m2]; exact hi) hj)
      have := d.trans z0
      rw [mul_zero] at this
      exact sub_eq_zero.1 (abs_nonpos_iff.1 this)
    constructor
    · rintro ⟨u, y, t, hu', rfl, rfl, rfl⟩
      rw [un u hu']
    · rintro rfl
      exact ⟨frenet1 c, _, _, ⟨fun i => rowNorm (firstderiv c) i, fun i _ => (hn _ _ _).2 rfl, rfl⟩, rfl, rfl, rfl⟩
  have lst : ∀ (P : Nat → Val ℝ → Prop) (f : Nat → Val ℝ), (∀ i x, i < c.size → (P i x ↔ x = f i)) →
      ((∃ ks : List (Val ℝ), r = .ok ks ∧ ks.length = c.size ∧ ∀ i (h : i < ks.length), P i ks[i]) ↔ r = .ok ((List.range c.size).map f)) := by
    intro P f hP
    constructor
    · rintro ⟨ks, rfl, hl, hk⟩
      congr 1
      refine List.ext_getElem (by simpa using hl) fun i h1 h2 => ?_
      rw [(hP i _ (hl ▸ h1)).1 (hk i h1)]
      simp
    · rintro rfl
      refine ⟨_, rfl, by simp, fun i h => ?_⟩
      have hi : i < c.size := by simpa using h
      refine (hP i _ hi).2 (by simp)
  unfold CurvatureTo curvature
  rw [d1]
  split_ifs
  · exact Iff.rfl
  · exact lst _ _ fun i x _ => c2 i x
  · exact lst _ _ cn

/-- **C158 (plane curves).** With every operation rounded the curvature of a plane curve with coordinates of absolute value at most `B` differs, at every point with speed `v` above
`1792 ε B`, from the exact curvature by at most `((2425 ε + 144 η) B + 16576 ε B² / v) / v²`. -/
theorem C158_plane (hf : Rounding ε fl) (hε : 1000 * ε ≤ 1) (h0 : 0 ≤ η) (hη : 100 * η ≤ 1) (h2 : 2 ≤ c.size) (hd : c.ndim = 2) {B : ℝ}
    (hB : ∀ i j, i < c.size → j < 2 → |at2 c.rows i j| ≤ B) {i : Nat} (hi : i < c.size) {v : ℝ} (hv : v = √ ((firstderiv c).v i 0 ^ 2 + (firstderiv c).v i 1 ^ 2)) (v0 : 0 < v)
    (hE : 1792 * ε * B ≤ v) {x : Val ℝ} (hx : Curv2To fl η c i x) :
    ∃ k k', x = .fin k ∧ curvature2 c i = .fin k' ∧ |k - k'| ≤ ((2425 * ε + 144 * η) * B + 16576 * ε * B ^ 2 / v) / v ^ 2 := by
  have hv' : v = len2 ((firstderiv c).v i 0) ((firstderiv c).v i 1) := by rw [hv]; unfold len2; rw [sq, sq]
  have e0 := hf.nonneg
  have hBd : ∀ i j, i < c.size → j < c.ndim → |at2 c.rows i j| ≤ B := fun i j h1 h2 => hB i j h1 (hd ▸ h2)
  have hB0 : 0 ≤ B := (abs_nonneg _).trans (hB i 0 hi (by norm_num))
  have n0 := C130_derivs hf hε h2 hBd hi (j := 0) (by rw [hd]; norm_num)
  have n1 := C130_derivs hf hε h2 hBd hi (j := 1) (by rw [hd]; norm_num)
  obtain ⟨k, hk, hb⟩ := curv2_near hf hε h0 hη hx hv' v0 n0.1 n1.1 n0.2.1 n1.2.1 (second_le h2 hBd hi (by rw [hd]; norm_num)) (second_le h2 hBd hi (by rw [hd]; norm_num))
    (by linarith)
  refine ⟨k, _, hk, curvature2_fin hv' v0, hb.trans (div_le_div_of_nonneg_right ?_ (by positivity))⟩
  have e2 : ε * (ε * B) ≤ 1 / 1000 * (ε * B) := mul_le_mul_of_nonneg_right (by linarith) (by positivity)
  have e3 : 37 * (16 * B) * (28 * ε * B / v) = 16576 * ε * B ^ 2 / v := by ring
  have : 0 ≤ ε * B := by positivity
  rw [e3]
  linarith

/-- **C158 (plane curves, inside).** Between the ends the error is at most `(4200 ε + 144 η) B / v²`, for all speeds `v > 0`. -/
theorem C158_inside (hf : Rounding ε fl) (hε : 1000 * ε ≤ 1) (h0 : 0 ≤ η) (hη : 100 * η ≤ 1) (hd : c.ndim = 2) {B : ℝ}
    (hB : ∀ i j, i < c.size → j < 2 → |at2 c.rows i j| ≤ B) {i : Nat} (h1 : 1 ≤ i) (hi : i + 1 < c.size) {v : ℝ} (hv : v = √ ((firstderiv c).v i 0 ^ 2 + (firstderiv c).v i 1 ^ 2))
    (v0 : 0 < v) {x : Val ℝ} (hx : Curv2To fl η c i x) :
    ∃ k k', x = .fin k ∧ curvature2 c i = .fin k' ∧ |k - k'| ≤ (4200 * ε + 144 * η) * B / v ^ 2 := by
  have hv' : v = len2 ((firstderiv c).v i 0) ((firstderiv c).v i 1) := by rw [hv]; unfold len2; rw [sq, sq]
  have e0 := hf.nonneg
  have hBd : ∀ i j, i < c.size → j < c.ndim → |at2 c.rows i j| ≤ B := fun i j h1 h2 => hB i j h1 (hd ▸ h2)
  have hB0 : 0 ≤ B := (abs_nonneg _).trans (hB i 0 (by omega) (by norm_num))
  have h2 : 2 ≤ c.size := by omega
  have hi' : i < c.size := by omega
  have n0 := C130_derivs hf hε h2 hBd hi' (j := 0) (by rw [hd]; norm_num)
  have n1 := C130_derivs hf hε h2 hBd hi' (j := 1) (by rw [hd]; norm_num)
  obtain ⟨va, vb⟩ := abs_le_len2 ((firstderiv c).v i 0) ((firstderiv c).v i 1)
  rw [← hv'] at va vb
  have m0 := (C130_inside hf h1 hi 0).trans (mul_le_mul_of_nonneg_left va (by positivity))
  have m1 := (C130_inside hf h1 hi 1).trans (mul_le_mul_of_nonneg_left vb (by positivity))
  obtain ⟨k, hk, hb⟩ := curv2_near hf hε h0 hη hx hv' v0 m0 m1 n0.2.1 n1.2.1 (second_le h2 hBd hi' (by rw [hd]; norm_num)) (second_le h2 hBd hi' (by rw [hd]; norm_num))
    (by nlinarith)
  refine ⟨k, _, hk, curvature2_fin hv' v0, hb.trans (div_le_div_of_nonneg_right ?_ (by positivity))⟩
  have e2 : ε * (ε * B) ≤ 1 / 1000 * (ε * B) := mul_le_mul_of_nonneg_right (by linarith) (by positivity)
  have e3 : 37 * (16 * B) * (3 * ε * v / v) = 1776 * (ε * B) := by field_simp; ring
  have : 0 ≤ ε * B := by positivity
  rw [e3]
  linarith

/-- **C158 (sampled plane curves).** Discretization and rounding together: the points of `c'` are those of a plane curve `g` for the parameters `o`, `o + h`, ..., with an error of at most
`δ` per coordinate. The curvature computed with rounded operations is that of `g` up to an error of order `h + (δ + ε B) / h²`. -/
theorem C158_sampled (hf : Rounding ε fl) (hε : 1000 * ε ≤ 1) (h0 : 0 ≤ η) (hη : 100 * η ≤ 1) {g d e : ℝ → EuclideanSpace ℝ (Fin 2)} {a b o h M : ℝ} (hc : WF c) (h3 : 3 ≤ c.size)
    (hs : SampledAt g a b o h c) (h1 : DerivOn a b g d) (h2 : DerivOn a b d e) (hl : LipOn a b M e) (hM : 0 ≤ M) {c' : Curve ℝ} {δ B : ℝ}
    (hsz : c'.size = c.size) (hnd : c'.ndim = c.ndim) (hδ : ∀ i j, i < c.size → j < 2 → |at2 c'.rows i j - at2 c.rows i j| ≤ δ)
    (hB : ∀ i j, i < c.size → j < 2 → |at2 c'.rows i j| ≤ B) {i : Nat} (hi : i < c.size) (hh : 0 < h) {E F : ℝ} (hE : E = M * h ^ 3 + 4 * δ + 28 * ε * B)
    (hF : F = 6 * M * h ^ 3 + 16 * δ + 225 * ε * B) (hd0 : d (o + i * h) ≠ 0) (hsm : 64 * E ≤ h * ‖d (o + i * h)‖) {x : Val ℝ} (hx : Curv2To fl η c' i x) :
    ∃ k, x = .fin k ∧ |k - planeCurv (d (o + i * h)) (e (o + i * h))| ≤
      (37 * ‖e (o + i * h)‖ / ‖d (o + i * h)‖ * (E / h) + (80 * ε + 9 * η) * ‖e (o + i * h)‖ + 6 * (F / h ^ 2)) / ‖d (o + i * h)‖ ^ 2 := by
  have e0 := hf.nonneg
  have s0 := C130_sampled hf hε hc h3 hs h1 h2 hl hM hsz hnd hδ hB hi 0
  have s1 := C130_sampled hf hε hc h3 hs h1 h2 hl hM hsz hnd hδ hB hi 1
  rw [abs_of_pos hh, ← hE, ← hF] at s0 s1
  set D := d (o + i * h)
  set G := e (o + i * h)
  have D0 : 0 < ‖D‖ := norm_pos_iff.2 hd0
  have F0 : 0 ≤ F := (abs_nonneg _).trans s0.2
  have E0 : 0 ≤ E := (abs_nonneg _).trans s0.1
  have hv : h * ‖D‖ = len2 (h * D 0) (h * D 1) := by
    unfold len2
    rw [norm_plane, show h * D 0 * (h * D 0) + h * D 1 * (h * D 1) = h ^ 2 * (D 0 * D 0 + D 1 * D 1) by ring, Real.sqrt_mul (by positivity), Real.sqrt_sq hh.le]
  have hS : ∀ j, |h ^ 2 * G j| ≤ h ^ 2 * ‖G‖ := by
    intro j
    rw [abs_mul, abs_of_pos (by positivity : 0 < h ^ 2)]
    exact mul_le_mul_of_nonneg_left (by simpa using PiLp.norm_apply_le G j) (by positivity)
  obtain ⟨k, hk, hb⟩ := curv2_near hf hε h0 hη hx hv (by positivity) s0.1 s1.1 s0.2 s1.2 (hS 0) (hS 1) hsm
  refine ⟨k, hk, ?_⟩
  have ep : planeCurv D G = (h ^ 2 * G 1 * (h * D 0) - h ^ 2 * G 0 * (h * D 1)) / (h * ‖D‖) ^ 3 := by
    unfold planeCurv
    field_simp
  rw [ep]
  refine hb.trans ?_
  rw [div_le_div_iff₀ (by positivity) (by positivity)]
  have G0 : 0 ≤ ‖G‖ := norm_nonneg _
  have key : (37 * ‖G‖ / ‖D‖ * (E / h) + (80 * ε + 9 * η) * ‖G‖ + 6 * (F / h ^ 2)) * (h * ‖D‖) ^ 2 =
      (5 * F + 37 * (h ^ 2 * ‖G‖) * (E / (h * ‖D‖)) + 80 * ε * (h ^ 2 * ‖G‖ + F) + 9 * η * (h ^ 2 * ‖G‖)) * ‖D‖ ^ 2 + (1 - 80 * ε) * F * ‖D‖ ^ 2 := by
    field_simp
    ring
  rw [key]
  have : 0 ≤ (1 - 80 * ε) * F * ‖D‖ ^ 2 := mul_nonneg (mul_nonneg (by linarith) F0) (by positivity)
  linarith


theorem derivFl_m (k : Nat) : (derivFl fl c k).m = c.size := by
  induction k with
  | zero => rfl
  | succ k ih =>
    show (gradientFl fl (derivFl fl c k)).m = c.size
    unfold gradientFl
    split_ifs <;> exact ih

theorem derivFl_k (h2 : 2 ≤ c.size) (k : Nat) : (derivFl fl c k).k = c.ndim := by
  induction k with
  | zero => rfl
  | succ k ih =>
    have m := derivFl_m (fl := fl) (c := c) k
    show (gradientFl fl (derivFl fl c k)).k = c.ndim
    unfold gradientFl
    split_ifs
    · exact ih
    · exact ih
    · omega

/-- **C158 (values).** The property `curvature` of a curve of at least two points has one value per point, computed by the formula for the plane or by that for other curves. -/
theorem C158_values (h2 : 2 ≤ c.size) {r : Except PyErr (List (Val ℝ))} (hr : CurvatureTo fl η c r) :
    ∃ ks, r = .ok ks ∧ ks.length = c.size ∧ ∀ i, i < c.size → ∃ x, ks[i]? = some x ∧ (c.ndim = 2 → Curv2To fl η c i x) ∧ (c.ndim ≠ 2 → CurvNTo fl c i x) := by
  unfold CurvatureTo at hr
  rw [derivFl_k h2] at hr
  split_ifs at hr with hd hk
  · omega
  · obtain ⟨ks, h1, h2, h3⟩ := hr
    exact ⟨ks, h1, h2, fun i hi => ⟨ks[i], by simp [h2, hi], fun _ => h3 i (h2 ▸ hi), fun h => absurd hd h⟩⟩
  · obtain ⟨ks, h1, h2, h3⟩ := hr
    exact ⟨ks, h1, h2, fun i hi => ⟨ks[i], by simp [h2, hi], fun h => absurd h hd, fun _ => h3 i (h2 ▸ hi)⟩⟩

/-! ## Space curves -/

/-- A quotient of two numbers with small relative errors. -/
theorem quot_rel {a f A G u δ : ℝ} (e0 : 0 ≤ ε) (hε : 300 * ε ≤ 1) (ha : |a - f| ≤ 3 * ε * |f|) (hA : |A - G| ≤ 3 * ε * G) (G0 : 0 < G) (d0 : 0 ≤ δ) (d1 : 20 * δ ≤ 1) (hu : |u - a / A| ≤ δ * |a / A|) :
    |u - f / G| ≤ (δ + 8 * ε) * |f / G| := by
  have eG : 3 * ε * G ≤ 1 / 100 * G := mul_le_mul_of_nonneg_right (by linarith) G0.le
  obtain ⟨A1, A2⟩ := abs_le.1 hA
  have A0 : 0 < A := by linarith
  have e : a / A - f / G = ((a - f) + f * ((G - A) / G)) / A := by field_simp; ring
  have fG : |f / G| = |f| / G := by rw [abs_div, abs_of_pos G0]
  have q : |a / A - f / G| ≤ 7 * ε * |f / G| := by
    rw [e, abs_div, abs_of_pos A0, div_le_iff₀ A0, fG]
    have t := abs_add_le (a - f) (f * ((G - A) / G))
    have t2 : |f * ((G - A) / G)| ≤ |f| * (3 * ε) := by
      rw [abs_mul]
      refine mul_le_mul_of_nonneg_left ?_ (abs_nonneg _)
      rw [abs_div, abs_of_pos G0, div_le_iff₀ G0, abs_sub_comm]
      exact hA
    have t3 : 6 * ε * |f| ≤ 7 * ε * (|f| / G) * A := by
      rw [show 7 * ε * (|f| / G) * A = ε * |f| * (7 * A / G) by ring]
      have : 6 ≤ 7 * A / G := by rw [le_div_iff₀ G0]; linarith
      have := mul_le_mul_of_nonneg_left this (mul_nonneg e0 (abs_nonneg f))
      linarith
    linarith
  have m : |a / A| ≤ (1 + 7 * ε) * |f / G| := by
    have := abs_add_le (a / A - f / G) (f / G)
    rw [sub_add_cancel] at this
    linarith
  have t := abs_sub_le u (a / A) (f / G)
  have m1 := mul_le_mul_of_nonneg_left m d0
  generalize |f / G| = X at *
  have X0 : 0 ≤ X := by
    by_contra h
    have := (abs_nonneg _).trans m
    nlinarith
  have : δ * (7 * ε * X) ≤ 1 / 20 * (7 * ε * X) := mul_le_mul_of_nonneg_right (by linarith) (by positivity)
  have : 0 ≤ ε * X := by positivity
  linarith

/-- The computed speed between the ends. -/
theorem speed_inside (hf : Rounding ε fl) (h2 : 2 ≤ c.size) {i : Nat} (h1 : 1 ≤ i) (hi : i + 1 < c.size) :
    |rowNorm (derivFl fl c 1) i - rowNorm (firstderiv c) i| ≤ 3 * ε * rowNorm (firstderiv c) i := by
  have e0 := hf.nonneg
  have m : (derivFl fl c 1).m = (firstderiv c).m := (derivFl_m 1).trans (derivEx_m 1).symm
  have k : (derivFl fl c 1).k = (firstderiv c).k := (derivFl_k h2 1).trans (derivEx_k h2 1).symm
  have hm : i < (firstderiv c).m := by have : (firstderiv c).m = c.size := derivEx_m 1; omega
  refine (rowNorm_diff m k hm).trans ?_
  exact sqrt_sum_rel (by positivity) fun j _ => C130_inside hf h1 hi j

theorem closeK_zero_of_lt {z : ℝ} (h : 1 / 10 ^ 8 < z) : closeK z 0 = false := by
  have h0 : (0 : ℝ) < z := lt_trans (by norm_num) h
  simp only [closeK, atol, rtol, sub_zero, abs_zero, mul_zero, add_zero, abs_of_pos h0, decide_eq_false_iff_not, not_le]
  norm_num at h ⊢
  linarith

/-- A unit tangent between the ends: every coordinate has a relative error of at most `(4 n + 20) ε`. -/
theorem unit_inside (hf : Rounding ε fl) (hn : 0 < c.ndim) (hε : 100 * ((c.ndim + 3 : ℕ) * ε) ≤ 1) {i : Nat} (h1 : 1 ≤ i) (hi : i + 1 < c.size) {z : ℝ} (hz : RowNormTo fl (derivFl fl c 1) i z)
    (hv : 1.1 / 10 ^ 8 ≤ rowNorm (firstderiv c) i) (j : Nat) :
    |unitFl fl (derivFl fl c 1) z i j - (frenet1 c).v i j| ≤ (4 * c.ndim + 20) * ε * |(frenet1 c).v i j| ∧ (frenet1 c).v i j = (firstderiv c).v i j / rowNorm (firstderiv c) i := by
  have e0 := hf.nonneg
  have h2 : 2 ≤ c.size := by omega
  have kk : (derivFl fl c 1).k = c.ndim := derivFl_k h2 1
  have n0 : (0 : ℝ) ≤ (c.ndim : ℝ) := Nat.cast_nonneg _
  push_cast at hε
  have hne : 0 ≤ (c.ndim : ℝ) * ε := mul_nonneg n0 e0
  have sp := speed_inside hf h2 h1 hi
  have r := rowNormTo_rel hf (by rw [kk]; exact hn) hz
  have a1 := rel_simple hf r (Real.sqrt_nonneg _) (by rw [kk]; push_cast; linarith)
  rw [kk] at a1
  push_cast at a1
  set G := rowNorm (firstderiv c) i with hG
  set A := rowNorm (derivFl fl c 1) i with hA
  have G0 : 0 < G := lt_of_lt_of_le (by norm_num) hv
  have eG : 3 * ε * G ≤ 1 / 100 * G := mul_le_mul_of_nonneg_right (by linarith) G0.le
  have A0 : 0.99 * G ≤ A := by have := (abs_le.1 sp).1; linarith
  have Ap : 0 < A := by linarith
  have zb : 1 / 10 ^ 8 < z := by
    have := (abs_le.1 a1).1
    have : 2 * ((c.ndim : ℝ) + 2) * ε * A ≤ 1 / 50 * A := mul_le_mul_of_nonneg_right (by linarith) Ap.le
    have : 1.1 / 10 ^ 8 ≤ G := hv
    norm_num at *
    linarith
  have ex : (frenet1 c).v i j = (firstderiv c).v i j / G := by
    show (firstderiv c).v i j / _ = _
    congr 1
    show (if closeK (rowNorm (firstderiv c) i) 0 then (1 : ℝ) else rowNorm (firstderiv c) i) = G
    rw [closeK_zero_of_lt (lt_of_lt_of_le (by norm_num) hv)]
    rfl
  refine ⟨?_, ex⟩
  have u := (C130_unit hf (a := derivFl fl c 1) (by rw [kk]; exact hn) (by rw [kk]; push_cast; linarith) hz (closeK_zero_of_lt zb)).1 j
  rw [kk, ← hA] at u
  have q := quot_rel e0 (by linarith) (C130_inside hf h1 hi j) sp G0 (by positivity) (by linarith) u
  rw [← ex] at q
  refine q.trans (le_of_eq ?_)
  ring

/-- The mean of two vectors of length 1 is at most 1 long. -/
theorem half_sum_le {k : Nat} {p q : Nat → ℝ} (hp : ∑ j ∈ Finset.range k, p j ^ 2 = 1) (hq : ∑ j ∈ Finset.range k, q j ^ 2 = 1) :
    √ (∑ j ∈ Finset.range k, ((|p j| + |q j|) / 2) ^ 2) ≤ 1 := by
  rw [Real.sqrt_le_left zero_le_one, one_pow]
  have : ∑ j ∈ Finset.range k, ((|p j| + |q j|) / 2) ^ 2 ≤ ∑ j ∈ Finset.range k, (p j ^ 2 / 2 + q j ^ 2 / 2) := by
    refine Finset.sum_le_sum fun j _ => ?_
    have h1 := sq_abs (p j)
    have h2 := sq_abs (q j)
    nlinarith [sq_nonneg (|p j| - |q j|)]
  refine this.trans ?_
  rw [Finset.sum_add_distrib, ← Finset.sum_div, ← Finset.sum_div, hp, hq]
  norm_num

/-- The row of unit tangents is a unit vector. -/
theorem frenet_row_one {i : Nat} (h2 : 2 ≤ c.size) (hv : 0 < rowNorm (firstderiv c) i) (h : ∀ j, (frenet1 c).v i j = (firstderiv c).v i j / rowNorm (firstderiv c) i) :
    ∑ j ∈ Finset.range c.ndim, (frenet1 c).v i j ^ 2 = 1 := by
  simp only [h, div_pow]
  rw [← Finset.sum_div]
  have k : (firstderiv c).k = c.ndim := derivEx_k h2 1
  have : rowNorm (firstderiv c) i ^ 2 = ∑ j ∈ Finset.range c.ndim, (firstderiv c).v i j ^ 2 := by
    unfold rowNorm
    rw [k]
    exact Real.sq_sqrt (Finset.sum_nonneg fun _ _ => sq_nonneg _)
  rw [← this]
  exact div_self (by positivity)

/-- The norm of the gradient of the unit tangents. -/
theorem grad_unit_near (hf : Rounding ε fl) (hn : 0 < c.ndim) (hε : 100 * ((c.ndim + 3 : ℕ) * ε) ≤ 1) {i : Nat} (h1 : 2 ≤ i) (hi : i + 2 < c.size)
    (hl : 1.1 / 10 ^ 8 ≤ rowNorm (firstderiv c) (i - 1)) (hr : 1.1 / 10 ^ 8 ≤ rowNorm (firstderiv c) (i + 1)) {u : NMat} (hu : UnitTo fl (derivFl fl c 1) u) :
    |rowNorm (gradientFl fl u) i - rowNorm (gradient (frenet1 c)) i| ≤ (4 * c.ndim + 24) * ε ∧ rowNorm (gradient (frenet1 c)) i ≤ 1 ∧ (gradientFl fl u).k = c.ndim := by
  have e0 := hf.nonneg
  have h2 : 2 ≤ c.size := by omega
  obtain ⟨z, hz, rfl⟩ := hu
  have m1 : (derivFl fl c 1).m = c.size := derivFl_m 1
  have k1 : (derivFl fl c 1).k = c.ndim := derivFl_k h2 1
  have m2 : (frenet1 c).m = c.size := derivEx_m 1
  have k2 : (frenet1 c).k = c.ndim := derivEx_k h2 1
  have n0 : (0 : ℝ) ≤ (c.ndim : ℝ) := Nat.cast_nonneg _
  push_cast at hε
  have uL := unit_inside hf hn (by push_cast; exact hε) (i := i - 1) (by omega) (by omega) (hz _ (by omega)) hl
  have uR := unit_inside hf hn (by push_cast; exact hε) (i := i + 1) (by omega) (by omega) (hz _ (by omega)) hr
  have sL := frenet_row_one h2 (lt_of_lt_of_le (by norm_num) hl) fun j => (uL j).2
  have sR := frenet_row_one h2 (lt_of_lt_of_le (by norm_num) hr) fun j => (uR j).2
  have W1 := half_sum_le sL sR
  set U : NMat := ⟨(derivFl fl c 1).m, (derivFl fl c 1).k, fun i j => unitFl fl (derivFl fl c 1) (z i) i j⟩ with hU
  have g1 : ∀ j, (gradientFl fl U).v i j = fl (fl (U.v (i + 1) j - U.v (i - 1) j) / 2) := by
    intro j
    unfold gradientFl npGradientFl
    rw [if_pos (show 3 ≤ U.m by show 3 ≤ (derivFl fl c 1).m; omega)]
    simp only
    rw [if_neg (by omega), if_neg (by show ¬ i = (derivFl fl c 1).m - 1; omega)]
  have g2 : ∀ j, (gradient (frenet1 c)).v i j = ((frenet1 c).v (i + 1) j - (frenet1 c).v (i - 1) j) / 2 := by
    intro j
    unfold gradient npGradient
    rw [if_pos (show 3 ≤ (frenet1 c).m by omega)]
    simp only
    rw [if_neg (by omega), if_neg (by omega)]
  have gm : (gradientFl fl U).m = (gradient (frenet1 c)).m := by
    rw [gradient_m, m2]
    unfold gradientFl
    rw [if_pos (show 3 ≤ U.m by show 3 ≤ (derivFl fl c 1).m; omega)]
    exact m1
  have gk' : (gradient (frenet1 c)).k = c.ndim := (gradient_k (by omega)).trans k2
  have gk : (gradientFl fl U).k = c.ndim := by
    unfold gradientFl
    rw [if_pos (show 3 ≤ U.m by show 3 ≤ (derivFl fl c 1).m; omega)]
    exact k1
  set δ := (4 * (c.ndim : ℝ) + 20) * ε with hδ
  have d0 : 0 ≤ δ := by positivity
  have d1 : 10 * δ ≤ 1 := by rw [hδ]; linarith [mul_nonneg n0 e0]
  have entry : ∀ j, |(gradientFl fl U).v i j - (gradient (frenet1 c)).v i j| ≤ (δ + 4 * ε) * |(|(frenet1 c).v (i - 1) j| + |(frenet1 c).v (i + 1) j|) / 2| := by
    intro j
    have a1 : |U.v (i - 1) j - _| ≤ _ := (uL j).1
    have a2 : |U.v (i + 1) j - _| ≤ _ := (uR j).1
    rw [g1, g2]
    have t := two_terms hf (U.v (i + 1) j - U.v (i - 1) j) (q := 2) (by norm_num)
    generalize fl (fl (U.v (i + 1) j - U.v (i - 1) j) / 2) = y at *
    generalize U.v (i + 1) j = x2 at *
    generalize U.v (i - 1) j = x1 at *
    generalize (frenet1 c).v (i + 1) j = y2 at *
    generalize (frenet1 c).v (i - 1) j = y1 at *
    rw [abs_of_nonneg (by positivity : 0 ≤ (|y1| + |y2|) / 2)]
    have b1 : |x1| ≤ (1 + δ) * |y1| := by
      have := abs_add_le (x1 - y1) y1
      rw [sub_add_cancel] at this
      linarith
    have b2 : |x2| ≤ (1 + δ) * |y2| := by
      have := abs_add_le (x2 - y2) y2
      rw [sub_add_cancel] at this
      linarith
    have b3 : |(x2 - x1) / 2| ≤ (1 + δ) * ((|y1| + |y2|) / 2) := by
      rw [abs_div, abs_two]
      have := abs_sub x2 x1
      linarith
    have b4 : |(x2 - x1) / 2 - (y2 - y1) / 2| ≤ δ * ((|y1| + |y2|) / 2) := by
      rw [show (x2 - x1) / 2 - (y2 - y1) / 2 = ((x2 - y2) - (x1 - y1)) / 2 by ring, abs_div, abs_two]
      have := abs_sub (x2 - y2) (x1 - y1)
      linarith
    have t2 := abs_sub_le y ((x2 - x1) / 2) ((y2 - y1) / 2)
    have X0 : 0 ≤ (|y1| + |y2|) / 2 := by positivity
    generalize (|y1| + |y2|) / 2 = X at *
    have t3 := mul_le_mul_of_nonneg_left b3 (by positivity : 0 ≤ 3 * ε)
    have t4 : δ * (3 * ε * X) ≤ 1 / 10 * (3 * ε * X) := mul_le_mul_of_nonneg_right (by linarith) (by positivity)
    have : 0 ≤ ε * X := by positivity
    linarith
  refine ⟨?_, ?_, gk⟩
  · have d := rowNorm_diff gm (gk.trans gk'.symm) (i := i) (by rw [gradient_m, m2]; omega)
    rw [gk'] at d
    have b := sqrt_sum_rel (k := c.ndim) (u := fun j => (gradientFl fl U).v i j - (gradient (frenet1 c)).v i j)
      (w := fun j => (|(frenet1 c).v (i - 1) j| + |(frenet1 c).v (i + 1) j|) / 2) (δ := δ + 4 * ε) (by positivity) (fun j _ => entry j)
    refine d.trans (b.trans ?_)
    have := mul_le_mul_of_nonneg_left W1 (show 0 ≤ δ + 4 * ε by positivity)
    rw [hδ] at this ⊢
    linarith
  · unfold rowNorm
    rw [gk']
    have b := sqrt_sum_rel (k := c.ndim) (u := fun j => (gradient (frenet1 c)).v i j) (w := fun j => (|(frenet1 c).v (i - 1) j| + |(frenet1 c).v (i + 1) j|) / 2) (δ := 1) zero_le_one
      (fun j _ => by
        simp only [g2, one_mul]
        rw [abs_div, abs_two, abs_of_nonneg (by positivity : 0 ≤ (|(frenet1 c).v (i - 1) j| + |(frenet1 c).v (i + 1) j|) / 2)]
        have := abs_sub ((frenet1 c).v (i + 1) j) ((frenet1 c).v (i - 1) j)
        linarith)
    linarith

/-- The last division of the curvature of a space curve. -/
theorem curvN_core (hf : Rounding ε fl) {n g y t v : ℝ} (hn : 0 ≤ n) (hε : 100 * ((n + 3) * ε) ≤ 1) (v0 : 0 < v) (g0 : 0 ≤ g) (g1 : g ≤ 1) (hy : |y - g| ≤ (6.2 * n + 28.4) * ε) (ht : |t - v| ≤ (2.1 * n + 7.2) * ε * v) :
    t ≠ 0 ∧ |fl (y / t) - g / v| ≤ (9 * n + 40) * ε / v := by
  have e0 := hf.nonneg
  have ne : 0 ≤ n * ε := mul_nonneg hn e0
  have t1 : 0.97 * v ≤ t := by
    have h1 := (abs_le.1 ht).1
    have : (2.1 * n + 7.2) * ε * v ≤ 0.03 * v := mul_le_mul_of_nonneg_right (by linarith) v0.le
    linarith
  have t0 : 0 < t := by linarith
  refine ⟨t0.ne', ?_⟩
  have e : y / t - g / v = ((y - g) + g * ((v - t) / v)) / t := by field_simp; ring
  have q : |(v - t) / v| ≤ (2.1 * n + 7.2) * ε := by
    rw [abs_div, abs_of_pos v0, div_le_iff₀ v0, abs_sub_comm]
    exact ht
  have q2 : |g * ((v - t) / v)| ≤ (2.1 * n + 7.2) * ε := by
    rw [abs_mul, abs_of_nonneg g0]
    have := mul_le_mul g1 q (abs_nonneg _) zero_le_one
    linarith
  have d : |y / t - g / v| ≤ (8.3 * n + 35.6) * ε / (0.97 * v) := by
    rw [e, abs_div, abs_of_pos t0]
    refine div_le_div₀ (by positivity) ?_ (by positivity) t1
    have := abs_add_le (y - g) (g * ((v - t) / v))
    linarith
  have d' : |y / t - g / v| ≤ (8.6 * n + 37) * ε / v := by
    refine d.trans ?_
    rw [div_le_div_iff₀ (by positivity) v0]
    have : (8.3 * n + 35.6) * ε ≤ (8.6 * n + 37) * ε * 0.97 := by linarith
    have := mul_le_mul_of_nonneg_right this v0.le
    linarith
  have m : |y / t| ≤ 1.2 / v := by
    have h1 := abs_add_le (y / t - g / v) (g / v)
    rw [sub_add_cancel, abs_of_nonneg (div_nonneg g0 v0.le)] at h1
    have h2 : g / v ≤ 1 / v := div_le_div_of_nonneg_right g1 v0.le
    have h3 : (8.6 * n + 37) * ε / v ≤ 0.2 / v := div_le_div_of_nonneg_right (by linarith) v0.le
    have : 1 / v + 0.2 / v = 1.2 / v := by rw [← add_div]; norm_num
    linarith
  have r := (hf.rel (y / t)).trans (mul_le_mul_of_nonneg_left m e0)
  have tot := abs_sub_le (fl (y / t)) (y / t) (g / v)
  have : ε * (1.2 / v) + (8.6 * n + 37) * ε / v ≤ (9 * n + 40) * ε / v := by
    rw [mul_div_assoc', ← add_div]
    exact div_le_div_of_nonneg_right (by linarith) v0.le
  linarith

/-- **C158 (space curves).** In `n` dimensions other than 2 the curvature at the points at least two steps away from the ends is computed from two unit tangents: if the speed of the
neighbours is above `1.1e-8`, its error is at most `(9 n + 40) ε / v`, whatever the size of the coordinates. -/
theorem C158_space (hf : Rounding ε fl) (hn : 0 < c.ndim) (hε : 100 * ((c.ndim + 3 : ℕ) * ε) ≤ 1) {i : Nat} (h1 : 2 ≤ i) (hi : i + 2 < c.size) {v : ℝ} (hv : v = rowNorm (firstderiv c) i)
    (v0 : 0 < v) (hl : 1.1 / 10 ^ 8 ≤ rowNorm (firstderiv c) (i - 1)) (hr : 1.1 / 10 ^ 8 ≤ rowNorm (firstderiv c) (i + 1)) {x : Val ℝ} (hx : CurvNTo fl c i x) :
    ∃ k k', x = .fin k ∧ curvatureN c i = .fin k' ∧ |k - k'| ≤ (9 * c.ndim + 40) * ε / v := by
  have e0 := hf.nonneg
  have h2 : 2 ≤ c.size := by omega
  obtain ⟨u, y, t, hu, hy, ht, rfl⟩ := hx
  obtain ⟨ng, g1, gk⟩ := grad_unit_near hf hn hε h1 hi hl hr hu
  have sp := speed_inside hf h2 (i := i) (by omega) (by omega)
  have n0 : (0 : ℝ) ≤ (c.ndim : ℝ) := Nat.cast_nonneg _
  push_cast at hε
  have ne : 0 ≤ (c.ndim : ℝ) * ε := mul_nonneg n0 e0
  have k1 : (derivFl fl c 1).k = c.ndim := derivFl_k h2 1
  have ry := rel_simple hf (rowNormTo_rel hf (by rw [gk]; exact hn) hy) (Real.sqrt_nonneg _) (by rw [gk]; push_cast; linarith)
  have rt := rel_simple hf (rowNormTo_rel hf (by rw [k1]; exact hn) ht) (Real.sqrt_nonneg _) (by rw [k1]; push_cast; linarith)
  rw [gk] at ry
  rw [k1] at rt
  push_cast at ry rt
  rw [← hv] at sp
  have g0 : 0 ≤ rowNorm (gradient (frenet1 c)) i := Real.sqrt_nonneg _
  have ex : curvatureN c i = .fin (rowNorm (gradient (frenet1 c)) i / v) := by
    unfold curvatureN
    rw [← hv, Val.div_fin v0.ne']
  have yb : |y - rowNorm (gradient (frenet1 c)) i| ≤ (6.2 * c.ndim + 28.4) * ε := by
    have a := abs_sub_le y (rowNorm (gradientFl fl u) i) (rowNorm (gradient (frenet1 c)) i)
    have b : rowNorm (gradientFl fl u) i ≤ 1.1 := by have := (abs_le.1 ng).2; linarith
    have := mul_le_mul_of_nonneg_left b (show 0 ≤ 2 * ((c.ndim : ℝ) + 2) * ε by positivity)
    linarith
  have tb : |t - v| ≤ (2.1 * c.ndim + 7.2) * ε * v := by
    have a := abs_sub_le t (rowNorm (derivFl fl c 1) i) v
    have ev : 3 * ε * v ≤ 0.01 * v := mul_le_mul_of_nonneg_right (by linarith) v0.le
    have b : rowNorm (derivFl fl c 1) i ≤ 1.01 * v := by have := (abs_le.1 sp).2; linarith
    have := mul_le_mul_of_nonneg_left b (show 0 ≤ 2 * ((c.ndim : ℝ) + 2) * ε by positivity)
    have : 0 ≤ (c.ndim : ℝ) * ε * v := by positivity
    have : 0 ≤ ε * v := by positivity
    linarith
  obtain ⟨t0, d⟩ := curvN_core hf n0 hε v0 g0 g1 yb tb
  exact ⟨_, _, quotFl_fin fl t0, ex, d⟩

end

/-- Every curve has some computed value at every point. -/
theorem curv2_exists (fl : ℝ → ℝ) {η : ℝ} (h0 : 0 ≤ η) (hnn : ∀ x, 0 ≤ x → 0 ≤ fl x) (c : Curve ℝ) (i : Nat) : ∃ x, Curv2To fl η c i x := by
  let q := fl (fl ((derivFl fl c 1).v i 0 * (derivFl fl c 1).v i 0) + fl ((derivFl fl c 1).v i 1 * (derivFl fl c 1).v i 1))
  refine ⟨_, q * √ q, ?_, rfl⟩
  rw [sub_self, abs_zero]
  have : 0 ≤ q := hnn _ (add_nonneg (hnn _ (mul_self_nonneg ((derivFl fl c 1).v i 0))) (hnn _ (mul_self_nonneg ((derivFl fl c 1).v i 1))))
  positivity

/-- Points of a straight line, binary64 numbers next to 1. -/
noncomputable def nearLine : Curve ℝ := ⟨[[1 + 2⁻¹ ^ 52, 0], [1 + 2 * 2⁻¹ ^ 52, 2⁻¹ ^ 52], [1 + 3 * 2⁻¹ ^ 52, 2 * 2⁻¹ ^ 52]], 2, none, .float⟩

theorem nearLine_exact : curvature2 nearLine 1 = .fin 0 := by
  have f0 : (firstderiv nearLine).v 1 0 = 2⁻¹ ^ 52 := by
    simp [firstderiv, gradient, npGradient, Curve.mat, nearLine]
    norm_num
  have f1 : (firstderiv nearLine).v 1 1 = 2⁻¹ ^ 52 := by
    simp [firstderiv, gradient, npGradient, Curve.mat, nearLine]
  have s0 : (secondderiv nearLine).v 1 0 = 0 := by
    simp [secondderiv, firstderiv, gradient, npGradient, Curve.mat, nearLine]
    norm_num
  have s1 : (secondderiv nearLine).v 1 1 = 0 := by
    simp [secondderiv, firstderiv, gradient, npGradient, Curve.mat, nearLine]
    norm_num
  unfold curvature2
  simp only [f0, f1, s0, s1]
  rw [Val.div_fin (by positivity)]
  simp

theorem nearLine_d1 : (derivFl rnd nearLine 1).v 0 0 = 2⁻¹ ^ 53 ∧ (derivFl rnd nearLine 1).v 1 0 = 2⁻¹ ^ 52 ∧ (derivFl rnd nearLine 1).v 2 0 = 0 ∧
    (derivFl rnd nearLine 1).v 0 1 = 2⁻¹ ^ 52 ∧ (derivFl rnd nearLine 1).v 1 1 = 2⁻¹ ^ 52 ∧ (derivFl rnd nearLine 1).v 2 1 = 2⁻¹ ^ 52 := by
  have rep : ∀ (m k : ℤ) (x : ℝ), |m| ≤ 2 ^ 53 → x = m * 2 ^ k → rnd x = x := by
    intro m k x h e
    rw [e]
    exact rnd_rep m k h
  refine ⟨?_, ?_, ?_, ?_, ?_, ?_⟩
  · have q1 : rnd (-1.5 * (1 + 2⁻¹ ^ 52)) = -(3 / 2 + 2⁻¹ ^ 51) := by
      rw [show (-1.5 : ℝ) * (1 + 2⁻¹ ^ 52) = -(1.5 * (1 + 2⁻¹ ^ 52)) by ring, rnd_neg,
        rnd_value 0 (3 * 2 ^ 51 + 2) (by norm_num) (by norm_num) (.inr ⟨by norm_num [zpow_neg, abs_of_neg], ⟨3 * 2 ^ 50 + 1, by norm_num⟩⟩)]
      norm_num [zpow_neg]
    have q2 : rnd (2 * (1 + 2 * 2⁻¹ ^ 52)) = 2 * (1 + 2 * 2⁻¹ ^ 52) := rep (2 ^ 52 + 2) (-51) _ (by norm_num) (by norm_num [zpow_neg])
    have q3 : rnd (-0.5 * (1 + 3 * 2⁻¹ ^ 52)) = -0.5 * (1 + 3 * 2⁻¹ ^ 52) := rep (-(2 ^ 52 + 3)) (-53) _ (by norm_num) (by norm_num [zpow_neg])
    have q4 : rnd (-(3 / 2 + 2⁻¹ ^ 51) + 2 * (1 + 2 * 2⁻¹ ^ 52)) = -(3 / 2 + 2⁻¹ ^ 51) + 2 * (1 + 2 * 2⁻¹ ^ 52) :=
      rep (2 ^ 50 + 1) (-51) _ (by norm_num) (by norm_num [zpow_neg])
    have e : (derivFl rnd nearLine 1).v 0 0 = rnd (rnd (rnd (-1.5 * (1 + 2⁻¹ ^ 52)) + rnd (2 * (1 + 2 * 2⁻¹ ^ 52))) + rnd (-0.5 * (1 + 3 * 2⁻¹ ^ 52))) := rfl
    rw [e, q1, q2, q3, q4, rep 1 (-53) _ (by norm_num) (by norm_num [zpow_neg])]
    norm_num
  · have e : (derivFl rnd nearLine 1).v 1 0 = rnd (rnd (1 + 3 * 2⁻¹ ^ 52 - (1 + 2⁻¹ ^ 52)) / 2) := rfl
    rw [e, rep 1 (-51) (1 + 3 * 2⁻¹ ^ 52 - (1 + 2⁻¹ ^ 52)) (by norm_num) (by norm_num [zpow_neg]), rep 1 (-52) _ (by norm_num) (by norm_num [zpow_neg])]
    norm_num
  · have q1 : rnd (0.5 * (1 + 2⁻¹ ^ 52)) = 0.5 * (1 + 2⁻¹ ^ 52) := rep (2 ^ 52 + 1) (-53) _ (by norm_num) (by norm_num [zpow_neg])
    have q2 : rnd (-2 * (1 + 2 * 2⁻¹ ^ 52)) = -2 * (1 + 2 * 2⁻¹ ^ 52) := rep (-(2 ^ 52 + 2)) (-51) _ (by norm_num) (by norm_num [zpow_neg])
    have q3 : rnd (1.5 * (1 + 3 * 2⁻¹ ^ 52)) = 3 / 2 + 4 * 2⁻¹ ^ 52 := by
      rw [rnd_value 0 (3 * 2 ^ 51 + 4) (by norm_num) (by norm_num) (.inr ⟨by norm_num [zpow_neg, abs_of_pos], ⟨3 * 2 ^ 50 + 2, by norm_num⟩⟩)]
      norm_num [zpow_neg]
    have q4 : rnd (0.5 * (1 + 2⁻¹ ^ 52) + -2 * (1 + 2 * 2⁻¹ ^ 52)) = -(3 / 2 + 4 * 2⁻¹ ^ 52) := by
      rw [show (0.5 : ℝ) * (1 + 2⁻¹ ^ 52) + -2 * (1 + 2 * 2⁻¹ ^ 52) = -(3 / 2 + 3.5 * 2⁻¹ ^ 52) by ring, rnd_neg,
        rnd_value 0 (3 * 2 ^ 51 + 4) (by norm_num) (by norm_num) (.inr ⟨by norm_num [zpow_neg, abs_of_neg], ⟨3 * 2 ^ 50 + 2, by norm_num⟩⟩)]
      norm_num [zpow_neg]
    have e : (derivFl rnd nearLine 1).v 2 0 = rnd (rnd (rnd (0.5 * (1 + 2⁻¹ ^ 52)) + rnd (-2 * (1 + 2 * 2⁻¹ ^ 52))) + rnd (1.5 * (1 + 3 * 2⁻¹ ^ 52))) := rfl
    rw [e, q1, q2, q3, q4, neg_add_cancel, rnd_zero]
  · have e : (derivFl rnd nearLine 1).v 0 1 = rnd (rnd (rnd (-1.5 * 0) + rnd (2 * 2⁻¹ ^ 52)) + rnd (-0.5 * (2 * 2⁻¹ ^ 52))) := rfl
    rw [e, mul_zero, rnd_zero, rep 1 (-51) (2 * 2⁻¹ ^ 52) (by norm_num) (by norm_num [zpow_neg]), rep (-1) (-52) (-0.5 * (2 * 2⁻¹ ^ 52)) (by norm_num) (by norm_num [zpow_neg]),
      rep 1 (-51) (0 + 2 * 2⁻¹ ^ 52) (by norm_num) (by norm_num [zpow_neg]), rep 1 (-52) _ (by norm_num) (by norm_num [zpow_neg])]
    norm_num
  · have e : (derivFl rnd nearLine 1).v 1 1 = rnd (rnd (2 * 2⁻¹ ^ 52 - 0) / 2) := rfl
    rw [e, rep 1 (-51) (2 * 2⁻¹ ^ 52 - 0) (by norm_num) (by norm_num [zpow_neg]), rep 1 (-52) _ (by norm_num) (by norm_num [zpow_neg])]
    norm_num
  · have e : (derivFl rnd nearLine 1).v 2 1 = rnd (rnd (rnd (0.5 * 0) + rnd (-2 * 2⁻¹ ^ 52)) + rnd (1.5 * (2 * 2⁻¹ ^ 52))) := rfl
    rw [e, mul_zero, rnd_zero, rep (-1) (-51) (-2 * 2⁻¹ ^ 52) (by norm_num) (by norm_num [zpow_neg]), rep 3 (-52) (1.5 * (2 * 2⁻¹ ^ 52)) (by norm_num) (by norm_num [zpow_neg]),
      rep (-1) (-51) (0 + -2 * 2⁻¹ ^ 52) (by norm_num) (by norm_num [zpow_neg]), rep 1 (-52) _ (by norm_num) (by norm_num [zpow_neg])]
    norm_num

theorem nearLine_d2 : (derivFl rnd nearLine 2).v 1 0 = -2⁻¹ ^ 54 ∧ (derivFl rnd nearLine 2).v 1 1 = 0 := by
  obtain ⟨a0, -, a2, b0, -, b2⟩ := nearLine_d1
  have e0 : (derivFl rnd nearLine 2).v 1 0 = rnd (rnd ((derivFl rnd nearLine 1).v 2 0 - (derivFl rnd nearLine 1).v 0 0) / 2) := rfl
  have e1 : (derivFl rnd nearLine 2).v 1 1 = rnd (rnd ((derivFl rnd nearLine 1).v 2 1 - (derivFl rnd nearLine 1).v 0 1) / 2) := rfl
  have r1 : rnd (-2⁻¹ ^ 53) = -2⁻¹ ^ 53 := by
    have := rnd_rep (-1) (-53) (by norm_num)
    norm_num [zpow_neg] at this ⊢
    exact this
  have r2 : rnd (-2⁻¹ ^ 54) = -2⁻¹ ^ 54 := by
    have := rnd_rep (-1) (-54) (by norm_num)
    norm_num [zpow_neg] at this ⊢
    exact this
  constructor
  · rw [e0, a0, a2, zero_sub, r1, show (-2⁻¹ ^ 53 : ℝ) / 2 = -2⁻¹ ^ 54 by norm_num, r2]
  · rw [e1, b0, b2, sub_self, rnd_zero, zero_div, rnd_zero]

/-- **C158 fails for close points.** Three points of a straight line, binary64 numbers whose distances are a few units in the last place of their coordinates: the exact curvature in the
middle is 0, the computed one is above `10^14`, however the power is rounded. -/
theorem C158_line_fails : (∀ i j, i < 3 → j < 2 → rnd (at2 nearLine.rows i j) = at2 nearLine.rows i j) ∧ curvature2 nearLine 1 = .fin 0 ∧
    ∀ η x, 0 ≤ η → 100 * η ≤ 1 → Curv2To rnd η nearLine 1 x → ∃ k, x = .fin k ∧ 10 ^ 14 < k := by
  refine ⟨?_, nearLine_exact, ?_⟩
  · intro i j hi hj
    have rep : ∀ (m k : ℤ) (x : ℝ), |m| ≤ 2 ^ 53 → x = m * 2 ^ k → rnd x = x := by
      intro m k x h e
      rw [e]
      exact rnd_rep m k h
    have : i = 0 ∨ i = 1 ∨ i = 2 := by omega
    have : j = 0 ∨ j = 1 := by omega
    rcases ‹i = 0 ∨ _› with rfl | rfl | rfl <;> rcases ‹j = 0 ∨ _› with rfl | rfl
    · exact rep (2 ^ 52 + 1) (-52) (1 + 2⁻¹ ^ 52) (by norm_num) (by norm_num [zpow_neg])
    · exact rnd_zero
    · exact rep (2 ^ 52 + 2) (-52) (1 + 2 * 2⁻¹ ^ 52) (by norm_num) (by norm_num [zpow_neg])
    · exact rep 1 (-52) (2⁻¹ ^ 52) (by norm_num) (by norm_num [zpow_neg])
    · exact rep (2 ^ 52 + 3) (-52) (1 + 3 * 2⁻¹ ^ 52) (by norm_num) (by norm_num [zpow_neg])
    · exact rep 1 (-51) (2 * 2⁻¹ ^ 52) (by norm_num) (by norm_num [zpow_neg])
  · rintro η x h0 hη ⟨w, hw, rfl⟩
    obtain ⟨-, a1, -, -, b1, -⟩ := nearLine_d1
    obtain ⟨s0, s1⟩ := nearLine_d2
    rw [a1, b1] at hw
    rw [a1, b1, s0, s1]
    have rep : ∀ (m k : ℤ) (x : ℝ), |m| ≤ 2 ^ 53 → x = m * 2 ^ k → rnd x = x := by
      intro m k x h e
      rw [e]
      exact rnd_rep m k h
    have r1 : rnd (2⁻¹ ^ 52 * 2⁻¹ ^ 52 : ℝ) = 2⁻¹ ^ 104 := by rw [rep 1 (-104) _ (by norm_num) (by norm_num [zpow_neg])]; norm_num
    have r2 : rnd (2⁻¹ ^ 104 + 2⁻¹ ^ 104 : ℝ) = 2⁻¹ ^ 103 := by rw [rep 1 (-103) _ (by norm_num) (by norm_num [zpow_neg])]; norm_num
    have r3 : rnd (-2⁻¹ ^ 54 * 2⁻¹ ^ 52 : ℝ) = -2⁻¹ ^ 106 := by rw [rep (-1) (-106) _ (by norm_num) (by norm_num [zpow_neg])]; norm_num
    have r4 : rnd (0 - -2⁻¹ ^ 106 : ℝ) = 2⁻¹ ^ 106 := by rw [rep 1 (-106) _ (by norm_num) (by norm_num [zpow_neg])]; norm_num
    rw [r1, r2] at hw
    rw [zero_mul, rnd_zero, r3, r4]
    have hs1 : √ (2⁻¹ ^ 103 : ℝ) ≤ 2⁻¹ ^ 51 := by
      rw [Real.sqrt_le_left (by positivity)]
      norm_num
    have hs0 : 0 < √ (2⁻¹ ^ 103 : ℝ) := Real.sqrt_pos.2 (by positivity)
    set q := √ (2⁻¹ ^ 103 : ℝ)
    have p0 : 0 < 2⁻¹ ^ 103 * q := by positivity
    obtain ⟨l1, l2⟩ := abs_le.1 hw
    have hq : η * (2⁻¹ ^ 103 * q) ≤ 1 / 100 * (2⁻¹ ^ 103 * q) := mul_le_mul_of_nonneg_right (by linarith) p0.le
    have w0 : 0 < w := by linarith
    have w1 : w ≤ 2 * 2⁻¹ ^ 154 := by
      have : (2⁻¹ ^ 103 : ℝ) * q ≤ 2⁻¹ ^ 103 * 2⁻¹ ^ 51 := mul_le_mul_of_nonneg_left hs1 (by positivity)
      rw [← pow_add] at this
      norm_num at this hq l2 ⊢
      linarith
    refine ⟨_, quotFl_fin rnd w0.ne', ?_⟩
    have big : (2 : ℝ) ^ 47 ≤ 2⁻¹ ^ 106 / w := by
      rw [le_div_iff₀ w0]
      refine (mul_le_mul_of_nonneg_left w1 (by positivity)).trans ?_
      norm_num
    have := (rnd_rounding).mono big
    have r5 : rnd ((2 : ℝ) ^ 47) = 2 ^ 47 := by rw [rep 1 47 _ (by norm_num) (by norm_num)]
    rw [r5] at this
    norm_num at this ⊢
    linarith

/-- Three points of a parabola in binary64 with a power accurate to `2^-50`: the computed curvature in the middle is right to 12 digits. -/
example {x : Val ℝ} (hx : Curv2To rnd (2⁻¹ ^ 50) exParab 1 x) : ∃ k k', x = .fin k ∧ curvature2 exParab 1 = .fin k' ∧ |k - k'| ≤ 1 / 10 ^ 12 := by
  have f0 : (firstderiv exParab).v 1 0 = 1 := by simp [firstderiv, gradient, npGradient, Curve.mat, exParab]
  have f1 : (firstderiv exParab).v 1 1 = 2 := by simp [firstderiv, gradient, npGradient, Curve.mat, exParab]; norm_num
  obtain ⟨k, k', h1, h2, h3⟩ := C158_inside rnd_rounding (by norm_num) (by positivity) (by norm_num) (c := exParab) rfl (B := 4) (i := 1) (v := √ 5) (by
      intro i j hi hj
      have hi' : i < 3 := hi
      have : i = 0 ∨ i = 1 ∨ i = 2 := by omega
      have : j = 0 ∨ j = 1 := by omega
      rcases ‹i = 0 ∨ _› with rfl | rfl | rfl <;> rcases ‹j = 0 ∨ _› with rfl | rfl <;> norm_num [exParab, at2])
    (by norm_num) (show 2 < 3 by norm_num) (by rw [f0, f1]; norm_num) (by positivity) hx
  refine ⟨k, k', h1, h2, h3.trans ?_⟩
  rw [Real.sq_sqrt (by norm_num)]
  norm_num

example : ∃ x, Curv2To rnd (2⁻¹ ^ 50) exParab 1 x := curv2_exists rnd (by positivity) (fun x hx => by have := rnd_rounding.mono hx; rwa [rnd_zero] at this) _ _

/-- The same curve in three dimensions. -/
noncomputable def exParab3 : Curve ℝ := ⟨[[0, 0, 0], [1, 1, 0], [2, 4, 0], [3, 9, 0], [4, 16, 0]], 3, none, .float⟩

example {x : Val ℝ} (hx : CurvNTo rnd exParab3 2 x) : ∃ k k', x = .fin k ∧ curvatureN exParab3 2 = .fin k' ∧ |k - k'| ≤ 1 / 10 ^ 14 := by
  have row : ∀ i, 1 ≤ i → i < 4 → 1 ≤ rowNorm (firstderiv exParab3) i := by
    intro i h1 h2
    have k : (firstderiv exParab3).k = 3 := rfl
    have f0 : (firstderiv exParab3).v i 0 = 1 := by
      have : i = 1 ∨ i = 2 ∨ i = 3 := by omega
      rcases this with rfl | rfl | rfl <;> simp [firstderiv, gradient, npGradient, Curve.mat, exParab3] <;> norm_num
    unfold rowNorm
    rw [k, Finset.sum_range_succ, Finset.sum_range_succ, Finset.sum_range_one, f0]
    refine Real.le_sqrt_of_sq_le ?_
    nlinarith [sq_nonneg ((firstderiv exParab3).v i 1), sq_nonneg ((firstderiv exParab3).v i 2)]
  have r2 := row 2 (by norm_num) (by norm_num)
  obtain ⟨k, k', h1, h2, h3⟩ := C158_space rnd_rounding (c := exParab3) (show 0 < 3 by norm_num) (show 100 * (((3 + 3 : ℕ) : ℝ) * 2⁻¹ ^ 53) ≤ 1 by norm_num) (i := 2) le_rfl
    (show 4 < 5 by norm_num) rfl (by linarith) (le_trans (by norm_num) (row 1 (by norm_num) (by norm_num))) (le_trans (by norm_num) (row 3 (by norm_num) (by norm_num))) hx
  refine ⟨k, k', h1, h2, h3.trans ?_⟩
  rw [div_le_iff₀ (by linarith)]
  have : (exParab3.ndim : ℝ) = 3 := rfl
  rw [this]
  norm_num at *
  linarith

/-- At the first point of the parabola. -/
example {x : Val ℝ} (hx : Curv2To rnd (2⁻¹ ^ 50) exParab 0 x) : ∃ k k', x = .fin k ∧ curvature2 exParab 0 = .fin k' ∧ |k - k'| ≤ 1 / 10 ^ 10 := by
  have f0 : (firstderiv exParab).v 0 0 = 1 := by simp [firstderiv, gradient, npGradient, Curve.mat, exParab]; norm_num
  have f1 : (firstderiv exParab).v 0 1 = 0 := by simp [firstderiv, gradient, npGradient, Curve.mat, exParab]; norm_num
  obtain ⟨k, k', h1, h2, h3⟩ := C158_plane rnd_rounding (by norm_num) (by positivity) (by norm_num) (c := exParab) (show 2 ≤ 3 by norm_num) rfl (B := 4) (i := 0) (v := 1) (by
      intro i j hi hj
      have hi' : i < 3 := hi
      have : i = 0 ∨ i = 1 ∨ i = 2 := by omega
      have : j = 0 ∨ j = 1 := by omega
      rcases ‹i = 0 ∨ _› with rfl | rfl | rfl <;> rcases ‹j = 0 ∨ _› with rfl | rfl <;> norm_num [exParab, at2])
    (show 0 < 3 by norm_num) (by rw [f0, f1]; norm_num) one_pos (by norm_num) hx
  refine ⟨k, k', h1, h2, h3.trans ?_⟩
  norm_num

/-- A unit circle with step 1/1000 in binary64, the sines and cosines known to 15 digits: every computed curvature is 1 up to 0.04, those at the ends included. -/
example {m : Nat} (hm : 3 ≤ m) {c' : Curve ℝ} (hs : c'.size = m) (hd : c'.ndim = 2) (hδ : ∀ i j, i < m → j < 2 → |at2 c'.rows i j - at2 (exArc 0 m (1 / 1000)).rows i j| ≤ 1 / 10 ^ 15)
    (hB : ∀ i j, i < m → j < 2 → |at2 c'.rows i j| ≤ 2) {i : Nat} (hi : i < m) {x : Val ℝ} (hx : Curv2To rnd (2⁻¹ ^ 50) c' i x) : ∃ k, x = .fin k ∧ |k - 1| ≤ 0.04 := by
  have sz := exArc_size 0 m (1 / 1000)
  obtain ⟨k, hk, hb⟩ := C158_sampled rnd_rounding (by norm_num) (by positivity) (by norm_num) (exArc_WF 0 m (1 / 1000)) (by rw [sz]; exact hm)
    (exArc_sampled 0 m (h := 1 / 1000) (by norm_num)) (circ_deriv _ _ _ _) (circ_deriv _ _ _ _) (circ_lip 0 _ _) zero_le_one (c' := c') (by rw [sz]; exact hs) hd
    (by rw [sz]; exact hδ) (by rw [sz]; exact hB) (by rw [sz]; exact hi) (by norm_num) rfl rfl
    (by rw [← norm_pos_iff, circ_norm1]; exact one_pos) (by rw [circ_norm1]; norm_num) hx
  refine ⟨k, hk, ?_⟩
  rw [circ_curv, circ_norm1, circ_norm2] at hb
  refine hb.trans ?_
  norm_num

example {r : Except PyErr (List (Val ℝ))} (hr : CurvatureTo rnd (2⁻¹ ^ 50) exParab r) : ∃ ks, r = .ok ks ∧ ks.length = 3 := by
  obtain ⟨ks, h1, h2, -⟩ := C158_values (show 2 ≤ exParab.size from by decide) hr
  exact ⟨ks, h1, h2⟩

end Verif.Props
