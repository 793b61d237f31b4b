import Verif.Props.ArcLen
import Verif.Props.CurveSeg
import Verif.Lemmas.DiffGeom
import Mathlib.Algebra.Polynomial.Derivative
import Mathlib.Algebra.Polynomial.Eval.Degree

/-!
Numerical differential geometry: C54 (derivatives), C55 (Frenet vectors), C56 (curvature and torsion of flat
curves), C58 (access through curve points).
-/
namespace Verif.Props

open Verif Verif.Np Verif.Model Verif.Spec

/-! ## C54 -/

/-- The three derivatives as lists of rows. -/
noncomputable def derivRows (c : Curve ℝ) : Fin 3 → List (List ℝ)
  | 0 => (firstderiv c).rows
  | 1 => (secondderiv c).rows
  | 2 => (thirdderiv c).rows

theorem rows_rect (a : NMat) : ∀ r ∈ a.rows, r.length = a.k := by
  intro r hr
  simp only [NMat.rows, List.mem_map] at hr
  obtain ⟨i, -, rfl⟩ := hr
  simp

/-- **C54 (shape, partial).** A curve of at least two points has in each derivative one vector of dimension `ndim`
per point. Missing: single points and empty curves, see `C54_single_point_fails`. -/
theorem C54_shape_partial {c : Curve ℝ} (h2 : 2 ≤ c.size) (d : Fin 3) :
    (derivRows c d).length = c.size ∧ ∀ r ∈ derivRows c d, r.length = c.ndim := by
  obtain ⟨m1, m2, m3, -⟩ := shapes_m c
  obtain ⟨k2, k3, -⟩ := shapes_k c (by omega)
  have k1 : (firstderiv c).k = c.ndim := firstderiv_k h2
  match d with
  | 0 => exact ⟨(NMat.rows_length _).trans m1, fun r hr => (rows_rect _ r hr).trans k1⟩
  | 1 => exact ⟨(NMat.rows_length _).trans m2, fun r hr => (rows_rect _ r hr).trans (k2.trans k1)⟩
  | 2 => exact ⟨(NMat.rows_length _).trans m3, fun r hr => (rows_rect _ r hr).trans (k3.trans k1)⟩

/-- **C54 (violated for single points).** The derivatives of a single point are one vector of dimension 1, of no
points 1-dimensional empty arrays, whatever the dimension of the curve. -/
theorem C54_single_point_fails {c : Curve ℝ} (h : c.size = 1) (d : Fin 3) : derivRows c d = [[0]] := by
  have key : ∀ a : NMat, a.m = 1 → (gradient a).rows = [[0]] := by
    intro a ha
    unfold gradient
    rw [if_neg (by omega), if_neg (by omega), ha]
    rfl
  obtain ⟨m1, m2, -⟩ := shapes_m c
  match d with
  | 0 => exact key _ h
  | 1 => exact key _ (m1.trans h)
  | 2 => exact key _ (m2.trans h)

theorem gradient_at2 {a : NMat} {i j : Nat} (h2 : 2 ≤ a.m) (hi : i < a.m) :
    at2 (gradient a).rows i j = grad1 a.m (fun i => at2 a.rows i j) i := by
  have hi' : i < (gradient a).m := by rw [gradient_m]; exact hi
  by_cases hj : j < a.k
  · rw [at2_lt _ hi' (by rw [gradient_k h2]; exact hj), gradient_v]
    exact grad1_congr (fun l hl => (at2_lt a hl hj).symm) hi
  · rw [at2_ge _ hi' (by rw [gradient_k h2]; exact hj)]
    rw [grad1_congr (g := fun _ => 0) (fun l hl => at2_ge a hl hj) hi, grad1_const]

theorem mat_at2 {c : Curve ℝ} (hc : WF c) {i j : Nat} (hi : i < c.size) : at2 c.mat.rows i j = at2 c.rows i j := by
  by_cases hj : j < c.ncols
  · exact at2_lt c.mat hi hj
  · rw [at2_ge c.mat hi hj]
    have hg : c.rows.getD i [] = c.rows[i]'hi := by
      rw [List.getD_eq_getElem?_getD, List.getElem?_eq_getElem hi, Option.getD_some]
    have : (c.rows[i]'hi).length = c.ncols := hc.rect _ (List.getElem_mem hi)
    unfold at2
    rw [hg, List.getD_eq_getElem?_getD, List.getElem?_eq_none (by omega)]
    rfl

/-- The first derivative entry by entry. -/
theorem firstderiv_at2 {c : Curve ℝ} (hc : WF c) (h2 : 2 ≤ c.size) {i : Nat} (j : Nat) (hi : i < c.size) :
    at2 (firstderiv c).rows i j = grad1 c.size (fun i => at2 c.rows i j) i := by
  unfold firstderiv
  rw [gradient_at2 (show 2 ≤ c.mat.m from h2) (show i < c.mat.m from hi)]
  exact grad1_congr (fun l hl => mat_at2 hc hl) hi

theorem secondderiv_at2 {c : Curve ℝ} (h2 : 2 ≤ c.size) {i : Nat} (j : Nat) (hi : i < c.size) :
    at2 (secondderiv c).rows i j = grad1 c.size (fun i => at2 (firstderiv c).rows i j) i := by
  have hm : (firstderiv c).m = c.size := (shapes_m c).1
  unfold secondderiv
  rw [gradient_at2 (by rw [hm]; exact h2) (by rw [hm]; exact hi), hm]

theorem thirdderiv_at2 {c : Curve ℝ} (h2 : 2 ≤ c.size) {i : Nat} (j : Nat) (hi : i < c.size) :
    at2 (thirdderiv c).rows i j = grad1 c.size (fun i => at2 (secondderiv c).rows i j) i := by
  have hm : (secondderiv c).m = c.size := (shapes_m c).2.1
  unfold thirdderiv
  rw [gradient_at2 (by rw [hm]; exact h2) (by rw [hm]; exact hi), hm]

/-- **C54 (linear).** If a coordinate of `c` is a linear combination of that of `a` and `b`, with fixed coefficients, so
are the derivatives of all three orders. -/
theorem C54_linear {a b c : Curve ℝ} (ha : WF a) (hb : WF b) (hc : WF c) (hsa : a.size = c.size)
    (hsb : b.size = c.size) (x y : ℝ) {j : Nat}
    (h : ∀ i, i < c.size → at2 c.rows i j = x * at2 a.rows i j + y * at2 b.rows i j) (d : Fin 3) {i : Nat}
    (hi : i < c.size) :
    at2 (derivRows c d) i j = x * at2 (derivRows a d) i j + y * at2 (derivRows b d) i j := by
  by_cases h2 : 2 ≤ c.size
  · have h1 : ∀ i, i < c.size → at2 (firstderiv c).rows i j
        = x * at2 (firstderiv a).rows i j + y * at2 (firstderiv b).rows i j := by
      intro i hi
      rw [firstderiv_at2 hc h2 j hi, firstderiv_at2 ha (by omega) j (by omega),
        firstderiv_at2 hb (by omega) j (by omega), hsa, hsb, ← grad1_lin]
      exact grad1_congr (fun l hl => h l hl) hi
    have h2' : ∀ i, i < c.size → at2 (secondderiv c).rows i j
        = x * at2 (secondderiv a).rows i j + y * at2 (secondderiv b).rows i j := by
      intro i hi
      rw [secondderiv_at2 h2 j hi, secondderiv_at2 (by omega) j (by omega),
        secondderiv_at2 (by omega) j (by omega), hsa, hsb, ← grad1_lin]
      exact grad1_congr (fun l hl => h1 l hl) hi
    match d with
    | 0 => exact h1 i hi
    | 1 => exact h2' i hi
    | 2 =>
      show at2 (thirdderiv c).rows i j = x * at2 (thirdderiv a).rows i j + y * at2 (thirdderiv b).rows i j
      rw [thirdderiv_at2 h2 j hi, thirdderiv_at2 (by omega) j (by omega),
        thirdderiv_at2 (by omega) j (by omega), hsa, hsb, ← grad1_lin]
      exact grad1_congr (fun l hl => h2' l hl) hi
  · have h1 : c.size = 1 := by omega
    rw [C54_single_point_fails h1, C54_single_point_fails (hsa.trans h1), C54_single_point_fails (hsb.trans h1)]
    have : i = 0 := by omega
    subst this
    cases j <;> simp [at2]

/-- **C54 (translation invariant).** -/
theorem C54_translation {a c : Curve ℝ} (ha : WF a) (hc : WF c) (hs : a.size = c.size) (hn : a.ndim = c.ndim)
    (w : Nat → ℝ) (h : ∀ i j, i < c.size → j < c.ndim → at2 c.rows i j = at2 a.rows i j + w j) :
    (firstderiv c).rows = (firstderiv a).rows := by
  by_cases h2 : 2 ≤ c.size
  · have mc := (shapes_m c).1
    have ma := (shapes_m a).1
    have kc : (firstderiv c).k = c.ndim := firstderiv_k h2
    have ka : (firstderiv a).k = a.ndim := firstderiv_k (by omega)
    refine NMat.rows_congr (by omega) (by omega) fun i j hi hj => ?_
    have hi' : i < c.size := by omega
    have hj' : j < c.ndim := by omega
    rw [← at2_lt _ hi hj, ← at2_lt _ (show i < (firstderiv a).m by omega) (show j < (firstderiv a).k by omega),
      firstderiv_at2 hc h2 j hi', firstderiv_at2 ha (by omega) j (by omega), hs,
      ← grad1_translate c.size (fun l => at2 a.rows l j) (w j)]
    exact grad1_congr (fun l hl => h l j hl hj') hi'
  · by_cases h1 : c.size = 1
    · exact (C54_single_point_fails h1 0).trans (C54_single_point_fails (hs.trans h1) 0).symm
    · have e1 : (firstderiv c).rows = [] := List.length_eq_zero_iff.1 (by
        rw [NMat.rows_length, (shapes_m c).1]; omega)
      have e2 : (firstderiv a).rows = [] := List.length_eq_zero_iff.1 (by
        rw [NMat.rows_length, (shapes_m a).1]; omega)
      rw [e1, e2]

theorem eval_quad {P : Polynomial ℝ} (h : P.natDegree ≤ 2) (x : ℝ) :
    P.eval x = P.coeff 0 + P.coeff 1 * x + P.coeff 2 * x ^ 2 := by
  rw [Polynomial.eval_eq_sum_range' (show P.natDegree < 3 by omega)]
  simp [Finset.sum_range_succ]

theorem eval_quad_deriv {P : Polynomial ℝ} (h : P.natDegree ≤ 2) (x : ℝ) :
    P.derivative.eval x = P.coeff 1 + 2 * P.coeff 2 * x := by
  have hd : P.derivative.natDegree ≤ 1 := (Polynomial.natDegree_derivative_le P).trans (by omega)
  rw [Polynomial.eval_eq_sum_range' (show P.derivative.natDegree < 2 by omega)]
  rw [Finset.sum_range_succ, Finset.sum_range_one, Polynomial.coeff_derivative, Polynomial.coeff_derivative]
  push_cast
  ring

/-- **C54 (exact for quadratics).** If a coordinate of the points `0, 1, 2, ...` of a curve of at least three points is a
polynomial of degree at most two of the point number, its three numerical derivatives are those of the polynomial, at
the ends too. -/
theorem C54_quadratic {c : Curve ℝ} (hc : WF c) (h3 : 3 ≤ c.size) {j : Nat} (P : Polynomial ℝ)
    (hP : P.natDegree ≤ 2) (h : ∀ i, i < c.size → at2 c.rows i j = P.eval (i : ℝ)) {i : Nat} (hi : i < c.size) :
    at2 (firstderiv c).rows i j = P.derivative.eval (i : ℝ) ∧
    at2 (secondderiv c).rows i j = P.derivative.derivative.eval (i : ℝ) ∧
    at2 (thirdderiv c).rows i j = 0 := by
  have h1 : ∀ i, i < c.size → at2 (firstderiv c).rows i j = P.coeff 1 + 2 * P.coeff 2 * i := by
    intro i hi
    rw [firstderiv_at2 hc (by omega) j hi, ← grad1_quad h3 (P.coeff 0) (P.coeff 1) (P.coeff 2) hi]
    exact grad1_congr (fun l hl => by rw [h l hl, eval_quad hP]) hi
  have h2 : ∀ i, i < c.size → at2 (secondderiv c).rows i j = 2 * P.coeff 2 := by
    intro i hi
    rw [secondderiv_at2 (by omega) j hi, ← grad1_line (m := c.size) (by omega) (P.coeff 1) (2 * P.coeff 2) hi]
    exact grad1_congr (fun l hl => h1 l hl) hi
  refine ⟨by rw [h1 i hi, eval_quad_deriv hP], ?_, ?_⟩
  · have hd : P.derivative.natDegree ≤ 2 := (Polynomial.natDegree_derivative_le _).trans (by omega)
    have hz : P.coeff 3 = 0 := Polynomial.coeff_eq_zero_of_natDegree_lt (by omega)
    rw [h2 i hi, eval_quad_deriv hd, Polynomial.coeff_derivative, Polynomial.coeff_derivative, hz]
    push_cast
    ring
  · rw [thirdderiv_at2 (by omega) j hi, grad1_congr (fun l hl => h2 l hl) hi, grad1_const]

/-- **C54 (line).** A coordinate that grows by the same step from point to point has the step as derivative at every
point. -/
theorem C54_line {c : Curve ℝ} (hc : WF c) (h2 : 2 ≤ c.size) {j : Nat} (o s : ℝ)
    (h : ∀ i, i < c.size → at2 c.rows i j = o + s * i) {i : Nat} (hi : i < c.size) :
    at2 (firstderiv c).rows i j = s ∧ at2 (secondderiv c).rows i j = 0 := by
  have h1 : ∀ i, i < c.size → at2 (firstderiv c).rows i j = s := by
    intro i hi
    rw [firstderiv_at2 hc h2 j hi, ← grad1_line h2 o s hi]
    exact grad1_congr (fun l hl => h l hl) hi
  refine ⟨h1 i hi, ?_⟩
  rw [secondderiv_at2 h2 j hi, grad1_congr (fun l hl => h1 l hl) hi, grad1_const]

/-! ## C55 -/

/-- The vectors of a curve at point `i`: tangent, normal, binormal, and their normalised versions. -/
noncomputable def vT (c : Curve ℝ) (i : Nat) : EuclideanSpace ℝ (Fin c.ndim) := rowVec c.ndim (firstderiv c).rows i
noncomputable def vN (c : Curve ℝ) (i : Nat) : EuclideanSpace ℝ (Fin c.ndim) := rowVec c.ndim (normal c).rows i
noncomputable def vB (c : Curve ℝ) (i : Nat) : EuclideanSpace ℝ (Fin c.ndim) := rowVec c.ndim (binormal c).rows i
noncomputable def vE1 (c : Curve ℝ) (i : Nat) : EuclideanSpace ℝ (Fin c.ndim) := rowVec c.ndim (frenet1 c).rows i
noncomputable def vE2 (c : Curve ℝ) (i : Nat) : EuclideanSpace ℝ (Fin c.ndim) := rowVec c.ndim (frenet2 c).rows i
noncomputable def vE3 (c : Curve ℝ) (i : Nat) : EuclideanSpace ℝ (Fin c.ndim) := rowVec c.ndim (frenet3 c).rows i

/-- `u` is the unit vector in direction `v`, or `v` itself if that is shorter than the tolerance. -/
def Normalised {n : Nat} (v u : EuclideanSpace ℝ (Fin n)) : Prop :=
  (1 / 10 ^ 8 < ‖v‖ → ‖u‖ = 1 ∧ v = ‖v‖ • u) ∧ (‖v‖ ≤ 1 / 10 ^ 8 → u = v)

theorem normalised_unitRows {a : NMat} {n i : Nat} (hk : a.k ≤ n) (hi : i < a.m) :
    Normalised (rowVec n a.rows i) (rowVec n (unitRows a).rows i) := by
  have hN := rowNorm_eq hk hi
  have hnn : 0 ≤ rowNorm a i := Real.sqrt_nonneg _
  have hcl : closeK (rowNorm a i) 0 = true ↔ rowNorm a i ≤ 1 / 10 ^ 8 := by
    unfold closeK
    rw [decide_eq_true_iff, sub_zero, abs_zero, mul_zero, add_zero, abs_of_nonneg hnn, atol]
    norm_num
  rw [rowVec_unitRows hi]
  unfold frenetNorm Normalised
  rw [← hN]
  constructor
  · intro h
    have hpos : 0 < rowNorm a i := lt_trans (by norm_num) h
    rw [if_neg (by rw [hcl]; exact not_le.2 h)]
    constructor
    · rw [norm_smul, ← hN, Real.norm_eq_abs, abs_of_pos (inv_pos.2 hpos), inv_mul_cancel₀ hpos.ne']
    · rw [smul_smul, mul_inv_cancel₀ hpos.ne', one_smul]
  · intro h
    rw [if_pos (hcl.2 h), inv_one, one_smul]

/-- **C55 (unit vectors).** Each Frenet vector is the unit vector in the direction of the tangent, normal, binormal
where that exceeds the tolerance `1e-8`, and is that vector itself elsewhere. -/
theorem C55_unit {c : Curve ℝ} (hc : WF c) {i : Nat} (hi : i < c.size) :
    Normalised (vT c i) (vE1 c i) ∧ Normalised (vN c i) (vE2 c i) ∧ Normalised (vB c i) (vE3 c i) := by
  obtain ⟨m1, -, -, -, m5, -, m7, -⟩ := shapes_m c
  obtain ⟨-, -, -, k5, -, k7, -⟩ := shapes_k c (by omega)
  have hk : (firstderiv c).k ≤ c.ndim := firstderiv_k_le (by have := hc.two_le; omega) (by omega)
  exact ⟨normalised_unitRows hk (by omega), normalised_unitRows (by omega) (by omega),
    normalised_unitRows (by omega) (by omega)⟩

theorem vN_eq {c : Curve ℝ} (hc : WF c) {i : Nat} (hi : i < c.size) :
    vN c i = rowVec c.ndim (secondderiv c).rows i
      - inner ℝ (rowVec c.ndim (secondderiv c).rows i) (vE1 c i) • vE1 c i := by
  obtain ⟨m1, m2, m3, m4, m5, m6, m7, m8⟩ := shapes_m c
  obtain ⟨k2, k3, k4, k5, k6, k7, k8⟩ := shapes_k c (by omega)
  have hk : (firstderiv c).k ≤ c.ndim := firstderiv_k_le (by have := hc.two_le; omega) (by omega)
  exact rowVec_reject (by omega) (by omega) (by omega) (by omega)

theorem vB_eq {c : Curve ℝ} (hc : WF c) {i : Nat} (hi : i < c.size) :
    vB c i = rowVec c.ndim (thirdderiv c).rows i
      - inner ℝ (rowVec c.ndim (thirdderiv c).rows i) (vE1 c i) • vE1 c i
      - inner ℝ (rowVec c.ndim (thirdderiv c).rows i) (vE2 c i) • vE2 c i := by
  obtain ⟨m1, m2, m3, m4, m5, m6, m7, m8⟩ := shapes_m c
  obtain ⟨k2, k3, k4, k5, k6, k7, k8⟩ := shapes_k c (by omega)
  have hk : (firstderiv c).k ≤ c.ndim := firstderiv_k_le (by have := hc.two_le; omega) (by omega)
  exact rowVec_reject2 (by omega) (by omega) (by omega) (by omega) (by omega) (by omega)

theorem normalised_orth {n : Nat} {v u w : EuclideanSpace ℝ (Fin n)} (h : Normalised v u) (ho : inner ℝ v w = 0) :
    inner ℝ u w = 0 := by
  rcases lt_or_ge (1 / 10 ^ 8) ‖v‖ with hv | hv
  · obtain ⟨-, h2⟩ := h.1 hv
    rw [h2, inner_smul_left] at ho
    have : ‖v‖ ≠ 0 := (lt_trans (by norm_num) hv).ne'
    simpa [this] using ho
  · rw [h.2 hv]; exact ho

/-- **C55 (orthogonality).** Where the first Frenet vector is defined it is orthogonal to the other two; where the
second is defined too, it is orthogonal to the third. -/
theorem C55_orthogonal {c : Curve ℝ} (hc : WF c) {i : Nat} (hi : i < c.size) (hT : 1 / 10 ^ 8 < ‖vT c i‖) :
    inner ℝ (vE1 c i) (vE2 c i) = 0 ∧ inner ℝ (vE1 c i) (vE3 c i) = 0 ∧
    (1 / 10 ^ 8 < ‖vN c i‖ → inner ℝ (vE2 c i) (vE3 c i) = 0) := by
  obtain ⟨u1, u2, u3⟩ := C55_unit hc hi
  have n1 : ‖vE1 c i‖ = 1 := (u1.1 hT).1
  have s1 : inner ℝ (vE1 c i) (vE1 c i) = 1 := by rw [real_inner_self_eq_norm_sq, n1, one_pow]
  have o1 : inner ℝ (vN c i) (vE1 c i) = 0 := by
    rw [vN_eq hc hi, inner_sub_left, inner_smul_left, s1]; simp
  have e12 : inner ℝ (vE2 c i) (vE1 c i) = 0 := normalised_orth u2 o1
  have o13 : inner ℝ (vB c i) (vE1 c i) = 0 := by
    rw [vB_eq hc hi, inner_sub_left, inner_sub_left, inner_smul_left, inner_smul_left, s1, e12]; simp
  refine ⟨by rw [real_inner_comm]; exact e12, by rw [real_inner_comm]; exact normalised_orth u3 o13, fun hN => ?_⟩
  have n2 : ‖vE2 c i‖ = 1 := (u2.1 hN).1
  have s2 : inner ℝ (vE2 c i) (vE2 c i) = 1 := by rw [real_inner_self_eq_norm_sq, n2, one_pow]
  have o23 : inner ℝ (vB c i) (vE2 c i) = 0 := by
    rw [vB_eq hc hi, inner_sub_left, inner_sub_left, inner_smul_left, inner_smul_left, s2,
      real_inner_comm (vE2 c i) (vE1 c i), e12]
    simp
  rw [real_inner_comm]
  exact normalised_orth u3 o23

/-! ## C56 -/

/-- All rows are combinations of `u` and `w`, up to a common translation by `o`. -/
def InPlane {n : Nat} (rows : List (List ℝ)) (m : Nat) (o u w : EuclideanSpace ℝ (Fin n)) : Prop :=
  ∃ x y : Nat → ℝ, ∀ i, i < m → rowVec n rows i = o + x i • u + y i • w

theorem inPlane_gradient {n : Nat} {a : NMat} {m : Nat} {o u w : EuclideanSpace ℝ (Fin n)} (h2 : 2 ≤ m)
    (hm : a.m = m) (h : InPlane a.rows m o u w) : InPlane (gradient a).rows m 0 u w := by
  obtain ⟨x, y, hxy⟩ := h
  refine ⟨grad1 m x, grad1 m y, fun i hi => ?_⟩
  ext j
  rw [rowVec_apply, gradient_at2 (by omega) (by omega), hm]
  simp only [PiLp.add_apply, PiLp.smul_apply, PiLp.zero_apply, smul_eq_mul, zero_add]
  rw [mul_comm (grad1 m x i), mul_comm (grad1 m y i), ← grad1_lin,
    ← grad1_translate m (fun i => u j * x i + w j * y i) (o j)]
  refine grad1_congr (fun l hl => ?_) hi
  rw [← rowVec_apply, hxy l hl]
  simp only [PiLp.add_apply, PiLp.smul_apply, smul_eq_mul]
  ring

theorem inPlane_unit {n : Nat} {a : NMat} {m : Nat} {u w : EuclideanSpace ℝ (Fin n)}
    (hm : a.m = m) (h : InPlane a.rows m 0 u w) : InPlane (unitRows a).rows m 0 u w := by
  obtain ⟨x, y, hxy⟩ := h
  refine ⟨fun i => (frenetNorm a i)⁻¹ * x i, fun i => (frenetNorm a i)⁻¹ * y i, fun i hi => ?_⟩
  rw [rowVec_unitRows (by omega), hxy i hi]
  simp only [zero_add, smul_add, smul_smul]

/-- In a plane a vector orthogonal to two orthonormal vectors vanishes. -/
theorem plane_orth {n : Nat} {u w : EuclideanSpace ℝ (Fin n)} {a b c d p q : ℝ}
    (h1 : ‖a • u + b • w‖ = 1) (h2 : ‖c • u + d • w‖ = 1) (h12 : inner ℝ (a • u + b • w) (c • u + d • w) = 0)
    (h3 : inner ℝ (p • u + q • w) (a • u + b • w) = 0) (h4 : inner ℝ (p • u + q • w) (c • u + d • w) = 0) :
    p • u + q • w = 0 := by
  set e1 := a • u + b • w with he1
  set e2 := c • u + d • w with he2
  have s1 : inner ℝ e1 e1 = 1 := by rw [real_inner_self_eq_norm_sq, h1, one_pow]
  have s2 : inner ℝ e2 e2 = 1 := by rw [real_inner_self_eq_norm_sq, h2, one_pow]
  have h21 : inner ℝ e2 e1 = 0 := by rw [real_inner_comm]; exact h12
  have hu : (a * d - b * c) • u = d • e1 - b • e2 := by
    rw [he1, he2]; module
  have hw : (a * d - b * c) • w = a • e2 - c • e1 := by
    rw [he1, he2]; module
  by_cases hD : a * d - b * c = 0
  · rw [hD, zero_smul] at hu hw
    have d0 : d = 0 := by
      have := congrArg (fun v => inner ℝ v e1) hu
      simp only [inner_zero_left, inner_sub_left, inner_smul_left, s1, h21] at this
      simpa using this.symm
    have b0 : b = 0 := by
      have := congrArg (fun v => inner ℝ v e2) hu
      simp only [inner_zero_left, inner_sub_left, inner_smul_left, s2, h12] at this
      simpa using this.symm
    have a0 : a = 0 := by
      have := congrArg (fun v => inner ℝ v e2) hw
      simp only [inner_zero_left, inner_sub_left, inner_smul_left, s2, h12] at this
      simpa using this.symm
    exfalso
    rw [he1, a0, b0] at h1
    simp at h1
  · set v := p • u + q • w with hv
    have key : (a * d - b * c) • v = (p * d - q * c) • e1 + (q * a - p * b) • e2 := by
      rw [hv, smul_add, smul_comm _ p, smul_comm _ q, hu, hw]; module
    have hvv : (a * d - b * c) * inner ℝ v v = 0 := by
      have := congrArg (fun x => inner ℝ v x) key
      simp only [inner_add_right, inner_smul_right, h3, h4] at this
      simpa using this
    have : inner ℝ v v = 0 := by
      rcases mul_eq_zero.1 hvv with h | h
      · exact absurd h hD
      · exact h
    exact inner_self_eq_zero.1 this

/-- **C56 (torsion of a plane curve, in any dimension).** If all points lie in one plane, the torsion is 0 wherever
the tangent and the normal exceed the tolerance. -/
theorem C56_torsion_plane {c : Curve ℝ} (hc : WF c) (o u w : EuclideanSpace ℝ (Fin c.ndim))
    (hpl : InPlane c.rows c.size o u w) {i : Nat} (hi : i < c.size) (hT : 1 / 10 ^ 8 < ‖vT c i‖)
    (hN : 1 / 10 ^ 8 < ‖vN c i‖) : (torsion c)[i]? = some (.fin 0) := by
  obtain ⟨m1, m2, m3, m4, m5, m6, m7, m8⟩ := shapes_m c
  obtain ⟨k2, k3, k4, k5, k6, k7, k8⟩ := shapes_k c (by omega)
  have hk : (firstderiv c).k ≤ c.ndim := firstderiv_k_le (by have := hc.two_le; omega) (by omega)
  have h2 : 2 ≤ c.size := by
    by_contra hlt
    have h1 : c.size = 1 := by omega
    have i0 : i = 0 := by omega
    have : vT c i = 0 := by
      subst i0
      ext j
      have e : (firstderiv c).rows = [[0]] := C54_single_point_fails h1 0
      show at2 (firstderiv c).rows 0 j = 0
      rw [e]
      rcases j with ⟨j, hj⟩
      cases j <;> simp [at2]
    rw [this, norm_zero] at hT
    norm_num at hT
  obtain ⟨u1, u2, u3⟩ := C55_unit hc hi
  have n1 := (u1.1 hT).1
  have n2 := (u2.1 hN).1
  obtain ⟨o12, -, -⟩ := C55_orthogonal hc hi hT
  have s1 : inner ℝ (vE1 c i) (vE1 c i) = 1 := by rw [real_inner_self_eq_norm_sq, n1, one_pow]
  have s2 : inner ℝ (vE2 c i) (vE2 c i) = 1 := by rw [real_inner_self_eq_norm_sq, n2, one_pow]
  have ob1 : inner ℝ (vB c i) (vE1 c i) = 0 := by
    rw [vB_eq hc hi, inner_sub_left, inner_sub_left, inner_smul_left, inner_smul_left, s1,
      real_inner_comm (vE1 c i) (vE2 c i), o12]
    simp
  have ob2 : inner ℝ (vB c i) (vE2 c i) = 0 := by
    rw [vB_eq hc hi, inner_sub_left, inner_sub_left, inner_smul_left, inner_smul_left, s2, o12]
    simp
  have hpl' : InPlane c.mat.rows c.size o u w := by
    obtain ⟨x, y, hxy⟩ := hpl
    refine ⟨x, y, fun l hl => ?_⟩
    rw [← hxy l hl]
    ext j
    exact mat_at2 hc hl
  have p1 : InPlane (firstderiv c).rows c.size 0 u w := inPlane_gradient h2 rfl hpl'
  have p2 : InPlane (secondderiv c).rows c.size 0 u w := inPlane_gradient h2 m1 p1
  have p3 : InPlane (thirdderiv c).rows c.size 0 u w := inPlane_gradient h2 m2 p2
  have pe1 : InPlane (frenet1 c).rows c.size 0 u w := inPlane_unit m1 p1
  have hB0 : vB c i = 0 := by
    obtain ⟨x1, y1, e1⟩ := pe1
    obtain ⟨x2, y2, e2⟩ := p2
    obtain ⟨x3, y3, e3⟩ := p3
    have hE1 : vE1 c i = x1 i • u + y1 i • w := by have := e1 i hi; rwa [zero_add] at this
    have hS : rowVec c.ndim (secondderiv c).rows i = x2 i • u + y2 i • w := by
      have := e2 i hi; rwa [zero_add] at this
    have hTh : rowVec c.ndim (thirdderiv c).rows i = x3 i • u + y3 i • w := by
      have := e3 i hi; rwa [zero_add] at this
    have hE2 : ∃ x y : ℝ, vE2 c i = x • u + y • w := by
      have hN' := vN_eq hc hi
      have h3 := (u2.1 hN).2
      have hne : ‖vN c i‖ ≠ 0 := (lt_trans (by norm_num) hN).ne'
      have h4 : vE2 c i = ‖vN c i‖⁻¹ • vN c i := by
        conv_rhs => rw [h3]
        rw [norm_smul, norm_norm, n2, mul_one, smul_smul, inv_mul_cancel₀ hne, one_smul]
      obtain ⟨ν, hν⟩ : ∃ ν, ν = ‖vN c i‖⁻¹ := ⟨_, rfl⟩
      rw [h4, ← hν, hN']
      generalize inner ℝ (rowVec c.ndim (secondderiv c).rows i) (vE1 c i) = κ
      rw [hS, hE1]
      exact ⟨ν * (x2 i - κ * x1 i), ν * (y2 i - κ * y1 i), by module⟩
    obtain ⟨x, y, hE2⟩ := hE2
    have hB : ∃ p q : ℝ, vB c i = p • u + q • w := by
      rw [vB_eq hc hi]
      generalize inner ℝ (rowVec c.ndim (thirdderiv c).rows i) (vE1 c i) = κ
      generalize inner ℝ (rowVec c.ndim (thirdderiv c).rows i) (vE2 c i) = ν
      rw [hTh, hE1, hE2]
      exact ⟨x3 i - κ * x1 i - ν * x, y3 i - κ * y1 i - ν * y, by module⟩
    obtain ⟨p, q, hB⟩ := hB
    rw [hB] at ob1 ob2 ⊢
    rw [hE1] at ob1 n1 o12
    rw [hE2] at ob2 n2 o12
    exact plane_orth n1 n2 o12 ob1 ob2
  have hE3 : vE3 c i = 0 := by
    rw [u3.2 (by rw [hB0, norm_zero]; norm_num), hB0]
  have hg : (gradient (frenet2 c)).k = (firstderiv c).k := (gradient_k (by omega)).trans k6
  have hdot : dotRow (gradient (frenet2 c)) (frenet3 c) i = 0 := by
    rw [dotRow_eq (n := c.ndim) (by omega) (by omega) (by rw [gradient_m]; omega) (by omega)]
    have : rowVec c.ndim (frenet3 c).rows i = 0 := hE3
    rw [this, inner_zero_right]
  have hnorm : rowNorm (firstderiv c) i ≠ 0 := by
    rw [rowNorm_eq hk (by omega)]
    exact (lt_trans (by norm_num) hT).ne'
  unfold torsion
  rw [List.getElem?_map, List.getElem?_range hi]
  simp only [Option.map_some, torsionAt, Val.div, hdot, if_neg hnorm, zero_div]

/-- **C56 (torsion).** The torsion of a 2-dimensional curve is 0 wherever the first two Frenet vectors are defined. -/
theorem C56_torsion {c : Curve ℝ} (hc : WF c) (h2 : c.ndim = 2) {i : Nat} (hi : i < c.size)
    (hT : 1 / 10 ^ 8 < ‖vT c i‖) (hN : 1 / 10 ^ 8 < ‖vN c i‖) : (torsion c)[i]? = some (.fin 0) := by
  refine C56_torsion_plane hc 0 (EuclideanSpace.single ⟨0, by omega⟩ 1) (EuclideanSpace.single ⟨1, by omega⟩ 1)
    ⟨fun l => at2 c.rows l 0, fun l => at2 c.rows l 1, fun l _ => ?_⟩ hi hT hN
  ext j
  rw [rowVec_apply]
  simp only [PiLp.add_apply, PiLp.smul_apply, PiLp.zero_apply, smul_eq_mul, zero_add]
  obtain ⟨j, hj⟩ := j
  have : j = 0 ∨ j = 1 := by omega
  rcases this with rfl | rfl <;> simp

theorem curvature2_at2 {c : Curve ℝ} (h2 : c.ndim = 2) (hs : 2 ≤ c.size) {i : Nat} (hi : i < c.size) :
    (firstderiv c).v i 0 = at2 (firstderiv c).rows i 0 ∧ (firstderiv c).v i 1 = at2 (firstderiv c).rows i 1 ∧
    (secondderiv c).v i 0 = at2 (secondderiv c).rows i 0 ∧ (secondderiv c).v i 1 = at2 (secondderiv c).rows i 1 := by
  obtain ⟨m1, m2, -⟩ := shapes_m c
  obtain ⟨k2, -⟩ := shapes_k c (by omega)
  have k1 : (firstderiv c).k = c.ndim := firstderiv_k hs
  exact ⟨(at2_lt _ (by omega) (by omega)).symm, (at2_lt _ (by omega) (by omega)).symm,
    (at2_lt _ (by omega) (by omega)).symm, (at2_lt _ (by omega) (by omega)).symm⟩

theorem cube_pos {x : ℝ} (h : 0 < x) : x * √ x ≠ 0 := (mul_pos h (Real.sqrt_pos.2 h)).ne'

/-- **C56 (straight lines).** Uniformly spaced points on a line, in any dimension, have curvature 0 at every point. -/
theorem C56_line {c : Curve ℝ} (hc : WF c) (h2 : 2 ≤ c.size) (o s : Nat → ℝ)
    (h : ∀ i j, i < c.size → j < c.ndim → at2 c.rows i j = o j + s j * i) {l : Nat} (hl : l < c.ndim)
    (hs : s l ≠ 0) : curvature c = .ok (List.replicate c.size (.fin 0)) := by
  obtain ⟨m1, m2, m3, m4, -⟩ := shapes_m c
  obtain ⟨k2, k3, k4, -⟩ := shapes_k c (by omega)
  have k1 : (firstderiv c).k = c.ndim := firstderiv_k h2
  have hd : ∀ i j, i < c.size → j < c.ndim → at2 (firstderiv c).rows i j = s j ∧ at2 (secondderiv c).rows i j = 0 :=
    fun i j hi hj => C54_line hc h2 (o j) (s j) (fun i hi => h i j hi hj) hi
  have hrep : ∀ f : Nat → Val ℝ, (∀ i, i < c.size → f i = .fin 0) →
      (List.range c.size).map f = List.replicate c.size (.fin 0) := by
    intro f hf
    rw [List.eq_replicate_iff]
    refine ⟨by simp, ?_⟩
    intro b hb
    obtain ⟨i, hi, rfl⟩ := List.mem_map.1 hb
    exact hf i (List.mem_range.1 hi)
  unfold curvature
  by_cases hn : c.ndim = 2
  · rw [if_pos hn, if_neg (by omega)]
    congr 1
    refine hrep _ fun i hi => ?_
    obtain ⟨a1, a2, a3, a4⟩ := curvature2_at2 hn h2 hi
    obtain ⟨b1, b3⟩ := hd i 0 hi (by omega)
    obtain ⟨b2, b4⟩ := hd i 1 hi (by omega)
    have hpos : 0 < s 0 * s 0 + s 1 * s 1 := by
      have : l = 0 ∨ l = 1 := by omega
      rcases this with rfl | rfl
      · have := mul_self_pos.2 hs; nlinarith [mul_self_nonneg (s 1)]
      · have := mul_self_pos.2 hs; nlinarith [mul_self_nonneg (s 0)]
    simp only [curvature2, a1, a2, a3, a4, b1, b2, b3, b4, Val.div, if_neg (cube_pos hpos)]
    simp
  · rw [if_neg hn]
    congr 1
    refine hrep _ fun i hi => ?_
    have hT : ∀ i, i < c.size → rowVec c.ndim (firstderiv c).rows i = rowVec c.ndim (firstderiv c).rows 0 := by
      intro i hi
      ext j
      rw [rowVec_apply, rowVec_apply, (hd i j hi j.isLt).1, (hd 0 j (by omega) j.isLt).1]
    have hE : ∀ i, i < c.size → rowVec c.ndim (frenet1 c).rows i = rowVec c.ndim (frenet1 c).rows 0 := by
      intro i hi
      have hf : frenetNorm (firstderiv c) i = frenetNorm (firstderiv c) 0 := by
        unfold frenetNorm
        rw [rowNorm_eq (n := c.ndim) (by omega) (show i < (firstderiv c).m by omega),
          rowNorm_eq (n := c.ndim) (by omega) (show 0 < (firstderiv c).m by omega), hT i hi]
      unfold frenet1
      rw [rowVec_unitRows (show i < (firstderiv c).m by omega), rowVec_unitRows (show 0 < (firstderiv c).m by omega),
        hT i hi, hf]
    have hg : rowNorm (gradient (frenet1 c)) i = 0 := by
      rw [rowNorm_eq (n := c.ndim) (by rw [gradient_k (by omega)]; omega) (by rw [gradient_m]; omega), norm_eq_zero]
      ext j
      rw [rowVec_apply, gradient_at2 (by omega) (by omega), m4]
      rw [grad1_congr (g := fun _ => at2 (frenet1 c).rows 0 j) (fun l hl => ?_) hi, grad1_const]
      · rfl
      · have := hE l hl
        exact congrArg (fun v : EuclideanSpace ℝ (Fin c.ndim) => v j) this
    have hn0 : rowNorm (firstderiv c) i ≠ 0 := by
      rw [rowNorm_eq (n := c.ndim) (by omega) (by omega)]
      intro h0
      rw [norm_eq_zero] at h0
      have := congrArg (fun v : EuclideanSpace ℝ (Fin c.ndim) => v ⟨l, hl⟩) h0
      simp only [rowVec_apply, (hd i l hi hl).1, PiLp.zero_apply] at this
      exact hs this
    simp only [curvatureN, Val.div, hg, if_neg hn0, zero_div]

/-- **C56 (reversal).** The signed curvature of a 2-dimensional curve of at least two points changes sign when the
curve is reversed (undefined values stay undefined). -/
theorem C56_reverse {c c' : Curve ℝ} (hc : WF c) (h2 : c.ndim = 2) (hs : 2 ≤ c.size) (hr : c.reverse = .ok c') :
    ∃ xs xs', curvature c = .ok xs ∧ curvature c' = .ok xs' ∧ xs.length = c.size ∧ xs'.length = c.size ∧
      ∀ i x, i < c.size → xs[c.size - 1 - i]? = some x → xs'[i]? = some x.neg := by
  have hne : c.rows ≠ [] := by intro h; simp [Curve.size, h] at hs
  obtain ⟨d, hd, dsize, -, -, drows, -, dn⟩ := C10_reverse hc
  have : d = c' := by rw [hr] at hd; exact (Except.ok.inj hd).symm
  subst this
  have hc' : WF d := reverse_WF hr
  have hn' : d.ndim = 2 := (dn hne).trans h2
  have k1 : (firstderiv c).k = c.ndim := firstderiv_k hs
  have k1' : (firstderiv d).k = d.ndim := firstderiv_k (by omega)
  have h0 : ∀ i j, i < c.size → at2 d.rows i j = at2 c.rows (c.size - 1 - i) j := by
    intro i j hi
    unfold at2
    rw [List.getD_eq_getElem?_getD (l := d.rows), drows i hi, List.getD_eq_getElem?_getD (l := c.rows)]
  have hf : ∀ i j, i < c.size → at2 (firstderiv d).rows i j = - at2 (firstderiv c).rows (c.size - 1 - i) j := by
    intro i j hi
    rw [firstderiv_at2 hc' (by omega) j (by omega), firstderiv_at2 hc hs j (by omega), dsize,
      ← grad1_reverse (fun l => at2 c.rows l j) hi]
    exact grad1_congr (fun l hl => h0 l j hl) hi
  have hsd : ∀ i j, i < c.size → at2 (secondderiv d).rows i j = at2 (secondderiv c).rows (c.size - 1 - i) j := by
    intro i j hi
    rw [secondderiv_at2 (by omega) j (by omega), secondderiv_at2 hs j (by omega), dsize,
      grad1_congr (fun l hl => hf l j hl) hi]
    have e1 := grad1_reverse (m := c.size) (fun l => at2 (firstderiv c).rows l j) hi
    have e2 := grad1_lin c.size (fun l => at2 (firstderiv c).rows (c.size - 1 - l) j) (fun _ => 0) (-1) 0 i
    simp only [mul_zero, add_zero, neg_one_mul, zero_mul] at e2
    rw [e2, e1, neg_neg]
  refine ⟨(List.range c.size).map (curvature2 c), (List.range d.size).map (curvature2 d), ?_, ?_, ?_, ?_, ?_⟩
  · unfold curvature; rw [if_pos h2, if_neg (by omega)]
  · unfold curvature; rw [if_pos hn', if_neg (by omega)]
  · simp
  · simp [dsize]
  · intro i x hi hx
    have hi' : c.size - 1 - i < c.size := by omega
    rw [List.getElem?_map, List.getElem?_range hi', Option.map_some, Option.some.injEq] at hx
    rw [List.getElem?_map, List.getElem?_range (by omega), Option.map_some, Option.some.injEq, ← hx]
    obtain ⟨a1, a2, a3, a4⟩ := curvature2_at2 h2 hs hi'
    obtain ⟨b1, b2, b3, b4⟩ := curvature2_at2 hn' (by omega) (show i < d.size by omega)
    simp only [curvature2, a1, a2, a3, a4, b1, b2, b3, b4, hf _ _ hi, hsd _ _ hi]
    generalize at2 (firstderiv c).rows (c.size - 1 - i) 0 = fx
    generalize at2 (firstderiv c).rows (c.size - 1 - i) 1 = fy
    generalize at2 (secondderiv c).rows (c.size - 1 - i) 0 = sx
    generalize at2 (secondderiv c).rows (c.size - 1 - i) 1 = sy
    rw [show -fx * -fx + -fy * -fy = fx * fx + fy * fy by ring,
      show sy * -fx - sx * -fy = -(sy * fx - sx * fy) by ring]
    simp only [Val.div]
    by_cases hz : (fx * fx + fy * fy) * √ (fx * fx + fy * fy) = 0
    · have hq : fx * fx + fy * fy = 0 := by
        by_contra hq
        have : 0 < fx * fx + fy * fy := lt_of_le_of_ne
          (add_nonneg (mul_self_nonneg _) (mul_self_nonneg _)) (Ne.symm hq)
        exact cube_pos this hz
      have fx0 : fx = 0 := by nlinarith [mul_self_nonneg fx, mul_self_nonneg fy]
      have fy0 : fy = 0 := by nlinarith [mul_self_nonneg fx, mul_self_nonneg fy]
      subst fx0 fy0
      simp [Val.infOfSign, Val.neg]
    · rw [if_neg hz, if_neg hz, Val.neg, neg_div]

/-- **C56, C58 (violated for single points).** The curvature of a single point of the plane is an IndexError. -/
theorem C56_single_point_fails {c : Curve ℝ} (h2 : c.ndim = 2) (h : c.size = 1) :
    curvature c = .error .indexError := by
  unfold curvature
  have : (firstderiv c).k = 1 := gradient_k_one h
  rw [if_pos h2, if_pos (by omega)]

/-! ## C58 -/

/-- The properties that have one value per point. -/
def IsPointwise : PropName → Prop
  | .chordlen | .arclen => False
  | _ => True

/-- Number of entries of an array. -/
def entryCount : PropVal → Option Nat
  | .nums xs => some xs.length
  | .rows rs => some rs.length
  | .num _ => none

theorem getIdx_shift {β : Type} {xs : List β} {i j : Int} (h : ∀ k, IsPos xs.length i k ↔ IsPos xs.length j k) :
    getIdx xs i = getIdx xs j := by
  cases hj : getIdx xs j with
  | ok x =>
    rw [getIdx_ok] at hj ⊢
    obtain ⟨k, h1, h2⟩ := hj
    exact ⟨k, (h k).2 h1, h2⟩
  | error e =>
    cases hi : getIdx xs i with
    | ok x =>
      rw [getIdx_ok] at hi
      obtain ⟨k, h1, h2⟩ := hi
      have : getIdx xs j = .ok x := getIdx_ok.2 ⟨k, (h k).1 h1, h2⟩
      rw [this] at hj
      exact absurd hj (by simp)
    | error e' => rw [(getIdx_error.1 hi).1, (getIdx_error.1 hj).1]

/-- **C58 (sizes).** Every point-wise property of a curve of at least two points has one entry per point, and for the
vectors an entry consists of `ndim` numbers. -/
theorem C58_shape_partial {c : Curve ℝ} (hc : WF c) (hs : 2 ≤ c.size) (junk : ℝ) {f : PropName} (hf : IsPointwise f) :
    ∃ v, fresh junk c f = .ok v ∧ entryCount v = some c.size ∧ ∀ rs, v = .rows rs → ∀ r ∈ rs, r.length = c.ndim := by
  have hne : c.rows ≠ [] := by intro h; simp [Curve.size, h] at hs
  obtain ⟨m1, m2, m3, m4, m5, m6, m7, m8⟩ := shapes_m c
  obtain ⟨k2, k3, k4, k5, k6, k7, k8⟩ := shapes_k c (by omega)
  have k1 : (firstderiv c).k = c.ndim := firstderiv_k hs
  have hcum : (cumarclen junk c).length = c.size := (C50_cumarclen_partial hc hne junk).1
  have key : ∀ a : NMat, a.m = c.size → a.k = c.ndim →
      ∃ v, (Except.ok (PropVal.rows a.rows) : Except PyErr PropVal) = .ok v ∧ entryCount v = some c.size ∧
        ∀ rs, v = .rows rs → ∀ r ∈ rs, r.length = c.ndim := by
    intro a hm hk
    refine ⟨_, rfl, by simp [entryCount, NMat.rows_length, hm], ?_⟩
    intro rs h r hr
    simp only [PropVal.rows.injEq] at h
    subst h
    rw [rows_rect a r hr, hk]
  have keyn : ∀ xs : List (Val ℝ), xs.length = c.size →
      ∃ v, (Except.ok (PropVal.nums xs) : Except PyErr PropVal) = .ok v ∧ entryCount v = some c.size ∧
        ∀ rs, v = .rows rs → ∀ r ∈ rs, r.length = c.ndim := by
    intro xs hx
    exact ⟨_, rfl, by simp [entryCount, hx], fun rs h => by simp at h⟩
  cases f with
  | chordlen => exact absurd hf (by simp [IsPointwise])
  | arclen => exact absurd hf (by simp [IsPointwise])
  | cumarclen => exact keyn _ (by simpa using hcum)
  | t =>
    refine keyn _ ?_
    rw [List.length_map]
    unfold Curve.t
    cases ht : c.tdata with
    | none => exact hcum
    | some t => exact hc.tlen t ht
  | firstderiv => exact key _ m1 k1
  | secondderiv => exact key _ m2 (by omega)
  | thirdderiv => exact key _ m3 (by omega)
  | tangent => exact key _ m1 k1
  | normal => exact key _ m5 (by omega)
  | binormal => exact key _ m7 (by omega)
  | speed =>
    unfold fresh
    simp only [if_neg hne]
    exact keyn _ (by simp)
  | frenet1 => exact key _ m4 (by omega)
  | frenet2 => exact key _ m6 (by omega)
  | frenet3 => exact key _ m8 (by omega)
  | curvature =>
    unfold fresh
    simp only [if_neg hne]
    unfold curvature
    by_cases h2 : c.ndim = 2
    · rw [if_pos h2, if_neg (by omega)]
      exact keyn _ (by simp)
    · rw [if_neg h2]
      exact keyn _ (by simp)
  | torsion => exact keyn _ (by simp [torsion])

/-- The number of entries, for any size. -/
theorem fresh_count {c : Curve ℝ} (hc : WF c) (hs : 1 ≤ c.size) (junk : ℝ) {f : PropName} (hf : IsPointwise f)
    {v : PropVal} (hv : fresh junk c f = .ok v) : entryCount v = some c.size := by
  by_cases h2 : 2 ≤ c.size
  · obtain ⟨v', h1, h3, -⟩ := C58_shape_partial hc h2 junk hf
    rw [hv] at h1
    cases h1
    exact h3
  · have hne : c.rows ≠ [] := by intro h; simp [Curve.size, h] at hs
    obtain ⟨m1, m2, m3, m4, m5, m6, m7, m8⟩ := shapes_m c
    have hcum : (cumarclen junk c).length = c.size := (C50_cumarclen_partial hc hne junk).1
    cases f with
    | chordlen => exact absurd hf (by simp [IsPointwise])
    | arclen => exact absurd hf (by simp [IsPointwise])
    | t =>
      cases hv
      simp only [entryCount, List.length_map]
      unfold Curve.t
      cases ht : c.tdata with
      | none => exact congrArg some hcum
      | some t => exact congrArg some (hc.tlen t ht)
    | speed =>
      simp only [fresh, if_neg hne] at hv
      cases hv
      simp [entryCount]
    | curvature =>
      simp only [fresh, if_neg hne] at hv
      cases hk : curvature c with
      | error e => rw [hk] at hv; simp at hv
      | ok xs =>
        rw [hk] at hv
        cases hv
        unfold curvature at hk
        split at hk
        · split at hk
          · cases hk
          · cases hk; simp [entryCount]
        · cases hk; simp [entryCount]
    | cumarclen => cases hv; simp [entryCount, hcum]
    | torsion => cases hv; simp [entryCount, torsion]
    | firstderiv => cases hv; simp [entryCount, NMat.rows_length, m1]
    | tangent => cases hv; simp [entryCount, NMat.rows_length, m1]
    | secondderiv => cases hv; simp [entryCount, NMat.rows_length, m2]
    | thirdderiv => cases hv; simp [entryCount, NMat.rows_length, m3]
    | normal => cases hv; simp [entryCount, NMat.rows_length, m5]
    | binormal => cases hv; simp [entryCount, NMat.rows_length, m7]
    | frenet1 => cases hv; simp [entryCount, NMat.rows_length, m4]
    | frenet2 => cases hv; simp [entryCount, NMat.rows_length, m6]
    | frenet3 => cases hv; simp [entryCount, NMat.rows_length, m8]

/-- `curve.f[i]`. -/
noncomputable def arrayAt (junk : ℝ) (c : Curve ℝ) (f : PropName) (i : Int) : Except PyErr PointVal :=
  match fresh junk c f with
  | .error e => .error e
  | .ok v => v.at i

/-- **C58 (agreement).** For every index `i` in range, `curve[i].f` is `curve.f[i]`. -/
theorem C58_agree {c : Curve ℝ} (hc : WF c) (junk : ℝ) {f : PropName} (hf : IsPointwise f) {cid : Nat} {i : Int}
    (hi : InRange c.size i) :
    ∃ p, CurvePoint.init c cid i = .ok p ∧ p.prop junk f = arrayAt junk c f i ∧
      (2 ≤ c.size → ∃ x, p.prop junk f = .ok x) := by
  obtain ⟨lo, hi⟩ := hi
  have hs : 1 ≤ c.size := by omega
  set j : Int := if i < 0 then (c.size : Int) + i else i with hj
  have hj0 : 0 ≤ j ∧ j < c.size := by rw [hj]; split <;> omega
  have hpos : ∀ k, IsPos c.size j k ↔ IsPos c.size i k := by
    intro k
    unfold IsPos
    by_cases hneg : i < 0
    · rw [if_pos hneg] at hj; omega
    · rw [if_neg hneg] at hj; rw [hj]
  obtain ⟨k, hk⟩ : ∃ k, IsPos c.size j k := ⟨j.toNat, by unfold IsPos; omega⟩
  have hklt : k < c.rows.length := hk.1
  have hkc : k < c.size := hklt
  have hrow : getIdx c.rows j = .ok (c.rows[k]'hklt) := getIdx_ok.2 ⟨k, hk, List.getElem?_eq_getElem hklt⟩
  have hp : CurvePoint.init c cid i = .ok ⟨Point.init (c.rows[k]'hklt) none, j, c, cid⟩ := by
    unfold CurvePoint.init
    simp only [← hj, hrow]
  refine ⟨_, hp, ?_, ?_⟩
  · unfold CurvePoint.prop arrayAt
    simp only
    cases hv : fresh junk c f with
    | error e => rfl
    | ok v =>
      have hcnt := fresh_count hc hs junk hf hv
      simp only
      cases v with
      | num x => simp [entryCount] at hcnt
      | nums xs =>
        simp only [entryCount, Option.some.injEq] at hcnt
        simp only [PropVal.at]
        rw [getIdx_shift (by rw [hcnt]; exact hpos)]
      | rows rs =>
        simp only [entryCount, Option.some.injEq] at hcnt
        simp only [PropVal.at]
        rw [getIdx_shift (by rw [hcnt]; exact hpos)]
  · intro h2
    obtain ⟨v, hv, hcnt, -⟩ := C58_shape_partial hc h2 junk hf
    unfold CurvePoint.prop
    simp only [hv]
    cases v with
    | num x => simp [entryCount] at hcnt
    | nums xs =>
      simp only [entryCount, Option.some.injEq] at hcnt
      have : getIdx xs j = .ok (xs[k]'(by omega)) :=
        getIdx_ok.2 ⟨k, hcnt ▸ hk, List.getElem?_eq_getElem (by omega)⟩
      simp only [PropVal.at, this]
      exact ⟨_, rfl⟩
    | rows rs =>
      simp only [entryCount, Option.some.injEq] at hcnt
      have : getIdx rs j = .ok (rs[k]'(by omega)) :=
        getIdx_ok.2 ⟨k, hcnt ▸ hk, List.getElem?_eq_getElem (by omega)⟩
      simp only [PropVal.at, this]
      exact ⟨_, rfl⟩

/-- **C58 (violated for single points).** The vectors of a single point of `n`-space have one coordinate, and in the
plane the curvature fails. -/
theorem C58_single_point_fails {c : Curve ℝ} (hc : WF c) (h : c.size = 1) (junk : ℝ) :
    fresh junk c .firstderiv = .ok (.rows [[0]]) ∧ c.ndim ≠ 1 ∧
    (c.ndim = 2 → fresh junk c .curvature = .error .indexError) := by
  have hne : c.rows ≠ [] := by intro h'; simp [Curve.size, h'] at h
  refine ⟨?_, by have := hc.two_le; show c.ncols ≠ 1; omega, fun h2 => ?_⟩
  · exact congrArg (fun r => Except.ok (PropVal.rows r)) (C54_single_point_fails h 0)
  · simp only [fresh, if_neg hne, C56_single_point_fails h2 h]

/-! ## A curve meeting the hypotheses -/

/-- Three points of a parabola. -/
def exParab : Curve ℝ := ⟨[[0, 0], [1, 1], [2, 4]], 2, none, .float⟩

theorem exParab_WF : WF exParab where
  two_le := by simp [exParab]
  rect := by simp [exParab]
  tlen := by simp [exParab]
  repr := by intro r _ x _; rfl

example : 3 ≤ exParab.size ∧ ((Polynomial.X : Polynomial ℝ) ^ 2).natDegree ≤ 2 ∧
    ∀ i, i < exParab.size → at2 exParab.rows i 1 = ((Polynomial.X : Polynomial ℝ) ^ 2).eval (i : ℝ) := by
  refine ⟨by simp [exParab, Curve.size], Polynomial.natDegree_X_pow_le 2, ?_⟩
  intro i hi
  have : i = 0 ∨ i = 1 ∨ i = 2 := by simp [exParab, Curve.size] at hi; omega
  rcases this with rfl | rfl | rfl <;> simp [at2, exParab]
  norm_num

theorem exParab_first : at2 (firstderiv exParab).rows 0 0 = 1 ∧ at2 (firstderiv exParab).rows 0 1 = 0 ∧
    at2 (firstderiv exParab).rows 1 0 = 1 ∧ at2 (firstderiv exParab).rows 1 1 = 2 ∧
    at2 (firstderiv exParab).rows 2 0 = 1 ∧ at2 (firstderiv exParab).rows 2 1 = 4 := by
  have h : ∀ i j, i < 3 → at2 (firstderiv exParab).rows i j = grad1 3 (fun i => at2 exParab.rows i j) i :=
    fun i j hi => firstderiv_at2 exParab_WF (by simp [exParab, Curve.size]) j hi
  rw [h 0 0 (by omega), h 0 1 (by omega), h 1 0 (by omega), h 1 1 (by omega), h 2 0 (by omega), h 2 1 (by omega)]
  simp [grad1, npGradient, at2, exParab]
  norm_num

theorem exParab_T : 1 / 10 ^ 8 < ‖vT exParab 1‖ := by
  have h1 : vT exParab 1 ⟨0, by simp [exParab, Curve.ndim]⟩ = 1 := exParab_first.2.2.1
  have h2 := PiLp.norm_apply_le (vT exParab 1) ⟨0, by simp [exParab, Curve.ndim]⟩
  rw [h1, norm_one] at h2
  exact lt_of_lt_of_le (by norm_num) h2

theorem exParab_N : 1 / 10 ^ 8 < ‖vN exParab 1‖ := by
  have hs : ∀ j, at2 (secondderiv exParab).rows 1 j = grad1 3 (fun i => at2 (firstderiv exParab).rows i j) 1 :=
    fun j => secondderiv_at2 (by simp [exParab, Curve.size]) j (by simp [exParab, Curve.size])
  obtain ⟨f1, f2, f3, f4, f5, f6⟩ := exParab_first
  have s0 : at2 (secondderiv exParab).rows 1 0 = 0 := by rw [hs]; simp [grad1, npGradient, f1, f5]
  have s1 : at2 (secondderiv exParab).rows 1 1 = 2 := by rw [hs]; simp [grad1, npGradient, f2, f6]; norm_num
  have hi : 1 < exParab.size := by simp [exParab, Curve.size]
  obtain ⟨u1, -, -⟩ := C55_unit exParab_WF hi
  have hT := (u1.1 exParab_T).2
  have hpos : 0 < ‖vT exParab 1‖ := lt_trans (by norm_num) exParab_T
  have hsq : ‖vT exParab 1‖ ^ 2 = 5 := by
    rw [EuclideanSpace.norm_sq_eq]
    show ∑ i : Fin 2, ‖at2 (firstderiv exParab).rows 1 i‖ ^ 2 = 5
    rw [Fin.sum_univ_two]
    simp [f3, f4]
    norm_num
  have hE : ∀ j : Fin exParab.ndim, ‖vT exParab 1‖ * vE1 exParab 1 j = at2 (firstderiv exParab).rows 1 j := by
    intro j
    have := congrArg (fun v : EuclideanSpace ℝ (Fin exParab.ndim) => v j) hT
    simp only [PiLp.smul_apply, smul_eq_mul] at this
    rw [← this]
    rfl
  have hE0 := hE ⟨0, by simp [exParab, Curve.ndim]⟩
  have hE1 := hE ⟨1, by simp [exParab, Curve.ndim]⟩
  have hin : inner ℝ (rowVec exParab.ndim (secondderiv exParab).rows 1) (vE1 exParab 1)
      = 2 * vE1 exParab 1 ⟨1, by simp [exParab, Curve.ndim]⟩ := by
    rw [PiLp.inner_apply]
    show ∑ i : Fin 2, inner ℝ (at2 (secondderiv exParab).rows 1 i) (vE1 exParab 1 i) = _
    rw [Fin.sum_univ_two]
    simp [s0, s1]
    rw [mul_comm]
    rfl
  have h0 : vN exParab 1 ⟨0, by simp [exParab, Curve.ndim]⟩ = -4 / 5 := by
    rw [vN_eq exParab_WF hi, hin, PiLp.sub_apply, PiLp.smul_apply, smul_eq_mul, rowVec_apply]
    simp only [s0]
    simp only [f3, f4] at hE0 hE1
    obtain ⟨x, hx⟩ : ∃ x, (vE1 exParab 1) ⟨0, by simp [exParab, Curve.ndim]⟩ = x := ⟨_, rfl⟩
    obtain ⟨y, hy⟩ : ∃ y, (vE1 exParab 1) ⟨1, by simp [exParab, Curve.ndim]⟩ = y := ⟨_, rfl⟩
    rw [hx] at hE0 ⊢
    rw [hy] at hE1 ⊢
    have : ‖vT exParab 1‖ ^ 2 * (x * y) = 2 := by
      calc ‖vT exParab 1‖ ^ 2 * (x * y) = (‖vT exParab 1‖ * x) * (‖vT exParab 1‖ * y) := by ring
        _ = 2 := by rw [hE0, hE1]; norm_num
    rw [hsq] at this
    linarith
  have h2 := PiLp.norm_apply_le (vN exParab 1) ⟨0, by simp [exParab, Curve.ndim]⟩
  rw [h0] at h2
  exact lt_of_lt_of_le (by norm_num [abs_of_neg]) h2

/-- The torsion theorem applies to the middle point of the parabola. -/
example : (torsion exParab)[1]? = some (.fin 0) :=
  C56_torsion exParab_WF rfl (by simp [exParab, Curve.size]) exParab_T exParab_N

/-- Reversal applies to it as well. -/
example : exParab.ndim = 2 ∧ 2 ≤ exParab.size ∧ ∃ c', exParab.reverse = .ok c' :=
  ⟨rfl, by simp [exParab, Curve.size], (C10_reverse exParab_WF).imp fun _ h => h.1⟩

/-- A straight line in space. -/
example : ∃ c : Curve ℝ, WF c ∧ 2 ≤ c.size ∧ c.ndim = 3 ∧
    (∀ i j, i < c.size → j < c.ndim → at2 c.rows i j = at2 [[1, 0, 0], [1, 2, 0]] 0 j + at2 [[1, 0, 0], [1, 2, 0]] 1 j * i) :=
  ⟨⟨[[1, 0, 0], [2, 2, 0], [3, 4, 0]], 3, none, .float⟩, ⟨by simp, by simp, by simp, by intro r _ x _; rfl⟩,
    by simp [Curve.size], rfl, by
      intro i j hi hj
      have h1 : i = 0 ∨ i = 1 ∨ i = 2 := by simp [Curve.size] at hi; omega
      have h2 : j = 0 ∨ j = 1 ∨ j = 2 := by simp [Curve.ndim] at hj; omega
      rcases h1 with rfl | rfl | rfl <;> rcases h2 with rfl | rfl | rfl <;> simp [at2] <;> norm_num⟩

/-! ## Concrete cases -/

theorem exParab_size : exParab.size = 3 := rfl

/-- Coordinates of the example parabola. -/
theorem exParab_at {i : Nat} (hi : i < 3) : at2 exParab.rows i 0 = i ∧ at2 exParab.rows i 1 = (i : ℝ) ^ 2 := by
  interval_cases i <;> norm_num [at2, exParab]

/-- A straight line of three points. -/
def exLine3 : Curve ℝ := ⟨[[1, 0], [2, 2], [3, 4]], 2, none, .float⟩

theorem exLine3_WF : WF exLine3 := ⟨by simp [exLine3], by simp [exLine3], by simp [exLine3], by intro r _ x _; rfl⟩

theorem exLine3_at {i : Nat} (hi : i < 3) : at2 exLine3.rows i 0 = 1 + 1 * i ∧ at2 exLine3.rows i 1 = 0 + 2 * i := by
  interval_cases i <;> norm_num [at2, exLine3]

example := C54_shape_partial (c := exParab) (by simp [exParab, Curve.size]) 2
example := C54_linear (a := exParab) (b := exLine3) (c := ⟨[[1, 0], [4, 5], [7, 14]], 2, none, .float⟩) exParab_WF exLine3_WF
  ⟨by simp, by simp, by simp, by intro r _ x _; rfl⟩ rfl rfl 2 (3 / 2) (j := 1)
  (by intro i hi; rw [(exParab_at (by simpa [Curve.size] using hi)).2, (exLine3_at (by simpa [Curve.size] using hi)).2]
      have : i < 3 := by simpa [Curve.size] using hi
      interval_cases i <;> norm_num [at2]) 2 (i := 1) (by simp [Curve.size])
example := C54_translation (a := exParab) (c := ⟨[[5, 7], [6, 8], [7, 11]], 2, none, .float⟩) exParab_WF
  ⟨by simp, by simp, by simp, by intro r _ x _; rfl⟩ rfl rfl (fun j => if j = 0 then 5 else 7)
  (by intro i j hi hj
      have : i < 3 := by simpa [Curve.size] using hi
      have : j < 2 := by simpa [Curve.ndim] using hj
      interval_cases i <;> interval_cases j <;> norm_num [at2, exParab])
example := C54_quadratic exParab_WF (by simp [exParab, Curve.size]) (j := 1) (Polynomial.X ^ 2) (by simp)
  (by intro i hi; rw [(exParab_at hi).2]; simp) (i := 1) (by simp [exParab, Curve.size])
example := C54_line exLine3_WF (by simp [exLine3, Curve.size]) (j := 1) 0 2 (fun i hi => (exLine3_at hi).2) (i := 1) (by simp [exLine3, Curve.size])
example := C55_unit exParab_WF (i := 1) (by simp [exParab, Curve.size])
example := (C55_orthogonal exParab_WF (i := 1) (by simp [exParab, Curve.size]) exParab_T).2.2 exParab_N
example := C56_line exLine3_WF (by simp [exLine3, Curve.size]) (fun j => if j = 0 then 1 else 0) (fun j => if j = 0 then 1 else 2)
  (by intro i j hi hj
      have : j < 2 := by simpa [exLine3, Curve.ndim] using hj
      interval_cases j
      · simpa using (exLine3_at hi).1
      · simpa using (exLine3_at hi).2) (l := 1) (by simp [exLine3, Curve.ndim]) (by simp)
example : ∃ c', exParab.reverse = .ok c' ∧ ∃ xs xs', curvature exParab = .ok xs ∧ curvature c' = .ok xs' := by
  obtain ⟨c', h, -⟩ := C10_reverse exParab_WF
  obtain ⟨xs, xs', a, b, -⟩ := C56_reverse exParab_WF rfl (by simp [exParab, Curve.size]) h
  exact ⟨c', h, xs, xs', a, b⟩
example := C58_agree exParab_WF 99 (f := .curvature) trivial (cid := 0) (i := -2) (by unfold InRange; simp [exParab, Curve.size])

end Verif.Props
