import Mathlib.Analysis.InnerProductSpace.Calculus
import Verif.Props.AccuracyCurv

/-!
C151: the Frenet vectors and the torsion of a sampled smooth curve compared to those of the curve.
-/
namespace Verif.Spec

open Verif Verif.Model Set

section
variable {E : Type*} [NormedAddCommGroup E] [InnerProductSpace ℝ E]

/-- The unit vector in the direction of `v`. -/
noncomputable def unitOf (v : E) : E := ‖v‖⁻¹ • v

/-- The part of the second derivative `e` that is orthogonal to the first derivative `d`. -/
noncomputable def normalOf (d e : E) : E := e - inner ℝ e (unitOf d) • unitOf d

/-- The part of the third derivative `f` that is orthogonal to the first and second derivative `d`, `e`. -/
noncomputable def binormalOf (d e f : E) : E :=
  f - inner ℝ f (unitOf d) • unitOf d - inner ℝ f (unitOf (normalOf d e)) • unitOf (normalOf d e)

end

/-- Errors of the Frenet vectors, divided by `h²`, `h²` and `h`: `v`, `w`, `b` are lower bounds of the norms of the first derivative and of the orthogonal parts of the second and third derivative,
`E`, `F` bound the second and third derivative, `M` is a Lipschitz constant of the third derivative. -/
noncomputable def tanErr (F v : ℝ) : ℝ := 2 * F / v
noncomputable def norErr (E F M v w : ℝ) : ℝ := 2 / w * (M / 3 + 2 * E * tanErr F v)
noncomputable def binErr (E F M v w b h : ℝ) : ℝ := 2 / b * (7 / 8 * M + 2 * F * (tanErr F v + norErr E F M v w) * h)

end Verif.Spec

namespace Verif.Props

open Verif Verif.Np Verif.Model Verif.Spec Set

section
variable {E : Type*} [NormedAddCommGroup E] [InnerProductSpace ℝ E]

theorem unitOf_norm {v : E} (h : v ≠ 0) : ‖unitOf v‖ = 1 := by
  unfold unitOf
  rw [norm_smul, norm_inv, norm_norm, inv_mul_cancel₀ (norm_ne_zero_iff.2 h)]

theorem orth_le {x u : E} (hu : ‖u‖ = 1) : ‖x - inner ℝ x u • u‖ ≤ ‖x‖ := by
  have h1 : inner ℝ u u = (1 : ℝ) := by rw [real_inner_self_eq_norm_sq, hu]; norm_num
  refine le_of_sq_le_sq ?_ (norm_nonneg _)
  rw [← real_inner_self_eq_norm_sq, ← real_inner_self_eq_norm_sq, inner_sub_left, inner_sub_right, inner_sub_right]
  simp only [inner_smul_left, inner_smul_right, conj_trivial, h1, real_inner_comm x u]
  nlinarith [sq_nonneg (inner ℝ x u)]

theorem along_close {y u v : E} (hu : ‖u‖ = 1) (hv : ‖v‖ = 1) : ‖inner ℝ y u • u - inner ℝ y v • v‖ ≤ 2 * ‖y‖ * ‖u - v‖ := by
  have e : inner ℝ y u • u - inner ℝ y v • v = inner ℝ y (u - v) • u + inner ℝ y v • (u - v) := by
    rw [inner_sub_right]; module
  rw [e]
  refine (norm_add_le _ _).trans ?_
  rw [norm_smul, norm_smul, hu, Real.norm_eq_abs, Real.norm_eq_abs]
  have a1 := abs_real_inner_le_norm y (u - v)
  have a2 := abs_real_inner_le_norm y v
  rw [hv, mul_one] at a2
  have a3 := mul_le_mul_of_nonneg_right a2 (norm_nonneg (u - v))
  linarith

theorem orth_close {x y u v : E} (hu : ‖u‖ = 1) (hv : ‖v‖ = 1) :
    ‖(x - inner ℝ x u • u) - (y - inner ℝ y v • v)‖ ≤ ‖x - y‖ + 2 * ‖y‖ * ‖u - v‖ := by
  have e : (x - inner ℝ x u • u) - (y - inner ℝ y v • v) = ((x - y) - inner ℝ (x - y) u • u) - (inner ℝ y u • u - inner ℝ y v • v) := by
    rw [inner_sub_left]; module
  rw [e]
  exact (norm_sub_le _ _).trans (add_le_add (orth_le hu) (along_close hu hv))

theorem orth2_close {x y u1 u2 v1 v2 : E} (h1 : ‖u1‖ = 1) (h2 : ‖u2‖ = 1) (h12 : inner ℝ u1 u2 = 0) (h3 : ‖v1‖ = 1) (h4 : ‖v2‖ = 1) :
    ‖(x - inner ℝ x u1 • u1 - inner ℝ x u2 • u2) - (y - inner ℝ y v1 • v1 - inner ℝ y v2 • v2)‖ ≤ ‖x - y‖ + 2 * ‖y‖ * (‖u1 - v1‖ + ‖u2 - v2‖) := by
  obtain ⟨z, hz⟩ : ∃ z, z = x - y := ⟨_, rfl⟩
  have e0 : inner ℝ (z - inner ℝ z u1 • u1) u2 = inner ℝ z u2 := by
    rw [inner_sub_left, inner_smul_left, h12, mul_zero, sub_zero]
  have e : (x - inner ℝ x u1 • u1 - inner ℝ x u2 • u2) - (y - inner ℝ y v1 • v1 - inner ℝ y v2 • v2) =
      ((z - inner ℝ z u1 • u1) - inner ℝ (z - inner ℝ z u1 • u1) u2 • u2) - (inner ℝ y u1 • u1 - inner ℝ y v1 • v1) - (inner ℝ y u2 • u2 - inner ℝ y v2 • v2) := by
    rw [e0, hz, inner_sub_left, inner_sub_left]; module
  rw [e]
  have a1 := (orth_le (x := z - inner ℝ z u1 • u1) h2).trans (orth_le h1)
  have a2 := along_close (y := y) h1 h3
  have a3 := along_close (y := y) h2 h4
  refine (norm_sub_le _ _).trans ?_
  have := norm_sub_le ((z - inner ℝ z u1 • u1) - inner ℝ (z - inner ℝ z u1 • u1) u2 • u2) (inner ℝ y u1 • u1 - inner ℝ y v1 • v1)
  rw [← hz]
  linarith

end

section
variable {n : Nat}

/-- A normalised vector near a multiple of `w` is near the unit vector of `w`. -/
theorem unit_row {v u w : EuclideanSpace ℝ (Fin n)} {s η w₀ : ℝ} (hn : Normalised v u) (hv : 1 / 10 ^ 8 < ‖v‖) (hs : 0 < s) (hw : w₀ ≤ ‖w‖) (h0 : 0 < w₀)
    (hη : ‖v - s • w‖ ≤ η) : ‖u‖ = 1 ∧ ‖u - unitOf w‖ ≤ 2 * η / (s * w₀) := by
  have hpos : 0 < ‖v‖ := lt_trans (by norm_num) hv
  obtain ⟨u1, u2⟩ := hn.1 hv
  refine ⟨u1, ?_⟩
  have e1 : u = ‖v‖⁻¹ • v := by
    have := congrArg (fun x => ‖v‖⁻¹ • x) u2
    simp only [inv_smul_smul₀ hpos.ne'] at this
    exact this.symm
  have e2 : unitOf w = ‖s • w‖⁻¹ • (s • w) := by
    unfold unitOf
    rw [norm_smul, Real.norm_eq_abs, abs_of_pos hs, smul_smul, mul_inv, mul_comm s⁻¹, mul_assoc, inv_mul_cancel₀ hs.ne', mul_one]
  have w0 : 0 < ‖w‖ := lt_of_lt_of_le h0 hw
  rw [e1, e2]
  refine (unit_close _ _ (norm_pos_iff.1 hpos) (smul_ne_zero hs.ne' (norm_pos_iff.1 w0))).trans ?_
  rw [norm_smul, Real.norm_eq_abs, abs_of_pos hs]
  have := (norm_nonneg _).trans hη
  gcongr

variable {a b o h E F M v₀ w₀ b₀ : ℝ} {g d e f : ℝ → EuclideanSpace ℝ (Fin n)} {c : Curve ℝ}

/-- **C151 (tangents).** The unit tangent of a curve sampled with step `h` is that of the smooth curve up to `2 F h² / v`, at every point, the ends included, where the speed exceeds `1e-8`; `F` is a
Lipschitz constant of the second derivative and `v` a lower bound of the length of the derivative. -/
theorem C151_tangent (hc : WF c) (h3 : 3 ≤ c.size) (hs : SampledAt g a b o h c) (hh : 0 < h) (k1 : DerivOn a b g d) (k2 : DerivOn a b d e) (hF : LipOn a b F e)
    (hv : ∀ x ∈ Icc a b, v₀ ≤ ‖d x‖) (v0 : 0 < v₀) {i : Nat} (hi : i < c.size) (ht : 1 / 10 ^ 8 < ‖rowVec n (firstderiv c).rows i‖) :
    ‖rowVec n (frenet1 c).rows i‖ = 1 ∧ ‖rowVec n (frenet1 c).rows i - unitOf (d (o + i * h))‖ ≤ tanErr F v₀ * h ^ 2 := by
  have b1 := (C115_first hc h3 hs k1 k2 hF hi).1
  rw [abs_of_pos hh] at b1
  obtain ⟨u1, u2⟩ := unit_row (frenet1_row hs h3 hi) ht hh (hv _ (hs.range i hi)) v0 b1
  refine ⟨u1, u2.trans_eq ?_⟩
  unfold tanErr
  field_simp

theorem normal_near0 {η : ℝ} (hc : WF c) (hs : SampledAt g a b o h c) (hv : ∀ x ∈ Icc a b, v₀ ≤ ‖d x‖) (v0 : 0 < v₀) (hE : ∀ x ∈ Icc a b, ‖e x‖ ≤ E) (hh : 0 < h) {i : Nat} (hi : i < c.size)
    {ε : ℝ} (u1 : ‖rowVec n (frenet1 c).rows i‖ = 1) (u2 : ‖rowVec n (frenet1 c).rows i - unitOf (d (o + i * h))‖ ≤ ε)
    (b2 : ‖rowVec n (secondderiv c).rows i - (h ^ 2) • e (o + i * h)‖ ≤ η) :
    ‖rowVec n (normal c).rows i - (h ^ 2) • normalOf (d (o + i * h)) (e (o + i * h))‖ ≤ η + 2 * (h ^ 2 * E) * ε := by
  obtain rfl := hs.ndim
  have hx := hs.range i hi
  have dn : d (o + i * h) ≠ 0 := norm_pos_iff.1 (lt_of_lt_of_le v0 (hv _ hx))
  have hN : rowVec c.ncols (normal c).rows i = _ := vN_eq hc hi
  have hE' : ‖(h ^ 2) • e (o + i * h)‖ ≤ h ^ 2 * E := by
    rw [norm_smul, Real.norm_eq_abs, abs_of_pos (by positivity)]
    exact mul_le_mul_of_nonneg_left (hE _ hx) (by positivity)
  have hE0 : 0 ≤ h ^ 2 * E := (norm_nonneg _).trans hE'
  have e1 : (h ^ 2) • normalOf (d (o + i * h)) (e (o + i * h)) =
      (h ^ 2) • e (o + i * h) - inner ℝ ((h ^ 2) • e (o + i * h)) (unitOf (d (o + i * h))) • unitOf (d (o + i * h)) := by
    unfold normalOf
    rw [inner_smul_left, smul_sub, smul_smul]
    rfl
  rw [hN, e1]
  refine (orth_close u1 (unitOf_norm dn)).trans (add_le_add b2 ?_)
  exact mul_le_mul (mul_le_mul_of_nonneg_left hE' (by norm_num)) u2 (norm_nonneg _) (by positivity)

theorem normal_near {η : ℝ} (hc : WF c) (hs : SampledAt g a b o h c) (hv : ∀ x ∈ Icc a b, v₀ ≤ ‖d x‖) (v0 : 0 < v₀) (hw : ∀ x ∈ Icc a b, w₀ ≤ ‖normalOf (d x) (e x)‖) (w0 : 0 < w₀)
    (hE : ∀ x ∈ Icc a b, ‖e x‖ ≤ E) (hh : 0 < h) {i : Nat} (hi : i < c.size) {ε : ℝ} (u1 : ‖rowVec n (frenet1 c).rows i‖ = 1)
    (u2 : ‖rowVec n (frenet1 c).rows i - unitOf (d (o + i * h))‖ ≤ ε) (b2 : ‖rowVec n (secondderiv c).rows i - (h ^ 2) • e (o + i * h)‖ ≤ η)
    (hn : 1 / 10 ^ 8 < ‖rowVec n (normal c).rows i‖) :
    ‖rowVec n (frenet2 c).rows i‖ = 1 ∧ inner ℝ (rowVec n (frenet1 c).rows i) (rowVec n (frenet2 c).rows i) = 0 ∧
      ‖rowVec n (frenet2 c).rows i - unitOf (normalOf (d (o + i * h)) (e (o + i * h)))‖ ≤ 2 * (η + 2 * (h ^ 2 * E) * ε) / (h ^ 2 * w₀) := by
  have near := normal_near0 hc hs hv v0 hE hh hi u1 u2 b2
  obtain rfl := hs.ndim
  have hx := hs.range i hi
  obtain ⟨a1, a2⟩ := unit_row (C55_unit hc hi).2.1 hn (s := h ^ 2) (by positivity) (hw _ hx) w0 near
  refine ⟨a1, ?_, a2⟩
  have o1 : inner ℝ (vN c i) (vE1 c i) = 0 := by
    rw [vN_eq hc hi, inner_sub_left, inner_smul_left, real_inner_self_eq_norm_sq, show ‖vE1 c i‖ = 1 from u1]
    simp
  have := normalised_orth (C55_unit hc hi).2.1 o1
  rw [real_inner_comm]
  exact this

/-- **C151 (normals, every point).** The unit normal (`frenet2`) of a curve sampled with step `h` is the unit normal of the smooth curve up to a multiple of `h`, at every point, the ends included, where
the tangent and normal vectors of the samples exceed `1e-8`; `w` is a lower bound of the part of the second derivative that is orthogonal to the first. -/
theorem C151_normal (hc : WF c) (h3 : 3 ≤ c.size) (hs : SampledAt g a b o h c) (hh : 0 < h) (k1 : DerivOn a b g d) (k2 : DerivOn a b d e) (hF : LipOn a b F e) (hF0 : 0 ≤ F)
    (hE : ∀ x ∈ Icc a b, ‖e x‖ ≤ E) (hv : ∀ x ∈ Icc a b, v₀ ≤ ‖d x‖) (v0 : 0 < v₀) (hw : ∀ x ∈ Icc a b, w₀ ≤ ‖normalOf (d x) (e x)‖) (w0 : 0 < w₀)
    {i : Nat} (hi : i < c.size) (ht : 1 / 10 ^ 8 < ‖rowVec n (firstderiv c).rows i‖) (hn : 1 / 10 ^ 8 < ‖rowVec n (normal c).rows i‖) :
    ‖rowVec n (frenet2 c).rows i - unitOf (normalOf (d (o + i * h)) (e (o + i * h)))‖ ≤ 2 / w₀ * (6 * F + 2 * E * tanErr F v₀ * h) * h := by
  obtain ⟨u1, u2⟩ := C151_tangent hc h3 hs hh k1 k2 hF hv v0 hi ht
  have b2 := C115_second hc h3 hs k1 k2 hF hF0 hi
  rw [abs_of_pos hh] at b2
  refine (normal_near hc hs hv v0 hw w0 hE hh hi u1 u2 b2 hn).2.2.trans_eq ?_
  field_simp

/-- **C151 (normals, inside).** At points that are not among the first two and last two, the error of the unit normal is a multiple of `h²`; `M` is a Lipschitz constant of the third derivative. -/
theorem C151_normal_inside (hc : WF c) (h3 : 3 ≤ c.size) (hs : SampledAt g a b o h c) (hh : 0 < h) (k1 : DerivOn a b g d) (k2 : DerivOn a b d e) (k3 : DerivOn a b e f) (hM : LipOn a b M f)
    (hF : LipOn a b F e) (hE : ∀ x ∈ Icc a b, ‖e x‖ ≤ E) (hv : ∀ x ∈ Icc a b, v₀ ≤ ‖d x‖) (v0 : 0 < v₀) (hw : ∀ x ∈ Icc a b, w₀ ≤ ‖normalOf (d x) (e x)‖) (w0 : 0 < w₀)
    {i : Nat} (i1 : 2 ≤ i) (i2 : i + 2 < c.size) (ht : 1 / 10 ^ 8 < ‖rowVec n (firstderiv c).rows i‖) (hn : 1 / 10 ^ 8 < ‖rowVec n (normal c).rows i‖) :
    ‖rowVec n (frenet2 c).rows i - unitOf (normalOf (d (o + i * h)) (e (o + i * h)))‖ ≤ norErr E F M v₀ w₀ * h ^ 2 := by
  have hi : i < c.size := by omega
  obtain ⟨u1, u2⟩ := C151_tangent hc h3 hs hh k1 k2 hF hv v0 hi ht
  have b2 := (C115_third_partial hc h3 hs k1 k2 k3 hM (i := i)).1 i1 i2
  rw [abs_of_pos hh] at b2
  refine (normal_near hc hs hv v0 hw w0 hE hh hi u1 u2 b2 hn).2.2.trans_eq ?_
  unfold norErr
  field_simp

theorem binormal_near {D X Y : EuclideanSpace ℝ (Fin n)} {η ε₁ ε₂ : ℝ} (hc : WF c) (hd : c.ncols = n) {i : Nat} (hi : i < c.size) (hD : D ≠ 0) (hX : normalOf D X ≠ 0) (hF : ‖Y‖ ≤ F) (hh : 0 < h)
    (u1 : ‖rowVec n (frenet1 c).rows i‖ = 1) (u2 : ‖rowVec n (frenet1 c).rows i - unitOf D‖ ≤ ε₁) (n1 : ‖rowVec n (frenet2 c).rows i‖ = 1)
    (n2 : inner ℝ (rowVec n (frenet1 c).rows i) (rowVec n (frenet2 c).rows i) = 0) (n3 : ‖rowVec n (frenet2 c).rows i - unitOf (normalOf D X)‖ ≤ ε₂)
    (b3 : ‖rowVec n (thirdderiv c).rows i - (h ^ 3) • Y‖ ≤ η) :
    ‖rowVec n (binormal c).rows i - (h ^ 3) • binormalOf D X Y‖ ≤ η + 2 * (h ^ 3 * F) * (ε₁ + ε₂) := by
  obtain rfl := hd
  have hB : rowVec c.ncols (binormal c).rows i = _ := vB_eq hc hi
  have hFn : ‖(h ^ 3) • Y‖ ≤ h ^ 3 * F := by
    rw [norm_smul, Real.norm_eq_abs, abs_of_pos (by positivity)]
    exact mul_le_mul_of_nonneg_left hF (by positivity)
  have hF0 : 0 ≤ h ^ 3 * F := (norm_nonneg _).trans hFn
  have e1 : (h ^ 3) • binormalOf D X Y = (h ^ 3) • Y - inner ℝ ((h ^ 3) • Y) (unitOf D) • unitOf D -
        inner ℝ ((h ^ 3) • Y) (unitOf (normalOf D X)) • unitOf (normalOf D X) := by
    unfold binormalOf
    rw [inner_smul_left, inner_smul_left, smul_sub, smul_sub, smul_smul, smul_smul]
    rfl
  rw [hB, e1]
  refine (orth2_close u1 n1 n2 (unitOf_norm hD) (unitOf_norm hX)).trans (add_le_add b3 ?_)
  have s1 := add_le_add u2 n3
  refine mul_le_mul (mul_le_mul_of_nonneg_left hFn (by norm_num)) s1 (add_nonneg (norm_nonneg _) (norm_nonneg _)) ?_
  linarith

/-- **C151 (binormals).** At points that are not among the first three and last three, the unit binormal (`frenet3`) is the unit vector in the direction of the part of the third derivative that is orthogonal
to the first two, up to a multiple of `h`. -/
theorem C151_binormal (hc : WF c) (h3 : 3 ≤ c.size) (hs : SampledAt g a b o h c) (hh : 0 < h) (k1 : DerivOn a b g d) (k2 : DerivOn a b d e) (k3 : DerivOn a b e f) (hM : LipOn a b M f)
    (hF : LipOn a b F e) (hF' : ∀ x ∈ Icc a b, ‖f x‖ ≤ F) (hE : ∀ x ∈ Icc a b, ‖e x‖ ≤ E) (hv : ∀ x ∈ Icc a b, v₀ ≤ ‖d x‖) (v0 : 0 < v₀)
    (hw : ∀ x ∈ Icc a b, w₀ ≤ ‖normalOf (d x) (e x)‖) (w0 : 0 < w₀) (hb : ∀ x ∈ Icc a b, b₀ ≤ ‖binormalOf (d x) (e x) (f x)‖) (b0 : 0 < b₀)
    {i : Nat} (i1 : 3 ≤ i) (i2 : i + 3 < c.size) (ht : 1 / 10 ^ 8 < ‖rowVec n (firstderiv c).rows i‖) (hn : 1 / 10 ^ 8 < ‖rowVec n (normal c).rows i‖)
    (hbn : 1 / 10 ^ 8 < ‖rowVec n (binormal c).rows i‖) :
    ‖rowVec n (frenet3 c).rows i‖ = 1 ∧
      ‖rowVec n (frenet3 c).rows i - unitOf (binormalOf (d (o + i * h)) (e (o + i * h)) (f (o + i * h)))‖ ≤ binErr E F M v₀ w₀ b₀ h * h := by
  have hi : i < c.size := by omega
  have hx := hs.range i hi
  obtain ⟨u1, u2⟩ := C151_tangent hc h3 hs hh k1 k2 hF hv v0 hi ht
  have b2 := (C115_third_partial hc h3 hs k1 k2 k3 hM (i := i)).1 (by omega) (by omega)
  have b3 := (C115_third_partial hc h3 hs k1 k2 k3 hM (i := i)).2 i1 i2
  rw [abs_of_pos hh] at b2 b3
  obtain ⟨n1, n2, -⟩ := normal_near hc hs hv v0 hw w0 hE hh hi u1 u2 b2 hn
  have n3 := C151_normal_inside hc h3 hs hh k1 k2 k3 hM hF hE hv v0 hw w0 (by omega) (by omega) ht hn
  have dn : d (o + i * h) ≠ 0 := norm_pos_iff.1 (lt_of_lt_of_le v0 (hv _ hx))
  have nn : normalOf (d (o + i * h)) (e (o + i * h)) ≠ 0 := norm_pos_iff.1 (lt_of_lt_of_le w0 (hw _ hx))
  have near := binormal_near hc hs.ndim hi dn nn (hF' _ hx) hh u1 u2 n1 n2 n3 b3
  have hnorm : Normalised (rowVec n (binormal c).rows i) (rowVec n (frenet3 c).rows i) := by
    obtain rfl := hs.ndim
    exact (C55_unit hc hi).2.2
  obtain ⟨a1, a2⟩ := unit_row hnorm hbn (s := h ^ 3) (by positivity) (hb _ hx) b0 near
  refine ⟨a1, a2.trans_eq ?_⟩
  unfold binErr
  field_simp

theorem far_of_near {x y : EuclideanSpace ℝ (Fin n)} {s η w θ : ℝ} (hs : 0 < s) (hw : w ≤ ‖y‖) (hx : ‖x - s • y‖ ≤ η) (h : θ < s * w - η) : θ < ‖x‖ := by
  have e1 := norm_sub_norm_le (s • y) x
  rw [norm_sub_rev, norm_smul, Real.norm_eq_abs, abs_of_pos hs] at e1
  have := mul_le_mul_of_nonneg_left hw hs.le
  linarith

/-- **C151 (the threshold).** Conditions on the step alone under which the tangent, normal and binormal vectors of the samples exceed `1e-8`: at every point, inside and three points away from the ends. -/
theorem C151_threshold (hc : WF c) (h3 : 3 ≤ c.size) (hs : SampledAt g a b o h c) (hh : 0 < h) (k1 : DerivOn a b g d) (k2 : DerivOn a b d e) (k3 : DerivOn a b e f) (hM : LipOn a b M f)
    (hF : ∀ x ∈ Icc a b, ‖f x‖ ≤ F) (hE : ∀ x ∈ Icc a b, ‖e x‖ ≤ E) (hv : ∀ x ∈ Icc a b, v₀ ≤ ‖d x‖) (v0 : 0 < v₀)
    (hw : ∀ x ∈ Icc a b, w₀ ≤ ‖normalOf (d x) (e x)‖) (w0 : 0 < w₀) (hb : ∀ x ∈ Icc a b, b₀ ≤ ‖binormalOf (d x) (e x) (f x)‖) :
    (1 / 10 ^ 8 < h * v₀ - F * h ^ 3 → ∀ i, i < c.size → 1 / 10 ^ 8 < ‖rowVec n (firstderiv c).rows i‖) ∧
    (1 / 10 ^ 8 < h * v₀ - F * h ^ 3 → 1 / 10 ^ 8 < h ^ 2 * w₀ - (M / 3 * h ^ 4 + 2 * (h ^ 2 * E) * (tanErr F v₀ * h ^ 2)) →
      (∀ i, 2 ≤ i → i + 2 < c.size → 1 / 10 ^ 8 < ‖rowVec n (normal c).rows i‖) ∧
      (1 / 10 ^ 8 < h ^ 3 * b₀ - (7 / 8 * M * h ^ 4 + 2 * (h ^ 3 * F) * (tanErr F v₀ * h ^ 2 + norErr E F M v₀ w₀ * h ^ 2)) →
        ∀ i, 3 ≤ i → i + 3 < c.size → 1 / 10 ^ 8 < ‖rowVec n (binormal c).rows i‖)) := by
  have hFl : LipOn a b F e := LipOn.of_deriv k3 hF
  have T : 1 / 10 ^ 8 < h * v₀ - F * h ^ 3 → ∀ i, i < c.size → 1 / 10 ^ 8 < ‖rowVec n (firstderiv c).rows i‖ := by
    intro t i hi
    have b1 := (C115_first hc h3 hs k1 k2 hFl hi).1
    rw [abs_of_pos hh] at b1
    exact far_of_near hh (hv _ (hs.range i hi)) b1 t
  have N : 1 / 10 ^ 8 < h * v₀ - F * h ^ 3 → 1 / 10 ^ 8 < h ^ 2 * w₀ - (M / 3 * h ^ 4 + 2 * (h ^ 2 * E) * (tanErr F v₀ * h ^ 2)) →
      ∀ i, 2 ≤ i → i + 2 < c.size → 1 / 10 ^ 8 < ‖rowVec n (normal c).rows i‖ := by
    intro t t' i i1 i2
    have hi : i < c.size := by omega
    obtain ⟨u1, u2⟩ := C151_tangent hc h3 hs hh k1 k2 hFl hv v0 hi (T t i hi)
    have b2 := (C115_third_partial hc h3 hs k1 k2 k3 hM (i := i)).1 i1 i2
    rw [abs_of_pos hh] at b2
    exact far_of_near (by positivity) (hw _ (hs.range i hi)) (normal_near0 hc hs hv v0 hE hh hi u1 u2 b2) t'
  refine ⟨T, fun t t' => ⟨N t t', fun t'' i i1 i2 => ?_⟩⟩
  have hi : i < c.size := by omega
  have hx := hs.range i hi
  have n0 := N t t' i (by omega) (by omega)
  obtain ⟨u1, u2⟩ := C151_tangent hc h3 hs hh k1 k2 hFl hv v0 hi (T t i hi)
  have b2 := (C115_third_partial hc h3 hs k1 k2 k3 hM (i := i)).1 (by omega) (by omega)
  have b3 := (C115_third_partial hc h3 hs k1 k2 k3 hM (i := i)).2 i1 i2
  rw [abs_of_pos hh] at b2 b3
  obtain ⟨n1, n2, -⟩ := normal_near hc hs hv v0 hw w0 hE hh hi u1 u2 b2 n0
  have n3 := C151_normal_inside hc h3 hs hh k1 k2 k3 hM hFl hE hv v0 hw w0 (by omega) (by omega) (T t i hi) n0
  have dn : d (o + i * h) ≠ 0 := norm_pos_iff.1 (lt_of_lt_of_le v0 (hv _ hx))
  have nn : normalOf (d (o + i * h)) (e (o + i * h)) ≠ 0 := norm_pos_iff.1 (lt_of_lt_of_le w0 (hw _ hx))
  exact far_of_near (by positivity) (hb _ hx) (binormal_near hc hs.ndim hi dn nn (hF _ hx) hh u1 u2 n1 n2 n3 b3) t''

/-! ### The torsion of the smooth curve -/

theorem mul_zero_deriv {p q : ℝ → ℝ} {q' x : ℝ} {S : Set ℝ} (hp : ContinuousWithinAt p S x) (hq : HasDerivWithinAt q q' S x) (h0 : q x = 0) :
    HasDerivWithinAt (fun s => p s * q s) (p x * q') S x := by
  rw [hasDerivWithinAt_iff_tendsto_slope] at hq ⊢
  have e : slope (fun s => p s * q s) x = fun y => p y * slope q x y := by
    funext y
    simp only [slope_def_field, h0, mul_zero, sub_zero]
    ring
  rw [e]
  exact (hp.mono_left (nhdsWithin_mono _ diff_subset)).mul hq

theorem orth_parts {D X Y : EuclideanSpace ℝ (Fin n)} (hD : D ≠ 0) (hX : normalOf D X ≠ 0) :
    inner ℝ (normalOf D X) (unitOf D) = 0 ∧ inner ℝ (binormalOf D X Y) (unitOf D) = 0 ∧ inner ℝ (binormalOf D X Y) (unitOf (normalOf D X)) = 0 ∧
      inner ℝ Y (binormalOf D X Y) = ‖binormalOf D X Y‖ ^ 2 := by
  have t1 : inner ℝ (unitOf D) (unitOf D) = (1 : ℝ) := by rw [real_inner_self_eq_norm_sq, unitOf_norm hD]; norm_num
  have t2 : inner ℝ (unitOf (normalOf D X)) (unitOf (normalOf D X)) = (1 : ℝ) := by rw [real_inner_self_eq_norm_sq, unitOf_norm hX]; norm_num
  have o1 : inner ℝ (normalOf D X) (unitOf D) = 0 := by
    unfold normalOf
    rw [inner_sub_left, inner_smul_left, t1]
    simp
  have o2 : inner ℝ (unitOf (normalOf D X)) (unitOf D) = 0 := by
    unfold unitOf at o1 ⊢
    rw [inner_smul_left, o1, mul_zero]
  have o3 : inner ℝ (unitOf D) (unitOf (normalOf D X)) = 0 := by rw [real_inner_comm]; exact o2
  have o4 : inner ℝ (binormalOf D X Y) (unitOf D) = 0 := by
    unfold binormalOf
    rw [inner_sub_left, inner_sub_left, inner_smul_left, inner_smul_left, t1, o2]
    simp
  have o5 : inner ℝ (binormalOf D X Y) (unitOf (normalOf D X)) = 0 := by
    unfold binormalOf
    rw [inner_sub_left, inner_sub_left, inner_smul_left, inner_smul_left, t2, o3]
    simp
  refine ⟨o1, o4, o5, ?_⟩
  have e : Y = binormalOf D X Y + inner ℝ Y (unitOf D) • unitOf D + inner ℝ Y (unitOf (normalOf D X)) • unitOf (normalOf D X) := by
    unfold binormalOf; abel
  have o4' : inner ℝ (unitOf D) (binormalOf D X Y) = 0 := by rw [real_inner_comm]; exact o4
  have o5' : inner ℝ (unitOf (normalOf D X)) (binormalOf D X Y) = 0 := by rw [real_inner_comm]; exact o5
  conv_lhs => lhs; rw [e]
  rw [inner_add_left, inner_add_left, inner_smul_left, inner_smul_left, o4', o5', real_inner_self_eq_norm_sq]
  simp

/-- The component of the derivative of the unit normal in the direction of the binormal. -/
theorem normal_turns (hab : a < b) (k2 : DerivOn a b d e) (k3 : DerivOn a b e f) {x : ℝ} (hx : x ∈ Icc a b) (hD : d x ≠ 0) (hX : normalOf (d x) (e x) ≠ 0)
    (hY : binormalOf (d x) (e x) (f x) ≠ 0) {ν' : EuclideanSpace ℝ (Fin n)} (hN : HasDerivWithinAt (fun s => unitOf (normalOf (d s) (e s))) ν' (Icc a b) x) :
    inner ℝ ν' (unitOf (binormalOf (d x) (e x) (f x))) = ‖binormalOf (d x) (e x) (f x)‖ / ‖normalOf (d x) (e x)‖ := by
  obtain ⟨o1, o2, o3, o4⟩ := orth_parts (Y := f x) hD hX
  obtain ⟨β, hβ⟩ : ∃ β, β = binormalOf (d x) (e x) (f x) := ⟨_, rfl⟩
  obtain ⟨B, hB⟩ : ∃ B, B = unitOf β := ⟨_, rfl⟩
  rw [← hβ] at o2 o3 o4 hY ⊢
  rw [← hB]
  have β0 : ‖β‖ ≠ 0 := norm_ne_zero_iff.2 hY
  have dB : inner ℝ (d x) B = 0 := by
    have e1 : d x = ‖d x‖ • unitOf (d x) := by
      unfold unitOf
      rw [smul_smul, mul_inv_cancel₀ (norm_ne_zero_iff.2 hD), one_smul]
    rw [e1, hB, inner_smul_left, real_inner_comm]
    unfold unitOf at o2 ⊢
    rw [inner_smul_left, o2]
    simp
  have nB : inner ℝ (normalOf (d x) (e x)) B = 0 := by
    have e1 : normalOf (d x) (e x) = ‖normalOf (d x) (e x)‖ • unitOf (normalOf (d x) (e x)) := by
      conv_rhs => rhs; unfold unitOf
      rw [smul_smul, mul_inv_cancel₀ (norm_ne_zero_iff.2 hX), one_smul]
    rw [e1, hB, inner_smul_left, real_inner_comm]
    unfold unitOf at o3 ⊢
    rw [inner_smul_left, o3]
    simp
  have q0 : ∀ s, inner ℝ (normalOf (d s) (e s)) B = inner ℝ (e s) B - inner ℝ (e s) (unitOf (d s)) * ‖d s‖⁻¹ * inner ℝ (d s) B := by
    intro s
    unfold normalOf
    rw [inner_sub_left, inner_smul_left]
    conv_lhs => rhs; rhs; unfold unitOf
    rw [inner_smul_left]
    simp only [conj_trivial]
    ring
  have eB : inner ℝ (e x) B = 0 := by
    have := q0 x
    rw [nB, dB, mul_zero, sub_zero] at this
    exact this.symm
  have fB : inner ℝ (f x) B = ‖β‖ := by
    rw [hB]
    unfold unitOf
    rw [inner_smul_right, o4]
    field_simp
  have cd : ContinuousWithinAt d (Icc a b) x := (k2 x hx).continuousWithinAt
  have ce : ContinuousWithinAt e (Icc a b) x := (k3 x hx).continuousWithinAt
  have cdi : ContinuousWithinAt (fun s => ‖d s‖⁻¹) (Icc a b) x := cd.norm.inv₀ (norm_ne_zero_iff.2 hD)
  have cT : ContinuousWithinAt (fun s => unitOf (d s)) (Icc a b) x := cdi.smul cd
  have cet : ContinuousWithinAt (fun s => inner ℝ (e s) (unitOf (d s))) (Icc a b) x := ce.inner cT
  have cn : ContinuousWithinAt (fun s => normalOf (d s) (e s)) (Icc a b) x := ce.sub (cet.smul cT)
  have cni : ContinuousWithinAt (fun s => ‖normalOf (d s) (e s)‖⁻¹) (Icc a b) x := cn.norm.inv₀ (norm_ne_zero_iff.2 hX)
  have hdB : HasDerivWithinAt (fun s => inner ℝ (d s) B) (inner ℝ (e x) B) (Icc a b) x :=
    ((k2 x hx).inner ℝ (hasDerivWithinAt_const x _ B)).congr_deriv (by simp)
  have heB : HasDerivWithinAt (fun s => inner ℝ (e s) B) (inner ℝ (f x) B) (Icc a b) x :=
    ((k3 x hx).inner ℝ (hasDerivWithinAt_const x _ B)).congr_deriv (by simp)
  have hq : HasDerivWithinAt (fun s => inner ℝ (normalOf (d s) (e s)) B) ‖β‖ (Icc a b) x := by
    have := heB.sub (mul_zero_deriv (p := fun s => inner ℝ (e s) (unitOf (d s)) * ‖d s‖⁻¹) (cet.mul cdi) hdB dB)
    rw [eB, mul_zero, sub_zero, fB] at this
    refine this.congr (fun s _ => ?_) ?_
    · exact q0 s
    · exact q0 x
  have h1 := mul_zero_deriv cni hq nB
  have h2 : HasDerivWithinAt (fun s => inner ℝ (unitOf (normalOf (d s) (e s))) B) (inner ℝ ν' B) (Icc a b) x :=
    (hN.inner ℝ (hasDerivWithinAt_const x _ B)).congr_deriv (by simp)
  have h3 : (fun s => inner ℝ (unitOf (normalOf (d s) (e s))) B) = fun s => ‖normalOf (d s) (e s)‖⁻¹ * inner ℝ (normalOf (d s) (e s)) B := by
    funext s
    unfold unitOf
    rw [inner_smul_left]
    simp
  rw [h3] at h2
  have := (uniqueDiffOn_Icc hab x hx).eq_deriv _ h2 h1
  rw [this]
  field_simp

theorem torsion_row (hc : WF c) (h3 : 3 ≤ c.size) (hd : c.ncols = n) {i : Nat} (hi : i < c.size) (hT : 0 < ‖rowVec n (firstderiv c).rows i‖) :
    (torsion c)[i]? = some (.fin (inner ℝ (gradV c.size (fun i => rowVec n (frenet2 c).rows i) i) (rowVec n (frenet3 c).rows i) / ‖rowVec n (firstderiv c).rows i‖)) := by
  obtain rfl := hd
  obtain ⟨m1, m2, m3, m4, m5, m6, m7, m8⟩ := shapes_m c
  obtain ⟨k2, k3, k4, k5, k6, k7, k8⟩ := shapes_k c (by omega)
  have hk : (firstderiv c).k ≤ c.ncols := firstderiv_k_le (by have := hc.two_le; omega) (by omega)
  have hg : (gradient (frenet2 c)).k = (firstderiv c).k := (gradient_k (by omega)).trans k6
  unfold torsion
  rw [List.getElem?_map, List.getElem?_range hi]
  simp only [Option.map_some, Option.some.injEq]
  unfold torsionAt
  rw [dotRow_eq (n := c.ncols) (by omega) (by omega) (by rw [gradient_m]; omega) (by omega), rowNorm_eq (n := c.ncols) hk (by omega), Val.div_fin hT.ne',
    grad_row (by omega) (by omega), m6]

/-- **C151 (torsion).** At points that are not among the first three and last three, the torsion of a curve sampled with step `h` is the torsion `‖β‖ / (‖ν‖ ‖d‖)` of the smooth curve (`ν`, `β` the parts of the
second and third derivative that are orthogonal to the lower ones) up to a multiple of `h`, as long as the vectors that are normalised exceed `1e-8`. `K` is a Lipschitz constant and `Q` a bound of the derivative
of the unit normal. -/
theorem C151_torsion {K Q : ℝ} {ν' : ℝ → EuclideanSpace ℝ (Fin n)} (hc : WF c) (hs : SampledAt g a b o h c) (hh : 0 < h) (k1 : DerivOn a b g d) (k2 : DerivOn a b d e) (k3 : DerivOn a b e f)
    (hM : LipOn a b M f) (hM0 : 0 ≤ M) (hF : ∀ x ∈ Icc a b, ‖f x‖ ≤ F) (hE : ∀ x ∈ Icc a b, ‖e x‖ ≤ E) (hv : ∀ x ∈ Icc a b, v₀ ≤ ‖d x‖) (v0 : 0 < v₀)
    (hw : ∀ x ∈ Icc a b, w₀ ≤ ‖normalOf (d x) (e x)‖) (w0 : 0 < w₀) (hb : ∀ x ∈ Icc a b, b₀ ≤ ‖binormalOf (d x) (e x) (f x)‖) (b0 : 0 < b₀)
    (hN : DerivOn a b (fun s => unitOf (normalOf (d s) (e s))) ν') (hK : LipOn a b K ν') (hK0 : 0 ≤ K) (hQ : ∀ x ∈ Icc a b, ‖ν' x‖ ≤ Q) (hsm : F * h ^ 2 ≤ v₀ / 2)
    {i : Nat} (i1 : 3 ≤ i) (i2 : i + 3 < c.size)
    (ht : ∀ k, i ≤ k + 1 → k ≤ i + 1 → 1 / 10 ^ 8 < ‖rowVec n (firstderiv c).rows k‖ ∧ 1 / 10 ^ 8 < ‖rowVec n (normal c).rows k‖) (hbn : 1 / 10 ^ 8 < ‖rowVec n (binormal c).rows i‖) :
    ∃ τ, (torsion c)[i]? = some (.fin τ) ∧
      |τ - ‖binormalOf (d (o + i * h)) (e (o + i * h)) (f (o + i * h))‖ / ‖normalOf (d (o + i * h)) (e (o + i * h))‖ / ‖d (o + i * h)‖| ≤
        2 / v₀ * ((2 * K + norErr E F M v₀ w₀ + Q * binErr E F M v₀ w₀ b₀ h) * h) + 2 * Q * F * h ^ 2 / v₀ ^ 2 := by
  have hi : i < c.size := by omega
  have h3 : 3 ≤ c.size := by omega
  have hx := hs.range i hi
  have hab : a < b := by
    have r1 := (hs.range 0 (by show 0 < c.size; omega)).1
    have r2 := (hs.range 1 (by show 1 < c.size; omega)).2
    push_cast at r1 r2
    linarith
  have hFl : LipOn a b F e := LipOn.of_deriv k3 hF
  have hF0 : 0 ≤ F := (norm_nonneg _).trans (hF _ hx)
  have hE0 : 0 ≤ E := (norm_nonneg _).trans (hE _ hx)
  have dn : d (o + i * h) ≠ 0 := norm_pos_iff.1 (lt_of_lt_of_le v0 (hv _ hx))
  have nn : normalOf (d (o + i * h)) (e (o + i * h)) ≠ 0 := norm_pos_iff.1 (lt_of_lt_of_le w0 (hw _ hx))
  have bn : binormalOf (d (o + i * h)) (e (o + i * h)) (f (o + i * h)) ≠ 0 := norm_pos_iff.1 (lt_of_lt_of_le b0 (hb _ hx))
  have hQ0 : 0 ≤ Q := (norm_nonneg _).trans (hQ _ hx)
  have tan0 : 0 ≤ tanErr F v₀ := by unfold tanErr; positivity
  have nor0 : 0 ≤ norErr E F M v₀ w₀ := by unfold norErr; positivity
  have bin0 : 0 ≤ binErr E F M v₀ w₀ b₀ h := by unfold binErr; positivity
  obtain ⟨t1, t2⟩ := ht i (by omega) (by omega)
  obtain ⟨c1, c2⟩ := C151_binormal hc h3 hs hh k1 k2 k3 hM hFl hF hE hv v0 hw w0 hb b0 i1 i2 t1 t2 hbn
  have turn := normal_turns hab k2 k3 hx dn nn bn (hN _ hx)
  obtain ⟨B, hB⟩ : ∃ B, B = unitOf (binormalOf (d (o + i * h)) (e (o + i * h)) (f (o + i * h))) := ⟨_, rfl⟩
  rw [← hB] at c2 turn
  -- the difference of the unit normals
  have gr : ‖gradV c.size (fun i => rowVec n (frenet2 c).rows i) i - h • ν' (o + i * h)‖ ≤ (2 * K + norErr E F M v₀ w₀) * h ^ 2 := by
    have f1 := gradV_first1 (g := fun s => unitOf (normalOf (d s) (e s))) hs.range hN hK h3 hK0 hi
    have inner' : ∀ u : Nat → EuclideanSpace ℝ (Fin n), gradV c.size u i = (1 / 2 : ℝ) • (u (i + 1) - u (i - 1)) := by
      intro u
      unfold gradV
      rw [if_neg (by omega), if_neg (by omega)]
    have f2 : ∀ k, i ≤ k + 1 → k ≤ i + 1 → ‖rowVec n (frenet2 c).rows k - unitOf (normalOf (d (o + k * h)) (e (o + k * h)))‖ ≤ norErr E F M v₀ w₀ * h ^ 2 :=
      fun k q1 q2 => C151_normal_inside hc h3 hs hh k1 k2 k3 hM hFl hE hv v0 hw w0 (by omega) (by omega) (ht k q1 q2).1 (ht k q1 q2).2
    have g1 := f2 (i + 1) (by omega) (by omega)
    have g2 := f2 (i - 1) (by omega) (by omega)
    have hl : c.rows.length = c.size := rfl
    simp only [hl, inner'] at f1 ⊢
    obtain ⟨A1, hA1⟩ : ∃ A, A = rowVec n (frenet2 c).rows (i + 1) := ⟨_, rfl⟩
    obtain ⟨A2, hA2⟩ : ∃ A, A = rowVec n (frenet2 c).rows (i - 1) := ⟨_, rfl⟩
    obtain ⟨N1, hN1⟩ : ∃ A, A = unitOf (normalOf (d (o + (i + 1 : ℕ) * h)) (e (o + (i + 1 : ℕ) * h))) := ⟨_, rfl⟩
    obtain ⟨N2, hN2⟩ : ∃ A, A = unitOf (normalOf (d (o + (i - 1 : ℕ) * h)) (e (o + (i - 1 : ℕ) * h))) := ⟨_, rfl⟩
    rw [← hA1, ← hN1] at g1
    rw [← hA2, ← hN2] at g2
    rw [← hN1, ← hN2] at f1
    rw [← hA1, ← hA2, show (1 / 2 : ℝ) • (A1 - A2) - h • ν' (o + i * h) =
      ((1 / 2 : ℝ) • (N1 - N2) - h • ν' (o + i * h)) + (1 / 2 : ℝ) • ((A1 - N1) - (A2 - N2)) by module]
    refine (norm_add_le _ _).trans ?_
    rw [norm_smul, Real.norm_eq_abs, abs_of_pos (by norm_num : (0 : ℝ) < 1 / 2)]
    have := norm_sub_le (A1 - N1) (A2 - N2)
    rw [abs_of_pos hh] at f1
    linarith
  have hA : |inner ℝ (gradV c.size (fun i => rowVec n (frenet2 c).rows i) i) (rowVec n (frenet3 c).rows i) - h * inner ℝ (ν' (o + i * h)) B| ≤
      (2 * K + norErr E F M v₀ w₀ + Q * binErr E F M v₀ w₀ b₀ h) * h ^ 2 := by
    obtain ⟨G, hG⟩ : ∃ G, G = gradV c.size (fun i => rowVec n (frenet2 c).rows i) i := ⟨_, rfl⟩
    obtain ⟨R, hR⟩ : ∃ R, R = rowVec n (frenet3 c).rows i := ⟨_, rfl⟩
    rw [← hG] at gr ⊢
    rw [← hR] at c1 c2 ⊢
    have ee : inner ℝ G R - h * inner ℝ (ν' (o + i * h)) B = inner ℝ (G - h • ν' (o + i * h)) R + h * inner ℝ (ν' (o + i * h)) (R - B) := by
      rw [inner_sub_left, inner_sub_right, inner_smul_left]
      simp only [conj_trivial]
      ring
    rw [ee]
    have s1 := abs_real_inner_le_norm (G - h • ν' (o + i * h)) R
    have s2 := abs_real_inner_le_norm (ν' (o + i * h)) (R - B)
    rw [c1, mul_one] at s1
    have s3 : ‖ν' (o + i * h)‖ * ‖R - B‖ ≤ Q * (binErr E F M v₀ w₀ b₀ h * h) := mul_le_mul (hQ _ hx) c2 (norm_nonneg _) hQ0
    refine (abs_add_le _ _).trans ?_
    rw [abs_mul, abs_of_pos hh]
    have s4 := mul_le_mul_of_nonneg_left (s2.trans s3) hh.le
    calc _ ≤ (2 * K + norErr E F M v₀ w₀) * h ^ 2 + h * (Q * (binErr E F M v₀ w₀ b₀ h * h)) := add_le_add (s1.trans gr) s4
      _ = _ := by ring
  have hP : |‖rowVec n (firstderiv c).rows i‖ - h * ‖d (o + i * h)‖| ≤ F * h ^ 3 := by
    have b1 := (C115_first hc h3 hs k1 k2 hFl hi).1
    rw [abs_of_pos hh] at b1
    have := (abs_norm_sub_norm_le _ _).trans b1
    rwa [norm_smul, Real.norm_eq_abs, abs_of_pos hh] at this
  have t0 : 0 ≤ inner ℝ (ν' (o + i * h)) B := by rw [turn]; positivity
  have tQ : inner ℝ (ν' (o + i * h)) B ≤ Q := by
    have := (le_abs_self _).trans (abs_real_inner_le_norm (ν' (o + i * h)) B)
    rw [hB, unitOf_norm bn, mul_one, ← hB] at this
    exact this.trans (hQ _ hx)
  obtain ⟨q1, q2⟩ := quot_close hh hA hP (hv _ hx) v0 t0 tQ hF0 (by positivity) hsm
  refine ⟨_, torsion_row hc h3 hs.ndim hi q1, ?_⟩
  rw [turn] at q2
  exact q2


theorem orth_le' {x u : EuclideanSpace ℝ (Fin n)} (hu : ‖u‖ ≤ 1) : ‖x - inner ℝ x u • u‖ ≤ ‖x‖ := by
  refine le_of_sq_le_sq ?_ (norm_nonneg _)
  rw [← real_inner_self_eq_norm_sq, ← real_inner_self_eq_norm_sq, inner_sub_left, inner_sub_right, inner_sub_right]
  simp only [inner_smul_left, inner_smul_right, conj_trivial, real_inner_comm x u]
  have h1 : inner ℝ u u ≤ (1 : ℝ) := by
    rw [real_inner_self_eq_norm_sq]
    nlinarith [norm_nonneg u]
  nlinarith [mul_le_mul_of_nonneg_left h1 (sq_nonneg (inner ℝ x u : ℝ))]

theorem normalised_le {v u : EuclideanSpace ℝ (Fin n)} (h : Normalised v u) : ‖u‖ ≤ 1 := by
  rcases lt_or_ge (1 / 10 ^ 8) ‖v‖ with k | k
  · exact (h.1 k).1.le
  · rw [h.2 k]; exact k.trans (by norm_num)

/-- **C151 (a step that is too fine).** The threshold `1e-8` is absolute: when the step is so small that `h³ F + (7/8) M h⁴ ≤ 1e-8`, the binormal vectors of the samples are taken for zero and not
normalised, and the torsion comes out as (almost) zero, whatever the torsion of the smooth curve is. -/
theorem C151_fine (hc : WF c) (hs : SampledAt g a b o h c) (hh : 0 < h) (k1 : DerivOn a b g d) (k2 : DerivOn a b d e) (k3 : DerivOn a b e f) (hM : LipOn a b M f)
    (hF : ∀ x ∈ Icc a b, ‖f x‖ ≤ F) (hv : ∀ x ∈ Icc a b, v₀ ≤ ‖d x‖) (hst : 1 / 10 ^ 8 < h * v₀ - F * h ^ 3) (hfine : h ^ 3 * F + 7 / 8 * M * h ^ 4 ≤ 1 / 10 ^ 8)
    {i : Nat} (i1 : 3 ≤ i) (i2 : i + 3 < c.size) :
    rowVec n (frenet3 c).rows i = rowVec n (binormal c).rows i ∧ ‖rowVec n (binormal c).rows i‖ ≤ 1 / 10 ^ 8 ∧
      ∃ τ, (torsion c)[i]? = some (.fin τ) ∧ |τ| ≤ 1 / 10 ^ 8 / (h * v₀ - F * h ^ 3) := by
  have hi : i < c.size := by omega
  have h3 : 3 ≤ c.size := by omega
  have hx := hs.range i hi
  have hFl : LipOn a b F e := LipOn.of_deriv k3 hF
  have b1 := (C115_first hc h3 hs k1 k2 hFl hi).1
  have b3 := (C115_third_partial hc h3 hs k1 k2 k3 hM (i := i)).2 i1 i2
  rw [abs_of_pos hh] at b1 b3
  have ht : h * v₀ - F * h ^ 3 ≤ ‖rowVec n (firstderiv c).rows i‖ := by
    by_contra q
    exact absurd (far_of_near hh (hv _ hx) b1 (θ := ‖rowVec n (firstderiv c).rows i‖) (not_le.1 q)) (lt_irrefl _)
  have third : ‖rowVec n (thirdderiv c).rows i‖ ≤ 1 / 10 ^ 8 := by
    have e1 := norm_sub_norm_le (rowVec n (thirdderiv c).rows i) ((h ^ 3) • f (o + i * h))
    rw [norm_smul, Real.norm_eq_abs, abs_of_pos (by positivity)] at e1
    have := mul_le_mul_of_nonneg_left (hF _ hx) (by positivity : 0 ≤ h ^ 3)
    linarith
  have tor := torsion_row hc h3 hs.ndim hi (lt_of_lt_of_le (lt_trans (by norm_num) hst) ht)
  obtain rfl := hs.ndim
  obtain ⟨N1, N2, N3⟩ := C55_unit hc hi
  have u1 : ‖vE1 c i‖ = 1 := (N1.1 (lt_of_lt_of_le hst ht)).1
  have o1 : inner ℝ (vE2 c i) (vE1 c i) = 0 := by
    refine normalised_orth N2 ?_
    rw [vN_eq hc hi, inner_sub_left, inner_smul_left, real_inner_self_eq_norm_sq, u1]
    simp
  have hB : ‖vB c i‖ ≤ 1 / 10 ^ 8 := by
    have third' : ‖rowVec c.ndim (thirdderiv c).rows i‖ ≤ 1 / 10 ^ 8 := third
    obtain ⟨x, hxx⟩ : ∃ x, x = rowVec c.ndim (thirdderiv c).rows i := ⟨_, rfl⟩
    rw [vB_eq hc hi, ← hxx]
    rw [← hxx] at third'
    have e0 : inner ℝ x (vE2 c i) = inner ℝ (x - inner ℝ x (vE1 c i) • vE1 c i) (vE2 c i) := by
      rw [inner_sub_left, inner_smul_left, real_inner_comm (vE2 c i) (vE1 c i), o1, mul_zero, sub_zero]
    rw [e0]
    exact (orth_le' (normalised_le N2)).trans ((orth_le' u1.le).trans third')
  have e3 : vE3 c i = vB c i := N3.2 hB
  refine ⟨e3, hB, _, tor, ?_⟩
  rw [abs_div, abs_norm]
  have hpos : 0 < h * v₀ - F * h ^ 3 := lt_trans (by norm_num) hst
  refine div_le_div₀ (by norm_num) ?_ hpos ht
  have hg : ‖gradV c.size (fun i => rowVec c.ncols (frenet2 c).rows i) i‖ ≤ 1 := by
    unfold gradV
    rw [if_neg (by omega), if_neg (by omega), norm_smul, Real.norm_eq_abs, abs_of_pos (by norm_num : (0 : ℝ) < 1 / 2)]
    have q1 : ‖rowVec c.ncols (frenet2 c).rows (i + 1)‖ ≤ 1 := normalised_le (C55_unit hc (i := i + 1) (by omega)).2.1
    have q2 : ‖rowVec c.ncols (frenet2 c).rows (i - 1)‖ ≤ 1 := normalised_le (C55_unit hc (i := i - 1) (by omega)).2.1
    have := norm_sub_le (rowVec c.ncols (frenet2 c).rows (i + 1)) (rowVec c.ncols (frenet2 c).rows (i - 1))
    linarith
  refine (abs_real_inner_le_norm _ _).trans ?_
  have e4 : ‖rowVec c.ncols (frenet3 c).rows i‖ ≤ 1 / 10 ^ 8 := by
    rw [show rowVec c.ncols (frenet3 c).rows i = vB c i from e3]
    exact hB
  calc _ ≤ 1 * (1 / 10 ^ 8 : ℝ) := mul_le_mul hg e4 (norm_nonneg _) zero_le_one
    _ = _ := one_mul _

end

/-! ### Example: a helix -/

noncomputable def uz : EuclideanSpace ℝ (Fin 3) := EuclideanSpace.single 2 1

/-- The helix with radius 1 and pitch 1, and its first derivative; the second and third derivative are those of the circle. -/
noncomputable def hel (s : ℝ) : EuclideanSpace ℝ (Fin 3) := circ (ux 1) (uy 1) s + s • uz
noncomputable def hel1 (s : ℝ) : EuclideanSpace ℝ (Fin 3) := circ (uy 1) (-ux 1) s + uz

theorem hel_deriv (a b : ℝ) : DerivOn a b hel hel1 := by
  intro x hx
  have := (circ_deriv a b (ux 1) (uy 1) x hx).add ((hasDerivAt_id x).smul_const uz).hasDerivWithinAt
  exact this.congr_deriv (by simp [hel1])

theorem hel1_deriv (a b : ℝ) : DerivOn a b hel1 (circ (-ux 1) (-uy 1)) := fun x hx => (circ_deriv a b (uy 1) (-ux 1) x hx).add_const uz

theorem circ_coords (s : ℝ) : circ (ux 1) (uy 1) s = WithLp.toLp 2 ![Real.cos s, Real.sin s, 0] ∧ hel1 s = WithLp.toLp 2 ![-Real.sin s, Real.cos s, 1] ∧
    circ (-ux 1) (-uy 1) s = WithLp.toLp 2 ![-Real.cos s, -Real.sin s, 0] ∧ circ (-uy 1) (- -ux 1) s = WithLp.toLp 2 ![Real.sin s, -Real.cos s, 0] := by
  refine ⟨?_, ?_, ?_, ?_⟩ <;> ext j <;> fin_cases j <;> simp [hel1, circ, ux, uy, uz]

theorem norm3 (x y z : ℝ) : ‖(WithLp.toLp 2 ![x, y, z] : EuclideanSpace ℝ (Fin 3))‖ = √(x ^ 2 + y ^ 2 + z ^ 2) := by
  rw [EuclideanSpace.norm_eq, Fin.sum_univ_three]
  simp

theorem inner3 (x y z u v w : ℝ) : inner ℝ (WithLp.toLp 2 ![x, y, z] : EuclideanSpace ℝ (Fin 3)) (WithLp.toLp 2 ![u, v, w]) = x * u + y * v + z * w := by
  simp [PiLp.inner_apply, Fin.sum_univ_three]
  ring

theorem hel_frame (s : ℝ) : ‖hel1 s‖ = √2 ∧ normalOf (hel1 s) (circ (-ux 1) (-uy 1) s) = circ (-ux 1) (-uy 1) s ∧ unitOf (circ (-ux 1) (-uy 1) s) = circ (-ux 1) (-uy 1) s ∧
    ‖binormalOf (hel1 s) (circ (-ux 1) (-uy 1) s) (circ (-uy 1) (- -ux 1) s)‖ = √2 / 2 := by
  obtain ⟨-, h1, h2, h3⟩ := circ_coords s
  have sc := Real.sin_sq_add_cos_sq s
  have n1 : ‖hel1 s‖ = √2 := by
    rw [h1, norm3, show (-Real.sin s) ^ 2 + Real.cos s ^ 2 + 1 ^ 2 = 2 by linarith]
  have n2 : unitOf (circ (-ux 1) (-uy 1) s) = circ (-ux 1) (-uy 1) s := by
    unfold unitOf
    rw [circ_norm2]
    simp
  have n3 : normalOf (hel1 s) (circ (-ux 1) (-uy 1) s) = circ (-ux 1) (-uy 1) s := by
    unfold normalOf unitOf
    rw [inner_smul_right, h1, h2, inner3, show -Real.cos s * -Real.sin s + -Real.sin s * Real.cos s + 0 * 1 = 0 by ring]
    simp
  refine ⟨n1, n3, n2, ?_⟩
  have r2 : √2 * √2 = (2 : ℝ) := Real.mul_self_sqrt (by norm_num)
  have r0 : (√2 : ℝ) ≠ 0 := by positivity
  unfold binormalOf
  rw [n3, n2]
  have e : circ (-uy 1) (- -ux 1) s - inner ℝ (circ (-uy 1) (- -ux 1) s) (unitOf (hel1 s)) • unitOf (hel1 s) -
      inner ℝ (circ (-uy 1) (- -ux 1) s) (circ (-ux 1) (-uy 1) s) • circ (-ux 1) (-uy 1) s = WithLp.toLp 2 ![Real.sin s / 2, -Real.cos s / 2, 1 / 2] := by
    unfold unitOf
    rw [n1, inner_smul_right, smul_smul, h1, h2, h3, inner3, inner3, show Real.sin s * -Real.cos s + -Real.cos s * -Real.sin s + 0 * 0 = 0 by ring,
      show (√2)⁻¹ * (Real.sin s * -Real.sin s + -Real.cos s * Real.cos s + 0 * 1) * (√2)⁻¹ = -(1 / 2) by
        rw [show Real.sin s * -Real.sin s + -Real.cos s * Real.cos s + 0 * 1 = (-1 : ℝ) by linarith]
        field_simp
        nlinarith]
    ext j
    fin_cases j <;> simp <;> ring
  rw [e, norm3, show (Real.sin s / 2) ^ 2 + (-Real.cos s / 2) ^ 2 + (1 / 2) ^ 2 = (√2 / 2) ^ 2 by nlinarith]
  exact Real.sqrt_sq (by positivity)

/-- Samples of the helix. -/
noncomputable def exHelix (m : Nat) (h : ℝ) : Curve ℝ := ⟨(List.range m).map fun (i : Nat) => [Real.cos (i * h), Real.sin (i * h), i * h], 3, none, .float⟩

theorem exHelix_WF (m : Nat) (h : ℝ) : WF (exHelix m h) where
  two_le := by simp [exHelix]
  rect := by
    intro r hr
    obtain ⟨i, _, rfl⟩ := List.mem_map.1 hr
    simp [exHelix]
  tlen := by simp [exHelix]
  repr := by intro r _ x _; rfl

theorem exHelix_size (m : Nat) (h : ℝ) : (exHelix m h).size = m := by simp [exHelix, Curve.size]

theorem exHelix_sampled (m : Nat) {h : ℝ} (hh : 0 ≤ h) : SampledAt hel 0 (m * h) 0 h (exHelix m h) where
  ndim := rfl
  range := by
    intro i hi
    have hi : i < m := by simpa [exHelix] using hi
    have : (i : ℝ) ≤ m := by exact_mod_cast hi.le
    rw [zero_add]
    exact ⟨by positivity, by gcongr⟩
  pts := by
    intro i hi
    have hi : i < m := by simpa [exHelix] using hi
    ext j
    rw [rowVec_apply]
    have e : (exHelix m h).rows.getD i [] = [Real.cos (i * h), Real.sin (i * h), i * h] := by
      simp [exHelix, List.getD_eq_getElem?_getD, hi]
    unfold at2
    rw [e, zero_add]
    fin_cases j <;> simp [hel, circ, ux, uy, uz]

/-- The torsion of the helix sampled at steps of 1/200, three points away from the ends, is 1/2 up to 3/20. -/
example (m i : Nat) (i1 : 3 ≤ i) (i2 : i + 3 < m) : ∃ τ, (torsion (exHelix m (1 / 200)))[i]? = some (.fin τ) ∧ |τ - 1 / 2| ≤ 3 / 20 := by
  have hs := exHelix_sampled m (h := 1 / 200) (by norm_num)
  have h3 : 3 ≤ (exHelix m (1 / 200)).size := by rw [exHelix_size]; omega
  have r2 : √2 * √2 = (2 : ℝ) := Real.mul_self_sqrt (by norm_num)
  have r1 : (1 : ℝ) ≤ √2 := Real.le_sqrt_of_sq_le (by norm_num)
  have fr := hel_frame
  have hN : DerivOn 0 (m * (1 / 200)) (fun s => unitOf (normalOf (hel1 s) (circ (-ux 1) (-uy 1) s))) (circ (-uy 1) (- -ux 1)) := by
    rw [show (fun s => unitOf (normalOf (hel1 s) (circ (-ux 1) (-uy 1) s))) = circ (-ux 1) (-uy 1) by funext s; rw [(fr s).2.1, (fr s).2.2.1]]
    exact circ_deriv _ _ _ _
  have lip : LipOn 0 (m * (1 / 200)) 1 (circ (-uy 1) (- -ux 1) : ℝ → EuclideanSpace ℝ (Fin 3)) :=
    LipOn.of_deriv (circ_deriv _ _ _ _) fun x _ => by rw [circ_shift, circ_norm3]
  obtain ⟨T, NB⟩ := C151_threshold (exHelix_WF m _) h3 hs (by norm_num) (hel_deriv _ _) (hel1_deriv _ _) (circ_deriv _ _ _ _) lip (F := 1) (E := 1) (v₀ := 1) (w₀ := 1) (b₀ := 1 / 2)
    (fun x _ => (circ_norm3 1 x).le) (fun x _ => (circ_norm2 1 x).le) (fun x _ => by rw [(fr x).1]; exact r1) one_pos (fun x _ => by rw [(fr x).2.1, circ_norm2]) one_pos
    (fun x _ => by rw [(fr x).2.2.2]; linarith)
  have T := T (by norm_num)
  obtain ⟨N, B⟩ := NB (by norm_num) (by norm_num [tanErr])
  have B := B (by norm_num [tanErr, norErr])
  obtain ⟨τ, h1, h2⟩ := C151_torsion (exHelix_WF m _) hs (by norm_num) (hel_deriv _ _) (hel1_deriv _ _) (circ_deriv _ _ _ _) lip zero_le_one (F := 1) (E := 1) (v₀ := 1) (w₀ := 1) (b₀ := 1 / 2) (K := 1) (Q := 1)
    (fun x _ => (circ_norm3 1 x).le) (fun x _ => (circ_norm2 1 x).le) (fun x _ => by rw [(fr x).1]; exact r1) one_pos (fun x _ => by rw [(fr x).2.1, circ_norm2]) one_pos
    (fun x _ => by rw [(fr x).2.2.2]; linarith) (by norm_num) hN lip zero_le_one (fun x _ => (circ_norm3 1 x).le) (by norm_num) (i := i) i1 (by rw [exHelix_size]; exact i2)
    (fun k q1 q2 => ⟨T k (by rw [exHelix_size]; omega), N k (by omega) (by rw [exHelix_size]; omega)⟩) (B i i1 (by rw [exHelix_size]; exact i2))
  refine ⟨τ, h1, ?_⟩
  rw [(fr _).2.2.2, (fr _).2.1, circ_norm2, (fr _).1, show √2 / 2 / 1 / √2 = (1 / 2 : ℝ) by field_simp] at h2
  refine h2.trans ?_
  norm_num [norErr, binErr, tanErr]

/-- **C151 (witness).** The torsion of the helix is 1/2; the torsion computed from samples of the helix at steps of 1/1000 is below 1/50000, at all points that are not among the first and last three. So the torsion
does not converge to the torsion of the curve as the step decreases. -/
theorem C151_fine_fails (m i : Nat) (i1 : 3 ≤ i) (i2 : i + 3 < m) :
    (∀ s, ‖binormalOf (hel1 s) (circ (-ux 1) (-uy 1) s) (circ (-uy 1) (- -ux 1) s)‖ / ‖normalOf (hel1 s) (circ (-ux 1) (-uy 1) s)‖ / ‖hel1 s‖ = 1 / 2) ∧
      ∃ τ, (torsion (exHelix m (1 / 1000)))[i]? = some (.fin τ) ∧ |τ| ≤ 1 / 50000 := by
  have fr := hel_frame
  have r1 : (1 : ℝ) ≤ √2 := Real.le_sqrt_of_sq_le (by norm_num)
  refine ⟨fun s => by rw [(fr s).2.2.2, (fr s).2.1, circ_norm2, (fr s).1]; field_simp, ?_⟩
  have lip : LipOn 0 (m * (1 / 1000)) 1 (circ (-uy 1) (- -ux 1) : ℝ → EuclideanSpace ℝ (Fin 3)) :=
    LipOn.of_deriv (circ_deriv _ _ _ _) fun x _ => by rw [circ_shift, circ_norm3]
  obtain ⟨-, -, τ, h1, h2⟩ := C151_fine (exHelix_WF m _) (exHelix_sampled m (h := 1 / 1000) (by norm_num)) (by norm_num) (hel_deriv _ _) (hel1_deriv _ _) (circ_deriv _ _ _ _) lip (F := 1) (v₀ := 1)
    (fun x _ => (circ_norm3 1 x).le) (fun x _ => by rw [(fr x).1]; exact r1) (by norm_num) (by norm_num) i1 (by rw [exHelix_size]; exact i2)
  exact ⟨τ, h1, h2.trans (by norm_num)⟩

/-! ## Concrete cases -/

/-- The bounds of the helix with speed `√2`, normal part 1, binormal part at least a half. -/
theorem hel_bounds (a b : ℝ) :
    LipOn a b 1 (circ (-uy 1) (- -ux 1) : ℝ → EuclideanSpace ℝ (Fin 3)) ∧ LipOn a b 1 (circ (-ux 1) (-uy 1) : ℝ → EuclideanSpace ℝ (Fin 3)) ∧
    (∀ x ∈ Icc a b, ‖(circ (-uy 1) (- -ux 1) x : EuclideanSpace ℝ (Fin 3))‖ ≤ 1) ∧ (∀ x ∈ Icc a b, ‖(circ (-ux 1) (-uy 1) x : EuclideanSpace ℝ (Fin 3))‖ ≤ 1) ∧
    (∀ x ∈ Icc a b, 1 ≤ ‖hel1 x‖) ∧ (∀ x ∈ Icc a b, 1 ≤ ‖normalOf (hel1 x) (circ (-ux 1) (-uy 1) x)‖) := by
  have fr := hel_frame
  have r1 : (1 : ℝ) ≤ √2 := Real.le_sqrt_of_sq_le (by norm_num)
  refine ⟨LipOn.of_deriv (circ_deriv _ _ _ _) fun x _ => by rw [circ_shift, circ_norm3], LipOn.of_deriv (circ_deriv _ _ _ _) fun x _ => (circ_norm3 1 x).le,
    fun x _ => (circ_norm3 1 x).le, fun x _ => (circ_norm2 1 x).le, fun x _ => by rw [(fr x).1]; exact r1, fun x _ => by rw [(fr x).2.1, circ_norm2]⟩

theorem exHelix_three : 3 ≤ (exHelix 10 (1 / 100)).size := by rw [exHelix_size]; norm_num

example {i : Nat} := C115_second (i := i) (exHelix_WF 10 _) exHelix_three (exHelix_sampled 10 (h := 1 / 100) (by norm_num)) (hel_deriv _ _) (hel1_deriv _ _) (hel_bounds _ _).2.1 zero_le_one
example := C115_speed (exHelix_WF 10 _) exHelix_three (exHelix_sampled 10 (h := 1 / 100) (by norm_num)) (hel_deriv _ _) (hel1_deriv _ _) (hel_bounds _ _).2.1 0
example := C115_third_partial (i := 4) (exHelix_WF 10 _) exHelix_three (exHelix_sampled 10 (h := 1 / 100) (by norm_num)) (hel_deriv _ _) (hel1_deriv _ _) (circ_deriv _ _ _ _) (hel_bounds _ _).1
example {i : Nat} := C151_tangent (i := i) (exHelix_WF 10 _) exHelix_three (exHelix_sampled 10 (h := 1 / 100) (by norm_num)) (by norm_num) (hel_deriv _ _) (hel1_deriv _ _) (hel_bounds _ _).2.1 (hel_bounds _ _).2.2.2.2.1 one_pos
example {i : Nat} := C151_normal (i := i) (exHelix_WF 10 _) exHelix_three (exHelix_sampled 10 (h := 1 / 100) (by norm_num)) (by norm_num) (hel_deriv _ _) (hel1_deriv _ _) (hel_bounds _ _).2.1 zero_le_one
  (hel_bounds _ _).2.2.2.1 (hel_bounds _ _).2.2.2.2.1 one_pos (hel_bounds _ _).2.2.2.2.2 one_pos
example {i : Nat} := C151_normal_inside (i := i) (exHelix_WF 10 _) exHelix_three (exHelix_sampled 10 (h := 1 / 100) (by norm_num)) (by norm_num) (hel_deriv _ _) (hel1_deriv _ _) (circ_deriv _ _ _ _) (hel_bounds _ _).1 (hel_bounds _ _).2.1
  (hel_bounds _ _).2.2.2.1 (hel_bounds _ _).2.2.2.2.1 one_pos (hel_bounds _ _).2.2.2.2.2 one_pos
example {i : Nat} := C151_binormal (i := i) (exHelix_WF 10 _) exHelix_three (exHelix_sampled 10 (h := 1 / 100) (by norm_num)) (by norm_num) (hel_deriv _ _) (hel1_deriv _ _) (circ_deriv _ _ _ _) (hel_bounds _ _).1 (hel_bounds _ _).2.1
  (hel_bounds _ _).2.2.1 (hel_bounds _ _).2.2.2.1 (hel_bounds _ _).2.2.2.2.1 one_pos (hel_bounds _ _).2.2.2.2.2 one_pos (b₀ := 1 / 2)
  (fun x _ => by rw [(hel_frame x).2.2.2]; have : (1 : ℝ) ≤ √2 := Real.le_sqrt_of_sq_le (by norm_num)
                 linarith) (by norm_num)
example := C151_fine (i := 4) (exHelix_WF 10 _) (exHelix_sampled 10 (h := 1 / 1000) (by norm_num)) (by norm_num) (hel_deriv _ _) (hel1_deriv _ _) (circ_deriv _ _ _ _) (hel_bounds _ _).1
  (hel_bounds _ _).2.2.1 (hel_bounds _ _).2.2.2.2.1 (by norm_num) (by norm_num) (by norm_num) (by rw [exHelix_size]; norm_num)

end Verif.Props
