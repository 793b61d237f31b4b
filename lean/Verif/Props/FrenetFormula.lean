import Mathlib.LinearAlgebra.CrossProduct
import Mathlib.Analysis.SpecialFunctions.Sqrt
import Verif.Props.AccuracyFrenet

/-!
The textbook formulas of curvature and torsion in space (C151, C116): the limits named there are `‖d × e‖ / ‖d‖³` and `|det (d, e, f)| / ‖d × e‖²`.
-/
namespace Verif.Spec

open Matrix

/-- The cross product of two vectors of space. -/
noncomputable def cross3 (d e : EuclideanSpace ℝ (Fin 3)) : EuclideanSpace ℝ (Fin 3) := WithLp.toLp 2 (d.ofLp ⨯₃ e.ofLp)

/-- The determinant with the rows `d`, `e`, `f`. -/
noncomputable def det3 (d e f : EuclideanSpace ℝ (Fin 3)) : ℝ := Matrix.det (Matrix.of ![d.ofLp, e.ofLp, f.ofLp])

end Verif.Spec

namespace Verif.Props

open Verif Verif.Np Verif.Model Verif.Spec Set Matrix

theorem inner_dot (u v : EuclideanSpace ℝ (Fin 3)) : inner ℝ u v = u.ofLp ⬝ᵥ v.ofLp := by
  simp [PiLp.inner_apply, dotProduct, Fin.sum_univ_three, mul_comm]

theorem cross3_lagrange (u v : EuclideanSpace ℝ (Fin 3)) : ‖cross3 u v‖ ^ 2 = ‖u‖ ^ 2 * ‖v‖ ^ 2 - inner ℝ u v ^ 2 := by
  rw [← real_inner_self_eq_norm_sq, ← real_inner_self_eq_norm_sq, ← real_inner_self_eq_norm_sq, inner_dot, inner_dot, inner_dot, inner_dot]
  unfold cross3
  rw [cross_dot_cross, dotProduct_comm v.ofLp u.ofLp]
  ring

theorem cross3_norm {d e : EuclideanSpace ℝ (Fin 3)} (hd : d ≠ 0) : ‖normalOf d e‖ * ‖d‖ = ‖cross3 d e‖ := by
  have d0 : ‖d‖ ≠ 0 := norm_ne_zero_iff.2 hd
  have h : (‖normalOf d e‖ * ‖d‖) ^ 2 = ‖cross3 d e‖ ^ 2 := by
    rw [cross3_lagrange, mul_pow, ← real_inner_self_eq_norm_sq]
    unfold normalOf unitOf
    simp only [inner_sub_left, inner_sub_right, inner_smul_left, inner_smul_right, conj_trivial, real_inner_self_eq_norm_sq, real_inner_comm e d]
    field_simp
    ring
  rwa [pow_left_inj₀ (by positivity) (by positivity) two_ne_zero] at h

/-- **C151 (formula).** In space the limit of the torsion named in C151 is the absolute value of the classical torsion `det (d, e, f) / ‖d × e‖²`. -/
theorem C151_formula {d e f : EuclideanSpace ℝ (Fin 3)} (hd : d ≠ 0) (hn : normalOf d e ≠ 0) :
    ‖binormalOf d e f‖ / ‖normalOf d e‖ / ‖d‖ = |det3 d e f| / ‖cross3 d e‖ ^ 2 := by
  obtain ⟨o1, o2, o3, -⟩ := orth_parts (Y := f) hd hn
  have d0 : ‖d‖ ≠ 0 := norm_ne_zero_iff.2 hd
  have n0 : ‖normalOf d e‖ ≠ 0 := norm_ne_zero_iff.2 hn
  have c0 : ‖cross3 d e‖ ≠ 0 := by rw [← cross3_norm hd]; positivity
  have b1 : inner ℝ (binormalOf d e f) d = 0 := by
    unfold unitOf at o2
    rw [inner_smul_right, mul_eq_zero] at o2
    exact o2.resolve_left (inv_ne_zero d0)
  have b2 : inner ℝ (binormalOf d e f) e = 0 := by
    have e1 : e = normalOf d e + inner ℝ e (unitOf d) • unitOf d := by unfold normalOf; abel
    have o3' : inner ℝ (binormalOf d e f) (normalOf d e) = 0 := by
      rw [unitOf, inner_smul_right, mul_eq_zero] at o3
      exact o3.resolve_left (inv_ne_zero n0)
    have := congrArg (fun v => inner ℝ (binormalOf d e f) v) e1
    beta_reduce at this
    rw [this, inner_add_right, inner_smul_right, o2, o3']
    simp
  have c1 : inner ℝ d (cross3 d e) = 0 := by rw [inner_dot]; exact dot_self_cross _ _
  have c2 : inner ℝ e (cross3 d e) = 0 := by rw [inner_dot]; exact dot_cross_self _ _
  have c3 : inner ℝ f (cross3 d e) = det3 d e f := by
    rw [inner_dot]
    unfold cross3 det3
    rw [Matrix.det_fin_three, cross_apply, vec3_dotProduct]
    simp
    ring
  have b3 : inner ℝ (binormalOf d e f) (cross3 d e) = det3 d e f := by
    rw [← c3]
    unfold binormalOf normalOf unitOf
    simp only [inner_sub_left, inner_smul_left, c1, c2, conj_trivial, mul_zero, sub_zero]
  have b4 : cross3 (binormalOf d e f) (cross3 d e) = 0 := by
    rw [inner_dot] at b1 b2
    unfold cross3
    rw [cross_cross_eq_smul_sub_smul', b2, dotProduct_comm, b1]
    simp
  have lag := cross3_lagrange (binormalOf d e f) (cross3 d e)
  rw [b4, b3, norm_zero] at lag
  have key : ‖binormalOf d e f‖ * ‖cross3 d e‖ = |det3 d e f| := by
    have : (‖binormalOf d e f‖ * ‖cross3 d e‖) ^ 2 = |det3 d e f| ^ 2 := by
      rw [sq_abs, mul_pow]
      linarith
    rwa [pow_left_inj₀ (by positivity) (by positivity) two_ne_zero] at this
  rw [← key, div_div, cross3_norm hd]
  field_simp

/-- **C116 (formula).** In space the limit of the curvature named in C116, the norm of the derivative of the unit tangent divided by the speed, is the classical curvature `‖d × e‖ / ‖d‖³`. -/
theorem C116_formula {a b x : ℝ} (hab : a < b) (hx : x ∈ Icc a b) {d e τ : ℝ → EuclideanSpace ℝ (Fin 3)} (h2 : HasDerivWithinAt d (e x) (Icc a b) x)
    (hT : HasDerivWithinAt (fun s => ‖d s‖⁻¹ • d s) (τ x) (Icc a b) x) (hd : d x ≠ 0) :
    ‖τ x‖ / ‖d x‖ = ‖cross3 (d x) (e x)‖ / ‖d x‖ ^ 3 := by
  have d0 : ‖d x‖ ≠ 0 := norm_ne_zero_iff.2 hd
  have s1 : HasDerivWithinAt (fun s => ‖d s‖) (inner ℝ (d x) (e x) / ‖d x‖) (Icc a b) x := by
    have := (h2.norm_sq).sqrt (pow_ne_zero 2 d0)
    rw [Real.sqrt_sq (norm_nonneg _)] at this
    refine (this.congr_deriv (by field_simp)).congr (fun y _ => (Real.sqrt_sq (norm_nonneg _)).symm) (Real.sqrt_sq (norm_nonneg _)).symm
  have s2 := (s1.inv d0).smul h2
  have u := (uniqueDiffOn_Icc hab x hx).eq_deriv _ hT s2
  have e1 : τ x = ‖d x‖⁻¹ • normalOf (d x) (e x) := by
    rw [u]
    unfold normalOf unitOf
    rw [inner_smul_right, real_inner_comm (d x) (e x), smul_sub, smul_smul, smul_smul]
    rw [sub_eq_add_neg, ← neg_smul]
    congr 2
    field_simp
  rw [e1, ← cross3_norm hd, norm_smul, norm_inv, norm_norm]
  field_simp

/-- The torsion and curvature of the helix by the formulas. -/
example : det3 (WithLp.toLp 2 ![0, 1, 1]) (WithLp.toLp 2 ![-1, 0, 0]) (WithLp.toLp 2 ![0, -1, 0]) / ‖cross3 (WithLp.toLp 2 ![0, 1, 1]) (WithLp.toLp 2 ![-1, 0, 0])‖ ^ 2 = 1 / 2 := by
  have : cross3 (WithLp.toLp 2 ![0, 1, 1]) (WithLp.toLp 2 ![-1, 0, 0]) = WithLp.toLp 2 ![0, -1, 1] := by
    unfold cross3
    rw [cross_apply]
    simp
  rw [this, norm3, Real.sq_sqrt (by norm_num)]
  unfold det3
  rw [Matrix.det_fin_three]
  simp
  norm_num

end Verif.Props
