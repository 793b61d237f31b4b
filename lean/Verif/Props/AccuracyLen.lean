import Mathlib.MeasureTheory.Integral.IntervalIntegral.FundThmCalculus
import Mathlib.Analysis.InnerProductSpace.Basic
import Mathlib.Analysis.InnerProductSpace.LinearMap
import Verif.Props.AccuracyCurv
import Verif.Props.ArcLen
import Verif.Props.Interp

/-!
C117 and C118: arc length and linear interpolation of a sampled smooth curve compared to the curve.
-/
namespace Verif.Spec

open Verif Verif.Model Set

/-- The points of `c` are the points of the curve `g` at the increasing parameters `ts`. -/
structure OnCurve {n : Nat} (g : ℝ → EuclideanSpace ℝ (Fin n)) (a b : ℝ) (ts : List ℝ) (c : Curve ℝ) : Prop where
  ndim : c.ncols = n
  len : ts.length = c.rows.length
  mono : ts.Pairwise (· ≤ ·)
  range : ∀ t ∈ ts, t ∈ Icc a b
  pts : ∀ (i : Nat) (t : ℝ) (p : List ℝ), ts[i]? = some t → c.rows[i]? = some p → pt n p = g t

/-- Neighbouring numbers differ by at most `h`. -/
def GapsLe (h : ℝ) (ts : List ℝ) : Prop := ∀ (i : Nat) (u v : ℝ), ts[i]? = some u → ts[i + 1]? = some v → v - u ≤ h

end Verif.Spec

namespace Verif.Props

open Verif Verif.Np Verif.Model Verif.Spec Set MeasureTheory

section
variable {E : Type*} [NormedAddCommGroup E] [InnerProductSpace ℝ E] [CompleteSpace E] {a b M x y : ℝ} {g d : ℝ → E}

omit [CompleteSpace E] in
theorem lip_cont (hM : 0 ≤ M) (hl : LipOn a b M d) : ContinuousOn d (Icc a b) := LipOn.continuousOn' hM hl

omit [CompleteSpace E] in
theorem lip_int (hM : 0 ≤ M) (hl : LipOn a b M d) (hx : x ∈ Icc a b) (hy : y ∈ Icc a b) : IntervalIntegrable d volume x y :=
  ((lip_cont hM hl).mono (uIcc_subset_Icc hx hy)).intervalIntegrable

omit [CompleteSpace E] in
theorem lip_norm_int (hM : 0 ≤ M) (hl : LipOn a b M d) (hx : x ∈ Icc a b) (hy : y ∈ Icc a b) : IntervalIntegrable (fun s => ‖d s‖) volume x y :=
  ((lip_cont hM hl).mono (uIcc_subset_Icc hx hy)).norm.intervalIntegrable

theorem chord_eq (hM : 0 ≤ M) (h1 : DerivOn a b g d) (hl : LipOn a b M d) (hx : x ∈ Icc a b) (hy : y ∈ Icc a b) (hxy : x ≤ y) :
    ∫ s in x..y, d s = g y - g x := by
  refine intervalIntegral.integral_eq_sub_of_hasDerivAt_of_le hxy ?_ ?_ (lip_int hM hl hx hy)
  · intro z hz
    exact ((h1 z ⟨hx.1.trans hz.1, hz.2.trans hy.2⟩).continuousWithinAt).mono (Icc_subset_Icc hx.1 hy.2)
  · intro z hz
    exact (h1 z ⟨hx.1.trans hz.1.le, hz.2.le.trans hy.2⟩).hasDerivAt (Icc_mem_nhds (hx.1.trans_lt hz.1) (hz.2.trans_le hy.2))

/-- A chord is not longer than the arc. -/
theorem chord_le (hM : 0 ≤ M) (h1 : DerivOn a b g d) (hl : LipOn a b M d) (hx : x ∈ Icc a b) (hy : y ∈ Icc a b) (hxy : x ≤ y) :
    ‖g y - g x‖ ≤ ∫ s in x..y, ‖d s‖ := by
  rw [← chord_eq hM h1 hl hx hy hxy]
  exact intervalIntegral.norm_integral_le_integral_norm hxy

omit [CompleteSpace E] in
/-- The derivative differs little from the mean velocity. -/
theorem mean_close (hM : 0 ≤ M) (h1 : DerivOn a b g d) (hl : LipOn a b M d) (hx : x ∈ Icc a b) (hy : y ∈ Icc a b) {s : ℝ} (hs : s ∈ Icc x y) :
    ‖(y - x) • d s - (g y - g x)‖ ≤ M / 2 * (y - x) ^ 2 := by
  have hs' : s ∈ Icc a b := ⟨hx.1.trans hs.1, hs.2.trans hy.2⟩
  have e1 := taylor1 h1 hl hs' hy
  have e2 := taylor1 h1 hl hs' hx
  have : (y - x) • d s - (g y - g x) = (g x - g s - (x - s) • d s) - (g y - g s - (y - s) • d s) := by module
  rw [this]
  refine (norm_sub_le _ _).trans ?_
  rw [sq_abs] at e1 e2
  have a1 := hs.1
  have a2 := hs.2
  nlinarith [mul_nonneg hM (mul_nonneg (show 0 ≤ s - x by linarith) (show 0 ≤ y - s by linarith))]

theorem int_const_le {f : ℝ → ℝ} {C : ℝ} (hxy : x ≤ y) (hf : IntervalIntegrable f volume x y) (h : ∀ s ∈ Icc x y, f s ≤ C) :
    ∫ s in x..y, f s ≤ (y - x) * C := by
  have := intervalIntegral.integral_mono_on hxy hf (intervalIntegrable_const (c := C)) h
  simpa using this

theorem arc_le (hM : 0 ≤ M) (h1 : DerivOn a b g d) (hl : LipOn a b M d) (hx : x ∈ Icc a b) (hy : y ∈ Icc a b) (hxy : x ≤ y) :
    ∫ s in x..y, ‖d s‖ ≤ ‖g y - g x‖ + M / 2 * (y - x) ^ 2 := by
  rcases hxy.eq_or_lt with rfl | hlt
  · simp
  have hL : 0 < y - x := by linarith
  have := int_const_le (C := (‖g y - g x‖ + M / 2 * (y - x) ^ 2) / (y - x)) hxy (lip_norm_int hM hl hx hy) (by
    intro s hs
    rw [le_div_iff₀ hL]
    have h2 := mean_close hM h1 hl hx hy hs
    have h3 := norm_sub_norm_le ((y - x) • d s) (g y - g x)
    rw [norm_smul, Real.norm_of_nonneg hL.le] at h3
    linarith)
  rwa [mul_div_cancel₀ _ hL.ne'] at this

omit [CompleteSpace E] in
/-- The part of a vector along a unit vector. -/
theorem norm_sub_inner_le {p w u : E} (hu : ‖u‖ = 1) (hw : w = ‖w‖ • u) : ‖p‖ * (‖p‖ - inner ℝ p u) ≤ 2 * ‖p - w‖ ^ 2 := by
  have h1 : ‖p - ‖p‖ • u‖ ≤ 2 * ‖p - w‖ := by
    have e : p - ‖p‖ • u = (p - w) + (‖w‖ - ‖p‖) • u := by
      conv_lhs => rw [← sub_add_cancel p w]
      conv_lhs => rw [show p - w + w - ‖p - w + w‖ • u = p - w + (w - ‖p - w + w‖ • u) by abel]
      rw [sub_add_cancel, sub_smul, ← hw]
    rw [e]
    refine (norm_add_le _ _).trans ?_
    rw [norm_smul, hu, mul_one, Real.norm_eq_abs]
    have := abs_norm_sub_norm_le w p
    rw [norm_sub_rev] at this
    linarith
  have h2 : ‖p - ‖p‖ • u‖ ^ 2 = 2 * (‖p‖ * (‖p‖ - inner ℝ p u)) := by
    rw [norm_sub_sq_real, norm_smul, hu, inner_smul_right, Real.norm_of_nonneg (norm_nonneg p)]
    ring
  have h3 := pow_le_pow_left₀ (norm_nonneg _) h1 2
  nlinarith

theorem arc_le2 {v₀ : ℝ} (hM : 0 ≤ M) (h1 : DerivOn a b g d) (hl : LipOn a b M d) (h0 : 0 < v₀) (hv : ∀ s ∈ Icc a b, v₀ ≤ ‖d s‖)
    (hx : x ∈ Icc a b) (hy : y ∈ Icc a b) (hxy : x ≤ y) :
    ∫ s in x..y, ‖d s‖ ≤ ‖g y - g x‖ + M ^ 2 / (2 * v₀) * (y - x) ^ 3 := by
  rcases hxy.eq_or_lt with rfl | hlt
  · simp
  have hL : 0 < y - x := by linarith
  obtain ⟨u, hu, hW⟩ : ∃ u : E, ‖u‖ = 1 ∧ g y - g x = ‖g y - g x‖ • u := by
    by_cases hz : g y - g x = 0
    · have := hv x hx
      refine ⟨‖d x‖⁻¹ • d x, ?_, by rw [hz]; simp⟩
      rw [norm_smul, norm_inv, norm_norm, inv_mul_cancel₀ (by linarith)]
    · refine ⟨‖g y - g x‖⁻¹ • (g y - g x), ?_, ?_⟩
      · rw [norm_smul, norm_inv, norm_norm, inv_mul_cancel₀ (by simpa using hz)]
      · rw [smul_smul, mul_inv_cancel₀ (by simpa using hz), one_smul]
  have hint : ∫ s in x..y, inner ℝ (d s) u = ‖g y - g x‖ := by
    have := (innerSL ℝ u).intervalIntegral_comp_comm (lip_int hM hl hx hy)
    rw [chord_eq hM h1 hl hx hy hxy] at this
    simp only [innerSL_apply_apply] at this
    simp_rw [real_inner_comm u]
    rw [this]
    conv_lhs => rw [hW]
    rw [inner_smul_right, real_inner_self_eq_norm_sq, hu]
    simp
  have hii : IntervalIntegrable (fun s => inner ℝ (d s) u) volume x y :=
    (((lip_cont hM hl).mono (uIcc_subset_Icc hx hy)).inner continuousOn_const).intervalIntegrable
  have key : ∀ s ∈ Icc x y, ‖d s‖ - inner ℝ (d s) u ≤ M ^ 2 / (2 * v₀) * (y - x) ^ 2 := by
    intro s hs
    have hs' : s ∈ Icc a b := ⟨hx.1.trans hs.1, hs.2.trans hy.2⟩
    have hw : (y - x)⁻¹ • (g y - g x) = ‖(y - x)⁻¹ • (g y - g x)‖ • u := by
      rw [norm_smul, Real.norm_of_nonneg (by positivity), mul_smul, ← hW]
    have e1 := norm_sub_inner_le (p := d s) hu hw
    have e2 : ‖d s - (y - x)⁻¹ • (g y - g x)‖ ≤ M / 2 * (y - x) := by
      have h3 := mean_close hM h1 hl hx hy hs
      have : (y - x) • d s - (g y - g x) = (y - x) • (d s - (y - x)⁻¹ • (g y - g x)) := by
        rw [smul_sub, smul_smul, mul_inv_cancel₀ hL.ne', one_smul]
      rw [this, norm_smul, Real.norm_of_nonneg hL.le] at h3
      nlinarith
    have e3 := pow_le_pow_left₀ (norm_nonneg _) e2 2
    have e4 := hv s hs'
    have e5 : 0 ≤ ‖d s‖ - inner ℝ (d s) u := by
      have := real_inner_le_norm (d s) u
      rw [hu, mul_one] at this
      linarith
    have e6 : v₀ * (‖d s‖ - inner ℝ (d s) u) ≤ 2 * (M / 2 * (y - x)) ^ 2 := by nlinarith
    rw [show M ^ 2 / (2 * v₀) * (y - x) ^ 2 = 2 * (M / 2 * (y - x)) ^ 2 / v₀ by field_simp, le_div_iff₀ h0]
    linarith
  have := int_const_le hxy ((lip_norm_int hM hl hx hy).sub hii) key
  rw [intervalIntegral.integral_sub (lip_norm_int hM hl hx hy) hii, hint] at this
  nlinarith

end

variable {n : Nat} {g d : ℝ → EuclideanSpace ℝ (Fin n)} {a b M h : ℝ} {ts : List ℝ} {c : Curve ℝ}

/-- Lengths of chords add up like lengths of arcs. -/
theorem cum_close (hc : WF c) (hne : c.rows ≠ []) (junk : ℝ) (hM : 0 ≤ M) (h1 : DerivOn a b g d) (hl : LipOn a b M d) (hs : OnCurve g a b ts c) {C : ℝ}
    (hg : ∀ x ∈ Icc a b, ∀ y ∈ Icc a b, x ≤ y → y - x ≤ h → ∫ s in x..y, ‖d s‖ ≤ ‖g y - g x‖ + C * (y - x))
    (hh : GapsLe h ts) {t0 : ℝ} (ht0 : ts[0]? = some t0) : ∀ (k : Nat) (t l : ℝ), ts[k]? = some t → (cumarclen junk c)[k]? = some l →
      l ≤ (∫ s in t0..t, ‖d s‖) ∧ (∫ s in t0..t, ‖d s‖) ≤ l + C * (t - t0) := by
  obtain ⟨q1, q2, -, q4, -⟩ := C50_cumarclen_partial hc hne junk
  have m : ∀ {i t}, ts[i]? = some t → t ∈ Icc a b := fun e => hs.range _ (List.mem_of_getElem? e)
  intro k
  induction k with
  | zero =>
    intro t l e1 e2
    rw [ht0] at e1
    rw [q2] at e2
    simp only [Option.some.injEq] at e1 e2
    subst e1 e2
    simp
  | succ k ih =>
    intro t l e1 e2
    obtain ⟨p1, -⟩ := List.getElem?_eq_some_iff.1 e1
    have hlen := hs.len
    obtain ⟨u, eu⟩ : ∃ u, ts[k]? = some u := ⟨_, List.getElem?_eq_getElem (by omega)⟩
    obtain ⟨p, ep⟩ : ∃ p, c.rows[k]? = some p := ⟨_, List.getElem?_eq_getElem (by omega)⟩
    obtain ⟨q, eq⟩ : ∃ q, c.rows[k + 1]? = some q := ⟨_, List.getElem?_eq_getElem (by omega)⟩
    obtain ⟨x, y, ex, ey, exy⟩ := q4 k p q ep eq
    obtain ⟨i1, i2⟩ := ih u x eu ex
    rw [e2] at ey
    simp only [Option.some.injEq] at ey
    subst ey
    have hut : u ≤ t := by
      obtain ⟨_, f1⟩ := List.getElem?_eq_some_iff.1 eu
      obtain ⟨_, f2⟩ := List.getElem?_eq_some_iff.1 e1
      rw [← f1, ← f2]
      exact List.pairwise_iff_getElem.1 hs.mono _ _ _ _ (by omega)
    have hgap : gap c.ndim p q = ‖g t - g u‖ := by
      show dist (pt c.ncols p) (pt c.ncols q) = _
      rw [hs.ndim, dist_comm, dist_eq_norm, hs.pts k u p eu ep, hs.pts (k + 1) t q e1 eq]
    rw [hgap] at exy
    have j1 := chord_le hM h1 hl (m eu) (m e1) hut
    have j2 := hg u (m eu) t (m e1) hut (hh k u t eu e1)
    have := intervalIntegral.integral_add_adjacent_intervals (lip_norm_int hM hl (m ht0) (m eu)) (lip_norm_int hM hl (m eu) (m e1))
    rw [← this]
    constructor
    · linarith
    · linarith [show C * (t - t0) = C * (u - t0) + C * (t - u) by ring]

/-- **C117 (first order).** Entry `k` of the cumulative arc length of a curve sampled from a smooth curve is at most the length of the arc of the curve
from point 0 to point `k`, and less by at most `M h / 2` times the parameter range, where `M` is a Lipschitz constant of the derivative and
`h` the largest step of the parameter. -/
theorem C117_first (hc : WF c) (hne : c.rows ≠ []) (junk : ℝ) (hM : 0 ≤ M) (h1 : DerivOn a b g d) (hl : LipOn a b M d) (hs : OnCurve g a b ts c)
    (hh : GapsLe h ts) {t0 : ℝ} (ht0 : ts[0]? = some t0) : (cumarclen junk c).length = c.size ∧
    ∀ (k : Nat) (t l : ℝ), ts[k]? = some t → (cumarclen junk c)[k]? = some l →
      l ≤ (∫ s in t0..t, ‖d s‖) ∧ (∫ s in t0..t, ‖d s‖) ≤ l + M / 2 * h * (t - t0) := by
  refine ⟨(C50_cumarclen_partial hc hne junk).1, cum_close hc hne junk hM h1 hl hs ?_ hh ht0⟩
  intro x hx y hy hxy hstep
  refine (arc_le hM h1 hl hx hy hxy).trans ?_
  nlinarith [mul_nonneg hM (mul_nonneg (show 0 ≤ y - x by linarith) (show 0 ≤ h - (y - x) by linarith))]

/-- **C117 (second order).** If moreover the speed of the curve is at least `v₀ > 0`, the cumulative arc length is less by at most
`M² h² / (2 v₀)` times the parameter range. -/
theorem C117_second {v₀ : ℝ} (hc : WF c) (hne : c.rows ≠ []) (junk : ℝ) (hM : 0 ≤ M) (h1 : DerivOn a b g d) (hl : LipOn a b M d)
    (h0 : 0 < v₀) (hv : ∀ s ∈ Icc a b, v₀ ≤ ‖d s‖) (hs : OnCurve g a b ts c)
    (hh : GapsLe h ts) {t0 : ℝ} (ht0 : ts[0]? = some t0) (k : Nat) (t l : ℝ) (ht : ts[k]? = some t) (hk : (cumarclen junk c)[k]? = some l) :
      l ≤ (∫ s in t0..t, ‖d s‖) ∧ (∫ s in t0..t, ‖d s‖) ≤ l + M ^ 2 / (2 * v₀) * h ^ 2 * (t - t0) := by
  refine cum_close hc hne junk hM h1 hl hs ?_ hh ht0 k t l ht hk
  intro x hx y hy hxy hstep
  refine (arc_le2 hM h1 hl h0 hv hx hy hxy).trans ?_
  have hL : 0 ≤ y - x := by linarith
  have : (y - x) ^ 2 ≤ h ^ 2 := pow_le_pow_left₀ hL hstep 2
  have hC : 0 ≤ M ^ 2 / (2 * v₀) := by positivity
  nlinarith [mul_nonneg (mul_nonneg hC hL) (sub_nonneg.2 this)]

/-- **C117 (whole curve).** The same for `arclen`. -/
theorem C117_arclen {v₀ : ℝ} (hc : WF c) (hne : c.rows ≠ []) (junk : ℝ) (hM : 0 ≤ M) (h1 : DerivOn a b g d) (hl : LipOn a b M d)
    (h0 : 0 < v₀) (hv : ∀ s ∈ Icc a b, v₀ ≤ ‖d s‖) (hs : OnCurve g a b ts c)
    (hh : GapsLe h ts) {t0 t1 : ℝ} (ht0 : ts.head? = some t0) (ht1 : ts.getLast? = some t1) :
      arclen junk c ≤ (∫ s in t0..t1, ‖d s‖) ∧ (∫ s in t0..t1, ‖d s‖) ≤ arclen junk c + M ^ 2 / (2 * v₀) * h ^ 2 * (t1 - t0) := by
  obtain ⟨q1, -, -, -, q5, -⟩ := C50_cumarclen_partial hc hne junk
  rw [List.getLast?_eq_getElem?] at ht1 q5
  have hlen := hs.len
  refine C117_second hc hne junk hM h1 hl h0 hv hs hh (by rwa [List.head?_eq_getElem?] at ht0) (ts.length - 1) t1 _ ht1 ?_
  rwa [q1, show c.size = ts.length from hlen.symm] at q5

/-! ## C118 -/

theorem pt_mix {p q : List ℝ} (hp : p.length = n) (hq : q.length = n) (s : ℝ) : pt n (mix s p q) = pt n p + s • (pt n q - pt n p) := by
  ext i
  have h1 : (i : Nat) < p.length := by omega
  have h2 : (i : Nat) < q.length := by omega
  simp [pt, mix, List.getD_eq_getElem?_getD, List.getElem?_zipWith, List.getElem?_eq_getElem h1, List.getElem?_eq_getElem h2]

/-- The chord stays close to the curve. -/
theorem chord_close (hM : 0 ≤ M) (h1 : DerivOn a b g d) (hl : LipOn a b M d) {u v x s : ℝ} (hu : u ∈ Icc a b) (hv : v ∈ Icc a b) (h0 : 0 ≤ s) (hs1 : s ≤ 1)
    (hx : (v - u) * s = x - u) (hx' : x ∈ Icc a b) (huv : u ≤ v) (hstep : v - u ≤ h) : ‖g u + s • (g v - g u) - g x‖ ≤ M / 8 * h ^ 2 := by
  have e1 := taylor1 h1 hl hx' hu
  have e2 := taylor1 h1 hl hx' hv
  rw [sq_abs] at e1 e2
  have hz : (1 - s) * (u - x) + s * (v - x) = 0 := by linarith
  have : g u + s • (g v - g u) - g x = (1 - s) • (g u - g x - (u - x) • d x) + s • (g v - g x - (v - x) • d x) := by
    have e : (1 - s) • (g u - g x - (u - x) • d x) + s • (g v - g x - (v - x) • d x) =
        g u + s • (g v - g u) - g x - ((1 - s) * (u - x) + s * (v - x)) • d x := by module
    rw [e, hz, zero_smul, sub_zero]
  rw [this]
  refine (norm_add_le _ _).trans ?_
  rw [norm_smul, norm_smul, Real.norm_of_nonneg (by linarith), Real.norm_of_nonneg h0]
  have f1 := mul_le_mul_of_nonneg_left e1 (show 0 ≤ 1 - s by linarith)
  have f2 := mul_le_mul_of_nonneg_left e2 h0
  have g1 : x = u + (v - u) * s := by linarith
  subst g1
  have f3 : (1 - s) * (M / 2 * (u - (u + (v - u) * s)) ^ 2) + s * (M / 2 * (v - (u + (v - u) * s)) ^ 2) = M / 2 * (v - u) ^ 2 * (s * (1 - s)) := by ring
  have f4 : s * (1 - s) ≤ 1 / 4 := by nlinarith [sq_nonneg (s - 1 / 2)]
  have f5 : (v - u) ^ 2 ≤ h ^ 2 := pow_le_pow_left₀ (by linarith) hstep 2
  have f6 : M / 2 * (v - u) ^ 2 * (s * (1 - s)) ≤ M / 2 * (v - u) ^ 2 * (1 / 4) := mul_le_mul_of_nonneg_left f4 (by positivity)
  have f7 : M * (v - u) ^ 2 ≤ M * h ^ 2 := mul_le_mul_of_nonneg_left f5 hM
  linarith

/-- A number between the first and the last of a list is between two neighbours. -/
theorem between_neighbours : ∀ (ts : List ℝ) {x t0 t1 : ℝ}, 2 ≤ ts.length → ts.head? = some t0 → ts.getLast? = some t1 → t0 ≤ x → x ≤ t1 →
    ∃ i u v, ts[i]? = some u ∧ ts[i + 1]? = some v ∧ u ≤ x ∧ x ≤ v
  | [], _, _, _, h, _, _, _, _ => by simp at h
  | [_], _, _, _, h, _, _, _, _ => by simp at h
  | [p, q], x, t0, t1, _, h0, h1, hx0, hx1 => ⟨0, p, q, rfl, rfl, by simp at h0; linarith, by simp at h1; linarith⟩
  | p :: q :: r :: ts, x, t0, t1, _, h0, h1, hx0, hx1 => by
    by_cases hq : x ≤ q
    · exact ⟨0, p, q, rfl, rfl, by simp at h0; linarith, hq⟩
    · obtain ⟨i, u, v, e1, e2, e3, e4⟩ := between_neighbours (q :: r :: ts) (x := x) (t0 := q) (t1 := t1) (by simp) rfl
        (by rw [List.getLast?_cons_cons] at h1; exact h1) (by linarith) hx1
      exact ⟨i + 1, u, v, by simpa using e1, by simpa using e2, e3, e4⟩

/-- **C118 (partial).** A curve whose points are those of a smooth curve at its own parameters, interpolated linearly at values inside the range of the
parameter: every point of the result differs from the point of the smooth curve at that value by at most `M h² / 8`, where `M` is a
Lipschitz constant of the derivative and `h` the largest step of the parameter. Missing: integer dtypes, see `C64_int_fails`. -/
theorem C118_linear_partial (hc : WF c) (hsz : 2 ≤ c.size) {junk : ℝ} (ht : (c.t junk).Pairwise (· < ·)) (hd : c.dtype ≠ .int) {r : InterpReg Bool} {m : String}
    (hr : IsLinear junk r m) (ex : Bool) {xs : List ℝ} (hne : xs ≠ []) (hx : StepsOver xs) {t0 t1 : ℝ} (ht0 : (c.t junk).head? = some t0)
    (ht1 : (c.t junk).getLast? = some t1) (hxs : ∀ x ∈ xs, t0 ≤ x ∧ x ≤ t1) (hM : 0 ≤ M) (h1 : DerivOn a b g d) (hl : LipOn a b M d)
    (hs : OnCurve g a b (c.t junk) c) (hh : GapsLe h (c.t junk)) :
    ∃ R c', c.interpolate r (.arr (.ok (GridArr.of (fins xs)))) m ex = .ok R ∧ Represents R c' ∧ c'.size = xs.length ∧ c'.ncols = n ∧
      ∀ (j : Nat) (x : ℝ), xs[j]? = some x → ∃ p, c'.rows[j]? = some p ∧ ‖pt n p - g x‖ ≤ M / 8 * h ^ 2 := by
  obtain ⟨R, c', e1, e2, e3, e4, -, -, e5⟩ := C64_between_partial hc hsz ht hd hr ex hne hx ht0 ht1 (.inr hxs)
  refine ⟨R, c', e1, e2, e3, by rw [e4, hs.ndim], fun j x hj => ?_⟩
  obtain ⟨l0, l1⟩ := hxs x (List.mem_of_getElem? hj)
  have hlen := hs.len
  have hsz' : 2 ≤ c.rows.length := hsz
  obtain ⟨i, u, v, k1, k2, k3, k4⟩ := between_neighbours (c.t junk) (by omega) ht0 ht1 l0 l1
  have hi : i + 1 < c.rows.length := by rw [← hlen]; exact (List.getElem?_eq_some_iff.1 k2).1
  obtain ⟨p, ep⟩ : ∃ p, c.rows[i]? = some p := ⟨_, List.getElem?_eq_getElem (by omega)⟩
  obtain ⟨q, eq⟩ : ∃ q, c.rows[i + 1]? = some q := ⟨_, List.getElem?_eq_getElem hi⟩
  obtain ⟨s, s0, s1, s2, s3⟩ := e5 j i x u v p q hj k1 k2 ep eq k3 k4
  refine ⟨_, s3, ?_⟩
  have hp : p.length = n := by rw [← hs.ndim]; exact hc.rect _ (List.mem_of_getElem? ep)
  have hq : q.length = n := by rw [← hs.ndim]; exact hc.rect _ (List.mem_of_getElem? eq)
  rw [pt_mix hp hq, hs.pts i u p k1 ep, hs.pts (i + 1) v q k2 eq]
  have mu := hs.range u (List.mem_of_getElem? k1)
  have mv := hs.range v (List.mem_of_getElem? k2)
  exact chord_close hM h1 hl mu mv s0 s1 s2 ⟨mu.1.trans k3, k4.trans mv.2⟩ (k3.trans k4) (hh i u v k1 k2)

/-- **C118 (shape, partial).** Points of a smooth curve at any increasing parameters `ts`, and any increasing parameter of the curve object (its arc length, say):
every point of the result of linear interpolation is within `M h² / 8` of the smooth curve, `h` being the largest step of `ts`. Missing: integer dtypes. -/
theorem C118_near_partial (hc : WF c) (hsz : 2 ≤ c.size) {junk : ℝ} (ht : (c.t junk).Pairwise (· < ·)) (hd : c.dtype ≠ .int) {r : InterpReg Bool} {m : String}
    (hr : IsLinear junk r m) (ex : Bool) {xs : List ℝ} (hne : xs ≠ []) (hx : StepsOver xs) {t0 t1 : ℝ} (ht0 : (c.t junk).head? = some t0)
    (ht1 : (c.t junk).getLast? = some t1) (hxs : ∀ x ∈ xs, t0 ≤ x ∧ x ≤ t1) (hM : 0 ≤ M) (h1 : DerivOn a b g d) (hl : LipOn a b M d)
    (hs : OnCurve g a b ts c) (hh : GapsLe h ts) :
    ∃ R c', c.interpolate r (.arr (.ok (GridArr.of (fins xs)))) m ex = .ok R ∧ Represents R c' ∧ c'.size = xs.length ∧ c'.ncols = n ∧
      ∀ p ∈ c'.rows, ∃ τ ∈ Icc a b, ‖pt n p - g τ‖ ≤ M / 8 * h ^ 2 := by
  obtain ⟨R, c', e1, e2, e3, e4, -, -, e5⟩ := C64_between_partial hc hsz ht hd hr ex hne hx ht0 ht1 (.inr hxs)
  refine ⟨R, c', e1, e2, e3, by rw [e4, hs.ndim], fun p' hp' => ?_⟩
  obtain ⟨j, hj', hj⟩ := List.getElem_of_mem hp'
  have e3' : c'.rows.length = xs.length := e3
  obtain ⟨x, hj1⟩ : ∃ x, xs[j]? = some x := ⟨_, List.getElem?_eq_getElem (by omega)⟩
  obtain ⟨l0, l1⟩ := hxs x (List.mem_of_getElem? hj1)
  have hlen := hs.len
  have hlt := t_length hc (rows_ne_of_size hsz) junk
  have hsz' : 2 ≤ c.rows.length := hsz
  obtain ⟨i, u, v, k1, k2, k3, k4⟩ := between_neighbours (c.t junk) (by omega) ht0 ht1 l0 l1
  have hi : i + 1 < c.rows.length := by
    have := (List.getElem?_eq_some_iff.1 k2).1
    rw [hlt] at this
    exact this
  obtain ⟨p, ep⟩ : ∃ p, c.rows[i]? = some p := ⟨_, List.getElem?_eq_getElem (by omega)⟩
  obtain ⟨q, eq⟩ : ∃ q, c.rows[i + 1]? = some q := ⟨_, List.getElem?_eq_getElem hi⟩
  obtain ⟨u', eu⟩ : ∃ u, ts[i]? = some u := ⟨_, List.getElem?_eq_getElem (by omega)⟩
  obtain ⟨v', ev⟩ : ∃ u, ts[i + 1]? = some u := ⟨_, List.getElem?_eq_getElem (by omega)⟩
  obtain ⟨s, s0, s1, s2, s3⟩ := e5 j i x u v p q hj1 k1 k2 ep eq k3 k4
  rw [List.getElem?_eq_getElem hj', hj, Option.some.injEq] at s3
  have hp : p.length = n := by rw [← hs.ndim]; exact hc.rect _ (List.mem_of_getElem? ep)
  have hq : q.length = n := by rw [← hs.ndim]; exact hc.rect _ (List.mem_of_getElem? eq)
  have mu := hs.range u' (List.mem_of_getElem? eu)
  have mv := hs.range v' (List.mem_of_getElem? ev)
  have huv : u' ≤ v' := by
    obtain ⟨_, f1⟩ := List.getElem?_eq_some_iff.1 eu
    obtain ⟨_, f2⟩ := List.getElem?_eq_some_iff.1 ev
    rw [← f1, ← f2]
    exact List.pairwise_iff_getElem.1 hs.mono _ _ _ _ (by omega)
  have mt : u' + (v' - u') * s ∈ Icc a b := ⟨by nlinarith [mu.1], by nlinarith [mv.2]⟩
  refine ⟨_, mt, ?_⟩
  rw [s3, pt_mix hp hq, hs.pts i u' p eu ep, hs.pts (i + 1) v' q ev eq]
  exact chord_close hM h1 hl mu mv s0 s1 (by ring) mt huv (hh i u' v' eu ev)

/-! ## Instances -/

/-- Parameters `0, h, 2h, …`. -/
noncomputable def steps (m : Nat) (h : ℝ) : List ℝ := (List.range m).map fun (i : Nat) => (i * h : ℝ)

theorem steps_get {m : Nat} {h : ℝ} {i : Nat} {t : ℝ} (e : (steps m h)[i]? = some t) : i < m ∧ t = i * h := by
  unfold steps at e
  rw [List.getElem?_map] at e
  by_cases hi : i < m
  · rw [List.getElem?_range hi] at e
    exact ⟨hi, by simpa using e.symm⟩
  · rw [List.getElem?_eq_none (by simpa using hi)] at e
    simp at e

theorem steps_gaps (m : Nat) (h : ℝ) : GapsLe h (steps m h) := by
  intro i u v e1 e2
  rw [(steps_get e1).2, (steps_get e2).2]
  push_cast
  linarith

theorem exArc_onCurve (n m : Nat) {h : ℝ} (hh : 0 ≤ h) (t : Option (List ℝ)) :
    OnCurve (circ (ux n) (uy n)) 0 (m * h) (steps m h) { exArc n m h with tdata := t } where
  ndim := rfl
  len := by simp [steps, exArc]
  mono := by
    unfold steps
    rw [List.pairwise_map]
    refine List.pairwise_lt_range.imp ?_
    intro i j hij
    have : (i : ℝ) ≤ j := by exact_mod_cast hij.le
    gcongr
  range := by
    intro t ht
    obtain ⟨i, _, e⟩ := List.getElem_of_mem ht
    obtain ⟨hi, rfl⟩ := steps_get (List.getElem?_eq_some_iff.2 ⟨_, e⟩)
    have := (exArc_sampled n m hh).range i (by simpa [exArc] using hi)
    simpa using this
  pts := by
    intro i t p e1 e2
    obtain ⟨hi, rfl⟩ := steps_get e1
    have := (exArc_sampled n m hh).pts i (by simpa [exArc] using hi)
    rw [zero_add] at this
    rw [← this]
    unfold Spec.rowVec
    rw [List.getD_eq_getElem?_getD, show (exArc n m h).rows[i]? = some p from e2]
    rfl

/-- The inscribed polygonal line with `m` equal angles of `h` has length `(m - 1) h` up to the bound. -/
example (n m : Nat) (hm : 0 < m) {h : ℝ} (hh : 0 ≤ h) (junk : ℝ) :
    arclen junk (exArc n m h) ≤ (m - 1 : ℕ) * h ∧ (m - 1 : ℕ) * h ≤ arclen junk (exArc n m h) + 1 / 2 * h ^ 2 * ((m - 1 : ℕ) * h) := by
  have e0 : (steps m h).head? = some 0 := by
    obtain ⟨k, rfl⟩ : ∃ k, m = k + 1 := ⟨m - 1, by omega⟩
    simp [steps, List.range_succ_eq_map]
  have e1 : (steps m h).getLast? = some ((m - 1 : ℕ) * h) := by
    obtain ⟨k, rfl⟩ : ∃ k, m = k + 1 := ⟨m - 1, by omega⟩
    simp [steps, List.range_succ]
  have := C117_arclen (v₀ := 1) (exArc_WF n m h) (by simp [exArc]; omega) junk zero_le_one (circ_deriv 0 (m * h) (ux n) (uy n))
    (LipOn.of_deriv (circ_deriv _ _ _ _) fun x _ => (circ_norm2 n x).le) one_pos (fun s _ => (circ_norm1 n s).ge)
    (exArc_onCurve n m hh none) (steps_gaps m h) e0 e1
  simp only [circ_norm1] at this
  norm_num at this ⊢
  exact this

/-- A quarter of the way between two samples of the circle. -/
example : ∃ R c', ({ exArc 0 3 1 with tdata := some (steps 3 1) } : Curve ℝ).interpolate (linearReg 0) (.arr (.ok (GridArr.of (fins [1 / 4, 3 / 2])))) "linear" false = .ok R ∧
    Represents R c' ∧ c'.size = 2 ∧ ∀ (j : Nat) (x : ℝ), ([1 / 4, 3 / 2] : List ℝ)[j]? = some x →
      ∃ p, c'.rows[j]? = some p ∧ ‖pt 2 p - circ (ux 0) (uy 0) x‖ ≤ 1 / 8 := by
  have hw : WF ({ exArc 0 3 1 with tdata := some (steps 3 1) } : Curve ℝ) :=
    { two_le := (exArc_WF 0 3 1).two_le, rect := (exArc_WF 0 3 1).rect, repr := (exArc_WF 0 3 1).repr, tlen := by simp [steps, exArc] }
  have et : steps 3 1 = [0, 1, 2] := by simp [steps, List.range_succ]
  have ht : ({ exArc 0 3 1 with tdata := some (steps 3 1) } : Curve ℝ).t 0 = steps 3 1 := rfl
  obtain ⟨R, c', e1, e2, e3, -, e5⟩ := C118_linear_partial (M := 1) (h := 1) hw (by simp [exArc, Curve.size]) (junk := 0) (by rw [ht, et]; simp) (by simp [exArc])
    (isLinear_linearReg 0) false (xs := [1 / 4, 3 / 2]) (by simp) (by
      rintro (_ | _ | i) x y h1 h2
      · simp at h1 h2; subst h1 h2; norm_num
      · simp at h2
      · simp at h2) (t0 := 0) (t1 := 2) (by rw [ht, et]; rfl) (by rw [ht, et]; rfl)
    (by norm_num) zero_le_one (circ_deriv 0 ((3 : ℕ) * 1) (ux 0) (uy 0)) (LipOn.of_deriv (circ_deriv _ _ _ _) fun x _ => (circ_norm2 0 x).le)
    (by rw [ht]; exact exArc_onCurve 0 3 zero_le_one _) (by rw [ht]; exact steps_gaps 3 1)
  refine ⟨R, c', e1, e2, by simpa using e3, fun j x hj => ?_⟩
  obtain ⟨p, h1, h2⟩ := e5 j x hj
  exact ⟨p, h1, by norm_num at h2 ⊢; exact h2⟩

end Verif.Props
