import Verif.Props.SplineBc
import Verif.Lemmas.Bending

/-!
C125: cubic interpolation with natural boundary conditions (the default) bends least among all curves through the points; with clamped
ends it bends least among all curves through the points with derivative 0 at the ends.
-/
namespace Verif.Props

open Verif Verif.Np Verif.Model Verif.Spec

/-- **C125.** Default cubic interpolation (natural boundary conditions, scipy's solver solving its system): every coordinate `f` is twice
continuously differentiable on the range of the parameter, and every other twice continuously differentiable function `g` with the same
values at the parameter values has at least the bending energy of `f`; if it has the same, it is `f`. -/
theorem C125_natural {c : Curve ℝ} (hc : WF c) (hs : 2 ≤ c.size) {junk : ℝ} (ht : (c.t junk).Pairwise (· < ·))
    (hd : c.dtype ≠ .int) {lib : SplineLib} (hlib : NaturalOk lib) {r : KwReg} {m : String} (hr : IsCubic lib junk r m) :
    ∃ F, EvaluatesTo c (fun g => c.interpolate r g m .none) (fun _ => True) F ∧
      ∀ a b, (c.t junk).head? = some a → (c.t junk).getLast? = some b → ∀ j, j < c.ncols → ∃ f1 f2 : ℝ → ℝ,
        TwiceOn a b (fun x => coordOf j (F x)) f1 f2 ∧
        ∀ g g1 g2 : ℝ → ℝ, TwiceOn a b g g1 g2 → (∀ i x, (c.t junk)[i]? = some x → g x = at2 c.rows i j) →
          bending a b f2 ≤ bending a b g2 ∧
          (bending a b g2 = bending a b f2 → ∀ x ∈ Set.Icc a b, g x = coordOf j (F x)) := by
  have hl := t_length hc (rows_ne_of_size hs) junk
  obtain ⟨F, hF, hP⟩ := C86_natural hc hs ht hd hlib hr
  refine ⟨F, hF, ?_⟩
  intro a b ha hb j hj
  obtain ⟨P, h1, h2, h3, h4, h5⟩ := hP j hj
  have hcub : CubicOn (c.t junk) (fun i => at2 c.rows i j) (fun x => coordOf j (F x)) P := by
    refine ⟨h1, fun i u v hu hv => (h2 i u v hu hv).1, ?_, ?_, ?_, ?_⟩
    · intro i u hu hi
      exact (h2 i u _ hu (knot_some hi)).2.1
    · intro i v hv
      have := (List.getElem?_eq_some_iff.1 hv).1
      exact (h2 i _ v (knot_some (by omega)) hv).2.2
    · intro i v hv hi
      exact (h3 i v hv (by omega)).1
    · intro i v hv hi
      exact (h3 i v hv (by omega)).2
  have h4' := h4 a ha
  have h5' := h5 b hb
  have ea : a = knot (c.t junk) 0 := by rw [List.head?_eq_getElem?] at ha; exact (knot_eq ha).symm
  have eb : b = knot (c.t junk) ((c.t junk).length - 1) := by rw [List.getLast?_eq_getElem?] at hb; exact (knot_eq hb).symm
  have hl2 : 2 ≤ (c.t junk).length := by omega
  have s0 : splineD2 (c.t junk) P a = 0 := by
    rw [(splineD_on ht hcub (i := 0) (by omega) ⟨ea.symm.le, by rw [ea]; exact knot_le ht (by omega) (by omega)⟩).2, h4']
  have s1 : splineD2 (c.t junk) P b = 0 := by
    rw [(splineD_on ht hcub (i := c.size - 2) (by omega) ⟨by rw [eb]; exact knot_le ht (by omega) (by omega), by
      rw [eb, show c.size - 2 + 1 = (c.t junk).length - 1 by omega]⟩).2, h5']
  refine ⟨splineD1 (c.t junk) P, splineD2 (c.t junk) P, by rw [ea, eb]; exact cubicOn_twice ht hl2 hcub, ?_⟩
  intro g g1 g2 hg hv
  have := least_bending ht hl2 hcub (g := g) (g1 := g1) (g2 := g2) (by rw [← ea, ← eb]; exact hg) (fun i hi => hv i _ (knot_some hi))
    (by rw [← ea, ← eb, s0, s1]; ring)
  rwa [← ea, ← eb] at this

/-- **C125, clamped.** With `bc_type='clamped'`: the same among the functions whose derivative at both ends is 0, as is that of `f`. -/
theorem C125_clamped {c : Curve ℝ} (hc : WF c) (hs : 2 ≤ c.size) {junk : ℝ} (ht : (c.t junk).Pairwise (· < ·))
    (hd : c.dtype ≠ .int) {lib : SplineLib} (hlib : BoundaryOk lib) {r : KwReg} {m : String} (hr : IsCubic lib junk r m) :
    ∃ F, EvaluatesTo c (fun g => c.interpolate r g m ⟨[("bc_type", .str "clamped")]⟩) (fun _ => True) F ∧
      ∀ a b, (c.t junk).head? = some a → (c.t junk).getLast? = some b → ∀ j, j < c.ncols → ∃ f1 f2 : ℝ → ℝ,
        TwiceOn a b (fun x => coordOf j (F x)) f1 f2 ∧ f1 a = 0 ∧ f1 b = 0 ∧
        ∀ g g1 g2 : ℝ → ℝ, TwiceOn a b g g1 g2 → g1 a = 0 → g1 b = 0 → (∀ i x, (c.t junk)[i]? = some x → g x = at2 c.rows i j) →
          bending a b f2 ≤ bending a b g2 ∧
          (bending a b g2 = bending a b f2 → ∀ x ∈ Set.Icc a b, g x = coordOf j (F x)) := by
  have hl := t_length hc (rows_ne_of_size hs) junk
  obtain ⟨F, hF, hP⟩ := C124_clamped hc hs ht hd hlib hr
  refine ⟨F, hF, ?_⟩
  intro a b ha hb j hj
  obtain ⟨P, hcub, h4, h5⟩ := hP j hj
  have h4' := h4 a ha
  have h5' := h5 b hb
  have ea : a = knot (c.t junk) 0 := by rw [List.head?_eq_getElem?] at ha; exact (knot_eq ha).symm
  have eb : b = knot (c.t junk) ((c.t junk).length - 1) := by rw [List.getLast?_eq_getElem?] at hb; exact (knot_eq hb).symm
  have hl2 : 2 ≤ (c.t junk).length := by omega
  have s0 : splineD1 (c.t junk) P a = 0 := by
    rw [(splineD_on ht hcub (i := 0) (by omega) ⟨ea.symm.le, by rw [ea]; exact knot_le ht (by omega) (by omega)⟩).1, h4']
  have s1 : splineD1 (c.t junk) P b = 0 := by
    rw [(splineD_on ht hcub (i := c.size - 2) (by omega) ⟨by rw [eb]; exact knot_le ht (by omega) (by omega), by
      rw [eb, show c.size - 2 + 1 = (c.t junk).length - 1 by omega]⟩).1, h5']
  refine ⟨splineD1 (c.t junk) P, splineD2 (c.t junk) P, by rw [ea, eb]; exact cubicOn_twice ht hl2 hcub, s0, s1, ?_⟩
  intro g g1 g2 hg g0 g9 hv
  have := least_bending ht hl2 hcub (g := g) (g1 := g1) (g2 := g2) (by rw [← ea, ← eb]; exact hg) (fun i hi => hv i _ (knot_some hi))
    (by rw [← ea, ← eb, s0, s1, g0, g9]; ring)
  rwa [← ea, ← eb] at this

/-! ## Instances -/

/-- The points of the cubic parabola `y = x³`: the natural spline bends less than the parabola itself, which goes through the same
points. -/
example : ∃ lib, NaturalOk lib ∧ ∃ F, EvaluatesTo exCubic (fun g => exCubic.interpolate (builtinInterp lib 0) g "cubic" .none) (fun _ => True) F ∧
    ∃ f1 f2, TwiceOn 0 4 (fun x => coordOf 1 (F x)) f1 f2 ∧ bending 0 4 f2 ≤ bending 0 4 (fun x => 6 * x) := by
  obtain ⟨lib, h, _⟩ := exists_boundaryOk
  obtain ⟨F, h1, h2⟩ := C125_natural exCubic_WF (by simp [exCubic, Curve.size]) (junk := 0) (by norm_num [exCubic, Curve.t])
    (by simp [exCubic]) h (builtin_names lib 0).2.2.2.2
  obtain ⟨f1, f2, h3, h4⟩ := h2 0 4 rfl rfl 1 (by simp [exCubic])
  refine ⟨lib, h, F, h1, f1, f2, h3, (h4 (fun x => x ^ 3) (fun x => 3 * x ^ 2) (fun x => 6 * x) ⟨?_, ?_, ?_⟩ ?_).1⟩
  · intro x _
    have := (hasDerivAt_pow 3 x).hasDerivWithinAt (s := Set.Icc 0 4)
    exact this.congr_deriv (by norm_num)
  · intro x _
    have := ((hasDerivAt_pow 2 x).const_mul 3).hasDerivWithinAt (s := Set.Icc 0 4)
    exact this.congr_deriv (by norm_num; ring)
  · exact (continuous_const.mul continuous_id).continuousOn
  · intro i x hx
    match i with
    | 0 => simp [exCubic, Curve.t] at hx; subst hx; norm_num [exCubic, at2]
    | 1 => simp [exCubic, Curve.t] at hx; subst hx; norm_num [exCubic, at2]
    | 2 => simp [exCubic, Curve.t] at hx; subst hx; norm_num [exCubic, at2]
    | 3 => simp [exCubic, Curve.t] at hx; subst hx; norm_num [exCubic, at2]
    | (k + 4) => simp [exCubic, Curve.t] at hx

example : ∃ lib, BoundaryOk lib ∧ ∃ F, EvaluatesTo exCubic
    (fun g => exCubic.interpolate (builtinInterp lib 0) g "cubic" ⟨[("bc_type", .str "clamped")]⟩) (fun _ => True) F ∧
    ∃ f1 f2, TwiceOn 0 4 (fun x => coordOf 1 (F x)) f1 f2 ∧ f1 0 = 0 ∧ f1 4 = 0 := by
  obtain ⟨lib, _, h⟩ := exists_boundaryOk
  obtain ⟨F, h1, h2⟩ := C125_clamped exCubic_WF (by simp [exCubic, Curve.size]) (junk := 0) (by norm_num [exCubic, Curve.t])
    (by simp [exCubic]) h (builtin_names lib 0).2.2.2.2
  obtain ⟨f1, f2, h3, h4, h5, _⟩ := h2 0 4 rfl rfl 1 (by simp [exCubic])
  exact ⟨lib, h, F, h1, f1, f2, h3, h4, h5⟩

end Verif.Props
