import Verif.Props.Bending
import Verif.Props.SplineEnds
import Verif.Lemmas.SplineError

/-!
C137: cubic and PCHIP interpolation of points on the graph of a function, compared to the function.
-/
namespace Verif.Spec

open Verif Verif.Model

/-- Entry `e` of a pair of end conditions gives for coordinate `j` what a function with first derivative `d1` and second derivative `d2` at
that end has there. -/
def GivesEnd (e : BcEnd) (j : Nat) (d1 d2 : ℝ) : Prop :=
  e = .str "natural" ∧ d2 = 0 ∨ e = .str "clamped" ∧ d1 = 0 ∨ (∃ vs, e = .deriv 1 vs ∧ vs[j]? = some d1) ∨ ∃ vs, e = .deriv 2 vs ∧ vs[j]? = some d2

end Verif.Spec

namespace Verif.Props

open Verif Verif.Np Verif.Model Verif.Spec Set

/-- **C137 (default).** Default cubic interpolation (natural boundary conditions, scipy's solver solving its system) of a curve of which
coordinate `j` is that of a twice continuously differentiable function `g` at the parameter values, with steps of the parameter at most `h`,
over the range `[a, b]` of the parameter. If `|g''| ≤ M`, coordinate `j` differs from `g` by at most `M / 2 · h · √(h (b - a))` and its
derivative from `g'` by at most `M · √(h (b - a))`. If `g''` is 0 at both ends and `g'''` exists and has the Lipschitz constant `M`, the
differences are at most `M / 16 · h³ · √(h (b - a))` and `M / 8 · h² · √(h (b - a))`. Dtypes that are not integer ones. -/
theorem C137_natural {c : Curve ℝ} (hc : WF c) (hs : 2 ≤ c.size) {junk : ℝ} (ht : (c.t junk).Pairwise (· < ·))
    (hd : c.dtype ≠ .int) {lib : SplineLib} (hlib : NaturalOk lib) {r : KwReg} {m : String} (hr : IsCubic lib junk r m) :
    ∃ F, EvaluatesTo c (fun g => c.interpolate r g m .none) (fun _ => True) F ∧
      ∀ a b h, (c.t junk).head? = some a → (c.t junk).getLast? = some b → GapsLe h (c.t junk) → ∀ j, j < c.ncols →
        ∃ f1 : ℝ → ℝ, DerivOn a b (fun x => coordOf j (F x)) f1 ∧
        ∀ g g1 g2 : ℝ → ℝ, TwiceOn a b g g1 g2 → (∀ i x, (c.t junk)[i]? = some x → g x = at2 c.rows i j) → ∀ M, 0 ≤ M →
          ((∀ x ∈ Icc a b, |g2 x| ≤ M) → ∀ x ∈ Icc a b,
            |coordOf j (F x) - g x| ≤ M / 2 * h * √(h * (b - a)) ∧ |f1 x - g1 x| ≤ M * √(h * (b - a))) ∧
          (∀ g3 : ℝ → ℝ, DerivOn a b g2 g3 → LipOn a b M g3 → g2 a = 0 → g2 b = 0 → ∀ x ∈ Icc a b,
            |coordOf j (F x) - g x| ≤ M / 16 * h ^ 3 * √(h * (b - a)) ∧ |f1 x - g1 x| ≤ M / 8 * h ^ 2 * √(h * (b - a))) := by
  have hl := t_length hc (rows_ne_of_size hs) junk
  obtain ⟨F, hF, hP⟩ := C86_natural hc hs ht hd hlib hr
  refine ⟨F, hF, ?_⟩
  intro a b h ha hb hh j hj
  obtain ⟨P, h1, h2, h3, h4, h5⟩ := hP j hj
  have hcub : CubicOn (c.t junk) (fun i => at2 c.rows i j) (fun x => coordOf j (F x)) P := by
    refine ⟨h1, fun i u v hu hv => (h2 i u v hu hv).1, ?_, ?_, ?_, ?_⟩
    · intro i u hu hi
      exact (h2 i u _ hu (knot_some hi)).2.1
    · intro i v hv
      have := (List.getElem?_eq_some_iff.1 hv).1
      exact (h2 i _ v (knot_some (by omega)) hv).2.2
    · intro i v hv hi
      exact (h3 i v hv (by omega)).1
    · intro i v hv hi
      exact (h3 i v hv (by omega)).2
  have h4' := h4 a ha
  have h5' := h5 b hb
  have ea : a = knot (c.t junk) 0 := by rw [List.head?_eq_getElem?] at ha; exact (knot_eq ha).symm
  have eb : b = knot (c.t junk) ((c.t junk).length - 1) := by rw [List.getLast?_eq_getElem?] at hb; exact (knot_eq hb).symm
  have hl2 : 2 ≤ (c.t junk).length := by omega
  have s0 : splineD2 (c.t junk) P a = 0 := by
    rw [(splineD_on ht hcub (i := 0) (by omega) ⟨ea.symm.le, by rw [ea]; exact knot_le ht (by omega) (by omega)⟩).2, h4']
  have s1 : splineD2 (c.t junk) P b = 0 := by
    rw [(splineD_on ht hcub (i := c.size - 2) (by omega) ⟨by rw [eb]; exact knot_le ht (by omega) (by omega), by
      rw [eb, show c.size - 2 + 1 = (c.t junk).length - 1 by omega]⟩).2, h5']
  subst ea eb
  refine ⟨splineD1 (c.t junk) P, (cubicOn_twice ht hl2 hcub).1, ?_⟩
  intro g g1 g2 hg hv M hM
  refine ⟨fun hb2 x hx => ?_, fun g3 k3 kl k0 k9 x hx => ?_⟩
  · obtain ⟨q1, q2⟩ := spline_error_low ht hl2 hcub hg (fun i hi => hv i _ (knot_some hi)) hM hb2 hh (.inl s0) (.inl s1) x hx
    rw [abs_sub_comm] at q1 q2
    exact ⟨q2, q1⟩
  · obtain ⟨q1, q2⟩ := spline_error_high ht hl2 hcub hg (fun i hi => hv i _ (knot_some hi)) hM k3 kl hh (.inl (by rw [s0, k0]))
      (.inl (by rw [s1, k9])) x hx
    rw [abs_sub_comm] at q1 q2
    exact ⟨q2, q1⟩

/-- **C137 (end conditions).** Cubic interpolation with a pair of end conditions that give what `g` has at the ends: the first derivative of
`g`, or its second. If `g'''` exists and has the Lipschitz constant `M`, coordinate `j` differs from `g` by at most
`M / 16 · h³ · √(h (b - a))` and its derivative from `g'` by at most `M / 8 · h² · √(h (b - a))`. -/
theorem C137_ends {c : Curve ℝ} (hc : WF c) (hs : 2 ≤ c.size) {junk : ℝ} (ht : (c.t junk).Pairwise (· < ·))
    (hd : c.dtype ≠ .int) {lib : SplineLib} (hlib : EndsOk lib) {r : KwReg} {m : String} (hr : IsCubic lib junk r m)
    {ea eb : BcEnd} (ha : Documented c.ncols ea) (hb : Documented c.ncols eb) :
    ∃ F, EvaluatesTo c (fun g => c.interpolate r g m ⟨[("bc_type", .tup [ea, eb])]⟩) (fun _ => True) F ∧
      ∀ a b h, (c.t junk).head? = some a → (c.t junk).getLast? = some b → GapsLe h (c.t junk) → ∀ j, j < c.ncols →
        ∃ f1 : ℝ → ℝ, DerivOn a b (fun x => coordOf j (F x)) f1 ∧
        ∀ g g1 g2 g3 : ℝ → ℝ, DerivOn a b g g1 → DerivOn a b g1 g2 → DerivOn a b g2 g3 →
          (∀ i x, (c.t junk)[i]? = some x → g x = at2 c.rows i j) → ∀ M, 0 ≤ M → LipOn a b M g3 →
          GivesEnd ea j (g1 a) (g2 a) → GivesEnd eb j (g1 b) (g2 b) → ∀ x ∈ Icc a b,
            |coordOf j (F x) - g x| ≤ M / 16 * h ^ 3 * √(h * (b - a)) ∧ |f1 x - g1 x| ≤ M / 8 * h ^ 2 * √(h * (b - a)) := by
  have hl := t_length hc (rows_ne_of_size hs) junk
  obtain ⟨F, hF, hP, _⟩ := C133_ends hc hs ht hd hlib hr ha hb
  refine ⟨F, hF, ?_⟩
  intro u v h hu hv hh j hj
  obtain ⟨P, hcub, h4, h5⟩ := hP j hj
  have eu : u = knot (c.t junk) 0 := by rw [List.head?_eq_getElem?] at hu; exact (knot_eq hu).symm
  have ev : v = knot (c.t junk) ((c.t junk).length - 1) := by rw [List.getLast?_eq_getElem?] at hv; exact (knot_eq hv).symm
  have hl2 : 2 ≤ (c.t junk).length := by omega
  have M0 := h4 (knot (c.t junk) 0) (knot (c.t junk) 1) (knot_some (by omega)) (knot_some (by omega))
  have M9 := h5 (knot (c.t junk) (c.size - 2)) (knot (c.t junk) (c.size - 1)) (knot_some (by omega)) (knot_some (by omega))
  have s0 := splineD_on ht hcub (i := 0) (by omega) (x := u) ⟨eu.symm.le, by rw [eu]; exact knot_le ht (by omega) (by omega)⟩
  have s9 := splineD_on ht hcub (i := c.size - 2) (by omega) (x := v) ⟨by rw [ev]; exact knot_le ht (by omega) (by omega), by
      rw [ev, show c.size - 2 + 1 = (c.t junk).length - 1 by omega]⟩
  rw [← eu] at M0
  rw [← hl, ← ev, hl] at M9
  subst eu ev
  refine ⟨splineD1 (c.t junk) P, (cubicOn_twice ht hl2 hcub).1, ?_⟩
  intro g g1 g2 g3 k1 k2 k3 hgv M hM hlip ga gb x hx
  have h0 : splineD2 (c.t junk) P (knot (c.t junk) 0) = g2 (knot (c.t junk) 0) ∨
      splineD1 (c.t junk) P (knot (c.t junk) 0) = g1 (knot (c.t junk) 0) := by
    rw [s0.1, s0.2]
    rcases ga with ⟨e, z⟩ | ⟨e, z⟩ | ⟨vs, e, z⟩ | ⟨vs, e, z⟩
    · left; rw [M0.natural e, z]
    · right; rw [M0.clamped e, z]
    · right; exact M0.first vs _ e z
    · left; exact M0.second vs _ e z
  have h9 : splineD2 (c.t junk) P (knot (c.t junk) ((c.t junk).length - 1)) = g2 (knot (c.t junk) ((c.t junk).length - 1)) ∨
      splineD1 (c.t junk) P (knot (c.t junk) ((c.t junk).length - 1)) = g1 (knot (c.t junk) ((c.t junk).length - 1)) := by
    rw [s9.1, s9.2]
    rcases gb with ⟨e, z⟩ | ⟨e, z⟩ | ⟨vs, e, z⟩ | ⟨vs, e, z⟩
    · left; rw [M9.natural e, z]
    · right; rw [M9.clamped e, z]
    · right; exact M9.first vs _ e z
    · left; exact M9.second vs _ e z
  obtain ⟨q1, q2⟩ := spline_error_high ht hl2 hcub ⟨k1, k2, fun z hz => (k3 z hz).continuousWithinAt⟩ (fun i hi => hgv i _ (knot_some hi)) hM k3
    hlip hh h0 h9 x hx
  rw [abs_sub_comm] at q1 q2
  exact ⟨q2, q1⟩

/-- **C137 (PCHIP).** PCHIP interpolation of a curve of which coordinate `j` is that of a function `g` with Lipschitz constant `L` at the
parameter values: coordinate `j` differs from `g` by at most `L h`. -/
theorem C137_pchip {c : Curve ℝ} (hc : WF c) (hs : 2 ≤ c.size) {junk : ℝ} (ht : (c.t junk).Pairwise (· < ·))
    (hd : c.dtype ≠ .int) {r : KwReg} {m : String} (hr : IsPchip junk r m) :
    ∃ F, EvaluatesTo c (fun g => c.interpolate r g m .none) (fun _ => True) F ∧
      ∀ a b h, (c.t junk).head? = some a → (c.t junk).getLast? = some b → GapsLe h (c.t junk) → ∀ j, j < c.ncols →
        ∀ (g : ℝ → ℝ) (L : ℝ), 0 ≤ L → LipOn a b L g → (∀ i x, (c.t junk)[i]? = some x → g x = at2 c.rows i j) →
          ∀ x ∈ Icc a b, |coordOf j (F x) - g x| ≤ L * h := by
  have hl := t_length hc (rows_ne_of_size hs) junk
  obtain ⟨F, hF, hP⟩ := C85_pchip_monotone hc hs ht hd hr
  refine ⟨F, hF, ?_⟩
  intro a b h ha hb hh j hj g L hL hlip hv x hx
  obtain ⟨i, u, v, hu, hv', hux, hxv⟩ := between_neighbours (c.t junk) (by omega) ha hb hx.1 hx.2
  have hbox := (hP i j u v hu hv' hj).2.2 x ⟨hux, hxv⟩
  have hgap := hh i u v hu hv'
  have ea : a = knot (c.t junk) 0 := by rw [List.head?_eq_getElem?] at ha; exact (knot_eq ha).symm
  have eb : b = knot (c.t junk) ((c.t junk).length - 1) := by rw [List.getLast?_eq_getElem?] at hb; exact (knot_eq hb).symm
  have hi := (List.getElem?_eq_some_iff.1 hv').1
  have hau : a ≤ u := by rw [ea, ← knot_eq hu]; exact knot_le ht (Nat.zero_le i) (by omega)
  have hvb : v ≤ b := by rw [eb, ← knot_eq hv']; exact knot_le ht (by omega) (by omega)
  have l1 := hlip x hx u ⟨hau, by linarith⟩
  have l2 := hlip x hx v ⟨by linarith, hvb⟩
  rw [hv i u hu, Real.norm_eq_abs, abs_of_nonpos (show u - x ≤ 0 by linarith)] at l1
  rw [hv (i + 1) v hv', Real.norm_eq_abs, abs_of_nonneg (show 0 ≤ v - x by linarith)] at l2
  have m1 : L * -(u - x) ≤ L * h := mul_le_mul_of_nonneg_left (by linarith) hL
  have m2 : L * (v - x) ≤ L * h := mul_le_mul_of_nonneg_left (by linarith) hL
  rw [abs_le] at l1 l2 ⊢
  rcases mem_uIcc.1 hbox with k | k
  · constructor <;> linarith [k.1, k.2]
  · constructor <;> linarith [k.1, k.2]

/-! ## Instances -/

/-- The points of `y = x³` with the derivatives of `x³` at the ends: the third derivative of `x³` is constant, so the result is `x³`. -/
example : ∃ lib, EndsOk lib ∧ ∃ F, EvaluatesTo exCubic (fun g => exCubic.interpolate (builtinInterp lib 0) g "cubic"
    ⟨[("bc_type", .tup [.deriv 1 [1, 0], .deriv 2 [0, 24]])]⟩) (fun _ => True) F ∧ ∀ x ∈ Icc (0 : ℝ) 4, coordOf 1 (F x) = x ^ 3 := by
  obtain ⟨lib, _, _, h⟩ := exists_endsOk
  obtain ⟨F, h1, h2⟩ := C137_ends exCubic_WF (by simp [exCubic, Curve.size]) (junk := 0) (by norm_num [exCubic, Curve.t])
    (by simp [exCubic]) h (builtin_names lib 0).2.2.2.2 (ea := .deriv 1 [1, 0]) (eb := .deriv 2 [0, 24])
    (.inr (.inr (.inr ⟨1, _, rfl, .inl rfl, rfl⟩))) (.inr (.inr (.inr ⟨2, _, rfl, .inr rfl, rfl⟩)))
  obtain ⟨f1, _, h3⟩ := h2 0 4 2 rfl rfl (by
    intro i u v hu hv
    match i with
    | 0 => simp [exCubic, Curve.t] at hu hv; subst hu hv; norm_num
    | 1 => simp [exCubic, Curve.t] at hu hv; subst hu hv; norm_num
    | 2 => simp [exCubic, Curve.t] at hu hv; subst hu hv; norm_num
    | (k + 3) => simp [exCubic, Curve.t] at hv) 1 (by simp [exCubic])
  refine ⟨lib, h, F, h1, fun x hx => ?_⟩
  have := (h3 (fun x => x ^ 3) (fun x => 3 * x ^ 2) (fun x => 6 * x) (fun _ => 6) ?_ ?_ ?_ ?_ 0 le_rfl ?_ ?_ ?_ x hx).1
  · simp only [zero_div, zero_mul] at this
    have := abs_nonpos_iff.1 this
    linarith
  · intro x _
    have := (hasDerivAt_pow 3 x).hasDerivWithinAt (s := Set.Icc 0 4)
    exact this.congr_deriv (by norm_num)
  · intro x _
    have := ((hasDerivAt_pow 2 x).const_mul 3).hasDerivWithinAt (s := Set.Icc 0 4)
    exact this.congr_deriv (by norm_num; ring)
  · intro x _
    have := ((hasDerivAt_id x).const_mul 6).hasDerivWithinAt (s := Set.Icc 0 4)
    exact this.congr_deriv (by norm_num)
  · intro i x hx
    match i with
    | 0 => simp [exCubic, Curve.t] at hx; subst hx; norm_num [exCubic, at2]
    | 1 => simp [exCubic, Curve.t] at hx; subst hx; norm_num [exCubic, at2]
    | 2 => simp [exCubic, Curve.t] at hx; subst hx; norm_num [exCubic, at2]
    | 3 => simp [exCubic, Curve.t] at hx; subst hx; norm_num [exCubic, at2]
    | (k + 4) => simp [exCubic, Curve.t] at hx
  · intro x _ y _; simp
  · exact .inr (.inr (.inl ⟨_, rfl, by norm_num⟩))
  · exact .inr (.inr (.inr ⟨_, rfl, by norm_num⟩))

/-- Default cubic interpolation of the points of `y = x³` is within 96 of `x³`; PCHIP interpolation is too. -/
example : (∃ lib, NaturalOk lib ∧ ∃ F, EvaluatesTo exCubic (fun g => exCubic.interpolate (builtinInterp lib 0) g "cubic" .none) (fun _ => True) F ∧
      ∀ x ∈ Icc (0 : ℝ) 4, |coordOf 1 (F x) - x ^ 3| ≤ 24 * √8) ∧
    ∀ lib, ∃ F, EvaluatesTo exCubic (fun g => exCubic.interpolate (builtinInterp lib 0) g "pchip" .none) (fun _ => True) F ∧
      ∀ x ∈ Icc (0 : ℝ) 4, |coordOf 1 (F x) - x ^ 3| ≤ 96 := by
  have hv : ∀ i x, (exCubic.t 0)[i]? = some x → x ^ 3 = at2 exCubic.rows i 1 := by
    intro i x hx
    match i with
    | 0 => simp [exCubic, Curve.t] at hx; subst hx; norm_num [exCubic, at2]
    | 1 => simp [exCubic, Curve.t] at hx; subst hx; norm_num [exCubic, at2]
    | 2 => simp [exCubic, Curve.t] at hx; subst hx; norm_num [exCubic, at2]
    | 3 => simp [exCubic, Curve.t] at hx; subst hx; norm_num [exCubic, at2]
    | (k + 4) => simp [exCubic, Curve.t] at hx
  have hg : GapsLe 2 (exCubic.t 0) := by
    intro i u v hu hv
    match i with
    | 0 => simp [exCubic, Curve.t] at hu hv; subst hu hv; norm_num
    | 1 => simp [exCubic, Curve.t] at hu hv; subst hu hv; norm_num
    | 2 => simp [exCubic, Curve.t] at hu hv; subst hu hv; norm_num
    | (k + 3) => simp [exCubic, Curve.t] at hv
  have d1 : DerivOn 0 4 (fun x : ℝ => x ^ 3) (fun x => 3 * x ^ 2) := by
    intro x _
    have := (hasDerivAt_pow 3 x).hasDerivWithinAt (s := Set.Icc 0 4)
    exact this.congr_deriv (by norm_num)
  refine ⟨?_, fun lib => ?_⟩
  · obtain ⟨lib, h, _⟩ := exists_boundaryOk
    obtain ⟨F, h1, h2⟩ := C137_natural exCubic_WF (by simp [exCubic, Curve.size]) (junk := 0) (by norm_num [exCubic, Curve.t])
      (by simp [exCubic]) h (builtin_names lib 0).2.2.2.2
    obtain ⟨f1, _, h3⟩ := h2 0 4 2 rfl rfl hg 1 (by simp [exCubic])
    refine ⟨lib, h, F, h1, fun x hx => ?_⟩
    have := ((h3 (fun x => x ^ 3) (fun x => 3 * x ^ 2) (fun x => 6 * x) ⟨d1, ?_, ?_⟩ hv 24 (by norm_num)).1 ?_ x hx).1
    · norm_num at this ⊢
      exact this
    · intro x _
      have := ((hasDerivAt_pow 2 x).const_mul 3).hasDerivWithinAt (s := Set.Icc 0 4)
      exact this.congr_deriv (by norm_num; ring)
    · exact (continuous_const.mul continuous_id).continuousOn
    · intro z hz
      rw [abs_of_nonneg (by linarith [hz.1])]
      linarith [hz.2]
  · obtain ⟨F, h1, h2⟩ := C137_pchip exCubic_WF (by simp [exCubic, Curve.size]) (junk := 0) (by norm_num [exCubic, Curve.t])
      (by simp [exCubic]) (builtin_names lib 0).2.2.1
    refine ⟨F, h1, fun x hx => ?_⟩
    have := h2 0 4 2 rfl rfl hg 1 (by simp [exCubic]) (fun x => x ^ 3) 48 (by norm_num) ?_ hv x hx
    · norm_num at this ⊢
      exact this
    · intro p hp q hq
      have := (convex_Icc (0 : ℝ) 4).norm_image_sub_le_of_norm_hasDerivWithin_le (f := fun x : ℝ => x ^ 3) (f' := fun x => 3 * x ^ 2) (C := 48) d1
        (fun y hy => by rw [Real.norm_of_nonneg (by positivity)]; nlinarith [hy.1, hy.2]) hp hq
      simpa [Real.norm_eq_abs] using this

end Verif.Props
