import Verif.Lemmas.RescaleSpline
import Verif.Props.ReverseInterp

/-!
C104: interpolation after a change of units of the points and of the parameter.
-/
namespace Verif.Props

open Verif Verif.Np Verif.Model Verif.Spec

section
variable {a b s : ℝ} {w : Nat → ℝ} {c c' : Curve ℝ} (hc : WF c) (hc' : WF c') (hs : 2 ≤ c.size) (ha : 0 < a) (hS : ScaledBy s w c c') {junk : ℝ}
  (ht : (c.t junk).Pairwise (· < ·)) (htt : c'.t junk = (c.t junk).map fun x => a * x + b)
include hc hc' hs ha hS ht htt

omit hc' ha hS ht in
theorem rescale_knot {i : Nat} (hi : i < c.size) : knot (c'.t junk) i = a * knot (c.t junk) i + b := by
  have hl := t_length hc (rows_ne_of_size hs) junk
  refine knot_eq ?_
  rw [htt, List.getElem?_map, knot_some (by omega)]
  rfl

omit hc hc' hs hS in
theorem rescale_lt : (c'.t junk).Pairwise (· < ·) := by
  rw [htt, List.pairwise_map]
  exact ht.imp fun h => by nlinarith

omit hc hc' hs hS ht in
theorem rescale_within {x : ℝ} (h : WithinEnds (c.t junk) x) : WithinEnds (c'.t junk) (a * x + b) := by
  rw [htt]
  constructor
  · intro u hu
    rw [List.head?_map, Option.map_eq_some_iff] at hu
    obtain ⟨v, hv, rfl⟩ := hu
    have := h.1 v hv
    nlinarith
  · intro u hu
    rw [List.getLast?_map, Option.map_eq_some_iff] at hu
    obtain ⟨v, hv, rfl⟩ := hu
    have := h.2 v hv
    nlinarith

/-- **C104 (splines).** Points `s p + w` instead of `p` and parameter values `a x + b` instead of `x`, with `a > 0`: `pchip`, natural
`cubic` and (for three or more points, in the range) `akima` give the points `s p + w` at `a x + b`; so does `hermite` if `a = s` and the
differences of successive points exceed the tolerance `1e-8`. (Dtypes that are not integer ones.) -/
theorem C104_splines (hd : c.dtype ≠ .int) (hd' : c'.dtype ≠ .int) {lib : SplineLib} {r : KwReg} {m : String} {dom : ℝ → Prop}
    (hm : IsHermite junk r m ∧ a = s ∧ AllOver (firstderiv c) ∧ AllOver (firstderiv c') ∨ IsPchip junk r m ∨ NaturalOk lib ∧ IsCubic lib junk r m ∨
      3 ≤ c.size ∧ IsAkima lib junk r m ∧ ∀ x, dom x → WithinEnds (c.t junk) x) :
    ∃ F F', EvaluatesTo c (fun g => c.interpolate r g m .none) dom F ∧
      EvaluatesTo c' (fun g => c'.interpolate r g m .none) (fun x => ∃ y, dom y ∧ x = a * y + b) F' ∧
      ∀ x, (F x).length = c.ncols ∧ (F' (a * x + b)).length = c.ncols ∧
        ∀ j, j < c.ncols → coordOf j (F' (a * x + b)) = s * coordOf j (F x) + w j := by
  have e1 : c'.size = c.size := hS.size
  have e2 : 2 ≤ c'.size := by omega
  have hnc : c'.ncols = c.ncols := hS.ndim
  have hl := t_length hc (rows_ne_of_size hs) junk
  have e3 : (c'.t junk).length = c.size := by rw [htt, List.length_map, hl]
  have ht' := rescale_lt ha ht htt
  have kn : ∀ i, i < c.size → knot (c'.t junk) i = a * knot (c.t junk) i + b := fun i hi => rescale_knot hc hs htt hi
  have ym : ∀ j, j < c.ncols → ∀ i, i < c.size → c'.mat.v i j = s * c.mat.v i j + w j := by
    intro j hj i hi
    rw [mat_v, mat_v]; exact hS.pts i j hi hj
  have key : ∀ {cons : Curve ℝ → InterpKw → Except PyErr InterpImpl} {q q' : PPoly}, getInterpClass r m = .ok (interpClass junk cons) →
      cons c .none = .ok q.impl → cons c' .none = .ok q'.impl → q.xs = c.t junk → q'.xs = c'.t junk → q.y = c.mat → q'.y = c'.mat →
      (q.ex = .yes ∨ q.ex = .no ∧ ∀ x, dom x → WithinEnds (c.t junk) x) → q'.ex = q.ex →
      (∀ i j, i < c.size → j < c.ncols → q'.d.v i j = s / a * q.d.v i j) →
      ∃ F F', EvaluatesTo c (fun g => c.interpolate r g m .none) dom F ∧
      EvaluatesTo c' (fun g => c'.interpolate r g m .none) (fun x => ∃ y, dom y ∧ x = a * y + b) F' ∧
      ∀ x, (F x).length = c.ncols ∧ (F' (a * x + b)).length = c.ncols ∧
        ∀ j, j < c.ncols → coordOf j (F' (a * x + b)) = s * coordOf j (F x) + w j := by
    intro cons q q' hr hq hq' hx hx' hy hy' hex hex' hslope
    refine ⟨_, _, spline_eval hc hs ht hd hr hq hx hy hex, spline_eval hc' e2 ht' hd' hr hq' hx' hy' ?_, ?_⟩
    · rw [hex']
      rcases hex with h | ⟨h, h'⟩
      · exact .inl h
      · refine .inr ⟨h, ?_⟩
        rintro _ ⟨y, hy, rfl⟩
        exact rescale_within ha htt (h' _ hy)
    · intro x
      refine ⟨by rw [q.row_length, hy]; rfl, by rw [q'.row_length, hy']; exact hnc, ?_⟩
      intro j hj
      unfold coordOf
      rw [q.row_getD (by rw [hy]; exact hj), q'.row_getD (by rw [hy']; show j < c'.ncols; rw [hnc]; exact hj)]
      apply PPoly.coord_rescale ha (n := c.size) (by rw [hx, hl]) (by rw [hx', e3]) hs (by rw [hx]; exact ht) (by rw [hx']; exact ht')
      · intro i hi; rw [hx, hx']; exact kn i hi
      · intro i hi; rw [hy, hy']; exact ym j hj i hi
      · intro i hi; exact hslope i j hi hj
  have xlt : ∀ i, i + 1 < c.size → (c.t junk).getD i 0 < (c.t junk).getD (i + 1) 0 :=
    fun i hi => knot_lt ht (show i < i + 1 by omega) (by omega)
  rcases hm with ⟨hr, has, hT, hT'⟩ | hr | ⟨hlib, hr⟩ | ⟨h3, hr, hdom⟩
  · refine key hr (hermite_cons hc hs ht .yes rfl) (hermite_cons hc' e2 ht' .yes rfl) rfl rfl rfl rfl (.inl rfl) rfl ?_
    intro i j hi hj
    have f1 : Multiple 1 (frenet1 c) (frenet1 c') := mul_unit (by rw [← has]; exact ha) (mul_first hs hS) hT hT'
    have k := firstderiv_k hs
    have m1 := (shapes_m c).1
    rw [← has, div_self ha.ne']
    exact f1.v i j (show i < (firstderiv c).m by omega) (show j < (firstderiv c).k by rw [k]; exact hj)
  · refine key hr (pchip_cons hc hs ht .yes rfl) (pchip_cons hc' e2 ht' .yes rfl) rfl rfl rfl rfl (.inl rfl) rfl ?_
    intro i j hi hj
    simp only [pchipSlopes_v]
    rw [e3, hl]
    exact pchipSlope_rescale ha kn (ym j hj) hs hi
  · obtain ⟨d, hsol, hnat⟩ := hlib (c.t junk) c.mat (knotsOk_curve hc hs ht)
    obtain ⟨d', hsol', hnat'⟩ := hlib (c'.t junk) c'.mat (knotsOk_curve hc' e2 ht')
    refine key hr (cubic_default hc hs ht lib hsol) (cubic_default hc' e2 ht' lib hsol') rfl rfl rfl rfl (.inl rfl) rfl ?_
    intro i j hi hj
    have n1 := hnat j hj
    have n2 := hnat' j (show j < c'.ncols by rw [hnc]; exact hj)
    rw [e3] at n2
    rw [hl] at n1
    exact natural_rescale ha kn (ym j hj) hs xlt n1 n2 hi
  · have a1 := akima_cons hc hs ht lib
    have a2 := akima_cons hc' e2 ht' lib
    rw [if_neg (by omega)] at a1 a2
    refine key hr a1 a2 rfl rfl rfl rfl (.inr ⟨rfl, hdom⟩) rfl ?_
    intro i j hi hj
    simp only [akimaSlopes_v]
    have etop : akimaTop (c'.t junk) c'.mat = |s / a| * akimaTop (c.t junk) c.mat := by
      unfold akimaTop
      rw [e3, hl, ← foldl_max_mul (abs_nonneg _), mul_zero, List.map_flatMap]
      congr 1
      have : c'.mat.k = c.mat.k := hnc
      rw [this]
      apply List.flatMap_congr
      intro j hj
      rw [List.map_map]
      apply List.map_congr_left
      intro l hl'
      exact akimaF12_rescale ha kn (ym j (List.mem_range.1 hj)) h3 l
    rw [etop, e3, hl]
    exact akimaSlope_rescale ha kn (ym j hj) h3 _ i

/-- **C104 (linear).** The same for linear interpolation, in the range of the parameter, and with extrapolation everywhere. -/
theorem C104_linear (hd : c.dtype ≠ .int) (hd' : c'.dtype ≠ .int) {r : InterpReg Bool} {m : String} (hr : IsLinear junk r m) (ex : Bool) :
    ∃ F F', EvaluatesTo c (fun g => c.interpolate r g m ex) (fun x => ex = true ∨ WithinEnds (c.t junk) x) F ∧
      EvaluatesTo c' (fun g => c'.interpolate r g m ex) (fun x => ex = true ∨ ∃ y, WithinEnds (c.t junk) y ∧ x = a * y + b) F' ∧
      ∀ x, (F x).length = c.ncols ∧ (F' (a * x + b)).length = c.ncols ∧
        ∀ j, j < c.ncols → coordOf j (F' (a * x + b)) = s * coordOf j (F x) + w j := by
  have e1 : c'.size = c.size := hS.size
  have e2 : 2 ≤ c'.size := by omega
  have hnc : c'.ncols = c.ncols := hS.ndim
  have hl := t_length hc (rows_ne_of_size hs) junk
  have ht' := rescale_lt ha ht htt
  have ev : ∀ {e : Curve ℝ} {dom : ℝ → Prop}, WF e → 2 ≤ e.size → (e.t junk).Pairwise (· < ·) → e.dtype ≠ .int →
      (∀ x, dom x → WithinEnds (e.t junk) x) →
      EvaluatesTo e (fun g => e.interpolate r g m ex) (fun x => ex = true ∨ dom x) (rowAt ((e.t junk).zip e.rows)) := by
    intro e dom he hes het hed ett xs hne hx hdom
    obtain ⟨w, hg⟩ := getGrid_fins junk e xs hne hx
    obtain ⟨h1, h2⟩ := t_ends he (rows_ne_of_size hes) junk
    refine linear_repr he hes het hed hr ex hne hg h1 h2 ?_
    cases ex with
    | true => exact .inl rfl
    | false =>
      right
      intro x hx
      have := ett x ((hdom x hx).resolve_left (by simp))
      exact ⟨this.1 _ h1, this.2 _ h2⟩
  refine ⟨_, _, ev hc hs ht hd (fun x hx => hx), ev hc' e2 ht' hd' (by rintro _ ⟨y, hy, rfl⟩; exact rescale_within ha htt hy), ?_⟩
  intro x
  refine ⟨(interp1dAt_rowAt hc hs ht x).2, ((interp1dAt_rowAt hc' e2 ht' _).2).trans hnc, ?_⟩
  intro j hj
  obtain ⟨i, u, v, p, q, h1, h2, h3, h4, h5, h6⟩ := exists_pair hc hs ht x
  have hi : i + 1 < c.rows.length := (List.getElem?_eq_some_iff.1 h4).1
  have hsz : c'.rows.length = c.rows.length := hS.size
  obtain ⟨p', h3'⟩ : ∃ p', c'.rows[i]? = some p' := ⟨_, List.getElem?_eq_getElem (by omega)⟩
  obtain ⟨q', h4'⟩ : ∃ q', c'.rows[i + 1]? = some q' := ⟨_, List.getElem?_eq_getElem (by omega)⟩
  rw [rowAt_pair hc hs ht x i u v p q h1 h2 h3 h4 h5 h6,
    rowAt_pair hc' e2 ht' (a * x + b) i (a * u + b) (a * v + b) p' q' (by rw [htt, List.getElem?_map, h1]; rfl)
      (by rw [htt, List.getElem?_map, h2]; rfl) h3' h4' (h5.imp_right (by intro; nlinarith)) (by rw [e1]; exact h6.imp_right (by intro; nlinarith))]
  rw [show a * x + b - (a * u + b) = a * (x - u) by ring, show a * v + b - (a * u + b) = a * (v - u) by ring, mul_div_mul_left _ _ ha.ne']
  generalize (x - u) / (v - u) = z
  have mixD : ∀ {n : Nat} {p q : List ℝ}, p.length = n → q.length = n → ∀ k, k < n →
      coordOf k (mix z p q) = p.getD k 0 + z * (q.getD k 0 - p.getD k 0) := by
    intro n p q hp hq k hk
    unfold mix coordOf
    simp [List.getD_eq_getElem?_getD, List.getElem?_zipWith, hp, hq, hk]
  have atD : ∀ {e : Curve ℝ} {i : Nat} {p : List ℝ}, e.rows[i]? = some p → ∀ k, at2 e.rows i k = p.getD k 0 := by
    intro e i p h k
    unfold at2
    rw [List.getD_eq_getElem?_getD (l := e.rows), h]; rfl
  have P := hS.pts i j (show i < c.rows.length by omega) hj
  have Q := hS.pts (i + 1) j hi hj
  rw [atD h3, atD h3'] at P
  rw [atD h4, atD h4'] at Q
  rw [mixD (hc'.rect p' (List.mem_of_getElem? h3')) (hc'.rect q' (List.mem_of_getElem? h4')) j (by rw [hnc]; exact hj),
    mixD (hc.rect p (List.mem_of_getElem? h3)) (hc.rect q (List.mem_of_getElem? h4)) j hj, P, Q]
  ring

end

/-- **C104 (curves without parameter values).** Scaling such a curve by `s > 0` scales its interpolations: the point at `s x` is
`s` times the point at `x`, for all four splines. -/
theorem C104_scaling {s : ℝ} {w : Nat → ℝ} {c c' : Curve ℝ} (hc : WF c) (hc' : WF c') (hs : 2 ≤ c.size) (hpos : 0 < s) (hS : ScaledBy s w c c')
    (hp : c.tdata = none) (hp' : c'.tdata = none) {junk : ℝ} (ht : (c.t junk).Pairwise (· < ·)) (hd : c.dtype ≠ .int) (hd' : c'.dtype ≠ .int)
    {lib : SplineLib} {r : KwReg} {m : String} {dom : ℝ → Prop}
    (hm : IsHermite junk r m ∧ AllOver (firstderiv c) ∧ AllOver (firstderiv c') ∨ IsPchip junk r m ∨ NaturalOk lib ∧ IsCubic lib junk r m ∨
      3 ≤ c.size ∧ IsAkima lib junk r m ∧ ∀ x, dom x → WithinEnds (c.t junk) x) :
    ∃ F F', EvaluatesTo c (fun g => c.interpolate r g m .none) dom F ∧
      EvaluatesTo c' (fun g => c'.interpolate r g m .none) (fun x => ∃ y, dom y ∧ x = s * y) F' ∧
      ∀ x, (F x).length = c.ncols ∧ (F' (s * x)).length = c.ncols ∧
        ∀ j, j < c.ncols → coordOf j (F' (s * x)) = s * coordOf j (F x) + w j := by
  have htt : c'.t junk = (c.t junk).map fun x => s * x + 0 := by
    have := (C91_lengths hc hc' (rows_ne_of_size hs) hpos.le hS junk).2.1
    unfold Curve.t
    rw [hp, hp']
    simpa using this
  have := C104_splines hc hc' hs hpos hS ht htt hd hd' (lib := lib) (r := r) (m := m) (dom := dom) (by
    rcases hm with ⟨h1, h2, h3⟩ | h | h
    · exact .inl ⟨h1, rfl, h2, h3⟩
    · exact .inr (.inl h)
    · exact .inr (.inr h))
  simpa only [add_zero] using this

/-- The points of `exFast` with parameter values that measure the length. -/
def exSlow : Curve ℝ := ⟨[[0, 0], [1, 0], [2, 0]], 2, some [0, 1, 2], .float⟩

theorem exSlow_WF : WF exSlow where
  two_le := by simp [exSlow]
  rect := by simp [exSlow]
  tlen := by simp [exSlow]
  repr := by intro r _ x _; rfl

theorem exSlow_lt (junk : ℝ) : (exSlow.t junk).Pairwise (· < ·) := by simp [exSlow, Curve.t]

theorem exSlow_scaled : ScaledBy 1 (fun _ => 0) exSlow exFast := by
  refine ⟨rfl, rfl, ?_⟩
  intro i j _ _
  simp [exSlow, exFast]

theorem exSlow_t (junk : ℝ) : exFast.t junk = (exSlow.t junk).map fun x => 10 * x + 0 := by
  simp [exSlow, exFast, Curve.t]
  norm_num

/-- **C104 fails for `hermite`.** The slopes are unit vectors, whatever the unit of the parameter. The same three points with the parameter
values 0, 1, 2 and with 0, 10, 20: at 0.2 and at 2 the interpolated points are 0.2 and 1.064. -/
theorem C104_hermite_fails {junk : ℝ} {r : KwReg} {m : String} (hr : IsHermite junk r m) :
    ScaledBy 1 (fun _ => 0) exSlow exFast ∧ (exFast.t junk = (exSlow.t junk).map fun x => 10 * x + 0) ∧
    ∃ F F', EvaluatesTo exSlow (fun g => exSlow.interpolate r g m .none) (fun _ => True) F ∧
      EvaluatesTo exFast (fun g => exFast.interpolate r g m .none) (fun _ => True) F' ∧ coordOf 0 (F (1 / 5)) = 1 / 5 ∧
      coordOf 0 (F' 2) = 133 / 125 := by
  refine ⟨exSlow_scaled, exSlow_t junk, ?_⟩
  obtain ⟨F', hF', hv'⟩ := C87_speed_fails (junk := junk) hr
  have hs : 2 ≤ exSlow.size := by simp [exSlow, Curve.size]
  have ht := exSlow_lt junk
  refine ⟨_, F', spline_eval exSlow_WF hs ht (by simp [exSlow]) hr (hermite_cons exSlow_WF hs ht .yes rfl) rfl rfl (.inl rfl), hF', ?_, hv'⟩
  have k0 : knot (exSlow.t junk) 0 = 0 := knot_eq rfl
  have k1 : knot (exSlow.t junk) 1 = 1 := knot_eq rfl
  have d0 : (frenet1 exSlow).v 0 0 = 1 := by
    rw [frenet1_axis hs rfl (a := 1)]
    · norm_num
    · simp [firstderiv, gradient, exSlow, Curve.mat, npGradient]; norm_num
    · simp [firstderiv, gradient, exSlow, Curve.mat, npGradient]
    · norm_num
  have d1 : (frenet1 exSlow).v 1 0 = 1 := by
    rw [frenet1_axis hs rfl (a := 1)]
    · norm_num
    · simp [firstderiv, gradient, exSlow, Curve.mat, npGradient]
    · simp [firstderiv, gradient, exSlow, Curve.mat, npGradient]
    · norm_num
  unfold coordOf
  rw [PPoly.row_getD _ (by simp [exSlow, Curve.mat]), PPoly.coord_on (i := 0) ht (by simp [exSlow, Curve.t]) 0 (.inl rfl)
    (.inr (by simp only [zero_add]; rw [k1]; norm_num))]
  unfold PPoly.cub
  simp only [zero_add]
  rw [k0, k1, d0, d1]
  simp [hermR, exSlow, Curve.mat]
  norm_num

/-! ## Instances -/

example (lib : SplineLib) : ∃ F F', EvaluatesTo exSlow (fun g => exSlow.interpolate (builtinInterp lib 0) g "akima" .none)
      (WithinEnds (exSlow.t 0)) F ∧
    EvaluatesTo exFast (fun g => exFast.interpolate (builtinInterp lib 0) g "akima" .none)
      (fun x => ∃ y, WithinEnds (exSlow.t 0) y ∧ x = 10 * y + 0) F' ∧ coordOf 0 (F' (10 * (1 / 2) + 0)) = 1 * coordOf 0 (F (1 / 2)) + 0 := by
  obtain ⟨F, F', h1, h2, h3⟩ := C104_splines exSlow_WF exFast_WF (by simp [exSlow, Curve.size]) (by norm_num : (0 : ℝ) < 10) exSlow_scaled
    (exSlow_lt 0) (exSlow_t 0) (by simp [exSlow]) (by simp [exFast]) (dom := WithinEnds (exSlow.t 0)) (lib := lib)
    (.inr (.inr (.inr ⟨by simp [exSlow, Curve.size], (builtin_names lib 0).2.2.2.1, fun x hx => hx⟩)))
  exact ⟨F, F', h1, h2, (h3 (1 / 2)).2.2 0 (by simp [exSlow])⟩

/-- Three points at arc lengths 0, 6, 14. -/
def exRight2 : Curve ℝ := ⟨[[0, 0], [6, 0], [6, 8]], 2, none, .float⟩

theorem exRight2_WF : WF exRight2 where
  two_le := by simp [exRight2]
  rect := by simp [exRight2]
  tlen := by simp [exRight2]
  repr := by intro r _ x _; rfl

example (lib : SplineLib) : ∃ F F', EvaluatesTo exRight (fun g => exRight.interpolate (builtinInterp lib 0) g "pchip" .none) (fun _ => True) F ∧
    EvaluatesTo exRight2 (fun g => exRight2.interpolate (builtinInterp lib 0) g "pchip" .none) (fun x => ∃ y, True ∧ x = 2 * y) F' ∧
    coordOf 1 (F' (2 * 4)) = 2 * coordOf 1 (F 4) + 0 := by
  obtain ⟨F, F', h1, h2, h3⟩ := C104_scaling exRight_WF exRight2_WF (by simp [exRight, Curve.size]) (by norm_num : (0 : ℝ) < 2) (w := fun _ => 0)
    ⟨rfl, rfl, by
      intro i j hi hj
      have hi : i < 3 := hi
      have hj : j < 2 := hj
      rcases (show i = 0 ∨ i = 1 ∨ i = 2 by omega) with rfl | rfl | rfl <;>
        rcases (show j = 0 ∨ j = 1 by omega) with rfl | rfl <;> simp [exRight, exRight2, at2] <;> norm_num⟩
    rfl rfl (exRight_lt 0) (by simp [exRight]) (by simp [exRight2]) (dom := fun _ => True) (lib := lib)
    (.inr (.inl (builtin_names lib 0).2.2.1))
  exact ⟨F, F', h1, h2, (h3 4).2.2 1 (by simp [exRight])⟩

end Verif.Props
