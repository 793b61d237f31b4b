import Verif.Props.Spline
import Verif.Props.DiffGeom
import Verif.Lemmas.SplineLine

/-!
C83 with periodic continuation; C86 (natural cubic splines are twice continuously differentiable); C87 (straight lines);
C89 (translation).
-/
namespace Verif.Props

open Verif Verif.Np Verif.Model Verif.Spec

/-! ## C83: periodic continuation -/

/-- **C83 fails for periodic continuation.** With `extrapolate='periodic'` the last parameter value is taken back to the first
one: interpolating at the parameter values gives the first point again as the last one. -/
theorem C83_periodic_fails {c : Curve ℝ} (hc : WF c) (hs : 2 ≤ c.size) {junk : ℝ} (ht : StepsOver (c.t junk))
    (hd : c.dtype ≠ .int) {r : KwReg} {m : String} (hr : IsHermite junk r m) :
    ∃ R, c.interpolate r (.arr (.ok (GridArr.of (fins (c.t junk))))) m ⟨[("extrapolate", .str "periodic")]⟩ = .ok R ∧
      R.rows.getLast? = c.rows.head?.map fins := by
  have hlt := stepsOver_lt ht
  have hl := t_length hc (rows_ne_of_size hs) junk
  have htne : c.t junk ≠ [] := by intro e; rw [e] at hl; simp at hl; omega
  obtain ⟨w, hg⟩ := getGrid_fins junk c (c.t junk) htne ht
  obtain ⟨q, hq⟩ : ∃ q : PPoly, q = ⟨c.t junk, c.mat, frenet1 c, .periodic⟩ := ⟨_, rfl⟩
  have hxs : q.xs = c.t junk := by rw [hq]
  have hy : q.y = c.mat := by rw [hq]
  have hk : q.y.k = c.ncols := by rw [hy]; rfl
  have hex : q.ex = .periodic := by rw [hq]
  have hat : ∀ x : ℝ, ∃ u : ℝ, q.at (.fin x) = fins (q.row u) ∧ (x = q.xs.getLastD 0 → u = q.xs.headD 0) := by
    intro x
    have e : q.at (.fin x) = q.piece (wrapPeriod (q.xs.headD 0) (q.xs.getLastD 0) (.fin x)) := by
      unfold PPoly.at
      rw [hex]
      simp [wrapPeriod]
    refine ⟨_, by rw [e]; exact q.piece_fin _, ?_⟩
    intro hx
    have hpos : q.xs.headD 0 < q.xs.getLastD 0 := by
      obtain ⟨h1, h2⟩ := t_ends hc (rows_ne_of_size hs) junk
      have k1 : knot (c.t junk) 0 = (c.t junk).headD 0 := knot_eq (by rw [← List.head?_eq_getElem?]; exact h1)
      have k2 : knot (c.t junk) ((c.t junk).length - 1) = (c.t junk).getLastD 0 := knot_eq (by rw [← List.getLast?_eq_getElem?]; exact h2)
      rw [hxs, ← k1, ← k2]
      exact knot_lt hlt (by omega) (by omega)
    have : q.xs.getLastD 0 - q.xs.headD 0 ≠ 0 := by linarith
    rw [hx, div_self this]
    simp
  have hlen : ∀ x : ℝ, (q.at (.fin x)).length = c.ncols := by
    intro x
    obtain ⟨u, e, _⟩ := hat x
    rw [e]; simp [fins, q.row_length, hk]
  obtain ⟨R, h1, h2, _⟩ := (C66_result_partial hr hs ⟨[("extrapolate", .str "periodic")]⟩ (impl := q.impl)
    (by rw [hq]; exact hermite_cons hc hs hlt .periodic rfl) hg).2 ((fins (c.t junk)).map q.at) c.ncols .float
    (by unfold PPoly.impl; rw [hk]) (by simp) hc.two_le (by
      intro row hrow
      obtain ⟨v, hv, rfl⟩ := List.mem_map.1 hrow
      obtain ⟨x, _, rfl⟩ := mem_fins_fin hv
      exact hlen x) hd
  refine ⟨R, h1, ?_⟩
  obtain ⟨e1, e2⟩ := t_ends hc (rows_ne_of_size hs) junk
  rw [h2, List.getLast?_map]
  unfold fins
  rw [List.getLast?_map, e2]
  simp only [Option.map_some]
  obtain ⟨u, e, hu⟩ := hat (tLast junk c)
  rw [e, hu (by rw [hxs]; rfl)]
  rw [List.head?_eq_getElem?] at e1
  have := row_at_knot hc hs hlt hxs hy e1
  rw [List.head?_eq_getElem?, this, hxs]
  rfl

/-! ## C86 -/

/-- `cubic` with its default arguments. -/
theorem cubic_default {c : Curve ℝ} (hc : WF c) (hs : 2 ≤ c.size) {junk : ℝ} (ht : (c.t junk).Pairwise (· < ·)) (lib : SplineLib)
    {d : NMat} (hd : lib.cubic "natural" (c.t junk) c.mat = .ok d) :
    withKw pickCubic (cubicCons lib junk) c .none = .ok (PPoly.impl ⟨c.t junk, c.mat, d, .yes⟩) := by
  have := cubic_cons hc hs ht lib (kw := .none) (q := {}) rfl hd
  have e : (({} : CubicParams).ex.getD (if ({} : CubicParams).bc = "periodic" then Extrap.periodic else .yes)) = .yes := by
    simp
  rwa [e] at this

/-- **C86.** With scipy's solver solving its linear system, cubic interpolation (default: natural) is evaluation of a
curve whose coordinates are, between neighbouring parameter values, polynomials of degree at most 3; at every inner
parameter value the two polynomials that meet there have the same value, first and second derivative; and the second
derivative vanishes at both ends. It passes through the points. (Dtypes that are not integer ones.) -/
theorem C86_natural {c : Curve ℝ} (hc : WF c) (hs : 2 ≤ c.size) {junk : ℝ} (ht : (c.t junk).Pairwise (· < ·))
    (hd : c.dtype ≠ .int) {lib : SplineLib} (hlib : NaturalOk lib) {r : KwReg} {m : String} (hr : IsCubic lib junk r m) :
    ∃ F, EvaluatesTo c (fun g => c.interpolate r g m .none) (fun _ => True) F ∧
      ∀ j, j < c.ncols → ∃ P : Nat → Polynomial ℝ,
        (∀ i, (P i).natDegree ≤ 3) ∧
        (∀ i u v, (c.t junk)[i]? = some u → (c.t junk)[i + 1]? = some v →
          (∀ x, u ≤ x → x ≤ v → coordOf j (F x) = (P i).eval x) ∧
          (P i).eval u = at2 c.rows i j ∧ (P i).eval v = at2 c.rows (i + 1) j) ∧
        (∀ i v, (c.t junk)[i + 1]? = some v → i + 2 < c.size →
          (P i).derivative.eval v = (P (i + 1)).derivative.eval v ∧
          (P i).derivative.derivative.eval v = (P (i + 1)).derivative.derivative.eval v) ∧
        (∀ a, (c.t junk).head? = some a → (P 0).derivative.derivative.eval a = 0) ∧
        (∀ b, (c.t junk).getLast? = some b → (P (c.size - 2)).derivative.derivative.eval b = 0) := by
  have hl := t_length hc (rows_ne_of_size hs) junk
  obtain ⟨d, hsol, hnat⟩ := hlib (c.t junk) c.mat (knotsOk_curve hc hs ht)
  obtain ⟨q, hq⟩ : ∃ q : PPoly, q = ⟨c.t junk, c.mat, d, .yes⟩ := ⟨_, rfl⟩
  have hxs : q.xs = c.t junk := by rw [hq]
  have hy : q.y = c.mat := by rw [hq]
  have hp : q.xs.Pairwise (· < ·) := by rw [hxs]; exact ht
  have hev := spline_eval hc hs ht hd hr (q := q) (p := InterpKw.none)
    (by rw [hq]; exact cubic_default hc hs ht lib hsol) hxs hy (dom := fun _ => True) (.inl (by rw [hq]))
  refine ⟨_, hev, ?_⟩
  intro j hj
  have hN := hnat j hj
  obtain ⟨x, hx⟩ : ∃ x, x = knot (c.t junk) := ⟨_, rfl⟩
  have hN' : NaturalSystem c.size x (fun i => c.mat.v i j) (fun i => d.v i j) := by
    rw [hx, ← hl]; exact hN
  have xlt : ∀ i, i + 1 < c.size → x i < x (i + 1) := by
    intro i hi; rw [hx]; exact knot_lt ht (by omega) (by omega)
  have hin : ∀ {i v}, (c.t junk)[i]? = some v → i < c.size ∧ v = x i := by
    intro i v h
    have := (List.getElem?_eq_some_iff.1 h).1
    exact ⟨by omega, by rw [hx]; exact (knot_eq h).symm⟩
  refine ⟨fun i => hermPoly (x i) (x (i + 1)) (c.mat.v i j) (c.mat.v (i + 1) j) (d.v i j) (d.v (i + 1) j),
    fun i => hermPoly_degree _ _ _ _ _ _, ?_, ?_, ?_, ?_⟩
  · intro i u v hu hv
    obtain ⟨hi, rfl⟩ := hin hu
    obtain ⟨hi1, rfl⟩ := hin hv
    refine ⟨?_, ?_, ?_⟩
    · intro z h1 h2
      unfold coordOf
      rw [q.row_getD (by rw [hy]; exact hj), PPoly.coord_on hp (i := i) (by rw [hxs]; omega) j (.inr (by rw [hxs, ← hx]; exact h1))
        (.inr (by rw [hxs, ← hx]; exact h2)), hermPoly_eval]
      unfold PPoly.cub
      rw [hq]; simp only [← hx]
    · rw [hermPoly_eval, hermR_left]; rfl
    · rw [hermPoly_eval, hermR_right (xlt i hi1)]; rfl
  · intro i v hv hi2
    obtain ⟨hi1, rfl⟩ := hin hv
    simp only
    refine ⟨?_, ?_⟩
    · rw [hermPoly_deriv, hermPoly_deriv, hermD_left, hermD_right (xlt i hi1)]
    · have l1 := xlt i hi1
      have l2 := xlt (i + 1) hi2
      rw [hermPoly_deriv2_right l1, hermPoly_deriv2_left l2]
      have := hN'.inner i hi2
      have n1 : x (i + 1) - x i ≠ 0 := by linarith
      have n2 : x (i + 1 + 1) - x (i + 1) ≠ 0 := by linarith
      rw [div_eq_div_iff n1 n2]
      linarith
  · intro a ha
    rw [List.head?_eq_getElem?] at ha
    obtain ⟨_, rfl⟩ := hin ha
    simp only
    have l1 := xlt 0 (by omega)
    rw [hermPoly_deriv2_left l1]
    have := hN'.first
    simp only [zero_add] at this ⊢ l1
    have n1 : x 1 - x 0 ≠ 0 := by linarith
    rw [div_eq_zero_iff]; left
    field_simp
    linarith
  · intro b hb
    rw [List.getLast?_eq_getElem?, hl] at hb
    obtain ⟨_, rfl⟩ := hin hb
    simp only
    have e : c.size - 2 + 1 = c.size - 1 := by omega
    have l1 := xlt (c.size - 2) (by omega)
    rw [e] at *
    rw [hermPoly_deriv2_right l1]
    have := hN'.last
    have n1 : x (c.size - 1) - x (c.size - 2) ≠ 0 := by linarith
    rw [div_eq_zero_iff]; left
    field_simp
    linarith

/-! ## C87 -/

theorem pchipSlopes_v (xs : List ℝ) (y : NMat) (i j : Nat) :
    (pchipSlopes xs y).v i j = pchipSlope xs.length (fun i => xs.getD i 0) (fun i => y.v i j) i := rfl

/-- The largest `f12`. -/
noncomputable def akimaTop (xs : List ℝ) (y : NMat) : ℝ :=
  (((List.range y.k).flatMap fun j => (List.range xs.length).map
    (akimaF12 (akimaM xs.length (fun i => xs.getD i 0) fun i => y.v i j)))).foldl max 0

theorem akimaSlopes_v (xs : List ℝ) (y : NMat) (i j : Nat) : (akimaSlopes xs y).v i j =
    akimaSlope (akimaM xs.length (fun i => xs.getD i 0) fun i => y.v i j) (akimaTop xs y) i := rfl

section
variable {c : Curve ℝ} (hc : WF c) (hs : 2 ≤ c.size) {junk : ℝ} (ht : (c.t junk).Pairwise (· < ·))
include hc hs ht

/-- A spline with the slopes of the line is the line. -/
theorem row_line {o v : Nat → ℝ} (hline : AlongLine c (c.t junk) o v) {q : PPoly} (hx : q.xs = c.t junk) (hy : q.y = c.mat)
    (hd : ∀ i j, i < c.size → j < c.ncols → q.d.v i j = v j) : q.row = linePt c.ncols o v := by
  have hl := t_length hc (rows_ne_of_size hs) junk
  funext x
  unfold PPoly.row linePt
  have hk : q.y.k = c.ncols := by rw [hy]; rfl
  rw [hk]
  apply List.map_congr_left
  intro j hj
  have hj' := List.mem_range.1 hj
  apply PPoly.coord_line (by rw [hx]; exact ht) (by rw [hx]; omega)
  · intro i hi
    rw [hx] at hi ⊢
    rw [hy, mat_v]
    exact hline i _ j (knot_some hi) hj'
  · intro i hi
    rw [hx] at hi
    exact hd i j (by omega) hj'

theorem line_vals {o v : Nat → ℝ} (hline : AlongLine c (c.t junk) o v) {j : Nat} (hj : j < c.ncols) :
    (∀ i, i + 1 < c.size → (c.t junk).getD i 0 < (c.t junk).getD (i + 1) 0) ∧
    ∀ i, i < c.size → c.mat.v i j = o j + (c.t junk).getD i 0 * v j := by
  have hl := t_length hc (rows_ne_of_size hs) junk
  constructor
  · intro i hi
    exact knot_lt ht (show i < i + 1 by omega) (by omega)
  · intro i hi
    exact hline i _ j (knot_some (by omega)) hj

end

/-- **C87 (pchip, akima, cubic).** If the points lie on a line at places proportional to the parameter, interpolation gives
the points of that line: by `pchip` and by natural `cubic` for any grid value, by `akima` (at least three points) for grid values
in the range. (Dtypes that are not integer ones.) -/
theorem C87_line {c : Curve ℝ} (hc : WF c) (hs : 2 ≤ c.size) {junk : ℝ} (ht : (c.t junk).Pairwise (· < ·))
    (hd : c.dtype ≠ .int) {o v : Nat → ℝ} (hline : AlongLine c (c.t junk) o v) {lib : SplineLib} {r : KwReg} {m : String} :
    (IsPchip junk r m → EvaluatesTo c (fun g => c.interpolate r g m .none) (fun _ => True) (linePt c.ncols o v)) ∧
    (NaturalOk lib → IsCubic lib junk r m →
      EvaluatesTo c (fun g => c.interpolate r g m .none) (fun _ => True) (linePt c.ncols o v)) ∧
    (3 ≤ c.size → IsAkima lib junk r m →
      EvaluatesTo c (fun g => c.interpolate r g m .none) (WithinEnds (c.t junk)) (linePt c.ncols o v)) := by
  have hl := t_length hc (rows_ne_of_size hs) junk
  refine ⟨?_, ?_, ?_⟩
  · intro hr
    rw [← row_line hc hs ht hline (q := ⟨c.t junk, c.mat, pchipSlopes (c.t junk) c.mat, .yes⟩) rfl rfl (by
      intro i j hi hj
      obtain ⟨h1, h2⟩ := line_vals hc hs ht hline hj
      simp only [pchipSlopes_v]
      rw [hl]
      exact pchipSlope_line h1 h2 hs hi)]
    exact spline_eval hc hs ht hd hr (pchip_cons hc hs ht .yes rfl) rfl rfl (.inl rfl)
  · intro hlib hr
    obtain ⟨d, hsol, hnat⟩ := hlib (c.t junk) c.mat (knotsOk_curve hc hs ht)
    rw [← row_line hc hs ht hline (q := ⟨c.t junk, c.mat, d, .yes⟩) rfl rfl (by
      intro i j hi hj
      obtain ⟨h1, h2⟩ := line_vals hc hs ht hline hj
      have := hnat j hj
      rw [hl] at this
      exact natural_line h1 h2 hs this hi)]
    exact spline_eval hc hs ht hd hr (cubic_default hc hs ht lib hsol) rfl rfl (.inl rfl)
  · intro h3 hr
    rw [← row_line hc hs ht hline (q := ⟨c.t junk, c.mat, akimaSlopes (c.t junk) c.mat, .no⟩) rfl rfl (by
      intro i j hi hj
      obtain ⟨h1, h2⟩ := line_vals hc hs ht hline hj
      simp only [akimaSlopes_v]
      rw [hl]
      exact akimaSlope_line h1 h2 h3 (foldl_max_nonneg _ (le_refl _)) hi)]
    refine spline_eval hc hs ht hd hr (q := ⟨c.t junk, c.mat, akimaSlopes (c.t junk) c.mat, .no⟩) ?_ rfl rfl (.inr ⟨rfl, fun x hx => hx⟩)
    have := akima_cons hc hs ht lib
    rw [if_neg (by omega)] at this
    exact this

/-- **C87 (hermite, partial).** The same for `hermite` if the parameter measures length (`v` is a unit vector), the values are
more than `1e-8` apart and at neither end the second step is three times as long as the first (or longer, up to the tolerance).
Missing: all other curves, see `C87_spacing_fails` and `C87_speed_fails`. -/
theorem C87_hermite_partial {c : Curve ℝ} (hc : WF c) (hs : 2 ≤ c.size) {junk : ℝ} (ht : StepsOver (c.t junk))
    (hd : c.dtype ≠ .int) {o v : Nat → ℝ} (hline : AlongLine c (c.t junk) o v) (hv : ∑ j ∈ Finset.range c.ncols, v j ^ 2 = 1)
    (h0 : ∀ a b d, (c.t junk)[0]? = some a → (c.t junk)[1]? = some b → (c.t junk)[2]? = some d →
      d - b + 2 / 10 ^ 8 < 3 * (b - a))
    (h1 : ∀ a b d, (c.t junk)[c.size - 3]? = some a → (c.t junk)[c.size - 2]? = some b → (c.t junk)[c.size - 1]? = some d →
      b - a + 2 / 10 ^ 8 < 3 * (d - b))
    {r : KwReg} {m : String} (hr : IsHermite junk r m) :
    EvaluatesTo c (fun g => c.interpolate r g m .none) (fun _ => True) (linePt c.ncols o v) := by
  have hlt := stepsOver_lt ht
  have hl := t_length hc (rows_ne_of_size hs) junk
  obtain ⟨x, hx⟩ : ∃ x, x = knot (c.t junk) := ⟨_, rfl⟩
  have hk : ∀ i, i < c.size → (c.t junk)[i]? = some (x i) := by
    intro i hi; rw [hx]; exact knot_some (by omega)
  have step : ∀ i, i + 1 < c.size → 1 / 10 ^ 8 < x (i + 1) - x i := fun i hi => ht i _ _ (hk i (by omega)) (hk (i + 1) hi)
  have hg : ∀ i, i < c.size → 1 / 10 ^ 8 < grad1 c.size x i := by
    intro i hi
    unfold grad1 npGradient
    by_cases h3 : 3 ≤ c.size
    · rw [if_pos h3]
      by_cases hi0 : i = 0
      · rw [if_pos hi0, if_neg (by norm_num)]
        have := h0 _ _ _ (hk 0 (by omega)) (hk 1 (by omega)) (hk 2 (by omega))
        norm_num at this ⊢
        linarith
      · rw [if_neg hi0]
        by_cases hil : i = c.size - 1
        · rw [if_pos hil, if_neg (by norm_num)]
          have := h1 _ _ _ (hk (c.size - 3) (by omega)) (hk (c.size - 2) (by omega)) (hk (c.size - 1) (by omega))
          norm_num at this ⊢
          linarith
        · rw [if_neg hil]
          have s1 := step i (by omega)
          have s2 := step (i - 1) (by omega)
          rw [show i - 1 + 1 = i by omega] at s2
          linarith
    · have h2 : c.size = 2 := by omega
      have s := step 0 (by omega)
      rw [if_neg h3, if_pos hs, h2]
      rcases (show i = 0 ∨ i = 1 by omega) with rfl | rfl
      · simpa using s
      · simpa using s
  have hf : ∀ i j, i < c.size → j < c.ncols → (firstderiv c).v i j = grad1 c.size x i * v j := by
    intro i j hi hj
    unfold firstderiv
    rw [gradient_v]
    have e : grad1 c.mat.m (fun i => c.mat.v i j) i = grad1 c.size (fun i => v j * x i + o j * 1) i := by
      apply grad1_congr _ hi
      intro l hl'
      have := hline l _ j (hk l hl') hj
      rw [mat_v, this]; ring
    rw [e, grad1_lin, grad1_const]
    ring
  have hd1 : ∀ i j, i < c.size → j < c.ncols → (frenet1 c).v i j = v j := by
    intro i j hi hj
    have gp : 0 < grad1 c.size x i := lt_trans (by norm_num) (hg i hi)
    have hn : rowNorm (firstderiv c) i = grad1 c.size x i := by
      unfold rowNorm
      rw [firstderiv_k hs]
      have : ∑ j ∈ Finset.range c.ncols, (firstderiv c).v i j ^ 2 = grad1 c.size x i ^ 2 := by
        rw [← mul_one (grad1 c.size x i ^ 2), ← hv, Finset.mul_sum]
        apply Finset.sum_congr rfl
        intro j hj
        rw [hf i j hi (Finset.mem_range.1 hj)]; ring
      rw [this, Real.sqrt_sq gp.le]
    have hcl : closeK (grad1 c.size x i) 0 = false := by
      unfold closeK
      rw [decide_eq_false_iff_not, sub_zero, abs_zero, mul_zero, add_zero, abs_of_pos gp, atol, not_le]
      have := hg i hi
      norm_num at this ⊢
      exact this
    show (firstderiv c).v i j / frenetNorm (firstderiv c) i = v j
    unfold frenetNorm
    rw [hn, hcl, hf i j hi hj]
    simp only [Bool.false_eq_true, if_false]
    field_simp
  rw [← row_line hc hs hlt hline (q := ⟨c.t junk, c.mat, frenet1 c, .yes⟩) rfl rfl hd1]
  exact spline_eval hc hs hlt hd hr (hermite_cons hc hs hlt .yes rfl) rfl rfl (.inl rfl)

/-- Points in order on a line of unit direction `u`: the parameter of a curve without own parameter is the distance from the
first point. -/
theorem onLine_arclen {c : Curve ℝ} (hc : WF c) (hs : 2 ≤ c.size) (junk : ℝ) (hp : c.tdata = none) {o u : Nat → ℝ} {s : Nat → ℝ}
    (hu : ∑ j ∈ Finset.range c.ncols, u j ^ 2 = 1) (hinc : ∀ i, i + 1 < c.size → s i < s (i + 1))
    (h : ∀ i j, i < c.size → j < c.ncols → at2 c.rows i j = o j + s i * u j) :
    (∀ i, i < c.size → (c.t junk)[i]? = some (s i - s 0)) ∧ (c.t junk).Pairwise (· < ·) ∧
      AlongLine c (c.t junk) (fun j => o j + s 0 * u j) u := by
  have hne := rows_ne_of_size hs
  obtain ⟨hlen, hz, _, hstep, _⟩ := C50_cumarclen_partial hc hne junk
  have et : c.t junk = cumarclen junk c := by unfold Curve.t; rw [hp]
  have key : ∀ i, i < c.size → (c.t junk)[i]? = some (s i - s 0) := by
    intro i hi
    rw [et]
    induction i with
    | zero => rw [hz]; simp
    | succ i ih =>
      have hi1 : i + 1 < c.rows.length := hi
      obtain ⟨x, y, h1, h2, h3⟩ := hstep i _ _ (List.getElem?_eq_getElem (show i < c.rows.length by omega)) (List.getElem?_eq_getElem hi1)
      rw [ih (by omega)] at h1
      injection h1 with h1
      rw [h2]
      have hg : gap c.ndim (c.rows[i]'(by omega)) c.rows[i + 1] = s (i + 1) - s i := by
        rw [gap_eq_sqrt]
        have e : ∀ j : Fin c.ndim, (c.rows[i + 1].getD j 0 - (c.rows[i]'(by omega)).getD j 0) ^ 2 = (s (i + 1) - s i) ^ 2 * u j ^ 2 := by
          intro j
          have a := h i j (by omega) j.2
          have b := h (i + 1) j hi j.2
          unfold at2 at a b
          rw [List.getD_eq_getElem?_getD (l := c.rows), List.getElem?_eq_getElem (show i < c.rows.length by omega)] at a
          rw [List.getD_eq_getElem?_getD (l := c.rows), List.getElem?_eq_getElem hi1] at b
          simp only [Option.getD_some] at a b
          rw [a, b]; ring
        rw [Finset.sum_congr rfl fun j _ => e j, ← Finset.mul_sum]
        have : ∑ j : Fin c.ndim, u j ^ 2 = 1 := by
          rw [← hu]; exact Fin.sum_univ_eq_sum_range (fun j => u j ^ 2) c.ncols
        rw [this, mul_one, Real.sqrt_sq (by linarith [hinc i hi])]
      rw [hg] at h3
      congr 1; linarith
  refine ⟨key, ?_, ?_⟩
  · apply pairwise_of_steps
    intro i x y hx hy
    have hi := (List.getElem?_eq_some_iff.1 hy).1
    rw [et, hlen] at hi
    rw [key i (by omega)] at hx
    rw [key (i + 1) hi] at hy
    injection hx with hx
    injection hy with hy
    linarith [hinc i hi]
  · intro i x j hx hj
    have hi := (List.getElem?_eq_some_iff.1 hx).1
    rw [et, hlen] at hi
    rw [key i hi] at hx
    injection hx with hx
    rw [h i j hi hj, ← hx]
    ring

/-- **C87 (collinear points).** Points in order on a line, at any distances, of a curve without own parameter: `pchip`, natural
`cubic` and (three points or more, inside the range) `akima` give, at the length `x`, the point of the line at distance `x` from
the first point. -/
theorem C87_collinear {c : Curve ℝ} (hc : WF c) (hs : 2 ≤ c.size) {junk : ℝ} (hp : c.tdata = none) (hd : c.dtype ≠ .int)
    {o u : Nat → ℝ} {s : Nat → ℝ} (hu : ∑ j ∈ Finset.range c.ncols, u j ^ 2 = 1) (hinc : ∀ i, i + 1 < c.size → s i < s (i + 1))
    (h : ∀ i j, i < c.size → j < c.ncols → at2 c.rows i j = o j + s i * u j) {lib : SplineLib} {r : KwReg} {m : String} :
    (IsPchip junk r m → EvaluatesTo c (fun g => c.interpolate r g m .none) (fun _ => True)
      (linePt c.ncols (fun j => o j + s 0 * u j) u)) ∧
    (NaturalOk lib → IsCubic lib junk r m → EvaluatesTo c (fun g => c.interpolate r g m .none) (fun _ => True)
      (linePt c.ncols (fun j => o j + s 0 * u j) u)) ∧
    (3 ≤ c.size → IsAkima lib junk r m → EvaluatesTo c (fun g => c.interpolate r g m .none)
      (fun x => 0 ≤ x ∧ x ≤ s (c.size - 1) - s 0) (linePt c.ncols (fun j => o j + s 0 * u j) u)) := by
  obtain ⟨k, ht, hline⟩ := onLine_arclen hc hs junk hp hu hinc h
  have hl := t_length hc (rows_ne_of_size hs) junk
  obtain ⟨a, b, d⟩ := C87_line hc hs ht hd hline (lib := lib) (r := r) (m := m)
  refine ⟨a, b, fun h3 hr xs hne hx hdom => d h3 hr xs hne hx fun x hx => ?_⟩
  obtain ⟨h1, h2⟩ := hdom x hx
  constructor
  · intro z hz
    rw [List.head?_eq_getElem?, k 0 (by omega)] at hz
    injection hz with hz
    linarith
  · intro z hz
    rw [List.getLast?_eq_getElem?, hl, k _ (by omega)] at hz
    injection hz with hz
    linarith

/-- Three points on a line at 0, 1 and 10. -/
def exGaps : Curve ℝ := ⟨[[0, 0], [1, 0], [10, 0]], 2, none, .float⟩
/-- Three equidistant points on a line, with the parameter running ten times as fast. -/
def exFast : Curve ℝ := ⟨[[0, 0], [1, 0], [2, 0]], 2, some [0, 10, 20], .float⟩

theorem exGaps_WF : WF exGaps where
  two_le := by simp [exGaps]
  rect := by simp [exGaps]
  tlen := by simp [exGaps]
  repr := by intro r _ x _; rfl

theorem exFast_WF : WF exFast where
  two_le := by simp [exFast]
  rect := by simp [exFast]
  tlen := by simp [exFast]
  repr := by intro r _ x _; rfl

theorem exGaps_at (i j : Nat) (hi : i < 3) (hj : j < 2) :
    at2 exGaps.rows i j = 0 + ((fun i => if i = 0 then (0 : ℝ) else if i = 1 then 1 else 10) i) * (if j = 0 then 1 else 0) := by
  rcases (show i = 0 ∨ i = 1 ∨ i = 2 by omega) with rfl | rfl | rfl <;>
    rcases (show j = 0 ∨ j = 1 by omega) with rfl | rfl <;> simp [exGaps, at2]

theorem exGaps_line (junk : ℝ) :
    (∀ i, i < exGaps.size → (exGaps.t junk)[i]? =
      some ((if i = 0 then (0 : ℝ) else if i = 1 then 1 else 10) - (if (0 : Nat) = 0 then (0 : ℝ) else if (0 : Nat) = 1 then 1 else 10))) ∧
    (exGaps.t junk).Pairwise (· < ·) ∧ AlongLine exGaps (exGaps.t junk)
      (fun j => 0 + (if (0 : Nat) = 0 then (0 : ℝ) else if (0 : Nat) = 1 then 1 else 10) * (if j = 0 then 1 else 0)) (fun j => if j = 0 then 1 else 0) :=
  onLine_arclen exGaps_WF (by simp [exGaps, Curve.size]) junk rfl (o := fun _ => 0)
  (u := fun j => if j = 0 then 1 else 0) (s := fun i => if i = 0 then 0 else if i = 1 then 1 else 10)
  (by simp [exGaps])
  (by
    intro i hi
    have : i + 1 < 3 := hi
    rcases (show i = 0 ∨ i = 1 by omega) with rfl | rfl <;> norm_num)
  exGaps_at

theorem frenet1_axis {c : Curve ℝ} (hs : 2 ≤ c.size) (hk : c.ncols = 2) {i : Nat} {a : ℝ} (h0 : (firstderiv c).v i 0 = a)
    (h1 : (firstderiv c).v i 1 = 0) (ha : 1 ≤ |a|) : (frenet1 c).v i 0 = a / |a| := by
  show (firstderiv c).v i 0 / frenetNorm (firstderiv c) i = _
  have hn : rowNorm (firstderiv c) i = |a| := by
    unfold rowNorm
    rw [firstderiv_k hs, hk, Finset.sum_range_succ, Finset.sum_range_one, h0, h1]
    simp [Real.sqrt_sq_eq_abs]
  have hcl : closeK |a| 0 = false := by
    unfold closeK
    rw [decide_eq_false_iff_not, sub_zero, abs_zero, mul_zero, add_zero, abs_abs, atol, not_le]
    have : ((1 : ℝ) / 10 ^ 8) < 1 := by norm_num
    norm_num at this ⊢
    linarith
  unfold frenetNorm
  rw [hn, hcl, h0]
  simp

/-- **C87 fails for `hermite`: uneven distances.** The curve through (0, 0), (1, 0), (10, 0): the tangent at the first point
comes out as -1, and interpolation at 0.1 gives a point before the first one, x = -0.062. -/
theorem C87_spacing_fails {junk : ℝ} {r : KwReg} {m : String} (hr : IsHermite junk r m) :
    ∃ F, EvaluatesTo exGaps (fun g => exGaps.interpolate r g m .none) (fun _ => True) F ∧ coordOf 0 (F (1 / 10)) = -31 / 500 := by
  obtain ⟨hk, ht, _⟩ := exGaps_line junk
  have hs : 2 ≤ exGaps.size := by simp [exGaps, Curve.size]
  have hl := t_length exGaps_WF (rows_ne_of_size hs) junk
  refine ⟨_, spline_eval exGaps_WF hs ht (by simp [exGaps]) hr (hermite_cons exGaps_WF hs ht .yes rfl) rfl rfl (.inl rfl), ?_⟩
  have k0 : knot (exGaps.t junk) 0 = 0 := by rw [knot_eq (hk 0 (by simp [exGaps, Curve.size]))]; simp
  have k1 : knot (exGaps.t junk) 1 = 1 := by rw [knot_eq (hk 1 (by simp [exGaps, Curve.size]))]; simp
  have d0 : (frenet1 exGaps).v 0 0 = -1 := by
    rw [frenet1_axis hs rfl (a := -3)]
    · norm_num
    · simp [firstderiv, gradient, exGaps, Curve.mat, npGradient]; norm_num
    · simp [firstderiv, gradient, exGaps, Curve.mat, npGradient]
    · norm_num
  have d1 : (frenet1 exGaps).v 1 0 = 1 := by
    rw [frenet1_axis hs rfl (a := 5)]
    · norm_num
    · simp [firstderiv, gradient, exGaps, Curve.mat, npGradient]; norm_num
    · simp [firstderiv, gradient, exGaps, Curve.mat, npGradient]
    · norm_num
  unfold coordOf
  rw [PPoly.row_getD _ (by simp [exGaps, Curve.mat]), PPoly.coord_on (i := 0) ht (by rw [hl]; simp [exGaps, Curve.size]) 0 (.inl rfl)
    (.inr (by simp only [zero_add]; rw [k1]; norm_num))]
  unfold PPoly.cub
  simp only [zero_add]
  rw [k0, k1, d0, d1]
  simp [hermR, exGaps, Curve.mat]
  norm_num

/-- **C87 fails for `hermite`: parameter that does not measure length.** Points 0, 1, 2 on a line with the parameter values
0, 10, 20: between the first two points, at 2, the interpolated curve is already beyond the second point, at x = 1.064 (and so it
has to turn back). -/
theorem C87_speed_fails {junk : ℝ} {r : KwReg} {m : String} (hr : IsHermite junk r m) :
    ∃ F, EvaluatesTo exFast (fun g => exFast.interpolate r g m .none) (fun _ => True) F ∧ coordOf 0 (F 2) = 133 / 125 := by
  have hs : 2 ≤ exFast.size := by simp [exFast, Curve.size]
  have ht : (exFast.t junk).Pairwise (· < ·) := by simp [exFast, Curve.t]; norm_num
  refine ⟨_, spline_eval exFast_WF hs ht (by simp [exFast]) hr (hermite_cons exFast_WF hs ht .yes rfl) rfl rfl (.inl rfl), ?_⟩
  have k0 : knot (exFast.t junk) 0 = 0 := knot_eq rfl
  have k1 : knot (exFast.t junk) 1 = 10 := knot_eq rfl
  have d0 : (frenet1 exFast).v 0 0 = 1 := by
    rw [frenet1_axis hs rfl (a := 1)]
    · norm_num
    · simp [firstderiv, gradient, exFast, Curve.mat, npGradient]; norm_num
    · simp [firstderiv, gradient, exFast, Curve.mat, npGradient]
    · norm_num
  have d1 : (frenet1 exFast).v 1 0 = 1 := by
    rw [frenet1_axis hs rfl (a := 1)]
    · norm_num
    · simp [firstderiv, gradient, exFast, Curve.mat, npGradient]
    · simp [firstderiv, gradient, exFast, Curve.mat, npGradient]
    · norm_num
  unfold coordOf
  rw [PPoly.row_getD _ (by simp [exFast, Curve.mat]), PPoly.coord_on (i := 0) ht (by simp [exFast, Curve.t]) 0 (.inl rfl)
    (.inr (by simp only [zero_add]; rw [k1]; norm_num))]
  unfold PPoly.cub
  simp only [zero_add]
  rw [k0, k1, d0, d1]
  simp [hermR, exFast, Curve.mat]
  norm_num

/-! ## C89 -/

/-- **C89.** Interpolating a translated curve gives the translated result: for `hermite`, `pchip`, natural `cubic`
(any grid values) and `akima` (at least three points, values in the range). (Dtypes that are not integer ones.) -/
theorem C89_translation {c c' : Curve ℝ} (hc : WF c) (hc' : WF c') (hs : 2 ≤ c.size) {junk : ℝ} (ht : (c.t junk).Pairwise (· < ·))
    (hd : c.dtype ≠ .int) {w : Nat → ℝ} (hmv : Moved w c c') {lib : SplineLib} {r : KwReg} {m : String} {dom : ℝ → Prop}
    (hm : IsHermite junk r m ∨ IsPchip junk r m ∨ NaturalOk lib ∧ IsCubic lib junk r m ∨
      3 ≤ c.size ∧ IsAkima lib junk r m ∧ ∀ x, dom x → WithinEnds (c.t junk) x) :
    ∃ F F', EvaluatesTo c (fun g => c.interpolate r g m .none) dom F ∧
      EvaluatesTo c' (fun g => c'.interpolate r g m .none) dom F' ∧
      ∀ x, dom x → (F x).length = c.ncols ∧ (F' x).length = c.ncols ∧
        ∀ j, j < c.ncols → coordOf j (F' x) = coordOf j (F x) + w j := by
  have hl := t_length hc (rows_ne_of_size hs) junk
  have ett := t_move hc.rect hc'.rect hmv (rows_ne_of_size hs) junk
  have hs' : 2 ≤ c'.size := by unfold Curve.size; rw [hmv.size]; exact hs
  have hsz : c'.size = c.size := hmv.size
  have ht' : (c'.t junk).Pairwise (· < ·) := by rw [ett]; exact ht
  have hd' : c'.dtype ≠ .int := by rw [hmv.dtype]; exact hd
  -- from splines with equal slopes
  have key : ∀ {cons : Curve ℝ → InterpKw → Except PyErr InterpImpl} {q q' : PPoly}, getInterpClass r m = .ok (interpClass junk cons) →
      cons c .none = .ok q.impl → cons c' .none = .ok q'.impl → q.xs = c.t junk → q'.xs = c'.t junk → q.y = c.mat → q'.y = c'.mat →
      (q.ex = .yes ∨ q.ex = .no ∧ ∀ x, dom x → WithinEnds (c.t junk) x) → q'.ex = q.ex →
      (∀ i j, i < c.size → j < c.ncols → q'.d.v i j = q.d.v i j) → ∃ F F', EvaluatesTo c (fun g => c.interpolate r g m .none) dom F ∧
      EvaluatesTo c' (fun g => c'.interpolate r g m .none) dom F' ∧
      ∀ x, dom x → (F x).length = c.ncols ∧ (F' x).length = c.ncols ∧
        ∀ j, j < c.ncols → coordOf j (F' x) = coordOf j (F x) + w j := by
    intro cons q q' hr hq hq' hx hx' hy hy' hex hex' hslope
    refine ⟨_, _, spline_eval hc hs ht hd hr hq hx hy hex, spline_eval hc' hs' ht' hd' hr hq' hx' hy' (by rw [hex', ett]; exact hex), ?_⟩
    intro x _
    refine ⟨by rw [q.row_length, hy]; rfl, by rw [q'.row_length, hy']; exact hmv.ncols, ?_⟩
    intro j hj
    unfold coordOf
    rw [q.row_getD (by rw [hy]; exact hj), q'.row_getD (by rw [hy']; show j < c'.ncols; rw [hmv.ncols]; exact hj)]
    apply PPoly.coord_move (by rw [hx, hx', ett]) (by rw [hx]; exact ht) (by rw [hx]; omega)
    · intro i hi
      rw [hx] at hi
      rw [hy, hy', mat_v, mat_v]
      exact hmv.rows i j (show i < c.size by omega) hj
    · intro i hi
      rw [hx] at hi
      exact hslope i j (by omega) hj
  have hyv : ∀ j, j < c.ncols → ∀ i, i < c.size → c'.mat.v i j = c.mat.v i j + w j := by
    intro j hj i hi
    rw [mat_v, mat_v]; exact hmv.rows i j hi hj
  have xlt : ∀ i, i + 1 < c.size → (c.t junk).getD i 0 < (c.t junk).getD (i + 1) 0 :=
    fun i hi => knot_lt ht (show i < i + 1 by omega) (by omega)
  rcases hm with hr | hr | ⟨hlib, hr⟩ | ⟨h3, hr, hdom⟩
  · refine key hr (hermite_cons hc hs ht .yes rfl) (hermite_cons hc' hs' ht' .yes rfl) rfl rfl rfl rfl (.inl rfl) rfl ?_
    have hrows := C54_translation hc hc' hsz.symm hmv.ncols.symm w (by
      intro i j hi hj
      exact hmv.rows i j (by rw [← hmv.size]; exact hi) (by rw [← hmv.ncols]; exact hj))
    have k := firstderiv_k hs
    have k' := firstderiv_k hs'
    have m1 := (shapes_m c).1
    have m1' := (shapes_m c').1
    have ev : ∀ i j, i < c.size → j < c.ncols → (firstderiv c').v i j = (firstderiv c).v i j := by
      intro i j hi hj
      rw [← at2_lt _ (by omega) (by rw [k', hmv.ncols]; exact hj), ← at2_lt _ (by omega) (by rw [k]; exact hj), hrows]
    intro i j hi hj
    show (firstderiv c').v i j / frenetNorm (firstderiv c') i = (firstderiv c).v i j / frenetNorm (firstderiv c) i
    have : rowNorm (firstderiv c') i = rowNorm (firstderiv c) i := by
      unfold rowNorm
      rw [k, k', hmv.ncols]
      congr 1
      apply Finset.sum_congr rfl
      intro l hl'
      rw [ev i l hi (Finset.mem_range.1 hl')]
    unfold frenetNorm
    rw [this, ev i j hi hj]
  · refine key hr (pchip_cons hc hs ht .yes rfl) (pchip_cons hc' hs' ht' .yes rfl) rfl rfl rfl rfl (.inl rfl) rfl ?_
    intro i j hi hj
    simp only [pchipSlopes_v]
    rw [ett, hl]
    exact pchipSlope_move (hyv j hj) hs hi
  · obtain ⟨d, hsol, hnat⟩ := hlib (c.t junk) c.mat (knotsOk_curve hc hs ht)
    obtain ⟨d', hsol', hnat'⟩ := hlib (c'.t junk) c'.mat (knotsOk_curve hc' hs' ht')
    refine key hr (cubic_default hc hs ht lib hsol) (cubic_default hc' hs' ht' lib hsol') rfl rfl rfl rfl (.inl rfl) rfl ?_
    intro i j hi hj
    have n1 := hnat j hj
    have n2 := hnat' j (show j < c'.ncols by rw [hmv.ncols]; exact hj)
    rw [ett, hl] at n2
    rw [hl] at n1
    exact natural_move (hyv j hj) hs xlt n1 n2 hi
  · have a1 := akima_cons hc hs ht lib
    have a2 := akima_cons hc' hs' ht' lib
    rw [if_neg (by omega)] at a1 a2
    refine key hr a1 a2 rfl rfl rfl rfl (.inr ⟨rfl, hdom⟩) rfl ?_
    intro i j hi hj
    simp only [akimaSlopes_v]
    rw [ett, hl]
    have etop : akimaTop (c.t junk) c'.mat = akimaTop (c.t junk) c.mat := by
      unfold akimaTop
      rw [hl]
      congr 1
      have : c'.mat.k = c.mat.k := hmv.ncols
      rw [this]
      apply List.flatMap_congr
      intro j hj
      apply List.map_congr_left
      intro l hl'
      exact akimaF12_move (hyv j (List.mem_range.1 hj)) h3 (List.mem_range.1 hl')
    rw [etop]
    exact akimaSlope_move (hyv j hj) h3 _ hi

/-! ## Instances -/

/-- Every theorem about the methods applies to the registry after import, whatever libraries stand behind it. -/
example (lib : SplineLib) : ∃ R, exTri.interpolate (builtinInterp lib 0) (.arr (.ok (GridArr.of (fins [0, 1, 3])))) "pchip" .none = .ok R ∧
    Represents R exTri :=
  (C83_reproduce_partial exTri_WF (by simp [exTri, Curve.size]) exTri_steps (by simp [exTri]) lib).2.1 (builtin_names lib 0).2.2.1 .none
    (.inl rfl)

example (lib : SplineLib) : ∃ R, exTri.interpolate (builtinInterp lib 0) (.arr (.ok (GridArr.of (fins [0, 1, 3])))) "hermite"
    ⟨[("extrapolate", .str "periodic")]⟩ = .ok R ∧ R.rows.getLast? = some (fins [0, 0]) :=
  C83_periodic_fails exTri_WF (by simp [exTri, Curve.size]) exTri_steps (by simp [exTri]) (builtin_names lib 0).2.1

example (lib : SplineLib) : ∃ F rs, EvaluatesTo exTri (fun g => exTri.interpolate (builtinInterp lib 0) g "hermite" .none) (fun _ => True) F ∧
      fresh 0 exTri .frenet1 = .ok (.rows rs) ∧ HasDerivAt (fun y => coordOf 0 (F y)) (at2 rs 1 0) 1 := by
  obtain ⟨F, rs, h1, h2, h3⟩ := C84_hermite_tangent exTri_WF (by simp [exTri, Curve.size]) (stepsOver_lt exTri_steps) (by simp [exTri])
    (builtin_names lib 0).2.1
  exact ⟨F, rs, h1, h2, h3 1 0 1 rfl (by simp [exTri])⟩

example (lib : SplineLib) : ∃ F, EvaluatesTo exTri (fun g => exTri.interpolate (builtinInterp lib 0) g "pchip" .none) (fun _ => True) F ∧
    MonotoneOn (fun y => coordOf 1 (F y)) (Set.Icc 1 3) := by
  obtain ⟨F, h1, h2⟩ := C85_pchip_monotone exTri_WF (by simp [exTri, Curve.size]) (stepsOver_lt exTri_steps) (by simp [exTri])
    (builtin_names lib 0).2.2.1
  exact ⟨F, h1, (h2 1 1 1 3 rfl rfl (by simp [exTri])).1 (by simp [exTri, at2])⟩

/-- Libraries as assumed in C86 exist. -/
example : ∃ lib, NaturalOk lib ∧ ∃ F, EvaluatesTo exTri (fun g => exTri.interpolate (builtinInterp lib 0) g "cubic" .none) (fun _ => True) F := by
  obtain ⟨lib, h⟩ := exists_naturalOk
  obtain ⟨F, hF, _⟩ := C86_natural exTri_WF (by simp [exTri, Curve.size]) (stepsOver_lt exTri_steps) (by simp [exTri]) h
    (builtin_names lib 0).2.2.2.2
  exact ⟨lib, h, F, hF⟩

example (lib : SplineLib) : EvaluatesTo exGaps (fun g => exGaps.interpolate (builtinInterp lib 0) g "akima" .none)
    (fun x => 0 ≤ x ∧ x ≤ 10 - 0) (linePt 2 (fun j => 0 + 0 * if j = 0 then 1 else 0) fun j => if j = 0 then 1 else 0) :=
  (C87_collinear exGaps_WF (by simp [exGaps, Curve.size]) rfl (by simp [exGaps]) (o := fun _ => 0)
    (u := fun j => if j = 0 then 1 else 0) (s := fun i => if i = 0 then 0 else if i = 1 then 1 else 10)
    (by simp [exGaps])
    (by
      intro i hi
      have : i + 1 < 3 := hi
      rcases (show i = 0 ∨ i = 1 by omega) with rfl | rfl <;> norm_num)
    exGaps_at (lib := lib)).2.2 (by simp [exGaps, Curve.size]) (builtin_names lib 0).2.2.2.1

/-- The points 0, 1, 3 on a line: steps 1 and 2, so C87 holds for `hermite` too. -/
def exMild : Curve ℝ := ⟨[[0, 0], [1, 0], [3, 0]], 2, some [0, 1, 3], .float⟩

example (lib : SplineLib) : EvaluatesTo exMild (fun g => exMild.interpolate (builtinInterp lib 0) g "hermite" .none) (fun _ => True)
    (linePt 2 (fun _ => 0) fun j => if j = 0 then 1 else 0) := by
  refine C87_hermite_partial (c := exMild) (junk := 0) ⟨by simp [exMild], by simp [exMild], by simp [exMild], by intro r _ x _; rfl⟩
    (by simp [exMild, Curve.size]) exTri_steps (by simp [exMild]) ?_ (by simp [exMild]) ?_ ?_ (builtin_names lib 0).2.1
  · intro i x j hx hj
    have hj' : j < 2 := hj
    match i with
    | 0 => simp [exMild, Curve.t] at hx; subst hx; rcases (show j = 0 ∨ j = 1 by omega) with rfl | rfl <;> simp [exMild, at2]
    | 1 => simp [exMild, Curve.t] at hx; subst hx; rcases (show j = 0 ∨ j = 1 by omega) with rfl | rfl <;> simp [exMild, at2]
    | 2 => simp [exMild, Curve.t] at hx; subst hx; rcases (show j = 0 ∨ j = 1 by omega) with rfl | rfl <;> simp [exMild, at2]
    | (k + 3) => simp [exMild, Curve.t] at hx
  · intro a b d ha hb hd
    simp [exMild, Curve.t] at ha hb hd
    subst ha hb hd
    norm_num
  · intro a b d ha hb hd
    simp [exMild, Curve.t, Curve.size] at ha hb hd
    subst ha hb hd
    norm_num

example (lib : SplineLib) : ∃ R, exTri.interpolate (builtinInterp lib 0) (.arr (.ok (GridArr.of (fins [2, 5])))) "akima" .none = .ok R ∧
    ∀ row, R.rows[1]? = some row → ∀ v ∈ row, v = .nan := by
  have hso : StepsOver [2, 5] := by
    intro i x y hx hy
    match i with
    | 0 => simp at hx hy; subst hx hy; norm_num
    | (k + 1) => simp at hy
  obtain ⟨R, h1, _, h2⟩ := C88_outside exTri_WF (by simp [exTri, Curve.size]) (stepsOver_lt exTri_steps) (by simp [exTri]) lib
    (.inl ⟨(builtin_names lib 0).2.2.2.1, rfl⟩) (xs := [2, 5]) (by simp) hso
  refine ⟨R, h1, fun row hrow => (h2 1 5 row rfl hrow).2.2 ?_⟩
  intro h
  have := h.2 3 (by simp [exTri, Curve.t])
  norm_num at this

/-- `exTri` moved by (1, -2). -/
def exTriMoved : Curve ℝ := ⟨[[1, -2], [4, -2], [4, 2]], 2, some [0, 1, 3], .float⟩

example (lib : SplineLib) : ∃ F F', EvaluatesTo exTri (fun g => exTri.interpolate (builtinInterp lib 0) g "hermite" .none) (fun _ => True) F ∧
    EvaluatesTo exTriMoved (fun g => exTriMoved.interpolate (builtinInterp lib 0) g "hermite" .none) (fun _ => True) F' ∧
    ∀ x, coordOf 1 (F' x) = coordOf 1 (F x) - 2 := by
  obtain ⟨F, F', h1, h2, h3⟩ := C89_translation exTri_WF (c' := exTriMoved)
    ⟨by simp [exTriMoved], by simp [exTriMoved], by simp [exTriMoved], by intro r _ x _; rfl⟩ (by simp [exTri, Curve.size])
    (stepsOver_lt exTri_steps) (by simp [exTri]) (w := fun j => if j = 0 then 1 else -2) ⟨rfl, rfl, rfl, rfl, by
      intro i j hi hj
      have hi' : i < 3 := hi
      have hj' : j < 2 := hj
      rcases (show i = 0 ∨ i = 1 ∨ i = 2 by omega) with rfl | rfl | rfl <;>
        rcases (show j = 0 ∨ j = 1 by omega) with rfl | rfl <;> simp [exTri, exTriMoved, at2] <;> norm_num⟩
    (lib := lib) (dom := fun _ => True) (.inl (builtin_names lib 0).2.1)
  refine ⟨F, F', h1, h2, fun x => ?_⟩
  have := (h3 x trivial).2.2 1 (by simp [exTri])
  rw [this]
  norm_num
  ring

end Verif.Props
