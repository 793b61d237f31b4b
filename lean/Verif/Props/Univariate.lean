import Verif.Spec.Univariate
import Verif.Props.SplineBc
import Verif.Props.Keywords

/-!
C129: the method `spline` when it interpolates (`smooth=0`, the default), for degree 3 (the default) and 1.
-/
namespace Verif.Spec

open Verif Verif.Model

/-- Keyword arguments of `spline`: degree `k`, no smoothing, positive weights, an extrapolation mode; in any order, each with its default. -/
def SplineArgs (kw : InterpKw) (n k : Nat) (mode : OutMode) : Prop :=
  ∃ s ws w e, Within kw ["k", "smooth", "weights", "extrapolate"] ∧ Valued kw "k" (.int 3) (.int k) ∧ Valued kw "smooth" (.real 0) s ∧
    Valued kw "weights" .none ws ∧ Valued kw "extrapolate" (.int 0) e ∧ SmoothIs s 0 ∧ WeightsFor ws n w ∧ ExtIs e mode

end Verif.Spec

namespace Verif.Props

open Verif Verif.Np Verif.Model Verif.Spec

/-- `m` is a name of the interpolator `spline`. -/
abbrev IsSpline (lib : SplineLib) (junk : ℝ) (r : KwReg) (m : String) : Prop :=
  getInterpClass r m = .ok (interpClass junk (withKw pickSpline (splineCons lib junk)))

/-- The slopes of a spline without a knot at the second and the last but one value solve the not-a-knot system, and determine it. -/
theorem knot_system_of_pieces {xs : List ℝ} (ht : xs.Pairwise (· < ·)) (h4 : 4 ≤ xs.length) {y : Nat → ℝ} {F : ℝ → ℝ} {P : Nat → Polynomial ℝ}
    (hC : CubicOn xs y F P) (h0 : P 0 = P 1) (h1 : P (xs.length - 3) = P (xs.length - 2)) :
    ∃ d, KnotSystem xs.length (knot xs) y d ∧
      ∀ i, i + 1 < xs.length → P i = hermPoly (knot xs i) (knot xs (i + 1)) (y i) (y (i + 1)) (d i) (d (i + 1)) := by
  obtain ⟨n, hn⟩ : ∃ n, n = xs.length := ⟨_, rfl⟩
  rw [← hn] at h4 h1 ⊢
  have hx : ∀ i, i + 1 < n → knot xs i < knot xs (i + 1) := fun i hi => knot_lt ht (by omega) (by omega)
  have hk : ∀ i, i < n → xs[i]? = some (knot xs i) := fun i hi => knot_some (by omega)
  obtain ⟨d, hd⟩ : ∃ d : Nat → ℝ, d = fun i => if i = n - 1 then (P (n - 2)).derivative.eval (knot xs (n - 1)) else (P i).derivative.eval (knot xs i) :=
    ⟨_, rfl⟩
  have dl : ∀ i, i + 1 < n → (P i).derivative.eval (knot xs i) = d i := by
    intro i hi
    rw [hd]; simp only; rw [if_neg (by omega)]
  have dr : ∀ i, i + 1 < n → (P i).derivative.eval (knot xs (i + 1)) = d (i + 1) := by
    intro i hi
    by_cases e : i + 1 = n - 1
    · rw [hd]; simp only; rw [if_pos e, ← e, show n - 2 = i by omega]
    · rw [← dl (i + 1) (by omega)]
      exact hC.slope i _ (hk _ hi) (by omega)
  have yl : ∀ i, i + 1 < n → (P i).eval (knot xs i) = y i := fun i hi => hC.left i _ (hk i (by omega)) (by omega)
  have yr : ∀ i, i + 1 < n → (P i).eval (knot xs (i + 1)) = y (i + 1) := fun i hi => hC.right i _ (hk (i + 1) (by omega))
  have hP : ∀ i, i + 1 < n → P i = hermPoly (knot xs i) (knot xs (i + 1)) (y i) (y (i + 1)) (d i) (d (i + 1)) := by
    intro i hi
    apply Polynomial.funext
    intro z
    rw [hermPoly_eval, ← dl i hi, ← dr i hi, ← yl i hi, ← yr i hi, hermR_poly (hx i hi) (hC.degree i)]
  refine ⟨d, ⟨fun h => by omega, fun h => by omega, ?_, ?_, ?_⟩, hP⟩
  · intro k hk2
    have := hC.bend k _ (hk (k + 1) (by omega)) (by omega)
    have l1 := hx k (by omega)
    have l2 := hx (k + 1) (by omega)
    rw [hP k (by omega), hP (k + 1) (by omega), hermPoly_deriv2_right l1, hermPoly_deriv2_left l2,
      div_eq_div_iff (by linarith) (by linarith)] at this
    linarith
  · intro _
    have := (knot_system_of_poly (n := 4) (x := knot xs) (fun i hi => hx i (by omega)) (hC.degree 0) (lt_of_le_of_lt (hC.degree 0) (by norm_num))).first
      (le_refl _)
    have a0 := yl 0 (by omega)
    have a1 := yr 0 (by omega)
    have a2 := yr 1 (by omega)
    have b0 := dl 0 (by omega)
    have b1 := dr 0 (by omega)
    simp only [zero_add, Nat.reduceAdd] at a1 a2 b1
    rw [← h0] at a2
    rwa [a0, a1, a2, b0, b1] at this
  · intro _
    have := (knot_system_of_poly (n := n) (x := knot xs) hx (hC.degree (n - 2)) (lt_of_le_of_lt (hC.degree (n - 2)) (by omega))).last h4
    have a0 := yl (n - 3) (by omega)
    have a1 := yl (n - 2) (by omega)
    have a2 := yr (n - 2) (by omega)
    have b0 := dl (n - 2) (by omega)
    have b1 := dr (n - 2) (by omega)
    rw [show n - 2 + 1 = n - 1 by omega] at a2 b1
    rw [h1] at a0
    rwa [a0, a1, a2, b0, b1] at this

theorem onPiece_exists {xs : List ℝ} (hl : 2 ≤ xs.length) (z : ℝ) : ∃ i, i + 1 < xs.length ∧ OnPiece xs i (knot xs i) (knot xs (i + 1)) z := by
  obtain ⟨i, hi, h1, h2⟩ := exists_piece hl z
  exact ⟨i, hi, knot_some (by omega), knot_some hi, h1, h2.imp id le_of_lt⟩

section
variable {c : Curve ℝ} (hc : WF c) (hs : 2 ≤ c.size) {junk : ℝ} (hd : c.dtype ≠ .int) {lib : SplineLib} {r : KwReg} {m : String}
  (hr : IsSpline lib junk r m)

theorem splineArgs_pick {kw : InterpKw} {n k : Nat} {mode : OutMode} (h : SplineArgs kw n k mode) :
    ∃ s ws w e, pickSpline kw = some ⟨.int k, s, ws, e⟩ ∧ SmoothIs s 0 ∧ WeightsFor ws n w ∧ ExtIs e mode := by
  obtain ⟨s, ws, w, e, h0, h1, h2, h3, h4, h5, h6, h7⟩ := h
  refine ⟨s, ws, w, e, ?_, h5, h6, h7⟩
  unfold pickSpline
  rw [within_only h0, if_pos rfl, lookup_valued h0.1 h1, lookup_valued h0.1 h2, lookup_valued h0.1 h3, lookup_valued h0.1 h4]

include hc hs hd hr in
theorem spline_evaluates {kw : InterpKw} {q : SplineParams} (hkw : pickSpline kw = some q) {f : Nat → Val ℝ → Except PyErr (Val ℝ)}
    (hf : ∀ j, j < c.ncols → lib.univariate q.k q.smooth q.weights q.ext (c.t junk) (column j c) = .ok (f j)) {dom : ℝ → Prop} {G : Nat → ℝ → ℝ}
    (hG : ∀ j x, j < c.ncols → dom x → f j (.fin x) = .ok (.fin (G j x))) :
    EvaluatesTo c (fun g => c.interpolate r g m kw) dom (fun x => (List.range c.ncols).map fun j => G j x) := by
  intro xs hne hx hdom
  refine ⟨_, C105_univariate hc hs hr hkw hd hf hne hx (v := fun j x => .fin (G j x)) (fun j x hj hx' => hG j x hj (hdom x hx')), ?_, rfl, ?_, rfl⟩
  · simp [List.map_map, Function.comp, fins]
  · simp only; split <;> simp

include hc hs hd hr in
/-- Splines in all coordinates. -/
theorem spline_extended (ht : (c.t junk).Pairwise (· < ·)) {kw : InterpKw} {q : SplineParams} (hkw : pickSpline kw = some q) {mode : OutMode} {f : Nat → Val ℝ → Except PyErr (Val ℝ)}
    {F : Nat → ℝ → ℝ} (hf : ∀ j, j < c.ncols → lib.univariate q.k q.smooth q.weights q.ext (c.t junk) (column j c) = .ok (f j))
    (hF : ∀ j, j < c.ncols → ExtendedBy mode (c.t junk) (F j) (f j)) :
    ExtendedCall mode c (c.t junk) (fun g => c.interpolate r g m kw) (fun x => (List.range c.ncols).map fun j => F j x) := by
  classical
  obtain ⟨ha, hb⟩ := t_ends hc (rows_ne_of_size hs) junk
  refine ⟨spline_evaluates hc hs hd hr hkw hf fun j x hj hx => (hF j hj).1 x hx, ?_⟩
  cases mode with
  | extrapolate =>
    refine spline_evaluates hc hs hd hr hkw hf fun j x hj _ => ?_
    by_cases h : WithinEnds (c.t junk) x
    · exact (hF j hj).1 x h
    · exact (hF j hj).2 x _ _ ha hb h
  | zeros =>
    refine ⟨_, spline_evaluates hc hs hd hr hkw hf (G := fun j x => if WithinEnds (c.t junk) x then F j x else 0) (fun j x hj _ => ?_), ?_, ?_⟩
    · by_cases h : WithinEnds (c.t junk) x
      · rw [if_pos h]; exact (hF j hj).1 x h
      · rw [if_neg h]; exact (hF j hj).2 x _ _ ha hb h
    · intro x h; simp only [if_pos h]
    · intro x h; simp only [if_neg h]; simp
  | raise =>
    rintro xs hx ⟨x, hx1, hx2⟩
    obtain ⟨e, he⟩ := (hF 0 (by have := hc.two_le; omega)).2 x _ _ ha hb hx2
    exact C105_univariate_raise hc hs hr hkw hf (List.ne_nil_of_mem hx1) hx (show 0 < c.ncols by have := hc.two_le; omega) hx1 he
  | const =>
    refine ⟨_, spline_evaluates hc hs hd hr hkw hf (G := fun j x => if WithinEnds (c.t junk) x then F j x else
      F j (if x < tFirst junk c then tFirst junk c else tLast junk c)) (fun j x hj _ => ?_), ?_, ?_, ?_⟩
    · by_cases h : WithinEnds (c.t junk) x
      · rw [if_pos h]; exact (hF j hj).1 x h
      · rw [if_neg h]; exact (hF j hj).2 x _ _ ha hb h
    · intro x h; simp only [if_pos h]
    · intro x a ha' hxa
      rw [ha] at ha'; injection ha' with ha'
      rw [← ha'] at hxa ⊢
      have : ¬ WithinEnds (c.t junk) x := fun h => absurd (h.1 _ ha) (by linarith)
      simp only [if_neg this, if_pos hxa]
    · intro x b hb' hxb
      rw [hb] at hb'; injection hb' with hb'
      rw [← hb'] at hxb ⊢
      have h1 : ¬ WithinEnds (c.t junk) x := fun h => absurd (h.2 _ hb) (by linarith)
      have h2 : ¬ x < tFirst junk c := by
        have hl := t_length hc (rows_ne_of_size hs) junk
        rw [List.head?_eq_getElem?] at ha
        rw [List.getLast?_eq_getElem?] at hb
        have := knot_lt ht (i := 0) (j := (c.t junk).length - 1) (by omega) (by omega)
        rw [knot_eq ha, knot_eq hb] at this
        linarith
      simp only [if_neg h1, if_neg h2]

theorem column_length (j : Nat) (c : Curve ℝ) : (column j c).length = c.size := by
  rw [← mat_column]; simp

theorem column_getD {j i : Nat} {c : Curve ℝ} (hi : i < c.size) : (column j c).getD i 0 = c.mat.v i j := by
  rw [← mat_column]
  simp [List.getD_eq_getElem?_getD, hi]

include hc hs hd hr in
/-- **C129, degree 3 (the default).** Without smoothing the method `spline` is cubic interpolation with `bc_type='not-a-knot'`, for four or more
points and whatever the weights: it passes through the points, and by default it agrees with the method `cubic` outside of the range too. The other
modes of extrapolation give zeros, the nearest end point, or an InterpolationError as soon as one grid value is outside. -/
theorem C129_cubic (ht : (c.t junk).Pairwise (· < ·)) (h4 : 4 ≤ c.size) (hlib : UnivariateOk lib) {kw : InterpKw} {mode : OutMode}
    (hkw : SplineArgs kw c.size 3 mode) :
    ∃ F, ExtendedCall mode c (c.t junk) (fun g => c.interpolate r g m kw) F ∧
      (∀ (i : Nat) x, (c.t junk)[i]? = some x → c.rows[i]? = some (F x)) ∧
      ∀ (lib' : SplineLib) (r' : KwReg) (m' : String), BoundaryOk lib' → IsCubic lib' junk r' m' →
        EvaluatesTo c (fun g => c.interpolate r' g m' ⟨[("bc_type", .str "not-a-knot")]⟩) (fun _ => True) F := by
  have hl := t_length hc (rows_ne_of_size hs) junk
  obtain ⟨s, ws, w, e, hp, h1, h2, h3⟩ := splineArgs_pick hkw
  rw [← hl] at h2
  have hex : ∀ j, ∃ f F, lib.univariate (.int 3) s ws e (c.t junk) (column j c) = .ok f ∧ CubicThrough (c.t junk) (column j c) F ∧
      ExtendedBy mode (c.t junk) F f := fun j => hlib.cubic s ws w e mode _ _ h1 h2 h3 ht (by rw [column_length, hl]) (by omega)
  choose f F hf hF hE using hex
  have hrow : ∀ (lib' : SplineLib) (d : NMat), lib'.cubic "not-a-knot" (c.t junk) c.mat = .ok d →
      (∀ j, j < c.mat.k → KnotSystem (c.t junk).length (knot (c.t junk)) (fun i => c.mat.v i j) (fun i => d.v i j)) →
      (fun x => (List.range c.ncols).map fun j => F j x) = (⟨c.t junk, c.mat, d, .yes⟩ : PPoly).row := by
    intro lib' d _ hsys
    funext z
    unfold PPoly.row
    apply List.map_congr_left
    intro j hj
    have hj' := List.mem_range.1 hj
    obtain ⟨P, hC, hP0, hP1, hP⟩ := hF j
    obtain ⟨d', hK, hherm⟩ := knot_system_of_pieces ht (by omega) hC hP0 hP1
    have hK' : KnotSystem (c.t junk).length (knot (c.t junk)) (fun i => c.mat.v i j) d' := by
      have e : ∀ i, i < (c.t junk).length → (column j c).getD i 0 = c.mat.v i j := fun i hi => column_getD (by omega)
      have hn : 4 ≤ (c.t junk).length := by omega
      refine ⟨fun h => by omega, fun h => by omega, ?_, ?_, ?_⟩
      · intro k hk
        have := hK.inner k hk
        rwa [e k (by omega), e (k + 1) (by omega), e (k + 2) (by omega)] at this
      · intro h
        have := hK.first h
        rwa [e 0 (by omega), e 1 (by omega), e 2 (by omega)] at this
      · intro h
        have := hK.last h
        rwa [e ((c.t junk).length - 3) (by omega), e ((c.t junk).length - 2) (by omega), e ((c.t junk).length - 1) (by omega)] at this
    have hun := knot_unique (by omega) (fun i hi => knot_lt ht (by omega) hi) hK' (hsys j hj')
    obtain ⟨i, hi, hpiece⟩ := onPiece_exists (xs := c.t junk) (by omega) z
    rw [hP i _ _ z hpiece, hherm i hi, hermPoly_eval,
      PPoly.coord_on (p := ⟨c.t junk, c.mat, d, .yes⟩) ht hi j hpiece.2.2.1 hpiece.2.2.2, column_getD (by omega), column_getD (by omega), hun i (by omega), hun (i + 1) hi]
    rfl
  refine ⟨_, spline_extended hc hs hd hr ht hp (fun j _ => hf j) (fun j _ => hE j), ?_, ?_⟩
  · intro i x hi
    obtain ⟨lib', _, hlib'⟩ := exists_boundaryOk
    obtain ⟨d, hsol, hsys⟩ := hlib'.knot (c.t junk) c.mat (knotsOk_curve hc hs ht)
    have := row_at_knot hc hs ht (q := ⟨c.t junk, c.mat, d, .yes⟩) rfl rfl hi
    rw [← hrow lib' d hsol hsys] at this
    exact this
  · intro lib' r' m' hlib' hr'
    obtain ⟨d, hsol, hsys⟩ := hlib'.knot (c.t junk) c.mat (knotsOk_curve hc hs ht)
    rw [hrow lib' d hsol hsys]
    exact spline_eval hc hs ht hd hr' (q := ⟨c.t junk, c.mat, d, .yes⟩) (p := ⟨[("bc_type", .str "not-a-knot")]⟩)
      (cubic_bc hc hs ht lib' hsol) rfl rfl (.inl rfl)

include hc hs hd hr in
/-- **C129, degree 1.** With `k=1` and without smoothing the method `spline` is the method `linear` (with extrapolation, by default). -/
theorem C129_linear (ht : (c.t junk).Pairwise (· < ·)) (hlib : UnivariateOk lib) {kw : InterpKw} {mode : OutMode} (hkw : SplineArgs kw c.size 1 mode) :
    ∃ F, ExtendedCall mode c (c.t junk) (fun g => c.interpolate r g m kw) F ∧
      ∀ (r' : InterpReg Bool) (m' : String), IsLinear junk r' m' → EvaluatesTo c (fun g => c.interpolate r' g m' true) (fun _ => True) F := by
  have hl := t_length hc (rows_ne_of_size hs) junk
  obtain ⟨s, ws, w, e, hp, h1, h2, h3⟩ := splineArgs_pick hkw
  rw [← hl] at h2
  have hex : ∀ j, ∃ f F, lib.univariate (.int 1) s ws e (c.t junk) (column j c) = .ok f ∧ BrokenLine (c.t junk) (column j c) F ∧
      ExtendedBy mode (c.t junk) F f := fun j => hlib.linear s ws w e mode _ _ h1 h2 h3 ht (by rw [column_length, hl]) (by omega)
  choose f F hf hF hE using hex
  refine ⟨_, spline_extended hc hs hd hr ht hp (fun j _ => hf j) (fun j _ => hE j), ?_⟩
  intro r' m' hr'
  have hrow : (fun x => (List.range c.ncols).map fun j => F j x) = rowAt ((c.t junk).zip c.rows) := by
    funext z
    obtain ⟨i, u, v, p, q, e1, e2, e3, e4, e5, e6⟩ := exists_pair hc hs ht z
    rw [rowAt_pair hc hs ht z i u v p q e1 e2 e3 e4 e5 e6]
    have l1 := hc.rect p (List.mem_of_getElem? e3)
    have l2 := hc.rect q (List.mem_of_getElem? e4)
    apply List.ext_getElem
    · rw [mix_length (by rw [l1, l2]), l1]; simp
    · intro j hj hj'
      have hj2 : j < c.ncols := by simpa using hj
      simp only [List.getElem_map, List.getElem_range, mix, List.getElem_zipWith]
      rw [hF j i u v z ⟨e1, e2, e5, by rw [hl]; exact e6⟩, column_getD (by rw [← hl]; exact (List.getElem?_eq_some_iff.1 e1).1),
        column_getD (by rw [← hl]; exact (List.getElem?_eq_some_iff.1 e2).1)]
      have a1 : c.mat.v i j = p[j]'(by omega) := by
        simp [mat_v, at2, e3, List.getD_eq_getElem?_getD, l1, hj2]
      have a2 : c.mat.v (i + 1) j = q[j]'(by omega) := by
        simp [mat_v, at2, e4, List.getD_eq_getElem?_getD, l2, hj2]
      rw [a1, a2]
  rw [hrow]
  intro xs hne hx _
  obtain ⟨w', hg⟩ := getGrid_fins junk c xs hne hx
  obtain ⟨ha, hb⟩ := t_ends hc (rows_ne_of_size hs) junk
  exact linear_repr hc hs ht hd hr' true hne hg ha hb (.inl rfl)

include hc hs hr in
/-- **C129, errors.** Too few points for the degree, or parameter values that do not increase strictly, are an InterpolationError. -/
theorem C129_errors (hlib : UnivariateOk lib) {kw : InterpKw} {k : Nat} {mode : OutMode} (hk : k = 1 ∨ k = 3) (hkw : SplineArgs kw c.size k mode)
    (h : c.size ≤ k ∨ ¬ (c.t junk).Pairwise (· < ·)) (g : GridSpec) : c.interpolate r g m kw = .error .interpolationError := by
  have hl := t_length hc (rows_ne_of_size hs) junk
  obtain ⟨s, ws, w, e, hp, h1, h2, h3⟩ := splineArgs_pick hkw
  rw [← hl] at h2 h
  obtain ⟨err, he⟩ := hlib.few k s ws w e mode (c.t junk) (column 0 c) hk h1 h2 h3 (by rw [column_length, hl]) h
  exact C105_univariate_error hr hp (show 0 < c.ncols by have := hc.two_le; omega) he g

end

/-! ## Instances -/

/-- Broken lines exist. -/
theorem brokenLine_exists {xs ys : List ℝ} (ht : xs.Pairwise (· < ·)) (h2 : 2 ≤ xs.length) : ∃ F, BrokenLine xs ys F := by
  classical
  have hex : ∀ z, ∃ i, i + 1 < xs.length ∧ OnPiece xs i (knot xs i) (knot xs (i + 1)) z := onPiece_exists h2
  choose I hI hP using hex
  refine ⟨fun z => ys.getD (I z) 0 + (z - knot xs (I z)) / (knot xs (I z + 1) - knot xs (I z)) * (ys.getD (I z + 1) 0 - ys.getD (I z) 0), ?_⟩
  intro i u v z ⟨hu, hv, h1, h2⟩
  have hi : i + 1 < xs.length := (List.getElem?_eq_some_iff.1 hv).1
  obtain rfl := knot_eq hu
  obtain rfl := knot_eq hv
  have g := hP z
  have gi := hI z
  simp only
  -- two pieces can only share an end
  have key : ∀ i k, i + 1 < xs.length → k + 1 < xs.length → i < k → (i + 2 = xs.length ∨ z ≤ knot xs (i + 1)) → (k = 0 ∨ knot xs k ≤ z) →
      k = i + 1 ∧ z = knot xs k := by
    intro i k hi hk hik h1 h2
    have a := h1.resolve_left (by omega)
    have b := h2.resolve_left (by omega)
    rcases eq_or_lt_of_le (show i + 1 ≤ k by omega) with e | e
    · subst e; exact ⟨rfl, le_antisymm a b⟩
    · have := knot_lt ht e (by omega)
      linarith
  have join : ∀ k, k + 2 < xs.length → ys.getD k 0 + (knot xs (k + 1) - knot xs k) / (knot xs (k + 1) - knot xs k) * (ys.getD (k + 1) 0 - ys.getD k 0) =
      ys.getD (k + 1) 0 + (knot xs (k + 1) - knot xs (k + 1)) / (knot xs (k + 1 + 1) - knot xs (k + 1)) * (ys.getD (k + 1 + 1) 0 - ys.getD (k + 1) 0) := by
    intro k hk
    have := knot_lt ht (show k < k + 1 by omega) (by omega)
    rw [div_self (by linarith), sub_self, zero_div]
    ring
  rcases lt_trichotomy i (I z) with h | h | h
  · obtain ⟨e1, e2⟩ := key i (I z) hi gi h h2 g.2.2.1
    have := join i (by omega)
    rw [e1] at e2 ⊢
    rw [e2]
    exact this.symm
  · rw [h]
  · obtain ⟨e1, e2⟩ := key (I z) i gi hi h g.2.2.2 h1
    have := join (I z) (by omega)
    generalize I z = k at *
    rw [e1] at e2 ⊢
    rw [e2]
    exact this

/-- Cubic splines without knots at the second and the last but one value exist. -/
theorem cubicThrough_exists {xs ys : List ℝ} (ht : xs.Pairwise (· < ·)) (h4 : 4 ≤ xs.length) (hy : ys.length = xs.length) : ∃ F, CubicThrough xs ys F := by
  obtain ⟨lib, _, hlib⟩ := exists_boundaryOk
  obtain ⟨c, hcd⟩ : ∃ c : Curve ℝ, c = ⟨ys.map fun y => [y, y], 2, some xs, .float⟩ := ⟨_, rfl⟩
  have hc : WF c := by
    subst hcd
    refine ⟨le_refl _, ?_, ?_, ?_⟩
    · intro r hr
      obtain ⟨y, _, rfl⟩ := List.mem_map.1 hr
      rfl
    · intro t ht; simp at ht; rw [← ht]; simp [hy]
    · intro r _ x _; rfl
  have hsize : c.size = xs.length := by rw [hcd]; simp [Curve.size, hy]
  have htt : c.t 0 = xs := by rw [hcd]; rfl
  obtain ⟨F, _, hF, _⟩ := C124_not_a_knot hc (by omega) (junk := 0) (by rw [htt]; exact ht) (by rw [hcd]; simp) hlib
    (show IsCubic lib 0 (builtinInterp lib 0) "cubic" from (builtin_names lib 0).2.2.2.2)
  obtain ⟨P, hC, h3, _⟩ := hF 0 (by rw [hcd]; simp)
  obtain ⟨h5, h6⟩ := h3 (by omega)
  rw [htt] at hC
  rw [hsize] at h6
  have hv : ∀ i, i < xs.length → at2 c.rows i 0 = ys.getD i 0 := by
    intro i hi
    rw [hcd]
    simp [at2, List.getD_eq_getElem?_getD, List.getElem?_eq_getElem (show i < ys.length by omega)]
  have hx : ∀ i, i + 1 < xs.length → knot xs i < knot xs (i + 1) := fun i hi => knot_lt ht (by omega) hi
  have hk : ∀ i, i < xs.length → xs[i]? = some (knot xs i) := fun i hi => knot_some hi
  classical
  obtain ⟨G, hG⟩ : ∃ G : ℝ → ℝ, G = fun z => if z < knot xs 0 then (P 0).eval z else if knot xs (xs.length - 1) < z then (P (xs.length - 2)).eval z
    else coordOf 0 (F z) := ⟨_, rfl⟩
  have mono : ∀ i j, i ≤ j → j < xs.length → knot xs i ≤ knot xs j := by
    intro i j hij hj
    rcases eq_or_lt_of_le hij with e | e
    · rw [e]
    · exact (knot_lt ht e hj).le
  have hin : ∀ i z, i + 1 < xs.length → knot xs i ≤ z → z ≤ knot xs (i + 1) → G z = (P i).eval z := by
    intro i z hi a b
    have a' := mono 0 i (by omega) (by omega)
    have b' := mono (i + 1) (xs.length - 1) (by omega) (by omega)
    rw [hG]
    simp only
    rw [if_neg (by linarith), if_neg (by linarith)]
    exact hC.piece i _ _ (hk i (by omega)) (hk (i + 1) hi) z a b
  refine ⟨G, P, ⟨hC.degree, ?_, ?_, ?_, hC.slope, hC.bend⟩, h5, h6, ?_⟩
  · intro i u v hu hv z a b
    obtain rfl := knot_eq hu
    obtain rfl := knot_eq hv
    exact hin i z (List.getElem?_eq_some_iff.1 hv).1 a b
  · intro i u hu hi
    rw [← hv i (by omega)]
    exact hC.left i u hu hi
  · intro i v hv'
    rw [← hv (i + 1) (List.getElem?_eq_some_iff.1 hv').1]
    exact hC.right i v hv'
  · intro i u v z ⟨hu, hv', a, b⟩
    have hi : i + 1 < xs.length := (List.getElem?_eq_some_iff.1 hv').1
    obtain rfl := knot_eq hu
    obtain rfl := knot_eq hv'
    by_cases z0 : z < knot xs 0
    · have : i = 0 := by
        by_contra h
        have := a.resolve_left h
        have := mono 0 i (by omega) (by omega)
        linarith
      rw [hG, this]
      simp only [if_pos z0]
    by_cases z1 : knot xs (xs.length - 1) < z
    · have : i + 2 = xs.length := by
        by_contra h
        have := b.resolve_left h
        have := mono (i + 1) (xs.length - 1) (by omega) (by omega)
        linarith
      rw [hG, show i = xs.length - 2 by omega]
      simp only [if_neg z0, if_pos z1]
    · refine hin i z hi (a.elim (fun h => by rw [h]; linarith) id) (b.elim (fun h => ?_) id)
      rw [show i + 1 = xs.length - 1 by omega]
      linarith

/-- Functions for the modes of extrapolation. -/
theorem extendedBy_exists (mode : OutMode) (xs : List ℝ) (F : ℝ → ℝ) : ∃ f, ExtendedBy mode xs F f := by
  classical
  refine ⟨fun v => match v with
    | .fin x => if WithinEnds xs x then .ok (.fin (F x)) else
      match mode with
      | .extrapolate => .ok (.fin (F x))
      | .zeros => .ok (.fin 0)
      | .raise => .error .valueError
      | .const => .ok (.fin (F (if x < xs.headD 0 then xs.headD 0 else xs.getLastD 0)))
    | v => .ok v, ?_, ?_⟩
  · intro x h; simp only [if_pos h]
  · intro x a b ha hb h
    have e1 : xs.headD 0 = a := by cases xs <;> simp_all
    have e2 : xs.getLastD 0 = b := by rw [List.getLastD_eq_getLast?, hb]; rfl
    cases mode <;> simp only [if_neg h, e1, e2]
    exact ⟨_, rfl⟩

theorem extIs_unique {e : ArgVal} {m m' : OutMode} (h : ExtIs e m) (h' : ExtIs e m') : m = m' := by
  cases m <;> cases m' <;> first | rfl | (exfalso; rcases h with rfl | rfl <;> rcases h' with h' | h' <;> simp at h')

/-- What a call of `UnivariateSpline` without smoothing may return. -/
def UniSpline (k e : ArgVal) (xs ys : List ℝ) (f : Val ℝ → Except PyErr (Val ℝ)) : Prop :=
  ∃ F mode, ExtIs e mode ∧ xs.Pairwise (· < ·) ∧
    (k = .int 1 ∧ 2 ≤ xs.length ∧ BrokenLine xs ys F ∨ k = .int 3 ∧ 4 ≤ xs.length ∧ CubicThrough xs ys F) ∧ ExtendedBy mode xs F f

/-- Libraries that meet the contract exist. -/
theorem exists_univariateOk : ∃ lib : SplineLib, UnivariateOk lib := by
  classical
  obtain ⟨lib0, _⟩ := exists_naturalOk
  refine ⟨{ lib0 with univariate := fun k _ _ e xs ys =>
    if h : ∃ f, UniSpline k e xs ys f then .ok h.choose else .error .valueError }, ?_, ?_, ?_⟩
  · intro s ws w e mode xs ys _ _ he ht hy h2
    obtain ⟨F, hF⟩ := brokenLine_exists (ys := ys) ht h2
    obtain ⟨f, hf⟩ := extendedBy_exists mode xs F
    have h : ∃ f, UniSpline (.int 1) e xs ys f := ⟨f, F, mode, he, ht, .inl ⟨rfl, h2, hF⟩, hf⟩
    obtain ⟨F', mode', h1, _, h3, h4⟩ := h.choose_spec
    obtain rfl := extIs_unique he h1
    refine ⟨_, F', dif_pos h, ?_, h4⟩
    rcases h3 with ⟨_, _, h3⟩ | ⟨h3, _⟩
    · exact h3
    · simp at h3
  · intro s ws w e mode xs ys _ _ he ht hy h4'
    obtain ⟨F, hF⟩ := cubicThrough_exists ht h4' hy
    obtain ⟨f, hf⟩ := extendedBy_exists mode xs F
    have h : ∃ f, UniSpline (.int 3) e xs ys f := ⟨f, F, mode, he, ht, .inr ⟨rfl, h4', hF⟩, hf⟩
    obtain ⟨F', mode', h1, _, h3, h4⟩ := h.choose_spec
    obtain rfl := extIs_unique he h1
    refine ⟨_, F', dif_pos h, ?_, h4⟩
    rcases h3 with ⟨h3, _⟩ | ⟨_, _, h3⟩
    · simp at h3
    · exact h3
  · intro k s ws w e mode xs ys hk _ _ he hy h
    refine ⟨_, dif_neg ?_⟩
    rintro ⟨f, F, mode', _, ht, h3, _⟩
    rcases h with h | h
    · rcases h3 with ⟨e1, e2, _⟩ | ⟨e1, e2, _⟩ <;> rcases hk with rfl | rfl <;> simp at e1 <;> omega
    · exact h ht

/-- Without keyword arguments the degree is 3, with extrapolation. -/
theorem splineArgs_default (n : Nat) : SplineArgs .none n 3 .extrapolate :=
  ⟨.real 0, .none, fun _ => 1, .int 0, ⟨by simp [InterpKw.none], by simp [InterpKw.none]⟩, .inr ⟨by simp [InterpKw.none], rfl⟩,
    .inr ⟨by simp [InterpKw.none], rfl⟩, .inr ⟨by simp [InterpKw.none], rfl⟩, .inr ⟨by simp [InterpKw.none], rfl⟩, .inl rfl, .inl ⟨rfl, fun _ _ => rfl⟩,
    .inl rfl⟩

example : SplineArgs ⟨[("extrapolate", .str "raise"), ("k", .int 1)]⟩ 5 1 .raise :=
  ⟨.real 0, .none, fun _ => 1, .str "raise", ⟨by simp, by simp⟩, .inl (by simp), .inr ⟨by simp, rfl⟩, .inr ⟨by simp, rfl⟩, .inl (by simp), .inl rfl,
    .inl ⟨rfl, fun _ _ => rfl⟩, .inr rfl⟩

theorem builtin_spline (lib : SplineLib) (junk : ℝ) : IsSpline lib junk (builtinInterp lib junk) "spline" := by
  have := (C108_methods lib junk []).2.2.2.2.2.2.1
  unfold regAfter at this
  rw [List.append_nil] at this
  exact this

/-- The points of the cubic parabola, by default. -/
example : ∃ lib, UnivariateOk lib ∧ ∃ F, ExtendedCall .extrapolate exCubic (exCubic.t 0) (fun g => exCubic.interpolate (builtinInterp lib 0) g "spline" .none) F ∧
    F 1 = [1, 1] ∧ F 4 = [4, 64] := by
  obtain ⟨lib, hlib⟩ := exists_univariateOk
  refine ⟨lib, hlib, ?_⟩
  obtain ⟨F, h1, h2, _⟩ := C129_cubic exCubic_WF (by simp [exCubic, Curve.size]) (junk := 0) (by simp [exCubic]) (builtin_spline lib 0)
    (by norm_num [exCubic, Curve.t]) (by simp [exCubic, Curve.size]) hlib (splineArgs_default _)
  refine ⟨F, h1, ?_, ?_⟩
  · have := h2 1 1 rfl
    simpa [exCubic] using this.symm
  · have := h2 3 4 rfl
    simpa [exCubic] using this.symm

end Verif.Props
