import Verif.Props.AccuracySmooth
import Mathlib.Analysis.Convex.Combination
import Mathlib.Analysis.Convex.Hull

/-!
C172: window smoothing, however often, and linear interpolation stay in the convex hull of the points.
-/
namespace Verif.Props

open Verif Verif.Np Verif.Model Verif.Spec

/-- The rows of coordinates as a set of points in `n` dimensions. -/
def pointSet (n : Nat) (rows : List (List ℝ)) : Set (EuclideanSpace ℝ (Fin n)) := {P | ∃ r ∈ rows, P = pt n r}

/-- Parameters of an averaging: a window of entries at least 0 and a positive sum, and a mode that repeats points of the curve. -/
structure Averaging (p : WinParams) : Prop where
  window : ∃ ws : List ℝ, makeWindow p.wtype p.size = .ok (.floats (fins ws)) ∧ (∀ x ∈ ws, 0 ≤ x) ∧ 0 < ws.sum
  cval : ∃ cv : ℝ, p.cval = .fin cv
  mode : p.mode = "reflect" ∨ p.mode = "mirror" ∨ p.mode = "nearest" ∨ p.mode = "wrap"

theorem Averaging.boundary {p : WinParams} (h : Averaging p) : BoundaryMode p.mode := by
  unfold BoundaryMode
  rcases h.mode with h | h | h | h <;> simp [h]

/-- Beyond the ends stand points of the curve. -/
theorem continued_point {mode : String} (hm : mode = "reflect" ∨ mode = "mirror" ∨ mode = "nearest" ∨ mode = "wrap") {n k : Nat} (hn : 0 < n) {cv : ℝ}
    {f : Nat → Nat → ℝ} {e : Nat → ℤ → ℝ} (he : ∀ j, j < k → Continues mode n cv (f j) (e j)) (s : ℤ) :
    ∃ q, q < n ∧ ∀ j, j < k → e j s = f j q := by
  obtain ⟨m, h1, h2⟩ : ∃ m, ExtMode.ofString mode = some m ∧ m ≠ .constant := by
    rcases hm with rfl | rfl | rfl | rfl <;> simp [ExtMode.ofString]
  obtain ⟨q, hq, hx⟩ := extIndex_lt h2 hn s
  refine ⟨q, hq, fun j hj => ?_⟩
  rw [continues_unique h1 hn (he j hj) s]
  unfold extVal
  rw [hx]

/-- One round, with all that the next round needs. -/
theorem round_hull {r : Reg SmoothFn} {name : String} (hf : getSmooth r name = .ok windowFn) {c : Curve ℝ} (hc : WF c) (hne : c.rows ≠ [])
    (hd : c.dtype = .float) {p : WinParams} (hp : Averaging p) :
    ∃ c', (finCurve c).smooth r name (.window p) = .ok (finCurve c') ∧ WF c' ∧ c'.size = c.size ∧ c'.ncols = c.ncols ∧ c'.dtype = .float ∧
      ∀ R ∈ c'.rows, pt c.ncols R ∈ convexHull ℝ (pointSet c.ncols c.rows) := by
  obtain ⟨ws, hw, hw0, hs⟩ := hp.window
  obtain ⟨cv, hcv⟩ := hp.cval
  have hn : 0 < c.size := List.length_pos_iff.2 hne
  choose e he using fun j => C100_continuation hp.boundary hn cv (fun q => at2 c.rows q j)
  obtain ⟨c', h1, hc', h2, h3, _, h5, h4⟩ := C100_window hf hc hne (by simp [hd]) hs.ne' hw hcv hp.boundary (e := e) (fun j _ => (he j).1)
  refine ⟨c', h1, hc', h2, h3, h5.trans hd, fun R hR => ?_⟩
  obtain ⟨i, hi, rfl⟩ := List.getElem_of_mem hR
  have hi' : i < c.size := h2 ▸ hi
  have key : pt c.ncols c'.rows[i] =
      ∑ k ∈ Finset.range ws.length, (ws.getD k 0 / ws.sum) • extVec c.ncols e (i + (ws.length / 2 : Nat) - k) := by
    ext j
    have := h4 i j hi' j.2
    rw [hd] at this
    have hcast : ∀ x : ℝ, DType.float.cast x = x := fun _ => rfl
    rw [hcast] at this
    rw [WithLp.ofLp_sum, Finset.sum_apply]
    refine Eq.trans ?_ this
    simp [pt, at2, hi]
  rw [key]
  refine (convex_convexHull ℝ _).sum_mem (fun k _ => win_weight hw0 hs k) (win_total hs) fun k _ => subset_convexHull ℝ _ ?_
  obtain ⟨q, hq, hx⟩ := continued_point hp.mode hn (k := c.ncols) (fun j _ => (he j).1) (i + (ws.length / 2 : Nat) - k)
  refine ⟨c.rows[q]'hq, List.getElem_mem _, ?_⟩
  ext j
  have hq' : q < c.rows.length := hq
  have := hx j j.2
  show e j _ = (c.rows[q]).getD j 0
  rw [this]
  simp [at2, hq']

/-- Window smoothing with several sets of parameters, one after the other. -/
noncomputable def smoothRounds (r : Reg SmoothFn) (name : String) (c : Curve (Val ℝ)) (ps : List WinParams) : Except PyErr (Curve (Val ℝ)) :=
  ps.foldlM (fun x p => x.smooth r name (.window p)) c

/-- **C172 (window).** Smoothing a float curve with averaging windows, any number of times and with any windows and repeating modes, succeeds, keeps the
number of points and the dimension, and every point of the result lies in the convex hull of the points of the given curve. -/
theorem C172_window {r : Reg SmoothFn} {name : String} (hf : getSmooth r name = .ok windowFn) (ps : List WinParams) :
    ∀ {c : Curve ℝ} (_ : WF c) (_ : c.rows ≠ []) (_ : c.dtype = .float) (_ : ∀ p ∈ ps, Averaging p),
    ∃ c', smoothRounds r name (finCurve c) ps = .ok (finCurve c') ∧ c'.size = c.size ∧ c'.ndim = c.ndim ∧
      ∀ R ∈ c'.rows, pt c.ndim R ∈ convexHull ℝ (pointSet c.ndim c.rows) := by
  induction ps with
  | nil =>
    intro c hc hne hd _
    exact ⟨c, rfl, rfl, rfl, fun R hR => subset_convexHull ℝ _ ⟨R, hR, rfl⟩⟩
  | cons p ps ih =>
    intro c hc hne hd hp
    obtain ⟨c1, h1, w1, s1, n1, d1, m1⟩ := round_hull hf hc hne hd (hp p (by simp))
    have hne1 : c1.rows ≠ [] := by
      intro h
      have : c1.size = 0 := by simp [Curve.size, h]
      exact hne (List.length_eq_zero_iff.1 (show c.size = 0 by omega))
    obtain ⟨c2, h2, s2, n2, m2⟩ := ih w1 hne1 d1 (fun q hq => hp q (by simp [hq]))
    have nn : c1.ndim = c.ndim := n1
    refine ⟨c2, ?_, s2.trans s1, n2.trans nn, fun R hR => ?_⟩
    · unfold smoothRounds
      rw [List.foldlM_cons, h1]
      exact h2
    · have := m2 R hR
      rw [nn] at this
      refine convexHull_min ?_ (convex_convexHull ℝ _) this
      rintro P ⟨Q, hQ, rfl⟩
      exact m1 Q hQ

/-- **C172 (convex regions).** If the points of the curve lie in a convex region, so do those of the result, after any number of rounds. -/
theorem C172_region {r : Reg SmoothFn} {name : String} (hf : getSmooth r name = .ok windowFn) {ps : List WinParams} {c : Curve ℝ} (hc : WF c)
    (hne : c.rows ≠ []) (hd : c.dtype = .float) (hp : ∀ p ∈ ps, Averaging p) {K : Set (EuclideanSpace ℝ (Fin c.ndim))} (hK : Convex ℝ K)
    (hin : ∀ R ∈ c.rows, pt c.ndim R ∈ K) :
    ∃ c', smoothRounds r name (finCurve c) ps = .ok (finCurve c') ∧ c'.size = c.size ∧ ∀ R ∈ c'.rows, pt c.ndim R ∈ K := by
  obtain ⟨c', h1, h2, _, h3⟩ := C172_window hf ps hc hne hd hp
  exact ⟨c', h1, h2, fun R hR => convexHull_min (by rintro P ⟨Q, hQ, rfl⟩; exact hin Q hQ) hK (h3 R hR)⟩

/-- **C172 (longest segment).** In the modes `reflect`, `mirror` and `nearest` no segment of the smoothed curve is longer than the longest one of the
given curve. -/
theorem C172_segments {r : Reg SmoothFn} {name : String} (hf : getSmooth r name = .ok windowFn) {c : Curve ℝ} (hc : WF c) (hne : c.rows ≠ [])
    (hd : c.dtype = .float) {p : WinParams} (hp : Averaging p) (hm : p.mode ≠ "wrap") {B : ℝ} (hB : 0 ≤ B)
    (hgap : ∀ i, i + 1 < c.size → gap c.ndim (c.rows.getD i []) (c.rows.getD (i + 1) []) ≤ B) :
    ∃ c', (finCurve c).smooth r name (.window p) = .ok (finCurve c') ∧ c'.size = c.size ∧ c'.ndim = c.ndim ∧
      ∀ i, i + 1 < c.size → gap c.ndim (c'.rows.getD i []) (c'.rows.getD (i + 1) []) ≤ B := by
  obtain ⟨ws, hw, hw0, hs⟩ := hp.window
  obtain ⟨cv, hcv⟩ := hp.cval
  have hn : 0 < c.size := List.length_pos_iff.2 hne
  obtain ⟨c', e, h1, h2, h3, he, hin, hout⟩ := window_vectors hf hc hne hd hs hw hcv hp.boundary
  refine ⟨c', h1, h2, h3, fun i hi => ?_⟩
  have hD := extSteps (m := c.ncols) (fun j _ => he j)
  have hall : ∀ s, dist (extVec c.ncols e s) (extVec c.ncols e (s + 1)) ≤ B := by
    intro s
    by_cases h1 : p.mode = "mirror" ∧ c.size = 1
    · omega
    · refine steps_bounded (D := fun i => dist (extVec c.ncols e i) (extVec c.ncols e (i + 1))) hn hD ?_ hB ?_ s
      · rcases hp.mode with h | h | h | h
        · exact .inl h
        · exact .inr (.inl ⟨h, fun h' => h1 ⟨h, h'⟩⟩)
        · exact .inr (.inr h)
        · exact absurd h hm
      · intro i h0 hi
        obtain ⟨q, rfl⟩ := Int.eq_ofNat_of_zero_le h0
        have := hgap q (by omega)
        unfold gap at this
        rw [show c.ndim = c.ncols from rfl, hin q (by omega), hin (q + 1) (by omega)] at this
        simpa using this
  have hw1 := win_total hs
  show dist (pt c.ncols _) (pt c.ncols _) ≤ _
  rw [hout i (by omega), hout (i + 1) hi]
  refine (dist_sum_sum_le _ _ _).trans ?_
  have : ∀ k ∈ Finset.range ws.length, dist ((ws.getD k 0 / ws.sum) • extVec c.ncols e (i + (ws.length / 2 : Nat) - k))
      ((ws.getD k 0 / ws.sum) • extVec c.ncols e ((i + 1 : Nat) + (ws.length / 2 : Nat) - k)) ≤ ws.getD k 0 / ws.sum * B := by
    intro k _
    rw [dist_smul₀, Real.norm_of_nonneg (win_weight hw0 hs k)]
    refine mul_le_mul_of_nonneg_left ?_ (win_weight hw0 hs k)
    have := hall (i + (ws.length / 2 : Nat) - k)
    rwa [show (i : ℤ) + (ws.length / 2 : Nat) - k + 1 = ((i + 1 : Nat) : ℤ) + (ws.length / 2 : Nat) - k by push_cast; ring] at this
  refine (Finset.sum_le_sum this).trans ?_
  rw [← Finset.sum_mul, hw1, one_mul]

/-- **C172 (linear interpolation).** Every point of a linear interpolation (dtypes that are not integer ones) at grid values within the range of the
parameter lies in the convex hull of the points. -/
theorem C172_linear {c : Curve ℝ} (hc : WF c) (hs : 2 ≤ c.size) {junk : ℝ} (ht : (c.t junk).Pairwise (· < ·))
    (hd : c.dtype ≠ .int) {r : InterpReg Bool} {m : String} (hr : IsLinear junk r m) (ex : Bool) {xs : List ℝ} (hne : xs ≠ [])
    (hx : StepsOver xs) {a b : ℝ} (ha : (c.t junk).head? = some a) (hb : (c.t junk).getLast? = some b)
    (hin : ∀ x ∈ xs, a ≤ x ∧ x ≤ b) :
    ∃ R c', c.interpolate r (.arr (.ok (GridArr.of (fins xs)))) m ex = .ok R ∧ Represents R c' ∧ c'.size = xs.length ∧
      ∀ P ∈ c'.rows, pt c.ndim P ∈ convexHull ℝ (pointSet c.ndim c.rows) := by
  obtain ⟨R, c', h1, h2, h3, _, _, _, h4⟩ := C64_between_partial hc hs ht hd hr ex hne hx ha hb (.inr hin)
  refine ⟨R, c', h1, h2, h3, fun P hP => ?_⟩
  obtain ⟨j, hj, rfl⟩ := List.getElem_of_mem hP
  have hj' : j < xs.length := h3 ▸ hj
  have hl : (c.t junk).length = c.rows.length := t_length hc (by intro h; simp [Curve.size, h] at hs) junk
  obtain ⟨i, u, v, e1, e2, e3, e4⟩ := exists_interval (c.t junk) a b xs[j] ha hb (by rw [hl]; exact hs) (hin _ (List.getElem_mem hj')).1
    (hin _ (List.getElem_mem hj')).2
  have i2 : i + 1 < c.rows.length := hl ▸ (List.getElem?_eq_some_iff.1 e2).1
  obtain ⟨s, s0, s1, _, e5⟩ := h4 j i _ u v _ _ (List.getElem?_eq_getElem hj') e1 e2 (List.getElem?_eq_getElem (by omega)) (List.getElem?_eq_getElem i2) e3 e4
  rw [List.getElem?_eq_getElem hj, Option.some.injEq] at e5
  have m1 : c.rows[i] ∈ c.rows := List.getElem_mem _
  have m2 : c.rows[i + 1] ∈ c.rows := List.getElem_mem _
  rw [e5, pt_mix (n := c.ndim) (hc.rect _ m1) (hc.rect _ m2)]
  have k1 : pt c.ndim c.rows[i] ∈ convexHull ℝ (pointSet c.ndim c.rows) := subset_convexHull ℝ _ ⟨_, m1, rfl⟩
  have k2 : pt c.ndim c.rows[i + 1] ∈ convexHull ℝ (pointSet c.ndim c.rows) := subset_convexHull ℝ _ ⟨_, m2, rfl⟩
  exact (convex_convexHull ℝ (pointSet c.ndim c.rows)).add_smul_sub_mem k1 k2 ⟨s0, s1⟩

/-- **C172 fails** in the mode `constant`: three equal points are moved apart. -/
theorem C172_constant_fails (f : SmoothFn) :
    ∃ c', (finCurve (onAxis [5, 5, 5])).smooth (smoothReg f) "window" (.window
        { size := 3, wtype := .callable fun _ => .ok (.floats (fins [1, 1, 1])), mode := "constant" }) = .ok (finCurve c') ∧
      ∃ R ∈ c'.rows, pt 2 R ∉ convexHull ℝ (pointSet 2 (onAxis [5, 5, 5]).rows) := by
  obtain ⟨c', h1, _, h3⟩ := (C122_lengthened f).2.2
  refine ⟨c', h1, ?_⟩
  by_contra hno
  push Not at hno
  have hset : pointSet 2 (onAxis [5, 5, 5]).rows = {pt 2 [5, 0]} := by
    ext P
    simp [pointSet, onAxis]
  have all : ∀ R ∈ c'.rows, pt 2 R = pt 2 [5, 0] := by
    intro R hR
    have := hno R hR
    rw [hset, convexHull_singleton] at this
    exact this
  have zero : ∀ l : List (List ℝ), (∀ R ∈ l, pt 2 R = pt 2 [5, 0]) → pathLen 2 l = 0 := by
    intro l
    induction l with
    | nil => intro _; rfl
    | cons x l ih =>
      intro h
      cases l with
      | nil => rfl
      | cons y l =>
        show gap 2 x y + pathLen 2 (y :: l) = 0
        rw [ih fun R hR => h R (List.mem_cons_of_mem _ hR)]
        unfold gap
        rw [h x (by simp), h y (by simp), dist_self, add_zero]
  rw [zero _ all] at h3
  norm_num at h3

/-! ## The hypotheses are met -/

/-- The default window of 5 points is an averaging. -/
theorem averaging_default : Averaging { size := (5 : Nat) } := by
  obtain ⟨ws, g1, g2, g3, _⟩ := hann_sym 5 (by norm_num) (by norm_num)
  exact ⟨⟨ws, g1, g2, g3⟩, ⟨0, rfl⟩, .inl rfl⟩

/-- C172: a thousand rounds with the default window leave four points of the unit disc in the unit disc. -/
example (f : SmoothFn) : ∃ c', smoothRounds (smoothReg f) "window" (finCurve (onAxis [0, 1, -1, 1 / 2])) (List.replicate 1000 { size := (5 : Nat) }) =
    .ok (finCurve c') ∧ c'.size = 4 ∧ ∀ R ∈ c'.rows, pt 2 R ∈ Metric.closedBall (0 : EuclideanSpace ℝ (Fin 2)) 1 := by
  refine C172_region (smoothReg_window f) (onAxis_WF _) (by simp [onAxis]) rfl (fun p hp => ?_) (convex_closedBall 0 1) ?_
  · rw [List.eq_of_mem_replicate hp]
    exact averaging_default
  · intro R hR
    simp only [onAxis, List.map_cons, List.map_nil, List.mem_cons, List.not_mem_nil, or_false] at hR
    show pt 2 R ∈ Metric.closedBall (0 : EuclideanSpace ℝ (Fin 2)) 1
    rw [mem_closedBall_zero_iff, EuclideanSpace.norm_eq, Real.sqrt_le_one, Fin.sum_univ_two]
    rcases hR with rfl | rfl | rfl | rfl <;> norm_num [pt]

/-- C172: two points of a linear interpolation lie in the triangle. -/
example : ∃ R c', exTri.interpolate (linearReg 0) (.arr (.ok (GridArr.of (fins [1 / 2, 2])))) "linear" false = .ok R ∧ Represents R c' ∧ c'.size = 2 ∧
    ∀ P ∈ c'.rows, pt 2 P ∈ convexHull ℝ (pointSet 2 [[0, 0], [3, 0], [3, 4]]) := by
  have hso : StepsOver [1 / 2, 2] := by
    intro i x y hx hy
    match i with
    | 0 => simp at hx hy; subst hx hy; norm_num
    | (k + 1) => simp at hy
  exact C172_linear exTri_WF (by simp [exTri, Curve.size]) (stepsOver_lt exTri_steps) (by simp [exTri]) (isLinear_linearReg 0) false (xs := [1 / 2, 2])
    (by simp) hso (a := 0) (b := 3) rfl rfl (by intro x hx; simp at hx; rcases hx with rfl | rfl <;> norm_num)

end Verif.Props
