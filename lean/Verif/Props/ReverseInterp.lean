import Verif.Spec.Backwards
import Verif.Lemmas.ReverseSpline
import Verif.Props.SplineShape
import Verif.Props.AffineInterp

/-!
C103: interpolation of curves run through backwards.
-/
namespace Verif.Props

open Verif Verif.Np Verif.Model Verif.Spec

section
variable {L : ℝ} {c c' : Curve ℝ} (hc : WF c) (hc' : WF c') (hs : 2 ≤ c.size) {junk : ℝ} (hB : Backwards L c c' (c.t junk) (c'.t junk))
include hc hc' hs hB

theorem back_knot {i : Nat} (hi : i < c.size) : knot (c'.t junk) i = L - knot (c.t junk) (c.size - 1 - i) := by
  have hl := t_length hc (rows_ne_of_size hs) junk
  exact knot_eq (hB.times i _ hi (knot_some (by rw [hl]; show c.size - 1 - i < c.size; omega)))

theorem back_size : c'.size = c.size ∧ 2 ≤ c'.size ∧ (c'.t junk).length = c.size := by
  have h : c'.size = c.size := hB.size
  exact ⟨h, by omega, by rw [t_length hc' (rows_ne_of_size (show 2 ≤ c'.size by omega)) junk, h]⟩

theorem back_lt (ht : (c.t junk).Pairwise (· < ·)) : (c'.t junk).Pairwise (· < ·) := by
  obtain ⟨h1, h2, h3⟩ := back_size hc hc' hs hB
  have hl := t_length hc (rows_ne_of_size hs) junk
  rw [List.pairwise_iff_getElem]
  intro i j hi hj hij
  have e : ∀ k (hk : k < (c'.t junk).length), (c'.t junk)[k] = L - knot (c.t junk) (c.size - 1 - k) := by
    intro k hk
    rw [← back_knot hc hc' hs hB (by omega)]
    exact (knot_eq (List.getElem?_eq_getElem hk)).symm
  rw [e i hi, e j hj]
  have := knot_lt ht (i := c.size - 1 - j) (j := c.size - 1 - i) (by omega) (by omega)
  linarith

theorem back_within {x : ℝ} (h : WithinEnds (c.t junk) (L - x)) : WithinEnds (c'.t junk) x := by
  obtain ⟨h1, h2, h3⟩ := back_size hc hc' hs hB
  have hl := t_length hc (rows_ne_of_size hs) junk
  constructor
  · intro a ha
    rw [List.head?_eq_getElem?] at ha
    have e := back_knot hc hc' hs hB (i := 0) (by omega)
    rw [knot_eq ha] at e
    have := h.2 (knot (c.t junk) (c.size - 1 - 0)) (by rw [List.getLast?_eq_getElem?, hl]; exact knot_some (by omega))
    linarith
  · intro a ha
    rw [List.getLast?_eq_getElem?, h3] at ha
    have e := back_knot hc hc' hs hB (i := c.size - 1) (by omega)
    rw [knot_eq ha, show c.size - 1 - (c.size - 1) = 0 by omega] at e
    have := h.1 (knot (c.t junk) 0) (by rw [List.head?_eq_getElem?]; exact knot_some (by omega))
    linarith

theorem back_mat {i j : Nat} (hi : i < c.size) (hj : j < c.ncols) : c'.mat.v i j = c.mat.v (c.size - 1 - i) j := by
  rw [mat_v, mat_v]; exact hB.pts i j hi hj

/-- The unit tangents are turned round. -/
theorem back_frenet1 {i j : Nat} (hi : i < c.size) (hj : j < c.ncols) : (frenet1 c').v i j = - (frenet1 c).v (c.size - 1 - i) j := by
  obtain ⟨h1, h2, h3⟩ := back_size hc hc' hs hB
  have k := firstderiv_k hs
  have k' := firstderiv_k h2
  have m1 := (shapes_m c).1
  have m1' := (shapes_m c').1
  have ev : ∀ i j, i < c.size → j < c.ncols → (firstderiv c').v i j = - (firstderiv c).v (c.size - 1 - i) j := by
    intro i j hi hj
    rw [← at2_lt _ (by omega) (by rw [k', hB.ncols]; exact hj), ← at2_lt _ (by omega) (by rw [k]; exact hj),
      firstderiv_at2 hc' h2 j (by omega), firstderiv_at2 hc hs j (by omega), h1, ← grad1_reverse (fun l => at2 c.rows l j) hi]
    exact grad1_congr (fun l hl => hB.pts l j hl hj) hi
  show (firstderiv c').v i j / frenetNorm (firstderiv c') i = - ((firstderiv c).v (c.size - 1 - i) j / frenetNorm (firstderiv c) (c.size - 1 - i))
  have : rowNorm (firstderiv c') i = rowNorm (firstderiv c) (c.size - 1 - i) := by
    unfold rowNorm
    rw [k, k', hB.ncols]
    congr 1
    apply Finset.sum_congr rfl
    intro l hl'
    rw [ev i l hi (Finset.mem_range.1 hl'), neg_sq]
  unfold frenetNorm
  rw [this, ev i j hi hj, neg_div]

/-- The threshold of `akima` is the same. -/
theorem back_akimaTop (h3 : 3 ≤ c.size) : akimaTop (c'.t junk) c'.mat = akimaTop (c.t junk) c.mat := by
  obtain ⟨e1, e2, e3⟩ := back_size hc hc' hs hB
  have hl := t_length hc (rows_ne_of_size hs) junk
  unfold akimaTop
  rw [e3, hl]
  apply foldl_max_congr
  have hk : c'.mat.k = c.mat.k := hB.ncols
  rw [hk]
  have key : ∀ j, j < c.mat.k → ∀ i, i < c.size → akimaF12 (akimaM c.size (fun i => (c'.t junk).getD i 0) fun i => c'.mat.v i j) i =
      akimaF12 (akimaM c.size (fun i => (c.t junk).getD i 0) fun i => c.mat.v i j) (c.size - 1 - i) := by
    intro j hj i hi
    exact akimaF12_reverse (x := fun i => (c.t junk).getD i 0) (x' := fun i => (c'.t junk).getD i 0) (y := fun i => c.mat.v i j)
      (y' := fun i => c'.mat.v i j) (L := L) (fun l hl => back_knot hc hc' hs hB hl)
      (fun l hl => back_mat hc hc' hs hB hl (show j < c.ncols from hj)) h3 hi
  intro a
  simp only [List.mem_flatMap, List.mem_map, List.mem_range]
  constructor
  · rintro ⟨j, hj, i, hi, rfl⟩
    exact ⟨j, hj, c.size - 1 - i, by omega, (key j hj i hi).symm⟩
  · rintro ⟨j, hj, i, hi, rfl⟩
    refine ⟨j, hj, c.size - 1 - i, by omega, ?_⟩
    rw [key j hj _ (by omega), show c.size - 1 - (c.size - 1 - i) = i by omega]

/-- **C103 (splines).** The same points backwards at mirrored parameter values: `hermite`, `pchip`, natural `cubic` and (for three or more
points, in the range) `akima` give the same points at mirrored grid values. (Dtypes that are not integer ones.) -/
theorem C103_splines (ht : (c.t junk).Pairwise (· < ·)) (hd : c.dtype ≠ .int) {lib : SplineLib} {r : KwReg} {m : String} {dom : ℝ → Prop}
    (hm : IsHermite junk r m ∨ IsPchip junk r m ∨ NaturalOk lib ∧ IsCubic lib junk r m ∨
      3 ≤ c.size ∧ IsAkima lib junk r m ∧ ∀ x, dom x → WithinEnds (c.t junk) x) :
    ∃ F F', EvaluatesTo c (fun g => c.interpolate r g m .none) dom F ∧
      EvaluatesTo c' (fun g => c'.interpolate r g m .none) (fun x => dom (L - x)) F' ∧ ∀ x, F' x = F (L - x) := by
  obtain ⟨e1, e2, e3⟩ := back_size hc hc' hs hB
  have hl := t_length hc (rows_ne_of_size hs) junk
  have ht' := back_lt hc hc' hs hB ht
  have hd' : c'.dtype ≠ .int := by rw [hB.dtype]; exact hd
  have kn : ∀ i, i < c.size → knot (c'.t junk) i = L - knot (c.t junk) (c.size - 1 - i) := fun i hi => back_knot hc hc' hs hB hi
  have ym : ∀ j, j < c.ncols → ∀ i, i < c.size → c'.mat.v i j = c.mat.v (c.size - 1 - i) j := fun j hj i hi => back_mat hc hc' hs hB hi hj
  have key : ∀ {cons : Curve ℝ → InterpKw → Except PyErr InterpImpl} {q q' : PPoly}, getInterpClass r m = .ok (interpClass junk cons) →
      cons c .none = .ok q.impl → cons c' .none = .ok q'.impl → q.xs = c.t junk → q'.xs = c'.t junk → q.y = c.mat → q'.y = c'.mat →
      (q.ex = .yes ∨ q.ex = .no ∧ ∀ x, dom x → WithinEnds (c.t junk) x) → q'.ex = q.ex →
      (∀ i j, i < c.size → j < c.ncols → q'.d.v i j = - q.d.v (c.size - 1 - i) j) →
      ∃ F F', EvaluatesTo c (fun g => c.interpolate r g m .none) dom F ∧
        EvaluatesTo c' (fun g => c'.interpolate r g m .none) (fun x => dom (L - x)) F' ∧ ∀ x, F' x = F (L - x) := by
    intro cons q q' hr hq hq' hx hx' hy hy' hex hex' hslope
    refine ⟨_, _, spline_eval hc hs ht hd hr hq hx hy hex, spline_eval hc' e2 ht' hd' hr hq' hx' hy' ?_, ?_⟩
    · rw [hex']
      rcases hex with h | ⟨h, h'⟩
      · exact .inl h
      · exact .inr ⟨h, fun x hx => back_within hc hc' hs hB (h' _ hx)⟩
    · intro x
      have k1 : q.y.k = c.ncols := by rw [hy]; rfl
      have k2 : q'.y.k = c.ncols := by rw [hy']; exact hB.ncols
      unfold PPoly.row
      rw [k1, k2]
      apply List.map_congr_left
      intro j hj
      have hj' := List.mem_range.1 hj
      apply PPoly.coord_reverse (n := c.size) (L := L) (by rw [hx, hl]) (by rw [hx', e3]) hs (by rw [hx]; exact ht) (by rw [hx']; exact ht')
      · intro i hi; rw [hx, hx']; exact kn i hi
      · intro i hi; rw [hy, hy']; exact ym j hj' i hi
      · intro i hi; exact hslope i j hi hj'
  have xlt : ∀ i, i + 1 < c.size → (c.t junk).getD i 0 < (c.t junk).getD (i + 1) 0 :=
    fun i hi => knot_lt ht (show i < i + 1 by omega) (by omega)
  rcases hm with hr | hr | ⟨hlib, hr⟩ | ⟨h3, hr, hdom⟩
  · refine key hr (hermite_cons hc hs ht .yes rfl) (hermite_cons hc' e2 ht' .yes rfl) rfl rfl rfl rfl (.inl rfl) rfl ?_
    intro i j hi hj
    exact back_frenet1 hc hc' hs hB hi hj
  · refine key hr (pchip_cons hc hs ht .yes rfl) (pchip_cons hc' e2 ht' .yes rfl) rfl rfl rfl rfl (.inl rfl) rfl ?_
    intro i j hi hj
    simp only [pchipSlopes_v]
    rw [e3, hl]
    exact pchipSlope_reverse kn (ym j hj) hs hi
  · obtain ⟨d, hsol, hnat⟩ := hlib (c.t junk) c.mat (knotsOk_curve hc hs ht)
    obtain ⟨d', hsol', hnat'⟩ := hlib (c'.t junk) c'.mat (knotsOk_curve hc' e2 ht')
    refine key hr (cubic_default hc hs ht lib hsol) (cubic_default hc' e2 ht' lib hsol') rfl rfl rfl rfl (.inl rfl) rfl ?_
    intro i j hi hj
    have n1 := hnat j hj
    have n2 := hnat' j (show j < c'.ncols by rw [hB.ncols]; exact hj)
    rw [e3] at n2
    rw [hl] at n1
    exact natural_reverse kn (ym j hj) hs xlt n1 n2 hi
  · have a1 := akima_cons hc hs ht lib
    have a2 := akima_cons hc' e2 ht' lib
    rw [if_neg (by omega)] at a1 a2
    refine key hr a1 a2 rfl rfl rfl rfl (.inr ⟨rfl, hdom⟩) rfl ?_
    intro i j hi hj
    simp only [akimaSlopes_v]
    rw [back_akimaTop hc hc' hs hB h3, e3, hl]
    exact akimaSlope_reverse kn (ym j hj) h3 _ hi

/-- **C103 (linear).** The same points backwards at mirrored parameter values: linear interpolation gives the same points at mirrored
grid values, in the range of the parameter, and with extrapolation everywhere. (Dtypes that are not integer ones.) -/
theorem C103_linear (ht : (c.t junk).Pairwise (· < ·)) (hd : c.dtype ≠ .int) {r : InterpReg Bool} {m : String} (hr : IsLinear junk r m) (ex : Bool) :
    ∃ F F', EvaluatesTo c (fun g => c.interpolate r g m ex) (fun x => ex = true ∨ WithinEnds (c.t junk) x) F ∧
      EvaluatesTo c' (fun g => c'.interpolate r g m ex) (fun x => ex = true ∨ WithinEnds (c.t junk) (L - x)) F' ∧ ∀ x, F' x = F (L - x) := by
  obtain ⟨e1, e2, e3⟩ := back_size hc hc' hs hB
  have hl := t_length hc (rows_ne_of_size hs) junk
  have ht' := back_lt hc hc' hs hB ht
  have hd' : c'.dtype ≠ .int := by rw [hB.dtype]; exact hd
  have ev : ∀ {e : Curve ℝ} {dom : ℝ → Prop}, WF e → 2 ≤ e.size → (e.t junk).Pairwise (· < ·) → e.dtype ≠ .int →
      (∀ x, dom x → WithinEnds (e.t junk) x) →
      EvaluatesTo e (fun g => e.interpolate r g m ex) (fun x => ex = true ∨ dom x) (rowAt ((e.t junk).zip e.rows)) := by
    intro e dom he hes het hed ett xs hne hx hdom
    obtain ⟨w, hg⟩ := getGrid_fins junk e xs hne hx
    obtain ⟨h1, h2⟩ := t_ends he (rows_ne_of_size hes) junk
    refine linear_repr he hes het hed hr ex hne hg h1 h2 ?_
    cases ex with
    | true => exact .inl rfl
    | false =>
      right
      intro x hx
      have := ett x ((hdom x hx).resolve_left (by simp))
      exact ⟨this.1 _ h1, this.2 _ h2⟩
  refine ⟨_, _, ev hc hs ht hd (fun x hx => hx), ev hc' e2 ht' hd' (fun x hx => back_within hc hc' hs hB hx), ?_⟩
  intro x
  obtain ⟨i, u, v, p, q, h1, h2, h3, h4, h5, h6⟩ := exists_pair hc hs ht (L - x)
  have hi : i + 1 < c.size := (List.getElem?_eq_some_iff.1 h4).1
  have hsz : c'.rows.length = c.size := hB.size
  have row' : ∀ {k : Nat} {p : List ℝ}, c.rows[k]? = some p → c'.rows[c.size - 1 - k]? = some p := by
    intro k p hk
    have hk' : k < c.size := (List.getElem?_eq_some_iff.1 hk).1
    obtain ⟨p', hp'⟩ : ∃ p', c'.rows[c.size - 1 - k]? = some p' := ⟨_, List.getElem?_eq_getElem (by omega)⟩
    rw [hp']
    have r1 := hc.rect p (List.mem_of_getElem? hk)
    have r2 := hc'.rect p' (List.mem_of_getElem? hp')
    have r3 := hB.ncols
    congr 1
    apply List.ext_getElem (by omega)
    intro j hj1 hj2
    have := hB.pts (c.size - 1 - k) j (show _ < c.size by omega) (by omega)
    rw [show c.rows.length - 1 - (c.size - 1 - k) = k by show c.size - 1 - _ = k; omega] at this
    unfold at2 at this
    rw [List.getD_eq_getElem?_getD (l := c.rows), List.getD_eq_getElem?_getD (l := c'.rows), hk, hp'] at this
    simpa [List.getD_eq_getElem?_getD, List.getElem?_eq_getElem hj1, List.getElem?_eq_getElem hj2] using this
  have tim' : ∀ {k : Nat} {a : ℝ}, (c.t junk)[k]? = some a → (c'.t junk)[c.size - 1 - k]? = some (L - a) := by
    intro k a hk
    have hk' : k < c.size := by rw [← hl]; exact (List.getElem?_eq_some_iff.1 hk).1
    refine hB.times (c.size - 1 - k) a (show _ < c.size by omega) ?_
    rw [show c.rows.length - 1 - (c.size - 1 - k) = k by show c.size - 1 - _ = k; omega]
    exact hk
  have g1 := tim' h1
  have g2 := tim' h2
  have g3 := row' h3
  have g4 := row' h4
  rw [show c.size - 1 - i = c.size - 1 - (i + 1) + 1 by omega] at g1 g3
  have huv : u < v := by
    have := knot_lt ht (show i < i + 1 by omega) (by omega)
    rwa [knot_eq h1, knot_eq h2] at this
  rw [rowAt_pair hc hs ht (L - x) i u v p q h1 h2 h3 h4 h5 h6, rowAt_pair hc' e2 ht' x (c.size - 1 - (i + 1)) (L - v) (L - u) q p g2 g1 g4 g3
    (by rcases h6 with h | h
        · left; omega
        · right; linarith)
    (by rcases h5 with h | h
        · left; omega
        · right; linarith)]
  have n0 : v - u ≠ 0 := by linarith
  have r1 := hc.rect p (List.mem_of_getElem? h3)
  have r2 := hc.rect q (List.mem_of_getElem? h4)
  have r3 : (x - (L - v)) / (L - u - (L - v)) = 1 - (L - x - u) / (v - u) := by
    rw [show L - u - (L - v) = v - u by ring]
    field_simp
    ring
  rw [r3]
  generalize (L - x - u) / (v - u) = s
  unfold mix
  apply List.ext_getElem (by simp [r1, r2])
  intro j hj1 hj2
  simp only [List.getElem_zipWith]
  ring

end

/-- A curve without parameter values, reversed, runs backwards; its parameter is mirrored at the arc length. -/
theorem reverse_backwards {c c' : Curve ℝ} (hc : WF c) (hs : 2 ≤ c.size) (hp : c.tdata = none) (hr : c.reverse = .ok c') (junk : ℝ) :
    Backwards (arclen junk c) c c' (c.t junk) (c'.t junk) := by
  have hne := rows_ne_of_size hs
  have h := reverse_eq hc
  rw [if_neg hne, hr] at h
  injection h with h
  have hrect' : ∀ r ∈ c'.rows, r.length = c'.ncols := by subst h; intro r hr'; exact hc.rect r (by simpa using hr')
  refine ⟨by rw [h]; simp, by rw [h], by rw [h], ?_, ?_⟩
  · intro i j hi hj
    rw [h]
    unfold at2
    rw [List.getD_eq_getElem?_getD (l := List.reverse _), List.getElem?_reverse hi, ← List.getD_eq_getElem?_getD (l := c.rows)]
  · intro i x hi hx
    have hp' : c'.tdata = none := by rw [h]; simp [hp]
    have hl' : c'.rows.length = c.rows.length := by rw [h]; simp
    unfold Curve.t at hx ⊢
    rw [hp] at hx
    rw [hp']
    simp only at hx ⊢
    rw [cumarclen_get hc.rect junk _ (by omega)] at hx
    rw [cumarclen_get hrect' junk i (by omega)]
    injection hx with hx
    rw [← hx]
    congr 1
    rw [arclen_eq hc.rect hne, pathLen_split c.ncols c.rows (c.rows.length - 1 - i)]
    have : c'.rows.take (i + 1) = (c.rows.drop (c.rows.length - 1 - i)).reverse := by
      rw [h]
      simp only
      rw [List.take_reverse]
      congr 2
      omega
    rw [this, pathLen_reverse, show c'.ncols = c.ncols by rw [h]]
    ring

/-- **C103 (reversed curves).** For a curve of at least two points without parameter values: the reversed curve interpolated by a spline
at `x` gives the point of the curve at (arc length `- x`). -/
theorem C103_reverse_partial {c c' : Curve ℝ} (hc : WF c) (hs : 2 ≤ c.size) (hp : c.tdata = none) (hrev : c.reverse = .ok c') {junk : ℝ}
    (ht : (c.t junk).Pairwise (· < ·)) (hd : c.dtype ≠ .int) {lib : SplineLib} {r : KwReg} {m : String} {dom : ℝ → Prop}
    (hm : IsHermite junk r m ∨ IsPchip junk r m ∨ NaturalOk lib ∧ IsCubic lib junk r m ∨
      3 ≤ c.size ∧ IsAkima lib junk r m ∧ ∀ x, dom x → WithinEnds (c.t junk) x) :
    ∃ F F', EvaluatesTo c (fun g => c.interpolate r g m .none) dom F ∧
      EvaluatesTo c' (fun g => c'.interpolate r g m .none) (fun x => dom (arclen junk c - x)) F' ∧ ∀ x, F' x = F (arclen junk c - x) :=
  C103_splines hc (reverse_WF hrev) hs (reverse_backwards hc hs hp hrev junk) ht hd hm

/-- **C103 (reversed curves, linear).** The same for linear interpolation. Missing in both: curves with parameter values, see
`C103_parametric_fails` and `C103_sorted_fails`. -/
theorem C103_reverse_linear_partial {c c' : Curve ℝ} (hc : WF c) (hs : 2 ≤ c.size) (hp : c.tdata = none) (hrev : c.reverse = .ok c') {junk : ℝ}
    (ht : (c.t junk).Pairwise (· < ·)) (hd : c.dtype ≠ .int) {r : InterpReg Bool} {m : String} (hr : IsLinear junk r m) (ex : Bool) :
    ∃ F F', EvaluatesTo c (fun g => c.interpolate r g m ex) (fun x => ex = true ∨ WithinEnds (c.t junk) x) F ∧
      EvaluatesTo c' (fun g => c'.interpolate r g m ex) (fun x => ex = true ∨ WithinEnds (c.t junk) (arclen junk c - x)) F' ∧
      ∀ x, F' x = F (arclen junk c - x) :=
  C103_linear hc (reverse_WF hrev) hs (reverse_backwards hc hs hp hrev junk) ht hd hr ex

/-- The reverse of a parametric curve. -/
theorem reverse_parametric {c c' : Curve ℝ} (hc : WF c) (hs : 2 ≤ c.size) {t : List ℝ} (hp : c.tdata = some t) (hrev : c.reverse = .ok c') :
    c' = ⟨c.rows.reverse, c.ncols, some t.reverse, c.dtype⟩ := by
  have h := reverse_eq hc
  rw [if_neg (rows_ne_of_size hs), hrev, hp] at h
  injection h

/-- **C103 fails for curves with parameter values (splines).** The parameter values of the reversed curve decrease, and every spline
method rejects it, whatever the grid. -/
theorem C103_parametric_fails {c c' : Curve ℝ} (hc : WF c) (hs : 2 ≤ c.size) {t : List ℝ} (hp : c.tdata = some t) (hrev : c.reverse = .ok c')
    (ht : t.Pairwise (· < ·)) {junk : ℝ} {lib : SplineLib} {r : KwReg} {m : String}
    (hm : IsHermite junk r m ∨ IsPchip junk r m ∨ IsCubic lib junk r m ∨ IsAkima lib junk r m) (g : GridSpec) :
    c'.interpolate r g m .none = .error .interpolationError := by
  have h := reverse_parametric hc hs hp hrev
  have hlt := hc.tlen t hp
  have hbad : ∀ k, knotsOk (c'.t junk) k = false := by
    intro k
    rw [Bool.eq_false_iff]
    intro hk
    rw [knotsOk_iff] at hk
    have e : c'.t junk = t.reverse := by rw [h]; rfl
    rw [e] at hk
    obtain ⟨h1, _, h3⟩ := hk
    rw [List.pairwise_reverse] at h3
    rw [List.length_reverse] at h1
    rw [List.pairwise_iff_getElem] at ht h3
    exact absurd (ht 0 1 (by omega) (by omega) (by omega)) (not_lt.2 (h3 0 1 (by omega) (by omega) (by omega)).le)
  have fin : ∀ {cons : Curve ℝ → InterpKw → Except PyErr InterpImpl}, getInterpClass r m = .ok (interpClass junk cons) →
      cons c' .none = .error .valueError → c'.interpolate r g m .none = .error .interpolationError := by
    intro cons h1 h2
    refine (C66_method_errors r m c' g .none).2.1 _ .valueError h1 ?_
    simp [interpClass, h2, bind, Except.bind]
  rcases hm with hr | hr | hr | hr
  · refine fin hr ?_
    simp [InterpKw.none, InterpKw.only, InterpKw.getD, ArgVal.extrap, withKw, pickHermite, hermiteCons, cubicHermite, hbad, bind, Except.bind]
  · refine fin hr ?_
    simp [InterpKw.none, InterpKw.only, InterpKw.getD, ArgVal.extrap, withKw, pickPchip, pchipCons, cubicHermite, hbad, bind, Except.bind]
  · refine fin hr ?_
    simp [InterpKw.none, InterpKw.only, InterpKw.getD, ArgVal.extrap, withKw, pickCubic, cubicCons, hbad, bind, Except.bind]
  · refine fin hr ?_
    simp [InterpKw.none, InterpKw.only, InterpKw.getD, ArgVal.extrap, withKw, pickAkima, akimaCons, cubicHermite, hbad, bind, Except.bind]

/-- Sorting the reversed nodes gives the nodes. -/
theorem interp1dInit_reverse {t : List ℝ} {rows : List (List ℝ)} (hl : t.length = rows.length) (ht : t.Pairwise (· < ·)) :
    interp1dInit t.reverse rows.reverse = interp1dInit t rows := by
  unfold interp1dInit
  simp only [List.length_reverse]
  congr 2
  have hz : t.reverse.zip rows.reverse = (t.zip rows).reverse := by
    simp only [List.zip]
    exact (List.reverse_zipWith hl).symm
  rw [hz]
  have hpw : (t.zip rows).Pairwise (fun a b => a.1 < b.1) := by
    rw [List.pairwise_iff_getElem] at ht ⊢
    intro i j hi hj hij
    simp only [List.length_zip] at hi hj
    simpa using ht i j (by omega) (by omega) hij
  have hle : (t.zip rows).Pairwise (fun a b => decide (a.1 ≤ b.1) = true) := hpw.imp (by intro a b h; simpa using h.le)
  rw [List.mergeSort_of_pairwise hle]
  have htr : ∀ a b e : ℝ × List ℝ, decide (a.1 ≤ b.1) = true → decide (b.1 ≤ e.1) = true → decide (a.1 ≤ e.1) = true := by
    intro a b e h1 h2
    simp only [decide_eq_true_eq] at *
    exact h1.trans h2
  have htot : ∀ a b : ℝ × List ℝ, (decide (a.1 ≤ b.1) || decide (b.1 ≤ a.1)) = true := by
    intro a b
    simp only [Bool.or_eq_true, decide_eq_true_eq]
    exact le_total _ _
  have hperm : ((t.zip rows).reverse.mergeSort fun a b => decide (a.1 ≤ b.1)).Perm (t.zip rows) :=
    (List.mergeSort_perm _ _).trans (List.reverse_perm _)
  congr 1
  refine hperm.eq_of_pairwise ?_ (List.pairwise_mergeSort htr htot _) hle
  intro a b ha hb h1 h2
  have hb' : b ∈ t.zip rows := hb
  have ha' : a ∈ t.zip rows := hperm.mem_iff.1 ha
  simp only [decide_eq_true_eq] at h1 h2
  obtain ⟨i, hi, rfl⟩ := List.getElem_of_mem ha'
  obtain ⟨j, hj, rfl⟩ := List.getElem_of_mem hb'
  rw [List.pairwise_iff_getElem] at hpw
  rcases lt_trichotomy i j with h | h | h
  · exact absurd h2 (not_le.2 (hpw i j hi hj h))
  · subst h; rfl
  · exact absurd h1 (not_le.2 (hpw j i hj hi h))

/-- **C103 fails for curves with parameter values (linear).** `interp1d` sorts its nodes: the reversed curve gives on every accepted grid
array the same points, in the same order, as the curve itself. The reversal is lost. -/
theorem C103_sorted_fails {c c' : Curve ℝ} (hc : WF c) (hs : 2 ≤ c.size) {t : List ℝ} (hp : c.tdata = some t) (hrev : c.reverse = .ok c')
    (ht : t.Pairwise (· < ·)) {junk : ℝ} {r : InterpReg Bool} {m : String} (hr : IsLinear junk r m) (ex : Bool) {xs : List ℝ} (hne : xs ≠ [])
    (hx : StepsOver xs) :
    c'.interpolate r (.arr (.ok (GridArr.of (fins xs)))) m ex = c.interpolate r (.arr (.ok (GridArr.of (fins xs)))) m ex := by
  have h := reverse_parametric hc hs hp hrev
  have hlt := hc.tlen t hp
  have e : c.t junk = t := by unfold Curve.t; rw [hp]
  have e' : c'.t junk = t.reverse := by rw [h]; rfl
  have hsz : c'.size = c.size := by rw [h]; simp [Curve.size]
  have h1 : linearCons junk c' ex = linearCons junk c ex := by
    unfold linearCons
    rw [e, e', show c'.rows = c.rows.reverse by rw [h], show c'.ncols = c.ncols by rw [h], interp1dInit_reverse hlt ht]
  obtain ⟨w, g⟩ := getGrid_fins junk c xs hne hx
  obtain ⟨w', g'⟩ := getGrid_fins junk c' xs hne hx
  have hok := linear_cons hc hs (junk := junk) (by rw [e]; exact ht) ex
  rw [interpolate_impl hr c' _ ex (h1.trans hok), interpolate_impl hr c _ ex hok]
  unfold interpolatorCall
  rw [hsz, g, g', if_neg (by omega), if_neg (by omega), if_neg (by omega), if_neg (by omega)]
  have : c'.isparametric = c.isparametric := by unfold Curve.isparametric; rw [h, hp]; rfl
  simp only [bind, Except.bind, this]
  rw [show c'.dtype = c.dtype by rw [h]]

/-! ## Instances -/

/-- Three points at arc lengths 0, 3, 7. -/
def exRight : Curve ℝ := ⟨[[0, 0], [3, 0], [3, 4]], 2, none, .float⟩

theorem exRight_WF : WF exRight where
  two_le := by simp [exRight]
  rect := by simp [exRight]
  tlen := by simp [exRight]
  repr := by intro r _ x _; rfl

theorem exRight_reverse : exRight.reverse = .ok ⟨[[3, 4], [3, 0], [0, 0]], 2, none, .float⟩ := by
  rw [reverse_eq exRight_WF]
  simp [exRight]

theorem exRight_lt (junk : ℝ) : (exRight.t junk).Pairwise (· < ·) := by
  have hl := t_length exRight_WF (by simp [exRight]) junk
  rw [List.pairwise_iff_getElem]
  have e : ∀ k (hk : k < (exRight.t junk).length), (exRight.t junk)[k] = pathLen 2 (exRight.rows.take (k + 1)) := by
    intro k hk
    have := cumarclen_get exRight_WF.rect junk k (by rw [hl] at hk; exact hk)
    rw [show cumarclen junk exRight = exRight.t junk from rfl, List.getElem?_eq_getElem hk] at this
    injection this
  intro i j hi hj hij
  rw [e i hi, e j hj]
  have hj3 : j < 3 := by rw [hl] at hj; exact hj
  have h5 : Real.sqrt (4 ^ 2) = 4 := Real.sqrt_sq (by norm_num)
  have h3 : Real.sqrt (3 ^ 2) = 3 := Real.sqrt_sq (by norm_num)
  have ij : (i = 0 ∧ j = 1) ∨ (i = 0 ∧ j = 2) ∨ (i = 1 ∧ j = 2) := by omega
  rcases ij with ⟨rfl, rfl⟩ | ⟨rfl, rfl⟩ | ⟨rfl, rfl⟩ <;>
    simp [exRight, pathLen, gap_eq_sqrt, Fin.sum_univ_two] <;> norm_num [h3, h5]

example : ∃ lib, NaturalOk lib ∧ ∃ c', exRight.reverse = .ok c' ∧ ∃ F F',
    EvaluatesTo exRight (fun g => exRight.interpolate (builtinInterp lib 0) g "cubic" .none) (fun _ => True) F ∧
    EvaluatesTo c' (fun g => c'.interpolate (builtinInterp lib 0) g "cubic" .none) (fun _ => True) F' ∧
    F' 1 = F (arclen 0 exRight - 1) := by
  obtain ⟨lib, h⟩ := exists_naturalOk
  obtain ⟨F, F', h1, h2, h3⟩ := C103_reverse_partial exRight_WF (by simp [exRight, Curve.size]) rfl exRight_reverse (exRight_lt 0)
    (by simp [exRight]) (dom := fun _ => True) (.inr (.inr (.inl ⟨h, (builtin_names lib 0).2.2.2.2⟩)))
  exact ⟨lib, h, _, exRight_reverse, F, F', h1, h2, h3 1⟩

example : ∃ F F' : ℝ → List ℝ, EvaluatesTo exRight (fun g => exRight.interpolate (linearReg 0) g "linear" true) (fun x => true = true ∨ WithinEnds (exRight.t 0) x) F ∧
    ∀ x, F' x = F (arclen 0 exRight - x) := by
  obtain ⟨F, F', h1, _, h3⟩ := C103_reverse_linear_partial exRight_WF (by simp [exRight, Curve.size]) rfl exRight_reverse (exRight_lt 0)
    (by simp [exRight]) (isLinear_linearReg 0) true
  exact ⟨F, F', h1, h3⟩

theorem exTri_reverse : exTri.reverse = .ok ⟨[[3, 4], [3, 0], [0, 0]], 2, some [3, 1, 0], .float⟩ := by
  rw [reverse_eq exTri_WF]
  simp [exTri]

example (lib : SplineLib) : ∃ c', exTri.reverse = .ok c' ∧
    c'.interpolate (builtinInterp lib 0) (.arr (.ok (GridArr.of (fins [0, 1])))) "pchip" .none = .error .interpolationError :=
  ⟨_, exTri_reverse, C103_parametric_fails exTri_WF (by simp [exTri, Curve.size]) rfl exTri_reverse (by simp)
    (lib := lib) (.inr (.inl (builtin_names lib 0).2.2.1)) _⟩

example : ∃ c', exTri.reverse = .ok c' ∧ c'.interpolate (linearReg 0) (.arr (.ok (GridArr.of (fins (exTri.t 0))))) "linear" true =
    exTri.interpolate (linearReg 0) (.arr (.ok (GridArr.of (fins (exTri.t 0))))) "linear" true :=
  ⟨_, exTri_reverse, C103_sorted_fails exTri_WF (by simp [exTri, Curve.size]) rfl exTri_reverse (by simp)
    (isLinear_linearReg 0) true (by simp [exTri, Curve.t]) exTri_steps⟩

end Verif.Props
