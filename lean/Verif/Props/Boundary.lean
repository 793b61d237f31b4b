import Verif.Props.Savgol
import Verif.Lemmas.Boundary

/-!
C100: beyond the ends smoothing continues the curve as the mode says.
-/
namespace Verif.Props

open Verif Verif.Np Verif.Model Verif.Spec

theorem boundary_ofString {mode : String} (h : BoundaryMode mode) : ∃ m, ExtMode.ofString mode = some m := by
  simp [BoundaryMode] at h
  rcases h with rfl | rfl | rfl | rfl | rfl <;> simp [ExtMode.ofString]

/-- One entry of the convolution, with values continued beyond the ends. -/
theorem conv_continued (rows : List (List ℝ)) (hne : rows ≠ []) {mode : String} {m : ExtMode} (hm : ExtMode.ofString mode = some m)
    (cv : ℝ) (ws : List ℝ) (i : Nat) (j : Nat) {e : ℤ → ℝ} (he : Continues mode rows.length cv (fun q => at2 rows q j) e) :
    sumV ((List.range (fins ws).length).map fun (k : Nat) =>
      ((fins ws).getD k (.fin 0)).mul (extAt (rows.map fins) m (.fin cv) ((i : Int) + (((fins ws).length / 2 : Nat) : Int) - (k : Int)) j)) =
    .fin (∑ k ∈ Finset.range ws.length, ws.getD k 0 * e (i + (ws.length / 2 : Nat) - k)) := by
  have hlen : (fins ws).length = ws.length := by simp [fins]
  have hpos : 0 < rows.length := List.length_pos_iff.2 hne
  rw [hlen, ← list_sum_range, ← sumV_fins]
  congr 1
  unfold fins
  rw [List.map_map]
  apply List.map_congr_left
  intro k _
  have h1 : (List.map Val.fin ws).getD k (Val.fin 0) = .fin (ws.getD k 0) := by
    simp only [List.getD_eq_getElem?_getD, List.getElem?_map]
    cases ws[k]? <;> simp
  have h2 : ∀ x : ℤ, extAt (rows.map fins) m (.fin cv) x j = .fin (e x) := by
    intro x
    rw [continues_unique hm hpos he x]
    unfold extAt extVal
    rw [List.length_map]
    cases extIndex m rows.length x with
    | none => rfl
    | some p => exact getD_map_fins rows p j
  simp only [Function.comp]
  rw [h1]
  have := h2 (i + ((ws.length / 2 : Nat) : Int) - (k : Int))
  unfold fins at this
  rw [this, Val.mul_fin]

/-- **C100 (existence).** Every sequence of values has a continuation, and only one: the theorems below are about all of them. -/
theorem C100_continuation {mode : String} (h : BoundaryMode mode) {n : Nat} (hn : 0 < n) (cval : ℝ) (f : Nat → ℝ) :
    ∃ e, Continues mode n cval f e ∧ ∀ e', Continues mode n cval f e' → e' = e := by
  obtain ⟨m, hm⟩ := boundary_ofString h
  exact ⟨_, continues_exists hm hn cval f, fun e' he' => funext fun i => continues_unique hm hn he' i⟩

/-- **C100 (window).** Point `i` of the result of the window filter is the mean of the points `i + L/2 - k` weighted by entry `k` of
the window of `L` entries (divided by their sum, which is not 0), where the curve is continued beyond its ends as the mode says. For
integer curves the mean is truncated. -/
theorem C100_window {r : Reg SmoothFn} {name : String} (hf : getSmooth r name = .ok windowFn) {c : Curve ℝ} (hc : WF c) (hne : c.rows ≠ [])
    (hd : c.dtype ≠ .obj) {ws : List ℝ} (hs : ws.sum ≠ 0) {p : WinParams} (hp : makeWindow p.wtype p.size = .ok (.floats (fins ws)))
    {cv : ℝ} (hcv : p.cval = .fin cv) (hmode : BoundaryMode p.mode) {e : Nat → ℤ → ℝ}
    (he : ∀ j, j < c.ncols → Continues p.mode c.size cv (fun q => at2 c.rows q j) (e j)) :
    ∃ c', (finCurve c).smooth r name (.window p) = .ok (finCurve c') ∧ WF c' ∧ c'.size = c.size ∧ c'.ncols = c.ncols ∧ c'.tdata = none ∧
      c'.dtype = c.dtype ∧ ∀ i j, i < c.size → j < c.ncols → at2 c'.rows i j =
        c.dtype.cast (∑ k ∈ Finset.range ws.length, ws.getD k 0 / ws.sum * e j (i + (ws.length / 2 : Nat) - k)) := by
  obtain ⟨m, hm⟩ := boundary_ofString hmode
  have hnw : normWindow (.floats (fins ws)) = .ok (.floats (fins (ws.map (· / ws.sum)))) := by
    simp only [normWindow, sumV_fins]
    congr 2
    unfold fins
    rw [List.map_map, List.map_map]
    apply List.map_congr_left
    intro x _
    exact Val.div_fin hs
  have hwne : ws ≠ [] := by rintro rfl; simp at hs
  have hfw : fins (ws.map (· / ws.sum)) ≠ [] := by simp [fins, hwne]
  have hcast : ∀ x : ℝ, c.dtype.cast (Val.fin x) = Val.fin (c.dtype.cast x) := by
    intro x; cases hdt : c.dtype <;> rfl
  obtain ⟨R, hR⟩ : ∃ R : List (List ℝ), R = (List.range c.rows.length).map fun (i : Nat) => (List.range c.ncols).map fun j =>
      c.dtype.cast (∑ k ∈ Finset.range (ws.map (· / ws.sum)).length, (ws.map (· / ws.sum)).getD k 0 *
        e j (i + ((ws.map (· / ws.sum)).length / 2 : Nat) - k)) := ⟨_, rfl⟩
  have hconv : convolve1d (c.rows.map fins) c.ncols c.dtype (fins (ws.map (· / ws.sum))) m (.fin cv) = R.map fins := by
    rw [hR]
    unfold convolve1d
    rw [List.map_map, List.length_map]
    apply List.map_congr_left
    intro i _
    simp only [Function.comp]
    refine Eq.trans ?_ (List.map_map (g := Val.fin)).symm
    apply List.map_congr_left
    intro j hj
    rw [conv_continued c.rows hne hm cv (ws.map (· / ws.sum)) i j (he j (List.mem_range.1 hj)), hcast]
    rfl
  have hrow : ∀ row ∈ R, row.length = c.ncols := by
    intro row hrow
    rw [hR] at hrow
    obtain ⟨i, _, rfl⟩ := List.mem_map.1 hrow
    simp
  have hRl : R.length = c.rows.length := by rw [hR]; simp
  have hRne : R ≠ [] := by
    intro h
    rw [h] at hRl
    exact hne (List.eq_nil_of_length_eq_zero hRl.symm)
  refine ⟨⟨R, c.ncols, none, c.dtype⟩, ?_, ⟨hc.two_le, hrow, by simp, ?_⟩, hRl, rfl, rfl, rfl, ?_⟩
  · rw [smooth_ok hf (d := .arr (NdArr.ofRows (.fin 0) (R.map fins) c.ncols) c.dtype)]
    · have := ofRows_ok (rows := R.map fins) (n := c.ncols) (dt := c.dtype) (t := none) hc.two_le (by
          intro row hrow'
          obtain ⟨l, hl, rfl⟩ := List.mem_map.1 hrow'
          simp [fins, hrow l hl]) (by
          intro row hrow' x hx
          obtain ⟨l, hl, rfl⟩ := List.mem_map.1 hrow'
          rw [hR] at hl
          obtain ⟨i, _, rfl⟩ := List.mem_map.1 hl
          obtain ⟨y, hy, rfl⟩ := mem_fins_fin hx
          obtain ⟨j, _, rfl⟩ := List.mem_map.1 hy
          rw [hcast]
          congr 1
          exact cast_cast _ _) (by simp)
      rw [if_neg (by simp [hRne])] at this
      exact this
    · show windowFilter _ _ = _
      unfold windowFilter
      simp only [hp, bind, Except.bind, hnw, hm]
      rw [if_neg hfw, if_neg (by simpa [finCurve] using hd), hcv]
      show Except.ok (CurveData.arr (NdArr.ofRows _ (convolve1d (c.rows.map fins) c.ncols c.dtype _ _ _) c.ncols) c.dtype) = _
      rw [hconv]
  · intro row hrow x hx
    rw [hR] at hrow
    obtain ⟨i, _, rfl⟩ := List.mem_map.1 hrow
    obtain ⟨j, _, rfl⟩ := List.mem_map.1 hx
    exact cast_cast _ _
  · intro i j hi hj
    show at2 R i j = _
    rw [hR]
    refine (at2_range _ _ _ hi hj).trans ?_
    congr 1
    rw [List.length_map]
    apply Finset.sum_congr rfl
    intro k hk
    congr 1
    have := Finset.mem_range.1 hk
    simp [List.getD_eq_getElem?_getD, this]

/-- The result of the Savitzky-Golay filter in terms of its coefficients. -/
theorem savgol_continued {lib : LsqLib} {r : Reg SmoothFn} {name : String} (hf : getSmooth r name = .ok (savgolFn lib))
    {wl po d : Nat} {delta : ℝ} {co : List ℝ} (h1 : savgolCoeffs lib wl po d delta = .ok co) (h2 : co.length = wl)
    {c : Curve ℝ} (hc : WF c) (hne : c.rows ≠ []) {mode : String} (hmode : BoundaryMode mode) (hrf : mode ≠ "reflect") (cv : ℝ)
    {e : Nat → ℤ → ℝ} (he : ∀ j, j < c.ncols → Continues mode c.size cv (fun q => at2 c.rows q j) (e j)) :
    ∃ c', (finCurve c).smooth r name (.savgol ⟨wl, po, d, delta, mode, cv⟩) = .ok (finCurve c') ∧ WF c' ∧ c'.size = c.size ∧
      c'.ncols = c.ncols ∧ c'.tdata = none ∧ c'.dtype = .float ∧ ∀ i j, i < c.size → j < c.ncols →
        at2 c'.rows i j = ∑ k ∈ Finset.range wl, co.getD k 0 * e j (i + (wl / 2 : Nat) - k) := by
  obtain ⟨m, hm⟩ := boundary_ofString hmode
  obtain ⟨R, hR⟩ : ∃ R : List (List ℝ), R = (List.range c.rows.length).map fun (i : Nat) => (List.range c.ncols).map fun j =>
    ∑ k ∈ Finset.range co.length, co.getD k 0 * e j (i + (co.length / 2 : Nat) - k) := ⟨_, rfl⟩
  have hconv : convolve1d (c.rows.map fins) c.ncols .float (fins co) m (.fin cv) = R.map fins := by
    rw [hR]
    unfold convolve1d
    rw [List.map_map, List.length_map]
    apply List.map_congr_left
    intro i _
    simp only [Function.comp]
    refine Eq.trans ?_ (List.map_map (g := Val.fin)).symm
    apply List.map_congr_left
    intro j hj
    rw [conv_continued c.rows hne hm cv co i j (he j (List.mem_range.1 hj))]
    rfl
  have hrow : ∀ row ∈ R, row.length = c.ncols := by
    intro row hrow
    rw [hR] at hrow
    obtain ⟨i, _, rfl⟩ := List.mem_map.1 hrow
    simp
  have hRl : R.length = c.rows.length := by rw [hR]; simp
  have hRne : R ≠ [] := by
    intro h
    rw [h] at hRl
    exact hne (List.eq_nil_of_length_eq_zero hRl.symm)
  refine ⟨⟨R, c.ncols, none, .float⟩, ?_, ⟨hc.two_le, hrow, by simp, by intro _ _ x _; rfl⟩, hRl, rfl, rfl, rfl, ?_⟩
  · have hfilter : savgolFilter lib (finCurve c) ⟨wl, po, d, delta, mode, cv⟩ =
        .ok (.arr (NdArr.ofRows (.fin 0) (R.map fins) c.ncols) .float) := by
      unfold savgolFilter
      simp only
      rw [if_neg (by rw [not_not]; simp [BoundaryMode] at hmode ⊢; tauto), h1]
      simp only [bind, Except.bind]
      rw [if_neg (by rintro rfl; simp [BoundaryMode] at hmode)]
      simp only [hm]
      rw [← hconv]
      rfl
    rw [smooth_ok hf (p := .savgol _) hfilter]
    exact init_fin_rows R hc.two_le hRne hrow
  · intro i j hi hj
    show at2 R i j = _
    rw [hR]
    refine (at2_range _ _ _ hi hj).trans ?_
    rw [h2]

/-- **C100 (Savitzky-Golay).** With the modes other than interp there are coefficients, the same for all curves, with which polynomials of
degree at most `polyorder` are turned into their derivative of order `deriv` (divided by `delta ^ deriv`), such that point `i` of the
result is the sum of coefficient `k` times point `i + wl/2 - k` of the curve, continued beyond its ends as the mode says. -/
theorem C100_savgol {lib : LsqLib} (hl : LsqOk lib) {r : Reg SmoothFn} {name : String} (hf : getSmooth r name = .ok (savgolFn lib))
    {wl po : Nat} (hpo : po < wl) (hodd : wl % 2 = 1) (d : Nat) (delta : ℝ) (hdel : delta ≠ 0 ∨ d = 0) :
    ∃ co : Nat → ℝ,
      (∀ (q : Polynomial ℝ) (a : ℝ), q.natDegree ≤ po →
        ∑ k ∈ Finset.range wl, co k * q.eval (a + (wl / 2 : Nat) - k) = ((Polynomial.derivative^[d]) q).eval a / delta ^ d) ∧
      ∀ {c : Curve ℝ}, WF c → c.rows ≠ [] → ∀ {mode : String}, BoundaryMode mode → mode ≠ "reflect" → ∀ (cv : ℝ) {e : Nat → ℤ → ℝ},
        (∀ j, j < c.ncols → Continues mode c.size cv (fun q => at2 c.rows q j) (e j)) →
        ∃ c', (finCurve c).smooth r name (.savgol ⟨wl, po, d, delta, mode, cv⟩) = .ok (finCurve c') ∧ WF c' ∧ c'.size = c.size ∧
          c'.ncols = c.ncols ∧ c'.tdata = none ∧ c'.dtype = .float ∧ ∀ i j, i < c.size → j < c.ncols →
            at2 c'.rows i j = ∑ k ∈ Finset.range wl, co k * e j (i + (wl / 2 : Nat) - k) := by
  obtain ⟨co, h1, h2, h3⟩ := savgolCoeffs_ok hl hpo (.inl hodd) hdel
  refine ⟨fun k => co.getD k 0, ?_, ?_⟩
  · intro q a hq
    rw [← h3 q a hq, if_pos hodd]
    apply Finset.sum_congr rfl
    intro k _
    congr 2
    ring
  · intro c hc hne mode hmode hrf cv e he
    exact savgol_continued hf h1 h2 hc hne hmode hrf cv he

/-- The hypotheses are met: three points and a window of three equal entries. The first point of the result counts the first point of
the curve twice with mode reflect, and the second point twice with mode mirror. -/
example (f : SmoothFn) (mode : String) (hm : mode = "reflect" ∨ mode = "mirror") :
    ∃ c', (finCurve exTri).smooth (smoothReg f) "window" (.window { size := 3, wtype := .callable fun _ => .ok (.floats (fins [1, 1, 1])), mode := mode }) =
      .ok (finCurve c') ∧ ∀ j, j < 2 → at2 c'.rows 0 j = if mode = "reflect" then (2 * at2 exTri.rows 0 j + at2 exTri.rows 1 j) / 3 else
        (at2 exTri.rows 0 j + 2 * at2 exTri.rows 1 j) / 3 := by
  have hmode : BoundaryMode mode := by rcases hm with rfl | rfl <;> simp [BoundaryMode]
  choose e he using fun j => C100_continuation hmode (n := 3) (by norm_num) 0 (fun q => at2 exTri.rows q j)
  obtain ⟨c', h1, _, _, _, _, _, h2⟩ := C100_window (smoothReg_window f) exTri_WF (by simp [exTri]) (by simp [exTri]) (ws := [1, 1, 1]) (by norm_num)
    (p := { size := 3, wtype := .callable fun _ => .ok (.floats (fins [1, 1, 1])), mode := mode }) rfl rfl hmode
    (e := e) (fun j _ => (he j).1)
  refine ⟨c', h1, fun j hj => ?_⟩
  rw [h2 0 j (by simp [exTri, Curve.size]) hj]
  have h := (he j).1
  have h0 := h.inside 0 (by norm_num)
  have h10 := h.inside 1 (by norm_num)
  simp only [Nat.cast_zero, Nat.cast_one] at h0 h10
  have hcast : ∀ x : ℝ, exTri.dtype.cast x = x := fun x => rfl
  rw [hcast]
  show ∑ k ∈ Finset.range 3, _ = _
  rw [Finset.sum_range_succ, Finset.sum_range_succ, Finset.sum_range_succ, Finset.sum_range_zero]
  rcases hm with rfl | rfl
  · have := (h.reflect rfl 0).1
    norm_num [h0, h10] at this ⊢
    rw [this]
    ring
  · have := ((h.mirror rfl).1 1).1
    norm_num [h0, h10] at this ⊢
    rw [this, if_neg (by simp)]
    ring

end Verif.Props
