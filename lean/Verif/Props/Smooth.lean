import Verif.Lemmas.Smooth
import Verif.Props.Interp

/-!
Smoothing: C67 (contracts) and C68 (window smoothing).
-/
namespace Verif.Props

open Verif Verif.Np Verif.Model Verif.Spec

/-! ## C67 -/

/-- **C67 (errors).** An unknown method is a NameError; ValueErrors and TypeErrors of the method pass, every other exception of
it is a SmoothingError. -/
theorem C67_errors (r : Reg SmoothFn) (c : Curve (Val ℝ)) (m : String) (p : SmoothParams) :
    (m ∉ r.names → c.smooth r m p = .error .nameError) ∧
    (∀ f e, getSmooth r m = .ok f → f c p = .error e → e = .valueError ∨ e = .typeError → c.smooth r m p = .error e) ∧
    (∀ f e, getSmooth r m = .ok f → f c p = .error e → e ≠ .valueError → e ≠ .typeError →
      c.smooth r m p = .error .smoothingError) := by
  refine ⟨?_, ?_, ?_⟩
  · intro h
    have hh : r.has m = false := by
      cases hb : r.has m with
      | false => rfl
      | true => exfalso; apply h; simpa [Reg.has, Reg.names] using hb
    unfold Curve.smooth smoothCall getSmooth
    rw [if_pos hh]
    rfl
  · intro f e h1 h2 h3
    unfold Curve.smooth smoothCall
    simp only [h1, bind, Except.bind, h2]
    rw [if_pos h3]
  · intro f e h1 h2 h3 h4
    unfold Curve.smooth smoothCall
    simp only [h1, bind, Except.bind, h2]
    rw [if_neg (by simp [h3, h4])]

theorem smooth_ok {r : Reg SmoothFn} {m : String} {f : SmoothFn} (hf : getSmooth r m = .ok f) {c : Curve (Val ℝ)} {p : SmoothParams}
    {d : CurveData (Val ℝ)} (hd : f c p = .ok d) : c.smooth r m p = Curve.init d none none none none := by
  unfold Curve.smooth smoothCall
  simp only [hf, bind, Except.bind, hd]

/-- A constructor call without parameter on something that is no curve: the result is not parametric. -/
theorem init_not_parametric {d : CurveData (Val ℝ)} (hd : ∀ c, d ≠ .curve c) {R : Curve (Val ℝ)}
    (h : Curve.init d none none none none = .ok R) : R.tdata = none := by
  unfold Curve.init at h
  simp only [Option.getD_none, Option.isSome_none] at h
  rw [if_neg (by decide)] at h
  cases d with
  | curve c => exact absurd rfl (hd c)
  | arr a dt =>
    simp only at h
    cases ha : as2d a 0 with
    | error e => rw [ha] at h; simp at h
    | ok raw =>
      rw [ha] at h
      simp only [Curve.finish] at h
      split_ifs at h <;> first | (injection h with h; rw [← h]) | (cases h)
  | seq xs =>
    simp only at h
    cases ha : as2d (asarray xs) 1 with
    | error e => rw [ha] at h; simp at h
    | ok raw =>
      rw [ha] at h
      simp only [Curve.finish] at h
      split_ifs at h <;> first | (injection h with h; rw [← h]) | (cases h)

/-- **C67 (result, partial).** A method that returns an array or a sequence: the result is never parametric. If it is an array
of rows of `n ≥ 2` numbers (integral ones for an integer dtype), the result has exactly these points. Missing: methods that
return a curve, see `C67_curve_fails`. -/
theorem C67_result_partial {r : Reg SmoothFn} {m : String} {f : SmoothFn} (hf : getSmooth r m = .ok f) (c : Curve (Val ℝ))
    (p : SmoothParams) :
    (∀ d R, f c p = .ok d → (∀ c', d ≠ .curve c') → c.smooth r m p = .ok R → R.isparametric = false) ∧
    (∀ rows n dt, f c p = .ok (.arr (NdArr.ofRows (.fin 0) rows n) dt) → 2 ≤ n → (∀ row ∈ rows, row.length = n) →
      (∀ row ∈ rows, ∀ x ∈ row, dt.cast x = x) →
      ∃ R, c.smooth r m p = .ok R ∧ R.rows = rows ∧ R.size = rows.length ∧ R.dtype = dt ∧ R.isparametric = false) := by
  constructor
  · intro d R h1 h2 h3
    rw [smooth_ok hf h1] at h3
    simp [Curve.isparametric, init_not_parametric h2 h3]
  · intro rows n dt h1 h2 h3 h4
    rw [smooth_ok hf h1]
    have := ofRows_ok (rows := rows) (n := n) (dt := dt) (t := none) h2 h3 h4 (by simp)
    refine ⟨_, this, rfl, rfl, rfl, rfl⟩

/-- **C67 (witness).** A method that returns a parametric curve (its argument, say) gives a parametric result. -/
theorem C67_curve_fails : ∃ (r : Reg SmoothFn) (c R : Curve (Val ℝ)), c.smooth r "same" (.other "") = .ok R ∧ R.isparametric = true := by
  refine ⟨⟨[("same", fun c _ => .ok (.curve c))], none⟩, ⟨[[.fin 0, .fin 0]], 2, some [.fin 0], .float⟩, ?_⟩
  refine ⟨⟨[[.fin 0, .fin 0]], 2, some [.fin 0], .float⟩, ?_, rfl⟩
  rw [smooth_ok (f := fun c _ => .ok (.curve c)) rfl rfl]
  have := ofRows_ok (rows := [[Val.fin (0 : ℝ), .fin 0]]) (n := 2) (dt := .float) (t := some [.fin 0]) (by norm_num) (by simp)
    (by intro _ _ x _; rfl) (by simp)
  exact this

/-- **C67 (the window method).** Which errors of `window_filter` come out: exceptions of a window function are ValueErrors, those
of scipy's `get_window` pass if they are Value- or TypeErrors; an integer window is a TypeError; something that is no array, an
empty window, a window of another rank, an unknown mode and an object curve are SmoothingErrors. -/
theorem C67_window_errors {r : Reg SmoothFn} {m : String} (hf : getSmooth r m = .ok windowFn) (c : Curve (Val ℝ)) (p : WinParams) :
    (∀ f e, p.wtype = .callable f → f p.size = .error e → c.smooth r m (.window p) = .error .valueError) ∧
    (∀ w, makeWindow p.wtype p.size = .ok (.ints w) → c.smooth r m (.window p) = .error .typeError) ∧
    (makeWindow p.wtype p.size = .ok .other → c.smooth r m (.window p) = .error .smoothingError) ∧
    (makeWindow p.wtype p.size = .ok .nd → c.smooth r m (.window p) = .error .smoothingError) ∧
    (makeWindow p.wtype p.size = .ok (.floats []) → c.smooth r m (.window p) = .error .smoothingError) ∧
    (∀ w, makeWindow p.wtype p.size = .ok (.floats w) → ExtMode.ofString p.mode = none →
      c.smooth r m (.window p) = .error .smoothingError) ∧
    (∀ w, makeWindow p.wtype p.size = .ok (.floats w) → c.dtype = .obj → c.smooth r m (.window p) = .error .smoothingError) := by
  have base : ∀ e, windowFilter c p = .error e → e = .valueError ∨ e = .typeError → c.smooth r m (.window p) = .error e :=
    fun e h he => (C67_errors r c m (.window p)).2.1 windowFn e hf h he
  have other : ∀ e, windowFilter c p = .error e → e ≠ .valueError → e ≠ .typeError →
      c.smooth r m (.window p) = .error .smoothingError :=
    fun e h h1 h2 => (C67_errors r c m (.window p)).2.2 windowFn e hf h h1 h2
  refine ⟨?_, ?_, ?_, ?_, ?_, ?_, ?_⟩
  · intro f e h1 h2
    refine base _ ?_ (.inl rfl)
    simp [windowFilter, makeWindow, h1, h2, wrapErr, bind, Except.bind]
  · intro w h
    refine base _ ?_ (.inr rfl)
    simp [windowFilter, h, normWindow, bind, Except.bind]
  · intro h
    refine other .attributeError ?_ (by simp) (by simp)
    simp [windowFilter, h, normWindow, bind, Except.bind]
  · intro h
    refine other .runtimeError ?_ (by simp) (by simp)
    simp [windowFilter, h, normWindow, bind, Except.bind]
  · intro h
    refine other .runtimeError ?_ (by simp) (by simp)
    simp [windowFilter, h, normWindow, bind, Except.bind]
  · intro w h h2
    refine other .runtimeError ?_ (by simp) (by simp)
    simp [windowFilter, h, normWindow, bind, Except.bind, h2]
  · intro w h h2
    refine other .runtimeError ?_ (by simp) (by simp)
    simp only [windowFilter, h, normWindow, bind, Except.bind]
    split
    · rfl
    · cases ExtMode.ofString p.mode with
      | none => rfl
      | some m => simp [h2]

/-! ## C68 -/

theorem sum_normalised {ws : List ℝ} (h : ws.sum ≠ 0) : (ws.map (· / ws.sum)).sum = 1 := by
  have key : ∀ (l : List ℝ) (s : ℝ), (l.map (· / s)).sum = l.sum / s := by
    intro l s
    induction l with
    | nil => simp
    | cons x l ih => simp only [List.map_cons, List.sum_cons, ih]; ring
  rw [key, div_self h]

/-- The outcome of window smoothing of a curve with finite coordinates by a window with finite values and positive sum. -/
theorem window_outcome {r : Reg SmoothFn} {m : String} (hf : getSmooth r m = .ok windowFn) {c : Curve ℝ} (hc : WF c)
    (hne : c.rows ≠ []) (hd : c.dtype ≠ .obj) {ws : List ℝ} (hs : 0 < ws.sum) {p : WinParams}
    (hp : makeWindow p.wtype p.size = .ok (.floats (fins ws))) {e : ExtMode} (he : ExtMode.ofString p.mode = some e)
    (hm : e ≠ .constant) :
    (finCurve c).smooth r m (.window p) = .ok (finCurve ⟨(List.range c.rows.length).map fun i => (List.range c.ncols).map fun j =>
      c.dtype.cast (∑ q ∈ Finset.range c.rows.length, avgWeight e c.rows.length (ws.map (· / ws.sum)) i q * at2 c.rows q j),
      c.ncols, none, c.dtype⟩) := by
  have hnw : normWindow (.floats (fins ws)) = .ok (.floats (fins (ws.map (· / ws.sum)))) := by
    simp only [normWindow, sumV_fins]
    congr 2
    unfold fins
    rw [List.map_map, List.map_map]
    apply List.map_congr_left
    intro x _
    exact Val.div_fin hs.ne'
  have hwne : ws ≠ [] := by rintro rfl; simp at hs
  have hfw : fins (ws.map (· / ws.sum)) ≠ [] := by simp [fins, hwne]
  have hpos : 0 < c.rows.length := List.length_pos_iff.2 hne
  have hcast : ∀ x : ℝ, c.dtype.cast (Val.fin x) = Val.fin (c.dtype.cast x) := by
    intro x; cases hdt : c.dtype <;> rfl
  have hconv : convolve1d (c.rows.map fins) c.ncols c.dtype (fins (ws.map (· / ws.sum))) e p.cval =
      ((List.range c.rows.length).map fun i => (List.range c.ncols).map fun j =>
        c.dtype.cast (∑ q ∈ Finset.range c.rows.length, avgWeight e c.rows.length (ws.map (· / ws.sum)) i q * at2 c.rows q j)).map fins := by
    unfold convolve1d
    rw [List.map_map, List.length_map]
    apply List.map_congr_left
    intro i _
    simp only [Function.comp]
    refine Eq.trans ?_ (List.map_map (g := Val.fin)).symm
    apply List.map_congr_left
    intro j _
    rw [conv_entry c.rows hne hm p.cval (ws.map (· / ws.sum)) (i : Int) j, hcast, avgWeight_sum hm hpos _ _ (fun q => at2 c.rows q j)]
    rfl
  rw [smooth_ok hf (d := .arr (NdArr.ofRows (.fin 0) (((List.range c.rows.length).map fun i => (List.range c.ncols).map fun j =>
        c.dtype.cast (∑ q ∈ Finset.range c.rows.length, avgWeight e c.rows.length (ws.map (· / ws.sum)) i q * at2 c.rows q j)).map fins)
        c.ncols) c.dtype)]
  · have := ofRows_ok (rows := ((List.range c.rows.length).map fun i => (List.range c.ncols).map fun j =>
        c.dtype.cast (∑ q ∈ Finset.range c.rows.length, avgWeight e c.rows.length (ws.map (· / ws.sum)) i q * at2 c.rows q j)).map fins)
        (n := c.ncols) (dt := c.dtype) (t := none) hc.two_le (by
          intro row hrow
          obtain ⟨l, hl, rfl⟩ := List.mem_map.1 hrow
          obtain ⟨i, _, rfl⟩ := List.mem_map.1 hl
          simp [fins]) (by
          intro row hrow x hx
          obtain ⟨l, hl, rfl⟩ := List.mem_map.1 hrow
          obtain ⟨i, _, rfl⟩ := List.mem_map.1 hl
          obtain ⟨y, hy, rfl⟩ := mem_fins_fin hx
          obtain ⟨j, _, rfl⟩ := List.mem_map.1 hy
          rw [hcast]
          congr 1
          exact cast_cast _ _) (by simp)
    rw [if_neg (by simp [hne])] at this
    exact this
  · show windowFilter _ _ = _
    unfold windowFilter
    simp only [hp, bind, Except.bind, hnw, he]
    rw [if_neg hfw, if_neg (by simpa [finCurve] using hd)]
    show Except.ok (CurveData.arr (NdArr.ofRows _ (convolve1d (c.rows.map fins) c.ncols c.dtype _ _ _) c.ncols) c.dtype) = _
    rw [hconv]

/-- **C68 (averaging).** For a window of non-negative numbers with positive sum and a mode that repeats points (the default one
does): there are weights, non-negative and with sum 1 for every point, such that for every float curve of `n` points, parametric or
not, the result has `n` points and every coordinate of point `i` is the weighted mean of this coordinate of the points of the
curve. The weights depend on the window, the mode and `n` only. -/
theorem C68_averaging {r : Reg SmoothFn} {m : String} (hf : getSmooth r m = .ok windowFn) {ws : List ℝ} (hw : ∀ x ∈ ws, 0 ≤ x)
    (hs : 0 < ws.sum) {p : WinParams} (hp : makeWindow p.wtype p.size = .ok (.floats (fins ws))) (hmode : RepeatMode p.mode)
    (n : Nat) (hn : 0 < n) :
    ∃ A : Nat → Nat → ℝ, (∀ i q, 0 ≤ A i q) ∧ (∀ i, ∑ q ∈ Finset.range n, A i q = 1) ∧
      ∀ c : Curve ℝ, WF c → c.size = n → c.dtype = .float →
        ∃ c', (finCurve c).smooth r m (.window p) = .ok (finCurve c') ∧ c'.size = n ∧ c'.ncols = c.ncols ∧ c'.dtype = .float ∧
          c'.tdata = none ∧ (∀ row ∈ c'.rows, row.length = c.ncols) ∧
          ∀ i j, i < n → j < c.ncols → at2 c'.rows i j = ∑ q ∈ Finset.range n, A i q * at2 c.rows q j := by
  obtain ⟨e, he, hm⟩ := ofString_repeat hmode
  refine ⟨fun i q => avgWeight e n (ws.map (· / ws.sum)) i q, ?_, ?_, ?_⟩
  · intro i q
    apply avgWeight_nonneg
    intro x hx
    obtain ⟨y, hy, rfl⟩ := List.mem_map.1 hx
    exact div_nonneg (hw y hy) hs.le
  · intro i
    rw [avgWeight_total hm hn, sum_normalised hs.ne']
  · intro c hc hsz hd
    have hl : c.rows.length = n := hsz
    have hne : c.rows ≠ [] := by intro h; rw [h] at hl; simp at hl; omega
    refine ⟨_, window_outcome hf hc hne (by rw [hd]; simp) hs hp he hm, by simp [Curve.size, hl], rfl, hd, rfl, ?_, ?_⟩
    · intro row hrow
      obtain ⟨i, _, rfl⟩ := List.mem_map.1 hrow
      simp
    · intro i j hi hj
      rw [hl]
      rw [at2_range _ _ _ hi hj, hd]
      rfl

/-- **C68 (size, constant curves, bounds, linearity).** The English claims, for float curves. -/
theorem C68_window_partial {r : Reg SmoothFn} {m : String} (hf : getSmooth r m = .ok windowFn) {ws : List ℝ} (hw : ∀ x ∈ ws, 0 ≤ x)
    (hs : 0 < ws.sum) {p : WinParams} (hp : makeWindow p.wtype p.size = .ok (.floats (fins ws))) (hmode : RepeatMode p.mode)
    {c : Curve ℝ} (hc : WF c) (hne : c.rows ≠ []) (hd : c.dtype = .float) :
    ∃ c', (finCurve c).smooth r m (.window p) = .ok (finCurve c') ∧ c'.size = c.size ∧ c'.isparametric = false ∧
      (∀ j lo hi, j < c.ncols → (∀ q, q < c.size → lo ≤ at2 c.rows q j ∧ at2 c.rows q j ≤ hi) →
        ∀ i, i < c.size → lo ≤ at2 c'.rows i j ∧ at2 c'.rows i j ≤ hi) ∧
      ((∀ q j, q < c.size → at2 c.rows q j = at2 c.rows 0 j) → c'.rows = c.rows) ∧
      (∀ (c2 c3 : Curve ℝ) (a b : ℝ), WF c2 → WF c3 → c2.dtype = .float → c3.dtype = .float → c2.size = c.size → c3.size = c.size →
        c2.ncols = c.ncols → c3.ncols = c.ncols →
        (∀ i j, at2 c3.rows i j = a * at2 c.rows i j + b * at2 c2.rows i j) →
        ∃ c2' c3', (finCurve c2).smooth r m (.window p) = .ok (finCurve c2') ∧
          (finCurve c3).smooth r m (.window p) = .ok (finCurve c3') ∧
          ∀ i j, i < c.size → j < c.ncols → at2 c3'.rows i j = a * at2 c'.rows i j + b * at2 c2'.rows i j) := by
  have hn : 0 < c.size := List.length_pos_iff.2 hne
  obtain ⟨A, hA0, hA1, hA⟩ := C68_averaging hf hw hs hp hmode c.size hn
  obtain ⟨c', h1, h2, h3, h4, h5, h6, h7⟩ := hA c hc rfl hd
  refine ⟨c', h1, h2, by simp [Curve.isparametric, h5], ?_, ?_, ?_⟩
  · intro j lo hi hj hb i hi'
    rw [h7 i j hi' hj]
    constructor
    · have : lo = ∑ q ∈ Finset.range c.size, A i q * lo := by rw [← Finset.sum_mul, hA1, one_mul]
      rw [this]
      exact Finset.sum_le_sum fun q hq => mul_le_mul_of_nonneg_left (hb q (Finset.mem_range.1 hq)).1 (hA0 i q)
    · have : hi = ∑ q ∈ Finset.range c.size, A i q * hi := by rw [← Finset.sum_mul, hA1, one_mul]
      rw [this]
      exact Finset.sum_le_sum fun q hq => mul_le_mul_of_nonneg_left (hb q (Finset.mem_range.1 hq)).2 (hA0 i q)
  · intro hk
    refine rows_ext h6 hc.rect h2 ?_
    intro i j hi hj
    have hi' : i < c.size := by rw [← h2]; exact hi
    rw [h7 i j hi' hj, hk i j hi']
    rw [Finset.sum_congr rfl (fun q hq => by rw [hk q j (Finset.mem_range.1 hq)]), ← Finset.sum_mul, hA1, one_mul]
  · intro c2 c3 a b w2 w3 d2 d3 s2 s3 n2 n3 hlin
    obtain ⟨c2', g1, g2, g3, g4, g5, g6, g7⟩ := hA c2 w2 s2 d2
    obtain ⟨c3', k1, k2, k3, k4, k5, k6, k7⟩ := hA c3 w3 s3 d3
    refine ⟨c2', c3', g1, k1, ?_⟩
    intro i j hi hj
    rw [h7 i j hi hj, g7 i j hi (by rw [n2]; exact hj), k7 i j hi (by rw [n3]; exact hj), Finset.mul_sum, Finset.mul_sum, ← Finset.sum_add_distrib]
    apply Finset.sum_congr rfl
    intro q _
    rw [hlin]; ring

/-- Truncation keeps integer bounds. -/
theorem truncK_between {x : ℝ} {lo hi : ℤ} (h1 : (lo : ℝ) ≤ x) (h2 : x ≤ hi) :
    (lo : ℝ) ≤ DType.int.cast x ∧ DType.int.cast x ≤ (hi : ℝ) := by
  show (lo : ℝ) ≤ truncK x ∧ truncK x ≤ (hi : ℝ)
  unfold truncK
  split
  · exact ⟨by exact_mod_cast Int.le_floor.2 h1, le_trans (Int.floor_le x) h2⟩
  · exact ⟨le_trans h1 (Int.le_ceil x), by exact_mod_cast Int.ceil_le.2 h2⟩

/-- **C68 (integer curves).** For an integer curve size, bounds and constant curves still hold. -/
theorem C68_int {r : Reg SmoothFn} {m : String} (hf : getSmooth r m = .ok windowFn) {ws : List ℝ} (hw : ∀ x ∈ ws, 0 ≤ x)
    (hs : 0 < ws.sum) {p : WinParams} (hp : makeWindow p.wtype p.size = .ok (.floats (fins ws))) (hmode : RepeatMode p.mode)
    {c : Curve ℝ} (hc : WF c) (hne : c.rows ≠ []) (hd : c.dtype = .int) :
    ∃ c', (finCurve c).smooth r m (.window p) = .ok (finCurve c') ∧ c'.size = c.size ∧ c'.isparametric = false ∧ c'.dtype = .int ∧
      (∀ j (lo hi : ℤ), j < c.ncols → (∀ q, q < c.size → lo ≤ at2 c.rows q j ∧ at2 c.rows q j ≤ hi) →
        ∀ i, i < c.size → lo ≤ at2 c'.rows i j ∧ at2 c'.rows i j ≤ hi) ∧
      ((∀ q j, q < c.size → at2 c.rows q j = at2 c.rows 0 j) → c'.rows = c.rows) := by
  obtain ⟨e, he, hm⟩ := ofString_repeat hmode
  have hn : 0 < c.size := List.length_pos_iff.2 hne
  have hl : c.rows.length = c.size := rfl
  have hA0 : ∀ i q, 0 ≤ avgWeight e c.size (ws.map (· / ws.sum)) i q := by
    intro i q
    apply avgWeight_nonneg
    intro x hx
    obtain ⟨y, hy, rfl⟩ := List.mem_map.1 hx
    exact div_nonneg (hw y hy) hs.le
  have hA1 : ∀ i, ∑ q ∈ Finset.range c.size, avgWeight e c.size (ws.map (· / ws.sum)) i q = 1 := by
    intro i
    rw [avgWeight_total hm hn, sum_normalised hs.ne']
  refine ⟨_, window_outcome hf hc hne (by rw [hd]; simp) hs hp he hm, by simp [Curve.size], rfl, hd, ?_, ?_⟩
  · intro j lo hi hj hb i hi'
    rw [hl, at2_range _ _ _ hi' hj, hd]
    have hlo : (lo : ℝ) ≤ ∑ q ∈ Finset.range c.size, avgWeight e c.size (ws.map (· / ws.sum)) i q * at2 c.rows q j := by
      have : (lo : ℝ) = ∑ q ∈ Finset.range c.size, avgWeight e c.size (ws.map (· / ws.sum)) i q * lo := by
        rw [← Finset.sum_mul, hA1, one_mul]
      rw [this]
      exact Finset.sum_le_sum fun q hq => mul_le_mul_of_nonneg_left (hb q (Finset.mem_range.1 hq)).1 (hA0 i q)
    have hhi : ∑ q ∈ Finset.range c.size, avgWeight e c.size (ws.map (· / ws.sum)) i q * at2 c.rows q j ≤ (hi : ℝ) := by
      have : (hi : ℝ) = ∑ q ∈ Finset.range c.size, avgWeight e c.size (ws.map (· / ws.sum)) i q * hi := by
        rw [← Finset.sum_mul, hA1, one_mul]
      rw [this]
      exact Finset.sum_le_sum fun q hq => mul_le_mul_of_nonneg_left (hb q (Finset.mem_range.1 hq)).2 (hA0 i q)
    exact truncK_between hlo hhi
  · intro hk
    refine rows_ext (n := c.ncols) ?_ hc.rect (by simp) ?_
    · intro row hrow
      obtain ⟨i, _, rfl⟩ := List.mem_map.1 hrow
      simp
    · intro i j hi hj
      have hi' : i < c.size := by simpa [Curve.size] using hi
      rw [hl, at2_range _ _ _ hi' hj, hk i j hi']
      rw [Finset.sum_congr rfl (fun q hq => by rw [hk q j (Finset.mem_range.1 hq)]), ← Finset.sum_mul, hA1, one_mul]
      have hr : 0 < c.rows.length := hn
      have hj2 : j < c.rows[0].length := by rw [hc.rect _ (List.getElem_mem hr)]; exact hj
      have : at2 c.rows 0 j = c.rows[0][j] := by
        unfold at2; simp [List.getD_eq_getElem?_getD, hr, hj2]
      rw [this]
      exact hc.repr _ (List.getElem_mem hr) _ (List.getElem_mem hj2)

/-! ## The default window -/

/-- **C68 (the default window).** The Hann window of any size from 1 on except 2 is non-negative and has a positive sum. -/
theorem C68_hann_partial (n : Nat) (h1 : 1 ≤ n) (h2 : n ≠ 2) :
    ∃ ws : List ℝ, makeWindow (.named hann) n = .ok (.floats (fins ws)) ∧ (∀ x ∈ ws, 0 ≤ x) ∧ 0 < ws.sum ∧ ws.length = n := by
  show ∃ ws, hann n = _ ∧ _
  unfold hann
  rw [if_neg (by omega)]
  by_cases h3 : n ≤ 1
  · have : n = 1 := by omega
    subst this
    rw [if_pos (by norm_num)]
    exact ⟨[1], by simp [fins], by simp, by simp, rfl⟩
  · rw [if_neg (by omega)]
    have hle : ∀ x : ℝ, 0 ≤ 1 / 2 + 1 / 2 * Real.cos x := by intro x; have := Real.neg_one_le_cos x; linarith
    refine ⟨(List.range n).map fun (k : Nat) => 1 / 2 + 1 / 2 * Real.cos (-Real.pi + k * (2 * Real.pi / (n - 1))), ?_, ?_, ?_, by simp⟩
    · simp only [Int.toNat_natCast, fins, List.map_map]
      rfl
    · intro x hx
      obtain ⟨k, _, rfl⟩ := List.mem_map.1 hx
      exact hle _
    · rw [list_sum_range]
      apply Finset.sum_pos'
      · intro k _; exact hle _
      · refine ⟨1, Finset.mem_range.2 (by omega), ?_⟩
        have hn : (3 : ℝ) ≤ n := by exact_mod_cast (show 3 ≤ n by omega)
        have hpi := Real.pi_pos
        have ht : 0 < 2 * Real.pi / ((n : ℝ) - 1) := by apply div_pos <;> linarith
        have ht2 : 2 * Real.pi / ((n : ℝ) - 1) ≤ Real.pi := by
          rw [div_le_iff₀ (by linarith)]; nlinarith
        have hc := Real.cos_lt_cos_of_nonneg_of_le_pi (le_refl 0) ht2 ht
        rw [Real.cos_zero] at hc
        have : Real.cos (-Real.pi + ((1 : Nat) : ℝ) * (2 * Real.pi / ((n : ℝ) - 1))) = - Real.cos (2 * Real.pi / ((n : ℝ) - 1)) := by
          rw [Nat.cast_one, one_mul, add_comm, ← sub_eq_add_neg, Real.cos_sub_pi]
        rw [this]
        linarith

/-- **C68 (witness).** With the default window and `window_size=2` the window is `[0, 0]`, its sum is 0, and every coordinate of
the smoothed curve is NaN. -/
theorem C68_hann2_fails {r : Reg SmoothFn} {m : String} (hf : getSmooth r m = .ok windowFn) {c : Curve ℝ} (hc : WF c)
    (hne : c.rows ≠ []) (hd : c.dtype = .float) :
    ∃ R, (finCurve c).smooth r m (.window { size := 2 }) = .ok R ∧ R.size = c.size ∧ ∀ row ∈ R.rows, ∀ x ∈ row, x = .nan := by
  have h0 : hann 2 = .ok (.floats [.fin 0, .fin 0]) := by
    unfold hann
    rw [if_neg (by norm_num), if_neg (by norm_num)]
    have e1 : Real.cos (-Real.pi + ((0 : Nat) : ℝ) * (2 * Real.pi / (((2 : Int).toNat : ℝ) - 1))) = -1 := by simp
    have e2 : Real.cos (-Real.pi + ((1 : Nat) : ℝ) * (2 * Real.pi / (((2 : Int).toNat : ℝ) - 1))) = -1 := by
      have : -Real.pi + ((1 : Nat) : ℝ) * (2 * Real.pi / (((2 : Int).toNat : ℝ) - 1)) = Real.pi := by
        have : ((2 : Int).toNat : ℝ) = 2 := by rw [show (2 : Int).toNat = 2 from rfl]; norm_num
        rw [this]; push_cast; ring
      rw [this, Real.cos_pi]
    have hr : List.range (2 : Int).toNat = [0, 1] := rfl
    rw [hr]
    simp only [List.map_cons, List.map_nil, e1, e2]
    norm_num
  have hn : normWindow (.floats [.fin 0, .fin 0]) = .ok (.floats [.nan, .nan]) := by
    simp [normWindow, sumV, Val.add, Val.div, Val.infOfSign]
  have hwf : windowFilter (finCurve c) { size := 2 } =
      .ok (.arr (NdArr.ofRows (.fin 0) (convolve1d (c.rows.map fins) c.ncols .float [.nan, .nan] .reflect (.fin 0)) c.ncols) .float) := by
    unfold windowFilter
    simp only [makeWindow, h0, bind, Except.bind, hn]
    rw [if_neg (by simp)]
    have : ExtMode.ofString "reflect" = some .reflect := by simp [ExtMode.ofString]
    simp only [this]
    rw [if_neg (by simp [finCurve, hd])]
    simp [finCurve, hd]
  have hnan : ∀ row ∈ convolve1d (c.rows.map fins) c.ncols .float [.nan, .nan] .reflect (.fin 0), row.length = c.ncols ∧ ∀ x ∈ row, x = .nan := by
    intro row hrow
    unfold convolve1d at hrow
    obtain ⟨i, _, rfl⟩ := List.mem_map.1 hrow
    refine ⟨by simp, ?_⟩
    intro x hx
    obtain ⟨j, _, rfl⟩ := List.mem_map.1 hx
    have hr : List.range [Val.nan (K := ℝ), .nan].length = [0, 1] := rfl
    rw [hr]
    have hmul : ∀ v : Val ℝ, Val.nan.mul v = .nan := by intro v; cases v <;> rfl
    simp [sumV, hmul, Val.add, DType.cast]
  rw [smooth_ok hf (p := .window { size := 2 }) hwf]
  have := ofRows_ok (rows := convolve1d (c.rows.map fins) c.ncols .float [.nan, .nan] .reflect (.fin 0)) (n := c.ncols) (dt := .float)
    (t := none) hc.two_le (fun row hrow => (hnan row hrow).1) (by intro _ _ x _; rfl) (by simp)
  refine ⟨_, this, by simp [Curve.size, convolve1d], fun row hrow => (hnan row hrow).2⟩

/-- An integer curve and its double. -/
def exIntLine (k : ℝ) : Curve ℝ := ⟨[[0, 0], [k, k]], 2, none, .int⟩

/-- **C68 (witness): not linear on integer curves.** Averaging two neighbours of (0, 0), (1, 1) gives (0, 0), (1, 1); of the double
curve it gives (1, 1), (2, 2). -/
theorem C68_int_linear_fails {r : Reg SmoothFn} {m : String} (hf : getSmooth r m = .ok windowFn) :
    ∃ c1 c2, (finCurve (exIntLine 1)).smooth r m (.window { size := 2, wtype := .callable fun _ => .ok (.floats (fins [1, 1])) }) = .ok (finCurve c1) ∧
      (finCurve (exIntLine 2)).smooth r m (.window { size := 2, wtype := .callable fun _ => .ok (.floats (fins [1, 1])) }) = .ok (finCurve c2) ∧
      at2 c1.rows 0 0 = 0 ∧ at2 c2.rows 0 0 = 1 := by
  have key : ∀ n : ℤ, WF (exIntLine n) := by
    intro n
    have e : ∀ k : ℤ, DType.int.cast (k : ℝ) = k := fun k => truncK_intCast k
    refine ⟨by simp [exIntLine], by simp [exIntLine], by simp [exIntLine], ?_⟩
    intro row hrow x hx
    simp [exIntLine] at hrow
    rcases hrow with rfl | rfl
    · simp at hx; subst hx; simpa [exIntLine] using e 0
    · simp at hx; subst hx; simpa [exIntLine] using e n
  have hval : ∀ n : ℤ, ∑ q ∈ Finset.range (exIntLine n).rows.length, avgWeight .reflect (exIntLine n).rows.length
      (([1, 1] : List ℝ).map (· / ([1, 1] : List ℝ).sum)) 0 q * at2 (exIntLine n).rows q 0 = n / 2 := by
    intro n
    simp [exIntLine, avgWeight, Finset.sum_range_succ, extPos, extIndex, at2]
    norm_num
    ring
  have hps : ∀ n : ℤ, ∃ c', (finCurve (exIntLine n)).smooth r m
      (.window { size := 2, wtype := .callable fun _ => .ok (.floats (fins [1, 1])) }) = .ok (finCurve c') ∧
      at2 c'.rows 0 0 = DType.int.cast ((n : ℝ) / 2) := by
    intro n
    refine ⟨_, window_outcome hf (key n) (by simp [exIntLine]) (by simp [exIntLine]) (ws := [1, 1]) (by norm_num) (by rfl)
      (e := .reflect) (by simp [ExtMode.ofString]) (by simp), ?_⟩
    rw [at2_range _ _ _ (by simp [exIntLine]) (by simp [exIntLine]), hval]
    rfl
  obtain ⟨c1, a1, a2⟩ := hps 1
  obtain ⟨c2, b1, b2⟩ := hps 2
  refine ⟨c1, c2, by simpa using a1, by simpa using b1, ?_, ?_⟩
  · rw [a2]
    show truncK _ = _
    unfold truncK
    rw [if_pos (by norm_num)]
    have : ⌊((1 : ℤ) : ℝ) / 2⌋ = 0 := by rw [Int.floor_eq_iff]; norm_num
    rw [this]; simp
  · rw [b2]
    have := truncK_intCast (K := ℝ) 1
    show truncK _ = _
    norm_num at this ⊢
    exact this

/-! ## The hypotheses are met -/

theorem smoothReg_window (savgol : SmoothFn) : getSmooth (smoothReg savgol) "window" = .ok windowFn := by
  simp [smoothReg, registerSmooth, Reg.has, Reg.empty, Reg.setItem, getSmooth, Reg.item]

/-- The default window of size 3 and the default mode on a parametric curve of three points. -/
example : ∃ c', (finCurve exTri).smooth (smoothReg fun _ _ => .error .typeError) "window" (.window { size := 3 }) = .ok (finCurve c') ∧
    c'.size = 3 ∧ c'.isparametric = false ∧ ∀ i, i < 3 → 0 ≤ at2 c'.rows i 1 ∧ at2 c'.rows i 1 ≤ 4 := by
  obtain ⟨ws, h1, h2, h3, _⟩ := C68_hann_partial 3 (by norm_num) (by norm_num)
  obtain ⟨c', g1, g2, g3, g4, _⟩ := C68_window_partial (smoothReg_window fun _ _ => .error .typeError) h2 h3 (p := { size := 3 }) h1
    (by simp [RepeatMode]) exTri_WF (by simp [exTri]) rfl
  refine ⟨c', g1, g2, g3, fun i hi => g4 1 0 4 (by simp [exTri]) ?_ i hi⟩
  intro q hq
  have hq' : q < 3 := hq
  match q, hq' with
  | 0, _ => simp [exTri, at2]
  | 1, _ => simp [exTri, at2]
  | 2, _ => simp [exTri, at2]

/-! ## Concrete cases -/

section
/-- A method that always fails with this exception. -/
def exFailing (e : PyErr) : SmoothFn := fun _ _ => .error e

example := (C67_window_errors (smoothReg_window (exFailing .runtimeError)) (finCurve exTri) { size := 3, wtype := .callable fun _ => .error .typeError }).1 _ _ rfl rfl
example := (C67_window_errors (smoothReg_window (exFailing .runtimeError)) (finCurve exTri) { size := 3, wtype := .callable fun _ => .ok (.ints [1, 2, 1]) }).2.1 _ rfl
example : ∃ ws, makeWindow ({ size := 3 } : WinParams).wtype 3 = .ok (.floats (fins ws)) ∧ ∃ A : Nat → Nat → ℝ, ∀ i, ∑ q ∈ Finset.range 5, A i q = 1 := by
  obtain ⟨ws, h1, h2, h3, _⟩ := C68_hann_partial 3 (by norm_num) (by norm_num)
  obtain ⟨A, _, hA, _⟩ := C68_averaging (smoothReg_window (exFailing .runtimeError)) h2 h3 (p := { size := 3 }) h1 (by simp [RepeatMode]) 5 (by norm_num)
  exact ⟨ws, h1, A, hA⟩
/-- Integer data. -/
example : ∃ c', (finCurve exIntSeg).smooth (smoothReg (exFailing .runtimeError)) "window" (.window { size := 3 }) = .ok (finCurve c') ∧ c'.dtype = .int := by
  obtain ⟨ws, h1, h2, h3, _⟩ := C68_hann_partial 3 (by norm_num) (by norm_num)
  obtain ⟨c', g1, -, -, g4, -⟩ := C68_int (smoothReg_window (exFailing .runtimeError)) h2 h3 (p := { size := 3 }) h1 (by simp [RepeatMode]) exIntSeg_WF (by simp [exIntSeg]) rfl
  exact ⟨c', g1, g4⟩
end

end Verif.Props
