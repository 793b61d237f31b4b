import Verif.Lemmas.Savgol
import Verif.Props.Smooth

/-!
More on smoothing: C76 (dtype), C77 (the caller's window), C78 (lines), C79 (Savitzky-Golay filter).
-/
namespace Verif.Props

open Verif Verif.Np Verif.Model Verif.Spec

/-! ## C79 -/

theorem savgol_mapM {α β : Type} (f : α → Except PyErr β) (g : α → β) (l : List α) (h : ∀ x ∈ l, f x = .ok (g x)) :
    l.mapM f = .ok (l.map g) := by
  induction l with
  | nil => rfl
  | cons x l ih =>
    rw [List.mapM_cons, h x (by simp), ih (fun y hy => h y (by simp [hy]))]
    rfl

theorem iter_derivative_comp (q : Polynomial ℝ) (a : ℝ) (d : Nat) :
    (Polynomial.derivative^[d]) (q.comp (Polynomial.X + Polynomial.C a)) =
      ((Polynomial.derivative^[d]) q).comp (Polynomial.X + Polynomial.C a) := by
  induction d with
  | zero => rfl
  | succ d ih => rw [Function.iterate_succ_apply', Function.iterate_succ_apply', ih, Polynomial.derivative_comp]; simp

/-- The coefficients of a window of length `wl`: moments about `s`. -/
theorem savgolCoeffs_ok {lib : LsqLib} (hl : LsqOk lib) {wl po d : Nat} {delta : ℝ} (hpo : po < wl)
    (hodd : wl % 2 = 1 ∨ lib.evenOk = true) (hdel : delta ≠ 0 ∨ d = 0) :
    ∃ c, savgolCoeffs lib wl po d delta = .ok c ∧ c.length = wl ∧
      ∀ (q : Polynomial ℝ) (a : ℝ), q.natDegree ≤ po →
        ∑ k ∈ Finset.range wl, c.getD k 0 * q.eval (a + (((wl / 2 : Nat) : ℝ) - (if wl % 2 = 1 then 0 else 1 / 2) - k)) =
          ((Polynomial.derivative^[d]) q).eval a / delta ^ d := by
  obtain ⟨s, hs⟩ : ∃ s : ℝ, s = ((wl / 2 : Nat) : ℝ) - (if wl % 2 = 1 then 0 else 1 / 2) := ⟨_, rfl⟩
  obtain ⟨pos, hpos⟩ : ∃ pos : ℝ, pos = if (wl : Int) % 2 = 0 then (((wl : Int) / 2 : Int) : ℝ) - 1 / 2 else (((wl : Int) / 2 : Int) : ℝ) :=
    ⟨_, rfl⟩
  have hwl : (wl : ℝ) = 2 * ((wl / 2 : Nat) : ℝ) + ((wl % 2 : Nat) : ℝ) := by
    have := Nat.div_add_mod wl 2
    exact_mod_cast this.symm
  have hdiv : (((wl : Int) / 2 : Int) : ℝ) = ((wl / 2 : Nat) : ℝ) := by norm_cast
  have hs2 : ((wl : Int) : ℝ) - 1 - pos = s := by
    rw [hpos, hs, hdiv]
    rcases Nat.mod_two_eq_zero_or_one wl with h | h
    · rw [if_pos (by omega), if_neg (by omega)]
      rw [h] at hwl
      push_cast at hwl ⊢
      rw [hwl]; ring
    · rw [if_neg (by omega), if_pos h]
      rw [h] at hwl
      push_cast at hwl ⊢
      rw [hwl]; ring
  have hposr : 0 ≤ pos ∧ pos < ((wl : Int) : ℝ) := by
    have h0 : (0 : ℝ) ≤ ((wl / 2 : Nat) : ℝ) := Nat.cast_nonneg _
    rw [hpos, hdiv]
    push_cast
    rcases Nat.mod_two_eq_zero_or_one wl with h | h
    · rw [if_pos (by omega)]
      have : 1 ≤ wl / 2 := by omega
      have : (1 : ℝ) ≤ ((wl / 2 : Nat) : ℝ) := by exact_mod_cast this
      rw [h] at hwl
      push_cast at hwl
      constructor <;> linarith
    · rw [if_neg (by omega)]
      rw [h] at hwl
      push_cast at hwl
      constructor <;> linarith
  have hbase : savgolCoeffs lib wl po d delta = if (po : Int) < d then .ok (List.replicate wl 0)
      else if delta = 0 ∧ 0 < d then .error .zeroDivision
      else .ok (lib.lstsq
        ((List.range (po + 1)).map fun m => (List.range wl).map fun (k : Nat) => (s - k) ^ m)
        ((List.range (po + 1)).map fun m => if m = d then (d.factorial : ℝ) / delta ^ d else 0)) := by
    unfold savgolCoeffs
    rw [if_neg (by omega), if_neg (by rintro ⟨h1, h2⟩; rcases hodd with h | h; · omega
                                      · simp [h] at h2)]
    simp only
    rw [← hpos, if_neg (by rw [not_not]; exact hposr)]
    simp only [hs2, Int.toNat_natCast]
  rw [← hs]
  by_cases hd : d ≤ po
  · obtain ⟨c, h1, h2, h3⟩ := lstsq_moments hl s po wl hpo fun m => if m = d then (d.factorial : ℝ) / delta ^ d else 0
    refine ⟨c, ?_, h2, ?_⟩
    · rw [hbase, if_neg (by omega), if_neg (by rintro ⟨h4, h5⟩; rcases hdel with h | h; · exact h h4
                                               · omega), h1]
    · intro q a hq
      exact moments_poly s a d po wl delta c h3 hd q hq
  · refine ⟨List.replicate wl 0, by rw [hbase, if_pos (by omega)], by simp, ?_⟩
    intro q a hq
    rw [Polynomial.iterate_derivative_eq_zero (by omega), Polynomial.eval_zero, zero_div]
    apply Finset.sum_eq_zero
    intro k hk
    rw [Finset.mem_range] at hk
    simp [List.getD_eq_getElem?_getD, hk]

/-- One edge of a polynomial curve. -/
theorem fitEdge_ok {lib : LsqLib} (hl : LsqOk lib) {rows : List (List ℝ)} {ncols ws we is ie po d : Nat} {delta : ℝ} (hpo : po < we - ws)
    (hwe : we ≤ rows.length) (hdel : delta ≠ 0 ∨ d = 0) (q : Nat → Polynomial ℝ) (hq : ∀ j, j < ncols → (q j).natDegree ≤ po)
    (hrows : ∀ i j, i < rows.length → j < ncols → at2 rows i j = (q j).eval (i : ℝ)) (y : List (List (Val ℝ))) :
    fitEdge lib (rows.map fins) ncols ws we is ie po d delta y = .ok ((List.range y.length).map fun (i : Nat) =>
      if is ≤ i ∧ i < ie then (List.range ncols).map fun j => Val.fin (((Polynomial.derivative^[d]) (q j)).eval (i : ℝ) / delta ^ d)
      else y.getD i []) := by
  have hne : delta ^ d ≠ 0 := by
    rcases hdel with h | h
    · exact pow_ne_zero _ h
    · simp [h]
  have hfit : ∀ j ∈ List.range ncols,
      lib.polyfit ((List.range (we - ws)).map fun (k : Nat) => ((rows.map fins).getD (ws + k) []).getD j (.fin 0)) (po : Int).toNat =
        .ok ((q j).comp (Polynomial.X + Polynomial.C (ws : ℝ))) := by
    intro j hj
    rw [List.mem_range] at hj
    have e : ((List.range (we - ws)).map fun (k : Nat) => ((rows.map fins).getD (ws + k) []).getD j (.fin 0)) =
        fins ((List.range (we - ws)).map fun (k : Nat) => at2 rows (ws + k) j) := by
      unfold fins
      rw [List.map_map]
      apply List.map_congr_left
      intro k _
      exact getD_map_fins rows _ j
    rw [e]
    refine polyfit_exact hl _ _ _ (by simpa using hpo) ?_ ?_
    · rw [Polynomial.natDegree_comp, Polynomial.natDegree_X_add_C, mul_one]
      exact hq j hj
    · intro k hk
      simp only [List.length_map, List.length_range] at hk
      rw [Polynomial.eval_comp]
      simp only [Polynomial.eval_add, Polynomial.eval_X, Polynomial.eval_C]
      rw [List.getD_eq_getElem?_getD, List.getElem?_map, List.getElem?_range hk, Option.map_some, Option.getD_some,
        hrows _ _ (by omega) hj]
      push_cast
      rw [add_comm]
  unfold fitEdge
  rw [if_neg (by omega)]
  simp only [savgol_mapM _ _ _ hfit, bind, Except.bind, List.map_map]
  congr 1
  apply List.map_congr_left
  intro i _
  split_ifs
  · apply List.map_congr_left
    intro j _
    simp only [Function.comp, iter_derivative_comp]
    rw [Val.div_fin hne, Polynomial.eval_comp]
    simp
  · rfl

/-- Rows of finite numbers are accepted as they are. -/
theorem init_fin_rows (rows : List (List ℝ)) {n : Nat} (hn : 2 ≤ n) (hne : rows ≠ []) (hr : ∀ r ∈ rows, r.length = n) :
    Curve.init (.arr (NdArr.ofRows (.fin 0) (rows.map fins) n) .float) none none none none = .ok (finCurve ⟨rows, n, none, .float⟩) := by
  have := ofRows_ok (rows := rows.map fins) (n := n) (dt := .float) (t := none) hn (by
    intro r h
    obtain ⟨l, hl, rfl⟩ := List.mem_map.1 h
    simp [fins, hr l hl]) (by intro _ _ x _; rfl) (by simp)
  rw [if_neg (by simp [hne])] at this
  exact this

theorem savgol_conv_row {rows : List (List ℝ)} {ncols : Nat} (c : List ℝ) (m : ExtMode) (cval : Val ℝ) {i j : Nat} (hi : i < rows.length)
    (hj : j < ncols) (hlo : c.length ≤ i + c.length / 2 + 1) (hhi : i + c.length / 2 < rows.length) :
    ((convolve1d (rows.map fins) ncols .float (c.map Val.fin) m cval).getD i []).getD j (.fin 0) =
      .fin (∑ k ∈ Finset.range c.length, c.getD k 0 * at2 rows (i + c.length / 2 - k) j) := by
  unfold convolve1d
  simp only [List.getD_eq_getElem?_getD, List.getElem?_map, List.length_map, List.getElem?_range hi, Option.map_some, Option.getD_some,
    List.getElem?_range hj]
  have := conv_inside rows m cval c i j hlo hhi
  unfold fins at this ⊢
  simp only [List.getD_eq_getElem?_getD, List.getElem?_map, List.length_map] at this
  rw [this]
  rfl

/-- **C79 (mode interp).** A curve whose coordinates are polynomials of degree at most `polyorder` in the point index: with an odd
window length between `polyorder + 1` and the number of points, the Savitzky-Golay filter returns the derivative of order `deriv`
divided by `delta ^ deriv` at every point, as floats; without derivative it returns the curve. -/
theorem C79_interp {lib : LsqLib} (hl : LsqOk lib) {r : Reg SmoothFn} {m : String} (hf : getSmooth r m = .ok (savgolFn lib))
    {c : Curve ℝ} (hc : WF c) {wl po : Nat} (hpo : po < wl) (hwl : wl ≤ c.size) (hodd : wl % 2 = 1) (d : Nat) (delta cval : ℝ)
    (hdel : delta ≠ 0 ∨ d = 0) (q : Nat → Polynomial ℝ) (hq : ∀ j, j < c.ncols → (q j).natDegree ≤ po)
    (hrows : ∀ i j, i < c.size → j < c.ncols → at2 c.rows i j = (q j).eval (i : ℝ)) :
    ∃ c', (finCurve c).smooth r m (.savgol ⟨wl, po, d, delta, "interp", cval⟩) = .ok (finCurve c') ∧ c'.size = c.size ∧
      c'.ncols = c.ncols ∧ c'.dtype = .float ∧ c'.isparametric = false ∧
      (∀ i j, i < c.size → j < c.ncols → at2 c'.rows i j = ((Polynomial.derivative^[d]) (q j)).eval (i : ℝ) / delta ^ d) ∧
      (d = 0 → c'.rows = c.rows) := by
  have hn : c.rows.length = c.size := rfl
  have hne : c.rows ≠ [] := by intro h; rw [h] at hn; simp at hn; omega
  obtain ⟨co, h1, h2, h3⟩ := savgolCoeffs_ok hl hpo (.inl hodd) hdel
  rw [if_pos hodd, sub_zero] at h3
  obtain ⟨rows', hrows'⟩ : ∃ rows', rows' = (List.range c.size).map fun (i : Nat) => (List.range c.ncols).map fun j =>
    ((Polynomial.derivative^[d]) (q j)).eval (i : ℝ) / delta ^ d := ⟨_, rfl⟩
  have hlen' : rows'.length = c.size := by rw [hrows']; simp
  have hrect' : ∀ row ∈ rows', row.length = c.ncols := by
    intro row hrow; rw [hrows'] at hrow; obtain ⟨i, _, rfl⟩ := List.mem_map.1 hrow; simp
  have hat : ∀ i j, i < c.size → j < c.ncols → at2 rows' i j = ((Polynomial.derivative^[d]) (q j)).eval (i : ℝ) / delta ^ d := by
    intro i j hi hj
    rw [hrows']
    exact at2_range (fun (i j : Nat) => ((Polynomial.derivative^[d]) (q j)).eval (i : ℝ) / delta ^ d) _ _ hi hj
  have hfilter : savgolFilter lib (finCurve c) ⟨wl, po, d, delta, "interp", cval⟩ =
      .ok (.arr (NdArr.ofRows (.fin 0) (rows'.map fins) c.ncols) .float) := by
    unfold savgolFilter
    simp only
    rw [if_neg (by simp), h1]
    have hsz : (finCurve c).size = c.size := by simp [finCurve, Curve.size]
    simp only [bind, Except.bind]
    rw [if_pos trivial, hsz, if_neg (by omega)]
    have hfr : (finCurve c).rows = c.rows.map fins := rfl
    have hfn : (finCurve c).ncols = c.ncols := rfl
    rw [hfr, hfn]
    simp only [Int.toNat_natCast]
    obtain ⟨y0, hy0⟩ : ∃ y0, y0 = convolve1d (c.rows.map fins) c.ncols .float (co.map Val.fin) .constant (.fin 0) := ⟨_, rfl⟩
    have hy0l : y0.length = c.size := by rw [hy0]; simp [convolve1d, hn]
    rw [← hy0, fitEdge_ok hl (rows := c.rows) (ws := 0) (we := wl) (is := 0) (ie := wl / 2) (by omega) (by omega) hdel q hq hrows]
    simp only
    rw [fitEdge_ok hl (rows := c.rows) (ws := c.size - wl) (we := c.size) (by omega) (by omega) hdel q hq hrows]
    simp only [List.length_map, List.length_range, hy0l]
    congr 3
    rw [hrows', List.map_map]
    apply List.map_congr_left
    intro i hi
    rw [List.mem_range] at hi
    have hfin : fins ((List.range c.ncols).map fun j => ((Polynomial.derivative^[d]) (q j)).eval (i : ℝ) / delta ^ d) =
        (List.range c.ncols).map fun j => Val.fin (((Polynomial.derivative^[d]) (q j)).eval (i : ℝ) / delta ^ d) := by
      unfold fins; rw [List.map_map]; rfl
    simp only [Function.comp]
    rw [hfin]
    split_ifs with ha
    · rfl
    · rw [List.getD_eq_getElem?_getD, List.getElem?_map, List.getElem?_range hi, Option.map_some, Option.getD_some]
      split_ifs with hb
      · rfl
      · have hrow : y0.getD i [] = (List.range c.ncols).map fun j => Val.fin (((Polynomial.derivative^[d]) (q j)).eval (i : ℝ) / delta ^ d) := by
          have hl0 : (y0.getD i []).length = c.ncols := by
            rw [hy0]; unfold convolve1d
            simp [List.getD_eq_getElem?_getD, hn, hi]
          apply List.ext_getElem
          · rw [hl0]; simp
          · intro j hj1 hj2
            rw [hl0] at hj1
            have hv := savgol_conv_row (rows := c.rows) (ncols := c.ncols) co .constant (.fin 0) (i := i) (j := j) (by omega) hj1
              (by omega) (by omega)
            rw [← hy0, h2] at hv
            have hget : (y0.getD i [])[j] = (y0.getD i []).getD j (.fin 0) := by
              rw [List.getD_eq_getElem?_getD (l := y0.getD i []), List.getElem?_eq_getElem (by rw [hl0]; exact hj1), Option.getD_some]
            rw [hget, hv]
            simp only [List.getElem_map, List.getElem_range]
            congr 1
            rw [← h3 (q j) (i : ℝ) (hq j hj1)]
            apply Finset.sum_congr rfl
            intro k hk
            rw [Finset.mem_range] at hk
            rw [hrows _ _ (by omega) hj1, Nat.cast_sub (by omega)]
            push_cast
            congr 2
            ring
        exact hrow
  refine ⟨⟨rows', c.ncols, none, .float⟩, ?_, hlen', rfl, rfl, rfl, hat, ?_⟩
  · rw [smooth_ok hf (p := .savgol _) hfilter]
    exact init_fin_rows rows' hc.two_le (by intro h; rw [h] at hlen'; simp at hlen'; omega) hrect'
  · intro hd
    subst hd
    refine rows_ext hrect' hc.rect hlen' ?_
    intro i j hi hj
    have hi' : i < c.size := lt_of_lt_of_eq hi hlen'
    rw [hat i j hi' hj, hrows i j hi' hj]
    simp

/-- **C79 (interior points, the other modes).** With the modes `mirror`, `constant`, `nearest`, `wrap` the same holds for all points
at least half a window away from both ends, for odd window lengths. With an even window length (accepted by some versions of scipy) the value
belongs to the place half a step further. -/
theorem C79_interior {lib : LsqLib} (hl : LsqOk lib) {r : Reg SmoothFn} {m : String} (hf : getSmooth r m = .ok (savgolFn lib))
    {c : Curve ℝ} (hc : WF c) (hne : c.rows ≠ []) {wl po : Nat} (hpo : po < wl) (hodd : wl % 2 = 1 ∨ lib.evenOk = true) (d : Nat) (delta cval : ℝ)
    (hdel : delta ≠ 0 ∨ d = 0) {mode : String} (hmode : mode ∈ ["mirror", "constant", "nearest", "wrap"]) (q : Nat → Polynomial ℝ)
    (hq : ∀ j, j < c.ncols → (q j).natDegree ≤ po)
    (hrows : ∀ i j, i < c.size → j < c.ncols → at2 c.rows i j = (q j).eval (i : ℝ)) :
    ∃ R : Curve (Val ℝ), (finCurve c).smooth r m (.savgol ⟨wl, po, d, delta, mode, cval⟩) = .ok R ∧ R.size = c.size ∧ R.dtype = .float ∧
      R.isparametric = false ∧
      ∀ i j, wl ≤ i + wl / 2 + 1 → i + wl / 2 < c.size → j < c.ncols → (R.rows.getD i []).getD j (.fin 0) =
        .fin (((Polynomial.derivative^[d]) (q j)).eval ((i : ℝ) + if wl % 2 = 1 then 0 else 1 / 2) / delta ^ d) := by
  obtain ⟨co, h1, h2, h3⟩ := savgolCoeffs_ok hl hpo hodd hdel
  obtain ⟨e, he⟩ : ∃ e, ExtMode.ofString mode = some e := by
    simp at hmode
    rcases hmode with rfl | rfl | rfl | rfl <;> simp [ExtMode.ofString]
  have hfilter : savgolFilter lib (finCurve c) ⟨wl, po, d, delta, mode, cval⟩ =
      .ok (.arr (NdArr.ofRows (.fin 0) (convolve1d (c.rows.map fins) c.ncols .float (co.map Val.fin) e (.fin cval)) c.ncols) .float) := by
    unfold savgolFilter
    simp only
    rw [if_neg (by rw [not_not]; simp at hmode ⊢; tauto), h1]
    simp only [bind, Except.bind]
    rw [if_neg (by rintro rfl; simp at hmode)]
    simp only [he]
    rfl
  have hrl : ∀ row ∈ convolve1d (c.rows.map fins) c.ncols .float (co.map Val.fin) e (.fin cval), row.length = c.ncols := by
    intro row hrow
    unfold convolve1d at hrow
    obtain ⟨i, _, rfl⟩ := List.mem_map.1 hrow
    simp
  have hok := ofRows_ok (rows := convolve1d (c.rows.map fins) c.ncols .float (co.map Val.fin) e (.fin cval)) (n := c.ncols) (dt := .float)
    (t := none) hc.two_le hrl (by intro _ _ x _; rfl) (by simp)
  refine ⟨_, (smooth_ok hf (p := .savgol _) hfilter).trans hok, ?_, rfl, rfl, ?_⟩
  · simp [Curve.size, convolve1d]
  · intro i j hlo hhi hj
    simp only
    have hn : c.rows.length = c.size := rfl
    rw [savgol_conv_row co e (.fin cval) (by omega) hj (by omega) (by omega), h2]
    congr 1
    rw [← h3 (q j) _ (hq j hj)]
    apply Finset.sum_congr rfl
    intro k hk
    rw [Finset.mem_range] at hk
    rw [hrows _ _ (by omega) hj, Nat.cast_sub (by omega)]
    push_cast
    congr 2
    ring

/-- **C79 (errors).** ValueErrors: an unknown mode, an order not below the window length, an even window length (where it is not
accepted), a window length below 1, and with mode interp a window longer than the curve or a negative order. -/
theorem C79_errors {lib : LsqLib} {r : Reg SmoothFn} {m : String} (hf : getSmooth r m = .ok (savgolFn lib)) (c : Curve (Val ℝ))
    (p : SavgolParams) (h : p.mode ∉ ["mirror", "constant", "nearest", "interp", "wrap"] ∨ p.windowLength ≤ p.polyorder ∨
      (p.windowLength % 2 = 0 ∧ lib.evenOk = false) ∨ p.windowLength < 1 ∨ (p.mode = "interp" ∧ (c.size : Int) < p.windowLength) ∨
      (p.mode = "interp" ∧ p.polyorder < 0)) :
    c.smooth r m (.savgol p) = .error .valueError ∨
      (c.smooth r m (.savgol p) = .error .smoothingError ∧ p.delta = 0 ∧ 0 < p.deriv) := by
  have base : ∀ e, savgolFilter lib c p = .error e → e = .valueError ∨ (e = .zeroDivision ∧ p.delta = 0 ∧ 0 < p.deriv) →
      c.smooth r m (.savgol p) = .error .valueError ∨ (c.smooth r m (.savgol p) = .error .smoothingError ∧ p.delta = 0 ∧ 0 < p.deriv) := by
    rintro e he (rfl | ⟨rfl, h1, h2⟩)
    · exact .inl ((C67_errors r c m (.savgol p)).2.1 _ _ hf he (.inl rfl))
    · exact .inr ⟨(C67_errors r c m (.savgol p)).2.2 _ _ hf he (by simp) (by simp), h1, h2⟩
  unfold savgolFilter at base
  simp only at base
  by_cases hm : p.mode ∉ ["mirror", "constant", "nearest", "interp", "wrap"]
  · rw [if_pos hm] at base
    exact base _ rfl (.inl rfl)
  rw [if_neg hm] at base
  cases hco : savgolCoeffs lib p.windowLength p.polyorder p.deriv p.delta with
  | error e =>
    rw [hco] at base
    refine base e rfl ?_
    unfold savgolCoeffs at hco
    simp only at hco
    split_ifs at hco <;> injection hco with hco <;> first | exact .inl hco.symm | exact .inr ⟨hco.symm, by assumption⟩
  | ok co =>
    rw [hco] at base
    simp only [bind, Except.bind] at base
    have hnot : ¬ p.windowLength ≤ p.polyorder ∧ ¬ (p.windowLength % 2 = 0 ∧ lib.evenOk = false) ∧ ¬ p.windowLength < 1 := by
      unfold savgolCoeffs at hco
      simp only at hco
      by_cases a1 : p.windowLength ≤ p.polyorder
      · rw [if_pos a1] at hco; cases hco
      · rw [if_neg a1] at hco
        by_cases a2 : p.windowLength % 2 = 0 ∧ lib.evenOk = false
        · rw [if_pos a2] at hco; cases hco
        · refine ⟨a1, a2, ?_⟩
          intro h1
          rw [if_neg a2, if_pos] at hco
          · cases hco
          · rintro ⟨b1, b2⟩
            by_cases hz : p.windowLength % 2 = 0
            · rw [if_pos hz] at b1
              have : p.windowLength / 2 ≤ 0 := by omega
              have : ((p.windowLength / 2 : Int) : ℝ) ≤ 0 := by exact_mod_cast this
              linarith
            · rw [if_neg hz] at b1
              have : p.windowLength / 2 ≤ -1 := by omega
              have : ((p.windowLength / 2 : Int) : ℝ) ≤ -1 := by exact_mod_cast this
              linarith
    obtain ⟨n1, n2, n3⟩ := hnot
    rcases h with h | h | h | h | ⟨h, h'⟩ | ⟨h, h'⟩
    · exact absurd h hm
    · exact absurd h n1
    · exact absurd h n2
    · exact absurd h n3
    · rw [if_pos h, if_pos h'] at base
      exact base _ rfl (.inl rfl)
    · rw [if_pos h] at base
      by_cases hs : (c.size : Int) < p.windowLength
      · rw [if_pos hs] at base
        exact base _ rfl (.inl rfl)
      · rw [if_neg hs] at base
        unfold fitEdge at base
        simp only [if_pos h'] at base
        exact base _ rfl (.inl rfl)

/-- **C79 (witness).** A negative order is no error in the other modes: every coordinate of the result is 0. -/
theorem C79_negative_order_fails {lib : LsqLib} {r : Reg SmoothFn} {m : String} (hf : getSmooth r m = .ok (savgolFn lib))
    {c : Curve ℝ} (hc : WF c) (hne : c.rows ≠ []) :
    ∃ R, (finCurve c).smooth r m (.savgol { windowLength := 1, polyorder := -1, mode := "nearest" }) = .ok R ∧ R.size = c.size ∧
      ∀ row ∈ R.rows, ∀ x ∈ row, x = .fin 0 := by
  have hco : savgolCoeffs lib 1 (-1) 0 1 = .ok [0] := by
    unfold savgolCoeffs
    rw [if_neg (by norm_num), if_neg (by simp)]
    simp
  have hfilter : savgolFilter lib (finCurve c) { windowLength := 1, polyorder := -1, mode := "nearest" } =
      .ok (.arr (NdArr.ofRows (.fin 0) (convolve1d (c.rows.map fins) c.ncols .float [Val.fin 0] .nearest (.fin 0)) c.ncols) .float) := by
    unfold savgolFilter
    simp only
    rw [if_neg (by simp), hco]
    simp only [bind, Except.bind]
    rw [if_neg (by simp)]
    have : ExtMode.ofString "nearest" = some .nearest := by simp [ExtMode.ofString]
    simp only [this]
    rfl
  have hz : ∀ row ∈ convolve1d (c.rows.map fins) c.ncols .float [Val.fin 0] .nearest (.fin 0), row.length = c.ncols ∧ ∀ x ∈ row, x = .fin 0 := by
    intro row hrow
    unfold convolve1d at hrow
    obtain ⟨i, _, rfl⟩ := List.mem_map.1 hrow
    refine ⟨by simp, ?_⟩
    intro x hx
    obtain ⟨j, _, rfl⟩ := List.mem_map.1 hx
    have hpos : 0 < c.rows.length := List.length_pos_iff.2 hne
    have := conv_entry c.rows hne (m := .nearest) (by simp) (.fin 0) [0] (i : Int) j
    simp only [fins, List.map_cons, List.map_nil] at this
    rw [this]
    simp
    rfl
  rw [smooth_ok hf (p := .savgol _) hfilter]
  have := ofRows_ok (rows := convolve1d (c.rows.map fins) c.ncols .float [Val.fin 0] .nearest (.fin 0)) (n := c.ncols) (dt := .float)
    (t := none) hc.two_le (fun row hrow => (hz row hrow).1) (by intro _ _ x _; rfl) (by simp)
  refine ⟨_, this, by simp [Curve.size, convolve1d], fun row hrow => (hz row hrow).2⟩

theorem smoothReg_savgol (f : SmoothFn) : getSmooth (smoothReg f) "savgol" = .ok f := by
  simp [smoothReg, registerSmooth, Reg.has, Reg.empty, Reg.setItem, getSmooth, Reg.item]

/-! ## C76 -/

/-- **C76 (partial).** The result of the Savitzky-Golay filter is a float curve whatever the dtype of the curve (up to curves with
no points, dtype and rows are those of the filter); the result of window smoothing keeps the dtype, so it is a float curve for float
curves. Missing: integer curves, see `C76_int_fails`. -/
theorem C76_dtype_partial {lib : LsqLib} {r : Reg SmoothFn} {m : String} (c R : Curve (Val ℝ)) :
    (getSmooth r m = .ok (savgolFn lib) → ∀ p, c.smooth r m (.savgol p) = .ok R → R.dtype = .float) ∧
    (getSmooth r m = .ok windowFn → ∀ p, c.smooth r m (.window p) = .ok R → R.dtype = c.dtype) := by
  have hinit : ∀ (a : NdArr (Val ℝ)) dt, Curve.init (.arr a dt) none none none none = .ok R → R.dtype = dt := by
    intro a dt h
    unfold Curve.init at h
    simp only [Option.getD_none, Option.isSome_none] at h
    rw [if_neg (by decide)] at h
    cases ha : as2d a 0 with
    | error e => rw [ha] at h; simp at h
    | ok raw =>
      rw [ha] at h
      simp only [Curve.finish] at h
      split_ifs at h <;> first | (injection h with h; rw [← h]) | (cases h)
  have hstep : ∀ (f : SmoothFn) p dt, getSmooth r m = .ok f → (∀ d, f c p = .ok d → ∃ a, d = .arr a dt) →
      c.smooth r m p = .ok R → R.dtype = dt := by
    intro f p dt hf hd h
    cases hfc : f c p with
    | error e =>
      unfold Curve.smooth smoothCall at h
      simp only [hf, bind, Except.bind, hfc] at h
      split_ifs at h
    | ok d =>
      obtain ⟨a, rfl⟩ := hd d hfc
      rw [smooth_ok hf hfc] at h
      exact hinit a dt h
  refine ⟨?_, ?_⟩
  · intro hf p h
    refine hstep _ _ _ hf ?_ h
    intro d hd
    change savgolFilter lib c p = .ok d at hd
    unfold savgolFilter at hd
    simp only at hd
    cases hco : savgolCoeffs lib p.windowLength p.polyorder p.deriv p.delta with
    | error e =>
      rw [hco] at hd
      simp only [bind, Except.bind] at hd
      split_ifs at hd
    | ok co =>
      rw [hco] at hd
      simp only [bind, Except.bind] at hd
      split_ifs at hd
      · split at hd
        · cases hd
        · split at hd
          · cases hd
          · injection hd with hd; exact ⟨_, hd.symm⟩
      · split at hd
        · cases hd
        · injection hd with hd; exact ⟨_, hd.symm⟩
  · intro hf p h
    refine hstep _ _ _ hf ?_ h
    intro d hd
    change windowFilter c p = .ok d at hd
    unfold windowFilter at hd
    cases hw : makeWindow p.wtype p.size with
    | error e => rw [hw] at hd; cases hd
    | ok w =>
      rw [hw] at hd
      simp only [bind, Except.bind] at hd
      cases hn : normWindow w with
      | error e => rw [hn] at hd; cases hd
      | ok w1 =>
        rw [hn] at hd
        cases w1 with
        | floats ws =>
          simp only at hd
          cases hm : ExtMode.ofString p.mode with
          | none => simp only [hm] at hd; split_ifs at hd
          | some e =>
            simp only [hm] at hd
            split_ifs at hd
            injection hd with hd; exact ⟨_, hd.symm⟩
        | ints _ => cases hd
        | nd => cases hd
        | other => cases hd

/-- **C76 (witness).** Window smoothing of an integer curve gives an integer curve. -/
theorem C76_int_fails {r : Reg SmoothFn} {m : String} (hf : getSmooth r m = .ok windowFn) {c : Curve ℝ} (hc : WF c) (hne : c.rows ≠ [])
    (hd : c.dtype = .int) : ∃ R, (finCurve c).smooth r m (.window { size := 3 }) = .ok R ∧ R.dtype = .int := by
  obtain ⟨ws, h1, h2, h3, _⟩ := C68_hann_partial 3 (by norm_num) (by norm_num)
  obtain ⟨c', g1, _, _, g4, _⟩ := C68_int hf h2 h3 (p := { size := 3 }) h1 (by simp [RepeatMode]) hc hne hd
  exact ⟨_, g1, g4⟩

/-! ## C77 -/

/-- **C77 (partial: the results).** Smoothing twice with the same array of finite numbers and positive sum gives the same curve twice
(in exact arithmetic), for each curve. Missing: the array itself, see `C77_window_fails`. -/
theorem C77_result_partial (c c2 : Curve (Val ℝ)) (p : WinParams) (ws : List ℝ) (hs : 0 < ws.sum) :
    (windowFilterShared c2 p (windowFilterShared c p (fins ws)).2).1 = (windowFilterShared c2 p (fins ws)).1 := by
  have hnw : ∀ us : List ℝ, us.sum ≠ 0 → normWindow (.floats (fins us)) = .ok (.floats (fins (us.map (· / us.sum)))) := by
    intro us hu
    simp only [normWindow, sumV_fins]
    congr 2
    unfold fins
    rw [List.map_map, List.map_map]
    apply List.map_congr_left
    intro x _
    exact Val.div_fin hu
  have h1 := hnw ws hs.ne'
  have h2 := hnw (ws.map (· / ws.sum)) (by rw [sum_normalised hs.ne']; norm_num)
  rw [sum_normalised hs.ne'] at h2
  have hid : ∀ l : List ℝ, l.map (· / 1) = l := by intro l; induction l with
    | nil => rfl
    | cons x l ih => rw [List.map_cons, ih, div_one]
  rw [hid] at h2
  have h3 : (windowFilterShared c p (fins ws)).2 = fins (ws.map (· / ws.sum)) := by
    simp only [windowFilterShared, h1]
  rw [h3]
  simp only [windowFilterShared, windowFilter, makeWindow, wrapErr, bind, Except.bind, h1, h2]

/-- **C77 (violated).** The array that the window function returned is divided by its sum in place. -/
theorem C77_window_fails (c : Curve (Val ℝ)) (p : WinParams) :
    ∃ w : List ℝ, (windowFilterShared c p (fins w)).2 = fins [1 / 4, 1 / 2, 1 / 4] ∧ w = [1, 2, 1] := by
  refine ⟨_, ?_, rfl⟩
  have : normWindow (.floats (fins [1, 2, 1])) = .ok (.floats (fins [1 / 4, 1 / 2, 1 / 4])) := by
    simp only [normWindow, sumV_fins]
    have e : ([1, 2, 1] : List ℝ).sum = 4 := by norm_num
    rw [e]
    simp only [fins, List.map_cons, List.map_nil, Val.div_fin (show (4 : ℝ) ≠ 0 by norm_num)]
    norm_num
  simp only [windowFilterShared, this]

/-! ## C78 -/

/-- **C78.** The points of the curve are equally spaced on a line, the window is symmetric with odd length and positive sum: every
point at least half a window away from both ends keeps its coordinates. -/
theorem C78_line {r : Reg SmoothFn} {m : String} (hf : getSmooth r m = .ok windowFn) {c : Curve ℝ} (hc : WF c) (hne : c.rows ≠ [])
    (hd : c.dtype ≠ .obj) {ws : List ℝ} (hs : 0 < ws.sum) (hsym : ws.reverse = ws) (hodd : ws.length % 2 = 1) {p : WinParams}
    (hp : makeWindow p.wtype p.size = .ok (.floats (fins ws))) (hmode : RepeatMode p.mode) (P V : Nat → ℝ)
    (hline : ∀ i j, i < c.size → j < c.ncols → at2 c.rows i j = P j + i * V j) :
    ∃ c', (finCurve c).smooth r m (.window p) = .ok (finCurve c') ∧ c'.size = c.size ∧
      ∀ i j, ws.length / 2 ≤ i → i + ws.length / 2 < c.size → j < c.ncols → at2 c'.rows i j = at2 c.rows i j := by
  obtain ⟨e, he, hm⟩ := ofString_repeat hmode
  refine ⟨_, window_outcome hf hc hne hd hs hp he hm, by simp [Curve.size], ?_⟩
  intro i j hlo hhi hj
  have hn : c.rows.length = c.size := rfl
  have hpos : 0 < c.rows.length := List.length_pos_iff.2 hne
  rw [at2_range _ _ _ (by omega) hj]
  obtain ⟨us, hus⟩ : ∃ us, us = ws.map (· / ws.sum) := ⟨_, rfl⟩
  have hul : us.length = ws.length := by rw [hus]; simp
  have husum : us.sum = 1 := by rw [hus]; exact sum_normalised hs.ne'
  have hur : ∀ k, k < us.length → us.getD (us.length - 1 - k) 0 = us.getD k 0 := by
    intro k hk
    have hrev : us.reverse = us := by rw [hus, ← List.map_reverse, hsym]
    have h1 := List.getElem_reverse (l := us) (i := k) (by simpa using hk)
    have h2 : us.reverse[k]'(by simpa using hk) = us[k] := by simp only [hrev]
    rw [List.getD_eq_getElem?_getD, List.getD_eq_getElem?_getD, List.getElem?_eq_getElem hk, List.getElem?_eq_getElem (by omega),
      Option.getD_some, Option.getD_some, ← h2, h1]
  rw [← hus, ← avgWeight_sum hm hpos us i (fun q => at2 c.rows q j)]
  have hval : ∑ k ∈ Finset.range us.length, us.getD k 0 *
      at2 c.rows (extPos e c.rows.length ((i : Int) + ((us.length / 2 : Nat) : Int) - (k : Int))) j = at2 c.rows i j := by
    have h1 : ∀ k ∈ Finset.range us.length, us.getD k 0 *
        at2 c.rows (extPos e c.rows.length ((i : Int) + ((us.length / 2 : Nat) : Int) - (k : Int))) j =
        us.getD k 0 * (P j + i * V j) + us.getD k 0 * (((us.length / 2 : Nat) : ℝ) - k) * V j := by
      intro k hk
      rw [Finset.mem_range] at hk
      have hx : extPos e c.rows.length ((i : Int) + ((us.length / 2 : Nat) : Int) - (k : Int)) = i + us.length / 2 - k := by
        unfold extPos extIndex
        rw [if_pos (by omega)]
        simp only [Option.getD_some]
        omega
      rw [hx, hline _ _ (by omega) hj, Nat.cast_sub (by omega)]
      push_cast
      ring
    rw [Finset.sum_congr rfl h1, Finset.sum_add_distrib, ← Finset.sum_mul, ← Finset.sum_mul, ← list_sum_getD, husum, one_mul]
    have h2 : ∑ k ∈ Finset.range us.length, us.getD k 0 * (((us.length / 2 : Nat) : ℝ) - k) = 0 := by
      have h3 := Finset.sum_range_reflect (fun k : Nat => us.getD k 0 * (((us.length / 2 : Nat) : ℝ) - k)) us.length
      have h4 : ∀ k ∈ Finset.range us.length, us.getD (us.length - 1 - k) 0 * (((us.length / 2 : Nat) : ℝ) - ((us.length - 1 - k : Nat) : ℝ)) =
          - (us.getD k 0 * (((us.length / 2 : Nat) : ℝ) - k)) := by
        intro k hk
        rw [Finset.mem_range] at hk
        rw [hur k hk]
        have h5 : us.length - 1 - k + k = 2 * (us.length / 2) := by omega
        have h6 : ((us.length - 1 - k : Nat) : ℝ) + k = 2 * ((us.length / 2 : Nat) : ℝ) := by exact_mod_cast h5
        have h7 : ((us.length - 1 - k : Nat) : ℝ) = 2 * ((us.length / 2 : Nat) : ℝ) - k := by linarith
        rw [h7]; ring
      rw [Finset.sum_congr rfl h4, Finset.sum_neg_distrib] at h3
      linarith
    rw [h2, zero_mul, add_zero, hline i j (by omega) hj]
  rw [hval]
  have hi : i < c.rows.length := by omega
  have hj2 : j < c.rows[i].length := by rw [hc.rect _ (List.getElem_mem hi)]; exact hj
  have : at2 c.rows i j = c.rows[i][j] := by
    unfold at2; simp [List.getD_eq_getElem?_getD, hi, hj2]
  rw [this]
  exact hc.repr _ (List.getElem_mem hi) _ (List.getElem_mem hj2)

/-! ## The hypotheses are met -/

/-- The default window is symmetric, so C78 applies to it. -/
theorem hann_symmetric (n : Nat) (h1 : 2 ≤ n) : ∃ ws : List ℝ, makeWindow (.named hann) n = .ok (.floats (fins ws)) ∧ ws.length = n ∧ ws.reverse = ws := by
  refine ⟨(List.range n).map fun (k : Nat) => 1 / 2 + 1 / 2 * Real.cos (-Real.pi + k * (2 * Real.pi / (n - 1))), ?_, by simp, ?_⟩
  · show hann n = _
    unfold hann
    rw [if_neg (by omega), if_neg (by omega)]
    simp only [Int.toNat_natCast, fins, List.map_map]
    rfl
  · apply List.ext_getElem
    · simp
    · intro i h1' h2
      simp only [List.length_map, List.length_range] at h2
      rw [List.getElem_reverse]
      simp only [List.length_map, List.length_range, List.getElem_map, List.getElem_range]
      have hn : ((n : ℝ) - 1) ≠ 0 := by
        have : (2 : ℝ) ≤ n := by exact_mod_cast h1
        linarith
      have h3 : ((n - 1 - i : Nat) : ℝ) = (n : ℝ) - 1 - i := by
        rw [Nat.cast_sub (by omega), Nat.cast_sub (by omega)]; simp
      have h4 : -Real.pi + ((n - 1 - i : Nat) : ℝ) * (2 * Real.pi / ((n : ℝ) - 1)) = - (-Real.pi + (i : ℝ) * (2 * Real.pi / ((n : ℝ) - 1))) := by
        rw [h3]; field_simp; ring
      rw [h4, Real.cos_neg]

/-- A parabola with five points. -/
def exParabola : Curve ℝ := ⟨[[0, 0], [1, 1], [2, 4], [3, 9], [4, 16]], 2, none, .float⟩

theorem exParabola_WF : WF exParabola := by
  refine ⟨by simp [exParabola], by simp [exParabola], by simp [exParabola], ?_⟩
  intro _ _ x _; rfl

/-- The second derivative of the parabola is (0, 2) everywhere, with the window length 3 and order 2. -/
example : ∃ lib, LsqOk lib ∧ ∃ c', (finCurve exParabola).smooth (smoothReg (savgolFn lib)) "savgol"
    (.savgol { windowLength := 3, polyorder := 2, deriv := 2 }) = .ok (finCurve c') ∧ ∀ i, i < 5 → at2 c'.rows i 1 = 2 := by
  obtain ⟨lib, hl, _⟩ := exists_LsqLib false
  refine ⟨lib, hl, ?_⟩
  obtain ⟨c', h1, _, _, _, _, h6, _⟩ := C79_interp hl (smoothReg_savgol (savgolFn lib)) exParabola_WF (wl := 3) (po := 2) (by norm_num)
    (by simp [exParabola, Curve.size]) (by norm_num) 2 1 0 (.inl one_ne_zero)
    (fun j => if j = 0 then Polynomial.X else Polynomial.X ^ 2) (by
      intro j _
      split_ifs
      · exact Polynomial.natDegree_X_le.trans (by norm_num)
      · simp) (by
      intro i j hi hj
      have hi' : i < 5 := hi
      have hj' : j < 2 := hj
      match i, hi', j, hj' with
      | 0, _, 0, _ => simp [exParabola, at2]
      | 0, _, 1, _ => simp [exParabola, at2]
      | 1, _, 0, _ => simp [exParabola, at2]
      | 1, _, 1, _ => simp [exParabola, at2]
      | 2, _, 0, _ => simp [exParabola, at2]
      | 2, _, 1, _ => simp [exParabola, at2]; norm_num
      | 3, _, 0, _ => simp [exParabola, at2]
      | 3, _, 1, _ => simp [exParabola, at2]; norm_num
      | 4, _, 0, _ => simp [exParabola, at2]
      | 4, _, 1, _ => simp [exParabola, at2]; norm_num)
  refine ⟨c', h1, ?_⟩
  intro i hi
  rw [h6 i 1 hi (by simp [exParabola])]
  simp [Function.iterate_succ]
  norm_num

/-! ## Concrete cases -/

example (p : SmoothParams) := (C67_errors (smoothReg (exFailing .typeError)) (finCurve exTri) "savgol" p).2.1 _ _ (smoothReg_savgol _) rfl (.inr rfl)
example (p : SmoothParams) := (C67_errors (smoothReg (exFailing .runtimeError)) (finCurve exTri) "savgol" p).2.2 _ _ (smoothReg_savgol _) rfl (by simp) (by simp)
example (p : SmoothParams) := (C67_result_partial (smoothReg_savgol fun _ _ => .ok (.arr (NdArr.ofRows (.fin 0) [[.fin 1, .fin 2]] 2) .float)) (finCurve exTri) p).2
  _ _ _ rfl le_rfl (by simp) (fun _ _ _ _ => rfl)

theorem exParabola_at {i j : Nat} (hi : i < 5) (hj : j < 2) : at2 exParabola.rows i j = (if j = 0 then (Polynomial.X : Polynomial ℝ) else Polynomial.X ^ 2).eval (i : ℝ) := by
  interval_cases i <;> interval_cases j <;> norm_num [exParabola, at2]

example : ∃ lib, LsqOk lib ∧ ∃ R, (finCurve exParabola).smooth (smoothReg (savgolFn lib)) "savgol" (.savgol ⟨3, 2, 0, 1, "mirror", 0⟩) = .ok R := by
  obtain ⟨lib, hl, _⟩ := exists_LsqLib false
  obtain ⟨R, hR, -⟩ := C79_interior hl (smoothReg_savgol (savgolFn lib)) exParabola_WF (by simp [exParabola]) (wl := 3) (po := 2) (by norm_num) (.inl rfl) 0 1 0
    (.inl one_ne_zero) (mode := "mirror") (by simp) (fun j => if j = 0 then Polynomial.X else Polynomial.X ^ 2) (by
      intro j _
      split_ifs
      · exact Polynomial.natDegree_X_le.trans (by norm_num)
      · simp) (fun i j hi hj => exParabola_at hi hj)
  exact ⟨lib, hl, R, hR⟩
example (lib : LsqLib) := C79_errors (smoothReg_savgol (savgolFn lib)) (finCurve exParabola) { windowLength := 3, polyorder := 3 } (.inr (.inl le_rfl))
example (lib : LsqLib) (R : Curve (Val ℝ)) := (C76_dtype_partial (lib := lib) (finCurve exParabola) R).1 (smoothReg_savgol (savgolFn lib)) { windowLength := 3, polyorder := 2 }
example := C77_result_partial (finCurve exParabola) (finCurve exTri) { size := 3 } [1, 2, 1] (by norm_num)
example := C78_line (smoothReg_window (exFailing .runtimeError)) (c := ⟨[[1, 0], [2, 2], [3, 4]], 2, none, .float⟩) ⟨by simp, by simp, by simp, by intro r _ x _; rfl⟩
  (by simp) (by simp) (ws := [1, 2, 1]) (by norm_num) rfl rfl (p := { size := 3, wtype := .callable fun _ => .ok (.floats (fins [1, 2, 1])) }) rfl (by simp [RepeatMode])
  (fun j => if j = 0 then 1 else 0) (fun j => j + 1) (by
    intro i j hi hj
    have hi : i < 3 := hi
    have hj : j < 2 := hj
    interval_cases i <;> interval_cases j <;> norm_num [at2])

end Verif.Props
