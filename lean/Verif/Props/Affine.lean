import Verif.Spec.Affine
import Verif.Lemmas.PolyFit
import Verif.Props.Savgol

/-!
Smoothing, linear and natural cubic interpolation commute with affine maps: C99.
-/
namespace Verif.Props

open Verif Verif.Np Verif.Model Verif.Spec

/-! ## Smoothing -/

/-- **C99 (window).** For a window of positive sum and a mode that repeats points, window smoothing of float curves is a linear
filter with weights of sum 1. -/
theorem C99_window {r : Reg SmoothFn} {m : String} (hf : getSmooth r m = .ok windowFn) {ws : List ℝ} (hs : 0 < ws.sum)
    {p : WinParams} (hp : makeWindow p.wtype p.size = .ok (.floats (fins ws))) (hmode : RepeatMode p.mode) (n : Nat) (hn : 0 < n) :
    LinearFilter n 1 (fun c => c.dtype = .float) fun c => c.smooth r m (.window p) := by
  obtain ⟨e, he, hm⟩ := ofString_repeat hmode
  refine ⟨fun i q => avgWeight e n (ws.map (· / ws.sum)) i q, ?_, ?_⟩
  · intro i _
    rw [avgWeight_total hm hn, sum_normalised hs.ne']
  · intro c hc hsz hd
    have hl : c.rows.length = n := hsz
    have hne : c.rows ≠ [] := by intro h; rw [h] at hl; simp at hl; omega
    refine ⟨_, window_outcome hf hc hne (by rw [hd]; simp) hs hp he hm, ⟨hc.two_le, ?_, by simp, ?_⟩, by simp [Curve.size, hl], rfl, hd, rfl, ?_⟩
    · intro row hrow
      obtain ⟨i, _, rfl⟩ := List.mem_map.1 hrow
      simp
    · intro row _ x _; simp [hd, DType.cast]
    · intro i j hi hj
      rw [hl]
      rw [at2_range _ _ _ hi hj, hd]
      rfl

/-- One edge, as combination of the data. -/
theorem fitEdge_linear {lib : LsqLib} (hl : LsqOk lib) {N po d : Nat} {delta : ℝ} (hpo : po < N) (hdel : delta ≠ 0 ∨ d = 0) :
    ∃ E : ℝ → Nat → ℝ, (∀ x, ∑ k ∈ Finset.range N, E x k = if d = 0 then 1 else 0) ∧
      ∀ (rows : List (List ℝ)) (ncols ws is ie : Nat) (y : List (List (Val ℝ))), ws + N ≤ rows.length →
        fitEdge lib (rows.map fins) ncols ws (ws + N) is ie po d delta y = .ok ((List.range y.length).map fun (i : Nat) =>
          if is ≤ i ∧ i < ie then (List.range ncols).map fun j => Val.fin (∑ k ∈ Finset.range N, E ((i : ℝ) - ws) k * at2 rows (ws + k) j)
          else y.getD i []) := by
  have hne : delta ^ d ≠ 0 := by
    rcases hdel with h | h
    · exact pow_ne_zero _ h
    · simp [h]
  obtain ⟨G, hG1, hG⟩ := polyfit_linear hl hpo
  refine ⟨fun x k => ((Polynomial.derivative^[d]) (G k)).eval x / delta ^ d, ?_, ?_⟩
  · intro x
    have h1 : ∑ k ∈ Finset.range N, ((Polynomial.derivative^[d]) (G k)).eval x = ((Polynomial.derivative^[d]) (1 : Polynomial ℝ)).eval x := by
      rw [← hG1, Polynomial.iterate_derivative_sum, Polynomial.eval_finset_sum]
    rw [← Finset.sum_div, h1]
    split_ifs with h
    · subst h; simp
    · rw [Polynomial.iterate_derivative_one (by omega)]; simp
  · intro rows ncols ws is ie y hw
    have hfit : ∀ j ∈ List.range ncols,
        lib.polyfit ((List.range (ws + N - ws)).map fun (k : Nat) => ((rows.map fins).getD (ws + k) []).getD j (.fin 0)) (po : Int).toNat =
          .ok (∑ k ∈ Finset.range N, Polynomial.C (at2 rows (ws + k) j) * G k) := by
      intro j hj
      rw [List.mem_range] at hj
      have e : ((List.range (ws + N - ws)).map fun (k : Nat) => ((rows.map fins).getD (ws + k) []).getD j (.fin 0)) =
          fins ((List.range N).map fun (k : Nat) => at2 rows (ws + k) j) := by
        unfold fins
        rw [List.map_map, Nat.add_sub_cancel_left]
        apply List.map_congr_left
        intro k _
        exact getD_map_fins rows _ j
      rw [e, Int.toNat_natCast, hG _ (by simp)]
      congr 1
      apply Finset.sum_congr rfl
      intro k hk
      rw [Finset.mem_range] at hk
      simp [List.getD_eq_getElem?_getD, hk]
    unfold fitEdge
    rw [if_neg (by omega)]
    simp only [savgol_mapM _ _ _ hfit, bind, Except.bind, List.map_map]
    congr 1
    apply List.map_congr_left
    intro i _
    split_ifs
    · apply List.map_congr_left
      intro j _
      simp only [Function.comp]
      rw [Val.div_fin hne, Polynomial.iterate_derivative_sum, Polynomial.eval_finset_sum, Finset.sum_div]
      congr 1
      apply Finset.sum_congr rfl
      intro k _
      rw [Polynomial.iterate_derivative_C_mul, Polynomial.eval_mul, Polynomial.eval_C]
      ring
    · rfl

theorem sum_weights_hi {n wl : Nat} (h : wl ≤ n) (E f : Nat → ℝ) :
    ∑ q ∈ Finset.range n, (if n - wl ≤ q then E (q - (n - wl)) else 0) * f q = ∑ k ∈ Finset.range wl, E k * f (n - wl + k) := by
  obtain ⟨a, rfl⟩ : ∃ a, n = a + wl := ⟨n - wl, by omega⟩
  rw [Finset.sum_range_add, Nat.add_sub_cancel]
  rw [Finset.sum_eq_zero, zero_add]
  · apply Finset.sum_congr rfl
    intro k _
    rw [if_pos (by omega), Nat.add_sub_cancel_left]
  · intro q hq
    rw [Finset.mem_range] at hq
    rw [if_neg (by omega), zero_mul]

theorem sum_weights_lo {n wl : Nat} (h : wl ≤ n) (E f : Nat → ℝ) :
    ∑ q ∈ Finset.range n, (if q < wl then E q else 0) * f q = ∑ k ∈ Finset.range wl, E k * f (0 + k) := by
  obtain ⟨a, rfl⟩ : ∃ a, n = wl + a := ⟨n - wl, by omega⟩
  rw [Finset.sum_range_add]
  rw [Finset.sum_eq_zero (s := Finset.range a), add_zero]
  · apply Finset.sum_congr rfl
    intro k hk
    rw [Finset.mem_range] at hk
    rw [if_pos hk, zero_add]
  · intro q _
    rw [if_neg (by omega), zero_mul]

theorem sum_weights_mid {n wl s : Nat} (h1 : wl ≤ s + 1) (h2 : s < n) (E f : Nat → ℝ) :
    ∑ q ∈ Finset.range n, (if q ≤ s ∧ s < q + wl then E (s - q) else 0) * f q = ∑ k ∈ Finset.range wl, E k * f (s - k) := by
  simp only [ite_mul, zero_mul]
  rw [← Finset.sum_filter]
  refine Finset.sum_nbij' (fun q => s - q) (fun k => s - k) ?_ ?_ ?_ ?_ ?_
  · intro q hq; simp at hq ⊢; omega
  · intro k hk; simp at hk ⊢; omega
  · intro q hq; simp at hq ⊢; omega
  · intro k hk; simp at hk ⊢; omega
  · intro q hq
    simp at hq
    rw [show s - (s - q) = q by omega]

theorem savgol_coeff_sum {lib : LsqLib} (hl : LsqOk lib) {wl po d : Nat} {delta : ℝ} (hpo : po < wl)
    (hodd : wl % 2 = 1 ∨ lib.evenOk = true) (hdel : delta ≠ 0 ∨ d = 0) :
    ∃ c, savgolCoeffs lib wl po d delta = .ok c ∧ c.length = wl ∧ c.sum = if d = 0 then 1 else 0 := by
  obtain ⟨c, h1, h2, h3⟩ := savgolCoeffs_ok hl hpo hodd hdel
  refine ⟨c, h1, h2, ?_⟩
  have := h3 1 0 (by simp)
  simp only [Polynomial.eval_one, mul_one] at this
  rw [list_sum_getD, h2, this]
  split_ifs with h
  · subst h; simp
  · rw [Polynomial.iterate_derivative_one (by omega)]; simp

/-- **C99 (Savitzky-Golay).** For accepted parameters and a mode other than `constant`, the Savitzky-Golay filter is a linear
filter; the weights have sum 1 if no derivative is asked for and 0 otherwise. -/
theorem C99_savgol {lib : LsqLib} (hl : LsqOk lib) {r : Reg SmoothFn} {m : String} (hf : getSmooth r m = .ok (savgolFn lib))
    {wl po : Nat} (hpo : po < wl) (hodd : wl % 2 = 1 ∨ lib.evenOk = true) (d : Nat) (delta cval : ℝ) (hdel : delta ≠ 0 ∨ d = 0)
    {mode : String} (n : Nat) (hn : 0 < n) (hmode : mode ∈ ["mirror", "nearest", "wrap"] ∨ mode = "interp" ∧ wl ≤ n) :
    LinearFilter n (if d = 0 then 1 else 0) (fun _ => True) fun c => c.smooth r m (.savgol ⟨wl, po, d, delta, mode, cval⟩) := by
  obtain ⟨co, h1, h2, h3⟩ := savgol_coeff_sum hl hpo hodd hdel
  -- it is enough to give the entries of the array
  suffices H : ∃ B : Nat → Nat → ℝ, (∀ i, i < n → ∑ q ∈ Finset.range n, B i q = if d = 0 then 1 else 0) ∧
      ∀ c : Curve ℝ, WF c → c.size = n → savgolFilter lib (finCurve c) ⟨wl, po, d, delta, mode, cval⟩ =
        .ok (.arr (NdArr.ofRows (.fin 0) (((List.range n).map fun (i : Nat) => (List.range c.ncols).map fun j =>
          ∑ q ∈ Finset.range n, B i q * at2 c.rows q j).map fins) c.ncols) .float) by
    obtain ⟨B, hB1, hB⟩ := H
    refine ⟨B, hB1, ?_⟩
    intro c hc hsz _
    refine ⟨⟨(List.range n).map fun (i : Nat) => (List.range c.ncols).map fun j => ∑ q ∈ Finset.range n, B i q * at2 c.rows q j,
      c.ncols, none, .float⟩, ?_, ⟨hc.two_le, ?_, by simp, fun _ _ _ _ => rfl⟩, by simp [Curve.size], rfl, rfl, rfl, ?_⟩
    · show Curve.smooth r (finCurve c) m _ = _
      rw [smooth_ok hf (p := .savgol _) (hB c hc hsz)]
      refine init_fin_rows _ hc.two_le ?_ ?_
      · simp; omega
      · intro row hrow; obtain ⟨i, _, rfl⟩ := List.mem_map.1 hrow; simp
    · intro row hrow
      obtain ⟨i, _, rfl⟩ := List.mem_map.1 hrow
      simp
    · intro i j hi hj
      exact at2_range _ _ _ hi hj
  rcases hmode with hmode | ⟨rfl, hwl⟩
  · obtain ⟨e, he, hm⟩ := ofString_repeat (mode := mode) (by simp [RepeatMode] at hmode ⊢; tauto)
    refine ⟨fun i q => avgWeight e n co i q, ?_, ?_⟩
    · intro i _
      rw [avgWeight_total hm hn, h3]
    · intro c hc hsz
      have hlen : c.rows.length = n := hsz
      have hne : c.rows ≠ [] := by intro h; rw [h] at hlen; simp at hlen; omega
      unfold savgolFilter
      simp only
      rw [if_neg (by rw [not_not]; simp at hmode ⊢; tauto), h1]
      simp only [bind, Except.bind]
      rw [if_neg (by rintro rfl; simp at hmode)]
      simp only [he]
      congr 3
      show convolve1d (c.rows.map fins) c.ncols .float (fins co) e (.fin cval) = _
      unfold convolve1d
      rw [List.map_map, List.length_map, hlen]
      apply List.map_congr_left
      intro i _
      simp only [Function.comp]
      refine Eq.trans ?_ (List.map_map (g := Val.fin)).symm
      apply List.map_congr_left
      intro j _
      have := conv_entry c.rows hne hm (.fin cval) co (i : Int) j
      rw [hlen] at this
      rw [this, avgWeight_sum hm hn co i (fun q => at2 c.rows q j)]
      rfl
  · obtain ⟨E, hE1, hE⟩ := fitEdge_linear hl hpo hdel
    -- the rows of weights: first edge, last edge, interior
    refine ⟨fun i q =>
      if n - wl / 2 ≤ i then (if n - wl ≤ q then E ((i : ℝ) - ((n - wl : Nat) : ℝ)) (q - (n - wl)) else 0)
      else if i < wl / 2 then (if q < wl then E ((i : ℝ) - ((0 : Nat) : ℝ)) q else 0)
      else (if q ≤ i + wl / 2 ∧ i + wl / 2 < q + wl then co.getD (i + wl / 2 - q) 0 else 0), ?_, ?_⟩
    · intro i hi
      by_cases g1 : n - wl / 2 ≤ i
      · have := sum_weights_hi hwl (E ((i : ℝ) - ((n - wl : Nat) : ℝ))) fun _ => 1
        simp only [mul_one] at this
        simp only [if_pos g1]
        rw [this, hE1]
      · by_cases g2 : i < wl / 2
        · have := sum_weights_lo hwl (E ((i : ℝ) - ((0 : Nat) : ℝ))) fun _ => 1
          simp only [mul_one] at this
          simp only [if_neg g1, if_pos g2]
          rw [this, hE1]
        · have := sum_weights_mid (n := n) (wl := wl) (s := i + wl / 2) (by omega) (by omega) (fun k => co.getD k 0) fun _ => 1
          simp only [mul_one] at this
          simp only [if_neg g1, if_neg g2]
          rw [this, ← h2, ← list_sum_getD, h3]
    · intro c hc hsz
      have hlen : c.rows.length = n := hsz
      have hfr : (finCurve c).rows = c.rows.map fins := rfl
      have hfn : (finCurve c).ncols = c.ncols := rfl
      have hsz' : (finCurve c).size = n := by simp [finCurve, Curve.size, hlen]
      unfold savgolFilter
      simp only
      rw [if_neg (by simp), h1]
      simp only [bind, Except.bind]
      rw [if_pos trivial, hsz', if_neg (by omega), hfr, hfn]
      simp only [Int.toNat_natCast]
      obtain ⟨y0, hy0⟩ : ∃ y0, y0 = convolve1d (c.rows.map fins) c.ncols .float (co.map Val.fin) .constant (.fin 0) := ⟨_, rfl⟩
      have hy0l : y0.length = n := by rw [hy0]; simp [convolve1d, hlen]
      have e1 := hE c.rows c.ncols 0 0 (wl / 2) y0 (by omega)
      rw [zero_add] at e1
      rw [← hy0, e1]
      simp only
      have e2 := hE c.rows c.ncols (n - wl) (n - wl / 2) n ((List.range y0.length).map fun (i : Nat) =>
          if 0 ≤ i ∧ i < wl / 2 then (List.range c.ncols).map fun j => Val.fin (∑ k ∈ Finset.range wl, E ((i : ℝ) - ((0 : Nat) : ℝ)) k * at2 c.rows (0 + k) j)
          else y0.getD i []) (by omega)
      rw [show n - wl + wl = n by omega] at e2
      rw [e2]
      simp only [List.length_map, List.length_range, hy0l]
      congr 3
      rw [List.map_map]
      apply List.map_congr_left
      intro i hi
      rw [List.mem_range] at hi
      simp only [Function.comp]
      refine Eq.trans ?_ (List.map_map (g := Val.fin)).symm
      simp only [Function.comp_def]
      by_cases g1 : n - wl / 2 ≤ i
      · rw [if_pos ⟨g1, hi⟩]
        simp only [if_pos g1]
        apply List.map_congr_left
        intro j _
        rw [sum_weights_hi hwl (E ((i : ℝ) - ((n - wl : Nat) : ℝ))) fun q => at2 c.rows q j]
      · rw [if_neg (by tauto), List.getD_eq_getElem?_getD, List.getElem?_map, List.getElem?_range hi, Option.map_some, Option.getD_some]
        simp only [if_neg g1]
        by_cases g2 : i < wl / 2
        · rw [if_pos ⟨by omega, g2⟩]
          simp only [if_pos g2]
          apply List.map_congr_left
          intro j _
          rw [sum_weights_lo hwl (E ((i : ℝ) - ((0 : Nat) : ℝ))) fun q => at2 c.rows q j]
        · rw [if_neg (by tauto)]
          simp only [if_neg g2]
          have hl0 : (y0.getD i []).length = c.ncols := by
            rw [hy0]; unfold convolve1d
            simp [List.getD_eq_getElem?_getD, hlen, hi]
          apply List.ext_getElem
          · rw [hl0]; simp
          · intro j hj1 hj2
            rw [hl0] at hj1
            have hv := savgol_conv_row (rows := c.rows) (ncols := c.ncols) co .constant (.fin 0) (i := i) (j := j) (by omega) hj1
              (by omega) (by omega)
            rw [← hy0, h2] at hv
            have hget : (y0.getD i [])[j] = (y0.getD i []).getD j (.fin 0) := by
              rw [List.getD_eq_getElem?_getD (l := y0.getD i []), List.getElem?_eq_getElem (by rw [hl0]; exact hj1), Option.getD_some]
            rw [hget, hv]
            simp only [List.getElem_map, List.getElem_range]
            congr 1
            exact (sum_weights_mid (n := n) (wl := wl) (s := i + wl / 2) (by omega) (by omega) (fun k => co.getD k 0) fun q => at2 c.rows q j).symm

/-- **C99 (affine maps).** A linear filter with weights of sum `s` commutes with affine maps `x ↦ M x + b`, where the translation
is multiplied by `s`: with `s = 1` (window, Savitzky-Golay without derivative) the result of the image is the image of the result,
also for maps into another dimension. -/
theorem C99_smooth {n : Nat} {s : ℝ} {ok : Curve ℝ → Prop} {f : Curve (Val ℝ) → Except PyErr (Curve (Val ℝ))} (h : LinearFilter n s ok f)
    {M : Nat → Nat → ℝ} {b : Nat → ℝ} {c c' : Curve ℝ} (hc : WF c) (hc' : WF c') (hn : c.size = n) (hk : ok c) (hk' : ok c')
    (hA : AffineImage M b c c') :
    ∃ d d', f (finCurve c) = .ok (finCurve d) ∧ f (finCurve c') = .ok (finCurve d') ∧ d.ncols = c.ncols ∧ d'.ncols = c'.ncols ∧
      d.size = n ∧ AffineImage M (fun j => s * b j) d d' := by
  obtain ⟨B, hB1, hB⟩ := h
  obtain ⟨d, e1, _, e3, e4, _, _, e7⟩ := hB c hc hn hk
  obtain ⟨d', g1, _, g3, g4, _, _, g7⟩ := hB c' hc' (hA.size.trans hn) hk'
  refine ⟨d, d', e1, g1, e4, g4, e3, g3.trans e3.symm, ?_⟩
  intro i j hi hj
  rw [e3] at hi
  rw [g4] at hj
  rw [g7 i j hi hj, e4]
  have h1 : ∀ q ∈ Finset.range n, B i q * at2 c'.rows q j =
      ∑ k ∈ Finset.range c.ncols, M j k * (B i q * at2 c.rows q k) + B i q * b j := by
    intro q hq
    rw [hA.pts q j (by rw [hn]; exact Finset.mem_range.1 hq) hj, mul_add, Finset.mul_sum]
    congr 1
    apply Finset.sum_congr rfl
    intro k _
    ring
  rw [Finset.sum_congr rfl h1, Finset.sum_add_distrib, ← Finset.sum_mul, hB1 i hi, Finset.sum_comm]
  congr 1
  apply Finset.sum_congr rfl
  intro k hk
  rw [← Finset.mul_sum, e7 i k hi (Finset.mem_range.1 hk)]

end Verif.Props
