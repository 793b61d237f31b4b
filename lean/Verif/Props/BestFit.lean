import Verif.Props.Boundary
import Verif.Lemmas.BestFit

/-!
C101: the Savitzky-Golay filter fits polynomials by least squares.
-/
namespace Verif.Props

open Verif Verif.Np Verif.Model Verif.Spec

/-- **C101 (existence).** There is a best polynomial for every window, and only one if the order is below the window length. -/
theorem C101_best (po : Nat) (a : ℤ) (wl : Nat) (z : ℤ → ℝ) : (∃ P, BestFit po a wl z P) ∧
    (po < wl → ∀ P P', BestFit po a wl z P → BestFit po a wl z P' → P = P') :=
  ⟨bestFit_exists po a wl z, fun hpo _ _ h h' => bestFit_unique hpo h h'⟩

/-- What the coefficients do to a window. -/
theorem coeffs_best {lib : LsqLib} (hl : MinNormOk lib) {wl po d : Nat} {delta : ℝ} {co : List ℝ}
    (h1 : savgolCoeffs lib wl po d delta = .ok co) (hpo : po < wl) (hodd : wl % 2 = 1) (hdel : delta ≠ 0 ∨ d = 0) (z : ℤ → ℝ) (i : ℤ)
    {P : Polynomial ℝ} (hP : BestFit po (i - (wl / 2 : Nat)) wl z P) :
    ∑ k ∈ Finset.range wl, co.getD k 0 * z (i + (wl / 2 : Nat) - k) = ((Polynomial.derivative^[d]) P).eval (i : ℝ) / delta ^ d := by
  obtain ⟨co', h1', h2, h3⟩ := savgolCoeffs_ok hl.toLsqOk hpo (.inl hodd) hdel
  rw [h1] at h1'
  injection h1' with h1'
  subst h1'
  rw [if_pos hodd, sub_zero] at h3
  rw [← h3 P i hP.deg, ← sub_eq_zero, ← Finset.sum_sub_distrib]
  have ho := bestFit_orth hP
  have hwl : wl = 2 * (wl / 2) + 1 := by omega
  have hpos : ∀ k, k < wl → (i - (wl / 2 : Nat) : ℤ) + ((wl - 1 - k : Nat) : ℤ) = i + (wl / 2 : Nat) - k := by
    intro k hk
    omega
  refine Eq.trans ?_ (savgolCoeffs_orth hl h1 (fun k => z (i + (wl / 2 : Nat) - k) - P.eval ((i : ℝ) + ((wl / 2 : Nat) : ℝ) - k)) ?_)
  · apply Finset.sum_congr rfl
    intro k _
    rw [← add_sub_assoc]; ring
  · intro Q hQ
    have hQ' : (Q.comp (Polynomial.C ((wl : ℝ) - 1) - Polynomial.X)).natDegree ≤ po := by
      refine Polynomial.natDegree_comp_le.trans ?_
      have : (Polynomial.C ((wl : ℝ) - 1) - Polynomial.X : Polynomial ℝ).natDegree ≤ 1 :=
        (Polynomial.natDegree_sub_le _ _).trans (max_le (by rw [Polynomial.natDegree_C]; omega) Polynomial.natDegree_X_le)
      calc Q.natDegree * _ ≤ Q.natDegree * 1 := Nat.mul_le_mul_left _ this
        _ ≤ po := by omega
    have h := ho.orth _ hQ'
    rw [← Finset.sum_range_reflect] at h
    rw [← neg_eq_zero, ← Finset.sum_neg_distrib]
    refine Eq.trans ?_ h
    apply Finset.sum_congr rfl
    intro k hk
    rw [Finset.mem_range] at hk
    have e1 : ((wl - 1 - k : Nat) : ℝ) = (wl : ℝ) - 1 - k := by
      rw [Nat.cast_sub (by omega), Nat.cast_sub (by omega)]; simp
    have e2 : (wl : ℝ) = 2 * ((wl / 2 : Nat) : ℝ) + 1 := by exact_mod_cast hwl
    rw [hpos k hk, Polynomial.taylor_eval, Polynomial.eval_comp, e1]
    simp only [Polynomial.eval_sub, Polynomial.eval_C, Polynomial.eval_X]
    have e3 : (wl : ℝ) - 1 - k + ((i - (wl / 2 : Nat) : ℤ) : ℝ) = (i : ℝ) + ((wl / 2 : Nat) : ℝ) - k := by
      rw [Int.cast_sub, Int.cast_natCast, e2]
      ring
    have e4 : (wl : ℝ) - 1 - ((wl : ℝ) - 1 - k) = k := by ring
    rw [e3, e4]
    ring

/-- **C101 (modes mirror, nearest, wrap, constant).** With an odd window length point `i` of the result is the derivative of order `deriv`
(divided by `delta ^ deriv`) at `i` of the best polynomial of degree at most `polyorder` through the window centered at `i`, where the
curve is continued beyond its ends as the mode says. -/
theorem C101_modes {lib : LsqLib} (hl : MinNormOk lib) {r : Reg SmoothFn} {name : String} (hf : getSmooth r name = .ok (savgolFn lib))
    {wl po : Nat} (hpo : po < wl) (hodd : wl % 2 = 1) (d : Nat) {delta : ℝ} (hdel : delta ≠ 0 ∨ d = 0)
    {c : Curve ℝ} (hc : WF c) (hne : c.rows ≠ []) {mode : String} (hmode : BoundaryMode mode) (hrf : mode ≠ "reflect") (cv : ℝ)
    {e : Nat → ℤ → ℝ} (he : ∀ j, j < c.ncols → Continues mode c.size cv (fun q => at2 c.rows q j) (e j)) :
    ∃ c', (finCurve c).smooth r name (.savgol ⟨wl, po, d, delta, mode, cv⟩) = .ok (finCurve c') ∧ WF c' ∧ c'.size = c.size ∧
      c'.ncols = c.ncols ∧ c'.tdata = none ∧ c'.dtype = .float ∧ ∀ i j, i < c.size → j < c.ncols →
        ∀ P, BestFit po ((i : ℤ) - (wl / 2 : Nat)) wl (e j) P →
          at2 c'.rows i j = ((Polynomial.derivative^[d]) P).eval (i : ℝ) / delta ^ d := by
  obtain ⟨co, h1, h2, _⟩ := savgolCoeffs_ok hl.toLsqOk hpo (.inl hodd) hdel
  obtain ⟨c', g1, g0, g2, g3, g4, g5, g6⟩ := savgol_continued hf h1 h2 hc hne hmode hrf cv he
  refine ⟨c', g1, g0, g2, g3, g4, g5, ?_⟩
  intro i j hi hj P hP
  rw [g6 i j hi hj, coeffs_best hl h1 hpo hodd hdel (e j) i hP]
  simp

/-- One edge. -/
theorem fitEdge_best {lib : LsqLib} (hl : LsqOk lib) {rows : List (List ℝ)} {ncols ws N is ie po d : Nat} {delta : ℝ} (hpo : po < N)
    (hdel : delta ≠ 0 ∨ d = 0) (q : Nat → Polynomial ℝ)
    (hq : ∀ j, j < ncols → BestFit po ws N (fun x => at2 rows x.toNat j) (q j)) (y : List (List (Val ℝ))) :
    fitEdge lib (rows.map fins) ncols ws (ws + N) is ie po d delta y = .ok ((List.range y.length).map fun (i : Nat) =>
      if is ≤ i ∧ i < ie then (List.range ncols).map fun j => Val.fin (((Polynomial.derivative^[d]) (q j)).eval (i : ℝ) / delta ^ d)
      else y.getD i []) := by
  have hne : delta ^ d ≠ 0 := by
    rcases hdel with h | h
    · exact pow_ne_zero _ h
    · simp [h]
  have hfit : ∀ j ∈ List.range ncols,
      lib.polyfit ((List.range (ws + N - ws)).map fun (k : Nat) => ((rows.map fins).getD (ws + k) []).getD j (.fin 0)) (po : Int).toNat =
        .ok ((q j).comp (Polynomial.X + Polynomial.C (ws : ℝ))) := by
    intro j hj
    rw [List.mem_range] at hj
    have e : ((List.range (ws + N - ws)).map fun (k : Nat) => ((rows.map fins).getD (ws + k) []).getD j (.fin 0)) =
        fins (winList ws N (fun x => at2 rows x.toNat j)) := by
      unfold fins winList
      rw [List.map_map, Nat.add_sub_cancel_left]
      apply List.map_congr_left
      intro k _
      simp only [Function.comp]
      rw [show ((ws : ℤ) + (k : ℤ)).toNat = ws + k by omega]
      exact getD_map_fins rows _ j
    rw [e]
    obtain ⟨P, h1, h2, h3⟩ := hl.polyfit_min (winList ws N (fun x => at2 rows x.toNat j)) po (by simpa [winList] using hpo)
    rw [Int.toNat_natCast, h1]
    congr 1
    have := bestFit_unique hpo (hq j hj) (bestFit_of_polyErr h2 h3)
    rw [this, ← Polynomial.taylor_apply, Polynomial.taylor_taylor]
    simp
  unfold fitEdge
  rw [if_neg (by omega)]
  simp only [savgol_mapM _ _ _ hfit, bind, Except.bind, List.map_map]
  congr 1
  apply List.map_congr_left
  intro i _
  split_ifs
  · apply List.map_congr_left
    intro j _
    simp only [Function.comp, iter_derivative_comp]
    rw [Val.div_fin hne, Polynomial.eval_comp]
    simp
  · rfl

/-- **C101 (mode interp).** With an odd window length, not longer than the curve, point `i` of the result is the derivative of order `deriv`
(divided by `delta ^ deriv`) at `i` of the best polynomial of degree at most `polyorder` through a window within the curve: the one centered
at `i` or, near the ends, the first or the last one. -/
theorem C101_interp {lib : LsqLib} (hl : MinNormOk lib) {r : Reg SmoothFn} {name : String} (hf : getSmooth r name = .ok (savgolFn lib))
    {wl po : Nat} (hpo : po < wl) (hodd : wl % 2 = 1) (d : Nat) {delta : ℝ} (hdel : delta ≠ 0 ∨ d = 0)
    {c : Curve ℝ} (hc : WF c) (hwl : wl ≤ c.size) (cv : ℝ) :
    ∃ c', (finCurve c).smooth r name (.savgol ⟨wl, po, d, delta, "interp", cv⟩) = .ok (finCurve c') ∧ WF c' ∧ c'.size = c.size ∧
      c'.ncols = c.ncols ∧ c'.tdata = none ∧ c'.dtype = .float ∧ ∀ i j a : Nat, i < c.size → j < c.ncols → a + wl ≤ c.size →
        a + wl / 2 = i ∨ (a = 0 ∧ i < wl / 2) ∨ (a + wl = c.size ∧ c.size ≤ i + wl / 2) →
        ∀ P, BestFit po a wl (fun q => at2 c.rows q.toNat j) P →
          at2 c'.rows i j = ((Polynomial.derivative^[d]) P).eval (i : ℝ) / delta ^ d := by
  have hn : c.rows.length = c.size := rfl
  have hne : c.rows ≠ [] := by intro h; rw [h] at hn; simp at hn; omega
  obtain ⟨co, h1, h2, _⟩ := savgolCoeffs_ok hl.toLsqOk hpo (.inl hodd) hdel
  choose B hB using fun (a : Nat) j => bestFit_exists po a wl (fun q => at2 c.rows q.toNat j)
  obtain ⟨st, hst⟩ : ∃ st : Nat → Nat, st = fun i => if i < wl / 2 then 0 else if c.size ≤ i + wl / 2 then c.size - wl else i - wl / 2 := ⟨_, rfl⟩
  obtain ⟨R, hR⟩ : ∃ R : List (List ℝ), R = (List.range c.size).map fun (i : Nat) => (List.range c.ncols).map fun j =>
    ((Polynomial.derivative^[d]) (B (st i) j)).eval (i : ℝ) / delta ^ d := ⟨_, rfl⟩
  have hRl : R.length = c.size := by rw [hR]; simp
  have hRne : R ≠ [] := by intro h; rw [h] at hRl; simp at hRl; omega
  have hrow : ∀ row ∈ R, row.length = c.ncols := by
    intro row hrow
    rw [hR] at hrow
    obtain ⟨i, _, rfl⟩ := List.mem_map.1 hrow
    simp
  obtain ⟨y0, hy0⟩ : ∃ y0, y0 = convolve1d (c.rows.map fins) c.ncols .float (co.map Val.fin) .constant (.fin 0) := ⟨_, rfl⟩
  have hy0l : y0.length = c.size := by rw [hy0]; simp [convolve1d, hn]
  have hmid : ∀ i, i < c.size → wl / 2 ≤ i → i + wl / 2 < c.size → y0.getD i [] = fins ((List.range c.ncols).map fun j =>
      ((Polynomial.derivative^[d]) (B (st i) j)).eval (i : ℝ) / delta ^ d) := by
    intro i hi hlo hhi
    apply List.ext_getElem
    · rw [hy0]
      simp [convolve1d, List.getD_eq_getElem?_getD, hn, hi, fins]
    · intro j hj1 hj2
      simp only [fins, List.length_map, List.length_range] at hj2
      have hv := savgol_conv_row (rows := c.rows) (ncols := c.ncols) co .constant (.fin 0) (i := i) (j := j) (by omega) hj2
        (by omega) (by omega)
      rw [← hy0, h2] at hv
      have hget : (y0.getD i [])[j] = (y0.getD i []).getD j (.fin 0) := by
        rw [List.getD_eq_getElem?_getD (l := y0.getD i []), List.getElem?_eq_getElem hj1, Option.getD_some]
      rw [hget, hv]
      simp only [fins, List.getElem_map, List.getElem_range]
      congr 1
      have hs : st i = i - wl / 2 := by rw [hst]; simp only; rw [if_neg (by omega), if_neg (by omega)]
      have hb := hB (st i) j
      rw [show ((st i : Nat) : ℤ) = (i : ℤ) - (wl / 2 : Nat) by rw [hs]; omega] at hb
      have := coeffs_best hl h1 hpo hodd hdel _ i hb
      rw [Int.cast_natCast] at this
      rw [← this]
      apply Finset.sum_congr rfl
      intro k hk
      rw [Finset.mem_range] at hk
      rw [show ((i : ℤ) + (wl / 2 : Nat) - (k : ℤ)).toNat = i + wl / 2 - k by omega]
  have hfilter : savgolFilter lib (finCurve c) ⟨wl, po, d, delta, "interp", cv⟩ =
      .ok (.arr (NdArr.ofRows (.fin 0) (R.map fins) c.ncols) .float) := by
    unfold savgolFilter
    simp only
    rw [if_neg (by simp), h1]
    simp only [bind, Except.bind]
    rw [if_pos trivial, if_neg (by simp [finCurve, Curve.size]; rw [hn]; exact hwl)]
    simp only [Int.toNat_natCast]
    have hsz : (finCurve c).size = c.size := by simp [finCurve, Curve.size]
    rw [hsz, show (finCurve c).rows = c.rows.map fins from rfl, show (finCurve c).ncols = c.ncols from rfl]
    have hE1 := fitEdge_best hl.toLsqOk (rows := c.rows) (ncols := c.ncols) (ws := 0) (is := 0) (ie := wl / 2) hpo hdel (B 0)
      (fun j _ => hB 0 j) y0
    rw [Nat.zero_add] at hE1
    rw [← hy0, hE1]
    simp only
    obtain ⟨y1, hy1⟩ : ∃ y1, y1 = ((List.range y0.length).map fun (i : Nat) =>
      if 0 ≤ i ∧ i < wl / 2 then (List.range c.ncols).map fun j => Val.fin (((Polynomial.derivative^[d]) (B 0 j)).eval (i : ℝ) / delta ^ d)
      else y0.getD i []) := ⟨_, rfl⟩
    rw [← hy1]
    have hE2 := fitEdge_best hl.toLsqOk (rows := c.rows) (ncols := c.ncols) (ws := c.size - wl) (is := c.size - wl / 2) (ie := c.size) hpo hdel
      (B (c.size - wl)) (fun j _ => hB _ j) y1
    rw [Nat.sub_add_cancel hwl] at hE2
    rw [hE2]
    simp only
    congr 3
    rw [hR]
    have hy1l : y1.length = c.size := by rw [hy1]; simp [hy0l]
    rw [hy1l, List.map_map]
    apply List.map_congr_left
    intro i hi
    rw [List.mem_range] at hi
    simp only [Function.comp]
    by_cases hhi : c.size - wl / 2 ≤ i ∧ i < c.size
    · rw [if_pos hhi]
      have hs : st i = c.size - wl := by
        rw [hst]; simp only
        rw [if_neg (by omega), if_pos (by omega)]
      rw [hs, fins, List.map_map]
      rfl
    · rw [if_neg hhi, hy1]
      have : ((List.range y0.length).map fun (i : Nat) =>
          if 0 ≤ i ∧ i < wl / 2 then (List.range c.ncols).map fun j => Val.fin (((Polynomial.derivative^[d]) (B 0 j)).eval (i : ℝ) / delta ^ d)
          else y0.getD i []).getD i [] = if 0 ≤ i ∧ i < wl / 2 then (List.range c.ncols).map fun j => Val.fin (((Polynomial.derivative^[d]) (B 0 j)).eval (i : ℝ) / delta ^ d)
          else y0.getD i [] := by
        rw [List.getD_eq_getElem?_getD, List.getElem?_map, List.getElem?_range (by omega), Option.map_some, Option.getD_some]
      rw [this]
      by_cases hlo : i < wl / 2
      · rw [if_pos ⟨by omega, hlo⟩]
        have hs : st i = 0 := by rw [hst]; simp only; rw [if_pos hlo]
        rw [hs, fins, List.map_map]
        rfl
      · rw [if_neg (by omega)]
        exact hmid i hi (by omega) (by omega)
  refine ⟨⟨R, c.ncols, none, .float⟩, ?_, ⟨hc.two_le, hrow, by simp, by intro _ _ x _; rfl⟩, hRl, rfl, rfl, rfl, ?_⟩
  · rw [smooth_ok hf (p := .savgol _) hfilter]
    exact init_fin_rows R hc.two_le hRne hrow
  · intro i j a hi hj ha hcase P hP
    show at2 R i j = _
    rw [hR]
    refine (at2_range _ _ _ hi hj).trans ?_
    have hs : st i = a := by
      rw [hst]
      simp only
      split_ifs <;> omega
    rw [hs, bestFit_unique hpo (hB a j) hP]

/-! ## The hypotheses are met -/

/-- The best line through 0, 1, 4. -/
theorem bestFit_example (z : ℤ → ℝ) (h0 : z 0 = 0) (h1 : z 1 = 1) (h2 : z 2 = 4) :
    BestFit 1 0 3 z (Polynomial.C 2 * Polynomial.X - Polynomial.C (1 / 3)) := by
  constructor
  · exact (Polynomial.natDegree_sub_le _ _).trans (max_le ((Polynomial.natDegree_C_mul_le _ _).trans Polynomial.natDegree_X_le) (by rw [Polynomial.natDegree_C]; omega))
  · intro Q hQ
    obtain ⟨b, a, rfl⟩ := Polynomial.exists_eq_X_add_C_of_natDegree_le_one hQ
    unfold fitErr
    rw [Finset.sum_range_succ, Finset.sum_range_succ, Finset.sum_range_succ, Finset.sum_range_zero, Finset.sum_range_succ,
      Finset.sum_range_succ, Finset.sum_range_succ, Finset.sum_range_zero]
    simp only [Polynomial.eval_add, Polynomial.eval_sub, Polynomial.eval_mul, Polynomial.eval_C, Polynomial.eval_X]
    norm_num [h0, h1, h2]
    nlinarith [sq_nonneg (a + b - 5 / 3), sq_nonneg (b - 2)]

/-- The parabola 0, 1, 4, 9, 16 smoothed with lines through three points: the first value is that of the line through the first three points. -/
example : ∃ lib, MinNormOk lib ∧ ∃ c', (finCurve exParabola).smooth (smoothReg (savgolFn lib)) "savgol" (.savgol ⟨3, 1, 0, 1, "interp", 0⟩) =
    .ok (finCurve c') ∧ at2 c'.rows 0 1 = -1 / 3 ∧ at2 c'.rows 1 1 = 5 / 3 := by
  obtain ⟨lib, hl, _⟩ := exists_minNorm false
  obtain ⟨c', h1, _, _, _, _, _, h2⟩ := C101_interp hl (smoothReg_savgol (savgolFn lib)) (wl := 3) (po := 1) (by norm_num) (by norm_num) 0
    (delta := 1) (.inl one_ne_zero) exParabola_WF (by simp [exParabola, Curve.size]) 0
  have hb : BestFit 1 (0 : Nat) 3 (fun q => at2 exParabola.rows q.toNat 1) (Polynomial.C 2 * Polynomial.X - Polynomial.C (1 / 3)) :=
    bestFit_example _ (by simp [exParabola, at2]) (by simp [exParabola, at2]) (by simp [exParabola, at2])
  refine ⟨lib, hl, c', h1, ?_, ?_⟩
  · rw [h2 0 1 0 (by simp [exParabola, Curve.size]) (by simp [exParabola]) (by simp [exParabola, Curve.size]) (by norm_num) _ hb]
    norm_num
  · rw [h2 1 1 0 (by simp [exParabola, Curve.size]) (by simp [exParabola]) (by simp [exParabola, Curve.size]) (by norm_num) _ hb]
    norm_num

/-! ## Concrete cases -/

example := C101_best 2 (-2) 5 fun q => (q : ℝ) ^ 3

end Verif.Props
