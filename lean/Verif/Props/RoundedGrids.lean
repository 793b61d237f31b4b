import Verif.Model.RoundedGrids
import Verif.Props.RoundedResample
import Verif.Props.Grid
import Verif.Props.RoundedDet
import Verif.Props.Refine
import Verif.Props.RoundedSeg

/-!
C165: grids by length and by speed in floating point.
-/
namespace Verif.Props

open Verif Verif.Np Verif.Model Verif.Spec

section
variable {ε : ℝ} {fl : ℝ → ℝ} {c : Curve ℝ} {n : Nat}

/-! ## The number of points of a grid by length -/

theorem round_stable {x q e : ℝ} (h : |q - x| ≤ e) (hx : ∀ k : ℤ, e < |x - (k + 1 / 2)|) : roundEven q = roundEven x := by
  have h1 := abs_le.1 (roundEven_near q)
  have h2 := abs_le.1 (roundEven_near x)
  have h3 := abs_le.1 h
  rcases lt_trichotomy (roundEven q) (roundEven x) with hl | he | hl
  · exfalso
    have : (roundEven q : ℝ) + 1 ≤ roundEven x := by exact_mod_cast hl
    have h4 := hx (roundEven q)
    rw [abs_of_nonneg (by linarith)] at h4
    linarith
  · exact he
  · exfalso
    have : (roundEven x : ℝ) + 1 ≤ roundEven q := by exact_mod_cast hl
    have h4 := hx (roundEven x)
    rw [abs_of_nonpos (by linarith)] at h4
    linarith

/-- **C165 (number of points).** The number of points of `UniformInterpolationGrid(fill, kind='length')` computed with rounding: one more than the quotient of the length and `fill` up to 1/2 and the error `2 (ndim + size + 3) ε L / fill`; it is
the number without rounding if the quotient is farther than the error from the middle between two integers. -/
theorem C165_count (hf : Rounding ε fl) (hc : WF c) (hs : 2 ≤ c.size) (hε : 2 * ((c.ndim + c.size + 3 : ℕ) * ε) ≤ 1) {f : ℝ} (h0 : 0 < f) {m : Int} (h : LengthCountTo fl c.rows f m) :
    1 ≤ m ∧ |((m : ℝ) - 1) - pathLen c.ndim c.rows / f| ≤ 1 / 2 + 2 * (c.ndim + c.size + 3 : ℕ) * ε * (pathLen c.ndim c.rows / f) ∧
    ((∀ k : ℤ, 2 * (c.ndim + c.size + 3 : ℕ) * ε * (pathLen c.ndim c.rows / f) < |pathLen c.ndim c.rows / f - (k + 1 / 2)|) → m = roundEven (pathLen c.ndim c.rows / f) + 1) := by
  obtain ⟨a, ⟨zs, h1, h2⟩, rfl⟩ := h
  have hn : 0 < c.ndim := by have := hc.two_le; show 0 < c.ncols; omega
  have p0 : 0 ≤ pathLen c.ndim c.rows := sum_gaps_nonneg _ _
  have r := rel_sum_gaps hf hn hc.rect h1 h2 hs
  have a0 := r.nonneg hf p0
  have r2 := r.mul (c := f⁻¹) (by positivity)
  rw [inv_mul_eq_div, inv_mul_eq_div] at r2
  have r3 := r2.trans hf (fl_rel hf (div_nonneg a0 h0.le))
  have e : |fl (a / f) - pathLen c.ndim c.rows / f| ≤ 2 * (c.ndim + c.size + 3 : ℕ) * ε * (pathLen c.ndim c.rows / f) := by
    have := rel_simple hf r3 (div_nonneg p0 h0.le) hε
    exact this
  have q0 : 0 ≤ fl (a / f) := fl_nonneg hf (div_nonneg a0 h0.le)
  refine ⟨by have := roundEven_nonneg q0; omega, ?_, fun hk => by rw [round_stable e hk]⟩
  push_cast
  have := roundEven_near (fl (a / f))
  rw [show (roundEven (fl (a / f)) : ℝ) + 1 - 1 - pathLen c.ndim c.rows / f = (roundEven (fl (a / f)) - fl (a / f)) + (fl (a / f) - pathLen c.ndim c.rows / f) by ring]
  refine (abs_add_le _ _).trans (add_le_add this ?_)
  push_cast at e
  exact e

/-! ## Grids by speed -/

theorem interp_bracket {ts : List ℝ} (hs : ts.Pairwise (· ≤ ·)) {x : ℝ} (h0 : ts.headD 0 ≤ x) (h1 : x < ts.getLastD 0) (h2 : 2 ≤ ts.length) :
    ∃ j, (ts.takeWhile fun y => decide (y ≤ x)).length - 1 = j ∧ j + 1 < ts.length ∧ ts.getD j 0 ≤ x ∧ x < ts.getD (j + 1) 0 := by
  set p := ts.takeWhile fun y => decide (y ≤ x) with hp
  have pre : p <+: ts := List.takeWhile_prefix _
  have hlast : ts.getLastD 0 = ts[ts.length - 1] := by
    rw [List.getLastD_eq_getLast?, List.getLast?_eq_getElem?, List.getElem?_eq_getElem (by omega)]; rfl
  have g : ∀ i (h : i < ts.length), ts.getD i 0 = ts[i] := fun i h => by simp [h]
  have pos : 0 < p.length := by
    cases ts with
    | nil => simp at h2
    | cons a l =>
      have : a ≤ x := by simpa using h0
      simp [hp, this]
  have low : ∀ i (h : i < p.length), ts[i]'(lt_of_lt_of_le h pre.length_le) ≤ x := by
    intro i h
    have := List.all_takeWhile (l := ts) (p := fun y => decide (y ≤ x))
    rw [List.all_eq_true] at this
    have h3 := this _ (List.getElem_mem h)
    rw [pre.getElem h] at h3
    exact of_decide_eq_true h3
  have lt : p.length < ts.length := by
    by_contra hn
    have := low (ts.length - 1) (by omega)
    rw [← hlast] at this
    linarith
  have up : x < ts[p.length] := by
    by_contra hn
    rw [not_lt] at hn
    have : p.length < p.length := by
      conv_rhs => rw [hp, ← List.take_append_drop (p.length + 1) ts]
      rw [List.takeWhile_append_of_pos]
      · rw [List.length_append, List.length_take]
        omega
      · intro y hy
        obtain ⟨i, hi, rfl⟩ := List.getElem_of_mem hy
        rw [List.length_take] at hi
        rw [List.getElem_take]
        rcases Nat.lt_or_ge i p.length with h5 | h5
        · exact decide_eq_true (low i h5)
        · have : i = p.length := by omega
          subst this
          exact decide_eq_true hn
    omega
  refine ⟨p.length - 1, rfl, by omega, ?_, ?_⟩
  · rw [g _ (by omega)]
    exact low _ (by omega)
  · rw [show p.length - 1 + 1 = p.length by omega, g _ lt]
    exact up

theorem lin01_near (hf : Rounding ε fl) (f1 : fl 1 = 1) (hn : 1 < n) (hε : 6 * (((n : ℝ) - 1) * ε) ≤ 1) {i : Nat} {x : ℝ} (hx : (linspaceFl fl 0 1 n)[i]? = some x) : |x - i / ((n : ℝ) - 1)| ≤ 13 * ε := by
  obtain ⟨g1, -, -, -, -, g6⟩ := C120_grid hf (fl_zero hf) f1 zero_le_one hn hε
  have hi := (List.getElem?_eq_some_iff.1 hx).1
  rw [g1] at hi
  have hn1 : (1 : ℝ) < n := by exact_mod_cast hn
  have hd : (0 : ℝ) < (n : ℝ) - 1 := by linarith
  have q := g6 i x hx
  rw [zero_add, sub_zero, mul_one_div] at q
  have v0 : 0 ≤ (i : ℝ) / ((n : ℝ) - 1) := div_nonneg (Nat.cast_nonneg _) hd.le
  have v1 : (i : ℝ) / ((n : ℝ) - 1) ≤ 1 := (div_le_one hd).2 (by have : (i : ℝ) + 1 ≤ n := by exact_mod_cast hi
                                                                 linarith)
  rw [abs_of_nonneg v0] at q
  have e0 := hf.nonneg
  refine q.trans ?_
  nlinarith

theorem weight_near {d w x a b e : ℝ} {j : Nat} (hd : 0 < d) (w0 : 0 ≤ w) (w1 : w ≤ 1) (hx : x = (1 - w) * a + w * b) (ha : |a - j / d| ≤ e) (hb : |b - ((j + 1 : ℕ) : ℝ) / d| ≤ e) : |((j : ℝ) + w) - x * d| ≤ e * d := by
  have e1 : (j : ℝ) / d * d = j := div_mul_cancel₀ _ hd.ne'
  have e2 : ((j + 1 : ℕ) : ℝ) / d * d = j + 1 := by rw [div_mul_cancel₀ _ hd.ne']; push_cast; rfl
  have m1 : |(j : ℝ) - a * d| ≤ e * d := by
    rw [← e1, ← sub_mul, abs_mul, abs_of_pos hd, abs_sub_comm]
    exact mul_le_mul_of_nonneg_right ha hd.le
  have m2 : |(j : ℝ) + 1 - b * d| ≤ e * d := by
    rw [← e2, ← sub_mul, abs_mul, abs_of_pos hd, abs_sub_comm]
    exact mul_le_mul_of_nonneg_right hb hd.le
  have eq : (j : ℝ) + w - x * d = (1 - w) * ((j : ℝ) - a * d) + w * ((j : ℝ) + 1 - b * d) := by
    rw [hx]
    ring
  rw [eq, abs_le]
  obtain ⟨a1, a2⟩ := abs_le.1 m1
  obtain ⟨b1, b2⟩ := abs_le.1 m2
  have a3 := mul_le_mul_of_nonneg_left a1 (show 0 ≤ 1 - w by linarith)
  have a4 := mul_le_mul_of_nonneg_left a2 (show 0 ≤ 1 - w by linarith)
  have b3 := mul_le_mul_of_nonneg_left b1 w0
  have b4 := mul_le_mul_of_nonneg_left b2 w0
  constructor <;> linarith

/-- One interpolated length. -/
theorem speed_len (hf : Rounding ε fl) (f1 : fl 1 = 1) (hε : 12 * ε ≤ 1) {ts : List ℝ} (h2 : 2 ≤ ts.length) (hm : 6 * (((ts.length : ℝ) - 1) * ε) ≤ 1) (hsort : ts.Pairwise (· ≤ ·)) (h0 : ts.headD 0 = 0) (hr : ∀ t ∈ ts, fl t = t)
    {x : ℝ} (x0 : 0 ≤ x) (x1 : x ≤ 1) : ∃ j w, j + 1 < ts.length ∧ 0 ≤ w ∧ w ≤ 1 ∧ |((j : ℝ) + w) - x * ((ts.length : ℝ) - 1)| ≤ 13 * ε * ((ts.length : ℝ) - 1) ∧
      0 ≤ npInterpFl fl (linspaceFl fl 0 1 ts.length) ts x ∧ fl (npInterpFl fl (linspaceFl fl 0 1 ts.length) ts x) = npInterpFl fl (linspaceFl fl 0 1 ts.length) ts x ∧
      |npInterpFl fl (linspaceFl fl 0 1 ts.length) ts x - ((1 - w) * ts.getD j 0 + w * ts.getD (j + 1) 0)| ≤ 25 * ε * ts.getLastD 0 := by
  obtain ⟨g1, g2, g3, g4, g5, -⟩ := C120_grid hf (fl_zero hf) f1 zero_le_one (show 1 < ts.length by omega) hm
  set X := linspaceFl fl 0 1 ts.length with hX
  have near : ∀ k, k < ts.length → |X.getD k 0 - k / ((ts.length : ℝ) - 1)| ≤ 13 * ε := by
    intro k hk
    have : X[k]? = some (X.getD k 0) := by simp [show k < X.length by omega]
    exact lin01_near hf f1 (by omega) hm this
  have hn1 : (2 : ℝ) ≤ ts.length := by exact_mod_cast h2
  have hd : (0 : ℝ) < (ts.length : ℝ) - 1 := by linarith
  have e0 := hf.nonneg
  have Xh : X.headD 0 = 0 := by
    cases hX' : X with
    | nil => rfl
    | cons a l => rw [hX'] at g2; simpa using g2
  have Xl : X.getLastD 0 = 1 := by
    rw [List.getLastD_eq_getLast?, List.getLast?_eq_getElem?, g1, g3]; rfl
  have gt : ∀ i (h : i < ts.length), ts.getD i 0 = ts[i] := fun i h => by simp [h]
  have mono : ∀ i j, i ≤ j → j < ts.length → ts.getD i 0 ≤ ts.getD j 0 := by
    intro i j hij hj
    rw [gt _ (by omega), gt _ hj]
    rcases Nat.lt_or_ge i j with h | h
    · exact List.pairwise_iff_getElem.1 hsort i j (by omega) hj h
    · obtain rfl : i = j := by omega
      exact le_rfl
  have t00 : ts.getD 0 0 = 0 := by
    cases ts with
    | nil => rfl
    | cons a l => simpa using h0
  have tl : ts.getLastD 0 = ts.getD (ts.length - 1) 0 := by
    rw [List.getLastD_eq_getLast?, List.getLast?_eq_getElem?, List.getD_eq_getElem?_getD]
  have fix : ∀ k, k < ts.length → fl (ts.getD k 0) = ts.getD k 0 := fun k hk => hr _ (by rw [gt k hk]; exact List.getElem_mem _)
  by_cases hx1 : x = 1
  · have ev : npInterpFl fl X ts x = ts.getLastD 0 := by
      unfold npInterpFl
      rw [if_neg (by rw [Xh]; linarith), if_pos (by rw [Xl]; exact hx1.ge)]
    rw [ev, tl]
    refine ⟨ts.length - 2, 1, by omega, zero_le_one, le_rfl, ?_, ?_, fix _ (by omega), ?_⟩
    · have : ((ts.length - 2 : ℕ) : ℝ) = ts.length - 2 := by rw [Nat.cast_sub h2]; norm_num
      rw [this, hx1, show (ts.length : ℝ) - 2 + 1 - 1 * (ts.length - 1) = 0 by ring, abs_zero]
      positivity
    · have := mono 0 (ts.length - 1) (by omega) (by omega)
      rwa [t00] at this
    · rw [show ts.length - 2 + 1 = ts.length - 1 by omega, sub_self, zero_mul, zero_add, one_mul, sub_self, abs_zero]
      have := mono 0 (ts.length - 1) (by omega) (by omega)
      rw [t00] at this
      positivity
  · have xlt : x < 1 := lt_of_le_of_ne x1 hx1
    obtain ⟨j, j1, j2, j3, j4⟩ := interp_bracket (x := x) g4 (by rw [Xh]; exact x0) (by rw [Xl]; exact xlt) (by omega)
    rw [g1] at j2
    have ev : npInterpFl fl X ts x = lerpFl fl (X.getD j 0) (X.getD (j + 1) 0) (ts.getD j 0) (ts.getD (j + 1) 0) x := by
      unfold npInterpFl
      rw [if_neg (by rw [Xh]; linarith), if_neg (by rw [Xl]; linarith)]
      simp only [j1]
    have hdx : 0 < X.getD (j + 1) 0 - X.getD j 0 := by linarith
    set w := (x - X.getD j 0) / (X.getD (j + 1) 0 - X.getD j 0) with hw
    have w0 : 0 ≤ w := div_nonneg (by linarith) hdx.le
    have w1 : w ≤ 1 := (div_le_one hdx).2 (by linarith)
    have hx : x = (1 - w) * X.getD j 0 + w * X.getD (j + 1) 0 := by
      have : w * (X.getD (j + 1) 0 - X.getD j 0) = x - X.getD j 0 := by rw [hw]; exact div_mul_cancel₀ _ hdx.ne'
      linarith
    have L := (C121_linear hf hε (ylo := ts.getD j 0) (yhi := ts.getD (j + 1) 0) (show X.getD j 0 < X.getD (j + 1) 0 by linarith) (fix j (by omega))).2.1 x j3
    rw [← hw] at L
    have d0 := mono j (j + 1) (by omega) j2
    have l0 := mono 0 j (by omega) (by omega)
    rw [t00] at l0
    have lT := mono (j + 1) (ts.length - 1) (by omega) (by omega)
    rw [← tl] at lT
    have le1 : (ts.getD (j + 1) 0 - ts.getD j 0) * w ≤ ts.getD (j + 1) 0 - ts.getD j 0 := by nlinarith
    have ge0 : 0 ≤ (ts.getD (j + 1) 0 - ts.getD j 0) * w := mul_nonneg (by linarith) w0
    rw [abs_of_nonneg (show 0 ≤ ts.getD j 0 + (ts.getD (j + 1) 0 - ts.getD j 0) * w by linarith), abs_of_nonneg ge0] at L
    rw [ev]
    refine ⟨j, w, j2, w0, w1, ?_, ?_, ?_, ?_⟩
    · exact weight_near hd w0 w1 hx (near j (by omega)) (near (j + 1) j2)
    · unfold lerpFl
      refine fl_nonneg hf (add_nonneg (fl_nonneg hf (mul_nonneg (fl_nonneg hf (div_nonneg (fl_nonneg hf (by linarith)) (fl_nonneg hf hdx.le))) (fl_nonneg hf (by linarith)))) l0)
    · exact hf.idem _
    · rw [show (1 - w) * ts.getD j 0 + w * ts.getD (j + 1) 0 = ts.getD j 0 + (ts.getD (j + 1) 0 - ts.getD j 0) * w by ring]
      refine L.trans ?_
      nlinarith

theorem lin01_pos (hf : Rounding ε fl) (f1 : fl 1 = 1) (hn : 1 < n) {i : Nat} (hi : 0 < i) {x : ℝ} (hx : (linspaceFl fl 0 1 n)[i]? = some x) : 0 < x := by
  have hn1 : (1 : ℝ) < n := by exact_mod_cast hn
  have hd : (0 : ℝ) < (n : ℝ) - 1 := by linarith
  obtain ⟨hl, rfl⟩ := List.getElem?_eq_some_iff.1 hx
  simp only [linspaceFl, List.getElem_map, List.getElem_range, linspaceAtFl, if_pos hn]
  have ip : (0 : ℝ) < i := by exact_mod_cast hi
  split
  · exact one_pos
  · have st : 0 < fl (fl (1 - 0) / ((n : ℝ) - 1)) := fl_pos hf (div_pos (by rw [sub_zero, f1]; exact one_pos) hd)
    rw [if_neg st.ne', add_zero]
    exact fl_pos hf (fl_pos hf (mul_pos ip st))

/-- The first interpolated length. -/
theorem speed_len_zero (hf : Rounding ε fl) (f1 : fl 1 = 1) (hε : 12 * ε ≤ 1) {ts : List ℝ} (h2 : 2 ≤ ts.length) (hm : 6 * (((ts.length : ℝ) - 1) * ε) ≤ 1) (h0 : ts.headD 0 = 0) :
    npInterpFl fl (linspaceFl fl 0 1 ts.length) ts 0 = 0 := by
  obtain ⟨g1, g2, g3, g4, -, -⟩ := C120_grid hf (fl_zero hf) f1 zero_le_one (show 1 < ts.length by omega) hm
  set X := linspaceFl fl 0 1 ts.length with hX
  have hn1 : (2 : ℝ) ≤ ts.length := by exact_mod_cast h2
  have hd : (0 : ℝ) < (ts.length : ℝ) - 1 := by linarith
  have Xh : X.headD 0 = 0 := by
    cases hX' : X with
    | nil => rfl
    | cons a l => rw [hX'] at g2; simpa using g2
  have Xl : X.getLastD 0 = 1 := by
    rw [List.getLastD_eq_getLast?, List.getLast?_eq_getElem?, g1, g3]; rfl
  have t00 : ts.getD 0 0 = 0 := by
    cases ts with
    | nil => rfl
    | cons a l => simpa using h0
  obtain ⟨j, j1, j2, j3, j4⟩ := interp_bracket (x := 0) g4 (by rw [Xh]) (by rw [Xl]; exact one_pos) (by omega)
  have hj : j = 0 := by
    by_contra hj
    have e : X[j]? = some (X.getD j 0) := by simp [show j < X.length by omega]
    have := lin01_pos hf f1 (show 1 < ts.length by omega) (Nat.pos_of_ne_zero hj) e
    linarith
  subst hj
  unfold npInterpFl
  rw [if_neg (by rw [Xh]; exact lt_irrefl _), if_neg (by rw [Xl]; exact not_le.2 one_pos)]
  simp only [j1]
  have X0 : X.getD 0 0 = 0 := by rw [List.getD_eq_getElem?_getD, g2]; rfl
  have := (C121_linear hf (by have := hf.nonneg; linarith) (ylo := ts.getD 0 0) (yhi := ts.getD (0 + 1) 0) (show X.getD 0 0 < X.getD (0 + 1) 0 by linarith) (by rw [t00]; exact fl_zero hf)).1
  rw [X0, t00] at this
  rw [X0, t00]
  exact this

theorem foldl_min_spec (xs : List ℝ) (a : ℝ) : xs.foldl min a ≤ a ∧ (∀ x ∈ xs, xs.foldl min a ≤ x) ∧ (xs.foldl min a = a ∨ xs.foldl min a ∈ xs) := by
  induction xs generalizing a with
  | nil => simp
  | cons x l ih =>
    obtain ⟨h1, h2, h3⟩ := ih (min a x)
    rw [List.foldl_cons]
    refine ⟨h1.trans (min_le_left _ _), ?_, ?_⟩
    · intro y hy
      rcases List.mem_cons.1 hy with rfl | hy
      · exact h1.trans (min_le_right _ _)
      · exact h2 y hy
    · rcases h3 with h3 | h3
      · rcases min_choice a x with h | h
        · left; rw [h3, h]
        · right; rw [h3, h]; exact List.mem_cons_self
      · right; exact List.mem_cons_of_mem _ h3

/-- What the cumulative lengths are. -/
theorem cum_facts (hf : Rounding ε fl) (hc : WF c) (hs : 2 ≤ c.size) (hε : 2 * ((c.ndim + c.size + 4 : ℕ) * ε) ≤ 1) {ts : List ℝ} (h : CumTo fl c.rows ts) :
    ts.length = c.size ∧ ts.headD 0 = 0 ∧ ts.Pairwise (· ≤ ·) ∧ (∀ t ∈ ts, fl t = t) ∧
    ∀ k, k < c.size → |ts.getD k 0 - pathLen c.ndim (c.rows.take (k + 1))| ≤ 2 * ((c.ndim + c.size + 4 : ℕ) * ε) * pathLen c.ndim c.rows := by
  obtain ⟨h1, h2, h3, h4⟩ := C119_cumarclen hf hc (by omega) h
  have hsz : c.size = c.rows.length := rfl
  refine ⟨h1, ?_, h3, ?_, ?_⟩
  · cases ts with
    | nil => rfl
    | cons a l => simpa using h2
  · intro t ht
    obtain ⟨i, hi, rfl⟩ := List.getElem_of_mem ht
    rcases Nat.eq_zero_or_pos i with rfl | hp
    · rw [List.getElem?_eq_getElem hi] at h2
      rw [Option.some.inj h2]
      exact fl_zero hf
    · have e1 : c.rows[i - 1]? = some (c.rows.getD (i - 1) []) := by simp [show i - 1 < c.rows.length by omega]
      have e2 : c.rows[i - 1 + 1]? = some (c.rows.getD (i - 1 + 1) []) := by simp [show i - 1 + 1 < c.rows.length by omega]
      obtain ⟨l, z, -, q2, -⟩ := param_step hf hc h e1 e2
      rw [show i - 1 + 1 = i by omega, List.getElem?_eq_getElem hi] at q2
      rw [Option.some.inj q2]
      exact hf.idem _
  · intro k hk
    have e : ts[k]? = some (ts.getD k 0) := by simp [show k < ts.length by omega]
    have := h4 k _ e (small_of hf (show c.ndim + k + 4 ≤ c.ndim + c.size + 4 by omega) hε)
    refine this.trans ?_
    have p0 : 0 ≤ pathLen c.ndim (c.rows.take (k + 1)) := sum_gaps_nonneg _ _
    have p1 := pathLen_part_le c.ndim c.rows k
    have m : ((c.ndim + k + 4 : ℕ) : ℝ) * ε ≤ ((c.ndim + c.size + 4 : ℕ) : ℝ) * ε := mul_le_mul_of_nonneg_right (by exact_mod_cast (by omega : c.ndim + k + 4 ≤ c.ndim + c.size + 4)) hf.nonneg
    have m0 : 0 ≤ ((c.ndim + c.size + 4 : ℕ) : ℝ) * ε := mul_nonneg (Nat.cast_nonneg _) hf.nonneg
    nlinarith

/-- The rescaling of one length. -/
theorem rescale_near (hf : Rounding ε fl) (f1 : fl 1 = 1) {v hi a : ℝ} (v0 : 0 ≤ v) (vh : v ≤ hi) (hp : 0 < hi) (fv : fl v = v) (fh : fl hi = hi) (a0 : 0 ≤ a) (fa : fl a = a) :
    0 ≤ rescaleFl fl 0 hi a v ∧ rescaleFl fl 0 hi a v ≤ a ∧ |rescaleFl fl 0 hi a v - v| ≤ 3 * ε * a + |a - hi| := by
  have e0 := hf.nonneg
  have e1 := hf.lt_one
  unfold rescaleFl
  rw [sub_zero, sub_zero, sub_zero, fv, fh, fa, add_zero, hf.idem]
  have u0 : 0 ≤ v / hi := div_nonneg v0 hp.le
  have u1 : v / hi ≤ 1 := (div_le_one hp).2 vh
  set q := fl (v / hi) with hq
  have q0 : 0 ≤ q := fl_nonneg hf u0
  have q1 : q ≤ 1 := by rw [← f1]; exact hf.mono u1
  have qa : q * a ≤ a := by nlinarith
  have qa0 : 0 ≤ q * a := mul_nonneg q0 a0
  refine ⟨fl_nonneg hf qa0, ?_, ?_⟩
  · conv_rhs => rw [← fa]
    exact hf.mono qa
  · have r1 := hf.rel (v / hi)
    rw [abs_of_nonneg u0, ← hq] at r1
    have r2 := hf.rel (q * a)
    rw [abs_of_nonneg qa0] at r2
    have r3 : |q * a - v / hi * a| ≤ ε * a := by
      rw [← sub_mul, abs_mul, abs_of_nonneg a0]
      refine mul_le_mul_of_nonneg_right (r1.trans ?_) a0
      nlinarith
    have r4 : |v / hi * a - v| ≤ |a - hi| := by
      have : v / hi * a - v = v / hi * (a - hi) := by field_simp
      rw [this, abs_mul, abs_of_nonneg u0]
      exact mul_le_of_le_one_left (abs_nonneg _) u1
    have r5 : ε * (q * a) ≤ ε * a := mul_le_mul_of_nonneg_left qa e0
    have t : fl (q * a) - v = (fl (q * a) - q * a) + (q * a - v / hi * a) + (v / hi * a - v) := by ring
    rw [t]
    refine (abs_add_three _ _ _).trans ?_
    have := mul_nonneg e0 a0
    linarith

theorem mix_near {w a b a' b' e : ℝ} (w0 : 0 ≤ w) (w1 : w ≤ 1) (ha : |a - a'| ≤ e) (hb : |b - b'| ≤ e) : |((1 - w) * a + w * b) - ((1 - w) * a' + w * b')| ≤ e := by
  have d1 := mul_le_mul_of_nonneg_left (abs_le.1 ha).1 (sub_nonneg.2 w1)
  have d2 := mul_le_mul_of_nonneg_left (abs_le.1 ha).2 (sub_nonneg.2 w1)
  have d3 := mul_le_mul_of_nonneg_left (abs_le.1 hb).1 w0
  have d4 := mul_le_mul_of_nonneg_left (abs_le.1 hb).2 w0
  rw [abs_le]
  constructor <;> linarith

theorem sums_fixed (hf : Rounding ε fl) {xs : List ℝ} {s : ℝ} (h : SumsTo fl xs s) (hx : ∀ x ∈ xs, fl x = x) : fl s = s := by
  cases h with
  | nil => exact fl_zero hf
  | one x => exact hx _ List.mem_cons_self
  | add _ _ _ _ _ => exact hf.idem _

theorem chords_fixed (hf : Rounding ε fl) {rows : List (List ℝ)} {zs : List ℝ} (h : ChordsTo fl rows zs) : ∀ z ∈ zs, fl z = z := by
  intro z hz
  obtain ⟨i, hi, rfl⟩ := List.getElem_of_mem hz
  obtain ⟨ws, s, -, -, e⟩ := List.Forall₂.get h (i := i) (by rw [h.length_eq]; exact hi) hi
  have e : zs[i] = fl (√ s) := e
  rw [e]
  exact hf.idem _

/-- The interpolated lengths and their least and greatest. -/
theorem speed_facts (hf : Rounding ε fl) (f1 : fl 1 = 1) (hε : 12 * ε ≤ 1) {ts : List ℝ} (h2 : 2 ≤ ts.length) (hm : 6 * (((ts.length : ℝ) - 1) * ε) ≤ 1) (hsort : ts.Pairwise (· ≤ ·)) (h0 : ts.headD 0 = 0) (hr : ∀ t ∈ ts, fl t = t)
    (hn : 1 < n) (h6 : 6 * (((n : ℝ) - 1) * ε) ≤ 1) :
    (speedLensFl fl ts n).length = n ∧ (speedLensFl fl ts n)[0]? = some 0 ∧ (speedLensFl fl ts n)[n - 1]? = some (ts.getLastD 0) ∧ minR (speedLensFl fl ts n) = 0 ∧
    (∀ v ∈ speedLensFl fl ts n, 0 ≤ v ∧ v ≤ maxR (speedLensFl fl ts n) ∧ fl v = v) ∧ fl (maxR (speedLensFl fl ts n)) = maxR (speedLensFl fl ts n) ∧
    ts.getLastD 0 ≤ maxR (speedLensFl fl ts n) ∧ maxR (speedLensFl fl ts n) ≤ ts.getLastD 0 + 25 * ε * ts.getLastD 0 ∧
    ∀ (i : Nat) (v : ℝ), (speedLensFl fl ts n)[i]? = some v → ∃ j w, j + 1 < ts.length ∧ 0 ≤ w ∧ w ≤ 1 ∧ |((j : ℝ) + w) - i * ((ts.length : ℝ) - 1) / ((n : ℝ) - 1)| ≤ 26 * ε * ((ts.length : ℝ) - 1) ∧
      |v - ((1 - w) * ts.getD j 0 + w * ts.getD (j + 1) 0)| ≤ 25 * ε * ts.getLastD 0 := by
  obtain ⟨g1, g2, g3, -, g5, -⟩ := C120_grid hf (fl_zero hf) f1 zero_le_one hn h6
  have near := fun i x => lin01_near (i := i) (x := x) hf f1 hn h6
  have zero := speed_len_zero hf f1 hε h2 hm h0
  have len := fun x => speed_len (x := x) hf f1 hε h2 hm hsort h0 hr
  have hn1 : (1 : ℝ) < n := by exact_mod_cast hn
  have hd : (0 : ℝ) < (n : ℝ) - 1 := by linarith
  have ht1 : (2 : ℝ) ≤ ts.length := by exact_mod_cast h2
  have ht : (0 : ℝ) < (ts.length : ℝ) - 1 := by linarith
  set v := speedLensFl fl ts n with hv
  have hl : v.length = n := by rw [hv, speedLensFl, List.length_map, g1]
  have v0 : v[0]? = some 0 := by rw [hv, speedLensFl, List.getElem?_map, g2]; exact congrArg some zero
  have vl : v[n - 1]? = some (ts.getLastD 0) := by
    rw [hv, speedLensFl, List.getElem?_map, g3]
    obtain ⟨k1, k2, k3, -, -, -⟩ := C120_grid hf (fl_zero hf) f1 zero_le_one (show 1 < ts.length by omega) hm
    have Xl : (linspaceFl fl 0 1 ts.length).getLastD 0 = 1 := by
      rw [List.getLastD_eq_getLast?, List.getLast?_eq_getElem?, k1, k3]; rfl
    have Xh : (linspaceFl fl 0 1 ts.length).headD 0 = 0 := by
      cases hX' : linspaceFl fl 0 1 ts.length with
      | nil => rfl
      | cons a l => rw [hX'] at k2; simpa using k2
    simp only [Option.map_some, npInterpFl, Xl, Xh]
    rw [if_neg (by norm_num), if_pos le_rfl]
  have basic : ∀ x ∈ v, 0 ≤ x ∧ fl x = x := by
    intro x hx
    obtain ⟨y, hy, rfl⟩ := List.mem_map.1 hx
    obtain ⟨y0, y1, -⟩ := g5 y hy
    obtain ⟨j, w, -, -, -, -, q1, q2, -⟩ := len y y0 y1
    exact ⟨q1, q2⟩
  obtain ⟨x, l, hxl⟩ : ∃ x l, v = x :: l := by
    cases hv' : v with
    | nil => rw [hv'] at hl; simp at hl; omega
    | cons x l => exact ⟨x, l, rfl⟩
  have hx0 : x = 0 := by rw [hxl] at v0; simpa using v0
  have hmin : minR v = 0 := by
    obtain ⟨m1, m2, m3⟩ := foldl_min_spec v (v.headD 0)
    have hh : v.headD 0 = 0 := by rw [hxl]; simpa using hx0
    have : minR v ≤ 0 := m1.trans hh.le
    refine le_antisymm this ?_
    rcases m3 with m3 | m3
    · unfold minR; rw [m3, hh]
    · exact (basic _ m3).1
  have hmax : (∀ y ∈ v, y ≤ maxR v) ∧ maxR v ∈ v := by
    have := foldl_max_spec l x
    unfold maxR
    rw [hxl, List.headD_cons, List.foldl_cons, max_self]
    exact this
  have all : ∀ (i : Nat) (y : ℝ), v[i]? = some y → ∃ j w, j + 1 < ts.length ∧ 0 ≤ w ∧ w ≤ 1 ∧ |((j : ℝ) + w) - i * ((ts.length : ℝ) - 1) / ((n : ℝ) - 1)| ≤ 26 * ε * ((ts.length : ℝ) - 1) ∧
      |y - ((1 - w) * ts.getD j 0 + w * ts.getD (j + 1) 0)| ≤ 25 * ε * ts.getLastD 0 := by
    intro i y hy
    rw [hv, speedLensFl, List.getElem?_map, Option.map_eq_some_iff] at hy
    obtain ⟨ξ, hξ, rfl⟩ := hy
    obtain ⟨y0, y1, -⟩ := g5 ξ (List.mem_of_getElem? hξ)
    obtain ⟨j, w, q1, q2, q3, q4, -, -, q5⟩ := len ξ y0 y1
    refine ⟨j, w, q1, q2, q3, ?_, q5⟩
    have nr := near i ξ hξ
    have e : (j : ℝ) + w - i * ((ts.length : ℝ) - 1) / ((n : ℝ) - 1) = ((j : ℝ) + w - ξ * ((ts.length : ℝ) - 1)) + (ξ - i / ((n : ℝ) - 1)) * ((ts.length : ℝ) - 1) := by ring
    rw [e]
    refine (abs_add_le _ _).trans ?_
    rw [abs_mul, abs_of_pos ht]
    have := mul_le_mul_of_nonneg_right nr ht.le
    linarith
  refine ⟨hl, v0, vl, hmin, fun y hy => ⟨(basic y hy).1, hmax.1 y hy, (basic y hy).2⟩, (basic _ hmax.2).2, hmax.1 _ (List.mem_of_getElem? vl), ?_, all⟩
  obtain ⟨i, hi⟩ := List.mem_iff_getElem?.1 hmax.2
  obtain ⟨j, w, q1, q2, q3, -, q5⟩ := all i _ hi
  have gt : ∀ i (h : i < ts.length), ts.getD i 0 = ts[i] := fun i h => by simp [h]
  have tl : ts.getLastD 0 = ts.getD (ts.length - 1) 0 := by
    rw [List.getLastD_eq_getLast?, List.getLast?_eq_getElem?, List.getD_eq_getElem?_getD]
  have mono : ∀ i, i < ts.length → ts.getD i 0 ≤ ts.getLastD 0 := by
    intro i hi
    rw [tl, gt _ hi, gt _ (by omega)]
    rcases Nat.lt_or_ge i (ts.length - 1) with h | h
    · exact List.pairwise_iff_getElem.1 hsort i _ hi (by omega) h
    · obtain rfl : i = ts.length - 1 := by omega
      exact le_rfl
  have a1 := mono j (by omega)
  have a2 := mono (j + 1) q1
  have a3 := mul_le_mul_of_nonneg_left a1 (show 0 ≤ 1 - w by linarith)
  have a4 := mul_le_mul_of_nonneg_left a2 q2
  have := (abs_le.1 q5).2
  linarith

/-- **C165 (grid by speed).** `PreservedSpeedInterpolationGrid(n)` of a curve of positive length without parameter values in rounded arithmetic: `n` parameter values from 0 on, none above the computed length; value `i` is the length from the start to a
point of the polygonal line at the fractional index `i (size - 1) / (n - 1)` up to `26 (size - 1) ε`, up to an error of `(6 (ndim + size) + 92) ε` times the length of the curve. -/
theorem C165_speed (hf : Rounding ε fl) (f1 : fl 1 = 1) (hc : WF c) (hs : 2 ≤ c.size) (hL : 0 < pathLen c.ndim c.rows) (hn : 1 < n) (h6 : 6 * (((n : ℝ) - 1) * ε) ≤ 1) (hε : 8 * ((c.ndim + c.size + 4 : ℕ) * ε) ≤ 1) {g : List ℝ}
    (h : SpeedTo fl c.rows n g) : g.length = n ∧ g[0]? = some 0 ∧ (∃ a, ArclenTo fl c.rows a ∧ ∀ y ∈ g, 0 ≤ y ∧ y ≤ a) ∧
      ∀ (i : Nat) (y : ℝ), g[i]? = some y → ∃ j w, j + 1 < c.size ∧ 0 ≤ w ∧ w ≤ 1 ∧ |((j : ℝ) + w) - i * ((c.size : ℝ) - 1) / ((n : ℝ) - 1)| ≤ 26 * ε * ((c.size : ℝ) - 1) ∧
        |y - ((1 - w) * pathLen c.ndim (c.rows.take (j + 1)) + w * pathLen c.ndim (c.rows.take (j + 2)))| ≤ (6 * (c.ndim + c.size) + 92) * ε * pathLen c.ndim c.rows := by
  obtain ⟨zs, a, h1, h2, rfl⟩ := h
  have e0 := hf.nonneg
  set M : ℝ := ((c.ndim + c.size + 4 : ℕ) : ℝ) with hM
  have hMc : M = c.ndim + c.size + 4 := by rw [hM]; push_cast; ring
  have nd : (2 : ℝ) ≤ c.ndim := by exact_mod_cast hc.two_le
  have sz : (2 : ℝ) ≤ c.size := by exact_mod_cast hs
  have hMε : 0 ≤ M * ε := mul_nonneg (by linarith) e0
  have h2ε : 2 * (M * ε) ≤ 1 := by linarith
  have h12 : 12 * ε ≤ 1 := by nlinarith
  obtain ⟨t1, t2, t3, t4, t5⟩ := cum_facts hf hc hs h2ε ⟨zs, h1, rfl⟩
  set ts := 0 :: cumsumFl fl zs with hts
  have ht6 : 6 * (((ts.length : ℝ) - 1) * ε) ≤ 1 := by rw [t1]; nlinarith
  obtain ⟨s1, s2, -, s3, s4, s5, s6, s7, s8⟩ := speed_facts (n := n) hf f1 h12 (by omega) ht6 t3 t2 t4 hn h6
  set lens := speedLensFl fl ts n with hlens
  set hi := maxR lens with hhi
  set L := pathLen c.ndim c.rows with hLd
  set T := ts.getLastD 0 with hT
  rw [s3]
  have tT : |T - L| ≤ 2 * (M * ε) * L := by
    have q := t5 (c.size - 1) (by omega)
    have el : ts.getLastD 0 = ts.getD (c.size - 1) 0 := by
      rw [List.getLastD_eq_getLast?, List.getLast?_eq_getElem?, t1, List.getD_eq_getElem?_getD]
    rw [show c.size - 1 + 1 = c.rows.length from by have : c.size = c.rows.length := rfl
                                                    omega, List.take_length, ← el] at q
    exact q
  have aL := C119_arclen hf hc hs (small_of hf (show c.ndim + c.size + 2 ≤ c.ndim + c.size + 4 by omega) h2ε) ⟨zs, h1, h2⟩
  have aL : |a - L| ≤ 2 * (M * ε) * L := by
    refine aL.trans ?_
    have : ((c.ndim + c.size + 2 : ℕ) : ℝ) ≤ M := by rw [hM]; exact_mod_cast (by omega)
    have := mul_le_mul_of_nonneg_right (mul_le_mul_of_nonneg_right this e0) hL.le
    linarith
  have dL : 2 * (M * ε) * L ≤ L / 4 := by nlinarith
  obtain ⟨T1, T2⟩ := abs_le.1 tT
  obtain ⟨A1, A2⟩ := abs_le.1 aL
  have hip : 0 < hi := by linarith
  have fa : fl a = a := sums_fixed hf h2 (chords_fixed hf h1)
  have res : ∀ v ∈ lens, 0 ≤ rescaleFl fl 0 hi a v ∧ rescaleFl fl 0 hi a v ≤ a ∧ |rescaleFl fl 0 hi a v - v| ≤ 3 * ε * a + |a - hi| := by
    intro v hv
    obtain ⟨b1, b2, b3⟩ := s4 v hv
    exact rescale_near hf f1 b1 b2 hip b3 s5 (by linarith) fa
  refine ⟨by rw [List.length_map, s1], ?_, ⟨a, ⟨zs, h1, h2⟩, ?_⟩, ?_⟩
  · rw [List.getElem?_map, s2, Option.map_some, rescaleFl, sub_zero, fl_zero hf, zero_div, fl_zero hf, zero_mul, fl_zero hf, add_zero, fl_zero hf]
  · intro y hy
    obtain ⟨v, hv, rfl⟩ := List.mem_map.1 hy
    exact ⟨(res v hv).1, (res v hv).2.1⟩
  · intro i y hy
    rw [List.getElem?_map, Option.map_eq_some_iff] at hy
    obtain ⟨v, hv, rfl⟩ := hy
    obtain ⟨j, w, q1, q2, q3, q4, q5⟩ := s8 i v hv
    rw [t1] at q1 q4
    refine ⟨j, w, q1, q2, q3, q4, ?_⟩
    have r := (res v (List.mem_of_getElem? hv)).2.2
    have εT : 25 * ε * T ≤ 32 * ε * L := by
      have := mul_le_mul_of_nonneg_left (show T ≤ 5 / 4 * L by linarith) e0
      linarith [mul_nonneg e0 hL.le]
    have ah : |a - hi| ≤ 4 * (M * ε) * L + 32 * ε * L := by
      rw [abs_le]
      constructor <;> linarith
    have mid : |((1 - w) * ts.getD j 0 + w * ts.getD (j + 1) 0) - ((1 - w) * pathLen c.ndim (c.rows.take (j + 1)) + w * pathLen c.ndim (c.rows.take (j + 2)))| ≤ 2 * (M * ε) * L := by
      exact mix_near q2 q3 (t5 j (by omega)) (t5 (j + 1) q1)
    have e : rescaleFl fl 0 hi a v - ((1 - w) * pathLen c.ndim (c.rows.take (j + 1)) + w * pathLen c.ndim (c.rows.take (j + 2))) =
        (rescaleFl fl 0 hi a v - v) + (v - ((1 - w) * ts.getD j 0 + w * ts.getD (j + 1) 0)) + (((1 - w) * ts.getD j 0 + w * ts.getD (j + 1) 0) - ((1 - w) * pathLen c.ndim (c.rows.take (j + 1)) + w * pathLen c.ndim (c.rows.take (j + 2)))) := by ring
    rw [e]
    refine (abs_add_three _ _ _).trans ?_
    have εa : 3 * ε * a ≤ 4 * ε * L := by
      have := mul_le_mul_of_nonneg_left (show a ≤ 5 / 4 * L by linarith) e0
      linarith [mul_nonneg e0 hL.le]
    have εL : 0 ≤ ε * L := mul_nonneg e0 hL.le
    have fin : (6 * ((c.ndim : ℝ) + c.size) + 92) * ε * L = 6 * (M * ε) * L + 68 * ε * L := by rw [hMc]; ring
    rw [fin]
    linarith

/-- There is a result of either kind. -/
theorem C165_exists (fl : ℝ → ℝ) (rows : List (List ℝ)) (f : ℝ) (n : Nat) : (∃ m, LengthCountTo fl rows f m) ∧ ∃ g, SpeedTo fl rows n g := by
  have hex : ∀ a b : List ℝ, ∃ z, ChordTo fl a b z := by
    intro a b
    obtain ⟨s, hs⟩ := sumsTo_exists fl (List.zipWith (fun x y => fl (fl (y - x) * fl (y - x))) a b)
    refine ⟨_, _, s, ?_, hs, rfl⟩
    rw [← List.map_uncurry_zip_eq_zipWith, List.forall₂_map_right_iff]
    exact List.forall₂_same.2 fun p _ => .inl rfl
  have : ∃ zs, ChordsTo fl rows zs := by
    unfold ChordsTo
    induction rows.zip rows.tail with
    | nil => exact ⟨[], .nil⟩
    | cons p l ih =>
      obtain ⟨zs, h⟩ := ih
      obtain ⟨z, hz⟩ := hex p.1 p.2
      exact ⟨z :: zs, .cons hz h⟩
  obtain ⟨zs, h⟩ := this
  obtain ⟨a, ha⟩ := sumsTo_exists fl zs
  exact ⟨⟨_, a, ⟨zs, h, ha⟩, rfl⟩, _, zs, a, h, ha, rfl⟩

/-- **C165 (usual sizes).** In binary64, for up to `1e13` points and dimensions: the number of points of a grid by length is the one without rounding if the quotient `L / fill` is farther than `(ndim + size + 3) 2^-52` times itself from the middle between two
integers, and the values of a grid by speed are lengths up to `(6 (ndim + size) + 92) 2^-53 L` at fractional indices within `26 (size - 1) 2^-53` of equally spaced ones. -/
theorem C165_usual (hc : WF c) (hs : 2 ≤ c.size) (hm' : c.ndim + c.size ≤ 10 ^ 13) :
    (∀ f m, 0 < f → LengthCountTo rnd c.rows f m → (∀ k : ℤ, (c.ndim + c.size + 3 : ℕ) * 2⁻¹ ^ 52 * (pathLen c.ndim c.rows / f) < |pathLen c.ndim c.rows / f - (k + 1 / 2)|) → m = roundEven (pathLen c.ndim c.rows / f) + 1) ∧
    ∀ n g, 1 < n → n ≤ 10 ^ 13 → 0 < pathLen c.ndim c.rows → SpeedTo rnd c.rows n g → g.length = n ∧ g[0]? = some 0 ∧
      ∀ (i : Nat) (y : ℝ), g[i]? = some y → ∃ j w, j + 1 < c.size ∧ 0 ≤ w ∧ w ≤ 1 ∧ |((j : ℝ) + w) - i * ((c.size : ℝ) - 1) / ((n : ℝ) - 1)| ≤ 26 * 2⁻¹ ^ 53 * ((c.size : ℝ) - 1) ∧
        |y - ((1 - w) * pathLen c.ndim (c.rows.take (j + 1)) + w * pathLen c.ndim (c.rows.take (j + 2)))| ≤ (6 * (c.ndim + c.size) + 92) * 2⁻¹ ^ 53 * pathLen c.ndim c.rows := by
  have b3 : ((c.ndim + c.size + 3 : ℕ) : ℝ) * 2⁻¹ ^ 53 ≤ (10 ^ 13 + 3) * 2⁻¹ ^ 53 := mul_le_mul_of_nonneg_right (by exact_mod_cast Nat.add_le_add_right hm' 3) (by positivity)
  have b2 : ((c.ndim + c.size + 4 : ℕ) : ℝ) * 2⁻¹ ^ 53 ≤ (10 ^ 13 + 4) * 2⁻¹ ^ 53 := mul_le_mul_of_nonneg_right (by exact_mod_cast Nat.add_le_add_right hm' 4) (by positivity)
  have n3 : ((10 : ℝ) ^ 13 + 3) * 2⁻¹ ^ 53 ≤ 1 / 8 := by norm_num
  have n2 : ((10 : ℝ) ^ 13 + 4) * 2⁻¹ ^ 53 ≤ 1 / 8 := by norm_num
  constructor
  · intro f m h0 h hk
    refine (C165_count rnd_rounding hc hs (by linarith) h0 h).2.2 fun k => lt_of_le_of_lt (le_of_eq ?_) (hk k)
    rw [show (2⁻¹ : ℝ) ^ 53 = 2⁻¹ ^ 52 * 2⁻¹ from pow_succ _ _]
    ring
  · intro n g hn hm hL h
    have b1 : ((n : ℝ) - 1) * 2⁻¹ ^ 53 ≤ 10 ^ 13 * 2⁻¹ ^ 53 := mul_le_mul_of_nonneg_right (by have : (n : ℝ) ≤ 10 ^ 13 := by exact_mod_cast hm
                                                                                              linarith) (by positivity)
    have n1 : (10 : ℝ) ^ 13 * 2⁻¹ ^ 53 ≤ 1 / 104 := by norm_num
    obtain ⟨k1, k2, -, k3⟩ := C165_speed rnd_rounding (by simpa using rnd_rep 1 0 (by norm_num)) hc hs hL hn (by linarith) (by linarith) h
    exact ⟨k1, k2, k3⟩

/-- **C165 (no rounding).** Without rounding the number of points is the one of the exact model and the grid by speed is the one of the exact model. -/
theorem C165_exact (hc : WF c) (hs : 2 ≤ c.size) (hpar : c.isparametric = false) (junk : ℝ) : (∀ f m, LengthCountTo id c.rows f m ↔ m = roundEven (pathLen c.ndim c.rows / f) + 1) ∧
    ∀ n g, 1 < n → 0 < pathLen c.ndim c.rows → SpeedTo id c.rows n g → speedGrid junk (.int (n : ℕ)) c = .ok (fins g) := by
  have hid : Rounding 0 id := ⟨le_rfl, by norm_num, by intro x; simp, monotone_id, fun _ => rfl, fun _ => rfl⟩
  have hne : c.rows ≠ [] := by rintro h; have : c.size = 0 := by show c.rows.length = 0; rw [h]; rfl
                               omega
  constructor
  · intro f m
    unfold LengthCountTo
    simp only [(C119_exact junk hne).2.2.1, exists_eq_left, id]
    rw [arclen_eq hc.rect hne junk]
    rfl
  · intro n g hn hL h
    obtain ⟨k1, -, -, k4⟩ := C165_speed (n := n) hid rfl hc hs hL hn (by simp) (by simp) h
    obtain ⟨xs, x1, x2, -, -, -, -, x7⟩ := C62_speed hc hs hpar junk hL n hn
    rw [x1]
    have : g = xs := by
      refine List.ext_getElem (by rw [k1, x2]) fun i h1 h2 => ?_
      obtain ⟨j, w, q1, q2, q3, q4, q5⟩ := k4 i g[i] (List.getElem?_eq_getElem h1)
      rw [mul_zero, zero_mul, abs_nonpos_iff, sub_eq_zero] at q4 q5
      have hn1 : (1 : ℝ) < n := by exact_mod_cast hn
      have hd : (0 : ℝ) < (n : ℝ) - 1 := by linarith
      have c1 : ((n - 1 : ℕ) : ℝ) = n - 1 := by rw [Nat.cast_sub (by omega)]; norm_num
      have c2 : ((c.size - 1 : ℕ) : ℝ) = c.size - 1 := by rw [Nat.cast_sub (by omega)]; norm_num
      have e1 : c.rows[j]? = some (c.rows.getD j []) := by simp [show j < c.rows.length from (Nat.lt_succ_self j).trans q1]
      have e2 : c.rows[j + 1]? = some (c.rows.getD (j + 1) []) := by simp [show j + 1 < c.rows.length from q1]
      have q6 : ((j : ℝ) + w) * (n - 1) = i * (c.size - 1) := by rw [q4]; exact div_mul_cancel₀ _ hd.ne'
      have := x7 i j _ _ (by omega) e1 e2 (by
        have : ((j * (n - 1) : ℕ) : ℝ) ≤ ((i * (c.size - 1) : ℕ) : ℝ) := by
          push_cast; rw [c1, c2]; nlinarith
        exact_mod_cast this) (by
        have : ((i * (c.size - 1) : ℕ) : ℝ) ≤ (((j + 1) * (n - 1) : ℕ) : ℝ) := by
          push_cast; rw [c1, c2]; nlinarith
        exact_mod_cast this)
      rw [List.getElem?_eq_getElem h2] at this
      have := Option.some.inj this
      rw [this, q5, pathLen_take_succ e1 e2, c1, c2, ← q4]
      show _ = pathLen c.ndim _ + ((j : ℝ) + w - j) * gap c.ndim _ _
      ring
    rw [this]

end

/-! ## What fails -/

/-- The double next to 10/3, above it. -/
noncomputable def tenThirds : ℝ := 7505999378950827 * 2⁻¹ ^ 51

/-- **C165 fails at the middle.** The segment from (0, 0) to (3, 4) has the length 5, and `5 / tenThirds` is below 1.5, so a grid of this step has 2 points; in binary64 the quotient is 1.5, which rounds to 2, and the grid has 3 points. -/
theorem C165_count_fails : rnd tenThirds = tenThirds ∧ pathLen 2 [[0, 0], [3, 4]] = 5 ∧ (∀ m, LengthCountTo rnd [[0, 0], [3, 4]] tenThirds m ↔ m = 3) ∧ ∀ m, LengthCountTo id [[0, 0], [3, 4]] tenThirds m ↔ m = 2 := by
  have r5 : √ ((3 : ℝ) * 3 + 4 * 4) = 5 := by rw [show (3 : ℝ) * 3 + 4 * 4 = 5 ^ 2 by norm_num, Real.sqrt_sq (by norm_num)]
  have gen : ∀ (fl : ℝ → ℝ), (∀ k : ℤ, |k| ≤ 100 → fl k = k) → ∀ m, LengthCountTo fl [[0, 0], [3, 4]] tenThirds m ↔ m = roundEven (fl (5 / tenThirds)) + 1 := by
    intro fl hk m
    have f3 : fl 3 = 3 := by simpa using hk 3 (by norm_num)
    have f4 : fl 4 = 4 := by simpa using hk 4 (by norm_num)
    have f5 : fl 5 = 5 := by simpa using hk 5 (by norm_num)
    have f9 : fl (3 * 3) = 3 * 3 := by have := hk 9 (by norm_num); norm_num at this ⊢; exact this
    have f16 : fl (4 * 4) = 4 * 4 := by have := hk 16 (by norm_num); norm_num at this ⊢; exact this
    have f25 : fl (3 * 3 + 4 * 4) = 3 * 3 + 4 * 4 := by have := hk 25 (by norm_num); norm_num at this ⊢; exact this
    have c1 : ∀ z, ChordTo fl [0, 0] [3, 4] z ↔ z = 5 := by
      intro z
      rw [chordTo_plane]
      simp only [SqTerm, sub_zero, f3, f4, f9, f16, or_self]
      constructor
      · rintro ⟨w, w', rfl, rfl, rfl⟩
        rw [f25, r5, f5]
      · rintro rfl
        exact ⟨_, _, rfl, rfl, by rw [f25, r5, f5]⟩
    have c2 : ∀ zs, ChordsTo fl [[0, 0], [3, 4]] zs ↔ zs = [5] := by
      intro zs
      unfold ChordsTo
      simp only [List.tail_cons, List.zip_cons_cons, List.zip_nil_right, List.forall₂_cons_left_iff, List.forall₂_nil_left_iff, c1]
      constructor
      · rintro ⟨_, _, rfl, rfl, rfl⟩; rfl
      · rintro rfl; exact ⟨_, _, rfl, rfl, rfl⟩
    have c3 : ∀ a, SumsTo fl [5] a ↔ a = 5 := by
      intro a
      constructor
      · intro h
        cases h with
        | one => rfl
        | add _ _ nx ny hz =>
          have := hz.length_eq
          rw [List.length_append] at this
          have := List.length_pos_of_ne_nil nx
          have := List.length_pos_of_ne_nil ny
          simp at *
          omega
      · rintro rfl; exact .one _
    unfold LengthCountTo ArclenTo
    simp only [c2, exists_eq_left, c3]
  refine ⟨rnd_of _ 7505999378950827 (-51) (by norm_num) (by norm_num [tenThirds, zpow_neg]), ?_, fun m => ?_, fun m => ?_⟩
  · have r25 : √ (25 : ℝ) = 5 := by rw [show (25 : ℝ) = 5 ^ 2 by norm_num, Real.sqrt_sq (by norm_num)]
    norm_num [pathLen, gap, EuclideanSpace.dist_eq, Fin.sum_univ_two, Real.dist_eq, pt, r25]
  · rw [gen rnd (fun k hk => rnd_int k (hk.trans (by norm_num)))]
    have : rnd (5 / tenThirds) = 3 / 2 := by
      rw [rnd_value 0 6755399441055744 (by norm_num [tenThirds]) (by norm_num [tenThirds]) (.inl (by rw [abs_lt]; norm_num [tenThirds, zpow_neg]))]
      norm_num [zpow_neg]
    rw [this]
    have : roundEven (3 / 2 : ℝ) = 2 := by
      unfold roundEven
      have : ⌊(3 / 2 : ℝ)⌋ = 1 := by rw [Int.floor_eq_iff]; norm_num
      rw [this]
      norm_num
    rw [this]
    norm_num
  · rw [gen id (fun k _ => rfl)]
    have : roundEven (id (5 / tenThirds)) = 1 := by
      unfold roundEven
      have : ⌊id (5 / tenThirds)⌋ = 1 := by rw [Int.floor_eq_iff]; norm_num [tenThirds]
      rw [this]
      norm_num [tenThirds]
    rw [this]
    norm_num

/-- Nine points: the origin and eight points one above the other, at the abscissa `2^53`. -/
noncomputable def farStack : List (List ℝ) := [[0, 0], [2 ^ 53, 0], [2 ^ 53, 1], [2 ^ 53, 2], [2 ^ 53, 3], [2 ^ 53, 4], [2 ^ 53, 5], [2 ^ 53, 6], [2 ^ 53, 7]]

/-- **C165 fails at the end of the range.** In binary64 `np.sum` of the eight chords of `farStack` gives `2^53 + 6` and `np.cumsum` ends with `2^53`; the grid by speed ends with the former and the parameter range with the latter, so the grid leaves the range (with
`extrapolate=False` the interpolation raises). -/
theorem C165_range_fails : CumTo rnd farStack [0, 2 ^ 53, 2 ^ 53, 2 ^ 53, 2 ^ 53, 2 ^ 53, 2 ^ 53, 2 ^ 53, 2 ^ 53] ∧ ArclenTo rnd farStack (2 ^ 53 + 6) ∧ SpeedTo rnd farStack 2 [0, 2 ^ 53 + 6] := by
  have r0 : rnd 0 = 0 := rnd_zero
  have r1 : rnd 1 = 1 := by simpa using rnd_rep 1 0 (by norm_num)
  have r2 : rnd 2 = 2 := by simpa using rnd_rep 2 0 (by norm_num)
  have r4 : rnd 4 = 4 := by simpa using rnd_rep 4 0 (by norm_num)
  have r53 : rnd (2 ^ 53) = 2 ^ 53 := by simpa using rnd_rep 1 53 (by norm_num)
  have c0 : ChordTo rnd [0, 0] [2 ^ 53, 0] (2 ^ 53) := by
    refine chordTo_plane.2 ⟨2 ^ 53 * 2 ^ 53, 0, .inr (by rw [sub_zero, r53]), .inr (by rw [sub_zero, r0, mul_zero]), ?_⟩
    have : rnd (2 ^ 53 * 2 ^ 53 + 0) = 2 ^ 53 * 2 ^ 53 := rnd_of _ 1 106 (by norm_num) (by norm_num) |>.trans (add_zero _)
    rw [this, Real.sqrt_mul_self (by positivity), r53]
  have c1 : ∀ y : ℝ, ChordTo rnd [2 ^ 53, y] [2 ^ 53, y + 1] 1 := by
    intro y
    refine chordTo_plane.2 ⟨0, 1, .inr (by rw [sub_self, r0, mul_zero]), .inr (by rw [add_sub_cancel_left, r1, mul_one]), ?_⟩
    rw [zero_add, r1, Real.sqrt_one, r1]
  have ch : ChordsTo rnd farStack [2 ^ 53, 1, 1, 1, 1, 1, 1, 1] := by
    have k0 := c1 0
    have k1 := c1 1
    have k2 := c1 2
    have k3 := c1 3
    have k4 := c1 4
    have k5 := c1 5
    have k6 := c1 6
    norm_num at k0 k1 k2 k3 k4 k5 k6
    unfold ChordsTo farStack
    norm_num
    norm_num at c0
    exact ⟨c0, k0, k1, k2, k3, k4, k5, k6⟩
  have hcum : (0 : ℝ) :: cumsumFl rnd [2 ^ 53, 1, 1, 1, 1, 1, 1, 1] = [0, 2 ^ 53, 2 ^ 53, 2 ^ 53, 2 ^ 53, 2 ^ 53, 2 ^ 53, 2 ^ 53, 2 ^ 53] := by
    simp only [cumsumFl, cumFrom, rnd_tie]
  have sm : SumsTo rnd [2 ^ 53, 1, 1, 1, 1, 1, 1, 1] (2 ^ 53 + 6) := by
    have p1 : SumsTo rnd [2 ^ 53, 1] (2 ^ 53) := by
      have := SumsTo.add (fl := rnd) (.one (2 ^ 53)) (.one 1) (by simp) (by simp) (List.Perm.refl _)
      rwa [rnd_tie] at this
    have p2 : SumsTo rnd [1, 1] 2 := by
      have := SumsTo.add (fl := rnd) (.one 1) (.one 1) (by simp) (by simp) (List.Perm.refl _)
      rwa [show (1 : ℝ) + 1 = 2 by norm_num, r2] at this
    have p3 := SumsTo.add p1 p2 (by simp) (by simp) (List.Perm.refl _)
    have p4 := SumsTo.add p2 p2 (by simp) (by simp) (List.Perm.refl _)
    rw [show (2 : ℝ) + 2 = 4 by norm_num, r4] at p4
    have e3 : rnd (2 ^ 53 + 2) = 2 ^ 53 + 2 := rnd_of _ (2 ^ 52 + 1) 1 (by norm_num) (by norm_num)
    rw [e3] at p3
    have p5 := SumsTo.add p3 p4 (by simp) (by simp) (List.Perm.refl _)
    rw [show (2 : ℝ) ^ 53 + 2 + 4 = 2 ^ 53 + 6 by ring, rnd_of (2 ^ 53 + 6) (2 ^ 52 + 3) 1 (by norm_num) (by norm_num)] at p5
    exact p5
  refine ⟨⟨_, ch, hcum.symm⟩, ⟨_, ch, sm⟩, _, _, ch, sm, ?_⟩
  rw [hcum]
  set ts : List ℝ := [0, 2 ^ 53, 2 ^ 53, 2 ^ 53, 2 ^ 53, 2 ^ 53, 2 ^ 53, 2 ^ 53, 2 ^ 53] with hts
  have hl : ts.length = 9 := rfl
  have hlast : ts.getLastD 0 = 2 ^ 53 := rfl
  obtain ⟨s1, s2, s3, s4, -, -, -, -, -⟩ := speed_facts (n := 2) (ts := ts) rnd_rounding r1 (by norm_num) (by rw [hl]; norm_num) (by rw [hl]; norm_num) (by rw [hts]; simp) rfl
    (by intro t ht; rw [hts] at ht; simp at ht; rcases ht with rfl | rfl <;> assumption) (by norm_num) (by norm_num)
  have e : speedLensFl rnd ts 2 = [0, 2 ^ 53] := by
    rw [hlast] at s3
    match hv : speedLensFl rnd ts 2, s1, s2, s3 with
    | [a, b], _, s2, s3 =>
      simp at s2 s3
      rw [s2, s3]
  have hmax : maxR [0, 2 ^ 53] = 2 ^ 53 := by
    unfold maxR
    simp
  rw [s4, e, hmax]
  have r6 : rnd (2 ^ 53 + 6) = 2 ^ 53 + 6 := rnd_of (2 ^ 53 + 6) (2 ^ 52 + 3) 1 (by norm_num) (by norm_num)
  simp only [List.map_cons, List.map_nil, rescaleFl, sub_zero, r0, r53, zero_div, zero_mul, add_zero, div_self (show (2 : ℝ) ^ 53 ≠ 0 by positivity), r1, one_mul, r6]

/-! ## Examples -/

/-- A path of length 7 in steps of 2: `7 / 2` is in the middle, in steps of 3 it is not. -/
example : ∀ m, LengthCountTo rnd exPath.rows 3 m → m = 3 := by
  intro m h
  have := (C165_usual exPath_WF (by decide) (by decide)).1 3 m (by norm_num) h
  have e : pathLen exPath.ndim exPath.rows = 7 := exPath_pathLen
  rw [e] at this
  have h2 : roundEven (7 / 3 : ℝ) = 2 := by
    unfold roundEven
    have : ⌊(7 / 3 : ℝ)⌋ = 2 := by rw [Int.floor_eq_iff]; norm_num
    rw [this]
    norm_num
  rw [h2] at this
  refine this fun k => ?_
  have : (1 : ℝ) / 6 ≤ |7 / 3 - ((k : ℝ) + 1 / 2)| := by
    rcases le_or_gt k 1 with h | h
    · have : (k : ℝ) ≤ 1 := by exact_mod_cast h
      rw [abs_of_nonneg (by linarith)]; linarith
    · have : (2 : ℝ) ≤ k := by exact_mod_cast h
      rw [abs_of_nonpos (by linarith)]; linarith
  refine lt_of_lt_of_le ?_ this
  have n5 : exPath.ndim + exPath.size + 3 = 8 := rfl
  rw [n5]
  norm_num

/-- Eight values at constant speed along the path. -/
example : ∃ g, SpeedTo rnd exPath.rows 8 g ∧ g.length = 8 ∧ g[0]? = some 0 := by
  obtain ⟨g, hg⟩ := (C165_exists rnd exPath.rows 1 8).2
  have e : pathLen exPath.ndim exPath.rows = 7 := exPath_pathLen
  have := (C165_usual exPath_WF (by decide) (by decide)).2 8 g (by norm_num) (by norm_num) (by rw [e]; norm_num) hg
  exact ⟨g, hg, this.1, this.2.1⟩

/-- Without rounding the grid of three values by speed along the path is the one of the exact model. -/
example : ∀ g, SpeedTo id exPath.rows 3 g → speedGrid 0 (.int (3 : ℕ)) exPath = .ok (fins g) := by
  intro g h
  have e : pathLen exPath.ndim exPath.rows = 7 := exPath_pathLen
  exact (C165_exact exPath_WF (by decide) rfl 0).2 3 g (by norm_num) (by rw [e]; norm_num) h

/-! ## Concrete cases -/

example {m : Int} (h : LengthCountTo rnd exPath.rows 2 m) := C165_count rnd_rounding exPath_WF (by decide) (by norm_num [exPath, Curve.ndim, Curve.size]) (by norm_num) h
example {g : List ℝ} (h : SpeedTo rnd exPath.rows 5 g) := C165_speed (n := 5) rnd_rounding (by simpa using rnd_rep 1 0 (by norm_num)) exPath_WF (by decide)
  (by show 0 < pathLen exPath.ncols exPath.rows; rw [exPath_pathLen]; norm_num) (by norm_num) (by norm_num) (by norm_num [exPath, Curve.ndim, Curve.size]) h

end Verif.Props
