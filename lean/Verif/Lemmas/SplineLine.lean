import Verif.Lemmas.NaturalSpline
import Verif.Lemmas.Pchip

/-!
Slopes of the splines for points on a line and for translated points.
-/
namespace Verif.Model

open Verif Verif.Np Verif.Spec

/-- A spline through points on a line with the slope of the line at all knots is the line. -/
theorem PPoly.coord_line {p : PPoly} (hs : p.xs.Pairwise (· < ·)) (hl : 2 ≤ p.xs.length) {j : Nat} {o v : ℝ}
    (hy : ∀ i, i < p.xs.length → p.y.v i j = o + knot p.xs i * v) (hd : ∀ i, i < p.xs.length → p.d.v i j = v) (x : ℝ) :
    p.coord j x = o + x * v := by
  obtain ⟨i, hi, h1, h2⟩ := exists_piece hl x
  have hlt := knot_lt hs (show i < i + 1 by omega) hi
  rw [coord_on hs hi j h1 (h2.imp id le_of_lt)]
  unfold cub
  rw [hy i (by omega), hy (i + 1) hi, hd i (by omega), hd (i + 1) hi]
  unfold hermR
  have : knot p.xs (i + 1) - knot p.xs i ≠ 0 := by linarith
  field_simp
  ring

section
variable {n : Nat} {x y : Nat → ℝ} (hx : ∀ i, i + 1 < n → x i < x (i + 1)) {o v : ℝ} (hy : ∀ i, i < n → y i = o + x i * v)
include hx hy

theorem secant_line {i : Nat} (hi : i + 1 < n) : (y (i + 1) - y i) / (x (i + 1) - x i) = v := by
  have := hx i hi
  rw [hy i (by omega), hy (i + 1) hi]
  have : x (i + 1) - x i ≠ 0 := by linarith
  field_simp
  ring

theorem pchipSlope_line (hn : 2 ≤ n) {k : Nat} (hk : k < n) : pchipSlope n x y k = v := by
  have hsec := fun i hi => secant_line hx hy (i := i) hi
  have edge : ∀ h0 h1, 0 < h0 → 0 < h1 → pchipEdge h0 h1 v v = v := by
    intro h0 h1 p0 p1
    have e : ((2 * h0 + h1) * v - h0 * v) / (h0 + h1) = v := by
      have : h0 + h1 ≠ 0 := by linarith
      field_simp
      ring
    unfold pchipEdge
    simp only [e]
    simp
  unfold pchipSlope
  simp only
  by_cases h2 : n = 2
  · rw [if_pos h2]; exact hsec 0 (by omega)
  rw [if_neg h2]
  by_cases h0 : k = 0
  · rw [if_pos h0, hsec 0 (by omega), hsec 1 (by omega)]
    exact edge _ _ (by have := hx 0 (by omega); linarith) (by have := hx 1 (by omega); linarith)
  rw [if_neg h0]
  by_cases hl : k = n - 1
  · rw [if_pos hl, hsec (n - 2) (by omega), hsec (n - 3) (by omega)]
    exact edge _ _ (by have := hx (n - 2) (by omega); linarith) (by have := hx (n - 3) (by omega); linarith)
  rw [if_neg hl]
  have e1 : k - 1 + 1 = k := by omega
  have s1 := hsec (k - 1) (by omega)
  rw [hsec k (by omega), s1]
  have p1 := hx (k - 1) (by omega)
  have p2 := hx k (by omega)
  rw [e1] at *
  by_cases hv : v = 0
  · rw [if_pos (.inr (.inl hv)), hv]
  · rw [if_neg (by simp [hv])]
    have : x (k + 1) - x k + (x k - x (k - 1)) ≠ 0 := by linarith
    have : 2 * (x (k + 1) - x k) + (x k - x (k - 1)) + (x (k + 1) - x k + 2 * (x k - x (k - 1))) ≠ 0 := by linarith
    rw [← add_div, div_div, one_div_div]
    field_simp

theorem akimaM_line (hn : 3 ≤ n) {i : Nat} (hi : i < n + 3) : akimaM n x y i = v := by
  have hsec := fun i hi => secant_line hx hy (i := i) hi
  unfold akimaM
  simp only
  split_ifs with h1 h2 h3 h4
  · rw [hsec 0 (by omega), hsec 1 (by omega)]; ring
  · rw [hsec 0 (by omega), hsec 1 (by omega)]; ring
  · exact hsec _ (by omega)
  · rw [hsec (n - 2) (by omega), hsec (n - 3) (by omega)]; ring
  · rw [hsec (n - 2) (by omega), hsec (n - 3) (by omega)]; ring

theorem akimaSlope_line (hn : 3 ≤ n) {top : ℝ} (ht : 0 ≤ top) {k : Nat} (hk : k < n) : akimaSlope (akimaM n x y) top k = v := by
  have hM := fun i hi => akimaM_line hx hy hn (i := i) hi
  have f0 : akimaF12 (akimaM n x y) k = 0 := by
    unfold akimaF12
    rw [hM (k + 3) (by omega), hM (k + 2) (by omega), hM (k + 1) (by omega), hM k (by omega)]
    simp
  unfold akimaSlope
  rw [f0, if_neg (by rw [not_lt]; positivity), hM (k + 3) (by omega), hM k (by omega)]
  ring

theorem natural_line (hn : 2 ≤ n) {d : Nat → ℝ} (hd : NaturalSystem n x y d) {k : Nat} (hk : k < n) : d k = v := by
  have hsec := fun i hi => secant_line hx hy (i := i) hi
  refine natural_unique hn hx hd (d' := fun _ => v) ⟨?_, ?_, ?_⟩ k hk
  · rw [hy 0 (by omega), hy 1 (by omega)]; ring
  · rw [hy (n - 1) (by omega), hy (n - 2) (by omega)]; ring
  · intro k hk
    rw [hsec k (by omega), hsec (k + 1) (by omega)]
    ring

end

theorem foldl_max_nonneg (l : List ℝ) {a : ℝ} (h : 0 ≤ a) : 0 ≤ l.foldl max a := by
  induction l generalizing a with
  | nil => exact h
  | cons b l ih => exact ih (le_max_of_le_left h)

/-! ## Translation -/

section
variable {n : Nat} {x y y' : Nat → ℝ} {w : ℝ} (hy : ∀ i, i < n → y' i = y i + w)
include hy

theorem secant_move {i : Nat} (hi : i + 1 < n) : (y' (i + 1) - y' i) = (y (i + 1) - y i) := by
  rw [hy i (by omega), hy (i + 1) hi]; ring

theorem pchipSlope_move (hn : 2 ≤ n) {k : Nat} (hk : k < n) : pchipSlope n x y' k = pchipSlope n x y k := by
  have hsec := fun i hi => secant_move hy (i := i) hi
  unfold pchipSlope
  simp only
  by_cases h2 : n = 2
  · rw [if_pos h2, if_pos h2, hsec 0 (by omega)]
  rw [if_neg h2, if_neg h2]
  by_cases h0 : k = 0
  · rw [if_pos h0, if_pos h0, hsec 0 (by omega), hsec 1 (by omega)]
  rw [if_neg h0, if_neg h0]
  by_cases hl : k = n - 1
  · rw [if_pos hl, if_pos hl, hsec (n - 2) (by omega), hsec (n - 3) (by omega)]
  rw [if_neg hl, if_neg hl, hsec k (by omega), hsec (k - 1) (by omega)]

theorem akimaM_move (hn : 3 ≤ n) {i : Nat} (hi : i < n + 3) : akimaM n x y' i = akimaM n x y i := by
  have hsec := fun i hi => secant_move hy (i := i) hi
  unfold akimaM
  simp only
  rw [hsec 0 (by omega), hsec 1 (by omega), hsec (n - 2) (by omega), hsec (n - 3) (by omega)]
  split_ifs with h1 h2 h3
  · rfl
  · rfl
  · rw [hsec (i - 2) (by omega)]
  · rfl
  · rfl

theorem akimaF12_move (hn : 3 ≤ n) {k : Nat} (hk : k < n) : akimaF12 (akimaM n x y') k = akimaF12 (akimaM n x y) k := by
  have hM := fun i hi => akimaM_move (x := x) hy hn (i := i) hi
  unfold akimaF12
  rw [hM (k + 3) (by omega), hM (k + 2) (by omega), hM (k + 1) (by omega), hM k (by omega)]

theorem akimaSlope_move (hn : 3 ≤ n) (top : ℝ) {k : Nat} (hk : k < n) :
    akimaSlope (akimaM n x y') top k = akimaSlope (akimaM n x y) top k := by
  have hM := fun i hi => akimaM_move (x := x) hy hn (i := i) hi
  unfold akimaSlope
  rw [akimaF12_move hy hn hk, hM (k + 3) (by omega), hM (k + 2) (by omega), hM (k + 1) (by omega), hM k (by omega)]

theorem natural_move (hn : 2 ≤ n) (hx : ∀ i, i + 1 < n → x i < x (i + 1)) {d d' : Nat → ℝ} (hd : NaturalSystem n x y d)
    (hd' : NaturalSystem n x y' d') {k : Nat} (hk : k < n) : d' k = d k := by
  have hsec := fun i hi => secant_move hy (i := i) hi
  refine natural_unique hn hx hd' ⟨?_, ?_, ?_⟩ k hk
  · rw [hsec 0 (by omega)]; exact hd.first
  · have := hsec (n - 2) (by omega)
    rw [show n - 2 + 1 = n - 1 by omega] at this
    rw [this]; exact hd.last
  · intro k hk
    rw [hsec k (by omega), hsec (k + 1) (by omega)]
    exact hd.inner k hk

end

/-- The spline through translated points with the same slopes is the translated spline. -/
theorem PPoly.coord_move {p q : PPoly} (hxs : q.xs = p.xs) (hs : p.xs.Pairwise (· < ·)) (hl : 2 ≤ p.xs.length) {j : Nat} {w : ℝ}
    (hy : ∀ i, i < p.xs.length → q.y.v i j = p.y.v i j + w) (hd : ∀ i, i < p.xs.length → q.d.v i j = p.d.v i j) (x : ℝ) :
    q.coord j x = p.coord j x + w := by
  obtain ⟨i, hi, h1, h2⟩ := exists_piece hl x
  have hlt := knot_lt hs (show i < i + 1 by omega) hi
  rw [coord_on hs hi j h1 (h2.imp id le_of_lt)]
  rw [coord_on (p := q) (by rw [hxs]; exact hs) (by rw [hxs]; exact hi) j (by rw [hxs]; exact h1) (by rw [hxs]; exact h2.imp id le_of_lt)]
  unfold cub
  rw [hxs, hy i (by omega), hy (i + 1) hi, hd i (by omega), hd (i + 1) hi]
  unfold hermR
  ring

/-! ## Chord lengths of translated points -/

theorem chords_move {w : Nat → ℝ} {c c' : Curve ℝ} (hr : ∀ r ∈ c.rows, r.length = c.ncols) (hr' : ∀ r ∈ c'.rows, r.length = c'.ncols)
    (h : Moved w c c') : chords c'.rows = chords c.rows := by
  apply List.ext_getElem?
  intro i
  have len : (chords c'.rows).length = (chords c.rows).length := by rw [chords_length, chords_length, h.size]
  by_cases hi : i + 1 < c.rows.length
  · have hi' : i + 1 < c'.rows.length := by rw [h.size]; exact hi
    have e : ∀ k, k < c.rows.length → ∃ r r', c.rows[k]? = some r ∧ c'.rows[k]? = some r' ∧ r.length = c.ncols ∧ r'.length = c.ncols ∧
        pt c.ncols r' = pt c.ncols r + WithLp.toLp 2 (fun j : Fin c.ncols => w j) := by
      intro k hk
      have hk' : k < c'.rows.length := by rw [h.size]; exact hk
      refine ⟨_, _, List.getElem?_eq_getElem hk, List.getElem?_eq_getElem hk', hr _ (List.getElem_mem hk), ?_, ?_⟩
      · rw [hr' _ (List.getElem_mem hk'), h.ncols]
      · ext j
        have := h.rows k j hk j.2
        unfold at2 at this
        rw [List.getD_eq_getElem?_getD (l := c'.rows), List.getElem?_eq_getElem hk', List.getD_eq_getElem?_getD (l := c.rows),
          List.getElem?_eq_getElem hk] at this
        simpa [pt] using this
    obtain ⟨a, a', h1, h2, la, la', ea⟩ := e i (by omega)
    obtain ⟨b, b', h3, h4, lb, lb', eb⟩ := e (i + 1) hi
    unfold chords
    rw [List.getElem?_zipWith, List.getElem?_zipWith, List.getElem?_tail, List.getElem?_tail, h1, h2, h3, h4]
    simp only
    rw [chord_eq_gap la lb, chord_eq_gap la' lb']
    unfold gap
    rw [ea, eb, dist_add_right]
  · rw [List.getElem?_eq_none (by rw [len, chords_length]; omega), List.getElem?_eq_none (by rw [chords_length]; omega)]

theorem t_move {w : Nat → ℝ} {c c' : Curve ℝ} (hr : ∀ r ∈ c.rows, r.length = c.ncols) (hr' : ∀ r ∈ c'.rows, r.length = c'.ncols)
    (h : Moved w c c') (hne : c.rows ≠ []) (junk : ℝ) : c'.t junk = c.t junk := by
  have hne' : c'.rows ≠ [] := by
    intro e; apply hne; rw [← List.length_eq_zero_iff, ← h.size, e]; rfl
  unfold Curve.t
  rw [h.tdata]
  cases c.tdata with
  | some t => rfl
  | none =>
    simp only [cumarclen, cumarclenFl, chordlen, if_neg hne, if_neg hne', chords_move hr hr' h]

end Verif.Model
