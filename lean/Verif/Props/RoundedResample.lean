import Verif.Model.RoundedResample
import Verif.Props.RoundedGrid
import Verif.Props.RoundedParam
import Verif.Props.Refine

/-!
C163: resampling a curve in floating point, from the chords to the points of the result.
-/
namespace Verif.Spec

open Verif Verif.Np Verif.Model

/-- `p` is the point of the polygonal line at the length `s` from its start. -/
def OnPath (n : Nat) (rows : List (List ℝ)) (s : ℝ) (p : Nat → ℝ) : Prop :=
  ∃ (k : Nat) (a b : List ℝ) (w : ℝ), rows[k]? = some a ∧ rows[k + 1]? = some b ∧ 0 ≤ w ∧ w ≤ 1 ∧ s = pathLen n (rows.take (k + 1)) + w * gap n a b ∧ ∀ j, p j = a.getD j 0 + w * (b.getD j 0 - a.getD j 0)

end Verif.Spec

namespace Verif.Props

open Verif Verif.Np Verif.Model Verif.Spec

section
variable {ε : ℝ} {fl : ℝ → ℝ} {c : Curve ℝ} {n : Nat}

/-- The clipped result of `searchsorted` for a value in the range of a sorted array. -/
theorem search_bracket {ts : List ℝ} (hs : ts.Pairwise (· ≤ ·)) (h2 : 2 ≤ ts.length) {x : ℝ} (h0 : ts.headD 0 ≤ x) (h1 : x ≤ ts.getLastD 0) (hd : ts.getD 0 0 < ts.getD 1 0) :
    ∃ k, max 1 (min (searchsorted ts (.fin x)) (ts.length - 1)) = k + 1 ∧ k + 1 < ts.length ∧ ts.getD k 0 ≤ x ∧ x ≤ ts.getD (k + 1) 0 ∧ ts.getD k 0 < ts.getD (k + 1) 0 := by
  have e : searchsorted ts (.fin x) = (ts.takeWhile fun y => decide (y < x)).length := rfl
  set s := searchsorted ts (.fin x) with hsd
  have below : ∀ i (hi : i < s), ∃ h : i < ts.length, ts[i] < x := by
    intro i hi
    rw [e] at hi
    have hm := List.getElem_mem hi
    have hlt : i < ts.length := lt_of_lt_of_le hi (List.takeWhile_prefix (p := fun y => decide (y < x)) (l := ts)).length_le
    refine ⟨hlt, ?_⟩
    have := List.all_takeWhile (l := ts) (p := fun y => decide (y < x))
    rw [List.all_eq_true] at this
    have h3 := this _ hm
    have h4 : (ts.takeWhile fun y => decide (y < x))[i] = ts[i] := (List.takeWhile_prefix (p := fun y => decide (y < x)) (l := ts)).getElem hi
    rw [h4] at h3
    exact of_decide_eq_true h3
  have above : ∀ h : s < ts.length, x ≤ ts[s] := by
    intro h
    by_contra hc
    rw [not_le] at hc
    have : (ts.takeWhile fun y => decide (y < x)).length < (ts.takeWhile fun y => decide (y < x)).length := by
      conv_rhs => rw [← List.take_append_drop (s + 1) ts]
      rw [List.takeWhile_append_of_pos]
      · rw [List.length_append, List.length_take]
        rw [← e]; omega
      · intro y hy
        obtain ⟨i, hi, rfl⟩ := List.getElem_of_mem hy
        rw [List.length_take] at hi
        rw [List.getElem_take]
        rcases Nat.lt_or_ge i s with h5 | h5
        · exact decide_eq_true (below i h5).2
        · have : i = s := by omega
          subst this
          exact decide_eq_true hc
    omega
  have hle : s ≤ ts.length := by rw [e]; exact (List.takeWhile_prefix (p := fun y => decide (y < x)) (l := ts)).length_le
  have hne : ts ≠ [] := by rintro rfl; simp at h2
  have hlast : ts.getLastD 0 = ts[ts.length - 1] := by
    rw [List.getLastD_eq_getLast?, List.getLast?_eq_getElem?, List.getElem?_eq_getElem (by omega)]; rfl
  have hhead : ts.headD 0 = ts[0] := by
    cases ts with
    | nil => simp at h2
    | cons a l => rfl
  have hsl : s < ts.length := by
    by_contra h
    have := (below (ts.length - 1) (by omega)).2
    rw [hlast] at h1
    linarith
  have g : ∀ i (h : i < ts.length), ts.getD i 0 = ts[i] := fun i h => by simp [h]
  rcases Nat.eq_zero_or_pos s with h | h
  · refine ⟨0, by omega, by omega, ?_, ?_, hd⟩
    · rw [g 0 (by omega), ← hhead]; exact h0
    · have h5 := above hsl
      simp only [h] at h5
      rw [g 0 (by omega)] at hd
      linarith
  · obtain ⟨q, hq⟩ : ∃ q, s = q + 1 := ⟨s - 1, by omega⟩
    have h5 := above hsl
    have h6 := (below q (by omega)).2
    simp only [hq] at h5
    refine ⟨q, by omega, by omega, ?_, ?_, ?_⟩
    · rw [g q (by omega)]; exact h6.le
    · rw [g (q + 1) (by omega)]; exact h5
    · rw [g q (by omega), g (q + 1) (by omega)]; exact h6.trans_le h5

theorem pathLen_part_le (n : Nat) (rows : List (List ℝ)) (k : Nat) : pathLen n (rows.take (k + 1)) ≤ pathLen n rows := by
  rw [pathLen_eq_sum, pathLen_eq_sum, zip_take]
  refine (List.take_sublist _ _).sum_le_sum ?_
  intro x hx
  rw [← List.map_uncurry_zip_eq_zipWith] at hx
  obtain ⟨p, -, rfl⟩ := List.mem_map.1 hx
  exact dist_nonneg

theorem coord_le_gap {n : Nat} {a b : List ℝ} {j : Nat} (hj : j < n) : |b.getD j 0 - a.getD j 0| ≤ gap n a b := by
  unfold gap
  rw [EuclideanSpace.dist_eq]
  refine Real.le_sqrt_of_sq_le ?_
  have := Finset.single_le_sum (f := fun i : Fin n => dist ((pt n a) i) ((pt n b) i) ^ 2) (fun i _ => sq_nonneg _) (Finset.mem_univ (⟨j, hj⟩ : Fin n))
  refine le_trans (le_of_eq ?_) this
  simp only [pt, Real.dist_eq, sq_abs]
  ring

/-- The facts about the computed parameter. -/
theorem param_facts (hf : Rounding ε fl) (hc : WF c) (hs : 2 ≤ c.size) (hε : 2 * ((c.ndim + c.size + 4 : ℕ) * ε) ≤ 1) (h0 : c.rows[0]? ≠ c.rows[1]?) {ts : List ℝ} (h : CumTo fl c.rows ts) :
    ts.length = c.size ∧ ts.headD 0 = 0 ∧ ts.Pairwise (· ≤ ·) ∧ ts.getD 0 0 < ts.getD 1 0 ∧ fl (ts.getLastD 0) = ts.getLastD 0 ∧ 0 ≤ ts.getLastD 0 ∧ ts.getLastD 0 = ts.getD (c.size - 1) 0 ∧
    ∀ k, k < c.size → |ts.getD k 0 - pathLen c.ndim (c.rows.take (k + 1))| ≤ 2 * ((c.ndim + c.size + 4 : ℕ) * ε) * pathLen c.ndim c.rows := by
  obtain ⟨h1, h2, h3, h4⟩ := C119_cumarclen hf hc (by omega) h
  have hn : 0 < c.ndim := by have := hc.two_le; show 0 < c.ncols; omega
  have hsz : c.size = c.rows.length := rfl
  have g : ∀ i (h : i < ts.length), ts.getD i 0 = ts[i] := fun i h => by simp [h]
  have hd : ts.headD 0 = 0 := by
    cases ts with
    | nil => rfl
    | cons a l => simpa using h2
  have hl : ts.getLastD 0 = ts.getD (c.size - 1) 0 := by
    rw [List.getLastD_eq_getLast?, List.getLast?_eq_getElem?, h1, List.getD_eq_getElem?_getD]
  have step : ∀ k, k + 1 < c.size → ∃ l z, ts[k]? = some l ∧ ts[k + 1]? = some (fl (l + z)) ∧ 0 ≤ l ∧ ChordTo fl (c.rows.getD k []) (c.rows.getD (k + 1) []) z := by
    intro k hk
    have e1 : c.rows[k]? = some (c.rows.getD k []) := by simp [show k < c.rows.length by omega]
    have e2 : c.rows[k + 1]? = some (c.rows.getD (k + 1) []) := by simp [show k + 1 < c.rows.length by omega]
    obtain ⟨l, z, q1, q2, q3, -, -, q4⟩ := param_step hf hc h e1 e2
    exact ⟨l, z, q1, q2, q3, q4⟩
  refine ⟨h1, hd, h3, ?_, ?_, ?_, hl, ?_⟩
  · obtain ⟨l, z, q1, q2, q3, q4⟩ := step 0 (by omega)
    rw [h2] at q1
    obtain rfl := Option.some.inj q1
    have la : (c.rows.getD 0 []).length = c.ndim := hc.rect _ (by simp [show 0 < c.rows.length by omega])
    have lb : (c.rows.getD 1 []).length = c.ndim := hc.rect _ (by simp [show 1 < c.rows.length by omega])
    have := C119_chord hf hn (small_of hf (show c.ndim + 4 ≤ c.ndim + c.size + 4 by omega) hε) la lb q4
    have zne : z ≠ 0 := by
      intro hz
      apply h0
      have e := this.2.2.1 hz
      have e1 : c.rows[0]? = some (c.rows.getD 0 []) := by simp [show 0 < c.rows.length by omega]
      have e2 : c.rows[1]? = some (c.rows.getD 1 []) := by simp [show 1 < c.rows.length by omega]
      rw [e1, e2, e]
    have zpos : 0 < z := lt_of_le_of_ne this.2.1 (Ne.symm zne)
    rw [List.getD_eq_getElem?_getD, List.getD_eq_getElem?_getD, h2, q2, zero_add]
    have := (abs_le.1 (hf.rel z)).1
    rw [abs_of_pos zpos] at this
    have : ε * z < z := by nlinarith [hf.lt_one]
    show (0 : ℝ) < fl z
    linarith
  · obtain ⟨l, z, q1, q2, q3, q4⟩ := step (c.size - 2) (by omega)
    rw [hl, List.getD_eq_getElem?_getD, show c.size - 1 = c.size - 2 + 1 by omega, q2]
    exact hf.idem _
  · have := List.pairwise_iff_getElem.1 h3 0 (c.size - 1) (by omega) (by omega) (by omega)
    rw [hl, g _ (by omega)]
    rw [List.getElem?_eq_getElem (by omega)] at h2
    rw [Option.some.inj h2] at this
    exact this
  · intro k hk
    have e : ts[k]? = some (ts.getD k 0) := by simp [show k < ts.length by omega]
    have := h4 k _ e (small_of hf (show c.ndim + k + 4 ≤ c.ndim + c.size + 4 by omega) hε)
    refine this.trans ?_
    have p0 : 0 ≤ pathLen c.ndim (c.rows.take (k + 1)) := sum_gaps_nonneg _ _
    have p1 := pathLen_part_le c.ndim c.rows k
    have m : ((c.ndim + k + 4 : ℕ) : ℝ) * ε ≤ ((c.ndim + c.size + 4 : ℕ) : ℝ) * ε := mul_le_mul_of_nonneg_right (by exact_mod_cast (by omega : c.ndim + k + 4 ≤ c.ndim + c.size + 4)) hf.nonneg
    have m0 : 0 ≤ ((c.ndim + c.size + 4 : ℕ) : ℝ) * ε := mul_nonneg (Nat.cast_nonneg _) hf.nonneg
    nlinarith

/-- One value of the grid. -/
theorem resample_at (hf : Rounding ε fl) (hc : WF c) (hs : 2 ≤ c.size) (hr : ∀ r ∈ c.rows, ∀ x ∈ r, fl x = x) (hε : 2 * ((c.ndim + c.size + 4 : ℕ) * ε) ≤ 1) (h0 : c.rows[0]? ≠ c.rows[1]?) {ts : List ℝ}
    (h : CumTo fl c.rows ts) {x : ℝ} (x0 : 0 ≤ x) (x1 : x ≤ ts.getLastD 0) :
    (interpAtFl fl ts c.rows x).length = c.ndim ∧ ∃ s p, OnPath c.ndim c.rows s p ∧ |s - x| ≤ 2 * ((c.ndim + c.size + 4 : ℕ) * ε) * pathLen c.ndim c.rows ∧
      ∀ j, |(interpAtFl fl ts c.rows x).getD j 0 - p j| ≤ ε * |p j| + 24 * ε * pathLen c.ndim c.rows := by
  obtain ⟨t1, t2, t3, t4, t5, t6, t7, t8⟩ := param_facts hf hc hs hε h0 h
  obtain ⟨k, k1, k2, k3, k4, k5⟩ := search_bracket t3 (by omega) (by rw [t2]; exact x0) x1 t4
  have hsz : c.size = c.rows.length := rfl
  have e1 : c.rows[k]? = some (c.rows.getD k []) := by simp [show k < c.rows.length by omega]
  have e2 : c.rows[k + 1]? = some (c.rows.getD (k + 1) []) := by simp [show k + 1 < c.rows.length by omega]
  have m1 := List.mem_of_getElem? e1
  have m2 := List.mem_of_getElem? e2
  set a := c.rows.getD k [] with ha
  set b := c.rows.getD (k + 1) [] with hb
  have la : a.length = c.ndim := hc.rect _ m1
  have lb : b.length = c.ndim := hc.rect _ m2
  have hd : 0 < ts.getD (k + 1) 0 - ts.getD k 0 := by linarith
  set w := (x - ts.getD k 0) / (ts.getD (k + 1) 0 - ts.getD k 0) with hw
  have w0 : 0 ≤ w := div_nonneg (by linarith) hd.le
  have w1 : w ≤ 1 := (div_le_one hd).2 (by linarith)
  have ev : interpAtFl fl ts c.rows x = List.zipWith (fun ylo yhi => lerpFl fl (ts.getD k 0) (ts.getD (k + 1) 0) ylo yhi x) a b := by
    unfold interpAtFl
    simp only [k1, Nat.add_sub_cancel, ← ha, ← hb]
  have hx : x = (1 - w) * ts.getD k 0 + w * ts.getD (k + 1) 0 := by
    have : w * (ts.getD (k + 1) 0 - ts.getD k 0) = x - ts.getD k 0 := by rw [hw]; exact div_mul_cancel₀ _ hd.ne'
    linarith
  have p0 : 0 ≤ pathLen c.ndim c.rows := sum_gaps_nonneg _ _
  have pk0 : 0 ≤ pathLen c.ndim (c.rows.take (k + 1)) := sum_gaps_nonneg _ _
  have pk := pathLen_take_succ (n := c.ndim) e1 e2
  have pk1 := pathLen_part_le c.ndim c.rows (k + 1)
  have ε12 : 12 * ε ≤ 1 := by
    have : (6 : ℝ) ≤ ((c.ndim + c.size + 4 : ℕ) : ℝ) := by exact_mod_cast (by omega : 6 ≤ c.ndim + c.size + 4)
    nlinarith [hf.nonneg]
  rw [ev]
  refine ⟨by simp [la, lb], pathLen c.ndim (c.rows.take (k + 1)) + w * gap c.ndim a b, fun j => a.getD j 0 + w * (b.getD j 0 - a.getD j 0), ⟨k, a, b, w, e1, e2, w0, w1, rfl, fun j => rfl⟩, ?_, ?_⟩
  · have b1 := abs_le.1 (t8 k (by omega))
    have b2 := abs_le.1 (t8 (k + 1) (by omega))
    set D := 2 * ((c.ndim + c.size + 4 : ℕ) * ε) * pathLen c.ndim c.rows
    have : pathLen c.ndim (c.rows.take (k + 1)) + w * gap c.ndim a b - x = -((1 - w) * (ts.getD k 0 - pathLen c.ndim (c.rows.take (k + 1))) + w * (ts.getD (k + 1) 0 - pathLen c.ndim (c.rows.take (k + 1 + 1)))) := by
      rw [pk]; nlinarith [hx]
    rw [this, abs_neg, abs_le]
    constructor
    · nlinarith [mul_le_mul_of_nonneg_left b1.1 (show 0 ≤ 1 - w by linarith), mul_le_mul_of_nonneg_left b2.1 w0]
    · nlinarith [mul_le_mul_of_nonneg_left b1.2 (show 0 ≤ 1 - w by linarith), mul_le_mul_of_nonneg_left b2.2 w0]
  · intro j
    by_cases hj : j < c.ndim
    · have ea : a.getD j 0 = a[j] := by simp [show j < a.length by omega]
      have eb : b.getD j 0 = b[j] := by simp [show j < b.length by omega]
      have ez : (List.zipWith (fun ylo yhi => lerpFl fl (ts.getD k 0) (ts.getD (k + 1) 0) ylo yhi x) a b).getD j 0 = lerpFl fl (ts.getD k 0) (ts.getD (k + 1) 0) (a.getD j 0) (b.getD j 0) x := by
        rw [ea, eb]
        rw [List.getD_eq_getElem?_getD, List.getElem?_eq_getElem (by simp; omega), List.getElem_zipWith]
        rfl
      have L := (C121_linear hf ε12 (ylo := a.getD j 0) (yhi := b.getD j 0) k5 (h1 := by rw [ea]; exact hr _ m1 _ (List.getElem_mem _))).2.1 x k3
      rw [← hw, mul_comm (b.getD j 0 - a.getD j 0) w] at L
      rw [ez]
      refine L.trans (add_le_add le_rfl (mul_le_mul_of_nonneg_left ?_ (by linarith [hf.nonneg])))
      rw [abs_mul, abs_of_nonneg w0]
      have := coord_le_gap (a := a) (b := b) hj
      nlinarith [abs_nonneg (b.getD j 0 - a.getD j 0)]
    · have ea : a.getD j 0 = 0 := by simp [show a.length ≤ j by omega]
      have eb : b.getD j 0 = 0 := by simp [show b.length ≤ j by omega]
      have ez : (List.zipWith (fun ylo yhi => lerpFl fl (ts.getD k 0) (ts.getD (k + 1) 0) ylo yhi x) a b).getD j 0 = 0 := by
        rw [List.getD_eq_getElem?_getD, List.getElem?_eq_none (by simp; omega)]; rfl
      rw [ez]
      simp only [ea, eb, sub_zero, mul_zero, add_zero, abs_zero, zero_add]
      exact mul_nonneg (by linarith [hf.nonneg]) p0

/-- The exception of `interp1d` for values out of range does not occur. -/
theorem resample_range (hf : Rounding ε fl) (hc : WF c) (hs : 2 ≤ c.size) (hε : 2 * ((c.ndim + c.size + 4 : ℕ) * ε) ≤ 1) (h0 : c.rows[0]? ≠ c.rows[1]?) {ts : List ℝ}
    (h : CumTo fl c.rows ts) (hn : 1 < n) (hε' : 6 * (((n : ℝ) - 1) * ε) ≤ 1) : ¬ ∃ x ∈ linspaceFl fl (ts.headD 0) (ts.getLastD 0) n, x < ts.headD 0 ∨ ts.getLastD 0 < x := by
  obtain ⟨t1, t2, t3, t4, t5, t6, t7, t8⟩ := param_facts hf hc hs hε h0 h
  rintro ⟨x, hx, hb⟩
  rw [t2] at hx hb
  obtain ⟨g1, g2, g3, g4, g5, g6⟩ := C120_grid hf (fl_zero hf) t5 t6 hn hε'
  have := g5 x hx
  rcases hb with hb | hb <;> linarith

/-- **C163 (points).** `curve.interpolate(n, method='linear')` of a float curve without parameter values in rounded arithmetic, where the coordinates are rounded numbers and the first two points differ: if it returns a curve, that curve has `n`
points, the first is the first point of the curve, and point `i` is the point of the polygonal line at a length from its start that differs from `i L / (n - 1)` by at most `(4 (ndim + size) + 42) ε L`, up to `ε` times the coordinate plus
`24 ε L` in each coordinate. -/
theorem C163_points (hf : Rounding ε fl) (hc : WF c) (hs : 2 ≤ c.size) (hr : ∀ r ∈ c.rows, ∀ x ∈ r, fl x = x) (hn : 1 < n) (hε' : 6 * (((n : ℝ) - 1) * ε) ≤ 1) (hε : 2 * ((c.ndim + c.size + 4 : ℕ) * ε) ≤ 1)
    (h0 : c.rows[0]? ≠ c.rows[1]?) {ex : Bool} {out : List (List ℝ)} (h : ResampleTo fl c.rows n ex (.ok out)) :
    out.length = n ∧ out[0]? = c.rows[0]? ∧ ∀ i, i < n → ∃ q s p, out[i]? = some q ∧ q.length = c.ndim ∧ OnPath c.ndim c.rows s p ∧
      |s - i * (pathLen c.ndim c.rows / ((n : ℝ) - 1))| ≤ (4 * (c.ndim + c.size : ℕ) + 42) * ε * pathLen c.ndim c.rows ∧ ∀ j, |q.getD j 0 - p j| ≤ ε * |p j| + 24 * ε * pathLen c.ndim c.rows := by
  obtain ⟨ts, hts, he⟩ := h
  obtain ⟨t1, t2, t3, t4, t5, t6, t7, t8⟩ := param_facts hf hc hs hε h0 hts
  have hsz : c.size = c.rows.length := rfl
  split at he
  · exact absurd he (by simp)
  · split at he
    · exact absurd he (by simp)
    · have he := Except.ok.inj he
      rw [t2] at he
      obtain ⟨g1, g2, g3, g4, g5, g6⟩ := C120_grid hf (fl_zero hf) t5 t6 hn hε'
      have hn1 : (1 : ℝ) < n := by exact_mod_cast hn
      have hd : (0 : ℝ) < (n : ℝ) - 1 := by linarith
      refine ⟨by rw [he, List.length_map, g1], ?_, ?_⟩
      · rw [he, List.getElem?_map, g2]
        have e1 : c.rows[0]? = some (c.rows.getD 0 []) := by simp [show 0 < c.rows.length by omega]
        have e2 : c.rows[1]? = some (c.rows.getD 1 []) := by simp [show 1 < c.rows.length by omega]
        have l1 : (c.rows.getD 0 []).length = c.ndim := hc.rect _ (List.mem_of_getElem? e1)
        have l2 : (c.rows.getD 1 []).length = c.ndim := hc.rect _ (List.mem_of_getElem? e2)
        have hh : ts.getD 0 0 = 0 := by
          cases ts with
          | nil => rfl
          | cons a l => simpa using t2
        have hz : searchsorted ts (.fin (0 : ℝ)) = 0 := by
          cases ts with
          | nil => rfl
          | cons a l =>
            have : a = 0 := by simpa using hh
            subst this
            simp [searchsorted]
        have ε12 : 12 * ε ≤ 1 := by
          have : (6 : ℝ) ≤ ((c.ndim + c.size + 4 : ℕ) : ℝ) := by exact_mod_cast (by omega : 6 ≤ c.ndim + c.size + 4)
          nlinarith [hf.nonneg]
        rw [e1]
        simp only [Option.map_some]
        congr 1
        unfold interpAtFl
        rw [hz]
        simp only [Nat.zero_min, show max 1 0 = 1 from rfl, Nat.sub_self]
        refine List.ext_getElem (by rw [List.length_zipWith, l1, l2, Nat.min_self]) ?_
        intro j j1 j2
        rw [List.getElem_zipWith]
        have := (C121_linear hf ε12 (yhi := (c.rows.getD 1 [])[j]'(by omega)) t4 (h1 := hr _ (List.mem_of_getElem? e1) _ (List.getElem_mem j2))).1
        rw [hh] at this
        simpa only [hh] using this
      · intro i hi
        obtain ⟨x, hx⟩ : ∃ x, (linspaceFl fl 0 (ts.getLastD 0) n)[i]? = some x := ⟨_, List.getElem?_eq_getElem (by rw [g1]; exact hi)⟩
        have hb := g5 x (List.mem_of_getElem? hx)
        obtain ⟨r1, s, p, r2, r3, r4⟩ := resample_at hf hc hs hr hε h0 hts hb.1 hb.2.1
        refine ⟨interpAtFl fl ts c.rows x, s, p, by rw [he, List.getElem?_map, hx]; rfl, r1, r2, ?_, r4⟩
        have q1 := g6 i x hx
        have q2 := t8 (c.size - 1) (by omega)
        rw [← t7, show c.size - 1 + 1 = c.size by omega, hsz, List.take_length] at q2
        rw [zero_add, sub_zero] at q1
        have p0 : 0 ≤ pathLen c.ndim c.rows := sum_gaps_nonneg _ _
        set T := ts.getLastD 0
        set L := pathLen c.ndim c.rows
        set v := (i : ℝ) / ((n : ℝ) - 1) with hv
        have v0 : 0 ≤ v := div_nonneg (Nat.cast_nonneg _) hd.le
        have v1 : v ≤ 1 := (div_le_one hd).2 (by have : (i : ℝ) + 1 ≤ n := by exact_mod_cast hi
                                                 linarith)
        have eT : (i : ℝ) * (T / ((n : ℝ) - 1)) = v * T := by rw [hv]; ring
        have eL : (i : ℝ) * (L / ((n : ℝ) - 1)) = v * L := by rw [hv]; ring
        rw [eT, abs_of_nonneg (mul_nonneg v0 t6)] at q1
        rw [eL]
        rw [← hsz] at q2
        push_cast at q2 r3 hε ⊢
        set δ := 2 * (((c.ndim : ℝ) + c.size + 4) * ε) with hδ
        have q3 := (abs_le.1 q2).2
        have T2 : T ≤ 2 * L := by nlinarith
        have e0 := hf.nonneg
        have q4 : |x - v * T| ≤ 26 * ε * L := by
          refine q1.trans ?_
          have : v * T ≤ 2 * L := by nlinarith
          nlinarith [mul_le_mul_of_nonneg_left this e0, mul_le_mul_of_nonneg_left T2 e0]
        have q5 : |v * T - v * L| ≤ δ * L := by
          rw [← mul_sub, abs_mul, abs_of_nonneg v0]
          nlinarith [abs_nonneg (T - L)]
        have : s - v * L = (s - x) + (x - v * T) + (v * T - v * L) := by ring
        rw [this]
        refine (abs_add_three _ _ _).trans ?_
        have : (4 * ((c.ndim : ℝ) + c.size) + 42) * ε * L = δ * L + 26 * ε * L + δ * L := by rw [hδ]; ring
        rw [this]
        exact add_le_add (add_le_add r3 q4) q5

theorem closeFl_zero (hf : Rounding ε fl) (d : ℝ) : CloseFl fl d 0 ↔ |fl d| ≤ fl (1 / 10 ^ 8) := by
  unfold CloseFl
  rw [sub_zero, abs_zero, mul_zero, fl_zero hf, add_zero, hf.idem, show (atol : ℝ) = 1 / 10 ^ 8 by norm_num [atol]]

/-- The test of the grid and its specification. -/
theorem badSteps_iff (hf : Rounding ε fl) (g : List ℝ) : ¬ BadStepsFl fl g ↔ AcceptedFl fl g := by
  unfold BadStepsFl AcceptedFl
  constructor
  · intro h i x y hx hy
    have : fl (y - x) ∈ List.zipWith (fun x y => fl (y - x)) g g.tail := by
      refine List.mem_of_getElem? (i := i) ?_
      rw [List.getElem?_zipWith, hx, List.getElem?_tail, hy]
    refine ⟨fun h1 => h ⟨_, this, .inl h1⟩, fun h1 => h ⟨_, this, .inr ?_⟩⟩
    rw [closeFl_zero hf, hf.idem]
    exact h1
  · rintro h ⟨d, hd, hb⟩
    obtain ⟨i, hi⟩ := List.mem_iff_getElem?.1 hd
    rw [List.getElem?_zipWith, List.getElem?_tail] at hi
    cases hx : g[i]? with
    | none => simp [hx] at hi
    | some x =>
      cases hy : g[i + 1]? with
      | none => simp [hx, hy] at hi
      | some y =>
        simp only [hx, hy, Option.some.injEq] at hi
        subst hi
        rw [closeFl_zero hf, hf.idem] at hb
        exact hb.elim (h i x y hx hy).1 (h i x y hx hy).2

/-- **C163 (accepted).** The curve is resampled when the points of the result are at least `3e-8` apart, and never when they are at most `5e-9` apart: ValueError, since two values of the grid are close. InterpolationError does not occur. -/
theorem C163_accepted (hf : Rounding ε fl) (hc : WF c) (hs : 2 ≤ c.size) (hn : 1 < n) (hε' : 104 * (((n : ℝ) - 1) * ε) ≤ 1) (hε : 8 * ((c.ndim + c.size + 4 : ℕ) * ε) ≤ 1)
    (h0 : c.rows[0]? ≠ c.rows[1]?) {ex : Bool} {r : Except PyErr (List (List ℝ))} (h : ResampleTo fl c.rows n ex r) :
    (r = .error .valueError ∨ ∃ out, r = .ok out) ∧ (3 / 10 ^ 8 ≤ pathLen c.ndim c.rows / ((n : ℝ) - 1) → ∃ out, r = .ok out) ∧
    (pathLen c.ndim c.rows / ((n : ℝ) - 1) ≤ 5 / 10 ^ 9 → r = .error .valueError) := by
  have hn1 : (1 : ℝ) < n := by exact_mod_cast hn
  have hd : (0 : ℝ) < (n : ℝ) - 1 := by linarith
  have e0 := hf.nonneg
  have p0 : 0 ≤ pathLen c.ndim c.rows := sum_gaps_nonneg _ _
  have m0 : 0 ≤ ((c.ndim + c.size + 4 : ℕ) : ℝ) * ε := mul_nonneg (Nat.cast_nonneg _) e0
  have hε2 : 2 * ((c.ndim + c.size + 4 : ℕ) * ε) ≤ 1 := by linarith
  have hd0 : 0 ≤ ((n : ℝ) - 1) * ε := mul_nonneg hd.le e0
  have hε6 : 6 * (((n : ℝ) - 1) * ε) ≤ 1 := by linarith
  obtain ⟨ts, hts, he⟩ := h
  obtain ⟨t1, t2, t3, t4, t5, t6, t7, t8⟩ := param_facts hf hc hs hε2 h0 hts
  have hsz : c.size = c.rows.length := rfl
  rw [if_neg (c := _ ∧ _) (fun h => resample_range hf hc hs hε2 h0 hts hn hε6 h.2)] at he
  have q2 := t8 (c.size - 1) (by omega)
  rw [← t7, show c.size - 1 + 1 = c.size by omega, hsz, List.take_length, ← hsz] at q2
  have ε48 : 48 * ε ≤ 1 := by
    have : (6 : ℝ) ≤ ((c.ndim + c.size + 4 : ℕ) : ℝ) := by exact_mod_cast (by omega : 6 ≤ c.ndim + c.size + 4)
    nlinarith
  rw [t2] at he
  obtain ⟨g1, g2, g3, g4, g5, g6⟩ := C120_grid hf (fl_zero hf) t5 t6 hn hε6
  set T := ts.getLastD 0
  set L := pathLen c.ndim c.rows
  obtain ⟨q3, q4⟩ := abs_le.1 q2
  have T1 : 3 / 4 * L ≤ T := by nlinarith
  have T2 : T ≤ 5 / 4 * L := by nlinarith
  have eT : T = ((n : ℝ) - 1) * (T / ((n : ℝ) - 1)) := by field_simp
  have u1 : 3 / 4 * (L / ((n : ℝ) - 1)) ≤ T / ((n : ℝ) - 1) := by rw [← mul_div_assoc]; exact div_le_div_of_nonneg_right T1 hd.le
  have u2 : T / ((n : ℝ) - 1) ≤ 5 / 4 * (L / ((n : ℝ) - 1)) := by rw [← mul_div_assoc]; exact div_le_div_of_nonneg_right T2 hd.le
  have v0 : 0 ≤ T / ((n : ℝ) - 1) := div_nonneg t6 hd.le
  set v := T / ((n : ℝ) - 1) with hv
  have eεT : ε * T ≤ 1 / 104 * v := by
    have : ε * T = (((n : ℝ) - 1) * ε) * v := by rw [eT]; ring
    rw [this]
    nlinarith
  refine ⟨?_, ?_, ?_⟩
  · rw [he]
    split
    · exact .inl rfl
    · exact .inr ⟨_, rfl⟩
  · intro hL
    refine ⟨_, he.trans (if_neg ?_)⟩
    rw [badSteps_iff hf]
    refine C120_accepted_partial hf (fl_zero hf) t5 t6 hn hε6 ?_
    rw [abs_zero, abs_of_nonneg t6, max_eq_right t6, sub_zero, ← hv]
    have : 2 * (ε * T + 12 * ε * T) ≤ 1 / 4 * v := by linarith
    have h3 : 3 / 4 * v ≤ v - 2 * (ε * T + 12 * ε * T) := by linarith
    have h4 : (47 : ℝ) / 48 ≤ 1 - ε := by linarith
    have h5 : (1 + ε) / 10 ^ 8 ≤ 49 / 48 / 10 ^ 8 := div_le_div_of_nonneg_right (by linarith) (by norm_num)
    have h6 : 47 / 48 * (3 / 4 * v) ≤ (1 - ε) * (v - 2 * (ε * T + 12 * ε * T)) := mul_le_mul h4 h3 (by linarith) (by linarith)
    refine lt_of_le_of_lt h5 (lt_of_lt_of_le ?_ h6)
    have : 9 / 4 / 10 ^ 8 ≤ v := by linarith
    linarith
  · intro hL
    refine he.trans (if_pos ?_)
    by_contra hb
    rw [badSteps_iff hf] at hb
    obtain ⟨x, hx⟩ : ∃ x, (linspaceFl fl 0 T n)[1]? = some x := ⟨_, List.getElem?_eq_getElem (by rw [g1]; exact hn)⟩
    have := (hb 0 0 x g2 hx).2
    apply this
    obtain ⟨b1, b2, b3⟩ := g5 x (List.mem_of_getElem? hx)
    rw [sub_zero, b3, abs_of_nonneg b1]
    have q := g6 1 x hx
    rw [Nat.cast_one, one_mul, zero_add, sub_zero, ← hv, abs_of_nonneg v0] at q
    have q' := (abs_le.1 q).2
    have w1 : ε * v ≤ 1 / 48 * v := mul_le_mul_of_nonneg_right (by linarith) v0
    have w2 : x ≤ 5 / 4 * v := by linarith
    have w3 : x ≤ 25 / 16 * (5 / 10 ^ 9) := by linarith
    have w4 := (abs_le.1 (hf.rel (1 / 10 ^ 8))).1
    rw [abs_of_pos (by norm_num : (0 : ℝ) < 1 / 10 ^ 8)] at w4
    linarith

/-- There is a result. -/
theorem C163_exists (fl : ℝ → ℝ) (rows : List (List ℝ)) (n : Nat) (ex : Bool) : ∃ r, ResampleTo fl rows n ex r := by
  have hex : ∀ a b : List ℝ, ∃ z, ChordTo fl a b z := by
    intro a b
    obtain ⟨s, hs⟩ := sumsTo_exists fl (List.zipWith (fun x y => fl (fl (y - x) * fl (y - x))) a b)
    refine ⟨_, _, s, ?_, hs, rfl⟩
    rw [← List.map_uncurry_zip_eq_zipWith, List.forall₂_map_right_iff]
    exact List.forall₂_same.2 fun p _ => .inl rfl
  have : ∃ zs, ChordsTo fl rows zs := by
    unfold ChordsTo
    induction rows.zip rows.tail with
    | nil => exact ⟨[], .nil⟩
    | cons p l ih =>
      obtain ⟨zs, h⟩ := ih
      obtain ⟨z, hz⟩ := hex p.1 p.2
      exact ⟨z :: zs, .cons hz h⟩
  obtain ⟨zs, h⟩ := this
  exact ⟨_, _, ⟨zs, h, rfl⟩, rfl⟩

/-- **C163 (usual sizes).** In binary64, for up to `1e13` points and dimensions and points of the result at least `3e-8` apart: `curve.interpolate(n, method='linear')` returns `n` points, and point `i` is, up to `2^-53` times the coordinate plus
`3e-15 L` in each coordinate, a point of the polygonal line whose length from the start is `i L / (n - 1)` up to `(4 (ndim + size) + 42) 2^-53 L`. -/
theorem C163_usual (hc : WF c) (hs : 2 ≤ c.size) (hr : ∀ r ∈ c.rows, ∀ x ∈ r, rnd x = x) (hn : 1 < n) (hm : n ≤ 10 ^ 13) (hm' : c.ndim + c.size ≤ 10 ^ 13)
    (h0 : c.rows[0]? ≠ c.rows[1]?) (hL : 3 / 10 ^ 8 ≤ pathLen c.ndim c.rows / ((n : ℝ) - 1)) {ex : Bool} {r : Except PyErr (List (List ℝ))} (h : ResampleTo rnd c.rows n ex r) :
    ∃ out, r = .ok out ∧ out.length = n ∧ out[0]? = c.rows[0]? ∧ ∀ i, i < n → ∃ q s p, out[i]? = some q ∧ q.length = c.ndim ∧ OnPath c.ndim c.rows s p ∧
      |s - i * (pathLen c.ndim c.rows / ((n : ℝ) - 1))| ≤ (4 * (c.ndim + c.size : ℕ) + 42) * 2⁻¹ ^ 53 * pathLen c.ndim c.rows ∧
      ∀ j, |q.getD j 0 - p j| ≤ 2⁻¹ ^ 53 * |p j| + 3 / 10 ^ 15 * pathLen c.ndim c.rows := by
  have b1 : ((n : ℝ) - 1) * 2⁻¹ ^ 53 ≤ 10 ^ 13 * 2⁻¹ ^ 53 := mul_le_mul_of_nonneg_right (by have : (n : ℝ) ≤ 10 ^ 13 := by exact_mod_cast hm
                                                                                            linarith) (by positivity)
  have b2 : ((c.ndim + c.size + 4 : ℕ) : ℝ) * 2⁻¹ ^ 53 ≤ (10 ^ 13 + 4) * 2⁻¹ ^ 53 := mul_le_mul_of_nonneg_right (by exact_mod_cast Nat.add_le_add_right hm' 4) (by positivity)
  have n1 : (10 : ℝ) ^ 13 * 2⁻¹ ^ 53 ≤ 1 / 104 := by norm_num
  have n2 : ((10 : ℝ) ^ 13 + 4) * 2⁻¹ ^ 53 ≤ 1 / 8 := by norm_num
  obtain ⟨out, rfl⟩ := (C163_accepted rnd_rounding hc hs hn (by linarith) (by linarith) h0 h).2.1 hL
  obtain ⟨k1, k2, k3⟩ := C163_points rnd_rounding hc hs hr hn (by linarith) (by linarith) h0 h
  refine ⟨out, rfl, k1, k2, fun i hi => ?_⟩
  obtain ⟨q, s, p, w1, w2, w3, w4, w5⟩ := k3 i hi
  refine ⟨q, s, p, w1, w2, w3, w4, fun j => (w5 j).trans (add_le_add le_rfl (mul_le_mul_of_nonneg_right (by norm_num) (sum_gaps_nonneg _ _)))⟩

end

/-! ## The last point -/

/-- The segment from (1, 0) to (2^-60, 0). -/
noncomputable def tinyEnd : List (List ℝ) := [[1, 0], [2⁻¹ ^ 60, 0]]

theorem tinyEnd_param {fl : ℝ → ℝ} {u : ℝ} (r0 : fl 0 = 0) (r1 : fl (2⁻¹ ^ 60 - 1) = -u) (ru : ∀ w, w = fl (u * u) ∨ w = u * u → fl (√ (fl w)) = u) (ru' : fl u = u) (ls : List ℝ) :
    CumTo fl tinyEnd ls ↔ ls = [0, u] := by
  have t0 : ∀ x w, SqTerm fl x x w ↔ w = 0 := by intro x w; unfold SqTerm; rw [sub_self, r0, mul_zero, r0, or_self]
  have t1 : ∀ w, SqTerm fl 1 (2⁻¹ ^ 60) w ↔ w = fl (u * u) ∨ w = u * u := by intro w; unfold SqTerm; rw [r1, neg_mul_neg]
  have c1 : ∀ z, ChordTo fl [1, 0] [2⁻¹ ^ 60, 0] z ↔ z = u := by
    intro z
    rw [chordTo_plane]
    constructor
    · rintro ⟨w, w', h1, h2, rfl⟩
      rw [(t0 _ _).1 h2, add_zero]
      exact ru w ((t1 w).1 h1)
    · rintro rfl
      exact ⟨z * z, 0, (t1 _).2 (.inr rfl), (t0 _ _).2 rfl, by rw [add_zero, ru _ (.inr rfl)]⟩
  unfold CumTo
  have hz : ∀ zs, ChordsTo fl tinyEnd zs ↔ zs = [u] := by
    intro zs
    unfold ChordsTo tinyEnd
    simp only [List.tail_cons, List.zip_cons_cons, List.zip_nil_right, List.forall₂_cons_left_iff, List.forall₂_nil_left_iff, c1]
    constructor
    · rintro ⟨_, _, rfl, rfl, rfl⟩; rfl
    · rintro rfl; exact ⟨_, _, rfl, rfl, rfl⟩
  simp only [hz, exists_eq_left, cumsumFl, cumFrom]

/-- **C163 fails at the end.** The segment from (1, 0) to (2^-60, 0) resampled with 2 points in binary64 ends at (0, 0); without rounding it ends at (2^-60, 0). -/
theorem C163_end_fails (ex : Bool) : (∀ r ∈ tinyEnd, ∀ x ∈ r, rnd x = x) ∧ (∀ r, ResampleTo rnd tinyEnd 2 ex r ↔ r = .ok [[1, 0], [0, 0]]) ∧
    ∀ r, ResampleTo id tinyEnd 2 ex r ↔ r = .ok tinyEnd := by
  have r0 : rnd 0 = 0 := rnd_zero
  have r1 : rnd 1 = 1 := by simpa using rnd_rep 1 0 (by norm_num)
  have r60 : rnd (2⁻¹ ^ 60) = 2⁻¹ ^ 60 := by simpa using rnd_rep 1 (-60) (by norm_num)
  have gen : ∀ {fl : ℝ → ℝ} {u : ℝ}, fl 0 = 0 → fl 1 = 1 → fl u = u → 1 / 2 ≤ u → fl (fl (1 / 100000000) + 0) ≤ 1 / 4 → (∀ ls, CumTo fl tinyEnd ls ↔ ls = [0, u]) → ∀ r, ResampleTo fl tinyEnd 2 ex r ↔ r = .ok [interpAtFl fl [0, u] tinyEnd 0, interpAtFl fl [0, u] tinyEnd u] := by
    intro fl u h0 h1 hu hu1 ha hc r
    have hg : linspaceFl fl 0 u 2 = [0, u] := by
      have : linspaceAtFl fl 0 u 2 0 = 0 := by
        unfold linspaceAtFl
        norm_num [h0]
      have h2 : linspaceAtFl fl 0 u 2 1 = u := by
        unfold linspaceAtFl
        norm_num
      simp [linspaceFl, List.range_succ, this, h2]
    unfold ResampleTo
    simp only [hc, exists_eq_left]
    have e1 : ([0, u] : List ℝ).headD 0 = 0 := rfl
    have e2 : ([0, u] : List ℝ).getLastD 0 = u := rfl
    rw [e1, e2, hg, if_neg, if_neg]
    · rfl
    · rintro ⟨-, x, hx, hb⟩
      simp only [List.mem_cons, List.not_mem_nil, or_false] at hx
      rcases hx with rfl | rfl <;> rcases hb with hb | hb <;> linarith
    · rintro ⟨d, hd, hb⟩
      simp only [List.tail_cons, List.zipWith_cons_cons, List.zipWith_nil_right, List.mem_cons, List.not_mem_nil, or_false, sub_zero, hu] at hd
      subst hd
      rcases hb with hb | hb
      · linarith
      · unfold CloseFl at hb
        rw [sub_zero, hu, abs_zero, mul_zero, h0, abs_of_pos (by linarith)] at hb
        unfold atol at hb
        linarith
  have ev : ∀ {fl : ℝ → ℝ} {u : ℝ}, 0 < u → interpAtFl fl [0, u] tinyEnd 0 = [lerpFl fl 0 u 1 (2⁻¹ ^ 60) 0, lerpFl fl 0 u 0 0 0] ∧ interpAtFl fl [0, u] tinyEnd u = [lerpFl fl 0 u 1 (2⁻¹ ^ 60) u, lerpFl fl 0 u 0 0 u] := by
    intro fl u hu
    have s0 : searchsorted [0, u] (.fin (0 : ℝ)) = 0 := by simp [searchsorted]
    have s1 : searchsorted [0, u] (.fin u) = 1 := by simp [searchsorted, hu]
    constructor
    · unfold interpAtFl
      rw [s0]
      rfl
    · unfold interpAtFl
      rw [s1]
      rfl
  refine ⟨?_, fun r => ?_, fun r => ?_⟩
  · intro r hr x hx
    simp only [tinyEnd, List.mem_cons, List.not_mem_nil, or_false] at hr
    rcases hr with rfl | rfl <;> simp only [List.mem_cons, List.not_mem_nil, or_false] at hx <;> rcases hx with h | h <;> rw [h] <;> first | exact r0 | exact r1 | exact r60
  · have ha : rnd (rnd (1 / 100000000) + 0) ≤ 1 / 4 := by
      rw [add_zero, rnd_idem]
      have : rnd (1 / 4) = 1 / 4 := by have := rnd_rep 1 (-2) (by norm_num); norm_num at this ⊢; exact this
      rw [← this]
      exact rnd_rounding.mono (by norm_num)
    rw [gen r0 r1 r1 (by norm_num) ha (tinyEnd_param r0 (by rw [rnd_absorb]) (by rintro w (rfl | rfl) <;> simp [r1]) r1) r]
    rw [(ev one_pos).1, (ev one_pos).2, C121_node_fails.1]
    have l1 : lerpFl rnd 0 1 1 (2⁻¹ ^ 60) 0 = 1 := by simp [lerpFl, r0, r1]
    have l2 : lerpFl rnd 0 1 0 0 0 = 0 := by simp [lerpFl, r0, r1]
    have l3 : lerpFl rnd 0 1 0 0 1 = 0 := by simp [lerpFl, r0, r1]
    rw [l1, l2, l3]
  · have hu : (0 : ℝ) < 1 - 2⁻¹ ^ 60 := by norm_num
    rw [gen (fl := id) (u := 1 - 2⁻¹ ^ 60) rfl rfl rfl (by norm_num) (by norm_num) (tinyEnd_param rfl (by simp) (by rintro w (rfl | rfl) <;> exact Real.sqrt_mul_self hu.le) rfl) r]
    rw [(ev hu).1, (ev hu).2]
    have l1 : lerpFl id 0 (1 - 2⁻¹ ^ 60) 1 (2⁻¹ ^ 60) 0 = 1 := by simp [lerpFl]
    have l2 : lerpFl id 0 (1 - 2⁻¹ ^ 60) 0 0 0 = 0 := by simp [lerpFl]
    have l3 : lerpFl id 0 (1 - 2⁻¹ ^ 60) 0 0 (1 - 2⁻¹ ^ 60) = 0 := by simp [lerpFl]
    have l4 : lerpFl id 0 (1 - 2⁻¹ ^ 60) 1 (2⁻¹ ^ 60) (1 - 2⁻¹ ^ 60) = 2⁻¹ ^ 60 := by norm_num [lerpFl]
    rw [l1, l2, l3, l4]
    rfl

/-! ## Without rounding -/

/-- **C163 (no rounding).** Without rounding the parameter is `cumarclen`, the test of the grid is the one of the exact model, and the points are those of `interp1d` in the exact model wherever the two parameter values around the value differ. -/
theorem C163_exact : (∀ g : List ℝ, badSteps (fins g) = true ↔ BadStepsFl id g) ∧
    ∀ (ts : List ℝ) (rows : List (List ℝ)) (x : ℝ), ts.length = rows.length → 2 ≤ ts.length → (∀ k, k + 1 = max 1 (min (searchsorted ts (.fin x)) (ts.length - 1)) → ts.getD k 0 ≠ ts.getD (k + 1) 0) →
      interp1dAt (ts.zip rows) (.fin x) = (interpAtFl id ts rows x).map .fin := by
  constructor
  · intro g
    unfold badSteps BadStepsFl
    rw [diffV_fins, Bool.or_eq_true, List.any_eq_true, List.any_eq_true]
    constructor
    · rintro (⟨v, hv, h⟩ | ⟨v, hv, h⟩) <;> obtain ⟨d, hd, rfl⟩ := List.mem_map.1 hv
      · exact ⟨d, hd, .inl (by simpa [Val.ltB] using h)⟩
      · exact ⟨d, hd, .inr (by simpa [Val.isclose, closeK, CloseFl] using h)⟩
    · rintro ⟨d, hd, h | h⟩
      · exact .inl ⟨.fin d, List.mem_map_of_mem hd, by simpa [Val.ltB] using h⟩
      · exact .inr ⟨.fin d, List.mem_map_of_mem hd, by simpa [Val.isclose, closeK, CloseFl] using h⟩
  · intro ts rows x hl h2 hne
    have e1 : (ts.zip rows).map Prod.fst = ts := List.map_fst_zip (by omega)
    have e2 : (ts.zip rows).length = ts.length := by simp [hl]
    have e3 : ∀ k, k < ts.length → (ts.zip rows).getD k (0, []) = (ts.getD k 0, rows.getD k []) := by
      intro k hk
      simp [hk, hl ▸ hk]
    unfold interp1dAt interpAtFl
    simp only [e1, e2]
    set k := max 1 (min (searchsorted ts (.fin x)) (ts.length - 1)) with hk
    have k1 : 1 ≤ k := le_max_left _ _
    have k2 : k < ts.length := by omega
    rw [e3 _ k2, e3 _ (by omega)]
    simp only
    have hn := hne (k - 1) (by omega)
    rw [show k - 1 + 1 = k by omega] at hn
    rw [List.map_zipWith]
    congr 1
    funext ylo yhi
    exact C121_exact.2 _ _ _ _ _ hn

/-! ## Examples -/

/-- Three points of a path of length 7: all hypotheses are met. -/
example (ex : Bool) : ∃ out, ResampleTo rnd exPath.rows 3 ex (.ok out) ∧ out.length = 3 ∧ out[0]? = exPath.rows[0]? ∧ ∃ q s p, out[1]? = some q ∧ OnPath 2 exPath.rows s p ∧ |s - 7 / 2| ≤ 1 / 10 ^ 13 ∧
    ∀ j, |q.getD j 0 - p j| ≤ 2⁻¹ ^ 53 * |p j| + 3 / 10 ^ 14 := by
  obtain ⟨r, hr⟩ := C163_exists rnd exPath.rows 3 ex
  have hl : pathLen exPath.ndim exPath.rows = 7 := exPath_pathLen
  have hrd : ∀ r ∈ exPath.rows, ∀ x ∈ r, rnd x = x := by
    intro r hr x hx
    have r0 : rnd 0 = 0 := rnd_zero
    have r3 : rnd 3 = 3 := by have := rnd_int 3 (by norm_num); norm_num at this ⊢; exact this
    have r4 : rnd 4 = 4 := by have := rnd_int 4 (by norm_num); norm_num at this ⊢; exact this
    simp only [exPath, List.mem_cons, List.not_mem_nil, or_false] at hr
    rcases hr with rfl | rfl | rfl <;> simp only [List.mem_cons, List.not_mem_nil, or_false] at hx <;> rcases hx with h | h <;> rw [h] <;> first | exact r0 | exact r3 | exact r4
  obtain ⟨out, rfl, h1, h2, h3⟩ := C163_usual (n := 3) exPath_WF (by simp [exPath, Curve.size]) hrd (by norm_num) (by norm_num) (by simp [exPath, Curve.size, Curve.ndim]) (by simp [exPath]) (by rw [hl]; norm_num) hr
  refine ⟨out, hr, h1, h2, ?_⟩
  obtain ⟨q, s, p, w1, w2, w3, w4, w5⟩ := h3 1 (by norm_num)
  rw [hl] at w4 w5
  refine ⟨q, s, p, w1, w3, ?_, fun j => (w5 j).trans (by norm_num)⟩
  have : (4 * ((exPath.ndim + exPath.size : ℕ) : ℝ) + 42) = 62 := by norm_num [exPath, Curve.size, Curve.ndim]
  rw [this] at w4
  norm_num at w4 ⊢
  linarith

/-- Two thousand million points of the same path are refused. -/
example (ex : Bool) : ResampleTo rnd exPath.rows 2000000000 ex (.error .valueError) := by
  obtain ⟨r, hr⟩ := C163_exists rnd exPath.rows 2000000000 ex
  have hl : pathLen exPath.ndim exPath.rows = 7 := exPath_pathLen
  have := (C163_accepted rnd_rounding (n := 2000000000) exPath_WF (by simp [exPath, Curve.size]) (by norm_num) (by norm_num) (by norm_num [exPath, Curve.size, Curve.ndim]) (by simp [exPath]) hr).2.2 (by rw [hl]; norm_num)
  rwa [this] at hr

/-! ## Concrete cases -/

example {out : List (List ℝ)} (h : ResampleTo rnd exPath.rows 5 true (.ok out)) := C163_points rnd_rounding exPath_WF (by decide)
  (by intro r hr x hx
      have : x = 0 ∨ x = 3 ∨ x = 4 := by
        simp [exPath] at hr
        rcases hr with rfl | rfl | rfl <;> simp at hx <;> tauto
      rcases this with rfl | rfl | rfl
      · exact rnd_zero
      · simpa using rnd_int 3 (by norm_num)
      · simpa using rnd_int 4 (by norm_num)) (by norm_num) (by norm_num) (by norm_num [exPath, Curve.ndim, Curve.size]) (by simp [exPath]) h
example := C163_exact.2 [0, 3, 7] [[0, 0], [3, 0], [3, 4]] 5 rfl (by simp) (by
  have e : searchsorted [(0 : ℝ), 3, 7] (.fin 5) = 2 := by norm_num [searchsorted, Val.ltB, List.takeWhile]
  rw [e]
  intro k hk
  obtain rfl : k = 1 := by simpa using hk
  norm_num)
theorem exPath_gaps (k : Nat) (a b : List ℝ) (ha : exPath.rows[k]? = some a) (hb : exPath.rows[k + 1]? = some b) : 3 ≤ gap exPath.ndim a b := by
  match k with
  | 0 =>
    simp [exPath] at ha hb
    subst ha hb
    show 3 ≤ gap 2 _ _
    norm_num [gap, EuclideanSpace.dist_eq, Fin.sum_univ_two, Real.dist_eq, pt]
    exact Real.le_sqrt_of_sq_le (by norm_num)
  | 1 =>
    simp [exPath] at ha hb
    subst ha hb
    show 3 ≤ gap 2 _ _
    norm_num [gap, EuclideanSpace.dist_eq, Fin.sum_univ_two, Real.dist_eq, pt]
    exact Real.le_sqrt_of_sq_le (by norm_num)
  | (k + 2) => simp [exPath] at hb

example {ls : List ℝ} (h : CumTo rnd exPath.rows ls) := C142_usual exPath_WF (by decide) (by decide)
  (by show pathLen exPath.ncols exPath.rows ≤ _; rw [exPath_pathLen]; norm_num)
  (fun k a b ha hb => le_trans (by norm_num) (exPath_gaps k a b ha hb)) h
example {ls : List ℝ} (h : CumTo rnd exPath.rows ls) := C142_differences (k := 1) rnd_rounding exPath_WF (by norm_num [exPath, Curve.ndim, Curve.size]) h rfl rfl
example {ls : List ℝ} (h : CumTo rnd exPath.rows ls) := C142_strict_partial rnd_rounding exPath_WF (by decide) (by norm_num [exPath, Curve.ndim, Curve.size]) h (by
  intro k a b ha hb
  have h1 := exPath_gaps k a b ha hb
  have h2 : pathLen exPath.ndim (exPath.rows.take (k + 1)) ≤ 7 := by
    rw [← exPath_pathLen]
    exact pathLen_part_le _ _ _
  have h3 : 5 * (2⁻¹ : ℝ) ^ 53 * pathLen exPath.ndim (exPath.rows.take (k + 1)) ≤ 5 * (2⁻¹ : ℝ) ^ 53 * 7 := by gcongr
  norm_num at h3 ⊢
  linarith)

end Verif.Props
