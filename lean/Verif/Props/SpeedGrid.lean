import Verif.Props.Interp

/-!
C123: interpolation with the speed-preserving grid divides the segments equally.
-/
namespace Verif.Props

open Verif Verif.Np Verif.Model Verif.Spec

/-- `PreservedSpeedInterpolationGrid(pcount)` as an argument of `interpolate`. -/
noncomputable def speedSpec (junk : ℝ) (n : Nat) : GridSpec := .obj fun c => (speedGrid junk (.int n) c).map GridArr.of

theorem getGrid_speed {junk : ℝ} {c : Curve ℝ} {n : Nat} {xs : List ℝ} (h : speedGrid junk (.int n) c = .ok (fins xs)) :
    getGrid junk c (speedSpec junk n) = getGrid junk c (.arr (.ok (GridArr.of (fins xs)))) := by
  unfold getGrid
  simp only [speedSpec, gridOfSpec, h, Except.map]

/-- The segment of the broken index `j (m - 1) / (n - 1)`. -/
theorem speed_segment {m n j : Nat} (hm : 2 ≤ m) (hn : 2 ≤ n) (hj : j < n) :
    ∃ i, i + 1 < m ∧ i * (n - 1) ≤ j * (m - 1) ∧ j * (m - 1) ≤ (i + 1) * (n - 1) := by
  have hn1 : 0 < n - 1 := by omega
  rcases Nat.lt_or_ge j (n - 1) with h | h
  · refine ⟨j * (m - 1) / (n - 1), ?_, Nat.div_mul_le_self _ _, ?_⟩
    · have : j * (m - 1) / (n - 1) < m - 1 := by
        rw [Nat.div_lt_iff_lt_mul hn1, mul_comm]
        exact Nat.mul_lt_mul_of_pos_left h (by omega)
      omega
    · exact (Nat.lt_mul_of_div_lt (Nat.lt_succ_self _) hn1).le
  · have hj : j = n - 1 := by omega
    refine ⟨m - 2, by omega, ?_, ?_⟩
    · rw [hj, mul_comm]; exact Nat.mul_le_mul_left _ (by omega)
    · rw [hj, show m - 2 + 1 = m - 1 by omega, mul_comm]

/-- Cumulative lengths grow by at least `g` per segment. -/
theorem pathLen_take_ge {n : Nat} {rows : List (List ℝ)} {g : ℝ}
    (hg : ∀ i p q, rows[i]? = some p → rows[i + 1]? = some q → g ≤ gap n p q) (a d : Nat) (h : a + d < rows.length) :
    pathLen n (rows.take (a + 1)) + d * g ≤ pathLen n (rows.take (a + d + 1)) := by
  induction d with
  | zero => simp
  | succ d ih =>
    have hp := List.getElem?_eq_getElem (show a + d < rows.length by omega)
    have hq := List.getElem?_eq_getElem (show a + d + 1 < rows.length by omega)
    have h1 : rows.take (a + d + 1) = rows.take (a + d) ++ [rows[a + d]] := by rw [List.take_add_one, hp]; rfl
    have h2 : rows.take (a + d + 1 + 1) = rows.take (a + d) ++ rows[a + d] :: rows[a + d + 1] :: [] := by
      rw [List.take_add_one, h1, hq, List.append_assoc]; rfl
    have e : pathLen n (rows.take (a + d + 1 + 1)) = pathLen n (rows.take (a + d + 1)) + gap n rows[a + d] rows[a + d + 1] := by
      rw [h2, h1, pathLen_append]; simp [pathLen]
    have := ih (by omega)
    have := hg _ _ _ hp hq
    rw [← add_assoc a d 1, e]
    push_cast
    linarith

/-- The cumulative lengths grow by at least `g` per unit of the broken index. -/
theorem speed_growth {c : Curve ℝ} {g : ℝ} (hg : ∀ i p q, c.rows[i]? = some p → c.rows[i + 1]? = some q → g ≤ gap c.ncols p q)
    {i i' : Nat} {p q p' q' : List ℝ} (hp : c.rows[i]? = some p) (hq : c.rows[i + 1]? = some q) (hp' : c.rows[i']? = some p')
    (hq' : c.rows[i' + 1]? = some q') {y y' : ℝ} (h1 : i ≤ y) (h2 : y ≤ i + 1) (h1' : i' ≤ y') (h2' : y' ≤ i' + 1) (hy : y ≤ y') :
    (y' - y) * g ≤ pathLen c.ncols (c.rows.take (i' + 1)) + (y' - i') * gap c.ncols p' q' -
      (pathLen c.ncols (c.rows.take (i + 1)) + (y - i) * gap c.ncols p q) := by
  have g1 := hg _ _ _ hp hq
  have g2 := hg _ _ _ hp' hq'
  rcases lt_trichotomy i i' with h | h | h
  · obtain ⟨d, rfl⟩ := Nat.exists_eq_add_of_lt h
    have hl : i + 1 + d < c.rows.length := by
      have := (List.getElem?_eq_some_iff.1 hp').1; omega
    have a := pathLen_take_ge hg (i + 1) d hl
    have hh1 : c.rows.take (i + 1) = c.rows.take i ++ [p] := by rw [List.take_add_one, hp]; rfl
    have hh2 : c.rows.take (i + 1 + 1) = c.rows.take i ++ p :: q :: [] := by rw [List.take_add_one, hh1, hq]; simp
    have e : pathLen c.ncols (c.rows.take (i + 1 + 1)) = pathLen c.ncols (c.rows.take (i + 1)) + gap c.ncols p q := by
      rw [hh2, hh1, pathLen_append]; simp [pathLen]
    rw [show i + 1 + d + 1 = i + d + 1 + 1 by ring, e] at a
    push_cast at h1' h2' ⊢
    nlinarith
  · subst h
    rw [hp] at hp'; rw [hq] at hq'
    cases hp'; cases hq'
    nlinarith
  · have e : (i' : ℝ) + 1 ≤ i := by exact_mod_cast h
    have hyi : y = y' := le_antisymm hy (by linarith)
    have hiy : (i : ℝ) = i' + 1 := by linarith
    have hii : i = i' + 1 := by exact_mod_cast hiy
    subst hii
    have hy1 : y = i' + 1 := by push_cast at h1; linarith
    rw [hq'] at hp
    cases hp
    have hh1 : c.rows.take (i' + 1) = c.rows.take i' ++ [p'] := by rw [List.take_add_one, hp']; rfl
    have hh2 : c.rows.take (i' + 1 + 1) = c.rows.take i' ++ p' :: p :: [] := by rw [List.take_add_one, hh1, hq']; simp
    have e : pathLen c.ncols (c.rows.take (i' + 1 + 1)) = pathLen c.ncols (c.rows.take (i' + 1)) + gap c.ncols p' p := by
      rw [hh2, hh1, pathLen_append]; simp [pathLen]
    rw [e, ← hyi, hy1]
    push_cast
    linarith

/-- **C123 (points, partial).** A curve of `m ≥ 2` points without own parameter, and `n ≥ 2` grid points; all chords at least `g` long, with
`g (m - 1) / (n - 1) > 1e-8`. Linear interpolation with the speed-preserving grid gives `n` points; point `j` is the point of the curve
at the (broken) index `j (m - 1) / (n - 1)`: the curve sampled evenly in the index, not in the length. Missing: integer dtypes (the
coordinates are truncated, see `C64_int_fails`), repeated points, see `C123_repeated_fails`. -/
theorem C123_points_partial {c : Curve ℝ} (hc : WF c) (hs : 2 ≤ c.size) (hp : c.tdata = none) (hd : c.dtype ≠ .int) {junk : ℝ}
    {r : InterpReg Bool} {m : String} (hr : IsLinear junk r m) (ex : Bool) {n : Nat} (hn : 2 ≤ n) {g : ℝ}
    (hg : ∀ i p q, c.rows[i]? = some p → c.rows[i + 1]? = some q → g ≤ gap c.ncols p q)
    (hstep : 1 / 10 ^ 8 < g * (c.size - 1 : ℕ) / (n - 1 : ℕ)) :
    ∃ R c', c.interpolate r (speedSpec junk n) m ex = .ok R ∧ Represents R c' ∧ c'.size = n ∧ c'.ncols = c.ncols ∧
      c'.dtype = c.dtype ∧ c'.tdata = none ∧
      ∀ (j i : Nat) (p q : List ℝ), j < n → c.rows[i]? = some p → c.rows[i + 1]? = some q → i * (n - 1) ≤ j * (c.size - 1) →
        j * (c.size - 1) ≤ (i + 1) * (n - 1) → c'.rows[j]? = some (mix ((j : ℝ) * (c.size - 1 : ℕ) / (n - 1 : ℕ) - i) p q) := by
  have hne := rows_ne_of_size hs
  have hn1 : (0 : ℝ) < (n - 1 : ℕ) := by exact_mod_cast (show 0 < n - 1 by omega)
  have hm1 : (0 : ℝ) < (c.size - 1 : ℕ) := by exact_mod_cast (show 0 < c.size - 1 by omega)
  have hg0 : 0 < g := by
    have h1 : 0 < g * (c.size - 1 : ℕ) / (n - 1 : ℕ) := lt_trans (by norm_num) hstep
    have h2 := (div_pos_iff_of_pos_right hn1).1 h1
    exact (mul_pos_iff_of_pos_right hm1).1 h2
  have hpar : c.isparametric = false := by simp [Curve.isparametric, hp]
  have hrow : ∀ i, i < c.size → ∃ p, c.rows[i]? = some p := fun i hi => ⟨_, List.getElem?_eq_getElem hi⟩
  have htget : ∀ k, k < c.size → (c.t junk)[k]? = some (pathLen c.ncols (c.rows.take (k + 1))) := by
    intro k hk
    have : c.t junk = cumarclen junk c := by simp [Curve.t, hp]
    rw [this]
    exact cumarclen_get hc.rect junk k hk
  have htl := t_length hc hne junk
  have ht : (c.t junk).Pairwise (· < ·) := by
    rw [List.pairwise_iff_getElem]
    intro i j hi hj hij
    obtain ⟨d, rfl⟩ := Nat.exists_eq_add_of_lt hij
    have e1 := htget i (by omega)
    have e2 := htget (i + d + 1) (by omega)
    rw [List.getElem?_eq_getElem hi] at e1
    rw [List.getElem?_eq_getElem hj] at e2
    have := pathLen_take_ge hg i (d + 1) (by unfold Curve.size at htl; omega)
    rw [Option.some.inj e1, Option.some.inj e2]
    have h2 : (0 : ℝ) < ((d + 1 : ℕ) : ℝ) * g := by positivity
    rw [show i + (d + 1) + 1 = i + d + 1 + 1 by ring] at this
    linarith
  have hpos : 0 < pathLen c.ncols c.rows := by
    have := pathLen_take_ge hg 0 (c.size - 1) (by unfold Curve.size at hs ⊢; omega)
    rw [List.take_of_length_le (show c.rows.length ≤ 0 + (c.size - 1) + 1 by unfold Curve.size; omega)] at this
    have h0 : pathLen c.ncols (c.rows.take (0 + 1)) = 0 := by
      cases h : c.rows with
      | nil => rfl
      | cons a l => rfl
    rw [h0] at this
    have := mul_pos hm1 hg0
    linarith
  obtain ⟨xs, hx1, hx2, hx3, hx4, hx5, -, hx6⟩ := C62_speed hc hs hpar junk hpos n hn
  have hxne : xs ≠ [] := by rintro rfl; simp at hx2; omega
  have hval : ∀ j, j < n → ∃ i p q, i + 1 < c.size ∧ c.rows[i]? = some p ∧ c.rows[i + 1]? = some q ∧ (i : ℝ) ≤ (j : ℝ) * (c.size - 1 : ℕ) / (n - 1 : ℕ) ∧
      (j : ℝ) * (c.size - 1 : ℕ) / (n - 1 : ℕ) ≤ i + 1 ∧
      xs[j]? = some (pathLen c.ncols (c.rows.take (i + 1)) + ((j : ℝ) * (c.size - 1 : ℕ) / (n - 1 : ℕ) - i) * gap c.ncols p q) := by
    intro j hj
    obtain ⟨i, h1, h2, h3⟩ := speed_segment hs hn hj
    obtain ⟨p, hp⟩ := hrow i (by omega)
    obtain ⟨q, hq⟩ := hrow (i + 1) h1
    refine ⟨i, p, q, h1, hp, hq, ?_, ?_, hx6 j i p q hj hp hq h2 h3⟩
    · rw [le_div_iff₀ hn1]; exact_mod_cast h2
    · rw [div_le_iff₀ hn1]; exact_mod_cast h3
  have hsteps : StepsOver xs := by
    intro j x y hxj hyj
    have hj : j + 1 < n := by rw [← hx2]; exact (List.getElem?_eq_some_iff.1 hyj).1
    obtain ⟨i, p, q, -, e1, e2, e3, e4, e5⟩ := hval j (by omega)
    obtain ⟨i', p', q', -, f1, f2, f3, f4, f5⟩ := hval (j + 1) hj
    rw [hxj] at e5; rw [hyj] at f5
    have hy : (j : ℝ) * (c.size - 1 : ℕ) / (n - 1 : ℕ) ≤ ((j + 1 : ℕ) : ℝ) * (c.size - 1 : ℕ) / (n - 1 : ℕ) := by
      apply div_le_div_of_nonneg_right _ hn1.le
      apply mul_le_mul_of_nonneg_right _ hm1.le
      push_cast; linarith
    have := speed_growth hg e1 e2 f1 f2 e3 e4 f3 f4 hy
    rw [Option.some.inj e5, Option.some.inj f5]
    refine lt_of_lt_of_le (lt_of_lt_of_eq hstep ?_) this
    push_cast
    field_simp
    ring
  obtain ⟨w, hw⟩ := getGrid_fins junk c xs hxne hsteps
  rw [← getGrid_speed hx1] at hw
  have ht0 : (c.t junk).head? = some 0 := by
    rw [List.head?_eq_getElem?, htget 0 (by omega)]
    cases h : c.rows with
    | nil => rfl
    | cons a l => rfl
  have ht1 : (c.t junk).getLast? = some (pathLen c.ncols c.rows) := by
    rw [List.getLast?_eq_getElem?, htl, htget _ (by omega), List.take_of_length_le (by unfold Curve.size; omega)]
  have hin : ∀ x ∈ xs, 0 ≤ x ∧ x ≤ pathLen c.ncols c.rows := by
    intro x hx
    obtain ⟨j, hj, rfl⟩ := List.mem_iff_getElem.1 hx
    rw [List.head?_eq_getElem?] at hx3
    rw [List.getLast?_eq_getElem?] at hx4
    obtain ⟨k0, q0⟩ := List.getElem?_eq_some_iff.1 hx3
    obtain ⟨k1, q1⟩ := List.getElem?_eq_some_iff.1 hx4
    constructor
    · rcases Nat.eq_zero_or_pos j with rfl | h
      · exact q0.ge
      · rw [← q0]; exact List.pairwise_iff_getElem.1 hx5 0 j k0 hj h
    · rcases Nat.lt_or_ge j (xs.length - 1) with h | h
      · rw [← q1]; exact List.pairwise_iff_getElem.1 hx5 j _ hj k1 h
      · have : j = xs.length - 1 := by omega
        subst this; exact q1.le
  obtain ⟨R, h1, h2⟩ := linear_repr hc hs ht hd hr ex hxne hw ht0 ht1 (.inr hin)
  refine ⟨R, _, h1, h2, by simp [Curve.size, hx2], rfl, rfl, by simp [hpar], ?_⟩
  intro j i p q hj hpi hqi l1 l2
  have hi : i + 1 < c.size := (List.getElem?_eq_some_iff.1 hqi).1
  have hxj := hx6 j i p q hj hpi hqi l1 l2
  have hgap := hg i p q hpi hqi
  have s0 : 0 ≤ (j : ℝ) * (c.size - 1 : ℕ) / (n - 1 : ℕ) - i := by
    rw [sub_nonneg, le_div_iff₀ hn1]; exact_mod_cast l1
  have s1 : (j : ℝ) * (c.size - 1 : ℕ) / (n - 1 : ℕ) - i ≤ 1 := by
    rw [sub_le_iff_le_add', div_le_iff₀ hn1]; exact_mod_cast l2
  have hh1 : c.rows.take (i + 1) = c.rows.take i ++ [p] := by rw [List.take_add_one, hpi]; rfl
  have hh2 : c.rows.take (i + 1 + 1) = c.rows.take i ++ p :: q :: [] := by rw [List.take_add_one, hh1, hqi]; simp
  have e : pathLen c.ncols (c.rows.take (i + 1 + 1)) = pathLen c.ncols (c.rows.take (i + 1)) + gap c.ncols p q := by
    rw [hh2, hh1, pathLen_append]; simp [pathLen]
  simp only [List.getElem?_map, hxj, Option.map_some]
  rw [rowAt_pair hc hs ht _ i _ _ p q (htget i (by omega)) (htget (i + 1) hi) hpi hqi (.inr ?_) (.inr ?_)]
  · rw [e]
    congr 2
    have : gap c.ncols p q ≠ 0 := by linarith
    rw [add_sub_cancel_left, add_sub_cancel_left, mul_div_assoc, div_self this, mul_one]
  · have := mul_nonneg s0 (hg0.le.trans hgap)
    linarith
  · rw [e]
    have := mul_le_mul_of_nonneg_right s1 (hg0.le.trans hgap)
    linarith

theorem gap_mix {n : Nat} {p q : List ℝ} (hp : p.length = n) (hq : q.length = n) (s t : ℝ) :
    gap n (mix s p q) (mix t p q) = |t - s| * gap n p q := by
  have hv : ∀ u, pt n (mix u p q) = pt n p + u • (pt n q - pt n p) := by
    intro u
    ext j
    have h1 : (j : Nat) < p.length := by rw [hp]; exact j.2
    have h2 : (j : Nat) < q.length := by rw [hq]; exact j.2
    simp [pt, mix, List.getElem?_zipWith, List.getElem?_eq_getElem h1, List.getElem?_eq_getElem h2]
  unfold gap
  rw [hv, hv, dist_add_left, dist_eq_norm, ← sub_smul, norm_smul, Real.norm_eq_abs, abs_sub_comm, dist_comm, dist_eq_norm]

theorem mix_zero {n : Nat} {p q : List ℝ} (hp : p.length = n) (hq : q.length = n) : mix 0 p q = p := by
  unfold mix
  apply List.ext_getElem
  · simp [hp, hq]
  · intro i h1 h2; simp

/-- **C123 (equal parts, partial).** With `k (m - 1) + 1` grid points every segment is divided into `k` parts of equal length: the points of
the curve are every `k`-th point of the result, and the `k` chords between two of them are each the `k`-th part of the chord. Missing: see above. -/
theorem C123_parts_partial {c : Curve ℝ} (hc : WF c) (hs : 2 ≤ c.size) (hp : c.tdata = none) (hd : c.dtype ≠ .int) {junk : ℝ}
    {r : InterpReg Bool} {m : String} (hr : IsLinear junk r m) (ex : Bool) {k : Nat} (hk : 1 ≤ k) {g : ℝ}
    (hg : ∀ i p q, c.rows[i]? = some p → c.rows[i + 1]? = some q → g ≤ gap c.ncols p q) (hstep : 1 / 10 ^ 8 < g / k) :
    ∃ R c', c.interpolate r (speedSpec junk (k * (c.size - 1) + 1)) m ex = .ok R ∧ Represents R c' ∧ c'.size = k * (c.size - 1) + 1 ∧
      (∀ i, i < c.size → c'.rows[i * k]? = c.rows[i]?) ∧
      ∀ (i l : Nat) (p q : List ℝ), c.rows[i]? = some p → c.rows[i + 1]? = some q → l < k →
        ∃ a b, c'.rows[i * k + l]? = some a ∧ c'.rows[i * k + l + 1]? = some b ∧ gap c.ncols a b = gap c.ncols p q / k := by
  have hm1 : (0 : ℝ) < (c.size - 1 : ℕ) := by exact_mod_cast (show 0 < c.size - 1 by omega)
  have hk0 : (0 : ℝ) < k := by exact_mod_cast hk
  have hkm : 1 * 1 ≤ k * (c.size - 1) := Nat.mul_le_mul hk (by omega)
  obtain ⟨R, c', h1, h2, h3, h4, -, -, h5⟩ := C123_points_partial hc hs hp hd hr ex (n := k * (c.size - 1) + 1) (by omega) hg
    (by rw [Nat.add_sub_cancel]; push_cast; rw [mul_div_mul_right _ _ hm1.ne']; exact hstep)
  simp only [Nat.add_sub_cancel] at h5
  have key : ∀ (i l : Nat) (p q : List ℝ), c.rows[i]? = some p → c.rows[i + 1]? = some q → l ≤ k →
      c'.rows[i * k + l]? = some (mix (l / k) p q) := by
    intro i l p q hpi hqi hl
    have hi : i + 1 < c.size := (List.getElem?_eq_some_iff.1 hqi).1
    have hb : i * k + l < k * (c.size - 1) + 1 := by
      have : (i + 1) * k ≤ (c.size - 1) * k := Nat.mul_le_mul_right _ (by omega)
      rw [add_mul, one_mul, mul_comm (c.size - 1)] at this
      omega
    rw [h5 (i * k + l) i p q hb hpi hqi (by rw [← mul_assoc]; exact Nat.mul_le_mul_right _ (by omega))
      (by rw [← mul_assoc]; refine Nat.mul_le_mul_right _ ?_; rw [add_mul]; omega)]
    congr 2
    push_cast
    rw [mul_div_mul_right _ _ hm1.ne']
    field_simp
    ring
  have hlen : ∀ {i : Nat} {p : List ℝ}, c.rows[i]? = some p → p.length = c.ncols := fun h => hc.rect _ (List.mem_of_getElem? h)
  refine ⟨R, c', h1, h2, h3, ?_, ?_⟩
  · intro i hi
    rcases Nat.lt_or_ge (i + 1) c.size with h | h
    · have hpi := List.getElem?_eq_getElem (show i < c.rows.length from hi)
      have hqi := List.getElem?_eq_getElem (show i + 1 < c.rows.length from h)
      have := key i 0 _ _ hpi hqi (by omega)
      rw [Nat.add_zero, Nat.cast_zero, zero_div, mix_zero (hlen hpi) (hlen hqi)] at this
      rw [this, hpi]
    · obtain ⟨i, rfl⟩ : ∃ i', i = i' + 1 := ⟨i - 1, by omega⟩
      have hpi := List.getElem?_eq_getElem (show i < c.rows.length by unfold Curve.size at hi; omega)
      have hqi := List.getElem?_eq_getElem (show i + 1 < c.rows.length from hi)
      have := key i k _ _ hpi hqi (le_refl k)
      rw [div_self hk0.ne'] at this
      rw [add_mul, one_mul, this, hqi]
      congr 1
      unfold mix
      apply List.ext_getElem
      · simp [hlen hpi, hlen hqi]
      · intro i h1 h2; simp
  · intro i l p q hpi hqi hl
    refine ⟨_, _, key i l p q hpi hqi hl.le, key i (l + 1) p q hpi hqi hl, ?_⟩
    rw [gap_mix (hlen hpi) (hlen hqi)]
    have : ((l + 1 : ℕ) : ℝ) / k - l / k = 1 / k := by push_cast; ring
    rw [this, abs_of_pos (by positivity)]
    ring

/-- **C123 fails for repeated points.** The curve `(0,0), (0,0), (1,0)`: with its own number of points the grid is `[0, 0, 1]`, and
`interpolate` refuses it. -/
theorem C123_repeated_fails {junk : ℝ} {r : InterpReg Bool} {m : String} (hr : IsLinear junk r m) (ex : Bool) :
    speedGrid junk (.int (3 : Nat)) ⟨[[0, 0], [0, 0], [1, 0]], 2, none, .float⟩ = .ok (fins [0, 0, 1]) ∧
    (⟨[[0, 0], [0, 0], [1, 0]], 2, none, .float⟩ : Curve ℝ).interpolate r (speedSpec junk 3) m ex = .error .valueError := by
  obtain ⟨c, hcd⟩ : ∃ c : Curve ℝ, c = ⟨[[0, 0], [0, 0], [1, 0]], 2, none, .float⟩ := ⟨_, rfl⟩
  have hc : WF c := by rw [hcd]; exact ⟨by simp, by simp, by simp, by simp [DType.cast]⟩
  have hs : c.size = 3 := by rw [hcd]; rfl
  have g0 : gap 2 [0, 0] [0, 0] = 0 := dist_self _
  have g1 : gap 2 [0, 0] [1, 0] = 1 := by simp [gap, pt, EuclideanSpace.dist_eq, Real.dist_eq]
  have hl : pathLen c.ncols c.rows = 1 := by rw [hcd]; simp [pathLen, g0, g1]
  have hpar : c.isparametric = false := by rw [hcd]; rfl
  obtain ⟨xs, hx1, hx2, -, -, -, hx6, -⟩ := C62_speed hc (by omega) hpar junk (by rw [hl]; norm_num) 3 (by norm_num)
  have hxs : xs = [0, 0, 1] := by
    have h0 := hx6 hs.symm 0 (by omega)
    have h1 := hx6 hs.symm 1 (by omega)
    have h2 := hx6 hs.symm 2 (by omega)
    rw [hcd] at h0 h1 h2
    match xs, hx2 with
    | [a, b, d], _ =>
      simp [pathLen, g0, g1] at h0 h1 h2
      rw [h0, h1, h2]
  rw [hxs] at hx1
  rw [← hcd]
  refine ⟨hx1, ?_⟩
  have hbad : badSteps (fins [0, 0, 1]) = true := by
    cases h : badSteps (fins [0, 0, 1]) with
    | true => rfl
    | false =>
      have := (badSteps_fins [0, 0, 1]).1 h 0 0 0 rfl rfl
      norm_num at this
  have hcons : ∃ impl, linearCons junk c ex = .ok impl := by
    have hn : ¬ (c.t junk).length ≠ c.rows.length := by
      rw [t_length hc (rows_ne_of_size (c := c) (show 2 ≤ c.size by omega)) junk]; simp [Curve.size]
    have hl0 : ¬ (c.t junk).length < 2 := by
      rw [t_length hc (rows_ne_of_size (c := c) (show 2 ≤ c.size by omega)) junk, hs]; simp
    simp only [linearCons, interp1dInit, bind, Except.bind]
    rw [if_neg hn, if_neg hl0]
    exact ⟨_, rfl⟩
  obtain ⟨impl, hi⟩ := hcons
  rw [interpolate_impl hr c _ ex hi]
  unfold interpolatorCall
  rw [if_neg (by omega), if_neg (by omega), getGrid_speed hx1, getGrid_bad junk c _ hbad]
  rfl

/-- The path of lengths 3 and 4 divided into three parts each. -/
example {r : InterpReg Bool} {m : String} (hr : IsLinear 0 r m) : ∃ R c', exPath.interpolate r (speedSpec 0 7) m true = .ok R ∧
    Represents R c' ∧ c'.size = 7 ∧ c'.rows[3]? = exPath.rows[1]? := by
  have g1 : gap 2 [0, 0] [3, 0] = 3 := by simp [gap, pt, EuclideanSpace.dist_eq, Real.dist_eq]
  have g2 : gap 2 [3, 0] [3, 4] = 4 := by simp [gap, pt, EuclideanSpace.dist_eq, Real.dist_eq]
  obtain ⟨R, c', h1, h2, h3, h4, _⟩ := C123_parts_partial exPath_WF exPath_size rfl (by simp [exPath]) hr true (k := 3) (by norm_num) (g := 3)
    (by
      intro i p q hp hq
      have : i + 1 < 3 := (List.getElem?_eq_some_iff.1 hq).1
      have hi : i = 0 ∨ i = 1 := by omega
      rcases hi with rfl | rfl <;> simp [exPath] at hp hq <;> subst hp hq <;> simp only [exPath]
      · rw [g1]
      · rw [g2]; norm_num) (by norm_num)
  exact ⟨R, c', h1, h2, h3, h4 1 (by simp [exPath, Curve.size])⟩

end Verif.Props
