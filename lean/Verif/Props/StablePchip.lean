import Verif.Props.StableSpline

/-!
C153, continued: PCHIP interpolation under small changes of the points.
-/
namespace Verif.Props

open Verif Verif.Np Verif.Model Verif.Spec

/-- The slope at an end is the parabola's slope, kept between 0 and three times the secant slope. -/
theorem pchipEdge_clip {h0 h1 m0 m1 : ℝ} (p0 : 0 < h0) (p1 : 0 < h1) :
    pchipEdge h0 h1 m0 m1 = max (min 0 (3 * m0)) (min (((2 * h0 + h1) * m0 - h0 * m1) / (h0 + h1)) (max 0 (3 * m0))) := by
  obtain ⟨d, hd⟩ : ∃ d, d = ((2 * h0 + h1) * m0 - h0 * m1) / (h0 + h1) := ⟨_, rfl⟩
  have hp : 0 < h0 + h1 := by linarith
  have hd' : d * (h0 + h1) = (2 * h0 + h1) * m0 - h0 * m1 := by rw [hd, div_mul_cancel₀ _ hp.ne']
  unfold pchipEdge
  simp only
  rw [← hd]
  rcases lt_trichotomy m0 0 with h | h | h
  · rw [npSign_neg h, min_eq_right (by linarith : 3 * m0 ≤ 0), max_eq_left (by linarith : 3 * m0 ≤ 0)]
    rcases lt_trichotomy d 0 with e | e | e
    · rw [npSign_neg e, min_eq_left e.le, if_neg (by simp)]
      rcases lt_trichotomy m1 0 with g | g | g
      · rw [npSign_neg g, if_neg (by simp), max_eq_right]
        by_contra hc
        rw [not_le] at hc
        nlinarith [mul_neg_of_pos_of_neg p0 g]
      all_goals
        first | rw [g, npSign_zero] | rw [npSign_pos g]
        rw [abs_of_neg h, abs_of_neg e]
        by_cases k : 3 * -m0 < -d
        · rw [if_pos ⟨by norm_num, k⟩, max_eq_left (by linarith)]
        · rw [if_neg (fun h => k h.2), max_eq_right (by linarith)]
    · rw [e, npSign_zero, if_pos (by norm_num), min_self, max_eq_right (by linarith)]
    · rw [npSign_pos e, if_pos (by norm_num), min_eq_right e.le, max_eq_right (by linarith)]
  · subst h
    rw [npSign_zero, mul_zero, min_self, max_self]
    rcases lt_trichotomy d 0 with e | e | e
    · rw [npSign_neg e, if_pos (by norm_num), max_eq_left (min_le_right _ _)]
    · rw [e, npSign_zero, if_neg (by simp), min_self, max_self]
      simp
    · rw [npSign_pos e, if_pos (by norm_num), max_eq_left (min_le_right _ _)]
  · rw [npSign_pos h, min_eq_left (by linarith), max_eq_right (by linarith : (0 : ℝ) ≤ 3 * m0)]
    rcases lt_trichotomy d 0 with e | e | e
    · rw [npSign_neg e, if_pos (by norm_num), min_eq_left (by linarith), max_eq_left e.le]
    · rw [e, npSign_zero, if_pos (by norm_num), min_eq_left (by linarith), max_self]
    · rw [npSign_pos e, if_neg (by simp), max_eq_right (le_min e.le (by linarith))]
      rcases lt_trichotomy m1 0 with g | g | g
      · rw [npSign_neg g, abs_of_pos h, abs_of_pos e]
        by_cases k : 3 * m0 < d
        · rw [if_pos ⟨by norm_num, k⟩, min_eq_right k.le]
        · rw [if_neg (fun h => k h.2), min_eq_left (not_lt.1 k)]
      · rw [g, npSign_zero, abs_of_pos h, abs_of_pos e]
        by_cases k : 3 * m0 < d
        · rw [if_pos ⟨by norm_num, k⟩, min_eq_right k.le]
        · rw [if_neg (fun h => k h.2), min_eq_left (not_lt.1 k)]
      · rw [npSign_pos g, if_neg (by simp), min_eq_left]
        by_contra hc
        rw [not_le] at hc
        nlinarith [mul_pos p0 g]

theorem pchipEdge_moved {h0 h1 m0 m1 m0' m1' E : ℝ} (p0 : 0 < h0) (p1 : 0 < h1) (e0 : |m0 - m0'| ≤ E) (e1 : |m1 - m1'| ≤ E) :
    |pchipEdge h0 h1 m0 m1 - pchipEdge h0 h1 m0' m1'| ≤ 3 * E := by
  have hp : 0 < h0 + h1 := by linarith
  have hE : 0 ≤ E := (abs_nonneg _).trans e0
  have d3 : |3 * m0 - 3 * m0'| ≤ 3 * E := by
    rw [← mul_sub, abs_mul, abs_of_pos (by norm_num : (0 : ℝ) < 3)]; linarith
  have dd : |((2 * h0 + h1) * m0 - h0 * m1) / (h0 + h1) - ((2 * h0 + h1) * m0' - h0 * m1') / (h0 + h1)| ≤ 3 * E := by
    rw [← sub_div, abs_div, abs_of_pos hp, div_le_iff₀ hp]
    have e : (2 * h0 + h1) * m0 - h0 * m1 - ((2 * h0 + h1) * m0' - h0 * m1') = (2 * h0 + h1) * (m0 - m0') - h0 * (m1 - m1') := by ring
    rw [e]
    refine (abs_sub _ _).trans ?_
    rw [abs_mul, abs_mul, abs_of_pos (by linarith : 0 < 2 * h0 + h1), abs_of_pos p0]
    have a1 := mul_le_mul_of_nonneg_left e0 (by linarith : 0 ≤ 2 * h0 + h1)
    have a2 := mul_le_mul_of_nonneg_left e1 p0.le
    nlinarith
  have z : |(0 : ℝ) - 0| ≤ 3 * E := by simpa using hE
  rw [pchipEdge_clip p0 p1, pchipEdge_clip p0 p1]
  refine (abs_max_sub_max_le_max _ _ _ _).trans (max_le ?_ ?_)
  · exact (abs_min_sub_min_le_max _ _ _ _).trans (max_le z d3)
  · exact (abs_min_sub_min_le_max _ _ _ _).trans (max_le dd ((abs_max_sub_max_le_max _ _ _ _).trans (max_le z d3)))

/-- The weighted harmonic mean of the two secant slopes. -/
noncomputable def pchipMean (w1 w2 p q : ℝ) : ℝ :=
  if npSign q ≠ npSign p ∨ q = 0 ∨ p = 0 then 0 else 1 / ((w1 / p + w2 / q) / (w1 + w2))

theorem pchipMean_pos {w1 w2 p q : ℝ} (h1 : 0 < w1) (h2 : 0 < w2) (hp : 0 < p) (hq : 0 < q) :
    pchipMean w1 w2 p q = (w1 + w2) * (p * q) / (w1 * q + w2 * p) := by
  unfold pchipMean
  rw [npSign_pos hp, npSign_pos hq, if_neg (by simp [hp.ne', hq.ne'])]
  field_simp

theorem pchipMean_neg (w1 w2 p q : ℝ) : pchipMean w1 w2 (-p) (-q) = - pchipMean w1 w2 p q := by
  have s : ∀ x : ℝ, npSign (-x) = - npSign x := fun x => by
    rcases lt_trichotomy x 0 with h | h | h
    · rw [npSign_neg h, npSign_pos (by linarith)]; rfl
    · rw [h, neg_zero, npSign_zero]; rfl
    · rw [npSign_pos h, npSign_neg (by linarith)]
  unfold pchipMean
  rw [s, s]
  by_cases h : npSign q ≠ npSign p ∨ q = 0 ∨ p = 0
  · rw [if_pos h, if_pos (by simpa [neg_inj] using h), neg_zero]
  · rw [if_neg h, if_neg (by simpa [neg_inj] using h), div_neg, div_neg, ← neg_add, neg_div, div_neg]

theorem pchipMean_zero {w1 w2 p q : ℝ} (h : ¬ (0 < p ∧ 0 < q)) (h' : ¬ (p < 0 ∧ q < 0)) : pchipMean w1 w2 p q = 0 := by
  unfold pchipMean
  rw [if_pos]
  rcases lt_trichotomy p 0 with a | a | a <;> rcases lt_trichotomy q 0 with b | b | b
  · exact absurd ⟨a, b⟩ h'
  · exact .inr (.inl b)
  · exact .inl (by rw [npSign_neg a, npSign_pos b]; norm_num)
  · exact .inr (.inr a)
  · exact .inr (.inr a)
  · exact .inr (.inr a)
  · exact .inl (by rw [npSign_pos a, npSign_neg b]; norm_num)
  · exact .inr (.inl b)
  · exact absurd ⟨a, b⟩ h

theorem pchipMean_small {w1 w2 p q : ℝ} (h1 : 0 < w1) (h2 : 0 < w2) (h12 : w1 ≤ 2 * w2) (h21 : w2 ≤ 2 * w1) (hp : 0 < p) (hq : 0 < q) :
    0 ≤ pchipMean w1 w2 p q ∧ pchipMean w1 w2 p q ≤ 3 * p ∧ pchipMean w1 w2 p q ≤ 3 * q := by
  rw [pchipMean_pos h1 h2 hp hq]
  have hD : 0 < w1 * q + w2 * p := by positivity
  refine ⟨by positivity, ?_, ?_⟩
  · rw [div_le_iff₀ hD]
    have := mul_pos hp hq
    nlinarith [mul_pos h2 (mul_pos hp hp)]
  · rw [div_le_iff₀ hD]
    have := mul_pos hp hq
    nlinarith [mul_pos h1 (mul_pos hq hq)]

theorem pchipMean_moved_pos {w1 w2 p q p' q' E : ℝ} (h1 : 0 < w1) (h2 : 0 < w2) (h12 : w1 ≤ 2 * w2) (h21 : w2 ≤ 2 * w1) (hp : 0 < p) (hq : 0 < q)
    (e1 : |p - p'| ≤ E) (e2 : |q - q'| ≤ E) : |pchipMean w1 w2 p q - pchipMean w1 w2 p' q'| ≤ 3 * E := by
  obtain ⟨s0, s1, s2⟩ := pchipMean_small h1 h2 h12 h21 hp hq
  rw [abs_le] at e1 e2
  by_cases k : 0 < p' ∧ 0 < q'
  · obtain ⟨hp', hq'⟩ := k
    rw [pchipMean_pos h1 h2 hp hq, pchipMean_pos h1 h2 hp' hq']
    have hD : 0 < w1 * q + w2 * p := by positivity
    have hD' : 0 < w1 * q' + w2 * p' := by positivity
    have e : (w1 + w2) * (p * q) / (w1 * q + w2 * p) - (w1 + w2) * (p' * q') / (w1 * q' + w2 * p') =
        (w1 + w2) * (w1 * (q * q') * (p - p') + w2 * (p * p') * (q - q')) / ((w1 * q + w2 * p) * (w1 * q' + w2 * p')) := by
      field_simp
      ring
    rw [e, abs_div, abs_of_pos (mul_pos hD hD'), div_le_iff₀ (mul_pos hD hD'), abs_mul, abs_of_pos (by linarith : 0 < w1 + w2)]
    have hE : 0 ≤ E := by linarith
    have a1 : |w1 * (q * q') * (p - p') + w2 * (p * p') * (q - q')| ≤ (w1 * (q * q') + w2 * (p * p')) * E := by
      refine (abs_add_le _ _).trans ?_
      rw [abs_mul (w1 * (q * q')), abs_mul (w2 * (p * p')), abs_of_pos (by positivity : 0 < w1 * (q * q')), abs_of_pos (by positivity : 0 < w2 * (p * p'))]
      have b1 := mul_le_mul_of_nonneg_left (abs_le.2 e1) (by positivity : 0 ≤ w1 * (q * q'))
      have b2 := mul_le_mul_of_nonneg_left (abs_le.2 e2) (by positivity : 0 ≤ w2 * (p * p'))
      linarith
    have a2 : (w1 + w2) * (w1 * (q * q') + w2 * (p * p')) ≤ 3 * ((w1 * q + w2 * p) * (w1 * q' + w2 * p')) := by
      have c1 : 0 < q * q' := mul_pos hq hq'
      have c2 : 0 < p * p' := mul_pos hp hp'
      have c3 : 0 < w1 * w2 * (q * p') := by positivity
      have c4 : 0 < w1 * w2 * (p * q') := by positivity
      have c5 : (w1 + w2) * w1 * (q * q') ≤ 3 * (w1 * w1) * (q * q') := mul_le_mul_of_nonneg_right (by nlinarith) c1.le
      have c6 : (w1 + w2) * w2 * (p * p') ≤ 3 * (w2 * w2) * (p * p') := mul_le_mul_of_nonneg_right (by nlinarith) c2.le
      nlinarith
    have a3 := mul_le_mul_of_nonneg_left a1 (by linarith : 0 ≤ w1 + w2)
    have a4 := mul_le_mul_of_nonneg_right a2 hE
    linarith
  · by_cases k' : p' < 0 ∧ q' < 0
    · obtain ⟨hp', hq'⟩ := k'
      obtain ⟨t0, t1, t2⟩ := pchipMean_small h1 h2 h12 h21 (neg_pos.2 hp') (neg_pos.2 hq')
      rw [pchipMean_neg] at t0 t1 t2
      rw [abs_le]
      constructor <;> linarith
    · rw [pchipMean_zero k k', sub_zero, abs_of_nonneg s0]
      rw [not_and_or, not_lt, not_lt] at k
      rcases k with k | k <;> linarith

theorem pchipMean_moved {w1 w2 p q p' q' E : ℝ} (h1 : 0 < w1) (h2 : 0 < w2) (h12 : w1 ≤ 2 * w2) (h21 : w2 ≤ 2 * w1)
    (e1 : |p - p'| ≤ E) (e2 : |q - q'| ≤ E) : |pchipMean w1 w2 p q - pchipMean w1 w2 p' q'| ≤ 3 * E := by
  have hE : 0 ≤ E := (abs_nonneg _).trans e1
  have flip : ∀ x y : ℝ, |(-x) - (-y)| = |x - y| := fun x y => by rw [← abs_neg]; congr 1; ring
  by_cases k : 0 < p ∧ 0 < q
  · exact pchipMean_moved_pos h1 h2 h12 h21 k.1 k.2 e1 e2
  by_cases k2 : p < 0 ∧ q < 0
  · have := pchipMean_moved_pos (E := E) (p := -p) (q := -q) (p' := -p') (q' := -q') h1 h2 h12 h21 (by linarith) (by linarith) (by rw [flip]; exact e1) (by rw [flip]; exact e2)
    rwa [pchipMean_neg, pchipMean_neg, flip] at this
  by_cases k3 : 0 < p' ∧ 0 < q'
  · rw [abs_sub_comm] at e1 e2 ⊢
    exact pchipMean_moved_pos h1 h2 h12 h21 k3.1 k3.2 e1 e2
  by_cases k4 : p' < 0 ∧ q' < 0
  · rw [abs_sub_comm] at e1 e2 ⊢
    have := pchipMean_moved_pos (E := E) (p := -p') (q := -q') (p' := -p) (q' := -q) h1 h2 h12 h21 (by linarith) (by linarith) (by rw [flip]; exact e1) (by rw [flip]; exact e2)
    rwa [pchipMean_neg, pchipMean_neg, flip] at this
  rw [pchipMean_zero k k2, pchipMean_zero k3 k4]
  simpa using hE

/-- The slopes of PCHIP: moved by at most three times what the secant slopes are. -/
theorem pchipSlope_moved {n : Nat} (hn : 2 ≤ n) {x y y' : Nat → ℝ} {E : ℝ} (hx : ∀ i, i + 1 < n → x i < x (i + 1))
    (hE : ∀ i, i + 1 < n → |(y (i + 1) - y i) / (x (i + 1) - x i) - (y' (i + 1) - y' i) / (x (i + 1) - x i)| ≤ E) {k : Nat} (hk : k < n) :
    |pchipSlope n x y k - pchipSlope n x y' k| ≤ 3 * E := by
  have hE0 : 0 ≤ E := (abs_nonneg _).trans (hE 0 (by omega))
  have hp : ∀ i, i + 1 < n → 0 < x (i + 1) - x i := fun i hi => by linarith [hx i hi]
  unfold pchipSlope
  simp only
  by_cases n2 : n = 2
  · rw [if_pos n2, if_pos n2]
    have := hE 0 (by omega)
    simp only [zero_add] at this ⊢
    linarith
  rw [if_neg n2, if_neg n2]
  by_cases k0 : k = 0
  · rw [if_pos k0, if_pos k0]
    exact pchipEdge_moved (hp 0 (by omega)) (hp 1 (by omega)) (hE 0 (by omega)) (hE 1 (by omega))
  rw [if_neg k0, if_neg k0]
  by_cases k1 : k = n - 1
  · rw [if_pos k1, if_pos k1]
    exact pchipEdge_moved (hp (n - 2) (by omega)) (hp (n - 3) (by omega)) (hE (n - 2) (by omega)) (hE (n - 3) (by omega))
  rw [if_neg k1, if_neg k1]
  have a := hp k (by omega)
  have b := hp (k - 1) (by omega)
  exact pchipMean_moved (by linarith) (by linarith) (by linarith) (by linarith) (hE (k - 1) (by omega)) (hE k (by omega))

/-- **C153 (PCHIP interpolation).** Two curves of a float dtype with the same increasing parameter, whose steps are between `hmin` and `hmax`; coordinate `j` of their points with the same index differs by at most `δ`. PCHIP interpolation at
the same values inside the range of the parameter: coordinate `j` of the resulting points differs by at most `(1 + 3/2 · hmax / hmin) δ`. -/
theorem C153_pchip {c c' : Curve ℝ} (hc : WF c) (hc' : WF c') (hs : 2 ≤ c.size) (hsz : c'.size = c.size) {junk : ℝ} (ht : (c.t junk).Pairwise (· < ·))
    (htt : c'.t junk = c.t junk) (hd : c.dtype ≠ .int) (hd' : c'.dtype ≠ .int) {r : KwReg} {m : String} (hr : IsPchip junk r m)
    {hmin hmax : ℝ} (h0 : 0 < hmin) (hst : ∀ (i : Nat) (u v : ℝ), (c.t junk)[i]? = some u → (c.t junk)[i + 1]? = some v → hmin ≤ v - u ∧ v - u ≤ hmax) :
    ∃ F F', EvaluatesTo c (fun g => c.interpolate r g m .none) (fun _ => True) F ∧ EvaluatesTo c' (fun g => c'.interpolate r g m .none) (fun _ => True) F' ∧
      ∀ (j : Nat) (δ : ℝ), j < c.ncols → j < c'.ncols → (∀ i, i < c.size → |at2 c.rows i j - at2 c'.rows i j| ≤ δ) →
        ∀ x, WithinEnds (c.t junk) x → |coordOf j (F x) - coordOf j (F' x)| ≤ (1 + 3 / 2 * (hmax / hmin)) * δ := by
  have hl : (c.t junk).length = c.size := t_length hc (rows_ne_of_size hs) junk
  have hs' : 2 ≤ c'.size := by rw [hsz]; exact hs
  have ht' : (c'.t junk).Pairwise (· < ·) := by rw [htt]; exact ht
  refine ⟨_, _, spline_eval hc hs ht hd hr (p := InterpKw.none) (pchip_cons hc hs ht .yes rfl) rfl rfl (dom := fun _ => True) (.inl rfl),
    spline_eval hc' hs' ht' hd' hr (p := InterpKw.none) (pchip_cons hc' hs' ht' .yes rfl) rfl rfl (dom := fun _ => True) (.inl rfl), ?_⟩
  intro j δ hj hj' hnear x hin
  have hδ : 0 ≤ δ := (abs_nonneg _).trans (hnear 0 (by omega))
  obtain ⟨X, hX⟩ : ∃ X, X = knot (c.t junk) := ⟨_, rfl⟩
  have step : ∀ i, i + 1 < c.size → hmin ≤ X (i + 1) - X i ∧ X (i + 1) - X i ≤ hmax := fun i hi => by
    rw [hX]
    exact hst i _ _ (knot_some (by omega)) (knot_some (by omega))
  have xlt : ∀ i, i + 1 < c.size → X i < X (i + 1) := fun i hi => by linarith [(step i hi).1]
  obtain ⟨i, hi, i1, i2⟩ := exists_piece (xs := c.t junk) (by omega) x
  rw [hl] at hi
  have k1 : knot (c.t junk) i ≤ x := by
    rcases i1 with rfl | i1
    · obtain ⟨e1, e2⟩ := t_ends hc (rows_ne_of_size hs) junk
      rw [List.head?_eq_getElem?] at e1
      rw [knot_eq e1]
      exact hin.1 _ (by rw [List.head?_eq_getElem?]; exact e1)
    · exact i1
  have k2 : x ≤ knot (c.t junk) (i + 1) := by
    rcases i2 with i2 | i2
    · obtain ⟨e1, e2⟩ := t_ends hc (rows_ne_of_size hs) junk
      have e3 := e2
      rw [List.getLast?_eq_getElem?, show (c.t junk).length - 1 = i + 1 by omega] at e3
      rw [knot_eq e3]
      exact hin.2 _ e2
    · exact i2.le
  have hval : ∀ i, i < c.size → |c.mat.v i j - c'.mat.v i j| ≤ δ := hnear
  have hE : ∀ i, i + 1 < c.size → |(c.mat.v (i + 1) j - c.mat.v i j) / (X (i + 1) - X i) - (c'.mat.v (i + 1) j - c'.mat.v i j) / (X (i + 1) - X i)| ≤ 2 * δ / hmin := by
    intro i hi
    have p := step i hi
    rw [← sub_div, abs_div, abs_of_pos (by linarith : 0 < X (i + 1) - X i)]
    have a1 := hval i (by omega)
    have a2 := hval (i + 1) hi
    have a3 : |c.mat.v (i + 1) j - c.mat.v i j - (c'.mat.v (i + 1) j - c'.mat.v i j)| ≤ 2 * δ := by
      have := abs_sub (c.mat.v (i + 1) j - c'.mat.v (i + 1) j) (c.mat.v i j - c'.mat.v i j)
      rw [show c.mat.v (i + 1) j - c.mat.v i j - (c'.mat.v (i + 1) j - c'.mat.v i j) = (c.mat.v (i + 1) j - c'.mat.v (i + 1) j) - (c.mat.v i j - c'.mat.v i j) by ring]
      linarith
    exact (div_le_div_of_nonneg_right a3 (by linarith)).trans (div_le_div_of_nonneg_left (by linarith) h0 p.1)
  have hslope : ∀ i, i < c.size → |(pchipSlopes (c.t junk) c.mat).v i j - (pchipSlopes (c'.t junk) c'.mat).v i j| ≤ 3 * (2 * δ / hmin) := by
    intro i hi
    rw [pchipSlopes_v, pchipSlopes_v, htt, hl]
    have := pchipSlope_moved (y := fun i => c.mat.v i j) (y' := fun i => c'.mat.v i j) hs xlt hE hi
    rw [hX] at this
    exact this
  have hst1 := step i hi
  have hb := hermR_bound (x0 := X i) (x1 := X (i + 1)) (x := x) (xlt i hi) (by rw [hX]; exact k1) (by rw [hX]; exact k2) (hval i (by omega)) (hval (i + 1) hi)
    (hslope i (by omega)) (hslope (i + 1) hi)
  unfold coordOf
  rw [PPoly.row_getD _ (by exact hj), PPoly.row_getD _ (by exact hj'), PPoly.coord_on (i := i) ht (by rw [hl]; exact hi) j (.inr k1) (.inr k2),
    PPoly.coord_on (i := i) ht' (by simp only; rw [htt, hl]; exact hi) j (.inr (by simp only; rw [htt]; exact k1)) (.inr (by simp only; rw [htt]; exact k2))]
  unfold PPoly.cub
  simp only
  rw [htt] at hb ⊢
  rw [← hX]
  obtain ⟨α, β, γ, hw⟩ := hermR_weights (X i) (X (i + 1)) x
  rw [hw] at hb
  rw [hw, hw]
  refine le_trans (le_of_eq ?_) (hb.trans ?_)
  · congr 1
    ring
  · have e2 : (X (i + 1) - X i) / 4 * (3 * (2 * δ / hmin)) ≤ hmax / 4 * (3 * (2 * δ / hmin)) := by
      gcongr
      exact hst1.2
    refine (add_le_add_right e2 _).trans (le_of_eq ?_)
    field_simp
    ring

/-! ### The hypotheses are met -/

private noncomputable def spA : Curve ℝ := ⟨[[0, 0], [1, 0], [2, 1]], 2, some [0, 1, 3], .float⟩
private noncomputable def spB : Curve ℝ := ⟨[[0, 0], [1, 1 / 100], [2, 1]], 2, some [0, 1, 3], .float⟩

example (lib : SplineLib) : ∃ F F', EvaluatesTo spA (fun g => spA.interpolate (builtinInterp lib 0) g "pchip" .none) (fun _ => True) F ∧
    EvaluatesTo spB (fun g => spB.interpolate (builtinInterp lib 0) g "pchip" .none) (fun _ => True) F' ∧
    ∀ x, WithinEnds (spA.t 0) x → |coordOf 1 (F x) - coordOf 1 (F' x)| ≤ (1 + 3 / 2 * (2 / 1)) * (1 / 100) := by
  obtain ⟨F, F', h1, h2, h3⟩ := C153_pchip (c := spA) (c' := spB) ⟨by simp [spA], by simp [spA], by simp [spA], by simp [spA, DType.cast]⟩ ⟨by simp [spB], by simp [spB], by simp [spB], by simp [spB, DType.cast]⟩
    (by simp [spA, Curve.size]) rfl (junk := 0) (by show [(0 : ℝ), 1, 3].Pairwise (· < ·); simp) rfl (by simp [spA]) (by simp [spB]) (builtin_names lib 0).2.2.1 (hmin := 1) (hmax := 2) one_pos (by
      intro i u v hu hv
      have e : spA.t 0 = [0, 1, 3] := rfl
      rw [e] at hu hv
      match i with
      | 0 => simp at hu hv; subst hu hv; norm_num
      | 1 => simp at hu hv; subst hu hv; norm_num
      | (k + 2) => simp at hv)
  refine ⟨F, F', h1, h2, h3 1 (1 / 100) (by simp [spA]) (by simp [spB]) ?_⟩
  intro i hi
  have hi : i < 3 := hi
  interval_cases i <;> simp [spA, spB, at2]

end Verif.Props
