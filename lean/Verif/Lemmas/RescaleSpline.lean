import Verif.Lemmas.ReverseSpline

/-! Slopes and polynomials of the splines after a change of units of the values and of the parameter. -/
namespace Verif.Model

open Verif Verif.Np Verif.Spec

theorem hermR_rescale {x0 x1 a : ℝ} (h : x0 < x1) (ha : 0 < a) (b s w y0 y1 d0 d1 x : ℝ) :
    hermR (a * x0 + b) (a * x1 + b) (s * y0 + w) (s * y1 + w) (s / a * d0) (s / a * d1) (a * x + b) = s * hermR x0 x1 y0 y1 d0 d1 x + w := by
  have h1 : x1 - x0 ≠ 0 := by linarith
  have h2 : a * x0 + b < a * x1 + b := by nlinarith
  obtain ⟨u, hu⟩ : ∃ u, x = x0 + u * (x1 - x0) := ⟨(x - x0) / (x1 - x0), by field_simp; ring⟩
  have e1 := hermR_basis h2 (s * y0 + w) (s * y1 + w) (s / a * d0) (s / a * d1) u
  have e2 := hermR_basis h y0 y1 d0 d1 u
  rw [show a * x0 + b + u * (a * x1 + b - (a * x0 + b)) = a * x + b by rw [hu]; ring] at e1
  rw [← hu] at e2
  rw [e1, e2]
  field_simp
  ring

theorem PPoly.coord_rescale {p q : PPoly} {n : Nat} {a b s w : ℝ} (ha : 0 < a) (hp : p.xs.length = n) (hq : q.xs.length = n) (hn : 2 ≤ n)
    (hs : p.xs.Pairwise (· < ·)) (hs' : q.xs.Pairwise (· < ·)) (hx : ∀ i, i < n → knot q.xs i = a * knot p.xs i + b) {j : Nat}
    (hy : ∀ i, i < n → q.y.v i j = s * p.y.v i j + w) (hd : ∀ i, i < n → q.d.v i j = s / a * p.d.v i j) (x : ℝ) :
    q.coord j (a * x + b) = s * p.coord j x + w := by
  obtain ⟨i, h1, h2, h3⟩ := exists_piece (xs := p.xs) (by omega) x
  have h3' : i + 2 = p.xs.length ∨ x ≤ knot p.xs (i + 1) := h3.imp_right le_of_lt
  rw [PPoly.coord_on hs h1 j h2 h3', PPoly.coord_on hs' (i := i) (by omega) j]
  · unfold PPoly.cub
    rw [hd i (by omega), hd (i + 1) (by omega), hy i (by omega), hy (i + 1) (by omega), hx i (by omega), hx (i + 1) (by omega)]
    exact hermR_rescale (knot_lt hs (by omega) (by omega)) ha b s w _ _ _ _ x
  · rcases h2 with h | h
    · exact .inl h
    · right; rw [hx i (by omega)]; nlinarith
  · rcases h3' with h | h
    · left; omega
    · right; rw [hx (i + 1) (by omega)]; nlinarith

theorem npSign_scale {k : ℝ} (hk : k ≠ 0) (x y : ℝ) : npSign (k * x) = npSign (k * y) ↔ npSign x = npSign y := by
  have pos : ∀ k, 0 < k → ∀ x, npSign (k * x) = npSign x := by
    intro k hk x
    unfold npSign
    simp only [mul_pos_iff_of_pos_left hk, mul_neg_iff, hk, true_and, not_lt_of_gt hk, false_and, or_false]
  rcases lt_or_gt_of_ne hk with h | h
  · have e : ∀ x, npSign (k * x) = - npSign x := by
      intro x
      rw [show k * x = -(-k * x) by ring, npSign_flip, pos (-k) (by linarith)]
    rw [e, e, neg_inj]
  · rw [pos k h, pos k h]

theorem pchipEdge_scale {a : ℝ} (ha : 0 < a) (k h0 h1 m0 m1 : ℝ) : pchipEdge (a * h0) (a * h1) (k * m0) (k * m1) = k * pchipEdge h0 h1 m0 m1 := by
  unfold pchipEdge
  simp only
  have e : ((2 * (a * h0) + a * h1) * (k * m0) - a * h0 * (k * m1)) / (a * h0 + a * h1) = k * (((2 * h0 + h1) * m0 - h0 * m1) / (h0 + h1)) := by
    rw [show (2 * (a * h0) + a * h1) * (k * m0) - a * h0 * (k * m1) = a * (k * ((2 * h0 + h1) * m0 - h0 * m1)) by ring,
      show a * h0 + a * h1 = a * (h0 + h1) by ring, mul_div_mul_left _ _ ha.ne', mul_div_assoc]
  rw [e]
  by_cases hk : k = 0
  · subst hk
    simp
  generalize ((2 * h0 + h1) * m0 - h0 * m1) / (h0 + h1) = d
  have hab : 3 * |k * m0| < |k * d| ↔ 3 * |m0| < |d| := by
    rw [abs_mul, abs_mul, show 3 * (|k| * |m0|) = |k| * (3 * |m0|) by ring]
    exact mul_lt_mul_iff_right₀ (abs_pos.2 hk)
  simp only [ne_eq, npSign_scale hk, hab]
  by_cases c1 : npSign d = npSign m0
  · rw [if_neg (not_not.2 c1), if_neg (not_not.2 c1)]
    by_cases c2 : ¬npSign m0 = npSign m1 ∧ 3 * |m0| < |d|
    · rw [if_pos c2, if_pos c2]; ring
    · rw [if_neg c2, if_neg c2]
  · rw [if_pos c1, if_pos c1, mul_zero]

section
variable {n : Nat} {x y x' y' : Nat → ℝ} {a b s w : ℝ} (ha : 0 < a) (hx : ∀ i, i < n → x' i = a * x i + b) (hy : ∀ i, i < n → y' i = s * y i + w)

include hx in
theorem step_rescale {i : Nat} (hi : i + 1 < n) : x' (i + 1) - x' i = a * (x (i + 1) - x i) := by
  rw [hx i (by omega), hx (i + 1) (by omega)]
  ring

include ha hx hy

theorem secant_rescale {i : Nat} (hi : i + 1 < n) :
    (y' (i + 1) - y' i) / (x' (i + 1) - x' i) = s / a * ((y (i + 1) - y i) / (x (i + 1) - x i)) := by
  rw [step_rescale hx hi, hy i (by omega), hy (i + 1) (by omega), show s * y (i + 1) + w - (s * y i + w) = s * (y (i + 1) - y i) by ring,
    mul_div_mul_comm]

theorem pchipSlope_rescale (hn : 2 ≤ n) {k : Nat} (hk : k < n) : pchipSlope n x' y' k = s / a * pchipSlope n x y k := by
  unfold pchipSlope
  simp only
  by_cases h2 : n = 2
  · rw [if_pos h2, if_pos h2, secant_rescale ha hx hy (by omega)]
  rw [if_neg h2, if_neg h2]
  have S := fun i (hi : i + 1 < n) => secant_rescale ha hx hy hi
  have T := fun i (hi : i + 1 < n) => step_rescale hx hi
  by_cases h0 : k = 0
  · rw [if_pos h0, if_pos h0, S 0 (by omega), S 1 (by omega), T 0 (by omega), T 1 (by omega), pchipEdge_scale ha]
  rw [if_neg h0, if_neg h0]
  by_cases hl : k = n - 1
  · rw [if_pos hl, if_pos hl, S (n - 2) (by omega), S (n - 3) (by omega), T (n - 2) (by omega), T (n - 3) (by omega), pchipEdge_scale ha]
  rw [if_neg hl, if_neg hl, S k (by omega), S (k - 1) (by omega), T k (by omega), T (k - 1) (by omega)]
  obtain ⟨m, hm⟩ : ∃ m, m = (y (k + 1) - y k) / (x (k + 1) - x k) := ⟨_, rfl⟩
  obtain ⟨m', hm'⟩ : ∃ m', m' = (y (k - 1 + 1) - y (k - 1)) / (x (k - 1 + 1) - x (k - 1)) := ⟨_, rfl⟩
  obtain ⟨u, hu⟩ : ∃ u, u = x (k + 1) - x k := ⟨_, rfl⟩
  obtain ⟨v, hv⟩ : ∃ v, v = x (k - 1 + 1) - x (k - 1) := ⟨_, rfl⟩
  rw [← hm, ← hm', ← hu, ← hv]
  obtain ⟨r, hr⟩ : ∃ r, r = s / a := ⟨_, rfl⟩
  rw [← hr]
  by_cases hr0 : r = 0
  · rw [hr0, if_pos (by simp), zero_mul]
  simp only [ne_eq, npSign_scale hr0, mul_eq_zero, hr0, false_or]
  by_cases hz : ¬ npSign m = npSign m' ∨ m = 0 ∨ m' = 0
  · rw [if_pos hz, if_pos hz, mul_zero]
  · rw [if_neg hz, if_neg hz]
    rw [show 2 * (a * u) + a * v = a * (2 * u + v) by ring, show a * u + 2 * (a * v) = a * (u + 2 * v) by ring, mul_div_mul_comm a, mul_div_mul_comm a,
      ← mul_add, ← mul_add, mul_div_mul_comm, one_div, one_div, mul_inv, div_div, mul_comm r a, ← div_div, div_self ha.ne', one_div, inv_inv]

theorem akimaM_rescale (hn : 3 ≤ n) (i : Nat) : akimaM n x' y' i = s / a * akimaM n x y i := by
  have S := fun i (hi : i + 1 < n) => secant_rescale ha hx hy hi
  unfold akimaM
  simp only
  by_cases h0 : i = 0
  · rw [if_pos h0, if_pos h0, S 0 (by omega), S 1 (by omega)]; ring
  rw [if_neg h0, if_neg h0]
  by_cases h1 : i = 1
  · rw [if_pos h1, if_pos h1, S 0 (by omega), S 1 (by omega)]; ring
  rw [if_neg h1, if_neg h1]
  by_cases h2 : i ≤ n
  · rw [if_pos h2, if_pos h2, S (i - 2) (by omega)]
  rw [if_neg h2, if_neg h2, S (n - 2) (by omega), S (n - 3) (by omega)]
  by_cases h3 : i = n + 1
  · rw [if_pos h3, if_pos h3]; ring
  · rw [if_neg h3, if_neg h3]; ring

theorem akimaF12_rescale (hn : 3 ≤ n) (k : Nat) : akimaF12 (akimaM n x' y') k = |s / a| * akimaF12 (akimaM n x y) k := by
  have hM := akimaM_rescale ha hx hy hn
  unfold akimaF12
  rw [hM, hM, hM, hM, ← mul_sub, ← mul_sub, abs_mul, abs_mul, mul_add]

theorem akimaSlope_rescale (hn : 3 ≤ n) (top : ℝ) (k : Nat) :
    akimaSlope (akimaM n x' y') (|s / a| * top) k = s / a * akimaSlope (akimaM n x y) top k := by
  have hM := akimaM_rescale ha hx hy hn
  unfold akimaSlope
  rw [akimaF12_rescale ha hx hy hn, hM, hM, hM, hM, ← mul_sub, ← mul_sub, abs_mul, abs_mul]
  obtain ⟨r, hr⟩ : ∃ r, r = s / a := ⟨_, rfl⟩
  rw [← hr]
  by_cases hr0 : r = 0
  · subst hr0; simp
  have hp := abs_pos.2 hr0
  have e : 1 / 10 ^ 9 * (|r| * top) < |r| * akimaF12 (akimaM n x y) k ↔ 1 / 10 ^ 9 * top < akimaF12 (akimaM n x y) k := by
    rw [show 1 / 10 ^ 9 * (|r| * top) = |r| * (1 / 10 ^ 9 * top) by ring]
    exact mul_lt_mul_iff_right₀ hp
  by_cases hc : 1 / 10 ^ 9 * top < akimaF12 (akimaM n x y) k
  · rw [if_pos hc, if_pos (e.2 hc)]
    generalize akimaF12 (akimaM n x y) k = f
    rw [show ∀ p q m m' : ℝ, |r| * p * (r * m) + |r| * q * (r * m') = |r| * (r * (p * m + q * m')) by intros; ring,
      mul_div_mul_left _ _ hp.ne', mul_div_assoc]
  · rw [if_neg hc, if_neg (fun h => hc (e.1 h))]
    ring

theorem natural_rescale (hn : 2 ≤ n) (hlt : ∀ i, i + 1 < n → x i < x (i + 1)) {d d' : Nat → ℝ} (hd : NaturalSystem n x y d)
    (hd' : NaturalSystem n x' y' d') {k : Nat} (hk : k < n) : d' k = s / a * d k := by
  have S := fun i (hi : i + 1 < n) => secant_rescale ha hx hy hi
  have T := fun i (hi : i + 1 < n) => step_rescale hx hi
  have hlt' : ∀ i, i + 1 < n → x' i < x' (i + 1) := by
    intro i hi
    have h1 := T i hi
    have h2 := hlt i hi
    nlinarith
  have e : ∀ X d, a * X * (s / a * d) = s * (X * d) := by intro X d; field_simp
  refine natural_unique hn hlt' hd' (d' := fun k => s / a * d k) ⟨?_, ?_, ?_⟩ k hk
  · have h1 := T 0 (by omega)
    have h2 := hd.first
    simp only [Nat.zero_add] at h1
    rw [h1, hy 0 (by omega), hy 1 (by omega), mul_assoc 2, e, e]
    linear_combination s * h2
  · have h1 := T (n - 2) (by omega)
    rw [show n - 2 + 1 = n - 1 by omega] at h1
    have h2 := hd.last
    rw [h1, hy (n - 1) (by omega), hy (n - 2) (by omega), mul_assoc 2, e, e]
    linear_combination s * h2
  · intro i hi
    have h2 := hd.inner i hi
    rw [S i (by omega), S (i + 1) (by omega), T i (by omega), T (i + 1) (by omega), show i + 1 + 1 = i + 2 by omega] at *
    have e1 : ∀ X Y d : ℝ, 2 * (a * X + a * Y) * (s / a * d) = s * (2 * (X + Y) * d) := by intro X Y d; field_simp
    rw [e, e, e, e, e1]
    linear_combination s * h2

end

theorem foldl_max_mul {r : ℝ} (hr : 0 ≤ r) (l : List ℝ) (z : ℝ) : (l.map (r * ·)).foldl max (r * z) = r * l.foldl max z := by
  induction l generalizing z with
  | nil => rfl
  | cons u l ih => rw [List.map_cons, List.foldl_cons, List.foldl_cons, ← ih, mul_max_of_nonneg _ _ hr]

end Verif.Model
