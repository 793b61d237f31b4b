import Verif.Props.SplineShape
import Verif.Lemmas.SplineBc

/-!
C124: the boundary conditions `clamped`, `not-a-knot` and `periodic` of cubic interpolation.
-/
namespace Verif.Props

open Verif Verif.Np Verif.Model Verif.Spec

/-- The polynomials of coordinate `j`. -/
noncomputable def bcPiece (q : PPoly) (j i : Nat) : Polynomial ℝ :=
  hermPoly (knot q.xs i) (knot q.xs (i + 1)) (q.y.v i j) (q.y.v (i + 1) j) (q.d.v i j) (q.d.v (i + 1) j)

/-- `cubic` with a boundary condition. -/
theorem cubic_bc {c : Curve ℝ} (hc : WF c) (hs : 2 ≤ c.size) {junk : ℝ} (ht : (c.t junk).Pairwise (· < ·)) (lib : SplineLib)
    {bc : String} {d : NMat} (hd : lib.cubic bc (c.t junk) c.mat = .ok d) :
    withKw pickCubic (cubicCons lib junk) c ⟨[("bc_type", .str bc)]⟩ =
      .ok (PPoly.impl ⟨c.t junk, c.mat, d, if bc = "periodic" then .periodic else .yes⟩) :=
  cubic_cons hc hs ht lib (kw := ⟨[("bc_type", .str bc)]⟩) (q := ⟨bc, none, none⟩) rfl hd

/-- Every solution of the inner equations gives a twice continuously differentiable curve of cubic pieces. -/
theorem cubic_pieces {c : Curve ℝ} (hc : WF c) (hs : 2 ≤ c.size) {junk : ℝ} (ht : (c.t junk).Pairwise (· < ·)) {q : PPoly}
    (hxs : q.xs = c.t junk) (hy : q.y = c.mat) {j : Nat} (hj : j < c.ncols)
    (hin : InnerEqs c.size (knot (c.t junk)) (fun i => c.mat.v i j) (fun i => q.d.v i j)) :
    CubicOn (c.t junk) (fun i => at2 c.rows i j) (fun x => coordOf j (q.row x)) (bcPiece q j) := by
  have hl := t_length hc (rows_ne_of_size hs) junk
  have hp : q.xs.Pairwise (· < ·) := by rw [hxs]; exact ht
  have xlt : ∀ i, i + 1 < c.size → knot q.xs i < knot q.xs (i + 1) := by
    intro i hi; exact knot_lt hp (by omega) (by rw [hxs]; omega)
  have hmem : ∀ {i v}, (c.t junk)[i]? = some v → i < c.size ∧ v = knot q.xs i := by
    intro i v h
    have := (List.getElem?_eq_some_iff.1 h).1
    exact ⟨by omega, by rw [hxs]; exact (knot_eq h).symm⟩
  rw [← hxs, ← hy] at hin
  refine ⟨fun i => hermPoly_degree _ _ _ _ _ _, ?_, ?_, ?_, ?_, ?_⟩
  · intro i u v hu hv z h1 h2
    obtain ⟨hi, rfl⟩ := hmem hu
    obtain ⟨hi1, rfl⟩ := hmem hv
    unfold coordOf
    rw [q.row_getD (by rw [hy]; exact hj), PPoly.coord_on hp (i := i) (by rw [hxs]; omega) j (.inr h1) (.inr h2)]
    unfold bcPiece
    rw [hermPoly_eval]; rfl
  · intro i u hu hi
    obtain ⟨_, rfl⟩ := hmem hu
    unfold bcPiece
    rw [hermPoly_eval, hermR_left, hy]; rfl
  · intro i v hv
    obtain ⟨hi1, rfl⟩ := hmem hv
    unfold bcPiece
    rw [hermPoly_eval, hermR_right (xlt i hi1), hy]; rfl
  · intro i v hv hi2
    obtain ⟨hi1, rfl⟩ := hmem hv
    unfold bcPiece
    rw [hermPoly_deriv, hermPoly_deriv, hermD_left, hermD_right (xlt i hi1)]
  · intro i v hv hi2
    obtain ⟨hi1, rfl⟩ := hmem hv
    have l1 := xlt i hi1
    have l2 := xlt (i + 1) (by omega)
    unfold bcPiece
    rw [hermPoly_deriv2_right l1, hermPoly_deriv2_left l2]
    have := hin i (by omega)
    have n1 : knot q.xs (i + 1) - knot q.xs i ≠ 0 := by linarith
    have n2 : knot q.xs (i + 1 + 1) - knot q.xs (i + 1) ≠ 0 := by linarith
    rw [div_eq_div_iff n1 n2]
    linarith

/-! ## clamped -/

/-- **C124, clamped.** With `bc_type='clamped'` (and scipy's solver solving its system) cubic interpolation is evaluation of a curve
whose coordinates are piecewise cubic and twice continuously differentiable, pass through the points, and have derivative 0 at both
ends. (Dtypes that are not integer ones.) -/
theorem C124_clamped {c : Curve ℝ} (hc : WF c) (hs : 2 ≤ c.size) {junk : ℝ} (ht : (c.t junk).Pairwise (· < ·))
    (hd : c.dtype ≠ .int) {lib : SplineLib} (hlib : BoundaryOk lib) {r : KwReg} {m : String} (hr : IsCubic lib junk r m) :
    ∃ F, EvaluatesTo c (fun g => c.interpolate r g m ⟨[("bc_type", .str "clamped")]⟩) (fun _ => True) F ∧
      ∀ j, j < c.ncols → ∃ P : Nat → Polynomial ℝ,
        CubicOn (c.t junk) (fun i => at2 c.rows i j) (fun x => coordOf j (F x)) P ∧
        (∀ a, (c.t junk).head? = some a → (P 0).derivative.eval a = 0) ∧
        (∀ b, (c.t junk).getLast? = some b → (P (c.size - 2)).derivative.eval b = 0) := by
  have hl := t_length hc (rows_ne_of_size hs) junk
  obtain ⟨d, hsol, hnat⟩ := hlib.clamped (c.t junk) c.mat (knotsOk_curve hc hs ht)
  obtain ⟨q, hq⟩ : ∃ q : PPoly, q = ⟨c.t junk, c.mat, d, .yes⟩ := ⟨_, rfl⟩
  have hxs : q.xs = c.t junk := by rw [hq]
  have hy : q.y = c.mat := by rw [hq]
  have hqd : q.d = d := by rw [hq]
  have hp : q.xs.Pairwise (· < ·) := by rw [hxs]; exact ht
  have hev := spline_eval hc hs ht hd hr (q := q) (p := ⟨[("bc_type", .str "clamped")]⟩)
    (by rw [hq]; exact cubic_bc hc hs ht lib hsol) hxs hy (dom := fun _ => True) (.inl (by rw [hq]))
  refine ⟨_, hev, ?_⟩
  intro j hj
  have hN := hnat j hj
  rw [hl] at hN
  refine ⟨_, cubic_pieces hc hs ht hxs hy hj (by rw [hqd]; exact hN.inner), ?_, ?_⟩
  · intro a ha
    rw [List.head?_eq_getElem?] at ha
    have e : a = knot q.xs 0 := by rw [hxs]; exact (knot_eq ha).symm
    unfold bcPiece
    rw [e, hermPoly_deriv, hermD_left, hqd]
    exact hN.first
  · intro b hb
    rw [List.getLast?_eq_getElem?, hl] at hb
    have e1 : c.size - 2 + 1 = c.size - 1 := by omega
    have e : b = knot q.xs (c.size - 2 + 1) := by rw [hxs, e1]; exact (knot_eq hb).symm
    unfold bcPiece
    rw [e, hermPoly_deriv, hermD_right (knot_lt hp (by omega) (by rw [hxs]; omega)), hqd, e1]
    exact hN.last

/-! ## not-a-knot -/

/-- The cubic developed at its right end. -/
theorem hermR_at_right {x0 x1 : ℝ} (h : x0 < x1) (y0 y1 d0 d1 z : ℝ) : hermR x0 x1 y0 y1 d0 d1 z =
    y1 + d1 * (z - x1) + (d0 + 2 * d1 - 3 * ((y1 - y0) / (x1 - x0))) / (x1 - x0) * (z - x1) ^ 2 +
      (d0 + d1 - 2 * ((y1 - y0) / (x1 - x0))) / (x1 - x0) / (x1 - x0) * (z - x1) ^ 3 := by
  have : x1 - x0 ≠ 0 := by linarith
  unfold hermR
  field_simp
  ring

/-- Neighbouring cubics with the same second and third derivative where they meet are the same. -/
theorem same_cubic {x0 x1 x2 y0 y1 y2 d0 d1 d2 : ℝ} (h1 : x0 < x1) (h2 : x1 < x2)
    (hin : (x2 - x1) * d0 + 2 * ((x1 - x0) + (x2 - x1)) * d1 + (x1 - x0) * d2 =
      3 * ((x2 - x1) * ((y1 - y0) / (x1 - x0)) + (x1 - x0) * ((y2 - y1) / (x2 - x1))))
    (h3 : (x2 - x1) ^ 2 * (d0 + d1 - 2 * ((y1 - y0) / (x1 - x0))) = (x1 - x0) ^ 2 * (d1 + d2 - 2 * ((y2 - y1) / (x2 - x1)))) :
    hermPoly x0 x1 y0 y1 d0 d1 = hermPoly x1 x2 y1 y2 d1 d2 := by
  apply Polynomial.funext
  intro z
  rw [hermPoly_eval, hermPoly_eval, hermR_at_right h1]
  unfold hermR
  obtain ⟨s, hs⟩ : ∃ s, s = (y1 - y0) / (x1 - x0) := ⟨_, rfl⟩
  obtain ⟨t, ht⟩ : ∃ t, t = (y2 - y1) / (x2 - x1) := ⟨_, rfl⟩
  rw [← hs, ← ht] at hin h3 ⊢
  have n1 : x1 - x0 ≠ 0 := by linarith
  have n2 : x2 - x1 ≠ 0 := by linarith
  have a2 : (d0 + 2 * d1 - 3 * s) / (x1 - x0) = (t - d1) / (x2 - x1) - (d1 + d2 - 2 * t) / (x2 - x1) := by
    rw [div_sub_div_same, div_eq_div_iff n1 n2]; linarith
  have a3 : (d0 + d1 - 2 * s) / (x1 - x0) / (x1 - x0) = (d1 + d2 - 2 * t) / (x2 - x1) / (x2 - x1) := by
    rw [div_div, div_div, div_eq_div_iff (mul_ne_zero n1 n1) (mul_ne_zero n2 n2)]; linarith
  rw [a2, a3]

theorem knot_third_first {a b s t d0 d1 d2 : ℝ} (ha : 0 < a) (hb : 0 < b)
    (hin : b * d0 + 2 * (a + b) * d1 + a * d2 = 3 * (b * s + a * t))
    (hf : b * d0 + (a + b) * d1 = ((a + 2 * (a + b)) * b * s + a ^ 2 * t) / (a + b)) :
    b ^ 2 * (d0 + d1 - 2 * s) = a ^ 2 * (d1 + d2 - 2 * t) := by
  rw [eq_div_iff (by linarith)] at hf
  linear_combination hf - a * hin

theorem knot_third_last {a b s t d0 d1 d2 : ℝ} (ha : 0 < a) (hb : 0 < b)
    (hin : b * d0 + 2 * (a + b) * d1 + a * d2 = 3 * (b * s + a * t))
    (hf : (a + b) * d1 + a * d2 = (b ^ 2 * s + (2 * (a + b) + b) * a * t) / (a + b)) :
    b ^ 2 * (d0 + d1 - 2 * s) = a ^ 2 * (d1 + d2 - 2 * t) := by
  rw [eq_div_iff (by linarith)] at hf
  linear_combination b * hin - hf

/-- The slopes of a polynomial of degree at most 3 (and less than the number of knots) solve the not-a-knot system of its values. -/
theorem knot_system_of_poly {n : Nat} {x : Nat → ℝ} (hx : ∀ i, i + 1 < n → x i < x (i + 1)) {Q : Polynomial ℝ}
    (h3 : Q.natDegree ≤ 3) (hdeg : Q.natDegree < n) :
    KnotSystem n x (fun i => Q.eval (x i)) (fun i => Q.derivative.eval (x i)) := by
  have hQ : ∀ z, Q.eval z = Q.coeff 0 + Q.coeff 1 * z + Q.coeff 2 * z ^ 2 + Q.coeff 3 * z ^ 3 := by
    intro z
    rw [Polynomial.eval_eq_sum_range' (show Q.natDegree < 4 by omega)]
    simp [Finset.sum_range_succ]
  have hQ' : ∀ z, Q.derivative.eval z = Q.coeff 1 + 2 * Q.coeff 2 * z + 3 * Q.coeff 3 * z ^ 2 := by
    intro z
    rw [Polynomial.eval_eq_sum_range' (show Q.derivative.natDegree < 3 by have := Polynomial.natDegree_derivative_le Q; omega)]
    simp [Finset.sum_range_succ, Polynomial.coeff_derivative]
    ring
  have hsl : ∀ u v, u < v → (Q.eval v - Q.eval u) / (v - u) = Q.coeff 1 + Q.coeff 2 * (u + v) + Q.coeff 3 * (u ^ 2 + u * v + v ^ 2) := by
    intro u v huv
    have : v - u ≠ 0 := by linarith
    rw [hQ, hQ, div_eq_iff this]
    ring
  have hz : n ≤ 3 → Q.coeff 3 = 0 := fun h => Polynomial.coeff_eq_zero_of_natDegree_lt (by omega)
  have hz2 : n ≤ 2 → Q.coeff 2 = 0 := fun h => Polynomial.coeff_eq_zero_of_natDegree_lt (by omega)
  refine ⟨?_, ?_, ?_, ?_, ?_⟩
  · intro h
    have l := hx 0 (by omega)
    simp only [zero_add] at l
    rw [hsl _ _ l, hQ', hQ', hz (by omega), hz2 (by omega)]
    constructor <;> ring
  · intro h
    have l := hx 0 (by omega)
    have l' := hx 1 (by omega)
    simp only [zero_add, Nat.reduceAdd] at l l'
    rw [hsl _ _ l, hsl _ _ l', hQ', hQ', hQ', hz (by omega)]
    constructor <;> ring
  · intro k hk
    have l := hx k (by omega)
    have l' := hx (k + 1) (by omega)
    simp only
    rw [hsl _ _ l, hsl _ _ l', hQ', hQ', hQ']
    ring
  · intro h
    have l := hx 0 (by omega)
    have l' := hx 1 (by omega)
    simp only [zero_add, Nat.reduceAdd] at l l'
    rw [hsl _ _ l, hsl _ _ l', hQ', hQ', eq_div_iff (by linarith)]
    ring
  · intro h
    have l := hx (n - 3) (by omega)
    have l' := hx (n - 2) (by omega)
    rw [show n - 3 + 1 = n - 2 by omega] at l
    rw [show n - 2 + 1 = n - 1 by omega] at l'
    rw [hsl _ _ l, hsl _ _ l', hQ', hQ', eq_div_iff (by linarith)]
    ring

/-- A cubic with the values and slopes of a polynomial of degree at most 3. -/
theorem hermR_poly {u v : ℝ} (h : u < v) {Q : Polynomial ℝ} (h3 : Q.natDegree ≤ 3) (z : ℝ) :
    hermR u v (Q.eval u) (Q.eval v) (Q.derivative.eval u) (Q.derivative.eval v) z = Q.eval z := by
  have hQ : ∀ z, Q.eval z = Q.coeff 0 + Q.coeff 1 * z + Q.coeff 2 * z ^ 2 + Q.coeff 3 * z ^ 3 := by
    intro z
    rw [Polynomial.eval_eq_sum_range' (show Q.natDegree < 4 by omega)]
    simp [Finset.sum_range_succ]
  have hQ' : ∀ z, Q.derivative.eval z = Q.coeff 1 + 2 * Q.coeff 2 * z + 3 * Q.coeff 3 * z ^ 2 := by
    intro z
    rw [Polynomial.eval_eq_sum_range' (show Q.derivative.natDegree < 3 by have := Polynomial.natDegree_derivative_le Q; omega)]
    simp [Finset.sum_range_succ, Polynomial.coeff_derivative]
    ring
  have : v - u ≠ 0 := by linarith
  unfold hermR
  rw [hQ, hQ, hQ, hQ', hQ']
  field_simp
  ring

theorem hermPoly_degree2 {x0 x1 y0 y1 d0 d1 : ℝ} (h : d0 + d1 = 2 * ((y1 - y0) / (x1 - x0))) :
    (hermPoly x0 x1 y0 y1 d0 d1).natDegree ≤ 2 := by
  unfold hermPoly
  rw [show d0 + d1 - 2 * ((y1 - y0) / (x1 - x0)) = 0 by rw [h]; ring]
  simp only [zero_div, map_zero, zero_mul, add_zero]
  have h1 : ∀ (a : ℝ) (k : Nat), k ≤ 2 → (Polynomial.C a * (Polynomial.X - Polynomial.C x0) ^ k).natDegree ≤ 2 := by
    intro a k hk
    refine (Polynomial.natDegree_C_mul_le _ _).trans ?_
    refine (Polynomial.natDegree_pow_le).trans ?_
    rw [Polynomial.natDegree_X_sub_C]; omega
  have h2 := h1 d0 1 (by omega)
  rw [pow_one] at h2
  refine Polynomial.natDegree_add_le_of_degree_le (Polynomial.natDegree_add_le_of_degree_le ?_ h2) (h1 _ 2 (by omega))
  rw [Polynomial.natDegree_C]; omega

theorem hermPoly_degree1 {x0 x1 y0 y1 d0 d1 : ℝ} (h0 : d0 = (y1 - y0) / (x1 - x0)) (h1 : d1 = (y1 - y0) / (x1 - x0)) :
    (hermPoly x0 x1 y0 y1 d0 d1).natDegree ≤ 1 := by
  unfold hermPoly
  rw [show d0 + d1 - 2 * ((y1 - y0) / (x1 - x0)) = 0 by rw [h0, h1]; ring, ← h0]
  simp only [zero_div, map_zero, zero_mul, add_zero, sub_self]
  refine Polynomial.natDegree_add_le_of_degree_le (by rw [Polynomial.natDegree_C]; omega) ?_
  refine (Polynomial.natDegree_C_mul_le _ _).trans ?_
  rw [Polynomial.natDegree_X_sub_C]

/-- **C124, not-a-knot.** With `bc_type='not-a-knot'` the curve is piecewise cubic and twice continuously differentiable and passes
through the points; the first two polynomials are the same, and the last two; three points give one parabola, two a line. If the
points are values of polynomials of degree at most 3 (and less than the number of points) at the parameter values, the curve is
given by these polynomials, everywhere. -/
theorem C124_not_a_knot {c : Curve ℝ} (hc : WF c) (hs : 2 ≤ c.size) {junk : ℝ} (ht : (c.t junk).Pairwise (· < ·))
    (hd : c.dtype ≠ .int) {lib : SplineLib} (hlib : BoundaryOk lib) {r : KwReg} {m : String} (hr : IsCubic lib junk r m) :
    ∃ F, EvaluatesTo c (fun g => c.interpolate r g m ⟨[("bc_type", .str "not-a-knot")]⟩) (fun _ => True) F ∧
      (∀ j, j < c.ncols → ∃ P : Nat → Polynomial ℝ,
        CubicOn (c.t junk) (fun i => at2 c.rows i j) (fun x => coordOf j (F x)) P ∧
        (3 ≤ c.size → P 0 = P 1 ∧ P (c.size - 3) = P (c.size - 2)) ∧
        (P 0).natDegree < c.size) ∧
      ∀ Q : Nat → Polynomial ℝ, SamplesOf c (c.t junk) Q → (∀ j, j < c.ncols → (Q j).natDegree ≤ 3 ∧ (Q j).natDegree < c.size) →
        ∀ j x, j < c.ncols → coordOf j (F x) = (Q j).eval x := by
  have hl := t_length hc (rows_ne_of_size hs) junk
  obtain ⟨d, hsol, hnat⟩ := hlib.knot (c.t junk) c.mat (knotsOk_curve hc hs ht)
  obtain ⟨q, hq⟩ : ∃ q : PPoly, q = ⟨c.t junk, c.mat, d, .yes⟩ := ⟨_, rfl⟩
  have hxs : q.xs = c.t junk := by rw [hq]
  have hy : q.y = c.mat := by rw [hq]
  have hqd : q.d = d := by rw [hq]
  have hp : q.xs.Pairwise (· < ·) := by rw [hxs]; exact ht
  have xlt : ∀ i, i + 1 < c.size → knot q.xs i < knot q.xs (i + 1) := by
    intro i hi; exact knot_lt hp (by omega) (by rw [hxs]; omega)
  have hev := spline_eval hc hs ht hd hr (q := q) (p := ⟨[("bc_type", .str "not-a-knot")]⟩)
    (by rw [hq]; exact cubic_bc hc hs ht lib hsol) hxs hy (dom := fun _ => True) (.inl (by rw [hq]))
  have hN : ∀ j, j < c.ncols → KnotSystem c.size (knot q.xs) (fun i => q.y.v i j) (fun i => q.d.v i j) := by
    intro j hj
    rw [hxs, hy, hqd, ← hl]
    exact hnat j hj
  refine ⟨_, hev, ?_, ?_⟩
  · intro j hj
    have hj' := hN j hj
    refine ⟨_, cubic_pieces hc hs ht hxs hy hj (by rw [← hxs, ← hy]; exact hj'.inner), ?_, ?_⟩
    · intro h3
      by_cases n3 : c.size = 3
      · have l := xlt 0 (by omega)
        have l' := xlt 1 (by omega)
        have e := hj'.inner 0 (by omega)
        obtain ⟨a, b⟩ := hj'.three n3
        simp only [zero_add, Nat.reduceAdd] at l l' e
        have : bcPiece q j 0 = bcPiece q j 1 := same_cubic l l' e (by rw [a, b]; simp)
        rw [n3]
        exact ⟨this, this⟩
      · have l := xlt 0 (by omega)
        have l' := xlt 1 (by omega)
        have e := hj'.inner 0 (by omega)
        have f := hj'.first (by omega)
        have m1 := xlt (c.size - 3) (by omega)
        have m2 := xlt (c.size - 2) (by omega)
        have e' := hj'.inner (c.size - 3) (by omega)
        have f' := hj'.last (by omega)
        rw [show c.size - 3 + 1 = c.size - 2 by omega] at m1 e'
        rw [show c.size - 2 + 1 = c.size - 1 by omega] at m2
        rw [show c.size - 3 + 2 = c.size - 1 by omega] at e'
        simp only [zero_add, Nat.reduceAdd] at l l' e
        constructor
        · refine same_cubic l l' e (knot_third_first (by linarith) (by linarith) e ?_)
          rw [show knot q.xs 1 - knot q.xs 0 + (knot q.xs 2 - knot q.xs 1) = knot q.xs 2 - knot q.xs 0 by ring]
          exact f
        · unfold bcPiece
          rw [show c.size - 3 + 1 = c.size - 2 by omega, show c.size - 2 + 1 = c.size - 1 by omega]
          refine same_cubic m1 m2 e' (knot_third_last (by linarith) (by linarith) e' ?_)
          rw [show knot q.xs (c.size - 2) - knot q.xs (c.size - 3) + (knot q.xs (c.size - 1) - knot q.xs (c.size - 2)) =
            knot q.xs (c.size - 1) - knot q.xs (c.size - 3) by ring]
          exact f'
    · by_cases n2 : c.size = 2
      · obtain ⟨a, b⟩ := hj'.two n2
        rw [n2]
        exact Nat.lt_succ_of_le (hermPoly_degree1 a b)
      by_cases n3 : c.size = 3
      · rw [n3]
        exact Nat.lt_succ_of_le (hermPoly_degree2 (hj'.three n3).1)
      · exact lt_of_le_of_lt (hermPoly_degree _ _ _ _ _ _) (by omega)
  · intro Q hQ hdeg j z hj
    obtain ⟨h3, hlt⟩ := hdeg j hj
    have hyv : ∀ i, i < c.size → q.y.v i j = (Q j).eval (knot q.xs i) := by
      intro i hi
      rw [hy, hxs]
      exact hQ i _ j (knot_some (by omega)) hj
    have hsys := knot_system_of_poly xlt h3 hlt
    have hN' : KnotSystem c.size (knot q.xs) (fun i => (Q j).eval (knot q.xs i)) (fun i => q.d.v i j) := by
      have := hN j hj
      refine ⟨?_, ?_, ?_, ?_, ?_⟩
      · intro h; have := this.two h
        rwa [hyv 0 (by omega), hyv 1 (by omega)] at this
      · intro h; have := this.three h
        rwa [hyv 0 (by omega), hyv 1 (by omega), hyv 2 (by omega)] at this
      · intro k hk
        have := this.inner k hk
        rwa [hyv k (by omega), hyv (k + 1) (by omega), hyv (k + 2) (by omega)] at this
      · intro h; have := this.first h
        rwa [hyv 0 (by omega), hyv 1 (by omega), hyv 2 (by omega)] at this
      · intro h; have := this.last h
        rwa [hyv (c.size - 3) (by omega), hyv (c.size - 2) (by omega), hyv (c.size - 1) (by omega)] at this
    have hd' := knot_unique hs xlt hN' hsys
    unfold coordOf
    rw [q.row_getD (by rw [hy]; exact hj)]
    obtain ⟨i, hi, h1, h2⟩ := exists_piece (xs := q.xs) (by rw [hxs]; omega) z
    have hi' : i + 1 < c.size := by rw [hxs] at hi; omega
    rw [PPoly.coord_on hp hi j h1 (h2.imp id le_of_lt)]
    unfold PPoly.cub
    rw [hyv i (by omega), hyv (i + 1) hi', hd' i (by omega), hd' (i + 1) hi']
    exact hermR_poly (xlt i hi') h3 z

/-! ## periodic -/

/-- A value brought into the range of the knots. -/
noncomputable def wrapR (a b x : ℝ) : ℝ := a + ((x - a) - (b - a) * ⌊(x - a) / (b - a)⌋)

theorem wrapR_period {a b : ℝ} (h : a < b) (x : ℝ) : wrapR a b (x + (b - a)) = wrapR a b x := by
  have hne : b - a ≠ 0 := by linarith
  unfold wrapR
  rw [show (x + (b - a) - a) / (b - a) = (x - a) / (b - a) + 1 by field_simp; ring, Int.floor_add_one]
  push_cast
  ring

theorem wrapR_in {a b x : ℝ} (h1 : a ≤ x) (h2 : x < b) : wrapR a b x = x := by
  unfold wrapR
  have : ⌊(x - a) / (b - a)⌋ = 0 := by
    rw [Int.floor_eq_zero_iff]
    exact ⟨div_nonneg (by linarith) (by linarith), by rw [div_lt_one (by linarith)]; linarith⟩
  rw [this]; simp

theorem wrapR_end {a b : ℝ} (h : a < b) : wrapR a b b = a := by
  have := wrapR_period h a
  rw [show a + (b - a) = b by ring] at this
  rw [this, wrapR_in le_rfl h]

/-- Interpolation by a piecewise polynomial whose values are known. -/
theorem ppoly_values {c : Curve ℝ} (hc : WF c) (hs : 2 ≤ c.size) {junk : ℝ} (hd : c.dtype ≠ .int) {P : Type} {r : InterpReg P} {m : String}
    {cons : Curve ℝ → P → Except PyErr InterpImpl} (hr : getInterpClass r m = .ok (interpClass junk cons)) {p : P} {q : PPoly}
    (hq : cons c p = .ok q.impl) (hk : q.y.k = c.ncols) {F : ℝ → List ℝ} (hlen : ∀ x, (F x).length = c.ncols)
    (hat : ∀ x, q.at (.fin x) = fins (F x)) :
    EvaluatesTo c (fun g => c.interpolate r g m p) (fun _ => True) F := by
  intro xs hne hx _
  obtain ⟨w, hg⟩ := getGrid_fins junk c xs hne hx
  simp only
  rw [interpolate_impl hr c _ p hq]
  unfold interpolatorCall
  rw [if_neg (by omega), if_neg (by omega), hg]
  have hrows : (fins xs).map q.at = xs.map fun x => fins (F x) := by
    unfold fins
    rw [List.map_map]
    apply List.map_congr_left
    intro x _
    exact hat x
  simp only [bind, Except.bind, PPoly.impl, hrows, wrapErr, hk]
  have he : Curve.init (.arr (NdArr.ofRows (.fin 0) (xs.map fun x => fins (F x)) c.ncols) .float)
      (if c.isparametric then some (fins xs) else none) none none (some c.dtype) =
      Curve.ofRows (xs.map fun x => fins (F x)) c.ncols c.dtype (if c.isparametric then some (fins xs) else none) := rfl
  rw [he, ofRows_ok hc.two_le]
  · refine ⟨_, rfl, ?_, ?_, ?_, rfl⟩
    · simp [List.map_map, Function.comp]
    · simp [hne]
    · simp only; split <;> simp [fins]
  · intro row hrow
    obtain ⟨x, _, rfl⟩ := List.mem_map.1 hrow
    simp only [fins, List.length_map, hlen]
  · intro _ _ x _; cases hdt : c.dtype <;> simp_all [DType.cast]
  · intro s hs'
    split at hs' <;> simp at hs'
    rw [← hs']; simp [fins]

/-- **C124, periodic.** With `bc_type='periodic'` and a curve whose last point is its first point: the curve has the period `b - a` (the
length of the parameter range), is piecewise cubic and twice continuously differentiable, also where the end meets the beginning, and
passes through the points. -/
theorem C124_periodic {c : Curve ℝ} (hc : WF c) (hs : 2 ≤ c.size) {junk : ℝ} (ht : (c.t junk).Pairwise (· < ·))
    (hd : c.dtype ≠ .int) (hclosed : ∀ j, j < c.ncols → at2 c.rows (c.size - 1) j = at2 c.rows 0 j)
    {lib : SplineLib} (hlib : BoundaryOk lib) {r : KwReg} {m : String} (hr : IsCubic lib junk r m) :
    ∃ F, EvaluatesTo c (fun g => c.interpolate r g m ⟨[("bc_type", .str "periodic")]⟩) (fun _ => True) F ∧
      (∀ a b, (c.t junk).head? = some a → (c.t junk).getLast? = some b → ∀ x, F (x + (b - a)) = F x) ∧
      ∀ j, j < c.ncols → ∃ P : Nat → Polynomial ℝ,
        CubicOn (c.t junk) (fun i => at2 c.rows i j) (fun x => coordOf j (F x)) P ∧
        ∀ a b, (c.t junk).head? = some a → (c.t junk).getLast? = some b →
          (P (c.size - 2)).derivative.eval b = (P 0).derivative.eval a ∧
          (P (c.size - 2)).derivative.derivative.eval b = (P 0).derivative.derivative.eval a := by
  have hl := t_length hc (rows_ne_of_size hs) junk
  obtain ⟨d, hsol, hnat⟩ := hlib.periodic (c.t junk) c.mat (knotsOk_curve hc hs ht) (by
    intro j hj; rw [hl]; exact hclosed j hj)
  obtain ⟨q, hq⟩ : ∃ q : PPoly, q = ⟨c.t junk, c.mat, d, .periodic⟩ := ⟨_, rfl⟩
  have hxs : q.xs = c.t junk := by rw [hq]
  have hy : q.y = c.mat := by rw [hq]
  have hqd : q.d = d := by rw [hq]
  have hk : q.y.k = c.ncols := by rw [hy]; rfl
  have hp : q.xs.Pairwise (· < ·) := by rw [hxs]; exact ht
  obtain ⟨ea, eb⟩ := t_ends hc (rows_ne_of_size hs) junk
  have ka : knot q.xs 0 = q.xs.headD 0 := by rw [hxs]; exact knot_eq (by rw [← List.head?_eq_getElem?]; exact ea)
  have kb : knot q.xs (c.size - 1) = q.xs.getLastD 0 := by
    rw [hxs]; exact knot_eq (by rw [← hl, ← List.getLast?_eq_getElem?]; exact eb)
  obtain ⟨a, ha⟩ : ∃ a, a = knot q.xs 0 := ⟨_, rfl⟩
  obtain ⟨b, hb⟩ : ∃ b, b = knot q.xs (c.size - 1) := ⟨_, rfl⟩
  have hab : a < b := by rw [ha, hb]; exact knot_lt hp (by omega) (by rw [hxs]; omega)
  have ha' : ∀ a', (c.t junk).head? = some a' → a' = a := by
    intro a' h
    rw [List.head?_eq_getElem?] at h
    rw [ha, hxs]; exact (knot_eq h).symm
  have hb' : ∀ b', (c.t junk).getLast? = some b' → b' = b := by
    intro b' h
    rw [List.getLast?_eq_getElem?, hl] at h
    rw [hb, hxs]; exact (knot_eq h).symm
  have hat : ∀ x : ℝ, q.at (.fin x) = fins (q.row (wrapR a b x)) := by
    intro x
    have e : q.at (.fin x) = q.piece (wrapPeriod (q.xs.headD 0) (q.xs.getLastD 0) (.fin x)) := by
      unfold PPoly.at
      rw [show q.ex = .periodic by rw [hq]]
      simp [wrapPeriod]
    rw [e, ← ka, ← kb, ← ha, ← hb]
    exact q.piece_fin _
  have hev := ppoly_values hc hs hd hr (q := q) (p := ⟨[("bc_type", .str "periodic")]⟩)
    (by rw [hq]; exact cubic_bc hc hs ht lib hsol) hk (F := fun x => q.row (wrapR a b x)) (fun x => by rw [q.row_length, hk]) hat
  refine ⟨_, hev, ?_, ?_⟩
  · intro a' b' h1 h2 x
    rw [ha' a' h1, hb' b' h2]
    rw [wrapR_period hab]
  · intro j hj
    have hN : PeriodicSystem c.size (knot q.xs) (fun i => q.y.v i j) (fun i => q.d.v i j) := by
      rw [hxs, hy, hqd, ← hl]
      exact hnat j hj
    have hcub := cubic_pieces hc hs ht hxs hy hj (by rw [← hxs, ← hy]; exact hN.inner)
    refine ⟨_, ⟨hcub.degree, ?_, hcub.left, hcub.right, hcub.slope, hcub.bend⟩, ?_⟩
    · intro i u v hu hv x h1 h2
      have hi1 := (List.getElem?_eq_some_iff.1 hv).1
      have hau : a ≤ u := by
        rw [ha, hxs, ← knot_eq hu]; exact knot_le ht (by omega) (by omega)
      have hvb : v ≤ b := by
        rw [hb, hxs, ← knot_eq hv]; exact knot_le ht (by omega) (by omega)
      rcases (h2.trans hvb).lt_or_eq with hlt | heq
      · rw [wrapR_in (hau.trans h1) hlt]
        exact hcub.piece i u v hu hv x h1 h2
      · have hv' : x = v := le_antisymm h2 (by rw [heq]; exact hvb)
        have hin : i + 1 = c.size - 1 := by
          by_contra hne
          have := knot_lt ht (i := i + 1) (j := c.size - 1) (by omega) (by omega)
          rw [knot_eq hv, ← hxs, ← hb] at this
          linarith
        rw [heq, wrapR_end hab]
        have e0 : coordOf j (q.row a) = at2 c.rows 0 j := by
          unfold coordOf
          rw [q.row_getD (by rw [hk]; exact hj), ha, PPoly.coord_knot hp (by rw [hxs]; omega) (by rw [hxs]; omega), hy]; rfl
        rw [e0, ← hclosed j hj, ← heq, hv', hcub.right i v hv, hin]
    · intro a' b' h1 h2
      rw [ha' a' h1, hb' b' h2]
      have e1 : c.size - 2 + 1 = c.size - 1 := by omega
      have l : knot q.xs (c.size - 2) < knot q.xs (c.size - 1) := knot_lt hp (by omega) (by rw [hxs]; omega)
      have l0 : knot q.xs 0 < knot q.xs 1 := knot_lt hp (by omega) (by rw [hxs]; omega)
      unfold bcPiece
      rw [e1, ha, hb, hermPoly_deriv, hermPoly_deriv, hermD_right l, hermD_left]
      refine ⟨hN.close, ?_⟩
      simp only [zero_add]
      rw [hermPoly_deriv2_right l, hermPoly_deriv2_left l0, div_eq_div_iff (by linarith) (by linarith), hN.close]
      have := hN.wrap
      linarith

/-! ## Instances -/

/-- Four points of a cubic parabola. -/
def exCubic : Curve ℝ := ⟨[[0, 0], [1, 1], [2, 8], [4, 64]], 2, some [0, 1, 2, 4], .float⟩

theorem exCubic_WF : WF exCubic := ⟨by simp [exCubic], by simp [exCubic], by simp [exCubic], by intro r _ x _; rfl⟩

/-- With not-a-knot the points of a cubic parabola give the cubic parabola; with natural boundary conditions this cannot be. -/
example : ∃ lib, BoundaryOk lib ∧ ∃ F, EvaluatesTo exCubic
    (fun g => exCubic.interpolate (builtinInterp lib 0) g "cubic" ⟨[("bc_type", .str "not-a-knot")]⟩) (fun _ => True) F ∧
    ∀ x, coordOf 1 (F x) = x ^ 3 := by
  obtain ⟨lib, _, h⟩ := exists_boundaryOk
  obtain ⟨F, h1, _, h2⟩ := C124_not_a_knot exCubic_WF (by simp [exCubic, Curve.size]) (junk := 0) (by norm_num [exCubic, Curve.t])
    (by simp [exCubic]) h (builtin_names lib 0).2.2.2.2
  refine ⟨lib, h, F, h1, ?_⟩
  intro x
  rw [h2 (fun j => if j = 0 then Polynomial.X else Polynomial.X ^ 3) ?_ ?_ 1 x (by simp [exCubic])]
  · simp
  · intro i x j hx hj
    have hj' : j < 2 := hj
    match i with
    | 0 => simp [exCubic, Curve.t] at hx; subst hx; rcases (show j = 0 ∨ j = 1 by omega) with rfl | rfl <;> norm_num [exCubic, at2]
    | 1 => simp [exCubic, Curve.t] at hx; subst hx; rcases (show j = 0 ∨ j = 1 by omega) with rfl | rfl <;> norm_num [exCubic, at2]
    | 2 => simp [exCubic, Curve.t] at hx; subst hx; rcases (show j = 0 ∨ j = 1 by omega) with rfl | rfl <;> norm_num [exCubic, at2]
    | 3 => simp [exCubic, Curve.t] at hx; subst hx; rcases (show j = 0 ∨ j = 1 by omega) with rfl | rfl <;> norm_num [exCubic, at2]
    | (k + 4) => simp [exCubic, Curve.t] at hx
  · intro j _
    simp only [exCubic, Curve.size, List.length_cons, List.length_nil]
    split
    · simp
    · simp

/-- A closed curve. -/
def exLoop : Curve ℝ := ⟨[[0, 0], [1, 0], [1, 1], [0, 0]], 2, some [0, 1, 2, 4], .float⟩

example : ∃ lib, BoundaryOk lib ∧ ∃ F, EvaluatesTo exLoop
    (fun g => exLoop.interpolate (builtinInterp lib 0) g "cubic" ⟨[("bc_type", .str "periodic")]⟩) (fun _ => True) F ∧
    ∀ x, F (x + 4) = F x := by
  obtain ⟨lib, _, h⟩ := exists_boundaryOk
  obtain ⟨F, h1, h2, _⟩ := C124_periodic (c := exLoop) ⟨by simp [exLoop], by simp [exLoop], by simp [exLoop], by intro r _ x _; rfl⟩
    (by simp [exLoop, Curve.size]) (junk := 0) (by norm_num [exLoop, Curve.t]) (by simp [exLoop])
    (by intro j hj; have hj' : j < 2 := hj; rcases (show j = 0 ∨ j = 1 by omega) with rfl | rfl <;> simp [exLoop, at2, Curve.size]) h
    (builtin_names lib 0).2.2.2.2
  refine ⟨lib, h, F, h1, ?_⟩
  intro x
  have := h2 0 4 rfl rfl x
  rwa [sub_zero] at this

example : ∃ lib, BoundaryOk lib ∧ ∃ F, EvaluatesTo exCubic
    (fun g => exCubic.interpolate (builtinInterp lib 0) g "cubic" ⟨[("bc_type", .str "clamped")]⟩) (fun _ => True) F := by
  obtain ⟨lib, _, h⟩ := exists_boundaryOk
  obtain ⟨F, h1, _⟩ := C124_clamped exCubic_WF (by simp [exCubic, Curve.size]) (junk := 0) (by norm_num [exCubic, Curve.t])
    (by simp [exCubic]) h (builtin_names lib 0).2.2.2.2
  exact ⟨lib, h, F, h1⟩

end Verif.Props
