import Verif.Lemmas.Csaps
import Verif.Lemmas.Bending
import Verif.Props.SplineBc
import Verif.Spec.Smoothing

/-!
The smoothing spline of csaps is a natural cubic spline through its values at the knots, and the smallest cost.
-/
namespace Verif.Props

open Verif Verif.Np Verif.Model Verif.Spec Set

section
variable (n : Nat) (p : ℝ) (x w y : Nat → ℝ)

/-- Slopes of the smoothing spline at the knots. -/
noncomputable def csapsSlope (i : Nat) : ℝ :=
  if i + 1 < n then (csapsY n p x w y (i + 1) - csapsY n p x w y i) / (x (i + 1) - x i) -
    (x (i + 1) - x i) * (2 * (p * csapsU n p x w y i) + p * csapsU n p x w y (i + 1))
  else (csapsY n p x w y i - csapsY n p x w y (i - 1)) / (x i - x (i - 1)) +
    (x i - x (i - 1)) * (p * csapsU n p x w y (i - 1) + 2 * (p * csapsU n p x w y i))
end

section
variable {n : Nat} {p : ℝ} {x w : Nat → ℝ} (hn : 2 ≤ n) (hx : ∀ i, i + 1 < n → x i < x (i + 1)) (hw : ∀ i, i < n → 0 < w i)
  (hp0 : 0 ≤ p) (hp1 : p ≤ 1) (y : Nat → ℝ)

theorem csapsSlope_left {i : Nat} (hi : i + 1 < n) : csapsSlope n p x w y i = (csapsY n p x w y (i + 1) - csapsY n p x w y i) / (x (i + 1) - x i) -
    (x (i + 1) - x i) * (2 * (p * csapsU n p x w y i) + p * csapsU n p x w y (i + 1)) := by
  unfold csapsSlope
  rw [if_pos hi]

include hx hw hp0 hp1 in
theorem csapsSlope_right {i : Nat} (hi : i + 1 < n) : csapsSlope n p x w y (i + 1) =
    (csapsY n p x w y (i + 1) - csapsY n p x w y i) / (x (i + 1) - x i) +
      (x (i + 1) - x i) * (p * csapsU n p x w y i + 2 * (p * csapsU n p x w y (i + 1))) := by
  by_cases h : i + 2 < n
  · rw [csapsSlope_left y h]
    have := csapsY_jump (by omega) hx hw hp0 hp1 y h
    unfold slopeJump rowR at this
    linear_combination this
  · unfold csapsSlope
    rw [if_neg (by omega)]
    rfl

include hx hw hp0 hp1 in
/-- A piece of the spline as a cubic with given values and slopes. -/
theorem csapsPiece_fin {i : Nat} (hi : i + 1 < n) (s : ℝ) : csapsPiece n p x w y i (.fin (s - x i)) =
    .fin (hermR (x i) (x (i + 1)) (csapsY n p x w y i) (csapsY n p x w y (i + 1)) (csapsSlope n p x w y i) (csapsSlope n p x w y (i + 1)) s) := by
  have h := hx i hi
  have hne : x (i + 1) - x i ≠ 0 := by linarith
  rw [csapsSlope_left y hi, csapsSlope_right hx hw hp0 hp1 y hi]
  unfold csapsPiece hermR
  simp only [Val.mul, Val.add]
  congr 1
  field_simp
  ring

include hn hx hw hp0 hp1 in
/-- The slopes solve the system of natural splines. -/
theorem csaps_natural : NaturalSystem n x (csapsY n p x w y) (csapsSlope n p x w y) := by
  have e1 : n - 2 + 1 = n - 1 := by omega
  constructor
  · have h := hx 0 (by omega)
    have hne : x 1 - x 0 ≠ 0 := by linarith
    have a := csapsSlope_left (p := p) (x := x) (w := w) y (show 0 + 1 < n by omega)
    have b := csapsSlope_right hx hw hp0 hp1 y (show 0 + 1 < n by omega)
    rw [csapsU_zero] at a b
    simp only [Nat.zero_add] at a b
    rw [a, b]
    field_simp
    ring
  · have h := hx (n - 2) (by omega)
    have a := csapsSlope_left (p := p) (x := x) (w := w) y (show n - 2 + 1 < n by omega)
    have b := csapsSlope_right hx hw hp0 hp1 y (show n - 2 + 1 < n by omega)
    rw [e1] at a b h
    rw [csapsU_last y (le_refl (n - 1))] at a b
    have hne : x (n - 1) - x (n - 2) ≠ 0 := by linarith
    rw [a, b]
    field_simp
    ring
  · intro k hk
    have l1 := hx k (by omega)
    have l2 := hx (k + 1) hk
    have n1 : x (k + 1) - x k ≠ 0 := by linarith
    have n2 : x (k + 2) - x (k + 1) ≠ 0 := by linarith
    have a := csapsSlope_left (p := p) (x := x) (w := w) y (show k + 1 < n by omega)
    have b := csapsSlope_right hx hw hp0 hp1 y (show k + 1 < n by omega)
    have b' := csapsSlope_left (p := p) (x := x) (w := w) y hk
    have d := csapsSlope_right hx hw hp0 hp1 y hk
    have e : ((x (k + 1) - x k) + (x (k + 2) - x (k + 1))) * csapsSlope n p x w y (k + 1) =
        (x (k + 2) - x (k + 1)) * ((csapsY n p x w y (k + 1) - csapsY n p x w y k) / (x (k + 1) - x k) +
          (x (k + 1) - x k) * (p * csapsU n p x w y k + 2 * (p * csapsU n p x w y (k + 1)))) +
        (x (k + 1) - x k) * ((csapsY n p x w y (k + 2) - csapsY n p x w y (k + 1)) / (x (k + 2) - x (k + 1)) -
          (x (k + 2) - x (k + 1)) * (2 * (p * csapsU n p x w y (k + 1)) + p * csapsU n p x w y (k + 2))) := by
      linear_combination (x (k + 2) - x (k + 1)) * b + (x (k + 1) - x k) * b'
    linear_combination (x (k + 2) - x (k + 1)) * a + 2 * e + (x (k + 1) - x k) * d

include hx hw hp0 hp1 in
/-- The second derivative at the knots. -/
theorem csaps_second {i : Nat} (hi : i + 1 < n) :
    (hermPoly (x i) (x (i + 1)) (csapsY n p x w y i) (csapsY n p x w y (i + 1)) (csapsSlope n p x w y i)
      (csapsSlope n p x w y (i + 1))).derivative.derivative.eval (x i) = 6 * p * csapsU n p x w y i ∧
    (hermPoly (x i) (x (i + 1)) (csapsY n p x w y i) (csapsY n p x w y (i + 1)) (csapsSlope n p x w y i)
      (csapsSlope n p x w y (i + 1))).derivative.derivative.eval (x (i + 1)) = 6 * p * csapsU n p x w y (i + 1) := by
  have h := hx i hi
  have hne : x (i + 1) - x i ≠ 0 := by linarith
  rw [hermPoly_deriv2_left h, hermPoly_deriv2_right h, csapsSlope_left y hi, csapsSlope_right hx hw hp0 hp1 y hi]
  constructor
  · field_simp
    ring
  · field_simp
    ring

end

/-! ## Pieces -/

/-- Every solution of the inner equations gives a twice continuously differentiable curve of cubic pieces. -/
theorem ppoly_pieces {q : PPoly} (hp : q.xs.Pairwise (· < ·)) {j : Nat} (hj : j < q.y.k)
    (hin : InnerEqs q.xs.length (knot q.xs) (fun i => q.y.v i j) (fun i => q.d.v i j)) :
    CubicOn q.xs (fun i => q.y.v i j) (fun x => coordOf j (q.row x)) (bcPiece q j) := by
  have xlt : ∀ i, i + 1 < q.xs.length → knot q.xs i < knot q.xs (i + 1) := by
    intro i hi; exact knot_lt hp (by omega) hi
  have hmem : ∀ {i v}, q.xs[i]? = some v → i < q.xs.length ∧ v = knot q.xs i := by
    intro i v h
    exact ⟨(List.getElem?_eq_some_iff.1 h).1, (knot_eq h).symm⟩
  refine ⟨fun i => hermPoly_degree _ _ _ _ _ _, ?_, ?_, ?_, ?_, ?_⟩
  · intro i u v hu hv z h1 h2
    obtain ⟨hi, rfl⟩ := hmem hu
    obtain ⟨hi1, rfl⟩ := hmem hv
    unfold coordOf
    rw [q.row_getD hj, PPoly.coord_on hp (i := i) hi1 j (.inr h1) (.inr h2)]
    unfold bcPiece
    rw [hermPoly_eval]; rfl
  · intro i u hu hi
    obtain ⟨_, rfl⟩ := hmem hu
    unfold bcPiece
    rw [hermPoly_eval, hermR_left]
  · intro i v hv
    obtain ⟨hi1, rfl⟩ := hmem hv
    unfold bcPiece
    rw [hermPoly_eval, hermR_right (xlt i hi1)]
  · intro i v hv hi2
    obtain ⟨hi1, rfl⟩ := hmem hv
    unfold bcPiece
    rw [hermPoly_deriv, hermPoly_deriv, hermD_left, hermD_right (xlt i hi1)]
  · intro i v hv hi2
    obtain ⟨hi1, rfl⟩ := hmem hv
    have l1 := xlt i hi1
    have l2 := xlt (i + 1) (by omega)
    unfold bcPiece
    rw [hermPoly_deriv2_right l1, hermPoly_deriv2_left l2]
    have := hin i (by omega)
    have n1 : knot q.xs (i + 1) - knot q.xs i ≠ 0 := by linarith
    have n2 : knot q.xs (i + 1 + 1) - knot q.xs (i + 1) ≠ 0 := by linarith
    rw [div_eq_div_iff n1 n2]
    linarith

/-! ## Cost -/

/-- Integration by parts over one piece. -/
theorem bend_piece_values {u v : ℝ} (huv : u < v) {P : Polynomial ℝ} (hP : P.natDegree ≤ 3) {e e1 e2 : ℝ → ℝ} (he : TwiceOn u v e e1 e2) :
    ∫ x in u..v, P.derivative.derivative.eval x * e2 x = P.derivative.derivative.eval v * e1 v - P.derivative.derivative.eval u * e1 u -
      (P.derivative.derivative.eval v - P.derivative.derivative.eval u) / (v - u) * (e v - e u) := by
  obtain ⟨P2, h2⟩ : ∃ P2, P2 = P.derivative.derivative := ⟨_, rfl⟩
  have hdeg : P2.natDegree ≤ 1 := by
    have a := Polynomial.natDegree_derivative_le P
    have b := Polynomial.natDegree_derivative_le P.derivative
    rw [← h2] at b
    omega
  rw [← h2]
  have hlin : ∀ z, P2.eval z = P2.coeff 0 + P2.coeff 1 * z := by
    intro z
    rw [Polynomial.eval_eq_sum_range' (show P2.natDegree < 2 by omega)]
    simp [Finset.sum_range_succ]
  have hc : ContinuousOn (fun x => P2.eval x * e2 x) (Icc u v) := (Polynomial.continuous P2).continuousOn.mul he.2.2
  have hder : ∀ x ∈ Icc u v, HasDerivWithinAt (fun x => P2.eval x * e1 x - P2.coeff 1 * e x) (P2.eval x * e2 x) (Icc u v) x := by
    intro x hx
    have d2 : HasDerivAt (fun x => P2.eval x) (P2.coeff 1) x := by
      have h1 := ((hasDerivAt_id x).const_mul (P2.coeff 1)).const_add (P2.coeff 0)
      simp only [mul_one] at h1
      refine h1.congr_of_eventuallyEq ?_
      filter_upwards with z
      exact hlin z
    have a := (d2.hasDerivWithinAt (s := Icc u v)).mul (he.2.1 x hx)
    have b := (he.1 x hx).const_mul (P2.coeff 1)
    refine (a.sub b).congr_deriv ?_
    ring
  have := intervalIntegral.integral_eq_sub_of_hasDerivAt_of_le (f := fun x => P2.eval x * e1 x - P2.coeff 1 * e x)
    (f' := fun x => P2.eval x * e2 x) huv.le (fun x hx => (hder x hx).continuousWithinAt)
    (fun x hx => (hder x (Ioo_subset_Icc_self hx)).hasDerivAt (Icc_mem_nhds hx.1 hx.2))
    (by apply ContinuousOn.intervalIntegrable; rwa [uIcc_of_le huv.le])
  rw [this]
  have hs : (P2.eval v - P2.eval u) / (v - u) = P2.coeff 1 := by
    rw [hlin v, hlin u]
    have : v - u ≠ 0 := by linarith
    field_simp
    ring
  rw [hs]
  ring

section
variable {t : List ℝ} {y : Nat → ℝ} {f : ℝ → ℝ} {P : Nat → Polynomial ℝ}

/-- The second derivative of a spline against any other one: only the values at the knots count. -/
theorem bend_values (ht : t.Pairwise (· < ·)) (hl : 2 ≤ t.length) (h : CubicOn t y f P) {M : Nat → ℝ}
    (hM : ∀ i, i + 1 < t.length → (P i).derivative.derivative.eval (knot t i) = M i ∧ (P i).derivative.derivative.eval (knot t (i + 1)) = M (i + 1))
    (h0 : M 0 = 0) (h1 : M (t.length - 1) = 0) {e e1 e2 : ℝ → ℝ}
    (he : TwiceOn (knot t 0) (knot t (t.length - 1)) e e1 e2) :
    ∫ x in (knot t 0)..(knot t (t.length - 1)), splineD2 t P x * e2 x =
      -∑ i ∈ Finset.range (t.length - 1), (M (i + 1) - M i) / (knot t (i + 1) - knot t i) * (e (knot t (i + 1)) - e (knot t i)) := by
  have hf := cubicOn_twice ht hl h
  have hlt : ∀ i, i + 1 < t.length → knot t i < knot t (i + 1) := fun i hi => knot_lt ht (by omega) (by omega)
  have hsub : ∀ i, i + 1 < t.length → Icc (knot t i) (knot t (i + 1)) ⊆ Icc (knot t 0) (knot t (t.length - 1)) := by
    intro i hi
    exact Icc_subset_Icc (knot_le ht (by omega) (by omega)) (knot_le ht (by omega) (by omega))
  have hz : ∑ i ∈ Finset.range (t.length - 1), (M (i + 1) * e1 (knot t (i + 1)) - M i * e1 (knot t i)) = 0 := by
    rw [Finset.sum_range_sub (fun i => M i * e1 (knot t i)), h0, h1]
    ring
  rw [← intervalIntegral.sum_integral_adjacent_intervals (a := knot t) (n := t.length - 1), ← sub_zero (∑ k ∈ Finset.range (t.length - 1), _), ← hz,
    ← Finset.sum_sub_distrib, ← Finset.sum_neg_distrib]
  · apply Finset.sum_congr rfl
    intro i hi
    have hi' : i + 1 < t.length := by have := Finset.mem_range.1 hi; omega
    have hmono := he.mono (knot_le ht (Nat.zero_le i) (by omega)) (knot_le ht (show i + 1 ≤ t.length - 1 by omega) (by omega))
    have hint : ∫ x in (knot t i)..(knot t (i + 1)), splineD2 t P x * e2 x = ∫ x in (knot t i)..(knot t (i + 1)), (P i).derivative.derivative.eval x * e2 x := by
      apply intervalIntegral.integral_congr
      intro x hx
      rw [uIcc_of_le (hlt i hi').le] at hx
      simp only
      rw [(splineD_on ht h hi' hx).2]
    rw [hint, bend_piece_values (hlt i hi') (h.degree i) hmono, (hM i hi').1, (hM i hi').2]
    ring
  · intro k hk
    apply ContinuousOn.intervalIntegrable
    rw [uIcc_of_le (hlt k (by omega)).le]
    exact (hf.2.2.mul he.2.2).mono (hsub k (by omega))

/-- Summation by parts. -/
theorem abel_sum (e A : Nat → ℝ) (m : Nat) : ∑ i ∈ Finset.range (m + 1), e i * (A (i + 1) - A i) =
    e m * A (m + 1) - e 0 * A 0 - ∑ i ∈ Finset.range m, A (i + 1) * (e (i + 1) - e i) := by
  induction m with
  | zero => simp; ring
  | succ m ih =>
    rw [Finset.sum_range_succ, ih, Finset.sum_range_succ]
    ring

/-- The residuals of the smoothing spline against the values of a function. -/
theorem csaps_parts {n : Nat} (hn : 2 ≤ n) (x U e : Nat → ℝ) : ∑ i ∈ Finset.range n, e i * (csapsD1 n x U (i + 1) - csapsD1 n x U i) =
    -∑ i ∈ Finset.range (n - 1), (U (i + 1) - U i) / (x (i + 1) - x i) * (e (i + 1) - e i) := by
  obtain ⟨m, rfl⟩ : ∃ m, n = m + 1 := ⟨n - 1, by omega⟩
  have z0 : csapsD1 (m + 1) x U 0 = 0 := by simp [csapsD1]
  have z1 : csapsD1 (m + 1) x U (m + 1) = 0 := by simp [csapsD1]
  rw [abel_sum, z0, z1]
  simp only [mul_zero, sub_zero, zero_sub, Nat.add_sub_cancel]
  congr 1
  refine Finset.sum_congr rfl fun i hi => ?_
  have := Finset.mem_range.1 hi
  unfold csapsD1
  rw [if_neg (by omega), Nat.add_sub_cancel]

/-- The cost of any function is the cost of the smoothing spline and the cost of the difference. -/
theorem cost_split (ht : t.Pairwise (· < ·)) (hl : 2 ≤ t.length) {p : ℝ} {w Y U : Nat → ℝ} (h : CubicOn t Y f P)
    (hM : ∀ i, i + 1 < t.length → (P i).derivative.derivative.eval (knot t i) = 6 * p * U i ∧
      (P i).derivative.derivative.eval (knot t (i + 1)) = 6 * p * U (i + 1))
    (h0 : U 0 = 0) (h1 : U (t.length - 1) = 0)
    (hY : ∀ i, i < t.length → w i * (y i - Y i) = 6 * (1 - p) * (csapsD1 t.length (knot t) U (i + 1) - csapsD1 t.length (knot t) U i))
    {g g1 g2 : ℝ → ℝ} (hg : TwiceOn (knot t 0) (knot t (t.length - 1)) g g1 g2) :
    smoothCost p t w y (knot t 0) (knot t (t.length - 1)) g g2 = smoothCost p t w y (knot t 0) (knot t (t.length - 1)) f (splineD2 t P) +
      (p * ∑ i ∈ Finset.range t.length, w i * (g (knot t i) - f (knot t i)) ^ 2 +
        (1 - p) * ∫ x in (knot t 0)..(knot t (t.length - 1)), (g2 x - splineD2 t P x) ^ 2) := by
  have hf := cubicOn_twice ht hl h
  have hab : knot t 0 < knot t (t.length - 1) := knot_lt ht (by omega) (by omega)
  have he := hg.sub hf
  have ii : ∀ {φ : ℝ → ℝ}, ContinuousOn φ (Icc (knot t 0) (knot t (t.length - 1))) →
      IntervalIntegrable φ MeasureTheory.volume (knot t 0) (knot t (t.length - 1)) := by
    intro φ hφ
    apply ContinuousOn.intervalIntegrable
    rwa [uIcc_of_le hab.le]
  have hcross := bend_values ht hl h (M := fun i => 6 * p * U i) hM (by simp [h0]) (by simp [h1]) he
  have hcross' : ∫ x in (knot t 0)..(knot t (t.length - 1)), splineD2 t P x * (g2 x - splineD2 t P x) =
      6 * p * ∑ i ∈ Finset.range t.length, (g (knot t i) - f (knot t i)) *
        (csapsD1 t.length (knot t) U (i + 1) - csapsD1 t.length (knot t) U i) := by
    rw [hcross, csaps_parts hl (knot t) U (fun i => g (knot t i) - f (knot t i)), mul_neg, Finset.mul_sum]
    congr 1
    refine Finset.sum_congr rfl fun i _ => ?_
    ring
  have hbend : bending (knot t 0) (knot t (t.length - 1)) g2 = bending (knot t 0) (knot t (t.length - 1)) (splineD2 t P) +
      (∫ x in (knot t 0)..(knot t (t.length - 1)), (g2 x - splineD2 t P x) ^ 2) +
      2 * (6 * p * ∑ i ∈ Finset.range t.length, (g (knot t i) - f (knot t i)) *
        (csapsD1 t.length (knot t) U (i + 1) - csapsD1 t.length (knot t) U i)) := by
    unfold bending
    have e : (fun x => g2 x ^ 2) = fun x => splineD2 t P x ^ 2 + (g2 x - splineD2 t P x) ^ 2 +
        2 * (splineD2 t P x * (g2 x - splineD2 t P x)) := by
      funext x; ring
    rw [e, intervalIntegral.integral_add, intervalIntegral.integral_add, intervalIntegral.integral_const_mul, hcross']
    · exact ii (hf.2.2.pow 2)
    · exact ii (he.2.2.pow 2)
    · exact ii ((hf.2.2.pow 2).add (he.2.2.pow 2))
    · exact ii ((hf.2.2.mul he.2.2).const_mul 2)
  have hmis : misfit t w y g = misfit t w y f + ∑ i ∈ Finset.range t.length, w i * (g (knot t i) - f (knot t i)) ^ 2 -
      2 * (6 * (1 - p) * ∑ i ∈ Finset.range t.length, (g (knot t i) - f (knot t i)) *
        (csapsD1 t.length (knot t) U (i + 1) - csapsD1 t.length (knot t) U i)) := by
    unfold misfit
    rw [Finset.mul_sum, Finset.mul_sum, ← Finset.sum_add_distrib, ← Finset.sum_sub_distrib]
    refine Finset.sum_congr rfl fun i hi => ?_
    have hi' := Finset.mem_range.1 hi
    have a := hY i hi'
    have b := cubicOn_values ht hl h hi'
    show w i * (y i - g (knot t i)) ^ 2 = w i * (y i - f (knot t i)) ^ 2 + _ - _
    rw [b]
    linear_combination (-2 * (g (knot t i) - Y i)) * a
  unfold smoothCost
  rw [hbend, hmis]
  ring

end

end Verif.Props
