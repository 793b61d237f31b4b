import Verif.Lemmas.SplineEnds
import Verif.Lemmas.AffineSpline
import Verif.Lemmas.RescaleSpline
import Verif.Lemmas.ReverseSpline
import Verif.Spec.SplineSym

/-!
The linear systems of cubic splines under affine maps of the values and affine maps of the knots.
-/
namespace Verif.Model

open Verif Verif.Np Verif.Spec

/-! ## Combinations of the values -/

section
variable {n : Nat} {x y z d e : Nat → ℝ}

theorem innerEqs_add (h : InnerEqs n x y d) (h' : InnerEqs n x z e) (μ : ℝ) :
    InnerEqs n x (fun i => y i + μ * z i) (fun i => d i + μ * e i) := by
  intro k hk
  have a := h k hk
  have b := h' k hk
  simp only [div_eq_mul_inv] at a b ⊢
  linear_combination a + μ * b

theorem innerEqs_const (w : ℝ) : InnerEqs n x (fun _ => w) (fun _ => 0) := by
  intro k hk
  simp

theorem knotSystem_add (h : KnotSystem n x y d) (h' : KnotSystem n x z e) (μ : ℝ) :
    KnotSystem n x (fun i => y i + μ * z i) (fun i => d i + μ * e i) where
  two hn := by
    obtain ⟨a, b⟩ := h.two hn
    obtain ⟨a', b'⟩ := h'.two hn
    simp only [div_eq_mul_inv] at a b a' b' ⊢
    exact ⟨by linear_combination a + μ * a', by linear_combination b + μ * b'⟩
  three hn := by
    obtain ⟨a, b⟩ := h.three hn
    obtain ⟨a', b'⟩ := h'.three hn
    simp only [div_eq_mul_inv] at a b a' b' ⊢
    exact ⟨by linear_combination a + μ * a', by linear_combination b + μ * b'⟩
  inner := innerEqs_add h.inner h'.inner μ
  first hn := by
    have a := h.first hn
    have b := h'.first hn
    simp only [div_eq_mul_inv] at a b ⊢
    linear_combination a + μ * b
  last hn := by
    have a := h.last hn
    have b := h'.last hn
    simp only [div_eq_mul_inv] at a b ⊢
    linear_combination a + μ * b

theorem knotSystem_const (w : ℝ) : KnotSystem n x (fun _ => w) (fun _ => 0) :=
  ⟨by simp, by simp, innerEqs_const w, by simp, by simp⟩

theorem periodicSystem_add (h : PeriodicSystem n x y d) (h' : PeriodicSystem n x z e) (μ : ℝ) :
    PeriodicSystem n x (fun i => y i + μ * z i) (fun i => d i + μ * e i) where
  close := by rw [h.close, h'.close]
  inner := innerEqs_add h.inner h'.inner μ
  wrap := by
    have a := h.wrap
    have b := h'.wrap
    simp only [div_eq_mul_inv] at a b ⊢
    linear_combination a + μ * b

theorem periodicSystem_const (w : ℝ) : PeriodicSystem n x (fun _ => w) (fun _ => 0) :=
  ⟨rfl, innerEqs_const w, by simp⟩

end

/-- The combination of the values of an end condition. -/
noncomputable def endComb (M : Nat → ℝ) (N : Nat) : EndCond → EndCond
  | .slope v => .slope [∑ k ∈ Finset.range N, M k * v.getD k 0]
  | .bend v => .bend [∑ k ∈ Finset.range N, M k * v.getD k 0]
  | .knot => .knot

theorem endComb_knot {M : Nat → ℝ} {N : Nat} {a : EndCond} : endComb M N a = .knot ↔ a = .knot := by
  cases a <;> simp [endComb]

theorem endsSystem_comb {n : Nat} {x : Nat → ℝ} {N : Nat} {y d : Nat → Nat → ℝ} {a b : EndCond}
    (h : ∀ k, k < N → EndsSystem n x (fun i => y i k) k a b (fun i => d i k)) (M : Nat → ℝ) (w : ℝ) :
    EndsSystem n x (fun i => ∑ k ∈ Finset.range N, M k * y i k + w) 0 (endComb M N a) (endComb M N b)
      (fun i => ∑ k ∈ Finset.range N, M k * d i k) := by
  induction N with
  | zero =>
    simp only [Finset.range_zero, Finset.sum_empty, zero_add]
    refine ⟨fun _ _ => knotSystem_const w, innerEqs_const w, fun _ => ?_, fun _ => ?_⟩
    · cases a <;> simp [endComb, startRow, startRhs]
    · cases b <;> simp [endComb, stopRow, stopRhs]
  | succ N ih =>
    have h0 := ih (fun k hk => h k (by omega))
    have hN := h N (by omega)
    have e1 : (fun i => ∑ k ∈ Finset.range (N + 1), M k * d i k) = fun i => (∑ k ∈ Finset.range N, M k * d i k) + M N * d i N := by
      funext i; rw [Finset.sum_range_succ]
    have e2 : (fun i => ∑ k ∈ Finset.range (N + 1), M k * y i k + w) = fun i => (∑ k ∈ Finset.range N, M k * y i k + w) + M N * y i N := by
      funext i; rw [Finset.sum_range_succ]; ring
    rw [e1, e2]
    have ne : ∀ K, endComb M K a ≠ .knot ∨ endComb M K b ≠ .knot ↔ a ≠ .knot ∨ b ≠ .knot := by
      intro K; simp only [ne_eq, endComb_knot]
    refine ⟨fun g1 g2 => ?_, innerEqs_add h0.inner hN.inner _, fun g => ?_, fun g => ?_⟩
    · rw [endComb_knot] at g1 g2
      exact knotSystem_add (h0.knots (endComb_knot.2 g1) (endComb_knot.2 g2)) (hN.knots g1 g2) _
    · have r0 := h0.start ((ne N).2 ((ne _).1 g))
      have r1 := hN.start ((ne _).1 g)
      cases a with
      | slope v => simp [endComb, startRow, startRhs, Finset.sum_range_succ] at r0 r1 ⊢; rw [r0, r1]
      | bend v => simp [endComb, startRow, startRhs, Finset.sum_range_succ] at r0 r1 ⊢; linear_combination r0 + M N * r1
      | knot =>
        simp only [endComb, startRow, startRhs] at r0 r1 ⊢
        split_ifs at * <;> simp only [div_eq_mul_inv] at r0 r1 ⊢ <;> linear_combination r0 + M N * r1
    · have r0 := h0.stop ((ne N).2 ((ne _).1 g))
      have r1 := hN.stop ((ne _).1 g)
      cases b with
      | slope v => simp [endComb, stopRow, stopRhs, Finset.sum_range_succ] at r0 r1 ⊢; rw [r0, r1]
      | bend v => simp [endComb, stopRow, stopRhs, Finset.sum_range_succ] at r0 r1 ⊢; linear_combination r0 + M N * r1
      | knot =>
        simp only [endComb, stopRow, stopRhs] at r0 r1 ⊢
        split_ifs at * <;> simp only [div_eq_mul_inv] at r0 r1 ⊢ <;> linear_combination r0 + M N * r1

theorem periodicSystem_comb {n : Nat} {x : Nat → ℝ} {N : Nat} {y d : Nat → Nat → ℝ}
    (h : ∀ k, k < N → PeriodicSystem n x (fun i => y i k) (fun i => d i k)) (M : Nat → ℝ) (w : ℝ) :
    PeriodicSystem n x (fun i => ∑ k ∈ Finset.range N, M k * y i k + w) (fun i => ∑ k ∈ Finset.range N, M k * d i k) := by
  induction N with
  | zero => simpa only [Finset.range_zero, Finset.sum_empty, zero_add] using periodicSystem_const w
  | succ N ih =>
    have h0 := ih (fun k hk => h k (by omega))
    have e1 : (fun i => ∑ k ∈ Finset.range (N + 1), M k * d i k) = fun i => (∑ k ∈ Finset.range N, M k * d i k) + M N * d i N := by
      funext i; rw [Finset.sum_range_succ]
    have e2 : (fun i => ∑ k ∈ Finset.range (N + 1), M k * y i k + w) = fun i => (∑ k ∈ Finset.range N, M k * y i k + w) + M N * y i N := by
      funext i; rw [Finset.sum_range_succ]; ring
    rw [e1, e2]
    exact periodicSystem_add h0 (h N (by omega)) _

/-! ## Affine maps of the knots -/

/-- The values of `b` (at place `j`) are those of `a` (at place `i`), slopes multiplied by `f` and second derivatives by `g`. -/
def EndRel (f g : ℝ) (i j : Nat) : EndCond → EndCond → Prop
  | .slope v, .slope v' => v'.getD j 0 = f * v.getD i 0
  | .bend v, .bend v' => v'.getD j 0 = g * v.getD i 0
  | .knot, .knot => True
  | _, _ => False

theorem EndRel.knot {f g : ℝ} {i j : Nat} {a b : EndCond} (h : EndRel f g i j a b) : a = .knot ↔ b = .knot := by
  cases a <;> cases b <;> simp_all [EndRel]

section
variable {n : Nat} (hn : 2 ≤ n) {x x' : Nat → ℝ} (hlt : ∀ i, i + 1 < n → x i < x (i + 1)) {a b : ℝ} (ha : 0 < a)
  (hx : ∀ i, i < n → x' i = a * x i + b) {y d : Nat → ℝ}
include hlt ha hx

theorem innerEqs_units (h : InnerEqs n x y d) : InnerEqs n x' y (fun i => a⁻¹ * d i) := by
  intro k hk
  have e := h k hk
  have l1 := hlt k (by omega)
  have l2 := hlt (k + 1) (by omega)
  rw [show k + 1 + 1 = k + 2 by omega] at l2
  have n1 : x (k + 1) - x k ≠ 0 := by linarith
  have n2 : x (k + 2) - x (k + 1) ≠ 0 := by linarith
  have t1 : x' (k + 1) - x' k = a * (x (k + 1) - x k) := by rw [hx _ (by omega), hx _ (by omega)]; ring
  have t2 : x' (k + 2) - x' (k + 1) = a * (x (k + 2) - x (k + 1)) := by rw [hx _ (by omega), hx _ (by omega)]; ring
  rw [t1, t2]
  field_simp
  field_simp at e
  linear_combination e

theorem knotSystem_units (hn : 2 ≤ n) (h : KnotSystem n x y d) : KnotSystem n x' y (fun i => a⁻¹ * d i) := by
  have T : ∀ i j, i < n → j < n → x' i - x' j = a * (x i - x j) := by
    intro i j hi hj; rw [hx i hi, hx j hj]; ring
  refine ⟨?_, ?_, innerEqs_units hlt ha hx h.inner, ?_, ?_⟩
  · intro h2
    obtain ⟨e1, e2⟩ := h.two h2
    have l := hlt 0 (by omega)
    simp only [zero_add] at l
    have nz : x 1 - x 0 ≠ 0 := by linarith
    rw [T 1 0 (by omega) (by omega), e1, e2]
    constructor <;> field_simp
  · intro h3
    obtain ⟨e1, e2⟩ := h.three h3
    have l := hlt 0 (by omega)
    have l' := hlt 1 (by omega)
    simp only [zero_add, Nat.reduceAdd] at l l'
    have nz : x 1 - x 0 ≠ 0 := by linarith
    have nz' : x 2 - x 1 ≠ 0 := by linarith
    rw [T 1 0 (by omega) (by omega), T 2 1 (by omega) (by omega), ← mul_add, ← mul_add, e1, e2]
    constructor <;> field_simp
  · intro h4
    have e := h.first h4
    have l := hlt 0 (by omega)
    have l' := hlt 1 (by omega)
    simp only [zero_add, Nat.reduceAdd] at l l'
    have nz : x 1 - x 0 ≠ 0 := by linarith
    have nz' : x 2 - x 1 ≠ 0 := by linarith
    have nz'' : x 2 - x 0 ≠ 0 := by linarith
    rw [T 1 0 (by omega) (by omega), T 2 1 (by omega) (by omega), T 2 0 (by omega) (by omega)]
    field_simp
    field_simp at e
    linear_combination e
  · intro h4
    have e := h.last h4
    have l := hlt (n - 2) (by omega)
    have l' := hlt (n - 3) (by omega)
    rw [show n - 2 + 1 = n - 1 by omega] at l
    rw [show n - 3 + 1 = n - 2 by omega] at l'
    have nz : x (n - 1) - x (n - 2) ≠ 0 := by linarith
    have nz' : x (n - 2) - x (n - 3) ≠ 0 := by linarith
    have nz'' : x (n - 1) - x (n - 3) ≠ 0 := by linarith
    rw [T (n - 1) (n - 2) (by omega) (by omega), T (n - 2) (n - 3) (by omega) (by omega), T (n - 1) (n - 3) (by omega) (by omega)]
    field_simp
    field_simp at e
    linear_combination e

theorem periodicSystem_units (hn : 2 ≤ n) (h : PeriodicSystem n x y d) : PeriodicSystem n x' y (fun i => a⁻¹ * d i) := by
  have T : ∀ i j, i < n → j < n → x' i - x' j = a * (x i - x j) := by
    intro i j hi hj; rw [hx i hi, hx j hj]; ring
  refine ⟨by rw [h.close], innerEqs_units hlt ha hx h.inner, ?_⟩
  have e := h.wrap
  have l := hlt 0 (by omega)
  have l' := hlt (n - 2) (by omega)
  rw [show n - 2 + 1 = n - 1 by omega] at l'
  simp only [zero_add] at l
  have nz : x 1 - x 0 ≠ 0 := by linarith
  have nz' : x (n - 1) - x (n - 2) ≠ 0 := by linarith
  rw [T 1 0 (by omega) (by omega), T (n - 1) (n - 2) (by omega) (by omega)]
  field_simp
  field_simp at e
  linear_combination e

theorem endsSystem_units (hn : 2 ≤ n) {i j : Nat} {s e s' e' : EndCond} (h : EndsSystem n x y i s e d) (h1 : EndRel a⁻¹ (a⁻¹ ^ 2) i j s s')
    (h2 : EndRel a⁻¹ (a⁻¹ ^ 2) i j e e') : EndsSystem n x' y j s' e' (fun i => a⁻¹ * d i) := by
  have T : ∀ i j, i < n → j < n → x' i - x' j = a * (x i - x j) := by
    intro i j hi hj; rw [hx i hi, hx j hj]; ring
  refine ⟨fun g1 g2 => knotSystem_units hlt ha hx hn (h.knots (h1.knot.2 g1) (h2.knot.2 g2)), innerEqs_units hlt ha hx h.inner,
    fun g => ?_, fun g => ?_⟩
  · have r := h.start (by rwa [ne_eq, ne_eq, h1.knot, h2.knot])
    have l := hlt 0 (by omega)
    simp only [zero_add] at l
    have nz : x 1 - x 0 ≠ 0 := by linarith
    cases s <;> cases s' <;> simp only [EndRel] at h1
    · simp only [startRow, startRhs] at r ⊢
      rw [h1, r]
    · simp only [startRow, startRhs] at r ⊢
      rw [h1, T 1 0 (by omega) (by omega)]
      field_simp
      linear_combination 2 * r
    · simp only [startRow, startRhs] at r ⊢
      split_ifs at * with n2
      · rw [T 1 0 (by omega) (by omega), r]
        field_simp
      · have l' := hlt 1 (by omega)
        simp only [Nat.reduceAdd] at l'
        have nz' : x 2 - x 1 ≠ 0 := by linarith
        have nz'' : x 2 - x 0 ≠ 0 := by linarith
        rw [T 1 0 (by omega) (by omega), T 2 1 (by omega) (by omega), T 2 0 (by omega) (by omega)]
        field_simp
        field_simp at r
        linear_combination r
  · have r := h.stop (by rwa [ne_eq, ne_eq, h1.knot, h2.knot])
    have l := hlt (n - 2) (by omega)
    rw [show n - 2 + 1 = n - 1 by omega] at l
    have nz : x (n - 1) - x (n - 2) ≠ 0 := by linarith
    cases e <;> cases e' <;> simp only [EndRel] at h2
    · simp only [stopRow, stopRhs] at r ⊢
      rw [h2, r]
    · simp only [stopRow, stopRhs] at r ⊢
      rw [h2, T (n - 1) (n - 2) (by omega) (by omega)]
      field_simp
      linear_combination 2 * r
    · simp only [stopRow, stopRhs] at r ⊢
      split_ifs at * with n2
      · rw [T (n - 1) (n - 2) (by omega) (by omega), r]
        field_simp
      · have l' := hlt (n - 3) (by omega)
        rw [show n - 3 + 1 = n - 2 by omega] at l'
        have nz' : x (n - 2) - x (n - 3) ≠ 0 := by linarith
        have nz'' : x (n - 1) - x (n - 3) ≠ 0 := by linarith
        rw [T (n - 1) (n - 2) (by omega) (by omega), T (n - 2) (n - 3) (by omega) (by omega), T (n - 1) (n - 3) (by omega) (by omega)]
        field_simp
        field_simp at r
        linear_combination r

end

/-! ## Backwards -/

section
variable {n : Nat} {x x' y y' d : Nat → ℝ} {L : ℝ} (hx : ∀ i, i < n → x' i = L - x (n - 1 - i)) (hy : ∀ i, i < n → y' i = y (n - 1 - i))
include hx hy

theorem innerEqs_back (h : InnerEqs n x y d) : InnerEqs n x' y' (fun i => - d (n - 1 - i)) := by
  intro k hk
  have e := h (n - 3 - k) (by omega)
  beta_reduce
  rw [hx k (by omega), hx (k + 1) (by omega), hx (k + 2) (by omega), hy k (by omega), hy (k + 1) (by omega), hy (k + 2) (by omega),
    show n - 1 - k = n - 3 - k + 2 by omega, show n - 1 - (k + 1) = n - 3 - k + 1 by omega, show n - 1 - (k + 2) = n - 3 - k by omega]
  generalize n - 3 - k = q at e ⊢
  rw [show L - x (q + 1) - (L - x (q + 2)) = x (q + 2) - x (q + 1) by ring, show L - x q - (L - x (q + 1)) = x (q + 1) - x q by ring]
  simp only [div_eq_mul_inv] at e ⊢
  linear_combination -e

theorem knotSystem_back (h : KnotSystem n x y d) : KnotSystem n x' y' (fun i => - d (n - 1 - i)) := by
  have T : ∀ i j, i < n → j < n → x' i - x' j = x (n - 1 - j) - x (n - 1 - i) := by
    intro i j hi hj; rw [hx i hi, hx j hj]; ring
  refine ⟨?_, ?_, innerEqs_back hx hy h.inner, ?_, ?_⟩
  · intro h2
    obtain ⟨e1, e2⟩ := h.two h2
    rw [T 1 0 (by omega) (by omega), hy 1 (by omega), hy 0 (by omega)]
    subst h2
    simp only [Nat.reduceSub] at *
    rw [e1, e2, ← neg_div]
    constructor <;> congr 1 <;> ring
  · intro h3
    obtain ⟨e1, e2⟩ := h.three h3
    rw [T 1 0 (by omega) (by omega), T 2 1 (by omega) (by omega), hy 1 (by omega), hy 0 (by omega), hy 2 (by omega)]
    subst h3
    simp only [Nat.reduceSub] at *
    simp only [div_eq_mul_inv] at e1 e2 ⊢
    constructor
    · linear_combination -e2
    · linear_combination -e1
  · intro h4
    have e := h.last h4
    rw [T 1 0 (by omega) (by omega), T 2 1 (by omega) (by omega), T 2 0 (by omega) (by omega), hy 1 (by omega), hy 0 (by omega), hy 2 (by omega),
      show n - 1 - 0 = n - 1 by omega, show n - 1 - 1 = n - 2 by omega, show n - 1 - 2 = n - 3 by omega]
    simp only [div_eq_mul_inv] at e ⊢
    linear_combination -e
  · intro h4
    have e := h.first h4
    rw [T (n - 1) (n - 2) (by omega) (by omega), T (n - 2) (n - 3) (by omega) (by omega), T (n - 1) (n - 3) (by omega) (by omega),
      hy (n - 1) (by omega), hy (n - 2) (by omega), hy (n - 3) (by omega),
      show n - 1 - (n - 1) = 0 by omega, show n - 1 - (n - 2) = 1 by omega, show n - 1 - (n - 3) = 2 by omega]
    simp only [div_eq_mul_inv] at e ⊢
    linear_combination -e

theorem periodicSystem_back (hn : 2 ≤ n) (h : PeriodicSystem n x y d) : PeriodicSystem n x' y' (fun i => - d (n - 1 - i)) := by
  have T : ∀ i j, i < n → j < n → x' i - x' j = x (n - 1 - j) - x (n - 1 - i) := by
    intro i j hi hj; rw [hx i hi, hx j hj]; ring
  refine ⟨?_, innerEqs_back hx hy h.inner, ?_⟩
  · rw [show n - 1 - (n - 1) = 0 by omega, Nat.sub_zero, h.close]
  · have e := h.wrap
    have c := h.close
    rw [T 1 0 (by omega) (by omega), T (n - 1) (n - 2) (by omega) (by omega), hy 1 (by omega), hy 0 (by omega), hy (n - 1) (by omega),
      hy (n - 2) (by omega), show n - 1 - 0 = n - 1 by omega, show n - 1 - 1 = n - 2 by omega, show n - 1 - (n - 1) = 0 by omega,
      show n - 1 - (n - 2) = 1 by omega, c]
    simp only [div_eq_mul_inv] at e ⊢
    linear_combination -e

theorem endsSystem_back (hn : 2 ≤ n) {i j : Nat} {s e s' e' : EndCond} (h : EndsSystem n x y i s e d) (h1 : EndRel (-1) 1 i j s s')
    (h2 : EndRel (-1) 1 i j e e') : EndsSystem n x' y' j e' s' (fun i => - d (n - 1 - i)) := by
  have T : ∀ i j, i < n → j < n → x' i - x' j = x (n - 1 - j) - x (n - 1 - i) := by
    intro i j hi hj; rw [hx i hi, hx j hj]; ring
  refine ⟨fun g1 g2 => knotSystem_back hx hy (h.knots (h1.knot.2 g2) (h2.knot.2 g1)), innerEqs_back hx hy h.inner, fun g => ?_, fun g => ?_⟩
  · have r := h.stop (by rw [ne_eq, ne_eq, h1.knot, h2.knot]; exact g.symm)
    cases e <;> cases e' <;> simp only [EndRel] at h2
    · simp only [startRow, startRhs, stopRow, stopRhs] at r ⊢
      rw [h2, Nat.sub_zero, r]; ring
    · simp only [startRow, startRhs, stopRow, stopRhs] at r ⊢
      rw [h2, T 1 0 (by omega) (by omega), hy 1 (by omega), hy 0 (by omega), show n - 1 - 0 = n - 1 by omega, show n - 1 - 1 = n - 2 by omega]
      linear_combination -r
    · simp only [startRow, startRhs, stopRow, stopRhs] at r ⊢
      split_ifs at * with n2
      · rw [T 1 0 (by omega) (by omega), hy 1 (by omega), hy 0 (by omega), show n - 1 - 0 = n - 1 by omega, show n - 1 - 1 = n - 2 by omega, r]
        simp only [div_eq_mul_inv]; ring
      · rw [T 1 0 (by omega) (by omega), T 2 1 (by omega) (by omega), T 2 0 (by omega) (by omega), hy 1 (by omega), hy 0 (by omega), hy 2 (by omega),
          show n - 1 - 0 = n - 1 by omega, show n - 1 - 1 = n - 2 by omega, show n - 1 - 2 = n - 3 by omega]
        simp only [div_eq_mul_inv] at r ⊢
        linear_combination -r
  · have r := h.start (by rw [ne_eq, ne_eq, h1.knot, h2.knot]; exact g.symm)
    cases s <;> cases s' <;> simp only [EndRel] at h1
    · simp only [startRow, startRhs, stopRow, stopRhs] at r ⊢
      rw [h1, show n - 1 - (n - 1) = 0 by omega, r]; ring
    · simp only [startRow, startRhs, stopRow, stopRhs] at r ⊢
      rw [h1, T (n - 1) (n - 2) (by omega) (by omega), hy (n - 1) (by omega), hy (n - 2) (by omega), show n - 1 - (n - 1) = 0 by omega,
        show n - 1 - (n - 2) = 1 by omega]
      linear_combination -r
    · simp only [startRow, startRhs, stopRow, stopRhs] at r ⊢
      split_ifs at * with n2
      · rw [T (n - 1) (n - 2) (by omega) (by omega), hy (n - 1) (by omega), hy (n - 2) (by omega), show n - 1 - (n - 1) = 0 by omega,
          show n - 1 - (n - 2) = 1 by omega, r]
        simp only [div_eq_mul_inv]; ring
      · rw [T (n - 1) (n - 2) (by omega) (by omega), T (n - 2) (n - 3) (by omega) (by omega), T (n - 1) (n - 3) (by omega) (by omega),
          hy (n - 1) (by omega), hy (n - 2) (by omega), hy (n - 3) (by omega),
          show n - 1 - (n - 1) = 0 by omega, show n - 1 - (n - 2) = 1 by omega, show n - 1 - (n - 3) = 2 by omega]
        simp only [div_eq_mul_inv] at r ⊢
        linear_combination -r

end

theorem periodic_unique {n : Nat} (hn : 2 ≤ n) {x : Nat → ℝ} (hx : ∀ i, i + 1 < n → x i < x (i + 1)) {y d d' : Nat → ℝ}
    (h : PeriodicSystem n x y d) (h' : PeriodicSystem n x y d') : ∀ k, k < n → d k = d' k :=
  ends_unique (A := fun e => (x 1 - x 0) * e (n - 2) + 2 * ((x (n - 1) - x (n - 2)) + (x 1 - x 0)) * e 0 + (x (n - 1) - x (n - 2)) * e 1)
    (B := fun e => e (n - 1) - e 0) (fun _ _ _ => by ring) (fun _ _ _ => by ring)
    (fun e => periodic_ker hn hx e) (by rw [h.wrap, h'.wrap]) (by rw [h.close, h'.close, sub_self, sub_self]) h.inner h'.inner

/-- Values that agree at the knots have the same systems. -/
theorem periodicSystem_congr {n : Nat} (hn : 2 ≤ n) {x y y' d : Nat → ℝ} (hy : ∀ i, i < n → y i = y' i) (h : PeriodicSystem n x y d) :
    PeriodicSystem n x y' d where
  close := h.close
  inner := by
    intro k hk
    rw [← hy k (by omega), ← hy (k + 1) (by omega), ← hy (k + 2) (by omega)]
    exact h.inner k hk
  wrap := by
    rw [← hy 0 (by omega), ← hy 1 (by omega), ← hy (n - 1) (by omega), ← hy (n - 2) (by omega)]
    exact h.wrap

end Verif.Model
