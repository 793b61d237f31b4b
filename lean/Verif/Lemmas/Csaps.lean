import Verif.Model.Spline
import Mathlib.Algebra.BigOperators.Fin
import Mathlib.Algebra.Order.BigOperators.Ring.Finset
import Mathlib.LinearAlgebra.Matrix.Nondegenerate
import Mathlib.Tactic.FieldSimp
import Mathlib.Tactic.Linarith
import Mathlib.Tactic.LinearCombination
import Mathlib.LinearAlgebra.Matrix.ToLinearEquiv

/-!
The linear system of the smoothing spline of csaps: it is regular, and what its solution means for the values at the knots.
-/
namespace Verif.Props

open Verif Verif.Model Finset

/-- Difference of neighbouring secant slopes. -/
noncomputable def slopeJump (x z : Nat → ℝ) (k : Nat) : ℝ :=
  (z (k + 2) - z (k + 1)) / (x (k + 2) - x (k + 1)) - (z (k + 1) - z k) / (x (k + 1) - x k)

/-- Second differences of a padded sequence. -/
noncomputable def csapsD2 (n : Nat) (x U : Nat → ℝ) (i : Nat) : ℝ := csapsD1 n x U (i + 1) - csapsD1 n x U i

/-- The matrix `r` applied to a padded sequence. -/
noncomputable def rowR (x U : Nat → ℝ) (k : Nat) : ℝ :=
  (x (k + 1) - x k) * U k + 2 * ((x (k + 2) - x (k + 1)) + (x (k + 1) - x k)) * U (k + 1) + (x (k + 2) - x (k + 1)) * U (k + 2)

theorem csapsQ_split (x : Nat → ℝ) (k i : Nat) : csapsQ x k i = (if i = k then 1 / (x (k + 1) - x k) else 0) +
    (if i = k + 1 then -(1 / (x (k + 2) - x (k + 1)) + 1 / (x (k + 1) - x k)) else 0) +
    (if i = k + 2 then 1 / (x (k + 2) - x (k + 1)) else 0) := by
  unfold csapsQ
  by_cases h0 : i = k
  · subst h0; simp
  · by_cases h1 : i = k + 1
    · subst h1; simp
    · by_cases h2 : i = k + 2 <;> simp [h0, h1, h2]

theorem csapsQ_apply {n : Nat} (x z : Nat → ℝ) {k : Nat} (hk : k + 2 < n) : ∑ i ∈ range n, csapsQ x k i * z i = slopeJump x z k := by
  simp only [csapsQ_split, add_mul, ite_mul, zero_mul, sum_add_distrib, sum_ite_eq', mem_range]
  rw [if_pos (by omega), if_pos (by omega), if_pos hk]
  unfold slopeJump
  ring

theorem csapsQ_adjoint {n : Nat} (hn : 3 ≤ n) (x U : Nat → ℝ) (h0 : U 0 = 0) (h1 : U (n - 1) = 0) {i : Nat} (hi : i < n) :
    ∑ k ∈ range (n - 2), csapsQ x k i * U (k + 1) = csapsD2 n x U i := by
  obtain ⟨m, rfl⟩ : ∃ m, n = m + 3 := ⟨n - 3, by omega⟩
  have e1 : m + 3 - 2 = m + 1 := by omega
  have e2 : m + 3 - 1 = m + 2 := by omega
  rw [e1]
  rw [e2] at h1
  simp only [csapsQ_split, add_mul, ite_mul, zero_mul, sum_add_distrib]
  have a1 : ∑ k ∈ range (m + 1), (if i = k then 1 / (x (k + 1) - x k) * U (k + 1) else 0) =
      if i < m + 2 then U (i + 1) / (x (i + 1) - x i) else 0 := by
    rw [sum_ite_eq]
    simp only [mem_range]
    by_cases c : i < m + 1
    · rw [if_pos c, if_pos (by omega)]; ring
    · rw [if_neg c]
      split
      · have : i + 1 = m + 2 := by omega
        rw [this, h1]; simp
      · rfl
  have a2 : ∑ k ∈ range (m + 1), (if i = k + 1 then -(1 / (x (k + 2) - x (k + 1)) + 1 / (x (k + 1) - x k)) * U (k + 1) else 0) =
      if 0 < i then -(1 / (x (i + 1) - x i) + 1 / (x i - x (i - 1))) * U i else 0 := by
    rcases i with _ | i
    · simp
    · simp only [Nat.add_right_cancel_iff, sum_ite_eq, mem_range, Nat.succ_pos, if_true]
      by_cases c : i < m + 1
      · rw [if_pos c]; rfl
      · rw [if_neg c]
        have : i + 1 = m + 2 := by omega
        rw [this, h1]; simp
  have a3 : ∑ k ∈ range (m + 1), (if i = k + 2 then 1 / (x (k + 2) - x (k + 1)) * U (k + 1) else 0) =
      if 0 < i then U (i - 1) / (x i - x (i - 1)) else 0 := by
    rcases i with _ | _ | i
    · simp
    · simp [h0]
    · have : ∀ k, (i + 1 + 1 = k + 2) = (i = k) := by intro k; simp
      simp only [this, sum_ite_eq, mem_range]
      rw [if_pos (by omega), if_pos (by omega)]
      show 1 / (x (i + 2) - x (i + 1)) * U (i + 1) = U (i + 1) / (x (i + 2) - x (i + 1))
      ring
  rw [a1, a2, a3]
  unfold csapsD2 csapsD1
  by_cases c0 : i = 0
  · subst c0
    simp [h0]
  · have p : 0 < i := by omega
    have c3 : ¬ (i = 0 ∨ m + 3 ≤ i) := by omega
    simp only [p, if_true, if_neg c3]
    by_cases c1 : i < m + 2
    · have c4 : ¬ (i + 1 = 0 ∨ m + 3 ≤ i + 1) := by omega
      simp only [c1, if_true, if_neg c4, Nat.add_sub_cancel]
      ring
    · have c4 : i + 1 = 0 ∨ m + 3 ≤ i + 1 := by omega
      have : i = m + 2 := by omega
      simp only [if_neg c1, if_pos c4]
      rw [this, h1]
      ring

/-- Summation by parts. -/
theorem jump_parts {n : Nat} (hn : 3 ≤ n) (x z U : Nat → ℝ) (h0 : U 0 = 0) (h1 : U (n - 1) = 0) :
    ∑ k ∈ range (n - 2), slopeJump x z k * U (k + 1) = ∑ i ∈ range n, z i * csapsD2 n x U i := by
  have : ∀ k ∈ range (n - 2), slopeJump x z k * U (k + 1) = ∑ i ∈ range n, csapsQ x k i * z i * U (k + 1) := by
    intro k hk
    rw [← csapsQ_apply x z (show k + 2 < n by have := mem_range.1 hk; omega), sum_mul]
  rw [sum_congr rfl this, sum_comm]
  refine sum_congr rfl fun i hi => ?_
  rw [← csapsQ_adjoint hn x U h0 h1 (mem_range.1 hi), mul_sum]
  refine sum_congr rfl fun k _ => ?_
  ring

/-- The quadratic form of `r`. -/
theorem rowR_form (x V : Nat → ℝ) (m : Nat) : ∑ k ∈ range m, rowR x V k * V (k + 1) =
    ∑ i ∈ range (m + 1), (x (i + 1) - x i) * (V i ^ 2 + V (i + 1) ^ 2 + (V i + V (i + 1)) ^ 2) -
      (2 * (x 1 - x 0) * V 0 ^ 2 + (x 1 - x 0) * V 0 * V 1 + 2 * (x (m + 1) - x m) * V (m + 1) ^ 2 + (x (m + 1) - x m) * V m * V (m + 1)) := by
  induction m with
  | zero => simp; ring
  | succ m ih =>
    rw [sum_range_succ, ih, sum_range_succ _ (m + 1)]
    unfold rowR
    ring

/-- The sequence `u` with a zero before and behind. -/
noncomputable def padded (n : Nat) (v : Fin (n - 2) → ℝ) (i : Nat) : ℝ := if h : 1 ≤ i ∧ i - 1 < n - 2 then v ⟨i - 1, h.2⟩ else 0

theorem padded_succ {n : Nat} (v : Fin (n - 2) → ℝ) (k : Fin (n - 2)) : padded n v (k + 1) = v k := by
  unfold padded
  rw [dif_pos ⟨by omega, by simp⟩]
  rfl

theorem padded_zero {n : Nat} (v : Fin (n - 2) → ℝ) : padded n v 0 = 0 := by unfold padded; rw [dif_neg (by omega)]

theorem padded_last {n : Nat} (v : Fin (n - 2) → ℝ) {i : Nat} (hi : n - 1 ≤ i) : padded n v i = 0 := by
  unfold padded; rw [dif_neg (by omega)]

theorem csapsR_split (x : Nat → ℝ) (k l : Nat) : csapsR x k l = (if l = k then 2 * ((x (k + 2) - x (k + 1)) + (x (k + 1) - x k)) else 0) +
    (if l = k + 1 then x (k + 2) - x (k + 1) else 0) + (if k = l + 1 then x (l + 2) - x (l + 1) else 0) := by
  unfold csapsR
  by_cases h0 : l = k
  · subst h0; simp
  · by_cases h1 : l = k + 1
    · subst h1
      have a : ¬ k = k + 1 + 1 := by omega
      simp [a]
    · by_cases h2 : k = l + 1
      · subst h2
        have a : ¬ l = l + 1 + 1 := by omega
        simp [a]
      · simp [h0, h1, h2]

theorem csapsR_apply {n : Nat} (hn : 3 ≤ n) (x U : Nat → ℝ) (h0 : U 0 = 0) (h1 : U (n - 1) = 0) {k : Nat} (hk : k < n - 2) :
    ∑ l ∈ range (n - 2), csapsR x k l * U (l + 1) = rowR x U k := by
  simp only [csapsR_split, add_mul, ite_mul, zero_mul, sum_add_distrib, sum_ite_eq', mem_range]
  rw [if_pos hk]
  have a1 : (if k + 1 < n - 2 then (x (k + 2) - x (k + 1)) * U (k + 1 + 1) else 0) = (x (k + 2) - x (k + 1)) * U (k + 2) := by
    split
    · rfl
    · have : k + 2 = n - 1 := by omega
      rw [this, h1, mul_zero]
  have a2 : ∑ l ∈ range (n - 2), (if k = l + 1 then (x (l + 2) - x (l + 1)) * U (l + 1) else 0) = (x (k + 1) - x k) * U k := by
    rcases k with _ | k
    · simp [h0]
    · simp only [Nat.add_right_cancel_iff, sum_ite_eq, mem_range]
      rw [if_pos (by omega)]
  rw [a1, a2]
  unfold rowR
  ring

section
variable {n : Nat} {x w : Nat → ℝ} {p : ℝ}

/-- The whole matrix applied to a padded sequence. -/
theorem csapsA_apply (hn : 3 ≤ n) (hw : ∀ i, i < n → 0 < w i) (v : Fin (n - 2) → ℝ) (k : Fin (n - 2)) :
    (csapsA n p x w).mulVec v k = slopeJump x (fun i => 6 * (1 - p) * (1 / w i) * csapsD2 n x (padded n v) i) k + p * rowR x (padded n v) k := by
  have hU0 := padded_zero v
  have hU1 := padded_last v (le_refl (n - 1))
  have hk := k.2
  have c1 : (csapsA n p x w).mulVec v k = ∑ l ∈ range (n - 2), (6 * (1 - p) * csapsQWQ n x w k l + p * csapsR x k l) * padded n v (l + 1) := by
    unfold Matrix.mulVec dotProduct csapsA
    rw [← Fin.sum_univ_eq_sum_range (fun l => (6 * (1 - p) * csapsQWQ n x w k l + p * csapsR x k l) * padded n v (l + 1))]
    refine sum_congr rfl fun l _ => ?_
    rw [padded_succ]
    rfl
  rw [c1, ← csapsQ_apply x _ (show (k : Nat) + 2 < n by omega), ← csapsR_apply hn x _ hU0 hU1 hk, mul_sum]
  simp only [add_mul, sum_add_distrib, mul_assoc p]
  congr 1
  have c2 : ∀ i ∈ range n, csapsQ x k i * (6 * (1 - p) * (1 / w i) * csapsD2 n x (padded n v) i) =
      ∑ l ∈ range (n - 2), 6 * (1 - p) * ((csapsQ x k i * (1 / √ (w i))) * (csapsQ x l i * (1 / √ (w i)))) * padded n v (l + 1) := by
    intro i hi
    rw [← csapsQ_adjoint hn x _ hU0 hU1 (mem_range.1 hi), mul_sum, mul_sum]
    refine sum_congr rfl fun l _ => ?_
    have hs : 1 / w i = 1 / √ (w i) * (1 / √ (w i)) := by
      rw [one_div_mul_one_div, Real.mul_self_sqrt (hw i (mem_range.1 hi)).le]
    rw [hs]
    ring
  rw [sum_congr rfl c2, sum_comm]
  refine sum_congr rfl fun l _ => ?_
  unfold csapsQWQ
  rw [Fin.sum_univ_eq_sum_range (fun i => (csapsQ x k i * (1 / √ (w i))) * (csapsQ x l i * (1 / √ (w i)))), mul_sum, sum_mul]

/-- The system is regular. -/
theorem csapsA_det (hn : 3 ≤ n) (hx : ∀ i, i + 1 < n → x i < x (i + 1)) (hw : ∀ i, i < n → 0 < w i) (hp0 : 0 ≤ p) (hp1 : p ≤ 1) :
    IsUnit (csapsA n p x w).det := by
  rw [isUnit_iff_ne_zero]
  intro hdet
  obtain ⟨v, hv0, hv⟩ := Matrix.exists_mulVec_eq_zero_iff.2 hdet
  apply hv0
  set V := padded n v with hV
  have hU0 : V 0 = 0 := padded_zero v
  have hU1 : V (n - 1) = 0 := padded_last v (le_refl (n - 1))
  have hrow : ∀ k ∈ range (n - 2), slopeJump x (fun i => 6 * (1 - p) * (1 / w i) * csapsD2 n x V i) k * V (k + 1) = -(p * (rowR x V k * V (k + 1))) := by
    intro k hk
    have := csapsA_apply (x := x) (p := p) hn hw v ⟨k, mem_range.1 hk⟩
    rw [hv] at this
    simp only [Pi.zero_apply] at this
    rw [← hV] at this
    linear_combination -V (k + 1) * this
  have hsum := sum_congr rfl hrow
  rw [jump_parts hn x _ V hU0 hU1, sum_neg_distrib, ← mul_sum, rowR_form] at hsum
  have hm : n - 2 + 1 = n - 1 := by omega
  rw [hm, hU0, hU1] at hsum
  have hR : ∀ i ∈ range (n - 1), 0 ≤ (x (i + 1) - x i) * (V i ^ 2 + V (i + 1) ^ 2 + (V i + V (i + 1)) ^ 2) := by
    intro i hi
    have := hx i (by have := mem_range.1 hi; omega)
    exact mul_nonneg (by linarith) (by positivity)
  have hD : ∀ i ∈ range n, 0 ≤ 6 * (1 - p) * (1 / w i) * csapsD2 n x V i * csapsD2 n x V i := by
    intro i hi
    have h := hw i (mem_range.1 hi)
    have : 0 ≤ 6 * (1 - p) * (1 / w i) := mul_nonneg (by linarith) (by positivity)
    rw [mul_assoc]
    exact mul_nonneg this (mul_self_nonneg _)
  have hR' := sum_nonneg hR
  have hD' := sum_nonneg hD
  have key : ∀ i, i < n → V i = 0 := by
    rcases hp0.eq_or_lt with h0 | h0
    · subst h0
      have hz : ∑ i ∈ range n, 6 * (1 - 0) * (1 / w i) * csapsD2 n x V i * csapsD2 n x V i = 0 := by
        rw [hsum]; ring
      have hz' := (sum_eq_zero_iff_of_nonneg hD).1 hz
      have hd2 : ∀ i, i < n → csapsD2 n x V i = 0 := by
        intro i hi
        have h1 := hz' i (mem_range.2 hi)
        have h2 := hw i hi
        have h3 : (6 * (1 - 0) * (1 / w i) : ℝ) ≠ 0 := by
          have : (0 : ℝ) < 1 / w i := by positivity
          nlinarith
        rw [mul_assoc] at h1
        exact mul_self_eq_zero.1 ((mul_eq_zero.1 h1).resolve_left h3)
      have hd1 : ∀ i, i ≤ n → csapsD1 n x V i = 0 := by
        intro i
        induction i with
        | zero => intro _; simp [csapsD1]
        | succ i ih =>
          intro hi
          have a := hd2 i (by omega)
          unfold csapsD2 at a
          have := ih (by omega)
          linarith
      intro i
      induction i with
      | zero => intro _; exact hU0
      | succ i ih =>
        intro hi
        have a := hd1 (i + 1) hi.le
        unfold csapsD1 at a
        rw [if_neg (by omega), Nat.add_sub_cancel, ih (by omega)] at a
        have h := hx i hi
        rcases div_eq_zero_iff.1 a with b | b
        · linarith
        · linarith
    · have hz : ∑ i ∈ range (n - 1), (x (i + 1) - x i) * (V i ^ 2 + V (i + 1) ^ 2 + (V i + V (i + 1)) ^ 2) = 0 := by
        nlinarith
      have hz' := (sum_eq_zero_iff_of_nonneg hR).1 hz
      intro i hi
      rcases i with _ | i
      · exact hU0
      · have h1 := hz' i (mem_range.2 (by omega))
        have h2 := hx i hi
        have h3 := (mul_eq_zero.1 h1).resolve_left (by linarith)
        have := sq_nonneg (V i)
        have := sq_nonneg (V (i + 1))
        have := sq_nonneg (V i + V (i + 1))
        exact pow_eq_zero_iff (two_ne_zero) |>.1 (show V (i + 1) ^ 2 = 0 by linarith)
  funext k
  have hk := k.2
  rw [← padded_succ v k, ← hV]
  exact key _ (by omega)

theorem csapsU_zero (y : Nat → ℝ) : csapsU n p x w y 0 = 0 := padded_zero (n := n) _

theorem csapsU_last (y : Nat → ℝ) {i : Nat} (hi : n - 1 ≤ i) : csapsU n p x w y i = 0 := padded_last (n := n) _ hi

/-- What the solution means: the jumps of the secant slopes of the values at the knots. -/
theorem csapsY_jump (hn : 3 ≤ n) (hx : ∀ i, i + 1 < n → x i < x (i + 1)) (hw : ∀ i, i < n → 0 < w i) (hp0 : 0 ≤ p) (hp1 : p ≤ 1)
    (y : Nat → ℝ) {k : Nat} (hk : k + 2 < n) : slopeJump x (csapsY n p x w y) k = p * rowR x (csapsU n p x w y) k := by
  have hA := csapsA_apply (x := x) (p := p) hn hw ((csapsA n p x w)⁻¹.mulVec (csapsB n x y)) ⟨k, by omega⟩
  rw [Matrix.mulVec_mulVec, Matrix.mul_nonsing_inv _ (csapsA_det hn hx hw hp0 hp1), Matrix.one_mulVec] at hA
  have hU : padded n ((csapsA n p x w)⁻¹.mulVec (csapsB n x y)) = csapsU n p x w y := rfl
  rw [hU] at hA
  have hB : csapsB n x y ⟨k, by omega⟩ = slopeJump x y k := rfl
  rw [hB] at hA
  simp only [slopeJump, csapsY] at hA ⊢
  unfold csapsD2 at hA
  linear_combination hA

end

end Verif.Props
