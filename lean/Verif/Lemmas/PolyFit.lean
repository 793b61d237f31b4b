import Verif.Lemmas.Savgol

/-! The least squares fit of polynomials is linear in the data. -/
namespace Verif.Model

open Verif Verif.Np Verif.Spec

/-- The residual of `P` is orthogonal to all admissible polynomials. -/
structure Orth (N d : Nat) (y : Nat → ℝ) (P : Polynomial ℝ) : Prop where
  deg : P.natDegree ≤ d
  orth : ∀ Q : Polynomial ℝ, Q.natDegree ≤ d → ∑ k ∈ Finset.range N, (P.eval (k : ℝ) - y k) * Q.eval (k : ℝ) = 0

theorem Orth.unique {N d : Nat} (hd : d < N) {y : Nat → ℝ} {P P' : Polynomial ℝ} (h : Orth N d y P) (h' : Orth N d y P') : P = P' := by
  have hD : (P - P').natDegree ≤ d := (Polynomial.natDegree_sub_le _ _).trans (max_le h.deg h'.deg)
  have h1 := h.orth (P - P') hD
  have h2 := h'.orth (P - P') hD
  have h3 : ∑ k ∈ Finset.range N, (P.eval (k : ℝ) - P'.eval (k : ℝ)) ^ 2 = 0 := by
    rw [← sub_self (0 : ℝ)]
    nth_rewrite 1 [← h1]
    rw [← h2, ← Finset.sum_sub_distrib]
    apply Finset.sum_congr rfl
    intro k _
    rw [Polynomial.eval_sub]; ring
  refine Polynomial.eq_of_natDegree_lt_card_of_eval_eq P P' (ι := Fin N) (f := fun k => ((k : Nat) : ℝ)) ?_ ?_ ?_
  · intro a b hab
    have hab' : ((a : Nat) : ℝ) = ((b : Nat) : ℝ) := hab
    exact Fin.ext (by exact_mod_cast hab')
  · intro k
    have := (Finset.sum_eq_zero_iff_of_nonneg fun _ _ => sq_nonneg _).1 h3 k (Finset.mem_range.2 k.2)
    exact sub_eq_zero.1 (pow_eq_zero_iff (two_ne_zero) |>.1 this)
  · have := h.deg; have := h'.deg
    rw [Fintype.card_fin]; omega

/-- A best polynomial has an orthogonal residual. -/
theorem orth_of_min {ys : List ℝ} {d : Nat} {P : Polynomial ℝ} (hP : P.natDegree ≤ d)
    (h : ∀ Q : Polynomial ℝ, Q.natDegree ≤ d → polyErr ys P ≤ polyErr ys Q) : Orth ys.length d (fun k => ys.getD k 0) P := by
  refine ⟨hP, ?_⟩
  intro Q hQ
  obtain ⟨B, hB⟩ : ∃ B, B = ∑ k ∈ Finset.range ys.length, (P.eval (k : ℝ) - ys.getD k 0) * Q.eval (k : ℝ) := ⟨_, rfl⟩
  obtain ⟨A, hA⟩ : ∃ A, A = ∑ k ∈ Finset.range ys.length, Q.eval (k : ℝ) ^ 2 := ⟨_, rfl⟩
  rw [← hB]
  have key : ∀ e : ℝ, 0 ≤ e ^ 2 * A + 2 * e * B := by
    intro e
    have h1 := h (P + Polynomial.C e * Q) ((Polynomial.natDegree_add_le _ _).trans (max_le hP ((Polynomial.natDegree_C_mul_le _ _).trans hQ)))
    have h2 : polyErr ys (P + Polynomial.C e * Q) = polyErr ys P + (e ^ 2 * A + 2 * e * B) := by
      rw [hA, hB]
      unfold polyErr
      rw [Finset.mul_sum, Finset.mul_sum, ← Finset.sum_add_distrib, ← Finset.sum_add_distrib]
      apply Finset.sum_congr rfl
      intro k _
      simp only [Polynomial.eval_add, Polynomial.eval_mul, Polynomial.eval_C]
      ring
    rw [h2] at h1
    linarith
  have hA0 : 0 ≤ A := by rw [hA]; exact Finset.sum_nonneg fun _ _ => sq_nonneg _
  have h1 := key (-B / (A + 1))
  have hp : 0 < A + 1 := by linarith
  have h3 : (-B / (A + 1)) ^ 2 * A + 2 * (-B / (A + 1)) * B = -(B ^ 2 * (A + 2)) / (A + 1) ^ 2 := by
    field_simp
    ring
  rw [h3, le_div_iff₀ (by positivity), zero_mul] at h1
  have h4 : B ^ 2 * (A + 2) ≤ 0 := by linarith
  have h5 : B ^ 2 ≤ 0 := by
    by_contra hc
    have : 0 < B ^ 2 * (A + 2) := mul_pos (not_le.1 hc) (by linarith)
    linarith
  exact pow_eq_zero_iff (two_ne_zero) |>.1 (le_antisymm h5 (sq_nonneg _))

/-- Polynomials `G k` such that every fit to `N` values `y` is the sum of the `y k * G k`; the fit to ones is one. -/
theorem polyfit_linear {lib : LsqLib} (hl : LsqOk lib) {N d : Nat} (hd : d < N) :
    ∃ G : Nat → Polynomial ℝ, (∑ k ∈ Finset.range N, G k = 1) ∧ ∀ ys : List ℝ, ys.length = N →
      lib.polyfit (fins ys) d = .ok (∑ k ∈ Finset.range N, Polynomial.C (ys.getD k 0) * G k) := by
  have hfit : ∀ ys : List ℝ, ys.length = N → ∃ P, lib.polyfit (fins ys) d = .ok P ∧ Orth N d (fun k => ys.getD k 0) P := by
    intro ys hy
    obtain ⟨P, h1, h2, h3⟩ := hl.polyfit_min ys d (by omega)
    exact ⟨P, h1, by rw [← hy]; exact orth_of_min h2 h3⟩
  have hG : ∀ i, ∃ G : Polynomial ℝ, Orth N d (fun k => if k = i ∧ k < N then 1 else 0) G := by
    intro i
    obtain ⟨P, _, h2⟩ := hfit ((List.range N).map fun k => if k = i then 1 else 0) (by simp)
    refine ⟨P, h2.deg, ?_⟩
    intro Q hQ
    refine Eq.trans ?_ (h2.orth Q hQ)
    apply Finset.sum_congr rfl
    intro k hk
    rw [Finset.mem_range] at hk
    simp [List.getD_eq_getElem?_getD, hk]
  choose G hG using hG
  have hlin : ∀ y : Nat → ℝ, Orth N d y (∑ i ∈ Finset.range N, Polynomial.C (y i) * G i) := by
    intro y
    constructor
    · apply Polynomial.natDegree_sum_le_of_forall_le
      intro i _
      exact (Polynomial.natDegree_C_mul_le _ _).trans (hG i).deg
    · intro Q hQ
      have e : ∀ k ∈ Finset.range N, ((∑ i ∈ Finset.range N, Polynomial.C (y i) * G i).eval (k : ℝ) - y k) * Q.eval (k : ℝ) =
          ∑ i ∈ Finset.range N, y i * (((G i).eval (k : ℝ) - (if k = i ∧ k < N then 1 else 0)) * Q.eval (k : ℝ)) := by
        intro k hk
        have hy : y k = ∑ i ∈ Finset.range N, y i * (if k = i ∧ k < N then 1 else 0) := by
          rw [Finset.sum_eq_single k]
          · simp [Finset.mem_range.1 hk]
          · intro i _ hi; simp [Ne.symm hi]
          · intro h; exact absurd hk h
        rw [Polynomial.eval_finset_sum]
        rw [hy, ← Finset.sum_sub_distrib, Finset.sum_mul]
        apply Finset.sum_congr rfl
        intro i _
        simp only [Polynomial.eval_mul, Polynomial.eval_C]
        ring
      rw [Finset.sum_congr rfl e, Finset.sum_comm]
      apply Finset.sum_eq_zero
      intro i _
      rw [← Finset.mul_sum, (hG i).orth Q hQ, mul_zero]
  refine ⟨G, ?_, ?_⟩
  · have h1 := hlin fun _ => 1
    have h2 : Orth N d (fun _ => 1) (1 : Polynomial ℝ) := by
      refine ⟨by simp, ?_⟩
      intro Q _
      simp
    have := h1.unique hd h2
    simpa using this
  · intro ys hy
    obtain ⟨P, h1, h2⟩ := hfit ys hy
    rw [h1, h2.unique hd (hlin fun k => ys.getD k 0)]

end Verif.Model
