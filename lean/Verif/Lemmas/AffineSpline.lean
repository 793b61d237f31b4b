import Verif.Lemmas.NaturalSpline
import Verif.Lemmas.Spline
import Mathlib.Analysis.InnerProductSpace.PiL2

/-!
Piecewise cubic polynomials and natural spline systems depend linearly on values and slopes; matrices of linear isometries.
-/
namespace Verif.Model

open Verif Verif.Np Verif.Spec

/-- The cubic is a combination of the values and slopes; the weights of the values have sum one. -/
theorem hermR_weights (x0 x1 x : ℝ) : ∃ w a e : ℝ, ∀ y0 y1 d0 d1, hermR x0 x1 y0 y1 d0 d1 x = y0 + w * (y1 - y0) + a * d0 + e * d1 := by
  obtain ⟨i, hi⟩ : ∃ i, i = (x1 - x0)⁻¹ := ⟨_, rfl⟩
  obtain ⟨u, hu⟩ : ∃ u, u = x - x0 := ⟨_, rfl⟩
  refine ⟨3 * i * i * u ^ 2 - 2 * i * i * i * u ^ 3, u - 2 * i * u ^ 2 + i * i * u ^ 3, -(i * u ^ 2) + i * i * u ^ 3, ?_⟩
  intro y0 y1 d0 d1
  unfold hermR
  simp only [div_eq_mul_inv]
  rw [← hi, ← hu]
  ring

theorem PPoly.coord_affine {p p' : PPoly} (hx : p'.xs = p.xs) (hs : p.xs.Pairwise (· < ·)) (hl : 2 ≤ p.xs.length) {n j : Nat}
    {M : Nat → ℝ} {b : ℝ} (hy : ∀ i, i < p.xs.length → p'.y.v i j = ∑ k ∈ Finset.range n, M k * p.y.v i k + b)
    (hd : ∀ i, i < p.xs.length → p'.d.v i j = ∑ k ∈ Finset.range n, M k * p.d.v i k) (x : ℝ) :
    p'.coord j x = ∑ k ∈ Finset.range n, M k * p.coord k x + b := by
  obtain ⟨i, hi, h1, h2⟩ := exists_piece hl x
  have h2' : i + 2 = p.xs.length ∨ x ≤ knot p.xs (i + 1) := h2.imp id le_of_lt
  obtain ⟨w, a, e, hw⟩ := hermR_weights (knot p.xs i) (knot p.xs (i + 1)) x
  have e1 : ∀ k, p.coord k x = p.cub i k x := fun k => PPoly.coord_on hs hi k h1 h2'
  have e2 : p'.coord j x = p'.cub i j x := PPoly.coord_on (by rw [hx]; exact hs) (by rw [hx]; exact hi) j (by rw [hx]; exact h1) (by rw [hx]; exact h2')
  simp only [e1]
  rw [e2]
  unfold PPoly.cub
  rw [hx]
  simp only [hw]
  rw [hy i (by omega), hy (i + 1) hi, hd i (by omega), hd (i + 1) hi, ← sub_eq_zero]
  have e3 : ∑ k ∈ Finset.range n, M k * (p.y.v i k + w * (p.y.v (i + 1) k - p.y.v i k) + a * p.d.v i k + e * p.d.v (i + 1) k) =
      ∑ k ∈ Finset.range n, M k * p.y.v i k + w * (∑ k ∈ Finset.range n, M k * p.y.v (i + 1) k - ∑ k ∈ Finset.range n, M k * p.y.v i k) +
        a * ∑ k ∈ Finset.range n, M k * p.d.v i k + e * ∑ k ∈ Finset.range n, M k * p.d.v (i + 1) k := by
    simp only [Finset.mul_sum, ← Finset.sum_add_distrib, ← Finset.sum_sub_distrib]
    apply Finset.sum_congr rfl
    intro k _
    ring
  rw [e3]
  ring

theorem natRhs_linear (n : Nat) (x y z : Nat → ℝ) (a : ℝ) (k : Nat) :
    natRhs n x (fun i => y i + a * z i) k = natRhs n x y k + a * natRhs n x z k := by
  unfold natRhs
  split_ifs
  · ring
  · ring
  · simp only [div_eq_mul_inv]; ring

theorem natural_affine {n : Nat} (hn : 2 ≤ n) {x : Nat → ℝ} {N : Nat} {y d : Nat → Nat → ℝ}
    (h : ∀ k, k < N → NaturalSystem n x (fun i => y i k) (fun i => d i k)) (M : Nat → ℝ) (b : ℝ) :
    NaturalSystem n x (fun i => ∑ k ∈ Finset.range N, M k * y i k + b) (fun i => ∑ k ∈ Finset.range N, M k * d i k) := by
  rw [natural_iff hn]
  induction N with
  | zero =>
    intro k _
    unfold natRow natRhs
    simp
  | succ N ih =>
    intro k hk
    have h0 := ih (fun k hk => h k (by omega)) k hk
    have hN := (natural_iff hn _ _ _).1 (h N (by omega)) k hk
    have e1 : (fun i => ∑ k ∈ Finset.range (N + 1), M k * d i k) = fun i => (∑ k ∈ Finset.range N, M k * d i k) + M N * d i N := by
      funext i; rw [Finset.sum_range_succ]
    have e2 : (fun i => ∑ k ∈ Finset.range (N + 1), M k * y i k + b) = fun i => (∑ k ∈ Finset.range N, M k * y i k + b) + M N * y i N := by
      funext i; rw [Finset.sum_range_succ]; ring
    rw [e1, e2, natRow_linear, natRhs_linear, h0, hN]

/-- The matrix of a linear map between Euclidean spaces. -/
theorem exists_matrix {n n' : Nat} (L : EuclideanSpace ℝ (Fin n) →ₗᵢ[ℝ] EuclideanSpace ℝ (Fin n')) :
    ∃ M : Nat → Nat → ℝ, ∀ (v : Nat → ℝ) (p : EuclideanSpace ℝ (Fin n)), (∀ k : Fin n, p k = v k) →
      ∀ j : Fin n', L p j = ∑ k ∈ Finset.range n, M j k * v k := by
  refine ⟨fun j k => if hj : j < n' then if hk : k < n then L (EuclideanSpace.single ⟨k, hk⟩ 1) ⟨j, hj⟩ else 0 else 0, ?_⟩
  intro v p hp j
  have e : p = ∑ k : Fin n, v k • EuclideanSpace.single k (1 : ℝ) := by
    ext i
    rw [hp i]
    simp [Pi.single_apply]
  rw [e, map_sum, Finset.sum_range]
  simp only [map_smul]
  have : (∑ x : Fin n, v x • L (EuclideanSpace.single x 1)) j = ∑ x : Fin n, (v x • L (EuclideanSpace.single x (1 : ℝ))) j := by
    simp
  rw [this]
  apply Finset.sum_congr rfl
  intro k _
  simp [mul_comm]

end Verif.Model
