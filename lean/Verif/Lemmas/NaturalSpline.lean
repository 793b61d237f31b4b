import Verif.Lemmas.Spline
import Verif.Spec.Spline
import Mathlib.LinearAlgebra.FiniteDimensional.Lemmas
import Mathlib.Algebra.Polynomial.Derivative
import Mathlib.Algebra.Polynomial.Eval.Degree

/-!
Natural cubic splines: the system has exactly one solution, and its solution makes the spline twice continuously differentiable.
-/
namespace Verif.Model

open Verif Verif.Np Verif.Spec

/-- Row `k` of the natural system. -/
noncomputable def natRow (n : Nat) (x d : Nat → ℝ) (k : Nat) : ℝ :=
  if k = 0 then 2 * (x 1 - x 0) * d 0 + (x 1 - x 0) * d 1
  else if k = n - 1 then (x (n - 1) - x (n - 2)) * d (n - 2) + 2 * (x (n - 1) - x (n - 2)) * d (n - 1)
  else (x (k + 1) - x k) * d (k - 1) + 2 * ((x k - x (k - 1)) + (x (k + 1) - x k)) * d k + (x k - x (k - 1)) * d (k + 1)

/-- Right-hand side. -/
noncomputable def natRhs (n : Nat) (x y : Nat → ℝ) (k : Nat) : ℝ :=
  if k = 0 then 3 * (y 1 - y 0)
  else if k = n - 1 then 3 * (y (n - 1) - y (n - 2))
  else 3 * ((x (k + 1) - x k) * ((y k - y (k - 1)) / (x k - x (k - 1))) +
      (x k - x (k - 1)) * ((y (k + 1) - y k) / (x (k + 1) - x k)))

theorem natural_iff {n : Nat} (hn : 2 ≤ n) (x y d : Nat → ℝ) :
    NaturalSystem n x y d ↔ ∀ k, k < n → natRow n x d k = natRhs n x y k := by
  constructor
  · intro h k hk
    unfold natRow natRhs
    split_ifs with h1 h2
    · exact h.first
    · exact h.last
    · obtain ⟨l, rfl⟩ : ∃ l, k = l + 1 := ⟨k - 1, by omega⟩
      exact h.inner l (by omega)
  · intro h
    refine ⟨?_, ?_, ?_⟩
    · simpa [natRow, natRhs] using h 0 (by omega)
    · have := h (n - 1) (by omega)
      have e : n - 1 ≠ 0 := by omega
      simpa [natRow, natRhs, e] using this
    · intro k hk
      have := h (k + 1) (by omega)
      have e : k + 1 ≠ n - 1 := by omega
      simpa [natRow, natRhs, e] using this

theorem natRow_linear (n : Nat) (x d e : Nat → ℝ) (a : ℝ) (k : Nat) :
    natRow n x (fun i => d i + a * e i) k = natRow n x d k + a * natRow n x e k := by
  unfold natRow
  split_ifs <;> ring

/-- The system without right-hand side has only the zero solution: look at the largest entry. -/
theorem natRow_zero {n : Nat} (hn : 2 ≤ n) {x : Nat → ℝ} (hx : ∀ i, i + 1 < n → x i < x (i + 1)) {e : Nat → ℝ}
    (h : ∀ k, k < n → natRow n x e k = 0) : ∀ k, k < n → e k = 0 := by
  obtain ⟨k, hk, hmax⟩ : ∃ k, k < n ∧ ∀ i, i < n → |e i| ≤ |e k| := by
    obtain ⟨k, hk, hm⟩ := Finset.exists_max_image (Finset.range n) (fun i => |e i|) ⟨0, by simp; omega⟩
    exact ⟨k, by simpa using hk, fun i hi => hm i (by simpa using hi)⟩
  have ek : e k = 0 := by
    rw [← abs_eq_zero]
    have hr := h k hk
    unfold natRow at hr
    split_ifs at hr with h1 h2
    · subst h1
      have hp : 0 < x 1 - x 0 := by have := hx 0 (by omega); simpa using this
      have h3 : 2 * e 0 = -e 1 := by
        have : (x 1 - x 0) * (2 * e 0 + e 1) = 0 := by linarith
        rcases mul_eq_zero.1 this with h | h <;> linarith
      have h4 : 2 * |e 0| = |e 1| := by
        rw [← abs_neg (e 1), ← h3, abs_mul]; norm_num
      have h5 := hmax 1 (by omega)
      have := abs_nonneg (e 0)
      linarith
    · subst h2
      have e1 : n - 2 + 1 = n - 1 := by omega
      have hp : 0 < x (n - 1) - x (n - 2) := by have := hx (n - 2) (by omega); rw [e1] at this; linarith
      have h3 : 2 * e (n - 1) = -e (n - 2) := by
        have : (x (n - 1) - x (n - 2)) * (2 * e (n - 1) + e (n - 2)) = 0 := by linarith
        rcases mul_eq_zero.1 this with h | h <;> linarith
      have h4 : 2 * |e (n - 1)| = |e (n - 2)| := by
        rw [← abs_neg (e (n - 2)), ← h3, abs_mul]; norm_num
      have h5 := hmax (n - 2) (by omega)
      have := abs_nonneg (e (n - 1))
      linarith
    · have e1 : k - 1 + 1 = k := by omega
      have hp1 : 0 < x k - x (k - 1) := by have := hx (k - 1) (by omega); rw [e1] at this; linarith
      have hp2 : 0 < x (k + 1) - x k := by have := hx k (by omega); linarith
      obtain ⟨a, ha⟩ : ∃ a, a = x k - x (k - 1) := ⟨_, rfl⟩
      obtain ⟨b, hb⟩ : ∃ b, b = x (k + 1) - x k := ⟨_, rfl⟩
      rw [← ha] at hp1
      rw [← hb] at hp2
      rw [← ha, ← hb] at hr
      have h3 : 2 * (a + b) * e k = -(b * e (k - 1) + a * e (k + 1)) := by linarith
      have h4 : 2 * (a + b) * |e k| = |b * e (k - 1) + a * e (k + 1)| := by
        rw [← abs_neg (b * e (k - 1) + a * e (k + 1)), ← h3, abs_mul, abs_of_pos (by linarith : 0 < 2 * (a + b))]
      have h5 : |b * e (k - 1) + a * e (k + 1)| ≤ b * |e (k - 1)| + a * |e (k + 1)| := by
        refine (abs_add_le _ _).trans ?_
        rw [abs_mul, abs_mul, abs_of_pos hp1, abs_of_pos hp2]
      have h6 := mul_le_mul_of_nonneg_left (hmax (k - 1) (by omega)) hp2.le
      have h7 := mul_le_mul_of_nonneg_left (hmax (k + 1) (by omega)) hp1.le
      have h8 : (a + b) * |e k| ≤ 0 := by linarith
      have h9 := abs_nonneg (e k)
      have h10 : 0 ≤ (a + b) * |e k| := mul_nonneg (by linarith) h9
      have h11 : (a + b) * |e k| = 0 := le_antisymm h8 h10
      rcases mul_eq_zero.1 h11 with h | h
      · linarith
      · exact h
  intro i hi
  have := hmax i hi
  rw [ek, abs_zero] at this
  exact abs_eq_zero.1 (le_antisymm this (abs_nonneg _))

theorem natural_unique {n : Nat} (hn : 2 ≤ n) {x y d d' : Nat → ℝ} (hx : ∀ i, i + 1 < n → x i < x (i + 1))
    (h : NaturalSystem n x y d) (h' : NaturalSystem n x y d') : ∀ k, k < n → d k = d' k := by
  rw [natural_iff hn] at h h'
  have := natRow_zero hn hx (e := fun i => d i + (-1) * d' i) (by
    intro k hk
    rw [natRow_linear, h k hk, h' k hk]; ring)
  intro k hk
  have := this k hk
  linarith

theorem natural_exists {n : Nat} (hn : 2 ≤ n) {x : Nat → ℝ} (hx : ∀ i, i + 1 < n → x i < x (i + 1)) (y : Nat → ℝ) :
    ∃ d, NaturalSystem n x y d := by
  have nc : ∀ (d d' : Nat → ℝ), (∀ i, i < n → d i = d' i) → ∀ k, k < n → natRow n x d k = natRow n x d' k := by
    intro d d' h k hk
    unfold natRow
    split_ifs with h1 h2
    · rw [h 0 (by omega), h 1 (by omega)]
    · rw [h (n - 2) (by omega), h (n - 1) (by omega)]
    · rw [h (k - 1) (by omega), h k hk, h (k + 1) (by omega)]
  let ext : (Fin n → ℝ) → Nat → ℝ := fun d i => if hi : i < n then d ⟨i, hi⟩ else 0
  have ext_lin : ∀ d e a i, ext (d + a • e) i = ext d i + a * ext e i := by
    intro d e a i
    simp only [ext]
    split_ifs <;> simp
  let L : (Fin n → ℝ) →ₗ[ℝ] (Fin n → ℝ) :=
    { toFun := fun d k => natRow n x (ext d) k
      map_add' := by
        intro d e
        funext k
        have := natRow_linear n x (ext d) (ext e) 1 k
        have e1 : ext (d + e) = fun i => ext d i + 1 * ext e i := by
          funext i
          have := ext_lin d e 1 i
          rwa [one_smul] at this
        simp only [Pi.add_apply]
        rw [e1, this]; ring
      map_smul' := by
        intro a e
        funext k
        have := natRow_linear n x (ext 0) (ext e) a k
        have e1 : ext (a • e) = fun i => ext 0 i + a * ext e i := by
          funext i
          have := ext_lin 0 e a i
          rwa [zero_add] at this
        have e0 : natRow n x (ext 0) k = 0 := by
          have : ext 0 = fun _ => 0 := by funext i; simp [ext]
          rw [this]; unfold natRow; split_ifs <;> ring
        simp only [Pi.smul_apply, RingHom.id_apply, smul_eq_mul]
        rw [e1, this, e0]; ring }
  have inj : Function.Injective L := by
    rw [injective_iff_map_eq_zero]
    intro d hd
    funext k
    have := natRow_zero hn hx (e := ext d) (fun k hk => congrFun hd ⟨k, hk⟩) k k.2
    simpa [ext] using this
  obtain ⟨d, hd⟩ := (LinearMap.injective_iff_surjective.1 inj) (fun k => natRhs n x y k)
  refine ⟨ext d, (natural_iff hn _ _ _).2 ?_⟩
  intro k hk
  exact congrFun hd ⟨k, hk⟩

/-- Libraries that meet the contract exist. -/
theorem exists_naturalOk : ∃ lib : SplineLib, NaturalOk lib := by
  classical
  refine ⟨⟨fun _ y => y, fun _ xs y => .ok ⟨y.m, y.k, fun i j =>
    if h : ∃ d, NaturalSystem xs.length (fun i => xs.getD i 0) (fun i => y.v i j) d then h.choose i else 0⟩,
    fun _ _ _ _ _ _ => .error .valueError, fun _ _ _ _ => .error .valueError, fun _ _ _ _ => .error .valueError⟩, ?_⟩
  intro xs y hk
  obtain ⟨h1, h2, h3⟩ := knotsOk_iff.1 hk
  refine ⟨_, rfl, ?_⟩
  intro j hj
  have h : ∃ d, NaturalSystem xs.length (fun i => xs.getD i 0) (fun i => y.v i j) d :=
    natural_exists h1 (fun i hi => knot_lt h3 (show i < i + 1 by omega) hi) _
  have := h.choose_spec
  simp only [dif_pos h]
  exact this

/-! ## The pieces as polynomials -/

open Polynomial in
/-- The cubic of `hermR`. -/
noncomputable def hermPoly (x0 x1 y0 y1 d0 d1 : ℝ) : Polynomial ℝ :=
  C y0 + C d0 * (X - C x0) + C (((y1 - y0) / (x1 - x0) - d0) / (x1 - x0) - (d0 + d1 - 2 * ((y1 - y0) / (x1 - x0))) / (x1 - x0)) *
    (X - C x0) ^ 2 + C ((d0 + d1 - 2 * ((y1 - y0) / (x1 - x0))) / (x1 - x0) / (x1 - x0)) * (X - C x0) ^ 3

theorem hermPoly_eval (x0 x1 y0 y1 d0 d1 x : ℝ) : (hermPoly x0 x1 y0 y1 d0 d1).eval x = hermR x0 x1 y0 y1 d0 d1 x := by
  simp [hermPoly, hermR]

theorem hermPoly_degree (x0 x1 y0 y1 d0 d1 : ℝ) : (hermPoly x0 x1 y0 y1 d0 d1).natDegree ≤ 3 := by
  unfold hermPoly
  have h1 : ∀ (a : ℝ) (k : Nat), k ≤ 3 → (Polynomial.C a * (Polynomial.X - Polynomial.C x0) ^ k).natDegree ≤ 3 := by
    intro a k hk
    refine (Polynomial.natDegree_C_mul_le _ _).trans ?_
    refine (Polynomial.natDegree_pow_le).trans ?_
    rw [Polynomial.natDegree_X_sub_C]; omega
  have h2 := h1 d0 1 (by omega)
  rw [pow_one] at h2
  refine (Polynomial.natDegree_add_le_of_degree_le (Polynomial.natDegree_add_le_of_degree_le
    (Polynomial.natDegree_add_le_of_degree_le ?_ h2) (h1 _ 2 (by omega))) (h1 _ 3 (by omega)))
  rw [Polynomial.natDegree_C]; omega

theorem hermPoly_deriv (x0 x1 y0 y1 d0 d1 x : ℝ) :
    (Polynomial.derivative (hermPoly x0 x1 y0 y1 d0 d1)).eval x = hermD x0 x1 y0 y1 d0 d1 x := by
  simp [hermPoly, hermD, Polynomial.derivative_pow]
  ring

theorem hermPoly_deriv2_left {x0 x1 : ℝ} (h : x0 < x1) (y0 y1 d0 d1 : ℝ) :
    (Polynomial.derivative (Polynomial.derivative (hermPoly x0 x1 y0 y1 d0 d1))).eval x0 =
      (6 * ((y1 - y0) / (x1 - x0)) - 4 * d0 - 2 * d1) / (x1 - x0) := by
  simp [hermPoly, Polynomial.derivative_pow]
  ring

theorem hermPoly_deriv2_right {x0 x1 : ℝ} (h : x0 < x1) (y0 y1 d0 d1 : ℝ) :
    (Polynomial.derivative (Polynomial.derivative (hermPoly x0 x1 y0 y1 d0 d1))).eval x1 =
      (2 * d0 + 4 * d1 - 6 * ((y1 - y0) / (x1 - x0))) / (x1 - x0) := by
  have : x1 - x0 ≠ 0 := by linarith
  simp [hermPoly, Polynomial.derivative_pow]
  field_simp
  ring

end Verif.Model
