import Verif.Lemmas.SplineBc
import Verif.Spec.SplineEnds

/-!
The linear systems of cubic splines with a boundary condition for each end have exactly one solution.
-/
namespace Verif.Model

open Verif Verif.Np Verif.Spec

theorem startRow_linear (n : Nat) (x : Nat → ℝ) (a : EndCond) (d e : Nat → ℝ) (s : ℝ) :
    startRow n x (fun i => d i + s * e i) a = startRow n x d a + s * startRow n x e a := by
  cases a <;> simp only [startRow]
  · ring
  · split_ifs <;> ring

theorem stopRow_linear (n : Nat) (x : Nat → ℝ) (a : EndCond) (d e : Nat → ℝ) (s : ℝ) :
    stopRow n x (fun i => d i + s * e i) a = stopRow n x d a + s * stopRow n x e a := by
  cases a <;> simp only [stopRow]
  · ring
  · split_ifs <;> ring

/-- Second derivative 0 at an end halves. -/
theorem bend_halves {h u v M : ℝ} (hh : 0 < h) (e : 2 * h * u + h * v = 0) (hv : |v| ≤ M) : |u| ≤ 1 / 2 * M := by
  have : h * (2 * u + v) = 0 := by linarith
  have h2 : 2 * u + v = 0 := (mul_eq_zero.1 this).resolve_left hh.ne'
  have h3 : u = -(1 / 2) * v := by linarith
  rw [h3, abs_mul, abs_neg, abs_of_pos (by norm_num : (0:ℝ) < 1 / 2)]
  linarith

section
variable {n : Nat} (hn : 2 ≤ n) {x : Nat → ℝ} (hx : ∀ i, i + 1 < n → x i < x (i + 1))
include hn hx

/-- Only 0 solves the system without right-hand side. -/
theorem endRows_ker {a b : EndCond} (hab : a ≠ .knot ∨ b ≠ .knot) (e : Nat → ℝ) (h1 : startRow n x e a = 0) (h2 : stopRow n x e b = 0)
    (h : ∀ k, 0 < k → k + 1 < n → innerRow x e k = 0) : ∀ k, k < n → e k = 0 := by
  classical
  have e9 : n - 2 + 1 = n - 1 := by omega
  have p0 : x 0 < x 1 := hx 0 (by omega)
  have p9 := hx (n - 2) (by omega)
  rw [e9] at p9
  -- the ends that are eliminated
  let A : Prop := a = .knot ∧ n ≠ 2
  let B : Prop := b = .knot ∧ n ≠ 2
  have hAB : ¬ (A ∧ B) := by rintro ⟨⟨h, _⟩, h', _⟩; exact hab.elim (fun g => g h) (fun g => g h')
  let S : Finset Nat := (Finset.range n).filter fun k => ¬ (A ∧ k = 0) ∧ ¬ (B ∧ k = n - 1)
  have memS : ∀ k, k ∈ S ↔ k < n ∧ ¬ (A ∧ k = 0) ∧ ¬ (B ∧ k = n - 1) := by intro k; simp [S]
  have hA : A → 3 ≤ n ∧ (x 2 - x 1) * e 0 + (x 2 - x 0) * e 1 = 0 ∧ x 1 < x 2 := by
    rintro ⟨rfl, h2'⟩
    simp only [startRow, if_neg h2'] at h1
    exact ⟨by omega, h1, hx 1 (by omega)⟩
  have hB : B → 3 ≤ n ∧ (x (n - 1) - x (n - 3)) * e (n - 2) + (x (n - 2) - x (n - 3)) * e (n - 1) = 0 ∧ x (n - 3) < x (n - 2) := by
    rintro ⟨rfl, h2'⟩
    simp only [stopRow, if_neg h2'] at h2
    have := hx (n - 3) (by omega)
    rw [show n - 3 + 1 = n - 2 by omega] at this
    exact ⟨by omega, h2, this⟩
  have mid := contract_zero S e (by
    intro k hk M hM
    obtain ⟨hk, kA, kB⟩ := (memS k).1 hk
    by_cases k0 : k = 0
    · subst k0
      have nA : ¬ A := fun h => kA ⟨h, rfl⟩
      cases a with
      | slope v => exact ⟨0, by norm_num, by simp only [startRow] at h1; rw [h1]; simp⟩
      | bend v =>
        simp only [startRow] at h1
        by_cases hb1 : 1 ∈ S
        · exact ⟨1 / 2, by norm_num, bend_halves (by linarith) h1 (hM 1 hb1)⟩
        · have hn2 : B ∧ 1 = n - 1 := by
            by_contra hc
            exact hb1 ((memS 1).2 ⟨by omega, by omega, hc⟩)
          have := (hB hn2.1).1
          omega
      | knot =>
        have : n = 2 := by by_contra hc; exact nA ⟨rfl, hc⟩
        simp only [startRow, if_pos this] at h1
        exact ⟨0, by norm_num, by rw [h1]; simp⟩
    by_cases k1 : k = n - 1
    · subst k1
      have nB : ¬ B := fun h => kB ⟨h, rfl⟩
      cases b with
      | slope v => exact ⟨0, by norm_num, by simp only [stopRow] at h2; rw [h2]; simp⟩
      | bend v =>
        simp only [stopRow] at h2
        by_cases hb1 : n - 2 ∈ S
        · exact ⟨1 / 2, by norm_num, bend_halves (h := x (n - 1) - x (n - 2)) (by linarith) (by linarith) (hM _ hb1)⟩
        · have hn2 : A ∧ n - 2 = 0 := by
            by_contra hc
            exact hb1 ((memS _).2 ⟨by omega, hc, by omega⟩)
          have := (hA hn2.1).1
          omega
      | knot =>
        have : n = 2 := by by_contra hc; exact nB ⟨rfl, hc⟩
        simp only [stopRow, if_pos this] at h2
        exact ⟨0, by norm_num, by rw [h2]; simp⟩
    by_cases kA1 : A ∧ k = 1
    · obtain ⟨ha, rfl⟩ := kA1
      obtain ⟨n3, r0, p1⟩ := hA ha
      have r1 := h 1 (by omega) (by omega)
      unfold innerRow at r1
      norm_num at r1
      refine ⟨(x 1 - x 0) / ((x 1 - x 0) + (x 2 - x 1)), by rw [div_lt_one (by linarith)]; linarith, ?_⟩
      exact edge_shrinks (by linarith) (by linarith) (w := e 2) (by linarith)
        (hM _ ((memS 2).2 ⟨by omega, by omega, fun hc => hAB ⟨ha, hc.1⟩⟩))
    by_cases kB1 : B ∧ k = n - 2
    · obtain ⟨hb, rfl⟩ := kB1
      obtain ⟨n3, r0, p1⟩ := hB hb
      have r2 := h (n - 2) (by omega) (by omega)
      unfold innerRow at r2
      rw [e9, show n - 2 - 1 = n - 3 by omega] at r2
      refine ⟨(x (n - 1) - x (n - 2)) / ((x (n - 1) - x (n - 2)) + (x (n - 2) - x (n - 3))),
        by rw [div_lt_one (by linarith)]; linarith, ?_⟩
      exact edge_shrinks (by linarith) (by linarith) (w := e (n - 3)) (by linarith)
        (hM _ ((memS _).2 ⟨by omega, fun hc => hAB ⟨hc.1, hb⟩, by omega⟩))
    refine ⟨1 / 2, by norm_num, ?_⟩
    have e1 : k - 1 + 1 = k := by omega
    have p1 := hx (k - 1) (by omega)
    rw [e1] at p1
    have p2 := hx k (by omega)
    refine inner_halves (by linarith) (by linarith) (h k (by omega) (by omega)) (hM _ ((memS _).2 ⟨by omega, ?_, by omega⟩))
      (hM _ ((memS _).2 ⟨by omega, by omega, ?_⟩))
    · rintro ⟨ha, hk0⟩; exact kA1 ⟨ha, by omega⟩
    · rintro ⟨hb, hk0⟩; exact kB1 ⟨hb, by omega⟩)
  intro k hk
  by_cases kA : A ∧ k = 0
  · obtain ⟨ha, rfl⟩ := kA
    obtain ⟨n3, r0, p1⟩ := hA ha
    have : e 1 = 0 := mid 1 ((memS 1).2 ⟨by omega, by omega, fun hc => hAB ⟨ha, hc.1⟩⟩)
    rw [this, mul_zero, add_zero] at r0
    exact (mul_eq_zero.1 r0).resolve_left (by linarith)
  by_cases kB : B ∧ k = n - 1
  · obtain ⟨hb, rfl⟩ := kB
    obtain ⟨n3, r0, p1⟩ := hB hb
    have : e (n - 2) = 0 := mid _ ((memS _).2 ⟨by omega, fun hc => hAB ⟨hc.1, hb⟩, by omega⟩)
    rw [this, mul_zero, zero_add] at r0
    exact (mul_eq_zero.1 r0).resolve_left (by linarith)
  exact mid k ((memS k).2 ⟨hk, kA, kB⟩)

theorem endsSystem_exists (y : Nat → ℝ) (j : Nat) (a b : EndCond) : ∃ d, EndsSystem n x y j a b d := by
  by_cases hab : a = .knot ∧ b = .knot
  · obtain ⟨d, hd⟩ := knot_exists hn hx y
    exact ⟨d, fun _ _ => hd, hd.inner, fun h => absurd hab (by tauto), fun h => absurd hab (by tauto)⟩
  · have hab' : a ≠ .knot ∨ b ≠ .knot := by tauto
    obtain ⟨d, h1, h2, h3⟩ := ends_exist hn (x := x) y (A := fun d => startRow n x d a) (B := fun d => stopRow n x d b)
      (fun _ _ _ => startRow_linear _ _ _ _ _ _) (fun _ _ _ => stopRow_linear _ _ _ _ _ _)
      (fun e => endRows_ker hn hx hab' e) (startRhs n x y j a) (stopRhs n x y j b)
    exact ⟨d, fun g1 g2 => absurd ⟨g1, g2⟩ hab, h3, fun _ => h1, fun _ => h2⟩

theorem endsSystem_unique {y : Nat → ℝ} {j : Nat} {a b : EndCond} {d d' : Nat → ℝ} (h : EndsSystem n x y j a b d)
    (h' : EndsSystem n x y j a b d') : ∀ k, k < n → d k = d' k := by
  by_cases hab : a = .knot ∧ b = .knot
  · exact knot_unique hn hx (h.knots hab.1 hab.2) (h'.knots hab.1 hab.2)
  · have hab' : a ≠ .knot ∨ b ≠ .knot := by tauto
    exact ends_unique (A := fun d => startRow n x d a) (B := fun d => stopRow n x d b)
      (fun _ _ _ => startRow_linear _ _ _ _ _ _) (fun _ _ _ => stopRow_linear _ _ _ _ _ _)
      (fun e => endRows_ker hn hx hab' e) (by rw [h.start hab', h'.start hab']) (by rw [h.stop hab', h'.stop hab']) h.inner h'.inner

end

/-- Libraries that meet the contracts exist. -/
theorem exists_endsOk : ∃ lib : SplineLib, NaturalOk lib ∧ BoundaryOk lib ∧ EndsOk lib := by
  classical
  obtain ⟨lib, h1, h2⟩ := exists_boundaryOk
  refine ⟨{ lib with cubicEnds := fun a b xs y => .ok ⟨y.m, y.k, fun i j =>
    if h : ∃ d, EndsSystem xs.length (fun i => xs.getD i 0) (fun i => y.v i j) j a b d then h.choose i else 0⟩ }, h1,
    ⟨h2.clamped, h2.knot, h2.periodic⟩, ?_⟩
  intro a b xs y hk
  obtain ⟨g1, _, g3⟩ := knotsOk_iff.1 hk
  refine ⟨_, rfl, ?_⟩
  intro j hj
  have h : ∃ d, EndsSystem xs.length (fun i => xs.getD i 0) (fun i => y.v i j) j a b d :=
    endsSystem_exists g1 (fun i hi => knot_lt g3 (show i < i + 1 by omega) hi) _ _ _ _
  have := h.choose_spec
  simp only [dif_pos h]
  exact this

end Verif.Model
