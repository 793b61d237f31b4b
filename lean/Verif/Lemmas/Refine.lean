import Verif.Lemmas.SplineError

/-!
A cubic spline and the spline through its own values at more knots.
-/
namespace Verif.Props

open Verif Verif.Np Verif.Model Verif.Spec Set

section
variable {t xs : List ℝ} {y y' : Nat → ℝ} {f f' : ℝ → ℝ} {P P' : Nat → Polynomial ℝ}

theorem knot_index {t : List ℝ} {x : ℝ} (h : x ∈ t) : ∃ i, i < t.length ∧ knot t i = x := by
  obtain ⟨i, hi, e⟩ := List.getElem_of_mem h
  exact ⟨i, hi, knot_eq (by rw [List.getElem?_eq_getElem hi, e])⟩

theorem knot_mem {t : List ℝ} {i : Nat} (hi : i < t.length) : knot t i ∈ t := List.mem_of_getElem? (knot_some hi)

/-- A step of the finer knots lies in one step of the coarser ones. -/
theorem refine_step (ht : t.Pairwise (· < ·)) (hl : 2 ≤ t.length) (hx : xs.Pairwise (· < ·)) (hsub : ∀ x ∈ t, x ∈ xs)
    (hin : ∀ x ∈ xs, knot t 0 ≤ x ∧ x ≤ knot t (t.length - 1)) {i : Nat} (hi : i + 1 < xs.length) :
    ∃ k, k + 1 < t.length ∧ knot t k ≤ knot xs i ∧ knot xs (i + 1) ≤ knot t (k + 1) := by
  obtain ⟨l0, -⟩ := hin _ (knot_mem (t := xs) (i := i) (by omega))
  obtain ⟨-, l1⟩ := hin _ (knot_mem hi)
  have hlt := knot_lt hx (show i < i + 1 by omega) hi
  obtain ⟨k, u, v, hu, hv, h1, h2⟩ := between_neighbours t hl (by rw [List.head?_eq_getElem?]; exact knot_some (by omega))
    (by rw [List.getLast?_eq_getElem?]; exact knot_some (by omega)) (x := (knot xs i + knot xs (i + 1)) / 2) (by linarith) (by linarith)
  have hk := (List.getElem?_eq_some_iff.1 hv).1
  obtain rfl := knot_eq hu
  obtain rfl := knot_eq hv
  refine ⟨k, hk, ?_, ?_⟩
  · obtain ⟨j, hj, e⟩ := knot_index (hsub _ (knot_mem (t := t) (i := k) (by omega)))
    rw [← e] at h1 ⊢
    have : ¬ i + 1 ≤ j := by
      intro hij
      have := knot_le hx hij hj
      linarith
    exact knot_le hx (by omega) (by omega)
  · obtain ⟨j, hj, e⟩ := knot_index (hsub _ (knot_mem hk))
    rw [← e] at h2 ⊢
    have : ¬ j ≤ i := by
      intro hij
      have := knot_le hx hij (by omega)
      linarith
    exact knot_le hx (by omega) hj

theorem refine_ends (ht : t.Pairwise (· < ·)) (hl : 2 ≤ t.length) (hx : xs.Pairwise (· < ·)) (hsub : ∀ x ∈ t, x ∈ xs)
    (hin : ∀ x ∈ xs, knot t 0 ≤ x ∧ x ≤ knot t (t.length - 1)) :
    2 ≤ xs.length ∧ knot xs 0 = knot t 0 ∧ knot xs (xs.length - 1) = knot t (t.length - 1) := by
  obtain ⟨i, hi, e⟩ := knot_index (hsub _ (knot_mem (t := t) (i := 0) (by omega)))
  obtain ⟨j, hj, e'⟩ := knot_index (hsub _ (knot_mem (t := t) (i := t.length - 1) (by omega)))
  have hlt := knot_lt ht (show 0 < t.length - 1 by omega) (by omega)
  have hij : i < j := by
    by_contra hc
    have := knot_le hx (not_lt.1 hc) hi
    linarith
  refine ⟨by omega, le_antisymm ?_ (hin _ (knot_mem (by omega))).1, le_antisymm (hin _ (knot_mem (by omega))).2 ?_⟩
  · rw [← e]; exact knot_le hx (by omega) hi
  · rw [← e']; exact knot_le hx (by omega) (by omega)

/-- The spline through the values of a spline at more knots is the same, if the end conditions are. -/
theorem spline_refine (ht : t.Pairwise (· < ·)) (hl : 2 ≤ t.length) (h : CubicOn t y f P) (hx : xs.Pairwise (· < ·)) (h' : CubicOn xs y' f' P')
    (hsub : ∀ x ∈ t, x ∈ xs) (hin : ∀ x ∈ xs, knot t 0 ≤ x ∧ x ≤ knot t (t.length - 1)) (hval : ∀ i, i < xs.length → y' i = f (knot xs i))
    (h0 : splineD2 xs P' (knot t 0) = splineD2 t P (knot t 0) ∨ splineD1 xs P' (knot t 0) = splineD1 t P (knot t 0))
    (h9 : splineD2 xs P' (knot t (t.length - 1)) = splineD2 t P (knot t (t.length - 1)) ∨
      splineD1 xs P' (knot t (t.length - 1)) = splineD1 t P (knot t (t.length - 1))) :
    ∀ x ∈ Icc (knot t 0) (knot t (t.length - 1)), f' x = f x := by
  obtain ⟨hl', e0, e9⟩ := refine_ends ht hl hx hsub hin
  have hf := cubicOn_twice ht hl h
  rw [← e0, ← e9] at hf ⊢
  rw [← e0] at h0
  rw [← e9] at h9
  have hstep := fun i (hi : i + 1 < xs.length) => refine_step ht hl hx hsub hin hi
  choose! k hk1 hk2 hk3 using hstep
  have hle : ∀ i, i + 1 < xs.length → knot xs i ≤ knot xs (i + 1) := fun i hi => knot_le hx (by omega) hi
  have hon : ∀ i, i + 1 < xs.length → ∀ x ∈ Icc (knot xs i) (knot xs (i + 1)), splineD2 t P x = (P (k i)).derivative.derivative.eval x :=
    fun i hi x hx' => (splineD_on ht h (hk1 i hi) ⟨(hk2 i hi).trans hx'.1, hx'.2.trans (hk3 i hi)⟩).2
  have hb := bend_error hx hl' h' hf (fun i hi => (hval i hi).symm) (Q := fun i => P (k i)) (w := fun i => splineD2 t P (knot xs i)) (δ := 0)
    (fun i => h.degree _) (fun i hi => ⟨(hon i hi _ (left_mem_Icc.2 (hle i hi))).symm, (hon i hi _ (right_mem_Icc.2 (hle i hi))).symm⟩)
    (fun i hi x hx' => by rw [hon i hi x hx', sub_self, abs_zero])
    (by rcases h0 with e | e <;> rw [e] <;> ring) (by rcases h9 with e | e <;> rw [e] <;> ring)
  intro x hx'
  have hgap : GapsLe (knot xs (xs.length - 1) - knot xs 0) xs := by
    intro i u v hu hv
    have hi := (List.getElem?_eq_some_iff.1 hv).1
    rw [← knot_eq hu, ← knot_eq hv]
    have := knot_le hx (Nat.zero_le i) (by omega)
    have := knot_le hx (show i + 1 ≤ xs.length - 1 by omega) (by omega)
    linarith
  have := (spline_error hx hl' h' hf (fun i hi => (hval i hi).symm) hgap hb x hx').2
  rw [show (0 : ℝ) ^ 2 * (knot xs (xs.length - 1) - knot xs 0) = 0 by ring, mul_zero, Real.sqrt_zero, mul_zero] at this
  have := abs_nonpos_iff.1 this
  linarith

end

end Verif.Props
