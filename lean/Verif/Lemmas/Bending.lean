import Verif.Lemmas.SplineBc
import Mathlib.MeasureTheory.Integral.IntervalIntegral.FundThmCalculus
import Mathlib.Analysis.Calculus.Deriv.Polynomial
import Mathlib.Topology.Algebra.Polynomial

/-!
Among all twice continuously differentiable functions through given points a cubic spline bends least.
-/
namespace Verif.Props

open Verif Verif.Np Verif.Model Verif.Spec Set

/-- Derivatives on neighbouring intervals. -/
theorem glue_deriv {x : Nat → ℝ} {f f' : ℝ → ℝ} {m : Nat} (hm : 1 ≤ m) (hx : ∀ i, i < m → x i ≤ x (i + 1))
    (h : ∀ i, i < m → DerivOn (x i) (x (i + 1)) f f') : x 0 ≤ x m ∧ DerivOn (x 0) (x m) f f' := by
  induction m, hm using Nat.le_induction with
  | base => exact ⟨hx 0 (by omega), h 0 (by omega)⟩
  | succ m hm ih =>
    obtain ⟨h0, hd⟩ := ih (fun i hi => hx i (by omega)) (fun i hi => h i (by omega))
    have h1 := hx m (by omega)
    refine ⟨h0.trans h1, ?_⟩
    intro z hz
    have hu : Icc (x 0) (x (m + 1)) = Icc (x 0) (x m) ∪ Icc (x m) (x (m + 1)) := (Icc_union_Icc_eq_Icc h0 h1).symm
    rw [hu]
    refine HasDerivWithinAt.union ?_ ?_
    · by_cases hz' : z ∈ Icc (x 0) (x m)
      · exact hd z hz'
      · exact HasFDerivWithinAt.of_notMem_closure (by rwa [isClosed_Icc.closure_eq])
    · by_cases hz' : z ∈ Icc (x m) (x (m + 1))
      · exact h m (by omega) z hz'
      · exact HasFDerivWithinAt.of_notMem_closure (by rwa [isClosed_Icc.closure_eq])

/-- Continuity on neighbouring intervals. -/
theorem glue_cont {x : Nat → ℝ} {f : ℝ → ℝ} {m : Nat} (hm : 1 ≤ m) (hx : ∀ i, i < m → x i ≤ x (i + 1))
    (h : ∀ i, i < m → ContinuousOn f (Icc (x i) (x (i + 1)))) : x 0 ≤ x m ∧ ContinuousOn f (Icc (x 0) (x m)) := by
  induction m, hm using Nat.le_induction with
  | base => exact ⟨hx 0 (by omega), h 0 (by omega)⟩
  | succ m hm ih =>
    obtain ⟨h0, hd⟩ := ih (fun i hi => hx i (by omega)) (fun i hi => h i (by omega))
    have h1 := hx m (by omega)
    refine ⟨h0.trans h1, ?_⟩
    rw [← Icc_union_Icc_eq_Icc h0 h1]
    exact hd.union_of_isClosed (h m (by omega)) isClosed_Icc isClosed_Icc

theorem _root_.Verif.Spec.TwiceOn.mono {a b a' b' : ℝ} {f f1 f2 : ℝ → ℝ} (h : TwiceOn a b f f1 f2) (ha : a ≤ a') (hb : b' ≤ b) :
    TwiceOn a' b' f f1 f2 :=
  ⟨h.1.mono ha hb, h.2.1.mono ha hb, h.2.2.mono (Icc_subset_Icc ha hb)⟩

theorem _root_.Verif.Spec.TwiceOn.sub {a b : ℝ} {f f1 f2 g g1 g2 : ℝ → ℝ} (h : TwiceOn a b f f1 f2) (h' : TwiceOn a b g g1 g2) :
    TwiceOn a b (fun x => f x - g x) (fun x => f1 x - g1 x) (fun x => f2 x - g2 x) :=
  ⟨fun x hx => (h.1 x hx).sub (h'.1 x hx), fun x hx => (h.2.1 x hx).sub (h'.2.1 x hx), h.2.2.sub h'.2.2⟩

/-- Integration by parts over one piece. -/
theorem bend_piece {u v : ℝ} (huv : u ≤ v) {P : Polynomial ℝ} (hP : P.natDegree ≤ 3) {e e1 e2 : ℝ → ℝ} (he : TwiceOn u v e e1 e2)
    (hu : e u = 0) (hv : e v = 0) :
    ∫ x in u..v, P.derivative.derivative.eval x * e2 x = P.derivative.derivative.eval v * e1 v - P.derivative.derivative.eval u * e1 u := by
  obtain ⟨P2, h2⟩ : ∃ P2, P2 = P.derivative.derivative := ⟨_, rfl⟩
  have h4 : P2.derivative.derivative = 0 := by
    apply Polynomial.derivative_of_natDegree_zero
    have a := Polynomial.natDegree_derivative_le P
    have b := Polynomial.natDegree_derivative_le P.derivative
    have c := Polynomial.natDegree_derivative_le P2
    rw [← h2] at b
    omega
  rw [← h2]
  have hc : ContinuousOn (fun x => P2.eval x * e2 x) (Icc u v) := (Polynomial.continuous P2).continuousOn.mul he.2.2
  have hder : ∀ x ∈ Icc u v, HasDerivWithinAt (fun x => P2.eval x * e1 x - P2.derivative.eval x * e x) (P2.eval x * e2 x) (Icc u v) x := by
    intro x hx
    have a := ((P2.hasDerivAt x).hasDerivWithinAt (s := Icc u v)).mul (he.2.1 x hx)
    have b := ((P2.derivative.hasDerivAt x).hasDerivWithinAt (s := Icc u v)).mul (he.1 x hx)
    refine (a.sub b).congr_deriv ?_
    rw [h4]
    simp
  have := intervalIntegral.integral_eq_sub_of_hasDerivAt_of_le (f := fun x => P2.eval x * e1 x - P2.derivative.eval x * e x)
    (f' := fun x => P2.eval x * e2 x) huv (fun x hx => (hder x hx).continuousWithinAt)
    (fun x hx => (hder x (Ioo_subset_Icc_self hx)).hasDerivAt (Icc_mem_nhds hx.1 hx.2))
    (by apply ContinuousOn.intervalIntegrable; rwa [uIcc_of_le huv])
  rw [this, hu, hv]
  ring

section
variable {t : List ℝ} {y : Nat → ℝ} {f : ℝ → ℝ} {P : Nat → Polynomial ℝ}

/-- The first derivative of the spline. -/
noncomputable def splineD1 (t : List ℝ) (P : Nat → Polynomial ℝ) (x : ℝ) : ℝ := (P (pieceOf t (.fin x))).derivative.eval x
/-- Its second derivative. -/
noncomputable def splineD2 (t : List ℝ) (P : Nat → Polynomial ℝ) (x : ℝ) : ℝ := (P (pieceOf t (.fin x))).derivative.derivative.eval x

theorem splineD_on (ht : t.Pairwise (· < ·)) (h : CubicOn t y f P) {i : Nat} (hi : i + 1 < t.length) {x : ℝ}
    (hx : x ∈ Icc (knot t i) (knot t (i + 1))) :
    splineD1 t P x = (P i).derivative.eval x ∧ splineD2 t P x = (P i).derivative.derivative.eval x := by
  unfold splineD1 splineD2
  by_cases h3 : i + 2 = t.length ∨ x < knot t (i + 1)
  · rw [pieceOf_eq ht hi (.inr hx.1) h3]
    exact ⟨rfl, rfl⟩
  · rw [not_or] at h3
    have hx' : x = knot t (i + 1) := le_antisymm hx.2 (not_lt.1 h3.2)
    have hi2 : i + 1 + 1 < t.length := by omega
    rw [hx', pieceOf_eq ht hi2 (.inr (le_refl _)) (.inr (knot_lt ht (by omega) hi2))]
    exact ⟨(h.slope i _ (knot_some hi) (by omega)).symm, (h.bend i _ (knot_some hi) (by omega)).symm⟩

/-- The spline is twice continuously differentiable. -/
theorem cubicOn_twice (ht : t.Pairwise (· < ·)) (hl : 2 ≤ t.length) (h : CubicOn t y f P) :
    TwiceOn (knot t 0) (knot t (t.length - 1)) f (splineD1 t P) (splineD2 t P) := by
  have hx : ∀ i, i < t.length - 1 → knot t i ≤ knot t (i + 1) := fun i hi => knot_le ht (by omega) (by omega)
  refine ⟨(glue_deriv (x := knot t) (by omega) hx ?_).2, (glue_deriv (x := knot t) (by omega) hx ?_).2,
    (glue_cont (x := knot t) (by omega) hx ?_).2⟩
  · intro i hi x hx'
    have hi' : i + 1 < t.length := by omega
    rw [(splineD_on ht h hi' hx').1]
    refine (((P i).hasDerivAt x).hasDerivWithinAt).congr (fun z hz => ?_) ?_
    · exact h.piece i _ _ (knot_some (by omega)) (knot_some hi') z hz.1 hz.2
    · exact h.piece i _ _ (knot_some (by omega)) (knot_some hi') x hx'.1 hx'.2
  · intro i hi x hx'
    have hi' : i + 1 < t.length := by omega
    rw [(splineD_on ht h hi' hx').2]
    exact (((P i).derivative.hasDerivAt x).hasDerivWithinAt).congr (fun z hz => (splineD_on ht h hi' hz).1) (splineD_on ht h hi' hx').1
  · intro i hi
    exact (Polynomial.continuous (P i).derivative.derivative).continuousOn.congr
      (fun z hz => (splineD_on ht h (by omega) hz).2)

/-- The spline takes the values. -/
theorem cubicOn_values (ht : t.Pairwise (· < ·)) (hl : 2 ≤ t.length) (h : CubicOn t y f P) {i : Nat} (hi : i < t.length) :
    f (knot t i) = y i := by
  by_cases h1 : i + 1 < t.length
  · rw [h.piece i _ _ (knot_some hi) (knot_some h1) _ le_rfl (knot_le ht (by omega) h1), h.left i _ (knot_some hi) h1]
  · obtain ⟨k, rfl⟩ : ∃ k, i = k + 1 := ⟨i - 1, by omega⟩
    rw [h.piece k _ _ (knot_some (by omega)) (knot_some hi) _ (knot_le ht (by omega) hi) le_rfl, h.right k _ (knot_some hi)]

/-- The second derivative of a spline against that of a function that vanishes at the knots. -/
theorem bend_orth (ht : t.Pairwise (· < ·)) (hl : 2 ≤ t.length) (h : CubicOn t y f P) {e e1 e2 : ℝ → ℝ}
    (he : TwiceOn (knot t 0) (knot t (t.length - 1)) e e1 e2) (h0 : ∀ i, i < t.length → e (knot t i) = 0) :
    ∫ x in (knot t 0)..(knot t (t.length - 1)), splineD2 t P x * e2 x =
      splineD2 t P (knot t (t.length - 1)) * e1 (knot t (t.length - 1)) - splineD2 t P (knot t 0) * e1 (knot t 0) := by
  have hf := cubicOn_twice ht hl h
  have hle : ∀ i, i + 1 < t.length → knot t i ≤ knot t (i + 1) := fun i hi => knot_le ht (by omega) (by omega)
  have hsub : ∀ i, i + 1 < t.length → Icc (knot t i) (knot t (i + 1)) ⊆ Icc (knot t 0) (knot t (t.length - 1)) := by
    intro i hi
    exact Icc_subset_Icc (knot_le ht (by omega) (by omega)) (knot_le ht (by omega) (by omega))
  rw [← intervalIntegral.sum_integral_adjacent_intervals (a := knot t) (n := t.length - 1), ← Finset.sum_range_sub
    (fun i => splineD2 t P (knot t i) * e1 (knot t i))]
  · apply Finset.sum_congr rfl
    intro i hi
    have hi' : i + 1 < t.length := by have := Finset.mem_range.1 hi; omega
    have hmono := he.mono (knot_le ht (Nat.zero_le i) (by omega)) (knot_le ht (show i + 1 ≤ t.length - 1 by omega) (by omega))
    rw [(splineD_on ht h hi' (left_mem_Icc.2 (hle i hi'))).2, (splineD_on ht h hi' (right_mem_Icc.2 (hle i hi'))).2,
      ← bend_piece (hle i hi') (h.degree i) hmono (h0 i (by omega)) (h0 (i + 1) hi')]
    apply intervalIntegral.integral_congr
    intro x hx
    rw [uIcc_of_le (hle i hi')] at hx
    simp only
    rw [(splineD_on ht h hi' hx).2]
  · intro k hk
    apply ContinuousOn.intervalIntegrable
    rw [uIcc_of_le (hle k (by omega))]
    exact (hf.2.2.mul he.2.2).mono (hsub k (by omega))

/-- A function with second derivative 0 that vanishes at two places. -/
theorem zero_of_bend_zero {a b c : ℝ} (hac : a < c) (hcb : c ≤ b) {e e1 e2 : ℝ → ℝ} (he : TwiceOn a b e e1 e2)
    (h2 : ∀ x ∈ Icc a b, e2 x = 0) (ha : e a = 0) (hc : e c = 0) : ∀ x ∈ Icc a b, e x = 0 := by
  have h1 : ∀ x ∈ Icc a b, e1 x = e1 a := by
    intro x hx
    have := norm_le_pow (F := fun z => e1 z - e1 a) (D := e2) (C := 0) 0 (fun z hz => (he.2.1 z hz).sub_const _) (by simp)
      (fun z hz => by rw [h2 z hz]; simp) hx
    have h3 : ‖e1 x - e1 a‖ ≤ 0 := by simpa using this
    have := norm_le_zero_iff.1 h3
    linarith
  have hl : ∀ x ∈ Icc a b, e x = e1 a * (x - a) := by
    intro x hx
    have := norm_le_pow (F := fun z => e z - e1 a * (z - a)) (D := fun z => e1 z - e1 a) (C := 0) 0 (fun z hz => by
      have k := (he.1 z hz).sub ((((hasDerivAt_id z).sub_const a).const_mul (e1 a)).hasDerivWithinAt)
      exact k.congr_deriv (by simp)) (by simp [ha])
      (fun z hz => by rw [h1 z hz]; simp) hx
    have h3 : ‖e x - e1 a * (x - a)‖ ≤ 0 := by simpa using this
    have := norm_le_zero_iff.1 h3
    linarith
  have hz : e1 a = 0 := by
    have := hl c ⟨hac.le, hcb⟩
    rw [hc] at this
    exact (mul_eq_zero.1 this.symm).resolve_right (by linarith)
  intro x hx
  rw [hl x hx, hz, zero_mul]

/-- The spline bends least among the functions through the points for which the boundary term vanishes. -/
theorem least_bending (ht : t.Pairwise (· < ·)) (hl : 2 ≤ t.length) (h : CubicOn t y f P) {g g1 g2 : ℝ → ℝ}
    (hg : TwiceOn (knot t 0) (knot t (t.length - 1)) g g1 g2) (hv : ∀ i, i < t.length → g (knot t i) = y i)
    (hend : splineD2 t P (knot t (t.length - 1)) * (g1 (knot t (t.length - 1)) - splineD1 t P (knot t (t.length - 1))) -
      splineD2 t P (knot t 0) * (g1 (knot t 0) - splineD1 t P (knot t 0)) = 0) :
    bending (knot t 0) (knot t (t.length - 1)) (splineD2 t P) ≤ bending (knot t 0) (knot t (t.length - 1)) g2 ∧
      (bending (knot t 0) (knot t (t.length - 1)) g2 = bending (knot t 0) (knot t (t.length - 1)) (splineD2 t P) →
        ∀ x ∈ Icc (knot t 0) (knot t (t.length - 1)), g x = f x) := by
  have hf := cubicOn_twice ht hl h
  have hab : knot t 0 < knot t (t.length - 1) := knot_lt ht (by omega) (by omega)
  have he := hg.sub hf
  have horth := bend_orth ht hl h he (fun i hi => by rw [hv i hi, cubicOn_values ht hl h hi, sub_self])
  rw [hend] at horth
  have ii : ∀ {φ : ℝ → ℝ}, ContinuousOn φ (Icc (knot t 0) (knot t (t.length - 1))) →
      IntervalIntegrable φ MeasureTheory.volume (knot t 0) (knot t (t.length - 1)) := by
    intro φ hφ
    apply ContinuousOn.intervalIntegrable
    rwa [uIcc_of_le hab.le]
  have hsum : bending (knot t 0) (knot t (t.length - 1)) g2 = bending (knot t 0) (knot t (t.length - 1)) (splineD2 t P) +
      ∫ x in (knot t 0)..(knot t (t.length - 1)), (g2 x - splineD2 t P x) ^ 2 := by
    unfold bending
    have e : (fun x => g2 x ^ 2) = fun x => splineD2 t P x ^ 2 + (g2 x - splineD2 t P x) ^ 2 +
        2 * (splineD2 t P x * (g2 x - splineD2 t P x)) := by
      funext x; ring
    rw [e, intervalIntegral.integral_add, intervalIntegral.integral_add, intervalIntegral.integral_const_mul, horth]
    · ring
    · exact ii (hf.2.2.pow 2)
    · exact ii (he.2.2.pow 2)
    · exact ii ((hf.2.2.pow 2).add (he.2.2.pow 2))
    · exact ii ((hf.2.2.mul he.2.2).const_mul 2)
  have hnn : 0 ≤ ∫ x in (knot t 0)..(knot t (t.length - 1)), (g2 x - splineD2 t P x) ^ 2 :=
    intervalIntegral.integral_nonneg hab.le (fun x _ => sq_nonneg _)
  refine ⟨by linarith, ?_⟩
  intro heq
  have hzero : ∫ x in (knot t 0)..(knot t (t.length - 1)), (g2 x - splineD2 t P x) ^ 2 = 0 := by linarith
  have hz : ∀ x ∈ Icc (knot t 0) (knot t (t.length - 1)), g2 x - splineD2 t P x = 0 := by
    by_contra hcon
    push Not at hcon
    obtain ⟨x, hx, hne⟩ := hcon
    have := intervalIntegral.integral_lt_integral_of_continuousOn_of_le_of_exists_lt (f := fun _ => (0 : ℝ))
      (g := fun x => (g2 x - splineD2 t P x) ^ 2) hab continuousOn_const (he.2.2.pow 2) (fun x _ => sq_nonneg _)
      ⟨x, hx, by positivity⟩
    rw [hzero] at this
    simp at this
  have hend := zero_of_bend_zero (c := knot t 1) (knot_lt ht (by omega) (by omega)) (knot_le ht (by omega) (by omega)) he hz
    (by rw [hv 0 (by omega), cubicOn_values ht hl h (by omega), sub_self])
    (by rw [hv 1 (by omega), cubicOn_values ht hl h (by omega), sub_self])
  intro x hx
  have := hend x hx
  linarith

end

end Verif.Props
