import Verif.Lemmas.PolyFit
import Verif.Spec.BestFit

/-! Best polynomials and shortest least squares solutions. -/
namespace Verif.Model

open Verif Verif.Np Verif.Spec

theorem zero_of_quad {A B : ℝ} (hA0 : 0 ≤ A) (key : ∀ e : ℝ, 0 ≤ e ^ 2 * A + 2 * e * B) : B = 0 := by
  have h1 := key (-B / (A + 1))
  have hp : 0 < A + 1 := by linarith
  have h3 : (-B / (A + 1)) ^ 2 * A + 2 * (-B / (A + 1)) * B = -(B ^ 2 * (A + 2)) / (A + 1) ^ 2 := by
    field_simp
    ring
  rw [h3, le_div_iff₀ (by positivity), zero_mul] at h1
  have h4 : B ^ 2 * (A + 2) ≤ 0 := by linarith
  have h5 : B ^ 2 ≤ 0 := by
    by_contra hc
    have : 0 < B ^ 2 * (A + 2) := mul_pos (not_le.1 hc) (by linarith)
    linarith
  exact pow_eq_zero_iff (two_ne_zero) |>.1 (le_antisymm h5 (sq_nonneg _))

/-- The values of a window as a list. -/
noncomputable def winList (a : ℤ) (wl : Nat) (z : ℤ → ℝ) : List ℝ := (List.range wl).map fun (k : Nat) => z (a + k)

theorem winList_getD {a : ℤ} {wl : Nat} {z : ℤ → ℝ} {k : Nat} (hk : k < wl) : (winList a wl z).getD k 0 = z (a + k) := by
  simp [winList, List.getD_eq_getElem?_getD, hk]

theorem polyErr_winList (a : ℤ) (wl : Nat) (z : ℤ → ℝ) (Q : Polynomial ℝ) :
    polyErr (winList a wl z) (Polynomial.taylor (a : ℝ) Q) = fitErr a wl z Q := by
  unfold polyErr fitErr
  have hl : (winList a wl z).length = wl := by simp [winList]
  rw [hl]
  apply Finset.sum_congr rfl
  intro k hk
  rw [winList_getD (Finset.mem_range.1 hk), Polynomial.taylor_eval, add_comm]

theorem polyErr_winList' (a : ℤ) (wl : Nat) (z : ℤ → ℝ) (Q : Polynomial ℝ) :
    polyErr (winList a wl z) Q = fitErr a wl z (Polynomial.taylor (-a : ℝ) Q) := by
  rw [← polyErr_winList, Polynomial.taylor_taylor]
  simp

theorem bestFit_min {po : Nat} {a : ℤ} {wl : Nat} {z : ℤ → ℝ} {P : Polynomial ℝ} (h : BestFit po a wl z P) (Q : Polynomial ℝ)
    (hQ : Q.natDegree ≤ po) : polyErr (winList a wl z) (Polynomial.taylor (a : ℝ) P) ≤ polyErr (winList a wl z) Q := by
  rw [polyErr_winList, polyErr_winList']
  exact h.best _ (by rw [Polynomial.natDegree_taylor]; exact hQ)

theorem bestFit_orth {po : Nat} {a : ℤ} {wl : Nat} {z : ℤ → ℝ} {P : Polynomial ℝ} (h : BestFit po a wl z P) :
    Orth wl po (fun k => z (a + k)) (Polynomial.taylor (a : ℝ) P) := by
  have hl : (winList a wl z).length = wl := by simp [winList]
  have := orth_of_min (ys := winList a wl z) (P := Polynomial.taylor (a : ℝ) P) (by rw [Polynomial.natDegree_taylor]; exact h.deg) (bestFit_min h)
  refine ⟨this.deg, fun Q hQ => ?_⟩
  refine Eq.trans ?_ (this.orth Q hQ)
  rw [hl]
  apply Finset.sum_congr rfl
  intro k hk
  rw [winList_getD (Finset.mem_range.1 hk)]

theorem bestFit_unique {po : Nat} {a : ℤ} {wl : Nat} (hpo : po < wl) {z : ℤ → ℝ} {P P' : Polynomial ℝ} (h : BestFit po a wl z P)
    (h' : BestFit po a wl z P') : P = P' :=
  Polynomial.taylor_injective (a : ℝ) ((bestFit_orth h).unique hpo (bestFit_orth h'))

theorem bestFit_of_polyErr {po : Nat} {a : ℤ} {wl : Nat} {z : ℤ → ℝ} {P : Polynomial ℝ} (hP : P.natDegree ≤ po)
    (h : ∀ Q : Polynomial ℝ, Q.natDegree ≤ po → polyErr (winList a wl z) P ≤ polyErr (winList a wl z) Q) :
    BestFit po a wl z (Polynomial.taylor (-a : ℝ) P) := by
  refine ⟨by rw [Polynomial.natDegree_taylor]; exact hP, fun Q hQ => ?_⟩
  rw [← polyErr_winList', ← polyErr_winList]
  exact h _ (by rw [Polynomial.natDegree_taylor]; exact hQ)

theorem bestFit_exists (po : Nat) (a : ℤ) (wl : Nat) (z : ℤ → ℝ) : ∃ P, BestFit po a wl z P := by
  obtain ⟨P, h1, h2⟩ := exists_polyfit (winList a wl z) po
  exact ⟨_, bestFit_of_polyErr h1 h2⟩

/-- The values of the window decide. -/
theorem bestFit_congr {po : Nat} {a : ℤ} {wl : Nat} {z z' : ℤ → ℝ} (hz : ∀ k : Nat, k < wl → z (a + k) = z' (a + k)) {P : Polynomial ℝ}
    (h : BestFit po a wl z P) : BestFit po a wl z' P := by
  have e : ∀ Q, fitErr a wl z Q = fitErr a wl z' Q := by
    intro Q
    unfold fitErr
    apply Finset.sum_congr rfl
    intro k hk
    rw [hz k (Finset.mem_range.1 hk)]
  exact ⟨h.deg, fun Q hQ => by rw [← e, ← e]; exact h.best Q hQ⟩

/-- The shortest least squares solution is orthogonal to everything the equations do not see. -/
theorem lstsq_orth {lib : LsqLib} (hl : MinNormOk lib) {A : List (List ℝ)} {y : List ℝ} {L : Nat} (hne : A ≠ [])
    (hr : ∀ r ∈ A, r.length = L) (hAy : A.length = y.length) (v : Nat → ℝ)
    (hv : ∀ i, i < y.length → ∑ k ∈ Finset.range L, at2 A i k * v k = 0) :
    ∑ k ∈ Finset.range L, (lib.lstsq A y).getD k 0 * v k = 0 := by
  have hlen := hl.lstsq_len A y L hne hr hAy
  refine zero_of_quad (A := ∑ k ∈ Finset.range L, v k ^ 2) (Finset.sum_nonneg fun _ _ => sq_nonneg _) ?_
  intro e
  have h := hl.lstsq_short A y L hne hr hAy ((List.range L).map fun k => (lib.lstsq A y).getD k 0 + e * v k) (by simp) (by
    apply le_of_eq
    unfold resid
    apply Finset.sum_congr rfl
    intro i hi
    rw [hlen, List.length_map, List.length_range]
    have h1 : ∀ k ∈ Finset.range L, at2 A i k * ((List.range L).map fun k => (lib.lstsq A y).getD k 0 + e * v k).getD k 0 =
        at2 A i k * (lib.lstsq A y).getD k 0 + e * (at2 A i k * v k) := by
      intro k hk
      have hk' := Finset.mem_range.1 hk
      have : ((List.range L).map fun k => (lib.lstsq A y).getD k 0 + e * v k).getD k 0 = (lib.lstsq A y).getD k 0 + e * v k := by
        rw [List.getD_eq_getElem?_getD, List.getElem?_map, List.getElem?_range hk', Option.map_some, Option.getD_some]
      rw [this]; ring
    rw [Finset.sum_congr rfl h1, Finset.sum_add_distrib, ← Finset.mul_sum, hv i (Finset.mem_range.1 hi), mul_zero, add_zero])
  have h1 : ∀ k ∈ Finset.range L, ((List.range L).map fun k => (lib.lstsq A y).getD k 0 + e * v k).getD k 0 ^ 2 =
      (lib.lstsq A y).getD k 0 ^ 2 + (e ^ 2 * v k ^ 2 + 2 * e * ((lib.lstsq A y).getD k 0 * v k)) := by
    intro k hk
    have hk' := Finset.mem_range.1 hk
    have : ((List.range L).map fun k => (lib.lstsq A y).getD k 0 + e * v k).getD k 0 = (lib.lstsq A y).getD k 0 + e * v k := by
      rw [List.getD_eq_getElem?_getD, List.getElem?_map, List.getElem?_range hk', Option.map_some, Option.getD_some]
    rw [this]; ring
  rw [Finset.sum_congr rfl h1, Finset.sum_add_distrib, Finset.sum_add_distrib, ← Finset.mul_sum, ← Finset.mul_sum] at h
  linarith

/-- The coefficients of the filter do not see what is orthogonal to all polynomials of the order. -/
theorem savgolCoeffs_orth {lib : LsqLib} (hl : MinNormOk lib) {wl po d : Nat} {delta : ℝ} {c : List ℝ}
    (h : savgolCoeffs lib wl po d delta = .ok c) (v : Nat → ℝ)
    (hv : ∀ Q : Polynomial ℝ, Q.natDegree ≤ po → ∑ k ∈ Finset.range wl, v k * Q.eval (k : ℝ) = 0) :
    ∑ k ∈ Finset.range wl, c.getD k 0 * v k = 0 := by
  unfold savgolCoeffs at h
  simp only at h
  obtain ⟨pos, hpos⟩ : ∃ pos : ℝ, pos = if (wl : Int) % 2 = 0 then (((wl : Int) / 2 : Int) : ℝ) - 1 / 2 else (((wl : Int) / 2 : Int) : ℝ) :=
    ⟨_, rfl⟩
  rw [← hpos] at h
  by_cases h1 : (wl : Int) ≤ po
  · rw [if_pos h1] at h; exact absurd h (by simp)
  rw [if_neg h1] at h
  by_cases h2 : (wl : Int) % 2 = 0 ∧ lib.evenOk = false
  · rw [if_pos h2] at h; exact absurd h (by simp)
  rw [if_neg h2] at h
  by_cases h3 : ¬ (0 ≤ pos ∧ pos < ((wl : Int) : ℝ))
  · rw [if_pos h3] at h; exact absurd h (by simp)
  rw [if_neg h3] at h
  by_cases h4 : (po : Int) < d
  · rw [if_pos h4] at h
    injection h with h
    rw [← h]
    apply Finset.sum_eq_zero
    intro k hk
    have := Finset.mem_range.1 hk
    simp [List.getD_eq_getElem?_getD, this]
  rw [if_neg h4] at h
  by_cases h5 : delta = 0 ∧ 0 < d
  · rw [if_pos h5] at h; exact absurd h (by simp)
  rw [if_neg h5] at h
  injection h with h
  rw [← h]
  simp only [Int.toNat_natCast]
  refine lstsq_orth hl (L := wl) (by simp [List.range_succ]) ?_ (by simp) v ?_
  · intro r hr; obtain ⟨m, _, rfl⟩ := List.mem_map.1 hr; simp
  · intro i hi
    simp only [List.length_map, List.length_range] at hi
    refine Eq.trans ?_ (hv ((Polynomial.C (((wl : Int) : ℝ) - 1 - pos) - Polynomial.X) ^ i) ?_)
    · apply Finset.sum_congr rfl
      intro k hk
      rw [at2_range (fun i k => ((((wl : Int) : ℝ)) - 1 - pos - (k : Nat)) ^ i) (po + 1) wl hi (Finset.mem_range.1 hk)]
      simp [mul_comm]
    · refine (Polynomial.natDegree_pow_le).trans ?_
      have : (Polynomial.C (((wl : Int) : ℝ) - 1 - pos) - Polynomial.X : Polynomial ℝ).natDegree ≤ 1 :=
        (Polynomial.natDegree_sub_le _ _).trans (max_le (by rw [Polynomial.natDegree_C]; omega) Polynomial.natDegree_X_le)
      calc i * _ ≤ i * 1 := Nat.mul_le_mul_left _ this
        _ ≤ po := by omega

/-! ### Shortest solutions exist -/

theorem exists_lstsq_short (A : List (List ℝ)) (y : List ℝ) (L : Nat) :
    ∃ c : List ℝ, c.length = L ∧ (∀ c' : List ℝ, c'.length = L → resid A y c ≤ resid A y c') ∧
      ∀ c' : List ℝ, c'.length = L → resid A y c' ≤ resid A y c → ∑ k ∈ Finset.range L, c.getD k 0 ^ 2 ≤ ∑ k ∈ Finset.range L, c'.getD k 0 ^ 2 := by
  obtain ⟨c0, h0, hmin⟩ := exists_lstsq A y L
  obtain ⟨s, hs⟩ : ∃ s : Set (EuclideanSpace ℝ (Fin L)), s = {c | ∑ i ∈ Finset.range y.length, (∑ k : Fin L, at2 A i k * c k - y.getD i 0) ^ 2 ≤
    resid A y c0} := ⟨_, rfl⟩
  have hclosed : IsClosed s := by
    rw [hs]
    refine isClosed_le ?_ continuous_const
    fun_prop
  have hres : ∀ c : List ℝ, c.length = L → resid A y c = ∑ i ∈ Finset.range y.length, (∑ k : Fin L, at2 A i k * (WithLp.toLp 2 fun k : Fin L => c.getD k 0 : EuclideanSpace ℝ (Fin L)) k - y.getD i 0) ^ 2 := by
    intro c hc
    unfold resid
    refine Finset.sum_congr rfl fun i _ => ?_
    rw [hc, Finset.sum_range]
  have hmem : ∀ c : List ℝ, c.length = L → resid A y c ≤ resid A y c0 → (WithLp.toLp 2 fun k : Fin L => c.getD k 0 : EuclideanSpace ℝ (Fin L)) ∈ s := by
    intro c hc h
    rw [hs, Set.mem_setOf_eq, ← hres c hc]
    exact h
  have hnorm : ∀ c : List ℝ, ‖(WithLp.toLp 2 fun k : Fin L => c.getD k 0 : EuclideanSpace ℝ (Fin L))‖ ^ 2 = ∑ k ∈ Finset.range L, c.getD k 0 ^ 2 := by
    intro c
    rw [EuclideanSpace.norm_sq_eq, Finset.sum_range]
    simp
  obtain ⟨v, hv, hd⟩ := hclosed.exists_infDist_eq_dist ⟨_, hmem c0 h0 le_rfl⟩ 0
  have hvl : (WithLp.toLp 2 fun k : Fin L => (List.ofFn v).getD k 0 : EuclideanSpace ℝ (Fin L)) = v := by
    ext k
    simp [List.getD_eq_getElem?_getD]
  have hvr : resid A y (List.ofFn v) ≤ resid A y c0 := by
    rw [hres _ (by simp), hvl]
    rw [hs] at hv
    exact hv
  refine ⟨List.ofFn v, by simp, fun c' hc' => hvr.trans (hmin c' hc'), ?_⟩
  intro c' hc' h
  rw [← hnorm, ← hnorm, hvl]
  refine pow_le_pow_left₀ (norm_nonneg _) ?_ 2
  have := Metric.infDist_le_dist_of_mem (x := 0) (hmem c' hc' (h.trans hvr))
  rw [hd, dist_zero_left, dist_zero_left] at this
  exact this

theorem exists_minNorm (b : Bool) : ∃ lib, MinNormOk lib ∧ lib.evenOk = b := by
  classical
  obtain ⟨lib, h, hb⟩ := exists_LsqLib b
  refine ⟨⟨fun A y => (exists_lstsq_short A y (A.headD []).length).choose, lib.polyfit, b⟩, ⟨⟨?_, ?_, h.polyfit_min⟩, ?_⟩, rfl⟩
  · intro A y L hne hr _
    cases A with
    | nil => exact absurd rfl hne
    | cons r A =>
      rw [(exists_lstsq_short (r :: A) y _).choose_spec.1]
      exact hr r (by simp)
  · intro A y L hne hr _
    cases A with
    | nil => exact absurd rfl hne
    | cons r A =>
      intro c hc
      refine (exists_lstsq_short (r :: A) y _).choose_spec.2.1 c ?_
      rw [hc]; exact (hr r (by simp)).symm
  · intro A y L hne hr _
    cases A with
    | nil => exact absurd rfl hne
    | cons r A =>
      intro c hc hle
      have hL : L = ((r :: A).headD []).length := (hr r (by simp)).symm
      subst hL
      exact (exists_lstsq_short (r :: A) y _).choose_spec.2.2 c hc hle

end Verif.Model
