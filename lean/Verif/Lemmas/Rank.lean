import Verif.Model.Rank
import Verif.Spec.Rank
import Mathlib.LinearAlgebra.FiniteDimensional.Lemmas
import Mathlib.Tactic.Linarith
import Mathlib.Tactic.Positivity
import Mathlib.Tactic.FieldSimp

/-! Singular values and the spread of points. -/
namespace Verif.Spec

open Verif.Model

variable {n : Nat}

/-- A coordinate list as a vector of the Euclidean space. -/
noncomputable def eu (v : Fin n → ℝ) : EuclideanSpace ℝ (Fin n) := WithLp.toLp 2 v

theorem inner_eu (v w : Fin n → ℝ) : inner ℝ (eu v) (eu w) = sprod v w := by
  simp [eu, sprod, PiLp.inner_apply, mul_comm]

theorem norm_eu_sq (v : Fin n → ℝ) : ‖eu v‖ ^ 2 = sprod v v := by
  rw [← inner_eu, real_inner_self_eq_norm_sq]

theorem sprod_self_nonneg (v : Fin n → ℝ) : 0 ≤ sprod v v := by rw [← norm_eu_sq]; positivity

theorem spread_nonneg (ps : List (Fin n → ℝ)) (w : Fin n → ℝ) : 0 ≤ spread ps w := by
  apply List.sum_nonneg
  intro x hx
  obtain ⟨p, _, rfl⟩ := List.mem_map.1 hx
  positivity

theorem norm_rowsMap_sq (rows : List (Vec n ℝ)) (w : EuclideanSpace ℝ (Fin n)) : ‖rowsMap rows w‖ ^ 2 = spread rows (WithLp.ofLp w) := by
  rw [EuclideanSpace.norm_sq_eq]
  unfold spread rowsMap
  simp only [LinearMap.coe_mk, AddHom.coe_mk, Real.norm_eq_abs, sq_abs]
  rw [← List.sum_ofFn]
  congr 1
  apply List.ext_getElem <;> simp [vdot, sprod, dotProduct]

section
variable (rows : List (Vec n ℝ))

theorem fr : Module.finrank ℝ (EuclideanSpace ℝ (Fin n)) = n := by simp

/-- The singular directions. -/
noncomputable def sdir : OrthonormalBasis (Fin n) ℝ (EuclideanSpace ℝ (Fin n)) :=
  (rowsMap rows).isSymmetric_adjoint_comp_self.eigenvectorBasis fr

theorem spread_sdir (w : EuclideanSpace ℝ (Fin n)) :
    spread rows (WithLp.ofLp w) = ∑ i : Fin n, (rowsMap rows).singularValues i ^ 2 * (inner ℝ (sdir rows i) w) ^ 2 := by
  rw [← norm_rowsMap_sq, ← real_inner_self_eq_norm_sq]
  have h1 : inner ℝ (rowsMap rows w) (rowsMap rows w) = inner ℝ (((rowsMap rows).adjoint ∘ₗ rowsMap rows) w) w := by
    rw [LinearMap.comp_apply, LinearMap.adjoint_inner_left]
  rw [h1, ← (sdir rows).sum_inner_mul_inner]
  apply Finset.sum_congr rfl
  intro i _
  have h2 : inner ℝ (((rowsMap rows).adjoint ∘ₗ rowsMap rows) w) (sdir rows i) = (rowsMap rows).singularValues i ^ 2 * inner ℝ (sdir rows i) w := by
    rw [(rowsMap rows).isSymmetric_adjoint_comp_self w (sdir rows i)]
    unfold sdir
    rw [LinearMap.IsSymmetric.apply_eigenvectorBasis, inner_smul_right, (rowsMap rows).sq_singularValues_fin fr i, real_inner_comm]
    rfl
  rw [h2]
  ring

/-- Courant-Fischer: the k-th singular value (counting from 0) is at most t exactly if the points are flat within t in k directions. -/
theorem sv_le_iff (k : Nat) {t : ℝ} (ht : 0 ≤ t) : (rowsMap rows).singularValues k ≤ t ↔ FlatWithin k t rows := by
  constructor
  · intro h
    refine ⟨fun i => if hi : i.val < n then WithLp.ofLp (sdir rows ⟨i, hi⟩) else 0, fun w hw => ?_⟩
    have h0 : ∀ i : Fin n, i.val < k → inner ℝ (sdir rows i) (eu w) = 0 := by
      intro i hi
      have := hw ⟨i.val, hi⟩
      simp only [Fin.eta, Fin.is_lt, dif_pos] at this
      rw [← this, ← inner_eu]
      rfl
    have h1 : spread rows w = _ := spread_sdir rows (eu w)
    rw [h1, ← norm_eu_sq, ← (sdir rows).sum_sq_norm_inner_right (eu w), Finset.mul_sum]
    apply Finset.sum_le_sum
    intro i _
    by_cases hi : i.val < k
    · rw [h0 i hi]; simp
    · rw [Real.norm_eq_abs, sq_abs]
      apply mul_le_mul_of_nonneg_right _ (sq_nonneg _)
      have h2 := (rowsMap rows).singularValues_antitone (not_lt.1 hi)
      have h3 := (rowsMap rows).singularValues_nonneg i.val
      exact pow_le_pow_left₀ h3 (h2.trans h) 2
  · rintro ⟨g, hg⟩
    by_cases hk : n ≤ k
    · rw [LinearMap.singularValues_of_finrank_le _ (by rw [fr]; exact hk)]
      exact ht
    · have hk := not_le.1 hk
      let L : (Fin (k + 1) → ℝ) →ₗ[ℝ] (Fin k → ℝ) :=
        { toFun := fun c i => ∑ j : Fin (k + 1), c j * sprod (g i) (WithLp.ofLp (sdir rows ⟨j, by omega⟩))
          map_add' := by intro a b; funext i; simp [add_mul, Finset.sum_add_distrib]
          map_smul' := by intro a b; funext i; simp [Finset.mul_sum, mul_assoc] }
      have hker : LinearMap.ker L ≠ ⊥ := LinearMap.ker_ne_bot_of_finrank_lt (by simp)
      obtain ⟨c, hc, hc0⟩ := (Submodule.ne_bot_iff _).1 hker
      let W : EuclideanSpace ℝ (Fin n) := ∑ j : Fin (k + 1), c j • sdir rows ⟨j, by omega⟩
      have hin : ∀ i : Fin n, inner ℝ (sdir rows i) W = if h : i.val < k + 1 then c ⟨i.val, h⟩ else 0 := by
        intro i
        simp only [W, inner_sum, inner_smul_right, (sdir rows).inner_eq_ite]
        by_cases h : i.val < k + 1
        · rw [dif_pos h, Finset.sum_eq_single ⟨i.val, h⟩]
          · simp
          · intro j _ hj
            have hne : ¬ (i = (⟨j.val, by omega⟩ : Fin n)) := fun e => hj (Fin.ext (congrArg Fin.val e).symm)
            rw [if_neg hne, mul_zero]
          · simp
        · rw [dif_neg h]
          apply Finset.sum_eq_zero
          intro j _
          rw [if_neg (fun e => h (by rw [e]; exact j.2)), mul_zero]
      have hperp : ∀ i, sprod (g i) (WithLp.ofLp W) = 0 := by
        intro i
        have h1 : L c i = 0 := by rw [LinearMap.mem_ker.1 hc]; rfl
        rw [← h1, ← inner_eu]
        have : eu (WithLp.ofLp W) = W := rfl
        rw [this]
        simp only [W, inner_sum, inner_smul_right, L, LinearMap.coe_mk, AddHom.coe_mk]
        apply Finset.sum_congr rfl
        intro j _
        rw [← inner_eu]
        rfl
      have h2 := hg _ hperp
      have hW : sprod (WithLp.ofLp W) (WithLp.ofLp W) = ‖W‖ ^ 2 := (norm_eu_sq _).symm
      rw [spread_sdir, hW] at h2
      have hsum : ‖W‖ ^ 2 = ∑ i : Fin n, (inner ℝ (sdir rows i) W) ^ 2 := by
        rw [← (sdir rows).sum_sq_norm_inner_right W]
        simp
      have hlow : (rowsMap rows).singularValues k ^ 2 * ‖W‖ ^ 2 ≤
          ∑ i : Fin n, (rowsMap rows).singularValues i ^ 2 * (inner ℝ (sdir rows i) W) ^ 2 := by
        rw [hsum, Finset.mul_sum]
        apply Finset.sum_le_sum
        intro i _
        by_cases h : i.val < k + 1
        · exact mul_le_mul_of_nonneg_right
            (pow_le_pow_left₀ ((rowsMap rows).singularValues_nonneg k) ((rowsMap rows).singularValues_antitone (by omega)) 2) (sq_nonneg _)
        · rw [hin, dif_neg h]; simp
      have hpos : 0 < ‖W‖ ^ 2 := by
        rcases (sq_nonneg ‖W‖).lt_or_eq with h | h
        · exact h
        · exfalso
          apply hc0
          funext j
          have hz := (Finset.sum_eq_zero_iff_of_nonneg (fun i _ => sq_nonneg (inner ℝ (sdir rows i) W))).1 (hsum ▸ h.symm) ⟨j.val, by omega⟩ (Finset.mem_univ _)
          rw [hin, dif_pos j.2] at hz
          simpa using hz
      have h3 : (rowsMap rows).singularValues k ^ 2 ≤ t ^ 2 := le_of_mul_le_mul_right (hlow.trans h2) hpos
      exact le_of_sq_le_sq h3 ht

theorem sv_zero_of_ge {i : Nat} (h : min rows.length n ≤ i) : (rowsMap rows).singularValues i = 0 := by
  rw [LinearMap.singularValues_eq_zero_iff_le_finrank_range]
  refine le_trans (le_min ?_ ?_) h
  · refine (LinearMap.range (rowsMap rows)).finrank_le.trans ?_
    simp
  · refine (LinearMap.finrank_range_le (rowsMap rows)).trans ?_
    simp

theorem countP_range_le {f : ℕ → ℝ} (hf : Antitone f) {N : Nat} {t : ℝ} (ht : ∀ i, N ≤ i → f i ≤ t) (k : Nat) :
    ((List.range N).map f).countP (fun x => decide (t < x)) ≤ k ↔ f k ≤ t := by
  have hc : ((List.range N).map f).countP (fun x => decide (t < x)) = ((Finset.range N).filter fun i => t < f i).card := by
    rw [List.countP_map, List.countP_eq_length_filter]
    rfl
  rw [hc]
  constructor
  · intro h
    by_contra hlt
    have hlt := not_le.1 hlt
    have : Finset.range (k + 1) ⊆ (Finset.range N).filter fun i => t < f i := by
      intro i hi
      rw [Finset.mem_range] at hi
      have h1 : f k ≤ f i := hf (by omega)
      rw [Finset.mem_filter, Finset.mem_range]
      refine ⟨?_, by linarith⟩
      by_contra h2
      linarith [ht i (by omega)]
    have := Finset.card_le_card this
    rw [Finset.card_range] at this
    omega
  · intro h
    have : ((Finset.range N).filter fun i => t < f i) ⊆ Finset.range k := by
      intro i hi
      rw [Finset.mem_filter] at hi
      rw [Finset.mem_range]
      by_contra h2
      linarith [hf (not_lt.1 h2), hi.2]
    simpa using Finset.card_le_card this

/-- With a tolerance the rank is at most k exactly if the points are flat within it in k directions. -/
theorem rankTol_some (k : Nat) {t : ℝ} (ht : 0 ≤ t) : ∃ r, matrixRankTol (some t) rows = .ok r ∧ (r ≤ k ↔ FlatWithin k t rows) := by
  refine ⟨_, rfl, ?_⟩
  unfold svdValues
  rw [countP_range_le (rowsMap rows).singularValues_antitone, sv_le_iff rows k ht]
  intro i hi
  rw [sv_zero_of_ge rows hi]
  exact ht

theorem foldl_max_eq {x : ℝ} {xs : List ℝ} (h : ∀ y ∈ xs, y ≤ x) : xs.foldl max x = x := by
  induction xs with
  | nil => rfl
  | cons y ys ih =>
    rw [List.foldl_cons, max_eq_left (h y (by simp))]
    exact ih fun z hz => h z (by simp [hz])

theorem spread_le_top (hn : 0 < n) (u : Fin n → ℝ) : spread rows u ≤ (rowsMap rows).singularValues 0 ^ 2 * sprod u u := by
  obtain ⟨g, hg⟩ := (sv_le_iff rows 0 ((rowsMap rows).singularValues_nonneg 0)).1 le_rfl
  exact hg u fun i => i.elim0

theorem sv_rel_iff (hn : 0 < n) (k : Nat) {ρ : ℝ} (hρ : 0 ≤ ρ) :
    (rowsMap rows).singularValues k ≤ (rowsMap rows).singularValues 0 * ρ ↔ FlatRel k ρ rows := by
  have h0 := (rowsMap rows).singularValues_nonneg 0
  constructor
  · intro h
    obtain ⟨g, hg⟩ := (sv_le_iff rows k (by positivity)).1 h
    have hu : sprod (WithLp.ofLp (sdir rows ⟨0, hn⟩)) (WithLp.ofLp (sdir rows ⟨0, hn⟩)) = 1 := by
      rw [← norm_eu_sq]
      have : eu (WithLp.ofLp (sdir rows ⟨0, hn⟩)) = sdir rows ⟨0, hn⟩ := rfl
      rw [this, (sdir rows).norm_eq_one]
      norm_num
    have hs : spread rows (WithLp.ofLp (sdir rows ⟨0, hn⟩)) = (rowsMap rows).singularValues 0 ^ 2 := by
      rw [spread_sdir, Finset.sum_eq_single ⟨0, hn⟩]
      · rw [(sdir rows).inner_eq_ite]; simp
      · intro b _ hb
        rw [(sdir rows).inner_eq_ite, if_neg hb]; simp
      · simp
    refine ⟨_, hu, g, fun w hw => ?_⟩
    rw [hs]
    have := hg w hw
    rw [mul_pow, mul_comm (_ ^ 2) (ρ ^ 2)] at this
    exact this
  · rintro ⟨u, hu, g, hg⟩
    have hsu := spread_nonneg rows u
    have h1 : FlatWithin k (ρ * Real.sqrt (spread rows u)) rows := by
      refine ⟨g, fun w hw => ?_⟩
      rw [mul_pow, Real.sq_sqrt hsu]
      exact hg w hw
    have h2 := (sv_le_iff rows k (by positivity)).2 h1
    have h3 : Real.sqrt (spread rows u) ≤ (rowsMap rows).singularValues 0 := by
      rw [Real.sqrt_le_left h0]
      have := spread_le_top rows hn u
      rw [hu, mul_one] at this
      exact this
    calc _ ≤ _ := h2
      _ ≤ ρ * (rowsMap rows).singularValues 0 := mul_le_mul_of_nonneg_left h3 hρ
      _ = _ := mul_comm _ _

/-- Without a tolerance the rank is at most k exactly if the points are flat in k directions relative to their largest extent. -/
theorem rankTol_none (k : Nat) (hn : 0 < n) (hr : rows ≠ []) :
    ∃ r, matrixRankTol none rows = .ok r ∧ (r ≤ k ↔ FlatRel k ((max rows.length n : Nat) * (1 / 2 ^ 52)) rows) := by
  have hl : 0 < rows.length := List.length_pos_iff.2 hr
  obtain ⟨N, hN⟩ : ∃ N, min rows.length n = N + 1 := ⟨min rows.length n - 1, by omega⟩
  have hs : svdValues rows = (rowsMap rows).singularValues 0 :: (List.range N).map fun i => (rowsMap rows).singularValues (i + 1) := by
    unfold svdValues
    rw [hN, List.range_succ_eq_map, List.map_cons, List.map_map]
    rfl
  unfold matrixRankTol
  simp only [hs]
  refine ⟨_, rfl, ?_⟩
  rw [foldl_max_eq]
  · rw [← hs]
    have h0 := (rowsMap rows).singularValues_nonneg 0
    have hF : (F_EPS : ℝ) = 1 / 2 ^ 52 := rfl
    unfold svdValues
    rw [countP_range_le (rowsMap rows).singularValues_antitone, mul_assoc, hF, sv_rel_iff rows hn k (by positivity)]
    intro i hi
    rw [sv_zero_of_ge rows hi, hF]
    positivity
  · intro y hy
    obtain ⟨i, _, rfl⟩ := List.mem_map.1 hy
    exact (rowsMap rows).singularValues_antitone (by omega)

/-- With tolerance 0 the rank is the exact one. -/
theorem rankTol_zero : matrixRankTol (some 0) rows = .ok (matrixRank rows) := by
  have hrank : Module.finrank ℝ (LinearMap.range (rowsMap rows)) = matrixRank rows := by
    let e : (Fin n → ℝ) ≃ₗ[ℝ] EuclideanSpace ℝ (Fin n) := (WithLp.linearEquiv 2 ℝ (Fin n → ℝ)).symm
    have hS : Module.finrank ℝ ((Submodule.span ℝ {v | v ∈ rows}).map e.toLinearMap) = matrixRank rows := LinearEquiv.finrank_map_eq e _
    have hker : LinearMap.ker (rowsMap rows) = ((Submodule.span ℝ {v | v ∈ rows}).map e.toLinearMap)ᗮ := by
      rw [Submodule.map_span]
      ext v
      rw [LinearMap.mem_ker, Submodule.mem_orthogonal]
      constructor
      · intro h u hu
        induction hu using Submodule.span_induction with
        | mem x hx =>
          obtain ⟨p, hp, rfl⟩ := hx
          obtain ⟨i, hi⟩ := List.mem_iff_get.1 hp
          have h1 := congrFun (congrArg WithLp.ofLp h) i
          have h2 : inner ℝ (e.toLinearMap p) v = sprod p (WithLp.ofLp v) := inner_eu p (WithLp.ofLp v)
          rw [h2, ← hi]
          exact h1
        | zero => exact inner_zero_left _
        | add x y _ _ hx hy => rw [inner_add_left, hx, hy, add_zero]
        | smul a x _ hx => rw [inner_smul_left, hx, mul_zero]
      · intro h
        apply (WithLp.linearEquiv 2 ℝ _).injective
        funext i
        have h2 : inner ℝ (e.toLinearMap (rows.get i)) v = sprod (rows.get i) (WithLp.ofLp v) := inner_eu _ (WithLp.ofLp v)
        have h1 := h (e.toLinearMap (rows.get i)) (Submodule.subset_span ⟨_, List.get_mem rows i, rfl⟩)
        rw [h2] at h1
        exact h1
    have h1 := (rowsMap rows).finrank_range_add_finrank_ker
    have h2 := Submodule.finrank_add_finrank_orthogonal ((Submodule.span ℝ {v | v ∈ rows}).map e.toLinearMap)
    rw [hker] at h1
    omega
  have h : ∀ k, (svdValues rows).countP (fun x => decide ((0 : ℝ) < x)) ≤ k ↔ matrixRank rows ≤ k := by
    intro k
    unfold svdValues
    rw [countP_range_le (rowsMap rows).singularValues_antitone (fun i hi => (sv_zero_of_ge rows hi).le), ← hrank,
      ← LinearMap.singularValues_eq_zero_iff_le_finrank_range]
    exact ⟨fun h => le_antisymm h ((rowsMap rows).singularValues_nonneg k), fun h => h.le⟩
  unfold matrixRankTol
  exact congrArg Except.ok (le_antisymm ((h _).2 le_rfl) ((h _).1 le_rfl))

end

end Verif.Spec
