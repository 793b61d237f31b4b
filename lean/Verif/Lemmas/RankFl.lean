import Verif.Lemmas.Rank
import Verif.Model.RoundedRank
import Verif.Props.RoundedCross
import Verif.Props.Rank

/-! The rank of a matrix from rounded singular values. -/
namespace Verif.Props

open Verif Verif.Np Verif.Model Verif.Spec

variable {n : Nat} {ε η : ℝ} {fl : ℝ → ℝ}

theorem svdTo_count {rows : List (Vec n ℝ)} {s : List ℝ} (hs : SvdTo η rows s) {t : ℝ} (ht : 0 ≤ t) (k : Nat) :
    s.countP (fun x => decide (t < x)) ≤ k ↔ s.getD k 0 ≤ t := by
  obtain ⟨hl, hp, h0, -⟩ := hs
  have hsm : s = (List.range s.length).map fun i => s.getD i 0 := by
    apply List.ext_getElem (by simp)
    intro i h1 h2
    simp [List.getD_eq_getElem?_getD, List.getElem?_eq_getElem h1]
  have hanti : Antitone fun i => s.getD i 0 := by
    intro i j hij
    rcases Nat.lt_or_ge j s.length with hj | hj
    · have hi : i < s.length := lt_of_le_of_lt hij hj
      simp only [List.getD_eq_getElem?_getD, List.getElem?_eq_getElem hj, List.getElem?_eq_getElem hi, Option.getD_some]
      rcases Nat.eq_or_lt_of_le hij with rfl | hlt
      · exact le_rfl
      · exact List.pairwise_iff_getElem.1 hp i j hi hj hlt
    · have : s.getD j 0 = 0 := by simp [List.getD_eq_getElem?_getD, List.getElem?_eq_none hj]
      show s.getD j 0 ≤ s.getD i 0
      rw [this]
      rcases Nat.lt_or_ge i s.length with hi | hi
      · simp only [List.getD_eq_getElem?_getD, List.getElem?_eq_getElem hi, Option.getD_some]
        exact h0 _ (List.getElem_mem hi)
      · simp [List.getD_eq_getElem?_getD, List.getElem?_eq_none hi]
  have := countP_range_le hanti (N := s.length) (t := t) (by
    intro i hi
    have : s.getD i 0 = 0 := by simp [List.getD_eq_getElem?_getD, List.getElem?_eq_none hi]
    rw [this]; exact ht) k
  rw [← hsm] at this
  exact this

/-- The computed singular values, also beyond the last one. -/
theorem svdTo_near {rows : List (Vec n ℝ)} {s : List ℝ} (hη : 0 ≤ η) (hs : SvdTo η rows s) (i : Nat) :
    |s.getD i 0 - (rowsMap rows).singularValues i| ≤ η * (rowsMap rows).singularValues 0 := by
  rcases Nat.lt_or_ge i s.length with hi | hi
  · exact hs.2.2.2 i hi
  · have h1 : s.getD i 0 = 0 := by simp [List.getD_eq_getElem?_getD, List.getElem?_eq_none hi]
    rw [h1, sv_zero_of_ge rows (by rw [← hs.1]; exact hi), sub_zero, abs_zero]
    exact mul_nonneg hη ((rowsMap rows).singularValues_nonneg 0)

theorem thresh_bounds (hf : Rounding ε fl) (hε : ε ≤ 1 / 1000) {x m : ℝ} (hx : 0 ≤ x) (hm : 0 ≤ m) :
    0.998 * (x * m * (1 / 2 ^ 52)) ≤ fl (fl (x * m) * F_EPS) ∧ fl (fl (x * m) * F_EPS) ≤ 1.0021 * (x * m * (1 / 2 ^ 52)) := by
  have e0 := hf.nonneg
  have hF : (F_EPS : ℝ) = 1 / 2 ^ 52 := rfl
  rw [hF]
  obtain ⟨a, ha, h1⟩ := fl_err hf (x * m)
  obtain ⟨b, hb, h2⟩ := fl_err hf (fl (x * m) * (1 / 2 ^ 52))
  rw [h2, h1]
  have hP : 0 ≤ x * m * (1 / 2 ^ 52) := by positivity
  have e : x * m * (1 + a) * (1 / 2 ^ 52) * (1 + b) = x * m * (1 / 2 ^ 52) * ((1 + a) * (1 + b)) := by ring
  rw [e, mul_comm (0.998 : ℝ), mul_comm (1.0021 : ℝ)]
  rw [abs_le] at ha hb
  have a1 : 0.999 ≤ 1 + a := by norm_num at *; linarith
  have a2 : 1 + a ≤ 1.001 := by norm_num at *; linarith
  have b1 : 0.999 ≤ 1 + b := by norm_num at *; linarith
  have b2 : 1 + b ≤ 1.001 := by norm_num at *; linarith
  have c1 : (0.999 : ℝ) * 0.999 ≤ (1 + a) * (1 + b) := mul_le_mul a1 b1 (by norm_num) (by linarith)
  have c2 : (1 + a) * (1 + b) ≤ (1.001 : ℝ) * 1.001 := mul_le_mul a2 b2 (by linarith) (by norm_num)
  constructor
  · exact mul_le_mul_of_nonneg_left (by linarith) hP
  · exact mul_le_mul_of_nonneg_left (by linarith) hP

/-- The rank found without a tolerance. -/
theorem rank_fl (hf : Rounding ε fl) (hε : ε ≤ 1 / 1000) (hη : 0 ≤ η) (hη1 : η ≤ 1 / 1000) {rows : List (Vec n ℝ)} (hn : 0 < n) (hr : rows ≠ []) {res : Except PyErr Nat}
    (h : RankTo fl η none rows res) :
    ∃ r, res = .ok r ∧ ∀ k,
      (η ≤ 0.99 * (max rows.length n : Nat) / 2 ^ 52 → FlatRel k (0.99 * (max rows.length n : Nat) / 2 ^ 52 - η) rows → r ≤ k) ∧
      (r ≤ k → FlatRel k (1.01 * (max rows.length n : Nat) / 2 ^ 52 + η) rows) := by
  obtain ⟨s, hs, rfl⟩ := h
  have hl : 0 < rows.length := List.length_pos_iff.2 hr
  cases s with
  | nil => exfalso; have := hs.1; simp at this; omega
  | cons x xs =>
    have hx0 : 0 ≤ x := hs.2.2.1 x (by simp)
    have hmax : xs.foldl max x = x := foldl_max_eq fun y hy => List.rel_of_pairwise_cons hs.2.1 hy
    have hnear := svdTo_near hη hs
    have hx := hnear 0
    simp only [countFl, hmax]
    refine ⟨_, rfl, fun k => ?_⟩
    have hK : (0 : ℝ) ≤ (max rows.length n : Nat) := Nat.cast_nonneg _
    generalize ((max rows.length n : Nat) : ℝ) = m at *
    obtain ⟨t1, t2⟩ := thresh_bounds hf hε hx0 hK
    have ht : 0 ≤ fl (fl (x * m) * F_EPS) := le_trans (by positivity) t1
    have hk := hnear k
    rw [svdTo_count hs ht k]
    have a0 := (rowsMap rows).singularValues_nonneg 0
    change |x - _| ≤ _ at hx
    rw [abs_le] at hx hk
    generalize hv : (x :: xs).getD k 0 = v at *
    generalize fl (fl (x * m) * F_EPS) = t at *
    have e1 : 0.99 * m / 2 ^ 52 = 0.99 * (m * (1 / 2 ^ 52)) := by ring
    have e2 : 1.01 * m / 2 ^ 52 = 1.01 * (m * (1 / 2 ^ 52)) := by ring
    have hκ : 0 ≤ m * (1 / 2 ^ 52) := by positivity
    rw [mul_assoc x] at t1 t2
    rw [e1, e2]
    generalize m * (1 / 2 ^ 52) = κ at *
    have hxl : 0.999 * (rowsMap rows).singularValues 0 ≤ x := by norm_num at *; nlinarith
    have hxu : x ≤ 1.001 * (rowsMap rows).singularValues 0 := by norm_num at *; nlinarith
    have p1 := mul_le_mul_of_nonneg_right hxl hκ
    have p2 := mul_le_mul_of_nonneg_right hxu hκ
    have p0 := mul_nonneg a0 hκ
    constructor
    · intro h1 h2
      have := (sv_rel_iff rows hn k (sub_nonneg.2 h1)).2 h2
      linarith
    · intro h2
      refine (sv_rel_iff rows hn k (by linarith)).1 ?_
      linarith

/-- The rank found with a tolerance. -/
theorem rank_fl_some (hη : 0 ≤ η) {rows : List (Vec n ℝ)} (hn : 0 < n) {t S : ℝ} (ht : 0 ≤ t) (hS : 0 ≤ S) (hS2 : (rowsMap rows).singularValues 0 ≤ S) {res : Except PyErr Nat}
    (h : RankTo fl η (some t) rows res) :
    ∃ r, res = .ok r ∧ ∀ k, (η * S ≤ t → FlatWithin k (t - η * S) rows → r ≤ k) ∧ (r ≤ k → FlatWithin k (t + η * S) rows) := by
  obtain ⟨s, hs, rfl⟩ := h
  refine ⟨_, rfl, fun k => ?_⟩
  have hk := svdTo_near hη hs k
  rw [svdTo_count hs ht k]
  rw [abs_le] at hk
  have := mul_le_mul_of_nonneg_left hS2 hη
  constructor
  · intro h1 h2
    have := (sv_le_iff rows k (sub_nonneg.2 h1)).2 h2
    linarith
  · intro h1
    refine (sv_le_iff rows k (by positivity)).1 ?_
    linarith

/-! ## Changes of the points -/

theorem spread_smul_right (ps : List (Vec n ℝ)) (c : ℝ) (w : Fin n → ℝ) : spread ps (c • w) = c ^ 2 * spread ps w := by
  unfold spread
  rw [← List.sum_map_mul_left]
  congr 1
  apply List.map_congr_left
  intro p _
  simp only [sprod, Pi.smul_apply, smul_eq_mul]
  rw [← mul_pow, Finset.mul_sum]
  congr 1
  apply Finset.sum_congr rfl
  intro i _
  ring

theorem sprod_single (p : Fin n → ℝ) (i : Fin n) : sprod p (Pi.single i 1) = p i := by
  unfold sprod
  rw [Finset.sum_eq_single i] <;> simp +contextual

theorem frob_le (ps : List (Vec n ℝ)) (hn : 0 < n) : (ps.map fun p => sprod p p).sum ≤ n * (rowsMap ps).singularValues 0 ^ 2 := by
  have h1 : (ps.map fun p => sprod p p).sum = ∑ i, spread ps (Pi.single i 1) := by
    unfold spread
    simp only [sprod_single]
    induction ps with
    | nil => simp
    | cons p ps ih =>
      simp only [List.map_cons, List.sum_cons, Finset.sum_add_distrib, ih]
      congr 1
      unfold sprod
      exact Finset.sum_congr rfl fun i _ => (sq _).symm
  rw [h1]
  calc _ ≤ ∑ _i : Fin n, (rowsMap ps).singularValues 0 ^ 2 := by
        apply Finset.sum_le_sum
        intro i _
        have := spread_le_top ps hn (Pi.single i 1)
        rwa [sprod_single, Pi.single_eq_same, mul_one] at this
    _ = _ := by simp

theorem spread_le_frob (ps : List (Vec n ℝ)) (w : Fin n → ℝ) : spread ps w ≤ (ps.map fun p => sprod p p).sum * sprod w w := by
  unfold spread
  rw [← List.sum_map_mul_right]
  apply List.sum_le_sum
  intro p _
  exact sprod_sq_le p w

theorem list_cauchy {ι : Type} (L : List ι) (a b : ι → ℝ) : (L.map fun i => a i * b i).sum ^ 2 ≤ (L.map fun i => a i ^ 2).sum * (L.map fun i => b i ^ 2).sum := by
  have hs : ∀ c : ι → ℝ, (L.map c).sum = ∑ i : Fin L.length, c (L.get i) := by
    intro c
    rw [← List.sum_ofFn]
    congr 1
    apply List.ext_getElem (by simp)
    intro i h1 h2
    simp
  rw [hs, hs, hs]
  exact Finset.sum_mul_sq_le_sq_mul_sq _ _ _

theorem list_minkowski {ι : Type} (L : List ι) (a b : ι → ℝ) {A B W : ℝ} (hA : 0 ≤ A) (hB : 0 ≤ B) (hW : 0 ≤ W) (h1 : (L.map fun i => a i ^ 2).sum ≤ A ^ 2 * W)
    (h2 : (L.map fun i => b i ^ 2).sum ≤ B ^ 2 * W) : (L.map fun i => (a i + b i) ^ 2).sum ≤ (A + B) ^ 2 * W := by
  have hc := list_cauchy L a b
  have e : (L.map fun i => (a i + b i) ^ 2).sum = (L.map fun i => a i ^ 2).sum + 2 * (L.map fun i => a i * b i).sum + (L.map fun i => b i ^ 2).sum := by
    rw [← List.sum_map_mul_left, ← List.sum_map_add, ← List.sum_map_add]
    congr 1
    apply List.map_congr_left
    intro i _
    ring
  have n1 : 0 ≤ (L.map fun i => a i ^ 2).sum := List.sum_nonneg (by intro x hx; obtain ⟨i, _, rfl⟩ := List.mem_map.1 hx; positivity)
  have n2 : 0 ≤ (L.map fun i => b i ^ 2).sum := List.sum_nonneg (by intro x hx; obtain ⟨i, _, rfl⟩ := List.mem_map.1 hx; positivity)
  rw [e]
  generalize (L.map fun i => a i ^ 2).sum = X at *
  generalize (L.map fun i => b i ^ 2).sum = Y at *
  generalize (L.map fun i => a i * b i).sum = Z at *
  have hm : X * Y ≤ (A ^ 2 * W) * (B ^ 2 * W) := mul_le_mul h1 h2 n2 (by positivity)
  have hz : Z ≤ A * B * W := by
    apply le_of_sq_le_sq _ (by positivity)
    calc Z ^ 2 ≤ X * Y := hc
      _ ≤ _ := hm
      _ = _ := by ring
  nlinarith

theorem flat_change {ι : Type} (L : List ι) (f g : ι → Vec n ℝ) {k : Nat} {t B : ℝ} (ht : 0 ≤ t) (hB : 0 ≤ B)
    (hd : (L.map fun i => sprod (g i - f i) (g i - f i)).sum ≤ B ^ 2) (h : FlatWithin k t (L.map f)) : FlatWithin k (t + B) (L.map g) := by
  obtain ⟨d, hd'⟩ := h
  refine ⟨d, fun w hw => ?_⟩
  have h1 := hd' w hw
  have h2 : (L.map fun i => sprod (g i - f i) w ^ 2).sum ≤ B ^ 2 * sprod w w := by
    have := spread_le_frob (L.map fun i => g i - f i) w
    unfold spread at this
    rw [List.map_map, List.map_map] at this
    exact this.trans (mul_le_mul_of_nonneg_right hd (sprod_self_nonneg w))
  unfold spread at h1 ⊢
  rw [List.map_map] at h1 ⊢
  have := list_minkowski L (fun i => sprod (f i) w) (fun i => sprod (g i - f i) w) ht hB (sprod_self_nonneg w) h1 h2
  refine le_trans (le_of_eq ?_) this
  congr 1
  apply List.map_congr_left
  intro i _
  simp only [Function.comp_apply]
  rw [← sprod_add_left, add_sub_cancel]

/-- Relative changes of the coordinates: the singular values of the changed matrix. -/
theorem sv_change {ι : Type} (L : List ι) (f g : ι → Vec n ℝ) (hn : 0 < n) {δ : ℝ} (hδ : 0 ≤ δ) (h : ∀ x ∈ L, ∀ i, |g x i - f x i| ≤ δ * |f x i|) (k : Nat) :
    (rowsMap (L.map g)).singularValues k ≤ (rowsMap (L.map f)).singularValues k + δ * √n * (rowsMap (L.map f)).singularValues 0 ∧
    (rowsMap (L.map f)).singularValues k ≤ (rowsMap (L.map g)).singularValues k + δ * √n * (rowsMap (L.map f)).singularValues 0 := by
  have s0 := (rowsMap (L.map f)).singularValues_nonneg 0
  have hsum : (L.map fun x => sprod (g x - f x) (g x - f x)).sum ≤ (δ * √n * (rowsMap (L.map f)).singularValues 0) ^ 2 := by
    have h1 := frob_le (L.map f) hn
    rw [List.map_map] at h1
    have h2 : (L.map fun x => sprod (g x - f x) (g x - f x)).sum ≤ (L.map fun x => δ ^ 2 * sprod (f x) (f x)).sum := by
      apply List.sum_le_sum
      intro x hx
      unfold sprod
      rw [Finset.mul_sum]
      apply Finset.sum_le_sum
      intro i _
      have := h x hx i
      have h3 := mul_self_le_mul_self (abs_nonneg _) this
      rw [abs_mul_abs_self] at h3
      calc _ ≤ _ := h3
        _ = δ ^ 2 * (|f x i| * |f x i|) := by ring
        _ = _ := by rw [abs_mul_abs_self]
    rw [List.sum_map_mul_left] at h2
    have h4 := mul_le_mul_of_nonneg_left h1 (sq_nonneg δ)
    rw [mul_pow, mul_pow, Real.sq_sqrt (Nat.cast_nonneg n), mul_assoc]
    exact h2.trans h4
  have hsum' : (L.map fun x => sprod (f x - g x) (f x - g x)).sum ≤ (δ * √n * (rowsMap (L.map f)).singularValues 0) ^ 2 := by
    refine le_trans (le_of_eq ?_) hsum
    congr 1
    apply List.map_congr_left
    intro x _
    unfold sprod
    apply Finset.sum_congr rfl
    intro i _
    simp only [Pi.sub_apply]
    ring
  have hB : 0 ≤ δ * √n * (rowsMap (L.map f)).singularValues 0 := by positivity
  constructor
  · have k0 := (rowsMap (L.map f)).singularValues_nonneg k
    exact (sv_le_iff _ k (by positivity)).2 (flat_change L f g k0 hB hsum ((sv_le_iff _ k k0).1 le_rfl))
  · have k0 := (rowsMap (L.map g)).singularValues_nonneg k
    exact (sv_le_iff _ k (by positivity)).2 (flat_change L g f k0 hB hsum' ((sv_le_iff _ k k0).1 le_rfl))

/-- Relative changes of the coordinates and flatness. -/
theorem flatRel_change {ι : Type} (L : List ι) (f g : ι → Vec n ℝ) (hn : 0 < n) {δ : ℝ} (hδ : 0 ≤ δ) (hδ1 : δ * √n ≤ 1 / 1000) (h : ∀ x ∈ L, ∀ i, |g x i - f x i| ≤ δ * |f x i|)
    (k : Nat) {ρ : ℝ} (hρ : 0 ≤ ρ) :
    (FlatRel k ρ (L.map f) → FlatRel k (1.01 * (ρ + δ * √n)) (L.map g)) ∧ (FlatRel k ρ (L.map g) → FlatRel k (1.01 * ρ + δ * √n) (L.map f)) := by
  have s0 := (rowsMap (L.map f)).singularValues_nonneg 0
  have s0' := (rowsMap (L.map g)).singularValues_nonneg 0
  obtain ⟨a1, a2⟩ := sv_change L f g hn hδ h k
  obtain ⟨b1, b2⟩ := sv_change L f g hn hδ h 0
  have hB : 0 ≤ δ * √n := by positivity
  generalize δ * √n = B at *
  rw [← sv_rel_iff _ hn k hρ, ← sv_rel_iff _ hn k hρ, ← sv_rel_iff _ hn k (by positivity), ← sv_rel_iff _ hn k (by positivity)]
  generalize (rowsMap (L.map f)).singularValues 0 = x at *
  generalize (rowsMap (L.map g)).singularValues 0 = y at *
  generalize (rowsMap (L.map f)).singularValues k = u at *
  generalize (rowsMap (L.map g)).singularValues k = v at *
  have c1 := mul_le_mul_of_nonneg_right hδ1 s0
  have hxy : x ≤ 1.01 * y := by norm_num at *; linarith
  have hyx : y ≤ 1.01 * x := by norm_num at *; linarith
  have p1 := mul_le_mul_of_nonneg_right hxy (add_nonneg hρ hB)
  have p2 := mul_le_mul_of_nonneg_right hyx hρ
  constructor
  · intro h; linarith
  · intro h; linarith

end Verif.Props
