import Verif.Lemmas.Rank
import Verif.Props.Segment
import Verif.Props.SegmentObj
import Mathlib.Analysis.InnerProductSpace.Projection.Basic

/-! C126: the tolerance of the rank tests. -/
namespace Verif.Props

open Verif Verif.Np Verif.Model Verif.Spec

variable {n : Nat}

/-! ## Distances to a subspace -/

theorem flat_near {k : Nat} {t : ℝ} (ht : 0 ≤ t) {ps : List (Vec n ℝ)} (h : FlatWithin k t ps) :
    ∃ g : Fin k → Fin n → ℝ, ∀ p ∈ ps, ∃ q, Combination g q ∧ sprod (p - q) (p - q) ≤ t ^ 2 := by
  obtain ⟨g, hg⟩ := h
  refine ⟨g, fun p hp => ?_⟩
  let W : Submodule ℝ (EuclideanSpace ℝ (Fin n)) := Submodule.span ℝ (Set.range fun i => eu (g i))
  let q := W.starProjection (eu p)
  have hq : q ∈ W := W.starProjection_apply_mem _
  obtain ⟨x, hx⟩ := (Submodule.mem_span_range_iff_exists_fun ℝ).1 hq
  refine ⟨WithLp.ofLp q, ⟨x, fun j => ?_⟩, ?_⟩
  · rw [← hx]
    simp [eu]
  · set r : Fin n → ℝ := p - WithLp.ofLp q with hr
    have her : eu r = eu p - q := rfl
    have hperp : ∀ i, sprod (g i) r = 0 := by
      intro i
      rw [← inner_eu, her]
      exact W.inner_right_of_mem_orthogonal (Submodule.subset_span ⟨i, rfl⟩) (W.sub_starProjection_mem_orthogonal (eu p))
    have h1 := hg r hperp
    have hqr : inner ℝ q (eu r) = 0 := W.inner_right_of_mem_orthogonal hq (W.sub_starProjection_mem_orthogonal (eu p))
    have hpr : sprod p r = sprod r r := by
      rw [← inner_eu, ← inner_eu]
      have : eu p = q + eu r := by rw [her]; abel
      conv_lhs => rw [this, inner_add_left, hqr, zero_add]
    have h2 : sprod p r ^ 2 ≤ spread ps r := by
      unfold spread
      refine List.single_le_sum ?_ _ (List.mem_map.2 ⟨p, hp, rfl⟩)
      intro y hy
      obtain ⟨p', _, rfl⟩ := List.mem_map.1 hy
      positivity
    have h3 : sprod r r ^ 2 ≤ t ^ 2 * sprod r r := by rw [← hpr] at h1 ⊢; rw [hpr] at h1 ⊢; rw [hpr] at h2; linarith
    have h4 := sprod_self_nonneg r
    rcases h4.lt_or_eq with h4 | h4
    · nlinarith
    · rw [← h4]; positivity

theorem sprod_add_left (a b w : Fin n → ℝ) : sprod (a + b) w = sprod a w + sprod b w := by
  simp [sprod, add_mul, Finset.sum_add_distrib]

theorem sprod_comb {k : Nat} {g : Fin k → Fin n → ℝ} {q w : Fin n → ℝ} (hq : Combination g q) (hw : ∀ i, sprod (g i) w = 0) : sprod q w = 0 := by
  obtain ⟨x, hx⟩ := hq
  unfold sprod at *
  simp only [hx, Finset.sum_mul, mul_assoc]
  rw [Finset.sum_comm]
  apply Finset.sum_eq_zero
  intro i _
  rw [← Finset.mul_sum, hw i, mul_zero]

theorem sprod_sq_le (a b : Fin n → ℝ) : sprod a b ^ 2 ≤ sprod a a * sprod b b := by
  rw [← inner_eu, ← norm_eu_sq, ← norm_eu_sq, ← mul_pow]
  have := abs_real_inner_le_norm (eu a) (eu b)
  rw [← sq_abs]
  exact pow_le_pow_left₀ (abs_nonneg _) this 2

theorem spread_near {k : Nat} {r : ℝ} {ps : List (Vec n ℝ)} {g : Fin k → Fin n → ℝ}
    (h : ∀ p ∈ ps, ∃ q, Combination g q ∧ sprod (p - q) (p - q) ≤ r) {w : Fin n → ℝ} (hw : ∀ i, sprod (g i) w = 0) :
    spread ps w ≤ ps.length * r * sprod w w := by
  unfold spread
  induction ps with
  | nil => simp
  | cons p ps ih =>
    obtain ⟨q, hq, hd⟩ := h p (by simp)
    have h1 : sprod p w = sprod (p - q) w := by
      have := sprod_add_left (p - q) q w
      rw [sub_add_cancel, sprod_comb hq hw, add_zero] at this
      exact this
    have h2 := sprod_sq_le (p - q) w
    have h3 := mul_le_mul_of_nonneg_right hd (sprod_self_nonneg w)
    have h4 := ih fun p' hp' => h p' (by simp [hp'])
    simp only [List.map_cons, List.sum_cons, List.length_cons]
    rw [h1]
    push_cast
    linarith

theorem near_flat {k : Nat} {r t : ℝ} {ps : List (Vec n ℝ)} {g : Fin k → Fin n → ℝ}
    (h : ∀ p ∈ ps, ∃ q, Combination g q ∧ sprod (p - q) (p - q) ≤ r ^ 2) (hr : ps.length * r ^ 2 ≤ t ^ 2) : FlatWithin k t ps :=
  ⟨g, fun w hw => (spread_near h hw).trans (mul_le_mul_of_nonneg_right hr (sprod_self_nonneg w))⟩

theorem comb_one {g q : Fin n → ℝ} : Combination (fun _ : Fin 1 => g) q ↔ ∃ x : ℝ, q = x • g := by
  constructor
  · rintro ⟨x, hx⟩
    exact ⟨x 0, by funext j; simpa using hx j⟩
  · rintro ⟨x, rfl⟩
    exact ⟨fun _ => x, fun j => by simp⟩

/-! ## C126 -/

/-- **C126 (tolerance 0).** With tolerance 0 the tests are the exact ones. -/
theorem C126_exact (s : Seg n ℝ) (o : PointOrSeg n ℝ) (ps : List (Vec n ℝ)) (hps : n < 3 ∨ 2 ≤ ps.length) :
    s.collinearTol (some 0) o = .ok (s.collinear o) ∧ s.coplanarTol (some 0) o = s.coplanar o ∧
      coplanarPointsTol (some 0) ps = coplanarPoints ps := by
  have h1 : ∀ ps : List (Vec n ℝ), collinearPointsTol (some 0) ps = .ok (collinearPoints ps) := by
    intro ps
    unfold collinearPointsTol collinearPoints
    simp only [rankTol_zero]
    split_ifs <;> rfl
  have h2 : ∀ ps : List (Vec n ℝ), (n < 3 ∨ 2 ≤ ps.length) → coplanarPointsTol (some 0) ps = coplanarPoints ps := by
    intro ps hps
    unfold coplanarPointsTol coplanarPoints
    by_cases hn : n < 3
    · simp only [hn, if_true]
    · simp only [hn, if_false]
      cases hl : ps.getLast? with
      | none => rfl
      | some l =>
        simp only [rankTol_zero]
        rw [if_neg]
        · rfl
        · simp only [List.isEmpty_iff]
          intro h
          have := congrArg List.length h
          simp at this
          omega
  refine ⟨?_, ?_, h2 ps hps⟩
  · cases o with
    | point p => simp only [Seg.collinearTol, Seg.collinear, h1]; split_ifs <;> rfl
    | seg r => simp only [Seg.collinearTol, Seg.collinear, h1]; split_ifs <;> rfl
  · cases o with
    | point p => exact h2 [s.p1, s.p2, p] (.inr (by simp))
    | seg r => exact h2 [s.p1, s.p2, r.p1, r.p2] (.inr (by simp))

theorem collinearTol_far (s : Seg n ℝ) (tol : Option ℝ) (o : PointOrSeg n ℝ) (hcl : ¬ CloseTo s o) :
    s.collinearTol tol o = collinearPointsTol tol ([s.p1, s.p2] ++ otherPoints o) := by
  cases o with
  | point p =>
    simp only [Seg.collinearTol]
    rw [if_neg]
    · rfl
    · simpa [CloseTo] using hcl
  | seg r =>
    simp only [Seg.collinearTol]
    rw [if_neg]
    · rfl
    · simpa [CloseTo] using hcl

/-- **C126 (collinear, tolerance).** For at least three distinct points, none of them close to an end of the segment, `collinear` with a tolerance is true exactly if
there is a direction such that across to it the spread of the distinct points is at most the square of the tolerance. -/
theorem C126_collinear (s : Seg n ℝ) (o : PointOrSeg n ℝ) {t : ℝ} (ht : 0 ≤ t) (hcl : ¬ CloseTo s o)
    (h3 : 3 ≤ ([s.p1, s.p2] ++ otherPoints o).dedup.length) :
    ∃ b, s.collinearTol (some t) o = .ok b ∧ (b = true ↔ FlatWithin 1 t ([s.p1, s.p2] ++ otherPoints o).dedup) := by
  rw [collinearTol_far s _ o hcl]
  obtain ⟨r, h1, h2⟩ := rankTol_some ([s.p1, s.p2] ++ otherPoints o).dedup 1 ht
  unfold collinearPointsTol
  simp only [h1, if_neg (not_lt.2 h3)]
  exact ⟨_, rfl, by rw [decide_eq_true_iff, h2]⟩

/-- **C126 (collinear, distances).** If `collinear` with a tolerance is true, every point is within the tolerance of one line through the origin; if every point is
within `r` of one line through the origin and `√m r` is at most the tolerance, for `m` the number of distinct points, it is true. -/
theorem C126_collinear_near (s : Seg n ℝ) (o : PointOrSeg n ℝ) {t : ℝ} (ht : 0 ≤ t) (hcl : ¬ CloseTo s o)
    (h3 : 3 ≤ ([s.p1, s.p2] ++ otherPoints o).dedup.length) :
    (s.collinearTol (some t) o = .ok true →
      ∃ g : Vec n ℝ, ∀ p ∈ [s.p1, s.p2] ++ otherPoints o, ∃ x : ℝ, ∑ i, (p i - x * g i) ^ 2 ≤ t ^ 2) ∧
    (∀ (g : Vec n ℝ) (r : ℝ), (∀ p ∈ [s.p1, s.p2] ++ otherPoints o, ∃ x : ℝ, ∑ i, (p i - x * g i) ^ 2 ≤ r ^ 2) →
      ([s.p1, s.p2] ++ otherPoints o).dedup.length * r ^ 2 ≤ t ^ 2 → s.collinearTol (some t) o = .ok true) := by
  obtain ⟨b, h1, h2⟩ := C126_collinear s o ht hcl h3
  have hd : ∀ (p g : Vec n ℝ) (x : ℝ), sprod (p - x • g) (p - x • g) = ∑ i, (p i - x * g i) ^ 2 := by
    intro p g x
    simp [sprod, sq]
  constructor
  · intro h
    rw [h1] at h
    obtain ⟨g, hg⟩ := flat_near ht (h2.1 (Except.ok.inj h))
    refine ⟨g 0, fun p hp => ?_⟩
    obtain ⟨q, hq, hdq⟩ := hg p (List.mem_dedup.2 hp)
    have : g = fun _ => g 0 := by funext i; congr 1; exact Subsingleton.elim _ _
    rw [this] at hq
    obtain ⟨x, rfl⟩ := comb_one.1 hq
    exact ⟨x, by rw [← hd]; exact hdq⟩
  · intro g r h hr
    rw [h1, h2.2]
    refine near_flat (g := fun _ => g) (r := r) (fun p hp => ?_) hr
    obtain ⟨x, hx⟩ := h p (List.mem_dedup.1 hp)
    exact ⟨x • g, comb_one.2 ⟨x, rfl⟩, by rw [hd]; exact hx⟩

/-- **C126 (collinear, default).** Without a tolerance the spread is measured relative to the largest one: the factor is `max(m, n) 2⁻⁵²`. -/
theorem C126_collinear_default (s : Seg n ℝ) (o : PointOrSeg n ℝ) (hcl : ¬ CloseTo s o)
    (h3 : 3 ≤ ([s.p1, s.p2] ++ otherPoints o).dedup.length) :
    ∃ b, s.collinearTol none o = .ok b ∧
      (b = true ↔ FlatRel 1 ((max ([s.p1, s.p2] ++ otherPoints o).dedup.length n : Nat) * (1 / 2 ^ 52)) ([s.p1, s.p2] ++ otherPoints o).dedup) := by
  rw [collinearTol_far s _ o hcl]
  have hn : 0 < n := by
    rcases Nat.eq_zero_or_pos n with rfl | h
    · exfalso
      have h1 : ∀ l : List (Vec 0 ℝ), l.Nodup → l.length ≤ 1 := by
        intro l hl
        match l, hl with
        | [], _ => simp
        | [_], _ => simp
        | a :: b :: l, hl => simp at hl; exact absurd (Subsingleton.elim a b) hl.1.1
      have := h1 _ (List.nodup_dedup ([s.p1, s.p2] ++ otherPoints o))
      omega
    · exact h
  obtain ⟨r, h1, h2⟩ := rankTol_none ([s.p1, s.p2] ++ otherPoints o).dedup 1 hn (by intro h; rw [h] at h3; simp at h3)
  unfold collinearPointsTol
  simp only [h1, if_neg (not_lt.2 h3)]
  exact ⟨_, rfl, by rw [decide_eq_true_iff, h2]⟩

/-- **C126 (coplanar).** In space `coplanar` and `coplanar_points` compare the spread of the differences to the last point across to two directions with the
tolerance, or without one with `max(m, n) 2⁻⁵²` times the largest spread. -/
theorem C126_coplanar (hn : 3 ≤ n) (ps : List (Vec n ℝ)) (l : Vec n ℝ) {t : ℝ} (ht : 0 ≤ t) :
    (∃ b, coplanarPointsTol (some t) (ps ++ [l]) = .ok b ∧ (b = true ↔ FlatWithin 2 t (ps.map (· - l)))) ∧
    (ps ≠ [] → ∃ b, coplanarPointsTol none (ps ++ [l]) = .ok b ∧
      (b = true ↔ FlatRel 2 ((max ps.length n : Nat) * (1 / 2 ^ 52)) (ps.map (· - l)))) := by
  have hu : ∀ tol, coplanarPointsTol tol (ps ++ [l]) = (matrixRankTol tol (ps.map (· - l))).map fun r => decide (r ≤ 2) := by
    intro tol
    unfold coplanarPointsTol
    simp only [if_neg (not_lt.2 hn), List.getLast?_append, List.getLast?_singleton, Option.some_or, List.map_append, List.map_cons, List.map_nil,
      List.dropLast_concat]
  constructor
  · obtain ⟨r, h1, h2⟩ := rankTol_some (ps.map (· - l)) 2 ht
    rw [hu, h1]
    exact ⟨_, rfl, by rw [decide_eq_true_iff, h2]⟩
  · intro hne
    obtain ⟨r, h1, h2⟩ := rankTol_none (ps.map (· - l)) 2 (by omega) (by simpa using hne)
    rw [hu, h1]
    exact ⟨_, rfl, by rw [decide_eq_true_iff, h2, List.length_map]⟩

/-- **C126 (coplanar, distances).** If `coplanar_points` with a tolerance is true, every point is within the tolerance of one plane through the last one; if every
point is within `r` of such a plane and `√(m-1) r` is at most the tolerance, it is true. -/
theorem C126_coplanar_near (hn : 3 ≤ n) (ps : List (Vec n ℝ)) (l : Vec n ℝ) {t : ℝ} (ht : 0 ≤ t) :
    (coplanarPointsTol (some t) (ps ++ [l]) = .ok true →
      ∃ g h : Vec n ℝ, ∀ p ∈ ps, ∃ x y : ℝ, ∑ i, (p i - (l i + x * g i + y * h i)) ^ 2 ≤ t ^ 2) ∧
    (∀ (g h : Vec n ℝ) (r : ℝ), (∀ p ∈ ps, ∃ x y : ℝ, ∑ i, (p i - (l i + x * g i + y * h i)) ^ 2 ≤ r ^ 2) →
      ps.length * r ^ 2 ≤ t ^ 2 → coplanarPointsTol (some t) (ps ++ [l]) = .ok true) := by
  obtain ⟨b, h1, h2⟩ := (C126_coplanar hn ps l ht).1
  constructor
  · intro h
    rw [h1] at h
    obtain ⟨g, hg⟩ := flat_near ht (h2.1 (Except.ok.inj h))
    refine ⟨g 0, g 1, fun p hp => ?_⟩
    obtain ⟨q, ⟨x, hx⟩, hdq⟩ := hg (p - l) (List.mem_map.2 ⟨p, hp, rfl⟩)
    refine ⟨x 0, x 1, ?_⟩
    refine le_trans (le_of_eq ?_) hdq
    unfold sprod
    apply Finset.sum_congr rfl
    intro i _
    simp only [Pi.sub_apply, hx, Fin.sum_univ_two]
    ring
  · intro g h r hp hr
    rw [h1, h2.2]
    refine near_flat (g := ![g, h]) (r := r) (fun p' hp' => ?_) (by simpa using hr)
    obtain ⟨p, hpm, rfl⟩ := List.mem_map.1 hp'
    obtain ⟨x, y, hxy⟩ := hp p hpm
    refine ⟨x • g + y • h, ⟨![x, y], fun j => by simp [Fin.sum_univ_two]⟩, ?_⟩
    refine le_trans (le_of_eq ?_) hxy
    unfold sprod
    apply Finset.sum_congr rfl
    intro i _
    simp only [Pi.sub_apply, Pi.add_apply, Pi.smul_apply, smul_eq_mul]
    ring


theorem flatRel_of_exact {k : Nat} {ps : List (Vec n ℝ)} (hn : 0 < n) (ρ : ℝ) (h : FlatWithin k 0 ps) : FlatRel k ρ ps := by
  obtain ⟨g, hg⟩ := h
  refine ⟨Pi.single ⟨0, hn⟩ 1, by simp only [sprod]; rw [Finset.sum_eq_single ⟨0, hn⟩] <;> simp +contextual, g, fun w hw => ?_⟩
  have h1 := hg w hw
  have h2 := spread_nonneg ps (Pi.single ⟨0, hn⟩ 1)
  have h3 := sprod_self_nonneg w
  have h4 : 0 ≤ ρ ^ 2 * spread ps (Pi.single ⟨0, hn⟩ 1) * sprod w w := by positivity
  nlinarith

/-- **C126 (exact points pass).** Points on a line through the origin are collinear and points in a plane are coplanar for every tolerance from 0 on and for the
default one. -/
theorem C126_complete (tol : Option ℝ) (htol : ∀ t, tol = some t → 0 ≤ t) (s : Seg n ℝ) (o : PointOrSeg n ℝ) (ps : List (Vec n ℝ)) (hps : 2 ≤ ps.length) :
    (OnLineThroughOrigin ([s.p1, s.p2] ++ otherPoints o) → s.collinearTol tol o = .ok true) ∧
    (InPlane ([s.p1, s.p2] ++ otherPoints o) → s.coplanarTol tol o = .ok true) ∧
    (InPlane ps → coplanarPointsTol tol ps = .ok true) := by
  have hco : ∀ ps : List (Vec n ℝ), 2 ≤ ps.length → InPlane ps → coplanarPointsTol tol ps = .ok true := by
    intro ps hps hin
    by_cases hn : n < 3
    · unfold coplanarPointsTol; rw [if_pos hn]
    obtain ⟨qs, l, rfl⟩ : ∃ qs l, ps = qs ++ [l] := by
      rcases List.eq_nil_or_concat ps with h | ⟨qs, l, h⟩
      · subst h; simp at hps
      · exact ⟨qs, l, by simpa using h⟩
    have hqs : qs ≠ [] := by rintro rfl; simp at hps
    have hz : FlatWithin 2 0 (qs.map (· - l)) := by
      obtain ⟨q, g, h, hp⟩ := hin
      refine near_flat (g := ![g, h]) (r := 0) (fun p' hp' => ?_) (by simp)
      obtain ⟨p, hpm, rfl⟩ := List.mem_map.1 hp'
      obtain ⟨x, y, h1⟩ := hp p (by simp [hpm])
      obtain ⟨x', y', h2⟩ := hp l (by simp)
      refine ⟨p - l, ⟨![x - x', y - y'], fun j => ?_⟩, by simp [sprod]⟩
      simp only [h1, h2, Fin.sum_univ_two, Pi.sub_apply, Pi.add_apply, Pi.smul_apply, smul_eq_mul, Matrix.cons_val_zero, Matrix.cons_val_one]
      ring
    cases tol with
    | none =>
      obtain ⟨b, h1, h2⟩ := (C126_coplanar (not_lt.1 hn) qs l le_rfl).2 hqs
      rw [h1, h2.2 (flatRel_of_exact (by omega) _ hz)]
    | some t =>
      have ht := htol t rfl
      obtain ⟨b, h1, h2⟩ := (C126_coplanar (not_lt.1 hn) qs l ht).1
      rw [h1, h2.2]
      obtain ⟨g, hg⟩ := hz
      exact ⟨g, fun w hw => (hg w hw).trans (by have := sprod_self_nonneg w; nlinarith [sq_nonneg t, mul_nonneg (sq_nonneg t) this])⟩
  refine ⟨fun h => ?_, fun h => ?_, hco ps hps⟩
  · by_cases hcl : CloseTo s o
    · cases o with
      | point p => simp only [Seg.collinearTol]; rw [if_pos (by simpa [CloseTo] using hcl)]
      | seg r => simp only [Seg.collinearTol]; rw [if_pos (by simpa [CloseTo] using hcl)]
    · by_cases h3 : 3 ≤ ([s.p1, s.p2] ++ otherPoints o).dedup.length
      · have hz : FlatWithin 1 0 ([s.p1, s.p2] ++ otherPoints o).dedup := by
          obtain ⟨g, hg⟩ := h
          refine near_flat (g := fun _ => g) (r := 0) (fun p hp => ?_) (by simp)
          obtain ⟨x, hx⟩ := hg p (List.mem_dedup.1 hp)
          exact ⟨p, comb_one.2 ⟨x, hx⟩, by simp [sprod]⟩
        cases tol with
        | none =>
          obtain ⟨b, h1, h2⟩ := C126_collinear_default s o hcl h3
          have hn : 0 < n := by
            by_contra h0
            have h0 : n = 0 := by omega
            subst h0
            have := (List.nodup_dedup ([s.p1, s.p2] ++ otherPoints o))
            match hd : ([s.p1, s.p2] ++ otherPoints o).dedup, this with
            | [], _ => rw [hd] at h3; simp at h3
            | [_], _ => rw [hd] at h3; simp at h3
            | a :: b :: l, hl => simp at hl; exact absurd (Subsingleton.elim a b) hl.1.1
          rw [h1, h2.2 (flatRel_of_exact hn _ hz)]
        | some t =>
          have ht := htol t rfl
          obtain ⟨b, h1, h2⟩ := C126_collinear s o ht hcl h3
          rw [h1, h2.2]
          obtain ⟨g, hg⟩ := hz
          exact ⟨g, fun w hw => (hg w hw).trans (by have := sprod_self_nonneg w; nlinarith [sq_nonneg t, mul_nonneg (sq_nonneg t) this])⟩
      · rw [collinearTol_far s _ o hcl]
        unfold collinearPointsTol
        simp only [if_pos (not_le.1 h3)]
  · cases o with
    | point p => exact hco _ (by simp) h
    | seg r => exact hco _ (by simp) h

theorem spread_smul (c : ℝ) (ps : List (Vec n ℝ)) (w : Fin n → ℝ) : spread (ps.map fun p => c • p) w = c ^ 2 * spread ps w := by
  unfold spread
  rw [List.map_map, ← List.sum_map_mul_left]
  congr 1
  apply List.map_congr_left
  intro p _
  simp only [Function.comp_apply, sprod, Pi.smul_apply, smul_eq_mul, mul_assoc]
  rw [← Finset.mul_sum]
  ring

theorem flatRel_smul {c : ℝ} (hc : c ≠ 0) {k : Nat} {ρ : ℝ} {ps : List (Vec n ℝ)} : FlatRel k ρ (ps.map fun p => c • p) ↔ FlatRel k ρ ps := by
  have hc2 : 0 < c ^ 2 := by positivity
  unfold FlatRel
  simp only [spread_smul]
  have : ∀ u w : Fin n → ℝ, (c ^ 2 * spread ps w ≤ ρ ^ 2 * (c ^ 2 * spread ps u) * sprod w w ↔ spread ps w ≤ ρ ^ 2 * spread ps u * sprod w w) := by
    intro u w
    rw [show ρ ^ 2 * (c ^ 2 * spread ps u) * sprod w w = c ^ 2 * (ρ ^ 2 * spread ps u * sprod w w) by ring]
    exact mul_le_mul_iff_right₀ hc2
  simp only [this]

theorem rank_default_smul {c : ℝ} (hc : c ≠ 0) (ps : List (Vec n ℝ)) :
    matrixRankTol none (ps.map fun p => c • p) = matrixRankTol none ps := by
  rcases Nat.eq_zero_or_pos n with rfl | hn
  · have : ∀ qs : List (Vec 0 ℝ), matrixRankTol none qs = .error .valueError := by
      intro qs
      simp [matrixRankTol, svdValues]
    rw [this, this]
  by_cases hr : ps = []
  · subst hr; rfl
  obtain ⟨r, h1, _⟩ := rankTol_none ps 0 hn hr
  obtain ⟨r', h1', _⟩ := rankTol_none (ps.map fun p => c • p) 0 hn (by simpa using hr)
  have h2 : ∀ k, r' ≤ k ↔ r ≤ k := by
    intro k
    obtain ⟨x, hx, hk⟩ := rankTol_none ps k hn hr
    obtain ⟨x', hx', hk'⟩ := rankTol_none (ps.map fun p => c • p) k hn (by simpa using hr)
    rw [h1] at hx
    rw [h1'] at hx'
    cases hx
    cases hx'
    rw [hk, hk', flatRel_smul hc, List.length_map]
  rw [h1, h1', le_antisymm ((h2 r).2 le_rfl) ((h2 r').1 le_rfl)]

/-- **C126 (units).** The default tests give the same result for scaled points, and `coplanar_points` also for translated ones. -/
theorem C126_scale {c : ℝ} (hc : c ≠ 0) (v : Vec n ℝ) (ps : List (Vec n ℝ)) :
    collinearPointsTol none (ps.map fun p => c • p) = collinearPointsTol none ps ∧
    coplanarPointsTol none (ps.map fun p => c • p + v) = coplanarPointsTol none ps := by
  constructor
  · unfold collinearPointsTol
    have hd : (ps.map fun p => c • p).dedup = ps.dedup.map fun p => c • p := List.dedup_map_of_injective (smul_right_injective _ hc) ps
    simp only [hd, List.length_map, rank_default_smul hc]
  · unfold coplanarPointsTol
    by_cases hn : n < 3
    · simp only [if_pos hn]
    · simp only [if_neg hn, List.getLast?_map]
      cases ps.getLast? with
      | none => rfl
      | some l =>
        simp only [Option.map_some]
        have : ((ps.map fun p => c • p + v).map fun p => p - (c • l + v)).dropLast = ((ps.map fun p => p - l).dropLast).map fun p => c • p := by
          rw [← List.map_dropLast, ← List.map_dropLast, ← List.map_dropLast, List.map_map, List.map_map]
          apply List.map_congr_left
          intro p _
          simp only [Function.comp_apply, smul_sub]
          abel
        rw [this, rank_default_smul hc]

/-- **C126 (negative tolerance).** With a negative tolerance no singular value counts as zero: three points are never collinear in two or more dimensions, and four points
in space never coplanar. -/
theorem C126_negative {t : ℝ} (ht : t < 0) (ps : List (Vec n ℝ)) :
    (2 ≤ n → 3 ≤ ps.dedup.length → collinearPointsTol (some t) ps = .ok false) ∧
    (3 ≤ n → 4 ≤ ps.length → coplanarPointsTol (some t) ps = .ok false) := by
  have hr : ∀ qs : List (Vec n ℝ), matrixRankTol (some t) qs = .ok (min qs.length n) := by
    intro qs
    simp only [matrixRankTol]
    congr 1
    rw [List.countP_eq_length.2]
    · simp [svdValues]
    · intro x hx
      obtain ⟨i, _, rfl⟩ := List.mem_map.1 hx
      have := (rowsMap qs).singularValues_nonneg i
      simpa using lt_of_lt_of_le ht this
  constructor
  · intro hn h3
    unfold collinearPointsTol
    simp only [if_neg (not_lt.2 h3), hr]
    simp only [Except.map]
    congr 1
    rw [decide_eq_false_iff_not]
    omega
  · intro hn h4
    unfold coplanarPointsTol
    simp only [if_neg (not_lt.2 hn)]
    cases hl : ps.getLast? with
    | none => simp at hl; subst hl; simp at h4
    | some l =>
      simp only [hr, Except.map]
      congr 1
      rw [decide_eq_false_iff_not]
      simp
      omega

/-- **C126 (curves).** `isplane` of a curve with at least two points: true for points in a plane, true always in two dimensions, and in space true exactly if the spread of the differences to the
last point across to two directions is at most `max(m - 1, n) 2⁻⁵²` times the largest one. -/
theorem C126_isplane {c : Curve ℝ} (hc : WF c) (h2 : 2 ≤ c.rows.length) :
    ∃ b, c.isplaneTol = .ok b ∧ (InPlane (ptsOf c) → b = true) ∧ (c.ncols = 2 → b = true) ∧
      (3 ≤ c.ncols → ∀ (qs : List (Vec c.ncols ℝ)) (l : Vec c.ncols ℝ), ptsOf c = qs ++ [l] →
        (b = true ↔ FlatRel 2 ((max qs.length c.ncols : Nat) * (1 / 2 ^ 52)) (qs.map (· - l)))) := by
  have hp : c.isplaneTol = coplanarPointsTol none (ptsOf c) := rfl
  have hl : 2 ≤ (ptsOf c).length := by simpa [ptsOf] using h2
  rw [hp]
  by_cases hn : c.ncols < 3
  · refine ⟨true, by unfold coplanarPointsTol; rw [if_pos hn], fun _ => rfl, fun _ => rfl, fun h => by omega⟩
  · obtain ⟨qs, l, hq⟩ : ∃ qs l, ptsOf c = qs ++ [l] := by
      rcases List.eq_nil_or_concat (ptsOf c) with h | ⟨qs, l, h⟩
      · rw [h] at hl; simp at hl
      · exact ⟨qs, l, by simpa using h⟩
    have hqs : qs ≠ [] := by rintro rfl; rw [hq] at hl; simp at hl
    obtain ⟨b, h1, h3⟩ := (C126_coplanar (not_lt.1 hn) qs l le_rfl).2 hqs
    refine ⟨b, by rw [hq, h1], fun hin => ?_, fun h => by omega, ?_⟩
    · have h4 := (C126_complete none (by simp) (⟨0, 0⟩ : Seg c.ncols ℝ) (.point 0) (ptsOf c) hl).2.2 hin
      rw [hq, h1] at h4
      exact Except.ok.inj h4
    · intro _ qs' l' hq'
      rw [hq] at hq'
      obtain ⟨rfl, hl'⟩ := List.append_inj' hq' rfl
      cases hl'
      exact h3

/-- **C126 (parameter of a point).** `t(point, tol)` is NaN exactly if `collinear(point, tol)` is false; otherwise it is the parameter of the nearest point of the line of the segment. With tolerance 0 it is the
exact `t`. -/
theorem C126_t (s : Seg n ℝ) (tol : Option ℝ) (p : Vec n ℝ) :
    (s.collinearTol tol (.point p) = .ok false → s.tTol tol p = .ok none) ∧
    (s.collinearTol tol (.point p) = .ok true → ∃ x, s.tTol tol p = .ok (some x) ∧
      ∀ y : ℝ, ∑ i, (p i - (s.p1 i + x * (s.p2 i - s.p1 i))) ^ 2 ≤ ∑ i, (p i - (s.p1 i + y * (s.p2 i - s.p1 i))) ^ 2) ∧
    s.tTol (some 0) p = .ok (s.t p) := by
  refine ⟨fun h => ?_, fun h => ?_, ?_⟩
  · simp only [Seg.tTol, h]; rfl
  · refine ⟨lstsq1 s.direction (p - s.p1), by simp only [Seg.tTol, h]; rfl, fun y => ?_⟩
    have h1 := lstsq1_spec s.direction (p - s.p1) y
    have e : ∀ z : ℝ, vdot (z • s.direction - (p - s.p1)) (z • s.direction - (p - s.p1)) = ∑ i, (p i - (s.p1 i + z * (s.p2 i - s.p1 i))) ^ 2 := by
      intro z
      simp only [vdot, dotProduct, Seg.direction, Pi.sub_apply, Pi.smul_apply, smul_eq_mul]
      exact Finset.sum_congr rfl fun i _ => by ring
    rw [e, e] at h1
    exact h1
  · have h := (C126_exact s (.point p) [p, p] (.inr (by simp))).1
    simp only [Seg.tTol, h, Seg.t]
    cases s.collinear (.point p) <;> rfl

/-- A point beside the line of a segment. -/
theorem beside_far : ¬ CloseTo (⟨![0, 0], ![1, 0]⟩ : Seg 2 ℝ) (.point ![2, 1 / 2]) ∧
    3 ≤ ([(⟨![0, 0], ![1, 0]⟩ : Seg 2 ℝ).p1, (⟨![0, 0], ![1, 0]⟩ : Seg 2 ℝ).p2] ++ otherPoints (.point ![2, 1 / 2])).dedup.length := by
  constructor
  · simp [CloseTo, vecEq, closeK, atol, rtol]
    norm_num
  · simp only [otherPoints]
    rw [List.dedup_eq_self.2]
    · simp
    · simp

example : (⟨![0, 0], ![1, 0]⟩ : Seg 2 ℝ).collinearTol (some 1) (.point ![2, 1 / 2]) = .ok true := by
  refine (C126_collinear_near _ _ zero_le_one beside_far.1 beside_far.2).2 ![1, 0] (1 / 2) ?_ ?_
  · intro p hp
    simp only [otherPoints, List.cons_append, List.nil_append, List.mem_cons, List.not_mem_nil, or_false] at hp
    rcases hp with rfl | rfl | rfl
    · exact ⟨0, by norm_num [Fin.sum_univ_two]⟩
    · exact ⟨1, by norm_num [Fin.sum_univ_two]⟩
    · exact ⟨2, by norm_num [Fin.sum_univ_two]⟩
  · have : ([(⟨![0, 0], ![1, 0]⟩ : Seg 2 ℝ).p1, (⟨![0, 0], ![1, 0]⟩ : Seg 2 ℝ).p2] ++ otherPoints (.point ![2, 1 / 2])).dedup.length ≤ 3 :=
      (List.dedup_sublist _).length_le
    have h : (([(⟨![0, 0], ![1, 0]⟩ : Seg 2 ℝ).p1, (⟨![0, 0], ![1, 0]⟩ : Seg 2 ℝ).p2] ++ otherPoints (.point ![2, 1 / 2])).dedup.length : ℝ) ≤ 3 := by
      exact_mod_cast this
    nlinarith

/-- With a small tolerance the same point is rejected. -/
example : (⟨![0, 0], ![1, 0]⟩ : Seg 2 ℝ).collinearTol (some (1 / 10)) (.point ![2, 1 / 2]) ≠ .ok true := by
  intro h
  obtain ⟨g, hg⟩ := (C126_collinear_near _ _ (by norm_num) beside_far.1 beside_far.2).1 h
  obtain ⟨x, hx⟩ := hg ![1, 0] (by simp)
  obtain ⟨y, hy⟩ := hg ![2, 1 / 2] (by simp [otherPoints])
  simp [Fin.sum_univ_two] at hx hy
  have a1 : |1 - x * g 0| ≤ 1 / 10 := abs_le_of_sq_le_sq (by nlinarith [sq_nonneg (x * g 1)]) (by norm_num)
  have a2 : |x * g 1| ≤ 1 / 10 := abs_le_of_sq_le_sq (by nlinarith [sq_nonneg (1 - x * g 0)]) (by norm_num)
  have b1 : |2 - y * g 0| ≤ 1 / 10 := abs_le_of_sq_le_sq (by nlinarith [sq_nonneg ((1 : ℝ) / 2 - y * g 1)]) (by norm_num)
  have b2 : |1 / 2 - y * g 1| ≤ 1 / 10 := abs_le_of_sq_le_sq (by nlinarith [sq_nonneg (2 - y * g 0)]) (by norm_num)
  rw [abs_le] at a1 a2 b1 b2
  have key : (x * g 0) * (y * g 1) = (x * g 1) * (y * g 0) := by ring
  nlinarith

/-- **C126 (not exact).** Without a tolerance points count as collinear that do not lie on a line. -/
theorem C126_default_fails :
    ¬ OnLine [![(0 : ℝ), 0], ![1, 0], ![2, 1 / 10 ^ 20]] ∧ (⟨![0, 0], ![1, 0]⟩ : Seg 2 ℝ).collinearTol none (.point ![2, 1 / 10 ^ 20]) = .ok true := by
  constructor
  · rintro ⟨q, g, h⟩
    obtain ⟨x, hx⟩ := h ![0, 0] (by simp)
    obtain ⟨y, hy⟩ := h ![1, 0] (by simp)
    obtain ⟨z, hz⟩ := h ![2, 1 / 10 ^ 20] (by simp)
    have x0 := congrFun hx 0; have x1 := congrFun hx 1
    have y0 := congrFun hy 0; have y1 := congrFun hy 1
    have z0 := congrFun hz 0; have z1 := congrFun hz 1
    simp at x0 x1 y0 y1 z0 z1
    have e1 : (y - x) * g 0 = 1 := by linarith
    have e2 : (y - x) * g 1 = 0 := by linarith
    have hg1 : g 1 = 0 := by
      rcases mul_eq_zero.1 e2 with h | h
      · rw [h, zero_mul] at e1; norm_num at e1
      · exact h
    rw [hg1] at x1 z1
    have : ((10 : ℝ) ^ 20)⁻¹ = 0 := by linarith
    norm_num at this
  · have hcl : ¬ CloseTo (⟨![0, 0], ![1, 0]⟩ : Seg 2 ℝ) (.point ![2, 1 / 10 ^ 20]) := by
      simp [CloseTo, vecEq, closeK, atol, rtol]
      norm_num
    have hd : ([![(0 : ℝ), 0], ![1, 0]] ++ [![2, 1 / 10 ^ 20]]).dedup = [![(0 : ℝ), 0], ![1, 0], ![2, 1 / 10 ^ 20]] := by
      rw [List.dedup_eq_self.2]
      · rfl
      · simp
    obtain ⟨b, h1, h2⟩ := C126_collinear_default (⟨![0, 0], ![1, 0]⟩ : Seg 2 ℝ) (.point ![2, 1 / 10 ^ 20]) hcl
      (by simp only [otherPoints]; rw [hd]; simp)
    rw [h1, h2.2]
    simp only [otherPoints]
    rw [hd]
    refine ⟨![1, 0], by simp [sprod], fun _ => ![1, 0], fun w hw => ?_⟩
    have h0 : w 0 = 0 := by simpa [sprod] using hw 0
    simp [spread, sprod, h0]
    have := sq_nonneg (w 1)
    have e : ∀ y : ℝ, (((10 : ℝ) ^ 20)⁻¹ * y) ^ 2 = (((10 : ℝ) ^ 20)⁻¹) ^ 2 * y ^ 2 := fun y => by ring
    rw [e, ← sq]
    apply mul_le_mul_of_nonneg_right _ this
    norm_num

/-! ## Concrete cases -/

example := C126_exact (⟨![0, 0, 0], ![1, 0, 0]⟩ : Seg 3 ℝ) (.point ![2, 1 / 2, 1]) [![0, 0, 0], ![1, 0, 0]] (Or.inr le_rfl)
example := C126_collinear (⟨![0, 0], ![1, 0]⟩ : Seg 2 ℝ) (.point ![2, 1 / 2]) (t := 1 / 4) (by norm_num) beside_far.1 beside_far.2
example := C126_collinear_default (⟨![0, 0], ![1, 0]⟩ : Seg 2 ℝ) (.point ![2, 1 / 2]) beside_far.1 beside_far.2
example := (C126_coplanar le_rfl [![0, 0, 0], ![1, 0, 0], ![0, 1, 0]] (![1, 1, 1 / 2] : Vec 3 ℝ) (t := 1 / 4) (by norm_num)).2 (by simp)
example := C126_coplanar_near le_rfl [![0, 0, 0], ![1, 0, 0], ![0, 1, 0]] (![1, 1, 1 / 2] : Vec 3 ℝ) (t := 1 / 4) (by norm_num)
example := (C126_complete (some (1 / 4)) (by rintro t ⟨⟩; norm_num) (⟨![0, 0, 0], ![1, 0, 0]⟩ : Seg 3 ℝ) (.point ![2, 0, 0]) [![0, 0, 0], ![1, 0, 0]] le_rfl).2.1
  ⟨0, ![1, 0, 0], 0, by
    intro p hp
    simp only [otherPoints, List.cons_append, List.nil_append, List.mem_cons, List.not_mem_nil, or_false] at hp
    rcases hp with rfl | rfl | rfl
    · exact ⟨0, 0, by ext i; fin_cases i <;> simp⟩
    · exact ⟨1, 0, by ext i; fin_cases i <;> simp⟩
    · exact ⟨2, 0, by ext i; fin_cases i <;> simp⟩⟩
example := C126_scale (c := (-3 : ℝ)) (by norm_num) (![1, 1, 1 / 2] : Vec 3 ℝ) [![0, 0, 0], ![1, 0, 0], ![0, 1, 0]]
example := (C126_negative (t := (-1 : ℝ)) (by norm_num) ([![0, 0, 0], ![1, 0, 0], ![0, 1, 0], ![1, 1, 1]] : List (Vec 3 ℝ))).2 le_rfl le_rfl
example := C126_isplane (c := ⟨[[0, 0, 0], [1, 0, 0], [0, 1, 0], [1, 1, 1]], 3, none, .float⟩) ⟨by simp, by simp, by simp, by intro r _ x _; rfl⟩ (by simp)
example := C126_t (⟨![0, 0], ![1, 0]⟩ : Seg 2 ℝ) (some 1) ![2, 1 / 2]

end Verif.Props
