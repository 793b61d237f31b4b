import Verif.Model.RoundedExact
import Verif.Props.RoundedRank
import Verif.Props.RoundedPairs

/-!
C161: the exact method of intersection for segments and curves of the plane in floating point, from the test of collinearity to the list of intersections.
-/
namespace Verif.Props

open Verif Verif.Np Verif.Model Verif.Spec

variable {ε η : ℝ} {fl : ℝ → ℝ}

/-- The end points of two segments as a list of four points are at least three distinct ones if the directions are not parallel. -/
theorem three_points {s r : Seg 2 ℝ} (h : cross2 (s.p2 - s.p1) (r.p2 - r.p1) ≠ 0) : 3 ≤ ([s.p1, s.p2] ++ otherPoints (.seg r)).dedup.length := by
  by_contra hlt
  have hlt := not_le.1 hlt
  rw [← List.card_toFinset] at hlt
  have hs : s.p1 ≠ s.p2 := by
    intro e; apply h; rw [e]; simp [cross2]
  have hr : r.p1 ≠ r.p2 := by
    intro e; apply h; rw [e]; simp [cross2]
  have hsub : ({s.p1, s.p2} : Finset (Vec 2 ℝ)) ⊆ ([s.p1, s.p2] ++ otherPoints (.seg r)).toFinset := by
    intro x hx
    simp only [Finset.mem_insert, Finset.mem_singleton] at hx
    rcases hx with rfl | rfl <;> simp
  have heq := Finset.eq_of_subset_of_card_le hsub (by rw [Finset.card_pair hs]; omega)
  have m1 : r.p1 ∈ ({s.p1, s.p2} : Finset (Vec 2 ℝ)) := by rw [heq]; simp [otherPoints]
  have m2 : r.p2 ∈ ({s.p1, s.p2} : Finset (Vec 2 ℝ)) := by rw [heq]; simp [otherPoints]
  simp only [Finset.mem_insert, Finset.mem_singleton] at m1 m2
  rcases m1 with e1 | e1 <;> rcases m2 with e2 | e2
  · exact hr (e1.trans e2.symm)
  · apply h; rw [e1, e2]; simp [cross2]; ring
  · apply h; rw [e1, e2]; simp [cross2]; ring
  · exact hr (e1.trans e2.symm)

/-- The tolerance of the comparison of coordinates, a little enlarged. -/
def PtsApart (p q : Fin 2 → ℝ) : Prop := ∃ i, 1.01 * (1 / 10 ^ 8 + 1 / 10 ^ 5 * |q i|) < |p i - q i|

theorem apart_not_close (hf : Rounding ε fl) (hε : ε ≤ 1 / 1000) {p q : Vec 2 ℝ} (h : PtsApart p q) : ¬ VecCloseFl fl p q := by
  obtain ⟨i, hi⟩ := h
  intro hc
  exact absurd (of_closeFl hf hε (hc i)) (not_le.2 hi)

/-- The area spanned by the directions, in minors of the coordinates of the end points. -/
theorem cross_minors (s r : Seg 2 ℝ) : cross2 (s.p2 - s.p1) (r.p2 - r.p1) =
    (s.p2 0 * r.p2 1 - s.p2 1 * r.p2 0) - (s.p2 0 * r.p1 1 - s.p2 1 * r.p1 0) - (s.p1 0 * r.p2 1 - s.p1 1 * r.p2 0) + (s.p1 0 * r.p1 1 - s.p1 1 * r.p1 0) := by
  simp only [cross2, Pi.sub_apply]
  ring

/-- **C161 (crossings are found, segments; partial).** Under the hypotheses of C155 the exact method in floating point, with its test of collinearity, reports a point near the common point `P`, if moreover the end points of the segments are
apart (so that they are not taken for the same segment) and the area `D` is above `4 (2 ρ + ρ²) S²`, where `S²` is the sum of the squares of all coordinates and `ρ = 4.04 2⁻⁵² + η`. Missing: crossings at a flat angle or far from the
origin. -/
theorem C161_crossing_partial (hf : Rounding ε fl) (hε : ε ≤ 1 / 10 ^ 6) (hη : 0 ≤ η) (hη1 : η ≤ 1 / 1000) (feps : ℝ) {s r : Seg 2 ℝ} {P : Vec 2 ℝ} {L D τ S ρ : ℝ}
    (hP1 : Between s.p1 s.p2 P) (hP2 : Between r.p1 r.p2 P) (hs : Model.edist s.p1 s.p2 ≤ L) (hr : Model.edist r.p1 r.p2 ≤ L)
    (hD : D ≤ |cross2 (s.p2 - s.p1) (r.p2 - r.p1)|) (hD0 : 0 < D) (hF : 1 / 2 ^ 52 ≤ D ^ 2 - 24 * ε * L ^ 4)
    (hτ : τ = (16 * ε + 12 * η) * L ^ 2 / D) (hτ1 : τ ≤ 9 / 10 ^ 9) (hτ2 : (τ + 4 * ε) * L ≤ 2 / 10 ^ 9)
    (ns : PtsApart s.p1 s.p2) (nr : PtsApart r.p1 r.p2) (a1 : PtsApart r.p1 s.p1 ∨ PtsApart r.p2 s.p2) (a2 : PtsApart r.p2 s.p1 ∨ PtsApart r.p1 s.p2)
    (hS : 0 ≤ S) (hS2 : ∑ i, (s.p1 i ^ 2 + s.p2 i ^ 2 + r.p1 i ^ 2 + r.p2 i ^ 2) ≤ S ^ 2) (hρ : ρ = 4.04 / 2 ^ 52 + η) (hDS : 4 * ((2 * ρ + ρ ^ 2) * S ^ 2) < D)
    {z : Info 2 ℝ} (h : ExactTo fl η feps s r z) :
    ∃ Q, z = ⟨.point Q, .exact⟩ ∧ ∀ i, |Q i - P i| ≤ ε * |P i| + 2 * (τ + 4 * ε) * L := by
  have hε' : ε ≤ 1 / 1000 := hε.trans (by norm_num)
  obtain ⟨b, hb, hx⟩ := h
  cases b with
  | false =>
    rw [if_neg (by simp)] at hx
    exact C155_crossing_partial hf hε hη feps hP1 hP2 hs hr hD hD0 hF hτ hτ1 hτ2 ns nr hx
  | true =>
    exfalso
    have hcl : ¬ CloseToFl fl s (.seg r) := by
      rintro (⟨h1, h2⟩ | ⟨h1, h2⟩)
      · exact a1.elim (fun a => apart_not_close hf hε' a h1) fun a => apart_not_close hf hε' a h2
      · exact a2.elim (fun a => apart_not_close hf hε' a h1) fun a => apart_not_close hf hε' a h2
    have h3 : 3 ≤ ([s.p1, s.p2] ++ otherPoints (.seg r)).dedup.length := three_points (by
      intro e; rw [e, abs_zero] at hD; linarith)
    have hm := (C160_sound hf hε' hη hη1 hcl h3 hS (ρ := ρ) (by
      refine le_trans (le_of_eq ?_) hS2
      simp only [otherPoints, List.cons_append, List.nil_append, List.map_cons, List.map_nil, List.sum_cons, List.sum_nil, Finset.sum_add_distrib]
      ring) (by rw [hρ]; norm_num) hb).2
    have m1 := hm s.p2 (by simp) r.p2 (by simp [otherPoints]) 0 1
    have m2 := hm s.p2 (by simp) r.p1 (by simp [otherPoints]) 0 1
    have m3 := hm s.p1 (by simp) r.p2 (by simp [otherPoints]) 0 1
    have m4 := hm s.p1 (by simp) r.p1 (by simp [otherPoints]) 0 1
    rw [cross_minors] at hD
    have : |s.p2 0 * r.p2 1 - s.p2 1 * r.p2 0 - (s.p2 0 * r.p1 1 - s.p2 1 * r.p1 0) - (s.p1 0 * r.p2 1 - s.p1 1 * r.p2 0) + (s.p1 0 * r.p1 1 - s.p1 1 * r.p1 0)| ≤
        4 * ((2 * ρ + ρ ^ 2) * S ^ 2) := by
      rw [abs_le] at m1 m2 m3 m4 ⊢
      constructor <;> linarith [m1.1, m1.2]
    linarith

/-- **C161 (what is reported, segments).** What the exact method reports in floating point is either a point as in `C155_sound`, or a segment: then the method has taken the segments for collinear (C160), and the
segment reported runs between corners of the common part of the bounding boxes. -/
theorem C161_sound (hf : Rounding ε fl) (hε : ε ≤ 1 / 1000) (hη : 0 ≤ η) (hη1 : η ≤ 1 / 1000) {feps : ℝ} {s r : Seg 2 ℝ} {z : Info 2 ℝ} (h : ExactTo fl η feps s r z) (hz : z ≠ notIntersected) :
    (∃ Q, z = ⟨.point Q, .exact⟩ ∧ s.CollinearTo fl η none (.seg r) (.ok false) ∧ ∃ t u : ℝ, -(1.01 / 10 ^ 8) ≤ t ∧ t ≤ 1 + 1.02 / 10 ^ 5 ∧ -(1.01 / 10 ^ 8) ≤ u ∧ u ≤ 1 + 1.02 / 10 ^ 5 ∧
      (∀ i, |Q i - s.point t i| ≤ ε * |s.point t i| + 5 * ε * |s.p2 i - s.p1 i|) ∧
      ∃ q : Vec 2 ℝ, (∀ i, |q i - r.point u i| ≤ ε * |r.point u i| + 5 * ε * |r.p2 i - r.p1 i|) ∧
        ((∀ i, |Q i - q i| ≤ 1.01 * (1 / 10 ^ 8 + 1 / 10 ^ 5 * |q i|)) ∨ (1 - η) * Model.edist Q q ≤ feps)) ∨
    ∃ o : Seg 2 ℝ, z = ⟨.segment o, .overlap⟩ ∧ s.CollinearTo fl η none (.seg r) (.ok true) ∧ ∀ i, o.p1 i ≤ o.p2 i ∧
      (∀ v : ℝ, (o.p1 i ≤ v ∧ v ≤ o.p2 i) ↔ ((s.p1 i ≤ v ∨ s.p2 i ≤ v) ∧ (v ≤ s.p1 i ∨ v ≤ s.p2 i) ∧ (r.p1 i ≤ v ∨ r.p2 i ≤ v) ∧ (v ≤ r.p1 i ∨ v ≤ r.p2 i))) := by
  obtain ⟨b, hb, hx⟩ := h
  cases b with
  | false =>
    left
    rw [if_neg (by simp)] at hx
    obtain ⟨Q, rfl⟩ : ∃ Q, z = ⟨.point Q, .exact⟩ := by
      obtain ⟨q, -, hx⟩ := hx
      split at hx
      · exact absurd hx hz
      rcases hx with ⟨-, hx⟩ | ⟨t, -, hx⟩
      · exact absurd hx hz
      unfold FinishTo at hx
      split at hx
      · split at hx
        · exact ⟨_, hx⟩
        · obtain ⟨y, -, hx⟩ := hx
          split at hx
          · exact absurd hx hz
          · exact ⟨_, hx⟩
      · exact absurd hx hz
    exact ⟨Q, rfl, hb, C155_sound hf hε hη (by linarith) hx⟩
  | true =>
    right
    rw [if_pos rfl] at hx
    cases ho : s.overlap r false with
    | none => rw [ho] at hx; exact absurd hx hz
    | some o =>
      rw [ho] at hx
      refine ⟨o, hx, hb, fun i => ?_⟩
      unfold Seg.overlap at ho
      simp only [Bool.false_and, Bool.false_eq_true, if_false] at ho
      split at ho
      · exact absurd ho (by simp)
      · rename_i hne
        have hne := not_exists.1 hne i
        obtain rfl := Option.some.inj ho
        refine ⟨not_lt.1 hne, fun v => ?_⟩
        simp only [max_le_iff, le_min_iff, min_le_iff, le_max_iff]
        tauto

/-! ## Curves -/

/-- The coordinate ranges of the segments overlap, or are as close as the comparison of coordinates allows. -/
theorem bboxFl_of_meet (hf : Rounding ε fl) (hε : ε ≤ 1 / 1000) {s r : Seg 2 ℝ} {P : Vec 2 ℝ} (h1 : Between s.p1 s.p2 P) (h2 : Between r.p1 r.p2 P) : BboxFl fl s r := by
  have key : ∀ (s : Seg 2 ℝ), Between s.p1 s.p2 P → ∀ i, min (s.p1 i) (s.p2 i) ≤ P i ∧ P i ≤ max (s.p1 i) (s.p2 i) := by
    rintro s ⟨x, x0, x1, rfl⟩ i
    simp only [Pi.add_apply, Pi.smul_apply, Pi.sub_apply, smul_eq_mul, min_le_iff, le_max_iff]
    rcases le_total (s.p1 i) (s.p2 i) with h | h
    · constructor
      · left; nlinarith
      · right; nlinarith
    · constructor
      · right; nlinarith
      · left; nlinarith
  intro i
  obtain ⟨a1, a2⟩ := key s h1 i
  obtain ⟨b1, b2⟩ := key r h2 i
  have eq : ∀ x y : ℝ, x = y → CloseFl fl x y := by
    intro x y e
    apply closeFl_of hf hε
    rw [e, sub_self, abs_zero]
    positivity
  refine ⟨(a1.trans b2).lt_or_eq.imp_right (eq _ _), ?_⟩
  rcases (b1.trans a2).lt_or_eq with h | h
  · exact .inl h
  · exact .inr (eq _ _ h.symm)

/-- **C161 (the list).** The list returned for two curves: `x i j` is a result which the method may give for the segments `i` and `j` alone; the list contains, once each and in row-major order, the pairs of segments whose boxes
overlap (for one curve with itself those with `j ≥ i + 2`) and which intersect. -/
theorem C161_pairs {feps : ℝ} {c1 c2 : GCurve 2 ℝ} (hself : c1.cid = c2.cid → c1.data = c2.data) {xs : List (SegInt 2 ℝ)} (h : ExactCurvesTo fl η feps c1 c2 xs) :
    ∃ (x : Nat → Nat → Info 2 ℝ) (idx : List (Nat × Nat)), idx.Pairwise Before ∧
      (∀ i j, (i, j) ∈ idx ↔ ∃ (hi : i + 1 < c1.data.length) (hj : j + 1 < c2.data.length), (c1.cid = c2.cid → i + 2 ≤ j) ∧
        BboxFl fl ⟨c1.data[i], c1.data[i + 1]⟩ ⟨c2.data[j], c2.data[j + 1]⟩ ∧ (x i j).type ≠ .none) ∧
      (∀ i j (hi : i + 1 < c1.data.length) (hj : j + 1 < c2.data.length), (c1.cid = c2.cid → i + 2 ≤ j) →
        BboxFl fl ⟨c1.data[i], c1.data[i + 1]⟩ ⟨c2.data[j], c2.data[j + 1]⟩ → ExactTo fl η feps ⟨c1.data[i], c1.data[i + 1]⟩ ⟨c2.data[j], c2.data[j + 1]⟩ (x i j)) ∧
      xs = idx.map fun q => ⟨c1.segment q.1, c2.segment q.2, x q.1 q.2⟩ := by
  obtain ⟨x, hx, rfl⟩ := h
  have hseg : ∀ (d : Decidable (c2.cid = c1.cid)) (i : Nat), ((@ite _ _ d c1 c2).segment i).seg = (c2.segment i).seg := by
    intro d i
    by_cases hc : c2.cid = c1.cid
    · rw [if_pos hc]
      unfold GCurve.segment
      rw [hself hc.symm]
    · rw [if_neg hc]
  have hnum : (if decide (c2.cid = c1.cid) = true then c1 else c2).numSegs = c2.numSegs := by
    by_cases hc : c2.cid = c1.cid
    · rw [if_pos (by simpa using hc)]
      unfold GCurve.numSegs
      rw [hself hc.symm]
    · rw [if_neg (by simpa using hc)]
  have hmem : ∀ i j, (i, j) ∈ bboxPairsFl fl c1 c2 ↔ ∃ (hi : i + 1 < c1.data.length) (hj : j + 1 < c2.data.length), (c1.cid = c2.cid → i + 2 ≤ j) ∧
      BboxFl fl ⟨c1.data[i], c1.data[i + 1]⟩ ⟨c2.data[j], c2.data[j + 1]⟩ := by
    intro i j
    unfold bboxPairsFl
    simp only
    split
    · rename_i h0
      simp only [List.not_mem_nil, false_iff, not_exists]
      intro hi hj
      omega
    · rw [mem_curvesIndices, hnum]
      simp only [decide_eq_true_iff]
      rw [hseg]
      constructor
      · rintro ⟨h1, h2, h3, h4⟩
        unfold GCurve.numSegs at h1 h2
        have hi : i + 1 < c1.data.length := by omega
        have hj : j + 1 < c2.data.length := by omega
        rw [segment_eq c1 i hi, segment_eq c2 j hj] at h3
        exact ⟨hi, hj, fun e => h4 e.symm, h3⟩
      · rintro ⟨hi, hj, h4, h3⟩
        refine ⟨by unfold GCurve.numSegs; omega, by unfold GCurve.numSegs; omega, ?_, fun e => h4 e.symm⟩
        rw [segment_eq c1 i hi, segment_eq c2 j hj]
        exact h3
  refine ⟨x, (bboxPairsFl fl c1 c2).filter fun q => decide ((x q.1 q.2).type ≠ .none), ?_, ?_, ?_, rfl⟩
  · refine List.Pairwise.sublist List.filter_sublist ?_
    unfold bboxPairsFl
    simp only
    split
    · exact List.Pairwise.nil
    · exact curvesIndices_before _ _ _ _
  · intro i j
    rw [List.mem_filter, hmem]
    simp only [decide_eq_true_iff]
    constructor
    · rintro ⟨⟨hi, hj, h1, h2⟩, h3⟩
      exact ⟨hi, hj, h1, h2, h3⟩
    · rintro ⟨hi, hj, h1, h2, h3⟩
      exact ⟨⟨hi, hj, h1, h2⟩, h3⟩
  · intro i j hi hj h1 h2
    have := hx (i, j) ((hmem i j).2 ⟨hi, hj, h1, h2⟩)
    rw [segment_eq c1 i hi, segment_eq c2 j hj] at this
    exact this

/-! ## binary64 -/

theorem not_apart {p q : Fin 2 → ℝ} {M : ℝ} (hq : ∀ i, |q i| ≤ M) (h : ¬ PtsApart p q) (i : Fin 2) : |p i - q i| ≤ 1.01 * (1 / 10 ^ 8 + 1 / 10 ^ 5 * M) := by
  have := not_lt.1 (not_exists.1 h i)
  have := hq i
  linarith

theorem abs_cross2_le {u v : Fin 2 → ℝ} {a b : ℝ} (hu : ∀ i, |u i| ≤ a) (hv : ∀ i, |v i| ≤ b) : |cross2 u v| ≤ 2 * (a * b) := by
  unfold cross2
  have a0 : 0 ≤ a := (abs_nonneg _).trans (hu 0)
  have h1 : |u 0 * v 1| ≤ a * b := by rw [abs_mul]; exact mul_le_mul (hu 0) (hv 1) (abs_nonneg _) a0
  have h2 : |u 1 * v 0| ≤ a * b := by rw [abs_mul]; exact mul_le_mul (hu 1) (hv 0) (abs_nonneg _) a0
  rw [abs_le] at *
  constructor <;> linarith [h1.1, h1.2, h2.1, h2.2]

/-- Segments with coordinates up to 1000, length at most 10 and area at least 1: the comparisons of points with tolerance take none of their end points for equal. -/
theorem usual_apart {s r : Seg 2 ℝ} (hs : Model.edist s.p1 s.p2 ≤ 10) (hr : Model.edist r.p1 r.p2 ≤ 10) (hc : ∀ i, |s.p1 i| ≤ 1000 ∧ |s.p2 i| ≤ 1000 ∧ |r.p1 i| ≤ 1000 ∧ |r.p2 i| ≤ 1000)
    (hD : 1 ≤ |cross2 (s.p2 - s.p1) (r.p2 - r.p1)|) : PtsApart s.p1 s.p2 ∧ PtsApart r.p1 r.p2 ∧ (PtsApart r.p1 s.p1 ∨ PtsApart r.p2 s.p2) ∧ (PtsApart r.p2 s.p1 ∨ PtsApart r.p1 s.p2) := by
  have hu : ∀ i, |(s.p2 - s.p1) i| ≤ 10 := fun i => by
    refine (entry_le_vnorm _ i).trans ?_
    rw [← edist_eq_vnorm, Model.edist_comm]; exact hs
  have hv : ∀ i, |(r.p2 - r.p1) i| ≤ 10 := fun i => by
    refine (entry_le_vnorm _ i).trans ?_
    rw [← edist_eq_vnorm, Model.edist_comm]; exact hr
  have tol : ∀ {p q : Fin 2 → ℝ}, (∀ i, |q i| ≤ 1000) → ¬ PtsApart p q → ∀ i, |p i - q i| ≤ 0.0103 := by
    intro p q hq h i
    have := not_apart hq h i
    norm_num at this ⊢
    linarith
  refine ⟨?_, ?_, ?_, ?_⟩
  · by_contra h
    have h1 := tol (fun i => (hc i).2.1) h
    have := abs_cross2_le (u := s.p2 - s.p1) (a := 0.0103) (fun i => by rw [Pi.sub_apply, abs_sub_comm]; exact h1 i) hv
    norm_num at this; linarith
  · by_contra h
    have h1 := tol (fun i => (hc i).2.2.2) h
    have := abs_cross2_le (v := r.p2 - r.p1) (b := 0.0103) hu (fun i => by rw [Pi.sub_apply, abs_sub_comm]; exact h1 i)
    norm_num at this; linarith
  · by_contra h
    obtain ⟨h1, h2⟩ := not_or.1 h
    have h1 := tol (fun i => (hc i).1) h1
    have h2 := tol (fun i => (hc i).2.1) h2
    have e : cross2 (s.p2 - s.p1) (r.p2 - r.p1) = cross2 (s.p2 - s.p1) ((r.p2 - s.p2) - (r.p1 - s.p1)) := by
      simp only [cross2, Pi.sub_apply]; ring
    have := abs_cross2_le (v := (r.p2 - s.p2) - (r.p1 - s.p1)) (b := 0.0206) hu (fun i => by
      have h1 := h1 i
      have h2 := h2 i
      simp only [Pi.sub_apply]
      rw [abs_le] at *
      norm_num at *
      constructor <;> linarith [h1.1, h1.2, h2.1, h2.2])
    rw [← e] at this
    norm_num at this; linarith
  · by_contra h
    obtain ⟨h1, h2⟩ := not_or.1 h
    have h1 := tol (fun i => (hc i).1) h1
    have h2 := tol (fun i => (hc i).2.1) h2
    have e : cross2 (s.p2 - s.p1) (r.p2 - r.p1) = cross2 (s.p2 - s.p1) ((r.p2 - s.p1) - (r.p1 - s.p2)) := by
      simp only [cross2, Pi.sub_apply]; ring
    have := abs_cross2_le (v := (r.p2 - s.p1) - (r.p1 - s.p2)) (b := 0.0206) hu (fun i => by
      have h1 := h1 i
      have h2 := h2 i
      simp only [Pi.sub_apply]
      rw [abs_le] at *
      norm_num at *
      constructor <;> linarith [h1.1, h1.2, h2.1, h2.2])
    rw [← e] at this
    norm_num at this; linarith

theorem usual_segments {s r : Seg 2 ℝ} {P : Vec 2 ℝ} (hP1 : Between s.p1 s.p2 P) (hP2 : Between r.p1 r.p2 P) (hs : Model.edist s.p1 s.p2 ≤ 10) (hr : Model.edist r.p1 r.p2 ≤ 10)
    (hc : ∀ i, |s.p1 i| ≤ 1000 ∧ |s.p2 i| ≤ 1000 ∧ |r.p1 i| ≤ 1000 ∧ |r.p2 i| ≤ 1000) (hD : 1 ≤ |cross2 (s.p2 - s.p1) (r.p2 - r.p1)|) (hη : 0 ≤ η) (hη1 : η ≤ 1 / 2 ^ 49) {feps : ℝ} {z : Info 2 ℝ}
    (h : ExactTo rnd η feps s r z) : ∃ Q, z = ⟨.point Q, .exact⟩ ∧ ∀ i, |Q i - P i| ≤ 1 / 10 ^ 10 := by
  obtain ⟨n1, n2, n3, n4⟩ := usual_apart hs hr hc hD
  have sq : ∀ {x : ℝ}, |x| ≤ 1000 → x ^ 2 ≤ 1000 ^ 2 := fun hx => by rw [← sq_abs]; exact pow_le_pow_left₀ (abs_nonneg _) hx 2
  obtain ⟨Q, hz, hQ⟩ := C161_crossing_partial rnd_rounding (by norm_num) hη (hη1.trans (by norm_num)) feps hP1 hP2 hs hr hD (by norm_num) (by norm_num) rfl (by norm_num at *; linarith)
    (by norm_num at *; linarith)
    n1 n2 n3 n4 (S := 3000) (by norm_num) (by
      rw [Fin.sum_univ_two]
      have a := hc 0
      have b := hc 1
      linarith [sq a.1, sq a.2.1, sq a.2.2.1, sq a.2.2.2, sq b.1, sq b.2.1, sq b.2.2.1, sq b.2.2.2]) rfl (by norm_num at *; nlinarith) h
  refine ⟨Q, hz, fun i => (hQ i).trans ?_⟩
  have hPi : |P i| ≤ 1000 := by
    obtain ⟨x, x0, x1, rfl⟩ := hP1
    have a := hc i
    simp only [Pi.add_apply, Pi.smul_apply, Pi.sub_apply, smul_eq_mul]
    obtain ⟨a1, b1, -⟩ := a
    rw [abs_le] at a1 b1 ⊢
    constructor <;> nlinarith
  norm_num at hPi hη1 ⊢
  linarith

/-- **C161 (binary64).** Two curves of the plane with coordinates up to 1000 in binary64, solver and singular values accurate to `2⁻⁴⁹`. If segment `i` of the first and segment `j` of the second (`j ≥ i + 2` for one curve with
itself), both of length at most 10 and with directions which span an area of at least 1, have a common point `P`, then the exact method reports this pair, exactly once, as an exact intersection at a point whose coordinates
differ from those of `P` by at most `1e-10`. -/
theorem C161_usual {feps : ℝ} {c1 c2 : GCurve 2 ℝ} (hself : c1.cid = c2.cid → c1.data = c2.data) {xs : List (SegInt 2 ℝ)} (hη : 0 ≤ η) (hη1 : η ≤ 1 / 2 ^ 49) (h : ExactCurvesTo rnd η feps c1 c2 xs)
    (hc1 : ∀ p ∈ c1.data, ∀ i, |p i| ≤ 1000) (hc2 : ∀ p ∈ c2.data, ∀ i, |p i| ≤ 1000) {i j : Nat} (hi : i + 1 < c1.data.length) (hj : j + 1 < c2.data.length) (hij : c1.cid = c2.cid → i + 2 ≤ j)
    (hs : Model.edist c1.data[i] c1.data[i + 1] ≤ 10) (hr : Model.edist c2.data[j] c2.data[j + 1] ≤ 10) (hD : 1 ≤ |cross2 (c1.data[i + 1] - c1.data[i]) (c2.data[j + 1] - c2.data[j])|)
    {P : Vec 2 ℝ} (hP1 : Between c1.data[i] c1.data[i + 1] P) (hP2 : Between c2.data[j] c2.data[j + 1] P) :
    ∃ (Q : Vec 2 ℝ) (as bs : List (SegInt 2 ℝ)), xs = as ++ ⟨c1.segment i, c2.segment j, ⟨.point Q, .exact⟩⟩ :: bs ∧ (∀ i, |Q i - P i| ≤ 1 / 10 ^ 10) ∧
      ∀ y ∈ as ++ bs, ¬ (y.seg1.origin = some (c1.cid, i) ∧ y.seg2.origin = some (c2.cid, j)) := by
  obtain ⟨x, idx, hb, hm, hx, rfl⟩ := C161_pairs hself h
  have hbox : BboxFl rnd ⟨c1.data[i], c1.data[i + 1]⟩ ⟨c2.data[j], c2.data[j + 1]⟩ := bboxFl_of_meet rnd_rounding (by norm_num) hP1 hP2
  obtain ⟨Q, hQ, hd⟩ := usual_segments hP1 hP2 hs hr (fun k => ⟨hc1 _ (List.getElem_mem _) k, hc1 _ (List.getElem_mem _) k, hc2 _ (List.getElem_mem _) k, hc2 _ (List.getElem_mem _) k⟩) hD
    hη hη1 (hx i j hi hj hij hbox)
  have hmem : (i, j) ∈ idx := (hm i j).2 ⟨hi, hj, hij, hbox, by rw [hQ]; simp⟩
  obtain ⟨as, bs, rfl⟩ := List.append_of_mem hmem
  have hnd := before_nodup hb
  refine ⟨Q, as.map _, bs.map _, by rw [List.map_append, List.map_cons, hQ], hd, ?_⟩
  rw [← List.map_append]
  intro y hy
  obtain ⟨⟨a, b⟩, hq, rfl⟩ := List.mem_map.1 hy
  rintro ⟨e1, e2⟩
  simp only [GCurve.segment, Option.some.injEq, Prod.mk.injEq, true_and] at e1 e2
  subst e1 e2
  rw [List.nodup_append, List.nodup_cons] at hnd
  rcases List.mem_append.1 hq with h | h
  · exact hnd.2.2 _ h _ (by simp) rfl
  · exact hnd.2.1.1 h

/-- **C161 (what is reported, curves).** Every entry of the list is a pair of segments of the two curves with the result of the method for these segments, to which `C161_sound` applies. -/
theorem C161_entries {feps : ℝ} {c1 c2 : GCurve 2 ℝ} (hself : c1.cid = c2.cid → c1.data = c2.data) {xs : List (SegInt 2 ℝ)} (h : ExactCurvesTo fl η feps c1 c2 xs) {y : SegInt 2 ℝ} (hy : y ∈ xs) :
    ∃ (i j : Nat) (hi : i + 1 < c1.data.length) (hj : j + 1 < c2.data.length), (c1.cid = c2.cid → i + 2 ≤ j) ∧ y.seg1 = c1.segment i ∧ y.seg2 = c2.segment j ∧ y.info ≠ notIntersected ∧
      ExactTo fl η feps ⟨c1.data[i], c1.data[i + 1]⟩ ⟨c2.data[j], c2.data[j + 1]⟩ y.info := by
  obtain ⟨x, idx, hb, hm, hx, rfl⟩ := C161_pairs hself h
  obtain ⟨⟨i, j⟩, hq, rfl⟩ := List.mem_map.1 hy
  obtain ⟨hi, hj, h1, h2, h3⟩ := (hm i j).1 hq
  exact ⟨i, j, hi, hj, h1, rfl, rfl, fun e => h3 (by simp only at e; rw [e]; rfl), hx i j hi hj h1 h2⟩

/-! ## Violations -/

/-- **C161 (violated far from the origin).** The diagonals of the square from (2²⁰, 2²⁰) to (2²⁰ + 2, 2²⁰ + 2) cross in its centre. The exact method takes them for the same segment, within the tolerance of the comparison of points,
and reports an overlap, the whole first diagonal. -/
theorem C161_far_fails (hf : Rounding ε fl) (hε : ε ≤ 1 / 1000) {feps : ℝ} {z : Info 2 ℝ} :
    ExactTo fl η feps ⟨![2 ^ 20, 2 ^ 20], ![2 ^ 20 + 2, 2 ^ 20 + 2]⟩ ⟨![2 ^ 20, 2 ^ 20 + 2], ![2 ^ 20 + 2, 2 ^ 20]⟩ z ↔
      z = ⟨.segment ⟨![2 ^ 20, 2 ^ 20], ![2 ^ 20 + 2, 2 ^ 20 + 2]⟩, .overlap⟩ := by
  have cl : ∀ x y : ℝ, |x - y| ≤ 2 → 2 ^ 20 ≤ |y| → CloseFl fl x y := by
    intro x y h1 h2
    apply closeFl_of hf hε
    norm_num at h2 ⊢
    linarith
  have hcl : CloseToFl fl (⟨![2 ^ 20, 2 ^ 20], ![2 ^ 20 + 2, 2 ^ 20 + 2]⟩ : Seg 2 ℝ) (.seg ⟨![2 ^ 20, 2 ^ 20 + 2], ![2 ^ 20 + 2, 2 ^ 20]⟩) := by
    left
    constructor
    · intro i
      fin_cases i <;> · apply cl <;> norm_num [abs_of_pos]
    · intro i
      fin_cases i <;> · apply cl <;> norm_num [abs_of_pos]
  have ho : (⟨![2 ^ 20, 2 ^ 20], ![2 ^ 20 + 2, 2 ^ 20 + 2]⟩ : Seg 2 ℝ).overlap ⟨![2 ^ 20, 2 ^ 20 + 2], ![2 ^ 20 + 2, 2 ^ 20]⟩ false = some ⟨![2 ^ 20, 2 ^ 20], ![2 ^ 20 + 2, 2 ^ 20 + 2]⟩ := by
    unfold Seg.overlap
    simp only [Bool.false_and, Bool.false_eq_true, if_false]
    rw [if_neg]
    · congr 2
      · funext i; fin_cases i <;> norm_num
      · funext i; fin_cases i <;> norm_num
    · rintro ⟨i, hi⟩
      fin_cases i <;> norm_num at hi
  constructor
  · rintro ⟨b, hb, hx⟩
    rw [collinearTo_iff] at hb
    rcases hb with ⟨-, hb⟩ | ⟨hb, -⟩
    · obtain rfl := Except.ok.inj hb
      rw [if_pos rfl, ho] at hx
      exact hx
    · exact absurd hcl hb
  · rintro rfl
    exact ⟨true, (collinearTo_iff _ _ _ _).2 (.inl ⟨hcl, rfl⟩), by rw [if_pos rfl, ho]⟩

/-! ## Exact arithmetic and examples -/

/-- **C161 (exact arithmetic).** Without rounding, with an exact solver and exact singular values, and where the tolerance on the singular values makes no difference, the result is that of the exact model. -/
theorem C161_exact (feps : ℝ) (s r : Seg 2 ℝ) (hc : s.collinearTol none (.seg r) = .ok (s.collinear (.seg r))) (x : Info 2 ℝ) (h : ExactTo id 0 feps s r x) : exactSegments feps s r = .ok x := by
  obtain ⟨b, hb, hx⟩ := h
  have hb := (C160_exact s none (.seg r) ⟨[], 0, none, .float⟩ (.ok b)).1.1 hb
  rw [hc] at hb
  have hb : b = s.collinear (.seg r) := Except.ok.inj hb
  cases hcs : s.collinear (.seg r) with
  | false =>
    rw [if_neg (by rw [hb, hcs]; simp)] at hx
    exact C155_exact feps s r hcs x hx
  | true =>
    rw [if_pos (by rw [hb, hcs])] at hx
    unfold exactSegments
    rw [if_pos hcs]
    cases ho : s.overlap r false with
    | none => rw [ho] at hx; rw [hx]
    | some o => rw [ho] at hx; rw [hx]; simp [IType.call, IData.isTypeClass, IData.isPoint, IData.isSegment]

/-- With elimination as the solver and exact singular values there is always a result, for segments and for curves. -/
theorem exactTo_exists (hf : Rounding ε fl) (hε : ε ≤ 1 / 1000) (feps : ℝ) (s r : Seg 2 ℝ) : ∃ z, ExactTo fl (10 * ε) feps s r z := by
  have h10 : 0 ≤ 10 * ε := by linarith [hf.nonneg]
  obtain ⟨res, hres⟩ := collinearTo_exists (fl := fl) h10 s (.seg r)
  obtain ⟨b, rfl⟩ : ∃ b, res = .ok b := by
    rw [collinearTo_iff] at hres
    rcases hres with ⟨-, h⟩ | ⟨-, h⟩
    · exact ⟨_, h⟩
    · unfold CollinearPtsTo at h
      split at h
      · exact ⟨_, h⟩
      · rename_i h3
        obtain ⟨q, ⟨sv, hsv, rfl⟩, rfl⟩ := h
        have hl := hsv.1
        cases sv with
        | nil =>
          exfalso
          simp only [List.length_nil] at hl
          omega
        | cons y ys => exact ⟨_, rfl⟩
  cases b with
  | false =>
    obtain ⟨z, hz⟩ := crossTo_exists hf hε feps s r
    exact ⟨z, false, hres, by rw [if_neg (by simp)]; exact hz⟩
  | true => exact ⟨_, true, hres, by rw [if_pos rfl]⟩

theorem exactCurvesTo_exists (hf : Rounding ε fl) (hε : ε ≤ 1 / 1000) (feps : ℝ) (c1 c2 : GCurve 2 ℝ) : ∃ xs, ExactCurvesTo fl (10 * ε) feps c1 c2 xs := by
  choose z hz using exactTo_exists hf hε feps
  exact ⟨_, fun i j => z (c1.segment i).seg (c2.segment j).seg, fun q _ => hz _ _, rfl⟩

/-- The hypotheses of `C161_usual` (and with it those of `C161_crossing_partial` and `C161_pairs`) hold for the closed curve (0, 0), (2, 2), (2, 0), (0, 2) with itself: its first and third segments cross at (1, 1). -/
example {xs : List (SegInt 2 ℝ)} (h : ExactCurvesTo rnd (10 * 2⁻¹ ^ 53) F_EPS ⟨0, false, [![0, 0], ![2, 2], ![2, 0], ![0, 2]]⟩ ⟨0, false, [![0, 0], ![2, 2], ![2, 0], ![0, 2]]⟩ xs) :
    ∃ (Q : Vec 2 ℝ), (⟨GCurve.segment ⟨0, false, [![0, 0], ![2, 2], ![2, 0], ![0, 2]]⟩ 0, GCurve.segment ⟨0, false, [![0, 0], ![2, 2], ![2, 0], ![0, 2]]⟩ 2, ⟨.point Q, .exact⟩⟩ : SegInt 2 ℝ) ∈ xs ∧
      ∀ i, |Q i - 1| ≤ 1 / 10 ^ 10 := by
  have hc : ∀ p ∈ ([![0, 0], ![2, 2], ![2, 0], ![0, 2]] : List (Vec 2 ℝ)), ∀ i, |p i| ≤ 1000 := by
    intro p hp i
    simp only [List.mem_cons, List.not_mem_nil, or_false] at hp
    rcases hp with rfl | rfl | rfl | rfl <;> fin_cases i <;> norm_num
  obtain ⟨Q, as, bs, rfl, hQ, -⟩ := C161_usual (fun _ => rfl) (by positivity) (by norm_num) h hc hc (i := 0) (j := 2) (by simp) (by simp) (fun _ => by norm_num)
    (by simp only [List.getElem_cons_zero, List.getElem_cons_succ]; unfold Model.edist; rw [Fin.sum_univ_two, Real.sqrt_le_left (by norm_num)]; norm_num)
    (by simp only [List.getElem_cons_zero, List.getElem_cons_succ]; unfold Model.edist; rw [Fin.sum_univ_two, Real.sqrt_le_left (by norm_num)]; norm_num)
    (by simp only [List.getElem_cons_zero, List.getElem_cons_succ]; norm_num [cross2]) (P := ![1, 1])
    ⟨1 / 2, by norm_num, by norm_num, by funext i; fin_cases i <;> norm_num⟩ ⟨1 / 2, by norm_num, by norm_num, by funext i; fin_cases i <;> norm_num⟩
  refine ⟨Q, by simp, fun i => ?_⟩
  have := hQ i
  fin_cases i <;> simpa using this

/-- `C161_sound` for these two segments: there is a result and it is not `NOT_INTERSECTED`. -/
example : ∃ z, ExactTo rnd (10 * 2⁻¹ ^ 53) F_EPS ⟨![0, 0], ![2, 2]⟩ ⟨![2, 0], ![0, 2]⟩ z ∧ z ≠ notIntersected := by
  obtain ⟨z, hz⟩ := exactTo_exists rnd_rounding (by norm_num) F_EPS (⟨![0, 0], ![2, 2]⟩ : Seg 2 ℝ) ⟨![2, 0], ![0, 2]⟩
  refine ⟨z, hz, ?_⟩
  obtain ⟨Q, rfl, -⟩ := usual_segments (P := ![1, 1]) ⟨1 / 2, by norm_num, by norm_num, by funext i; fin_cases i <;> norm_num⟩ ⟨1 / 2, by norm_num, by norm_num, by funext i; fin_cases i <;> norm_num⟩
    (by unfold Model.edist; rw [Fin.sum_univ_two, Real.sqrt_le_left (by norm_num)]; norm_num) (by unfold Model.edist; rw [Fin.sum_univ_two, Real.sqrt_le_left (by norm_num)]; norm_num)
    (by intro i; fin_cases i <;> norm_num) (by norm_num [cross2]) (by positivity) (by norm_num) hz
  simp [notIntersected]

/-! ## Concrete cases -/

example {z : Info 2 ℝ} (h : ExactTo rnd (10 * 2⁻¹ ^ 53) F_EPS ⟨![0, 0], ![2, 2]⟩ ⟨![2, 0], ![0, 2]⟩ z) (hz : z ≠ notIntersected) := C161_sound rnd_rounding (by norm_num) (by positivity) (by norm_num) h hz
example {xs : List (SegInt 2 ℝ)} (h : ExactCurvesTo rnd (10 * 2⁻¹ ^ 53) F_EPS ⟨0, false, [![0, 0], ![2, 2], ![2, 0], ![0, 2]]⟩ ⟨0, false, [![0, 0], ![2, 2], ![2, 0], ![0, 2]]⟩ xs) := C161_pairs (fun _ => rfl) h
example {xs : List (SegInt 2 ℝ)} (h : ExactCurvesTo rnd (10 * 2⁻¹ ^ 53) F_EPS ⟨0, false, [![0, 0], ![2, 2], ![2, 0], ![0, 2]]⟩ ⟨0, false, [![0, 0], ![2, 2], ![2, 0], ![0, 2]]⟩ xs) {y : SegInt 2 ℝ} (hy : y ∈ xs) :=
  C161_entries (fun _ => rfl) h hy

end Verif.Props
