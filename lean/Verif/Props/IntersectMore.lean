import Verif.Props.Almost

/-!
The almost method between its tolerances and the exact method (C93); the exact method and the order and direction of
its arguments (C94).
-/
namespace Verif.Props

open Verif Verif.Model Verif.Spec

/-! ## C93 -/

theorem before_sublist {l₁ l₂ : List (Nat × Nat)} (h1 : l₁.Pairwise Before) (h2 : l₂.Pairwise Before) (h : l₁ ⊆ l₂) :
    l₁.Sublist l₂ := by
  have : Std.Antisymm Before := ⟨fun a b hab hba => by unfold Before at hab hba; omega⟩
  exact List.sublist_of_subperm_of_pairwise (List.subperm_of_subset (before_nodup h1) h) h1 h2

section
variable {n : Nat}

theorem almostPairs_mono {d d' : ℝ} (hd : d ≤ d') (c1 c2 : GCurve n ℝ) :
    (almostPairs d c1 c2).Sublist (almostPairs d' c1 c2) := by
  unfold almostPairs
  apply before_sublist (curvesIndices_before _ _ _ _) (curvesIndices_before _ _ _ _)
  intro p hp
  rw [mem_curvesIndices] at hp ⊢
  exact ⟨hp.1, hp.2.1, by simpa using lt_of_lt_of_le (by simpa using hp.2.2.1) hd, hp.2.2.2⟩

/-- **C93 (monotone).** Without `remove_extra`, for all curves (integer data included, a curve with itself included) and
all other parameters: raising `dist_tol` never loses, changes or reorders an intersection. -/
theorem C93_monotone (p : AlmostParams) (d' : ℝ) (hd : p.distTol ≤ d') (hr : p.removeExtra = false)
    (comps : Nat → (Nat → Nat → Bool) → List (List Nat)) (fresh : Nat) (int : Bool) (c1 c2 : GCurve n ℝ) :
    ∃ xs ys, almostCall p comps fresh int (.curve c1) (.curve c2) = .ok (.list xs) ∧
      almostCall { p with distTol := d' } comps fresh int (.curve c1) (.curve c2) = .ok (.list ys) ∧ xs.Sublist ys := by
  choose g hg using correctOverlap_ok (n := n) p.parTol
  obtain ⟨F, hF⟩ : ∃ F : (Nat × Nat) → SegInt n ℝ, ∀ e' : ℝ, almostCurves { p with distTol := e' } comps c1 c2 = .ok ((almostPairs e' c1 c2).map F) := by
    refine ⟨fun q => (if p.correctOverlap = true then g else id) ⟨c1.segment q.1, c2.segment q.2, ⟨.segment ⟨(almostS2S c1 c2).p1 q.1 q.2, (almostS2S c1 c2).p2 q.1 q.2⟩, .almost⟩⟩, ?_⟩
    intro e'
    unfold almostCurves
    rw [almostList_eq]
    simp only [bind, Except.bind, hr, Bool.false_eq_true, if_false, List.isEmpty_iff, List.map_eq_nil_iff]
    split_ifs with h0 hc
    · rw [h0]; rfl
    · rw [h0]; rfl
    · rw [mapM_ok (g := g) (fun x => (hg x).1), List.map_map]; rfl
    · rfl
  have hcall : ∀ e' : ℝ, almostCall { p with distTol := e' } comps fresh int (.curve c1) (.curve c2) = .ok (.list ((almostPairs e' c1 c2).map F)) := by
    intro e'
    exact both (hF e') fun h => by rw [almostPairs_nil h]; rfl
  exact ⟨_, _, hcall p.distTol, hcall d', (almostPairs_mono hd c1 c2).map F⟩

theorem truncK_unit {x : ℝ} (h0 : 0 ≤ x) (h1 : x ≤ 1) : 0 ≤ truncK x ∧ truncK x ≤ 1 := by
  unfold truncK
  rw [if_pos h0]
  constructor
  · exact_mod_cast Int.floor_nonneg.2 h0
  · exact (Int.floor_le x).trans h1

/-- The closest points of a pair of curve segments are on the two segments, also for integer data. -/
theorem s2s_between (c1 c2 : GCurve n ℝ) (i j : Nat) (hi : i + 1 < c1.data.length) (hj : j + 1 < c2.data.length) :
    Between c1.data[i] c1.data[i + 1] ((almostS2S c1 c2).p1 i j) ∧ Between c2.data[j] c2.data[j + 1] ((almostS2S c1 c2).p2 i j) := by
  obtain ⟨_, _, ht, _, _⟩ := C36_entries_partial c1.data c2.data (tol := F_EPS) f_eps_pos i j hi hj
  have hrange := C33_range id monotone_id rfl rfl (tol := (F_EPS : ℝ)) f_eps_pos
    (vdot (⟨c1.data[i], c1.data[i + 1]⟩ : Seg n ℝ).direction (⟨c1.data[i], c1.data[i + 1]⟩ : Seg n ℝ).direction)
    (vdot (⟨c1.data[i], c1.data[i + 1]⟩ : Seg n ℝ).direction (⟨c2.data[j], c2.data[j + 1]⟩ : Seg n ℝ).direction)
    (vdot (⟨c2.data[j], c2.data[j + 1]⟩ : Seg n ℝ).direction (⟨c2.data[j], c2.data[j + 1]⟩ : Seg n ℝ).direction)
    (vdot (⟨c1.data[i], c1.data[i + 1]⟩ : Seg n ℝ).direction (c1.data[i] - c2.data[j]))
    (vdot (⟨c2.data[j], c2.data[j + 1]⟩ : Seg n ℝ).direction (c1.data[i] - c2.data[j]))
  have ht' : ((segsToSegs id F_EPS c1.data c2.data).t1 i j, (segsToSegs id F_EPS c1.data c2.data).t2 i j) =
      s2sCore id F_EPS (vdot (⟨c1.data[i], c1.data[i + 1]⟩ : Seg n ℝ).direction (⟨c1.data[i], c1.data[i + 1]⟩ : Seg n ℝ).direction)
    (vdot (⟨c1.data[i], c1.data[i + 1]⟩ : Seg n ℝ).direction (⟨c2.data[j], c2.data[j + 1]⟩ : Seg n ℝ).direction)
    (vdot (⟨c2.data[j], c2.data[j + 1]⟩ : Seg n ℝ).direction (⟨c2.data[j], c2.data[j + 1]⟩ : Seg n ℝ).direction)
    (vdot (⟨c1.data[i], c1.data[i + 1]⟩ : Seg n ℝ).direction (c1.data[i] - c2.data[j]))
    (vdot (⟨c2.data[j], c2.data[j + 1]⟩ : Seg n ℝ).direction (c1.data[i] - c2.data[j])) := ht
  rw [← ht'] at hrange
  have store : ∀ st : ℝ → ℝ, st 0 = 0 →
      (segsToSegs st F_EPS c1.data c2.data).t1 i j = st ((segsToSegs id F_EPS c1.data c2.data).t1 i j) ∧
      (segsToSegs st F_EPS c1.data c2.data).t2 i j = st ((segsToSegs id F_EPS c1.data c2.data).t2 i j) := by
    intro st h0
    simp only [segsToSegs, segsParam_entry]
    constructor <;> split_ifs <;> simp [h0]
  have hunit : (0 ≤ (almostS2S c1 c2).t1 i j ∧ (almostS2S c1 c2).t1 i j ≤ 1) ∧ (0 ≤ (almostS2S c1 c2).t2 i j ∧ (almostS2S c1 c2).t2 i j ≤ 1) := by
    unfold almostS2S
    split_ifs with hb
    · obtain ⟨e1, e2⟩ := store truncK (by simp [truncK])
      rw [e1, e2]
      exact ⟨truncK_unit hrange.1.1 hrange.1.2, truncK_unit hrange.2.1 hrange.2.2⟩
    · exact hrange
  have hs1 : rowAt c1.data i = c1.data[i] := by simp [rowAt, List.getD_eq_getElem?_getD, Nat.lt_of_succ_lt hi]
  have hr1 : rowAt c2.data j = c2.data[j] := by simp [rowAt, List.getD_eq_getElem?_getD, Nat.lt_of_succ_lt hj]
  have hs2 : diffAt c1.data i = c1.data[i + 1] - c1.data[i] := by simp [diffAt, rowAt, List.getD_eq_getElem?_getD, hi, Nat.lt_of_succ_lt hi]
  have hr2 : diffAt c2.data j = c2.data[j + 1] - c2.data[j] := by simp [diffAt, rowAt, List.getD_eq_getElem?_getD, hj, Nat.lt_of_succ_lt hj]
  have e1 : (almostS2S c1 c2).p1 i j = rowAt c1.data i + (almostS2S c1 c2).t1 i j • diffAt c1.data i := rfl
  have e2 : (almostS2S c1 c2).p2 i j = rowAt c2.data j + (almostS2S c1 c2).t2 i j • diffAt c2.data j := rfl
  rw [e1, e2, hs1, hr1, hs2, hr2]
  exact ⟨⟨_, hunit.1.1, hunit.1.2, rfl⟩, ⟨_, hunit.2.1, hunit.2.2, rfl⟩⟩

/-- **C93 (sound).** For all curves and all parameters, `remove_extra` and `correct_overlap` included: every
intersection the almost method reports names a segment of each curve (for one object with itself, two that are not
adjacent), and there are points of these two segments closer than `dist_tol`. If the type is ALMOST, the reported
segment joins such points. -/
theorem C93_sound (p : AlmostParams) (comps : Nat → (Nat → Nat → Bool) → List (List Nat)) (fresh : Nat) (int : Bool)
    (c1 c2 : GCurve n ℝ) :
    ∃ xs, almostCall p comps fresh int (.curve c1) (.curve c2) = .ok (.list xs) ∧
      ∀ x ∈ xs, ∃ (i j : Nat) (hi : i + 1 < c1.data.length) (hj : j + 1 < c2.data.length) (P Q : Vec n ℝ),
        x.seg1 = c1.segment i ∧ x.seg2 = c2.segment j ∧ (c1.cid = c2.cid → i + 2 ≤ j) ∧
        Between c1.data[i] c1.data[i + 1] P ∧ Between c2.data[j] c2.data[j + 1] Q ∧ Model.edist P Q < p.distTol ∧
        (x.info.type = .almost → x.info.data = .segment ⟨P, Q⟩) := by
  unfold almostCall
  obtain ⟨xs, hxs, h0, _⟩ := almostCurves_ok p comps c1 c2
  refine ⟨xs, both hxs h0, ?_⟩
  set Good : SegInt n ℝ → Prop := fun x => ∃ (i j : Nat) (hi : i + 1 < c1.data.length) (hj : j + 1 < c2.data.length) (P Q : Vec n ℝ),
        x.seg1 = c1.segment i ∧ x.seg2 = c2.segment j ∧ (c1.cid = c2.cid → i + 2 ≤ j) ∧
        Between c1.data[i] c1.data[i + 1] P ∧ Between c2.data[j] c2.data[j + 1] Q ∧ Model.edist P Q < p.distTol ∧
        (x.info.type = .almost → x.info.data = .segment ⟨P, Q⟩) with hGood
  show ∀ x ∈ xs, Good x
  unfold almostCurves at hxs
  rw [almostList_eq] at hxs
  simp only [bind, Except.bind] at hxs
  set ys : List (SegInt n ℝ) := (almostPairs p.distTol c1 c2).map fun p =>
      ⟨c1.segment p.1, c2.segment p.2, ⟨.segment ⟨(almostS2S c1 c2).p1 p.1 p.2, (almostS2S c1 c2).p2 p.1 p.2⟩, .almost⟩⟩ with hys
  have hy : ∀ x ∈ ys, Good x := by
    intro x hx
    rw [hys, List.mem_map] at hx
    obtain ⟨q, hq, rfl⟩ := hx
    unfold almostPairs at hq
    rw [mem_curvesIndices] at hq
    have h1 : q.1 < c1.data.length - 1 := hq.1
    have h2 : q.2 < c2.data.length - 1 := hq.2.1
    obtain ⟨b1, b2⟩ := s2s_between c1 c2 q.1 q.2 (by omega) (by omega)
    exact ⟨q.1, q.2, by omega, by omega, _, _, rfl, rfl, fun h => hq.2.2.2 (by simpa using h), b1, b2, of_decide_eq_true hq.2.2.1, fun _ => rfl⟩
  clear_value ys
  split_ifs at hxs with h1 h2 h3 h3
  · injection hxs with e; subst e; simp
  · choose g hg using correctOverlap_ok (n := n) p.parTol
    rw [mapM_ok (g := g) (fun x => (hg x).1)] at hxs
    injection hxs with e; subst e
    intro x hx
    obtain ⟨z, hz, rfl⟩ := List.mem_map.1 hx
    obtain ⟨i, j, hi, hj, P, Q, a1, a2, a3, a4, a5, a6, a7⟩ := hy z ((removeExtra_sublist _ _ _ _ _).subset hz)
    refine ⟨i, j, hi, hj, P, Q, (hg z).2.1.trans a1, (hg z).2.2.1.trans a2, a3, a4, a5, a6, fun ht => ?_⟩
    have hz1 := (hg z).1
    unfold correctOverlap at hz1
    simp only [call_overlap, bind, Except.bind] at hz1
    split_ifs at hz1
    · split at hz1
      · injection hz1 with e; rw [← e] at ht; simp at ht
      · injection hz1 with e; rw [← e] at ht ⊢; exact a7 ht
    · injection hz1 with e; rw [← e] at ht ⊢; exact a7 ht
  · choose g hg using correctOverlap_ok (n := n) p.parTol
    rw [mapM_ok (g := g) (fun x => (hg x).1)] at hxs
    injection hxs with e; subst e
    intro x hx
    obtain ⟨z, hz, rfl⟩ := List.mem_map.1 hx
    obtain ⟨i, j, hi, hj, P, Q, a1, a2, a3, a4, a5, a6, a7⟩ := hy z hz
    refine ⟨i, j, hi, hj, P, Q, (hg z).2.1.trans a1, (hg z).2.2.1.trans a2, a3, a4, a5, a6, fun ht => ?_⟩
    have hz1 := (hg z).1
    unfold correctOverlap at hz1
    simp only [call_overlap, bind, Except.bind] at hz1
    split_ifs at hz1
    · split at hz1
      · injection hz1 with e; rw [← e] at ht; simp at ht
      · injection hz1 with e; rw [← e] at ht ⊢; exact a7 ht
    · injection hz1 with e; rw [← e] at ht ⊢; exact a7 ht
  · injection hxs with e; subst e
    intro x hx; exact hy x ((removeExtra_sublist _ _ _ _ _).subset hx)
  · injection hxs with e; subst e; exact hy

/-- **C93 (complete, partial).** Without `remove_extra` and `correct_overlap`, for curves that do not both have integer
data: a pair of segments (for one object with itself, not adjacent) that come closer than the tolerance by more than
the error bound of the distance is reported; for data on a grid of size at least 2^-13 every pair closer than the
tolerance is, in particular every pair with a common point, hence everything the exact method finds there.
Missing: integer curves (`C43_int_curves`), single-point second segments (`C34_singular_second`), and pairs within the
error bound. -/
theorem C93_complete_partial (p : AlmostParams) (hr : p.removeExtra = false) (hco : p.correctOverlap = false)
    (comps : Nat → (Nat → Nat → Bool) → List (List Nat)) (fresh : Nat) (int : Bool)
    (c1 c2 : GCurve n ℝ) (hf : (c1.int && c2.int) = false) (i j : Nat) (hi : i + 1 < c1.data.length) (hj : j + 1 < c2.data.length)
    (hij : c1.cid = c2.cid → i + 2 ≤ j) (hne : c2.data[j] ≠ c2.data[j + 1]) {P Q : Vec n ℝ}
    (hP : Between c1.data[i] c1.data[i + 1] P) (hQ : Between c2.data[j] c2.data[j + 1] Q)
    (h : Model.edist P Q + distErr (c1.data[i + 1] - c1.data[i]) (c2.data[j + 1] - c2.data[j]) < p.distTol ∨
      (∃ h : ℝ, 1 / 2 ^ 13 ≤ h ∧ SegOnGrid h ⟨c1.data[i], c1.data[i + 1]⟩ ∧ SegOnGrid h ⟨c2.data[j], c2.data[j + 1]⟩) ∧
        Model.edist P Q < p.distTol) :
    ∃ xs, almostCall p comps fresh int (.curve c1) (.curve c2) = .ok (.list xs) ∧
      ∃ x ∈ xs, x.seg1 = c1.segment i ∧ x.seg2 = c2.segment j ∧ x.info.type = .almost := by
  obtain ⟨idx, hcall, _, hmem, _⟩ := C43_pairs_partial p comps fresh int c1 c2 hf hr hco
  refine ⟨_, hcall, _, List.mem_map.2 ⟨(i, j), (hmem i j).2 ⟨hi, hj, hij, ?_⟩, rfl⟩, rfl, rfl, rfl⟩
  rw [segment_eq c1 i hi, segment_eq c2 j hj]
  obtain ⟨x, x0, x1, rfl⟩ := hP
  obtain ⟨y, y0, y1, rfl⟩ := hQ
  have ex : (⟨c1.data[i], c1.data[i + 1]⟩ : Seg n ℝ).point x = c1.data[i] + x • (c1.data[i + 1] - c1.data[i]) := Seg.point_eq _ _
  have ey : (⟨c2.data[j], c2.data[j + 1]⟩ : Seg n ℝ).point y = c2.data[j] + y • (c2.data[j + 1] - c2.data[j]) := Seg.point_eq _ _
  rw [← ex, ← ey] at h
  rcases h with h | ⟨⟨g, g1, g2, g3⟩, h⟩
  · exact lt_of_le_of_lt (C34_bound_partial _ _ hne x0 x1 y0 y1) h
  · exact lt_of_le_of_lt (C34_exact_partial _ _ g1 g2 g3 hne x0 x1 y0 y1) h

end

/-! ## C94 -/

section
variable {K : Type} [Field K] [LinearOrder K] [IsStrictOrderedRing K] {n : Nat}

/-- Neither segment equals the other, or the other reversed, up to the tolerances (in either order of comparison). -/
def Distinct (s r : Seg n K) : Prop :=
  ¬ (CloseVec r.p1 s.p1 ∧ CloseVec r.p2 s.p2) ∧ ¬ (CloseVec r.p2 s.p1 ∧ CloseVec r.p1 s.p2) ∧
  ¬ (CloseVec s.p1 r.p1 ∧ CloseVec s.p2 r.p2) ∧ ¬ (CloseVec s.p2 r.p1 ∧ CloseVec s.p1 r.p2)

theorem Distinct.swap {s r : Seg n K} (h : Distinct s r) : Distinct r s := by
  obtain ⟨h1, h2, h3, h4⟩ := h
  exact ⟨h3, h4, h1, h2⟩

theorem Distinct.reverse {s r : Seg n K} (h : Distinct s r) : Distinct s.reverse r := by
  obtain ⟨h1, h2, h3, h4⟩ := h
  refine ⟨fun q => h2 ⟨q.2, q.1⟩, fun q => h1 ⟨q.2, q.1⟩, fun q => h4 ⟨q.1, q.2⟩, fun q => h3 ⟨q.1, q.2⟩⟩

theorem collinearPoints_perm {l l' : List (Vec n K)} (h : l.Perm l') : collinearPoints l = collinearPoints l' := by
  have hd := h.dedup
  have hset : {v | v ∈ l.dedup} = {v | v ∈ l'.dedup} := Set.ext fun v => hd.mem_iff
  have hrank : matrixRank l.dedup = matrixRank l'.dedup := by unfold matrixRank; rw [hset]
  unfold collinearPoints
  simp only [hd.length_eq, hrank]

theorem distinct_collinear {s r : Seg n K} (h : Distinct s r) :
    s.collinear (.seg r) = collinearPoints [s.p1, s.p2, r.p1, r.p2] := by
  have : (r.eq s || r.reverse.eq s) = false := by
    rw [← Bool.not_eq_true, Bool.or_eq_true, Seg.eq, Seg.eq, Bool.and_eq_true, Bool.and_eq_true, vecEq_iff, vecEq_iff, vecEq_iff, vecEq_iff]
    rintro (q | q)
    · exact h.1 q
    · exact h.2.1 q
  simp only [Seg.collinear, this, Bool.false_eq_true, if_false]

theorem perm_swap4 {α : Type} (a b c d : α) : [c, d, a, b].Perm [a, b, c, d] := by
  have : [c, d, a, b] = [c, d] ++ [a, b] := rfl
  rw [this]; exact List.perm_append_comm

theorem inPlane_perm {l l' : List (Vec n K)} (h : l.Perm l') : InPlane l ↔ InPlane l' := by
  constructor
  · rintro ⟨q, g, k, H⟩; exact ⟨q, g, k, fun p hp => H p (h.mem_iff.2 hp)⟩
  · rintro ⟨q, g, k, H⟩; exact ⟨q, g, k, fun p hp => H p (h.mem_iff.1 hp)⟩

theorem overlap_comm (s r : Seg n K) : s.overlap r false = r.overlap s false := by
  unfold Seg.overlap
  simp only [Bool.false_and, Bool.false_eq_true, if_false]
  have h1 : ∀ i, min (max (r.p1 i) (r.p2 i)) (max (s.p1 i) (s.p2 i)) = min (max (s.p1 i) (s.p2 i)) (max (r.p1 i) (r.p2 i)) := fun i => min_comm _ _
  have h2 : ∀ i, max (min (r.p1 i) (r.p2 i)) (min (s.p1 i) (s.p2 i)) = max (min (s.p1 i) (s.p2 i)) (min (r.p1 i) (r.p2 i)) := fun i => max_comm _ _
  simp only [h1, h2]

theorem overlap_reverse (s r : Seg n K) : s.reverse.overlap r false = s.overlap r false := by
  unfold Seg.overlap Seg.reverse
  simp only [Bool.false_and, Bool.false_eq_true, if_false]
  have h1 : ∀ i, max (s.p2 i) (s.p1 i) = max (s.p1 i) (s.p2 i) := fun i => max_comm _ _
  have h2 : ∀ i, min (s.p2 i) (s.p1 i) = min (s.p1 i) (s.p2 i) := fun i => min_comm _ _
  simp only [h1, h2]

/-- What the exact method answers, for segments that are not nearly equal. -/
theorem exactSegments_char (feps : K) {s r : Seg n K} (h : Distinct s r) :
    (collinearPoints [s.p1, s.p2, r.p1, r.p2] = true ∧ exactSegments feps s r =
      match s.overlap r false with
      | none => .ok notIntersected
      | some o => .ok ⟨.segment o, .overlap⟩) ∨
    (collinearPoints [s.p1, s.p2, r.p1, r.p2] = false ∧
      (gram s.direction r.direction < F_EPS ∨ ¬ InPlane [s.p1, s.p2, r.p1, r.p2] ∨ CloseVec s.p1 s.p2 ∨ CloseVec r.p1 r.p2) ∧
      exactSegments feps s r = .ok notIntersected) ∨
    (collinearPoints [s.p1, s.p2, r.p1, r.p2] = false ∧
      (F_EPS ≤ gram s.direction r.direction ∧ InPlane [s.p1, s.p2, r.p1, r.p2] ∧ ¬ CloseVec s.p1 s.p2 ∧ ¬ CloseVec r.p1 r.p2) ∧
      ∃ x y, s.point x = r.point y ∧ exactSegments feps s r =
        if inUnit x && inUnit y then .ok ⟨.point (s.point x), .exact⟩ else .ok notIntersected) := by
  rw [← distinct_collinear h]
  by_cases hc : s.collinear (.seg r) = true
  · left
    refine ⟨hc, ?_⟩
    unfold exactSegments
    rw [if_pos hc]
    cases s.overlap r false <;> simp [IType.call, IData.isSegment]
  · right
    rw [Bool.not_eq_true] at hc
    obtain ⟨b, hb1, hb2⟩ := C29_segment s (.seg r)
    by_cases hpar : s.parallel r F_EPS = true
    · left; exact ⟨hc, .inl ((parallel_iff s r _).1 hpar), by unfold exactSegments; simp [hc, hpar]⟩
    · cases b with
      | false =>
        left
        refine ⟨hc, .inr (.inl fun q => ?_), by unfold exactSegments; simp [hc, hpar, hb1]⟩
        simpa using hb2.2 q
      | true =>
        have hp : InPlane [s.p1, s.p2, r.p1, r.p2] := hb2.1 rfl
        by_cases hsing : (s.singular || r.singular) = true
        · left; refine ⟨hc, ?_, ?_⟩
          · rw [Bool.or_eq_true, Seg.singular, Seg.singular, vecEq_iff, vecEq_iff] at hsing
            exact .inr (.inr hsing)
          · unfold exactSegments; rw [hb1]
            simp only [hc, hpar, hsing, Bool.false_eq_true, if_false, Bool.not_true, if_true]
        · right
          have hg : F_EPS ≤ gram s.direction r.direction := by
            rw [parallel_iff] at hpar; exact not_lt.1 hpar
          obtain ⟨x, y, hxy⟩ := plane_solve s r hp (lt_of_lt_of_le f_eps_pos' hg).ne'
          have hm : s.point x = r.point y := by
            rw [Seg.point_eq, Seg.point_eq]
            rw [sub_eq_sub_iff_add_eq_add] at hxy
            rw [add_comm s.p1, ← hxy]
          rw [Bool.or_eq_true, not_or, Bool.not_eq_true, Bool.not_eq_true] at hsing
          refine ⟨hc, ⟨hg, hp, ?_, ?_⟩, x, y, hm, exactSegments_eq feps s r hc hg hp hsing.1 hsing.2 hm⟩
          · rw [← vecEq_iff]; exact fun q => by simp [Seg.singular, q] at hsing
          · rw [← vecEq_iff]; exact fun q => by simp [Seg.singular, q] at hsing

theorem s_ns {s : Seg n K} (h : ¬ CloseVec s.p1 s.p2) : s.singular = false := by
  rw [← Bool.not_eq_true, Seg.singular, vecEq_iff]; exact h

theorem gram_comm (u v : Vec n K) : gram u v = gram v u := by
  rw [gram_eq, gram_eq, vdot_comm v u]; ring

/-- With independent directions the meeting parameters are unique. -/
theorem meet_unique {s r : Seg n K} (hg : F_EPS ≤ gram s.direction r.direction) {x y x' y' : K}
    (h : s.point x = r.point y) (h' : s.point x' = r.point y') : x = x' ∧ y = y' := by
  have hg0 : gram s.direction r.direction ≠ 0 := (lt_of_lt_of_le f_eps_pos' hg).ne'
  have hb : ∀ {x y : K}, s.point x = r.point y → r.p1 - s.p1 = x • s.direction - y • r.direction := by
    intro x y hxy
    rw [Seg.point_eq, Seg.point_eq] at hxy
    rw [sub_eq_sub_iff_add_eq_add, ← hxy, add_comm]
  have e := lstsq2_exact (hb h) hg0
  rw [lstsq2_exact (hb h') hg0] at e
  rw [Prod.mk.injEq] at e
  exact ⟨e.1.symm, e.2.symm⟩

/-- **C94 (order of the arguments, partial).** For segments of which neither equals the other (or its reverse) up to the
tolerances, the exact method gives the same answer, with the same point or segment, in both orders. Missing: nearly
equal segments, where the comparison itself depends on the order (`C94_order_fails`). -/
theorem C94_swap_partial (feps : K) (s r : Seg n K) (h : Distinct s r) : exactSegments feps s r = exactSegments feps r s := by
  have hperm := perm_swap4 s.p1 s.p2 r.p1 r.p2
  have hcol := collinearPoints_perm hperm
  have hpl := inPlane_perm hperm
  have hgc := gram_comm s.direction r.direction
  rcases exactSegments_char feps h with ⟨a1, a2⟩ | ⟨a1, a2, a3⟩ | ⟨a1, ⟨g, ip, cs, cr⟩, x, y, hxy, e⟩ <;>
    rcases exactSegments_char feps h.swap with ⟨b1, b2⟩ | ⟨b1, b2, b3⟩ | ⟨b1, ⟨g', ip', cs', cr'⟩, x', y', hxy', e'⟩
  · rw [a2, b2, overlap_comm]
  · rw [hcol, a1] at b1; simp at b1
  · rw [hcol, a1] at b1; simp at b1
  · rw [hcol, a1] at b1; simp at b1
  · rw [a3, b3]
  · exfalso
    rcases a2 with a | a | a | a
    · rw [hgc] at a; exact absurd g' (not_le.2 a)
    · exact a (hpl.1 ip')
    · exact cr' a
    · exact cs' a
  · rw [hcol, a1] at b1; simp at b1
  · exfalso
    rcases b2 with a | a | a | a
    · rw [← hgc] at a; exact absurd g (not_le.2 a)
    · exact a (hpl.2 ip)
    · exact cr a
    · exact cs a
  · obtain ⟨rfl, rfl⟩ := meet_unique g hxy hxy'.symm
    rw [e, e', hxy, Bool.and_comm]

/-- **C94 (order of the curves, partial).** Two different curve objects, two segments of them with a common point of which
neither equals the other up to the tolerances: the pair is reported in one order exactly when it is, with the two
segments exchanged and the same data, in the other. -/
theorem C94_curves_partial (feps : K) (fresh : Nat) (int : Bool) (c1 c2 : GCurve n K) (hid : c1.cid ≠ c2.cid) :
    ∃ xs ys, exactCall feps fresh int (.curve c1) (.curve c2) = .ok (.list xs) ∧
      exactCall feps fresh int (.curve c2) (.curve c1) = .ok (.list ys) ∧
      ∀ (i j : Nat) (hi : i + 1 < c1.data.length) (hj : j + 1 < c2.data.length),
        Meet c1.data[i] c1.data[i + 1] c2.data[j] c2.data[j + 1] →
        Distinct ⟨c1.data[i], c1.data[i + 1]⟩ ⟨c2.data[j], c2.data[j + 1]⟩ →
        ∀ info, ⟨c1.segment i, c2.segment j, info⟩ ∈ xs ↔ ⟨c2.segment j, c1.segment i, info⟩ ∈ ys := by
  obtain ⟨idx, inf, hx, _, _, hx2, hx3⟩ := C41_row_major feps fresh int c1 c2 hid
  obtain ⟨idy, inf', hy, _, _, hy2, hy3⟩ := C41_row_major feps fresh int c2 c1 (Ne.symm hid)
  refine ⟨_, _, hx, hy, ?_⟩
  intro i j hi hj hm hd info
  have hm' : Meet c2.data[j] c2.data[j + 1] c1.data[i] c1.data[i + 1] := by
    obtain ⟨p, a, b⟩ := hm; exact ⟨p, b, a⟩
  obtain ⟨_, _, e1, f1, g1⟩ := hx2 i j hi hj
  obtain ⟨_, _, e2, f2, g2⟩ := hy2 j i hj hi
  have einf : inf i j = inf' j i := by
    have := C94_swap_partial feps _ _ hd
    rw [e1, e2] at this; injection this
  have org : ∀ (c : GCurve n K) (a b : Nat), c.segment a = c.segment b → a = b := by
    intro c a b h
    have := congrArg SegObj.origin h
    simp only [GCurve.segment, Option.some.injEq, Prod.mk.injEq, true_and] at this
    exact this
  have memx : (⟨c1.segment i, c2.segment j, info⟩ : SegInt n K) ∈ idx.map (fun p => ⟨c1.segment p.1, c2.segment p.2, inf p.1 p.2⟩) ↔
      (i, j) ∈ idx ∧ info = inf i j := by
    rw [List.mem_map]
    constructor
    · rintro ⟨p, hp, e⟩
      rw [SegInt.mk.injEq] at e
      obtain ⟨a, b⟩ := p
      have ea := org _ _ _ e.1
      have eb := org _ _ _ e.2.1
      simp only at ea eb e
      subst ea eb
      exact ⟨hp, e.2.2.symm⟩
    · rintro ⟨hp, rfl⟩; exact ⟨_, hp, rfl⟩
  have memy : (⟨c2.segment j, c1.segment i, info⟩ : SegInt n K) ∈ idy.map (fun p => ⟨c2.segment p.1, c1.segment p.2, inf' p.1 p.2⟩) ↔
      (j, i) ∈ idy ∧ info = inf' j i := by
    rw [List.mem_map]
    constructor
    · rintro ⟨p, hp, e⟩
      rw [SegInt.mk.injEq] at e
      obtain ⟨a, b⟩ := p
      have ea := org _ _ _ e.1
      have eb := org _ _ _ e.2.1
      simp only at ea eb e
      subst ea eb
      exact ⟨hp, e.2.2.symm⟩
    · rintro ⟨hp, rfl⟩; exact ⟨_, hp, rfl⟩
  rw [memx, memy, einf]
  constructor
  · rintro ⟨h, e⟩; exact ⟨g2 hm' (einf ▸ f1 h), e⟩
  · rintro ⟨h, e⟩; exact ⟨g1 hm (einf.symm ▸ f2 h), e⟩

theorem point_reverse (s : Seg n K) (t : K) : s.reverse.point t = s.point (1 - t) := by
  rw [Seg.point_eq, Seg.point_eq]
  funext i
  simp [Seg.reverse, Seg.direction]
  ring

theorem between_iff_point (s : Seg n K) (P : Vec n K) : Between s.p1 s.p2 P ↔ ∃ t, 0 ≤ t ∧ t ≤ 1 ∧ P = s.point t := by
  constructor
  · rintro ⟨t, h0, h1, e⟩; exact ⟨t, h0, h1, by rw [Seg.point_eq, e]; rfl⟩
  · rintro ⟨t, h0, h1, e⟩; exact ⟨t, h0, h1, by rw [e, Seg.point_eq]; rfl⟩

theorem inUnit_in {t : K} (h0 : 0 ≤ t) (h1 : t ≤ 1) : inUnit t = true ∧ inUnit (1 - t) = true :=
  ⟨inUnit_of h0 h1, inUnit_of (by linarith) (by linarith)⟩

/-- **C94 (direction of the arguments, partial).** For segments of which neither equals the other (or its reverse) up to
the tolerances: reversing the first segment does not change an answer OVERLAP; it does not change an answer EXACT whose
point is on the first segment, provided its ends are not equal up to the tolerances when compared in the other order.
With `C94_swap_partial` the same holds for the second segment. Missing: points beyond an end of the segment by less than
the tolerances (`C94_direction_fails`). -/
theorem C94_reverse_partial (feps : K) (s r : Seg n K) (h : Distinct s r) :
    (∀ o, exactSegments feps s r = .ok ⟨.segment o, .overlap⟩ → exactSegments feps s.reverse r = .ok ⟨.segment o, .overlap⟩) ∧
    (∀ P, ¬ CloseVec s.p2 s.p1 → Between s.p1 s.p2 P → exactSegments feps s r = .ok ⟨.point P, .exact⟩ →
      exactSegments feps s.reverse r = .ok ⟨.point P, .exact⟩) := by
  have hperm : [s.reverse.p1, s.reverse.p2, r.p1, r.p2].Perm [s.p1, s.p2, r.p1, r.p2] := List.Perm.swap _ _ _
  have hcol := collinearPoints_perm hperm
  have hpl := inPlane_perm hperm
  have hgr : gram s.reverse.direction r.direction = gram s.direction r.direction := by
    have : s.reverse.direction = -s.direction := by simp [Seg.reverse, Seg.direction]
    rw [gram_eq, gram_eq, this]
    simp [vdot_eq]
  constructor
  · intro o ho
    rcases exactSegments_char feps h with ⟨a1, a2⟩ | ⟨a1, a2, a3⟩ | ⟨a1, _, x, y, hxy, e⟩
    · rcases exactSegments_char feps h.reverse with ⟨b1, b2⟩ | ⟨b1, _⟩ | ⟨b1, _⟩
      · rw [b2, overlap_reverse, ← a2, ho]
      · rw [hcol, a1] at b1; simp at b1
      · rw [hcol, a1] at b1; simp at b1
    · rw [ho] at a3; simp [notIntersected] at a3
    · rw [ho] at e; split_ifs at e <;> simp [notIntersected] at e
  · intro P hne hP ho
    rcases exactSegments_char feps h with ⟨a1, a2⟩ | ⟨a1, a2, a3⟩ | ⟨a1, ⟨g, ip, cs, cr⟩, x, y, hxy, e⟩
    · rw [ho] at a2
      cases hov : s.overlap r false <;> rw [hov] at a2 <;> simp [notIntersected] at a2
    · rw [ho] at a3; simp [notIntersected] at a3
    · rcases exactSegments_char feps h.reverse with ⟨b1, _⟩ | ⟨b1, b2, b3⟩ | ⟨b1, _, x', y', hxy', e'⟩
      · rw [hcol, a1] at b1; simp at b1
      · exfalso
        rcases b2 with a | a | a | a
        · rw [hgr] at a; exact absurd g (not_le.2 a)
        · exact a (hpl.2 ip)
        · exact hne a
        · exact cr a
      · rw [ho] at e
        split_ifs at e with hu
        · have hPx : P = s.point x := by injection e with e; injection e with e _; injection e
          rw [point_reverse] at hxy'
          obtain ⟨ex, ey⟩ := meet_unique g hxy hxy'
          subst ey
          obtain ⟨t, t0, t1, ht⟩ := (between_iff_point s P).1 hP
          have htx : t = x := (meet_unique g ((ht.symm.trans hPx).trans hxy) hxy).1
          subst htx
          rw [Bool.and_eq_true] at hu
          have hx' : x' = 1 - t := by rw [ex]; ring
          rw [e', hx', point_reverse, (inUnit_in t0 t1).2, hu.2, hPx]
          simp
        · simp [notIntersected] at e

end

/-- **C94 violated (direction).** The segments (0,0)-(1,0) and (1.000005,-1)-(1.000005,1) have no common point. The exact
method reports an intersection for them, and none after reversing the first: the parameter may exceed 1 by 1.001e-5
but may be below 0 only by 1e-8. -/
theorem C94_direction_fails :
    let s : Seg 2 ℚ := ⟨![0, 0], ![1, 0]⟩
    let r : Seg 2 ℚ := ⟨![1 + 1 / 200000, -1], ![1 + 1 / 200000, 1]⟩
    ¬ Meet s.p1 s.p2 r.p1 r.p2 ∧
    exactSegments F_EPS s r = .ok ⟨.point ![1 + 1 / 200000, 0], .exact⟩ ∧ exactSegments F_EPS s.reverse r = .ok notIntersected := by
  intro s r
  have hd : Distinct s r := by
    refine ⟨?_, ?_, ?_, ?_⟩ <;> rintro ⟨h, _⟩ <;> have := h 1 <;> norm_num [abs_le, s, r] at this
  have hg : (F_EPS : ℚ) ≤ gram s.direction r.direction := by
    simp [gram, Fin.sum_univ_two, Seg.direction, s, r, F_EPS]; norm_num
  have hp : ∀ a b c d : Vec 2 ℚ, InPlane [a, b, c, d] := fun a b c d => inPlane_of_dim (by norm_num)
  have hc1 : ¬ CloseVec s.p1 s.p2 := by intro h; have := h 0; norm_num [abs_le, s] at this
  have hc2 : ¬ CloseVec r.p1 r.p2 := by intro h; have := h 1; norm_num [abs_le, r] at this
  have hc3 : ¬ CloseVec s.p2 s.p1 := by intro h; have := h 0; norm_num [abs_le, s] at this
  have hcol : s.collinear (.seg r) = false := by
    apply not_collinear
    · simp [gram, Fin.sum_univ_two, Seg.direction, s, r]
    · exact hd.1
    · exact hd.2.1
  have e1 := exactSegments_eq F_EPS s r hcol hg (hp _ _ _ _) (s_ns hc1) (s_ns hc2) (x := 1 + 1 / 200000) (y := 1 / 2) (by
    rw [Seg.point_eq, Seg.point_eq]; funext i; fin_cases i <;> simp [s, r, Seg.direction]; norm_num)
  have hcol' : s.reverse.collinear (.seg r) = false := by
    apply not_collinear
    · simp [gram, Fin.sum_univ_two, Seg.direction, Seg.reverse, s, r]
    · exact hd.reverse.1
    · exact hd.reverse.2.1
  have hg' : (F_EPS : ℚ) ≤ gram s.reverse.direction r.direction := by
    simp [gram, Fin.sum_univ_two, Seg.direction, Seg.reverse, s, r, F_EPS]; norm_num
  have e2 := exactSegments_eq F_EPS s.reverse r hcol' hg' (hp _ _ _ _) (s_ns hc3) (s_ns hc2) (x := -(1 / 200000)) (y := 1 / 2) (by
    rw [Seg.point_eq, Seg.point_eq]; funext i; fin_cases i <;> simp [s, r, Seg.direction, Seg.reverse]; norm_num)
  refine ⟨?_, ?_, ?_⟩
  · rintro ⟨P, h1, h2⟩
    have a := (between_coord h1 0).2
    have b := (between_coord h2 0).1
    simp [s, r] at a b
    linarith
  · rw [e1]
    have : inUnit (1 + 1 / 200000 : ℚ) = true ∧ inUnit (1 / 2 : ℚ) = true := by
      constructor <;> norm_num [inUnit, closeK, atol, rtol, abs_le]
    rw [this.1, this.2]
    have hpt : s.point (1 + 1 / 200000) = ![1 + 1 / 200000, 0] := by
      rw [Seg.point_eq]; funext i; fin_cases i <;> simp [s, Seg.direction]
    rw [hpt]; rfl
  · rw [e2]
    have : inUnit (-(1 / 200000) : ℚ) = false := by
      norm_num [inUnit, closeK, atol, rtol, abs_le]
    rw [this]; rfl

/-- **C94 violated (order).** For (0,0)-(1,1) and (0,0)-(1,1.0000100101) the exact method reports the point (0,0) in one
order and an overlap from (0,0) to (1,1) in the other: the comparison of the segments is relative to the second. -/
theorem C94_order_fails :
    let s : Seg 2 ℚ := ⟨![0, 0], ![1, 1]⟩
    let r : Seg 2 ℚ := ⟨![0, 0], ![1, 1 + 100101 / 10000000000]⟩
    exactSegments F_EPS s r = .ok ⟨.point ![0, 0], .exact⟩ ∧
    exactSegments F_EPS r s = .ok ⟨.segment ⟨![0, 0], ![1, 1]⟩, .overlap⟩ := by
  intro s r
  have hg : (F_EPS : ℚ) ≤ gram s.direction r.direction := by
    simp [gram, Fin.sum_univ_two, Seg.direction, s, r, F_EPS]; norm_num
  constructor
  · have hc1 : ¬ CloseVec s.p1 s.p2 := by intro h; have := h 0; norm_num [abs_le, s] at this
    have hc2 : ¬ CloseVec r.p1 r.p2 := by intro h; have := h 0; norm_num [abs_le, r] at this
    have hcol : s.collinear (.seg r) = false := by
      apply not_collinear
      · exact lt_of_lt_of_le f_eps_pos' hg
      · rintro ⟨_, h⟩; have := h 1; norm_num [abs_le, s, r] at this
      · rintro ⟨h, _⟩; have := h 1; norm_num [abs_le, s, r] at this
    rw [exactSegments_eq F_EPS s r hcol hg (inPlane_of_dim (by norm_num)) (s_ns hc1) (s_ns hc2) (x := 0) (y := 0) (by
      rw [Seg.point_eq, Seg.point_eq]; simp [s, r])]
    have : inUnit (0 : ℚ) = true := by norm_num [inUnit, closeK, atol, rtol]
    rw [this, Seg.point_eq]
    simp [s]
  · have hcol : r.collinear (.seg s) = true := by
      rw [collinear_iff]
      left; left
      rw [Seg.eq, Bool.and_eq_true, vecEq_iff, vecEq_iff]
      constructor <;> intro i <;> fin_cases i <;> norm_num [abs_le, s, r]
    unfold exactSegments
    rw [if_pos hcol]
    have ho : r.overlap s false = some ⟨![0, 0], ![1, 1]⟩ := by
      unfold Seg.overlap
      simp only [Bool.false_and, Bool.false_eq_true, if_false]
      rw [if_neg]
      · congr 1
        ext i <;> fin_cases i <;> norm_num [s, r]
      · rintro ⟨i, hi⟩
        fin_cases i <;> norm_num [s, r] at hi
    rw [ho]
    simp [IType.call, IData.isSegment]

/-! ## Examples -/

/-- Two crossing segments on the unit grid, no tolerance test interferes. -/
example : Distinct (⟨![0, 0], ![2, 2]⟩ : Seg 2 ℚ) ⟨![0, 2], ![2, 0]⟩ ∧
    Between ![(0 : ℚ), 0] ![2, 2] ![1, 1] ∧ ¬ CloseVec ![(2 : ℚ), 2] ![0, 0] ∧
    exactSegments F_EPS (⟨![0, 0], ![2, 2]⟩ : Seg 2 ℚ) ⟨![0, 2], ![2, 0]⟩ = .ok ⟨.point ![1, 1], .exact⟩ := by
  have hb1 : Between ![(0 : ℚ), 0] ![2, 2] ![1, 1] := ⟨1 / 2, by norm_num, by norm_num, by funext i; fin_cases i <;> simp⟩
  have hb2 : Between ![(0 : ℚ), 2] ![2, 0] ![1, 1] := ⟨1 / 2, by norm_num, by norm_num, by funext i; fin_cases i <;> norm_num⟩
  have hd : Distinct (⟨![0, 0], ![2, 2]⟩ : Seg 2 ℚ) ⟨![0, 2], ![2, 0]⟩ := by
    refine ⟨?_, ?_, ?_, ?_⟩ <;> rintro ⟨h, h'⟩ <;> have a := h 0 <;> have b := h 1 <;>
      simp [abs_le] at a b <;> linarith
  refine ⟨hd, hb1, fun h => by have := h 0; norm_num [abs_le] at this, ?_⟩
  apply C38_crossing_partial F_EPS _ _ hb1 hb2
  · simp [gram, Fin.sum_univ_two]; norm_num
  · intro h; have := h 0; norm_num [abs_le] at this
  · intro h; have := h 0; norm_num [abs_le] at this
  · exact hd.1
  · exact hd.2.1

/-- The curves of the completeness theorem: float data on the unit grid with a common point of two segments. -/
example : ∃ xs, almostCall ⟨1 / 1000000, false, 0, false, 0⟩ (fun _ _ => []) 7 false
      (.curve (⟨0, false, [![0, 0], ![2, 2]]⟩ : GCurve 2 ℝ)) (.curve ⟨1, false, [![0, 2], ![2, 0], ![5, 0]]⟩) = .ok (.list xs) ∧
    ∃ x ∈ xs, x.seg1.origin = some (0, 0) ∧ x.seg2.origin = some (1, 0) ∧ x.info.type = .almost := by
  have grid : ∀ a b : ℤ, ∀ c d : ℤ, SegOnGrid 1 (⟨![a, b], ![c, d]⟩ : Seg 2 ℝ) := by
    intro a b c d i
    fin_cases i
    · exact ⟨⟨a, by simp⟩, ⟨c, by simp⟩⟩
    · exact ⟨⟨b, by simp⟩, ⟨d, by simp⟩⟩
  have hP : Between ![(0 : ℝ), 0] ![2, 2] ![1, 1] := ⟨1 / 2, by norm_num, by norm_num, by funext i; fin_cases i <;> simp⟩
  have hQ : Between ![(0 : ℝ), 2] ![2, 0] ![1, 1] := ⟨1 / 2, by norm_num, by norm_num, by funext i; fin_cases i <;> norm_num⟩
  obtain ⟨xs, hxs, x, hx, h1, h2, h3⟩ := C93_complete_partial (⟨1 / 1000000, false, 0, false, 0⟩ : AlmostParams) rfl rfl (fun _ _ => []) 7 false
    (⟨0, false, [![0, 0], ![2, 2]]⟩ : GCurve 2 ℝ) ⟨1, false, [![0, 2], ![2, 0], ![5, 0]]⟩ rfl 0 0 (by simp) (by simp) (by simp)
    (by intro h; have := congrFun h 0; simp at this) hP hQ
    (.inr ⟨⟨1, by norm_num, by have := grid 0 0 2 2; simpa using this, by have := grid 0 2 2 0; simpa using this⟩, by
      rw [Model.edist_eq_zero.2 rfl]; norm_num⟩)
  exact ⟨xs, hxs, x, hx, by rw [h1]; rfl, by rw [h2]; rfl, h3⟩

/-! ## Concrete cases -/

theorem exDistinct : Distinct (⟨![0, 0], ![2, 2]⟩ : Seg 2 ℚ) ⟨![0, 2], ![2, 0]⟩ := by
  refine ⟨?_, ?_, ?_, ?_⟩ <;> rintro ⟨h, h'⟩ <;> have a := h 0 <;> have b := h 1 <;> simp at a b <;> linarith
example := C93_monotone ⟨1 / 10, false, 1 / 10, false, 1 / 100⟩ 1 (by norm_num) rfl (fun _ _ => []) 9 false
  (⟨0, false, [![0, 0], ![2, 2]]⟩ : GCurve 2 ℝ) ⟨1, false, [![0, 2], ![2, 0], ![5, 5]]⟩
example := C93_sound ⟨1 / 10, true, 1 / 10, true, 1 / 100⟩ (fun _ _ => []) 9 false
  (⟨0, false, [![0, 0], ![2, 2]]⟩ : GCurve 2 ℝ) ⟨1, false, [![0, 2], ![2, 0], ![5, 5]]⟩
example := C94_swap_partial F_EPS _ _ exDistinct
example := C94_curves_partial F_EPS 9 false (⟨0, false, [![0, 0], ![2, 2]]⟩ : GCurve 2 ℚ) ⟨1, false, [![0, 2], ![2, 0], ![5, 5]]⟩ (by simp)
example := C94_reverse_partial F_EPS _ _ exDistinct

end Verif.Props
