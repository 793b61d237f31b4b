import Verif.Props.IntersectCurves
import Mathlib.Data.List.Sort

/-!
The almost method: intersection of curves (C43), removal of extra intersections (C44), naming of segments (C45),
matching data (C46).
-/
namespace Verif.Props

open Verif Verif.Model Verif.Spec

theorem link_symm {α : Type} {r : α → α → Prop} (hr : ∀ a b, r a b → r b a) {a b : α} (h : Relation.ReflTransGen r a b) :
    Relation.ReflTransGen r b a := by
  induction h with
  | refl => exact .refl
  | tail _ h ih => exact .head (hr _ _ h) ih

theorem mapM_ok {α β : Type} {f : α → Except PyErr β} {g : α → β} (h : ∀ x, f x = .ok (g x)) (l : List α) :
    l.mapM f = .ok (l.map g) := by
  induction l with
  | nil => rfl
  | cons a l ih => rw [List.mapM_cons, h, ih]; rfl

section
variable {n : Nat}

theorem call_almost (s : Seg n ℝ) : IType.almost.call (.segment s) = .ok ⟨.segment s, .almost⟩ := by
  simp [IType.call, IData.isSegment]

theorem call_overlap (s : Seg n ℝ) : IType.overlap.call (.segment s) = .ok ⟨.segment s, .overlap⟩ := by
  simp [IType.call, IData.isSegment]

/-! ## C43 -/

theorem almostList_eq (d : ℝ) (c1 c2 : GCurve n ℝ) :
    almostList d c1 c2 = .ok ((almostPairs d c1 c2).map fun p =>
      ⟨c1.segment p.1, c2.segment p.2, ⟨.segment ⟨(almostS2S c1 c2).p1 p.1 p.2, (almostS2S c1 c2).p2 p.1 p.2⟩, .almost⟩⟩) := by
  unfold almostList
  exact mapM_ok (fun p => by simp [IType.call, IData.isSegment, bind, Except.bind]) _

/-- The call of the almost method. -/
noncomputable def almostCall (p : AlmostParams) (comps : Nat → (Nat → Nat → Bool) → List (List Nat)) (fresh : Nat) (int : Bool)
    (o1 o2 : Obj n ℝ) : Except PyErr (Result n ℝ) :=
  methodCall (almostSegments p.distTol p.correctOverlap p.parTol) (almostCurves p comps) fresh int o1 o2

theorem almostPairs_nil {d : ℝ} {c1 c2 : GCurve n ℝ} (h : c1.data.length = 0 ∨ c2.data.length = 0) : almostPairs d c1 c2 = [] := by
  rw [List.eq_nil_iff_forall_not_mem]
  intro p hp
  unfold almostPairs at hp
  rw [mem_curvesIndices] at hp
  have h1 : p.1 < c1.data.length - 1 := hp.1
  have h2 : p.2 < c2.data.length - 1 := hp.2.1
  omega

theorem float_s2s {c1 c2 : GCurve n ℝ} (hf : (c1.int && c2.int) = false) (i j : Nat) (hi : i + 1 < c1.data.length)
    (hj : j + 1 < c2.data.length) :
    (⟨(almostS2S c1 c2).p1 i j, (almostS2S c1 c2).p2 i j⟩ : Seg n ℝ) = (c1.segment i).seg.shortest (.seg (c2.segment j).seg) := by
  have h := C36_entries_partial c1.data c2.data (tol := F_EPS) f_eps_pos i j hi hj
  simp only at h
  have he : almostS2S c1 c2 = segsToSegs id F_EPS c1.data c2.data := by
    unfold almostS2S; rw [hf]; rfl
  rw [he, h.2.2.2.1, h.2.2.2.2, segment_eq c1 i hi, segment_eq c2 j hj]
  rfl

theorem mem_almostPairs {d : ℝ} {c1 c2 : GCurve n ℝ} (hf : (c1.int && c2.int) = false) (i j : Nat) :
    (i, j) ∈ almostPairs d c1 c2 ↔ i + 1 < c1.data.length ∧ j + 1 < c2.data.length ∧
      (c1.segment i).seg.distance (.seg (c2.segment j).seg) < d ∧ (c1.cid = c2.cid → i + 2 ≤ j) := by
  unfold almostPairs
  rw [mem_curvesIndices]
  have hm1 : (almostS2S c1 c2).m1 = c1.data.length - 1 := rfl
  have hm2 : (almostS2S c1 c2).m2 = c2.data.length - 1 := rfl
  simp only [hm1, hm2, decide_eq_true_eq]
  have key : ∀ (hi : i + 1 < c1.data.length) (hj : j + 1 < c2.data.length),
      √ (∑ k, ((almostS2S c1 c2).p1 i j k - (almostS2S c1 c2).p2 i j k) ^ 2) = (c1.segment i).seg.distance (.seg (c2.segment j).seg) := by
    intro hi hj
    unfold Seg.distance
    rw [← float_s2s hf i j hi hj]
    rfl
  constructor
  · rintro ⟨h1, h2, h3, h4⟩
    have hi : i + 1 < c1.data.length := by omega
    have hj : j + 1 < c2.data.length := by omega
    rw [key hi hj] at h3
    exact ⟨hi, hj, h3, h4⟩
  · rintro ⟨h1, h2, h3, h4⟩
    refine ⟨by omega, by omega, ?_, h4⟩
    rw [key h1 h2]; exact h3

/-- **C43 (partial).** Without `remove_extra` and `correct_overlap`, for curves that do not both have integer data: the
almost method reports exactly the pairs of segments whose `Segment.distance` is below `dist_tol` (for one curve object
with itself only those with j ≥ i + 2), in row-major order, with the shortest segment of the pair; this is also what
the method reports for the two segments on their own. Missing: two integer curves, `C43_int_curves`. -/
theorem C43_pairs_partial (p : AlmostParams) (comps : Nat → (Nat → Nat → Bool) → List (List Nat)) (fresh : Nat) (int : Bool)
    (c1 c2 : GCurve n ℝ) (hf : (c1.int && c2.int) = false) (hr : p.removeExtra = false) (hco : p.correctOverlap = false) :
    ∃ idx : List (Nat × Nat),
      almostCall p comps fresh int (.curve c1) (.curve c2) = .ok (.list (idx.map fun q =>
        ⟨c1.segment q.1, c2.segment q.2, ⟨.segment ((c1.segment q.1).seg.shortest (.seg (c2.segment q.2).seg)), .almost⟩⟩)) ∧
      idx.Pairwise Before ∧
      (∀ i j, (i, j) ∈ idx ↔ i + 1 < c1.data.length ∧ j + 1 < c2.data.length ∧ (c1.cid = c2.cid → i + 2 ≤ j) ∧
        (c1.segment i).seg.distance (.seg (c2.segment j).seg) < p.distTol) ∧
      (∀ s r : SegObj n ℝ, almostCall p comps fresh int (.seg s) (.seg r) = .ok (.single ⟨s, r,
        if s.seg.distance (.seg r.seg) < p.distTol then ⟨.segment (s.seg.shortest (.seg r.seg)), .almost⟩ else notIntersected⟩)) := by
  refine ⟨almostPairs p.distTol c1 c2, ?_, curvesIndices_before _ _ _ _, ?_, ?_⟩
  · have hl : almostList p.distTol c1 c2 = .ok ((almostPairs p.distTol c1 c2).map fun q =>
        ⟨c1.segment q.1, c2.segment q.2, ⟨.segment ((c1.segment q.1).seg.shortest (.seg (c2.segment q.2).seg)), .almost⟩⟩) := by
      rw [almostList_eq]
      congr 1
      apply List.map_congr_left
      rintro ⟨i, j⟩ hq
      rw [mem_almostPairs hf] at hq
      simp only
      rw [float_s2s hf i j hq.1 hq.2.1]
    have hc : almostCurves p comps c1 c2 = .ok ((almostPairs p.distTol c1 c2).map fun q =>
        ⟨c1.segment q.1, c2.segment q.2, ⟨.segment ((c1.segment q.1).seg.shortest (.seg (c2.segment q.2).seg)), .almost⟩⟩) := by
      unfold almostCurves
      rw [hl]
      simp only [bind, Except.bind, hr, hco, Bool.false_eq_true, if_false]
      split_ifs with h
      · rw [List.isEmpty_iff] at h; rw [h]
      · rfl
    unfold almostCall methodCall
    simp only [hc, bind, Except.bind]
    split_ifs with h0
    · rw [almostPairs_nil h0]; rfl
    · rfl
  · intro i j
    rw [mem_almostPairs hf]
    tauto
  · intro s r
    unfold almostCall methodCall almostSegments
    simp only [hco, Bool.false_eq_true, if_false, call_almost, bind, Except.bind]
    by_cases h : s.seg.distance (.seg r.seg) < p.distTol
    · rw [if_pos h]
      have h' : (s.seg.shortest (.seg r.seg)).seglen < p.distTol := h
      rw [if_pos h']
    · rw [if_neg h]
      have h' : ¬ (s.seg.shortest (.seg r.seg)).seglen < p.distTol := h
      rw [if_neg h']

/-! ## C44 -/

section
variable {α : Type} (pt : α → Vec n ℝ) (len : α → ℝ) (tol : ℝ) (xs : List α)

theorem extraEdge_iff {P : Nat → Vec n ℝ} (hP : ∀ (i : Nat) (h : i < xs.length), P i = pt xs[i]) (i j : Nat) :
    (extraEdge pt tol xs i j = true ∨ extraEdge pt tol xs j i = true) ↔
      i < xs.length ∧ j < xs.length ∧ i ≠ j ∧ Model.edist (P i) (P j) < tol := by
  have one : ∀ i j, extraEdge pt tol xs i j = true ↔ j < xs.length ∧ i < j ∧ Model.edist (P i) (P j) < tol := by
    intro i j
    unfold extraEdge
    by_cases hj : j < xs.length
    · by_cases hi : i < xs.length
      · rw [List.getElem?_eq_getElem hi, List.getElem?_eq_getElem hj]
        simp only [decide_eq_true_eq, hP i hi, hP j hj, hj, true_and]
      · rw [List.getElem?_eq_none (not_lt.1 hi)]
        simp only [Bool.false_eq_true, false_iff]
        omega
    · rw [List.getElem?_eq_none (not_lt.1 hj)]
      cases xs[i]? <;> simp [hj]
  rw [one, one, Model.edist_comm (P j)]
  constructor
  · rintro (h | h)
    · exact ⟨by omega, h.1, by omega, h.2.2⟩
    · exact ⟨h.1, by omega, by omega, h.2.2⟩
  · rintro ⟨h1, h2, h3, h4⟩
    rcases lt_or_gt_of_ne h3 with h | h
    · exact .inl ⟨h2, h, h4⟩
    · exact .inr ⟨h1, h, h4⟩

/-- Positions that are kept. -/
theorem removeExtra_kept (comps : Nat → (Nat → Nat → Bool) → List (List Nat)) :
    ∃ ks : List Nat, ks.Pairwise (· < ·) ∧
      (∀ k, k ∈ ks ↔ k < xs.length ∧ k ∉ removedIndices len xs (comps xs.length (extraEdge pt tol xs))) ∧
      (removeExtra pt len tol comps xs).map some = ks.map (xs[·]?) := by
  unfold removeExtra
  simp only
  generalize removedIndices len xs (comps xs.length (extraEdge pt tol xs)) = removed
  refine ⟨(List.range xs.length).filter fun k => decide (k ∉ removed), List.pairwise_lt_range.sublist List.filter_sublist, ?_, ?_⟩
  · intro k; simp
  · induction xs using List.reverseRecOn with
    | nil => rfl
    | append_singleton l a ih =>
      rw [List.zipIdx_append, List.filterMap_append, List.map_append, List.length_append, List.length_singleton,
        List.range_succ, List.filter_append, List.map_append]
      congr 1
      · rw [ih]
        apply List.map_congr_left
        intro k hk
        have : k < l.length := by simpa using (List.mem_filter.1 hk).1
        rw [List.getElem?_append_left this]
      · by_cases h : l.length ∈ removed
        · simp [h]
        · simp [h]

theorem removeExtra_sublist (comps : Nat → (Nat → Nat → Bool) → List (List Nat)) :
    (removeExtra pt len tol comps xs).Sublist xs := by
  unfold removeExtra
  simp only
  generalize removedIndices len xs _ = removed
  have h1 : (xs.zipIdx.filterMap fun x => if x.2 ∈ removed then none else some x.1) =
      (xs.zipIdx.filter fun x => decide (x.2 ∉ removed)).map Prod.fst := by
    rw [← List.filterMap_eq_map, ← List.filterMap_eq_filter, List.filterMap_filterMap]
    apply List.filterMap_congr
    intro x _
    by_cases h : x.2 ∈ removed <;> simp [h, Option.guard]
  rw [h1]
  have h2 := (List.filter_sublist (p := fun x : α × Nat => decide (x.2 ∉ removed)) (l := xs.zipIdx)).map Prod.fst
  rwa [List.zipIdx_map_fst] at h2

/-- In a component, everything but one element of least length is removed. -/
theorem blob_head {cs : List (List Nat)} {edge : Nat → Nat → Bool} (hc : IsComponents edge cs) {L : Nat → ℝ}
    (hL : ∀ (i : Nat) (h : i < xs.length), L i = len xs[i]) (hb : ∀ b ∈ cs, ∀ i ∈ b, i < xs.length) {b : List Nat} (hbc : b ∈ cs) :
    ∃ k ∈ b, (∀ i ∈ b, L k ≤ L i) ∧ (k ∉ removedIndices len xs cs) ∧ ∀ i ∈ b, i ≠ k → i ∈ removedIndices len xs cs := by
  set key : Nat → ℝ := fun i => match xs[i]? with
    | some x => len x
    | none => 0 with hkey
  have hkL : ∀ i < xs.length, key i = L i := by
    intro i hi
    simp only [hkey]
    rw [List.getElem?_eq_getElem hi, hL i hi]
  have hrem : ∀ i, i ∈ removedIndices len xs cs ↔ ∃ b ∈ cs, i ∈ (b.mergeSort fun i j => decide (key i ≤ key j)).tail := by
    intro i; unfold removedIndices; simp only [List.mem_flatMap]; rfl
  have hpw : ∀ b : List Nat, (b.mergeSort fun i j => decide (key i ≤ key j)).Pairwise fun i j => key i ≤ key j := by
    intro b
    have := List.pairwise_mergeSort (le := fun i j => decide (key i ≤ key j)) (by intro a b c; simp; exact le_trans) (by intro a b; simp; exact le_total _ _) b
    simpa using this
  have hperm : ∀ b : List Nat, (b.mergeSort fun i j => decide (key i ≤ key j)).Perm b := fun b => List.mergeSort_perm _ _
  cases hs : (b.mergeSort fun i j => decide (key i ≤ key j)) with
  | nil =>
    have := hperm b
    rw [hs] at this
    exact absurd this.symm.eq_nil (hc.nonempty b hbc)
  | cons k tl =>
    have hp := hperm b
    rw [hs] at hp
    have hkb : k ∈ b := hp.subset (by simp)
    have hnd : (k :: tl).Nodup := hp.nodup_iff.2 ((List.nodup_flatten.1 hc.nodup).1 b hbc)
    refine ⟨k, hkb, ?_, ?_, ?_⟩
    · intro i hi
      have hi' : i ∈ k :: tl := hp.symm.subset hi
      rw [← hkL k (hb b hbc k hkb), ← hkL i (hb b hbc i hi)]
      rcases List.mem_cons.1 hi' with h | h
      · rw [h]
      · have := hpw b
        rw [hs] at this
        exact (List.pairwise_cons.1 this).1 i h
    · rw [hrem]
      rintro ⟨b', hb', hk⟩
      have hkb' : k ∈ b' := (hperm b').subset (List.mem_of_mem_tail hk)
      have hsame : b' = b := by
        by_contra hne
        have hdis := (List.nodup_flatten.1 hc.nodup).2
        have : ∀ a ∈ cs, ∀ a' ∈ cs, a ≠ a' → List.Disjoint a a' := by
          intro a ha a' ha' hne
          have : Std.Symm (List.Disjoint (α := Nat)) := ⟨fun _ _ h => h.symm⟩
          exact hdis.forall ha ha' hne
        exact this b' hb' b hbc hne hkb' hkb
      rw [hsame, hs] at hk
      exact (List.nodup_cons.1 hnd).1 hk
    · intro i hi hne
      rw [hrem]
      refine ⟨b, hbc, ?_⟩
      rw [hs]
      rcases List.mem_cons.1 (hp.symm.subset hi) with h | h
      · exact absurd h hne
      · exact h

/-- **C44.** For every way `comps` of enumerating the components of the graph of intersections closer than `tol`: the
result of removing the extra intersections is the subsequence at certain positions `ks`, such that in every cluster
(positions linked by a chain of intersections closer than `tol`) exactly one position is kept and its length is the
least of the cluster; two kept ones are never closer than `tol`; an intersection not closer than `tol` to any other is
kept. `P i` and `L i` are point and length of the i-th intersection. -/
theorem C44_representatives (comps : Nat → (Nat → Nat → Bool) → List (List Nat))
    (hc : IsComponents (extraEdge pt tol xs) (comps xs.length (extraEdge pt tol xs)))
    (P : Nat → Vec n ℝ) (L : Nat → ℝ) (hP : ∀ (i : Nat) (h : i < xs.length), P i = pt xs[i])
    (hL : ∀ (i : Nat) (h : i < xs.length), L i = len xs[i]) :
    (removeExtra pt len tol comps xs).Sublist xs ∧
    ∃ ks : List Nat, ks.Pairwise (· < ·) ∧ (∀ k ∈ ks, k < xs.length) ∧
      (removeExtra pt len tol comps xs).map some = ks.map (xs[·]?) ∧
      (∀ i < xs.length, ∃! k, k ∈ ks ∧ Linked xs.length (fun i j => Model.edist (P i) (P j)) tol i k) ∧
      (∀ k ∈ ks, ∀ i, Linked xs.length (fun i j => Model.edist (P i) (P j)) tol k i → L k ≤ L i) ∧
      (∀ k ∈ ks, ∀ k' ∈ ks, k ≠ k' → tol ≤ Model.edist (P k) (P k')) ∧
      (∀ i < xs.length, (∀ j < xs.length, j ≠ i → tol ≤ Model.edist (P i) (P j)) → i ∈ ks) := by
  obtain ⟨ks, hlt, hmem, hmap⟩ := removeExtra_kept pt len tol xs comps
  set cs := comps xs.length (extraEdge pt tol xs) with hcs
  have hrel : (fun a b => extraEdge pt tol xs a b = true ∨ extraEdge pt tol xs b a = true) =
      fun i j => i < xs.length ∧ j < xs.length ∧ i ≠ j ∧ Model.edist (P i) (P j) < tol := by
    funext a b; exact propext (extraEdge_iff pt tol xs hP a b)
  have hin : ∀ i, i ∈ cs.flatten ↔ ∃ j, i < xs.length ∧ j < xs.length ∧ i ≠ j ∧ Model.edist (P i) (P j) < tol := by
    intro i; rw [hc.mem]; simp only [extraEdge_iff pt tol xs hP]
  have hb : ∀ b ∈ cs, ∀ i ∈ b, i < xs.length := by
    intro b hbc i hi
    obtain ⟨_, h, _⟩ := (hin i).1 (List.mem_flatten.2 ⟨b, hbc, hi⟩)
    exact h
  have hsame : ∀ b ∈ cs, ∀ i ∈ b, ∀ j, j ∈ b ↔ Linked xs.length (fun i j => Model.edist (P i) (P j)) tol i j := by
    intro b hbc i hi j
    rw [hc.same b hbc i hi j, hrel]
    rfl
  have hremIn : ∀ i, i ∈ removedIndices len xs cs → i ∈ cs.flatten := by
    intro i hi
    unfold removedIndices at hi
    simp only [List.mem_flatMap] at hi
    obtain ⟨b, hb, hi⟩ := hi
    exact List.mem_flatten.2 ⟨b, hb, (List.mergeSort_perm _ _).subset (List.mem_of_mem_tail hi)⟩
  have hiso : ∀ i, i ∉ cs.flatten → ∀ j, Linked xs.length (fun i j => Model.edist (P i) (P j)) tol i j → j = i := by
    intro i hi j hl
    rcases Relation.ReflTransGen.cases_head hl with h | ⟨c, h, _⟩
    · exact h.symm
    · exact absurd ((hin i).2 ⟨c, h⟩) hi
  have huniq : ∀ i < xs.length, ∃! k, k ∈ ks ∧ Linked xs.length (fun i j => Model.edist (P i) (P j)) tol i k := by
    intro i hi
    by_cases hif : i ∈ cs.flatten
    · obtain ⟨b, hbc, hib⟩ := List.mem_flatten.1 hif
      obtain ⟨k, hkb, _, hkn, hko⟩ := blob_head len xs hc hL hb hbc
      refine ⟨k, ⟨(hmem k).2 ⟨hb b hbc k hkb, hkn⟩, (hsame b hbc i hib k).1 hkb⟩, ?_⟩
      rintro k' ⟨hk', hl⟩
      have hkb' := (hsame b hbc i hib k').2 hl
      by_contra hne
      exact ((hmem k').1 hk').2 (hko k' hkb' hne)
    · refine ⟨i, ⟨(hmem i).2 ⟨hi, fun h => hif (hremIn i h)⟩, Relation.ReflTransGen.refl⟩, ?_⟩
      rintro k' ⟨_, hl⟩
      exact hiso i hif k' hl
  refine ⟨?_, ks, hlt, fun k hk => ((hmem k).1 hk).1, hmap, huniq, ?_, ?_, ?_⟩
  · exact removeExtra_sublist pt len tol xs comps
  · intro k hk i hl
    by_cases hkf : k ∈ cs.flatten
    · obtain ⟨b, hbc, hkb⟩ := List.mem_flatten.1 hkf
      obtain ⟨k', hkb', hmin, _, hko⟩ := blob_head len xs hc hL hb hbc
      have : k = k' := by
        by_contra hne
        exact ((hmem k).1 hk).2 (hko k hkb hne)
      rw [this]
      exact hmin i ((hsame b hbc k hkb i).2 hl)
    · rw [hiso k hkf i hl]
  · intro k hk k' hk' hne
    by_contra hlt'
    push Not at hlt'
    have hk1 := ((hmem k).1 hk).1
    obtain ⟨u, _, hu⟩ := huniq k hk1
    have e1 := hu k ⟨hk, Relation.ReflTransGen.refl⟩
    have e2 := hu k' ⟨hk', Relation.ReflTransGen.single ⟨hk1, ((hmem k').1 hk').1, hne, hlt'⟩⟩
    exact hne (e1.trans e2.symm)
  · intro i hi hfar
    refine (hmem i).2 ⟨hi, fun h => ?_⟩
    obtain ⟨j, _, hj, hne, hd⟩ := (hin i).1 (hremIn i h)
    exact absurd (hfar j hj (Ne.symm hne)) (not_le.2 hd)

/-- **C44 (twice).** Removing extra intersections from a result changes nothing. -/
theorem C44_idempotent (comps : Nat → (Nat → Nat → Bool) → List (List Nat))
    (hc : IsComponents (extraEdge pt tol xs) (comps xs.length (extraEdge pt tol xs)))
    (hc2 : ∀ ys, ys = removeExtra pt len tol comps xs → IsComponents (extraEdge pt tol ys) (comps ys.length (extraEdge pt tol ys))) :
    removeExtra pt len tol comps (removeExtra pt len tol comps xs) = removeExtra pt len tol comps xs := by
  have h1 := C44_representatives pt len tol xs comps hc
    (fun i => match xs[i]? with | some x => pt x | none => 0) (fun i => match xs[i]? with | some x => len x | none => 0)
    (fun i h => by rw [List.getElem?_eq_getElem h]) (fun i h => by rw [List.getElem?_eq_getElem h])
  obtain ⟨_, ks, hlt, hin, hmap, _, _, hfar, _⟩ := h1
  specialize hc2 _ rfl
  generalize removeExtra pt len tol comps xs = ys at *
  have hlen : ys.length = ks.length := by have := congrArg List.length hmap; simpa using this
  have hget : ∀ (i : Nat) (h : i < ys.length), xs[ks[i]'(hlen ▸ h)]? = some ys[i] := by
    intro i h
    have := congrArg (fun l : List (Option α) => l[i]?) hmap
    simp only [List.getElem?_map, List.getElem?_eq_getElem h, List.getElem?_eq_getElem (hlen ▸ h : i < ks.length), Option.map_some] at this
    injection this with this
    exact this.symm
  have hnoedge : ∀ i j, extraEdge pt tol ys i j = false := by
    intro i j
    rw [← Bool.not_eq_true]
    intro he
    have hP : ∀ (i : Nat) (h : i < ys.length), (fun i => match ys[i]? with | some x => pt x | none => 0) i = pt ys[i] := by
      intro i h; simp only; rw [List.getElem?_eq_getElem h]
    obtain ⟨hi, hj, hne, hd⟩ := (extraEdge_iff pt tol ys hP i j).1 (.inl he)
    have hki : i < ks.length := hlen ▸ hi
    have hkj : j < ks.length := hlen ▸ hj
    have hkne : ks[i] ≠ ks[j] := by
      intro e
      exact hne ((List.Nodup.getElem_inj_iff (hlt.imp (fun h => Nat.ne_of_lt h))).1 e)
    have := hfar ks[i] (List.getElem_mem hki) ks[j] (List.getElem_mem hkj) hkne
    rw [hget i hi, hget j hj] at this
    rw [List.getElem?_eq_getElem hi, List.getElem?_eq_getElem hj] at hd
    exact absurd hd (not_lt.2 this)
  have hnil : comps ys.length (extraEdge pt tol ys) = [] := by
    rw [List.eq_nil_iff_forall_not_mem]
    intro b hb
    obtain ⟨i, hi⟩ := List.exists_mem_of_ne_nil b (hc2.nonempty b hb)
    obtain ⟨j, hj⟩ := (hc2.mem i).1 (List.mem_flatten.2 ⟨b, hb, hi⟩)
    simp [hnoedge] at hj
  unfold removeExtra
  simp only [hnil, removedIndices, List.flatMap_nil, List.not_mem_nil, if_false]
  have : (fun x : α × Nat => some x.1) = some ∘ Prod.fst := rfl
  rw [this, List.filterMap_eq_map, List.zipIdx_map_fst]

/-- **C44 (order of enumeration).** Two enumerations of the components keep equally many intersections; the kept ones
correspond to each other cluster by cluster and have equal lengths; if no two intersections of a cluster have the
same length, the results are identical. -/
theorem C44_enumeration (comps comps' : Nat → (Nat → Nat → Bool) → List (List Nat))
    (hc : IsComponents (extraEdge pt tol xs) (comps xs.length (extraEdge pt tol xs)))
    (hc' : IsComponents (extraEdge pt tol xs) (comps' xs.length (extraEdge pt tol xs)))
    (P : Nat → Vec n ℝ) (L : Nat → ℝ) (hP : ∀ (i : Nat) (h : i < xs.length), P i = pt xs[i])
    (hL : ∀ (i : Nat) (h : i < xs.length), L i = len xs[i]) :
    ∃ ks ks' : List Nat,
      (removeExtra pt len tol comps xs).map some = ks.map (xs[·]?) ∧
      (removeExtra pt len tol comps' xs).map some = ks'.map (xs[·]?) ∧
      (∀ k ∈ ks, ∃! k', k' ∈ ks' ∧ Linked xs.length (fun i j => Model.edist (P i) (P j)) tol k k') ∧
      (∀ k ∈ ks, ∀ k' ∈ ks', Linked xs.length (fun i j => Model.edist (P i) (P j)) tol k k' → L k = L k') ∧
      ((∀ i < xs.length, ∀ j < xs.length, Linked xs.length (fun i j => Model.edist (P i) (P j)) tol i j → L i = L j → i = j) →
        removeExtra pt len tol comps xs = removeExtra pt len tol comps' xs) := by
  obtain ⟨_, ks, hlt, hin, hmap, huniq, hmin, hfar, _⟩ := C44_representatives pt len tol xs comps hc P L hP hL
  obtain ⟨_, ks', hlt', hin', hmap', huniq', hmin', hfar', _⟩ := C44_representatives pt len tol xs comps' hc' P L hP hL
  have hsymm : ∀ i j, Linked xs.length (fun i j => Model.edist (P i) (P j)) tol i j → Linked xs.length (fun i j => Model.edist (P i) (P j)) tol j i := by
    intro i j h
    refine link_symm ?_ h
    rintro a b ⟨h1, h2, h3, h4⟩
    exact ⟨h2, h1, Ne.symm h3, by simp only at h4 ⊢; rwa [Model.edist_comm]⟩
  have heq : ∀ k ∈ ks, ∀ k' ∈ ks', Linked xs.length (fun i j => Model.edist (P i) (P j)) tol k k' → L k = L k' := by
    intro k hk k' hk' hl
    exact le_antisymm (hmin k hk k' hl) (hmin' k' hk' k (hsymm _ _ hl))
  refine ⟨ks, ks', hmap, hmap', fun k hk => huniq' k (hin k hk), heq, ?_⟩
  intro hinj
  have hsub : ∀ k, k ∈ ks → k ∈ ks' := by
    intro k hk
    obtain ⟨k', ⟨hk', hl⟩, _⟩ := huniq' k (hin k hk)
    rw [hinj k (hin k hk) k' (hin' k' hk') hl (heq k hk k' hk' hl)]
    exact hk'
  have hsub' : ∀ k, k ∈ ks' → k ∈ ks := by
    intro k hk
    obtain ⟨k', ⟨hk', hl⟩, _⟩ := huniq k (hin' k hk)
    rw [hinj k (hin' k hk) k' (hin k' hk') hl (heq k' hk' k hk (hsymm _ _ hl)).symm]
    exact hk'
  have hks : ks = ks' := by
    have hperm : ks.Perm ks' := (List.perm_ext_iff_of_nodup (hlt.imp (fun h => Nat.ne_of_lt h)) (hlt'.imp (fun h => Nat.ne_of_lt h))).2
      fun k => ⟨hsub k, hsub' k⟩
    exact hperm.eq_of_pairwise (fun a b _ _ h h' => absurd h' (Nat.lt_asymm h)) hlt hlt'
  have : (removeExtra pt len tol comps xs).map some = (removeExtra pt len tol comps' xs).map some := by rw [hmap, hmap', hks]
  exact List.map_injective_iff.2 (Option.some_injective _) this

end

/-! The hypotheses on `comps` can be met for every graph. -/

open Classical in
/-- One enumeration of the components: by their least elements. -/
noncomputable def someComponents (m : Nat) (edge : Nat → Nat → Bool) : List (List Nat) :=
  let V := (List.range m).filter fun i => decide (∃ j, edge i j = true ∨ edge j i = true)
  let link := Relation.ReflTransGen fun a b => edge a b = true ∨ edge b a = true
  (V.filter fun i => decide (∀ j ∈ V, link i j → i ≤ j)).map fun i => V.filter fun j => decide (link i j)

theorem someComponents_spec (m : Nat) (edge : Nat → Nat → Bool) (hedge : ∀ i j, edge i j = true → i < m ∧ j < m) :
    IsComponents edge (someComponents m edge) := by
  classical
  set link := Relation.ReflTransGen fun a b => edge a b = true ∨ edge b a = true with hlink
  have hsymm : ∀ i j, link i j → link j i := fun i j h => link_symm (fun a b h => h.symm) h
  set V := (List.range m).filter fun i => decide (∃ j, edge i j = true ∨ edge j i = true) with hV
  have hVm : ∀ i, i ∈ V ↔ ∃ j, edge i j = true ∨ edge j i = true := by
    intro i
    simp only [hV, List.mem_filter, List.mem_range, decide_eq_true_eq, and_iff_right_iff_imp]
    rintro ⟨j, h | h⟩
    · exact (hedge i j h).1
    · exact (hedge j i h).2
  have hVn : V.Nodup := List.nodup_range.sublist List.filter_sublist
  have hlV : ∀ i ∈ V, ∀ j, link i j → j ∈ V := by
    intro i hi j h
    rcases Relation.ReflTransGen.cases_tail h with h | ⟨c, _, h⟩
    · rw [h]; exact hi
    · exact (hVm j).2 ⟨c, h.symm⟩
  have hb : ∀ b, b ∈ someComponents m edge ↔ ∃ i ∈ V, (∀ j ∈ V, link i j → i ≤ j) ∧ b = V.filter fun j => decide (link i j) := by
    intro b
    unfold someComponents
    simp only [List.mem_map, List.mem_filter, decide_eq_true_eq]
    constructor
    · rintro ⟨i, ⟨h1, h2⟩, h3⟩; exact ⟨i, List.mem_filter.2 ⟨by simpa using h1.1, by simpa using h1.2⟩, fun j hj => h2 j (by simpa [hV] using hj), h3.symm⟩
    · rintro ⟨i, h1, h2, h3⟩; exact ⟨i, ⟨by simpa [hV] using h1, fun j hj => h2 j (by simpa [hV] using hj)⟩, h3.symm⟩
  have hrep : ∀ i ∈ V, ∃ k ∈ V, link i k ∧ ∀ j ∈ V, link k j → k ≤ j := by
    intro i hi
    have hex : ∃ k, k ∈ V ∧ link i k := ⟨i, hi, Relation.ReflTransGen.refl⟩
    refine ⟨Nat.find hex, (Nat.find_spec hex).1, (Nat.find_spec hex).2, ?_⟩
    intro j hj hl
    exact Nat.find_min' hex ⟨hj, (Nat.find_spec hex).2.trans hl⟩
  constructor
  · rw [List.nodup_flatten]
    constructor
    · intro b h
      obtain ⟨i, _, _, rfl⟩ := (hb b).1 h
      exact hVn.sublist List.filter_sublist
    · unfold someComponents
      simp only
      rw [List.pairwise_map]
      refine List.Pairwise.imp_of_mem ?_ (hVn.sublist List.filter_sublist)
      intro i j hi hj hne x hx hy
      simp only [List.mem_filter, decide_eq_true_eq] at hi hj hx hy
      have l1 : link i j := Relation.ReflTransGen.trans hx.2 (hsymm _ _ hy.2)
      have a := hi.2 j (by simpa using hj.1) l1
      have b := hj.2 i (by simpa using hi.1) (hsymm _ _ l1)
      exact hne (le_antisymm a b)
  · intro i
    rw [← hVm, List.mem_flatten]
    constructor
    · rintro ⟨b, h, hi⟩
      obtain ⟨k, _, _, rfl⟩ := (hb b).1 h
      exact (List.mem_filter.1 hi).1
    · intro hi
      obtain ⟨k, hk, hl, hm⟩ := hrep i hi
      exact ⟨_, (hb _).2 ⟨k, hk, hm, rfl⟩, List.mem_filter.2 ⟨hi, by simpa using hsymm _ _ hl⟩⟩
  · intro b h i hi j
    obtain ⟨k, hk, _, rfl⟩ := (hb b).1 h
    simp only [List.mem_filter, decide_eq_true_eq] at hi ⊢
    constructor
    · rintro ⟨_, hl⟩; exact (hsymm _ _ hi.2).trans hl
    · intro hl; exact ⟨hlV i hi.1 j hl, Relation.ReflTransGen.trans hi.2 hl⟩
  · intro b h
    obtain ⟨k, hk, _, rfl⟩ := (hb b).1 h
    exact List.ne_nil_of_mem (List.mem_filter.2 ⟨hk, by simpa using Relation.ReflTransGen.refl⟩)

theorem extraEdge_bound {α : Type} (pt : α → Vec n ℝ) (tol : ℝ) (xs : List α) (i j : Nat) (h : extraEdge pt tol xs i j = true) :
    i < xs.length ∧ j < xs.length := by
  have := (extraEdge_iff pt tol xs (P := fun i => match xs[i]? with | some x => pt x | none => 0)
    (fun i h => by rw [List.getElem?_eq_getElem h]) i j).1 (.inl h)
  exact ⟨this.1, this.2.1⟩

/-- The hypotheses of `C44_representatives` and `C44_idempotent` are met by `someComponents` for every list. -/
example {α : Type} (pt : α → Vec n ℝ) (len : α → ℝ) (tol : ℝ) (xs : List α) :
    removeExtra pt len tol someComponents (removeExtra pt len tol someComponents xs) = removeExtra pt len tol someComponents xs :=
  C44_idempotent pt len tol xs someComponents (someComponents_spec _ _ (extraEdge_bound pt tol xs))
    (fun ys _ => someComponents_spec _ _ (extraEdge_bound pt tol ys))

/-- **C43 (witness).** The integer curves (0,0)-(2,2) and (0,2)-(2,0) cross at (1,1), the distance of the two segments is
0 and below every positive tolerance, but the truncated parameters give the distance 2: nothing is reported for
`dist_tol ≤ 2`. -/
theorem C43_int_curves (d : ℝ) (hd : d ≤ 2) :
    let c1 : GCurve 2 ℝ := ⟨0, true, [![0, 0], ![2, 2]]⟩
    let c2 : GCurve 2 ℝ := ⟨1, true, [![0, 2], ![2, 0]]⟩
    almostPairs d c1 c2 = [] ∧ (c1.segment 0).seg.distance (.seg (c2.segment 0).seg) = 0 := by
  intro c1 c2
  obtain ⟨h1, h2⟩ := C36_int_data (K := ℝ)
  have hdist : (c1.segment 0).seg.distance (.seg (c2.segment 0).seg) = 0 := by
    rw [segment_eq c1 0 (by simp [c1]), segment_eq c2 0 (by simp [c2])]
    simp only [c1, c2, List.getElem_cons_zero, List.getElem_cons_succ, Seg.distance, Seg.shortest, h2]
    have hp1 : (⟨![0, 0], ![2, 2]⟩ : Seg 2 ℝ).point (1 / 2) = ![1, 1] := by
      funext k; fin_cases k <;> simp [Seg.point, Seg.direction]
    have hp2 : (⟨![0, 2], ![2, 0]⟩ : Seg 2 ℝ).point (1 / 2) = ![1, 1] := by
      funext k; fin_cases k <;> simp [Seg.point, Seg.direction] <;> norm_num
    rw [hp1, hp2]
    simp [Seg.seglen, Model.edist]
  refine ⟨?_, hdist⟩
  rw [List.eq_nil_iff_forall_not_mem]
  rintro ⟨i, j⟩ hp
  unfold almostPairs at hp
  rw [mem_curvesIndices] at hp
  obtain ⟨hi, hj, hp, _⟩ := hp
  have hi : i < 1 := hi
  have hj : j < 1 := hj
  obtain rfl : i = 0 := by omega
  obtain rfl : j = 0 := by omega
  rw [decide_eq_true_eq] at hp
  rw [Prod.mk.injEq] at h1
  have e1 : (almostS2S c1 c2).p1 0 0 = ![0, 0] := by
    have : (almostS2S c1 c2).p1 0 0 = rowAt c1.data 0 + (almostS2S c1 c2).t1 0 0 • diffAt c1.data 0 := rfl
    rw [this, show (almostS2S c1 c2).t1 0 0 = 0 from h1.1, zero_smul, add_zero]; rfl
  have e2 : (almostS2S c1 c2).p2 0 0 = ![0, 2] := by
    have : (almostS2S c1 c2).p2 0 0 = rowAt c2.data 0 + (almostS2S c1 c2).t2 0 0 • diffAt c2.data 0 := rfl
    rw [this, show (almostS2S c1 c2).t2 0 0 = 0 from h1.2, zero_smul, add_zero]; rfl
  simp only at hp
  rw [e1, e2] at hp
  simp [Fin.sum_univ_two] at hp
  linarith

/-! ## C45 and C46 for the almost method -/

theorem correctOverlap_ok (tol : ℝ) (x : SegInt n ℝ) : ∃ y, correctOverlap tol x = .ok y ∧ y.seg1 = x.seg1 ∧ y.seg2 = x.seg2 ∧
    (Matches x.info → Matches y.info) ∧ (x.info.type ≠ .none → y.info.type ≠ .none) := by
  unfold correctOverlap
  by_cases hp : x.seg1.seg.parallel x.seg2.seg tol = true
  · rw [if_pos hp]
    cases ho : x.seg1.seg.overlap x.seg2.seg false with
    | none => exact ⟨x, rfl, rfl, rfl, id, id⟩
    | some o =>
      simp only [call_overlap, bind, Except.bind]
      exact ⟨_, rfl, rfl, rfl, fun _ => trivial, fun _ => by simp⟩
  · rw [if_neg hp]; exact ⟨x, rfl, rfl, rfl, id, id⟩

/-- Everything the almost method lists is a pair of segments of the two curves with matching data. -/
theorem almostCurves_ok (p : AlmostParams) (comps : Nat → (Nat → Nat → Bool) → List (List Nat)) (c1 c2 : GCurve n ℝ) :
    ∃ xs, almostCurves p comps c1 c2 = .ok xs ∧
      (c1.data.length = 0 ∨ c2.data.length = 0 → xs = []) ∧
      ∀ x ∈ xs, Matches x.info ∧ x.info.type ≠ .none ∧ ∃ i j, i + 1 < c1.data.length ∧ j + 1 < c2.data.length ∧
        x.seg1 = c1.segment i ∧ x.seg2 = c2.segment j := by
  unfold almostCurves
  rw [almostList_eq]
  simp only [bind, Except.bind]
  set ys : List (SegInt n ℝ) := (almostPairs p.distTol c1 c2).map fun p =>
      ⟨c1.segment p.1, c2.segment p.2, ⟨.segment ⟨(almostS2S c1 c2).p1 p.1 p.2, (almostS2S c1 c2).p2 p.1 p.2⟩, .almost⟩⟩ with hys
  have hy : ∀ x ∈ ys, Matches x.info ∧ x.info.type ≠ .none ∧ ∃ i j, i + 1 < c1.data.length ∧ j + 1 < c2.data.length ∧
        x.seg1 = c1.segment i ∧ x.seg2 = c2.segment j := by
    intro x hx
    rw [hys, List.mem_map] at hx
    obtain ⟨q, hq, rfl⟩ := hx
    unfold almostPairs at hq
    rw [mem_curvesIndices] at hq
    have h1 : q.1 < c1.data.length - 1 := hq.1
    have h2 : q.2 < c2.data.length - 1 := hq.2.1
    exact ⟨trivial, by simp, q.1, q.2, by omega, by omega, rfl, rfl⟩
  have hempty : c1.data.length = 0 ∨ c2.data.length = 0 → ys = [] := by
    intro h; rw [hys, almostPairs_nil h]; rfl
  clear_value ys
  by_cases h0 : ys.isEmpty = true
  · rw [if_pos h0]; exact ⟨[], rfl, fun _ => rfl, by simp⟩
  · rw [if_neg h0]
    have h1 : ∃ zs, (if p.removeExtra = true then removeExtra pointOf lenOf p.extraTol comps ys else ys) = zs ∧ zs.Sublist ys := by
      by_cases h : p.removeExtra = true
      · rw [if_pos h]; exact ⟨_, rfl, removeExtra_sublist _ _ _ _ _⟩
      · rw [if_neg h]; exact ⟨_, rfl, List.Sublist.refl _⟩
    obtain ⟨zs, e, hsub⟩ := h1
    rw [e]
    have hne : ¬ (c1.data.length = 0 ∨ c2.data.length = 0) := fun h => h0 (by rw [hempty h]; rfl)
    by_cases h : p.correctOverlap = true
    · rw [if_pos h]
      choose g hg using correctOverlap_ok (n := n) p.parTol
      rw [mapM_ok (g := g) (fun x => (hg x).1)]
      refine ⟨_, rfl, fun h => absurd h hne, ?_⟩
      intro x hx
      obtain ⟨z, hz, rfl⟩ := List.mem_map.1 hx
      obtain ⟨a1, a2, i, j, a3, a4, a5, a6⟩ := hy z (hsub.subset hz)
      obtain ⟨_, b1, b2, b3, b4⟩ := hg z
      exact ⟨b3 a1, b4 a2, i, j, a3, a4, b1.trans a5, b2.trans a6⟩
    · rw [if_neg h]
      exact ⟨zs, rfl, fun h => absurd h hne, fun x hx => hy x (hsub.subset hx)⟩

theorem both {segs : SegObj n ℝ → SegObj n ℝ → Except PyErr (Info n ℝ)} {curves : GCurve n ℝ → GCurve n ℝ → Except PyErr (List (SegInt n ℝ))}
    {fresh : Nat} {int : Bool} {c d : GCurve n ℝ} {xs : List (SegInt n ℝ)} (hxs : curves c d = .ok xs)
    (h0 : c.data.length = 0 ∨ d.data.length = 0 → xs = []) :
    methodCall segs curves fresh int (.curve c) (.curve d) = .ok (.list xs) := by
  unfold methodCall
  by_cases h : c.data.length = 0 ∨ d.data.length = 0
  · simp only [h, if_true, h0 h]
  · simp only [h, if_false, hxs, bind, Except.bind]

/-- **C45 (almost method).** Intersecting a curve with a segment, in either order and for all parameters of the almost
method: the list is that of the intersection with the two-point curve of the segment, with the given segment in its
position; the other position has a segment of the curve. -/
theorem C45_almost (p : AlmostParams) (comps : Nat → (Nat → Nat → Bool) → List (List Nat)) (fresh : Nat) (int : Bool)
    (c : GCurve n ℝ) (s : SegObj n ℝ) :
    (∃ xs, almostCall p comps fresh int (.curve c) (.curve ⟨fresh, int, [s.seg.p1, s.seg.p2]⟩) = .ok (.list xs) ∧
      almostCall p comps fresh int (.curve c) (.seg s) = .ok (.list (xs.map fun x => ⟨x.seg1, s, x.info⟩)) ∧
      ∀ x ∈ xs, x.seg2 = ⟨s.seg, some (fresh, 0)⟩ ∧ ∃ i, i + 1 < c.data.length ∧ x.seg1 = c.segment i) ∧
    (∃ xs, almostCall p comps fresh int (.curve ⟨fresh, int, [s.seg.p1, s.seg.p2]⟩) (.curve c) = .ok (.list xs) ∧
      almostCall p comps fresh int (.seg s) (.curve c) = .ok (.list (xs.map fun x => ⟨s, x.seg2, x.info⟩)) ∧
      ∀ x ∈ xs, x.seg1 = ⟨s.seg, some (fresh, 0)⟩ ∧ ∃ i, i + 1 < c.data.length ∧ x.seg2 = c.segment i) := by
  set d : GCurve n ℝ := ⟨fresh, int, [s.seg.p1, s.seg.p2]⟩ with hd
  have hseg : d.segment 0 = ⟨s.seg, some (fresh, 0)⟩ := by
    rw [segment_eq d 0 (by simp [hd])]; rfl
  have h2 : ∀ j, j + 1 < d.data.length → j = 0 := by intro j hj; simp [hd] at hj; omega
  constructor
  · obtain ⟨xs, hxs, h0, hx⟩ := almostCurves_ok p comps c d
    refine ⟨xs, ?_, ?_, ?_⟩
    · exact both hxs h0
    · exact mixed1 hxs (fun h => h0 (.inl h))
    · intro x hxm
      obtain ⟨_, _, i, j, hi, hj, e1, e2⟩ := hx x hxm
      rw [h2 j hj, hseg] at e2
      exact ⟨e2, i, hi, e1⟩
  · obtain ⟨xs, hxs, h0, hx⟩ := almostCurves_ok p comps d c
    refine ⟨xs, ?_, ?_, ?_⟩
    · exact both hxs h0
    · exact mixed2 hxs (fun h => h0 (.inr h))
    · intro x hxm
      obtain ⟨_, _, i, j, hi, hj, e1, e2⟩ := hx x hxm
      rw [h2 i hi, hseg] at e1
      exact ⟨e1, j, hj, e2⟩

/-- The intersections of a result. -/
def Result.items : Result n ℝ → List (SegInt n ℝ)
  | .single x => [x]
  | .list xs => xs

/-- **C46 (all results).** For all arguments, both methods and all parameters: the call succeeds, every intersection in the
result has data matching its type (so the accessors behave as in `C46_accessors`), and a list contains no intersection
of type NONE. -/
theorem C46_results (feps : ℝ) (p : AlmostParams) (comps : Nat → (Nat → Nat → Bool) → List (List Nat)) (fresh : Nat) (int : Bool)
    (o1 o2 : Obj n ℝ) (call : Except PyErr (Result n ℝ))
    (hcall : call = exactCall feps fresh int o1 o2 ∨ call = almostCall p comps fresh int o1 o2) :
    ∃ res, call = .ok res ∧ (∀ x ∈ Result.items res, Matches x.info) ∧ ∀ xs, res = .list xs → ∀ x ∈ xs, x.bool = true := by
  have gen : ∀ (segs : SegObj n ℝ → SegObj n ℝ → Except PyErr (Info n ℝ)) (curves : GCurve n ℝ → GCurve n ℝ → Except PyErr (List (SegInt n ℝ))),
      (∀ s r, ∃ i, segs s r = .ok i ∧ Matches i) →
      (∀ c d, ∃ xs, curves c d = .ok xs ∧ (c.data.length = 0 ∨ d.data.length = 0 → xs = []) ∧ ∀ x ∈ xs, Matches x.info ∧ x.info.type ≠ .none) →
      ∃ res, methodCall segs curves fresh int o1 o2 = .ok res ∧ (∀ x ∈ Result.items res, Matches x.info) ∧
        ∀ xs, res = .list xs → ∀ x ∈ xs, x.bool = true := by
    intro segs curves hs hc
    have hbool : ∀ x : SegInt n ℝ, x.info.type ≠ .none → x.bool = true := by intro x h; simp [SegInt.bool, h]
    cases o1 with
    | seg s =>
      cases o2 with
      | seg r =>
        obtain ⟨i, hi, hm⟩ := hs s r
        refine ⟨.single ⟨s, r, i⟩, ?_, ?_, ?_⟩
        · unfold methodCall; simp [hi, bind, Except.bind]
        · intro x hx; simp only [Result.items, List.mem_singleton] at hx; subst hx; exact hm
        · intro xs h; exact absurd h (by simp)
      | curve d =>
        obtain ⟨xs, hxs, h0, hx⟩ := hc ⟨fresh, int, [s.seg.p1, s.seg.p2]⟩ d
        refine ⟨_, mixed2 hxs (fun h => h0 (.inr h)), ?_, ?_⟩
        · intro x hxm
          simp only [Result.items, List.mem_map] at hxm
          obtain ⟨y, hy, rfl⟩ := hxm
          exact (hx y hy).1
        · intro zs h x hxm
          injection h with h
          rw [← h, List.mem_map] at hxm
          obtain ⟨y, hy, rfl⟩ := hxm
          exact hbool _ (hx y hy).2
    | curve c =>
      cases o2 with
      | seg r =>
        obtain ⟨xs, hxs, h0, hx⟩ := hc c ⟨fresh, int, [r.seg.p1, r.seg.p2]⟩
        refine ⟨_, mixed1 hxs (fun h => h0 (.inl h)), ?_, ?_⟩
        · intro x hxm
          simp only [Result.items, List.mem_map] at hxm
          obtain ⟨y, hy, rfl⟩ := hxm
          exact (hx y hy).1
        · intro zs h x hxm
          injection h with h
          rw [← h, List.mem_map] at hxm
          obtain ⟨y, hy, rfl⟩ := hxm
          exact hbool _ (hx y hy).2
      | curve d =>
        obtain ⟨xs, hxs, h0, hx⟩ := hc c d
        refine ⟨.list xs, ?_, ?_, ?_⟩
        · exact both hxs h0
        · intro x hxm; exact (hx x hxm).1
        · intro zs h x hxm
          injection h with h
          rw [← h] at hxm
          exact hbool _ (hx x hxm).2
  rcases hcall with rfl | rfl
  · apply gen
    · intro s r; exact exactSegments_ok feps s.seg r.seg
    · intro c d
      obtain ⟨info, h, he⟩ := exactCurves_spec feps c d
      refine ⟨_, he, ?_, ?_⟩
      · intro h0; rw [bboxPairs_nil h0]; rfl
      · intro x hx
        obtain ⟨q, hq, rfl⟩ := List.mem_map.1 hx
        exact ⟨(h q.1 q.2).2, by simpa using (List.mem_filter.1 hq).2⟩
  · apply gen
    · intro s r
      unfold almostSegments
      simp only [call_almost, bind, Except.bind]
      split_ifs with h1 h2
      · obtain ⟨y, hy, _, _, hm, _⟩ := correctOverlap_ok p.parTol ⟨s, r, ⟨.segment (s.seg.shortest (.seg r.seg)), .almost⟩⟩
        rw [hy]; exact ⟨_, rfl, hm trivial⟩
      · exact ⟨_, rfl, trivial⟩
      · exact ⟨_, rfl, trivial⟩
    · intro c d
      obtain ⟨xs, hxs, h0, hx⟩ := almostCurves_ok p comps c d
      exact ⟨xs, hxs, h0, fun x hxm => ⟨(hx x hxm).1, (hx x hxm).2.1⟩⟩

end

/-- Three intersections on a line at 0, 1/2000 and 5 with lengths 2, 1, 3: the second and the third are kept. -/
example : removeExtra (fun x : ℝ × ℝ => (![x.1] : Vec 1 ℝ)) Prod.snd (1 / 1000) (fun _ _ => [[0, 1]])
    [(0, 2), (1 / 2000, 1), (5, 3)] = [(1 / 2000, 1), (5, 3)] := by
  have hr : removedIndices Prod.snd ([(0, 2), (1 / 2000, 1), (5, 3)] : List (ℝ × ℝ)) [[0, 1]] = [0] := by
    unfold removedIndices
    norm_num [List.mergeSort, List.merge, List.MergeSort.Internal.splitInTwo]
  unfold removeExtra
  simp only [hr]
  simp

/-! ## Concrete cases -/

example := C43_pairs_partial ⟨1 / 10, false, 1 / 10, false, 1 / 100⟩ (fun _ _ => []) 9 false
  (⟨0, false, [![0, 0], ![2, 2]]⟩ : GCurve 2 ℝ) ⟨1, false, [![0, 2], ![2, 0], ![5, 5]]⟩ rfl rfl rfl
/-- Three records with a point and a length each, the first two close to each other. -/
example := C44_representatives (fun x : ℝ × ℝ => (![x.1] : Vec 1 ℝ)) Prod.snd (1 / 1000) [(0, 2), (1 / 2000, 1), (5, 3)] someComponents
  (someComponents_spec _ _ (extraEdge_bound _ _ _)) (fun i => ![([(0, 2), (1 / 2000, 1), (5, 3)] : List (ℝ × ℝ)).getD i 0 |>.1])
  (fun i => ([(0, 2), (1 / 2000, 1), (5, 3)] : List (ℝ × ℝ)).getD i 0 |>.2) (by intro i h; rw [List.getD_eq_getElem?_getD, List.getElem?_eq_getElem h]; rfl) (by intro i h; rw [List.getD_eq_getElem?_getD, List.getElem?_eq_getElem h]; rfl)
example := C44_enumeration (fun x : ℝ × ℝ => (![x.1] : Vec 1 ℝ)) Prod.snd (1 / 1000) [(0, 2), (1 / 2000, 1), (5, 3)] someComponents someComponents
  (someComponents_spec _ _ (extraEdge_bound _ _ _)) (someComponents_spec _ _ (extraEdge_bound _ _ _))
  (fun i => ![([(0, 2), (1 / 2000, 1), (5, 3)] : List (ℝ × ℝ)).getD i 0 |>.1])
  (fun i => ([(0, 2), (1 / 2000, 1), (5, 3)] : List (ℝ × ℝ)).getD i 0 |>.2) (by intro i h; rw [List.getD_eq_getElem?_getD, List.getElem?_eq_getElem h]; rfl) (by intro i h; rw [List.getD_eq_getElem?_getD, List.getElem?_eq_getElem h]; rfl)
example := C43_int_curves 1 (by norm_num)
example := C45_almost ⟨1 / 10, false, 1 / 10, false, 1 / 100⟩ (fun _ _ => []) 9 false (⟨0, false, [![0, 0], ![2, 2]]⟩ : GCurve 2 ℝ) ⟨⟨![0, 2], ![2, 0]⟩, none⟩
example := C46_results F_EPS ⟨1 / 10, false, 1 / 10, false, 1 / 100⟩ (fun _ _ => []) 9 false (.curve (⟨0, false, [![0, 0], ![2, 2]]⟩ : GCurve 2 ℝ))
  (.seg ⟨⟨![0, 2], ![2, 0]⟩, none⟩) _ (.inl rfl)

end Verif.Props
