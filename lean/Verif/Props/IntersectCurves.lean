import Verif.Props.Intersect
import Verif.Lemmas.Pairs

/-!
Intersection of curves (C40-C43, C45) and consistency of intersection results (C46, C48).
-/
namespace Verif.Props

open Verif Verif.Model Verif.Spec

section
variable {K : Type} [Field K] [LinearOrder K] [IsStrictOrderedRing K] {n : Nat}

/-- Data of a result matches its type. -/
def Matches (i : Info n K) : Prop :=
  match i.type, i.data with
  | .none, .none => True
  | .exact, .point _ => True
  | .overlap, .segment _ => True
  | .almost, .segment _ => True
  | _, _ => False

theorem exactSegments_ok (feps : K) (s r : Seg n K) : ∃ i, exactSegments feps s r = .ok i ∧ Matches i := by
  rcases exactSegments_cases feps s r with ⟨_, h⟩ | ⟨_, h⟩ | ⟨_, x, y, _, _, _, h⟩
  · cases ho : s.overlap r false with
    | none => rw [ho] at h; exact ⟨_, h, trivial⟩
    | some o => rw [ho] at h; exact ⟨_, h, trivial⟩
  · exact ⟨_, h, trivial⟩
  · exact ⟨_, h, trivial⟩

/-! ## C40 -/

theorem between_coord {a b p : Vec n K} (h : Between a b p) (i : Fin n) : min (a i) (b i) ≤ p i ∧ p i ≤ max (a i) (b i) := by
  obtain ⟨x, h0, h1, rfl⟩ := h
  simp only [Pi.add_apply, Pi.smul_apply, Pi.sub_apply, smul_eq_mul]
  rcases le_total (a i) (b i) with h | h
  · rw [min_eq_left h, max_eq_right h]; constructor <;> nlinarith
  · rw [min_eq_right h, max_eq_left h]; constructor <;> nlinarith

theorem closeK_refl_self (x : K) : closeK x x = true := by simp [closeK, atol, rtol]; positivity

theorem bboxEntry_of_meet (s r : Seg n K) (h : Meet s.p1 s.p2 r.p1 r.p2) : bboxEntry s r = true := by
  obtain ⟨p, h1, h2⟩ := h
  unfold bboxEntry
  rw [decide_eq_true_iff]
  intro i
  have a := between_coord h1 i
  have b := between_coord h2 i
  constructor
  · rcases (a.1.trans b.2).lt_or_eq with h | h
    · exact .inl h
    · rw [h]; exact .inr (closeK_refl_self _)
  · rcases (b.1.trans a.2).lt_or_eq with h | h
    · exact .inl h
    · rw [h]; exact .inr (closeK_refl_self _)

/-- **C40.** Bounding boxes never discard a pair of segments with a common point: for two different curve objects every
such pair is examined; for one object with itself every such pair with j ≥ i + 2. -/
theorem C40_pruning (c1 c2 : GCurve n K) (i j : Nat) (hi : i + 1 < c1.data.length) (hj : j + 1 < c2.data.length)
    (h : Meet c1.data[i] c1.data[i + 1] c2.data[j] c2.data[j + 1]) :
    (c1.cid ≠ c2.cid → (i, j) ∈ bboxPairs c1 c2) ∧ (c2 = c1 → i + 2 ≤ j → (i, j) ∈ bboxPairs c1 c2) := by
  have key : bboxEntry (c1.segment i).seg (c2.segment j).seg = true := by
    apply bboxEntry_of_meet
    rw [segment_eq c1 i hi, segment_eq c2 j hj]; exact h
  have hne : ¬ (c1.data.length = 0 ∨ c2.data.length = 0) := by omega
  constructor
  · intro hid
    unfold bboxPairs
    simp only [if_neg hne, decide_eq_false (Ne.symm hid), Bool.false_eq_true, if_false]
    rw [mem_curvesIndices]
    exact ⟨by simp only [GCurve.numSegs]; omega, by simp only [GCurve.numSegs]; omega, key, by simp⟩
  · rintro rfl hij
    unfold bboxPairs
    simp only [if_neg hne, decide_true, if_true]
    rw [mem_curvesIndices]
    exact ⟨by simp only [GCurve.numSegs]; omega, by simp only [GCurve.numSegs]; omega, key, fun _ => hij⟩

theorem mem_bboxPairs {c1 c2 : GCurve n K} {p : Nat × Nat} (h : p ∈ bboxPairs c1 c2) (hc : c2.cid = c1.cid → c2 = c1) :
    p.1 + 1 < c1.data.length ∧ p.2 + 1 < c2.data.length ∧ (c2 = c1 → p.1 + 2 ≤ p.2) := by
  unfold bboxPairs at h
  simp only at h
  split_ifs at h with h0 h1
  · simp at h
  · rw [mem_curvesIndices] at h
    have e := hc (by simpa using h1)
    subst e
    simp only [GCurve.numSegs] at h
    exact ⟨by omega, by omega, fun _ => h.2.2.2 (by simp)⟩
  · rw [mem_curvesIndices] at h
    simp only [GCurve.numSegs] at h
    have : c2 ≠ c1 := by rintro rfl; simp at h1
    exact ⟨by omega, by omega, fun e => absurd e this⟩

theorem bboxPairs_nil {c1 c2 : GCurve n K} (h : c1.data.length = 0 ∨ c2.data.length = 0) : bboxPairs c1 c2 = [] := by
  unfold bboxPairs
  simp only [if_pos h]

theorem bboxPairs_before (c1 c2 : GCurve n K) : (bboxPairs c1 c2).Pairwise Before := by
  unfold bboxPairs
  simp only
  split_ifs
  · exact .nil
  · exact curvesIndices_before _ _ _ _
  · exact curvesIndices_before _ _ _ _

/-! ## C41, C42 -/

/-- The exact method on two curves, before the identities are looked at. -/
theorem exactCurves_spec (feps : K) (c1 c2 : GCurve n K) :
    ∃ (info : Nat → Nat → Info n K),
      (∀ i j, exactSegments feps (c1.segment i).seg (c2.segment j).seg = .ok (info i j) ∧ Matches (info i j)) ∧
      exactCurves feps c1 c2 = .ok (((bboxPairs c1 c2).filter fun p => decide ((info p.1 p.2).type ≠ .none)).map fun p =>
        ⟨c1.segment p.1, c2.segment p.2, info p.1 p.2⟩) := by
  choose g hg using exactSegments_ok (n := n) feps
  refine ⟨fun i j => g (c1.segment i).seg (c2.segment j).seg, fun i j => hg _ _, ?_⟩
  unfold exactCurves
  exact collect_ok (g := fun s r => g s.seg r.seg) (fun s r => (hg s.seg r.seg).1) c1 c2 _

/-- The call of the exact method (`intersect(obj1, obj2, method='exact')`). -/
noncomputable def exactCall (feps : K) (fresh : Nat) (int : Bool) (o1 o2 : Obj n K) : Except PyErr (Result n K) :=
  methodCall (fun s r => exactSegments feps s.seg r.seg) (exactCurves feps) fresh int o1 o2

theorem exactCall_curves (feps : K) (fresh : Nat) (int : Bool) (c1 c2 : GCurve n K) :
    ∃ xs, exactCurves feps c1 c2 = .ok xs ∧ exactCall feps fresh int (.curve c1) (.curve c2) = .ok (.list xs) := by
  obtain ⟨info, h, he⟩ := exactCurves_spec feps c1 c2
  refine ⟨_, he, ?_⟩
  unfold exactCall methodCall
  simp only [he, bind, Except.bind]
  split_ifs with h0
  · rw [bboxPairs_nil h0]; rfl
  · rfl

/-- **C41.** The intersection of two different curve objects by the exact method is a list with one entry for each index
pair of a row-major list without repetitions. Every entry names the two curve segments and carries the result of
intersecting them, which is not NONE. Every pair of segments with a common point whose own intersection is not NONE is
in the list. -/
theorem C41_row_major (feps : K) (fresh : Nat) (int : Bool) (c1 c2 : GCurve n K) (hid : c1.cid ≠ c2.cid) :
    ∃ (idx : List (Nat × Nat)) (info : Nat → Nat → Info n K),
      exactCall feps fresh int (.curve c1) (.curve c2) =
        .ok (.list (idx.map fun p => ⟨c1.segment p.1, c2.segment p.2, info p.1 p.2⟩)) ∧
      idx.Pairwise Before ∧ idx.Nodup ∧
      (∀ (i j : Nat) (hi : i + 1 < c1.data.length) (hj : j + 1 < c2.data.length),
        c1.segment i = ⟨⟨c1.data[i], c1.data[i + 1]⟩, some (c1.cid, i)⟩ ∧
        c2.segment j = ⟨⟨c2.data[j], c2.data[j + 1]⟩, some (c2.cid, j)⟩ ∧
        exactSegments feps ⟨c1.data[i], c1.data[i + 1]⟩ ⟨c2.data[j], c2.data[j + 1]⟩ = .ok (info i j) ∧
        ((i, j) ∈ idx → (info i j).type ≠ .none) ∧
        (Meet c1.data[i] c1.data[i + 1] c2.data[j] c2.data[j + 1] → (info i j).type ≠ .none → (i, j) ∈ idx)) ∧
      ∀ p ∈ idx, p.1 + 1 < c1.data.length ∧ p.2 + 1 < c2.data.length := by
  obtain ⟨info, h, he⟩ := exactCurves_spec feps c1 c2
  obtain ⟨xs, hxs, hcall⟩ := exactCall_curves feps fresh int c1 c2
  have hb := (bboxPairs_before c1 c2).sublist (List.filter_sublist (p := fun p => decide ((info p.1 p.2).type ≠ .none)))
  refine ⟨(bboxPairs c1 c2).filter fun p => decide ((info p.1 p.2).type ≠ .none), info, ?_, hb, before_nodup hb, ?_, ?_⟩
  · rw [hcall]; rw [he] at hxs; injection hxs with e; rw [e]
  · intro i j hi hj
    have hh := (h i j).1
    rw [segment_eq c1 i hi, segment_eq c2 j hj] at hh
    refine ⟨segment_eq c1 i hi, segment_eq c2 j hj, hh, ?_, ?_⟩
    · intro hm; simpa using (List.mem_filter.1 hm).2
    · intro hm ht
      exact List.mem_filter.2 ⟨(C40_pruning c1 c2 i j hi hj hm).1 hid, by simpa using ht⟩
  · intro p hp
    have := mem_bboxPairs (List.mem_filter.1 hp).1 (fun e => absurd e.symm hid)
    exact ⟨this.1, this.2.1⟩

/-- **C42.** The self-intersection of a curve object by the exact method: the index pairs have j ≥ i + 2, are listed in
row-major order and without repetition; no pair of non-adjacent segments with a common point, whose own intersection
is not NONE, is missing. -/
theorem C42_self (feps : K) (fresh : Nat) (int : Bool) (c : GCurve n K) :
    ∃ (idx : List (Nat × Nat)) (info : Nat → Nat → Info n K),
      exactCall feps fresh int (.curve c) (.curve c) =
        .ok (.list (idx.map fun p => ⟨c.segment p.1, c.segment p.2, info p.1 p.2⟩)) ∧
      idx.Pairwise Before ∧ idx.Nodup ∧
      (∀ (i j : Nat) (hi : i + 1 < c.data.length) (hj : j + 1 < c.data.length),
        exactSegments feps ⟨c.data[i], c.data[i + 1]⟩ ⟨c.data[j], c.data[j + 1]⟩ = .ok (info i j) ∧
        ((i, j) ∈ idx → (info i j).type ≠ .none) ∧
        (i + 2 ≤ j → Meet c.data[i] c.data[i + 1] c.data[j] c.data[j + 1] → (info i j).type ≠ .none → (i, j) ∈ idx)) ∧
      ∀ p ∈ idx, p.1 + 2 ≤ p.2 ∧ p.2 + 1 < c.data.length := by
  obtain ⟨info, h, he⟩ := exactCurves_spec feps c c
  obtain ⟨xs, hxs, hcall⟩ := exactCall_curves feps fresh int c c
  have hb := (bboxPairs_before c c).sublist (List.filter_sublist (p := fun p => decide ((info p.1 p.2).type ≠ .none)))
  refine ⟨(bboxPairs c c).filter fun p => decide ((info p.1 p.2).type ≠ .none), info, ?_, hb, before_nodup hb, ?_, ?_⟩
  · rw [hcall]; rw [he] at hxs; injection hxs with e; rw [e]
  · intro i j hi hj
    have hh := (h i j).1
    rw [segment_eq c i hi, segment_eq c j hj] at hh
    refine ⟨hh, ?_, ?_⟩
    · intro hm; simpa using (List.mem_filter.1 hm).2
    · intro hij hm ht
      exact List.mem_filter.2 ⟨(C40_pruning c c i j hi hj hm).2 rfl hij, by simpa using ht⟩
  · intro p hp
    have := mem_bboxPairs (List.mem_filter.1 hp).1 (fun _ => rfl)
    exact ⟨this.2.2 rfl, this.2.1⟩

/-- **C42 (equal copy).** A curve intersected with an equal but distinct object: every pair of segments with a common
point is examined, in particular each segment with itself and with its neighbours. -/
theorem C42_copy (c c' : GCurve n K) (hid : c.cid ≠ c'.cid) (hd : c'.data = c.data) (i : Nat) (hi : i + 1 < c.data.length) :
    (i, i) ∈ bboxPairs c c' ∧ (i + 2 < c.data.length → (i, i + 1) ∈ bboxPairs c c' ∧ (i + 1, i) ∈ bboxPairs c c') := by
  have first : ∀ a b : Vec n K, Between a b a := fun a b => ⟨0, le_refl _, zero_le_one, by simp⟩
  have second : ∀ a b : Vec n K, Between a b b := fun a b => ⟨1, zero_le_one, le_refl _, by simp⟩
  have hlen : c'.data.length = c.data.length := by rw [hd]
  refine ⟨(C40_pruning c c' i i hi (by omega) ?_).1 hid, fun h2 => ⟨(C40_pruning c c' i (i + 1) hi (by omega) ?_).1 hid,
    (C40_pruning c c' (i + 1) i (by omega) (by omega) ?_).1 hid⟩⟩
  · simp only [hd]; exact ⟨_, first _ _, first _ _⟩
  · simp only [hd]; exact ⟨_, second _ _, first _ _⟩
  · simp only [hd]; exact ⟨_, first _ _, second _ _⟩

/-! ## C45 -/

theorem mixed1 {segs : SegObj n K → SegObj n K → Except PyErr (Info n K)}
    {curves : GCurve n K → GCurve n K → Except PyErr (List (SegInt n K))} {fresh : Nat} {int : Bool} {c : GCurve n K}
    {s : SegObj n K} {xs : List (SegInt n K)} (hxs : curves c ⟨fresh, int, [s.seg.p1, s.seg.p2]⟩ = .ok xs)
    (h0 : c.data.length = 0 → xs = []) :
    methodCall segs curves fresh int (.curve c) (.seg s) = .ok (.list (xs.map fun x => ⟨x.seg1, s, x.info⟩)) := by
  unfold methodCall
  simp only [SegObj.toCurve, hxs, bind, Except.bind]
  by_cases h : c.data.length = 0
  · simp [h, h0 h]
  · rw [if_neg (by simp [h])]; rfl

theorem mixed2 {segs : SegObj n K → SegObj n K → Except PyErr (Info n K)}
    {curves : GCurve n K → GCurve n K → Except PyErr (List (SegInt n K))} {fresh : Nat} {int : Bool} {c : GCurve n K}
    {s : SegObj n K} {xs : List (SegInt n K)} (hxs : curves ⟨fresh, int, [s.seg.p1, s.seg.p2]⟩ c = .ok xs)
    (h0 : c.data.length = 0 → xs = []) :
    methodCall segs curves fresh int (.seg s) (.curve c) = .ok (.list (xs.map fun x => ⟨s, x.seg2, x.info⟩)) := by
  unfold methodCall
  simp only [SegObj.toCurve, hxs, bind, Except.bind]
  by_cases h : c.data.length = 0
  · simp [h, h0 h]
  · rw [if_neg (by simp [h])]; rfl

/-- The index pairs whose second index is 0, as a list of first indices. -/
theorem pairs_fst {pairs : List (Nat × Nat)} (hz : ∀ p ∈ pairs, p.2 = 0) :
    (∀ {β : Type} (f : Nat × Nat → β), pairs.map f = (pairs.map Prod.fst).map fun i => f (i, 0)) ∧
    (pairs.Pairwise Before → (pairs.map Prod.fst).Pairwise (· < ·)) := by
  constructor
  · intro β f
    rw [List.map_map]
    apply List.map_congr_left
    intro p hp
    simp only [Function.comp]
    rw [← hz p hp]
  · intro hb
    rw [List.pairwise_map]
    refine (List.pairwise_iff_forall_sublist.2 ?_)
    intro p q hpq
    have := List.pairwise_iff_forall_sublist.1 hb hpq
    have hp := hz p (hpq.subset (by simp))
    have hq := hz q (hpq.subset (by simp))
    unfold Before at this
    omega

theorem pairs_snd {pairs : List (Nat × Nat)} (hz : ∀ p ∈ pairs, p.1 = 0) :
    (∀ {β : Type} (f : Nat × Nat → β), pairs.map f = (pairs.map Prod.snd).map fun i => f (0, i)) ∧
    (pairs.Pairwise Before → (pairs.map Prod.snd).Pairwise (· < ·)) := by
  constructor
  · intro β f
    rw [List.map_map]
    apply List.map_congr_left
    intro p hp
    simp only [Function.comp]
    rw [← hz p hp]
  · intro hb
    rw [List.pairwise_map]
    refine (List.pairwise_iff_forall_sublist.2 ?_)
    intro p q hpq
    have := List.pairwise_iff_forall_sublist.1 hb hpq
    have hp := hz p (hpq.subset (by simp))
    have hq := hz q (hpq.subset (by simp))
    unfold Before at this
    omega

/-- **C45 (curve, segment; exact method).** Every reported intersection names a segment of the curve first and the given
segment second, and its info is the result of intersecting the two; up to the name of the second segment, the list is
the intersection with the two-point curve of the segment. `fresh` is the identity of that temporary curve. -/
theorem C45_curve_segment (feps : K) (fresh : Nat) (int : Bool) (c : GCurve n K) (s : SegObj n K) (hf : fresh ≠ c.cid) :
    ∃ (idx : List Nat) (info : Nat → Info n K),
      exactCall feps fresh int (.curve c) (.seg s) = .ok (.list (idx.map fun i => ⟨c.segment i, s, info i⟩)) ∧
      exactCall feps fresh int (.curve c) (.curve ⟨fresh, int, [s.seg.p1, s.seg.p2]⟩) =
        .ok (.list (idx.map fun i => ⟨c.segment i, ⟨s.seg, some (fresh, 0)⟩, info i⟩)) ∧
      idx.Pairwise (· < ·) ∧
      (∀ i ∈ idx, i + 1 < c.data.length) ∧
      (∀ i, exactSegments feps (c.segment i).seg s.seg = .ok (info i)) ∧
      (∀ (i : Nat) (hi : i + 1 < c.data.length), Meet c.data[i] c.data[i + 1] s.seg.p1 s.seg.p2 → (info i).type ≠ .none → i ∈ idx) := by
  set d : GCurve n K := ⟨fresh, int, [s.seg.p1, s.seg.p2]⟩ with hd
  obtain ⟨info, h, he⟩ := exactCurves_spec feps c d
  obtain ⟨xs, hxs, hcall⟩ := exactCall_curves feps fresh int c d
  set pairs := (bboxPairs c d).filter fun p => decide ((info p.1 p.2).type ≠ .none) with hpairs
  have hb : pairs.Pairwise Before := (bboxPairs_before c d).sublist List.filter_sublist
  have hz : ∀ p ∈ pairs, p.2 = 0 ∧ p.1 + 1 < c.data.length := by
    intro p hp
    have := mem_bboxPairs (List.mem_filter.1 hp).1 (fun e => absurd e hf)
    simp only [hd, List.length_cons, List.length_nil] at this
    omega
  have hseg : d.segment 0 = ⟨s.seg, some (fresh, 0)⟩ := by
    rw [segment_eq d 0 (by simp [hd])]; rfl
  obtain ⟨hmap, hlt⟩ := pairs_fst fun p hp => (hz p hp).1
  refine ⟨pairs.map Prod.fst, fun i => info i 0, ?_, ?_, hlt hb, ?_, ?_, ?_⟩
  · unfold exactCall
    rw [mixed1 he, List.map_map, hmap]
    · rfl
    · intro h0
      rw [hpairs, bboxPairs_nil (.inl h0)]; rfl
  · rw [hcall]
    rw [he] at hxs
    injection hxs with e
    rw [← e, hmap]
    simp only [hseg]
  · intro i hi
    obtain ⟨p, hp, rfl⟩ := List.mem_map.1 hi
    exact (hz p hp).2
  · intro i
    have := (h i 0).1
    rw [hseg] at this
    exact this
  · intro i hi hm ht
    have := (C40_pruning c d i 0 hi (by simp [hd]) hm).1 (Ne.symm hf)
    exact List.mem_map.2 ⟨(i, 0), List.mem_filter.2 ⟨this, by simpa using ht⟩, rfl⟩

/-- **C45 (segment, curve; exact method).** The same with the segment first. -/
theorem C45_segment_curve (feps : K) (fresh : Nat) (int : Bool) (c : GCurve n K) (s : SegObj n K) (hf : fresh ≠ c.cid) :
    ∃ (idx : List Nat) (info : Nat → Info n K),
      exactCall feps fresh int (.seg s) (.curve c) = .ok (.list (idx.map fun i => ⟨s, c.segment i, info i⟩)) ∧
      exactCall feps fresh int (.curve ⟨fresh, int, [s.seg.p1, s.seg.p2]⟩) (.curve c) =
        .ok (.list (idx.map fun i => ⟨⟨s.seg, some (fresh, 0)⟩, c.segment i, info i⟩)) ∧
      idx.Pairwise (· < ·) ∧
      (∀ i ∈ idx, i + 1 < c.data.length) ∧
      (∀ i, exactSegments feps s.seg (c.segment i).seg = .ok (info i)) ∧
      (∀ (i : Nat) (hi : i + 1 < c.data.length), Meet s.seg.p1 s.seg.p2 c.data[i] c.data[i + 1] → (info i).type ≠ .none → i ∈ idx) := by
  set d : GCurve n K := ⟨fresh, int, [s.seg.p1, s.seg.p2]⟩ with hd
  obtain ⟨info, h, he⟩ := exactCurves_spec feps d c
  obtain ⟨xs, hxs, hcall⟩ := exactCall_curves feps fresh int d c
  set pairs := (bboxPairs d c).filter fun p => decide ((info p.1 p.2).type ≠ .none) with hpairs
  have hb : pairs.Pairwise Before := (bboxPairs_before d c).sublist List.filter_sublist
  have hz : ∀ p ∈ pairs, p.1 = 0 ∧ p.2 + 1 < c.data.length := by
    intro p hp
    have := mem_bboxPairs (List.mem_filter.1 hp).1 (fun e => absurd e.symm hf)
    simp only [hd, List.length_cons, List.length_nil] at this
    omega
  have hseg : d.segment 0 = ⟨s.seg, some (fresh, 0)⟩ := by
    rw [segment_eq d 0 (by simp [hd])]; rfl
  obtain ⟨hmap, hlt⟩ := pairs_snd fun p hp => (hz p hp).1
  refine ⟨pairs.map Prod.snd, fun i => info 0 i, ?_, ?_, hlt hb, ?_, ?_, ?_⟩
  · unfold exactCall
    rw [mixed2 he, List.map_map, hmap]
    · rfl
    · intro h0
      rw [hpairs, bboxPairs_nil (.inr h0)]; rfl
  · rw [hcall]
    rw [he] at hxs
    injection hxs with e
    rw [← e, hmap]
    simp only [hseg]
  · intro i hi
    obtain ⟨p, hp, rfl⟩ := List.mem_map.1 hi
    exact (hz p hp).2
  · intro i
    have := (h 0 i).1
    rw [hseg] at this
    exact this
  · intro i hi hm ht
    have := (C40_pruning d c 0 i (by simp [hd]) hi hm).1 hf
    exact List.mem_map.2 ⟨(0, i), List.mem_filter.2 ⟨this, by simpa using ht⟩, rfl⟩

/-! ## C46, C48 -/

/-- **C46 (accessors).** For a result whose data matches its type: it is false exactly when the type is NONE, exactly when
`intersect_point` is None, exactly when `intersect_segment` is None; for EXACT `intersect_segment` is the singular segment
at `intersect_point`; for OVERLAP and ALMOST `intersect_point` is the middle of `intersect_segment`. No accessor
fails. -/
theorem C46_accessors (x : SegInt n K) (h : Matches x.info) :
    (x.bool = false ↔ x.info.type = .none) ∧
    (x.bool = false ↔ x.point = .ok .none) ∧
    (x.bool = false ↔ x.segment = .ok .none) ∧
    (x.info.type = .exact → ∃ p, x.point = .ok (.point p) ∧ x.segment = .ok (.segment ⟨p, p⟩)) ∧
    (x.info.type = .overlap ∨ x.info.type = .almost →
      ∃ s, x.segment = .ok (.segment s) ∧ x.point = .ok (.point ((1 / 2 : K) • (s.p1 + s.p2)))) := by
  obtain ⟨s1, s2, d, t⟩ := x
  have mid : ∀ s : Seg n K, s.point (1 / 2) = (1 / 2 : K) • (s.p1 + s.p2) := by
    intro s; funext i; simp [Seg.point, Seg.direction]; ring
  cases t <;> cases d <;> simp_all [Matches, SegInt.bool, SegInt.point, SegInt.segment]

/-- **C48 (partial).** EXACT accepts exactly points, OVERLAP and ALMOST exactly segments, everything else is a ValueError,
and the info carries the data and the type. For NONE the call fails for every data a caller would pass; the only
accepted object is the class `IntersectionType` itself. Missing: NONE() should be accepted. -/
theorem C48_call_partial (d : IData n K) :
    (IType.exact.call d = match d with | .point p => .ok ⟨.point p, .exact⟩ | _ => .error .valueError) ∧
    (IType.overlap.call d = match d with | .segment s => .ok ⟨.segment s, .overlap⟩ | _ => .error .valueError) ∧
    (IType.almost.call d = match d with | .segment s => .ok ⟨.segment s, .almost⟩ | _ => .error .valueError) ∧
    (IType.none.call d = match d with | .typeClass => .ok ⟨.typeClass, .none⟩ | _ => .error .valueError) := by
  cases d <;> simp [IType.call, IData.isPoint, IData.isSegment, IData.isTypeClass]

/-- **C48 (witness).** `IntersectionType.NONE()` raises a ValueError although its data is None; `NONE(IntersectionType)`
builds an info. -/
theorem C48_none_fails :
    IType.none.call (.none : IData n K) = .error .valueError ∧
    IType.none.call (.typeClass : IData n K) = .ok ⟨.typeClass, .none⟩ := by
  simp [IType.call, IData.isTypeClass]

end

/-! ## Examples -/

theorem bow_meet : Meet ![(0 : ℚ), 0] ![2, 2] ![2, 0] ![0, 2] :=
  ⟨![1, 1], ⟨1 / 2, by norm_num, by norm_num, by funext i; fin_cases i <;> norm_num⟩,
    ⟨1 / 2, by norm_num, by norm_num, by funext i; fin_cases i <;> norm_num⟩⟩

theorem bow_exact : exactSegments (F_EPS : ℚ) ⟨![0, 0], ![2, 2]⟩ ⟨![2, 0], ![0, 2]⟩ = .ok ⟨.point ![1, 1], .exact⟩ := by
  apply C38_crossing_partial
  · exact ⟨1 / 2, by norm_num, by norm_num, by funext i; fin_cases i <;> norm_num⟩
  · exact ⟨1 / 2, by norm_num, by norm_num, by funext i; fin_cases i <;> norm_num⟩
  · simp [gram, Fin.sum_univ_two]; norm_num
  · intro h; have := h 0; norm_num [abs_le] at this
  · intro h; have := h 0; norm_num [abs_le] at this
  · rintro ⟨h1, h2⟩
    have := h1 0; norm_num [abs_le] at this
  · rintro ⟨h1, h2⟩
    have := h1 1; norm_num [abs_le] at this

/-- The bow tie (0,0)-(2,2)-(2,0)-(0,2): the pair (0, 2) is reported with the point (1,1) (C40, C42). -/
example : let c : GCurve 2 ℚ := ⟨0, false, [![0, 0], ![2, 2], ![2, 0], ![0, 2]]⟩
    ∃ xs, exactCall F_EPS 1 false (.curve c) (.curve c) = .ok (.list xs) ∧
      ⟨c.segment 0, c.segment 2, ⟨.point ![1, 1], .exact⟩⟩ ∈ xs := by
  intro c
  obtain ⟨idx, info, h, _, _, h2, _⟩ := C42_self (F_EPS : ℚ) 1 false c
  obtain ⟨e, _, h4⟩ := h2 0 2 (by simp [c]) (by simp [c])
  have e' : info 0 2 = ⟨.point ![1, 1], .exact⟩ := by
    have : exactSegments (F_EPS : ℚ) ⟨![0, 0], ![2, 2]⟩ ⟨![2, 0], ![0, 2]⟩ = .ok (info 0 2) := e
    rw [bow_exact] at this
    injection this with this
    exact this.symm
  refine ⟨_, h, List.mem_map.2 ⟨(0, 2), h4 (by omega) bow_meet (by rw [e']; simp), ?_⟩⟩
  simp only [e']

/-- Two curves with a common point (C40, C41), and a curve with a segment (C45). -/
example : let c : GCurve 2 ℚ := ⟨0, false, [![0, 0], ![2, 2]]⟩
    let d : GCurve 2 ℚ := ⟨1, false, [![5, 5], ![2, 0], ![0, 2]]⟩
    let s : SegObj 2 ℚ := ⟨⟨![2, 0], ![0, 2]⟩, none⟩
    (∃ xs, exactCall F_EPS 2 false (.curve c) (.curve d) = .ok (.list xs) ∧
      ⟨c.segment 0, d.segment 1, ⟨.point ![1, 1], .exact⟩⟩ ∈ xs) ∧
    (∃ xs, exactCall F_EPS 2 false (.curve c) (.seg s) = .ok (.list xs) ∧ ⟨c.segment 0, s, ⟨.point ![1, 1], .exact⟩⟩ ∈ xs) := by
  intro c d s
  constructor
  · obtain ⟨idx, info, h, _, _, h2, _⟩ := C41_row_major (F_EPS : ℚ) 2 false c d (by simp [c, d])
    obtain ⟨_, _, e, _, h4⟩ := h2 0 1 (by simp [c]) (by simp [d])
    have e' : info 0 1 = ⟨.point ![1, 1], .exact⟩ := by
      have : exactSegments (F_EPS : ℚ) ⟨![0, 0], ![2, 2]⟩ ⟨![2, 0], ![0, 2]⟩ = .ok (info 0 1) := e
      rw [bow_exact] at this
      injection this with this
      exact this.symm
    refine ⟨_, h, List.mem_map.2 ⟨(0, 1), h4 bow_meet (by rw [e']; simp), ?_⟩⟩
    simp only [e']
  · obtain ⟨idx, info, h, _, _, _, e, h4⟩ := C45_curve_segment (F_EPS : ℚ) 2 false c s (by simp [c])
    have e' : info 0 = ⟨.point ![1, 1], .exact⟩ := by
      have := e 0
      rw [segment_eq c 0 (by simp [c])] at this
      have : exactSegments (F_EPS : ℚ) ⟨![0, 0], ![2, 2]⟩ ⟨![2, 0], ![0, 2]⟩ = .ok (info 0) := this
      rw [bow_exact] at this
      injection this with this
      exact this.symm
    refine ⟨_, h, List.mem_map.2 ⟨0, h4 0 (by simp [c]) bow_meet (by rw [e']; simp), ?_⟩⟩
    simp only [e']

/-- The equal copy of a curve with three points (C42). -/
example : ((0, 1) : Nat × Nat) ∈ bboxPairs (⟨0, false, [![0, 0], ![1, 2], ![3, 1]]⟩ : GCurve 2 ℚ) ⟨1, false, [![0, 0], ![1, 2], ![3, 1]]⟩ :=
  ((C42_copy ⟨0, false, [![0, 0], ![1, 2], ![3, 1]]⟩ ⟨1, false, [![0, 0], ![1, 2], ![3, 1]]⟩ (by simp) rfl 0 (by simp)).2 (by simp)).1

/-- A result of type EXACT meets the hypothesis of C46. -/
example : ∃ p, (⟨⟨⟨![0, 0], ![2, 2]⟩, none⟩, ⟨⟨![2, 0], ![0, 2]⟩, none⟩, ⟨.point ![1, 1], .exact⟩⟩ : SegInt 2 ℚ).segment =
    .ok (.segment ⟨p, p⟩) := by
  obtain ⟨p, _, h⟩ := (C46_accessors (⟨⟨⟨![0, 0], ![2, 2]⟩, none⟩, ⟨⟨![2, 0], ![0, 2]⟩, none⟩, ⟨.point ![1, 1], .exact⟩⟩ : SegInt 2 ℚ)
    trivial).2.2.2.1 rfl
  exact ⟨p, h⟩

/-! ## Concrete cases -/

example := (C40_pruning (⟨0, false, [![0, 0], ![2, 2]]⟩ : GCurve 2 ℚ) ⟨1, false, [![0, 2], ![2, 0], ![5, 5]]⟩ 0 0 (by simp) (by simp)
  ⟨![1, 1], ⟨1 / 2, by norm_num, by norm_num, by ext i; fin_cases i <;> simp⟩, ⟨1 / 2, by norm_num, by norm_num, by ext i; fin_cases i <;> norm_num⟩⟩).1 (by simp)
example := C45_segment_curve F_EPS 9 false (⟨0, false, [![0, 0], ![2, 2]]⟩ : GCurve 2 ℚ) ⟨⟨![0, 2], ![2, 0]⟩, none⟩ (by simp)

end Verif.Props
