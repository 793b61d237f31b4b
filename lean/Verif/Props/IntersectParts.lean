import Verif.Props.IntersectMore

/-!
Intersections of parts of curves, of curves that are apart, and of graphs (C113).
-/
namespace Verif.Props

open Verif Verif.Model Verif.Spec

theorem before_ext {l₁ l₂ : List (Nat × Nat)} (h1 : l₁.Pairwise Before) (h2 : l₂.Pairwise Before) (h : ∀ p, p ∈ l₁ ↔ p ∈ l₂) :
    l₁ = l₂ := (before_sublist h1 h2 fun p hp => (h p).1 hp).antisymm (before_sublist h2 h1 fun p hp => (h p).2 hp)

section
variable {K : Type} [Field K] [LinearOrder K] [IsStrictOrderedRing K] {n : Nat}

/-- The points of `part` are those of `c` from number `a` on. -/
def PartOf (part c : GCurve n K) (a : Nat) : Prop :=
  a + part.data.length ≤ c.data.length ∧ ∀ i < part.data.length, part.data[i]? = c.data[a + i]?

/-- The pairs of segments that belong to parts from `a` with `m` points and from `b` with `k` points. -/
def inParts (a m b k : Nat) (q : Nat × Nat) : Bool := decide (a ≤ q.1 ∧ q.1 + 1 < a + m ∧ b ≤ q.2 ∧ q.2 + 1 < b + k)

omit [LinearOrder K] [IsStrictOrderedRing K] in
theorem PartOf.row {part c : GCurve n K} {a i : Nat} (h : PartOf part c a) (hi : i < part.data.length) :
    rowAt part.data i = rowAt c.data (a + i) := by
  unfold rowAt
  rw [List.getD_eq_getElem?_getD, List.getD_eq_getElem?_getD, h.2 i hi]

omit [LinearOrder K] [IsStrictOrderedRing K] in
theorem PartOf.seg {part c : GCurve n K} {a i : Nat} (h : PartOf part c a) (hi : i + 1 < part.data.length) :
    (part.segment i).seg = (c.segment (a + i)).seg := by
  unfold GCurve.segment
  simp only [h.row (show i < _ by omega), h.row hi, Nat.add_assoc]

theorem mem_bboxPairs_iff {c1 c2 : GCurve n K} (hc : c2.cid = c1.cid → c2 = c1) {p : Nat × Nat} :
    p ∈ bboxPairs c1 c2 ↔ p.1 + 1 < c1.data.length ∧ p.2 + 1 < c2.data.length ∧
      bboxEntry (c1.segment p.1).seg (c2.segment p.2).seg = true ∧ (c2.cid = c1.cid → p.1 + 2 ≤ p.2) := by
  unfold bboxPairs
  simp only
  split_ifs with h0 h1
  · simp only [List.not_mem_nil, false_iff]; omega
  · rw [mem_curvesIndices]
    have e : c2.cid = c1.cid := by simpa using h1
    rw [hc e]
    simp only [GCurve.numSegs, decide_true]
    constructor
    · rintro ⟨a, b, c, d⟩; exact ⟨by omega, by omega, c, fun _ => d trivial⟩
    · rintro ⟨a, b, c, d⟩; exact ⟨by omega, by omega, c, fun _ => d trivial⟩
  · rw [mem_curvesIndices]
    simp only [GCurve.numSegs, decide_eq_true_eq]
    constructor
    · rintro ⟨a, b, c, d⟩; exact ⟨by omega, by omega, c, d⟩
    · rintro ⟨a, b, c, d⟩; exact ⟨by omega, by omega, c, d⟩

/-- The pairs of the parts are the pairs of the whole curves, shifted. -/
theorem shifted_pairs {l l' : List (Nat × Nat)} (hl : l.Pairwise Before) (hl' : l'.Pairwise Before) {a m b k : Nat}
    (hb : ∀ q ∈ l', q.1 + 1 < m ∧ q.2 + 1 < k)
    (h : ∀ i j, i + 1 < m → j + 1 < k → ((i, j) ∈ l' ↔ (a + i, b + j) ∈ l)) :
    l' = (l.filter (inParts a m b k)).map fun q => (q.1 - a, q.2 - b) := by
  apply before_ext hl'
  · rw [List.pairwise_map]
    refine ((hl.sublist List.filter_sublist).imp_of_mem ?_)
    intro p q hp hq hpq
    have h1 := (List.mem_filter.1 hp).2
    have h2 := (List.mem_filter.1 hq).2
    simp only [inParts, decide_eq_true_eq] at h1 h2
    unfold Before at hpq ⊢
    simp only
    omega
  · rintro ⟨i, j⟩
    rw [List.mem_map]
    constructor
    · intro hp
      obtain ⟨h1, h2⟩ := hb _ hp
      simp only at h1 h2
      refine ⟨(a + i, b + j), List.mem_filter.2 ⟨(h i j h1 h2).1 hp, ?_⟩, by simp⟩
      simp only [inParts, decide_eq_true_eq]; omega
    · rintro ⟨⟨i', j'⟩, hq, e⟩
      obtain ⟨hq1, hq2⟩ := List.mem_filter.1 hq
      simp only [inParts, decide_eq_true_eq] at hq2
      simp only [Prod.mk.injEq] at e
      have e1 : a + i = i' := by omega
      have e2 : b + j = j' := by omega
      rw [h i j (by omega) (by omega), e1, e2]
      exact hq1

/-- The exact method on parts of two curves; the whole curves are the same object exactly if the parts are. -/
theorem exact_parts (feps : K) (fresh : Nat) (int : Bool) (c1 c2 p1 p2 : GCurve n K) (a b : Nat)
    (h1 : PartOf p1 c1 a) (h2 : PartOf p2 c2 b) (hc : c2.cid = c1.cid → c2 = c1) (hp : p2.cid = p1.cid → p2 = p1)
    (hs : (c2.cid = c1.cid ∧ a = b) ∧ p2.cid = p1.cid ∨ c2.cid ≠ c1.cid ∧ p2.cid ≠ p1.cid) :
    ∃ (idx : List (Nat × Nat)) (info : Nat → Nat → Info n K),
      exactCall feps fresh int (.curve c1) (.curve c2) =
        .ok (.list (idx.map fun q => ⟨c1.segment q.1, c2.segment q.2, info q.1 q.2⟩)) ∧
      exactCall feps fresh int (.curve p1) (.curve p2) =
        .ok (.list ((idx.filter (inParts a p1.data.length b p2.data.length)).map fun q =>
          ⟨p1.segment (q.1 - a), p2.segment (q.2 - b), info q.1 q.2⟩)) := by
  obtain ⟨info, hi, he⟩ := exactCurves_spec feps c1 c2
  obtain ⟨info', hi', he'⟩ := exactCurves_spec feps p1 p2
  obtain ⟨xs, hxs, hcall⟩ := exactCall_curves feps fresh int c1 c2
  obtain ⟨xs', hxs', hcall'⟩ := exactCall_curves feps fresh int p1 p2
  rw [he] at hxs; injection hxs with hxs
  rw [he'] at hxs'; injection hxs' with hxs'
  refine ⟨(bboxPairs c1 c2).filter fun p => decide ((info p.1 p.2).type ≠ .none), info, by rw [hcall, ← hxs], ?_⟩
  have hinfo : ∀ i j, i + 1 < p1.data.length → j + 1 < p2.data.length → info' i j = info (a + i) (b + j) := by
    intro i j hi1 hj1
    have e := (hi' i j).1
    rw [h1.seg hi1, h2.seg hj1, (hi (a + i) (b + j)).1] at e
    injection e with e; exact e.symm
  have hl1 := h1.1
  have hl2 := h2.1
  have hsh := shifted_pairs (a := a) (b := b) (m := p1.data.length) (k := p2.data.length)
    ((bboxPairs_before c1 c2).sublist (List.filter_sublist (p := fun p => decide ((info p.1 p.2).type ≠ .none))))
    ((bboxPairs_before p1 p2).sublist (List.filter_sublist (p := fun p => decide ((info' p.1 p.2).type ≠ .none))))
    (fun q hq => by
      have := (mem_bboxPairs_iff hp).1 (List.mem_of_mem_filter hq)
      exact ⟨this.1, this.2.1⟩)
    (fun i j hi1 hj1 => by
      rw [List.mem_filter, List.mem_filter, mem_bboxPairs_iff hp, mem_bboxPairs_iff hc]
      simp only [hinfo i j hi1 hj1, h1.seg hi1, h2.seg hj1]
      refine and_congr_left fun _ => ⟨fun h => ⟨by omega, by omega, h.2.2.1, ?_⟩, fun h => ⟨hi1, hj1, h.2.2.1, ?_⟩⟩
      · intro e
        rcases hs with ⟨⟨_, rfl⟩, e2⟩ | ⟨e1, _⟩
        · have := h.2.2.2 e2; omega
        · exact absurd e e1
      · intro e
        rcases hs with ⟨⟨e1, rfl⟩, _⟩ | ⟨_, e2⟩
        · have := h.2.2.2 e1; omega
        · exact absurd e e2)
  rw [hcall', ← hxs', hsh, List.map_map]
  congr 2
  apply List.map_congr_left
  rintro ⟨i, j⟩ hq
  have hr := (List.mem_filter.1 hq).2
  simp only [inParts, decide_eq_true_eq] at hr
  simp only [Function.comp]
  rw [hinfo (i - a) (j - b) (by omega) (by omega), Nat.add_sub_cancel' hr.1, Nat.add_sub_cancel' hr.2.2.1]

/-- **C113 (parts).** The exact method on contiguous parts of two different curves, all different objects: the intersections of the
curves, in the same order, whose segments belong to the parts. The segments are named in the parts. -/
theorem C113_parts (feps : K) (fresh : Nat) (int : Bool) (c1 c2 p1 p2 : GCurve n K) (a b : Nat)
    (h1 : PartOf p1 c1 a) (h2 : PartOf p2 c2 b) (hc : c2.cid ≠ c1.cid) (hp : p2.cid ≠ p1.cid) :
    ∃ (idx : List (Nat × Nat)) (info : Nat → Nat → Info n K),
      exactCall feps fresh int (.curve c1) (.curve c2) =
        .ok (.list (idx.map fun q => ⟨c1.segment q.1, c2.segment q.2, info q.1 q.2⟩)) ∧
      exactCall feps fresh int (.curve p1) (.curve p2) =
        .ok (.list ((idx.filter fun q => decide (a ≤ q.1 ∧ q.1 + 1 < a + p1.data.length ∧ b ≤ q.2 ∧ q.2 + 1 < b + p2.data.length)).map
          fun q => ⟨p1.segment (q.1 - a), p2.segment (q.2 - b), info q.1 q.2⟩)) :=
  exact_parts feps fresh int c1 c2 p1 p2 a b h1 h2 (fun h => absurd h hc) (fun h => absurd h hp) (.inr ⟨hc, hp⟩)

/-- **C113 (self).** The self-intersections of a contiguous part are the self-intersections of the curve between segments of the part. -/
theorem C113_self (feps : K) (fresh : Nat) (int : Bool) (c p : GCurve n K) (a : Nat) (h : PartOf p c a) :
    ∃ (idx : List (Nat × Nat)) (info : Nat → Nat → Info n K),
      exactCall feps fresh int (.curve c) (.curve c) =
        .ok (.list (idx.map fun q => ⟨c.segment q.1, c.segment q.2, info q.1 q.2⟩)) ∧
      exactCall feps fresh int (.curve p) (.curve p) =
        .ok (.list ((idx.filter fun q => decide (a ≤ q.1 ∧ q.1 + 1 < a + p.data.length ∧ a ≤ q.2 ∧ q.2 + 1 < a + p.data.length)).map
          fun q => ⟨p.segment (q.1 - a), p.segment (q.2 - a), info q.1 q.2⟩)) :=
  exact_parts feps fresh int c c p p a a h h (fun _ => rfl) (fun _ => rfl) (.inl ⟨⟨rfl, rfl⟩, rfl⟩)

/-- A part of two points of a curve of four points. -/
example : PartOf (⟨1, false, [![1, 0], ![1, 1]]⟩ : GCurve 2 ℚ) ⟨0, false, [![0, 0], ![1, 0], ![1, 1], ![0, 1]]⟩ 1 := by
  refine ⟨by decide, ?_⟩
  intro i hi
  simp only [List.length_cons, List.length_nil] at hi
  interval_cases i <;> rfl

/-! Curves that are apart. -/

/-- Separated in one coordinate: all points of the first at most `x`, all points of the second at least `y`. -/
def Apart (d1 d2 : List (Vec n K)) (k : Fin n) (x y : K) : Prop := (∀ p ∈ d1, p k ≤ x) ∧ ∀ p ∈ d2, y ≤ p k

theorem not_close_of_gap {u v x y M : K} (hu : u ≤ x) (hv : y ≤ v) (hM : |v| ≤ M) (hg : 1 / 10 ^ 8 + 1 / 10 ^ 5 * M < y - x) :
    closeK u v = false := by
  unfold closeK
  rw [decide_eq_false_iff_not, not_le]
  have h1 : (atol : K) + rtol * |v| ≤ 1 / 10 ^ 8 + 1 / 10 ^ 5 * M := by
    simp only [atol, rtol]
    have : (1 / 10 ^ 5 : K) * |v| ≤ 1 / 10 ^ 5 * M := mul_le_mul_of_nonneg_left hM (by positivity)
    linarith
  have h2 : y - x ≤ |u - v| := by
    rw [abs_sub_comm]; exact (by linarith : y - x ≤ v - u).trans (le_abs_self _)
  linarith

theorem apart_box {s r : Seg n K} {k : Fin n} {x y M : K} (hs : s.p1 k ≤ x ∧ s.p2 k ≤ x) (hr : y ≤ r.p1 k ∧ y ≤ r.p2 k)
    (hM : |r.p1 k| ≤ M ∧ |r.p2 k| ≤ M) (hg : 1 / 10 ^ 8 + 1 / 10 ^ 5 * M < y - x) : bboxEntry s r = false := by
  unfold bboxEntry
  rw [decide_eq_false_iff_not]
  intro h
  have hx : max (s.p1 k) (s.p2 k) ≤ x := max_le hs.1 hs.2
  have hy : y ≤ min (r.p1 k) (r.p2 k) := le_min hr.1 hr.2
  have hm : |min (r.p1 k) (r.p2 k)| ≤ M := by
    rcases min_choice (r.p1 k) (r.p2 k) with e | e <;> rw [e]
    exacts [hM.1, hM.2]
  have hM0 : 0 ≤ M := (abs_nonneg _).trans hM.1
  have hg' : x < y := by
    have : (0 : K) ≤ 1 / 10 ^ 8 + 1 / 10 ^ 5 * M := by positivity
    linarith
  rcases (h k).2 with e | e
  · exact absurd e (not_lt.2 (hx.trans (hg'.le.trans hy)))
  · rw [not_close_of_gap hx hy hm hg] at e; simp at e

/-- **C113 (apart).** Two curves separated in some coordinate by more than the tolerance of `np.isclose` at the size of that coordinate
have no exact intersections. -/
theorem C113_apart (feps : K) (fresh : Nat) (int : Bool) (c1 c2 : GCurve n K) (hid : c2.cid ≠ c1.cid) (k : Fin n) (x y M : K)
    (h : Apart c1.data c2.data k x y) (hM : ∀ p ∈ c2.data, |p k| ≤ M) (hg : 1 / 10 ^ 8 + 1 / 10 ^ 5 * M < y - x) :
    exactCall feps fresh int (.curve c1) (.curve c2) = .ok (.list []) := by
  obtain ⟨info, hi, he⟩ := exactCurves_spec feps c1 c2
  obtain ⟨xs, hxs, hcall⟩ := exactCall_curves feps fresh int c1 c2
  have hnil : bboxPairs c1 c2 = [] := by
    rw [List.eq_nil_iff_forall_not_mem]
    intro q hq
    rw [mem_bboxPairs_iff (fun e => absurd e hid)] at hq
    obtain ⟨a1, a2, a3, _⟩ := hq
    rw [segment_eq c1 _ a1, segment_eq c2 _ a2, apart_box (k := k) (x := x) (y := y) (M := M)
      ⟨h.1 _ (List.getElem_mem _), h.1 _ (List.getElem_mem _)⟩ ⟨h.2 _ (List.getElem_mem _), h.2 _ (List.getElem_mem _)⟩
      ⟨hM _ (List.getElem_mem _), hM _ (List.getElem_mem _)⟩ hg] at a3
    simp at a3
  rw [he, hnil] at hxs
  injection hxs with hxs
  rw [hcall, ← hxs]; rfl

/-- A coordinate grows by at least `δ` from every point to the next. -/
def Steps (data : List (Vec n K)) (k : Fin n) (δ : K) : Prop :=
  ∀ (i : Nat) (h : i + 1 < data.length), data[i] k + δ ≤ data[i + 1] k

theorem Steps.far {data : List (Vec n K)} {k : Fin n} {δ : K} (h : Steps data k δ) (h0 : 0 ≤ δ) (i j : Nat) (hij : i < j)
    (hj : j < data.length) : data[i] k + δ ≤ data[j] k := by
  induction j, hij using Nat.le_induction with
  | base => exact h i hj
  | succ j hij ih =>
    have h1 := ih (by omega)
    have h2 := h j hj
    linarith

/-- **C113 (graphs, partial).** A curve one coordinate of which grows at every step by more than the tolerance of `np.isclose` at the
size of that coordinate (for example the graph of a function) has no exact self-intersections. Missing: smaller steps, `C113_graph_fails`. -/
theorem C113_graph_partial (feps : K) (fresh : Nat) (int : Bool) (c : GCurve n K) (k : Fin n) (δ M : K) (h : Steps c.data k δ)
    (hM : ∀ p ∈ c.data, |p k| ≤ M) (hg : 1 / 10 ^ 8 + 1 / 10 ^ 5 * M < δ) :
    exactCall feps fresh int (.curve c) (.curve c) = .ok (.list []) := by
  obtain ⟨info, hi, he⟩ := exactCurves_spec feps c c
  obtain ⟨xs, hxs, hcall⟩ := exactCall_curves feps fresh int c c
  have hnil : bboxPairs c c = [] := by
    rw [List.eq_nil_iff_forall_not_mem]
    rintro ⟨i, j⟩ hq
    rw [mem_bboxPairs_iff (fun _ => rfl)] at hq
    obtain ⟨a1, a2, a3, a4⟩ := hq
    have hij := a4 rfl
    simp only at a1 a2 a3 hij
    have hM0 : 0 ≤ M := (abs_nonneg _).trans (hM _ (List.getElem_mem (show i < c.data.length by omega)))
    have hδ : 0 ≤ δ := by
      have : (0 : K) ≤ 1 / 10 ^ 8 + 1 / 10 ^ 5 * M := by positivity
      linarith
    have f1 := h.far hδ i (i + 1) (by omega) a1
    have f2 := h.far hδ (i + 1) j (by omega) (by omega)
    have f3 := h.far hδ j (j + 1) (by omega) a2
    rw [segment_eq c _ a1, segment_eq c _ a2, apart_box (k := k) (x := c.data[i + 1] k) (y := c.data[j] k) (M := M)
      ⟨by simp only; linarith, le_refl _⟩ ⟨le_refl _, by simp only; linarith⟩
      ⟨hM _ (List.getElem_mem _), hM _ (List.getElem_mem _)⟩ (by linarith)] at a3
    simp at a3
  rw [he, hnil] at hxs
  injection hxs with hxs
  rw [hcall, ← hxs]; rfl

/-- Points with steps of 1. -/
example : Steps ([![0, 5], ![1, 7], ![2, -1], ![3, 0]] : List (Vec 2 ℚ)) 0 1 ∧
    (∀ p ∈ ([![0, 5], ![1, 7], ![2, -1], ![3, 0]] : List (Vec 2 ℚ)), |p 0| ≤ 3) ∧ (1 / 10 ^ 8 + 1 / 10 ^ 5 * 3 : ℚ) < 1 := by
  refine ⟨?_, ?_, by norm_num⟩
  · intro i h
    have h : i < 3 := Nat.lt_of_succ_lt_succ (by simpa using h)
    interval_cases i <;> norm_num
  · intro p hp
    simp only [List.mem_cons, List.not_mem_nil, or_false] at hp
    rcases hp with rfl | rfl | rfl | rfl <;> norm_num

/-- **C113 violated (graphs).** The points (0,0), (1,0), (1.000001,-1), (1.000002,1) of a graph: the first and the last segment have no common
point, an exact intersection is reported. -/
theorem C113_graph_fails :
    let c : GCurve 2 ℚ := ⟨0, false, [![0, 0], ![1, 0], ![1 + 1 / 1000000, -1], ![1 + 2 / 1000000, 1]]⟩
    Steps c.data 0 (1 / 1000000) ∧
    (∀ (i j : Nat) (_ : i + 2 ≤ j) (_ : j + 1 < c.data.length), ¬ Meet c.data[i] c.data[i + 1] c.data[j] c.data[j + 1]) ∧
    ∀ (fresh : Nat) (int : Bool), exactCall F_EPS fresh int (.curve c) (.curve c) =
      .ok (.list [⟨c.segment 0, c.segment 2, ⟨.point ![1 + 3 / 2000000, 0], .exact⟩⟩]) := by
  intro c
  have hsteps : Steps c.data 0 (1 / 1000000) := by
    intro i h
    have h3 : i < 3 := Nat.lt_of_succ_lt_succ (by simpa [c] using h)
    rcases (by omega : i = 0 ∨ i = 1 ∨ i = 2) with rfl | rfl | rfl
    · show (0 : ℚ) + 1 / 1000000 ≤ 1; norm_num
    · show (1 : ℚ) + 1 / 1000000 ≤ 1 + 1 / 1000000; norm_num
    · show (1 + 1 / 1000000 : ℚ) + 1 / 1000000 ≤ 1 + 2 / 1000000; norm_num
  refine ⟨hsteps, ?_, ?_⟩
  · rintro i j hij hj ⟨P, h1, h2⟩
    have a := (between_coord h1 0).2
    have b := (between_coord h2 0).1
    have f1 := hsteps.far (by norm_num) i (i + 1) (by omega) (by omega)
    have f2 := hsteps.far (by norm_num) (i + 1) j (by omega) (by omega)
    have f3 := hsteps.far (by norm_num) j (j + 1) (by omega) hj
    rw [max_eq_right (by linarith)] at a
    rw [min_eq_left (by linarith)] at b
    linarith
  intro fresh int
  set s : Seg 2 ℚ := ⟨![0, 0], ![1, 0]⟩ with hs
  set r : Seg 2 ℚ := ⟨![1 + 1 / 1000000, -1], ![1 + 2 / 1000000, 1]⟩ with hr
  have e : exactSegments F_EPS s r = .ok ⟨.point ![1 + 3 / 2000000, 0], .exact⟩ := by
    have hd : Distinct s r := by
      refine ⟨?_, ?_, ?_, ?_⟩ <;> rintro ⟨h, _⟩ <;> have := h 1 <;> norm_num [abs_le, s, r] at this
    have hg : (F_EPS : ℚ) ≤ gram s.direction r.direction := by
      simp [gram, Fin.sum_univ_two, Seg.direction, s, r, F_EPS]; norm_num
    have hp : ∀ a b c d : Vec 2 ℚ, InPlane [a, b, c, d] := fun a b c d => inPlane_of_dim (by norm_num)
    have hc1 : ¬ CloseVec s.p1 s.p2 := by intro h; have := h 0; norm_num [abs_le, s] at this
    have hc2 : ¬ CloseVec r.p1 r.p2 := by intro h; have := h 1; norm_num [abs_le, r] at this
    have hcol : s.collinear (.seg r) = false := by
      apply not_collinear
      · simp [gram, Fin.sum_univ_two, Seg.direction, s, r]; try norm_num
      · exact hd.1
      · exact hd.2.1
    have e1 := exactSegments_eq F_EPS s r hcol hg (hp _ _ _ _) (s_ns hc1) (s_ns hc2) (x := 1 + 3 / 2000000) (y := 1 / 2) (by
      rw [Seg.point_eq, Seg.point_eq]; funext i; fin_cases i <;> simp [s, r, Seg.direction] <;> norm_num)
    rw [e1]
    have : inUnit (1 + 3 / 2000000 : ℚ) = true ∧ inUnit (1 / 2 : ℚ) = true := by
      constructor <;> norm_num [inUnit, closeK, atol, rtol, abs_le]
    rw [this.1, this.2]
    have hpt : s.point (1 + 3 / 2000000) = ![1 + 3 / 2000000, 0] := by
      rw [Seg.point_eq]; funext i; fin_cases i <;> simp [s, Seg.direction]
    rw [hpt]; rfl
  have hbox : bboxEntry s r = true := by
    unfold bboxEntry
    rw [decide_eq_true_iff]
    intro i
    fin_cases i <;> norm_num [s, r, closeK, atol, rtol, abs_le]
  obtain ⟨info, hi, he⟩ := exactCurves_spec F_EPS c c
  obtain ⟨xs, hxs, hcall⟩ := exactCall_curves F_EPS fresh int c c
  have hs0 : (c.segment 0).seg = s := rfl
  have hr0 : (c.segment 2).seg = r := rfl
  have hpairs : bboxPairs c c = [(0, 2)] := by
    apply before_ext (bboxPairs_before c c) (List.pairwise_singleton _ _)
    rintro ⟨i, j⟩
    rw [mem_bboxPairs_iff (fun _ => rfl), List.mem_singleton, Prod.mk.injEq]
    constructor
    · rintro ⟨a1, a2, _, a4⟩
      have := a4 rfl
      simp only [c, List.length_cons, List.length_nil] at a1 a2 this
      omega
    · rintro ⟨rfl, rfl⟩
      exact ⟨by decide, by decide, by rw [hs0, hr0]; exact hbox, fun _ => by decide⟩
  have h02 := (hi 0 2).1
  rw [hs0, hr0, e] at h02
  injection h02 with h02
  rw [he, hpairs] at hxs
  injection hxs with hxs
  rw [hcall, ← hxs]
  simp [← h02]

end

/-! The almost method. -/

section
variable {n : Nat}

/-- The almost method without `remove_extra`, pair by pair. -/
theorem almost_pairwise (p : AlmostParams) (hr : p.removeExtra = false) (comps : Nat → (Nat → Nat → Bool) → List (List Nat)) (fresh : Nat)
    (int : Bool) : ∃ g : Seg n ℝ → Seg n ℝ → Info n ℝ → Info n ℝ, ∀ c1 c2 : GCurve n ℝ,
    almostCall p comps fresh int (.curve c1) (.curve c2) = .ok (.list ((almostPairs p.distTol c1 c2).map fun q =>
      ⟨c1.segment q.1, c2.segment q.2, g (c1.segment q.1).seg (c2.segment q.2).seg
        ⟨.segment ⟨(almostS2S c1 c2).p1 q.1 q.2, (almostS2S c1 c2).p2 q.1 q.2⟩, .almost⟩⟩)) := by
  refine ⟨fun s r i => if p.correctOverlap = true then
      (if s.parallel r p.parTol then match s.overlap r false with
        | some o => ⟨.segment o, .overlap⟩
        | none => i
      else i) else i, ?_⟩
  intro c1 c2
  have hco : ∀ x : SegInt n ℝ, correctOverlap p.parTol x = .ok ⟨x.seg1, x.seg2,
      if x.seg1.seg.parallel x.seg2.seg p.parTol then match x.seg1.seg.overlap x.seg2.seg false with
        | some o => ⟨.segment o, .overlap⟩
        | none => x.info
      else x.info⟩ := by
    intro x
    unfold correctOverlap
    split_ifs with hp
    · cases ho : x.seg1.seg.overlap x.seg2.seg false with
      | none => rfl
      | some o => simp only [call_overlap, bind, Except.bind]
    · rfl
  have hF : almostCurves p comps c1 c2 = .ok ((almostPairs p.distTol c1 c2).map fun q =>
      ⟨c1.segment q.1, c2.segment q.2, (fun (s r : Seg n ℝ) (i : Info n ℝ) => if p.correctOverlap = true then
      (if s.parallel r p.parTol then match s.overlap r false with
        | some o => ⟨.segment o, .overlap⟩
        | none => i
      else i) else i) (c1.segment q.1).seg (c2.segment q.2).seg
        ⟨.segment ⟨(almostS2S c1 c2).p1 q.1 q.2, (almostS2S c1 c2).p2 q.1 q.2⟩, .almost⟩⟩) := by
    unfold almostCurves
    rw [almostList_eq]
    simp only [bind, Except.bind, hr, Bool.false_eq_true, if_false, List.isEmpty_iff, List.map_eq_nil_iff]
    split_ifs with h0 hc hc
    · rw [h0]; rfl
    · rw [h0]; rfl
    · rw [mapM_ok hco, List.map_map]; rfl
    · rfl
  exact both hF fun h => by rw [almostPairs_nil h]; rfl

/-- The closest points of two segments as the vectorised computation stores them. -/
noncomputable def storedEnds (b : Bool) (s r : Seg n ℝ) : Vec n ℝ × Vec n ℝ :=
  (s.p1 + (if b then truncK (segToSeg s r F_EPS).1 else (segToSeg s r F_EPS).1) • s.direction,
    r.p1 + (if b then truncK (segToSeg s r F_EPS).2 else (segToSeg s r F_EPS).2) • r.direction)

theorem s2s_entry (c1 c2 : GCurve n ℝ) {i j : Nat} (hi : i + 1 < c1.data.length) (hj : j + 1 < c2.data.length) :
    ((almostS2S c1 c2).p1 i j, (almostS2S c1 c2).p2 i j) = storedEnds (c1.int && c2.int) (c1.segment i).seg (c2.segment j).seg := by
  obtain ⟨_, _, ht, _, _⟩ := C36_entries_partial c1.data c2.data (tol := F_EPS) f_eps_pos i j hi hj
  have store : ∀ st : ℝ → ℝ, st 0 = 0 →
      (segsToSegs st F_EPS c1.data c2.data).t1 i j = st ((segsToSegs id F_EPS c1.data c2.data).t1 i j) ∧
      (segsToSegs st F_EPS c1.data c2.data).t2 i j = st ((segsToSegs id F_EPS c1.data c2.data).t2 i j) := by
    intro st h0
    simp only [segsToSegs, segsParam_entry]
    constructor <;> split_ifs <;> simp [h0]
  rw [Prod.ext_iff] at ht
  obtain ⟨ht1, ht2⟩ := ht
  simp only at ht1 ht2
  have hs : (c1.segment i).seg = ⟨c1.data[i], c1.data[i + 1]⟩ := by rw [segment_eq c1 i hi]
  have hr : (c2.segment j).seg = ⟨c2.data[j], c2.data[j + 1]⟩ := by rw [segment_eq c2 j hj]
  have e1 : (almostS2S c1 c2).p1 i j = (c1.segment i).seg.p1 + (almostS2S c1 c2).t1 i j • (c1.segment i).seg.direction := rfl
  have e2 : (almostS2S c1 c2).p2 i j = (c2.segment j).seg.p1 + (almostS2S c1 c2).t2 i j • (c2.segment j).seg.direction := rfl
  rw [e1, e2]
  unfold storedEnds almostS2S
  cases hb : (c1.int && c2.int)
  · simp only [Bool.false_eq_true, if_false]
    rw [ht1, ht2, hs, hr]
  · simp only [if_true]
    obtain ⟨s1, s2⟩ := store truncK (by simp [truncK])
    rw [s1, s2, ht1, ht2, hs, hr]

theorem part_s2s {c1 c2 p1 p2 : GCurve n ℝ} {a b i j : Nat} (h1 : PartOf p1 c1 a) (h2 : PartOf p2 c2 b)
    (ht : (p1.int && p2.int) = (c1.int && c2.int)) (hi : i + 1 < p1.data.length) (hj : j + 1 < p2.data.length) :
    (almostS2S p1 p2).p1 i j = (almostS2S c1 c2).p1 (a + i) (b + j) ∧ (almostS2S p1 p2).p2 i j = (almostS2S c1 c2).p2 (a + i) (b + j) := by
  have l1 := h1.1
  have l2 := h2.1
  have e := s2s_entry p1 p2 hi hj
  rw [ht, h1.seg hi, h2.seg hj, ← s2s_entry c1 c2 (by omega) (by omega)] at e
  exact Prod.ext_iff.1 e

/-- The almost method on parts of two curves. -/
theorem almost_parts (p : AlmostParams) (hr : p.removeExtra = false) (comps : Nat → (Nat → Nat → Bool) → List (List Nat)) (fresh : Nat)
    (int : Bool) (c1 c2 p1 p2 : GCurve n ℝ) (a b : Nat) (h1 : PartOf p1 c1 a) (h2 : PartOf p2 c2 b)
    (ht : (p1.int && p2.int) = (c1.int && c2.int))
    (hs : (c1.cid = c2.cid ∧ a = b) ∧ p1.cid = p2.cid ∨ c1.cid ≠ c2.cid ∧ p1.cid ≠ p2.cid) :
    ∃ (idx : List (Nat × Nat)) (info : Nat → Nat → Info n ℝ),
      almostCall p comps fresh int (.curve c1) (.curve c2) =
        .ok (.list (idx.map fun q => ⟨c1.segment q.1, c2.segment q.2, info q.1 q.2⟩)) ∧
      almostCall p comps fresh int (.curve p1) (.curve p2) =
        .ok (.list ((idx.filter (inParts a p1.data.length b p2.data.length)).map fun q =>
          ⟨p1.segment (q.1 - a), p2.segment (q.2 - b), info q.1 q.2⟩)) := by
  obtain ⟨g, hg⟩ := almost_pairwise (n := n) p hr comps fresh int
  refine ⟨almostPairs p.distTol c1 c2, fun i j => g (c1.segment i).seg (c2.segment j).seg
        ⟨.segment ⟨(almostS2S c1 c2).p1 i j, (almostS2S c1 c2).p2 i j⟩, .almost⟩, hg c1 c2, ?_⟩
  have hl1 := h1.1
  have hl2 := h2.1
  have hm : ∀ (e1 e2 : GCurve n ℝ) (q : Nat × Nat), q ∈ almostPairs p.distTol e1 e2 ↔ q.1 + 1 < e1.data.length ∧ q.2 + 1 < e2.data.length ∧
      √ (∑ k, ((almostS2S e1 e2).p1 q.1 q.2 k - (almostS2S e1 e2).p2 q.1 q.2 k) ^ 2) < p.distTol ∧ (e1.cid = e2.cid → q.1 + 2 ≤ q.2) := by
    intro e1 e2 q
    unfold almostPairs
    rw [mem_curvesIndices]
    have hm1 : (almostS2S e1 e2).m1 = e1.data.length - 1 := rfl
    have hm2 : (almostS2S e1 e2).m2 = e2.data.length - 1 := rfl
    simp only [hm1, hm2, decide_eq_true_eq]
    constructor
    · rintro ⟨a, b, c, d⟩; exact ⟨by omega, by omega, c, d⟩
    · rintro ⟨a, b, c, d⟩; exact ⟨by omega, by omega, c, d⟩
  have hsh := shifted_pairs (l := almostPairs p.distTol c1 c2) (l' := almostPairs p.distTol p1 p2) (a := a) (b := b)
    (m := p1.data.length) (k := p2.data.length)
    (curvesIndices_before _ _ _ _ : (almostPairs p.distTol c1 c2).Pairwise Before)
    (curvesIndices_before _ _ _ _ : (almostPairs p.distTol p1 p2).Pairwise Before)
    (fun q hq => by
      have := (hm p1 p2 q).1 hq
      exact ⟨this.1, this.2.1⟩)
    (fun i j hi1 hj1 => by
      rw [hm, hm]
      obtain ⟨q1, q2⟩ := part_s2s h1 h2 ht hi1 hj1
      simp only [q1, q2]
      refine ⟨fun h => ⟨by omega, by omega, h.2.2.1, ?_⟩, fun h => ⟨hi1, hj1, h.2.2.1, ?_⟩⟩
      · intro e
        rcases hs with ⟨⟨_, rfl⟩, e2⟩ | ⟨e1, _⟩
        · have := h.2.2.2 e2; omega
        · exact absurd e e1
      · intro e
        rcases hs with ⟨⟨e1, rfl⟩, _⟩ | ⟨_, e2⟩
        · have := h.2.2.2 e1; omega
        · exact absurd e e2)
  rw [hg p1 p2, hsh, List.map_map]
  congr 2
  apply List.map_congr_left
  rintro ⟨i, j⟩ hq
  have hr := (List.mem_filter.1 hq).2
  simp only [inParts, decide_eq_true_eq] at hr
  simp only [Function.comp]
  obtain ⟨e1, e2⟩ := part_s2s h1 h2 ht (i := i - a) (j := j - b) (by omega) (by omega)
  rw [e1, e2, h1.seg (by omega), h2.seg (by omega), Nat.add_sub_cancel' hr.1, Nat.add_sub_cancel' hr.2.2.1]

/-- **C113 (parts, almost method, partial).** Without `remove_extra`, the almost method on contiguous parts (of the same dtypes): the
intersections of the curves whose segments belong to the parts; for a curve with itself also. Missing: `remove_extra`, `C113_extra_fails`. -/
theorem C113_almost_partial (p : AlmostParams) (hr : p.removeExtra = false) (comps : Nat → (Nat → Nat → Bool) → List (List Nat))
    (fresh : Nat) (int : Bool) :
    (∀ (c1 c2 p1 p2 : GCurve n ℝ) (a b : Nat), PartOf p1 c1 a → PartOf p2 c2 b → p1.int = c1.int → p2.int = c2.int →
      c1.cid ≠ c2.cid → p1.cid ≠ p2.cid →
      ∃ (idx : List (Nat × Nat)) (info : Nat → Nat → Info n ℝ),
        almostCall p comps fresh int (.curve c1) (.curve c2) =
          .ok (.list (idx.map fun q => ⟨c1.segment q.1, c2.segment q.2, info q.1 q.2⟩)) ∧
        almostCall p comps fresh int (.curve p1) (.curve p2) =
          .ok (.list ((idx.filter fun q => decide (a ≤ q.1 ∧ q.1 + 1 < a + p1.data.length ∧ b ≤ q.2 ∧ q.2 + 1 < b + p2.data.length)).map
            fun q => ⟨p1.segment (q.1 - a), p2.segment (q.2 - b), info q.1 q.2⟩))) ∧
    (∀ (c q : GCurve n ℝ) (a : Nat), PartOf q c a → q.int = c.int →
      ∃ (idx : List (Nat × Nat)) (info : Nat → Nat → Info n ℝ),
        almostCall p comps fresh int (.curve c) (.curve c) =
          .ok (.list (idx.map fun x => ⟨c.segment x.1, c.segment x.2, info x.1 x.2⟩)) ∧
        almostCall p comps fresh int (.curve q) (.curve q) =
          .ok (.list ((idx.filter fun x => decide (a ≤ x.1 ∧ x.1 + 1 < a + q.data.length ∧ a ≤ x.2 ∧ x.2 + 1 < a + q.data.length)).map
            fun x => ⟨q.segment (x.1 - a), q.segment (x.2 - a), info x.1 x.2⟩))) := by
  constructor
  · intro c1 c2 p1 p2 a b h1 h2 t1 t2 i1 i2
    exact almost_parts p hr comps fresh int c1 c2 p1 p2 a b h1 h2 (by rw [t1, t2]) (.inr ⟨i1, i2⟩)
  · intro c q a h t
    exact almost_parts p hr comps fresh int c c q q a a h h (by rw [t]) (.inl ⟨⟨rfl, rfl⟩, rfl⟩)

theorem coord_le_norm (a b : Vec n ℝ) (k : Fin n) : b k - a k ≤ √ (∑ k, (a k - b k) ^ 2) := by
  apply (le_abs_self _).trans
  rw [← Real.sqrt_sq_eq_abs]
  apply Real.sqrt_le_sqrt
  rw [show (b k - a k) ^ 2 = (a k - b k) ^ 2 by ring]
  exact Finset.single_le_sum (f := fun k => (a k - b k) ^ 2) (fun i _ => sq_nonneg _) (Finset.mem_univ k)

theorem almost_none (p : AlmostParams) (comps : Nat → (Nat → Nat → Bool) → List (List Nat)) (fresh : Nat) (int : Bool) (c1 c2 : GCurve n ℝ)
    (h : almostPairs p.distTol c1 c2 = []) : almostCall p comps fresh int (.curve c1) (.curve c2) = .ok (.list []) := by
  have : almostCurves p comps c1 c2 = .ok [] := by
    unfold almostCurves
    rw [almostList_eq, h]
    rfl
  exact both this fun _ => rfl

/-- **C113 (apart, almost method).** Two curves separated in some coordinate by at least `dist_tol` have no almost intersections, whatever the
other parameters; nor has a curve one coordinate of which grows at every step by at least `dist_tol` with itself. Integer data included. -/
theorem C113_almost_apart (p : AlmostParams) (comps : Nat → (Nat → Nat → Bool) → List (List Nat)) (fresh : Nat) (int : Bool) (k : Fin n) :
    (∀ (c1 c2 : GCurve n ℝ) (x y : ℝ), Apart c1.data c2.data k x y → p.distTol ≤ y - x →
      almostCall p comps fresh int (.curve c1) (.curve c2) = .ok (.list [])) ∧
    (∀ (c : GCurve n ℝ) (δ : ℝ), 0 ≤ δ → Steps c.data k δ → p.distTol ≤ δ → almostCall p comps fresh int (.curve c) (.curve c) = .ok (.list [])) := by
  have key : ∀ (c1 c2 : GCurve n ℝ) (i j : Nat) (hi : i + 1 < c1.data.length) (hj : j + 1 < c2.data.length) (x y : ℝ),
      c1.data[i] k ≤ x → c1.data[i + 1] k ≤ x → y ≤ c2.data[j] k → y ≤ c2.data[j + 1] k → p.distTol ≤ y - x →
      ¬ √ (∑ k, ((almostS2S c1 c2).p1 i j k - (almostS2S c1 c2).p2 i j k) ^ 2) < p.distTol := by
    intro c1 c2 i j hi hj x y a1 a2 a3 a4 hd
    obtain ⟨b1, b2⟩ := s2s_between c1 c2 i j hi hj
    have e1 := (between_coord b1 k).2.trans (max_le a1 a2)
    have e2 := (le_min a3 a4).trans (between_coord b2 k).1
    have := coord_le_norm ((almostS2S c1 c2).p1 i j) ((almostS2S c1 c2).p2 i j) k
    rw [not_lt]; linarith
  constructor
  · intro c1 c2 x y h hd
    apply almost_none
    rw [List.eq_nil_iff_forall_not_mem]
    rintro ⟨i, j⟩ hq
    unfold almostPairs at hq
    rw [mem_curvesIndices] at hq
    obtain ⟨q1, q2, q3, _⟩ := hq
    have hi : i + 1 < c1.data.length := by have : i < c1.data.length - 1 := q1; omega
    have hj : j + 1 < c2.data.length := by have : j < c2.data.length - 1 := q2; omega
    exact key c1 c2 i j hi hj x y (h.1 _ (List.getElem_mem _)) (h.1 _ (List.getElem_mem _)) (h.2 _ (List.getElem_mem _))
      (h.2 _ (List.getElem_mem _)) hd (by simpa using q3)
  · intro c δ hδ h hd
    apply almost_none
    rw [List.eq_nil_iff_forall_not_mem]
    rintro ⟨i, j⟩ hq
    unfold almostPairs at hq
    rw [mem_curvesIndices] at hq
    obtain ⟨q1, q2, q3, q4⟩ := hq
    have hi : i + 1 < c.data.length := by have : i < c.data.length - 1 := q1; omega
    have hj : j + 1 < c.data.length := by have : j < c.data.length - 1 := q2; omega
    have hij : i + 2 ≤ j := q4 (by simp)
    have f1 := h.far hδ i (i + 1) (by omega) hi
    have f2 := h.far hδ (i + 1) j (by omega) (by omega)
    have f3 := h.far hδ j (j + 1) (by omega) hj
    exact key c c i j hi hj (c.data[i + 1] k) (c.data[j] k) (by linarith) (le_refl _) (le_refl _) (by linarith) (by linarith)
      (by simpa using q3)

/-- Two segments that end on a third one. -/
theorem touch_zero (s : Seg 2 ℝ) (hs : s = ⟨![-1, 0], ![0, 0]⟩ ∨ s = ⟨![0, 0], ![1, 0]⟩) :
    s.shortest (.seg ⟨![0, -1], ![0, 1]⟩) = ⟨![0, 0], ![0, 0]⟩ ∧ s.distance (.seg ⟨![0, -1], ![0, 1]⟩) = 0 := by
  set r : Seg 2 ℝ := ⟨![0, -1], ![0, 1]⟩ with hr
  have hne : r.p1 ≠ r.p2 := by intro h; have := congrFun h 1; norm_num [r] at this
  have hz : s.distance (.seg r) = 0 := by
    refine ((C35_zero_partial s r).2 hne ⟨![0, 0], ?_, ?_⟩).2 1 (by norm_num) ?_ ?_
    · rcases hs with rfl | rfl
      · exact ⟨1, by norm_num, by norm_num, by funext i; fin_cases i <;> simp⟩
      · exact ⟨0, by norm_num, by norm_num, by funext i; fin_cases i <;> simp⟩
    · exact ⟨1 / 2, by norm_num, by norm_num, by funext i; fin_cases i <;> norm_num [r]⟩
    · have g0 : OnGrid (1 : ℝ) 0 := ⟨0, by norm_num⟩
      have g1 : OnGrid (1 : ℝ) 1 := ⟨1, by norm_num⟩
      have gm : OnGrid (1 : ℝ) (-1) := ⟨-1, by norm_num⟩
      rcases hs with rfl | rfl <;> intro i <;> fin_cases i
      exacts [⟨gm, g0⟩, ⟨g0, g0⟩, ⟨g0, g1⟩, ⟨g0, g0⟩]
    · have g0 : OnGrid (1 : ℝ) 0 := ⟨0, by norm_num⟩
      have g1 : OnGrid (1 : ℝ) 1 := ⟨1, by norm_num⟩
      have gm : OnGrid (1 : ℝ) (-1) := ⟨-1, by norm_num⟩
      intro i; fin_cases i
      exacts [⟨g0, g0⟩, ⟨gm, g1⟩]
  refine ⟨?_, hz⟩
  obtain ⟨h1, h2⟩ := C33_endpoints s r
  have he : (s.shortest (.seg r)).p1 = (s.shortest (.seg r)).p2 := edist_eq_zero.1 hz
  have h0 : (s.shortest (.seg r)).p1 = ![0, 0] := by
    funext i
    fin_cases i
    · rw [he]
      have := between_coord h2 0
      norm_num [r] at this
      simp only [Fin.zero_eta, Matrix.cons_val_zero]; linarith [this.1, this.2]
    · have := between_coord h1 1
      rcases hs with rfl | rfl <;> norm_num at this <;> simp only [Fin.mk_one, Matrix.cons_val_one, Matrix.cons_val_zero] <;>
        linarith [this.1, this.2]
  ext1
  · exact h0
  · rw [← he]; exact h0

/-- The almost method with `remove_extra`, for float curves. -/
theorem almost_removed (p : AlmostParams) (hr : p.removeExtra = true) (hco : p.correctOverlap = false)
    (comps : Nat → (Nat → Nat → Bool) → List (List Nat)) (fresh : Nat) (int : Bool) (c1 c2 : GCurve n ℝ) (hf : c1.int = false)
    (idx : List (Nat × Nat)) (hb : idx.Pairwise Before) (hne : idx ≠ [])
    (hidx : ∀ i j, (i, j) ∈ idx ↔ i + 1 < c1.data.length ∧ j + 1 < c2.data.length ∧
      (c1.segment i).seg.distance (.seg (c2.segment j).seg) < p.distTol ∧ (c1.cid = c2.cid → i + 2 ≤ j)) :
    almostCall p comps fresh int (.curve c1) (.curve c2) = .ok (.list (removeExtra pointOf lenOf p.extraTol comps (idx.map fun q =>
      ⟨c1.segment q.1, c2.segment q.2, ⟨.segment ((c1.segment q.1).seg.shortest (.seg (c2.segment q.2).seg)), .almost⟩⟩))) := by
  have hfl : (c1.int && c2.int) = false := by rw [hf]; rfl
  have hp : almostPairs p.distTol c1 c2 = idx :=
    before_ext (curvesIndices_before _ _ _ _) hb fun q => (mem_almostPairs hfl q.1 q.2).trans (hidx q.1 q.2).symm
  have hl : almostList p.distTol c1 c2 = .ok (idx.map fun q =>
      ⟨c1.segment q.1, c2.segment q.2, ⟨.segment ((c1.segment q.1).seg.shortest (.seg (c2.segment q.2).seg)), .almost⟩⟩) := by
    rw [almostList_eq, hp]
    congr 1
    apply List.map_congr_left
    rintro ⟨i, j⟩ hq
    rw [hidx] at hq
    simp only
    rw [float_s2s hfl i j hq.1 hq.2.1]
  have hc : almostCurves p comps c1 c2 = .ok (removeExtra pointOf lenOf p.extraTol comps (idx.map fun q =>
      ⟨c1.segment q.1, c2.segment q.2, ⟨.segment ((c1.segment q.1).seg.shortest (.seg (c2.segment q.2).seg)), .almost⟩⟩)) := by
    unfold almostCurves
    rw [hl]
    simp only [bind, Except.bind, hr, hco, if_true, Bool.false_eq_true, if_false]
    rw [if_neg (by simpa using hne)]
  refine both hc fun h => ?_
  obtain ⟨⟨i, j⟩, hq⟩ := List.exists_mem_of_ne_nil _ hne
  rw [hidx] at hq
  omega

/-- **C113 violated (`remove_extra`).** The line (-1,0), (0,0), (1,0) and the segment (0,-1)-(0,1) have one almost intersection with
`remove_extra`; both halves of the line have one, too: one of them is no intersection of the whole. -/
theorem C113_extra_fails (d tol pt : ℝ) (hd : 0 < d) (htol : 0 < tol) (comps : Nat → (Nat → Nat → Bool) → List (List Nat))
    (hcomps : ∀ xs : List (SegInt 2 ℝ), xs.length ≤ 2 →
      IsComponents (extraEdge pointOf tol xs) (comps xs.length (extraEdge pointOf tol xs))) (fresh : Nat) (int : Bool) :
    let p : AlmostParams := ⟨d, true, tol, false, pt⟩
    let c : GCurve 2 ℝ := ⟨0, false, [![-1, 0], ![0, 0], ![1, 0]]⟩
    let c1 : GCurve 2 ℝ := ⟨1, false, [![-1, 0], ![0, 0]]⟩
    let c2 : GCurve 2 ℝ := ⟨2, false, [![0, 0], ![1, 0]]⟩
    let e : GCurve 2 ℝ := ⟨3, false, [![0, -1], ![0, 1]]⟩
    PartOf c1 c 0 ∧ PartOf c2 c 1 ∧
    ∃ x y z, almostCall p comps fresh int (.curve c) (.curve e) = .ok (.list [x]) ∧
      almostCall p comps fresh int (.curve c1) (.curve e) = .ok (.list [y]) ∧
      almostCall p comps fresh int (.curve c2) (.curve e) = .ok (.list [z]) := by
  intro p c c1 c2 e
  have part : ∀ (l : List (Vec 2 ℝ)) (m : List (Vec 2 ℝ)) (i j : Nat), PartOf (⟨i, false, l⟩ : GCurve 2 ℝ) ⟨j, false, m ++ l⟩ m.length ∧
      PartOf (⟨i, false, l⟩ : GCurve 2 ℝ) ⟨j, false, l ++ m⟩ 0 := by
    intro l m i j
    refine ⟨⟨by simp, ?_⟩, ⟨by simp, ?_⟩⟩
    · intro k hk
      rw [List.getElem?_append_right (by omega), Nat.add_sub_cancel_left]
    · intro k hk; simp only [Nat.zero_add]; rw [List.getElem?_append_left hk]
  refine ⟨(part [![-1, 0], ![0, 0]] [![1, 0]] 1 0).2, (part [![0, 0], ![1, 0]] [![-1, 0]] 2 0).1, ?_⟩
  have z0 := touch_zero ⟨![-1, 0], ![0, 0]⟩ (.inl rfl)
  have z1 := touch_zero ⟨![0, 0], ![1, 0]⟩ (.inr rfl)
  have one : ∀ q : SegInt 2 ℝ, removeExtra pointOf lenOf tol comps [q] = [q] := by
    intro q
    obtain ⟨_, ks, k1, k2, k3, _, _, _, k7⟩ := C44_representatives pointOf lenOf tol [q] comps (hcomps [q] (by simp))
      (fun _ => pointOf q) (fun _ => lenOf q) (by intro i h; have : i = 0 := (by simpa using h); subst this; rfl)
      (by intro i h; have : i = 0 := (by simpa using h); subst this; rfl)
    have m0 := k7 0 (by simp) (by intro j hj hne; simp at hj; omega)
    have hk : ks = [0] := by
      rcases ks with _ | ⟨a, _ | ⟨b, l⟩⟩
      · simp at m0
      · have := k2 a (by simp)
        simp at this
        rw [this]
      · have h1 := k2 a (by simp)
        have h2 := k2 b (by simp)
        have h3 := (List.pairwise_cons.1 k1).1 b (by simp)
        simp at h1 h2
        omega
    rw [hk] at k3
    simpa using k3
  have two : ∀ q q' : SegInt 2 ℝ, pointOf q = pointOf q' → ∃ x, removeExtra pointOf lenOf tol comps [q, q'] = [x] := by
    intro q q' hqq
    obtain ⟨_, ks, k1, k2, k3, k4, _, k6, _⟩ := C44_representatives pointOf lenOf tol [q, q'] comps (hcomps [q, q'] (by simp))
      (fun _ => pointOf q) (fun i => if i = 0 then lenOf q else lenOf q')
      (by intro i h; have : i < 2 := by simpa using h
          interval_cases i
          · rfl
          · exact hqq)
      (by intro i h; have : i < 2 := by simpa using h
          interval_cases i <;> rfl)
    have hself : Model.edist (pointOf q) (pointOf q) = 0 := edist_eq_zero.2 rfl
    obtain ⟨k, ⟨hk, _⟩, _⟩ := k4 0 (by simp)
    have hone : ∃ a, ks = [a] := by
      rcases ks with _ | ⟨a, _ | ⟨b, l⟩⟩
      · simp at hk
      · exact ⟨a, rfl⟩
      · have h3 := (List.pairwise_cons.1 k1).1 b (by simp)
        have := k6 a (by simp) b (by simp) (by omega)
        rw [hself] at this
        linarith
    obtain ⟨a, rfl⟩ := hone
    have hlen := congrArg List.length k3
    simp only [List.length_map, List.length_singleton] at hlen
    exact List.length_eq_one_iff.1 hlen
  have hc0 : (c.segment 0).seg = ⟨![-1, 0], ![0, 0]⟩ := rfl
  have hc1 : (c.segment 1).seg = ⟨![0, 0], ![1, 0]⟩ := rfl
  have he0 : (e.segment 0).seg = ⟨![0, -1], ![0, 1]⟩ := rfl
  have hw := almost_removed p rfl rfl comps fresh int c e rfl [(0, 0), (1, 0)] (by simp [Before]) (by simp) (by
    intro i j
    constructor
    · intro h
      simp only [List.mem_cons, Prod.mk.injEq, List.not_mem_nil, or_false] at h
      rcases h with ⟨rfl, rfl⟩ | ⟨rfl, rfl⟩
      · exact ⟨by simp [c], by simp [e], by rw [hc0, he0, z0.2]; exact hd, by simp [c, e]⟩
      · exact ⟨by simp [c], by simp [e], by rw [hc1, he0, z1.2]; exact hd, by simp [c, e]⟩
    · rintro ⟨h1, h2, _⟩
      simp [c, e] at h1 h2
      simp only [List.mem_cons, Prod.mk.injEq, List.not_mem_nil, or_false]
      omega)
  have hp1 := almost_removed p rfl rfl comps fresh int c1 e rfl [(0, 0)] (by simp) (by simp) (by
    intro i j
    constructor
    · intro h
      simp only [List.mem_cons, Prod.mk.injEq, List.not_mem_nil, or_false] at h
      obtain ⟨rfl, rfl⟩ := h
      exact ⟨by simp [c1], by simp [e], by rw [show (c1.segment 0).seg = ⟨![-1, 0], ![0, 0]⟩ from rfl, he0, z0.2]; exact hd, by simp [c1, e]⟩
    · rintro ⟨h1, h2, _⟩
      simp [c1, e] at h1 h2
      simp only [List.mem_cons, Prod.mk.injEq, List.not_mem_nil, or_false]
      omega)
  have hp2 := almost_removed p rfl rfl comps fresh int c2 e rfl [(0, 0)] (by simp) (by simp) (by
    intro i j
    constructor
    · intro h
      simp only [List.mem_cons, Prod.mk.injEq, List.not_mem_nil, or_false] at h
      obtain ⟨rfl, rfl⟩ := h
      exact ⟨by simp [c2], by simp [e], by rw [show (c2.segment 0).seg = ⟨![0, 0], ![1, 0]⟩ from rfl, he0, z1.2]; exact hd, by simp [c2, e]⟩
    · rintro ⟨h1, h2, _⟩
      simp [c2, e] at h1 h2
      simp only [List.mem_cons, Prod.mk.injEq, List.not_mem_nil, or_false]
      omega)
  simp only [List.map_cons, List.map_nil] at hw hp1 hp2
  obtain ⟨x, hx⟩ := two ⟨c.segment 0, e.segment 0, ⟨.segment ((c.segment 0).seg.shortest (.seg (e.segment 0).seg)), .almost⟩⟩
    ⟨c.segment 1, e.segment 0, ⟨.segment ((c.segment 1).seg.shortest (.seg (e.segment 0).seg)), .almost⟩⟩ (by
      rw [hc0, hc1, he0, z0.1, z1.1]; rfl)
  rw [hx] at hw
  rw [one] at hp1 hp2
  exact ⟨x, _, _, hw, hp1, hp2⟩

/-- The components of all graphs with at most two vertices. -/
example (tol : ℝ) : ∀ xs : List (SegInt 2 ℝ), xs.length ≤ 2 →
    IsComponents (extraEdge pointOf tol xs) ((fun (_ : Nat) edge => if edge 0 1 then [[0, 1]] else ([] : List (List Nat))) xs.length (extraEdge pointOf tol xs)) := by
  intro xs hxs
  have hedge : ∀ i j, extraEdge pointOf tol xs i j = true → i = 0 ∧ j = 1 := by
    intro i j h
    unfold extraEdge at h
    split at h
    · rename_i x y h1 h2
      have l1 := (List.getElem?_eq_some_iff.1 h1).1
      have l2 := (List.getElem?_eq_some_iff.1 h2).1
      have := (of_decide_eq_true h).1
      omega
    · simp at h
  by_cases h01 : extraEdge pointOf tol xs 0 1 = true
  · simp only [h01, if_true]
    have hrel : ∀ i j, i = 0 ∨ i = 1 → (Relation.ReflTransGen (fun a b => extraEdge pointOf tol xs a b = true ∨ extraEdge pointOf tol xs b a = true) i j ↔
        j = 0 ∨ j = 1) := by
      intro i j hi
      constructor
      · intro h
        induction h with
        | refl => exact hi
        | tail _ h _ => rcases h with h | h <;> have := hedge _ _ h <;> omega
      · intro hj
        rcases hi with rfl | rfl <;> rcases hj with rfl | rfl
        · exact .refl
        · exact .single (.inl h01)
        · exact .single (.inr h01)
        · exact .refl
    refine ⟨by simp, ?_, ?_, by simp⟩
    · intro i
      simp only [List.flatten_cons, List.flatten_nil, List.append_nil, List.mem_cons, List.not_mem_nil, or_false]
      constructor
      · rintro (rfl | rfl)
        · exact ⟨1, .inl h01⟩
        · exact ⟨0, .inr h01⟩
      · rintro ⟨j, h | h⟩ <;> have := hedge _ _ h <;> omega
    · intro b hb i hi j
      simp only [List.mem_singleton] at hb
      subst hb
      simp only [List.mem_cons, List.not_mem_nil, or_false] at hi ⊢
      exact (hrel i j hi).symm
  · simp only [Bool.not_eq_true] at h01
    simp only [h01, Bool.false_eq_true, if_false]
    refine ⟨by simp, ?_, by simp, by simp⟩
    intro i
    simp only [List.flatten_nil, List.not_mem_nil, false_iff]
    rintro ⟨j, h | h⟩ <;> obtain ⟨rfl, rfl⟩ := hedge _ _ h <;> rw [h01] at h <;> simp at h

end

/-! ## Concrete cases -/

/-- A part of two points of a curve of four points. -/
theorem exPart {K : Type} [Field K] : PartOf (⟨1, false, [![1, 0], ![1, 1]]⟩ : GCurve 2 K) ⟨0, false, [![0, 0], ![1, 0], ![1, 1], ![0, 1]]⟩ 1 := by
  refine ⟨by simp, ?_⟩
  intro i hi
  simp only [List.length_cons, List.length_nil] at hi
  interval_cases i <;> rfl

theorem exPart2 {K : Type} [Field K] : PartOf (⟨2, false, [![0, 1], ![2, 0]]⟩ : GCurve 2 K) ⟨3, false, [![0, 1], ![2, 0], ![7, 7]]⟩ 0 := by
  refine ⟨by simp, ?_⟩
  intro i hi
  simp only [List.length_cons, List.length_nil] at hi
  interval_cases i <;> rfl

example := C113_parts (K := ℚ) F_EPS 9 false _ _ _ _ 1 0 exPart exPart2 (by simp) (by simp)
example := C113_self (K := ℚ) F_EPS 9 false _ _ 1 exPart
example := C113_apart F_EPS 9 false (⟨0, false, [![0, 0], ![1, 0]]⟩ : GCurve 2 ℚ) ⟨1, false, [![2, 5], ![3, -5]]⟩ (by simp) 0 1 2 3
  ⟨by simp, by simp; norm_num⟩ (by simp; norm_num [abs_of_pos]) (by norm_num)
example := C113_graph_partial F_EPS 9 false (⟨0, false, [![0, 5], ![1, 7], ![2, -1], ![3, 0]]⟩ : GCurve 2 ℚ) 0 1 3
  (by
    intro i h
    have h : i < 3 := Nat.lt_of_succ_lt_succ (by simpa using h)
    interval_cases i
    · show (0 : ℚ) + 1 ≤ 1; norm_num
    · show (1 : ℚ) + 1 ≤ 2; norm_num
    · show (2 : ℚ) + 1 ≤ 3; norm_num)
  (by
    intro p hp
    simp only [List.mem_cons, List.not_mem_nil, or_false] at hp
    rcases hp with rfl | rfl | rfl | rfl <;> norm_num) (by norm_num)
example := (C113_almost_partial (n := 2) ⟨1 / 10, false, 1 / 10, true, 1 / 100⟩ rfl (fun _ _ => []) 9 false).1 _ _ _ _ 1 0 exPart exPart2 rfl rfl (by simp) (by simp)
example := (C113_almost_apart ⟨1 / 10, true, 1 / 10, true, 1 / 100⟩ (fun _ _ => []) 9 false (0 : Fin 2)).1
  ⟨0, false, [![0, 0], ![1, 0]]⟩ ⟨1, false, [![2, 5], ![3, -5]]⟩ 1 2 ⟨by simp, by simp; norm_num⟩ (by norm_num)

end Verif.Props
