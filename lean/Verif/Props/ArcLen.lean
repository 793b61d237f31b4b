import Verif.Props.Edit
import Verif.Lemmas.ArcLen
import Verif.Lemmas.InsertSub

/-!
Lengths: C50 (chord, cumulative and arc lengths), C51 (additivity, orientation, translation, scaling),
C52 (removing and inserting points), C53 (adding dimensions), and the length clauses of C04 and C72.

`junk` is the content of the uninitialised array `chordlen` returns for an empty curve.
-/
namespace Verif.Props

open Verif Verif.Np Verif.Model Verif.Spec

/-! ## C50 -/

/-- The lengths of a curve with at least one point. -/
theorem chordlen_vec {c : Curve ℝ} (h : c.rows ≠ []) (junk : ℝ) : chordlen junk c = .vec (chords c.rows) := if_neg h

theorem arclen_eq {c : Curve ℝ} (hr : ∀ r ∈ c.rows, r.length = c.ncols) (h : c.rows ≠ []) (junk : ℝ) :
    arclen junk c = pathLen c.ncols c.rows := by
  unfold arclen
  rw [chordlen_vec h]
  exact chords_sum hr

theorem arclen_eq_n {c : Curve ℝ} {n : Nat} (hr : ∀ r ∈ c.rows, r.length = n) (h : c.rows ≠ []) (junk : ℝ) :
    arclen junk c = pathLen n c.rows := by
  unfold arclen
  rw [chordlen_vec h]
  exact chords_sum hr

/-- **C50 (chord lengths, partial).** One entry per pair of neighbouring points: their euclidean distance.
Missing: empty curves, see `C50_empty_fails`. -/
theorem C50_chordlen_partial {c : Curve ℝ} (hc : WF c) (hne : c.rows ≠ []) (junk : ℝ) :
    ∃ xs, chordlen junk c = .vec xs ∧ xs.length = c.size - 1 ∧ (∀ x ∈ xs, 0 ≤ x) ∧
      ∀ k a b, c.rows[k]? = some a → c.rows[k + 1]? = some b → xs[k]? = some (gap c.ndim a b) := by
  refine ⟨_, chordlen_vec hne junk, chords_length _, fun x => chords_nonneg, ?_⟩
  intro k a b ha hb
  rw [chords, List.getElem?_zipWith, ha, List.getElem?_tail, hb]
  simp only
  rw [chord_eq_gap (hc.rect a (List.mem_of_getElem? ha)) (hc.rect b (List.mem_of_getElem? hb))]
  rfl

theorem cumFrom_get (s : ℝ) (xs : List ℝ) (k : Nat) (hk : k < xs.length) :
    (cumFrom id s xs)[k]? = some (s + (xs.take (k + 1)).sum) := by
  induction xs generalizing s k with
  | nil => simp at hk
  | cons x xs ih =>
    cases k with
    | zero => simp [cumFrom]
    | succ k =>
      simp only [cumFrom, id, List.getElem?_cons_succ, List.take_succ_cons, List.sum_cons]
      rw [ih _ _ (by simpa using hk)]
      congr 1; ring

theorem cumsum_get (xs : List ℝ) (k : Nat) (hk : k ≤ xs.length) :
    (0 :: cumsumFl id xs)[k]? = some (xs.take k).sum := by
  cases k with
  | zero => simp
  | succ k =>
    cases xs with
    | nil => simp at hk
    | cons x xs =>
      simp only [cumsumFl, List.getElem?_cons_succ, List.take_succ_cons, List.sum_cons]
      cases k with
      | zero => simp
      | succ k =>
        rw [List.getElem?_cons_succ, cumFrom_get _ _ _ (by simpa using hk)]

theorem length_cumFrom (fl : ℝ → ℝ) (s : ℝ) (xs : List ℝ) : (cumFrom fl s xs).length = xs.length := by
  induction xs generalizing s with
  | nil => rfl
  | cons x xs ih => simp [cumFrom, ih]

theorem length_cumsumFl (fl : ℝ → ℝ) (xs : List ℝ) : (cumsumFl fl xs).length = xs.length := by
  cases xs <;> simp [cumsumFl, length_cumFrom]

theorem chords_take (rows : List (List ℝ)) (k : Nat) : (chords rows).take k = chords (rows.take (k + 1)) := by
  unfold chords
  rw [List.take_zipWith]
  cases rows with
  | nil => simp
  | cons a l =>
    simp only [List.tail_cons, List.take_succ_cons]
    induction l generalizing a k with
    | nil => simp
    | cons b l ih =>
      cases k with
      | zero => simp
      | succ k =>
        have := ih k b
        simp only [List.take_succ_cons, List.zipWith_cons_cons] at *
        rw [this]

/-- `cumarclen[k]` is the length of the curve up to point `k`. -/
theorem cumarclen_get {c : Curve ℝ} (hr : ∀ r ∈ c.rows, r.length = c.ncols) (junk : ℝ) (k : Nat) (hk : k < c.rows.length) :
    (cumarclen junk c)[k]? = some (pathLen c.ncols (c.rows.take (k + 1))) := by
  have hne : c.rows ≠ [] := by intro h; rw [h] at hk; simp at hk
  unfold cumarclen cumarclenFl
  rw [chordlen_vec hne]
  simp only [NArr.cumsum]
  rw [cumsum_get _ _ (by rw [chords_length]; omega), chords_take,
    chords_sum (n := c.ncols) fun r h => hr r (List.mem_of_mem_take h)]

/-- **C50 (cumulative length, partial).** For a curve with points: one entry per point, starting at 0; entry
`k` is the length of the polygonal line through the points 0..k; neighbouring entries differ by the chord
length; the last entry is `arclen`, which is the length of the polygonal line. Missing: empty curves, see
`C50_empty_fails`. -/
theorem C50_cumarclen_partial {c : Curve ℝ} (hc : WF c) (hne : c.rows ≠ []) (junk : ℝ) :
    (cumarclen junk c).length = c.size ∧ (cumarclen junk c)[0]? = some 0 ∧
    (∀ k < c.size, (cumarclen junk c)[k]? = some (pathLen c.ndim (c.rows.take (k + 1)))) ∧
    (∀ k a b, c.rows[k]? = some a → c.rows[k + 1]? = some b →
      ∃ x y, (cumarclen junk c)[k]? = some x ∧ (cumarclen junk c)[k + 1]? = some y ∧ y - x = gap c.ndim a b) ∧
    (cumarclen junk c).getLast? = some (arclen junk c) ∧ arclen junk c = pathLen c.ndim c.rows := by
  have hlen : (cumarclen junk c).length = c.size := by
    unfold cumarclen cumarclenFl
    rw [chordlen_vec hne]
    have : c.rows.length ≠ 0 := by simpa using hne
    simp only [NArr.cumsum, List.length_cons, length_cumsumFl, chords_length, Curve.size]
    omega
  have hget := fun k hk => cumarclen_get hc.rect junk k hk
  have hpos : 0 < c.rows.length := List.length_pos_of_ne_nil hne
  refine ⟨hlen, rfl, hget, ?_, ?_, arclen_eq hc.rect hne junk⟩
  · intro k a b ha hb
    have hk : k + 1 < c.rows.length := (List.getElem?_eq_some_iff.1 hb).1
    refine ⟨_, _, hget k (by omega), hget (k + 1) hk, ?_⟩
    have h1 : c.rows.take (k + 1) = c.rows.take k ++ [a] := by
      rw [List.take_add_one, ha]; rfl
    have h2 : c.rows.take (k + 1 + 1) = c.rows.take k ++ a :: b :: [] := by
      rw [List.take_add_one, h1, hb]; simp
    rw [h2, h1, pathLen_append]
    simp [pathLen, Curve.ndim]
  · rw [List.getLast?_eq_getElem?, hlen, hget _ (by simp only [Curve.size]; omega), arclen_eq hc.rect hne junk]
    congr 2
    rw [List.take_of_length_le (by simp only [Curve.size]; omega)]

/-- **C50 (monotone under rounding).** Whatever monotone, idempotent rounding the additions use, the
running sums of non-negative representable chord lengths never decrease. -/
theorem C50_monotone_rounded (fl : ℝ → ℝ) (hm : Monotone fl) (hi : ∀ x, fl (fl x) = fl x) (xs : List ℝ)
    (h0 : ∀ x ∈ xs, 0 ≤ x) (hr : ∀ x ∈ xs, fl x = x) : (0 :: (NArr.vec xs).cumsum fl).Pairwise (· ≤ ·) := by
  have key : ∀ (s : ℝ) (ys : List ℝ), fl s = s → (∀ x ∈ ys, 0 ≤ x) → (s :: cumFrom fl s ys).Pairwise (· ≤ ·) := by
    intro s ys
    induction ys generalizing s with
    | nil => intros; simp [cumFrom]
    | cons y ys ih =>
      intro hs hy
      have h1 := ih (fl (s + y)) (hi _) (fun x hx => hy x (List.mem_cons_of_mem _ hx))
      have hle : s ≤ fl (s + y) := by
        have h2 : fl s ≤ fl (s + y) := hm (by have := hy y (by simp); linarith)
        rw [hs] at h2
        exact h2
      rw [cumFrom, List.pairwise_cons]
      refine ⟨?_, h1⟩
      intro z hz
      rcases List.mem_cons.1 hz with rfl | hz
      · exact hle
      · exact hle.trans ((List.pairwise_cons.1 h1).1 z hz)
  cases xs with
  | nil => simp [NArr.cumsum, cumsumFl]
  | cons x xs =>
    have h1 := key x xs (hr x (by simp)) (fun y hy => h0 y (List.mem_cons_of_mem _ hy))
    have hx : 0 ≤ x := h0 x (by simp)
    simp only [NArr.cumsum, cumsumFl]
    rw [List.pairwise_cons]
    refine ⟨?_, h1⟩
    intro z hz
    rcases List.mem_cons.1 hz with rfl | hz
    · exact hx
    · exact hx.trans ((List.pairwise_cons.1 h1).1 z hz)

/-- **C50 (monotone).** In exact arithmetic. -/
theorem C50_monotone {c : Curve ℝ} (hne : c.rows ≠ []) (junk : ℝ) : (cumarclen junk c).Pairwise (· ≤ ·) := by
  unfold cumarclen cumarclenFl
  rw [chordlen_vec hne]
  exact C50_monotone_rounded id monotone_id (fun _ => rfl) _ (fun x => chords_nonneg) (fun _ _ => rfl)

/-- **C50 fails for empty curves**: `chordlen` is not an empty array but a 0-d one with arbitrary content,
`arclen` is that content, and `cumarclen` has two entries for zero points. -/
theorem C50_empty_fails {c : Curve ℝ} (h : c.rows = []) (junk : ℝ) :
    chordlen junk c = .scalar junk ∧ arclen junk c = junk ∧ cumarclen junk c = [0, junk] := by
  have : chordlen junk c = .scalar junk := if_pos h
  refine ⟨this, by unfold arclen; rw [this]; rfl, by unfold cumarclen cumarclenFl; rw [this]; rfl⟩

/-! ## C51 -/

/-- **C51 (orientation, partial).** Missing: empty curves (their arc length is garbage, `C50_empty_fails`). -/
theorem C51_reverse_partial {c : Curve ℝ} (hc : WF c) (hne : c.rows ≠ []) (junk junk' : ℝ) :
    ∃ c', c.reverse = .ok c' ∧ arclen junk' c' = arclen junk c := by
  have h := reverse_eq hc
  rw [if_neg hne] at h
  refine ⟨_, h, ?_⟩
  rw [arclen_eq (c := ⟨c.rows.reverse, c.ncols, c.tdata.map List.reverse, c.dtype⟩)
    (fun r hr => hc.rect r (by simpa using hr)) (by simpa using hne), arclen_eq hc.rect hne]
  exact pathLen_reverse _ _

/-- **C51 (concatenation, partial).** Missing: empty summands (their arc length is garbage,
`C50_empty_fails`; the sum itself is right, see `C51_add_empty`). -/
theorem C51_add_partial {a b : Curve ℝ} (ha : WF a) (hb : WF b) (hd : a.ndim = b.ndim) (p q : List ℝ)
    (hp : a.rows.getLast? = some p) (hq : b.rows.head? = some q) (j1 j2 j3 : ℝ) :
    ∃ c, a.add b = .ok c ∧ arclen j1 c = arclen j2 a + gap a.ndim p q + arclen j3 b := by
  obtain ⟨c, h1, h2, -, -, -, h3⟩ := (C09_add ha hb).2 hd
  have hane : a.rows ≠ [] := by intro h; rw [h] at hp; simp at hp
  have hbne : b.rows ≠ [] := by intro h; rw [h] at hq; simp at hq
  have hnc : c.ncols = a.ncols := h3 (.inl hane)
  have hab : a.ncols = b.ncols := hd
  refine ⟨c, h1, ?_⟩
  rw [arclen_eq ha.rect hane, arclen_eq hb.rect hbne, arclen_eq _ (by rw [h2]; simp [hane])]
  · rw [hnc, h2, ← hab]
    obtain ⟨l, hl⟩ : ∃ l, a.rows = l ++ [p] := by
      rw [List.getLast?_eq_some_iff] at hp; exact hp
    obtain ⟨m, hm⟩ : ∃ m, b.rows = q :: m := by
      rw [List.head?_eq_some_iff] at hq; exact hq
    rw [hl, hm, List.append_assoc]
    exact pathLen_append _ _ _ _ _
  · intro r hr
    rw [h2, List.mem_append] at hr
    rw [hnc]
    rcases hr with h | h
    · exact ha.rect r h
    · rw [hab]; exact hb.rect r h

/-- **C51 (concatenation with an empty curve).** -/
theorem C51_add_empty {a b : Curve ℝ} (ha : WF a) (hb : WF b) (hd : a.ndim = b.ndim) (hae : a.rows = [])
    (hbe : b.rows ≠ []) (j1 j2 : ℝ) :
    (∃ c, a.add b = .ok c ∧ arclen j1 c = arclen j2 b) ∧ (∃ c, b.add a = .ok c ∧ arclen j1 c = arclen j2 b) := by
  constructor
  · obtain ⟨c, h1, h2, -, -, -, h3⟩ := (C09_add ha hb).2 hd
    rw [hae, List.nil_append] at h2
    have hnc : c.ncols = a.ncols := h3 (.inr hbe)
    have hab : a.ncols = b.ncols := hd
    refine ⟨c, h1, ?_⟩
    rw [arclen_eq hb.rect hbe, arclen_eq (by rw [h2, hnc, hab]; exact hb.rect) (by rwa [h2]), h2, hnc, hab]
  · obtain ⟨c, h1, h2, -, -, -, h3⟩ := (C09_add hb ha).2 hd.symm
    rw [hae, List.append_nil] at h2
    have hnc : c.ncols = b.ncols := h3 (.inl hbe)
    refine ⟨c, h1, ?_⟩
    rw [arclen_eq hb.rect hbe, arclen_eq (by rw [h2, hnc]; exact hb.rect) (by rwa [h2]), h2, hnc]

/-- **C51 (distance of the ends).** The arc length is at least the distance of any two points of the curve,
in particular of the first and the last. -/
theorem C51_ends {c : Curve ℝ} (hc : WF c) (i j : Nat) (hij : i ≤ j) (p q : List ℝ) (hp : c.rows[i]? = some p)
    (hq : c.rows[j]? = some q) (junk : ℝ) : gap c.ndim p q ≤ arclen junk c := by
  have hi := (List.getElem?_eq_some_iff.1 hp).1
  have hne : c.rows ≠ [] := by intro h; rw [h] at hi; simp at hi
  rw [arclen_eq hc.rect hne]
  have hd : gap c.ndim p p = 0 := dist_self _
  rcases hij.lt_or_eq with h | rfl
  · have hs : [p, q].Sublist c.rows := by
      have hj := (List.getElem?_eq_some_iff.1 hq).1
      have h1 : c.rows = c.rows.take j ++ c.rows.drop j := (List.take_append_drop _ _).symm
      rw [h1]
      have hp' : [p].Sublist (c.rows.take j) := by
        rw [List.singleton_sublist]
        apply List.mem_of_getElem? (i := i)
        rw [List.getElem?_take, if_pos h, hp]
      have hq' : [q].Sublist (c.rows.drop j) := by
        rw [List.singleton_sublist]
        apply List.mem_of_getElem? (i := 0)
        rw [List.getElem?_drop, Nat.add_zero, hq]
      exact hp'.append hq'
    have := pathLen_sublist c.ncols hs
    simpa [pathLen, Curve.ndim] using this
  · rw [hp] at hq
    cases hq
    rw [hd]
    exact pathLen_nonneg _ _

theorem pathLen_map (n : Nat) (f : List ℝ → List ℝ) (k : ℝ) (l : List (List ℝ))
    (h : ∀ a ∈ l, ∀ b ∈ l, gap n (f a) (f b) = k * gap n a b) : pathLen n (l.map f) = k * pathLen n l := by
  induction l with
  | nil => simp [pathLen]
  | cons a l ih =>
    cases l with
    | nil => simp [pathLen]
    | cons b l =>
      have := ih fun x hx y hy => h x (List.mem_cons_of_mem _ hx) y (List.mem_cons_of_mem _ hy)
      simp only [List.map_cons, pathLen] at *
      rw [this, h a (by simp) b (by simp)]
      ring

/-- **C51 (translation and scaling, partial).** The curve with all points moved by `v` has the same arc
length, the curve with all coordinates multiplied by `k` the |k|-fold. Missing: empty curves. -/
theorem C51_similar_partial {c : Curve ℝ} (hc : WF c) (hne : c.rows ≠ []) (v : List ℝ) (hv : v.length = c.ndim)
    (k junk junk' : ℝ) :
    arclen junk' { c with rows := c.rows.map fun r => List.zipWith (fun x y => k * x + y) r v } =
      |k| * arclen junk c := by
  rw [arclen_eq hc.rect hne, arclen_eq]
  · apply pathLen_map
    intro a ha b hb
    have hga : ∀ r ∈ c.rows, ∀ i : Fin c.ncols, (List.zipWith (fun x y => k * x + y) r v).getD i 0 =
        k * r.getD i 0 + v.getD i 0 := by
      intro r hr i
      have h1 : (i : Nat) < r.length := by rw [hc.rect r hr]; exact i.2
      have h2 : (i : Nat) < v.length := by rw [hv]; exact i.2
      simp [List.getD_eq_getElem?_getD, List.getElem?_zipWith, h1, h2]
    rw [gap_eq_sqrt, gap_eq_sqrt]
    have : ∑ i : Fin c.ncols, ((List.zipWith (fun x y => k * x + y) b v).getD i 0 -
        (List.zipWith (fun x y => k * x + y) a v).getD i 0) ^ 2 =
        k ^ 2 * ∑ i : Fin c.ncols, (b.getD i 0 - a.getD i 0) ^ 2 := by
      rw [Finset.mul_sum]
      refine Finset.sum_congr rfl fun i _ => ?_
      rw [hga a ha i, hga b hb i]
      ring
    rw [this, Real.sqrt_mul (sq_nonneg k), Real.sqrt_sq_eq_abs]
  · intro r hr
    simp only [List.mem_map] at hr
    obtain ⟨r', hr', rfl⟩ := hr
    have hv' : v.length = c.ncols := hv
    simp [hc.rect r' hr', hv']
  · simpa using hne

/-! ## C52 -/

theorem gather_sublist {β : Type} (xs : List β) (ks : List Nat) (h : ks.Pairwise (· < ·)) : (gather xs ks).Sublist xs := by
  have key : ∀ (m : Nat) (ks : List Nat), ks.Pairwise (· < ·) → (∀ k ∈ ks, m ≤ k) →
      (gather xs ks).Sublist (xs.drop m) := by
    intro m ks hp hm
    induction ks generalizing m with
    | nil => simp [gather]
    | cons k ks ih =>
      rw [List.pairwise_cons] at hp
      have h1 := ih (k + 1) hp.2 (fun x hx => hp.1 x hx)
      have h2 : (xs.drop k).Sublist (xs.drop m) := by
        have := hm k (by simp)
        obtain ⟨d, rfl⟩ := Nat.exists_eq_add_of_le this
        rw [← List.drop_drop]
        exact List.drop_sublist _ _
      refine List.Sublist.trans ?_ h2
      unfold gather at *
      by_cases hk : k < xs.length
      · rw [List.filterMap_cons, List.getElem?_eq_getElem hk]
        simp only
        rw [List.drop_eq_getElem_cons hk]
        exact h1.cons_cons _
      · rw [List.filterMap_cons, List.getElem?_eq_none (by omega)]
        simp only
        refine h1.trans ?_
        rw [← List.drop_drop]
        exact List.drop_sublist _ _
  simpa using key 0 ks h (by simp)

theorem arclen_sub {c c' : Curve ℝ} (hc : WF c) (hne : c'.rows ≠ []) (hs : c'.rows.Sublist c.rows)
    (hn : c'.ncols = c.ncols) (junk junk' : ℝ) : arclen junk' c' ≤ arclen junk c := by
  have hcne : c.rows ≠ [] := by
    intro h; rw [h] at hs; exact hne (List.sublist_nil.1 hs)
  rw [arclen_eq hc.rect hcne, arclen_eq (fun r hr => by rw [hn]; exact hc.rect r (hs.subset hr)) hne, hn]
  exact pathLen_sublist _ hs

/-- **C52 (delete, partial).** Any successful `delete` that leaves a point. Missing: deleting everything (the
arc length of an empty curve is garbage, `C50_empty_fails`). -/
theorem C52_delete_partial {c c' : Curve ℝ} (hc : WF c) (o : Obj) (h : c.delete o = .ok c') (hne : c'.rows ≠ [])
    (junk junk' : ℝ) : arclen junk' c' ≤ arclen junk c := by
  rw [delete_curve_eq hc] at h
  split at h
  · simp at h
  · simp only [Except.ok.injEq] at h
    subst h
    have hk : keptPos c.size o ≠ [] := by intro h; apply hne; simp [h, gather]
    exact arclen_sub hc hne (gather_sublist _ _ (List.Pairwise.filter _ List.pairwise_lt_range)) (if_neg hk) _ _

theorem gather_of_picks {β : Type} {xs ys : List β} {ks : List Nat} (hp : Picks xs ks ys) : ys = gather xs ks := by
  unfold Picks at hp
  unfold gather
  have h2 := congrArg (List.filterMap id) hp
  rw [List.filterMap_map, List.filterMap_map] at h2
  simpa [Function.comp_def] using h2

theorem arclen_subCurve {c c' : Curve ℝ} (hc : WF c) {ks : List Nat} (hks : SubCurve c c' ks)
    (hinc : ks.Pairwise (· < ·)) (hne : c'.rows ≠ []) (junk junk' : ℝ) : arclen junk' c' ≤ arclen junk c := by
  have hk : ks ≠ [] := by
    rintro rfl
    apply hne
    simpa [Picks] using hks.points
  refine arclen_sub hc hne ?_ (hks.ndim hk) _ _
  rw [gather_of_picks hks.points]
  exact gather_sublist _ _ hinc

/-- **C52 (selection, partial).** Slices with a positive step, masks, and index lists naming increasing
positions, whenever a point is selected. Missing: selecting nothing (the arc length of an empty curve is
garbage, `C50_empty_fails`). -/
theorem C52_select_partial {c c' : Curve ℝ} (hc : WF c) (hne : c'.rows ≠ []) (junk junk' : ℝ) :
    (∀ s : PySlice, 0 < s.step.getD 1 → c.getSub (.slice s) = .ok c' → arclen junk' c' ≤ arclen junk c) ∧
    (∀ bs, c.getSub (.mask bs) = .ok c' → arclen junk' c' ≤ arclen junk c) ∧
    (∀ is ks, List.Forall₂ (IsPos c.size) is ks → ks.Pairwise (· < ·) → c.getSub (.list is) = .ok c' →
      arclen junk' c' ≤ arclen junk c) := by
  refine ⟨?_, ?_, ?_⟩
  · intro s hs h
    obtain ⟨c'', ks, h1, h2, -, h3, -⟩ := C07_slice hc s (by omega)
    rw [h] at h1
    cases h1
    exact arclen_subCurve hc h2 (h3 hs) hne _ _
  · intro bs h
    by_cases hl : bs.length = c.size
    · obtain ⟨c'', ks, h1, h2, h3, -⟩ := (C08_mask hc bs).1 hl
      rw [h] at h1
      cases h1
      exact arclen_subCurve hc h2 h3 hne _ _
    · rw [(C08_mask hc bs).2 hl] at h
      simp at h
  · intro is ks hks hinc h
    have hisne : is ≠ [] := by
      rintro rfl
      have : selPos c.size (.list []) = .error .indexError := rfl
      rw [getSub_eq hc, this] at h
      simp at h
    have hr : ∀ i ∈ is, InRange c.size i := by
      intro i hi
      obtain ⟨n, hn, rfl⟩ := List.getElem_of_mem hi
      have hl := hks.length_eq
      have := List.Forall₂.get hks hn (by omega)
      simp only [List.get_eq_getElem, IsPos] at this
      unfold InRange
      omega
    obtain ⟨c'', ks', h1, h2, h3⟩ := C08_list hc is hisne hr
    rw [h] at h1
    cases h1
    have he : ks' = ks := by
      clear hinc hne h h3 hisne hr
      induction h2 generalizing ks with
      | nil => cases hks; rfl
      | cons ha _ ih =>
        cases hks with
        | cons hb hks =>
          rw [ih _ hks]
          congr 1
          unfold IsPos at ha hb
          omega
    subst he
    exact arclen_subCurve hc h3 hinc hne _ _

/-- **C52 (unique, partial).** Missing: empty curves. -/
theorem C52_unique_partial {c : Curve ℝ} (hc : WF c) (hne : c.rows ≠ []) (junk junk' : ℝ) :
    ∃ c', c.unique = .ok c' ∧ arclen junk' c' ≤ arclen junk c := by
  obtain ⟨c', ks, h1, h2, h3, h4, h5, h6⟩ := C15_unique hc
  have hne' : c'.rows ≠ [] := by
    obtain ⟨r, hr⟩ := List.exists_mem_of_ne_nil _ hne
    exact List.ne_nil_of_mem ((h6 r).2 hr)
  exact ⟨c', h1, arclen_subCurve hc h2 h3 hne' _ _⟩

/-- **C52 (insert, partial).** Any successful `insert`, with any index, into a curve with a point never
shortens it. Missing: inserting into an empty curve (its arc length is garbage). -/
theorem C52_insert_partial {c c' : Curve ℝ} (hc : WF c) (hne : c.rows ≠ []) {o : PointOrCurve ℝ} (ho : Insertable o)
    (ix : Obj) (h : c.insert ix o = .ok c') (junk junk' : ℝ) : arclen junk c ≤ arclen junk' c' := by
  have hd : c.ndim = o.ndim := by
    by_contra hd
    rw [(C11_reject c o).1 hd ix] at h
    simp at h
  cases hi : Np.insert c.rows ix (o.rows.map fun r => r.map c.dtype.cast) with
  | error e =>
    unfold Curve.insert checkNdim at h
    rw [if_neg (by simpa using hd)] at h
    simp [hi] at h
  | ok rows =>
    obtain ⟨hs, hm⟩ := insert_facts hi
    have hrne : rows ≠ [] := by
      intro h'; rw [h'] at hs; exact hne (List.sublist_nil.1 hs)
    have hf := insert_finish hc ho hd hi hm
    rw [hf, if_neg hrne] at h
    simp only [Except.ok.injEq] at h
    have hw : WF c' := insert_WF (by rw [hf, if_neg hrne, h] : c.insert ix o = .ok c')
    subst h
    rw [arclen_eq hc.rect hne, arclen_eq hw.rect hrne]
    exact pathLen_sublist _ hs

/-! ## C53 -/

theorem chord_insert (r s : List ℝ) (k : Nat) (x y : ℝ) (hl : r.length = s.length) :
    chord (r.take k ++ [x] ++ r.drop k) (s.take k ++ [y] ++ s.drop k) =
      √ ((List.zipWith (fun x y => (y - x) ^ 2) r s).sum + (y - x) ^ 2) := by
  unfold chord
  have h1 : (r.take k ++ [x]).length = (s.take k ++ [y]).length := by simp [hl]
  rw [List.zipWith_append h1, List.zipWith_append (by simp [hl]), List.sum_append, List.sum_append]
  conv_rhs => rw [← List.take_append_drop k r, ← List.take_append_drop k s, List.zipWith_append (by simp [hl]),
    List.sum_append]
  congr 1
  simp
  ring

theorem insertdim_rel {c c' : Curve ℝ} (hc : WF c) (hne : c.rows ≠ []) (a : Int) (v : List ℝ) (hv : v.length = c.size)
    (h : c.insertdim a (some v) = .ok c') :
    ∃ k : Nat, c'.rows = List.zipWith (fun r x => r.take k ++ [c.dtype.cast x] ++ r.drop k) c.rows v := by
  by_cases ha : a < -(c.ndim : Int) ∨ a > c.ndim
  · unfold Curve.insertdim at h
    simp only [Curve.ndim] at ha
    simp [ha] at h
  · refine ⟨(if a < 0 then a + (c.ndim : Int) else a).toNat, ?_⟩
    rw [insertdim_ok hc a (if a < 0 then a + (c.ndim : Int) else a).toNat (by split <;> omega) (by split <;> omega) v hv] at h
    cases h
    rfl

theorem chords_get (rows : List (List ℝ)) (i : Nat) : (chords rows)[i]? =
    match rows[i]?, rows[i + 1]? with
    | some a, some b => some (chord a b)
    | _, _ => none := by
  unfold chords
  rw [List.getElem?_zipWith, List.getElem?_tail]
  cases rows[i]? <;> cases rows[i + 1]? <;> rfl

/-- **C53 (any values).** A successful `insertdim` (or `appenddim`, which is `insertdim` at `ndim`) makes no
chord shorter. The number of chords stays the same. -/
theorem C53_insertdim {c c' : Curve ℝ} (hc : WF c) (hne : c.rows ≠ []) (a : Int) (v : List ℝ) (hv : v.length = c.size)
    (h : c.insertdim a (some v) = .ok c') (junk junk' : ℝ) :
    ∃ xs ys, chordlen junk c = .vec xs ∧ chordlen junk' c' = .vec ys ∧ List.Forall₂ (· ≤ ·) xs ys := by
  obtain ⟨k, hk⟩ := insertdim_rel hc hne a v hv h
  have hsz : v.length = c.rows.length := hv
  have hlen : c'.rows.length = c.rows.length := by rw [hk]; simp [hsz]
  have hne' : c'.rows ≠ [] := by
    intro h; rw [h] at hlen; exact hne (List.length_eq_zero_iff.1 hlen.symm)
  refine ⟨_, _, chordlen_vec hne _, chordlen_vec hne' _, ?_⟩
  rw [List.forall₂_iff_get]
  refine ⟨by rw [chords_length, chords_length, hlen], ?_⟩
  intro i h1 h2
  rw [chords_length] at h1
  have e1 := chords_get c.rows i
  have e2 := chords_get c'.rows i
  rw [hk] at e2
  have hi : i < c.rows.length := by omega
  have hi' : i + 1 < c.rows.length := by omega
  simp only [List.getElem?_zipWith, List.getElem?_eq_getElem hi, List.getElem?_eq_getElem hi',
    List.getElem?_eq_getElem (show i < v.length by omega), List.getElem?_eq_getElem (show i + 1 < v.length by omega)] at e1 e2
  rw [← hk] at e2
  rw [List.getElem?_eq_some_iff] at e1 e2
  obtain ⟨_, e1⟩ := e1
  obtain ⟨_, e2⟩ := e2
  simp only [List.get_eq_getElem]
  rw [e1, e2, chord_insert _ _ _ _ _ (by rw [hc.rect _ (List.getElem_mem _), hc.rect _ (List.getElem_mem _)])]
  exact Real.sqrt_le_sqrt (le_add_of_nonneg_right (sq_nonneg _))

/-- **C53 (default values).** `insertdim(axis)` adds a zero coordinate and keeps every chord. -/
theorem C53_default {c c' : Curve ℝ} (hc : WF c) (hne : c.rows ≠ []) (a : Int) (h : c.insertdim a none = .ok c')
    (junk junk' : ℝ) : chordlen junk' c' = chordlen junk c := by
  have h' : c.insertdim a (some (List.replicate c.size 0)) = .ok c' := h
  have hv : (List.replicate c.size (0 : ℝ)).length = c.size := by simp
  obtain ⟨k, hk⟩ := insertdim_rel hc hne a _ hv h'
  have hlen : c'.rows.length = c.rows.length := by rw [hk]; simp [Curve.size]
  have hne' : c'.rows ≠ [] := by
    intro h; rw [h] at hlen; exact hne (List.length_eq_zero_iff.1 hlen.symm)
  rw [chordlen_vec hne, chordlen_vec hne']
  congr 1
  apply List.ext_getElem?
  intro i
  rw [chords_get, chords_get, hk]
  simp only [List.getElem?_zipWith, List.getElem?_replicate, Curve.size]
  by_cases hi' : i + 1 < c.rows.length
  · have hi : i < c.rows.length := by omega
    simp only [List.getElem?_eq_getElem hi, List.getElem?_eq_getElem hi', hi, hi', if_true]
    rw [chord_insert _ _ _ _ _ (by rw [hc.rect _ (List.getElem_mem _), hc.rect _ (List.getElem_mem _)])]
    simp [chord]
  · rw [List.getElem?_eq_none (show c.rows.length ≤ i + 1 by omega)]
    by_cases hi : i < c.rows.length
    · simp [List.getElem?_eq_getElem hi, hi']
    · simp [List.getElem?_eq_none (show c.rows.length ≤ i by omega)]

/-! ## C04 (lengths) -/

theorem chord_pad (a b : List ℝ) (m : Nat) (h : a.length = b.length) :
    chord (a ++ List.replicate m 0) (b ++ List.replicate m 0) = chord a b := by
  unfold chord
  rw [List.zipWith_append h, List.sum_append]
  simp

/-- **C04 (lengths).** Padding with `ndmin` changes no chord length, hence not the arc length. -/
theorem C04_lengths (rows : List (List ℝ)) (n : Nat) (dt : DType) (k : Int) (hk : 2 ≤ k) (hn : 2 ≤ n)
    (hne : rows ≠ []) (hr : ∀ r ∈ rows, r.length = n) (junk junk' : ℝ) :
    ∃ c c0, Curve.init (.arr (NdArr.ofRows Elem.zero rows n) dt) none none (some k) none = .ok c ∧
      Curve.init (.arr (NdArr.ofRows Elem.zero rows n) dt) none none none none = .ok c0 ∧
      chordlen junk c = chordlen junk' c0 ∧ arclen junk c = arclen junk' c0 := by
  obtain ⟨c, h1, -, -, h2⟩ := C04_ndmin rows n dt k hk hn hne hr
  have h0 : Curve.init (.arr (NdArr.ofRows Elem.zero rows n) dt) none none none none =
      .ok ⟨rows.map fun r => r.map dt.cast, n, none, dt⟩ := by
    have h := ofRows_eq rows n dt none hr
    have hl : rows.length ≠ 0 := by simpa using hne
    rw [if_neg (Nat.mul_ne_zero hl (by omega)), if_neg (by omega)] at h
    exact h
  have hch : chordlen junk c = chordlen junk' ⟨rows.map fun r => r.map dt.cast, n, none, dt⟩ := by
    rw [chordlen_vec (by rw [h2]; simpa using hne), chordlen_vec (by simpa using hne), h2]
    congr 1
    apply List.ext_getElem?
    intro i
    rw [chords_get, chords_get]
    simp only [List.getElem?_map]
    cases ha : rows[i]? with
    | none => rfl
    | some a =>
      cases hb : rows[i + 1]? with
      | none => rfl
      | some b =>
        simp only [Option.map_some]
        congr 1
        exact chord_pad _ _ _ (by simp [hr a (List.mem_of_getElem? ha), hr b (List.mem_of_getElem? hb)])
  exact ⟨c, _, h1, h0, hch, by unfold arclen; rw [hch]⟩

/-- **C04 (lengths, all data).** Whatever the data, if both curves can be made and have points, `ndmin` changes no chord length and not the arc
length. -/
theorem C04_lengths_any (d : CurveData ℝ) (t : Option (List ℝ)) (axis : Option Int) (dt : Option DType) (k : Int) (hk : 2 ≤ k) (c0 : Curve ℝ)
    (h0 : Curve.init d t axis none dt = .ok c0) (hne : c0.rows ≠ []) (junk junk' : ℝ) :
    ∃ c, Curve.init d t axis (some k) dt = .ok c ∧ chordlen junk c = chordlen junk' c0 ∧ arclen junk c = arclen junk' c0 := by
  obtain ⟨c, h1, -, -, -, -, h2⟩ := (C04_any d t axis dt k hk).2 c0 h0
  have hr := (init_WF h0).rect
  have hch : chordlen junk c = chordlen junk' c0 := by
    rw [chordlen_vec (by rw [h2]; simpa using hne), chordlen_vec hne, h2]
    congr 1
    apply List.ext_getElem?
    intro i
    rw [chords_get, chords_get]
    simp only [List.getElem?_map]
    cases ha : c0.rows[i]? with
    | none => rfl
    | some a =>
      cases hb : c0.rows[i + 1]? with
      | none => rfl
      | some b =>
        simp only [Option.map_some]
        congr 1
        exact chord_pad _ _ _ (by rw [hr a (List.mem_of_getElem? ha), hr b (List.mem_of_getElem? hb)])
  exact ⟨c, h1, hch, by unfold arclen; rw [hch]⟩

/-! ## C72 (length) -/

/-- **C72 (length).** The arc length of the sub-curve from point `i` to point `j` is
`cumarclen[j] - cumarclen[i]`. -/
theorem C72_arclen {c : Curve ℝ} (hc : WF c) (cid i j : Nat) (hi : i ≤ j) (hj : j < c.size) (junk junk' : ℝ) :
    ∃ p q c' x y, CurvePoint.init c cid i = .ok p ∧ CurvePoint.init c cid j = .ok q ∧
      p.subcurveArg (.cpoint q) true = .ok c' ∧ (cumarclen junk c)[i]? = some x ∧ (cumarclen junk c)[j]? = some y ∧
      arclen junk' c' = y - x := by
  obtain ⟨p, q, c', h1, h2, h3, h4, -⟩ := C72_subcurve hc cid i j hi hj true
  simp only [if_true] at h4
  have hj' : j < c.rows.length := hj
  refine ⟨p, q, c', _, _, h1, h2, h3, cumarclen_get hc.rect junk i (by omega), cumarclen_get hc.rect junk j hj, ?_⟩
  have hlen : c'.rows.length = j + 1 - i := by rw [h4]; simp; omega
  have hne : c'.rows ≠ [] := by intro h; rw [h] at hlen; simp at hlen; omega
  rw [arclen_eq_n (n := c.ncols) _ hne, h4, pathLen_split _ (c.rows.take (j + 1)) i, List.take_take,
    Nat.min_eq_left (by omega)]
  · ring
  · intro r hr
    rw [h4] at hr
    exact hc.rect r (List.mem_of_mem_take (List.mem_of_mem_drop hr))

/-! ## The hypotheses are met by concrete curves -/

/-- A right angled path of length 7. -/
def exPath : Curve ℝ := ⟨[[0, 0], [3, 0], [3, 4]], 2, none, .float⟩

theorem exPath_WF : WF exPath where
  two_le := by simp [exPath]
  rect := by simp [exPath]
  tlen := by simp [exPath]
  repr := by intro r _ x _; rfl

example : arclen 99 exPath = 7 := by
  have h1 : √ (9 : ℝ) = 3 := by rw [show (9 : ℝ) = 3 ^ 2 by norm_num]; exact Real.sqrt_sq (by norm_num)
  have h2 : √ (16 : ℝ) = 4 := by rw [show (16 : ℝ) = 4 ^ 2 by norm_num]; exact Real.sqrt_sq (by norm_num)
  simp [arclen, chordlen, exPath, chords, chord, NArr.sum]
  norm_num [h1, h2]

example : exPath.rows ≠ [] := by simp [exPath]

example : ∃ c', exPath.delete (.int 1) = .ok c' ∧ c'.rows ≠ [] :=
  ⟨⟨[[0, 0], [3, 4]], 2, none, .float⟩, by rw [delete_curve_eq exPath_WF]; rfl, by simp⟩

/-- A rounding that meets the hypotheses of `C50_monotone_rounded` and is not the identity: down to
integers. -/
example : Monotone (fun x : ℝ => (⌊x⌋ : ℝ)) ∧ (∀ x : ℝ, ((⌊((⌊x⌋ : ℤ) : ℝ)⌋ : ℤ) : ℝ) = ⌊x⌋) :=
  ⟨fun _ _ h => Int.cast_le.2 (Int.floor_mono h), fun x => by simp⟩

/-! ## Concrete cases -/

theorem exPath_ne : exPath.rows ≠ [] := by simp [exPath]
example := C50_chordlen_partial exPath_WF exPath_ne 99
example := C50_cumarclen_partial exPath_WF exPath_ne 99
example := C50_monotone_rounded (fun x : ℝ => (⌊x⌋ : ℝ)) (fun _ _ h => Int.cast_le.2 (Int.floor_mono h)) (fun x => by simp) [3, 4] (by norm_num) (by norm_num)
example := C50_monotone exPath_ne 99
example := C51_reverse_partial exPath_WF exPath_ne 99 98
example := C51_add_partial exPath_WF exPath_WF rfl [3, 4] [0, 0] rfl rfl 1 2 3
example := C51_add_empty (a := ⟨[], 2, none, .float⟩) (b := exPath) ⟨by simp, by simp, by simp, by simp⟩ exPath_WF rfl rfl exPath_ne 1 2
example := C51_ends exPath_WF 0 2 (by norm_num) [0, 0] [3, 4] rfl rfl 99
example := C51_similar_partial exPath_WF exPath_ne [1, 2] rfl (-3) 99 98
example := C52_delete_partial (c := exPath) (c' := ⟨[[0, 0], [3, 4]], 2, none, .float⟩) exPath_WF (.int 1) (by rw [delete_curve_eq exPath_WF]; rfl) (by simp) 99 98
/-- `C52_select_partial`: every second point. -/
example : ∃ c', exPath.getSub (.slice ⟨none, none, some 2⟩) = .ok c' ∧ ∀ junk junk', c'.rows ≠ [] → arclen junk' c' ≤ arclen junk exPath := by
  obtain ⟨c', ks, h, -⟩ := C07_slice exPath_WF ⟨none, none, some 2⟩ (by simp)
  exact ⟨c', h, fun junk junk' hne => (C52_select_partial exPath_WF hne junk junk').1 _ (by simp) h⟩
example := C52_unique_partial exPath_WF exPath_ne 99 98
/-- `C52_insert_partial`: a point inserted before the second. -/
example : ∃ c', exPath.insert (.int 1) (.point ⟨[7, 7], .float⟩) = .ok c' ∧ ∀ junk junk', arclen junk exPath ≤ arclen junk' c' := by
  obtain ⟨c', h, -⟩ := C11_insert exPath_WF (o := .point ⟨[7, 7], .float⟩) trivial rfl 1 1 (by simp [exPath, Curve.size]) (by simp)
  exact ⟨c', h, fun junk junk' => C52_insert_partial (o := .point ⟨[7, 7], .float⟩) exPath_WF exPath_ne trivial _ h junk junk'⟩
/-- `C53_insertdim`: a third coordinate. -/
example : ∃ c', exPath.insertdim (1 : Nat) (some [5, 6, 7]) = .ok c' ∧ ∀ junk junk', ∃ xs ys, chordlen junk exPath = .vec xs ∧ chordlen junk' c' = .vec ys ∧ List.Forall₂ (· ≤ ·) xs ys := by
  obtain ⟨c', h, -⟩ := C14_insertdim exPath_WF exPath_ne 1 (by simp [exPath, Curve.ndim]) [5, 6, 7] (by simp [exPath, Curve.size])
  exact ⟨c', h, fun junk junk' => C53_insertdim exPath_WF exPath_ne _ _ (by simp [exPath, Curve.size]) h junk junk'⟩
example := C04_lengths [[0, 0], [3, 0], [3, 4]] 2 .float 3 (by norm_num) (by norm_num) (by simp) (by simp) 99 98
example := C04_lengths_any (.curve exPath) none none none 3 (by norm_num)
example := C72_arclen exPath_WF 0 0 2 (by norm_num) (by simp [exPath, Curve.size]) 99 98

end Verif.Props
