import Verif.Props.Edit

/-!
C135: `insert` and `insertdim` beyond the documented examples: one point at several positions, numbers of points and values that do not
fit, positions out of range, slices and boolean masks.
-/
namespace Verif.Props

open Verif Verif.Np Verif.Model Verif.Spec

variable {α : Type} [Elem α]

/-- The integer `i` names position `k` for insertion into a curve of `n` points. -/
def InsertPos (n : Nat) (i : Int) (k : Nat) : Prop := k ≤ n ∧ ((k : Int) = i ∧ 0 ≤ i ∨ (k : Int) = i + n ∧ i < 0)

theorem insertPos_facts {n : Nat} {is : List Int} {ks : List Nat} (hk : List.Forall₂ (InsertPos n) is ks) :
    (is.map fun i => (if i < 0 then i + (n : Int) else i).toNat) = ks ∧ (∀ i ∈ is, -(n : Int) ≤ i ∧ i ≤ n) ∧ is.length = ks.length := by
  induction hk with
  | nil => simp
  | cons h _ ih =>
    obtain ⟨h1, h2, h3⟩ := ih
    unfold InsertPos at h
    refine ⟨?_, ?_, by simp [h3]⟩
    · simp only [List.map_cons]
      rw [h1]; congr 1; split <;> omega
    · intro i hi
      rcases List.mem_cons.1 hi with rfl | hi
      · omega
      · exact h2 i hi

theorem insertMulti_spread {β : Type} (xs : List β) (is : List Int) (v : β) :
    insertMulti xs is [v] = insertMulti xs is (List.replicate is.length v) := by
  have h : bcast [v] is.length = .ok (List.replicate is.length v) := by
    unfold bcast
    split_ifs with h
    · rw [← h]; rfl
    · rfl
  have h' : bcast (List.replicate is.length v) is.length = .ok (List.replicate is.length v) := by simp [bcast]
  unfold insertMulti
  simp only [h, h']

/-- **C135, one point.** One point (or a curve of one point) inserted at a list of positions is put before each of them. -/
theorem C135_spread {c : Curve α} (hc : WF c) {o : PointOrCurve α} (ho : Insertable o) (hd : c.ndim = o.ndim) {p : List α} (hp : o.rows = [p])
    {is : List Int} {ks : List Nat} (hk : List.Forall₂ (InsertPos c.size) is ks) :
    ∃ c', c.insert (.arr is) o = .ok c' ∧ c'.rows = insertBefore c.rows (ks.map fun k => (k, p.map c.dtype.cast)) ∧
      c'.isparametric = false := by
  by_cases h1 : is.length = 1
  · have hl : ks.length = 1 := by rw [← hk.length_eq, h1]
    match ks, hl with
    | [k], _ =>
      obtain ⟨c', h2, h3, h4⟩ := C11_insert_list hc ho hd is [k] (by rw [hp, h1]; rfl) hk
      exact ⟨c', h2, by rw [h3, hp]; rfl, h4⟩
  · obtain ⟨e1, e2, e3⟩ := insertPos_facts hk
    have hins : Np.insert c.rows (.arr is) (o.rows.map fun r => r.map c.dtype.cast) =
        .ok (insertBefore c.rows (ks.map fun k => (k, p.map c.dtype.cast))) := by
      rw [insert_arr _ _ _ h1, hp, List.map_cons, List.map_nil, insertMulti_spread, insertMulti_eq _ _ _ e2 (by simp)]
      have e1' : (is.map fun i => (if i < 0 then i + (c.rows.length : Int) else i).toNat) = ks := e1
      rw [e1', e3]
      congr 2
      clear hk e1 e1' e3
      induction ks with
      | nil => rfl
      | cons k ks ih => simp [List.replicate_succ, ih]
    refine ⟨_, insert_finish hc ho hd hins ?_, rfl, rfl⟩
    intro r hr
    simp only [insertBefore, List.mem_flatMap, List.mem_append, List.mem_map (f := Prod.snd), List.mem_filter] at hr
    obtain ⟨k, _, h | h⟩ := hr
    · obtain ⟨q, ⟨hq, _⟩, rfl⟩ := h
      obtain ⟨_, _, rfl⟩ := List.mem_map.1 hq
      right; simp [hp]
    · left
      simp only [Option.mem_toList, Option.mem_def] at h
      exact List.mem_of_getElem? h

theorem insertMulti_reject {β : Type} (xs vals : List β) (is : List Int) :
    ((∀ i ∈ is, -(xs.length : Int) ≤ i ∧ i ≤ xs.length) → vals.length ≠ is.length → vals.length ≠ 1 →
      insertMulti xs is vals = .error .valueError) ∧
    ∀ i ∈ is, (xs.length : Int) < i → insertMulti xs is vals = .error .indexError := by
  constructor
  · intro hr h1 h2
    unfold insertMulti
    simp only
    have hb : bcast vals is.length = .error .valueError := by
      unfold bcast
      rw [if_neg h1]
      match vals, h2 with
      | [], _ => rfl
      | [_], h2 => simp at h2
      | _ :: _ :: _, _ => rfl
    cases hm : ((addRank (is.map fun i => if i < 0 then i + (xs.length : Int) else i)).mapM (normIdx (xs.length + is.length))) with
    | none =>
      exfalso
      have h := insertMulti_eq (List.replicate xs.length ()) (List.replicate is.length ()) is (by simpa using hr) (by simp)
      unfold insertMulti at h
      simp only [List.length_replicate, hm] at h
      cases h
    | some pos => simp only [hb]
  · intro i hi hgt
    unfold insertMulti
    simp only
    set is1 := is.map fun i => if i < 0 then i + (xs.length : Int) else i with his1
    have hl1 : is1.length = is.length := by simp [his1]
    have hpos : 0 < is.length := List.length_pos_of_mem hi
    have hm : (addRank is1).mapM (normIdx (xs.length + is.length)) = none := by
      by_contra hne
      obtain ⟨pos, hp⟩ := Option.ne_none_iff_exists'.1 hne
      rw [mapM_some] at hp
      have hol : (argsort is1).length = is.length := by rw [argsort_length, hl1]
      set j := (argsort is1)[is.length - 1]'(by omega) with hj
      have hjl : j < is1.length := (mem_argsort _).1 (List.getElem_mem _)
      have hrank : (argsort is1).idxOf j = is.length - 1 := (argsort_nodup is1).idxOf_getElem _ _
      have hkey : i ≤ key is1 j := by
        obtain ⟨a, ha, rfl⟩ := List.getElem_of_mem hi
        have hai : a ∈ argsort is1 := (mem_argsort _).2 (by omega)
        obtain ⟨b, hb, hab⟩ := List.getElem_of_mem hai
        have hka : key is1 a = is[a] := by
          simp only [key, his1, List.getElem?_map, List.getElem?_eq_getElem ha, Option.map_some, Option.getD_some]
          rw [if_neg (by omega)]
        rw [← hka]
        by_cases hbe : b = is.length - 1
        · subst hbe; rw [← hab]
        · have := (List.pairwise_iff_getElem.1 (argsort_sorted is1)) b (is.length - 1) hb (by omega) (by omega)
          rw [hab] at this
          exact this
      have hlen : (addRank is1).length = is.length := by simp [addRank, hl1]
      obtain ⟨y, hy⟩ : ∃ y, pos[j]? = some y := ⟨_, List.getElem?_eq_getElem (by rw [← hp.length_eq, hlen]; omega)⟩
      have hv : (addRank is1)[j]? = some (key is1 j + ((argsort is1).idxOf j : Int)) := by
        simp [addRank, List.getElem?_range hjl, key]
      have := List.forall₂_iff_get.1 hp
      have h3 : normIdx (xs.length + is.length) (key is1 j + ((argsort is1).idxOf j : Int)) = some y := by
        have h4 := this.2 j (by rw [hlen]; omega) (by rw [← hp.length_eq, hlen]; omega)
        rw [List.getElem?_eq_getElem (by rw [hlen]; omega)] at hv
        rw [List.getElem?_eq_getElem (by rw [← hp.length_eq, hlen]; omega)] at hy
        simp only [Option.some.injEq] at hv hy
        simp only [List.get_eq_getElem] at h4
        rw [hv, hy] at h4
        exact h4
      rw [normIdx_eq_some, IsPos, hrank] at h3
      push_cast at h3
      omega
    rw [hm]

/-- **C135, refusals.** If several positions in range are given, and neither one point nor as many points as positions, it is a ValueError;
a list with a position beyond the end is an IndexError. -/
theorem C135_reject {c : Curve α} {o : PointOrCurve α} (hd : c.ndim = o.ndim) {is : List Int} (h1 : is.length ≠ 1) :
    ((∀ i ∈ is, ∃ k, InsertPos c.size i k) → o.rows.length ≠ is.length → o.rows.length ≠ 1 → c.insert (.arr is) o = .error .valueError) ∧
    ∀ i ∈ is, (c.size : Int) < i → c.insert (.arr is) o = .error .indexError := by
  obtain ⟨g1, g2⟩ := insertMulti_reject c.rows (o.rows.map fun r => r.map c.dtype.cast) is
  have e : ∀ e, insertMulti c.rows is (o.rows.map fun r => r.map c.dtype.cast) = .error e → c.insert (.arr is) o = .error e := by
    intro e he
    unfold Curve.insert checkNdim
    rw [if_neg (by simpa using hd), insert_arr _ _ _ h1]
    simp only [he]
  constructor
  · intro hk h2 h3
    refine e _ (g1 ?_ (by simpa using h2) (by simpa using h3))
    intro i hi
    obtain ⟨k, h4⟩ := hk i hi
    unfold InsertPos at h4
    have : c.size = c.rows.length := rfl
    omega
  · intro i hi hgt
    exact e _ (g2 i hi hgt)

/-- **C135, other indexers.** A list of one position is that position. A slice is the list of the positions it selects (so that a slice of
step 0 is a ValueError). A boolean mask is not a selection: it is the list of positions 0 (for False) and 1 (for True). -/
theorem C135_indexers (c : Curve α) (o : PointOrCurve α) :
    (∀ i, c.insert (.arr [i]) o = c.insert (.int i) o) ∧
    (∀ (a b : Option Int) (k : Int), k ≠ 0 → ∃ ks : List Nat,
      (∀ x, x ∈ ks ↔ SliceMem c.size ⟨a, b, some k⟩ x) ∧ (0 < k → ks.Pairwise (· < ·)) ∧ (k < 0 → ks.Pairwise (· > ·)) ∧
      c.insert (.slice ⟨a, b, some k⟩) o = c.insert (.arr (ks.map fun (x : Nat) => (x : Int))) o) ∧
    (c.ndim = o.ndim → ∀ a b, c.insert (.slice ⟨a, b, some 0⟩) o = .error .valueError) ∧
    ∀ bs, c.insert (.mask bs) o = c.insert (.arr (bs.map fun b => if b = true then 1 else 0)) o := by
  refine ⟨fun _ => rfl, ?_, ?_, fun _ => rfl⟩
  · intro a b k hk
    have h := sliceIndices_eq (n := c.size) (s := ⟨a, b, some k⟩) hk
    obtain ⟨_, h1, h2, h3, _⟩ := sliceIndices_spec h
    refine ⟨_, h1, h2, h3, ?_⟩
    have h' : sliceIndices c.rows.length ⟨a, b, some k⟩ = _ := h
    unfold Curve.insert Np.insert
    simp only [insertIdxs, h']
  · intro hd a b
    unfold Curve.insert checkNdim
    rw [if_neg (by simpa using hd)]
    simp [Np.insert, insertIdxs, sliceIndices, PySlice.k]

/-- **C135, violated.** "IndexError: If the index is out of bounds": position -4 of a curve of three points in a list is taken for the last
position of the result; alone it is refused. -/
theorem C135_negative_fails (p : Point ℚ) (q : Curve ℚ) (hp : p = ⟨[7, 7], .float⟩) (hq : q = ⟨[[7, 7], [8, 8]], 2, none, .float⟩) :
    exCurve.insert (.arr [-4, 0]) (.curve q) = .ok ⟨[[0, 0], [8, 8], [1, 2], [3, 1], [7, 7]], 2, none, .float⟩ ∧
    exCurve.insert (.int (-4)) (.point p) = .error .indexError := by
  subst hp hq
  refine ⟨?_, by decide⟩
  have h : addRank [-1, 0] = [-1, 1] := by
    simp [addRank, argsort, List.range_succ, List.mergeSort, List.MergeSort.Internal.splitInTwo, List.merge]
  have hm : insertMulti exCurve.rows [-4, 0] [[7, 7], [8, 8]] = .ok [[0, 0], [8, 8], [1, 2], [3, 1], [7, 7]] := by
    unfold insertMulti
    simp only
    rw [show ([-4, 0].map fun i => if i < 0 then i + (exCurve.rows.length : Int) else i) = [-1, 0] from rfl, h]
    decide
  unfold Curve.insert
  rw [insert_arr _ _ _ (by simp)]
  have e : (PointOrCurve.rows (.curve (⟨[[7, 7], [8, 8]], 2, none, .float⟩ : Curve ℚ))).map (fun r => r.map exCurve.dtype.cast) = [[7, 7], [8, 8]] := rfl
  rw [e, hm]
  rfl

/-- **C135, violated.** Every indexer of `c[...]` can be given: the mask that selects the last of three points in `c[mask]` inserts
three points, two before the first and one before the second. -/
theorem C135_mask_fails (p : Point ℚ) (hp : p = ⟨[7, 7], .float⟩) :
    ∃ c', exCurve.insert (.mask [false, false, true]) (.point p) = .ok c' ∧ c'.rows = [[7, 7], [7, 7], [0, 0], [7, 7], [1, 2], [3, 1]] := by
  obtain ⟨c', h1, h2, h3⟩ := C135_spread exCurve_WF (o := .point p) (by subst hp; trivial) (by subst hp; rfl) (p := [7, 7]) (by subst hp; rfl)
    (is := [0, 0, 1]) (ks := [0, 0, 1]) (by simp [InsertPos, exCurve, Curve.size])
  refine ⟨c', ?_, ?_⟩
  · rw [(C135_indexers exCurve (.point p)).2.2.2]; exact h1
  · rw [h2]; decide

/-! ## insertdim -/

/-- **C135, insertdim.** Negative axes count from the end; axes out of range are an IndexError; one value is used for all points; without
values the new axis holds zeros; any other number of values is a ValueError. -/
theorem C135_insertdim {c : Curve α} (hc : WF c) (hne : c.rows ≠ []) {a : Int} :
    (a < -(c.ndim : Int) ∨ (c.ndim : Int) < a → ∀ v, c.insertdim a v = .error .indexError) ∧
    ∀ k : Nat, InsertPos c.ndim a k →
      (∀ v, c.insertdim a v = c.insertdim k v) ∧
      (∀ x, c.insertdim a (some [x]) = c.insertdim a (some (List.replicate c.size x))) ∧
      (c.insertdim a none = c.insertdim a (some (List.replicate c.size Elem.zero))) ∧
      ∀ v : List α, v.length ≠ c.size → v.length ≠ 1 → c.insertdim a (some v) = .error .valueError := by
  have hnd : c.ndim = c.ncols := rfl
  constructor
  · intro h v
    unfold Curve.insertdim
    simp only
    rw [if_pos (by omega)]
  · intro k hk
    unfold InsertPos at hk
    have hin : ¬ (a < -(c.ncols : Int) ∨ a > c.ncols) := by omega
    refine ⟨?_, ?_, rfl, ?_⟩
    · intro v
      unfold Curve.insertdim
      simp only
      have hin' : ¬ ((k : Int) < -(c.ncols : Int) ∨ (k : Int) > c.ncols) := by omega
      simp only [if_neg hin, if_neg hin']
      have e : (if a < 0 then a + (c.ncols : Int) else a).toNat = (if (k : Int) < 0 then (k : Int) + (c.ncols : Int) else (k : Int)).toNat := by
        split_ifs <;> omega
      rw [e]
    · intro x
      unfold Curve.insertdim
      simp only [Option.getD_some, List.map_cons, List.map_nil, List.map_replicate]
      rw [if_neg hin, if_neg hin]
      have h1 : bcast [c.dtype.cast x] c.size = .ok (List.replicate c.size (c.dtype.cast x)) := by
        unfold bcast
        split_ifs with h
        · rw [← h]; rfl
        · rfl
      have h2 : bcast (List.replicate c.size (c.dtype.cast x)) c.size = .ok (List.replicate c.size (c.dtype.cast x)) := by simp [bcast]
      rw [h1, h2]
    · intro v h1 h2
      unfold Curve.insertdim
      simp only [Option.getD_some]
      rw [if_neg hin]
      have hb : bcast (v.map c.dtype.cast) c.size = .error .valueError := by
        unfold bcast
        rw [if_neg (by simpa using h1)]
        match v, h2 with
        | [], _ => rfl
        | [_], h2 => simp at h2
        | _ :: _ :: _, _ => rfl
      rw [hb]

/-! ## Instances -/

example (p : Point ℚ) (hp : p = ⟨[7, 7], .float⟩) : ∃ c', exCurve.insert (.arr [1, -1, 3]) (.point p) = .ok c' ∧
    c'.rows = [[0, 0], [7, 7], [1, 2], [7, 7], [3, 1], [7, 7]] := by
  obtain ⟨c', h1, h2, _⟩ := C135_spread exCurve_WF (o := .point p) (by subst hp; trivial) (by subst hp; rfl) (p := [7, 7]) (by subst hp; rfl)
    (is := [1, -1, 3]) (ks := [1, 2, 3]) (by simp [InsertPos, exCurve, Curve.size])
  refine ⟨c', h1, ?_⟩
  rw [h2]
  decide

example (q : Curve ℚ) (hq : q = ⟨[[7, 7], [8, 8]], 2, none, .float⟩) :
    exCurve.insert (.arr [0, 1, 2]) (.curve q) = .error .valueError ∧ exCurve.insert (.arr [0, 4]) (.curve q) = .error .indexError :=
  ⟨(C135_reject (by subst hq; rfl) (by simp)).1 (by
      intro i hi
      simp only [List.mem_cons, List.not_mem_nil, or_false] at hi
      rcases hi with rfl | rfl | rfl
      · exact ⟨0, by simp [InsertPos]⟩
      · exact ⟨1, by simp [InsertPos, exCurve, Curve.size]⟩
      · exact ⟨2, by simp [InsertPos, exCurve, Curve.size]⟩) (by subst hq; simp [PointOrCurve.rows]) (by subst hq; simp [PointOrCurve.rows]),
    (C135_reject (by subst hq; rfl) (by simp)).2 4 (by simp) (by simp [exCurve, Curve.size])⟩

example : exCurve.insertdim 1 (some [5, 6]) = .error .valueError :=
  ((C135_insertdim exCurve_WF (by simp [exCurve])).2 1 (by simp [InsertPos, exCurve, Curve.ndim])).2.2.2 _ (by simp [exCurve, Curve.size]) (by simp)

/-! ## Concrete cases -/

example := (C135_indexers exCurve (.point ⟨[7, 7], .float⟩)).2.1 (some 2) none (-1) (by decide)
example := (C135_indexers exCurve (.point ⟨[7, 7], .float⟩)).2.2.1 rfl none (some 2)

end Verif.Props
