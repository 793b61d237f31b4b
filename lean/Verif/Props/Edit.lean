import Verif.Props.Select
import Verif.Lemmas.Unique
import Verif.Lemmas.Insert
import Mathlib.Tactic.IntervalCases
import Mathlib.Tactic.NormNum

/-!
Editing: C11 (insert, append), C12 (delete undoes insert), C14 (dimensions), C15 (unique), C16 (drop),
C74 (stored numbers).
-/
namespace Verif.Props

open Verif Verif.Np Verif.Model Verif.Spec

variable {α : Type} [Elem α]

/-- What may be inserted: a point, or a well formed curve. -/
def Insertable : PointOrCurve α → Prop
  | .point _ => True
  | .curve c => WF c

theorem other_rect {o : PointOrCurve α} (ho : Insertable o) : ∀ r ∈ o.rows, r.length = o.ndim := by
  cases o with
  | point p => simp [PointOrCurve.rows, PointOrCurve.ndim, Point.ndim]
  | curve c => exact ho.rect

theorem insert_finish {c : Curve α} (hc : WF c) {o : PointOrCurve α} (ho : Insertable o) (hd : c.ndim = o.ndim)
    {ix : Obj} {rows : List (List α)}
    (h : Np.insert c.rows ix (o.rows.map fun r => r.map c.dtype.cast) = .ok rows)
    (hm : ∀ r ∈ rows, r ∈ c.rows ∨ r ∈ o.rows.map fun r => r.map c.dtype.cast) :
    c.insert ix o = .ok ⟨rows, if rows = [] then 2 else c.ncols, none, c.dtype⟩ := by
  unfold Curve.insert checkNdim
  rw [if_neg (by simpa using hd)]
  simp only [h]
  rw [ofRows_ok hc.two_le]
  · intro r hr
    rcases hm r hr with h | h
    · exact hc.rect r h
    · rw [List.mem_map] at h
      obtain ⟨r', hr', rfl⟩ := h
      rw [List.length_map, other_rect ho r' hr', ← hd]; rfl
  · intro r hr x hx
    rcases hm r hr with h | h
    · exact hc.repr r h x hx
    · exact mem_map_cast h hx
  · simp

/-! ## C11 -/

/-- **C11 (integer position).** For `-size <= i <= size`, meaning position `k`: `k` points of the curve,
then the inserted points (cast to the dtype of the curve), then the rest; not parametric. -/
theorem C11_insert {c : Curve α} (hc : WF c) {o : PointOrCurve α} (ho : Insertable o) (hd : c.ndim = o.ndim)
    (i : Int) (k : Nat) (hk : k ≤ c.size) (hik : (k : Int) = i ∧ 0 ≤ i ∨ (k : Int) = i + c.size ∧ i < 0) :
    ∃ c', c.insert (.int i) o = .ok c' ∧
      c'.rows = c.rows.take k ++ (o.rows.map fun r => r.map c.dtype.cast) ++ c.rows.drop k ∧
      c'.size = c.size + o.rows.length ∧ c'.isparametric = false ∧ c'.dtype = c.dtype ∧
      (c.rows ≠ [] ∨ o.rows ≠ [] → c'.ndim = c.ndim) := by
  have hn : c.size = c.rows.length := rfl
  have hkk : (if i < 0 then i + (c.rows.length : Int) else i).toNat = k := by split <;> omega
  have h := insertBlock_eq c.rows (o.rows.map fun r => r.map c.dtype.cast) i
  rw [if_pos (by omega), hkk] at h
  have := insert_finish hc ho hd (ix := .int i) h (by
    intro r hr
    simp only [List.mem_append] at hr
    rcases hr with (h | h) | h
    · exact .inl (List.mem_of_mem_take h)
    · exact .inr h
    · exact .inl (List.mem_of_mem_drop h))
  refine ⟨_, this, rfl, ?_, rfl, rfl, ?_⟩
  · simp only [Curve.size] at hk ⊢
    simp; omega
  · intro h
    simp only [Curve.ndim]
    rw [if_neg]
    intro e
    simp only [List.append_eq_nil_iff, List.map_eq_nil_iff] at e
    obtain ⟨⟨e1, e2⟩, e3⟩ := e
    rcases h with h | h
    · apply h; rw [← List.take_append_drop k c.rows, e1, e3]; rfl
    · exact h e2

/-- The inserted numbers are the supplied numbers when the dtype of the curve can hold them. -/
theorem C11_insert_exact {c : Curve α} (hc : WF c) {o : PointOrCurve α} (ho : Insertable o) (hd : c.ndim = o.ndim)
    (hx : ∀ r ∈ o.rows, ∀ x ∈ r, c.dtype.cast x = x) (i : Nat) (hi : i ≤ c.size) :
    ∃ c', c.insert (.int i) o = .ok c' ∧ c'.rows = c.rows.take i ++ o.rows ++ c.rows.drop i := by
  obtain ⟨c', h1, h2, _⟩ := C11_insert hc ho hd i i hi (.inl ⟨rfl, by omega⟩)
  exact ⟨c', h1, by rw [h2, map_cast_id hx]⟩

/-- **C11 (rejection).** Positions outside `-size..size` are an IndexError, different dimensions a
ValueError. -/
theorem C11_reject (c : Curve α) (o : PointOrCurve α) :
    (c.ndim ≠ o.ndim → ∀ ix, c.insert ix o = .error .valueError) ∧
    (c.ndim = o.ndim → ∀ i : Int, i < -(c.size : Int) ∨ (c.size : Int) < i → c.insert (.int i) o = .error .indexError) := by
  constructor
  · intro h ix
    unfold Curve.insert checkNdim
    rw [if_pos h]
  · intro h i hi
    have hn : c.size = c.rows.length := rfl
    unfold Curve.insert checkNdim
    rw [if_neg (by simpa using h)]
    have h := insertBlock_eq c.rows (o.rows.map fun r => r.map c.dtype.cast) i
    rw [if_neg (by omega)] at h
    simp only [insert_int, h]

/-- **C11 (append).** -/
theorem C11_append {c : Curve α} (hc : WF c) {o : PointOrCurve α} (ho : Insertable o) (hd : c.ndim = o.ndim) :
    ∃ c', c.append o = .ok c' ∧ c'.rows = c.rows ++ (o.rows.map fun r => r.map c.dtype.cast) ∧
      c'.isparametric = false := by
  obtain ⟨c', h1, h2, _, h4, _⟩ := C11_insert hc ho hd c.size c.size le_rfl (.inl ⟨rfl, by omega⟩)
  refine ⟨c', h1, ?_, h4⟩
  rw [h2]
  simp [Curve.size]

theorem insertBefore_single {β : Type} (xs : List β) (k : Nat) (v : β) (hk : k ≤ xs.length) :
    insertBefore xs [(k, v)] = xs.take k ++ [v] ++ xs.drop k := by
  have e : ∀ (ys : List β), (List.range ys.length).flatMap (fun j => (ys[j]?).toList) = ys := by
    intro ys
    induction ys with
    | nil => rfl
    | cons y ys ih =>
      rw [List.length_cons, List.range_succ_eq_map, List.flatMap_cons, List.flatMap_map]
      simpa using ih
  unfold insertBefore
  have hs : xs.length + 1 = k + (1 + (xs.length - k)) := by omega
  rw [hs, List.range_add, List.flatMap_append, List.flatMap_map, List.range_add, List.flatMap_append, List.flatMap_map]
  rw [List.append_assoc]
  congr 1
  · conv_rhs => rw [← e (xs.take k)]
    rw [List.length_take, Nat.min_eq_left hk]
    apply List.flatMap_congr
    intro j hj
    have := List.mem_range.1 hj
    have h1 : ¬ k = j := by omega
    simp [h1, this]
  · have h1 : xs.drop k = (xs[k]?).toList ++ xs.drop (k + 1) := by
      by_cases hk' : k < xs.length
      · simp [hk']
      · simp [hk', List.drop_of_length_le (show xs.length ≤ k by omega),
          List.drop_of_length_le (show xs.length ≤ k + 1 by omega)]
    rw [h1]
    simp only [List.range_one, List.flatMap_cons, List.flatMap_nil, Nat.add_zero, List.append_nil]
    simp only [List.filter_cons, beq_self_eq_true, if_true, List.filter_nil, List.map_cons, List.map_nil, List.append_assoc]
    congr 2
    conv_rhs => rw [← e (xs.drop (k+1))]
    by_cases hk' : k < xs.length
    · have : xs.length - k = (xs.drop (k+1)).length + 1 := by simp; omega
      rw [this, List.range_succ, List.flatMap_append]
      have h2 : (List.flatMap (fun a => List.map Prod.snd (if (k == k + (1 + a)) = true then [(k, v)] else []) ++ xs[k + (1 + a)]?.toList)
          [(List.drop (k + 1) xs).length]) = [] := by
        simp only [List.flatMap_cons, List.flatMap_nil, List.length_drop, List.append_nil]
        have h3 : ¬ k = k + (1 + (xs.length - (k+1))) := by omega
        simp [h3]; omega
      rw [h2, List.append_nil]
      apply List.flatMap_congr
      intro j hj
      simp [Nat.add_assoc]
    · have : xs.length - k = 0 := by omega
      have h2 : xs.drop (k+1) = [] := List.drop_of_length_le (by omega)
      simp [this, h2]

/-- **C11 (list of positions).** The j-th new point goes immediately before the original point the j-th
position names (position `size`: at the end). -/
theorem C11_insert_list {c : Curve α} (hc : WF c) {o : PointOrCurve α} (ho : Insertable o) (hd : c.ndim = o.ndim)
    (is : List Int) (ks : List Nat) (hl : o.rows.length = is.length)
    (hk : List.Forall₂ (fun i k => k ≤ c.size ∧ ((k : Int) = i ∧ 0 ≤ i ∨ (k : Int) = i + c.size ∧ i < 0)) is ks) :
    ∃ c', c.insert (.arr is) o = .ok c' ∧
      c'.rows = insertBefore c.rows (ks.zip (o.rows.map fun r => r.map c.dtype.cast)) ∧ c'.isparametric = false := by
  have hn : c.size = c.rows.length := rfl
  have hks : (is.map fun i => (if i < 0 then i + (c.rows.length : Int) else i).toNat) = ks := by
    clear hl
    induction hk with
    | nil => rfl
    | cons h _ ih =>
      simp only [List.map_cons]
      rw [ih]
      congr 1
      split <;> omega
  have hr : ∀ i ∈ is, -(c.rows.length : Int) ≤ i ∧ i ≤ c.rows.length := by
    clear hl hks
    induction hk with
    | nil => simp
    | cons h _ ih =>
      intro i hi
      rcases List.mem_cons.1 hi with rfl | hi
      · omega
      · exact ih i hi
  have hmem : ∀ r ∈ insertBefore c.rows (ks.zip (o.rows.map fun r => r.map c.dtype.cast)),
      r ∈ c.rows ∨ r ∈ o.rows.map fun r => r.map c.dtype.cast := by
    intro r hr
    simp only [insertBefore, List.mem_flatMap, List.mem_append, List.mem_map (f := Prod.snd), List.mem_filter] at hr
    obtain ⟨k, _, h | h⟩ := hr
    · obtain ⟨q, ⟨hq, _⟩, rfl⟩ := h
      exact .inr (List.of_mem_zip (a := q.1) (b := q.2) hq).2
    · left
      simp only [Option.mem_toList, Option.mem_def] at h
      exact List.mem_of_getElem? h
  have hins : Np.insert c.rows (.arr is) (o.rows.map fun r => r.map c.dtype.cast) =
      .ok (insertBefore c.rows (ks.zip (o.rows.map fun r => r.map c.dtype.cast))) := by
    by_cases h1 : is.length = 1
    · match is, h1, hks, hl, hr with
      | [i], _, hks, hl, hr =>
        match hv : o.rows, hl with
        | [v], _ =>
          subst hks
          have h := insertBlock_eq c.rows [v.map c.dtype.cast] i
          have hi := hr i (by simp)
          rw [if_pos hi] at h
          simp only [List.map_cons, List.map_nil, List.zip_cons_cons, List.zip_nil_right]
          rw [insertBefore_single _ _ _ (by split <;> omega)]
          exact h
    · rw [insert_arr _ _ _ h1, insertMulti_eq _ _ _ hr (by simpa using hl), hks]
  exact ⟨_, insert_finish hc ho hd hins hmem, rfl, rfl⟩

/-! ## C12: delete undoes insert -/

theorem sub_eq_of_named {c c' : Curve α} (hc : WF c) {o : Obj} {pre mid post : List (List α)}
    (hrows : c.rows = pre ++ mid ++ post) (h : c.delete o = .ok c')
    (hN : ∀ x, x < c.size → (Named c.size o x ↔ pre.length ≤ x ∧ x < pre.length + mid.length)) :
    c'.rows = pre ++ post := by
  obtain ⟨ks, h1, h2, h3⟩ := C12_delete hc o c' h
  have hn : c.size = pre.length + mid.length + post.length := by simp [Curve.size, hrows]; omega
  have hks : ks = List.range pre.length ++ List.range' (pre.length + mid.length) post.length := by
    apply List.Perm.eq_of_pairwise (le := (· < ·)) (fun x y _ _ h1 h2 => by omega) h2
    · rw [List.pairwise_append]
      refine ⟨List.pairwise_lt_range, List.pairwise_lt_range', ?_⟩
      intro a ha b hb
      rw [List.mem_range] at ha
      rw [List.mem_range'_1] at hb
      omega
    · rw [List.perm_ext_iff_of_nodup]
      · intro x
        rw [h3, List.mem_append, List.mem_range, List.mem_range'_1]
        constructor
        · rintro ⟨hx, hnx⟩
          rw [hN x hx] at hnx
          omega
        · intro hx
          have hx' : x < c.size := by omega
          refine ⟨hx', ?_⟩
          rw [hN x hx']
          omega
      · exact h2.imp (fun h => by omega)
      · rw [List.nodup_append']
        refine ⟨List.nodup_range, List.nodup_range', ?_⟩
        intro a ha hb
        rw [List.mem_range] at ha
        rw [List.mem_range'_1] at hb
        omega
  have hp := h1.points
  unfold Picks at hp
  rw [hks, hrows] at hp
  have : (c'.rows.map some) = (pre ++ post).map some := by
    rw [hp]
    apply List.ext_getElem?
    intro i
    rw [List.getElem?_map, List.getElem?_map]
    by_cases h1 : i < pre.length
    · rw [List.getElem?_append_left (by simpa using h1), List.getElem?_range h1, List.getElem?_append_left h1]
      simp only [Option.map_some]
      rw [List.append_assoc, List.getElem?_append_left h1, List.getElem?_eq_getElem h1]
      rfl
    · by_cases h2 : i < pre.length + post.length
      · have h3 : i - pre.length < post.length := by omega
        have h4 : pre.length + mid.length + (i - pre.length) = (pre.length + mid.length) + (i - pre.length) := rfl
        rw [List.getElem?_append_right (by simpa using Nat.le_of_not_lt h1)]
        rw [List.getElem?_append_right (by omega)]
        rw [List.length_range, List.getElem?_range' h3]
        simp only [Option.map_some, Nat.one_mul]
        rw [List.getElem?_append_right (by simp), List.length_append, Nat.add_sub_cancel_left, List.getElem?_eq_getElem h3]
        rfl
      · rw [List.getElem?_eq_none (by simp; omega), List.getElem?_eq_none (by simp; omega)]
        rfl
  exact List.map_injective_iff.2 (Option.some_injective _) this

/-- **C12 (inverse).** Deleting the block that was just inserted at position `k` gives the original points
back; for a single point also by its integer position. -/
theorem C12_delete_insert {c : Curve α} (hc : WF c) {o : PointOrCurve α} (ho : Insertable o) (hd : c.ndim = o.ndim)
    (k : Nat) (hk : k ≤ c.size) :
    ∃ c1 c2, c.insert (.int k) o = .ok c1 ∧
      c1.delete (.slice ⟨some k, some (k + o.rows.length : Nat), none⟩) = .ok c2 ∧ c2.rows = c.rows ∧
      (o.rows.length = 1 → ∃ c3, c1.delete (.int k) = .ok c3 ∧ c3.rows = c.rows) := by
  obtain ⟨c1, h1, h2, h3, _⟩ := C11_insert hc ho hd k k hk (.inl ⟨rfl, by omega⟩)
  have w1 : WF c1 := insert_WF h1
  obtain ⟨c2, h4⟩ := ((C12_delete_when w1).2.2.1 ⟨some k, some (k + o.rows.length : Nat), none⟩).1 (by simp)
  have hn : c.size = c.rows.length := rfl
  have hpl : (c.rows.take k).length = k := by simp; omega
  refine ⟨c1, c2, h1, h4, ?_, ?_⟩
  · rw [sub_eq_of_named w1 h2 h4, List.take_append_drop]
    intro x hx
    rw [hpl, List.length_map]
    simp only [Named, SliceMem, Option.getD_none, first, last, bound]
    simp
    constructor
    · rintro ⟨⟨m, hm⟩, h6⟩
      omega
    · rintro ⟨h5, h6⟩
      refine ⟨⟨x - k, by omega⟩, ?_⟩
      omega
  · intro hone
    obtain ⟨c3, h5⟩ := ((C12_delete_when w1).1 k).1 ⟨by omega, by omega⟩
    refine ⟨c3, h5, ?_⟩
    rw [sub_eq_of_named w1 h2 h5, List.take_append_drop]
    intro x hx
    rw [hpl, List.length_map, hone]
    simp only [Named, IsPos]
    omega

/-! ## C14 -/

theorem insertdim_ok {c : Curve α} (hc : WF c) (a : Int) (k : Nat) (hk : k ≤ c.ndim)
    (hak : (k : Int) = a ∧ 0 ≤ a ∨ (k : Int) = a + c.ndim ∧ a < 0) (v : List α) (hv : v.length = c.size) :
    c.insertdim a (some v) = .ok ⟨List.zipWith (fun r x => r.take k ++ [c.dtype.cast x] ++ r.drop k) c.rows v,
      if c.rows = [] then 2 else c.ncols + 1, none, c.dtype⟩ := by
  have hn : c.ndim = c.ncols := rfl
  have hsz : c.size = c.rows.length := rfl
  unfold Curve.insertdim
  simp only [Option.getD_some]
  rw [if_neg (by omega)]
  have hkk : (if a < 0 then a + (c.ncols : Int) else a).toNat = k := by split <;> omega
  rw [hkk]
  have hb : bcast (v.map c.dtype.cast) c.size = .ok (v.map c.dtype.cast) := by
    unfold bcast; rw [if_pos (by simpa using hv)]
  rw [hb]
  simp only
  have hzw : List.zipWith (fun r v => r.take k ++ [v] ++ r.drop k) c.rows (v.map c.dtype.cast) =
      List.zipWith (fun r x => r.take k ++ [c.dtype.cast x] ++ r.drop k) c.rows v := by
    rw [List.zipWith_map_right]
  rw [hzw, ofRows_ok (by have := hc.two_le; omega)]
  · congr 2
    by_cases h : c.rows = []
    · simp [h]
    · have : List.zipWith (fun r x => r.take k ++ [c.dtype.cast x] ++ r.drop k) c.rows v ≠ [] := by
        intro e
        have := congrArg List.length e
        rw [List.length_zipWith, hv, hsz, Nat.min_self] at this
        exact h (List.length_eq_zero_iff.1 this)
      rw [if_neg this, if_neg h]
  · intro r hr
    rw [List.mem_iff_getElem?] at hr
    obtain ⟨i, hi⟩ := hr
    rw [List.getElem?_zipWith] at hi
    cases h1 : c.rows[i]? with
    | none => simp [h1] at hi
    | some r' =>
      cases h2 : v[i]? with
      | none => simp [h1, h2] at hi
      | some x =>
        simp only [h1, h2, Option.some.injEq] at hi
        subst hi
        have := hc.rect r' (List.mem_of_getElem? h1)
        simp; omega
  · intro r hr y hy
    rw [List.mem_iff_getElem?] at hr
    obtain ⟨i, hi⟩ := hr
    rw [List.getElem?_zipWith] at hi
    cases h1 : c.rows[i]? with
    | none => simp [h1] at hi
    | some r' =>
      cases h2 : v[i]? with
      | none => simp [h1, h2] at hi
      | some x =>
        simp only [h1, h2, Option.some.injEq] at hi
        subst hi
        have hr' := hc.repr r' (List.mem_of_getElem? h1)
        simp only [List.mem_append, List.mem_singleton] at hy
        rcases hy with (hy | rfl) | hy
        · exact hr' y (List.mem_of_mem_take hy)
        · exact cast_cast _ _
        · exact hr' y (List.mem_of_mem_drop hy)
  · simp

theorem values_nat (c : Curve α) (j : Nat) (hj : j < c.ndim) :
    c.values j = .ok (c.rows.map fun r => r.getD j Elem.zero) := values_ok c j j ⟨hj, .inl rfl⟩

/-- **C14 (insertdim).** On a non-empty curve, the new axis holds the given values (as the dtype of the
curve stores them), the axes before it keep their place, the axes after it move by one. -/
theorem C14_insertdim {c : Curve α} (hc : WF c) (hne : c.rows ≠ []) (k : Nat) (hk : k ≤ c.ndim) (v : List α)
    (hv : v.length = c.size) :
    ∃ c', c.insertdim k (some v) = .ok c' ∧ c'.size = c.size ∧ c'.ndim = c.ndim + 1 ∧ c'.isparametric = false ∧
      c'.values k = .ok (v.map c.dtype.cast) ∧
      (∀ j : Nat, j < k → c'.values j = c.values j) ∧
      (∀ j : Nat, k ≤ j → j < c.ndim → c'.values ((j + 1 : Nat) : Int) = c.values j) := by
  have hsz : c.size = c.rows.length := rfl
  have hnd : c.ndim = c.ncols := rfl
  have hrl : ∀ i (r : List α), c.rows[i]? = some r → r.length = c.ncols :=
    fun i r h => hc.rect r (List.mem_of_getElem? h)
  rw [insertdim_ok hc k k hk (.inl ⟨rfl, by omega⟩) v hv, if_neg hne]
  refine ⟨_, rfl, ?_, rfl, rfl, ?_, ?_, ?_⟩
  · simp only [Curve.size, List.length_zipWith]; rw [hv, hsz, Nat.min_self]
  · rw [values_nat _ _ (by simp only [Curve.ndim]; omega)]
    congr 1
    apply List.ext_getElem?
    intro i
    rw [List.getElem?_map, List.getElem?_zipWith, List.getElem?_map]
    cases h1 : c.rows[i]? with
    | none =>
      have : v[i]? = none := by rw [List.getElem?_eq_none_iff] at h1 ⊢; omega
      simp [this]
    | some r =>
      have hi := (List.getElem?_eq_some_iff.1 h1).1
      have hvi : i < v.length := by omega
      have hr := hrl i r h1
      have hkr : (r.take k).length = k := by simp; omega
      simp only [List.getElem?_eq_getElem hvi, Option.map_some]
      congr 1
      rw [List.getD_eq_getElem?_getD, List.append_assoc, List.getElem?_append_right (by omega), hkr]
      simp
  · intro j hj
    rw [values_nat _ _ (by simp only [Curve.ndim]; omega), values_nat _ _ (by omega)]
    congr 1
    apply List.ext_getElem?
    intro i
    rw [List.getElem?_map, List.getElem?_zipWith, List.getElem?_map]
    cases h1 : c.rows[i]? with
    | none => simp
    | some r =>
      have hi := (List.getElem?_eq_some_iff.1 h1).1
      have hvi : i < v.length := by omega
      have hr := hrl i r h1
      simp only [List.getElem?_eq_getElem hvi, Option.map_some]
      congr 1
      rw [List.getD_eq_getElem?_getD, List.getD_eq_getElem?_getD, List.append_assoc,
        List.getElem?_append_left (by simp; omega)]
      simp [hj]
  · intro j hkj hj
    rw [values_nat _ _ (by simp only [Curve.ndim]; omega), values_nat _ _ (by omega)]
    congr 1
    apply List.ext_getElem?
    intro i
    rw [List.getElem?_map, List.getElem?_zipWith, List.getElem?_map]
    cases h1 : c.rows[i]? with
    | none => simp
    | some r =>
      have hi := (List.getElem?_eq_some_iff.1 h1).1
      have hvi : i < v.length := by omega
      have hr := hrl i r h1
      have hkr : (r.take k).length = k := by simp; omega
      simp only [List.getElem?_eq_getElem hvi, Option.map_some]
      congr 1
      rw [List.getD_eq_getElem?_getD, List.getD_eq_getElem?_getD, List.append_assoc,
        List.getElem?_append_right (by omega), hkr]
      rw [show j + 1 - k = (j - k) + 1 by omega]
      simp only [List.singleton_append, List.getElem?_cons_succ, List.getElem?_drop]
      congr 2
      omega

/-- **C14 (inverse).** `deletedim(k)` after `insertdim(k, v)` gives the points back, on any non-empty
curve. -/
theorem C14_deletedim_insertdim {c : Curve α} (hc : WF c) (hne : c.rows ≠ []) (k : Nat) (hk : k ≤ c.ndim)
    (v : List α) (hv : v.length = c.size) :
    (c.insertdim k (some v)).bind (·.deletedim (.int k)) = .ok ⟨c.rows, c.ncols, none, c.dtype⟩ := by
  have hsz : c.size = c.rows.length := rfl
  have hnd : c.ndim = c.ncols := rfl
  have h2 := hc.two_le
  rw [insertdim_ok hc k k hk (.inl ⟨rfl, by omega⟩) v hv, if_neg hne]
  simp only [Except.bind, Curve.deletedim]
  rw [if_neg (by omega)]
  have hdel : Np.delete (List.range (c.ncols + 1)) (.int k) = .ok (List.range k ++ List.range' (k+1) (c.ncols - k)) := by
    obtain ⟨ys, hy⟩ := (delete_ok_iff (List.range (c.ncols + 1)) (.int k)).2 (by
      simp only [DelOk, List.length_range]; omega)
    rw [hy, delete_eq hy, removeAt_gather]
    congr 1
    rw [List.length_range]
    have e : (List.range (c.ncols + 1)).filter (fun i => !(named (c.ncols + 1) (.int k) i)) =
        List.range k ++ List.range' (k+1) (c.ncols - k) := by
      have hs : c.ncols + 1 = k + (1 + (c.ncols - k)) := by omega
      conv_lhs => rw [hs, List.range_add, List.filter_append]
      congr 1
      · rw [List.filter_eq_self]
        intro i hi
        have := List.mem_range.1 hi
        simp [named]; omega
      · rw [List.range_eq_range', List.map_add_range', Nat.add_zero]
        rw [show 1 + (c.ncols - k) = (c.ncols - k) + 1 by omega, List.range'_succ, List.filter_cons]
        have hf : (!(named (k + (c.ncols - k + 1)) (.int k) k)) = false := by simp [named]
        rw [hf]
        simp only [Bool.false_eq_true, if_false]
        rw [List.filter_eq_self]
        intro i hi
        rw [List.mem_range'_1] at hi
        simp [named]; omega
    rw [e]
    have : ∀ l : List Nat, (∀ i ∈ l, i < c.ncols + 1) → gather (List.range (c.ncols + 1)) l = l := by
      intro l hl
      rw [gather_eq_map (by simpa using hl) 0]
      conv_rhs => rw [← List.map_id l]
      apply List.map_congr_left
      intro i hi
      simp [hl i hi]
    apply this
    intro i hi
    rw [List.mem_append, List.mem_range, List.mem_range'_1] at hi
    omega
  rw [hdel]
  simp only
  have hrows : (List.zipWith (fun r x => r.take k ++ [c.dtype.cast x] ++ r.drop k) c.rows v).map
      (fun r => gather r (List.range k ++ List.range' (k+1) (c.ncols - k))) = c.rows := by
    apply List.ext_getElem?
    intro i
    rw [List.getElem?_map, List.getElem?_zipWith]
    cases h1 : c.rows[i]? with
    | none => simp
    | some r =>
      have hi := (List.getElem?_eq_some_iff.1 h1).1
      have hvi : i < v.length := by omega
      have hr := hc.rect r (List.mem_of_getElem? h1)
      simp only [List.getElem?_eq_getElem hvi, Option.map_some]
      congr 1
      have hg : ∀ (xs : List α) (l1 l2 : List Nat), gather xs (l1 ++ l2) = gather xs l1 ++ gather xs l2 := by
        intro xs l1 l2; simp [gather]
      rw [hg, List.range_eq_range', gather_range' _ _ _ (by simp; omega), gather_range' _ _ _ (by simp; omega)]
      have hkr : (r.take k).length = k := by simp; omega
      rw [List.drop_zero, List.append_assoc, List.take_left' hkr]
      have hd : List.drop (k + 1) (List.take k r ++ ([c.dtype.cast v[i]] ++ List.drop k r)) = List.drop k r := by
        rw [← List.append_assoc, List.drop_left' (by simp; omega)]
      have ht : (List.drop k r).take (c.ncols - k) = List.drop k r :=
        List.take_of_length_le (by rw [List.length_drop]; omega)
      rw [hd, ht, List.take_append_drop]
  rw [hrows, ofRows_ok]
  · rw [if_neg hne]
    congr 2
    simp; omega
  · simp; omega
  · intro r hr
    rw [hc.rect r hr]; simp; omega
  · exact hc.repr
  · simp

/-- **C14 (2-D).** -/
theorem C14_deletedim_2d (c : Curve α) (h : c.ndim = 2) (a : Obj) : c.deletedim a = .error .valueError := by
  exact if_pos h

/-- **C14 (number of points, partial).** deletedim never changes the number of points, unless every axis
is named. Missing: that case, `C14_deletedim_all`. -/
theorem C14_deletedim_size_partial {c c' : Curve α} (hc : WF c) (a : Obj) (h : c.deletedim a = .ok c')
    (hkeep : ∃ x, x < c.ndim ∧ ¬ Named c.ndim a x) : c'.size = c.size := by
  unfold Curve.deletedim at h
  split at h
  · simp at h
  · cases hd : Np.delete (List.range c.ncols) a with
    | error e => simp [hd] at h
    | ok kept =>
      simp only [hd] at h
      have hok := (delete_ok_iff _ a).1 ⟨kept, hd⟩
      rw [List.length_range] at hok
      have hke := delete_eq hd
      rw [removeAt_gather, List.length_range] at hke
      have hlt : ∀ x ∈ kept, x < c.ncols := by
        intro x hx
        rw [hke] at hx
        exact List.mem_range.1 (mem_gather hx)
      have hne : kept ≠ [] := by
        obtain ⟨x, hx, hnx⟩ := hkeep
        have hxm : x ∈ (List.range c.ncols).filter (fun i => !(named c.ncols a i)) := by
          rw [List.mem_filter, List.mem_range]
          refine ⟨hx, ?_⟩
          have := named_iff hx hok
          by_contra hcon
          simp at hcon
          exact hnx (this.1 hcon)
        have hlen : kept.length = ((List.range c.ncols).filter (fun i => !(named c.ncols a i))).length := by
          rw [hke]
          apply gather_length
          intro i hi
          rw [List.length_range]
          exact List.mem_range.1 (List.mem_filter.1 hi).1
        intro e
        rw [e] at hlen
        exact List.ne_nil_of_mem hxm (List.length_eq_zero_iff.1 hlen.symm)
      rw [ofRows_eq _ _ _ _ (by
        intro r hr
        rw [List.mem_map] at hr
        obtain ⟨r', hr', rfl⟩ := hr
        rw [gather_length]
        intro i hi
        rw [hc.rect r' hr']
        exact hlt i hi)] at h
      by_cases hz : c.rows = []
      · simp [hz, tcheck] at h
        subst h
        simp [Curve.size, hz]
      · rw [if_neg] at h
        · split at h
          · simp at h
          · simp [tcheck] at h
            subst h
            simp [Curve.size]
        · simp [hz, hne]

/-- **C14 violated.** `deletedim(slice(None))` on a 3-D curve removes every point. -/
theorem C14_deletedim_all : ∃ c c' : Curve ℚ, WF c ∧ c.size = 2 ∧
    c.deletedim (.slice ⟨none, none, none⟩) = .ok c' ∧ c'.size = 0 :=
  ⟨exCurve3, ⟨[], 2, none, .float⟩, exCurve3_WF, rfl, by decide, rfl⟩

/-! ## C16 -/

/-- **C16 (boolean vector).** -/
theorem C16_drop_bool {c : Curve α} (hc : WF c) (isa : List (List α) → DropRes) (bs : List Bool)
    (h : isa c.rows = .boolVec bs) :
    (bs.length = c.size → ∃ c' ks, c.drop isa = .ok c' ∧ SubCurve c c' ks ∧ ks.Pairwise (· < ·) ∧
      ∀ x, x ∈ ks ↔ bs[x]? = some false) ∧
    (bs.length ≠ c.size → c.drop isa = .error .indexError) := by
  have e : c.drop isa = c.getSub (.mask (bs.map (!·))) := by
    unfold Curve.drop Curve.getSub
    simp only [h]
    rfl
  rw [e]
  have := C08_mask hc (bs.map (!·))
  rw [List.length_map] at this
  constructor
  · intro hb
    obtain ⟨c', ks, h1, h2, h3, h4⟩ := this.1 hb
    refine ⟨c', ks, h1, h2, h3, ?_⟩
    intro x
    rw [h4, List.getElem?_map]
    cases bs[x]? <;> simp
  · exact this.2

/-- **C16 (boolean matrix).** One flagged coordinate drops the point. -/
theorem C16_drop_matrix {c : Curve α} (hc : WF c) (isa : List (List α) → DropRes) (bss : List (List Bool))
    (h : isa c.rows = .boolMat bss) (hl : bss.length = c.size) :
    ∃ c' ks, c.drop isa = .ok c' ∧ SubCurve c c' ks ∧ ks.Pairwise (· < ·) ∧
      ∀ x, x ∈ ks ↔ ∃ bs, bss[x]? = some bs ∧ true ∉ bs := by
  have e : c.drop isa = c.drop (fun _ => .boolVec (bss.map fun bs => bs.any id)) := by
    unfold Curve.drop
    simp only [h]
  rw [e]
  obtain ⟨c', ks, h1, h2, h3, h4⟩ := (C16_drop_bool hc (fun _ => .boolVec (bss.map fun bs => bs.any id)) _ rfl).1
    (by simpa using hl)
  refine ⟨c', ks, h1, h2, h3, ?_⟩
  intro x
  rw [h4, List.getElem?_map]
  cases bss[x]? with
  | none => simp
  | some bs =>
    simp only [Option.map_some, Option.some.injEq, List.any_eq_false, id, Bool.not_eq_true, exists_eq_left']
    constructor
    · intro h hm; have := h true hm; simp at this
    · intro h y hy; cases y with
      | true => exact absurd hy h
      | false => rfl

/-- **C16 (index vector).** The indices name the dropped points. -/
theorem C16_drop_indices {c : Curve α} (hc : WF c) (isa : List (List α) → DropRes) (is : List Int)
    (h : isa c.rows = .idxVec is) (hr : ∀ i ∈ is, InRange c.size i) :
    ∃ c' ks, c.drop isa = .ok c' ∧ SubCurve c c' ks ∧ ks.Pairwise (· < ·) ∧
      ∀ x, x ∈ ks ↔ x < c.size ∧ ¬ ∃ i ∈ is, IsPos c.size i x := by
  have e : c.drop isa = c.delete (.arr is) := by
    unfold Curve.drop
    simp only [h]
  obtain ⟨c', h1⟩ := ((C12_delete_when hc).2.1 is).1 hr
  obtain ⟨ks, h2, h3, h4⟩ := C12_delete hc _ _ h1
  exact ⟨c', ks, by rw [e, h1], h2, h3, h4⟩

/-- **C16 (refusals).** A boolean matrix with another number of rows than the curve has points and an index out of range are an IndexError, a
matrix that is not boolean is a ValueError. -/
theorem C16_drop_reject {c : Curve α} (hc : WF c) (isa : List (List α) → DropRes) :
    (∀ bss, isa c.rows = .boolMat bss → bss.length ≠ c.size → c.drop isa = .error .indexError) ∧
    (∀ is, isa c.rows = .idxVec is → (∃ i ∈ is, ¬ InRange c.size i) → c.drop isa = .error .indexError) ∧
    (isa c.rows = .otherMat → c.drop isa = .error .valueError) := by
  refine ⟨?_, ?_, ?_⟩
  · intro bss h hl
    have e : c.drop isa = c.drop (fun _ => .boolVec (bss.map fun bs => bs.any id)) := by
      unfold Curve.drop
      simp only [h]
    rw [e]
    exact (C16_drop_bool hc (fun _ => .boolVec (bss.map fun bs => bs.any id)) _ rfl).2 (by simpa using hl)
  · rintro is h ⟨i, hi, hr⟩
    have e : c.drop isa = c.delete (.arr is) := by
      unfold Curve.drop
      simp only [h]
    rw [e]
    exact ((C12_delete_when hc).2.1 is).2 fun h' => hr (h' i hi)
  · intro h
    unfold Curve.drop
    simp only [h]

/-! ## C15 -/

section unique
variable [LinearOrder α]

theorem unique_spec {c : Curve α} (hc : WF c) :
    ∃ c' ks, c.unique = .ok c' ∧ SubCurve c c' ks ∧ ks.Pairwise (· < ·) ∧
      (∀ x, x ∈ ks ↔ x < c.size ∧ ∀ y, y < x → c.rows[y]? ≠ c.rows[x]?) ∧
      c' = ⟨gather c.rows ks, if gather c.rows ks = [] then 2 else c.ncols, c.tdata.map (gather · ks), c.dtype⟩ := by
  set ks := (uniqueIndex c.rows).mergeSort fun a b => decide (a ≤ b) with hks
  have hmem : ∀ x, x ∈ ks ↔ x < c.size ∧ ∀ y, y < x → c.rows[y]? ≠ c.rows[x]? := by
    intro x
    rw [hks, (List.mergeSort_perm _ _).mem_iff, mem_uniqueIndex]
    rfl
  have hlt : ∀ x ∈ ks, x < c.rows.length := fun x hx => ((hmem x).1 hx).1
  have hle : ks.Pairwise (· ≤ ·) := by
    have := List.pairwise_mergeSort (le := fun a b : Nat => decide (a ≤ b)) (fun a b c => by simp; omega)
      (fun a b => by simp; omega) (uniqueIndex c.rows)
    simpa using this
  have hnd : ks.Nodup := (List.mergeSort_perm _ _).nodup_iff.2 (nodup_uniqueIndex _)
  have hsorted : ks.Pairwise (· < ·) := by
    have := hle.and hnd
    exact this.imp (fun h => lt_of_le_of_ne h.1 h.2)
  have h1 : c.unique = .ok ⟨gather c.rows ks, if gather c.rows ks = [] then 2 else c.ncols,
      c.tdata.map (gather · ks), c.dtype⟩ := by
    unfold Curve.unique
    simp only [← hks]
    apply ofRows_ok hc.two_le (fun r hr => hc.rect r (mem_gather hr)) (fun r hr => hc.repr r (mem_gather hr))
    intro s hs
    rw [Option.map_eq_some_iff] at hs
    obtain ⟨t, ht, rfl⟩ := hs
    rw [gather_length hlt, gather_length (fun x hx => by rw [hc.tlen t ht]; exact hlt x hx)]
  refine ⟨_, ks, h1, ⟨picks_gather hlt, by simp [Curve.isparametric], ?_, rfl, ?_⟩, hsorted, hmem, rfl⟩
  · intro t t' ht ht'
    simp only [ht, Option.map_some, Option.some.injEq] at ht'
    subst ht'
    exact picks_gather (fun x hx => by rw [hc.tlen t ht]; exact hlt x hx)
  · intro hne
    simp only [Curve.ndim]
    rw [if_neg]
    intro e
    have := congrArg List.length e
    rw [gather_length hlt] at this
    exact hne (List.length_eq_zero_iff.1 this)

/-- **C15.** `unique()` keeps exactly the first occurrence of each point, in order, with its parameter
value; no two points of the result are equal; no point is lost. -/
theorem C15_unique {c : Curve α} (hc : WF c) :
    ∃ c' ks, c.unique = .ok c' ∧ SubCurve c c' ks ∧ ks.Pairwise (· < ·) ∧
      (∀ x, x ∈ ks ↔ x < c.size ∧ ∀ y, y < x → c.rows[y]? ≠ c.rows[x]?) ∧
      c'.rows.Nodup ∧ (∀ r, r ∈ c'.rows ↔ r ∈ c.rows) := by
  obtain ⟨c', ks, h1, h2, h3, h4, h5⟩ := unique_spec hc
  have hlt : ∀ x ∈ ks, x < c.rows.length := fun x hx => ((h4 x).1 hx).1
  refine ⟨c', ks, h1, h2, h3, h4, ?_, ?_⟩
  · have hp := h2.points
    have : (c'.rows.map some).Nodup := by
      rw [hp]
      apply List.Nodup.map_on
      · intro x hx y hy he
        rcases lt_trichotomy x y with h | h | h
        · exact absurd he (((h4 y).1 hy).2 x h)
        · exact h
        · exact absurd he.symm (((h4 x).1 hx).2 y h)
      · exact h3.imp (fun h => by omega)
    exact List.Nodup.of_map _ this
  · intro r
    constructor
    · intro hr
      rw [h5] at hr
      exact mem_gather hr
    · intro hr
      have hex : ∃ i, c.rows[i]? = some r := List.mem_iff_getElem?.1 hr
      classical
      have hfind := Nat.find_spec hex
      have hmin : ∀ y, y < Nat.find hex → c.rows[y]? ≠ some r := fun y hy => Nat.find_min hex hy
      have hk : Nat.find hex ∈ ks := by
        rw [h4]
        refine ⟨(List.getElem?_eq_some_iff.1 hfind).1, ?_⟩
        intro y hy
        rw [hfind]
        exact hmin y hy
      have : some r ∈ c'.rows.map some := by
        rw [h2.points, List.mem_map]
        exact ⟨_, hk, hfind⟩
      simpa using this

/-- **C15 (idempotent).** -/
theorem C15_idempotent {c : Curve α} (hc : WF c) : c.unique.bind (·.unique) = c.unique := by
  obtain ⟨c', ks, h1, h2, h3, h4, hnd, _⟩ := C15_unique hc
  have w : WF c' := ofRows_WF h1
  obtain ⟨c'', ls, g1, g2, g3, g4, g5⟩ := unique_spec w
  rw [h1]
  simp only [Except.bind]
  rw [g1]
  congr 1
  have hls : ls = List.range c'.size := by
    apply List.Perm.eq_of_pairwise (le := (· < ·)) (fun x y _ _ h1 h2 => by omega) g3 List.pairwise_lt_range
    rw [List.perm_ext_iff_of_nodup (g3.imp (fun h => by omega)) List.nodup_range]
    intro x
    rw [g4, List.mem_range]
    constructor
    · exact fun h => h.1
    · intro hx
      refine ⟨hx, ?_⟩
      intro y hy he
      have hx' : x < c'.rows.length := hx
      rw [List.getElem?_eq_getElem hx', List.getElem?_eq_getElem (by omega)] at he
      have := (List.Nodup.getElem_inj_iff hnd).1 (Option.some.inj he)
      omega
  have hgr : ∀ {β : Type} (xs : List β), gather xs (List.range xs.length) = xs := by
    intro β xs
    have := gather_range' xs 0 xs.length (by omega)
    rw [List.range_eq_range', this]; simp
  rw [g5, hls]
  have hg : gather c'.rows (List.range c'.size) = c'.rows := hgr c'.rows
  rw [hg]
  obtain ⟨rows, n, t, d⟩ := c'
  simp only at *
  congr 1
  · split
    · rename_i he
      subst he
      obtain ⟨c1, l1, q1, _, _, _, e⟩ := unique_spec hc
      rw [h1] at q1
      injection q1 with q1
      rw [← q1] at e
      injection e with e1 e2 e3 e4
      rw [e2, ← e1]; simp
    · rfl
  · cases t with
    | none => rfl
    | some t =>
      have ht := w.tlen t rfl
      simp only [Option.map_some]
      rw [show Curve.size ⟨rows, n, some t, d⟩ = t.length from ht.symm, hgr]

end unique

/-! ## C74 -/

/-- **C74 (partial).** On a float curve the inserted numbers are stored unchanged, by insert and by
insertdim; on an integer curve when they are integral. Missing: fractional numbers put into integer
curves, see the next theorems. -/
theorem C74_partial {c : Curve α} (hc : WF c) (hd : c.dtype = .float) :
    (∀ (o : PointOrCurve α), Insertable o → c.ndim = o.ndim → ∀ i : Nat, i ≤ c.size →
      ∃ c', c.insert (.int i) o = .ok c' ∧ c'.rows = c.rows.take i ++ o.rows ++ c.rows.drop i) ∧
    (∀ (v : List α) (k : Nat), c.rows ≠ [] → k ≤ c.ndim → v.length = c.size →
      ∃ c', c.insertdim k (some v) = .ok c' ∧ c'.values k = .ok v) := by
  constructor
  · intro o ho hnd i hi
    exact C11_insert_exact hc ho hnd (by intro r _ x _; rw [hd]; rfl) i hi
  · intro v k hne hk hv
    obtain ⟨c', h1, _, _, _, h2, _⟩ := C14_insertdim hc hne k hk v hv
    refine ⟨c', h1, ?_⟩
    rw [h2, hd]
    congr 1
    exact List.map_id _

/-- an integer curve -/
def exInt : Curve ℚ := ⟨[[0, 0], [4, 2]], 2, none, .int⟩

theorem exInt_WF : WF exInt := by
  refine ⟨by decide, by decide, by simp [exInt], ?_⟩
  intro r hr x hx
  simp only [exInt, List.mem_cons, List.not_mem_nil, or_false] at hr
  have hx' : x = 0 ∨ x = 4 ∨ x = 2 := by
    rcases hr with rfl | rfl <;> simp at hx
    · left; exact hx
    · right; exact hx
  rcases hx' with rfl | rfl | rfl <;> simp [exInt, DType.cast, Elem.trunc, truncK]

/-- **C74 violated.** Inserting the point (1.5, 1) into an integer curve stores (1, 1); inserting a
dimension with values 0.5, 2.7 stores 0, 2. -/
theorem C74_truncates :
    (∃ c', exInt.insert (.int 1) (.point ⟨[3 / 2, 1], .float⟩) = .ok c' ∧ c'.rows = [[0, 0], [1, 1], [4, 2]]) ∧
    (∃ c', exInt.insertdim 2 (some [1 / 2, 27 / 10]) = .ok c' ∧ c'.values 2 = .ok [0, 2]) := by
  constructor
  · obtain ⟨c', h1, h2, _⟩ := C11_insert exInt_WF (o := .point ⟨[3 / 2, 1], .float⟩) trivial rfl 1 1 (by decide)
      (.inl ⟨rfl, by decide⟩)
    refine ⟨c', h1, ?_⟩
    rw [h2]
    have h3 : ⌊(3 / 2 : ℚ)⌋ = 1 := by rw [Int.floor_eq_iff]; norm_num
    have h4 : ¬ (3 / 2 : ℚ) < 0 := by norm_num
    simp [exInt, PointOrCurve.rows, DType.cast, Elem.trunc, truncK, h3, h4]
  · obtain ⟨c', h1, _, _, _, h2, _⟩ := C14_insertdim exInt_WF (by decide) 2 (by decide) [1 / 2, 27 / 10] rfl
    refine ⟨c', h1, ?_⟩
    rw [show ((2 : Int)) = ((2 : Nat) : Int) from rfl, h2]
    have h3 : ⌊(1 / 2 : ℚ)⌋ = 0 := by rw [Int.floor_eq_iff]; norm_num
    have h4 : ⌊(27 / 10 : ℚ)⌋ = 2 := by rw [Int.floor_eq_iff]; norm_num
    have h5 : ¬ (1 / 2 : ℚ) < 0 := by norm_num
    have h6 : ¬ (27 / 10 : ℚ) < 0 := by norm_num
    simp only [exInt, DType.cast, Elem.trunc, truncK, List.map_cons, List.map_nil, if_neg h5, if_neg h6, h3, h4]
    simp
    intro h
    norm_num at h

/-! ## The hypotheses are met by concrete curves -/

example : exCurve.insert (.int (-1)) (.point ⟨[7, 8], .float⟩) = .ok ⟨[[0, 0], [1, 2], [7, 8], [3, 1]], 2, none, .float⟩ := by
  decide

example : ∃ c', exCurve.insert (.arr [0, 3, 0]) (.curve ⟨[[5, 5], [6, 6], [7, 7]], 2, none, .float⟩) = .ok c' ∧
    c'.rows = [[5, 5], [7, 7], [0, 0], [1, 2], [3, 1], [6, 6]] := by
  obtain ⟨c', h1, h2, _⟩ := C11_insert_list exCurve_WF
    (o := .curve ⟨[[5, 5], [6, 6], [7, 7]], 2, none, .float⟩) ⟨by decide, by decide, by simp, by intros; rfl⟩ rfl
    [0, 3, 0] [0, 3, 0] rfl (.cons (by decide) (.cons (by decide) (.cons (by decide) .nil)))
  exact ⟨c', h1, by rw [h2]; decide⟩

example : Insertable (.curve exCurve) := exCurve_WF

example : (exCurve.insertdim 1 (some [7, 8, 9])).bind (·.values 1) = .ok [7, 8, 9] := by decide

/-- a curve with repeated points -/
def exDup : Curve ℚ := ⟨[[1, 2], [0, 5], [1, 2], [0, 5], [3, 0]], 2, some [0, 1, 2, 3, 4], .float⟩

theorem exDup_WF : WF exDup := ⟨by decide, by decide, by simp [exDup], by intros; rfl⟩

/-- positions 0, 1, 4 are kept -/
example : ∃ c' ks, exDup.unique = .ok c' ∧ (∀ x, x ∈ ks ↔ x = 0 ∨ x = 1 ∨ x = 4) ∧ SubCurve exDup c' ks := by
  obtain ⟨c', ks, h1, h2, _, h4, _⟩ := C15_unique exDup_WF
  refine ⟨c', ks, h1, ?_, h2⟩
  intro x
  rw [h4]
  constructor
  · rintro ⟨hx, h⟩
    have hx : x < 5 := hx
    interval_cases x
    · simp
    · simp
    · exact absurd rfl (h 0 (by omega))
    · exact absurd rfl (h 1 (by omega))
    · simp
  · rintro (rfl | rfl | rfl)
    · exact ⟨by decide, by omega⟩
    · exact ⟨by decide, by decide⟩
    · exact ⟨by decide, by decide⟩

example : exDup.drop (fun rows => .boolVec (rows.map fun r => r.head? = some 0)) =
    .ok ⟨[[1, 2], [1, 2], [3, 0]], 2, some [0, 2, 4], .float⟩ := by decide

/-! ## Concrete cases -/

example := C11_insert exCurve_WF (o := .point ⟨[7, 7], .float⟩) trivial rfl (-1) 2 (by decide) (by decide)
example := C11_insert_exact exCurve_WF (o := .curve exCurve) exCurve_WF rfl (fun _ _ _ _ => rfl) 1 (by decide)
example := (C11_reject exCurve (.point ⟨[7, 7, 7], .float⟩)).1 (by decide) (.int 0)
example := (C11_reject exCurve (.point ⟨[7, 7], .float⟩)).2 (by decide) 4 (by decide)
example := C11_append exCurve_WF (o := .curve exCurve) exCurve_WF rfl
example := C12_delete_insert exCurve_WF (o := .curve exCurve) exCurve_WF rfl 1 (by decide)
example := C14_insertdim exCurve_WF (by decide) 1 (by decide) [5, 6, 7] (by decide)
example := C14_deletedim_2d exCurve (by decide) (.int 0)
/-- The third of three coordinates is deleted. -/
example := C14_deletedim_size_partial (c := (⟨[[0, 1, 2], [3, 4, 5]], 3, none, .float⟩ : Curve ℚ)) (c' := ⟨[[0, 1], [3, 4]], 2, none, .float⟩)
  ⟨by decide, by decide, by simp, fun _ _ _ _ => rfl⟩ (.int 2) (by decide) ⟨0, by decide, by simp [Named, IsPos, Curve.ndim]⟩
example := (C16_drop_bool exCurve_WF (fun _ => .boolVec [true, false, false]) _ rfl).1 (by decide)
example := (C16_drop_bool exCurve_WF (fun _ => .boolVec [true, false]) _ rfl).2 (by decide)
example := C16_drop_matrix exCurve_WF (fun rows => .boolMat (rows.map fun r => r.map fun x => decide (x = 1))) _ rfl (by decide)
example := C16_drop_indices exCurve_WF (fun _ => .idxVec [0, -1]) _ rfl (by unfold InRange; decide)
example := (C16_drop_reject exCurve_WF (fun _ => .boolMat [[true, false]])).1 _ rfl (by decide)
example := (C16_drop_reject exCurve_WF (fun _ => .idxVec [0, 3])).2.1 _ rfl ⟨3, by decide, by unfold InRange; decide⟩
example := (C16_drop_reject exCurve_WF (fun _ => .otherMat)).2.2 rfl
example := C15_idempotent exCurve_WF
example := (C74_partial exCurve_WF rfl).1 (.point ⟨[1 / 2, 7], .float⟩) trivial rfl 2 (by decide)
example := (C74_partial exCurve_WF rfl).2 [1 / 2, 6, 7] 0 (by decide) (by decide) (by decide)

end Verif.Props
