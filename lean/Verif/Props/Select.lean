import Verif.Props.Construct

/-!
Indexing, slicing, deleting, concatenation, reversal, sub-curves: C06, C07, C08, C09, C10, C12, C13, C72.
-/
namespace Verif.Props

open Verif Verif.Np Verif.Model Verif.Spec

variable {α : Type} [Elem α]

/-! ## C06 -/

/-- **C06 (partial).** In range: the point at the position meant, with that position as `idx`. Outside
`-2*size .. size-1`: IndexError. Missing: the indices `-2*size .. -size-1`, see
`C06_below_range_accepted`. -/
theorem C06_index_partial (c : Curve α) (cid : Nat) (i : Int) :
    (InRange c.size i → ∃ k p, IsPos c.size i k ∧ CurvePoint.init c cid i = .ok p ∧ p.idx = k ∧
      c.rows[k]? = some p.point.data) ∧
    ((c.size : Int) ≤ i ∨ i < -(2 * c.size : Int) → CurvePoint.init c cid i = .error .indexError) := by
  constructor
  · rintro ⟨h1, h2⟩
    set j := if i < 0 then (c.size : Int) + i else i with hj
    have hj0 : 0 ≤ j ∧ j < c.size := by rw [hj]; split <;> omega
    have hk : IsPos c.rows.length j j.toNat := ⟨by have := hj0.2; simp only [Curve.size] at this; omega, by left; omega⟩
    have hlt := hk.1
    have hg : getIdx c.rows j = .ok c.rows[j.toNat] :=
      getIdx_ok.2 ⟨_, hk, List.getElem?_eq_getElem hlt⟩
    refine ⟨j.toNat, ⟨Point.init c.rows[j.toNat] none, j, c, cid⟩, ⟨hlt, ?_⟩, ?_, by simp only; omega, ?_⟩
    · by_cases h : i < 0
      · right; rw [hj, if_pos h]; omega
      · left; rw [hj, if_neg h]; omega
    · unfold CurvePoint.init
      simp only [← hj, hg]
    · simp only [Point.init, Option.getD_none]
      rw [List.getElem?_eq_getElem hlt]
      congr 1
      exact (List.map_id _).symm
  · intro h
    set j := if i < 0 then (c.size : Int) + i else i with hj
    have : getIdx c.rows j = .error .indexError :=
      getIdx_error.2 ⟨rfl, by
        have : c.size = c.rows.length := rfl
        rw [hj]; split <;> omega⟩
    unfold CurvePoint.init
    simp only [← hj, this]

/-- **C06, `c[i]`.** The item is that point, as a point of the curve `c`; any other indexer gives a curve (C07, C08) or its error. -/
theorem C06_getitem (c : Curve α) (cid : Nat) :
    (∀ i, InRange c.size i → ∃ k p, IsPos c.size i k ∧ c.getItem cid (.int i) = .ok (.point p) ∧ p.idx = k ∧
      c.rows[k]? = some p.point.data ∧ p.curve = c ∧ p.cid = cid) ∧
    (∀ i, (c.size : Int) ≤ i ∨ i < -(2 * c.size : Int) → c.getItem cid (.int i) = .error .indexError) ∧
    ∀ ix, (∀ i, ix ≠ .int i) → (∀ c', c.getSub ix = .ok c' → c.getItem cid ix = .ok (.curve c')) ∧
      ∀ e, c.getSub ix = .error e → c.getItem cid ix = .error e := by
  refine ⟨?_, ?_, ?_⟩
  · intro i hi
    obtain ⟨k, p, h1, h2, h3, h4⟩ := (C06_index_partial c cid i).1 hi
    refine ⟨k, p, h1, by simp only [Curve.getItem, h2, Except.map], h3, h4, ?_⟩
    unfold CurvePoint.init at h2
    simp only at h2
    split at h2
    · cases h2
    · cases h2; exact ⟨rfl, rfl⟩
  · intro i hi
    simp only [Curve.getItem, (C06_index_partial c cid i).2 hi, Except.map]
  · intro ix hix
    have e : c.getItem cid ix = (c.getSub ix).map .curve := by
      cases ix with
      | int i => exact absurd rfl (hix i)
      | _ => rfl
    rw [e]
    exact ⟨fun c' h => by rw [h]; rfl, fun e h => by rw [h]; rfl⟩

/-- **C06 violated.** Every index from `-2*size` to `-size-1` is accepted, on every curve: it gives the
point at `i + 2*size`, with a negative `idx`. -/
theorem C06_below_range_accepted (c : Curve α) (cid : Nat) (i : Int) (h1 : -(2 * c.size : Int) ≤ i)
    (h2 : i < -(c.size : Int)) :
    ∃ p, CurvePoint.init c cid i = .ok p ∧ p.idx = i + c.size ∧ p.idx < 0 ∧
      c.rows[(i + 2 * c.size).toNat]? = some p.point.data := by
  have hk : (i + 2 * c.size).toNat < c.rows.length := by
    have : c.size = c.rows.length := rfl
    omega
  have hg : getIdx c.rows ((c.size : Int) + i) = .ok c.rows[(i + 2 * c.size).toNat] :=
    getIdx_ok.2 ⟨_, ⟨hk, by right; have : c.size = c.rows.length := rfl; omega⟩, List.getElem?_eq_getElem hk⟩
  refine ⟨⟨Point.init c.rows[(i + 2 * c.size).toNat] none, (c.size : Int) + i, c, cid⟩, ?_, ?_, ?_, ?_⟩
  · unfold CurvePoint.init
    simp only [if_pos (show i < 0 by omega), hg]
  · simp only; omega
  · simp only; omega
  · rw [List.getElem?_eq_getElem hk]
    congr 1
    exact (List.map_id _).symm

/-! ## Selection in general -/

theorem picks_gather {β : Type} {xs : List β} {ks : List Nat} (h : ∀ k ∈ ks, k < xs.length) :
    Picks xs ks (gather xs ks) := by
  unfold Picks
  apply List.ext_getElem?
  intro j
  rw [List.getElem?_map, List.getElem?_map, gather_getElem? h]
  cases hk : ks[j]? with
  | none => rfl
  | some k =>
    have := h k (List.mem_of_getElem? hk)
    simp [this]

theorem getSub_sub {c : Curve α} (hc : WF c) {ix : Indexer} {ks : List Nat} (h : selPos c.size ix = .ok ks) :
    ∃ c', c.getSub ix = .ok c' ∧ SubCurve c c' ks := by
  rw [getSub_eq hc, h]
  refine ⟨_, rfl, ?_, ?_, ?_, rfl, ?_⟩
  · exact picks_gather (selPos_lt h)
  · simp [Curve.isparametric]
  · intro t t' ht ht'
    simp only [ht, Option.map_some, Option.some.injEq] at ht'
    subst ht'
    exact picks_gather (fun k hk => by rw [hc.tlen t ht]; exact selPos_lt h k hk)
  · intro hne; simp [Curve.ndim, hne]

/-! ## C07 -/

/-- **C07.** `c[start:stop:step]`, for every start, stop, and non-zero step: the points and parameter
values at the positions a Python slice visits, in the order of the visit. -/
theorem C07_slice {c : Curve α} (hc : WF c) (s : PySlice) (hs : s.step.getD 1 ≠ 0) :
    ∃ c' ks, c.getSub (.slice s) = .ok c' ∧ SubCurve c c' ks ∧ (∀ x, x ∈ ks ↔ SliceMem c.size s x) ∧
      (0 < s.step.getD 1 → ks.Pairwise (· < ·)) ∧ (s.step.getD 1 < 0 → ks.Pairwise (· > ·)) := by
  have hsel : selPos c.size (.slice s) = sliceIndices c.size s := rfl
  have hk := sliceIndices_eq (n := c.size) hs
  rw [← hsel] at hk
  obtain ⟨c', h1, h2⟩ := getSub_sub hc hk
  have := sliceIndices_spec hk
  exact ⟨c', _, h1, h2, this.2.1, this.2.2.1, this.2.2.2.1⟩

/-- A zero step is a ValueError. -/
theorem C07_zero_step {c : Curve α} (hc : WF c) (s : PySlice) (hs : s.step.getD 1 = 0) :
    c.getSub (.slice s) = .error .valueError := by
  rw [getSub_eq hc]
  have : selPos c.size (.slice s) = .error .valueError := by
    simp only [selPos, sliceIndices, PySlice.k, hs, if_true]
  rw [this]

/-- positions visited by a slice with step 1 -/
theorem sliceIndices_step1 (n : Nat) (a b : Option Int) :
    sliceIndices n ⟨a, b, none⟩ = .ok (List.range' (first n ⟨a, b, none⟩).toNat
      ((last n ⟨a, b, none⟩) - (first n ⟨a, b, none⟩)).toNat) := by
  have h := sliceIndices_eq (n := n) (s := ⟨a, b, none⟩) (by simp [PySlice.k])
  obtain ⟨_, hm, hlt, _, _⟩ := sliceIndices_spec h
  rw [h]
  congr 1
  apply List.Perm.eq_of_pairwise (le := (· < ·)) (fun x y _ _ h1 h2 => by omega) (hlt (by simp [PySlice.k]))
  · exact List.pairwise_lt_range'
  · rw [List.perm_ext_iff_of_nodup]
    · intro x
      rw [hm]
      simp only [SliceMem, Option.getD_none, List.mem_range'_1]
      have h0 : 0 ≤ first n ⟨a, b, none⟩ := by
        unfold first bound; cases a <;> simp
      constructor
      · rintro ⟨⟨m, hm⟩, h2⟩
        simp at h2
        omega
      · intro h
        refine ⟨⟨x - (first n ⟨a, b, none⟩).toNat, by omega⟩, ?_⟩
        simp
        omega
    · exact (hlt (by simp [PySlice.k])).imp (fun h => by omega)
    · exact List.nodup_range'

theorem gather_range' {β : Type} (xs : List β) (i m : Nat) (h : i + m ≤ xs.length) :
    gather xs (List.range' i m) = (xs.drop i).take m := by
  apply List.ext_getElem?
  intro j
  rw [gather_getElem? (fun k hk => by rw [List.mem_range'_1] at hk; omega)]
  by_cases hj : j < m
  · simp [hj]
  · simp [hj]

/-- **C07 (plain slices).** `c[i:j]` with `0 <= i <= j`, in terms of taking and dropping from the front;
bounds past the end are clipped. -/
theorem C07_plain {c : Curve α} (hc : WF c) (i j : Nat) :
    ∃ c', c.getSub (.slice ⟨some i, some j, none⟩) = .ok c' ∧ c'.rows = (c.rows.take j).drop i ∧
      c'.tdata = c.tdata.map fun t => (t.take j).drop i := by
  have hn : c.size = c.rows.length := rfl
  have h1 : first c.size ⟨some i, some j, none⟩ = (min c.size i : Nat) := by
    simp only [first, bound]; simp; omega
  have h2 : last c.size ⟨some i, some j, none⟩ = (min c.size j : Nat) := by
    simp only [last, bound]; simp; omega
  have key : ∀ {β : Type} (xs : List β), xs.length = c.size →
      gather xs (List.range' (min c.size i) (min c.size j - min c.size i)) = (xs.take j).drop i := by
    intro β xs hx
    by_cases hij : min c.size i ≤ min c.size j
    · rw [gather_range' _ _ _ (by omega), List.drop_take]
      by_cases hi : i ≤ c.size
      · rw [Nat.min_eq_right hi]
        by_cases hj : j ≤ c.size
        · rw [Nat.min_eq_right hj]
        · rw [List.take_of_length_le (by simp; omega), List.take_of_length_le (by simp; omega)]
      · rw [List.drop_of_length_le (l := xs) (i := min c.size i) (by omega), List.drop_of_length_le (l := xs) (i := i) (by omega)]; simp
    · rw [show min c.size j - min c.size i = 0 by omega]
      rw [List.drop_of_length_le (by simp; omega)]
      simp [gather]
  have hsel : selPos c.size (.slice ⟨some i, some j, none⟩) =
      .ok (List.range' (min c.size i) (min c.size j - min c.size i)) := by
    have := sliceIndices_step1 c.size (some i) (some j)
    rw [h1, h2] at this
    simp only [selPos]
    rw [this]
    congr 2; omega
  rw [getSub_eq hc, hsel]
  refine ⟨_, rfl, key _ rfl, ?_⟩
  simp only
  cases ht : c.tdata with
  | none => rfl
  | some t => simp only [Option.map_some]; rw [key t (hc.tlen t ht)]

/-! ## C08 -/

/-- **C08 (index lists).** A list of indices all in range gives the points at the positions meant, in the
listed order, with their parameter values. (An empty Python list is rejected, `C08_empty_list`.) -/
theorem C08_list {c : Curve α} (hc : WF c) (is : List Int) (hne : is ≠ []) (h : ∀ i ∈ is, InRange c.size i) :
    ∃ c' ks, c.getSub (.list is) = .ok c' ∧ List.Forall₂ (IsPos c.size) is ks ∧ SubCurve c c' ks := by
  cases hm : is.mapM (normIdx c.size) with
  | none =>
    obtain ⟨i, hi, hn⟩ := mapM_eq_none.1 hm
    rw [normIdx_eq_none] at hn
    have := h i hi
    unfold InRange at this
    omega
  | some ks =>
    have hsel : selPos c.size (.list is) = .ok ks := by
      simp [selPos, hne, hm]
    obtain ⟨c', h1, h2⟩ := getSub_sub hc hsel
    refine ⟨c', ks, h1, ?_, h2⟩
    exact (mapM_some.1 hm).imp (fun _ _ h => normIdx_eq_some.1 h)

/-- **C08 (rejection).** IndexError exactly when some index is out of range or the list is empty. -/
theorem C08_list_reject {c : Curve α} (hc : WF c) (is : List Int) :
    c.getSub (.list is) = .error .indexError ↔ (is = [] ∨ ∃ i ∈ is, ¬ InRange c.size i) := by
  constructor
  · intro h
    by_contra hn
    push Not at hn
    obtain ⟨c', ks, h1, _⟩ := C08_list hc is hn.1 hn.2
    rw [h1] at h; simp at h
  · rintro (rfl | ⟨i, hi, hni⟩)
    · rw [getSub_eq hc]; rfl
    · rw [getSub_eq hc]
      have : is.mapM (normIdx c.size) = none := by
        rw [mapM_eq_none]
        exact ⟨i, hi, normIdx_eq_none.2 (by unfold InRange at hni; omega)⟩
      have hs : selPos c.size (.list is) = .error .indexError := by
        simp only [selPos, this]
        split <;> rfl
      rw [hs]

/-- **C08 violated for the empty list.** An empty Python list selects nothing, but raises IndexError
(numpy makes a float array of it); an empty integer array is accepted. -/
theorem C08_empty_list {c : Curve α} (hc : WF c) :
    c.getSub (.list []) = .error .indexError ∧ ∃ c', c.getSub (.arr []) = .ok c' ∧ c'.rows = [] := by
  refine ⟨(C08_list_reject hc []).2 (.inl rfl), ?_⟩
  rw [getSub_eq hc]
  exact ⟨_, rfl, rfl⟩

/-- **C08 (masks).** A mask of the right length keeps exactly the points marked True, in order. A mask of
another length is an IndexError. -/
theorem C08_mask {c : Curve α} (hc : WF c) (bs : List Bool) :
    (bs.length = c.size → ∃ c' ks, c.getSub (.mask bs) = .ok c' ∧ SubCurve c c' ks ∧
      ks.Pairwise (· < ·) ∧ ∀ x, x ∈ ks ↔ bs[x]? = some true) ∧
    (bs.length ≠ c.size → c.getSub (.mask bs) = .error .indexError) := by
  constructor
  · intro h
    have hsel : selPos c.size (.mask bs) = .ok ((List.range c.size).filter fun i => bs[i]?.getD false) := by
      simp [selPos, h]
    obtain ⟨c', h1, h2⟩ := getSub_sub hc hsel
    refine ⟨c', _, h1, h2, List.Pairwise.filter _ List.pairwise_lt_range, ?_⟩
    intro x
    simp only [List.mem_filter, List.mem_range]
    constructor
    · rintro ⟨h3, h4⟩
      rw [← h] at h3
      simpa [h3] using h4
    · intro h3
      have := (List.getElem?_eq_some_iff.1 h3).1
      exact ⟨by omega, by simp [h3]⟩
  · intro h
    rw [getSub_eq hc]
    simp [selPos, h]

/-! ## C09 -/

theorem cast_promote_self {d e : DType} {x : α} (h : d.cast x = x) : (d.promote e).cast x = x ∧ (e.promote d).cast x = x := by
  cases d <;> cases e <;> simp_all [DType.promote, DType.cast]

theorem add_eq' {a b : Curve α} (ha : WF a) (hb : WF b) :
    a.add b = if a.ncols ≠ b.ncols then .error .valueError else
      .ok ⟨a.rows ++ b.rows, if a.rows ++ b.rows = [] then 2 else a.ncols, tcat a.tdata b.tdata,
        a.dtype.promote b.dtype⟩ := by
  rw [add_eq ha hb]
  have : (a.rows ++ b.rows).map (fun r => r.map (a.dtype.promote b.dtype).cast) = a.rows ++ b.rows := by
    apply map_cast_id
    intro r hr x hx
    rcases List.mem_append.1 hr with h | h
    · exact (cast_promote_self (ha.repr r h x hx)).1
    · exact (cast_promote_self (hb.repr r h x hx)).2
  rw [this]

/-- **C09 (concatenation).** Points and parameters are appended, the dimension must agree, and the result
is parametric exactly when both parts are. -/
theorem C09_add {a b : Curve α} (ha : WF a) (hb : WF b) :
    (a.ndim ≠ b.ndim → a.add b = .error .valueError) ∧
    (a.ndim = b.ndim → ∃ c, a.add b = .ok c ∧ c.rows = a.rows ++ b.rows ∧ c.size = a.size + b.size ∧
      (c.isparametric = true ↔ a.isparametric = true ∧ b.isparametric = true) ∧
      (∀ s t, a.tdata = some s → b.tdata = some t → c.tdata = some (s ++ t)) ∧
      (a.rows ≠ [] ∨ b.rows ≠ [] → c.ndim = a.ndim)) := by
  rw [add_eq' ha hb]
  constructor
  · intro h; exact if_pos h
  · intro h
    rw [if_neg (by simpa [Curve.ndim] using h)]
    refine ⟨_, rfl, rfl, by simp [Curve.size], ?_, ?_, ?_⟩
    · simp only [Curve.isparametric, tcat]
      cases a.tdata <;> cases b.tdata <;> simp
    · intro s t hs ht; simp [tcat, hs, ht]
    · intro h
      simp only [Curve.ndim]
      rw [if_neg]
      simp only [List.append_eq_nil_iff, not_and_or]
      exact h

/-- **C09 (associativity, partial).** Both bracketings give the same result or both fail. Missing: empty
curves of dimension >= 3, see `C09_empty_parts`. -/
theorem C09_assoc_partial {a b c : Curve α} (ha : WF a) (hb : WF b) (hc : WF c)
    (ha' : a.rows ≠ [] ∨ a.ndim = 2) (hb' : b.rows ≠ [] ∨ b.ndim = 2) (hc' : c.rows ≠ [] ∨ c.ndim = 2) :
    (a.add b).bind (·.add c) = (b.add c).bind (a.add ·) := by
  have hpa : ∀ x y z : DType, (x.promote y).promote z = x.promote (y.promote z) := by
    intro x y z; cases x <;> cases y <;> cases z <;> rfl
  have hta : ∀ x y z : Option (List α), tcat (tcat x y) z = tcat x (tcat y z) := by
    intro x y z; cases x <;> cases y <;> cases z <;> simp [tcat]
  simp only [Curve.ndim] at ha' hb' hc'
  by_cases h1 : a.ncols = b.ncols
  · by_cases h2 : b.ncols = c.ncols
    · have e1 : a.add b = .ok ⟨a.rows ++ b.rows, a.ncols, tcat a.tdata b.tdata, a.dtype.promote b.dtype⟩ := by
        rw [add_eq' ha hb, if_neg (by simpa using h1)]
        congr 2
        split
        · rename_i h; rw [List.append_eq_nil_iff] at h; rcases ha' with ha' | ha'
          · exact absurd h.1 ha'
          · exact ha'.symm
        · rfl
      have e2 : b.add c = .ok ⟨b.rows ++ c.rows, b.ncols, tcat b.tdata c.tdata, b.dtype.promote c.dtype⟩ := by
        rw [add_eq' hb hc, if_neg (by simpa using h2)]
        congr 2
        split
        · rename_i h; rw [List.append_eq_nil_iff] at h; rcases hb' with hb' | hb'
          · exact absurd h.1 hb'
          · exact hb'.symm
        · rfl
      have w1 := add_WF e1
      have w2 := add_WF e2
      rw [e1, e2]
      simp only [Except.bind]
      rw [add_eq' w1 hc, add_eq' ha w2]
      simp only [h1, h2, ne_eq, not_true_eq_false, if_false, List.append_assoc, hpa, hta]
    · rw [add_eq' hb hc, if_pos h2]
      rw [add_eq' ha hb, if_neg (by simpa using h1)]
      simp only [Except.bind]
      have e1 : a.add b = .ok ⟨a.rows ++ b.rows, a.ncols, tcat a.tdata b.tdata, a.dtype.promote b.dtype⟩ := by
        rw [add_eq' ha hb, if_neg (by simpa using h1)]
        congr 2
        split
        · rename_i h; rw [List.append_eq_nil_iff] at h; rcases ha' with ha' | ha'
          · exact absurd h.1 ha'
          · exact ha'.symm
        · rfl
      have w1 := add_WF e1
      rw [add_eq' ha hb, if_neg (by simpa using h1)] at e1
      injection e1 with e1
      rw [e1, add_eq' w1 hc, if_pos (by simpa [h1] using h2)]
  · rw [add_eq' ha hb, if_pos h1]
    simp only [Except.bind]
    by_cases h2 : b.ncols = c.ncols
    · have e2 : b.add c = .ok ⟨b.rows ++ c.rows, b.ncols, tcat b.tdata c.tdata, b.dtype.promote c.dtype⟩ := by
        rw [add_eq' hb hc, if_neg (by simpa using h2)]
        congr 2
        split
        · rename_i h; rw [List.append_eq_nil_iff] at h; rcases hb' with hb' | hb'
          · exact absurd h.1 hb'
          · exact hb'.symm
        · rfl
      have w2 := add_WF e2
      rw [e2]
      simp only
      rw [add_eq' ha w2, if_pos h1]
    · rw [add_eq' hb hc, if_pos h2]

theorem slice_to {c : Curve α} (hc : WF c) (k : Int) : ∃ m ≤ c.size, (m : Int) = last c.size ⟨none, some k, none⟩ ∧
    c.getSub (.slice ⟨none, some k, none⟩) =
      .ok ⟨c.rows.take m, if m = 0 then 2 else c.ncols, c.tdata.map (·.take m), c.dtype⟩ := by
  have h0 : 0 ≤ last c.size ⟨none, some k, none⟩ ∧ last c.size ⟨none, some k, none⟩ ≤ c.size := by
    simp only [last, bound]; simp
  have hn : c.size = c.rows.length := rfl
  refine ⟨(last c.size ⟨none, some k, none⟩).toNat, by omega, by omega, ?_⟩
  have hsel : selPos c.size (.slice ⟨none, some k, none⟩) =
      .ok (List.range' 0 (last c.size ⟨none, some k, none⟩).toNat) := by
    have := sliceIndices_step1 c.size none (some k)
    simp only [selPos]
    rw [this]
    simp [first]
  generalize (last c.size ⟨none, some k, none⟩).toNat = m at hsel
  have hm : m ≤ c.size := by
    have := selPos_lt hsel
    by_contra hc
    have := this c.size (by rw [List.mem_range'_1]; omega)
    omega
  rw [getSub_eq hc, hsel]
  simp only
  rw [gather_range' _ _ _ (by omega)]
  congr 2
  · simp
  · cases ht : c.tdata with
    | none => rfl
    | some t => simp only [Option.map_some]; rw [gather_range' _ _ _ (by rw [hc.tlen t ht]; omega)]; simp

theorem slice_from {c : Curve α} (hc : WF c) (k : Int) : ∃ m ≤ c.size, (m : Int) = first c.size ⟨some k, none, none⟩ ∧
    c.getSub (.slice ⟨some k, none, none⟩) =
      .ok ⟨c.rows.drop m, if m = c.size then 2 else c.ncols, c.tdata.map (·.drop m), c.dtype⟩ := by
  have h0 : 0 ≤ first c.size ⟨some k, none, none⟩ ∧ first c.size ⟨some k, none, none⟩ ≤ c.size := by
    simp only [first, bound]; simp
  have hn : c.size = c.rows.length := rfl
  refine ⟨(first c.size ⟨some k, none, none⟩).toNat, by omega, by omega, ?_⟩
  have hsel : selPos c.size (.slice ⟨some k, none, none⟩) =
      .ok (List.range' (first c.size ⟨some k, none, none⟩).toNat (c.size - (first c.size ⟨some k, none, none⟩).toNat)) := by
    have := sliceIndices_step1 c.size (some k) none
    simp only [selPos]
    rw [this]
    congr 2
    have : last c.size ⟨some k, none, none⟩ = c.size := rfl
    rw [this]; omega
  have hm : (first c.size ⟨some k, none, none⟩).toNat ≤ c.size := by omega
  generalize (first c.size ⟨some k, none, none⟩).toNat = m at hsel hm
  rw [getSub_eq hc, hsel]
  simp only
  rw [gather_range' _ _ _ (by omega)]
  congr 2
  · rw [List.take_of_length_le (by simp; omega)]
  · have : List.range' m (c.size - m) = [] ↔ m = c.size := by
      rw [List.range'_eq_nil_iff]; omega
    simp only [this]
  · cases ht : c.tdata with
    | none => rfl
    | some t =>
      have htl := hc.tlen t ht
      simp only [Option.map_some]; rw [gather_range' _ _ _ (by omega)]
      rw [List.take_of_length_le (by simp; omega)]

theorem first_eq_last (n : Nat) (k : Int) : first n ⟨some k, none, none⟩ = last n ⟨none, some k, none⟩ := rfl

theorem promote_self (d : DType) : d.promote d = d := by cases d <;> rfl

theorem tcat_split (t : Option (List α)) (m : Nat) : tcat (t.map (·.take m)) (t.map (·.drop m)) = t := by
  cases t <;> simp [tcat]

/-- **C09 (split, partial).** `c[:k] + c[k:]` gives `c` back, for every integer `k` on a 2-D curve, and on
curves of higher dimension whenever both parts are non-empty. Missing: `C09_split_fails`. -/
theorem C09_split_partial {c : Curve α} (hc : WF c) (k : Int)
    (h : c.ndim = 2 ∨ (0 < last c.size ⟨none, some k, none⟩ ∧ last c.size ⟨none, some k, none⟩ < c.size)) :
    ((c.getSub (.slice ⟨none, some k, none⟩)).bind fun a =>
      (c.getSub (.slice ⟨some k, none, none⟩)).bind fun b => a.add b) = .ok c := by
  obtain ⟨m, hm, e, h1⟩ := slice_to hc k
  obtain ⟨m', hm', e', h2⟩ := slice_from hc k
  have hmm : m' = m := by rw [first_eq_last] at e'; omega
  subst hmm
  have w1 := getSub_WF h1
  have w2 := getSub_WF h2
  rw [h1, h2]
  simp only [Except.bind]
  rw [add_eq' w1 w2]
  simp only [Curve.ndim] at h
  obtain ⟨rows, n, t, d⟩ := c
  simp only at *
  simp only [tcat_split, promote_self, List.take_append_drop]
  rcases h with h | ⟨h3, h4⟩
  · subst h; simp
  · rw [← e] at h3 h4
    have h3' : ¬ m' = 0 := by omega
    have h4' : ¬ m' = Curve.size ⟨rows, n, t, d⟩ := by omega
    have h5 : rows ≠ [] := by intro h; subst h; simp [Curve.size] at h4; omega
    simp [h3', h4', h5]

/-- **C09 violated.** On every curve of dimension >= 3 and positive size, `c[:k] + c[k:]` raises ValueError
whenever one of the parts is empty (for example `k = 0`): the empty part has become 2-dimensional. -/
theorem C09_split_fails {c : Curve α} (hc : WF c) (k : Int) (hd : 3 ≤ c.ndim) (hs : 0 < c.size)
    (h : last c.size ⟨none, some k, none⟩ = 0 ∨ last c.size ⟨none, some k, none⟩ = c.size) :
    ((c.getSub (.slice ⟨none, some k, none⟩)).bind fun a =>
      (c.getSub (.slice ⟨some k, none, none⟩)).bind fun b => a.add b) = .error .valueError := by
  obtain ⟨m, hm, e, h1⟩ := slice_to hc k
  obtain ⟨m', hm', e', h2⟩ := slice_from hc k
  have hmm : m' = m := by rw [first_eq_last] at e'; omega
  subst hmm
  have w1 := getSub_WF h1
  have w2 := getSub_WF h2
  rw [h1, h2]
  simp only [Except.bind]
  rw [add_eq' w1 w2]
  simp only [Curve.ndim] at hd
  rw [if_pos]
  simp only
  rcases h with h | h
  · rw [← e] at h
    have : m' = 0 := by omega
    rw [if_pos this, if_neg (by omega)]
    omega
  · rw [← e] at h
    have : m' = c.size := by omega
    rw [if_pos this, if_neg (by omega)]
    omega

/-- **C09 violated (associativity).** Two empty 3-D curves followed by a 3-D curve. -/
theorem C09_empty_parts : ∃ a b : Curve ℚ, WF a ∧ WF b ∧ a.ndim = 3 ∧ b.ndim = 3 ∧
    (a.add a).bind (·.add b) = .error .valueError ∧ okB ((a.add b).bind (a.add ·)) = true :=
  ⟨⟨[], 3, none, .float⟩, ⟨[[1, 2, 3]], 3, none, .float⟩,
    ⟨by decide, by simp, by simp, by simp⟩, ⟨by decide, by simp, by simp, by intros; rfl⟩,
    rfl, rfl, by decide, by decide⟩

/-! ## C10 -/

/-- **C10 (content).** Position `i` of the reversed curve is position `size-1-i` of the curve, for points
and parameters alike. -/
theorem C10_reverse {c : Curve α} (hc : WF c) :
    ∃ c', c.reverse = .ok c' ∧ c'.size = c.size ∧ c'.dtype = c.dtype ∧ c'.isparametric = c.isparametric ∧
      (∀ i, i < c.size → c'.rows[i]? = c.rows[c.size - 1 - i]?) ∧
      (∀ t t', c.tdata = some t → c'.tdata = some t' → t'.length = c.size ∧
        ∀ i, i < c.size → t'[i]? = t[c.size - 1 - i]?) ∧ (c.rows ≠ [] → c'.ndim = c.ndim) := by
  rw [reverse_eq hc]
  refine ⟨_, rfl, by simp [Curve.size], rfl, by simp [Curve.isparametric], ?_, ?_, ?_⟩
  · intro i hi
    rw [List.getElem?_reverse hi]
    rfl
  · intro t t' ht ht'
    simp only [ht, Option.map_some, Option.some.injEq] at ht'
    subst ht'
    have htl := hc.tlen t ht
    refine ⟨by simp [htl, Curve.size], ?_⟩
    intro i hi
    rw [List.getElem?_reverse (by rw [htl]; exact hi), htl]
    rfl
  · intro h; simp [Curve.ndim, h]

/-- **C10 (involution, partial).** Missing: empty curves of dimension >= 3 (they become 2-dimensional,
`C10_reverse_loses_dimension`). -/
theorem C10_involution_partial {c : Curve α} (hc : WF c) (h : c.rows ≠ [] ∨ c.ndim = 2) :
    c.reverse.bind (·.reverse) = .ok c := by
  have hr := reverse_eq hc
  have w := ofRows_WF hr
  rw [hr]
  simp only [Except.bind]
  rw [reverse_eq w]
  obtain ⟨rows, n, t, d⟩ := c
  simp only [Curve.ndim] at h
  simp only [List.reverse_reverse, Option.map_map, List.reverse_eq_nil_iff]
  congr 2
  · rcases h with h | h
    · simp [h]
    · simp [h]
  · cases t <;> simp

theorem C10_reverse_loses_dimension : ∃ c c' : Curve ℚ, WF c ∧ c.reverse = .ok c' ∧ c.ndim = 3 ∧ c'.ndim = 2 :=
  ⟨⟨[], 3, none, .float⟩, ⟨[], 2, none, .float⟩, ⟨by decide, by simp, by simp, by simp⟩, by decide, rfl, rfl⟩

/-- **C10 (distribution, partial).** `(a+b).reverse() = b.reverse() + a.reverse()`; missing: empty curves
of dimension >= 3. -/
theorem C10_distrib_partial {a b : Curve α} (ha : WF a) (hb : WF b) (ha' : a.rows ≠ [] ∨ a.ndim = 2)
    (hb' : b.rows ≠ [] ∨ b.ndim = 2) :
    (a.add b).bind (·.reverse) = b.reverse.bind fun b' => a.reverse.bind fun a' => b'.add a' := by
  have ra := reverse_eq ha
  have rb := reverse_eq hb
  have wa := ofRows_WF ra
  have wb := ofRows_WF rb
  have na : (if a.rows = [] then 2 else a.ncols) = a.ncols := by
    simp only [Curve.ndim] at ha'; split
    · rename_i h; rcases ha' with h' | h'
      · exact absurd h h'
      · exact h'.symm
    · rfl
  have nb : (if b.rows = [] then 2 else b.ncols) = b.ncols := by
    simp only [Curve.ndim] at hb'; split
    · rename_i h; rcases hb' with h' | h'
      · exact absurd h h'
      · exact h'.symm
    · rfl
  have hp : ∀ x y : DType, x.promote y = y.promote x := by intro x y; cases x <;> cases y <;> rfl
  rw [ra, rb]
  rw [na] at ra wa
  rw [nb] at rb wb
  simp only [Except.bind, na, nb]
  rw [add_eq' wb wa]
  by_cases h : a.ncols = b.ncols
  · have hab := add_eq' ha hb
    rw [if_neg (by simpa using h)] at hab
    have w := add_WF hab
    rw [hab]
    simp only
    rw [reverse_eq w]
    simp only [h, ne_eq, not_true_eq_false, if_false, List.reverse_append]
    have ht : (tcat a.tdata b.tdata).map List.reverse = tcat (b.tdata.map List.reverse) (a.tdata.map List.reverse) := by
      cases a.tdata <;> cases b.tdata <;> simp [tcat]
    rw [ht, hp]
    congr 2
    by_cases hn : a.rows ++ b.rows = []
    · rw [List.append_eq_nil_iff] at hn; simp [hn]
    · have hn2 : ¬ (b.rows.reverse ++ a.rows.reverse = []) := by
        intro h; apply hn; rw [List.append_eq_nil_iff] at h ⊢; simp at h; exact ⟨h.2, h.1⟩
      rw [if_neg hn, if_neg hn, if_neg hn2]
  · rw [add_eq' ha hb, if_pos h, if_pos (fun e => h e.symm)]

/-! ## C12, C13 -/

theorem named_iff {n : Nat} {o : Obj} {x : Nat} (hx : x < n) (ho : DelOk n o) :
    named n o x = true ↔ Named n o x := by
  cases o with
  | int i => simp [named, Named, IsPos, hx]
  | slice s =>
    have hk := sliceIndices_eq (n := n) (s := s) ho
    have := (sliceIndices_spec hk).2.1 x
    simp only [named, Named]
    rw [hk]
    simp only [List.contains_iff_mem]
    exact this
  | arr is => simp [named, Named, IsPos, hx]
  | mask bs =>
    simp only [named, Named]
    cases bs[x]? <;> simp

/-- **C12 (content).** Whenever `delete` returns, the result has exactly the points whose position is not
named, in order, each with its own parameter value. -/
theorem C12_delete {c : Curve α} (hc : WF c) (o : Obj) (c' : Curve α) (h : c.delete o = .ok c') :
    ∃ ks, SubCurve c c' ks ∧ ks.Pairwise (· < ·) ∧ ∀ x, x ∈ ks ↔ x < c.size ∧ ¬ Named c.size o x := by
  rw [delete_curve_eq hc] at h
  cases hd : Np.delete (List.range c.size) o with
  | error e => simp [hd] at h
  | ok ys =>
    have hok := (delete_ok_iff _ o).1 ⟨ys, hd⟩
    rw [List.length_range] at hok
    simp only [hd, Except.ok.injEq] at h
    subst h
    refine ⟨keptPos c.size o, ⟨picks_gather keptPos_lt, by simp [Curve.isparametric], ?_, rfl, ?_⟩, ?_, ?_⟩
    · intro t t' ht ht'
      simp only [ht, Option.map_some, Option.some.injEq] at ht'
      subst ht'
      exact picks_gather (fun k hk => by rw [hc.tlen t ht]; exact keptPos_lt k hk)
    · intro hne; simp [Curve.ndim, hne]
    · exact List.Pairwise.filter _ List.pairwise_lt_range
    · intro x
      simp only [keptPos, List.mem_filter, List.mem_range]
      constructor
      · rintro ⟨h1, h2⟩
        refine ⟨h1, ?_⟩
        rw [← named_iff h1 hok]
        simpa using h2
      · rintro ⟨h1, h2⟩
        refine ⟨h1, ?_⟩
        rw [← named_iff h1 hok] at h2
        simpa using h2

/-- **C12 (when).** `delete` returns for every int or list of ints in range, every slice with non-zero step and every mask of the right
length; an int or list with an entry out of range is an IndexError, the step 0 and a mask of another length a ValueError. -/
theorem C12_delete_when {c : Curve α} (hc : WF c) :
    (∀ i, (InRange c.size i → ∃ c', c.delete (.int i) = .ok c') ∧
      (¬ InRange c.size i → c.delete (.int i) = .error .indexError)) ∧
    (∀ is, ((∀ i ∈ is, InRange c.size i) → ∃ c', c.delete (.arr is) = .ok c') ∧
      (¬ (∀ i ∈ is, InRange c.size i) → c.delete (.arr is) = .error .indexError)) ∧
    (∀ s : PySlice, (s.step.getD 1 ≠ 0 → ∃ c', c.delete (.slice s) = .ok c') ∧
      (s.step.getD 1 = 0 → c.delete (.slice s) = .error .valueError)) ∧
    (∀ bs : List Bool, (bs.length = c.size → ∃ c', c.delete (.mask bs) = .ok c') ∧
      (bs.length ≠ c.size → c.delete (.mask bs) = .error .valueError)) := by
  have ok : ∀ o, DelOk c.size o → ∃ c', c.delete o = .ok c' := by
    intro o ho
    obtain ⟨ys, hy⟩ := (delete_ok_iff (List.range c.size) o).2 (by rw [List.length_range]; exact ho)
    rw [delete_curve_eq hc, hy]
    exact ⟨_, rfl⟩
  have bad : ∀ o, ¬ DelOk c.size o → c.delete o = .error (delErr o) := by
    intro o ho
    rw [delete_curve_eq hc]
    cases hd : Np.delete (List.range c.size) o with
    | ok ys => exact absurd ((delete_ok_iff _ o).1 ⟨ys, hd⟩) (by rw [List.length_range]; exact ho)
    | error e => rw [delete_error hd]
  exact ⟨fun i => ⟨ok (.int i), bad (.int i)⟩, fun is => ⟨ok (.arr is), bad (.arr is)⟩,
    fun s => ⟨ok (.slice s), fun h => bad (.slice s) fun h' => h' h⟩, fun bs => ⟨ok (.mask bs), bad (.mask bs)⟩⟩

theorem picks_perm {β : Type} {xs ys zs : List β} {ks ls : List Nat} (h1 : Picks xs ks ys) (h2 : Picks xs ls zs)
    (h : (ks ++ ls).Perm (List.range xs.length)) : (ys ++ zs).Perm xs := by
  have e : (ys ++ zs).map some = (ks ++ ls).map (fun k => xs[k]?) := by
    rw [List.map_append, List.map_append, h1, h2]
  have e2 : (List.range xs.length).map (fun k => xs[k]?) = xs.map some := by
    apply List.ext_getElem?
    intro i
    by_cases hi : i < xs.length <;> simp [hi]
  have := h.map (fun k => xs[k]?)
  rw [← e, e2] at this
  have := this.filterMap id
  simpa [List.filterMap_map] using this

/-- **C13.** For every slice, the points selected and the points left by deleting are together the points
of the curve. -/
theorem C13_partition {c : Curve α} (hc : WF c) (s : PySlice) (hs : s.step.getD 1 ≠ 0) :
    ∃ a b, c.getSub (.slice s) = .ok a ∧ c.delete (.slice s) = .ok b ∧ (a.rows ++ b.rows).Perm c.rows := by
  obtain ⟨a, ks, h1, h2, h3, h4, h5⟩ := C07_slice hc s hs
  obtain ⟨b, hb⟩ := ((C12_delete_when hc).2.2.1 s).1 hs
  obtain ⟨ls, h6, h7, h8⟩ := C12_delete hc _ _ hb
  refine ⟨a, b, h1, hb, picks_perm h2.points h6.points ?_⟩
  have hk := sliceIndices_eq (n := c.size) hs
  have hlt := (sliceIndices_spec hk).2.2.2.2
  have hmem := (sliceIndices_spec hk).2.1
  rw [List.perm_ext_iff_of_nodup]
  · intro x
    rw [List.mem_append, h3, h8]
    simp only [Named, List.mem_range]
    constructor
    · rintro (h | h)
      · exact hlt x ((hmem x).2 h)
      · exact h.1
    · intro h
      by_cases hx : SliceMem c.size s x
      · exact .inl hx
      · exact .inr ⟨h, hx⟩
  · rw [List.nodup_append']
    refine ⟨?_, h7.imp (fun h => by omega), ?_⟩
    · rcases lt_or_gt_of_ne hs with h | h
      · exact (h5 h).imp (fun h => by omega)
      · exact (h4 h).imp (fun h => by omega)
    · intro x hx hy
      rw [h3] at hx
      rw [h8] at hy
      exact hy.2 hx
  · exact List.nodup_range

/-- **C13 (masks).** The same for boolean masks of the right length. -/
theorem C13_partition_mask {c : Curve α} (hc : WF c) (bs : List Bool) (hb : bs.length = c.size) :
    ∃ a b, c.getSub (.mask bs) = .ok a ∧ c.delete (.mask bs) = .ok b ∧ (a.rows ++ b.rows).Perm c.rows := by
  obtain ⟨a, ks, h1, h2, h4, h3⟩ := (C08_mask hc bs).1 hb
  have hdel : ∃ b, c.delete (.mask bs) = .ok b := by
    obtain ⟨ys, hy⟩ := (delete_ok_iff (List.range c.size) (.mask bs)).2 (by rw [List.length_range]; exact hb)
    rw [delete_curve_eq hc, hy]
    exact ⟨_, rfl⟩
  obtain ⟨b, hb'⟩ := hdel
  obtain ⟨ls, h6, h7, h8⟩ := C12_delete hc _ _ hb'
  refine ⟨a, b, h1, hb', picks_perm h2.points h6.points ?_⟩
  rw [List.perm_ext_iff_of_nodup]
  · intro x
    rw [List.mem_append, h3, h8]
    simp only [Named, List.mem_range]
    constructor
    · rintro (h | h)
      · have := (List.getElem?_eq_some_iff.1 h).1
        have : c.size = c.rows.length := rfl
        omega
      · exact h.1
    · intro h
      by_cases hx : bs[x]? = some true
      · exact .inl hx
      · exact .inr ⟨h, hx⟩
  · rw [List.nodup_append']
    refine ⟨h4.imp (fun h => by omega), h7.imp (fun h => by omega), ?_⟩
    intro x hx hy
    rw [h3] at hx
    rw [h8] at hy
    exact hy.2 hx
  · exact List.nodup_range

/-! ## C72 -/

/-- **C72.** For positions `i <= j` of one curve: the points `i..j` (without `j` if `endpoint` is False)
with their parameter values. A point of another curve is a ValueError, another object a TypeError. -/
theorem C72_subcurve {c : Curve α} (hc : WF c) (cid i j : Nat) (hi : i ≤ j) (hj : j < c.size) (e : Bool) :
    ∃ p q c', CurvePoint.init c cid i = .ok p ∧ CurvePoint.init c cid j = .ok q ∧
      p.subcurveArg (.cpoint q) e = .ok c' ∧
      c'.rows = (c.rows.take (if e then j + 1 else j)).drop i ∧
      c'.tdata = (c.tdata.map fun t => (t.take (if e then j + 1 else j)).drop i) ∧
      (∀ q' : CurvePoint α, q'.cid ≠ cid → p.subcurveArg (.cpoint q') e = .error .valueError) ∧
      p.subcurveArg .other e = .error .typeError := by
  have hget : ∀ k, k < c.size → CurvePoint.init c cid (k : Nat) = .ok ⟨Point.init (c.rows.getD k []) none, k, c, cid⟩ := by
    intro k hk
    have hg : getIdx c.rows (k : Int) = .ok (c.rows.getD k []) := by
      rw [getIdx_ok]
      refine ⟨k, ⟨hk, by left; rfl⟩, ?_⟩
      have hk' : k < c.rows.length := hk
      simp [List.getD_eq_getElem?_getD, hk']
    unfold CurvePoint.init
    simp only [if_neg (show ¬ ((k : Int) < 0) by omega), hg]
  obtain ⟨c', h1, h2, h3⟩ := C07_plain hc i (if e then j + 1 else j)
  refine ⟨_, _, c', hget i (by omega), hget j hj, ?_, h2, h3, ?_, rfl⟩
  · rw [← h1]
    simp only [CurvePoint.subcurveArg, CurvePoint.subcurve, ne_eq, not_true_eq_false, if_false]
    congr 4
    cases e <;> simp
  · intro q' hq
    simp only [CurvePoint.subcurveArg, CurvePoint.subcurve]
    rw [if_pos (fun h => hq h.symm)]

/-! ## The hypotheses are met by concrete curves -/

example : ∃ c', exCurve.getSub (.slice ⟨some (-1), none, some (-2)⟩) = .ok c' ∧ c'.rows = [[3, 1], [0, 0]] ∧
    c'.tdata = some [2, 0] := ⟨⟨[[3, 1], [0, 0]], 2, some [2, 0], .float⟩, by decide, rfl, rfl⟩

example : (CurvePoint.init exCurve 0 (-4)).map (fun p => (p.idx, p.point.data)) = .ok (-1, [3, 1]) := by decide

/-- a 3-D curve -/
def exCurve3 : Curve ℚ := ⟨[[0, 0, 1], [1, 2, 0]], 3, none, .float⟩

theorem exCurve3_WF : WF exCurve3 := ⟨by decide, by decide, by simp [exCurve3], by intros; rfl⟩

example : ((exCurve3.getSub (.slice ⟨none, some 0, none⟩)).bind fun a =>
      (exCurve3.getSub (.slice ⟨some 0, none, none⟩)).bind fun b => a.add b) = .error .valueError :=
  C09_split_fails exCurve3_WF 0 (by decide) (by decide) (.inl (by decide))

example : ((exCurve3.getSub (.slice ⟨none, some 1, none⟩)).bind fun a =>
      (exCurve3.getSub (.slice ⟨some 1, none, none⟩)).bind fun b => a.add b) = .ok exCurve3 :=
  C09_split_partial exCurve3_WF 1 (.inr ⟨by decide, by decide⟩)

example : exCurve.delete (.arr [-1, 0]) = .ok ⟨[[1, 2]], 2, some [1], .float⟩ := by decide

example : (exCurve.add exCurve).bind (·.reverse) =
    .ok ⟨[[3, 1], [1, 2], [0, 0], [3, 1], [1, 2], [0, 0]], 2, some [2, 1, 0, 2, 1, 0], .float⟩ := by decide

/-! ## Concrete cases -/

example := (C06_index_partial exCurve 0 (-2)).1 (by unfold InRange; decide)
example := (C06_index_partial exCurve 0 3).2 (by decide)
example := (C06_getitem exCurve 0).1 (-3) (by unfold InRange; decide)
example := (C06_getitem exCurve 0).2.1 (-7) (by decide)
example := C06_below_range_accepted exCurve 0 (-5) (by decide) (by decide)
example := C07_slice exCurve_WF ⟨some (-1), none, some (-2)⟩ (by decide)
example := C07_zero_step exCurve_WF ⟨some 0, some 3, some 0⟩ (by decide)
example := C08_list exCurve_WF [2, -1, 0] (by decide) (by unfold InRange; decide)
example := (C08_list_reject exCurve_WF [2, 3]).2 (.inr ⟨3, by decide, by unfold InRange; decide⟩)
example := C08_empty_list exCurve_WF
example := (C08_mask exCurve_WF [true, false, true]).1 (by decide)
example := (C08_mask exCurve_WF [true, false]).2 (by decide)
example := C09_assoc_partial exCurve_WF exCurve_WF exCurve_WF (.inl (by decide)) (.inl (by decide)) (.inl (by decide))
example := C10_involution_partial exCurve_WF (.inl (by decide))
example := C10_distrib_partial exCurve_WF exCurve_WF (.inl (by decide)) (.inl (by decide))
example := C12_delete exCurve_WF (.int (-1)) ⟨[[0, 0], [1, 2]], 2, some [0, 1], .float⟩ (by decide)
example := C13_partition exCurve_WF ⟨some 0, some 3, some 2⟩ (by decide)
example := C13_partition_mask exCurve_WF [true, false, true] (by decide)
example := C72_subcurve exCurve_WF 0 0 2 (by decide) (by decide) true

end Verif.Props
