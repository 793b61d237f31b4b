import Verif.Lemmas.Curve

/-!
Indexing and deleting as "gather a list of positions": the positions depend only on the length of the
axis, so the points and the parameter vector are always treated alike.
-/
namespace Verif.Model

open Verif Verif.Np Verif.Spec

variable {α : Type} [Elem α]

/-- positions selected by `a[ix]` on an axis of length `n` -/
def selPos (n : Nat) : Indexer → Except PyErr (List Nat)
  | .int _ => .error .typeError
  | .slice s => sliceIndices n s
  | .list is => if is.isEmpty then .error .indexError else
      match is.mapM (normIdx n) with
      | none => .error .indexError
      | some ks => .ok ks
  | .arr is => match is.mapM (normIdx n) with
      | none => .error .indexError
      | some ks => .ok ks
  | .mask bs => if bs.length = n then .ok ((List.range n).filter fun i => bs[i]?.getD false) else .error .indexError
  | .farr => .error .indexError
  | .other => .error .typeError

theorem take_eq {β : Type} (xs : List β) (is : List Int) :
    take xs is = match is.mapM (normIdx xs.length) with
      | none => .error .indexError
      | some ks => .ok (gather xs ks) := by
  unfold take
  induction is with
  | nil => rfl
  | cons i is ih =>
    rw [List.mapM_cons, List.mapM_cons]
    cases h : normIdx xs.length i with
    | none =>
      have : getIdx xs i = .error .indexError := by
        rw [getIdx_error]; exact ⟨rfl, normIdx_eq_none.1 h⟩
      rw [this]; rfl
    | some k =>
      have hk := normIdx_lt h
      have : getIdx xs i = .ok xs[k] := by
        rw [getIdx_ok]; exact ⟨k, normIdx_eq_some.1 h, by simp [hk]⟩
      rw [this, ih]
      cases h2 : List.mapM (normIdx xs.length) is with
      | none => rfl
      | some ks =>
        show Except.ok (xs[k] :: gather xs ks) = Except.ok (gather xs (k :: ks))
        simp [gather, hk]

theorem compress_gather_go {β : Type} (f : Nat → Bool) (pre xs : List β) :
    compress ((List.range' pre.length xs.length).map f) xs =
      gather (pre ++ xs) ((List.range' pre.length xs.length).filter f) := by
  induction xs generalizing pre with
  | nil => simp [compress, gather]
  | cons x xs ih =>
    have := ih (pre ++ [x])
    simp only [List.length_append, List.length_singleton, List.append_assoc, List.singleton_append] at this
    simp only [List.length_cons, List.range'_succ, List.map_cons, compress, List.filter_cons]
    rw [this]
    by_cases h : f pre.length <;> simp [h, gather]

theorem compress_gather {β : Type} (f : Nat → Bool) (xs : List β) :
    compress ((List.range xs.length).map f) xs = gather xs ((List.range xs.length).filter f) := by
  have := compress_gather_go f [] xs
  simpa [List.range_eq_range'] using this

theorem mask_gather {β : Type} (xs : List β) (bs : List Bool) (h : bs.length = xs.length) :
    compress bs xs = gather xs ((List.range xs.length).filter fun i => bs[i]?.getD false) := by
  rw [← compress_gather]
  congr 1
  apply List.ext_getElem?
  intro i
  by_cases hi : i < xs.length
  · have : i < bs.length := by omega
    simp [hi, this]
  · have : ¬ i < bs.length := by omega
    simp [hi, this]

theorem npIndex_eq {β : Type} (xs : List β) (ix : Indexer) :
    npIndex xs ix = match selPos xs.length ix with
      | .error e => .error e
      | .ok is => .ok (gather xs is) := by
  cases ix with
  | int i => rfl
  | slice s =>
    simp only [npIndex, selPos, slice]
    cases sliceIndices xs.length s <;> rfl
  | list is =>
    simp only [npIndex, selPos]
    split
    · rfl
    · rw [take_eq]; cases is.mapM (normIdx xs.length) <;> rfl
  | arr is =>
    simp only [npIndex, selPos]
    rw [take_eq]; cases is.mapM (normIdx xs.length) <;> rfl
  | mask bs =>
    simp only [npIndex, selPos, mask]
    split
    · rename_i h; simp [mask_gather xs bs h]
    · rfl
  | farr => rfl
  | other => rfl

theorem selPos_lt {n : Nat} {ix : Indexer} {is : List Nat} (h : selPos n ix = .ok is) : ∀ i ∈ is, i < n := by
  have hm : ∀ (js : List Int) (ks : List Nat), js.mapM (normIdx n) = some ks → ∀ i ∈ ks, i < n := by
    intro js ks hk
    have := mapM_some.1 hk
    intro i hi
    induction this with
    | nil => simp at hi
    | cons h1 _ ih =>
      rename_i h2
      rcases List.mem_cons.1 hi with rfl | hi
      · exact normIdx_lt h1
      · exact ih (mapM_some.2 h2) hi
  cases ix with
  | int i => simp [selPos] at h
  | slice s => exact (sliceIndices_spec h).2.2.2.2
  | list js =>
    simp only [selPos] at h
    split at h
    · simp at h
    · cases hk : js.mapM (normIdx n) with
      | none => simp [hk] at h
      | some ks => simp [hk] at h; subst h; exact hm _ _ hk
  | arr js =>
    simp only [selPos] at h
    cases hk : js.mapM (normIdx n) with
    | none => simp [hk] at h
    | some ks => simp [hk] at h; subst h; exact hm _ _ hk
  | mask bs =>
    simp only [selPos] at h
    split at h
    · simp at h; subst h; intro i hi; exact List.mem_range.1 (List.mem_filter.1 hi).1
    · simp at h
  | farr => simp [selPos] at h
  | other => simp [selPos] at h

/-- exact result of `curve[ix]` for a non-integer index -/
theorem getSub_eq {c : Curve α} (hc : WF c) (ix : Indexer) :
    c.getSub ix = match selPos c.size ix with
      | .error e => .error e
      | .ok is => .ok ⟨gather c.rows is, if is = [] then 2 else c.ncols, c.tdata.map (gather · is), c.dtype⟩ := by
  have hrow : npIndex c.rows ix = match selPos c.size ix with
      | .error e => .error e
      | .ok is => .ok (gather c.rows is) := npIndex_eq _ _
  have fin : ∀ is (t : Option (List α)), selPos c.size ix = .ok is →
      (∀ s, t = some s → s.length = is.length) →
      Curve.ofRows (gather c.rows is) c.ncols c.dtype t =
        .ok ⟨gather c.rows is, if is = [] then 2 else c.ncols, t, c.dtype⟩ := by
    intro is t his ht
    have hl : (gather c.rows is).length = is.length := gather_length (selPos_lt his)
    rw [ofRows_ok hc.two_le (fun r hr => hc.rect r (mem_gather hr)) (fun r hr => hc.repr r (mem_gather hr))
      (by rw [hl]; exact ht)]
    have : gather c.rows is = [] ↔ is = [] := by
      rw [← List.length_eq_zero_iff, hl, List.length_eq_zero_iff]
    simp [this]
  unfold Curve.getSub
  cases ht : c.tdata with
  | none =>
    simp only [hrow]
    cases hs : selPos c.size ix with
    | error e => rfl
    | ok is =>
      simp only
      rw [fin is none hs (by simp)]; rfl
  | some t =>
    have htl : t.length = c.size := hc.tlen t ht
    have htr : npIndex t ix = match selPos c.size ix with
      | .error e => .error e
      | .ok is => .ok (gather t is) := by rw [← htl]; exact npIndex_eq _ _
    simp only [hrow, htr]
    cases hs : selPos c.size ix with
    | error e => rfl
    | ok is =>
      simp only
      rw [fin is (some (gather t is)) hs]; rfl
      intro s hs'
      simp at hs'; subst hs'
      exact gather_length (by rw [htl]; exact selPos_lt hs)

/-- positions kept by `delete` -/
def keptPos (n : Nat) (o : Obj) : List Nat := (List.range n).filter fun i => !(named n o i)

theorem removeAt_gather {β : Type} (f : Nat → Bool) (xs : List β) :
    removeAt f xs = gather xs ((List.range xs.length).filter fun i => !(f i)) := by
  rw [removeAt_eq_compress, compress_gather]

theorem delete_cases {β : Type} (xs : List β) (o : Obj) :
    Np.delete xs o = match Np.delete (List.range xs.length) o with
      | .error e => .error e
      | .ok _ => .ok (gather xs (keptPos xs.length o)) := by
  have h1 := delete_ok_iff xs o
  have h2 := delete_ok_iff (List.range xs.length) o
  rw [List.length_range] at h2
  cases hx : Np.delete xs o with
  | ok ys =>
    have hok := h1.1 ⟨ys, hx⟩
    obtain ⟨zs, hz⟩ := h2.2 hok
    rw [hz]
    simp only
    rw [delete_eq hx, removeAt_gather]; rfl
  | error e =>
    have hno : ¬ DelOk xs.length o := fun h => by obtain ⟨ys, hy⟩ := h1.2 h; rw [hx] at hy; simp at hy
    cases hz : Np.delete (List.range xs.length) o with
    | ok zs => exact absurd (h2.1 ⟨zs, hz⟩) hno
    | error e' =>
      simp only
      rw [delete_error hx, delete_error hz]

theorem keptPos_lt {n : Nat} {o : Obj} : ∀ i ∈ keptPos n o, i < n := by
  intro i hi; exact List.mem_range.1 (List.mem_filter.1 hi).1

/-- exact result of `curve.delete(ix)` -/
theorem delete_curve_eq {c : Curve α} (hc : WF c) (o : Obj) :
    c.delete o = match Np.delete (List.range c.size) o with
      | .error e => .error e
      | .ok _ => .ok ⟨gather c.rows (keptPos c.size o), if keptPos c.size o = [] then 2 else c.ncols,
          c.tdata.map (gather · (keptPos c.size o)), c.dtype⟩ := by
  have hl : (gather c.rows (keptPos c.size o)).length = (keptPos c.size o).length := gather_length keptPos_lt
  have fin : ∀ (t : Option (List α)), (∀ s, t = some s → s.length = (keptPos c.size o).length) →
      Curve.ofRows (gather c.rows (keptPos c.size o)) c.ncols c.dtype t =
        .ok ⟨gather c.rows (keptPos c.size o), if keptPos c.size o = [] then 2 else c.ncols, t, c.dtype⟩ := by
    intro t ht
    rw [ofRows_ok hc.two_le (fun r hr => hc.rect r (mem_gather hr)) (fun r hr => hc.repr r (mem_gather hr))
      (by rw [hl]; exact ht)]
    have : gather c.rows (keptPos c.size o) = [] ↔ keptPos c.size o = [] := by
      rw [← List.length_eq_zero_iff, hl, List.length_eq_zero_iff]
    simp [this]
  have hrow := delete_cases c.rows o
  change Np.delete c.rows o = match Np.delete (List.range c.size) o with
      | .error e => .error e
      | .ok _ => .ok (gather c.rows (keptPos c.size o)) at hrow
  unfold Curve.delete
  cases ht : c.tdata with
  | none =>
    simp only [hrow]
    cases Np.delete (List.range c.size) o with
    | error e => rfl
    | ok _ => simp only; rw [fin none (by simp)]; rfl
  | some t =>
    have htl : t.length = c.size := hc.tlen t ht
    have htr := delete_cases t o
    rw [htl] at htr
    simp only [hrow, htr]
    cases Np.delete (List.range c.size) o with
    | error e => rfl
    | ok _ =>
      simp only
      rw [fin (some (gather t (keptPos c.size o)))]; rfl
      intro s hs'
      simp at hs'; subst hs'
      exact gather_length (by rw [htl]; exact keptPos_lt)

theorem reverse_eq {c : Curve α} (hc : WF c) :
    c.reverse = .ok ⟨c.rows.reverse, if c.rows = [] then 2 else c.ncols, c.tdata.map List.reverse, c.dtype⟩ := by
  unfold Curve.reverse
  rw [ofRows_ok hc.two_le (fun r hr => hc.rect r (List.mem_reverse.1 hr))
    (fun r hr => hc.repr r (List.mem_reverse.1 hr))]
  · simp
  · intro s hs
    rw [Option.map_eq_some_iff] at hs
    obtain ⟨t, ht, rfl⟩ := hs
    simp [hc.tlen t ht]

theorem copy_eq {c : Curve α} (hc : WF c) :
    c.copy = .ok ⟨c.rows, if c.rows = [] then 2 else c.ncols, c.tdata, c.dtype⟩ := by
  have h := ofRows_ok (dt := c.dtype) (t := c.tdata) hc.two_le hc.rect hc.repr hc.tlen
  rw [← h]
  rfl

/-- concatenation of the parameter vectors -/
def tcat (a b : Option (List α)) : Option (List α) :=
  match a, b with
  | some s, some t => some (s ++ t)
  | _, _ => none

theorem add_eq {a b : Curve α} (ha : WF a) (hb : WF b) :
    a.add b = if a.ncols ≠ b.ncols then .error .valueError else
      .ok ⟨(a.rows ++ b.rows).map (fun r => r.map (a.dtype.promote b.dtype).cast),
        if a.rows ++ b.rows = [] then 2 else a.ncols, tcat a.tdata b.tdata, a.dtype.promote b.dtype⟩ := by
  unfold Curve.add checkNdim Curve.ndim
  by_cases h : a.ncols = b.ncols
  · simp only [h, ne_eq, not_true_eq_false, if_false]
    rw [ofRows_ok hb.two_le]
    · simp [tcat]; rfl
    · intro r hr
      simp only [List.mem_map, List.mem_append] at hr
      obtain ⟨r', hr' | hr', rfl⟩ := hr
      · simpa [h] using ha.rect r' hr'
      · simpa using hb.rect r' hr'
    · intro r hr x hx; exact mem_map_cast hr hx
    · intro s hs
      cases hta : a.tdata with
      | none => simp [hta] at hs
      | some ta =>
        cases htb : b.tdata with
        | none => simp [hta, htb] at hs
        | some tb =>
          simp [hta, htb] at hs
          subst hs
          simp [ha.tlen ta hta, hb.tlen tb htb]
  · simp [h]

end Verif.Model
