import Verif.Props.Edit
import Verif.Props.Dims
import Verif.Props.Nonsingular

/-!
Laws between selecting, joining and editing: C148.
-/
namespace Verif.Props

open Verif Verif.Np Verif.Model Verif.Spec

variable {α : Type} [Elem α]

/-! ## Selecting twice -/

theorem gather_gather {β : Type} {xs : List β} {ks ls : List Nat} (hk : ∀ i ∈ ks, i < xs.length) (hl : ∀ i ∈ ls, i < ks.length) :
    gather (gather xs ks) ls = gather xs (gather ks ls) := by
  have hg : ∀ i ∈ gather ks ls, i < xs.length := fun i hi => hk i (mem_gather hi)
  apply List.ext_getElem?
  intro j
  rw [gather_getElem? (by rw [gather_length hk]; exact hl), gather_getElem? hg, gather_getElem? hl]
  cases h : ls[j]? with
  | none => rfl
  | some l =>
    simp only [Option.bind_some]
    rw [gather_getElem? hk]

theorem gather_range_self {ks : List Nat} {n : Nat} (h : ∀ i ∈ ks, i < n) : gather (List.range n) ks = ks := by
  apply List.ext_getElem?
  intro j
  rw [gather_getElem? (by simpa using h)]
  cases hk : ks[j]? with
  | none => rfl
  | some k =>
    rw [Option.bind_some, List.getElem?_range (h k (List.mem_of_getElem? hk))]

theorem selPos_nat {n : Nat} {ks : List Nat} (h : ∀ i ∈ ks, i < n) : selPos n (.arr (ks.map fun (k : Nat) => (k : Int))) = .ok ks := by
  have : (ks.map fun (k : Nat) => (k : Int)).mapM (normIdx n) = some ks := by
    rw [mapM_some]
    clear * - h
    induction ks with
    | nil => exact .nil
    | cons k ks ih =>
      refine .cons ?_ (ih fun i hi => h i (by simp [hi]))
      exact normIdx_eq_some.2 ⟨h k (by simp), .inl rfl⟩
  simp only [selPos, this]

theorem gather_eq_nil {β : Type} {xs : List β} {ks : List Nat} (h : ∀ i ∈ ks, i < xs.length) : gather xs ks = [] ↔ ks = [] := by
  rw [← List.length_eq_zero_iff, gather_length h, List.length_eq_zero_iff]

/-- **C148 (selecting twice).** `c[ix1][ix2]` is one selection: the positions are those that the same two indexers select from the array
`0, 1, …, size - 1`; and the second selection fails as it fails on that array. -/
theorem C148_select_twice {c c1 : Curve α} (hc : WF c) {ix1 : Indexer} (h1 : c.getSub ix1 = .ok c1) (ix2 : Indexer) :
    ∃ ks : List Nat, npIndex (List.range c.size) ix1 = .ok ks ∧
      (∀ is : List Nat, npIndex ks ix2 = .ok is → c1.getSub ix2 = c.getSub (.arr (is.map fun (k : Nat) => (k : Int)))) ∧
      ∀ e, npIndex ks ix2 = .error e → c1.getSub ix2 = .error e := by
  have w1 := getSub_WF h1
  rw [getSub_eq hc] at h1
  cases hs : selPos c.size ix1 with
  | error e => rw [hs] at h1; simp at h1
  | ok ks =>
    rw [hs] at h1
    simp only [Except.ok.injEq] at h1
    have hk := selPos_lt hs
    have hsz : c1.size = ks.length := by
      rw [← h1]; exact gather_length hk
    refine ⟨ks, ?_, ?_, ?_⟩
    · rw [npIndex_eq, List.length_range, hs]
      simp only
      rw [gather_range_self hk]
    · intro is his
      rw [npIndex_eq] at his
      cases hs2 : selPos ks.length ix2 with
      | error e => rw [hs2] at his; simp at his
      | ok ls =>
        rw [hs2] at his
        simp only [Except.ok.injEq] at his
        have hl := selPos_lt hs2
        have hi : ∀ i ∈ is, i < c.size := by
          intro i hi
          rw [← his] at hi
          exact hk i (mem_gather hi)
        rw [getSub_eq w1, hsz, hs2, getSub_eq hc, selPos_nat hi]
        simp only
        rw [← h1, ← his]
        simp only
        have e1 : gather (gather c.rows ks) ls = gather c.rows (gather ks ls) := gather_gather hk hl
        rw [e1]
        have e2 : (Option.map (fun x => gather x ls) (Option.map (fun x => gather x ks) c.tdata)) =
            Option.map (fun x => gather x (gather ks ls)) c.tdata := by
          cases ht : c.tdata with
          | none => rfl
          | some t =>
            simp only [Option.map_some]
            rw [gather_gather (by rw [hc.tlen t ht]; exact hk) hl]
        rw [e2]
        congr 2
        by_cases h : ls = []
        · subst h; simp [gather]
        · have h' : gather ks ls ≠ [] := fun e => h ((gather_eq_nil hl).1 e)
          have h'' : ks ≠ [] := by
            intro e; subst e
            obtain ⟨l, hl'⟩ := List.exists_mem_of_ne_nil ls h
            simpa using hl l hl'
          rw [if_neg h, if_neg h', if_neg h'']
    · intro e he
      rw [npIndex_eq] at he
      cases hs2 : selPos ks.length ix2 with
      | ok ls => rw [hs2] at he; simp at he
      | error e' =>
        rw [hs2] at he
        simp only [Except.error.injEq] at he
        rw [getSub_eq w1, hsz, hs2, he]

theorem plain_pos {n : Nat} (i j : Nat) : selPos n (.slice ⟨some i, some j, none⟩) = .ok (List.range' (min n i) (min n j - min n i)) := by
  have h1 : first n ⟨some i, some j, none⟩ = (min n i : Nat) := by
    simp only [first, bound]; simp; omega
  have h2 : last n ⟨some i, some j, none⟩ = (min n j : Nat) := by
    simp only [last, bound]; simp; omega
  have := sliceIndices_step1 n (some i) (some j)
  rw [h1, h2] at this
  simp only [selPos]
  rw [this]
  congr 2; omega

/-- **C148 (slice of a slice).** `c[a:b][i:j]` equals `c[a+i:min(b, a+j)]`, for all bounds that are not negative. -/
theorem C148_slice_slice {c : Curve α} (hc : WF c) (a b i j : Nat) :
    ((c.getSub (.slice ⟨some a, some b, none⟩)).bind fun c1 => c1.getSub (.slice ⟨some i, some j, none⟩)) =
      c.getSub (.slice ⟨some (a + i : Nat), some (min b (a + j) : Nat), none⟩) := by
  have hn : c.size = c.rows.length := rfl
  obtain ⟨c1, h1, h2, h3⟩ := C07_plain hc a b
  have w1 := getSub_WF h1
  have h1' := h1
  rw [h1]
  simp only [Except.bind]
  rw [getSub_eq w1, getSub_eq hc, plain_pos, plain_pos]
  rw [getSub_eq hc, plain_pos] at h1'
  simp only [Except.ok.injEq] at h1'
  have hsz : c1.size = min c.size b - min c.size a := by
    rw [← h1']
    simp only [Curve.size]
    rw [gather_length, List.length_range']
    intro k hk
    rw [List.mem_range'_1] at hk
    omega
  have hk : ∀ k ∈ List.range' (min c.size a) (min c.size b - min c.size a), k < c.size := by
    intro k hk
    rw [List.mem_range'_1] at hk
    omega
  have hl : ∀ k ∈ List.range' (min c1.size i) (min c1.size j - min c1.size i),
      k < (List.range' (min c.size a) (min c.size b - min c.size a)).length := by
    intro k hk
    rw [List.mem_range'_1] at hk
    rw [List.length_range']
    omega
  have key : gather (List.range' (min c.size a) (min c.size b - min c.size a)) (List.range' (min c1.size i) (min c1.size j - min c1.size i)) =
      List.range' (min c.size (a + i)) (min c.size (min b (a + j)) - min c.size (a + i)) := by
    rw [gather_range' _ _ _ (by rw [List.length_range']; omega)]
    apply List.ext_getElem?
    intro k
    simp only [List.getElem?_take, List.getElem?_drop]
    by_cases hkk : k < min c1.size j - min c1.size i
    · rw [if_pos hkk, List.getElem?_range' (by omega), List.getElem?_range' (by omega)]
      congr 1
      omega
    · rw [if_neg hkk, List.getElem?_eq_none (by rw [List.length_range']; omega)]
  have hE : (List.range' (min c1.size i) (min c1.size j - min c1.size i) = []) ↔
      (List.range' (min c.size (a + i)) (min c.size (min b (a + j)) - min c.size (a + i)) = []) := by
    rw [← key, gather_eq_nil hl]
  rw [← key]
  rw [← key] at hE
  generalize List.range' (min c1.size i) (min c1.size j - min c1.size i) = ls at *
  generalize List.range' (min c.size a) (min c.size b - min c.size a) = ks at *
  rw [← h1']
  simp only
  rw [gather_gather hk hl]
  congr 2
  · by_cases h : ls = []
    · rw [if_pos h, if_pos (hE.1 h)]
    · rw [if_neg h, if_neg fun e => h (hE.2 e), if_neg]
      rintro rfl
      obtain ⟨l, hl'⟩ := List.exists_mem_of_ne_nil ls h
      simpa using hl l hl'
  · cases ht : c.tdata with
    | none => rfl
    | some t =>
      simp only [Option.map_some]
      rw [gather_gather (by rw [hc.tlen t ht]; exact hk) hl]

/-- **C148 (deleting is selecting the rest).** Whenever `delete` returns, the result is what the mask of the positions not named selects. -/
theorem C148_delete_mask {c c' : Curve α} (hc : WF c) {o : Obj} (h : c.delete o = .ok c') {bs : List Bool} (hb : bs.length = c.size)
    (hm : ∀ x, x < c.size → (bs[x]? = some true ↔ ¬ Named c.size o x)) : c.getSub (.mask bs) = .ok c' := by
  rw [delete_curve_eq hc] at h
  cases hd : Np.delete (List.range c.size) o with
  | error e => rw [hd] at h; simp at h
  | ok zs =>
    have hok := (delete_ok_iff (List.range c.size) o).1 ⟨zs, hd⟩
    rw [List.length_range] at hok
    rw [hd] at h
    simp only [Except.ok.injEq] at h
    have hs : selPos c.size (.mask bs) = .ok (keptPos c.size o) := by
      simp only [selPos, hb, if_true, keptPos]
      congr 1
      apply List.filter_congr
      intro x hx
      rw [List.mem_range] at hx
      have h1 := hm x hx
      have h2 := named_iff hx hok
      have hx' : x < bs.length := by omega
      rw [List.getElem?_eq_getElem hx'] at h1 ⊢
      simp only [Option.some.injEq, Option.getD_some] at h1 ⊢
      rw [← h2] at h1
      cases hbx : bs[x] <;> cases hnx : named c.size o x <;> simp_all
    rw [getSub_eq hc, hs]
    simp only
    rw [h]

/-- **C148 (reversing is selecting backwards).** `c.reverse()` equals `c[::-1]`. -/
theorem C148_reverse_slice {c : Curve α} (hc : WF c) : c.reverse = c.getSub (.slice ⟨none, none, some (-1)⟩) := by
  have hn : c.size = c.rows.length := rfl
  obtain ⟨c', ks, h1, h2, h3, _, h5⟩ := C07_slice hc ⟨none, none, some (-1)⟩ (by simp)
  have hks : ks = (List.range c.size).reverse := by
    apply List.Perm.eq_of_pairwise (le := (· > ·)) (fun x y _ _ h1 h2 => by omega) (h5 (by simp))
    · rw [List.pairwise_reverse]; exact List.pairwise_lt_range
    · rw [List.perm_ext_iff_of_nodup]
      · intro x
        rw [h3, List.mem_reverse, List.mem_range]
        simp only [SliceMem, first, last]
        simp
        constructor
        · rintro ⟨⟨m, hm⟩, _⟩; omega
        · intro hx
          exact ⟨⟨c.size - 1 - x, by omega⟩, by omega⟩
      · exact (h5 (by simp)).imp fun h => by omega
      · exact (List.nodup_reverse).2 List.nodup_range
  have hrev : ∀ {β : Type} (xs : List β), xs.length = c.size → gather xs ks = xs.reverse := by
    intro β xs hx
    rw [hks]
    apply List.ext_getElem?
    intro j
    rw [gather_getElem? (fun i hi => by simpa [hx] using hi)]
    by_cases hj : j < c.size
    · rw [List.getElem?_reverse (by simpa using hj), List.getElem?_reverse (by omega), List.length_range, hx,
        List.getElem?_range (by omega)]
      rfl
    · rw [List.getElem?_eq_none (by simpa using hj), List.getElem?_eq_none (by simp; omega)]
      rfl
  have hsel : selPos c.size (.slice ⟨none, none, some (-1)⟩) = .ok ks := by
    have hq := sliceIndices_eq (n := c.size) (s := ⟨none, none, some (-1)⟩) (by decide)
    have hsp := sliceIndices_spec hq
    simp only [selPos]
    rw [hq]
    congr 1
    rw [hks]
    apply List.Perm.eq_of_pairwise (le := (· > ·)) (fun x y _ _ h1 h2 => by omega) (hsp.2.2.2.1 (by decide))
    · rw [List.pairwise_reverse]; exact List.pairwise_lt_range
    · rw [List.perm_ext_iff_of_nodup ((hsp.2.2.2.1 (by decide)).imp fun h => by omega) ((List.nodup_reverse).2 List.nodup_range)]
      intro x
      rw [hsp.2.1, ← h3, hks]
  rw [reverse_eq hc, getSub_eq hc, hsel]
  simp only
  rw [hrev c.rows rfl]
  congr 2
  · have : ks = [] ↔ c.rows = [] := by
      rw [hks, List.reverse_eq_nil_iff, ← List.length_eq_zero_iff, List.length_range, hn, List.length_eq_zero_iff]
    simp only [List.reverse_eq_nil_iff, this]
  · cases ht : c.tdata with
    | none => rfl
    | some t => simp only [Option.map_some]; rw [hrev t (hc.tlen t ht)]

/-! ## Joining -/

theorem last_nat {n k : Nat} (h : k ≤ n) : last n ⟨none, some (k : Int), none⟩ = k := by
  simp only [last, bound]; simp; omega

theorem take_nat {c : Curve α} (hc : WF c) {k : Nat} (hk : k ≤ c.size) :
    c.getSub (.slice ⟨none, some (k : Int), none⟩) = .ok ⟨c.rows.take k, if k = 0 then 2 else c.ncols, c.tdata.map (·.take k), c.dtype⟩ := by
  obtain ⟨m, hm, e, h⟩ := slice_to hc k
  rw [last_nat hk] at e
  have : m = k := by omega
  subst this
  exact h

theorem drop_nat {c : Curve α} (hc : WF c) {k : Nat} (hk : k ≤ c.size) :
    c.getSub (.slice ⟨some (k : Int), none, none⟩) = .ok ⟨c.rows.drop k, if k = c.size then 2 else c.ncols, c.tdata.map (·.drop k), c.dtype⟩ := by
  obtain ⟨m, hm, e, h⟩ := slice_from hc k
  rw [first_eq_last, last_nat hk] at e
  have : m = k := by omega
  subst this
  exact h

/-- **C148 (inserting is joining).** `c.insert(k, o)` equals `c[:k] + o + c[k:]` for a curve `o` of the same dtype, if one of the two is not
parametric, and both parts of `c` have points or the curves are plane. -/
theorem C148_insert_join {c o : Curve α} (hc : WF c) (ho : WF o) (hd : c.ndim = o.ndim) (hdt : o.dtype = c.dtype)
    (hp : c.tdata = none ∨ o.tdata = none) {k : Nat} (hk : k ≤ c.size) (h : c.ndim = 2 ∨ 0 < k ∧ k < c.size) :
    c.insert (.int k) (.curve o) =
      ((c.getSub (.slice ⟨none, some (k : Int), none⟩)).bind fun a => (c.getSub (.slice ⟨some (k : Int), none, none⟩)).bind fun b =>
        (a.add o).bind fun x => x.add b) := by
  have hn : c.size = c.rows.length := rfl
  have h1 := take_nat hc hk
  have h2 := drop_nat hc hk
  have w1 := getSub_WF h1
  have w2 := getSub_WF h2
  have hnd : c.ncols = o.ncols := hd
  have hcast : (o.rows.map fun r => r.map c.dtype.cast) = o.rows := map_cast_id fun r hr x hx => by rw [← hdt]; exact ho.repr r hr x hx
  have hins : c.insert (.int k) (.curve o) = .ok ⟨c.rows.take k ++ o.rows ++ c.rows.drop k,
      if c.rows.take k ++ o.rows ++ c.rows.drop k = [] then 2 else c.ncols, none, c.dtype⟩ := by
    refine insert_finish hc (o := .curve o) ho hd ?_ ?_
    · have e := insertBlock_eq c.rows ((PointOrCurve.curve o).rows.map fun r => r.map c.dtype.cast) k
      obtain ⟨c', g1, g2, _⟩ := C11_insert hc (o := .curve o) ho hd k k hk (.inl ⟨rfl, by omega⟩)
      change Np.insert c.rows (.int k) (o.rows.map fun r => r.map c.dtype.cast) = _
      simp only [Np.insert]
      change Np.insertBlock c.rows k ((PointOrCurve.curve o).rows.map fun r => r.map c.dtype.cast) = _ 
      rw [e, if_pos (by omega)]
      have : (PointOrCurve.curve o).rows = o.rows := rfl
      rw [this, hcast, if_neg (by omega), Int.toNat_natCast]
    · intro r hr
      change r ∈ c.rows ∨ r ∈ o.rows.map fun r => r.map c.dtype.cast
      rw [hcast]
      simp only [List.mem_append] at hr
      rcases hr with (hr | hr) | hr
      · exact .inl (List.mem_of_mem_take hr)
      · exact .inr hr
      · exact .inl (List.mem_of_mem_drop hr)
  rw [hins, h1, h2]
  simp only [Except.bind]
  have e1 : (if k = 0 then 2 else c.ncols) = c.ncols := by
    rcases h with h | h
    · have : c.ncols = 2 := h
      simp [this]
    · rw [if_neg (by omega)]
  have e2 : (if k = c.size then 2 else c.ncols) = c.ncols := by
    rcases h with h | h
    · have : c.ncols = 2 := h
      simp [this]
    · rw [if_neg (by omega)]
  rw [e1] at w1 ⊢
  rw [e2] at w2 ⊢
  have h3 := add_eq' w1 ho
  rw [if_neg (by simpa using hnd)] at h3
  have w3 := add_WF h3
  rw [h3]
  simp only
  have e3 : (if c.rows.take k ++ o.rows = [] then 2 else c.ncols) = c.ncols := by
    rcases h with h | h
    · have : c.ncols = 2 := h
      simp [this]
    · rw [if_neg]
      intro e
      have := congrArg List.length e
      rw [List.length_append, List.length_take, List.length_nil] at this
      omega
  simp only [e3] at w3 ⊢
  rw [add_eq' w3 w2]
  simp only [hdt, promote_self, ne_eq, not_true_eq_false, if_false]
  congr 2
  rcases hp with hp | hp
  · rw [hp]; rfl
  · rw [hp]; cases c.tdata <;> rfl

/-- **C148 (parts of a join).** `(a + b)[:len(a)]` is `a` and `(a + b)[len(a):]` is `b`, for curves of the same dimension and dtype with
points, both parametric or both not. -/
theorem C148_join_parts {a b : Curve α} (ha : WF a) (hb : WF b) (hd : a.ndim = b.ndim) (hdt : a.dtype = b.dtype)
    (hp : a.isparametric = b.isparametric) (hane : a.rows ≠ []) (hbne : b.rows ≠ []) :
    ∃ c, a.add b = .ok c ∧ c.getSub (.slice ⟨none, some (a.size : Int), none⟩) = .ok a ∧
      c.getSub (.slice ⟨some (a.size : Int), none, none⟩) = .ok b := by
  have hnd : a.ncols = b.ncols := hd
  have h := add_eq' ha hb
  rw [if_neg (by simpa using hnd)] at h
  have w := add_WF h
  have hla : 0 < a.rows.length := List.length_pos_iff.2 hane
  have hlb : 0 < b.rows.length := List.length_pos_iff.2 hbne
  have hne : a.rows ++ b.rows ≠ [] := by simp [hane]
  rw [if_neg hne] at h w
  refine ⟨_, h, ?_, ?_⟩
  · rw [take_nat w (by simp [Curve.size])]
    obtain ⟨ra, na, ta, da⟩ := a
    obtain ⟨rb, nb, tb, db⟩ := b
    simp only [Curve.size, Curve.isparametric, Curve.ndim] at *
    subst hdt hnd
    simp only [promote_self]
    congr 2
    · simp
    · exact if_neg (by omega)
    · cases ta <;> cases tb <;> simp_all [tcat]
      have := ha.tlen _ rfl
      simp only at this
      rw [← this]; simp
  · rw [drop_nat w (by simp [Curve.size])]
    obtain ⟨ra, na, ta, da⟩ := a
    obtain ⟨rb, nb, tb, db⟩ := b
    simp only [Curve.size, Curve.isparametric, Curve.ndim] at *
    subst hdt hnd
    simp only [promote_self]
    congr 2
    · simp
    · exact if_neg (by rw [List.length_append]; omega)
    · cases ta <;> cases tb <;> simp_all [tcat]
      have := ha.tlen _ rfl
      simp only at this
      rw [← this]; simp

/-! ## Points and coordinates -/

theorem gather_zipWith {β γ δ : Type} (f : β → γ → δ) {xs : List β} {ys : List γ} {ks : List Nat} (h1 : ∀ i ∈ ks, i < xs.length)
    (h2 : ys.length = xs.length) : gather (List.zipWith f xs ys) ks = List.zipWith f (gather xs ks) (gather ys ks) := by
  apply List.ext_getElem?
  intro j
  rw [gather_getElem? (by simpa [h2] using h1), List.getElem?_zipWith, gather_getElem? h1, gather_getElem? (by rw [h2]; exact h1)]
  cases h : ks[j]? with
  | none => rfl
  | some k => simp only [Option.bind_some, List.getElem?_zipWith]

/-- **C148 (a coordinate and a selection).** Inserting a coordinate and then selecting points gives the same curve as selecting the points and
inserting the selected values, if something is selected. -/
theorem C148_insertdim_select {c c1 : Curve α} (hc : WF c) {ix : Indexer} (h : c.getSub ix = .ok c1) (hne : c1.rows ≠ [])
    {k : Nat} (hk : k ≤ c.ndim) {v : List α} (hv : v.length = c.size) :
    ∃ d v1, c.insertdim k (some v) = .ok d ∧ npIndex v ix = .ok v1 ∧ d.getSub ix = c1.insertdim k (some v1) := by
  have hn : c.size = c.rows.length := rfl
  have w1 := getSub_WF h
  rw [getSub_eq hc] at h
  cases hs : selPos c.size ix with
  | error e => rw [hs] at h; simp at h
  | ok ks =>
    rw [hs] at h
    simp only [Except.ok.injEq] at h
    have hkl := selPos_lt hs
    have hks : ks ≠ [] := by
      rintro rfl
      apply hne
      rw [← h]; rfl
    have hcne : c.rows ≠ [] := by
      intro e
      obtain ⟨x, hx⟩ := List.exists_mem_of_ne_nil ks hks
      have := hkl x hx
      rw [hn, e] at this
      simp at this
    have hi := insertdim_ok hc k k hk (.inl ⟨rfl, by omega⟩) v hv
    rw [if_neg hcne] at hi
    have wd := insertdim_WF hi
    have hsz : (List.zipWith (fun r x => List.take k r ++ [c.dtype.cast x] ++ List.drop k r) c.rows v).length = c.size := by
      rw [List.length_zipWith]; omega
    refine ⟨_, gather v ks, hi, ?_, ?_⟩
    · rw [npIndex_eq, hv, hs]
    · have hg : (gather v ks).length = c1.size := by
        rw [gather_length (by rw [hv]; exact hkl), ← h]
        exact (gather_length hkl).symm
      have hnd1 : c1.ndim = c.ndim := by rw [← h]; simp [Curve.ndim, hks]
      rw [getSub_eq wd]
      have hsz' : Curve.size ⟨List.zipWith (fun r x => List.take k r ++ [c.dtype.cast x] ++ List.drop k r) c.rows v, c.ncols + 1, none, c.dtype⟩ = c.size := hsz
      rw [hsz', hs, insertdim_ok w1 k k (by omega) (.inl ⟨rfl, by omega⟩) (gather v ks) hg, if_neg hne]
      simp only [if_neg hks]
      have e1 : c1.ncols = c.ncols := hnd1
      have e2 : c1.dtype = c.dtype := by rw [← h]
      have e3 : c1.rows = gather c.rows ks := by rw [← h]
      rw [e1, e2, e3, gather_zipWith _ hkl (by omega)]
      rfl

/-- **C148 (leaving out coordinates and a selection).** Deleting coordinates and then selecting points gives the same curve as selecting the
points and deleting the coordinates, if points are left. -/
theorem C148_deletedim_select {c c1 d : Curve α} (hc : WF c) {ix : Indexer} (h : c.getSub ix = .ok c1) (hne : c1.rows ≠ [])
    {a : Obj} (hd : c.deletedim a = .ok d) (hdn : d.rows ≠ []) : d.getSub ix = c1.deletedim a := by
  have hn : c.size = c.rows.length := rfl
  have w1 := getSub_WF h
  rw [getSub_eq hc] at h
  cases hs : selPos c.size ix with
  | error e => rw [hs] at h; simp at h
  | ok ks =>
    rw [hs] at h
    simp only [Except.ok.injEq] at h
    have hkl := selPos_lt hs
    have hks : ks ≠ [] := by
      rintro rfl
      apply hne
      rw [← h]; rfl
    have e1 : c1.ncols = c.ncols := by rw [← h]; simp [hks]
    have e2 : c1.dtype = c.dtype := by rw [← h]
    have e3 : c1.rows = gather c.rows ks := by rw [← h]
    unfold Curve.deletedim at hd ⊢
    rw [e1]
    by_cases h2 : c.ncols = 2
    · rw [if_pos h2] at hd; simp at hd
    · rw [if_neg h2] at hd ⊢
      cases hk : Np.delete (List.range c.ncols) a with
      | error e => rw [hk] at hd; simp at hd
      | ok kept =>
        rw [hk] at hd
        simp only at hd ⊢
        have hlt : ∀ x ∈ kept, x < c.ncols := by
          intro x hx
          rw [delete_eq hk, removeAt_gather, List.length_range] at hx
          have := mem_gather hx
          simpa using this
        have hrect : ∀ r ∈ c.rows, (gather r kept).length = kept.length := fun r hr =>
          gather_length fun i hi => by rw [hc.rect r hr]; exact hlt i hi
        have hR : ∀ r ∈ c.rows.map (fun r => gather r kept), r.length = kept.length := by
          intro r hr
          obtain ⟨r', hr', rfl⟩ := List.mem_map.1 hr
          exact hrect r' hr'
        have hrepr : ∀ r ∈ c.rows.map (fun r => gather r kept), ∀ x ∈ r, c.dtype.cast x = x := by
          intro r hr x hx
          obtain ⟨r', hr', rfl⟩ := List.mem_map.1 hr
          exact hc.repr r' hr' x (mem_gather hx)
        have hkep : 2 ≤ kept.length := by
          by_contra hlt2
          rw [ofRows_eq _ _ _ _ hR] at hd
          split at hd
          · have := (tcheck_ok.1 hd).1
            rw [this] at hdn
            exact hdn rfl
          · rw [if_pos (by omega)] at hd; simp at hd
        have wd := ofRows_WF hd
        rw [ofRows_ok hkep hR hrepr (by simp)] at hd
        simp only [Except.ok.injEq] at hd
        have hcne : c.rows ≠ [] := by
          intro e
          apply hdn
          rw [← hd, e]; rfl
        have hdsz : d.size = c.size := by rw [← hd]; simp [Curve.size]
        rw [getSub_eq wd, hdsz, hs]
        simp only [if_neg hks]
        rw [ofRows_ok hkep]
        · rw [← hd, e2, e3]
          simp only
          rw [← gather_map, if_neg (by simp [hcne]), if_neg]
          · rfl
          · rw [List.map_eq_nil_iff, gather_eq_nil hkl]; exact hks
        · intro r hr
          obtain ⟨r', hr', rfl⟩ := List.mem_map.1 hr
          rw [e3] at hr'
          exact hrect r' (mem_gather hr')
        · intro r hr x hx
          obtain ⟨r', hr', rfl⟩ := List.mem_map.1 hr
          rw [e3] at hr'
          rw [e2]
          exact hc.repr r' (mem_gather hr') x (mem_gather hx)
        · simp

theorem row_insert_insert {r : List α} {j k : Nat} (hjk : j ≤ k) (hk : k ≤ r.length) (x y : α) :
    (r.take j ++ [x] ++ r.drop j).take (k + 1) ++ [y] ++ (r.take j ++ [x] ++ r.drop j).drop (k + 1) =
      (r.take k ++ [y] ++ r.drop k).take j ++ [x] ++ (r.take k ++ [y] ++ r.drop k).drop j := by
  have h1 : (r.take j).length = j := by rw [List.length_take]; omega
  have h2 : (r.take k).length = k := by rw [List.length_take]; omega
  have e1 : (r.take j ++ [x] ++ r.drop j).take (k + 1) = r.take j ++ [x] ++ (r.drop j).take (k - j) := by
    rw [List.take_append, List.take_of_length_le (by rw [List.length_append, h1]; simp; omega)]
    congr 2
    rw [List.length_append, h1]; simp
  have e2 : (r.take j ++ [x] ++ r.drop j).drop (k + 1) = r.drop k := by
    rw [List.drop_append, List.drop_of_length_le (by rw [List.length_append, h1]; simp; omega), List.nil_append, List.drop_drop]
    congr 1
    rw [List.length_append, h1]; simp; omega
  have e3 : (r.take k ++ [y] ++ r.drop k).take j = r.take j := by
    rw [List.append_assoc, List.take_append_of_le_length (by omega), List.take_take, Nat.min_eq_left hjk]
  have e4 : (r.take k ++ [y] ++ r.drop k).drop j = (r.drop j).take (k - j) ++ [y] ++ r.drop k := by
    rw [List.append_assoc, List.drop_append_of_le_length (by omega), List.drop_take, List.append_assoc]
  rw [e1, e2, e3, e4]
  simp [List.append_assoc]

/-- **C148 (two coordinates).** The order in which two coordinates are inserted does not matter, if the places are counted accordingly. -/
theorem C148_insertdim_twice {c : Curve α} (hc : WF c) (hne : c.rows ≠ []) {j k : Nat} (hjk : j ≤ k) (hk : k ≤ c.ndim) {v w : List α}
    (hv : v.length = c.size) (hw : w.length = c.size) :
    ((c.insertdim j (some v)).bind fun d => d.insertdim (k + 1 : Nat) (some w)) =
      (c.insertdim k (some w)).bind fun d => d.insertdim j (some v) := by
  have hn : c.size = c.rows.length := rfl
  have hnd : c.ndim = c.ncols := rfl
  have h1 := insertdim_ok hc j j (by omega) (.inl ⟨rfl, by omega⟩) v hv
  have h2 := insertdim_ok hc k k hk (.inl ⟨rfl, by omega⟩) w hw
  rw [if_neg hne] at h1 h2
  have w1 := insertdim_WF h1
  have w2 := insertdim_WF h2
  have nz : ∀ (f : List α → α → List α) (u : List α), u.length = c.size → List.zipWith f c.rows u ≠ [] := by
    intro f u hu e
    have := congrArg List.length e
    rw [List.length_zipWith, hu, hn, Nat.min_self] at this
    exact hne (List.length_eq_zero_iff.1 this)
  rw [h1, h2]
  simp only [Except.bind]
  rw [insertdim_ok w1 (k + 1 : Nat) (k + 1) (by simp only [Curve.ndim]; omega) (.inl ⟨rfl, by omega⟩) w
      (by simp only [Curve.size, List.length_zipWith]; omega),
    insertdim_ok w2 j j (by simp only [Curve.ndim]; omega) (.inl ⟨rfl, by omega⟩) v (by simp only [Curve.size, List.length_zipWith]; omega)]
  rw [if_neg (nz _ v hv), if_neg (nz _ w hw)]
  congr 2
  apply List.ext_getElem?
  intro i
  simp only [List.getElem?_zipWith]
  cases hr : c.rows[i]? with
  | none => rfl
  | some r =>
    cases hvi : v[i]? with
    | none =>
      cases hwi : w[i]? with
      | none => rfl
      | some y => rfl
    | some x =>
      cases hwi : w[i]? with
      | none => rfl
      | some y =>
        simp only [Option.some.injEq]
        exact row_insert_insert hjk (by rw [hc.rect r (List.mem_of_getElem? hr)]; omega) _ _

/-- **C148 (a coordinate and a join).** Inserting a coordinate into a join of two curves (of one dimension and dtype, with points) is joining the
curves with the two parts of the values inserted. -/
theorem C148_insertdim_join {a b : Curve α} (ha : WF a) (hb : WF b) (hd : a.ndim = b.ndim) (hdt : a.dtype = b.dtype) (hane : a.rows ≠ [])
    (hbne : b.rows ≠ []) {k : Nat} (hk : k ≤ a.ndim) {v w : List α} (hv : v.length = a.size) (hw : w.length = b.size) :
    ((a.add b).bind fun c => c.insertdim k (some (v ++ w))) =
      (a.insertdim k (some v)).bind fun a' => (b.insertdim k (some w)).bind fun b' => a'.add b' := by
  have hnd : a.ncols = b.ncols := hd
  have h := add_eq' ha hb
  have hne : a.rows ++ b.rows ≠ [] := by simp [hane]
  rw [if_neg (by simpa using hnd), if_neg hne] at h
  have wc := add_WF h
  have h1 := insertdim_ok ha k k hk (.inl ⟨rfl, by omega⟩) v hv
  have h2 := insertdim_ok hb k k (by omega) (.inl ⟨rfl, by omega⟩) w hw
  rw [if_neg hane] at h1
  rw [if_neg hbne] at h2
  have w1 := insertdim_WF h1
  have w2 := insertdim_WF h2
  have hz : List.zipWith (fun r x => List.take k r ++ [a.dtype.cast x] ++ List.drop k r) a.rows v ≠ [] := by
    intro e
    have := congrArg List.length e
    rw [List.length_zipWith, hv] at this
    exact hane (List.length_eq_zero_iff.1 (by simpa [Curve.size] using this))
  rw [h, h1, h2]
  simp only [Except.bind]
  rw [insertdim_ok wc k k hk (.inl ⟨rfl, by omega⟩) (v ++ w) (by simp only [Curve.size, List.length_append] at *; omega), add_eq' w1 w2,
    if_neg hne, if_neg (by simpa using hnd), if_neg fun e => hz (List.append_eq_nil_iff.1 e).1]
  simp only [← hdt, promote_self]
  congr 2
  rw [List.zipWith_append (by rw [hv]; rfl)]

/-! ## Repeated points -/

section unique
variable [LinearOrder α]

theorem unique_rows {c c' : Curve α} (hc : WF c) (h : c.unique = .ok c') :
    c'.rows = gather c.rows ((List.range c.rows.length).filter fun x => decide (∀ y, y < x → c.rows[y]? ≠ c.rows[x]?)) := by
  obtain ⟨c1, ks, h1, h2, h3, h4, h5⟩ := unique_spec hc
  rw [h] at h1
  injection h1 with h1
  subst h1
  have : ks = (List.range c.rows.length).filter fun x => decide (∀ y, y < x → c.rows[y]? ≠ c.rows[x]?) := by
    apply List.Perm.eq_of_pairwise (le := (· < ·)) (fun x y _ _ h1 h2 => by omega) h3 (List.Pairwise.filter _ List.pairwise_lt_range)
    rw [List.perm_ext_iff_of_nodup (h3.imp fun h => by omega) (List.nodup_range.filter _)]
    intro x
    rw [h4, List.mem_filter, List.mem_range, decide_eq_true_iff]
    rfl
  rw [h5, this]

theorem filter_gather {β : Type} {xs : List β} {ks : List Nat} (p : β → Bool) (hk : ∀ i ∈ ks, i < xs.length) :
    (gather xs ks).filter p = gather xs (ks.filter fun i => (xs[i]?).any p) := by
  induction ks with
  | nil => rfl
  | cons k ks ih =>
    have h1 := hk k (by simp)
    have ih := ih fun i hi => hk i (by simp [hi])
    have e : ∀ l, gather xs (k :: l) = xs[k] :: gather xs l := by
      intro l
      simp [gather, h1]
    rw [e, List.filter_cons, List.filter_cons, List.getElem?_eq_getElem h1, Option.any_some]
    split
    · rw [e, ih]
    · exact ih

/-- **C148 (unique of a join).** The unique points of a join are those of the first curve followed by those of the second that are not in the
first. In particular joining a curve with itself adds nothing. -/
theorem C148_unique_join {a b c : Curve α} (ha : WF a) (hb : WF b) (h : a.add b = .ok c) :
    ∃ a' b' c', a.unique = .ok a' ∧ b.unique = .ok b' ∧ c.unique = .ok c' ∧
      c'.rows = a'.rows ++ b'.rows.filter (fun r => decide (r ∉ a.rows)) := by
  have wc := add_WF h
  obtain ⟨a', ka, ha', _⟩ := unique_spec ha
  obtain ⟨b', kb, hb', _⟩ := unique_spec hb
  obtain ⟨c', kc, hc', _⟩ := unique_spec wc
  refine ⟨a', b', c', ha', hb', hc', ?_⟩
  rw [unique_rows ha ha', unique_rows hb hb', unique_rows wc hc']
  rw [add_eq' ha hb] at h
  have hr : c.rows = a.rows ++ b.rows := by
    split at h
    · simp at h
    · injection h with h; rw [← h]
  rw [hr, List.length_append, List.range_add, List.filter_append, filter_gather _ (fun i hi => List.mem_range.1 (List.mem_filter.1 hi).1)]
  have hga : ∀ (k1 k2 : List Nat), gather (a.rows ++ b.rows) (k1 ++ k2) = gather (a.rows ++ b.rows) k1 ++ gather (a.rows ++ b.rows) k2 := by
    intro k1 k2; simp [gather]
  rw [hga]
  congr 1
  · have hf : (List.range a.rows.length).filter (fun x => decide (∀ y, y < x → (a.rows ++ b.rows)[y]? ≠ (a.rows ++ b.rows)[x]?)) =
        (List.range a.rows.length).filter (fun x => decide (∀ y, y < x → a.rows[y]? ≠ a.rows[x]?)) := by
      apply List.filter_congr
      intro x hx
      rw [List.mem_range] at hx
      rw [decide_eq_decide]
      refine forall_congr' fun y => forall_congr' fun hy => ?_
      rw [List.getElem?_append_left (by omega), List.getElem?_append_left hx]
    rw [hf]
    simp only [gather]
    apply List.filterMap_congr
    intro x hx
    rw [List.getElem?_append_left (List.mem_range.1 (List.mem_filter.1 hx).1)]
  · rw [List.filter_map]
    simp only [gather, List.filterMap_map]
    rw [List.filter_filter]
    have hf : (List.range b.rows.length).filter ((fun x => decide (∀ y, y < x → (a.rows ++ b.rows)[y]? ≠ (a.rows ++ b.rows)[x]?)) ∘ fun x => a.rows.length + x) =
        (List.range b.rows.length).filter (fun x => (b.rows[x]?).any (fun r => decide (r ∉ a.rows)) && decide (∀ y, y < x → b.rows[y]? ≠ b.rows[x]?)) := by
      apply List.filter_congr
      intro x hx
      rw [List.mem_range] at hx
      rw [Bool.eq_iff_iff]
      simp only [Function.comp, decide_eq_true_iff, Bool.and_eq_true]
      have hax : (a.rows ++ b.rows)[a.rows.length + x]? = b.rows[x]? := by
        rw [List.getElem?_append_right (by omega)]; congr 1; omega
      rw [hax, List.getElem?_eq_getElem hx]
      simp only [Option.any_some, decide_eq_true_iff]
      constructor
      · intro h
        constructor
        · intro hm
          obtain ⟨y, hy⟩ := List.mem_iff_getElem?.1 hm
          have hyl := (List.getElem?_eq_some_iff.1 hy).1
          refine h y (by omega) ?_
          rw [List.getElem?_append_left hyl, hy]
        · intro y hy
          have := h (a.rows.length + y) (by omega)
          rwa [List.getElem?_append_right (by omega), show a.rows.length + y - a.rows.length = y by omega] at this
      · rintro ⟨h1, h2⟩ y hy
        by_cases hya : y < a.rows.length
        · rw [List.getElem?_append_left hya]
          intro e
          exact h1 (List.mem_of_getElem? e)
        · rw [List.getElem?_append_right (by omega)]
          exact h2 _ (by omega)
    rw [hf]
    apply List.filterMap_congr
    intro x hx
    simp only [Function.comp]
    rw [List.getElem?_append_right (by omega)]
    congr 1; omega

/-- **C148 (joined with itself).** -/
theorem C148_unique_self {c d : Curve α} (hc : WF c) (h : c.add c = .ok d) : ∃ c' d', c.unique = .ok c' ∧ d.unique = .ok d' ∧ d'.rows = c'.rows := by
  obtain ⟨a', b', d', h1, h2, h3, h4⟩ := C148_unique_join hc hc h
  refine ⟨a', d', h1, h3, ?_⟩
  rw [h4]
  have : b'.rows.filter (fun r => decide (r ∉ c.rows)) = [] := by
    rw [List.filter_eq_nil_iff]
    intro r hr
    obtain ⟨b1, ks, g1, _, _, _, _, g6⟩ := C15_unique hc
    rw [h2] at g1
    injection g1 with g1
    subst g1
    simp [(g6 r).1 hr]
  rw [this, List.append_nil]

end unique

/-! ## Singular points -/

/-- **C148 (nonsingular twice, partial).** If all points are finite and every two neighbours either coincide or are farther apart than 1e-8, a
second call of `nonsingular` changes nothing. Missing: other curves, for which this is false (`C148_nonsingular_fails`). -/
theorem C148_nonsingular_partial {c : Curve (Val ℝ)} (hc : WF c) (hne : c.rows ≠ []) (hf : ∀ r ∈ c.rows, FinRow r)
    (hn : ∀ k a b, c.rows[k]? = some a → c.rows[k + 1]? = some b → Near c.ndim a b → a = b) :
    c.nonsingular.bind (·.nonsingular) = c.nonsingular := by
  obtain ⟨c', h1, h2⟩ := C17_separated_partial hc hne hf hn
  obtain ⟨c'', ks, g1, g2, g3, g4, g5⟩ := C17_kept_partial hc hne
  rw [h1] at g1
  injection g1 with g1
  subst g1
  have hlen : 0 < c.rows.length := List.length_pos_iff.2 hne
  have h0 : 0 ∈ ks := by
    rw [g5]
    exact ⟨c.rows[0], List.getElem?_eq_getElem hlen, hf _ (List.getElem_mem hlen), fun p h => absurd h (by omega)⟩
  have hks : ks ≠ [] := List.ne_nil_of_mem h0
  have hc'ne : c'.rows ≠ [] := by
    intro e
    have := g2.points
    unfold Picks at this
    rw [e] at this
    simp at this
    exact hks this
  have w' : WF c' := by
    unfold Curve.nonsingular at h1
    rw [if_neg hne] at h1
    exact drop_WF h1
  rw [h1]
  simp only [Except.bind]
  refine C17_unchanged w' hc'ne g4 ?_
  rw [g2.ndim hks]
  exact h2

/-- **C148 (violated).** A second call of `nonsingular` may remove further points: of 0, 9e-9, -15e-10 on the x-axis the first call leaves two
points, the second call one. -/
theorem C148_nonsingular_fails : ∃ c c1 c2 : Curve (Val ℝ), WF c ∧ c.nonsingular = .ok c1 ∧ c1.nonsingular = .ok c2 ∧ c1.size = 2 ∧ c2.size = 1 := by
  obtain ⟨c1, h1, h2, h3⟩ := C17_drift_fails
  have hc : WF (⟨[[.fin 0, .fin 0], [.fin (9 / 1000000000), .fin 0], [.fin (-15 / 10000000000), .fin 0]], 2, none, .float⟩ : Curve (Val ℝ)) :=
    wf2 (by simp)
  obtain ⟨d, ks, g1, g2, g3, g4, g5⟩ := C17_kept_partial hc (by simp)
  rw [h1] at g1
  injection g1 with g1
  subst g1
  have hks : ks ≠ [] := by
    rintro rfl
    have := g2.points
    unfold Picks at this
    rw [h2] at this
    simp at this
  have hnd : c1.ndim = 2 := g2.ndim hks
  have w1 : WF c1 := by
    have h1' := h1
    unfold Curve.nonsingular at h1'
    rw [if_neg (by simp)] at h1'
    exact drop_WF h1'
  obtain ⟨c2, ls, f1, f2, f3, f4, f5⟩ := C17_kept_partial w1 (by rw [h2]; simp)
  refine ⟨_, c1, c2, hc, h1, f1, by simp [Curve.size, h2], ?_⟩
  have hls : ls = [0] := by
    apply List.Perm.eq_of_pairwise (le := (· < ·)) (fun x y _ _ h1 h2 => by omega) f3 (List.pairwise_singleton _ _)
    rw [List.perm_ext_iff_of_nodup (f3.imp fun h => by omega) (List.nodup_singleton _)]
    intro k
    rw [f5, List.mem_singleton, h2, hnd]
    constructor
    · rintro ⟨r, hr, _, hp⟩
      match k with
      | 0 => rfl
      | 1 =>
        simp only [List.getElem?_cons_succ, List.getElem?_cons_zero, Option.some.injEq] at hr
        refine absurd h3 ?_
        have := hp [.fin 0, .fin 0] (by omega) (by simp)
        rwa [← hr] at this
      | k + 2 => simp at hr
    · rintro rfl
      exact ⟨[.fin 0, .fin 0], by simp, finRow2 _ _, fun p h => absurd h (by omega)⟩
  have := congrArg List.length f2.points
  rw [List.length_map, List.length_map, hls] at this
  exact this

/-! ## Examples -/

/-- Four points in space. -/
def exLaw : Curve ℚ := ⟨[[0, 0, 0], [1, 2, 3], [4, 5, 6], [1, 2, 3]], 3, none, .float⟩

theorem exLaw_WF : WF exLaw := ⟨by decide, by decide, by simp [exLaw], by intros; rfl⟩

/-- The hypotheses of the theorems on selections. -/
example : ∃ c1, exLaw.getSub (.slice ⟨some 1, some 4, none⟩) = .ok c1 ∧ c1.rows ≠ [] ∧ c1.size = 3 := by
  obtain ⟨c1, h1, h2, _⟩ := C07_plain exLaw_WF 1 4
  refine ⟨c1, h1, ?_, ?_⟩
  · rw [h2]; simp [exLaw]
  · simp [Curve.size, h2, exLaw]

/-- The hypotheses of `C148_delete_mask`. -/
example : ∃ c', exLaw.delete (.int 1) = .ok c' ∧ exLaw.getSub (.mask [true, false, true, true]) = .ok c' := by
  obtain ⟨c', h⟩ := ((C12_delete_when exLaw_WF).1 1).1 ⟨by simp [exLaw, Curve.size], by simp [exLaw, Curve.size]⟩
  refine ⟨c', h, C148_delete_mask exLaw_WF h rfl ?_⟩
  intro x hx
  have : x < 4 := hx
  simp only [Named, IsPos, exLaw, Curve.size]
  interval_cases x <;> simp

/-- The hypotheses of `C148_insert_join`, `C148_join_parts`, `C148_insertdim_join` and `C148_unique_self`. -/
example : (∃ d, exLaw.add exLaw = .ok d) ∧ exLaw.tdata = none ∧ 0 < 1 ∧ 1 < exLaw.size ∧ exLaw.rows ≠ [] := by
  refine ⟨?_, rfl, by omega, by simp [exLaw, Curve.size], by simp [exLaw]⟩
  obtain ⟨d, h, _⟩ := (C09_add exLaw_WF exLaw_WF).2 rfl
  exact ⟨d, h⟩

/-- The hypotheses of `C148_deletedim_select`: after a coordinate has been inserted it can be left out. -/
example : ∃ d, exLaw.insertdim 3 (some [7, 7, 7, 7]) = .ok d ∧ ∃ e, d.deletedim (.int 3) = .ok e ∧ e.rows ≠ [] := by
  have h := C14_deletedim_insertdim exLaw_WF (by simp [exLaw]) 3 (by simp [exLaw, Curve.ndim]) [7, 7, 7, 7] rfl
  cases hd : exLaw.insertdim 3 (some [7, 7, 7, 7]) with
  | error e =>
    have hd' : exLaw.insertdim ((3 : Nat) : Int) (some [7, 7, 7, 7]) = .error e := hd
    rw [hd'] at h
    simp [Except.bind] at h
  | ok d =>
    have hd' : exLaw.insertdim ((3 : Nat) : Int) (some [7, 7, 7, 7]) = .ok d := hd
    rw [hd'] at h
    exact ⟨d, rfl, _, h, by simp [exLaw]⟩

/-! ## Concrete cases -/

/-- The example curve without its parameter values. -/
theorem exCurve_plain_WF : WF (⟨exCurve.rows, 2, none, .float⟩ : Curve ℚ) := ⟨by decide, exCurve_WF.rect, by simp, exCurve_WF.repr⟩

example := C148_select_twice exCurve_WF (ix1 := .slice ⟨none, none, some (-1)⟩) (c1 := ⟨[[3, 1], [1, 2], [0, 0]], 2, some [2, 1, 0], .float⟩) (by decide) (.mask [true, false, true])
example := C148_slice_slice exCurve_WF 0 3 1 2
example := C148_reverse_slice exCurve_WF
example := C148_insert_join exCurve_plain_WF exCurve_WF rfl rfl (.inl rfl) (k := 1) (by decide) (.inl rfl)
example := C148_join_parts exCurve_WF exCurve_WF rfl rfl rfl (by decide) (by decide)
example := C148_insertdim_select exCurve_WF (ix := .slice ⟨some 1, none, none⟩) (c1 := ⟨[[1, 2], [3, 1]], 2, some [1, 2], .float⟩) (by decide) (by decide) (k := 1) (by decide)
  (v := [5, 6, 7]) (by decide)
example := C148_deletedim_select (c := (⟨[[0, 1, 2], [3, 4, 5]], 3, none, .float⟩ : Curve ℚ)) ⟨by decide, by decide, by simp, fun _ _ _ _ => rfl⟩
  (ix := .list [1]) (c1 := ⟨[[3, 4, 5]], 3, none, .float⟩) (by decide) (by decide) (a := .int 0) (d := ⟨[[1, 2], [4, 5]], 2, none, .float⟩) (by decide) (by decide)
example := C148_insertdim_twice exCurve_WF (by decide) (j := 0) (k := 2) (by decide) (by decide) (v := [5, 6, 7]) (w := [1, 1, 2]) (by decide) (by decide)
example := C148_insertdim_join exCurve_WF exCurve_WF rfl rfl (by decide) (by decide) (k := 1) (by decide) (v := [5, 6, 7]) (w := [1, 1, 2]) (by decide) (by decide)
example := C148_unique_join exCurve_WF exCurve_WF (c := ⟨[[0, 0], [1, 2], [3, 1], [0, 0], [1, 2], [3, 1]], 2, some [0, 1, 2, 0, 1, 2], .float⟩) (by decide)
example := C148_unique_self exCurve_WF (d := ⟨[[0, 0], [1, 2], [3, 1], [0, 0], [1, 2], [3, 1]], 2, some [0, 1, 2, 0, 1, 2], .float⟩) (by decide)
/-- A repeated point, all other neighbours one apart. -/
example := C148_nonsingular_partial (c := ⟨[[.fin 0, .fin 0], [.fin 1, .fin 0], [.fin 1, .fin 0], [.fin 1, .fin 1]], 2, none, .float⟩) ⟨by simp, by simp, by simp, fun _ _ _ _ => rfl⟩
  (by simp) (by simp [FinRow]) (by
    intro k a b ha hb hn
    have hk : k < 3 := by
      by_contra hk
      rw [List.getElem?_eq_none (by simp; omega)] at hb
      simp at hb
    interval_cases k <;> simp at ha hb <;> subst ha <;> subst hb
    · have := hn.2.2
      rw [show ∀ r s : List ℝ, gap (Curve.ndim (⟨[[.fin 0, .fin 0], [.fin 1, .fin 0], [.fin 1, .fin 0], [.fin 1, .fin 1]], 2, none, .float⟩ : Curve (Val ℝ))) r s = gap 2 r s from fun _ _ => rfl] at this
      rw [gap, pt, pt, EuclideanSpace.dist_eq, Fin.sum_univ_two] at this
      norm_num [num, Real.dist_eq] at this
    · rfl
    · have := hn.2.2
      rw [show ∀ r s : List ℝ, gap (Curve.ndim (⟨[[.fin 0, .fin 0], [.fin 1, .fin 0], [.fin 1, .fin 0], [.fin 1, .fin 1]], 2, none, .float⟩ : Curve (Val ℝ))) r s = gap 2 r s from fun _ _ => rfl] at this
      rw [gap, pt, pt, EuclideanSpace.dist_eq, Fin.sum_univ_two] at this
      norm_num [num, Real.dist_eq] at this)

end Verif.Props
