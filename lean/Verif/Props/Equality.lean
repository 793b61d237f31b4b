import Verif.Props.Edit
import Verif.Model.PointOps
import Mathlib.Tactic.Ring
import Mathlib.Tactic.FieldSimp

/-!
Equality, membership, searching, point arithmetic: C18, C19, C20, C21, C23, C24.
-/
namespace Verif.Spec

open Verif Verif.Model

/-- Two rows agree coordinate by coordinate, exactly if both dtypes are integers, up to `np.isclose`
otherwise. -/
def RowMatch {α : Type} [Elem α] (d1 d2 : DType) (r s : List α) : Prop :=
  ∀ (k : Nat) (x y : α), r[k]? = some x → s[k]? = some y → if d1 = .int ∧ d2 = .int then x = y else Elem.isclose x y = true

end Verif.Spec

namespace Verif.Props

open Verif Verif.Np Verif.Model Verif.Spec

section
variable {α : Type} [Elem α] [DecidableEq α]

theorem all_zipWith {β γ : Type} (f : β → γ → Bool) (a : List β) (b : List γ) :
    (List.zipWith f a b).all id = true ↔ ∀ (k : Nat) x y, a[k]? = some x → b[k]? = some y → f x y = true := by
  induction a generalizing b with
  | nil => simp
  | cons u a ih =>
    cases b with
    | nil => simp
    | cons v b =>
      simp only [List.zipWith_cons_cons, List.all_cons, Bool.and_eq_true, ih, id]
      constructor
      · rintro ⟨h1, h2⟩ k x y hx hy
        cases k with
        | zero => simp at hx hy; subst hx hy; exact h1
        | succ k => exact h2 k x y (by simpa using hx) (by simpa using hy)
      · intro h
        exact ⟨h 0 u v rfl rfl, fun k x y hx hy => h (k+1) x y (by simpa using hx) (by simpa using hy)⟩

theorem rowEq_iff (d1 d2 : DType) (r s : List α) : rowEq d1 d2 r s = true ↔ RowMatch d1 d2 r s := by
  unfold rowEq RowMatch
  rw [all_zipWith]
  constructor
  · intro h k x y hx hy
    have := h k x y hx hy
    unfold isequal at this
    split at this
    · rename_i h1; rw [if_pos h1]; simpa using this
    · rename_i h1; rw [if_neg h1]; exact this
  · intro h k x y hx hy
    have := h k x y hx hy
    unfold isequal
    split at this
    · rename_i h1; rw [if_pos h1]; simpa using this
    · rename_i h1; rw [if_neg h1]; exact this

theorem curve_eq_iff (a b : Curve α) : a.eq b = true ↔
    a.ndim = b.ndim ∧ a.size = b.size ∧
      ∀ (i : Nat) r s, a.rows[i]? = some r → b.rows[i]? = some s → RowMatch a.dtype b.dtype r s := by
  unfold Curve.eq
  by_cases h1 : a.ndim = b.ndim
  · by_cases h2 : a.size = b.size
    · simp only [h1, h2, ne_eq, not_true_eq_false, if_false, true_and, allequal2, all_zipWith, rowEq_iff]
    · simp [h1, h2]
  · simp [h1]

theorem point_eq_iff (p q : Point α) : p.eq q = true ↔ p.ndim = q.ndim ∧ RowMatch p.dtype q.dtype p.data q.data := by
  unfold Point.eq
  by_cases h1 : p.ndim = q.ndim
  · simp [h1, rowEq_iff]
  · simp [h1]

/-! ## C18: structure -/

/-- **C18 (dimension and size).** Objects of different dimension or size are unequal. -/
theorem C18_shape (a b : Curve α) (p q : Point α) :
    (a.ndim ≠ b.ndim ∨ a.size ≠ b.size → a.eq b = false) ∧ (p.ndim ≠ q.ndim → p.eq q = false) := by
  constructor
  · intro h
    rw [← Bool.not_eq_true, curve_eq_iff]
    rintro ⟨h1, h2, _⟩
    rcases h with h | h <;> contradiction
  · intro h
    rw [← Bool.not_eq_true, point_eq_iff]
    exact fun h1 => h h1.1

/-- **C18 (integer data).** Between integer curves `==` is equality of the points: an equivalence. -/
theorem C18_int {a b : Curve α} (ha : WF a) (hb : WF b) (hda : a.dtype = .int) (hdb : b.dtype = .int) :
    a.eq b = true ↔ a.ndim = b.ndim ∧ a.rows = b.rows := by
  rw [curve_eq_iff]
  constructor
  · rintro ⟨h1, h2, h3⟩
    refine ⟨h1, ?_⟩
    apply List.ext_getElem? 
    intro i
    by_cases hi : i < a.rows.length
    · have hi' : i < b.rows.length := by have : a.rows.length = b.rows.length := h2; omega
      have h4 := h3 i _ _ (List.getElem?_eq_getElem hi) (List.getElem?_eq_getElem hi')
      rw [List.getElem?_eq_getElem hi, List.getElem?_eq_getElem hi']
      congr 1
      have l1 := ha.rect _ (List.getElem_mem hi)
      have l2 := hb.rect _ (List.getElem_mem hi')
      have h1' : a.ncols = b.ncols := h1
      apply List.ext_getElem (by omega)
      intro k hk hk'
      have := h4 k _ _ (List.getElem?_eq_getElem hk) (List.getElem?_eq_getElem hk')
      rwa [if_pos ⟨hda, hdb⟩] at this
    · have hi' : ¬ i < b.rows.length := by have : a.rows.length = b.rows.length := h2; omega
      rw [List.getElem?_eq_none (by omega), List.getElem?_eq_none (by omega)]
  · rintro ⟨h1, h2⟩
    refine ⟨h1, by simp [Curve.size, h2], ?_⟩
    intro i r s hr hs
    rw [h2] at hr
    rw [hr] at hs
    injection hs with hs
    subst hs
    intro k x y hx hy
    rw [if_pos ⟨hda, hdb⟩]
    rw [hx] at hy
    exact Option.some.inj hy

/-! ## C19 -/

theorem any_map_iff (c : Curve α) (p : Point α) : (c.rows.map (rowEq p.dtype c.dtype p.data)).any id = true ↔
    ∃ (k : Nat) (r : List α), c.rows[k]? = some r ∧ RowMatch p.dtype c.dtype p.data r := by
  simp only [List.any_eq_true, List.mem_map, id]
  constructor
  · rintro ⟨_, ⟨r, hr, rfl⟩, h⟩
    obtain ⟨k, hk⟩ := List.mem_iff_getElem?.1 hr
    exact ⟨k, r, hk, (rowEq_iff _ _ _ _).1 h⟩
  · rintro ⟨k, r, hk, h⟩
    exact ⟨_, ⟨r, List.mem_of_getElem? hk, rfl⟩, (rowEq_iff _ _ _ _).2 h⟩

/-- Position `k` of `c` holds a point equal to `p`. -/
def MatchAt (c : Curve α) (p : Point α) (k : Nat) : Prop :=
  ∃ r, c.rows[k]? = some r ∧ RowMatch p.dtype c.dtype p.data r

theorem mem_flatnonzero_go (bs : List Bool) (k : Nat) : k ∈ flatnonzero bs ↔ bs[k]? = some true := by
  unfold flatnonzero
  simp only [List.mem_filter, List.mem_range]
  constructor
  · rintro ⟨h1, h2⟩
    simpa [h1] using h2
  · intro h
    have := (List.getElem?_eq_some_iff.1 h).1
    exact ⟨this, by simp [h]⟩

theorem flatnonzero_sorted (bs : List Bool) : (flatnonzero bs).Pairwise (· < ·) := by
  unfold flatnonzero
  exact List.Pairwise.filter _ List.pairwise_lt_range

theorem matchAt_iff (c : Curve α) (p : Point α) (k : Nat) :
    (c.rows.map (rowEq p.dtype c.dtype p.data))[k]? = some true ↔ MatchAt c p k := by
  rw [List.getElem?_map]
  unfold MatchAt
  cases h : c.rows[k]? with
  | none => simp
  | some r => simp [rowEq_iff]

/-- **C19.** For a point of the dimension of the curve: membership, a positive count and success of
`index` are the same; `index` gives the smallest matching position; failure of `index` is a
ValueError. -/
theorem C19_agree (c : Curve α) (p : Point α) (hd : c.ndim = p.ndim) :
    (c.containsPoint p = true ↔ ∃ k, MatchAt c p k) ∧
    (∃ n, c.count p = .ok n ∧ (0 < n ↔ ∃ k, MatchAt c p k)) ∧
    ((∃ k, MatchAt c p k) → ∃ k : Nat, c.index p none none = .ok k ∧ MatchAt c p k ∧ ∀ j, j < k → ¬ MatchAt c p j) ∧
    ((¬ ∃ k, MatchAt c p k) → c.index p none none = .error .valueError) := by
  have hany := any_map_iff c p
  have hany' : (c.rows.map (rowEq p.dtype c.dtype p.data)).any id = true ↔ ∃ k, MatchAt c p k := hany
  refine ⟨?_, ?_, ?_, ?_⟩
  · unfold Curve.containsPoint
    rw [if_neg (by simpa using hd)]
    exact hany'
  · unfold Curve.count checkNdim
    rw [if_neg (by simpa using hd)]
    refine ⟨_, rfl, ?_⟩
    rw [← hany', List.length_pos_iff_exists_mem, List.any_eq_true]
    simp only [List.mem_filter]
  · intro hex
    have h := hany'.2 hex
    unfold Curve.index checkNdim
    rw [if_neg (by simpa using hd)]
    simp only [Curve.indexData, h, Bool.not_true, Bool.false_eq_true, if_false]
    cases hf : flatnonzero (c.rows.map (rowEq p.dtype c.dtype p.data)) with
    | nil =>
      obtain ⟨k, hk⟩ := hex
      have := (mem_flatnonzero_go _ k).2 ((matchAt_iff c p k).2 hk)
      rw [hf] at this; simp at this
    | cons k rest =>
      refine ⟨k, rfl, ?_, ?_⟩
      · rw [← matchAt_iff, ← mem_flatnonzero_go, hf]; simp
      · intro j hj hm
        rw [← matchAt_iff, ← mem_flatnonzero_go, hf] at hm
        have hs := flatnonzero_sorted (c.rows.map (rowEq p.dtype c.dtype p.data))
        rw [hf] at hs
        rcases List.mem_cons.1 hm with rfl | hm
        · omega
        · have := (List.pairwise_cons.1 hs).1 j hm; omega
  · intro hex
    have h : (c.rows.map (rowEq p.dtype c.dtype p.data)).any id = false := by
      rw [← Bool.not_eq_true, hany']; exact hex
    unfold Curve.index checkNdim
    rw [if_neg (by simpa using hd)]
    simp only [Curve.indexData, h, Bool.not_false, if_true]

/-- **C19 (count).** The count is the number of matching positions. -/
theorem C19_count (c : Curve α) (p : Point α) (hd : c.ndim = p.ndim) :
    ∃ ks : List Nat, c.count p = .ok ks.length ∧ ks.Nodup ∧ ∀ k, k ∈ ks ↔ MatchAt c p k := by
  refine ⟨flatnonzero (c.rows.map (rowEq p.dtype c.dtype p.data)), ?_, ?_, ?_⟩
  · unfold Curve.count checkNdim
    rw [if_neg (by simpa using hd)]
    simp only
    congr 1
    set bs := c.rows.map (rowEq p.dtype c.dtype p.data)
    clear_value bs
    unfold flatnonzero
    induction bs with
    | nil => rfl
    | cons b bs ih =>
      rw [List.length_cons, List.range_succ_eq_map, List.filter_cons, List.filter_cons, List.filter_map]
      cases b
      · simpa [Function.comp_def] using ih
      · simpa [Function.comp_def] using ih
  · exact (flatnonzero_sorted _).imp (fun h => by omega)
  · intro k
    rw [mem_flatnonzero_go, matchAt_iff]

/-- A point of another dimension is never contained; count and index of it are a ValueError. -/
theorem C19_other_dim (c : Curve α) (p : Point α) (hd : c.ndim ≠ p.ndim) (s t : Option Int) :
    c.containsPoint p = false ∧ c.count p = .error .valueError ∧ c.index p s t = .error .valueError := by
  refine ⟨?_, ?_, ?_⟩
  · unfold Curve.containsPoint; rw [if_pos hd]
  · unfold Curve.count checkNdim; rw [if_pos hd]
  · unfold Curve.index checkNdim; rw [if_pos hd]

/-- **C19 (count over concatenation, partial).** For curves of one dtype the counts add up. Missing: curves
of different dtype, `C19_count_mixed`. -/
theorem C19_count_add_partial {a b : Curve α} (ha : WF a) (hb : WF b) (hd : a.ndim = b.ndim) (hdt : a.dtype = b.dtype)
    (hne : a.rows ≠ [] ∨ b.rows ≠ []) (p : Point α) (hp : a.ndim = p.ndim) :
    ∃ c m n, a.add b = .ok c ∧ a.count p = .ok m ∧ b.count p = .ok n ∧ c.count p = .ok (m + n) := by
  obtain ⟨c, h1, h2, _, _, _, h3⟩ := (C09_add ha hb).2 hd
  have hcd : c.dtype = a.dtype := by
    rw [add_eq' ha hb, if_neg (by simpa [Curve.ndim] using hd)] at h1
    injection h1 with h1
    rw [← h1, hdt]
    exact promote_self _
  refine ⟨c, ((a.rows.map (rowEq p.dtype a.dtype p.data)).filter id).length,
    ((b.rows.map (rowEq p.dtype b.dtype p.data)).filter id).length, h1, ?_, ?_, ?_⟩
  · unfold Curve.count checkNdim; rw [if_neg (by simpa using hp)]
  · unfold Curve.count checkNdim; rw [if_neg (by rw [← hd]; simpa using hp)]
  · unfold Curve.count checkNdim; rw [if_neg (by rw [h3 hne]; simpa using hp)]
    simp only [h2, hcd, List.map_append, List.filter_append, List.length_append, hdt]

end

/-- **C19 violated for mixed dtypes.** The integer point (10^6, 0) does not occur in an integer curve that
holds (10^6+1, 0), nor in a float curve that holds (0, 0); in their concatenation it is counted once. -/
theorem C19_count_mixed :
    ∃ (a b c : Curve ℚ) (p : Point ℚ), a.add b = .ok c ∧ a.count p = .ok 0 ∧ b.count p = .ok 0 ∧
      c.count p = .ok 1 := by
  refine ⟨⟨[[1000001, 0]], 2, none, .int⟩, ⟨[[0, 0]], 2, none, .float⟩, ⟨[[1000001, 0], [0, 0]], 2, none, .float⟩,
    ⟨[1000000, 0], .int⟩, by decide, by decide, ?_, ?_⟩
  · simp [Curve.count, checkNdim, Curve.ndim, Point.ndim, rowEq, isequal, Elem.isclose, closeK, atol, rtol]
    norm_num
  · simp [Curve.count, checkNdim, Curve.ndim, Point.ndim, rowEq, isequal, Elem.isclose, closeK, atol, rtol]
    norm_num

/-! ## C20 -/

section
variable {α : Type} [Elem α] [DecidableEq α]

theorem index_slice (c : Curve α) (p : Point α) (hd : c.ndim = p.ndim) (start stop : Option Int) :
    (∃ j : Nat, MatchAt c p j ∧ SliceMem c.size ⟨start, stop, none⟩ j ∧
      (∀ i, i < j → SliceMem c.size ⟨start, stop, none⟩ i → ¬ MatchAt c p i) ∧
      c.index p start stop = .ok ((j : Int) - first c.size ⟨start, none, none⟩ + start.getD 0)) ∨
    ((∀ j, SliceMem c.size ⟨start, stop, none⟩ j → ¬ MatchAt c p j) ∧ c.index p start stop = .error .valueError) := by
  have hsl := sliceIndices_step1 c.size start stop
  set f := first c.size ⟨start, stop, none⟩ with hf
  set l := last c.size ⟨start, stop, none⟩ with hl
  have hf0 : 0 ≤ f := by
    rw [hf]; unfold first bound; cases start <;> simp
  have hl1 : l ≤ c.size := by
    rw [hl]; unfold last bound; cases stop <;> simp
  have hff : first c.size ⟨start, none, none⟩ = f := rfl
  have hmem : ∀ x : Nat, SliceMem c.size ⟨start, stop, none⟩ x ↔ f ≤ x ∧ (x : Int) < l := by
    intro x
    simp only [SliceMem, Option.getD_none, ← hf, ← hl]
    constructor
    · rintro ⟨⟨m, hm⟩, h2⟩
      simp at h2
      omega
    · rintro ⟨h1, h2⟩
      refine ⟨⟨x - f.toNat, by omega⟩, ?_⟩
      simp
      exact h2
  -- the data searched
  have hdata : c.indexData start stop = .ok (gather c.rows (List.range' f.toNat (l - f).toNat)) := by
    have hs : slice c.rows ⟨start, stop, none⟩ = .ok (gather c.rows (List.range' f.toNat (l - f).toNat)) := by
      unfold slice
      have : c.rows.length = c.size := rfl
      rw [this, hsl]
    cases start with
    | some s => exact hs
    | none =>
      cases stop with
      | some s => exact hs
      | none =>
        have e1 : f = 0 := rfl
        have e2 : l = c.size := rfl
        simp only [e1, e2, Curve.indexData]
        congr 1
        have := gather_range' c.rows 0 c.rows.length (by omega)
        rw [show ((c.size : Int) - 0).toNat = c.rows.length by simp [Curve.size]]
        simpa using this.symm
  set ks := List.range' f.toNat (l - f).toNat with hks
  have hkl : ∀ i ∈ ks, i < c.rows.length := by
    intro i hi
    rw [hks, List.mem_range'_1] at hi
    have : c.size = c.rows.length := rfl
    omega
  have hm : ∀ m : Nat, ((gather c.rows ks).map (rowEq p.dtype c.dtype p.data))[m]? = some true ↔
      (m : Int) < l - f ∧ MatchAt c p (f.toNat + m) := by
    intro m
    rw [List.getElem?_map, gather_getElem? hkl, hks]
    by_cases h : m < (l - f).toNat
    · rw [List.getElem?_range' h]
      have h' : (m : Int) < l - f := by omega
      simp only [Option.bind_some, h', true_and, MatchAt, Nat.one_mul]
      cases hr : c.rows[f.toNat + m]? with
      | none => simp
      | some r => simp [rowEq_iff]
    · have h' : ¬ (m : Int) < l - f := by omega
      simp [h, h']
  unfold Curve.index checkNdim
  rw [if_neg (by simpa using hd)]
  simp only [hdata]
  by_cases hany : (((gather c.rows ks).map (rowEq p.dtype c.dtype p.data)).any id) = true
  · left
    simp only [hany, Bool.not_true, Bool.false_eq_true, if_false]
    cases hz : flatnonzero ((gather c.rows ks).map (rowEq p.dtype c.dtype p.data)) with
    | nil =>
      exfalso
      simp only [List.any_eq_true, id] at hany
      obtain ⟨b, hb, rfl⟩ := hany
      obtain ⟨k, hk⟩ := List.mem_iff_getElem?.1 hb
      rw [← mem_flatnonzero_go, hz] at hk
      simp at hk
    | cons m rest =>
      have hmm : m ∈ flatnonzero ((gather c.rows ks).map (rowEq p.dtype c.dtype p.data)) := by rw [hz]; simp
      rw [mem_flatnonzero_go, hm] at hmm
      have hsorted := flatnonzero_sorted ((gather c.rows ks).map (rowEq p.dtype c.dtype p.data))
      rw [hz] at hsorted
      refine ⟨f.toNat + m, hmm.2, (hmem _).2 ⟨by omega, by omega⟩, ?_, ?_⟩
      · intro i hi hi2 hma
        rw [hmem] at hi2
        have : i - f.toNat ∈ flatnonzero ((gather c.rows ks).map (rowEq p.dtype c.dtype p.data)) := by
          rw [mem_flatnonzero_go, hm]
          refine ⟨by omega, ?_⟩
          rw [show f.toNat + (i - f.toNat) = i by omega]; exact hma
        rw [hz] at this
        rcases List.mem_cons.1 this with h | h
        · omega
        · have := (List.pairwise_cons.1 hsorted).1 _ h; omega
      · rw [hff]
        cases start with
        | none => simp; omega
        | some s =>
          by_cases h0 : s = 0
          · subst h0; simp; omega
          · simp [h0]; omega
  · right
    refine ⟨?_, by simp [hany]⟩
    intro j hj hma
    rw [hmem] at hj
    apply hany
    simp only [List.any_eq_true, id]
    refine ⟨true, ?_, rfl⟩
    apply List.mem_of_getElem? (i := j - f.toNat)
    rw [hm]
    refine ⟨by omega, ?_⟩
    rw [show f.toNat + (j - f.toNat) = j by omega]; exact hma

/-- **C20 (partial).** With `start` missing or non-negative: a returned value is the first position in the
interval that holds an equal point; ValueError exactly when there is none. With `start` between `-size` and
-1 the value returned is that position minus `size` (so `c[k]` is still the point). Missing: `start < -size`,
see `C20_start_below_range`. -/
theorem C20_index_partial (c : Curve α) (p : Point α) (hd : c.ndim = p.ndim) (start stop : Option Int)
    (hs : ∀ s, start = some s → -(c.size : Int) ≤ s) :
    (∃ j : Nat, MatchAt c p j ∧ SliceMem c.size ⟨start, stop, none⟩ j ∧
      (∀ i, i < j → SliceMem c.size ⟨start, stop, none⟩ i → ¬ MatchAt c p i) ∧
      c.index p start stop = .ok (if start.getD 0 < 0 then (j : Int) - c.size else j)) ∨
    ((∀ j, SliceMem c.size ⟨start, stop, none⟩ j → ¬ MatchAt c p j) ∧ c.index p start stop = .error .valueError) := by
  rcases index_slice c p hd start stop with ⟨j, h1, h2, h3, h4⟩ | h
  · left
    refine ⟨j, h1, h2, h3, ?_⟩
    rw [h4]
    congr 1
    cases start with
    | none => simp [first]
    | some s =>
      have := hs s rfl
      simp only [Option.getD_some]
      have hjl : (j : Int) < c.size := by
        obtain ⟨r, hr, _⟩ := h1
        have := (List.getElem?_eq_some_iff.1 hr).1
        have : c.size = c.rows.length := rfl
        omega
      have hjf : first c.size ⟨some s, none, none⟩ ≤ j := by
        obtain ⟨⟨m, hm⟩, _⟩ := h2
        have : first c.size ⟨some s, stop, none⟩ = first c.size ⟨some s, none, none⟩ := rfl
        simp only [Option.getD_none] at hm
        omega
      simp only [first, bound, Option.getD_none] at hjf ⊢
      simp at hjf ⊢
      split <;> rename_i hneg
      · simp only [hneg, if_true] at hjf ⊢; omega
      · simp only [hneg, if_false] at hjf ⊢; omega
  · exact .inr h

end

/-- **C20 violated.** On the curve (0,0),(1,2),(3,1), `index((1,2), start=-5)` returns -4, although the
point is at position 1 (and `c[-4]` is another point, (3,1)). -/
theorem C20_start_below_range :
    exCurve.index ⟨[1, 2], .float⟩ (some (-5)) none = .ok (-4) ∧
    (CurvePoint.init exCurve 0 (-4)).map (fun p => p.point.data) = .ok [3, 1] := by
  refine ⟨?_, by decide⟩
  have : (¬ ∃ k, k = 7) → True := fun _ => trivial
  have hd : (exCurve).ndim = (⟨[1, 2], .float⟩ : Point ℚ).ndim := rfl
  have hm1 : MatchAt exCurve ⟨[1, 2], .float⟩ 1 := by
    refine ⟨[1, 2], rfl, ?_⟩
    intro k x y hx hy
    rw [if_neg (by simp)]
    rw [hx] at hy
    injection hy with hy
    subst hy
    simp [Elem.isclose, closeK, atol, rtol]
    positivity
  have hm0 : ¬ MatchAt exCurve ⟨[1, 2], .float⟩ 0 := by
    rintro ⟨r, hr, h⟩
    simp only [exCurve, List.getElem?_cons_zero, Option.some.injEq] at hr
    subst hr
    have := h 0 1 0 rfl rfl
    rw [if_neg (by simp)] at this
    simp [Elem.isclose, closeK, atol, rtol] at this
    norm_num at this
  rcases index_slice exCurve ⟨[1, 2], .float⟩ hd (some (-5)) none with ⟨j, h1, h2, h3, h4⟩ | ⟨h, _⟩
  · have hj : j = 1 := by
      have h0 : j ≠ 0 := fun e => hm0 (e ▸ h1)
      by_contra hne
      exact h3 1 (by omega) ⟨⟨1, by decide⟩, by decide⟩ hm1
    rw [h4, hj]; decide
  · exact absurd hm1 (h 1 ⟨⟨1, by decide⟩, by decide⟩)

/-! ## C21 -/

section
variable {α : Type} [Elem α] [DecidableEq α]

theorem allequal2_iff (d1 d2 : DType) (A B : List (List α)) : allequal2 d1 d2 A B = true ↔
    ∀ (i : Nat) r s, A[i]? = some r → B[i]? = some s → RowMatch d1 d2 r s := by
  unfold allequal2
  rw [all_zipWith]
  simp only [rowEq_iff]

/-- **C21.** `other in c` is contiguous containment. -/
theorem C21_contains (c o : Curve α) : c.containsCurve o = true ↔
    c.ndim = o.ndim ∧ ∃ i, i + o.size ≤ c.size ∧
      ∀ (j : Nat) r s, o.rows[j]? = some s → c.rows[i + j]? = some r → RowMatch c.dtype o.dtype r s := by
  unfold Curve.containsCurve
  by_cases hd : c.ndim = o.ndim
  · simp only [hd, ne_eq, not_true_eq_false, if_false, true_and]
    by_cases hs : c.size = o.size
    · rw [if_pos hs, allequal2_iff]
      constructor
      · intro h
        exact ⟨0, by omega, fun j r s h1 h2 => h j r s (by simpa using h2) h1⟩
      · rintro ⟨i, hi, h⟩ j r s h1 h2
        have : i = 0 := by omega
        subst this
        exact h j r s h2 (by simpa using h1)
    · rw [if_neg hs]
      by_cases hlt : c.size < o.size
      · rw [if_pos hlt]
        simp only [Bool.false_eq_true, false_iff, not_exists, not_and]
        intro i hi; omega
      · rw [if_neg hlt, List.any_eq_true]
        simp only [List.mem_range, allequal2_iff]
        constructor
        · rintro ⟨i, hi, h⟩
          refine ⟨i, by omega, ?_⟩
          intro j r s h1 h2
          have hj := (List.getElem?_eq_some_iff.1 h1).1
          refine h j r s ?_ h1
          rw [List.getElem?_take_of_lt (by exact hj), List.getElem?_drop]
          exact h2
        · rintro ⟨i, hi, h⟩
          refine ⟨i, by omega, ?_⟩
          intro j r s h1 h2
          have hj := (List.getElem?_eq_some_iff.1 h2).1
          rw [List.getElem?_take_of_lt (by exact hj), List.getElem?_drop] at h1
          exact h j r s h2 h1
  · simp [hd]

/-- rows equal to themselves -/
def SelfEq (c : Curve α) : Prop := ∀ r ∈ c.rows, RowMatch c.dtype c.dtype r r

/-- **C21 (slices, partial).** Every non-empty step-1 slice of a curve whose coordinates equal themselves
(no NaN) is contained in it; on 2-D curves the empty slice too. Missing: the empty slice of a curve of
dimension >= 3, `C21_empty_slice`. -/
theorem C21_slice_partial {c : Curve α} (hc : WF c) (hself : SelfEq c) (i j : Nat) (hd : c.ndim = 2 ∨ (i < j ∧ i < c.size)) :
    ∃ c', c.getSub (.slice ⟨some i, some j, none⟩) = .ok c' ∧ c.containsCurve c' = true := by
  obtain ⟨c', h1, h2, _⟩ := C07_plain hc i j
  have hsz : c.size = c.rows.length := rfl
  have hnd : c'.ndim = c.ndim := by
    obtain ⟨c'', ks, g1, g2, _⟩ := C07_slice hc ⟨some i, some j, none⟩ (by simp)
    rw [h1] at g1
    injection g1 with g1
    subst g1
    rcases hd with hd | hd
    · by_cases hks : ks = []
      · have := getSub_eq hc (.slice ⟨some i, some j, none⟩)
        rw [h1] at this
        cases hsel : selPos c.size (.slice ⟨some i, some j, none⟩) with
        | error e => simp [hsel] at this
        | ok is =>
          simp only [hsel, Except.ok.injEq] at this
          rw [this]
          simp only [Curve.ndim] at hd ⊢
          split
          · exact hd.symm
          · rfl
      · exact g2.ndim hks
    · apply g2.ndim
      intro e
      have := g2.points
      rw [e] at this
      unfold Picks at this
      simp only [List.map_nil, List.map_eq_nil_iff] at this
      have h5 : c'.rows.length = 0 := by rw [this]; rfl
      rw [h2] at h5
      simp at h5
      omega
  have hdt : c'.dtype = c.dtype := by
    obtain ⟨c'', ks, g1, g2, _⟩ := C07_slice hc ⟨some i, some j, none⟩ (by simp)
    rw [h1] at g1
    injection g1 with g1
    subst g1
    exact g2.dtype
  refine ⟨c', h1, (C21_contains c c').2 ⟨hnd.symm, min i c.size, ?_, ?_⟩⟩
  · simp only [Curve.size, h2]; simp; omega
  · intro k r s hs hr
    rw [h2, List.getElem?_drop] at hs
    have hk : i + k < c.rows.length := by
      have := (List.getElem?_eq_some_iff.1 hs).1
      simp at this; omega
    rw [List.getElem?_take_of_lt (by
      have := (List.getElem?_eq_some_iff.1 hs).1
      simp at this; omega)] at hs
    rw [Nat.min_eq_left (by omega)] at hr
    rw [hr] at hs
    injection hs with hs
    subst hs
    rw [hdt]
    exact hself r (List.mem_of_getElem? hr)

end

/-- **C21 violated.** The empty slice of a 3-D curve is 2-dimensional, hence not contained. -/
theorem C21_empty_slice : ∃ c', exCurve3.getSub (.slice ⟨some 0, some 0, none⟩) = .ok c' ∧
    exCurve3.containsCurve c' = false :=
  ⟨⟨[], 2, none, .float⟩, by decide, by decide⟩

/-! ## C18: numbers -/

section
variable {K : Type} [Field K] [LinearOrder K] [IsStrictOrderedRing K] [FloorRing K]

theorem closeK_self (x : K) : closeK x x = true := by
  simp only [closeK, sub_self, abs_zero, decide_eq_true_eq, atol, rtol]
  positivity

/-- All coordinates are finite numbers. -/
def Finite (c : Curve (Val K)) : Prop := ∀ r ∈ c.rows, ∀ x ∈ r, ∃ y, x = .fin y

/-- **C18 (reflexive).** A curve with finite coordinates equals itself. -/
theorem C18_refl (c : Curve (Val K)) (h : Finite c) : c.eq c = true := by
  rw [curve_eq_iff]
  refine ⟨rfl, rfl, ?_⟩
  intro i r s hr hs
  rw [hr] at hs
  injection hs with hs
  subst hs
  intro k x y hx hy
  rw [hx] at hy
  injection hy with hy
  subst hy
  obtain ⟨z, rfl⟩ := h r (List.mem_of_getElem? hr) x (List.mem_of_getElem? hx)
  split
  · rfl
  · exact closeK_self z

/-- the point version -/
theorem C18_refl_point (p : Point (Val K)) (h : ∀ x ∈ p.data, ∃ y, x = .fin y) : p.eq p = true := by
  rw [point_eq_iff]
  refine ⟨rfl, ?_⟩
  intro k x y hx hy
  rw [hx] at hy
  injection hy with hy
  subst hy
  obtain ⟨z, rfl⟩ := h x (List.mem_of_getElem? hx)
  split
  · rfl
  · exact closeK_self z

theorem isclose_nan (x : Val K) : Val.isclose .nan x = false ∧ Val.isclose x .nan = false := by
  cases x <;> exact ⟨rfl, rfl⟩

/-- **C18 (NaN).** A float curve with a NaN coordinate is unequal to every well formed curve, on either
side, itself included. -/
theorem C18_nan {a b : Curve (Val K)} (ha : WF a) (hb : WF b) (hd : a.dtype ≠ .int)
    (hnan : ∃ r ∈ a.rows, Val.nan ∈ r) : a.eq b = false ∧ b.eq a = false := by
  obtain ⟨r, hr, hn⟩ := hnan
  obtain ⟨i, hi⟩ := List.mem_iff_getElem?.1 hr
  obtain ⟨k, hk⟩ := List.mem_iff_getElem?.1 hn
  have key : a.ndim = b.ndim → a.size = b.size → ∃ s y, b.rows[i]? = some s ∧ s[k]? = some y := by
    intro h1 h2
    have hil := (List.getElem?_eq_some_iff.1 hi).1
    have hil' : i < b.rows.length := by have : a.rows.length = b.rows.length := h2; omega
    have hkl := (List.getElem?_eq_some_iff.1 hk).1
    have hl1 := ha.rect r hr
    have hl2 := hb.rect b.rows[i] (List.getElem_mem hil')
    have h1' : a.ncols = b.ncols := h1
    have hkl' : k < (b.rows[i]).length := by omega
    exact ⟨_, _, List.getElem?_eq_getElem hil', List.getElem?_eq_getElem hkl'⟩
  constructor
  · rw [← Bool.not_eq_true, curve_eq_iff]
    rintro ⟨h1, h2, h3⟩
    obtain ⟨s, y, hs, hy⟩ := key h1 h2
    have := h3 i r s hi hs k _ _ hk hy
    rw [if_neg (fun h => hd h.1)] at this
    have h4 := (isclose_nan y).1
    simp only [Elem.isclose] at this
    rw [h4] at this
    simp at this
  · rw [← Bool.not_eq_true, curve_eq_iff]
    rintro ⟨h1, h2, h3⟩
    obtain ⟨s, y, hs, hy⟩ := key h1.symm h2.symm
    have := h3 i s r hs hi k _ _ hy hk
    rw [if_neg (fun h => hd h.2)] at this
    have h4 := (isclose_nan y).2
    simp only [Elem.isclose] at this
    rw [h4] at this
    simp at this

/-- **C18 (points).** A float point with a NaN coordinate is unequal to every point, itself included; between integer points `==` is equality of
the coordinates. -/
theorem C18_point (p q : Point (Val K)) :
    (p.dtype ≠ .int → Val.nan ∈ p.data → p.eq q = false ∧ q.eq p = false) ∧
    (p.dtype = .int → q.dtype = .int → (p.eq q = true ↔ p.data = q.data)) := by
  constructor
  · intro hd hn
    obtain ⟨k, hk⟩ := List.mem_iff_getElem?.1 hn
    have key : p.ndim = q.ndim → ∃ y, q.data[k]? = some y := by
      intro h
      have h' : p.data.length = q.data.length := h
      have := (List.getElem?_eq_some_iff.1 hk).1
      exact ⟨_, List.getElem?_eq_getElem (by omega)⟩
    constructor
    · rw [← Bool.not_eq_true, point_eq_iff]
      rintro ⟨h1, h3⟩
      obtain ⟨y, hy⟩ := key h1
      have := h3 k _ _ hk hy
      rw [if_neg (fun h => hd h.1)] at this
      have h4 := (isclose_nan y).1
      simp only [Elem.isclose] at this
      rw [h4] at this
      simp at this
    · rw [← Bool.not_eq_true, point_eq_iff]
      rintro ⟨h1, h3⟩
      obtain ⟨y, hy⟩ := key h1.symm
      have := h3 k _ _ hy hk
      rw [if_neg (fun h => hd h.2)] at this
      have h4 := (isclose_nan y).2
      simp only [Elem.isclose] at this
      rw [h4] at this
      simp at this
  · intro hp hq
    rw [point_eq_iff]
    constructor
    · rintro ⟨h1, h2⟩
      have h1' : p.data.length = q.data.length := h1
      apply List.ext_getElem h1'
      intro k hk hk'
      have := h2 k _ _ (List.getElem?_eq_getElem hk) (List.getElem?_eq_getElem hk')
      rw [if_pos ⟨hp, hq⟩] at this
      exact this
    · intro h
      refine ⟨by simp [Point.ndim, h], ?_⟩
      intro k x y hx hy
      rw [h, hy] at hx
      rw [if_pos ⟨hp, hq⟩]
      exact (Option.some.inj hx).symm

end

/-- **C18 violated (symmetry).** Two float curves with `a == b` but `b != a`. -/
theorem C18_not_symmetric : ∃ a b : Curve (Val ℚ), WF a ∧ WF b ∧ a.eq b = true ∧ b.eq a = false := by
  refine ⟨⟨[[.fin (99998999 / 100000000), .fin 0]], 2, none, .float⟩, ⟨[[.fin 1, .fin 0]], 2, none, .float⟩,
    ⟨by decide, by decide, by simp, by intros; rfl⟩, ⟨by decide, by decide, by simp, by intros; rfl⟩, ?_, ?_⟩
  · simp [Curve.eq, Curve.ndim, Curve.size, allequal2, rowEq, isequal, Elem.isclose, Val.isclose, closeK, atol, rtol]
    norm_num [abs_le]
  · simp [Curve.eq, Curve.ndim, Curve.size, allequal2, rowEq, isequal, Elem.isclose, Val.isclose, closeK, atol, rtol]
    norm_num [abs_lt, lt_abs]

/-- **C18 violated (transitivity, float data).** -/
theorem C18_not_transitive : ∃ p q r : Point (Val ℚ), p.eq q = true ∧ q.eq r = true ∧ p.eq r = false := by
  refine ⟨⟨[.fin 0], .float⟩, ⟨[.fin (1 / 100000000)], .float⟩, ⟨[.fin (2 / 100000000)], .float⟩, ?_, ?_, ?_⟩ <;>
  · simp [Point.eq, Point.ndim, rowEq, isequal, Elem.isclose, Val.isclose, closeK, atol, rtol]
    try norm_num [abs_le, lt_abs]

/-! ## C24 -/

section
variable {α : Type} [Elem α]

/-- **C24 (partial).** Copying a point keeps the coordinates; the dtype of a float point is kept too.
Missing: the dtype of the others, `C24_copy_changes_dtype`. -/
theorem C24_copy_partial (p : Point α) : p.copy.data = p.data ∧ (p.dtype = .float → p.copy = p) := by
  have h : p.copy.data = p.data := List.map_id _
  refine ⟨h, ?_⟩
  intro hd
  obtain ⟨d, t⟩ := p
  simp only at hd
  subst hd
  simp only [Point.copy, Point.init, Option.getD_none] at h ⊢
  rw [h]

/-- **C24 violated.** The copy of a point of any other dtype has dtype float64. -/
theorem C24_copy_changes_dtype (p : Point α) (h : p.dtype ≠ .float) : p.copy.dtype ≠ p.dtype := fun e => h e.symm

end

/-! ## C23 -/

section
variable {K : Type} [Field K] [LinearOrder K] [IsStrictOrderedRing K] [FloorRing K]

/-- **C23 (points).** Operators between points of one dimension act coordinate by coordinate, in the
written order. -/
theorem C23_points (o : ArithOp) (p q : Point (Val K)) (h : p.ndim = q.ndim) :
    (∃ r, Point.op o p (.point q) false = .ok r ∧ r.ndim = p.ndim ∧ r.dtype = .float ∧
      ∀ (i : Nat) x y, p.data[i]? = some x → q.data[i]? = some y → r.data[i]? = some (o.sem x y)) ∧
    (∃ r, Point.op o p (.point q) true = .ok r ∧ r.ndim = p.ndim ∧
      ∀ (i : Nat) x y, p.data[i]? = some x → q.data[i]? = some y → r.data[i]? = some (o.sem y x)) := by
  have hl : p.data.length = q.data.length := h
  constructor
  · refine ⟨⟨List.zipWith o.sem p.data q.data, .float⟩, ?_, by simp [Point.ndim, hl], rfl, ?_⟩
    · simp only [Point.op, bcast2, hl, if_true, Bool.false_eq_true, if_false, Except.map, Point.init, Option.getD_none]
      congr 2; exact List.map_id _
    · intro i x y hx hy; simp [List.getElem?_zipWith, hx, hy]
  · refine ⟨⟨List.zipWith o.sem q.data p.data, .float⟩, ?_, by simp [Point.ndim, hl], ?_⟩
    · simp only [Point.op, bcast2, hl, if_true, Except.map, Point.init, Option.getD_none]
      congr 2; exact List.map_id _
    · intro i x y hx hy; simp [List.getElem?_zipWith, hx, hy]

/-- **C23 (numbers).** A number on the right or on the left is combined with every coordinate, operands in
the written order; another operand type is a TypeError. -/
theorem C23_number (o : ArithOp) (p : Point (Val K)) (x : Val K) :
    (∃ r, Point.op o p (.num x) false = .ok r ∧ r.data = p.data.map fun y => o.sem y x) ∧
    (∃ r, Point.op o p (.num x) true = .ok r ∧ r.data = p.data.map fun y => o.sem x y) ∧
    (∀ b, Point.op o p .other b = .error .typeError) := by
  refine ⟨⟨_, rfl, ?_⟩, ⟨_, rfl, ?_⟩, fun _ => rfl⟩
  · exact List.map_id _
  · exact List.map_id _

/-- **C23 (laws).** For finite coordinates, `p - p` is 0 and `(p + q) - q` is `p`, in exact arithmetic. -/
theorem C23_laws (p q : Point (Val K)) (h : p.ndim = q.ndim) (hp : ∀ x ∈ p.data, ∃ y, x = .fin y)
    (hq : ∀ x ∈ q.data, ∃ y, x = .fin y) :
    (∃ r, Point.op .sub p (.point p) false = .ok r ∧ r.data = List.replicate p.ndim (.fin 0)) ∧
    (∃ r, (Point.op .add p (.point q) false).bind (fun s => Point.op .sub s (.point q) false) = .ok r ∧
      r.data = p.data) := by
  constructor
  · obtain ⟨⟨r, h1, h2, _, h3⟩, _⟩ := C23_points .sub p p rfl
    refine ⟨r, h1, ?_⟩
    apply List.ext_getElem (by simpa [Point.ndim] using h2)
    intro i hi hi'
    have hip : i < p.data.length := by simpa [Point.ndim] using hi'
    have := h3 i _ _ (List.getElem?_eq_getElem hip) (List.getElem?_eq_getElem hip)
    obtain ⟨y, hy⟩ := hp p.data[i] (List.getElem_mem hip)
    rw [hy] at this
    rw [List.getElem?_eq_getElem hi] at this
    injection this with this
    rw [this]
    simp [ArithOp.sem, Val.sub, Val.neg, Val.add]
  · obtain ⟨⟨s, h1, h2, _, h3⟩, _⟩ := C23_points .add p q h
    obtain ⟨⟨r, g1, g2, _, g3⟩, _⟩ := C23_points .sub s q (h2.trans h)
    refine ⟨r, by rw [h1]; exact g1, ?_⟩
    have hlen : r.data.length = p.data.length := by simpa [Point.ndim] using g2.trans h2
    apply List.ext_getElem hlen
    intro i hi hip
    have hiq : i < q.data.length := by have : p.data.length = q.data.length := h; omega
    obtain ⟨y, hy⟩ := hp p.data[i] (List.getElem_mem hip)
    obtain ⟨z, hz⟩ := hq q.data[i] (List.getElem_mem hiq)
    have e1 := h3 i _ _ (List.getElem?_eq_getElem hip) (List.getElem?_eq_getElem hiq)
    have e2 := g3 i _ _ e1 (List.getElem?_eq_getElem hiq)
    rw [List.getElem?_eq_getElem hi] at e2
    injection e2 with e2
    rw [e2, hy, hz]
    simp [ArithOp.sem, Val.sub, Val.neg, Val.add]

theorem dot_comm (a b : List K) : dot a b = dot b a := by
  unfold dot
  rw [List.zipWith_comm]
  simp only [mul_comm]

theorem dot_smul_add (u v : K) (a b c : List K) (h : a.length = b.length) :
    dot (List.zipWith (fun x y => u * x + v * y) a b) c = u * dot a c + v * dot b c := by
  induction a generalizing b c with
  | nil =>
    cases b with
    | nil => simp [dot]
    | cons => simp at h
  | cons x a ih =>
    cases b with
    | nil => simp at h
    | cons y b =>
      cases c with
      | nil => simp [dot]
      | cons z c =>
        have := ih b c (by simpa using h)
        simp only [dot, List.zipWith_cons_cons, List.foldr_cons] at this ⊢
        rw [this]; ring

/-- **C23 (dot product).** `p @ q` is symmetric, linear in the first argument (hence in both); different
dimensions are a ValueError. -/
theorem C23_matmul (a b c : List K) (u v : K) :
    (a.length = b.length → matmul a b = matmul b a ∧ okB (matmul a b) = true) ∧
    (a.length ≠ b.length → matmul a b = .error .valueError) ∧
    (a.length = c.length → b.length = c.length → ∃ x y, matmul a c = .ok x ∧ matmul b c = .ok y ∧
      matmul (List.zipWith (fun x y => u * x + v * y) a b) c = .ok (u * x + v * y)) := by
  refine ⟨?_, ?_, ?_⟩
  · intro h; unfold matmul; rw [if_pos h, if_pos h.symm, dot_comm]; exact ⟨rfl, rfl⟩
  · intro h; unfold matmul; rw [if_neg h]
  · intro h1 h2
    refine ⟨dot a c, dot b c, by unfold matmul; rw [if_pos h1], by unfold matmul; rw [if_pos h2], ?_⟩
    unfold matmul
    rw [if_pos (by simp; omega), dot_smul_add u v a b c (by omega)]

end

/-! ## The hypotheses are met by concrete objects -/

example : Point.op .sub (⟨[.fin 1, .fin 2], .float⟩ : Point (Val ℚ)) (.num (.fin 5)) true =
    .ok ⟨[.fin 4, .fin 3], .float⟩ := by
  simp [Point.op, Point.init, Except.map, ArithOp.sem, Val.sub, Val.neg, Val.add, DType.cast]
  norm_num

example : exCurve.count ⟨[1, 2], .float⟩ = .ok 1 := by
  simp [Curve.count, checkNdim, Curve.ndim, exCurve, Point.ndim, rowEq, isequal, Elem.isclose, closeK, atol, rtol]
  norm_num

example : Finite (⟨[[.fin 1, .fin 0], [.fin (1/3), .fin 2]], 2, none, .float⟩ : Curve (Val ℚ)) := by
  intro r hr x hx
  simp at hr
  rcases hr with rfl | rfl <;> simp at hx <;> rcases hx with rfl | rfl <;> exact ⟨_, rfl⟩

example : SelfEq exCurve := by
  intro r hr k x y hx hy
  rw [hx] at hy
  injection hy with hy
  subst hy
  rw [if_neg (by simp [exCurve])]
  exact closeK_self x

/-! ## Concrete cases -/

theorem exCurveInt_WF : WF (⟨[[0, 0], [1, 2], [3, 1]], 2, none, .int⟩ : Curve ℚ) :=
  ⟨by decide, by decide, by simp, by decide⟩

example := (C18_shape exCurve (⟨[[0, 0], [1, 2]], 2, none, .float⟩ : Curve ℚ) ⟨[1, 2], .float⟩ ⟨[1, 2, 3], .float⟩).1 (by decide)
example := (C18_shape exCurve (⟨[[0, 0], [1, 2]], 2, none, .float⟩ : Curve ℚ) ⟨[1, 2], .float⟩ ⟨[1, 2, 3], .float⟩).2 (by decide)
example := C18_int exCurveInt_WF exCurveInt_WF rfl rfl
example := C19_agree exCurve ⟨[1, 2], .float⟩ rfl
example := C19_count exCurve ⟨[1, 2], .float⟩ rfl
example := C19_other_dim exCurve ⟨[1, 2, 3], .float⟩ (by decide) (some 1) none
example := C19_count_add_partial exCurve_WF exCurve_WF rfl rfl (.inl (by decide)) ⟨[1, 2], .float⟩ rfl
example := C20_index_partial exCurve ⟨[3, 1], .float⟩ rfl (some (-2)) none (by decide)
example := C21_contains exCurve ⟨[[1, 2], [3, 1]], 2, none, .float⟩
theorem exCurve_selfEq : SelfEq exCurve := by
  intro r hr k x y hx hy
  rw [hx] at hy
  injection hy with hy
  subst hy
  rw [if_neg (by simp [exCurve])]
  exact closeK_self x
example := C21_slice_partial exCurve_WF exCurve_selfEq 1 3 (.inl rfl)

/-- A finite curve, and one with NaN. -/
theorem exFinite : Finite (⟨[[.fin 1, .fin 0], [.fin (1/3), .fin 2]], 2, none, .float⟩ : Curve (Val ℚ)) := by
  intro r hr x hx
  simp at hr
  rcases hr with rfl | rfl <;> simp at hx <;> rcases hx with rfl | rfl <;> exact ⟨_, rfl⟩

example := C18_refl _ exFinite
example := C18_refl_point (⟨[.fin 1, .fin 2], .float⟩ : Point (Val ℚ)) (by simp)
example := C18_nan (a := (⟨[[.fin 1, .nan], [.fin (1/3), .fin 2]], 2, none, .float⟩ : Curve (Val ℚ))) (b := ⟨[[.fin 1, .nan], [.fin (1/3), .fin 2]], 2, none, .float⟩)
  ⟨by decide, by decide, by simp, fun _ _ _ _ => rfl⟩ ⟨by decide, by decide, by simp, fun _ _ _ _ => rfl⟩ (by decide) ⟨[.fin 1, .nan], by decide, by decide⟩
example := (C18_point (⟨[.fin 1, .nan], .float⟩ : Point (Val ℚ)) ⟨[.fin 1, .nan], .float⟩).1 (by decide) (by decide)
example := (C18_point (⟨[.fin 1, .fin 2], .int⟩ : Point (Val ℚ)) ⟨[.fin 1, .fin 2], .int⟩).2 rfl rfl
example := (C24_copy_partial (⟨[1, 2], .float⟩ : Point ℚ)).2 rfl
example := C24_copy_changes_dtype (⟨[1, 2], .int⟩ : Point ℚ) (by decide)
example := C23_points .mul (⟨[.fin 1, .fin 2], .float⟩ : Point (Val ℚ)) ⟨[.fin 3, .nan], .float⟩ rfl
example := C23_laws (⟨[.fin 1, .fin 2], .float⟩ : Point (Val ℚ)) ⟨[.fin 3, .fin 5], .float⟩ rfl (by simp) (by simp)
example := (C23_matmul [(1 : ℚ), 2] [3, 4] [5, 6] 2 3).2.2 rfl rfl
example := (C23_matmul [(1 : ℚ), 2] [3, 4, 5] [5, 6] 2 3).2.1 (by decide)

end Verif.Props
