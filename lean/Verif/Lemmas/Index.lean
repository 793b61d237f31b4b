import Verif.Spec.Index
import Mathlib.Tactic.Linarith
import Mathlib.Tactic.Ring
import Mathlib.Data.Int.ModEq
import Mathlib.Data.List.Forall2

namespace Verif.Np

open Verif Verif.Spec

theorem normIdx_eq_some {n : Nat} {i : Int} {k : Nat} :
    normIdx n i = some k ↔ IsPos n i k := by
  unfold normIdx IsPos
  split
  · split
    · simp; omega
    · simp; omega
  · split
    · simp; omega
    · simp; omega

theorem normIdx_eq_none {n : Nat} {i : Int} :
    normIdx n i = none ↔ (i < -(n : Int) ∨ (n : Int) ≤ i) := by
  unfold normIdx
  split
  · split <;> simp <;> omega
  · split <;> simp <;> omega

theorem normIdx_lt {n : Nat} {i : Int} {k : Nat} (h : normIdx n i = some k) : k < n :=
  (normIdx_eq_some.1 h).1

theorem getIdx_ok {α : Type _} {xs : List α} {i : Int} {x : α} :
    getIdx xs i = .ok x ↔ ∃ k, IsPos xs.length i k ∧ xs[k]? = some x := by
  unfold getIdx
  cases h : normIdx xs.length i with
  | none =>
    simp only [reduceCtorEq, false_iff, not_exists, not_and]
    intro k hk
    rw [← normIdx_eq_some, h] at hk; simp at hk
  | some k =>
    have hk := normIdx_lt h
    simp only [List.getElem?_eq_getElem hk, Except.ok.injEq]
    constructor
    · intro e; exact ⟨k, normIdx_eq_some.1 h, by simp [e, hk]⟩
    · rintro ⟨k', hk', e⟩
      have := normIdx_eq_some.2 hk'
      rw [h] at this; simp at this; subst this
      simpa [hk] using e

theorem getIdx_error {α : Type _} {xs : List α} {i : Int} {e : PyErr} :
    getIdx xs i = .error e ↔ e = .indexError ∧ (i < -(xs.length : Int) ∨ (xs.length : Int) ≤ i) := by
  unfold getIdx
  cases h : normIdx xs.length i with
  | none =>
    rw [normIdx_eq_none] at h
    simp [h, eq_comm]
  | some k =>
    have hk := normIdx_lt h
    have hn : ¬ (i < -(xs.length : Int) ∨ (xs.length : Int) ≤ i) := by
      rw [← normIdx_eq_none, h]; simp
    simp [hk, hn]

theorem adjust_eq_bound (n : Nat) (k v : Int) : adjust n (decide (k < 0)) v = bound n k v := by
  unfold adjust bound
  by_cases hk : k < 0 <;> simp [hk] <;> split <;> (try split) <;> omega

theorem lo_eq_first (n : Nat) (s : PySlice) : s.lo n = first n s := by
  unfold PySlice.lo first
  cases s.start
  · rfl
  · exact adjust_eq_bound _ _ _

theorem hi_eq_last (n : Nat) (s : PySlice) : s.hi n = last n s := by
  unfold PySlice.hi last
  cases s.stop
  · rfl
  · exact adjust_eq_bound _ _ _

theorem bound_pos_range {n : Nat} {k v : Int} (hk : ¬ k < 0) : 0 ≤ bound n k v ∧ bound n k v ≤ n := by
  unfold bound; simp [hk]

theorem bound_neg_range {n : Nat} {k v : Int} (hk : k < 0) :
    -1 ≤ bound n k v ∧ bound n k v ≤ (n : Int) - 1 := by
  unfold bound; simp [hk]

theorem lo_range (n : Nat) (s : PySlice) :
    (s.k < 0 → -1 ≤ s.lo n ∧ s.lo n ≤ (n : Int) - 1) ∧ (¬ s.k < 0 → 0 ≤ s.lo n ∧ s.lo n ≤ n) := by
  rw [lo_eq_first]; unfold first PySlice.k
  cases s.start with
  | some v => exact ⟨fun h => bound_neg_range h, fun h => bound_pos_range h⟩
  | none => constructor <;> intro h <;> simp [h]

theorem hi_range (n : Nat) (s : PySlice) :
    (s.k < 0 → -1 ≤ s.hi n ∧ s.hi n ≤ (n : Int) - 1) ∧ (¬ s.k < 0 → 0 ≤ s.hi n ∧ s.hi n ≤ n) := by
  rw [hi_eq_last]; unfold last PySlice.k
  cases s.stop with
  | some v => exact ⟨fun h => bound_neg_range h, fun h => bound_pos_range h⟩
  | none => constructor <;> intro h <;> simp [h]

theorem lt_len_neg {n : Nat} {s : PySlice} (hk : s.k < 0) (m : Nat) :
    m < s.len n ↔ s.hi n < s.lo n + m * s.k := by
  unfold PySlice.len
  simp only [hk, if_true]
  split
  · rename_i h
    have hpos : 0 < -s.k := by omega
    have h0 : 0 ≤ (s.lo n - s.hi n - 1) / (-s.k) := Int.ediv_nonneg (by omega) (by omega)
    rw [show (m < ((s.lo n - s.hi n - 1) / (-s.k) + 1).toNat ↔ (m : Int) ≤ (s.lo n - s.hi n - 1) / (-s.k)) by omega]
    rw [Int.le_ediv_iff_mul_le hpos]
    constructor <;> intro h <;> nlinarith
  · rename_i h
    simp
    have : (m : Int) * s.k ≤ 0 := by nlinarith
    omega

theorem lt_len_pos {n : Nat} {s : PySlice} (hk : 0 < s.k) (m : Nat) :
    m < s.len n ↔ s.lo n + m * s.k < s.hi n := by
  unfold PySlice.len
  have hk' : ¬ s.k < 0 := by omega
  simp only [hk', if_false]
  split
  · rename_i h
    have h0 : 0 ≤ (s.hi n - s.lo n - 1) / (s.k) := Int.ediv_nonneg (by omega) (by omega)
    rw [show (m < ((s.hi n - s.lo n - 1) / (s.k) + 1).toNat ↔ (m : Int) ≤ (s.hi n - s.lo n - 1) / (s.k)) by omega]
    rw [Int.le_ediv_iff_mul_le hk]
    constructor <;> intro h <;> nlinarith
  · rename_i h
    simp
    have : 0 ≤ (m : Int) * s.k := by positivity
    omega

/-- every visited position is in range -/
theorem visit_range {n : Nat} {s : PySlice} (hk : s.k ≠ 0) {m : Nat} (hm : m < s.len n) :
    0 ≤ s.lo n + m * s.k ∧ s.lo n + m * s.k < n := by
  rcases lt_or_gt_of_ne hk with h | h
  · have h1 := (lt_len_neg h m).1 hm
    have h2 := ((hi_range n s).1 h).1
    have h3 := ((lo_range n s).1 h).2
    have : (m : Int) * s.k ≤ 0 := by nlinarith
    omega
  · have h1 := (lt_len_pos h m).1 hm
    have h2 := ((hi_range n s).2 (by omega)).2
    have h3 := ((lo_range n s).2 (by omega)).1
    have : 0 ≤ (m : Int) * s.k := by positivity
    omega

theorem sliceIndices_eq {n : Nat} {s : PySlice} (hk : s.k ≠ 0) :
    sliceIndices n s = .ok ((List.range (s.len n)).map fun (m : Nat) => (s.lo n + m * s.k).toNat) := by
  simp [sliceIndices, hk]

theorem sliceMem_iff {n : Nat} {s : PySlice} (hk : s.k ≠ 0) (x : Nat) :
    SliceMem n s x ↔ ∃ m, m < s.len n ∧ (x : Int) = s.lo n + m * s.k := by
  unfold SliceMem
  simp only [← lo_eq_first, ← hi_eq_last]
  have hkk : s.step.getD 1 = s.k := rfl
  rw [hkk]
  constructor
  · rintro ⟨⟨m, hm⟩, h⟩
    refine ⟨m, ?_, hm⟩
    rcases lt_or_gt_of_ne hk with h' | h'
    · rw [lt_len_neg h']; simp [h'] at h; omega
    · rw [lt_len_pos h']; have : ¬ s.k < 0 := by omega
      simp [this] at h; omega
  · rintro ⟨m, hm, hx⟩
    refine ⟨⟨m, hx⟩, ?_⟩
    rcases lt_or_gt_of_ne hk with h' | h'
    · rw [lt_len_neg h'] at hm; simp [h']; omega
    · rw [lt_len_pos h'] at hm; have : ¬ s.k < 0 := by omega
      simp [this]; omega

theorem sliceIndices_spec {n : Nat} {s : PySlice} {is : List Nat} (h : sliceIndices n s = .ok is) :
    s.k ≠ 0 ∧ (∀ x, x ∈ is ↔ SliceMem n s x) ∧ (0 < s.k → is.Pairwise (· < ·)) ∧
      (s.k < 0 → is.Pairwise (· > ·)) ∧ ∀ x ∈ is, x < n := by
  have hk : s.k ≠ 0 := by
    intro h0; simp [sliceIndices, h0] at h
  rw [sliceIndices_eq hk] at h
  injection h with h
  subst h
  refine ⟨hk, ?_, ?_, ?_, ?_⟩
  · intro x
    rw [sliceMem_iff hk]
    simp only [List.mem_map, List.mem_range]
    constructor
    · rintro ⟨m, hm, rfl⟩
      exact ⟨m, hm, by have := visit_range hk hm; omega⟩
    · rintro ⟨m, hm, hx⟩
      exact ⟨m, hm, by omega⟩
  · intro hp
    rw [List.pairwise_map]
    refine List.Pairwise.imp_of_mem ?_ List.pairwise_lt_range
    intro a b ha hb hab
    have h1 := visit_range hk (List.mem_range.1 ha)
    have h2 := visit_range hk (List.mem_range.1 hb)
    have : (a : Int) * s.k < b * s.k := by
      have : (a : Int) < b := by exact_mod_cast hab
      exact Int.mul_lt_mul_of_pos_right this hp
    omega
  · intro hp
    rw [List.pairwise_map]
    refine List.Pairwise.imp_of_mem ?_ List.pairwise_lt_range
    intro a b ha hb hab
    have h1 := visit_range hk (List.mem_range.1 ha)
    have h2 := visit_range hk (List.mem_range.1 hb)
    have : (b : Int) * s.k < a * s.k := by
      have : (a : Int) < b := by exact_mod_cast hab
      exact Int.mul_lt_mul_of_neg_right this hp
    omega
  · intro x hx
    simp only [List.mem_map, List.mem_range] at hx
    obtain ⟨m, hm, rfl⟩ := hx
    have := visit_range hk hm; omega

theorem gather_map {α β : Type _} (f : α → β) (xs : List α) (is : List Nat) :
    (gather xs is).map f = gather (xs.map f) is := by
  induction is with
  | nil => rfl
  | cons i is ih =>
    simp only [gather, List.filterMap_cons, List.getElem?_map] at ih ⊢
    cases xs[i]? <;> simp [ih]

theorem gather_length {α : Type _} {xs : List α} {is : List Nat} (h : ∀ i ∈ is, i < xs.length) :
    (gather xs is).length = is.length := by
  induction is with
  | nil => rfl
  | cons i is ih =>
    have hi := h i (by simp)
    have := ih (fun j hj => h j (by simp [hj]))
    simp only [gather, List.filterMap_cons, List.getElem?_eq_getElem hi] at this ⊢
    simp [this]

theorem gather_eq_map {α : Type _} {xs : List α} {is : List Nat} (h : ∀ i ∈ is, i < xs.length) :
    ∀ (d : α), gather xs is = is.map fun i => (xs[i]?).getD d := by
  intro d
  induction is with
  | nil => rfl
  | cons i is ih =>
    have hi := h i (by simp)
    have := ih (fun j hj => h j (by simp [hj]))
    simp only [gather, List.filterMap_cons, List.getElem?_eq_getElem hi, List.map_cons] at this ⊢
    rw [this]; simp

theorem gather_getElem? {α : Type _} {xs : List α} {is : List Nat} (h : ∀ i ∈ is, i < xs.length)
    (j : Nat) : (gather xs is)[j]? = (is[j]?).bind (xs[·]?) := by
  induction is generalizing j with
  | nil => simp [gather]
  | cons i is ih =>
    have hi := h i (by simp)
    have := ih (fun j hj => h j (by simp [hj]))
    simp only [gather, List.filterMap_cons, List.getElem?_eq_getElem hi] at this ⊢
    cases j with
    | zero => simp [hi]
    | succ j => simp [this]

theorem mem_gather {α : Type _} {xs : List α} {is : List Nat} {x : α} (h : x ∈ gather xs is) : x ∈ xs := by
  simp only [gather, List.mem_filterMap] at h
  obtain ⟨i, _, hi⟩ := h
  exact List.mem_of_getElem? hi

/-! ### compress / masks -/

theorem removeAt_go {α : Type _} (named : Nat → Bool) (xs : List α) (k : Nat) :
    ((xs.zipIdx k).filter fun p => !(named p.2)).map Prod.fst
      = compress ((List.range' k xs.length).map fun i => !(named i)) xs := by
  induction xs generalizing k with
  | nil => simp [compress]
  | cons x xs ih =>
    simp only [List.zipIdx_cons, List.length_cons, List.range'_succ, List.map_cons, compress]
    rw [← ih (k + 1)]
    by_cases h : named k <;> simp [h]

theorem removeAt_eq_compress {α : Type _} (named : Nat → Bool) (xs : List α) :
    removeAt named xs = compress ((List.range xs.length).map fun i => !(named i)) xs := by
  rw [removeAt, removeAt_go, List.range_eq_range']

theorem keepAt_eq_removeAt {α : Type _} (named : Nat → Bool) (xs : List α) :
    keepAt named xs = removeAt (fun i => !(named i)) xs := by
  simp [keepAt, removeAt]

theorem compress_eq_keepAt {α : Type _} {bs : List Bool} {xs : List α} (h : bs.length = xs.length) :
    compress bs xs = keepAt (fun i => bs[i]?.getD false) xs := by
  rw [keepAt_eq_removeAt, removeAt_eq_compress]
  congr 1
  apply List.ext_getElem?
  intro i
  by_cases hi : i < xs.length
  · have : i < bs.length := by omega
    simp [hi, this]
  · have : ¬ i < bs.length := by omega
    simp [hi, this]

theorem keepAt_go {α : Type _} (named : Nat → Bool) (xs : List α) :
    keepAt named xs = ((xs.zipIdx 0).filter fun p => named p.2).map Prod.fst := rfl

theorem removeAt_append {α : Type _} (named : Nat → Bool) (xs ys : List α) :
    removeAt named (xs ++ ys) = removeAt named xs ++ removeAt (fun i => named (i + xs.length)) ys := by
  simp only [removeAt, List.zipIdx_append, List.filter_append, List.map_append, Nat.zero_add]
  congr 1
  rw [List.zipIdx_eq_map_add (i := xs.length)]
  rw [List.filter_map, List.map_map]
  congr 1
  congr 1
  funext p
  simp [Nat.add_comm]

theorem removeAt_congr {α : Type _} {f g : Nat → Bool} {xs : List α} (h : ∀ i < xs.length, f i = g i) :
    removeAt f xs = removeAt g xs := by
  rw [removeAt_eq_compress, removeAt_eq_compress]
  congr 1
  apply List.map_congr_left
  intro i hi
  rw [h i (List.mem_range.1 hi)]

theorem compress_true {α : Type _} (xs : List α) : compress (List.replicate xs.length true) xs = xs := by
  induction xs with
  | nil => rfl
  | cons x xs ih => simp [List.replicate_succ, compress, ih]

theorem removeAt_none {α : Type _} {f : Nat → Bool} {xs : List α} (h : ∀ i < xs.length, f i = false) :
    removeAt f xs = xs := by
  rw [removeAt_congr (g := fun _ => false) h, removeAt_eq_compress]
  simp [List.map_const', compress_true]

theorem removeAt_map {α β : Type _} (f : α → β) (named : Nat → Bool) (xs : List α) :
    removeAt named (xs.map f) = (removeAt named xs).map f := by
  simp only [removeAt, List.zipIdx_map, List.filter_map, List.map_map]
  rfl

theorem compress_map {α β : Type _} (f : α → β) (bs : List Bool) (xs : List α) :
    compress bs (xs.map f) = (compress bs xs).map f := by
  induction xs generalizing bs with
  | nil => cases bs <;> simp [compress]
  | cons x xs ih =>
    cases bs with
    | nil => simp [compress]
    | cons b bs => cases b <;> simp [compress, ih]

theorem compress_sublist {α : Type _} (bs : List Bool) (xs : List α) : (compress bs xs).Sublist xs := by
  induction xs generalizing bs with
  | nil => cases bs <;> simp [compress]
  | cons x xs ih =>
    cases bs with
    | nil => simp [compress]
    | cons b bs => cases b <;> simp [compress, ih]

theorem removeAt_sublist {α : Type _} (named : Nat → Bool) (xs : List α) :
    (removeAt named xs).Sublist xs := by
  rw [removeAt_eq_compress]; exact compress_sublist _ _

/-! ### delete -/

/-- The positions named by a delete index. -/
def named (n : Nat) : Obj → Nat → Bool
  | .int i, p => decide ((p : Int) = i ∨ (p : Int) = i + n)
  | .slice s, p => match sliceIndices n s with
    | .ok is => is.contains p
    | .error _ => false
  | .arr is, p => is.any fun i => decide ((p : Int) = i ∨ (p : Int) = i + n)
  | .mask bs, p => bs[p]?.getD false

/-- When `np.delete` accepts its index. -/
def DelOk (n : Nat) : Obj → Prop
  | .int i => -(n : Int) ≤ i ∧ i < n
  | .slice s => s.step.getD 1 ≠ 0
  | .arr is => ∀ i ∈ is, -(n : Int) ≤ i ∧ i < n
  | .mask bs => bs.length = n

theorem mapM_some {α β : Type _} {f : α → Option β} {xs : List α} {ys : List β} :
    xs.mapM f = some ys ↔ List.Forall₂ (fun x y => f x = some y) xs ys := by
  induction xs generalizing ys with
  | nil => cases ys <;> simp
  | cons x xs ih =>
    rw [List.mapM_cons]
    cases h : f x with
    | none =>
      simp only [Option.bind_eq_bind, Option.bind_none, reduceCtorEq, false_iff]
      intro hc; cases hc with | cons h1 _ => simp [h] at h1
    | some y =>
      simp only [Option.bind_eq_bind, Option.bind_some, Option.pure_def]
      constructor
      · intro he
        cases h2 : List.mapM f xs with
        | none => simp [h2] at he
        | some zs =>
          simp [h2] at he
          subst he
          exact .cons h (ih.1 h2)
      · intro hc
        cases hc with
        | cons h1 h2 =>
          rw [h] at h1; simp at h1; subst h1
          rw [ih.2 h2]; simp

theorem forall₂_length {α β : Type _} {R : α → β → Prop} {xs : List α} {ys : List β}
    (h : List.Forall₂ R xs ys) : xs.length = ys.length := h.length_eq

theorem mapM_eq_none {α β : Type _} {f : α → Option β} {xs : List α} :
    xs.mapM f = none ↔ ∃ x ∈ xs, f x = none := by
  induction xs with
  | nil => simp
  | cons x xs ih =>
    rw [List.mapM_cons]
    cases h : f x with
    | none => simp [h]
    | some y =>
      simp only [Option.bind_eq_bind, Option.bind_some, Option.pure_def, List.mem_cons,
        exists_eq_or_imp, h, reduceCtorEq, false_or, ← ih]
      cases List.mapM f xs <;> simp

theorem delete_ok_iff {α : Type _} (xs : List α) (o : Obj) :
    (∃ ys, delete xs o = .ok ys) ↔ DelOk xs.length o := by
  cases o with
  | int i =>
    simp only [delete, DelOk]
    cases h : normIdx xs.length i with
    | none => rw [normIdx_eq_none] at h; simp; omega
    | some k =>
      have : ¬ normIdx xs.length i = none := by simp [h]
      rw [normIdx_eq_none] at this; simp; omega
  | slice s =>
    simp only [delete, DelOk]
    by_cases hk : s.k = 0
    · have : s.step.getD 1 = 0 := hk
      simp [hk, this]
    · have : s.step.getD 1 ≠ 0 := hk
      simp only [hk, if_false]
      split <;> simp [this]
  | arr is =>
    simp only [delete, DelOk]
    cases h : is.mapM (normIdx xs.length) with
    | none =>
      obtain ⟨x, hx, hn⟩ := mapM_eq_none.1 h
      rw [normIdx_eq_none] at hn
      simp only [reduceCtorEq, exists_false, false_iff, not_forall]
      exact ⟨x, hx, by omega⟩
    | some ks =>
      simp only [Except.ok.injEq, exists_eq', true_iff]
      intro i hi
      have : ¬ normIdx xs.length i = none := by
        intro hn
        have := mapM_eq_none.2 ⟨i, hi, hn⟩
        simp [h] at this
      rw [normIdx_eq_none] at this; omega
  | mask bs =>
    simp only [delete, DelOk]
    split <;> simp_all

/-- kind of the error of `np.delete` -/
def delErr : Obj → PyErr
  | .int _ => .indexError
  | .slice _ => .valueError
  | .arr _ => .indexError
  | .mask _ => .valueError

theorem delete_error {α : Type _} {xs : List α} {o : Obj} {e : PyErr} (h : delete xs o = .error e) : e = delErr o := by
  cases o with
  | int i =>
    simp only [delete] at h
    cases h' : normIdx xs.length i <;> simp [h'] at h
    exact h.symm
  | slice s =>
    simp only [delete] at h
    by_cases hk : s.k = 0
    · simp [hk] at h; exact h.symm
    · simp only [hk, if_false] at h
      split at h <;> simp at h
  | arr is =>
    simp only [delete] at h
    cases h' : is.mapM (normIdx xs.length) <;> simp [h'] at h
    exact h.symm
  | mask bs =>
    simp only [delete] at h
    split at h <;> simp at h
    exact h.symm

/-- inclusive progression facts used for slice deletion -/
theorem delete_slice_named {n : Nat} {s : PySlice} (hk : s.k ≠ 0) (hl : s.len n ≠ 0) (p : Nat) :
    let last := s.lo n + ((s.len n : Int) - 1) * s.k
    let start := if s.k < 0 then last else s.lo n
    let stop := if s.k < 0 then s.lo n + 1 else s.hi n
    let step := if s.k < 0 then -s.k else s.k
    (named n (.slice s) p = true ↔ start ≤ p ∧ (p : Int) < stop ∧ ((p : Int) - start) % step = 0) ∧
      0 ≤ start ∧ start ≤ stop ∧ stop ≤ n := by
  intro last start stop step
  obtain ⟨L, hL⟩ : ∃ L, s.len n = L + 1 := ⟨s.len n - 1, by omega⟩
  have hlast : last = s.lo n + L * s.k := by simp [last, hL]
  have hLr := visit_range (n := n) hk (m := L) (by omega)
  have h0r := visit_range (n := n) hk (m := 0) (by omega)
  simp only [Nat.cast_zero, zero_mul, add_zero] at h0r
  have hnamed : named n (.slice s) p = true ↔ ∃ m, m < s.len n ∧ (p : Int) = s.lo n + m * s.k := by
    simp only [named]
    have hs := (sliceIndices_spec (sliceIndices_eq (n := n) hk)).2.1 p
    rw [sliceIndices_eq hk]
    simp only [List.contains_iff_mem]
    rw [hs, sliceMem_iff hk]
  rcases lt_or_gt_of_ne hk with h | h
  · have hst : start = last := by simp [start, h]
    have hsp : stop = s.lo n + 1 := by simp [stop, h]
    have hste : step = -s.k := by simp [step, h]
    have hneg : (L : Int) * s.k ≤ 0 := by nlinarith
    refine ⟨?_, by omega, by omega, by omega⟩
    rw [hnamed, hst, hsp, hste, hlast]
    constructor
    · rintro ⟨m, hm, hp⟩
      have h1 : (m : Int) ≤ L := by omega
      have e1 : (L : Int) * s.k ≤ m * s.k := by nlinarith
      have e2 : (m : Int) * s.k ≤ 0 := by nlinarith
      refine ⟨by omega, by omega, ?_⟩
      rw [hp, show s.lo n + (m : Int) * s.k - (s.lo n + L * s.k) = -s.k * ((L : Int) - m) by ring]
      exact Int.mul_emod_right _ _
    · rintro ⟨h1, h2, h3⟩
      obtain ⟨c, hc⟩ := Int.dvd_of_emod_eq_zero h3
      have hc0 : 0 ≤ c := by
        by_contra hcn
        have : -s.k * c < 0 := by nlinarith
        omega
      have hcL : c ≤ L := by
        by_contra hcn
        have : (-s.k) * (L + 1) ≤ -s.k * c := by nlinarith
        nlinarith
      refine ⟨(L - c).toNat, by omega, ?_⟩
      have : ((L - c).toNat : Int) = L - c := by omega
      rw [this]; linarith
  · have hnk : ¬ s.k < 0 := by omega
    have hst : start = s.lo n := by simp [start, hnk]
    have hsp : stop = s.hi n := by simp [stop, hnk]
    have hste : step = s.k := by simp [step, hnk]
    have hh := (hi_range n s).2 hnk
    have h00 := (lt_len_pos h 0).1 (show 0 < s.len n by omega)
    simp only [Nat.cast_zero, zero_mul, add_zero] at h00
    refine ⟨?_, by omega, by omega, by omega⟩
    rw [hnamed, hst, hsp, hste]
    constructor
    · rintro ⟨m, hm, hp⟩
      have hm' := (lt_len_pos h m).1 hm
      have : 0 ≤ (m : Int) * s.k := by positivity
      refine ⟨by omega, by omega, ?_⟩
      rw [hp, show s.lo n + (m : Int) * s.k - s.lo n = s.k * m by ring]
      exact Int.mul_emod_right _ _
    · rintro ⟨h1, h2, h3⟩
      obtain ⟨c, hc⟩ := Int.dvd_of_emod_eq_zero h3
      have hc0 : 0 ≤ c := by
        by_contra hcn
        have : s.k * c < 0 := by nlinarith
        omega
      have e : (c.toNat : Int) = c := by omega
      have hp : (p : Int) = s.lo n + c.toNat * s.k := by rw [e]; linarith
      exact ⟨c.toNat, (lt_len_pos h _).2 (by omega), hp⟩

theorem delete_eq {α : Type _} {xs ys : List α} {o : Obj} (h : delete xs o = .ok ys) :
    ys = removeAt (named xs.length o) xs := by
  cases o with
  | int i =>
    simp only [delete] at h
    cases h' : normIdx xs.length i with
    | none => simp [h'] at h
    | some k =>
      simp [h'] at h
      subst h
      obtain ⟨hk, hp⟩ := normIdx_eq_some.1 h'
      have e : xs = xs.take k ++ (xs[k] :: xs.drop (k + 1)) := by
        rw [List.getElem_cons_drop, List.take_append_drop]
      conv_rhs => arg 2; rw [e]
      have hl : (xs.take k).length = k := by simp; omega
      rw [removeAt_append, removeAt_none]
      · congr 1
        rw [show (xs[k] :: xs.drop (k+1)) = [xs[k]] ++ xs.drop (k+1) from rfl, removeAt_append,
          removeAt_none (xs := xs.drop (k+1))]
        · have : named xs.length (Obj.int i) k = true := by simp [named]; omega
          simp [removeAt, this, hl]
        · intro j hj
          rw [List.length_drop] at hj
          simp only [named, List.length_singleton, hl, decide_eq_false_iff_not]; omega
      · intro j hj
        rw [hl] at hj
        simp only [named, decide_eq_false_iff_not]; omega
  | slice s =>
    simp only [delete] at h
    by_cases hk : s.k = 0
    · simp [hk] at h
    simp only [hk, if_false] at h
    split at h
    · rename_i hl
      simp at h; subst h
      rw [removeAt_none]
      intro i _
      simp [named, sliceIndices_eq hk, hl]
    · rename_i hl
      simp only [Except.ok.injEq] at h
      have key := delete_slice_named hk hl
      simp only at key
      set start := if s.k < 0 then s.lo xs.length + ((s.len xs.length : Int) - 1) * s.k else s.lo xs.length with hstart
      set stop := if s.k < 0 then s.lo xs.length + 1 else s.hi xs.length with hstop
      set step := if s.k < 0 then -s.k else s.k with hstep
      obtain ⟨_, h0, h1, h2⟩ := key 0
      have key' := fun p => (key p).1
      clear key
      subst h
      have e : xs = xs.take start.toNat ++ ((xs.drop start.toNat).take (stop - start).toNat ++ xs.drop stop.toNat) := by
        have e2 : xs.drop stop.toNat = (xs.drop start.toNat).drop (stop - start).toNat := by
          rw [List.drop_drop]; congr 1; omega
        rw [e2, List.take_append_drop, List.take_append_drop]
      conv_rhs => arg 2; rw [e]
      have hl1 : (xs.take start.toNat).length = start.toNat := by simp; omega
      have hl2 : ((xs.drop start.toNat).take (stop - start).toNat).length = (stop - start).toNat := by
        simp; omega
      rw [removeAt_append, removeAt_append, List.append_assoc]
      congr 1
      · rw [removeAt_none]
        intro i hi
        rw [hl1] at hi
        rw [Bool.eq_false_iff, ne_eq, key']; omega
      congr 1
      · rw [removeAt_eq_compress, hl2, hl1]
        congr 1
        apply List.map_congr_left
        intro j hj
        have hj := List.mem_range.1 hj
        have := key' (j + start.toNat)
        rw [show ((j + start.toNat : Nat) : Int) - start = j by omega] at this
        rw [Bool.eq_iff_iff]
        simp only [decide_eq_true_eq, Bool.not_eq_true', ← Bool.not_eq_true]
        rw [this, not_iff_not]
        constructor
        · intro hh; exact ⟨by omega, by omega, hh⟩
        · exact fun hh => hh.2.2
      · rw [removeAt_none]
        intro i hi
        rw [hl1, hl2]
        rw [Bool.eq_false_iff, ne_eq, key']; omega
  | arr is =>
    simp only [delete] at h
    cases h' : is.mapM (normIdx xs.length) with
    | none => simp [h'] at h
    | some ks =>
      simp [h'] at h
      subst h
      rw [removeAt_eq_compress, keepMask]
      congr 1
      apply List.map_congr_left
      intro p hp
      have hp := List.mem_range.1 hp
      congr 1
      rw [Bool.eq_iff_iff]
      simp only [List.contains_iff_mem, named, List.any_eq_true, decide_eq_true_eq]
      have hf := mapM_some.1 h'
      constructor
      · intro hm
        have : ∃ i ∈ is, normIdx xs.length i = some p := by
          clear h'
          induction hf with
          | nil => simp at hm
          | cons ha _ ih =>
            rcases List.mem_cons.1 hm with rfl | hm
            · exact ⟨_, by simp, ha⟩
            · obtain ⟨i, hi, h⟩ := ih hm; exact ⟨i, by simp [hi], h⟩
        obtain ⟨i, hi, h⟩ := this
        exact ⟨i, hi, (normIdx_eq_some.1 h).2⟩
      · rintro ⟨i, hi, h⟩
        have hpos : normIdx xs.length i = some p := normIdx_eq_some.2 ⟨hp, h⟩
        clear h'
        induction hf with
        | nil => simp at hi
        | cons ha _ ih =>
          rcases List.mem_cons.1 hi with rfl | hi
          · rw [hpos] at ha; simp at ha; simp [ha]
          · exact List.mem_cons_of_mem _ (ih hi)
  | mask bs =>
    simp only [delete] at h
    split at h
    · rename_i hb
      simp at h; subst h
      rw [removeAt_eq_compress]
      congr 1
      apply List.ext_getElem?
      intro i
      by_cases hi : i < xs.length
      · have : i < bs.length := by omega
        simp [hi, this, named]
      · have : ¬ i < bs.length := by omega
        simp [hi, this]
    · simp at h

end Verif.Np
