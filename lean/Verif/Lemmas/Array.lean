import Verif.Model.Utils
import Verif.Lemmas.Index
import Mathlib.Data.List.Nodup
import Mathlib.Data.List.Basic
import Mathlib.Algebra.BigOperators.Group.List.Basic

namespace Verif.Model

open Verif Verif.Np

variable {α : Type}

theorem indices_length {ks idx : List Nat} (h : idx ∈ indices ks) : idx.length = ks.length := by
  induction ks generalizing idx with
  | nil => simp [indices] at h; simp [h]
  | cons k ks ih =>
    simp only [indices, List.mem_flatMap, List.mem_map] at h
    obtain ⟨i, _, r, hr, rfl⟩ := h
    simp [ih hr]

theorem length_indices (ks : List Nat) : (indices ks).length = ks.prod := by
  induction ks with
  | nil => rfl
  | cons k ks ih =>
    simp only [indices, List.length_flatMap, List.length_map, ih, List.prod_cons]
    simp [List.map_const']

theorem chunks_flatMap {β : Type} (f : β → List α) (n : Nat) (xs : List β) (h : ∀ x ∈ xs, (f x).length = n) :
    chunks xs.length n (xs.flatMap f) = xs.map f := by
  induction xs with
  | nil => rfl
  | cons x xs ih =>
    have hx := h x (by simp)
    simp only [List.length_cons, chunks, List.flatMap_cons, List.map_cons]
    rw [List.take_left' hx, List.drop_left' hx, ih (fun y hy => h y (by simp [hy]))]

theorem eraseIdx_range_getElem? {n a k : Nat} (ha : a < n) (hk : k + 1 < n) :
    ((List.range n).eraseIdx a)[k]? = some (if k < a then k else k + 1) := by
  rw [List.getElem?_eraseIdx]
  split
  · rw [List.getElem?_range (by omega)]
  · rw [List.getElem?_range (by omega)]

theorem idxOf_axes {n a j : Nat} (ha : a < n) (hj : j < n) :
    (a :: (List.range n).eraseIdx a).idxOf j = if j = a then 0 else if j < a then j + 1 else j := by
  have hnd : (a :: (List.range n).eraseIdx a).Nodup := by
    have hp := List.getElem_cons_eraseIdx_perm (l := List.range n) (n := a) (by simpa using ha)
    rw [List.getElem_range] at hp
    exact (hp.nodup_iff).2 List.nodup_range
  have hl : (a :: (List.range n).eraseIdx a).length = n := by
    simp only [List.length_cons]; rw [List.length_eraseIdx_of_lt (by simpa using ha)]; simp; omega
  have key : ∀ p, (a :: (List.range n).eraseIdx a)[p]? = some j →
      (a :: (List.range n).eraseIdx a).idxOf j = p := by
    intro p hp
    obtain ⟨hp', e⟩ := List.getElem?_eq_some_iff.1 hp
    rw [← e]; exact hnd.idxOf_getElem p hp'
  apply key
  split
  · rename_i h; subst h; rfl
  · split
    · rw [List.getElem?_cons_succ, eraseIdx_range_getElem? ha (by omega)]
      simp; omega
    · obtain ⟨j', rfl⟩ : ∃ j', j = j' + 1 := ⟨j - 1, by omega⟩
      rw [List.getElem?_cons_succ, eraseIdx_range_getElem? ha (by omega)]
      have : ¬ j' < a := by omega
      simp [this]

theorem transpose_idx {n a i : Nat} {r : List Nat} (ha : a < n) (hr : r.length + 1 = n) :
    ((List.range n).map fun j => (i :: r).getD ((a :: (List.range n).eraseIdx a).idxOf j) 0) = r.insertIdx a i := by
  apply List.ext_getElem?
  intro j
  by_cases hj : j < n
  · rw [List.getElem?_map, List.getElem?_range hj, Option.map_some, idxOf_axes ha hj, List.getElem?_insertIdx]
    rcases Nat.lt_trichotomy j a with h | h | h
    · have h1 : ¬ j = a := by omega
      have h2 : j < r.length := by omega
      simp [h, h1, h2, List.getD_eq_getElem?_getD]
    · subst h
      have : j ≤ r.length := by omega
      simp [this]
    · have h1 : ¬ j = a := by omega
      have h3 : ¬ j < a := by omega
      obtain ⟨j', rfl⟩ : ∃ j', j = j' + 1 := ⟨j - 1, by omega⟩
      have h2 : j' < r.length := by omega
      simp [h1, h3, h2, List.getD_eq_getElem?_getD]
  · rw [List.getElem?_eq_none (by simp; omega), List.getElem?_eq_none]
    rw [List.length_insertIdx_of_le_length (by omega)]; omega

theorem transpose_shape (shape : List Nat) {a : Nat} (ha : a < shape.length) :
    ((a :: (List.range shape.length).eraseIdx a).map fun k => shape.getD k 0) =
      shape[a] :: shape.eraseIdx a := by
  simp only [List.map_cons]
  congr 1
  · simp [List.getD_eq_getElem?_getD, ha]
  · rw [← List.eraseIdx_map]
    congr 1
    apply List.ext_getElem?
    intro i
    by_cases hi : i < shape.length <;> simp [hi, List.getD_eq_getElem?_getD]

theorem prod_eraseIdx (shape : List Nat) {a : Nat} (ha : a < shape.length) :
    shape[a] * (shape.eraseIdx a).prod = shape.prod := by
  have hp := List.getElem_cons_eraseIdx_perm (l := shape) (n := a) ha
  rw [← hp.prod_eq, List.prod_cons]

/-- `as2d` for a normalised axis -/
theorem as2d_core (arr : NdArr α) {a : Nat} (ha : a < arr.ndim) (hs : arr.size ≠ 0) :
    (arr.transpose (a :: (List.range arr.ndim).eraseIdx a)).reshape2 (arr.shape.getD a 0) (arr.size / arr.shape.getD a 0)
      = ⟨(List.range (arr.shape.getD a 0)).map fun i =>
          (indices (arr.shape.eraseIdx a)).map fun r => arr.get (r.insertIdx a i), (arr.shape.eraseIdx a).prod⟩ := by
  have ha' : a < arr.shape.length := ha
  have hg : arr.shape.getD a 0 = arr.shape[a] := by simp [List.getD_eq_getElem?_getD, ha']
  have hprod := prod_eraseIdx arr.shape ha'
  have hpos : 0 < arr.shape[a] := by
    rcases Nat.eq_zero_or_pos arr.shape[a] with h | h
    · exfalso; apply hs; rw [NdArr.size, ← hprod, h, Nat.zero_mul]
    · exact h
  have hdiv : arr.size / arr.shape[a] = (arr.shape.eraseIdx a).prod := by
    rw [NdArr.size, ← hprod, Nat.mul_div_cancel_left _ hpos]
  rw [NdArr.reshape2, hg, hdiv]
  congr 1
  simp only [NdArr.ravel, NdArr.transpose, NdArr.ndim]
  rw [transpose_shape arr.shape ha']
  simp only [indices, List.map_flatMap]
  have := chunks_flatMap (fun i => List.map
      (fun idx => arr.get (List.map (fun j => idx.getD (List.idxOf j (a :: (List.range arr.shape.length).eraseIdx a)) 0)
              (List.range arr.shape.length))) (List.map (fun x => i :: x) (indices (arr.shape.eraseIdx a))))
      (arr.shape.eraseIdx a).prod (List.range arr.shape[a]) (by
        intro i _
        simp [length_indices])
  rw [List.length_range] at this
  rw [this]
  apply List.map_congr_left
  intro i _
  rw [List.map_map]
  apply List.map_congr_left
  intro r hr
  have hrl := indices_length hr
  rw [List.length_eraseIdx_of_lt ha'] at hrl
  simp only [Function.comp]
  rw [transpose_idx ha' (by omega)]

theorem popFront_ok {n a : Nat} {i : Int} (h : normIdx n i = some a) :
    popFront n i = .ok (a, a :: (List.range n).eraseIdx a) := by
  simp [popFront, h]

end Verif.Model
