import Verif.Spec.Curve
import Verif.Lemmas.Array
import Verif.Lemmas.Insert

namespace Verif.Model

open Verif Verif.Np Verif.Spec

variable {α : Type} [Elem α]

theorem cast_cast (d : DType) (x : α) : d.cast (d.cast x) = d.cast x := by
  cases d <;> simp [DType.cast, Elem.trunc_trunc]

theorem cast_zero (d : DType) : d.cast (Elem.zero : α) = Elem.zero := by
  cases d <;> simp [DType.cast, Elem.trunc_zero]

/-- rectangular output of as2d, whatever the axis -/
theorem as2d_rect {arr : NdArr α} {axis : Int} {raw : Arr2 α} (h : as2d arr axis = .ok raw) :
    (arr.size = 0 ∧ raw = ⟨[], 2⟩) ∨
    (arr.size ≠ 0 ∧ ∃ a, a < arr.ndim ∧ raw.rows.length = arr.shape.getD a 0 ∧
      raw.ncols = (arr.shape.eraseIdx a).prod ∧ (∀ r ∈ raw.rows, r.length = raw.ncols)) := by
  unfold as2d at h
  split at h
  · rename_i h0; left; simp at h; exact ⟨h0, h.symm⟩
  · rename_i hs
    right; refine ⟨hs, ?_⟩
    generalize (if axis < 0 then (arr.ndim : Int) + axis else axis) = ax at h
    simp only at h
    split at h
    · simp at h
    · rename_i hax
      unfold popFront at h
      cases hn : normIdx arr.ndim ax with
      | none => simp [hn] at h
      | some a =>
        simp only [hn, Except.ok.injEq] at h
        have ha := normIdx_lt hn
        rw [as2d_core arr ha hs] at h
        subst h
        refine ⟨a, ha, by simp, rfl, ?_⟩
        intro r hr
        simp only [List.mem_map] at hr
        obtain ⟨i, _, rfl⟩ := hr
        simp [length_indices]

theorem ofRows_rows (d : α) (rows : List (List α)) (n : Nat) (hr : ∀ r ∈ rows, r.length = n) :
    ((List.range rows.length).map fun i => (indices [n]).map fun r => (NdArr.ofRows d rows n).get (r.insertIdx 0 i)) = rows := by
  apply List.ext_getElem?
  intro i
  by_cases hi : i < rows.length
  · rw [List.getElem?_map, List.getElem?_range hi, Option.map_some, List.getElem?_eq_getElem hi]
    congr 1
    have hl := hr rows[i] (List.getElem_mem _)
    apply List.ext_getElem?
    intro j
    simp only [indices, List.map_cons, List.map_nil, List.flatMap_singleton, List.insertIdx_zero, NdArr.ofRows,
      List.map_map]
    by_cases hj : j < n
    · have : j < rows[i].length := by omega
      rw [show List.flatMap (fun i => [[i]]) (List.range n) = (List.range n).map fun i => [i] from
        List.flatMap_pure_eq_map (fun i => [i]) (List.range n)]
      simp [hj, this, hi, List.getD_eq_getElem?_getD]
    · have : ¬ j < rows[i].length := by omega
      rw [List.getElem?_eq_none (by simpa using hj), List.getElem?_eq_none (by omega)]
  · rw [List.getElem?_eq_none (by simpa using hi), List.getElem?_eq_none (by omega)]

theorem as2d_ofRows (d : α) (rows : List (List α)) (n : Nat) (hr : ∀ r ∈ rows, r.length = n) :
    as2d (NdArr.ofRows d rows n) 0 = .ok (if rows.length * n = 0 then ⟨[], 2⟩ else ⟨rows, n⟩) := by
  have hsz : (NdArr.ofRows d rows n).size = rows.length * n := by simp [NdArr.size, NdArr.ofRows]
  unfold as2d
  rw [hsz]
  split
  · rfl
  · rename_i h
    have hnd : (NdArr.ofRows d rows n).ndim = 2 := rfl
    have h0 : (0 : Nat) < (NdArr.ofRows d rows n).ndim := by rw [hnd]; omega
    simp only [hnd]
    rw [if_neg (by simp), if_neg (by simp)]
    rw [popFront_ok (a := 0) (by decide)]
    simp only
    congr 1
    have := as2d_core (NdArr.ofRows d rows n) h0 (by rw [hsz]; exact h)
    rw [hnd, hsz] at this
    rw [this]
    have e := ofRows_rows d rows n hr
    simp only [NdArr.ofRows, List.getD_cons_zero, List.eraseIdx_zero, List.tail_cons, List.prod_cons, List.prod_nil, Nat.mul_one] at e ⊢
    rw [e]

/-- the tail of `finish` when nothing is padded -/
def tcheck (rows : List (List α)) (n : Nat) (dt : DType) (t : Option (List α)) : Except PyErr (Curve α) :=
  match t with
  | none => .ok ⟨rows, n, none, dt⟩
  | some t => if t.length ≠ rows.length then .error .valueError else .ok ⟨rows, n, some t, dt⟩

theorem tcheck_ok {rows : List (List α)} {n : Nat} {dt : DType} {t : Option (List α)} {c : Curve α} :
    tcheck rows n dt t = .ok c ↔ c = ⟨rows, n, t, dt⟩ ∧ ∀ s, t = some s → s.length = rows.length := by
  unfold tcheck
  cases t with
  | none => simp [eq_comm]
  | some s =>
    simp only
    split
    · rename_i h; simp only [reduceCtorEq, false_iff, not_and]; intro _ h'; exact h (h' s rfl)
    · rename_i h
      simp only [Except.ok.injEq, Option.some.injEq, forall_eq']
      constructor
      · intro e; exact ⟨e.symm, by simpa using h⟩
      · intro e; exact e.1.symm

/-- what `Curve(array2d, tdata)` does, for a rectangular array -/
theorem ofRows_eq (rows : List (List α)) (n : Nat) (dt : DType) (t : Option (List α))
    (hr : ∀ r ∈ rows, r.length = n) :
    Curve.ofRows rows n dt t =
      if rows.length * n = 0 then tcheck [] 2 dt t
      else if n < 2 then .error .valueError
      else tcheck (rows.map fun r => r.map dt.cast) n dt t := by
  have hmain := as2d_ofRows Elem.zero rows n hr
  unfold Curve.ofRows Curve.init
  simp only [Option.getD_none, Option.isSome_none, hmain]
  rw [if_neg (by decide)]
  split
  · rename_i h
    simp [Curve.finish, tcheck]
    cases t <;> rfl
  · rename_i h
    have h1 : rows.length ≠ 0 := by intro e; apply h; simp [e]
    have h2 : n ≠ 0 := by intro e; apply h; simp [e]
    have hpos : rows.length * n > 0 := Nat.pos_of_ne_zero h
    simp only [Curve.finish, List.length_map]
    have hb : (rows.length * n == 0) = false := by simpa using h
    rw [hb]
    simp only [Bool.false_eq_true, if_false, false_and, List.length_map]
    by_cases hn : n < 2
    · simp [hn, hpos]
    · simp only [hn, if_false, and_false]
      cases t <;> simp [tcheck]

theorem map_cast_id {rows : List (List α)} {dt : DType} (h : ∀ r ∈ rows, ∀ x ∈ r, dt.cast x = x) :
    (rows.map fun r => r.map dt.cast) = rows := by
  conv_rhs => rw [← List.map_id rows]
  apply List.map_congr_left
  intro r hr
  conv_rhs => rw [id, ← List.map_id r]
  apply List.map_congr_left
  intro x hx
  simpa using h r hr x hx

/-- `Curve(array2d, tdata)` for rows that are fine already -/
theorem ofRows_ok {rows : List (List α)} {n : Nat} {dt : DType} {t : Option (List α)}
    (hn : 2 ≤ n) (hr : ∀ r ∈ rows, r.length = n) (hc : ∀ r ∈ rows, ∀ x ∈ r, dt.cast x = x)
    (ht : ∀ s, t = some s → s.length = rows.length) :
    Curve.ofRows rows n dt t = .ok ⟨rows, if rows = [] then 2 else n, t, dt⟩ := by
  rw [ofRows_eq rows n dt t hr]
  by_cases h : rows = []
  · subst h
    simp only [List.length_nil, Nat.zero_mul, if_true, tcheck_ok, true_and]
    exact ht
  · have h1 : rows.length ≠ 0 := by simpa using h
    have h2 : rows.length * n ≠ 0 := Nat.mul_ne_zero h1 (by omega)
    rw [if_neg h2, if_neg (by omega), map_cast_id hc, tcheck_ok]
    simp [h]; exact ht

theorem tcheck_WF {rows : List (List α)} {n : Nat} {dt : DType} {t : Option (List α)} {c : Curve α}
    (h : tcheck rows n dt t = .ok c) (hn : 2 ≤ n) (hr : ∀ r ∈ rows, r.length = n)
    (hc : ∀ r ∈ rows, ∀ x ∈ r, dt.cast x = x) : WF c := by
  obtain ⟨rfl, ht⟩ := tcheck_ok.1 h
  exact ⟨hn, hr, ht, hc⟩

theorem mem_map_cast {rows : List (List α)} {dt : DType} {r : List α} {x : α}
    (hr : r ∈ rows.map fun r => r.map dt.cast) (hx : x ∈ r) : dt.cast x = x := by
  simp only [List.mem_map] at hr
  obtain ⟨r', _, rfl⟩ := hr
  simp only [List.mem_map] at hx
  obtain ⟨y, _, rfl⟩ := hx
  exact cast_cast _ _

/-- everything `finish` accepts is well formed -/
theorem finish_WF {raw : Arr2 α} {dt : DType} {t : Option (List α)} {b : Bool} {k : Nat} {c : Curve α}
    (h : Curve.finish raw dt t b k = .ok c) (hr : ∀ r ∈ raw.rows, r.length = raw.ncols) (hk : 2 ≤ k) : WF c := by
  have key : ∃ rows n, tcheck rows n dt t = .ok c ∧ 2 ≤ n ∧ (∀ r ∈ rows, r.length = n) ∧
      (∀ r ∈ rows, ∀ x ∈ r, dt.cast x = x) := by
    unfold Curve.finish at h
    simp only [List.length_map] at h
    by_cases he : raw.rows.length * raw.ncols = 0
    · refine ⟨[], k, ?_, hk, by simp, by simp⟩
      simp [he] at h
      rw [← h]; cases t <;> simp [tcheck]
    · have hb : (raw.rows.length * raw.ncols == 0) = false := by simpa using he
      rw [hb] at h
      simp only [Bool.false_eq_true, if_false, List.length_map] at h
      split at h
      · simp at h
      · rename_i hnot
        have hn2 : 2 ≤ raw.ncols := by
          by_contra hlt
          exact hnot ⟨Nat.pos_of_ne_zero he, by omega⟩
        by_cases hp : (b = true ∧ raw.rows.length > 0 ∧ raw.ncols < k)
        · simp only [hp, and_self, if_true] at h
          refine ⟨(raw.rows.map fun r => r.map dt.cast).map
              (fun r => r ++ List.replicate (k - raw.ncols) (dt.cast Elem.zero)), k, ?_, hk, ?_, ?_⟩
          · rw [← h]; cases t <;> rfl
          · intro r hr'
            simp only [List.mem_map] at hr'
            obtain ⟨_, ⟨r1, hr1, rfl⟩, rfl⟩ := hr'
            have := hr r1 hr1
            simp; omega
          · intro r hr' x hx
            simp only [List.mem_map] at hr'
            obtain ⟨_, ⟨r1, hr1, rfl⟩, rfl⟩ := hr'
            simp only [List.mem_append, List.mem_map, List.mem_replicate] at hx
            rcases hx with ⟨y, _, rfl⟩ | ⟨_, rfl⟩ <;> exact cast_cast _ _
        · simp only [hp, if_false] at h
          refine ⟨raw.rows.map fun r => r.map dt.cast, raw.ncols, ?_, hn2, ?_, ?_⟩
          · rw [← h]; cases t <;> rfl
          · intro r hr'
            simp only [List.mem_map] at hr'
            obtain ⟨r1, hr1, rfl⟩ := hr'
            simp [hr r1 hr1]
          · intro r hr' x hx
            exact mem_map_cast hr' hx
  obtain ⟨rows, n, h1, h2, h3, h4⟩ := key
  exact tcheck_WF h1 h2 h3 h4

/-- every curve the constructor returns is well formed -/
theorem init_WF {data : CurveData α} {t : Option (List α)} {axis ndmin : Option Int} {dt : Option DType}
    {c : Curve α} (h : Curve.init data t axis ndmin dt = .ok c) : WF c := by
  unfold Curve.init at h
  simp only at h
  split at h
  · simp at h
  · rename_i hnd
    have hk : 2 ≤ (ndmin.getD 2).toNat := by omega
    have gen : ∀ (arr : NdArr α) ax (dt' : DType) (t' : Option (List α)),
        (match as2d arr ax with
          | .error e => .error e
          | .ok raw => Curve.finish raw dt' t' ndmin.isSome (ndmin.getD 2).toNat) = Except.ok c → WF c := by
      intro arr ax dt' t' hh
      cases ha : as2d arr ax with
      | error e => simp [ha] at hh
      | ok raw =>
        simp only [ha] at hh
        refine finish_WF hh ?_ hk
        rcases as2d_rect ha with ⟨_, rfl⟩ | ⟨_, a, _, _, _, h⟩
        · simp
        · exact h
    cases data with
    | curve c' => exact gen _ _ _ _ h
    | arr a d => exact gen _ _ _ _ h
    | seq xs => exact gen _ _ _ _ h

end Verif.Model
