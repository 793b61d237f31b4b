import Verif.Model.History
import Verif.Model.Num
import Verif.Lemmas.Select

/-!
Construction and well-formedness: C01, C02, C03, C04 (shape part), C05, C75.
-/
namespace Verif.Props

open Verif Verif.Np Verif.Model Verif.Spec

variable {α : Type} [Elem α]

/-! ## C01 -/

theorem ofRows_WF {rows : List (List α)} {n : Nat} {dt : DType} {t : Option (List α)} {c : Curve α}
    (h : Curve.ofRows rows n dt t = .ok c) : WF c := init_WF h

theorem getSub_WF {c c' : Curve α} {ix : Indexer} (h : c.getSub ix = .ok c') : WF c' := by
  unfold Curve.getSub at h
  split at h <;> repeat' split at h
  all_goals first | exact ofRows_WF h | simp at h

theorem delete_WF {c c' : Curve α} {ix : Obj} (h : c.delete ix = .ok c') : WF c' := by
  unfold Curve.delete at h
  split at h <;> repeat' split at h
  all_goals first | exact ofRows_WF h | simp at h

theorem insert_WF {c c' : Curve α} {ix : Obj} {o : PointOrCurve α} (h : c.insert ix o = .ok c') : WF c' := by
  unfold Curve.insert at h
  repeat' split at h
  all_goals first | exact ofRows_WF h | simp at h

theorem add_WF {c c' o : Curve α} (h : c.add o = .ok c') : WF c' := by
  unfold Curve.add at h
  split at h
  · simp at h
  · exact ofRows_WF h

theorem insertdim_WF {c c' : Curve α} {a : Int} {v : Option (List α)} (h : c.insertdim a v = .ok c') : WF c' := by
  unfold Curve.insertdim at h
  simp only at h
  repeat' split at h
  all_goals first | exact ofRows_WF h | simp at h

theorem deletedim_WF {c c' : Curve α} {a : Obj} (h : c.deletedim a = .ok c') : WF c' := by
  unfold Curve.deletedim at h
  repeat' split at h
  all_goals first | exact ofRows_WF h | simp at h

theorem drop_WF {c c' : Curve α} {f : List (List α) → DropRes} (h : c.drop f = .ok c') : WF c' := by
  unfold Curve.drop at h
  simp only at h
  repeat' split at h
  all_goals first | exact ofRows_WF h | exact delete_WF h | simp at h

variable [LE α] [DecidableLE α] [DecidableEq α]

/-- One call on any curve returns a well formed curve or raises. -/
theorem C01_step {o : Op α} {c c' : Curve α} (h : o.step c = .ok c') : WF c' := by
  cases o with
  | getSub ix => exact getSub_WF h
  | addR o => exact add_WF h
  | addL o => exact add_WF h
  | copy => simp only [Op.step, Curve.copy] at h; exact init_WF h
  | rebuild k d => simp only [Op.step] at h; exact init_WF h
  | reverse => exact ofRows_WF h
  | insert ix o => exact insert_WF h
  | append o => exact insert_WF h
  | delete ix => exact delete_WF h
  | insertdim a v => exact insertdim_WF h
  | appenddim v => exact insertdim_WF h
  | deletedim a => exact deletedim_WF h
  | unique => exact ofRows_WF h
  | drop f => exact drop_WF h
  | subcurve i j e =>
    simp only [Op.step] at h
    split at h
    · unfold CurvePoint.subcurve at h
      split at h
      · simp at h
      · exact getSub_WF h
    · simp at h
    · simp at h

/-- **C01.** Whatever the constructor is given, and whatever calls follow with whatever arguments: a
curve that comes out is well formed. -/
theorem C01_wellformed {data : CurveData α} {t : Option (List α)} {axis ndmin : Option Int}
    {dt : Option DType} {ops : List (Op α)} {c c' : Curve α}
    (hi : Curve.init data t axis ndmin dt = .ok c) (hr : run ops c = .ok c') : WF c' := by
  have hc := init_WF hi
  clear hi
  induction ops generalizing c with
  | nil => simp [run] at hr; subst hr; exact hc
  | cons o os ih =>
    simp only [run] at hr
    cases ho : o.step c with
    | error e => simp [ho] at hr
    | ok c1 => simp only [ho] at hr; exact ih hr (C01_step ho)

omit [LE α] [DecidableLE α] [DecidableEq α]

/-! ## C02 -/

theorem as2d_axis1 (d : α) (xs : List (List α)) (m : Nat) (hr : ∀ r ∈ xs, r.length = m)
    (hx : xs.length ≠ 0) (hm : m ≠ 0) :
    as2d (NdArr.ofRows d xs m) 1 =
      .ok ⟨(List.range m).map fun j => xs.map fun x => x.getD j d, xs.length⟩ := by
  have hsz : (NdArr.ofRows d xs m).size = xs.length * m := by simp [NdArr.size, NdArr.ofRows]
  have hs : (NdArr.ofRows d xs m).size ≠ 0 := by rw [hsz]; exact Nat.mul_ne_zero hx hm
  have hnd : (NdArr.ofRows d xs m).ndim = 2 := rfl
  unfold as2d
  rw [if_neg hs]
  simp only [hnd]
  rw [if_neg (by decide), if_neg (by decide), popFront_ok (a := 1) (by decide)]
  simp only
  congr 1
  have := as2d_core (NdArr.ofRows d xs m) (a := 1) (by rw [hnd]; omega) hs
  rw [hnd] at this
  rw [this]
  simp only [NdArr.ofRows, List.getD_cons_succ, List.getD_cons_zero, List.eraseIdx_cons_succ, List.eraseIdx_zero,
    List.tail_cons, List.prod_cons, List.prod_nil, Nat.mul_one]
  congr 1
  apply List.map_congr_left
  intro j hj
  have hj := List.mem_range.1 hj
  apply List.ext_getElem?
  intro i
  simp only [indices, List.map_cons, List.map_nil, List.map_map]
  rw [show List.flatMap (fun i => [[i]]) (List.range xs.length) = (List.range xs.length).map fun i => [i] from
        List.flatMap_pure_eq_map (fun i => [i]) (List.range xs.length)]
  by_cases hi : i < xs.length
  · simp [hi, List.getD_eq_getElem?_getD]
  · simp [hi]

theorem values_ok (c : Curve α) (a : Int) (k : Nat) (h : IsPos c.ndim a k) :
    c.values a = .ok (c.rows.map fun r => r.getD k Elem.zero) := by
  obtain ⟨h1, h2⟩ := h
  unfold Curve.values
  have h3 : normIdx c.ncols a = some k := normIdx_eq_some.2 ⟨h1, h2⟩
  rw [if_neg (by omega), h3]

theorem values_ge (c : Curve α) (a : Int) (h : (c.ndim : Int) ≤ a) : c.values a = .error .valueError := by
  unfold Curve.values
  rw [if_pos (by omega)]

/-- **C02.** The constructor applied to `n >= 2` coordinate vectors of one length `m >= 1`: sizes,
points, and `values` along every axis, counted from either end; axes `>= n` are rejected. -/
theorem C02_coords (xs : List (List α)) (m : Nat) (hn : 2 ≤ xs.length) (hm : 1 ≤ m)
    (hlen : ∀ x ∈ xs, x.length = m) :
    ∃ c, Curve.init (.seq xs) none none none none = .ok c ∧ c.size = m ∧ c.ndim = xs.length ∧
      (∀ i (hi : i < xs.length), c.values i = .ok xs[i]) ∧
      (∀ i (hi : i < xs.length), c.values ((i : Int) - xs.length) = .ok xs[i]) ∧
      (∀ j, j < m → ∀ i (hi : i < xs.length), (c.rows[j]?).bind (·[i]?) = (xs[i])[j]?) ∧
      (∀ a : Int, xs.length ≤ a → c.values a = .error .valueError) := by
  have hx0 : xs.length ≠ 0 := by omega
  have harr : asarray xs = NdArr.ofRows Elem.zero xs m := by
    match xs, hx0 with
    | x :: xs', _ =>
      have hx := hlen x (by simp)
      simp only [asarray]
      rw [if_pos, hx]
      rw [List.all_eq_true]
      intro y hy
      simp [hlen y hy, hx]
  set rows := (List.range m).map fun j => xs.map fun x => x.getD j Elem.zero with hrows
  have hrl : ∀ r ∈ rows, r.length = xs.length := by
    intro r hr; simp only [hrows, List.mem_map] at hr; obtain ⟨j, _, rfl⟩ := hr; simp
  have hrn : rows.length = m := by simp [hrows]
  have hc : Curve.init (.seq xs) none none none none = .ok ⟨rows, xs.length, none, .float⟩ := by
    have h1 := ofRows_ok (rows := rows) (n := xs.length) (dt := .float) (t := none) hn hrl
      (by intro r _ x _; rfl) (by simp)
    have hne : rows ≠ [] := by intro e; rw [e] at hrn; simp at hrn; omega
    rw [if_neg hne] at h1
    rw [← h1]
    unfold Curve.ofRows Curve.init
    simp only [Option.getD_none, Option.isSome_none]
    rw [harr, as2d_axis1 _ _ _ hlen hx0 (by omega), as2d_ofRows _ _ _ hrl]
    rw [if_neg (Nat.mul_ne_zero (by omega) hx0)]
  refine ⟨_, hc, hrn, rfl, ?_, ?_, ?_, ?_⟩
  · intro i hi
    rw [values_ok ⟨rows, xs.length, none, .float⟩ _ i ⟨hi, by left; rfl⟩]
    congr 1
    have hxi := hlen xs[i] (List.getElem_mem _)
    apply List.ext_getElem?
    intro j
    by_cases hj : j < m
    · have : j < xs[i].length := by omega
      simp [hrows, hj, hi, this, List.getD_eq_getElem?_getD]
    · rw [List.getElem?_eq_none (by simp [hrn]; omega), List.getElem?_eq_none (by omega)]
  · intro i hi
    rw [values_ok ⟨rows, xs.length, none, .float⟩ _ i ⟨hi, by right; simp [Curve.ndim]⟩]
    congr 1
    have hxi := hlen xs[i] (List.getElem_mem _)
    apply List.ext_getElem?
    intro j
    by_cases hj : j < m
    · have : j < xs[i].length := by omega
      simp [hrows, hj, hi, this, List.getD_eq_getElem?_getD]
    · rw [List.getElem?_eq_none (by simp [hrn]; omega), List.getElem?_eq_none (by omega)]
  · intro j hj i hi
    have : j < xs[i].length := by rw [hlen _ (List.getElem_mem _)]; exact hj
    simp [hrows, hj, hi, this, List.getD_eq_getElem?_getD]
  · intro a ha
    exact values_ge _ _ ha

/-- **C02 (rejection).** Coordinate vectors of different lengths are a ValueError. -/
theorem C02_ragged (xs : List (List α)) (x y : List α) (hx : x ∈ xs) (hy : y ∈ xs)
    (hne : x.length ≠ y.length) : Curve.init (.seq xs) none none none none = .error .valueError := by
  have h0 : xs.length ≠ 0 := by intro e; rw [List.length_eq_zero_iff] at e; simp [e] at hx
  have harr : (asarray xs).shape = [xs.length] := by
    match xs, h0 with
    | z :: zs, _ =>
      simp only [asarray]
      rw [if_neg]
      rw [List.all_eq_true]
      intro h
      have h1 := h x hx
      have h2 := h y hy
      simp at h1 h2
      omega
  unfold Curve.init
  simp only [Option.getD_none]
  rw [if_neg (by decide)]
  unfold as2d
  have hs : (asarray xs).size ≠ 0 := by simp [NdArr.size, harr]; simpa using h0
  rw [if_neg hs]
  have hnd : (asarray xs).ndim = 1 := by simp [NdArr.ndim, harr]
  simp [hnd]

/-! ## C03 -/

theorem mem_indices {ks idx : List Nat} : idx ∈ indices ks ↔ List.Forall₂ (· < ·) idx ks := by
  induction ks generalizing idx with
  | nil => simp [indices, List.forall₂_nil_right_iff]
  | cons k ks ih =>
    simp only [indices, List.mem_flatMap, List.mem_map, List.mem_range]
    constructor
    · rintro ⟨i, hi, r, hr, rfl⟩; exact .cons hi (ih.1 hr)
    · intro h
      cases h with
      | cons h1 h2 => exact ⟨_, h1, _, ih.2 h2, rfl⟩

theorem nodup_indices (ks : List Nat) : (indices ks).Nodup := by
  induction ks with
  | nil => simp [indices]
  | cons k ks ih =>
    simp only [indices]
    rw [List.nodup_flatMap]
    refine ⟨fun i _ => ih.map (fun a b h => by simpa using h), ?_⟩
    refine List.Pairwise.imp ?_ List.nodup_range
    intro a b hab
    simp only [Function.onFun, List.Disjoint, List.mem_map]
    rintro x ⟨r, _, rfl⟩ ⟨r', _, h⟩
    simp at h; exact hab h.1.symm

/-- **C03 (content).** For a non-empty array of any rank and an axis in range (negative ones counted
from the end): row `i` of the result lists the elements whose index on that axis is `i`, in C order of
the remaining axes; and all rows together list every element of the array exactly once. -/
theorem C03_as2d (arr : NdArr α) (axis : Int) (a : Nat) (hpos : IsPos arr.ndim axis a) (hs : arr.size ≠ 0) :
    ∃ raw, as2d arr axis = .ok raw ∧
      raw.rows = (List.range (arr.shape.getD a 0)).map (fun i =>
        (indices (arr.shape.eraseIdx a)).map fun r => arr.get (r.insertIdx a i)) ∧
      raw.ncols = (arr.shape.eraseIdx a).prod ∧
      raw.rows.flatten.Perm arr.ravel := by
  obtain ⟨ha, hax⟩ := hpos
  have hax' : (if axis < 0 then (arr.ndim : Int) + axis else axis) = a := by split <;> omega
  have hr : as2d arr axis = .ok ⟨(List.range (arr.shape.getD a 0)).map fun i =>
          (indices (arr.shape.eraseIdx a)).map fun r => arr.get (r.insertIdx a i), (arr.shape.eraseIdx a).prod⟩ := by
    unfold as2d
    rw [if_neg hs]
    simp only [hax']
    rw [if_neg (by omega), popFront_ok (a := a) (normIdx_eq_some.2 ⟨ha, by left; rfl⟩)]
    simp only
    rw [as2d_core arr ha hs]
  refine ⟨_, hr, rfl, rfl, ?_⟩
  have ha' : a < arr.shape.length := ha
  have hg : arr.shape.getD a 0 = arr.shape[a] := by simp [List.getD_eq_getElem?_getD, ha']
  simp only [NdArr.ravel, hg]
  have e : ((List.range arr.shape[a]).map fun i => (indices (arr.shape.eraseIdx a)).map fun r => arr.get (r.insertIdx a i)).flatten
      = ((List.range arr.shape[a]).flatMap fun i => (indices (arr.shape.eraseIdx a)).map fun r => r.insertIdx a i).map arr.get := by
    simp [List.flatMap, List.map_flatten, Function.comp_def]
  rw [e]
  apply List.Perm.map
  rw [List.perm_ext_iff_of_nodup]
  · intro idx
    rw [mem_indices]
    simp only [List.mem_flatMap, List.mem_range, List.mem_map, mem_indices]
    constructor
    · rintro ⟨i, hi, r, hr, rfl⟩
      have hl := hr.length_eq
      rw [List.length_eraseIdx_of_lt ha'] at hl
      rw [List.forall₂_iff_get]
      refine ⟨by rw [List.length_insertIdx_of_le_length (by omega)]; omega, ?_⟩
      intro j h1 h2
      rw [List.forall₂_iff_get] at hr
      simp only [List.get_eq_getElem] at hr ⊢
      rw [List.getElem_insertIdx]
      split
      · rename_i hja
        have := hr.2 j (by omega) (by rw [List.length_eraseIdx_of_lt ha']; omega)
        rwa [List.getElem_eraseIdx_of_lt _ hja] at this
      · split
        · rename_i h3; subst h3; exact hi
        · have := hr.2 (j - 1) (by omega) (by rw [List.length_eraseIdx_of_lt ha']; omega)
          rw [List.getElem_eraseIdx_of_ge _ (by omega)] at this
          convert this using 2; omega
    · intro h
      have hl := h.length_eq
      have hai : a < idx.length := by omega
      refine ⟨idx[a], ?_, idx.eraseIdx a, ?_, ?_⟩
      · have := (List.forall₂_iff_get.1 h).2 a hai ha'
        simpa using this
      · rw [List.forall₂_iff_get] at h ⊢
        refine ⟨by rw [List.length_eraseIdx_of_lt ha', List.length_eraseIdx_of_lt hai]; omega, ?_⟩
        intro j h1 h2
        rw [List.length_eraseIdx_of_lt hai] at h1
        simp only [List.get_eq_getElem] at h ⊢
        rw [List.getElem_eraseIdx, List.getElem_eraseIdx]
        split
        · exact h.2 j (by omega) (by omega)
        · exact h.2 (j + 1) (by omega) (by omega)
      · exact List.insertIdx_eraseIdx_getElem hai
  · rw [List.nodup_flatMap]
    constructor
    · intro i _
      refine List.Nodup.map_on ?_ (nodup_indices _)
      intro x hx y hy h
      have h1 := indices_length hx
      have h2 := indices_length hy
      rw [List.length_eraseIdx_of_lt ha'] at h1 h2
      have := congrArg (fun l => List.eraseIdx l a) h
      simpa [List.eraseIdx_insertIdx_self] using this
    · refine List.Pairwise.imp ?_ List.nodup_range
      intro i j hij
      simp only [Function.onFun, List.Disjoint, List.mem_map]
      rintro x ⟨r, hr, rfl⟩ ⟨r', hr', h⟩
      have h1 := indices_length hr
      have h2 := indices_length hr'
      rw [List.length_eraseIdx_of_lt ha'] at h1 h2
      have := congrArg (fun l => l[a]?) h
      simp only [List.getElem?_insertIdx_self] at this
      rw [if_pos (by omega), if_pos (by omega)] at this
      simp at this; exact hij this.symm
  · exact nodup_indices _

/-- **C03 (rejection, upper side).** -/
theorem C03_reject (arr : NdArr α) (axis : Int) (hs : arr.size ≠ 0) (h : (arr.ndim : Int) ≤ axis) :
    as2d arr axis = .error .valueError := by
  unfold as2d
  rw [if_neg hs]
  simp only
  have e1 : (if axis < 0 then (arr.ndim : Int) + axis else axis) = axis := by rw [if_neg (by omega)]
  rw [e1, if_pos (by omega)]

/-- **C03 violated below.** An axis smaller than `-rank` is not always rejected: a 2-D array is accepted
with axis -3 (and read along axis 1). -/
theorem C03_negative_axis_accepted :
    ∃ (arr : NdArr ℚ) (axis : Int), arr.size ≠ 0 ∧ axis < -(arr.ndim : Int) ∧ okB (as2d arr axis) = true :=
  ⟨NdArr.ofRows 0 [[1, 2], [3, 4]] 2, -3, by decide, by decide, by decide⟩

/-- **C03 (lower side, exact).** Below `-rank`: down to `-2*rank` the axis is accepted and means
`axis + 2*rank`; further below the error is IndexError, not ValueError. -/
theorem C03_negative_axis_partial (arr : NdArr α) (axis : Int) (hs : arr.size ≠ 0) (h : axis < -(arr.ndim : Int)) :
    (∀ a : Nat, a < arr.ndim → (a : Int) = axis + 2 * arr.ndim → as2d arr axis = as2d arr a) ∧
    (axis < -(2 * arr.ndim : Int) → as2d arr axis = .error .indexError) := by
  constructor
  · intro a ha e
    unfold as2d
    rw [if_neg hs, if_neg hs]
    simp only
    have e1 : (if axis < 0 then (arr.ndim : Int) + axis else axis) = (a : Int) - arr.ndim := by split <;> omega
    have e2 : (if (a : Int) < 0 then (arr.ndim : Int) + a else (a : Int)) = a := by rw [if_neg (by omega)]
    rw [e1, e2, if_neg (by omega), if_neg (by omega)]
    rw [popFront_ok (a := a) (normIdx_eq_some.2 ⟨ha, by right; omega⟩),
      popFront_ok (a := a) (normIdx_eq_some.2 ⟨ha, by left; rfl⟩)]
  · intro h2
    unfold as2d
    rw [if_neg hs]
    simp only
    have e1 : (if axis < 0 then (arr.ndim : Int) + axis else axis) = (arr.ndim : Int) + axis := by
      rw [if_pos (by omega)]
    rw [e1, if_neg (by omega)]
    have : normIdx arr.ndim ((arr.ndim : Int) + axis) = none := normIdx_eq_none.2 (by omega)
    simp [popFront, this]

/-! ## C04 (shape) -/

/-- **C04 (rejection).** `ndmin` below 2 is a ValueError, whatever the data. -/
theorem C04_reject (d : CurveData α) (t : Option (List α)) (axis : Option Int) (k : Int) (hk : k < 2) (dt : Option DType) :
    Curve.init d t axis (some k) dt = .error .valueError := by
  unfold Curve.init
  simp only [Option.getD_some]
  rw [if_pos hk]

/-- **C04.** `ndmin` pads with zero coordinates, keeps size and the given coordinates. -/
theorem C04_ndmin (rows : List (List α)) (n : Nat) (dt : DType) (k : Int) (hk : 2 ≤ k) (hn : 2 ≤ n)
    (hne : rows ≠ []) (hr : ∀ r ∈ rows, r.length = n) :
    ∃ c, Curve.init (.arr (NdArr.ofRows Elem.zero rows n) dt) none none (some k) none = .ok c ∧
      c.size = rows.length ∧ (c.ndim : Int) = max k n ∧
      c.rows = rows.map fun r => r.map dt.cast ++ List.replicate (k - n).toNat Elem.zero := by
  have hlen : rows.length ≠ 0 := by simpa using hne
  have hprod : rows.length * n ≠ 0 := Nat.mul_ne_zero hlen (by omega)
  unfold Curve.init
  simp only [Option.getD_some, Option.isSome_some, Option.getD_none]
  rw [if_neg (by omega), as2d_ofRows _ _ _ hr, if_neg hprod]
  simp only [Curve.finish, List.length_map]
  have hb : (rows.length * n == 0) = false := by simpa using hprod
  rw [hb]
  simp only [Bool.false_eq_true, if_false, List.length_map]
  rw [if_neg (by omega)]
  by_cases hp : n < k.toNat
  · have hp' : (true = true ∧ rows.length > 0 ∧ n < k.toNat) := ⟨rfl, by omega, hp⟩
    refine ⟨_, rfl, ?_, ?_, ?_⟩
    · simp [Curve.size, hp']
    · simp only [hp', and_self, if_true, Curve.ndim]; omega
    · simp only [hp', and_self, if_true, List.map_map]
      apply List.map_congr_left
      intro r _
      simp only [Function.comp, cast_zero]
      congr 2; omega
  · refine ⟨_, rfl, ?_, ?_, ?_⟩
    · simp [Curve.size, hp]
    · simp only [hp, and_false, if_false, Curve.ndim]; omega
    · simp only [hp, and_false, if_false]
      apply List.map_congr_left
      intro r _
      rw [show (k - n).toNat = 0 by omega]; simp

theorem finish_ndmin (raw : Arr2 α) (dt : DType) (t : Option (List α)) (k : Nat) (hk : 2 ≤ k) :
    (∀ e, Curve.finish raw dt t false 2 = .error e → Curve.finish raw dt t true k = .error e) ∧
    ∀ c0, Curve.finish raw dt t false 2 = .ok c0 → ∃ c, Curve.finish raw dt t true k = .ok c ∧ c.ncols = max k c0.ncols ∧
      c.tdata = c0.tdata ∧ c.dtype = c0.dtype ∧
      c.rows = c0.rows.map fun r => r ++ List.replicate (k - c0.ncols) Elem.zero := by
  simp only [Curve.finish, Bool.false_eq_true, false_and, if_false, true_and, cast_zero]
  generalize raw.rows.map (fun r => r.map dt.cast) = rows
  generalize raw.ncols = n
  cases hb : (rows.length * n == 0) with
  | true =>
    simp only [if_true, List.length_nil, Nat.zero_mul, gt_iff_lt, lt_irrefl, false_and, if_false]
    cases t with
    | none =>
      refine ⟨fun e h => by simp at h, fun c0 h => ⟨_, rfl, ?_⟩⟩
      simp only [Except.ok.injEq] at h
      subst h
      exact ⟨by simp only []; omega, rfl, rfl, rfl⟩
    | some t =>
      simp only
      by_cases ht : t.length ≠ 0
      · simp only [if_pos ht]
        exact ⟨fun e h => h, fun c0 h => by simp at h⟩
      · simp only [if_neg ht]
        refine ⟨fun e h => by simp at h, fun c0 h => ⟨_, rfl, ?_⟩⟩
        simp only [Except.ok.injEq] at h
        subst h
        exact ⟨by simp only []; omega, rfl, rfl, rfl⟩
  | false =>
    have hpos : rows.length * n ≠ 0 := by simpa using hb
    have hl : 0 < rows.length := by
      rcases Nat.eq_zero_or_pos rows.length with h | h
      · rw [h, Nat.zero_mul] at hpos; exact absurd rfl hpos
      · exact h
    simp only [Bool.false_eq_true, if_false]
    by_cases h2 : n < 2
    · rw [if_pos ⟨by omega, h2⟩, if_pos ⟨by omega, h2⟩]
      exact ⟨fun e h => h, fun c0 h => by simp at h⟩
    rw [if_neg (by omega), if_neg (by omega)]
    have key : ∀ t' : Option (List α), ∀ c0, (Except.ok ⟨rows, n, t', dt⟩ : Except PyErr (Curve α)) = .ok c0 →
        ∃ c, (Except.ok ⟨if rows.length > 0 ∧ n < k then rows.map (fun r => r ++ List.replicate (k - n) Elem.zero) else rows,
          if rows.length > 0 ∧ n < k then k else n, t', dt⟩ : Except PyErr (Curve α)) = .ok c ∧
        c.ncols = max k c0.ncols ∧ c.tdata = c0.tdata ∧ c.dtype = c0.dtype ∧
        c.rows = c0.rows.map fun r => r ++ List.replicate (k - c0.ncols) Elem.zero := by
      intro t' c0 h
      simp only [Except.ok.injEq] at h
      subst h
      refine ⟨_, rfl, ?_, rfl, rfl, ?_⟩
      · by_cases hn : n < k
        · simp only [hl, hn, and_self, if_true, gt_iff_lt]; omega
        · simp only [hn, and_false, if_false]; omega
      · by_cases hn : n < k
        · simp only [hl, hn, and_self, if_true, gt_iff_lt]
        · simp only [hn, and_false, if_false, show k - n = 0 by omega, List.replicate_zero, List.append_nil, List.map_id']
    have hlen : (if rows.length > 0 ∧ n < k then rows.map (fun r => r ++ List.replicate (k - n) Elem.zero) else rows).length =
        rows.length := by split <;> simp
    cases t with
    | none => exact ⟨fun e h => by simp at h, key none⟩
    | some t =>
      simp only [hlen]
      by_cases ht : t.length ≠ rows.length
      · simp only [if_pos ht]
        exact ⟨fun e h => h, fun c0 h => by simp at h⟩
      · simp only [if_neg ht]
        exact ⟨fun e h => by simp at h, key (some t)⟩

/-- **C04 (all data).** Whatever the data, the parameter, the axis and the dtype: `Curve(data, ..., ndmin=k)` fails exactly if `Curve(data, ...)`
does, with the same error; otherwise it has the same parameter, dtype and points, with zeros added up to dimension `k`. -/
theorem C04_any (d : CurveData α) (t : Option (List α)) (axis : Option Int) (dt : Option DType) (k : Int) (hk : 2 ≤ k) :
    (∀ e, Curve.init d t axis none dt = .error e → Curve.init d t axis (some k) dt = .error e) ∧
    ∀ c0, Curve.init d t axis none dt = .ok c0 → ∃ c, Curve.init d t axis (some k) dt = .ok c ∧ c.size = c0.size ∧
      (c.ndim : Int) = max k c0.ndim ∧ c.tdata = c0.tdata ∧ c.dtype = c0.dtype ∧
      c.rows = c0.rows.map fun r => r ++ List.replicate (k - c0.ndim).toNat Elem.zero := by
  have fin : ∀ (raw : Arr2 α) (dt : DType) (t : Option (List α)),
      (∀ e, Curve.finish raw dt t false 2 = .error e → Curve.finish raw dt t true k.toNat = .error e) ∧
      ∀ c0, Curve.finish raw dt t false 2 = .ok c0 → ∃ c, Curve.finish raw dt t true k.toNat = .ok c ∧ c.size = c0.size ∧
        (c.ndim : Int) = max k c0.ndim ∧ c.tdata = c0.tdata ∧ c.dtype = c0.dtype ∧
        c.rows = c0.rows.map fun r => r ++ List.replicate (k - c0.ndim).toNat Elem.zero := by
    intro raw dt t
    obtain ⟨h1, h2⟩ := finish_ndmin raw dt t k.toNat (by omega)
    refine ⟨h1, fun c0 h => ?_⟩
    obtain ⟨c, h3, h4, h5, h6, h7⟩ := h2 c0 h
    have he : (k - (c0.ndim : Int)).toNat = k.toNat - c0.ncols := by simp only [Curve.ndim]; omega
    refine ⟨c, h3, by simp [Curve.size, h7], by simp only [Curve.ndim, h4]; omega, h5, h6, by rw [h7, he]⟩
  unfold Curve.init
  simp only [Option.getD_some, Option.getD_none, Option.isSome_some, Option.isSome_none]
  rw [if_neg (by omega), if_neg (by omega)]
  cases d with
  | curve c =>
    simp only
    cases as2d (NdArr.ofRows Elem.zero c.rows c.ncols) 0 with
    | error e => exact ⟨fun _ h => h, fun c0 h => by simp at h⟩
    | ok raw => exact fin raw _ _
  | arr a dt' =>
    simp only
    cases as2d a (axis.getD 0) with
    | error e => exact ⟨fun _ h => h, fun c0 h => by simp at h⟩
    | ok raw => exact fin raw _ _
  | seq xs =>
    simp only
    cases as2d (asarray xs) (axis.getD 1) with
    | error e => exact ⟨fun _ h => h, fun c0 h => by simp at h⟩
    | ok raw => exact fin raw _ _

/-- a concrete case: two axis values -/
example : ∃ c0 c : Curve ℚ, Curve.init (.seq [[1, 2], [3, 4]]) (some [0, 1]) none none none = .ok c0 ∧ c0.rows = [[1, 3], [2, 4]] ∧
    Curve.init (.seq [[1, 2], [3, 4]]) (some [0, 1]) none (some 3) none = .ok c ∧ c.rows = [[1, 3, 0], [2, 4, 0]] :=
  ⟨_, _, rfl, rfl, rfl, rfl⟩

/-! ## C05 -/

/-- **C05 (partial).** Copying is the identity on every well formed curve except an empty curve of
dimension >= 3. Missing: exactly that case, see `C05_copy_loses_dimension`. -/
theorem C05_copy_partial {c : Curve α} (hc : WF c) (h : c.rows ≠ [] ∨ c.ndim = 2) : c.copy = .ok c := by
  rw [copy_eq hc]
  congr 1
  obtain ⟨rows, n, t, d⟩ := c
  simp only [Curve.ndim] at h ⊢
  split
  · rename_i h1
    rcases h with h | h
    · exact absurd h1 h
    · simp [h]
  · rfl

/-- In every case the points, parameters and dtype are those of the source. -/
theorem C05_copy_content {c : Curve α} (hc : WF c) :
    ∃ c', c.copy = .ok c' ∧ c'.rows = c.rows ∧ c'.tdata = c.tdata ∧ c'.dtype = c.dtype :=
  ⟨_, copy_eq hc, rfl, rfl, rfl⟩

/-- **C05 violated.** The constructor can return an empty 3-D curve whose copy is 2-dimensional. -/
theorem C05_copy_loses_dimension :
    ∃ c c' : Curve ℚ, Curve.init (.seq []) none none (some 3) none = .ok c ∧ c.copy = .ok c' ∧
      c.ndim = 3 ∧ c'.ndim = 2 :=
  ⟨⟨[], 3, none, .float⟩, ⟨[], 2, none, .float⟩, by decide, by decide, rfl, rfl⟩

/-! ## C75 -/

theorem finish_ok_dtype (raw : Arr2 α) (d d' : DType) (t : Option (List α)) (b : Bool) (k : Nat) :
    okB (Curve.finish raw d t b k) = okB (Curve.finish raw d' t b k) := by
  unfold Curve.finish
  simp only [apply_ite List.length, List.length_map]
  cases t <;> simp only [apply_ite okB] <;> rfl

/-- **C75 violated.** A non-numeric dtype is accepted by `Curve` and by `Point` whenever the same data is
accepted without it: the ValueError is constructed but never raised. -/
theorem C75_nonnumeric_dtype_accepted (xs : List (List α)) (t : Option (List α)) (axis ndmin : Option Int)
    (h : okB (Curve.init (.seq xs) t axis ndmin none) = true) :
    okB (Curve.init (.seq xs) t axis ndmin (some .obj)) = true ∧
      (∀ data : List α, (Point.init data (some .obj)).dtype = .obj) := by
  refine ⟨?_, fun _ => rfl⟩
  rw [← h]
  unfold Curve.init
  simp only [Option.getD_none, Option.getD_some]
  split
  · rfl
  · cases as2d (asarray xs) (axis.getD 1) with
    | error e => rfl
    | ok raw => exact finish_ok_dtype _ _ _ _ _ _

/-- What the dtype does in the second half of the constructor. -/
theorem finish_dtype (raw : Arr2 α) (d : DType) (hz : d.cast (Elem.zero : α) = Elem.zero) (t : Option (List α)) (b : Bool) (k : Nat) :
    Curve.finish raw d t b k = (Curve.finish raw .float t b k).map fun c => ⟨c.rows.map fun r => r.map d.cast, c.ncols, c.tdata, d⟩ := by
  have hf : ∀ x : α, DType.cast .float x = x := fun _ => rfl
  have hid : ∀ r : List α, r.map (DType.cast .float) = r := fun r => List.map_id _
  unfold Curve.finish
  simp only [List.length_map, hid, hf, hz, List.map_id']
  by_cases he : (raw.rows.length * raw.ncols == 0) = true
  · simp only [he, if_true, List.length_nil, Nat.zero_mul, Nat.lt_irrefl, gt_iff_lt, false_and, if_false, and_false]
    cases t with
    | none => rfl
    | some t =>
      simp only
      split_ifs <;> rfl
  · simp only [he, Bool.false_eq_true, if_false, List.length_map]
    split_ifs with h1 h2
    · rfl
    · cases t with
      | none => simp [Except.map, hz, Function.comp_def]
      | some t =>
        simp only [List.length_map]
        split_ifs
        · rfl
        · simp [Except.map, hz, Function.comp_def]
    · cases t with
      | none => rfl
      | some t =>
        simp only [List.length_map]
        split_ifs <;> rfl

/-- **C75 (numeric dtypes, partial).** A numeric dtype given to `Curve` has the expected effect: the same data is accepted
or rejected with the same error as without it, and the curve is the same up to the conversion of every coordinate.
So too for `Point`. Missing: a non-numeric dtype is not rejected (`C75_nonnumeric_dtype_accepted`). -/
theorem C75_numeric_partial (xs : List (List α)) (t : Option (List α)) (axis ndmin : Option Int) (d : DType)
    (hz : d.cast (Elem.zero : α) = Elem.zero) :
    (∀ e, Curve.init (.seq xs) t axis ndmin none = .error e → Curve.init (.seq xs) t axis ndmin (some d) = .error e) ∧
    (∀ c, Curve.init (.seq xs) t axis ndmin none = .ok c →
      ∃ c', Curve.init (.seq xs) t axis ndmin (some d) = .ok c' ∧ c'.dtype = d ∧ c'.tdata = c.tdata ∧ c'.ncols = c.ncols ∧
        c'.rows = c.rows.map fun r => r.map d.cast) ∧
    (∀ data : List α, (Point.init data (some d)).dtype = d ∧ (Point.init data (some d)).data = data.map d.cast) := by
  have key : Curve.init (.seq xs) t axis ndmin (some d) =
      (Curve.init (.seq xs) t axis ndmin none).map fun c => ⟨c.rows.map fun r => r.map d.cast, c.ncols, c.tdata, d⟩ := by
    unfold Curve.init
    simp only [Option.getD_none, Option.getD_some]
    split
    · rfl
    · cases as2d (asarray xs) (axis.getD 1) with
      | error e => rfl
      | ok raw => exact finish_dtype _ _ hz _ _ _
  refine ⟨fun e he => by rw [key, he]; rfl, fun c hc =>
    ⟨⟨c.rows.map fun r => r.map d.cast, c.ncols, c.tdata, d⟩, by rw [key, hc]; rfl, rfl, rfl, rfl, rfl⟩, fun data => ⟨rfl, rfl⟩⟩

/-- Integer dtype over the rationals: zero is kept and 3/2 becomes 1. -/
example : DType.int.cast (Elem.zero : ℚ) = Elem.zero ∧
    ∃ c', Curve.init (.seq [[0, 3 / 2], [(1 : ℚ), 5]]) none none none (some .int) = .ok c' ∧ c'.rows = [[0, 1], [1, 5]] := by
  have h0 : DType.int.cast (Elem.zero : ℚ) = Elem.zero := by simp [DType.cast, Elem.trunc, Elem.zero, truncK]
  refine ⟨h0, ?_⟩
  obtain ⟨c', h1, _, _, _, h2⟩ := (C75_numeric_partial [[0, 3 / 2], [(1 : ℚ), 5]] none none none .int h0).2.1
    ⟨[[0, 1], [3 / 2, 5]], 2, none, .float⟩ rfl
  refine ⟨c', h1, ?_⟩
  rw [h2]
  simp [DType.cast, Elem.trunc, truncK]
  norm_num

/-! ## The hypotheses are met by concrete curves -/

/-- three points in the plane with parameters -/
def exCurve : Curve ℚ := ⟨[[0, 0], [1, 2], [3, 1]], 2, some [0, 1, 2], .float⟩

example : Curve.init (.seq [[0, 1, 3], [0, 2, 1]]) (some [0, 1, 2]) none none none = .ok exCurve := by decide

example : run [.reverse, .append (.point ⟨[7, 7], .float⟩), .delete (.int (-1)), .insertdim 1 none, .deletedim (.int 1)]
    exCurve = .ok ⟨[[3, 1], [1, 2], [0, 0]], 2, none, .float⟩ := by decide

theorem exCurve_WF : WF exCurve :=
  init_WF (data := .seq [[0, 1, 3], [0, 2, 1]]) (t := some [0, 1, 2]) (axis := none) (ndmin := none)
    (dt := none) (by decide)

example : exCurve.copy = .ok exCurve := C05_copy_partial exCurve_WF (.inl (by decide))

example : IsPos (NdArr.ofRows (0 : ℚ) [[1, 2], [3, 4]] 2).ndim (-1) 1 := by
  refine ⟨by decide, by right; decide⟩

example : okB (Curve.init (.seq [[(1 : ℚ), 2], [3, 4]]) none none none none) = true := by decide

/-! ## Concrete cases -/

/-- `C01_step`: appending a point to `exCurve`. -/
example : ∃ c', Op.step (.append (.point ⟨[7, 7], .float⟩)) exCurve = .ok c' ∧ WF c' := ⟨_, rfl, C01_step (o := .append (.point ⟨[7, 7], .float⟩)) (c := exCurve) rfl⟩

/-- `C01_wellformed`: a construction with parameter values followed by five operations. -/
example : ∃ c', run [.reverse, .append (.point ⟨[7, 7], .float⟩), .delete (.int (-1)), .insertdim 1 none, .deletedim (.int 1)] exCurve = .ok c' ∧ WF c' :=
  ⟨_, rfl, C01_wellformed (data := .seq [[0, 1, 3], [0, 2, 1]]) (t := some [0, 1, 2]) (axis := none) (ndmin := none) (dt := none) (c := exCurve)
    (ops := [.reverse, .append (.point ⟨[7, 7], .float⟩), .delete (.int (-1)), .insertdim 1 none, .deletedim (.int 1)]) (by decide) rfl⟩

example := C02_coords [[(0 : ℚ), 1, 3], [0, 2, 1]] 3 (by decide) (by decide) (by decide)
example := C02_ragged [[(0 : ℚ), 1, 3], [0, 2]] [0, 1, 3] [0, 2] (by decide) (by decide) (by decide)
example := C03_as2d (NdArr.ofRows (0 : ℚ) [[1, 2], [3, 4]] 2) (-1) 1 ⟨by decide, by right; decide⟩ (by decide)
example := C03_reject (NdArr.ofRows (0 : ℚ) [[1, 2], [3, 4]] 2) 5 (by decide) (by decide)
example := C03_negative_axis_partial (NdArr.ofRows (0 : ℚ) [[1, 2], [3, 4]] 2) (-3) (by decide) (by decide)
example := C04_reject (.seq [[(0 : ℚ), 1, 3], [0, 2, 1]]) (some [0, 1, 2]) none 1 (by decide) none
example := C04_ndmin [[(0 : ℚ), 1], [3, 0], [2, 1]] 2 .float 4 (by decide) (by decide) (by decide) (by decide)
example := (C04_any (.seq [[(0 : ℚ), 1, 3], [0, 2, 1]]) (some [0, 1, 2]) none none 3 (by decide)).2 exCurve (by decide)
example := C05_copy_content exCurve_WF
example := C75_nonnumeric_dtype_accepted [[(0 : ℚ), 1, 3], [0, 2, 1]] (some [0, 1, 2]) none none (by decide)

end Verif.Props
