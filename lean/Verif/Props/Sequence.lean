import Verif.Model.Sequence
import Verif.Props.Construct
import Verif.Props.Select

/-!
C111: points and curves as Python sequences.
-/
namespace Verif.Spec

open Verif Verif.Np Verif.Model

/-- Equality of floating point numbers: NaN is not equal to itself. -/
def SameNumber {K : Type} (x y : Val K) : Prop := x = y ∧ x ≠ .nan

/-- `xs` are the points of the curve in order, each with its position and the curve. -/
structure PointsOf {α : Type} (c : Curve α) (cid : Nat) (xs : List (CurvePoint α)) : Prop where
  coords : xs.map (fun p => p.point.data) = c.rows
  idx : xs.map (fun p => p.idx) = (List.range c.rows.length).map fun (i : Nat) => (i : Int)
  owner : ∀ p ∈ xs, p.curve = c ∧ p.cid = cid

/-- The position `j` of a coordinate equal to `x` inside of `start:stop`. -/
def FoundAt {K : Type} (xs : List (Val K)) (x : Val K) (start : Int) (stop : Option Int) (j : Nat) : Prop :=
  SliceMem xs.length ⟨some start, stop, none⟩ j ∧ ∃ y, xs[j]? = some y ∧ SameNumber y x

end Verif.Spec

namespace Verif.Props

open Verif Verif.Np Verif.Model Verif.Spec

section
variable {β : Type} {get : Nat → Except PyErr β} {xs : List β} (hget : ∀ i (h : i < xs.length), get i = .ok xs[i])
  (hend : get xs.length = .error .indexError)
include hget hend

theorem iterFrom_eq (i : Nat) (hi : i ≤ xs.length) : iterFrom get i = some (.ok (xs.drop i)) := by
  obtain ⟨k, hk⟩ : ∃ k, k = xs.length - i := ⟨_, rfl⟩
  induction k generalizing i with
  | zero =>
    obtain rfl : i = xs.length := by omega
    rw [iterFrom, hend]
    simp
  | succ k ih =>
    rw [iterFrom, hget i (by omega)]
    simp only
    rw [ih (i + 1) (by omega) (by omega), List.drop_eq_getElem_cons (show i < xs.length by omega)]
    rfl

theorem seqList_eq : seqList get = some (.ok xs) := by
  unfold seqList
  rw [iterFrom_eq hget hend 0 (Nat.zero_le _)]
  simp

theorem containsFrom_eq (eq : β → Bool) (i : Nat) (hi : i ≤ xs.length) : containsFrom get eq i = some (.ok ((xs.drop i).any eq)) := by
  obtain ⟨k, hk⟩ : ∃ k, k = xs.length - i := ⟨_, rfl⟩
  induction k generalizing i with
  | zero =>
    obtain rfl : i = xs.length := by omega
    rw [containsFrom, hend]
    simp
  | succ k ih =>
    rw [containsFrom, hget i (by omega)]
    simp only
    rw [ih (i + 1) (by omega) (by omega), List.drop_eq_getElem_cons (show i < xs.length by omega), List.any_cons]
    cases eq xs[i] <;> rfl

/-- The loop of `index`: the first match from `i` on, before `stop`. -/
theorem indexFrom_eq (eq : β → Bool) (stop : Option Int) (i : Nat) (hi : i ≤ xs.length) :
    (∃ j, i ≤ j ∧ beforeStop stop j = true ∧ (∃ y, xs[j]? = some y ∧ eq y = true) ∧
      (∀ k, i ≤ k → k < j → ∀ y, xs[k]? = some y → eq y = false) ∧ indexFrom get eq stop i = some (.ok j)) ∨
    ((∀ k, i ≤ k → beforeStop stop k = true → ∀ y, xs[k]? = some y → eq y = false) ∧
      indexFrom get eq stop i = some (.error .valueError)) := by
  have mono : ∀ k l, k ≤ l → beforeStop stop l = true → beforeStop stop k = true := by
    intro k l hkl h
    cases stop with
    | none => rfl
    | some b => simp only [beforeStop, decide_eq_true_eq] at h ⊢; omega
  obtain ⟨k, hk⟩ : ∃ k, k = xs.length - i := ⟨_, rfl⟩
  induction k generalizing i with
  | zero =>
    obtain rfl : i = xs.length := by omega
    right
    refine ⟨fun k h1 _ y hy => ?_, ?_⟩
    · rw [List.getElem?_eq_none h1] at hy
      simp at hy
    · rw [indexFrom, hend]
      simp
  | succ k ih =>
    have hlt : i < xs.length := by omega
    have hgi : xs[i]? = some xs[i] := List.getElem?_eq_getElem hlt
    cases hs : beforeStop stop i with
    | false =>
      right
      refine ⟨fun k h1 h2 => ?_, ?_⟩
      · rw [mono i k h1 h2] at hs
        simp at hs
      · rw [indexFrom, hs]
        simp
    | true =>
      have e0 : indexFrom get eq stop i = if eq xs[i] then some (.ok i) else indexFrom get eq stop (i + 1) := by
        rw [indexFrom, if_pos hs, hget i hlt]
      cases heq : eq xs[i] with
      | true =>
        left
        refine ⟨i, le_refl _, hs, ⟨_, hgi, heq⟩, fun k h1 h2 => by omega, ?_⟩
        rw [e0, heq]
        rfl
      | false =>
        rw [e0, heq]
        simp only [Bool.false_eq_true, if_false]
        have step : ∀ y, xs[i]? = some y → eq y = false := by
          intro y hy
          rw [hgi] at hy
          injection hy with hy
          rw [← hy, heq]
        rcases ih (i + 1) (by omega) (by omega) with ⟨j, h1, h2, h3, h4, h5⟩ | ⟨h1, h2⟩
        · left
          refine ⟨j, by omega, h2, h3, ?_, h5⟩
          intro k hk1 hk2 y hy
          rcases Nat.eq_or_lt_of_le hk1 with e | e
          · subst e; exact step y hy
          · exact h4 k e hk2 y hy
        · right
          refine ⟨?_, h2⟩
          intro k hk1 hk2 y hy
          rcases Nat.eq_or_lt_of_le hk1 with e | e
          · subst e; exact step y hy
          · exact h1 k e hk2 y hy

omit hend in
theorem seqReversed_eq : seqReversed get xs.length = .ok xs.reverse := by
  unfold seqReversed
  have key : ∀ ks : List Nat, (∀ k ∈ ks, k < xs.length) → ks.mapM get = .ok (gather xs ks) := by
    intro ks
    induction ks with
    | nil => intro _; rfl
    | cons k ks ih =>
      intro h
      have hk := h k (by simp)
      rw [List.mapM_cons, hget k hk, ih fun k hk => h k (by simp [hk])]
      simp [gather, List.filterMap_cons, List.getElem?_eq_getElem hk, bind, Except.bind, pure, Except.pure]
  rw [key _ (by simp)]
  congr 1
  unfold gather
  rw [List.filterMap_reverse]
  congr 1
  apply List.ext_getElem?
  intro i
  have := gather_getElem? (xs := xs) (is := List.range xs.length) (by simp) i
  unfold gather at this
  rw [this]
  by_cases h : i < xs.length
  · simp [h]
  · rw [List.getElem?_eq_none (l := xs) (by omega), List.getElem?_eq_none (by simpa using h)]
    rfl

end

section
variable {α : Type} [Elem α]

/-- **C111 (curves).** Iterating over a curve gives its points in order, each with its position; `reversed` gives the same points backwards. -/
theorem C111_curve (c : Curve α) (cid : Nat) : ∃ xs, c.toList cid = some (.ok xs) ∧ PointsOf c cid xs ∧ c.toListReversed cid = .ok xs.reverse := by
  have hpt : ∀ i (h : i < c.rows.length), c.getPoint cid i = .ok ⟨Point.init c.rows[i] none, i, c, cid⟩ := by
    intro i h
    have hg : getIdx c.rows (i : Int) = .ok c.rows[i] := getIdx_ok.2 ⟨i, ⟨h, .inl rfl⟩, List.getElem?_eq_getElem h⟩
    unfold Curve.getPoint CurvePoint.init
    simp only [if_neg (show ¬ ((i : Nat) : Int) < 0 by omega), hg]
  obtain ⟨xs, hxs⟩ : ∃ xs : List (CurvePoint α), xs = (List.range c.rows.length).map fun i => ⟨Point.init (c.rows.getD i []) none, i, c, cid⟩ := ⟨_, rfl⟩
  have hlen : xs.length = c.rows.length := by rw [hxs]; simp
  have hget : ∀ i (h : i < xs.length), c.getPoint cid i = .ok xs[i] := by
    intro i h
    rw [hpt i (by omega)]
    subst hxs
    simp only [List.getElem_map, List.getElem_range]
    rw [List.getD_eq_getElem?_getD, List.getElem?_eq_getElem (by simpa using h)]
    rfl
  have hend : c.getPoint cid xs.length = .error .indexError := by
    have hg : getIdx c.rows ((xs.length : Nat) : Int) = .error .indexError := getIdx_error.2 ⟨rfl, .inr (by rw [hlen])⟩
    unfold Curve.getPoint CurvePoint.init
    simp only [if_neg (show ¬ ((xs.length : Nat) : Int) < 0 by omega), hg]
  refine ⟨xs, seqList_eq hget hend, ⟨?_, ?_, ?_⟩, ?_⟩
  · rw [hxs, List.map_map]
    apply List.ext_getElem?
    intro i
    by_cases h : i < c.rows.length
    · have hid : ∀ r : List α, r.map (DType.float.cast) = r := fun r => List.map_id' r
      simp [h, Point.init, List.getD_eq_getElem?_getD, hid]
    · rw [List.getElem?_eq_none (by simpa using h), List.getElem?_eq_none (by simpa using h)]
  · rw [hxs, List.map_map]
    rfl
  · intro p hp
    rw [hxs, List.mem_map] at hp
    obtain ⟨i, _, rfl⟩ := hp
    exact ⟨rfl, rfl⟩
  · have := seqReversed_eq hget
    unfold Curve.toListReversed
    rw [hlen] at this
    exact this

/-- **C111 (round trip).** The points of a curve, or its coordinate vectors, make the curve again (as a float curve without parameter values). -/
theorem C111_rebuild {c : Curve α} (hc : WF c) (hne : c.rows ≠ []) (cid : Nat) : ∃ xs, c.toList cid = some (.ok xs) ∧
    Curve.init (.seq (xs.map fun p => p.point.data)) none (some 0) none none = .ok ⟨c.rows, c.ncols, none, .float⟩ ∧
    Curve.init (.seq c.valuesAll) none none none none = .ok ⟨c.rows, c.ncols, none, .float⟩ ∧
    (∀ j (_ : j < c.ndim), c.valuesAll[j]?.map Except.ok = some (c.values j)) := by
  obtain ⟨xs, h1, h2, _⟩ := C111_curve c cid
  have h2le := hc.two_le
  have hlen : c.rows.length ≠ 0 := by simpa using hne
  have hok := ofRows_ok (rows := c.rows) (n := c.ncols) (dt := .float) (t := none) hc.two_le hc.rect (by intro r _ x _; rfl) (by simp)
  rw [if_neg hne] at hok
  refine ⟨xs, h1, ?_, ?_, ?_⟩
  · rw [h2.coords, ← hok]
    have harr : asarray c.rows = NdArr.ofRows Elem.zero c.rows c.ncols := by
      match hr : c.rows, hne with
      | x :: rs, _ =>
        have hx : x.length = c.ncols := hc.rect x (by rw [hr]; simp)
        simp only [asarray]
        rw [if_pos, hx]
        rw [List.all_eq_true]
        intro y hy
        have := hc.rect y (by rw [hr]; exact hy)
        simp [this, hx]
    unfold Curve.ofRows Curve.init
    simp only [Option.getD_none, Option.isSome_none, Option.getD_some]
    rw [harr]
  · have hvl : c.valuesAll.length = c.ncols := by simp [Curve.valuesAll, Curve.ndim]
    have hv : ∀ v ∈ c.valuesAll, v.length = c.rows.length := by
      intro v hv
      simp only [Curve.valuesAll, List.mem_map] at hv
      obtain ⟨j, _, rfl⟩ := hv
      simp
    have harr : asarray c.valuesAll = NdArr.ofRows Elem.zero c.valuesAll c.rows.length := by
      have hn0 : c.valuesAll ≠ [] := by intro h; rw [h] at hvl; simp at hvl; omega
      generalize c.valuesAll = vs at hv hn0
      match vs, hn0 with
      | x :: rs, _ =>
        have hx := hv x (by simp)
        simp only [asarray]
        rw [if_pos, hx]
        rw [List.all_eq_true]
        intro y hy
        simp [hv y hy, hx]
    have hrows : (List.range c.rows.length).map (fun j => c.valuesAll.map fun x => x.getD j Elem.zero) = c.rows := by
      apply List.ext_getElem?
      intro i
      by_cases hi : i < c.rows.length
      · rw [List.getElem?_map, List.getElem?_range hi, List.getElem?_eq_getElem hi]
        simp only [Option.map_some, Option.some.injEq]
        have hri := hc.rect _ (List.getElem_mem hi)
        apply List.ext_getElem?
        intro j
        by_cases hj : j < c.ncols
        · simp [Curve.valuesAll, Curve.ndim, hj, hi, List.getD_eq_getElem?_getD, hri]
        · rw [List.getElem?_eq_none (by rw [List.length_map, hvl]; omega), List.getElem?_eq_none (by omega)]
      · rw [List.getElem?_eq_none (by simpa using hi), List.getElem?_eq_none (by simpa using hi)]
    rw [← hok]
    unfold Curve.ofRows Curve.init
    simp only [Option.getD_none, Option.isSome_none]
    rw [harr, as2d_axis1 _ _ _ hv (by omega) hlen, as2d_ofRows _ _ _ hc.rect, if_neg (Nat.mul_ne_zero hlen (by omega)), hrows, hvl]
  · intro j hj
    rw [values_ok c j j ⟨hj, .inl rfl⟩]
    unfold Curve.valuesAll
    simp [hj]

/-- **C111 (parts of a point).** `point[s]` has the coordinates that Python slicing selects; it is a point if there are at least two of them. -/
theorem C111_slice (p : Point α) (s : PySlice) (hs : s.step.getD 1 ≠ 0) : ∃ ks, (∀ x, x ∈ ks ↔ SliceMem p.data.length s x) ∧
    (0 < s.step.getD 1 → ks.Pairwise (· < ·)) ∧ (s.step.getD 1 < 0 → ks.Pairwise (· > ·)) ∧ ∃ ys, Picks p.data ks ys ∧
    (2 ≤ ys.length → (PointObj.vec p).getItem (.slice s) = .ok (.point ⟨ys, .float⟩)) ∧
    (ys.length < 2 → (PointObj.vec p).getItem (.slice s) = .ok (.arr ys)) := by
  have hk := sliceIndices_eq (n := p.data.length) (s := s) hs
  obtain ⟨_, h2, h3, h4, h5⟩ := sliceIndices_spec hk
  refine ⟨_, h2, h3, h4, _, picks_gather h5, ?_⟩
  have e : ∀ ys : List α, Point.init ys none = ⟨ys, .float⟩ := by
    intro ys
    unfold Point.init
    have : ys.map (DType.float.cast) = ys := List.map_id' ys
    simpa using this
  have hg : pickData p.data (.slice s) = .ok (gather p.data ((List.range (s.len p.data.length)).map fun (m : Nat) => (s.lo p.data.length + m * s.k).toNat)) := by
    simp only [pickData, slice, hk]
  constructor
  · intro h
    unfold PointObj.getItem
    simp only [hg, Except.map]
    rw [if_pos (by omega), e]
  · intro h
    unfold PointObj.getItem
    simp only [hg, Except.map]
    rw [if_neg (by omega)]

theorem mapM_normIdx_some {n : Nat} {is : List Int} {ks : List Nat} (h : List.Forall₂ (IsPos n) is ks) : is.mapM (normIdx n) = some ks := by
  induction h with
  | nil => rfl
  | cons h _ ih => rw [List.mapM_cons, normIdx_eq_some.2 h, ih]; rfl

theorem getItem_pick {p : Point α} {ix : Indexer} {ys : List α} (hi : ∀ i, ix ≠ .int i) (h : pickData p.data ix = .ok ys) :
    (2 ≤ ys.length → (PointObj.vec p).getItem ix = .ok (.point ⟨ys, .float⟩)) ∧ (ys.length < 2 → (PointObj.vec p).getItem ix = .ok (.arr ys)) := by
  have e : ∀ ys : List α, Point.init ys none = ⟨ys, .float⟩ := by
    intro ys
    unfold Point.init
    have : ys.map (DType.float.cast) = ys := List.map_id' ys
    simpa using this
  have hg : (PointObj.vec p).getItem ix = (pickData p.data ix).map fun ys => if ys.length > 1 then .point (Point.init ys none) else .arr ys := by
    cases ix with
    | int i => exact absurd rfl (hi i)
    | _ => rfl
  rw [hg, h]
  constructor
  · intro h
    simp only [Except.map]
    rw [if_pos (by omega), e]
  · intro h
    simp only [Except.map]
    rw [if_neg (by omega)]

/-- **C111 (parts of a point by lists, arrays and masks).** Lists and arrays of integers (an empty list too) select the coordinates at these
positions, counted from the end if negative, in this order; a mask selects the coordinates at its true entries, in the order of the point. The
result is a point if there are at least two coordinates. -/
theorem C111_pick (p : Point α) :
    (∀ is ks ys, List.Forall₂ (IsPos p.data.length) is ks → Picks p.data ks ys → ∀ ix, ix = Indexer.list is ∨ ix = .arr is →
      (2 ≤ ys.length → (PointObj.vec p).getItem ix = .ok (.point ⟨ys, .float⟩)) ∧ (ys.length < 2 → (PointObj.vec p).getItem ix = .ok (.arr ys))) ∧
    (∀ bs ks ys, bs.length = p.data.length → ks.Pairwise (· < ·) → (∀ k, k ∈ ks ↔ bs[k]? = some true) → Picks p.data ks ys →
      (2 ≤ ys.length → (PointObj.vec p).getItem (.mask bs) = .ok (.point ⟨ys, .float⟩)) ∧
      (ys.length < 2 → (PointObj.vec p).getItem (.mask bs) = .ok (.arr ys))) := by
  have hp : ∀ ks ys, Picks p.data ks ys → gather p.data ks = ys := by
    intro ks ys h
    unfold Picks at h
    unfold gather
    have e : ks.filterMap (p.data[·]?) = (ks.map fun k => p.data[k]?).filterMap id := by rw [List.filterMap_map]; rfl
    rw [e, ← h, List.filterMap_map]
    exact List.filterMap_some
  constructor
  · intro is ks ys h1 h2 ix hix
    have ht : take p.data is = .ok ys := by
      rw [take_eq, mapM_normIdx_some h1]
      simp only [hp ks ys h2]
    rcases hix with rfl | rfl
    · exact getItem_pick (by intro i; simp) ht
    · exact getItem_pick (by intro i; simp) ht
  · intro bs ks ys h1 h2 h3 h4
    refine getItem_pick (by intro i; simp) ?_
    have hk : (List.range p.data.length).filter (fun i => bs[i]?.getD false) = ks := by
      refine List.Perm.eq_of_pairwise (le := (· < ·)) (fun a b _ _ h h' => absurd h (Nat.lt_asymm h')) (List.Pairwise.filter _ List.pairwise_lt_range) h2 ?_
      refine (List.perm_ext_iff_of_nodup (List.Nodup.filter _ List.nodup_range) (h2.imp (fun h => Nat.ne_of_lt h))).2 ?_
      intro k
      rw [List.mem_filter, List.mem_range, h3]
      constructor
      · rintro ⟨h, h'⟩
        cases e : bs[k]? with
        | none => rw [e] at h'; cases h'
        | some b => rw [e] at h'; simpa using h'
      · intro h
        refine ⟨?_, by rw [h]; rfl⟩
        have := (List.getElem?_eq_some_iff.1 h).1
        omega
    show mask p.data bs = _
    unfold mask
    rw [if_pos h1, mask_gather _ _ h1, hk, hp ks ys h4]

/-- **C111 (what is no index of a point).** A position out of range, a mask of another length, an array of floats and anything else is an IndexError. -/
theorem C111_pick_errors (p : Point α) :
    (∀ is i, i ∈ is → (i < -(p.data.length : Int) ∨ (p.data.length : Int) ≤ i) → ∀ ix, ix = Indexer.int i ∨ ix = .list is ∨ ix = .arr is →
      (PointObj.vec p).getItem ix = .error .indexError) ∧
    (∀ bs : List Bool, bs.length ≠ p.data.length → (PointObj.vec p).getItem (.mask bs) = .error .indexError) ∧
    (PointObj.vec p).getItem .farr = .error .indexError ∧ (PointObj.vec p).getItem .other = .error .indexError := by
  refine ⟨?_, ?_, rfl, rfl⟩
  · intro is i hi h ix hix
    have hn : normIdx p.data.length i = none := normIdx_eq_none.2 h
    have hm : is.mapM (normIdx p.data.length) = none := by
      clear hix
      induction is with
      | nil => cases hi
      | cons j is ih =>
        rw [List.mapM_cons]
        rcases List.mem_cons.1 hi with rfl | hi
        · rw [hn]; rfl
        · rw [ih hi]
          cases normIdx p.data.length j <;> rfl
    have ht : take p.data is = .error .indexError := by rw [take_eq, hm]
    rcases hix with rfl | rfl | rfl
    · have hg : getIdx p.data i = .error .indexError := getIdx_error.2 ⟨rfl, h⟩
      show (getIdx p.data i).map _ = _
      rw [hg]; rfl
    · show (take p.data is).map _ = _
      rw [ht]; rfl
    · show (take p.data is).map _ = _
      rw [ht]; rfl
  · intro bs h
    show (mask p.data bs).map _ = _
    unfold mask
    rw [if_neg h]; rfl

example : ∃ ys, List.Forall₂ (IsPos [(1 : ℚ), 2, 3].length) [-1, 0] [2, 0] ∧ Picks [(1 : ℚ), 2, 3] [2, 0] ys ∧ ys = [3, 1] := by
  refine ⟨_, ?_, ?_, rfl⟩
  · refine .cons ⟨by decide, .inr (by decide)⟩ (.cons ⟨by decide, .inl rfl⟩ .nil)
  · rfl

/-- **C111 (exceptions while iterating).** Iteration ends at the first IndexError; any other exception raised while reading an item gets out of
`list(seq)`, `x in seq` (unless found before) and `count`, whatever was read before. -/
theorem C111_iteration_errors {β : Type} (get : Nat → Except PyErr β) (n : Nat) (hn : ∀ i < n, ∃ v, get i = .ok v) {e : PyErr} (he : e ≠ .indexError)
    (h : get n = .error e) : seqList get = some (.error e) ∧ (∀ eq, seqCount get eq = some (.error e)) ∧
    (∀ eq, (∀ i v, i < n → get i = .ok v → eq v = false) → containsFrom get eq 0 = some (.error e)) := by
  have hl : ∀ k i, i + k = n → iterFrom get i = some (.error e) := by
    intro k
    induction k with
    | zero =>
      intro i hi
      obtain rfl : i = n := by omega
      rw [iterFrom, h]
      cases e <;> first | exact absurd rfl he | rfl
    | succ k ih =>
      intro i hi
      obtain ⟨v, hv⟩ := hn i (by omega)
      rw [iterFrom, hv]
      simp only [ih (i + 1) (by omega)]
      rfl
  have hl0 := hl n 0 (by omega)
  refine ⟨hl0, ?_, ?_⟩
  · intro eq
    unfold seqCount seqList
    rw [hl0]; rfl
  · intro eq heq
    have hc : ∀ k i, i + k = n → containsFrom get eq i = some (.error e) := by
      intro k
      induction k with
      | zero =>
        intro i hi
        obtain rfl : i = n := by omega
        rw [containsFrom, h]
        cases e <;> first | exact absurd rfl he | rfl
      | succ k ih =>
        intro i hi
        obtain ⟨v, hv⟩ := hn i (by omega)
        rw [containsFrom, hv]
        simp only [heq i v (by omega) hv, ih (i + 1) (by omega)]
        rfl
    exact hc n 0 (by omega)

example : ∃ get : Nat → Except PyErr ℚ, (∀ i < 2, ∃ v, get i = .ok v) ∧ get 2 = .error .valueError :=
  ⟨fun i => if i < 2 then .ok i else .error .valueError, fun i h => ⟨i, by simp [h]⟩, by simp⟩

theorem getAt_lt (p : Point α) : ∀ i (h : i < (p.data.map PItem.num).length), (PointObj.vec p).getAt i = .ok (p.data.map PItem.num)[i] := by
  intro i h
  rw [List.length_map] at h
  have hg : getIdx p.data (i : Int) = .ok p.data[i] := getIdx_ok.2 ⟨i, ⟨h, .inl rfl⟩, List.getElem?_eq_getElem h⟩
  unfold PointObj.getAt PointObj.getItem
  simp only [hg, Except.map, List.getElem_map]

theorem getAt_ge (p : Point α) {i : Nat} (h : p.data.length ≤ i) : (PointObj.vec p).getAt i = .error .indexError := by
  have hg : getIdx p.data (i : Int) = .error .indexError := getIdx_error.2 ⟨rfl, .inr (by omega)⟩
  unfold PointObj.getAt PointObj.getItem
  simp only [hg, Except.map]

/-- **C111 (points).** The length of a point is the number of its coordinates, iterating gives them in order, `reversed` backwards. -/
theorem C111_point (p : Point α) : (PointObj.vec p).len = p.data.length ∧ (PointObj.vec p).toList = some (.ok (p.data.map .num)) ∧
    (PointObj.vec p).toListReversed = .ok (p.data.map PItem.num).reverse ∧ ((PointObj.vec p).bool = true ↔ p.data ≠ []) := by
  have hget := getAt_lt p
  have hend : (PointObj.vec p).getAt (p.data.map PItem.num).length = .error .indexError := getAt_ge p (by simp)
  refine ⟨rfl, seqList_eq hget hend, ?_, ?_⟩
  · have := seqReversed_eq hget
    rw [List.length_map] at this
    exact this
  · unfold PointObj.bool PointObj.len Point.ndim
    rw [decide_eq_true_eq, gt_iff_lt, List.length_pos_iff]

end

section
variable {K : Type} [Field K] [LinearOrder K] [IsStrictOrderedRing K] [FloorRing K]

theorem ieeeEq_iff (x y : Val K) : x.ieeeEq y = true ↔ SameNumber x y := by
  unfold SameNumber
  cases x <;> cases y <;> simp [Val.ieeeEq]

/-- **C111 (membership in a point).** `x in point` is true exactly if some coordinate equals `x` (exactly, and never for NaN), and `count` is the
number of such coordinates. -/
theorem C111_contains (p : Point (Val K)) (x : Val K) : (∃ b, (PointObj.vec p).contains x = some (.ok b) ∧ (b = true ↔ ∃ y ∈ p.data, SameNumber y x)) ∧
    (∃ is : List Nat, is.Nodup ∧ (∀ i, i ∈ is ↔ ∃ y, p.data[i]? = some y ∧ SameNumber y x) ∧ (PointObj.vec p).count x = some (.ok is.length)) := by
  have hget := getAt_lt p
  have hend : (PointObj.vec p).getAt (p.data.map PItem.num).length = .error .indexError := getAt_ge p (by simp)
  constructor
  · refine ⟨_, containsFrom_eq hget hend (itemEq x) 0 (Nat.zero_le _), ?_⟩
    simp only [List.drop_zero, List.any_map, List.any_eq_true, Function.comp_apply, itemEq, ieeeEq_iff]
  · refine ⟨(List.range p.data.length).filter fun i => (p.data.getD i (.fin 0)).ieeeEq x, ?_, ?_, ?_⟩
    · exact List.Nodup.filter _ List.nodup_range
    · intro i
      rw [List.mem_filter, List.mem_range, ieeeEq_iff, List.getD_eq_getElem?_getD]
      constructor
      · rintro ⟨h1, h2⟩
        rw [List.getElem?_eq_getElem h1] at h2 ⊢
        exact ⟨_, rfl, h2⟩
      · rintro ⟨y, h1, h2⟩
        rw [h1]
        exact ⟨(List.getElem?_eq_some_iff.1 h1).1, h2⟩
    · unfold PointObj.count seqCount
      rw [seqList_eq hget hend]
      simp only [Option.map_some, Except.map]
      have e : p.data = (List.range p.data.length).map fun i => p.data.getD i (.fin 0) := by
        apply List.ext_getElem?
        intro i
        by_cases h : i < p.data.length
        · simp [h, List.getD_eq_getElem?_getD]
        · rw [List.getElem?_eq_none (by omega), List.getElem?_eq_none (by simpa using h)]
      congr 2
      rw [List.filter_map, List.length_map]
      conv_lhs => rw [e]
      rw [List.filter_map, List.length_map]
      rfl

/-- **C111 (index of a coordinate).** `point.index(x, start, stop)` is the first position inside of `start:stop` whose coordinate equals `x`;
a ValueError if there is none. -/
theorem C111_index (p : Point (Val K)) (x : Val K) (start : Int) (stop : Option Int) :
    (∃ j, FoundAt p.data x start stop j ∧ (∀ k, k < j → ¬ FoundAt p.data x start stop k) ∧ (PointObj.vec p).index x start stop = some (.ok j)) ∨
    ((∀ j, ¬ FoundAt p.data x start stop j) ∧ (PointObj.vec p).index x start stop = some (.error .valueError)) := by
  have hget := getAt_lt p
  have hend : (PointObj.vec p).getAt (p.data.map PItem.num).length = .error .indexError := getAt_ge p (by simp)
  obtain ⟨lo, hlo⟩ : ∃ lo : Nat, lo = (if start < 0 then max ((p.data.length : Int) + start) 0 else start).toNat := ⟨_, rfl⟩
  obtain ⟨hi, hhi⟩ : ∃ hi : Option Int, hi = stop.map fun (b : Int) => if b < 0 then b + (p.data.length : Int) else b := ⟨_, rfl⟩
  have eidx : (PointObj.vec p).index x start stop = indexFrom (PointObj.vec p).getAt (itemEq x) hi lo := by
    rw [hlo, hhi]
    rfl
  have mem : ∀ j, j < p.data.length → (SliceMem p.data.length ⟨some start, stop, none⟩ j ↔ lo ≤ j ∧ beforeStop hi j = true) := by
    intro j hj
    have e1 : SliceMem p.data.length ⟨some start, stop, none⟩ j ↔
        bound p.data.length 1 start ≤ j ∧ (j : Int) < last p.data.length ⟨some start, stop, none⟩ := by
      have e2 : (∃ m : Nat, (j : Int) = bound p.data.length 1 start + m * 1) ↔ bound p.data.length 1 start ≤ j := by
        constructor
        · rintro ⟨m, hm⟩
          omega
        · intro h
          exact ⟨((j : Int) - bound p.data.length 1 start).toNat, by omega⟩
      exact and_congr e2 Iff.rfl
    rw [e1]
    have e3 : bound p.data.length 1 start ≤ j ↔ lo ≤ j := by
      rw [hlo]
      unfold bound
      simp only [show ¬ ((1 : Int) < 0) by decide, if_false]
      split <;> omega
    rw [e3, hhi]
    cases stop with
    | none =>
      simp only [Option.map_none, beforeStop, last, Option.getD_none, show ¬ ((1 : Int) < 0) by decide, if_false]
      exact ⟨fun h => ⟨h.1, trivial⟩, fun h => ⟨h.1, by omega⟩⟩
    | some b =>
      simp only [Option.map_some, beforeStop, decide_eq_true_eq]
      have e4 : (j : Int) < bound p.data.length 1 b ↔ (j : Int) < if b < 0 then b + (p.data.length : Int) else b := by
        unfold bound
        simp only [show ¬ ((1 : Int) < 0) by decide, if_false]
        split <;> omega
      exact and_congr Iff.rfl e4
  have hat : ∀ j : Nat, (∃ y, (p.data.map PItem.num)[j]? = some y ∧ itemEq x y = true) ↔ ∃ y, p.data[j]? = some y ∧ SameNumber y x := by
    intro j
    rw [List.getElem?_map]
    cases p.data[j]? with
    | none => simp
    | some y => simp [itemEq, ieeeEq_iff]
  have lt_of : ∀ j : Nat, (∃ y, p.data[j]? = some y ∧ SameNumber y x) → j < p.data.length := by
    rintro j ⟨y, hy, -⟩
    exact (List.getElem?_eq_some_iff.1 hy).1
  rw [eidx]
  by_cases hle : lo ≤ p.data.length
  · rcases indexFrom_eq hget hend (itemEq x) hi lo (by simpa using hle) with ⟨j, h1, h2, h3, h4, h5⟩ | ⟨h1, h2⟩
    · have h3' := (hat j).1 h3
      refine .inl ⟨j, ⟨(mem j (lt_of j h3')).2 ⟨h1, h2⟩, h3'⟩, ?_, h5⟩
      rintro k hk ⟨hm, hs⟩
      obtain ⟨y, hy, he⟩ := (hat k).2 hs
      have := h4 k ((mem k (lt_of k hs)).1 hm).1 hk y hy
      rw [he] at this
      simp at this
    · refine .inr ⟨?_, h2⟩
      rintro k ⟨hm, hs⟩
      obtain ⟨y, hy, he⟩ := (hat k).2 hs
      have hb := (mem k (lt_of k hs)).1 hm
      have := h1 k hb.1 hb.2 y hy
      rw [he] at this
      simp at this
  · refine .inr ⟨?_, ?_⟩
    · rintro k ⟨hm, hs⟩
      have h1 := lt_of k hs
      have h2 := ((mem k h1).1 hm).1
      omega
    · rw [indexFrom, getAt_ge p (by omega)]
      simp

/-- Three coordinates, one of them not a number: 2 is at position 1, NaN is nowhere. -/
example : let p : Point (Val ℚ) := ⟨[.fin 1, .fin 2, .nan, .fin 2], .float⟩
    FoundAt p.data (.fin 2) (-3) none 1 ∧ FoundAt p.data (.fin 2) (-2) (some 9) 3 ∧ ¬ ∃ y ∈ p.data, SameNumber y .nan := by
  refine ⟨⟨⟨⟨0, by decide⟩, by decide⟩, _, rfl, rfl, by simp⟩, ⟨⟨⟨1, by decide⟩, by decide⟩, _, rfl, rfl, by simp⟩, ?_⟩
  rintro ⟨y, -, h1, h2⟩
  exact h2 h1

end

section
variable {α : Type} [Elem α]

/-- **C111 (copy of a curve point).** Copying a curve point gives the same point of the same curve. -/
theorem C111_copy_partial {c : Curve α} {cid : Nat} {i : Int} {p : CurvePoint α} (hi : -(c.rows.length : Int) ≤ i)
    (h : CurvePoint.init c cid i = .ok p) : p.copy = .ok p := by
  unfold CurvePoint.init at h
  simp only [Curve.size] at h
  split at h
  · cases h
  · rename_i row hr
    cases h
    unfold CurvePoint.copy CurvePoint.init
    have h0 : ¬ (if i < 0 then (c.rows.length : Int) + i else i) < 0 := by split <;> omega
    simp only [Curve.size, if_neg h0, hr]

/-- What fails for copies: an index far below zero is counted from the end twice, and the copy of that point has another index. -/
theorem C111_copy_fails : ∃ (c : Curve (Val ℚ)) (p q : CurvePoint (Val ℚ)), WF c ∧ CurvePoint.init c 0 (-4) = .ok p ∧ p.copy = .ok q ∧ p.idx = -1 ∧ q.idx = 2 := by
  refine ⟨⟨[[.fin 0, .fin 1], [.fin 2, .fin 3], [.fin 4, .fin 5]], 2, none, .float⟩, _, _, ?_, rfl, rfl, rfl, rfl⟩
  exact ⟨by decide, by simp, by simp, by intro r _ x _; rfl⟩

/-- What fails for points from a single number: `Point(5)` says it has one coordinate, but that cannot be read and iterating gives none. -/
theorem C111_scalar_fails (x : α) : ∃ p, PointObj.init (α := α) ⟨[], fun _ => x⟩ none = .ok p ∧ p.len = 1 ∧ p.bool = true ∧
    p.getItem (.int 0) = .error .indexError ∧ p.toList = some (.ok []) ∧ p.toListReversed = .error .indexError := by
  refine ⟨_, rfl, rfl, rfl, rfl, ?_, rfl⟩
  unfold PointObj.toList seqList
  rw [iterFrom]
  rfl

/-- What fails for parts of points: one coordinate taken with a slice is no point, integers become floats, and something that is no index is an
IndexError instead of the documented TypeError. -/
theorem C111_part_fails : (∃ p : Point (Val ℚ), (PointObj.vec p).getItem (.slice ⟨some 0, some 1, none⟩) = .ok (.arr [.fin 1])) ∧
    (∃ (p : Point (Val ℚ)) (q : Point (Val ℚ)), p.dtype = .int ∧ (PointObj.vec p).getItem (.slice ⟨none, none, none⟩) = .ok (.point q) ∧ q.dtype = .float) ∧
    ∀ p : Point (Val ℚ), (PointObj.vec p).getItem .other = .error .indexError := by
  refine ⟨⟨⟨[.fin 1, .fin 2], .float⟩, ?_⟩, ⟨⟨[.fin 1, .fin 2], .int⟩, _, rfl, rfl, rfl⟩, fun p => rfl⟩
  rfl

end

/-! ## Concrete cases -/

example := C111_rebuild exCurve_WF (by decide) 0
example := C111_slice (⟨[1, 2, 3], .float⟩ : Point ℚ) ⟨none, none, some (-2)⟩ (by decide)
example := (C111_pick (⟨[1, 2, 3], .float⟩ : Point ℚ)).1 [-1, 0] [2, 0] [3, 1] (by simp [IsPos]) (by simp [Picks]) (.list [-1, 0]) (.inl rfl)
example := (C111_pick_errors (⟨[1, 2, 3], .float⟩ : Point ℚ)).1 [0, 3] 3 (by decide) (by decide) (.list [0, 3]) (.inr (.inl rfl))
example := C111_iteration_errors (fun i => if i < 2 then .ok i else .error .valueError) 2 (fun i hi => ⟨i, by simp [hi]⟩) (e := .valueError) (by decide) (by decide)
example := C111_index (⟨[.fin 1, .nan, .fin 3], .float⟩ : Point (Val ℚ)) (.fin 3) (-2) none
example := C111_copy_partial (c := exCurve) (cid := 0) (i := -1) (p := ⟨⟨[3, 1], .float⟩, 2, exCurve, 0⟩) (by decide) rfl

end Verif.Props
