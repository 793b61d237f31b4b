import Verif.Props.InsertMore

/-! # C14: appenddim and deletedim of every selection of axes -/

namespace Verif.Props

open Verif Model Spec Np
variable {α : Type} [Elem α]

/-- **C14 (appenddim).** The new axis is the last one and holds the given values, zeros if there are none; the others keep their places. One value is
used for all points, any other number of values is a ValueError. -/
theorem C14_appenddim {c : Curve α} (hc : WF c) (hne : c.rows ≠ []) :
    (∀ v : List α, v.length = c.size → ∃ c', c.appenddim (some v) = .ok c' ∧ c'.size = c.size ∧ c'.ndim = c.ndim + 1 ∧ c'.isparametric = false ∧
      c'.values c.ndim = .ok (v.map c.dtype.cast) ∧ ∀ j : Nat, j < c.ndim → c'.values j = c.values j) ∧
    (c.appenddim none = c.appenddim (some (List.replicate c.size Elem.zero))) ∧
    (∀ x, c.appenddim (some [x]) = c.appenddim (some (List.replicate c.size x))) ∧
    ∀ v : List α, v.length ≠ c.size → v.length ≠ 1 → c.appenddim (some v) = .error .valueError := by
  obtain ⟨h1, h2, h3, h4⟩ := (C135_insertdim hc hne (a := (c.ndim : Int))).2 c.ndim ⟨le_rfl, .inl ⟨rfl, by omega⟩⟩
  refine ⟨fun v hv => ?_, h3, h2, h4⟩
  obtain ⟨c', e1, e2, e3, e4, e5, e6, _⟩ := C14_insertdim hc hne c.ndim le_rfl v hv
  exact ⟨c', e1, e2, e3, e4, e5, e6⟩

/-- **C14 (deletedim, every selection).** `deletedim` of a selection of axes keeps the other axes in their order, `ks` being their numbers, if two or more
are left. If one is left it raises a ValueError; an axis out of range (alone or in a list) is an IndexError, a slice of step 0 or a mask of
another length a ValueError. -/
theorem C14_deletedim {c : Curve α} (hc : WF c) (hne : c.rows ≠ []) (h3 : c.ndim ≠ 2) (a : Obj) :
    (∀ ks : List Nat, DelOk c.ndim a → ks.Pairwise (· < ·) → (∀ x, x ∈ ks ↔ x < c.ndim ∧ ¬ Named c.ndim a x) →
      (2 ≤ ks.length → ∃ c', c.deletedim a = .ok c' ∧ c'.size = c.size ∧ c'.ndim = ks.length ∧ c'.isparametric = false ∧ c'.dtype = c.dtype ∧
        ∀ i k : Nat, ks[i]? = some k → c'.values i = c.values k) ∧
      (ks.length = 1 → c.deletedim a = .error .valueError)) ∧
    (∀ i : Int, a = .int i → ¬ InRange c.ndim i → c.deletedim a = .error .indexError) ∧
    (∀ is : List Int, a = .arr is → ¬ (∀ i ∈ is, InRange c.ndim i) → c.deletedim a = .error .indexError) ∧
    (∀ s : PySlice, a = .slice s → s.step.getD 1 = 0 → c.deletedim a = .error .valueError) ∧
    (∀ bs : List Bool, a = .mask bs → bs.length ≠ c.ndim → c.deletedim a = .error .valueError) := by
  have hnd : c.ndim = c.ncols := rfl
  constructor
  · intro ks hok hks hmem
    obtain ⟨kept, hd⟩ := (delete_ok_iff (List.range c.ncols) a).2 (by rw [List.length_range]; exact hok)
    have hke : kept = ks := by
      have h1 := delete_eq hd
      rw [removeAt_gather, List.length_range] at h1
      have h2 : gather (List.range c.ncols) ((List.range c.ncols).filter fun i => !(named c.ncols a i)) = (List.range c.ncols).filter fun i => !(named c.ncols a i) := by
        apply List.ext_getElem?
        intro j
        rw [gather_getElem? (fun i hi => by rw [List.length_range]; exact List.mem_range.1 (List.mem_filter.1 hi).1)]
        cases h : ((List.range c.ncols).filter fun i => !(named c.ncols a i))[j]? with
        | none => rfl
        | some x =>
          have := List.mem_range.1 (List.mem_filter.1 (List.mem_of_getElem? h)).1
          simp [this]
      rw [h1, h2]
      refine List.Perm.eq_of_pairwise (le := (· < ·)) (fun a b _ _ h h' => absurd h (Nat.lt_asymm h')) (List.Pairwise.filter _ List.pairwise_lt_range) hks ?_
      refine (List.perm_ext_iff_of_nodup (List.nodup_range.filter _) (hks.imp fun h => Nat.ne_of_lt h)).2 ?_
      intro x
      rw [hmem, List.mem_filter, List.mem_range]
      constructor
      · rintro ⟨hx, hx'⟩
        refine ⟨hx, fun h => ?_⟩
        rw [(named_iff hx hok).2 h] at hx'
        simp at hx'
      · rintro ⟨hx, hx'⟩
        refine ⟨hx, ?_⟩
        by_contra hcon
        simp at hcon
        exact hx' ((named_iff hx hok).1 hcon)
    subst hke
    have hlt : ∀ x ∈ kept, x < c.ncols := fun x hx => ((hmem x).1 hx).1
    have hrow : ∀ r ∈ c.rows, (gather r kept).length = kept.length := by
      intro r hr
      exact gather_length fun i hi => by rw [hc.rect r hr]; exact hlt i hi
    have hlen : 0 < c.rows.length := List.length_pos_iff.2 hne
    have e : c.deletedim a = Curve.ofRows (c.rows.map fun r => gather r kept) kept.length c.dtype none := by
      unfold Curve.deletedim
      rw [if_neg (by rw [← hnd]; exact h3), hd]
    rw [e, ofRows_eq _ _ _ _ (by
      intro r hr
      rw [List.mem_map] at hr
      obtain ⟨r', hr', rfl⟩ := hr
      exact hrow r' hr')]
    constructor
    · intro h2
      rw [if_neg (by rw [List.length_map]; positivity), if_neg (by omega)]
      refine ⟨_, rfl, ?_, rfl, rfl, rfl, ?_⟩
      · simp [Curve.size]
      · intro i k hik
        have hi : i < kept.length := (List.getElem?_eq_some_iff.1 hik).1
        rw [values_nat _ _ (by exact hi), values_nat _ _ (hlt k (List.mem_of_getElem? hik))]
        simp only [List.map_map]
        congr 1
        refine List.map_congr_left fun r hr => ?_
        simp only [Function.comp]
        have h1 : (gather r kept)[i]? = r[k]? := by
          rw [gather_getElem? (fun i hi => by rw [hc.rect r hr]; exact hlt i hi), hik]
          rfl
        have h2 : k < r.length := by rw [hc.rect r hr]; exact hlt k (List.mem_of_getElem? hik)
        rw [List.getD_eq_getElem?_getD, List.getElem?_map, h1, List.getD_eq_getElem?_getD, List.getElem?_eq_getElem h2]
        exact hc.repr r hr _ (List.getElem_mem h2)
    · intro h1
      rw [if_neg (by rw [List.length_map]; positivity), if_pos (by omega)]
  · have bad : ¬ DelOk c.ndim a → c.deletedim a = .error (delErr a) := by
      intro ho
      unfold Curve.deletedim
      rw [if_neg (by rw [← hnd]; exact h3)]
      cases hd : Np.delete (List.range c.ncols) a with
      | ok ys => exact absurd ((delete_ok_iff _ a).1 ⟨ys, hd⟩) (by rw [List.length_range]; exact ho)
      | error e => rw [delete_error hd]
    refine ⟨?_, ?_, ?_, ?_⟩
    · rintro i rfl h
      exact bad h
    · rintro is rfl h
      exact bad h
    · rintro s rfl h
      exact bad fun h' => h' h
    · rintro bs rfl h
      exact bad h

/-- A curve in three dimensions: the axes before and after the deleted one. -/
example : ∃ c', exCurve3.deletedim (.int (-2)) = .ok c' ∧ c'.values 0 = exCurve3.values 0 ∧ c'.values 1 = exCurve3.values 2 := by
  obtain ⟨c', h1, _, _, _, _, h2⟩ := ((C14_deletedim exCurve3_WF (by decide) (by decide) (.int (-2))).1 [0, 2] (by simp [DelOk, exCurve3, Curve.ndim]) (by decide) (by
    intro x
    simp only [Named, IsPos, exCurve3, Curve.ndim]
    simp
    omega)).1 (by decide)
  exact ⟨c', h1, h2 0 0 rfl, h2 1 2 rfl⟩

example : ∃ c', exCurve3.appenddim (some [7, 8]) = .ok c' ∧ c'.values 3 = .ok [7, 8] := by
  obtain ⟨c', h1, _, _, _, h2, _⟩ := (C14_appenddim exCurve3_WF (by decide)).1 [7, 8] rfl
  exact ⟨c', h1, h2⟩

end Verif.Props
