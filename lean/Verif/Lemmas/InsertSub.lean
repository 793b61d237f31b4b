import Verif.Lemmas.Insert

/-! `np.insert` with any index keeps the old rows, in order, and adds only the new ones. -/
namespace Verif.Np

open Verif

theorem mem_scatter {α : Type} {pos : List Nat} {vals : List α} {p m : Nat} {old : List α} {x : α}
    (h : x ∈ scatter pos vals p m old) : x ∈ vals ∨ x ∈ old := by
  induction m generalizing p old with
  | zero => simp [scatter] at h
  | succ m ih =>
    unfold scatter at h
    split at h
    · rename_i q hq
      rcases List.mem_cons.1 h with rfl | h
      · left
        have := List.mem_of_find?_eq_some hq
        rw [List.mem_reverse] at this
        exact (List.of_mem_zip this).2
      · exact ih h
    · split at h
      · rename_i o old' _
        rcases List.mem_cons.1 h with rfl | h
        · right; simp
        · rcases ih h with h | h
          · exact .inl h
          · exact .inr (List.mem_cons_of_mem _ h)
      · simp at h

theorem sublist_scatter {α : Type} {pos : List Nat} {vals : List α} (hl : pos.length ≤ vals.length) {p m : Nat}
    {old : List α} (h : old.length ≤ ((List.range' p m).filter fun q => !(pos.contains q)).length) :
    old.Sublist (scatter pos vals p m old) := by
  induction m generalizing p old with
  | zero => simp at h; subst h; simp [scatter]
  | succ m ih =>
    rw [List.range'_succ, List.filter_cons] at h
    unfold scatter
    split
    · rename_i q hq
      have hp : p ∈ pos := by
        have h1 := List.mem_of_find?_eq_some hq
        rw [List.mem_reverse] at h1
        have h2 := List.find?_some hq
        simp only [beq_iff_eq] at h2
        rw [← h2]
        exact (List.of_mem_zip h1).1
      have hc : pos.contains p = true := by simpa using hp
      simp only [hc, Bool.not_true, Bool.false_eq_true, if_false] at h
      exact (ih h).cons q.2
    · rename_i hq
      rw [List.find?_eq_none] at hq
      split
      · rename_i o old' _
        apply List.Sublist.cons_cons
        apply ih
        split at h
        · simpa using h
        · simp only [List.length_cons] at h; omega
      · simp

theorem length_filter_not_mem (pos : List Nat) (m : Nat) :
    m ≤ ((List.range m).filter fun q => !(pos.contains q)).length + pos.length := by
  have h1 : ((List.range m).filter fun q => pos.contains q).length ≤ pos.length := by
    have hn : ((List.range m).filter fun q => pos.contains q).Nodup := List.nodup_range.filter _
    have hs : ((List.range m).filter fun q => pos.contains q) ⊆ pos := by
      intro x hx
      simpa using (List.mem_filter.1 hx).2
    exact (List.subperm_of_subset hn hs).length_le
  have h2 := List.length_eq_length_filter_add (l := List.range m) (fun q => pos.contains q)
  simp only [List.length_range] at h2
  omega

theorem bcast_cases {α : Type} {vs ws : List α} {m : Nat} (h : bcast vs m = .ok ws) :
    ws.length = m ∧ (∀ x ∈ ws, x ∈ vs) ∧ (vs = ws ∨ ∃ v, vs = [v] ∧ ws = List.replicate m v) := by
  unfold bcast at h
  split at h
  · simp at h; subst h; exact ⟨by assumption, fun x h => h, .inl rfl⟩
  · split at h
    · rename_i v _
      simp at h; subst h
      exact ⟨by simp, fun x hx => by simpa using (List.eq_of_mem_replicate hx), .inr ⟨v, rfl, rfl⟩⟩
    · simp at h

theorem insert_facts {α : Type} {xs vals ys : List α} {o : Obj} (h : insert xs o vals = .ok ys) :
    xs.Sublist ys ∧ ∀ y ∈ ys, y ∈ xs ∨ y ∈ vals := by
  unfold insert at h
  have hblock : ∀ i, insertBlock xs i vals = .ok ys → xs.Sublist ys ∧ ∀ y ∈ ys, y ∈ xs ∨ y ∈ vals := by
    intro i h
    rw [insertBlock_eq] at h
    split at h
    · simp only [Except.ok.injEq] at h
      subst h
      set k := (if i < 0 then i + (xs.length : Int) else i).toNat
      constructor
      · conv_lhs => rw [← List.take_append_drop k xs]
        exact (List.sublist_append_left _ _).append (List.Sublist.refl _)
      · intro y hy
        simp only [List.mem_append] at hy
        rcases hy with (h | h) | h
        · exact .inl (List.mem_of_mem_take h)
        · exact .inr h
        · exact .inl (List.mem_of_mem_drop h)
    · simp at h
  have hmulti : ∀ is, insertMulti xs is vals = .ok ys → xs.Sublist ys ∧ ∀ y ∈ ys, y ∈ xs ∨ y ∈ vals := by
    intro is h
    unfold insertMulti at h
    simp only at h
    split at h
    · simp at h
    · rename_i pos hpos
      split at h
      · simp at h
      · rename_i vals' hv
        split at h
        · simp at h
        · rename_i old hold
          simp only [Except.ok.injEq] at h
          subst h
          obtain ⟨hv1, hv2, _⟩ := bcast_cases hv
          obtain ⟨ho1, ho2, ho3⟩ := bcast_cases hold
          have hpl : pos.length = is.length := by
            have := (mapM_some.1 hpos).length_eq.symm
            simpa [addRank] using this
          have hcnt := length_filter_not_mem pos (xs.length + is.length)
          constructor
          · have hsub : old.Sublist (scatter pos vals' 0 (xs.length + is.length) old) := by
              apply sublist_scatter (by omega)
              rw [ho1, List.range_eq_range']
            refine List.Sublist.trans ?_ hsub
            rcases ho3 with rfl | ⟨v, rfl, rfl⟩
            · exact List.Sublist.refl _
            · have : 1 ≤ ((List.range ([v].length + is.length)).filter fun p => !(pos.contains p)).length := by
                simp only [List.length_singleton] at *; omega
              obtain ⟨m, hm⟩ := Nat.exists_eq_add_of_le this
              rw [hm, Nat.add_comm, List.replicate_succ]
              simp
          · intro y hy
            rcases mem_scatter hy with h | h
            · exact .inr (hv2 y h)
            · exact .inl (ho2 y h)
  split at h
  · simp at h
  · exact hblock _ h
  · exact hmulti _ h

end Verif.Np
