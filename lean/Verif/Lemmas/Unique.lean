import Verif.Lemmas.Select
import Verif.Lemmas.Insert
import Mathlib.Order.Defs.LinearOrder

/-!
`np.unique(axis=0, return_index=True)` finds first occurrences.
-/
namespace Verif.Model

open Verif Verif.Np

variable {α : Type} [LinearOrder α]

theorem lexLe_refl (a : List α) : lexLe a a = true := by
  induction a with
  | nil => rfl
  | cons x xs ih => simp [lexLe, ih]

theorem lexLe_total (a b : List α) : lexLe a b = true ∨ lexLe b a = true := by
  induction a generalizing b with
  | nil => simp [lexLe]
  | cons x xs ih =>
    cases b with
    | nil => simp [lexLe]
    | cons y ys =>
      simp only [lexLe]
      by_cases h : x = y
      · subst h; simpa using ih ys
      · have h' : ¬ y = x := fun e => h e.symm
        simp only [h, h', if_false, decide_eq_true_eq]
        exact le_total x y

theorem lexLe_antisymm {a b : List α} (h1 : lexLe a b = true) (h2 : lexLe b a = true) : a = b := by
  induction a generalizing b with
  | nil => cases b with
    | nil => rfl
    | cons y ys => simp [lexLe] at h2
  | cons x xs ih =>
    cases b with
    | nil => simp [lexLe] at h1
    | cons y ys =>
      simp only [lexLe] at h1 h2
      by_cases h : x = y
      · subst h; simp at h1 h2; rw [ih h1 h2]
      · have h' : ¬ y = x := fun e => h e.symm
        simp only [h, h', if_false, decide_eq_true_eq] at h1 h2
        exact absurd (le_antisymm h1 h2) h

theorem lexLe_trans {a b c : List α} (h1 : lexLe a b = true) (h2 : lexLe b c = true) : lexLe a c = true := by
  induction a generalizing b c with
  | nil => simp [lexLe]
  | cons x xs ih =>
    cases b with
    | nil => simp [lexLe] at h1
    | cons y ys =>
      cases c with
      | nil => simp [lexLe] at h2
      | cons z zs =>
        simp only [lexLe] at h1 h2 ⊢
        by_cases hxy : x = y
        · subst hxy
          simp only [if_true] at h1
          by_cases hxz : x = z
          · subst hxz; simp only [if_true] at h2 ⊢; exact ih h1 h2
          · simp only [hxz, if_false] at h2 ⊢; exact h2
        · simp only [hxy, if_false, decide_eq_true_eq] at h1
          by_cases hyz : y = z
          · subst hyz; simp only [hxy, if_false, decide_eq_true_eq]; exact h1
          · simp only [hyz, if_false, decide_eq_true_eq] at h2
            have hlt : x < z := lt_of_lt_of_le (lt_of_le_of_ne h1 hxy) h2
            simp only [ne_of_lt hlt, if_false, decide_eq_true_eq]
            exact le_of_lt hlt

/-- stable sorting keeps the order inside a class -/
theorem mergeSort_filter {β : Type} (le : β → β → Bool) (p : β → Bool) (l : List β)
    (htr : ∀ a b c, le a b = true → le b c = true → le a c = true)
    (htot : ∀ a b, (le a b || le b a) = true) (hp : ∀ a b, p a = true → p b = true → le a b = true) :
    (l.mergeSort le).filter p = l.filter p := by
  have hsub : (l.filter p).Sublist (l.mergeSort le) := by
    apply List.sublist_mergeSort htr htot
    · rw [List.pairwise_iff_forall_sublist]
      intro a b hab
      have ha : a ∈ l.filter p := hab.subset (by simp)
      have hb : b ∈ l.filter p := hab.subset (by simp)
      exact hp a b (List.mem_filter.1 ha).2 (List.mem_filter.1 hb).2
    · exact List.filter_sublist
  have h2 := hsub.filter p
  rw [List.filter_filter] at h2
  simp only [Bool.and_self] at h2
  exact (h2.eq_of_length ((List.mergeSort_perm l le).filter p).length_eq.symm).symm

/-- the order in which np.unique visits the positions -/
def visit (rows : List (List α)) : List Nat :=
  (List.range rows.length).mergeSort fun a b => lexLe (rows.getD a []) (rows.getD b [])

theorem visit_perm (rows : List (List α)) : (visit rows).Perm (List.range rows.length) := List.mergeSort_perm _ _

/-- relation between earlier and later positions in the visit -/
def VRel (rows : List (List α)) (a b : Nat) : Prop :=
  lexLe (rows.getD a []) (rows.getD b []) = true ∧ (rows.getD a [] = rows.getD b [] → a < b)

theorem visit_pairwise (rows : List (List α)) : (visit rows).Pairwise (VRel rows) := by
  have htr : ∀ a b c : Nat, lexLe (rows.getD a []) (rows.getD b []) = true →
      lexLe (rows.getD b []) (rows.getD c []) = true → lexLe (rows.getD a []) (rows.getD c []) = true :=
    fun a b c h1 h2 => lexLe_trans h1 h2
  have htot : ∀ a b : Nat, (lexLe (rows.getD a []) (rows.getD b []) || lexLe (rows.getD b []) (rows.getD a [])) = true := by
    intro a b; rw [Bool.or_eq_true]; exact lexLe_total _ _
  have h1 := List.pairwise_mergeSort (le := fun a b => lexLe (rows.getD a []) (rows.getD b [])) htr htot
    (List.range rows.length)
  rw [List.pairwise_iff_forall_sublist] at h1 ⊢
  intro a b hab
  refine ⟨h1 hab, ?_⟩
  intro he
  have hf := mergeSort_filter (fun a b => lexLe (rows.getD a []) (rows.getD b []))
    (fun j => decide (rows.getD j [] = rows.getD a [])) (List.range rows.length) htr htot (by
      intro x y hx hy
      simp only [decide_eq_true_eq] at hx hy
      rw [hx, hy]; exact lexLe_refl _)
  have hs := hab.filter (fun j => decide (rows.getD j [] = rows.getD a []))
  unfold visit at hs
  rw [hf] at hs
  simp only [List.filter_cons, he, decide_true, if_true, List.filter_nil] at hs
  have := (List.pairwise_lt_range (n := rows.length)).filter (fun j => decide (rows.getD j [] = rows.getD b []))
  rw [List.pairwise_iff_forall_sublist] at this
  exact this hs

theorem getElem?_ne_iff (rows : List (List α)) {a b : Nat} (ha : a < rows.length) (hb : b < rows.length) :
    rows[a]? ≠ rows[b]? ↔ rows.getD a [] ≠ rows.getD b [] := by
  simp [List.getD_eq_getElem?_getD, ha, hb]

theorem mem_diffPrev (rows : List (List α)) (prev : Nat) (l : List Nat) (hlt : ∀ x ∈ prev :: l, x < rows.length)
    (hp : (prev :: l).Pairwise (VRel rows)) (x : Nat) :
    x ∈ diffPrev rows prev l ↔ x ∈ l ∧ ∀ y ∈ prev :: l, rows.getD y [] = rows.getD x [] → x ≤ y := by
  induction l generalizing prev with
  | nil => simp [diffPrev]
  | cons j rest ih =>
    have hprev := hlt prev (by simp)
    have hj := hlt j (by simp)
    have hpp := List.pairwise_cons.1 hp
    have hpj := List.pairwise_cons.1 hpp.2
    have ihj := ih j (fun y hy => hlt y (by simp [List.mem_cons.1 hy] )) hpp.2
    have hR := hpp.1 j (by simp)
    by_cases hne : rows.getD j [] = rows.getD prev []
    · have : ¬ rows[j]? ≠ rows[prev]? := by rw [getElem?_ne_iff rows hj hprev]; simpa using hne
      simp only [diffPrev, this, if_false]
      rw [ihj]
      constructor
      · rintro ⟨h1, h2⟩
        refine ⟨by simp [h1], ?_⟩
        intro y hy he
        rcases List.mem_cons.1 hy with rfl | hy
        · have h3 := h2 j (by simp) (hne.trans he)
          have h4 := (hpj.1 x h1).2 (hne.trans he)
          omega
        · exact h2 y hy he
      · rintro ⟨h1, h2⟩
        rcases List.mem_cons.1 h1 with rfl | h1
        · have h3 := h2 prev (by simp) hne.symm
          have h4 := hR.2 hne.symm
          omega
        · exact ⟨h1, fun y hy he => h2 y (by simp [List.mem_cons.1 hy]) he⟩
    · have : rows[j]? ≠ rows[prev]? := by rw [getElem?_ne_iff rows hj hprev]; exact hne
      simp only [diffPrev, ne_eq, this, not_false_eq_true, if_true, List.mem_cons]
      rw [ihj]
      constructor
      · rintro (rfl | ⟨h1, h2⟩)
        · refine ⟨.inl rfl, ?_⟩
          rintro y (rfl | rfl | hy) he
          · exact absurd he.symm hne
          · exact le_refl _
          · exact le_of_lt ((hpj.1 y hy).2 he.symm)
        · refine ⟨.inr h1, ?_⟩
          rintro y (rfl | hy) he
          · exfalso
            have h3 := (hpj.1 x h1).1
            rw [← he] at h3
            exact hne (lexLe_antisymm h3 hR.1)
          · exact h2 y (List.mem_cons.2 hy) he
      · rintro ⟨rfl | h1, h2⟩
        · exact .inl rfl
        · exact .inr ⟨h1, fun y hy he => h2 y (.inr (List.mem_cons.1 hy)) he⟩

theorem diffPrev_sublist (rows : List (List α)) (prev : Nat) (l : List Nat) : (diffPrev rows prev l).Sublist l := by
  induction l generalizing prev with
  | nil => exact .slnil
  | cons j rest ih =>
    simp only [diffPrev]
    split
    · exact (ih j).cons_cons j
    · exact (ih j).cons j

/-- np.unique returns exactly the first occurrences -/
theorem mem_uniqueIndex (rows : List (List α)) (x : Nat) :
    x ∈ uniqueIndex rows ↔ x < rows.length ∧ ∀ y, y < x → rows[y]? ≠ rows[x]? := by
  have hperm := visit_perm rows
  have hp := visit_pairwise rows
  have hmem : ∀ y, y ∈ visit rows ↔ y < rows.length := fun y => by rw [hperm.mem_iff, List.mem_range]
  have key : x ∈ uniqueIndex rows ↔ x ∈ visit rows ∧ ∀ y ∈ visit rows, rows.getD y [] = rows.getD x [] → x ≤ y := by
    unfold uniqueIndex
    change x ∈ firstOfRuns rows (visit rows) ↔ _
    match hv : visit rows with
    | [] => simp [firstOfRuns]
    | i :: rest =>
      rw [hv] at hp hmem
      have hpp := List.pairwise_cons.1 hp
      simp only [firstOfRuns, List.mem_cons]
      rw [mem_diffPrev rows i rest (fun y hy => (hmem y).1 hy) hp]
      constructor
      · rintro (rfl | ⟨h1, h2⟩)
        · refine ⟨.inl rfl, ?_⟩
          rintro y (rfl | hy) he
          · exact le_refl _
          · exact le_of_lt ((hpp.1 y hy).2 he.symm)
        · exact ⟨.inr h1, fun y hy he => h2 y (List.mem_cons.2 hy) he⟩
      · rintro ⟨rfl | h1, h2⟩
        · exact .inl rfl
        · exact .inr ⟨h1, fun y hy he => h2 y (List.mem_cons.1 hy) he⟩
  rw [key, hmem]
  constructor
  · rintro ⟨h1, h2⟩
    refine ⟨h1, fun y hy => ?_⟩
    rw [getElem?_ne_iff rows (by omega) h1]
    intro he
    have := h2 y ((hmem y).2 (by omega)) he
    omega
  · rintro ⟨h1, h2⟩
    refine ⟨h1, fun y hy he => ?_⟩
    by_contra hlt
    have := h2 y (by omega)
    rw [getElem?_ne_iff rows ((hmem y).1 hy) h1] at this
    exact this he

theorem nodup_uniqueIndex (rows : List (List α)) : (uniqueIndex rows).Nodup := by
  have hn : (visit rows).Nodup := (visit_perm rows).nodup_iff.2 List.nodup_range
  unfold uniqueIndex
  change (firstOfRuns rows (visit rows)).Nodup
  match hv : visit rows with
  | [] => simp [firstOfRuns]
  | i :: rest =>
    rw [hv] at hn
    simp only [firstOfRuns]
    exact hn.sublist ((diffPrev_sublist rows i rest).cons_cons i)

end Verif.Model
