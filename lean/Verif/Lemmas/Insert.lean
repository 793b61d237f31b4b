import Verif.Lemmas.Index
import Mathlib.Data.List.Nodup
import Mathlib.Data.List.Perm.Basic
import Mathlib.Data.List.Perm.Subperm

namespace Verif.Np

open Verif Verif.Spec

/-! ### argsort is a stable sorting permutation -/

section argsort
variable (is : List Int)

/-- key of position j -/
def key (is : List Int) (j : Nat) : Int := is[j]?.getD 0

theorem argsort_perm : (argsort is).Perm (List.range is.length) := List.mergeSort_perm _ _

theorem argsort_nodup : (argsort is).Nodup := (argsort_perm is).nodup_iff.2 List.nodup_range

theorem argsort_length : (argsort is).length = is.length := by
  rw [(argsort_perm is).length_eq, List.length_range]

theorem mem_argsort {j : Nat} : j ∈ argsort is ↔ j < is.length := by
  rw [(argsort_perm is).mem_iff, List.mem_range]

theorem argsort_sorted : (argsort is).Pairwise fun a b => key is a ≤ key is b := by
  have := List.pairwise_mergeSort (le := fun a b => decide (is[a]?.getD 0 ≤ is[b]?.getD 0))
    (fun a b c => by simp; omega) (fun a b => by simp; omega) (List.range is.length)
  simpa [argsort, key] using this

theorem argsort_filter (k : Int) :
    (argsort is).filter (fun j => key is j == k) = (List.range is.length).filter (fun j => key is j == k) := by
  set c := (List.range is.length).filter (fun j => key is j == k) with hc
  have hsub : c.Sublist (argsort is) := by
    apply List.sublist_mergeSort
    · intro a b c; simp; omega
    · intro a b; simp; omega
    · rw [List.pairwise_iff_forall_sublist]
      intro a b hab
      have ha : a ∈ c := hab.subset (by simp)
      have hb : b ∈ c := hab.subset (by simp)
      simp [hc, key] at ha hb
      simp [ha.2, hb.2]
    · exact List.filter_sublist
  have h2 : c.Sublist ((argsort is).filter (fun j => key is j == k)) := by
    have := hsub.filter (fun j => key is j == k)
    rwa [hc, List.filter_filter, show (fun a => (key is a == k && key is a == k)) = (fun a => key is a == k) by
      funext a; simp] at this
  exact (h2.eq_of_length ((argsort_perm is).filter _).length_eq.symm).symm

end argsort

/-! ### merging -/

/-- recursion both descriptions of list insertion follow -/
theorem scatter_flatMap {α : Type _} (pos : List Nat) (vals : List α)
    (xs : List α) (sp : List (Nat × α))
    (hs : sp.Pairwise (fun a b => a.1 ≤ b.1)) (hn : ∀ q ∈ sp, q.1 ≤ xs.length)
    (hv : ∀ r (h : r < sp.length), ((pos.zip vals).reverse.find? fun q => q.1 == sp[r].1 + r).map Prod.snd = some sp[r].2)
    (hnone : ∀ p, (∀ r (h : r < sp.length), p ≠ sp[r].1 + r) →
      ((pos.zip vals).reverse.find? fun q => q.1 == p) = none) :
    ∀ fuel k r, k ≤ xs.length → r ≤ sp.length → fuel = (xs.length - k) + (sp.length - r) →
      (∀ q ∈ sp.drop r, k ≤ q.1) → (∀ q ∈ sp.take r, q.1 ≤ k) →
      scatter pos vals (k + r) fuel (xs.drop k) =
        (List.range' k (xs.length + 1 - k)).flatMap fun i =>
          ((sp.drop r).filter fun q => q.1 == i).map Prod.snd ++ (xs[i]?).toList := by
  intro fuel
  induction fuel with
  | zero =>
    intro k r hk hr hf h1 h2
    have hk' : k = xs.length := by omega
    have hr' : r = sp.length := by omega
    subst hk' hr'
    rw [show xs.length + 1 - xs.length = 1 by omega]
    simp [scatter]
  | succ m ih =>
    intro k r hk hr hf h1 h2
    by_cases hcase : ∃ h : r < sp.length, sp[r].1 = k
    · obtain ⟨hrl, hkey⟩ := hcase
      have hvr := hv r hrl
      rw [hkey] at hvr
      have hcut : sp.drop r = sp[r] :: sp.drop (r+1) := (List.getElem_cons_drop hrl).symm
      generalize hs0 : sp[r] = s0 at hcut hkey hvr
      simp only [scatter]
      cases hfind : ((pos.zip vals).reverse.find? fun q => q.1 == k + r) with
      | none => simp [hfind] at hvr
      | some q =>
        simp only [hfind, Option.map_some, Option.some.injEq] at hvr
        simp only
        have := ih k (r + 1) hk (by omega) (by omega) (fun q hq => h1 q (by rw [hcut]; simp [hq]))
          (by
            intro q hq
            rw [List.take_add_one, List.mem_append] at hq
            rcases hq with hq | hq
            · exact h2 q hq
            · simp [hrl] at hq; rw [hq, hs0]; omega)
        rw [show k + r + 1 = k + (r + 1) by omega, this, hvr, hcut]
        rw [show xs.length + 1 - k = (xs.length - k) + 1 by omega]
        simp only [List.range'_succ, List.flatMap_cons]
        have e : (List.filter (fun q => q.1 == k) (s0 :: List.drop (r + 1) sp)) =
            s0 :: List.filter (fun q => q.1 == k) (List.drop (r + 1) sp) := by
          simp [hkey]
        rw [e]
        simp only [List.map_cons, List.cons_append]
        congr 2
        apply List.flatMap_congr
        intro i hi
        have : k ≠ i := by
          simp at hi; omega
        simp [hkey, this]
    · have hgt : ∀ q ∈ sp.drop r, k < q.1 := by
        intro q hq
        rcases Nat.lt_or_ge r sp.length with hrl | hrl
        · have hcut : sp.drop r = sp[r] :: sp.drop (r+1) := (List.getElem_cons_drop hrl).symm
          have hne : sp[r].1 ≠ k := fun h => hcase ⟨hrl, h⟩
          generalize hs0 : sp[r] = s0 at hcut hne
          have hr0 : k ≤ s0.1 := h1 _ (by rw [hcut]; simp)
          have hr1 : k < s0.1 := by omega
          have hp : (sp.drop r).Pairwise (fun a b => a.1 ≤ b.1) := hs.sublist (List.drop_sublist _ _)
          rw [hcut] at hq hp
          rcases List.mem_cons.1 hq with rfl | hq
          · exact hr1
          · have := (List.pairwise_cons.1 hp).1 q hq; omega
        · rw [List.drop_eq_nil_of_le hrl] at hq; simp at hq
      have hno : ((pos.zip vals).reverse.find? fun q => q.1 == k + r) = none := by
        apply hnone
        intro j hj
        rcases Nat.lt_or_ge j r with h | h
        · have : sp[j] ∈ sp.take r := by
            rw [List.mem_take_iff_getElem]; exact ⟨j, by omega, rfl⟩
          have := h2 _ this
          omega
        · have : sp[j] ∈ sp.drop r := by
            rw [List.mem_drop_iff_getElem]; exact ⟨j - r, by omega, by simp [show r + (j - r) = j by omega]⟩
          have := hgt _ this
          omega
      have hkl : k < xs.length := by
        by_contra hc
        have hk' : k = xs.length := by omega
        have hrl : r < sp.length := by omega
        have hm : sp[r] ∈ sp.drop r := by
          rw [List.mem_drop_iff_getElem]; exact ⟨0, by omega, by simp⟩
        have := hgt _ hm
        have := hn _ (List.mem_of_mem_drop hm)
        omega
      have hdrop : xs.drop k = xs[k] :: xs.drop (k + 1) := (List.getElem_cons_drop hkl).symm
      simp only [scatter, hno, hdrop]
      have := ih (k + 1) r (by omega) hr (by omega) (fun q hq => hgt q hq)
        (fun q hq => by have := h2 q hq; omega)
      rw [show k + r + 1 = k + 1 + r by omega, this]
      rw [show xs.length + 1 - k = (xs.length - k) + 1 by omega]
      simp only [List.range'_succ, List.flatMap_cons]
      have e : (List.filter (fun q => q.1 == k) (List.drop r sp)) = [] := by
        rw [List.filter_eq_nil_iff]
        intro q hq
        have := hgt q hq
        simp; omega
      rw [e, show xs.length + 1 - (k + 1) = xs.length - k by omega]
      simp [hkl]

theorem filter_map_zip {α : Type _} (is : List Int) (vals : List α) (h : vals.length = is.length) (k : Nat)
    (f : Int → Nat) :
    (((is.map f).zip vals).filter fun q => q.1 == k).map Prod.snd =
      ((List.range is.length).filter fun j => f (key is j) == k).filterMap (vals[·]?) := by
  have e : (is.map f).zip vals = (List.range is.length).filterMap
      (fun j => (vals[j]?).map fun v => (f (key is j), v)) := by
    apply List.ext_getElem?
    intro i
    by_cases hi : i < is.length
    · have hv : i < vals.length := by omega
      have e2 : ∀ (l : List Nat) (hmem : ∀ j ∈ l, j < is.length),
          l.filterMap (fun j => (vals[j]?).map fun v => (f (key is j), v))
          = l.pmap (fun j (hj : j < is.length) => (f (key is j), vals[j]'(by omega))) hmem := by
        intro l hmem
        induction l with
        | nil => rfl
        | cons a l ih =>
          have ha : a < vals.length := by rw [h]; exact hmem a (by simp)
          simp only [List.filterMap_cons, List.getElem?_eq_getElem ha, Option.map_some, List.pmap_cons]
          rw [ih (fun j hj => hmem j (by simp [hj]))]
      rw [e2 _ (fun j hj => List.mem_range.1 hj)]
      simp [hi, hv, key]
    · have hl : (List.range is.length).length ≤ i := by simp; omega
      have : ((is.map f).zip vals)[i]? = none := by simp; omega
      rw [this, eq_comm, List.getElem?_eq_none_iff]
      exact le_trans (List.length_filterMap_le _ _) hl
  rw [e]
  generalize List.range is.length = l
  induction l with
  | nil => rfl
  | cons a l ih =>
    simp only [List.filterMap_cons]
    cases hv : vals[a]? with
    | none =>
      by_cases hk : f (key is a) == k <;> simp [hk, hv, ih]
    | some v =>
      by_cases hk : f (key is a) == k <;> simp [hk, hv, ih]

theorem sum_rank_lt {is : List Int} {a b : Nat} (hab : a < b) (hb : b < (argsort is).length) :
    key is ((argsort is)[a]'(by omega)) ≤ key is ((argsort is)[b]) := by
  have := argsort_sorted is
  rw [List.pairwise_iff_getElem] at this
  exact this a b (by omega) hb hab

set_option maxHeartbeats 1000000 in
/-- list insertion at several positions is the specified merge -/
theorem insertMulti_eq {α : Type} (xs vals : List α) (is : List Int)
    (hr : ∀ i ∈ is, -(xs.length : Int) ≤ i ∧ i ≤ xs.length) (hl : vals.length = is.length) :
    insertMulti xs is vals =
      .ok (insertBefore xs ((is.map fun i => (if i < 0 then i + (xs.length : Int) else i).toNat).zip vals)) := by
  set n := xs.length with hn
  set is1 := is.map fun i => if i < 0 then i + (n : Int) else i with his1
  have hl1 : is1.length = is.length := by simp [his1]
  have hr1 : ∀ i ∈ is1, 0 ≤ i ∧ i ≤ n := by
    intro i hi
    simp only [his1, List.mem_map] at hi
    obtain ⟨j, hj, rfl⟩ := hi
    have := hr j hj
    split <;> omega
  have hkey : ∀ j < is.length, 0 ≤ key is1 j ∧ key is1 j ≤ n := by
    intro j hj
    have : j < is1.length := by omega
    have hk : key is1 j = is1[j] := by simp [key, this]
    rw [hk]; exact hr1 _ (List.getElem_mem _)
  set ord := argsort is1 with hord
  have hol : ord.length = is.length := by rw [hord, argsort_length, hl1]
  have hrank : ∀ j < is.length, ord.idxOf j < is.length := by
    intro j hj
    rw [← hol]; exact List.idxOf_lt_length_of_mem ((mem_argsort _).2 (by omega))
  have hordj : ∀ j (hj : j < is.length), ord[ord.idxOf j]'(by rw [hol]; exact hrank j hj) = j := by
    intro j hj; exact List.getElem_idxOf _
  -- positions
  set pos := (List.range is.length).map fun j => (key is1 j + (ord.idxOf j : Int)).toNat with hpos
  have hposM : (addRank is1).mapM (normIdx (n + is.length)) = some pos := by
    rw [mapM_some, hpos, addRank, hl1, List.forall₂_map_left_iff, List.forall₂_map_right_iff,
      List.forall₂_same]
    intro j hj
    have hj := List.mem_range.1 hj
    have := hkey j hj
    have := hrank j hj
    rw [normIdx_eq_some, IsPos]
    rw [← hord]
    simp only [key] at *
    omega
  have hpi : ∀ j (hj : j < pos.length), pos[j] = (key is1 j + (ord.idxOf j : Int)).toNat := by
    intro j hj; simp [hpos]
  have hpl : pos.length = is.length := by simp [hpos]
  -- sorted pairs
  have hmem : ∀ j ∈ ord, j < is.length := fun j hj => by rw [← hl1]; exact (mem_argsort _).1 hj
  set sp : List (Nat × α) := ord.pmap (fun j (hj : j < is.length) => ((key is1 j).toNat, vals[j]'(by omega))) hmem with hsp
  have hspl : sp.length = is.length := by simp [hsp, hol]
  have hspr : ∀ r (h : r < sp.length), sp[r] =
      ((key is1 (ord[r]'(by omega))).toNat, vals[ord[r]'(by omega)]'(by rw [hl]; exact hmem _ (List.getElem_mem _))) := by
    intro r h; simp [hsp]
  have hposr : ∀ r (h : r < sp.length), pos[ord[r]'(by omega)]'(by rw [hpl]; exact hmem _ (List.getElem_mem _)) = sp[r].1 + r := by
    intro r h
    rw [hpi, hspr]
    have : ord.idxOf (ord[r]'(by omega)) = r := (argsort_nodup is1).idxOf_getElem r (by rw [← hord]; omega)
    rw [this]
    have := hkey (ord[r]'(by omega)) (hmem _ (List.getElem_mem _))
    simp only; omega
  have hsorted : sp.Pairwise (fun a b => a.1 ≤ b.1) := by
    rw [List.pairwise_iff_getElem]
    intro a b ha hb hab
    rw [hspr, hspr]
    have := sum_rank_lt (is := is1) hab (by rw [hord] at hol; omega)
    simp only [← hord] at this
    simp only
    omega
  have hstrict : ∀ a b (ha : a < sp.length) (hb : b < sp.length), sp[a].1 + a = sp[b].1 + b → a = b := by
    intro a b ha hb hab
    rw [List.pairwise_iff_getElem] at hsorted
    rcases Nat.lt_trichotomy a b with h | h | h
    · have := hsorted a b ha hb h; omega
    · exact h
    · have := hsorted b a hb ha h; omega
  have hposnodup : pos.Nodup := by
    rw [List.nodup_iff_injective_getElem]
    intro ⟨a, ha⟩ ⟨b, hb⟩ hab
    simp only at hab
    rw [hpl] at ha hb
    have ea := hposr (ord.idxOf a) (by rw [hspl]; exact hrank a ha)
    have eb := hposr (ord.idxOf b) (by rw [hspl]; exact hrank b hb)
    simp only [hordj a ha] at ea
    simp only [hordj b hb] at eb
    have hidx := hstrict (ord.idxOf a) (ord.idxOf b) (by rw [hspl]; exact hrank a ha)
      (by rw [hspl]; exact hrank b hb) (by rw [← ea, ← eb]; exact hab)
    have h3 := hordj a ha
    have h4 := hordj b hb
    simp only [Fin.mk.injEq]
    rw [← h3, ← h4]
    congr 1
  have hposlt : ∀ p ∈ pos, p < n + is.length := by
    intro p hp
    simp only [hpos, List.mem_map, List.mem_range] at hp
    obtain ⟨j, hj, rfl⟩ := hp
    have := hkey j hj
    have := hrank j hj
    omega
  have hcnt : ((List.range (n + is.length)).filter fun p => !(pos.contains p)).length = n := by
    have h1 : ((List.range (n + is.length)).filter fun p => pos.contains p).Perm pos := by
      rw [List.perm_ext_iff_of_nodup (List.nodup_range.filter _) hposnodup]
      intro p
      simp only [List.mem_filter, List.mem_range, List.contains_iff_mem]
      exact ⟨fun h => h.2, fun h => ⟨hposlt p h, h⟩⟩
    have h2 := List.length_eq_length_filter_add (l := List.range (n + is.length)) (fun p => pos.contains p)
    rw [h1.length_eq, hpl, List.length_range] at h2
    omega
  have hbv : bcast vals is.length = .ok vals := by simp [bcast, hl]
  have hbx : bcast xs n = .ok xs := by simp [bcast, hn]
  -- lookups
  have hfind : ∀ r (h : r < sp.length),
      ((pos.zip vals).reverse.find? fun q => q.1 == sp[r].1 + r).map Prod.snd = some sp[r].2 := by
    intro r h
    have hjr : ord[r]'(by omega) < is.length := hmem _ (List.getElem_mem _)
    cases hf : ((pos.zip vals).reverse.find? fun q => q.1 == sp[r].1 + r) with
    | none =>
      rw [List.find?_eq_none] at hf
      have : (pos[ord[r]'(by omega)]'(by omega), vals[ord[r]'(by omega)]'(by omega)) ∈ (pos.zip vals).reverse := by
        rw [List.mem_reverse, List.mem_iff_getElem]
        exact ⟨ord[r]'(by omega), by simp; omega, by simp⟩
      have := hf _ this
      simp only [beq_iff_eq] at this
      exact absurd (hposr r h) this
    | some q =>
      have hq := List.find?_some hf
      have hm := List.mem_of_find?_eq_some hf
      rw [List.mem_reverse, List.mem_iff_getElem] at hm
      obtain ⟨j, hj, rfl⟩ := hm
      simp only [List.getElem_zip, beq_iff_eq] at hq
      rw [← hposr r h] at hq
      have hinj := (List.nodup_iff_injective_getElem.1 hposnodup) (a₁ := ⟨j, by simp at hj; omega⟩)
        (a₂ := ⟨ord[r]'(by omega), by omega⟩) hq
      simp only [Fin.mk.injEq] at hinj
      simp only [List.getElem_zip, Option.map_some, Option.some.injEq, hspr r h]
      congr 1
  have hnone : ∀ p, (∀ r (h : r < sp.length), p ≠ sp[r].1 + r) →
      ((pos.zip vals).reverse.find? fun q => q.1 == p) = none := by
    intro p hp
    rw [List.find?_eq_none]
    intro q hq
    rw [List.mem_reverse, List.mem_iff_getElem] at hq
    obtain ⟨j, hj, rfl⟩ := hq
    have hj' : j < is.length := by simp at hj; omega
    simp only [List.getElem_zip, beq_iff_eq]
    have := hposr (ord.idxOf j) (by rw [hspl]; exact hrank j hj')
    simp only [hordj j hj'] at this
    rw [this]
    exact fun e => hp (ord.idxOf j) (by rw [hspl]; exact hrank j hj') e.symm
  have hmain := scatter_flatMap pos vals xs sp hsorted
    (by
      intro q hq
      rw [List.mem_iff_getElem] at hq
      obtain ⟨r, h, rfl⟩ := hq
      rw [hspr r h]
      have := hkey (ord[r]'(by omega)) (hmem _ (List.getElem_mem _))
      simp only; omega)
    hfind hnone (n + is.length) 0 0 (by omega) (by omega) (by omega) (by simp) (by simp)
  -- filters agree
  have hfilt : ∀ k, (sp.filter fun q => q.1 == k).map Prod.snd =
      (((is.map fun i => (if i < 0 then i + (n : Int) else i).toNat).zip vals).filter fun q => q.1 == k).map Prod.snd := by
    intro k
    have e1 : (is.map fun i => (if i < 0 then i + (n : Int) else i).toNat) = is1.map Int.toNat := by
      simp [his1]
    rw [e1, filter_map_zip is1 vals (by omega) k]
    have e2 : (List.range is1.length).filter (fun j => (key is1 j).toNat == k) =
        (List.range is1.length).filter (fun j => key is1 j == (k : Int)) := by
      apply List.filter_congr
      intro j hj
      have := hkey j (by rw [← hl1]; exact List.mem_range.1 hj)
      rw [Bool.eq_iff_iff]; simp; omega
    rw [e2, ← argsort_filter, ← hord, hsp]
    have gen : ∀ (l : List Nat) (hl' : ∀ j ∈ l, j < is.length),
        ((l.pmap (fun j (hj : j < is.length) => ((key is1 j).toNat, vals[j]'(by omega))) hl').filter fun q => q.1 == k).map Prod.snd
          = (l.filter fun j => key is1 j == (k : Int)).filterMap (vals[·]?) := by
      intro l
      induction l with
      | nil => intro _; rfl
      | cons a l ih =>
        intro hl'
        have ha := hl' a (by simp)
        have hka := hkey a ha
        simp only [List.pmap_cons]
        have iha := ih (fun j hj => hl' j (by simp [hj]))
        have hva : a < vals.length := by omega
        by_cases hk : key is1 a = k
        · have : ((key is1 a).toNat == k) = true := by simp; omega
          rw [List.filter_cons, List.filter_cons]
          simp [hk, iha, List.getElem?_eq_getElem hva]
        · have : ((key is1 a).toNat == k) = false := by simp; omega
          rw [List.filter_cons, List.filter_cons]
          simp only [this, hk, beq_iff_eq, if_false]
          simpa using iha
    exact gen ord hmem
  unfold insertMulti
  simp only [← his1, ← hn, hposM, hbv, hcnt, hbx]
  rw [List.drop_zero, Nat.add_zero] at hmain
  rw [hmain]
  simp only [List.drop_zero, Nat.sub_zero, insertBefore, ← List.range_eq_range', ← hn]
  congr 1
  apply List.flatMap_congr
  intro k _
  rw [hfilt k]

/-- insertion of a block at one position -/
theorem insertBlock_eq {α : Type} (xs vals : List α) (i : Int) :
    insertBlock xs i vals =
      if -(xs.length : Int) ≤ i ∧ i ≤ xs.length then
        .ok (xs.take (if i < 0 then i + (xs.length : Int) else i).toNat ++ vals ++
          xs.drop (if i < 0 then i + (xs.length : Int) else i).toNat)
      else .error .indexError := by
  unfold insertBlock
  by_cases h : -(xs.length : Int) ≤ i ∧ i ≤ xs.length
  · have : ¬ (i < -(xs.length : Int) ∨ i > xs.length) := by omega
    simp [h, this]
  · have : (i < -(xs.length : Int) ∨ i > xs.length) := by omega
    simp [h, this]

theorem insert_int {α : Type} (xs vals : List α) (i : Int) :
    insert xs (.int i) vals = insertBlock xs i vals := rfl

theorem insert_arr {α : Type} (xs vals : List α) (is : List Int) (h : is.length ≠ 1) :
    insert xs (.arr is) vals = insertMulti xs is vals := by
  match is, h with
  | [], _ => rfl
  | [_], h => simp at h
  | _ :: _ :: _, _ => rfl

end Verif.Np
