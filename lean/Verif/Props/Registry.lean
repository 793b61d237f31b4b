import Verif.Model.Registry
import Verif.Spec.Registry
import Mathlib.Data.List.Basic
import Mathlib.Data.List.Induction
import Mathlib.Data.List.Nodup

/-!
Method registries (C49) and the errors of `intersect` (C47).
-/
namespace Verif.Props

open Verif Verif.Model Verif.Spec

section
variable {ι : Type}

/-- The registration attempts of a history; `ok` says which objects are acceptable. -/
def attempts (ok : Cand ι → Bool) (ops : List (RegOp ι)) : List (Attempt ι) :=
  ops.filterMap fun
    | .register name c _ => some ⟨name, c.impl, ok c⟩
    | _ => none

/-- The names of the acceptable attempts. -/
def acceptedNames (h : List (Attempt ι)) : List String := (h.filter (·.acceptable)).map (·.name)

theorem has_iff (r : Reg ι) (s : String) : r.has s = true ↔ s ∈ r.names := by
  simp [Reg.has, Reg.names]

theorem has_false_iff (r : Reg ι) (s : String) : r.has s = false ↔ s ∉ r.names := by
  rw [← has_iff]; simp

theorem mem_firstsOf (xs : List String) (x : String) : x ∈ firstsOf xs ↔ x ∈ xs := by
  induction xs with
  | nil => simp [firstsOf]
  | cons a xs ih =>
    simp only [firstsOf, List.mem_cons, List.mem_filter, ih, decide_eq_true_eq, ne_eq]
    by_cases h : x = a <;> simp [h]

theorem firstsOf_nodup (xs : List String) : (firstsOf xs).Nodup := by
  induction xs with
  | nil => simp [firstsOf]
  | cons a xs ih =>
    simp only [firstsOf, List.nodup_cons, List.mem_filter]
    exact ⟨by simp, ih.filter _⟩

theorem firstsOf_append (xs : List String) (x : String) :
    firstsOf (xs ++ [x]) = if x ∈ xs then firstsOf xs else firstsOf xs ++ [x] := by
  induction xs with
  | nil => simp [firstsOf]
  | cons a xs ih =>
    simp only [List.cons_append, firstsOf, ih, List.mem_cons]
    by_cases h1 : x = a
    · subst h1
      by_cases h2 : x ∈ xs <;> simp [h2]
    · by_cases h2 : x ∈ xs <;> simp [h1, h2]

theorem firstAttempt_append (h : List (Attempt ι)) (a : Attempt ι) (s : String) (i : ι) :
    FirstAttempt (h ++ [a]) s i ↔
      FirstAttempt h s i ∨ (s ∉ acceptedNames h ∧ a.name = s ∧ a.impl = i ∧ a.acceptable = true) := by
  have key : (s ∉ acceptedNames h) ↔ ∀ b ∈ h, b.name = s → b.acceptable = false := by
    simp only [acceptedNames, List.mem_map, List.mem_filter, not_exists, not_and, and_imp]
    constructor
    · intro q b hb hs
      by_contra hc
      exact q b hb (by simpa using hc) hs
    · intro q b hb hc hs
      rw [q b hb hs] at hc; simp at hc
  rw [key]
  constructor
  · rintro ⟨pre, post, b, e, h1, h2, h3, h4⟩
    rcases List.eq_nil_or_concat post with rfl | ⟨post', c, rfl⟩
    · have := List.append_inj' e (by simp)
      obtain ⟨rfl, e2⟩ := this
      injection e2 with e2 _
      subst e2
      exact .inr ⟨h4, h1, h2, h3⟩
    · have e' : h ++ [a] = (pre ++ b :: post') ++ [c] := by rw [e]; simp
      have := List.append_inj' e' (by simp)
      exact .inl ⟨pre, post', b, this.1, h1, h2, h3, h4⟩
  · rintro (⟨pre, post, b, e, h1, h2, h3, h4⟩ | ⟨h4, h1, h2, h3⟩)
    · exact ⟨pre, post ++ [a], b, by rw [e]; simp, h1, h2, h3, h4⟩
    · exact ⟨h, [], a, rfl, h1, h2, h3, h4⟩

theorem setItem_new {r : Reg ι} {s : String} (h : r.has s = false) (v : ι) :
    r.setItem s v = ⟨r.entries ++ [(s, v)], r.default⟩ := by
  unfold Reg.setItem; rw [if_neg (by simp [h])]

/-- What the three registries have in common. -/
structure Lawful (step : Reg ι → RegOp ι → Reg ι) (ok : Cand ι → Bool) : Prop where
  reg : ∀ r s c d, (step r (.register s c d)).entries =
    if r.has s = false ∧ ok c = true then r.entries ++ [(s, c.impl)] else r.entries
  setDefault : ∀ r s, (step r (.setDefault s)).entries = r.entries
  lookup : ∀ r s, (step r (.lookup s)).entries = r.entries
  list : ∀ r, (step r .list).entries = r.entries

theorem lawfulIntersect : Lawful (ι := ι) stepIntersect Cand.isSub where
  reg := by
    intro r s c d
    simp only [stepIntersect, registerIntersect, setDefaultIntersect]
    cases h : r.has s <;> cases h2 : c.isSub <;> cases d <;> simp [setItem_new, h]
    split <;> rfl
  setDefault := by intro r s; simp only [stepIntersect, setDefaultIntersect]; split <;> rfl
  lookup := fun _ _ => rfl
  list := fun _ => rfl

theorem lawfulInterp : Lawful (ι := ι) stepInterp Cand.isSub where
  reg := by
    intro r s c d
    simp only [stepInterp, registerInterp]
    cases h : r.has s <;> cases h2 : c.isSub <;> simp [setItem_new, h]
  setDefault := fun _ _ => rfl
  lookup := fun _ _ => rfl
  list := fun _ => rfl

theorem lawfulSmooth : Lawful (ι := ι) stepSmooth (fun _ => true) where
  reg := by
    intro r s c d
    simp only [stepSmooth, registerSmooth]
    cases h : r.has s <;> simp [setItem_new, h]
  setDefault := fun _ _ => rfl
  lookup := fun _ _ => rfl
  list := fun _ => rfl

theorem attempts_append (ok : Cand ι → Bool) (ops : List (RegOp ι)) (op : RegOp ι) :
    attempts ok (ops ++ [op]) = attempts ok ops ++ attempts ok [op] := by
  simp [attempts, List.filterMap_append]

theorem names_append (r : Reg ι) (e : String × ι) (d : Option String) : (⟨r.entries ++ [e], d⟩ : Reg ι).names = r.names ++ [e.1] := by
  simp [Reg.names]

theorem history {step : Reg ι → RegOp ι → Reg ι} {ok : Cand ι → Bool} (L : Lawful step ok) (ops : List (RegOp ι)) :
    (ops.foldl step Reg.empty).names = firstsOf (acceptedNames (attempts ok ops)) ∧
    ∀ s i, ((ops.foldl step Reg.empty).entries.find? fun e => e.1 == s) = some (s, i) ↔ FirstAttempt (attempts ok ops) s i := by
  induction ops using List.reverseRecOn with
  | nil =>
    refine ⟨rfl, fun s i => ?_⟩
    simp [Reg.empty, attempts, FirstAttempt]
  | append_singleton ops op ih =>
    obtain ⟨ih1, ih2⟩ := ih
    rw [List.foldl_append, List.foldl_cons, List.foldl_nil]
    set r := ops.foldl step Reg.empty with hr
    rw [attempts_append]
    have same : (step r op).entries = r.entries → attempts ok [op] = [] →
        (step r op).names = firstsOf (acceptedNames (attempts ok ops ++ attempts ok [op])) ∧
        ∀ s i, ((step r op).entries.find? fun e => e.1 == s) = some (s, i) ↔ FirstAttempt (attempts ok ops ++ attempts ok [op]) s i := by
      intro he ha
      rw [ha, List.append_nil]
      refine ⟨?_, ?_⟩
      · unfold Reg.names; rw [he]; exact ih1
      · rw [he]; exact ih2
    cases op with
    | setDefault s => exact same (L.setDefault r s) rfl
    | lookup s => exact same (L.lookup r s) rfl
    | list => exact same (L.list r) rfl
    | register s c d =>
      have ha : attempts ok [RegOp.register s c d] = [⟨s, c.impl, ok c⟩] := rfl
      rw [ha]
      have hreg := L.reg r s c d
      have hnames : (step r (.register s c d)).names = if r.has s = false ∧ ok c = true then r.names ++ [s] else r.names := by
        unfold Reg.names
        rw [hreg]
        split <;> simp
      have hmem : s ∈ acceptedNames (attempts ok ops) ↔ s ∈ r.names := by rw [ih1, mem_firstsOf]
      constructor
      · rw [hnames, acceptedNames, List.filter_append, List.map_append]
        by_cases hok : ok c = true
        · simp only [List.filter_cons, hok, List.filter_nil, if_true, List.map_cons, List.map_nil, and_true]
          rw [firstsOf_append]
          have : s ∈ List.map (fun x => x.name) (List.filter (fun x => x.acceptable) (attempts ok ops)) ↔ s ∈ r.names := hmem
          by_cases hs : s ∈ r.names
          · rw [if_neg (by rw [has_false_iff]; simpa using hs), if_pos (this.2 hs)]; exact ih1
          · rw [if_pos ((has_false_iff _ _).2 hs), if_neg (fun h => hs (this.1 h)), ih1]; rfl
        · simp only [List.filter_cons, hok, List.filter_nil, Bool.false_eq_true, if_false, List.map_nil, List.append_nil, and_false]
          exact ih1
      · intro s' i
        rw [firstAttempt_append, ← ih2, hreg]
        simp only
        by_cases hc : r.has s = false ∧ ok c = true
        · rw [if_pos hc, List.find?_append]
          have hn : s ∉ r.names := (has_false_iff _ _).1 hc.1
          cases hf : r.entries.find? fun e => e.1 == s' with
          | some e =>
            have hin : s' ∈ r.names := by
              have h1 := List.find?_some hf
              have h2 := List.mem_of_find?_eq_some hf
              simp only [beq_iff_eq] at h1
              exact List.mem_map.2 ⟨e, h2, h1⟩
            have : s ≠ s' := fun e => hn (e ▸ hin)
            simp [this]
          | none =>
            have hnin : s' ∉ r.names := by
              intro hin
              obtain ⟨e, he, rfl⟩ := List.mem_map.1 hin
              have := List.find?_eq_none.1 hf e he
              simp at this
            by_cases hss : s = s'
            · subst hss
              have : s ∉ acceptedNames (attempts ok ops) := fun h => hnin (hmem.1 h)
              simp [hc.2, this]
            · simp [hss]
        · rw [if_neg hc]
          constructor
          · exact .inl
          · rintro (h | ⟨h1, rfl, _, h4⟩)
            · exact h
            · rw [hmem] at h1
              exact absurd ⟨(has_false_iff _ _).2 h1, h4⟩ hc

theorem find_name {r : Reg ι} {s : String} {e : String × ι} (h : r.entries.find? (fun e => e.1 == s) = some e) : e.1 = s := by
  simpa using List.find?_some h

theorem item_ok (r : Reg ι) (s : String) (i : ι) : r.item s = .ok i ↔ r.entries.find? (fun e => e.1 == s) = some (s, i) := by
  unfold Reg.item
  cases h : r.entries.find? fun e => e.1 == s with
  | none => simp
  | some e =>
    have h1 := find_name h
    obtain ⟨a, b⟩ := e
    simp only at h1 ⊢
    subst h1
    simp

theorem lookup_spec (r : Reg ι) (s : String) :
    (if r.has s = false then Except.error PyErr.nameError else r.item s) =
      match r.entries.find? fun e => e.1 == s with
      | some e => .ok e.2
      | none => .error .nameError := by
  unfold Reg.item
  cases h : r.entries.find? fun e => e.1 == s with
  | none =>
    have : r.has s = false := by
      rw [has_false_iff]
      intro hin
      obtain ⟨e, he, rfl⟩ := List.mem_map.1 hin
      have := List.find?_eq_none.1 h e he
      simp at this
    rw [if_pos this]
  | some e =>
    have : ¬ r.has s = false := by
      rw [has_false_iff]
      have h1 := find_name h
      simp only [not_not]
      exact List.mem_map.2 ⟨e, List.mem_of_find?_eq_some h, h1⟩
    rw [if_neg this]

/-- The lookup after a history. -/
theorem lookup_history {step : Reg ι → RegOp ι → Reg ι} {ok : Cand ι → Bool} (L : Lawful step ok) (ops : List (RegOp ι))
    (get : Reg ι → String → Except PyErr ι)
    (hget : ∀ r s, get r s = if r.has s = false then .error .nameError else r.item s) (s : String) :
    (∀ i, get (ops.foldl step Reg.empty) s = .ok i ↔ FirstAttempt (attempts ok ops) s i) ∧
    (get (ops.foldl step Reg.empty) s = .error .nameError ↔ s ∉ acceptedNames (attempts ok ops)) ∧
    (∀ e, get (ops.foldl step Reg.empty) s = .error e → e = .nameError) := by
  obtain ⟨h1, h2⟩ := history L ops
  set r := ops.foldl step Reg.empty
  rw [hget, lookup_spec]
  have hin : s ∈ acceptedNames (attempts ok ops) ↔ s ∈ r.names := by rw [h1, mem_firstsOf]
  cases h : r.entries.find? fun e => e.1 == s with
  | none =>
    refine ⟨fun i => ?_, ?_, ?_⟩
    · rw [← h2, h]; simp
    · simp only [true_iff]
      rw [hin]
      intro hin
      obtain ⟨e, he, rfl⟩ := List.mem_map.1 hin
      have := List.find?_eq_none.1 h e he
      simp at this
    · intro e he; simp only [Except.error.injEq] at he; exact he.symm
  | some e =>
    have hn := find_name h
    refine ⟨fun i => ?_, ?_, ?_⟩
    · rw [← h2, h]
      obtain ⟨a, b⟩ := e
      simp only at hn; subst hn; simp
    · simp only [reduceCtorEq, false_iff, not_not]
      rw [hin]
      exact List.mem_map.2 ⟨e, List.mem_of_find?_eq_some h, hn⟩
    · intro e' he; simp at he

/-- A further call changes the registry only by a successful registration, which appends. -/
theorem prefix_history {step : Reg ι → RegOp ι → Reg ι} {ok : Cand ι → Bool} (L : Lawful step ok) (r : Reg ι) (ops : List (RegOp ι)) :
    r.entries <+: (ops.foldl step r).entries := by
  induction ops generalizing r with
  | nil => exact List.prefix_rfl
  | cons op ops ih =>
    refine List.IsPrefix.trans ?_ (ih (step r op))
    cases op with
    | setDefault s => rw [L.setDefault]; exact List.prefix_rfl
    | lookup s => rw [L.lookup]; exact List.prefix_rfl
    | list => rw [L.list]; exact List.prefix_rfl
    | register s c d =>
      rw [L.reg]
      split
      · exact List.prefix_append _ _
      · exact List.prefix_rfl

/-- **C49 (intersection methods).** After every history of calls: the listed names are the names of the acceptable
registrations in order and without repetition; a lookup gives the implementation of the first acceptable registration
of the name, or a NameError; what was registered before further calls stays in place; registering a registered name is
a ValueError, registering a non-method a TypeError, setting an unknown default a NameError, and these change nothing. -/
theorem C49_intersect_history (ops more : List (RegOp ι)) :
    let r := ops.foldl stepIntersect Reg.empty
    let h := attempts Cand.isSub ops
    r.names = firstsOf (acceptedNames h) ∧ r.names.Nodup ∧
    (∀ s, (∀ i, getIntersectClass r s = .ok i ↔ FirstAttempt h s i) ∧
      (getIntersectClass r s = .error .nameError ↔ s ∉ acceptedNames h) ∧
      (∀ e, getIntersectClass r s = .error e → e = .nameError)) ∧
    r.names <+: (more.foldl stepIntersect r).names ∧
    (∀ s i, getIntersectClass r s = .ok i → getIntersectClass (more.foldl stepIntersect r) s = .ok i) ∧
    (∀ s c d, s ∈ r.names → registerIntersect r s c d = (r, .error .valueError)) ∧
    (∀ s c d, s ∉ r.names → c.isSub = false → registerIntersect r s c d = (r, .error .typeError)) ∧
    (∀ s c d, s ∉ r.names → c.isSub = true → (registerIntersect r s c d).2 = .ok ()) ∧
    (∀ s, s ∉ r.names → setDefaultIntersect r s = (r, .error .nameError)) := by
  intro r h
  have hh := history lawfulIntersect ops
  refine ⟨hh.1, by rw [hh.1]; exact firstsOf_nodup _, fun s => lookup_history lawfulIntersect ops _ (fun _ _ => rfl) s, ?_, ?_, ?_, ?_, ?_, ?_⟩
  · exact (prefix_history lawfulIntersect r more).map _
  · intro s i hi
    have hr : more.foldl stepIntersect r = (ops ++ more).foldl stepIntersect Reg.empty := by rw [List.foldl_append]
    rw [hr, (lookup_history lawfulIntersect (ops ++ more) getIntersectClass (fun _ _ => rfl) s).1]
    rw [(lookup_history lawfulIntersect ops getIntersectClass (fun _ _ => rfl) s).1] at hi
    obtain ⟨pre, post, a, e, h1, h2, h3, h4⟩ := hi
    refine ⟨pre, post ++ attempts Cand.isSub more, a, ?_, h1, h2, h3, h4⟩
    have : attempts Cand.isSub (ops ++ more) = attempts Cand.isSub ops ++ attempts Cand.isSub more := by simp [attempts]
    rw [this, e]; simp
  · intro s c d hs
    unfold registerIntersect; rw [if_pos ((has_iff _ _).2 hs)]
  · intro s c d hs hc
    unfold registerIntersect
    rw [if_neg (by rw [has_iff]; exact hs), if_pos hc]
  · intro s c d hs hc
    have h0 := (has_false_iff r s).2 hs
    unfold registerIntersect
    rw [if_neg (by rw [has_iff]; exact hs), if_neg (by simp [hc])]
    simp only [setItem_new h0]
    cases d
    · rfl
    · simp [setDefaultIntersect, Reg.has]
  · intro s hs
    unfold setDefaultIntersect; rw [if_pos ((has_false_iff _ _).2 hs)]

theorem default_step (r : Reg ι) (op : RegOp ι) (hd : ∃ d, r.default = some d ∧ d ∈ r.names) :
    ∃ d, (stepIntersect r op).default = some d ∧ d ∈ (stepIntersect r op).names := by
  have hp := (prefix_history (ok := Cand.isSub) lawfulIntersect r [op]).map Prod.fst
  have hsub : ∀ d ∈ r.names, d ∈ (stepIntersect r op).names := fun d h => hp.subset h
  obtain ⟨d, h1, h2⟩ := hd
  cases op with
  | lookup s => exact ⟨d, h1, h2⟩
  | list => exact ⟨d, h1, h2⟩
  | setDefault s =>
    simp only [stepIntersect, setDefaultIntersect]
    split
    · exact ⟨d, h1, h2⟩
    · rename_i h
      rw [has_false_iff, not_not] at h
      exact ⟨s, rfl, h⟩
  | register s c dflt =>
    have hsub' := hsub
    simp only [stepIntersect, registerIntersect] at hsub' ⊢
    split at hsub' <;> rename_i hh
    · rw [if_pos hh]; exact ⟨d, h1, h2⟩
    · rw [if_neg hh]
      split at hsub' <;> rename_i hc
      · rw [if_pos hc]; exact ⟨d, h1, h2⟩
      · rw [if_neg hc]
        have h0 : r.has s = false := by simpa using hh
        simp only [setItem_new h0] at hsub' ⊢
        cases dflt
        · exact ⟨d, h1, hsub' d h2⟩
        · simp only [if_true, setDefaultIntersect]
          rw [if_neg (by simp [Reg.has])]
          exact ⟨s, rfl, by simp [Reg.names]⟩

/-- **C49 (default).** After importing the module and every history of calls the default intersection method is a
registered name, so looking it up succeeds; setting a registered name makes it the default. -/
theorem C49_default (exact almost : ι) (ops : List (RegOp ι)) :
    let r := ops.foldl stepIntersect ((importIntersect exact almost).foldl stepIntersect Reg.empty)
    (∃ d i, r.default = some d ∧ d ∈ r.names ∧ getIntersectClass r d = .ok i) ∧
    (∀ s ∈ r.names, (setDefaultIntersect r s).1.default = some s ∧ (setDefaultIntersect r s).1.names = r.names ∧
      (setDefaultIntersect r s).2 = .ok ()) ∧
    (∀ s c, s ∉ r.names → c.isSub = true → (registerIntersect r s c true).1.default = some s ∧
      (registerIntersect r s c false).1.default = r.default) := by
  intro r
  have hd : ∃ d, r.default = some d ∧ d ∈ r.names := by
    have : ∀ r0 : Reg ι, (∃ d, r0.default = some d ∧ d ∈ r0.names) → ∃ d, (ops.foldl stepIntersect r0).default = some d ∧
        d ∈ (ops.foldl stepIntersect r0).names := by
      induction ops with
      | nil => exact fun r0 h => h
      | cons op ops ih => exact fun r0 h => ih _ (default_step r0 op h)
    exact this _ ⟨"exact", rfl, by simp [importIntersect, stepIntersect, registerIntersect, Reg.empty, Reg.has, Reg.setItem, setDefaultIntersect, Reg.names]⟩
  refine ⟨?_, ?_, ?_⟩
  · obtain ⟨d, h1, h2⟩ := hd
    have hr : r = (importIntersect exact almost ++ ops).foldl stepIntersect Reg.empty := by rw [List.foldl_append]
    have h3 := lookup_history lawfulIntersect (importIntersect exact almost ++ ops) getIntersectClass (fun _ _ => rfl) d
    rw [← hr] at h3
    have hh := (history lawfulIntersect (importIntersect exact almost ++ ops)).1
    rw [← hr] at hh
    have h4 := h2
    rw [hh, mem_firstsOf] at h4
    cases hg : getIntersectClass r d with
    | ok i => exact ⟨d, i, h1, h2, hg⟩
    | error e =>
      have := h3.2.2 e hg
      subst this
      exact absurd h4 (h3.2.1.1 hg)
  · intro s hs
    have : ¬ r.has s = false := by rw [has_false_iff]; simpa using hs
    unfold setDefaultIntersect
    rw [if_neg this]
    exact ⟨rfl, rfl, rfl⟩
  · intro s c hs hc
    have h0 := (has_false_iff r s).2 hs
    have h1 : ∀ d, registerIntersect r s c d = if d then ({ r.setItem s c.impl with default := some s }, .ok ()) else (r.setItem s c.impl, .ok ()) := by
      intro d
      unfold registerIntersect
      rw [if_neg (by rw [has_iff]; exact hs), if_neg (by simp [hc])]
      simp only [setItem_new h0]
      simp [setDefaultIntersect, Reg.has]
    rw [h1, h1, setItem_new h0]
    exact ⟨rfl, rfl⟩

/-- **C49 (interpolators).** The same for the registry of interpolators. -/
theorem C49_interp_history (ops more : List (RegOp ι)) :
    let r := ops.foldl stepInterp Reg.empty
    let h := attempts Cand.isSub ops
    r.names = firstsOf (acceptedNames h) ∧ r.names.Nodup ∧
    (∀ s, (∀ i, getInterpClass r s = .ok i ↔ FirstAttempt h s i) ∧
      (getInterpClass r s = .error .nameError ↔ s ∉ acceptedNames h) ∧
      (∀ e, getInterpClass r s = .error e → e = .nameError)) ∧
    r.names <+: (more.foldl stepInterp r).names ∧
    (∀ s c, s ∈ r.names → registerInterp r s c = (r, .error .valueError)) ∧
    (∀ s c, s ∉ r.names → c.isSub = false → registerInterp r s c = (r, .error .typeError)) ∧
    (∀ s c, s ∉ r.names → c.isSub = true → (registerInterp r s c).2 = .ok ()) := by
  intro r h
  have hh := history lawfulInterp ops
  refine ⟨hh.1, by rw [hh.1]; exact firstsOf_nodup _, fun s => lookup_history lawfulInterp ops _ (fun _ _ => rfl) s, ?_, ?_, ?_, ?_⟩
  · exact (prefix_history lawfulInterp r more).map _
  · intro s c hs
    unfold registerInterp; rw [if_pos ((has_iff _ _).2 hs)]
  · intro s c hs hc
    unfold registerInterp
    rw [if_neg (by rw [has_iff]; exact hs), if_pos hc]
  · intro s c hs hc
    unfold registerInterp
    rw [if_neg (by rw [has_iff]; exact hs), if_neg (by simp [hc])]

/-- **C49 (smoothing methods, partial).** The same for the registry of smoothing methods, where every object is accepted.
Missing: the TypeError for objects that are not methods, which the code does not raise (`C49_smooth_no_check`). -/
theorem C49_smooth_history_partial (ops more : List (RegOp ι)) :
    let r := ops.foldl stepSmooth Reg.empty
    let h := attempts (fun _ => true) ops
    r.names = firstsOf (acceptedNames h) ∧ r.names.Nodup ∧
    (∀ s, (∀ i, getSmooth r s = .ok i ↔ FirstAttempt h s i) ∧
      (getSmooth r s = .error .nameError ↔ s ∉ acceptedNames h) ∧
      (∀ e, getSmooth r s = .error e → e = .nameError)) ∧
    r.names <+: (more.foldl stepSmooth r).names ∧
    (∀ s c, s ∈ r.names → registerSmooth r s c = (r, .error .valueError)) ∧
    (∀ s c, s ∉ r.names → (registerSmooth r s c).2 = .ok ()) := by
  intro r h
  have hh := history lawfulSmooth ops
  refine ⟨hh.1, by rw [hh.1]; exact firstsOf_nodup _, fun s => lookup_history lawfulSmooth ops _ (fun _ _ => rfl) s, ?_, ?_, ?_⟩
  · exact (prefix_history lawfulSmooth r more).map _
  · intro s c hs
    unfold registerSmooth; rw [if_pos ((has_iff _ _).2 hs)]
  · intro s c hs
    unfold registerSmooth
    rw [if_neg (by rw [has_iff]; exact hs)]

end

/-- **C49 (witness).** Registering an object that is not a smoothing method succeeds and the object is returned by the
lookup. -/
theorem C49_smooth_no_check :
    (registerSmooth (Reg.empty : Reg Nat) "m" ⟨5, false⟩).2 = .ok () ∧
    getSmooth (registerSmooth (Reg.empty : Reg Nat) "m" ⟨5, false⟩).1 "m" = .ok 5 := by
  constructor <;> rfl

/-- A history: the second "a" is refused, "x" is not a method, the default is changed to "b" and not to "zz". -/
example : let r := ([.register "a" ⟨1, true⟩ true, .register "a" ⟨2, true⟩ true, .register "x" ⟨3, false⟩ true,
      .register "b" ⟨4, true⟩ false, .setDefault "zz", .setDefault "b"] : List (RegOp Nat)).foldl stepIntersect Reg.empty
    r.names = ["a", "b"] ∧ r.default = some "b" ∧ getIntersectClass r "a" = .ok 1 ∧ getIntersectClass r "x" = .error .nameError := by
  decide

/-! ## C47 -/

section
variable {O P R : Type} [HasNdim O]

/-- The argument `method` after the default has been put in, and the method to call: what the statement of C47 calls the
method. `none` means that there is none. -/
def Constructs (r : Reg (IClass O P R)) (params : P) : Prop :=
  ∀ s cls, getIntersectClass r s = .ok cls → ∃ m, cls params = .ok m

/-- **C47 (partial).** For two objects that have a dimension and for parameters the constructors of the registered methods
accept: objects of different dimension are a ValueError; an unknown name is a NameError; something that is neither a
name nor a method object is a ValueError; otherwise the outcome is the result of the method, and every failure of it
is an IntersectionError. No other outcome exists. Missing: objects without `ndim` and parameters that the constructor
refuses, see `C47_other_errors`. -/
theorem C47_errors_partial (r : Reg (IClass O P R)) (o1 o2 : O) (d1 d2 : Nat) (h1 : HasNdim.ndim o1 = some d1)
    (h2 : HasNdim.ndim o2 = some d2) (params : P) :
    (d1 ≠ d2 → ∀ m, intersectCall r o1 o2 m params = .error .valueError) ∧
    (d1 = d2 →
      (∀ s, s ∉ r.names → intersectCall r o1 o2 (.name s) params = .error .nameError) ∧
      intersectCall r o1 o2 .other params = .error .valueError ∧
      (∀ m, (∀ x, m o1 o2 = .ok x → intersectCall r o1 o2 (.inst m) params = .ok x) ∧
        (∀ e, m o1 o2 = .error e → intersectCall r o1 o2 (.inst m) params = .error .intersectionError)) ∧
      (∀ s cls m, getIntersectClass r s = .ok cls → cls params = .ok m →
        (∀ x, m o1 o2 = .ok x → intersectCall r o1 o2 (.name s) params = .ok x) ∧
        (∀ e, m o1 o2 = .error e → intersectCall r o1 o2 (.name s) params = .error .intersectionError)) ∧
      (∀ s, r.default = some s → intersectCall r o1 o2 .none params = intersectCall r o1 o2 (.name s) params)) ∧
    (Constructs r params → ∀ m e, intersectCall r o1 o2 m params = .error e →
      e = .valueError ∨ e = .nameError ∨ e = .intersectionError) := by
  have base : ∀ m, intersectCall r o1 o2 m params = if d1 ≠ d2 then .error .valueError else
      (chooseMethod r params (resolveMethod r m)).bind fun m => wrapErr .intersectionError (m o1 o2) := by
    intro m
    simp [intersectCall, getNdim, h1, h2, bind, Except.bind]
  refine ⟨?_, ?_, ?_⟩
  · intro hd m; rw [base, if_pos hd]
  · rintro rfl
    simp only [ne_eq, not_true_eq_false, if_false] at base
    have hname : ∀ s cls m, getIntersectClass r s = .ok cls → cls params = .ok m →
        intersectCall r o1 o2 (.name s) params = wrapErr .intersectionError (m o1 o2) := by
      intro s cls m hc hm
      rw [base]
      simp [resolveMethod, chooseMethod, getIntersectMethod, hc, hm, bind, Except.bind]
    refine ⟨?_, ?_, ?_, ?_, ?_⟩
    · intro s hs
      rw [base]
      have : getIntersectClass r s = .error .nameError := by
        unfold getIntersectClass; rw [if_pos ((has_false_iff _ _).2 hs)]
      simp [resolveMethod, chooseMethod, getIntersectMethod, this, bind, Except.bind]
    · rw [base]; rfl
    · intro m
      constructor
      · intro x hx; rw [base]; simp [resolveMethod, chooseMethod, Except.bind, hx, wrapErr]
      · intro x hx; rw [base]; simp [resolveMethod, chooseMethod, Except.bind, hx, wrapErr]
    · intro s cls m hc hm
      constructor
      · intro x hx; rw [hname s cls m hc hm, hx]; rfl
      · intro x hx; rw [hname s cls m hc hm, hx]; rfl
    · intro s hs
      rw [base, base]
      simp [resolveMethod, hs]
  · intro hc m e he
    rw [base] at he
    split at he
    · simp only [Except.error.injEq] at he; exact .inl he.symm
    · have wrap : ∀ x : Except PyErr R, wrapErr .intersectionError x = .error e → e = .intersectionError := by
        intro x hx
        cases x <;> simp only [wrapErr, reduceCtorEq, Except.error.injEq] at hx
        exact hx.symm
      have named : ∀ s, ((chooseMethod r params (.name s)).bind fun m => wrapErr .intersectionError (m o1 o2)) = .error e →
          e = .valueError ∨ e = .nameError ∨ e = .intersectionError := by
        intro s he
        simp only [chooseMethod, getIntersectMethod] at he
        have hl := lookup_spec r s
        have hg : getIntersectClass r s = _ := hl
        cases hf : r.entries.find? fun e => e.1 == s with
        | none =>
          rw [hf] at hg
          simp only [hg, bind, Except.bind, Except.error.injEq] at he
          exact .inr (.inl he.symm)
        | some p =>
          rw [hf] at hg
          obtain ⟨m', hm'⟩ := hc s p.2 hg
          simp only [hg, bind, Except.bind, hm'] at he
          exact .inr (.inr (wrap _ he))
      cases m with
      | name s => exact named s he
      | inst m => exact .inr (.inr (wrap _ he))
      | other =>
        simp only [resolveMethod, chooseMethod, Except.bind, Except.error.injEq] at he
        exact .inl he.symm
      | none =>
        simp only [resolveMethod] at he
        cases hd : r.default with
        | some s => rw [hd] at he; exact named s he
        | none =>
          rw [hd] at he
          simp only [chooseMethod, Except.bind, Except.error.injEq] at he
          exact .inl he.symm

end

/-- Objects with a dimension, one without. -/
instance : HasNdim (Option Nat) := ⟨id⟩

/-- A registry with a method that needs the number of parameters to be at most one; it fails on dimension 7. -/
def sampleReg : Reg (IClass (Option Nat) Nat String) :=
  ⟨[("exact", fun p => if p ≤ 1 then .ok fun o _ => if o = some 7 then .error .linAlgError else .ok "found" else .error .typeError)], some "exact"⟩

/-- **C47 (witness).** Other outcomes exist: an unknown parameter makes the constructor raise a TypeError that is not
converted; an object without `ndim` is an AttributeError. -/
theorem C47_other_errors :
    intersectCall sampleReg (some 2) (some 2) (.name "exact") 5 = .error .typeError ∧
    intersectCall sampleReg (some 2) none (.name "exact") 0 = .error .attributeError := by
  constructor <;> rfl

example : intersectCall sampleReg (some 2) (some 2) .none 0 = .ok "found" ∧
    intersectCall sampleReg (some 7) (some 7) .none 0 = .error .intersectionError ∧
    intersectCall sampleReg (some 2) (some 3) .none 0 = .error .valueError ∧
    intersectCall sampleReg (some 2) (some 2) (.name "foo") 0 = .error .nameError := by
  refine ⟨rfl, rfl, rfl, rfl⟩

example : Constructs sampleReg 1 := by
  intro s cls h
  have : getIntersectClass sampleReg s = _ := lookup_spec _ _
  rw [this] at h
  by_cases hs : "exact" = s
  · subst hs
    simp only [sampleReg, List.find?_cons, beq_self_eq_true, Except.ok.injEq] at h
    subst h
    exact ⟨_, rfl⟩
  · have : ("exact" == s) = false := by simpa using hs
    simp [sampleReg, List.find?_cons, this] at h

end Verif.Props
