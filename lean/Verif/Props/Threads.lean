import Verif.Model.Threads
import Verif.Props.Cache

/-!
C167: reading one curve from several threads. C168: registering and looking up methods from several threads.
-/
namespace Verif.Props

open Verif Verif.Np Verif.Model Verif.Spec

section
variable (junk : ℝ) (c : Curve ℝ)

/-- The rest of a read that will return the value `r` whatever other readers do in between. -/
def Safe (r : Except PyErr CVal) : Prog → List CVal → Prop
  | .done x, h => Agrees h x r
  | .look g k, h => ∀ h', h <+: h' → Safe r (k none) h' ∧
      ∀ a v, h'[a]? = some v → cfresh junk c g = .ok v → Safe r (k (some a)) h'
  | .store g a k, h => (∃ v, h[a]? = some v ∧ cfresh junk c g = .ok v) ∧ Safe r k h
  | .new v k, h => ∀ h', h <+: h' → Safe r (k h'.length) (h' ++ [v])
  | .load a k, h => ∃ v, h[a]? = some v ∧ Safe r (k v) h

variable {junk c}

theorem Agrees.mono {h h' : List CVal} (hh : h <+: h') {x : Except PyErr Nat} {r : Except PyErr CVal}
    (ha : Agrees h x r) : Agrees h' x r := by
  cases x <;> cases r <;> simp only [Agrees] at ha ⊢
  · exact ha
  · exact prefix_get hh ha

theorem Safe.mono {r : Except PyErr CVal} : ∀ {p : Prog} {h h' : List CVal}, h <+: h' → Safe junk c r p h →
    Safe junk c r p h'
  | .done _, _, _, hh, hs => Agrees.mono hh hs
  | .look _ _, _, _, hh, hs => fun h'' hh'' => hs h'' (hh.trans hh'')
  | .store _ _ _, _, _, hh, ⟨⟨v, h1, h2⟩, h3⟩ => ⟨⟨v, prefix_get hh h1, h2⟩, h3.mono hh⟩
  | .new _ _, _, _, hh, hs => fun h'' hh'' => hs h'' (hh.trans hh'')
  | .load _ _, _, _, hh, ⟨v, h1, h2⟩ => ⟨v, prefix_get hh h1, h2.mono hh⟩

theorem Safe.bind {r r' : Except PyErr CVal} {k : Nat → Prog} : ∀ {p : Prog} {h : List CVal}, Safe junk c r p h →
    (∀ h' a v, h <+: h' → h'[a]? = some v → r = .ok v → Safe junk c r' (k a) h') →
    (∀ e, r = .error e → r' = .error e) → Safe junk c r' (p.bind k) h
  | .done (.ok a), h, hs, hk, _ => by
    cases r with
    | error e => simp [Safe, Agrees] at hs
    | ok v => exact hk h a v List.prefix_rfl hs rfl
  | .done (.error e), h, hs, _, he => by
    cases r with
    | error e' =>
      simp only [Safe, Agrees] at hs
      subst hs
      rw [he e rfl]
      exact rfl
    | ok v => simp [Safe, Agrees] at hs
  | .look _ _, _, hs, hk, he => fun h' hh => ⟨(hs h' hh).1.bind (fun h'' a v i => hk h'' a v (hh.trans i)) he,
      fun a v h1 h2 => ((hs h' hh).2 a v h1 h2).bind (fun h'' a v i => hk h'' a v (hh.trans i)) he⟩
  | .store _ _ _, _, ⟨h1, h2⟩, hk, he => ⟨h1, h2.bind hk he⟩
  | .new w _, _, hs, hk, he => fun h' hh => (hs h' hh).bind
      (fun h'' a v i => hk h'' a v ((hh.trans (List.prefix_append h' [w])).trans i)) he
  | .load _ _, _, ⟨v, h1, h2⟩, hk, he => ⟨v, h1, h2.bind hk he⟩

variable (junk c) in
/-- A read that returns `r` from any state. -/
def GoodP (p : Prog) (r : Except PyErr CVal) : Prop := ∀ h, Safe junk c r p h

theorem goodP_new (v : CVal) : GoodP junk c (newP v) (.ok v) := by
  intro h h' _
  simp [Safe, Agrees]

theorem goodP_raise (e : PyErr) : GoodP junk c (.done (.error e)) (.error e) := fun _ => rfl

theorem goodP_use {m : Prog} {v : CVal} {k : CVal → Prog} {r : Except PyErr CVal} (hm : GoodP junk c m (.ok v))
    (hk : GoodP junk c (k v) r) : GoodP junk c (useP m k) r := by
  intro h
  refine (hm h).bind ?_ (by simp)
  rintro h' a w - h1 h2
  cases h2
  exact ⟨v, h1, hk h'⟩

theorem goodP_memo {f : PropName} {m : Prog} (hm : GoodP junk c m (cfresh junk c f)) :
    GoodP junk c (memoP f m) (cfresh junk c f) := by
  intro h h' _
  refine ⟨(hm h').bind ?_ (fun _ h => h), ?_⟩
  · intro h'' a v _ h1 h2
    exact ⟨⟨v, h1, h2⟩, by rw [h2]; exact h1⟩
  · intro a v h1 h2
    rw [h2]
    exact h1

theorem goodP_chordlen : GoodP junk c (pChordlen junk c) (cfresh junk c .chordlen) := goodP_memo (goodP_new _)
theorem goodP_arclen : GoodP junk c (pArclen junk c) (cfresh junk c .arclen) := goodP_memo (goodP_new _)
theorem goodP_cumarclen : GoodP junk c (pCumarclen junk c) (cfresh junk c .cumarclen) :=
  goodP_memo (goodP_use goodP_chordlen (goodP_new _))
theorem goodP_t : GoodP junk c (pT junk c) (cfresh junk c .t) := by
  refine goodP_memo ?_
  simp only [cfresh]
  cases c.tdata with
  | some t => exact goodP_new _
  | none => exact goodP_cumarclen
theorem goodP_firstderiv : GoodP junk c (pFirstderiv c) (cfresh junk c .firstderiv) := goodP_memo (goodP_new _)
theorem goodP_secondderiv : GoodP junk c (pSecondderiv c) (cfresh junk c .secondderiv) :=
  goodP_memo (goodP_use goodP_firstderiv (goodP_new _))
theorem goodP_thirdderiv : GoodP junk c (pThirdderiv c) (cfresh junk c .thirdderiv) :=
  goodP_memo (goodP_use goodP_secondderiv (goodP_new _))
theorem goodP_tangent : GoodP junk c (pTangent c) (cfresh junk c .tangent) := goodP_memo goodP_firstderiv

theorem goodP_frenet1 : GoodP junk c (pFrenet1 c) (cfresh junk c .frenet1) := by
  refine goodP_memo ?_
  simp only [cfresh]
  split
  · exact goodP_new _
  · exact goodP_use goodP_tangent (goodP_new _)

theorem goodP_frenet1' (h : ¬ c.rows = []) : GoodP junk c (pFrenet1 c) (.ok (.mat (frenet1 c))) := by
  have := goodP_frenet1 (junk := junk) (c := c)
  simpa only [cfresh, if_neg h] using this

theorem goodP_normal : GoodP junk c (pNormal c) (cfresh junk c .normal) := by
  refine goodP_memo ?_
  simp only [cfresh]
  split
  · exact goodP_new _
  · rename_i h
    exact goodP_use goodP_secondderiv (goodP_use (goodP_frenet1' h) (goodP_new _))

theorem goodP_normal' (h : ¬ c.rows = []) : GoodP junk c (pNormal c) (.ok (.mat (normal c))) := by
  have := goodP_normal (junk := junk) (c := c)
  simpa only [cfresh, if_neg h] using this

theorem goodP_frenet2 : GoodP junk c (pFrenet2 c) (cfresh junk c .frenet2) := by
  refine goodP_memo ?_
  simp only [cfresh]
  split
  · exact goodP_new _
  · rename_i h
    exact goodP_use (goodP_normal' h) (goodP_new _)

theorem goodP_frenet2' (h : ¬ c.rows = []) : GoodP junk c (pFrenet2 c) (.ok (.mat (frenet2 c))) := by
  have := goodP_frenet2 (junk := junk) (c := c)
  simpa only [cfresh, if_neg h] using this

theorem goodP_binormal : GoodP junk c (pBinormal c) (cfresh junk c .binormal) := by
  refine goodP_memo ?_
  simp only [cfresh]
  split
  · exact goodP_new _
  · rename_i h
    exact goodP_use goodP_thirdderiv (goodP_use (goodP_frenet1' h) (goodP_use (goodP_frenet2' h) (goodP_new _)))

theorem goodP_binormal' (h : ¬ c.rows = []) : GoodP junk c (pBinormal c) (.ok (.mat (binormal c))) := by
  have := goodP_binormal (junk := junk) (c := c)
  simpa only [cfresh, if_neg h] using this

theorem goodP_frenet3 : GoodP junk c (pFrenet3 c) (cfresh junk c .frenet3) := by
  refine goodP_memo ?_
  simp only [cfresh]
  split
  · exact goodP_new _
  · rename_i h
    exact goodP_use (goodP_binormal' h) (goodP_new _)

theorem goodP_frenet3' (h : ¬ c.rows = []) : GoodP junk c (pFrenet3 c) (.ok (.mat (frenet3 c))) := by
  have := goodP_frenet3 (junk := junk) (c := c)
  simpa only [cfresh, if_neg h] using this

theorem goodP_speed : GoodP junk c (pSpeed c) (cfresh junk c .speed) := by
  refine goodP_memo (goodP_use goodP_tangent ?_)
  simp only [cfresh]
  split
  · exact goodP_raise _
  · exact goodP_new _

theorem goodP_curvature : GoodP junk c (pCurvature c) (cfresh junk c .curvature) := by
  refine goodP_memo ?_
  simp only [cfresh]
  split
  · exact goodP_new _
  · rename_i h
    unfold curvature
    by_cases h2 : c.ndim = 2
    · rw [if_pos h2, if_pos h2]
      refine goodP_use goodP_firstderiv ?_
      by_cases hk : (firstderiv c).k < 2
      · rw [if_pos hk]
        show GoodP junk c (if (firstderiv c).k < 2 then .done (.error .indexError) else _) _
        rw [if_pos hk]
        exact goodP_raise _
      · rw [if_neg hk]
        show GoodP junk c (if (firstderiv c).k < 2 then _ else useP (pSecondderiv c) fun s =>
          newP (.vals ((List.range c.size).map (curv2 (firstderiv c) s.asMat)))) _
        rw [if_neg hk]
        exact goodP_use goodP_secondderiv (goodP_new _)
    · rw [if_neg h2, if_neg h2]
      exact goodP_use (goodP_frenet1' h) (goodP_use goodP_tangent (goodP_new _))

theorem goodP_torsion : GoodP junk c (pTorsion c) (cfresh junk c .torsion) := by
  refine goodP_memo ?_
  by_cases h : c.rows = []
  · have : torsion c = [] := by simp [torsion, Curve.size, h]
    simp only [cfresh, if_pos h, this]
    exact goodP_new _
  · simp only [cfresh, if_neg h]
    exact goodP_use (goodP_frenet2' h) (goodP_use goodP_tangent (goodP_use (goodP_frenet3' h) (goodP_new _)))

theorem goodP_read (f : PropName) : GoodP junk c (readP junk c f) (cfresh junk c f) := by
  cases f
  · exact goodP_chordlen
  · exact goodP_arclen
  · exact goodP_cumarclen
  · exact goodP_t
  · exact goodP_firstderiv
  · exact goodP_secondderiv
  · exact goodP_thirdderiv
  · exact goodP_tangent
  · exact goodP_normal
  · exact goodP_binormal
  · exact goodP_speed
  · exact goodP_frenet1
  · exact goodP_frenet2
  · exact goodP_frenet3
  · exact goodP_curvature
  · exact goodP_torsion

/-! ## Steps -/

/-- A step of a read keeps the invariant, the arrays, and the value the read will return. -/
theorem step_safe {s : CacheObj} (hi : Inv junk c s) {r : Except PyErr CVal} {p : Prog} (hp : Safe junk c r p s.heap) :
    Inv junk c (p.step s).2 ∧ s.heap <+: (p.step s).2.heap ∧ Safe junk c r (p.step s).1 (p.step s).2.heap := by
  cases p with
  | done x => exact ⟨hi, List.prefix_rfl, hp⟩
  | look g k =>
    refine ⟨hi, List.prefix_rfl, ?_⟩
    have := hp s.heap List.prefix_rfl
    cases hg : s.cache g with
    | none => simpa [Prog.step, hg] using this.1
    | some a =>
      obtain ⟨v, h1, h2⟩ := hi g a hg
      simpa [Prog.step, hg] using this.2 a v h1 h2
  | store g a k =>
    obtain ⟨hv, hk⟩ := hp
    refine ⟨?_, List.prefix_rfl, hk⟩
    intro f b hb
    simp only [Prog.step] at hb ⊢
    split at hb
    · rename_i h
      subst h
      cases hb
      exact hv
    · exact hi f b hb
  | new v k =>
    refine ⟨?_, List.prefix_append _ _, hp s.heap List.prefix_rfl⟩
    intro f b hb
    obtain ⟨w, h1, h2⟩ := hi f b hb
    exact ⟨w, prefix_get (List.prefix_append _ _) h1, h2⟩
  | load a k =>
    obtain ⟨v, h1, h2⟩ := hp
    simp only [Prog.step, h1]
    exact ⟨hi, List.prefix_rfl, h2⟩

variable (junk c) in
/-- What holds of a thread that was to read `plan`. -/
structure TInv (h : List CVal) (plan : List PropName) (th : Thread) : Prop where
  plan : th.got.map Prod.fst ++ (th.cur.map Prod.fst).toList ++ th.todo = plan
  got : ∀ q ∈ th.got, Agrees h q.2 (cfresh junk c q.1)
  cur : ∀ q ∈ th.cur, Safe junk c (cfresh junk c q.1) q.2 h

theorem TInv.mono {h h' : List CVal} (hh : h <+: h') {plan : List PropName} {th : Thread} (ht : TInv junk c h plan th) :
    TInv junk c h' plan th :=
  ⟨ht.plan, fun q hq => Agrees.mono hh (ht.got q hq), fun q hq => (ht.cur q hq).mono hh⟩

theorem thread_step {s : CacheObj} (hi : Inv junk c s) {plan : List PropName} {th : Thread}
    (ht : TInv junk c s.heap plan th) : Inv junk c (th.step junk c s).2 ∧ s.heap <+: (th.step junk c s).2.heap ∧
      TInv junk c (th.step junk c s).2.heap plan (th.step junk c s).1 := by
  obtain ⟨todo, cur, got⟩ := th
  obtain ⟨h1, h2, h3⟩ := ht
  cases cur with
  | none =>
    cases todo with
    | nil => exact ⟨hi, List.prefix_rfl, ⟨h1, h2, h3⟩⟩
    | cons f fs =>
      refine ⟨hi, List.prefix_rfl, ⟨by simpa [Thread.step] using h1, h2, ?_⟩⟩
      intro q hq
      simp only [Thread.step, Option.mem_def, Option.some.injEq] at hq
      subst hq
      exact goodP_read f _
  | some q =>
    obtain ⟨f, p⟩ := q
    have hp := h3 (f, p) rfl
    have key : (∀ r, p ≠ .done r) → Inv junk c (p.step s).2 ∧ s.heap <+: (p.step s).2.heap ∧
        TInv junk c (p.step s).2.heap plan ⟨todo, some (f, (p.step s).1), got⟩ := by
      intro _
      obtain ⟨k1, k2, k3⟩ := step_safe hi hp
      refine ⟨k1, k2, ⟨h1, fun q hq => Agrees.mono k2 (h2 q hq), ?_⟩⟩
      intro q hq
      simp only [Option.mem_def, Option.some.injEq] at hq
      subst hq
      exact k3
    cases p with
    | done r =>
      refine ⟨hi, List.prefix_rfl, ⟨by simpa [Thread.step] using h1, ?_, by simp [Thread.step]⟩⟩
      intro q hq
      simp only [Thread.step, List.mem_append, List.mem_singleton] at hq
      rcases hq with hq | rfl
      · exact h2 q hq
      · exact hp
    | look g k => exact key (by simp)
    | store g a k => exact key (by simp)
    | new v k => exact key (by simp)
    | load a k => exact key (by simp)

variable (junk c) in
/-- What holds of the whole system. -/
structure SInv (plans : List (List PropName)) (s : Sys) : Prop where
  obj : Inv junk c s.obj
  len : s.threads.length = plans.length
  thr : ∀ (i : Nat) th plan, s.threads[i]? = some th → plans[i]? = some plan → TInv junk c s.obj.heap plan th

theorem sys_start (plans : List (List PropName)) : SInv junk c plans (Sys.start plans) := by
  refine ⟨inv_new, by simp [Sys.start], ?_⟩
  intro i th plan h1 h2
  simp only [Sys.start, List.getElem?_map, h2, Option.map_some, Option.some.injEq] at h1
  subst h1
  exact ⟨by simp, by simp, by simp⟩

theorem sys_step {plans : List (List PropName)} {s : Sys} (hs : SInv junk c plans s) (i : Nat) :
    SInv junk c plans (s.step junk c i) ∧ s.obj.heap <+: (s.step junk c i).obj.heap := by
  unfold Sys.step
  cases hi : s.threads[i]? with
  | none => exact ⟨hs, List.prefix_rfl⟩
  | some th =>
    obtain ⟨hlt, -⟩ := List.getElem?_eq_some_iff.1 hi
    obtain ⟨plan, hplan⟩ : ∃ plan, plans[i]? = some plan := ⟨_, List.getElem?_eq_getElem (hs.len ▸ hlt)⟩
    obtain ⟨k1, k2, k3⟩ := thread_step hs.obj (hs.thr i th plan hi hplan)
    refine ⟨⟨k1, by simpa using hs.len, ?_⟩, k2⟩
    intro j th' plan' h1 h2
    by_cases hj : i = j
    · subst hj
      rw [hplan] at h2
      cases h2
      simp only [List.getElem?_set_self hlt, Option.some.injEq] at h1
      subst h1
      exact k3
    · simp only [List.getElem?_set_ne hj] at h1
      exact (hs.thr j th' plan' h1 h2).mono k2

theorem sys_run {plans : List (List PropName)} {s : Sys} (hs : SInv junk c plans s) (sched : List Nat) :
    SInv junk c plans (s.run junk c sched) ∧ s.obj.heap <+: (s.run junk c sched).obj.heap := by
  induction sched generalizing s with
  | nil => exact ⟨hs, List.prefix_rfl⟩
  | cons i sched ih =>
    obtain ⟨k1, k2⟩ := sys_step hs i
    obtain ⟨j1, j2⟩ := ih k1
    exact ⟨j1, k2.trans j2⟩

end

/-! ## Number of steps -/

/-- The read ends within `n` steps. -/
def EndsIn : Prog → Nat → Prop
  | .done _, _ => True
  | .look _ k, n => ∃ m, n = m + 1 ∧ ∀ o, EndsIn (k o) m
  | .store _ _ k, n => ∃ m, n = m + 1 ∧ EndsIn k m
  | .new _ k, n => ∃ m, n = m + 1 ∧ ∀ a, EndsIn (k a) m
  | .load _ k, n => ∃ m, n = m + 1 ∧ ∀ v, EndsIn (k v) m

theorem EndsIn.mono : ∀ {p : Prog} {n m : Nat}, EndsIn p n → n ≤ m → EndsIn p m
  | .done _, _, _, _, _ => trivial
  | .look _ _, _, m, ⟨l, h1, h2⟩, hm => ⟨m - 1, by omega, fun o => (h2 o).mono (by omega)⟩
  | .store _ _ _, _, m, ⟨l, h1, h2⟩, hm => ⟨m - 1, by omega, h2.mono (by omega)⟩
  | .new _ _, _, m, ⟨l, h1, h2⟩, hm => ⟨m - 1, by omega, fun o => (h2 o).mono (by omega)⟩
  | .load _ _, _, m, ⟨l, h1, h2⟩, hm => ⟨m - 1, by omega, fun o => (h2 o).mono (by omega)⟩

theorem EndsIn.bind {k : Nat → Prog} {m : Nat} (hk : ∀ a, EndsIn (k a) m) : ∀ {p : Prog} {n : Nat}, EndsIn p n →
    EndsIn (p.bind k) (n + m)
  | .done (.ok a), n, _ => (hk a).mono (by omega)
  | .done (.error _), _, _ => trivial
  | .look _ _, _, ⟨l, h1, h2⟩ => ⟨l + m, by omega, fun o => (h2 o).bind hk⟩
  | .store _ _ _, _, ⟨l, h1, h2⟩ => ⟨l + m, by omega, h2.bind hk⟩
  | .new _ _, _, ⟨l, h1, h2⟩ => ⟨l + m, by omega, fun o => (h2 o).bind hk⟩
  | .load _ _, _, ⟨l, h1, h2⟩ => ⟨l + m, by omega, fun o => (h2 o).bind hk⟩

theorem within_new (v : CVal) : EndsIn (newP v) 1 := ⟨0, rfl, fun _ => trivial⟩

theorem within_use {p : Prog} {k : CVal → Prog} {n m : Nat} (hp : EndsIn p n) (hk : ∀ v, EndsIn (k v) m) :
    EndsIn (useP p k) (n + (m + 1)) := by
  refine hp.bind ?_
  intro a
  exact ⟨m, rfl, hk⟩

theorem within_memo {f : PropName} {p : Prog} {n : Nat} (hp : EndsIn p n) : EndsIn (memoP f p) (n + 2) :=
  ⟨n + 1, rfl, fun o => by
    cases o with
    | none =>
      refine EndsIn.bind (m := 1) ?_ hp
      intro a
      exact ⟨0, rfl, trivial⟩
    | some a => trivial⟩

theorem within_raise (e : PyErr) (n : Nat) : EndsIn (.done (.error e)) n := trivial

theorem within_ite {p q : Prog} {P : Prop} [Decidable P] {n : Nat} (hp : EndsIn p n) (hq : EndsIn q n) :
    EndsIn (if P then p else q) n := by split <;> assumption

section
variable {junk : ℝ} {c : Curve ℝ}

theorem w_chordlen : EndsIn (pChordlen junk c) 3 := within_memo (within_new _)
theorem w_arclen : EndsIn (pArclen junk c) 3 := within_memo (within_new _)
theorem w_cumarclen : EndsIn (pCumarclen junk c) 7 := within_memo (within_use w_chordlen fun _ => within_new _)
theorem w_t : EndsIn (pT junk c) 9 := by
  refine within_memo ?_
  split
  · exact (within_new _).mono (by omega)
  · exact w_cumarclen
theorem w_firstderiv : EndsIn (pFirstderiv c) 3 := within_memo (within_new _)
theorem w_secondderiv : EndsIn (pSecondderiv c) 7 := within_memo (within_use w_firstderiv fun _ => within_new _)
theorem w_thirdderiv : EndsIn (pThirdderiv c) 11 := within_memo (within_use w_secondderiv fun _ => within_new _)
theorem w_tangent : EndsIn (pTangent c) 5 := within_memo w_firstderiv
theorem w_frenet1 : EndsIn (pFrenet1 c) 9 :=
  within_memo (within_ite ((within_new _).mono (by omega)) (within_use w_tangent fun _ => within_new _))
theorem w_normal : EndsIn (pNormal c) 21 :=
  within_memo (within_ite ((within_new _).mono (by omega))
    (within_use w_secondderiv fun _ => within_use w_frenet1 fun _ => (within_new _)))
theorem w_frenet2 : EndsIn (pFrenet2 c) 25 :=
  within_memo (within_ite ((within_new _).mono (by omega)) (within_use w_normal fun _ => within_new _))
theorem w_binormal : EndsIn (pBinormal c) 51 :=
  within_memo (within_ite ((within_new _).mono (by omega))
    (within_use w_thirdderiv fun _ => within_use w_frenet1 fun _ => within_use w_frenet2 fun _ => within_new _))
theorem w_frenet3 : EndsIn (pFrenet3 c) 55 :=
  within_memo (within_ite ((within_new _).mono (by omega)) (within_use w_binormal fun _ => within_new _))
theorem w_speed : EndsIn (pSpeed c) 9 :=
  within_memo (within_use w_tangent fun _ => within_ite (within_raise _ _) (within_new _))
theorem w_curvature : EndsIn (pCurvature c) 19 :=
  within_memo (within_ite ((within_new _).mono (by omega)) (within_ite
    ((within_use w_firstderiv fun _ => within_ite (within_raise _ _) (within_use w_secondderiv fun _ => within_new _)).mono
      (by omega))
    (within_use w_frenet1 fun _ => within_use w_tangent fun _ => within_new _)))
theorem w_torsion : EndsIn (pTorsion c) 91 :=
  within_memo (within_ite ((within_new _).mono (by omega))
    (within_use w_frenet2 fun _ => within_use w_tangent fun _ => within_use w_frenet3 fun _ => within_new _))

theorem w_read (f : PropName) : EndsIn (readP junk c f) 91 := by
  cases f
  · exact w_chordlen.mono (by omega)
  · exact w_arclen.mono (by omega)
  · exact w_cumarclen.mono (by omega)
  · exact w_t.mono (by omega)
  · exact w_firstderiv.mono (by omega)
  · exact w_secondderiv.mono (by omega)
  · exact w_thirdderiv.mono (by omega)
  · exact w_tangent.mono (by omega)
  · exact w_normal.mono (by omega)
  · exact w_binormal.mono (by omega)
  · exact w_speed.mono (by omega)
  · exact w_frenet1.mono (by omega)
  · exact w_frenet2.mono (by omega)
  · exact w_frenet3.mono (by omega)
  · exact w_curvature.mono (by omega)
  · exact w_torsion

theorem step_within (s : CacheObj) {p : Prog} {n : Nat} (hp : EndsIn p (n + 1)) : EndsIn (p.step s).1 n := by
  cases p with
  | done r => trivial
  | look f k => obtain ⟨m, h1, h2⟩ := hp; obtain rfl : n = m := by omega
                exact h2 _
  | store f a k => obtain ⟨m, h1, h2⟩ := hp; obtain rfl : n = m := by omega
                   exact h2
  | new v k => obtain ⟨m, h1, h2⟩ := hp; obtain rfl : n = m := by omega
               exact h2 _
  | load a k =>
    obtain ⟨m, h1, h2⟩ := hp
    obtain rfl : n = m := by omega
    simp only [Prog.step]
    split
    · exact h2 _
    · trivial

/-- At most `n` steps are left for the thread. -/
def Left (th : Thread) (n : Nat) : Prop :=
  match th.cur with
  | none => 93 * th.todo.length ≤ n
  | some q => ∃ m, EndsIn q.2 m ∧ m + 1 + 93 * th.todo.length ≤ n

theorem step_left (s : CacheObj) {th : Thread} {n : Nat} (h : Left th n) : Left (th.step junk c s).1 (n - 1) := by
  obtain ⟨todo, cur, got⟩ := th
  cases cur with
  | none =>
    cases todo with
    | nil => simp [Left, Thread.step]
    | cons f fs =>
      simp only [Left, List.length_cons] at h
      exact ⟨91, w_read f, by show 91 + 1 + 93 * fs.length ≤ n - 1; omega⟩
  | some q =>
    obtain ⟨f, p⟩ := q
    obtain ⟨m, h1, h2⟩ := h
    simp only at h1 h2
    have key : m ≠ 0 → Left ⟨todo, some (f, (p.step s).1), got⟩ (n - 1) := by
      intro hm
      obtain ⟨l, rfl⟩ := Nat.exists_eq_succ_of_ne_zero hm
      exact ⟨l, step_within s h1, by show l + 1 + 93 * todo.length ≤ n - 1; omega⟩
    cases p with
    | done r => simp only [Left, Thread.step]; omega
    | look g k => obtain ⟨l, hl, -⟩ := h1; exact key (by omega)
    | store g a k => obtain ⟨l, hl, -⟩ := h1; exact key (by omega)
    | new v k => obtain ⟨l, hl, -⟩ := h1; exact key (by omega)
    | load a k => obtain ⟨l, hl, -⟩ := h1; exact key (by omega)

theorem run_left (sched : List Nat) {s : Sys} {i : Nat} {th : Thread} {n : Nat} (hi : s.threads[i]? = some th)
    (h : Left th n) : ∃ th', (s.run junk c sched).threads[i]? = some th' ∧ Left th' (n - sched.count i) := by
  induction sched generalizing s th n with
  | nil => exact ⟨th, hi, by simpa using h⟩
  | cons j sched ih =>
    have hlt := (List.getElem?_eq_some_iff.1 hi).1
    by_cases hj : j = i
    · subst hj
      obtain ⟨th', h1, h2⟩ := ih (s := s.step junk c j) (th := (th.step junk c s.obj).1)
        (by simp [Sys.step, hi, List.getElem?_set_self hlt]) (step_left s.obj h)
      refine ⟨th', h1, ?_⟩
      simpa [Nat.sub_sub, Nat.add_comm] using h2
    · obtain ⟨th', h1, h2⟩ := ih (s := s.step junk c j) (th := th) (n := n) (by
        unfold Sys.step
        cases s.threads[j]? with
        | none => exact hi
        | some _ => simpa [List.getElem?_set_ne hj] using hi) h
      exact ⟨th', h1, by simpa [List.count_cons, hj] using h2⟩

/-! ## One thread -/

theorem run_bind (k : Nat → Prog) : ∀ (p : Prog) (s : CacheObj), (p.bind k).run s =
    match p.run s with
    | (.error e, s') => (.error e, s')
    | (.ok a, s') => (k a).run s'
  | .done (.ok a), s => rfl
  | .done (.error e), s => rfl
  | .look f j, s => run_bind k (j (s.cache f)) s
  | .store f a j, s => run_bind k j _
  | .new v j, s => run_bind k (j s.heap.length) _
  | .load a j, s => by
    simp only [Prog.bind, Prog.run]
    split
    · exact run_bind k _ s
    · rfl

theorem run_new (v : CVal) : (newP v).run = alloc v := rfl

theorem run_use {p : Prog} {m : CacheM} (h : p.run = m) {k : CVal → Prog} {k' : CVal → CacheM}
    (hk : ∀ v, (k v).run = k' v) : (useP p k).run = useVal m k' := by
  funext s
  simp only [useP, useVal, run_bind, h]
  split
  · rename_i h'; simp [h']
  · rename_i a s' h'
    simp only [h', Prog.run]
    split <;> simp [*]

theorem run_memo {f : PropName} {p : Prog} {m : CacheM} (h : p.run = m) : (memoP f p).run = memo f m := by
  funext s
  simp only [memoP, memo, Prog.run]
  cases s.cache f with
  | some a => rfl
  | none =>
    simp only [run_bind, h]
    rfl

theorem run_ite {P : Prop} [Decidable P] {p q : Prog} {m l : CacheM} (h : p.run = m) (h' : q.run = l) :
    (if P then p else q).run = if P then m else l := by split <;> assumption

theorem run_raise (e : PyErr) : (Prog.done (.error e)).run = raise e := rfl

theorem run_firstderiv : (pFirstderiv c).run = getFirstderiv c := run_memo (run_new _)
theorem run_chordlen : (pChordlen junk c).run = getChordlen junk c := run_memo (run_new _)
theorem run_cumarclen : (pCumarclen junk c).run = getCumarclen junk c :=
  run_memo (run_use run_chordlen fun _ => run_new _)
theorem run_t : (pT junk c).run = getT junk c := by
  refine run_memo ?_
  cases c.tdata with
  | some t => exact run_new _
  | none => exact run_cumarclen
theorem run_secondderiv : (pSecondderiv c).run = getSecondderiv c :=
  run_memo (run_use run_firstderiv fun _ => run_new _)
theorem run_thirdderiv : (pThirdderiv c).run = getThirdderiv c :=
  run_memo (run_use run_secondderiv fun _ => run_new _)
theorem run_tangent : (pTangent c).run = getTangent c := run_memo run_firstderiv
theorem run_frenet1 : (pFrenet1 c).run = getFrenet1 c :=
  run_memo (run_ite (run_new _) (run_use run_tangent fun _ => run_new _))
theorem run_normal : (pNormal c).run = getNormal c :=
  run_memo (run_ite (run_new _) (run_use run_secondderiv fun _ => run_use run_frenet1 fun _ => run_new _))
theorem run_frenet2 : (pFrenet2 c).run = getFrenet2 c :=
  run_memo (run_ite (run_new _) (run_use run_normal fun _ => run_new _))
theorem run_binormal : (pBinormal c).run = getBinormal c :=
  run_memo (run_ite (run_new _) (run_use run_thirdderiv fun _ => run_use run_frenet1 fun _ =>
    run_use run_frenet2 fun _ => run_new _))
theorem run_frenet3 : (pFrenet3 c).run = getFrenet3 c :=
  run_memo (run_ite (run_new _) (run_use run_binormal fun _ => run_new _))
theorem run_speed : (pSpeed c).run = getSpeed c :=
  run_memo (run_use run_tangent fun _ => run_ite (run_raise _) (run_new _))
theorem run_curvature : (pCurvature c).run = getCurvature c :=
  run_memo (run_ite (run_new _) (run_ite
    (run_use run_firstderiv fun _ => run_ite (run_raise _) (run_use run_secondderiv fun _ => run_new _))
    (run_use run_frenet1 fun _ => run_use run_tangent fun _ => run_new _)))
theorem run_torsion : (pTorsion c).run = getTorsion c :=
  run_memo (run_ite (run_new _) (run_use run_frenet2 fun _ => run_use run_tangent fun _ =>
    run_use run_frenet3 fun _ => run_new _))

theorem run_read (f : PropName) : (readP junk c f).run = readProp junk c f := by
  cases f
  · exact run_chordlen
  · exact run_memo (run_new _)
  · exact run_cumarclen
  · exact run_t
  · exact run_firstderiv
  · exact run_secondderiv
  · exact run_thirdderiv
  · exact run_tangent
  · exact run_normal
  · exact run_binormal
  · exact run_speed
  · exact run_frenet1
  · exact run_frenet2
  · exact run_frenet3
  · exact run_curvature
  · exact run_torsion

theorem run_step (p : Prog) (s : CacheObj) : (p.step s).1.run (p.step s).2 = p.run s := by
  cases p with
  | load a k =>
    simp only [Prog.step, Prog.run]
    split <;> simp [*, Prog.run]
  | _ => rfl

/-- Steps of a single thread end in the outcome of the read. -/
theorem steps_run : ∀ (n : Nat) (p : Prog) (s : CacheObj), EndsIn p n →
    (fun q : Prog × CacheObj => q.1.step q.2)^[n] (p, s) = (.done (p.run s).1, (p.run s).2)
  | 0, .done r, s, _ => rfl
  | 0, .look _ _, s, h => by obtain ⟨m, h, -⟩ := h; omega
  | 0, .store _ _ _, s, h => by obtain ⟨m, h, -⟩ := h; omega
  | 0, .new _ _, s, h => by obtain ⟨m, h, -⟩ := h; omega
  | 0, .load _ _, s, h => by obtain ⟨m, h, -⟩ := h; omega
  | n + 1, p, s, h => by
    rw [Function.iterate_succ_apply, ← run_step p s]
    exact steps_run n _ _ (step_within s h)

end

/-! ## C167 -/

/-- The user sees `x` in the outcome `r` of a read, the arrays being `h`. -/
def ShowsVal (h : List CVal) : Except PyErr Nat → Except PyErr PropVal → Prop
  | .ok a, .ok x => ∃ v, h[a]? = some v ∧ v.seen = x
  | .error e, .error e' => e = e'
  | _, _ => False

theorem shows_of_agrees {junk : ℝ} {c : Curve ℝ} {h : List CVal} {r : Except PyErr Nat} {f : PropName}
    (ha : Agrees h r (cfresh junk c f)) : ShowsVal h r (fresh junk c f) := by
  rw [← seen_cfresh f]
  cases hv : cfresh junk c f <;> rw [hv] at ha <;> cases r <;> simp only [Agrees] at ha
  · exact ha
  · exact ⟨_, ha, rfl⟩

/-- **C167 (reads).** Any number of threads read any properties of one new curve, in any interleaving of their steps. Every
thread obtains the properties of its plan in order, every outcome obtained so far still shows the value (or the error) computed
from scratch, and so does a read made afterwards. -/
theorem C167_reads (junk : ℝ) (c : Curve ℝ) (plans : List (List PropName)) (sched : List Nat) :
    let s := (Sys.start plans).run junk c sched
    s.threads.length = plans.length ∧
    (∀ (i : Nat) th plan, s.threads[i]? = some th → plans[i]? = some plan →
      th.got.map Prod.fst ++ (th.cur.map Prod.fst).toList ++ th.todo = plan ∧
      ∀ q ∈ th.got, ShowsVal s.obj.heap q.2 (fresh junk c q.1)) ∧
    ∀ f, (readSeen junk c f s.obj).1 = fresh junk c f := by
  obtain ⟨h1, -⟩ := sys_run (sys_start (junk := junk) (c := c) plans) sched
  exact ⟨h1.len, fun i th plan hi hp => ⟨(h1.thr i th plan hi hp).plan,
    fun q hq => shows_of_agrees ((h1.thr i th plan hi hp).got q hq)⟩, fun f => (readSeen_spec h1.obj f).1⟩

/-- **C167 (arrays stay).** An array that exists at some moment has the same content at every later moment. -/
theorem C167_stable (junk : ℝ) (c : Curve ℝ) (plans : List (List PropName)) (sched later : List Nat) (a : Nat) (v : CVal)
    (h : ((Sys.start plans).run junk c sched).obj.heap[a]? = some v) :
    ((Sys.start plans).run junk c (sched ++ later)).obj.heap[a]? = some v := by
  obtain ⟨h1, -⟩ := sys_run (sys_start (junk := junk) (c := c) plans) sched
  have : (Sys.start plans).run junk c (sched ++ later) = ((Sys.start plans).run junk c sched).run junk c later := by
    simp [Sys.run]
  rw [this]
  exact prefix_get (sys_run h1 later).2 h

/-- **C167 (no waiting).** A thread is done with its plan after at most 93 own steps per read, whatever the other threads do
in between, be they stopped in the middle of a computation or not. -/
theorem C167_ends (junk : ℝ) (c : Curve ℝ) (plans : List (List PropName)) (sched : List Nat) {i : Nat}
    {plan : List PropName} (hp : plans[i]? = some plan) (hn : 93 * plan.length ≤ sched.count i) :
    ∃ th, ((Sys.start plans).run junk c sched).threads[i]? = some th ∧ th.todo = [] ∧ th.cur = none ∧
      th.got.map Prod.fst = plan := by
  obtain ⟨th, h1, h2⟩ := run_left (junk := junk) (c := c) sched (s := Sys.start plans) (i := i) (th := ⟨plan, none, []⟩)
    (n := 93 * plan.length) (by simp [Sys.start, hp]) (le_refl _)
  rw [Nat.sub_eq_zero_of_le hn] at h2
  obtain ⟨-, h3, -⟩ := C167_reads junk c plans sched
  have h4 := (h3 i th plan h1 hp).1
  obtain ⟨todo, cur, got⟩ := th
  cases cur with
  | some q => obtain ⟨m, -, hm⟩ := h2; omega
  | none =>
    simp only [Left] at h2
    have : todo = [] := List.length_eq_zero_iff.1 (by omega)
    subst this
    exact ⟨_, h1, rfl, rfl, by simpa using h4⟩

/-- **C167 (one thread).** Without other threads the steps of a read are the read of C22: same outcome, same new state. -/
theorem C167_alone (junk : ℝ) (c : Curve ℝ) (f : PropName) (s : CacheObj) :
    (fun q : Prog × CacheObj => q.1.step q.2)^[91] (readP junk c f, s) =
      (.done (readProp junk c f s).1, (readProp junk c f s).2) := by
  rw [steps_run 91 _ s (w_read f), run_read]

/-- **C167 (violated for identity).** Two threads may get different arrays for one property: both find nothing stored and both
compute. What the first writes into its array the second never sees. -/
theorem C167_identity_fails (junk : ℝ) (c : Curve ℝ) : ∃ sched,
    (((Sys.start [[.chordlen], [.chordlen]]).run junk c sched).threads.map fun th => (th.todo, th.got)) =
      [([], [(.chordlen, .ok 0)]), ([], [(.chordlen, .ok 1)])] :=
  ⟨[0, 0, 1, 1, 0, 0, 0, 1, 1, 1], by
    simp [Sys.run, Sys.step, Sys.start, Thread.step, readP, pChordlen, memoP, newP, Prog.bind, Prog.step,
      CacheObj.new]⟩

/-- **C167 (identity).** A thread that finds the property stored gets the stored array: reads that begin after a read of the same
property has ended, with no other thread in the middle of one, return the same array. -/
theorem C167_identity (junk : ℝ) (c : Curve ℝ) (f : PropName) (s s' : CacheObj) {a : Nat}
    (h : readProp junk c f s = (.ok a, s')) : readProp junk c f s' = (.ok a, s') := by
  have key : ∀ {m : CacheM} {a s'}, memo f m s = (.ok a, s') → s'.cache f = some a := by
    intro m a s' h
    unfold memo at h
    cases hc : s.cache f with
    | some b =>
      rw [hc] at h
      simp only [Prod.mk.injEq, Except.ok.injEq] at h
      rw [← h.2, hc, h.1]
    | none =>
      rw [hc] at h
      simp only at h
      split at h
      · simp at h
      · simp only [Prod.mk.injEq, Except.ok.injEq] at h
        rw [← h.2, ← h.1]
        simp
  have key2 : ∀ {m : CacheM}, s'.cache f = some a → memo f m s' = (.ok a, s') := by
    intro m h
    simp [memo, h]
  cases f <;> simp only [readProp, getChordlen, getArclen, getCumarclen, getT, getFirstderiv, getSecondderiv, getThirdderiv,
    getTangent, getNormal, getBinormal, getSpeed, getFrenet1, getFrenet2, getFrenet3, getCurvature, getTorsion] at h ⊢ <;>
    exact key2 (key h)

/-! ## C168 -/

section
variable {ι : Type}

theorem has_iff_entry (r : Reg ι) (n : String) : r.has n = true ↔ ∃ v, (n, v) ∈ r.entries := by
  simp only [Reg.has, List.any_eq_true, beq_iff_eq]
  constructor
  · rintro ⟨⟨a, v⟩, h1, rfl⟩
    exact ⟨v, h1⟩
  · rintro ⟨v, h⟩
    exact ⟨_, h, rfl⟩

theorem mem_setItem {r : Reg ι} {n : String} {v : ι} {e : String × ι} (h : e ∈ (r.setItem n v).entries) :
    e ∈ r.entries ∨ e = (n, v) := by
  unfold Reg.setItem at h
  split at h
  · simp only [List.mem_map] at h
    obtain ⟨d, h1, h2⟩ := h
    split at h2
    · exact .inr h2.symm
    · exact .inl (h2 ▸ h1)
  · simpa using h

theorem has_setItem (r : Reg ι) (n m : String) (v : ι) : (r.setItem n v).has m = (r.has m || m == n) := by
  unfold Reg.setItem
  split
  · rename_i h
    by_cases hm : m = n
    · subst hm
      simp only [beq_self_eq_true, Bool.or_true]
      obtain ⟨w, hw⟩ := (has_iff_entry _ _).1 h
      refine (has_iff_entry _ _).2 ⟨v, ?_⟩
      simp only [List.mem_map]
      exact ⟨_, hw, by simp⟩
    · have : (m == n) = false := by simpa using hm
      rw [this, Bool.or_false, Bool.eq_iff_iff, has_iff_entry, has_iff_entry]
      constructor
      · rintro ⟨w, hw⟩
        simp only [List.mem_map] at hw
        obtain ⟨d, h1, h2⟩ := hw
        split at h2
        · simp only [Prod.mk.injEq] at h2
          exact absurd h2.1.symm hm
        · exact ⟨w, h2 ▸ h1⟩
      · rintro ⟨w, hw⟩
        refine ⟨w, ?_⟩
        simp only [List.mem_map]
        exact ⟨_, hw, by simp [hm]⟩
  · simp only [Reg.has, List.any_append, List.any_cons, List.any_nil, Bool.or_false]
    congr 1
    rw [Bool.eq_iff_iff, beq_iff_eq, beq_iff_eq, eq_comm]

theorem item_has {r : Reg ι} {n : String} (h : r.has n = true) : ∃ v, r.item n = .ok v ∧ (n, v) ∈ r.entries := by
  unfold Reg.item
  cases hf : r.entries.find? fun e => e.1 == n with
  | none =>
    obtain ⟨v, hv⟩ := (has_iff_entry _ _).1 h
    have := List.find?_eq_none.1 hf _ hv
    simp at this
  | some e =>
    refine ⟨e.2, rfl, ?_⟩
    have h1 := List.mem_of_find?_eq_some hf
    have h2 := List.find?_some hf
    simp only [beq_iff_eq] at h2
    exact h2 ▸ h1

theorem names_setItem (r : Reg ι) (n : String) (v : ι) :
    (r.setItem n v).names = if r.has n then r.names else r.names ++ [n] := by
  unfold Reg.setItem
  split
  · simp only [Reg.names, List.map_map]
    refine List.map_congr_left ?_
    intro e _
    simp only [Function.comp_apply]
    split
    · rename_i h; exact (by simpa using h : e.1 = n).symm
    · rfl
  · simp [Reg.names]

theorem item_setItem (r : Reg ι) (n : String) (v : ι) (m : String) :
    (r.setItem n v).item m = if m = n then .ok v else r.item m := by
  unfold Reg.setItem
  split
  · rename_i h
    simp only [Reg.item, List.find?_map]
    by_cases hm : m = n
    · subst hm
      rw [if_pos rfl]
      have hc : ((fun e : String × ι => e.1 == m) ∘ fun e => if (e.1 == m) = true then (m, v) else e)
          = fun e => e.1 == m := by
        funext e
        simp only [Function.comp_apply]
        split <;> simp_all
      rw [hc]
      cases hf : r.entries.find? fun e => e.1 == m with
      | none =>
        obtain ⟨w, hw⟩ := (has_iff_entry _ _).1 h
        have := List.find?_eq_none.1 hf _ hw
        simp at this
      | some e =>
        have h2 := List.find?_some hf
        simp only [beq_iff_eq] at h2
        simp [h2]
    · rw [if_neg hm]
      have hc : ((fun e : String × ι => e.1 == m) ∘ fun e => if (e.1 == n) = true then (n, v) else e)
          = fun e => e.1 == m := by
        funext e
        simp only [Function.comp_apply]
        split
        · rename_i h'
          simp only [beq_iff_eq] at h'
          simp [h']
        · rfl
      rw [hc]
      cases hf : r.entries.find? fun e => e.1 == m with
      | none => rfl
      | some e =>
        have h2 := List.find?_some hf
        simp only [beq_iff_eq] at h2
        simp [h2, hm]
  · rename_i h
    simp only [Reg.item, List.find?_append]
    by_cases hm : m = n
    · subst hm
      rw [if_pos rfl]
      have : (r.entries.find? fun e => e.1 == m) = none := by
        rw [List.find?_eq_none]
        intro e he hh
        simp only [beq_iff_eq] at hh
        exact h ((has_iff_entry _ _).2 ⟨e.2, hh ▸ he⟩)
      simp [this]
    · rw [if_neg hm]
      have : (List.find? (fun e : String × ι => e.1 == m) [(n, v)]) = none := by
        simp [Ne.symm hm]
      rw [this, Option.or_none]

/-- Where a class found under a name may come from: the registry before, or a call that registers it and passes the test. -/
def Origin (r : Reg ι) (ops : List (RegOp ι)) (n : String) (v : ι) : Prop :=
  (n, v) ∈ r.entries ∨ ∃ d, RegOp.register n ⟨v, true⟩ d ∈ ops

/-- Where a call may be. -/
def CInv (r : Reg ι) (ops : List (RegOp ι)) (g : Reg ι) : RegOp ι → RProg ι → Prop
  | .register n c d, p =>
      p = regP (.register n c d) ∨
      (c.isSub = true ∧ p = .set n c.impl (if d then setDefaultP n else .done (.ok none))) ∨
      (g.has n = true ∧ c.isSub = true ∧
        (p = .done (.ok none) ∨ (d = true ∧ (p = setDefaultP n ∨ p = .setDefault n (.done (.ok none)))))) ∨
      (g.has n = true ∧ p = .done (.error .valueError)) ∨
      (c.isSub = false ∧ p = .done (.error .typeError))
  | .setDefault n, p =>
      p = setDefaultP n ∨
      (g.has n = true ∧ (p = .setDefault n (.done (.ok none)) ∨ p = .done (.ok none))) ∨
      (r.has n = false ∧ p = .done (.error .nameError))
  | .lookup n, p =>
      p = regP (.lookup n) ∨ (g.has n = true ∧ p = .item n) ∨
      (r.has n = false ∧ p = .done (.error .nameError)) ∨
      (∃ v, Origin r ops n v ∧ p = .done (.ok (some v)))
  | .list, p => p = .done (.ok none)

/-- What holds of the registry. -/
structure RInv (r : Reg ι) (ops : List (RegOp ι)) (g : Reg ι) : Prop where
  keep : ∀ n, r.has n = true → g.has n = true
  origin : ∀ e ∈ g.entries, Origin r ops e.1 e.2
  nodup : g.names.Nodup
  default : ∀ n, g.default = some n → g.has n = true

theorem CInv.mono {r : Reg ι} {ops : List (RegOp ι)} {g g' : Reg ι} (hg : ∀ n, g.has n = true → g'.has n = true)
    {op : RegOp ι} {p : RProg ι} (h : CInv r ops g op p) : CInv r ops g' op p := by
  cases op with
  | register n c d =>
    rcases h with h | h | ⟨h1, h⟩ | ⟨h1, h⟩ | h
    · exact .inl h
    · exact .inr (.inl h)
    · exact .inr (.inr (.inl ⟨hg n h1, h⟩))
    · exact .inr (.inr (.inr (.inl ⟨hg n h1, h⟩)))
    · exact .inr (.inr (.inr (.inr h)))
  | setDefault n =>
    rcases h with h | ⟨h1, h⟩ | h
    · exact .inl h
    · exact .inr (.inl ⟨hg n h1, h⟩)
    · exact .inr (.inr h)
  | lookup n =>
    rcases h with h | ⟨h1, h⟩ | h | h
    · exact .inl h
    · exact .inr (.inl ⟨hg n h1, h⟩)
    · exact .inr (.inr (.inl h))
    · exact .inr (.inr (.inr h))
  | list => exact h

theorem nodup_setItem {g : Reg ι} (h : g.names.Nodup) (n : String) (v : ι) : (g.setItem n v).names.Nodup := by
  rw [names_setItem]
  split
  · exact h
  · rename_i hn
    rw [List.nodup_append]
    refine ⟨h, by simp, ?_⟩
    rintro a ha b hb rfl
    simp only [List.mem_singleton] at hb
    subst hb
    simp only [Reg.names, List.mem_map] at ha
    obtain ⟨e, he, rfl⟩ := ha
    exact hn ((has_iff_entry _ _).2 ⟨e.2, he⟩)

/-- A step of a call keeps everything. -/
theorem call_step {r : Reg ι} {ops : List (RegOp ι)} {g : Reg ι} (hg : RInv r ops g) {op : RegOp ι} (hop : op ∈ ops)
    {p : RProg ι} (hp : CInv r ops g op p) :
    RInv r ops (p.step g).2 ∧ (∀ n, g.has n = true → (p.step g).2.has n = true) ∧
      CInv r ops (p.step g).2 op (p.step g).1 := by
  have same : ∀ q, p.step g = (q, g) → CInv r ops g op q → RInv r ops (p.step g).2 ∧
      (∀ n, g.has n = true → (p.step g).2.has n = true) ∧ CInv r ops (p.step g).2 op (p.step g).1 := by
    intro q h1 h2
    rw [h1]
    exact ⟨hg, fun _ h => h, h2⟩
  have dflt : ∀ n, g.has n = true → p = .setDefault n (.done (.ok none)) →
      CInv r ops g op (.done (.ok none)) → RInv r ops (p.step g).2 ∧
      (∀ n, g.has n = true → (p.step g).2.has n = true) ∧ CInv r ops (p.step g).2 op (p.step g).1 := by
    rintro n h1 rfl h2
    have hh : ∀ m, ({ g with default := some n } : Reg ι).has m = g.has m := fun _ => rfl
    refine ⟨⟨hg.keep, hg.origin, hg.nodup, ?_⟩, fun _ h => h, h2.mono fun _ h => h⟩
    intro m hm
    simp only [RProg.step, Option.some.injEq] at hm
    subst hm
    exact h1
  cases op with
  | register n c d =>
    rcases hp with rfl | ⟨h1, rfl⟩ | ⟨h1, h2, rfl | ⟨rfl, rfl | rfl⟩⟩ | ⟨h1, rfl⟩ | ⟨h1, rfl⟩
    · refine same _ rfl ?_
      by_cases hh : g.has n = true
      · simp only [hh, if_true]; exact .inr (.inr (.inr (.inl ⟨hh, rfl⟩)))
      · simp only [hh, if_false]
        cases hb : c.isSub with
        | false => rw [if_pos rfl]; exact .inr (.inr (.inr (.inr ⟨hb, rfl⟩)))
        | true => rw [if_neg (by simp)]; exact .inr (.inl ⟨hb, rfl⟩)
    · have hh : ∀ m, g.has m = true → (g.setItem n c.impl).has m = true := by
        intro m hm; rw [has_setItem, hm]; rfl
      have hn : (g.setItem n c.impl).has n = true := by rw [has_setItem]; simp
      refine ⟨⟨fun m hm => hh m (hg.keep m hm), ?_, nodup_setItem hg.nodup n _, ?_⟩, hh, ?_⟩
      · intro e he
        rcases mem_setItem he with he | rfl
        · exact hg.origin e he
        · obtain ⟨i, b⟩ := c
          simp only at h1
          subst h1
          exact .inr ⟨d, hop⟩
      · intro m hm
        refine hh m (hg.default m ?_)
        have : (g.setItem n c.impl).default = g.default := by unfold Reg.setItem; split <;> rfl
        exact this ▸ hm
      · refine .inr (.inr (.inl ⟨hn, h1, ?_⟩))
        cases d with
        | true => exact .inr ⟨rfl, .inl rfl⟩
        | false => exact .inl rfl
    · exact same _ rfl (.inr (.inr (.inl ⟨h1, h2, .inl rfl⟩)))
    · refine same _ rfl ?_
      simp only [h1, Bool.true_eq_false, if_false]
      exact .inr (.inr (.inl ⟨h1, h2, .inr ⟨rfl, .inr rfl⟩⟩))
    · exact dflt n h1 rfl (.inr (.inr (.inl ⟨h1, h2, .inl rfl⟩)))
    · exact same _ rfl (.inr (.inr (.inr (.inl ⟨h1, rfl⟩))))
    · exact same _ rfl (.inr (.inr (.inr (.inr ⟨h1, rfl⟩))))
  | setDefault n =>
    rcases hp with rfl | ⟨h1, rfl | rfl⟩ | ⟨h1, rfl⟩
    · refine same _ rfl ?_
      by_cases hh : g.has n = false
      · simp only [hh, if_true]
        refine .inr (.inr ⟨?_, rfl⟩)
        by_contra hr
        have := hg.keep n (by simpa using hr)
        simp [hh] at this
      · simp only [hh, if_false]
        exact .inr (.inl ⟨by simpa using hh, .inl rfl⟩)
    · exact dflt n h1 rfl (.inr (.inl ⟨h1, .inr rfl⟩))
    · exact same _ rfl (.inr (.inl ⟨h1, .inr rfl⟩))
    · exact same _ rfl (.inr (.inr ⟨h1, rfl⟩))
  | lookup n =>
    rcases hp with rfl | ⟨h1, rfl⟩ | ⟨h1, rfl⟩ | ⟨v, h1, rfl⟩
    · refine same _ rfl ?_
      by_cases hh : g.has n = false
      · simp only [hh, if_true]
        refine .inr (.inr (.inl ⟨?_, rfl⟩))
        by_contra hr
        have := hg.keep n (by simpa using hr)
        simp [hh] at this
      · simp only [hh, if_false]
        exact .inr (.inl ⟨by simpa using hh, rfl⟩)
    · obtain ⟨v, hv, hm⟩ := item_has h1
      refine same (.done (.ok (some v))) (by simp [RProg.step, hv, Except.map]) ?_
      exact .inr (.inr (.inr ⟨v, hg.origin _ hm, rfl⟩))
    · exact same _ rfl (.inr (.inr (.inl ⟨h1, rfl⟩)))
    · exact same _ rfl (.inr (.inr (.inr ⟨v, h1, rfl⟩)))
  | list =>
    obtain rfl : p = .done (.ok none) := hp
    exact same _ rfl rfl

/-- What holds of registry and calls. -/
structure GInv (r : Reg ι) (ops : List (RegOp ι)) (s : RSys ι) : Prop where
  reg : RInv r ops s.reg
  len : s.calls.length = ops.length
  call : ∀ (i : Nat) op p, ops[i]? = some op → s.calls[i]? = some p → CInv r ops s.reg op p

theorem reg_start {r : Reg ι} (hn : r.names.Nodup) (hd : ∀ n, r.default = some n → r.has n = true)
    (ops : List (RegOp ι)) : GInv r ops (RSys.start r ops) := by
  refine ⟨⟨fun _ h => h, fun _ h => .inl h, hn, hd⟩, by simp [RSys.start], ?_⟩
  intro i op p h1 h2
  simp only [RSys.start, List.getElem?_map, h1, Option.map_some, Option.some.injEq] at h2
  subst h2
  cases op with
  | list => rfl
  | _ => exact .inl rfl

theorem reg_step {r : Reg ι} {ops : List (RegOp ι)} {s : RSys ι} (hs : GInv r ops s) (i : Nat) :
    GInv r ops (s.step i) ∧ ∀ n, s.reg.has n = true → (s.step i).reg.has n = true := by
  unfold RSys.step
  cases hi : s.calls[i]? with
  | none => exact ⟨hs, fun _ h => h⟩
  | some p =>
    obtain ⟨hlt, -⟩ := List.getElem?_eq_some_iff.1 hi
    obtain ⟨op, hop⟩ : ∃ op, ops[i]? = some op := ⟨_, List.getElem?_eq_getElem (hs.len ▸ hlt)⟩
    obtain ⟨k1, k2, k3⟩ := call_step hs.reg (List.mem_of_getElem? hop) (hs.call i op p hop hi)
    refine ⟨⟨k1, by simpa using hs.len, ?_⟩, k2⟩
    intro j op' p' h1 h2
    by_cases hj : i = j
    · subst hj
      rw [hop] at h1
      cases h1
      simp only [List.getElem?_set_self hlt, Option.some.injEq] at h2
      subst h2
      exact k3
    · simp only [List.getElem?_set_ne hj] at h2
      exact (hs.call j op' p' h1 h2).mono k2

theorem reg_run {r : Reg ι} {ops : List (RegOp ι)} {s : RSys ι} (hs : GInv r ops s) (sched : List Nat) :
    GInv r ops (s.run sched) ∧ ∀ n, s.reg.has n = true → (s.run sched).reg.has n = true := by
  induction sched generalizing s with
  | nil => exact ⟨hs, fun _ h => h⟩
  | cons i sched ih =>
    obtain ⟨k1, k2⟩ := reg_step hs i
    obtain ⟨j1, j2⟩ := ih k1
    exact ⟨j1, fun n h => j2 n (k2 n h)⟩

/-- The call has ended with `x`. -/
def Ended (s : RSys ι) (i : Nat) (x : Except PyErr (Option ι)) : Prop := s.calls[i]? = some (.done x)

/-- What a call that has ended may have returned or raised. -/
def Outcome (r : Reg ι) (ops : List (RegOp ι)) (g : Reg ι) (x : Except PyErr (Option ι)) : RegOp ι → Prop
  | .register n c _ => (x = .ok none ∧ c.isSub = true ∧ g.has n = true) ∨ (x = .error .valueError ∧ g.has n = true) ∨
      (x = .error .typeError ∧ c.isSub = false)
  | .setDefault n => (x = .ok none ∧ g.has n = true) ∨ (x = .error .nameError ∧ r.has n = false)
  | .lookup n => (∃ v, x = .ok (some v) ∧ Origin r ops n v) ∨ (x = .error .nameError ∧ r.has n = false)
  | .list => x = .ok none

/-- **C168 (registries, partial).** Threads register classes, set the default and look names up, each making one call, in any
interleaving. The names stay different, names are never lost, the default is a registered name, every class in the registry was
there before or was registered under its name by a call and is a subclass of the base class. A call that ended has one of the
outcomes of the sequential function: in particular a lookup never fails with a KeyError and never returns a class under another
name. Missing: a second registration of a name is refused, see `C168_race_fails`. -/
theorem C168_safe_partial (r : Reg ι) (hn : r.names.Nodup) (hd : ∀ n, r.default = some n → r.has n = true)
    (ops : List (RegOp ι)) (sched later : List Nat) :
    let s := (RSys.start r ops).run sched
    s.reg.names.Nodup ∧ (∀ n, s.reg.default = some n → s.reg.has n = true) ∧
    (∀ n, r.has n = true → s.reg.has n = true) ∧
    (∀ n, s.reg.has n = true → ((RSys.start r ops).run (sched ++ later)).reg.has n = true) ∧
    (∀ e ∈ s.reg.entries, Origin r ops e.1 e.2) ∧
    ∀ (i : Nat) op x, ops[i]? = some op → Ended s i x → Outcome r ops s.reg x op := by
  intro s
  obtain ⟨h1, h2⟩ := reg_run (reg_start hn hd ops) sched
  have hl : (RSys.start r ops).run (sched ++ later) = s.run later := by simp [RSys.run, s]
  refine ⟨h1.reg.nodup, h1.reg.default, h2, ?_, h1.reg.origin, ?_⟩
  · rw [hl]
    exact (reg_run h1 later).2
  · intro i op x hi hx
    have hc := h1.call i op _ hi hx
    cases op with
    | register n c d =>
      rcases hc with h | ⟨-, h⟩ | ⟨k1, k2, h | ⟨-, h | h⟩⟩ | ⟨k1, h⟩ | ⟨k1, h⟩
      · simp [regP] at h
      · simp at h
      · exact .inl ⟨by simpa using h, k2, k1⟩
      · simp [setDefaultP] at h
      · simp at h
      · exact .inr (.inl ⟨by simpa using h, k1⟩)
      · exact .inr (.inr ⟨by simpa using h, k1⟩)
    | setDefault n =>
      rcases hc with h | ⟨k1, h | h⟩ | ⟨k1, h⟩
      · simp [setDefaultP] at h
      · simp at h
      · exact .inl ⟨by simpa using h, k1⟩
      · exact .inr ⟨by simpa using h, k1⟩
    | lookup n =>
      rcases hc with h | ⟨-, h⟩ | ⟨k1, h⟩ | ⟨v, k1, h⟩
      · simp [regP] at h
      · simp at h
      · exact .inr ⟨by simpa using h, k1⟩
      · exact .inl ⟨v, by simpa using h, k1⟩
    | list => simpa [CInv, Outcome] using hc

/-- The call ends within `n` steps. -/
def RWithin : RProg ι → Nat → Prop
  | .done _, _ => True
  | .has _ k, n => ∃ m, n = m + 1 ∧ ∀ b, RWithin (k b) m
  | .item _, n => 1 ≤ n
  | .set _ _ k, n => ∃ m, n = m + 1 ∧ RWithin k m
  | .setDefault _ k, n => ∃ m, n = m + 1 ∧ RWithin k m

theorem rwithin_op (op : RegOp ι) : RWithin (regP op) 4 := by
  cases op with
  | register n c d =>
    refine ⟨3, rfl, fun b => ?_⟩
    dsimp only
    split
    · trivial
    · split
      · trivial
      · refine ⟨2, rfl, ?_⟩
        split
        · refine ⟨1, rfl, fun b => ?_⟩
          dsimp only
          split
          · trivial
          · exact ⟨0, rfl, trivial⟩
        · trivial
  | setDefault n =>
    refine ⟨3, rfl, fun b => ?_⟩
    dsimp only
    split
    · trivial
    · exact ⟨2, rfl, trivial⟩
  | lookup n =>
    refine ⟨3, rfl, fun b => ?_⟩
    dsimp only
    split
    · trivial
    · simp [RWithin]
  | list => trivial

theorem rstep_within (g : Reg ι) {p : RProg ι} {n : Nat} (h : RWithin p (n + 1)) : RWithin (p.step g).1 n := by
  cases p with
  | done x => trivial
  | has m k => obtain ⟨l, h1, h2⟩ := h; obtain rfl : n = l := by omega
               exact h2 _
  | item m => trivial
  | set m v k => obtain ⟨l, h1, h2⟩ := h; obtain rfl : n = l := by omega
                 exact h2
  | setDefault m k => obtain ⟨l, h1, h2⟩ := h; obtain rfl : n = l := by omega
                      exact h2

theorem rwithin_zero {p : RProg ι} (h : RWithin p 0) : ∃ x, p = .done x := by
  cases p with
  | done x => exact ⟨x, rfl⟩
  | has m k => obtain ⟨l, h, -⟩ := h; omega
  | item m => simp [RWithin] at h
  | set m v k => obtain ⟨l, h, -⟩ := h; omega
  | setDefault m k => obtain ⟨l, h, -⟩ := h; omega

theorem rrun_within (sched : List Nat) {s : RSys ι} {i : Nat} {p : RProg ι} {n : Nat} (hi : s.calls[i]? = some p)
    (h : RWithin p n) (hn : n ≤ sched.count i) : ∃ x, (s.run sched).calls[i]? = some (.done x) := by
  induction sched generalizing s p n with
  | nil =>
    simp only [List.count_nil, Nat.le_zero] at hn
    subst hn
    obtain ⟨x, rfl⟩ := rwithin_zero h
    exact ⟨x, hi⟩
  | cons j sched ih =>
    have hlt := (List.getElem?_eq_some_iff.1 hi).1
    by_cases hj : j = i
    · subst hj
      have hi' : (s.step j).calls[j]? = some (p.step s.reg).1 := by
        simp [RSys.step, hi, List.getElem?_set_self hlt]
      cases n with
      | zero =>
        obtain ⟨x, rfl⟩ := rwithin_zero h
        exact ih (n := 0) hi' trivial (by omega)
      | succ n =>
        simp only [List.count_cons_self] at hn
        exact ih hi' (rstep_within s.reg h) (by omega)
    · refine ih (s := s.step j) (p := p) (n := n) ?_ h (by simpa [List.count_cons, hj] using hn)
      unfold RSys.step
      cases s.calls[j]? with
      | none => exact hi
      | some _ => simpa [List.getElem?_set_ne hj] using hi

/-- **C168 (no waiting).** A call has ended after four own steps, whatever the others do in between. -/
theorem C168_ends (r : Reg ι) (ops : List (RegOp ι)) (sched : List Nat) {i : Nat} (hi : i < ops.length)
    (hn : 4 ≤ sched.count i) : ∃ x, Ended ((RSys.start r ops).run sched) i x :=
  rrun_within sched (s := RSys.start r ops) (p := regP ops[i]) (by simp [RSys.start, hi]) (rwithin_op _) hn

/-- The call never stores anything under the name. -/
def NoSet (n : String) : RProg ι → Prop
  | .done _ => True
  | .has _ k => ∀ b, NoSet n (k b)
  | .item _ => True
  | .set m _ k => m ≠ n ∧ NoSet n k
  | .setDefault _ k => NoSet n k

theorem noset_op {n : String} {op : RegOp ι} (h : ∀ c d, op ≠ .register n c d) : NoSet n (regP op) := by
  have hs : ∀ m, NoSet n (setDefaultP (ι := ι) m) := by
    intro m b
    dsimp only
    split <;> trivial
  cases op with
  | register m c d =>
    intro b
    dsimp only
    split
    · trivial
    · split
      · trivial
      · refine ⟨fun hm => h c d (by rw [hm]), ?_⟩
        split
        · exact hs m
        · trivial
  | setDefault m => exact hs m
  | lookup m =>
    intro b
    dsimp only
    split <;> trivial
  | list => trivial

theorem noset_step {n : String} (g : Reg ι) {p : RProg ι} (h : NoSet n p) : NoSet n (p.step g).1 ∧
    (p.step g).2.has n = g.has n ∧ (p.step g).2.item n = g.item n := by
  cases p with
  | done x => exact ⟨trivial, rfl, rfl⟩
  | has m k => exact ⟨h _, rfl, rfl⟩
  | item m => exact ⟨trivial, rfl, rfl⟩
  | set m v k =>
    refine ⟨h.2, ?_, ?_⟩
    · have : (n == m) = false := by simpa using Ne.symm h.1
      simp [RProg.step, has_setItem, this]
    · simp [RProg.step, item_setItem, Ne.symm h.1]
  | setDefault m k => exact ⟨h, rfl, rfl⟩

/-- The state of the only call that registers the name. -/
def Own (n : String) (c : Cand ι) (d : Bool) (g : Reg ι) (p : RProg ι) : Prop :=
  (g.has n = false ∧ (p = regP (.register n c d) ∨
      p = .set n c.impl (if d then setDefaultP n else .done (.ok none)))) ∨
  (g.has n = true ∧ g.item n = .ok c.impl ∧
      (p = .done (.ok none) ∨ p = setDefaultP n ∨ p = .setDefault n (.done (.ok none))))

theorem own_step {n : String} {c : Cand ι} (hc : c.isSub = true) {d : Bool} {g : Reg ι} {p : RProg ι}
    (h : Own n c d g p) : Own n c d (p.step g).2 (p.step g).1 := by
  rcases h with ⟨h1, rfl | rfl⟩ | ⟨h1, h2, rfl | rfl | rfl⟩
  · refine .inl ⟨h1, .inr ?_⟩
    simp [regP, RProg.step, h1, hc]
  · refine .inr ⟨?_, ?_, ?_⟩
    · simp [RProg.step, has_setItem]
    · simp [RProg.step, item_setItem]
    · cases d with
      | true => exact .inr (.inl rfl)
      | false => exact .inl rfl
  · exact .inr ⟨h1, h2, .inl rfl⟩
  · refine .inr ⟨h1, h2, .inr (.inr ?_)⟩
    simp [setDefaultP, RProg.step, h1]
  · exact .inr ⟨h1, h2, .inl rfl⟩

/-- **C168 (different names).** A subclass registered under a name that is new and that no other call registers: whatever the
other calls are and however they interleave, the call ends without an error, and from then on lookups of the name find the class. -/
theorem C168_register (r : Reg ι) (ops : List (RegOp ι)) (sched : List Nat) {i : Nat} {n : String} {c : Cand ι} {d : Bool}
    (hi : ops[i]? = some (.register n c d)) (hc : c.isSub = true) (hr : r.has n = false)
    (ho : ∀ (j : Nat) c' d', ops[j]? = some (.register n c' d') → j = i) {x : Except PyErr (Option ι)}
    (hx : Ended ((RSys.start r ops).run sched) i x) :
    x = .ok none ∧ ((RSys.start r ops).run sched).reg.item n = .ok c.impl := by
  have key : ∀ s : RSys ι, (∃ p, s.calls[i]? = some p ∧ Own n c d s.reg p) →
      (∀ (j : Nat) p, j ≠ i → s.calls[j]? = some p → NoSet n p) →
      (∃ p, (s.run sched).calls[i]? = some p ∧ Own n c d (s.run sched).reg p) := by
    clear hx
    intro s h1 h2
    induction sched generalizing s with
    | nil => exact h1
    | cons j sched ih =>
      obtain ⟨p, hp, hown⟩ := h1
      have hlt := (List.getElem?_eq_some_iff.1 hp).1
      by_cases hj : j = i
      · subst hj
        refine ih (s.step j) ⟨(p.step s.reg).1, by simp [RSys.step, hp, List.getElem?_set_self hlt], ?_⟩ ?_
        · simpa [RSys.step, hp] using own_step hc hown
        · intro l q hl hq
          simp only [RSys.step, hp, List.getElem?_set_ne (Ne.symm hl)] at hq
          exact h2 l q hl hq
      · cases hq : s.calls[j]? with
        | none =>
          have : s.step j = s := by simp [RSys.step, hq]
          show ∃ p, ((s.step j).run sched).calls[i]? = some p ∧ _
          rw [show (s.run (j :: sched)) = (s.step j).run sched from rfl, this]
          exact ih s ⟨p, hp, hown⟩ h2
        | some q =>
          obtain ⟨k1, k2, k3⟩ := noset_step s.reg (h2 j q hj hq)
          have hltj := (List.getElem?_eq_some_iff.1 hq).1
          refine ih (s.step j) ⟨p, by simp [RSys.step, hq, List.getElem?_set_ne hj, hp], ?_⟩ ?_
          · simp only [RSys.step, hq, Own, k2, k3]
            exact hown
          · intro l q' hl hq'
            simp only [RSys.step, hq] at hq'
            by_cases hjl : j = l
            · subst hjl
              simp only [List.getElem?_set_self hltj, Option.some.injEq] at hq'
              subst hq'
              exact k1
            · rw [List.getElem?_set_ne hjl] at hq'
              exact h2 l q' hl hq'
  obtain ⟨p, hp, hown⟩ := key (RSys.start r ops) ⟨_, by simp [RSys.start, hi], .inl ⟨hr, .inl rfl⟩⟩ (by
    intro j p hj hp
    simp only [RSys.start, List.getElem?_map, Option.map_eq_some_iff] at hp
    obtain ⟨op, h1, rfl⟩ := hp
    refine noset_op ?_
    rintro c' d' rfl
    exact hj (ho j c' d' h1))
  rw [Ended, hp, Option.some.injEq] at hx
  subst hx
  rcases hown with ⟨-, h | h⟩ | ⟨-, h2, h | h | h⟩
  · simp [regP] at h
  · simp at h
  · exact ⟨by simpa using h, h2⟩
  · simp [setDefaultP] at h
  · simp at h

/-- The call is one that sets the default to the name. -/
def SetsDefault (op : RegOp ι) (n : String) : Prop := op = .setDefault n ∨ ∃ c, op = .register n c true

/-- The call sets the default to names of `S` only. -/
def DefIn (S : String → Prop) : RProg ι → Prop
  | .done _ => True
  | .has _ k => ∀ b, DefIn S (k b)
  | .item _ => True
  | .set _ _ k => DefIn S k
  | .setDefault n k => S n ∧ DefIn S k

/-- The call has still to set the default, or it will not return. -/
def Must : RProg ι → Prop
  | .done x => x ≠ .ok none
  | .has _ k => ∀ b, Must (k b)
  | .item _ => False
  | .set _ _ k => Must k
  | .setDefault _ _ => True

theorem defIn_op (op : RegOp ι) : DefIn (SetsDefault op) (regP op) := by
  cases op with
  | register m c d =>
    intro b
    dsimp only
    split
    · trivial
    · split
      · trivial
      · cases d with
        | false => trivial
        | true =>
          intro b
          dsimp only
          split
          · trivial
          · exact ⟨.inr ⟨c, rfl⟩, trivial⟩
  | setDefault m =>
    intro b
    dsimp only
    split
    · trivial
    · exact ⟨.inl rfl, trivial⟩
  | lookup m =>
    intro b
    dsimp only
    split <;> trivial
  | list => trivial

theorem must_op {op : RegOp ι} {n : String} (h : SetsDefault op n) : Must (regP op) := by
  rcases h with rfl | ⟨c, rfl⟩
  · intro b
    dsimp only
    split
    · simp [Must]
    · trivial
  · intro b
    dsimp only
    split
    · simp [Must]
    · split
      · simp [Must]
      · intro b
        dsimp only
        split
        · simp [Must]
        · trivial

theorem DefIn.mono {S T : String → Prop} (h : ∀ n, S n → T n) : ∀ {p : RProg ι}, DefIn S p → DefIn T p
  | .done _, _ => trivial
  | .has _ _, hp => fun b => (hp b).mono h
  | .item _, _ => trivial
  | .set _ _ k, hp => DefIn.mono (p := k) h hp
  | .setDefault _ _, hp => ⟨h _ hp.1, hp.2.mono h⟩

theorem def_step {S : String → Prop} (g : Reg ι) {p : RProg ι} (hp : DefIn S p) : DefIn S (p.step g).1 ∧
    ((p.step g).2.default = g.default ∨ ∃ n, (p.step g).2.default = some n ∧ S n) ∧
    (Must p → Must (p.step g).1 ∨ ∃ n, (p.step g).2.default = some n ∧ S n) := by
  cases p with
  | done x => exact ⟨trivial, .inl rfl, .inl⟩
  | has m k => exact ⟨hp _, .inl rfl, fun h => .inl (h _)⟩
  | item m => exact ⟨trivial, .inl rfl, fun h => absurd h (by simp [Must])⟩
  | set m v k =>
    have : (g.setItem m v).default = g.default := by unfold Reg.setItem; split <;> rfl
    exact ⟨hp, .inl this, fun h => .inl h⟩
  | setDefault m k => exact ⟨hp.2, .inr ⟨m, rfl, hp.1⟩, fun _ => .inr ⟨m, rfl, hp.1⟩⟩

/-- **C168 (default).** The default is what it was before, or a name to which one of the calls sets it; and the latter once one
of these calls has returned. -/
theorem C168_default (r : Reg ι) (ops : List (RegOp ι)) (sched : List Nat) :
    let s := (RSys.start r ops).run sched
    (s.reg.default = r.default ∨ ∃ n, s.reg.default = some n ∧ ∃ op ∈ ops, SetsDefault op n) ∧
    ∀ (i : Nat) op m, ops[i]? = some op → SetsDefault op m → Ended s i (.ok none) →
      ∃ n, s.reg.default = some n ∧ ∃ op' ∈ ops, SetsDefault op' n := by
  set S : String → Prop := fun n => ∃ op ∈ ops, SetsDefault op n with hS
  have key : ∀ s : RSys ι, (s.reg.default = r.default ∨ ∃ n, s.reg.default = some n ∧ S n) →
      (∀ (j : Nat) p, s.calls[j]? = some p → DefIn S p) →
      (∀ (j : Nat) op m p, ops[j]? = some op → SetsDefault op m → s.calls[j]? = some p →
        Must p ∨ ∃ n, s.reg.default = some n ∧ S n) →
      ((s.run sched).reg.default = r.default ∨ ∃ n, (s.run sched).reg.default = some n ∧ S n) ∧
      (∀ (j : Nat) op m p, ops[j]? = some op → SetsDefault op m → (s.run sched).calls[j]? = some p →
        Must p ∨ ∃ n, (s.run sched).reg.default = some n ∧ S n) := by
    induction sched with
    | nil => exact fun s h1 _ h3 => ⟨h1, h3⟩
    | cons i sched ih =>
      intro s h1 h2 h3
      cases hi : s.calls[i]? with
      | none =>
        have : s.step i = s := by simp [RSys.step, hi]
        rw [show s.run (i :: sched) = (s.step i).run sched from rfl, this]
        exact ih s h1 h2 h3
      | some p =>
        have hlt := (List.getElem?_eq_some_iff.1 hi).1
        obtain ⟨k1, k2, k3⟩ := def_step s.reg (h2 i p hi)
        have hst : s.step i = ⟨(p.step s.reg).2, s.calls.set i (p.step s.reg).1⟩ := by simp [RSys.step, hi]
        have up : (∃ n, s.reg.default = some n ∧ S n) → ∃ n, (p.step s.reg).2.default = some n ∧ S n := by
          rintro ⟨n, h, hn⟩
          rcases k2 with k2 | k2
          · exact ⟨n, k2.trans h, hn⟩
          · exact k2
        rw [show s.run (i :: sched) = (s.step i).run sched from rfl, hst]
        refine ih _ ?_ ?_ ?_
        · rcases k2 with k2 | k2
          · rcases h1 with h1 | h1
            · exact .inl (k2.trans h1)
            · exact .inr (up h1)
          · exact .inr k2
        · intro j q hq
          by_cases hj : i = j
          · subst hj
            simp only [List.getElem?_set_self hlt, Option.some.injEq] at hq
            subst hq
            exact k1
          · simp only [List.getElem?_set_ne hj] at hq
            exact h2 j q hq
        · intro j op m q hop hset hq
          by_cases hj : i = j
          · subst hj
            simp only [List.getElem?_set_self hlt, Option.some.injEq] at hq
            subst hq
            rcases h3 i op m p hop hset hi with h | h
            · exact k3 h
            · exact .inr (up h)
          · simp only [List.getElem?_set_ne hj] at hq
            rcases h3 j op m q hop hset hq with h | h
            · exact .inl h
            · exact .inr (up h)
  obtain ⟨h1, h2⟩ := key (RSys.start r ops) (.inl rfl) (by
    intro j p hp
    simp only [RSys.start, List.getElem?_map, Option.map_eq_some_iff] at hp
    obtain ⟨op, h1, rfl⟩ := hp
    exact (defIn_op op).mono fun n hn => ⟨op, List.mem_of_getElem? h1, hn⟩) (by
    intro j op m p hop hset hp
    simp only [RSys.start, List.getElem?_map, hop, Option.map_some, Option.some.injEq] at hp
    subst hp
    exact .inl (must_op hset))
  refine ⟨h1, fun i op m hop hset hx => ?_⟩
  rcases h2 i op m _ hop hset hx with h | h
  · simp [Must] at h
  · exact h

/-- **C168 (violated by a race).** Two threads register different classes under one new name: both may pass the test, both
succeed, and the class registered first is lost, though its registration reported no error. -/
theorem C168_race_fails (r : Reg ι) {n : String} (hr : r.has n = false) (v w : ι) : ∃ sched,
    let s := (RSys.start r [.register n ⟨v, true⟩ false, .register n ⟨w, true⟩ false]).run sched
    Ended s 0 (.ok none) ∧ Ended s 1 (.ok none) ∧ s.reg.item n = .ok w := by
  refine ⟨[0, 1, 0, 1], ?_⟩
  refine ⟨?_, ?_, ?_⟩
  · simp [Ended, RSys.run, RSys.step, RSys.start, regP, RProg.step, hr]
  · simp [Ended, RSys.run, RSys.step, RSys.start, regP, RProg.step, hr]
  · simp [RSys.run, RSys.step, RSys.start, regP, RProg.step, hr, item_setItem]

end

/-! ## Concrete cases -/

example := C167_reads 0 exParab [[.speed, .curvature], [.tangent], [.torsion, .t]] [0, 1, 2, 2, 0, 1, 0]
example := C167_ends 0 exParab [[.speed], [.curvature]] (List.replicate 93 0) (i := 0) rfl (by simp)
example : ((Sys.start [[PropName.chordlen]]).run 0 exParab [0, 0, 0]).obj.heap[0]? = some (.chord (chordlen 0 exParab)) := rfl
example := C167_stable 0 exParab [[.chordlen]] [0, 0, 0] [0, 0] 0 _ rfl
example := C167_alone 0 exParab .frenet1 CacheObj.new
example := C167_identity 0 exParab .tangent CacheObj.new _ (a := 0) rfl

/-- A registry with one class. -/
def exReg : Reg Nat := ⟨[("exact", 1)], some "exact"⟩

example := C168_safe_partial exReg (by simp [exReg, Reg.names]) (by simp [exReg, Reg.has])
  [.register "a" ⟨2, true⟩ true, .lookup "a", .setDefault "exact"] [0, 1, 0, 2, 1, 0] [0]
example := C168_ends exReg [.lookup "a", .register "a" ⟨2, true⟩ true] [1, 1, 0, 1, 1] (i := 1) (by simp) (by simp)
example : Ended ((RSys.start exReg [.register "a" ⟨2, true⟩ true, .lookup "a"]).run [0, 1, 0, 0, 0]) 0 (.ok none) := by
  simp [Ended, RSys.run, RSys.step, RSys.start, regP, setDefaultP, RProg.step, exReg, Reg.has, Reg.setItem]
example {x} (hx : Ended ((RSys.start exReg [.register "a" ⟨2, true⟩ true, .lookup "a"]).run [0, 1, 0, 0, 0]) 0 x) :=
  C168_register exReg _ _ (i := 0) rfl rfl (by simp [exReg, Reg.has])
    (by intro j c d h; match j, h with | 0, _ => rfl | 1, h => simp at h) hx
example := C168_default exReg [.register "a" ⟨2, true⟩ true, .setDefault "exact"] [0, 1, 0, 0, 0, 1]
example := C168_race_fails exReg (n := "a") (by simp [exReg, Reg.has]) 2 3

end Verif.Props
