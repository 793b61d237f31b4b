import Verif.Model.Cache
import Verif.Props.DiffGeom

/-!
C22: caching of computed properties is invisible to readers.
-/
namespace Verif.Props

open Verif Verif.Np Verif.Model Verif.Spec

section
variable (junk : ℝ) (c : Curve ℝ)

/-- What is stored for a property computed from scratch. -/
noncomputable def cfresh : PropName → Except PyErr CVal
  | .chordlen => .ok (.chord (chordlen junk c))
  | .arclen => .ok (.num (arclen junk c))
  | .cumarclen => .ok (.nums (cumarclen junk c))
  | .t => .ok (match c.tdata with | some t => .ronums t | none => .nums (cumarclen junk c))
  | .firstderiv => .ok (.mat (firstderiv c))
  | .tangent => .ok (.mat (firstderiv c))
  | .secondderiv => .ok (.mat (secondderiv c))
  | .thirdderiv => .ok (.mat (thirdderiv c))
  | .normal => .ok (.mat (if c.rows = [] then emptyMat else normal c))
  | .binormal => .ok (.mat (if c.rows = [] then emptyMat else binormal c))
  | .speed => if c.rows = [] then .error .valueError
    else .ok (.vals ((List.range c.size).map fun i => .fin (rowNorm (firstderiv c) i)))
  | .frenet1 => .ok (.mat (if c.rows = [] then emptyMat else frenet1 c))
  | .frenet2 => .ok (.mat (if c.rows = [] then emptyMat else frenet2 c))
  | .frenet3 => .ok (.mat (if c.rows = [] then emptyMat else frenet3 c))
  | .curvature => if c.rows = [] then .ok (.vals [])
    else match curvature c with
      | .error e => .error e
      | .ok xs => .ok (.vals xs)
  | .torsion => .ok (.vals (torsion c))

/-- Everything cached has the value computed from scratch. -/
def Inv (s : CacheObj) : Prop := ∀ f a, s.cache f = some a → ∃ v, s.heap[a]? = some v ∧ cfresh junk c f = .ok v

/-- A result agrees with a value. -/
def Agrees (h : List CVal) : Except PyErr Nat → Except PyErr CVal → Prop
  | .ok a, .ok v => h[a]? = some v
  | .error e, .error e' => e = e'
  | _, _ => False

/-- A computation that keeps the invariant and existing arrays, and returns `r`. -/
def Good (m : CacheM) (r : Except PyErr CVal) : Prop :=
  ∀ s, Inv junk c s → Inv junk c (m s).2 ∧ s.heap <+: (m s).2.heap ∧ Agrees (m s).2.heap (m s).1 r

variable {junk c}

theorem prefix_get {l l' : List CVal} (h : l <+: l') {a : Nat} {v : CVal} (ha : l[a]? = some v) : l'[a]? = some v := by
  obtain ⟨t, rfl⟩ := h
  rw [List.getElem?_append_left (List.getElem?_eq_some_iff.1 ha).1]
  exact ha

theorem good_alloc (v : CVal) : Good junk c (alloc v) (.ok v) := by
  intro s hs
  refine ⟨?_, List.prefix_append _ _, ?_⟩
  · intro f a hf
    obtain ⟨w, h1, h2⟩ := hs f a hf
    exact ⟨w, prefix_get (List.prefix_append _ _) h1, h2⟩
  · simp [alloc, Agrees]

theorem good_raise (e : PyErr) : Good junk c (raise e) (.error e) :=
  fun _ hs => ⟨hs, List.prefix_rfl, rfl⟩

theorem good_use {m : CacheM} {k : CVal → CacheM} {v : CVal} {r : Except PyErr CVal} (hm : Good junk c m (.ok v))
    (hk : Good junk c (k v) r) : Good junk c (useVal m k) r := by
  intro s hs
  obtain ⟨h1, h2, h3⟩ := hm s hs
  unfold useVal
  obtain ⟨res, s', hms⟩ : ∃ res s', m s = (res, s') := ⟨_, _, rfl⟩
  rw [hms] at h1 h2 h3
  simp only [hms]
  cases res with
  | error e => simp [Agrees] at h3
  | ok a =>
    simp only [Agrees] at h3
    simp only [h3]
    obtain ⟨k1, k2, k3⟩ := hk s' h1
    exact ⟨k1, h2.trans k2, k3⟩

theorem good_memo {f : PropName} {m : CacheM} (hm : Good junk c m (cfresh junk c f)) :
    Good junk c (memo f m) (cfresh junk c f) := by
  intro s hs
  unfold memo
  cases hf : s.cache f with
  | some a =>
    obtain ⟨v, h1, h2⟩ := hs f a hf
    refine ⟨hs, List.prefix_rfl, ?_⟩
    rw [h2]
    exact h1
  | none =>
    obtain ⟨h1, h2, h3⟩ := hm s hs
    obtain ⟨res, s', hms⟩ : ∃ res s', m s = (res, s') := ⟨_, _, rfl⟩
    rw [hms] at h1 h2 h3
    simp only [hms]
    cases res with
    | error e => exact ⟨h1, h2, h3⟩
    | ok a =>
      refine ⟨?_, h2, h3⟩
      intro g b hg
      simp only at hg
      split at hg
      · rename_i hgf
        cases hg
        subst hgf
        cases hv : cfresh junk c g with
        | error e => rw [hv] at h3; simp [Agrees] at h3
        | ok v => rw [hv] at h3; exact ⟨v, h3, rfl⟩
      · exact h1 g b hg

theorem good_chordlen : Good junk c (getChordlen junk c) (cfresh junk c .chordlen) := good_memo (good_alloc _)

theorem good_arclen : Good junk c (getArclen junk c) (cfresh junk c .arclen) := good_memo (good_alloc _)

theorem good_cumarclen : Good junk c (getCumarclen junk c) (cfresh junk c .cumarclen) :=
  good_memo (good_use good_chordlen (good_alloc _))

theorem good_t : Good junk c (getT junk c) (cfresh junk c .t) := by
  refine good_memo ?_
  unfold cfresh
  cases h : c.tdata with
  | some t => exact good_alloc _
  | none => exact good_cumarclen

theorem good_firstderiv : Good junk c (getFirstderiv c) (cfresh junk c .firstderiv) := good_memo (good_alloc _)

theorem good_secondderiv : Good junk c (getSecondderiv c) (cfresh junk c .secondderiv) :=
  good_memo (good_use good_firstderiv (good_alloc _))

theorem good_thirdderiv : Good junk c (getThirdderiv c) (cfresh junk c .thirdderiv) :=
  good_memo (good_use good_secondderiv (good_alloc _))

theorem good_tangent : Good junk c (getTangent c) (cfresh junk c .tangent) := good_memo good_firstderiv

theorem good_frenet1 : Good junk c (getFrenet1 c) (cfresh junk c .frenet1) := by
  refine good_memo ?_
  simp only [cfresh]
  split
  · exact good_alloc _
  · exact good_use good_tangent (good_alloc _)

theorem good_frenet1' (h : ¬ c.rows = []) : Good junk c (getFrenet1 c) (.ok (.mat (frenet1 c))) := by
  have := good_frenet1 (junk := junk) (c := c)
  simpa only [cfresh, if_neg h] using this

theorem good_normal : Good junk c (getNormal c) (cfresh junk c .normal) := by
  refine good_memo ?_
  simp only [cfresh]
  split
  · exact good_alloc _
  · rename_i h
    exact good_use good_secondderiv (good_use (good_frenet1' h) (good_alloc _))

theorem good_normal' (h : ¬ c.rows = []) : Good junk c (getNormal c) (.ok (.mat (normal c))) := by
  have := good_normal (junk := junk) (c := c)
  simpa only [cfresh, if_neg h] using this

theorem good_frenet2 : Good junk c (getFrenet2 c) (cfresh junk c .frenet2) := by
  refine good_memo ?_
  simp only [cfresh]
  split
  · exact good_alloc _
  · rename_i h
    exact good_use (good_normal' h) (good_alloc _)

theorem good_frenet2' (h : ¬ c.rows = []) : Good junk c (getFrenet2 c) (.ok (.mat (frenet2 c))) := by
  have := good_frenet2 (junk := junk) (c := c)
  simpa only [cfresh, if_neg h] using this

theorem good_binormal : Good junk c (getBinormal c) (cfresh junk c .binormal) := by
  refine good_memo ?_
  simp only [cfresh]
  split
  · exact good_alloc _
  · rename_i h
    exact good_use good_thirdderiv (good_use (good_frenet1' h) (good_use (good_frenet2' h) (good_alloc _)))

theorem good_binormal' (h : ¬ c.rows = []) : Good junk c (getBinormal c) (.ok (.mat (binormal c))) := by
  have := good_binormal (junk := junk) (c := c)
  simpa only [cfresh, if_neg h] using this

theorem good_frenet3 : Good junk c (getFrenet3 c) (cfresh junk c .frenet3) := by
  refine good_memo ?_
  simp only [cfresh]
  split
  · exact good_alloc _
  · rename_i h
    exact good_use (good_binormal' h) (good_alloc _)

theorem good_frenet3' (h : ¬ c.rows = []) : Good junk c (getFrenet3 c) (.ok (.mat (frenet3 c))) := by
  have := good_frenet3 (junk := junk) (c := c)
  simpa only [cfresh, if_neg h] using this

theorem good_speed : Good junk c (getSpeed c) (cfresh junk c .speed) := by
  refine good_memo (good_use good_tangent ?_)
  simp only [cfresh]
  split
  · exact good_raise _
  · exact good_alloc _

theorem good_curvature : Good junk c (getCurvature c) (cfresh junk c .curvature) := by
  refine good_memo ?_
  simp only [cfresh]
  split
  · exact good_alloc _
  · rename_i h
    unfold curvature
    by_cases h2 : c.ndim = 2
    · rw [if_pos h2, if_pos h2]
      refine good_use good_firstderiv ?_
      by_cases hk : (firstderiv c).k < 2
      · rw [if_pos hk]
        show Good junk c (if (firstderiv c).k < 2 then raise .indexError else _) _
        rw [if_pos hk]
        exact good_raise _
      · rw [if_neg hk]
        show Good junk c (if (firstderiv c).k < 2 then _ else useVal (getSecondderiv c) fun s =>
          alloc (.vals ((List.range c.size).map (curv2 (firstderiv c) s.asMat)))) _
        rw [if_neg hk]
        exact good_use good_secondderiv (good_alloc _)
    · rw [if_neg h2, if_neg h2]
      exact good_use (good_frenet1' h) (good_use good_tangent (good_alloc _))

theorem good_torsion : Good junk c (getTorsion c) (cfresh junk c .torsion) := by
  refine good_memo ?_
  by_cases h : c.rows = []
  · have : torsion c = [] := by simp [torsion, Curve.size, h]
    simp only [cfresh, if_pos h, this]
    exact good_alloc _
  · simp only [cfresh, if_neg h]
    exact good_use (good_frenet2' h) (good_use good_tangent (good_use (good_frenet3' h) (good_alloc _)))

theorem good_read (f : PropName) : Good junk c (readProp junk c f) (cfresh junk c f) := by
  cases f
  · exact good_chordlen
  · exact good_arclen
  · exact good_cumarclen
  · exact good_t
  · exact good_firstderiv
  · exact good_secondderiv
  · exact good_thirdderiv
  · exact good_tangent
  · exact good_normal
  · exact good_binormal
  · exact good_speed
  · exact good_frenet1
  · exact good_frenet2
  · exact good_frenet3
  · exact good_curvature
  · exact good_torsion

theorem seen_cfresh (f : PropName) :
    (match cfresh junk c f with | .error e => .error e | .ok v => .ok v.seen) = fresh junk c f := by
  have hm : ∀ a : NMat, a.m = c.size → (if c.rows = [] then emptyMat else a).rows = a.rows := by
    intro a ha
    split
    · rename_i h
      simp [NMat.rows, ha, Curve.size, h, emptyMat]
    · rfl
  obtain ⟨m1, m2, m3, m4, m5, m6, m7, m8⟩ := shapes_m c
  cases f with
  | chordlen =>
    simp only [cfresh, fresh]
    cases chordlen junk c <;> rfl
  | t =>
    simp only [cfresh, fresh, Curve.t]
    cases c.tdata <;> rfl
  | normal => simp only [cfresh, fresh, CVal.seen, hm _ m5]
  | binormal => simp only [cfresh, fresh, CVal.seen, hm _ m7]
  | frenet1 => simp only [cfresh, fresh, CVal.seen, hm _ m4]
  | frenet2 => simp only [cfresh, fresh, CVal.seen, hm _ m6]
  | frenet3 => simp only [cfresh, fresh, CVal.seen, hm _ m8]
  | speed =>
    simp only [cfresh, fresh]
    by_cases h : c.rows = []
    · simp only [if_pos h]
    · simp only [if_neg h, CVal.seen]
  | curvature =>
    simp only [cfresh, fresh]
    by_cases h : c.rows = []
    · simp [if_pos h, CVal.seen]
    · simp only [if_neg h]
      cases curvature c <;> rfl
  | _ => rfl

theorem inv_new : Inv junk c CacheObj.new := by intro f a h; simp [CacheObj.new] at h

theorem readSeen_spec {s : CacheObj} (hs : Inv junk c s) (f : PropName) :
    (readSeen junk c f s).1 = fresh junk c f ∧ Inv junk c (readSeen junk c f s).2 ∧
      s.heap <+: (readSeen junk c f s).2.heap := by
  obtain ⟨h1, h2, h3⟩ := good_read (junk := junk) (c := c) f s hs
  unfold readSeen
  obtain ⟨res, s', hms⟩ : ∃ res s', readProp junk c f s = (res, s') := ⟨_, _, rfl⟩
  rw [hms] at h1 h2 h3
  rw [← seen_cfresh f]
  simp only [hms]
  cases hv : cfresh junk c f with
  | error e =>
    rw [hv] at h3
    cases res with
    | error e' => simp only [Agrees] at h3; subst h3; exact ⟨rfl, h1, h2⟩
    | ok a => simp [Agrees] at h3
  | ok v =>
    rw [hv] at h3
    cases res with
    | error e' => simp [Agrees] at h3
    | ok a =>
      simp only [Agrees] at h3
      simp only [h3]
      exact ⟨trivial, h1, h2⟩

theorem inv_afterReads {s : CacheObj} (hs : Inv junk c s) (fs : List PropName) :
    Inv junk c (afterReads junk c fs s) ∧ s.heap <+: (afterReads junk c fs s).heap := by
  induction fs generalizing s with
  | nil => exact ⟨hs, List.prefix_rfl⟩
  | cons f fs ih =>
    obtain ⟨-, h2, h3⟩ := readSeen_spec hs f
    obtain ⟨i1, i2⟩ := ih h2
    exact ⟨i1, h3.trans i2⟩

end

/-- **C22 (reads, partial).** After any series of reads of any properties, reading a property returns the value (or
error) computed from scratch, and the arrays returned before are unchanged. Missing: writes of the user into returned
arrays, see `C22_write_fails`; the uninitialised memory returned for the chord lengths of an empty curve is taken to be
the same at every call (`junk`). -/
theorem C22_reads_partial (junk : ℝ) (c : Curve ℝ) (fs : List PropName) (f : PropName) :
    (readSeen junk c f (afterReads junk c fs CacheObj.new)).1 = fresh junk c f ∧
    ∀ gs hs, fs = gs ++ hs → ∀ (a : Nat) v, (afterReads junk c gs CacheObj.new).heap[a]? = some v →
      (afterReads junk c fs CacheObj.new).heap[a]? = some v := by
  obtain ⟨h1, -⟩ := inv_afterReads (junk := junk) (c := c) inv_new fs
  refine ⟨(readSeen_spec h1 f).1, ?_⟩
  intro gs hs hfs a v hv
  subst hfs
  obtain ⟨g1, -⟩ := inv_afterReads (junk := junk) (c := c) inv_new gs
  have : afterReads junk c (gs ++ hs) CacheObj.new = afterReads junk c hs (afterReads junk c gs CacheObj.new) := by
    simp [afterReads]
  rw [this]
  exact prefix_get (inv_afterReads g1 hs).2 hv

/-- **C22 (violated by writes).** The computed arrays are writeable and shared. Assigning zeros to `curve.tangent` changes
`curve.firstderiv` and what is computed from it later. -/
theorem C22_write_fails (junk : ℝ) : ∃ (a : Nat) (s s' : CacheObj),
    readProp junk exParab .tangent CacheObj.new = (.ok a, s) ∧
    writeAt a (.mat ⟨3, 2, fun _ _ => 0⟩) s = .ok s' ∧
    (readSeen junk exParab .firstderiv s').1 ≠ fresh junk exParab .firstderiv ∧
    (readSeen junk exParab .secondderiv s').1 ≠ fresh junk exParab .secondderiv := by
  have hm := shapes_m exParab
  obtain ⟨f1, f2, f3, f4, f5, f6⟩ := exParab_first
  have hs1 : at2 (secondderiv exParab).rows 1 1 = 2 := by
    rw [secondderiv_at2 (by simp [exParab, Curve.size]) 1 (by simp [exParab, Curve.size])]
    have : exParab.size = 3 := rfl
    simp [grad1, npGradient, f2, f6, this]
    norm_num
  refine ⟨0, _, _, rfl, rfl, ?_, ?_⟩
  · intro h
    have h' : (Except.ok (PropVal.rows (NMat.rows ⟨3, 2, fun _ _ => 0⟩)) : Except PyErr PropVal)
        = .ok (.rows (firstderiv exParab).rows) := h
    simp only [Except.ok.injEq, PropVal.rows.injEq] at h'
    rw [← h'] at f3
    simp [at2, NMat.rows] at f3
  · intro h
    have h' : (Except.ok (PropVal.rows (gradient ⟨3, 2, fun _ _ => 0⟩).rows) : Except PyErr PropVal)
        = .ok (.rows (secondderiv exParab).rows) := h
    simp only [Except.ok.injEq, PropVal.rows.injEq] at h'
    rw [← h'] at hs1
    rw [gradient_at2 (by simp) (by simp)] at hs1
    rw [grad1_congr (g := fun _ => 0) (fun l hl => ?_) (by simp), grad1_const] at hs1
    · norm_num at hs1
    · rw [at2_lt _ hl (by simp)]

/-- **C22 (what a write changes).** Assigning `w` to all of `curve.tangent` of a just constructed curve changes exactly what is computed from the first derivative: `firstderiv` is `w`, the second and third
derivatives are its differences, the speed its row norms, the Frenet vectors come from normalising it and its differences; chord lengths, arc length, cumulative lengths and parameters stay. -/
theorem C22_write_spreads (junk : ℝ) {c : Curve ℝ} (hc : c.rows ≠ []) (w : NMat) : ∃ (a : Nat) (s s' : CacheObj),
    readProp junk c .tangent CacheObj.new = (.ok a, s) ∧ writeAt a (.mat w) s = .ok s' ∧
    (readSeen junk c .tangent s').1 = .ok (.rows w.rows) ∧ (readSeen junk c .firstderiv s').1 = .ok (.rows w.rows) ∧
    (readSeen junk c .secondderiv s').1 = .ok (.rows (gradient w).rows) ∧ (readSeen junk c .thirdderiv s').1 = .ok (.rows (gradient (gradient w)).rows) ∧
    (readSeen junk c .speed s').1 = .ok (.nums ((List.range c.size).map fun i => .fin (rowNorm w i))) ∧
    (readSeen junk c .frenet1 s').1 = .ok (.rows (unitRows w).rows) ∧
    (readSeen junk c .normal s').1 = .ok (.rows (reject (gradient w) (unitRows w)).rows) ∧
    (readSeen junk c .frenet2 s').1 = .ok (.rows (unitRows (reject (gradient w) (unitRows w))).rows) ∧
    (readSeen junk c .binormal s').1 = .ok (.rows (reject2 (gradient (gradient w)) (unitRows w) (unitRows (reject (gradient w) (unitRows w)))).rows) ∧
    (c.ndim ≠ 2 → (readSeen junk c .curvature s').1 = .ok (.nums ((List.range c.size).map fun i =>
      Val.div (.fin (rowNorm (gradient (unitRows w)) i)) (.fin (rowNorm w i))))) ∧
    (∀ f ∈ [PropName.chordlen, .arclen, .cumarclen, .t], (readSeen junk c f s').1 = fresh junk c f) := by
  refine ⟨0, _, _, rfl, rfl, rfl, rfl, rfl, rfl, ?_, ?_, ?_, ?_, ?_, ?_, ?_⟩
  · simp [readSeen, readProp, getSpeed, memo, useVal, getTangent, getFirstderiv, alloc, hc, CacheObj.new, CVal.asMat, CVal.seen]
  · simp [readSeen, readProp, getFrenet1, memo, useVal, getTangent, getFirstderiv, alloc, hc, CacheObj.new, CVal.asMat, CVal.seen]
  · simp [readSeen, readProp, getNormal, getSecondderiv, getFrenet1, memo, useVal, getTangent, getFirstderiv, alloc, hc, CacheObj.new, CVal.asMat, CVal.seen]
  · simp [readSeen, readProp, getFrenet2, getNormal, getSecondderiv, getFrenet1, memo, useVal, getTangent, getFirstderiv, alloc, hc, CacheObj.new, CVal.asMat, CVal.seen]
  · simp [readSeen, readProp, getBinormal, getThirdderiv, getFrenet2, getNormal, getSecondderiv, getFrenet1, memo, useVal, getTangent, getFirstderiv, alloc, hc, CacheObj.new, CVal.asMat, CVal.seen]
  · intro h2
    simp [readSeen, readProp, getCurvature, h2, getFrenet1, memo, useVal, getTangent, getFirstderiv, alloc, hc, CacheObj.new, CVal.asMat, CVal.seen]
  · intro f hf
    simp only [List.mem_cons, List.not_mem_nil, or_false] at hf
    rcases hf with rfl | rfl | rfl | rfl
    · cases h : chordlen junk c <;> simp [readSeen, readProp, getChordlen, memo, alloc, CacheObj.new, CVal.seen, getTangent, getFirstderiv, fresh, h]
    · simp [readSeen, readProp, getArclen, memo, alloc, CacheObj.new, CVal.seen, getTangent, getFirstderiv, fresh]
    · simp [readSeen, readProp, getCumarclen, getChordlen, useVal, memo, alloc, CacheObj.new, CVal.seen, CVal.asChord, getTangent, getFirstderiv, fresh, cumarclen, cumarclenFl, chordlen]
    · cases h : c.tdata <;> simp [readSeen, readProp, getT, getCumarclen, getChordlen, useVal, memo, alloc, CacheObj.new, CVal.seen, CVal.asChord, getTangent, getFirstderiv, fresh, cumarclen, cumarclenFl, chordlen, Curve.t, h]

/-- **C22 (parameters).** The parameter array of a parametric curve cannot be written. -/
theorem C22_parameters (junk : ℝ) {c : Curve ℝ} {t : List ℝ} (ht : c.tdata = some t) (fs : List PropName) {a : Nat}
    {s : CacheObj} (h : readProp junk c .t (afterReads junk c fs CacheObj.new) = (.ok a, s)) (v : CVal) :
    writeAt a v s = .error .valueError := by
  obtain ⟨h1, -⟩ := inv_afterReads (junk := junk) (c := c) inv_new fs
  obtain ⟨-, -, h3⟩ := good_read (junk := junk) (c := c) .t _ h1
  rw [h] at h3
  simp only [cfresh, ht, Agrees] at h3
  simp only [writeAt, h3]

/-! ## Concrete cases -/

example := C22_reads_partial 0 exParab [.tangent, .speed] .curvature
example := C22_write_spreads 0 (c := exParab) (by simp [exParab]) ⟨3, 2, fun _ _ => 1⟩
example {a : Nat} {s : CacheObj} (h : readProp 0 (⟨[[0, 0], [1, 0]], 2, some [0, 5], .float⟩ : Curve ℝ) .t
    (afterReads 0 ⟨[[0, 0], [1, 0]], 2, some [0, 5], .float⟩ [.speed] CacheObj.new) = (.ok a, s)) :=
  C22_parameters 0 (c := ⟨[[0, 0], [1, 0]], 2, some [0, 5], .float⟩) rfl [.speed] h (.nums [1])

end Verif.Props
