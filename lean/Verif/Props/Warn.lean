import Verif.Spec.Warn
import Verif.Props.Cache
import Verif.Lemmas.Smooth

/-!
C169: the warnings issued by the computed properties of a curve.
-/
namespace Verif.Props

open Verif Verif.Np Verif.Model Verif.Spec

section
variable (junk : ℝ) (c : Curve ℝ)

/-- The warnings issued when the property itself is computed. -/
noncomputable def own : PropName → List WarnKind
  | .firstderiv => gradWarns c.size
  | .secondderiv => gradWarns c.size
  | .thirdderiv => gradWarns c.size
  | .torsion => gradWarns c.size
  | .curvature => if c.ndim = 2 then [] else gradWarns c.size
  | .frenet1 => if c.rows = [] then [] else normWarns (firstderiv c)
  | .frenet2 => if c.rows = [] then [] else normWarns (normal c)
  | .frenet3 => if c.rows = [] then [] else normWarns (binormal c)
  | _ => []

/-- What a stored property needs is stored. -/
def Closed (s : CacheObj) : Prop := ∀ f, (s.cache f).isSome → ∀ g ∈ needs c f, (s.cache g).isSome

/-- A computation that returns `r`, stores the properties `S`, issues the warnings of those of them that were not stored yet, and the
warnings `P` of the property `f`. -/
def Emits (f : PropName) (m : WarnM) (r : Except PyErr CVal) (S : List PropName) (P : List WarnKind) : Prop :=
  ∀ s, Inv junk c s → Closed c s →
    Inv junk c (m s).1.2 ∧ Closed c (m s).1.2 ∧ s.heap <+: (m s).1.2.heap ∧ Agrees (m s).1.2.heap (m s).1.1 r ∧
    (∀ g, ((m s).1.2.cache g).isSome ↔ (s.cache g).isSome ∨ g ∈ S) ∧ (m s).2.Nodup ∧
    ∀ w, w ∈ (m s).2 ↔ (w.1 ∈ S ∧ s.cache w.1 = none ∧ w.2 ∈ own c w.1) ∨ (w.1 = f ∧ w.2 ∈ P)

variable {junk c}

theorem Emits.retag {f : PropName} {m : WarnM} {r : Except PyErr CVal} {S : List PropName} (h : Emits junk c f m r S [])
    (g : PropName) : Emits junk c g m r S [] := by
  intro s h1 h2
  obtain ⟨a1, a2, a3, a4, a5, a6, a7⟩ := h s h1 h2
  exact ⟨a1, a2, a3, a4, a5, a6, fun w => by simpa using a7 w⟩

theorem e_alloc (f : PropName) (v : CVal) : Emits junk c f (quiet (alloc v)) (.ok v) [] [] := by
  intro s h1 h2
  obtain ⟨a1, a2, a3⟩ := good_alloc (junk := junk) (c := c) v s h1
  exact ⟨a1, h2, a2, a3, by simp [quiet, alloc], by simp [quiet], by simp [quiet]⟩

theorem e_raise (f : PropName) (e : PyErr) : Emits junk c f (quiet (raise e)) (.error e) [] [] := by
  intro s h1 h2
  exact ⟨h1, h2, List.prefix_rfl, rfl, by simp [quiet, raise], by simp [quiet], by simp [quiet]⟩

theorem e_emit {f : PropName} {m : WarnM} {r : Except PyErr CVal} {S : List PropName} {ws : List WarnKind}
    (h : Emits junk c f m r S []) (hf : f ∉ S) (hw : ws.Nodup) : Emits junk c f (emit f ws m) r S ws := by
  intro s h1 h2
  obtain ⟨a1, a2, a3, a4, a5, a6, a7⟩ := h s h1 h2
  refine ⟨a1, a2, a3, a4, a5, ?_, ?_⟩
  · simp only [emit, List.nodup_append]
    refine ⟨hw.map (fun _ _ h => (Prod.mk.inj h).2), a6, ?_⟩
    rintro a ha b hb rfl
    obtain ⟨w, -, rfl⟩ := List.mem_map.1 ha
    rcases (a7 _).1 hb with h | h
    · exact hf h.1
    · simp at h
  · rintro ⟨g, w⟩
    simp only [emit, List.mem_append, List.mem_map, Prod.mk.injEq, exists_eq_right_right, a7, List.not_mem_nil, and_false,
      or_false]
    constructor
    · rintro (⟨k, e⟩ | k)
      · exact .inr ⟨e.symm, k⟩
      · exact .inl k
    · rintro (k | ⟨e, k⟩)
      · exact .inr k
      · exact .inl ⟨k, e.symm⟩

theorem e_use {f : PropName} {m : WarnM} {k : CVal → WarnM} {v : CVal} {r : Except PyErr CVal} {S1 S2 : List PropName}
    {P : List WarnKind} (hm : Emits junk c f m (.ok v) S1 []) (hk : Emits junk c f (k v) r S2 P) (hf : f ∉ S1) :
    Emits junk c f (useW m k) r (S1 ++ S2) P := by
  intro s h1 h2
  obtain ⟨a1, a2, a3, a4, a5, a6, a7⟩ := hm s h1 h2
  unfold useW
  obtain ⟨res, s', ws, hms⟩ : ∃ res s' ws, m s = ((res, s'), ws) := ⟨_, _, _, rfl⟩
  rw [hms] at a1 a2 a3 a4 a5 a6 a7
  simp only [hms]
  cases res with
  | error e => simp [Agrees] at a4
  | ok a =>
    simp only [Agrees] at a4
    simp only [a4]
    obtain ⟨b1, b2, b3, b4, b5, b6, b7⟩ := hk s' a1 a2
    refine ⟨b1, b2, a3.trans b3, b4, ?_, ?_, ?_⟩
    · intro g
      rw [b5, a5, List.mem_append, or_assoc]
    · rw [List.nodup_append]
      refine ⟨a6, b6, ?_⟩
      rintro x hx y hy rfl
      rcases (a7 _).1 hx with ⟨h, h', -⟩ | h
      · rcases (b7 _).1 hy with ⟨-, k, -⟩ | ⟨k, -⟩
        · have := (a5 x.1).2 (.inr h)
          rw [k] at this
          simp at this
        · exact hf (k ▸ h)
      · simp at h
    · intro w
      simp only [List.mem_append]
      have hc := a5 w.1
      simp only at hc
      rw [a7, b7]
      constructor
      · rintro ((⟨h, h', h''⟩ | h) | (⟨h, h', h''⟩ | h))
        · exact .inl ⟨.inl h, h', h''⟩
        · simp at h
        · refine .inl ⟨.inr h, ?_, h''⟩
          rw [h'] at hc
          simp only [Option.isSome_none, Bool.false_eq_true, false_iff, not_or] at hc
          simpa using hc.1
        · exact .inr h
      · rintro (⟨h, h', h''⟩ | h)
        · by_cases hw : w.1 ∈ S1
          · exact .inl (.inl ⟨hw, h', h''⟩)
          · refine .inr (.inl ⟨h.resolve_left hw, ?_, h''⟩)
            rw [h'] at hc
            simpa [hw] using hc
        · exact .inr (.inr h)

theorem e_memo {f : PropName} {m : WarnM} {v : CVal} {S : List PropName} {P : List WarnKind}
    (hm : Emits junk c f m (.ok v) S P) (hv : cfresh junk c f = .ok v) (hP : P = own c f) (hf : f ∉ S)
    (hT : ∀ g, g ∈ needs c f ↔ g = f ∨ g ∈ S) (f' : PropName) :
    Emits junk c f' (memoW f m) (.ok v) (needs c f) [] := by
  intro s h1 h2
  unfold memoW
  cases hs : s.cache f with
  | some a =>
    obtain ⟨v', k1, k2⟩ := h1 f a hs
    have hcl := h2 f (by simp [hs])
    refine ⟨h1, h2, List.prefix_rfl, ?_, ?_, by simp, ?_⟩
    · rw [hv] at k2
      cases k2
      exact k1
    · intro g
      exact ⟨.inl, fun h => h.elim id (hcl g)⟩
    · intro w
      simp only [List.not_mem_nil, and_false, or_false, false_iff, not_and]
      intro hw hn
      have := hcl _ hw
      simp [hn] at this
  | none =>
    obtain ⟨a1, a2, a3, a4, a5, a6, a7⟩ := hm s h1 h2
    obtain ⟨res, s', ws, hms⟩ : ∃ res s' ws, m s = ((res, s'), ws) := ⟨_, _, _, rfl⟩
    rw [hms] at a1 a2 a3 a4 a5 a6 a7
    simp only [hms]
    cases res with
    | error e => simp [Agrees] at a4
    | ok a =>
      simp only [Agrees] at a4
      have hc : ∀ g, ((fun g => if g = f then some a else s'.cache g) g).isSome ↔ (s.cache g).isSome ∨ g ∈ needs c f := by
        intro g
        rw [hT]
        by_cases hg : g = f
        · simp [hg]
        · simpa [hg] using a5 g
      refine ⟨?_, ?_, a3, a4, hc, a6, ?_⟩
      · intro g b hg
        simp only at hg
        split at hg
        · rename_i hgf
          cases hg
          subst hgf
          exact ⟨v, a4, hv⟩
        · exact a1 g b hg
      · intro g hg h hh
        simp only at hg ⊢
        by_cases hgf : g = f
        · subst hgf
          exact (hc h).2 (.inr hh)
        · rw [if_neg hgf] at hg
          have := a2 g hg h hh
          split
          · rfl
          · exact this
      · intro w
        simp only [List.not_mem_nil, and_false, or_false]
        rw [a7, hT, hP]
        constructor
        · rintro (⟨k1, k2, k3⟩ | ⟨k1, k2⟩)
          · exact ⟨.inr k1, k2, k3⟩
          · exact ⟨.inl k1, by rw [k1]; exact hs, by rw [k1]; exact k2⟩
        · rintro ⟨k1 | k1, k2, k3⟩
          · exact .inr ⟨k1, by rw [k1] at k3; exact k3⟩
          · exact .inl ⟨k1, k2, k3⟩

theorem e_memo_err {f : PropName} {m : WarnM} {e : PyErr} {S : List PropName} (hm : Emits junk c f m (.error e) S [])
    (hv : cfresh junk c f = .error e) (hT : needs c f = S) (f' : PropName) :
    Emits junk c f' (memoW f m) (.error e) (needs c f) [] := by
  intro s h1 h2
  unfold memoW
  cases hs : s.cache f with
  | some a =>
    obtain ⟨v', k1, k2⟩ := h1 f a hs
    rw [hv] at k2
    simp at k2
  | none =>
    obtain ⟨a1, a2, a3, a4, a5, a6, a7⟩ := hm s h1 h2
    obtain ⟨res, s', ws, hms⟩ : ∃ res s' ws, m s = ((res, s'), ws) := ⟨_, _, _, rfl⟩
    rw [hms] at a1 a2 a3 a4 a5 a6 a7
    simp only [hms]
    rw [hT]
    cases res with
    | ok a => simp [Agrees] at a4
    | error e' => exact ⟨a1, a2, a3, a4, a5, a6, fun w => by simpa using a7 w⟩

theorem grad_nodup (m : Nat) : (gradWarns m).Nodup := by
  unfold gradWarns gradLoop gradLoop gradLoop
  split
  · simp
  · split
    · split <;> simp
    · simp

theorem norm_nodup (a : NMat) : (normWarns a).Nodup := by
  unfold normWarns
  split <;> simp

variable (f : PropName)

theorem e_chordlen : Emits junk c f (wChordlen junk c) (.ok (.chord (chordlen junk c))) (needs c .chordlen) [] :=
  e_memo (e_alloc _ _) rfl rfl (by simp) (by simp [needs]) f

theorem e_arclen : Emits junk c f (wArclen junk c) (.ok (.num (arclen junk c))) (needs c .arclen) [] :=
  e_memo (e_alloc _ _) rfl rfl (by simp) (by simp [needs]) f

theorem e_cumarclen : Emits junk c f (wCumarclen junk c) (.ok (.nums (cumarclen junk c))) (needs c .cumarclen) [] :=
  e_memo (e_use (e_chordlen _) (e_alloc _ _) (by simp [needs])) rfl rfl (by simp [needs]) (by simp [needs]) f

theorem e_t : Emits junk c f (wT junk c) (cfresh junk c .t) (needs c .t) [] := by
  simp only [cfresh]
  cases h : c.tdata with
  | some t =>
    refine e_memo (S := []) (P := []) ?_ (by simp [cfresh, h]) rfl (by simp) (by simp [needs, h]) f
    simp only [h]
    exact e_alloc _ _
  | none =>
    refine e_memo (S := needs c .cumarclen) (P := []) ?_ (by simp [cfresh, h]) rfl (by simp [needs])
      (by simp [needs, h]) f
    simp only [h]
    exact e_cumarclen _

theorem e_firstderiv : Emits junk c f (wFirstderiv c) (.ok (.mat (firstderiv c))) (needs c .firstderiv) [] :=
  e_memo (e_emit (e_alloc _ _) (by simp) (grad_nodup _)) rfl rfl (by simp) (by simp [needs]) f

theorem e_secondderiv : Emits junk c f (wSecondderiv c) (.ok (.mat (secondderiv c))) (needs c .secondderiv) [] := by
  refine e_memo (e_use (e_firstderiv _) (e_emit (e_alloc _ _) (by simp) (grad_nodup _)) (by simp [needs])) rfl ?_
    (by simp [needs]) (by simp [needs]) f
  show gradWarns (firstderiv c).m = gradWarns c.size
  rw [(shapes_m c).1]

theorem e_thirdderiv : Emits junk c f (wThirdderiv c) (.ok (.mat (thirdderiv c))) (needs c .thirdderiv) [] := by
  refine e_memo (e_use (e_secondderiv _) (e_emit (e_alloc _ _) (by simp) (grad_nodup _)) (by simp [needs])) rfl ?_
    (by simp [needs]) (by simp [needs]) f
  show gradWarns (secondderiv c).m = gradWarns c.size
  rw [(shapes_m c).2.1]

theorem e_tangent : Emits junk c f (wTangent c) (.ok (.mat (firstderiv c))) (needs c .tangent) [] :=
  e_memo (e_firstderiv _) rfl rfl (by simp [needs]) (by simp [needs]) f

/-- A property that is an empty array for an empty curve. -/
theorem e_empty {g : PropName} {m : WarnM} {v : CVal} (h : c.rows = []) (hv : cfresh junk c g = .ok v) (ho : own c g = [])
    (hn : needs c g = [g]) : Emits junk c f (memoW g (if c.rows = [] then quiet (alloc v) else m)) (.ok v) (needs c g) [] := by
  rw [if_pos h]
  exact e_memo (e_alloc _ _) hv ho.symm (by simp) (by simp [hn]) f

theorem size_zero (h : c.rows = []) : c.size = 0 := by simp [Curve.size, h]

section
variable (h : ¬ c.rows = [])
include h

theorem e_frenet1 : Emits junk c f (wFrenet1 c) (.ok (.mat (frenet1 c))) (needs c .frenet1) [] := by
  unfold wFrenet1
  rw [if_neg h]
  refine e_memo (e_use (e_tangent _) (e_emit (e_alloc _ _) (by simp) (norm_nodup _)) (by simp [needs]))
    (by simp only [cfresh, if_neg h]) ?_ (by simp [needs]) (by simp [needs, h]) f
  simp only [own, if_neg h]
  rfl

theorem e_normal : Emits junk c f (wNormal c) (.ok (.mat (normal c))) (needs c .normal) [] := by
  unfold wNormal
  rw [if_neg h]
  refine e_memo (e_use (e_secondderiv _) (e_use (e_frenet1 _ h) (e_alloc _ _) (by simp [needs, h])) (by simp [needs]))
    (by simp only [cfresh, if_neg h]) rfl (by simp [needs, h]) ?_ f
  intro g
  cases g <;> simp [needs, h]

theorem e_frenet2 : Emits junk c f (wFrenet2 c) (.ok (.mat (frenet2 c))) (needs c .frenet2) [] := by
  unfold wFrenet2
  rw [if_neg h]
  refine e_memo (e_use (e_normal _ h) (e_emit (e_alloc _ _) (by simp) (norm_nodup _)) (by simp [needs, h]))
    (by simp only [cfresh, if_neg h]) ?_ (by simp [needs, h]) ?_ f
  · simp only [own, if_neg h]
    rfl
  · intro g
    cases g <;> simp [needs, h]

theorem e_binormal : Emits junk c f (wBinormal c) (.ok (.mat (binormal c))) (needs c .binormal) [] := by
  unfold wBinormal
  rw [if_neg h]
  refine e_memo (e_use (e_thirdderiv _) (e_use (e_frenet1 _ h) (e_use (e_frenet2 _ h) (e_alloc _ _) (by simp [needs, h]))
    (by simp [needs, h])) (by simp [needs])) (by simp only [cfresh, if_neg h]) rfl (by simp [needs, h]) ?_ f
  intro g
  cases g <;> simp [needs, h]

theorem e_frenet3 : Emits junk c f (wFrenet3 c) (.ok (.mat (frenet3 c))) (needs c .frenet3) [] := by
  unfold wFrenet3
  rw [if_neg h]
  refine e_memo (e_use (e_binormal _ h) (e_emit (e_alloc _ _) (by simp) (norm_nodup _)) (by simp [needs, h]))
    (by simp only [cfresh, if_neg h]) ?_ (by simp [needs, h]) ?_ f
  · simp only [own, if_neg h]
    rfl
  · intro g
    cases g <;> simp [needs, h]

end

theorem k_firstderiv (h : ¬ c.rows = []) : (firstderiv c).k < 2 ↔ c.size = 1 ∨ c.ncols < 2 := by
  have h0 : c.rows.length ≠ 0 := fun h' => h (List.length_eq_zero_iff.1 h')
  unfold firstderiv gradient Curve.size
  by_cases h3 : 3 ≤ c.rows.length
  · rw [if_pos (show 3 ≤ c.mat.m from h3)]
    show c.ncols < 2 ↔ _
    omega
  · rw [if_neg (show ¬ 3 ≤ c.mat.m from h3)]
    by_cases h2 : 2 ≤ c.rows.length
    · rw [if_pos (show 2 ≤ c.mat.m from h2)]
      show c.ncols < 2 ↔ _
      omega
    · rw [if_neg (show ¬ 2 ≤ c.mat.m from h2)]
      show 1 < 2 ↔ _
      omega

theorem e_read (g : PropName) : Emits junk c f (readW junk c g) (cfresh junk c g) (needs c g) [] := by
  by_cases h : c.rows = []
  · have hg : own c g = [] := by
      cases g <;> simp [own, h, size_zero h, gradWarns]
    cases g with
    | chordlen => exact e_chordlen f
    | arclen => exact e_arclen f
    | cumarclen => exact e_cumarclen f
    | t => exact e_t f
    | firstderiv => exact e_firstderiv f
    | secondderiv => exact e_secondderiv f
    | thirdderiv => exact e_thirdderiv f
    | tangent => exact e_tangent f
    | speed =>
      have hv : cfresh junk c .speed = .error .valueError := by simp [cfresh, h]
      rw [hv]
      refine e_memo_err (S := needs c .tangent ++ []) (e_use (e_tangent _) ?_ (by simp [needs])) hv (by simp [needs, h]) f
      rw [if_pos h]
      exact e_raise _ _
    | frenet1 => simp only [cfresh, if_pos h]; exact e_empty f h (by simp [cfresh, h]) hg (by simp [needs, h])
    | normal => simp only [cfresh, if_pos h]; exact e_empty f h (by simp [cfresh, h]) hg (by simp [needs, h])
    | frenet2 => simp only [cfresh, if_pos h]; exact e_empty f h (by simp [cfresh, h]) hg (by simp [needs, h])
    | binormal => simp only [cfresh, if_pos h]; exact e_empty f h (by simp [cfresh, h]) hg (by simp [needs, h])
    | frenet3 => simp only [cfresh, if_pos h]; exact e_empty f h (by simp [cfresh, h]) hg (by simp [needs, h])
    | curvature => simp only [cfresh, if_pos h]; exact e_empty f h (by simp [cfresh, h]) hg (by simp [needs, h])
    | torsion =>
      have ht : torsion c = [] := by simp [torsion, size_zero h]
      have hv : cfresh junk c .torsion = .ok (.vals []) := by simp [cfresh, ht]
      rw [hv]
      exact e_empty f h hv hg (by simp [needs, h])
  · cases g with
    | chordlen => exact e_chordlen f
    | arclen => exact e_arclen f
    | cumarclen => exact e_cumarclen f
    | t => exact e_t f
    | firstderiv => exact e_firstderiv f
    | secondderiv => exact e_secondderiv f
    | thirdderiv => exact e_thirdderiv f
    | tangent => exact e_tangent f
    | speed =>
      have hv : cfresh junk c .speed = .ok (.vals ((List.range c.size).map fun i => .fin (rowNorm (firstderiv c) i))) := by
        simp [cfresh, h]
      rw [hv]
      refine e_memo (P := []) (e_use (S2 := []) (e_tangent _) ?_ (by simp [needs])) hv rfl (by simp [needs]) (by simp [needs, h]) f
      rw [if_neg h]
      exact e_alloc _ _
    | frenet1 => simp only [cfresh, if_neg h]; exact e_frenet1 f h
    | normal => simp only [cfresh, if_neg h]; exact e_normal f h
    | frenet2 => simp only [cfresh, if_neg h]; exact e_frenet2 f h
    | binormal => simp only [cfresh, if_neg h]; exact e_binormal f h
    | frenet3 => simp only [cfresh, if_neg h]; exact e_frenet3 f h
    | curvature =>
      show Emits junk c f (wCurvature c) _ _ _
      unfold wCurvature
      rw [if_neg h]
      by_cases h2 : c.ndim = 2
      · rw [if_pos h2]
        by_cases hk : (firstderiv c).k < 2
        · have hv : cfresh junk c .curvature = .error .indexError := by simp [cfresh, h, curvature, h2, hk]
          have hk' := (k_firstderiv h).1 hk
          rw [hv]
          refine e_memo_err (S := needs c .firstderiv ++ []) (e_use (e_firstderiv _) ?_ (by simp [needs])) hv
            (by simp only [needs, if_neg h, if_pos h2, if_pos hk']; rfl) f
          show Emits junk c _ (if (firstderiv c).k < 2 then quiet (raise .indexError) else _) _ _ _
          rw [if_pos hk]
          exact e_raise _ _
        · have hv : cfresh junk c .curvature = .ok (.vals ((List.range c.size).map (curvature2 c))) := by
            simp [cfresh, h, curvature, h2, hk]
          have hk' := fun h' => hk ((k_firstderiv h).2 h')
          rw [hv]
          refine e_memo (P := []) (e_use (S2 := needs c .secondderiv ++ []) (e_firstderiv _) ?_ (by simp [needs])) hv
            (by simp [own, h2]) (by simp [needs]) ?_ f
          · show Emits junk c _ (if (firstderiv c).k < 2 then _ else useW (wSecondderiv c) fun s =>
              quiet (alloc (.vals ((List.range c.size).map (curv2 (firstderiv c) s.asMat))))) _ _ _
            rw [if_neg hk]
            exact e_use (e_secondderiv _) (e_alloc _ _) (by simp [needs])
          · intro g
            rw [show needs c .curvature = [.curvature, .secondderiv, .firstderiv] by
              simp only [needs, if_neg h, if_pos h2, if_neg hk']]
            cases g <;> simp [needs]
      · rw [if_neg h2]
        have hv : cfresh junk c .curvature = .ok (.vals ((List.range c.size).map (curvatureN c))) := by
          simp [cfresh, h, curvature, h2]
        rw [hv]
        refine e_memo (e_use (e_frenet1 _ h) (e_emit (e_use (e_tangent _) (e_alloc _ _) (by simp [needs])) (by simp [needs])
          (grad_nodup _)) (by simp [needs, h])) hv ?_ (by simp [needs, h]) ?_ f
        · simp only [own, if_neg h2]
          show gradWarns (frenet1 c).m = _
          rw [(shapes_m c).2.2.2.1]
        · intro g
          cases g <;> simp [needs, h, h2]
    | torsion =>
      show Emits junk c f (wTorsion c) _ _ _
      unfold wTorsion
      rw [if_neg h]
      refine e_memo (e_use (e_frenet2 _ h) (e_emit (e_use (e_tangent _) (e_use (e_frenet3 _ h) (e_alloc _ _)
        (by simp [needs, h])) (by simp [needs])) (by simp [needs, h]) (grad_nodup _)) (by simp [needs, h])) rfl ?_
        (by simp [needs, h]) ?_ f
      · show gradWarns (frenet2 c).m = gradWarns c.size
        rw [(shapes_m c).2.2.2.2.2.1]
      · intro g
        cases g <;> simp [needs, h]

/-! ## Histories -/

theorem closed_new : Closed c CacheObj.new := by intro f hf; simp [CacheObj.new] at hf

theorem reads_spec (fs : List PropName) {s : CacheObj} (h1 : Inv junk c s) (h2 : Closed c s) :
    Inv junk c (readsW junk c fs s).1 ∧ Closed c (readsW junk c fs s).1 ∧
    (∀ g, ((readsW junk c fs s).1.cache g).isSome ↔ (s.cache g).isSome ∨ ∃ f ∈ fs, g ∈ needs c f) ∧
    (readsW junk c fs s).2.Nodup ∧
    ∀ w, w ∈ (readsW junk c fs s).2 ↔ (∃ f ∈ fs, w.1 ∈ needs c f) ∧ s.cache w.1 = none ∧ w.2 ∈ own c w.1 := by
  induction fs generalizing s with
  | nil => exact ⟨h1, h2, by simp [readsW], by simp [readsW], by simp [readsW]⟩
  | cons f fs ih =>
    obtain ⟨a1, a2, -, -, a5, a6, a7⟩ := e_read (junk := junk) (c := c) f f s h1 h2
    obtain ⟨b1, b2, b3, b4, b5⟩ := ih a1 a2
    refine ⟨b1, b2, ?_, ?_, ?_⟩
    · intro g
      show ((readsW junk c fs (readW junk c f s).1.2).1.cache g).isSome ↔ _
      rw [b3, a5]
      simp [or_assoc]
    · show ((readW junk c f s).2 ++ (readsW junk c fs (readW junk c f s).1.2).2).Nodup
      rw [List.nodup_append]
      refine ⟨a6, b4, ?_⟩
      rintro x hx y hy rfl
      rcases (a7 _).1 hx with h | h
      · have := (a5 x.1).2 (.inr h.1)
        rw [((b5 _).1 hy).2.1] at this
        simp at this
      · simp at h
    · intro w
      show w ∈ (readW junk c f s).2 ++ (readsW junk c fs (readW junk c f s).1.2).2 ↔ _
      rw [List.mem_append, a7, b5]
      have hc := a5 w.1
      simp only [List.not_mem_nil, and_false, or_false, List.mem_cons, exists_eq_or_imp]
      constructor
      · rintro (⟨k1, k2, k3⟩ | ⟨k1, k2, k3⟩)
        · exact ⟨.inl k1, k2, k3⟩
        · refine ⟨.inr k1, ?_, k3⟩
          rw [k2] at hc
          simp only [Option.isSome_none, Bool.false_eq_true, false_iff, not_or] at hc
          simpa using hc.1
      · rintro ⟨k1, k2, k3⟩
        by_cases hw : w.1 ∈ needs c f
        · exact .inl ⟨hw, k2, k3⟩
        · refine .inr ⟨k1.resolve_left hw, ?_, k3⟩
          rw [k2] at hc
          simpa [hw] using hc

/-! ## Which warnings -/

theorem mem_grad (m : Nat) (k : WarnKind) : k ∈ gradWarns m ↔
    m = 2 ∧ k = .few 2 3 ∨ m = 1 ∧ (k = .few 1 3 ∨ k = .few 1 2 ∨ k = .cannot) := by
  match m with
  | 0 => simp [gradWarns]
  | 1 => simp [gradWarns, gradLoop]
  | 2 => simp [gradWarns, gradLoop]
  | m + 3 => simp [gradWarns, gradLoop]

theorem closeK_norm {x : ℝ} (hx : 0 ≤ x) : closeK x 0 = true ↔ x ≤ 1 / 10 ^ 8 := by
  simp only [closeK, atol, rtol, sub_zero, abs_zero, mul_zero, add_zero, abs_of_nonneg hx, decide_eq_true_eq]
  norm_num

theorem row_sq (a : NMat) (i : Nat) :
    (((List.range a.k).map fun j => (unitRows a).v i j).map (· ^ 2)).sum = rowNorm a i ^ 2 / frenetNorm a i ^ 2 := by
  rw [rowNorm, Real.sq_sqrt (Finset.sum_nonneg fun _ _ => sq_nonneg _), Finset.sum_div, List.map_map,
    list_sum_range]
  exact Finset.sum_congr rfl fun j _ => div_pow _ _ _

theorem mem_norm (a : NMat) (k : WarnKind) : k ∈ normWarns a ↔ k = .undefined ∧ NotUnit (unitRows a).rows := by
  have key : (∃ i < a.m, closeK (rowNorm a i) 0 = true) ↔ NotUnit (unitRows a).rows := by
    constructor
    · rintro ⟨i, hi, hc⟩
      refine ⟨(List.range a.k).map fun j => (unitRows a).v i j, List.mem_map.2 ⟨i, List.mem_range.2 hi, rfl⟩, ?_⟩
      rw [row_sq, frenetNorm, if_pos hc]
      have h0 : 0 ≤ rowNorm a i := Real.sqrt_nonneg _
      have h1 := (closeK_norm h0).1 hc
      have : rowNorm a i ^ 2 ≤ (1 / 10 ^ 8) ^ 2 := pow_le_pow_left₀ h0 h1 2
      norm_num at this
      rw [one_pow, div_one]
      intro h
      rw [h] at this
      norm_num at this
    · rintro ⟨r, hr, hs⟩
      obtain ⟨i, hi, rfl⟩ := List.mem_map.1 hr
      refine ⟨i, List.mem_range.1 hi, ?_⟩
      by_contra hc
      apply hs
      show (((List.range a.k).map fun j => (unitRows a).v i j).map (· ^ 2)).sum = 1
      rw [row_sq, frenetNorm, if_neg hc]
      have h0 : 0 ≤ rowNorm a i := Real.sqrt_nonneg _
      have h1 : rowNorm a i ≠ 0 := by
        intro h
        exact hc ((closeK_norm h0).2 (by rw [h]; positivity))
      exact div_self (pow_ne_zero 2 h1)
  unfold normWarns
  split
  · rename_i h
    simp [key.1 h]
  · rename_i h
    have h' : ¬ NotUnit (unitRows a).rows := fun h' => h (key.2 h')
    simp [h']

theorem own_iff (w : Warn) : w.2 ∈ own c w.1 ↔ Deserved c w := by
  obtain ⟨g, k⟩ := w
  have he : ∀ a : NMat, a.m = c.size → ((k ∈ if c.rows = [] then [] else normWarns a) ↔ k = .undefined ∧ NotUnit (unitRows a).rows) := by
    intro a ha
    split
    · rename_i h
      have : (unitRows a).rows = [] := by
        show (List.range a.m).map _ = []
        rw [ha, size_zero h]
        rfl
      simp [this, NotUnit]
    · exact mem_norm a k
  cases g <;> simp only [own, Deserved, Differences, mem_grad, reduceCtorEq, false_or, or_false, or_true, true_and,
    false_and, and_false, List.not_mem_nil]
  case frenet1 => exact he _ (shapes_m c).1
  case frenet2 => exact he _ (shapes_m c).2.2.2.2.1
  case frenet3 => exact he _ (shapes_m c).2.2.2.2.2.2.1
  case curvature =>
    by_cases h : c.ndim = 2 <;> simp [h, mem_grad]

/-! ## Results -/

/-- A computation without its warnings. -/
def mute (m : WarnM) : CacheM := fun s => (m s).1

theorem mute_quiet (m : CacheM) : mute (quiet m) = m := rfl

theorem mute_emit (f : PropName) (ws : List WarnKind) (m : WarnM) : mute (emit f ws m) = mute m := rfl

theorem mute_use (m : WarnM) (k : CVal → WarnM) : mute (useW m k) = useVal (mute m) fun v => mute (k v) := by
  funext s
  unfold mute useW useVal
  obtain ⟨res, s', ws, h⟩ : ∃ res s' ws, m s = ((res, s'), ws) := ⟨_, _, _, rfl⟩
  simp only [h]
  cases res with
  | error e => rfl
  | ok a =>
    simp only
    cases s'.heap[a]? <;> rfl

theorem mute_memo (f : PropName) (m : WarnM) : mute (memoW f m) = memo f (mute m) := by
  funext s
  unfold mute memoW memo
  cases s.cache f with
  | some a => rfl
  | none =>
    simp only
    obtain ⟨res, s', ws, h⟩ : ∃ res s' ws, m s = ((res, s'), ws) := ⟨_, _, _, rfl⟩
    simp only [h]
    cases res <;> rfl

theorem mute_ite (p : Prop) [Decidable p] (m n : WarnM) : mute (if p then m else n) = if p then mute m else mute n := by
  split <;> rfl

theorem mute_read (g : PropName) : mute (readW junk c g) = readProp junk c g := by
  cases g with
  | t =>
    simp only [readW, readProp, wT, getT, mute_memo]
    cases c.tdata <;>
      simp only [wCumarclen, wChordlen, getCumarclen, getChordlen, mute_memo, mute_use, mute_quiet]
  | _ =>
    simp only [readW, readProp, wChordlen, wArclen, wCumarclen, wFirstderiv, wSecondderiv, wThirdderiv, wTangent, wFrenet1,
      wNormal, wFrenet2, wBinormal, wFrenet3, wSpeed, wCurvature, wTorsion, getChordlen, getArclen, getCumarclen, getFirstderiv,
      getSecondderiv, getThirdderiv, getTangent, getFrenet1, getNormal, getFrenet2, getBinormal, getFrenet3, getSpeed,
      getCurvature, getTorsion, mute_memo, mute_use, mute_quiet, mute_emit, mute_ite]

/-! ## Properties -/

variable (junk c)

/-- **C169.** The warnings of any series of reads on a new curve: no warning is issued twice for a property, and exactly the
warnings are issued that the computed properties deserve. -/
theorem C169_issued (fs : List PropName) : (readsW junk c fs CacheObj.new).2.Nodup ∧
    ∀ w, w ∈ (readsW junk c fs CacheObj.new).2 ↔ (∃ f ∈ fs, w.1 ∈ needs c f) ∧ Deserved c w := by
  obtain ⟨-, -, -, h4, h5⟩ := reads_spec (junk := junk) (c := c) fs inv_new closed_new
  refine ⟨h4, fun w => ?_⟩
  rw [h5, own_iff]
  simp [CacheObj.new]

/-- **C169.** What is stored after any series of reads is what these reads need: nothing is computed ahead. -/
theorem C169_lazy (fs : List PropName) (g : PropName) :
    ((readsW junk c fs CacheObj.new).1.cache g).isSome ↔ ∃ f ∈ fs, g ∈ needs c f := by
  obtain ⟨-, -, h3, -, -⟩ := reads_spec (junk := junk) (c := c) fs inv_new closed_new
  rw [h3]
  simp [CacheObj.new]

/-- **C169.** A property that has been read before issues no warning, even if the read failed. -/
theorem C169_once {fs : List PropName} {f : PropName} (hf : f ∈ fs) :
    (readW junk c f (readsW junk c fs CacheObj.new).1).2 = [] := by
  obtain ⟨h1, h2, h3, -, -⟩ := reads_spec (junk := junk) (c := c) fs inv_new closed_new
  obtain ⟨-, -, -, -, -, -, a7⟩ := e_read (junk := junk) (c := c) f f _ h1 h2
  refine List.eq_nil_iff_forall_not_mem.2 fun w hw => ?_
  rcases (a7 w).1 hw with ⟨k1, k2, -⟩ | h
  · have := (h3 w.1).2 (.inr ⟨f, hf, k1⟩)
    rw [k2] at this
    simp at this
  · simp at h

/-- **C169.** Warnings do not change what is returned or stored. -/
theorem C169_same : (∀ g s, (readW junk c g s).1 = readProp junk c g s) ∧
    ∀ fs s, (readsW junk c fs s).1 = afterReads junk c fs s := by
  have h : ∀ g s, (readW junk c g s).1 = readProp junk c g s := fun g s => congrFun (mute_read g) s
  refine ⟨h, fun fs => ?_⟩
  induction fs with
  | nil => intro s; rfl
  | cons f fs ih =>
    intro s
    show (readsW junk c fs (readW junk c f s).1.2).1 = _
    rw [ih, h]
    show _ = afterReads junk c fs (readSeen junk c f s).2
    congr 1
    unfold readSeen
    obtain ⟨res, s', hr⟩ : ∃ res s', readProp junk c f s = (res, s') := ⟨_, _, rfl⟩
    rw [hr]
    cases res with
    | error e => rfl
    | ok a =>
      simp only
      cases s'.heap[a]? <;> rfl

/-- **C169.** The parameters and lengths of a curve never warn; a curve with three points or more warns only about vectors that
are not defined, and an empty curve never warns. -/
theorem C169_silent (fs : List PropName) :
    ((∀ f ∈ fs, f ∈ [PropName.chordlen, .arclen, .cumarclen, .t]) → (readsW junk c fs CacheObj.new).2 = []) ∧
    (3 ≤ c.size → ∀ w ∈ (readsW junk c fs CacheObj.new).2, w.2 = .undefined) ∧
    (c.rows = [] → (readsW junk c fs CacheObj.new).2 = []) := by
  have h := (C169_issued junk c fs).2
  refine ⟨fun hf => List.eq_nil_iff_forall_not_mem.2 fun w hw => ?_, fun h3 w hw => ?_,
    fun he => List.eq_nil_iff_forall_not_mem.2 fun w hw => ?_⟩
  · obtain ⟨⟨f, k1, k2⟩, k3⟩ := (h w).1 hw
    have hg : w.1 ∈ [PropName.chordlen, .cumarclen, .arclen, .t] := by
      have := hf f k1
      simp only [List.mem_cons, List.not_mem_nil, or_false] at this
      rcases this with rfl | rfl | rfl | rfl <;> simp only [needs] at k2
      · simp_all
      · simp_all
      · simp_all; tauto
      · split at k2 <;> simp_all; tauto
    simp only [List.mem_cons, List.not_mem_nil, or_false] at hg
    unfold Deserved Differences at k3
    rcases hg with e | e | e | e <;> simp [e] at k3
  · obtain ⟨-, k3⟩ := (h w).1 hw
    rcases k3 with ⟨-, k⟩ | k
    · omega
    · exact k.1
  · obtain ⟨-, k3⟩ := (h w).1 hw
    rw [← own_iff] at k3
    obtain ⟨g, k⟩ := w
    cases g <;> simp [own, he, size_zero he, gradWarns] at k3

end

/-! ## Cases -/

/-- A curve with one point. -/
def exOne : Curve ℝ := ⟨[[1, 2, 3]], 3, none, .float⟩

example := C169_issued 0 exOne [.torsion, .speed]
example : (PropName.torsion, WarnKind.few 1 2) ∈ (readsW 0 exOne [.speed, .torsion] CacheObj.new).2 :=
  ((C169_issued 0 exOne _).2 _).2 ⟨⟨.torsion, by simp, by simp [needs, exOne]⟩,
    .inl ⟨by simp [Differences], .inr ⟨by simp [Curve.size, exOne], by simp⟩⟩⟩
example : (PropName.torsion, WarnKind.few 1 2) ∉ (readsW 0 exOne [.curvature, .speed] CacheObj.new).2 := by
  rw [(C169_issued 0 exOne _).2]
  simp [needs, exOne, Curve.ndim]
example := C169_lazy 0 exOne [.speed] .tangent
example := C169_once 0 exOne (fs := [.speed, .torsion]) (f := .torsion) (by simp)
example := (C169_same 0 exOne).1 .torsion CacheObj.new
example : (readsW 0 exOne [.t, .arclen] CacheObj.new).2 = [] := (C169_silent 0 exOne _).1 (by simp)

end Verif.Props
