import Verif.Model.FullHistory
import Verif.Props.Construct
import Verif.Props.Registry
import Verif.Props.Smooth
import Verif.Props.SplineShape

/-!
Histories of all curve-returning operations (C01).
-/
namespace Verif.Props

open Verif Verif.Np Verif.Model Verif.Spec

theorem coorientV_WF {c c' : Curve (Val ℝ)} {dec : Bool} {a1 a2 : Int} (h : c.coorientplaneV dec a1 a2 = .ok c') : WF c' := by
  unfold Curve.coorientplaneV at h
  split at h
  · simp at h
  · exact ofRows_WF h
  · simp only [Curve.copy] at h
    exact init_WF h

theorem interpCall_WF {junk : ℝ} {c : Curve ℝ} {impl : InterpImpl} {spec : GridSpec} {c' : Curve (Val ℝ)}
    (h : interpolatorCall junk c impl spec = .ok c') : WF c' := by
  unfold interpolatorCall at h
  split at h
  · exact init_WF h
  · split at h
    · simp at h
    · cases hg : getGrid junk c spec with
      | error e => simp [hg, bind, Except.bind] at h
      | ok g =>
        cases hi : wrapErr .interpolationError (impl g.1) with
        | error e => simp [hg, hi, bind, Except.bind] at h
        | ok d =>
          simp only [hg, hi, bind, Except.bind] at h
          exact init_WF h

theorem interpClass_WF {P : Type} {junk : ℝ} {cons : Curve ℝ → P → Except PyErr InterpImpl} {c : Curve ℝ} {p : P}
    {f : GridSpec → Except PyErr (Curve (Val ℝ))} {spec : GridSpec} {c' : Curve (Val ℝ)}
    (h : wrapErr .interpolationError (interpClass junk cons c p) = .ok f) (hf : f spec = .ok c') : WF c' := by
  unfold interpClass at h
  cases hi : cons c p with
  | error e => simp [hi, bind, Except.bind, wrapErr] at h
  | ok impl =>
    simp only [hi, bind, Except.bind, pure, Except.pure, wrapErr, Except.ok.injEq] at h
    subst h
    exact interpCall_WF hf

theorem builtin_class {lib : SplineLib} {junk : ℝ} {m : String} {cls : PClass (Curve ℝ) InterpKw GridSpec (Curve (Val ℝ))}
    (h : getInterpClass (builtinInterp lib junk) m = .ok cls) : ∃ cons : Curve ℝ → InterpKw → Except PyErr InterpImpl, cls = interpClass junk cons := by
  obtain ⟨pre, post, a, h1, -, h3, -⟩ := (((C49_interp_history (importInterp lib junk) []).2.2.1 m).1 cls).mp h
  have ha : a ∈ attempts Cand.isSub (importInterp lib junk) := by rw [h1]; simp
  simp only [attempts, importInterp, List.filterMap_cons, List.filterMap_nil, List.mem_cons, List.not_mem_nil, or_false] at ha
  rcases ha with rfl | rfl | rfl | rfl | rfl | rfl | rfl <;> exact ⟨_, h3.symm⟩

theorem interpolate_WF {lib : SplineLib} {junk : ℝ} {c : Curve ℝ} {spec : GridSpec} {m : String} {kw : InterpKw} {c' : Curve (Val ℝ)}
    (h : c.interpolate (builtinInterp lib junk) spec m kw = .ok c') : WF c' := by
  unfold Curve.interpolate interpolateCall getInterpolator at h
  cases hc : getInterpClass (builtinInterp lib junk) m with
  | error e => simp [hc, bind, Except.bind] at h
  | ok cls =>
    obtain ⟨cons, rfl⟩ := builtin_class hc
    cases hf : wrapErr .interpolationError (interpClass junk cons c kw) with
    | error e => simp [hc, hf, bind, Except.bind] at h
    | ok f =>
      simp only [hc, hf, bind, Except.bind] at h
      exact interpClass_WF hf h

theorem smooth_WF {r : Reg SmoothFn} {c c' : Curve (Val ℝ)} {m : String} {p : SmoothParams} (h : c.smooth r m p = .ok c') : WF c' := by
  unfold Curve.smooth smoothCall at h
  cases hm : getSmooth r m with
  | error e => simp [hm, bind, Except.bind] at h
  | ok f =>
    simp only [hm, bind, Except.bind] at h
    split at h
    · exact init_WF h
    · split at h <;> simp at h

/-- One call on any curve returns a well formed curve or raises. -/
theorem C01_any_step {o : AnyOp} {c c' : Curve (Val ℝ)} (h : o.step c = .ok c') : WF c' := by
  cases o with
  | basic o => exact C01_step h
  | nonsingular =>
    simp only [AnyOp.step, Curve.nonsingular] at h
    split at h
    · simp at h
    · exact drop_WF h
  | coorientplane dec a1 a2 => exact coorientV_WF h
  | interpolate lib junk spec m kw other =>
    simp only [AnyOp.step] at h
    split at h
    · exact interpolate_WF h
    · cases other with
      | error e => simp [bind, Except.bind] at h
      | ok d => simp only [bind, Except.bind] at h; exact init_WF h
  | smooth r m p => exact smooth_WF h

/-- **C01 (all operations).** Whatever the constructor is given, and whatever calls follow with whatever arguments, now also
`nonsingular`, `coorientplane`, `interpolate` and `smooth`: a curve that comes out is well formed. -/
theorem C01_all_operations {data : CurveData (Val ℝ)} {t : Option (List (Val ℝ))} {axis ndmin : Option Int} {dt : Option DType}
    {ops : List AnyOp} {c c' : Curve (Val ℝ)} (hi : Curve.init data t axis ndmin dt = .ok c) (hr : runAny ops c = .ok c') : WF c' := by
  have hc := init_WF hi
  clear hi
  induction ops generalizing c with
  | nil => simp [runAny] at hr; subst hr; exact hc
  | cons o os ih =>
    simp only [runAny] at hr
    cases ho : o.step c with
    | error e => simp [ho] at hr
    | ok c1 => simp only [ho] at hr; exact ih hr (C01_any_step ho)

theorem fin?_fins (l : List ℝ) : (fins l).mapM Val.fin? = some l := by
  induction l with
  | nil => rfl
  | cons x l ih =>
    have : fins (x :: l) = .fin x :: fins l := rfl
    rw [this, List.mapM_cons, ih]
    rfl

theorem fin?_rows (l : List (List ℝ)) : ((l.map fins).mapM fun r => r.mapM Val.fin?) = some l := by
  induction l with
  | nil => rfl
  | cons x l ih =>
    rw [List.map_cons, List.mapM_cons, fin?_fins, ih]
    rfl

/-- On curves of finite numbers `interpolate` is the modelled one. -/
theorem fin?_finCurve (c : Curve ℝ) : (finCurve c).fin? = some c := by
  obtain ⟨rows, n, t, d⟩ := c
  unfold Curve.fin? finCurve
  simp only [fin?_rows]
  cases t with
  | none => rfl
  | some t => simp [fin?_fins]

/-- A history that interpolates and then smooths. -/
example (lib : SplineLib) : ∃ c', runAny
    [.interpolate lib 0 (.arr (.ok (GridArr.of (fins [0, 1, 3])))) "pchip" .none (.error .valueError),
     .smooth (smoothReg fun _ _ => .error .typeError) "window" (.window { size := 3 })] (finCurve exTri) = .ok c' := by
  obtain ⟨R, h1, h2⟩ := (C83_reproduce_partial exTri_WF (by simp [exTri, Curve.size]) exTri_steps (by simp [exTri]) lib).2.1
    (builtin_names lib 0).2.2.1 .none (.inl rfl)
  have hR : R = finCurve exTri := by
    obtain ⟨a, b, e, f⟩ := R
    obtain ⟨k1, k2, k3, k4⟩ := h2
    simp only [finCurve, Curve.mk.injEq]
    exact ⟨k1, k2, k3, k4⟩
  obtain ⟨ws, g1, g2, g3, _⟩ := C68_hann_partial 3 (by norm_num) (by norm_num)
  obtain ⟨c', e1, _⟩ := C68_window_partial (smoothReg_window fun _ _ => .error .typeError) g2 g3 (p := { size := 3 }) g1
    (by simp [RepeatMode]) exTri_WF (by simp [exTri]) rfl
  refine ⟨finCurve c', ?_⟩
  subst hR
  have h1' : exTri.interpolate (builtinInterp lib 0) (.arr (.ok (GridArr.of (fins [0, 1, 3])))) "pchip" .none = .ok (finCurve exTri) := h1
  simp only [runAny, AnyOp.step, fin?_finCurve, h1', e1]

/-! ## Concrete cases -/

example {c c' : Curve (Val ℝ)} (h : AnyOp.nonsingular.step c = .ok c') := C01_any_step h
example {c c' : Curve (Val ℝ)} (hi : Curve.init (.arr ⟨[2, 2], fun i => if i = [1, 0] then .nan else .fin 1⟩ .float) none none none none = .ok c) (hr : runAny [.nonsingular, .coorientplane true 0 1] c = .ok c') := C01_all_operations hi hr

end Verif.Props
