import Verif.Props.Local
import Verif.Props.Registry

/-!
C108: the names and keyword arguments of the built-in interpolation methods.
-/
namespace Verif.Spec

open Verif Verif.Model

/-- The built-in methods and the names of their keyword arguments. -/
def interpSignatures : List (String × List String) :=
  [("linear", ["extrapolate"]), ("cubic", ["bc_type", "extrapolate"]), ("hermite", ["extrapolate"]), ("akima", []), ("pchip", ["extrapolate"]),
   ("spline", ["k", "smooth", "weights", "extrapolate"]), ("csaps", ["smooth", "weights"])]

/-- Two dictionaries with the same entries. -/
def SameEntries (a b : InterpKw) : Prop := (a.args.map (·.1)).Nodup ∧ a.args.Perm b.args

/-- The value of the argument `name`: the one given, otherwise the default. -/
def Valued (kw : InterpKw) (name : String) (default v : ArgVal) : Prop :=
  (name, v) ∈ kw.args ∨ ((∀ a ∈ kw.args, a.1 ≠ name) ∧ v = default)

/-- A dictionary with no names but these. -/
def Within (kw : InterpKw) (names : List String) : Prop := (kw.args.map (·.1)).Nodup ∧ ∀ a ∈ kw.args, a.1 ∈ names

end Verif.Spec

namespace Verif.Props

open Verif Verif.Np Verif.Model Verif.Spec

/-- The registry after the import and any further calls. -/
noncomputable abbrev regAfter (lib : SplineLib) (junk : ℝ) (more : List (RegOp (PClass (Curve ℝ) InterpKw GridSpec (Curve (Val ℝ))))) : KwReg :=
  (importInterp lib junk ++ more).foldl stepInterp Reg.empty

theorem firstAttempt_extend {ι : Type} {h h' : List (Attempt ι)} {s : String} {i : ι} (hf : FirstAttempt h s i) : FirstAttempt (h ++ h') s i := by
  obtain ⟨pre, post, a, h1, h2⟩ := hf
  exact ⟨pre, post ++ h', a, by rw [h1]; simp, h2⟩

/-- A class of the import stays under its name. -/
theorem regAfter_class {lib : SplineLib} {junk : ℝ} (more) {s : String} {cls : PClass (Curve ℝ) InterpKw GridSpec (Curve (Val ℝ))}
    (h : getInterpClass (builtinInterp lib junk) s = .ok cls) : getInterpClass (regAfter lib junk more) s = .ok cls := by
  have h1 := (((C49_interp_history (importInterp lib junk) []).2.2.1 s).1 cls).1 h
  refine (((C49_interp_history (importInterp lib junk ++ more) []).2.2.1 s).1 cls).2 ?_
  unfold attempts at h1 ⊢
  rw [List.filterMap_append]
  exact firstAttempt_extend h1

section
variable (lib : SplineLib) (junk : ℝ) (more : List (RegOp (PClass (Curve ℝ) InterpKw GridSpec (Curve (Val ℝ)))))

/-- **C108 (names).** After the import and any further calls the seven built-in methods come first in the list of methods, and each of
these names still means its own interpolator. -/
theorem C108_methods :
    ["linear", "cubic", "hermite", "akima", "pchip", "spline", "csaps"] <+: (regAfter lib junk more).names ∧
    getInterpClass (regAfter lib junk more) "linear" = .ok (interpClass junk (withKw pickLinear (linearCons junk))) ∧
    IsCubic lib junk (regAfter lib junk more) "cubic" ∧ IsHermite junk (regAfter lib junk more) "hermite" ∧
    IsAkima lib junk (regAfter lib junk more) "akima" ∧ IsPchip junk (regAfter lib junk more) "pchip" ∧
    getInterpClass (regAfter lib junk more) "spline" = .ok (interpClass junk (withKw pickSpline (splineCons lib junk))) ∧
    getInterpClass (regAfter lib junk more) "csaps" = .ok (interpClass junk (withKw pickCsaps (csapsCons lib junk))) := by
  obtain ⟨h0, h1, h2, h3, h4⟩ := builtin_names lib junk
  refine ⟨?_, regAfter_class more ?_, regAfter_class more h4, regAfter_class more h1, regAfter_class more h3, regAfter_class more h2,
    regAfter_class more ?_, regAfter_class more ?_⟩
  · have := (C49_interp_history (importInterp lib junk) more).2.2.2.1
    rw [← List.foldl_append] at this
    have e : (List.foldl stepInterp Reg.empty (importInterp lib junk)).names = _ := h0
    rw [e] at this
    exact this
  all_goals
    simp [builtinInterp, importInterp, stepInterp, registerInterp, Reg.has, Reg.empty, Reg.setItem, getInterpClass, Reg.item]

theorem only_false {kw : InterpKw} {sig : List String} (h : ∃ a ∈ kw.args, a.1 ∉ sig) : kw.only sig = false := by
  obtain ⟨a, h1, h2⟩ := h
  unfold InterpKw.only
  rw [List.all_eq_false]
  exact ⟨a, h1, by simpa using h2⟩

theorem interpolate_reject {r : KwReg} {m : String} {Q : Type} {pick : InterpKw → Option Q} {cons : Curve ℝ → Q → Except PyErr InterpImpl}
    (hr : getInterpClass r m = .ok (interpClass junk (withKw pick cons))) {kw : InterpKw} (hp : pick kw = none) (c : Curve ℝ) (g : GridSpec) :
    c.interpolate r g m kw = .error .interpolationError := by
  rw [interpolate_eq hr]
  simp [interpClass, withKw, hp, bind, Except.bind, wrapErr]

theorem interpolate_pick {r r' : KwReg} {m m' : String} {Q : Type} {pick : InterpKw → Option Q} {cons : Curve ℝ → Q → Except PyErr InterpImpl}
    (hr : getInterpClass r m = .ok (interpClass junk (withKw pick cons))) (hr' : getInterpClass r' m' = .ok (interpClass junk (withKw pick cons)))
    {kw kw' : InterpKw} (hp : pick kw = pick kw') (c : Curve ℝ) (g : GridSpec) :
    c.interpolate r g m kw = c.interpolate r' g m' kw' := by
  rw [interpolate_eq hr, interpolate_eq hr']
  simp [interpClass, withKw, hp]

/-- **C108 (unknown arguments).** A keyword argument that the method does not have is an InterpolationError, whatever the curve, the grid
and the other arguments. -/
theorem C108_unknown {m : String} {sig : List String} (hm : (m, sig) ∈ interpSignatures) {kw : InterpKw} (hk : ∃ a ∈ kw.args, a.1 ∉ sig)
    (c : Curve ℝ) (g : GridSpec) : c.interpolate (regAfter lib junk more) g m kw = .error .interpolationError := by
  obtain ⟨_, h1, h2, h3, h4, h5, h6, h7⟩ := C108_methods lib junk more
  have ho := only_false hk
  simp only [interpSignatures, List.mem_cons, List.not_mem_nil, or_false, Prod.mk.injEq] at hm
  rcases hm with ⟨rfl, rfl⟩ | ⟨rfl, rfl⟩ | ⟨rfl, rfl⟩ | ⟨rfl, rfl⟩ | ⟨rfl, rfl⟩ | ⟨rfl, rfl⟩ | ⟨rfl, rfl⟩
  · exact interpolate_reject junk h1 (by simp [pickLinear, ho]) c g
  · exact interpolate_reject junk h2 (by simp [pickCubic, ho]) c g
  · exact interpolate_reject junk h3 (by simp [pickHermite, ho]) c g
  · exact interpolate_reject junk h4 (by simp [pickAkima, ho]) c g
  · exact interpolate_reject junk h5 (by simp [pickPchip, ho]) c g
  · exact interpolate_reject junk h6 (by simp [pickSpline, ho]) c g
  · exact interpolate_reject junk h7 (by simp [pickCsaps, ho]) c g

theorem lookup_mem {l : List (String × ArgVal)} (hn : (l.map (·.1)).Nodup) (k : String) (v : ArgVal) : l.lookup k = some v ↔ (k, v) ∈ l := by
  induction l with
  | nil => simp
  | cons a l ih =>
    obtain ⟨k', v'⟩ := a
    simp only [List.map_cons, List.nodup_cons, List.mem_map, not_exists, not_and] at hn
    rw [List.lookup_cons]
    by_cases h : k = k'
    · subst h
      simp only [beq_self_eq_true, Option.some.injEq, List.mem_cons, Prod.mk.injEq, true_and]
      constructor
      · rintro rfl; exact .inl rfl
      · rintro (rfl | h)
        · rfl
        · exact absurd rfl (hn.1 _ h)
    · rw [show (k == k') = false by simpa using h]
      simp only [ih hn.2, List.mem_cons, Prod.mk.injEq, h, false_and, false_or]

theorem sameEntries_lookup {a b : InterpKw} (h : SameEntries a b) (k : String) : a.args.lookup k = b.args.lookup k := by
  have hb : (b.args.map (·.1)).Nodup := (h.2.map _).nodup_iff.1 h.1
  apply Option.ext
  intro v
  rw [lookup_mem h.1, lookup_mem hb, h.2.mem_iff]

theorem sameEntries_only {a b : InterpKw} (h : SameEntries a b) (sig : List String) : a.only sig = b.only sig := by
  unfold InterpKw.only
  rw [Bool.eq_iff_iff, List.all_eq_true, List.all_eq_true]
  exact forall_congr' fun x => by rw [h.2.mem_iff]

/-- **C108 (order).** The order of the keyword arguments does not matter. -/
theorem C108_order {m : String} {sig : List String} (hm : (m, sig) ∈ interpSignatures) {a b : InterpKw} (hab : SameEntries a b)
    (c : Curve ℝ) (g : GridSpec) : c.interpolate (regAfter lib junk more) g m a = c.interpolate (regAfter lib junk more) g m b := by
  obtain ⟨_, h1, h2, h3, h4, h5, h6, h7⟩ := C108_methods lib junk more
  have ho := sameEntries_only hab
  have hg : ∀ k v, a.getD k v = b.getD k v := by
    intro k v
    unfold InterpKw.getD
    rw [sameEntries_lookup hab]
  simp only [interpSignatures, List.mem_cons, List.not_mem_nil, or_false, Prod.mk.injEq] at hm
  rcases hm with ⟨rfl, rfl⟩ | ⟨rfl, rfl⟩ | ⟨rfl, rfl⟩ | ⟨rfl, rfl⟩ | ⟨rfl, rfl⟩ | ⟨rfl, rfl⟩ | ⟨rfl, rfl⟩
  · exact interpolate_pick junk h1 h1 (by simp only [pickLinear, ho, hg]) c g
  · exact interpolate_pick junk h2 h2 (by simp only [pickCubic, ho, hg]) c g
  · exact interpolate_pick junk h3 h3 (by simp only [pickHermite, ho, hg]) c g
  · exact interpolate_pick junk h4 h4 (by simp only [pickAkima, ho]) c g
  · exact interpolate_pick junk h5 h5 (by simp only [pickPchip, ho, hg]) c g
  · exact interpolate_pick junk h6 h6 (by simp only [pickSpline, ho, hg]) c g
  · exact interpolate_pick junk h7 h7 (by simp only [pickCsaps, ho, hg]) c g

/-- **C108 (defaults).** Giving the documented default explicitly is the same as leaving the argument out. -/
theorem C108_defaults (c : Curve ℝ) (g : GridSpec) :
    let f := fun m args => c.interpolate (regAfter lib junk more) g m ⟨args⟩
    f "linear" [("extrapolate", .bool true)] = f "linear" [] ∧
    f "cubic" [("bc_type", .str "natural")] = f "cubic" [] ∧ f "cubic" [("extrapolate", .none)] = f "cubic" [] ∧
    f "hermite" [("extrapolate", .none)] = f "hermite" [] ∧ f "hermite" [("extrapolate", .bool true)] = f "hermite" [] ∧
    f "pchip" [("extrapolate", .none)] = f "pchip" [] ∧ f "pchip" [("extrapolate", .bool true)] = f "pchip" [] ∧
    f "spline" [("k", .int 3)] = f "spline" [] ∧ f "spline" [("smooth", .real 0)] = f "spline" [] ∧
    f "spline" [("weights", .none)] = f "spline" [] ∧ f "spline" [("extrapolate", .int 0)] = f "spline" [] ∧
    f "csaps" [("smooth", .real 1)] = f "csaps" [] ∧ f "csaps" [("weights", .none)] = f "csaps" [] := by
  obtain ⟨_, h1, h2, h3, h4, h5, h6, h7⟩ := C108_methods lib junk more
  refine ⟨?_, ?_, ?_, ?_, ?_, ?_, ?_, ?_, ?_, ?_, ?_, ?_, ?_⟩
  · exact interpolate_pick junk h1 h1 (by rfl) c g
  · exact interpolate_pick junk h2 h2 (by rfl) c g
  · exact interpolate_pick junk h2 h2 (by rfl) c g
  · exact interpolate_pick junk h3 h3 (by rfl) c g
  · exact interpolate_pick junk h3 h3 (by rfl) c g
  · exact interpolate_pick junk h5 h5 (by rfl) c g
  · exact interpolate_pick junk h5 h5 (by rfl) c g
  · exact interpolate_pick junk h6 h6 (by rfl) c g
  · exact interpolate_pick junk h6 h6 (by rfl) c g
  · exact interpolate_pick junk h6 h6 (by rfl) c g
  · exact interpolate_pick junk h6 h6 (by rfl) c g
  · exact interpolate_pick junk h7 h7 (by rfl) c g
  · exact interpolate_pick junk h7 h7 (by rfl) c g

theorem lookup_valued {kw : InterpKw} (hn : (kw.args.map (·.1)).Nodup) {name : String} {d v : ArgVal} (h : Valued kw name d v) :
    kw.getD name d = v := by
  obtain ⟨args⟩ := kw
  unfold InterpKw.getD
  unfold Valued at h
  simp only at hn h ⊢
  induction args with
  | nil => rcases h with h | ⟨_, rfl⟩ <;> simp_all
  | cons a args ih =>
    obtain ⟨n, w⟩ := a
    rw [List.lookup_cons]
    by_cases e : name = n
    · subst e
      simp only [beq_self_eq_true, Option.getD_some]
      rcases h with h | ⟨h, _⟩
      · rcases List.mem_cons.1 h with h | h
        · exact (Prod.mk.inj h).2.symm
        · exact absurd (List.mem_map_of_mem (f := (·.1)) h) (by simpa using (List.nodup_cons.1 hn).1)
      · exact absurd rfl (h (name, w) (by simp))
    · have : (name == n) = false := by simpa using e
      simp only [this]
      refine ih (List.nodup_cons.1 hn).2 ?_
      rcases h with h | ⟨h, hv⟩
      · rcases List.mem_cons.1 h with h | h
        · exact absurd (Prod.mk.inj h).1 e
        · exact .inl h
      · exact .inr ⟨fun a ha => h a (List.mem_cons_of_mem _ ha), hv⟩

theorem within_only {kw : InterpKw} {names : List String} (h : Within kw names) : kw.only names = true := by
  unfold InterpKw.only
  rw [List.all_eq_true]
  intro a ha
  simpa using h.2 a ha

/-- **C108 (spline).** The values of `k`, `smooth`, `weights` and `extrapolate` reach the univariate splines of scipy as degree, smoothing factor,
weights and extension mode, in whatever order they are given. -/
theorem C108_spline {c : Curve ℝ} (hc : WF c) (hs : 2 ≤ c.size) (hd : c.dtype ≠ .int) {kw : InterpKw}
    (hkw : Within kw ["k", "smooth", "weights", "extrapolate"]) {k smooth weights ext : ArgVal} (hk : Valued kw "k" (.int 3) k)
    (hsm : Valued kw "smooth" (.real 0) smooth) (hw : Valued kw "weights" .none weights) (he : Valued kw "extrapolate" (.int 0) ext)
    {f : Nat → Val ℝ → Except PyErr (Val ℝ)}
    (hf : ∀ j, j < c.ncols → lib.univariate k smooth weights ext (c.t junk) (column j c) = .ok (f j)) {xs : List ℝ}
    (hne : xs ≠ []) (hx : StepsOver xs) {v : Nat → ℝ → Val ℝ} (hv : ∀ j x, j < c.ncols → x ∈ xs → f j (.fin x) = .ok (v j x)) :
    c.interpolate (regAfter lib junk more) (.arr (.ok (GridArr.of (fins xs)))) "spline" kw =
      .ok ⟨xs.map fun x => (List.range c.ncols).map fun j => v j x, c.ncols, if c.isparametric then some (fins xs) else none, c.dtype⟩ := by
  obtain ⟨_, h1, h2, h3, h4, h5, h6, h7⟩ := C108_methods lib junk more
  refine C105_univariate hc hs h6 (q := ⟨k, smooth, weights, ext⟩) ?_ hd hf hne hx hv
  unfold pickSpline
  rw [within_only hkw, if_pos rfl, lookup_valued hkw.1 hk, lookup_valued hkw.1 hsm, lookup_valued hkw.1 hw, lookup_valued hkw.1 he]

/-- **C108 (csaps).** The values of `smooth` and `weights` reach the smoothing spline of csaps, which gets the parameter values and the points;
its values on the grid are the points of the result. -/
theorem C108_csaps {c : Curve ℝ} (hc : WF c) (hs : 2 ≤ c.size) (hd : c.dtype ≠ .int) {kw : InterpKw}
    (hkw : Within kw ["smooth", "weights"]) {smooth weights : ArgVal} (hsm : Valued kw "smooth" (.real 1) smooth)
    (hw : Valued kw "weights" .none weights) {data : NMat} (hdata : data = ⟨c.size, c.ncols, fun i j => at2 c.rows i j⟩)
    {f : Val ℝ → List (Val ℝ)} (hf : csapsFn lib smooth weights (c.t junk) data = .ok f)
    (hl : ∀ x, (f x).length = c.ncols) {xs : List ℝ} (hne : xs ≠ []) (hx : StepsOver xs) :
    c.interpolate (regAfter lib junk more) (.arr (.ok (GridArr.of (fins xs)))) "csaps" kw =
      .ok ⟨xs.map fun x => f (.fin x), c.ncols, if c.isparametric then some (fins xs) else none, c.dtype⟩ := by
  obtain ⟨_, h1, h2, h3, h4, h5, h6, h7⟩ := C108_methods lib junk more
  have hp : pickCsaps kw = some (smooth, weights) := by
    unfold pickCsaps
    rw [within_only hkw, if_pos rfl, lookup_valued hkw.1 hsm, lookup_valued hkw.1 hw]
  have hm : c.mat = data := by rw [hdata]; rfl
  rw [interpolate_eq h7]
  simp only [interpClass, withKw, hp, csapsCons, hm, hf]
  obtain ⟨w, hg⟩ := getGrid_fins junk c xs hne hx
  simp only [bind, Except.bind, pure, Except.pure, wrapErr, interpolatorCall]
  rw [if_neg (by omega), if_neg (by omega), hg]
  have he : Curve.init (.arr (NdArr.ofRows (.fin 0) ((fins xs).map f) c.ncols) .float)
    (if c.isparametric then some (fins xs) else none) none none (some c.dtype) =
    Curve.ofRows ((fins xs).map f) c.ncols c.dtype (if c.isparametric then some (fins xs) else none) := rfl
  simp only [he]
  rw [ofRows_ok hc.two_le]
  · rw [if_neg (by simp [fins, hne])]
    simp [fins, Function.comp_def]
  · intro row hrow
    obtain ⟨x, _, rfl⟩ := List.mem_map.1 hrow
    exact hl x
  · intro _ _ x _; cases hdt : c.dtype <;> simp_all [DType.cast]
  · intro s hs'
    split at hs' <;> simp at hs'
    rw [← hs']; simp [fins]

/-- **C108 (cubic).** `bc_type` decides which boundary condition the cubic spline of scipy is computed with, and nothing else, except that the
periodic one also makes the extrapolation periodic: the result is that of the defaults with a library that uses this condition by default. -/
theorem C108_boundary {bc : String} {lib' : SplineLib} (hlib : lib'.cubic "natural" = lib.cubic bc) (c : Curve ℝ) (g : GridSpec) :
    (bc ≠ "periodic" → c.interpolate (regAfter lib junk more) g "cubic" ⟨[("bc_type", .str bc)]⟩ =
      c.interpolate (regAfter lib' junk more) g "cubic" .none) ∧
    (bc = "periodic" → c.interpolate (regAfter lib junk more) g "cubic" ⟨[("bc_type", .str bc)]⟩ =
      c.interpolate (regAfter lib' junk more) g "cubic" ⟨[("extrapolate", .str "periodic")]⟩) := by
  have h2 := (C108_methods lib junk more).2.2.1
  have h2' := (C108_methods lib' junk more).2.2.1
  have e1 : pickCubic ⟨[("bc_type", .str bc)]⟩ = some ⟨bc, none, none⟩ := rfl
  have e2 : pickCubic .none = some ⟨"natural", none, none⟩ := rfl
  have e3 : pickCubic ⟨[("extrapolate", .str "periodic")]⟩ = some ⟨"natural", some .periodic, none⟩ := by
    simp [pickCubic, InterpKw.only, InterpKw.getD, ArgVal.extrap, List.lookup]
  constructor
  · intro hb
    rw [interpolate_eq h2, interpolate_eq h2']
    simp only [interpClass, withKw, e1, e2, cubicCons, hlib]
    simp [hb]
  · intro hb
    rw [interpolate_eq h2, interpolate_eq h2']
    simp only [interpClass, withKw, e1, e3, cubicCons, hlib]
    rw [if_pos hb]
    rfl

/-- **C108 (linear).** The built-in method `linear` is the linear interpolator, with extrapolation by default and otherwise by the truth
value of `extrapolate`. (So the theorems on linear interpolation hold for it.) -/
theorem C108_linear {r : InterpReg Bool} {m : String} (hr : IsLinear junk r m) (c : Curve ℝ) (g : GridSpec) :
    c.interpolate (regAfter lib junk more) g "linear" .none = c.interpolate r g m true ∧
    (∀ v b, v.truth = some b → c.interpolate (regAfter lib junk more) g "linear" ⟨[("extrapolate", v)]⟩ = c.interpolate r g m b) ∧
    (∀ v, v.truth = none → c.interpolate (regAfter lib junk more) g "linear" ⟨[("extrapolate", v)]⟩ = .error .interpolationError) := by
  obtain ⟨_, h1, -⟩ := C108_methods lib junk more
  have key : ∀ kw b, pickLinear kw = some b → c.interpolate (regAfter lib junk more) g "linear" kw = c.interpolate r g m b := by
    intro kw b hp
    rw [interpolate_eq h1, interpolate_eq hr]
    simp [interpClass, withKw, hp]
  refine ⟨key _ _ rfl, fun v b hv => key _ _ ?_, fun v hv => interpolate_reject junk h1 ?_ c g⟩
  · exact hv
  · exact hv

/-- **C108 (extrapolate).** For `hermite`, `pchip` and `cubic`, next to any other arguments, only the truth value of `extrapolate` matters,
apart from None and `'periodic'`. -/
theorem C108_truth {m : String} (hm : m = "hermite" ∨ m = "pchip" ∨ m = "cubic") {v w : ArgVal} (hv : v ≠ .none ∧ v ≠ .str "periodic")
    (hw : w ≠ .none ∧ w ≠ .str "periodic") (ht : v.truth = w.truth) (rest : List (String × ArgVal)) (c : Curve ℝ) (g : GridSpec) :
    c.interpolate (regAfter lib junk more) g m ⟨("extrapolate", v) :: rest⟩ =
      c.interpolate (regAfter lib junk more) g m ⟨("extrapolate", w) :: rest⟩ := by
  obtain ⟨_, h1, h2, h3, h4, h5, h6, h7⟩ := C108_methods lib junk more
  have key : ∀ u : ArgVal, u ≠ .none ∧ u ≠ .str "periodic" → u.extrap = u.truth.map fun b => some (if b then .yes else .no) := by
    intro u hu
    cases u with
    | none => simp at hu
    | str s =>
      have : s ≠ "periodic" := fun h => hu.2 (by rw [h])
      by_cases hs : s = "" <;> simp [ArgVal.extrap, ArgVal.truth, this, hs]
    | _ => rfl
  have he : v.extrap = w.extrap := by rw [key v hv, key w hw, ht]
  have ho : ∀ sig, InterpKw.only ⟨("extrapolate", v) :: rest⟩ sig = InterpKw.only ⟨("extrapolate", w) :: rest⟩ sig := by
    intro sig; simp [InterpKw.only]
  have hx : ∀ u : ArgVal, InterpKw.getD ⟨("extrapolate", u) :: rest⟩ "extrapolate" .none = u := by
    intro u; simp [InterpKw.getD, List.lookup_cons]
  have hb : ∀ u : ArgVal, InterpKw.getD ⟨("extrapolate", u) :: rest⟩ "bc_type" (.str "natural") = InterpKw.getD ⟨rest⟩ "bc_type" (.str "natural") := by
    intro u
    simp [InterpKw.getD, List.lookup_cons]
  rcases hm with rfl | rfl | rfl
  · exact interpolate_pick junk h3 h3 (by simp only [pickHermite, ho, hx, he]) c g
  · exact interpolate_pick junk h5 h5 (by simp only [pickPchip, ho, hx, he]) c g
  · exact interpolate_pick junk h2 h2 (by simp only [pickCubic, ho, hx, hb, he]) c g

/-- **C108 fails for `extrapolate=None`.** With `hermite`, `pchip` and `cubic` it means the default; with `linear` it turns extrapolation off:
a grid value outside of the range of the parameter is then an InterpolationError, while the default gives a curve. -/
theorem C108_none_fails {c : Curve ℝ} (hc : WF c) (hs : 2 ≤ c.size) (ht : (c.t junk).Pairwise (· < ·)) (hd : c.dtype ≠ .int)
    {x : ℝ} (hx : ¬ WithinEnds (c.t junk) x) :
    c.interpolate (regAfter lib junk more) (.arr (.ok (GridArr.of (fins [x])))) "linear" ⟨[("extrapolate", .none)]⟩ = .error .interpolationError ∧
    ∃ R, c.interpolate (regAfter lib junk more) (.arr (.ok (GridArr.of (fins [x])))) "linear" .none = .ok R := by
  obtain ⟨h1, h2, -⟩ := C108_linear lib junk more (isLinear_linearReg junk) c (.arr (.ok (GridArr.of (fins [x]))))
  rw [h1, h2 .none false rfl]
  obtain ⟨a, b⟩ := t_ends hc (rows_ne_of_size hs) junk
  have hso : StepsOver [x] := by simp [StepsOver]
  obtain ⟨w, hg⟩ := getGrid_fins junk c [x] (by simp) hso
  constructor
  · refine C64_out_of_range hc hs ht (isLinear_linearReg junk) hso a b x (by simp) ?_
    by_contra hcon
    rw [not_or, not_lt, not_lt] at hcon
    apply hx
    constructor
    · intro u hu
      rw [hu] at a; injection a with a
      rw [a]; exact hcon.1
    · intro u hu
      rw [hu] at b; injection b with b
      rw [b]; exact hcon.2
  · obtain ⟨R, h, -⟩ := linear_repr hc hs ht hd (isLinear_linearReg junk) true (by simp) hg a b (.inl rfl)
    exact ⟨R, h⟩

end

/-! ## Instances -/

example (lib : SplineLib) : exSloped.interpolate (builtinInterp lib 0) (.int 5) "pchip" ⟨[("bc_type", .str "natural")]⟩ = .error .interpolationError := by
  have := C108_unknown lib 0 [] (m := "pchip") (sig := ["extrapolate"]) (by simp [interpSignatures]) (kw := ⟨[("bc_type", .str "natural")]⟩)
    ⟨_, List.mem_singleton.2 rfl, by simp⟩ exSloped (.int 5)
  simpa [regAfter, builtinInterp] using this

example : SameEntries ⟨[("bc_type", .str "clamped"), ("extrapolate", .bool false)]⟩ ⟨[("extrapolate", .bool false), ("bc_type", .str "clamped")]⟩ :=
  ⟨by simp, List.Perm.swap _ _ _⟩

example : (ArgVal.int 1).truth = (ArgVal.str "yes").truth := by simp [ArgVal.truth]

example : Within ⟨[("weights", .arr [1, 2, 1]), ("k", .int 2)]⟩ ["k", "smooth", "weights", "extrapolate"] ∧
    Valued ⟨[("weights", .arr [1, 2, 1]), ("k", .int 2)]⟩ "k" (.int 3) (.int 2) ∧
    Valued ⟨[("weights", .arr [1, 2, 1]), ("k", .int 2)]⟩ "smooth" (.real 0) (.real 0) :=
  ⟨⟨by simp, by simp⟩, .inl (by simp), .inr ⟨by simp, rfl⟩⟩

/-- A library that is constant for smoothing splines with parameter 2. -/
example (lib : SplineLib) : exSloped.interpolate (regAfter { lib with csapsOther := fun _ _ _ _ => .ok fun x => [x, .fin 7] } 0 [])
    (.arr (.ok (GridArr.of (fins [1 / 2])))) "csaps" ⟨[("smooth", .real 2)]⟩ = .ok ⟨[[.fin (1 / 2), .fin 7]], 2, some [.fin (1 / 2)], .float⟩ := by
  refine C108_csaps { lib with csapsOther := fun _ _ _ _ => .ok fun x => [x, .fin 7] } 0 [] exSloped_WF (by simp [exSloped, Curve.size])
    (by simp [exSloped]) (kw := ⟨[("smooth", .real 2)]⟩) ⟨by simp, by simp⟩ (smooth := .real 2) (.inl (by simp)) (.inr ⟨by simp, rfl⟩)
    (f := fun x => [x, .fin 7]) rfl ?_ (by simp [exSloped]) (xs := [1 / 2]) (by simp) (by simp [StepsOver])
  have h : ¬ ((2 : ℝ) ≤ 1) := by norm_num
  have h' : ¬ ((1 : ℝ) ≤ 0) := by norm_num
  simp [csapsFn, knotsOk, exSloped, Curve.t, Curve.size, ArgVal.number, h, h', List.replicate]

example (lib : SplineLib) : ({ lib with cubic := fun _ => lib.cubic "clamped" } : SplineLib).cubic "natural" = lib.cubic "clamped" := rfl

example : ¬ WithinEnds (exSloped.t 0) 3 := fun h => by have := h.2 2 rfl; norm_num at this

/-! ## Concrete cases -/

section
variable (lib : SplineLib) (g : GridSpec)
example := C108_order lib 0 [] (m := "cubic") (sig := ["bc_type", "extrapolate"]) (by simp [interpSignatures])
  (a := ⟨[("bc_type", .str "clamped"), ("extrapolate", .bool false)]⟩) (b := ⟨[("extrapolate", .bool false), ("bc_type", .str "clamped")]⟩)
  ⟨by simp, List.Perm.swap _ _ _⟩ exSloped g
/-- A library whose smoothing splines are constant. -/
example := C108_spline { lib with univariate := fun _ _ _ _ _ _ => .ok fun _ => .ok (.fin 7) } 0 [] exSloped_WF (by simp [exSloped, Curve.size])
  (by simp [exSloped]) (kw := ⟨[("k", .int 2)]⟩) ⟨by simp, by simp⟩ (k := .int 2) (.inl (by simp)) (.inr ⟨by simp, rfl⟩) (.inr ⟨by simp, rfl⟩) (.inr ⟨by simp, rfl⟩)
  (f := fun _ _ => .ok (.fin 7)) (fun _ _ => rfl) (xs := [1 / 2]) (by simp) (by simp [StepsOver]) (v := fun _ _ => .fin 7) (fun _ _ _ _ => rfl)
example := (C108_boundary lib 0 [] (bc := "clamped") (lib' := { lib with cubic := fun _ => lib.cubic "clamped" }) rfl exSloped g).1 (by decide)
example := (C108_linear lib 0 [] (isLinear_linearReg 0) exSloped g).2.1 (.int 0) false (by simp [ArgVal.truth])
example := C108_truth lib 0 [] (m := "pchip") (.inr (.inl rfl)) (v := .int 1) (w := .str "yes") (by simp) (by simp) (by simp [ArgVal.truth]) [] exSloped g
end

end Verif.Props
