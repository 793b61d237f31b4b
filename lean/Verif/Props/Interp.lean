import Verif.Props.Grid
import Verif.Lemmas.Curve

/-!
Interpolation: C64 (linear interpolation), C65 (it does not lengthen), C66 (contracts) and the part of C74 on `interpolate`.
-/
namespace Verif.Props

open Verif Verif.Np Verif.Model Verif.Spec

/-- Registries of interpolators. -/
abbrev InterpReg (P : Type) := Reg (PClass (Curve ℝ) P GridSpec (Curve (Val ℝ)))

/-! ## C66: contracts -/

section
variable {P : Type}

theorem interpolate_eq {r : InterpReg P} {m : String} {cls : PClass (Curve ℝ) P GridSpec (Curve (Val ℝ))}
    (hr : getInterpClass r m = .ok cls) (c : Curve ℝ) (spec : GridSpec) (p : P) :
    c.interpolate r spec m p = (wrapErr .interpolationError (cls c p)).bind fun f => f spec := by
  unfold Curve.interpolate interpolateCall getInterpolator
  simp only [hr, bind, Except.bind]

theorem interpolate_impl {r : InterpReg P} {m : String} {cons : Curve ℝ → P → Except PyErr InterpImpl} {junk : ℝ}
    (hr : getInterpClass r m = .ok (interpClass junk cons)) (c : Curve ℝ) (spec : GridSpec) (p : P) {impl : InterpImpl}
    (hi : cons c p = .ok impl) : c.interpolate r spec m p = interpolatorCall junk c impl spec := by
  rw [interpolate_eq hr]
  simp [interpClass, hi, wrapErr, bind, Except.bind, pure, Except.pure]

/-- **C66 (errors of the method).** An unknown method is a NameError; an exception of the constructor of the interpolator is
an InterpolationError; so is an exception of the interpolation itself on an accepted grid. -/
theorem C66_method_errors (r : InterpReg P) (m : String) (c : Curve ℝ) (spec : GridSpec) (p : P) :
    (m ∉ r.names → c.interpolate r spec m p = .error .nameError) ∧
    (∀ cls e, getInterpClass r m = .ok cls → cls c p = .error e →
      c.interpolate r spec m p = .error .interpolationError) ∧
    (∀ junk cons impl grid w e, getInterpClass r m = .ok (interpClass junk cons) → cons c p = .ok impl → 2 ≤ c.size →
      getGrid junk c spec = .ok (grid, w) → impl grid = .error e →
      c.interpolate r spec m p = .error .interpolationError) := by
  refine ⟨?_, ?_, ?_⟩
  · intro h
    have hh : r.has m = false := by
      cases hb : r.has m with
      | false => rfl
      | true =>
        exfalso; apply h
        simpa [Reg.has, Reg.names] using hb
    unfold Curve.interpolate interpolateCall getInterpolator getInterpClass
    rw [if_pos hh]
    rfl
  · intro cls e h1 h2
    rw [interpolate_eq h1, h2]
    rfl
  · intro junk cons impl grid w e h1 h2 h3 h4 h5
    rw [interpolate_impl h1 c spec p h2]
    unfold interpolatorCall
    rw [if_neg (by omega), if_neg (by omega), h4]
    simp [bind, Except.bind, h5, wrapErr]

/-- **C66 (errors of the grid).** On a curve with at least two points, whatever the interpolator: something that is no grid, an
array that is not one-dimensional or not numeric, and a grid that is not strictly increasing are ValueErrors; exceptions of a
grid object pass unchanged. -/
theorem C66_grid_errors {r : InterpReg P} {m : String} {cons : Curve ℝ → P → Except PyErr InterpImpl} {junk : ℝ}
    (hr : getInterpClass r m = .ok (interpClass junk cons)) {c : Curve ℝ} (hs : 2 ≤ c.size) (p : P) {impl : InterpImpl}
    (hi : cons c p = .ok impl) :
    c.interpolate r .other m p = .error .valueError ∧
    (∀ a : GridArr, a.ndim ≠ 1 ∨ a.numeric = false → c.interpolate r (.arr (.ok a)) m p = .error .valueError) ∧
    (∀ f (a : GridArr), f c = .ok a → a.ndim ≠ 1 ∨ a.numeric = false → c.interpolate r (.obj f) m p = .error .valueError) ∧
    (∀ xs, ¬ (xs ≠ [] ∧ StepsOver xs) → c.interpolate r (.arr (.ok (GridArr.of (fins xs)))) m p = .error .valueError) ∧
    (∀ n : Int, n < 2 → c.interpolate r (.int n) m p = .error .valueError) ∧
    (∀ f e, f c = .error e → c.interpolate r (.obj f) m p = .error e) := by
  have base : ∀ spec e, getGrid junk c spec = .error e → c.interpolate r spec m p = .error e := by
    intro spec e h
    rw [interpolate_impl hr c spec p hi]
    unfold interpolatorCall
    rw [if_neg (by omega), if_neg (by omega), h]
    rfl
  have bad : ∀ spec (a : GridArr), gridOfSpec junk c spec = .ok a → a.ndim ≠ 1 ∨ a.numeric = false →
      getGrid junk c spec = .error .valueError := by
    intro spec a h1 h2
    unfold getGrid
    simp only [h1, bind, Except.bind]
    rcases h2 with h2 | h2
    · rw [if_pos h2]
    · by_cases h3 : a.ndim ≠ 1
      · rw [if_pos h3]
      · rw [if_neg h3, if_pos h2]
  refine ⟨?_, ?_, ?_, ?_, ?_, ?_⟩
  · exact base _ _ rfl
  · intro a ha; exact base _ _ (bad _ a rfl ha)
  · intro f a hf ha; exact base _ _ (bad _ a hf ha)
  · intro xs hx; exact base _ _ ((C63_grid_partial junk hs xs).2.2 hx).1
  · intro n hn
    apply base
    simp [getGrid, gridOfSpec, C59_errors.1 n hn, bind, Except.bind]
  · intro f e hf
    apply base
    simp [getGrid, gridOfSpec, hf, bind, Except.bind]

/-- **C66 (result, partial).** For a curve with at least two points and any interpolator: if the call succeeds with the grid
`grid`, then the interpolation gave an array; the result has the dtype of the source; it is parametric iff the source is, and
then the parameter values are the grid. If the array has one row of `n ≥ 2` numbers per grid value and the dtype is not an
integer one, the result has exactly these points. Missing: empty curves and curves with one point, see below. -/
theorem C66_result_partial {r : InterpReg P} {m : String} {cons : Curve ℝ → P → Except PyErr InterpImpl} {junk : ℝ}
    (hr : getInterpClass r m = .ok (interpClass junk cons)) {c : Curve ℝ} (hs : 2 ≤ c.size) (p : P) {impl : InterpImpl}
    (hi : cons c p = .ok impl) {spec : GridSpec} {grid : List (Val ℝ)} {w : Bool} (hg : getGrid junk c spec = .ok (grid, w)) :
    (∀ R, c.interpolate r spec m p = .ok R →
      (∃ a dt, impl grid = .ok (a, dt)) ∧ R.dtype = c.dtype ∧ R.isparametric = c.isparametric ∧
      (c.isparametric = true → R.tdata = some grid ∧ R.size = grid.length)) ∧
    (∀ rows n dt, impl grid = .ok (NdArr.ofRows (.fin 0) rows n, dt) → rows.length = grid.length → 2 ≤ n →
      (∀ row ∈ rows, row.length = n) → c.dtype ≠ .int →
      ∃ R, c.interpolate r spec m p = .ok R ∧ R.rows = rows ∧ R.size = grid.length) := by
  have hcall : c.interpolate r spec m p =
      (wrapErr .interpolationError (impl grid)).bind fun d =>
        Curve.init (.arr d.1 d.2) (if c.isparametric then some grid else none) none none (some c.dtype) := by
    rw [interpolate_impl hr c spec p hi]
    unfold interpolatorCall
    rw [if_neg (by omega), if_neg (by omega), hg]
    rfl
  constructor
  · intro R hR
    rw [hcall] at hR
    cases h : impl grid with
    | error e => rw [h] at hR; simp [wrapErr, Except.bind] at hR
    | ok d =>
      rw [h] at hR
      simp only [wrapErr, Except.bind] at hR
      have key : R.dtype = c.dtype ∧ R.tdata = if c.isparametric then some grid else none := by
        unfold Curve.init at hR
        simp only [Option.getD_none, Option.isSome_none] at hR
        rw [if_neg (by decide)] at hR
        cases ha : as2d d.1 0 with
        | error e => rw [ha] at hR; simp at hR
        | ok raw =>
          rw [ha] at hR
          simp only [Option.getD_some, Curve.finish] at hR
          cases hp : c.isparametric <;> simp only [hp, Bool.false_eq_true, if_false, if_true] at hR ⊢ <;> split_ifs at hR <;>
            first
            | (injection hR with hR; rw [← hR]; exact ⟨rfl, rfl⟩)
            | (cases hR)
      refine ⟨⟨d.1, d.2, rfl⟩, key.1, ?_, ?_⟩
      · unfold Curve.isparametric
        rw [key.2]
        unfold Curve.isparametric
        cases c.tdata <;> simp
      · intro hp
        rw [hp] at key
        refine ⟨by simpa using key.2, ?_⟩
        have := (init_WF hR).tlen grid (by simpa using key.2)
        exact this.symm
  · intro rows n dt h1 h2 h3 h4 h5
    rw [hcall, h1]
    simp only [wrapErr, Except.bind]
    have he : Curve.init (.arr (NdArr.ofRows (.fin 0) rows n) dt) (if c.isparametric then some grid else none) none none
        (some c.dtype) = Curve.ofRows rows n c.dtype (if c.isparametric then some grid else none) := rfl
    rw [he, ofRows_ok h3 h4 (by intro _ _ x _; cases hd : c.dtype <;> simp_all [DType.cast])
      (by intro s hs'; split at hs' <;> simp at hs'; rw [← hs', h2])]
    exact ⟨_, rfl, rfl, h2⟩

/-- **C66 (empty and single-point curves, partial).** If the constructor of the interpolator accepts the curve: an empty curve
gives an empty curve of the same dimension and dtype, a curve with one point is a ValueError. Missing: interpolators whose
constructor does not accept it, see `C66_linear_fails`. -/
theorem C66_small_partial {r : InterpReg P} {m : String} {cons : Curve ℝ → P → Except PyErr InterpImpl} {junk : ℝ}
    (hr : getInterpClass r m = .ok (interpClass junk cons)) {c : Curve ℝ} (hc : WF c) (p : P) {impl : InterpImpl}
    (hi : cons c p = .ok impl) (spec : GridSpec) :
    (c.size = 0 → c.interpolate r spec m p = .ok ⟨[], c.ncols, none, c.dtype⟩) ∧
    (c.size = 1 → c.interpolate r spec m p = .error .valueError) := by
  rw [interpolate_impl hr c spec p hi]
  unfold interpolatorCall
  constructor
  · intro h
    rw [if_pos h]
    have hn := hc.two_le
    unfold Curve.init
    simp only [Option.getD_some, Option.isSome_some]
    rw [if_neg (by unfold Curve.ndim; omega)]
    simp [asarray, as2d, NdArr.size, Curve.finish, Curve.ndim]
  · intro h
    rw [if_neg (by omega), if_pos h]

/-- An empty parametric curve: the result is not parametric. -/
theorem C66_empty_parametric_fails {r : InterpReg P} {m : String} {cons : Curve ℝ → P → Except PyErr InterpImpl} {junk : ℝ}
    (hr : getInterpClass r m = .ok (interpClass junk cons)) (p : P) {impl : InterpImpl}
    (hi : cons ⟨[], 2, some [], .float⟩ p = .ok impl) (spec : GridSpec) :
    ∃ R, (⟨[], 2, some [], .float⟩ : Curve ℝ).interpolate r spec m p = .ok R ∧ R.isparametric = false :=
  ⟨_, (C66_small_partial hr (c := ⟨[], 2, some [], .float⟩) ⟨by simp, by simp, by simp, by simp⟩ p hi spec).1 rfl, rfl⟩

end

/-! ## Linear interpolation -/

/-- `m` is a name of the linear interpolator. -/
abbrev IsLinear (junk : ℝ) (r : InterpReg Bool) (m : String) : Prop :=
  getInterpClass r m = .ok (interpClass junk (linearCons junk))

theorem isLinear_linearReg (junk : ℝ) : IsLinear junk (linearReg junk) "linear" := by
  unfold IsLinear linearReg registerInterp
  simp [Reg.has, Reg.empty, Reg.setItem, getInterpClass, Reg.item]

/-- **C66 fails for the linear interpolator.** An empty curve and a curve with one point (not parametric) are
InterpolationErrors: the constructor of the interpolator raises before the size of the curve is looked at. -/
theorem C66_linear_fails {junk : ℝ} {r : InterpReg Bool} {m : String} (hr : IsLinear junk r m) (spec : GridSpec) (ex : Bool)
    (n : Nat) (x : List ℝ) (dt : DType) :
    (⟨[], n, none, dt⟩ : Curve ℝ).interpolate r spec m ex = .error .interpolationError ∧
    (⟨[x], n, none, dt⟩ : Curve ℝ).interpolate r spec m ex = .error .interpolationError := by
  constructor
  · refine (C66_method_errors r m _ spec ex).2.1 _ .valueError hr ?_
    simp [interpClass, linearCons, interp1dInit, Curve.t, cumarclen, cumarclenFl, chordlen, NArr.cumsum, bind, Except.bind]
  · refine (C66_method_errors r m _ spec ex).2.1 _ .valueError hr ?_
    simp [interpClass, linearCons, interp1dInit, Curve.t, cumarclen, cumarclenFl, chordlen, NArr.cumsum, cumsumFl, chords, bind,
      Except.bind]

/-- The point at parameter `x` as real numbers. -/
noncomputable def rowAt (nodes : List (ℝ × List ℝ)) (x : ℝ) : List ℝ := (interp1dAt nodes (.fin x)).map Val.real

theorem map_real_fins (r : List ℝ) : (fins r).map Val.real = r := by
  unfold fins
  rw [List.map_map]
  conv_rhs => rw [← List.map_id r]
  rfl

section
variable {c : Curve ℝ} (hc : WF c) (hs : 2 ≤ c.size) {junk : ℝ} (ht : (c.t junk).Pairwise (· < ·))
include hc hs ht

theorem linear_cons (ex : Bool) : linearCons junk c ex = .ok fun grid =>
    (interp1dCall ((c.t junk).zip c.rows) ex grid).bind fun rows => .ok (NdArr.ofRows (.fin 0) rows c.ncols, .float) := by
  have hl := t_length hc (rows_ne_of_size hs) junk
  unfold Curve.size at hl hs
  unfold linearCons interp1dInit
  rw [if_neg (by rw [hl]; simp), if_neg (by omega), List.mergeSort_of_pairwise]
  · rfl
  · rw [List.pairwise_iff_getElem] at ht ⊢
    intro i j hi hj hij
    simp only [List.length_zip] at hi hj
    have := ht i j (by omega) (by omega) hij
    simpa using this.le

theorem nodes_facts :
    (((c.t junk).zip c.rows).map Prod.fst = c.t junk) ∧ (((c.t junk).zip c.rows).map Prod.snd = c.rows) ∧
    ((c.t junk).zip c.rows).length = c.size ∧
    (∀ a ∈ (c.t junk).zip c.rows, a.2.length = c.ncols) ∧
    (∀ (k : Nat) u y, (c.t junk)[k]? = some u → c.rows[k]? = some y → ((c.t junk).zip c.rows)[k]? = some (u, y)) := by
  have hl := t_length hc (rows_ne_of_size hs) junk
  unfold Curve.size at hl hs
  refine ⟨List.map_fst_zip (by omega), List.map_snd_zip (by omega), by simp [hl, Curve.size], ?_, ?_⟩
  · intro a ha
    exact hc.rect _ (List.of_mem_zip (a := a.1) (b := a.2) ha).2
  · intro k u y h1 h2
    rw [List.zip, List.getElem?_zipWith, h1, h2]

/-- A pair of neighbouring nodes for every parameter. -/
theorem exists_pair (x : ℝ) : ∃ (i : Nat) (a b : ℝ) (p q : List ℝ), (c.t junk)[i]? = some a ∧ (c.t junk)[i + 1]? = some b ∧
    c.rows[i]? = some p ∧ c.rows[i + 1]? = some q ∧ (i = 0 ∨ a ≤ x) ∧ (i + 2 = c.size ∨ x ≤ b) := by
  have hl := t_length hc (rows_ne_of_size hs) junk
  have get : ∀ i, i + 1 < c.size → ∃ (a b : ℝ) (p q : List ℝ), (c.t junk)[i]? = some a ∧ (c.t junk)[i + 1]? = some b ∧
      c.rows[i]? = some p ∧ c.rows[i + 1]? = some q := by
    intro i hi
    have hi' : i + 1 < c.rows.length := hi
    exact ⟨_, _, _, _, List.getElem?_eq_getElem (by omega), List.getElem?_eq_getElem (by omega),
      List.getElem?_eq_getElem (by omega), List.getElem?_eq_getElem (by omega)⟩
  obtain ⟨ha, hb⟩ := t_ends hc (rows_ne_of_size hs) junk
  by_cases h1 : x < tFirst junk c
  · obtain ⟨a, b, p, q, e1, e2, e3, e4⟩ := get 0 (by omega)
    have h2 : a < b := by
      obtain ⟨p1, f1⟩ := List.getElem?_eq_some_iff.1 e1
      obtain ⟨p2, f2⟩ := List.getElem?_eq_some_iff.1 e2
      rw [← f1, ← f2]
      exact List.pairwise_iff_getElem.1 ht _ _ p1 p2 (by omega)
    have h3 : a = tFirst junk c := by
      rw [List.head?_eq_getElem?, e1] at ha; injection ha
    exact ⟨0, a, b, p, q, e1, e2, e3, e4, .inl rfl, .inr (by rw [h3] at h2; linarith)⟩
  · by_cases h2 : tLast junk c < x
    · obtain ⟨a, b, p, q, e1, e2, e3, e4⟩ := get (c.size - 2) (by omega)
      have h2' : a < b := by
        obtain ⟨p1, f1⟩ := List.getElem?_eq_some_iff.1 e1
        obtain ⟨p2, f2⟩ := List.getElem?_eq_some_iff.1 e2
        rw [← f1, ← f2]
        exact List.pairwise_iff_getElem.1 ht _ _ p1 p2 (by omega)
      have h3 : b = tLast junk c := by
        rw [List.getLast?_eq_getElem?, hl] at hb
        have e : c.size - 2 + 1 = c.size - 1 := by omega
        rw [e] at e2
        rw [e2] at hb; injection hb
      exact ⟨_, a, b, p, q, e1, e2, e3, e4, .inr (by rw [h3] at h2'; linarith), .inl (by omega)⟩
    · obtain ⟨i, lo, hi, e1, e2, e3, e4⟩ := exists_interval (c.t junk) _ _ x ha hb (by omega) (not_lt.1 h1) (not_lt.1 h2)
      have hi2 : i + 1 < c.size := by rw [← hl]; exact (List.getElem?_eq_some_iff.1 e2).1
      obtain ⟨a, b, p, q, f1, f2, f3, f4⟩ := get i hi2
      exact ⟨i, lo, hi, p, q, e1, e2, f3, f4, .inr e3, .inr e4⟩

theorem interp1dAt_pair (x : ℝ) (i : Nat) (a b : ℝ) (p q : List ℝ) (h1 : (c.t junk)[i]? = some a)
    (h2 : (c.t junk)[i + 1]? = some b) (h3 : c.rows[i]? = some p) (h4 : c.rows[i + 1]? = some q) (h5 : i = 0 ∨ a ≤ x)
    (h6 : i + 2 = c.size ∨ x ≤ b) : interp1dAt ((c.t junk).zip c.rows) (.fin x) = fins (mix ((x - a) / (b - a)) p q) := by
  obtain ⟨f1, f2, f3, f4, f5⟩ := nodes_facts hc hs ht
  exact interp1dAt_between (by rw [f1]; exact ht) (fun u hu v hv => by rw [f4 u hu, f4 v hv]) (f5 _ _ _ h1 h3) (f5 _ _ _ h2 h4)
    h5 (by rw [f3]; exact h6)

theorem rowAt_pair (x : ℝ) (i : Nat) (a b : ℝ) (p q : List ℝ) (h1 : (c.t junk)[i]? = some a)
    (h2 : (c.t junk)[i + 1]? = some b) (h3 : c.rows[i]? = some p) (h4 : c.rows[i + 1]? = some q) (h5 : i = 0 ∨ a ≤ x)
    (h6 : i + 2 = c.size ∨ x ≤ b) : rowAt ((c.t junk).zip c.rows) x = mix ((x - a) / (b - a)) p q := by
  unfold rowAt
  rw [interp1dAt_pair hc hs ht x i a b p q h1 h2 h3 h4 h5 h6, map_real_fins]

theorem interp1dAt_rowAt (x : ℝ) : interp1dAt ((c.t junk).zip c.rows) (.fin x) = fins (rowAt ((c.t junk).zip c.rows) x) ∧
    (rowAt ((c.t junk).zip c.rows) x).length = c.ncols := by
  obtain ⟨i, a, b, p, q, h1, h2, h3, h4, h5, h6⟩ := exists_pair hc hs ht x
  rw [rowAt_pair hc hs ht x i a b p q h1 h2 h3 h4 h5 h6, interp1dAt_pair hc hs ht x i a b p q h1 h2 h3 h4 h5 h6]
  have e1 := hc.rect p (List.mem_of_getElem? h3)
  have e2 := hc.rect q (List.mem_of_getElem? h4)
  exact ⟨rfl, by rw [mix_length (by rw [e1, e2]), e1]⟩

theorem not_outOfRange {a b : ℝ} (ha : (c.t junk).head? = some a) (hb : (c.t junk).getLast? = some b) {x : ℝ} (h1 : a ≤ x)
    (h2 : x ≤ b) : outOfRange ((c.t junk).zip c.rows) (.fin x) = false := by
  obtain ⟨f1, f2, f3, f4, f5⟩ := nodes_facts hc hs ht
  have hl := t_length hc (rows_ne_of_size hs) junk
  have hg : ∀ (k : Nat) u, (c.t junk)[k]? = some u → (((c.t junk).zip c.rows).getD k (0, [])).1 = u := by
    intro k u hu
    rw [List.getD_eq_getElem?_getD]
    have : (((c.t junk).zip c.rows).map Prod.fst)[k]? = some u := by rw [f1]; exact hu
    rw [List.getElem?_map] at this
    cases h : ((c.t junk).zip c.rows)[k]? with
    | none => rw [h] at this; simp at this
    | some w => rw [h] at this; simpa using this
  rw [List.head?_eq_getElem?] at ha
  rw [List.getLast?_eq_getElem?, hl] at hb
  unfold outOfRange
  rw [f3, hg 0 a ha, hg _ b hb]
  simp [h1, h2]

/-- The outcome of linear interpolation. -/
theorem linear_outcome {r : InterpReg Bool} {m : String} (hr : IsLinear junk r m) (ex : Bool) {spec : GridSpec} {xs : List ℝ}
    {w : Bool} (hg : getGrid junk c spec = .ok (fins xs, w)) {a b : ℝ} (ha : (c.t junk).head? = some a)
    (hb : (c.t junk).getLast? = some b) (hex : ex = true ∨ ∀ x ∈ xs, a ≤ x ∧ x ≤ b) :
    c.interpolate r spec m ex = Curve.ofRows (xs.map fun x => fins (rowAt ((c.t junk).zip c.rows) x)) c.ncols c.dtype
      (if c.isparametric then some (fins xs) else none) := by
  rw [interpolate_impl hr c spec ex (linear_cons hc hs ht ex)]
  unfold interpolatorCall
  rw [if_neg (by omega), if_neg (by omega), hg]
  have hcall : interp1dCall ((c.t junk).zip c.rows) ex (fins xs) =
      .ok (xs.map fun x => fins (rowAt ((c.t junk).zip c.rows) x)) := by
    unfold interp1dCall
    have hob : (!ex && (fins xs).any (outOfRange ((c.t junk).zip c.rows))) = false := by
      rcases hex with rfl | hin
      · rfl
      · rw [Bool.and_eq_false_iff]
        right
        rw [List.any_eq_false]
        intro v hv
        obtain ⟨x, hx, rfl⟩ := mem_fins_fin hv
        rw [not_outOfRange hc hs ht ha hb (hin x hx).1 (hin x hx).2]
        simp
    rw [hob]
    simp only [Bool.false_eq_true, if_false]
    congr 1
    unfold fins
    rw [List.map_map]
    apply List.map_congr_left
    intro x _
    exact (interp1dAt_rowAt hc hs ht x).1
  simp only [bind, Except.bind, hcall, wrapErr]
  rfl

/-- The result for a dtype that is not an integer one. -/
theorem linear_repr (hd : c.dtype ≠ .int) {r : InterpReg Bool} {m : String} (hr : IsLinear junk r m) (ex : Bool)
    {spec : GridSpec} {xs : List ℝ} {w : Bool} (hne : xs ≠ []) (hg : getGrid junk c spec = .ok (fins xs, w)) {a b : ℝ}
    (ha : (c.t junk).head? = some a) (hb : (c.t junk).getLast? = some b) (hex : ex = true ∨ ∀ x ∈ xs, a ≤ x ∧ x ≤ b) :
    ∃ R, c.interpolate r spec m ex = .ok R ∧
      Represents R ⟨xs.map (rowAt ((c.t junk).zip c.rows)), c.ncols, if c.isparametric then some xs else none, c.dtype⟩ := by
  rw [linear_outcome hc hs ht hr ex hg ha hb hex, ofRows_ok hc.two_le]
  · refine ⟨_, rfl, ?_, ?_, ?_, rfl⟩
    · simp [List.map_map, Function.comp]
    · simp [hne]
    · simp only; split <;> simp [fins]
  · intro row hrow
    obtain ⟨x, _, rfl⟩ := List.mem_map.1 hrow
    simp only [fins, List.length_map]
    exact (interp1dAt_rowAt hc hs ht x).2
  · intro _ _ x _; cases hdt : c.dtype <;> simp_all [DType.cast]
  · intro s hs'
    split at hs' <;> simp at hs'
    rw [← hs']; simp [fins]

end

/-! ## C64 -/

/-- **C64 (partial).** A curve with at least two points, a strictly increasing parameter and a dtype that is not an integer
one, and a grid of values at least `1e-8` apart inside the range of the parameter (anywhere if extrapolation is on): the result
has one point per grid value, and at a value between `t[i]` and `t[i+1]` it is the point that divides the segment from point
`i` to point `i+1` in that ratio. Missing: integer dtypes, see `C64_int_fails`. -/
theorem C64_between_partial {c : Curve ℝ} (hc : WF c) (hs : 2 ≤ c.size) {junk : ℝ} (ht : (c.t junk).Pairwise (· < ·))
    (hd : c.dtype ≠ .int) {r : InterpReg Bool} {m : String} (hr : IsLinear junk r m) (ex : Bool) {xs : List ℝ} (hne : xs ≠ [])
    (hx : StepsOver xs) {a b : ℝ} (ha : (c.t junk).head? = some a) (hb : (c.t junk).getLast? = some b)
    (hex : ex = true ∨ ∀ x ∈ xs, a ≤ x ∧ x ≤ b) :
    ∃ R c', c.interpolate r (.arr (.ok (GridArr.of (fins xs)))) m ex = .ok R ∧ Represents R c' ∧ c'.size = xs.length ∧
      c'.ncols = c.ncols ∧ c'.dtype = c.dtype ∧ c'.tdata = (if c.isparametric then some xs else none) ∧
      ∀ (j i : Nat) (x u v : ℝ) (p q : List ℝ), xs[j]? = some x → (c.t junk)[i]? = some u → (c.t junk)[i + 1]? = some v →
        c.rows[i]? = some p → c.rows[i + 1]? = some q → u ≤ x → x ≤ v →
        ∃ s, 0 ≤ s ∧ s ≤ 1 ∧ (v - u) * s = x - u ∧ c'.rows[j]? = some (mix s p q) := by
  obtain ⟨w, hg⟩ := getGrid_fins junk c xs hne hx
  obtain ⟨R, h1, h2⟩ := linear_repr hc hs ht hd hr ex hne hg ha hb hex
  refine ⟨R, _, h1, h2, by simp [Curve.size], rfl, rfl, rfl, ?_⟩
  intro j i x u v p q e1 e2 e3 e4 e5 e6 e7
  have huv : u < v := by
    obtain ⟨p1, f1⟩ := List.getElem?_eq_some_iff.1 e2
    obtain ⟨p2, f2⟩ := List.getElem?_eq_some_iff.1 e3
    rw [← f1, ← f2]
    exact List.pairwise_iff_getElem.1 ht _ _ p1 p2 (by omega)
  have hp : 0 < v - u := by linarith
  refine ⟨(x - u) / (v - u), div_nonneg (by linarith) hp.le, (div_le_one hp).2 (by linarith), by field_simp, ?_⟩
  simp only [List.getElem?_map, e1, Option.map_some]
  rw [rowAt_pair hc hs ht x i u v p q e2 e3 e4 e5 (.inr e6) (.inr e7)]

/-- **C64 (points, partial).** At a grid value `t[i]` the result is point `i`. (Dtypes that are not integer ones.) -/
theorem C64_nodes_partial {c : Curve ℝ} (hc : WF c) (hs : 2 ≤ c.size) {junk : ℝ} (ht : (c.t junk).Pairwise (· < ·))
    (hd : c.dtype ≠ .int) {r : InterpReg Bool} {m : String} (hr : IsLinear junk r m) (ex : Bool) {xs : List ℝ} (hne : xs ≠ [])
    (hx : StepsOver xs) {a b : ℝ} (ha : (c.t junk).head? = some a) (hb : (c.t junk).getLast? = some b)
    (hex : ex = true ∨ ∀ x ∈ xs, a ≤ x ∧ x ≤ b) :
    ∃ R c', c.interpolate r (.arr (.ok (GridArr.of (fins xs)))) m ex = .ok R ∧ Represents R c' ∧
      ∀ (j i : Nat) (x : ℝ), xs[j]? = some x → (c.t junk)[i]? = some x → c'.rows[j]? = c.rows[i]? := by
  obtain ⟨w, hg⟩ := getGrid_fins junk c xs hne hx
  obtain ⟨R, h1, h2⟩ := linear_repr hc hs ht hd hr ex hne hg ha hb hex
  refine ⟨R, _, h1, h2, ?_⟩
  intro j i x e1 e2
  have hl := t_length hc (rows_ne_of_size hs) junk
  have hi : i < c.size := by rw [← hl]; exact (List.getElem?_eq_some_iff.1 e2).1
  have hi' : i < c.rows.length := hi
  simp only [List.getElem?_map, e1, Option.map_some]
  have lt : ∀ {u v : Nat} {x y : ℝ}, u < v → (c.t junk)[u]? = some x → (c.t junk)[v]? = some y → x < y := by
    intro u v x y huv hu hv
    obtain ⟨p1, f1⟩ := List.getElem?_eq_some_iff.1 hu
    obtain ⟨p2, f2⟩ := List.getElem?_eq_some_iff.1 hv
    rw [← f1, ← f2]
    exact List.pairwise_iff_getElem.1 ht _ _ p1 p2 huv
  rcases Nat.lt_or_ge (i + 1) c.size with hlt | hge
  · have hlt' : i + 1 < c.rows.length := hlt
    have g1 := List.getElem?_eq_getElem (l := c.t junk) (i := i + 1) (by omega)
    have g2 := List.getElem?_eq_getElem hi'
    have g3 := List.getElem?_eq_getElem hlt'
    rw [rowAt_pair hc hs ht x i x _ _ _ e2 g1 g2 g3 (.inr (le_refl _)) (.inr (lt (by omega) e2 g1).le), g2, sub_self, zero_div, mix_zero]
    rw [hc.rect _ (List.getElem_mem hi'), hc.rect _ (List.getElem_mem hlt')]
  · obtain ⟨k, rfl⟩ : ∃ k, i = k + 1 := ⟨i - 1, by omega⟩
    have g1 := List.getElem?_eq_getElem (l := c.t junk) (i := k) (by omega)
    have g2 := List.getElem?_eq_getElem hi'
    have g3 := List.getElem?_eq_getElem (l := c.rows) (i := k) (by omega)
    have hlt' := lt (by omega) g1 e2
    rw [rowAt_pair hc hs ht x k _ x _ _ g1 e2 g3 g2 (.inr hlt'.le) (.inr (le_refl _)), g2, div_self (by linarith), mix_one]
    rw [hc.rect _ (List.getElem_mem hi'), hc.rect _ (List.getElem_mem _)]

/-- **C64 (reproduction, partial).** If the parameter values are more than `1e-8` apart, interpolating at the parameter values
themselves gives the curve back. (Dtypes that are not integer ones.) -/
theorem C64_reproduce_partial {c : Curve ℝ} (hc : WF c) (hs : 2 ≤ c.size) {junk : ℝ} (ht : StepsOver (c.t junk))
    (hd : c.dtype ≠ .int) {r : InterpReg Bool} {m : String} (hr : IsLinear junk r m) (ex : Bool) :
    ∃ R, c.interpolate r (.arr (.ok (GridArr.of (fins (c.t junk))))) m ex = .ok R ∧ Represents R c := by
  have hlt := stepsOver_lt ht
  have hne := rows_ne_of_size hs
  have hl := t_length hc hne junk
  obtain ⟨ha, hb⟩ := t_ends hc hne junk
  have htne : c.t junk ≠ [] := by intro e; rw [e] at hl; simp at hl; omega
  have hin : ∀ x ∈ c.t junk, tFirst junk c ≤ x ∧ x ≤ tLast junk c := by
    intro x hx
    obtain ⟨i, hi, rfl⟩ := List.mem_iff_getElem.1 hx
    rw [List.head?_eq_getElem?] at ha
    rw [List.getLast?_eq_getElem?] at hb
    obtain ⟨p0, q0⟩ := List.getElem?_eq_some_iff.1 ha
    obtain ⟨p1, q1⟩ := List.getElem?_eq_some_iff.1 hb
    constructor
    · rcases Nat.eq_zero_or_pos i with rfl | hi0
      · exact q0.ge
      · rw [← q0]; exact (List.pairwise_iff_getElem.1 hlt 0 i p0 hi hi0).le
    · rcases Nat.lt_or_ge i ((c.t junk).length - 1) with h | h
      · rw [← q1]; exact (List.pairwise_iff_getElem.1 hlt i _ hi p1 h).le
      · have : i = (c.t junk).length - 1 := by omega
        subst this; exact q1.le
  obtain ⟨w, hg⟩ := getGrid_fins junk c _ htne ht
  obtain ⟨R, h1, h2⟩ := linear_repr hc hs hlt hd hr ex htne hg ha hb (.inr hin)
  obtain ⟨R', c', g1, g2, g3⟩ := C64_nodes_partial hc hs hlt hd hr ex htne ht ha hb (.inr hin)
  have : R = R' := by rw [h1] at g1; injection g1
  subst this
  have hfi : Function.Injective fins := List.map_injective_iff.2 (fun a b h => by injection h)
  have hrows : (c.t junk).map (rowAt ((c.t junk).zip c.rows)) = c'.rows := by
    have e := h2.rows.symm.trans g2.rows
    exact List.map_injective_iff.2 hfi e
  have hr' : c'.rows = c.rows := by
    apply List.ext_getElem?
    intro j
    by_cases hj : j < c.size
    · have := g3 j j _ (List.getElem?_eq_getElem (by omega)) (List.getElem?_eq_getElem (by omega))
      exact this
    · have hj' : c.rows.length ≤ j := not_lt.1 hj
      rw [List.getElem?_eq_none hj', List.getElem?_eq_none]
      rw [← hrows, List.length_map, hl]; exact hj'
  refine ⟨R, h1, ?_, h2.ncols, ?_, h2.dtype⟩
  · rw [h2.rows]; simp only; rw [hrows, hr']
  · rw [h2.tdata]
    simp only
    cases htd : c.tdata with
    | none => simp [Curve.isparametric, htd]
    | some t => simp [Curve.isparametric, htd, Curve.t]

/-- **C64 (extrapolation).** With extrapolation, below the first parameter value the line through the first two points is
used, above the last one the line through the last two points. -/
theorem C64_extrapolate {c : Curve ℝ} (hc : WF c) (hs : 2 ≤ c.size) {junk : ℝ} (ht : (c.t junk).Pairwise (· < ·))
    (hd : c.dtype ≠ .int) {r : InterpReg Bool} {m : String} (hr : IsLinear junk r m) {xs : List ℝ} (hne : xs ≠ [])
    (hx : StepsOver xs) :
    ∃ R c', c.interpolate r (.arr (.ok (GridArr.of (fins xs)))) m true = .ok R ∧ Represents R c' ∧
      ∀ (j i : Nat) (x u v : ℝ) (p q : List ℝ), xs[j]? = some x → (c.t junk)[i]? = some u → (c.t junk)[i + 1]? = some v →
        c.rows[i]? = some p → c.rows[i + 1]? = some q → (i = 0 ∧ x ≤ u) ∨ (i + 2 = c.size ∧ v ≤ x) →
        c'.rows[j]? = some (mix ((x - u) / (v - u)) p q) := by
  obtain ⟨ha, hb⟩ := t_ends hc (rows_ne_of_size hs) junk
  obtain ⟨w, hg⟩ := getGrid_fins junk c xs hne hx
  obtain ⟨R, h1, h2⟩ := linear_repr hc hs ht hd hr true hne hg ha hb (.inl rfl)
  refine ⟨R, _, h1, h2, ?_⟩
  intro j i x u v p q e1 e2 e3 e4 e5 e6
  have huv : u < v := by
    obtain ⟨p1, f1⟩ := List.getElem?_eq_some_iff.1 e2
    obtain ⟨p2, f2⟩ := List.getElem?_eq_some_iff.1 e3
    rw [← f1, ← f2]
    exact List.pairwise_iff_getElem.1 ht _ _ p1 p2 (by omega)
  simp only [List.getElem?_map, e1, Option.map_some]
  rw [rowAt_pair hc hs ht x i u v p q e2 e3 e4 e5]
  · rcases e6 with ⟨h, _⟩ | ⟨_, h⟩
    · exact .inl h
    · exact .inr (by linarith)
  · rcases e6 with ⟨_, h⟩ | ⟨h, _⟩
    · exact .inr (by linarith)
    · exact .inl h

/-- **C64 (no extrapolation).** Without extrapolation a grid value outside of the range of the parameter is an
InterpolationError. -/
theorem C64_out_of_range {c : Curve ℝ} (hc : WF c) (hs : 2 ≤ c.size) {junk : ℝ} (ht : (c.t junk).Pairwise (· < ·))
    {r : InterpReg Bool} {m : String} (hr : IsLinear junk r m) {xs : List ℝ} (hx : StepsOver xs) {a b : ℝ}
    (ha : (c.t junk).head? = some a) (hb : (c.t junk).getLast? = some b) (x : ℝ) (hmem : x ∈ xs) (hout : x < a ∨ b < x) :
    c.interpolate r (.arr (.ok (GridArr.of (fins xs)))) m false = .error .interpolationError := by
  obtain ⟨w, hg⟩ := getGrid_fins junk c xs (List.ne_nil_of_mem hmem) hx
  refine (C66_method_errors r m c _ false).2.2 junk (linearCons junk) _ (fins xs) w .valueError hr (linear_cons hc hs ht false) hs hg ?_
  obtain ⟨f1, f2, f3, f4, f5⟩ := nodes_facts hc hs ht
  have hl := t_length hc (rows_ne_of_size hs) junk
  have hgd : ∀ (k : Nat) u, (c.t junk)[k]? = some u → (((c.t junk).zip c.rows).getD k (0, [])).1 = u := by
    intro k u hu
    rw [List.getD_eq_getElem?_getD]
    have : (((c.t junk).zip c.rows).map Prod.fst)[k]? = some u := by rw [f1]; exact hu
    rw [List.getElem?_map] at this
    cases h : ((c.t junk).zip c.rows)[k]? with
    | none => rw [h] at this; simp at this
    | some w => rw [h] at this; simpa using this
  rw [List.head?_eq_getElem?] at ha
  rw [List.getLast?_eq_getElem?, hl] at hb
  have hob : (fins xs).any (outOfRange ((c.t junk).zip c.rows)) = true := by
    rw [List.any_eq_true]
    refine ⟨.fin x, List.mem_map_of_mem hmem, ?_⟩
    unfold outOfRange
    rw [f3, hgd 0 a ha, hgd _ b hb]
    simpa using hout
  simp [interp1dCall, hob, Except.bind]

/-! ## C65 -/

/-- **C65 (partial).** Linear interpolation at values inside the range of the parameter never makes the curve longer. (Dtypes
that are not integer ones, and a strictly increasing parameter.) -/
theorem C65_length_partial {c : Curve ℝ} (hc : WF c) (hs : 2 ≤ c.size) {junk : ℝ} (ht : (c.t junk).Pairwise (· < ·))
    (hd : c.dtype ≠ .int) {r : InterpReg Bool} {m : String} (hr : IsLinear junk r m) (ex : Bool) {spec : GridSpec} {xs : List ℝ}
    (hne : xs ≠ []) {w : Bool} (hg : getGrid junk c spec = .ok (fins xs, w)) {a b : ℝ} (ha : (c.t junk).head? = some a)
    (hb : (c.t junk).getLast? = some b) (hin : ∀ x ∈ xs, a ≤ x ∧ x ≤ b) (junk' : ℝ) :
    ∃ R c', c.interpolate r spec m ex = .ok R ∧ Represents R c' ∧ arclen junk' c' ≤ arclen junk c := by
  have hlt : xs.Pairwise (· < ·) := by
    have hb : badSteps (fins xs) = false := by
      cases h : badSteps (fins xs) with
      | false => rfl
      | true =>
        exfalso
        unfold getGrid at hg
        cases hgs : gridOfSpec junk c spec with
        | error e => simp [hgs, bind, Except.bind] at hg
        | ok g =>
          simp only [hgs, bind, Except.bind] at hg
          split at hg
          · simp at hg
          · split at hg
            · simp at hg
            · split at hg
              · simp at hg
              · rename_i hbs
                cases h1 : npMin g.vals with
                | error e => simp [h1] at hg
                | ok lo =>
                  cases h2 : npMax g.vals with
                  | error e => simp [h1, h2] at hg
                  | ok hi =>
                    simp only [h1, h2, pure, Except.pure, Except.ok.injEq, Prod.mk.injEq] at hg
                    rw [hg.1] at hbs
                    exact hbs h
    exact stepsOver_lt ((badSteps_fins xs).1 hb)
  obtain ⟨R, h1, h2⟩ := linear_repr hc hs ht hd hr ex hne hg ha hb (.inr hin)
  refine ⟨R, _, h1, h2, ?_⟩
  have hrect : ∀ row ∈ xs.map (rowAt ((c.t junk).zip c.rows)), row.length = c.ncols := by
    intro row hrow
    obtain ⟨x, _, rfl⟩ := List.mem_map.1 hrow
    exact (interp1dAt_rowAt hc hs ht x).2
  rw [arclen_eq hrect (by simp [hne]), arclen_eq hc.rect (rows_ne_of_size hs)]
  simp only
  obtain ⟨f1, f2, f3, f4, f5⟩ := nodes_facts hc hs ht
  have hl := t_length hc (rows_ne_of_size hs) junk
  have hlr : (c.t junk).length = c.rows.length := hl
  obtain ⟨l, hldef⟩ : ∃ l, l = (c.t junk).zip (c.rows.map (pt c.ncols)) := ⟨_, rfl⟩
  have l1 : l.map Prod.fst = c.t junk := by rw [hldef]; exact List.map_fst_zip (by rw [List.length_map]; omega)
  have l2 : l.map Prod.snd = c.rows.map (pt c.ncols) := by rw [hldef]; exact List.map_snd_zip (by rw [List.length_map]; omega)
  have llt : l.Pairwise fun u v => u.1 < v.1 := by
    have := ht
    rw [← l1, List.pairwise_map] at this
    exact this
  have key := totalLen_polyAt l llt a b (by rw [l1]; exact ha) (by rw [l1]; exact hb) xs (hlt.imp fun h => h.le) hin
  rw [pathLen_totalLen, pathLen_totalLen, ← l2]
  refine le_trans (le_of_eq ?_) key
  congr 1
  rw [List.map_map]
  apply List.map_congr_left
  intro x hx
  obtain ⟨i, u, v, e1, e2, e3, e4⟩ := exists_interval (c.t junk) a b x ha hb (by omega) (hin x hx).1 (hin x hx).2
  have hi2 : i + 1 < c.size := by rw [← hl]; exact (List.getElem?_eq_some_iff.1 e2).1
  have hi3 : i + 1 < c.rows.length := hi2
  have g1 := List.getElem?_eq_getElem (l := c.rows) (i := i) (by omega)
  have g2 := List.getElem?_eq_getElem hi3
  have z1 : l[i]? = some (u, pt c.ncols c.rows[i]) := by
    rw [hldef, List.zip, List.getElem?_zipWith, e1, List.getElem?_map, g1]; rfl
  have z2 : l[i + 1]? = some (v, pt c.ncols c.rows[i + 1]) := by
    rw [hldef, List.zip, List.getElem?_zipWith, e2, List.getElem?_map, g2]; rfl
  simp only [Function.comp]
  rw [rowAt_pair hc hs ht x i u v _ _ e1 e2 g1 g2 (.inr e3) (.inr e4), polyAt_between l llt z1 z2 e3 e4,
    pt_mix (hc.rect _ (List.getElem_mem _)) (hc.rect _ (List.getElem_mem _))]

/-! ## Integer curves: C64 and C74 -/

/-- A segment with integer coordinates. -/
def exIntSeg : Curve ℝ := ⟨[[0, 0], [1, 2]], 2, some [0, 1], .int⟩

theorem exIntSeg_WF : WF exIntSeg where
  two_le := by simp [exIntSeg]
  rect := by simp [exIntSeg]
  tlen := by simp [exIntSeg]
  repr := by
    intro r hr x hx
    have e : ∀ n : ℤ, DType.int.cast (n : ℝ) = n := fun n => truncK_intCast n
    simp [exIntSeg] at hr
    rcases hr with rfl | rfl
    · simp at hx; subst hx; simpa [exIntSeg] using e 0
    · simp at hx
      rcases hx with rfl | rfl
      · simpa [exIntSeg] using e 1
      · simpa [exIntSeg] using e 2

/-- **C64, C65 and C74 fail for integer curves.** The midpoint of the segment from (0, 0) to (1, 2) is stored as (0, 1): the
interpolated coordinates are truncated to the integer dtype of the source. -/
theorem C64_int_fails {junk : ℝ} {r : InterpReg Bool} {m : String} (hr : IsLinear junk r m) (ex : Bool) :
    ∃ R, exIntSeg.interpolate r (.arr (.ok (GridArr.of (fins [0, 1 / 2, 1])))) m ex = .ok R ∧
      R.rows = [fins [0, 0], fins [0, 1], fins [1, 2]] ∧
      Represents R ⟨[[0, 0], [0, 1], [1, 2]], 2, some [0, 1 / 2, 1], .int⟩ := by
  have ht : exIntSeg.t junk = [0, 1] := rfl
  have hlt : (exIntSeg.t junk).Pairwise (· < ·) := by rw [ht]; simp
  have hso : StepsOver [0, 1 / 2, 1] := by
    intro i x y hx hy
    match i with
    | 0 => simp at hx hy; subst hx hy; norm_num
    | 1 => simp at hx hy; subst hx hy; norm_num
    | (k + 2) => simp at hy
  obtain ⟨w, hg⟩ := getGrid_fins junk exIntSeg [0, 1 / 2, 1] (by simp) hso
  have hs : 2 ≤ exIntSeg.size := by simp [exIntSeg, Curve.size]
  have hin : ∀ x ∈ [0, 1 / 2, 1], (0 : ℝ) ≤ x ∧ x ≤ 1 := by
    intro x hx; simp at hx; rcases hx with rfl | rfl | rfl <;> norm_num
  rw [linear_outcome exIntSeg_WF hs hlt hr ex hg (a := 0) (b := 1) (by rw [ht]; rfl) (by rw [ht]; rfl) (.inr hin)]
  have hrow : ∀ x, rowAt ((exIntSeg.t junk).zip exIntSeg.rows) x = mix x [0, 0] [1, 2] := by
    intro x
    have := rowAt_pair exIntSeg_WF hs hlt x 0 0 1 [0, 0] [1, 2] (by rw [ht]; rfl) (by rw [ht]; rfl) rfl rfl (.inl rfl) (.inl rfl)
    rw [this]; simp
  rw [ofRows_eq]
  · simp only [hrow, List.length_map]
    rw [if_neg (by simp [exIntSeg]), if_neg (by simp [exIntSeg])]
    refine ⟨_, tcheck_ok.2 ⟨rfl, ?_⟩, ?_⟩
    · intro s hs'
      simp [exIntSeg, Curve.isparametric] at hs'
      rw [← hs']; simp [fins]
    · have e : ∀ n : ℤ, DType.int.cast (Val.fin (n : ℝ)) = Val.fin (n : ℝ) := by
        intro n; simp only [DType.cast, Elem.trunc, Val.trunc, truncK_intCast]
      have e0 := e 0
      have e1 := e 1
      have e2 := e 2
      have eh : DType.int.cast (Val.fin (2⁻¹ : ℝ)) = Val.fin 0 := by
        simp only [DType.cast, Elem.trunc, Val.trunc, truncK]
        rw [if_pos (by norm_num)]
        congr 1
        have : ⌊(2⁻¹ : ℝ)⌋ = 0 := by rw [Int.floor_eq_iff]; norm_num
        rw [this]; simp
      push_cast at e0 e1 e2
      refine ⟨by simp [mix, fins, exIntSeg, e0, e1, e2, eh], by simp [mix, fins, exIntSeg, e0, e1, e2, eh], rfl, ?_, rfl⟩
      simp [exIntSeg, Curve.isparametric]
  · intro row hrow'
    obtain ⟨x, _, rfl⟩ := List.mem_map.1 hrow'
    rw [hrow]; simp [fins, mix, exIntSeg]

/-- **C65 fails for integer curves.** The same call: the truncated curve is longer than the segment. -/
theorem C65_int_fails {junk : ℝ} {r : InterpReg Bool} {m : String} (hr : IsLinear junk r m) (ex : Bool) :
    ∃ R c', exIntSeg.interpolate r (.arr (.ok (GridArr.of (fins [0, 1 / 2, 1])))) m ex = .ok R ∧ Represents R c' ∧
      arclen junk exIntSeg < arclen junk c' := by
  obtain ⟨R, h1, _, h2⟩ := C64_int_fails hr ex
  refine ⟨R, _, h1, h2, ?_⟩
  simp [arclen, chordlen, exIntSeg, chords, chord, NArr.sum]
  norm_num
  have h5 : √ (5 : ℝ) ≤ 2.24 := by
    rw [show (2.24 : ℝ) = √ (2.24 ^ 2) by rw [Real.sqrt_sq (by norm_num)]]
    exact Real.sqrt_le_sqrt (by norm_num)
  have h6 : (1.4 : ℝ) ≤ √ 2 := by
    rw [show (1.4 : ℝ) = √ (1.4 ^ 2) by rw [Real.sqrt_sq (by norm_num)]]
    exact Real.sqrt_le_sqrt (by norm_num)
  norm_num at h5 h6 ⊢
  linarith

/-- **C74 fails for `interpolate`.** The same call: the interpolated number 1/2 is stored as 0. -/
theorem C74_interpolate_fails {junk : ℝ} {r : InterpReg Bool} {m : String} (hr : IsLinear junk r m) (ex : Bool) :
    ∃ impl rows, linearCons junk exIntSeg ex = .ok impl ∧ impl (fins [0, 1 / 2, 1]) = .ok (NdArr.ofRows (.fin 0) rows 2, .float) ∧
      ∃ R, exIntSeg.interpolate r (.arr (.ok (GridArr.of (fins [0, 1 / 2, 1])))) m ex = .ok R ∧ R.rows ≠ rows := by
  have ht : exIntSeg.t junk = [0, 1] := rfl
  have hlt : (exIntSeg.t junk).Pairwise (· < ·) := by rw [ht]; simp
  have hs : 2 ≤ exIntSeg.size := by simp [exIntSeg, Curve.size]
  have hin : ∀ x ∈ [0, 1 / 2, 1], (0 : ℝ) ≤ x ∧ x ≤ 1 := by
    intro x hx; simp at hx; rcases hx with rfl | rfl | rfl <;> norm_num
  obtain ⟨R, h1, h2, _⟩ := C64_int_fails hr ex
  refine ⟨_, (fins [0, 1 / 2, 1]).map (interp1dAt ((exIntSeg.t junk).zip exIntSeg.rows)), linear_cons exIntSeg_WF hs hlt ex, ?_, R, h1, ?_⟩
  · have hob : (fins [0, 1 / 2, 1]).any (outOfRange ((exIntSeg.t junk).zip exIntSeg.rows)) = false := by
      rw [List.any_eq_false]
      intro v hv
      obtain ⟨x, hx, rfl⟩ := mem_fins_fin hv
      rw [not_outOfRange exIntSeg_WF hs hlt (a := 0) (b := 1) (by rw [ht]; rfl) (by rw [ht]; rfl) (hin x hx).1 (hin x hx).2]
      simp
    simp only [interp1dCall, hob, Bool.and_false, Bool.false_eq_true, if_false, Except.bind]
    rfl
  · rw [h2]
    intro h
    have h3 := congrArg (fun l => l[1]?) h
    have e := interp1dAt_pair exIntSeg_WF hs hlt (1 / 2) 0 0 1 [0, 0] [1, 2] (by rw [ht]; rfl) (by rw [ht]; rfl) rfl rfl (.inl rfl) (.inl rfl)
    simp only [fins, List.map_cons, List.map_nil, List.getElem?_cons_succ, List.getElem?_cons_zero] at h3
    rw [e] at h3
    simp [mix, fins] at h3

/-! ## The hypotheses are met -/

/-- A parametric curve on which all of C64 and C65 apply. -/
def exTri : Curve ℝ := ⟨[[0, 0], [3, 0], [3, 4]], 2, some [0, 1, 3], .float⟩

theorem exTri_WF : WF exTri where
  two_le := by simp [exTri]
  rect := by simp [exTri]
  tlen := by simp [exTri]
  repr := by intro r _ x _; rfl

theorem exTri_steps : StepsOver (exTri.t 0) := by
  intro i x y hx hy
  match i with
  | 0 => simp [exTri, Curve.t] at hx hy; subst hx hy; norm_num
  | 1 => simp [exTri, Curve.t] at hx hy; subst hx hy; norm_num
  | (k + 2) => simp [exTri, Curve.t] at hy

example : ∃ R, exTri.interpolate (linearReg 0) (.arr (.ok (GridArr.of (fins [0, 1, 3])))) "linear" true = .ok R ∧ Represents R exTri :=
  C64_reproduce_partial exTri_WF (by simp [exTri, Curve.size]) exTri_steps (by simp [exTri]) (isLinear_linearReg 0) true

example : ∃ R c', exTri.interpolate (linearReg 0) (.arr (.ok (GridArr.of (fins [1 / 2, 2])))) "linear" false = .ok R ∧ Represents R c' ∧
    c'.rows[0]? = some [3 / 2, 0] := by
  have hso : StepsOver [1 / 2, 2] := by
    intro i x y hx hy
    match i with
    | 0 => simp at hx hy; subst hx hy; norm_num
    | (k + 1) => simp at hy
  obtain ⟨R, c', h1, h2, _, _, _, _, h3⟩ := C64_between_partial exTri_WF (by simp [exTri, Curve.size]) (stepsOver_lt exTri_steps)
    (by simp [exTri]) (isLinear_linearReg 0) false (xs := [1 / 2, 2]) (by simp) hso (a := 0) (b := 3) rfl rfl
    (.inr (by intro x hx; simp at hx; rcases hx with rfl | rfl <;> norm_num))
  refine ⟨R, c', h1, h2, ?_⟩
  obtain ⟨s, _, _, hs, h4⟩ := h3 0 0 (1 / 2) 0 1 [0, 0] [3, 0] rfl rfl rfl rfl rfl (by norm_num) (by norm_num)
  rw [h4]
  have : s = 1 / 2 := by linarith
  subst this
  simp [mix]; norm_num

/-- C65: the uniform grid of four values on the triangle path. -/
example : ∃ R c', exTri.interpolate (linearReg 0) (.arr (.ok (GridArr.of (fins [1 / 2, 2])))) "linear" false = .ok R ∧ Represents R c' ∧
    arclen 0 c' ≤ arclen 0 exTri := by
  have hso : StepsOver [1 / 2, 2] := by
    intro i x y hx hy
    match i with
    | 0 => simp at hx hy; subst hx hy; norm_num
    | (k + 1) => simp at hy
  obtain ⟨w, hg⟩ := getGrid_fins 0 exTri [1 / 2, 2] (by simp) hso
  exact C65_length_partial exTri_WF (by simp [exTri, Curve.size]) (stepsOver_lt exTri_steps)
    (by simp [exTri]) (isLinear_linearReg 0) false (by simp) hg (a := 0) (b := 3) rfl rfl
    (by intro x hx; simp at hx; rcases hx with rfl | rfl <;> norm_num) 0

/-- A registry with an interpolator that accepts every curve and gives the origin at each grid value. -/
noncomputable def originReg : InterpReg Unit := ⟨[("origin", interpClass 0 fun c _ => .ok fun g =>
  .ok (NdArr.ofRows (.fin 0) (g.map fun _ => List.replicate c.ncols (.fin 0)) c.ncols, .float))], none⟩

example : (⟨[], 3, none, .float⟩ : Curve ℝ).interpolate originReg .other "origin" () = .ok ⟨[], 3, none, .float⟩ :=
  (C66_small_partial (r := originReg) (m := "origin") (junk := 0) rfl ⟨by simp, by simp, by simp, by simp⟩ () rfl .other).1 rfl

example : exTri.interpolate originReg .other "origin" () = .error .valueError :=
  (C66_grid_errors (r := originReg) (m := "origin") (junk := 0) rfl (by simp [exTri, Curve.size]) () rfl).1

/-! ## Concrete cases -/

theorem exStepsOver2 : StepsOver [1 / 2, 2, 5] := by
  intro i x y hx hy
  match i with
  | 0 => simp at hx hy; subst hx hy; norm_num
  | 1 => simp at hx hy; subst hx hy; norm_num
  | (k + 2) => simp at hy

example := (C66_method_errors (originReg) "no such method" exTri (.int 5) ()).1 (by simp [originReg, Reg.names])
example := (C66_result_partial (r := originReg) (m := "origin") (junk := 0) rfl (c := exTri) (by simp [exTri, Curve.size]) () rfl
  (getGrid_fins 0 exTri [1 / 2, 2, 5] (by simp) exStepsOver2).choose_spec).1
example := C64_nodes_partial exTri_WF (by simp [exTri, Curve.size]) (stepsOver_lt exTri_steps) (by simp [exTri]) (isLinear_linearReg 0) true
  (xs := [1 / 2, 2, 5]) (by simp) exStepsOver2 (a := 0) (b := 3) rfl rfl (.inl rfl)
example := C64_extrapolate exTri_WF (by simp [exTri, Curve.size]) (stepsOver_lt exTri_steps) (by simp [exTri]) (isLinear_linearReg 0)
  (xs := [1 / 2, 2, 5]) (by simp) exStepsOver2
example := C64_out_of_range exTri_WF (by simp [exTri, Curve.size]) (stepsOver_lt exTri_steps) (isLinear_linearReg 0)
  (xs := [1 / 2, 2, 5]) exStepsOver2 (a := 0) (b := 3) rfl rfl 5 (by simp) (.inr (by norm_num))

end Verif.Props
