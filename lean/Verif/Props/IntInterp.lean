import Verif.Props.Keywords

/-!
C134: interpolation of curves of integer dtype.
-/
namespace Verif.Spec

open Verif Verif.Model

/-- `y` is `x` without its fractional part. -/
def TowardZero (x y : ℝ) : Prop := (∃ k : ℤ, y = k) ∧ |y| ≤ |x| ∧ |x - y| < 1 ∧ 0 ≤ x * y

/-- `R` is `R'` stored with an integer dtype: numbers lose their fractional part, NaN and the infinities become the smallest integer of
64 bits. -/
structure StoredAsInt (R R' : Curve (Val ℝ)) : Prop where
  size : R.rows.length = R'.rows.length
  ncols : R.ncols = R'.ncols
  tdata : R.tdata = R'.tdata
  dtype : R.dtype = .int
  rect : ∀ (i : Nat) p q, R.rows[i]? = some p → R'.rows[i]? = some q → p.length = q.length
  number : ∀ (i j : Nat) p q y u, R.rows[i]? = some p → R'.rows[i]? = some q → p[j]? = some y → q[j]? = some (.fin u) →
    ∃ v, y = .fin v ∧ TowardZero u v
  other : ∀ (i j : Nat) p q y x, R.rows[i]? = some p → R'.rows[i]? = some q → p[j]? = some y → q[j]? = some x → (∀ u, x ≠ .fin u) →
    y = .fin (-9223372036854775808)

/-- `c` with the same points and parameter values and dtype float64. -/
def asFloat (c : Curve ℝ) : Curve ℝ := { c with dtype := .float }

/-- A grid specification that does not ask for the dtype of the curve. -/
def DtypeFree (c : Curve ℝ) (g : GridSpec) : Prop := ∀ f, g = .obj f → f c = f (asFloat c)

end Verif.Spec

namespace Verif.Props

open Verif Verif.Np Verif.Model Verif.Spec

theorem truncK_towardZero (x : ℝ) : TowardZero x (truncK x) := by
  unfold truncK
  split_ifs with h
  · refine ⟨⟨_, rfl⟩, ?_, ?_, ?_⟩
    · have h1 : (0 : ℝ) ≤ ⌊x⌋ := by exact_mod_cast Int.floor_nonneg.2 h
      rw [abs_of_nonneg h1, abs_of_nonneg h]; exact Int.floor_le x
    · have h1 := Int.floor_le x
      have h2 := Int.lt_floor_add_one x
      rw [abs_lt]; constructor <;> linarith
    · exact mul_nonneg h (by exact_mod_cast Int.floor_nonneg.2 h)
  · have h := (not_le.1 h).le
    have h1 : (⌈x⌉ : ℝ) ≤ 0 := by
      have : ⌈x⌉ ≤ 0 := Int.ceil_le.2 (by simpa using h)
      exact_mod_cast this
    have h2 := Int.le_ceil x
    have h3 := Int.ceil_lt_add_one x
    refine ⟨⟨_, rfl⟩, ?_, ?_, ?_⟩
    · rw [abs_of_nonpos h1, abs_of_nonpos h]; linarith
    · rw [abs_lt]; constructor <;> linarith
    · exact mul_nonneg_of_nonpos_of_nonpos h h1

/-- Only one number is `x` without its fractional part. -/
theorem towardZero_unique {x y z : ℝ} (h1 : TowardZero x y) (h2 : TowardZero x z) : y = z := by
  obtain ⟨⟨k, rfl⟩, a1, a2, a3⟩ := h1
  obtain ⟨⟨l, rfl⟩, b1, b2, b3⟩ := h2
  rw [abs_lt] at a2 b2
  have hkl : k < l + 2 := by have : (k : ℝ) < l + 2 := by linarith
                             exact_mod_cast this
  have hlk : l < k + 2 := by have : (l : ℝ) < k + 2 := by linarith
                             exact_mod_cast this
  by_contra hne
  have hne' : k ≠ l := fun h => hne (by rw [h])
  rcases le_total 0 x with h | h
  · rw [abs_of_nonneg h] at a1 b1
    have a1 := (le_abs_self _).trans a1
    have b1 := (le_abs_self _).trans b1
    rcases (by omega : k = l + 1 ∨ l = k + 1) with h' | h'
    · rw [h'] at a1; push_cast at a1; linarith
    · rw [h'] at b1; push_cast at b1; linarith
  · rw [abs_of_nonpos h] at a1 b1
    have a1 := (neg_le_abs _).trans a1
    have b1 := (neg_le_abs _).trans b1
    rcases (by omega : k = l + 1 ∨ l = k + 1) with h' | h'
    · rw [h'] at a2; push_cast at a2; linarith
    · rw [h'] at b2; push_cast at b2; linarith

/-- An integer stays as it is. -/
theorem towardZero_int {x : ℝ} (k : ℤ) (h : x = k) : TowardZero x x :=
  ⟨⟨k, h⟩, le_refl _, by simp, mul_self_nonneg _⟩

/-- The curve stored with an integer dtype. -/
noncomputable def storeInt (R : Curve (Val ℝ)) : Curve (Val ℝ) := ⟨R.rows.map fun p => p.map Elem.trunc, R.ncols, R.tdata, .int⟩

theorem storeInt_stored (R : Curve (Val ℝ)) : StoredAsInt (storeInt R) R := by
  have key : ∀ {i : Nat} {p q : List (Val ℝ)}, (storeInt R).rows[i]? = some p → R.rows[i]? = some q → p = q.map Elem.trunc := by
    intro i p q hp hq
    simp only [storeInt, List.getElem?_map, hq, Option.map_some, Option.some.injEq] at hp
    exact hp.symm
  refine ⟨by simp [storeInt], rfl, rfl, rfl, ?_, ?_, ?_⟩
  · intro i p q hp hq
    rw [key hp hq]; simp
  · intro i j p q y u hp hq hy hu
    rw [key hp hq] at hy
    simp only [List.getElem?_map, hu, Option.map_some, Option.some.injEq] at hy
    exact ⟨_, hy.symm, truncK_towardZero u⟩
  · intro i j p q y x hp hq hy hx hn
    rw [key hp hq] at hy
    simp only [List.getElem?_map, hx, Option.map_some, Option.some.injEq] at hy
    rw [← hy]
    cases x with
    | fin u => exact absurd rfl (hn u)
    | _ => show Val.trunc _ = _; simp [Val.trunc]; norm_num

theorem init_int (d : CurveData (Val ℝ)) (hd : ∀ c, d ≠ .curve c) (t : Option (List (Val ℝ))) (axis ndmin : Option Int) :
    Curve.init d t axis ndmin (some .int) = (Curve.init d t axis ndmin (some .float)).map storeInt := by
  have hfin : ∀ (raw : Arr2 (Val ℝ)) b n, Curve.finish raw .int t b n = (Curve.finish raw .float t b n).map storeInt := by
    intro raw b n
    unfold Curve.finish
    have hcast : ∀ x : Val ℝ, DType.int.cast x = Elem.trunc (DType.float.cast x) := fun _ => rfl
    have z : (Elem.trunc (Elem.zero : Val ℝ)) = Elem.zero := Elem.trunc_zero
    simp only [List.length_map]
    split_ifs with h1 h2 h3
    · rfl
    · cases t with
      | none => simp [storeInt, Except.map]
      | some t => by_cases h : t.length = 0 <;> simp [storeInt, Except.map, h]
    all_goals first
      | rfl
      | (cases t with
        | none => simp_all [storeInt, Except.map, Function.comp_def, hcast]
        | some t => simp only [List.length_map]; split_ifs <;> simp_all [storeInt, Except.map, Function.comp_def, hcast])
  unfold Curve.init
  simp only [Option.getD_some]
  split_ifs
  · rfl
  cases d with
  | curve c => exact absurd rfl (hd c)
  | arr a dt => simp only; split <;> simp [hfin, Except.map]
  | seq xs => simp only; split <;> simp [hfin, Except.map]

theorem getGrid_asFloat {junk : ℝ} {c : Curve ℝ} {g : GridSpec} (hg : DtypeFree c g) : getGrid junk (asFloat c) g = getGrid junk c g := by
  unfold getGrid
  have : gridOfSpec junk (asFloat c) g = gridOfSpec junk c g := by
    cases g with
    | obj f => exact (hg f rfl).symm
    | _ => rfl
  rw [this]
  rfl

/-- Interpolation with any interpolator that is made from the points and the parameter values alone. -/
theorem interpolate_int {junk : ℝ} {c : Curve ℝ} (hd : c.dtype = .int) {P : Type} {r : InterpReg P} {m : String}
    {cons : Curve ℝ → P → Except PyErr InterpImpl} (hr : getInterpClass r m = .ok (interpClass junk cons)) (p : P)
    (hcons : cons c p = cons (asFloat c) p) {g : GridSpec} (hg : DtypeFree c g) :
    c.interpolate r g m p = ((asFloat c).interpolate r g m p).map storeInt := by
  rw [interpolate_eq hr, interpolate_eq hr]
  simp only [interpClass, ← hcons]
  cases cons c p with
  | error e => rfl
  | ok impl =>
    simp only [bind, Except.bind, pure, Except.pure, wrapErr]
    unfold interpolatorCall
    have e1 : (asFloat c).size = c.size := rfl
    have e2 : (asFloat c).isparametric = c.isparametric := rfl
    have e3 : (asFloat c).ndim = c.ndim := rfl
    have e4 : (asFloat c).dtype = .float := rfl
    rw [getGrid_asFloat hg, e1, e2, e3, e4, hd]
    split_ifs
    · exact init_int _ (by simp) _ _ _
    · rfl
    all_goals
      cases getGrid junk c g with
      | error e => rfl
      | ok x =>
        simp only [bind, Except.bind]
        cases wrapErr PyErr.interpolationError (impl x.1) with
        | error e => rfl
        | ok y => exact init_int _ (by simp) _ _ _

section
variable (lib : SplineLib) (junk : ℝ) (more : List (RegOp (PClass (Curve ℝ) InterpKw GridSpec (Curve (Val ℝ)))))

/-- **C134.** Interpolating a curve of integer dtype by any built-in method, with any arguments and on any grid, is the same as
interpolating the curve with its points as floating point numbers and storing the result as integers: the same errors, the same
parameter values, every coordinate without its fractional part, and NaN as the smallest integer. -/
theorem C134_interpolate {m : String} {sig : List String} (hm : (m, sig) ∈ interpSignatures) (kw : InterpKw) {c : Curve ℝ}
    (hd : c.dtype = .int) {g : GridSpec} (hg : DtypeFree c g) :
    (∀ e, (asFloat c).interpolate (regAfter lib junk more) g m kw = .error e → c.interpolate (regAfter lib junk more) g m kw = .error e) ∧
    ∀ R', (asFloat c).interpolate (regAfter lib junk more) g m kw = .ok R' →
      ∃ R, c.interpolate (regAfter lib junk more) g m kw = .ok R ∧ StoredAsInt R R' := by
  have key : c.interpolate (regAfter lib junk more) g m kw = ((asFloat c).interpolate (regAfter lib junk more) g m kw).map storeInt := by
    obtain ⟨_, h1, h2, h3, h4, h5, h6, h7⟩ := C108_methods lib junk more
    simp only [interpSignatures, List.mem_cons, List.not_mem_nil, or_false, Prod.mk.injEq] at hm
    rcases hm with ⟨rfl, rfl⟩ | ⟨rfl, rfl⟩ | ⟨rfl, rfl⟩ | ⟨rfl, rfl⟩ | ⟨rfl, rfl⟩ | ⟨rfl, rfl⟩ | ⟨rfl, rfl⟩
    · exact interpolate_int hd h1 kw rfl hg
    · exact interpolate_int hd h2 kw rfl hg
    · exact interpolate_int hd h3 kw rfl hg
    · exact interpolate_int hd h4 kw rfl hg
    · exact interpolate_int hd h5 kw rfl hg
    · exact interpolate_int hd h6 kw rfl hg
    · exact interpolate_int hd h7 kw rfl hg
  rw [key]
  constructor
  · intro e he; rw [he]; rfl
  · intro R' hR; rw [hR]; exact ⟨_, rfl, storeInt_stored R'⟩

/-- No grid of the package asks for the dtype: arrays, numbers of points, uniform grids, grids that keep the speed, and the extension of a
grid that does not ask for the dtype itself. -/
theorem dtypeFree_package (c : Curve ℝ) :
    (∀ a, DtypeFree c (.arr a)) ∧ (∀ n, DtypeFree c (.int n)) ∧
    (∀ u : UniformGrid, DtypeFree c (.obj fun c => (u.call junk c).map GridArr.of)) ∧
    (∀ n, DtypeFree c (.obj fun c => (speedGrid junk n c).map GridArr.of)) ∧
    ∀ e : ExtrapGrid, e.grid c = e.grid (asFloat c) → DtypeFree c (.obj fun c => (e.call c).map GridArr.of) := by
  refine ⟨by simp [DtypeFree], by simp [DtypeFree], ?_, ?_, ?_⟩
  · rintro u f h; cases h; rfl
  · rintro n f h; cases h; rfl
  · rintro e he f h; cases h; simp only [ExtrapGrid.call, he]

end

theorem asFloat_WF {c : Curve ℝ} (hc : WF c) : WF (asFloat c) := ⟨hc.two_le, hc.rect, hc.tlen, fun _ _ _ _ => rfl⟩

/-- **C134, values.** If interpolating the curve with floating point numbers is evaluation of `F` (as in C84 to C88, C124 and C133), then the
points for an integer curve are those of `F` without the fractional parts of the coordinates. -/
theorem C134_values {c : Curve ℝ} (hd : c.dtype = .int) {junk : ℝ} {P : Type} {r : InterpReg P} {m : String}
    {cons : Curve ℝ → P → Except PyErr InterpImpl} (hr : getInterpClass r m = .ok (interpClass junk cons)) (p : P)
    (hcons : cons c p = cons (asFloat c) p) {dom : ℝ → Prop} {F : ℝ → List ℝ}
    (hF : EvaluatesTo (asFloat c) (fun g => (asFloat c).interpolate r g m p) dom F) {xs : List ℝ} (hne : xs ≠ []) (hx : StepsOver xs)
    (hdom : ∀ x ∈ xs, dom x) :
    ∃ R rows, c.interpolate r (.arr (.ok (GridArr.of (fins xs)))) m p = .ok R ∧
      Represents R ⟨rows, c.ncols, if c.isparametric then some xs else none, .int⟩ ∧ rows.length = xs.length ∧
      ∀ (i : Nat) x, xs[i]? = some x → ∃ row, rows[i]? = some row ∧ row.length = (F x).length ∧
        ∀ (j : Nat) u v, (F x)[j]? = some u → row[j]? = some v → TowardZero u v := by
  obtain ⟨R', h1, h2⟩ := hF xs hne hx hdom
  refine ⟨storeInt R', xs.map fun x => (F x).map truncK, ?_, ?_, by simp, ?_⟩
  · rw [interpolate_int hd hr p hcons (by simp [DtypeFree])]
    simp only at h1
    rw [h1]; rfl
  · refine ⟨?_, h2.ncols, h2.tdata, rfl⟩
    simp only [storeInt, h2.rows, List.map_map]
    apply List.map_congr_left
    intro x _
    simp only [Function.comp, fins, List.map_map]
    apply List.map_congr_left
    intro y _
    rfl
  · intro i x hi
    refine ⟨(F x).map truncK, by simp [hi], by simp, ?_⟩
    intro j u v hu hv
    simp only [List.getElem?_map, hu, Option.map_some, Option.some.injEq] at hv
    rw [← hv]
    exact truncK_towardZero u

theorem storeInt_self {c : Curve ℝ} (hc : WF c) (hd : c.dtype = .int) {R : Curve (Val ℝ)} (h : Represents R (asFloat c)) :
    Represents (storeInt R) c := by
  refine ⟨?_, h.ncols, h.tdata, hd.symm⟩
  simp only [storeInt, h.rows, List.map_map]
  apply List.map_congr_left
  intro row hrow
  simp only [Function.comp, fins, List.map_map]
  apply List.map_congr_left
  intro x hx
  have := hc.repr row hrow x hx
  rw [hd] at this
  show Val.fin (truncK x) = .fin x
  rw [show truncK x = x from this]

/-- **C134, reproduction.** Interpolating a curve of integer dtype at its parameter values (more than `1e-8` apart) gives the curve back, by
`hermite`, `pchip`, `akima` and `cubic`. (Exact arithmetic; rounding can make a coordinate one less.) -/
theorem C134_reproduce {c : Curve ℝ} (hc : WF c) (hs : 2 ≤ c.size) (hd : c.dtype = .int) {junk : ℝ} (ht : StepsOver (c.t junk))
    (lib : SplineLib) {r : KwReg} {m : String} {kw : InterpKw}
    (hm : (IsHermite junk r m ∨ IsPchip junk r m) ∧ (kw = .none ∨ ∃ b, kw = ⟨[("extrapolate", .bool b)]⟩) ∨ IsAkima lib junk r m ∧ kw = .none ∨
      IsCubic lib junk r m ∧ ∃ bc ex d, lib.cubic bc (c.t junk) c.mat = .ok d ∧ ((∃ b, ex = .bool b) ∨ ex = .none ∧ bc ≠ "periodic") ∧
        kw = ⟨[("bc_type", .str bc), ("extrapolate", ex)]⟩) :
    ∃ R, c.interpolate r (.arr (.ok (GridArr.of (fins (c.t junk))))) m kw = .ok R ∧ Represents R c := by
  obtain ⟨h1, h2, h3, h4⟩ := C83_reproduce_partial (c := asFloat c) (asFloat_WF hc) hs (junk := junk) ht (by simp [asFloat]) lib (r := r) (m := m)
  have go : ∀ {cons : Curve ℝ → InterpKw → Except PyErr InterpImpl}, getInterpClass r m = .ok (interpClass junk cons) →
      cons c kw = cons (asFloat c) kw →
      (∃ R, (asFloat c).interpolate r (.arr (.ok (GridArr.of (fins (c.t junk))))) m kw = .ok R ∧ Represents R (asFloat c)) →
      ∃ R, c.interpolate r (.arr (.ok (GridArr.of (fins (c.t junk))))) m kw = .ok R ∧ Represents R c := by
    rintro cons hr hcons ⟨R, e1, e2⟩
    refine ⟨storeInt R, ?_, storeInt_self hc hd e2⟩
    rw [interpolate_int hd hr kw hcons (by simp [DtypeFree]), e1]
    rfl
  rcases hm with ⟨h | h, hkw⟩ | ⟨h, rfl⟩ | ⟨h, bc, ex, d, hl, hex, rfl⟩
  · exact go h rfl (h1 h kw hkw)
  · exact go h rfl (h2 h kw hkw)
  · exact go h rfl (h3 h)
  · exact go h rfl (h4 h bc ex d hl hex)

/-- **C134, linear.** Linear interpolation of a curve of integer dtype between `t[i]` and `t[i+1]` is the point that divides the segment from
point `i` to point `i+1` in that ratio, without the fractional parts of its coordinates; at its parameter values it gives the curve
back. -/
theorem C134_linear {c : Curve ℝ} (hc : WF c) (hs : 2 ≤ c.size) (hd : c.dtype = .int) {junk : ℝ} (ht : (c.t junk).Pairwise (· < ·))
    {r : InterpReg Bool} {m : String} (hr : IsLinear junk r m) (ex : Bool) :
    (∀ {xs : List ℝ}, xs ≠ [] → StepsOver xs → ∀ {a b : ℝ}, (c.t junk).head? = some a → (c.t junk).getLast? = some b →
      (ex = true ∨ ∀ x ∈ xs, a ≤ x ∧ x ≤ b) →
      ∃ R c', c.interpolate r (.arr (.ok (GridArr.of (fins xs)))) m ex = .ok R ∧ Represents R c' ∧ c'.size = xs.length ∧
        c'.ncols = c.ncols ∧ c'.dtype = .int ∧ c'.tdata = (if c.isparametric then some xs else none) ∧
        ∀ (j i : Nat) (x u v : ℝ) (p q : List ℝ), xs[j]? = some x → (c.t junk)[i]? = some u → (c.t junk)[i + 1]? = some v →
          c.rows[i]? = some p → c.rows[i + 1]? = some q → u ≤ x → x ≤ v →
          ∃ s row, 0 ≤ s ∧ s ≤ 1 ∧ (v - u) * s = x - u ∧ c'.rows[j]? = some row ∧ row.length = (mix s p q).length ∧
            ∀ (k : Nat) y z, (mix s p q)[k]? = some y → row[k]? = some z → TowardZero y z) ∧
    (StepsOver (c.t junk) → ∃ R, c.interpolate r (.arr (.ok (GridArr.of (fins (c.t junk))))) m ex = .ok R ∧ Represents R c) := by
  constructor
  · intro xs hne hx a b ha hb hex
    obtain ⟨R, c', h1, h2, h3, h4, h5, h6, h7⟩ := C64_between_partial (c := asFloat c) (asFloat_WF hc) hs (junk := junk) ht (by simp [asFloat]) hr ex
      hne hx ha hb hex
    refine ⟨storeInt R, ⟨c'.rows.map fun p => p.map truncK, c'.ncols, c'.tdata, .int⟩, ?_, ?_, ?_, h4, rfl, h6, ?_⟩
    · rw [interpolate_int hd hr ex rfl (by simp [DtypeFree]), h1]; rfl
    · refine ⟨?_, h2.ncols, h2.tdata, rfl⟩
      simp only [storeInt, h2.rows, List.map_map]
      apply List.map_congr_left
      intro row _
      simp only [Function.comp, fins, List.map_map]
      apply List.map_congr_left
      intro y _
      rfl
    · rw [← h3]; simp [Curve.size]
    · intro j i x u v p q e1 e2 e3 e4 e5 e6 e7
      obtain ⟨s, s0, s1, s2, s3⟩ := h7 j i x u v p q e1 e2 e3 e4 e5 e6 e7
      refine ⟨s, (mix s p q).map truncK, s0, s1, s2, by simp [s3], by simp, ?_⟩
      intro k y z hy hz
      simp only [List.getElem?_map, hy, Option.map_some, Option.some.injEq] at hz
      rw [← hz]; exact truncK_towardZero y
  · intro hso
    obtain ⟨R, h1, h2⟩ := C64_reproduce_partial (c := asFloat c) (asFloat_WF hc) hs (junk := junk) hso (by simp [asFloat]) hr ex
    refine ⟨storeInt R, ?_, storeInt_self hc hd h2⟩
    have h1' : (asFloat c).interpolate r (.arr (.ok (GridArr.of (fins (c.t junk))))) m ex = .ok R := h1
    rw [interpolate_int hd hr ex rfl (by simp [DtypeFree]), h1']
    rfl

/-- **C134, outside.** Where the result of a floating point curve is NaN (`akima`, or `extrapolate=False`, outside of the range of the
parameter, C88), the coordinates for a curve of integer dtype are -2^63, a number like any other. -/
theorem C134_outside {c : Curve ℝ} (hc : WF c) (hs : 2 ≤ c.size) (hd : c.dtype = .int) {junk : ℝ} (ht : (c.t junk).Pairwise (· < ·))
    (lib : SplineLib) {r : KwReg} {m : String} {kw : InterpKw}
    (hm : IsAkima lib junk r m ∧ kw = .none ∨ (IsHermite junk r m ∨ IsPchip junk r m) ∧ kw = ⟨[("extrapolate", .bool false)]⟩)
    {xs : List ℝ} (hne : xs ≠ []) (hx : StepsOver xs) :
    ∃ R, c.interpolate r (.arr (.ok (GridArr.of (fins xs)))) m kw = .ok R ∧ R.size = xs.length ∧
      ∀ (i : Nat) x row, xs[i]? = some x → R.rows[i]? = some row → ¬ WithinEnds (c.t junk) x →
        row.length = c.ncols ∧ ∀ v ∈ row, v = .fin (-9223372036854775808) := by
  obtain ⟨R, h1, h2, h3⟩ := C88_outside (c := asFloat c) (asFloat_WF hc) hs (junk := junk) ht (by simp [asFloat]) lib (r := r) (m := m) (kw := kw)
    (by tauto) hne hx
  refine ⟨storeInt R, ?_, ?_, ?_⟩
  · rcases hm with ⟨h, rfl⟩ | ⟨h | h, rfl⟩
    · rw [interpolate_int hd h _ rfl (by simp [DtypeFree]), h1]; rfl
    · rw [interpolate_int hd h _ rfl (by simp [DtypeFree]), h1]; rfl
    · rw [interpolate_int hd h _ rfl (by simp [DtypeFree]), h1]; rfl
  · rw [← h2]; simp [storeInt, Curve.size]
  · intro i x row hi hrow hout
    have hi' : i < R.rows.length := by
      have := (List.getElem?_eq_some_iff.1 hrow).1
      simpa [storeInt] using this
    obtain ⟨g1, _, g3⟩ := h3 i x _ hi (List.getElem?_eq_getElem hi')
    have e : row = R.rows[i].map Elem.trunc := by
      simp only [storeInt, List.getElem?_map, List.getElem?_eq_getElem hi', Option.map_some, Option.some.injEq] at hrow
      exact hrow.symm
    rw [e]
    refine ⟨by simpa [asFloat] using g1, ?_⟩
    intro v hv
    obtain ⟨w, hw, rfl⟩ := List.mem_map.1 hv
    rw [g3 hout w hw]
    show Val.trunc _ = _
    simp [Val.trunc]; norm_num

/-! ## Instances -/

/-- The midpoint of the segment from (0, 0) to (1, 2), a curve of integer dtype. -/
example {r : InterpReg Bool} {m : String} (hr : IsLinear 0 r m) : ∃ R c', exIntSeg.interpolate r (.arr (.ok (GridArr.of (fins [1 / 2])))) m true = .ok R ∧
    Represents R c' ∧ c'.rows = [[0, 1]] := by
  obtain ⟨h0, -⟩ := C134_linear exIntSeg_WF (by simp [exIntSeg, Curve.size]) rfl (junk := 0) (by simp [exIntSeg, Curve.t]) hr true
  have h := @h0 [1 / 2] (by simp) (by intro i x y hx hy; simp at hy) 0 1 rfl rfl (.inl rfl)
  obtain ⟨R, c', h1, h2, h3, _, _, _, h7⟩ := h
  refine ⟨R, c', h1, h2, ?_⟩
  obtain ⟨s, row, _, _, s2, s3, s4, s5⟩ := h7 0 0 (1 / 2) 0 1 [0, 0] [1, 2] rfl rfl rfl rfl rfl (by norm_num) (by norm_num)
  have hs : s = 1 / 2 := by linarith
  subst hs
  have hmix : mix (1 / 2) [0, 0] [1, 2] = [1 / 2, 1] := by norm_num [mix]
  rw [hmix] at s4 s5
  obtain ⟨y0, y1, rfl⟩ : ∃ y0 y1, row = [y0, y1] := by
    match row, s4 with
    | [a, b], _ => exact ⟨a, b, rfl⟩
  have e0 := towardZero_unique (s5 0 _ _ rfl rfl) (z := 0) ⟨⟨0, by simp⟩, by norm_num, by rw [abs_of_pos] <;> norm_num, by norm_num⟩
  have e1 := towardZero_unique (s5 1 _ _ rfl rfl) (z := 1) (towardZero_int 1 (by simp))
  subst e0 e1
  match hrows : c'.rows, h3 with
  | [p], _ =>
    rw [hrows] at s3
    simp at s3
    rw [s3]
  | [], h => simp [Curve.size, hrows] at h
  | _ :: _ :: _, h => simp [Curve.size, hrows] at h

/-- Reproduction: (0, 0), (1, 2) by `hermite`. -/
example (lib : SplineLib) : ∃ R, exIntSeg.interpolate (builtinInterp lib 0) (.arr (.ok (GridArr.of (fins [0, 1])))) "hermite" .none = .ok R ∧
    Represents R exIntSeg :=
  C134_reproduce exIntSeg_WF (by simp [exIntSeg, Curve.size]) rfl (junk := 0)
    (by intro i x y hx hy
        match i with
        | 0 => simp [exIntSeg, Curve.t] at hx hy; subst hx hy; norm_num
        | _ + 1 => simp [exIntSeg, Curve.t] at hy) lib (.inl ⟨.inl (builtin_names lib 0).2.1, .inl rfl⟩)

/-- Outside: (0, 0), (1, 2) interpolated at 5 by `pchip` without extrapolation. -/
example (lib : SplineLib) : ∃ R, exIntSeg.interpolate (builtinInterp lib 0) (.arr (.ok (GridArr.of (fins [5])))) "pchip"
    ⟨[("extrapolate", .bool false)]⟩ = .ok R ∧ ∀ row, R.rows[0]? = some row → row.length = 2 ∧ ∀ v ∈ row, v = .fin (-9223372036854775808) := by
  obtain ⟨R, h1, h2, h3⟩ := C134_outside exIntSeg_WF (by simp [exIntSeg, Curve.size]) rfl (junk := 0) (by simp [exIntSeg, Curve.t]) lib
    (.inr ⟨.inr (builtin_names lib 0).2.2.1, rfl⟩) (xs := [5]) (by simp) (by intro i x y hx hy; simp at hy)
  refine ⟨R, h1, fun row hrow => ?_⟩
  refine h3 0 5 row rfl hrow ?_
  intro h
  have := h.2 1 rfl
  norm_num at this

end Verif.Props
