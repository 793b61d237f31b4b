import Verif.Props.Interp
import Verif.Lemmas.Pchip
import Verif.Spec.Spline

/-!
Interpolation by piecewise cubic polynomials: C83 (they pass through the points), C84 (Hermite interpolation has the unit
tangents as derivatives), C88 (values outside of the range).
-/
namespace Verif.Props

open Verif Verif.Np Verif.Model Verif.Spec

/-- The type of the registries of built-in interpolators. -/
abbrev KwReg := InterpReg InterpKw

/-- `m` is a name of the interpolator `hermite`. -/
abbrev IsHermite (junk : ℝ) (r : KwReg) (m : String) : Prop :=
  getInterpClass r m = .ok (interpClass junk (withKw pickHermite (hermiteCons junk)))
/-- `m` is a name of the interpolator `pchip`. -/
abbrev IsPchip (junk : ℝ) (r : KwReg) (m : String) : Prop :=
  getInterpClass r m = .ok (interpClass junk (withKw pickPchip (pchipCons junk)))
/-- `m` is a name of the interpolator `akima`. -/
abbrev IsAkima (lib : SplineLib) (junk : ℝ) (r : KwReg) (m : String) : Prop :=
  getInterpClass r m = .ok (interpClass junk (withKw pickAkima (akimaCons lib junk)))
/-- `m` is a name of the interpolator `cubic`. -/
abbrev IsCubic (lib : SplineLib) (junk : ℝ) (r : KwReg) (m : String) : Prop :=
  getInterpClass r m = .ok (interpClass junk (withKw pickCubic (cubicCons lib junk)))

/-- After import the seven methods are registered under their names. -/
theorem builtin_names (lib : SplineLib) (junk : ℝ) :
    (builtinInterp lib junk).names = ["linear", "cubic", "hermite", "akima", "pchip", "spline", "csaps"] ∧
    IsHermite junk (builtinInterp lib junk) "hermite" ∧ IsPchip junk (builtinInterp lib junk) "pchip" ∧
    IsAkima lib junk (builtinInterp lib junk) "akima" ∧ IsCubic lib junk (builtinInterp lib junk) "cubic" := by
  unfold IsHermite IsPchip IsAkima IsCubic
  simp [builtinInterp, importInterp, stepInterp, registerInterp, Reg.has, Reg.empty, Reg.setItem, Reg.names, getInterpClass, Reg.item]

section
variable {c : Curve ℝ} (hc : WF c) (hs : 2 ≤ c.size) {junk : ℝ}

include hc hs in
/-- Interpolation by a piecewise polynomial is its evaluation. -/
theorem ppoly_eval (hd : c.dtype ≠ .int) {P : Type} {r : InterpReg P} {m : String} {cons : Curve ℝ → P → Except PyErr InterpImpl}
    (hr : getInterpClass r m = .ok (interpClass junk cons)) {p : P} {q : PPoly} (hq : cons c p = .ok q.impl)
    (hk : q.y.k = c.ncols) {dom : ℝ → Prop} (hat : ∀ x, dom x → q.at (.fin x) = fins (q.row x)) :
    EvaluatesTo c (fun g => c.interpolate r g m p) dom q.row := by
  intro xs hne hx hdom
  obtain ⟨w, hg⟩ := getGrid_fins junk c xs hne hx
  simp only
  rw [interpolate_impl hr c _ p hq]
  unfold interpolatorCall
  rw [if_neg (by omega), if_neg (by omega), hg]
  have hrows : (fins xs).map q.at = xs.map fun x => fins (q.row x) := by
    unfold fins
    rw [List.map_map]
    apply List.map_congr_left
    intro x hx'
    exact hat x (hdom x hx')
  simp only [bind, Except.bind, PPoly.impl, hrows, wrapErr, hk]
  have he : Curve.init (.arr (NdArr.ofRows (.fin 0) (xs.map fun x => fins (q.row x)) c.ncols) .float)
      (if c.isparametric then some (fins xs) else none) none none (some c.dtype) =
      Curve.ofRows (xs.map fun x => fins (q.row x)) c.ncols c.dtype (if c.isparametric then some (fins xs) else none) := rfl
  rw [he, ofRows_ok hc.two_le]
  · refine ⟨_, rfl, ?_, ?_, ?_, rfl⟩
    · simp [List.map_map, Function.comp]
    · simp [hne]
    · simp only; split <;> simp [fins]
  · intro row hrow
    obtain ⟨x, _, rfl⟩ := List.mem_map.1 hrow
    simp only [fins, List.length_map, q.row_length, hk]
  · intro _ _ x _; cases hdt : c.dtype <;> simp_all [DType.cast]
  · intro s hs'
    split at hs' <;> simp at hs'
    rw [← hs']; simp [fins]

include hc hs in
/-- Reproduction from the values at the parameters. -/
theorem reproduce_of_eval {call : GridSpec → Except PyErr (Curve (Val ℝ))} {dom : ℝ → Prop} {F : ℝ → List ℝ}
    (he : EvaluatesTo c call dom F) (ht : StepsOver (c.t junk))
    (hF : ∀ (i : Nat) x, (c.t junk)[i]? = some x → dom x ∧ c.rows[i]? = some (F x)) :
    ∃ R, call (.arr (.ok (GridArr.of (fins (c.t junk))))) = .ok R ∧ Represents R c := by
  have hne := rows_ne_of_size hs
  have hl := t_length hc hne junk
  have htne : c.t junk ≠ [] := by intro e; rw [e] at hl; simp at hl; omega
  obtain ⟨R, h1, h2⟩ := he (c.t junk) htne ht (by
    intro x hx
    obtain ⟨i, hi⟩ := List.mem_iff_getElem?.1 hx
    exact (hF i x hi).1)
  have hrows : (c.t junk).map F = c.rows := by
    apply List.ext_getElem?
    intro i
    rw [List.getElem?_map]
    cases h : (c.t junk)[i]? with
    | none =>
      have := List.getElem?_eq_none_iff.1 h
      rw [List.getElem?_eq_none (by rw [hl] at this; exact this)]; rfl
    | some x => rw [(hF i x h).2]; rfl
  refine ⟨R, h1, ?_, h2.ncols, ?_, h2.dtype⟩
  · rw [h2.rows]; simp only; rw [hrows]
  · rw [h2.tdata]
    simp only
    cases htd : c.tdata with
    | none => simp [Curve.isparametric, htd]
    | some t => simp [Curve.isparametric, htd, Curve.t]

include hc hs in
theorem knotsOk_curve (ht : (c.t junk).Pairwise (· < ·)) : knotsOk (c.t junk) c.mat.m = true := by
  have hl := t_length hc (rows_ne_of_size hs) junk
  rw [knotsOk_iff]
  exact ⟨by omega, hl, ht⟩

include hc hs in
theorem row_at_knot (ht : (c.t junk).Pairwise (· < ·)) {q : PPoly} (hx : q.xs = c.t junk) (hy : q.y = c.mat) {i : Nat} {x : ℝ}
    (hi : (c.t junk)[i]? = some x) : c.rows[i]? = some (q.row x) := by
  have hl := t_length hc (rows_ne_of_size hs) junk
  have hi' : i < c.size := by rw [← hl]; exact (List.getElem?_eq_some_iff.1 hi).1
  have hk : knot q.xs i = x := by rw [hx]; exact knot_eq hi
  have hp : q.xs.Pairwise (· < ·) := by rw [hx]; exact ht
  have hlen : q.xs.length = c.size := by rw [hx]; exact hl
  have hi2 : i < c.rows.length := hi'
  rw [List.getElem?_eq_getElem hi2]
  congr 1
  have hr := hc.rect _ (List.getElem_mem hi2)
  apply List.ext_getElem
  · rw [hr, q.row_length, hy]; rfl
  · intro j h1 h2
    have hj : j < q.y.k := by rw [hy]; show j < c.ncols; omega
    have := q.row_getD hj x
    rw [List.getD_eq_getElem?_getD, List.getElem?_eq_getElem h2] at this
    simp only [Option.getD_some] at this
    rw [this, ← hk, PPoly.coord_knot hp (by omega) (by omega), hy]
    simp [Curve.mat, List.getD_eq_getElem?_getD, List.getElem?_eq_getElem hi2, List.getElem?_eq_getElem h1]

end

section
variable {c : Curve ℝ} (hc : WF c) (hs : 2 ≤ c.size) {junk : ℝ} (ht : (c.t junk).Pairwise (· < ·))
include hc hs ht

theorem hermite_cons (ex : Extrap) {kw : InterpKw} (hkw : pickHermite kw = some ex) :
    withKw pickHermite (hermiteCons junk) c kw = .ok (PPoly.impl ⟨c.t junk, c.mat, frenet1 c, ex⟩) := by
  unfold withKw hermiteCons cubicHermite
  rw [hkw, knotsOk_curve hc hs ht]
  rfl

theorem pchip_cons (ex : Extrap) {kw : InterpKw} (hkw : pickPchip kw = some ex) :
    withKw pickPchip (pchipCons junk) c kw = .ok (PPoly.impl ⟨c.t junk, c.mat, pchipSlopes (c.t junk) c.mat, ex⟩) := by
  unfold withKw pchipCons cubicHermite
  rw [hkw, knotsOk_curve hc hs ht]
  rfl

theorem akima_cons (lib : SplineLib) : withKw pickAkima (akimaCons lib junk) c .none =
    .ok (PPoly.impl ⟨c.t junk, c.mat, if c.size < 3 then lib.akima2 (c.t junk) c.mat else akimaSlopes (c.t junk) c.mat, .no⟩) := by
  simp only [withKw, pickAkima, akimaCons, cubicHermite]
  rw [knotsOk_curve hc hs ht]
  rfl

theorem cubic_cons (lib : SplineLib) {kw : InterpKw} {q : CubicParams} (hkw : pickCubic kw = some q) {d : NMat}
    (hd : lib.cubic q.bc (c.t junk) c.mat = .ok d) (he : q.ends = none := by rfl) : withKw pickCubic (cubicCons lib junk) c kw =
    .ok (PPoly.impl ⟨c.t junk, c.mat, d, q.ex.getD (if q.bc = "periodic" then .periodic else .yes)⟩) := by
  unfold withKw cubicCons cubicHermite
  rw [hkw]
  simp only [knotsOk_curve hc hs ht, he, hd, bind, Except.bind]
  rfl

theorem inRange_knots {q : PPoly} (hx : q.xs = c.t junk) {x : ℝ} (h : WithinEnds (c.t junk) x) :
    q.xs.headD 0 ≤ x ∧ x ≤ q.xs.getLastD 0 := by
  obtain ⟨h1, h2⟩ := t_ends hc (rows_ne_of_size hs) junk
  have a := h.1 _ h1
  have b := h.2 _ h2
  rw [hx]
  exact ⟨a, b⟩

theorem inRange_mem {i : Nat} {x : ℝ} (hi : (c.t junk)[i]? = some x) : WithinEnds (c.t junk) x := by
  have hl := t_length hc (rows_ne_of_size hs) junk
  have hi' := (List.getElem?_eq_some_iff.1 hi).1
  have hk := knot_eq hi
  constructor
  · intro a ha
    rw [List.head?_eq_getElem?] at ha
    rw [← knot_eq ha, ← hk]
    exact knot_le ht (by omega) hi'
  · intro b hb
    rw [List.getLast?_eq_getElem?] at hb
    rw [← knot_eq hb, ← hk]
    exact knot_le ht (by omega) (by omega)

/-- Evaluation with or without extrapolation. -/
theorem spline_eval (hd : c.dtype ≠ .int) {P : Type} {r : InterpReg P} {m : String} {cons : Curve ℝ → P → Except PyErr InterpImpl}
    (hr : getInterpClass r m = .ok (interpClass junk cons)) {p : P} {q : PPoly} (hq : cons c p = .ok q.impl)
    (hx : q.xs = c.t junk) (hy : q.y = c.mat) {dom : ℝ → Prop}
    (hex : q.ex = .yes ∨ q.ex = .no ∧ ∀ x, dom x → WithinEnds (c.t junk) x) :
    EvaluatesTo c (fun g => c.interpolate r g m p) dom q.row := by
  apply ppoly_eval hc hs hd hr hq (by rw [hy]; rfl)
  intro x hdom
  rcases hex with h | ⟨h, hin⟩
  · exact q.at_yes h x
  · have := inRange_knots hc hs ht hx (hin x hdom)
    exact q.at_in h this.1 this.2

/-- Reproduction by any such spline. -/
theorem spline_reproduce (hso : StepsOver (c.t junk)) (hd : c.dtype ≠ .int) {P : Type} {r : InterpReg P} {m : String}
    {cons : Curve ℝ → P → Except PyErr InterpImpl}
    (hr : getInterpClass r m = .ok (interpClass junk cons)) {p : P} {q : PPoly} (hq : cons c p = .ok q.impl)
    (hx : q.xs = c.t junk) (hy : q.y = c.mat) (hex : q.ex = .yes ∨ q.ex = .no) :
    ∃ R, c.interpolate r (.arr (.ok (GridArr.of (fins (c.t junk))))) m p = .ok R ∧ Represents R c := by
  have he := spline_eval hc hs ht hd hr hq hx hy (dom := WithinEnds (c.t junk)) (by
    rcases hex with h | h
    · exact .inl h
    · exact .inr ⟨h, fun x hx => hx⟩)
  refine reproduce_of_eval hc hs he hso ?_
  intro i x hi
  exact ⟨inRange_mem hc hs ht hi, row_at_knot hc hs ht hx hy hi⟩

end

/-! ## C83 -/

/-- **C83 (partial).** A curve with at least two points, parameter values more than `1e-8` apart and a dtype that is not an
integer one: interpolating at the parameter values themselves by `hermite`, `pchip`, `akima` or `cubic` (any boundary condition
for which scipy finds slopes) gives the curve back. Missing: integer dtypes (they truncate as in `C64_int_fails`), periodic
continuation (`C83_periodic_fails`). -/
theorem C83_reproduce_partial {c : Curve ℝ} (hc : WF c) (hs : 2 ≤ c.size) {junk : ℝ} (ht : StepsOver (c.t junk))
    (hd : c.dtype ≠ .int) (lib : SplineLib) {r : KwReg} {m : String} :
    (IsHermite junk r m → ∀ kw, kw = .none ∨ (∃ b, kw = ⟨[("extrapolate", .bool b)]⟩) →
      ∃ R, c.interpolate r (.arr (.ok (GridArr.of (fins (c.t junk))))) m kw = .ok R ∧ Represents R c) ∧
    (IsPchip junk r m → ∀ kw, kw = .none ∨ (∃ b, kw = ⟨[("extrapolate", .bool b)]⟩) →
      ∃ R, c.interpolate r (.arr (.ok (GridArr.of (fins (c.t junk))))) m kw = .ok R ∧ Represents R c) ∧
    (IsAkima lib junk r m →
      ∃ R, c.interpolate r (.arr (.ok (GridArr.of (fins (c.t junk))))) m .none = .ok R ∧ Represents R c) ∧
    (IsCubic lib junk r m → ∀ bc ex d, lib.cubic bc (c.t junk) c.mat = .ok d → (∃ b, ex = .bool b) ∨ ex = .none ∧ bc ≠ "periodic" →
      ∃ R, c.interpolate r (.arr (.ok (GridArr.of (fins (c.t junk))))) m ⟨[("bc_type", .str bc), ("extrapolate", ex)]⟩ = .ok R ∧
        Represents R c) := by
  have hlt := stepsOver_lt ht
  refine ⟨?_, ?_, ?_, ?_⟩
  · intro hr kw hkw
    rcases hkw with rfl | ⟨_ | _, rfl⟩
    · exact spline_reproduce hc hs hlt ht hd hr (hermite_cons hc hs hlt .yes rfl) rfl rfl (.inl rfl)
    · exact spline_reproduce hc hs hlt ht hd hr (hermite_cons hc hs hlt .no rfl) rfl rfl (.inr rfl)
    · exact spline_reproduce hc hs hlt ht hd hr (hermite_cons hc hs hlt .yes rfl) rfl rfl (.inl rfl)
  · intro hr kw hkw
    rcases hkw with rfl | ⟨_ | _, rfl⟩
    · exact spline_reproduce hc hs hlt ht hd hr (pchip_cons hc hs hlt .yes rfl) rfl rfl (.inl rfl)
    · exact spline_reproduce hc hs hlt ht hd hr (pchip_cons hc hs hlt .no rfl) rfl rfl (.inr rfl)
    · exact spline_reproduce hc hs hlt ht hd hr (pchip_cons hc hs hlt .yes rfl) rfl rfl (.inl rfl)
  · intro hr
    exact spline_reproduce hc hs hlt ht hd hr (akima_cons hc hs hlt lib) rfl rfl (.inr rfl)
  · intro hr bc ex d hlib hex
    rcases hex with ⟨_ | _, rfl⟩ | ⟨rfl, hb⟩
    · exact spline_reproduce hc hs hlt ht hd hr (cubic_cons hc hs hlt lib (q := ⟨bc, some .no, none⟩) rfl hlib) rfl rfl (.inr rfl)
    · exact spline_reproduce hc hs hlt ht hd hr (cubic_cons hc hs hlt lib (q := ⟨bc, some .yes, none⟩) rfl hlib) rfl rfl (.inl rfl)
    · exact spline_reproduce hc hs hlt ht hd hr (cubic_cons hc hs hlt lib (q := ⟨bc, none, none⟩) rfl hlib) rfl rfl (.inl (by simp [hb]))

/-! ## C84 -/

/-- **C84.** Hermite interpolation is evaluation of a curve that is differentiable at the points of the source, where its
derivative is the unit tangent vector of the source (the property `frenet1`). (Dtypes that are not integer ones.) -/
theorem C84_hermite_tangent {c : Curve ℝ} (hc : WF c) (hs : 2 ≤ c.size) {junk : ℝ} (ht : (c.t junk).Pairwise (· < ·))
    (hd : c.dtype ≠ .int) {r : KwReg} {m : String} (hr : IsHermite junk r m) :
    ∃ F rs, EvaluatesTo c (fun g => c.interpolate r g m .none) (fun _ => True) F ∧
      fresh junk c .frenet1 = .ok (.rows rs) ∧
      ∀ (i j : Nat) x, (c.t junk)[i]? = some x → j < c.ncols → HasDerivAt (fun y => coordOf j (F y)) (at2 rs i j) x := by
  refine ⟨_, (frenet1 c).rows, spline_eval hc hs ht hd hr (hermite_cons hc hs ht .yes rfl) rfl rfl (.inl rfl), rfl, ?_⟩
  intro i j x hi hj
  have hl := t_length hc (rows_ne_of_size hs) junk
  have hi' := (List.getElem?_eq_some_iff.1 hi).1
  have := PPoly.coord_hasDerivAt (p := ⟨c.t junk, c.mat, frenet1 c, .yes⟩) ht (by simp only; omega) hi' j
  simp only [knot_eq hi] at this
  have hk : (frenet1 c).k = c.ncols := by
    have := firstderiv_k hs
    simpa [frenet1, unitRows] using this
  have hm : (frenet1 c).m = c.size := by simpa [frenet1, unitRows] using (shapes_m c).1
  rw [at2_lt _ (by omega) (by omega)]
  have e : (fun y => coordOf j (PPoly.row ⟨c.t junk, c.mat, frenet1 c, .yes⟩ y)) =
      PPoly.coord ⟨c.t junk, c.mat, frenet1 c, .yes⟩ j := by
    funext y
    exact PPoly.row_getD _ hj y
  rw [e]
  exact this

/-! ## C85 -/

/-- **C85.** PCHIP interpolation is evaluation of a curve of which every coordinate is monotone between neighbouring parameter
values: non-decreasing where the coordinate of the source does not decrease, non-increasing where it does not increase. So it
does not leave the box spanned by the two neighbouring points. (Dtypes that are not integer ones.) -/
theorem C85_pchip_monotone {c : Curve ℝ} (hc : WF c) (hs : 2 ≤ c.size) {junk : ℝ} (ht : (c.t junk).Pairwise (· < ·))
    (hd : c.dtype ≠ .int) {r : KwReg} {m : String} (hr : IsPchip junk r m) :
    ∃ F, EvaluatesTo c (fun g => c.interpolate r g m .none) (fun _ => True) F ∧
      ∀ (i j : Nat) u v, (c.t junk)[i]? = some u → (c.t junk)[i + 1]? = some v → j < c.ncols →
        (at2 c.rows i j ≤ at2 c.rows (i + 1) j → MonotoneOn (fun y => coordOf j (F y)) (Set.Icc u v)) ∧
        (at2 c.rows (i + 1) j ≤ at2 c.rows i j → AntitoneOn (fun y => coordOf j (F y)) (Set.Icc u v)) ∧
        ∀ x ∈ Set.Icc u v, coordOf j (F x) ∈ Set.uIcc (at2 c.rows i j) (at2 c.rows (i + 1) j) := by
  refine ⟨_, spline_eval hc hs ht hd hr (pchip_cons hc hs ht .yes rfl) rfl rfl (.inl rfl), ?_⟩
  intro i j u v hu hv hj
  have hi' := (List.getElem?_eq_some_iff.1 hv).1
  obtain ⟨q, hq⟩ : ∃ q : PPoly, q = ⟨c.t junk, c.mat, pchipSlopes (c.t junk) c.mat, .yes⟩ := ⟨_, rfl⟩
  rw [← hq]
  have hx : q.xs = c.t junk := by rw [hq]
  have hy : q.y = c.mat := by rw [hq]
  have hp : q.xs.Pairwise (· < ·) := by rw [hx]; exact ht
  have hlen : i + 1 < q.xs.length := by rw [hx]; exact hi'
  have ku : knot q.xs i = u := by rw [hx]; exact knot_eq hu
  have kv : knot q.xs (i + 1) = v := by rw [hx]; exact knot_eq hv
  have huv : u < v := by rw [← ku, ← kv]; exact knot_lt hp (by omega) hlen
  have hF : ∀ x ∈ Set.Icc u v, coordOf j (q.row x) = q.cub i j x := by
    intro x hx'
    have hj' : j < q.y.k := by rw [hy]; exact hj
    have := q.row_getD hj' x
    unfold coordOf
    rw [this]
    exact PPoly.coord_on hp hlen j (.inr (by rw [ku]; exact hx'.1)) (.inr (by rw [kv]; exact hx'.2))
  have sl := pchipSlope_ok (n := q.xs.length) (x := fun i => q.xs.getD i 0) (fun i => q.y.v i j)
    (fun k hk => knot_lt hp (show k < k + 1 by omega) hk) hlen
  have ed : ∀ k, q.d.v k j = pchipSlope q.xs.length (fun i => q.xs.getD i 0) (fun i => q.y.v i j) k := by
    intro k; rw [hq]; rfl
  rw [← ed, ← ed] at sl
  have ey : ∀ k, q.y.v k j = at2 c.rows k j := by intro k; rw [hy]; rfl
  have hkn : knot q.xs i < knot q.xs (i + 1) := by rw [ku, kv]; exact huv
  have mono : at2 c.rows i j ≤ at2 c.rows (i + 1) j → MonotoneOn (fun y => coordOf j (q.row y)) (Set.Icc u v) := by
    intro hle
    have := hermR_monotoneOn hkn (y0 := q.y.v i j) (y1 := q.y.v (i + 1) j) (by rw [ey, ey]; exact hle) sl.1 sl.2
    rw [ku, kv] at this
    intro a ha b hb hab
    simp only
    rw [hF a ha, hF b hb]
    have h2 := this ha hb hab
    unfold PPoly.cub
    rw [ku, kv]; exact h2
  have anti : at2 c.rows (i + 1) j ≤ at2 c.rows i j → AntitoneOn (fun y => coordOf j (q.row y)) (Set.Icc u v) := by
    intro hle
    have := hermR_antitoneOn hkn (y0 := q.y.v i j) (y1 := q.y.v (i + 1) j) (by rw [ey, ey]; exact hle) sl.1 sl.2
    rw [ku, kv] at this
    intro a ha b hb hab
    simp only
    rw [hF a ha, hF b hb]
    have h2 := this ha hb hab
    unfold PPoly.cub
    rw [ku, kv]; exact h2
  refine ⟨mono, anti, ?_⟩
  intro x hx'
  have e0 : coordOf j (q.row u) = at2 c.rows i j := by
    rw [hF u ⟨le_refl _, huv.le⟩, ← ku, PPoly.cub_left hp, ey]
  have e1 : coordOf j (q.row v) = at2 c.rows (i + 1) j := by
    rw [hF v ⟨huv.le, le_refl _⟩, ← kv, PPoly.cub_right hp hlen, ey]
  rcases le_total (at2 c.rows i j) (at2 c.rows (i + 1) j) with h | h
  · rw [Set.uIcc_of_le h, ← e0, ← e1]
    exact ⟨mono h ⟨le_refl _, huv.le⟩ hx' hx'.1, mono h hx' ⟨huv.le, le_refl _⟩ hx'.2⟩
  · rw [Set.uIcc_of_ge h, ← e0, ← e1]
    exact ⟨anti h hx' ⟨huv.le, le_refl _⟩ hx'.2, anti h ⟨le_refl _, huv.le⟩ hx' hx'.1⟩

/-! ## C88 -/

/-- **C88.** `akima` does not extrapolate: at a grid value outside of the range of the parameter the point consists of NaNs; the
same holds for `hermite`, `pchip` and `cubic` with `extrapolate=False`. At values inside the range all coordinates are
finite. -/
theorem C88_outside {c : Curve ℝ} (hc : WF c) (hs : 2 ≤ c.size) {junk : ℝ} (ht : (c.t junk).Pairwise (· < ·))
    (hd : c.dtype ≠ .int) (lib : SplineLib) {r : KwReg} {m : String} {kw : InterpKw}
    (hm : IsAkima lib junk r m ∧ kw = .none ∨ (IsHermite junk r m ∨ IsPchip junk r m) ∧ kw = ⟨[("extrapolate", .bool false)]⟩ ∨
      IsCubic lib junk r m ∧ ∃ bc d, kw = ⟨[("bc_type", .str bc), ("extrapolate", .bool false)]⟩ ∧ lib.cubic bc (c.t junk) c.mat = .ok d)
    {xs : List ℝ} (hne : xs ≠ []) (hx : StepsOver xs) :
    ∃ R, c.interpolate r (.arr (.ok (GridArr.of (fins xs)))) m kw = .ok R ∧ R.size = xs.length ∧
      ∀ (i : Nat) x row, xs[i]? = some x → R.rows[i]? = some row →
        row.length = c.ncols ∧ (WithinEnds (c.t junk) x → ∀ v ∈ row, ∃ y, v = .fin y) ∧
        (¬ WithinEnds (c.t junk) x → ∀ v ∈ row, v = .nan) := by
  obtain ⟨cons, q, hr, hq, hxs, hy, hex⟩ : ∃ (cons : Curve ℝ → InterpKw → Except PyErr InterpImpl) (q : PPoly),
      getInterpClass r m = .ok (interpClass junk cons) ∧ cons c kw = .ok q.impl ∧ q.xs = c.t junk ∧ q.y = c.mat ∧ q.ex = .no := by
    rcases hm with ⟨h, rfl⟩ | ⟨h | h, rfl⟩ | ⟨h, bc, d, rfl, hl⟩
    · exact ⟨_, _, h, akima_cons hc hs ht lib, rfl, rfl, rfl⟩
    · exact ⟨_, _, h, hermite_cons hc hs ht .no rfl, rfl, rfl, rfl⟩
    · exact ⟨_, _, h, pchip_cons hc hs ht .no rfl, rfl, rfl, rfl⟩
    · exact ⟨_, _, h, cubic_cons hc hs ht lib (q := ⟨bc, some .no, none⟩) rfl hl, rfl, rfl, rfl⟩
  obtain ⟨w, hg⟩ := getGrid_fins junk c xs hne hx
  have hk : q.y.k = c.ncols := by rw [hy]; rfl
  have cases' : ∀ x : ℝ, (WithinEnds (c.t junk) x → q.at (.fin x) = fins (q.row x)) ∧
      (¬ WithinEnds (c.t junk) x → q.at (.fin x) = List.replicate q.y.k .nan) := by
    intro x
    constructor
    · intro h
      have := inRange_knots hc hs ht hxs h
      exact q.at_in hex this.1 this.2
    · intro h
      apply q.at_out hex
      by_contra hcon
      rw [not_or, not_lt, not_lt] at hcon
      obtain ⟨e1, e2⟩ := t_ends hc (rows_ne_of_size hs) junk
      rw [hxs] at hcon
      apply h
      constructor
      · intro a ha
        rw [ha] at e1; injection e1 with e1
        rw [e1]; exact hcon.1
      · intro b hb
        rw [hb] at e2; injection e2 with e2
        rw [e2]; exact hcon.2
  have hlen : ∀ x : ℝ, (q.at (.fin x)).length = c.ncols := by
    intro x
    by_cases h : WithinEnds (c.t junk) x
    · rw [(cases' x).1 h]; simp [fins, q.row_length, hk]
    · rw [(cases' x).2 h]; simp [hk]
  obtain ⟨R, h1, h2, h3⟩ := (C66_result_partial hr hs kw hq hg).2 ((fins xs).map q.at) c.ncols .float
    (by unfold PPoly.impl; rw [hk]) (by simp) hc.two_le (by
      intro row hrow
      obtain ⟨v, hv, rfl⟩ := List.mem_map.1 hrow
      obtain ⟨x, _, rfl⟩ := mem_fins_fin hv
      exact hlen x) hd
  refine ⟨R, h1, by rw [h3]; simp [fins], ?_⟩
  intro i x row hi hrow
  rw [h2] at hrow
  simp only [fins, List.map_map, List.getElem?_map, hi, Option.map_some, Function.comp, Option.some.injEq] at hrow
  subst hrow
  refine ⟨hlen x, ?_, ?_⟩
  · intro h v hv
    rw [(cases' x).1 h] at hv
    obtain ⟨y, _, rfl⟩ := mem_fins_fin hv
    exact ⟨y, rfl⟩
  · intro h v hv
    rw [(cases' x).2 h] at hv
    exact (List.mem_replicate.1 hv).2

end Verif.Props
