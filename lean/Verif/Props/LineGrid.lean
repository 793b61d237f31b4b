import Verif.Props.Univariate
import Verif.Props.SplineShape
import Verif.Props.Csaps2

/-!
C171: resampling points that lie in order on a straight line. What tests/test_interpolate.py checks for a few curves
(`test_uniform_interp_grid`, `test_interp`, `test_extrap_kind_point`, `test_extrap_kind_length`) for all of them.
-/
namespace Verif.Spec

open Verif Verif.Model

/-- The points of `c` lie in order on the line through `o` with the unit direction `u`, `s i` from `o`. -/
structure InLine (c : Curve ℝ) (o u s : Nat → ℝ) : Prop where
  unit : ∑ j ∈ Finset.range c.ncols, u j ^ 2 = 1
  order : ∀ i, i + 1 < c.size → s i < s (i + 1)
  point : ∀ i j, i < c.size → j < c.ncols → at2 c.rows i j = o j + s i * u j

/-- The differences of neighbouring values. -/
def gridSteps (xs : List ℝ) : List ℝ := List.zipWith (fun x y => y - x) xs xs.tail

end Verif.Spec

namespace Verif.Props

open Verif Verif.Np Verif.Model Verif.Spec

/-- Two functions that describe the same call agree. -/
theorem evaluatesTo_unique {c : Curve ℝ} {call : GridSpec → Except PyErr (Curve (Val ℝ))} {dom : ℝ → Prop} {F G : ℝ → List ℝ}
    (hF : EvaluatesTo c call dom F) (hG : EvaluatesTo c call dom G) {x : ℝ} (hx : dom x) : F x = G x := by
  have hst : StepsOver [x] := by
    intro i a b _ hb
    simp at hb
  obtain ⟨R, h1, h2⟩ := hF [x] (by simp) hst (by simpa using hx)
  obtain ⟨R', h1', h2'⟩ := hG [x] (by simp) hst (by simpa using hx)
  rw [h1] at h1'
  injection h1' with h1'
  have h := h2.rows
  rw [h1', h2'.rows] at h
  simp only [List.map_cons, List.map_nil, List.cons.injEq, and_true] at h
  rw [← map_real_fins (F x), ← map_real_fins (G x), h]

theorem evaluatesTo_congr {c : Curve ℝ} {call : GridSpec → Except PyErr (Curve (Val ℝ))} {dom : ℝ → Prop} {F G : ℝ → List ℝ}
    (hF : EvaluatesTo c call dom F) (h : ∀ x, dom x → F x = G x) : EvaluatesTo c call dom G := by
  intro xs hne hx hdom
  obtain ⟨R, h1, h2⟩ := hF xs hne hx hdom
  refine ⟨R, h1, ?_⟩
  rwa [List.map_congr_left fun x hx' => h x (hdom x hx')] at h2

/-- The slopes of a line solve the not-a-knot system. -/
theorem knot_line {n : Nat} {x y : Nat → ℝ} {o v : ℝ} (hx : ∀ i, i + 1 < n → x i < x (i + 1)) (hy : ∀ i, i < n → y i = o + x i * v) :
    KnotSystem n x y fun _ => v := by
  have hq : ∀ i, i + 1 < n → (y (i + 1) - y i) / (x (i + 1) - x i) = v := by
    intro i hi
    have : x (i + 1) - x i ≠ 0 := by linarith [hx i hi]
    rw [hy i (by omega), hy (i + 1) hi]
    field_simp
    ring
  refine ⟨fun h => ?_, fun h => ?_, ?_, fun h => ?_, fun h => ?_⟩
  · have := hq 0 (by omega); simp only [zero_add] at this; rw [this]; exact ⟨rfl, rfl⟩
  · have h0 := hq 0 (by omega); have h1 := hq 1 (by omega)
    simp only [zero_add, Nat.reduceAdd] at h0 h1; rw [h0, h1]; constructor <;> ring
  · intro k hk
    rw [hq k (by omega), hq (k + 1) hk]; ring
  · have h0 := hq 0 (by omega); have h1 := hq 1 (by omega)
    simp only [zero_add, Nat.reduceAdd] at h0 h1; rw [h0, h1]
    have a := hx 0 (by omega); have b := hx 1 (by omega)
    have : x 2 - x 0 ≠ 0 := by simp only [zero_add, Nat.reduceAdd] at a b; linarith
    field_simp
    ring
  · obtain ⟨k, rfl⟩ : ∃ k, n = k + 3 := ⟨n - 3, by omega⟩
    have h0 := hq k (by omega); have h1 := hq (k + 1) (by omega)
    have a := hx k (by omega); have b := hx (k + 1) (by omega)
    simp only [Nat.add_sub_cancel, show k + 3 - 1 = k + 1 + 1 by omega, show k + 3 - 2 = k + 1 by omega]
    rw [h0, h1]
    have : x (k + 1 + 1) - x k ≠ 0 := by linarith
    field_simp
    ring

section
variable {c : Curve ℝ} (hc : WF c) (hs : 2 ≤ c.size) {junk : ℝ} (ht : (c.t junk).Pairwise (· < ·)) (hd : c.dtype ≠ .int)
include hc hs ht hd

/-- **C171 (linear).** Linear interpolation of points that lie on a line at places proportional to the parameter gives the
points of that line, beyond the ends too. -/
theorem C171_linear {o v : Nat → ℝ} (hline : AlongLine c (c.t junk) o v) {r : InterpReg Bool} {m : String} (hr : IsLinear junk r m) :
    EvaluatesTo c (fun g => c.interpolate r g m true) (fun _ => True) (linePt c.ncols o v) := by
  have hrow : rowAt ((c.t junk).zip c.rows) = linePt c.ncols o v := by
    funext z
    obtain ⟨i, a, b, p, q, e1, e2, e3, e4, e5, e6⟩ := exists_pair hc hs ht z
    rw [rowAt_pair hc hs ht z i a b p q e1 e2 e3 e4 e5 e6]
    have l1 := hc.rect p (List.mem_of_getElem? e3)
    have l2 := hc.rect q (List.mem_of_getElem? e4)
    have hab : a < b := by
      obtain ⟨p1, f1⟩ := List.getElem?_eq_some_iff.1 e1
      obtain ⟨p2, f2⟩ := List.getElem?_eq_some_iff.1 e2
      rw [← f1, ← f2]
      exact List.pairwise_iff_getElem.1 ht _ _ p1 p2 (by omega)
    apply List.ext_getElem
    · rw [mix_length (by rw [l1, l2]), l1]; simp [linePt]
    · intro j hj hj'
      have hj2 : j < c.ncols := by simpa [linePt] using hj'
      simp only [linePt, List.getElem_map, List.getElem_range, mix, List.getElem_zipWith]
      have a1 := hline i a j e1 hj2
      have a2 := hline (i + 1) b j e2 hj2
      simp only [at2, e3, e4, List.getD_eq_getElem?_getD, Option.getD_some, List.getElem?_eq_getElem (show j < p.length by omega),
        List.getElem?_eq_getElem (show j < q.length by omega)] at a1 a2
      rw [a1, a2]
      have : b - a ≠ 0 := by linarith
      field_simp
      ring
  intro xs hne hx _
  obtain ⟨w', hg⟩ := getGrid_fins junk c xs hne hx
  obtain ⟨ha, hb⟩ := t_ends hc (rows_ne_of_size hs) junk
  rw [← hrow]
  exact linear_repr hc hs ht hd hr true hne hg ha hb (.inl rfl)

/-- **C171 (cubic, not-a-knot).** The same for `cubic` with `bc_type='not-a-knot'`. -/
theorem C171_not_a_knot {o v : Nat → ℝ} (hline : AlongLine c (c.t junk) o v) {lib : SplineLib} (hlib : BoundaryOk lib) {r : KwReg}
    {m : String} (hr : IsCubic lib junk r m) :
    EvaluatesTo c (fun g => c.interpolate r g m ⟨[("bc_type", .str "not-a-knot")]⟩) (fun _ => True) (linePt c.ncols o v) := by
  have hl := t_length hc (rows_ne_of_size hs) junk
  obtain ⟨d, hsol, hsys⟩ := hlib.knot (c.t junk) c.mat (knotsOk_curve hc hs ht)
  have hd' : ∀ i j, i < c.size → j < c.ncols → d.v i j = v j := by
    intro i j hi hj
    obtain ⟨h1, h2⟩ := line_vals hc hs ht hline hj
    exact (knot_unique (by omega) (fun i hi => knot_lt ht (by omega) hi) (hsys j hj)
      (knot_line (n := (c.t junk).length) (x := knot (c.t junk)) (o := o j) (v := v j) (fun i hi => h1 i (by omega))
        fun i hi => h2 i (by omega)) i (by omega))
  rw [← row_line hc hs ht hline (q := ⟨c.t junk, c.mat, d, .yes⟩) rfl rfl hd']
  exact spline_eval hc hs ht hd hr (q := ⟨c.t junk, c.mat, d, .yes⟩) (p := ⟨[("bc_type", .str "not-a-knot")]⟩)
    (cubic_bc hc hs ht lib hsol) rfl rfl (.inl rfl)

/-- **C171 (spline).** The same for `spline` without smoothing: degree 1, and degree 3 (the default) for four points or more. -/
theorem C171_spline {o v : Nat → ℝ} (hline : AlongLine c (c.t junk) o v) {lib : SplineLib} (hlib : UnivariateOk lib) {r : KwReg}
    {m : String} (hr : IsSpline lib junk r m) {kw : InterpKw}
    (hkw : SplineArgs kw c.size 1 .extrapolate ∨ 4 ≤ c.size ∧ SplineArgs kw c.size 3 .extrapolate) :
    EvaluatesTo c (fun g => c.interpolate r g m kw) (fun _ => True) (linePt c.ncols o v) := by
  rcases hkw with hkw | ⟨h4, hkw⟩
  · obtain ⟨F, hF, hlin⟩ := C129_linear hc hs hd hr ht hlib hkw
    exact evaluatesTo_congr hF.2 fun x hx =>
      evaluatesTo_unique (hlin _ _ (isLinear_linearReg junk)) (C171_linear hc hs ht hd hline (isLinear_linearReg junk)) hx
  · obtain ⟨F, hF, _, hcub⟩ := C129_cubic hc hs hd hr ht h4 hlib hkw
    obtain ⟨lib', _, hlib'⟩ := exists_boundaryOk
    obtain ⟨r', m', hr'⟩ : ∃ r' m', IsCubic lib' junk r' m' :=
      ⟨(registerInterp Reg.empty "cubic" ⟨interpClass junk (withKw pickCubic (cubicCons lib' junk)), true⟩).1, "cubic", by
        unfold IsCubic
        simp [registerInterp, Reg.has, Reg.empty, Reg.setItem, getInterpClass, Reg.item]⟩
    exact evaluatesTo_congr hF.2 fun x hx =>
      evaluatesTo_unique (hcub lib' r' m' hlib' hr') (C171_not_a_knot hc hs ht hd hline hlib' hr') hx

end

/-- A grid specification acts through the array it stands for. -/
theorem interpolate_of_spec {P : Type} {r : InterpReg P} {m : String} {junk : ℝ} {cons : Curve ℝ → P → Except PyErr InterpImpl}
    (hr : getInterpClass r m = .ok (interpClass junk cons)) (c : Curve ℝ) (p : P) {spec : GridSpec} {g : GridArr}
    (hg : gridOfSpec junk c spec = .ok g) : c.interpolate r spec m p = c.interpolate r (.arr (.ok g)) m p := by
  have h : getGrid junk c spec = getGrid junk c (.arr (.ok g)) := by
    unfold getGrid
    rw [hg]
    rfl
  rw [interpolate_eq hr, interpolate_eq hr]
  unfold interpClass
  cases cons c p with
  | error e => rfl
  | ok impl =>
    show interpolatorCall junk c impl spec = interpolatorCall junk c impl (.arr (.ok g))
    unfold interpolatorCall
    rw [h]

theorem chord_linePt {n : Nat} {o u : Nat → ℝ} (hu : ∑ j ∈ Finset.range n, u j ^ 2 = 1) (x y : ℝ) :
    chord (linePt n o u x) (linePt n o u y) = |y - x| := by
  unfold chord linePt
  rw [List.zipWith_map]
  have e : (List.zipWith (fun a b => (o b + y * u b - (o a + x * u a)) ^ 2) (List.range n) (List.range n)).sum = (y - x) ^ 2 := by
    rw [List.zipWith_self]
    have : (fun a => (o a + y * u a - (o a + x * u a)) ^ 2) = fun a => (y - x) ^ 2 * u a ^ 2 := by funext a; ring
    have sr : ∀ (f : Nat → ℝ) (k : Nat), ((List.range k).map f).sum = ∑ j ∈ Finset.range k, f j := by
      intro f k
      induction k with
      | zero => rfl
      | succ k ih => rw [List.range_succ, List.map_append, List.sum_append, ih, Finset.sum_range_succ]; simp
    rw [this, sr, ← Finset.mul_sum, hu, mul_one]
  rw [e, Real.sqrt_sq_eq_abs]

theorem chords_linePt {n : Nat} {o u : Nat → ℝ} (hu : ∑ j ∈ Finset.range n, u j ^ 2 = 1) (xs : List ℝ) (hx : StepsOver xs) :
    chords (xs.map (linePt n o u)) = gridSteps xs := by
  unfold chords gridSteps
  rw [← List.map_tail, List.zipWith_map]
  apply List.ext_getElem
  · simp
  · intro i h1 h2
    simp only [List.getElem_zipWith, List.getElem_tail]
    rw [chord_linePt hu, abs_of_pos]
    simp only [List.length_zipWith, List.length_tail] at h1
    have := hx i _ _ (List.getElem?_eq_getElem (by omega)) (List.getElem?_eq_getElem (by omega))
    have h0 : (0 : ℝ) < 1 / 10 ^ 8 := by norm_num
    linarith

theorem steps_sum : ∀ (xs : List ℝ) (a b : ℝ), xs.head? = some a → xs.getLast? = some b → (gridSteps xs).sum = b - a
  | [], a, b, h, _ => by simp at h
  | [x], a, b, h, h' => by
    simp at h h'
    subst h; subst h'
    simp [gridSteps]
  | x :: y :: l, a, b, h, h' => by
    have := steps_sum (y :: l) y b rfl (by simpa using h')
    simp only [List.head?_cons, Option.some.injEq] at h
    subst h
    unfold gridSteps at this ⊢
    simp only [List.tail_cons, List.zipWith_cons_cons, List.sum_cons] at this ⊢
    rw [this]; ring

theorem steps_const {h : ℝ} {xs : List ℝ} (hx : ConstStep h xs) : gridSteps xs = List.replicate (xs.length - 1) h := by
  apply List.ext_getElem
  · simp [gridSteps]
  · intro i h1 h2
    simp only [gridSteps, List.length_zipWith, List.length_tail] at h1
    simp only [gridSteps, List.getElem_zipWith, List.getElem_tail, List.getElem_replicate]
    exact hx i _ _ (List.getElem?_eq_getElem (by omega)) (List.getElem?_eq_getElem (by omega))

/-- **C171 (spacing).** If a call gives the points of a line with unit direction, then on every grid the chord lengths of the
result are the steps of the grid and its arc length is the last grid value minus the first. -/
theorem C171_spacing {c : Curve ℝ} {o u : Nat → ℝ} (hu : ∑ j ∈ Finset.range c.ncols, u j ^ 2 = 1) {P : Type} {r : InterpReg P}
    {m : String} {junk : ℝ} {cons : Curve ℝ → P → Except PyErr InterpImpl} (hr : getInterpClass r m = .ok (interpClass junk cons))
    {p : P} {dom : ℝ → Prop} (hev : EvaluatesTo c (fun g => c.interpolate r g m p) dom (linePt c.ncols o u)) {spec : GridSpec}
    {xs : List ℝ} (hg : gridOfSpec junk c spec = .ok (GridArr.of (fins xs))) (hne : xs ≠ []) (hx : StepsOver xs)
    (hdom : ∀ x ∈ xs, dom x) (junk' : ℝ) :
    ∃ R c', c.interpolate r spec m p = .ok R ∧ Represents R c' ∧ c'.rows = xs.map (linePt c.ncols o u) ∧
      chordlen junk' c' = .vec (gridSteps xs) ∧
      ∀ a b, xs.head? = some a → xs.getLast? = some b → arclen junk' c' = b - a := by
  obtain ⟨R, h1, h2⟩ := hev xs hne hx hdom
  have hch : chordlen junk' (⟨xs.map (linePt c.ncols o u), c.ncols, if c.isparametric then some xs else none, c.dtype⟩ : Curve ℝ) =
      .vec (gridSteps xs) := by
    rw [chordlen_vec (by simpa using hne), chords_linePt hu xs hx]
  refine ⟨R, _, by rw [interpolate_of_spec hr c p hg]; exact h1, h2, rfl, hch, ?_⟩
  intro a b ha hb
  unfold arclen
  rw [hch]
  exact steps_sum xs a b ha hb

theorem constStep_last {h : ℝ} : ∀ {xs : List ℝ}, ConstStep h xs → ∀ a b, xs.head? = some a → xs.getLast? = some b →
    b - a = ((xs.length - 1 : Nat) : ℝ) * h := by
  intro xs hx a b ha hb
  rw [← steps_sum xs a b ha hb, steps_const hx]
  simp

section
variable {c : Curve ℝ} (hc : WF c) (hs : 2 ≤ c.size) {junk : ℝ} (hp : c.tdata = none) {o u s : Nat → ℝ} (hl : InLine c o u s)
  {P : Type} {r : InterpReg P} {m : String} {cons : Curve ℝ → P → Except PyErr InterpImpl}
  (hr : getInterpClass r m = .ok (interpClass junk cons)) {p : P} {dom : ℝ → Prop}
  (hev : EvaluatesTo c (fun g => c.interpolate r g m p) dom (linePt c.ncols (fun j => o j + s 0 * u j) u))
include hc hs hp hl

/-- The parameter of points in order on a line runs from 0 to the distance of the end points. -/
theorem inLine_ends : (c.t junk).head? = some 0 ∧ (c.t junk).getLast? = some (s (c.size - 1) - s 0) ∧ 0 < s (c.size - 1) - s 0 ∧
    ∀ junk', arclen junk' c = s (c.size - 1) - s 0 := by
  obtain ⟨k, ht, _⟩ := onLine_arclen hc hs junk hp hl.unit hl.order hl.point
  have hlen := t_length hc (rows_ne_of_size hs) junk
  have h0 := k 0 (by omega)
  have h1 := k (c.size - 1) (by omega)
  have hlt : 0 < s (c.size - 1) - s 0 := by
    obtain ⟨p1, f1⟩ := List.getElem?_eq_some_iff.1 h0
    obtain ⟨p2, f2⟩ := List.getElem?_eq_some_iff.1 h1
    have := List.pairwise_iff_getElem.1 ht _ _ p1 p2 (by omega)
    rw [f1, f2] at this
    linarith
  refine ⟨by rw [List.head?_eq_getElem?, h0]; simp, by rw [List.getLast?_eq_getElem?, hlen, h1], hlt, ?_⟩
  intro junk'
  have hL : arclen junk' c = pathLen c.ncols c.rows := arclen_eq hc.rect (rows_ne_of_size hs) junk'
  obtain ⟨_, _, a, b, _, _, _, ha, hb, hab, _⟩ := C60_length_partial hc hs junk (p := .int 1) (f := 1) (.inr ⟨1, rfl, by simp⟩) one_pos
  rw [hL, ← (hab (by simp [Curve.isparametric, hp])).2]
  rw [List.getLast?_eq_getElem?, hlen, h1] at hb
  injection hb with hb
  exact hb.symm

include hr hev

omit hc hs hp in
/-- A grid of constant step. -/
theorem line_const {spec : GridSpec} {xs : List ℝ} {h : ℝ} (hg : gridOfSpec junk c spec = .ok (GridArr.of (fins xs)))
    (hne : xs ≠ []) (hx : ConstStep h xs) (hh : 1 / 10 ^ 8 < h) (hdom : ∀ x ∈ xs, dom x) (junk' : ℝ) :
    ∃ R c', c.interpolate r spec m p = .ok R ∧ Represents R c' ∧ c'.size = xs.length ∧
      c'.rows = xs.map (linePt c.ncols (fun j => o j + s 0 * u j) u) ∧
      chordlen junk' c' = .vec (List.replicate (xs.length - 1) h) ∧ arclen junk' c' = ((xs.length - 1 : Nat) : ℝ) * h := by
  obtain ⟨R, c', h1, h2, h3, h4, h5⟩ := C171_spacing hl.unit hr hev hg hne
    (fun i x y hx' hy => by rw [hx i x y hx' hy]; exact hh) hdom junk'
  rw [steps_const hx] at h4
  refine ⟨R, c', h1, h2, by simp [Curve.size, h3], h3, h4, ?_⟩
  unfold arclen
  rw [h4]
  simp [NArr.sum]

/-- **C171 (uniform grids).** Any grid of `n ≥ 2` evenly spaced values over the whole curve: the result has `n` points at equal
distances, the length of the curve, and its first and its last point. -/
theorem C171_uniform {spec : GridSpec} {xs : List ℝ} {n : Nat} (hn : 2 ≤ n)
    (hg : gridOfSpec junk c spec = .ok (GridArr.of (fins xs))) (hx : EvenlySpaced xs n 0 (s (c.size - 1) - s 0))
    (hh : 1 / 10 ^ 8 < (s (c.size - 1) - s 0) / ((n : ℝ) - 1)) (hdom : ∀ x, 0 ≤ x → x ≤ s (c.size - 1) - s 0 → dom x) (junk' : ℝ) :
    ∃ R c', c.interpolate r spec m p = .ok R ∧ Represents R c' ∧ c'.size = n ∧
      chordlen junk' c' = .vec (List.replicate (n - 1) ((s (c.size - 1) - s 0) / ((n : ℝ) - 1))) ∧
      arclen junk' c' = arclen junk' c ∧ c'.rows.head? = c.rows.head? ∧ c'.rows.getLast? = c.rows.getLast? := by
  obtain ⟨_, _, hpos, hL⟩ := inLine_ends hc hs (junk := junk) hp hl
  obtain ⟨h, hstep⟩ := hx.step
  have hn1 : (0 : ℝ) < (n : ℝ) - 1 := by
    have : (2 : ℝ) ≤ n := by exact_mod_cast hn
    linarith
  have hlast := constStep_last hstep _ _ hx.first hx.last
  rw [hx.count, Nat.cast_sub (by omega), Nat.cast_one, sub_zero] at hlast
  have heq : h = (s (c.size - 1) - s 0) / ((n : ℝ) - 1) := by rw [hlast]; field_simp
  rw [← heq] at hh ⊢
  have hne : xs ≠ [] := by
    intro e
    have := hx.count
    rw [e] at this
    simp at this; omega
  have hpos' : 0 < h := lt_trans (by norm_num) hh
  have hpw : xs.Pairwise (· < ·) := pairwise_of_steps fun i x y h1 h2 => by have := hstep i x y h1 h2; linarith
  have hin : ∀ x ∈ xs, 0 ≤ x ∧ x ≤ s (c.size - 1) - s 0 := by
    intro x hx'
    obtain ⟨i, hi, rfl⟩ := List.mem_iff_getElem.1 hx'
    have f1 := hx.first
    have f2 := hx.last
    rw [List.head?_eq_getElem?] at f1
    rw [List.getLast?_eq_getElem?] at f2
    obtain ⟨q1, g1⟩ := List.getElem?_eq_some_iff.1 f1
    obtain ⟨q2, g2⟩ := List.getElem?_eq_some_iff.1 f2
    rw [List.pairwise_iff_getElem] at hpw
    constructor
    · rcases Nat.eq_zero_or_pos i with rfl | h0
      · exact g1.ge
      · have := hpw 0 i q1 hi h0; rw [g1] at this; exact this.le
    · rcases (show i ≤ xs.length - 1 by omega).eq_or_lt with rfl | h0
      · exact g2.le
      · have := hpw i _ hi q2 h0; rw [g2] at this; exact this.le
  obtain ⟨R, c', h1, h2, h3, h4, h5, h6⟩ := line_const hl hr hev hg hne hstep hh (fun x hx' => hdom x (hin x hx').1 (hin x hx').2) junk'
  rw [hx.count] at h3 h5 h6
  refine ⟨R, c', h1, h2, h3, h5, ?_, ?_, ?_⟩
  · rw [h6, hL junk', hlast, Nat.cast_sub (by omega), Nat.cast_one]
  · have hc0 : 0 < c.rows.length := by unfold Curve.size at hs; omega
    rw [h4, List.head?_map, hx.first, List.head?_eq_getElem?, List.getElem?_eq_getElem hc0]
    simp only [Option.map_some, Option.some.injEq]
    apply List.ext_getElem
    · rw [hc.rect _ (List.getElem_mem hc0)]; simp [linePt]
    · intro j j1 j2
      have := hl.point 0 j (by omega) (by rw [hc.rect _ (List.getElem_mem hc0)] at j2; exact j2)
      simp only [at2, List.getD_eq_getElem?_getD, List.getElem?_eq_getElem hc0, Option.getD_some, List.getElem?_eq_getElem j2] at this
      rw [this]
      simp [linePt]
  · have hc0 : c.rows.length - 1 < c.rows.length := by unfold Curve.size at hs; omega
    rw [h4, List.getLast?_map, hx.last, List.getLast?_eq_getElem?, List.getElem?_eq_getElem hc0]
    simp only [Option.map_some, Option.some.injEq]
    apply List.ext_getElem
    · rw [hc.rect _ (List.getElem_mem hc0)]; simp [linePt]
    · intro j j1 j2
      have := hl.point (c.size - 1) j (by omega) (by rw [hc.rect _ (List.getElem_mem hc0)] at j2; exact j2)
      unfold Curve.size at this
      simp only [at2, List.getD_eq_getElem?_getD, List.getElem?_eq_getElem hc0, Option.getD_some, List.getElem?_eq_getElem j2] at this
      rw [this]
      simp only [linePt, List.getElem_map, List.getElem_range]
      unfold Curve.size
      ring

/-- **C171 (n points).** `n ≥ 2` points, given as an int or as a grid object of kind `point`: `n` points at equal distances. -/
theorem C171_points {n : Nat} (hn : 2 ≤ n) (hh : 1 / 10 ^ 8 < (s (c.size - 1) - s 0) / ((n : ℝ) - 1))
    (hdom : ∀ x, 0 ≤ x → x ≤ s (c.size - 1) - s 0 → dom x) (junk' : ℝ) :
    ∃ g, UniformGrid.init (.int n) "point" = .ok g ∧ ∀ spec, spec = .int n ∨ spec = .obj (fun c => (g.call junk c).map GridArr.of) →
      ∃ R c', c.interpolate r spec m p = .ok R ∧ Represents R c' ∧ c'.size = n ∧
        chordlen junk' c' = .vec (List.replicate (n - 1) ((s (c.size - 1) - s 0) / ((n : ℝ) - 1))) ∧
        arclen junk' c' = arclen junk' c ∧ c'.rows.head? = c.rows.head? ∧ c'.rows.getLast? = c.rows.getLast? := by
  obtain ⟨ha, hb, _, _⟩ := inLine_ends hc hs (junk := junk) hp hl
  obtain ⟨g, xs, a, b, h1, h2, h3, h4, h5, _⟩ := C59_uniform hc hs junk n hn
  rw [ha] at h3; injection h3 with h3
  rw [hb] at h4; injection h4 with h4
  rw [← h3, ← h4] at h5
  refine ⟨g, h1, fun spec hspec => C171_uniform hc hs hp hl hr hev hn ?_ h5 hh hdom junk'⟩
  rcases hspec with rfl | rfl
  · simp only [gridOfSpec, h1, h2, bind, Except.bind, pure, Except.pure]
  · simp only [gridOfSpec, h2, Except.map]

/-- **C171 (chord length).** A grid of kind `length` for the chord length `f`: the curve of length `L` is divided into `k` equal
chords, `k` the integer nearest to `L / f`, provided `k ≥ 1`; so every chord differs from `f` by at most `f / (2 k)`. -/
theorem C171_fill {q : PyNum} {f : ℝ} (hq : IsFill q f) (hf : 0 < f) (hdom : ∀ x, 0 ≤ x → x ≤ s (c.size - 1) - s 0 → dom x) (junk' : ℝ) :
    ∃ (g : UniformGrid) (k : Nat), UniformGrid.init q "length" = .ok g ∧ |(k : ℝ) - (s (c.size - 1) - s 0) / f| ≤ 1 / 2 ∧
      (1 ≤ k → 1 / 10 ^ 8 < (s (c.size - 1) - s 0) / k →
        ∃ R c', c.interpolate r (.obj fun c => (g.call junk c).map GridArr.of) m p = .ok R ∧ Represents R c' ∧ c'.size = k + 1 ∧
          chordlen junk' c' = .vec (List.replicate k ((s (c.size - 1) - s 0) / k)) ∧
          |(s (c.size - 1) - s 0) / k - f| ≤ f / (2 * k) ∧ arclen junk' c' = arclen junk' c ∧
          c'.rows.head? = c.rows.head? ∧ c'.rows.getLast? = c.rows.getLast?) := by
  obtain ⟨ha, hb, _, hL⟩ := inLine_ends hc hs (junk := junk) hp hl
  obtain ⟨g, k, a, b, h1, h2, _, h3, h4, _, h5⟩ := C60_length_partial hc hs junk hq hf
  rw [← arclen_eq hc.rect (rows_ne_of_size hs) junk, hL junk] at h2
  rw [ha] at h3; injection h3 with h3
  rw [hb] at h4; injection h4 with h4
  refine ⟨g, k, h1, h2, fun hk hh => ?_⟩
  obtain ⟨xs, h6, h7⟩ := h5 hk
  rw [← h3, ← h4] at h7
  have e : ((k + 1 : Nat) : ℝ) - 1 = k := by push_cast; ring
  obtain ⟨R, c', i1, i2, i3, i4, i5, i6, i7⟩ := C171_uniform hc hs hp hl hr hev (n := k + 1) (by omega)
    (spec := .obj fun c => (g.call junk c).map GridArr.of) (by simp only [gridOfSpec, h6, Except.map]) h7 (by rw [e]; exact hh) hdom junk'
  rw [e, Nat.add_sub_cancel] at i4
  refine ⟨R, c', i1, i2, i3, i4, ?_, i5, i6, i7⟩
  have hk0 : (0 : ℝ) < k := by exact_mod_cast hk
  have e2 : (s (c.size - 1) - s 0) / k - f = -(((k : ℝ) - (s (c.size - 1) - s 0) / f) * (f / k)) := by field_simp; ring
  rw [e2, abs_neg, abs_mul, abs_of_pos (div_pos hf hk0)]
  calc _ ≤ 1 / 2 * (f / k) := mul_le_mul_of_nonneg_right h2 (div_pos hf hk0).le
    _ = f / (2 * k) := by field_simp

/-- **C171 (extrapolation by points).** Over a grid of `n ≥ 2` evenly spaced values over the whole curve, with step `h`, `b` points
before and `a` points after it: `n + b + a` points at equal distances `h`, and the length of the curve grows by `(b + a) h`. -/
theorem C171_extrapolate {G : GridFn} {xs : List ℝ} {n : Nat} {h : ℝ} (hn : 2 ≤ n) (hG : G c = .ok (fins xs))
    (hx : EvenlySpaced xs n 0 (s (c.size - 1) - s 0)) (hst : ConstStep h xs) (hh : 1 / 10 ^ 8 < h) (hdom : ∀ x, dom x) (b a : Nat)
    (junk' : ℝ) :
    ∃ E, ExtrapGrid.init G (.int b) (.int a) "point" = .ok E ∧
      ∃ R c', c.interpolate r (.obj fun c => (E.call c).map GridArr.of) m p = .ok R ∧ Represents R c' ∧ c'.size = n + b + a ∧
        chordlen junk' c' = .vec (List.replicate (n + b + a - 1) h) ∧ arclen junk' c' = arclen junk' c + (b + a) * h := by
  obtain ⟨_, _, _, hL⟩ := inLine_ends hc hs (junk := junk) hp hl
  have hlast := constStep_last hst _ _ hx.first hx.last
  have hcount := hx.count
  rw [hcount, sub_zero] at hlast
  obtain ⟨x, ys, rfl⟩ : ∃ x ys, xs = x :: ys := by
    cases xs with
    | nil => simp at hcount; omega
    | cons x ys => exact ⟨x, ys, rfl⟩
  have hne : ys ≠ [] := by
    rintro rfl
    simp at hcount; omega
  obtain ⟨E, bs, as, h1, h2, h3, h4, h5, _⟩ := C61_extrapolate_partial G c x ys hG hne b a
  have hlen : (bs ++ (x :: ys) ++ as).length = n + b + a := by
    rw [List.length_append, List.length_append, h3, h4, hcount]; omega
  obtain ⟨R, c', i1, i2, i3, _, i4, i5⟩ := line_const hl hr hev (spec := .obj fun c => (E.call c).map GridArr.of)
    (by simp only [gridOfSpec, h2, Except.map]) (by simp) (h5 h hst) hh (fun x _ => hdom x) junk'
  rw [hlen] at i3 i4 i5
  refine ⟨E, h1, R, c', i1, i2, i3, i4, ?_⟩
  rw [i5, hL junk', hlast, show n + b + a - 1 = (n - 1) + b + a by omega]
  push_cast
  ring

/-- **C171 (extrapolation by length).** The same with lengths `v` before and `w` after: the length of the curve grows by `v + w` up to
the step `h`, and by exactly `v + w` if both are multiples of `h`. -/
theorem C171_extrapolate_length {G : GridFn} {xs : List ℝ} {n : Nat} {h : ℝ} (hn : 2 ≤ n) (hG : G c = .ok (fins xs))
    (hx : EvenlySpaced xs n 0 (s (c.size - 1) - s 0)) (hst : ConstStep h xs) (hh : 1 / 10 ^ 8 < h) (hdom : ∀ x, dom x)
    {q q' : PyNum} {v w : ℝ} (hv : IsFill q v) (hw : IsFill q' w) (hv0 : 0 ≤ v) (hw0 : 0 ≤ w) (junk' : ℝ) :
    ∃ E, ExtrapGrid.init G q q' "length" = .ok E ∧
      ∃ R c' k, c.interpolate r (.obj fun c => (E.call c).map GridArr.of) m p = .ok R ∧ Represents R c' ∧ c'.size = n + k ∧
        chordlen junk' c' = .vec (List.replicate (n + k - 1) h) ∧ |arclen junk' c' - (arclen junk' c + v + w)| ≤ h ∧
        ((∃ i : Nat, v = i * h) → (∃ j : Nat, w = j * h) → arclen junk' c' = arclen junk' c + v + w) := by
  obtain ⟨_, _, _, hL⟩ := inLine_ends hc hs (junk := junk) hp hl
  have hlast := constStep_last hst _ _ hx.first hx.last
  have hcount := hx.count
  rw [hcount, sub_zero] at hlast
  obtain ⟨x, ys, rfl⟩ : ∃ x ys, xs = x :: ys := by
    cases xs with
    | nil => simp at hcount; omega
    | cons x ys => exact ⟨x, ys, rfl⟩
  have hne : ys ≠ [] := by
    rintro rfl
    simp at hcount; omega
  have hpos : 0 < h := lt_trans (by norm_num) hh
  obtain ⟨E, bs, as, h1, h2, h3, h4, h5, _⟩ := C61_length G c x ys hG hne hpos hst hv hw hv0 hw0
  have hlen : (bs ++ (x :: ys) ++ as).length = n + (bs.length + as.length) := by
    rw [List.length_append, List.length_append, hcount]; omega
  obtain ⟨R, c', i1, i2, i3, _, i4, i5⟩ := line_const hl hr hev (spec := .obj fun c => (E.call c).map GridArr.of)
    (by simp only [gridOfSpec, h2, Except.map]) (by simp) h5 hh (fun x _ => hdom x) junk'
  rw [hlen] at i3 i4 i5
  have hA : arclen junk' c' = arclen junk' c + bs.length * h + as.length * h := by
    rw [i5, hL junk', hlast, show n + (bs.length + as.length) - 1 = (n - 1) + bs.length + as.length by omega]
    push_cast
    ring
  refine ⟨E, h1, R, c', bs.length + as.length, i1, i2, i3, i4, ?_, ?_⟩
  · rw [hA]
    rw [abs_le] at h3 h4 ⊢
    constructor <;> linarith [h3.1, h3.2, h4.1, h4.2]
  · have exact' : ∀ (k i : Nat) (z : ℝ), z = i * h → |(k : ℝ) * h - z| ≤ h / 2 → (k : ℝ) * h = z := by
      intro k i z hz hk
      rw [hz, ← sub_mul, abs_mul, abs_of_pos hpos] at hk
      have h2 : |(k : ℝ) - i| < 1 := by
        by_contra hc'
        have := mul_le_mul_of_nonneg_right (not_lt.1 hc') hpos.le
        linarith
      have h3 : |(k : Int) - i| < 1 := by exact_mod_cast h2
      have h4 : (k : Int) - i = 0 := Int.abs_lt_one_iff.1 h3
      have h5 : (k : ℝ) = i := by
        have : (k : Int) = i := by omega
        exact_mod_cast this
      rw [hz, h5]
    rintro ⟨i, hi⟩ ⟨j, hj⟩
    rw [hA, exact' _ i v hi h3, exact' _ j w hj h4]

end

/-- **C171 (methods).** For points in order on a line of a curve without own parameter all of `linear`, `pchip`, `cubic` (natural and
not-a-knot), `spline` without smoothing (degree 1; degree 3 and four points or more), `csaps` with any smoothing parameter and weights, and
within the curve (three points or more) `akima` give the points of that line; with the theorems above, they give the same uniform points. -/
theorem C171_methods {c : Curve ℝ} (hc : WF c) (hs : 2 ≤ c.size) {junk : ℝ} (hp : c.tdata = none) (hd : c.dtype ≠ .int) {o u s : Nat → ℝ}
    (hl : InLine c o u s) {lib : SplineLib} :
    (∀ (r : InterpReg Bool) m, IsLinear junk r m → EvaluatesTo c (fun g => c.interpolate r g m true) (fun _ => True)
      (linePt c.ncols (fun j => o j + s 0 * u j) u)) ∧
    (∀ (r : KwReg) m kw, IsPchip junk r m ∧ kw = .none ∨ NaturalOk lib ∧ IsCubic lib junk r m ∧ kw = .none ∨
        BoundaryOk lib ∧ IsCubic lib junk r m ∧ kw = ⟨[("bc_type", .str "not-a-knot")]⟩ ∨
        UnivariateOk lib ∧ IsSpline lib junk r m ∧
          (SplineArgs kw c.size 1 .extrapolate ∨ 4 ≤ c.size ∧ SplineArgs kw c.size 3 .extrapolate) ∨
        IsCsaps lib junk r m ∧ (∃ q w, CsapsArgs kw c.size q w) →
      EvaluatesTo c (fun g => c.interpolate r g m kw) (fun _ => True) (linePt c.ncols (fun j => o j + s 0 * u j) u)) ∧
    (∀ (r : KwReg) m, 3 ≤ c.size → IsAkima lib junk r m → EvaluatesTo c (fun g => c.interpolate r g m .none)
      (fun x => 0 ≤ x ∧ x ≤ s (c.size - 1) - s 0) (linePt c.ncols (fun j => o j + s 0 * u j) u)) := by
  obtain ⟨_, ht, hline⟩ := onLine_arclen hc hs junk hp hl.unit hl.order hl.point
  refine ⟨fun r m hr => C171_linear hc hs ht hd hline hr, ?_, fun r m h3 hr =>
    (C87_collinear hc hs hp hd hl.unit hl.order hl.point).2.2 h3 hr⟩
  rintro r m kw (⟨hr, rfl⟩ | ⟨hlib, hr, rfl⟩ | ⟨hlib, hr, rfl⟩ | ⟨hlib, hr, hkw⟩ | ⟨hr, q, w, hkw⟩)
  · exact (C87_line (lib := lib) hc hs ht hd hline).1 hr
  · exact (C87_line (lib := lib) hc hs ht hd hline).2.1 hlib hr
  · exact C171_not_a_knot hc hs ht hd hline hlib hr
  · exact C171_spline hc hs ht hd hline hlib hr hkw
  · exact C128_line hc hs ht hd hr hline hkw

/-- **C171 (hermite, partial).** The same for `hermite` if neighbouring points are more than `1e-8` apart and at neither end the second
step is three times as long as the first (or longer, up to the tolerance). Missing: other distances, see `C171_hermite_fails`. -/
theorem C171_hermite_partial {c : Curve ℝ} (hc : WF c) (hs : 2 ≤ c.size) {junk : ℝ} (hp : c.tdata = none) (hd : c.dtype ≠ .int)
    {o u s : Nat → ℝ} (hl : InLine c o u s) (hst : ∀ i, i + 1 < c.size → 1 / 10 ^ 8 < s (i + 1) - s i)
    (h0 : 3 ≤ c.size → s 2 - s 1 + 2 / 10 ^ 8 < 3 * (s 1 - s 0))
    (h1 : 3 ≤ c.size → s (c.size - 2) - s (c.size - 3) + 2 / 10 ^ 8 < 3 * (s (c.size - 1) - s (c.size - 2)))
    {r : KwReg} {m : String} (hr : IsHermite junk r m) :
    EvaluatesTo c (fun g => c.interpolate r g m .none) (fun _ => True) (linePt c.ncols (fun j => o j + s 0 * u j) u) := by
  obtain ⟨k, ht, hline⟩ := onLine_arclen hc hs junk hp hl.unit hl.order hl.point
  have hlen := t_length hc (rows_ne_of_size hs) junk
  have val : ∀ i x, (c.t junk)[i]? = some x → i < c.size ∧ x = s i - s 0 := by
    intro i x hx
    have hi := (List.getElem?_eq_some_iff.1 hx).1
    rw [hlen] at hi
    rw [k i hi] at hx
    injection hx with hx
    exact ⟨hi, hx.symm⟩
  refine C87_hermite_partial hc hs ?_ hd hline hl.unit ?_ ?_ hr
  · intro i x y hx hy
    obtain ⟨_, rfl⟩ := val _ _ hx
    obtain ⟨h2, rfl⟩ := val _ _ hy
    have := hst i h2
    linarith
  · intro a b d ha hb hd'
    obtain ⟨_, rfl⟩ := val _ _ ha
    obtain ⟨_, rfl⟩ := val _ _ hb
    obtain ⟨h2, rfl⟩ := val _ _ hd'
    have := h0 (by omega)
    linarith
  · intro a b d ha hb hd'
    obtain ⟨h2, rfl⟩ := val _ _ ha
    obtain ⟨h3, rfl⟩ := val _ _ hb
    obtain ⟨h4, rfl⟩ := val _ _ hd'
    by_cases h5 : 3 ≤ c.size
    · have := h1 h5
      linarith
    · have e : c.size = 2 := by omega
      rw [e] at *
      norm_num
      have := hst 0 (by omega)
      norm_num at this
      linarith

/-- **C171 fails for `hermite`.** The points 0, 1 and 10 of a line resampled with 101 points: the second point is not at distance 1/10
after the first one, but before it, at -0.062. -/
theorem C171_hermite_fails {junk : ℝ} {r : KwReg} {m : String} (hr : IsHermite junk r m) :
    ∃ R c', exGaps.interpolate r (.int 101) m .none = .ok R ∧ Represents R c' ∧ c'.size = 101 ∧ at2 c'.rows 1 0 = -31 / 500 := by
  have hs : 2 ≤ exGaps.size := by simp [exGaps, Curve.size]
  obtain ⟨F, hF, h1⟩ := C87_spacing_fails (junk := junk) hr
  obtain ⟨hk, _, _⟩ := exGaps_line junk
  have hlen := t_length exGaps_WF (rows_ne_of_size hs) junk
  obtain ⟨ha, hb⟩ := t_ends exGaps_WF (rows_ne_of_size hs) junk
  rw [List.head?_eq_getElem?, hk 0 (by simp [exGaps, Curve.size])] at ha
  rw [List.getLast?_eq_getElem?, hlen, hk _ (by simp [exGaps, Curve.size])] at hb
  injection ha with ha
  injection hb with hb
  have ha : (0 : ℝ) = tFirst junk exGaps := by rw [← ha]; simp
  have hb : (10 : ℝ) = tLast junk exGaps := by rw [← hb]; simp [exGaps, Curve.size]
  have hstep := linspaceR_step (tFirst junk exGaps) (tLast junk exGaps) 101
  have hg : gridOfSpec junk exGaps (.int 101) = .ok (GridArr.of (fins (linspaceR (tFirst junk exGaps) (tLast junk exGaps) 101))) := by
    have h := uniform_call hs junk 101
    have hi : UniformGrid.init (.int 101) "point" = .ok ⟨.int 101, .point⟩ := by
      simp [UniformGrid.init, GridKind.ofString, PyNum.isInt, PyNum.toInt]
    simp only [gridOfSpec, hi, bind, Except.bind, pure, Except.pure]
    have h' : UniformGrid.call junk ⟨.int 101, .point⟩ exGaps = _ := h
    rw [h']
  rw [interpolate_of_spec hr exGaps .none hg]
  obtain ⟨R, e1, e2⟩ := hF (linspaceR (tFirst junk exGaps) (tLast junk exGaps) 101)
    (by intro e; have := congrArg List.length e; simp [linspaceR_length] at this)
    (by
      intro i x y hx hy
      rw [hstep i x y hx hy, ← ha, ← hb]
      norm_num)
    (by simp)
  refine ⟨R, _, e1, e2, by simp [Curve.size, linspaceR_length], ?_⟩
  have hx : (linspaceR (tFirst junk exGaps) (tLast junk exGaps) 101)[1]? = some (1 / 10) := by
    rw [linspaceR_get (by norm_num), ← ha, ← hb]
    norm_num
  simp only [at2, List.getD_eq_getElem?_getD, List.getElem?_map, hx, Option.map_some, Option.getD_some]
  rw [← List.getD_eq_getElem?_getD]
  exact h1

/-- Four points at the distances 0, 5, 15, 20 on a line of direction (3/5, 4/5). -/
def exIncline : Curve ℝ := ⟨[[1, 1], [4, 5], [10, 13], [13, 17]], 2, none, .float⟩

theorem exIncline_WF : WF exIncline where
  two_le := by simp [exIncline]
  rect := by simp [exIncline]
  tlen := by simp [exIncline]
  repr := by intro r _ x _; rfl

theorem exIncline_line : InLine exIncline (fun _ => 1) (fun j => if j = 0 then 3 / 5 else 4 / 5)
    (fun i => if i = 0 then 0 else if i = 1 then 5 else if i = 2 then 15 else 20) where
  unit := by simp [exIncline, Finset.sum_range_succ]; norm_num
  order := by
    intro i hi
    have : i + 1 < 4 := hi
    rcases (show i = 0 ∨ i = 1 ∨ i = 2 by omega) with rfl | rfl | rfl <;> norm_num
  point := by
    intro i j hi hj
    have : i < 4 := hi
    have : j < 2 := hj
    rcases (show i = 0 ∨ i = 1 ∨ i = 2 ∨ i = 3 by omega) with rfl | rfl | rfl | rfl <;>
      rcases (show j = 0 ∨ j = 1 by omega) with rfl | rfl <;> norm_num [exIncline, at2]

example : ∃ R c', exIncline.interpolate (linearReg 0) (.int 5) "linear" true = .ok R ∧ Represents R c' ∧ c'.size = 5 ∧
    chordlen 0 c' = .vec [5, 5, 5, 5] ∧ c'.rows.getLast? = some [13, 17] := by
  have hs : 2 ≤ exIncline.size := by simp [exIncline, Curve.size]
  have hev := (C171_methods (lib := exists_univariateOk.choose) exIncline_WF hs (junk := 0) rfl (by simp [exIncline]) exIncline_line).1 _ _
    (isLinear_linearReg 0)
  obtain ⟨g, _, h⟩ := C171_points exIncline_WF hs rfl exIncline_line (isLinear_linearReg 0) hev (n := 5) (by norm_num)
    (by norm_num [exIncline, Curve.size]) (fun _ _ _ => trivial) 0
  obtain ⟨R, c', h1, h2, h3, h4, _, _, h5⟩ := h (.int 5) (.inl rfl)
  refine ⟨R, c', h1, h2, h3, ?_, by rw [h5]; simp [exIncline]⟩
  rw [h4]
  norm_num [exIncline, Curve.size, List.replicate]

/-- Two chords of 10 and, before and after, 20 and 10 more. -/
example : ∃ E R c', ExtrapGrid.init (fun _ => .ok (fins [0, 10, 20])) (.float (.fin 20)) (.int 10) "length" = .ok E ∧
    exIncline.interpolate (linearReg 0) (.obj fun c => (E.call c).map GridArr.of) "linear" true = .ok R ∧ Represents R c' ∧
    arclen 0 c' = arclen 0 exIncline + 30 := by
  have hs : 2 ≤ exIncline.size := by simp [exIncline, Curve.size]
  have hev := (C171_methods (lib := exists_univariateOk.choose) exIncline_WF hs (junk := 0) rfl (by simp [exIncline]) exIncline_line).1 _ _
    (isLinear_linearReg 0)
  have hst : ConstStep 10 [0, 10, 20] := by
    intro i x y hx hy
    have hi := (List.getElem?_eq_some_iff.1 hy).1
    simp at hi
    rcases (show i = 0 ∨ i = 1 by omega) with rfl | rfl <;> simp at hx hy <;> subst hx <;> subst hy <;> norm_num
  obtain ⟨E, h1, R, c', k, h2, h3, _, _, _, h4⟩ := C171_extrapolate_length exIncline_WF hs rfl exIncline_line (isLinear_linearReg 0) hev
    (G := fun _ => .ok (fins [0, 10, 20])) (n := 3) (by norm_num) rfl ⟨rfl, rfl, by simp [exIncline, Curve.size], 10, hst⟩ hst (by norm_num)
    (fun _ => trivial) (q := .float (.fin 20)) (q' := .int 10) (v := 20) (w := 10) (.inl rfl) (.inr ⟨10, rfl, by norm_num⟩) (by norm_num)
    (by norm_num) 0
  refine ⟨E, R, c', h1, h2, h3, ?_⟩
  rw [h4 ⟨2, by norm_num⟩ ⟨1, by norm_num⟩]
  ring

end Verif.Props
