import Verif.Props.Rescale

/-!
C105: interpolation treats the coordinates separately.
-/
namespace Verif.Spec

open Verif Verif.Model

/-- Coordinate `j` of the points of `c` is coordinate `j'` of those of `c'`. -/
structure SameColumn (j j' : Nat) (c c' : Curve ℝ) : Prop where
  size : c'.rows.length = c.rows.length
  lt : j < c.ncols
  lt' : j' < c'.ncols
  pts : ∀ i, i < c.rows.length → at2 c'.rows i j' = at2 c.rows i j

/-- Every coordinate of one curve is a coordinate of the other: coordinates are exchanged, repeated, or repetitions left out. -/
def SameColumns (c c' : Curve ℝ) : Prop :=
  (∀ j, j < c.ncols → ∃ j', SameColumn j j' c c') ∧ ∀ j', j' < c'.ncols → ∃ j, SameColumn j j' c c'

/-- Coordinate `j` of all points. -/
def column (j : Nat) (c : Curve ℝ) : List ℝ := c.rows.map fun p => p.getD j 0

end Verif.Spec

namespace Verif.Props

open Verif Verif.Np Verif.Model Verif.Spec

theorem PPoly.coord_column {p q : PPoly} (hx : q.xs = p.xs) (hl : 2 ≤ p.xs.length) {j j' : Nat} (hy : ∀ i, i < p.xs.length → q.y.v i j' = p.y.v i j)
    (hd : ∀ i, i < p.xs.length → q.d.v i j' = p.d.v i j) (x : ℝ) : q.coord j' x = p.coord j x := by
  have h1 : pieceOf p.xs (.fin x) + 1 < p.xs.length := by
    unfold pieceOf
    have := Nat.min_le_left (p.xs.length - 2) ((p.xs.takeWhile fun u => !(Val.fin x).ltB (.fin u)).length - 1)
    omega
  unfold PPoly.coord PPoly.cub
  rw [hx]
  generalize pieceOf p.xs (.fin x) = i at *
  rw [hy i (by omega), hy (i + 1) h1, hd i (by omega), hd (i + 1) h1]

section
variable {j j' : Nat} {c c' : Curve ℝ} (hc : WF c) (hc' : WF c') (hs : 2 ≤ c.size) (hS : SameColumn j j' c c') {junk : ℝ}
  (ht : (c.t junk).Pairwise (· < ·)) (htt : c'.t junk = c.t junk)
include hc hc' hs hS ht htt

/-- **C105 (pchip and natural cubic splines).** Two curves with equal parameter values that agree in a coordinate (which may be another
one of each): their interpolations agree in it. (Dtypes that are not integer ones.) -/
theorem C105_splines (hd : c.dtype ≠ .int) (hd' : c'.dtype ≠ .int) {lib : SplineLib} {r : KwReg} {m : String}
    (hm : IsPchip junk r m ∨ NaturalOk lib ∧ IsCubic lib junk r m) :
    ∃ F F', EvaluatesTo c (fun g => c.interpolate r g m .none) (fun _ => True) F ∧
      EvaluatesTo c' (fun g => c'.interpolate r g m .none) (fun _ => True) F' ∧
      ∀ x, (F x).length = c.ncols ∧ (F' x).length = c'.ncols ∧ coordOf j' (F' x) = coordOf j (F x) := by
  have hl := t_length hc (rows_ne_of_size hs) junk
  have e1 : c'.size = c.size := hS.size
  have e2 : 2 ≤ c'.size := by omega
  have ht' : (c'.t junk).Pairwise (· < ·) := by rw [htt]; exact ht
  have ym : ∀ i, i < c.size → c'.mat.v i j' = c.mat.v i j := by
    intro i hi
    rw [mat_v, mat_v]; exact hS.pts i hi
  have key : ∀ {cons : Curve ℝ → InterpKw → Except PyErr InterpImpl} {q q' : PPoly}, getInterpClass r m = .ok (interpClass junk cons) →
      cons c .none = .ok q.impl → cons c' .none = .ok q'.impl → q.xs = c.t junk → q'.xs = c'.t junk → q.y = c.mat → q'.y = c'.mat →
      q.ex = .yes → q'.ex = .yes → (∀ i, i < c.size → q'.d.v i j' = q.d.v i j) →
      ∃ F F', EvaluatesTo c (fun g => c.interpolate r g m .none) (fun _ => True) F ∧
      EvaluatesTo c' (fun g => c'.interpolate r g m .none) (fun _ => True) F' ∧
      ∀ x, (F x).length = c.ncols ∧ (F' x).length = c'.ncols ∧ coordOf j' (F' x) = coordOf j (F x) := by
    intro cons q q' hr hq hq' hx hx' hy hy' hex hex' hslope
    refine ⟨_, _, spline_eval hc hs ht hd hr hq hx hy (.inl hex), spline_eval hc' e2 ht' hd' hr hq' hx' hy' (.inl hex'), ?_⟩
    intro x
    refine ⟨by rw [q.row_length, hy]; rfl, by rw [q'.row_length, hy']; rfl, ?_⟩
    unfold coordOf
    rw [q.row_getD (by rw [hy]; exact hS.lt), q'.row_getD (by rw [hy']; exact hS.lt')]
    apply PPoly.coord_column (by rw [hx, hx', htt]) (by rw [hx, hl]; exact hs)
    · intro i hi; rw [hx, hl] at hi; rw [hy, hy']; exact ym i hi
    · intro i hi; rw [hx, hl] at hi; exact hslope i hi
  rcases hm with hr | ⟨hlib, hr⟩
  · refine key hr (pchip_cons hc hs ht .yes rfl) (pchip_cons hc' e2 ht' .yes rfl) rfl rfl rfl rfl rfl rfl ?_
    intro i hi
    simp only [pchipSlopes_v]
    rw [htt, hl]
    have := pchipSlope_rescale (n := c.size) (a := 1) (b := 0) (s := 1) (w := 0) one_pos (x := fun i => (c.t junk).getD i 0)
      (x' := fun i => (c.t junk).getD i 0) (y := fun i => c.mat.v i j) (y' := fun i => c'.mat.v i j') (fun i _ => by ring)
      (fun i hi => by rw [ym i hi]; ring) hs hi
    simpa using this
  · obtain ⟨d, hsol, hnat⟩ := hlib (c.t junk) c.mat (knotsOk_curve hc hs ht)
    obtain ⟨d', hsol', hnat'⟩ := hlib (c'.t junk) c'.mat (knotsOk_curve hc' e2 ht')
    refine key hr (cubic_default hc hs ht lib hsol) (cubic_default hc' e2 ht' lib hsol') rfl rfl rfl rfl rfl rfl ?_
    intro i hi
    have n1 := hnat j hS.lt
    have n2 := hnat' j' hS.lt'
    rw [htt, hl] at n2
    rw [hl] at n1
    have := natural_rescale (n := c.size) (a := 1) (b := 0) (s := 1) (w := 0) one_pos (x := fun i => (c.t junk).getD i 0)
      (x' := fun i => (c.t junk).getD i 0) (y := fun i => c.mat.v i j) (y' := fun i => c'.mat.v i j') (fun i _ => by ring)
      (fun i hi => by rw [ym i hi]; ring) hs (fun i hi => knot_lt ht (show i < i + 1 by omega) (by omega)) n1 n2 hi
    simpa using this

/-- **C105 (linear).** The same for linear interpolation. -/
theorem C105_linear (hd : c.dtype ≠ .int) (hd' : c'.dtype ≠ .int) {r : InterpReg Bool} {m : String} (hr : IsLinear junk r m) (ex : Bool) :
    ∃ F F', EvaluatesTo c (fun g => c.interpolate r g m ex) (fun x => ex = true ∨ WithinEnds (c.t junk) x) F ∧
      EvaluatesTo c' (fun g => c'.interpolate r g m ex) (fun x => ex = true ∨ WithinEnds (c.t junk) x) F' ∧
      ∀ x, (F x).length = c.ncols ∧ (F' x).length = c'.ncols ∧ coordOf j' (F' x) = coordOf j (F x) := by
  have e1 : c'.size = c.size := hS.size
  have e2 : 2 ≤ c'.size := by omega
  have ht' : (c'.t junk).Pairwise (· < ·) := by rw [htt]; exact ht
  have ev : ∀ {e : Curve ℝ}, WF e → 2 ≤ e.size → (e.t junk).Pairwise (· < ·) → e.dtype ≠ .int → e.t junk = c.t junk →
      EvaluatesTo e (fun g => e.interpolate r g m ex) (fun x => ex = true ∨ WithinEnds (c.t junk) x)
        (rowAt ((e.t junk).zip e.rows)) := by
    intro e he hes het hed ett xs hne hx hdom
    obtain ⟨w, hg⟩ := getGrid_fins junk e xs hne hx
    obtain ⟨h1, h2⟩ := t_ends he (rows_ne_of_size hes) junk
    refine linear_repr he hes het hed hr ex hne hg h1 h2 ?_
    cases ex with
    | true => exact .inl rfl
    | false =>
      right
      intro x hx
      have := (hdom x hx).resolve_left (by simp)
      rw [ett] at h1 h2
      exact ⟨this.1 _ h1, this.2 _ h2⟩
  refine ⟨_, _, ev hc hs ht hd rfl, ev hc' e2 ht' hd' htt, ?_⟩
  intro x
  refine ⟨(interp1dAt_rowAt hc hs ht x).2, (interp1dAt_rowAt hc' e2 ht' x).2, ?_⟩
  obtain ⟨i, u, v, p, q, h1, h2, h3, h4, h5, h6⟩ := exists_pair hc hs ht x
  have hi : i + 1 < c.rows.length := (List.getElem?_eq_some_iff.1 h4).1
  have hsz : c'.rows.length = c.rows.length := hS.size
  obtain ⟨p', h3'⟩ : ∃ p', c'.rows[i]? = some p' := ⟨_, List.getElem?_eq_getElem (by omega)⟩
  obtain ⟨q', h4'⟩ : ∃ q', c'.rows[i + 1]? = some q' := ⟨_, List.getElem?_eq_getElem (by omega)⟩
  rw [rowAt_pair hc hs ht x i u v p q h1 h2 h3 h4 h5 h6,
    rowAt_pair hc' e2 ht' x i u v p' q' (by rw [htt]; exact h1) (by rw [htt]; exact h2) h3' h4' h5 (by rw [e1]; exact h6)]
  generalize (x - u) / (v - u) = z
  have mixD : ∀ {n : Nat} {p q : List ℝ}, p.length = n → q.length = n → ∀ k, k < n →
      coordOf k (mix z p q) = p.getD k 0 + z * (q.getD k 0 - p.getD k 0) := by
    intro n p q hp hq k hk
    unfold mix coordOf
    simp [List.getD_eq_getElem?_getD, List.getElem?_zipWith, hp, hq, hk]
  have atD : ∀ {e : Curve ℝ} {i : Nat} {p : List ℝ}, e.rows[i]? = some p → ∀ k, at2 e.rows i k = p.getD k 0 := by
    intro e i p h k
    unfold at2
    rw [List.getD_eq_getElem?_getD (l := e.rows), h]; rfl
  have P := hS.pts i (show i < c.rows.length by omega)
  have Q := hS.pts (i + 1) hi
  rw [atD h3, atD h3'] at P
  rw [atD h4, atD h4'] at Q
  rw [mixD (hc'.rect p' (List.mem_of_getElem? h3')) (hc'.rect q' (List.mem_of_getElem? h4')) j' hS.lt',
    mixD (hc.rect p (List.mem_of_getElem? h3)) (hc.rect q (List.mem_of_getElem? h4)) j hS.lt, P, Q]

theorem akimaF12_column (h3 : 3 ≤ c.size) : akimaF12 (akimaM c.size (fun i => (c.t junk).getD i 0) fun i => c'.mat.v i j') =
    akimaF12 (akimaM c.size (fun i => (c.t junk).getD i 0) fun i => c.mat.v i j) ∧
    ∀ top, akimaSlope (akimaM c.size (fun i => (c.t junk).getD i 0) fun i => c'.mat.v i j') top =
      akimaSlope (akimaM c.size (fun i => (c.t junk).getD i 0) fun i => c.mat.v i j) top := by
  have ym : ∀ i, i < c.size → c'.mat.v i j' = 1 * c.mat.v i j + 0 := by
    intro i hi
    rw [mat_v, mat_v, one_mul, add_zero]; exact hS.pts i hi
  have : akimaM c.size (fun i => (c.t junk).getD i 0) (fun i => c'.mat.v i j') =
      akimaM c.size (fun i => (c.t junk).getD i 0) fun i => c.mat.v i j := by
    funext i
    have := akimaM_rescale (n := c.size) (a := 1) (b := 0) (s := 1) (w := 0) one_pos (x := fun i => (c.t junk).getD i 0)
      (x' := fun i => (c.t junk).getD i 0) (y := fun i => c.mat.v i j) (y' := fun i => c'.mat.v i j') (fun i _ => by ring) ym h3 i
    simpa using this
  rw [this]
  exact ⟨rfl, fun _ => rfl⟩

end

theorem foldl_max_le {l : List ℝ} {a b : ℝ} : l.foldl max a ≤ b ↔ a ≤ b ∧ ∀ x ∈ l, x ≤ b := by
  induction l generalizing a with
  | nil => simp
  | cons y l ih => simp [ih, and_assoc]

theorem foldl_max_set {l l' : List ℝ} {a : ℝ} (h : ∀ x, x ∈ l ↔ x ∈ l') : l.foldl max a = l'.foldl max a := by
  apply le_antisymm
  · rw [foldl_max_le]
    have := (foldl_max_le (l := l') (a := a)).1 le_rfl
    exact ⟨this.1, fun x hx => this.2 x ((h x).1 hx)⟩
  · rw [foldl_max_le]
    have := (foldl_max_le (l := l) (a := a)).1 le_rfl
    exact ⟨this.1, fun x hx => this.2 x ((h x).2 hx)⟩

/-- **C105 (akima), partial.** For akima the curves must have all coordinates in common (in any order and any number): a coordinate that
only one of them has can change the others, see `C105_akima_fails`. -/
theorem C105_akima_partial {c c' : Curve ℝ} (hc : WF c) (hc' : WF c') (h3 : 3 ≤ c.size) (hS : SameColumns c c') {junk : ℝ}
    (ht : (c.t junk).Pairwise (· < ·)) (htt : c'.t junk = c.t junk) (hd : c.dtype ≠ .int) (hd' : c'.dtype ≠ .int) {lib : SplineLib} {r : KwReg}
    {m : String} (hr : IsAkima lib junk r m) :
    ∃ F F', EvaluatesTo c (fun g => c.interpolate r g m .none) (WithinEnds (c.t junk)) F ∧
      EvaluatesTo c' (fun g => c'.interpolate r g m .none) (WithinEnds (c.t junk)) F' ∧
      ∀ x, (F x).length = c.ncols ∧ (F' x).length = c'.ncols ∧
        ∀ j j', SameColumn j j' c c' → coordOf j' (F' x) = coordOf j (F x) := by
  have hs : 2 ≤ c.size := by omega
  have hl := t_length hc (rows_ne_of_size hs) junk
  have hpos : 0 < c.ncols := lt_of_lt_of_le two_pos hc.two_le
  obtain ⟨_, hS0⟩ := hS.1 0 hpos
  have e1 : c'.size = c.size := hS0.size
  have e2 : 2 ≤ c'.size := by omega
  have ht' : (c'.t junk).Pairwise (· < ·) := by rw [htt]; exact ht
  have htop : akimaTop (c.t junk) c'.mat = akimaTop (c.t junk) c.mat := by
    unfold akimaTop
    rw [hl]
    apply foldl_max_set
    intro x
    simp only [List.mem_flatMap, List.mem_range, List.mem_map]
    constructor
    · rintro ⟨j', hj', i, hi, rfl⟩
      obtain ⟨j, h⟩ := hS.2 j' hj'
      exact ⟨j, h.lt, i, hi, by rw [(akimaF12_column hc hc' hs h ht htt h3).1]⟩
    · rintro ⟨j, hj, i, hi, rfl⟩
      obtain ⟨j', h⟩ := hS.1 j hj
      exact ⟨j', h.lt', i, hi, by rw [(akimaF12_column hc hc' hs h ht htt h3).1]⟩
  have ak := akima_cons hc hs ht lib
  have ak' := akima_cons hc' e2 ht' lib
  rw [if_neg (show ¬ c.size < 3 by omega)] at ak
  rw [if_neg (show ¬ c'.size < 3 by omega)] at ak'
  refine ⟨_, _, spline_eval hc hs ht hd hr ak rfl rfl (.inr ⟨rfl, fun x hx => hx⟩),
    spline_eval hc' e2 ht' hd' hr ak' rfl rfl (.inr ⟨rfl, fun x hx => by rw [htt]; exact hx⟩), ?_⟩
  intro x
  refine ⟨PPoly.row_length _ _, PPoly.row_length _ _, ?_⟩
  intro j j' h
  unfold coordOf
  rw [PPoly.row_getD _ h.lt', PPoly.row_getD _ h.lt]
  apply PPoly.coord_column htt (by rw [hl]; exact hs)
  · intro i hi
    have hi : i < (c.t junk).length := hi
    rw [hl] at hi
    show c'.mat.v i j' = c.mat.v i j
    rw [mat_v, mat_v]; exact h.pts i hi
  · intro i _
    show (akimaSlopes (c'.t junk) c'.mat).v i j' = (akimaSlopes (c.t junk) c.mat).v i j
    rw [akimaSlopes_v, akimaSlopes_v, htt, htop, hl, (akimaF12_column hc hc' hs h ht htt h3).2]

theorem mapM_all {α β : Type} {f : α → Except PyErr β} {g : α → β} {l : List α} (h : ∀ x ∈ l, f x = .ok (g x)) : l.mapM f = .ok (l.map g) := by
  induction l with
  | nil => rfl
  | cons a l ih =>
    rw [List.mapM_cons, h a (by simp), ih fun x hx => h x (by simp [hx])]
    rfl

theorem mapM_map {α β γ : Type} (g : α → β) (f : β → Except PyErr γ) (l : List α) : (l.map g).mapM f = l.mapM fun x => f (g x) := by
  induction l with
  | nil => rfl
  | cons a l ih => rw [List.map_cons, List.mapM_cons, List.mapM_cons, ih]

theorem mapM_fail {α β : Type} {f : α → Except PyErr β} {l : List α} {x : α} (hx : x ∈ l) {e : PyErr} (h : f x = .error e) :
    ∃ e', l.mapM f = .error e' := by
  induction l with
  | nil => simp at hx
  | cons a l ih =>
    rw [List.mapM_cons]
    cases ha : f a with
    | error e' => exact ⟨e', rfl⟩
    | ok b =>
      rcases List.mem_cons.1 hx with rfl | hx
      · rw [h] at ha; cases ha
      · obtain ⟨e', he⟩ := ih hx
        exact ⟨e', by rw [he]; rfl⟩

theorem mat_column (c : Curve ℝ) (j : Nat) : (List.range c.size).map (fun i => c.mat.v i j) = column j c := by
  unfold column Curve.size
  apply List.ext_getElem (by simp)
  intro i h1 h2
  simp [mat_v, at2, List.getD_eq_getElem?_getD, List.getElem?_eq_getElem (show i < c.rows.length by simpa using h1)]

section
variable {c : Curve ℝ} (hc : WF c) (hs : 2 ≤ c.size) {junk : ℝ} {lib : SplineLib} {r : KwReg} {m : String}
  (hr : getInterpClass r m = .ok (interpClass junk (withKw pickSpline (splineCons lib junk)))) {kw : InterpKw} {q : SplineParams}
  (hkw : pickSpline kw = some q)
include hr hkw

include hc hs in
/-- **C105 (spline).** The method `spline`: coordinate `j` of the result is the univariate spline through coordinate `j` of the points,
evaluated at the grid. -/
theorem C105_univariate (hd : c.dtype ≠ .int) {f : Nat → Val ℝ → Except PyErr (Val ℝ)}
    (hf : ∀ j, j < c.ncols → lib.univariate q.k q.smooth q.weights q.ext (c.t junk) (column j c) = .ok (f j)) {xs : List ℝ} (hne : xs ≠ [])
    (hx : StepsOver xs) {v : Nat → ℝ → Val ℝ} (hv : ∀ j x, j < c.ncols → x ∈ xs → f j (.fin x) = .ok (v j x)) :
    c.interpolate r (.arr (.ok (GridArr.of (fins xs)))) m kw =
      .ok ⟨xs.map fun x => (List.range c.ncols).map fun j => v j x, c.ncols, if c.isparametric then some (fins xs) else none, c.dtype⟩ := by
  rw [interpolate_eq hr]
  simp only [interpClass, withKw, hkw, splineCons, mat_column]
  rw [mapM_all (g := f) (by intro j hj; exact hf j (List.mem_range.1 hj))]
  obtain ⟨w, hg⟩ := getGrid_fins junk c xs hne hx
  simp only [bind, Except.bind, pure, Except.pure, wrapErr, interpolatorCall]
  rw [if_neg (by omega), if_neg (by omega), hg]
  have hcols : ((List.range c.ncols).map f).mapM (fun g => (fins xs).mapM g) = .ok ((List.range c.ncols).map fun j => xs.map (v j)) := by
    rw [mapM_map]
    refine mapM_all fun j hj => ?_
    unfold fins
    rw [mapM_map]
    exact mapM_all fun x hx' => hv j x (List.mem_range.1 hj) hx'
  have hrows : ((List.range (fins xs).length).map fun i => ((List.range c.ncols).map fun j => xs.map (v j)).map fun col => col.getD i (.fin 0)) =
      xs.map fun x => (List.range c.ncols).map fun j => v j x := by
    apply List.ext_getElem
    · simp [fins]
    · intro i h1 h2
      have hi : i < xs.length := by simpa using h2
      simp [List.getD_eq_getElem?_getD, hi]
  simp only [hcols, hrows]
  have he : Curve.init (.arr (NdArr.ofRows (.fin 0) (xs.map fun x => (List.range c.ncols).map fun j => v j x) c.ncols) .float)
    (if c.isparametric then some (fins xs) else none) none none (some c.dtype) =
    Curve.ofRows (xs.map fun x => (List.range c.ncols).map fun j => v j x) c.ncols c.dtype
      (if c.isparametric then some (fins xs) else none) := rfl
  rw [he, ofRows_ok hc.two_le]
  · rw [if_neg (by simp [hne])]
  · intro row hrow
    obtain ⟨x, _, rfl⟩ := List.mem_map.1 hrow
    simp
  · intro _ _ x _; cases hdt : c.dtype <;> simp_all [DType.cast]
  · intro s hs'
    split at hs' <;> simp at hs'
    rw [← hs']; simp [fins]

include hc hs in
/-- **C105 (spline).** If the evaluation of one of the splines fails at a grid value (as it does outside of the knots for
`extrapolate='raise'`), the result is an InterpolationError. -/
theorem C105_univariate_raise {f : Nat → Val ℝ → Except PyErr (Val ℝ)}
    (hf : ∀ j, j < c.ncols → lib.univariate q.k q.smooth q.weights q.ext (c.t junk) (column j c) = .ok (f j)) {xs : List ℝ} (hne : xs ≠ [])
    (hx : StepsOver xs) {j : Nat} (hj : j < c.ncols) {x : ℝ} (hx' : x ∈ xs) {e : PyErr} (he : f j (.fin x) = .error e) :
    c.interpolate r (.arr (.ok (GridArr.of (fins xs)))) m kw = .error .interpolationError := by
  rw [interpolate_eq hr]
  simp only [interpClass, withKw, hkw, splineCons, mat_column]
  rw [mapM_all (g := f) (by intro j hj; exact hf j (List.mem_range.1 hj))]
  obtain ⟨w, hg⟩ := getGrid_fins junk c xs hne hx
  simp only [bind, Except.bind, pure, Except.pure, wrapErr, interpolatorCall]
  rw [if_neg (by omega), if_neg (by omega), hg]
  obtain ⟨e1, h1⟩ := mapM_fail (f := f j) (l := fins xs) (x := .fin x) (by unfold fins; exact List.mem_map_of_mem hx') he
  obtain ⟨e2, h2⟩ := mapM_fail (f := fun g : Val ℝ → Except PyErr (Val ℝ) => (fins xs).mapM g) (l := (List.range c.ncols).map f) (x := f j)
    (List.mem_map_of_mem (List.mem_range.2 hj)) h1
  simp only [h2]

/-- **C105 (spline).** If there is no univariate spline through one of the coordinates, the result is an InterpolationError. -/
theorem C105_univariate_error {j : Nat} (hj : j < c.ncols) {e : PyErr}
    (he : lib.univariate q.k q.smooth q.weights q.ext (c.t junk) (column j c) = .error e) (g : GridSpec) :
    c.interpolate r g m kw = .error .interpolationError := by
  rw [interpolate_eq hr]
  simp only [interpClass, withKw, hkw, splineCons, mat_column]
  obtain ⟨e', h⟩ := mapM_fail (f := fun j => lib.univariate q.k q.smooth q.weights q.ext (c.t junk) (column j c)) (List.mem_range.2 hj) he
  rw [h]
  rfl

end

/-! ## Witnesses -/

/-- Points on the first axis, for the parameter values 0, 1, 2. -/
def exFlat : Curve ℝ := ⟨[[0, 0], [3, 0], [6, 0]], 2, some [0, 1, 2], .float⟩
/-- The same first coordinates, with others for the second one. -/
def exSloped : Curve ℝ := ⟨[[0, 0], [3, 4], [6, 8]], 2, some [0, 1, 2], .float⟩

theorem exFlat_WF : WF exFlat where
  two_le := by simp [exFlat]
  rect := by simp [exFlat]
  tlen := by simp [exFlat]
  repr := by intro r _ x _; rfl

theorem exSloped_WF : WF exSloped where
  two_le := by simp [exSloped]
  rect := by simp [exSloped]
  tlen := by simp [exSloped]
  repr := by intro r _ x _; rfl

theorem exFlat_column : SameColumn 0 0 exFlat exSloped := by
  refine ⟨rfl, by simp [exFlat], by simp [exSloped], ?_⟩
  intro i hi
  have hi : i < 3 := hi
  interval_cases i <;> simp [at2, exFlat, exSloped]

theorem exFlat_lt (junk : ℝ) : (exFlat.t junk).Pairwise (· < ·) := by simp [exFlat, Curve.t]

theorem exSloped_lt (junk : ℝ) : (exSloped.t junk).Pairwise (· < ·) := by simp [exSloped, Curve.t]

/-- A unit tangent vector of a plane curve. -/
theorem frenet1_plane {c : Curve ℝ} (hs : 2 ≤ c.size) (hk : c.ncols = 2) {i : Nat} {a b n : ℝ} (h0 : (firstderiv c).v i 0 = a)
    (h1 : (firstderiv c).v i 1 = b) (hn1 : 1 ≤ n) (hn : a * a + b * b = n * n) : (frenet1 c).v i 0 = a / n := by
  show (firstderiv c).v i 0 / frenetNorm (firstderiv c) i = _
  have hn : rowNorm (firstderiv c) i = n := by
    unfold rowNorm
    rw [firstderiv_k hs, hk, Finset.sum_range_succ, Finset.sum_range_one, h0, h1]
    rw [show a ^ 2 + b ^ 2 = n ^ 2 by nlinarith, Real.sqrt_sq (by linarith)]
  have hcl : closeK n 0 = false := by
    unfold closeK
    rw [decide_eq_false_iff_not, sub_zero, abs_zero, mul_zero, add_zero, atol, not_le, abs_of_pos (by linarith)]
    have : ((1 : ℝ) / 10 ^ 8) < 1 := by norm_num
    norm_num at this ⊢
    linarith
  unfold frenetNorm
  rw [hn, hcl, h0]
  simp

/-- **C105 fails for `hermite`.** The slopes are unit vectors, so the second coordinate changes the first: at 1/4 the first coordinate of
the two curves is 9/16 and 21/40. -/
theorem C105_hermite_fails {junk : ℝ} {r : KwReg} {m : String} (hr : IsHermite junk r m) :
    SameColumn 0 0 exFlat exSloped ∧ exSloped.t junk = exFlat.t junk ∧
    ∃ F F', EvaluatesTo exFlat (fun g => exFlat.interpolate r g m .none) (fun _ => True) F ∧
      EvaluatesTo exSloped (fun g => exSloped.interpolate r g m .none) (fun _ => True) F' ∧ coordOf 0 (F (1 / 4)) = 9 / 16 ∧
      coordOf 0 (F' (1 / 4)) = 21 / 40 := by
  refine ⟨exFlat_column, rfl, ?_⟩
  have hs : 2 ≤ exFlat.size := by simp [exFlat, Curve.size]
  have hs' : 2 ≤ exSloped.size := by simp [exSloped, Curve.size]
  have ht := exFlat_lt junk
  have ht' := exSloped_lt junk
  refine ⟨_, _, spline_eval exFlat_WF hs ht (by simp [exFlat]) hr (hermite_cons exFlat_WF hs ht .yes rfl) rfl rfl (.inl rfl),
    spline_eval exSloped_WF hs' ht' (by simp [exSloped]) hr (hermite_cons exSloped_WF hs' ht' .yes rfl) rfl rfl (.inl rfl), ?_, ?_⟩
  · have k0 : knot (exFlat.t junk) 0 = 0 := knot_eq rfl
    have k1 : knot (exFlat.t junk) 1 = 1 := knot_eq rfl
    have d0 : (frenet1 exFlat).v 0 0 = 3 / 3 := by
      apply frenet1_plane hs rfl (a := 3) (b := 0) (n := 3) <;>
        simp [firstderiv, gradient, exFlat, Curve.mat, npGradient] <;> norm_num
    have d1 : (frenet1 exFlat).v 1 0 = 3 / 3 := by
      apply frenet1_plane hs rfl (a := 3) (b := 0) (n := 3) <;>
        simp [firstderiv, gradient, exFlat, Curve.mat, npGradient] <;> norm_num
    unfold coordOf
    rw [PPoly.row_getD _ (by simp [exFlat, Curve.mat]), PPoly.coord_on (i := 0) ht (by simp [exFlat, Curve.t]) 0 (.inl rfl)
      (.inr (by simp only [zero_add]; rw [k1]; norm_num))]
    unfold PPoly.cub
    simp only [zero_add]
    rw [k0, k1, d0, d1]
    simp [hermR, exFlat, Curve.mat]
    norm_num
  · have k0 : knot (exSloped.t junk) 0 = 0 := knot_eq rfl
    have k1 : knot (exSloped.t junk) 1 = 1 := knot_eq rfl
    have d0 : (frenet1 exSloped).v 0 0 = 3 / 5 := by
      apply frenet1_plane hs' rfl (a := 3) (b := 4) (n := 5) <;>
        norm_num [firstderiv, gradient, exSloped, Curve.mat, npGradient]
    have d1 : (frenet1 exSloped).v 1 0 = 3 / 5 := by
      apply frenet1_plane hs' rfl (a := 3) (b := 4) (n := 5) <;>
        norm_num [firstderiv, gradient, exSloped, Curve.mat, npGradient]
    unfold coordOf
    rw [PPoly.row_getD _ (by simp [exSloped, Curve.mat]), PPoly.coord_on (i := 0) ht' (by simp [exSloped, Curve.t]) 0 (.inl rfl)
      (.inr (by simp only [zero_add]; rw [k1]; norm_num))]
    unfold PPoly.cub
    simp only [zero_add]
    rw [k0, k1, d0, d1]
    simp [hermR, exSloped, Curve.mat]
    norm_num

/-- A step of the first coordinate; the second one is `b` times it. -/
def exStep (b : ℝ) : Curve ℝ := ⟨[[0, 0], [0, 0], [1, b], [1, b]], 2, some [0, 1, 2, 3], .float⟩

theorem exStep_WF (b : ℝ) : WF (exStep b) where
  two_le := by simp [exStep]
  rect := by simp [exStep]
  tlen := by simp [exStep]
  repr := by intro r _ x _; rfl

theorem exStep_lt (b junk : ℝ) : ((exStep b).t junk).Pairwise (· < ·) := by simp [exStep, Curve.t]; norm_num

theorem exStep_column (b b' : ℝ) : SameColumn 0 0 (exStep b) (exStep b') := by
  refine ⟨rfl, by simp [exStep], by simp [exStep], ?_⟩
  intro i hi
  have hi : i < 4 := hi
  interval_cases i <;> simp [at2, exStep]

theorem exStep_top (b junk : ℝ) : akimaTop ((exStep b).t junk) (exStep b).mat = max 2 (2 * |b|) := by
  have e : ∀ i, i < 7 → akimaM 4 (fun i => ((exStep b).t junk).getD i 0) (fun i => (exStep b).mat.v i 0) i = [-2, -1, 0, 1, 0, -1, -2].getD i 0 ∧
      akimaM 4 (fun i => ((exStep b).t junk).getD i 0) (fun i => (exStep b).mat.v i 1) i = b * [-2, -1, 0, 1, 0, -1, -2].getD i 0 := by
    intro i hi
    interval_cases i <;> simp [akimaM, exStep, Curve.t, Curve.mat] <;> norm_num <;> ring
  unfold akimaTop
  have hl : ((exStep b).t junk).length = 4 := rfl
  have hk : (exStep b).mat.k = 2 := rfl
  rw [hl, hk]
  have r2 : List.range 2 = [0, 1] := rfl
  have r4 : List.range 4 = [0, 1, 2, 3] := rfl
  rw [r2, r4]
  simp only [List.flatMap_cons, List.flatMap_nil, List.map_cons, List.map_nil, List.append_nil, akimaF12]
  simp only [(e 0 (by omega)).1, (e 1 (by omega)).1, (e 2 (by omega)).1, (e 3 (by omega)).1, (e 4 (by omega)).1, (e 5 (by omega)).1,
    (e 6 (by omega)).1, (e 0 (by omega)).2, (e 1 (by omega)).2, (e 2 (by omega)).2, (e 3 (by omega)).2, (e 4 (by omega)).2, (e 5 (by omega)).2,
    (e 6 (by omega)).2, Nat.reduceAdd]
  simp only [List.getD_cons_zero, List.getD_cons_succ, ← mul_sub, abs_mul]
  norm_num
  rw [show |b| + |b| = 2 * |b| by ring]

/-- The first coordinate of the interpolation at 5/4. -/
theorem exStep_value {b junk : ℝ} {lib : SplineLib} {r : KwReg} {m : String} (hr : IsAkima lib junk r m) :
    ∃ F, EvaluatesTo (exStep b) (fun g => (exStep b).interpolate r g m .none) (WithinEnds ((exStep b).t junk)) F ∧
      coordOf 0 (F (5 / 4)) = if 1 / 10 ^ 9 * max 2 (2 * |b|) < 2 then 13 / 64 else 7 / 64 := by
  have hs : 2 ≤ (exStep b).size := by simp [exStep, Curve.size]
  have ht := exStep_lt b junk
  have ak := akima_cons (exStep_WF b) hs ht lib
  rw [if_neg (show ¬ (exStep b).size < 3 by simp [exStep, Curve.size])] at ak
  refine ⟨_, spline_eval (exStep_WF b) hs ht (by simp [exStep]) hr ak rfl rfl (.inr ⟨rfl, fun x hx => hx⟩), ?_⟩
  have k1 : knot ((exStep b).t junk) 1 = 1 := knot_eq rfl
  have k2 : knot ((exStep b).t junk) 2 = 2 := knot_eq rfl
  have e : ∀ i, i < 7 → akimaM 4 (fun i => ((exStep b).t junk).getD i 0) (fun i => (exStep b).mat.v i 0) i =
      [-2, -1, 0, 1, 0, -1, -2].getD i 0 := by
    intro i hi
    interval_cases i <;> simp [akimaM, exStep, Curve.t, Curve.mat] <;> norm_num
  have d : ∀ i, i = 1 ∨ i = 2 → (akimaSlopes ((exStep b).t junk) (exStep b).mat).v i 0 =
      if 1 / 10 ^ 9 * max 2 (2 * |b|) < 2 then 1 / 2 else -1 / 2 := by
    intro i hi
    rw [akimaSlopes_v, exStep_top]
    have hl : ((exStep b).t junk).length = 4 := rfl
    rw [hl]
    unfold akimaSlope akimaF12
    rcases hi with rfl | rfl
    · simp only [e 1 (by omega), e 2 (by omega), e 3 (by omega), e 4 (by omega), Nat.reduceAdd, List.getD_cons_zero, List.getD_cons_succ]
      norm_num
    · simp only [e 2 (by omega), e 3 (by omega), e 4 (by omega), e 5 (by omega), Nat.reduceAdd, List.getD_cons_zero, List.getD_cons_succ]
      norm_num
  unfold coordOf
  rw [PPoly.row_getD _ (by simp [exStep, Curve.mat]), PPoly.coord_on (i := 1) ht (by simp [exStep, Curve.t]) 0
    (.inr (by rw [k1]; norm_num)) (.inr (by simp only [Nat.reduceAdd]; rw [k2]; norm_num))]
  unfold PPoly.cub
  simp only [Nat.reduceAdd]
  rw [k1, k2, d 1 (.inl rfl), d 2 (.inr rfl)]
  by_cases h : 1 / 10 ^ 9 * max 2 (2 * |b|) < 2
  · simp only [if_pos h]; simp [hermR, exStep, Curve.mat]; norm_num
  · simp only [if_neg h]; simp [hermR, exStep, Curve.mat]; norm_num

/-- **C105 fails for `akima`.** Whether a slope is a weighted mean depends on the largest slopes of all coordinates: with a second
coordinate that is zero the first one is 13/64 at 5/4, with one that steps by 10¹⁰ it is 7/64. -/
theorem C105_akima_fails {junk : ℝ} {lib : SplineLib} {r : KwReg} {m : String} (hr : IsAkima lib junk r m) :
    SameColumn 0 0 (exStep 0) (exStep (10 ^ 10)) ∧ (exStep (10 ^ 10)).t junk = (exStep 0).t junk ∧
    ∃ F F', EvaluatesTo (exStep 0) (fun g => (exStep 0).interpolate r g m .none) (WithinEnds ((exStep 0).t junk)) F ∧
      EvaluatesTo (exStep (10 ^ 10)) (fun g => (exStep (10 ^ 10)).interpolate r g m .none) (WithinEnds ((exStep 0).t junk)) F' ∧
      coordOf 0 (F (5 / 4)) = 13 / 64 ∧ coordOf 0 (F' (5 / 4)) = 7 / 64 := by
  obtain ⟨F, h1, h2⟩ := exStep_value (b := 0) (junk := junk) hr
  obtain ⟨F', h1', h2'⟩ := exStep_value (b := 10 ^ 10) (junk := junk) hr
  refine ⟨exStep_column _ _, rfl, F, F', h1, h1', ?_, ?_⟩
  · rw [h2, if_pos]; norm_num
  · rw [h2', if_neg]; norm_num

/-! ## Instances -/

example (lib : SplineLib) (hlib : NaturalOk lib) : ∃ F F',
    EvaluatesTo exFlat (fun g => exFlat.interpolate (builtinInterp lib 0) g "cubic" .none) (fun _ => True) F ∧
    EvaluatesTo exSloped (fun g => exSloped.interpolate (builtinInterp lib 0) g "cubic" .none) (fun _ => True) F' ∧
    coordOf 0 (F' (1 / 4)) = coordOf 0 (F (1 / 4)) := by
  obtain ⟨F, F', h1, h2, h3⟩ := C105_splines exFlat_WF exSloped_WF (by simp [exFlat, Curve.size]) exFlat_column (exFlat_lt 0) rfl
    (by simp [exFlat]) (by simp [exSloped]) (.inr ⟨hlib, (builtin_names lib 0).2.2.2.2⟩)
  exact ⟨F, F', h1, h2, (h3 (1 / 4)).2.2⟩

example : ∃ F F', EvaluatesTo exFlat (fun g => exFlat.interpolate (linearReg 0) g "linear" true)
      (fun x => true = true ∨ WithinEnds (exFlat.t 0) x) F ∧
    EvaluatesTo exSloped (fun g => exSloped.interpolate (linearReg 0) g "linear" true) (fun x => true = true ∨ WithinEnds (exFlat.t 0) x) F' ∧
    coordOf 0 (F' (1 / 4)) = coordOf 0 (F (1 / 4)) := by
  obtain ⟨F, F', h1, h2, h3⟩ := C105_linear exFlat_WF exSloped_WF (by simp [exFlat, Curve.size]) exFlat_column (exFlat_lt 0) rfl
    (by simp [exFlat]) (by simp [exSloped]) (isLinear_linearReg 0) true
  exact ⟨F, F', h1, h2, (h3 (1 / 4)).2.2⟩

/-- `exSloped` with the coordinates exchanged and one repeated. -/
def exSloped3 : Curve ℝ := ⟨[[0, 0, 0], [4, 3, 4], [8, 6, 8]], 3, some [0, 1, 2], .float⟩

theorem exSloped3_WF : WF exSloped3 where
  two_le := by simp [exSloped3]
  rect := by simp [exSloped3]
  tlen := by simp [exSloped3]
  repr := by intro r _ x _; rfl

theorem exSloped3_columns : SameColumn 0 1 exSloped exSloped3 ∧ SameColumn 1 0 exSloped exSloped3 ∧ SameColumn 1 2 exSloped exSloped3 := by
  refine ⟨⟨rfl, by simp [exSloped], by simp [exSloped3], ?_⟩, ⟨rfl, by simp [exSloped], by simp [exSloped3], ?_⟩,
    ⟨rfl, by simp [exSloped], by simp [exSloped3], ?_⟩⟩ <;>
  · intro i hi
    have hi : i < 3 := hi
    interval_cases i <;> simp [at2, exSloped, exSloped3]

example (lib : SplineLib) : ∃ F F',
    EvaluatesTo exSloped (fun g => exSloped.interpolate (builtinInterp lib 0) g "akima" .none) (WithinEnds (exSloped.t 0)) F ∧
    EvaluatesTo exSloped3 (fun g => exSloped3.interpolate (builtinInterp lib 0) g "akima" .none) (WithinEnds (exSloped.t 0)) F' ∧
    coordOf 2 (F' (1 / 4)) = coordOf 1 (F (1 / 4)) := by
  obtain ⟨c1, c2, c3⟩ := exSloped3_columns
  obtain ⟨F, F', h1, h2, h3⟩ := C105_akima_partial exSloped_WF exSloped3_WF (by simp [exSloped, Curve.size])
    ⟨by
      intro j hj
      have hj : j < 2 := hj
      interval_cases j
      exacts [⟨_, c1⟩, ⟨_, c2⟩], by
      intro j hj
      have hj : j < 3 := hj
      interval_cases j
      exacts [⟨_, c2⟩, ⟨_, c1⟩, ⟨_, c3⟩]⟩ (exSloped_lt 0) rfl
    (by simp [exSloped]) (by simp [exSloped3]) (builtin_names lib 0).2.2.2.1
  exact ⟨F, F', h1, h2, (h3 (1 / 4)).2.2 1 2 c3⟩

/-- The method `spline` with its default arguments. -/
example (lib : SplineLib) (f : Nat → Val ℝ → Except PyErr (Val ℝ))
    (hf : ∀ j, j < 2 → lib.univariate (.int 3) (.real 0) .none (.int 0) [0, 1, 2, 3] (column j (exStep 1)) = .ok (f j))
    (v : Nat → ℝ → Val ℝ) (hv : ∀ j x, f j (.fin x) = .ok (v j x)) :
    (exStep 1).interpolate (builtinInterp lib 0) (.arr (.ok (GridArr.of (fins [0, 1 / 2])))) "spline" .none =
      .ok ⟨[[v 0 0, v 1 0], [v 0 (1 / 2), v 1 (1 / 2)]], 2, some [.fin 0, .fin (1 / 2)], .float⟩ :=
  C105_univariate (exStep_WF 1) (by simp [exStep, Curve.size]) (junk := 0) (lib := lib) rfl (kw := .none) rfl (by simp [exStep]) (f := f) hf
    (by simp) (by
      intro i x y h1 h2
      cases i with
      | zero => simp at h1 h2; subst h1 h2; norm_num
      | succ i => simp at h2) (v := v) (fun j x _ _ => hv j x)

end Verif.Props
