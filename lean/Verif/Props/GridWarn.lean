import Verif.Props.Grid

/-!
Refusals of the grids (C60, C61) and the warning about the range of a grid (C145).
-/
namespace Verif.Props

open Verif Verif.Np Verif.Model Verif.Spec

/-! ## C60, C61: refusals -/

/-- **C60 (refusals).** A zero `fill` is a ZeroDivisionError, NaN a ValueError, on every curve with two points; an infinite
one gives the grid with the first parameter value alone. -/
theorem C60_reject (junk : ℝ) {c : Curve ℝ} (hc : WF c) (hs : 2 ≤ c.size) :
    (∀ p, IsFill p 0 → ∃ g, UniformGrid.init p "length" = .ok g ∧ g.call junk c = .error .zeroDivision) ∧
    (∃ g, UniformGrid.init (.float .nan) "length" = .ok g ∧ g.call junk c = .error .valueError) ∧
    (∃ g a, UniformGrid.init (.float .pinf) "length" = .ok g ∧ (c.t junk).head? = some a ∧
      g.call junk c = .ok (fins [a])) := by
  refine ⟨?_, ?_, ?_⟩
  · rintro p hp
    have hval : p.val = .fin 0 := by
      rcases hp with rfl | ⟨n, rfl, h⟩
      · rfl
      · simp [PyNum.val, h]
    have hn : p.isNum = true := by
      rcases hp with rfl | ⟨n, rfl, h⟩ <;> rfl
    refine ⟨⟨p, .length⟩, by simp [UniformGrid.init, GridKind.ofString, hn], ?_⟩
    unfold UniformGrid.call
    rw [if_neg (by omega)]
    simp [UniformGrid.pcount, pyDiv, hval, bind, Except.bind]
  · refine ⟨⟨.float .nan, .length⟩, by simp [UniformGrid.init, GridKind.ofString, PyNum.isNum], ?_⟩
    unfold UniformGrid.call
    rw [if_neg (by omega)]
    simp [UniformGrid.pcount, pyDiv, PyNum.val, bind, Except.bind, Val.div, roundInt]
  · refine ⟨⟨.float .pinf, .length⟩, _, by simp [UniformGrid.init, GridKind.ofString, PyNum.isNum],
      (t_ends hc (rows_ne_of_size hs) junk).1, ?_⟩
    have h0 : roundEven 0 = 0 := by simp [roundEven]
    unfold UniformGrid.call
    rw [if_neg (by omega)]
    simp [UniformGrid.pcount, pyDiv, PyNum.val, bind, Except.bind, Val.div, roundInt, h0, pure, Except.pure, linspace, fins,
      Val.mul, Val.sub, Val.neg, Val.add]

/-- **C61 (refusals).** The constructor: a ValueError for an unknown kind; for `point` both numbers must be `int`, for
`length` both must be `int` or `float`, otherwise it is a TypeError; everything else is accepted. -/
theorem C61_reject (G : GridFn) (p q : PyNum) (kind : String) :
    (kind ≠ "point" → kind ≠ "length" → ExtrapGrid.init G p q kind = .error .valueError) ∧
    ((∃ E, ExtrapGrid.init G p q "point" = .ok E) ↔ (∃ b a : Int, p = .int b ∧ q = .int a)) ∧
    ((¬ ∃ b a : Int, p = .int b ∧ q = .int a) → ExtrapGrid.init G p q "point" = .error .typeError) ∧
    ((∃ E, ExtrapGrid.init G p q "length" = .ok E) ↔ p ≠ .other ∧ q ≠ .other) ∧
    (p = .other ∨ q = .other → ExtrapGrid.init G p q "length" = .error .typeError) := by
  refine ⟨fun h1 h2 => by simp [ExtrapGrid.init, GridKind.ofString, h1, h2], ?_, ?_, ?_, ?_⟩ <;>
    cases p <;> cases q <;> simp [ExtrapGrid.init, GridKind.ofString, PyNum.isInt, PyNum.isNum]

/-- **C61 (refused lengths).** With kind `length` a grid with one value has no step: a ValueError. A grid whose values are
all the same has the step 0: an OverflowError if something is to be added before it. -/
theorem C61_length_reject (G : GridFn) (c : Curve ℝ) (x : ℝ) (n : Nat) (hG : G c = .ok (fins (List.replicate (n + 1) x)))
    {p q : PyNum} {u : ℝ} (hp : IsFill p u) (hu : u ≠ 0) (hq : q ≠ .other) :
    ∃ E, ExtrapGrid.init G p q "length" = .ok E ∧
      (n = 0 → E.call c = .error .valueError) ∧ (n ≠ 0 → E.call c = .error .overflowError) := by
  have hval : p.val = .fin u := by
    rcases hp with rfl | ⟨n, rfl, h⟩
    · rfl
    · simp [PyNum.val, h]
  have hn : p.isNum = true := by
    rcases hp with rfl | ⟨n, rfl, h⟩ <;> rfl
  have hqn : q.isNum = true := by cases q <;> simp_all [PyNum.isNum]
  refine ⟨⟨G, p, q, .length⟩, by simp [ExtrapGrid.init, GridKind.ofString, hn, hqn], ?_, ?_⟩
  · rintro rfl
    have hm : meanV (diffV (fins [x])) = .nan := by simp [meanV, diffV, fins, Val.div, Val.infOfSign]
    unfold ExtrapGrid.call
    simp only [hG, bind, Except.bind, List.replicate, hm, extrapCount, hval, Val.div, roundInt]
  · intro h0
    have hd : diffV (fins (List.replicate (n + 1) x)) = fins (List.replicate n 0) := by
      have : (fins (List.replicate (n + 1) x)).tail = List.replicate n (.fin x) := by simp [fins]
      unfold diffV
      rw [this]
      have h2 : fins (List.replicate (n + 1) x) = List.replicate n (.fin x) ++ [.fin x] := by
        simp [fins, List.replicate_succ']
      rw [h2]
      apply List.ext_getElem?
      intro i
      simp only [List.getElem?_zipWith, fins, List.map_replicate, List.getElem?_replicate, List.getElem?_append,
        List.length_replicate]
      by_cases hi : i < n <;> simp [hi, Val.sub_fin]
    have hs : ∀ (m : Nat), (fins (List.replicate m (0 : ℝ))).foldl Val.add (.fin 0) = .fin 0 := by
      intro m
      induction m with
      | zero => rfl
      | succ m ih => simp only [fins, List.map_replicate, List.replicate_succ, List.foldl_cons] at ih ⊢; simpa using ih
    have hm : meanV (diffV (fins (List.replicate (n + 1) x))) = .fin 0 := by
      rw [hd]
      unfold meanV
      rw [hs, Val.div_fin (by simp [fins]; exact h0)]
      simp
    unfold ExtrapGrid.call
    simp only [hG, bind, Except.bind, hm, extrapCount, hval]
    have : (Val.fin u).div (.fin 0) = .pinf ∨ (Val.fin u).div (.fin 0) = .ninf := by
      simp only [Val.div, Val.infOfSign]
      rcases lt_or_gt_of_ne hu with h | h
      · right; simp [h, h.not_gt]
      · left; simp [h]
    rcases this with h | h <;> rw [h] <;> rfl

/-! ## C145: the warning -/

/-- The values reach from `a` or below to `b` or above. -/
def Covers (xs : List ℝ) (a b : ℝ) : Prop := (∃ x ∈ xs, x ≤ a) ∧ ∃ x ∈ xs, b ≤ x

theorem exists_min_mem : ∀ (xs : List ℝ), xs ≠ [] → ∃ lo ∈ xs, ∀ x ∈ xs, lo ≤ x := by
  intro xs
  induction xs with
  | nil => intro h; exact absurd rfl h
  | cons x xs ih =>
    intro _
    by_cases h : xs = []
    · subst h; exact ⟨x, by simp, by simp⟩
    · obtain ⟨lo, h1, h2⟩ := ih h
      rcases le_total x lo with h3 | h3
      · exact ⟨x, by simp, by simp only [List.mem_cons, forall_eq_or_imp]; exact ⟨le_refl _, fun y hy => h3.trans (h2 y hy)⟩⟩
      · exact ⟨lo, by simp [h1], by simp only [List.mem_cons, forall_eq_or_imp]; exact ⟨h3, h2⟩⟩

theorem exists_max_mem (xs : List ℝ) (hne : xs ≠ []) : ∃ hi ∈ xs, ∀ x ∈ xs, x ≤ hi := by
  obtain ⟨lo, h1, h2⟩ := exists_min_mem (xs.map Neg.neg) (by simpa using hne)
  obtain ⟨y, hy, rfl⟩ := List.mem_map.1 h1
  exact ⟨y, hy, fun x hx => by have := h2 (-x) (List.mem_map_of_mem hx); linarith⟩

/-- What is returned by an accepted specification. -/
theorem getGrid_ok {junk : ℝ} {c : Curve ℝ} {spec : GridSpec} {vals : List (Val ℝ)} {w : Bool}
    (h : getGrid junk c spec = .ok (vals, w)) : ∃ lo hi, npMin vals = .ok lo ∧ npMax vals = .ok hi ∧
      w = ((Val.fin (tFirst junk c)).ltB lo || hi.ltB (.fin (tLast junk c))) := by
  unfold getGrid at h
  cases hg : gridOfSpec junk c spec with
  | error e => rw [hg] at h; cases h
  | ok g =>
    rw [hg] at h
    simp only [bind, Except.bind] at h
    split_ifs at h
    cases h1 : npMin g.vals with
    | error e => rw [h1] at h; cases h
    | ok lo =>
      cases h2 : npMax g.vals with
      | error e => rw [h1, h2] at h; cases h
      | ok hi =>
        rw [h1, h2] at h
        simp only [pure, Except.pure, Except.ok.injEq, Prod.mk.injEq] at h
        obtain ⟨rfl, h⟩ := h
        exact ⟨lo, hi, h1, h2, h.symm⟩

/-- **C145 (finite grids, partial).** However the grid was specified: if it is accepted and has finite values, the warning
is given iff it does not cover the parameter range of the curve. Missing: grids with NaN, see `C145_nan_fails`. -/
theorem C145_warning_partial {junk : ℝ} {c : Curve ℝ} (hc : WF c) (hs : 2 ≤ c.size) {spec : GridSpec} {xs : List ℝ} {w : Bool}
    (h : getGrid junk c spec = .ok (fins xs, w)) :
    ∃ a b, (c.t junk).head? = some a ∧ (c.t junk).getLast? = some b ∧ (w = true ↔ ¬ Covers xs a b) := by
  obtain ⟨ha, hb⟩ := t_ends hc (rows_ne_of_size hs) junk
  refine ⟨_, _, ha, hb, ?_⟩
  obtain ⟨lo, hi, h1, h2, rfl⟩ := getGrid_ok h
  have hne : xs ≠ [] := by
    rintro rfl
    simp [fins, npMin] at h1
  obtain ⟨l, hl, hl'⟩ := exists_min_mem xs hne
  obtain ⟨m, hm, hm'⟩ := exists_max_mem xs hne
  rw [npMin_fins hl hl'] at h1
  rw [npMax_fins hm hm'] at h2
  cases h1; cases h2
  simp only [Val.ltB_fin, Bool.or_eq_true, decide_eq_true_eq, Covers, not_and_or, not_exists, not_le]
  constructor
  · rintro (h | h)
    · exact .inl fun x => or_iff_not_imp_left.2 fun hx => h.trans_le (hl' x (not_not.1 hx))
    · exact .inr fun x => or_iff_not_imp_left.2 fun hx => (hm' x (not_not.1 hx)).trans_lt h
  · rintro (h | h)
    · exact .inl ((h l).resolve_left (not_not.2 hl))
    · exact .inr ((h m).resolve_left (not_not.2 hm))

theorem npmin_nan (x : Val ℝ) : (Val.nan : Val ℝ).npmin x = .nan ∧ x.npmin .nan = .nan := by
  cases x <;> simp [Val.npmin]

theorem npmax_nan (x : Val ℝ) : (Val.nan : Val ℝ).npmax x = .nan ∧ x.npmax .nan = .nan := by
  cases x <;> simp [Val.npmax]

theorem foldl_npmin_nan (vals : List (Val ℝ)) : ∀ x, x = .nan ∨ .nan ∈ vals → vals.foldl Val.npmin x = .nan := by
  induction vals with
  | nil => intro x h; simpa using h
  | cons v vals ih =>
    intro x h
    apply ih
    rcases h with rfl | h
    · exact .inl (npmin_nan v).1
    · rcases List.mem_cons.1 h with rfl | h
      · exact .inl (npmin_nan x).2
      · exact .inr h

theorem foldl_npmax_nan (vals : List (Val ℝ)) : ∀ x, x = .nan ∨ .nan ∈ vals → vals.foldl Val.npmax x = .nan := by
  induction vals with
  | nil => intro x h; simpa using h
  | cons v vals ih =>
    intro x h
    apply ih
    rcases h with rfl | h
    · exact .inl (npmax_nan v).1
    · rcases List.mem_cons.1 h with rfl | h
      · exact .inl (npmax_nan x).2
      · exact .inr h

/-- **C145 (NaN).** A grid with a NaN somewhere never gives the warning. -/
theorem C145_nan {junk : ℝ} {c : Curve ℝ} {spec : GridSpec} {vals : List (Val ℝ)} {w : Bool}
    (h : getGrid junk c spec = .ok (vals, w)) (hn : .nan ∈ vals) : w = false := by
  obtain ⟨lo, hi, h1, h2, rfl⟩ := getGrid_ok h
  cases vals with
  | nil => simp at hn
  | cons v vals =>
    have hn' : v = .nan ∨ .nan ∈ vals := by
      rcases List.mem_cons.1 hn with h | h
      · exact .inl h.symm
      · exact .inr h
    simp only [npMin, foldl_npmin_nan vals v hn', Except.ok.injEq] at h1
    simp only [npMax, foldl_npmax_nan vals v hn', Except.ok.injEq] at h2
    subst h1 h2
    rfl

/-- **C145 (violated).** Every curve with two points accepts the grid `t₀ + 1, NaN`: no value is at or below the first
parameter value, and there is no warning. -/
theorem C145_nan_fails (junk : ℝ) {c : Curve ℝ} (hc : WF c) (hs : 2 ≤ c.size) :
    ∃ a, (c.t junk).head? = some a ∧
      getGrid junk c (.arr (.ok (GridArr.of [.fin (a + 1), .nan]))) = .ok ([.fin (a + 1), .nan], false) := by
  obtain ⟨ha, hb⟩ := t_ends hc (rows_ne_of_size hs) junk
  refine ⟨_, ha, ?_⟩
  unfold getGrid
  simp [gridOfSpec, bind, Except.bind, GridArr.of, badSteps, diffV, Val.sub, Val.add, Val.neg, Val.ltB, Val.isclose,
    Val.ieeeEq, npMin, npMax, Val.npmin, Val.npmax, pure, Except.pure]

/-- **C145 (a number of points).** The grid of a number of points never gives the warning. -/
theorem C145_int {junk : ℝ} {c : Curve ℝ} (hc : WF c) (hs : 2 ≤ c.size) {n : Int} {vals : List (Val ℝ)} {w : Bool}
    (h : getGrid junk c (.int n) = .ok (vals, w)) : w = false := by
  have hn : 2 ≤ n := by
    by_contra hlt
    have := C59_errors.1 n (by omega)
    unfold getGrid at h
    simp [gridOfSpec, this, bind, Except.bind] at h
  obtain ⟨m, rfl⟩ := Int.eq_ofNat_of_zero_le (show 0 ≤ n by omega)
  obtain ⟨g, xs, a, b, h1, h2, ha, hb, he, _⟩ := C59_uniform hc hs junk m (by omega)
  have hv : vals = fins xs := by
    unfold getGrid at h
    simp only [gridOfSpec, h1, h2, bind, Except.bind, pure, Except.pure, GridArr.of] at h
    split_ifs at h
    cases h3 : npMin (fins xs) with
    | error e => rw [h3] at h; cases h
    | ok lo =>
      cases h4 : npMax (fins xs) with
      | error e => rw [h3, h4] at h; cases h
      | ok hi =>
        rw [h3, h4] at h
        simp only [Except.ok.injEq, Prod.mk.injEq] at h
        exact h.1.symm
  subst hv
  obtain ⟨a', b', ha', hb', hw⟩ := C145_warning_partial hc hs h
  rw [ha] at ha'; cases ha'
  rw [hb] at hb'; cases hb'
  by_contra hc'
  rw [Bool.not_eq_false] at hc'
  refine hw.1 hc' ⟨⟨a, ?_, le_refl _⟩, ⟨b, ?_, le_refl _⟩⟩
  · exact List.mem_of_mem_head? he.first
  · exact List.mem_of_getLast? he.last

theorem getGrid_vals {junk : ℝ} {c : Curve ℝ} {f : GridFn} {vs vals : List (Val ℝ)} {w : Bool} (hf : f c = .ok vs)
    (h : getGrid junk c (.obj fun c => (f c).map GridArr.of) = .ok (vals, w)) : vals = vs := by
  unfold getGrid at h
  simp only [gridOfSpec, hf, bind, Except.bind, pure, Except.pure, GridArr.of, Except.map] at h
  split_ifs at h
  cases h3 : npMin vs with
  | error e => rw [h3] at h; cases h
  | ok lo =>
    cases h4 : npMax vs with
    | error e => rw [h3, h4] at h; cases h
    | ok hi =>
      rw [h3, h4] at h
      simp only [Except.ok.injEq, Prod.mk.injEq] at h
      exact h.1.symm

/-- **C145 (extrapolation).** `UniformExtrapolationGrid` over a grid that covers the parameter range never gives the
warning, whatever is added before and after. -/
theorem C145_extrapolate {junk : ℝ} {c : Curve ℝ} (hc : WF c) (hs : 2 ≤ c.size) {G : GridFn} {x : ℝ} {xs : List ℝ}
    (hG : G c = .ok (fins (x :: xs))) (hne : xs ≠ [])
    (hcov : ∀ a b, (c.t junk).head? = some a → (c.t junk).getLast? = some b → Covers (x :: xs) a b) (b a : Nat) {E : ExtrapGrid}
    (hE : ExtrapGrid.init G (.int b) (.int a) "point" = .ok E) {vals : List (Val ℝ)} {w : Bool}
    (h : getGrid junk c (.obj fun c => (E.call c).map GridArr.of) = .ok (vals, w)) : w = false := by
  obtain ⟨E', bs, as, h1, h2, _⟩ := C61_extrapolate_partial G c x xs hG hne b a
  rw [hE] at h1; cases h1
  have hv := getGrid_vals (f := fun c => E.call c) h2 h
  subst hv
  obtain ⟨a', b', ha', hb', hw⟩ := C145_warning_partial hc hs h
  by_contra hc'
  rw [Bool.not_eq_false] at hc'
  obtain ⟨⟨y, hy, hy'⟩, ⟨z, hz, hz'⟩⟩ := hcov a' b' ha' hb'
  exact hw.1 hc' ⟨⟨y, by simp only [List.mem_append]; exact .inl (.inr hy), hy'⟩, ⟨z, by simp only [List.mem_append]; exact .inl (.inr hz), hz'⟩⟩

/-- **C145 (preserved speed).** The preserved-speed grid of a non-parametric curve never gives the warning. -/
theorem C145_speed {junk : ℝ} {c : Curve ℝ} (hc : WF c) (hs : 2 ≤ c.size) (hpar : c.isparametric = false)
    (hpos : 0 < pathLen c.ncols c.rows) (n : Nat) (hn : 2 ≤ n) {vals : List (Val ℝ)} {w : Bool}
    (h : getGrid junk c (.obj fun c => (speedGrid junk (.int n) c).map GridArr.of) = .ok (vals, w)) : w = false := by
  obtain ⟨xs, h1, _, h2, h3, _⟩ := C62_speed hc hs hpar junk hpos n hn
  have hv := getGrid_vals (f := fun c => speedGrid junk (.int n) c) h1 h
  subst hv
  obtain ⟨g, k, a, b, _, _, _, ha, hb, hab, _⟩ := C60_length_partial hc hs junk (p := .int 1) (f := 1) (.inr ⟨1, rfl, by norm_num⟩) one_pos
  obtain ⟨rfl, rfl⟩ := hab hpar
  obtain ⟨a', b', ha', hb', hw⟩ := C145_warning_partial hc hs h
  rw [ha] at ha'; cases ha'
  rw [hb] at hb'; cases hb'
  by_contra hc'
  rw [Bool.not_eq_false] at hc'
  exact hw.1 hc' ⟨⟨_, List.mem_of_mem_head? h2, le_refl _⟩, ⟨_, List.mem_of_getLast? h3, le_refl _⟩⟩

/-- **C145 (result).** The result depends on the values only, not on whether the warning was given. -/
theorem C145_call {junk : ℝ} {c : Curve ℝ} (hs : 2 ≤ c.size) (impl : InterpImpl) {spec spec' : GridSpec}
    {vals : List (Val ℝ)} {w w' : Bool} (h : getGrid junk c spec = .ok (vals, w)) (h' : getGrid junk c spec' = .ok (vals, w')) :
    interpolatorCall junk c impl spec = interpolatorCall junk c impl spec' := by
  unfold interpolatorCall
  rw [if_neg (by omega), if_neg (by omega), if_neg (by omega), if_neg (by omega), h, h']
  rfl

/-! ## The hypotheses are met -/

/-- C60: the path of length 7. -/
example : ∃ g, UniformGrid.init (.float .nan) "length" = .ok g ∧ g.call 0 exPath = .error .valueError :=
  (C60_reject 0 exPath_WF exPath_size).2.1

/-- C61: a length before a constant grid and before a grid with one value. -/
example : ∃ E, ExtrapGrid.init (fun _ => .ok (fins [3, 3])) (.int 2) (.int 0) "length" = .ok E ∧
    E.call exPath = .error .overflowError := by
  obtain ⟨E, h1, _, h2⟩ := C61_length_reject (fun _ => .ok (fins [3, 3])) exPath 3 1 rfl (p := .int 2) (q := .int 0) (u := 2)
    (.inr ⟨2, rfl, by norm_num⟩) (by norm_num) (by simp)
  exact ⟨E, h1, h2 (by norm_num)⟩

/-- C145: the grid 1, 2 of the path of length 7 is accepted with the warning. -/
example : ∃ w, getGrid 0 exPath (.arr (.ok (GridArr.of (fins [1, 2])))) = .ok (fins [1, 2], w) :=
  getGrid_fins 0 exPath [1, 2] (by simp) (by
    intro i x y hx hy
    match i with
    | 0 => simp at hx hy; subst hx hy; norm_num
    | (k + 1) => simp at hy)

/-- C145: a grid that covers the range from 0 to 7 and one that does not. -/
example : Covers [0, 4, 7] 0 7 ∧ ¬ Covers [1, 2] 0 7 := by
  constructor
  · exact ⟨⟨0, by simp, le_refl _⟩, ⟨7, by simp, le_refl _⟩⟩
  · rintro ⟨⟨x, hx, hx'⟩, _⟩
    simp only [List.mem_cons, List.not_mem_nil, or_false] at hx
    rcases hx with rfl | rfl <;> norm_num at hx'

/-! ## Concrete cases -/

example := (C61_reject (fun _ => .ok (fins [0, 1])) (.int 1) (.int 2) "points").1 (by decide) (by decide)
example := (C61_reject (fun _ => .ok (fins [0, 1])) (.int 1) (.float (.fin 2)) "point").2.2.1 (by simp)
example := (C61_reject (fun _ => .ok (fins [0, 1])) (.int 1) .other "length").2.2.2.2 (.inr rfl)

theorem exStepsOver : StepsOver [1, 2] := by
  intro i x y hx hy
  match i with
  | 0 => simp at hx hy; subst hx hy; norm_num
  | (k + 1) => simp at hy

/-- `C145_warning_partial`: the grid 1, 2 of the path of length 7. -/
example : ∃ w a b, getGrid 0 exPath (.arr (.ok (GridArr.of (fins [1, 2])))) = .ok (fins [1, 2], w) ∧ (exPath.t 0).head? = some a ∧ (exPath.t 0).getLast? = some b ∧ (w = true ↔ ¬ Covers [1, 2] a b) := by
  obtain ⟨w, hw⟩ := getGrid_fins 0 exPath [1, 2] (by simp) exStepsOver
  obtain ⟨a, b, h⟩ := C145_warning_partial exPath_WF exPath_size hw
  exact ⟨w, a, b, hw, h⟩

theorem exStepsOver07 : StepsOver [0, 7] := by
  intro i x y hx hy
  match i with
  | 0 => simp at hx hy; subst hx hy; norm_num
  | (k + 1) => simp at hy

theorem ex_two_values {xs : List ℝ} {a b : ℝ} (hl : xs.length = 2) (h1 : xs.head? = some a) (h2 : xs.getLast? = some b) : xs = [a, b] := by
  match xs, hl with
  | [x, y], _ => simp at h1 h2; rw [h1, h2]

theorem getGrid_spec (c : Curve ℝ) {spec : GridSpec} (h : gridOfSpec 0 c spec = .ok (GridArr.of (fins [0, 7]))) : ∃ w, getGrid 0 c spec = .ok (fins [0, 7], w) := by
  obtain ⟨w, hw⟩ := getGrid_fins 0 c [0, 7] (by simp) exStepsOver07
  refine ⟨w, ?_⟩
  rw [← hw]
  unfold getGrid
  rw [h]
  rfl

theorem exPath_ends : (exPath.t 0).head? = some 0 ∧ (exPath.t 0).getLast? = some 7 := by
  obtain ⟨g, k, a, b, h1, h2, h3, h4, h5, h6, h7⟩ := C60_length_partial exPath_WF exPath_size 0 (p := .int 2) (f := 2) (.inr ⟨2, rfl, by norm_num⟩) (by norm_num)
  obtain ⟨ha, hb⟩ := h6 rfl
  rw [h4, h5, ha, hb, exPath_pathLen]
  exact ⟨rfl, rfl⟩

/-- `C145_int`: two values on the path. -/
example : ∃ w, getGrid 0 exPath (.int 2) = .ok (fins [0, 7], w) ∧ w = false := by
  obtain ⟨g, xs, a, b, h1, h2, h3, h4, h5, h6⟩ := C59_uniform exPath_WF exPath_size 0 2 (by norm_num)
  rw [exPath_ends.1] at h3; rw [exPath_ends.2] at h4
  injection h3 with h3; injection h4 with h4
  subst h3; subst h4
  have hx := ex_two_values h5.count h5.first h5.last
  subst hx
  obtain ⟨w, hw⟩ := getGrid_spec exPath (spec := .int 2) (by
    have h1' : UniformGrid.init (.int 2) "point" = .ok g := h1
    simp only [gridOfSpec, h1', bind, Except.bind, h2]; rfl)
  exact ⟨w, hw, C145_int exPath_WF exPath_size hw⟩

/-- `C145_speed`: two values on the path. -/
example : ∃ w, getGrid 0 exPath (.obj fun c => (speedGrid 0 (.int (2 : Nat)) c).map GridArr.of) = .ok (fins [0, 7], w) ∧ w = false := by
  have hp : 0 < pathLen exPath.ncols exPath.rows := by rw [exPath_pathLen]; norm_num
  obtain ⟨xs, h1, h2, h3, h4, -⟩ := C62_speed exPath_WF exPath_size rfl 0 hp 2 le_rfl
  rw [exPath_pathLen] at h4
  have hx := ex_two_values h2 h3 h4
  subst hx
  obtain ⟨w, hw⟩ := getGrid_spec exPath (spec := .obj fun c => (speedGrid 0 (.int (2 : Nat)) c).map GridArr.of) (by simp only [gridOfSpec, h1, Except.map])
  exact ⟨w, hw, C145_speed exPath_WF exPath_size rfl hp 2 le_rfl hw⟩

/-- `C145_extrapolate`: nothing is added to the grid 0, 7. -/
example : ∃ E w, ExtrapGrid.init (fun _ => .ok (fins [0, 7])) (.int (0 : Nat)) (.int (0 : Nat)) "point" = .ok E ∧
    getGrid 0 exPath (.obj fun c => (E.call c).map GridArr.of) = .ok (fins [0, 7], w) ∧ w = false := by
  obtain ⟨E, bs, as, h1, -, -, -, -, -, h2⟩ := C61_extrapolate_partial (fun _ => .ok (fins [0, 7])) exPath 0 [7] rfl (by simp) 0 0
  obtain ⟨w, hw⟩ := getGrid_spec exPath (spec := .obj fun c => (E.call c).map GridArr.of) (by simp only [gridOfSpec, h2 rfl rfl, Except.map])
  refine ⟨E, w, h1, hw, C145_extrapolate exPath_WF exPath_size (G := fun _ => .ok (fins [0, 7])) (x := 0) (xs := [7]) rfl (by simp) ?_ 0 0 h1 hw⟩
  intro a b ha hb
  rw [exPath_ends.1] at ha; rw [exPath_ends.2] at hb
  injection ha with ha; injection hb with hb
  subst ha; subst hb
  exact ⟨⟨0, by simp, le_rfl⟩, ⟨7, by simp, le_rfl⟩⟩

/-- `C145_nan`: the grid 1, NaN. -/
example : ∃ a, (exPath.t 0).head? = some a ∧ ∃ w, getGrid 0 exPath (.arr (.ok (GridArr.of [.fin (a + 1), .nan]))) = .ok ([.fin (a + 1), .nan], w) ∧ w = false := by
  obtain ⟨a, h1, h2⟩ := C145_nan_fails 0 exPath_WF exPath_size
  exact ⟨a, h1, _, h2, C145_nan h2 (by simp)⟩

/-- `C145_call`: the same grid twice. -/
example : ∃ w, getGrid 0 exPath (.arr (.ok (GridArr.of (fins [1, 2])))) = .ok (fins [1, 2], w) ∧ ∀ impl,
    interpolatorCall 0 exPath impl (.arr (.ok (GridArr.of (fins [1, 2])))) = interpolatorCall 0 exPath impl (.obj fun _ => .ok (GridArr.of (fins [1, 2]))) := by
  obtain ⟨w, hw⟩ := getGrid_fins 0 exPath [1, 2] (by simp) exStepsOver
  exact ⟨w, hw, fun impl => C145_call exPath_size impl hw hw⟩

end Verif.Props
