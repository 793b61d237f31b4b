import Verif.Lemmas.Refine
import Verif.Props.AccuracySpline
import Verif.Props.AffineInterp
import Verif.Props.History
import Verif.Props.Local
import Verif.Props.SpeedGrid

/-!
Interpolating twice (C138): interpolating the result of an interpolation on a grid that contains the parameter values of the curve.
-/
namespace Verif.Spec

open Verif

/-- The grid contains all the values `t` and stays between the first and the last. -/
def RefinesTo (t xs : List ℝ) : Prop := (∀ x ∈ t, x ∈ xs) ∧ ∀ x ∈ xs, WithinEnds t x

end Verif.Spec

namespace Verif.Props

open Verif Verif.Np Verif.Model Verif.Spec Set

/-- The points of the results have the dimension of the curve. -/
theorem evaluates_length {Q : Type} {junk : ℝ} {cons : Curve ℝ → Q → Except PyErr InterpImpl} {r : Reg (PClass (Curve ℝ) Q GridSpec (Curve (Val ℝ)))}
    {m : String} (hr : getInterpClass r m = .ok (interpClass junk cons)) {c : Curve ℝ} {p : Q} {dom : ℝ → Prop} {F : ℝ → List ℝ}
    (hF : EvaluatesTo c (fun g => c.interpolate r g m p) dom F) {x : ℝ} (hx : dom x) : (F x).length = c.ncols := by
  obtain ⟨R, h1, h2⟩ := hF [x] (by simp) (by intro i u v hu hv; simp at hv) (by simpa using hx)
  have hw : WF R := by
    simp only [Curve.interpolate, interpolateCall, getInterpolator, hr, bind, Except.bind] at h1
    cases hf : wrapErr .interpolationError (interpClass junk cons c p) with
    | error e => simp [hf] at h1
    | ok f =>
      simp only [hf] at h1
      exact interpClass_WF hf h1
  have := hw.rect (fins (F x)) (by rw [h2.rows]; simp)
  rw [h2.ncols] at this
  simpa [fins] using this

theorem refined_WF {c : Curve ℝ} (hc : WF c) (hd : c.dtype ≠ .int) {F : ℝ → List ℝ} {xs : List ℝ} (hF : ∀ x ∈ xs, (F x).length = c.ncols) :
    WF (⟨xs.map F, c.ncols, if c.isparametric then some xs else none, c.dtype⟩ : Curve ℝ) := by
  refine ⟨hc.two_le, ?_, ?_, ?_⟩
  · intro r hr
    obtain ⟨x, hx, rfl⟩ := List.mem_map.1 hr
    exact hF x hx
  · intro t ht
    simp only at ht
    split at ht
    · injection ht with ht
      simp [← ht]
    · cases ht
  · intro _ _ x _
    cases h : c.dtype <;> simp_all [DType.cast]

theorem withinEnds_knot {t : List ℝ} (hl : 2 ≤ t.length) {x : ℝ} : WithinEnds t x ↔ knot t 0 ≤ x ∧ x ≤ knot t (t.length - 1) := by
  have h0 : t.head? = some (knot t 0) := by rw [List.head?_eq_getElem?]; exact knot_some (by omega)
  have h9 : t.getLast? = some (knot t (t.length - 1)) := by rw [List.getLast?_eq_getElem?]; exact knot_some (by omega)
  unfold WithinEnds
  rw [h0, h9]
  simp

theorem at2_refined {F : ℝ → List ℝ} {xs : List ℝ} {i : Nat} (j : Nat) (hi : i < xs.length) : at2 (xs.map F) i j = coordOf j (F (knot xs i)) := by
  unfold at2 coordOf
  rw [List.getD_eq_getElem?_getD (l := xs.map F), List.getElem?_map, knot_some hi]
  rfl

theorem list_of_coords {n : Nat} {p q : List ℝ} (hp : p.length = n) (hq : q.length = n) (h : ∀ j, j < n → coordOf j p = coordOf j q) : p = q := by
  apply List.ext_getElem (by rw [hp, hq])
  intro j h1 h2
  have := h j (by omega)
  unfold coordOf at this
  simpa [List.getD_eq_getElem?_getD, h1, h2] using this

/-- The coordinates of a default cubic interpolation are cubic splines with second derivative 0 at the ends. -/
theorem natural_cubicOn {c : Curve ℝ} (hc : WF c) (hs : 2 ≤ c.size) {junk : ℝ} (ht : (c.t junk).Pairwise (· < ·))
    (hd : c.dtype ≠ .int) {lib : SplineLib} (hlib : NaturalOk lib) {r : KwReg} {m : String} (hr : IsCubic lib junk r m) :
    ∃ F, EvaluatesTo c (fun g => c.interpolate r g m .none) (fun _ => True) F ∧
      ∀ j, j < c.ncols → ∃ P, CubicOn (c.t junk) (fun i => at2 c.rows i j) (fun x => coordOf j (F x)) P ∧
        splineD2 (c.t junk) P (knot (c.t junk) 0) = 0 ∧ splineD2 (c.t junk) P (knot (c.t junk) ((c.t junk).length - 1)) = 0 := by
  have hl := t_length hc (rows_ne_of_size hs) junk
  obtain ⟨F, hF, hP⟩ := C86_natural hc hs ht hd hlib hr
  refine ⟨F, hF, ?_⟩
  intro j hj
  obtain ⟨P, h1, h2, h3, h4, h5⟩ := hP j hj
  have hcub : CubicOn (c.t junk) (fun i => at2 c.rows i j) (fun x => coordOf j (F x)) P := by
    refine ⟨h1, fun i u v hu hv => (h2 i u v hu hv).1, ?_, ?_, ?_, ?_⟩
    · intro i u hu hi
      exact (h2 i u _ hu (knot_some hi)).2.1
    · intro i v hv
      have := (List.getElem?_eq_some_iff.1 hv).1
      exact (h2 i _ v (knot_some (by omega)) hv).2.2
    · intro i v hv hi
      exact (h3 i v hv (by omega)).1
    · intro i v hv hi
      exact (h3 i v hv (by omega)).2
  have h4' := h4 (knot (c.t junk) 0) (by rw [List.head?_eq_getElem?]; exact knot_some (by omega))
  have h5' := h5 (knot (c.t junk) ((c.t junk).length - 1)) (by rw [List.getLast?_eq_getElem?]; exact knot_some (by omega))
  refine ⟨P, hcub, ?_, ?_⟩
  · rw [(splineD_on ht hcub (i := 0) (by omega) ⟨le_rfl, knot_le ht (by omega) (by omega)⟩).2, h4']
  · rw [(splineD_on ht hcub (i := c.size - 2) (by omega) ⟨knot_le ht (by omega) (by omega), by
      rw [show c.size - 2 + 1 = (c.t junk).length - 1 by omega]⟩).2, h5']

/-- The coordinates of a cubic interpolation with a pair of end conditions: the demanded derivatives at the ends. -/
theorem ends_cubicOn {c : Curve ℝ} (hc : WF c) (hs : 2 ≤ c.size) {junk : ℝ} (ht : (c.t junk).Pairwise (· < ·))
    (hd : c.dtype ≠ .int) {lib : SplineLib} (hlib : EndsOk lib) {r : KwReg} {m : String} (hr : IsCubic lib junk r m)
    {ea eb : BcEnd} (ha : Documented c.ncols ea) (hb : Documented c.ncols eb) (hna : ea ≠ .str "not-a-knot") (hnb : eb ≠ .str "not-a-knot") :
    ∃ F, EvaluatesTo c (fun g => c.interpolate r g m ⟨[("bc_type", .tup [ea, eb])]⟩) (fun _ => True) F ∧
      ∀ j, j < c.ncols → ∃ P, CubicOn (c.t junk) (fun i => at2 c.rows i j) (fun x => coordOf j (F x)) P ∧
        GivesEnd ea j (splineD1 (c.t junk) P (knot (c.t junk) 0)) (splineD2 (c.t junk) P (knot (c.t junk) 0)) ∧
        GivesEnd eb j (splineD1 (c.t junk) P (knot (c.t junk) ((c.t junk).length - 1))) (splineD2 (c.t junk) P (knot (c.t junk) ((c.t junk).length - 1))) := by
  have hl := t_length hc (rows_ne_of_size hs) junk
  obtain ⟨F, hF, hP, _⟩ := C133_ends hc hs ht hd hlib hr ha hb
  refine ⟨F, hF, ?_⟩
  intro j hj
  obtain ⟨P, hcub, h4, h5⟩ := hP j hj
  have M0 := h4 (knot (c.t junk) 0) (knot (c.t junk) 1) (knot_some (by omega)) (knot_some (by omega))
  have M9 := h5 (knot (c.t junk) (c.size - 2)) (knot (c.t junk) (c.size - 1)) (knot_some (by omega)) (knot_some (by omega))
  have s0 := splineD_on ht hcub (i := 0) (by omega) (x := knot (c.t junk) 0) ⟨le_rfl, knot_le ht (by omega) (by omega)⟩
  have s9 := splineD_on ht hcub (i := c.size - 2) (by omega) (x := knot (c.t junk) ((c.t junk).length - 1)) ⟨knot_le ht (by omega) (by omega), by
      rw [show c.size - 2 + 1 = (c.t junk).length - 1 by omega]⟩
  rw [← hl] at M9
  refine ⟨P, hcub, ?_, ?_⟩
  · rw [s0.1, s0.2]
    rcases ha with rfl | rfl | rfl | ⟨o, vs, rfl, rfl | rfl, hv⟩
    · exact .inl ⟨rfl, M0.natural rfl⟩
    · exact .inr (.inl ⟨rfl, M0.clamped rfl⟩)
    · exact absurd rfl hna
    · exact .inr (.inr (.inl ⟨vs, rfl, by rw [M0.first vs _ rfl (List.getElem?_eq_getElem (by omega)), List.getElem?_eq_getElem (by omega)]⟩))
    · exact .inr (.inr (.inr ⟨vs, rfl, by rw [M0.second vs _ rfl (List.getElem?_eq_getElem (by omega)), List.getElem?_eq_getElem (by omega)]⟩))
  · rw [s9.1, s9.2]
    rw [hl] at M9 ⊢
    rcases hb with rfl | rfl | rfl | ⟨o, vs, rfl, rfl | rfl, hv⟩
    · exact .inl ⟨rfl, M9.natural rfl⟩
    · exact .inr (.inl ⟨rfl, M9.clamped rfl⟩)
    · exact absurd rfl hnb
    · exact .inr (.inr (.inl ⟨vs, rfl, by rw [M9.first vs _ rfl (List.getElem?_eq_getElem (by omega)), List.getElem?_eq_getElem (by omega)]⟩))
    · exact .inr (.inr (.inr ⟨vs, rfl, by rw [M9.second vs _ rfl (List.getElem?_eq_getElem (by omega)), List.getElem?_eq_getElem (by omega)]⟩))

/-- What one end condition gives determines the first or the second derivative. -/
theorem givesEnd_same {e : BcEnd} {j : Nat} {a b a' b' : ℝ} (h : GivesEnd e j a b) (h' : GivesEnd e j a' b') : b' = b ∨ a' = a := by
  rcases h with ⟨rfl, h⟩ | ⟨rfl, h⟩ | ⟨vs, rfl, h⟩ | ⟨vs, rfl, h⟩ <;> rcases h' with ⟨e, h'⟩ | ⟨e, h'⟩ | ⟨vs', e, h'⟩ | ⟨vs', e, h'⟩ <;>
    simp_all

/-- **C138 (default cubic).** A parametric curve, interpolated with the default cubic method on a grid `xs` that contains its parameter values:
the result `c'` goes, interpolated in the same way, along the same curve over the whole range of the parameter. -/
theorem C138_natural {c : Curve ℝ} (hc : WF c) (hs : 2 ≤ c.size) {junk : ℝ} (ht : (c.t junk).Pairwise (· < ·)) (hp : c.isparametric = true)
    (hd : c.dtype ≠ .int) {lib : SplineLib} (hlib : NaturalOk lib) {r : KwReg} {m : String} (hr : IsCubic lib junk r m) {xs : List ℝ}
    (hx : StepsOver xs) (hxs : RefinesTo (c.t junk) xs) :
    ∃ R c', c.interpolate r (.arr (.ok (GridArr.of (fins xs)))) m .none = .ok R ∧ Represents R c' ∧ c'.t junk = xs ∧
      ∃ F F', EvaluatesTo c (fun g => c.interpolate r g m .none) (fun _ => True) F ∧
        EvaluatesTo c' (fun g => c'.interpolate r g m .none) (fun _ => True) F' ∧ ∀ x, WithinEnds (c.t junk) x → F' x = F x := by
  have hl := t_length hc (rows_ne_of_size hs) junk
  have hlt := stepsOver_lt hx
  have hin := fun x h => (withinEnds_knot (t := c.t junk) (by omega)).1 (hxs.2 x h)
  obtain ⟨hl', e0, e9⟩ := refine_ends ht (by omega) hlt hxs.1 hin
  obtain ⟨F, hF, hP⟩ := natural_cubicOn hc hs ht hd hlib hr
  have hlen := fun x => evaluates_length hr hF (x := x) trivial
  obtain ⟨R, h1, h2⟩ := hF xs (by intro h; simp [h] at hl') hx (fun _ _ => trivial)
  have hc' := refined_WF hc hd fun x (_ : x ∈ xs) => hlen x
  rw [hp, if_pos rfl] at h2 hc'
  obtain ⟨F', hF', hP'⟩ := natural_cubicOn hc' (by simpa [Curve.size] using hl') (junk := junk) hlt hd hlib hr
  have hlen' := fun x => evaluates_length hr hF' (x := x) trivial
  refine ⟨R, _, h1, h2, rfl, F, F', hF, hF', ?_⟩
  intro x hx'
  refine list_of_coords (hlen' x) (hlen x) fun j hj => ?_
  obtain ⟨P, q1, q2, q3⟩ := hP j hj
  obtain ⟨P', p1, p2, p3⟩ := hP' j hj
  refine spline_refine ht (by omega) q1 hlt p1 hxs.1 hin (fun i hi => at2_refined j hi) (.inl ?_) (.inl ?_) x
    ((withinEnds_knot (by omega)).1 hx')
  · rw [q2, ← e0]; exact p2
  · rw [q3, ← e9]; exact p3

/-- **C138 (end conditions).** The same for a pair of end conditions, each of them natural, clamped or a derivative of order 1 or 2. -/
theorem C138_ends {c : Curve ℝ} (hc : WF c) (hs : 2 ≤ c.size) {junk : ℝ} (ht : (c.t junk).Pairwise (· < ·)) (hp : c.isparametric = true)
    (hd : c.dtype ≠ .int) {lib : SplineLib} (hlib : EndsOk lib) {r : KwReg} {m : String} (hr : IsCubic lib junk r m)
    {ea eb : BcEnd} (ha : Documented c.ncols ea) (hb : Documented c.ncols eb) (hna : ea ≠ .str "not-a-knot") (hnb : eb ≠ .str "not-a-knot")
    {xs : List ℝ} (hx : StepsOver xs) (hxs : RefinesTo (c.t junk) xs) :
    ∃ R c', c.interpolate r (.arr (.ok (GridArr.of (fins xs)))) m ⟨[("bc_type", .tup [ea, eb])]⟩ = .ok R ∧ Represents R c' ∧ c'.t junk = xs ∧
      ∃ F F', EvaluatesTo c (fun g => c.interpolate r g m ⟨[("bc_type", .tup [ea, eb])]⟩) (fun _ => True) F ∧
        EvaluatesTo c' (fun g => c'.interpolate r g m ⟨[("bc_type", .tup [ea, eb])]⟩) (fun _ => True) F' ∧
        ∀ x, WithinEnds (c.t junk) x → F' x = F x := by
  have hl := t_length hc (rows_ne_of_size hs) junk
  have hlt := stepsOver_lt hx
  have hin := fun x h => (withinEnds_knot (t := c.t junk) (by omega)).1 (hxs.2 x h)
  obtain ⟨hl', e0, e9⟩ := refine_ends ht (by omega) hlt hxs.1 hin
  obtain ⟨F, hF, hP⟩ := ends_cubicOn hc hs ht hd hlib hr ha hb hna hnb
  have hlen := fun x => evaluates_length hr hF (x := x) trivial
  obtain ⟨R, h1, h2⟩ := hF xs (by intro h; simp [h] at hl') hx (fun _ _ => trivial)
  have hc' := refined_WF hc hd fun x (_ : x ∈ xs) => hlen x
  rw [hp, if_pos rfl] at h2 hc'
  obtain ⟨F', hF', hP'⟩ := ends_cubicOn hc' (by simpa [Curve.size] using hl') (junk := junk) hlt hd hlib hr ha hb hna hnb
  have hlen' := fun x => evaluates_length hr hF' (x := x) trivial
  refine ⟨R, _, h1, h2, rfl, F, F', hF, hF', ?_⟩
  intro x hx'
  refine list_of_coords (hlen' x) (hlen x) fun j hj => ?_
  obtain ⟨P, q1, q2, q3⟩ := hP j hj
  obtain ⟨P', p1, p2, p3⟩ := hP' j hj
  refine spline_refine ht (by omega) q1 hlt p1 hxs.1 hin (fun i hi => at2_refined j hi) ?_ ?_ x ((withinEnds_knot (by omega)).1 hx')
  · rw [← e0] at q2 ⊢; exact givesEnd_same q2 p2
  · rw [← e9] at q3 ⊢; exact givesEnd_same q3 p3

/-! ## Linear -/

theorem pathLen_take_succ {n : Nat} {rows : List (List ℝ)} {k : Nat} {p q : List ℝ} (hp : rows[k]? = some p) (hq : rows[k + 1]? = some q) :
    pathLen n (rows.take (k + 2)) = pathLen n (rows.take (k + 1)) + gap n p q := by
  have h1 : rows.take (k + 1) = rows.take k ++ [p] := by rw [List.take_add_one, hp]; rfl
  have h2 : rows.take (k + 2) = rows.take k ++ p :: q :: [] := by rw [List.take_add_one, h1, hq, List.append_assoc]; rfl
  rw [h1, h2, pathLen_append]
  simp [pathLen]

theorem mix_mix (u v w : ℝ) (p q : List ℝ) : mix w (mix u p q) (mix v p q) = mix (u + w * (v - u)) p q := by
  unfold mix
  induction p generalizing q with
  | nil => simp
  | cons a p ih =>
    cases q with
    | nil => simp
    | cons b q =>
      simp only [List.zipWith_cons_cons, List.cons.injEq]
      exact ⟨by ring, ih q⟩

/-- **C138 (linear).** A curve with a parameter of its own or without, interpolated linearly on a grid `xs` that contains its parameter values:
the result `c'` has the parameter values `xs`, and it goes, interpolated linearly, along the same curve. -/
theorem C138_linear {c : Curve ℝ} (hc : WF c) (hs : 2 ≤ c.size) {junk : ℝ} (ht : (c.t junk).Pairwise (· < ·))
    (hd : c.dtype ≠ .int) {r : InterpReg Bool} {m : String} (hr : IsLinear junk r m) (ex : Bool) {xs : List ℝ}
    (hx : StepsOver xs) (hxs : RefinesTo (c.t junk) xs) :
    ∃ R c', c.interpolate r (.arr (.ok (GridArr.of (fins xs)))) m ex = .ok R ∧ Represents R c' ∧ c'.t junk = xs ∧
      ∃ F F', EvaluatesTo c (fun g => c.interpolate r g m ex) (fun x => ex = true ∨ WithinEnds (c.t junk) x) F ∧
        EvaluatesTo c' (fun g => c'.interpolate r g m ex) (fun x => ex = true ∨ WithinEnds (c.t junk) x) F' ∧
        ∀ x, WithinEnds (c.t junk) x → F' x = F x := by
  have hl := t_length hc (rows_ne_of_size hs) junk
  have hlt := stepsOver_lt hx
  have hin := fun x h => (withinEnds_knot (t := c.t junk) (by omega)).1 (hxs.2 x h)
  obtain ⟨hl', e0, e9⟩ := refine_ends ht (by omega) hlt hxs.1 hin
  have ev : ∀ {e : Curve ℝ}, WF e → 2 ≤ e.size → (e.t junk).Pairwise (· < ·) → e.dtype ≠ .int →
      EvaluatesTo e (fun g => e.interpolate r g m ex) (fun x => ex = true ∨ WithinEnds (e.t junk) x)
        (rowAt ((e.t junk).zip e.rows)) := by
    intro e he hes het hed xs hne hx hdom
    obtain ⟨w, hg⟩ := getGrid_fins junk e xs hne hx
    obtain ⟨h1, h2⟩ := t_ends he (rows_ne_of_size hes) junk
    refine linear_repr he hes het hed hr ex hne hg h1 h2 ?_
    cases ex with
    | true => exact .inl rfl
    | false =>
      right
      intro x hx
      have := (hdom x hx).resolve_left (by simp)
      exact ⟨this.1 _ h1, this.2 _ h2⟩
  have hF := ev hc hs ht hd
  obtain ⟨F, eF⟩ : ∃ F, F = rowAt ((c.t junk).zip c.rows) := ⟨_, rfl⟩
  rw [← eF] at hF
  have hlen : ∀ x, (F x).length = c.ncols := fun x => by rw [eF]; exact (interp1dAt_rowAt hc hs ht x).2
  obtain ⟨R, h1, h2⟩ := hF xs (by intro h; simp [h] at hl') hx (fun x h => .inr (hxs.2 x h))
  have hc' := refined_WF hc hd fun x (_ : x ∈ xs) => hlen x
  obtain ⟨c', ec'⟩ : ∃ c' : Curve ℝ, c' = ⟨xs.map F, c.ncols, if c.isparametric then some xs else none, c.dtype⟩ := ⟨_, rfl⟩
  rw [← ec'] at h2 hc'
  have hrows : c'.rows = xs.map F := by rw [ec']
  have hs' : 2 ≤ c'.size := by unfold Curve.size; rw [hrows]; simpa using hl'
  -- a step of the grid lies in one step of the parameter
  have piece : ∀ i, i + 1 < xs.length → ∃ k p q, k + 1 < (c.t junk).length ∧ c.rows[k]? = some p ∧ c.rows[k + 1]? = some q ∧
      ∀ x, knot xs i ≤ x → x ≤ knot xs (i + 1) → F x = mix ((x - knot (c.t junk) k) / (knot (c.t junk) (k + 1) - knot (c.t junk) k)) p q := by
    intro i hi
    obtain ⟨k, k1, k2, k3⟩ := refine_step ht (by omega) hlt hxs.1 hin hi
    have hk : k + 1 < c.rows.length := by rw [hl] at k1; exact k1
    have hp := List.getElem?_eq_getElem (show k < c.rows.length by omega)
    have hq := List.getElem?_eq_getElem hk
    refine ⟨k, _, _, k1, hp, hq, fun x a b => ?_⟩
    rw [eF, rowAt_pair hc hs ht x k _ _ _ _ (knot_some (by omega)) (knot_some k1) hp hq (.inr (by linarith)) (.inr (by linarith))]
  have hrow : ∀ i, i < xs.length → c'.rows[i]? = some (F (knot xs i)) := by
    intro i hi
    rw [hrows, List.getElem?_map, knot_some hi]
    rfl
  have htx : c'.t junk = xs := by
    have htc : c'.tdata = if c.isparametric then some xs else none := by rw [ec']
    unfold Curve.t
    rw [htc]
    cases hp : c.isparametric with
    | true => rfl
    | false =>
      have hn : c.tdata = none := by
        unfold Curve.isparametric at hp
        cases h : c.tdata with
        | none => rfl
        | some t => simp [h] at hp
      have htt : c.t junk = cumarclen junk c := by unfold Curve.t; rw [hn]
      simp only [Bool.false_eq_true, if_false]
      have hk : ∀ k, k < c.rows.length → knot (c.t junk) k = pathLen c.ncols (c.rows.take (k + 1)) := fun k hk =>
        knot_eq (by rw [htt]; exact cumarclen_get hc.rect junk k hk)
      have key : ∀ i, i < xs.length → pathLen c.ncols (c'.rows.take (i + 1)) = knot xs i := by
        intro i
        induction i with
        | zero =>
          intro hi
          rw [e0, hk 0 (by unfold Curve.size at hs; omega)]
          have e1 := hrow 0 hi
          have e2 := List.getElem?_eq_getElem (show 0 < c.rows.length by unfold Curve.size at hs; omega)
          rw [List.take_add_one, List.take_add_one, e1, e2]
          simp [pathLen]
        | succ i ih =>
          intro hi
          obtain ⟨k, p, q, k1, hp, hq, hpc⟩ := piece i hi
          have hlt' := knot_lt hlt (show i < i + 1 by omega) hi
          have hkt := knot_lt ht (show k < k + 1 by omega) k1
          rw [pathLen_take_succ (hrow i (by omega)) (hrow (i + 1) hi), ih (by omega), hpc _ le_rfl hlt'.le, hpc _ hlt'.le le_rfl,
            gap_mix (hc.rect _ (List.mem_of_getElem? hp)) (hc.rect _ (List.mem_of_getElem? hq))]
          have hg : knot (c.t junk) (k + 1) - knot (c.t junk) k = gap c.ncols p q := by
            rw [hk k (by rw [hl] at k1; exact (Nat.lt_of_succ_lt k1)), hk (k + 1) (by rw [hl] at k1; exact k1), pathLen_take_succ hp hq]
            ring
          rw [← hg, ← sub_div, abs_div, abs_of_pos (show 0 < knot (c.t junk) (k + 1) - knot (c.t junk) k by linarith),
            div_mul_cancel₀ _ (by linarith), abs_of_pos (by linarith)]
          ring
      have hlc : (cumarclen junk c').length = xs.length := by
        have := t_length hc' (rows_ne_of_size hs') junk
        unfold Curve.t at this
        rw [htc, hp] at this
        simp only [Bool.false_eq_true, if_false] at this
        rw [this]
        unfold Curve.size
        rw [hrows, List.length_map]
      apply List.ext_getElem? 
      intro i
      by_cases hi : i < xs.length
      · rw [cumarclen_get hc'.rect junk i (by rw [hrows]; simpa using hi), knot_some hi, ← key i hi]
        rw [ec']
      · rw [List.getElem?_eq_none (by omega), List.getElem?_eq_none (by omega)]
  have hw : ∀ x, WithinEnds (c'.t junk) x ↔ WithinEnds (c.t junk) x := by
    intro x
    rw [htx, withinEnds_knot hl', withinEnds_knot (by omega), e0, e9]
  have hF' := ev hc' hs' (by rw [htx]; exact hlt) (by rw [ec']; exact hd)
  simp only [hw] at hF'
  refine ⟨R, c', h1, h2, htx, F, _, hF, hF', ?_⟩
  intro x hx'
  have hx2 := (withinEnds_knot (by omega)).1 hx'
  rw [← e0, ← e9] at hx2
  obtain ⟨i, u, v, hu, hv, hux, hxv⟩ := between_neighbours xs hl' (by rw [List.head?_eq_getElem?]; exact knot_some (by omega))
    (by rw [List.getLast?_eq_getElem?]; exact knot_some (by omega)) hx2.1 hx2.2
  have hi := (List.getElem?_eq_some_iff.1 hv).1
  obtain rfl := knot_eq hu
  obtain rfl := knot_eq hv
  obtain ⟨k, p, q, k1, hp, hq, hpc⟩ := piece i hi
  have hlt' := knot_lt hlt (show i < i + 1 by omega) hi
  have hkt := knot_lt ht (show k < k + 1 by omega) k1
  rw [rowAt_pair hc' hs' (by rw [htx]; exact hlt) x i _ _ _ _ (by rw [htx]; exact hu) (by rw [htx]; exact hv) (hrow i (by omega)) (hrow (i + 1) hi)
    (.inr hux) (.inr hxv), hpc _ le_rfl hlt'.le, hpc _ hlt'.le le_rfl, hpc x hux hxv, mix_mix]
  congr 1
  have d1 : knot (c.t junk) (k + 1) - knot (c.t junk) k ≠ 0 := by linarith
  have d2 : knot xs (i + 1) - knot xs i ≠ 0 := by linarith
  field_simp
  ring

/-! ## Where it fails -/

/-- Three points of a parabola and a constant. -/
def exRise : Curve ℝ := ⟨[[0, 0], [0, 1], [0, 4]], 2, some [0, 1, 2], .float⟩
/-- Its PCHIP interpolation on the grid 0, 1/2, 1, 2. -/
noncomputable def exRiseFine : Curve ℝ := ⟨[[0, 0], [0, 5 / 16], [0, 1], [0, 4]], 2, some [0, 1 / 2, 1, 2], .float⟩

theorem exRise_WF : WF exRise := ⟨by simp [exRise], by simp [exRise], by simp [exRise], by intro r _ x _; rfl⟩
theorem exRiseFine_WF : WF exRiseFine := ⟨by simp [exRiseFine], by simp [exRiseFine], by simp [exRiseFine], by intro r _ x _; rfl⟩
theorem exRise_lt (junk : ℝ) : (exRise.t junk).Pairwise (· < ·) := by norm_num [exRise, Curve.t]
theorem exRiseFine_lt (junk : ℝ) : (exRiseFine.t junk).Pairwise (· < ·) := by norm_num [exRiseFine, Curve.t]

theorem exFine_steps : StepsOver [0, 1 / 2, 1, 2] := by
  intro i x y h1 h2
  match i with
  | 0 => simp at h1 h2; subst h1 h2; norm_num
  | 1 => simp at h1 h2; subst h1 h2; norm_num
  | 2 => simp at h1 h2; subst h1 h2; norm_num
  | (k + 3) => simp at h2

theorem exFine_refines : RefinesTo [0, 1, 2] [0, 1 / 2, 1, 2] := by
  refine ⟨by simp, ?_⟩
  intro x hx
  simp only [List.mem_cons, List.not_mem_nil, or_false] at hx
  rcases hx with rfl | rfl | rfl | rfl <;> (constructor <;> intro z hz <;> simp at hz <;> subst hz <;> norm_num)

/-- **C138 fails for PCHIP.** The interpolation of the result differs from that of the curve: the slopes are estimated anew. -/
theorem C138_pchip_fails {junk : ℝ} {r : KwReg} {m : String} (hr : IsPchip junk r m) :
    RefinesTo (exRise.t junk) [0, 1 / 2, 1, 2] ∧
    ∃ R, exRise.interpolate r (.arr (.ok (GridArr.of (fins [0, 1 / 2, 1, 2])))) m .none = .ok R ∧ Represents R exRiseFine ∧
      ∃ F F', EvaluatesTo exRise (fun g => exRise.interpolate r g m .none) (fun _ => True) F ∧
        EvaluatesTo exRiseFine (fun g => exRiseFine.interpolate r g m .none) (fun _ => True) F' ∧
        WithinEnds (exRise.t junk) (3 / 4) ∧ F' (3 / 4) ≠ F (3 / 4) := by
  have hs : 2 ≤ exRise.size := by simp [exRise, Curve.size]
  have hs' : 2 ≤ exRiseFine.size := by simp [exRiseFine, Curve.size]
  have hF := spline_eval exRise_WF hs (exRise_lt junk) (by simp [exRise]) hr
    (pchip_cons exRise_WF hs (exRise_lt junk) .yes (kw := .none) rfl) rfl rfl (dom := fun _ => True) (.inl rfl)
  have hF' := spline_eval exRiseFine_WF hs' (exRiseFine_lt junk) (by simp [exRiseFine]) hr
    (pchip_cons exRiseFine_WF hs' (exRiseFine_lt junk) .yes (kw := .none) rfl) rfl rfl (dom := fun _ => True) (.inl rfl)
  obtain ⟨F, eF⟩ : ∃ F, F = (⟨exRise.t junk, exRise.mat, pchipSlopes (exRise.t junk) exRise.mat, .yes⟩ : PPoly).row := ⟨_, rfl⟩
  obtain ⟨F', eF'⟩ : ∃ F', F' = (⟨exRiseFine.t junk, exRiseFine.mat, pchipSlopes (exRiseFine.t junk) exRiseFine.mat, .yes⟩ : PPoly).row := ⟨_, rfl⟩
  rw [← eF] at hF
  rw [← eF'] at hF'
  have k0 : knot (exRise.t junk) 0 = 0 := knot_eq rfl
  have k1 : knot (exRise.t junk) 1 = 1 := knot_eq rfl
  have k2 : knot (exRise.t junk) 2 = 2 := knot_eq rfl
  have k1' : knot (exRiseFine.t junk) 1 = 1 / 2 := knot_eq rfl
  have k2' : knot (exRiseFine.t junk) 2 = 1 := knot_eq rfl
  have l1 : (exRise.t junk).length = 3 := rfl
  have l2 : (exRiseFine.t junk).length = 4 := rfl
  have a0 : pchipSlope 3 (fun i => (exRise.t junk).getD i 0) (fun i => exRise.mat.v i 0) 0 = 0 := by
    simp [pchipSlope, pchipEdge, npSign, exRise, Curve.t, Curve.mat]
  have a1 : pchipSlope 3 (fun i => (exRise.t junk).getD i 0) (fun i => exRise.mat.v i 0) 1 = 0 := by
    simp [pchipSlope, npSign, exRise, Curve.t, Curve.mat]
  have a2 : pchipSlope 3 (fun i => (exRise.t junk).getD i 0) (fun i => exRise.mat.v i 0) 2 = 0 := by
    simp [pchipSlope, pchipEdge, npSign, exRise, Curve.t, Curve.mat]
  have b0 : pchipSlope 3 (fun i => (exRise.t junk).getD i 0) (fun i => exRise.mat.v i 1) 0 = 0 := by
    simp [pchipSlope, pchipEdge, npSign, exRise, Curve.t, Curve.mat]; norm_num
  have b1 : pchipSlope 3 (fun i => (exRise.t junk).getD i 0) (fun i => exRise.mat.v i 1) 1 = 3 / 2 := by
    simp [pchipSlope, npSign, exRise, Curve.t, Curve.mat]; norm_num
  have g1 : pchipSlope 4 (fun i => (exRiseFine.t junk).getD i 0) (fun i => exRiseFine.mat.v i 1) 1 = 55 / 64 := by
    simp [pchipSlope, npSign, exRiseFine, Curve.t, Curve.mat]; norm_num
  have g2 : pchipSlope 4 (fun i => (exRiseFine.t junk).getD i 0) (fun i => exRiseFine.mat.v i 1) 2 = 297 / 164 := by
    simp [pchipSlope, npSign, exRiseFine, Curve.t, Curve.mat]; norm_num
  have hlen := fun x => evaluates_length hr hF (x := x) trivial
  -- the first piece
  have p0 : ∀ x, x ≤ 1 → F x = [0, x ^ 2 * (3 - 2 * x) + 3 / 2 * (x ^ 2 * (x - 1))] := by
    intro x hx
    refine list_of_coords (n := 2) (hlen x) rfl fun j hj => ?_
    unfold coordOf
    rcases (show j = 0 ∨ j = 1 by omega) with rfl | rfl
    · rw [eF, PPoly.row_getD _ (by simp [exRise, Curve.mat]), PPoly.coord_on (i := 0) (exRise_lt junk) (by simp [exRise, Curve.t]) 0 (.inl rfl)
        (.inr (by simp only [zero_add]; rw [k1]; exact hx))]
      unfold PPoly.cub
      simp only [zero_add, pchipSlopes_v]
      rw [k0, k1, l1, a0, a1]
      simp [hermR, exRise, Curve.mat]
    · rw [eF, PPoly.row_getD _ (by simp [exRise, Curve.mat]), PPoly.coord_on (i := 0) (exRise_lt junk) (by simp [exRise, Curve.t]) 1 (.inl rfl)
        (.inr (by simp only [zero_add]; rw [k1]; exact hx))]
      unfold PPoly.cub
      simp only [zero_add, pchipSlopes_v]
      rw [k0, k1, l1, b0, b1]
      simp [hermR, exRise, Curve.mat]
      ring
  have p1 : F 2 = [0, 4] := by
    refine list_of_coords (n := 2) (hlen 2) rfl fun j hj => ?_
    unfold coordOf
    rcases (show j = 0 ∨ j = 1 by omega) with rfl | rfl
    · rw [eF, PPoly.row_getD _ (by simp [exRise, Curve.mat]), PPoly.coord_on (i := 1) (exRise_lt junk) (by simp [exRise, Curve.t]) 0
        (.inr (by rw [k1]; norm_num)) (.inl (by simp [exRise, Curve.t]))]
      unfold PPoly.cub
      simp only [Nat.reduceAdd, pchipSlopes_v]
      rw [k1, k2, l1, a1, a2]
      simp [hermR, exRise, Curve.mat]
    · rw [eF, PPoly.row_getD _ (by simp [exRise, Curve.mat]), PPoly.coord_on (i := 1) (exRise_lt junk) (by simp [exRise, Curve.t]) 1
        (.inr (by rw [k1]; norm_num)) (.inl (by simp [exRise, Curve.t]))]
      unfold PPoly.cub
      simp only [Nat.reduceAdd]
      rw [k1, k2]
      simp [hermR, exRise, Curve.mat]
      ring
  obtain ⟨R, h1, h2⟩ := hF [0, 1 / 2, 1, 2] (by simp) exFine_steps (fun _ _ => trivial)
  refine ⟨exFine_refines, R, h1, ?_, F, F', hF, hF', ?_, ?_⟩
  · have : ([0, 1 / 2, 1, 2] : List ℝ).map F = exRiseFine.rows := by
      simp only [List.map_cons, List.map_nil, p1, p0 0 (by norm_num), p0 (1 / 2) (by norm_num), p0 1 le_rfl, exRiseFine]
      norm_num
    rw [this] at h2
    exact h2
  · constructor <;> intro z hz <;> simp [exRise, Curve.t] at hz <;> subst hz <;> norm_num
  · intro he
    have h3 : (F' (3 / 4)).getD 1 0 = (F (3 / 4)).getD 1 0 := by rw [he]
    rw [p0 _ (by norm_num), eF', PPoly.row_getD _ (by simp [exRiseFine, Curve.mat]), PPoly.coord_on (i := 1) (exRiseFine_lt junk) (by simp [exRiseFine, Curve.t]) 1
      (.inr (by rw [k1']; norm_num)) (.inr (by simp only [Nat.reduceAdd]; rw [k2']; norm_num))] at h3
    unfold PPoly.cub at h3
    simp only [Nat.reduceAdd, pchipSlopes_v] at h3
    rw [k1', k2', l2, g1, g2] at h3
    simp [hermR, exRiseFine, Curve.mat] at h3
    norm_num at h3

/-- A right angle. -/
def exAngle90 : Curve ℝ := ⟨[[0, 0], [1, 0], [1, 1]], 2, none, .float⟩

theorem exAngle90_WF : WF exAngle90 := ⟨by simp [exAngle90], by simp [exAngle90], by simp [exAngle90], by intro r _ x _; rfl⟩

theorem exAngle90_t (junk : ℝ) : exAngle90.t junk = [0, 1, 2] := by
  have h : exAngle90.t junk = cumarclen junk exAngle90 := rfl
  have g1 : gap 2 [0, 0] [1, 0] = 1 := by rw [gap_eq_sqrt]; simp
  have g2 : gap 2 [1, 0] [1, 1] = 1 := by rw [gap_eq_sqrt]; simp
  have hl := t_length exAngle90_WF (by simp [exAngle90]) junk
  rw [h] at hl ⊢
  apply List.ext_getElem?
  intro i
  match i with
  | 0 => rw [cumarclen_get exAngle90_WF.rect junk 0 (by simp [exAngle90])]; simp [exAngle90, pathLen]
  | 1 => rw [cumarclen_get exAngle90_WF.rect junk 1 (by simp [exAngle90])]; simp [exAngle90, pathLen, g1]
  | 2 => rw [cumarclen_get exAngle90_WF.rect junk 2 (by simp [exAngle90])]; simp [exAngle90, pathLen, g1, g2]; norm_num
  | (k + 3) => rw [List.getElem?_eq_none (by rw [hl]; simp [exAngle90, Curve.size]), List.getElem?_eq_none (by simp)]

/-- **C138 fails for the default parameter.** Cubic interpolation of a right angle without parameter on a grid that contains the parameter
values 0, 1, 2: the result is longer, and its parameter values are not those of the grid. -/
theorem C138_plain_fails {junk : ℝ} {lib : SplineLib} (hlib : NaturalOk lib) {r : KwReg} {m : String} (hr : IsCubic lib junk r m) :
    RefinesTo (exAngle90.t junk) [0, 1 / 2, 1, 2] ∧
    ∃ R c', exAngle90.interpolate r (.arr (.ok (GridArr.of (fins [0, 1 / 2, 1, 2])))) m .none = .ok R ∧ Represents R c' ∧
      ∃ s : ℝ, 1 / 2 < s ∧ (c'.t junk)[1]? = some s := by
  have hs : 2 ≤ exAngle90.size := by simp [exAngle90, Curve.size]
  have htt := exAngle90_t junk
  have ht : (exAngle90.t junk).Pairwise (· < ·) := by rw [htt]; norm_num
  obtain ⟨d, hsol, hnat⟩ := hlib (exAngle90.t junk) exAngle90.mat (knotsOk_curve exAngle90_WF hs ht)
  obtain ⟨q, hq⟩ : ∃ q : PPoly, q = ⟨exAngle90.t junk, exAngle90.mat, d, .yes⟩ := ⟨_, rfl⟩
  have hxs : q.xs = exAngle90.t junk := by rw [hq]
  have hy : q.y = exAngle90.mat := by rw [hq]
  have hp : q.xs.Pairwise (· < ·) := by rw [hxs]; exact ht
  have hF := spline_eval exAngle90_WF hs ht (by simp [exAngle90]) hr (q := q) (p := InterpKw.none)
    (by rw [hq]; exact cubic_default exAngle90_WF hs ht lib hsol) hxs hy (dom := fun _ => True) (.inl (by rw [hq]))
  have hlen := fun x => evaluates_length hr hF (x := x) trivial
  obtain ⟨R, h1, h2⟩ := hF [0, 1 / 2, 1, 2] (by simp) exFine_steps (fun _ _ => trivial)
  refine ⟨by rw [htt]; exact exFine_refines, R, _, h1, h2, ?_⟩
  have k0 : knot q.xs 0 = 0 := knot_eq (by rw [hxs, htt]; rfl)
  have k1 : knot q.xs 1 = 1 := knot_eq (by rw [hxs, htt]; rfl)
  have sl : ∀ j, j < 2 → ∃ e : ℝ, (d.v 1 j = e) ∧ 6 * e = 3 * (exAngle90.mat.v 2 j - exAngle90.mat.v 0 j) ∧
      2 * d.v 0 j = 3 * (exAngle90.mat.v 1 j - exAngle90.mat.v 0 j) - e := by
    intro j hj
    have hN := hnat j hj
    rw [htt] at hN
    have e1 := hN.first
    have e2 := hN.last
    have e3 := hN.inner 0 (by simp)
    simp at e1 e2 e3
    refine ⟨_, rfl, ?_, ?_⟩ <;> linarith
  have hv : ∀ x j, j < 2 → x ≤ 1 → (q.row x).getD j 0 = hermR 0 1 (exAngle90.mat.v 0 j) (exAngle90.mat.v 1 j) (d.v 0 j) (d.v 1 j) x := by
    intro x j hj hx
    rw [PPoly.row_getD _ (by rw [hy]; exact hj), PPoly.coord_on (i := 0) hp (by rw [hxs, htt]; simp) j (.inl rfl)
      (.inr (by simp only [zero_add]; rw [k1]; exact hx))]
    unfold PPoly.cub
    simp only [zero_add]
    rw [k0, k1, hy, hq]
  have f0 : q.row 0 = [0, 0] := by
    refine list_of_coords (n := 2) (hlen 0) rfl fun j hj => ?_
    unfold coordOf
    rw [hv 0 j hj (by norm_num)]
    rcases (show j = 0 ∨ j = 1 by omega) with rfl | rfl <;> simp [hermR, exAngle90, Curve.mat]
  have f1 : q.row (1 / 2) = [19 / 32, -3 / 32] := by
    refine list_of_coords (n := 2) (hlen _) rfl fun j hj => ?_
    unfold coordOf
    rw [hv _ j hj (by norm_num)]
    obtain ⟨e, e1, e2, e3⟩ := sl j hj
    rcases (show j = 0 ∨ j = 1 by omega) with rfl | rfl
    · simp [exAngle90, Curve.mat] at e2 e3
      have : d.v 0 0 = 5 / 4 := by linarith
      rw [e1, show e = 1 / 2 by linarith, this]
      simp [hermR, exAngle90, Curve.mat]; norm_num
    · simp [exAngle90, Curve.mat] at e2 e3
      have : d.v 0 1 = -1 / 4 := by linarith
      rw [e1, show e = 1 / 2 by linarith, this]
      simp [hermR, exAngle90, Curve.mat]; norm_num
  refine ⟨gap 2 [0, 0] [19 / 32, -3 / 32], ?_, ?_⟩
  · rw [gap_eq_sqrt]
    apply Real.lt_sqrt_of_sq_lt
    simp [Fin.sum_univ_two]
    norm_num
  · unfold Curve.t
    simp only [show exAngle90.isparametric = false from rfl, Bool.false_eq_true, if_false]
    have hw := refined_WF exAngle90_WF (by simp [exAngle90]) fun x (_ : x ∈ [0, 1 / 2, 1, 2]) => hlen x
    simp only [show exAngle90.isparametric = false from rfl, Bool.false_eq_true, if_false] at hw
    rw [cumarclen_get hw.rect junk 1 (by simp)]
    simp only [List.map_cons, List.map_nil, f0, f1]
    simp [pathLen, exAngle90]

/-! ## Instances -/

theorem exLegsGrid_steps : StepsOver [0, 2, 5, 10] := by
  intro i x y h1 h2
  match i with
  | 0 => simp at h1 h2; subst h1 h2; norm_num
  | 1 => simp at h1 h2; subst h1 h2; norm_num
  | 2 => simp at h1 h2; subst h1 h2; norm_num
  | (k + 3) => simp at h2

theorem exLegsGrid_refines : RefinesTo (exLegs.t 0) [0, 2, 5, 10] := by
  refine ⟨by simp [exLegs, Curve.t], ?_⟩
  intro x hx
  simp only [List.mem_cons, List.not_mem_nil, or_false] at hx
  rcases hx with rfl | rfl | rfl | rfl <;> (constructor <;> intro z hz <;> simp [exLegs, Curve.t] at hz <;> subst hz <;> norm_num)

example : ∃ lib, NaturalOk lib ∧ ∃ R c', exLegs.interpolate (builtinInterp lib 0) (.arr (.ok (GridArr.of (fins [0, 2, 5, 10])))) "cubic" .none = .ok R ∧
    Represents R c' ∧ c'.t 0 = [0, 2, 5, 10] := by
  obtain ⟨lib, h⟩ := exists_naturalOk
  obtain ⟨R, c', h1, h2, h3, _⟩ := C138_natural exLegs_WF (by simp [exLegs, Curve.size]) (exLegs_lt 0) rfl (by simp [exLegs]) h
    (builtin_names lib 0).2.2.2.2 exLegsGrid_steps exLegsGrid_refines
  exact ⟨lib, h, R, c', h1, h2, h3⟩

example : ∃ lib, EndsOk lib ∧ ∃ R c', exLegs.interpolate (builtinInterp lib 0) (.arr (.ok (GridArr.of (fins [0, 2, 5, 10])))) "cubic"
    ⟨[("bc_type", .tup [.deriv 1 [1, 2], .deriv 2 [0, 3]])]⟩ = .ok R ∧ Represents R c' ∧ c'.t 0 = [0, 2, 5, 10] := by
  obtain ⟨lib, _, _, h⟩ := exists_endsOk
  obtain ⟨R, c', h1, h2, h3, _⟩ := C138_ends exLegs_WF (by simp [exLegs, Curve.size]) (exLegs_lt 0) rfl (by simp [exLegs]) h
    (builtin_names lib 0).2.2.2.2 (ea := .deriv 1 [1, 2]) (eb := .deriv 2 [0, 3])
    (.inr (.inr (.inr ⟨1, _, rfl, .inl rfl, rfl⟩))) (.inr (.inr (.inr ⟨2, _, rfl, .inr rfl, rfl⟩))) (by simp) (by simp)
    exLegsGrid_steps exLegsGrid_refines
  exact ⟨lib, h, R, c', h1, h2, h3⟩

/-- A right angle without parameter: the finer polyline has the grid as its parameter. -/
example : ∃ R c', exAngle90.interpolate (linearReg 0) (.arr (.ok (GridArr.of (fins [0, 1 / 2, 1, 2])))) "linear" false = .ok R ∧
    Represents R c' ∧ c'.t 0 = [0, 1 / 2, 1, 2] := by
  obtain ⟨R, c', h1, h2, h3, _⟩ := C138_linear exAngle90_WF (by simp [exAngle90, Curve.size]) (junk := 0) (by rw [exAngle90_t]; norm_num)
    (by simp [exAngle90]) (isLinear_linearReg 0) false exFine_steps (by rw [exAngle90_t]; exact exFine_refines)
  exact ⟨R, c', h1, h2, h3⟩

example : ∃ lib : SplineLib, NaturalOk lib ∧ IsCubic lib 0 (builtinInterp lib 0) "cubic" ∧ IsPchip 0 (builtinInterp lib 0) "pchip" := by
  obtain ⟨lib, h⟩ := exists_naturalOk
  exact ⟨lib, h, (builtin_names lib 0).2.2.2.2, (builtin_names lib 0).2.2.1⟩

end Verif.Props
