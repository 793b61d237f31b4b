import Verif.Lemmas.CsapsSpline
import Verif.Props.Keywords

/-!
C128: the smoothing spline of the method `csaps`.
-/
namespace Verif.Spec

open Verif Verif.Model

/-- The keyword arguments `smooth` and `weights` of the method `csaps`, where not given their defaults, mean the smoothing parameter `p` in
[0, 1] and the weights `w` of `n` points. -/
def CsapsArgs (kw : InterpKw) (n : Nat) (p : ℝ) (w : Nat → ℝ) : Prop :=
  ∃ s ws, Within kw ["smooth", "weights"] ∧ Valued kw "smooth" (.real 1) s ∧ Valued kw "weights" .none ws ∧
    SmoothIs s p ∧ 0 ≤ p ∧ p ≤ 1 ∧ WeightsFor ws n w

end Verif.Spec

namespace Verif.Props

open Verif Verif.Np Verif.Model Verif.Spec Set

/-- `m` is a name of the interpolator `csaps`. -/
abbrev IsCsaps (lib : SplineLib) (junk : ℝ) (r : KwReg) (m : String) : Prop :=
  getInterpClass r m = .ok (interpClass junk (withKw pickCsaps (csapsCons lib junk)))

/-- Interpolation by an elementwise function whose values are known. -/
theorem fn_values {c : Curve ℝ} (hc : WF c) (hs : 2 ≤ c.size) {junk : ℝ} (hd : c.dtype ≠ .int) {P : Type} {r : InterpReg P} {m : String}
    {cons : Curve ℝ → P → Except PyErr InterpImpl} (hr : getInterpClass r m = .ok (interpClass junk cons)) {p : P} {f : Val ℝ → List (Val ℝ)}
    (hq : cons c p = .ok fun grid => .ok (NdArr.ofRows (.fin 0) (grid.map f) c.ncols, .float)) {F : ℝ → List ℝ} (hlen : ∀ x, (F x).length = c.ncols)
    (hat : ∀ x, f (.fin x) = fins (F x)) :
    EvaluatesTo c (fun g => c.interpolate r g m p) (fun _ => True) F := by
  intro xs hne hx _
  obtain ⟨w, hg⟩ := getGrid_fins junk c xs hne hx
  simp only
  rw [interpolate_impl hr c _ p hq]
  unfold interpolatorCall
  rw [if_neg (by omega), if_neg (by omega), hg]
  have hrows : (fins xs).map f = xs.map fun x => fins (F x) := by
    unfold fins
    rw [List.map_map]
    apply List.map_congr_left
    intro x _
    exact hat x
  simp only [bind, Except.bind, hrows, wrapErr]
  have he : Curve.init (.arr (NdArr.ofRows (.fin 0) (xs.map fun x => fins (F x)) c.ncols) .float)
      (if c.isparametric then some (fins xs) else none) none none (some c.dtype) =
      Curve.ofRows (xs.map fun x => fins (F x)) c.ncols c.dtype (if c.isparametric then some (fins xs) else none) := rfl
  rw [he, ofRows_ok hc.two_le]
  · refine ⟨_, rfl, ?_, ?_, ?_, rfl⟩
    · simp [List.map_map, Function.comp]
    · simp [hne]
    · simp only; split <;> simp [fins]
  · intro row hrow
    obtain ⟨x, _, rfl⟩ := List.mem_map.1 hrow
    simp only [fins, List.length_map, hlen]
  · intro _ _ x _; cases hdt : c.dtype <;> simp_all [DType.cast]
  · intro s hs'
    split at hs' <;> simp at hs'
    rw [← hs']; simp [fins]

/-- The smoothing spline as a piecewise polynomial with values and slopes. -/
noncomputable def csapsPoly (p : ℝ) (w : Nat → ℝ) (xs : List ℝ) (y : NMat) : PPoly :=
  ⟨xs, ⟨y.m, y.k, fun i j => csapsY xs.length p (knot xs) w (fun i => y.v i j) i⟩,
    ⟨y.m, y.k, fun i j => csapsSlope xs.length p (knot xs) w (fun i => y.v i j) i⟩, .yes⟩

theorem csapsU_two {p : ℝ} {x w y : Nat → ℝ} (i : Nat) : csapsU 2 p x w y i = 0 := by
  unfold csapsU
  rw [dif_neg (by omega)]

theorem csapsY_two {p : ℝ} {x w y : Nat → ℝ} (i : Nat) : csapsY 2 p x w y i = y i := by
  unfold csapsY csapsD1
  simp [csapsU_two]

theorem csapsAt_fin {p : ℝ} {w : Nat → ℝ} {xs : List ℝ} (hl : 2 ≤ xs.length) (ht : xs.Pairwise (· < ·)) (hw : ∀ i, i < xs.length → 0 < w i)
    (hp0 : 0 ≤ p) (hp1 : p ≤ 1) (y : NMat) (x : ℝ) : csapsAt p w xs y (.fin x) = fins ((csapsPoly p w xs y).row x) := by
  have hx : ∀ i, i + 1 < xs.length → knot xs i < knot xs (i + 1) := fun i hi => knot_lt ht (by omega) hi
  have hi : pieceOf xs (.fin x) + 1 < xs.length := by unfold pieceOf; omega
  unfold csapsAt PPoly.row fins
  rw [List.map_map]
  apply List.map_congr_left
  intro j hj
  have hpc := csapsPiece_fin hx hw hp0 hp1 (fun i => y.v i j) hi x
  have hgoal : csapsPiece xs.length p (knot xs) w (fun i => y.v i j) (pieceOf xs (.fin x)) (.fin (x - knot xs (pieceOf xs (.fin x)))) =
      .fin ((csapsPoly p w xs y).coord j x) := hpc
  split
  · rename_i h2
    have h0 : pieceOf xs (.fin x) = 0 := by omega
    rw [Function.comp_apply, ← hgoal, h0, h2]
    unfold csapsPiece
    simp only [csapsU_two, csapsY_two]
    change Val.fin (((y.v 1 j - y.v 0 j) / (xs.getD 1 0 - xs.getD 0 0)) * (x + -xs.getD 0 0) + y.v 0 j) = Val.fin _
    simp only [knot]
    congr 1
    ring
  · exact hgoal

/-- What `CubicSmoothingSpline` gets. -/
theorem csapsFn_all (lib : SplineLib) {ws : ArgVal} {w : Nat → ℝ} {xs : List ℝ} {y : NMat} (hk : knotsOk xs y.m = true) (hw : WeightsFor ws xs.length w) :
    ∃ w', (∀ i, i < xs.length → w' i = w i ∧ 0 < w' i) ∧
      (∀ s p, SmoothIs s p → 0 ≤ p → p ≤ 1 → csapsFn lib s ws xs y = .ok (csapsAt p w' xs y)) ∧
      csapsFn lib .none ws xs y = .ok (csapsAt (csapsAuto xs.length (knot xs) w') w' xs y) := by
  have key : ∀ l : List ℝ, l.length = xs.length → (∀ u ∈ l, 0 < u) → (∀ i u, l[i]? = some u → w i = u) →
      (ws = .none ∧ l = List.replicate xs.length 1 ∨ ws = .arr l) →
      ∃ w', (∀ i, i < xs.length → w' i = w i ∧ 0 < w' i) ∧
        (∀ s p, SmoothIs s p → 0 ≤ p → p ≤ 1 → csapsFn lib s ws xs y = .ok (csapsAt p w' xs y)) ∧
        csapsFn lib .none ws xs y = .ok (csapsAt (csapsAuto xs.length (knot xs) w') w' xs y) := by
    intro l hl hpos hwl hws
    have hany : (l.any fun u => decide (u ≤ 0)) = false := by
      rw [List.any_eq_false]
      intro u hu
      have := hpos u hu
      simp; exact this
    refine ⟨fun i => l.getD i 1, ?_, ?_, ?_⟩
    · intro i hi
      have h1 : l[i]? = some l[i] := List.getElem?_eq_getElem (by omega)
      have h2 : l.getD i 1 = l[i] := by simp [List.getD, h1]
      simp only [h2]
      exact ⟨(hwl i _ h1).symm, hpos _ (List.getElem_mem _)⟩
    · intro s p hs hp0 hp1
      have hnum : s ≠ .none ∧ s.number = some p := by
        rcases hs with rfl | ⟨n, rfl, rfl⟩ | ⟨rfl, rfl⟩ | ⟨rfl, rfl⟩ <;> simp [ArgVal.number]
      unfold csapsFn
      rw [hk]
      rcases hws with ⟨rfl, rfl⟩ | rfl
      · simp only [Bool.true_eq_false, Bool.false_eq_true, if_false, hl, ne_eq, not_true_eq_false, hany, hnum.2]
        cases s <;> first | exact absurd rfl hnum.1 | simp [hp0, hp1]
      · simp only [Bool.true_eq_false, Bool.false_eq_true, if_false, hl, ne_eq, not_true_eq_false, hany, hnum.2]
        cases s <;> first | exact absurd rfl hnum.1 | simp [hp0, hp1]
    · unfold csapsFn
      rw [hk]
      rcases hws with ⟨rfl, rfl⟩ | rfl
      · simp only [Bool.true_eq_false, Bool.false_eq_true, if_false, hl, ne_eq, not_true_eq_false, hany]
        rfl
      · simp only [Bool.true_eq_false, Bool.false_eq_true, if_false, hl, ne_eq, not_true_eq_false, hany]
        rfl
  rcases hw with ⟨rfl, h⟩ | ⟨l, rfl, h1, h2⟩
  · refine key (List.replicate xs.length 1) (by simp) (by intro u hu; rw [List.eq_of_mem_replicate hu]; norm_num) ?_ (.inl ⟨rfl, rfl⟩)
    intro i u hi
    have := List.getElem?_eq_some_iff.1 hi
    obtain ⟨h3, h4⟩ := this
    rw [h i (by simpa using h3), ← h4]
    simp
  · refine key l h1 ?_ (fun i u hi => (h2 i u hi).1) (.inr rfl)
    intro u hu
    obtain ⟨i, hi⟩ := List.getElem?_of_mem hu
    exact (h2 i u hi).2

theorem csapsFn_eq (lib : SplineLib) {s ws : ArgVal} {p : ℝ} {w : Nat → ℝ} {xs : List ℝ} {y : NMat} (hk : knotsOk xs y.m = true) (hs : SmoothIs s p)
    (hp0 : 0 ≤ p) (hp1 : p ≤ 1) (hw : WeightsFor ws xs.length w) :
    ∃ w', (∀ i, i < xs.length → w' i = w i ∧ 0 < w' i) ∧ csapsFn lib s ws xs y = .ok (csapsAt p w' xs y) := by
  obtain ⟨w', h1, h2, _⟩ := csapsFn_all lib hk hw
  exact ⟨w', h1, h2 s p hs hp0 hp1⟩

section
variable {c : Curve ℝ} (hc : WF c) (hs : 2 ≤ c.size) {junk : ℝ} (ht : (c.t junk).Pairwise (· < ·)) (hd : c.dtype ≠ .int)
  {lib : SplineLib} {r : KwReg} {m : String} (hr : IsCsaps lib junk r m)

include hc hs ht hd hr in
/-- The call is evaluation of the piecewise polynomial. -/
theorem csaps_eval {kw : InterpKw} {p : ℝ} {w : Nat → ℝ} (ha : CsapsArgs kw c.size p w) :
    0 ≤ p ∧ p ≤ 1 ∧ ∃ w', (∀ i, i < c.size → w' i = w i ∧ 0 < w' i) ∧
      EvaluatesTo c (fun g => c.interpolate r g m kw) (fun _ => True) (csapsPoly p w' (c.t junk) c.mat).row := by
  have hl := t_length hc (rows_ne_of_size hs) junk
  obtain ⟨s, ws, h1, h2, h3, h4, h5, h6, h7⟩ := ha
  rw [← hl] at h7
  obtain ⟨w', hw', hfn⟩ := csapsFn_eq lib (knotsOk_curve hc hs ht) h4 h5 h6 h7
  refine ⟨h5, h6, w', fun i hi => hw' i (by omega), ?_⟩
  refine fn_values hc hs hd hr (f := csapsAt p w' (c.t junk) c.mat) ?_ ?_ ?_
  · have hp : pickCsaps kw = some (s, ws) := by
      unfold pickCsaps
      rw [within_only h1, if_pos rfl, lookup_valued h1.1 h2, lookup_valued h1.1 h3]
    simp only [withKw, hp, csapsCons, hfn]
    rfl
  · intro x
    rw [PPoly.row_length]
    rfl
  · intro x
    exact csapsAt_fin (by omega) ht (fun i hi => (hw' i hi).2) h5 h6 _ x

include hc hs ht in
/-- The pieces, their second derivatives, and the residuals. -/
theorem csaps_pieces {p : ℝ} {w : Nat → ℝ} (hp0 : 0 ≤ p) (hp1 : p ≤ 1) (hw : ∀ i, i < c.size → 0 < w i) {j : Nat} (hj : j < c.ncols) :
    ∃ (P : Nat → Polynomial ℝ) (U Y : Nat → ℝ), U = csapsU c.size p (knot (c.t junk)) w (fun i => at2 c.rows i j) ∧
      Y = csapsY c.size p (knot (c.t junk)) w (fun i => at2 c.rows i j) ∧
      CubicOn (c.t junk) Y (fun x => coordOf j ((csapsPoly p w (c.t junk) c.mat).row x)) P ∧
      (∀ i, i + 1 < c.size → (P i).derivative.derivative.eval (knot (c.t junk) i) = 6 * p * U i ∧
        (P i).derivative.derivative.eval (knot (c.t junk) (i + 1)) = 6 * p * U (i + 1)) ∧
      U 0 = 0 ∧ U (c.size - 1) = 0 ∧
      (∀ i, i < c.size → w i * (at2 c.rows i j - Y i) =
        6 * (1 - p) * (csapsD1 c.size (knot (c.t junk)) U (i + 1) - csapsD1 c.size (knot (c.t junk)) U i)) := by
  have hl := t_length hc (rows_ne_of_size hs) junk
  have hx : ∀ i, i + 1 < c.size → knot (c.t junk) i < knot (c.t junk) (i + 1) := fun i hi => knot_lt ht (by omega) (by omega)
  have hmat : (fun i => c.mat.v i j) = fun i => at2 c.rows i j := rfl
  refine ⟨bcPiece (csapsPoly p w (c.t junk) c.mat) j, _, _, rfl, rfl, ?_, ?_, csapsU_zero _, csapsU_last _ (le_refl _), ?_⟩
  · have := ppoly_pieces (q := csapsPoly p w (c.t junk) c.mat) ht (j := j) hj (by
      show InnerEqs (c.t junk).length (knot (c.t junk)) (csapsY (c.t junk).length p (knot (c.t junk)) w (fun i => at2 c.rows i j))
        (csapsSlope (c.t junk).length p (knot (c.t junk)) w (fun i => at2 c.rows i j))
      rw [hl]
      exact (csaps_natural hs hx hw hp0 hp1 _).inner)
    have e : (fun i => (csapsPoly p w (c.t junk) c.mat).y.v i j) = csapsY c.size p (knot (c.t junk)) w (fun i => at2 c.rows i j) := by
      rw [← hl]; rfl
    rw [e] at this
    exact this
  · intro i hi
    have := csaps_second hx hw hp0 hp1 (fun i => at2 c.rows i j) hi
    unfold bcPiece csapsPoly
    simp only [hl]
    exact this
  · intro i hi
    have := hw i hi
    unfold csapsY
    field_simp
    ring

theorem misfit_congr {t : List ℝ} {w w' y : Nat → ℝ} {g : ℝ → ℝ} (h : ∀ i, i < t.length → w' i = w i) : misfit t w' y g = misfit t w y g := by
  unfold misfit
  refine Finset.sum_congr rfl fun i hi => ?_
  rw [h i (Finset.mem_range.1 hi)]

theorem head_knot {t : List ℝ} {a : ℝ} (ha : t.head? = some a) : a = knot t 0 := by
  rw [List.head?_eq_getElem?] at ha; exact (knot_eq ha).symm

theorem last_knot {t : List ℝ} {b : ℝ} (hb : t.getLast? = some b) : b = knot t (t.length - 1) := by
  rw [List.getLast?_eq_getElem?] at hb; exact (knot_eq hb).symm

/-- A square of a continuous function with integral 0. -/
theorem zero_of_integral {a b : ℝ} (hab : a < b) {φ : ℝ → ℝ} (hc : ContinuousOn φ (Icc a b)) (h : ∫ x in a..b, φ x ^ 2 = 0) :
    ∀ x ∈ Icc a b, φ x = 0 := by
  by_contra hcon
  push Not at hcon
  obtain ⟨x, hx, hne⟩ := hcon
  have := intervalIntegral.integral_lt_integral_of_continuousOn_of_le_of_exists_lt (f := fun _ => (0 : ℝ))
    (g := fun x => φ x ^ 2) hab continuousOn_const (hc.pow 2) (fun x _ => sq_nonneg _) ⟨x, hx, by positivity⟩
  rw [h] at this
  simp at this

include hc hs ht hd hr in
/-- **C128.** The method `csaps` with smoothing parameter `p` in [0, 1] and positive weights, for strictly increasing parameter values: every
coordinate `f` of the curve is twice continuously differentiable, and among all twice continuously differentiable functions `g` it has the least
`p · misfit + (1 - p) · bending`. For `0 < p < 1` it is the only one. -/
theorem C128_minimal {kw : InterpKw} {p : ℝ} {w : Nat → ℝ} (hk : CsapsArgs kw c.size p w) :
    ∃ F, EvaluatesTo c (fun g => c.interpolate r g m kw) (fun _ => True) F ∧
      ∀ a b, (c.t junk).head? = some a → (c.t junk).getLast? = some b → ∀ j, j < c.ncols → ∃ f1 f2 : ℝ → ℝ,
        TwiceOn a b (fun x => coordOf j (F x)) f1 f2 ∧
        ∀ g g1 g2 : ℝ → ℝ, TwiceOn a b g g1 g2 →
          smoothCost p (c.t junk) w (fun i => at2 c.rows i j) a b (fun x => coordOf j (F x)) f2 ≤
            smoothCost p (c.t junk) w (fun i => at2 c.rows i j) a b g g2 ∧
          (0 < p → p < 1 → smoothCost p (c.t junk) w (fun i => at2 c.rows i j) a b g g2 =
            smoothCost p (c.t junk) w (fun i => at2 c.rows i j) a b (fun x => coordOf j (F x)) f2 →
            ∀ x ∈ Icc a b, g x = coordOf j (F x)) := by
  have hl := t_length hc (rows_ne_of_size hs) junk
  obtain ⟨hp0, hp1, w', hw, hev⟩ := csaps_eval hc hs ht hd hr hk
  refine ⟨_, hev, ?_⟩
  intro a b ha hb j hj
  obtain ⟨P, U, Y, _, _, hcub, hM, h0, h1, hY⟩ := csaps_pieces hc hs ht hp0 hp1 (fun i hi => (hw i hi).2) hj
  have ea := head_knot ha
  have eb := last_knot hb
  have hl2 : 2 ≤ (c.t junk).length := by omega
  have htw := cubicOn_twice ht hl2 hcub
  have hab : a < b := by rw [ea, eb]; exact knot_lt ht (by omega) (by omega)
  rw [← ea, ← eb] at htw
  refine ⟨_, _, htw, ?_⟩
  intro g g1 g2 hg
  have hsplit := cost_split ht hl2 (p := p) (w := w') (y := fun i => at2 c.rows i j) hcub (by rw [hl]; exact hM) h0 (by rw [hl]; exact h1)
    (by rw [hl]; exact hY) (by rw [← ea, ← eb]; exact hg)
  rw [← ea, ← eb] at hsplit
  unfold smoothCost at hsplit ⊢
  simp only [misfit_congr (t := c.t junk) (fun i hi => (hw i (by omega)).1)] at hsplit
  have hnn : ∀ i ∈ Finset.range (c.t junk).length, 0 ≤ w' i * (g (knot (c.t junk) i) - coordOf j ((csapsPoly p w' (c.t junk) c.mat).row (knot (c.t junk) i))) ^ 2 := by
    intro i hi
    have := (hw i (by have := Finset.mem_range.1 hi; omega)).2
    positivity
  have hn1 := Finset.sum_nonneg hnn
  have hn2 : 0 ≤ ∫ x in a..b, (g2 x - splineD2 (c.t junk) P x) ^ 2 := intervalIntegral.integral_nonneg hab.le (fun x _ => sq_nonneg _)
  have hq : 0 ≤ 1 - p := by linarith
  have hm1 := mul_nonneg hp0 hn1
  have hm2 := mul_nonneg hq hn2
  refine ⟨by linarith, ?_⟩
  intro hp hp' heq
  have z1 : p * ∑ i ∈ Finset.range (c.t junk).length, w' i *
      (g (knot (c.t junk) i) - coordOf j ((csapsPoly p w' (c.t junk) c.mat).row (knot (c.t junk) i))) ^ 2 = 0 := by linarith
  have z2 : (1 - p) * ∫ x in a..b, (g2 x - splineD2 (c.t junk) P x) ^ 2 = 0 := by linarith
  have z1' := (mul_eq_zero.1 z1).resolve_left hp.ne'
  have z2' := (mul_eq_zero.1 z2).resolve_left (by linarith)
  have hbz := zero_of_integral hab (hg.2.2.sub htw.2.2) z2'
  have hat : ∀ i, i < c.size → g (knot (c.t junk) i) - coordOf j ((csapsPoly p w' (c.t junk) c.mat).row (knot (c.t junk) i)) = 0 := by
    intro i hi
    have h2 := (Finset.sum_eq_zero_iff_of_nonneg hnn).1 z1' i (Finset.mem_range.2 (by omega))
    exact pow_eq_zero_iff two_ne_zero |>.1 ((mul_eq_zero.1 h2).resolve_left (hw i hi).2.ne')
  have hend := zero_of_bend_zero (c := knot (c.t junk) 1) (by rw [ea]; exact knot_lt ht (by omega) (by omega))
    (by rw [eb]; exact knot_le ht (by omega) (by omega)) (hg.sub htw) hbz (by rw [ea]; exact hat 0 (by omega)) (hat 1 (by omega))
  intro x hx
  have := hend x hx
  linarith

end

end Verif.Props
