import Verif.Props.Csaps
import Verif.Props.SplineShape

/-!
C128: special cases of the smoothing spline of the method `csaps`.
-/
namespace Verif.Props

open Verif Verif.Np Verif.Model Verif.Spec Set

section
variable {c : Curve ℝ} (hc : WF c) (hs : 2 ≤ c.size) {junk : ℝ} (ht : (c.t junk).Pairwise (· < ·)) (hd : c.dtype ≠ .int)
  {lib : SplineLib} {r : KwReg} {m : String} (hr : IsCsaps lib junk r m)

include hc hs ht hd hr in
/-- **C128, natural splines.** For every smoothing parameter the coordinates are natural cubic splines with knots at the parameter values:
piecewise cubic, twice continuously differentiable, second derivative 0 at both ends. -/
theorem C128_natural {kw : InterpKw} {p : ℝ} {w : Nat → ℝ} (hk : CsapsArgs kw c.size p w) :
    ∃ F, EvaluatesTo c (fun g => c.interpolate r g m kw) (fun _ => True) F ∧
      ∀ j, j < c.ncols → ∃ (Y : Nat → ℝ) (P : Nat → Polynomial ℝ), CubicOn (c.t junk) Y (fun x => coordOf j (F x)) P ∧
        (∀ a, (c.t junk).head? = some a → (P 0).derivative.derivative.eval a = 0) ∧
        (∀ b, (c.t junk).getLast? = some b → (P (c.size - 2)).derivative.derivative.eval b = 0) := by
  have hl := t_length hc (rows_ne_of_size hs) junk
  obtain ⟨hp0, hp1, w', hw, hev⟩ := csaps_eval hc hs ht hd hr hk
  refine ⟨_, hev, ?_⟩
  intro j hj
  obtain ⟨P, U, Y, _, _, hcub, hM, h0, h1, _⟩ := csaps_pieces hc hs ht hp0 hp1 (fun i hi => (hw i hi).2) hj
  refine ⟨Y, P, hcub, ?_, ?_⟩
  · intro a ha
    rw [head_knot ha, (hM 0 (by omega)).1, h0, mul_zero]
  · intro b hb
    have e1 : c.size - 2 + 1 = c.size - 1 := by omega
    have := (hM (c.size - 2) (by omega)).2
    rw [e1, h1, mul_zero] at this
    rw [last_knot hb, hl, this]

theorem csapsY_one {n : Nat} {x w y : Nat → ℝ} (i : Nat) : csapsY n 1 x w y i = y i := by
  unfold csapsY
  simp

include hc hs ht hd hr in
/-- **C128, smooth = 1 (the default).** The curve passes through the points, whatever the weights; it is the curve of natural cubic interpolation,
the default of the method `cubic` (if scipy's solver solves its system), inside and outside of the range. -/
theorem C128_interpolates {kw : InterpKw} {w : Nat → ℝ} (hk : CsapsArgs kw c.size 1 w) :
    ∃ F, EvaluatesTo c (fun g => c.interpolate r g m kw) (fun _ => True) F ∧
      (∀ (i : Nat) x, (c.t junk)[i]? = some x → c.rows[i]? = some (F x)) ∧
      ∀ (lib' : SplineLib) (r' : KwReg) (m' : String), NaturalOk lib' → IsCubic lib' junk r' m' →
        EvaluatesTo c (fun g => c.interpolate r' g m' .none) (fun _ => True) F := by
  have hl := t_length hc (rows_ne_of_size hs) junk
  have hx : ∀ i, i + 1 < c.size → knot (c.t junk) i < knot (c.t junk) (i + 1) := fun i hi => knot_lt ht (by omega) (by omega)
  obtain ⟨hp0, hp1, w', hw, hev⟩ := csaps_eval hc hs ht hd hr hk
  have hq : csapsPoly 1 w' (c.t junk) c.mat = ⟨c.t junk, c.mat, (csapsPoly 1 w' (c.t junk) c.mat).d, .yes⟩ := by
    unfold csapsPoly
    simp only [csapsY_one]
  refine ⟨_, hev, ?_, ?_⟩
  · intro i x hi
    rw [hq]
    exact row_at_knot hc hs ht rfl rfl hi
  · intro lib' r' m' hlib' hr'
    obtain ⟨d, hsol, hnat⟩ := hlib' (c.t junk) c.mat (knotsOk_curve hc hs ht)
    have hrow : (csapsPoly 1 w' (c.t junk) c.mat).row = (⟨c.t junk, c.mat, d, .yes⟩ : PPoly).row := by
      funext x
      unfold PPoly.row
      have hk1 : (csapsPoly 1 w' (c.t junk) c.mat).y.k = c.ncols := rfl
      have hk2 : c.mat.k = c.ncols := rfl
      rw [hk1, hk2]
      apply List.map_congr_left
      intro j hj
      have hj' := List.mem_range.1 hj
      have hN := hnat j hj'
      rw [hl] at hN
      have hN' := csaps_natural hs hx (fun i hi => (hw i hi).2) hp0 hp1 (fun i => c.mat.v i j)
      have eY : csapsY c.size 1 (knot (c.t junk)) w' (fun i => c.mat.v i j) = fun i => c.mat.v i j := by
        funext i; exact csapsY_one i
      rw [eY] at hN'
      have huniq := natural_unique hs hx hN' hN
      unfold PPoly.coord PPoly.cub
      have hpi : pieceOf (c.t junk) (.fin x) + 1 < c.size := by unfold pieceOf; omega
      have e1 : (csapsPoly 1 w' (c.t junk) c.mat).xs = c.t junk := rfl
      have eq2 : ∀ i, (csapsPoly 1 w' (c.t junk) c.mat).y.v i j = c.mat.v i j := fun i =>
        csapsY_one (n := (c.t junk).length) (x := knot (c.t junk)) (w := w') (y := fun i => c.mat.v i j) i
      have e3 : ∀ i, i < c.size → (csapsPoly 1 w' (c.t junk) c.mat).d.v i j = d.v i j := by
        intro i hi
        rw [← huniq i hi, ← hl]
        rfl
      simp only [e1, eq2]
      rw [e3 _ (by omega), e3 _ hpi]
    rw [hrow]
    exact spline_eval hc hs ht hd hr' (q := ⟨c.t junk, c.mat, d, .yes⟩) (cubic_cons hc hs ht lib' (q := ⟨"natural", none, none⟩) rfl hsol) rfl rfl (.inl rfl)

include hc hs ht hd hr in
/-- **C128, smooth = 1, on the parameter values.** Interpolation at the parameter values themselves gives the curve back. -/
theorem C128_reproduce (hso : StepsOver (c.t junk)) {kw : InterpKw} {w : Nat → ℝ} (hk : CsapsArgs kw c.size 1 w) :
    ∃ R, c.interpolate r (.arr (.ok (GridArr.of (fins (c.t junk))))) m kw = .ok R ∧ Represents R c := by
  obtain ⟨F, h1, h2, _⟩ := C128_interpolates hc hs ht hd hr hk
  exact reproduce_of_eval hc hs h1 hso (fun i x hi => ⟨trivial, h2 i x hi⟩)

/-- The residuals against a straight line. -/
theorem csaps_moments {n : Nat} (hn : 2 ≤ n) {x U : Nat → ℝ} (hx : ∀ i, i + 1 < n → x i < x (i + 1)) (h0 : U 0 = 0) (h1 : U (n - 1) = 0) (α β : ℝ) :
    ∑ i ∈ Finset.range n, (α + β * x i) * (csapsD1 n x U (i + 1) - csapsD1 n x U i) = 0 := by
  rw [csaps_parts hn x U (fun i => α + β * x i)]
  have : ∀ i ∈ Finset.range (n - 1), (U (i + 1) - U i) / (x (i + 1) - x i) * (α + β * x (i + 1) - (α + β * x i)) = β * U (i + 1) - β * U i := by
    intro i hi
    have := hx i (by have := Finset.mem_range.1 hi; omega)
    have : x (i + 1) - x i ≠ 0 := by linarith
    field_simp
    ring
  rw [Finset.sum_congr rfl this, Finset.sum_range_sub (fun i => β * U i), h0, h1]
  ring

include hc hs ht hd hr in
/-- **C128, moments.** For every smoothing parameter the weighted residuals add up to 0, and so do the weighted residuals times the parameter values:
smoothing moves neither the weighted mean of the points nor their regression line. -/
theorem C128_moments {kw : InterpKw} {p : ℝ} {w : Nat → ℝ} (hk : CsapsArgs kw c.size p w) :
    ∃ F, EvaluatesTo c (fun g => c.interpolate r g m kw) (fun _ => True) F ∧
      ∀ j, j < c.ncols →
        ∑ i ∈ Finset.range c.size, w i * (at2 c.rows i j - coordOf j (F ((c.t junk).getD i 0))) = 0 ∧
        ∑ i ∈ Finset.range c.size, w i * (at2 c.rows i j - coordOf j (F ((c.t junk).getD i 0))) * (c.t junk).getD i 0 = 0 := by
  have hl := t_length hc (rows_ne_of_size hs) junk
  have hx : ∀ i, i + 1 < c.size → knot (c.t junk) i < knot (c.t junk) (i + 1) := fun i hi => knot_lt ht (by omega) (by omega)
  obtain ⟨hp0, hp1, w', hw, hev⟩ := csaps_eval hc hs ht hd hr hk
  refine ⟨_, hev, ?_⟩
  intro j hj
  obtain ⟨P, U, Y, _, _, hcub, hM, h0, h1, hY⟩ := csaps_pieces hc hs ht hp0 hp1 (fun i hi => (hw i hi).2) hj
  have hres : ∀ i ∈ Finset.range c.size, w i * (at2 c.rows i j - coordOf j ((csapsPoly p w' (c.t junk) c.mat).row ((c.t junk).getD i 0))) =
      6 * (1 - p) * (csapsD1 c.size (knot (c.t junk)) U (i + 1) - csapsD1 c.size (knot (c.t junk)) U i) := by
    intro i hi
    have hi' := Finset.mem_range.1 hi
    rw [← hY i hi', (hw i hi').1]
    have := cubicOn_values ht (by omega) hcub (show i < (c.t junk).length by omega)
    unfold knot at this
    rw [this]
  constructor
  · rw [Finset.sum_congr rfl hres, ← Finset.mul_sum]
    have := csaps_moments hs hx h0 h1 1 0
    simp only [zero_mul, add_zero, one_mul] at this
    rw [this, mul_zero]
  · have h2 : ∀ i ∈ Finset.range c.size, w i * (at2 c.rows i j - coordOf j ((csapsPoly p w' (c.t junk) c.mat).row ((c.t junk).getD i 0))) *
        (c.t junk).getD i 0 = 6 * (1 - p) * ((0 + 1 * knot (c.t junk) i) *
          (csapsD1 c.size (knot (c.t junk)) U (i + 1) - csapsD1 c.size (knot (c.t junk)) U i)) := by
      intro i hi
      rw [hres i hi]
      unfold knot
      ring
    rw [Finset.sum_congr rfl h2, ← Finset.mul_sum, csaps_moments hs hx h0 h1 0 1, mul_zero]

include hc hs ht in
theorem csapsPoly_line {p : ℝ} {w : Nat → ℝ} (hp0 : 0 ≤ p) (hp1 : p ≤ 1) (hw : ∀ i, i < c.size → 0 < w i) {j : Nat} {α β : ℝ}
    (hU : ∀ i, p * csapsU c.size p (knot (c.t junk)) w (fun i => at2 c.rows i j) i = 0)
    (hY : ∀ i, i < c.size → csapsY c.size p (knot (c.t junk)) w (fun i => at2 c.rows i j) i = α + knot (c.t junk) i * β) (x : ℝ) :
    (csapsPoly p w (c.t junk) c.mat).coord j x = α + x * β := by
  have hl := t_length hc (rows_ne_of_size hs) junk
  have hx : ∀ i, i + 1 < c.size → knot (c.t junk) i < knot (c.t junk) (i + 1) := fun i hi => knot_lt ht (by omega) (by omega)
  have hm : (fun i => c.mat.v i j) = fun i => at2 c.rows i j := rfl
  apply PPoly.coord_line (p := csapsPoly p w (c.t junk) c.mat) ht (by show 2 ≤ (c.t junk).length; omega)
  · intro i hi
    have hi' : i < c.size := by rw [← hl]; exact hi
    show csapsY (c.t junk).length p (knot (c.t junk)) w (fun i => at2 c.rows i j) i = _
    rw [hl]
    exact hY i hi'
  · intro i hi
    have hi' : i < c.size := by rw [← hl]; exact hi
    show csapsSlope (c.t junk).length p (knot (c.t junk)) w (fun i => at2 c.rows i j) i = _
    rw [hl]
    by_cases h1 : i + 1 < c.size
    · rw [csapsSlope_left _ h1, hU, hU, hY i hi', hY _ h1]
      have := hx i h1
      have : knot (c.t junk) (i + 1) - knot (c.t junk) i ≠ 0 := by linarith
      field_simp
      ring
    · obtain ⟨k, rfl⟩ : ∃ k, i = k + 1 := ⟨i - 1, by omega⟩
      rw [csapsSlope_right hx hw hp0 hp1 _ hi', hU, hU, hY k (by omega), hY _ hi']
      have := hx k hi'
      have : knot (c.t junk) (k + 1) - knot (c.t junk) k ≠ 0 := by linarith
      field_simp
      ring

include hc hs ht hd hr in
/-- **C128, smooth = 0.** The coordinates are straight lines, namely the regression lines: no other line has so small a weighted sum of squared
residuals. -/
theorem C128_regression {kw : InterpKw} {w : Nat → ℝ} (hk : CsapsArgs kw c.size 0 w) :
    ∃ F, EvaluatesTo c (fun g => c.interpolate r g m kw) (fun _ => True) F ∧
      ∀ j, j < c.ncols → ∃ α β : ℝ, (∀ x, coordOf j (F x) = α + β * x) ∧
        ∀ α' β' : ℝ, misfit (c.t junk) w (fun i => at2 c.rows i j) (fun x => α + β * x) ≤
            misfit (c.t junk) w (fun i => at2 c.rows i j) (fun x => α' + β' * x) ∧
          (misfit (c.t junk) w (fun i => at2 c.rows i j) (fun x => α' + β' * x) =
            misfit (c.t junk) w (fun i => at2 c.rows i j) (fun x => α + β * x) → α' = α ∧ β' = β) := by
  have hl := t_length hc (rows_ne_of_size hs) junk
  have hx : ∀ i, i + 1 < c.size → knot (c.t junk) i < knot (c.t junk) (i + 1) := fun i hi => knot_lt ht (by omega) (by omega)
  obtain ⟨hp0, hp1, w', hw, hev⟩ := csaps_eval hc hs ht hd hr hk
  refine ⟨_, hev, ?_⟩
  intro j hj
  obtain ⟨P, U, Y, eU, eY, hcub, hM, h0, h1, hY⟩ := csaps_pieces hc hs ht hp0 hp1 (fun i hi => (hw i hi).2) hj
  obtain ⟨β, hβ⟩ : ∃ β, β = (Y 1 - Y 0) / (knot (c.t junk) 1 - knot (c.t junk) 0) := ⟨_, rfl⟩
  have hsec : ∀ i, i + 1 < c.size → (Y (i + 1) - Y i) / (knot (c.t junk) (i + 1) - knot (c.t junk) i) = β := by
    intro i
    induction i with
    | zero => intro _; exact hβ.symm
    | succ i ih =>
      intro hi
      have := csapsY_jump (by omega) hx (fun i hi => (hw i hi).2) hp0 hp1 (fun i => at2 c.rows i j) hi
      rw [← eY, zero_mul] at this
      unfold slopeJump at this
      have := ih (by omega)
      linarith
  have hlin : ∀ i, i < c.size → Y i = (Y 0 - knot (c.t junk) 0 * β) + knot (c.t junk) i * β := by
    intro i
    induction i with
    | zero => intro _; ring
    | succ i ih =>
      intro hi
      have a := hsec i hi
      have b := hx i hi
      rw [div_eq_iff (by linarith)] at a
      have := ih (by omega)
      linarith
  obtain ⟨α, hα⟩ : ∃ α, α = Y 0 - knot (c.t junk) 0 * β := ⟨_, rfl⟩
  rw [← hα] at hlin
  have hcoord := csapsPoly_line hc hs ht hp0 hp1 (fun i hi => (hw i hi).2) (j := j) (fun i => zero_mul _) (by rw [← eY]; exact hlin)
  refine ⟨α, β, ?_, ?_⟩
  · intro x
    unfold coordOf
    rw [PPoly.row_getD _ hj, hcoord]
    ring
  · intro α' β'
    have hmis : misfit (c.t junk) w (fun i => at2 c.rows i j) (fun x => α' + β' * x) =
        misfit (c.t junk) w (fun i => at2 c.rows i j) (fun x => α + β * x) +
          ∑ i ∈ Finset.range c.size, w' i * ((α' - α) + (β' - β) * knot (c.t junk) i) ^ 2 := by
      have hz := csaps_moments hs hx h0 h1 (α' - α) (β' - β)
      rw [← sub_zero (misfit _ _ _ fun x => α' + β' * x), ← mul_zero (-12 : ℝ), ← hz]
      unfold misfit
      rw [hl, Finset.mul_sum, ← Finset.sum_sub_distrib, ← Finset.sum_add_distrib]
      refine Finset.sum_congr rfl fun i hi => ?_
      have hi' := Finset.mem_range.1 hi
      have a := hY i hi'
      rw [hlin i hi'] at a
      rw [← (hw i hi').1]
      change w' i * (at2 c.rows i j - (α' + β' * knot (c.t junk) i)) ^ 2 - _ = w' i * (at2 c.rows i j - (α + β * knot (c.t junk) i)) ^ 2 + _
      linear_combination (-2 * ((α' - α) + (β' - β) * knot (c.t junk) i)) * a
    have hnn : ∀ i ∈ Finset.range c.size, 0 ≤ w' i * ((α' - α) + (β' - β) * knot (c.t junk) i) ^ 2 := by
      intro i hi
      have := (hw i (Finset.mem_range.1 hi)).2
      positivity
    have := Finset.sum_nonneg hnn
    refine ⟨by linarith, ?_⟩
    intro heq
    have hz : ∑ i ∈ Finset.range c.size, w' i * ((α' - α) + (β' - β) * knot (c.t junk) i) ^ 2 = 0 := by linarith
    have hz' := (Finset.sum_eq_zero_iff_of_nonneg hnn).1 hz
    have hat : ∀ i, i < c.size → (α' - α) + (β' - β) * knot (c.t junk) i = 0 := by
      intro i hi
      exact pow_eq_zero_iff two_ne_zero |>.1 ((mul_eq_zero.1 (hz' i (Finset.mem_range.2 hi))).resolve_left (hw i hi).2.ne')
    have a0 := hat 0 (by omega)
    have a1 := hat 1 (by omega)
    have hlt := hx 0 (by omega)
    have hb : (β' - β) * (knot (c.t junk) (0 + 1) - knot (c.t junk) 0) = 0 := by
      have : knot (c.t junk) (0 + 1) = knot (c.t junk) 1 := rfl
      rw [this]
      linarith
    have hb' := (mul_eq_zero.1 hb).resolve_right (by linarith)
    rw [hb', zero_mul, add_zero] at a0
    exact ⟨by linarith, by linarith⟩

theorem csapsU_flat {n : Nat} {p : ℝ} {x w y : Nat → ℝ} (h : ∀ k, k + 2 < n → slopeJump x y k = 0) (i : Nat) : csapsU n p x w y i = 0 := by
  have hB : csapsB n x y = 0 := by
    funext k
    exact h k (by have := k.2; omega)
  unfold csapsU
  rw [hB, Matrix.mulVec_zero]
  split <;> rfl

include hc hs ht hd hr in
/-- **C128, straight lines.** Points on a line at places proportional to the parameter stay where they are, for every smoothing parameter and all
weights: the curve is that line. -/
theorem C128_line {o v : Nat → ℝ} (hline : AlongLine c (c.t junk) o v) {kw : InterpKw} {p : ℝ} {w : Nat → ℝ} (hk : CsapsArgs kw c.size p w) :
    EvaluatesTo c (fun g => c.interpolate r g m kw) (fun _ => True) (linePt c.ncols o v) := by
  have hl := t_length hc (rows_ne_of_size hs) junk
  have hx : ∀ i, i + 1 < c.size → knot (c.t junk) i < knot (c.t junk) (i + 1) := fun i hi => knot_lt ht (by omega) (by omega)
  obtain ⟨hp0, hp1, w', hw, hev⟩ := csaps_eval hc hs ht hd hr hk
  have hrow : (csapsPoly p w' (c.t junk) c.mat).row = linePt c.ncols o v := by
    funext x
    unfold PPoly.row linePt
    have hk1 : (csapsPoly p w' (c.t junk) c.mat).y.k = c.ncols := rfl
    rw [hk1]
    apply List.map_congr_left
    intro j hj
    have hj' := List.mem_range.1 hj
    obtain ⟨_, h2⟩ := line_vals hc hs ht hline hj'
    have hU : ∀ i, csapsU c.size p (knot (c.t junk)) w' (fun i => at2 c.rows i j) i = 0 := by
      apply csapsU_flat
      intro k hk
      have a := secant_line hx h2 (i := k) (by omega)
      have b := secant_line hx h2 (i := k + 1) hk
      unfold slopeJump
      exact sub_eq_zero.2 (b.trans a.symm)
    apply csapsPoly_line hc hs ht hp0 hp1 (fun i hi => (hw i hi).2)
    · intro i; rw [hU, mul_zero]
    · intro i hi
      unfold csapsY csapsD1
      simp only [hU]
      simp
      exact h2 i hi
  rw [← hrow]
  exact hev

include hc hs ht hd hr in
/-- **C128, trade-off.** A larger smoothing parameter never bends less and never fits worse. -/
theorem C128_tradeoff {kw kw' : InterpKw} {p q : ℝ} {w : Nat → ℝ} (hk : CsapsArgs kw c.size p w) (hk' : CsapsArgs kw' c.size q w) (hpq : p < q) :
    ∃ F G, EvaluatesTo c (fun g => c.interpolate r g m kw) (fun _ => True) F ∧ EvaluatesTo c (fun g => c.interpolate r g m kw') (fun _ => True) G ∧
      ∀ a b, (c.t junk).head? = some a → (c.t junk).getLast? = some b → ∀ j, j < c.ncols → ∃ f1 f2 g1 g2 : ℝ → ℝ,
        TwiceOn a b (fun x => coordOf j (F x)) f1 f2 ∧ TwiceOn a b (fun x => coordOf j (G x)) g1 g2 ∧
        bending a b f2 ≤ bending a b g2 ∧
        misfit (c.t junk) w (fun i => at2 c.rows i j) (fun x => coordOf j (G x)) ≤
          misfit (c.t junk) w (fun i => at2 c.rows i j) (fun x => coordOf j (F x)) := by
  obtain ⟨hp0, hp1, _⟩ := csaps_eval hc hs ht hd hr hk
  obtain ⟨hq0, hq1, _⟩ := csaps_eval hc hs ht hd hr hk'
  obtain ⟨F, hF, hF'⟩ := C128_minimal hc hs ht hd hr hk
  obtain ⟨G, hG, hG'⟩ := C128_minimal hc hs ht hd hr hk'
  refine ⟨F, G, hF, hG, ?_⟩
  intro a b ha hb j hj
  obtain ⟨f1, f2, tf, mf⟩ := hF' a b ha hb j hj
  obtain ⟨g1, g2, tg, mg⟩ := hG' a b ha hb j hj
  have i1 := (mf _ _ _ tg).1
  have i2 := (mg _ _ _ tf).1
  unfold smoothCost at i1 i2
  have hb' : bending a b f2 ≤ bending a b g2 := by
    by_contra hcon
    push Not at hcon
    have e1 : (1 - p) * (bending a b f2 - bending a b g2) ≤ p * (misfit (c.t junk) w (fun i => at2 c.rows i j) (fun x => coordOf j (G x)) -
      misfit (c.t junk) w (fun i => at2 c.rows i j) (fun x => coordOf j (F x))) := by linarith
    have e2 : q * (misfit (c.t junk) w (fun i => at2 c.rows i j) (fun x => coordOf j (G x)) -
      misfit (c.t junk) w (fun i => at2 c.rows i j) (fun x => coordOf j (F x))) ≤ (1 - q) * (bending a b f2 - bending a b g2) := by linarith
    have e3 := mul_le_mul_of_nonneg_left e1 hq0
    have e4 := mul_le_mul_of_nonneg_left e2 hp0
    have e5 : (q - p) * (bending a b f2 - bending a b g2) ≤ 0 := by linarith
    nlinarith
  refine ⟨f1, f2, g1, g2, tf, tg, hb', ?_⟩
  have hq : 0 < q := lt_of_le_of_lt hp0 hpq
  have : (1 - q) * bending a b f2 ≤ (1 - q) * bending a b g2 := mul_le_mul_of_nonneg_left hb' (by linarith)
  exact le_of_mul_le_mul_left (by linarith) hq

/-- The traces in `_compute_smooth`. -/
theorem csapsAuto_eq {n : Nat} {x w w' : Nat → ℝ} (hw : ∀ i, i < n → w' i = w i ∧ 0 < w' i) : csapsAuto n x w' =
    1 / (1 + (∑ k ∈ Finset.range (n - 2), 2 * (x (k + 2) - x k)) / (6 * ∑ k ∈ Finset.range (n - 2),
      ((1 / (x (k + 1) - x k)) ^ 2 / w k + (1 / (x (k + 1) - x k) + 1 / (x (k + 2) - x (k + 1))) ^ 2 / w (k + 1) +
        (1 / (x (k + 2) - x (k + 1))) ^ 2 / w (k + 2)))) := by
  unfold csapsAuto
  have e1 : ∑ k : Fin (n - 2), csapsR x k k = ∑ k ∈ Finset.range (n - 2), 2 * (x (k + 2) - x k) := by
    rw [Fin.sum_univ_eq_sum_range (fun k => csapsR x k k)]
    refine Finset.sum_congr rfl fun k _ => ?_
    unfold csapsR
    rw [if_pos rfl]
    ring
  have e2 : ∑ k : Fin (n - 2), csapsQWQ n x w' k k = ∑ k ∈ Finset.range (n - 2),
      ((1 / (x (k + 1) - x k)) ^ 2 / w k + (1 / (x (k + 1) - x k) + 1 / (x (k + 2) - x (k + 1))) ^ 2 / w (k + 1) +
        (1 / (x (k + 2) - x (k + 1))) ^ 2 / w (k + 2)) := by
    rw [Fin.sum_univ_eq_sum_range (fun k => csapsQWQ n x w' k k)]
    refine Finset.sum_congr rfl fun k hk => ?_
    have hk' : k + 2 < n := by have := Finset.mem_range.1 hk; omega
    have e3 : csapsQWQ n x w' k k = ∑ i ∈ Finset.range n, csapsQ x k i * (csapsQ x k i / w i) := by
      unfold csapsQWQ
      rw [Fin.sum_univ_eq_sum_range (fun i => (csapsQ x k i * (1 / √ (w' i))) * (csapsQ x k i * (1 / √ (w' i))))]
      refine Finset.sum_congr rfl fun i hi => ?_
      obtain ⟨a, b⟩ := hw i (Finset.mem_range.1 hi)
      rw [← a]
      have hsq : 1 / w' i = 1 / √ (w' i) * (1 / √ (w' i)) := by
        rw [one_div_mul_one_div, Real.mul_self_sqrt b.le]
      rw [div_eq_mul_one_div (csapsQ x k i), hsq]
      ring
    rw [e3, csapsQ_apply x (fun i => csapsQ x k i / w i) hk']
    have q0 : csapsQ x k k = 1 / (x (k + 1) - x k) := by unfold csapsQ; rw [if_pos rfl]
    have q1 : csapsQ x k (k + 1) = -(1 / (x (k + 2) - x (k + 1)) + 1 / (x (k + 1) - x k)) := by
      unfold csapsQ; rw [if_neg (by omega), if_pos rfl]
    have q2 : csapsQ x k (k + 2) = 1 / (x (k + 2) - x (k + 1)) := by
      unfold csapsQ; rw [if_neg (by omega), if_neg (by omega), if_pos rfl]
    simp only [slopeJump]
    rw [q0, q1, q2]
    ring
  rw [e1, e2]

include hc hs ht hr in
/-- **C128, smooth = None.** The parameter is then computed from the parameter values and the weights; with three or more points it lies strictly
between 0 and 1. The call does what it does for this number. -/
theorem C128_auto {kw : InterpKw} {ws : ArgVal} {w : Nat → ℝ} (hkw : Within kw ["smooth", "weights"]) (hsm : Valued kw "smooth" (.real 1) .none)
    (hws : Valued kw "weights" .none ws) (hw : WeightsFor ws c.size w) :
    ∃ p, 0 < p ∧ p ≤ 1 ∧ (3 ≤ c.size → p < 1) ∧
      p = 1 / (1 + (∑ k ∈ Finset.range (c.size - 2), 2 * ((c.t junk).getD (k + 2) 0 - (c.t junk).getD k 0)) / (6 * ∑ k ∈ Finset.range (c.size - 2),
        ((1 / ((c.t junk).getD (k + 1) 0 - (c.t junk).getD k 0)) ^ 2 / w k +
          (1 / ((c.t junk).getD (k + 1) 0 - (c.t junk).getD k 0) + 1 / ((c.t junk).getD (k + 2) 0 - (c.t junk).getD (k + 1) 0)) ^ 2 / w (k + 1) +
          (1 / ((c.t junk).getD (k + 2) 0 - (c.t junk).getD (k + 1) 0)) ^ 2 / w (k + 2)))) ∧
      CsapsArgs ⟨[("smooth", .real p), ("weights", ws)]⟩ c.size p w ∧
      ∀ g, c.interpolate r g m kw = c.interpolate r g m ⟨[("smooth", .real p), ("weights", ws)]⟩ := by
  have hl := t_length hc (rows_ne_of_size hs) junk
  have hx : ∀ i, i + 1 < c.size → knot (c.t junk) i < knot (c.t junk) (i + 1) := fun i hi => knot_lt ht (by omega) (by omega)
  have hw' := hw
  rw [← hl] at hw'
  obtain ⟨v, hv, hnum, hauto⟩ := csapsFn_all lib (knotsOk_curve hc hs ht) hw'
  rw [hl] at hv hauto
  obtain ⟨p, hp⟩ : ∃ p, p = csapsAuto c.size (knot (c.t junk)) v := ⟨_, rfl⟩
  rw [← hp] at hauto
  rw [csapsAuto_eq hv] at hp
  have hwpos : ∀ i, i < c.size → 0 < w i := fun i hi => by rw [← (hv i hi).1]; exact (hv i hi).2
  have hA : ∀ k ∈ Finset.range (c.size - 2), 0 < 2 * (knot (c.t junk) (k + 2) - knot (c.t junk) k) := by
    intro k hk
    have hk' := Finset.mem_range.1 hk
    have := hx k (by omega)
    have := hx (k + 1) (by omega)
    linarith
  have hB : ∀ k ∈ Finset.range (c.size - 2), 0 < (1 / (knot (c.t junk) (k + 1) - knot (c.t junk) k)) ^ 2 / w k +
      (1 / (knot (c.t junk) (k + 1) - knot (c.t junk) k) + 1 / (knot (c.t junk) (k + 2) - knot (c.t junk) (k + 1))) ^ 2 / w (k + 1) +
      (1 / (knot (c.t junk) (k + 2) - knot (c.t junk) (k + 1))) ^ 2 / w (k + 2) := by
    intro k hk
    have hk' := Finset.mem_range.1 hk
    have a := hx k (by omega)
    have b := hx (k + 1) (by omega)
    have a' : 0 < knot (c.t junk) (k + 1) - knot (c.t junk) k := by linarith
    have b' : 0 < knot (c.t junk) (k + 2) - knot (c.t junk) (k + 1) := by linarith
    have w0 := hwpos k (by omega)
    have w1 := hwpos (k + 1) (by omega)
    have w2 := hwpos (k + 2) (by omega)
    positivity
  obtain ⟨A, eA⟩ : ∃ A, A = ∑ k ∈ Finset.range (c.size - 2), 2 * (knot (c.t junk) (k + 2) - knot (c.t junk) k) := ⟨_, rfl⟩
  obtain ⟨B, eB⟩ : ∃ B, B = ∑ k ∈ Finset.range (c.size - 2), ((1 / (knot (c.t junk) (k + 1) - knot (c.t junk) k)) ^ 2 / w k +
      (1 / (knot (c.t junk) (k + 1) - knot (c.t junk) k) + 1 / (knot (c.t junk) (k + 2) - knot (c.t junk) (k + 1))) ^ 2 / w (k + 1) +
      (1 / (knot (c.t junk) (k + 2) - knot (c.t junk) (k + 1))) ^ 2 / w (k + 2)) := ⟨_, rfl⟩
  have hp' : p = 1 / (1 + A / (6 * B)) := by rw [hp, eA, eB]
  have hA0 : 0 ≤ A := by rw [eA]; exact Finset.sum_nonneg fun k hk => (hA k hk).le
  have hB0 : 0 ≤ B := by rw [eB]; exact Finset.sum_nonneg fun k hk => (hB k hk).le
  have hR : 0 ≤ A / (6 * B) := by positivity
  have hp0 : 0 < p := by rw [hp']; positivity
  have hp1 : p ≤ 1 := by
    rw [hp', div_le_one (by linarith)]
    linarith
  have hargs : CsapsArgs ⟨[("smooth", .real p), ("weights", ws)]⟩ c.size p w :=
    ⟨.real p, ws, ⟨by simp, by simp⟩, .inl (by simp), .inl (by simp), .inl rfl, hp0.le, hp1, hw⟩
  refine ⟨p, hp0, hp1, ?_, hp, hargs, ?_⟩
  · intro h3
    have hne : (Finset.range (c.size - 2)).Nonempty := ⟨0, Finset.mem_range.2 (by omega)⟩
    have hA1 : 0 < A := by rw [eA]; exact Finset.sum_pos hA hne
    have hB1 : 0 < B := by rw [eB]; exact Finset.sum_pos hB hne
    have : 0 < A / (6 * B) := by positivity
    rw [hp', div_lt_one (by linarith)]
    linarith
  · intro g
    have h1 : pickCsaps kw = some (.none, ws) := by
      unfold pickCsaps
      rw [within_only hkw, if_pos rfl, lookup_valued hkw.1 hsm, lookup_valued hkw.1 hws]
    have h2 : pickCsaps ⟨[("smooth", .real p), ("weights", ws)]⟩ = some (.real p, ws) := by
      simp [pickCsaps, InterpKw.only, InterpKw.getD, List.lookup]
    rw [interpolate_eq hr, interpolate_eq hr]
    simp only [interpClass, withKw, h1, h2, csapsCons, hauto, hnum (.real p) p (.inl rfl) hp0.le hp1]

include hr in
/-- **C128, errors.** Parameter values that do not increase strictly (or fewer than two of them), or a wrong number of weights, are an
InterpolationError, whatever the smoothing parameter; so is an unknown keyword argument. -/
theorem C128_errors (kw : InterpKw) (g : GridSpec) :
    (¬ ((c.t junk).Pairwise (· < ·) ∧ 2 ≤ (c.t junk).length) → c.interpolate r g m kw = .error .interpolationError) ∧
    (∀ l, Within kw ["smooth", "weights"] → Valued kw "weights" .none (.arr l) → l.length ≠ (c.t junk).length →
      c.interpolate r g m kw = .error .interpolationError) ∧
    (¬ (∀ a ∈ kw.args, a.1 = "smooth" ∨ a.1 = "weights") → c.interpolate r g m kw = .error .interpolationError) := by
  have hcons : (∃ e, withKw pickCsaps (csapsCons lib junk) c kw = .error e) → c.interpolate r g m kw = .error .interpolationError := by
    rintro ⟨e, he⟩
    rw [interpolate_eq hr]
    simp only [interpClass, he, bind, Except.bind, wrapErr]
  have hknots : knotsOk (c.t junk) c.mat.m = false → ∀ q, csapsCons lib junk c q = .error .valueError := by
    intro h q
    simp [csapsCons, csapsFn, h, bind, Except.bind]
  refine ⟨?_, ?_, ?_⟩
  · intro h
    apply hcons
    have hk : knotsOk (c.t junk) c.mat.m = false := by
      rw [Bool.eq_false_iff]
      intro hk
      have := knotsOk_iff.1 hk
      exact h ⟨this.2.2, this.1⟩
    unfold withKw
    cases hp : pickCsaps kw with
    | none => exact ⟨_, rfl⟩
    | some q => exact ⟨_, hknots hk q⟩
  · intro l hW hl hne
    apply hcons
    by_cases hk : knotsOk (c.t junk) c.mat.m = true
    · have h1 : pickCsaps kw = some (kw.getD "smooth" (.real 1), .arr l) := by
        unfold pickCsaps
        rw [within_only hW, if_pos rfl, lookup_valued hW.1 hl]
      refine ⟨.valueError, ?_⟩
      simp [withKw, h1, csapsCons, csapsFn, hk, hne, bind, Except.bind]
    · rw [Bool.not_eq_true] at hk
      unfold withKw
      cases hp : pickCsaps kw with
      | none => exact ⟨_, rfl⟩
      | some q => exact ⟨_, hknots hk q⟩
  · intro h
    apply hcons
    refine ⟨.typeError, ?_⟩
    have : kw.only ["smooth", "weights"] = false := by
      rw [Bool.eq_false_iff]
      intro hk
      apply h
      intro a ha
      have := List.all_eq_true.1 hk a ha
      simpa using this
    simp [withKw, pickCsaps, this]

end

/-! ## Instances -/

/-- Without keyword arguments: smoothing parameter 1, equal weights. -/
theorem csapsArgs_default (n : Nat) : CsapsArgs .none n 1 (fun _ => 1) :=
  ⟨.real 1, .none, ⟨by simp [InterpKw.none], by simp [InterpKw.none]⟩, .inr ⟨by simp [InterpKw.none], rfl⟩, .inr ⟨by simp [InterpKw.none], rfl⟩, .inl rfl,
    by norm_num, by norm_num, .inl ⟨rfl, fun _ _ => rfl⟩⟩

/-- A number and weights. -/
example : CsapsArgs ⟨[("smooth", .real (3 / 4)), ("weights", .arr [1, 2, 1 / 2])]⟩ 3 (3 / 4) (fun i => [1, 2, 1 / 2].getD i 1) := by
  refine ⟨.real (3 / 4), .arr [1, 2, 1 / 2], ⟨by simp, by simp⟩, .inl (by simp), .inl (by simp), .inl rfl, by norm_num, by norm_num, .inr ⟨_, rfl, rfl, ?_⟩⟩
  intro i u hi
  rcases i with _ | _ | _ | i <;> simp at hi <;> subst hi <;> norm_num

theorem builtin_csaps (lib : SplineLib) (junk : ℝ) : IsCsaps lib junk (builtinInterp lib junk) "csaps" := by
  have := (C108_methods lib junk []).2.2.2.2.2.2.2
  unfold regAfter at this
  rw [List.append_nil] at this
  exact this

/-- The points of the cubic parabola: by default the method passes through them. -/
example (lib : SplineLib) : ∃ R, exCubic.interpolate (builtinInterp lib 0) (.arr (.ok (GridArr.of (fins (exCubic.t 0))))) "csaps" .none = .ok R ∧
    Represents R exCubic :=
  C128_reproduce exCubic_WF (by simp [exCubic, Curve.size]) (junk := 0) (by norm_num [exCubic, Curve.t]) (by simp [exCubic]) (builtin_csaps lib 0)
    (by
      intro i x y hx hy
      rcases i with _ | _ | _ | i <;> simp [exCubic, Curve.t] at hx hy <;> subst hx <;> subst hy <;> norm_num) (csapsArgs_default _)

/-- The smoothing parameter computed for the points of the cubic parabola. -/
example (lib : SplineLib) : ∃ p, 0 < p ∧ p < 1 ∧ ∀ g, exCubic.interpolate (builtinInterp lib 0) g "csaps" ⟨[("smooth", .none)]⟩ =
    exCubic.interpolate (builtinInterp lib 0) g "csaps" ⟨[("smooth", .real p), ("weights", .none)]⟩ := by
  obtain ⟨p, h1, _, h3, _, _, h6⟩ := C128_auto exCubic_WF (by simp [exCubic, Curve.size]) (junk := 0) (by norm_num [exCubic, Curve.t]) (builtin_csaps lib 0)
    (kw := ⟨[("smooth", .none)]⟩) (ws := .none) (w := fun _ => 1) ⟨by simp, by simp⟩ (.inl (by simp)) (.inr ⟨by simp, rfl⟩) (.inl ⟨rfl, fun _ _ => rfl⟩)
  exact ⟨p, h1, h3 (by simp [exCubic, Curve.size]), h6⟩

/-! ## Concrete cases -/

section
variable (lib : SplineLib)

theorem exCubic_two : 2 ≤ exCubic.size := by simp [exCubic, Curve.size]
theorem exCubic_inc : (exCubic.t 0).Pairwise (· < ·) := by norm_num [exCubic, Curve.t]
theorem exCubic_float : exCubic.dtype ≠ .int := by simp [exCubic]

/-- A smoothing parameter and no weights. -/
theorem csapsArgs_smooth (n : Nat) {p : ℝ} (h0 : 0 ≤ p) (h1 : p ≤ 1) : CsapsArgs ⟨[("smooth", .real p)]⟩ n p (fun _ => 1) :=
  ⟨.real p, .none, ⟨by simp, by simp⟩, .inl (by simp), .inr ⟨by simp, rfl⟩, .inl rfl, h0, h1, .inl ⟨rfl, fun _ _ => rfl⟩⟩

example := C128_natural exCubic_WF exCubic_two exCubic_inc exCubic_float (builtin_csaps lib 0) (csapsArgs_smooth _ (p := 3 / 4) (by norm_num) (by norm_num))
example := C128_interpolates exCubic_WF exCubic_two exCubic_inc exCubic_float (builtin_csaps lib 0) (csapsArgs_default _)
example := C128_moments exCubic_WF exCubic_two exCubic_inc exCubic_float (builtin_csaps lib 0) (csapsArgs_smooth _ (p := 3 / 4) (by norm_num) (by norm_num))
example := C128_regression exCubic_WF exCubic_two exCubic_inc exCubic_float (builtin_csaps lib 0) (csapsArgs_smooth _ (p := 0) (by norm_num) (by norm_num))
example := C128_tradeoff exCubic_WF exCubic_two exCubic_inc exCubic_float (builtin_csaps lib 0) (csapsArgs_smooth _ (p := 1 / 4) (by norm_num) (by norm_num))
  (csapsArgs_smooth _ (p := 3 / 4) (by norm_num) (by norm_num)) (by norm_num)
example := C128_line (c := ⟨[[0, 1], [1, 3], [3, 7]], 2, some [0, 1, 3], .float⟩) ⟨by simp, by simp, by simp, by intro r _ x _; rfl⟩ (by simp [Curve.size])
  (junk := 0) (by norm_num [Curve.t]) (by simp) (builtin_csaps lib 0) (o := fun j => j) (v := fun j => j + 1)
  (by
    intro i x j hx hj
    have hj : j < 2 := hj
    rcases i with _ | _ | _ | i <;> simp [Curve.t] at hx <;> subst hx <;> interval_cases j <;> norm_num [at2])
  (csapsArgs_smooth _ (p := 3 / 4) (by norm_num) (by norm_num))
example (g : GridSpec) := (C128_errors (c := exCubic) (junk := 0) (builtin_csaps lib 0) ⟨[("weights", .arr [1, 2])]⟩ g).2.1 [1, 2] ⟨by simp, by simp⟩ (.inl (by simp))
  (by simp [exCubic, Curve.t])
end

end Verif.Props
