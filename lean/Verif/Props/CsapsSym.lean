import Verif.Lemmas.CsapsSym
import Verif.Props.Csaps2
import Verif.Props.Rescale

/-!
C140: the smoothing spline of the method `csaps` under affine maps, changes of units and reversal.
-/
namespace Verif.Spec

open Verif Verif.Model

/-- The smoothing parameter that csaps computes from the parameter values `x` and the weights `w` of `n` points. -/
noncomputable def autoSmooth (n : Nat) (x w : Nat → ℝ) : ℝ :=
  1 / (1 + (∑ k ∈ Finset.range (n - 2), 2 * (x (k + 2) - x k)) / (6 * ∑ k ∈ Finset.range (n - 2),
    ((1 / (x (k + 1) - x k)) ^ 2 / w k + (1 / (x (k + 1) - x k) + 1 / (x (k + 2) - x (k + 1))) ^ 2 / w (k + 1) +
      (1 / (x (k + 2) - x (k + 1))) ^ 2 / w (k + 2))))

/-- The keyword arguments `smooth=None` and `weights`, which mean the weights `w` of `n` points. -/
def CsapsAuto (kw : InterpKw) (n : Nat) (w : Nat → ℝ) : Prop :=
  ∃ ws, Within kw ["smooth", "weights"] ∧ Valued kw "smooth" (.real 1) .none ∧ Valued kw "weights" .none ws ∧ WeightsFor ws n w

/-- The keyword arguments `smooth` and `weights` mean the smoothing parameter `p`, given or computed, and the weights `w` of `n` points with the
parameter values `t`. -/
def CsapsMeans (kw : InterpKw) (t : List ℝ) (n : Nat) (p : ℝ) (w : Nat → ℝ) : Prop :=
  CsapsArgs kw n p w ∨ CsapsAuto kw n w ∧ p = autoSmooth n (fun i => t.getD i 0) w

end Verif.Spec

namespace Verif.Props

open Verif Verif.Np Verif.Model Verif.Spec

theorem csaps_means {c : Curve ℝ} (hc : WF c) (hs : 2 ≤ c.size) {junk : ℝ} (ht : (c.t junk).Pairwise (· < ·)) (hd : c.dtype ≠ .int)
    {lib : SplineLib} {r : KwReg} {m : String} (hr : IsCsaps lib junk r m) {kw : InterpKw} {p : ℝ} {w : Nat → ℝ} (h : CsapsMeans kw (c.t junk) c.size p w) :
    0 ≤ p ∧ p ≤ 1 ∧ ∃ w', (∀ i, i < c.size → w' i = w i ∧ 0 < w' i) ∧
      EvaluatesTo c (fun g => c.interpolate r g m kw) (fun _ => True) (csapsPoly p w' (c.t junk) c.mat).row := by
  rcases h with h | ⟨⟨ws, h1, h2, h3, h4⟩, hp⟩
  · exact csaps_eval hc hs ht hd hr h
  · obtain ⟨p', _, _, _, e, h5, h6⟩ := C128_auto hc hs ht hr h1 h2 h3 h4
    have : p' = p := by rw [e, hp]; rfl
    subst this
    obtain ⟨a, b, w', hw', hev⟩ := csaps_eval hc hs ht hd hr h5
    refine ⟨a, b, w', hw', ?_⟩
    simp only [h6]
    exact hev

theorem csaps_weights {kw : InterpKw} {t : List ℝ} {n : Nat} {p : ℝ} {w : Nat → ℝ} (h : CsapsMeans kw t n p w) {i : Nat} (hi : i < n) : 0 < w i := by
  have key : ∀ ws, WeightsFor ws n w → 0 < w i := by
    intro ws h
    rcases h with ⟨_, h⟩ | ⟨l, _, h1, h2⟩
    · rw [h i hi]; norm_num
    · obtain ⟨a, b⟩ := h2 i l[i] (List.getElem?_eq_getElem (by omega))
      rw [a]; exact b
  rcases h with ⟨_, ws, _, _, _, _, _, _, h⟩ | ⟨⟨ws, _, _, _, h⟩, _⟩ <;> exact key ws h

section
variable {M : Nat → Nat → ℝ} {b : Nat → ℝ} {c c' : Curve ℝ} (hc : WF c) (hc' : WF c') (hs : 2 ≤ c.size) (hA : AffineImage M b c c')
  {junk : ℝ} (ht : (c.t junk).Pairwise (· < ·)) (htt : c'.t junk = c.t junk)
include hc hc' hs hA ht htt

/-- **C140 (affine maps).** The smoothing spline of the image of a curve under an affine map, at the same parameter values with the same weights and
smoothing parameter, is the image of the smoothing spline. (Dtypes that are not integer ones.) -/
theorem C140_affine (hd : c.dtype ≠ .int) (hd' : c'.dtype ≠ .int) {lib : SplineLib} {r : KwReg} {m : String} (hr : IsCsaps lib junk r m) {kw kw' : InterpKw}
    {p : ℝ} {w : Nat → ℝ} (hk : CsapsMeans kw (c.t junk) c.size p w) (hk' : CsapsMeans kw' (c.t junk) c.size p w) :
    ∃ F F', EvaluatesTo c (fun g => c.interpolate r g m kw) (fun _ => True) F ∧
      EvaluatesTo c' (fun g => c'.interpolate r g m kw') (fun _ => True) F' ∧
      ∀ x, AffinePt M b c.ncols c'.ncols (F x) (F' x) := by
  have hl := t_length hc (rows_ne_of_size hs) junk
  have hs' : 2 ≤ c'.size := by rw [hA.size]; exact hs
  have ht' : (c'.t junk).Pairwise (· < ·) := by rw [htt]; exact ht
  obtain ⟨hp0, hp1, v, hv, hev⟩ := csaps_means hc hs ht hd hr hk
  obtain ⟨_, _, v', hv', hev'⟩ := csaps_means hc' hs' ht' hd' hr (by rw [htt, hA.size]; exact hk')
  rw [hA.size] at hv'
  have hx : ∀ i, i + 1 < c.size → knot (c.t junk) i < knot (c.t junk) (i + 1) := fun i hi => knot_lt ht (by omega) (by omega)
  have e : ∀ j, j < c'.ncols → ∀ i, i < c.size → c'.mat.v i j = 1 * (∑ k ∈ Finset.range c.ncols, M j k * c.mat.v i k + b j) + 0 := by
    intro j hj i hi
    rw [one_mul, add_zero, mat_v, hA.pts i j hi hj]
    rfl
  have e1 : ∀ i, i < c.size → knot (c.t junk) i = 1 * knot (c.t junk) i + 0 := fun i _ => by ring
  have e2 : ∀ i, i < c.size → v' i = 1 * v i := fun i hi => by rw [(hv i hi).1, (hv' i hi).1, one_mul]
  refine ⟨_, _, hev, hev', ?_⟩
  intro x
  refine ⟨by rw [PPoly.row_length]; rfl, by rw [PPoly.row_length]; rfl, ?_⟩
  intro j hj
  rw [PPoly.row_getD _ (show j < c'.ncols from hj), PPoly.coord_affine (p := csapsPoly p v (c.t junk) c.mat) (show c'.t junk = c.t junk from htt)
    (show (c.t junk).Pairwise (· < ·) from ht) (show 2 ≤ (c.t junk).length by omega) (n := c.ncols) (M := M j) (b := b j)]
  · congr 1
    apply Finset.sum_congr rfl
    intro k hk
    rw [PPoly.row_getD _ (show k < c.ncols from Finset.mem_range.1 hk)]
  · intro i hi
    have hi' : i < c.size := by rw [← hl]; exact hi
    unfold csapsPoly
    simp only [htt, hl]
    have := csapsY_rescale (κ := 1) (p' := p) hs hx (fun i hi => (hv i hi).2) hp0 hp1 hp0 hp1 one_pos one_pos (by ring) e1 e2 (e j hj) hi'
    rw [this, one_mul, add_zero]
    exact csapsY_sum c.ncols (M j) c.mat.v (b j) i
  · intro i hi
    have hi' : i < c.size := by rw [← hl]; exact hi
    unfold csapsPoly
    simp only [htt, hl]
    have := csapsSlope_rescale (κ := 1) (p' := p) hs hx (fun i hi => (hv i hi).2) hp0 hp1 hp0 hp1 one_pos one_pos (by ring) e1 e2 (e j hj) hi'
    rw [this, div_one, one_mul]
    exact csapsSlope_sum c.ncols (M j) c.mat.v (b j) i

end

section
variable {a b s : ℝ} {q : Nat → ℝ} {c c' : Curve ℝ} (hc : WF c) (hc' : WF c') (hs : 2 ≤ c.size) (ha : 0 < a) (hS : ScaledBy s q c c') {junk : ℝ}
  (ht : (c.t junk).Pairwise (· < ·)) (htt : c'.t junk = (c.t junk).map fun x => a * x + b)
include hc hc' hs ha hS ht htt

/-- **C140 (units).** Points `s p + q` instead of `p`, parameter values `a x + b` instead of `x` (`a > 0`), weights `κ w` instead of `w` (`κ > 0`): the
smoothing spline is the same in the new units, if the smoothing parameters fit: `p / (1 - p) = κ a³ p' / (1 - p')`. -/
theorem C140_units (hd : c.dtype ≠ .int) (hd' : c'.dtype ≠ .int) {lib : SplineLib} {r : KwReg} {m : String} (hr : IsCsaps lib junk r m) {kw kw' : InterpKw}
    {p p' κ : ℝ} {w w' : Nat → ℝ} (hκ : 0 < κ) (hpp : p * (1 - p') = κ * a ^ 3 * p' * (1 - p)) (hw : ∀ i, i < c.size → w' i = κ * w i)
    (hk : CsapsMeans kw (c.t junk) c.size p w) (hk' : CsapsMeans kw' (c'.t junk) c'.size p' w') :
    ∃ F F', EvaluatesTo c (fun g => c.interpolate r g m kw) (fun _ => True) F ∧
      EvaluatesTo c' (fun g => c'.interpolate r g m kw') (fun _ => True) F' ∧
      ∀ x, (F x).length = c.ncols ∧ (F' (a * x + b)).length = c.ncols ∧
        ∀ j, j < c.ncols → coordOf j (F' (a * x + b)) = s * coordOf j (F x) + q j := by
  have e1 : c'.size = c.size := hS.size
  have e2 : 2 ≤ c'.size := by omega
  have hnc : c'.ncols = c.ncols := hS.ndim
  have hl := t_length hc (rows_ne_of_size hs) junk
  have e3 : (c'.t junk).length = c.size := by rw [htt, List.length_map, hl]
  have ht' := rescale_lt ha ht htt
  have kn : ∀ i, i < c.size → knot (c'.t junk) i = a * knot (c.t junk) i + b := fun i hi => rescale_knot hc hs htt hi
  have hx : ∀ i, i + 1 < c.size → knot (c.t junk) i < knot (c.t junk) (i + 1) := fun i hi => knot_lt ht (by omega) (by omega)
  have ym : ∀ j, j < c.ncols → ∀ i, i < c.size → c'.mat.v i j = s * c.mat.v i j + q j := by
    intro j hj i hi
    rw [mat_v, mat_v]; exact hS.pts i j hi hj
  obtain ⟨hp0, hp1, v, hv, hev⟩ := csaps_means hc hs ht hd hr hk
  obtain ⟨hq0, hq1, v', hv', hev'⟩ := csaps_means hc' e2 ht' hd' hr hk'
  rw [e1] at hv'
  have ev : ∀ i, i < c.size → v' i = κ * v i := fun i hi => by rw [(hv i hi).1, (hv' i hi).1, hw i hi]
  refine ⟨_, _, hev, hev', ?_⟩
  intro x
  refine ⟨by rw [PPoly.row_length]; rfl, by rw [PPoly.row_length]; exact hnc, ?_⟩
  intro j hj
  unfold coordOf
  rw [PPoly.row_getD _ (show j < c'.ncols by rw [hnc]; exact hj), PPoly.row_getD _ (show j < c.ncols from hj)]
  apply PPoly.coord_rescale ha (n := c.size) hl e3 hs (show (c.t junk).Pairwise (· < ·) from ht) (show (c'.t junk).Pairwise (· < ·) from ht')
  · exact kn
  · intro i hi
    unfold csapsPoly
    simp only [e3, hl]
    exact csapsY_rescale hs hx (fun i hi => (hv i hi).2) hp0 hp1 hq0 hq1 ha hκ hpp kn ev (ym j hj) hi
  · intro i hi
    unfold csapsPoly
    simp only [e3, hl]
    exact csapsSlope_rescale hs hx (fun i hi => (hv i hi).2) hp0 hp1 hq0 hq1 ha hκ hpp kn ev (ym j hj) hi

end

/-- The computed parameter after a change of units. -/
theorem autoSmooth_rescale {n : Nat} {x w x' w' : Nat → ℝ} {a b κ : ℝ} (hx : ∀ i, i + 1 < n → x i < x (i + 1)) (hw : ∀ i, i < n → 0 < w i) (ha : 0 < a)
    (hκ : 0 < κ) (ex : ∀ i, i < n → x' i = a * x i + b) (ew : ∀ i, i < n → w' i = κ * w i) :
    autoSmooth n x w * (1 - autoSmooth n x' w') = κ * a ^ 3 * autoSmooth n x' w' * (1 - autoSmooth n x w) := by
  unfold autoSmooth
  obtain ⟨A, eA⟩ : ∃ A, A = ∑ k ∈ Finset.range (n - 2), 2 * (x (k + 2) - x k) := ⟨_, rfl⟩
  obtain ⟨B, eB⟩ : ∃ B, B = ∑ k ∈ Finset.range (n - 2), ((1 / (x (k + 1) - x k)) ^ 2 / w k + (1 / (x (k + 1) - x k) + 1 / (x (k + 2) - x (k + 1))) ^ 2 / w (k + 1) +
      (1 / (x (k + 2) - x (k + 1))) ^ 2 / w (k + 2)) := ⟨_, rfl⟩
  have hA : ∑ k ∈ Finset.range (n - 2), 2 * (x' (k + 2) - x' k) = a * A := by
    rw [eA, Finset.mul_sum]
    refine Finset.sum_congr rfl fun k hk => ?_
    have := Finset.mem_range.1 hk
    rw [ex k (by omega), ex (k + 2) (by omega)]
    ring
  have hB : ∑ k ∈ Finset.range (n - 2), ((1 / (x' (k + 1) - x' k)) ^ 2 / w' k + (1 / (x' (k + 1) - x' k) + 1 / (x' (k + 2) - x' (k + 1))) ^ 2 / w' (k + 1) +
      (1 / (x' (k + 2) - x' (k + 1))) ^ 2 / w' (k + 2)) = 1 / (κ * a ^ 2) * B := by
    rw [eB, Finset.mul_sum]
    refine Finset.sum_congr rfl fun k hk => ?_
    have hk' := Finset.mem_range.1 hk
    have g1 := hx k (by omega)
    have g2 := hx (k + 1) (by omega)
    have n1 : x (k + 1) - x k ≠ 0 := by linarith
    have n2 : x (k + 2) - x (k + 1) ≠ 0 := by linarith
    have w0 := hw k (by omega)
    have w1 := hw (k + 1) (by omega)
    have w2 := hw (k + 2) (by omega)
    rw [ex k (by omega), ex (k + 1) (by omega), ex (k + 2) (by omega), ew k (by omega), ew (k + 1) (by omega), ew (k + 2) (by omega),
      show a * x (k + 2) + b - (a * x (k + 1) + b) = a * (x (k + 2) - x (k + 1)) by ring,
      show a * x (k + 1) + b - (a * x k + b) = a * (x (k + 1) - x k) by ring]
    field_simp
  have hA0 : 0 ≤ A := by
    rw [eA]
    refine Finset.sum_nonneg fun k hk => ?_
    have hk' := Finset.mem_range.1 hk
    have := hx k (by omega)
    have := hx (k + 1) (by omega)
    linarith
  have hB0 : 0 ≤ B := by
    rw [eB]
    refine Finset.sum_nonneg fun k hk => ?_
    have hk' := Finset.mem_range.1 hk
    have w0 := hw k (by omega)
    have w1 := hw (k + 1) (by omega)
    have w2 := hw (k + 2) (by omega)
    positivity
  rw [hA, hB, ← eA, ← eB]
  have e : a * A / (6 * (1 / (κ * a ^ 2) * B)) = κ * a ^ 3 * (A / (6 * B)) := by
    rcases eq_or_ne B 0 with h | h
    · rw [h]; simp
    · field_simp
  rw [e]
  have hT : 0 ≤ A / (6 * B) := by positivity
  generalize A / (6 * B) = T at hT
  have h1 : 1 + T ≠ 0 := by positivity
  have h2 : 1 + κ * a ^ 3 * T ≠ 0 := by positivity
  field_simp
  ring

theorem autoSmooth_reverse {n : Nat} {x w x' w' : Nat → ℝ} {L : ℝ} (ex : ∀ i, i < n → x' i = L - x (n - 1 - i)) (ew : ∀ i, i < n → w' i = w (n - 1 - i)) :
    autoSmooth n x' w' = autoSmooth n x w := by
  unfold autoSmooth
  have hA : ∑ k ∈ Finset.range (n - 2), 2 * (x' (k + 2) - x' k) = ∑ k ∈ Finset.range (n - 2), 2 * (x (k + 2) - x k) := by
    rw [← Finset.sum_range_reflect]
    refine Finset.sum_congr rfl fun k hk => ?_
    have := Finset.mem_range.1 hk
    rw [ex _ (by omega), ex _ (by omega), show n - 1 - (n - 2 - 1 - k + 2) = k by omega, show n - 1 - (n - 2 - 1 - k) = k + 2 by omega]
    ring
  have hB : ∑ k ∈ Finset.range (n - 2), ((1 / (x' (k + 1) - x' k)) ^ 2 / w' k + (1 / (x' (k + 1) - x' k) + 1 / (x' (k + 2) - x' (k + 1))) ^ 2 / w' (k + 1) +
      (1 / (x' (k + 2) - x' (k + 1))) ^ 2 / w' (k + 2)) =
      ∑ k ∈ Finset.range (n - 2), ((1 / (x (k + 1) - x k)) ^ 2 / w k + (1 / (x (k + 1) - x k) + 1 / (x (k + 2) - x (k + 1))) ^ 2 / w (k + 1) +
      (1 / (x (k + 2) - x (k + 1))) ^ 2 / w (k + 2)) := by
    rw [← Finset.sum_range_reflect]
    refine Finset.sum_congr rfl fun k hk => ?_
    have := Finset.mem_range.1 hk
    rw [ex _ (by omega), ex _ (by omega), ex _ (by omega), ew _ (by omega), ew _ (by omega), ew _ (by omega),
      show n - 1 - (n - 2 - 1 - k + 2) = k by omega, show n - 1 - (n - 2 - 1 - k) = k + 2 by omega, show n - 1 - (n - 2 - 1 - k + 1) = k + 1 by omega,
      show L - x (k + 1) - (L - x (k + 2)) = x (k + 2) - x (k + 1) by ring, show L - x k - (L - x (k + 1)) = x (k + 1) - x k by ring]
    ring
  rw [hA, hB]

section
variable {a b s : ℝ} {q : Nat → ℝ} {c c' : Curve ℝ} (hc : WF c) (hc' : WF c') (hs : 2 ≤ c.size) (ha : 0 < a) (hS : ScaledBy s q c c') {junk : ℝ}
  (ht : (c.t junk).Pairwise (· < ·)) (htt : c'.t junk = (c.t junk).map fun x => a * x + b)
include hc hc' hs ha hS ht htt

/-- **C140 (units, smooth=None).** With the computed smoothing parameter the smoothing spline does not depend on units at all. -/
theorem C140_units_auto (hd : c.dtype ≠ .int) (hd' : c'.dtype ≠ .int) {lib : SplineLib} {r : KwReg} {m : String} (hr : IsCsaps lib junk r m) {kw kw' : InterpKw}
    {κ : ℝ} {w w' : Nat → ℝ} (hκ : 0 < κ) (hw : ∀ i, i < c.size → w' i = κ * w i) (hk : CsapsAuto kw c.size w) (hk' : CsapsAuto kw' c'.size w') :
    ∃ F F', EvaluatesTo c (fun g => c.interpolate r g m kw) (fun _ => True) F ∧
      EvaluatesTo c' (fun g => c'.interpolate r g m kw') (fun _ => True) F' ∧
      ∀ x, (F x).length = c.ncols ∧ (F' (a * x + b)).length = c.ncols ∧
        ∀ j, j < c.ncols → coordOf j (F' (a * x + b)) = s * coordOf j (F x) + q j := by
  have hl := t_length hc (rows_ne_of_size hs) junk
  have e1 : c'.size = c.size := hS.size
  have h1 : CsapsMeans kw (c.t junk) c.size _ w := .inr ⟨hk, rfl⟩
  have h2 : CsapsMeans kw' (c'.t junk) c'.size _ w' := .inr ⟨hk', rfl⟩
  refine C140_units hc hc' hs ha hS ht htt hd hd' hr hκ ?_ hw h1 h2
  rw [e1]
  exact autoSmooth_rescale (fun i hi => knot_lt ht (show i < i + 1 by omega) (by omega)) (fun i hi => csaps_weights h1 hi) ha hκ
    (fun i hi => rescale_knot hc hs htt hi) hw

end

section
variable {L : ℝ} {c c' : Curve ℝ} (hc : WF c) (hc' : WF c') (hs : 2 ≤ c.size) {junk : ℝ} (hB : Backwards L c c' (c.t junk) (c'.t junk))
include hc hc' hs hB

/-- **C140 (backwards).** The smoothing spline of the points backwards, at mirrored parameter values with the weights backwards, is the smoothing
spline backwards. (Dtypes that are not integer ones.) -/
theorem C140_backwards (ht : (c.t junk).Pairwise (· < ·)) (hd : c.dtype ≠ .int) {lib : SplineLib} {r : KwReg} {m : String} (hr : IsCsaps lib junk r m)
    {kw kw' : InterpKw} {p : ℝ} {w w' : Nat → ℝ} (hw : ∀ i, i < c.size → w' i = w (c.size - 1 - i))
    (hk : CsapsMeans kw (c.t junk) c.size p w) (hk' : CsapsMeans kw' (c'.t junk) c'.size p w') :
    ∃ F F', EvaluatesTo c (fun g => c.interpolate r g m kw) (fun _ => True) F ∧
      EvaluatesTo c' (fun g => c'.interpolate r g m kw') (fun _ => True) F' ∧ ∀ x, F' x = F (L - x) := by
  obtain ⟨e1, e2, e3⟩ := back_size hc hc' hs hB
  have hl := t_length hc (rows_ne_of_size hs) junk
  have ht' := back_lt hc hc' hs hB ht
  have hd' : c'.dtype ≠ .int := by rw [hB.dtype]; exact hd
  have kn : ∀ i, i < c.size → knot (c'.t junk) i = L - knot (c.t junk) (c.size - 1 - i) := fun i hi => back_knot hc hc' hs hB hi
  have ym : ∀ j, j < c.ncols → ∀ i, i < c.size → c'.mat.v i j = c.mat.v (c.size - 1 - i) j := fun j hj i hi => back_mat hc hc' hs hB hi hj
  have hx : ∀ i, i + 1 < c.size → knot (c.t junk) i < knot (c.t junk) (i + 1) := fun i hi => knot_lt ht (by omega) (by omega)
  obtain ⟨hp0, hp1, v, hv, hev⟩ := csaps_means hc hs ht hd hr hk
  obtain ⟨_, _, v', hv', hev'⟩ := csaps_means hc' e2 ht' hd' hr hk'
  rw [e1] at hv'
  have ev : ∀ i, i < c.size → v' i = v (c.size - 1 - i) := fun i hi => by rw [(hv _ (by omega)).1, (hv' i hi).1, hw i hi]
  refine ⟨_, _, hev, hev', ?_⟩
  intro x
  have k2 : (csapsPoly p v' (c'.t junk) c'.mat).y.k = c.ncols := hB.ncols
  have k1 : (csapsPoly p v (c.t junk) c.mat).y.k = c.ncols := rfl
  unfold PPoly.row
  rw [k1, k2]
  apply List.map_congr_left
  intro j hj
  have hj' := List.mem_range.1 hj
  apply PPoly.coord_reverse (n := c.size) (L := L) hl e3 hs (show (c.t junk).Pairwise (· < ·) from ht) (show (c'.t junk).Pairwise (· < ·) from ht')
  · exact kn
  · intro i hi
    unfold csapsPoly
    simp only [e3, hl]
    exact csapsY_reverse hs hx (fun i hi => (hv i hi).2) hp0 hp1 kn ev (ym j hj') hi
  · intro i hi
    unfold csapsPoly
    simp only [e3, hl]
    exact csapsSlope_reverse hs hx (fun i hi => (hv i hi).2) hp0 hp1 kn ev (ym j hj') hi

/-- **C140 (backwards, smooth=None).** The same with the computed smoothing parameter. -/
theorem C140_backwards_auto (ht : (c.t junk).Pairwise (· < ·)) (hd : c.dtype ≠ .int) {lib : SplineLib} {r : KwReg} {m : String} (hr : IsCsaps lib junk r m)
    {kw kw' : InterpKw} {w w' : Nat → ℝ} (hw : ∀ i, i < c.size → w' i = w (c.size - 1 - i))
    (hk : CsapsAuto kw c.size w) (hk' : CsapsAuto kw' c'.size w') :
    ∃ F F', EvaluatesTo c (fun g => c.interpolate r g m kw) (fun _ => True) F ∧
      EvaluatesTo c' (fun g => c'.interpolate r g m kw') (fun _ => True) F' ∧ ∀ x, F' x = F (L - x) := by
  obtain ⟨e1, _, _⟩ := back_size hc hc' hs hB
  refine C140_backwards hc hc' hs hB ht hd hr hw (.inr ⟨hk, rfl⟩) (.inr ⟨hk', ?_⟩)
  rw [e1]
  exact (autoSmooth_reverse (fun i hi => back_knot hc hc' hs hB hi) hw).symm

end

/-- **C140 (curves without parameter values).** With `smooth=None`: scaling such a curve by `s > 0` and shifting it scales and shifts its smoothing spline,
the parameter being the length. -/
theorem C140_scaling {s : ℝ} {q : Nat → ℝ} {c c' : Curve ℝ} (hc : WF c) (hc' : WF c') (hs : 2 ≤ c.size) (hpos : 0 < s) (hS : ScaledBy s q c c')
    (hp : c.tdata = none) (hp' : c'.tdata = none) {junk : ℝ} (ht : (c.t junk).Pairwise (· < ·)) (hd : c.dtype ≠ .int) (hd' : c'.dtype ≠ .int)
    {lib : SplineLib} {r : KwReg} {m : String} (hr : IsCsaps lib junk r m) {kw : InterpKw} {w : Nat → ℝ} (hk : CsapsAuto kw c.size w) :
    ∃ F F', EvaluatesTo c (fun g => c.interpolate r g m kw) (fun _ => True) F ∧
      EvaluatesTo c' (fun g => c'.interpolate r g m kw) (fun _ => True) F' ∧
      ∀ x, (F x).length = c.ncols ∧ (F' (s * x)).length = c.ncols ∧
        ∀ j, j < c.ncols → coordOf j (F' (s * x)) = s * coordOf j (F x) + q j := by
  have htt : c'.t junk = (c.t junk).map fun x => s * x + 0 := by
    have := (C91_lengths hc hc' (rows_ne_of_size hs) hpos.le hS junk).2.1
    unfold Curve.t
    rw [hp, hp']
    simpa using this
  have e1 : c'.size = c.size := hS.size
  have := C140_units_auto hc hc' hs hpos hS ht htt hd hd' hr one_pos (fun i _ => (one_mul (w i)).symm) hk (by rw [e1]; exact hk)
  simpa only [add_zero] using this

/-- **C140 (reversed curves).** The smoothing spline of `c.reverse()` at `x` is the smoothing spline of `c` at the length minus `x`, for curves without
parameter values, equal weights and any smoothing parameter. -/
theorem C140_reverse {c c' : Curve ℝ} (hc : WF c) (hs : 2 ≤ c.size) (hp : c.tdata = none) (hrev : c.reverse = .ok c') {junk : ℝ}
    (ht : (c.t junk).Pairwise (· < ·)) (hd : c.dtype ≠ .int) {lib : SplineLib} {r : KwReg} {m : String} (hr : IsCsaps lib junk r m) {kw : InterpKw}
    (hk : CsapsAuto kw c.size (fun _ => 1) ∨ ∃ p, CsapsArgs kw c.size p (fun _ => 1)) :
    ∃ F F', EvaluatesTo c (fun g => c.interpolate r g m kw) (fun _ => True) F ∧
      EvaluatesTo c' (fun g => c'.interpolate r g m kw) (fun _ => True) F' ∧ ∀ x, F' x = F (arclen junk c - x) := by
  have hB := reverse_backwards hc hs hp hrev junk
  have e1 : c'.size = c.size := hB.size
  rcases hk with hk | ⟨p, hk⟩
  · exact C140_backwards_auto hc (reverse_WF hrev) hs hB ht hd hr (fun _ _ => rfl) hk (by rw [e1]; exact hk)
  · exact C140_backwards hc (reverse_WF hrev) hs hB ht hd hr (fun _ _ => rfl) (.inl hk) (.inl (by rw [e1]; exact hk))

/-! ## A given smoothing parameter depends on the unit of the parameter -/

/-- A tent, at the parameter values 0, `a`, `2 a`. -/
def exTent (a : ℝ) : Curve ℝ := ⟨[[0, 0], [1, 1], [2, 0]], 2, some [0, a, 2 * a], .float⟩

theorem exTent_WF (a : ℝ) : WF (exTent a) where
  two_le := by simp [exTent]
  rect := by simp [exTent]
  tlen := by simp [exTent]
  repr := by intro r _ x _; rfl

theorem exTent_lt {a : ℝ} (ha : 0 < a) (junk : ℝ) : ((exTent a).t junk).Pairwise (· < ·) := by
  show [(0 : ℝ), a, 2 * a].Pairwise (· < ·)
  simp only [List.pairwise_cons, List.mem_cons, List.not_mem_nil, or_false, false_implies, implies_true, List.Pairwise.nil, and_true, forall_eq_or_imp, forall_eq]
  exact ⟨⟨ha, by linarith⟩, by linarith⟩

/-- The keyword argument `smooth=1/2`. -/
noncomputable def exHalf : InterpKw := ⟨[("smooth", .real (1 / 2))]⟩

theorem exHalf_args : CsapsArgs exHalf 3 (1 / 2) (fun _ => 1) :=
  ⟨.real (1 / 2), .none, ⟨by simp [exHalf], by simp [exHalf]⟩, .inl (by simp [exHalf]), .inr ⟨by simp [exHalf], rfl⟩, .inl rfl, by norm_num, by norm_num,
    .inl ⟨rfl, fun _ _ => rfl⟩⟩

theorem exTent_value {a : ℝ} (ha : 0 < a) {junk : ℝ} {lib : SplineLib} {r : KwReg} {m : String} (hr : IsCsaps lib junk r m) :
    ∃ F, EvaluatesTo (exTent a) (fun g => (exTent a).interpolate r g m exHalf) (fun _ => True) F ∧ coordOf 1 (F 0) = 3 / (9 + a ^ 3) := by
  have hs : 2 ≤ (exTent a).size := by simp [exTent, Curve.size]
  have ht := exTent_lt ha junk
  obtain ⟨hp0, hp1, v, hv, hev⟩ := csaps_eval (exTent_WF a) hs ht (by simp [exTent]) hr exHalf_args
  have hv1 : ∀ i, i < 3 → v i = 1 := fun i hi => (hv i hi).1
  refine ⟨_, hev, ?_⟩
  have k0 : knot ((exTent a).t junk) 0 = 0 := knot_eq rfl
  have k1 : knot ((exTent a).t junk) 1 = a := knot_eq rfl
  have k2 : knot ((exTent a).t junk) 2 = 2 * a := knot_eq rfl
  have hU : ∀ i, i < 3 → csapsU 3 (1 / 2) (knot ((exTent a).t junk)) v (fun i => (exTent a).mat.v i 1) i = if i = 1 then -a / (9 + a ^ 3) else 0 := by
    refine csapsU_unique le_rfl (fun i hi => knot_lt ht (show i < i + 1 by omega) (by simp [exTent, Curve.t]; omega)) (fun i hi => (hv i hi).2) hp0 hp1
      (V := fun i => if i = 1 then -a / (9 + a ^ 3) else 0) (by simp) (by simp) ?_
    intro k hk
    have : k = 0 := by omega
    subst this
    have y0 : (exTent a).mat.v 0 1 = 0 := by simp [exTent, Curve.mat]
    have y1 : (exTent a).mat.v 1 1 = 1 := by simp [exTent, Curve.mat]
    have y2 : (exTent a).mat.v 2 1 = 0 := by simp [exTent, Curve.mat]
    simp only [slopeJump, rowR, csapsD2, csapsD1, zero_add, hv1 0 (by norm_num), hv1 1 (by norm_num), hv1 2 (by norm_num), y0, y1, y2]
    norm_num [k0, k1, k2]
    have h9 : 9 + a ^ 3 ≠ 0 := by positivity
    rw [show 2 * a - a = a by ring]
    field_simp
    ring
  unfold coordOf
  rw [PPoly.row_getD _ (by simp [csapsPoly, exTent, Curve.mat]), PPoly.coord_on (i := 0) ht (show 0 + 1 < ((exTent a).t junk).length by simp [exTent, Curve.t]) 1 (.inl rfl)
    (.inr (by show (0 : ℝ) ≤ knot ((exTent a).t junk) (0 + 1); rw [zero_add, k1]; exact ha.le))]
  unfold PPoly.cub csapsPoly
  simp only [zero_add]
  rw [k0, k1]
  have e : ∀ u y0 y1 d0 d1 : ℝ, hermR 0 u y0 y1 d0 d1 0 = y0 := by
    intro u y0 y1 d0 d1
    simp [hermR]
  rw [e]
  have h3 : ((exTent a).t junk).length = 3 := by simp [exTent, Curve.t]
  rw [h3]
  unfold csapsY csapsD1
  simp only [zero_add, true_or, if_true, hU 1 (by norm_num), hU 0 (by norm_num), hv1 0 (by norm_num)]
  norm_num [k0, k1]
  have h9 : 9 + a ^ 3 ≠ 0 := by positivity
  have y0 : (exTent a).mat.v 0 1 = 0 := by simp [exTent, Curve.mat]
  rw [y0]
  field_simp
  ring

/-- **C140, given parameters.** With `smooth=1/2` the curve depends on the unit of the parameter: the same points at the parameter values 0, 1, 2 and at
0, 2, 4 give curves with the starts 3/10 and 3/17. -/
theorem C140_units_fails {junk : ℝ} {lib : SplineLib} {r : KwReg} {m : String} (hr : IsCsaps lib junk r m) :
    ScaledBy 1 (fun _ => 0) (exTent 1) (exTent 2) ∧ ((exTent 2).t junk = ((exTent 1).t junk).map fun x => 2 * x + 0) ∧
    ∃ F F', EvaluatesTo (exTent 1) (fun g => (exTent 1).interpolate r g m exHalf) (fun _ => True) F ∧
      EvaluatesTo (exTent 2) (fun g => (exTent 2).interpolate r g m exHalf) (fun _ => True) F' ∧ coordOf 1 (F 0) = 3 / 10 ∧ coordOf 1 (F' 0) = 3 / 17 := by
  obtain ⟨F, h1, h2⟩ := exTent_value one_pos (junk := junk) hr
  obtain ⟨F', h1', h2'⟩ := exTent_value two_pos (junk := junk) hr
  refine ⟨⟨rfl, rfl, fun i j _ _ => by simp [exTent]⟩, by simp [exTent, Curve.t], F, F', h1, h1', ?_, ?_⟩
  · rw [h2]; norm_num
  · rw [h2']; norm_num

/-! ## Instances -/

theorem auto_args (n : Nat) : CsapsAuto ⟨[("smooth", .none)]⟩ n (fun _ => 1) :=
  ⟨.none, ⟨by simp, by simp⟩, .inl (by simp), .inr ⟨by simp, rfl⟩, .inl ⟨rfl, fun _ _ => rfl⟩⟩

/-- The tent in two units, with the computed smoothing parameter. -/
example (lib : SplineLib) : ∃ F F', EvaluatesTo (exTent 1) (fun g => (exTent 1).interpolate (builtinInterp lib 0) g "csaps" ⟨[("smooth", .none)]⟩) (fun _ => True) F ∧
    EvaluatesTo (exTent 2) (fun g => (exTent 2).interpolate (builtinInterp lib 0) g "csaps" ⟨[("smooth", .none)]⟩) (fun _ => True) F' ∧
    coordOf 1 (F' (2 * (1 / 2) + 0)) = 1 * coordOf 1 (F (1 / 2)) + 0 := by
  obtain ⟨F, F', h1, h2, h3⟩ := C140_units_auto (exTent_WF 1) (exTent_WF 2) (by simp [exTent, Curve.size]) two_pos (s := 1) (q := fun _ => 0) (b := 0)
    ⟨rfl, rfl, fun i j _ _ => by simp [exTent]⟩ (exTent_lt one_pos 0) (by simp [exTent, Curve.t]) (by simp [exTent]) (by simp [exTent])
    (builtin_csaps lib 0) one_pos (fun i _ => (one_mul _).symm) (auto_args _) (auto_args _)
  exact ⟨F, F', h1, h2, (h3 (1 / 2)).2.2 1 (by simp [exTent])⟩

/-- The keyword argument `smooth=1/9`. -/
noncomputable def exNinth : InterpKw := ⟨[("smooth", .real (1 / 9))]⟩

theorem exNinth_args : CsapsArgs exNinth 3 (1 / 9) (fun _ => 1) :=
  ⟨.real (1 / 9), .none, ⟨by simp [exNinth], by simp [exNinth]⟩, .inl (by simp [exNinth]), .inr ⟨by simp [exNinth], rfl⟩, .inl rfl, by norm_num, by norm_num,
    .inl ⟨rfl, fun _ _ => rfl⟩⟩

/-- The tent, moved into space. -/
def exTent3 : Curve ℝ := ⟨[[0, 0, 5], [1, 3, 4], [2, 4, 5]], 3, some [0, 1, 2 * 1], .float⟩

/-- The tent and `smooth = 1/2`: in the other unit the parameter is 1/9. -/
example (lib : SplineLib) : ∃ F F', EvaluatesTo (exTent 1) (fun g => (exTent 1).interpolate (builtinInterp lib 0) g "csaps" exHalf) (fun _ => True) F ∧
    EvaluatesTo (exTent 2) (fun g => (exTent 2).interpolate (builtinInterp lib 0) g "csaps" exNinth) (fun _ => True) F' ∧
    coordOf 1 (F' (2 * (1 / 2) + 0)) = 1 * coordOf 1 (F (1 / 2)) + 0 := by
  obtain ⟨F, F', h1, h2, h3⟩ := C140_units (exTent_WF 1) (exTent_WF 2) (by simp [exTent, Curve.size]) two_pos (s := 1) (q := fun _ => 0) (b := 0)
    ⟨rfl, rfl, fun i j _ _ => by simp [exTent]⟩ (exTent_lt one_pos 0) (by simp [exTent, Curve.t]) (by simp [exTent]) (by simp [exTent])
    (builtin_csaps lib 0) one_pos (p := 1 / 2) (p' := 1 / 9) (by norm_num) (fun i _ => (one_mul _).symm) (.inl exHalf_args)
    (.inl exNinth_args)
  exact ⟨F, F', h1, h2, (h3 (1 / 2)).2.2 1 (by simp [exTent])⟩

theorem exTent3_affine : AffineImage (fun j k => ([[1, 0], [2, 1], [0, -1]].getD j []).getD k 0) (fun j => [0, 0, 5].getD j 0) (exTent 1) exTent3 := by
  refine ⟨rfl, ?_⟩
  intro i j hi hj
  have hi : i < 3 := hi
  have hj : j < 3 := hj
  have hk : (exTent 1).ncols = 2 := rfl
  rw [hk]
  rcases (show i = 0 ∨ i = 1 ∨ i = 2 by omega) with rfl | rfl | rfl <;>
    rcases (show j = 0 ∨ j = 1 ∨ j = 2 by omega) with rfl | rfl | rfl <;> simp [exTent, exTent3, at2, Finset.sum_range_succ] <;> norm_num

/-- The tent and its image under a shear into space. -/
example (lib : SplineLib) : ∃ F F', EvaluatesTo (exTent 1) (fun g => (exTent 1).interpolate (builtinInterp lib 0) g "csaps" exHalf) (fun _ => True) F ∧
    EvaluatesTo exTent3 (fun g => exTent3.interpolate (builtinInterp lib 0) g "csaps" exHalf) (fun _ => True) F' ∧
    ∀ x, AffinePt (fun j k => ([[1, 0], [2, 1], [0, -1]].getD j []).getD k 0) (fun j => [0, 0, 5].getD j 0) (exTent 1).ncols exTent3.ncols (F x) (F' x) :=
  C140_affine (exTent_WF 1) (c' := exTent3) ⟨by simp [exTent3], by simp [exTent3], by simp [exTent3], by intro r _ x _; rfl⟩ (by simp [exTent, Curve.size])
    exTent3_affine (exTent_lt one_pos 0) rfl (by simp [exTent]) (by simp [exTent3]) (builtin_csaps lib 0) (.inl exHalf_args) (.inl exHalf_args)

/-! ## Concrete cases -/

example (lib : SplineLib) {c' : Curve ℝ} (h : exPath.reverse = .ok c') (ht : (exPath.t 0).Pairwise (· < ·)) :=
  C140_reverse exPath_WF (by simp [exPath, Curve.size]) rfl h ht (by simp [exPath]) (builtin_csaps lib 0) (.inl (auto_args _))

end Verif.Props
