import Verif.Lemmas.Taylor
import Verif.Lemmas.Motion

/-!
C115: how close the numerical derivatives of a sampled smooth curve are to its derivatives.
-/
namespace Verif.Spec

open Verif Verif.Model Set

/-- The points of `c` are those of the curve `g` for the parameters `o`, `o + h`, `o + 2 h`, ..., all of them between `a` and `b`. -/
structure SampledAt {n : Nat} (g : ℝ → EuclideanSpace ℝ (Fin n)) (a b o h : ℝ) (c : Curve ℝ) : Prop where
  ndim : c.ncols = n
  range : ∀ i : Nat, i < c.rows.length → o + i * h ∈ Icc a b
  pts : ∀ i : Nat, i < c.rows.length → rowVec n c.rows i = g (o + i * h)

end Verif.Spec

namespace Verif.Props

open Verif Verif.Np Verif.Model Verif.Spec Set

section
variable {E : Type*} [NormedAddCommGroup E] [NormedSpace ℝ E]

theorem norm_comb2 {u v : E} {U V : ℝ} (α β : ℝ) (hu : ‖u‖ ≤ U) (hv : ‖v‖ ≤ V) : ‖α • u + β • v‖ ≤ |α| * U + |β| * V := by
  refine (norm_add_le _ _).trans ?_
  rw [norm_smul, norm_smul, Real.norm_eq_abs, Real.norm_eq_abs]
  gcongr

theorem norm_comb3 {u v w : E} {U V W : ℝ} (α β γ : ℝ) (hu : ‖u‖ ≤ U) (hv : ‖v‖ ≤ V) (hw : ‖w‖ ≤ W) :
    ‖α • u + β • v + γ • w‖ ≤ |α| * U + |β| * V + |γ| * W := by
  refine (norm_add_le _ _).trans ?_
  rw [norm_smul γ, Real.norm_eq_abs]
  gcongr
  exact norm_comb2 α β hu hv

/-- A difference quotient as in `np.gradient`, of any sequence of vectors. -/
noncomputable def gradV (m : Nat) (u : Nat → E) (i : Nat) : E :=
  if i = 0 then (-1.5 : ℝ) • u 0 + (2 : ℝ) • u 1 + (-0.5 : ℝ) • u 2
  else if i = m - 1 then (0.5 : ℝ) • u (m - 3) + (-2 : ℝ) • u (m - 2) + (1.5 : ℝ) • u (m - 1)
  else (1 / 2 : ℝ) • (u (i + 1) - u (i - 1))

theorem gradV_add (m : Nat) (u v : Nat → E) (i : Nat) : gradV m (fun i => u i + v i) i = gradV m u i + gradV m v i := by
  unfold gradV
  split
  · module
  · split <;> module

theorem gradV_congr {m : Nat} {u v : Nat → E} (h : ∀ i, i < m → u i = v i) (h3 : 3 ≤ m) {i : Nat} (hi : i < m) : gradV m u i = gradV m v i := by
  unfold gradV
  split
  · rw [h 0 (by omega), h 1 (by omega), h 2 (by omega)]
  · split
    · rw [h _ (by omega), h _ (by omega), h _ (by omega)]
    · rw [h _ (by omega), h _ (by omega)]

/-- The gradient of small vectors is small. -/
theorem gradV_le {m : Nat} {u : Nat → E} {B : ℝ} (hB : ∀ i, i < m → ‖u i‖ ≤ B) (h3 : 3 ≤ m) {i : Nat} (hi : i < m) : ‖gradV m u i‖ ≤ 4 * B := by
  have hB0 : 0 ≤ B := (norm_nonneg _).trans (hB i hi)
  unfold gradV
  split
  · refine (norm_comb3 _ _ _ (hB 0 (by omega)) (hB 1 (by omega)) (hB 2 (by omega))).trans ?_
    norm_num [abs_of_neg]
    linarith
  · split
    · refine (norm_comb3 _ _ _ (hB _ (by omega)) (hB _ (by omega)) (hB _ (by omega))).trans ?_
      norm_num [abs_of_neg]
      linarith
    · have := norm_comb2 (1 / 2) (-(1 / 2)) (hB (i + 1) (by omega)) (hB (i - 1) (by omega))
      rw [show (1 / 2 : ℝ) • (u (i + 1) - u (i - 1)) = (1 / 2 : ℝ) • u (i + 1) + (-(1 / 2) : ℝ) • u (i - 1) by module]
      refine this.trans ?_
      norm_num [abs_of_neg]
      linarith

variable {a b o h M : ℝ} {g d e f : ℝ → E} {m : Nat}

/-- What is left of a sample after the Taylor polynomials of degree 1, 2 and 3 at another one. -/
noncomputable def rem1 (g d : ℝ → E) (o h : ℝ) (i l : Nat) : E :=
  g (o + l * h) - g (o + i * h) - (((l : ℝ) - i) * h) • d (o + i * h)
noncomputable def rem2 (g d e : ℝ → E) (o h : ℝ) (i l : Nat) : E :=
  rem1 g d o h i l - ((((l : ℝ) - i) * h) ^ 2 / 2) • e (o + i * h)
noncomputable def rem3 (g d e f : ℝ → E) (o h : ℝ) (i l : Nat) : E :=
  rem2 g d e o h i l - ((((l : ℝ) - i) * h) ^ 3 / 6) • f (o + i * h)

theorem rem1_le (hr : ∀ i : Nat, i < m → o + i * h ∈ Icc a b) (h1 : DerivOn a b g d) (hl : LipOn a b M d) {i l : Nat} (hi : i < m) (hl' : l < m) :
    ‖rem1 g d o h i l‖ ≤ M / 2 * |((l : ℝ) - i) * h| ^ 2 := by
  have := taylor1 h1 hl (hr i hi) (hr l hl')
  rw [show o + (l : ℝ) * h - (o + i * h) = ((l : ℝ) - i) * h by ring] at this
  exact this

theorem rem2_le (hr : ∀ i : Nat, i < m → o + i * h ∈ Icc a b) (h1 : DerivOn a b g d) (h2 : DerivOn a b d e) (hl : LipOn a b M e) {i l : Nat}
    (hi : i < m) (hl' : l < m) : ‖rem2 g d e o h i l‖ ≤ M / 6 * |((l : ℝ) - i) * h| ^ 3 := by
  have := taylor2 h1 h2 hl (hr i hi) (hr l hl')
  rw [show o + (l : ℝ) * h - (o + i * h) = ((l : ℝ) - i) * h by ring] at this
  exact this

theorem rem3_le (hr : ∀ i : Nat, i < m → o + i * h ∈ Icc a b) (h1 : DerivOn a b g d) (h2 : DerivOn a b d e) (h3 : DerivOn a b e f)
    (hl : LipOn a b M f) {i l : Nat} (hi : i < m) (hl' : l < m) : ‖rem3 g d e f o h i l‖ ≤ M / 24 * |((l : ℝ) - i) * h| ^ 4 := by
  have := taylor3 h1 h2 h3 hl (hr i hi) (hr l hl')
  rw [show o + (l : ℝ) * h - (o + i * h) = ((l : ℝ) - i) * h by ring] at this
  exact this

/-- The gradient of samples, with a Lipschitz continuous derivative. -/
theorem gradV_first1 (hr : ∀ i : Nat, i < m → o + i * h ∈ Icc a b) (h1 : DerivOn a b g d) (hl : LipOn a b M d) (h3 : 3 ≤ m) (hM : 0 ≤ M) {i : Nat}
    (hi : i < m) : ‖gradV m (fun i => g (o + i * h)) i - h • d (o + i * h)‖ ≤ 2 * M * |h| ^ 2 := by
  have hM2 : 0 ≤ M * |h| ^ 2 := by positivity
  unfold gradV
  split
  · rename_i h0
    subst h0
    have e1 : (-1.5 : ℝ) • g (o + (0 : Nat) * h) + (2 : ℝ) • g (o + (1 : Nat) * h) + (-0.5 : ℝ) • g (o + (2 : Nat) * h) - h • d (o + (0 : Nat) * h) =
        (2 : ℝ) • rem1 g d o h 0 1 + (-0.5 : ℝ) • rem1 g d o h 0 2 := by
      unfold rem1
      push_cast
      module
    rw [e1]
    refine (norm_comb2 _ _ (rem1_le hr h1 hl hi (by omega)) (rem1_le hr h1 hl hi (by omega))).trans ?_
    norm_num [abs_mul, mul_pow, abs_of_neg]
    linarith
  · split
    · rename_i h0 hm
      obtain ⟨p, rfl⟩ : ∃ p, m = p + 3 := ⟨m - 3, by omega⟩
      obtain rfl : i = p + 2 := by omega
      have e1 : (0.5 : ℝ) • g (o + (p : Nat) * h) + (-2 : ℝ) • g (o + (p + 1 : Nat) * h) + (1.5 : ℝ) • g (o + (p + 2 : Nat) * h)
          - h • d (o + (p + 2 : Nat) * h) = (0.5 : ℝ) • rem1 g d o h (p + 2) p + (-2 : ℝ) • rem1 g d o h (p + 2) (p + 1) := by
        unfold rem1
        push_cast
        module
      show ‖(0.5 : ℝ) • g (o + (p : Nat) * h) + (-2 : ℝ) • g (o + (p + 1 : Nat) * h) + (1.5 : ℝ) • g (o + (p + 2 : Nat) * h)
          - h • d (o + (p + 2 : Nat) * h)‖ ≤ _
      rw [e1]
      refine (norm_comb2 _ _ (rem1_le hr h1 hl hi (by omega)) (rem1_le hr h1 hl hi (by omega))).trans ?_
      push_cast
      rw [show ((p : ℝ) - (p + 2)) = -2 by ring, show ((p : ℝ) + 1 - (p + 2)) = -1 by ring]
      norm_num [abs_mul, mul_pow, abs_of_neg]
      linarith
    · rename_i h0 hm
      obtain ⟨p, rfl⟩ : ∃ p, i = p + 1 := ⟨i - 1, by omega⟩
      have e1 : (1 / 2 : ℝ) • (g (o + (p + 2 : Nat) * h) - g (o + (p : Nat) * h)) - h • d (o + (p + 1 : Nat) * h) =
          (1 / 2 : ℝ) • rem1 g d o h (p + 1) (p + 2) + (-(1 / 2) : ℝ) • rem1 g d o h (p + 1) p := by
        unfold rem1
        push_cast
        module
      show ‖(1 / 2 : ℝ) • (g (o + (p + 2 : Nat) * h) - g (o + (p : Nat) * h)) - h • d (o + (p + 1 : Nat) * h)‖ ≤ _
      rw [e1]
      refine (norm_comb2 _ _ (rem1_le hr h1 hl hi (by omega)) (rem1_le hr h1 hl hi (by omega))).trans ?_
      push_cast
      rw [show ((p : ℝ) + 2 - (p + 1)) = 1 by ring, show ((p : ℝ) - (p + 1)) = -1 by ring]
      rw [sq_abs] at hM2
      norm_num [abs_mul, mul_pow, abs_of_neg]
      linarith

/-- The gradient of samples, with a Lipschitz continuous second derivative. -/
theorem gradV_first2 (hr : ∀ i : Nat, i < m → o + i * h ∈ Icc a b) (h1 : DerivOn a b g d) (h2 : DerivOn a b d e) (hl : LipOn a b M e) (h3 : 3 ≤ m)
    {i : Nat} (hi : i < m) : ‖gradV m (fun i => g (o + i * h)) i - h • d (o + i * h)‖ ≤ M * |h| ^ 3 ∧
      (1 ≤ i → i + 1 < m → ‖gradV m (fun i => g (o + i * h)) i - h • d (o + i * h)‖ ≤ M / 6 * |h| ^ 3) := by
  by_cases h0 : i = 0
  · refine ⟨?_, by omega⟩
    subst h0
    have e1 : gradV m (fun i => g (o + i * h)) 0 - h • d (o + (0 : Nat) * h) =
        (2 : ℝ) • rem2 g d e o h 0 1 + (-0.5 : ℝ) • rem2 g d e o h 0 2 := by
      simp only [gradV, if_true]
      unfold rem2 rem1
      push_cast
      module
    rw [e1]
    refine (norm_comb2 _ _ (rem2_le hr h1 h2 hl hi (by omega)) (rem2_le hr h1 h2 hl hi (by omega))).trans ?_
    norm_num [abs_mul, mul_pow, abs_of_neg]
    apply le_of_eq; ring
  · by_cases hm : i = m - 1
    · refine ⟨?_, by omega⟩
      obtain ⟨p, rfl⟩ : ∃ p, m = p + 3 := ⟨m - 3, by omega⟩
      obtain rfl : i = p + 2 := by omega
      have e1 : gradV (p + 3) (fun i => g (o + i * h)) (p + 2)
          - h • d (o + (p + 2 : Nat) * h) = (0.5 : ℝ) • rem2 g d e o h (p + 2) p + (-2 : ℝ) • rem2 g d e o h (p + 2) (p + 1) := by
        simp only [gradV, if_neg h0, if_pos hm]
        rw [show p + 3 - 3 = p by omega, show p + 3 - 2 = p + 1 by omega, show p + 3 - 1 = p + 2 by omega]
        unfold rem2 rem1
        push_cast
        module
      rw [e1]
      refine (norm_comb2 _ _ (rem2_le hr h1 h2 hl hi (by omega)) (rem2_le hr h1 h2 hl hi (by omega))).trans ?_
      push_cast
      rw [show ((p : ℝ) - (p + 2)) = -2 by ring, show ((p : ℝ) + 1 - (p + 2)) = -1 by ring]
      norm_num [abs_mul, mul_pow, abs_of_neg]
      apply le_of_eq; ring
    · have key : ‖gradV m (fun i => g (o + i * h)) i - h • d (o + i * h)‖ ≤ M / 6 * |h| ^ 3 := by
        obtain ⟨p, rfl⟩ : ∃ p, i = p + 1 := ⟨i - 1, by omega⟩
        have e1 : gradV m (fun i => g (o + i * h)) (p + 1) - h • d (o + (p + 1 : Nat) * h) =
            (1 / 2 : ℝ) • rem2 g d e o h (p + 1) (p + 2) + (-(1 / 2) : ℝ) • rem2 g d e o h (p + 1) p := by
          simp only [gradV, if_neg h0, if_neg hm]
          rw [show p + 1 + 1 = p + 2 by omega, show p + 1 - 1 = p by omega]
          unfold rem2 rem1
          push_cast
          module
        rw [e1]
        refine (norm_comb2 _ _ (rem2_le hr h1 h2 hl hi (by omega)) (rem2_le hr h1 h2 hl hi (by omega))).trans ?_
        push_cast
        rw [show ((p : ℝ) + 2 - (p + 1)) = 1 by ring, show ((p : ℝ) - (p + 1)) = -1 by ring]
        norm_num [abs_mul, mul_pow, abs_of_neg]
        apply le_of_eq; ring
      refine ⟨key.trans ?_, fun _ _ => key⟩
      have h0 : 0 ≤ M / 6 * |h| ^ 3 := (norm_nonneg _).trans key
      linarith

/-- The gradient of the gradient. -/
theorem gradV_second (hr : ∀ i : Nat, i < m → o + i * h ∈ Icc a b) (h1 : DerivOn a b g d) (h2 : DerivOn a b d e) (hl : LipOn a b M e) (h3 : 3 ≤ m)
    (hM : 0 ≤ M) {i : Nat} (hi : i < m) :
    ‖gradV m (gradV m (fun i => g (o + i * h))) i - (h ^ 2) • e (o + i * h)‖ ≤ 6 * M * |h| ^ 3 := by
  have e1 : gradV m (gradV m (fun i => g (o + i * h))) i = h • gradV m (fun i => d (o + i * h)) i +
      gradV m (fun i => gradV m (fun i => g (o + i * h)) i - h • d (o + i * h)) i := by
    have : h • gradV m (fun i => d (o + i * h)) i = gradV m (fun i => h • d (o + i * h)) i := by
      unfold gradV
      split
      · module
      · split <;> module
    rw [this, ← gradV_add]
    congr 1
    funext i
    abel
  rw [e1, show h • gradV m (fun i => d (o + i * h)) i + gradV m (fun i => gradV m (fun i => g (o + i * h)) i - h • d (o + i * h)) i -
    (h ^ 2) • e (o + i * h) = h • (gradV m (fun i => d (o + i * h)) i - h • e (o + i * h)) +
    gradV m (fun i => gradV m (fun i => g (o + i * h)) i - h • d (o + i * h)) i by module]
  have b1 := gradV_first1 hr h2 hl h3 hM hi
  have b2 := gradV_le (fun i hi => (gradV_first2 hr h1 h2 hl h3 hi).1) h3 hi
  refine (norm_add_le _ _).trans ?_
  rw [norm_smul, Real.norm_eq_abs]
  have : |h| * ‖gradV m (fun i => d (o + i * h)) i - h • e (o + i * h)‖ ≤ |h| * (2 * M * |h| ^ 2) := by gcongr
  have e2 : |h| * (2 * M * |h| ^ 2) = 2 * (M * |h| ^ 3) := by ring
  linarith

end

/-! ## The model -/

section
variable {n : Nat} {a b o h M : ℝ} {g d e f : ℝ → EuclideanSpace ℝ (Fin n)} {c : Curve ℝ}

theorem grad_row {p : Nat} {A : NMat} (h3 : 3 ≤ A.m) {i : Nat} (hi : i < A.m) :
    rowVec p (gradient A).rows i = gradV A.m (fun i => rowVec p A.rows i) i := by
  rw [rowVec_gradient (by omega) hi, if_pos h3]
  rfl

theorem mat_row {p : Nat} (hc : WF c) {i : Nat} (hi : i < c.size) : rowVec p c.mat.rows i = rowVec p c.rows i := by
  ext j
  rw [rowVec_apply, rowVec_apply, mat_at2 hc hi]

theorem first_row {p : Nat} (hc : WF c) (h3 : 3 ≤ c.size) {i : Nat} (hi : i < c.size) :
    rowVec p (firstderiv c).rows i = gradV c.size (fun i => rowVec p c.rows i) i := by
  unfold firstderiv
  rw [grad_row (show 3 ≤ c.mat.m from h3) (show i < c.mat.m from hi)]
  exact gradV_congr (fun i hi => mat_row hc hi) h3 hi

theorem second_row {p : Nat} (hc : WF c) (h3 : 3 ≤ c.size) {i : Nat} (hi : i < c.size) :
    rowVec p (secondderiv c).rows i = gradV c.size (gradV c.size (fun i => rowVec p c.rows i)) i := by
  have m1 : (firstderiv c).m = c.size := (shapes_m c).1
  unfold secondderiv
  rw [grad_row (by omega) (by omega), m1]
  exact gradV_congr (fun i hi => first_row hc h3 hi) h3 hi

theorem third_row {p : Nat} (hc : WF c) (h3 : 3 ≤ c.size) {i : Nat} (hi : i < c.size) :
    rowVec p (thirdderiv c).rows i = gradV c.size (gradV c.size (gradV c.size (fun i => rowVec p c.rows i))) i := by
  have m2 : (secondderiv c).m = c.size := (shapes_m c).2.1
  unfold thirdderiv
  rw [grad_row (by omega) (by omega), m2]
  exact gradV_congr (fun i hi => second_row hc h3 hi) h3 hi

theorem first_sampled (hc : WF c) (h3 : 3 ≤ c.size) (hs : SampledAt g a b o h c) {i : Nat} (hi : i < c.size) :
    rowVec n (firstderiv c).rows i = gradV c.size (fun i => g (o + i * h)) i := by
  rw [first_row hc h3 hi]
  exact gradV_congr (fun i hi => hs.pts i hi) h3 hi

theorem second_sampled (hc : WF c) (h3 : 3 ≤ c.size) (hs : SampledAt g a b o h c) {i : Nat} (hi : i < c.size) :
    rowVec n (secondderiv c).rows i = gradV c.size (gradV c.size (fun i => g (o + i * h))) i := by
  rw [second_row hc h3 hi]
  exact gradV_congr (fun i hi => gradV_congr (fun i hi => hs.pts i hi) h3 hi) h3 hi

/-- **C115 (first derivative).** The first derivative of a curve sampled with step `h` is `h` times the derivative of the curve, up to
`M |h|³` (`M |h|³ / 6` except at the ends), where `M` is a Lipschitz constant of the second derivative. -/
theorem C115_first (hc : WF c) (h3 : 3 ≤ c.size) (hs : SampledAt g a b o h c) (h1 : DerivOn a b g d) (h2 : DerivOn a b d e) (hl : LipOn a b M e)
    {i : Nat} (hi : i < c.size) : ‖rowVec n (firstderiv c).rows i - h • d (o + i * h)‖ ≤ M * |h| ^ 3 ∧
      (1 ≤ i → i + 1 < c.size → ‖rowVec n (firstderiv c).rows i - h • d (o + i * h)‖ ≤ M / 6 * |h| ^ 3) := by
  rw [first_sampled hc h3 hs hi]
  exact gradV_first2 hs.range h1 h2 hl h3 hi

/-- **C115 (second derivative).** The second derivative of a curve sampled with step `h` is `h²` times the second derivative of the curve,
up to `6 M |h|³`, at the ends too. -/
theorem C115_second (hc : WF c) (h3 : 3 ≤ c.size) (hs : SampledAt g a b o h c) (h1 : DerivOn a b g d) (h2 : DerivOn a b d e) (hl : LipOn a b M e)
    (hM : 0 ≤ M) {i : Nat} (hi : i < c.size) : ‖rowVec n (secondderiv c).rows i - (h ^ 2) • e (o + i * h)‖ ≤ 6 * M * |h| ^ 3 := by
  rw [second_sampled hc h3 hs hi]
  exact gradV_second hs.range h1 h2 hl h3 hM hi

/-- **C115 (speed).** The speed of a curve sampled with step `h` is `|h|` times the norm of its derivative, up to `M |h|³`. -/
theorem C115_speed (hc : WF c) (h3 : 3 ≤ c.size) (hs : SampledAt g a b o h c) (h1 : DerivOn a b g d) (h2 : DerivOn a b d e) (hl : LipOn a b M e)
    (junk : ℝ) : ∃ xs, fresh junk c .speed = .ok (.nums xs) ∧ xs.length = c.size ∧
      ∀ i, i < c.size → ∃ v, xs[i]? = some (.fin v) ∧ |v - |h| * ‖d (o + i * h)‖| ≤ M * |h| ^ 3 := by
  refine ⟨(List.range c.size).map fun i => .fin (rowNorm (firstderiv c) i), ?_, by simp, ?_⟩
  · unfold fresh
    rw [if_neg (by intro h0; simp [Curve.size, h0] at h3)]
  · intro i hi
    refine ⟨rowNorm (firstderiv c) i, by simp [hi], ?_⟩
    have k1 : (firstderiv c).k = c.ncols := firstderiv_k (by omega)
    rw [rowNorm_eq (n := n) (by rw [k1, hs.ndim]) (by rw [(shapes_m c).1]; exact hi), ← Real.norm_eq_abs h, ← norm_smul]
    exact (abs_norm_sub_norm_le _ _).trans (C115_first hc h3 hs h1 h2 hl hi).1

/-- **C115 (second and third derivative, partial).** Away from the ends of the array the second and third derivative are `h²` and `h³` times those
of the curve, up to `M h⁴ / 3` and `7 M h⁴ / 8`, where `M` is a Lipschitz constant of the third derivative. Missing: the third derivative at the
three points at each end, see `C115_third_fails`. -/
theorem C115_third_partial (hc : WF c) (h3 : 3 ≤ c.size) (hs : SampledAt g a b o h c) (h1 : DerivOn a b g d) (h2 : DerivOn a b d e)
    (h3' : DerivOn a b e f) (hl : LipOn a b M f) {i : Nat} :
    (2 ≤ i → i + 2 < c.size → ‖rowVec n (secondderiv c).rows i - (h ^ 2) • e (o + i * h)‖ ≤ M / 3 * |h| ^ 4) ∧
    (3 ≤ i → i + 3 < c.size → ‖rowVec n (thirdderiv c).rows i - (h ^ 3) • f (o + i * h)‖ ≤ 7 / 8 * M * |h| ^ 4) := by
  have inner : ∀ (u : Nat → EuclideanSpace ℝ (Fin n)) k, k + 2 < c.size → gradV c.size u (k + 1) = (1 / 2 : ℝ) • (u (k + 2) - u k) := by
    intro u k hk
    unfold gradV
    rw [if_neg (by omega), if_neg (by omega)]
    rfl
  constructor
  · intro l r
    obtain ⟨p, rfl⟩ : ∃ p, i = p + 2 := ⟨i - 2, by omega⟩
    rw [second_row hc h3 (by omega), inner _ (p + 1) (by omega), inner _ (p + 2) (by omega), inner _ p (by omega),
      hs.pts (p + 4) (by show _ < c.size; omega), hs.pts (p + 2) (by show _ < c.size; omega), hs.pts p (by show _ < c.size; omega)]
    have e1 : (1 / 2 : ℝ) • ((1 / 2 : ℝ) • (g (o + (p + 4 : Nat) * h) - g (o + (p + 2 : Nat) * h)) -
        (1 / 2 : ℝ) • (g (o + (p + 2 : Nat) * h) - g (o + p * h))) - (h ^ 2) • e (o + (p + 2 : Nat) * h) =
        (1 / 4 : ℝ) • rem3 g d e f o h (p + 2) (p + 4) + (1 / 4 : ℝ) • rem3 g d e f o h (p + 2) p := by
      unfold rem3 rem2 rem1
      push_cast
      module
    rw [e1]
    refine (norm_comb2 _ _ (rem3_le hs.range h1 h2 h3' hl (by show _ < c.size; omega) (by show _ < c.size; omega))
      (rem3_le hs.range h1 h2 h3' hl (by show _ < c.size; omega) (by show _ < c.size; omega))).trans ?_
    push_cast
    rw [show ((p : ℝ) + 4 - (p + 2)) = 2 by ring, show ((p : ℝ) - (p + 2)) = -2 by ring, abs_mul, abs_mul]
    norm_num [abs_of_neg]
    apply le_of_eq; ring
  · intro l r
    obtain ⟨p, rfl⟩ : ∃ p, i = p + 3 := ⟨i - 3, by omega⟩
    rw [third_row hc h3 (by omega), inner _ (p + 2) (by omega), inner _ (p + 3) (by omega), inner _ (p + 1) (by omega), inner _ (p + 4) (by omega),
      inner _ (p + 2) (by omega), inner _ p (by omega),
      hs.pts (p + 6) (by show _ < c.size; omega), hs.pts (p + 4) (by show _ < c.size; omega), hs.pts (p + 2) (by show _ < c.size; omega),
      hs.pts p (by show _ < c.size; omega)]
    have e1 : (1 / 2 : ℝ) • ((1 / 2 : ℝ) • ((1 / 2 : ℝ) • (g (o + (p + 6 : Nat) * h) - g (o + (p + 4 : Nat) * h)) -
        (1 / 2 : ℝ) • (g (o + (p + 4 : Nat) * h) - g (o + (p + 2 : Nat) * h))) -
        (1 / 2 : ℝ) • ((1 / 2 : ℝ) • (g (o + (p + 4 : Nat) * h) - g (o + (p + 2 : Nat) * h)) -
        (1 / 2 : ℝ) • (g (o + (p + 2 : Nat) * h) - g (o + p * h)))) - (h ^ 3) • f (o + (p + 3 : Nat) * h) =
        ((1 / 8 : ℝ) • rem3 g d e f o h (p + 3) (p + 6) + (-(3 / 8) : ℝ) • rem3 g d e f o h (p + 3) (p + 4)) +
        ((3 / 8 : ℝ) • rem3 g d e f o h (p + 3) (p + 2) + (-(1 / 8) : ℝ) • rem3 g d e f o h (p + 3) p) := by
      unfold rem3 rem2 rem1
      push_cast
      module
    rw [e1]
    have B : ∀ q, q < c.size → ‖rem3 g d e f o h (p + 3) q‖ ≤ M / 24 * |((q : ℝ) - (p + 3 : Nat)) * h| ^ 4 := fun q hq =>
      rem3_le hs.range h1 h2 h3' hl (m := c.rows.length) (by show _ < c.size; omega) hq
    refine (norm_add_le _ _).trans ((add_le_add (norm_comb2 _ _ (B _ (by omega)) (B _ (by omega)))
      (norm_comb2 _ _ (B _ (by omega)) (B _ (by omega)))).trans ?_)
    push_cast
    rw [show ((p : ℝ) + 6 - (p + 3)) = 3 by ring, show ((p : ℝ) + 4 - (p + 3)) = 1 by ring, show ((p : ℝ) + 2 - (p + 3)) = -1 by ring,
      show ((p : ℝ) - (p + 3)) = -3 by ring, abs_mul, abs_mul, abs_mul, abs_mul]
    norm_num [abs_of_neg]
    apply le_of_eq; ring

end

end Verif.Props
