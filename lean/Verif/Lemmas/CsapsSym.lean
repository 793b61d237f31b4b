import Verif.Lemmas.CsapsSpline

/-!
The smoothing spline of csaps after a change of units, backwards, and for combinations of values.
-/
namespace Verif.Props

open Verif Verif.Np Verif.Model Verif.Spec Finset

section
variable {n : Nat} {x w : Nat → ℝ} {p : ℝ}

theorem csapsD1_congr {x x' U U' : Nat → ℝ} {l : ℝ} {i : Nat} (h : i ≠ 0 → i < n → (U' i - U' (i - 1)) / (x' i - x' (i - 1)) = l * ((U i - U (i - 1)) / (x i - x (i - 1)))) :
    csapsD1 n x' U' i = l * csapsD1 n x U i := by
  unfold csapsD1
  by_cases hi : i = 0 ∨ n ≤ i
  · rw [if_pos hi, if_pos hi, mul_zero]
  · rw [if_neg hi, if_neg hi]
    exact h (by omega) (by omega)

/-- The system has only one solution. -/
theorem csapsU_unique (hn : 3 ≤ n) (hx : ∀ i, i + 1 < n → x i < x (i + 1)) (hw : ∀ i, i < n → 0 < w i) (hp0 : 0 ≤ p) (hp1 : p ≤ 1)
    {y V : Nat → ℝ} (h0 : V 0 = 0) (h1 : V (n - 1) = 0)
    (hsys : ∀ k, k + 2 < n → slopeJump x (fun i => 6 * (1 - p) * (1 / w i) * csapsD2 n x V i) k + p * rowR x V k = slopeJump x y k) :
    ∀ i, i < n → csapsU n p x w y i = V i := by
  have hpad : ∀ i, i < n → padded n (fun k : Fin (n - 2) => V (k + 1)) i = V i := by
    intro i hi
    rcases i with _ | i
    · rw [padded_zero, h0]
    · by_cases h : i < n - 2
      · exact padded_succ (fun k : Fin (n - 2) => V (k + 1)) ⟨i, h⟩
      · rw [padded_last _ (by omega), show i + 1 = n - 1 by omega, h1]
  have hd2 : ∀ i, i < n → csapsD2 n x (padded n fun k : Fin (n - 2) => V (k + 1)) i = csapsD2 n x V i := by
    intro i hi
    unfold csapsD2
    rw [csapsD1_congr (x := x) (U := V) (l := 1) (i := i + 1) (by intro _ h; rw [hpad _ h, Nat.add_sub_cancel, hpad i hi, one_mul]),
      csapsD1_congr (x := x) (U := V) (l := 1) (i := i) (by intro _ h; rw [hpad _ h, hpad (i - 1) (by omega), one_mul]), one_mul, one_mul]
  have hA : (csapsA n p x w).mulVec (fun k : Fin (n - 2) => V (k + 1)) = csapsB n x y := by
    funext k
    have hk := k.2
    rw [csapsA_apply hn hw]
    have e : csapsB n x y k = slopeJump x y k := rfl
    rw [e, ← hsys k (by omega)]
    congr 1
    · unfold slopeJump
      simp only [hd2 k (by omega), hd2 (k + 1) (by omega), hd2 (k + 2) (by omega)]
    · unfold rowR
      rw [hpad k (by omega), hpad (k + 1) (by omega), hpad (k + 2) (by omega)]
  intro i hi
  have hU : csapsU n p x w y = padded n ((csapsA n p x w)⁻¹.mulVec (csapsB n x y)) := rfl
  rw [hU, ← hA, Matrix.mulVec_mulVec, Matrix.nonsing_inv_mul _ (csapsA_det hn hx hw hp0 hp1), Matrix.one_mulVec]
  exact hpad i hi

/-- The system as an equation. -/
theorem csapsU_system (hn : 3 ≤ n) (hx : ∀ i, i + 1 < n → x i < x (i + 1)) (hw : ∀ i, i < n → 0 < w i) (hp0 : 0 ≤ p) (hp1 : p ≤ 1)
    (y : Nat → ℝ) {k : Nat} (hk : k + 2 < n) :
    slopeJump x (fun i => 6 * (1 - p) * (1 / w i) * csapsD2 n x (csapsU n p x w y) i) k + p * rowR x (csapsU n p x w y) k = slopeJump x y k := by
  have h := csapsY_jump hn hx hw hp0 hp1 y hk
  rw [← h]
  unfold slopeJump csapsY csapsD2
  ring

end

section
variable {n : Nat} {x w x' w' y y' : Nat → ℝ} {p p' a b κ s q : ℝ} (hn : 2 ≤ n) (hx : ∀ i, i + 1 < n → x i < x (i + 1)) (hw : ∀ i, i < n → 0 < w i)
  (hp0 : 0 ≤ p) (hp1 : p ≤ 1) (hq0 : 0 ≤ p') (hq1 : p' ≤ 1) (ha : 0 < a) (hκ : 0 < κ) (hpp : p * (1 - p') = κ * a ^ 3 * p' * (1 - p))
  (ex : ∀ i, i < n → x' i = a * x i + b) (ew : ∀ i, i < n → w' i = κ * w i) (ey : ∀ i, i < n → y' i = s * y i + q)

include hn hx hw hp0 hp1 hq0 hq1 ha hκ hpp ex ew ey in
theorem csapsU_rescale {i : Nat} (hi : i < n) : csapsU n p' x' w' y' i = s * (κ * a * (1 - p) + p / a ^ 2) * csapsU n p x w y i := by
  rcases (show n = 2 ∨ 3 ≤ n by omega) with rfl | h3
  · unfold csapsU
    rw [dif_neg (by omega), dif_neg (by omega), mul_zero]
  set l := s * (κ * a * (1 - p) + p / a ^ 2) with hl
  set U := csapsU n p x w y with hU
  have hl1 : p' * l = s / a ^ 2 * p := by
    rw [hl]
    field_simp
    linear_combination (-s) * hpp
  have hl2 : (1 - p') * l = s * κ * a * (1 - p) := by
    have : l = s * κ * a * (1 - p) + s / a ^ 2 * p := by rw [hl]; ring
    linear_combination this - hl1
  have hx' : ∀ i, i + 1 < n → x' i < x' (i + 1) := by
    intro i hi
    rw [ex i (by omega), ex (i + 1) hi]
    have := mul_lt_mul_of_pos_left (hx i hi) ha
    linarith
  have hw' : ∀ i, i < n → 0 < w' i := fun i hi => by rw [ew i hi]; exact mul_pos hκ (hw i hi)
  refine csapsU_unique h3 hx' hw' hq0 hq1 (V := fun i => l * U i) ?_ ?_ ?_ i hi
  · show l * U 0 = 0
    rw [hU, csapsU_zero, mul_zero]
  · show l * U (n - 1) = 0
    rw [hU, csapsU_last _ le_rfl, mul_zero]
  · intro k hk
    have hd : ∀ i, i < n → csapsD2 n x' (fun i => l * U i) i = l / a * csapsD2 n x U i := by
      intro i hi
      unfold csapsD2
      have key : ∀ j, j ≤ n → csapsD1 n x' (fun i => l * U i) j = l / a * csapsD1 n x U j := by
        intro j hj
        refine csapsD1_congr fun h1 h2 => ?_
        have := hx (j - 1) (by omega)
        rw [show j - 1 + 1 = j by omega] at this
        have h3 : x j - x (j - 1) ≠ 0 := by linarith
        rw [ex j h2, ex (j - 1) (by omega), show a * x j + b - (a * x (j - 1) + b) = a * (x j - x (j - 1)) by ring]
        field_simp
      rw [key _ (by omega), key _ (by omega)]
      ring
    have sys := csapsU_system h3 hx hw hp0 hp1 y hk
    rw [← hU] at sys
    have d0 := hd k (by omega)
    have d1 := hd (k + 1) (by omega)
    have d2 := hd (k + 2) (by omega)
    have w0 := hw k (by omega)
    have w1 := hw (k + 1) (by omega)
    have w2 := hw (k + 2) (by omega)
    have e0 : 6 * (1 - p') * (1 / (κ * w k)) * (l / a * csapsD2 n x U k) = s * (6 * (1 - p) * (1 / w k) * csapsD2 n x U k) := by
      field_simp
      linear_combination csapsD2 n x U k * hl2
    have e1 : 6 * (1 - p') * (1 / (κ * w (k + 1))) * (l / a * csapsD2 n x U (k + 1)) = s * (6 * (1 - p) * (1 / w (k + 1)) * csapsD2 n x U (k + 1)) := by
      field_simp
      linear_combination csapsD2 n x U (k + 1) * hl2
    have e2 : 6 * (1 - p') * (1 / (κ * w (k + 2))) * (l / a * csapsD2 n x U (k + 2)) = s * (6 * (1 - p) * (1 / w (k + 2)) * csapsD2 n x U (k + 2)) := by
      field_simp
      linear_combination csapsD2 n x U (k + 2) * hl2
    simp only [slopeJump, rowR] at sys ⊢
    rw [d0, d1, d2, ew k (by omega), ew (k + 1) (by omega), ew (k + 2) hk, e0, e1, e2, ex k (by omega), ex (k + 1) (by omega), ex (k + 2) hk,
      ey k (by omega), ey (k + 1) (by omega), ey (k + 2) hk]
    have g1 := hx k (by omega)
    have g2 := hx (k + 1) hk
    have n1 : x (k + 1) - x k ≠ 0 := by linarith
    have n2 : x (k + 2) - x (k + 1) ≠ 0 := by linarith
    rw [show a * x (k + 2) + b - (a * x (k + 1) + b) = a * (x (k + 2) - x (k + 1)) by ring,
      show a * x (k + 1) + b - (a * x k + b) = a * (x (k + 1) - x k) by ring]
    have dv : ∀ {u v d : ℝ}, d ≠ 0 → (s * u - s * v) / (a * d) = s / a * ((u - v) / d) := by
      intro u v d hd
      field_simp
    rw [dv n1, dv n2, show s * y (k + 2) + q - (s * y (k + 1) + q) = s * y (k + 2) - s * y (k + 1) by ring,
      show s * y (k + 1) + q - (s * y k + q) = s * y (k + 1) - s * y k by ring, dv n1, dv n2]
    have hpl : p' * (a * (x (k + 1) - x k) * (l * U k) + 2 * (a * (x (k + 2) - x (k + 1)) + a * (x (k + 1) - x k)) * (l * U (k + 1)) +
        a * (x (k + 2) - x (k + 1)) * (l * U (k + 2))) =
        s / a * (p * ((x (k + 1) - x k) * U k + 2 * (x (k + 2) - x (k + 1) + (x (k + 1) - x k)) * U (k + 1) + (x (k + 2) - x (k + 1)) * U (k + 2))) := by
      have : s / a = a * (s / a ^ 2) := by field_simp
      rw [this]
      linear_combination a * ((x (k + 1) - x k) * U k + 2 * (x (k + 2) - x (k + 1) + (x (k + 1) - x k)) * U (k + 1) + (x (k + 2) - x (k + 1)) * U (k + 2)) * hl1
    linear_combination hpl + s / a * sys

include hn hx hw hp0 hp1 hq0 hq1 ha hκ hpp ex ew ey in
theorem csapsY_rescale {i : Nat} (hi : i < n) : csapsY n p' x' w' y' i = s * csapsY n p x w y i + q := by
  have hU := fun j (hj : j < n) => csapsU_rescale hn hx hw hp0 hp1 hq0 hq1 ha hκ hpp ex ew ey hj
  have key : ∀ j, j ≤ n → csapsD1 n x' (csapsU n p' x' w' y') j = s * (κ * a * (1 - p) + p / a ^ 2) / a * csapsD1 n x (csapsU n p x w y) j := by
    intro j hj
    refine csapsD1_congr fun h1 h2 => ?_
    have := hx (j - 1) (by omega)
    rw [show j - 1 + 1 = j by omega] at this
    have h3 : x j - x (j - 1) ≠ 0 := by linarith
    rw [ex j h2, ex (j - 1) (by omega), hU j h2, hU (j - 1) (by omega), show a * x j + b - (a * x (j - 1) + b) = a * (x j - x (j - 1)) by ring]
    field_simp
  have hw0 := hw i hi
  unfold csapsY
  rw [key _ (by omega), key _ (by omega), ew i hi, ey i hi]
  have hl2 : (1 - p') * (s * (κ * a * (1 - p) + p / a ^ 2)) = s * κ * a * (1 - p) := by
    field_simp
    linear_combination s * hpp
  have e : 6 * (1 - p') * (1 / (κ * w i)) * (s * (κ * a * (1 - p) + p / a ^ 2) / a) = s * (6 * (1 - p) * (1 / w i)) := by
    rw [show 6 * (1 - p') * (1 / (κ * w i)) * (s * (κ * a * (1 - p) + p / a ^ 2) / a) =
      6 * (1 / (κ * w i)) * (1 / a) * ((1 - p') * (s * (κ * a * (1 - p) + p / a ^ 2))) by ring, hl2]
    field_simp
  linear_combination (-(csapsD1 n x (csapsU n p x w y) (i + 1) - csapsD1 n x (csapsU n p x w y) i)) * e

include hn hx hw hp0 hp1 hq0 hq1 ha hκ hpp ex ew ey in
theorem csapsSlope_rescale {i : Nat} (hi : i < n) : csapsSlope n p' x' w' y' i = s / a * csapsSlope n p x w y i := by
  have hU := fun j (hj : j < n) => csapsU_rescale hn hx hw hp0 hp1 hq0 hq1 ha hκ hpp ex ew ey hj
  have hY := fun j (hj : j < n) => csapsY_rescale hn hx hw hp0 hp1 hq0 hq1 ha hκ hpp ex ew ey hj
  have hl1 : p' * (s * (κ * a * (1 - p) + p / a ^ 2)) = s / a ^ 2 * p := by
    field_simp
    linear_combination (-s) * hpp
  have hc : ∀ j, j < n → p' * csapsU n p' x' w' y' j = s / a ^ 2 * (p * csapsU n p x w y j) := by
    intro j hj
    rw [hU j hj]
    linear_combination csapsU n p x w y j * hl1
  unfold csapsSlope
  by_cases h : i + 1 < n
  · rw [if_pos h, if_pos h, hY i hi, hY (i + 1) h, hc i hi, hc (i + 1) h, ex i hi, ex (i + 1) h]
    have := hx i h
    have h3 : x (i + 1) - x i ≠ 0 := by linarith
    rw [show a * x (i + 1) + b - (a * x i + b) = a * (x (i + 1) - x i) by ring]
    field_simp
    ring
  · rw [if_neg h, if_neg h, hY i hi, hY (i - 1) (by omega), hc i hi, hc (i - 1) (by omega), ex i hi, ex (i - 1) (by omega)]
    have := hx (i - 1) (by omega)
    rw [show i - 1 + 1 = i by omega] at this
    have h3 : x i - x (i - 1) ≠ 0 := by linarith
    rw [show a * x i + b - (a * x (i - 1) + b) = a * (x i - x (i - 1)) by ring]
    field_simp
    ring

end

section
variable {n : Nat} {x w x' w' y y' : Nat → ℝ} {p L : ℝ} (hn : 2 ≤ n) (hx : ∀ i, i + 1 < n → x i < x (i + 1)) (hw : ∀ i, i < n → 0 < w i)
  (hp0 : 0 ≤ p) (hp1 : p ≤ 1) (ex : ∀ i, i < n → x' i = L - x (n - 1 - i)) (ew : ∀ i, i < n → w' i = w (n - 1 - i))
  (ey : ∀ i, i < n → y' i = y (n - 1 - i))

include ex in
theorem csapsD1_reverse {U U' : Nat → ℝ} (eU : ∀ i, i < n → U' i = U (n - 1 - i)) {j : Nat} (hj : j ≤ n) :
    csapsD1 n x' U' j = - csapsD1 n x U (n - j) := by
  unfold csapsD1
  by_cases h : j = 0 ∨ n ≤ j
  · rw [if_pos h, if_pos (by omega), neg_zero]
  · rw [if_neg h, if_neg (by omega), eU j (by omega), eU (j - 1) (by omega), ex j (by omega), ex (j - 1) (by omega),
      show n - 1 - (j - 1) = n - j by omega, show n - 1 - j = n - j - 1 by omega, ← neg_div]
    rw [show L - x (n - j - 1) - (L - x (n - j)) = x (n - j) - x (n - j - 1) by ring]
    congr 1
    ring

include ex in
theorem slopeJump_reverse {z z' : Nat → ℝ} (ez : ∀ i, i < n → z' i = z (n - 1 - i)) {k : Nat} (hk : k + 2 < n) :
    slopeJump x' z' k = slopeJump x z (n - 3 - k) := by
  unfold slopeJump
  rw [ez k (by omega), ez (k + 1) (by omega), ez (k + 2) hk, ex k (by omega), ex (k + 1) (by omega), ex (k + 2) hk,
    show n - 1 - k = n - 3 - k + 2 by omega, show n - 1 - (k + 1) = n - 3 - k + 1 by omega, show n - 1 - (k + 2) = n - 3 - k by omega]
  rw [show L - x (n - 3 - k) - (L - x (n - 3 - k + 1)) = x (n - 3 - k + 1) - x (n - 3 - k) by ring,
    show L - x (n - 3 - k + 1) - (L - x (n - 3 - k + 2)) = x (n - 3 - k + 2) - x (n - 3 - k + 1) by ring]
  rw [← neg_sub (z (n - 3 - k + 1)), neg_div, ← neg_sub (z (n - 3 - k + 2)), neg_div]
  ring

include hn hx hw hp0 hp1 ex ew ey in
theorem csapsU_reverse {i : Nat} (hi : i < n) : csapsU n p x' w' y' i = csapsU n p x w y (n - 1 - i) := by
  rcases (show n = 2 ∨ 3 ≤ n by omega) with rfl | h3
  · unfold csapsU
    rw [dif_neg (by omega), dif_neg (by omega)]
  set U := csapsU n p x w y with hU
  have hx' : ∀ i, i + 1 < n → x' i < x' (i + 1) := by
    intro i hi
    rw [ex i (by omega), ex (i + 1) hi]
    have := hx (n - 1 - (i + 1)) (by omega)
    rw [show n - 1 - (i + 1) + 1 = n - 1 - i by omega] at this
    linarith
  have hw' : ∀ i, i < n → 0 < w' i := fun i hi => by rw [ew i hi]; exact hw _ (by omega)
  refine csapsU_unique h3 hx' hw' hp0 hp1 (V := fun i => U (n - 1 - i)) ?_ ?_ ?_ i hi
  · show U (n - 1 - 0) = 0
    rw [hU, csapsU_last _ (by omega)]
  · show U (n - 1 - (n - 1)) = 0
    rw [Nat.sub_self, hU, csapsU_zero]
  · intro k hk
    have sys := csapsU_system h3 hx hw hp0 hp1 y (k := n - 3 - k) (by omega)
    rw [← hU] at sys
    rw [slopeJump_reverse ex ey hk, ← sys]
    congr 1
    · refine slopeJump_reverse ex (z := fun i => 6 * (1 - p) * (1 / w i) * csapsD2 n x U i) ?_ hk
      intro i hi
      show 6 * (1 - p) * (1 / w' i) * csapsD2 n x' (fun i => U (n - 1 - i)) i = 6 * (1 - p) * (1 / w (n - 1 - i)) * csapsD2 n x U (n - 1 - i)
      rw [ew i hi]
      congr 1
      unfold csapsD2
      rw [csapsD1_reverse ex (U := U) (fun _ _ => rfl) (j := i + 1) (by omega), csapsD1_reverse ex (U := U) (fun _ _ => rfl) (j := i) (by omega),
        show n - (i + 1) = n - 1 - i by omega, show n - i = n - 1 - i + 1 by omega]
      ring
    · unfold rowR
      simp only
      rw [ex k (by omega), ex (k + 1) (by omega), ex (k + 2) hk,
        show n - 1 - k = n - 3 - k + 2 by omega, show n - 1 - (k + 1) = n - 3 - k + 1 by omega, show n - 1 - (k + 2) = n - 3 - k by omega]
      ring

include hn hx hw hp0 hp1 ex ew ey in
theorem csapsY_reverse {i : Nat} (hi : i < n) : csapsY n p x' w' y' i = csapsY n p x w y (n - 1 - i) := by
  have hU := fun j (hj : j < n) => csapsU_reverse hn hx hw hp0 hp1 ex ew ey hj
  unfold csapsY
  rw [csapsD1_reverse ex hU (j := i + 1) (by omega), csapsD1_reverse ex hU (j := i) (by omega), ew i hi, ey i hi,
    show n - (i + 1) = n - 1 - i by omega, show n - i = n - 1 - i + 1 by omega]
  ring

include hn hx hw hp0 hp1 ex ew ey in
theorem csapsSlope_reverse {i : Nat} (hi : i < n) : csapsSlope n p x' w' y' i = - csapsSlope n p x w y (n - 1 - i) := by
  have hU := fun j (hj : j < n) => csapsU_reverse hn hx hw hp0 hp1 ex ew ey hj
  have hY := fun j (hj : j < n) => csapsY_reverse hn hx hw hp0 hp1 ex ew ey hj
  by_cases h : i + 1 < n
  · rw [csapsSlope_left _ h]
    have := csapsSlope_right hx hw hp0 hp1 y (i := n - 1 - (i + 1)) (by omega)
    rw [show n - 1 - (i + 1) + 1 = n - 1 - i by omega] at this
    rw [this, hY i hi, hY (i + 1) h, hU i hi, hU (i + 1) h, ex i hi, ex (i + 1) h,
      show L - x (n - 1 - (i + 1)) - (L - x (n - 1 - i)) = x (n - 1 - i) - x (n - 1 - (i + 1)) by ring,
      ← neg_sub (csapsY n p x w y (n - 1 - i)), neg_div]
    ring
  · have hi' : i = n - 1 := by omega
    subst hi'
    unfold csapsSlope
    rw [if_neg h, Nat.sub_self, if_pos (by omega), hY _ hi, hY (n - 1 - 1) (by omega), hU _ hi, hU (n - 1 - 1) (by omega), ex _ hi, ex (n - 1 - 1) (by omega),
      Nat.sub_self, show n - 1 - (n - 1 - 1) = 0 + 1 by omega, show L - x 0 - (L - x (0 + 1)) = x (0 + 1) - x 0 by ring,
      ← neg_sub (csapsY n p x w y (0 + 1)), neg_div]
    ring

end

section
variable {n : Nat} {x w : Nat → ℝ} {p : ℝ} (N : Nat) (M : Nat → ℝ) (y : Nat → Nat → ℝ) (b : ℝ)

theorem csapsU_sum (i : Nat) : csapsU n p x w (fun i => ∑ k ∈ range N, M k * y i k + b) i = ∑ k ∈ range N, M k * csapsU n p x w (fun i => y i k) i := by
  have hB : csapsB n x (fun i => ∑ k ∈ range N, M k * y i k + b) = ∑ k ∈ range N, M k • csapsB n x (fun i => y i k) := by
    funext k
    simp only [csapsB, Finset.sum_apply, Pi.smul_apply, smul_eq_mul, mul_sub, sum_sub_distrib, add_sub_add_right_eq_sub]
    congr 1
    · rw [← sum_sub_distrib, sum_div]
      exact sum_congr rfl fun l _ => by ring
    · rw [← sum_sub_distrib, sum_div]
      exact sum_congr rfl fun l _ => by ring
  unfold csapsU
  by_cases h : 1 ≤ i ∧ i - 1 < n - 2
  · simp only [dif_pos h, hB, Matrix.mulVec_sum, Matrix.mulVec_smul, Finset.sum_apply, Pi.smul_apply, smul_eq_mul]
  · simp only [dif_neg h, mul_zero, sum_const_zero]

theorem csapsY_sum (i : Nat) : csapsY n p x w (fun i => ∑ k ∈ range N, M k * y i k + b) i = ∑ k ∈ range N, M k * csapsY n p x w (fun i => y i k) i + b := by
  have hD : ∀ j, csapsD1 n x (csapsU n p x w fun i => ∑ k ∈ range N, M k * y i k + b) j = ∑ k ∈ range N, M k * csapsD1 n x (csapsU n p x w fun i => y i k) j := by
    intro j
    unfold csapsD1
    by_cases h : j = 0 ∨ n ≤ j
    · simp only [if_pos h, mul_zero, sum_const_zero]
    · simp only [if_neg h, csapsU_sum]
      rw [← sum_sub_distrib, sum_div]
      exact sum_congr rfl fun l _ => by ring
  unfold csapsY
  rw [hD, hD, ← sum_sub_distrib, mul_sum]
  have : ∀ A B : ℝ, A + b - B = A - B + b := by intros; ring
  rw [this, ← sum_sub_distrib]
  congr 1
  exact sum_congr rfl fun l _ => by ring

theorem csapsSlope_sum (i : Nat) : csapsSlope n p x w (fun i => ∑ k ∈ range N, M k * y i k + b) i = ∑ k ∈ range N, M k * csapsSlope n p x w (fun i => y i k) i := by
  have key : ∀ (Y0 Y1 U0 U1 : Nat → ℝ) (h α β : ℝ), (∑ k ∈ range N, M k * Y1 k + b - (∑ k ∈ range N, M k * Y0 k + b)) / h +
      h * (α * (p * ∑ k ∈ range N, M k * U0 k) + β * (p * ∑ k ∈ range N, M k * U1 k)) =
      ∑ k ∈ range N, M k * ((Y1 k - Y0 k) / h + h * (α * (p * U0 k) + β * (p * U1 k))) := by
    intro Y0 Y1 U0 U1 h α β
    rw [add_sub_add_right_eq_sub, ← sum_sub_distrib, sum_div, mul_sum, mul_sum, mul_sum, mul_sum, ← sum_add_distrib, mul_sum, ← sum_add_distrib]
    exact sum_congr rfl fun l _ => by ring
  unfold csapsSlope
  by_cases h : i + 1 < n
  · simp only [if_pos h, csapsU_sum, csapsY_sum]
    have := key (fun k => csapsY n p x w (fun i => y i k) i) (fun k => csapsY n p x w (fun i => y i k) (i + 1)) (fun k => csapsU n p x w (fun i => y i k) i)
      (fun k => csapsU n p x w (fun i => y i k) (i + 1)) (x (i + 1) - x i) (-2) (-1)
    rw [show ∀ A B C D : ℝ, A / D - D * (2 * (p * B) + p * C) = A / D + D * (-2 * (p * B) + -1 * (p * C)) from fun A B C D => by ring, this]
    exact sum_congr rfl fun l _ => by ring
  · simp only [if_neg h, csapsU_sum, csapsY_sum]
    have := key (fun k => csapsY n p x w (fun i => y i k) (i - 1)) (fun k => csapsY n p x w (fun i => y i k) i) (fun k => csapsU n p x w (fun i => y i k) (i - 1))
      (fun k => csapsU n p x w (fun i => y i k) i) (x i - x (i - 1)) 1 2
    rw [show ∀ A B C D : ℝ, A / D + D * (p * B + 2 * (p * C)) = A / D + D * (1 * (p * B) + 2 * (p * C)) from fun A B C D => by ring, this]
    exact sum_congr rfl fun l _ => by ring

end

end Verif.Props
