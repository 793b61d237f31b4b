import Verif.Props.RoundedGrid
import Verif.Props.Accuracy
import Verif.Lemmas.Rnd

/-!
C130: derivatives, speed and unit tangents in rounded arithmetic.
-/
namespace Verif.Props

open Verif Verif.Np Verif.Model Verif.Spec Set

/-- All entries of an array are at most `B` in absolute value. -/
def MatLe (a : NMat) (B : ℝ) : Prop := ∀ i j, i < a.m → j < a.k → |a.v i j| ≤ B

/-- Arrays of the same shape with entries at most `δ` apart. -/
def MatNear (a b : NMat) (δ : ℝ) : Prop := a.m = b.m ∧ a.k = b.k ∧ ∀ i j, i < b.m → j < b.k → |a.v i j - b.v i j| ≤ δ

theorem MatNear.trans {a b c : NMat} {δ γ : ℝ} (h1 : MatNear a b δ) (h2 : MatNear b c γ) : MatNear a c (δ + γ) := by
  refine ⟨h1.1.trans h2.1, h1.2.1.trans h2.2.1, fun i j hi hj => ?_⟩
  have e1 := h1.2.2 i j (h2.1 ▸ hi) (h2.2.1 ▸ hj)
  have e2 := h2.2.2 i j hi hj
  have := abs_sub_le (a.v i j) (b.v i j) (c.v i j)
  linarith

theorem MatNear.le {a b : NMat} {δ B : ℝ} (h : MatNear a b δ) (hb : MatLe b B) : MatLe a (B + δ) := by
  intro i j hi hj
  rw [h.1] at hi
  rw [h.2.1] at hj
  have h1 := h.2.2 i j hi hj
  have h2 := hb i j hi hj
  have := abs_sub_abs_le_abs_sub (a.v i j) (b.v i j)
  linarith

/-- The exact gradient of nearby arrays. -/
theorem gradient_near {a b : NMat} {δ : ℝ} (h : MatNear a b δ) (hδ : 0 ≤ δ) : MatNear (gradient a) (gradient b) (4 * δ) := by
  obtain ⟨hm, hk, hv⟩ := h
  unfold gradient
  rw [hm, hk]
  split
  · rename_i h3
    refine ⟨rfl, rfl, fun i j hi hj => ?_⟩
    simp only at hi hj ⊢
    have D : ∀ l, l < b.m → ∃ u, a.v l j = b.v l j + u ∧ |u| ≤ δ := fun l hl => ⟨a.v l j - b.v l j, by ring, hv l j hl hj⟩
    unfold npGradient
    split
    · obtain ⟨u0, e0, d0⟩ := D 0 (by omega)
      obtain ⟨u1, e1, d1⟩ := D 1 (by omega)
      obtain ⟨u2, e2, d2⟩ := D 2 (by omega)
      simp only [e0, e1, e2, show ¬ (2 : Nat) = 1 by norm_num, if_false]
      rw [abs_le] at *
      constructor <;> linarith [d0.1, d0.2, d1.1, d1.2, d2.1, d2.2]
    · split
      · obtain ⟨u0, e0, d0⟩ := D (b.m - 3) (by omega)
        obtain ⟨u1, e1, d1⟩ := D (b.m - 2) (by omega)
        obtain ⟨u2, e2, d2⟩ := D (b.m - 1) (by omega)
        simp only [e0, e1, e2, show ¬ (2 : Nat) = 1 by norm_num, if_false]
        rw [abs_le] at *
        constructor <;> linarith [d0.1, d0.2, d1.1, d1.2, d2.1, d2.2]
      · obtain ⟨u0, e0, d0⟩ := D (i + 1) (by omega)
        obtain ⟨u1, e1, d1⟩ := D (i - 1) (by omega)
        simp only [e0, e1]
        rw [abs_le] at *
        constructor <;> linarith [d0.1, d0.2, d1.1, d1.2]
  · split
    · refine ⟨rfl, rfl, fun i j hi hj => ?_⟩
      simp only at hi hj ⊢
      have D : ∀ l, l < b.m → ∃ u, a.v l j = b.v l j + u ∧ |u| ≤ δ := fun l hl => ⟨a.v l j - b.v l j, by ring, hv l j hl hj⟩
      have m2 : b.m = 2 := by omega
      obtain ⟨u0, e0, d0⟩ := D 0 (by omega)
      obtain ⟨u1, e1, d1⟩ := D 1 (by omega)
      have : i = 0 ∨ i = 1 := by omega
      rw [abs_le] at d0 d1
      rcases this with rfl | rfl
      · simp only [npGradient, m2, e0, e1, if_true]
        rw [abs_le]
        constructor <;> linarith [d0.1, d0.2, d1.1, d1.2]
      · simp only [npGradient, m2, e0, e1, if_true, show ¬ (1 : Nat) = 0 by norm_num, if_false, show (2 : Nat) - 1 = 1 by norm_num, show (2 : Nat) - 2 = 0 by norm_num]
        rw [abs_le]
        constructor <;> linarith [d0.1, d0.2, d1.1, d1.2]
    · refine ⟨rfl, rfl, fun i j _ _ => ?_⟩
      simp only [sub_self, abs_zero]
      linarith

section
variable {ε : ℝ} {fl : ℝ → ℝ} (hf : Rounding ε fl)
include hf

theorem fl_abs_le (x : ℝ) : |fl x| ≤ (1 + ε) * |x| := by
  have h1 := hf.rel x
  have := abs_sub_abs_le_abs_sub (fl x) x
  linarith

/-- A rounded sum of three rounded products. -/
theorem three_terms (x y z : ℝ) : |fl (fl (fl x + fl y) + fl z) - (x + y + z)| ≤ 7 * ε * (|x| + |y| + |z|) := by
  have e0 := hf.nonneg
  have e1 := hf.lt_one
  have hx := hf.rel x
  have hy := hf.rel y
  have hz := hf.rel z
  have ax := fl_abs_le hf x
  have ay := fl_abs_le hf y
  have az := fl_abs_le hf z
  have hs := hf.rel (fl x + fl y)
  have as := abs_add_le (fl x) (fl y)
  have as' := fl_abs_le hf (fl x + fl y)
  have hw := hf.rel (fl (fl x + fl y) + fl z)
  have aw := abs_add_le (fl (fl x + fl y)) (fl z)
  have px := abs_nonneg x
  have py := abs_nonneg y
  have pz := abs_nonneg z
  have tri : |fl (fl (fl x + fl y) + fl z) - (x + y + z)| ≤ |fl (fl (fl x + fl y) + fl z) - (fl (fl x + fl y) + fl z)| +
      |fl (fl x + fl y) - (fl x + fl y)| + |fl x - x| + |fl y - y| + |fl z - z| := by
    have e : fl (fl (fl x + fl y) + fl z) - (x + y + z) = (fl (fl (fl x + fl y) + fl z) - (fl (fl x + fl y) + fl z)) +
      (fl (fl x + fl y) - (fl x + fl y)) + (fl x - x) + (fl y - y) + (fl z - z) := by ring
    rw [e]
    refine (abs_add_le _ _).trans (add_le_add ?_ le_rfl)
    refine (abs_add_le _ _).trans (add_le_add ?_ le_rfl)
    refine (abs_add_le _ _).trans (add_le_add ?_ le_rfl)
    exact abs_add_le _ _
  have s1 : |fl x + fl y| ≤ (1 + ε) * (|x| + |y|) := by linarith
  have s2 : |fl (fl x + fl y)| ≤ (1 + ε) ^ 2 * (|x| + |y|) := by
    refine as'.trans ?_
    rw [sq, mul_assoc]
    exact mul_le_mul_of_nonneg_left s1 (by linarith)
  have s3 : |fl (fl x + fl y) + fl z| ≤ (1 + ε) ^ 2 * (|x| + |y|) + (1 + ε) * |z| := by linarith
  have k1 := mul_le_mul_of_nonneg_left s1 e0
  have k2 := mul_le_mul_of_nonneg_left s3 e0
  have b1 : ε * (1 + ε) ≤ 2 * ε := by nlinarith
  have b2 : ε * (1 + ε) ^ 2 ≤ 4 * ε := by nlinarith [mul_nonneg e0 e0]
  have pxy : 0 ≤ |x| + |y| := by linarith
  have c1 := mul_le_mul_of_nonneg_right b1 pxy
  have c2 := mul_le_mul_of_nonneg_right b2 pxy
  have c3 := mul_le_mul_of_nonneg_right b1 pz
  nlinarith

/-- A rounded quotient of a rounded difference. -/
theorem two_terms (x : ℝ) {q : ℝ} (hq : 0 < q) : |fl (fl x / q) - x / q| ≤ 3 * ε * |x / q| := by
  have e0 := hf.nonneg
  have e1 := hf.lt_one
  have h1 := hf.rel (fl x / q)
  have h2 : |fl x / q - x / q| ≤ ε * |x / q| := by
    rw [← sub_div, abs_div, abs_div, ← mul_div_assoc]
    exact div_le_div_of_nonneg_right (hf.rel x) (abs_nonneg _)
  have h3 : |fl x / q| ≤ (1 + ε) * |x / q| := by
    have := abs_sub_abs_le_abs_sub (fl x / q) (x / q)
    linarith
  have tri := abs_sub_le (fl (fl x / q)) (fl x / q) (x / q)
  have k := mul_le_mul_of_nonneg_left h3 e0
  nlinarith [abs_nonneg (x / q), mul_nonneg e0 (abs_nonneg (x / q)), mul_nonneg (mul_nonneg e0 (abs_nonneg (x / q))) (show 0 ≤ 1 - ε by linarith)]

/-- The rounded gradient is near the exact one of the same array. -/
theorem gradientFl_near {a : NMat} {B : ℝ} (ha : MatLe a B) (hB : 0 ≤ B) : MatNear (gradientFl fl a) (gradient a) (28 * ε * B) := by
  have e0 := hf.nonneg
  have e1 := hf.lt_one
  have eB := mul_nonneg e0 hB
  have half : ∀ x y : ℝ, |x| ≤ B → |y| ≤ B → ∀ q : ℝ, 1 ≤ q → |fl (fl (x - y) / q) - (x - y) / q| ≤ 28 * ε * B := by
    intro x y hx hy q hq
    refine (two_terms hf (x - y) (by linarith : 0 < q)).trans ?_
    have h1 : |x - y| ≤ 2 * B := by rw [abs_le] at *; constructor <;> linarith [hx.1, hx.2, hy.1, hy.2]
    have h2 : |(x - y) / q| ≤ 2 * B := by
      rw [abs_div, abs_of_pos (by linarith : 0 < q)]
      exact (div_le_self (abs_nonneg _) hq).trans h1
    nlinarith [mul_le_mul_of_nonneg_left h2 e0]
  have three : ∀ x y z α β γ : ℝ, |x| ≤ B → |y| ≤ B → |z| ≤ B → |α| + |β| + |γ| ≤ 4 →
      |fl (fl (fl (α * x) + fl (β * y)) + fl (γ * z)) - (α * x + β * y + γ * z)| ≤ 28 * ε * B := by
    intro x y z α β γ hx hy hz hc
    refine (three_terms hf _ _ _).trans ?_
    rw [abs_mul, abs_mul, abs_mul]
    have h : |α| * |x| + |β| * |y| + |γ| * |z| ≤ 4 * B := by
      have := mul_le_mul_of_nonneg_left hx (abs_nonneg α)
      have := mul_le_mul_of_nonneg_left hy (abs_nonneg β)
      have := mul_le_mul_of_nonneg_left hz (abs_nonneg γ)
      have := mul_le_mul_of_nonneg_right hc hB
      nlinarith
    nlinarith [mul_le_mul_of_nonneg_left h e0]
  unfold gradientFl gradient
  split
  · rename_i h3
    refine ⟨rfl, rfl, fun i j hi hj => ?_⟩
    simp only at hi hj ⊢
    unfold npGradientFl npGradient
    split
    · simp only [show ¬ (2 : Nat) = 1 by norm_num, if_false]
      exact three _ _ _ _ _ _ (ha _ _ (by omega) hj) (ha _ _ (by omega) hj) (ha _ _ (by omega) hj) (by norm_num [abs_of_neg])
    · split
      · simp only [show ¬ (2 : Nat) = 1 by norm_num, if_false]
        exact three _ _ _ _ _ _ (ha _ _ (by omega) hj) (ha _ _ (by omega) hj) (ha _ _ (by omega) hj) (by norm_num [abs_of_neg])
      · exact half _ _ (ha _ _ (by omega) hj) (ha _ _ (by omega) hj) 2 (by norm_num)
  · split
    · refine ⟨rfl, rfl, fun i j hi hj => ?_⟩
      simp only at hi hj ⊢
      have m2 : a.m = 2 := by omega
      unfold npGradientFl npGradient
      split
      · simp only [if_true]
        have := half (a.v 1 j) (a.v 0 j) (ha _ _ (by omega) hj) (ha _ _ (by omega) hj) 1 le_rfl
        rwa [div_one (_ - _)] at this
      · split
        · simp only [if_true]
          have := half (a.v (a.m - 1) j) (a.v (a.m - 2) j) (ha _ _ (by omega) hj) (ha _ _ (by omega) hj) 1 le_rfl
          rwa [div_one (_ - _)] at this
        · omega
    · refine ⟨rfl, rfl, fun i j _ _ => ?_⟩
      simp only [sub_self, abs_zero]
      linarith

end

/-- The exact derivatives by number. -/
noncomputable def derivEx (c : Curve ℝ) : Nat → NMat
  | 0 => c.mat
  | k + 1 => gradient (derivEx c k)

section
variable {ε : ℝ} {fl : ℝ → ℝ} {c : Curve ℝ}

theorem derivFl_near (hf : Rounding ε fl) {B δ : ℝ} {c' : Curve ℝ} (hc : MatNear c'.mat c.mat δ) (hδ : 0 ≤ δ) (hB : MatLe c'.mat B) (hB0 : 0 ≤ B) (k : Nat) :
    MatNear (derivFl fl c' k) (derivEx c k) (4 ^ k * δ + ((4 + 28 * ε) ^ k - 4 ^ k) * B) ∧ MatLe (derivFl fl c' k) ((4 + 28 * ε) ^ k * B) := by
  have e0 := hf.nonneg
  induction k with
  | zero => simp only [pow_zero, one_mul, sub_self, zero_mul, add_zero]; exact ⟨hc, hB⟩
  | succ k ih =>
    obtain ⟨h1, h2⟩ := ih
    have p0 : 0 ≤ (4 + 28 * ε) ^ k * B := by positivity
    have g1 := gradientFl_near hf h2 p0
    have q0 : 0 ≤ 4 ^ k * δ + ((4 + 28 * ε) ^ k - 4 ^ k) * B := by
      have : (4 : ℝ) ^ k ≤ (4 + 28 * ε) ^ k := pow_le_pow_left₀ (by norm_num) (by linarith) k
      have := mul_nonneg (sub_nonneg.2 this) hB0
      have : 0 ≤ 4 ^ k * δ := by positivity
      linarith
    have g2 := gradient_near h1 q0
    constructor
    · have := g1.trans g2
      have e : 28 * ε * ((4 + 28 * ε) ^ k * B) + 4 * (4 ^ k * δ + ((4 + 28 * ε) ^ k - 4 ^ k) * B) =
          4 ^ (k + 1) * δ + ((4 + 28 * ε) ^ (k + 1) - 4 ^ (k + 1)) * B := by rw [pow_succ, pow_succ]; ring
      rw [e] at this
      exact this
    · -- the gradient of an array of zeros is zero
      have z : MatLe (gradient (derivFl fl c' k)) (4 * ((4 + 28 * ε) ^ k * B)) := by
        intro i j hi hj
        have n := gradient_near (a := derivFl fl c' k) (b := ⟨(derivFl fl c' k).m, (derivFl fl c' k).k, fun _ _ => 0⟩) (δ := (4 + 28 * ε) ^ k * B)
          ⟨rfl, rfl, fun i j hi hj => by simpa using h2 i j hi hj⟩ p0
        have v := n.2.2 i j (n.1 ▸ hi) (n.2.1 ▸ hj)
        have v0 : (gradient ⟨(derivFl fl c' k).m, (derivFl fl c' k).k, fun _ _ => 0⟩).v i j = 0 := by
          unfold gradient npGradient
          split_ifs <;> simp
        rwa [v0, sub_zero] at v
      have := g1.le z
      intro i j hi hj
      refine (this i j hi hj).trans (le_of_eq ?_)
      rw [pow_succ]; ring

theorem mat_le {B : ℝ} (h : ∀ i j, i < c.size → j < c.ndim → |at2 c.rows i j| ≤ B) : MatLe c.mat B := fun i j hi hj => h i j hi hj

theorem derivEx_m (k : Nat) : (derivEx c k).m = c.size := by
  induction k with
  | zero => rfl
  | succ k ih => exact (gradient_m _).trans ih

theorem derivEx_k (h2 : 2 ≤ c.size) (k : Nat) : (derivEx c k).k = c.ndim := by
  induction k with
  | zero => rfl
  | succ k ih => exact (gradient_k (by rw [derivEx_m]; exact h2)).trans ih

/-! ## C130 -/

/-- **C130 (no rounding).** Without rounding these are the derivatives of the exact model. -/
theorem C130_exact (c : Curve ℝ) : derivFl id c 1 = firstderiv c ∧ derivFl id c 2 = secondderiv c ∧ derivFl id c 3 = thirdderiv c ∧
    (∀ a i z, RowNormTo id a i z ↔ z = rowNorm a i) ∧ ∀ a i j, unitFl id a (rowNorm a i) i j = (unitRows a).v i j := by
  have h : gradientFl id = gradient := by
    funext a
    unfold gradientFl gradient
    have : npGradientFl id = npGradient := by
      funext e m f i
      unfold npGradientFl npGradient
      simp
    rw [this]
  refine ⟨?_, ?_, ?_, ?_, ?_⟩
  · simp only [derivFl, h]; rfl
  · simp only [derivFl, h]; rfl
  · simp only [derivFl, h]; rfl
  · intro a i z
    unfold RowNormTo rowNorm
    simp only [sumsTo_id, exists_eq_left, id]
    rw [← List.sum_toFinset _ List.nodup_range, List.toFinset_range]
    simp only [sq]
  · intro a i j
    rfl

/-- **C130 (derivatives).** The first, second and third derivative of a curve with coordinates of absolute value at most `B`, computed with rounded operations,
differ from the exact ones by at most `28 ε B`, `225 ε B` and `1354 ε B`, at all points. -/
theorem C130_derivs (hf : Rounding ε fl) (hε : 1000 * ε ≤ 1) (h2 : 2 ≤ c.size) {B : ℝ} (hB : ∀ i j, i < c.size → j < c.ndim → |at2 c.rows i j| ≤ B)
    {i j : Nat} (hi : i < c.size) (hj : j < c.ndim) :
    |(derivFl fl c 1).v i j - (firstderiv c).v i j| ≤ 28 * ε * B ∧ |(derivFl fl c 2).v i j - (secondderiv c).v i j| ≤ 225 * ε * B ∧
    |(derivFl fl c 3).v i j - (thirdderiv c).v i j| ≤ 1354 * ε * B := by
  have e0 := hf.nonneg
  have hB0 : 0 ≤ B := (abs_nonneg _).trans (hB i j hi hj)
  have near := fun k => (derivFl_near hf (c := c) (c' := c) (δ := 0) ⟨rfl, rfl, fun i j _ _ => by simp⟩ le_rfl (mat_le hB) hB0 k).1.2.2 i j
    (by rw [derivEx_m]; exact hi) (by rw [derivEx_k h2]; exact hj)
  refine ⟨(near 1).trans ?_, (near 2).trans ?_, (near 3).trans ?_⟩
  · norm_num
  · have : (4 + 28 * ε) ^ 2 - 4 ^ 2 ≤ 225 * ε := by nlinarith
    have := mul_le_mul_of_nonneg_right this hB0
    linarith
  · have s1 : ε ^ 2 ≤ 1 / 1000 * ε := by nlinarith
    have s2 : ε ^ 3 ≤ 1 / 1000 * ε ^ 2 := by nlinarith [sq_nonneg ε]
    have : (4 + 28 * ε) ^ 3 - 4 ^ 3 ≤ 1354 * ε := by nlinarith
    have := mul_le_mul_of_nonneg_right this hB0
    linarith

/-- **C130 (inside).** Between the ends the first derivative computed with rounded operations has a relative error of at most `3 ε`, however close
the points are. -/
theorem C130_inside (hf : Rounding ε fl) {i : Nat} (h1 : 1 ≤ i) (hi : i + 1 < c.size) (j : Nat) :
    |(derivFl fl c 1).v i j - (firstderiv c).v i j| ≤ 3 * ε * |(firstderiv c).v i j| := by
  have h3 : 3 ≤ c.mat.m := by show 3 ≤ c.size; omega
  have e1 : (derivFl fl c 1).v i j = fl (fl (c.mat.v (i + 1) j - c.mat.v (i - 1) j) / 2) := by
    show (gradientFl fl c.mat).v i j = _
    unfold gradientFl npGradientFl
    rw [if_pos h3]
    simp only
    rw [if_neg (by omega), if_neg (by show ¬ i = c.size - 1; omega)]
  have e2 : (firstderiv c).v i j = (c.mat.v (i + 1) j - c.mat.v (i - 1) j) / 2 := by
    unfold firstderiv gradient npGradient
    rw [if_pos h3]
    simp only
    rw [if_neg (by omega), if_neg (by show ¬ i = c.size - 1; omega)]
  rw [e1, e2]
  exact two_terms hf _ (by norm_num)

/-- **C130 (norms).** A row norm computed with rounded operations. -/
theorem rowNormTo_rel (hf : Rounding ε fl) {a : NMat} (hk : 0 < a.k) {i : Nat} {z : ℝ} (h : RowNormTo fl a i z) : RelErr ε (a.k + 2) (rowNorm a i) z := by
  have e0 := hf.nonneg
  have e1 := hf.lt_one
  obtain ⟨s, hs, rfl⟩ := h
  have r1 : List.Forall₂ (RelErr ε 1) ((List.range a.k).map fun j => a.v i j ^ 2) ((List.range a.k).map fun j => fl (a.v i j * a.v i j)) := by
    rw [List.forall₂_map_left_iff, List.forall₂_map_right_iff, List.forall₂_same]
    intro j _
    have := fl_rel hf (mul_self_nonneg (a.v i j))
    rwa [← sq] at this ⊢
  have hsum := RelErr.sum r1
  have r2 := sums_rel hf hs (by
    intro x hx
    obtain ⟨j, -, rfl⟩ := List.mem_map.1 hx
    exact fl_nonneg hf (mul_self_nonneg _))
  rw [List.length_map, List.length_range] at r2
  have r3 := hsum.trans hf r2
  have eS : ((List.range a.k).map fun j => a.v i j ^ 2).sum = rowNorm a i ^ 2 := by
    unfold rowNorm
    rw [Real.sq_sqrt (Finset.sum_nonneg fun _ _ => sq_nonneg _), ← List.sum_toFinset _ List.nodup_range, List.toFinset_range]
  rw [eS] at r3
  have g0 : 0 ≤ rowNorm a i := Real.sqrt_nonneg _
  have sp := r3.nonneg hf (sq_nonneg _)
  have r4 : RelErr ε 2 (√ s ^ 2) (fl (√ s) ^ 2) := sq_rel hf (hf.rel _)
  rw [Real.sq_sqrt sp] at r4
  have r := r3.trans hf r4
  rw [show 1 + (a.k - 1) + 2 = a.k + 2 by omega] at r
  have z0 := fl_nonneg hf (Real.sqrt_nonneg s)
  constructor
  · refine abs_le_of_sq_le_sq' ?_ z0 |>.2
    refine le_trans ?_ r.1
    rw [mul_pow, ← pow_mul]
    exact mul_le_mul_of_nonneg_right (pow_le_pow_of_le_one (by linarith) (by linarith) (by omega)) (sq_nonneg _)
  · refine abs_le_of_sq_le_sq' ?_ (mul_nonneg (pow_nonneg (by linarith) _) g0) |>.2
    refine r.2.trans ?_
    rw [mul_pow, ← pow_mul]
    exact mul_le_mul_of_nonneg_right (pow_le_pow_right₀ (by linarith) (by omega)) (sq_nonneg _)

theorem rowNorm_diff {a b : NMat} (hm : a.m = b.m) (hk : a.k = b.k) {i : Nat} (hi : i < b.m) :
    |rowNorm a i - rowNorm b i| ≤ √ (∑ j ∈ Finset.range b.k, (a.v i j - b.v i j) ^ 2) := by
  rw [rowNorm_eq (n := b.k) hk.le (hm ▸ hi), rowNorm_eq (n := b.k) le_rfl hi]
  refine (abs_norm_sub_norm_le _ _).trans (le_of_eq ?_)
  have := rowNorm_eq (a := ⟨b.m, b.k, fun i j => a.v i j - b.v i j⟩) (n := b.k) (i := i) le_rfl hi
  unfold rowNorm at this
  rw [this]
  congr 1
  ext j
  have hat : ∀ (x : NMat), i < x.m → (j : Nat) < x.k → rowVec b.k x.rows i j = x.v i j := by
    intro x h1 h2
    rw [rowVec_apply]
    unfold at2 NMat.rows
    simp [h1, h2]
  rw [PiLp.sub_apply, hat a (by rw [hm]; exact hi) (by rw [hk]; exact j.2), hat b hi j.2, hat ⟨b.m, b.k, fun i j => a.v i j - b.v i j⟩ hi j.2]

theorem sqrt_sum_le {k : Nat} {u : Nat → ℝ} {δ : ℝ} (hδ : 0 ≤ δ) (h : ∀ j, j < k → |u j| ≤ δ) : √ (∑ j ∈ Finset.range k, u j ^ 2) ≤ k * δ := by
  rw [Real.sqrt_le_left (by positivity)]
  have : ∑ j ∈ Finset.range k, u j ^ 2 ≤ ∑ j ∈ Finset.range k, δ ^ 2 := by
    refine Finset.sum_le_sum fun j hj => ?_
    rw [← sq_abs]
    exact pow_le_pow_left₀ (abs_nonneg _) (h j (Finset.mem_range.1 hj)) 2
  refine this.trans ?_
  rw [Finset.sum_const, Finset.card_range, nsmul_eq_mul, mul_pow]
  refine mul_le_mul_of_nonneg_right ?_ (sq_nonneg _)
  rcases Nat.eq_zero_or_pos k with rfl | hk
  · norm_num
  · have : (1 : ℝ) ≤ k := by exact_mod_cast hk
    nlinarith

theorem sqrt_sum_rel {k : Nat} {u w : Nat → ℝ} {δ : ℝ} (hδ : 0 ≤ δ) (h : ∀ j, j < k → |u j| ≤ δ * |w j|) :
    √ (∑ j ∈ Finset.range k, u j ^ 2) ≤ δ * √ (∑ j ∈ Finset.range k, w j ^ 2) := by
  rw [Real.sqrt_le_left (by positivity), mul_pow, Real.sq_sqrt (Finset.sum_nonneg fun _ _ => sq_nonneg _), Finset.mul_sum]
  refine Finset.sum_le_sum fun j hj => ?_
  rw [← sq_abs, ← sq_abs (w j), ← mul_pow]
  exact pow_le_pow_left₀ (abs_nonneg _) (h j (Finset.mem_range.1 hj)) 2

/-- **C130 (speed).** The speed computed with rounded operations: between the ends its relative error is at most `(2 n + 10) ε`; at all points the error is at most
`(2 n + 4) ε` times the speed plus `56 n ε B`, where `B` bounds the coordinates. -/
theorem C130_speed (hf : Rounding ε fl) (hc : WF c) (h2 : 2 ≤ c.size) (hε : 2 * ((c.ndim + 2 : ℕ) * ε) ≤ 1) {i : Nat} (hi : i < c.size) {z : ℝ}
    (hz : RowNormTo fl (derivFl fl c 1) i z) :
    (1 ≤ i → i + 1 < c.size → |z - rowNorm (firstderiv c) i| ≤ (2 * c.ndim + 10) * ε * rowNorm (firstderiv c) i) ∧
    ∀ B : ℝ, (∀ i j, i < c.size → j < c.ndim → |at2 c.rows i j| ≤ B) →
      |z - rowNorm (firstderiv c) i| ≤ (2 * c.ndim + 4) * ε * rowNorm (firstderiv c) i + 56 * c.ndim * ε * B := by
  have e0 := hf.nonneg
  have e1 := hf.lt_one
  have hn : 0 < c.ndim := by have := hc.two_le; show 0 < c.ncols; omega
  have dm : (derivFl fl c 1).m = (firstderiv c).m := by
    show (gradientFl fl c.mat).m = (gradient c.mat).m
    unfold gradientFl gradient; split_ifs <;> rfl
  have dk : (derivFl fl c 1).k = (firstderiv c).k := by
    show (gradientFl fl c.mat).k = (gradient c.mat).k
    unfold gradientFl gradient; split_ifs <;> rfl
  have k1 : (firstderiv c).k = c.ndim := firstderiv_k h2
  have r := rowNormTo_rel hf (by rw [dk, k1]; exact hn) hz
  rw [dk, k1] at r
  have G0 : 0 ≤ rowNorm (derivFl fl c 1) i := Real.sqrt_nonneg _
  have g0 : 0 ≤ rowNorm (firstderiv c) i := Real.sqrt_nonneg _
  have a1 := rel_simple hf r G0 hε
  push_cast at a1 hε
  have hi' : i < (firstderiv c).m := by rw [(shapes_m c).1]; exact hi
  have a2 := rowNorm_diff dm dk hi'
  rw [k1] at a2
  have tri := abs_sub_le z (rowNorm (derivFl fl c 1) i) (rowNorm (firstderiv c) i)
  generalize rowNorm (derivFl fl c 1) i = G at *
  constructor
  · intro hi1 hi2
    have b := sqrt_sum_rel (k := c.ndim) (u := fun j => (derivFl fl c 1).v i j - (firstderiv c).v i j) (w := fun j => (firstderiv c).v i j) (δ := 3 * ε)
      (by linarith) (fun j _ => C130_inside hf hi1 hi2 j)
    have e : √ (∑ j ∈ Finset.range c.ndim, (firstderiv c).v i j ^ 2) = rowNorm (firstderiv c) i := by unfold rowNorm; rw [k1]
    rw [e] at b
    have b2 := a2.trans b
    generalize rowNorm (firstderiv c) i = g at *
    have hG : G ≤ g + 3 * ε * g := by have := (abs_le.1 b2).2; linarith
    have n0 : (0 : ℝ) ≤ (c.ndim : ℝ) := Nat.cast_nonneg _
    have m1 : 2 * ((c.ndim : ℝ) + 2) * ε * G ≤ 2 * ((c.ndim : ℝ) + 2) * ε * (g + 3 * ε * g) := mul_le_mul_of_nonneg_left hG (by positivity)
    have m2 : 2 * (((c.ndim : ℝ) + 2) * ε) * (3 * ε * g) ≤ 1 * (3 * ε * g) := mul_le_mul_of_nonneg_right hε (by positivity)
    linarith
  · intro B hB
    have hB0 : 0 ≤ B := (abs_nonneg _).trans (hB i 0 hi hn)
    have n1 := (gradientFl_near hf (mat_le hB) hB0).2.2 i
    have b := sqrt_sum_le (k := c.ndim) (u := fun j => (derivFl fl c 1).v i j - (firstderiv c).v i j) (δ := 28 * ε * B) (by positivity)
      (fun j hj => n1 j hi' (by show j < (firstderiv c).k; rw [k1]; exact hj))
    have b2 := a2.trans b
    generalize rowNorm (firstderiv c) i = g at *
    have hG : G ≤ g + c.ndim * (28 * ε * B) := by have := (abs_le.1 b2).2; linarith
    have n0 : (0 : ℝ) ≤ (c.ndim : ℝ) := Nat.cast_nonneg _
    have m1 : 2 * ((c.ndim : ℝ) + 2) * ε * G ≤ 2 * ((c.ndim : ℝ) + 2) * ε * (g + c.ndim * (28 * ε * B)) := mul_le_mul_of_nonneg_left hG (by positivity)
    have m2 : 2 * (((c.ndim : ℝ) + 2) * ε) * (c.ndim * (28 * ε * B)) ≤ 1 * (c.ndim * (28 * ε * B)) := mul_le_mul_of_nonneg_right hε (by positivity)
    linarith

/-- **C130 (unit vectors).** Rows of an array divided by their computed norms, as in `frenet1`, `frenet2` and `frenet3`: if the computed norm is not close to 0, every coordinate has a
relative error of at most `4 (n + 3) ε`, and the norm of the row differs from 1 by at most that. -/
theorem C130_unit (hf : Rounding ε fl) {a : NMat} (hk : 0 < a.k) (hε : 4 * ((a.k + 3 : ℕ) * ε) ≤ 1) {i : Nat} {z : ℝ} (hz : RowNormTo fl a i z)
    (hcl : closeK z 0 = false) :
    (∀ j, |unitFl fl a z i j - a.v i j / rowNorm a i| ≤ 4 * (a.k + 3) * ε * |a.v i j / rowNorm a i|) ∧
    |√ (∑ j ∈ Finset.range a.k, unitFl fl a z i j ^ 2) - 1| ≤ 4 * (a.k + 3) * ε := by
  have e0 := hf.nonneg
  have e1 := hf.lt_one
  have n0 : (0 : ℝ) ≤ (a.k : ℝ) := Nat.cast_nonneg _
  push_cast at hε
  have r := rowNormTo_rel hf hk hz
  have g0 : 0 ≤ rowNorm a i := Real.sqrt_nonneg _
  have a1 := rel_simple hf r g0 (by push_cast; nlinarith)
  push_cast at a1
  have z0 : 0 ≤ z := r.nonneg hf g0
  have zp : 0 < z := by
    refine lt_of_le_of_ne z0 ?_
    rintro rfl
    simp [closeK, atol] at hcl
  have gp : 0 < rowNorm a i := by
    refine lt_of_le_of_ne g0 fun h => ?_
    rw [← h] at a1
    simp at a1
    linarith
  have eN : √ (∑ j ∈ Finset.range a.k, (a.v i j / rowNorm a i) ^ 2) = 1 := by
    simp only [div_pow]
    rw [← Finset.sum_div, Real.sqrt_div' _ (sq_nonneg _), Real.sqrt_sq g0]
    exact div_self gp.ne'
  generalize hg : rowNorm a i = g at *
  have coord : ∀ j, |unitFl fl a z i j - a.v i j / g| ≤ 4 * (a.k + 3) * ε * |a.v i j / g| := by
    intro j
    unfold unitFl
    rw [hcl]
    simp only [Bool.false_eq_true, if_false]
    have h1 := hf.rel (a.v i j / z)
    have hη : 2 * ((a.k : ℝ) + 2) * ε ≤ 1 / 2 := by nlinarith
    have hzl : g / 2 ≤ z := by
      have := (abs_le.1 a1).1
      nlinarith
    have e : a.v i j / z - a.v i j / g = (a.v i j / g) * ((g - z) / z) := by field_simp
    have q : |(g - z) / z| ≤ 4 * ((a.k : ℝ) + 2) * ε := by
      rw [abs_div, abs_of_pos zp, div_le_iff₀ zp, abs_sub_comm]
      refine a1.trans ?_
      have : 0 ≤ ((a.k : ℝ) + 2) * ε := by positivity
      nlinarith
    have d1 : |a.v i j / z - a.v i j / g| ≤ 4 * ((a.k : ℝ) + 2) * ε * |a.v i j / g| := by
      rw [e, abs_mul, mul_comm]
      exact mul_le_mul_of_nonneg_right q (abs_nonneg _)
    have tri := abs_sub_le (fl (a.v i j / z)) (a.v i j / z) (a.v i j / g)
    have m : |a.v i j / z| ≤ |a.v i j / g| + |a.v i j / z - a.v i j / g| := by
      have := abs_add_le (a.v i j / g) (a.v i j / z - a.v i j / g)
      rwa [show a.v i j / g + (a.v i j / z - a.v i j / g) = a.v i j / z by ring] at this
    generalize |a.v i j / g| = X at *
    have X0 : 0 ≤ X := by
      by_contra hX
      have : 4 * ((a.k : ℝ) + 2) * ε * X ≤ 0 := mul_nonpos_of_nonneg_of_nonpos (by positivity) (by linarith)
      have p := abs_nonneg (a.v i j / z)
      linarith
    have m1 := mul_le_mul_of_nonneg_left m e0
    have m2 := mul_le_mul_of_nonneg_left d1 e0
    have m3 : ε * (4 * ((a.k : ℝ) + 2) * ε * X) ≤ ε * X := by
      refine mul_le_mul_of_nonneg_left ?_ e0
      have : 4 * ((a.k : ℝ) + 2) * ε ≤ 1 := by nlinarith
      nlinarith
    have m4 : 0 ≤ ε * X := mul_nonneg e0 X0
    linarith
  refine ⟨coord, ?_⟩
  have b := sqrt_sum_rel (k := a.k) (u := fun j => unitFl fl a z i j - a.v i j / g) (w := fun j => a.v i j / g) (δ := 4 * (a.k + 3) * ε)
    (by positivity) (fun j _ => coord j)
  rw [eN, mul_one] at b
  have d := rowNorm_diff (a := ⟨1, a.k, fun _ j => unitFl fl a z i j⟩) (b := ⟨1, a.k, fun _ j => a.v i j / g⟩) rfl rfl (i := 0) (by norm_num)
  unfold rowNorm at d
  simp only [eN] at d
  exact d.trans b

/-- **C130 (sampled curves).** Discretization and rounding together: the points of `c'` are those of a curve `g` for the parameters `o`, `o + h`, ..., with an error of at most `δ` per
coordinate. The first and second derivative computed with rounded operations are `h` and `h²` times those of `g`, up to the errors of the difference quotients and of rounding. -/
theorem C130_sampled (hf : Rounding ε fl) (hε : 1000 * ε ≤ 1) {n : Nat} {g d e : ℝ → EuclideanSpace ℝ (Fin n)} {a b o h M : ℝ} (hc : WF c) (h3 : 3 ≤ c.size)
    (hs : SampledAt g a b o h c) (h1 : DerivOn a b g d) (h2 : DerivOn a b d e) (hl : LipOn a b M e) (hM : 0 ≤ M) {c' : Curve ℝ} {δ B : ℝ}
    (hsz : c'.size = c.size) (hnd : c'.ndim = c.ndim) (hδ : ∀ i j, i < c.size → j < n → |at2 c'.rows i j - at2 c.rows i j| ≤ δ)
    (hB : ∀ i j, i < c.size → j < n → |at2 c'.rows i j| ≤ B) {i : Nat} (hi : i < c.size) (j : Fin n) :
    |(derivFl fl c' 1).v i j - h * d (o + i * h) j| ≤ M * |h| ^ 3 + 4 * δ + 28 * ε * B ∧
    |(derivFl fl c' 2).v i j - h ^ 2 * e (o + i * h) j| ≤ 6 * M * |h| ^ 3 + 16 * δ + 225 * ε * B := by
  have e0 := hf.nonneg
  have hn : c.ncols = n := hs.ndim
  have hB0 : 0 ≤ B := (abs_nonneg _).trans (hB i j hi j.2)
  have hδ0 : 0 ≤ δ := (abs_nonneg _).trans (hδ i j hi j.2)
  have hj : (j : Nat) < c.ndim := by show _ < c.ncols; rw [hn]; exact j.2
  have near := fun k => (derivFl_near hf (c := c) (c' := c') (δ := δ) (B := B) ⟨hsz, hnd, fun i j hi hj => hδ i j hi (hn ▸ hj)⟩ hδ0
    (fun i j hi hj => hB i j (hsz ▸ hi) (by have : j < c'.ndim := hj; rw [hnd] at this; exact hn ▸ this)) hB0 k).1.2.2 i j
    (by rw [derivEx_m]; exact hi) (by rw [derivEx_k (by omega)]; exact hj)
  have coord : ∀ (x y : EuclideanSpace ℝ (Fin n)), |x j - y j| ≤ ‖x - y‖ := by
    intro x y
    have := PiLp.norm_apply_le (x - y) j
    rwa [PiLp.sub_apply, Real.norm_eq_abs] at this
  have hat : ∀ (x : NMat), i < x.m → (j : Nat) < x.k → rowVec n x.rows i j = x.v i j := by
    intro x h1 h2
    rw [rowVec_apply]
    unfold at2 NMat.rows
    simp [h1, h2]
  have k1 : (firstderiv c).k = c.ndim := derivEx_k (c := c) (by omega) 1
  have k2 : (secondderiv c).k = c.ndim := derivEx_k (c := c) (by omega) 2
  have t1 := (coord _ _).trans (C115_first hc h3 hs h1 h2 hl hi).1
  have t2 := (coord _ _).trans (C115_second hc h3 hs h1 h2 hl hM hi)
  rw [hat _ (by rw [(shapes_m c).1]; exact hi) (by rw [k1]; exact hj), PiLp.smul_apply, smul_eq_mul] at t1
  rw [hat _ (by rw [(shapes_m c).2.1]; exact hi) (by rw [k2]; exact hj), PiLp.smul_apply, smul_eq_mul] at t2
  have n1 : |(derivFl fl c' 1).v i j - (firstderiv c).v i j| ≤ _ := near 1
  have n2 : |(derivFl fl c' 2).v i j - (secondderiv c).v i j| ≤ _ := near 2
  constructor
  · refine (abs_sub_le _ _ _).trans ((add_le_add n1 t1).trans ?_)
    norm_num
    linarith
  · refine (abs_sub_le _ _ _).trans ((add_le_add n2 t2).trans ?_)
    have : (4 + 28 * ε) ^ 2 - 4 ^ 2 ≤ 225 * ε := by nlinarith
    have := mul_le_mul_of_nonneg_right this hB0
    linarith

/-- A curve with one constant coordinate, a binary64 number. -/
noncomputable def constX : Curve ℝ := ⟨[[1 + 2⁻¹ ^ 52, 0], [1 + 2⁻¹ ^ 52, 1], [1 + 2⁻¹ ^ 52, 2]], 2, none, .float⟩

/-- **C130 fails for relative errors at the ends.** In binary64 the derivative of a constant coordinate at the first point is not 0. -/
theorem C130_edge_fails : (∀ i j, i < 3 → j < 2 → rnd (at2 constX.rows i j) = at2 constX.rows i j) ∧ (firstderiv constX).v 0 0 = 0 ∧
    (derivFl rnd constX 1).v 0 0 = -2⁻¹ ^ 53 := by
  have r1 : rnd (1 + 2⁻¹ ^ 52) = 1 + 2⁻¹ ^ 52 := by
    have := rnd_rep (2 ^ 52 + 1) (-52) (by norm_num)
    norm_num [zpow_neg] at this ⊢
    exact this
  have r2 : rnd 2 = 2 := by have := rnd_int 2 (by norm_num); norm_num at this ⊢; exact this
  have r3 : rnd 1 = 1 := by have := rnd_int 1 (by norm_num); norm_num at this ⊢; exact this
  refine ⟨?_, ?_, ?_⟩
  · intro i j hi hj
    have : i = 0 ∨ i = 1 ∨ i = 2 := by omega
    have : j = 0 ∨ j = 1 := by omega
    rcases ‹i = 0 ∨ _› with rfl | rfl | rfl <;> rcases ‹j = 0 ∨ _› with rfl | rfl <;> first | exact r1 | exact rnd_zero | exact r3 | exact r2
  · simp [firstderiv, gradient, npGradient, Curve.mat, constX]
    ring
  · have q1 : rnd (-1.5 * (1 + 2⁻¹ ^ 52)) = -(3 / 2 + 2⁻¹ ^ 51) := by
      rw [show (-1.5 : ℝ) * (1 + 2⁻¹ ^ 52) = -(1.5 * (1 + 2⁻¹ ^ 52)) by ring, rnd_neg,
        rnd_value 0 (3 * 2 ^ 51 + 2) (by norm_num) (by norm_num) (.inr ⟨by norm_num [zpow_neg, abs_of_neg], ⟨3 * 2 ^ 50 + 1, by norm_num⟩⟩)]
      norm_num [zpow_neg]
    have q2 : rnd (2 * (1 + 2⁻¹ ^ 52)) = 2 * (1 + 2⁻¹ ^ 52) := by
      have := rnd_rep (2 ^ 52 + 1) (-51) (by norm_num)
      norm_num [zpow_neg] at this ⊢
      exact this
    have q3 : rnd (-0.5 * (1 + 2⁻¹ ^ 52)) = -(1 / 2 + 2⁻¹ ^ 53) := by
      have := rnd_rep (-(2 ^ 52 + 1)) (-53) (by norm_num)
      norm_num [zpow_neg] at this ⊢
      exact this
    have q4 : rnd (-(3 / 2 + 2⁻¹ ^ 51) + 2 * (1 + 2⁻¹ ^ 52)) = 1 / 2 := by
      have := rnd_rep 1 (-1) (by norm_num)
      norm_num [zpow_neg] at this ⊢
      exact this
    have q5 : rnd (1 / 2 + -(1 / 2 + 2⁻¹ ^ 53)) = -2⁻¹ ^ 53 := by
      have := rnd_rep (-1) (-53) (by norm_num)
      norm_num [zpow_neg] at this ⊢
      exact this
    have e : (derivFl rnd constX 1).v 0 0 = rnd (rnd (rnd (-1.5 * (1 + 2⁻¹ ^ 52)) + rnd (2 * (1 + 2⁻¹ ^ 52))) + rnd (-0.5 * (1 + 2⁻¹ ^ 52))) := rfl
    rw [e, q1, q2, q3, q4, q5]

/-- Binary64: coordinates up to a million, errors of the first and third derivative. -/
example (h2 : 2 ≤ c.size) (hB : ∀ i j, i < c.size → j < c.ndim → |at2 c.rows i j| ≤ 10 ^ 6) {i j : Nat} (hi : i < c.size) (hj : j < c.ndim) :
    |(derivFl rnd c 1).v i j - (firstderiv c).v i j| ≤ 4 / 10 ^ 9 ∧ |(derivFl rnd c 3).v i j - (thirdderiv c).v i j| ≤ 2 / 10 ^ 7 := by
  obtain ⟨a1, _, a3⟩ := C130_derivs rnd_rounding (by norm_num) h2 hB hi hj
  exact ⟨a1.trans (by norm_num), a3.trans (by norm_num)⟩

/-- Computed norms exist. -/
example (fl : ℝ → ℝ) (a : NMat) (i : Nat) : ∃ z, RowNormTo fl a i z := by
  obtain ⟨s, hs⟩ := sumsTo_exists fl ((List.range a.k).map fun j => fl (a.v i j * a.v i j))
  exact ⟨_, s, hs, rfl⟩

/-- The unit tangent of a segment from the origin to (3, 4) without rounding. -/
example : closeK (rowNorm (firstderiv ⟨[[0, 0], [3, 4]], 2, none, .float⟩) 0) 0 = false := by
  have : rowNorm (firstderiv ⟨[[0, 0], [3, 4]], 2, none, .float⟩) 0 = 5 := by
    simp [rowNorm, firstderiv, gradient, npGradient, Curve.mat, Finset.sum_range_succ]
    rw [show (3 : ℝ) ^ 2 + 4 ^ 2 = 5 ^ 2 by norm_num]
    exact Real.sqrt_sq (by norm_num)
  rw [this]
  norm_num [closeK, atol, rtol]

end

end Verif.Props
