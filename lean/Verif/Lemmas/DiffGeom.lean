import Verif.Model.DiffGeom
import Verif.Spec.DiffGeom
import Verif.Lemmas.ArcLen

/-! Numerical gradients as linear operators; rows of arrays as euclidean vectors. -/
namespace Verif.Model

open Verif Verif.Np Verif.Spec

/-! ### One column -/

/-- Gradient of a column of length `m`. -/
noncomputable def grad1 (m : Nat) (f : Nat → ℝ) (i : Nat) : ℝ :=
  if 3 ≤ m then npGradient 2 m f i else if 2 ≤ m then npGradient 1 m f i else 0

theorem gradient_v (a : NMat) (i j : Nat) : (gradient a).v i j = grad1 a.m (fun i => a.v i j) i := by
  unfold gradient grad1
  split
  · rfl
  · split <;> rfl

@[simp] theorem gradient_m (a : NMat) : (gradient a).m = a.m := by
  unfold gradient
  split
  · rfl
  · split <;> rfl

theorem gradient_k {a : NMat} (h : 2 ≤ a.m) : (gradient a).k = a.k := by
  unfold gradient
  split
  · rfl
  · rfl

theorem gradient_k_one {a : NMat} (h : a.m = 1) : (gradient a).k = 1 := by
  unfold gradient
  rw [if_neg (by omega), if_neg (by omega)]

theorem grad1_congr {m : Nat} {f g : Nat → ℝ} (h : ∀ i, i < m → f i = g i) {i : Nat} (hi : i < m) :
    grad1 m f i = grad1 m g i := by
  unfold grad1 npGradient
  by_cases h3 : 3 ≤ m
  · simp only [if_pos h3]
    rw [h 0 (by omega), h 1 (by omega), h 2 (by omega), h (m - 1) (by omega), h (m - 2) (by omega),
      h (m - 3) (by omega)]
    by_cases h0 : i = 0
    · simp only [if_pos h0]
    · by_cases hm : i = m - 1
      · simp only [if_pos hm]
      · simp only [if_neg h0, if_neg hm]
        rw [h (i + 1) (by omega), h (i - 1) (by omega)]
  · simp only [if_neg h3]
    by_cases h2 : 2 ≤ m
    · simp only [if_pos h2]
      rw [h 0 (by omega), h 1 (by omega), h (m - 1) (by omega), h (m - 2) (by omega)]
      by_cases h0 : i = 0
      · simp only [if_pos h0, if_true]
      · by_cases hm : i = m - 1
        · simp only [if_pos hm, if_true]
        · omega
    · simp only [if_neg h2]

theorem grad1_lin (m : Nat) (f g : Nat → ℝ) (x y : ℝ) (i : Nat) :
    grad1 m (fun i => x * f i + y * g i) i = x * grad1 m f i + y * grad1 m g i := by
  unfold grad1 npGradient
  split_ifs <;> ring

theorem grad1_translate (m : Nat) (f : Nat → ℝ) (w : ℝ) (i : Nat) :
    grad1 m (fun i => f i + w) i = grad1 m f i := by
  unfold grad1 npGradient
  split_ifs <;> ring

theorem grad1_const (m : Nat) (w : ℝ) (i : Nat) : grad1 m (fun _ => w) i = 0 := by
  unfold grad1 npGradient
  split_ifs <;> ring

theorem grad1_line {m : Nat} (h2 : 2 ≤ m) (a b : ℝ) {i : Nat} (hi : i < m) :
    grad1 m (fun i => a + b * i) i = b := by
  unfold grad1 npGradient
  by_cases h3 : 3 ≤ m
  · obtain ⟨n, rfl⟩ : ∃ n, m = n + 3 := ⟨m - 3, by omega⟩
    simp only [if_pos h3, show n + 3 - 1 = n + 2 by omega, show n + 3 - 2 = n + 1 by omega,
      show n + 3 - 3 = n by omega]
    by_cases h0 : i = 0
    · simp only [if_pos h0]; push_cast; norm_num; ring
    · by_cases hm : i = n + 2
      · simp only [if_pos hm, if_neg (show ¬ n + 2 = 0 by omega)]; simp only [hm]; push_cast; norm_num; ring
      · simp only [if_neg h0, if_neg hm]
        obtain ⟨k, rfl⟩ : ∃ k, i = k + 1 := ⟨i - 1, by omega⟩
        simp only [show k + 1 - 1 = k by omega]; push_cast; ring
  · have : m = 2 := by omega
    subst this
    simp only [show ¬ (3 ≤ 2) by omega, if_false]
    by_cases h0 : i = 0
    · simp [h0]
    · have : i = 1 := by omega
      subst this
      simp

theorem grad1_quad {m : Nat} (h3 : 3 ≤ m) (a b c : ℝ) {i : Nat} (hi : i < m) :
    grad1 m (fun i => a + b * i + c * (i : ℝ) ^ 2) i = b + 2 * c * i := by
  unfold grad1 npGradient
  obtain ⟨n, rfl⟩ : ∃ n, m = n + 3 := ⟨m - 3, by omega⟩
  simp only [if_pos h3, show n + 3 - 1 = n + 2 by omega, show n + 3 - 2 = n + 1 by omega,
    show n + 3 - 3 = n by omega]
  by_cases h0 : i = 0
  · simp only [if_pos h0]; subst h0; push_cast; norm_num; ring
  · by_cases hm : i = n + 2
    · simp only [if_pos hm, if_neg (show ¬ n + 2 = 0 by omega)]; simp only [hm]; push_cast; norm_num; ring
    · simp only [if_neg h0, if_neg hm]
      obtain ⟨k, rfl⟩ : ∃ k, i = k + 1 := ⟨i - 1, by omega⟩
      simp only [show k + 1 - 1 = k by omega]; push_cast; ring

theorem grad1_reverse {m : Nat} (f : Nat → ℝ) {i : Nat} (hi : i < m) :
    grad1 m (fun i => f (m - 1 - i)) i = - grad1 m f (m - 1 - i) := by
  unfold grad1 npGradient
  by_cases h3 : 3 ≤ m
  · obtain ⟨n, rfl⟩ : ∃ n, m = n + 3 := ⟨m - 3, by omega⟩
    simp only [if_pos h3]
    by_cases h0 : i = 0
    · subst h0
      have e1 : n + 3 - 1 - 0 = n + 2 := by omega
      have e2 : n + 3 - 1 - 1 = n + 1 := by omega
      have e3 : n + 3 - 1 - 2 = n := by omega
      have e4 : n + 3 - 1 = n + 2 := by omega
      have e5 : n + 3 - 2 = n + 1 := by omega
      have e6 : n + 3 - 3 = n := by omega
      rw [e1, e2, e3, if_pos rfl, if_neg (by omega), if_neg (show ¬ n + 2 = 0 by omega), e4, if_pos rfl,
        if_neg (by omega), e5, e6]
      ring
    · by_cases hm : i = n + 2
      · subst hm
        simp only [if_true, if_neg (show ¬ n + 2 = 0 by omega), show n + 3 - 1 = n + 2 by omega,
          show n + 2 - (n + 2) = 0 by omega, show n + 3 - 2 = n + 1 by omega, show n + 3 - 3 = n by omega,
          show n + 2 - n = 2 by omega, show n + 2 - (n + 1) = 1 by omega,
          show (2 = 1) = False by simp, if_false]
        ring
      · rw [if_neg h0, if_neg (by omega), if_neg (by omega), if_neg (by omega),
          show n + 3 - 1 - (i + 1) = n + 3 - 1 - i - 1 by omega,
          show n + 3 - 1 - (i - 1) = n + 3 - 1 - i + 1 by omega]
        ring
  · simp only [if_neg h3]
    by_cases h2 : 2 ≤ m
    · have : m = 2 := by omega
      subst this
      have : i = 0 ∨ i = 1 := by omega
      rcases this with rfl | rfl <;> simp
    · simp [if_neg h2]

/-! ### Rows of arrays -/

theorem NMat.rows_length (a : NMat) : a.rows.length = a.m := by simp [NMat.rows]

theorem NMat.row_eq (a : NMat) {i : Nat} (hi : i < a.m) :
    a.rows[i]? = some ((List.range a.k).map fun j => a.v i j) := by
  simp [NMat.rows, hi]

theorem at2_lt (a : NMat) {i j : Nat} (hi : i < a.m) (hj : j < a.k) : at2 a.rows i j = a.v i j := by
  unfold at2
  rw [List.getD_eq_getElem?_getD (l := a.rows), a.row_eq hi, Option.getD_some, List.getD_eq_getElem?_getD,
    List.getElem?_map]
  simp [hj]

theorem at2_ge (a : NMat) {i j : Nat} (hi : i < a.m) (hj : ¬ j < a.k) : at2 a.rows i j = 0 := by
  unfold at2
  rw [List.getD_eq_getElem?_getD (l := a.rows), a.row_eq hi, Option.getD_some, List.getD_eq_getElem?_getD,
    List.getElem?_map]
  simp [hj]

theorem rowVec_apply (n : Nat) (rows : List (List ℝ)) (i : Nat) (j : Fin n) : rowVec n rows i j = at2 rows i j := rfl

theorem NMat.rows_congr {a b : NMat} (hm : a.m = b.m) (hk : a.k = b.k)
    (h : ∀ i j, i < a.m → j < a.k → a.v i j = b.v i j) : a.rows = b.rows := by
  unfold NMat.rows
  rw [← hm, ← hk]
  refine List.map_congr_left fun i hi => List.map_congr_left fun j hj => ?_
  exact h i j (List.mem_range.1 hi) (List.mem_range.1 hj)

theorem sum_range_fin {n k : Nat} (h : k ≤ n) (g : Nat → ℝ) (hg : ∀ j, k ≤ j → g j = 0) :
    ∑ j : Fin n, g j = ∑ j ∈ Finset.range k, g j := by
  rw [Fin.sum_univ_eq_sum_range (fun j => g j) n]
  refine (Finset.sum_subset (by intro j; simp only [Finset.mem_range]; omega) ?_).symm
  intro j _ hj
  exact hg j (by simpa using hj)

theorem rowNorm_eq {a : NMat} {n i : Nat} (hk : a.k ≤ n) (hi : i < a.m) : rowNorm a i = ‖rowVec n a.rows i‖ := by
  rw [EuclideanSpace.norm_eq, rowNorm]
  congr 1
  simp only [rowVec_apply, Real.norm_eq_abs, sq_abs]
  rw [sum_range_fin hk (fun j => at2 a.rows i j ^ 2) (by
    intro j hj; beta_reduce; rw [at2_ge a hi (by omega)]; ring)]
  refine Finset.sum_congr rfl fun j hj => ?_
  rw [at2_lt a hi (by simpa using hj)]

theorem dotRow_eq {a b : NMat} {n i : Nat} (hk : a.k ≤ n) (hab : a.k = b.k) (hi : i < a.m) (hi' : i < b.m) :
    dotRow a b i = inner ℝ (rowVec n a.rows i) (rowVec n b.rows i) := by
  rw [PiLp.inner_apply, dotRow]
  simp only [rowVec_apply, RCLike.inner_apply, conj_trivial]
  rw [sum_range_fin hk (fun j => at2 b.rows i j * at2 a.rows i j) (by
    intro j hj; beta_reduce; rw [at2_ge a hi (by omega)]; ring)]
  refine Finset.sum_congr rfl fun j hj => ?_
  have hj' : j < a.k := by simpa using hj
  rw [at2_lt a hi hj', at2_lt b hi' (hab ▸ hj'), mul_comm]

theorem rowVec_unitRows {a : NMat} {n i : Nat} (hi : i < a.m) :
    rowVec n (unitRows a).rows i = (frenetNorm a i)⁻¹ • rowVec n a.rows i := by
  ext j
  rw [PiLp.smul_apply, rowVec_apply, rowVec_apply, smul_eq_mul]
  by_cases hj : j.val < a.k
  · rw [at2_lt _ hi hj, at2_lt (unitRows a) hi hj, ← div_eq_inv_mul]
    rfl
  · rw [at2_ge _ hi hj, at2_ge (unitRows a) hi hj, mul_zero]

theorem rowVec_reject {s e : NMat} {n i : Nat} (hk : s.k ≤ n) (he : s.k = e.k) (hi : i < s.m) (hi' : i < e.m) :
    rowVec n (reject s e).rows i
      = rowVec n s.rows i - inner ℝ (rowVec n s.rows i) (rowVec n e.rows i) • rowVec n e.rows i := by
  rw [← dotRow_eq hk he hi hi']
  ext j
  rw [PiLp.sub_apply, PiLp.smul_apply, rowVec_apply, rowVec_apply, rowVec_apply, smul_eq_mul]
  by_cases hj : j.val < s.k
  · rw [at2_lt _ hi hj, at2_lt _ hi' (he ▸ hj), at2_lt (reject s e) hi hj]
    rfl
  · rw [at2_ge _ hi hj, at2_ge _ hi' (he ▸ hj), at2_ge (reject s e) hi hj, mul_zero, sub_zero]

theorem rowVec_reject2 {s e1 e2 : NMat} {n i : Nat} (hk : s.k ≤ n) (he : s.k = e1.k) (he2 : s.k = e2.k)
    (hi : i < s.m) (hi1 : i < e1.m) (hi2 : i < e2.m) :
    rowVec n (reject2 s e1 e2).rows i
      = rowVec n s.rows i - inner ℝ (rowVec n s.rows i) (rowVec n e1.rows i) • rowVec n e1.rows i
        - inner ℝ (rowVec n s.rows i) (rowVec n e2.rows i) • rowVec n e2.rows i := by
  rw [← dotRow_eq hk he hi hi1, ← dotRow_eq hk he2 hi hi2]
  ext j
  rw [PiLp.sub_apply, PiLp.sub_apply, PiLp.smul_apply, PiLp.smul_apply, rowVec_apply, rowVec_apply, rowVec_apply,
    rowVec_apply, smul_eq_mul, smul_eq_mul]
  by_cases hj : j.val < s.k
  · rw [at2_lt _ hi hj, at2_lt _ hi1 (he ▸ hj), at2_lt _ hi2 (he2 ▸ hj), at2_lt (reject2 s e1 e2) hi hj]
    rfl
  · rw [at2_ge _ hi hj, at2_ge _ hi1 (he ▸ hj), at2_ge _ hi2 (he2 ▸ hj), at2_ge (reject2 s e1 e2) hi hj]
    simp

/-! ### Shapes -/

theorem mat_v (c : Curve ℝ) (i j : Nat) : c.mat.v i j = at2 c.rows i j := rfl

/-- All arrays derived from a curve have one row per point. -/
theorem shapes_m (c : Curve ℝ) : (firstderiv c).m = c.size ∧ (secondderiv c).m = c.size ∧ (thirdderiv c).m = c.size ∧
    (frenet1 c).m = c.size ∧ (normal c).m = c.size ∧ (frenet2 c).m = c.size ∧ (binormal c).m = c.size ∧
    (frenet3 c).m = c.size := by
  have h1 : (firstderiv c).m = c.size := gradient_m _
  have h2 : (secondderiv c).m = c.size := (gradient_m _).trans h1
  have h3 : (thirdderiv c).m = c.size := (gradient_m _).trans h2
  exact ⟨h1, h2, h3, h1, h2, h2, h3, h3⟩

/-- All arrays derived from a curve have the same number of columns. -/
theorem shapes_k (c : Curve ℝ) (hne : 1 ≤ c.size) : (secondderiv c).k = (firstderiv c).k ∧
    (thirdderiv c).k = (firstderiv c).k ∧
    (frenet1 c).k = (firstderiv c).k ∧ (normal c).k = (firstderiv c).k ∧ (frenet2 c).k = (firstderiv c).k ∧
    (binormal c).k = (firstderiv c).k ∧ (frenet3 c).k = (firstderiv c).k := by
  have hm := shapes_m c
  have h1 : (frenet1 c).k = (firstderiv c).k := rfl
  have h2 : (secondderiv c).k = (firstderiv c).k := by
    by_cases h : 2 ≤ c.size
    · exact gradient_k (by rw [hm.1]; exact h)
    · have h' : c.size = 1 := by omega
      have a1 : (secondderiv c).k = 1 := gradient_k_one (by rw [hm.1]; exact h')
      have a2 : (firstderiv c).k = 1 := gradient_k_one h'
      rw [a1, a2]
  have h3 : (thirdderiv c).k = (firstderiv c).k := by
    by_cases h : 2 ≤ c.size
    · exact (gradient_k (by rw [hm.2.1]; exact h)).trans h2
    · have h' : c.size = 1 := by omega
      have a1 : (thirdderiv c).k = 1 := gradient_k_one (by rw [hm.2.1]; exact h')
      have a2 : (firstderiv c).k = 1 := gradient_k_one h'
      rw [a1, a2]
  exact ⟨h2, h3, h1, h2, h2, h3, h3⟩

theorem firstderiv_k {c : Curve ℝ} (h : 2 ≤ c.size) : (firstderiv c).k = c.ncols := gradient_k h

theorem firstderiv_k_le {c : Curve ℝ} (hc : 1 ≤ c.ncols) (hne : 1 ≤ c.size) : (firstderiv c).k ≤ c.ncols := by
  by_cases h : 2 ≤ c.size
  · exact (firstderiv_k h).le
  · have a2 : (firstderiv c).k = 1 := gradient_k_one (show c.size = 1 by omega)
    omega

end Verif.Model
