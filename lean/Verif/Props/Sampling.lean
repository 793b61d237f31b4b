import Verif.Props.Curves
import Verif.Props.Motion
import Verif.Props.Segment
import Mathlib.Analysis.SpecialFunctions.Trigonometric.Bounds
import Mathlib.Analysis.SpecialFunctions.Trigonometric.Sinc

/-!
Lengths, curvature and torsion of sampled circles and helices: C95, C96, C97.
-/
namespace Verif.Props

open Verif Verif.Np Verif.Model Verif.Spec

/-! ## Sampled curves point by point -/

/-- Angle between neighbouring samples. -/
noncomputable def stepOf (a b : ℝ) (n : Nat) : ℝ := (b - a) / ((n : ℝ) - 1)

/-- The `i`-th angle. -/
noncomputable def angleOf (a b : ℝ) (n i : Nat) : ℝ := a + (i : ℝ) * stepOf a b n

theorem angleOf_succ (a b : ℝ) (n i : Nat) : angleOf a b n (i + 1) = angleOf a b n i + stepOf a b n := by
  unfold angleOf; push_cast; ring

theorem angleOf_pred (a b : ℝ) (n : Nat) {i : Nat} (h : 1 ≤ i) : angleOf a b n (i - 1) = angleOf a b n i - stepOf a b n := by
  obtain ⟨k, rfl⟩ : ∃ k, i = k + 1 := ⟨i - 1, by omega⟩
  rw [Nat.add_sub_cancel, angleOf_succ]; ring

theorem linspaceR_getD {a b : ℝ} {n i : Nat} (h : i < n) (f : ℝ → ℝ) :
    ((linspaceR a b n).map f).getD i 0 = f (angleOf a b n i) := by
  rw [List.getD_eq_getElem?_getD, List.getElem?_map, linspaceR_get h]
  rfl

theorem arc_eq (a b r c : ℝ) (n : Nat) (hn : 1 ≤ n) : arc a b n r c = .ok ⟨(List.range n).map fun i =>
    [Real.cos (angleOf a b n i) * r + c, Real.sin (angleOf a b n i) * r + c], 2, some (linspaceR a b n), .float⟩ := by
  unfold arc
  simp only [linspaceE_eq, bind, Except.bind]
  rw [coordCurve_eq _ _ n (by simp) hn (by simp [linspaceR_length]) (linspaceR_length _ _ _)]
  congr 2
  apply List.map_congr_left
  intro i hi
  rw [List.mem_range] at hi
  simp only [List.map_cons, List.map_nil, linspaceR_getD hi]

theorem helix_eq (a b p q : ℝ) (n : Nat) (hn : 1 ≤ n) : helix a b n p q = .ok ⟨(List.range n).map fun i =>
    [Real.sin (angleOf a b n i) * p, Real.cos (angleOf a b n i) * p, angleOf a b n i * q], 3, some (linspaceR a b n), .float⟩ := by
  unfold helix
  simp only [linspaceE_eq, bind, Except.bind]
  rw [coordCurve_eq _ _ n (by simp) hn (by simp [linspaceR_length]) (linspaceR_length _ _ _)]
  congr 2
  apply List.map_congr_left
  intro i hi
  rw [List.mem_range] at hi
  simp only [List.map_cons, List.map_nil, linspaceR_getD hi]

/-! ## C95: lengths -/

theorem pathLen_equal (k : Nat) (d : ℝ) (f : Nat → List ℝ) : ∀ n, (∀ i, i + 1 < n → gap k (f i) (f (i + 1)) = d) → 1 ≤ n →
    pathLen k ((List.range n).map f) = ((n : ℝ) - 1) * d := by
  intro n
  induction n generalizing f with
  | zero => intro _ h; omega
  | succ n ih =>
    intro h _
    rcases Nat.eq_zero_or_pos n with rfl | hn
    · simp [pathLen]
    · have e := ih (fun i => f (i + 1)) (fun i hi => h (i + 1) (by omega)) hn
      rw [List.range_succ_eq_map, List.map_cons, List.map_map]
      obtain ⟨m, rfl⟩ : ∃ m, n = m + 1 := ⟨n - 1, by omega⟩
      rw [List.range_succ_eq_map, List.map_cons, List.map_map] at e ⊢
      rw [show ((List.map ((f ∘ Nat.succ) ∘ Nat.succ) (List.range m))) = List.map ((fun i => f (i + 1)) ∘ Nat.succ) (List.range m) from rfl]
      rw [show pathLen k (f 0 :: (f ∘ Nat.succ) 0 :: List.map ((fun i => f (i + 1)) ∘ Nat.succ) (List.range m)) =
        gap k (f 0) (f 1) + pathLen k ((fun i => f (i + 1)) 0 :: List.map ((fun i => f (i + 1)) ∘ Nat.succ) (List.range m)) from rfl]
      rw [e, h 0 (by omega)]
      push_cast; ring

theorem cos_step (x d : ℝ) : Real.cos (x + d) - Real.cos x = -2 * Real.sin (x + d / 2) * Real.sin (d / 2) := by
  rw [Real.cos_sub_cos]; congr 2 <;> [skip; congr 1] <;> ring_nf

theorem sin_step (x d : ℝ) : Real.sin (x + d) - Real.sin x = 2 * Real.sin (d / 2) * Real.cos (x + d / 2) := by
  rw [Real.sin_sub_sin]; congr 2 <;> [skip; congr 1] <;> ring_nf

theorem arc_gap (x d r c : ℝ) :
    gap 2 [Real.cos x * r + c, Real.sin x * r + c] [Real.cos (x + d) * r + c, Real.sin (x + d) * r + c] = 2 * |r| * |Real.sin (d / 2)| := by
  rw [gap_eq_sqrt]
  have h1 := cos_step x d
  have h2 := sin_step x d
  rw [show 2 * |r| * |Real.sin (d / 2)| = |2 * r * Real.sin (d / 2)| by rw [abs_mul, abs_mul]; norm_num, ← Real.sqrt_sq_eq_abs]
  congr 1
  simp [Fin.sum_univ_two]
  have := Real.sin_sq_add_cos_sq (x + d / 2)
  rw [← sub_mul, ← sub_mul, h1, h2]
  linear_combination 4 * Real.sin (d / 2) ^ 2 * r ^ 2 * this

theorem helix_gap (x d p q : ℝ) :
    gap 3 [Real.sin x * p, Real.cos x * p, x * q] [Real.sin (x + d) * p, Real.cos (x + d) * p, (x + d) * q] =
      √ ((2 * p * Real.sin (d / 2)) ^ 2 + (d * q) ^ 2) := by
  rw [gap_eq_sqrt]
  have h1 := cos_step x d
  have h2 := sin_step x d
  congr 1
  simp [Fin.sum_univ_three]
  have := Real.sin_sq_add_cos_sq (x + d / 2)
  rw [← sub_mul, ← sub_mul, ← sub_mul, h1, h2]
  linear_combination 4 * Real.sin (d / 2) ^ 2 * p ^ 2 * this

theorem sin_eq_sinc (x : ℝ) : Real.sin x = x * Real.sinc x := by
  by_cases h : x = 0
  · simp [h]
  · rw [Real.sinc_of_ne_zero h]; field_simp

theorem range_get {n i : Nat} {f : Nat → List ℝ} {x : List ℝ} (h : ((List.range n).map f)[i]? = some x) : i < n ∧ x = f i := by
  rw [List.getElem?_map] at h
  by_cases hi : i < n
  · rw [List.getElem?_range hi] at h
    simp only [Option.map_some, Option.some.injEq] at h
    exact ⟨hi, h.symm⟩
  · rw [List.getElem?_eq_none (by simpa using hi)] at h
    simp at h

/-- **C95 (circle).** The polygon through the samples of an arc is equilateral, and its length is
`2|r|(n - 1)|sin(Δ / (2(n - 1)))|`, which is at most the length `|r||Δ|` of the arc. -/
theorem C95_arc (a b r c junk : ℝ) (n : Nat) (hn : 2 ≤ n) :
    ∃ C, arc a b n r c = .ok C ∧
      (∀ (i : Nat) p q, C.rows[i]? = some p → C.rows[i + 1]? = some q → gap 2 p q = 2 * |r| * |Real.sin ((b - a) / (2 * ((n : ℝ) - 1)))|) ∧
      arclen junk C = ((n : ℝ) - 1) * (2 * |r| * |Real.sin ((b - a) / (2 * ((n : ℝ) - 1)))|) ∧
      arclen junk C ≤ |r| * |b - a| := by
  have h1 : (0 : ℝ) < (n : ℝ) - 1 := by
    have : (2 : ℝ) ≤ n := by exact_mod_cast hn
    linarith
  have hs : stepOf a b n / 2 = (b - a) / (2 * ((n : ℝ) - 1)) := by unfold stepOf; field_simp
  have hlen : ∀ junk, arclen junk (⟨(List.range n).map fun i =>
    [Real.cos (angleOf a b n i) * r + c, Real.sin (angleOf a b n i) * r + c], 2, some (linspaceR a b n), .float⟩ : Curve ℝ) =
      ((n : ℝ) - 1) * (2 * |r| * |Real.sin ((b - a) / (2 * ((n : ℝ) - 1)))|) := by
    intro junk
    rw [arclen_eq (by intro row hrow; simp only [List.mem_map] at hrow; obtain ⟨i, _, rfl⟩ := hrow; rfl)
      (by simp only [ne_eq, List.map_eq_nil_iff, List.range_eq_nil]; omega)]
    refine pathLen_equal 2 _ _ n ?_ (by omega)
    intro i _
    rw [angleOf_succ, arc_gap, hs]
  refine ⟨_, arc_eq a b r c n (by omega), ?_, hlen junk, ?_⟩
  · intro i p q hp hq
    obtain ⟨_, rfl⟩ := range_get hp
    obtain ⟨_, rfl⟩ := range_get hq
    rw [angleOf_succ, arc_gap, hs]
  · rw [hlen]
    have : |Real.sin ((b - a) / (2 * ((n : ℝ) - 1)))| ≤ |b - a| / (2 * ((n : ℝ) - 1)) := by
      have h := Real.abs_sin_le_abs (x := (b - a) / (2 * ((n : ℝ) - 1)))
      rwa [abs_div, abs_of_pos (show 0 < 2 * ((n : ℝ) - 1) by linarith)] at h
    calc ((n : ℝ) - 1) * (2 * |r| * |Real.sin ((b - a) / (2 * ((n : ℝ) - 1)))|)
        ≤ ((n : ℝ) - 1) * (2 * |r| * (|b - a| / (2 * ((n : ℝ) - 1)))) := by gcongr
      _ = |r| * |b - a| := by field_simp

theorem step_tendsto (d : ℝ) : Filter.Tendsto (fun n : Nat => d / (2 * ((n : ℝ) - 1))) Filter.atTop (nhds 0) := by
  apply Filter.Tendsto.div_atTop tendsto_const_nhds
  apply Filter.Tendsto.const_mul_atTop (by norm_num)
  exact Filter.tendsto_atTop_add_const_right _ _ tendsto_natCast_atTop_atTop

theorem sinc_tendsto (d : ℝ) : Filter.Tendsto (fun n : Nat => Real.sinc (d / (2 * ((n : ℝ) - 1)))) Filter.atTop (nhds 1) := by
  have := (Real.continuous_sinc.tendsto 0).comp (step_tendsto d)
  rwa [Real.sinc_zero] at this

/-- **C95 (circle, refinement).** With ever more samples the length of the polygon tends to that of the arc. -/
theorem C95_arc_limit (a b r c junk : ℝ) :
    ∃ L : Nat → ℝ, (∀ n : Nat, 2 ≤ n → ∃ C, arc a b n r c = .ok C ∧ arclen junk C = L n) ∧
      Filter.Tendsto L Filter.atTop (nhds (|r| * |b - a|)) := by
  refine ⟨fun n => ((n : ℝ) - 1) * (2 * |r| * |Real.sin ((b - a) / (2 * ((n : ℝ) - 1)))|), ?_, ?_⟩
  · intro n hn
    obtain ⟨C, h1, _, h2, _⟩ := C95_arc a b r c junk n hn
    exact ⟨C, h1, h2⟩
  · have h := (sinc_tendsto (b - a)).abs.const_mul (|r| * |b - a|)
    rw [abs_one, mul_one] at h
    refine h.congr' ?_
    filter_upwards [Filter.eventually_ge_atTop 2] with n hn
    have h1 : (0 : ℝ) < (n : ℝ) - 1 := by
      have : (2 : ℝ) ≤ n := by exact_mod_cast hn
      linarith
    rw [sin_eq_sinc ((b - a) / (2 * ((n : ℝ) - 1))), abs_mul, abs_div, abs_of_pos (show 0 < 2 * ((n : ℝ) - 1) by linarith)]
    field_simp

theorem helix_len (a b p q junk : ℝ) (n : Nat) (hn : 2 ≤ n) :
    arclen junk (⟨(List.range n).map fun i =>
      [Real.sin (angleOf a b n i) * p, Real.cos (angleOf a b n i) * p, angleOf a b n i * q], 3, some (linspaceR a b n), .float⟩ : Curve ℝ) =
      |b - a| * √ ((p * Real.sinc ((b - a) / (2 * ((n : ℝ) - 1)))) ^ 2 + q ^ 2) := by
  have h1 : (0 : ℝ) < (n : ℝ) - 1 := by
    have : (2 : ℝ) ≤ n := by exact_mod_cast hn
    linarith
  have hs : stepOf a b n / 2 = (b - a) / (2 * ((n : ℝ) - 1)) := by unfold stepOf; field_simp
  rw [arclen_eq (by intro row hrow; simp only [List.mem_map] at hrow; obtain ⟨i, _, rfl⟩ := hrow; rfl)
    (by simp only [ne_eq, List.map_eq_nil_iff, List.range_eq_nil]; omega)]
  rw [pathLen_equal 3 (√ ((2 * p * Real.sin (stepOf a b n / 2)) ^ 2 + (stepOf a b n * q) ^ 2)) _ n ?_ (by omega)]
  · rw [sin_eq_sinc, hs]
    rw [show (2 * p * ((b - a) / (2 * ((n : ℝ) - 1)) * Real.sinc ((b - a) / (2 * ((n : ℝ) - 1))))) ^ 2 + (stepOf a b n * q) ^ 2 =
      ((b - a) / ((n : ℝ) - 1)) ^ 2 * ((p * Real.sinc ((b - a) / (2 * ((n : ℝ) - 1)))) ^ 2 + q ^ 2) by unfold stepOf; field_simp,
      Real.sqrt_mul (sq_nonneg _), Real.sqrt_sq_eq_abs, abs_div, abs_of_pos h1]
    field_simp
  · intro i _
    rw [angleOf_succ, helix_gap]

/-- **C95 (helix).** The polygon through the samples of a helix is equilateral, not longer than the helix, and its length
tends to that of the helix with ever more samples. -/
theorem C95_helix (a b p q junk : ℝ) :
    (∀ n : Nat, 2 ≤ n → ∃ C, helix a b n p q = .ok C ∧
      (∀ (i : Nat) u v, C.rows[i]? = some u → C.rows[i + 1]? = some v →
        gap 3 u v = √ ((2 * p * Real.sin ((b - a) / (2 * ((n : ℝ) - 1)))) ^ 2 + ((b - a) / ((n : ℝ) - 1) * q) ^ 2)) ∧
      arclen junk C ≤ √ (p ^ 2 + q ^ 2) * |b - a|) ∧
    ∃ L : Nat → ℝ, (∀ n : Nat, 2 ≤ n → ∃ C, helix a b n p q = .ok C ∧ arclen junk C = L n) ∧
      Filter.Tendsto L Filter.atTop (nhds (√ (p ^ 2 + q ^ 2) * |b - a|)) := by
  constructor
  · intro n hn
    refine ⟨_, helix_eq a b p q n (by omega), ?_, ?_⟩
    · intro i u v hu hv
      obtain ⟨_, rfl⟩ := range_get hu
      obtain ⟨_, rfl⟩ := range_get hv
      have h1 : (0 : ℝ) < (n : ℝ) - 1 := by
        have : (2 : ℝ) ≤ n := by exact_mod_cast hn
        linarith
      have hs : stepOf a b n / 2 = (b - a) / (2 * ((n : ℝ) - 1)) := by unfold stepOf; field_simp
      rw [angleOf_succ, helix_gap, hs]
      rfl
    · rw [helix_len a b p q junk n hn, mul_comm]
      have h := Real.abs_sinc_le_one ((b - a) / (2 * ((n : ℝ) - 1)))
      have h' : Real.sinc ((b - a) / (2 * ((n : ℝ) - 1))) ^ 2 ≤ 1 := by rw [← sq_abs]; nlinarith [abs_nonneg (Real.sinc ((b - a) / (2 * ((n : ℝ) - 1))))]
      apply mul_le_mul_of_nonneg_right _ (abs_nonneg _)
      apply Real.sqrt_le_sqrt
      rw [mul_pow]
      nlinarith [sq_nonneg p]
  · refine ⟨fun n => |b - a| * √ ((p * Real.sinc ((b - a) / (2 * ((n : ℝ) - 1)))) ^ 2 + q ^ 2), ?_, ?_⟩
    · intro n hn
      exact ⟨_, helix_eq a b p q n (by omega), helix_len a b p q junk n hn⟩
    · have h := ((((sinc_tendsto (b - a)).const_mul p).pow 2).add_const (q ^ 2)).sqrt.const_mul |b - a|
      rwa [mul_one, mul_comm] at h

/-- Half a unit circle with 3 samples: length `2√2`. -/
example : ∃ C, arc 0 Real.pi 3 1 0 = .ok C ∧ arclen 0 C = 2 * √ 2 := by
  obtain ⟨C, h1, _, h2, _⟩ := C95_arc 0 Real.pi 1 0 0 3 (by norm_num)
  refine ⟨C, by exact_mod_cast h1, ?_⟩
  rw [h2, show ((Real.pi - 0) / (2 * (((3 : Nat) : ℝ) - 1))) = Real.pi / 4 by push_cast; ring, Real.sin_pi_div_four, abs_one,
    abs_of_pos (show 0 < √ 2 / 2 by positivity)]
  push_cast; ring

/-! ## C96: curvature of a circle -/

theorem gradient_mid {m : NMat} {i : Nat} (j : Nat) (h1 : 1 ≤ i) (h2 : i + 1 < m.m) :
    (gradient m).v i j = (m.v (i + 1) j - m.v (i - 1) j) / 2 := by
  rw [gradient_v]
  unfold grad1 npGradient
  rw [if_pos (by omega), if_neg (by omega), if_neg (by omega)]

/-- The samples of an arc. -/
noncomputable def arcC (a b r c : ℝ) (n : Nat) : Curve ℝ :=
  ⟨(List.range n).map fun i => [Real.cos (angleOf a b n i) * r + c, Real.sin (angleOf a b n i) * r + c], 2, some (linspaceR a b n), .float⟩

theorem arcC_mat (a b r c : ℝ) (n : Nat) {i : Nat} (hi : i < n) :
    (arcC a b r c n).mat.v i 0 = Real.cos (angleOf a b n i) * r + c ∧ (arcC a b r c n).mat.v i 1 = Real.sin (angleOf a b n i) * r + c := by
  simp [Curve.mat, arcC, List.getD_eq_getElem?_getD, hi]

theorem arcC_size (a b r c : ℝ) (n : Nat) : (arcC a b r c n).size = n := by simp [Curve.size, arcC]

theorem arcC_first (a b r c : ℝ) (n : Nat) {i : Nat} (h1 : 1 ≤ i) (h2 : i + 1 < n) :
    (firstderiv (arcC a b r c n)).v i 0 = -(r * Real.sin (stepOf a b n) * Real.sin (angleOf a b n i)) ∧
    (firstderiv (arcC a b r c n)).v i 1 = r * Real.sin (stepOf a b n) * Real.cos (angleOf a b n i) := by
  have hm : (arcC a b r c n).mat.m = n := arcC_size a b r c n
  unfold firstderiv
  rw [gradient_mid 0 h1 (by omega), gradient_mid 1 h1 (by omega), (arcC_mat a b r c n h2).1, (arcC_mat a b r c n h2).2,
    (arcC_mat a b r c n (show i - 1 < n by omega)).1, (arcC_mat a b r c n (show i - 1 < n by omega)).2, angleOf_succ, angleOf_pred a b n h1,
    Real.cos_add, Real.cos_sub, Real.sin_add, Real.sin_sub]
  constructor <;> ring

theorem arcC_second (a b r c : ℝ) (n : Nat) {i : Nat} (h1 : 2 ≤ i) (h2 : i + 2 < n) :
    (secondderiv (arcC a b r c n)).v i 0 = -(r * Real.sin (stepOf a b n) ^ 2 * Real.cos (angleOf a b n i)) ∧
    (secondderiv (arcC a b r c n)).v i 1 = -(r * Real.sin (stepOf a b n) ^ 2 * Real.sin (angleOf a b n i)) := by
  have hm : (firstderiv (arcC a b r c n)).m = n := (shapes_m _).1.trans (arcC_size a b r c n)
  unfold secondderiv
  rw [gradient_mid 0 (by omega) (by omega), gradient_mid 1 (by omega) (by omega), (arcC_first a b r c n (show 1 ≤ i + 1 by omega) (by omega)).1,
    (arcC_first a b r c n (show 1 ≤ i + 1 by omega) (by omega)).2, (arcC_first a b r c n (show 1 ≤ i - 1 by omega) (by omega)).1,
    (arcC_first a b r c n (show 1 ≤ i - 1 by omega) (by omega)).2, angleOf_succ, angleOf_pred a b n (by omega),
    Real.cos_add, Real.cos_sub, Real.sin_add, Real.sin_sub]
  constructor <;> ring

theorem arcC_curvature (a b r c : ℝ) (n : Nat) (h5 : 2 ≤ n) :
    curvature (arcC a b r c n) = .ok ((List.range n).map (curvature2 (arcC a b r c n))) := by
  unfold curvature
  rw [if_pos (show (arcC a b r c n).ndim = 2 from rfl), if_neg, arcC_size]
  rw [firstderiv_k (by rw [arcC_size]; exact h5)]
  show ¬ (2 : Nat) < 2
  omega

/-- **C96 (circle, partial).** Away from the ends of the array the speed of a sampled circle of radius `|r| ≠ 0` is
`|r||sin δ|` for a step of `δ` radians, and the curvature is exactly `1/|r|`, positive if the samples run counter-clockwise by
less than half a turn per step, negative if clockwise. Missing: the two points at each end (`C96_ends_fail`). -/
theorem C96_circle_partial (a b r c junk : ℝ) (n : Nat) (hn : 2 ≤ n) (hr : r ≠ 0) :
    ∃ C vs ks, arc a b n r c = .ok C ∧ fresh junk C .speed = .ok (.nums vs) ∧ curvature C = .ok ks ∧
      (∀ i : Nat, 1 ≤ i → i + 1 < n → vs[i]? = some (.fin (|r| * |Real.sin ((b - a) / ((n : ℝ) - 1))|))) ∧
      ∀ i : Nat, 2 ≤ i → i + 2 < n →
        (0 < (b - a) / ((n : ℝ) - 1) → (b - a) / ((n : ℝ) - 1) < Real.pi → ks[i]? = some (.fin (1 / |r|))) ∧
        (-Real.pi < (b - a) / ((n : ℝ) - 1) → (b - a) / ((n : ℝ) - 1) < 0 → ks[i]? = some (.fin (-(1 / |r|)))) := by
  have hne : (arcC a b r c n).rows ≠ [] := by
    intro h
    have := arcC_size a b r c n
    rw [Curve.size, h] at this
    simp at this; omega
  refine ⟨arcC a b r c n, _, _, arc_eq a b r c n (by omega), by unfold fresh; exact if_neg hne, arcC_curvature a b r c n hn, ?_, ?_⟩
  · intro i h1 h2
    rw [List.getElem?_map, List.getElem?_range (by rw [arcC_size]; omega)]
    simp only [Option.map_some, Option.some.injEq, Val.fin.injEq]
    unfold rowNorm
    rw [firstderiv_k (by rw [arcC_size]; exact hn), show (arcC a b r c n).ncols = 2 from rfl, Finset.sum_range_succ, Finset.sum_range_one,
      (arcC_first a b r c n h1 h2).1, (arcC_first a b r c n h1 h2).2, ← abs_mul, ← Real.sqrt_sq_eq_abs]
    congr 1
    have := Real.sin_sq_add_cos_sq (angleOf a b n i)
    change _ = (r * Real.sin (stepOf a b n)) ^ 2
    linear_combination (r * Real.sin (stepOf a b n)) ^ 2 * this
  · intro i h1 h2
    have key : Real.sin (stepOf a b n) ≠ 0 → ((List.range n).map (curvature2 (arcC a b r c n)))[i]? =
        some (.fin (Real.sin (stepOf a b n) / (|r| * |Real.sin (stepOf a b n)|))) := by
      intro hs
      rw [List.getElem?_map, List.getElem?_range (by omega)]
      simp only [Option.map_some, Option.some.injEq]
      unfold curvature2
      simp only
      rw [(arcC_first a b r c n (show 1 ≤ i by omega) (by omega)).1, (arcC_first a b r c n (show 1 ≤ i by omega) (by omega)).2,
        (arcC_second a b r c n h1 h2).1, (arcC_second a b r c n h1 h2).2]
      obtain ⟨s, hs'⟩ : ∃ s, s = Real.sin (stepOf a b n) := ⟨_, rfl⟩
      rw [← hs'] at hs ⊢
      have e := Real.sin_sq_add_cos_sq (angleOf a b n i)
      have e1 : -(r * s * Real.sin (angleOf a b n i)) * -(r * s * Real.sin (angleOf a b n i)) +
          r * s * Real.cos (angleOf a b n i) * (r * s * Real.cos (angleOf a b n i)) = (r * s) ^ 2 := by
        linear_combination (r * s) ^ 2 * e
      have e2 : -(r * s ^ 2 * Real.sin (angleOf a b n i)) * -(r * s * Real.sin (angleOf a b n i)) -
          -(r * s ^ 2 * Real.cos (angleOf a b n i)) * (r * s * Real.cos (angleOf a b n i)) = r ^ 2 * s ^ 3 := by
        linear_combination r ^ 2 * s ^ 3 * e
      rw [e1, e2, Real.sqrt_sq_eq_abs, abs_mul]
      have hr' : |r| ≠ 0 := abs_ne_zero.2 hr
      have hs'' : |s| ≠ 0 := abs_ne_zero.2 hs
      simp only [Val.div]
      rw [if_neg (mul_ne_zero (pow_ne_zero 2 (mul_ne_zero hr hs)) (mul_ne_zero hr' hs''))]
      congr 1
      field_simp
    have hr' : |r| ≠ 0 := abs_ne_zero.2 hr
    constructor
    · intro h3 h4
      have hs : 0 < Real.sin (stepOf a b n) := Real.sin_pos_of_pos_of_lt_pi h3 h4
      rw [key hs.ne', abs_of_pos hs]
      congr 2
      have := hs.ne'
      field_simp
    · intro h3 h4
      have hs : Real.sin (stepOf a b n) < 0 := Real.sin_neg_of_neg_of_neg_pi_lt h4 h3
      rw [key hs.ne, abs_of_neg hs]
      congr 2
      have := hs.ne
      field_simp

/-- A full circle of radius 2 with 9 samples. -/
example : ∃ C ks, arc 0 (2 * Real.pi) 9 2 5 = .ok C ∧ curvature C = .ok ks ∧ ks[4]? = some (.fin (1 / 2)) := by
  obtain ⟨C, _, ks, h1, _, h2, _, h3⟩ := C96_circle_partial 0 (2 * Real.pi) 2 5 0 9 (by norm_num) (by norm_num)
  refine ⟨C, ks, by exact_mod_cast h1, h2, ?_⟩
  have := (h3 4 (by norm_num) (by norm_num)).1 (by push_cast; have := Real.pi_pos; rw [sub_zero]; apply div_pos <;> linarith)
    (by push_cast; have := Real.pi_pos; linarith)
  rwa [abs_of_pos (by norm_num)] at this

/-- **C96 fails next to the ends**: the second point of the unit circle in steps of a quarter turn has curvature `3/2`. -/
theorem C96_ends_fail : ∃ C ks, arc 0 (2 * Real.pi) 5 1 0 = .ok C ∧ curvature C = .ok ks ∧ ks[1]? = some (.fin (3 / 2)) := by
  refine ⟨arcC 0 (2 * Real.pi) 1 0 5, _, arc_eq 0 (2 * Real.pi) 1 0 5 (by norm_num), arcC_curvature _ _ _ _ _ (by norm_num), ?_⟩
  rw [List.getElem?_map, List.getElem?_range (by norm_num)]
  simp only [Option.map_some, Option.some.injEq]
  have hst : stepOf 0 (2 * Real.pi) 5 = Real.pi / 2 := by unfold stepOf; push_cast; ring
  have ha : ∀ i, angleOf 0 (2 * Real.pi) 5 i = i * (Real.pi / 2) := by intro i; unfold angleOf; rw [hst]; ring
  have hm : (arcC 0 (2 * Real.pi) 1 0 5).mat.m = 5 := arcC_size _ _ _ _ _
  have hm' : (firstderiv (arcC 0 (2 * Real.pi) 1 0 5)).m = 5 := (shapes_m _).1.trans (arcC_size _ _ _ _ _)
  have f1 := arcC_first 0 (2 * Real.pi) 1 0 5 (i := 1) (by norm_num) (by norm_num)
  have f2 := arcC_first 0 (2 * Real.pi) 1 0 5 (i := 2) (by norm_num) (by norm_num)
  have m0 := arcC_mat 0 (2 * Real.pi) 1 0 5 (i := 0) (by norm_num)
  have m1 := arcC_mat 0 (2 * Real.pi) 1 0 5 (i := 1) (by norm_num)
  have m2 := arcC_mat 0 (2 * Real.pi) 1 0 5 (i := 2) (by norm_num)
  rw [ha] at f1 f2 m0 m1 m2
  rw [hst] at f1 f2
  have e2 : ((2 : Nat) : ℝ) * (Real.pi / 2) = Real.pi := by push_cast; ring
  rw [e2] at f2 m2
  simp only [Nat.cast_one, one_mul, Real.sin_pi_div_two, Real.cos_pi_div_two, Real.sin_pi, Real.cos_pi, Nat.cast_zero, zero_mul, Real.sin_zero,
    Real.cos_zero, mul_one, mul_zero, add_zero, neg_zero] at f1 f2 m0 m1 m2
  have f0 : (firstderiv (arcC 0 (2 * Real.pi) 1 0 5)).v 0 0 = -1 ∧ (firstderiv (arcC 0 (2 * Real.pi) 1 0 5)).v 0 1 = 2 := by
    unfold firstderiv
    rw [gradient_v, gradient_v, hm]
    unfold grad1 npGradient
    simp only [if_pos (show 3 ≤ 5 by norm_num), if_true, m0, m1, m2]
    norm_num
  unfold curvature2
  simp only
  unfold secondderiv
  rw [gradient_mid 0 (by norm_num) (by omega), gradient_mid 1 (by norm_num) (by omega)]
  simp only [f0, f1, f2, Nat.sub_self, Nat.reduceAdd]
  norm_num [Val.div]

/-! ## C97: curvature and torsion of a helix -/

/-- The samples of a helix. -/
noncomputable def helixC (a b p q : ℝ) (n : Nat) : Curve ℝ :=
  ⟨(List.range n).map fun i => [Real.sin (angleOf a b n i) * p, Real.cos (angleOf a b n i) * p, angleOf a b n i * q], 3,
    some (linspaceR a b n), .float⟩

theorem helixC_size (a b p q : ℝ) (n : Nat) : (helixC a b p q n).size = n := by simp [Curve.size, helixC]

theorem helixC_mat (a b p q : ℝ) (n : Nat) {i : Nat} (hi : i < n) :
    (helixC a b p q n).mat.v i 0 = Real.sin (angleOf a b n i) * p ∧ (helixC a b p q n).mat.v i 1 = Real.cos (angleOf a b n i) * p ∧
    (helixC a b p q n).mat.v i 2 = angleOf a b n i * q := by
  simp [Curve.mat, helixC, List.getD_eq_getElem?_getD, hi]

section
variable (a b p q : ℝ) (n : Nat)

local notation "s" => Real.sin (stepOf a b n)
local notation "δ" => stepOf a b n
local notation "θ" => angleOf a b n
local notation "H" => helixC a b p q n

/-- Speed of the samples. -/
noncomputable def helixSpeed : ℝ := √ ((p * s) ^ 2 + (δ * q) ^ 2)

local notation "ρ" => helixSpeed a b p q n

theorem helix_first {i : Nat} (h1 : 1 ≤ i) (h2 : i + 1 < n) :
    (firstderiv H).v i 0 = p * s * Real.cos (θ i) ∧ (firstderiv H).v i 1 = -(p * s * Real.sin (θ i)) ∧ (firstderiv H).v i 2 = δ * q := by
  have hm : (H).mat.m = n := helixC_size a b p q n
  obtain ⟨u0, u1, u2⟩ := helixC_mat a b p q n h2
  obtain ⟨w0, w1, w2⟩ := helixC_mat a b p q n (show i - 1 < n by omega)
  unfold firstderiv
  rw [gradient_mid 0 h1 (by omega), gradient_mid 1 h1 (by omega), gradient_mid 2 h1 (by omega), u0, u1, u2, w0, w1, w2, angleOf_succ,
    angleOf_pred a b n h1, Real.cos_add, Real.cos_sub, Real.sin_add, Real.sin_sub]
  refine ⟨?_, ?_, ?_⟩ <;> ring

theorem helix_second {i : Nat} (h1 : 2 ≤ i) (h2 : i + 2 < n) :
    (secondderiv H).v i 0 = -(p * s ^ 2 * Real.sin (θ i)) ∧ (secondderiv H).v i 1 = -(p * s ^ 2 * Real.cos (θ i)) ∧ (secondderiv H).v i 2 = 0 := by
  have hm : (firstderiv H).m = n := (shapes_m _).1.trans (helixC_size a b p q n)
  obtain ⟨u0, u1, u2⟩ := helix_first a b p q n (i := i + 1) (by omega) (by omega)
  obtain ⟨w0, w1, w2⟩ := helix_first a b p q n (i := i - 1) (by omega) (by omega)
  unfold secondderiv
  rw [gradient_mid 0 (by omega) (by omega), gradient_mid 1 (by omega) (by omega), gradient_mid 2 (by omega) (by omega), u0, u1, u2, w0, w1, w2,
    angleOf_succ, angleOf_pred a b n (by omega), Real.cos_add, Real.cos_sub, Real.sin_add, Real.sin_sub]
  refine ⟨?_, ?_, ?_⟩ <;> ring

theorem helix_third {i : Nat} (h1 : 3 ≤ i) (h2 : i + 3 < n) :
    (thirdderiv H).v i 0 = -(p * s ^ 3 * Real.cos (θ i)) ∧ (thirdderiv H).v i 1 = p * s ^ 3 * Real.sin (θ i) ∧ (thirdderiv H).v i 2 = 0 := by
  have hm : (secondderiv H).m = n := (shapes_m _).2.1.trans (helixC_size a b p q n)
  obtain ⟨u0, u1, u2⟩ := helix_second a b p q n (i := i + 1) (by omega) (by omega)
  obtain ⟨w0, w1, w2⟩ := helix_second a b p q n (i := i - 1) (by omega) (by omega)
  unfold thirdderiv
  rw [gradient_mid 0 (by omega) (by omega), gradient_mid 1 (by omega) (by omega), gradient_mid 2 (by omega) (by omega), u0, u1, u2, w0, w1, w2,
    angleOf_succ, angleOf_pred a b n (by omega), Real.cos_add, Real.cos_sub, Real.sin_add, Real.sin_sub]
  refine ⟨?_, ?_, ?_⟩ <;> ring

theorem rowNorm_three {m : NMat} (hk : m.k = 3) (i : Nat) : rowNorm m i = √ (m.v i 0 ^ 2 + m.v i 1 ^ 2 + m.v i 2 ^ 2) := by
  unfold rowNorm; rw [hk, Finset.sum_range_succ, Finset.sum_range_succ, Finset.sum_range_one]

theorem dotRow_three {m m' : NMat} (hk : m.k = 3) (i : Nat) :
    dotRow m m' i = m.v i 0 * m'.v i 0 + m.v i 1 * m'.v i 1 + m.v i 2 * m'.v i 2 := by
  unfold dotRow; rw [hk, Finset.sum_range_succ, Finset.sum_range_succ, Finset.sum_range_one]

theorem frenetNorm_big {m : NMat} {i : Nat} (h : 1 / 100000000 < rowNorm m i) : frenetNorm m i = rowNorm m i := by
  unfold frenetNorm
  rw [if_neg]
  intro h'
  have h'' := (closeK_zero _).1 h'
  rw [abs_of_nonneg (show 0 ≤ rowNorm m i from Real.sqrt_nonneg _)] at h''
  exact absurd h'' (not_le.2 h)

theorem frenetNorm_small {m : NMat} {i : Nat} (h : rowNorm m i ≤ 1 / 100000000) : frenetNorm m i = 1 := by
  unfold frenetNorm
  rw [if_pos]
  apply (closeK_zero _).2
  rwa [abs_of_nonneg (show 0 ≤ rowNorm m i from Real.sqrt_nonneg _)]

theorem helix_k (hn : 2 ≤ n) : (firstderiv H).k = 3 := firstderiv_k (by rw [helixC_size]; exact hn)

theorem helix_speed {i : Nat} (h1 : 1 ≤ i) (h2 : i + 1 < n) : rowNorm (firstderiv H) i = ρ := by
  obtain ⟨u0, u1, u2⟩ := helix_first a b p q n h1 h2
  rw [rowNorm_three (helix_k a b p q n (by omega)), u0, u1, u2]
  unfold helixSpeed
  congr 1
  linear_combination (p * s) ^ 2 * Real.sin_sq_add_cos_sq (θ i)

theorem helixSpeed_sq : ρ ^ 2 = (p * s) ^ 2 + (δ * q) ^ 2 := Real.sq_sqrt (by positivity)

theorem helix_e1 (hρ : 1 / 100000000 < ρ) {i : Nat} (h1 : 1 ≤ i) (h2 : i + 1 < n) :
    (frenet1 H).v i 0 = p * s * Real.cos (θ i) / ρ ∧ (frenet1 H).v i 1 = -(p * s * Real.sin (θ i)) / ρ ∧ (frenet1 H).v i 2 = δ * q / ρ := by
  obtain ⟨u0, u1, u2⟩ := helix_first a b p q n h1 h2
  have hsp := helix_speed a b p q n h1 h2
  have : frenetNorm (firstderiv H) i = ρ := by rw [frenetNorm_big (by rw [hsp]; exact hρ), hsp]
  unfold frenet1 unitRows
  simp only [this, u0, u1, u2]
  exact ⟨trivial, trivial, trivial⟩

theorem helix_curvature (hρ : 1 / 100000000 < ρ) {i : Nat} (h1 : 2 ≤ i) (h2 : i + 2 < n) :
    curvatureN H i = .fin (|p| * s ^ 2 / ρ ^ 2) := by
  have hm : (frenet1 H).m = n := (shapes_m _).2.2.2.1.trans (helixC_size a b p q n)
  have hk : (frenet1 H).k = 3 := helix_k a b p q n (by omega)
  have hρ0 : ρ ≠ 0 := by intro h; rw [h] at hρ; norm_num at hρ
  have hρp : 0 < ρ := lt_trans (by norm_num) hρ
  obtain ⟨u0, u1, u2⟩ := helix_e1 a b p q n hρ (i := i + 1) (by omega) (by omega)
  obtain ⟨w0, w1, w2⟩ := helix_e1 a b p q n hρ (i := i - 1) (by omega) (by omega)
  unfold curvatureN
  rw [helix_speed a b p q n (by omega) (by omega), rowNorm_three (by rw [gradient_k (by omega)]; exact hk),
    gradient_mid 0 (by omega) (by omega), gradient_mid 1 (by omega) (by omega), gradient_mid 2 (by omega) (by omega), u0, u1, u2, w0, w1, w2,
    angleOf_succ, angleOf_pred a b n (by omega), Real.cos_add, Real.cos_sub, Real.sin_add, Real.sin_sub]
  simp only [Val.div]
  rw [if_neg hρ0]
  congr 1
  obtain ⟨S, hS⟩ : ∃ S, S = s := ⟨_, rfl⟩
  obtain ⟨x, hx⟩ : ∃ x, x = Real.cos (θ i) := ⟨_, rfl⟩
  obtain ⟨y, hy⟩ : ∃ y, y = Real.sin (θ i) := ⟨_, rfl⟩
  obtain ⟨R, hR⟩ : ∃ R, R = ρ := ⟨_, rfl⟩
  obtain ⟨D, hD⟩ : ∃ D, D = Real.cos δ := ⟨_, rfl⟩
  have e : y ^ 2 + x ^ 2 = 1 := by rw [hx, hy]; exact Real.sin_sq_add_cos_sq _
  rw [← hS, ← hx, ← hy, ← hR, ← hD]
  rw [← hR] at hρ0 hρp
  rw [show ((p * S * (x * D - y * S) / R - p * S * (x * D + y * S) / R) / 2) ^ 2 +
      ((-(p * S * (y * D + x * S)) / R - -(p * S * (y * D - x * S)) / R) / 2) ^ 2 + ((δ * q / R - δ * q / R) / 2) ^ 2 =
      (p * S ^ 2 / R) ^ 2 by
    have : p ^ 2 * S ^ 4 * (y ^ 2 + x ^ 2) / R ^ 2 = p ^ 2 * S ^ 4 / R ^ 2 := by rw [e, mul_one]
    field_simp
    linear_combination 4 * p ^ 2 * S ^ 4 * e]
  rw [Real.sqrt_sq_eq_abs, abs_div, abs_mul, abs_of_nonneg (sq_nonneg S), abs_of_pos hρp]
  field_simp

theorem helix_normal (hρ : 1 / 100000000 < ρ) {i : Nat} (h1 : 2 ≤ i) (h2 : i + 2 < n) :
    (normal H).v i 0 = -(p * s ^ 2 * Real.sin (θ i)) ∧ (normal H).v i 1 = -(p * s ^ 2 * Real.cos (θ i)) ∧ (normal H).v i 2 = 0 ∧
      rowNorm (normal H) i = |p| * s ^ 2 := by
  obtain ⟨u0, u1, u2⟩ := helix_second a b p q n h1 h2
  obtain ⟨w0, w1, w2⟩ := helix_e1 a b p q n hρ (i := i) (by omega) (by omega)
  have hk : (secondderiv H).k = 3 := by
    rw [(shapes_k (H) (by rw [helixC_size]; omega)).1]; exact helix_k a b p q n (by omega)
  have hd : dotRow (secondderiv H) (frenet1 H) i = 0 := by
    rw [dotRow_three hk, u0, u1, u2, w0, w1, w2]; ring
  have hv : ∀ j, (normal H).v i j = (secondderiv H).v i j := by
    intro j
    show (secondderiv H).v i j - dotRow (secondderiv H) (frenet1 H) i * (frenet1 H).v i j = _
    rw [hd]; ring
  refine ⟨by rw [hv, u0], by rw [hv, u1], by rw [hv, u2], ?_⟩
  rw [rowNorm_three (show (normal H).k = 3 from hk), hv, hv, hv, u0, u1, u2]
  rw [show |p| * s ^ 2 = |p * s ^ 2| by rw [abs_mul, abs_of_nonneg (sq_nonneg s)], ← Real.sqrt_sq_eq_abs]
  congr 1
  linear_combination (p * s ^ 2) ^ 2 * Real.sin_sq_add_cos_sq (θ i)

theorem helix_e2 (hρ : 1 / 100000000 < ρ) (hN : 1 / 100000000 < |p| * s ^ 2) {i : Nat} (h1 : 2 ≤ i) (h2 : i + 2 < n) :
    (frenet2 H).v i 0 = -(p / |p| * Real.sin (θ i)) ∧ (frenet2 H).v i 1 = -(p / |p| * Real.cos (θ i)) ∧ (frenet2 H).v i 2 = 0 := by
  obtain ⟨u0, u1, u2, u3⟩ := helix_normal a b p q n hρ h1 h2
  have : frenetNorm (normal H) i = |p| * s ^ 2 := by rw [frenetNorm_big (by rw [u3]; exact hN), u3]
  have h0 : |p| * s ^ 2 ≠ 0 := by intro h; rw [h] at hN; norm_num at hN
  have hp : |p| ≠ 0 := left_ne_zero_of_mul h0
  have hs : s ≠ 0 := by intro h; rw [h] at h0; simp at h0
  unfold frenet2 unitRows
  simp only [this, u0, u1, u2]
  refine ⟨?_, ?_, ?_⟩ <;> field_simp
  all_goals simp

theorem helix_binormal (hρ : 1 / 100000000 < ρ) (hN : 1 / 100000000 < |p| * s ^ 2) {i : Nat} (h1 : 3 ≤ i) (h2 : i + 3 < n) :
    (binormal H).v i 0 = -(p * s ^ 3 * (δ * q) ^ 2 / ρ ^ 2 * Real.cos (θ i)) ∧
    (binormal H).v i 1 = p * s ^ 3 * (δ * q) ^ 2 / ρ ^ 2 * Real.sin (θ i) ∧
    (binormal H).v i 2 = p ^ 2 * s ^ 4 * (δ * q) / ρ ^ 2 ∧ rowNorm (binormal H) i = |p * s ^ 3 * (δ * q)| / ρ := by
  obtain ⟨u0, u1, u2⟩ := helix_third a b p q n h1 h2
  obtain ⟨w0, w1, w2⟩ := helix_e1 a b p q n hρ (i := i) (by omega) (by omega)
  obtain ⟨z0, z1, z2⟩ := helix_e2 a b p q n hρ hN (i := i) (by omega) (by omega)
  have hk : (thirdderiv H).k = 3 := by
    rw [(shapes_k (H) (by rw [helixC_size]; omega)).2.1]; exact helix_k a b p q n (by omega)
  have hρp : 0 < ρ := lt_trans (by norm_num) hρ
  have hρ0 : ρ ≠ 0 := hρp.ne'
  have hsq := helixSpeed_sq a b p q n
  have e := Real.sin_sq_add_cos_sq (θ i)
  have hd1 : dotRow (thirdderiv H) (frenet1 H) i = -(p ^ 2 * s ^ 4) / ρ := by
    rw [dotRow_three hk, u0, u1, u2, w0, w1, w2]
    field_simp
    linear_combination (-(p ^ 2 * s ^ 4)) * e
  have hd2 : dotRow (thirdderiv H) (frenet2 H) i = 0 := by
    rw [dotRow_three hk, u0, u1, u2, z0, z1, z2]; ring
  have hv : ∀ j, (binormal H).v i j = (thirdderiv H).v i j + p ^ 2 * s ^ 4 / ρ * (frenet1 H).v i j := by
    intro j
    show (thirdderiv H).v i j - dotRow (thirdderiv H) (frenet1 H) i * (frenet1 H).v i j -
      dotRow (thirdderiv H) (frenet2 H) i * (frenet2 H).v i j = _
    rw [hd1, hd2]; ring
  have v0 : (binormal H).v i 0 = -(p * s ^ 3 * (δ * q) ^ 2 / ρ ^ 2 * Real.cos (θ i)) := by
    rw [hv, u0, w0]
    field_simp
    linear_combination (-(p * s ^ 3 * Real.cos (θ i))) * hsq
  have v1 : (binormal H).v i 1 = p * s ^ 3 * (δ * q) ^ 2 / ρ ^ 2 * Real.sin (θ i) := by
    rw [hv, u1, w1]
    field_simp
    linear_combination (p * s ^ 3 * Real.sin (θ i)) * hsq
  have v2 : (binormal H).v i 2 = p ^ 2 * s ^ 4 * (δ * q) / ρ ^ 2 := by
    rw [hv, u2, w2]
    field_simp
    ring
  refine ⟨v0, v1, v2, ?_⟩
  rw [rowNorm_three (show (binormal H).k = 3 from hk), v0, v1, v2]
  rw [show |p * s ^ 3 * (δ * q)| / ρ = |p * s ^ 3 * (δ * q) / ρ| by rw [abs_div, abs_of_pos hρp], ← Real.sqrt_sq_eq_abs]
  congr 1
  rw [show (-(p * s ^ 3 * (δ * q) ^ 2 / ρ ^ 2 * Real.cos (θ i))) ^ 2 + (p * s ^ 3 * (δ * q) ^ 2 / ρ ^ 2 * Real.sin (θ i)) ^ 2 +
      (p ^ 2 * s ^ 4 * (δ * q) / ρ ^ 2) ^ 2 =
      (p * s ^ 3 * (δ * q) / ρ ^ 2) ^ 2 * ((p * s) ^ 2 + (δ * q) ^ 2 * (Real.sin (θ i) ^ 2 + Real.cos (θ i) ^ 2)) by ring, e, mul_one, ← hsq]
  field_simp

theorem helix_torsion (hρ : 1 / 100000000 < ρ) (hN : 1 / 100000000 < |p| * s ^ 2) {i : Nat} (h1 : 3 ≤ i) (h2 : i + 3 < n) :
    torsionAt H i = .fin (|p| * s ^ 4 * (δ * q) ^ 2 / (ρ ^ 3 * frenetNorm (binormal H) i)) := by
  have hm : (frenet2 H).m = n := by
    obtain ⟨m1, m2, m3, m4, m5, m6, m7, m8⟩ := shapes_m (H)
    rw [m6, helixC_size]
  have hk : (gradient (frenet2 H)).k = 3 := by
    rw [gradient_k (by omega)]
    show (secondderiv H).k = 3
    rw [(shapes_k (H) (by rw [helixC_size]; omega)).1]; exact helix_k a b p q n (by omega)
  have hρp : 0 < ρ := lt_trans (by norm_num) hρ
  have hρ0 : ρ ≠ 0 := hρp.ne'
  have h0 : |p| * s ^ 2 ≠ 0 := by intro h; rw [h] at hN; norm_num at hN
  have hp : |p| ≠ 0 := left_ne_zero_of_mul h0
  obtain ⟨u0, u1, u2⟩ := helix_e2 a b p q n hρ hN (i := i + 1) (by omega) (by omega)
  obtain ⟨w0, w1, w2⟩ := helix_e2 a b p q n hρ hN (i := i - 1) (by omega) (by omega)
  obtain ⟨z0, z1, z2, -⟩ := helix_binormal a b p q n hρ hN h1 h2
  have e := Real.sin_sq_add_cos_sq (θ i)
  have hpp : p * p = |p| * |p| := (abs_mul_abs_self p).symm
  have hf : ∀ j, (frenet3 H).v i j = (binormal H).v i j / frenetNorm (binormal H) i := fun _ => rfl
  unfold torsionAt
  rw [helix_speed a b p q n (by omega) (by omega), dotRow_three hk, hf, hf, hf, z0, z1, z2,
    gradient_mid 0 (by omega) (by omega), gradient_mid 1 (by omega) (by omega), gradient_mid 2 (by omega) (by omega), u0, u1, u2, w0, w1, w2,
    angleOf_succ, angleOf_pred a b n (by omega), Real.cos_add, Real.cos_sub, Real.sin_add, Real.sin_sub]
  simp only [Val.div]
  rw [if_neg hρ0]
  congr 1
  obtain ⟨F, hF⟩ : ∃ F, F = frenetNorm (binormal H) i := ⟨_, rfl⟩
  obtain ⟨S, hS⟩ : ∃ S, S = s := ⟨_, rfl⟩
  obtain ⟨x, hx⟩ : ∃ x, x = Real.cos (θ i) := ⟨_, rfl⟩
  obtain ⟨y, hy⟩ : ∃ y, y = Real.sin (θ i) := ⟨_, rfl⟩
  obtain ⟨R, hR⟩ : ∃ R, R = ρ := ⟨_, rfl⟩
  obtain ⟨P, hP⟩ : ∃ P, P = |p| := ⟨_, rfl⟩
  rw [← hx, ← hy] at e
  rw [← hP] at hp hpp
  rw [← hR] at hρ0
  rw [← hF, ← hS, ← hx, ← hy, ← hR, ← hP]
  have hF0 : F ≠ 0 := by
    rw [hF]
    unfold frenetNorm
    split
    · exact one_ne_zero
    · rename_i h
      intro h'
      rw [h'] at h
      exact h ((closeK_zero 0).2 (by norm_num))
  field_simp
  linear_combination 2 * p ^ 2 * S ^ 4 * δ ^ 2 * q ^ 2 * e + 2 * S ^ 4 * δ ^ 2 * q ^ 2 * hpp

end

theorem helixC_curvature (a b p q : ℝ) (n : Nat) :
    curvature (helixC a b p q n) = .ok ((List.range n).map (curvatureN (helixC a b p q n))) := by
  unfold curvature
  have h : (helixC a b p q n).ndim = 3 := rfl
  rw [if_neg (by rw [h]; norm_num), helixC_size]

/-- A bound for both values. -/
theorem helix_bound {p q S d : ℝ} (hS : S ^ 2 ≤ d ^ 2) (h0 : 0 < (p * S) ^ 2 + (d * q) ^ 2) :
    0 < p ^ 2 + q ^ 2 ∧ d ≠ 0 ∧ S ^ 2 / ((p * S) ^ 2 + (d * q) ^ 2) ≤ 1 / (p ^ 2 + q ^ 2) ∧
      1 / (d ^ 2 * (p ^ 2 + q ^ 2)) ≤ 1 / ((p * S) ^ 2 + (d * q) ^ 2) := by
  have hd : d ≠ 0 := by
    rintro rfl
    have : S ^ 2 = 0 := le_antisymm (by simpa using hS) (sq_nonneg S)
    rw [mul_pow, this] at h0
    simp at h0
  have h1 : 0 < p ^ 2 + q ^ 2 := by
    rcases eq_or_ne p 0 with rfl | hp
    · rcases eq_or_ne q 0 with rfl | hq
      · simp at h0
      · positivity
    · positivity
  refine ⟨h1, hd, ?_, ?_⟩
  · rw [div_le_div_iff₀ h0 h1]
    nlinarith [mul_le_mul_of_nonneg_right hS (sq_nonneg q)]
  · apply one_div_le_one_div_of_le h0
    nlinarith [mul_le_mul_of_nonneg_right hS (sq_nonneg p)]

theorem sin_sq_le (x : ℝ) : Real.sin x ^ 2 ≤ x ^ 2 := sq_le_sq.2 Real.abs_sin_le_abs

/-- **C97 (curvature, partial).** Away from the ends of the array, with a step of `δ` radians, the curvature of a sampled helix is
`|p| sin²δ / (p² sin²δ + q² δ²)`; this is at most the curvature `|p| / (p² + q²)` of the helix and at least `(sin δ / δ)²` times it.
Missing: the two points at each end, and samples whose speed is not above the threshold `1e-8`. -/
theorem C97_curvature_partial (a b p q δ : ℝ) (n : Nat) (hn : 1 ≤ n) (hδ : δ = (b - a) / ((n : ℝ) - 1))
    (hρ : 1 / 10 ^ 8 < √ ((p * Real.sin δ) ^ 2 + (δ * q) ^ 2)) :
    ∃ C ks, helix a b n p q = .ok C ∧ curvature C = .ok ks ∧ ∀ i : Nat, 2 ≤ i → i + 2 < n →
      ∃ κ, ks[i]? = some (.fin κ) ∧ κ = |p| * Real.sin δ ^ 2 / ((p * Real.sin δ) ^ 2 + (δ * q) ^ 2) ∧
        κ ≤ |p| / (p ^ 2 + q ^ 2) ∧ (Real.sin δ / δ) ^ 2 * (|p| / (p ^ 2 + q ^ 2)) ≤ κ := by
  refine ⟨helixC a b p q n, _, helix_eq a b p q n hn, helixC_curvature a b p q n, ?_⟩
  intro i h1 h2
  have hst : stepOf a b n = δ := hδ.symm
  have hsp : helixSpeed a b p q n = √ ((p * Real.sin δ) ^ 2 + (δ * q) ^ 2) := by unfold helixSpeed; rw [hst]
  have h0 : 0 < (p * Real.sin δ) ^ 2 + (δ * q) ^ 2 := Real.sqrt_pos.1 (lt_trans (by norm_num) hρ)
  obtain ⟨b1, b2, b3, b4⟩ := helix_bound (sin_sq_le δ) h0
  refine ⟨|p| * Real.sin δ ^ 2 / ((p * Real.sin δ) ^ 2 + (δ * q) ^ 2), ?_, rfl, ?_, ?_⟩
  · rw [List.getElem?_map, List.getElem?_range (by omega)]
    simp only [Option.map_some, Option.some.injEq]
    rw [helix_curvature a b p q n (by rw [hsp]; norm_num at hρ ⊢; exact hρ) h1 h2, helixSpeed_sq, hst]
  · rw [mul_div_assoc, div_eq_mul_one_div |p| (p ^ 2 + q ^ 2)]
    exact mul_le_mul_of_nonneg_left b3 (abs_nonneg p)
  · calc (Real.sin δ / δ) ^ 2 * (|p| / (p ^ 2 + q ^ 2)) = |p| * Real.sin δ ^ 2 * (1 / (δ ^ 2 * (p ^ 2 + q ^ 2))) := by field_simp
      _ ≤ |p| * Real.sin δ ^ 2 * (1 / ((p * Real.sin δ) ^ 2 + (δ * q) ^ 2)) := by gcongr
      _ = _ := by ring

/-- **C97 (torsion, partial).** Away from the ends of the array, with a step of `δ` radians, the torsion of a sampled helix is
`|sin δ||q δ| / (p² sin²δ + q² δ²)`, which agrees with `|q| / (p² + q²)` up to a factor between `|sin δ / δ|` and its reciprocal.
Missing: three points at each end; samples with a derivative vector that is not longer than the threshold `1e-8`
(`C97_fine_sampling_fails`); the sign (`C97_handedness_fails`). -/
theorem C97_torsion_partial (a b p q δ : ℝ) (n : Nat) (hn : 1 ≤ n) (hδ : δ = (b - a) / ((n : ℝ) - 1))
    (h1 : 1 / 10 ^ 8 < √ ((p * Real.sin δ) ^ 2 + (δ * q) ^ 2)) (h2 : 1 / 10 ^ 8 < |p| * Real.sin δ ^ 2)
    (h3 : 1 / 10 ^ 8 < |p * Real.sin δ ^ 3 * (δ * q)| / √ ((p * Real.sin δ) ^ 2 + (δ * q) ^ 2)) :
    ∃ C, helix a b n p q = .ok C ∧ ∀ i : Nat, 3 ≤ i → i + 3 < n →
      ∃ τ, (torsion C)[i]? = some (.fin τ) ∧ τ = |Real.sin δ| * |δ * q| / ((p * Real.sin δ) ^ 2 + (δ * q) ^ 2) ∧
        |Real.sin δ / δ| * (|q| / (p ^ 2 + q ^ 2)) ≤ τ ∧ |Real.sin δ / δ| * τ ≤ |q| / (p ^ 2 + q ^ 2) := by
  refine ⟨helixC a b p q n, helix_eq a b p q n hn, ?_⟩
  intro i hi1 hi2
  have hst : stepOf a b n = δ := hδ.symm
  have hsp : helixSpeed a b p q n = √ ((p * Real.sin δ) ^ 2 + (δ * q) ^ 2) := by unfold helixSpeed; rw [hst]
  have hρp : 0 < √ ((p * Real.sin δ) ^ 2 + (δ * q) ^ 2) := lt_trans (by norm_num) h1
  have h0 : 0 < (p * Real.sin δ) ^ 2 + (δ * q) ^ 2 := Real.sqrt_pos.1 hρp
  obtain ⟨b1, b2, b3, b4⟩ := helix_bound (sin_sq_le δ) h0
  have hδ0 : |δ| ≠ 0 := abs_ne_zero.2 b2
  refine ⟨|Real.sin δ| * |δ * q| / ((p * Real.sin δ) ^ 2 + (δ * q) ^ 2), ?_, rfl, ?_, ?_⟩
  · unfold torsion
    rw [List.getElem?_map, List.getElem?_range (by rw [helixC_size]; omega)]
    simp only [Option.map_some, Option.some.injEq]
    have g1 : 1 / 100000000 < helixSpeed a b p q n := by rw [hsp]; norm_num at h1 ⊢; exact h1
    have g2 : 1 / 100000000 < |p| * Real.sin (stepOf a b n) ^ 2 := by rw [hst]; norm_num at h2 ⊢; exact h2
    have hb := (helix_binormal a b p q n g1 g2 hi1 hi2).2.2.2
    rw [hst, hsp] at hb
    rw [helix_torsion a b p q n g1 g2 hi1 hi2, frenetNorm_big (by rw [hb]; norm_num at h3 ⊢; exact h3), hb, hsp, hst]
    congr 1
    have hR := Real.sq_sqrt h0.le
    obtain ⟨R, hR'⟩ : ∃ R, R = √ ((p * Real.sin δ) ^ 2 + (δ * q) ^ 2) := ⟨_, rfl⟩
    rw [← hR'] at hR hρp ⊢
    rw [← hR]
    have hp : |p| ≠ 0 := by intro h; rw [h] at h2; norm_num at h2
    have hs : |Real.sin δ| ≠ 0 := by intro h; rw [abs_eq_zero.1 h] at h2; norm_num at h2
    have hne : |p * Real.sin δ ^ 3 * (δ * q)| ≠ 0 := by intro h; rw [h] at h3; norm_num at h3
    rw [abs_mul, abs_mul, abs_pow] at hne ⊢
    have hq : |δ * q| ≠ 0 := right_ne_zero_of_mul hne
    rw [show Real.sin δ ^ 4 = |Real.sin δ| ^ 4 by rw [← abs_pow, abs_of_nonneg (by positivity)], show (δ * q) ^ 2 = |δ * q| ^ 2 from (sq_abs _).symm]
    have hR0 := hρp.ne'
    field_simp
  · calc |Real.sin δ / δ| * (|q| / (p ^ 2 + q ^ 2)) = |Real.sin δ| * |δ * q| * (1 / (δ ^ 2 * (p ^ 2 + q ^ 2))) := by
          rw [abs_div, abs_mul, ← sq_abs δ]; field_simp
      _ ≤ |Real.sin δ| * |δ * q| * (1 / ((p * Real.sin δ) ^ 2 + (δ * q) ^ 2)) := by gcongr
      _ = _ := by ring
  · calc |Real.sin δ / δ| * (|Real.sin δ| * |δ * q| / ((p * Real.sin δ) ^ 2 + (δ * q) ^ 2))
          = |q| * (Real.sin δ ^ 2 / ((p * Real.sin δ) ^ 2 + (δ * q) ^ 2)) := by
          rw [abs_div, abs_mul, ← sq_abs (Real.sin δ)]; field_simp
      _ ≤ |q| * (1 / (p ^ 2 + q ^ 2)) := by gcongr
      _ = _ := by ring

theorem sin_low {x : ℝ} (h0 : 0 < x) (h1 : x ≤ 1 / 10) : 99 / 100 * x ≤ Real.sin x ∧ Real.sin x ≤ x := by
  refine ⟨?_, Real.sin_le h0.le⟩
  have h := Real.sin_gt_sub_cube h0
  have : x ^ 3 ≤ x * (1 / 100) := by
    rw [pow_succ', sq]
    gcongr
    nlinarith
  linarith

/-- **C97 (example, partial).** The unit helix with 11 samples per radian: curvature and torsion are `1/2` up to 0.02. -/
theorem C97_coarse_partial : ∃ C ks, helix 0 1 11 1 1 = .ok C ∧ curvature C = .ok ks ∧ (∃ κ, ks[5]? = some (.fin κ) ∧ |κ - 1 / 2| ≤ 1 / 50) ∧
    ∃ τ, (torsion C)[5]? = some (.fin τ) ∧ |τ - 1 / 2| ≤ 1 / 50 := by
  obtain ⟨s1, s2⟩ := sin_low (x := 1 / 10) (by norm_num) le_rfl
  have hδ : (1 / 10 : ℝ) = (1 - 0) / (((11 : Nat) : ℝ) - 1) := by norm_num
  have hp : 0 < Real.sin (1 / 10) := by linarith
  have hroot : 1 / 10 ≤ √ ((1 * Real.sin (1 / 10)) ^ 2 + (1 / 10 * 1) ^ 2) := by
    apply Real.le_sqrt_of_sq_le
    nlinarith [sq_nonneg (Real.sin (1 / 10))]
  have hroot' : √ ((1 * Real.sin (1 / 10)) ^ 2 + (1 / 10 * 1) ^ 2) ≤ 1 := by
    refine Real.sqrt_le_iff.2 ⟨by norm_num, ?_⟩
    nlinarith
  have hr : (1 : ℝ) / 10 ^ 8 < √ ((1 * Real.sin (1 / 10)) ^ 2 + (1 / 10 * 1) ^ 2) := lt_of_lt_of_le (by norm_num) hroot
  have hs2 : (99 / 1000 : ℝ) ^ 2 ≤ Real.sin (1 / 10) ^ 2 := by gcongr; linarith
  have hs3 : (99 / 1000 : ℝ) ^ 3 ≤ Real.sin (1 / 10) ^ 3 := by gcongr; linarith
  obtain ⟨C, ks, a1, a2, a3⟩ := C97_curvature_partial 0 1 1 1 (1 / 10) 11 (by norm_num) hδ hr
  obtain ⟨C', a1', a4⟩ := C97_torsion_partial 0 1 1 1 (1 / 10) 11 (by norm_num) hδ hr
    (by rw [abs_one]; norm_num at hs2 ⊢; linarith)
    (by
      rw [lt_div_iff₀ (by linarith), abs_of_pos (by positivity)]
      refine lt_of_le_of_lt (mul_le_mul_of_nonneg_left hroot' (by norm_num)) ?_
      norm_num at hs3 ⊢; linarith)
  rw [a1] at a1'
  obtain rfl := Except.ok.inj a1'
  refine ⟨C, ks, by exact_mod_cast a1, a2, ?_, ?_⟩
  · obtain ⟨κ, k1, _, k2, k3⟩ := a3 5 (by norm_num) (by norm_num)
    refine ⟨κ, k1, abs_le.2 ⟨?_, ?_⟩⟩
    · rw [abs_one, div_pow] at k3
      norm_num at k3 hs2 ⊢
      linarith
    · rw [abs_one] at k2
      norm_num at k2 ⊢
      linarith
  · obtain ⟨τ, k1, _, k2, k3⟩ := a4 5 (by norm_num) (by norm_num)
    rw [abs_one, abs_of_pos (by positivity)] at k2 k3
    have h99 : 99 / 100 ≤ Real.sin (1 / 10) / (1 / 10) := by rw [le_div_iff₀ (by norm_num)]; linarith
    obtain ⟨g, hg⟩ : ∃ g, g = Real.sin (1 / 10) / (1 / 10) := ⟨_, rfl⟩
    rw [← hg] at h99 k2 k3
    norm_num at k2 k3
    refine ⟨τ, k1, abs_le.2 ⟨?_, ?_⟩⟩
    · linarith
    · nlinarith

/-- **C97 fails for fine sampling**: with 1001 to 5001 samples per radian the torsion of the unit helix comes out as nearly 0
at all points except three at each end, since vectors not longer than `1e-8` are not normalized; the torsion of the
helix is `1/2`, and 11 samples per radian give that with two digits. -/
theorem C97_fine_sampling_fails (n : Nat) (h1 : 1001 ≤ n) (h2 : n ≤ 5001) :
    ∃ C, helix 0 1 n 1 1 = .ok C ∧ ∀ i : Nat, 3 ≤ i → i + 3 < n → ∃ τ, (torsion C)[i]? = some (.fin τ) ∧ 0 ≤ τ ∧ τ ≤ 1 / 10 ^ 9 := by
  refine ⟨helixC 0 1 1 1 n, helix_eq 0 1 1 1 n (by omega), ?_⟩
  intro i hi1 hi2
  obtain ⟨d, hd⟩ : ∃ d, d = stepOf 0 1 n := ⟨_, rfl⟩
  have h1' : (1001 : ℝ) ≤ n := by exact_mod_cast h1
  have h2' : (n : ℝ) ≤ 5001 := by exact_mod_cast h2
  have d1 : d ≤ 1 / 1000 := by
    rw [hd]; unfold stepOf
    rw [sub_zero]
    apply one_div_le_one_div_of_le <;> linarith
  have d2 : 1 / 5000 ≤ d := by
    rw [hd]; unfold stepOf
    rw [sub_zero]
    apply one_div_le_one_div_of_le <;> linarith
  obtain ⟨s1, s2⟩ := sin_low (x := d) (by linarith) (by linarith)
  obtain ⟨S, hS⟩ : ∃ S, S = Real.sin d := ⟨_, rfl⟩
  rw [← hS] at s1 s2
  have hS0 : 0 < S := by linarith
  obtain ⟨R, hR⟩ : ∃ R, R = helixSpeed 0 1 1 1 n := ⟨_, rfl⟩
  have hRd : d ≤ R := by
    rw [hR]; unfold helixSpeed
    rw [← hd, ← hS]
    apply Real.le_sqrt_of_sq_le
    nlinarith [sq_nonneg S]
  have hd0 : 0 < d := by linarith
  have hR0 : 0 < R := by linarith
  have g1 : 1 / 100000000 < helixSpeed 0 1 1 1 n := by rw [← hR]; linarith
  have g2 : 1 / 100000000 < |(1 : ℝ)| * Real.sin (stepOf 0 1 n) ^ 2 := by
    rw [← hd, ← hS, abs_one, one_mul]
    have : (198 / 1000000 : ℝ) ^ 2 ≤ S ^ 2 := by gcongr; linarith
    norm_num at this ⊢; linarith
  have hcube : d ^ 3 ≤ 1 / 10 ^ 9 := by
    have : d ^ 3 ≤ (1 / 1000) ^ 3 := by gcongr
    norm_num at this ⊢; linarith
  have hb := (helix_binormal 0 1 1 1 n g1 g2 hi1 hi2).2.2.2
  rw [← hd, ← hS, ← hR] at hb
  have hb' : rowNorm (binormal (helixC 0 1 1 1 n)) i ≤ 1 / 100000000 := by
    rw [hb, abs_of_pos (by positivity), div_le_iff₀ hR0]
    have : S ^ 3 ≤ d ^ 3 := by gcongr
    nlinarith
  refine ⟨1 * S ^ 4 * d ^ 2 / R ^ 3, ?_, by positivity, ?_⟩
  · unfold torsion
    rw [List.getElem?_map, List.getElem?_range (by rw [helixC_size]; omega)]
    simp only [Option.map_some, Option.some.injEq]
    rw [helix_torsion 0 1 1 1 n g1 g2 hi1 hi2, frenetNorm_small hb', ← hd, ← hS, ← hR, abs_one, mul_one, mul_one]
  · rw [one_mul]
    calc S ^ 4 * d ^ 2 / R ^ 3 ≤ d ^ 4 * d ^ 2 / d ^ 3 := by gcongr
      _ = d ^ 3 := by field_simp
      _ ≤ _ := hcube

/-- **C97 fails for the sign**: a helix and its mirror image have the same torsion (away from the ends), so the torsion does
not tell left-handed from right-handed helices. -/
theorem C97_handedness_fails (a b p q δ : ℝ) (n : Nat) (hn : 1 ≤ n) (hδ : δ = (b - a) / ((n : ℝ) - 1))
    (h1 : 1 / 10 ^ 8 < √ ((p * Real.sin δ) ^ 2 + (δ * q) ^ 2)) (h2 : 1 / 10 ^ 8 < |p| * Real.sin δ ^ 2)
    (h3 : 1 / 10 ^ 8 < |p * Real.sin δ ^ 3 * (δ * q)| / √ ((p * Real.sin δ) ^ 2 + (δ * q) ^ 2)) :
    ∃ C C', helix a b n p q = .ok C ∧ helix a b n p (-q) = .ok C' ∧ ∀ i : Nat, 3 ≤ i → i + 3 < n →
      ∃ τ, 0 < τ ∧ (torsion C)[i]? = some (.fin τ) ∧ (torsion C')[i]? = some (.fin τ) := by
  have hs : (δ * -q) ^ 2 = (δ * q) ^ 2 := by ring
  obtain ⟨C, c1, c2⟩ := C97_torsion_partial a b p q δ n hn hδ h1 h2 h3
  obtain ⟨C', c1', c2'⟩ := C97_torsion_partial a b p (-q) δ n hn hδ (by rw [hs]; exact h1) h2
    (by rw [hs, mul_neg, mul_neg, abs_neg]; exact h3)
  refine ⟨C, C', c1, c1', ?_⟩
  intro i i1 i2
  obtain ⟨τ, t1, t2, -⟩ := c2 i i1 i2
  obtain ⟨τ', t1', t2', -⟩ := c2' i i1 i2
  refine ⟨τ, ?_, t1, ?_⟩
  · rw [t2]
    have e1 : Real.sin δ ≠ 0 := by intro h; rw [h] at h2; norm_num at h2
    have e2 : δ * q ≠ 0 := by intro h; rw [h] at h3; norm_num at h3
    have := abs_pos.2 e1
    have := abs_pos.2 e2
    positivity
  · rw [t1', t2', t2, hs, mul_neg, abs_neg]

/-! ## Concrete cases -/

example := C95_arc_limit 0 1 2 3 99
example := (C95_helix 0 1 2 3 99).1 50 (by norm_num)
/-- A helix of radius 1 and pitch 1 with steps of 1. -/
example := C97_curvature_partial 0 9 1 1 1 10 (by norm_num) (by norm_num) (by
  refine lt_of_lt_of_le (by norm_num : (1 : ℝ) / 10 ^ 8 < 1) (Real.le_sqrt_of_sq_le ?_)
  nlinarith [sq_nonneg (Real.sin 1)])
theorem exSin1 : (1 : ℝ) / 2 ≤ Real.sin 1 := by
  have := Real.sin_gt_sub_cube (x := 1) one_pos
  norm_num at this; linarith
example := C97_torsion_partial 0 9 1 1 1 10 (by norm_num) (by norm_num) (by
    refine lt_of_lt_of_le (by norm_num : (1 : ℝ) / 10 ^ 8 < 1) (Real.le_sqrt_of_sq_le ?_)
    nlinarith [sq_nonneg (Real.sin 1)])
  (by have := exSin1; rw [abs_one, one_mul]; nlinarith) (by
    have h := exSin1
    have h2 := Real.sin_le_one 1
    have hs : √ (Real.sin 1 ^ 2 + 1 ^ 2) ≤ 2 := Real.sqrt_le_iff.2 ⟨by norm_num, by nlinarith⟩
    have h0 : 0 < √ ((1 * Real.sin 1) ^ 2 + (1 * 1) ^ 2) := Real.sqrt_pos.2 (by positivity)
    rw [lt_div_iff₀ h0, abs_of_pos (by positivity)]
    have : 1 / 8 ≤ Real.sin 1 ^ 3 := by
      calc (1 : ℝ) / 8 = (1 / 2) ^ 3 := by norm_num
        _ ≤ _ := pow_le_pow_left₀ (by norm_num) h 3
    simp only [one_mul, mul_one]
    refine lt_of_lt_of_le ?_ this
    calc (1 : ℝ) / 10 ^ 8 * _ ≤ 1 / 10 ^ 8 * 2 := mul_le_mul_of_nonneg_left hs (by norm_num)
      _ < 1 / 8 := by norm_num)

end Verif.Props
