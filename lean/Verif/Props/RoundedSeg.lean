import Verif.Props.RoundedSmooth
import Verif.Props.Segment
import Verif.Props.SegDist
import Verif.Lemmas.Rnd
import Mathlib.Analysis.SpecialFunctions.Trigonometric.Bounds

/-!
C132: parallelism, angles and nearest parameters of segments in rounded arithmetic.
-/
namespace Verif.Props

open Verif Verif.Np Verif.Model Verif.Spec

theorem DotTo.lin {fl : ℝ → ℝ} {ps : List (ℝ × ℝ)} {z : ℝ} (h : DotTo fl ps z) : LinTo fl ps z := by
  induction h with
  | one h => exact .one h
  | add _ _ hz i1 i2 => exact .add i1 i2 hz

/-- Some order of evaluation exists. -/
theorem dotTo_exists (fl : ℝ → ℝ) : ∀ {ps : List (ℝ × ℝ)}, ps ≠ [] → ∃ z, DotTo fl ps z
  | [p], _ => ⟨_, .one (.inl rfl)⟩
  | p :: q :: ps, _ => by
    obtain ⟨z, h⟩ := dotTo_exists fl (ps := q :: ps) (by simp)
    exact ⟨_, .add (.one (x := p.1) (y := p.2) (.inl rfl)) h (by simp)⟩

theorem vDotTo_exists (fl : ℝ → ℝ) {n : Nat} (hn : 0 < n) (u v : Vec n ℝ) : ∃ z, VDotTo fl u v z :=
  dotTo_exists fl (by simp [List.ofFn_eq_nil_iff]; omega)

/-- The rounded product of two vectors is exact for `fl = id`. -/
theorem dotTo_id {ps : List (ℝ × ℝ)} {z : ℝ} (h : DotTo id ps z) : z = (ps.map fun p => p.1 * p.2).sum := by
  induction h with
  | one h => simpa using h
  | add _ _ hz i1 i2 => rw [(hz.map _).sum_eq, List.map_append, List.sum_append, ← i1, ← i2]; rfl

theorem vDotTo_id {n : Nat} {u v : Vec n ℝ} {z : ℝ} (h : VDotTo id u v z) : z = vdot u v := by
  rw [dotTo_id h, vdot_eq, List.map_ofFn, List.sum_ofFn]; rfl

/-- **C132 (exact).** Without rounding these are the functions of the exact model. -/
theorem C132_exact {n : Nat} (s r : Seg n ℝ) (p : Vec n ℝ) (tol : ℝ) :
    (∀ q, ParallelTo id s r tol q → q = s.parallel r tol) ∧ (∀ q, AngleTo id Real.arccos s r q → q = s.angle r id) ∧
    ∀ t, ToPointTo id s p t → t = segToPoint s p := by
  refine ⟨?_, ?_, ?_⟩
  · rintro q ⟨a, b, c, ha, hb, hc, rfl⟩
    rw [vDotTo_id ha, vDotTo_id hb, vDotTo_id hc]; rfl
  · rintro q ⟨a, b, c, ha, hb, hc, rfl⟩
    rw [vDotTo_id ha, vDotTo_id hb, vDotTo_id hc]; rfl
  · rintro t ⟨a, b, ha, hb, rfl⟩
    rw [vDotTo_id ha, vDotTo_id hb]; rfl

section
variable {ε : ℝ} {fl : ℝ → ℝ} {n : Nat}

theorem pow_gamma {ε : ℝ} (h0 : 0 ≤ ε) {N : Nat} (h : 100 * (N * ε) ≤ 1) : (1 + ε) ^ N - 1 ≤ 1.02 * N * ε := by
  have key : ∀ k : Nat, (1 + ε) ^ k * (1 - k * ε) ≤ 1 := by
    intro k
    induction k with
    | zero => simp
    | succ k ih =>
      have p : 0 ≤ (1 + ε) ^ k := pow_nonneg (by linarith) _
      have q : 0 ≤ (k : ℝ) := Nat.cast_nonneg _
      push_cast
      rw [pow_succ]
      nlinarith [mul_nonneg p (mul_nonneg q (mul_nonneg h0 h0)), mul_nonneg p (mul_nonneg h0 h0)]
  have k := key N
  have x0 : (0 : ℝ) ≤ N * ε := by positivity
  have : (1 + ε) ^ N ≤ 1 + 1.02 * (N * ε) := by
    by_contra hc
    push Not at hc
    nlinarith
  nlinarith

/-- `√A √C` for the sums of squares of two vectors. -/
theorem cauchy_abs (U V : Fin n → ℝ) : ∑ i, |U i * V i| ≤ √ (∑ i, U i ^ 2) * √ (∑ i, V i ^ 2) := by
  have := Finset.sum_mul_sq_le_sq_mul_sq Finset.univ (fun i => |U i|) fun i => |V i|
  simp only [sq_abs] at this
  rw [← Real.sqrt_mul (Finset.sum_nonneg fun i _ => sq_nonneg _)]
  refine Real.le_sqrt_of_sq_le ?_
  simpa only [abs_mul] using this

/-- The rounded product of two rounded differences. -/
theorem vdot_err (hf : Rounding ε fl) {p q p' q' : Vec n ℝ} {z : ℝ} (h : VDotTo fl (subFl fl p q) (subFl fl p' q') z) :
    0 < n ∧ |z - ∑ i, (p i - q i) * (p' i - q' i)| ≤ ((1 + ε) ^ (n + 2) - 1) * ∑ i, |(p i - q i) * (p' i - q' i)| := by
  have e0 := hf.nonneg
  obtain ⟨hn, h1⟩ := lin_err hf (DotTo.lin h)
  simp only [List.length_ofFn, List.map_ofFn, List.sum_ofFn, Function.comp_def] at hn h1
  refine ⟨hn, ?_⟩
  have s1 : ∀ i, |subFl fl p q i * subFl fl p' q' i - (p i - q i) * (p' i - q' i)| ≤ ((1 + ε) ^ 2 - 1) * |(p i - q i) * (p' i - q' i)| := by
    intro i
    unfold subFl
    have a := hf.rel (p i - q i)
    have b := hf.rel (p' i - q' i)
    generalize p i - q i = x at *
    generalize p' i - q' i = y at *
    rw [show fl x * fl y - x * y = (fl x - x) * (fl y - y) + (fl x - x) * y + x * (fl y - y) by ring, abs_mul x y]
    refine (abs_add_three _ _ _).trans ?_
    rw [abs_mul, abs_mul, abs_mul]
    have := mul_le_mul a b (abs_nonneg _) (by positivity)
    have := mul_le_mul_of_nonneg_right a (abs_nonneg y)
    have := mul_le_mul_of_nonneg_left b (abs_nonneg x)
    nlinarith
  have s2 : |∑ i, subFl fl p q i * subFl fl p' q' i - ∑ i, (p i - q i) * (p' i - q' i)| ≤ ((1 + ε) ^ 2 - 1) * ∑ i, |(p i - q i) * (p' i - q' i)| := by
    rw [← Finset.sum_sub_distrib, Finset.mul_sum]
    exact (Finset.abs_sum_le_sum_abs _ _).trans (Finset.sum_le_sum fun i _ => s1 i)
  have s3 : ∑ i, |subFl fl p q i * subFl fl p' q' i| ≤ (1 + ε) ^ 2 * ∑ i, |(p i - q i) * (p' i - q' i)| := by
    rw [Finset.mul_sum]
    refine Finset.sum_le_sum fun i _ => ?_
    have a := s1 i
    have := abs_add_le ((p i - q i) * (p' i - q' i)) (subFl fl p q i * subFl fl p' q' i - (p i - q i) * (p' i - q' i))
    rw [add_sub_cancel] at this
    linarith
  have k : 0 ≤ (1 + ε) ^ n - 1 := by linarith [one_le_pow₀ (show 1 ≤ 1 + ε by linarith) (n := n)]
  have := mul_le_mul_of_nonneg_left s3 k
  have tri := abs_sub_le z (∑ i, subFl fl p q i * subFl fl p' q' i) (∑ i, (p i - q i) * (p' i - q' i))
  rw [pow_add]
  nlinarith

/-- With the product of the lengths. -/
theorem vdot_err' (hf : Rounding ε fl) (hε : 100 * ((n + 2 : ℕ) * ε) ≤ 1) {p q p' q' : Vec n ℝ} {z : ℝ} (h : VDotTo fl (subFl fl p q) (subFl fl p' q') z) :
    |z - ∑ i, (p i - q i) * (p' i - q' i)| ≤ 1.02 * (n + 2 : ℕ) * ε * (√ (∑ i, (p i - q i) ^ 2) * √ (∑ i, (p' i - q' i) ^ 2)) := by
  have e0 := hf.nonneg
  refine (vdot_err hf h).2.trans ?_
  exact mul_le_mul (pow_gamma e0 hε) (cauchy_abs _ _) (Finset.sum_nonneg fun i _ => abs_nonneg _) (by positivity)

/-- The square of a rounded difference. -/
theorem vdot_sq (hf : Rounding ε fl) (hε : 100 * ((n + 2 : ℕ) * ε) ≤ 1) {p q : Vec n ℝ} {z : ℝ} (h : VDotTo fl (subFl fl p q) (subFl fl p q) z) :
    |z - ∑ i, (p i - q i) ^ 2| ≤ 1.02 * (n + 2 : ℕ) * ε * ∑ i, (p i - q i) ^ 2 := by
  have := vdot_err' hf hε h
  rw [Real.mul_self_sqrt (Finset.sum_nonneg fun i _ => sq_nonneg _)] at this
  simpa only [← sq] using this

/-- The last subtraction of the Gram determinant. -/
theorem gram_tail (hf : Rounding ε fl) {P B N g X : ℝ} (P0 : 0 ≤ P) (B2 : B ^ 2 ≤ P) (hN : 3 ≤ N) (eε : ε ≤ 0.0034) (g0 : 0 ≤ g) (g1 : g ≤ 0.0102) (hg : g = 1.02 * N * ε)
    (t3 : |X - (P - B ^ 2)| ≤ 2 * ((2.0102 * g + 1.0206 * ε) * P)) : |fl X - (P - B ^ 2)| ≤ (5 * N + 4) * ε * P := by
  have e0 := hf.nonneg
  have t4 : |X| ≤ 1.05 * P := by
    have := abs_add_le (P - B ^ 2) (X - (P - B ^ 2))
    rw [add_sub_cancel, abs_of_nonneg (sub_nonneg.2 B2)] at this
    have k : 2 * (2.0102 * g + 1.0206 * ε) ≤ 0.05 := by linarith
    have := mul_le_mul_of_nonneg_right k P0
    linarith [sq_nonneg B]
  have := hf.rel X
  have := mul_le_mul_of_nonneg_left t4 e0
  have := abs_sub_le (fl X) X (P - B ^ 2)
  have k : 2 * (2.0102 * g + 1.0206 * ε) + 1.05 * ε ≤ (5 * N + 4) * ε := by
    have := mul_nonneg (show 0 ≤ N by linarith) e0
    rw [hg]; linarith
  have := mul_le_mul_of_nonneg_right k P0
  linarith

/-- **C132 (parallel).** The rounded test of parallelism is right when the exact Gram determinant is away from the tolerance by more than the rounding error
`(5 (n + 2) + 4) ε |u|² |v|²`. -/
theorem C132_parallel (hf : Rounding ε fl) (hε : 100 * ((n + 2 : ℕ) * ε) ≤ 1) {s r : Seg n ℝ} {tol : ℝ} {q : Bool} (h : ParallelTo fl s r tol q) {A B C : ℝ}
    (hA : A = ∑ i, (s.p2 i - s.p1 i) ^ 2) (hB : B = ∑ i, (s.p2 i - s.p1 i) * (r.p2 i - r.p1 i)) (hC : C = ∑ i, (r.p2 i - r.p1 i) ^ 2) :
    (A * C - B ^ 2 + (5 * (n + 2 : ℕ) + 4) * ε * (A * C) < tol → q = true) ∧ (tol ≤ A * C - B ^ 2 - (5 * (n + 2 : ℕ) + 4) * ε * (A * C) → q = false) := by
  obtain ⟨a, b, c, ha, hb, hc, rfl⟩ := h
  have e0 := hf.nonneg
  have ea := vdot_sq hf hε ha
  have ec := vdot_sq hf hε hc
  have eb := vdot_err' hf hε hb
  rw [← hA] at ea eb
  rw [← hC] at ec eb
  rw [← hB] at eb
  have A0 : 0 ≤ A := by rw [hA]; exact Finset.sum_nonneg fun i _ => sq_nonneg _
  have C0 : 0 ≤ C := by rw [hC]; exact Finset.sum_nonneg fun i _ => sq_nonneg _
  rw [← Real.sqrt_mul A0] at eb
  have BP : |B| ≤ √ (A * C) := by
    refine Real.le_sqrt_of_sq_le ?_
    rw [sq_abs, hB, hA, hC]
    exact Finset.sum_mul_sq_le_sq_mul_sq _ _ _
  have P0 : 0 ≤ A * C := mul_nonneg A0 C0
  have Pp := Real.sqrt_nonneg (A * C)
  have P2 := Real.sq_sqrt P0
  obtain ⟨hn, -⟩ := vdot_err hf ha
  have hN : (3 : ℝ) ≤ (n + 2 : ℕ) := by exact_mod_cast (by omega : 3 ≤ n + 2)
  generalize ((n + 2 : ℕ) : ℝ) = N at *
  clear hA hB hC ha hb hc hn
  have g0 : 0 ≤ 1.02 * N * ε := by positivity
  have g1 : 1.02 * N * ε ≤ 0.0102 := by linarith
  have eε : ε ≤ 0.0034 := by nlinarith
  obtain ⟨g, hg⟩ : ∃ g, g = 1.02 * N * ε := ⟨_, rfl⟩
  rw [← hg] at ea eb ec g0 g1
  -- products
  have m1 : |a * c - A * C| ≤ (2 * g + g ^ 2) * (A * C) := by
    rw [show a * c - A * C = (a - A) * (c - C) + (a - A) * C + A * (c - C) by ring]
    refine (abs_add_three _ _ _).trans ?_
    rw [abs_mul, abs_mul, abs_mul, abs_of_nonneg A0, abs_of_nonneg C0]
    have := mul_le_mul ea ec (abs_nonneg _) (by positivity)
    have := mul_le_mul_of_nonneg_right ea C0
    have := mul_le_mul_of_nonneg_left ec A0
    nlinarith
  have m2 : |b * b - B ^ 2| ≤ (2 * g + g ^ 2) * (A * C) := by
    rw [show b * b - B ^ 2 = (b - B) * (b - B) + 2 * ((b - B) * B) by ring]
    refine (abs_add_le _ _).trans ?_
    rw [abs_mul, abs_mul, abs_mul, abs_two]
    have := mul_le_mul eb eb (abs_nonneg _) (by positivity)
    have := mul_le_mul eb BP (abs_nonneg _) (by positivity)
    nlinarith
  have B2 : B ^ 2 ≤ A * C := by rw [← sq_abs B]; nlinarith [abs_nonneg B]
  have r1 := hf.rel (a * c)
  have r2 := hf.rel (b * b)
  have q1 : |a * c| ≤ (1 + g) ^ 2 * (A * C) := by
    have := abs_add_le (A * C) (a * c - A * C)
    rw [add_sub_cancel, abs_of_nonneg P0] at this
    nlinarith
  have q2 : |b * b| ≤ (1 + g) ^ 2 * (A * C) := by
    have := abs_add_le (B ^ 2) (b * b - B ^ 2)
    rw [add_sub_cancel, abs_of_nonneg (sq_nonneg B)] at this
    nlinarith
  have gg : (1 + g) ^ 2 ≤ 1.0206 := by nlinarith
  have q1' : |a * c| ≤ 1.0206 * (A * C) := q1.trans (mul_le_mul_of_nonneg_right gg P0)
  have q2' : |b * b| ≤ 1.0206 * (A * C) := q2.trans (mul_le_mul_of_nonneg_right gg P0)
  have g2 : g ^ 2 ≤ 0.0102 * g := by nlinarith
  have t1 : |fl (a * c) - A * C| ≤ (2.0102 * g + 1.0206 * ε) * (A * C) := by
    have := abs_sub_le (fl (a * c)) (a * c) (A * C)
    have := mul_le_mul_of_nonneg_left q1' e0
    have := mul_le_mul_of_nonneg_right g2 P0
    nlinarith
  have t2 : |fl (b * b) - B ^ 2| ≤ (2.0102 * g + 1.0206 * ε) * (A * C) := by
    have := abs_sub_le (fl (b * b)) (b * b) (B ^ 2)
    have := mul_le_mul_of_nonneg_left q2' e0
    have := mul_le_mul_of_nonneg_right g2 P0
    nlinarith
  have t3 : |fl (a * c) - fl (b * b) - (A * C - B ^ 2)| ≤ 2 * ((2.0102 * g + 1.0206 * ε) * (A * C)) := by
    rw [show fl (a * c) - fl (b * b) - (A * C - B ^ 2) = (fl (a * c) - A * C) - (fl (b * b) - B ^ 2) by ring]
    exact (abs_sub _ _).trans (by linarith)
  have t5 := gram_tail hf P0 B2 hN eε g0 g1 hg t3
  rw [abs_le] at t5
  refine ⟨fun h => ?_, fun h => ?_⟩
  · simp only [decide_eq_true_eq]; linarith [t5.2]
  · simp only [decide_eq_false_iff_not, not_lt]; linarith [t5.1]

/-- The inverse cosine is Hölder continuous. -/
theorem arccos_holder {x y : ℝ} (hx : |x| ≤ 1) (hy : |y| ≤ 1) : |Real.arccos x - Real.arccos y| ≤ Real.pi * √ (|x - y| / 2) := by
  wlog hxy : Real.arccos y ≤ Real.arccos x generalizing x y
  · rw [abs_sub_comm, abs_sub_comm x]; exact this hy hx (le_of_not_ge hxy)
  rw [abs_le] at hx hy
  have cx := Real.cos_arccos hx.1 hx.2
  have cy := Real.cos_arccos hy.1 hy.2
  have a1 := Real.arccos_le_pi x
  have a0 := Real.arccos_nonneg y
  set a := Real.arccos x
  set b := Real.arccos y
  rw [abs_of_nonneg (by linarith)]
  have pp := Real.pi_pos
  set δ := (a - b) / 2 with hδ
  have j : 2 / Real.pi * δ ≤ Real.sin δ := Real.mul_le_sin (by linarith) (by linarith)
  have s1 : Real.sin δ ≤ Real.sin ((a + b) / 2) := by
    rcases le_total ((a + b) / 2) (Real.pi / 2) with h | h
    · exact Real.sin_le_sin_of_le_of_le_pi_div_two (by linarith) h (by linarith)
    · rw [← Real.sin_pi_sub ((a + b) / 2)]
      exact Real.sin_le_sin_of_le_of_le_pi_div_two (by linarith) (by linarith) (by linarith)
  have e : x - y = -2 * Real.sin ((a + b) / 2) * Real.sin ((a - b) / 2) := by rw [← cx, ← cy, Real.cos_sub_cos]
  have j0 : 0 ≤ 2 / Real.pi * δ := mul_nonneg (by positivity) (by linarith)
  have : (δ * 2 / Real.pi) ^ 2 ≤ |x - y| / 2 := by
    rw [e, abs_mul, abs_mul, abs_neg, abs_two, abs_of_nonneg (j0.trans (j.trans s1)), abs_of_nonneg (j0.trans j)]
    have := mul_le_mul (j.trans s1) j j0 (j0.trans (j.trans s1))
    rw [show δ * 2 / Real.pi = 2 / Real.pi * δ by ring, sq]; linarith
  have := Real.le_sqrt_of_sq_le this
  have := mul_le_mul_of_nonneg_left this pp.le
  rw [show Real.pi * (δ * 2 / Real.pi) = a - b by rw [hδ]; field_simp] at this
  exact this

/-- A rounded root. -/
theorem sqrt_fl (hf : Rounding ε fl) {A a g : ℝ} (A0 : 0 ≤ A) (g0 : 0 ≤ g) (g1 : g ≤ 1) (h : |a - A| ≤ g * A) :
    (1 - g) * (1 - ε) * √ A ≤ fl (√ a) ∧ fl (√ a) ≤ (1 + g) * (1 + ε) * √ A := by
  have e0 := hf.nonneg
  have e1 := hf.lt_one
  rw [abs_le] at h
  have p := Real.sqrt_nonneg A
  have lo : (1 - g) * √ A ≤ √ a := by
    refine Real.le_sqrt_of_sq_le ?_
    rw [mul_pow, Real.sq_sqrt A0]
    nlinarith [mul_nonneg (mul_nonneg g0 (sub_nonneg.2 g1)) A0]
  have hi : √ a ≤ (1 + g) * √ A := by
    refine Real.sqrt_le_iff.2 ⟨by positivity, ?_⟩
    rw [mul_pow, Real.sq_sqrt A0]
    nlinarith [mul_nonneg (mul_nonneg g0 g0) A0, mul_nonneg g0 A0]
  have r := hf.rel (√ a)
  rw [abs_of_nonneg (Real.sqrt_nonneg a), abs_le] at r
  have := mul_le_mul_of_nonneg_right lo (sub_nonneg.2 e1.le)
  have := mul_le_mul_of_nonneg_right hi (show 0 ≤ 1 + ε by linarith)
  constructor <;> linarith [r.1, r.2]

/-- The product of two rounded roots. -/
theorem den_err (hf : Rounding ε fl) (eε : ε ≤ 0.0034) {A C a c g : ℝ} (A0 : 0 ≤ A) (C0 : 0 ≤ C) (g0 : 0 ≤ g) (g1 : g ≤ 0.0102) (ha : |a - A| ≤ g * A)
    (hc : |c - C| ≤ g * C) : |fl (fl (√ a) * fl (√ c)) - √ A * √ C| ≤ (2.03 * g + 3.1 * ε) * (√ A * √ C) := by
  have e0 := hf.nonneg
  have e1 := hf.lt_one
  obtain ⟨a1, a2⟩ := sqrt_fl hf A0 g0 (by linarith) ha
  obtain ⟨c1, c2⟩ := sqrt_fl hf C0 g0 (by linarith) hc
  have u := Real.sqrt_nonneg A
  have v := Real.sqrt_nonneg C
  have w := mul_nonneg u v
  have k0 : 0 ≤ (1 - g) * (1 - ε) := mul_nonneg (by linarith) (by linarith)
  have k1 : 0 ≤ (1 + g) * (1 + ε) := by positivity
  have l0 : 0 ≤ fl (√ a) := (mul_nonneg k0 u).trans a1
  have l1 : 0 ≤ fl (√ c) := (mul_nonneg k0 v).trans c1
  have lo : ((1 - g) * (1 - ε)) ^ 2 * (√ A * √ C) ≤ fl (√ a) * fl (√ c) := by
    have := mul_le_mul a1 c1 (mul_nonneg k0 v) l0
    linarith
  have hi : fl (√ a) * fl (√ c) ≤ ((1 + g) * (1 + ε)) ^ 2 * (√ A * √ C) := by
    have := mul_le_mul a2 c2 l1 (mul_nonneg k1 u)
    linarith
  have r := hf.rel (fl (√ a) * fl (√ c))
  rw [abs_of_nonneg (mul_nonneg l0 l1), abs_le] at r
  have gε : g * ε ≤ 0.0102 * ε := mul_le_mul_of_nonneg_right g1 e0
  have gε0 : 0 ≤ g * ε := mul_nonneg g0 e0
  have gg : g * g ≤ 0.0102 * g := mul_le_mul_of_nonneg_right g1 g0
  have εε : ε * ε ≤ 0.0034 * ε := mul_le_mul_of_nonneg_right eε e0
  have b1 : (1 + g) * (1 + ε) ≤ 1 + (g + 1.0102 * ε) := by linarith
  have b2 : ((1 + g) * (1 + ε)) ^ 2 ≤ 1 + (2.0137 * g + 2.045 * ε) := by
    have := mul_le_mul b1 b1 k1 (by positivity)
    nlinarith
  have b3 : ((1 + g) * (1 + ε)) ^ 2 * (1 + ε) ≤ 1 + (2.03 * g + 3.1 * ε) := by
    have := mul_le_mul_of_nonneg_right b2 (show 0 ≤ 1 + ε by linarith)
    nlinarith
  have d1 : 1 - (g + ε) ≤ (1 - g) * (1 - ε) := by linarith
  have d2 : 1 - (2 * g + 2 * ε) ≤ ((1 - g) * (1 - ε)) ^ 2 := by
    have := mul_le_mul d1 d1 (by linarith) k0
    nlinarith [sq_nonneg (g + ε)]
  have d3 : 1 - (2.03 * g + 3.1 * ε) ≤ ((1 - g) * (1 - ε)) ^ 2 * (1 - ε) := by
    have := mul_le_mul_of_nonneg_right d2 (show 0 ≤ 1 - ε by linarith)
    nlinarith
  have f1 := mul_le_mul_of_nonneg_right b3 w
  have f2 := mul_le_mul_of_nonneg_right d3 w
  have f3 := mul_le_mul_of_nonneg_right hi (show 0 ≤ 1 + ε by linarith)
  have f4 := mul_le_mul_of_nonneg_right lo (show 0 ≤ 1 - ε by linarith)
  rw [abs_le]
  constructor <;> linarith [r.1, r.2]

/-- The rounded cosine. -/
theorem cos_err (hf : Rounding ε fl) (eε : ε ≤ 0.0034) {P B b d g N : ℝ} (hN : 3 ≤ N) (P0 : 0 < P) (BP : |B| ≤ P) (g0 : 0 ≤ g) (g1 : g ≤ 0.0102)
    (hg : g = 1.02 * N * ε) (hb : |b - B| ≤ g * P) (hd : |d - P| ≤ (2.03 * g + 3.1 * ε) * P) : |fl (b / d) - B / P| ≤ 5 * N * ε := by
  have e0 := hf.nonneg
  have h1 : 2.03 * g + 3.1 * ε ≤ 0.0313 := by linarith
  have d0 : 0.9687 * P ≤ d := by
    rw [abs_le] at hd
    have := mul_le_mul_of_nonneg_right h1 P0.le
    linarith [hd.1]
  have dp : 0 < d := lt_of_lt_of_le (by positivity) d0
  have q1 : |b / d - B / P| ≤ 1.0324 * (3.03 * g + 3.1 * ε) := by
    rw [show b / d - B / P = ((b - B) * P + B * (P - d)) / (P * d) by field_simp; ring, abs_div, abs_of_pos (mul_pos P0 dp), div_le_iff₀ (mul_pos P0 dp)]
    refine (abs_add_le _ _).trans ?_
    rw [abs_mul, abs_mul, abs_of_pos P0, abs_sub_comm P d]
    have m1 := mul_le_mul_of_nonneg_right hb P0.le
    have m2 := mul_le_mul BP hd (abs_nonneg _) P0.le
    have m3 : 1 * P ≤ 1.0324 * d := by linarith
    have m4 := mul_le_mul_of_nonneg_left m3 (show 0 ≤ (3.03 * g + 3.1 * ε) * P by positivity)
    nlinarith
  have q2 : |b / d| ≤ 1.05 := by
    have := abs_add_le (B / P) (b / d - B / P)
    rw [add_sub_cancel] at this
    have : |B / P| ≤ 1 := by rw [abs_div, abs_of_pos P0, div_le_one P0]; exact BP
    linarith
  have := hf.rel (b / d)
  have := mul_le_mul_of_nonneg_left q2 e0
  have := abs_sub_le (fl (b / d)) (b / d) (B / P)
  have := mul_le_mul_of_nonneg_right hN e0
  have : 1.0324 * (3.03 * g + 3.1 * ε) + 1.05 * ε ≤ 5 * N * ε := by rw [hg]; linarith
  linarith

theorem acos_near {acos : ℝ → ℝ} {η : ℝ} (ha : ∀ x, |x| ≤ 1 → |acos x - Real.arccos x| ≤ η) {x y N : ℝ} (hx : |x| ≤ 1) (hy : |y| ≤ 1) (h : |x - y| ≤ 5 * N * ε) :
    |acos x - Real.arccos y| ≤ η + Real.pi * √ (5 / 2 * N * ε) := by
  have h1 := ha x hx
  have h2 := arccos_holder hx hy
  have h3 := mul_le_mul_of_nonneg_left (Real.sqrt_le_sqrt (show |x - y| / 2 ≤ 5 / 2 * N * ε by linarith)) Real.pi_pos.le
  have := abs_sub_le (acos x) (Real.arccos x) (Real.arccos y)
  linarith

/-- **C132 (angle).** The rounded angle of two segments, with an inverse cosine exact up to `η`, differs from the geometric one by at most `η + π √(5/2 (n + 2) ε)`; it is NaN for
segments whose product of lengths is below, and a number for segments whose product of lengths is above `1e-8` by more than 4 %. -/
theorem C132_angle (hf : Rounding ε fl) (hε : 100 * ((n + 2 : ℕ) * ε) ≤ 1) {acos : ℝ → ℝ} {η : ℝ} (ha : ∀ x, |x| ≤ 1 → |acos x - Real.arccos x| ≤ η) {s r : Seg n ℝ}
    {q : Option ℝ} (h : AngleTo fl acos s r q) {S R : EuclideanSpace ℝ (Fin n)} (hS : S = WithLp.toLp 2 (s.p2 - s.p1)) (hR : R = WithLp.toLp 2 (r.p2 - r.p1)) :
    (∀ θ, q = some θ → |θ - InnerProductGeometry.angle S R| ≤ η + Real.pi * √ (5 / 2 * (n + 2 : ℕ) * ε)) ∧
    (1.04 / 10 ^ 8 ≤ ‖S‖ * ‖R‖ → q ≠ none) ∧ (‖S‖ * ‖R‖ ≤ 0.96 / 10 ^ 8 → q = none) := by
  obtain ⟨a, b, c, ha', hb, hc, hq⟩ := h
  have e0 := hf.nonneg
  have ea := vdot_sq hf hε ha'
  have ec := vdot_sq hf hε hc
  have eb := vdot_err' hf hε hb
  have nS : ‖S‖ = √ (∑ i, (s.p2 i - s.p1 i) ^ 2) := by rw [hS, EuclideanSpace.norm_eq]; simp
  have nR : ‖R‖ = √ (∑ i, (r.p2 i - r.p1 i) ^ 2) := by rw [hR, EuclideanSpace.norm_eq]; simp
  have iSR : inner ℝ S R = ∑ i, (s.p2 i - s.p1 i) * (r.p2 i - r.p1 i) := by
    rw [hS, hR, PiLp.inner_apply]
    refine Finset.sum_congr rfl fun i _ => ?_
    simp [mul_comm]
  obtain ⟨hn, -⟩ := vdot_err hf ha'
  have hN : (3 : ℝ) ≤ (n + 2 : ℕ) := by exact_mod_cast (by omega : 3 ≤ n + 2)
  have A0 : 0 ≤ ∑ i, (s.p2 i - s.p1 i) ^ 2 := Finset.sum_nonneg fun i _ => sq_nonneg _
  have C0 : 0 ≤ ∑ i, (r.p2 i - r.p1 i) ^ 2 := Finset.sum_nonneg fun i _ => sq_nonneg _
  have BP : |∑ i, (s.p2 i - s.p1 i) * (r.p2 i - r.p1 i)| ≤ √ (∑ i, (s.p2 i - s.p1 i) ^ 2) * √ (∑ i, (r.p2 i - r.p1 i) ^ 2) :=
    (Finset.abs_sum_le_sum_abs _ _).trans (cauchy_abs _ _)
  unfold InnerProductGeometry.angle
  rw [iSR, nS, nR]
  clear iSR nS nR hS hR ha' hb hc hn
  generalize ∑ i, (s.p2 i - s.p1 i) ^ 2 = A at *
  generalize ∑ i, (r.p2 i - r.p1 i) ^ 2 = C at *
  generalize ∑ i, (s.p2 i - s.p1 i) * (r.p2 i - r.p1 i) = B at *
  generalize ((n + 2 : ℕ) : ℝ) = N at *
  have eε : ε ≤ 0.0034 := by nlinarith
  have g0 : 0 ≤ 1.02 * N * ε := by positivity
  have g1 : 1.02 * N * ε ≤ 0.0102 := by linarith
  have ed := den_err hf eε A0 C0 g0 g1 ea ec
  have P0 : 0 ≤ √ A * √ C := by positivity
  generalize √ A * √ C = P at *
  generalize fl (fl (√ a) * fl (√ c)) = d at *
  have h1 : 2.03 * (1.02 * N * ε) + 3.1 * ε ≤ 0.0313 := by linarith
  have dd := ed.trans (mul_le_mul_of_nonneg_right h1 P0)
  rw [abs_le] at dd
  have d0 : 0 ≤ d := by linarith [dd.1]
  have hcl : closeK d 0 = true ↔ d ≤ 1 / 10 ^ 8 := by
    unfold closeK atol rtol
    rw [decide_eq_true_eq, sub_zero, abs_zero, mul_zero, add_zero, abs_of_nonneg d0]
    norm_num
  simp only [hcl] at hq
  refine ⟨?_, ?_, ?_⟩
  · intro θ hθ
    rw [hθ] at hq
    split_ifs at hq with hd
    all_goals
      have P1 : 0 < P := by
        rcases P0.lt_or_eq with h | h
        · exact h
        · exfalso; rw [← h] at dd; norm_num at dd hd; linarith [dd.2]
      have key := cos_err hf eε hN P1 BP g0 g1 rfl eb ed
      have hx : |B / P| ≤ 1 := by rw [abs_div, abs_of_pos P1, div_le_one P1]; exact BP
      rw [Option.some.injEq] at hq
      rw [hq]
      refine acos_near ha ?_ hx ?_
      all_goals
        rw [abs_le] at key hx ⊢
        constructor <;> linarith [key.1, key.2, hx.1, hx.2]
  · intro hP hn
    rw [hn, if_neg] at hq
    · split_ifs at hq
    · norm_num at hP ⊢; linarith [dd.1]
  · intro hP
    rw [hq, if_pos]
    norm_num at hP ⊢; linarith [dd.2]

/-- Cutting off at 0 and 1 brings numbers nearer to numbers of the unit interval. -/
theorem clamp_near {q T : ℝ} (h0 : 0 ≤ q) (h1 : q ≤ 1) : |q - max 0 (min 1 T)| ≤ |q - T| := by
  rcases le_total T 0 with h | h
  · rw [min_eq_right (by linarith), max_eq_left h, sub_zero, abs_of_nonneg h0]
    exact le_trans (by linarith) (le_abs_self _)
  · rcases le_total T 1 with h' | h'
    · rw [min_eq_right h', max_eq_right h]
    · rw [min_eq_left h', max_eq_right zero_le_one, abs_sub_comm, abs_of_nonneg (by linarith), abs_sub_comm]
      exact le_trans (by linarith) (le_abs_self _)

theorem quot_err {C1 C2 c1 c2 g w q T : ℝ} (C0 : 0 ≤ C2) (g0 : 0 ≤ g) (q0 : 0 ≤ q) (q1 : q ≤ 1) (hC1 : C1 = T * C2) (hc1 : c1 = q * c2)
    (E1 : -(g * w * C2) ≤ c1 - C1 ∧ c1 - C1 ≤ g * w * C2) (E2 : -(g * C2) ≤ c2 - C2 ∧ c2 - C2 ≤ g * C2) : |q - T| * C2 ≤ (g * w + g) * C2 := by
  nth_rewrite 1 [← abs_of_nonneg C0]
  rw [← abs_mul, sub_mul, ← hC1]
  have h2 : |C2 - c2| ≤ g * C2 := by rw [abs_le]; constructor <;> linarith [E2.1, E2.2]
  have : |q * (C2 - c2)| ≤ 1 * (g * C2) := by
    rw [abs_mul, abs_of_nonneg q0]
    exact mul_le_mul q1 h2 (abs_nonneg _) zero_le_one
  have e : q * C2 - C1 = (c1 - C1) + q * (C2 - c2) := by rw [hc1]; ring
  rw [e]
  refine (abs_add_le _ _).trans ?_
  have : |c1 - C1| ≤ g * w * C2 := by rw [abs_le]; exact E1
  linarith

/-- **C132 (nearest parameter).** The rounded parameter of the point of a segment nearest to a point lies in the unit interval, and differs from the exact one (the cut off projection) by the
tolerances of the code, `1e-5` and `1e-8 / |s|²`, and the rounding error. -/
theorem C132_nearest (hf : Rounding ε fl) (h1 : fl 1 = 1) {s : Seg n ℝ} {p : Vec n ℝ} {t : ℝ} (h : ToPointTo fl s p t) :
    (0 ≤ t ∧ t ≤ 1) ∧
    ∀ C1 C2 D : ℝ, C1 = ∑ i, (p i - s.p1 i) * (s.p2 i - s.p1 i) → C2 = ∑ i, (s.p2 i - s.p1 i) ^ 2 → D = √ (∑ i, (p i - s.p1 i) ^ 2) → 0 < C2 →
      100 * ((n + 2 : ℕ) * ε) ≤ 1 →
      |t - max 0 (min 1 (C1 / C2))| ≤ 1 / 10 ^ 5 + 1 / 10 ^ 8 / C2 + 2 * (n + 2 : ℕ) * ε * (1 + D / √ C2) := by
  obtain ⟨c1, c2, k1, k2, ht⟩ := h
  have e0 := hf.nonneg
  have quot : ¬ (c1 < 0 ∨ closeK c1 0 = true) → ¬ (c2 < c1 ∨ closeK c2 c1 = true) → 0 < c1 ∧ c1 ≤ c2 ∧ 0 ≤ c1 / c2 ∧ c1 / c2 ≤ 1 := by
    intro a b
    push Not at a b
    have c0 : 0 < c1 := by
      rcases a.1.lt_or_eq with h | h
      · exact h
      · exfalso; apply a.2; rw [← h]; simp [closeK, atol]
    have := c0.trans_le b.1
    exact ⟨c0, b.1, by positivity, (div_le_one this).2 b.1⟩
  constructor
  · rw [ht]
    split_ifs with a b
    · exact ⟨le_rfl, zero_le_one⟩
    · exact ⟨zero_le_one, le_rfl⟩
    · obtain ⟨-, -, u, v⟩ := quot a b
      exact ⟨fl_nonneg hf u, h1 ▸ hf.mono v⟩
  · intro C1 C2 D hC1 hC2 hD C2p hε
    have E1 := vdot_err' hf hε k1
    have E2 := vdot_sq hf hε k2
    rw [← hC1, ← hC2, ← hD] at E1
    rw [← hC2] at E2
    obtain ⟨hn, -⟩ := vdot_err hf k1
    have hN : (3 : ℝ) ≤ (n + 2 : ℕ) := by exact_mod_cast (by omega : 3 ≤ n + 2)
    have D0 : 0 ≤ D := by rw [hD]; exact Real.sqrt_nonneg _
    clear hC1 hC2 hD k1 k2 hn
    generalize ((n + 2 : ℕ) : ℝ) = N at *
    have r0 : 0 < √ C2 := Real.sqrt_pos.2 C2p
    have r2 : √ C2 * √ C2 = C2 := Real.mul_self_sqrt C2p.le
    have eε : ε ≤ 0.0034 := by nlinarith
    have g0 : 0 ≤ 1.02 * N * ε := by positivity
    have g1 : 1.02 * N * ε ≤ 0.0102 := by linarith
    have gN : 1.02 * N * ε + ε ≤ 2 * N * ε := by nlinarith
    obtain ⟨g, hg⟩ : ∃ g, g = 1.02 * N * ε := ⟨_, rfl⟩
    rw [← hg] at E1 E2 g0 g1 gN
    obtain ⟨w, hw⟩ : ∃ w, w = D / √ C2 := ⟨_, rfl⟩
    have hDw : D * √ C2 = w * C2 := by rw [hw, div_mul_eq_mul_div, eq_div_iff r0.ne', mul_assoc, r2]
    have w0 : 0 ≤ w := by rw [hw]; positivity
    rw [hDw, ← mul_assoc] at E1
    rw [← hw]
    obtain ⟨T, hT⟩ : ∃ T, T = C1 / C2 := ⟨_, rfl⟩
    have hC1 : C1 = T * C2 := by rw [hT]; field_simp
    rw [← hT]
    obtain ⟨κ, hκ⟩ : ∃ κ, κ = 1 / 10 ^ 8 / C2 := ⟨_, rfl⟩
    have hκ' : κ * C2 = 1 / 10 ^ 8 := by rw [hκ]; field_simp
    have κ0 : 0 ≤ κ := by rw [hκ]; positivity
    rw [← hκ]
    have gw : g * w ≤ 2 * N * ε * w := mul_le_mul_of_nonneg_right (by linarith) w0
    rw [abs_le] at E1 E2
    rw [ht]
    split_ifs with a b
    · -- cut off at 0
      have hc : c1 ≤ 1 / 10 ^ 8 := by
        rcases a with a | a
        · exact a.le.trans (by norm_num)
        · unfold closeK atol rtol at a
          rw [decide_eq_true_eq, sub_zero, abs_zero, mul_zero, add_zero, abs_le] at a
          have := a.2; norm_num at this ⊢; exact this
      have : T * C2 ≤ (κ + g * w) * C2 := by rw [← hC1, add_mul, hκ']; linarith [E1.1]
      have T1 : T ≤ κ + g * w := le_of_mul_le_mul_right this C2p
      have m1 : max 0 (min 1 T) ≤ κ + g * w := max_le (by positivity) ((min_le_right _ _).trans T1)
      rw [zero_sub, abs_neg, abs_of_nonneg (le_max_left _ _)]
      nlinarith
    · -- cut off at 1
      have hc : c2 ≤ c1 + (1 / 10 ^ 8 + 1 / 10 ^ 5 * c1) := by
        push Not at a
        rcases b with b | b
        · have := a.1; linarith
        · unfold closeK atol rtol at b
          rw [decide_eq_true_eq, abs_of_nonneg a.1, abs_le] at b
          have := b.2; norm_num at this ⊢; linarith
      -- 1 - T
      have m : (1 - T) * C2 ≤ (1 / 10 ^ 5 + κ + g * (1 + w)) * C2 := by
        rw [sub_mul, ← hC1, add_mul, add_mul, hκ']
        have : 1 * C2 - g * C2 ≤ c2 := by linarith [E2.1]
        have : c1 ≤ C1 + g * w * C2 := by linarith [E1.2]
        have q : (1 - 1 / 10 ^ 5) * (c1 + 1 / 10 ^ 5 * c1) ≤ c1 := by
          push Not at a
          nlinarith [a.1]
        have := mul_le_mul_of_nonneg_left hc (show (0 : ℝ) ≤ 1 - 1 / 10 ^ 5 by norm_num)
        nlinarith [mul_nonneg g0 C2p.le]
      have T1 := le_of_mul_le_mul_right m C2p
      have n0 : 0 ≤ g * (1 + w) := by positivity
      have m1 : 1 - (1 / 10 ^ 5 + κ + g * (1 + w)) ≤ max 0 (min 1 T) := le_max_of_le_right (le_min (by linarith) (by linarith))
      have m2 : max 0 (min 1 T) ≤ 1 := max_le zero_le_one (min_le_left _ _)
      rw [abs_of_nonneg (by linarith)]
      nlinarith
    · obtain ⟨c0, cc, q0, q1⟩ := quot a b
      have r := hf.rel (c1 / c2)
      rw [abs_of_nonneg q0] at r
      have r' : ε * (c1 / c2) ≤ ε := by nlinarith
      have near := clamp_near q0 q1 (T := T)
      have cp : 0 < c2 := c0.trans_le cc
      obtain ⟨q, hq⟩ : ∃ q, q = c1 / c2 := ⟨_, rfl⟩
      have hc1 : c1 = q * c2 := by rw [hq]; field_simp
      rw [← hq] at near q0 q1 r r' ⊢
      have d := quot_err (T := T) C2p.le g0 q0 q1 hC1 hc1 E1 E2
      have d' := le_of_mul_le_mul_right d C2p
      have := abs_sub_le (fl q) q (max 0 (min 1 T))
      have : (0 : ℝ) ≤ 1 / 10 ^ 5 := by norm_num
      linarith

/-- **C132 (nearest point).** So the distance at the computed parameter exceeds the distance from the point to the segment by at most that error times the length of the segment. -/
theorem C132_distance (hf : Rounding ε fl) (h1 : fl 1 = 1) (hε : 100 * ((n + 2 : ℕ) * ε) ≤ 1) {s : Seg n ℝ} {p : Vec n ℝ} {t : ℝ} (h : ToPointTo fl s p t)
    (hs : s.p1 ≠ s.p2) {x : ℝ} (x0 : 0 ≤ x) (x1 : x ≤ 1) :
    Model.edist (s.point t) p ≤ Model.edist (s.point x) p +
      (1 / 10 ^ 5 + 1 / 10 ^ 8 / s.seglen ^ 2 + 2 * (n + 2 : ℕ) * ε * (1 + Model.edist p s.p1 / s.seglen)) * s.seglen := by
  have L2 : s.seglen ^ 2 = ∑ i, (s.p2 i - s.p1 i) ^ 2 := by
    unfold Seg.seglen Model.edist
    rw [Real.sq_sqrt (Finset.sum_nonneg fun i _ => sq_nonneg _)]
    exact Finset.sum_congr rfl fun i _ => by ring
  have Lp : 0 < s.seglen := by
    rcases (Model.edist_nonneg s.p1 s.p2).lt_or_eq with h | h
    · exact h
    · exact absurd (Model.edist_eq_zero.1 h.symm) hs
  have C2p : 0 < s.seglen ^ 2 := by positivity
  have key := (C132_nearest hf h1 h).2 _ (s.seglen ^ 2) (Model.edist p s.p1) rfl L2 rfl C2p hε
  rw [Real.sqrt_sq Lp.le] at key
  have hsum : ∑ i, (p i - s.p1 i) * (s.p2 i - s.p1 i) = vdot (p - s.p1) s.direction := by rw [vdot_eq]; rfl
  have hsum2 : s.seglen ^ 2 = vdot s.direction s.direction := by rw [L2, vdot_eq]; simp [sq, Seg.direction]
  rw [hsum] at key
  set T := vdot (p - s.p1) s.direction / s.seglen ^ 2 with hT
  have hC1 : vdot (p - s.p1) s.direction = T * s.seglen ^ 2 := by rw [hT]; field_simp
  -- the exact parameter is the best one
  have best : Model.edist (s.point (max 0 (min 1 T))) p ≤ Model.edist (s.point x) p := by
    refine le_of_sq_le_sq ?_ (Model.edist_nonneg _ _)
    rw [sq_to_point, sq_to_point, hC1, ← hsum2]
    generalize s.seglen ^ 2 = L at *
    have : (max 0 (min 1 T) - T) ^ 2 ≤ (x - T) ^ 2 := by
      rcases le_total T 0 with h | h
      · rw [min_eq_right (by linarith), max_eq_left h]; nlinarith
      · rcases le_total T 1 with h' | h'
        · rw [min_eq_right h', max_eq_right h]; nlinarith [sq_nonneg (x - T)]
        · rw [min_eq_left h', max_eq_right zero_le_one]; nlinarith
    nlinarith [mul_le_mul_of_nonneg_left this C2p.le]
  have step : Model.edist (s.point t) (s.point (max 0 (min 1 T))) = |t - max 0 (min 1 T)| * s.seglen := by
    rw [edist_eq_vnorm, Seg.point_eq, Seg.point_eq, add_sub_add_left_eq_sub, ← sub_smul]
    unfold vnorm
    rw [smul_vdot, vdot_smul, ← hsum2, ← mul_assoc, Real.sqrt_mul (mul_self_nonneg _), Real.sqrt_mul_self_eq_abs, Real.sqrt_sq Lp.le]
  have tri := Model.edist_triangle (s.point t) (s.point (max 0 (min 1 T))) p
  rw [step] at tri
  have := mul_le_mul_of_nonneg_right key Lp.le
  linarith

end

/-! ## Binary64 -/

/-- `0.2` and `1.4` in binary64. -/
noncomputable def d02 : ℝ := 7205759403792794 * 2⁻¹ ^ 55
noncomputable def d14 : ℝ := 6305039478318694 * 2⁻¹ ^ 52

/-- The segments `((0, 0), (0.2, 0.4))` and `((0, 0), (1.4, 2.8))`. -/
noncomputable def segA : Seg 2 ℝ := ⟨![0, 0], ![d02, 2 * d02]⟩
noncomputable def segB : Seg 2 ℝ := ⟨![0, 0], ![d14, 2 * d14]⟩

theorem dotTo_two {fl : ℝ → ℝ} (u v : Vec 2 ℝ) : VDotTo fl u v (fl (fl (u 0 * v 0) + fl (u 1 * v 1))) := by
  unfold VDotTo
  exact .add (.one (.inl rfl)) (.one (.inl rfl)) (by simp [List.ofFn_succ])

theorem rnd_of (x : ℝ) (m k : ℤ) (hm : |m| ≤ 2 ^ 53) (h : x = m * 2 ^ k) : rnd x = x := by rw [h]; exact rnd_rep m k hm

/-- **C132, violated (parallel).** In binary64 two segments whose directions are exact multiples of each other need not be parallel: for `0.2, 0.4` and `1.4, 2.8` the determinant comes out as `2^-51`, above the tolerance `2^-52`. -/
theorem C132_parallel_fails : (∃ k : ℝ, segB.p2 - segB.p1 = k • (segA.p2 - segA.p1)) ∧ (∀ i, rnd (segA.p2 i) = segA.p2 i) ∧ (∀ i, rnd (segB.p2 i) = segB.p2 i) ∧
    segA.parallel segB F_EPS = true ∧ ParallelTo rnd segA segB F_EPS false := by
  have rA : rnd d02 = d02 := rnd_of _ 7205759403792794 (-55) (by norm_num) (by unfold d02; norm_num)
  have rA2 : rnd (2 * d02) = 2 * d02 := rnd_of _ 7205759403792794 (-54) (by norm_num) (by unfold d02; norm_num)
  have rB : rnd d14 = d14 := rnd_of _ 6305039478318694 (-52) (by norm_num) (by unfold d14; norm_num)
  have rB2 : rnd (2 * d14) = 2 * d14 := rnd_of _ 6305039478318694 (-51) (by norm_num) (by unfold d14; norm_num)
  have par : ∃ k : ℝ, segB.p2 - segB.p1 = k • (segA.p2 - segA.p1) := by
    refine ⟨d14 / d02, ?_⟩
    have : d02 ≠ 0 := by unfold d02; norm_num
    funext i
    fin_cases i
    · simp [segA, segB]; field_simp
    · simp [segA, segB]; field_simp
  refine ⟨par, fun i => by fin_cases i <;> simp [segA, rA, rA2], fun i => by fin_cases i <;> simp [segB, rB, rB2], ?_, ?_⟩
  · obtain ⟨k, h⟩ := par
    exact (C28_parallel segA segB (by simp [F_EPS])).1 ⟨k, .inr h⟩
  · refine ⟨_, _, _, dotTo_two _ _, dotTo_two _ _, dotTo_two _ _, ?_⟩
    simp only [subFl, segA, segB, Matrix.cons_val_zero, Matrix.cons_val_one, sub_zero, rA, rA2, rB, rB2]
    have a1 : rnd (d02 * d02) = 5764607523034236 * 2⁻¹ ^ 57 := by
      rw [rnd_value (-5) 5764607523034236 (by unfold d02; norm_num) (by unfold d02; norm_num) (.inl (by unfold d02; rw [abs_lt]; norm_num))]; norm_num
    have a2 : rnd (2 * d02 * (2 * d02)) = 5764607523034236 * 2⁻¹ ^ 55 := by
      rw [rnd_value (-3) 5764607523034236 (by unfold d02; norm_num) (by unfold d02; norm_num) (.inl (by unfold d02; rw [abs_lt]; norm_num))]; norm_num
    have a3 : rnd (5764607523034236 * 2⁻¹ ^ 57 + 5764607523034236 * 2⁻¹ ^ 55) = 7205759403792795 * 2⁻¹ ^ 55 := by
      rw [rnd_value (-3) 7205759403792795 (by norm_num) (by norm_num) (.inl (by rw [abs_lt]; norm_num))]; norm_num
    have b1 : rnd (d02 * d14) = 5044031582654955 * 2⁻¹ ^ 54 := by
      rw [rnd_value (-2) 5044031582654955 (by unfold d02 d14; norm_num) (by unfold d02 d14; norm_num) (.inl (by unfold d02 d14; rw [abs_lt]; norm_num))]; norm_num
    have b2 : rnd (2 * d02 * (2 * d14)) = 5044031582654955 * 2⁻¹ ^ 52 := by
      rw [rnd_value 0 5044031582654955 (by unfold d02 d14; norm_num) (by unfold d02 d14; norm_num) (.inl (by unfold d02 d14; rw [abs_lt]; norm_num))]; norm_num
    have b3 : rnd (5044031582654955 * 2⁻¹ ^ 54 + 5044031582654955 * 2⁻¹ ^ 52) = 6305039478318694 * 2⁻¹ ^ 52 := by
      rw [rnd_value 0 6305039478318694 (by norm_num) (by norm_num) (.inl (by rw [abs_lt]; norm_num))]; norm_num
    have c1 : rnd (d14 * d14) = 8827055269646171 * 2⁻¹ ^ 52 := by
      rw [rnd_value 0 8827055269646171 (by unfold d14; norm_num) (by unfold d14; norm_num) (.inl (by unfold d14; rw [abs_lt]; norm_num))]; norm_num
    have c2 : rnd (2 * d14 * (2 * d14)) = 8827055269646171 * 2⁻¹ ^ 50 := by
      rw [rnd_value 2 8827055269646171 (by unfold d14; norm_num) (by unfold d14; norm_num) (.inl (by unfold d14; rw [abs_lt]; norm_num))]; norm_num
    have c3 : rnd (8827055269646171 * 2⁻¹ ^ 52 + 8827055269646171 * 2⁻¹ ^ 50) = 5516909543528857 * 2⁻¹ ^ 49 := by
      rw [rnd_value 3 5516909543528857 (by norm_num) (by norm_num) (.inl (by rw [abs_lt]; norm_num))]; norm_num
    have e1 : rnd (7205759403792795 * 2⁻¹ ^ 55 * (5516909543528857 * 2⁻¹ ^ 49)) = 8827055269646173 * 2⁻¹ ^ 52 := by
      rw [rnd_value 0 8827055269646173 (by norm_num) (by norm_num) (.inl (by rw [abs_lt]; norm_num))]; norm_num
    have e2 : rnd (6305039478318694 * 2⁻¹ ^ 52 * (6305039478318694 * 2⁻¹ ^ 52)) = 8827055269646171 * 2⁻¹ ^ 52 := by
      rw [rnd_value 0 8827055269646171 (by norm_num) (by norm_num) (.inl (by rw [abs_lt]; norm_num))]; norm_num
    have e3 : rnd (8827055269646173 * 2⁻¹ ^ 52 - 8827055269646171 * 2⁻¹ ^ 52) = 2⁻¹ ^ 51 := by
      rw [rnd_of _ 1 (-51) (by norm_num) (by norm_num)]; norm_num
    rw [a1, a2, a3, b1, b2, b3, c1, c2, c3, e1, e2, e3, eq_comm, decide_eq_false_iff_not]
    simp only [F_EPS]
    norm_num

/-- **C132, violated (angle).** In binary64 the angle of the segment from (0, 0) to (1, 1) with itself is not 0: the cosine comes out as `1 - 2^-52`. -/
theorem C132_angle_fails : (⟨![0, 0], ![1, 1]⟩ : Seg 2 ℝ).angle ⟨![0, 0], ![1, 1]⟩ id = some 0 ∧
    AngleTo rnd Real.arccos (⟨![0, 0], ![1, 1]⟩ : Seg 2 ℝ) ⟨![0, 0], ![1, 1]⟩ (some (Real.arccos (1 - 2⁻¹ ^ 52))) ∧ 1 / 10 ^ 8 < Real.arccos (1 - 2⁻¹ ^ 52) := by
  refine ⟨?_, ?_, ?_⟩
  · refine C30_self _ ?_
    have : (⟨![0, 0], ![1, 1]⟩ : Seg 2 ℝ).seglen = √ 2 := by
      unfold Seg.seglen Model.edist
      norm_num [Fin.sum_univ_two]
    unfold Proper
    rw [this, Real.mul_self_sqrt (by norm_num)]
    norm_num
  · refine ⟨_, _, _, dotTo_two _ _, dotTo_two _ _, dotTo_two _ _, ?_⟩
    have r1 : rnd 1 = 1 := by have := rnd_int 1 (by norm_num); simpa using this
    have r2 : rnd 2 = 2 := by have := rnd_int 2 (by norm_num); simpa using this
    simp only [subFl, Matrix.cons_val_zero, Matrix.cons_val_one, sub_zero, mul_one, r1]
    norm_num only
    rw [r2]
    have hs : rnd (√ 2) = 6369051672525773 * 2⁻¹ ^ 52 := by
      have q := Real.sq_sqrt (show (0 : ℝ) ≤ 2 by norm_num)
      have q0 := Real.sqrt_nonneg 2
      have lo : 6369051672525772.51 * 2⁻¹ ^ 52 < √ 2 := Real.lt_sqrt_of_sq_lt (by norm_num)
      have hi : √ 2 < 6369051672525773.4 * 2⁻¹ ^ 52 := (Real.sqrt_lt' (by norm_num)).2 (by norm_num)
      rw [rnd_value 0 6369051672525773 (by norm_num at lo ⊢) (by norm_num at hi ⊢) (.inl (by rw [abs_lt]; norm_num at lo hi ⊢; constructor <;> linarith))]
      norm_num
    have hm : rnd (6369051672525773 * 2⁻¹ ^ 52 * (6369051672525773 * 2⁻¹ ^ 52)) = 4503599627370497 * 2⁻¹ ^ 51 := by
      rw [rnd_value 1 4503599627370497 (by norm_num) (by norm_num) (.inl (by rw [abs_lt]; norm_num))]; norm_num
    have hq : rnd (2 / (4503599627370497 * 2⁻¹ ^ 51)) = 1 - 2⁻¹ ^ 52 := by
      rw [rnd_value (-1) 9007199254740990 (by norm_num) (by norm_num) (.inl (by rw [abs_lt]; norm_num))]; norm_num
    have hc : ¬ closeK (4503599627370497 * 2⁻¹ ^ 51 : ℝ) 0 = true := by simp only [closeK, atol, rtol, decide_eq_true_eq, not_le]; norm_num
    rw [hs, hm, hq, if_neg hc, if_neg (by norm_num), if_neg (by norm_num)]
    norm_num
  · rw [← Real.arccos_cos (x := 1 / 10 ^ 8) (by norm_num) (by have := Real.two_le_pi; linarith)]
    have := Real.one_sub_sq_div_two_le_cos (x := 1 / 10 ^ 8)
    refine Real.arccos_lt_arccos ?_ ?_ ?_
    · norm_num
    · refine lt_of_lt_of_le ?_ this; norm_num
    · exact Real.cos_le_one _

/-- The bounds hold for binary64 and points of the plane. -/
example {s : Seg 2 ℝ} {p : Vec 2 ℝ} {t : ℝ} (h : ToPointTo rnd s p t) : 0 ≤ t ∧ t ≤ 1 :=
  (C132_nearest rnd_rounding (by simpa using rnd_int 1 (by norm_num)) h).1

example {s r : Seg 3 ℝ} {q : Bool} (h : ParallelTo rnd s r F_EPS q) (h0 : ∑ i, (s.p2 i - s.p1 i) ^ 2 = 1) (h1 : ∑ i, (r.p2 i - r.p1 i) ^ 2 = 1)
    (h2 : ∑ i, (s.p2 i - s.p1 i) * (r.p2 i - r.p1 i) = 0) : q = false := by
  refine (C132_parallel rnd_rounding (by norm_num) h h0.symm h2.symm h1.symm).2 ?_
  simp only [F_EPS]; norm_num

example (s r : Seg 3 ℝ) (p : Vec 3 ℝ) : (∃ q, ParallelTo rnd s r F_EPS q) ∧ (∃ q, AngleTo rnd Real.arccos s r q) ∧ ∃ t, ToPointTo rnd s p t := by
  obtain ⟨a, ha⟩ := vDotTo_exists rnd (by norm_num) (subFl rnd s.p2 s.p1) (subFl rnd s.p2 s.p1)
  obtain ⟨b, hb⟩ := vDotTo_exists rnd (by norm_num) (subFl rnd s.p2 s.p1) (subFl rnd r.p2 r.p1)
  obtain ⟨c, hc⟩ := vDotTo_exists rnd (by norm_num) (subFl rnd r.p2 r.p1) (subFl rnd r.p2 r.p1)
  obtain ⟨d, hd⟩ := vDotTo_exists rnd (by norm_num) (subFl rnd p s.p1) (subFl rnd s.p2 s.p1)
  exact ⟨⟨_, a, b, c, ha, hb, hc, rfl⟩, ⟨_, a, b, c, ha, hb, hc, rfl⟩, ⟨_, d, a, hd, ha, rfl⟩⟩

/-! ## Concrete cases -/

example := (C132_exact (⟨![0, 0], ![2, 2]⟩ : Seg 2 ℝ) ⟨![0, 2], ![2, 0]⟩ ![1, 5] F_EPS).2.2
example {q : Option ℝ} (h : AngleTo rnd Real.arccos (⟨![0, 0], ![2, 2]⟩ : Seg 2 ℝ) ⟨![0, 2], ![2, 0]⟩ q) :=
  (C132_angle rnd_rounding (by norm_num) (η := 0) (by simp) h rfl rfl).1
example {t : ℝ} (h : ToPointTo rnd (⟨![0, 0], ![2, 2]⟩ : Seg 2 ℝ) ![1, 5] t) := C132_distance rnd_rounding (by simpa using rnd_int 1 (by norm_num)) (by norm_num) h
  (fun h => by have := congrFun h 0; simp at this) (x := 1 / 2) (by norm_num) (by norm_num)

end Verif.Props
