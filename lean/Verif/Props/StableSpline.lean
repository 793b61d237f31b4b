import Verif.Props.Stable
import Verif.Props.AffineInterp
import Verif.Props.AccuracySavgol

/-!
C153, continued: natural cubic splines and Savitzky–Golay smoothing under small changes of the points.
-/
namespace Verif.Props

open Verif Verif.Np Verif.Model Verif.Spec

/-! ### Distances through sums of coordinates -/

/-- The length of a vector given by its coordinates. -/
noncomputable def wlen (n : Nat) (w : Nat → ℝ) : ℝ := √(∑ j ∈ Finset.range n, w j ^ 2)

theorem gap_eq_wlen (n : Nat) (a b : List ℝ) : gap n a b = wlen n (fun j => a.getD j 0 - b.getD j 0) := by
  rw [gap_eq_sqrt, wlen, Finset.sum_range]
  congr 1
  apply Finset.sum_congr rfl
  intro j _
  ring

theorem wsum_le (n : Nat) (w : Nat → ℝ) (a b : List ℝ) : |∑ j ∈ Finset.range n, w j * (a.getD j 0 - b.getD j 0)| ≤ wlen n w * gap n a b := by
  rw [gap_eq_wlen]
  refine (Real.abs_le_sqrt (Finset.sum_mul_sq_le_sq_mul_sq (Finset.range n) w fun j => a.getD j 0 - b.getD j 0)).trans (le_of_eq ?_)
  exact Real.sqrt_mul (Finset.sum_nonneg fun _ _ => sq_nonneg _) _

/-- If every sum of the differences of the coordinates is small, so is the distance. -/
theorem gap_le_of_sums {n : Nat} {a b : List ℝ} {K : ℝ} (hK : 0 ≤ K) (h : ∀ w : Nat → ℝ, |∑ j ∈ Finset.range n, w j * (a.getD j 0 - b.getD j 0)| ≤ wlen n w * K) :
    gap n a b ≤ K := by
  have h1 := h (fun j => a.getD j 0 - b.getD j 0)
  rw [← gap_eq_wlen] at h1
  have e : ∑ j ∈ Finset.range n, (a.getD j 0 - b.getD j 0) * (a.getD j 0 - b.getD j 0) = gap n a b ^ 2 := by
    rw [gap_eq_wlen, wlen, Real.sq_sqrt (Finset.sum_nonneg fun _ _ => sq_nonneg _)]
    exact Finset.sum_congr rfl fun _ _ => by ring
  rw [e, abs_of_nonneg (sq_nonneg _)] at h1
  have h0 : 0 ≤ gap n a b := dist_nonneg
  by_contra hc
  rw [not_le] at hc
  nlinarith

theorem wlen_nonneg (n : Nat) (w : Nat → ℝ) : 0 ≤ wlen n w := Real.sqrt_nonneg _

/-! ### The natural system -/

/-- The slopes of a natural spline through small values are small. -/
theorem natural_bound {n : Nat} (hn : 2 ≤ n) {x y d : Nat → ℝ} {m B : ℝ} (hm : 0 < m) (hx : ∀ i, i + 1 < n → m ≤ x (i + 1) - x i)
    (h : NaturalSystem n x y d) (hB : ∀ i, i < n → |y i| ≤ B) : ∀ k, k < n → |d k| ≤ 6 * B / m := by
  obtain ⟨k, hk, hmax⟩ : ∃ k, k < n ∧ ∀ i, i < n → |d i| ≤ |d k| := by
    obtain ⟨k, hk, hm⟩ := Finset.exists_max_image (Finset.range n) (fun i => |d i|) ⟨0, by simp; omega⟩
    exact ⟨k, by simpa using hk, fun i hi => hm i (by simpa using hi)⟩
  have hB0 : 0 ≤ B := (abs_nonneg _).trans (hB 0 (by omega))
  have hdif : ∀ i j, i < n → j < n → |y i - y j| ≤ 2 * B := fun i j hi hj => by
    have := abs_sub (y i) (y j)
    linarith [hB i hi, hB j hj]
  have slope : ∀ i, i + 1 < n → |(y (i + 1) - y i) / (x (i + 1) - x i)| ≤ 2 * B / (x (i + 1) - x i) := fun i hi => by
    have h1 := hx i hi
    rw [abs_div, abs_of_pos (by linarith : 0 < x (i + 1) - x i)]
    exact div_le_div_of_nonneg_right (hdif (i + 1) i (by omega) (by omega)) (by linarith)
  have ek : |d k| ≤ 6 * B / m := by
    rw [le_div_iff₀ hm]
    have a0 := abs_nonneg (d k)
    by_cases k0 : k = 0
    · subst k0
      have hp := hx 0 (by omega)
      rw [zero_add] at hp
      have e1 : 2 * ((x 1 - x 0) * d 0) = 3 * (y 1 - y 0) - (x 1 - x 0) * d 1 := by linarith [h.first]
      have e2 := abs_sub (3 * (y 1 - y 0)) ((x 1 - x 0) * d 1)
      rw [← e1] at e2
      rw [abs_mul, abs_mul, abs_mul, abs_mul, abs_of_pos (by linarith : 0 < x 1 - x 0), abs_of_pos (by norm_num : (0 : ℝ) < 2), abs_of_pos (by norm_num : (0 : ℝ) < 3)] at e2
      have e3 := hdif 1 0 (by omega) (by omega)
      have e4 := mul_le_mul_of_nonneg_left (hmax 1 (by omega)) (by linarith : 0 ≤ x 1 - x 0)
      have e5 := mul_le_mul_of_nonneg_right hp a0
      linarith
    by_cases k1 : k = n - 1
    · subst k1
      have hp := hx (n - 2) (by omega)
      rw [show n - 2 + 1 = n - 1 by omega] at hp
      have e1 : 2 * ((x (n - 1) - x (n - 2)) * d (n - 1)) = 3 * (y (n - 1) - y (n - 2)) - (x (n - 1) - x (n - 2)) * d (n - 2) := by linarith [h.last]
      have e2 := abs_sub (3 * (y (n - 1) - y (n - 2))) ((x (n - 1) - x (n - 2)) * d (n - 2))
      rw [← e1] at e2
      rw [abs_mul, abs_mul, abs_mul, abs_mul, abs_of_pos (by linarith : 0 < x (n - 1) - x (n - 2)), abs_of_pos (by norm_num : (0 : ℝ) < 2), abs_of_pos (by norm_num : (0 : ℝ) < 3)] at e2
      have e3 := hdif (n - 1) (n - 2) (by omega) (by omega)
      have e4 := mul_le_mul_of_nonneg_left (hmax (n - 2) (by omega)) (by linarith : 0 ≤ x (n - 1) - x (n - 2))
      have e5 := mul_le_mul_of_nonneg_right hp a0
      linarith
    obtain ⟨l, rfl⟩ : ∃ l, k = l + 1 := ⟨k - 1, by omega⟩
    have hin := h.inner l (by omega)
    have p1 := hx l (by omega)
    have p2 := hx (l + 1) (by omega)
    have s1 := slope l (by omega)
    have s2 := slope (l + 1) (by omega)
    obtain ⟨σ, hσ⟩ : ∃ σ, σ = (y (l + 1) - y l) / (x (l + 1) - x l) := ⟨_, rfl⟩
    obtain ⟨τ, hτ⟩ : ∃ τ, τ = (y (l + 1 + 1) - y (l + 1)) / (x (l + 1 + 1) - x (l + 1)) := ⟨_, rfl⟩
    rw [← hσ] at s1
    rw [← hτ] at s2
    rw [← hσ, show l + 2 = l + 1 + 1 from rfl, ← hτ] at hin
    obtain ⟨a, ha⟩ : ∃ a, a = x (l + 1) - x l := ⟨_, rfl⟩
    obtain ⟨b, hb⟩ : ∃ b, b = x (l + 1 + 1) - x (l + 1) := ⟨_, rfl⟩
    rw [← ha] at s1 p1 hin
    rw [← hb] at s2 p2 hin
    have ap : 0 < a := by linarith
    have bp : 0 < b := by linarith
    have e1 : 2 * (a + b) * d (l + 1) = 3 * (b * σ + a * τ) - (b * d l + a * d (l + 1 + 1)) := by linarith
    have e2 := abs_sub (3 * (b * σ + a * τ)) (b * d l + a * d (l + 1 + 1))
    rw [← e1, abs_mul, abs_of_pos (by linarith : 0 < 2 * (a + b))] at e2
    have e3 : |b * d l + a * d (l + 1 + 1)| ≤ (a + b) * |d (l + 1)| := by
      refine (abs_add_le _ _).trans ?_
      rw [abs_mul, abs_mul, abs_of_pos ap, abs_of_pos bp]
      have h6 := mul_le_mul_of_nonneg_left (hmax l (by omega)) bp.le
      have h7 := mul_le_mul_of_nonneg_left (hmax (l + 1 + 1) (by omega)) ap.le
      linarith
    have e4 : |3 * (b * σ + a * τ)| ≤ 6 * B * (b / a + a / b) := by
      rw [abs_mul, abs_of_pos (by norm_num : (0 : ℝ) < 3)]
      have h6 := abs_add_le (b * σ) (a * τ)
      rw [abs_mul, abs_mul, abs_of_pos ap, abs_of_pos bp] at h6
      have h7 := mul_le_mul_of_nonneg_left s1 bp.le
      have h8 := mul_le_mul_of_nonneg_left s2 ap.le
      have h9 : b * (2 * B / a) + a * (2 * B / b) = 2 * B * (b / a + a / b) := by ring
      linarith
    have e5 : m * (b / a + a / b) ≤ a + b := by
      rw [div_add_div _ _ ap.ne' bp.ne', mul_div_assoc', div_le_iff₀ (by positivity)]
      nlinarith [mul_nonneg (sub_nonneg.2 p1) (sq_nonneg b), mul_nonneg (sub_nonneg.2 p2) (sq_nonneg a)]
    have e6 : (a + b) * |d (l + 1)| ≤ 6 * B * (b / a + a / b) := by linarith
    have e7 : (a + b) * (|d (l + 1)| * m) ≤ (a + b) * (6 * B) := by
      have := mul_le_mul_of_nonneg_left e6 hm.le
      have h8 := mul_le_mul_of_nonneg_left e5 (by positivity : 0 ≤ 6 * B)
      nlinarith
    exact le_of_mul_le_mul_left e7 (by linarith)
  exact fun i hi => (hmax i hi).trans ek

/-- A cubic with small values and slopes at the ends is small between them. -/
theorem hermR_bound {x0 x1 y0 y1 d0 d1 x B D : ℝ} (h : x0 < x1) (h0 : x0 ≤ x) (h1 : x ≤ x1) (a0 : |y0| ≤ B) (a1 : |y1| ≤ B) (b0 : |d0| ≤ D) (b1 : |d1| ≤ D) :
    |hermR x0 x1 y0 y1 d0 d1 x| ≤ B + (x1 - x0) / 4 * D := by
  obtain ⟨s, hs⟩ : ∃ s, s = (x - x0) / (x1 - x0) := ⟨_, rfl⟩
  have hp : 0 < x1 - x0 := by linarith
  have hxs : x - x0 = s * (x1 - x0) := by rw [hs, div_mul_cancel₀ _ hp.ne']
  have s0 : 0 ≤ s := by rw [hs]; exact div_nonneg (by linarith) hp.le
  have s1 : s ≤ 1 := by rw [hs, div_le_one hp]; linarith
  have e : hermR x0 x1 y0 y1 d0 d1 x = (1 - s) ^ 2 * (1 + 2 * s) * y0 + s ^ 2 * (3 - 2 * s) * y1 + ((x1 - x0) * (s * (1 - s) ^ 2) * d0 - (x1 - x0) * (s ^ 2 * (1 - s)) * d1) := by
    unfold hermR
    rw [hxs]
    field_simp
    ring
  have w0 : 0 ≤ (1 - s) ^ 2 * (1 + 2 * s) := by positivity
  have w1 : 0 ≤ s ^ 2 * (3 - 2 * s) := mul_nonneg (sq_nonneg _) (by linarith)
  have w2 : 0 ≤ (x1 - x0) * (s * (1 - s) ^ 2) := by positivity
  have w3 : 0 ≤ (x1 - x0) * (s ^ 2 * (1 - s)) := mul_nonneg hp.le (mul_nonneg (sq_nonneg _) (by linarith))
  have D0 : 0 ≤ D := (abs_nonneg _).trans b0
  have m0 := mul_le_mul_of_nonneg_left a0 w0
  have m1 := mul_le_mul_of_nonneg_left a1 w1
  have m2 := mul_le_mul_of_nonneg_left b0 w2
  have m3 := mul_le_mul_of_nonneg_left b1 w3
  rw [← abs_of_nonneg w0, ← abs_mul, abs_of_nonneg w0] at m0
  rw [← abs_of_nonneg w1, ← abs_mul, abs_of_nonneg w1] at m1
  rw [← abs_of_nonneg w2, ← abs_mul, abs_of_nonneg w2] at m2
  rw [← abs_of_nonneg w3, ← abs_mul, abs_of_nonneg w3] at m3
  have q : (x1 - x0) * D * (s * (1 - s)) ≤ (x1 - x0) * D * (1 / 4) := mul_le_mul_of_nonneg_left (by nlinarith [sq_nonneg (s - 1 / 2)]) (by positivity)
  rw [e]
  refine (abs_add_le _ _).trans ?_
  have t1 := abs_add_le ((1 - s) ^ 2 * (1 + 2 * s) * y0) (s ^ 2 * (3 - 2 * s) * y1)
  have t2 := abs_sub ((x1 - x0) * (s * (1 - s) ^ 2) * d0) ((x1 - x0) * (s ^ 2 * (1 - s)) * d1)
  nlinarith

theorem natural_sub {n : Nat} (hn : 2 ≤ n) {x y d y' d' : Nat → ℝ} (h : NaturalSystem n x y d) (h' : NaturalSystem n x y' d') :
    NaturalSystem n x (fun i => y i - y' i) (fun i => d i - d' i) := by
  rw [natural_iff hn] at *
  intro k hk
  have e1 : (fun i => d i - d' i) = fun i => d i + (-1) * d' i := by funext i; ring
  have e2 : (fun i => y i - y' i) = fun i => y i + (-1) * y' i := by funext i; ring
  rw [e1, e2, natRow_linear, natRhs_linear, h k hk, h' k hk]

/-- Two piecewise cubic curves with the same knots, close values and close slopes. -/
theorem pieces_near {δ D : ℝ} {c c' : Curve ℝ} (hc : WF c) (hs : 2 ≤ c.size) (h : NearCurve δ c c') {junk : ℝ} (ht : (c.t junk).Pairwise (· < ·))
    (htt : c'.t junk = c.t junk) {hmax : ℝ} (hst : ∀ (i : Nat) (u v : ℝ), (c.t junk)[i]? = some u → (c.t junk)[i + 1]? = some v → v - u ≤ hmax) {q q' : PPoly}
    (hx : q.xs = c.t junk) (hy : q.y = c.mat) (hx' : q'.xs = c'.t junk) (hy' : q'.y = c'.mat)
    (hD : ∀ (w : Nat → ℝ) i, i < c.size → |∑ k ∈ Finset.range c.ncols, w k * (q.d.v i k - q'.d.v i k)| ≤ wlen c.ncols w * D) {x : ℝ} (hin : WithinEnds (c.t junk) x) :
    gap c.ncols (q.row x) (q'.row x) ≤ δ + hmax / 4 * D := by
  have hl : (c.t junk).length = c.size := t_length hc (rows_ne_of_size hs) junk
  have hδ : 0 ≤ δ := (dist_nonneg (x := pt c.ncols (c.rows.getD 0 []))).trans (h.near 0 (by have : 2 ≤ c.rows.length := hs; omega))
  have hD0 : 0 ≤ D := by
    have := (abs_nonneg _).trans (hD (fun k => if k = 0 then 1 else 0) 0 (by omega))
    have e : wlen c.ncols (fun k => if k = 0 then (1 : ℝ) else 0) = 1 := by
      have : 0 < c.ncols := by have := hc.two_le; omega
      unfold wlen
      simp [this, ite_pow]
    rw [e, one_mul] at this
    exact this
  obtain ⟨X, hX⟩ : ∃ X, X = knot (c.t junk) := ⟨_, rfl⟩
  have xlt : ∀ i, i + 1 < c.size → X i < X (i + 1) := fun i hi => by rw [hX]; exact knot_lt ht (by omega) (by omega)
  have step : ∀ i, i + 1 < c.size → X (i + 1) - X i ≤ hmax := fun i hi => by
    rw [hX]
    exact hst i _ _ (knot_some (by omega)) (knot_some (by omega))
  have hmx : 0 ≤ hmax := by linarith [step 0 (by omega), xlt 0 (by omega)]
  obtain ⟨i, hi, i1, i2⟩ := exists_piece (xs := c.t junk) (by omega) x
  rw [hl] at hi
  have k1 : knot (c.t junk) i ≤ x := by
    rcases i1 with rfl | i1
    · obtain ⟨e1, e2⟩ := t_ends hc (rows_ne_of_size hs) junk
      rw [List.head?_eq_getElem?] at e1
      rw [knot_eq e1]
      exact hin.1 _ (by rw [List.head?_eq_getElem?]; exact e1)
    · exact i1
  have k2 : x ≤ knot (c.t junk) (i + 1) := by
    rcases i2 with i2 | i2
    · obtain ⟨e1, e2⟩ := t_ends hc (rows_ne_of_size hs) junk
      have e3 := e2
      rw [List.getLast?_eq_getElem?, show (c.t junk).length - 1 = i + 1 by omega] at e3
      rw [knot_eq e3]
      exact hin.2 _ e2
    · exact i2.le
  refine gap_le_of_sums (by positivity) fun w => ?_
  have hval : ∀ i, i < c.size → |∑ k ∈ Finset.range c.ncols, w k * (c.mat.v i k - c'.mat.v i k)| ≤ wlen c.ncols w * δ := fun i hi =>
    (wsum_le c.ncols w (c.rows.getD i []) (c'.rows.getD i [])).trans (mul_le_mul_of_nonneg_left (h.near i hi) (wlen_nonneg _ _))
  have hb := hermR_bound (x0 := X i) (x1 := X (i + 1)) (x := x) (xlt i hi) (by rw [hX]; exact k1) (by rw [hX]; exact k2) (hval i (by omega)) (hval (i + 1) hi)
    (hD w i (by omega)) (hD w (i + 1) hi)
  have e : ∑ j ∈ Finset.range c.ncols, w j * ((q.row x).getD j 0 - (q'.row x).getD j 0) =
      hermR (X i) (X (i + 1)) (∑ k ∈ Finset.range c.ncols, w k * (c.mat.v i k - c'.mat.v i k)) (∑ k ∈ Finset.range c.ncols, w k * (c.mat.v (i + 1) k - c'.mat.v (i + 1) k))
        (∑ k ∈ Finset.range c.ncols, w k * (q.d.v i k - q'.d.v i k)) (∑ k ∈ Finset.range c.ncols, w k * (q.d.v (i + 1) k - q'.d.v (i + 1) k)) x := by
    obtain ⟨α, β, γ, hw⟩ := hermR_weights (X i) (X (i + 1)) x
    rw [hw, ← Finset.sum_sub_distrib, Finset.mul_sum, Finset.mul_sum, Finset.mul_sum, ← Finset.sum_add_distrib, ← Finset.sum_add_distrib, ← Finset.sum_add_distrib]
    apply Finset.sum_congr rfl
    intro j hj
    have hj := Finset.mem_range.1 hj
    rw [q.row_getD (by rw [hy]; exact hj), q'.row_getD (by rw [hy']; rw [show c'.mat.k = c'.ncols from rfl, h.ndim]; exact hj)]
    have c1 : q.coord j x = q.cub i j x := PPoly.coord_on (by rw [hx]; exact ht) (by rw [hx]; omega) j (.inr (by rw [hx]; exact k1)) (.inr (by rw [hx]; exact k2))
    have c2 : q'.coord j x = q'.cub i j x := PPoly.coord_on (by rw [hx', htt]; exact ht) (by rw [hx', htt]; omega) j (.inr (by rw [hx', htt]; exact k1))
      (.inr (by rw [hx', htt]; exact k2))
    rw [c1, c2]
    unfold PPoly.cub
    rw [hx, hx', hy, hy', htt, ← hX, hw, hw]
    ring
  rw [e]
  refine hb.trans ?_
  have hW : 0 ≤ wlen c.ncols w * D := mul_nonneg (wlen_nonneg _ _) hD0
  have e2 : (X (i + 1) - X i) / 4 * (wlen c.ncols w * D) ≤ hmax / 4 * (wlen c.ncols w * D) := by
    gcongr
    exact step i hi
  refine (add_le_add_right e2 _).trans (le_of_eq ?_)
  ring

/-- **C153 (cubic interpolation).** Two curves of a float dtype with the same increasing parameter, whose steps are between `hmin` and `hmax`; their points are not farther apart than `δ`. Default cubic
interpolation (natural boundary conditions, scipy's solver solving its system) at the same values inside the range of the parameter: the resulting points are not farther apart than
`(1 + 3/2 · hmax / hmin) δ`, whatever the number of points. -/
theorem C153_cubic {δ : ℝ} {c c' : Curve ℝ} (hc : WF c) (hc' : WF c') (hs : 2 ≤ c.size) (h : NearCurve δ c c') {junk : ℝ} (ht : (c.t junk).Pairwise (· < ·))
    (htt : c'.t junk = c.t junk) (hd : c.dtype ≠ .int) (hd' : c'.dtype ≠ .int) {lib : SplineLib} (hlib : NaturalOk lib) {r : KwReg} {m : String} (hr : IsCubic lib junk r m)
    {hmin hmax : ℝ} (h0 : 0 < hmin) (hst : ∀ (i : Nat) (u v : ℝ), (c.t junk)[i]? = some u → (c.t junk)[i + 1]? = some v → hmin ≤ v - u ∧ v - u ≤ hmax) :
    ∃ F F', EvaluatesTo c (fun g => c.interpolate r g m .none) (fun _ => True) F ∧ EvaluatesTo c' (fun g => c'.interpolate r g m .none) (fun _ => True) F' ∧
      ∀ x, WithinEnds (c.t junk) x → gap c.ncols (F x) (F' x) ≤ (1 + 3 / 2 * (hmax / hmin)) * δ := by
  have hl : (c.t junk).length = c.size := t_length hc (rows_ne_of_size hs) junk
  have hsz : c'.size = c.size := h.size
  have hs' : 2 ≤ c'.size := by rw [hsz]; exact hs
  have ht' : (c'.t junk).Pairwise (· < ·) := by rw [htt]; exact ht
  obtain ⟨d, hsol, hnat⟩ := hlib (c.t junk) c.mat (knotsOk_curve hc hs ht)
  obtain ⟨d', hsol', hnat'⟩ := hlib (c'.t junk) c'.mat (knotsOk_curve hc' hs' ht')
  refine ⟨_, _, spline_eval hc hs ht hd hr (p := InterpKw.none) (cubic_default hc hs ht lib hsol) rfl rfl (dom := fun _ => True) (.inl rfl),
    spline_eval hc' hs' ht' hd' hr (p := InterpKw.none) (cubic_default hc' hs' ht' lib hsol') rfl rfl (dom := fun _ => True) (.inl rfl), ?_⟩
  intro x hx
  obtain ⟨X, hX⟩ : ∃ X, X = knot (c.t junk) := ⟨_, rfl⟩
  have step : ∀ i, i + 1 < c.size → hmin ≤ X (i + 1) - X i := fun i hi => by
    rw [hX]
    exact (hst i _ _ (knot_some (by omega)) (knot_some (by omega))).1
  refine (pieces_near (q := ⟨c.t junk, c.mat, d, .yes⟩) (q' := ⟨c'.t junk, c'.mat, d', .yes⟩) hc hs h ht htt (D := 6 * δ / hmin) (hmax := hmax) (fun i u v hu hv => (hst i u v hu hv).2) rfl rfl rfl rfl ?_ hx).trans (le_of_eq ?_)
  · intro w
    have hnat2 : ∀ j, j < c.ncols → NaturalSystem c.size X (fun i => c.mat.v i j) (fun i => d.v i j) := fun j hj => by
      have := hnat j hj; rw [hl] at this; rw [hX]; exact this
    have hnat2' : ∀ j, j < c.ncols → NaturalSystem c.size X (fun i => c'.mat.v i j) (fun i => d'.v i j) := fun j hj => by
      have := hnat' j (by rw [show c'.mat.k = c'.ncols from rfl, h.ndim]; exact hj); rw [htt, hl] at this; rw [hX]; exact this
    have hsys := natural_affine (n := c.size) hs (x := X) (N := c.ncols) (y := fun i k => c.mat.v i k - c'.mat.v i k) (d := fun i k => d.v i k - d'.v i k)
      (fun k hk => natural_sub hs (hnat2 k hk) (hnat2' k hk)) w 0
    have hval : ∀ i, i < c.size → |∑ k ∈ Finset.range c.ncols, w k * (c.mat.v i k - c'.mat.v i k) + 0| ≤ wlen c.ncols w * δ := by
      intro i hi
      rw [add_zero]
      exact (wsum_le c.ncols w (c.rows.getD i []) (c'.rows.getD i [])).trans (mul_le_mul_of_nonneg_left (h.near i hi) (wlen_nonneg _ _))
    intro i hi
    refine (natural_bound hs h0 step hsys hval i hi).trans (le_of_eq ?_)
    ring
  · field_simp
    ring

/-- **C153 (Hermite interpolation).** Two curves of a float dtype with the same increasing parameter, with steps up to `hmax`; their points are not farther apart than `δ`, and the speed of both is larger than `1e-8` everywhere and
the speed of the second at least `v`. Hermite interpolation at the same values inside the range of the parameter: the resulting points are not farther apart than `(1 + 2 hmax / v) δ`. -/
theorem C153_hermite {δ : ℝ} {c c' : Curve ℝ} (hc : WF c) (hc' : WF c') (h3 : 3 ≤ c.size) (h : NearCurve δ c c') {junk : ℝ} (ht : (c.t junk).Pairwise (· < ·))
    (htt : c'.t junk = c.t junk) (hd : c.dtype ≠ .int) (hd' : c'.dtype ≠ .int) {r : KwReg} {m : String} (hr : IsHermite junk r m)
    {hmax v : ℝ} (hst : ∀ (i : Nat) (u v : ℝ), (c.t junk)[i]? = some u → (c.t junk)[i + 1]? = some v → v - u ≤ hmax) (hv0 : 0 < v)
    (hv : ∀ i, i < c.size → 1 / 10 ^ 8 < ‖rowVec c.ncols (firstderiv c).rows i‖ ∧ 1 / 10 ^ 8 < ‖rowVec c.ncols (firstderiv c').rows i‖ ∧ v ≤ ‖rowVec c.ncols (firstderiv c').rows i‖) :
    ∃ F F', EvaluatesTo c (fun g => c.interpolate r g m .none) (fun _ => True) F ∧ EvaluatesTo c' (fun g => c'.interpolate r g m .none) (fun _ => True) F' ∧
      ∀ x, WithinEnds (c.t junk) x → gap c.ncols (F x) (F' x) ≤ (1 + 2 * (hmax / v)) * δ := by
  have hs : 2 ≤ c.size := by omega
  have hsz : c'.size = c.size := h.size
  have hs' : 2 ≤ c'.size := by rw [hsz]; exact hs
  have ht' : (c'.t junk).Pairwise (· < ·) := by rw [htt]; exact ht
  have hδ : 0 ≤ δ := (dist_nonneg (x := pt c.ncols (c.rows.getD 0 []))).trans (h.near 0 (by have : 2 ≤ c.rows.length := hs; omega))
  refine ⟨_, _, spline_eval hc hs ht hd hr (p := InterpKw.none) (hermite_cons hc hs ht .yes rfl) rfl rfl (dom := fun _ => True) (.inl rfl),
    spline_eval hc' hs' ht' hd' hr (p := InterpKw.none) (hermite_cons hc' hs' ht' .yes rfl) rfl rfl (dom := fun _ => True) (.inl rfl), ?_⟩
  intro x hx
  refine (pieces_near (q := ⟨c.t junk, c.mat, frenet1 c, .yes⟩) (q' := ⟨c'.t junk, c'.mat, frenet1 c', .yes⟩) hc hs h ht htt (D := 8 * δ / v) hst rfl rfl rfl rfl ?_ hx).trans (le_of_eq ?_)
  · intro w i hi
    obtain ⟨v1, v2, v3⟩ := hv i hi
    have t1 := C153_tangent hc hc' h3 h hi v1 v2
    have t2 : 8 * δ / ‖rowVec c.ncols (firstderiv c').rows i‖ ≤ 8 * δ / v := div_le_div_of_nonneg_left (by linarith) hv0 v3
    have e : gap c.ncols ((frenet1 c).rows.getD i []) ((frenet1 c').rows.getD i []) ≤ 8 * δ / v := by
      unfold gap
      rw [dist_eq_norm]
      exact t1.trans t2
    have k1 : (frenet1 c).k = c.ncols := firstderiv_k (by omega)
    have k2 : (frenet1 c').k = c.ncols := (firstderiv_k (by omega)).trans h.ndim
    refine le_trans (le_of_eq ?_) ((wsum_le c.ncols w ((frenet1 c).rows.getD i []) ((frenet1 c').rows.getD i [])).trans (mul_le_mul_of_nonneg_left e (wlen_nonneg _ _)))
    congr 1
    apply Finset.sum_congr rfl
    intro j hj
    have hj := Finset.mem_range.1 hj
    have m1 := at2_lt (frenet1 c) (i := i) (j := j) (by rw [(shapes_m c).2.2.2.1]; exact hi) (by rw [k1]; exact hj)
    have m2 := at2_lt (frenet1 c') (i := i) (j := j) (by rw [(shapes_m c').2.2.2.1]; omega) (by rw [k2]; exact hj)
    rw [← m1, ← m2]
    rfl
  · field_simp
    ring

/-! ### Savitzky–Golay smoothing -/

theorem bestFit_residual {po wl : Nat} {a : ℤ} {z : ℤ → ℝ} {P : Polynomial ℝ} (h : BestFit po a wl z P) {Q : Polynomial ℝ} (hQ : Q.natDegree ≤ po) :
    ∑ k ∈ Finset.range wl, (P.eval ((a : ℝ) + k) - z (a + k)) * Q.eval ((a : ℝ) + k) = 0 := by
  have := (bestFit_orth h).orth (Polynomial.taylor (a : ℝ) Q) (by rw [Polynomial.natDegree_taylor]; exact hQ)
  rw [← this]
  apply Finset.sum_congr rfl
  intro k _
  rw [Polynomial.taylor_eval, Polynomial.taylor_eval, add_comm (k : ℝ)]

theorem bestFit_of_residual {po wl : Nat} {a : ℤ} {z : ℤ → ℝ} {P : Polynomial ℝ} (hP : P.natDegree ≤ po)
    (h : ∀ Q : Polynomial ℝ, Q.natDegree ≤ po → ∑ k ∈ Finset.range wl, (P.eval ((a : ℝ) + k) - z (a + k)) * Q.eval ((a : ℝ) + k) = 0) : BestFit po a wl z P := by
  refine ⟨hP, fun Q hQ => ?_⟩
  have h1 := h (Q - P) ((Polynomial.natDegree_sub_le _ _).trans (max_le hQ hP))
  unfold fitErr
  have e : ∑ k ∈ Finset.range wl, (Q.eval ((a : ℝ) + k) - z (a + k)) ^ 2 = ∑ k ∈ Finset.range wl, (P.eval ((a : ℝ) + k) - z (a + k)) ^ 2 +
      (2 * ∑ k ∈ Finset.range wl, (P.eval ((a : ℝ) + k) - z (a + k)) * (Q - P).eval ((a : ℝ) + k) + ∑ k ∈ Finset.range wl, (Q - P).eval ((a : ℝ) + k) ^ 2) := by
    rw [Finset.mul_sum, ← Finset.sum_add_distrib, ← Finset.sum_add_distrib]
    apply Finset.sum_congr rfl
    intro k _
    rw [Polynomial.eval_sub]
    ring
  rw [e, h1]
  have : 0 ≤ ∑ k ∈ Finset.range wl, (Q - P).eval ((a : ℝ) + k) ^ 2 := Finset.sum_nonneg fun _ _ => sq_nonneg _
  linarith

/-- The best polynomial of a sum. -/
theorem bestFit_sums {po wl n : Nat} {a : ℤ} {z z' : Nat → ℤ → ℝ} {P P' : Nat → Polynomial ℝ} (h : ∀ j, j < n → BestFit po a wl (z j) (P j))
    (h' : ∀ j, j < n → BestFit po a wl (z' j) (P' j)) (w : Nat → ℝ) :
    BestFit po a wl (fun q => ∑ j ∈ Finset.range n, w j * (z j q - z' j q)) (∑ j ∈ Finset.range n, Polynomial.C (w j) * (P j - P' j)) := by
  refine bestFit_of_residual ?_ ?_
  · refine Polynomial.natDegree_sum_le_of_forall_le _ _ fun j hj => ?_
    have hj := Finset.mem_range.1 hj
    exact (Polynomial.natDegree_C_mul_le _ _).trans ((Polynomial.natDegree_sub_le _ _).trans (max_le (h j hj).deg (h' j hj).deg))
  · intro Q hQ
    have e : ∀ k ∈ Finset.range wl, ((∑ j ∈ Finset.range n, Polynomial.C (w j) * (P j - P' j)).eval ((a : ℝ) + k) - ∑ j ∈ Finset.range n, w j * (z j (a + k) - z' j (a + k))) * Q.eval ((a : ℝ) + k) =
        ∑ j ∈ Finset.range n, w j * (((P j).eval ((a : ℝ) + k) - z j (a + k)) * Q.eval ((a : ℝ) + k) - ((P' j).eval ((a : ℝ) + k) - z' j (a + k)) * Q.eval ((a : ℝ) + k)) := by
      intro k _
      rw [Polynomial.eval_finset_sum, ← Finset.sum_sub_distrib, Finset.sum_mul]
      apply Finset.sum_congr rfl
      intro j _
      rw [Polynomial.eval_mul, Polynomial.eval_C, Polynomial.eval_sub]
      ring
    rw [Finset.sum_congr rfl e, Finset.sum_comm]
    apply Finset.sum_eq_zero
    intro j hj
    have hj := Finset.mem_range.1 hj
    rw [← Finset.mul_sum, Finset.sum_sub_distrib, bestFit_residual (h j hj) hQ, bestFit_residual (h' j hj) hQ, sub_zero, mul_zero]

/-- The values of the best polynomial: not more than `√wl` times the largest value. -/
theorem bestFit_sqrt {po wl : Nat} {a : ℤ} {z : ℤ → ℝ} {Z : ℝ} {P : Polynomial ℝ} (h : BestFit po a wl z P) (hz : ∀ k : Nat, k < wl → |z (a + k)| ≤ Z) {s : Nat} (hs : s < wl) :
    |P.eval ((a : ℝ) + s)| ≤ √wl * Z := by
  have h1 := bestFit_residual h h.deg
  have hZ : 0 ≤ Z := (abs_nonneg _).trans (hz s hs)
  have h2 : ∑ k ∈ Finset.range wl, P.eval ((a : ℝ) + k) ^ 2 ≤ ∑ k ∈ Finset.range wl, z (a + k) ^ 2 := by
    have e : ∑ k ∈ Finset.range wl, z (a + k) ^ 2 = ∑ k ∈ Finset.range wl, P.eval ((a : ℝ) + k) ^ 2 + (∑ k ∈ Finset.range wl, (P.eval ((a : ℝ) + k) - z (a + k)) ^ 2 -
        2 * ∑ k ∈ Finset.range wl, (P.eval ((a : ℝ) + k) - z (a + k)) * P.eval ((a : ℝ) + k)) := by
      rw [Finset.mul_sum, ← Finset.sum_sub_distrib, ← Finset.sum_add_distrib]
      apply Finset.sum_congr rfl
      intro k _
      ring
    rw [e, h1]
    have : 0 ≤ ∑ k ∈ Finset.range wl, (P.eval ((a : ℝ) + k) - z (a + k)) ^ 2 := Finset.sum_nonneg fun _ _ => sq_nonneg _
    linarith
  have h3 : P.eval ((a : ℝ) + s) ^ 2 ≤ ∑ k ∈ Finset.range wl, P.eval ((a : ℝ) + k) ^ 2 :=
    Finset.single_le_sum (f := fun k : Nat => P.eval ((a : ℝ) + k) ^ 2) (fun _ _ => sq_nonneg _) (Finset.mem_range.2 hs)
  have h4 : ∑ k ∈ Finset.range wl, z (a + k) ^ 2 ≤ wl * Z ^ 2 := by
    have : ∀ k ∈ Finset.range wl, z (a + k) ^ 2 ≤ Z ^ 2 := fun k hk => by
      rw [← sq_abs]
      exact pow_le_pow_left₀ (abs_nonneg _) (hz k (Finset.mem_range.1 hk)) 2
    refine (Finset.sum_le_sum this).trans ?_
    simp
  refine abs_le_of_sq_le_sq ?_ (by positivity)
  rw [mul_pow, Real.sq_sqrt (Nat.cast_nonneg _)]
  linarith

theorem savgol_near {po wl n d : Nat} {K : ℝ} (hK0 : 0 ≤ K) (hK : ∀ (a : ℤ) (z : ℤ → ℝ) (Z : ℝ) (P : Polynomial ℝ), BestFit po a wl z P → (∀ k : Nat, k < wl → |z (a + k)| ≤ Z) → ∀ s : Nat, s < wl →
      |((Polynomial.derivative^[d]) P).eval ((a : ℝ) + s)| ≤ K * Z) {a : ℤ} {z z' : Nat → ℤ → ℝ} {δ delta : ℝ} (hδ : 0 ≤ δ)
    (hz : ∀ (w : Nat → ℝ) (k : Nat), k < wl → |∑ j ∈ Finset.range n, w j * (z j (a + k) - z' j (a + k))| ≤ wlen n w * δ) {s : Nat} (hs : s < wl) {r r' : List ℝ} {i : ℝ} (hi : i = (a : ℝ) + s)
    (hr : ∀ j, j < n → ∀ P, BestFit po a wl (z j) P → r.getD j 0 = ((Polynomial.derivative^[d]) P).eval i / delta ^ d)
    (hr' : ∀ j, j < n → ∀ P, BestFit po a wl (z' j) P → r'.getD j 0 = ((Polynomial.derivative^[d]) P).eval i / delta ^ d) : gap n r r' ≤ K * δ / |delta| ^ d := by
  refine gap_le_of_sums (by positivity) fun w => ?_
  choose P hP using fun j => bestFit_exists po a wl (z j)
  choose P' hP' using fun j => bestFit_exists po a wl (z' j)
  have hb := hK a _ _ _ (bestFit_sums (n := n) (fun j _ => hP j) (fun j _ => hP' j) w) (hz w) s hs
  have e : ∑ j ∈ Finset.range n, w j * (r.getD j 0 - r'.getD j 0) =
      ((Polynomial.derivative^[d]) (∑ j ∈ Finset.range n, Polynomial.C (w j) * (P j - P' j))).eval ((a : ℝ) + s) / delta ^ d := by
    rw [Polynomial.iterate_derivative_sum, Polynomial.eval_finset_sum, Finset.sum_div]
    apply Finset.sum_congr rfl
    intro j hj
    have hj := Finset.mem_range.1 hj
    rw [hr j hj _ (hP j), hr' j hj _ (hP' j), Polynomial.iterate_derivative_C_mul, Polynomial.eval_mul, Polynomial.eval_C, Polynomial.iterate_derivative_sub, Polynomial.eval_sub, hi]
    ring
  rw [e, abs_div, abs_pow]
  refine (div_le_div_of_nonneg_right hb (by positivity)).trans (le_of_eq ?_)
  ring

theorem continues_bound {mode : String} (hm : BoundaryMode mode) {n : Nat} (hn : 0 < n) {f : Nat → ℝ} {e : ℤ → ℝ} (he : Continues mode n 0 f e) {B : ℝ} (hB : ∀ i, i < n → |f i| ≤ B) (q : ℤ) : |e q| ≤ B := by
  obtain ⟨m, hm⟩ := boundary_ofString hm
  rw [continues_unique hm hn he q]
  unfold extVal
  by_cases hc : m = .constant
  · subst hc
    by_cases h1 : 0 ≤ q ∧ q < n
    · simp only [extIndex, if_pos h1]
      exact hB _ (by omega)
    · simp only [extIndex, if_neg h1, abs_zero]
      exact (abs_nonneg _).trans (hB 0 hn)
  · obtain ⟨p, h1, h2⟩ := extIndex_lt hc hn q
    rw [h2]
    exact hB p h1

theorem continues_sums {mode : String} {n N : Nat} {cval : ℝ} {f f' : Nat → Nat → ℝ} {e e' : Nat → ℤ → ℝ} (h : ∀ j, Continues mode n cval (fun q => f q j) (e j))
    (h' : ∀ j, Continues mode n cval (fun q => f' q j) (e' j)) (w : Nat → ℝ) :
    Continues mode n 0 (fun q => ∑ j ∈ Finset.range N, w j * (f q j - f' q j)) (fun q => ∑ j ∈ Finset.range N, w j * (e j q - e' j q)) := by
  refine ⟨?_, ?_, ?_, ?_, ?_, ?_⟩
  · intro i hi
    exact Finset.sum_congr rfl fun j _ => by rw [(h j).inside i hi, (h' j).inside i hi]
  · intro hm i
    exact ⟨Finset.sum_congr rfl fun j _ => by rw [((h j).reflect hm i).1, ((h' j).reflect hm i).1], Finset.sum_congr rfl fun j _ => by rw [((h j).reflect hm i).2, ((h' j).reflect hm i).2]⟩
  · intro hm
    exact ⟨fun i => ⟨Finset.sum_congr rfl fun j _ => by rw [(((h j).mirror hm).1 i).1, (((h' j).mirror hm).1 i).1],
      Finset.sum_congr rfl fun j _ => by rw [(((h j).mirror hm).1 i).2, (((h' j).mirror hm).1 i).2]⟩,
      fun hn i => Finset.sum_congr rfl fun j _ => by rw [((h j).mirror hm).2 hn i, ((h' j).mirror hm).2 hn i]⟩
  · intro hm
    exact ⟨fun i hi => Finset.sum_congr rfl fun j _ => by rw [((h j).nearest hm).1 i hi, ((h' j).nearest hm).1 i hi],
      fun i hi => Finset.sum_congr rfl fun j _ => by rw [((h j).nearest hm).2 i hi, ((h' j).nearest hm).2 i hi]⟩
  · intro hm i
    exact Finset.sum_congr rfl fun j _ => by rw [(h j).wrap hm i, (h' j).wrap hm i]
  · intro hm i hi
    refine Finset.sum_eq_zero fun j _ => ?_
    rw [(h j).constant hm i hi, (h' j).constant hm i hi, sub_self, mul_zero]

/-- **C153 (Savitzky–Golay smoothing).** For every odd window length, polynomial order below it and derivative number `d` there is a number `K`, `√(window length)` when `d = 0`, such that for any two curves whose points
are not farther apart than `δ` the points of the results of savgol are not farther apart than `K δ / |delta|^d`: in mode `interp` (at least as many points as the window is long) and in the other four modes of the filter. -/
theorem C153_savgol {lib : LsqLib} (hl : MinNormOk lib) {r : Reg SmoothFn} {name : String} (hf : getSmooth r name = .ok (savgolFn lib)) {wl po : Nat} (hpo : po < wl) (hodd : wl % 2 = 1) (d : Nat) :
    ∃ K : ℝ, 0 ≤ K ∧ (d = 0 → K = √wl) ∧ ∀ {δ delta : ℝ} {c c' : Curve ℝ} (_ : WF c) (_ : WF c') (_ : c.rows ≠ []) (_ : NearCurve δ c c') (_ : delta ≠ 0 ∨ d = 0) {mode : String} (cv : ℝ)
      (_ : mode = "interp" ∧ wl ≤ c.size ∨ BoundaryMode mode ∧ mode ≠ "reflect"),
      ∃ C C', (finCurve c).smooth r name (.savgol ⟨wl, po, d, delta, mode, cv⟩) = .ok (finCurve C) ∧ (finCurve c').smooth r name (.savgol ⟨wl, po, d, delta, mode, cv⟩) = .ok (finCurve C') ∧
        NearCurve (K * δ / |delta| ^ d) C C' ∧ C.size = c.size := by
  obtain ⟨K, hK0, hKd, hK⟩ : ∃ K : ℝ, 0 ≤ K ∧ (d = 0 → K = √wl) ∧ ∀ (a : ℤ) (z : ℤ → ℝ) (Z : ℝ) (P : Polynomial ℝ), BestFit po a wl z P → (∀ k : Nat, k < wl → |z (a + k)| ≤ Z) → ∀ s : Nat, s < wl →
      |((Polynomial.derivative^[d]) P).eval ((a : ℝ) + s)| ≤ K * Z := by
    by_cases h0 : d = 0
    · subst h0
      exact ⟨√wl, Real.sqrt_nonneg _, fun _ => rfl, fun a z Z P hP hz s hs => bestFit_sqrt hP hz hs⟩
    · obtain ⟨K, h1, h2⟩ := bestFit_bound hpo d
      exact ⟨K, h1, fun h => absurd h h0, h2⟩
  refine ⟨K, hK0, hKd, ?_⟩
  intro δ delta c c' hc hc' hne h hdel mode cv hmode
  have hn : 0 < c.rows.length := List.length_pos_iff.2 hne
  have hsz : c'.size = c.size := h.size
  have hne' : c'.rows ≠ [] := List.length_pos_iff.1 (by have := h.size; omega)
  have hδ : 0 ≤ δ := (dist_nonneg (x := pt c.ncols (c.rows.getD 0 []))).trans (h.near 0 hn)
  have hw : ∀ (w : Nat → ℝ) (q : Nat), q < c.size → |∑ j ∈ Finset.range c.ncols, w j * (at2 c.rows q j - at2 c'.rows q j)| ≤ wlen c.ncols w * δ := fun w q hq =>
    (wsum_le c.ncols w (c.rows.getD q []) (c'.rows.getD q [])).trans (mul_le_mul_of_nonneg_left (h.near q hq) (wlen_nonneg _ _))
  rcases hmode with ⟨rfl, hwl⟩ | ⟨hbm, hrf⟩
  · obtain ⟨C, e1, -, e2, e3, -, -, e4⟩ := C101_interp hl hf hpo hodd d hdel hc hwl cv
    obtain ⟨C', f1, -, f2, f3, -, -, f4⟩ := C101_interp hl hf hpo hodd d hdel hc' (by omega : wl ≤ c'.size) cv
    have e2' : C.rows.length = c.size := e2
    have f2' : C'.rows.length = c'.size := f2
    refine ⟨C, C', e1, f1, ⟨by rw [e3, f3, h.ndim], by omega, ?_⟩, e2⟩
    intro i hi
    rw [e3]
    obtain ⟨s, hs1, hs2, hs3, hs4⟩ : ∃ s : Nat, s + wl ≤ c.size ∧
        (s + wl / 2 = i ∨ (s = 0 ∧ i < wl / 2) ∨ (s + wl = c.size ∧ c.size ≤ i + wl / 2)) ∧ s ≤ i ∧ i < s + wl := by
      by_cases h1 : i < wl / 2
      · exact ⟨0, by omega, .inr (.inl ⟨rfl, h1⟩), by omega, by omega⟩
      · by_cases h2 : c.size ≤ i + wl / 2
        · exact ⟨c.size - wl, by omega, .inr (.inr ⟨by omega, h2⟩), by omega, by omega⟩
        · exact ⟨i - wl / 2, by omega, .inl (by omega), by omega, by omega⟩
    refine savgol_near hK0 hK (a := (s : ℤ)) (z := fun j q => at2 c.rows q.toNat j) (z' := fun j q => at2 c'.rows q.toNat j) hδ ?_ (s := i - s) (by omega) (i := (i : ℝ)) ?_ ?_ ?_
    · intro w k hk
      exact hw w _ (by omega)
    · rw [Nat.cast_sub hs3]; push_cast; ring
    · intro j hj P hP
      exact e4 i j s (by omega) hj hs1 hs2 P hP
    · intro j hj P hP
      exact f4 i j s (by omega) (by rw [h.ndim]; exact hj) (by omega) (by rw [hsz]; exact hs2) P hP
  · choose e he using fun j => C100_continuation hbm hn cv (fun q => at2 c.rows q j)
    choose e' he' using fun j => C100_continuation hbm (show 0 < c'.rows.length by have := h.size; omega) cv (fun q => at2 c'.rows q j)
    obtain ⟨C, e1, -, e2, e3, -, -, e4⟩ := C101_modes hl hf hpo hodd d hdel hc hne hbm hrf cv (e := e) (fun j _ => (he j).1)
    obtain ⟨C', f1, -, f2, f3, -, -, f4⟩ := C101_modes hl hf hpo hodd d hdel hc' hne' hbm hrf cv (e := e') (fun j _ => (he' j).1)
    have e2' : C.rows.length = c.size := e2
    have f2' : C'.rows.length = c'.size := f2
    refine ⟨C, C', e1, f1, ⟨by rw [e3, f3, h.ndim], by omega, ?_⟩, e2⟩
    intro i hi
    rw [e3]
    refine savgol_near hK0 hK (a := (i : ℤ) - (wl / 2 : Nat)) (z := e) (z' := e') hδ ?_ (s := wl / 2) (by omega) (i := (i : ℝ)) ?_ ?_ ?_
    · intro w k _
      have hcs := continues_sums (N := c.ncols) (f := fun q j => at2 c.rows q j) (f' := fun q j => at2 c'.rows q j) (fun j => (he j).1) (fun j => h.size ▸ (he' j).1) w
      exact continues_bound hbm hn hcs (hw w) _
    · rw [Int.cast_sub, Int.cast_natCast, Int.cast_natCast]; ring
    · intro j hj P hP
      exact e4 i j (by omega) hj P hP
    · intro j hj P hP
      exact f4 i j (by omega) (by rw [h.ndim]; exact hj) P hP

/-! ### Akima interpolation -/

/-- A level piece followed by a rising one; the last point `e` higher. -/
noncomputable def akCorner (e : ℝ) : Curve ℝ := ⟨[[0, 0], [1, 0], [2, 0], [3, 1], [4, 2 + e]], 2, some [0, 1, 2, 3, 4], .float⟩

theorem akCorner_WF (e : ℝ) : WF (akCorner e) where
  two_le := by simp [akCorner]
  rect := by simp [akCorner]
  tlen := by simp [akCorner]
  repr := by simp [akCorner, DType.cast]

theorem akCorner_lt (e junk : ℝ) : ((akCorner e).t junk).Pairwise (· < ·) := by simp [akCorner, Curve.t]; norm_num

theorem akCorner_m (e junk : ℝ) : (∀ k, k ≤ 7 → akimaM 5 (fun i => ((akCorner e).t junk).getD i 0) (fun i => (akCorner e).mat.v i 0) k = 1) ∧
    akimaM 5 (fun i => ((akCorner e).t junk).getD i 0) (fun i => (akCorner e).mat.v i 1) 0 = 0 ∧ akimaM 5 (fun i => ((akCorner e).t junk).getD i 0) (fun i => (akCorner e).mat.v i 1) 1 = 0 ∧
    akimaM 5 (fun i => ((akCorner e).t junk).getD i 0) (fun i => (akCorner e).mat.v i 1) 2 = 0 ∧ akimaM 5 (fun i => ((akCorner e).t junk).getD i 0) (fun i => (akCorner e).mat.v i 1) 3 = 0 ∧
    akimaM 5 (fun i => ((akCorner e).t junk).getD i 0) (fun i => (akCorner e).mat.v i 1) 4 = 1 ∧ akimaM 5 (fun i => ((akCorner e).t junk).getD i 0) (fun i => (akCorner e).mat.v i 1) 5 = 1 + e ∧
    akimaM 5 (fun i => ((akCorner e).t junk).getD i 0) (fun i => (akCorner e).mat.v i 1) 6 = 1 + 2 * e ∧ akimaM 5 (fun i => ((akCorner e).t junk).getD i 0) (fun i => (akCorner e).mat.v i 1) 7 = 1 + 3 * e := by
  refine ⟨?_, ?_, ?_, ?_, ?_, ?_, ?_, ?_, ?_⟩
  · intro k hk
    interval_cases k <;> simp [akimaM, akCorner, Curve.t, Curve.mat] <;> norm_num
  all_goals simp [akimaM, akCorner, Curve.t, Curve.mat]
  all_goals ring

theorem akCorner_slopes {e : ℝ} (he : 0 ≤ e) (he1 : e ≤ 1) (junk : ℝ) : (akimaSlopes ((akCorner e).t junk) (akCorner e).mat).v 2 1 = (if 1 / 10 ^ 9 * (1 + e) < e then 0 else (1 + e) / 2) ∧
    (akimaSlopes ((akCorner e).t junk) (akCorner e).mat).v 3 1 = (1 + 2 * e) / (1 + e) := by
  obtain ⟨h0, m0, m1, m2, m3, m4, m5, m6, m7⟩ := akCorner_m e junk
  have hlen : ((akCorner e).t junk).length = 5 := rfl
  have hk : (akCorner e).mat.k = 2 := rfl
  have f : ∀ k, k ≤ 4 → akimaF12 (akimaM 5 (fun i => ((akCorner e).t junk).getD i 0) (fun i => (akCorner e).mat.v i 0)) k = 0 := fun k hk => by
    unfold akimaF12
    rw [h0 _ (by omega), h0 _ (by omega), h0 _ (by omega), h0 _ (by omega)]
    simp
  have g0 : akimaF12 (akimaM 5 (fun i => ((akCorner e).t junk).getD i 0) (fun i => (akCorner e).mat.v i 1)) 0 = 0 := by
    simp only [akimaF12, zero_add, m0, m1, m2, m3]; simp
  have g1 : akimaF12 (akimaM 5 (fun i => ((akCorner e).t junk).getD i 0) (fun i => (akCorner e).mat.v i 1)) 1 = 1 := by
    simp only [akimaF12, Nat.reduceAdd, m1, m2, m3, m4]; simp
  have g2 : akimaF12 (akimaM 5 (fun i => ((akCorner e).t junk).getD i 0) (fun i => (akCorner e).mat.v i 1)) 2 = e := by
    simp only [akimaF12, Nat.reduceAdd, m2, m3, m4, m5]; simp [abs_of_nonneg he]
  have g3 : akimaF12 (akimaM 5 (fun i => ((akCorner e).t junk).getD i 0) (fun i => (akCorner e).mat.v i 1)) 3 = 1 + e := by
    simp only [akimaF12, Nat.reduceAdd, m3, m4, m5, m6]
    rw [show 1 + 2 * e - (1 + e) = e by ring, abs_of_nonneg he]; simp [add_comm]
  have g4 : akimaF12 (akimaM 5 (fun i => ((akCorner e).t junk).getD i 0) (fun i => (akCorner e).mat.v i 1)) 4 = 2 * e := by
    simp only [akimaF12, Nat.reduceAdd, m4, m5, m6, m7]
    rw [show 1 + 3 * e - (1 + 2 * e) = e by ring, show 1 + e - 1 = e by ring, abs_of_nonneg he]; ring
  have htop : (((List.range 2).flatMap fun j => (List.range 5).map (akimaF12 (akimaM 5 (fun i => ((akCorner e).t junk).getD i 0) (fun i => (akCorner e).mat.v i j))))).foldl max 0 =
      1 + e := by
    simp only [List.range_succ, List.range_zero, List.nil_append, List.cons_append, List.flatMap_cons, List.flatMap_nil, List.map_cons, List.map_nil, List.foldl_cons, List.foldl_nil, List.append_nil,
      f 0 (by omega), f 1 (by omega), f 2 (by omega), f 3 (by omega), f 4 (by omega), g0, g1, g2, g3, g4, max_self]
    rw [max_eq_right (by linarith : (0 : ℝ) ≤ 1)]
    rw [max_assoc (1 : ℝ) e, max_eq_right (by linarith : e ≤ 1 + e), max_eq_right (by linarith : (1 : ℝ) ≤ 1 + e), max_eq_left (by linarith)]
  refine ⟨?_, ?_⟩
  · simp only [akimaSlopes, hlen, hk, htop]
    unfold akimaSlope
    rw [g2]
    simp only [Nat.reduceAdd, m2, m3, m4, m5]
    simp
  · simp only [akimaSlopes, hlen, hk, htop]
    unfold akimaSlope
    rw [g3, if_pos (by norm_num; linarith)]
    simp only [Nat.reduceAdd, m3, m4, m5, m6]
    rw [show 1 + 2 * e - (1 + e) = e by ring, abs_of_nonneg he]
    congr 1
    norm_num
    ring

/-- **C153 fails for Akima interpolation.** However small `δ` is, there are two curves of five points with the same parameter, not farther apart than `δ`, whose Akima interpolants at `5/2` are farther apart than `1/16`: where the secant
slopes before a point and those behind it agree up to the factor `1e-9` the slope is taken by another formula. -/
theorem C153_akima_fails {δ : ℝ} (hδ : 0 < δ) {junk : ℝ} {lib : SplineLib} {r : KwReg} {m : String} (hr : IsAkima lib junk r m) :
    ∃ c c' : Curve ℝ, WF c ∧ WF c' ∧ c.size = 5 ∧ NearCurve δ c c' ∧ c.t junk = [0, 1, 2, 3, 4] ∧ c'.t junk = c.t junk ∧
      ∃ F F', EvaluatesTo c (fun g => c.interpolate r g m .none) (WithinEnds (c.t junk)) F ∧ EvaluatesTo c' (fun g => c'.interpolate r g m .none) (WithinEnds (c'.t junk)) F' ∧
        1 / 16 < gap 2 (F (5 / 2)) (F' (5 / 2)) := by
  obtain ⟨e0, he0⟩ : ∃ e : ℝ, e = 1 / (10 ^ 9 - 1) := ⟨_, rfl⟩
  obtain ⟨e1, he1⟩ : ∃ e : ℝ, e = e0 + min δ (1 / 2) := ⟨_, rfl⟩
  have p0 : 0 < e0 := by rw [he0]; norm_num
  have q0 : e0 ≤ 1 / 2 := by rw [he0]; norm_num
  have p1 : e0 < e1 := by rw [he1]; have : 0 < min δ (1 / 2) := lt_min hδ (by norm_num); linarith
  have q1 : e1 ≤ 1 := by rw [he1]; have := min_le_right δ (1 / 2); linarith
  have d1 : e1 - e0 ≤ δ := by rw [he1]; have := min_le_left δ (1 / 2); linarith
  have n0 : ¬ 1 / 10 ^ 9 * (1 + e0) < e0 := by rw [he0]; norm_num
  have n1 : 1 / 10 ^ 9 * (1 + e1) < e1 := by
    have : 1 / 10 ^ 9 * (1 + e0) = e0 := by rw [he0]; norm_num
    linarith
  have hs : ∀ e, 2 ≤ (akCorner e).size := fun e => by simp [akCorner, Curve.size]
  have ak : ∀ e, withKw pickAkima (akimaCons lib junk) (akCorner e) .none =
      .ok (PPoly.impl ⟨(akCorner e).t junk, (akCorner e).mat, akimaSlopes ((akCorner e).t junk) (akCorner e).mat, .no⟩) := fun e => by
    have := akima_cons (akCorner_WF e) (hs e) (akCorner_lt e junk) lib
    rwa [if_neg (by simp [akCorner, Curve.size])] at this
  refine ⟨akCorner e0, akCorner e1, akCorner_WF _, akCorner_WF _, rfl, ⟨rfl, rfl, ?_⟩, rfl, rfl, _, _,
    spline_eval (akCorner_WF e0) (hs e0) (akCorner_lt e0 junk) (by simp [akCorner]) hr (ak e0) rfl rfl (.inr ⟨rfl, fun x hx => hx⟩),
    spline_eval (akCorner_WF e1) (hs e1) (akCorner_lt e1 junk) (by simp [akCorner]) hr (ak e1) rfl rfl (.inr ⟨rfl, fun x hx => hx⟩), ?_⟩
  · intro i hi
    have hi : i < 5 := hi
    show gap 2 ((akCorner e0).rows.getD i []) ((akCorner e1).rows.getD i []) ≤ δ
    rw [gap_eq_sqrt, Fin.sum_univ_two]
    interval_cases i <;> simp [akCorner]
    · exact hδ.le
    · exact hδ.le
    · exact hδ.le
    · exact hδ.le
    · rw [Real.sqrt_sq (by linarith)]; exact d1
  · have val : ∀ e, 0 ≤ e → e ≤ 1 → ∀ d2, (akimaSlopes ((akCorner e).t junk) (akCorner e).mat).v 2 1 = d2 →
        (PPoly.row ⟨(akCorner e).t junk, (akCorner e).mat, akimaSlopes ((akCorner e).t junk) (akCorner e).mat, .no⟩ (5 / 2)).getD 1 0 = 1 / 2 + (d2 - (1 + 2 * e) / (1 + e)) / 8 := by
      intro e a0 a1 d2 hd2
      have k2 : knot ((akCorner e).t junk) 2 = 2 := knot_eq rfl
      have k3 : knot ((akCorner e).t junk) 3 = 3 := knot_eq rfl
      rw [PPoly.row_getD _ (by simp [akCorner, Curve.mat]), PPoly.coord_on (i := 2) (akCorner_lt e junk) (by simp [akCorner, Curve.t]) 1 (.inr (by rw [k2]; norm_num)) (.inr (by rw [k3]; norm_num))]
      unfold PPoly.cub
      simp only [Nat.reduceAdd]
      rw [k2, k3, hd2, (akCorner_slopes a0 a1 junk).2]
      simp [hermR, akCorner, Curve.mat]
      ring
    have v0 := val e0 p0.le (by linarith) _ (akCorner_slopes p0.le (by linarith) junk).1
    have v1 := val e1 (by linarith) q1 _ (akCorner_slopes (by linarith) q1 junk).1
    rw [if_neg n0] at v0
    rw [if_pos n1] at v1
    have mono : (1 + 2 * e0) / (1 + e0) ≤ (1 + 2 * e1) / (1 + e1) := by
      rw [div_le_div_iff₀ (by linarith) (by linarith)]
      nlinarith
    rw [gap_eq_sqrt, Fin.sum_univ_two]
    refine Real.lt_sqrt_of_sq_lt ?_
    simp only [Fin.isValue, Fin.val_zero, Fin.val_one]
    rw [v0, v1]
    nlinarith [sq_nonneg ((PPoly.row ⟨(akCorner e1).t junk, (akCorner e1).mat, akimaSlopes ((akCorner e1).t junk) (akCorner e1).mat, .no⟩ (5 / 2)).getD 0 0 -
      (PPoly.row ⟨(akCorner e0).t junk, (akCorner e0).mat, akimaSlopes ((akCorner e0).t junk) (akCorner e0).mat, .no⟩ (5 / 2)).getD 0 0)]

/-! ### The hypotheses are met -/

private noncomputable def ssA : Curve ℝ := ⟨[[0, 0], [1, 0], [2, 1]], 2, some [0, 1, 3], .float⟩
private noncomputable def ssB : Curve ℝ := ⟨[[0, 0], [1, 1 / 100], [2, 1]], 2, some [0, 1, 3], .float⟩

private theorem ssA_WF : WF ssA where
  two_le := by simp [ssA]
  rect := by simp [ssA]
  tlen := by simp [ssA]
  repr := by simp [ssA, DType.cast]

private theorem ssB_WF : WF ssB where
  two_le := by simp [ssB]
  rect := by simp [ssB]
  tlen := by simp [ssB]
  repr := by simp [ssB, DType.cast]

private theorem ssNear : NearCurve (1 / 100) ssA ssB where
  ndim := rfl
  size := rfl
  near := by
    intro i hi
    have hi : i < 3 := hi
    show gap 2 (ssA.rows.getD i []) (ssB.rows.getD i []) ≤ 1 / 100
    rw [gap_eq_sqrt, Fin.sum_univ_two]
    interval_cases i <;> simp [ssA, ssB]

private theorem ssSteps : ∀ (i : Nat) (u v : ℝ), (ssA.t 0)[i]? = some u → (ssA.t 0)[i + 1]? = some v → 1 ≤ v - u ∧ v - u ≤ 2 := by
  intro i u v hu hv
  have e : ssA.t 0 = [0, 1, 3] := rfl
  rw [e] at hu hv
  match i with
  | 0 => simp at hu hv; subst hu hv; norm_num
  | 1 => simp at hu hv; subst hu hv; norm_num
  | (k + 2) => simp at hv

example : ∃ lib, ∃ F F', EvaluatesTo ssA (fun g => ssA.interpolate (builtinInterp lib 0) g "cubic" .none) (fun _ => True) F ∧
    EvaluatesTo ssB (fun g => ssB.interpolate (builtinInterp lib 0) g "cubic" .none) (fun _ => True) F' ∧
    ∀ x, WithinEnds (ssA.t 0) x → gap 2 (F x) (F' x) ≤ (1 + 3 / 2 * (2 / 1)) * (1 / 100) := by
  obtain ⟨lib, hlib⟩ := exists_naturalOk
  exact ⟨lib, C153_cubic ssA_WF ssB_WF (by simp [ssA, Curve.size]) ssNear (by show [(0 : ℝ), 1, 3].Pairwise (· < ·); simp) rfl (by simp [ssA]) (by simp [ssB]) hlib
    (builtin_names lib 0).2.2.2.2 one_pos ssSteps⟩

example : ∃ lib, MinNormOk lib ∧ ∃ C C', (finCurve ssA).smooth (smoothReg (savgolFn lib)) "savgol" (.savgol ⟨3, 1, 0, 1, "interp", 0⟩) = .ok (finCurve C) ∧
    (finCurve ssB).smooth (smoothReg (savgolFn lib)) "savgol" (.savgol ⟨3, 1, 0, 1, "interp", 0⟩) = .ok (finCurve C') ∧ NearCurve (√3 * (1 / 100)) C C' := by
  obtain ⟨lib, hl, _⟩ := exists_minNorm false
  obtain ⟨K, -, hK, h⟩ := C153_savgol hl (smoothReg_savgol (savgolFn lib)) (wl := 3) (po := 1) (by norm_num) (by norm_num) 0
  obtain ⟨C, C', h1, h2, h3, -⟩ := h ssA_WF ssB_WF (by simp [ssA]) ssNear (delta := 1) (.inr rfl) (mode := "interp") 0 (.inl ⟨rfl, by simp [ssA, Curve.size]⟩)
  refine ⟨lib, hl, C, C', h1, h2, ?_⟩
  rw [hK rfl] at h3
  simpa using h3

private theorem ssA_speed {i : Nat} (hi : i < 3) : 1 ≤ ‖rowVec 2 (firstderiv ssA).rows i‖ := by
  refine le_trans (le_of_eq ?_) (PiLp.norm_apply_le (rowVec 2 (firstderiv ssA).rows i) 0)
  rw [first_row ssA_WF (by simp [ssA, Curve.size]) (by simpa [ssA, Curve.size] using hi)]
  interval_cases i <;> norm_num [gradV, ssA, Curve.size, rowVec_apply, at2]

private theorem ssB_speed {i : Nat} (hi : i < 3) : 1 ≤ ‖rowVec 2 (firstderiv ssB).rows i‖ := by
  refine le_trans (le_of_eq ?_) (PiLp.norm_apply_le (rowVec 2 (firstderiv ssB).rows i) 0)
  rw [first_row ssB_WF (by simp [ssB, Curve.size]) (by simpa [ssB, Curve.size] using hi)]
  interval_cases i <;> norm_num [gradV, ssB, Curve.size, rowVec_apply, at2]

example (lib : SplineLib) : ∃ F F', EvaluatesTo ssA (fun g => ssA.interpolate (builtinInterp lib 0) g "hermite" .none) (fun _ => True) F ∧
    EvaluatesTo ssB (fun g => ssB.interpolate (builtinInterp lib 0) g "hermite" .none) (fun _ => True) F' ∧
    ∀ x, WithinEnds (ssA.t 0) x → gap 2 (F x) (F' x) ≤ (1 + 2 * (2 / 1)) * (1 / 100) :=
  C153_hermite ssA_WF ssB_WF (by simp [ssA, Curve.size]) ssNear (by show [(0 : ℝ), 1, 3].Pairwise (· < ·); simp) rfl (by simp [ssA]) (by simp [ssB])
    (builtin_names lib 0).2.1 (fun i u v hu hv => (ssSteps i u v hu hv).2) one_pos fun i hi =>
      ⟨lt_of_lt_of_le (by norm_num) (ssA_speed hi), lt_of_lt_of_le (by norm_num) (ssB_speed hi), ssB_speed hi⟩

end Verif.Props
