import Verif.Model.RoundedDist
import Verif.Lemmas.SegDistFl
import Verif.Props.RoundedCross
import Verif.Props.SegDist
import Verif.Props.Almost

/-!
C156: distance of two segments and almost intersections of segments in floating point.
-/
namespace Verif.Props

open Verif Verif.Np Verif.Model Verif.Spec

section
variable {ε η ν k L M : ℝ} {fl : ℝ → ℝ} {n : Nat}

theorem vnorm_mono {u : Vec n ℝ} {g : Vec n ℝ} (h : ∀ i, |u i| ≤ g i) : vnorm u ≤ vnorm g := by
  refine vnorm_le_of_sq ?_
  rw [vdot_eq, vdot_eq]
  refine Finset.sum_le_sum fun i _ => ?_
  have := h i
  rw [← abs_mul_abs_self (u i)]
  exact mul_le_mul this this (abs_nonneg _) ((abs_nonneg _).trans this)

theorem vnorm_abs (u : Vec n ℝ) : vnorm (fun i => |u i|) = vnorm u := by
  unfold vnorm
  rw [vdot_eq, vdot_eq]
  simp

theorem vnorm_point_le {s : Seg n ℝ} {t : ℝ} (t0 : 0 ≤ t) (t1 : t ≤ 1) (h1 : vnorm s.p1 ≤ M) (h2 : vnorm s.p2 ≤ M) : vnorm (s.point t) ≤ M := by
  have : s.point t = (1 - t) • s.p1 + t • s.p2 := by
    rw [Seg.point_eq]
    unfold Seg.direction
    funext i
    simp only [Pi.add_apply, Pi.smul_apply, Pi.sub_apply, smul_eq_mul]
    ring
  rw [this]
  refine (vnorm_add_le _ _).trans ?_
  rw [vnorm_smul, vnorm_smul, abs_of_nonneg t0, abs_of_nonneg (by linarith)]
  nlinarith

/-- The computed point of a segment. -/
theorem segPoint_near (hf : Rounding ε fl) (hε : ε ≤ 1 / 1000) {s : Seg n ℝ} {t : ℝ} (t0 : 0 ≤ t) (t1 : t ≤ 1) (h1 : vnorm s.p1 ≤ M) (h2 : vnorm s.p2 ≤ M) :
    Model.edist (segPointFl fl s t) (s.point t) ≤ 11 * ε * M := by
  have e0 := hf.nonneg
  have key : ∀ i, |(segPointFl fl s t - s.point t) i| ≤ (ε • (fun i => |s.point t i|) + (5 * ε) • fun i => |s.direction i|) i := by
    intro i
    have := cross_point' hf hε (x1 := s.p1 i) (x2 := s.p2 i) (t := t) (by rw [abs_of_nonneg t0]; linarith)
    simpa [segPointFl, Seg.point, Seg.direction] using this
  rw [edist_eq_vnorm]
  refine (vnorm_mono key).trans ((vnorm_add_le _ _).trans ?_)
  rw [vnorm_smul, vnorm_smul, vnorm_abs, vnorm_abs, abs_of_nonneg e0, abs_of_nonneg (by positivity)]
  have a := vnorm_point_le t0 t1 h1 h2
  have b : vnorm s.direction ≤ 2 * M := by
    have := vnorm_sub_le s.p2 s.p1
    unfold Seg.direction
    linarith
  have := mul_le_mul_of_nonneg_left a e0
  have := mul_le_mul_of_nonneg_left b (show 0 ≤ 5 * ε by positivity)
  linarith

/-- The computed parameters are in [0, 1]. -/
theorem toSeg_range (hf : Rounding ε fl) (h1 : fl 1 = 1) {s r : Seg n ℝ} {tol : ℝ} (ht : 0 < tol) {x : ℝ × ℝ} (h : ToSegTo fl s r tol x) :
    (0 ≤ x.1 ∧ x.1 ≤ 1) ∧ 0 ≤ x.2 ∧ x.2 ≤ 1 := by
  obtain ⟨a, b, c, d, e, -, -, -, -, -, rfl⟩ := h
  exact C33_range fl hf.mono (fl_zero hf) h1 ht a b c d e

/-- **C156 (sound).** The connecting segment computed by `shortest_segment` ends within `11 ε M` of a point of each segment (`M` bounds the distance of the end points from the origin), and the computed length is
the distance of these two points up to rounding. So the computed distance of two segments is never smaller than their distance by more than rounding. -/
theorem C156_sound (hf : Rounding ε fl) (h1 : fl 1 = 1) (hε : ε ≤ 1 / 1000) (hη : 0 ≤ η) {s r q : Seg n ℝ} (hs1 : vnorm s.p1 ≤ M) (hs2 : vnorm s.p2 ≤ M) (hr1 : vnorm r.p1 ≤ M) (hr2 : vnorm r.p2 ≤ M)
    {z : ℝ} (h : ShortestTo fl s r q) (hz : LenTo η q z) :
    ∃ P Q, Between s.p1 s.p2 P ∧ Between r.p1 r.p2 Q ∧ Model.edist q.p1 P ≤ 11 * ε * M ∧ Model.edist q.p2 Q ≤ 11 * ε * M ∧
      |z - Model.edist P Q| ≤ η * Model.edist P Q + (1 + η) * (22 * ε * M) := by
  obtain ⟨x, hx, rfl⟩ := h
  obtain ⟨⟨a0, a1⟩, b0, b1⟩ := toSeg_range hf h1 f_eps_pos hx
  have n1 := segPoint_near hf hε a0 a1 hs1 hs2
  have n2 := segPoint_near hf hε b0 b1 hr1 hr2
  refine ⟨s.point x.1, r.point x.2, ⟨_, a0, a1, Seg.point_eq s _⟩, ⟨_, b0, b1, Seg.point_eq r _⟩, n1, n2, ?_⟩
  unfold LenTo at hz
  simp only at hz n1 n2
  set P := s.point x.1
  set Q := r.point x.2
  set P' := segPointFl fl s x.1
  set Q' := segPointFl fl r x.2
  have t1 := Model.edist_triangle P' P Q'
  have t2 := Model.edist_triangle P Q Q'
  have t3 := Model.edist_triangle P P' Q
  have t4 := Model.edist_triangle P' Q' Q
  rw [Model.edist_comm Q Q'] at t2
  rw [Model.edist_comm P P'] at t3
  have b : |Model.edist P' Q' - Model.edist P Q| ≤ 22 * ε * M := by rw [abs_le]; constructor <;> linarith
  have := abs_sub_le z (Model.edist P' Q') (Model.edist P Q)
  have up : Model.edist P' Q' ≤ Model.edist P Q + 22 * ε * M := by linarith
  have := mul_le_mul_of_nonneg_left up hη
  linarith

/-- From the conditions of the minimum to the distance. -/
theorem near_min {a b c d e W ρ D A x y x' y' : ℝ} (A0 : 0 < A) (ha : a ≤ A) (hc : c ≤ A) (ha0 : 0 ≤ a) (hc0 : 0 ≤ c) (hD : D = a * c - b * b) (D0 : 0 < D) (ρ0 : 0 ≤ ρ)
    (hx : NearOpt ρ x (a * x - b * y + d)) (hy : NearOpt ρ y (c * y - b * x - e)) (x0 : 0 ≤ x') (x1 : x' ≤ 1) (y0 : 0 ≤ y') (y1 : y' ≤ 1) :
    W + qf a b c d e x y ≤ W + qf a b c d e x' y' + 4 * ρ ^ 2 * A / D := by
  have v1 := hx.var x0 x1
  have v2 := hy.var y0 y1
  obtain ⟨p, hp⟩ : ∃ p, p = x - x' := ⟨_, rfl⟩
  obtain ⟨q, hq⟩ : ∃ q, q = y - y' := ⟨_, rfl⟩
  rw [← hp] at v1
  rw [← hq] at v2
  have e1 : qf a b c d e x y - qf a b c d e x' y' = 2 * ((a * x - b * y + d) * p + (c * y - b * x - e) * q) - (a * p ^ 2 - 2 * b * p * q + c * q ^ 2) := by
    rw [hp, hq]; unfold qf; ring
  -- the quadratic form dominates the distance of the parameters
  have e2 : D * p ^ 2 ≤ A * (a * p ^ 2 - 2 * b * p * q + c * q ^ 2) := by
    have : D * p ^ 2 ≤ c * (a * p ^ 2 - 2 * b * p * q + c * q ^ 2) := by rw [hD]; nlinarith [sq_nonneg (b * p - c * q)]
    have nn : 0 ≤ a * p ^ 2 - 2 * b * p * q + c * q ^ 2 := by
      rcases hc0.lt_or_eq with h | h
      · by_contra hneg
        push Not at hneg
        nlinarith [mul_pos h (neg_pos.2 hneg), mul_nonneg D0.le (sq_nonneg p)]
      · exfalso; rw [← h] at hD; nlinarith [mul_self_nonneg b]
    exact this.trans (mul_le_mul_of_nonneg_right hc nn)
  have e3 : D * q ^ 2 ≤ A * (a * p ^ 2 - 2 * b * p * q + c * q ^ 2) := by
    have : D * q ^ 2 ≤ a * (a * p ^ 2 - 2 * b * p * q + c * q ^ 2) := by rw [hD]; nlinarith [sq_nonneg (b * q - a * p)]
    have nn : 0 ≤ a * p ^ 2 - 2 * b * p * q + c * q ^ 2 := by
      have : 0 ≤ A * (a * p ^ 2 - 2 * b * p * q + c * q ^ 2) := (mul_nonneg D0.le (sq_nonneg p)).trans e2
      exact nonneg_of_mul_nonneg_right this A0
    exact this.trans (mul_le_mul_of_nonneg_right ha nn)
  set F := a * p ^ 2 - 2 * b * p * q + c * q ^ 2
  have sp := sq_abs p
  have sq' := sq_abs q
  have e4 : qf a b c d e x y - qf a b c d e x' y' ≤ 2 * ρ * (|p| + |q|) - F := by rw [e1]; linarith
  have e5 : D * (2 * ρ * (|p| + |q|) - F) * A ≤ 4 * ρ ^ 2 * A * A := by
    have i1 : D * (D * |p| ^ 2) ≤ D * (A * F) := by rw [sp]; exact mul_le_mul_of_nonneg_left e2 D0.le
    have i2 : D * (D * |q| ^ 2) ≤ D * (A * F) := by rw [sq']; exact mul_le_mul_of_nonneg_left e3 D0.le
    nlinarith [sq_nonneg (2 * ρ * A - D * |p|), sq_nonneg (2 * ρ * A - D * |q|)]
  have e6 := le_of_mul_le_mul_right e5 A0
  have e7 : 2 * ρ * (|p| + |q|) - F ≤ 4 * ρ ^ 2 * A / D := by rw [le_div_iff₀ D0]; linarith
  linarith

theorem vdot_near (hf : Rounding ε fl) (hε : 100 * ((n + 2 : ℕ) * ε) ≤ 1) (hν : 2 * (n + 2 : ℕ) * ε ≤ ν) (L0 : 0 ≤ L) {p q p' q' : Vec n ℝ} {z : ℝ}
    (h : VDotTo fl (subFl fl p q) (subFl fl p' q') z) (h1 : vnorm (p - q) ≤ L) (h2 : vnorm (p' - q') ≤ L) :
    |z - vdot (p - q) (p' - q')| ≤ ν * L ^ 2 ∧ |vdot (p - q) (p' - q')| ≤ L ^ 2 := by
  have e0 := hf.nonneg
  have r := vdot_err' hf hε h
  have c := cauchy_abs (fun i => p i - q i) fun i => p' i - q' i
  have s1 : √ (∑ i, (p i - q i) ^ 2) = vnorm (p - q) := by unfold vnorm; rw [vdot_eq]; simp [sq]
  have s2 : √ (∑ i, (p' i - q' i) ^ 2) = vnorm (p' - q') := by unfold vnorm; rw [vdot_eq]; simp [sq]
  have s3 : ∑ i, (p i - q i) * (p' i - q' i) = vdot (p - q) (p' - q') := by rw [vdot_eq]; simp
  have m := mul_le_mul h1 h2 (vnorm_nonneg _) L0
  rw [s1, s2] at r c
  rw [s3] at r
  refine ⟨r.trans ?_, ?_⟩
  · have n0 : 0 ≤ vnorm (p - q) * vnorm (p' - q') := mul_nonneg (vnorm_nonneg _) (vnorm_nonneg _)
    have : 1.02 * (n + 2 : ℕ) * ε ≤ ν := by
      have : 0 ≤ ((n + 2 : ℕ) : ℝ) * ε := by positivity
      linarith
    have := mul_le_mul this m n0 (le_trans (by positivity) hν)
    linarith
  · rw [← s3]
    refine (Finset.abs_sum_le_sum_abs _ _).trans (c.trans ?_)
    linarith

/-- The parameters computed by `segment_to_segment`. -/
theorem toSeg_near (hf : Rounding ε fl) (h1 : fl 1 = 1) (hε : 100 * ((n + 2 : ℕ) * ε) ≤ 1) (hν : 2 * (n + 2 : ℕ) * ε ≤ ν) (hν1 : ν ≤ 1 / 1000) (L0 : 0 < L) {s r : Seg n ℝ}
    (hs : Model.edist s.p1 s.p2 ≤ L) (hr : Model.edist r.p1 r.p2 ≤ L) (hw : Model.edist s.p1 r.p1 ≤ L) {tol : ℝ} (ht : 0 < tol) (t2 : tol ≤ ν * L ^ 2) (t4 : tol ≤ ν * L ^ 4)
    (k0 : 0 < k) (hk : L ^ 4 ≤ k * gram (s.p2 - s.p1) (r.p2 - r.p1)) (hνk : 20 * ν * k ≤ 1) {x : ℝ × ℝ} (h : ToSegTo fl s r tol x) {P Q : Vec n ℝ} (hP : Between s.p1 s.p2 P) (hQ : Between r.p1 r.p2 Q) :
    Model.edist (s.point x.1) (r.point x.2) ≤ Model.edist P Q + 100 * ν * k * √ k * L := by
  obtain ⟨x', x0, x1, rfl⟩ := hP
  obtain ⟨y', y0, y1, rfl⟩ := hQ
  obtain ⟨a, b, c, d, e, ha, hb, hc, hd, he, rfl⟩ := h
  have e0 := hf.nonneg
  have νe : ε ≤ ν := by
    have : (2 : ℝ) ≤ (n + 2 : ℕ) := by push_cast; linarith [(Nat.cast_nonneg n : (0 : ℝ) ≤ n)]
    nlinarith
  have ν0 : 0 ≤ ν := e0.trans νe
  have hs' : vnorm (s.p2 - s.p1) ≤ L := by rw [← edist_eq_vnorm, Model.edist_comm]; exact hs
  have hr' : vnorm (r.p2 - r.p1) ≤ L := by rw [← edist_eq_vnorm, Model.edist_comm]; exact hr
  have hw' : vnorm (s.p1 - r.p1) ≤ L := by rw [← edist_eq_vnorm]; exact hw
  obtain ⟨a1, a2⟩ := vdot_near hf hε hν L0.le ha hs' hs'
  obtain ⟨b1, b2⟩ := vdot_near hf hε hν L0.le hb hs' hr'
  obtain ⟨c1, c2⟩ := vdot_near hf hε hν L0.le hc hr' hr'
  obtain ⟨d1, d2⟩ := vdot_near hf hε hν L0.le hd hs' hw'
  obtain ⟨f1, f2⟩ := vdot_near hf hε hν L0.le he hr' hw'
  have A0 : 0 < L ^ 2 := by positivity
  have aA := (le_abs_self _).trans a2
  have cA := (le_abs_self _).trans c2
  have L4 : (L ^ 2) ^ 2 = L ^ 4 := by ring
  rw [gram_eq] at hk
  obtain ⟨D, hD⟩ : ∃ D, D = vdot (s.p2 - s.p1) (s.p2 - s.p1) * vdot (r.p2 - r.p1) (r.p2 - r.p1) - vdot (s.p2 - s.p1) (r.p2 - r.p1) * vdot (s.p2 - s.p1) (r.p2 - r.p1) := ⟨_, rfl⟩
  rw [← hD] at hk
  have D0 : 0 < D := by
    have : 0 < k * D := lt_of_lt_of_le (by positivity) hk
    exact pos_of_mul_pos_right this k0.le
  obtain ⟨o1, o2⟩ := core_near hf h1 νe hν1 A0 ht t2 (by rw [L4]; exact t4) aA cA (vdot_self_nonneg _) (vdot_self_nonneg _) b2 d2 f2 a1 b1 c1 d1 f1 hD (by rw [L4]; exact hk) hνk k0
  have key := near_min (W := vdot (s.p1 - r.p1) (s.p1 - r.p1)) A0 aA cA (vdot_self_nonneg _) (vdot_self_nonneg _) hD D0 (by positivity) o1 o2 x0 x1 y0 y1
  have sq1 : Model.edist (s.point (s2sCore fl tol a b c d e).1) (r.point (s2sCore fl tol a b c d e).2) ^ 2 =
      vdot (s.p1 - r.p1) (s.p1 - r.p1) + qf (vdot (s.p2 - s.p1) (s.p2 - s.p1)) (vdot (s.p2 - s.p1) (r.p2 - r.p1)) (vdot (r.p2 - r.p1) (r.p2 - r.p1)) (vdot (s.p2 - s.p1) (s.p1 - r.p1))
        (vdot (r.p2 - r.p1) (s.p1 - r.p1)) (s2sCore fl tol a b c d e).1 (s2sCore fl tol a b c d e).2 := by
    rw [edist_points, vnorm_sq, qf_vnorm]; rfl
  have sq2 : Model.edist (s.p1 + x' • (s.p2 - s.p1)) (r.p1 + y' • (r.p2 - r.p1)) ^ 2 =
      vdot (s.p1 - r.p1) (s.p1 - r.p1) + qf (vdot (s.p2 - s.p1) (s.p2 - s.p1)) (vdot (s.p2 - s.p1) (r.p2 - r.p1)) (vdot (r.p2 - r.p1) (r.p2 - r.p1)) (vdot (s.p2 - s.p1) (s.p1 - r.p1))
        (vdot (r.p2 - r.p1) (s.p1 - r.p1)) x' y' := by
    have : Model.edist (s.p1 + x' • (s.p2 - s.p1)) (r.p1 + y' • (r.p2 - r.p1)) = Model.edist (s.point x') (r.point y') := by rw [Seg.point_eq, Seg.point_eq]; rfl
    rw [this, edist_points, vnorm_sq, qf_vnorm]; rfl
  rw [← sq1, ← sq2] at key
  set X := Model.edist (s.point (s2sCore fl tol a b c d e).1) (r.point (s2sCore fl tol a b c d e).2)
  set Y := Model.edist (s.p1 + x' • (s.p2 - s.p1)) (r.p1 + y' • (r.p2 - r.p1)) with hY
  have Y0 : 0 ≤ Y := Model.edist_nonneg _ _
  have bound : 4 * (50 * ν * k * L ^ 2) ^ 2 * L ^ 2 / D ≤ (100 * ν * k * √ k * L) ^ 2 := by
    rw [div_le_iff₀ D0]
    have := Real.sq_sqrt k0.le
    have e1 : (100 * ν * k * √ k * L) ^ 2 * D = 10000 * ν ^ 2 * k ^ 2 * L ^ 2 * (√ k ^ 2 * D) := by ring
    rw [e1, this]
    have := mul_le_mul_of_nonneg_left hk (show 0 ≤ 10000 * ν ^ 2 * k ^ 2 * L ^ 2 by positivity)
    linarith
  have E0 : 0 ≤ 100 * ν * k * √ k * L := by positivity
  refine abs_le_of_sq_le_sq' ?_ (by positivity) |>.2
  have := mul_nonneg Y0 E0
  nlinarith

/-- **C156 (distance).** Let the directions of two segments be at an angle: with `L` a bound of the lengths and of the distance of the first end points, `L⁴ ≤ k G` for the Gram determinant `G` of the directions
(for segments of length `L`, `k = 1 / sin²` of the angle). Then for any two points of the segments, the computed distance is at most their distance plus `100 ν k √k L` plus the rounding of the coordinates, where `ν` bounds `2 (n + 2) ε` and the
tolerance of the code compared with `L²` and `L⁴`. -/
theorem C156_distance_partial (hf : Rounding ε fl) (h1 : fl 1 = 1) (hε : 100 * ((n + 2 : ℕ) * ε) ≤ 1) (hη : 0 ≤ η) (hν : 2 * (n + 2 : ℕ) * ε ≤ ν) (hν1 : ν ≤ 1 / 1000) (L0 : 0 < L) {s r q : Seg n ℝ}
    (hs : Model.edist s.p1 s.p2 ≤ L) (hr : Model.edist r.p1 r.p2 ≤ L) (hw : Model.edist s.p1 r.p1 ≤ L) (t2 : F_EPS ≤ ν * L ^ 2) (t4 : F_EPS ≤ ν * L ^ 4)
    (k0 : 0 < k) (hk : L ^ 4 ≤ k * gram (s.p2 - s.p1) (r.p2 - r.p1)) (hνk : 20 * ν * k ≤ 1)
    (hs1 : vnorm s.p1 ≤ M) (hs2 : vnorm s.p2 ≤ M) (hr1 : vnorm r.p1 ≤ M) (hr2 : vnorm r.p2 ≤ M) {z : ℝ} (h : ShortestTo fl s r q) (hz : LenTo η q z)
    {P Q : Vec n ℝ} (hP : Between s.p1 s.p2 P) (hQ : Between r.p1 r.p2 Q) :
    z ≤ (1 + η) * (Model.edist P Q + 100 * ν * k * √ k * L + 22 * ε * M) := by
  obtain ⟨x, hx, rfl⟩ := h
  have e0 := hf.nonneg
  have hε' : ε ≤ 1 / 1000 := by
    have : (2 : ℝ) ≤ (n + 2 : ℕ) := by push_cast; linarith [(Nat.cast_nonneg n : (0 : ℝ) ≤ n)]
    nlinarith
  obtain ⟨⟨a0, a1⟩, b0, b1⟩ := toSeg_range hf h1 f_eps_pos hx
  have n1 := segPoint_near hf hε' a0 a1 hs1 hs2
  have n2 := segPoint_near hf hε' b0 b1 hr1 hr2
  have m := toSeg_near hf h1 hε hν hν1 L0 hs hr hw f_eps_pos t2 t4 k0 hk hνk hx hP hQ
  unfold LenTo at hz
  simp only at hz
  have t1 := Model.edist_triangle (segPointFl fl s x.1) (s.point x.1) (segPointFl fl r x.2)
  have t2 := Model.edist_triangle (s.point x.1) (r.point x.2) (segPointFl fl r x.2)
  rw [Model.edist_comm (r.point x.2)] at t2
  have up : Model.edist (segPointFl fl s x.1) (segPointFl fl r x.2) ≤ Model.edist P Q + 100 * ν * k * √ k * L + 22 * ε * M := by linarith
  have := (abs_le.1 hz).2
  have := mul_le_mul_of_nonneg_left up (show 0 ≤ 1 + η by linarith)
  linarith

/-- **C156 (almost intersections).** So the method `almost` reports two segments at an angle which come closer than `distTol / (1 + η)` less the error, and two segments it reports come closer than
`distTol / (1 - η)` plus rounding. -/
theorem C156_almost_partial (hf : Rounding ε fl) (h1 : fl 1 = 1) (hε : 100 * ((n + 2 : ℕ) * ε) ≤ 1) (hη : 0 ≤ η) (hη1 : η < 1) (hν : 2 * (n + 2 : ℕ) * ε ≤ ν) (hν1 : ν ≤ 1 / 1000) (L0 : 0 < L) {s r : Seg n ℝ}
    (hs : Model.edist s.p1 s.p2 ≤ L) (hr : Model.edist r.p1 r.p2 ≤ L) (hw : Model.edist s.p1 r.p1 ≤ L) (t2 : F_EPS ≤ ν * L ^ 2) (t4 : F_EPS ≤ ν * L ^ 4)
    (k0 : 0 < k) (hk : L ^ 4 ≤ k * gram (s.p2 - s.p1) (r.p2 - r.p1)) (hνk : 20 * ν * k ≤ 1)
    (hs1 : vnorm s.p1 ≤ M) (hs2 : vnorm s.p2 ≤ M) (hr1 : vnorm r.p1 ≤ M) (hr2 : vnorm r.p2 ≤ M) {distTol : ℝ} {x : Info n ℝ} (h : AlmostTo fl η distTol s r x) :
    ((∃ P Q, Between s.p1 s.p2 P ∧ Between r.p1 r.p2 Q ∧ (1 + η) * (Model.edist P Q + 100 * ν * k * √ k * L + 22 * ε * M) < distTol) →
      ∃ q, x = ⟨.segment q, .almost⟩) ∧
    (x ≠ notIntersected → ∃ q P Q, x = ⟨.segment q, .almost⟩ ∧ Between s.p1 s.p2 P ∧ Between r.p1 r.p2 Q ∧ Model.edist q.p1 P ≤ 11 * ε * M ∧ Model.edist q.p2 Q ≤ 11 * ε * M ∧
      (1 - η) * Model.edist P Q < distTol + (1 + η) * (22 * ε * M)) := by
  obtain ⟨q, z, hq, hz, hx1, hx2⟩ := h
  have hε' : ε ≤ 1 / 1000 := by
    have : (2 : ℝ) ≤ (n + 2 : ℕ) := by push_cast; linarith [(Nat.cast_nonneg n : (0 : ℝ) ≤ n)]
    have := hf.nonneg
    nlinarith
  constructor
  · rintro ⟨P, Q, hP, hQ, hlt⟩
    exact ⟨q, hx1 (lt_of_le_of_lt (C156_distance_partial hf h1 hε hη hν hν1 L0 hs hr hw t2 t4 k0 hk hνk hs1 hs2 hr1 hr2 hq hz hP hQ) hlt)⟩
  · intro hne
    have hlt : z < distTol := by
      by_contra hc
      exact hne (hx2 hc)
    obtain ⟨P, Q, hP, hQ, n1, n2, hd⟩ := C156_sound hf h1 hε' hη hs1 hs2 hr1 hr2 hq hz
    refine ⟨q, P, Q, hx1 hlt, hP, hQ, n1, n2, ?_⟩
    have := (abs_le.1 hd).1
    linarith

/-- **C156 (exact arithmetic).** Without rounding these are the functions of the exact model. -/
theorem C156_exact (s r : Seg n ℝ) :
    (∀ tol x, ToSegTo id s r tol x → x = segToSeg s r tol) ∧ (∀ q, ShortestTo id s r q → q = s.shortest (.seg r)) ∧
      (∀ q z, ShortestTo id s r q → LenTo 0 q z → z = s.distance (.seg r)) ∧
      ∀ distTol parTol x (s' r' : SegObj n ℝ), s'.seg = s → r'.seg = r → AlmostTo id 0 distTol s r x → almostSegments distTol false parTol s' r' = .ok x := by
  have sub : ∀ p q : Vec n ℝ, subFl id p q = p - q := fun p q => rfl
  have a : ∀ tol x, ToSegTo id s r tol x → x = segToSeg s r tol := by
    rintro tol x ⟨a, b, c, d, e, ha, hb, hc, hd, he, rfl⟩
    rw [vDotTo_id ha, vDotTo_id hb, vDotTo_id hc, vDotTo_id hd, vDotTo_id he]
    rfl
  have pt : ∀ (s : Seg n ℝ) t, segPointFl id s t = s.point t := by
    intro s t; funext i; simp [segPointFl, pointFl, Seg.point, Seg.direction]
  have b : ∀ q, ShortestTo id s r q → q = s.shortest (.seg r) := by
    rintro q ⟨x, hx, rfl⟩
    rw [a _ _ hx, pt, pt]
    rfl
  have c : ∀ q z, ShortestTo id s r q → LenTo 0 q z → z = s.distance (.seg r) := by
    intro q z hq hz
    unfold LenTo at hz
    rw [zero_mul] at hz
    have := abs_eq_zero.1 (le_antisymm hz (abs_nonneg _))
    rw [b q hq] at this
    exact sub_eq_zero.1 this
  refine ⟨a, b, c, ?_⟩
  rintro distTol parTol x s' r' rfl rfl ⟨q, z, hq, hz, h1, h2⟩
  have hz' := c q z hq hz
  have hq' := b q hq
  unfold almostSegments
  have hd : (s'.seg.shortest (.seg r'.seg)).seglen = z := hz'.symm
  simp only [hd]
  by_cases hlt : z < distTol
  · rw [if_pos hlt, h1 hlt, call_almost, hq']
    rfl
  · rw [if_neg hlt, h2 hlt]

end

/-- **C156 (binary64).** With 53 binary digits and the default `dist_tol = 1e-5`, in up to ten dimensions, with end points within `10⁶` of the origin, segments and their first points within `L` between 1 and 100, and `L⁴ ≤ 100 G`: segments that come closer than
`0.99e-5` are reported, and segments that stay `1.01e-5` apart are not. -/
theorem C156_usual {n : Nat} (hn : n ≤ 10) {η L : ℝ} (hη : 0 ≤ η) (hη1 : η ≤ 1 / 10 ^ 9) (L1 : 1 ≤ L) (L2 : L ≤ 100) {s r : Seg n ℝ} (hs : Model.edist s.p1 s.p2 ≤ L) (hr : Model.edist r.p1 r.p2 ≤ L)
    (hw : Model.edist s.p1 r.p1 ≤ L) (hk : L ^ 4 ≤ 100 * gram (s.p2 - s.p1) (r.p2 - r.p1)) (hs1 : vnorm s.p1 ≤ 10 ^ 6) (hs2 : vnorm s.p2 ≤ 10 ^ 6) (hr1 : vnorm r.p1 ≤ 10 ^ 6) (hr2 : vnorm r.p2 ≤ 10 ^ 6)
    {x : Info n ℝ} (h : AlmostTo rnd η (1 / 10 ^ 5) s r x) :
    ((∃ P Q, Between s.p1 s.p2 P ∧ Between r.p1 r.p2 Q ∧ Model.edist P Q < 0.99 / 10 ^ 5) → ∃ q, x = ⟨.segment q, .almost⟩) ∧
      ((∀ P Q, Between s.p1 s.p2 P → Between r.p1 r.p2 Q → 1.01 / 10 ^ 5 ≤ Model.edist P Q) → x = notIntersected) := by
  have hn' : ((n + 2 : ℕ) : ℝ) ≤ 12 := by exact_mod_cast Nat.add_le_add_right hn 2
  have r1 : rnd 1 = 1 := by simpa using rnd_rep 1 0 (by norm_num)
  have e : (0 : ℝ) ≤ 2⁻¹ ^ 53 := by positivity
  have m : ((n + 2 : ℕ) : ℝ) * 2⁻¹ ^ 53 ≤ 12 * 2⁻¹ ^ 53 := mul_le_mul_of_nonneg_right hn' e
  have l2 : 1 ≤ L ^ 2 := one_le_pow₀ L1
  have l4 : 1 ≤ L ^ 4 := one_le_pow₀ L1
  have η1 : η ≤ 1 / 10 ^ 9 := hη1
  obtain ⟨a, b⟩ := C156_almost_partial (ν := 24 * 2⁻¹ ^ 53) (k := 100) rnd_rounding r1 (by norm_num at m ⊢; linarith) hη (by linarith) (by norm_num at m ⊢; linarith) (by norm_num) (by linarith) hs hr hw
    (by unfold F_EPS; norm_num; linarith) (by unfold F_EPS; norm_num; linarith) (by norm_num) hk (by norm_num) hs1 hs2 hr1 hr2 h
  have sq : √ (100 : ℝ) = 10 := by rw [show (100 : ℝ) = 10 ^ 2 by norm_num]; exact Real.sqrt_sq (by norm_num)
  rw [sq] at a
  constructor
  · rintro ⟨P, Q, hP, hQ, hlt⟩
    refine a ⟨P, Q, hP, hQ, ?_⟩
    have : Model.edist P Q + 100 * (24 * 2⁻¹ ^ 53) * 100 * 10 * L + 22 * 2⁻¹ ^ 53 * 10 ^ 6 ≤ 0.995 / 10 ^ 5 := by norm_num at hlt ⊢; linarith
    have h2 := mul_le_mul_of_nonneg_left this (show 0 ≤ 1 + η by linarith)
    norm_num at h2 η1 ⊢
    linarith
  · intro hfar
    by_contra hne
    obtain ⟨q, P, Q, -, hP, hQ, -, -, hd⟩ := b hne
    have h1 := hfar P Q hP hQ
    have h2 := mul_le_mul_of_nonneg_left h1 (show 0 ≤ 1 - η by linarith)
    norm_num at h2 hd η1
    linarith

/-- The two skew segments of the example: they are 5e-6 apart. -/
def skewA : Seg 3 ℝ := ⟨![0, 0, 0], ![1, 0, 0]⟩
noncomputable def skewB : Seg 3 ℝ := ⟨![1 / 2, -1 / 2, 5 / 10 ^ 6], ![1 / 2, 1 / 2, 5 / 10 ^ 6]⟩

theorem vec3_two (a b c : ℝ) : (![a, b, c] : Vec 3 ℝ) 2 = c := rfl

theorem skew_almost {η : ℝ} (hη : 0 ≤ η) (hη1 : η ≤ 1 / 10 ^ 9) {x : Info 3 ℝ} (h : AlmostTo rnd η (1 / 10 ^ 5) skewA skewB x) : ∃ q, x = ⟨.segment q, .almost⟩ := by
  have len : ∀ {p q : Vec 3 ℝ} {l : ℝ}, (p 0 - q 0) ^ 2 + (p 1 - q 1) ^ 2 + (p 2 - q 2) ^ 2 ≤ l ^ 2 → 0 ≤ l → Model.edist p q ≤ l := by
    intro p q l h l0
    unfold Model.edist
    rw [Fin.sum_univ_three]
    exact Real.sqrt_le_iff.2 ⟨l0, h⟩
  have nrm : ∀ {p : Vec 3 ℝ}, p 0 ^ 2 + p 1 ^ 2 + p 2 ^ 2 ≤ (10 ^ 6) ^ 2 → vnorm p ≤ 10 ^ 6 := by
    intro p h
    unfold vnorm
    rw [vdot_eq, Fin.sum_univ_three]
    exact Real.sqrt_le_iff.2 ⟨by norm_num, by simpa [sq] using h⟩
  refine (C156_usual (L := 1) (by norm_num) hη hη1 le_rfl (by norm_num) (len ?_ zero_le_one) (len ?_ zero_le_one) (len ?_ zero_le_one) ?_ (nrm ?_) (nrm ?_) (nrm ?_) (nrm ?_) h).1
    ⟨![1 / 2, 0, 0], ![1 / 2, 0, 5 / 10 ^ 6], ⟨1 / 2, by norm_num, by norm_num, ?_⟩, ⟨1 / 2, by norm_num, by norm_num, ?_⟩, ?_⟩
  · norm_num [vec3_two, skewA]
  · norm_num [vec3_two, skewB]
  · norm_num [vec3_two, skewA, skewB]
  · norm_num [vec3_two, skewA, skewB, gram, Fin.sum_univ_three]
  · norm_num [vec3_two, skewA]
  · norm_num [vec3_two, skewA]
  · norm_num [vec3_two, skewB]
  · norm_num [vec3_two, skewB]
  · funext i; fin_cases i <;> norm_num [vec3_two, skewA]
  · funext i; fin_cases i <;> norm_num [vec3_two, skewB]
  · refine lt_of_le_of_lt (len (l := 5 / 10 ^ 6) ?_ (by norm_num)) (by norm_num)
    norm_num [vec3_two]

/-- Such a computation exists. -/
example : ∃ x, AlmostTo rnd 0 (1 / 10 ^ 5) skewA skewB x ∧ ∃ q, x = ⟨.segment q, .almost⟩ := by
  obtain ⟨a, ha⟩ := vDotTo_exists rnd (by norm_num) (subFl rnd skewA.p2 skewA.p1) (subFl rnd skewA.p2 skewA.p1)
  obtain ⟨b, hb⟩ := vDotTo_exists rnd (by norm_num) (subFl rnd skewA.p2 skewA.p1) (subFl rnd skewB.p2 skewB.p1)
  obtain ⟨c, hc⟩ := vDotTo_exists rnd (by norm_num) (subFl rnd skewB.p2 skewB.p1) (subFl rnd skewB.p2 skewB.p1)
  obtain ⟨d, hd⟩ := vDotTo_exists rnd (by norm_num) (subFl rnd skewA.p2 skewA.p1) (subFl rnd skewA.p1 skewB.p1)
  obtain ⟨e, he⟩ := vDotTo_exists rnd (by norm_num) (subFl rnd skewB.p2 skewB.p1) (subFl rnd skewA.p1 skewB.p1)
  have hq : ShortestTo rnd skewA skewB ⟨segPointFl rnd skewA _, segPointFl rnd skewB _⟩ := ⟨_, ⟨a, b, c, d, e, ha, hb, hc, hd, he, rfl⟩, rfl⟩
  have hz : LenTo 0 ⟨segPointFl rnd skewA (s2sCore rnd F_EPS a b c d e).1, segPointFl rnd skewB (s2sCore rnd F_EPS a b c d e).2⟩
      (Model.edist (segPointFl rnd skewA (s2sCore rnd F_EPS a b c d e).1) (segPointFl rnd skewB (s2sCore rnd F_EPS a b c d e).2)) := by
    unfold LenTo; simp
  by_cases hlt : Model.edist (segPointFl rnd skewA (s2sCore rnd F_EPS a b c d e).1) (segPointFl rnd skewB (s2sCore rnd F_EPS a b c d e).2) < 1 / 10 ^ 5
  · have h : AlmostTo rnd 0 (1 / 10 ^ 5) skewA skewB _ := ⟨_, _, hq, hz, fun _ => rfl, fun h => absurd hlt h⟩
    exact ⟨_, h, skew_almost le_rfl (by norm_num) h⟩
  · have h : AlmostTo rnd 0 (1 / 10 ^ 5) skewA skewB _ := ⟨_, _, hq, hz, fun h => absurd h hlt, fun _ => rfl⟩
    exact ⟨_, h, skew_almost le_rfl (by norm_num) h⟩

/-! ## Nearly parallel segments -/

/-- Two segments with integer coordinates and a common end point. -/
noncomputable def endA : Seg 2 ℝ := ⟨![0, 0], ![8699, 10379]⟩
noncomputable def endB : Seg 2 ℝ := ⟨![4044, 4825], ![8699, 10379]⟩

theorem vDotTo_plane {fl : ℝ → ℝ} {u v : Vec 2 ℝ} {z : ℝ} (h : VDotTo fl u v z) :
    ∃ p q, (p = fl (u 0 * v 0) ∨ p = u 0 * v 0) ∧ (q = fl (u 1 * v 1) ∨ q = u 1 * v 1) ∧ z = fl (p + q) := by
  have ne : ∀ {ps : List (ℝ × ℝ)} {z : ℝ}, DotTo fl ps z → ps ≠ [] := by
    intro ps z h
    induction h with
    | one _ => simp
    | add _ _ hz hx _ => intro h0; rw [h0] at hz; exact hx (List.append_eq_nil_iff.1 hz.symm.eq_nil).1
  have one : ∀ {x : ℝ × ℝ} {z : ℝ}, DotTo fl [x] z → z = fl (x.1 * x.2) ∨ z = x.1 * x.2 := by
    intro x z h
    cases h with
    | one h => exact h
    | add hx hy hz =>
      exfalso
      have l := hz.length_eq
      have := List.length_pos_iff.2 (ne hx)
      have := List.length_pos_iff.2 (ne hy)
      simp at l
      omega
  unfold VDotTo at h
  rw [show (List.ofFn fun i => (u i, v i)) = [(u 0, v 0), (u 1, v 1)] by simp [List.ofFn_succ]] at h
  cases h with
  | @add xs ys _ s t hx hy hz =>
    have l := hz.length_eq
    have lx := List.length_pos_iff.2 (ne hx)
    have ly := List.length_pos_iff.2 (ne hy)
    simp only [List.length_cons, List.length_nil, List.length_append] at l
    obtain ⟨x, rfl⟩ := List.length_eq_one_iff.1 (show xs.length = 1 by omega)
    obtain ⟨y, rfl⟩ := List.length_eq_one_iff.1 (show ys.length = 1 by omega)
    have hp : [(u 0, v 0), (u 1, v 1)].Perm [x, y] := hz
    have hx' := one hx
    have hy' := one hy
    by_cases hc : x = (u 0, v 0)
    · subst hc
      have : y = (u 1, v 1) := by
        have := (List.perm_cons _).1 hp
        exact (List.singleton_perm_singleton.1 this).symm
      subst this
      exact ⟨s, t, hx', hy', rfl⟩
    · have hm : x ∈ [(u 0, v 0), (u 1, v 1)] := hp.symm.subset (by simp)
      have hx1 : x = (u 1, v 1) := by simpa [hc] using hm
      subst hx1
      have : y = (u 0, v 0) := by
        have h2 := hp.trans (List.Perm.swap y (u 1, v 1) [])
        have h4 : [(u 0, v 0), (u 1, v 1)].Perm [y, (u 1, v 1)] := h2
        have h5 := (List.perm_append_right_iff [(u 1, v 1)] (l₁ := [(u 0, v 0)]) (l₂ := [y])).1 h4
        exact (List.singleton_perm_singleton.1 h5).symm
      subst this
      exact ⟨t, s, hy', hx', by rw [add_comm]⟩

/-- A dot product of small integers is exact. -/
theorem vDotTo_int {u v : Vec 2 ℝ} {z : ℝ} (h : VDotTo rnd u v z) (x y x' y' : ℤ) (h0 : u 0 = x) (h1 : u 1 = y) (h2 : v 0 = x') (h3 : v 1 = y') (a : |x * x'| ≤ 2 ^ 53) (b : |y * y'| ≤ 2 ^ 53)
    (c : |x * x' + y * y'| ≤ 2 ^ 53) : z = (x * x' + y * y' : ℤ) := by
  have int : ∀ m : ℤ, |m| ≤ 2 ^ 53 → rnd (m : ℝ) = m := fun m hm => by simpa using rnd_rep m 0 hm
  obtain ⟨p, q, hp, hq, rfl⟩ := vDotTo_plane h
  rw [h0, h2, show (x : ℝ) * x' = ((x * x' : ℤ) : ℝ) by push_cast; ring, int _ a, or_self] at hp
  rw [h1, h3, show (y : ℝ) * y' = ((y * y' : ℤ) : ℝ) by push_cast; ring, int _ b, or_self] at hq
  rw [hp, hq, ← Int.cast_add, int _ c]

theorem end_core : s2sCore rnd F_EPS 183396242 98138811 52515941 (-85257431) (-45622870) = (1 / 2, 1 / 2) := by
  have int : ∀ m : ℤ, |m| ≤ 2 ^ 53 → rnd (m : ℝ) = m := fun m hm => by simpa using rnd_rep m 0 hm
  have ac : rnd (183396242 * 52515941) = 9631226224493722 := by
    rw [rnd_of _ 4815613112246861 1 (by norm_num) (by norm_num)]; norm_num
  have bb : rnd (98138811 * 98138811) = 9631226224493720 := by
    rw [rnd_value 53 4815613112246860 (by norm_num) (by norm_num) (.inr ⟨by rw [abs_of_pos (by norm_num)]; norm_num, by decide⟩)]; norm_num
  have two : rnd (9631226224493722 - 9631226224493720) = 2 := by
    rw [rnd_of _ 2 0 (by norm_num) (by norm_num)]; norm_num
  have be : rnd (98138811 * -45622870) = -4477374216207570 := by
    rw [rnd_of _ (-4477374216207570) 0 (by norm_num) (by norm_num)]; norm_num
  have cd : rnd (52515941 * -85257431) = -4477374216207571 := by
    rw [rnd_of _ (-4477374216207571) 0 (by norm_num) (by norm_num)]; norm_num
  have ae : rnd (183396242 * -45622870) = -8367062907254540 := by
    rw [rnd_of _ (-8367062907254540) 0 (by norm_num) (by norm_num)]; norm_num
  have bd : rnd (98138811 * -85257431) = -8367062907254541 := by
    rw [rnd_of _ (-8367062907254541) 0 (by norm_num) (by norm_num)]; norm_num
  have sn : rnd (-4477374216207570 - -4477374216207571) = 1 := by
    rw [rnd_of _ 1 0 (by norm_num) (by norm_num)]; norm_num
  have tn : rnd (-8367062907254540 - -8367062907254541) = 1 := by
    rw [rnd_of _ 1 0 (by norm_num) (by norm_num)]; norm_num
  have half : rnd (1 / 2) = 1 / 2 := rnd_of _ 1 (-1) (by norm_num) (by norm_num)
  have l : s2sLines rnd F_EPS 183396242 98138811 52515941 (-85257431) (-45622870) = ⟨1, 2, 1, 2⟩ := by
    unfold s2sLines
    simp only [ac, bb, two, be, cd, ae, bd, sn, tn]
    rw [if_neg (by unfold F_EPS; norm_num), if_neg (by norm_num), if_neg (by norm_num)]
  rw [core_keep (by norm_num) (by norm_num) l]
  simp only [abs_one]
  rw [if_neg (by unfold F_EPS; norm_num), half]

/-- **C156, violated for nearly parallel segments.** The segments from (0, 0) and from (4044, 4825) to the common end point (8699, 10379) have the distance 0. In binary64 the determinant comes out as 2 instead of 1: the computed
connecting segment goes from (4349.5, 5189.5) to (6371.5, 7602), the computed distance exceeds 3000 and `almost` reports nothing. -/
theorem C156_parallel_fails : endA.p2 = endB.p2 ∧ (∃ q, ShortestTo rnd endA endB q) ∧ (∀ q, ShortestTo rnd endA endB q → q = ⟨![4349.5, 5189.5], ![6371.5, 7602]⟩) ∧
    ∀ η x, 0 ≤ η → η ≤ 1 / 100 → AlmostTo rnd η (1 / 10 ^ 5) endA endB x → x = notIntersected := by
  have int : ∀ m : ℤ, |m| ≤ 2 ^ 53 → rnd (m : ℝ) = m := fun m hm => by simpa using rnd_rep m 0 hm
  have uA : subFl rnd endA.p2 endA.p1 = ![8699, 10379] := by
    funext i
    fin_cases i
    · simpa [subFl, endA] using int 8699 (by norm_num)
    · simpa [subFl, endA] using int 10379 (by norm_num)
  have uB : subFl rnd endB.p2 endB.p1 = ![4655, 5554] := by
    funext i
    fin_cases i
    · have := int 4655 (by norm_num)
      simp only [subFl, endB]; norm_num at this ⊢; exact this
    · have := int 5554 (by norm_num)
      simp only [subFl, endB]; norm_num at this ⊢; exact this
  have w : subFl rnd endA.p1 endB.p1 = ![-4044, -4825] := by
    funext i
    fin_cases i
    · have := int (-4044) (by norm_num)
      simp only [subFl, endA, endB]; norm_num at this ⊢; exact this
    · have := int (-4825) (by norm_num)
      simp only [subFl, endA, endB]; norm_num at this ⊢; exact this
  have h2 : ∀ m : ℤ, |m| ≤ 2 ^ 53 → rnd ((m : ℝ) / 2) = m / 2 := fun m hm => by
    rw [rnd_of _ m (-1) hm (by norm_num; ring)]
  have pA : segPointFl rnd endA (1 / 2) = ![4349.5, 5189.5] := by
    funext i
    fin_cases i
    · have a := int 8699 (by norm_num)
      have b := h2 8699 (by norm_num)
      simp only [segPointFl, pointFl, endA]; norm_num at a b ⊢; rw [a, show (8699 : ℝ) * (1 / 2) = 8699 / 2 by norm_num, b, b]
    · have a := int 10379 (by norm_num)
      have b := h2 10379 (by norm_num)
      simp only [segPointFl, pointFl, endA]; norm_num at a b ⊢; rw [a, show (10379 : ℝ) * (1 / 2) = 10379 / 2 by norm_num, b, b]
  have pB : segPointFl rnd endB (1 / 2) = ![6371.5, 7602] := by
    funext i
    fin_cases i
    · have a := int 4655 (by norm_num)
      have b := h2 4655 (by norm_num)
      have c := h2 12743 (by norm_num)
      simp only [segPointFl, pointFl, endB]; norm_num at a b c ⊢
      rw [a, show (4655 : ℝ) * (1 / 2) = 4655 / 2 by norm_num, b, show (4044 : ℝ) + 4655 / 2 = 12743 / 2 by norm_num, c]
    · have a := int 5554 (by norm_num)
      have b := int 2777 (by norm_num)
      have c := int 7602 (by norm_num)
      simp only [segPointFl, pointFl, endB]; norm_num at a b c ⊢
      rw [a, show (5554 : ℝ) * (1 / 2) = 2777 by norm_num, b, show (4825 : ℝ) + 2777 = 7602 by norm_num, c]
  have val : ∀ q, ShortestTo rnd endA endB q → q = ⟨![4349.5, 5189.5], ![6371.5, 7602]⟩ := by
    rintro q ⟨x, ⟨a, b, c, d, e, ha, hb, hc, hd, he, rfl⟩, rfl⟩
    rw [uA] at ha hb hd
    rw [uB] at hb hc he
    rw [w] at hd he
    have a' := vDotTo_int ha 8699 10379 8699 10379 (by simp) (by simp) (by simp) (by simp) (by norm_num) (by norm_num) (by norm_num)
    have b' := vDotTo_int hb 8699 10379 4655 5554 (by simp) (by simp) (by simp) (by simp) (by norm_num) (by norm_num) (by norm_num)
    have c' := vDotTo_int hc 4655 5554 4655 5554 (by simp) (by simp) (by simp) (by simp) (by norm_num) (by norm_num) (by norm_num)
    have d' := vDotTo_int hd 8699 10379 (-4044) (-4825) (by simp) (by simp) (by simp) (by simp) (by norm_num) (by norm_num) (by norm_num)
    have e' := vDotTo_int he 4655 5554 (-4044) (-4825) (by simp) (by simp) (by simp) (by simp) (by norm_num) (by norm_num) (by norm_num)
    norm_num at a' b' c' d' e'
    rw [a', b', c', d', e', end_core, pA, pB]
  refine ⟨rfl, ?_, val, ?_⟩
  · obtain ⟨a, ha⟩ := vDotTo_exists rnd (by norm_num) (subFl rnd endA.p2 endA.p1) (subFl rnd endA.p2 endA.p1)
    obtain ⟨b, hb⟩ := vDotTo_exists rnd (by norm_num) (subFl rnd endA.p2 endA.p1) (subFl rnd endB.p2 endB.p1)
    obtain ⟨c, hc⟩ := vDotTo_exists rnd (by norm_num) (subFl rnd endB.p2 endB.p1) (subFl rnd endB.p2 endB.p1)
    obtain ⟨d, hd⟩ := vDotTo_exists rnd (by norm_num) (subFl rnd endA.p2 endA.p1) (subFl rnd endA.p1 endB.p1)
    obtain ⟨e, he⟩ := vDotTo_exists rnd (by norm_num) (subFl rnd endB.p2 endB.p1) (subFl rnd endA.p1 endB.p1)
    exact ⟨_, _, ⟨a, b, c, d, e, ha, hb, hc, hd, he, rfl⟩, rfl⟩
  · rintro η x η0 η1 ⟨q, z, hq, hz, -, hx⟩
    apply hx
    rw [val q hq] at hz
    unfold LenTo at hz
    simp only at hz
    have big : 3000 ≤ Model.edist (![4349.5, 5189.5] : Vec 2 ℝ) ![6371.5, 7602] := by
      unfold Model.edist
      rw [Fin.sum_univ_two]
      refine Real.le_sqrt_of_sq_le ?_
      norm_num
    have := (abs_le.1 hz).1
    have := mul_le_mul_of_nonneg_right η1 (le_trans (by norm_num) big)
    norm_num at *
    linarith

/-! ## Concrete cases -/

theorem skew_bounds : (Model.edist skewA.p1 skewA.p2 ≤ 1 ∧ Model.edist skewB.p1 skewB.p2 ≤ 1 ∧ Model.edist skewA.p1 skewB.p1 ≤ 1 ∧ 1 ≤ gram (skewA.p2 - skewA.p1) (skewB.p2 - skewB.p1)) ∧
    vnorm skewA.p1 ≤ 2 ∧ vnorm skewA.p2 ≤ 2 ∧ vnorm skewB.p1 ≤ 2 ∧ vnorm skewB.p2 ≤ 2 := by
  have len : ∀ {p q : Vec 3 ℝ}, (p 0 - q 0) ^ 2 + (p 1 - q 1) ^ 2 + (p 2 - q 2) ^ 2 ≤ 1 → Model.edist p q ≤ 1 := by
    intro p q h
    unfold Model.edist
    rw [Fin.sum_univ_three]
    exact Real.sqrt_le_iff.2 ⟨zero_le_one, by simpa using h⟩
  have nrm : ∀ {p : Vec 3 ℝ}, p 0 ^ 2 + p 1 ^ 2 + p 2 ^ 2 ≤ 2 ^ 2 → vnorm p ≤ 2 := by
    intro p h
    unfold vnorm
    rw [vdot_eq, Fin.sum_univ_three]
    exact Real.sqrt_le_iff.2 ⟨by norm_num, by simpa [sq] using h⟩
  refine ⟨⟨len ?_, len ?_, len ?_, ?_⟩, nrm ?_, nrm ?_, nrm ?_, nrm ?_⟩
  · norm_num [vec3_two, skewA]
  · norm_num [vec3_two, skewB]
  · norm_num [vec3_two, skewA, skewB]
  · norm_num [vec3_two, skewA, skewB, gram, Fin.sum_univ_three]
  · norm_num [vec3_two, skewA]
  · norm_num [vec3_two, skewA]
  · norm_num [vec3_two, skewB]
  · norm_num [vec3_two, skewB]

example {q : Seg 3 ℝ} {z : ℝ} (h : ShortestTo rnd skewA skewB q) (hz : LenTo (1 / 10 ^ 15) q z) :=
  C156_sound rnd_rounding (by simpa using rnd_rep 1 0 (by norm_num)) (by norm_num) (by norm_num) skew_bounds.2.1 skew_bounds.2.2.1 skew_bounds.2.2.2.1 skew_bounds.2.2.2.2 h hz
example {q : Seg 3 ℝ} {z : ℝ} (h : ShortestTo rnd skewA skewB q) (hz : LenTo (1 / 10 ^ 15) q z) {P Q : Vec 3 ℝ} (hP : Between skewA.p1 skewA.p2 P) (hQ : Between skewB.p1 skewB.p2 Q) :=
  C156_distance_partial (ν := 1 / 10 ^ 12) (k := 1) rnd_rounding (by simpa using rnd_rep 1 0 (by norm_num)) (by norm_num) (by norm_num) (by norm_num) (by norm_num) one_pos skew_bounds.1.1 skew_bounds.1.2.1 skew_bounds.1.2.2.1
    (by norm_num [F_EPS]) (by norm_num [F_EPS]) one_pos (by rw [one_mul, one_pow]; exact skew_bounds.1.2.2.2) (by norm_num)
    skew_bounds.2.1 skew_bounds.2.2.1 skew_bounds.2.2.2.1 skew_bounds.2.2.2.2 h hz hP hQ
example {x : Info 3 ℝ} (h : AlmostTo rnd (1 / 10 ^ 15) (1 / 10 ^ 5) skewA skewB x) :=
  C156_almost_partial (ν := 1 / 10 ^ 12) (k := 1) rnd_rounding (by simpa using rnd_rep 1 0 (by norm_num)) (by norm_num) (by norm_num) (by norm_num) (by norm_num) (by norm_num) one_pos skew_bounds.1.1 skew_bounds.1.2.1 skew_bounds.1.2.2.1
    (by norm_num [F_EPS]) (by norm_num [F_EPS]) one_pos (by rw [one_mul, one_pow]; exact skew_bounds.1.2.2.2) (by norm_num)
    skew_bounds.2.1 skew_bounds.2.2.1 skew_bounds.2.2.2.1 skew_bounds.2.2.2.2 h
example {x : Info 3 ℝ} (h : AlmostTo rnd (1 / 10 ^ 15) (1 / 10 ^ 5) skewA skewB x) :=
  C156_usual (L := 1) (by norm_num) (by norm_num) (by norm_num) le_rfl (by norm_num) skew_bounds.1.1 skew_bounds.1.2.1 skew_bounds.1.2.2.1
    (by have := skew_bounds.1.2.2.2; linarith) (skew_bounds.2.1.trans (by norm_num)) (skew_bounds.2.2.1.trans (by norm_num)) (skew_bounds.2.2.2.1.trans (by norm_num)) (skew_bounds.2.2.2.2.trans (by norm_num)) h
example := C156_exact skewA skewB

end Verif.Props
