import Verif.Model.RoundedCross
import Verif.Props.RoundedSeg
import Verif.Props.Stable

/-!
C155: crossings of segments of the plane in floating point.
-/
namespace Verif.Props

open Verif Verif.Np Verif.Model Verif.Spec

section
variable {ε η : ℝ} {fl : ℝ → ℝ}

theorem fl_err (hf : Rounding ε fl) (x : ℝ) : ∃ δ, |δ| ≤ ε ∧ fl x = x * (1 + δ) := by
  rcases eq_or_ne x 0 with rfl | hx
  · exact ⟨0, by simpa using hf.nonneg, by rw [fl_zero hf]; simp⟩
  · refine ⟨(fl x - x) / x, ?_, by field_simp; ring⟩
    rw [abs_div, div_le_iff₀ (abs_pos.2 hx)]
    exact hf.rel x

theorem fl_abs_ge (hf : Rounding ε fl) (x : ℝ) : (1 - ε) * |x| ≤ |fl x| := by
  have h := hf.rel x
  have := abs_sub_abs_le_abs_sub x (fl x)
  rw [abs_sub_comm x] at this
  linarith

/-- The right side of the test `isclose`. -/
theorem close_bounds (hf : Rounding ε fl) (hε : ε ≤ 1 / 1000) (y : ℝ) :
    0.997 * (1 / 10 ^ 8 + 1 / 10 ^ 5 * |y|) ≤ fl (fl atol + fl (fl rtol * |y|)) ∧ fl (fl atol + fl (fl rtol * |y|)) ≤ 1.004 * (1 / 10 ^ 8 + 1 / 10 ^ 5 * |y|) := by
  have e0 := hf.nonneg
  have hy := abs_nonneg y
  have ha := fl_rel hf (show (0 : ℝ) ≤ atol by unfold atol; norm_num)
  have hr := fl_rel hf (show (0 : ℝ) ≤ rtol by unfold rtol; norm_num)
  have ha0 := fl_nonneg hf (show (0 : ℝ) ≤ atol by unfold atol; norm_num)
  have hr0 := fl_nonneg hf (show (0 : ℝ) ≤ rtol by unfold rtol; norm_num)
  have h1 := fl_rel hf (mul_nonneg hr0 hy)
  have h10 := fl_nonneg hf (mul_nonneg hr0 hy)
  have h2 := fl_rel hf (add_nonneg ha0 h10)
  unfold RelErr at ha hr h1 h2
  simp only [pow_one] at ha hr h1 h2
  have ea : (atol : ℝ) = 1 / 10 ^ 8 := by unfold atol; norm_num
  have er : (rtol : ℝ) = 1 / 10 ^ 5 := by unfold rtol; norm_num
  rw [ea] at ha ha0 h2 ⊢
  rw [er] at hr hr0 h1 h10 h2 ⊢
  obtain ⟨A, hA⟩ : ∃ A, A = fl (1 / 10 ^ 8) := ⟨_, rfl⟩
  obtain ⟨R, hR⟩ : ∃ R, R = fl (1 / 10 ^ 5) := ⟨_, rfl⟩
  rw [← hA] at ha ha0 h2 ⊢
  rw [← hR] at hr hr0 h1 h10 h2 ⊢
  obtain ⟨B, hB⟩ : ∃ B, B = fl (R * |y|) := ⟨_, rfl⟩
  rw [← hB] at h1 h10 h2 ⊢
  obtain ⟨Y, hY⟩ : ∃ Y, Y = 1 / 10 ^ 5 * |y| := ⟨_, rfl⟩
  have Y0 : 0 ≤ Y := by rw [hY]; positivity
  have b1 : 0.999 * Y ≤ R * |y| := by
    rw [hY]
    have : 0.999 * (1 / 10 ^ 5) ≤ R := le_trans (by nlinarith) hr.1
    nlinarith
  have b2 : R * |y| ≤ 1.001 * Y := by
    rw [hY]
    have : R ≤ 1.001 * (1 / 10 ^ 5) := le_trans hr.2 (by nlinarith)
    nlinarith
  have c1 : 0.999 ^ 2 * Y ≤ B := by nlinarith [h1.1]
  have c2 : B ≤ 1.001 ^ 2 * Y := by nlinarith [h1.2]
  have a1 : 0.999 * (1 / 10 ^ 8) ≤ A := le_trans (by nlinarith) ha.1
  have a2 : A ≤ 1.001 * (1 / 10 ^ 8) := le_trans ha.2 (by nlinarith)
  rw [← hY]
  constructor
  · refine le_trans ?_ h2.1
    have : 0.999 * (A + B) ≤ (1 - ε) * (A + B) := by
      apply mul_le_mul_of_nonneg_right _ (by linarith); linarith
    norm_num at *
    linarith
  · refine h2.2.trans ?_
    have : (1 + ε) * (A + B) ≤ 1.001 * (A + B) := by
      apply mul_le_mul_of_nonneg_right _ (by linarith); linarith
    norm_num at *
    linarith

theorem closeFl_of (hf : Rounding ε fl) (hε : ε ≤ 1 / 1000) {x y : ℝ} (h : |x - y| ≤ 0.99 * (1 / 10 ^ 8 + 1 / 10 ^ 5 * |y|)) : CloseFl fl x y := by
  have hb := (close_bounds hf hε y).1
  have := fl_abs_le hf (x - y)
  have h0 := abs_nonneg (x - y)
  have hy := abs_nonneg y
  refine le_trans ?_ hb
  refine this.trans ?_
  have : (1 + ε) * |x - y| ≤ 1.001 * |x - y| := mul_le_mul_of_nonneg_right (by linarith) h0
  linarith

theorem of_closeFl (hf : Rounding ε fl) (hε : ε ≤ 1 / 1000) {x y : ℝ} (h : CloseFl fl x y) : |x - y| ≤ 1.01 * (1 / 10 ^ 8 + 1 / 10 ^ 5 * |y|) := by
  have hb := (close_bounds hf hε y).2
  have := fl_abs_ge hf (x - y)
  have h0 := abs_nonneg (x - y)
  have hy := abs_nonneg y
  have h' : |fl (x - y)| ≤ fl (fl atol + fl (fl rtol * |y|)) := h
  have : 0.999 * |x - y| ≤ (1 - ε) * |x - y| := mul_le_mul_of_nonneg_right (by linarith) h0
  linarith


theorem vnorm_two_le (u : Vec 2 ℝ) : vnorm u ≤ |u 0| + |u 1| := by
  unfold vnorm vdot
  rw [dotProduct, Fin.sum_univ_two, Real.sqrt_le_iff]
  refine ⟨by positivity, ?_⟩
  nlinarith [abs_mul_abs_self (u 0), abs_mul_abs_self (u 1), mul_nonneg (abs_nonneg (u 0)) (abs_nonneg (u 1))]

theorem entry_le_vnorm (u : Vec 2 ℝ) (i : Fin 2) : |u i| ≤ vnorm u := by
  unfold vnorm vdot
  apply Real.abs_le_sqrt
  rw [dotProduct, Fin.sum_univ_two]
  fin_cases i
  · show u 0 ^ 2 ≤ _
    nlinarith [mul_self_nonneg (u 1)]
  · show u 1 ^ 2 ≤ _
    nlinarith [mul_self_nonneg (u 0)]

/-- The errors of the coefficients of the system of equations. -/
theorem cross_coeffs (hf : Rounding ε fl) (hε : ε ≤ 1 / 1000) (hη : 0 ≤ η) {s r : Seg 2 ℝ} {L : ℝ} (hs : vnorm (s.p2 - s.p1) ≤ L) (hr : vnorm (r.p2 - r.p1) ≤ L)
    {e : Fin 2 → Fin 2 → ℝ} (he : SmallChange η (crossMat fl s r) e) :
    ∃ f g : Vec 2 ℝ, vnorm f ≤ (2 * ε + 3 * η) * L ∧ vnorm g ≤ (2 * ε + 3 * η) * L ∧
      (∀ i, crossMat fl s r i 0 + e i 0 = (s.p2 - s.p1 + f) i) ∧ ∀ i, crossMat fl s r i 1 + e i 1 = -(r.p2 - r.p1 + g) i := by
  have e0 := hf.nonneg
  have hL : 0 ≤ L := (vnorm_nonneg _).trans hs
  have ha : ∀ k l, |crossMat fl s r k l| ≤ (1 + ε) * L := by
    intro k l
    unfold crossMat subFl
    split
    · refine (fl_abs_le hf _).trans ?_
      have := (entry_le_vnorm (s.p2 - s.p1) k).trans hs
      exact mul_le_mul_of_nonneg_left this (by linarith)
    · rw [abs_neg]
      refine (fl_abs_le hf _).trans ?_
      have := (entry_le_vnorm (r.p2 - r.p1) k).trans hr
      exact mul_le_mul_of_nonneg_left this (by linarith)
  have hE : ∀ i j, |e i j| ≤ 1.5 * η * L := by
    intro i j
    obtain ⟨k, l, h⟩ := he i j
    refine h.trans ((mul_le_mul_of_nonneg_left (ha k l) hη).trans ?_)
    nlinarith [mul_nonneg hη hL]
  have hd : ∀ (u : Vec 2 ℝ), vnorm u ≤ L → ∀ i, |fl (u i) - u i| ≤ ε * L := by
    intro u hu i
    exact (hf.rel _).trans (mul_le_mul_of_nonneg_left ((entry_le_vnorm u i).trans hu) e0)
  refine ⟨fun i => fl ((s.p2 - s.p1) i) - (s.p2 - s.p1) i + e i 0, fun i => fl ((r.p2 - r.p1) i) - (r.p2 - r.p1) i - e i 1, ?_, ?_, ?_, ?_⟩
  · refine (vnorm_two_le _).trans ?_
    have a0 := abs_add_le (fl ((s.p2 - s.p1) 0) - (s.p2 - s.p1) 0) (e 0 0)
    have a1 := abs_add_le (fl ((s.p2 - s.p1) 1) - (s.p2 - s.p1) 1) (e 1 0)
    have := hd _ hs 0
    have := hd _ hs 1
    have := hE 0 0
    have := hE 1 0
    linarith
  · refine (vnorm_two_le _).trans ?_
    have a0 := abs_sub (fl ((r.p2 - r.p1) 0) - (r.p2 - r.p1) 0) (e 0 1)
    have a1 := abs_sub (fl ((r.p2 - r.p1) 1) - (r.p2 - r.p1) 1) (e 1 1)
    have := hd _ hr 0
    have := hd _ hr 1
    have := hE 0 1
    have := hE 1 1
    linarith
  · intro i
    simp [crossMat, subFl]
    ring
  · intro i
    simp [crossMat, subFl]
    ring

/-- The computed parameters of a crossing. -/
theorem cross_parameters (hf : Rounding ε fl) (hε : ε ≤ 1 / 1000) (hη : 0 ≤ η) {s r : Seg 2 ℝ} {L D x y : ℝ} (hs : vnorm (s.p2 - s.p1) ≤ L) (hr : vnorm (r.p2 - r.p1) ≤ L)
    (hD : D ≤ |cross2 (s.p2 - s.p1) (r.p2 - r.p1)|) (hc : 4 * (2 * ε + 3 * η) * L ^ 2 ≤ D) (hD0 : 0 < D) (x0 : 0 ≤ x) (x1 : x ≤ 1) (y0 : 0 ≤ y) (y1 : y ≤ 1)
    (hP : s.p1 + x • (s.p2 - s.p1) = r.p1 + y • (r.p2 - r.p1)) {t : Vec 2 ℝ} (ht : SolveTo η (crossMat fl s r) (subFl fl r.p1 s.p1) t) :
    |t 0 - x| ≤ (16 * ε + 12 * η) * L ^ 2 / D ∧ |t 1 - y| ≤ (16 * ε + 12 * η) * L ^ 2 / D := by
  have e0 := hf.nonneg
  have hL : 0 ≤ L := (vnorm_nonneg _).trans hs
  obtain ⟨e, he, hsol⟩ := ht
  obtain ⟨f, g, hfn, hgn, ef, eg⟩ := cross_coeffs hf hε hη hs hr he
  obtain ⟨u, hu⟩ : ∃ u, u = s.p2 - s.p1 := ⟨_, rfl⟩
  obtain ⟨v, hv⟩ : ∃ v, v = r.p2 - r.p1 := ⟨_, rfl⟩
  obtain ⟨b, hb⟩ : ∃ b, b = r.p1 - s.p1 := ⟨_, rfl⟩
  obtain ⟨κ, hκ⟩ : ∃ κ, κ = 2 * ε + 3 * η := ⟨_, rfl⟩
  have k0 : 0 ≤ κ := by rw [hκ]; positivity
  rw [← hu] at hs hP ef hD
  rw [← hv] at hr hP eg hD
  rw [← hκ] at hfn hgn hc
  have hbe : b = x • u - y • v := by
    rw [hb, sub_eq_sub_iff_add_eq_add, ← hP, add_comm]
  have bn : vnorm b ≤ 2 * L := by
    rw [hbe]
    refine (vnorm_sub_le _ _).trans ?_
    rw [vnorm_smul, vnorm_smul, abs_of_nonneg x0, abs_of_nonneg y0]
    nlinarith [vnorm_nonneg u, vnorm_nonneg v]
  obtain ⟨w, hw⟩ : ∃ w : Vec 2 ℝ, w = fun i => fl (b i) - b i := ⟨_, rfl⟩
  have wn : vnorm w ≤ 4 * ε * L := by
    refine (vnorm_two_le _).trans ?_
    have h0 : |w 0| ≤ ε * |b 0| := by rw [hw]; exact hf.rel _
    have h1 : |w 1| ≤ ε * |b 1| := by rw [hw]; exact hf.rel _
    have := mul_le_mul_of_nonneg_left ((entry_le_vnorm b 0).trans bn) e0
    have := mul_le_mul_of_nonneg_left ((entry_le_vnorm b 1).trans bn) e0
    linarith
  have hsol' : ∀ i, (u i + f i) * t 0 - (v i + g i) * t 1 = b i + w i := by
    intro i
    have := hsol i
    rw [ef i, eg i] at this
    have hbi : subFl fl r.p1 s.p1 i = b i + w i := by rw [hw]; simp only [subFl, hb, Pi.sub_apply]; ring
    rw [hbi] at this
    simp only [Pi.add_apply] at this
    linarith
  obtain ⟨z, hz⟩ : ∃ z : Vec 2 ℝ, z = w - t 0 • f + t 1 • g := ⟨_, rfl⟩
  have hz' : ∀ i, (t 0 - x) * u i - (t 1 - y) * v i = z i := by
    intro i
    have h1 := hsol' i
    have h2 := congrFun hbe i
    simp only [Pi.sub_apply, Pi.smul_apply, smul_eq_mul] at h2
    rw [hz]
    simp only [Pi.add_apply, Pi.sub_apply, Pi.smul_apply, smul_eq_mul]
    linarith
  have c1 : (t 0 - x) * cross2 u v = cross2 z v := by
    unfold cross2
    rw [← hz' 0, ← hz' 1]; ring
  have c2 : (t 1 - y) * cross2 u v = cross2 z u := by
    unfold cross2
    rw [← hz' 0, ← hz' 1]; ring
  obtain ⟨τ, hτ⟩ : ∃ τ, τ = max |t 0 - x| |t 1 - y| := ⟨_, rfl⟩
  have τ1 : |t 0 - x| ≤ τ := hτ ▸ le_max_left _ _
  have τ2 : |t 1 - y| ≤ τ := hτ ▸ le_max_right _ _
  have τ0 : 0 ≤ τ := (abs_nonneg _).trans τ1
  have t0b : |t 0| ≤ 1 + τ := by
    have := abs_add_le (t 0 - x) x
    rw [sub_add_cancel, abs_of_nonneg x0] at this
    linarith
  have t1b : |t 1| ≤ 1 + τ := by
    have := abs_add_le (t 1 - y) y
    rw [sub_add_cancel, abs_of_nonneg y0] at this
    linarith
  have zn : vnorm z ≤ 4 * ε * L + 2 * (1 + τ) * (κ * L) := by
    rw [hz]
    refine (vnorm_add_le _ _).trans ?_
    have := vnorm_sub_le w (t 0 • f)
    rw [vnorm_smul] at this ⊢
    have m1 : |t 0| * vnorm f ≤ (1 + τ) * (κ * L) := mul_le_mul t0b hfn (vnorm_nonneg _) (by linarith)
    have m2 : |t 1| * vnorm g ≤ (1 + τ) * (κ * L) := mul_le_mul t1b hgn (vnorm_nonneg _) (by linarith)
    linarith
  have zn0 : 0 ≤ 4 * ε * L + 2 * (1 + τ) * (κ * L) := by positivity
  have b1 : |t 0 - x| * D ≤ (4 * ε * L + 2 * (1 + τ) * (κ * L)) * L := by
    calc |t 0 - x| * D ≤ |t 0 - x| * |cross2 u v| := mul_le_mul_of_nonneg_left hD (abs_nonneg _)
      _ = |cross2 z v| := by rw [← abs_mul, c1]
      _ ≤ _ := (cross2_le _ _).trans (mul_le_mul zn hr (vnorm_nonneg _) zn0)
  have b2 : |t 1 - y| * D ≤ (4 * ε * L + 2 * (1 + τ) * (κ * L)) * L := by
    calc |t 1 - y| * D ≤ |t 1 - y| * |cross2 u v| := mul_le_mul_of_nonneg_left hD (abs_nonneg _)
      _ = |cross2 z u| := by rw [← abs_mul, c2]
      _ ≤ _ := (cross2_le _ _).trans (mul_le_mul zn hs (vnorm_nonneg _) zn0)
  have b : τ * D ≤ (4 * ε * L + 2 * (1 + τ) * (κ * L)) * L := by
    rcases max_choice |t 0 - x| |t 1 - y| with h | h
    · rw [h] at hτ; rw [hτ] at b1 ⊢; exact b1
    · rw [h] at hτ; rw [hτ] at b2 ⊢; exact b2
  have fin : τ ≤ (16 * ε + 12 * η) * L ^ 2 / D := by
    rw [le_div_iff₀ hD0]
    have : τ * (4 * κ * L ^ 2) ≤ τ * D := mul_le_mul_of_nonneg_left hc τ0
    have hk : (16 * ε + 12 * η) * L ^ 2 = (8 * ε + 4 * κ) * L ^ 2 := by rw [hκ]; ring
    rw [hk]
    nlinarith
  exact ⟨τ1.trans fin, τ2.trans fin⟩

theorem cross_solvable (hf : Rounding ε fl) (hε : ε ≤ 1 / 1000) (hη : 0 ≤ η) {s r : Seg 2 ℝ} {L D : ℝ} (hs : vnorm (s.p2 - s.p1) ≤ L) (hr : vnorm (r.p2 - r.p1) ≤ L)
    (hD : D ≤ |cross2 (s.p2 - s.p1) (r.p2 - r.p1)|) (hc : 4 * (2 * ε + 3 * η) * L ^ 2 ≤ D) (hD0 : 0 < D) : ¬ SolveFails η (crossMat fl s r) := by
  rintro ⟨e, he, h0⟩
  have e0 := hf.nonneg
  have hL : 0 ≤ L := (vnorm_nonneg _).trans hs
  obtain ⟨f, g, hfn, hgn, ef, eg⟩ := cross_coeffs hf hε hη hs hr he
  obtain ⟨u, hu⟩ : ∃ u, u = s.p2 - s.p1 := ⟨_, rfl⟩
  obtain ⟨v, hv⟩ : ∃ v, v = r.p2 - r.p1 := ⟨_, rfl⟩
  obtain ⟨κ, hκ⟩ : ∃ κ, κ = 2 * ε + 3 * η := ⟨_, rfl⟩
  have k0 : 0 ≤ κ := by rw [hκ]; positivity
  rw [← hu] at hs ef hD
  rw [← hv] at hr eg hD
  rw [← hκ] at hfn hgn hc
  have hDL : D ≤ L ^ 2 := by
    refine hD.trans ((cross2_le _ _).trans ?_)
    rw [pow_two]
    exact mul_le_mul hs hr (vnorm_nonneg _) hL
  have L2 : 0 < L ^ 2 := hD0.trans_le hDL
  have k1 : κ ≤ 1 / 4 := by
    by_contra hn
    push Not at hn
    nlinarith
  rw [ef 0, ef 1, eg 0, eg 1] at h0
  have hz : cross2 u v = -(cross2 f v + cross2 (u + f) g) := by
    unfold cross2
    simp only [Pi.add_apply] at h0 ⊢
    linarith
  have a1 : |cross2 f v| ≤ κ * L * L := (cross2_le _ _).trans (mul_le_mul hfn hr (vnorm_nonneg _) (by positivity))
  have a2 : |cross2 (u + f) g| ≤ (L + κ * L) * (κ * L) := (cross2_le _ _).trans (mul_le_mul ((vnorm_add_le _ _).trans (add_le_add hs hfn)) hgn (vnorm_nonneg _) (by positivity))
  rw [hz, abs_neg] at hD
  have := hD.trans (abs_add_le _ _)
  nlinarith [mul_nonneg k0 L2.le]


/-- The computed point at a parameter near `x`. -/
theorem cross_point (hf : Rounding ε fl) (hε : ε ≤ 1 / 1000) {x1 x2 t x τ L : ℝ} (hL : |x2 - x1| ≤ L) (ht : |t - x| ≤ τ) (x0 : 0 ≤ x) (x1' : x ≤ 1) (hτ : τ ≤ 1 / 10) :
    |pointFl fl x1 x2 t - (x1 + (x2 - x1) * x)| ≤ ε * |x1 + (x2 - x1) * x| + 2 * (τ + 4 * ε) * L := by
  have e0 := hf.nonneg
  obtain ⟨d, hd⟩ : ∃ d, d = x2 - x1 := ⟨_, rfl⟩
  unfold pointFl
  rw [← hd] at hL ⊢
  have L0 : 0 ≤ L := (abs_nonneg _).trans hL
  have τ0 : 0 ≤ τ := (abs_nonneg _).trans ht
  have tb : |t| ≤ 1.1 := by
    have := abs_add_le (t - x) x
    rw [sub_add_cancel, abs_of_nonneg x0] at this
    linarith
  have h1 : |fl d * t - d * t| ≤ 1.1 * ε * L := by
    rw [← sub_mul, abs_mul]
    have : |fl d - d| ≤ ε * L := (hf.rel d).trans (mul_le_mul_of_nonneg_left hL e0)
    have := mul_le_mul this tb (abs_nonneg _) (by positivity)
    linarith
  have h2 : |fl d * t| ≤ 1.2 * L := by
    rw [abs_mul]
    have : |fl d| ≤ 1.001 * L := by
      refine (fl_abs_le hf d).trans ?_
      have := mul_le_mul (show 1 + ε ≤ 1.001 by linarith) hL (abs_nonneg _) (by norm_num)
      linarith
    have := mul_le_mul this tb (abs_nonneg _) (by positivity)
    linarith
  have h3 : |fl (fl d * t) - fl d * t| ≤ 1.2 * ε * L := by
    refine (hf.rel _).trans ?_
    have := mul_le_mul_of_nonneg_left h2 e0
    linarith
  have h4 : |d * t - d * x| ≤ τ * L := by
    rw [← mul_sub, abs_mul, mul_comm]
    exact mul_le_mul ht hL (abs_nonneg _) τ0
  have h5 : |(x1 + fl (fl d * t)) - (x1 + d * x)| ≤ (τ + 2.3 * ε) * L := by
    have : (x1 + fl (fl d * t)) - (x1 + d * x) = (fl (fl d * t) - fl d * t) + (fl d * t - d * t) + (d * t - d * x) := by ring
    rw [this]
    refine (abs_add_three _ _ _).trans ?_
    linarith
  have h6 := hf.rel (x1 + fl (fl d * t))
  have h7 : |x1 + fl (fl d * t)| ≤ |x1 + d * x| + (τ + 2.3 * ε) * L := by
    have := abs_sub_abs_le_abs_sub (x1 + fl (fl d * t)) (x1 + d * x)
    linarith
  have h8 := abs_add_le (fl (x1 + fl (fl d * t)) - (x1 + fl (fl d * t))) ((x1 + fl (fl d * t)) - (x1 + d * x))
  rw [sub_add_sub_cancel] at h8
  have h9 := mul_le_mul_of_nonneg_left h7 e0
  have m1 : 0 ≤ τ * L := mul_nonneg τ0 L0
  have m2 : 0 ≤ ε * L := mul_nonneg e0 L0
  have m3 : ε * ((τ + 2.3 * ε) * L) ≤ 1 / 1000 * ((τ + 2.3 * ε) * L) := mul_le_mul_of_nonneg_right hε (by positivity)
  nlinarith

theorem inUnitFl_of (hf : Rounding ε fl) (hε : ε ≤ 1 / 1000) {t x : ℝ} (ht : |t - x| ≤ 9 / 10 ^ 9) (x0 : 0 ≤ x) (x1 : x ≤ 1) : InUnitFl fl t := by
  obtain ⟨h1, h2⟩ := abs_le.1 ht
  constructor
  · rcases lt_or_ge 0 t with h | h
    · exact .inl h
    · right
      apply closeFl_of hf hε
      rw [sub_zero, abs_zero, abs_of_nonpos h]
      norm_num at *
      linarith
  · rcases lt_or_ge t 1 with h | h
    · exact .inl h
    · right
      apply closeFl_of hf hε
      rw [abs_one, abs_of_nonneg (by linarith)]
      norm_num at *
      linarith

/-- **C155 (crossings are found).** Two segments of the plane, not longer than `L`, which meet at `P`; the area of the parallelogram of their directions is at least `D`; they are not degenerate up to (a little more than) the tolerances, and
`2^-52 ≤ D² - 24 ε L⁴`. The solver of linear equations is accurate to `η`. If `τ = (16 ε + 12 η) L² / D` is at most `9e-9` and `(τ + 4 ε) L` at most `2e-9`, then the exact method in floating point reports a point, whose
coordinates differ from those of `P` by at most `ε |P i| + 2 (τ + 4 ε) L`. The common point may be an end of the segments. -/
theorem C155_crossing_partial (hf : Rounding ε fl) (hε : ε ≤ 1 / 10 ^ 6) (hη : 0 ≤ η) (feps : ℝ) {s r : Seg 2 ℝ} {P : Vec 2 ℝ} {L D τ : ℝ}
    (hP1 : Between s.p1 s.p2 P) (hP2 : Between r.p1 r.p2 P) (hs : Model.edist s.p1 s.p2 ≤ L) (hr : Model.edist r.p1 r.p2 ≤ L)
    (hD : D ≤ |cross2 (s.p2 - s.p1) (r.p2 - r.p1)|) (hD0 : 0 < D) (hF : 1 / 2 ^ 52 ≤ D ^ 2 - 24 * ε * L ^ 4)
    (hτ : τ = (16 * ε + 12 * η) * L ^ 2 / D) (hτ1 : τ ≤ 9 / 10 ^ 9) (hτ2 : (τ + 4 * ε) * L ≤ 2 / 10 ^ 9)
    (ns : ∃ i, 1.01 * (1 / 10 ^ 8 + 1 / 10 ^ 5 * |s.p2 i|) < |s.p1 i - s.p2 i|) (nr : ∃ i, 1.01 * (1 / 10 ^ 8 + 1 / 10 ^ 5 * |r.p2 i|) < |r.p1 i - r.p2 i|)
    {z : Info 2 ℝ} (h : CrossTo fl η feps s r z) :
    ∃ Q, z = ⟨.point Q, .exact⟩ ∧ ∀ i, |Q i - P i| ≤ ε * |P i| + 2 * (τ + 4 * ε) * L := by
  have e0 := hf.nonneg
  have hε' : ε ≤ 1 / 1000 := hε.trans (by norm_num)
  have hs' : vnorm (s.p2 - s.p1) ≤ L := by rw [← edist_eq_vnorm, Model.edist_comm]; exact hs
  have hr' : vnorm (r.p2 - r.p1) ≤ L := by rw [← edist_eq_vnorm, Model.edist_comm]; exact hr
  have hL : 0 ≤ L := (vnorm_nonneg _).trans hs'
  have hc : 4 * (2 * ε + 3 * η) * L ^ 2 ≤ D := by
    have : (16 * ε + 12 * η) * L ^ 2 ≤ 1 * D := by
      rw [← div_le_iff₀ hD0, ← hτ]
      exact hτ1.trans (by norm_num)
    nlinarith [mul_nonneg e0 (sq_nonneg L)]
  obtain ⟨x, x0, x1, ex⟩ := hP1
  obtain ⟨y, y0, y1, ey⟩ := hP2
  obtain ⟨q, hq, h⟩ := h
  have hqf : q = false := by
    refine (C132_parallel hf ?_ hq rfl rfl rfl).2 ?_
    · push_cast
      linarith
    · have A : vnorm (s.p2 - s.p1) ^ 2 = ∑ i, (s.p2 i - s.p1 i) ^ 2 := by
        rw [vnorm_sq, vdot, dotProduct]
        exact Finset.sum_congr rfl fun i _ => by rw [Pi.sub_apply]; ring
      have C : vnorm (r.p2 - r.p1) ^ 2 = ∑ i, (r.p2 i - r.p1 i) ^ 2 := by
        rw [vnorm_sq, vdot, dotProduct]
        exact Finset.sum_congr rfl fun i _ => by rw [Pi.sub_apply]; ring
      have AC : (∑ i, (s.p2 i - s.p1 i) ^ 2) * ∑ i, (r.p2 i - r.p1 i) ^ 2 ≤ L ^ 4 := by
        rw [← A, ← C, show L ^ 4 = L ^ 2 * L ^ 2 by ring]
        exact mul_le_mul (pow_le_pow_left₀ (vnorm_nonneg _) hs' 2) (pow_le_pow_left₀ (vnorm_nonneg _) hr' 2) (sq_nonneg _) (sq_nonneg _)
      have G : (∑ i, (s.p2 i - s.p1 i) ^ 2) * (∑ i, (r.p2 i - r.p1 i) ^ 2) - (∑ i, (s.p2 i - s.p1 i) * (r.p2 i - r.p1 i)) ^ 2 = cross2 (s.p2 - s.p1) (r.p2 - r.p1) ^ 2 := by
        simp only [Fin.sum_univ_two, cross2, Pi.sub_apply]
        ring
      rw [G]
      have D2 : D ^ 2 ≤ cross2 (s.p2 - s.p1) (r.p2 - r.p1) ^ 2 := by
        rw [← sq_abs (cross2 _ _)]
        exact pow_le_pow_left₀ hD0.le hD 2
      have := mul_le_mul_of_nonneg_left AC (show 0 ≤ 24 * ε by linarith)
      rw [show (F_EPS : ℝ) = 1 / 2 ^ 52 from rfl]
      norm_num at hF this ⊢
      linarith
  have nS : ¬ VecCloseFl fl s.p1 s.p2 := by
    intro hcl
    obtain ⟨i, hi⟩ := ns
    exact absurd (of_closeFl hf hε' (hcl i)) (not_le.2 hi)
  have nR : ¬ VecCloseFl fl r.p1 r.p2 := by
    intro hcl
    obtain ⟨i, hi⟩ := nr
    exact absurd (of_closeFl hf hε' (hcl i)) (not_le.2 hi)
  rw [if_neg (by rintro (a | a | a); exacts [by rw [hqf] at a; simp at a, nS a, nR a])] at h
  rcases h with ⟨h, -⟩ | ⟨t, ht, h⟩
  · exact absurd h (cross_solvable hf hε' hη hs' hr' hD hc hD0)
  obtain ⟨k1, k2⟩ := cross_parameters hf hε' hη hs' hr' hD hc hD0 x0 x1 y0 y1 (ex.symm.trans ey) ht
  rw [← hτ] at k1 k2
  have pe : ∀ i, |segPointFl fl s (t 0) i - P i| ≤ ε * |P i| + 2 * (τ + 4 * ε) * L := by
    intro i
    have := cross_point hf hε' (x1 := s.p1 i) (x2 := s.p2 i) ((entry_le_vnorm (s.p2 - s.p1) i).trans hs') k1 x0 x1 (hτ1.trans (by norm_num))
    have e : P i = s.p1 i + (s.p2 i - s.p1 i) * x := by
      rw [ex]; simp only [Pi.add_apply, Pi.smul_apply, Pi.sub_apply, smul_eq_mul]; ring
    rw [e]
    exact this
  have qe : ∀ i, |segPointFl fl r (t 1) i - P i| ≤ ε * |P i| + 2 * (τ + 4 * ε) * L := by
    intro i
    have := cross_point hf hε' (x1 := r.p1 i) (x2 := r.p2 i) ((entry_le_vnorm (r.p2 - r.p1) i).trans hr') k2 y0 y1 (hτ1.trans (by norm_num))
    have e : P i = r.p1 i + (r.p2 i - r.p1 i) * y := by
      rw [ey]; simp only [Pi.add_apply, Pi.smul_apply, Pi.sub_apply, smul_eq_mul]; ring
    rw [e]
    exact this
  have hcl : VecCloseFl fl (segPointFl fl s (t 0)) (segPointFl fl r (t 1)) := by
    intro i
    apply closeFl_of hf hε'
    have a := pe i
    have b := qe i
    have c := abs_sub_le (segPointFl fl s (t 0) i) (P i) (segPointFl fl r (t 1) i)
    rw [abs_sub_comm (P i)] at c
    have d := abs_sub_abs_le_abs_sub (P i) (segPointFl fl r (t 1) i)
    rw [abs_sub_comm (P i)] at d
    have p0 := abs_nonneg (P i)
    have := mul_le_mul_of_nonneg_right hε p0
    norm_num at hτ2 this ⊢
    linarith
  unfold FinishTo at h
  rw [if_pos ⟨inUnitFl_of hf hε' (k1.trans hτ1) x0 x1, inUnitFl_of hf hε' (k2.trans hτ1) y0 y1⟩, if_pos hcl] at h
  exact ⟨_, h, pe⟩


theorem inUnitFl_bounds (hf : Rounding ε fl) (hε : ε ≤ 1 / 1000) {t : ℝ} (h : InUnitFl fl t) : -(1.01 / 10 ^ 8) ≤ t ∧ t ≤ 1 + 1.02 / 10 ^ 5 := by
  obtain ⟨h1, h2⟩ := h
  constructor
  · rcases h1 with h | h
    · norm_num; linarith
    · have := of_closeFl hf hε h
      rw [sub_zero, abs_zero] at this
      have := neg_abs_le t
      norm_num at *
      linarith
  · rcases h2 with h | h
    · norm_num; linarith
    · have := of_closeFl hf hε h
      rw [abs_one] at this
      have := le_abs_self (t - 1)
      norm_num at *
      linarith

/-- The computed point at any parameter near the range. -/
theorem cross_point' (hf : Rounding ε fl) (hε : ε ≤ 1 / 1000) {x1 x2 t : ℝ} (ht : |t| ≤ 2) :
    |pointFl fl x1 x2 t - (x1 + (x2 - x1) * t)| ≤ ε * |x1 + (x2 - x1) * t| + 5 * ε * |x2 - x1| := by
  have e0 := hf.nonneg
  obtain ⟨d, hd⟩ : ∃ d, d = x2 - x1 := ⟨_, rfl⟩
  unfold pointFl
  rw [← hd]
  have d0 := abs_nonneg d
  have h1 : |fl d * t - d * t| ≤ 2 * ε * |d| := by
    rw [← sub_mul, abs_mul]
    have := mul_le_mul (hf.rel d) ht (abs_nonneg _) (by positivity)
    linarith
  have h2 : |fl d * t| ≤ 2.002 * |d| := by
    rw [abs_mul]
    have := mul_le_mul (fl_abs_le hf d) ht (abs_nonneg _) (by positivity)
    nlinarith
  have h3 : |fl (fl d * t) - fl d * t| ≤ 2.002 * ε * |d| := by
    refine (hf.rel _).trans ?_
    have := mul_le_mul_of_nonneg_left h2 e0
    linarith
  have h5 : |(x1 + fl (fl d * t)) - (x1 + d * t)| ≤ 4.002 * ε * |d| := by
    have : (x1 + fl (fl d * t)) - (x1 + d * t) = (fl (fl d * t) - fl d * t) + (fl d * t - d * t) := by ring
    rw [this]
    refine (abs_add_le _ _).trans ?_
    linarith
  have h6 := hf.rel (x1 + fl (fl d * t))
  have h7 : |x1 + fl (fl d * t)| ≤ |x1 + d * t| + 4.002 * ε * |d| := by
    have := abs_sub_abs_le_abs_sub (x1 + fl (fl d * t)) (x1 + d * t)
    linarith
  have h8 := abs_add_le (fl (x1 + fl (fl d * t)) - (x1 + fl (fl d * t))) ((x1 + fl (fl d * t)) - (x1 + d * t))
  rw [sub_add_sub_cancel] at h8
  have h9 := mul_le_mul_of_nonneg_left h7 e0
  have m2 : 0 ≤ ε * |d| := mul_nonneg e0 d0
  have m3 : ε * (4.002 * ε * |d|) ≤ 1 / 1000 * (4.002 * ε * |d|) := mul_le_mul_of_nonneg_right hε (by positivity)
  nlinarith

/-- **C155 (what is reported).** A point reported by the exact method in floating point lies, up to rounding, on the line of the first segment at a parameter between `-1.01e-8` and `1 + 1.02e-5`, and it differs from such a point of the
second segment by rounding and either the tolerance of the comparison of points in each coordinate or a distance of at most `feps / (1 - η)`. -/
theorem C155_sound (hf : Rounding ε fl) (hε : ε ≤ 1 / 1000) (hη : 0 ≤ η) (hη1 : η < 1) {feps : ℝ} {s r : Seg 2 ℝ} {Q : Vec 2 ℝ} (h : CrossTo fl η feps s r ⟨.point Q, .exact⟩) :
    ∃ t u : ℝ, -(1.01 / 10 ^ 8) ≤ t ∧ t ≤ 1 + 1.02 / 10 ^ 5 ∧ -(1.01 / 10 ^ 8) ≤ u ∧ u ≤ 1 + 1.02 / 10 ^ 5 ∧
      (∀ i, |Q i - s.point t i| ≤ ε * |s.point t i| + 5 * ε * |s.p2 i - s.p1 i|) ∧
      ∃ q : Vec 2 ℝ, (∀ i, |q i - r.point u i| ≤ ε * |r.point u i| + 5 * ε * |r.p2 i - r.p1 i|) ∧
        ((∀ i, |Q i - q i| ≤ 1.01 * (1 / 10 ^ 8 + 1 / 10 ^ 5 * |q i|)) ∨ (1 - η) * Model.edist Q q ≤ feps) := by
  have hni : (notIntersected : Info 2 ℝ) ≠ ⟨.point Q, .exact⟩ := by
    intro h; unfold notIntersected at h; simp at h
  obtain ⟨b, -, h⟩ := h
  split at h
  · exact absurd h.symm hni
  rcases h with ⟨-, h⟩ | ⟨t, -, h⟩
  · exact absurd h.symm hni
  unfold FinishTo at h
  split at h
  · rename_i hu
    obtain ⟨a1, a2⟩ := inUnitFl_bounds hf hε hu.1
    obtain ⟨b1, b2⟩ := inUnitFl_bounds hf hε hu.2
    have ta : |t 0| ≤ 2 := by rw [abs_le]; norm_num at a1 a2; constructor <;> linarith
    have tb : |t 1| ≤ 2 := by rw [abs_le]; norm_num at b1 b2; constructor <;> linarith
    have pe : ∀ (s : Seg 2 ℝ) (t : ℝ), |t| ≤ 2 → ∀ i, |segPointFl fl s t i - s.point t i| ≤ ε * |s.point t i| + 5 * ε * |s.p2 i - s.p1 i| := by
      intro s t ht i
      have := cross_point' hf hε (x1 := s.p1 i) (x2 := s.p2 i) ht
      have e : s.point t i = s.p1 i + (s.p2 i - s.p1 i) * t := by simp [Seg.point, Seg.direction]
      rw [e]
      exact this
    split at h
    · rename_i hc
      simp only [Info.mk.injEq, IData.point.injEq, and_true] at h
      refine ⟨t 0, t 1, a1, a2, b1, b2, ?_, segPointFl fl r (t 1), pe r (t 1) tb, .inl ?_⟩
      · rw [h]; exact pe s (t 0) ta
      · rw [h]; exact fun i => of_closeFl hf hε (hc i)
    · obtain ⟨z, hz, h⟩ := h
      split at h
      · exact absurd h.symm hni
      · rename_i hle
        simp only [Info.mk.injEq, IData.point.injEq, and_true] at h
        refine ⟨t 0, t 1, a1, a2, b1, b2, ?_, segPointFl fl r (t 1), pe r (t 1) tb, .inr ?_⟩
        · rw [h]; exact pe s (t 0) ta
        · rw [h]
          have := (abs_le.1 hz).1
          linarith
  · exact absurd h.symm hni


/-! ### Elimination satisfies the assumption on the solver -/

theorem prod_err {p q a b : ℝ} (hp : |p - 1| ≤ a) (hq : |q - 1| ≤ b) : |p * q - 1| ≤ a + b + a * b := by
  have : p * q - 1 = (p - 1) + (q - 1) + (p - 1) * (q - 1) := by ring
  rw [this]
  refine (abs_add_three _ _ _).trans ?_
  rw [abs_mul]
  have := mul_le_mul hp hq (abs_nonneg _) ((abs_nonneg _).trans hp)
  linarith

theorem inv_err (hε : ε ≤ 1 / 1000) {δ : ℝ} (h : |δ| ≤ ε) : |(1 + δ)⁻¹ - 1| ≤ 1.01 * ε := by
  obtain ⟨h1, h2⟩ := abs_le.1 h
  have hp : 0 < 1 + δ := by linarith
  have : (1 + δ)⁻¹ - 1 = -δ / (1 + δ) := by field_simp; ring
  rw [this, abs_div, abs_neg, abs_of_pos hp, div_le_iff₀ hp]
  nlinarith [(abs_nonneg δ).trans h]

/-- Elimination with the rows in the order of the pivots. -/
theorem eliminate_core (hf : Rounding ε fl) (hε : ε ≤ 1 / 1000) {a b c d f g : ℝ} (ha : a ≠ 0) (hca : |c| ≤ |a|) :
    (fl (d - fl (fl (c / a) * b)) = 0 → ∃ e, |e| ≤ 10 * ε * |c| ∧ a * d - b * (c + e) = 0) ∧
    (fl (d - fl (fl (c / a) * b)) ≠ 0 → ∀ x y, y = fl (fl (g - fl (fl (c / a) * f)) / fl (d - fl (fl (c / a) * b))) → x = fl (fl (f - fl (b * y)) / a) →
      ∃ e1 e2 e3 e4, |e1| ≤ 10 * ε * |a| ∧ |e2| ≤ 10 * ε * |b| ∧ |e3| ≤ 10 * ε * |c| ∧ |e4| ≤ 10 * ε * max |b| |d| ∧
        (a + e1) * x + (b + e2) * y = f ∧ (c + e3) * x + (d + e4) * y = g) := by
  have e0 := hf.nonneg
  have ee : ε * ε ≤ 1 / 1000 * ε := mul_le_mul_of_nonneg_right hε e0
  have eee : ε * ε * ε ≤ 1 / 1000 * ε * ε := by
    have := mul_le_mul_of_nonneg_right ee e0
    linarith
  obtain ⟨δ1, h1, k1⟩ := fl_err hf (c / a)
  obtain ⟨l, hl⟩ : ∃ l, l = fl (c / a) := ⟨_, rfl⟩
  rw [← hl] at k1 ⊢
  have hla : l * a = c * (1 + δ1) := by rw [k1]; field_simp
  obtain ⟨δ2, h2, k2⟩ := fl_err hf (l * b)
  rw [k2]
  have q : ∀ δ : ℝ, |δ| ≤ ε → |(1 + δ) - 1| ≤ ε := fun δ h => by rwa [add_sub_cancel_left]
  constructor
  · intro h
    rw [fl_eq_zero hf] at h
    refine ⟨c * ((1 + δ1) * (1 + δ2) - 1), ?_, ?_⟩
    · rw [abs_mul, mul_comm]
      refine mul_le_mul_of_nonneg_right ((prod_err (q _ h1) (q _ h2)).trans ?_) (abs_nonneg _)
      linarith
    · have : d = l * b * (1 + δ2) := by linarith
      rw [this]
      have : a * (l * b * (1 + δ2)) = (l * a) * b * (1 + δ2) := by ring
      rw [this, hla]
      ring
  · intro hu x y hy hx
    obtain ⟨δ3, h3, k3⟩ := fl_err hf (d - l * b * (1 + δ2))
    obtain ⟨u, hu'⟩ : ∃ u, u = fl (d - l * b * (1 + δ2)) := ⟨_, rfl⟩
    rw [← hu'] at hu hy k3
    obtain ⟨δ4, h4, k4⟩ := fl_err hf (l * f)
    rw [k4] at hy
    obtain ⟨δ5, h5, k5⟩ := fl_err hf (g - l * f * (1 + δ4))
    rw [k5] at hy
    obtain ⟨δ6, h6, k6⟩ := fl_err hf ((g - l * f * (1 + δ4)) * (1 + δ5) / u)
    rw [k6] at hy
    obtain ⟨δ7, h7, k7⟩ := fl_err hf (b * y)
    rw [k7] at hx
    obtain ⟨δ8, h8, k8⟩ := fl_err hf (f - b * y * (1 + δ7))
    rw [k8] at hx
    obtain ⟨δ9, h9, k9⟩ := fl_err hf ((f - b * y * (1 + δ7)) * (1 + δ8) / a)
    rw [k9] at hx
    have pos : ∀ δ : ℝ, |δ| ≤ ε → 0 < 1 + δ := fun δ h => by have := (abs_le.1 h).1; linarith
    have p5 := pos _ h5
    have p6 := pos _ h6
    have p8 := pos _ h8
    have p9 := pos _ h9
    obtain ⟨A, hA⟩ : ∃ A, A = (1 + δ5)⁻¹ * (1 + δ6)⁻¹ := ⟨_, rfl⟩
    obtain ⟨B, hB⟩ : ∃ B, B = (1 + δ8)⁻¹ * (1 + δ9)⁻¹ := ⟨_, rfl⟩
    have bA : |A - 1| ≤ 2.03 * ε := by
      rw [hA]
      refine (prod_err (inv_err hε h5) (inv_err hε h6)).trans ?_
      linarith
    have bB : |B - 1| ≤ 2.03 * ε := by
      rw [hB]
      refine (prod_err (inv_err hε h8) (inv_err hε h9)).trans ?_
      linarith
    have row1 : a * B * x + b * (1 + δ7) * y = f := by
      rw [hx, hB]
      field_simp
      ring
    have row2 : u * A * y + l * (1 + δ4) * f = g := by
      have : u * A * y = g - l * f * (1 + δ4) := by
        rw [hy, hA]
        field_simp
      rw [this]
      ring
    refine ⟨a * (B - 1), b * δ7, c * ((1 + δ1) * (1 + δ4) * B - 1), d * ((1 + δ3) * A - 1) + l * b * ((1 + δ4) * (1 + δ7) - (1 + δ2) * ((1 + δ3) * A)), ?_, ?_, ?_, ?_, ?_, ?_⟩
    · rw [abs_mul, mul_comm]
      exact mul_le_mul_of_nonneg_right (by linarith) (abs_nonneg _)
    · rw [abs_mul, mul_comm]
      exact mul_le_mul_of_nonneg_right (by linarith) (abs_nonneg _)
    · rw [abs_mul, mul_comm]
      refine mul_le_mul_of_nonneg_right ((prod_err (prod_err (q _ h1) (q _ h4)) bB).trans ?_) (abs_nonneg _)
      linarith
    · have lb : |l| ≤ 1.001 := by
        rw [k1, abs_mul, abs_div]
        have t1 : |c| / |a| ≤ 1 := by rw [div_le_one (abs_pos.2 ha)]; exact hca
        have t2 : |1 + δ1| ≤ 1.001 := by rw [abs_of_pos (pos _ h1)]; have := (abs_le.1 h1).2; linarith
        have := mul_le_mul t1 t2 (abs_nonneg _) (by norm_num)
        linarith
      have s1 : |(1 + δ3) * A - 1| ≤ 3.04 * ε := by
        refine (prod_err (q _ h3) bA).trans ?_
        linarith
      have s2 : |(1 + δ2) * ((1 + δ3) * A) - 1| ≤ 4.05 * ε := by
        refine (prod_err (q _ h2) s1).trans ?_
        linarith
      have s3 : |(1 + δ4) * (1 + δ7) - 1| ≤ 2.01 * ε := by
        refine (prod_err (q _ h4) (q _ h7)).trans ?_
        linarith
      have s4 : |(1 + δ4) * (1 + δ7) - (1 + δ2) * ((1 + δ3) * A)| ≤ 6.06 * ε := by
        have := abs_sub_le ((1 + δ4) * (1 + δ7)) 1 ((1 + δ2) * ((1 + δ3) * A))
        rw [abs_sub_comm 1] at this
        linarith
      refine (abs_add_le _ _).trans ?_
      rw [abs_mul, abs_mul, abs_mul]
      have m1 := le_max_left |b| |d|
      have m2 := le_max_right |b| |d|
      obtain ⟨M, hM⟩ : ∃ M, M = max |b| |d| := ⟨_, rfl⟩
      rw [← hM] at m1 m2 ⊢
      have M0 : 0 ≤ M := (abs_nonneg b).trans m1
      have t1 := mul_le_mul m2 s1 (abs_nonneg _) M0
      have t2 := mul_le_mul (mul_le_mul lb m1 (abs_nonneg _) (by norm_num)) s4 (abs_nonneg _) (by positivity)
      have := mul_nonneg e0 M0
      linarith
    · linarith
    · have hc : c * (1 + δ1) = l * a := hla.symm
      have : (c + c * ((1 + δ1) * (1 + δ4) * B - 1)) * x = l * (1 + δ4) * (a * B * x) := by
        have : (c + c * ((1 + δ1) * (1 + δ4) * B - 1)) * x = (c * (1 + δ1)) * (1 + δ4) * B * x := by ring
        rw [this, hc]; ring
      rw [this, ← row2, ← row1, k3]
      ring

/-- **C155 (the solver).** Elimination with exchange of rows, every operation rounded, is accurate to `η = 10 ε` in the sense of the assumption on `np.linalg.solve`: the computed solution is the exact solution of a system with
slightly changed coefficients; a pivot is 0 only if a slightly changed matrix is singular. -/
theorem C155_solver (hf : Rounding ε fl) (hε : ε ≤ 1 / 1000) (a : Fin 2 → Fin 2 → ℝ) (b : Vec 2 ℝ) :
    (∀ t, eliminate fl a b = some t → SolveTo (10 * ε) a b t) ∧ (eliminate fl a b = none → SolveFails (10 * ε) a) := by
  have e0 := hf.nonneg
  have sm : ∀ (p q : Fin 2), p ≠ q → ∀ {e1 e2 e3 e4 : ℝ}, |e1| ≤ 10 * ε * |a p 0| → |e2| ≤ 10 * ε * |a p 1| → |e3| ≤ 10 * ε * |a q 0| → |e4| ≤ 10 * ε * max |a p 1| |a q 1| →
      SmallChange (10 * ε) a (fun i j => if i = p then (if j = 0 then e1 else e2) else (if j = 0 then e3 else e4)) := by
    intro p q hpq e1 e2 e3 e4 h1 h2 h3 h4 i j
    by_cases hi : i = p
    · by_cases hj : j = 0
      · exact ⟨p, 0, by simpa [hi, hj] using h1⟩
      · exact ⟨p, 1, by simpa [hi, hj] using h2⟩
    · by_cases hj : j = 0
      · exact ⟨q, 0, by simpa [hi, hj] using h3⟩
      · rcases max_choice |a p 1| |a q 1| with h' | h'
        · exact ⟨p, 1, by rw [h'] at h4; simpa [hi, hj] using h4⟩
        · exact ⟨q, 1, by rw [h'] at h4; simpa [hi, hj] using h4⟩
  have two : ∀ (p q : Fin 2), p ≠ q → ∀ i : Fin 2, i = p ∨ i = q := by decide
  have main : ∀ p q : Fin 2, p ≠ q → |a q 0| ≤ |a p 0| →
      (∀ t, (if a p 0 = 0 then none else
        if fl (a q 1 - fl (fl (a q 0 / a p 0) * a p 1)) = 0 then none else
          some ![fl (fl (b p - fl (a p 1 * fl (fl (b q - fl (fl (a q 0 / a p 0) * b p)) / fl (a q 1 - fl (fl (a q 0 / a p 0) * a p 1))))) / a p 0), fl (fl (b q - fl (fl (a q 0 / a p 0) * b p)) / fl (a q 1 - fl (fl (a q 0 / a p 0) * a p 1)))]) = some t → SolveTo (10 * ε) a b t) ∧
      ((if a p 0 = 0 then none else
        if fl (a q 1 - fl (fl (a q 0 / a p 0) * a p 1)) = 0 then none else
          some ![fl (fl (b p - fl (a p 1 * fl (fl (b q - fl (fl (a q 0 / a p 0) * b p)) / fl (a q 1 - fl (fl (a q 0 / a p 0) * a p 1))))) / a p 0), fl (fl (b q - fl (fl (a q 0 / a p 0) * b p)) / fl (a q 1 - fl (fl (a q 0 / a p 0) * a p 1)))]) = none → SolveFails (10 * ε) a) := by
    intro p q hpq hle
    have det : ∀ e : Fin 2 → Fin 2 → ℝ, (a p 0 + e p 0) * (a q 1 + e q 1) - (a p 1 + e p 1) * (a q 0 + e q 0) = 0 →
        (a 0 0 + e 0 0) * (a 1 1 + e 1 1) - (a 0 1 + e 0 1) * (a 1 0 + e 1 0) = 0 := by
      intro e h
      have : (p = 0 ∧ q = 1) ∨ (p = 1 ∧ q = 0) := by revert hpq; clear hle h; revert p q; decide
      rcases this with ⟨rfl, rfl⟩ | ⟨rfl, rfl⟩
      · exact h
      · linarith
    by_cases ha : a p 0 = 0
    · simp only [if_pos ha]
      refine ⟨by simp, fun _ => ⟨fun _ _ => 0, fun i j => ⟨i, j, by simp; positivity⟩, det (fun _ _ => 0) ?_⟩⟩
      have : a q 0 = 0 := by
        rw [ha, abs_zero] at hle
        exact abs_eq_zero.1 (le_antisymm hle (abs_nonneg _))
      rw [ha, this]; ring
    simp only [if_neg ha]
    obtain ⟨c1, c2⟩ := eliminate_core hf hε (b := a p 1) (d := a q 1) (f := b p) (g := b q) ha hle
    by_cases hu : fl (a q 1 - fl (fl (a q 0 / a p 0) * a p 1)) = 0
    · simp only [if_pos hu]
      refine ⟨by simp, fun _ => ?_⟩
      obtain ⟨e, he, hd⟩ := c1 hu
      refine ⟨_, sm p q hpq (e1 := 0) (e2 := 0) (e3 := e) (e4 := 0) (by simp; positivity) (by simp; positivity) he (by simp; positivity),
        det (fun i j => if i = p then (if j = 0 then 0 else 0) else (if j = 0 then e else 0)) ?_⟩
      simp only [if_true, if_neg (Ne.symm hpq), add_zero, Fin.isValue, one_ne_zero, if_false]
      exact hd
    · simp only [if_neg hu]
      refine ⟨fun t ht => ?_, by simp⟩
      obtain ⟨e1, e2, e3, e4, b1, b2, b3, b4, r1, r2⟩ := c2 hu _ _ rfl rfl
      rw [Option.some.injEq] at ht
      subst ht
      refine ⟨_, sm p q hpq b1 b2 b3 b4, fun i => ?_⟩
      rcases two p q hpq i with rfl | rfl
      · simp only [if_true, Fin.isValue, one_ne_zero, if_false, Matrix.cons_val_zero, Matrix.cons_val_one]
        exact r1
      · simp only [if_true, if_neg (Ne.symm hpq), Fin.isValue, one_ne_zero, if_false, Matrix.cons_val_zero, Matrix.cons_val_one]
        exact r2
  unfold eliminate
  by_cases h : |a 0 0| < |a 1 0|
  · simp only [if_pos h]
    exact main 1 0 (by decide) h.le
  · simp only [if_neg h]
    exact main 0 1 (by decide) (not_lt.1 h)


/-! ### Without rounding -/

theorem closeFl_id (x y : ℝ) : CloseFl id x y ↔ closeK x y = true := by
  simp [CloseFl, closeK]

theorem vecCloseFl_id {n : Nat} (p q : Vec n ℝ) : VecCloseFl id p q ↔ vecEq p q = true := by
  rw [vecEq_iff]
  unfold VecCloseFl CloseVec
  refine forall_congr' fun i => ?_
  rw [closeFl_id]
  simp [closeK, atol, rtol]

theorem inUnitFl_id (t : ℝ) : InUnitFl id t ↔ inUnit t = true := by
  simp [InUnitFl, inUnit, closeFl_id]

/-- **C155 (no rounding).** Without rounding and with an exact solver this is the exact method. -/
theorem C155_exact (feps : ℝ) (s r : Seg 2 ℝ) (hc : s.collinear (.seg r) = false) (x : Info 2 ℝ) (h : CrossTo id 0 feps s r x) : exactSegments feps s r = .ok x := by
  obtain ⟨q, hq, h⟩ := h
  have hq' := (C132_exact s r s.p1 F_EPS).1 q hq
  have hcop := C29_segment s (.seg r)
  have sing : ∀ s : Seg 2 ℝ, VecCloseFl id s.p1 s.p2 ↔ s.singular = true := by
    intro s; rw [vecCloseFl_id]; rfl
  rw [sing, sing] at h
  by_cases hp : q = true
  · rw [if_pos (.inl hp)] at h
    rw [hp] at hq'
    unfold exactSegments
    rw [h, hc, ← hq']
    rfl
  have hp' : s.parallel r F_EPS = false := by rw [← hq']; simpa using hp
  by_cases hsing : s.singular = true ∨ r.singular = true
  · rw [if_pos (.inr hsing)] at h
    obtain ⟨b, hb, -⟩ := hcop
    unfold exactSegments
    rw [h, hc, hp', hb]
    have : (s.singular || r.singular) = true := by simpa using hsing
    simp [this]
  rw [if_neg (by rintro (a | a); exacts [hp a, hsing a])] at h
  push Not at hsing
  have hg : F_EPS ≤ gram s.direction r.direction := by
    rw [← not_lt, ← parallel_iff, hp']; simp
  have hm : crossMat id s r = fun i j => if j = 0 then s.direction i else -r.direction i := rfl
  rcases h with ⟨⟨e, he, h0⟩, -⟩ | ⟨t, ⟨e, he, ht⟩, h⟩
  · exfalso
    have e0 : ∀ i j, e i j = 0 := by
      intro i j
      obtain ⟨k, l, h⟩ := he i j
      rw [zero_mul] at h
      exact abs_eq_zero.1 (le_antisymm h (abs_nonneg _))
    simp only [hm, e0, add_zero, if_true, Fin.isValue, one_ne_zero, if_false] at h0
    have : gram s.direction r.direction = 0 := by
      simp only [gram, Fin.sum_univ_two]
      linear_combination (s.direction 0 * (-r.direction 1) - (-r.direction 0) * s.direction 1) * h0
    rw [this] at hg
    exact absurd f_eps_pos' (not_lt.2 hg)
  · have e0 : ∀ i j, e i j = 0 := by
      intro i j
      obtain ⟨k, l, h⟩ := he i j
      rw [zero_mul] at h
      exact abs_eq_zero.1 (le_antisymm h (abs_nonneg _))
    simp only [hm, e0, add_zero, if_true, Fin.isValue, one_ne_zero, if_false] at ht
    have hpt : ∀ (s : Seg 2 ℝ) (t : ℝ), segPointFl id s t = s.point t := by
      intro s t
      funext i
      exact (C121_exact.1 s t i).symm
    have hmeet : s.point (t 0) = r.point (t 1) := by
      rw [Seg.point_eq, Seg.point_eq]
      funext i
      have := ht i
      simp only [subFl, id] at this
      simp only [Pi.add_apply, Pi.smul_apply, smul_eq_mul]
      linarith
    rw [exactSegments_eq feps s r hc hg (inPlane_of_dim (by norm_num)) (by simpa using hsing.1) (by simpa using hsing.2) hmeet]
    unfold FinishTo at h
    simp only [hpt, inUnitFl_id, vecCloseFl_id] at h
    by_cases hu : inUnit (t 0) = true ∧ inUnit (t 1) = true
    · rw [if_pos hu] at h
      have hcl : vecEq (s.point (t 0)) (r.point (t 1)) = true := by
        rw [← vecCloseFl_id, hmeet]
        intro i
        simp [CloseFl, atol, rtol]
        positivity
      rw [if_pos hcl] at h
      rw [h, hu.1, hu.2]
      rfl
    · rw [if_neg hu] at h
      rw [h, if_neg]
      simpa using hu

end

/-! ### Where it fails, and an example -/

theorem rnd_49 : rnd (1 / 49) = 5882252574524729 * 2 ^ (-58 : ℤ) := by
  have := rnd_value (x := 1 / 49) (-6) 5882252574524729 (by norm_num [zpow_neg]) (by norm_num [zpow_neg]) (.inl (by rw [abs_lt]; norm_num [zpow_neg]))
  rw [this]
  norm_num

/-- The two segments of `C155_far_fails`. -/
noncomputable def farA : Seg 2 ℝ := ⟨![-2 ^ 27, 0], ![48 * 2 ^ 27, 0]⟩
noncomputable def farB : Seg 2 ℝ := ⟨![0, -1], ![0, 1]⟩

theorem far_dirA : subFl rnd farA.p2 farA.p1 = ![49 * 2 ^ 27, 0] := by
  funext i
  fin_cases i
  · show rnd (48 * 2 ^ 27 - -2 ^ 27) = 49 * 2 ^ 27
    rw [rnd_of _ 49 27 (by norm_num) (by norm_num)]
    norm_num
  · show rnd (0 - 0) = 0
    rw [sub_zero, rnd_zero]

theorem far_dirB : subFl rnd farB.p2 farB.p1 = ![0, 2] := by
  funext i
  fin_cases i
  · show rnd (0 - 0) = 0
    rw [sub_zero, rnd_zero]
  · show rnd (1 - -1) = 2
    rw [rnd_of _ 2 0 (by norm_num) (by norm_num)]
    norm_num

theorem far_rhs : subFl rnd farB.p1 farA.p1 = ![2 ^ 27, -1] := by
  funext i
  fin_cases i
  · show rnd (0 - -2 ^ 27) = 2 ^ 27
    rw [rnd_of _ 1 27 (by norm_num) (by norm_num)]
    norm_num
  · show rnd (-1 - 0) = -1
    rw [rnd_of _ (-1) 0 (by norm_num) (by norm_num)]
    norm_num

theorem far_parallel : ParallelTo rnd farA farB F_EPS false := by
  refine ⟨_, _, _, dotTo_two _ _, dotTo_two _ _, dotTo_two _ _, ?_⟩
  rw [far_dirA, far_dirB]
  simp only [Matrix.cons_val_zero, Matrix.cons_val_one, mul_zero, zero_mul, rnd_zero, add_zero, zero_add, sub_zero]
  have a1 : rnd (49 * 2 ^ 27 * (49 * 2 ^ 27)) = 2401 * 2 ^ 54 := by
    rw [rnd_of _ 2401 54 (by norm_num) (by norm_num)]; norm_num
  have a2 : rnd (2401 * 2 ^ 54) = 2401 * 2 ^ 54 := rnd_of _ 2401 54 (by norm_num) (by norm_num)
  have a3 : rnd (2 * 2) = 4 := by
    rw [rnd_of _ 4 0 (by norm_num) (by norm_num)]; norm_num
  have a4 : rnd 4 = 4 := rnd_of _ 4 0 (by norm_num) (by norm_num)
  have a5 : rnd (2401 * 2 ^ 54 * 4) = 2401 * 2 ^ 56 := by
    rw [rnd_of _ 2401 56 (by norm_num) (by norm_num)]; norm_num
  have a6 : rnd (2401 * 2 ^ 56) = 2401 * 2 ^ 56 := rnd_of _ 2401 56 (by norm_num) (by norm_num)
  rw [a1, a2, a3, a4, a5, a6, eq_comm, decide_eq_false_iff_not]
  simp only [F_EPS]
  norm_num

theorem far_eliminate : eliminate rnd (crossMat rnd farA farB) (subFl rnd farB.p1 farA.p1) = some ![rnd (1 / 49), 1 / 2] := by
  have m00 : crossMat rnd farA farB 0 0 = 49 * 2 ^ 27 := by simp [crossMat, far_dirA]
  have m10 : crossMat rnd farA farB 1 0 = 0 := by simp [crossMat, far_dirA]
  have m01 : crossMat rnd farA farB 0 1 = 0 := by simp [crossMat, far_dirB]
  have m11 : crossMat rnd farA farB 1 1 = -2 := by simp [crossMat, far_dirB]
  have hlt : ¬ |crossMat rnd farA farB 0 0| < |crossMat rnd farA farB 1 0| := by
    rw [m00, m10, abs_zero]; exact not_lt.2 (abs_nonneg _)
  have r2 : rnd (-2) = -2 := rnd_of _ (-2) 0 (by norm_num) (by norm_num)
  have r1 : rnd (-1) = -1 := rnd_of _ (-1) 0 (by norm_num) (by norm_num)
  have rh : rnd (-1 / -2) = 1 / 2 := by
    rw [rnd_of _ 1 (-1) (by norm_num) (by norm_num)]; norm_num
  have rb : rnd (2 ^ 27) = 2 ^ 27 := rnd_of _ 1 27 (by norm_num) (by norm_num)
  unfold eliminate
  simp only [if_neg hlt]
  simp only [m00, m10, m01, m11, far_rhs, Matrix.cons_val_zero, Matrix.cons_val_one, zero_div, zero_mul, rnd_zero, sub_zero, r2, r1, rh, rb]
  rw [if_neg (by norm_num), if_neg (by norm_num)]
  rw [show (2 : ℝ) ^ 27 / (49 * 2 ^ 27) = 1 / 49 by norm_num]

/-- **C155 (far points, fails).** In binary64 the crossing at the origin of the segment from (-2^27, 0) to (48·2^27, 0) with the one from (0, -1) to (0, 1) is not found: with the parameters which elimination computes the point of the
first segment is (-2^-26, 0), and this is not equal to the one of the second segment, (0, 0), up to the tolerances. In exact arithmetic the crossing is found. -/
theorem C155_far_fails :
    exactSegments (F_EPS : ℝ) farA farB = .ok ⟨.point ![0, 0], .exact⟩ ∧ CrossTo rnd (10 * 2⁻¹ ^ 53) F_EPS farA farB notIntersected := by
  constructor
  · have hcr : gram (farA.p2 - farA.p1) (farB.p2 - farB.p1) = (49 * 2 ^ 27) ^ 2 * 4 := by
      norm_num [gram, Fin.sum_univ_two, farA, farB]
    refine C38_crossing_partial F_EPS farA farB ⟨1 / 49, by norm_num, by norm_num, ?_⟩ ⟨1 / 2, by norm_num, by norm_num, ?_⟩ ?_ ?_ ?_ ?_ ?_
    · funext i; fin_cases i <;> norm_num [farA]
    · funext i; fin_cases i <;> norm_num [farB]
    · rw [hcr]; norm_num
    · intro h; have h0 := h 0; norm_num [abs_le, farA] at h0
    · intro h; have h0 := h 1; norm_num [abs_le, farB] at h0
    · rintro ⟨h, -⟩; have h0 := h 1; norm_num [abs_le, farA, farB] at h0
    · rintro ⟨h, -⟩; have h0 := h 1; norm_num [abs_le, farA, farB] at h0
  · have hε : (2⁻¹ : ℝ) ^ 53 ≤ 1 / 1000 := by norm_num
    have nA : ¬ VecCloseFl rnd farA.p1 farA.p2 := by
      intro h
      have := of_closeFl rnd_rounding hε (h 0)
      norm_num [farA] at this
    have nB : ¬ VecCloseFl rnd farB.p1 farB.p2 := by
      intro h
      have := of_closeFl rnd_rounding hε (h 1)
      norm_num [farB] at this
    refine ⟨false, far_parallel, ?_⟩
    rw [if_neg (by rintro (a | a | a); exacts [by simp at a, nA a, nB a])]
    refine .inr ⟨_, (C155_solver rnd_rounding hε _ _).1 _ far_eliminate, ?_⟩
    have pA : segPointFl rnd farA (rnd (1 / 49)) 0 = -2⁻¹ ^ 26 := by
      show rnd (-2 ^ 27 + rnd (rnd (48 * 2 ^ 27 - -2 ^ 27) * rnd (1 / 49))) = _
      have e1 : rnd (48 * 2 ^ 27 - -2 ^ 27) = 49 * 2 ^ 27 := congrFun far_dirA 0
      have e2 : rnd (49 * 2 ^ 27 * rnd (1 / 49)) = 9007199254740991 * 2 ^ (-26 : ℤ) := by
        rw [rnd_49, rnd_value 26 9007199254740991 (by norm_num [zpow_neg]) (by norm_num [zpow_neg]) (.inl (by rw [abs_lt]; norm_num [zpow_neg]))]
        norm_num
      rw [e1, e2, rnd_of _ (-1) (-26) (by norm_num) (by norm_num [zpow_neg])]
      norm_num [zpow_neg]
    have pB : segPointFl rnd farB (1 / 2) 0 = 0 := by
      show rnd (0 + rnd (rnd (0 - 0) * (1 / 2))) = 0
      simp [rnd_zero]
    have ha : InUnitFl rnd (rnd (1 / 49)) ∧ InUnitFl rnd (1 / 2) := by
      refine ⟨⟨.inl ?_, .inl ?_⟩, ⟨.inl (by norm_num), .inl (by norm_num)⟩⟩ <;> rw [rnd_49] <;> norm_num [zpow_neg]
    have hnc : ¬ VecCloseFl rnd (segPointFl rnd farA (rnd (1 / 49))) (segPointFl rnd farB (1 / 2)) := by
      intro h
      have := of_closeFl rnd_rounding hε (h 0)
      rw [pA, pB] at this
      norm_num at this
    unfold FinishTo
    rw [if_pos (show InUnitFl rnd ((![rnd (1 / 49), 1 / 2] : Vec 2 ℝ) 0) ∧ InUnitFl rnd ((![rnd (1 / 49), 1 / 2] : Vec 2 ℝ) 1) from ha)]
    rw [if_neg (show ¬ VecCloseFl rnd (segPointFl rnd farA ((![rnd (1 / 49), 1 / 2] : Vec 2 ℝ) 0)) (segPointFl rnd farB ((![rnd (1 / 49), 1 / 2] : Vec 2 ℝ) 1)) from hnc)]
    simp only [Matrix.cons_val_zero, Matrix.cons_val_one]
    refine ⟨_, by rw [sub_self, abs_zero]; exact mul_nonneg (by positivity) (Model.edist_nonneg _ _), ?_⟩
    rw [if_pos]
    have h0 := entry_le_vnorm (segPointFl rnd farA (rnd (1 / 49)) - segPointFl rnd farB (1 / 2)) 0
    rw [← edist_eq_vnorm, Pi.sub_apply, pA, pB] at h0
    refine lt_of_lt_of_le ?_ h0
    norm_num [F_EPS]

/-- The hypotheses of `C155_crossing_partial` hold in binary64 for the diagonals of the square from (0, 0) to (1, 1), with `L = 3/2` and `D = 2`. -/
example {z : Info 2 ℝ} (h : CrossTo rnd (10 * 2⁻¹ ^ 53) F_EPS (⟨![0, 0], ![1, 1]⟩ : Seg 2 ℝ) ⟨![0, 1], ![1, 0]⟩ z) :
    ∃ Q, z = ⟨.point Q, .exact⟩ ∧ ∀ i, |Q i - 1 / 2| ≤ 1 / 10 ^ 10 := by
  have := C155_crossing_partial rnd_rounding (by norm_num) (by positivity) F_EPS (s := ⟨![0, 0], ![1, 1]⟩) (r := ⟨![0, 1], ![1, 0]⟩) (P := ![1 / 2, 1 / 2]) (L := 3 / 2) (D := 2)
    (τ := (16 * 2⁻¹ ^ 53 + 12 * (10 * 2⁻¹ ^ 53)) * (3 / 2) ^ 2 / 2) ⟨1 / 2, by norm_num, by norm_num, ?_⟩ ⟨1 / 2, by norm_num, by norm_num, ?_⟩ ?_ ?_ ?_ (by norm_num) (by norm_num) rfl
    (by norm_num) (by norm_num) ⟨0, by norm_num⟩ ⟨0, by norm_num⟩ h
  · obtain ⟨Q, h1, h2⟩ := this
    refine ⟨Q, h1, fun i => ?_⟩
    have := h2 i
    fin_cases i
    · refine le_trans this ?_
      norm_num [abs_of_pos]
    · refine le_trans this ?_
      norm_num [abs_of_pos]
  · funext i; fin_cases i <;> norm_num
  · funext i; fin_cases i <;> norm_num
  · unfold Model.edist
    rw [Fin.sum_univ_two, Real.sqrt_le_left (by norm_num)]
    norm_num
  · unfold Model.edist
    rw [Fin.sum_univ_two, Real.sqrt_le_left (by norm_num)]
    norm_num
  · norm_num [cross2]

/-- With elimination as the solver there is such a result. -/
theorem crossTo_exists {ε : ℝ} {fl : ℝ → ℝ} (hf : Rounding ε fl) (hε : ε ≤ 1 / 1000) (feps : ℝ) (s r : Seg 2 ℝ) : ∃ z, CrossTo fl (10 * ε) feps s r z := by
  classical
  refine Classical.byContradiction fun hn => hn ?_
  have hF : ∀ t, ∃ z, FinishTo fl (10 * ε) feps s r t z := by
    intro t
    unfold FinishTo
    split
    · split
      · exact ⟨_, rfl⟩
      · exact ⟨_, _, by rw [sub_self, abs_zero]; exact mul_nonneg (by linarith [hf.nonneg]) (Model.edist_nonneg _ _), rfl⟩
    · exact ⟨_, rfl⟩
  by_cases hc : (decide (fl (fl (fl (fl (subFl fl s.p2 s.p1 0 * subFl fl s.p2 s.p1 0) + fl (subFl fl s.p2 s.p1 1 * subFl fl s.p2 s.p1 1)) *
      fl (fl (subFl fl r.p2 r.p1 0 * subFl fl r.p2 r.p1 0) + fl (subFl fl r.p2 r.p1 1 * subFl fl r.p2 r.p1 1))) -
      fl (fl (fl (subFl fl s.p2 s.p1 0 * subFl fl r.p2 r.p1 0) + fl (subFl fl s.p2 s.p1 1 * subFl fl r.p2 r.p1 1)) *
        fl (fl (subFl fl s.p2 s.p1 0 * subFl fl r.p2 r.p1 0) + fl (subFl fl s.p2 s.p1 1 * subFl fl r.p2 r.p1 1)))) < F_EPS)) = true ∨ VecCloseFl fl s.p1 s.p2 ∨ VecCloseFl fl r.p1 r.p2
  · exact ⟨notIntersected, _, ⟨_, _, _, dotTo_two _ _, dotTo_two _ _, dotTo_two _ _, rfl⟩, by rw [if_pos hc]⟩
  · cases he : eliminate fl (crossMat fl s r) (subFl fl r.p1 s.p1) with
    | none => exact ⟨notIntersected, _, ⟨_, _, _, dotTo_two _ _, dotTo_two _ _, dotTo_two _ _, rfl⟩, by rw [if_neg hc]; exact .inl ⟨(C155_solver hf hε _ _).2 he, rfl⟩⟩
    | some t =>
      obtain ⟨z, hz⟩ := hF t
      exact ⟨z, _, ⟨_, _, _, dotTo_two _ _, dotTo_two _ _, dotTo_two _ _, rfl⟩, by rw [if_neg hc]; exact .inr ⟨t, (C155_solver hf hε _ _).1 t he, hz⟩⟩

/-! ## Concrete cases -/

example {Q : Vec 2 ℝ} (h : CrossTo rnd (10 * 2⁻¹ ^ 53) F_EPS (⟨![0, 0], ![1, 1]⟩ : Seg 2 ℝ) ⟨![0, 1], ![1, 0]⟩ ⟨.point Q, .exact⟩) := C155_sound rnd_rounding (by norm_num) (by positivity) (by norm_num) h
example := C155_solver rnd_rounding (by norm_num) ![![2, 1], ![1, 3]] ![3, 5]

end Verif.Props
