import Verif.Props.BestFit
import Verif.Lemmas.Taylor
import Mathlib.LinearAlgebra.Lagrange

/-!
C147: the Savitzky-Golay filter on samples of smooth functions.
-/
namespace Verif.Spec

open Set

/-- `F 0` has the derivatives `F 1`, ..., `F p` on the interval, and the last one changes by at most `M` times the distance. -/
structure SmoothChain (a b M : ℝ) (p : Nat) (F : Nat → ℝ → ℝ) : Prop where
  deriv : ∀ k, k < p → DerivOn a b (F k) (F (k + 1))
  lip : LipOn a b M (F p)

end Verif.Spec

namespace Verif.Props

open Verif Verif.Np Verif.Model Verif.Spec Set

/-- Taylor's formula with a rough bound of the remainder. -/
theorem chain_taylor {a b M : ℝ} (hM : 0 ≤ M) : ∀ (p : Nat) (F : Nat → ℝ → ℝ), SmoothChain a b M p F → ∀ x ∈ Icc a b, ∀ y ∈ Icc a b,
    |F 0 y - ∑ k ∈ Finset.range (p + 1), F k x * (y - x) ^ k / (k.factorial : ℝ)| ≤ M * |y - x| ^ (p + 1) := by
  intro p
  induction p with
  | zero =>
    intro F hF x hx y hy
    have := hF.lip x hx y hy
    simpa using this
  | succ p ih =>
    intro F hF x hx y hy
    have hF1 : SmoothChain a b M p (fun k => F (k + 1)) := ⟨fun k hk => hF.deriv (k + 1) (by omega), hF.lip⟩
    have hsub : uIcc x y ⊆ Icc a b := by
      intro s hs
      rcases le_total x y with h | h
      · rw [uIcc_of_le h] at hs; exact ⟨hx.1.trans hs.1, hs.2.trans hy.2⟩
      · rw [uIcc_of_ge h] at hs; exact ⟨hy.1.trans hs.1, hs.2.trans hx.2⟩
    have hder : ∀ s ∈ uIcc x y, HasDerivWithinAt (fun s => F 0 s - ∑ k ∈ Finset.range (p + 1 + 1), F k x * (s - x) ^ k / (k.factorial : ℝ))
        (F 1 s - ∑ k ∈ Finset.range (p + 1), F (k + 1) x * (s - x) ^ k / (k.factorial : ℝ)) (uIcc x y) s := by
      intro s hs
      have h0 := (hF.deriv 0 (by omega) s (hsub hs)).mono hsub
      refine h0.sub ?_
      apply HasDerivAt.hasDerivWithinAt
      have h1 : ∀ k ∈ Finset.range (p + 1 + 1), HasDerivAt (fun s => F k x * (s - x) ^ k / (k.factorial : ℝ))
          (F k x * (k * (s - x) ^ (k - 1)) / (k.factorial : ℝ)) s := by
        intro k _
        have := (((hasDerivAt_id s).sub_const x).pow k).const_mul (F k x)
        have := this.div_const (k.factorial : ℝ)
        simpa using this
      have h2 := HasDerivAt.fun_sum h1
      refine h2.congr_deriv ?_
      rw [Finset.sum_range_succ']
      simp only [Nat.cast_zero, zero_mul, mul_zero, zero_div, add_zero, Nat.add_sub_cancel]
      apply Finset.sum_congr rfl
      intro k _
      rw [Nat.factorial_succ]
      have : ((k + 1 : ℕ) : ℝ) ≠ 0 := by exact_mod_cast Nat.succ_ne_zero k
      have : (k.factorial : ℝ) ≠ 0 := by exact_mod_cast Nat.factorial_ne_zero k
      push_cast
      push_cast at *
      field_simp
    have hbd : ∀ s ∈ uIcc x y, ‖F 1 s - ∑ k ∈ Finset.range (p + 1), F (k + 1) x * (s - x) ^ k / (k.factorial : ℝ)‖ ≤ M * |y - x| ^ (p + 1) := by
      intro s hs
      have := ih _ hF1 x hx s (hsub hs)
      refine this.trans (mul_le_mul_of_nonneg_left (pow_le_pow_left₀ (abs_nonneg _) ?_ _) hM)
      exact abs_sub_left_of_mem_uIcc hs
    have := (convex_uIcc x y).norm_image_sub_le_of_norm_hasDerivWithin_le hder hbd left_mem_uIcc right_mem_uIcc
    have e0 : F 0 x - ∑ k ∈ Finset.range (p + 1 + 1), F k x * (x - x) ^ k / (k.factorial : ℝ) = 0 := by
      rw [Finset.sum_range_succ']
      simp
    rw [e0, sub_zero, Real.norm_eq_abs, Real.norm_eq_abs] at this
    rw [pow_succ, ← mul_assoc]
    exact this

/-- The polynomial with the given derivatives at `i`. -/
theorem chain_poly (p : Nat) (i : ℝ) (u : Nat → ℝ) : ∃ q : Polynomial ℝ, q.natDegree ≤ p ∧
    (∀ t, q.eval t = ∑ k ∈ Finset.range (p + 1), u k * (t - i) ^ k / (k.factorial : ℝ)) ∧
    ∀ d, d ≤ p → ((Polynomial.derivative^[d]) q).eval i = u d := by
  obtain ⟨f, hf⟩ : ∃ f : Polynomial ℝ, f = ∑ k ∈ Finset.range (p + 1), Polynomial.monomial k (u k / (k.factorial : ℝ)) := ⟨_, rfl⟩
  have hdeg : f.natDegree ≤ p := by
    rw [hf]
    apply Polynomial.natDegree_sum_le_of_forall_le
    intro k hk
    exact (Polynomial.natDegree_monomial_le _).trans (Nat.lt_succ_iff.1 (Finset.mem_range.1 hk))
  refine ⟨Polynomial.taylor (-i) f, by rw [Polynomial.natDegree_taylor]; exact hdeg, ?_, ?_⟩
  · intro t
    rw [Polynomial.taylor_eval, hf, Polynomial.eval_finset_sum]
    apply Finset.sum_congr rfl
    intro k _
    rw [Polynomial.eval_monomial, sub_eq_add_neg]
    ring
  · intro d hd
    have h1 : (Polynomial.taylor i (Polynomial.taylor (-i) f)).coeff d = u d / (d.factorial : ℝ) := by
      rw [Polynomial.taylor_taylor, add_neg_cancel, Polynomial.taylor_zero, hf, Polynomial.finset_sum_coeff]
      simp only [Polynomial.coeff_monomial]
      rw [Finset.sum_ite_eq' (Finset.range (p + 1)) d, if_pos (Finset.mem_range.2 (by omega))]
    rw [Polynomial.taylor_coeff] at h1
    have h2 := congrArg (fun g : Polynomial ℝ => g.eval i) (congrFun (Polynomial.factorial_smul_hasseDeriv (R := ℝ) d) (Polynomial.taylor (-i) f))
    have h3 : ((d.factorial • Polynomial.hasseDeriv d : Polynomial ℝ →ₗ[ℝ] Polynomial ℝ) (Polynomial.taylor (-i) f)).eval i =
        (d.factorial : ℝ) * (Polynomial.hasseDeriv d (Polynomial.taylor (-i) f)).eval i := by
      rw [LinearMap.smul_apply, Polynomial.eval_smul, nsmul_eq_mul]
    refine h2.symm.trans (h3.trans ?_)
    rw [h1]
    have : (d.factorial : ℝ) ≠ 0 := by exact_mod_cast Nat.factorial_ne_zero d
    field_simp

/-- The best polynomial of small values is small, and its derivatives in the window too. -/
theorem bestFit_bound {po wl : Nat} (hpo : po < wl) (d : Nat) : ∃ K : ℝ, 0 ≤ K ∧ ∀ (a : ℤ) (z : ℤ → ℝ) (Z : ℝ) (P : Polynomial ℝ),
    BestFit po a wl z P → (∀ k : Nat, k < wl → |z (a + k)| ≤ Z) → ∀ s : Nat, s < wl → |((Polynomial.derivative^[d]) P).eval ((a : ℝ) + s)| ≤ K * Z := by
  obtain ⟨L, hL⟩ : ∃ L : Nat → Nat → ℝ, L = fun (k s : Nat) =>
    ((Polynomial.derivative^[d]) (Lagrange.basis (Finset.range wl) (fun k : Nat => (k : ℝ)) k)).eval (s : ℝ) := ⟨_, rfl⟩
  refine ⟨(1 + wl) * ∑ s ∈ Finset.range wl, ∑ k ∈ Finset.range wl, |L k s|, by positivity, ?_⟩
  intro a z Z P hP hz s hs
  have hZ : 0 ≤ Z := (abs_nonneg _).trans (hz 0 (by omega))
  obtain ⟨Q, hQ⟩ : ∃ Q, Q = Polynomial.taylor (a : ℝ) P := ⟨_, rfl⟩
  have hQe : ∀ k : Nat, Q.eval (k : ℝ) = P.eval ((a : ℝ) + k) := fun k => by rw [hQ, Polynomial.taylor_eval, add_comm]
  have hval : ∀ k, k < wl → |Q.eval (k : ℝ)| ≤ (1 + wl) * Z := by
    intro k hk
    have h1 : (P.eval ((a : ℝ) + k) - z (a + k)) ^ 2 ≤ fitErr a wl z P :=
      Finset.single_le_sum (f := fun k : Nat => (P.eval ((a : ℝ) + k) - z (a + k)) ^ 2) (fun _ _ => sq_nonneg _) (Finset.mem_range.2 hk)
    have h2 := hP.best 0 (by simp)
    have h3 : fitErr a wl z 0 ≤ wl * Z ^ 2 := by
      unfold fitErr
      have : ∀ k ∈ Finset.range wl, ((0 : Polynomial ℝ).eval ((a : ℝ) + (k : ℕ)) - z (a + k)) ^ 2 ≤ Z ^ 2 := by
        intro k hk
        rw [Polynomial.eval_zero, zero_sub, neg_sq]
        exact sq_le_sq' (by linarith [neg_abs_le (z (a + k)), hz k (Finset.mem_range.1 hk)]) ((le_abs_self _).trans (hz k (Finset.mem_range.1 hk)))
      refine (Finset.sum_le_sum this).trans ?_
      simp
    have hwl : (1 : ℝ) ≤ wl := by exact_mod_cast (by omega : 1 ≤ wl)
    have h4 : (P.eval ((a : ℝ) + k) - z (a + k)) ^ 2 ≤ (wl * Z) ^ 2 := by
      refine h1.trans (h2.trans (h3.trans ?_))
      rw [mul_pow]
      exact mul_le_mul_of_nonneg_right (by nlinarith) (sq_nonneg Z)
    have h5 := abs_le_of_sq_le_sq h4 (by positivity)
    rw [hQe]
    have h6 := hz k hk
    have := abs_add_le (P.eval ((a : ℝ) + k) - z (a + k)) (z (a + k))
    rw [sub_add_cancel] at this
    have h7 : |P.eval ((a : ℝ) + k) - z (a + k)| ≤ wl * Z := h5
    linarith
  have hinj : Set.InjOn (fun k : Nat => (k : ℝ)) (Finset.range wl) := fun x _ y _ h => by simpa using h
  have hdeg : Q.degree < (Finset.range wl).card := by
    rw [Finset.card_range, hQ]
    refine (Polynomial.degree_le_natDegree).trans_lt ?_
    rw [Polynomial.natDegree_taylor]
    exact_mod_cast lt_of_le_of_lt hP.deg hpo
  have hint := Lagrange.eq_interpolate hinj hdeg
  have hder : ((Polynomial.derivative^[d]) P).eval ((a : ℝ) + s) = ((Polynomial.derivative^[d]) Q).eval (s : ℝ) := by
    have : (Polynomial.derivative^[d]) Q = Polynomial.taylor (a : ℝ) ((Polynomial.derivative^[d]) P) := by
      rw [hQ, Polynomial.taylor_apply, Polynomial.taylor_apply]
      exact iter_derivative_comp P a d
    rw [this, Polynomial.taylor_eval, add_comm]
  have hsum : ((Polynomial.derivative^[d]) Q).eval (s : ℝ) = ∑ k ∈ Finset.range wl, Q.eval (k : ℝ) * L k s := by
    nth_rewrite 1 [hint]
    rw [Lagrange.interpolate_apply, Polynomial.iterate_derivative_sum, Polynomial.eval_finset_sum]
    apply Finset.sum_congr rfl
    intro k _
    rw [Polynomial.iterate_derivative_C_mul, Polynomial.eval_mul, Polynomial.eval_C, hL]
  rw [hder, hsum]
  refine (Finset.abs_sum_le_sum_abs _ _).trans ?_
  have h8 : ∑ k ∈ Finset.range wl, |Q.eval (k : ℝ) * L k s| ≤ ∑ k ∈ Finset.range wl, (1 + wl) * Z * |L k s| := by
    apply Finset.sum_le_sum
    intro k hk
    rw [abs_mul]
    exact mul_le_mul_of_nonneg_right (hval k (Finset.mem_range.1 hk)) (abs_nonneg _)
  refine h8.trans ?_
  rw [← Finset.mul_sum]
  have h9 : ∑ k ∈ Finset.range wl, |L k s| ≤ ∑ s ∈ Finset.range wl, ∑ k ∈ Finset.range wl, |L k s| :=
    Finset.single_le_sum (f := fun s => ∑ k ∈ Finset.range wl, |L k s|) (fun _ _ => Finset.sum_nonneg fun _ _ => abs_nonneg _) (Finset.mem_range.2 hs)
  calc (1 + (wl : ℝ)) * Z * ∑ k ∈ Finset.range wl, |L k s| ≤ (1 + (wl : ℝ)) * Z * ∑ s ∈ Finset.range wl, ∑ k ∈ Finset.range wl, |L k s| :=
        mul_le_mul_of_nonneg_left h9 (by positivity)
    _ = _ := by ring

/-- Fitting commutes with subtracting a polynomial. -/
theorem bestFit_sub {po wl : Nat} {a : ℤ} {z : ℤ → ℝ} {P q : Polynomial ℝ} (h : BestFit po a wl z P) (hq : q.natDegree ≤ po) :
    BestFit po a wl (fun i => z i - q.eval (i : ℝ)) (P - q) := by
  have e : ∀ Q : Polynomial ℝ, fitErr a wl (fun i => z i - q.eval (i : ℝ)) Q = fitErr a wl z (Q + q) := by
    intro Q
    unfold fitErr
    apply Finset.sum_congr rfl
    intro k _
    simp only [Polynomial.eval_add]
    push_cast
    ring
  refine ⟨(Polynomial.natDegree_sub_le _ _).trans (max_le h.deg hq), fun Q hQ => ?_⟩
  rw [e, e, sub_add_cancel]
  exact h.best _ ((Polynomial.natDegree_add_le _ _).trans (max_le hQ hq))

/-- A window of samples: the derivative of the best polynomial is that of the function. -/
theorem bestFit_samples {po wl : Nat} (hpo : po < wl) (d : Nat) (hd : d ≤ po) : ∃ K : ℝ, 0 ≤ K ∧
    ∀ {a b M o h : ℝ} {F : Nat → ℝ → ℝ}, 0 ≤ M → SmoothChain a b M po F → ∀ (s : ℤ) (i : Nat), i < wl →
      (∀ k : Nat, k < wl → o + ((s : ℝ) + k) * h ∈ Icc a b) → ∀ (z : ℤ → ℝ) (P : Polynomial ℝ), BestFit po s wl z P →
        (∀ k : Nat, k < wl → z (s + k) = F 0 (o + ((s : ℝ) + k) * h)) →
          |((Polynomial.derivative^[d]) P).eval ((s : ℝ) + i) - h ^ d * F d (o + ((s : ℝ) + i) * h)| ≤ K * M * |h| ^ (po + 1) := by
  obtain ⟨K, hK, hb⟩ := bestFit_bound hpo d
  refine ⟨K * (wl : ℝ) ^ (po + 1), by positivity, ?_⟩
  intro a b M o h F hM hF s i hi hin z P hP hz
  obtain ⟨x, hx⟩ : ∃ x, x = o + ((s : ℝ) + i) * h := ⟨_, rfl⟩
  obtain ⟨q, q1, q2, q3⟩ := chain_poly po ((s : ℝ) + i) (fun k => h ^ k * F k x)
  have hxin : x ∈ Icc a b := hx ▸ hin i hi
  have hsmall : ∀ k : Nat, k < wl → |(fun t : ℤ => z t - q.eval (t : ℝ)) (s + k)| ≤ M * ((wl : ℝ) * |h|) ^ (po + 1) := by
    intro k hk
    have ht := chain_taylor hM po F hF x hxin _ (hin k hk)
    have hy : o + ((s : ℝ) + k) * h - x = ((k : ℝ) - i) * h := by rw [hx]; ring
    rw [hy] at ht
    simp only
    rw [hz k hk, q2]
    have e : ∑ m ∈ Finset.range (po + 1), h ^ m * F m x * (((s + (k : ℤ) : ℤ) : ℝ) - ((s : ℝ) + i)) ^ m / (m.factorial : ℝ) =
        ∑ m ∈ Finset.range (po + 1), F m x * (((k : ℝ) - i) * h) ^ m / (m.factorial : ℝ) := by
      apply Finset.sum_congr rfl
      intro m _
      push_cast
      rw [mul_pow, show (s : ℝ) + k - (s + i) = (k : ℝ) - i by ring]
      ring
    rw [e]
    refine ht.trans (mul_le_mul_of_nonneg_left (pow_le_pow_left₀ (abs_nonneg _) ?_ _) hM)
    rw [abs_mul]
    refine mul_le_mul_of_nonneg_right ?_ (abs_nonneg _)
    have a1 : (k : ℝ) ≤ wl := by exact_mod_cast hk.le
    have a2 : (i : ℝ) ≤ wl := by exact_mod_cast hi.le
    have a3 : (0 : ℝ) ≤ k := Nat.cast_nonneg k
    have a4 : (0 : ℝ) ≤ i := Nat.cast_nonneg i
    rw [abs_le]
    constructor <;> linarith
  have := hb s _ _ _ (bestFit_sub hP q1) hsmall i hi
  rw [Polynomial.iterate_derivative_sub, Polynomial.eval_sub, q3 d hd] at this
  rw [← hx]
  refine this.trans (le_of_eq ?_)
  rw [mul_pow]
  ring

/-- Column `j` of the curve: the values of `F 0` at the step `h` from `o` on. -/
structure ColumnOf (c : Curve ℝ) (j : Nat) (a b o h : ℝ) (f : ℝ → ℝ) : Prop where
  range : ∀ i : Nat, i < c.size → o + i * h ∈ Icc a b
  vals : ∀ i : Nat, i < c.size → at2 c.rows i j = f (o + i * h)

theorem scaled_error {x y u h δ E : ℝ} {d : Nat} (hδ : δ ≠ 0 ∨ d = 0) (h1 : x = y / δ ^ d) (h2 : |y - h ^ d * u| ≤ E) :
    |x - (h / δ) ^ d * u| ≤ E / |δ| ^ d := by
  have hne : δ ^ d ≠ 0 := by
    rcases hδ with h | h
    · exact pow_ne_zero _ h
    · rw [h]; simp
  rw [h1, div_pow, show y / δ ^ d - h ^ d / δ ^ d * u = (y - h ^ d * u) / δ ^ d by ring, abs_div, abs_pow]
  exact div_le_div_of_nonneg_right h2 (by positivity)

/-- **C147 (mode interp).** For every odd window length `wl`, order `po < wl` and derivative `d ≤ po` there is a number `K` such that for all
curves with at least `wl` points: if column `j` has the values of a function at the step `h`, and derivative number `po` of the function changes
by at most `M` times the distance, then column `j` of the result of savgol with mode `interp` is derivative number `d` of the function at
every point, the ends included, up to `K M |h|^(po + 1)`, both divided by `(delta / h)^d` and `delta^d`. -/
theorem C147_interp {lib : LsqLib} (hl : MinNormOk lib) {r : Reg SmoothFn} {name : String} (hf : getSmooth r name = .ok (savgolFn lib))
    {wl po d : Nat} (hpo : po < wl) (hodd : wl % 2 = 1) (hd : d ≤ po) :
    ∃ K : ℝ, 0 ≤ K ∧ ∀ {c : Curve ℝ} {delta : ℝ} (_ : WF c) (_ : wl ≤ c.size) (_ : delta ≠ 0 ∨ d = 0) (cv : ℝ),
      ∃ c', (finCurve c).smooth r name (.savgol ⟨wl, po, d, delta, "interp", cv⟩) = .ok (finCurve c') ∧ c'.size = c.size ∧ c'.ncols = c.ncols ∧
        ∀ {a b M o h : ℝ} {F : Nat → ℝ → ℝ} {j : Nat}, 0 ≤ M → SmoothChain a b M po F → j < c.ncols → ColumnOf c j a b o h (F 0) →
          ∀ i, i < c.size → |at2 c'.rows i j - (h / delta) ^ d * F d (o + i * h)| ≤ K * M * |h| ^ (po + 1) / |delta| ^ d := by
  obtain ⟨K, hK, hb⟩ := bestFit_samples hpo d hd
  refine ⟨K, hK, ?_⟩
  intro c delta hc hwl hdel cv
  obtain ⟨c', g1, _, g2, g3, _, _, g4⟩ := C101_interp hl hf hpo hodd d hdel hc hwl cv
  refine ⟨c', g1, g2, g3, ?_⟩
  intro a b M o h F j hM hF hj hcol i hi
  obtain ⟨s, hs1, hs2, hs3, hs4⟩ : ∃ s : Nat, s + wl ≤ c.size ∧
      (s + wl / 2 = i ∨ (s = 0 ∧ i < wl / 2) ∨ (s + wl = c.size ∧ c.size ≤ i + wl / 2)) ∧ s ≤ i ∧ i < s + wl := by
    by_cases h1 : i < wl / 2
    · exact ⟨0, by omega, .inr (.inl ⟨rfl, h1⟩), by omega, by omega⟩
    · by_cases h2 : c.size ≤ i + wl / 2
      · exact ⟨c.size - wl, by omega, .inr (.inr ⟨by omega, h2⟩), by omega, by omega⟩
      · exact ⟨i - wl / 2, by omega, .inl (by omega), by omega, by omega⟩
  obtain ⟨P, hP⟩ := bestFit_exists po s wl (fun q => at2 c.rows q.toNat j)
  have hres := g4 i j s hi hj hs1 hs2 P hP
  have hpos : ∀ k : Nat, o + (((s : ℤ) : ℝ) + k) * h = o + ((s + k : ℕ) : ℝ) * h := fun k => by push_cast; ring
  have hbb := hb hM hF (s : ℤ) (i - s) (by omega) (o := o) (h := h) (fun k hk => by rw [hpos]; exact hcol.range (s + k) (by omega)) _ P hP
    (fun k hk => by
      rw [hpos, ← hcol.vals (s + k) (by omega)]
      congr 1)
  rw [hpos, show s + (i - s) = i by omega] at hbb
  have hev : ((s : ℤ) : ℝ) + ((i - s : ℕ) : ℝ) = (i : ℝ) := by
    rw [Nat.cast_sub hs3]; push_cast; ring
  rw [hev] at hbb
  exact scaled_error hdel hres hbb

/-- **C147 (other modes).** The same in the modes mirror, nearest, wrap and constant, for the points at least half a window away from both ends. -/
theorem C147_modes {lib : LsqLib} (hl : MinNormOk lib) {r : Reg SmoothFn} {name : String} (hf : getSmooth r name = .ok (savgolFn lib))
    {wl po d : Nat} (hpo : po < wl) (hodd : wl % 2 = 1) (hd : d ≤ po) :
    ∃ K : ℝ, 0 ≤ K ∧ ∀ {c : Curve ℝ} {delta : ℝ} (_ : WF c) (_ : c.rows ≠ []) (_ : delta ≠ 0 ∨ d = 0) {mode : String} (_ : BoundaryMode mode)
      (_ : mode ≠ "reflect") (cv : ℝ),
      ∃ c', (finCurve c).smooth r name (.savgol ⟨wl, po, d, delta, mode, cv⟩) = .ok (finCurve c') ∧ c'.size = c.size ∧ c'.ncols = c.ncols ∧
        ∀ {a b M o h : ℝ} {F : Nat → ℝ → ℝ} {j : Nat}, 0 ≤ M → SmoothChain a b M po F → j < c.ncols → ColumnOf c j a b o h (F 0) →
          ∀ i, wl / 2 ≤ i → i + wl / 2 < c.size →
            |at2 c'.rows i j - (h / delta) ^ d * F d (o + i * h)| ≤ K * M * |h| ^ (po + 1) / |delta| ^ d := by
  obtain ⟨K, hK, hb⟩ := bestFit_samples hpo d hd
  refine ⟨K, hK, ?_⟩
  intro c delta hc hne hdel mode hmode hrf cv
  have hn : 0 < c.size := List.length_pos_iff.2 hne
  choose e he using fun j => C100_continuation hmode hn cv (fun q => at2 c.rows q j)
  obtain ⟨c', g1, _, g2, g3, _, _, g4⟩ := C101_modes hl hf hpo hodd d hdel hc hne hmode hrf cv (e := e) (fun j _ => (he j).1)
  refine ⟨c', g1, g2, g3, ?_⟩
  intro a b M o h F j hM hF hj hcol i hi1 hi2
  obtain ⟨s, rfl⟩ : ∃ s, i = s + wl / 2 := ⟨i - wl / 2, by omega⟩
  obtain ⟨P, hP⟩ := bestFit_exists po s wl (e j)
  have hres := g4 (s + wl / 2) j (by omega) hj P (by
    rw [show ((s + wl / 2 : ℕ) : ℤ) - ((wl / 2 : ℕ) : ℤ) = (s : ℤ) by push_cast; ring]
    exact hP)
  have hpos : ∀ k : Nat, o + (((s : ℤ) : ℝ) + k) * h = o + ((s + k : ℕ) : ℝ) * h := fun k => by push_cast; ring
  have hbb := hb hM hF (s : ℤ) (wl / 2) (by omega) (o := o) (h := h) (fun k hk => by rw [hpos]; exact hcol.range (s + k) (by omega)) _ P hP
    (fun k hk => by
      rw [hpos, ← hcol.vals (s + k) (by omega)]
      exact (he j).1.inside (s + k) (by omega))
  rw [hpos] at hbb
  have hev : ((s : ℤ) : ℝ) + ((wl / 2 : ℕ) : ℝ) = ((s + wl / 2 : ℕ) : ℝ) := by push_cast; ring
  rw [hev] at hbb
  exact scaled_error hdel hres hbb

/-- **C147 (differentiation).** With `delta` the step of the samples the result is derivative number `d`, up to `K M |h|^(po + 1 - d)`: the error
tends to 0 with the step. -/
theorem C147_derivative {lib : LsqLib} (hl : MinNormOk lib) {r : Reg SmoothFn} {name : String} (hf : getSmooth r name = .ok (savgolFn lib))
    {wl po d : Nat} (hpo : po < wl) (hodd : wl % 2 = 1) (hd : d ≤ po) :
    ∃ K : ℝ, 0 ≤ K ∧ ∀ {c : Curve ℝ} {h : ℝ} (_ : WF c) (_ : wl ≤ c.size) (_ : h ≠ 0) (cv : ℝ),
      ∃ c', (finCurve c).smooth r name (.savgol ⟨wl, po, d, h, "interp", cv⟩) = .ok (finCurve c') ∧ c'.size = c.size ∧ c'.ncols = c.ncols ∧
        ∀ {a b M o : ℝ} {F : Nat → ℝ → ℝ} {j : Nat}, 0 ≤ M → SmoothChain a b M po F → j < c.ncols → ColumnOf c j a b o h (F 0) →
          ∀ i, i < c.size → |at2 c'.rows i j - F d (o + i * h)| ≤ K * M * |h| ^ (po + 1 - d) := by
  obtain ⟨K, hK, hb⟩ := C147_interp hl hf hpo hodd hd
  refine ⟨K, hK, ?_⟩
  intro c h hc hwl hh cv
  obtain ⟨c', g1, g2, g3, g4⟩ := hb hc hwl (.inl hh) cv
  refine ⟨c', g1, g2, g3, ?_⟩
  intro a b M o F j hM hF hj hcol i hi
  have := g4 hM hF hj hcol i hi
  rw [div_self hh, one_pow, one_mul] at this
  refine this.trans (le_of_eq ?_)
  have hne : |h| ^ d ≠ 0 := pow_ne_zero _ (abs_ne_zero.2 hh)
  rw [div_eq_iff hne, mul_assoc (K * M), ← pow_add, show po + 1 - d + d = po + 1 by omega]

/-! ## The hypotheses are met -/

/-- The cubic function `t ↦ t³` and its derivatives. -/
def cubeChain : Nat → ℝ → ℝ
  | 0 => fun t => t ^ 3
  | 1 => fun t => 3 * t ^ 2
  | 2 => fun t => 6 * t
  | _ => fun _ => 6

/-- C147: a cubic with an order of 2. -/
example : SmoothChain 0 4 6 2 cubeChain := by
  refine ⟨?_, ?_⟩
  · intro k hk
    match k with
    | 0 =>
      intro x _
      have := (hasDerivAt_pow 3 x).hasDerivWithinAt (s := Icc 0 4)
      norm_num at this
      exact this
    | 1 =>
      intro x _
      have := ((hasDerivAt_pow 2 x).const_mul 3).hasDerivWithinAt (s := Icc 0 4)
      simp only [cubeChain]
      refine this.congr_deriv ?_
      norm_num
      ring
  · intro x _ y _
    simp only [cubeChain, Real.norm_eq_abs]
    rw [← mul_sub, abs_mul]
    norm_num

/-- C147: the second column of the samples of `(t, t³)`. -/
example : ColumnOf ⟨[[0, 0], [1, 1], [2, 8], [3, 27], [4, 64]], 2, none, .float⟩ 1 0 4 0 1 (cubeChain 0) := by
  constructor
  · intro i hi
    have hi : i < 5 := hi
    have h1 : (i : ℝ) ≤ 4 := by exact_mod_cast (by omega : i ≤ 4)
    have h2 : (0 : ℝ) ≤ i := Nat.cast_nonneg i
    constructor <;> linarith
  · intro i hi
    have hi : i < 5 := hi
    interval_cases i <;> norm_num [at2, cubeChain]

end Verif.Props
