import Verif.Props.Bending
import Verif.Lemmas.SplineEnds

/-!
C133: cubic interpolation with a boundary condition for each end (`bc_type` a pair).
-/
namespace Verif.Props

open Verif Verif.Np Verif.Model Verif.Spec

/-- Documented entries are accepted. -/
theorem validate_documented {k : Nat} {e : BcEnd} (h : Documented k e) : ∃ w, e.validate k = .ok w ∧
    (e = .str "natural" ∧ w = .bend (List.replicate k 0) ∨ e = .str "clamped" ∧ w = .slope (List.replicate k 0) ∨
      e = .str "not-a-knot" ∧ w = .knot ∨ (∃ vs, e = .deriv 1 vs ∧ w = .slope vs ∧ vs.length = k) ∨
      ∃ vs, e = .deriv 2 vs ∧ w = .bend vs ∧ vs.length = k) := by
  rcases h with rfl | rfl | rfl | ⟨o, vs, rfl, rfl | rfl, hl⟩
  · exact ⟨_, by simp [BcEnd.validate], .inl ⟨rfl, rfl⟩⟩
  · exact ⟨_, by simp [BcEnd.validate], .inr (.inl ⟨rfl, rfl⟩)⟩
  · exact ⟨_, by simp [BcEnd.validate], .inr (.inr (.inl ⟨rfl, rfl⟩))⟩
  · exact ⟨_, by simp [BcEnd.validate, hl], .inr (.inr (.inr (.inl ⟨vs, rfl, rfl, hl⟩)))⟩
  · exact ⟨_, by simp [BcEnd.validate, hl], .inr (.inr (.inr (.inr ⟨vs, rfl, rfl, hl⟩)))⟩

/-- Other entries are not. -/
theorem validate_other {k : Nat} {e : BcEnd} (h : ¬ Documented k e) : e.validate k = .error .valueError := by
  unfold Documented at h
  cases e with
  | str s =>
    simp only [BcEnd.str.injEq, reduceCtorEq, false_and, exists_const, or_false, not_or] at h
    simp [BcEnd.validate, h.1, h.2.1, h.2.2]
  | deriv o vs =>
    simp only [reduceCtorEq, false_or, BcEnd.deriv.injEq, not_exists, not_and] at h
    have := h o vs ⟨rfl, rfl⟩
    simp only [BcEnd.validate]
    rw [if_neg (fun hc => this (.inl hc.1) hc.2), if_neg (fun hc => this (.inr hc.1) hc.2)]
  | scalar o v => rfl

theorem replicate_getD_zero (k j : Nat) : (List.replicate k (0 : ℝ)).getD j 0 = 0 := by
  by_cases h : j < k <;> simp [List.getD, h]

/-- What an entry demands, from what its validated form demands. -/
theorem meetsEnd_of {k n j : Nat} {e : BcEnd} (he : Documented k e) {w : EndCond} (hw : e.validate k = .ok w)
    {P P' : Polynomial ℝ} {u s : ℝ} (h1 : ∀ v, w = .slope v → P.derivative.eval u = v.getD j 0)
    (h2 : ∀ v, w = .bend v → P.derivative.derivative.eval u = v.getD j 0)
    (h3 : w = .knot → (3 ≤ n → P = P') ∧ (n = 2 → P.derivative.eval u = s)) : MeetsEnd e n j P P' u s := by
  obtain ⟨w', hw', hcase⟩ := validate_documented he
  rw [hw] at hw'
  obtain rfl := Except.ok.inj hw'
  rcases hcase with ⟨rfl, rfl⟩ | ⟨rfl, rfl⟩ | ⟨rfl, rfl⟩ | ⟨vs, rfl, rfl, hl⟩ | ⟨vs, rfl, rfl, hl⟩
  · have := h2 _ rfl
    rw [replicate_getD_zero] at this
    exact ⟨fun _ => this, by simp, by simp, by simp, by simp, by simp⟩
  · have := h1 _ rfl
    rw [replicate_getD_zero] at this
    exact ⟨by simp, fun _ => this, by simp, by simp, by simp, by simp⟩
  · have := h3 rfl
    exact ⟨by simp, by simp, fun _ => this.1, fun _ => this.2, by simp, by simp⟩
  · have := h1 _ rfl
    refine ⟨by simp, by simp, by simp, by simp, ?_, by simp⟩
    rintro vs' v he hv
    obtain ⟨_, rfl⟩ := BcEnd.deriv.inj he
    rw [this]; simp [List.getD, hv]
  · have := h2 _ rfl
    refine ⟨by simp, by simp, by simp, by simp, by simp, ?_⟩
    rintro vs' v he hv
    obtain ⟨_, rfl⟩ := BcEnd.deriv.inj he
    rw [this]; simp [List.getD, hv]

/-- The validated form of an entry that a polynomial fits. -/
theorem fitsEnd_to {k j : Nat} (hj : j < k) {e : BcEnd} (he : Documented k e) {w : EndCond} (hw : e.validate k = .ok w)
    {Q : Polynomial ℝ} {u : ℝ} (h : FitsEnd e j Q u) : (∀ v, w = .slope v → Q.derivative.eval u = v.getD j 0) ∧
    (∀ v, w = .bend v → Q.derivative.derivative.eval u = v.getD j 0) ∧ (w = .knot → e = .str "not-a-knot") := by
  obtain ⟨w', hw', hcase⟩ := validate_documented he
  rw [hw] at hw'
  obtain rfl := Except.ok.inj hw'
  rcases hcase with ⟨rfl, rfl⟩ | ⟨rfl, rfl⟩ | ⟨rfl, rfl⟩ | ⟨vs, rfl, rfl, hl⟩ | ⟨vs, rfl, rfl, hl⟩
  · refine ⟨by simp, ?_, by simp⟩
    intro v hv
    obtain rfl := EndCond.bend.inj hv
    rw [replicate_getD_zero]; exact h.natural rfl
  · refine ⟨?_, by simp, by simp⟩
    intro v hv
    obtain rfl := EndCond.slope.inj hv
    rw [replicate_getD_zero]; exact h.clamped rfl
  · simp
  · refine ⟨?_, by simp, by simp⟩
    intro v hv
    obtain rfl := EndCond.slope.inj hv
    have hj' : j < vs.length := by omega
    rw [h.first vs vs[j] rfl (by simp [hj'])]; simp [List.getD, hj']
  · refine ⟨by simp, ?_, by simp⟩
    intro v hv
    obtain rfl := EndCond.bend.inj hv
    have hj' : j < vs.length := by omega
    rw [h.second vs vs[j] rfl (by simp [hj'])]; simp [List.getD, hj']

/-- `cubic` with a pair of boundary conditions. -/
theorem cubic_pair {c : Curve ℝ} (hc : WF c) (hs : 2 ≤ c.size) {junk : ℝ} (ht : (c.t junk).Pairwise (· < ·)) (lib : SplineLib)
    {a b : BcEnd} {wa wb : EndCond} (ha : a.validate c.ncols = .ok wa) (hb : b.validate c.ncols = .ok wb) {d : NMat}
    (hd : lib.cubicEnds wa wb (c.t junk) c.mat = .ok d) :
    withKw pickCubic (cubicCons lib junk) c ⟨[("bc_type", .tup [a, b])]⟩ = .ok (PPoly.impl ⟨c.t junk, c.mat, d, .yes⟩) := by
  have e : pickCubic ⟨[("bc_type", .tup [a, b])]⟩ = some ⟨"", none, some [a, b]⟩ := rfl
  have ha' : a.validate c.mat.k = .ok wa := ha
  have hb' : b.validate c.mat.k = .ok wb := hb
  unfold withKw cubicCons cubicHermite
  rw [e]
  simp only [knotsOk_curve hc hs ht, endSlopes, ha', hb', hd, bind, Except.bind]
  rfl

/-- The slopes of a polynomial solve the system of its values. -/
theorem ends_system_of_poly {n : Nat} (hn : 2 ≤ n) {x : Nat → ℝ} (hx : ∀ i, i + 1 < n → x i < x (i + 1)) {Q : Polynomial ℝ}
    (h3 : Q.natDegree ≤ 3) {a b : EndCond} {j : Nat} (ha1 : ∀ v, a = .slope v → Q.derivative.eval (x 0) = v.getD j 0)
    (ha2 : ∀ v, a = .bend v → Q.derivative.derivative.eval (x 0) = v.getD j 0)
    (hb1 : ∀ v, b = .slope v → Q.derivative.eval (x (n - 1)) = v.getD j 0)
    (hb2 : ∀ v, b = .bend v → Q.derivative.derivative.eval (x (n - 1)) = v.getD j 0)
    (hboth : a = .knot → b = .knot → Q.natDegree < n) (hone : a = .knot ∨ b = .knot → n = 2 → Q.natDegree ≤ 1) :
    EndsSystem n x (fun i => Q.eval (x i)) j a b (fun i => Q.derivative.eval (x i)) := by
  have hQ : ∀ z, Q.eval z = Q.coeff 0 + Q.coeff 1 * z + Q.coeff 2 * z ^ 2 + Q.coeff 3 * z ^ 3 := by
    intro z
    rw [Polynomial.eval_eq_sum_range' (show Q.natDegree < 4 by omega)]
    simp [Finset.sum_range_succ]
  have hQ' : ∀ z, Q.derivative.eval z = Q.coeff 1 + 2 * Q.coeff 2 * z + 3 * Q.coeff 3 * z ^ 2 := by
    intro z
    rw [Polynomial.eval_eq_sum_range' (show Q.derivative.natDegree < 3 by have := Polynomial.natDegree_derivative_le Q; omega)]
    simp [Finset.sum_range_succ, Polynomial.coeff_derivative]
    ring
  have hQ2 : ∀ z, Q.derivative.derivative.eval z = 2 * Q.coeff 2 + 6 * Q.coeff 3 * z := by
    intro z
    rw [Polynomial.eval_eq_sum_range' (show Q.derivative.derivative.natDegree < 2 by
      have := Polynomial.natDegree_derivative_le Q; have := Polynomial.natDegree_derivative_le Q.derivative; omega)]
    simp [Finset.sum_range_succ, Polynomial.coeff_derivative]
    ring
  have hsl : ∀ u v, u < v → (Q.eval v - Q.eval u) / (v - u) = Q.coeff 1 + Q.coeff 2 * (u + v) + Q.coeff 3 * (u ^ 2 + u * v + v ^ 2) := by
    intro u v huv
    have : v - u ≠ 0 := by linarith
    rw [hQ, hQ, div_eq_iff this]
    ring
  have l9 := hx (n - 2) (by omega)
  rw [show n - 2 + 1 = n - 1 by omega] at l9
  have l0 := hx 0 (by omega)
  simp only [zero_add] at l0
  refine ⟨fun g1 g2 => knot_system_of_poly hx h3 (hboth g1 g2), ?_, ?_, ?_⟩
  · intro k hk
    have l := hx k (by omega)
    have l' := hx (k + 1) (by omega)
    simp only
    rw [hsl _ _ l, hsl _ _ l', hQ', hQ', hQ']
    ring
  · intro _
    cases a with
    | slope v => exact ha1 v rfl
    | bend v =>
      simp only [startRow, startRhs]
      rw [← ha2 v rfl, hQ2, hQ, hQ, hQ', hQ']
      ring
    | knot =>
      simp only [startRow, startRhs]
      by_cases h2 : n = 2
      · have := hone (.inl rfl) h2
        have z3 : Q.coeff 3 = 0 := Polynomial.coeff_eq_zero_of_natDegree_lt (by omega)
        have z2 : Q.coeff 2 = 0 := Polynomial.coeff_eq_zero_of_natDegree_lt (by omega)
        rw [if_pos h2, if_pos h2, hsl _ _ l0, hQ', z2, z3]
        ring
      · have l' := hx 1 (by omega)
        simp only [Nat.reduceAdd] at l'
        rw [if_neg h2, if_neg h2, hsl _ _ l0, hsl _ _ l', hQ', hQ', eq_div_iff (by linarith)]
        ring
  · intro _
    cases b with
    | slope v => exact hb1 v rfl
    | bend v =>
      simp only [stopRow, stopRhs]
      rw [← hb2 v rfl, hQ2, hQ, hQ, hQ', hQ']
      ring
    | knot =>
      simp only [stopRow, stopRhs]
      by_cases h2 : n = 2
      · have := hone (.inr rfl) h2
        have z3 : Q.coeff 3 = 0 := Polynomial.coeff_eq_zero_of_natDegree_lt (by omega)
        have z2 : Q.coeff 2 = 0 := Polynomial.coeff_eq_zero_of_natDegree_lt (by omega)
        rw [if_pos h2, if_pos h2, hsl _ _ l9, hQ', z2, z3]
        ring
      · have l := hx (n - 3) (by omega)
        rw [show n - 3 + 1 = n - 2 by omega] at l
        rw [if_neg h2, if_neg h2, hsl _ _ l, hsl _ _ l9, hQ', hQ', eq_div_iff (by linarith)]
        ring

/-- The system depends on the values at the knots only. -/
theorem endsSystem_congr {n : Nat} (hn : 2 ≤ n) {x y y' d : Nat → ℝ} {j : Nat} {a b : EndCond} (hy : ∀ i, i < n → y i = y' i)
    (h : EndsSystem n x y j a b d) : EndsSystem n x y' j a b d := by
  refine ⟨?_, ?_, ?_, ?_⟩
  · intro g1 g2
    have := h.knots g1 g2
    refine ⟨?_, ?_, ?_, ?_, ?_⟩
    · intro h; have := this.two h
      rwa [hy 0 (by omega), hy 1 (by omega)] at this
    · intro h; have := this.three h
      rwa [hy 0 (by omega), hy 1 (by omega), hy 2 (by omega)] at this
    · intro k hk
      have := this.inner k hk
      rwa [hy k (by omega), hy (k + 1) (by omega), hy (k + 2) (by omega)] at this
    · intro h; have := this.first h
      rwa [hy 0 (by omega), hy 1 (by omega), hy 2 (by omega)] at this
    · intro h; have := this.last h
      rwa [hy (n - 3) (by omega), hy (n - 2) (by omega), hy (n - 1) (by omega)] at this
  · intro k hk
    have := h.inner k hk
    rwa [hy k (by omega), hy (k + 1) (by omega), hy (k + 2) (by omega)] at this
  · intro g
    rw [h.start g]
    cases a <;> simp only [startRhs]
    · rw [hy 0 (by omega), hy 1 (by omega)]
    · by_cases h2 : n = 2
      · rw [if_pos h2, if_pos h2, hy 0 (by omega), hy 1 (by omega)]
      · rw [if_neg h2, if_neg h2, hy 0 (by omega), hy 1 (by omega), hy 2 (by omega)]
  · intro g
    rw [h.stop g]
    cases b <;> simp only [stopRhs]
    · rw [hy (n - 1) (by omega), hy (n - 2) (by omega)]
    · by_cases h2 : n = 2
      · rw [if_pos h2, if_pos h2, hy (n - 1) (by omega), hy (n - 2) (by omega)]
      · rw [if_neg h2, if_neg h2, hy (n - 1) (by omega), hy (n - 2) (by omega), hy (n - 3) (by omega)]

/-- **C133.** With a pair of documented boundary conditions (and scipy's solver solving its system) cubic interpolation is evaluation of a
curve whose coordinates are piecewise cubic, twice continuously differentiable and pass through the points, and which meets the first
condition at the start and the second at the end. If the points are values of polynomials of degree at most 3 that fit both conditions, the
curve is given by these polynomials, everywhere (with not-a-knot at both ends if the degree is less than the number of points, with two
points and not-a-knot at one end if they are of degree at most 1). Dtypes that are not integer ones. -/
theorem C133_ends {c : Curve ℝ} (hc : WF c) (hs : 2 ≤ c.size) {junk : ℝ} (ht : (c.t junk).Pairwise (· < ·))
    (hd : c.dtype ≠ .int) {lib : SplineLib} (hlib : EndsOk lib) {r : KwReg} {m : String} (hr : IsCubic lib junk r m)
    {a b : BcEnd} (ha : Documented c.ncols a) (hb : Documented c.ncols b) :
    ∃ F, EvaluatesTo c (fun g => c.interpolate r g m ⟨[("bc_type", .tup [a, b])]⟩) (fun _ => True) F ∧
      (∀ j, j < c.ncols → ∃ P : Nat → Polynomial ℝ,
        CubicOn (c.t junk) (fun i => at2 c.rows i j) (fun x => coordOf j (F x)) P ∧
        (∀ u v, (c.t junk)[0]? = some u → (c.t junk)[1]? = some v →
          MeetsEnd a c.size j (P 0) (P 1) u ((at2 c.rows 1 j - at2 c.rows 0 j) / (v - u))) ∧
        (∀ u v, (c.t junk)[c.size - 2]? = some u → (c.t junk)[c.size - 1]? = some v →
          MeetsEnd b c.size j (P (c.size - 2)) (P (c.size - 3)) v ((at2 c.rows (c.size - 1) j - at2 c.rows (c.size - 2) j) / (v - u)))) ∧
      ∀ Q : Nat → Polynomial ℝ, SamplesOf c (c.t junk) Q → (∀ j, j < c.ncols → (Q j).natDegree ≤ 3 ∧
          (∀ u, (c.t junk).head? = some u → FitsEnd a j (Q j) u) ∧ (∀ v, (c.t junk).getLast? = some v → FitsEnd b j (Q j) v) ∧
          (a = .str "not-a-knot" ∧ b = .str "not-a-knot" → (Q j).natDegree < c.size) ∧
          (a = .str "not-a-knot" ∨ b = .str "not-a-knot" → c.size = 2 → (Q j).natDegree ≤ 1)) →
        ∀ j x, j < c.ncols → coordOf j (F x) = (Q j).eval x := by
  have hl := t_length hc (rows_ne_of_size hs) junk
  obtain ⟨wa, hwa, _⟩ := validate_documented ha
  obtain ⟨wb, hwb, _⟩ := validate_documented hb
  obtain ⟨d, hsol, hsys⟩ := hlib wa wb (c.t junk) c.mat (knotsOk_curve hc hs ht)
  obtain ⟨q, hq⟩ : ∃ q : PPoly, q = ⟨c.t junk, c.mat, d, .yes⟩ := ⟨_, rfl⟩
  have hxs : q.xs = c.t junk := by rw [hq]
  have hy : q.y = c.mat := by rw [hq]
  have hqd : q.d = d := by rw [hq]
  have hp : q.xs.Pairwise (· < ·) := by rw [hxs]; exact ht
  have xlt : ∀ i, i + 1 < c.size → knot q.xs i < knot q.xs (i + 1) := by
    intro i hi; exact knot_lt hp (by omega) (by rw [hxs]; omega)
  have hev := spline_eval hc hs ht hd hr (q := q) (p := ⟨[("bc_type", .tup [a, b])]⟩)
    (by rw [hq]; exact cubic_pair hc hs ht lib hwa hwb hsol) hxs hy (dom := fun _ => True) (.inl (by rw [hq]))
  have hN : ∀ j, j < c.ncols → EndsSystem c.size (knot q.xs) (fun i => q.y.v i j) j wa wb (fun i => q.d.v i j) := by
    intro j hj
    rw [hxs, hy, hqd, ← hl]
    exact hsys j hj
  have l0 := xlt 0 (by omega)
  simp only [zero_add] at l0
  have l9 := xlt (c.size - 2) (by omega)
  rw [show c.size - 2 + 1 = c.size - 1 by omega] at l9
  refine ⟨_, hev, ?_, ?_⟩
  · intro j hj
    have hS := hN j hj
    have hstart := hS.start
    have hstop := hS.stop
    refine ⟨_, cubic_pieces hc hs ht hxs hy hj (by rw [← hxs, ← hy]; exact hS.inner), ?_, ?_⟩
    · intro u v hu hv
      have e : u = knot q.xs 0 := by rw [hxs]; exact (knot_eq hu).symm
      have e' : v = knot q.xs 1 := by rw [hxs]; exact (knot_eq hv).symm
      have ey : ∀ i, at2 c.rows i j = q.y.v i j := by intro i; rw [hy]; rfl
      rw [e, e', ey, ey]
      refine meetsEnd_of ha hwa ?_ ?_ ?_
      · rintro v rfl
        unfold bcPiece
        rw [hermPoly_deriv, hermD_left]
        exact hstart (.inl (by simp))
      · rintro v rfl
        have := hstart (.inl (by simp))
        simp only [startRow, startRhs] at this
        have hne : knot q.xs 1 - knot q.xs 0 ≠ 0 := by linarith
        unfold bcPiece
        rw [hermPoly_deriv2_left l0, div_eq_iff hne]
        field_simp
        linarith
      · rintro rfl
        constructor
        · intro h3
          have l1 := xlt 1 (by omega)
          have e := hS.inner 0 (by omega)
          simp only [zero_add, Nat.reduceAdd] at l1 e
          by_cases hbk : wb = .knot
          · have K := hS.knots rfl hbk
            by_cases n3 : c.size = 3
            · obtain ⟨g1, g2⟩ := K.three n3
              exact same_cubic l0 l1 e (by rw [g1, g2]; simp)
            · refine same_cubic l0 l1 e (knot_third_first (by linarith) (by linarith) e ?_)
              rw [show knot q.xs 1 - knot q.xs 0 + (knot q.xs 2 - knot q.xs 1) = knot q.xs 2 - knot q.xs 0 by ring]
              exact K.first (by omega)
          · have := hstart (.inr hbk)
            simp only [startRow, startRhs] at this
            rw [if_neg (by omega), if_neg (by omega)] at this
            refine same_cubic l0 l1 e (knot_third_first (by linarith) (by linarith) e ?_)
            rw [show knot q.xs 1 - knot q.xs 0 + (knot q.xs 2 - knot q.xs 1) = knot q.xs 2 - knot q.xs 0 by ring]
            exact this
        · intro h2
          unfold bcPiece
          rw [hermPoly_deriv, hermD_left]
          by_cases hbk : wb = .knot
          · exact ((hS.knots rfl hbk).two h2).1
          · have := hstart (.inr hbk)
            simp only [startRow, startRhs] at this
            rwa [if_pos h2, if_pos h2] at this
    · intro u v hu hv
      have e : u = knot q.xs (c.size - 2) := by rw [hxs]; exact (knot_eq hu).symm
      have e' : v = knot q.xs (c.size - 1) := by rw [hxs]; exact (knot_eq hv).symm
      have ey : ∀ i, at2 c.rows i j = q.y.v i j := by intro i; rw [hy]; rfl
      have e1 : c.size - 2 + 1 = c.size - 1 := by omega
      rw [e, e', ey, ey]
      refine meetsEnd_of hb hwb ?_ ?_ ?_
      · rintro v rfl
        unfold bcPiece
        rw [e1, hermPoly_deriv, hermD_right l9]
        exact hstop (.inr (by simp))
      · rintro v rfl
        have := hstop (.inr (by simp))
        simp only [stopRow, stopRhs] at this
        have hne : knot q.xs (c.size - 1) - knot q.xs (c.size - 2) ≠ 0 := by linarith
        unfold bcPiece
        rw [e1, hermPoly_deriv2_right l9, div_eq_iff hne]
        field_simp
        linarith
      · rintro rfl
        constructor
        · intro h3
          have m1 := xlt (c.size - 3) (by omega)
          have e' := hS.inner (c.size - 3) (by omega)
          rw [show c.size - 3 + 1 = c.size - 2 by omega] at m1 e'
          rw [show c.size - 3 + 2 = c.size - 1 by omega] at e'
          symm
          unfold bcPiece
          rw [show c.size - 3 + 1 = c.size - 2 by omega, e1]
          by_cases hbk : wa = .knot
          · have K := hS.knots hbk rfl
            by_cases n3 : c.size = 3
            · obtain ⟨g1, g2⟩ := K.three n3
              refine same_cubic m1 l9 e' ?_
              rw [n3]
              simp only [Nat.reduceSub]
              rw [g1, g2]; simp
            · refine same_cubic m1 l9 e' (knot_third_last (by linarith) (by linarith) e' ?_)
              rw [show knot q.xs (c.size - 2) - knot q.xs (c.size - 3) + (knot q.xs (c.size - 1) - knot q.xs (c.size - 2)) =
                knot q.xs (c.size - 1) - knot q.xs (c.size - 3) by ring]
              exact K.last (by omega)
          · have := hstop (.inl hbk)
            simp only [stopRow, stopRhs] at this
            rw [if_neg (by omega), if_neg (by omega)] at this
            refine same_cubic m1 l9 e' (knot_third_last (by linarith) (by linarith) e' ?_)
            rw [show knot q.xs (c.size - 2) - knot q.xs (c.size - 3) + (knot q.xs (c.size - 1) - knot q.xs (c.size - 2)) =
              knot q.xs (c.size - 1) - knot q.xs (c.size - 3) by ring]
            exact this
        · intro h2
          unfold bcPiece
          rw [e1, hermPoly_deriv, hermD_right l9]
          by_cases hbk : wa = .knot
          · have := ((hS.knots hbk rfl).two h2).2
            rw [h2]; exact this
          · have := hstop (.inl hbk)
            simp only [stopRow, stopRhs] at this
            rwa [if_pos h2, if_pos h2] at this
  · intro Q hQ hdeg j z hj
    obtain ⟨h3, hfa, hfb, hboth, hone⟩ := hdeg j hj
    have hyv : ∀ i, i < c.size → q.y.v i j = (Q j).eval (knot q.xs i) := by
      intro i hi
      rw [hy, hxs]
      exact hQ i _ j (knot_some (by omega)) hj
    obtain ⟨a1, a2, a3⟩ := fitsEnd_to hj ha hwa (hfa (knot q.xs 0) (by rw [List.head?_eq_getElem?, hxs]; exact knot_some (by omega)))
    obtain ⟨b1, b2, b3⟩ := fitsEnd_to hj hb hwb (hfb (knot q.xs (c.size - 1)) (by
      rw [List.getLast?_eq_getElem?, hxs, hl]; exact knot_some (by omega)))
    have hsys' := ends_system_of_poly hs xlt h3 a1 a2 b1 b2 (fun g1 g2 => hboth ⟨a3 g1, b3 g2⟩) (fun g => hone (g.imp a3 b3))
    have hd' := endsSystem_unique hs xlt (endsSystem_congr hs hyv (hN j hj)) hsys'
    unfold coordOf
    rw [q.row_getD (by rw [hy]; exact hj)]
    obtain ⟨i, hi, h1, h2⟩ := exists_piece (xs := q.xs) (by rw [hxs]; omega) z
    have hi' : i + 1 < c.size := by rw [hxs] at hi; omega
    rw [PPoly.coord_on hp hi j h1 (h2.imp id le_of_lt)]
    unfold PPoly.cub
    rw [hyv i (by omega), hyv (i + 1) hi', hd' i (by omega), hd' (i + 1) hi']
    exact hermR_poly (xlt i hi') h3 z

/-! ## Pairs of equal conditions, rejected values -/

theorem pieceOf_lt (xs : List ℝ) (x : Val ℝ) (h : 2 ≤ xs.length) : pieceOf xs x + 1 < xs.length := by
  unfold pieceOf; omega

theorem impl_congr {xs : List ℝ} {y d d' : NMat} {ex : Extrap} (hl : 2 ≤ xs.length)
    (h : ∀ i j, i < xs.length → j < y.k → d.v i j = d'.v i j) : PPoly.impl ⟨xs, y, d, ex⟩ = PPoly.impl ⟨xs, y, d', ex⟩ := by
  have hp : ∀ x, PPoly.piece ⟨xs, y, d, ex⟩ x = PPoly.piece ⟨xs, y, d', ex⟩ x := by
    intro x
    have := pieceOf_lt xs x hl
    unfold PPoly.piece
    apply List.map_congr_left
    intro j hj
    have hj := List.mem_range.1 hj
    simp only
    rw [h _ j (by omega) hj, h _ j this hj]
  funext grid
  have ha : PPoly.at ⟨xs, y, d, ex⟩ = PPoly.at ⟨xs, y, d', ex⟩ := by
    funext x
    unfold PPoly.at
    simp only [hp]
  simp only [PPoly.impl, ha]

/-- **C133, strings.** A pair of equal strings means the same as the string, on every grid and for every curve. -/
theorem C133_same {c : Curve ℝ} {junk : ℝ} {lib : SplineLib} (h1 : NaturalOk lib) (h2 : BoundaryOk lib) (h3 : EndsOk lib)
    {r : KwReg} {m : String} (hr : IsCubic lib junk r m) {s : String} (hs : s = "natural" ∨ s = "clamped" ∨ s = "not-a-knot")
    (g : GridSpec) :
    c.interpolate r g m ⟨[("bc_type", .tup [.str s, .str s])]⟩ = c.interpolate r g m ⟨[("bc_type", .str s)]⟩ := by
  have e1 : pickCubic ⟨[("bc_type", .tup [.str s, .str s])]⟩ = some ⟨"", none, some [.str s, .str s]⟩ := rfl
  have e2 : pickCubic ⟨[("bc_type", .str s)]⟩ = some ⟨s, none, none⟩ := rfl
  have key : cubicCons lib junk c ⟨"", none, some [.str s, .str s]⟩ = cubicCons lib junk c ⟨s, none, none⟩ := by
    unfold cubicCons
    cases hk : knotsOk (c.t junk) c.mat.m with
    | false => simp
    | true =>
      obtain ⟨k1, k2, k3⟩ := knotsOk_iff.1 hk
      have xlt : ∀ i, i + 1 < (c.t junk).length → (c.t junk).getD i 0 < (c.t junk).getD (i + 1) 0 := by
        intro i hi; exact knot_lt k3 (show i < i + 1 by omega) hi
      have hdoc : Documented c.mat.k (.str s) := by
        rcases hs with rfl | rfl | rfl
        · exact .inl rfl
        · exact .inr (.inl rfl)
        · exact .inr (.inr (.inl rfl))
      obtain ⟨w, hw, hcase⟩ := validate_documented hdoc
      obtain ⟨d, hd, hsys⟩ := h3 w w _ _ hk
      have hper : s ≠ "periodic" := by rcases hs with rfl | rfl | rfl <;> decide
      obtain ⟨d', hd', hsys'⟩ : ∃ d', lib.cubic s (c.t junk) c.mat = .ok d' ∧ ∀ j, j < c.mat.k →
          EndsSystem (c.t junk).length (fun i => (c.t junk).getD i 0) (fun i => c.mat.v i j) j w w (fun i => d'.v i j) := by
        rcases hs with rfl | rfl | rfl
        · obtain ⟨d', g1, g2⟩ := h1 _ _ hk
          refine ⟨d', g1, fun j hj => ?_⟩
          have N := g2 j hj
          simp at hcase
          subst hcase
          refine ⟨by simp, N.inner, fun _ => ?_, fun _ => ?_⟩
          · simp only [startRow, startRhs, replicate_getD_zero]
            have := N.first
            linarith
          · simp only [stopRow, stopRhs, replicate_getD_zero]
            have := N.last
            linarith
        · obtain ⟨d', g1, g2⟩ := h2.clamped _ _ hk
          refine ⟨d', g1, fun j hj => ?_⟩
          have N := g2 j hj
          simp at hcase
          subst hcase
          refine ⟨by simp, N.inner, fun _ => ?_, fun _ => ?_⟩
          · simp only [startRow, startRhs, replicate_getD_zero]
            exact N.first
          · simp only [stopRow, stopRhs, replicate_getD_zero]
            exact N.last
        · obtain ⟨d', g1, g2⟩ := h2.knot _ _ hk
          refine ⟨d', g1, fun j hj => ?_⟩
          have N := g2 j hj
          simp at hcase
          subst hcase
          exact ⟨fun _ _ => N, N.inner, by simp, by simp⟩
      have hdd : ∀ i j, i < (c.t junk).length → j < c.mat.k → d.v i j = d'.v i j := by
        intro i j hi hj
        exact endsSystem_unique k1 xlt (hsys j hj) (hsys' j hj) i hi
      simp only [endSlopes, hw, hd, hd', bind, Except.bind, cubicHermite, hk, pure, Except.pure]
      simp [hper, impl_congr k1 hdd]
  rw [interpolate_eq hr, interpolate_eq hr]
  simp only [interpClass, withKw, e1, e2, key]

/-- **C133, other values.** A tuple that has not two entries, or an entry that is not documented (such as `'periodic'`, a derivative given
as a number instead of one number per coordinate, or a derivative of order 3), is an InterpolationError, for every curve and grid. -/
theorem C133_rejected {c : Curve ℝ} {junk : ℝ} {lib : SplineLib} {r : KwReg} {m : String} (hr : IsCubic lib junk r m) {l : List BcEnd}
    (hl : l.length ≠ 2 ∨ ∃ e ∈ l, ¬ Documented c.ncols e) (g : GridSpec) :
    c.interpolate r g m ⟨[("bc_type", .tup l)]⟩ = .error .interpolationError := by
  have e1 : pickCubic ⟨[("bc_type", .tup l)]⟩ = some ⟨"", none, some l⟩ := rfl
  have key : ∃ e, cubicCons lib junk c ⟨"", none, some l⟩ = .error e := by
    have : endSlopes lib (c.t junk) c.mat l = .error .valueError := by
      match l, hl with
      | [], _ => rfl
      | [_], _ => rfl
      | _ :: _ :: _ :: _, _ => rfl
      | [a, b], hl =>
        have hl : ¬ Documented c.ncols a ∨ ¬ Documented c.ncols b := by simpa using hl
        simp only [endSlopes]
        by_cases ha : Documented c.ncols a
        · obtain ⟨w, hw, _⟩ := validate_documented ha
          have hw : a.validate c.mat.k = .ok w := hw
          have hb : b.validate c.mat.k = .error .valueError := validate_other (hl.resolve_left (fun h => h ha))
          simp [hw, hb, bind, Except.bind]
        · have ha : a.validate c.mat.k = .error .valueError := validate_other ha
          simp [ha, bind, Except.bind]
    unfold cubicCons
    cases knotsOk (c.t junk) c.mat.m with
    | false => exact ⟨_, rfl⟩
    | true => simp [this, bind, Except.bind]
  obtain ⟨e, he⟩ := key
  rw [interpolate_eq hr]
  simp [interpClass, withKw, e1, he, bind, Except.bind, wrapErr]

/-! ## Bending -/

/-- **C133, bending.** Let each end be free (`'natural'`) or have a given derivative (`'clamped'` or an entry of order 1). Then every coordinate
`f` bends least among all twice continuously differentiable functions `g` with the same values at the parameter values and the same
derivative as `f` at the ends that are not free; and `g` with the same bending energy is `f`. -/
theorem C133_bending {c : Curve ℝ} (hc : WF c) (hs : 2 ≤ c.size) {junk : ℝ} (ht : (c.t junk).Pairwise (· < ·))
    (hd : c.dtype ≠ .int) {lib : SplineLib} (hlib : EndsOk lib) {r : KwReg} {m : String} (hr : IsCubic lib junk r m)
    {a b : BcEnd} (ha : Documented c.ncols a) (hb : Documented c.ncols b) :
    ∃ F, EvaluatesTo c (fun g => c.interpolate r g m ⟨[("bc_type", .tup [a, b])]⟩) (fun _ => True) F ∧
      ∀ u v, (c.t junk).head? = some u → (c.t junk).getLast? = some v → ∀ j, j < c.ncols → ∃ f1 f2 : ℝ → ℝ,
        TwiceOn u v (fun x => coordOf j (F x)) f1 f2 ∧
        (a = .str "clamped" → f1 u = 0) ∧ (∀ vs z, a = .deriv 1 vs → vs[j]? = some z → f1 u = z) ∧
        (b = .str "clamped" → f1 v = 0) ∧ (∀ vs z, b = .deriv 1 vs → vs[j]? = some z → f1 v = z) ∧
        ∀ g g1 g2 : ℝ → ℝ, TwiceOn u v g g1 g2 → (∀ i x, (c.t junk)[i]? = some x → g x = at2 c.rows i j) →
          (a = .str "natural" ∨ g1 u = f1 u) → (b = .str "natural" ∨ g1 v = f1 v) →
          bending u v f2 ≤ bending u v g2 ∧
          (bending u v g2 = bending u v f2 → ∀ x ∈ Set.Icc u v, g x = coordOf j (F x)) := by
  have hl := t_length hc (rows_ne_of_size hs) junk
  obtain ⟨F, hF, hP, _⟩ := C133_ends hc hs ht hd hlib hr ha hb
  refine ⟨F, hF, ?_⟩
  intro u v hu hv j hj
  obtain ⟨P, hcub, h4, h5⟩ := hP j hj
  have eu : u = knot (c.t junk) 0 := by rw [List.head?_eq_getElem?] at hu; exact (knot_eq hu).symm
  have ev : v = knot (c.t junk) ((c.t junk).length - 1) := by rw [List.getLast?_eq_getElem?] at hv; exact (knot_eq hv).symm
  have hl2 : 2 ≤ (c.t junk).length := by omega
  have M0 := h4 (knot (c.t junk) 0) (knot (c.t junk) 1) (knot_some (by omega)) (knot_some (by omega))
  have M9 := h5 (knot (c.t junk) (c.size - 2)) (knot (c.t junk) (c.size - 1)) (knot_some (by omega)) (knot_some (by omega))
  have s0 := splineD_on ht hcub (i := 0) (by omega) (x := u) ⟨eu.symm.le, by rw [eu]; exact knot_le ht (by omega) (by omega)⟩
  have s9 := splineD_on ht hcub (i := c.size - 2) (by omega) (x := v) ⟨by rw [ev]; exact knot_le ht (by omega) (by omega), by
      rw [ev, show c.size - 2 + 1 = (c.t junk).length - 1 by omega]⟩
  rw [← eu] at M0
  rw [← hl, ← ev, hl] at M9
  refine ⟨splineD1 (c.t junk) P, splineD2 (c.t junk) P, by rw [eu, ev]; exact cubicOn_twice ht hl2 hcub, ?_, ?_, ?_, ?_, ?_⟩
  · intro h; rw [s0.1]; exact M0.clamped h
  · intro vs z h hz; rw [s0.1]; exact M0.first vs z h hz
  · intro h; rw [s9.1]; exact M9.clamped h
  · intro vs z h hz; rw [s9.1]; exact M9.first vs z h hz
  intro g g1 g2 hg hv' ga gb
  have ta : splineD2 (c.t junk) P u * (g1 u - splineD1 (c.t junk) P u) = 0 := by
    rcases ga with h | h
    · rw [s0.2, M0.natural h, zero_mul]
    · rw [h]; ring
  have tb : splineD2 (c.t junk) P v * (g1 v - splineD1 (c.t junk) P v) = 0 := by
    rcases gb with h | h
    · rw [s9.2, M9.natural h, zero_mul]
    · rw [h]; ring
  have := least_bending ht hl2 hcub (g := g) (g1 := g1) (g2 := g2) (by rw [← eu, ← ev]; exact hg) (fun i hi => hv' i _ (knot_some hi))
    (by rw [← eu, ← ev, ta, tb]; ring)
  rwa [← eu, ← ev] at this

/-! ## Instances -/

/-- The points (0, 0), (1, 1), (2, 8), (4, 64) of the cubic parabola. With the slopes of the parabola at the start and its second
derivative at the end, the pair gives the parabola itself, also outside of the points; the natural spline cannot. -/
example : ∃ lib, EndsOk lib ∧ ∃ F, EvaluatesTo exCubic (fun g => exCubic.interpolate (builtinInterp lib 0) g "cubic"
    ⟨[("bc_type", .tup [.deriv 1 [1, 0], .deriv 2 [0, 24]])]⟩) (fun _ => True) F ∧ ∀ x, coordOf 1 (F x) = x ^ 3 := by
  obtain ⟨lib, _, _, h⟩ := exists_endsOk
  obtain ⟨F, h1, _, h2⟩ := C133_ends exCubic_WF (by simp [exCubic, Curve.size]) (junk := 0) (by norm_num [exCubic, Curve.t])
    (by simp [exCubic]) h (builtin_names lib 0).2.2.2.2 (a := .deriv 1 [1, 0]) (b := .deriv 2 [0, 24])
    (.inr (.inr (.inr ⟨1, _, rfl, .inl rfl, rfl⟩))) (.inr (.inr (.inr ⟨2, _, rfl, .inr rfl, rfl⟩)))
  refine ⟨lib, h, F, h1, ?_⟩
  intro x
  rw [h2 (fun j => if j = 0 then Polynomial.X else Polynomial.X ^ 3) ?_ ?_ 1 x (by simp [exCubic])]
  · simp
  · intro i x j hi hj
    have hj : j < 2 := hj
    match i with
    | 0 => simp [exCubic, Curve.t] at hi; subst hi; interval_cases j <;> norm_num [exCubic, at2]
    | 1 => simp [exCubic, Curve.t] at hi; subst hi; interval_cases j <;> norm_num [exCubic, at2]
    | 2 => simp [exCubic, Curve.t] at hi; subst hi; interval_cases j <;> norm_num [exCubic, at2]
    | 3 => simp [exCubic, Curve.t] at hi; subst hi; interval_cases j <;> norm_num [exCubic, at2]
    | (k + 4) => simp [exCubic, Curve.t] at hi
  · intro j hj
    have hj : j < 2 := hj
    refine ⟨?_, ?_, ?_, by simp, by simp⟩
    · interval_cases j <;> simp
    · intro u hu
      have hu : u = 0 := by simpa [exCubic, Curve.t] using hu.symm
      subst hu
      refine ⟨by simp, by simp, ?_, by simp⟩
      rintro vs v e hv
      obtain ⟨_, rfl⟩ := BcEnd.deriv.inj e
      interval_cases j <;> simp at hv <;> subst hv <;> simp [Polynomial.derivative_pow]
    · intro u hu
      have hu : u = 4 := by simpa [exCubic, Curve.t] using hu.symm
      subst hu
      refine ⟨by simp, by simp, by simp, ?_⟩
      rintro vs v e hv
      obtain ⟨_, rfl⟩ := BcEnd.deriv.inj e
      interval_cases j <;> simp at hv <;> subst hv <;> (simp [Polynomial.derivative_pow]; try norm_num)

/-- A derivative given as a number is rejected. -/
example (lib : SplineLib) (g : GridSpec) : exCubic.interpolate (builtinInterp lib 0) g "cubic"
    ⟨[("bc_type", .tup [.scalar 1 0, .str "natural"])]⟩ = .error .interpolationError :=
  C133_rejected (builtin_names lib 0).2.2.2.2 (.inr ⟨_, List.mem_cons_self, by simp [Documented]⟩) g

example : ∃ lib, EndsOk lib ∧ ∀ g, exCubic.interpolate (builtinInterp lib 0) g "cubic" ⟨[("bc_type", .tup [.str "natural", .str "natural"])]⟩ =
    exCubic.interpolate (builtinInterp lib 0) g "cubic" ⟨[("bc_type", .str "natural")]⟩ := by
  obtain ⟨lib, h1, h2, h3⟩ := exists_endsOk
  exact ⟨lib, h3, C133_same h1 h2 h3 (builtin_names lib 0).2.2.2.2 (.inl rfl)⟩

/-- One end free, the other with a given derivative. -/
example : ∃ lib, EndsOk lib ∧ ∃ F, EvaluatesTo exCubic (fun g => exCubic.interpolate (builtinInterp lib 0) g "cubic"
    ⟨[("bc_type", .tup [.str "natural", .deriv 1 [1, 48]])]⟩) (fun _ => True) F ∧
    ∃ f1 f2, TwiceOn 0 4 (fun x => coordOf 1 (F x)) f1 f2 ∧ f1 4 = 48 ∧ bending 0 4 f2 ≤ bending 0 4 (fun x => 6 * x) := by
  obtain ⟨lib, _, _, h⟩ := exists_endsOk
  obtain ⟨F, h1, h2⟩ := C133_bending exCubic_WF (by simp [exCubic, Curve.size]) (junk := 0) (by norm_num [exCubic, Curve.t])
    (by simp [exCubic]) h (builtin_names lib 0).2.2.2.2 (a := .str "natural") (b := .deriv 1 [1, 48])
    (.inl rfl) (.inr (.inr (.inr ⟨1, _, rfl, .inl rfl, rfl⟩)))
  obtain ⟨f1, f2, h3, _, _, _, h4, h5⟩ := h2 0 4 rfl rfl 1 (by simp [exCubic])
  have h48 : f1 4 = 48 := h4 _ _ rfl rfl
  refine ⟨lib, h, F, h1, f1, f2, h3, h48, (h5 (fun x => x ^ 3) (fun x => 3 * x ^ 2) (fun x => 6 * x) ⟨?_, ?_, ?_⟩ ?_ (.inl rfl)
    (.inr (by rw [h48]; norm_num))).1⟩
  · intro x _
    have := (hasDerivAt_pow 3 x).hasDerivWithinAt (s := Set.Icc 0 4)
    exact this.congr_deriv (by norm_num)
  · intro x _
    have := ((hasDerivAt_pow 2 x).const_mul 3).hasDerivWithinAt (s := Set.Icc 0 4)
    exact this.congr_deriv (by norm_num; ring)
  · exact (continuous_const.mul continuous_id).continuousOn
  · intro i x hx
    match i with
    | 0 => simp [exCubic, Curve.t] at hx; subst hx; norm_num [exCubic, at2]
    | 1 => simp [exCubic, Curve.t] at hx; subst hx; norm_num [exCubic, at2]
    | 2 => simp [exCubic, Curve.t] at hx; subst hx; norm_num [exCubic, at2]
    | 3 => simp [exCubic, Curve.t] at hx; subst hx; norm_num [exCubic, at2]
    | (k + 4) => simp [exCubic, Curve.t] at hx

end Verif.Props
