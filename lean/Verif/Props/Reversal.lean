import Verif.Props.BestFit

/-!
C102: smoothing commutes with reversing the curve.
-/
namespace Verif.Props

open Verif Verif.Np Verif.Model Verif.Spec

/-- The reversed curve. -/
def revCurve (c : Curve ℝ) : Curve ℝ := ⟨c.rows.reverse, c.ncols, c.tdata.map List.reverse, c.dtype⟩

theorem revCurve_WF {c : Curve ℝ} (hc : WF c) : WF (revCurve c) where
  two_le := hc.two_le
  rect := fun r hr => hc.rect r (List.mem_reverse.1 hr)
  tlen := by
    intro t ht
    simp only [revCurve, Option.map_eq_some_iff] at ht
    obtain ⟨s, hs, rfl⟩ := ht
    simp [revCurve, hc.tlen s hs]
  repr := fun r hr => hc.repr r (List.mem_reverse.1 hr)

theorem finCurve_WF' {c : Curve ℝ} (hc : WF c) : WF (finCurve c) where
  two_le := hc.two_le
  rect := by
    intro r hr
    obtain ⟨l, hl, rfl⟩ := List.mem_map.1 hr
    simp only [fins, List.length_map]
    exact hc.rect l hl
  tlen := by
    intro t ht
    simp only [finCurve, Option.map_eq_some_iff] at ht
    obtain ⟨s, hs, rfl⟩ := ht
    simp [finCurve, fins, hc.tlen s hs]
  repr := by
    intro r hr x hx
    obtain ⟨l, hl, rfl⟩ := List.mem_map.1 hr
    obtain ⟨y, hy, rfl⟩ := mem_fins_fin hx
    have := hc.repr l hl y hy
    show c.dtype.cast (Val.fin y) = Val.fin y
    rw [show c.dtype.cast (Val.fin y) = Val.fin (c.dtype.cast y) by cases c.dtype <;> rfl, this]

theorem finCurve_reverse {c : Curve ℝ} (hc : WF c) (hne : c.rows ≠ []) : (finCurve c).reverse = .ok (finCurve (revCurve c)) := by
  rw [reverse_eq (finCurve_WF' hc), if_neg (by simp [finCurve, hne])]
  obtain ⟨rows, n, t, d⟩ := c
  simp only [finCurve, revCurve, List.map_reverse]
  cases t <;> simp [fins]

theorem at2_rev (rows : List (List ℝ)) {i : Nat} (j : Nat) (hi : i < rows.length) : at2 rows.reverse i j = at2 rows (rows.length - 1 - i) j := by
  unfold at2
  simp only [List.getD_eq_getElem?_getD, List.getElem?_reverse hi]

theorem continues_reverse {mode : String} {n : Nat} {cv : ℝ} {f : Nat → ℝ} {e : ℤ → ℝ} (h : Continues mode n cv f e) :
    Continues mode n cv (fun q => f (n - 1 - q)) (fun i => e (n - 1 - i)) where
  inside := by
    intro i hi
    rw [← h.inside (n - 1 - i) (by omega)]
    congr 1; omega
  reflect := by
    intro hm i
    have := h.reflect hm (n - 1 - i)
    constructor
    · rw [← this.2]; congr 1; omega
    · rw [← this.1]; congr 1; omega
  mirror := by
    intro hm
    constructor
    · intro i
      have := (h.mirror hm).1 (n - 1 - i)
      constructor
      · rw [← this.2]; congr 1; omega
      · rw [← this.1]; congr 1; omega
    · intro hn i
      rw [(h.mirror hm).2 hn, (h.mirror hm).2 hn (n - 1 - 0)]
  nearest := by
    intro hm
    constructor
    · intro i hi
      rw [(h.nearest hm).2 _ (by omega)]; congr 1; omega
    · intro i hi
      rw [(h.nearest hm).1 _ (by omega)]; congr 1; omega
  wrap := by
    intro hm i
    rw [← h.wrap hm]; congr 1; omega
  constant := by
    intro hm i hi
    exact h.constant hm _ (by omega)

theorem getD_palindrome {ws : List ℝ} (h : ws.reverse = ws) {k : Nat} (hk : k < ws.length) : ws.getD (ws.length - 1 - k) 0 = ws.getD k 0 := by
  conv_rhs => rw [← h]
  rw [List.getD_eq_getElem?_getD, List.getD_eq_getElem?_getD, List.getElem?_reverse hk]

/-- **C102 (window).** A window that is the same from both ends, with an odd number of entries: smoothing the reversed curve gives the
reversed smoothed curve, for all modes. -/
theorem C102_window {r : Reg SmoothFn} {name : String} (hf : getSmooth r name = .ok windowFn) {c : Curve ℝ} (hc : WF c) (hne : c.rows ≠ [])
    (hd : c.dtype ≠ .obj) {ws : List ℝ} (hs : ws.sum ≠ 0) (hpal : ws.reverse = ws) (hodd : ws.length % 2 = 1) {p : WinParams}
    (hp : makeWindow p.wtype p.size = .ok (.floats (fins ws))) {cv : ℝ} (hcv : p.cval = .fin cv) (hmode : BoundaryMode p.mode) :
    ∃ c1 c2, (finCurve c).smooth r name (.window p) = .ok (finCurve c1) ∧ (finCurve c1).reverse = .ok (finCurve c2) ∧
      ((finCurve c).reverse >>= fun c' => c'.smooth r name (.window p)) = .ok (finCurve c2) := by
  have hpos : 0 < c.size := List.length_pos_iff.2 hne
  choose e he _ using fun j => C100_continuation hmode hpos cv (fun q => at2 c.rows q j)
  obtain ⟨c1, g1, w1, s1, n1, t1, d1, v1⟩ := C100_window hf hc hne hd hs hp hcv hmode (e := e) (fun j _ => he j)
  have hne' : (revCurve c).rows ≠ [] := by simp [revCurve, hne]
  have hsz : (revCurve c).size = c.size := by simp [revCurve, Curve.size]
  obtain ⟨c2, g2, w2, s2, n2, t2, d2, v2⟩ := C100_window hf (revCurve_WF hc) hne' (by exact hd) hs hp hcv hmode
    (e := fun j i => e j (c.size - 1 - i)) (by
      intro j _
      rw [hsz]
      have := continues_reverse (he j)
      refine { this with inside := ?_ }
      intro i hi
      rw [this.inside i hi]
      exact (at2_rev c.rows j hi).symm)
  have hne1 : c1.rows ≠ [] := by
    intro h
    have : c1.size = 0 := by simp [Curve.size, h]
    omega
  refine ⟨c1, revCurve c1, g1, finCurve_reverse w1 hne1, ?_⟩
  rw [finCurve_reverse hc hne]
  refine Eq.trans g2 ?_
  congr 2
  have hrows : c2.rows = c1.rows.reverse := by
    refine rows_ext (n := c.ncols) (fun l hl => (w2.rect l hl).trans n2) (fun l hl => (w1.rect l (List.mem_reverse.1 hl)).trans n1) ?_ ?_
    · rw [List.length_reverse]; exact s2.trans (hsz.trans s1.symm)
    · intro i j hi hj
      have hi' : i < c.size := lt_of_lt_of_eq hi (s2.trans hsz)
      rw [at2_rev c1.rows j (lt_of_lt_of_eq hi' s1.symm)]
      rw [show c1.rows.length = c.size from s1, v1 _ j (by omega) hj, v2 i j (by omega) hj]
      show c.dtype.cast _ = _
      congr 1
      rw [← Finset.sum_range_reflect]
      apply Finset.sum_congr rfl
      intro k hk
      rw [Finset.mem_range] at hk
      rw [getD_palindrome hpal hk]
      congr 2
      omega
  obtain ⟨rows1, nc1, td1, dt1⟩ := c1
  obtain ⟨rows2, nc2, td2, dt2⟩ := c2
  simp only [revCurve] at *
  subst hrows
  rw [n1, n2, d1, d2, t1, t2]
  rfl

/-- Reflection of a best polynomial. -/
theorem bestFit_reflect {po wl : Nat} {a m : ℤ} {z : ℤ → ℝ} {P : Polynomial ℝ} (h : BestFit po a wl z P) :
    BestFit po (m - a - wl + 1) wl (fun i => z (m - i)) (P.comp (Polynomial.C (m : ℝ) - Polynomial.X)) := by
  have hdeg : ∀ Q : Polynomial ℝ, Q.natDegree ≤ po → (Q.comp (Polynomial.C (m : ℝ) - Polynomial.X)).natDegree ≤ po := by
    intro Q hQ
    refine Polynomial.natDegree_comp_le.trans ?_
    have : (Polynomial.C (m : ℝ) - Polynomial.X : Polynomial ℝ).natDegree ≤ 1 :=
      (Polynomial.natDegree_sub_le _ _).trans (max_le (by rw [Polynomial.natDegree_C]; omega) Polynomial.natDegree_X_le)
    calc Q.natDegree * _ ≤ Q.natDegree * 1 := Nat.mul_le_mul_left _ this
      _ ≤ po := by omega
  have herr : ∀ Q : Polynomial ℝ, fitErr (m - a - wl + 1) wl (fun i => z (m - i)) (Q.comp (Polynomial.C (m : ℝ) - Polynomial.X)) = fitErr a wl z Q := by
    intro Q
    unfold fitErr
    rw [← Finset.sum_range_reflect]
    apply Finset.sum_congr rfl
    intro k hk
    rw [Finset.mem_range] at hk
    have e1 : ((wl - 1 - k : Nat) : ℝ) = (wl : ℝ) - 1 - k := by
      rw [Nat.cast_sub (by omega), Nat.cast_sub (by omega)]; simp
    rw [Polynomial.eval_comp]
    simp only [Polynomial.eval_sub, Polynomial.eval_C, Polynomial.eval_X]
    rw [e1]
    push_cast
    congr 2
    · congr 1; ring
    · congr 1; omega
  refine ⟨hdeg P h.deg, fun Q hQ => ?_⟩
  have hQ2 : (Q.comp (Polynomial.C (m : ℝ) - Polynomial.X)).comp (Polynomial.C (m : ℝ) - Polynomial.X) = Q := by
    rw [Polynomial.comp_assoc]; simp
  rw [herr, ← hQ2, herr]
  exact h.best _ (hdeg Q hQ)

theorem iter_derivative_reflect (P : Polynomial ℝ) (m : ℝ) (d : Nat) :
    (Polynomial.derivative^[d]) (P.comp (Polynomial.C m - Polynomial.X)) =
      Polynomial.C ((-1) ^ d) * ((Polynomial.derivative^[d]) P).comp (Polynomial.C m - Polynomial.X) := by
  induction d with
  | zero => simp
  | succ d ih =>
    rw [Function.iterate_succ_apply', Function.iterate_succ_apply', ih, Polynomial.derivative_C_mul, Polynomial.derivative_comp]
    simp [pow_succ]

/-- The derivative of the reflected polynomial. -/
theorem eval_reflect (P : Polynomial ℝ) (m x : ℝ) (d : Nat) :
    ((Polynomial.derivative^[d]) (P.comp (Polynomial.C m - Polynomial.X))).eval x = (-1) ^ d * ((Polynomial.derivative^[d]) P).eval (m - x) := by
  rw [iter_derivative_reflect]
  simp

/-- **C102 (Savitzky-Golay).** With an odd window length the filter of the reversed curve is the reversed filtered curve, with the
opposite sign for derivatives of odd order, for all modes. -/
theorem C102_savgol {lib : LsqLib} (hl : MinNormOk lib) {r : Reg SmoothFn} {name : String} (hf : getSmooth r name = .ok (savgolFn lib))
    {wl po : Nat} (hpo : po < wl) (hodd : wl % 2 = 1) (d : Nat) {delta : ℝ} (hdel : delta ≠ 0 ∨ d = 0)
    {c : Curve ℝ} (hc : WF c) (hne : c.rows ≠ []) {mode : String} (cv : ℝ)
    (hmode : (BoundaryMode mode ∧ mode ≠ "reflect") ∨ (mode = "interp" ∧ wl ≤ c.size)) :
    ∃ c1 c2, (finCurve c).smooth r name (.savgol ⟨wl, po, d, delta, mode, cv⟩) = .ok (finCurve c1) ∧
      ((finCurve c).reverse >>= fun c' => c'.smooth r name (.savgol ⟨wl, po, d, delta, mode, cv⟩)) = .ok (finCurve c2) ∧
      c1.size = c.size ∧ c2.size = c.size ∧
      (∀ i j, i < c.size → j < c.ncols → at2 c2.rows i j = (-1) ^ d * at2 c1.rows (c.size - 1 - i) j) ∧
      (d % 2 = 0 → (finCurve c1).reverse = .ok (finCurve c2)) := by
  have hpos : 0 < c.size := List.length_pos_iff.2 hne
  have hne' : (revCurve c).rows ≠ [] := by simp [revCurve, hne]
  have hsz : (revCurve c).size = c.size := by simp [revCurve, Curve.size]
  obtain ⟨c1, c2, g1, g2, w1, w2, s1, s2, n1, n2, t1, t2, d1, d2, hv⟩ : ∃ c1 c2,
      (finCurve c).smooth r name (.savgol ⟨wl, po, d, delta, mode, cv⟩) = .ok (finCurve c1) ∧
      (finCurve (revCurve c)).smooth r name (.savgol ⟨wl, po, d, delta, mode, cv⟩) = .ok (finCurve c2) ∧ WF c1 ∧ WF c2 ∧
      c1.size = c.size ∧ c2.size = c.size ∧ c1.ncols = c.ncols ∧ c2.ncols = c.ncols ∧ c1.tdata = none ∧ c2.tdata = none ∧
      c1.dtype = .float ∧ c2.dtype = .float ∧
      (∀ i j, i < c.size → j < c.ncols → at2 c2.rows i j = (-1) ^ d * at2 c1.rows (c.size - 1 - i) j) := by
    rcases hmode with ⟨hm, hrf⟩ | ⟨rfl, hw⟩
    · choose e he _ using fun j => C100_continuation hm hpos cv (fun q => at2 c.rows q j)
      obtain ⟨c1, g1, w1, s1, n1, t1, d1, v1⟩ := C101_modes hl hf hpo hodd d hdel hc hne hm hrf cv (e := e) (fun j _ => he j)
      obtain ⟨c2, g2, w2, s2, n2, t2, d2, v2⟩ := C101_modes hl hf hpo hodd d hdel (revCurve_WF hc) hne' hm hrf cv
        (e := fun j i => e j (c.size - 1 - i)) (by
          intro j _
          rw [hsz]
          have := continues_reverse (he j)
          refine { this with inside := ?_ }
          intro i hi
          rw [this.inside i hi]
          exact (at2_rev c.rows j hi).symm)
      refine ⟨c1, c2, g1, g2, w1, w2, s1, s2.trans hsz, n1, n2, t1, t2, d1, d2, ?_⟩
      intro i j hi hj
      obtain ⟨P, hP⟩ := bestFit_exists po (((c.size - 1 - i : Nat) : ℤ) - (wl / 2 : Nat)) wl (e j)
      rw [v1 _ j (by omega) hj P hP]
      have hP' := bestFit_reflect (m := (c.size : ℤ) - 1) hP
      rw [show (c.size : ℤ) - 1 - (((c.size - 1 - i : Nat) : ℤ) - (wl / 2 : Nat)) - wl + 1 = (i : ℤ) - (wl / 2 : Nat) by omega] at hP'
      rw [v2 i j (by omega) hj _ hP', eval_reflect]
      have : (((c.size : ℤ) - 1 : ℤ) : ℝ) - (i : ℝ) = ((c.size - 1 - i : Nat) : ℝ) := by
        rw [Nat.cast_sub (by omega), Nat.cast_sub (by omega)]; simp
      rw [this]
      ring
    · obtain ⟨c1, g1, w1, s1, n1, t1, d1, v1⟩ := C101_interp hl hf hpo hodd d hdel hc hw cv
      obtain ⟨c2, g2, w2, s2, n2, t2, d2, v2⟩ := C101_interp hl hf hpo hodd d hdel (revCurve_WF hc) (by omega) cv
      refine ⟨c1, c2, g1, g2, w1, w2, s1, s2.trans hsz, n1, n2, t1, t2, d1, d2, ?_⟩
      intro i j hi hj
      obtain ⟨a, ha1, ha2⟩ : ∃ a : Nat, a + wl ≤ c.size ∧ (a + wl / 2 = i ∨ (a = 0 ∧ i < wl / 2) ∨ (a + wl = c.size ∧ c.size ≤ i + wl / 2)) := by
        by_cases h1 : i < wl / 2
        · exact ⟨0, by omega, .inr (.inl ⟨rfl, h1⟩)⟩
        · by_cases h2 : c.size ≤ i + wl / 2
          · exact ⟨c.size - wl, by omega, .inr (.inr ⟨by omega, h2⟩)⟩
          · exact ⟨i - wl / 2, by omega, .inl (by omega)⟩
      obtain ⟨P, hP⟩ := bestFit_exists po ((c.size - a - wl : Nat) : ℤ) wl (fun q => at2 c.rows q.toNat j)
      rw [v1 (c.size - 1 - i) j (c.size - a - wl) (by omega) hj (by omega) (by omega) P hP]
      have hP' := bestFit_reflect (m := (c.size : ℤ) - 1) hP
      rw [show (c.size : ℤ) - 1 - ((c.size - a - wl : Nat) : ℤ) - wl + 1 = (a : ℤ) by omega] at hP'
      have hP'' : BestFit po a wl (fun q => at2 (revCurve c).rows q.toNat j) (P.comp (Polynomial.C (((c.size : ℤ) - 1 : ℤ) : ℝ) - Polynomial.X)) := by
        refine bestFit_congr ?_ hP'
        intro k hk
        simp only [revCurve]
        rw [at2_rev c.rows j (by show _ < c.size; omega)]
        congr 1
        show _ = c.size - 1 - _
        omega
      rw [v2 i j a (by omega) hj (by omega) (by omega) _ hP'', eval_reflect]
      have : (((c.size : ℤ) - 1 : ℤ) : ℝ) - (i : ℝ) = ((c.size - 1 - i : Nat) : ℝ) := by
        rw [Nat.cast_sub (by omega), Nat.cast_sub (by omega)]; simp
      rw [this]
      ring
  refine ⟨c1, c2, g1, ?_, s1, s2, hv, ?_⟩
  · rw [finCurve_reverse hc hne]; exact g2
  · intro heven
    have hne1 : c1.rows ≠ [] := by
      intro h
      have : c1.size = 0 := by simp [Curve.size, h]
      omega
    rw [finCurve_reverse w1 hne1]
    congr 2
    have hrows : c1.rows.reverse = c2.rows := by
      refine rows_ext (n := c.ncols) (fun l hl => (w1.rect l (List.mem_reverse.1 hl)).trans n1) (fun l hl => (w2.rect l hl).trans n2) ?_ ?_
      · rw [List.length_reverse]; exact s1.trans s2.symm
      · intro i j hi hj
        rw [List.length_reverse] at hi
        have hi' : i < c.size := lt_of_lt_of_eq hi s1
        rw [at2_rev c1.rows j hi, hv i j hi' hj, Even.neg_one_pow (Nat.even_iff.2 heven), one_mul]
        rw [show c1.rows.length = c.size from s1]
    obtain ⟨rows1, nc1, td1, dt1⟩ := c1
    obtain ⟨rows2, nc2, td2, dt2⟩ := c2
    simp only [revCurve] at *
    subst hrows
    rw [n1, n2, d1, d2, t1, t2]
    rfl

/-! ## Even windows, and the hypotheses are met -/

/-- A segment with two points. -/
def exPair : Curve ℝ := ⟨[[0, 0], [1, 0]], 2, none, .float⟩

theorem exPair_WF : WF exPair := ⟨by simp [exPair], by simp [exPair], by simp [exPair], by intro _ _ x _; rfl⟩

/-- **C102 fails for an even number of entries**: the window is not centered then. -/
theorem C102_even_fails {r : Reg SmoothFn} {name : String} (hf : getSmooth r name = .ok windowFn) {p : WinParams}
    (hp : makeWindow p.wtype p.size = .ok (.floats (fins [1, 1]))) (hm : p.mode = "reflect") (hcv : p.cval = .fin 0) :
    ((finCurve exPair).reverse >>= fun c' => c'.smooth r name (.window p)) ≠ ((finCurve exPair).smooth r name (.window p) >>= Curve.reverse) := by
  have hmode : BoundaryMode p.mode := by rw [hm]; simp [BoundaryMode]
  have hne : exPair.rows ≠ [] := by simp [exPair]
  have hne' : (revCurve exPair).rows ≠ [] := by simp [exPair, revCurve]
  choose e he _ using fun j => C100_continuation hmode (n := 2) (by norm_num) 0 (fun q => at2 exPair.rows q j)
  choose e' he' _ using fun j => C100_continuation hmode (n := 2) (by norm_num) 0 (fun q => at2 (revCurve exPair).rows q j)
  obtain ⟨c1, g1, w1, s1, n1, t1, d1, v1⟩ := C100_window hf exPair_WF hne (by simp [exPair]) (ws := [1, 1]) (by norm_num) hp hcv hmode
    (e := e) (fun j _ => he j)
  obtain ⟨c2, g2, w2, s2, n2, t2, d2, v2⟩ := C100_window hf (revCurve_WF exPair_WF) hne' (by simp [exPair, revCurve]) (ws := [1, 1]) (by norm_num)
    hp hcv hmode (e := e') (fun j _ => he' j)
  have hsz : c1.rows.length = 2 := s1
  have hne1 : c1.rows ≠ [] := by intro h; rw [h] at hsz; simp at hsz
  intro heq
  rw [finCurve_reverse exPair_WF hne, g1] at heq
  have heq' : Except.ok (ε := PyErr) (finCurve c2) = .ok (finCurve (revCurve c1)) := by
    rw [← finCurve_reverse w1 hne1]; exact g2.symm.trans heq
  injection heq' with heq'
  have hrows : c2.rows.map fins = (revCurve c1).rows.map fins := congrArg Curve.rows heq'
  have h1 := congrArg (fun l : List (List (Val ℝ)) => (l.getD 0 []).getD 0 (.fin 0)) hrows
  simp only [getD_map_fins] at h1
  injection h1 with h1
  have h2 : at2 c2.rows 0 0 = 1 / 2 := by
    rw [v2 0 0 (by simp [revCurve, exPair, Curve.size]) (by simp [revCurve, exPair])]
    have a0 := (he' 0).inside 0 (by norm_num)
    have a1 := (he' 0).inside 1 (by norm_num)
    show ∑ k ∈ Finset.range 2, _ = _
    rw [Finset.sum_range_succ, Finset.sum_range_succ, Finset.sum_range_zero]
    norm_num [revCurve, exPair, at2] at a0 a1 ⊢
    rw [a0, a1]; norm_num
  have h3 : at2 c1.rows 1 0 = 1 := by
    rw [v1 1 0 (by simp [exPair, Curve.size]) (by simp [exPair])]
    have a1 := (he 0).inside 1 (by norm_num)
    have a2 := ((he 0).reflect hm 1).2
    show ∑ k ∈ Finset.range 2, _ = _
    rw [Finset.sum_range_succ, Finset.sum_range_succ, Finset.sum_range_zero]
    norm_num [exPair, at2] at a1 a2 ⊢
    rw [a2, a1]; norm_num
  have h4 : at2 (revCurve c1).rows 0 0 = at2 c1.rows 1 0 := by
    show at2 c1.rows.reverse 0 0 = _
    rw [at2_rev _ _ (by omega), hsz]
  rw [h4, h3, h2] at h1
  norm_num at h1

/-- The default window with 5 points and the curve of `exTri`. -/
example (f : SmoothFn) : ∃ c1 c2, (finCurve exTri).smooth (smoothReg f) "window" (.window { size := 5 }) = .ok (finCurve c1) ∧
    (finCurve c1).reverse = .ok (finCurve c2) ∧
    ((finCurve exTri).reverse >>= fun c' => c'.smooth (smoothReg f) "window" (.window { size := 5 })) = .ok (finCurve c2) := by
  obtain ⟨ws, h1, h2, h3⟩ := hann_symmetric 5 (by norm_num)
  obtain ⟨ws', h4, h5, h6, _⟩ := C68_hann_partial 5 (by norm_num) (by norm_num)
  have : ws' = ws := by
    rw [h1] at h4
    injection h4 with h4
    injection h4 with h4
    exact (List.map_injective_iff.2 (fun a b hab => by injection hab) h4).symm
  subst this
  exact C102_window (smoothReg_window f) exTri_WF (by simp [exTri]) (by simp [exTri]) h6.ne' h3 (by rw [h2]) (p := { size := 5 }) h1 rfl
    (by simp [BoundaryMode])

/-- The filter with five points on a parabola. -/
example : ∃ lib, MinNormOk lib ∧ ∃ c1 c2, (finCurve exParabola).smooth (smoothReg (savgolFn lib)) "savgol" (.savgol ⟨5, 2, 1, 1, "interp", 0⟩) =
      .ok (finCurve c1) ∧
    ((finCurve exParabola).reverse >>= fun c' => c'.smooth (smoothReg (savgolFn lib)) "savgol" (.savgol ⟨5, 2, 1, 1, "interp", 0⟩)) = .ok (finCurve c2) ∧
    at2 c2.rows 0 1 = - at2 c1.rows 4 1 := by
  obtain ⟨lib, hl, _⟩ := exists_minNorm false
  obtain ⟨c1, c2, h1, h2, _, _, h3, _⟩ := C102_savgol hl (smoothReg_savgol (savgolFn lib)) (wl := 5) (po := 2) (by norm_num) (by norm_num) 1
    (delta := 1) (.inl one_ne_zero) exParabola_WF (by simp [exParabola]) (mode := "interp") 0 (.inr ⟨rfl, by simp [exParabola, Curve.size]⟩)
  refine ⟨lib, hl, c1, c2, h1, h2, ?_⟩
  have := h3 0 1 (by simp [exParabola, Curve.size]) (by simp [exParabola])
  rw [this]
  simp [exParabola, Curve.size]

end Verif.Props
