import Verif.Props.Shorten
import Verif.Props.KnownCurves

/-!
C146: how far window smoothing moves the points.
-/
namespace Verif.Props

open Verif Verif.Np Verif.Model Verif.Spec Set

/-- Beyond the ends no step is longer than within. -/
theorem steps_bounded {n : Nat} {mode : String} {D : ℤ → ℝ} {B : ℝ} (hn : 0 < n) (hD : StepsOf mode n D)
    (hm : mode = "reflect" ∨ mode = "mirror" ∧ n ≠ 1 ∨ mode = "nearest") (hB : 0 ≤ B) (hin : ∀ i : ℤ, 0 ≤ i → i < n - 1 → D i ≤ B) (s : ℤ) :
    D s ≤ B := by
  have per : ∀ {p : ℕ} (_ : ∀ i, D (i + p) = D i) (s : ℤ), D s = D (s % p) := by
    intro p hp s
    have up : ∀ (k : ℕ) (i : ℤ), D (i + k * p) = D i := by
      intro k
      induction k with
      | zero => intro i; simp
      | succ k ih => intro i; rw [show i + ((k + 1 : ℕ) : ℤ) * p = i + k * p + p by push_cast; ring, hp, ih]
    have e : s % p + p * (s / p) = s := Int.emod_add_mul_ediv s p
    rcases le_total 0 (s / p) with h | h
    · have := up (s / p).toNat (s % p)
      rw [Int.toNat_of_nonneg h, mul_comm, e] at this
      exact this
    · have := up (-(s / p)).toNat s
      rw [Int.toNat_of_nonneg (by omega)] at this
      rw [← this]
      congr 1
      linarith [mul_comm (s / (p : ℤ)) (p : ℤ)]
  rcases hm with hm | ⟨hm, hn1⟩ | hm
  · obtain ⟨a, b, z1, z2⟩ := hD.reflect hm
    rw [per b s]
    have h0 := Int.emod_nonneg s (show ((2 * n : ℕ) : ℤ) ≠ 0 by omega)
    have h1 := Int.emod_lt_of_pos s (show (0 : ℤ) < ((2 * n : ℕ) : ℤ) by omega)
    generalize s % ((2 * n : ℕ) : ℤ) = r at h0 h1 ⊢
    rcases lt_trichotomy r (n - 1) with h | h | h
    · exact hin r h0 h
    · rw [h, z2]; exact hB
    · rw [← a r, ← b (-2 - r)]
      rcases eq_or_ne r (2 * n - 1) with h' | h'
      · rw [h', show -2 - (2 * (n : ℤ) - 1) + ((2 * n : ℕ) : ℤ) = -1 by push_cast; ring, z1]; exact hB
      · exact hin _ (by push_cast at h1 ⊢; omega) (by push_cast; omega)
  · obtain ⟨a, b⟩ := hD.mirror hm
    rw [per (b hn) s]
    have h0 := Int.emod_nonneg s (show ((2 * n - 2 : ℕ) : ℤ) ≠ 0 by omega)
    have h1 := Int.emod_lt_of_pos s (show (0 : ℤ) < ((2 * n - 2 : ℕ) : ℤ) by omega)
    generalize s % ((2 * n - 2 : ℕ) : ℤ) = r at h0 h1 ⊢
    rcases lt_or_ge r (n - 1) with h | h
    · exact hin r h0 h
    · rw [← a r, ← b hn (-1 - r)]
      exact hin _ (by omega) (by omega)
  · by_cases h : s < 0 ∨ (n : ℤ) - 1 ≤ s
    · rw [hD.nearest hm s h]; exact hB
    · exact hin s (by omega) (by omega)

/-- Positions at distance `k` are at most `k` steps apart. -/
theorem steps_dist {V : Type*} [PseudoMetricSpace V] {E : ℤ → V} {B : ℝ} (h : ∀ i, dist (E i) (E (i + 1)) ≤ B) (i s : ℤ) :
    dist (E (i + s)) (E i) ≤ |(s : ℝ)| * B := by
  have up : ∀ (k : ℕ) (i : ℤ), dist (E i) (E (i + k)) ≤ k * B := by
    intro k
    induction k with
    | zero => intro i; simp
    | succ k ih =>
      intro i
      have h1 := ih i
      have h2 := h (i + k)
      have h3 := dist_triangle (E i) (E (i + k)) (E (i + k + 1))
      rw [show i + ((k + 1 : ℕ) : ℤ) = i + k + 1 by push_cast; ring]
      push_cast
      linarith
  rcases le_total 0 s with hs | hs
  · obtain ⟨k, rfl⟩ := Int.eq_ofNat_of_zero_le hs
    have := up k i
    rw [dist_comm]
    simpa using this
  · obtain ⟨k, hk⟩ := Int.eq_ofNat_of_zero_le (show 0 ≤ -s by omega)
    have := up k (i + s)
    rw [show i + s + (k : ℤ) = i by omega] at this
    rw [show s = -(k : ℤ) by omega] at this ⊢
    simpa using this

/-- The result of the window filter as vectors. -/
theorem window_vectors {r : Reg SmoothFn} {name : String} (hf : getSmooth r name = .ok windowFn) {c : Curve ℝ} (hc : WF c)
    (hne : c.rows ≠ []) (hd : c.dtype = .float) {ws : List ℝ} (hs : 0 < ws.sum) {p : WinParams}
    (hp : makeWindow p.wtype p.size = .ok (.floats (fins ws))) {cv : ℝ} (hcv : p.cval = .fin cv) (hmode : BoundaryMode p.mode) :
    ∃ (c' : Curve ℝ) (e : Nat → ℤ → ℝ), (finCurve c).smooth r name (.window p) = .ok (finCurve c') ∧ c'.size = c.size ∧ c'.ndim = c.ndim ∧
      (∀ j, Continues p.mode c.size cv (fun q => at2 c.rows q j) (e j)) ∧
      (∀ i, i < c.size → pt c.ncols (c.rows.getD i []) = extVec c.ncols e i) ∧
      ∀ i, i < c.size → pt c.ncols (c'.rows.getD i []) =
        ∑ k ∈ Finset.range ws.length, (ws.getD k 0 / ws.sum) • extVec c.ncols e (i + (ws.length / 2 : Nat) - k) := by
  have hn : 0 < c.size := List.length_pos_iff.2 hne
  choose e he using fun j => C100_continuation hmode hn cv (fun q => at2 c.rows q j)
  obtain ⟨c', h1, hc', h2, h3, _, _, h4⟩ := C100_window hf hc hne (by simp [hd]) hs.ne' hp hcv hmode (e := e) (fun j _ => (he j).1)
  refine ⟨c', e, h1, h2, h3, fun j => (he j).1, ?_, ?_⟩
  · intro i hi
    unfold pt extVec
    congr 1
    funext j
    exact ((he j).1.inside i hi).symm
  · intro i hi
    ext j
    have := h4 i j hi j.2
    rw [hd] at this
    have hcast : ∀ x : ℝ, DType.float.cast x = x := fun _ => rfl
    rw [hcast] at this
    show at2 c'.rows i j = _
    rw [this, WithLp.ofLp_sum, Finset.sum_apply]
    rfl

theorem win_weight {ws : List ℝ} (hw : ∀ x ∈ ws, 0 ≤ x) (hs : 0 < ws.sum) (k : Nat) : 0 ≤ ws.getD k 0 / ws.sum := by
  apply div_nonneg _ hs.le
  rw [List.getD_eq_getElem?_getD]
  cases h : ws[k]? with
  | none => simp
  | some x => simpa using hw x (List.mem_of_getElem? h)

theorem win_total {ws : List ℝ} (hs : 0 < ws.sum) : ∑ k ∈ Finset.range ws.length, ws.getD k 0 / ws.sum = 1 := by
  rw [← Finset.sum_div, ← list_sum_getD, div_self hs.ne']

/-- **C146 (any curve).** If the segments of a float curve are not longer than `B`, a window of entries at least 0 and a positive sum moves
no point by more than half the window length times `B`, at the ends too, in the modes `reflect` (the default), `mirror` and `nearest`. -/
theorem C146_moved {r : Reg SmoothFn} {name : String} (hf : getSmooth r name = .ok windowFn) {c : Curve ℝ} (hc : WF c)
    (hne : c.rows ≠ []) (hd : c.dtype = .float) {ws : List ℝ} (hw : ∀ x ∈ ws, 0 ≤ x) (hs : 0 < ws.sum) {p : WinParams}
    (hp : makeWindow p.wtype p.size = .ok (.floats (fins ws))) {cv : ℝ} (hcv : p.cval = .fin cv)
    (hm : p.mode = "reflect" ∨ p.mode = "mirror" ∨ p.mode = "nearest") {B : ℝ} (hB : 0 ≤ B)
    (hgap : ∀ i, i + 1 < c.size → gap c.ndim (c.rows.getD i []) (c.rows.getD (i + 1) []) ≤ B) :
    ∃ c', (finCurve c).smooth r name (.window p) = .ok (finCurve c') ∧ c'.size = c.size ∧ c'.ndim = c.ndim ∧
      ∀ i, i < c.size → gap c.ndim (c'.rows.getD i []) (c.rows.getD i []) ≤ (ws.length / 2 : Nat) * B := by
  have hmode : BoundaryMode p.mode := by
    unfold BoundaryMode
    rcases hm with h | h | h <;> simp [h]
  have hn : 0 < c.size := List.length_pos_iff.2 hne
  obtain ⟨c', e, h1, h2, h3, he, hin, hout⟩ := window_vectors hf hc hne hd hs hp hcv hmode
  refine ⟨c', h1, h2, h3, fun i hi => ?_⟩
  have hD := extSteps (m := c.ncols) (fun j _ => he j)
  have hall : ∀ s, dist (extVec c.ncols e s) (extVec c.ncols e (s + 1)) ≤ B := by
    intro s
    by_cases h1 : p.mode = "mirror" ∧ c.size = 1
    · have : ∀ s, extVec c.ncols e s = extVec c.ncols e 0 := fun s => extVec_congr fun j _ => ((he j).mirror h1.1).2 h1.2 s
      rw [this s, this (s + 1), dist_self]
      exact hB
    · refine steps_bounded (D := fun i => dist (extVec c.ncols e i) (extVec c.ncols e (i + 1))) hn hD ?_ hB ?_ s
      · rcases hm with h | h | h
        · exact .inl h
        · exact .inr (.inl ⟨h, fun h' => h1 ⟨h, h'⟩⟩)
        · exact .inr (.inr h)
      · intro i h0 hi
        obtain ⟨q, rfl⟩ := Int.eq_ofNat_of_zero_le h0
        have := hgap q (by omega)
        unfold gap at this
        rw [show c.ndim = c.ncols from rfl, hin q (by omega), hin (q + 1) (by omega)] at this
        simpa using this
  have hw0 := win_weight hw hs
  have hw1 := win_total hs
  show dist (pt c.ncols _) (pt c.ncols _) ≤ _
  rw [hin i hi, hout i hi]
  have e1 : extVec c.ncols e i = ∑ k ∈ Finset.range ws.length, (ws.getD k 0 / ws.sum) • extVec c.ncols e i := by
    rw [← Finset.sum_smul, hw1, one_smul]
  rw [e1]
  refine (dist_sum_sum_le _ _ _).trans ?_
  have : ∀ k ∈ Finset.range ws.length, dist ((ws.getD k 0 / ws.sum) • extVec c.ncols e (i + (ws.length / 2 : Nat) - k))
      ((ws.getD k 0 / ws.sum) • extVec c.ncols e i) ≤ ws.getD k 0 / ws.sum * ((ws.length / 2 : Nat) * B) := by
    intro k hk
    have hk := Finset.mem_range.1 hk
    rw [dist_smul₀, Real.norm_of_nonneg (hw0 k)]
    refine mul_le_mul_of_nonneg_left ?_ (hw0 k)
    have := steps_dist hall i ((ws.length / 2 : Nat) - k)
    rw [← add_sub_assoc] at this
    refine this.trans (mul_le_mul_of_nonneg_right ?_ hB)
    rw [abs_le]
    have a1 : ((ws.length / 2 : Nat) : ℤ) - k ≤ (ws.length / 2 : Nat) := by omega
    have a2 : -((ws.length / 2 : Nat) : ℤ) ≤ ((ws.length / 2 : Nat) : ℤ) - k := by omega
    have b1 : (((ws.length / 2 : Nat) - k : ℤ) : ℝ) ≤ (((ws.length / 2 : Nat) : ℤ) : ℝ) := Int.cast_le.2 a1
    have b2 : ((-((ws.length / 2 : Nat) : ℤ) : ℤ) : ℝ) ≤ (((ws.length / 2 : Nat) - k : ℤ) : ℝ) := Int.cast_le.2 a2
    rw [Int.cast_neg, Int.cast_natCast] at b2
    rw [Int.cast_natCast] at b1
    exact ⟨b2, b1⟩
  refine (Finset.sum_le_sum this).trans ?_
  rw [← Finset.sum_mul, hw1, one_mul]

/-- **C146 (smooth curves).** The points are those of a curve `g` at the step `h`, whose derivative changes by at most `M` times the distance.
A symmetric window with an odd number `2 m + 1` of entries at least 0 and a positive sum moves a point at least `m` points away from both ends
by at most `M h² / 2` times the mean of `(k - m)²` under the window, so by at most `M (m h)² / 2`. All modes. -/
theorem C146_second {r : Reg SmoothFn} {name : String} (hf : getSmooth r name = .ok windowFn) {c : Curve ℝ} (hc : WF c)
    (hne : c.rows ≠ []) (hd : c.dtype = .float) {ws : List ℝ} (hw : ∀ x ∈ ws, 0 ≤ x) (hs : 0 < ws.sum) (hsym : SymWin ws) {m : Nat}
    (hl : ws.length = 2 * m + 1) {p : WinParams}
    (hp : makeWindow p.wtype p.size = .ok (.floats (fins ws))) {cv : ℝ} (hcv : p.cval = .fin cv) (hmode : BoundaryMode p.mode)
    {n : Nat} {g d : ℝ → EuclideanSpace ℝ (Fin n)} {a b o h M : ℝ} (hM : 0 ≤ M) (hsa : SampledAt g a b o h c) (h1 : DerivOn a b g d)
    (hlip : LipOn a b M d) :
    ∃ c', (finCurve c).smooth r name (.window p) = .ok (finCurve c') ∧ c'.size = c.size ∧ c'.ndim = c.ndim ∧
      ∀ i, m ≤ i → i + m < c.size →
        ‖rowVec n c'.rows i - g (o + i * h)‖ ≤ M / 2 * h ^ 2 * ∑ k ∈ Finset.range ws.length, ws.getD k 0 / ws.sum * ((k : ℝ) - m) ^ 2 ∧
        ‖rowVec n c'.rows i - g (o + i * h)‖ ≤ M / 2 * (m * h) ^ 2 := by
  obtain ⟨c', e, g1, g2, g3, he, hin, hout⟩ := window_vectors hf hc hne hd hs hp hcv hmode
  refine ⟨c', g1, g2, g3, fun i hi hi' => ?_⟩
  have hw0 := win_weight hw hs
  have hw1 := win_total hs
  obtain rfl := hsa.ndim
  have hpt : ∀ q : Nat, q < c.size → extVec c.ncols e q = g (o + q * h) := by
    intro q hq
    rw [← hin q hq]
    exact hsa.pts q hq
  obtain ⟨x, hx⟩ : ∃ x, x = o + i * h := ⟨_, rfl⟩
  have hxin : x ∈ Icc a b := by rw [hx]; exact hsa.range i (show i < c.size by omega)
  have hm2 : ws.length / 2 = m := by omega
  have hsum : rowVec c.ncols c'.rows i = ∑ k ∈ Finset.range ws.length, (ws.getD k 0 / ws.sum) • g (x + ((m : ℝ) - k) * h) := by
    unfold rowVec
    rw [hout i (by omega), hm2]
    apply Finset.sum_congr rfl
    intro k hk
    have hk := Finset.mem_range.1 hk
    congr 1
    have := hpt (i + m - k) (by omega)
    rw [show ((i + m - k : ℕ) : ℤ) = (i : ℤ) + m - k by omega] at this
    rw [this, hx]
    congr 1
    rw [Nat.cast_sub (by omega)]
    push_cast
    ring
  have hflip : ∑ k ∈ Finset.range ws.length, (ws.getD k 0 / ws.sum) • g (x + ((m : ℝ) - k) * h) =
      ∑ k ∈ Finset.range ws.length, (ws.getD k 0 / ws.sum) • g (x - ((m : ℝ) - k) * h) := by
    rw [← Finset.sum_range_reflect]
    apply Finset.sum_congr rfl
    intro k hk
    have hk := Finset.mem_range.1 hk
    rw [symWin_getD hsym k hk]
    congr 2
    rw [Nat.cast_sub (by omega), Nat.cast_sub (by omega), hl]
    push_cast
    ring
  have hrange : ∀ k, k < ws.length → x + ((m : ℝ) - k) * h ∈ Icc a b ∧ x - ((m : ℝ) - k) * h ∈ Icc a b := by
    intro k hk
    have r1 := hsa.range (i + m - k) (show _ < c.size by omega)
    have r2 := hsa.range (i + k - m) (show _ < c.size by omega)
    rw [Nat.cast_sub (by omega)] at r1 r2
    push_cast at r1 r2
    rw [hx]
    constructor
    · rwa [show o + i * h + ((m : ℝ) - k) * h = o + ((i : ℝ) + m - k) * h by ring]
    · rwa [show o + i * h - ((m : ℝ) - k) * h = o + ((i : ℝ) + k - m) * h by ring]
  have hdiff : (2 : ℝ) • (rowVec c.ncols c'.rows i - g x) =
      ∑ k ∈ Finset.range ws.length, (ws.getD k 0 / ws.sum) • (g (x + ((m : ℝ) - k) * h) + g (x - ((m : ℝ) - k) * h) - (2 : ℝ) • g x) := by
    simp only [smul_sub, smul_add, Finset.sum_sub_distrib, Finset.sum_add_distrib]
    rw [← hflip, ← hsum, ← Finset.sum_smul, hw1, one_smul, two_smul]
  have hone : ∀ s : ℝ, x + s ∈ Icc a b → x - s ∈ Icc a b → ‖g (x + s) + g (x - s) - (2 : ℝ) • g x‖ ≤ M * s ^ 2 := by
    intro s hs1 hs2
    have t1 := taylor1 h1 hlip hxin hs1
    have t2 := taylor1 h1 hlip hxin hs2
    rw [show x + s - x = s by ring, sq_abs] at t1
    rw [show x - s - x = -s by ring, abs_neg, sq_abs] at t2
    have : g (x + s) + g (x - s) - (2 : ℝ) • g x = (g (x + s) - g x - s • d x) + (g (x - s) - g x - (-s) • d x) := by
      rw [two_smul, neg_smul]; abel
    rw [this]
    refine (norm_add_le _ _).trans ?_
    linarith
  have hmain : 2 * ‖rowVec c.ncols c'.rows i - g x‖ ≤ ∑ k ∈ Finset.range ws.length, ws.getD k 0 / ws.sum * (M * (((m : ℝ) - k) * h) ^ 2) := by
    have e2 : (2 : ℝ) = ‖(2 : ℝ)‖ := by norm_num
    nth_rewrite 1 [e2]
    rw [← norm_smul, hdiff]
    refine (norm_sum_le _ _).trans (Finset.sum_le_sum fun k hk => ?_)
    have hk := Finset.mem_range.1 hk
    rw [norm_smul, Real.norm_of_nonneg (hw0 k)]
    exact mul_le_mul_of_nonneg_left (hone _ (hrange k hk).1 (hrange k hk).2) (hw0 k)
  have first : ‖rowVec c.ncols c'.rows i - g x‖ ≤ M / 2 * h ^ 2 * ∑ k ∈ Finset.range ws.length, ws.getD k 0 / ws.sum * ((k : ℝ) - m) ^ 2 := by
    have e3 : ∑ k ∈ Finset.range ws.length, ws.getD k 0 / ws.sum * (M * (((m : ℝ) - k) * h) ^ 2) =
        M * h ^ 2 * ∑ k ∈ Finset.range ws.length, ws.getD k 0 / ws.sum * ((k : ℝ) - m) ^ 2 := by
      rw [Finset.mul_sum]
      exact Finset.sum_congr rfl fun k _ => by ring
    rw [e3] at hmain
    linarith
  rw [← hx]
  refine ⟨first, first.trans ?_⟩
  have hle : ∑ k ∈ Finset.range ws.length, ws.getD k 0 / ws.sum * ((k : ℝ) - m) ^ 2 ≤ (m : ℝ) ^ 2 := by
    have : ∀ k ∈ Finset.range ws.length, ws.getD k 0 / ws.sum * ((k : ℝ) - m) ^ 2 ≤ ws.getD k 0 / ws.sum * (m : ℝ) ^ 2 := by
      intro k hk
      have hk := Finset.mem_range.1 hk
      refine mul_le_mul_of_nonneg_left ?_ (hw0 k)
      have a1 : (k : ℝ) ≤ 2 * m := by exact_mod_cast (by omega : k ≤ 2 * m)
      have a2 : (0 : ℝ) ≤ k := Nat.cast_nonneg k
      nlinarith
    refine (Finset.sum_le_sum this).trans ?_
    rw [← Finset.sum_mul, hw1, one_mul]
  have h0 : 0 ≤ M / 2 * h ^ 2 := by positivity
  calc _ ≤ M / 2 * h ^ 2 * (m : ℝ) ^ 2 := mul_le_mul_of_nonneg_left hle h0
    _ = _ := by ring

/-- **C146 (circle).** The default smoothing with `2 m + 1` points of an `arc` with `n` points at the angle step `h` moves all points by at most
`m |r| h` and those at least `m` points away from both ends by at most `|r| (m h)² / 2`. -/
theorem C146_arc {R : Reg SmoothFn} {name : String} (hf : getSmooth R name = .ok windowFn) {a b : ℝ} (r c : ℝ) (hab : a ≤ b) {n : Nat}
    (hn : 2 ≤ n) (m : Nat) :
    ∃ C C', arc a b n r c = .ok C ∧ (finCurve C).smooth R name (.window { size := (2 * m + 1 : Nat) }) = .ok (finCurve C') ∧ C.size = n ∧ C'.size = n ∧
      (∀ i, i < n → gap 2 (C'.rows.getD i []) (C.rows.getD i []) ≤ m * (|r| * ((b - a) / ((n : ℝ) - 1)))) ∧
      ∀ i, m ≤ i → i + m < n → gap 2 (C'.rows.getD i []) (C.rows.getD i []) ≤ |r| / 2 * (m * ((b - a) / ((n : ℝ) - 1))) ^ 2 := by
  obtain ⟨f, hf'⟩ : ∃ f : ℝ → ℝ, f = fun t => Real.cos t * r + c := ⟨_, rfl⟩
  obtain ⟨g, hg'⟩ : ∃ g : ℝ → ℝ, g = fun t => Real.sin t * r + c := ⟨_, rfl⟩
  obtain ⟨h, hh⟩ : ∃ h, h = (b - a) / ((n : ℝ) - 1) := ⟨_, rfl⟩
  have hn1 : (0 : ℝ) < (n : ℝ) - 1 := by
    have : (2 : ℝ) ≤ n := by exact_mod_cast hn
    linarith
  have hh0 : 0 ≤ h := by rw [hh]; exact div_nonneg (by linarith) hn1.le
  obtain ⟨ws, g1, g2, g3, g4⟩ := hann_sym (2 * m + 1) (by omega) (by omega)
  have hl : ws.length = 2 * m + 1 := by
    obtain ⟨ws', k1, _, _, k4⟩ := C68_hann_partial (2 * m + 1) (by omega) (by omega)
    rw [g1] at k1
    have : ws = ws' := by
      injection k1 with k1
      injection k1 with k1
      exact List.map_injective_iff.2 (fun a b h => by simpa using h) k1
    rw [this, k4]
  have d1 : DerivOn a b (planePt f g) (planePt (fun t => -(Real.sin t * r)) (fun t => Real.cos t * r)) := by
    apply planePt_deriv
    · intro t; rw [hf']; simpa using ((Real.hasDerivAt_cos t).mul_const r).add_const c
    · intro t; rw [hg']; simpa using ((Real.hasDerivAt_sin t).mul_const r).add_const c
  have d2 : DerivOn a b (planePt (fun t => -(Real.sin t * r)) (fun t => Real.cos t * r)) (planePt (fun t => -(Real.cos t * r)) (fun t => -(Real.sin t * r))) := by
    apply planePt_deriv
    · intro t; exact ((Real.hasDerivAt_sin t).mul_const r).neg
    · intro t; simpa using ((Real.hasDerivAt_cos t).mul_const r)
  have nrm : ∀ u v : ℝ, √ (u * r * (u * r) + v * r * (v * r)) = √ (u * u + v * v) * |r| := by
    intro u v
    rw [show u * r * (u * r) + v * r * (v * r) = (u * u + v * v) * (r ^ 2) by ring, Real.sqrt_mul (add_nonneg (mul_self_nonneg u) (mul_self_nonneg v)), Real.sqrt_sq_eq_abs]
  have n1 : ∀ x ∈ Icc a b, ‖planePt (fun t => -(Real.sin t * r)) (fun t => Real.cos t * r) x‖ ≤ |r| := by
    intro x _
    rw [norm_plane]
    have := nrm (Real.sin x) (Real.cos x)
    rw [show Real.sin x * Real.sin x + Real.cos x * Real.cos x = 1 by linarith [Real.sin_sq_add_cos_sq x, sq (Real.sin x), sq (Real.cos x)]] at this
    simp [planePt, this]
  have n2 : ∀ x ∈ Icc a b, ‖planePt (fun t => -(Real.cos t * r)) (fun t => -(Real.sin t * r)) x‖ ≤ |r| := by
    intro x _
    rw [norm_plane]
    have := nrm (Real.cos x) (Real.sin x)
    rw [show Real.cos x * Real.cos x + Real.sin x * Real.sin x = 1 by linarith [Real.sin_sq_add_cos_sq x, sq (Real.sin x), sq (Real.cos x)]] at this
    simp [planePt, this]
  obtain ⟨C, hC⟩ : ∃ C, C = planeSamples f g a b n := ⟨_, rfl⟩
  have hsz : C.size = n := by rw [hC]; exact planeSamples_size f g a b n
  have hWF : WF C := by rw [hC]; exact planeSamples_WF f g a b n
  have hsa : SampledAt (planePt f g) a b a h C := by rw [hC, hh]; exact planeSamples_sampled f g hab hn
  have hne : C.rows ≠ [] := by intro h0; simp [Curve.size, h0] at hsz; omega
  have hdt : C.dtype = .float := by rw [hC]; rfl
  have hnd : C.ndim = 2 := hsa.ndim
  have l1 := LipOn.of_deriv d1 n1
  have hgap : ∀ i, i + 1 < C.size → gap C.ndim (C.rows.getD i []) (C.rows.getD (i + 1) []) ≤ |r| * h := by
    intro i hi
    have r1 := hsa.range i (show i < C.size by omega)
    have r2 := hsa.range (i + 1) hi
    have p1 := hsa.pts i (show i < C.size by omega)
    have p2 := hsa.pts (i + 1) hi
    have := l1 _ r2 _ r1
    rw [← p1, ← p2] at this
    rw [hnd]
    unfold gap
    rw [dist_eq_norm]
    refine this.trans (le_of_eq ?_)
    push_cast
    rw [show a + (i : ℝ) * h - (a + ((i : ℝ) + 1) * h) = -h by ring, abs_neg, abs_of_nonneg hh0]
  obtain ⟨C', k1, k2, k3, k4⟩ := C146_moved hf hWF hne hdt g2 g3 (p := { size := (2 * m + 1 : Nat) }) g1 rfl (.inl rfl) (B := |r| * h) (by positivity) hgap
  obtain ⟨C'', j1, j2, j3, j4⟩ := C146_second hf hWF hne hdt g2 g3 g4 hl (p := { size := (2 * m + 1 : Nat) }) g1 rfl (by simp [BoundaryMode]) (abs_nonneg r) hsa d1
    (LipOn.of_deriv d2 n2)
  have hcc : finCurve C' = finCurve C'' := by rw [k1] at j1; injection j1
  have hrows : C'.rows = C''.rows := by
    have := congrArg Curve.rows hcc
    exact List.map_injective_iff.2 (List.map_injective_iff.2 fun a b h => by simpa using h) this
  refine ⟨C, C', ?_, k1, hsz, by rw [k2, hsz], ?_, ?_⟩
  · rw [hC, hf', hg']
    unfold arc
    simp only [linspaceE_eq, bind, Except.bind]
    exact planeSamples_eq _ _ a b n (by omega)
  · intro i hi
    have := k4 i (by omega)
    rw [hnd, hl, show (2 * m + 1) / 2 = m by omega, hh] at this
    exact this
  · intro i hi hi'
    have := (j4 i hi (by omega)).2
    rw [← hrows, ← hsa.pts i (show i < C.size by omega), hh] at this
    unfold gap
    rw [dist_eq_norm]
    exact this

/-! ## The hypotheses are met -/

/-- C146: a half circle of radius 2 with 100 points and a window of 5. -/
example (f : SmoothFn) : ∃ C C', arc 0 3 (100 : Nat) 2 0 = .ok C ∧
    (finCurve C).smooth (smoothReg f) "window" (.window { size := (5 : Nat) }) = .ok (finCurve C') ∧
    ∀ i, 2 ≤ i → i + 2 < 100 → gap 2 (C'.rows.getD i []) (C.rows.getD i []) ≤ 1 / 100 := by
  obtain ⟨C, C', h1, h2, _, _, _, h3⟩ := C146_arc (smoothReg_window f) (a := 0) (b := 3) 2 0 (by norm_num) (n := 100) (by norm_num) 2
  refine ⟨C, C', h1, h2, fun i a b => (h3 i a b).trans ?_⟩
  norm_num

end Verif.Props
