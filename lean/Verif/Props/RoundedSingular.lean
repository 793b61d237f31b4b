import Verif.Model.RoundedSingular
import Verif.Props.RoundedResample
import Verif.Props.Nonsingular
import Verif.Props.Edit
import Verif.Props.Reversal
import Verif.Props.RoundedCross

/-!
C164: removing close points in floating point.
-/
namespace Verif.Props

open Verif Verif.Np Verif.Model Verif.Spec

section
variable {ε : ℝ} {fl : ℝ → ℝ} {c : Curve ℝ}

theorem chord_rounded {a b : List ℝ} {z : ℝ} (hf : Rounding ε fl) (h : ChordTo fl a b z) : fl z = z := by
  obtain ⟨_, _, _, _, rfl⟩ := h
  exact hf.idem _

/-- One decision. -/
theorem chord_decides (hf : Rounding ε fl) {n : Nat} (hn : 0 < n) (hε : 2 * ((n + 4 : ℕ) * ε) ≤ 1) {a b : List ℝ} (ha : a.length = n) (hb : b.length = n) {z : ℝ} (h : ChordTo fl a b z) :
    ((1 + ε) / 10 ^ 8 < (1 - 2 * ((n + 4 : ℕ) * ε)) * gap n a b → ¬ CloseFl fl z 0) ∧ ((1 + 2 * ((n + 4 : ℕ) * ε)) * gap n a b < (1 - ε) / 10 ^ 8 → CloseFl fl z 0) := by
  obtain ⟨h1, h2, -⟩ := C119_chord hf hn hε ha hb h
  rw [closeFl_zero hf, chord_rounded hf h, abs_of_nonneg h2]
  have e := abs_le.1 (hf.rel (1 / 10 ^ 8))
  rw [abs_of_pos (by norm_num : (0 : ℝ) < 1 / 10 ^ 8)] at e
  obtain ⟨l, u⟩ := abs_le.1 h1
  constructor
  · intro hg hc
    have : z ≤ (1 + ε) / 10 ^ 8 := by linarith [e.2]
    nlinarith
  · intro hg
    have : (1 - ε) / 10 ^ 8 ≤ fl (1 / 10 ^ 8) := by linarith [e.1]
    nlinarith

/-- The flags. -/
theorem nonsingular_flags (hf : Rounding ε fl) (hc : WF c) (hs : c.rows ≠ []) (hε : 2 * ((c.ndim + 4 : ℕ) * ε) ≤ 1) {r : Except PyErr (Curve ℝ)} (h : NonsingularTo fl c r) :
    ∃ c' ks, r = .ok c' ∧ SubCurve c c' ks ∧ ks.Pairwise (· < ·) ∧ (∀ k ∈ ks, k < c.size) ∧ 0 ∈ ks ∧ ∀ k a b, c.rows[k]? = some a → c.rows[k + 1]? = some b →
      ∃ z, ChordTo fl a b z ∧ (k + 1 ∈ ks ↔ ¬ CloseFl fl z 0) := by
  have hn : 0 < c.ndim := by have := hc.two_le; show 0 < c.ncols; omega
  rcases h with ⟨h, -⟩ | ⟨-, zs, flags, hz, hfl, rfl⟩
  · exact absurd h hs
  have hlz := hz.length_eq
  have hlf := hfl.length_eq
  have hp := List.length_pos_of_ne_nil hs
  simp only [List.length_zip, List.length_tail, List.length_cons] at hlz hlf
  have hsz : c.size = c.rows.length := rfl
  obtain ⟨c', ks, h1, h2, h3, h4⟩ := (C16_drop_bool hc (fun _ => .boolVec flags) flags rfl).1 (by omega)
  have hflag : ∀ k z, (1 :: zs)[k]? = some z → (k ∈ ks ↔ ¬ CloseFl fl z 0) := by
    intro k z hk
    have hk' := (List.getElem?_eq_some_iff.1 hk).1
    obtain ⟨b, hb⟩ : ∃ b, flags[k]? = some b := ⟨_, List.getElem?_eq_getElem (by simp at hk'; omega)⟩
    have := (List.forall₂_iff_get.1 hfl).2 k hk' (List.getElem?_eq_some_iff.1 hb).1
    simp only [List.get_eq_getElem] at this
    rw [(List.getElem?_eq_some_iff.1 hk).2, (List.getElem?_eq_some_iff.1 hb).2] at this
    rw [h4, hb, ← this]
    cases b <;> simp
  refine ⟨c', ks, h1, h2, h3, ?_, ?_, ?_⟩
  · intro k hk
    have := (List.getElem?_eq_some_iff.1 ((h4 k).1 hk)).1
    omega
  · rw [hflag 0 1 rfl, closeFl_zero hf, not_le]
    have e1 := (abs_le.1 (hf.rel (1 / 10 ^ 8))).2
    have e2 := (abs_le.1 (hf.rel 1)).1
    rw [abs_of_pos (by norm_num : (0 : ℝ) < 1 / 10 ^ 8)] at e1
    rw [abs_one] at e2
    have e10 : 10 * ε ≤ 1 := by
      have : (5 : ℝ) ≤ ((c.ndim + 4 : ℕ) : ℝ) := by exact_mod_cast (by omega : 5 ≤ c.ndim + 4)
      nlinarith [hf.nonneg]
    refine lt_of_lt_of_le ?_ (le_abs_self _)
    linarith
  · intro k a b ha hb
    have hk : k + 1 < c.rows.length := (List.getElem?_eq_some_iff.1 hb).1
    obtain ⟨z, hzk⟩ : ∃ z, zs[k]? = some z := ⟨_, List.getElem?_eq_getElem (by omega)⟩
    have hchord : ChordTo fl a b z := by
      have := (List.forall₂_iff_get.1 hz).2 k (by simp; omega) (List.getElem?_eq_some_iff.1 hzk).1
      simp only [List.get_eq_getElem, List.getElem_zip, List.getElem_tail] at this
      rwa [(List.getElem?_eq_some_iff.1 hzk).2, (List.getElem?_eq_some_iff.1 ha).2, (List.getElem?_eq_some_iff.1 hb).2] at this
    exact ⟨z, hchord, hflag (k + 1) z (by simpa using hzk)⟩

/-- **C164 (what is kept).** `nonsingular` of a curve of finite floats, computed with rounding: it returns a part of the curve with its parameter values, which contains the first point; a point farther from the point before it than `1e-8`, up to
the relative error `(2 (ndim + 4) + 1) ε` or so, is kept and one nearer is removed. -/
theorem C164_kept (hf : Rounding ε fl) (hc : WF c) (hs : c.rows ≠ []) (hε : 2 * ((c.ndim + 4 : ℕ) * ε) ≤ 1) {r : Except PyErr (Curve ℝ)} (h : NonsingularTo fl c r) :
    ∃ c' ks, r = .ok c' ∧ SubCurve c c' ks ∧ ks.Pairwise (· < ·) ∧ (∀ k ∈ ks, k < c.size) ∧ 0 ∈ ks ∧ ∀ k a b, c.rows[k]? = some a → c.rows[k + 1]? = some b →
      ((1 + ε) / 10 ^ 8 < (1 - 2 * ((c.ndim + 4 : ℕ) * ε)) * gap c.ndim a b → k + 1 ∈ ks) ∧ ((1 + 2 * ((c.ndim + 4 : ℕ) * ε)) * gap c.ndim a b < (1 - ε) / 10 ^ 8 → k + 1 ∉ ks) := by
  have hn : 0 < c.ndim := by have := hc.two_le; show 0 < c.ncols; omega
  obtain ⟨c', ks, h1, h2, h3, h4, h5, h6⟩ := nonsingular_flags hf hc hs hε h
  refine ⟨c', ks, h1, h2, h3, h4, h5, fun k a b ha hb => ?_⟩
  obtain ⟨z, hz, hk⟩ := h6 k a b ha hb
  have := chord_decides hf hn hε (hc.rect _ (List.mem_of_getElem? ha)) (hc.rect _ (List.mem_of_getElem? hb)) hz
  exact ⟨fun hg => hk.2 (this.1 hg), fun hg h => hk.1 h (this.2 hg)⟩

/-- There is a result. -/
theorem C164_exists (fl : ℝ → ℝ) (c : Curve ℝ) : ∃ r, NonsingularTo fl c r := by
  classical
  by_cases hs : c.rows = []
  · exact ⟨_, .inl ⟨hs, rfl⟩⟩
  · obtain ⟨_, _, ⟨zs, hz, _⟩, _⟩ := C163_exists fl c.rows 2 true
    refine ⟨_, .inr ⟨hs, zs, (1 :: zs).map (fun z => decide (CloseFl fl z 0)), hz, ?_, rfl⟩⟩
    rw [List.forall₂_map_right_iff]
    exact List.forall₂_same.2 fun z _ => decide_eq_true_iff

theorem finRow_fins' (r : List ℝ) : FinRow (fins r) := by
  intro x hx
  obtain ⟨y, -, rfl⟩ := List.mem_map.1 hx
  exact ⟨y, rfl⟩

theorem rowNums_fins (r : List ℝ) : (fins r).map num = r := by
  unfold fins
  rw [List.map_map]
  conv_rhs => rw [← List.map_id r]
  rfl

theorem picks_map {α β : Type} {xs : List α} {ys : List α} {zs : List β} {ks : List Nat} (f : α → β) (h1 : Picks xs ks ys) (h2 : Picks (xs.map f) ks zs) : zs = ys.map f := by
  unfold Picks at h1 h2
  have e : (fun k : Nat => (xs.map f)[k]?) = Option.map f ∘ fun k : Nat => xs[k]? := by
    funext k
    simp
  rw [e, ← List.map_map, ← h1, List.map_map] at h2
  have inj : Function.Injective (List.map (some : β → Option β)) := List.map_injective_iff.2 (Option.some_injective _)
  refine inj ?_
  rw [h2, List.map_map]
  rfl

/-- The same points are kept. -/
theorem sub_fins {c' : Curve ℝ} {d' : Curve (Val ℝ)} {ks : List Nat} (h1 : SubCurve c c' ks) (h2 : SubCurve (finCurve c) d' ks) (hne : ks ≠ []) : d' = finCurve c' := by
  have e1 : d'.rows = c'.rows.map fins := picks_map fins h1.points h2.points
  have e2 : d'.tdata = c'.tdata.map fins := by
    have p1 := h1.param
    have p2 := h2.param
    have q1 := h1.tvals
    have q2 := h2.tvals
    unfold Curve.isparametric at p1 p2
    cases hc : c.tdata with
    | none =>
      simp [finCurve, hc] at p1 p2
      rw [p1, p2]
      rfl
    | some t =>
      simp [finCurve, hc, Option.isSome_iff_exists] at p1 p2
      obtain ⟨t1, ht1⟩ := p1
      obtain ⟨t2, ht2⟩ := p2
      rw [ht1, ht2]
      have := picks_map Val.fin (q1 t t1 hc ht1) (q2 (fins t) t2 (by simp [finCurve, hc]) ht2)
      rw [this]
      rfl
  have e3 : d'.ncols = c'.ncols := (h2.ndim hne).trans (h1.ndim hne).symm
  have e4 : d'.dtype = c'.dtype := h2.dtype.trans h1.dtype.symm
  cases d'
  simp only at e1 e2 e3 e4
  subst e1 e2 e3 e4
  rfl

/-- The same decisions give the same curve. -/
theorem nonsingular_same (hf : Rounding ε fl) (hc : WF c) (hs : c.rows ≠ []) (hε : 2 * ((c.ndim + 4 : ℕ) * ε) ≤ 1) {r : Except PyErr (Curve ℝ)} (h : NonsingularTo fl c r)
    (hg : ∀ k a b z, c.rows[k]? = some a → c.rows[k + 1]? = some b → ChordTo fl a b z → (CloseFl fl z 0 ↔ gap c.ndim a b ≤ 1 / 100000000)) :
    ∃ c', r = .ok c' ∧ (finCurve c).nonsingular = .ok (finCurve c') := by
  obtain ⟨c', ks, h1, h2, h3, h3', h4, h5⟩ := nonsingular_flags hf hc hs hε h
  obtain ⟨d', ls, d1, d2, d3, -, d5⟩ := C17_kept_partial (finCurve_WF' hc) (show (finCurve c).rows ≠ [] by simpa [finCurve] using hs)
  have hmem : ∀ k, k ∈ ls ↔ k ∈ ks := by
    intro k
    rw [d5]
    cases k with
    | zero =>
      refine ⟨fun _ => h4, fun _ => ?_⟩
      have := List.length_pos_of_ne_nil hs
      refine ⟨fins c.rows[0], by simp [finCurve, this], finRow_fins' _, fun p hp => absurd hp (by omega)⟩
    | succ k =>
      have hsz : c.size = c.rows.length := rfl
      constructor
      · rintro ⟨r', hr', -, hn⟩
        simp only [finCurve, List.getElem?_map, Option.map_eq_some_iff] at hr'
        obtain ⟨b, hb, rfl⟩ := hr'
        have hk := (List.getElem?_eq_some_iff.1 hb).1
        have ha : c.rows[k]? = some (c.rows[k]) := List.getElem?_eq_getElem (by omega)
        obtain ⟨z, hz, hiff⟩ := h5 k _ _ ha hb
        rw [hiff, hg k _ _ z ha hb hz]
        intro hg'
        refine hn (fins c.rows[k]) (by omega) (by simp [finCurve, show k < c.rows.length by omega]) ⟨finRow_fins' _, finRow_fins' _, ?_⟩
        rw [rowNums_fins, rowNums_fins]
        exact hg'
      · intro hk
        have hk' := h3' _ hk
        have hb : c.rows[k + 1]? = some (c.rows[k + 1]) := List.getElem?_eq_getElem (by omega)
        have ha : c.rows[k]? = some (c.rows[k]) := List.getElem?_eq_getElem (by omega)
        refine ⟨fins c.rows[k + 1], by simp only [finCurve, List.getElem?_map, hb, Option.map_some], finRow_fins' _, ?_⟩
        intro p _ hp
        simp only [Nat.add_sub_cancel, finCurve, List.getElem?_map, ha, Option.map_some, Option.some.injEq] at hp
        subst hp
        rintro ⟨-, -, hnear⟩
        rw [rowNums_fins, rowNums_fins] at hnear
        obtain ⟨z, hz, hiff⟩ := h5 k _ _ ha hb
        rw [hiff, hg k _ _ z ha hb hz] at hk
        exact hk hnear
  have hls : ls = ks := List.Perm.eq_of_pairwise (le := (· < ·)) (fun a b _ _ h1 h2 => absurd h1 (by omega)) d3 h3 ((List.perm_ext_iff_of_nodup (d3.imp (fun h => Nat.ne_of_lt h)) (h3.imp (fun h => Nat.ne_of_lt h))).2 hmem)
  subst hls
  refine ⟨c', h1, ?_⟩
  rw [d1, sub_fins h2 d2 (List.ne_nil_of_mem h4)]

/-- **C164 (agreement).** If no two neighbouring points are apart `1e-8` up to the error, `nonsingular` with rounding returns the same curve as without. -/
theorem C164_agree (hf : Rounding ε fl) (hc : WF c) (hs : c.rows ≠ []) (hε : 2 * ((c.ndim + 4 : ℕ) * ε) ≤ 1) {r : Except PyErr (Curve ℝ)} (h : NonsingularTo fl c r)
    (hg : ∀ k a b, c.rows[k]? = some a → c.rows[k + 1]? = some b → (1 + ε) / 10 ^ 8 < (1 - 2 * ((c.ndim + 4 : ℕ) * ε)) * gap c.ndim a b ∨ (1 + 2 * ((c.ndim + 4 : ℕ) * ε)) * gap c.ndim a b < (1 - ε) / 10 ^ 8) :
    ∃ c', r = .ok c' ∧ (finCurve c).nonsingular = .ok (finCurve c') := by
  have hn : 0 < c.ndim := by have := hc.two_le; show 0 < c.ncols; omega
  refine nonsingular_same hf hc hs hε h ?_
  intro k a b z ha hb hz
  have hd := chord_decides hf hn hε (hc.rect _ (List.mem_of_getElem? ha)) (hc.rect _ (List.mem_of_getElem? hb)) hz
  have e0 := hf.nonneg
  have g0 := gap_nonneg c.ndim a b
  have m0 : 0 ≤ ((c.ndim + 4 : ℕ) : ℝ) * ε := mul_nonneg (Nat.cast_nonneg _) e0
  rcases hg k a b ha hb with h6 | h6
  · have h7 : (1 - 2 * ((c.ndim + 4 : ℕ) * ε)) * gap c.ndim a b ≤ gap c.ndim a b := by nlinarith
    have h8 : 1 / 100000000 ≤ (1 + ε) / 10 ^ 8 := by norm_num; linarith
    exact ⟨fun h => absurd h (hd.1 h6), fun h => by linarith⟩
  · have h7 : gap c.ndim a b ≤ (1 + 2 * ((c.ndim + 4 : ℕ) * ε)) * gap c.ndim a b := by nlinarith
    have h8 : (1 - ε) / 10 ^ 8 ≤ 1 / 100000000 := by norm_num; linarith
    exact ⟨fun _ => by linarith, fun _ => hd.2 h6⟩

/-- **C164 (no rounding).** Without rounding the result is that of the exact model. -/
theorem C164_exact (hc : WF c) (hs : c.rows ≠ []) {r : Except PyErr (Curve ℝ)} (h : NonsingularTo id c r) : ∃ c', r = .ok c' ∧ (finCurve c).nonsingular = .ok (finCurve c') := by
  have hid : Rounding 0 id := ⟨le_rfl, by norm_num, by intro x; simp, monotone_id, fun _ => rfl, fun _ => rfl⟩
  have hn : 0 < c.ndim := by have := hc.two_le; show 0 < c.ncols; omega
  refine nonsingular_same hid hc hs (by simp) h ?_
  intro k a b z ha hb hz
  have := C119_chord hid hn (by simp) (hc.rect _ (List.mem_of_getElem? ha)) (hc.rect _ (List.mem_of_getElem? hb)) hz
  have e : z = gap c.ndim a b := by
    have h1 := this.1
    simp only [mul_zero, zero_mul] at h1
    have := abs_nonpos_iff.1 h1
    linarith
  rw [closeFl_zero hid, id, id, abs_of_nonneg this.2.1, e]
  norm_num

/-- **C164 (usual sizes).** In binary64 and up to a million dimensions, points more than `1.000000001e-8` apart are kept and points less than `0.999999999e-8` apart are removed. -/
theorem C164_usual (hc : WF c) (hs : c.rows ≠ []) (hm : c.ndim ≤ 10 ^ 6) {r : Except PyErr (Curve ℝ)} (h : NonsingularTo rnd c r) :
    ∃ c' ks, r = .ok c' ∧ SubCurve c c' ks ∧ ks.Pairwise (· < ·) ∧ (∀ k ∈ ks, k < c.size) ∧ 0 ∈ ks ∧ ∀ k a b, c.rows[k]? = some a → c.rows[k + 1]? = some b →
      ((1 + 1 / 10 ^ 9) / 10 ^ 8 ≤ gap c.ndim a b → k + 1 ∈ ks) ∧ (gap c.ndim a b ≤ (1 - 1 / 10 ^ 9) / 10 ^ 8 → k + 1 ∉ ks) := by
  have b : ((c.ndim + 4 : ℕ) : ℝ) * 2⁻¹ ^ 53 ≤ (10 ^ 6 + 4) * 2⁻¹ ^ 53 := mul_le_mul_of_nonneg_right (by exact_mod_cast Nat.add_le_add_right hm 4) (by positivity)
  have n1 : ((10 : ℝ) ^ 6 + 4) * 2⁻¹ ^ 53 ≤ 2 / 10 ^ 10 := by norm_num
  have n2 : (2 : ℝ)⁻¹ ^ 53 ≤ 2 / 10 ^ 16 := by norm_num
  obtain ⟨c', ks, h1, h2, h3, h3', h4, h5⟩ := C164_kept rnd_rounding hc hs (by linarith) h
  refine ⟨c', ks, h1, h2, h3, h3', h4, fun k p q hp hq => ⟨fun hg => (h5 k p q hp hq).1 ?_, fun hg => (h5 k p q hp hq).2 ?_⟩⟩
  · have : (1 - 4 / 10 ^ 10) * ((1 + 1 / 10 ^ 9) / 10 ^ 8) ≤ (1 - 2 * ((c.ndim + 4 : ℕ) * 2⁻¹ ^ 53)) * gap c.ndim p q := mul_le_mul (by linarith) hg (by norm_num) (by linarith)
    refine lt_of_lt_of_le ?_ this
    have : (1 + (2 : ℝ)⁻¹ ^ 53) / 10 ^ 8 ≤ (1 + 2 / 10 ^ 16) / 10 ^ 8 := div_le_div_of_nonneg_right (by linarith) (by norm_num)
    refine lt_of_le_of_lt this ?_
    norm_num
  · have : (1 + 2 * ((c.ndim + 4 : ℕ) * 2⁻¹ ^ 53)) * gap c.ndim p q ≤ (1 + 4 / 10 ^ 10) * ((1 - 1 / 10 ^ 9) / 10 ^ 8) := mul_le_mul (by linarith) hg (gap_nonneg _ _ _) (by norm_num)
    refine lt_of_le_of_lt this ?_
    have : (1 - 2 / 10 ^ 16) / 10 ^ 8 ≤ (1 - (2 : ℝ)⁻¹ ^ 53) / 10 ^ 8 := div_le_div_of_nonneg_right (by linarith) (by norm_num)
    refine lt_of_lt_of_le ?_ this
    norm_num

end

/-! ## At the threshold -/

/-- The number 1e-8 of binary64, larger than `1 / 10 ^ 8`. -/
noncomputable def eps8 : ℝ := 3022314549036573 * 2⁻¹ ^ 78

theorem eps8_rnd : rnd (1 / 10 ^ 8) = eps8 := by
  rw [rnd_value (-27) 6044629098073146 (by norm_num) (by norm_num) (.inl (by norm_num [abs_lt]))]
  norm_num [eps8]

theorem eps8_fix : rnd eps8 = eps8 := by rw [← eps8_rnd, rnd_idem]

theorem eps8_sq : rnd (eps8 * eps8) = 8112963841460669 * 2⁻¹ ^ 106 := by
  rw [rnd_value (-54) 8112963841460669 (by norm_num [eps8]) (by norm_num [eps8]) (.inl (by norm_num [eps8, abs_lt]))]
  norm_num

theorem eps8_sqrt : rnd (√ (8112963841460669 * 2⁻¹ ^ 106)) = eps8 := by
  have h1 : (6044629098073146 - 1 / 4) * 2⁻¹ ^ 79 ≤ √ (8112963841460669 * 2⁻¹ ^ 106 : ℝ) := Real.le_sqrt_of_sq_le (by norm_num)
  have h2 : √ (8112963841460669 * 2⁻¹ ^ 106 : ℝ) ≤ (6044629098073146 + 1 / 4) * 2⁻¹ ^ 79 := Real.sqrt_le_iff.2 ⟨by norm_num, by norm_num⟩
  generalize √ (8112963841460669 * 2⁻¹ ^ 106 : ℝ) = x at h1 h2
  rw [rnd_value (x := x) (-27) 6044629098073146 (by norm_num at h1 ⊢; linarith) (by norm_num at h2 ⊢; linarith) (.inl ?_)]
  · norm_num [eps8]
  · rw [abs_lt]
    norm_num at h1 h2 ⊢
    constructor <;> linarith

/-- Two points whose distance is the binary64 number 1e-8. -/
noncomputable def atThreshold : Curve ℝ := ⟨[[0, 0], [eps8, 0]], 2, none, .float⟩

theorem atThreshold_WF : WF atThreshold where
  two_le := by simp [atThreshold]
  rect := by simp [atThreshold]
  tlen := by simp [atThreshold]
  repr := by simp [atThreshold, DType.cast]

/-- **C164 fails at the threshold.** Two points whose distance is the binary64 number 1e-8, which is larger than `1 / 10 ^ 8`: in binary64 `nonsingular` removes the second one, without rounding it does not. -/
theorem C164_threshold_fails : (∀ r, NonsingularTo rnd atThreshold r → ∃ c', r = .ok c' ∧ c'.rows = [[0, 0]]) ∧ (finCurve atThreshold).nonsingular = .ok (finCurve atThreshold) := by
  constructor
  · intro r h
    obtain ⟨c', ks, h1, h2, h3, h3', h4, h5⟩ := nonsingular_flags rnd_rounding atThreshold_WF (by simp [atThreshold]) (by norm_num [atThreshold, Curve.ndim]) h
    obtain ⟨z, hz, hk⟩ := h5 0 [0, 0] [eps8, 0] rfl rfl
    have ez : z = eps8 := by
      obtain ⟨w, w', a1, a2, rfl⟩ := chordTo_plane.1 hz
      have t0 : w' = 0 := by
        rcases a2 with a2 | a2 <;> simpa [rnd_zero] using a2
      have t1 : rnd w = 8112963841460669 * 2⁻¹ ^ 106 := by
        rcases a1 with rfl | rfl
        · rw [rnd_idem, sub_zero, eps8_fix, eps8_sq]
        · rw [sub_zero, eps8_fix, eps8_sq]
      rw [t0, add_zero, t1, eps8_sqrt]
    have p8 : 0 < eps8 := by norm_num [eps8]
    have k1 : 1 ∉ ks := by
      rw [zero_add] at hk
      rw [hk, not_not, closeFl_zero rnd_rounding, ez, eps8_fix, eps8_rnd, abs_of_pos p8]
    have kz : ∀ k ∈ ks, k = 0 := by
      intro k hk
      have h6 : k < 2 := h3' k hk
      have h7 : k ≠ 1 := by rintro rfl; exact k1 hk
      omega
    have hks : ks = [0] := by
      cases ks with
      | nil => simp at h4
      | cons x l =>
        have hx := kz x (by simp)
        subst hx
        cases l with
        | nil => rfl
        | cons y l =>
          have hy := kz y (by simp)
          subst hy
          simp at h3
    subst hks
    have := h2.points
    unfold Picks at this
    simp only [atThreshold, List.map_cons, List.map_nil, List.getElem?_cons_zero] at this
    cases hr : c'.rows with
    | nil => simp [hr] at this
    | cons x l => simp [hr] at this; exact ⟨c', h1, by rw [hr, this.1, this.2]⟩
  · refine C17_unchanged (finCurve_WF' atThreshold_WF) (by simp [finCurve, atThreshold]) ?_ ?_
    · intro r hr
      obtain ⟨y, -, rfl⟩ := List.mem_map.1 hr
      exact finRow_fins' y
    · intro k a b ha hb
      have hk := (List.getElem?_eq_some_iff.1 hb).1
      simp only [finCurve, atThreshold, List.map_cons, List.map_nil, List.length_cons, List.length_nil] at hk
      obtain rfl : k = 0 := by omega
      simp only [finCurve, atThreshold, List.map_cons, List.map_nil, List.getElem?_cons_zero, zero_add, List.getElem?_cons_succ, Option.some.injEq] at ha hb
      subst ha hb
      rintro ⟨-, -, hg⟩
      have e : gap 2 (List.map num (fins [0, 0])) (List.map num (fins [eps8, 0])) = |eps8 - 0| := gap_axis 0 eps8
      have hg : gap 2 (List.map num (fins [0, 0])) (List.map num (fins [eps8, 0])) ≤ 1 / 100000000 := hg
      rw [e, sub_zero, abs_of_pos (by norm_num [eps8])] at hg
      norm_num [eps8] at hg

/-! ## Segments -/

/-- **C164 (equal points and singular segments).** `Point.__eq__`, hence `Segment.singular`, in rounded arithmetic: points whose coordinates differ by at most 0.99 of the tolerance `1e-8 + 1e-5 |y|` are equal, and the coordinates of equal points
differ by at most 1.01 of it. -/
theorem C164_singular {ε : ℝ} {fl : ℝ → ℝ} (hf : Rounding ε fl) (hε : ε ≤ 1 / 1000) {n : Nat} (p q : Vec n ℝ) : ((∀ i, |p i - q i| ≤ 0.99 * (1 / 10 ^ 8 + 1 / 10 ^ 5 * |q i|)) → VecCloseFl fl p q) ∧
    (VecCloseFl fl p q → ∀ i, |p i - q i| ≤ 1.01 * (1 / 10 ^ 8 + 1 / 10 ^ 5 * |q i|)) ∧ (VecCloseFl fl p p) ∧ (VecCloseFl id p q ↔ vecEq p q = true) :=
  ⟨fun h i => closeFl_of hf hε (h i), fun h i => of_closeFl hf hε (h i), fun i => closeFl_of hf hε (by rw [sub_self, abs_zero]; positivity), vecCloseFl_id p q⟩

/-! ## Examples -/

/-- In binary64 nothing is removed from this path, by agreement with the exact model. -/
example : ∃ c', NonsingularTo rnd exPath (.ok c') ∧ (finCurve exPath).nonsingular = .ok (finCurve c') := by
  obtain ⟨r, hr⟩ := C164_exists rnd exPath
  have g : ∀ k a b, exPath.rows[k]? = some a → exPath.rows[k + 1]? = some b → 1 ≤ gap exPath.ndim a b := by
    intro k a b ha hb
    have hk : k + 1 < 3 := (List.getElem?_eq_some_iff.1 hb).1
    have h2 : ∀ j, j < 2 → |b.getD j 0 - a.getD j 0| ≤ gap 2 a b := fun j hj => coord_le_gap hj
    obtain rfl | rfl : k = 0 ∨ k = 1 := by omega
    · simp only [exPath, List.getElem?_cons_zero, List.getElem?_cons_succ, zero_add, Option.some.injEq] at ha hb
      subst ha hb
      have := h2 0 (by norm_num)
      norm_num at this
      show 1 ≤ gap 2 _ _
      linarith
    · simp only [exPath, List.getElem?_cons_zero, List.getElem?_cons_succ, Nat.reduceAdd, Option.some.injEq] at ha hb
      subst ha hb
      have := h2 1 (by norm_num)
      norm_num at this
      show 1 ≤ gap 2 _ _
      linarith
  have hg : ∀ k a b, exPath.rows[k]? = some a → exPath.rows[k + 1]? = some b → (1 + (2 : ℝ)⁻¹ ^ 53) / 10 ^ 8 < (1 - 2 * ((exPath.ndim + 4 : ℕ) * 2⁻¹ ^ 53)) * gap exPath.ndim a b ∨
      (1 + 2 * ((exPath.ndim + 4 : ℕ) * (2 : ℝ)⁻¹ ^ 53)) * gap exPath.ndim a b < (1 - 2⁻¹ ^ 53) / 10 ^ 8 := by
    intro k a b ha hb
    left
    have := g k a b ha hb
    have e : exPath.ndim = 2 := rfl
    rw [e] at this ⊢
    norm_num
    linarith
  obtain ⟨c', rfl, h⟩ := C164_agree rnd_rounding exPath_WF (by simp [exPath]) (by norm_num [exPath, Curve.ndim]) hr hg
  exact ⟨c', hr, h⟩

/-- Three points, the second very near to the first. -/
noncomputable def nearStart : Curve ℝ := ⟨[[0, 0], [5 / 10 ^ 9, 0], [1, 0]], 2, none, .float⟩

/-- The second point is removed, the third is kept. -/
example : ∃ c' ks, NonsingularTo rnd nearStart (.ok c') ∧ SubCurve nearStart c' ks ∧ 0 ∈ ks ∧ 1 ∉ ks ∧ 2 ∈ ks := by
  have wf : WF nearStart := ⟨by simp [nearStart], by simp [nearStart], by simp [nearStart], by simp [nearStart, DType.cast]⟩
  obtain ⟨r, hr⟩ := C164_exists rnd nearStart
  obtain ⟨c', ks, rfl, h1, -, -, h2, h3⟩ := C164_usual wf (by simp [nearStart]) (by simp [nearStart, Curve.ndim]) hr
  have e1 : gap 2 [0, 0] [5 / 10 ^ 9, 0] = 5 / 10 ^ 9 := by
    have := gap_axis 0 (5 / 10 ^ 9)
    rw [sub_zero, abs_of_pos (by norm_num)] at this
    exact this
  have e2 : gap 2 [5 / 10 ^ 9, 0] [1, 0] = 1 - 5 / 10 ^ 9 := by
    have := gap_axis (5 / 10 ^ 9) 1
    rw [abs_of_pos (by norm_num)] at this
    exact this
  refine ⟨c', ks, hr, h1, h2, (h3 0 _ _ rfl rfl).2 ?_, (h3 1 _ _ rfl rfl).1 ?_⟩
  · show gap 2 _ _ ≤ _
    rw [e1]; norm_num
  · show _ ≤ gap 2 _ _
    rw [e2]; norm_num

/-- Equal points of binary64. -/
example : VecCloseFl rnd ![1, 2] ![1 + 1 / 10 ^ 6, 2] := (C164_singular rnd_rounding (by norm_num) _ _).1 fun i => by
  fin_cases i <;> norm_num [abs_of_pos, abs_of_neg]

/-! ## Concrete cases -/

example {r : Except PyErr (Curve ℝ)} (h : NonsingularTo rnd exPath r) := C164_kept rnd_rounding exPath_WF (by simp [exPath]) (by norm_num [exPath, Curve.ndim]) h
example {r : Except PyErr (Curve ℝ)} (h : NonsingularTo id exPath r) := C164_exact exPath_WF (by simp [exPath]) h

end Verif.Props
