import Verif.Props.Rounded
import Verif.Spec.Range
import Verif.Props.ReverseInterp
import Verif.Props.Csaps2
import Verif.Props.Univariate

/-!
C142: the default parameter (cumulative chord lengths) in floating point arithmetic.
-/
namespace Verif.Props

open Verif Verif.Np Verif.Model Verif.Spec

section
variable {ε : ℝ} {fl : ℝ → ℝ} {c : Curve ℝ}

theorem cumFrom_step (zs : List ℝ) : ∀ (s : ℝ) (k : Nat) (z l : ℝ), zs[k]? = some z → (s :: cumFrom fl s zs)[k]? = some l →
    (s :: cumFrom fl s zs)[k + 1]? = some (fl (l + z)) := by
  induction zs with
  | nil => intro s k z l h; simp at h
  | cons x xs ih =>
    intro s k z l h1 h2
    cases k with
    | zero =>
      simp only [List.getElem?_cons_zero, Option.some.injEq] at h1 h2
      subst h1 h2
      simp [cumFrom]
    | succ k =>
      simp only [List.getElem?_cons_succ] at h1 h2 ⊢
      rw [cumFrom] at h2 ⊢
      have := ih (fl (s + x)) k z l h1 h2
      simpa using this

theorem cumsum_step {zs : List ℝ} (hz : ∀ z ∈ zs, fl z = z) {k : Nat} {z l : ℝ} (h1 : zs[k]? = some z) (h2 : (0 :: cumsumFl fl zs)[k]? = some l) :
    (0 :: cumsumFl fl zs)[k + 1]? = some (fl (l + z)) := by
  cases zs with
  | nil => simp at h1
  | cons x xs =>
    rw [cumsumFl] at h2 ⊢
    cases k with
    | zero =>
      simp only [List.getElem?_cons_zero, Option.some.injEq] at h1 h2
      subst h1 h2
      simp [hz x (by simp)]
    | succ k =>
      simp only [List.getElem?_cons_succ] at h1 h2 ⊢
      exact cumFrom_step xs x k z l h1 h2

/-- Neighbouring entries of the computed parameter. -/
theorem param_step (hf : Rounding ε fl) (hc : WF c) {ls : List ℝ} (h : CumTo fl c.rows ls) {k : Nat} {a b : List ℝ} (ha : c.rows[k]? = some a)
    (hb : c.rows[k + 1]? = some b) : ∃ l z, ls[k]? = some l ∧ ls[k + 1]? = some (fl (l + z)) ∧ 0 ≤ l ∧ RelErr ε (c.ndim + 4) (gap c.ndim a b) z ∧
      RelErr ε (c.ndim + k + 4) (pathLen c.ndim (c.rows.take (k + 1))) l ∧ ChordTo fl a b z := by
  have hn : 0 < c.ndim := by have := hc.two_le; show 0 < c.ncols; omega
  obtain ⟨zs, h1, rfl⟩ := h
  have r1 := chords_rel hf hn hc.rect h1
  have hlen : zs.length = c.rows.length - 1 := by rw [← r1.length_eq]; simp
  have hbl := (List.getElem?_eq_some_iff.1 hb).1
  have hz : ∀ z ∈ zs, 0 ≤ z ∧ fl z = z := by
    intro z hz
    obtain ⟨i, hi, rfl⟩ := List.getElem_of_mem hz
    have h3 := List.Forall₂.get h1 (i := i) (by rw [h1.length_eq]; exact hi) hi
    obtain ⟨_, s, _, _, e⟩ := h3
    simp only [List.get_eq_getElem] at e
    rw [e]
    exact ⟨fl_nonneg hf (Real.sqrt_nonneg _), hf.idem _⟩
  have hk : k < zs.length := by omega
  have hkl : k < (0 :: cumsumFl fl zs).length := by simp [length_cumsumFl]; omega
  have e1 : zs[k]? = some zs[k] := List.getElem?_eq_getElem hk
  have e2 : (0 :: cumsumFl fl zs)[k]? = some (0 :: cumsumFl fl zs)[k] := List.getElem?_eq_getElem hkl
  have hsum := cumsum_sums zs k _ e2
  have e := zip_take (gap c.ndim) c.rows k
  have r2 := (RelErr.sum (forall2_take r1 k)).trans hf (sums_rel hf hsum fun z h => (hz z (List.mem_of_mem_take h)).1)
  rw [← e, ← pathLen_eq_sum] at r2
  have r3 := r2.weaken hf (k := c.ndim + k + 4) (by rw [List.length_take, min_eq_left hk.le]; omega) (sum_gaps_nonneg _ _)
  refine ⟨_, _, e2, cumsum_step (fun z h => (hz z h).2) e1 e2, r3.nonneg hf (sum_gaps_nonneg _ _), ?_, r3, ?_⟩
  · have h4 := List.Forall₂.get r1 (i := k) (by rw [r1.length_eq]; exact hk) hk
    simp only [List.get_eq_getElem, List.getElem_zipWith, List.getElem_tail] at h4
    rwa [(List.getElem?_eq_some_iff.1 ha).2, (List.getElem?_eq_some_iff.1 hb).2] at h4
  · have h4 := List.Forall₂.get h1 (i := k) (by rw [h1.length_eq]; exact hk) hk
    simp only [List.get_eq_getElem, List.getElem_zip, List.getElem_tail] at h4
    rwa [(List.getElem?_eq_some_iff.1 ha).2, (List.getElem?_eq_some_iff.1 hb).2] at h4

theorem small_of (hf : Rounding ε fl) {j m : Nat} (hj : j ≤ m) (h : 2 * ((m : ℝ) * ε) ≤ 1) : 2 * ((j : ℝ) * ε) ≤ 1 := by
  have : (j : ℝ) ≤ m := by exact_mod_cast hj
  have := mul_le_mul_of_nonneg_right this hf.nonneg
  linarith

/-- **C142 (differences).** Neighbouring values of the computed parameter differ by the distance of the points, up to `2 (n + 4) ε` times the distance and `2 ε` times
the length of the curve so far. -/
theorem C142_differences (hf : Rounding ε fl) (hc : WF c) (hε : 2 * ((c.ndim + c.size + 4 : ℕ) * ε) ≤ 1) {ls : List ℝ} (h : CumTo fl c.rows ls) {k : Nat}
    {a b : List ℝ} (ha : c.rows[k]? = some a) (hb : c.rows[k + 1]? = some b) :
    ∃ l l', ls[k]? = some l ∧ ls[k + 1]? = some l' ∧
      |l' - l - gap c.ndim a b| ≤ 2 * (c.ndim + 4 : ℕ) * ε * gap c.ndim a b + 2 * ε * (pathLen c.ndim (c.rows.take (k + 1)) + gap c.ndim a b) := by
  obtain ⟨l, z, h1, h2, l0, rz, rl, -⟩ := param_step hf hc h ha hb
  have hbl := (List.getElem?_eq_some_iff.1 hb).1
  refine ⟨l, _, h1, h2, ?_⟩
  have g0 : 0 ≤ gap c.ndim a b := dist_nonneg
  have p0 := sum_gaps_nonneg c.ndim (c.rows.take (k + 1))
  have hk : k < c.size := by show k < c.rows.length; omega
  have s1 := small_of hf (show c.ndim + 4 ≤ c.ndim + c.size + 4 by omega) hε
  have s2 := small_of hf (show c.ndim + k + 4 ≤ c.ndim + c.size + 4 by omega) hε
  have b1 := rel_simple hf rz g0 s1
  have b2 := rel_simple hf rl p0 s2
  have z0 := rz.nonneg hf g0
  have u1 : z ≤ 2 * gap c.ndim a b := by
    have := mul_le_mul_of_nonneg_right s1 g0
    linarith [(abs_le.1 b1).2]
  have u2 : l ≤ 2 * pathLen c.ndim (c.rows.take (k + 1)) := by
    have := mul_le_mul_of_nonneg_right s2 p0
    linarith [(abs_le.1 b2).2]
  have b3 := hf.rel (l + z)
  rw [abs_of_nonneg (show 0 ≤ l + z by linarith)] at b3
  have b4 : ε * (l + z) ≤ ε * (2 * (pathLen c.ndim (c.rows.take (k + 1)) + gap c.ndim a b)) := mul_le_mul_of_nonneg_left (by linarith) hf.nonneg
  rw [show fl (l + z) - l - gap c.ndim a b = (z - gap c.ndim a b) + (fl (l + z) - (l + z)) by ring]
  refine (abs_add_le _ _).trans ?_
  linarith

/-- **C142 (strictly increasing, partial).** If each point is farther from the next than `5 ε` times the length of the curve so far, the computed parameter increases strictly.
Missing: points that are closer, see `C142_equal_fails`. -/
theorem C142_strict_partial (hf : Rounding ε fl) (hc : WF c) (hs : 1 ≤ c.size) (hε : 2 * ((c.ndim + c.size + 4 : ℕ) * ε) ≤ 1) {ls : List ℝ} (h : CumTo fl c.rows ls)
    (hg : ∀ (k : Nat) a b, c.rows[k]? = some a → c.rows[k + 1]? = some b → 5 * ε * pathLen c.ndim (c.rows.take (k + 1)) < gap c.ndim a b) :
    ls.Pairwise (· < ·) := by
  have hlen : ls.length = c.size := (C119_cumarclen hf hc hs h).1
  have e0 := hf.nonneg
  rw [← List.isChain_iff_pairwise, List.isChain_iff_getElem]
  intro k hk
  have hk' : k + 1 < c.rows.length := by show k + 1 < c.size; omega
  obtain ⟨l, z, h1, h2, l0, rz, rl, -⟩ := param_step hf hc h (List.getElem?_eq_getElem (show k < c.rows.length by omega)) (List.getElem?_eq_getElem hk')
  have hgk := hg k _ _ (List.getElem?_eq_getElem (show k < c.rows.length by omega)) (List.getElem?_eq_getElem hk')
  rw [(List.getElem?_eq_some_iff.1 h1).2, (List.getElem?_eq_some_iff.1 h2).2]
  generalize gap c.ndim c.rows[k] c.rows[k + 1] = g at hgk rz
  have p0 := sum_gaps_nonneg c.ndim (c.rows.take (k + 1))
  have g0 : 0 < g := lt_of_le_of_lt (by positivity) hgk
  have s1 := small_of hf (show c.ndim + 4 ≤ c.ndim + c.size + 4 by omega) hε
  have s2 := small_of hf (show c.ndim + k + 4 ≤ c.ndim + c.size + 4 by omega) hε
  have s3 := small_of hf (show 5 ≤ c.ndim + c.size + 4 by omega) hε
  have b2 := rel_simple hf rl p0 s2
  have u2 : l ≤ 2 * pathLen c.ndim (c.rows.take (k + 1)) := by
    have := mul_le_mul_of_nonneg_right s2 p0
    linarith [(abs_le.1 b2).2]
  have u1 : 1 / 2 * g ≤ z := by
    have hb := one_add_mul_le_pow (a := -ε) (by linarith [hf.lt_one]) (c.ndim + 4)
    rw [← sub_eq_add_neg] at hb
    refine le_trans (mul_le_mul_of_nonneg_right ?_ g0.le) rz.1
    linarith
  have z0 : 0 ≤ z := by linarith
  have b3 := (abs_le.1 (hf.rel (l + z))).1
  rw [abs_of_nonneg (show 0 ≤ l + z by linarith)] at b3
  push_cast at s3
  have e1 : ε ≤ 1 / 10 := by linarith
  have m1 : ε * l ≤ ε * (2 * pathLen c.ndim (c.rows.take (k + 1))) := mul_le_mul_of_nonneg_left u2 e0
  have m2 : ε * z ≤ 1 / 10 * z := mul_le_mul_of_nonneg_right e1 z0
  linarith

end

/-- **C142 (usual sizes).** In binary64 the parameter of a curve of length at most 10 000 000 whose neighbouring points are at least `1e-8` apart (as `nonsingular` leaves
them, mostly) increases strictly, for up to `1e14` points and dimensions. -/
theorem C142_usual {c : Curve ℝ} (hc : WF c) (hs : 1 ≤ c.size) (hm : c.ndim + c.size ≤ 10 ^ 14) (hl : pathLen c.ndim c.rows ≤ 10 ^ 7)
    (hg : ∀ (k : Nat) a b, c.rows[k]? = some a → c.rows[k + 1]? = some b → 1 / 10 ^ 8 ≤ gap c.ndim a b) {ls : List ℝ} (h : CumTo rnd c.rows ls) :
    ls.Pairwise (· < ·) := by
  refine C142_strict_partial rnd_rounding hc hs ?_ h ?_
  · have : ((c.ndim + c.size + 4 : ℕ) : ℝ) ≤ 10 ^ 14 + 4 := by exact_mod_cast Nat.add_le_add_right hm 4
    have h2 : ((c.ndim + c.size + 4 : ℕ) : ℝ) * 2⁻¹ ^ 53 ≤ (10 ^ 14 + 4) * 2⁻¹ ^ 53 := mul_le_mul_of_nonneg_right this (by positivity)
    refine le_trans (mul_le_mul_of_nonneg_left h2 (by norm_num)) ?_
    norm_num
  · intro k a b ha hb
    have h1 : pathLen c.ndim (c.rows.take (k + 1)) ≤ pathLen c.ndim c.rows := by
      rw [pathLen_eq_sum, pathLen_eq_sum, zip_take]
      refine (List.take_sublist _ _).sum_le_sum ?_
      intro x hx
      rw [← List.map_uncurry_zip_eq_zipWith] at hx
      obtain ⟨p, -, rfl⟩ := List.mem_map.1 hx
      exact dist_nonneg
    have h2 := hg k a b ha hb
    have h3 : 5 * (2⁻¹ : ℝ) ^ 53 * pathLen c.ndim (c.rows.take (k + 1)) ≤ 5 * 2⁻¹ ^ 53 * 10 ^ 7 := mul_le_mul_of_nonneg_left (h1.trans hl) (by positivity)
    have h4 : 5 * (2⁻¹ : ℝ) ^ 53 * 10 ^ 7 < 1 / 10 ^ 8 := by norm_num
    linarith

/-! ## A curve with two equal parameter values -/

/-- A long step and a short one. -/
def longShort : List (List ℝ) := [[0, 0], [2 ^ 53, 0], [2 ^ 53, 1]]

theorem sumsTo_one {fl : ℝ → ℝ} {x s : ℝ} (h : SumsTo fl [x] s) : s = x := by
  generalize e : [x] = l at h
  cases h with
  | nil => simp at e
  | one y => simpa using e.symm
  | add hx hy nx ny hz =>
    subst e
    have := hz.length_eq
    have h1 := List.length_pos_of_ne_nil nx
    have h2 := List.length_pos_of_ne_nil ny
    simp at this
    omega

theorem sumsTo_two {fl : ℝ → ℝ} {x y s : ℝ} (h : SumsTo fl [x, y] s) : s = fl (x + y) := by
  generalize e : [x, y] = l at h
  cases h with
  | nil => simp at e
  | one y => simp at e
  | @add xs ys _ u v hx hy nx ny hz =>
    subst e
    have hl := hz.length_eq
    have h1 := List.length_pos_of_ne_nil nx
    have h2 := List.length_pos_of_ne_nil ny
    simp only [List.length_append, List.length_cons, List.length_nil] at hl
    obtain ⟨p, rfl⟩ := List.length_eq_one_iff.1 (show xs.length = 1 by omega)
    obtain ⟨q, rfl⟩ := List.length_eq_one_iff.1 (show ys.length = 1 by omega)
    rw [sumsTo_one hx, sumsTo_one hy]
    have := hz.sum_eq
    simp only [List.cons_append, List.nil_append, List.sum_cons, List.sum_nil, add_zero] at this
    rw [this]

theorem chordTo_plane {fl : ℝ → ℝ} {x y x' y' z : ℝ} :
    ChordTo fl [x, y] [x', y'] z ↔ ∃ w w', SqTerm fl x x' w ∧ SqTerm fl y y' w' ∧ z = fl (√ (fl (w + w'))) := by
  unfold ChordTo
  constructor
  · rintro ⟨ws, s, h1, h2, rfl⟩
    simp only [List.zip_cons_cons, List.zip_nil_right, List.forall₂_cons_left_iff, List.forall₂_nil_left_iff] at h1
    obtain ⟨w, _, a, ⟨w', _, b, rfl, rfl⟩, rfl⟩ := h1
    exact ⟨w, w', a, b, by rw [sumsTo_two h2]⟩
  · rintro ⟨w, w', a, b, rfl⟩
    exact ⟨[w, w'], _, .cons a (.cons b .nil), .add (.one w) (.one w') (by simp) (by simp) (List.Perm.refl _), rfl⟩

theorem longShort_param {fl : ℝ → ℝ} (r0 : fl 0 = 0) (r1 : fl 1 = 1) (r53 : fl (2 ^ 53) = 2 ^ 53) (r106 : fl (2 ^ 106) = 2 ^ 106) (ls : List ℝ) :
    CumTo fl longShort ls ↔ ls = [0, 2 ^ 53, fl (2 ^ 53 + 1)] := by
  have sq1 : √ ((2 : ℝ) ^ 106) = 2 ^ 53 := by
    rw [show (2 : ℝ) ^ 106 = (2 ^ 53) ^ 2 by norm_num]
    exact Real.sqrt_sq (by positivity)
  have t0 : ∀ x w, SqTerm fl x x w ↔ w = 0 := by intro x w; unfold SqTerm; rw [sub_self, r0, mul_zero, r0, or_self]
  have t1 : ∀ w, SqTerm fl 0 1 w ↔ w = 1 := by intro w; unfold SqTerm; rw [sub_zero, r1, mul_one, r1, or_self]
  have t53 : ∀ w, SqTerm fl 0 (2 ^ 53) w ↔ w = 2 ^ 106 := by
    intro w; unfold SqTerm; rw [sub_zero, r53, show (2 : ℝ) ^ 53 * 2 ^ 53 = 2 ^ 106 by norm_num, r106, or_self]
  have c1 : ∀ z, ChordTo fl [0, 0] [2 ^ 53, 0] z ↔ z = 2 ^ 53 := by
    intro z
    simp only [chordTo_plane, t0, t53, exists_and_left, exists_eq_left, add_zero, r106, sq1, r53]
  have c2 : ∀ z, ChordTo fl [2 ^ 53, 0] [2 ^ 53, 1] z ↔ z = 1 := by
    intro z
    simp only [chordTo_plane, t0, t1, exists_and_left, exists_eq_left, zero_add, r1, Real.sqrt_one]
  have hz : ∀ zs, ChordsTo fl longShort zs ↔ zs = [2 ^ 53, 1] := by
    intro zs
    unfold ChordsTo longShort
    simp only [List.tail_cons, List.zip_cons_cons, List.zip_nil_right, List.forall₂_cons_left_iff, List.forall₂_nil_left_iff, c1, c2]
    constructor
    · rintro ⟨_, _, rfl, ⟨_, _, rfl, rfl, rfl⟩, rfl⟩; rfl
    · rintro rfl; exact ⟨_, _, rfl, ⟨_, _, rfl, rfl, rfl⟩, rfl⟩
  unfold CumTo
  simp only [hz, exists_eq_left, cumsumFl, cumFrom]

/-- **C142 fails.** The points (0, 0), (2^53, 0), (2^53, 1) are distinct binary64 points, the exact parameter is 0, 2^53, 2^53 + 1, and the parameter computed in binary64 is
0, 2^53, 2^53, in whatever order the sums are computed. -/
theorem C142_equal_fails : (∀ r ∈ longShort, ∀ x ∈ r, rnd x = x) ∧ longShort.Nodup ∧ (∃ ls, CumTo rnd longShort ls) ∧
    (∀ ls, CumTo rnd longShort ls → ls = [0, 2 ^ 53, 2 ^ 53]) ∧ ∀ ls, CumTo id longShort ls → ls = [0, 2 ^ 53, 2 ^ 53 + 1] := by
  have r0 : rnd 0 = 0 := by simpa using rnd_rep 0 0 (by norm_num)
  have r1 : rnd 1 = 1 := by simpa using rnd_rep 1 0 (by norm_num)
  have r53 : rnd (2 ^ 53) = 2 ^ 53 := by exact_mod_cast rnd_two_pow 53
  have r106 : rnd (2 ^ 106) = 2 ^ 106 := by exact_mod_cast rnd_two_pow 106
  have hr : rnd (2 ^ 53 + 1) = 2 ^ 53 := by
    rw [rnd_value 53 (2 ^ 52) (by norm_num) (by norm_num) (.inr ⟨by norm_num, ⟨2 ^ 51, by norm_num⟩⟩)]
    norm_num
  refine ⟨?_, ?_, ⟨_, (longShort_param r0 r1 r53 r106 _).2 rfl⟩, fun ls h => ?_, fun ls h => ?_⟩
  · intro r hr x hx
    simp only [longShort, List.mem_cons, List.not_mem_nil, or_false] at hr
    rcases hr with rfl | rfl | rfl <;> simp only [List.mem_cons, List.not_mem_nil, or_false] at hx <;> rcases hx with h | h <;> rw [h] <;> first | exact r0 | exact r1 | exact r53
  · have : ¬ (0 : ℝ) = 2 ^ 53 := by norm_num
    simp [longShort, this]
  · rw [(longShort_param r0 r1 r53 r106 ls).1 h, hr]
  · rw [(longShort_param rfl rfl rfl rfl ls).1 h]; rfl

/-- **C142 (consequence).** Every method of interpolation but `linear` refuses a curve whose parameter repeats a value, whatever the grid: so interpolation of a curve with distinct
points can fail. -/
theorem C142_refused_fails {c : Curve ℝ} {junk : ℝ} (hc : WF c) (hs : 2 ≤ c.size) (ht : ¬ (c.t junk).Pairwise (· < ·)) {lib : SplineLib} (hlib : UnivariateOk lib) {r : KwReg}
    {m : String} (hm : IsHermite junk r m ∨ IsPchip junk r m ∨ IsCubic lib junk r m ∨ IsAkima lib junk r m ∨ IsCsaps lib junk r m ∨ IsSpline lib junk r m) (g : GridSpec) :
    c.interpolate r g m .none = .error .interpolationError := by
  have hbad : ∀ k, knotsOk (c.t junk) k = false := by
    intro k
    rw [Bool.eq_false_iff]
    intro hk
    exact ht (knotsOk_iff.1 hk).2.2
  have fin : ∀ {cons : Curve ℝ → InterpKw → Except PyErr InterpImpl}, getInterpClass r m = .ok (interpClass junk cons) →
      cons c .none = .error .valueError → c.interpolate r g m .none = .error .interpolationError := by
    intro cons h1 h2
    refine (C66_method_errors r m c g .none).2.1 _ .valueError h1 ?_
    simp [interpClass, h2, bind, Except.bind]
  rcases hm with hr | hr | hr | hr | hr | hr
  · refine fin hr ?_
    simp [InterpKw.none, InterpKw.only, InterpKw.getD, ArgVal.extrap, withKw, pickHermite, hermiteCons, cubicHermite, hbad, bind, Except.bind]
  · refine fin hr ?_
    simp [InterpKw.none, InterpKw.only, InterpKw.getD, ArgVal.extrap, withKw, pickPchip, pchipCons, cubicHermite, hbad, bind, Except.bind]
  · refine fin hr ?_
    simp [InterpKw.none, InterpKw.only, InterpKw.getD, ArgVal.extrap, withKw, pickCubic, cubicCons, hbad, bind, Except.bind]
  · refine fin hr ?_
    simp [InterpKw.none, InterpKw.only, InterpKw.getD, ArgVal.extrap, withKw, pickAkima, akimaCons, cubicHermite, hbad, bind, Except.bind]
  · exact (C128_errors hr .none g).1 fun h => ht h.1
  · exact C129_errors hc hs hr hlib (k := 3) (mode := .extrapolate) (.inr rfl) (splineArgs_default _) (.inr ht) g


/-- the curve with the parameter computed in binary64 -/
example : WF (⟨longShort, 2, some [0, 2 ^ 53, 2 ^ 53], .float⟩ : Curve ℝ) ∧
    ¬ ((⟨longShort, 2, some [0, 2 ^ 53, 2 ^ 53], .float⟩ : Curve ℝ).t 0).Pairwise (· < ·) := by
  constructor
  · refine ⟨by simp, ?_, ?_, by intros; rfl⟩
    · intro r hr
      simp only [longShort, List.mem_cons, List.not_mem_nil, or_false] at hr
      rcases hr with rfl | rfl | rfl <;> rfl
    · intro t ht
      injection ht with ht
      rw [← ht]
      rfl
  · simp [Curve.t]

/-- the usual case: three points at distance 1 -/
example : ∃ ls, CumTo rnd [[(0 : ℝ), 0], [1, 0], [1, 1]] ls := by
  have hex : ∀ a b : List ℝ, ∃ z, ChordTo rnd a b z := by
    intro a b
    obtain ⟨s, hs⟩ := sumsTo_exists rnd ((a.zip b).map fun p => rnd (rnd (p.2 - p.1) * rnd (p.2 - p.1)))
    refine ⟨_, _, s, ?_, hs, rfl⟩
    rw [List.forall₂_map_right_iff, List.forall₂_same]
    exact fun p _ => .inl rfl
  obtain ⟨z, hz⟩ := hex [0, 0] [1, 0]
  obtain ⟨z', hz'⟩ := hex [1, 0] [1, 1]
  exact ⟨_, [z, z'], .cons hz (.cons hz' .nil), rfl⟩

end Verif.Props
