import Verif.Model.RoundedDet
import Verif.Props.CurveSeg
import Verif.Props.Rounded
import Verif.Lemmas.Rnd

/-!
C159: `coorientplane` in rounded arithmetic.
-/
namespace Verif.Props

open Verif Verif.Np Verif.Model Verif.Spec

section
variable {ε : ℝ} {fl : ℝ → ℝ}

theorem fl_pos (hf : Rounding ε fl) {x : ℝ} (h : 0 < x) : 0 < fl x := by
  have r := (abs_le.1 (hf.rel x)).1
  rw [abs_of_pos h] at r
  have := mul_lt_mul_of_pos_right hf.lt_one h
  linarith

theorem sign_fl (hf : Rounding ε fl) (x : ℝ) : SignType.sign (fl x) = SignType.sign x := by
  rcases lt_trichotomy x 0 with h | h | h
  · have := fl_pos hf (x := -x) (by linarith)
    rw [hf.odd] at this
    rw [sign_neg h, sign_neg (by linarith)]
  · rw [h, fl_zero hf]
  · rw [sign_pos h, sign_pos (fl_pos hf h)]

theorem sign_near {x y : ℝ} (h : |x - y| < |y|) : SignType.sign x = SignType.sign y := by
  rcases lt_trichotomy y 0 with h0 | h0 | h0
  · rw [abs_of_neg h0] at h
    have := (abs_lt.1 h).2
    rw [sign_neg h0, sign_neg (by linarith)]
  · rw [h0] at h
    simp at h
    exact absurd h (not_lt.2 (abs_nonneg _))
  · rw [abs_of_pos h0] at h
    have := (abs_lt.1 h).1
    rw [sign_pos h0, sign_pos (by linarith)]

theorem sign_gt_iff (x : ℝ) : 0 < SignType.sign x ↔ 0 < x := by
  rcases lt_trichotomy x 0 with h | h | h
  · rw [sign_neg h]
    exact ⟨fun h' => absurd h' (by decide), fun h' => absurd h (not_lt.2 h'.le)⟩
  · rw [h, sign_zero]
    simp
  · rw [sign_pos h]
    exact ⟨fun _ => h, fun _ => by decide⟩

theorem mult_near (hf : Rounding ε fl) {a b l : ℝ} (h : MultTo fl b a l) : |l - b / a| ≤ 3 * ε * |b / a| := by
  have e0 := hf.nonneg
  have e1 := hf.lt_one
  have n := abs_nonneg (b / a)
  rcases h with rfl | rfl
  · have := hf.rel (b / a)
    have : 0 ≤ ε * |b / a| := mul_nonneg e0 n
    linarith
  · have r1 := hf.rel (1 / a)
    have r2 := hf.rel (b * fl (1 / a))
    have k : |b * fl (1 / a) - b / a| ≤ ε * |b / a| := by
      rw [show b * fl (1 / a) - b / a = b * (fl (1 / a) - 1 / a) by ring, abs_mul, show |b / a| = |b| * |1 / a| by rw [← abs_mul, mul_one_div]]
      have := mul_le_mul_of_nonneg_left r1 (abs_nonneg b)
      linarith
    have m : |b * fl (1 / a)| ≤ (1 + ε) * |b / a| := by
      have := abs_add_le (b * fl (1 / a) - b / a) (b / a)
      rw [sub_add_cancel] at this
      linarith
    have t := abs_sub_le (fl (b * fl (1 / a))) (b * fl (1 / a)) (b / a)
    have m2 := mul_le_mul_of_nonneg_left m e0
    have : ε * (ε * |b / a|) ≤ 1 * (ε * |b / a|) := mul_le_mul_of_nonneg_right e1.le (mul_nonneg e0 n)
    linarith

/-- The second pivot has the sign of the exact one if the determinant is not too small. -/
theorem upd_sign (hf : Rounding ε fl) (hε : 3 * ε ≤ 1) {a b c d l u : ℝ} (ha : a ≠ 0) (hl : MultTo fl b a l) (hu : UpdTo fl d l c u) (hd : 5 * ε * |b * c| < |a * d - b * c|) :
    SignType.sign u = SignType.sign (d - b / a * c) := by
  have e0 := hf.nonneg
  have k := mult_near hf hl
  set X := |b / a * c| with hX
  have X0 : 0 ≤ X := abs_nonneg _
  have k1 : |l * c - b / a * c| ≤ 3 * ε * X := by
    rw [← sub_mul, abs_mul, hX, abs_mul]
    have := mul_le_mul_of_nonneg_right k (abs_nonneg c)
    linarith
  have k2 : |fl (l * c) - b / a * c| ≤ 5 * ε * X := by
    have r := hf.rel (l * c)
    have m : |l * c| ≤ (1 + 3 * ε) * X := by
      have := abs_add_le (l * c - b / a * c) (b / a * c)
      rw [sub_add_cancel] at this
      linarith
    have m2 := mul_le_mul_of_nonneg_left m e0
    have t := abs_sub_le (fl (l * c)) (l * c) (b / a * c)
    have : 3 * ε * (ε * X) ≤ 1 * (ε * X) := mul_le_mul_of_nonneg_right hε (mul_nonneg e0 X0)
    linarith
  have big : 5 * ε * X < |d - b / a * c| := by
    have a0 : 0 < |a| := abs_pos.2 ha
    have e1 : |a| * X = |b * c| := by rw [hX, ← abs_mul]; congr 1; field_simp
    have e2 : |a| * |d - b / a * c| = |a * d - b * c| := by rw [← abs_mul]; congr 1; field_simp
    rw [← e1, ← e2] at hd
    refine lt_of_mul_lt_mul_left (a := |a|) ?_ a0.le
    linarith
  rcases hu with rfl | rfl
  · rw [sign_fl hf]
    refine sign_near ?_
    rw [show d - fl (l * c) - (d - b / a * c) = -(fl (l * c) - b / a * c) by ring, abs_neg]
    linarith
  · rw [sign_fl hf]
    refine sign_near ?_
    rw [show d - l * c - (d - b / a * c) = -(l * c - b / a * c) by ring, abs_neg]
    have : 0 ≤ ε * X := mul_nonneg e0 X0
    linarith

/-! ## C159 -/

/-- **C159 (sign of the determinant).** If the determinant of two points exceeds `5 ε` times the larger one of its two products in absolute value, its computed sign is right, for every
way LAPACK may compute the multiplier and the update. -/
theorem C159_sign (hf : Rounding ε fl) (hε : 3 * ε ≤ 1) {x1 y1 x2 y2 : ℝ} (hd : 5 * ε * max |x1 * y2| |y1 * x2| < |x1 * y2 - y1 * x2|) {s : SignType} (hs : DetSignTo fl x1 y1 x2 y2 s) :
    s = SignType.sign (x1 * y2 - y1 * x2) := by
  have e0 := hf.nonneg
  unfold DetSignTo at hs
  split_ifs at hs with h0 h1
  · rw [h0.1, h0.2] at hd
    simp at hd
  · obtain ⟨l, u, hl, hu, rfl⟩ := hs
    have hx : x1 ≠ 0 := by
      rintro rfl
      rw [abs_zero] at h1
      exact h0 ⟨rfl, abs_nonpos_iff.1 h1⟩
    have k : 5 * ε * |x2 * y1| < |x1 * y2 - x2 * y1| := by
      rw [mul_comm x2 y1]
      exact lt_of_le_of_lt (mul_le_mul_of_nonneg_left (le_max_right _ _) (by positivity)) hd
    rw [upd_sign hf hε hx hl hu k, ← sign_mul]
    congr 1
    field_simp
  · obtain ⟨l, u, hl, hu, rfl⟩ := hs
    have hx : x2 ≠ 0 := by
      rintro rfl
      rw [abs_zero] at h1
      exact h1 (abs_nonneg _)
    have k : 5 * ε * |x1 * y2| < |x2 * y1 - x1 * y2| := by
      rw [abs_sub_comm, mul_comm x2 y1]
      exact lt_of_le_of_lt (mul_le_mul_of_nonneg_left (le_max_left _ _) (by positivity)) hd
    rw [upd_sign hf hε hx hl hu k, ← sign_mul, ← Left.sign_neg]
    congr 1
    field_simp
    ring

/-- **C159 (some result).** There is always a computed sign. -/
theorem detSign_exists (fl : ℝ → ℝ) (x1 y1 x2 y2 : ℝ) : ∃ s, DetSignTo fl x1 y1 x2 y2 s := by
  unfold DetSignTo
  split_ifs
  · exact ⟨0, rfl⟩
  · exact ⟨_, _, _, .inl rfl, .inl rfl, rfl⟩
  · exact ⟨_, _, _, .inl rfl, .inl rfl, rfl⟩

variable {c : Curve ℝ}

/-- Coordinate `p` of the first and of the last point. -/
def firstAt (c : Curve ℝ) (p : Nat) : ℝ := (c.rows.head?.getD []).getD p 0
def lastAt (c : Curve ℝ) (p : Nat) : ℝ := (c.rows.getLast?.getD []).getD p 0

theorem coorientTo_eq (hc : WF c) (h2 : 2 ≤ c.size) (a1 a2 : Int) (p q : Nat) (hp : IsPos c.ndim a1 p) (hq : IsPos c.ndim a2 q) (r : Except PyErr Bool) :
    CoorientTo fl c a1 a2 r ↔ ∃ s, DetSignTo fl (firstAt c p) (lastAt c p) (firstAt c q) (lastAt c q) s ∧ r = .ok (decide (0 < s)) := by
  have hsz : c.size = c.rows.length := rfl
  obtain ⟨a, l, hal⟩ : ∃ a l, c.rows = a :: l := by
    cases h : c.rows with
    | nil => rw [hsz, h] at h2; simp at h2
    | cons a l => exact ⟨a, l, rfl⟩
  have hne : c.rows ≠ [] := by rw [hal]; simp
  set b := c.rows.getLast hne with hb
  have hlast : c.rows[c.rows.length - 1]? = some b := by
    rw [← List.getLast?_eq_getElem?, List.getLast?_eq_some_getLast hne]
  have hfirst : c.rows[0]? = some a := by rw [hal]; rfl
  have hbm : b ∈ c.rows := List.getLast_mem _
  have ham : a ∈ c.rows := by rw [hal]; simp
  have hcast : ∀ r : List ℝ, (Point.init r none).data = r := by
    intro r
    have h1 : (Point.init r none).data = r.map id := rfl
    rw [h1, List.map_id]
  have h1 : CurvePoint.init c 0 0 = .ok ⟨Point.init a none, 0, c, 0⟩ := cpoint_nat (k := 0) hfirst
  have hg : getIdx c.rows ((c.size : Int) + -1) = .ok b := by
    rw [getIdx_ok]
    exact ⟨c.rows.length - 1, ⟨by omega, by left; omega⟩, hlast⟩
  have h3 : CurvePoint.init c 0 (-1) = .ok ⟨Point.init b none, (c.size : Int) + -1, c, 0⟩ := by
    unfold CurvePoint.init
    simp only [if_pos (show (-1 : Int) < 0 by omega), hg]
  have hget : ∀ r ∈ c.rows, ∀ i k, IsPos c.ndim i k → getIdx r i = .ok (r.getD k 0) := by
    intro r hr i k hk
    have hl : r.length = c.ndim := hc.rect r hr
    rw [getIdx_ok, hl]
    refine ⟨k, hk, ?_⟩
    have hk' : k < r.length := by rw [hl]; exact hk.1
    simp [List.getD_eq_getElem?_getD, hk']
  have fa : ∀ k, firstAt c k = a.getD k 0 := by intro k; unfold firstAt; rw [hal]; rfl
  have la : ∀ k, lastAt c k = b.getD k 0 := by intro k; unfold lastAt; rw [List.getLast?_eq_some_getLast hne]; rfl
  unfold CoorientTo
  rw [if_neg (by omega), fa, fa, la, la]
  simp only [h1, h3, hcast, hget a ham _ _ hp, hget a ham _ _ hq, hget b hbm _ _ hp, hget b hbm _ _ hq]

/-- **C159 (choice).** With rounded operations too the result is the copy or the reversed curve, and there is a result. -/
theorem C159_choice (hc : WF c) (h2 : 2 ≤ c.size) (a1 a2 : Int) (p q : Nat) (hp : IsPos c.ndim a1 p) (hq : IsPos c.ndim a2 q) :
    (∃ r, CoorientplaneTo fl c a1 a2 r) ∧ ∀ r, CoorientplaneTo fl c a1 a2 r → r = c.copy ∨ r = c.reverse := by
  constructor
  · obtain ⟨s, hs⟩ := detSign_exists fl (firstAt c p) (lastAt c p) (firstAt c q) (lastAt c q)
    exact ⟨_, _, (coorientTo_eq hc h2 a1 a2 p q hp hq _).2 ⟨s, hs, rfl⟩, rfl⟩
  · rintro r ⟨b, hb, rfl⟩
    obtain ⟨s, -, rfl⟩ := (coorientTo_eq hc h2 a1 a2 p q hp hq _).1 hb
    by_cases h : 0 < s
    · simp [h]
    · simp [h]

/-- **C159 (agreement).** If the determinant of the end points in the plane of the axes exceeds `5 ε` times its larger product in absolute value, the computed result is that of the exact
model, so that C57 holds in rounded arithmetic. -/
theorem C159_agrees (hf : Rounding ε fl) (hε : 3 * ε ≤ 1) (hc : WF c) (h2 : 2 ≤ c.size) (a1 a2 : Int) (p q : Nat) (hp : IsPos c.ndim a1 p) (hq : IsPos c.ndim a2 q)
    (hd : 5 * ε * max |firstAt c p * lastAt c q| |lastAt c p * firstAt c q| < |firstAt c p * lastAt c q - lastAt c p * firstAt c q|) (r : Except PyErr (Curve ℝ)) :
    CoorientplaneTo fl c a1 a2 r ↔ r = c.coorientplane a1 a2 := by
  have ex : c.coorientplane a1 a2 = match isCoorient c a1 a2 with
      | .error e => .error e
      | .ok false => c.reverse
      | .ok true => c.copy := rfl
  have det : endDet c p q = firstAt c p * lastAt c q - lastAt c p * firstAt c q := rfl
  have sg : ∀ s, DetSignTo fl (firstAt c p) (lastAt c p) (firstAt c q) (lastAt c q) s → (decide (0 < s)) = decide (0 < endDet c p q) := by
    intro s hs
    have := C159_sign hf hε hd hs
    rw [det, this]
    congr 1
    rw [eq_iff_iff]
    exact sign_gt_iff _
  rw [ex, isCoorient_eq hc h2 a1 a2 p q hp hq]
  constructor
  · rintro ⟨b, hb, rfl⟩
    obtain ⟨s, hs, rfl⟩ := (coorientTo_eq hc h2 a1 a2 p q hp hq _).1 hb
    rw [sg s hs]
    cases decide (0 < endDet c p q) <;> rfl
  · rintro rfl
    obtain ⟨s, hs⟩ := detSign_exists fl (firstAt c p) (lastAt c p) (firstAt c q) (lastAt c q)
    exact ⟨_, (coorientTo_eq hc h2 a1 a2 p q hp hq _).2 ⟨s, hs, rfl⟩, by rw [sg s hs]; cases decide (0 < endDet c p q) <;> rfl⟩

/-- **C159 (twice).** Under the same condition the result is a curve that is returned unchanged when it is oriented again, and the reversed curve gives the same result. -/
theorem C159_twice (hf : Rounding ε fl) (hε : 3 * ε ≤ 1) (hc : WF c) (h2 : 2 ≤ c.size) (a1 a2 : Int) (p q : Nat) (hp : IsPos c.ndim a1 p) (hq : IsPos c.ndim a2 q)
    (hd : 5 * ε * max |firstAt c p * lastAt c q| |lastAt c p * firstAt c q| < |firstAt c p * lastAt c q - lastAt c p * firstAt c q|) {r : Except PyErr (Curve ℝ)}
    (hr : CoorientplaneTo fl c a1 a2 r) :
    ∃ c' d, r = .ok c' ∧ c.reverse = .ok d ∧ (∀ r', CoorientplaneTo fl c' a1 a2 r' → r' = .ok c') ∧ ∀ r', CoorientplaneTo fl d a1 a2 r' → r' = .ok c' := by
  have e0 := hf.nonneg
  have hne0 : endDet c p q ≠ 0 := by
    intro h
    have h' : firstAt c p * lastAt c q - lastAt c p * firstAt c q = 0 := h
    rw [h', abs_zero] at hd
    exact absurd hd (not_lt.2 (mul_nonneg (by positivity) (le_max_of_le_left (abs_nonneg _))))
  obtain ⟨c', d, h1, h3, h4, h5⟩ := C57_canonical_partial hc a1 a2 p q hp hq h2 hne0
  have hne : c.rows ≠ [] := by intro h; simp [Curve.size, h] at h2
  have hrev := reverse_eq hc
  have hcopy := copy_eq hc
  rw [if_neg hne] at hrev hcopy
  have hdw : WF d := reverse_WF h1
  have ed : d = ⟨c.rows.reverse, c.ncols, c.tdata.map List.reverse, c.dtype⟩ := by
    rw [hrev] at h1
    exact (Except.ok.inj h1).symm
  have d2 : 2 ≤ d.size := by rw [ed]; simpa [Curve.size] using h2
  have dn : d.ndim = c.ndim := by rw [ed]; rfl
  have fd : ∀ k, firstAt d k = lastAt c k := by intro k; rw [ed]; simp [firstAt, lastAt]
  have ld : ∀ k, lastAt d k = firstAt c k := by intro k; rw [ed]; simp [firstAt, lastAt]
  have dd : 5 * ε * max |firstAt d p * lastAt d q| |lastAt d p * firstAt d q| < |firstAt d p * lastAt d q - lastAt d p * firstAt d q| := by
    rw [fd, fd, ld, ld, max_comm, abs_sub_comm]
    exact hd
  have agd := C159_agrees hf hε hdw d2 a1 a2 p q (dn ▸ hp) (dn ▸ hq) dd
  have agc := C159_agrees hf hε hc h2 a1 a2 p q hp hq hd
  refine ⟨c', d, (agc r).1 hr |>.trans h3, h1, ?_, fun r' h => ((agd r').1 h).trans h4⟩
  intro r' h'
  rcases C57_choice hc a1 a2 p q hp hq with h | h
  · rw [h3, hcopy] at h
    have : c' = c := Except.ok.inj h
    rw [this] at h' h5 ⊢
    exact ((agc r').1 h').trans h5
  · rw [h3, h1] at h
    have : c' = d := Except.ok.inj h
    rw [this] at h' h5 ⊢
    exact ((agd r').1 h').trans h5

/-- **C159 (no rounding).** Without rounding the result is that of the exact model, for all determinants. -/
theorem C159_exact (hc : WF c) (h2 : 2 ≤ c.size) (a1 a2 : Int) (p q : Nat) (hp : IsPos c.ndim a1 p) (hq : IsPos c.ndim a2 q) (r : Except PyErr (Curve ℝ)) :
    CoorientplaneTo id c a1 a2 r ↔ r = c.coorientplane a1 a2 := by
  have R0 : Rounding 0 (id : ℝ → ℝ) := ⟨le_rfl, by norm_num, by intro x; simp, monotone_id, fun _ => rfl, fun _ => rfl⟩
  have det : endDet c p q = firstAt c p * lastAt c q - lastAt c p * firstAt c q := rfl
  by_cases h0 : endDet c p q = 0
  · have ex : c.coorientplane a1 a2 = match isCoorient c a1 a2 with
        | .error e => .error e
        | .ok false => c.reverse
        | .ok true => c.copy := rfl
    have z : ∀ s, DetSignTo id (firstAt c p) (lastAt c p) (firstAt c q) (lastAt c q) s → s = 0 := by
      rw [det] at h0
      generalize firstAt c p = x1 at *
      generalize firstAt c q = x2 at *
      generalize lastAt c p = y1 at *
      generalize lastAt c q = y2 at *
      intro s hs
      unfold DetSignTo at hs
      split_ifs at hs with h00 h1
      · exact hs
      · obtain ⟨l, u, hl, hu, rfl⟩ := hs
        have hx : x1 ≠ 0 := by
          rintro rfl
          rw [abs_zero] at h1
          exact h00 ⟨rfl, abs_nonpos_iff.1 h1⟩
        have el : l = x2 / x1 := by rcases hl with h | h <;> simp only [id] at h <;> rw [h]; ring
        have eu : u = y2 - l * y1 := by rcases hu with h | h <;> simp only [id] at h <;> rw [h]
        have : u = 0 := by
          rw [eu, el]
          field_simp
          linarith
        rw [this, sign_zero, mul_zero]
      · obtain ⟨l, u, hl, hu, rfl⟩ := hs
        have hx : x2 ≠ 0 := by
          rintro rfl
          rw [abs_zero] at h1
          exact h1 (abs_nonneg _)
        have el : l = x1 / x2 := by rcases hl with h | h <;> simp only [id] at h <;> rw [h]; ring
        have eu : u = y1 - l * y2 := by rcases hu with h | h <;> simp only [id] at h <;> rw [h]
        have : u = 0 := by
          rw [eu, el]
          field_simp
          linarith
        rw [this, sign_zero, mul_zero, neg_zero]
    rw [ex, isCoorient_eq hc h2 a1 a2 p q hp hq, h0]
    constructor
    · rintro ⟨b, hb, rfl⟩
      obtain ⟨s, hs, rfl⟩ := (coorientTo_eq hc h2 a1 a2 p q hp hq _).1 hb
      rw [z s hs]
      simp
    · rintro rfl
      obtain ⟨s, hs⟩ := detSign_exists id (firstAt c p) (lastAt c p) (firstAt c q) (lastAt c q)
      exact ⟨_, (coorientTo_eq hc h2 a1 a2 p q hp hq _).2 ⟨s, hs, rfl⟩, by rw [z s hs]; simp⟩
  · exact C159_agrees R0 (by norm_num) hc h2 a1 a2 p q hp hq (by rw [mul_zero, zero_mul, ← det]; exact abs_pos.2 h0) r

end

/-- A closed curve with integer coordinates. -/
noncomputable def closed49 : Curve ℝ := ⟨[[49, 1], [50, 2], [49, 1]], 2, none, .float⟩

theorem closed49_WF : WF closed49 where
  two_le := by simp [closed49]
  rect := by simp [closed49]
  tlen := by simp [closed49]
  repr := by intro _ _ x _; rfl

/-- **C159 fails for closed curves.** The determinant of a point with itself is 0, so that the exact model reverses every closed curve. In binary64 the computed determinant of
`(49, 1)` with itself is positive, however LAPACK computes it, and the curve is returned as it is. -/
theorem C159_closed_fails : closed49.coorientplane 0 1 = closed49.reverse ∧ ∀ r, CoorientplaneTo rnd closed49 0 1 r → r = closed49.copy := by
  have hp : IsPos closed49.ndim 0 0 := ⟨by simp [closed49, Curve.ndim], .inl rfl⟩
  have hq : IsPos closed49.ndim 1 1 := ⟨by simp [closed49, Curve.ndim], .inl rfl⟩
  have h2 : 2 ≤ closed49.size := by simp [closed49, Curve.size]
  constructor
  · have d : endDet closed49 0 1 = 0 := C57_closed rfl 0 1
    unfold Curve.coorientplane
    rw [isCoorient_eq closed49_WF h2 0 1 0 1 hp hq, d]
    simp
  · rintro r ⟨b, hb, rfl⟩
    obtain ⟨s, hs, rfl⟩ := (coorientTo_eq closed49_WF h2 0 1 0 1 hp hq _).1 hb
    have hs' : DetSignTo rnd 49 49 1 1 s := hs
    unfold DetSignTo at hs'
    rw [if_neg (by norm_num), if_pos (by norm_num)] at hs'
    obtain ⟨l, u, hl, hu, rfl⟩ := hs'
    have r1 : rnd (1 / 49) = 5882252574524729 * 2⁻¹ ^ 58 := by
      rw [rnd_value (-6) 5882252574524729 (by norm_num [zpow_neg]) (by norm_num [zpow_neg]) (.inl (by norm_num [zpow_neg, abs_lt]))]
      norm_num [zpow_neg]
    have el : l = 5882252574524729 * 2⁻¹ ^ 58 := by
      rcases hl with h | h
      · rw [h, r1]
      · rw [h, one_mul, rnd_rounding.idem, r1]
    have hu0 : 0 < u := by
      rcases hu with h | h
      · rw [h]
        refine fl_pos rnd_rounding ?_
        have : rnd (l * 49) = 9007199254740991 * 2⁻¹ ^ 53 := by
          rw [el, rnd_value (-1) 9007199254740991 (by norm_num [zpow_neg]) (by norm_num [zpow_neg]) (.inl (by norm_num [zpow_neg, abs_lt]))]
          norm_num [zpow_neg]
        rw [this]
        norm_num
      · rw [h]
        refine fl_pos rnd_rounding ?_
        rw [el]
        norm_num
    rw [sign_pos hu0, sign_pos (by norm_num : (0 : ℝ) < 49)]
    rfl

/-- Two points seen from the origin under a clear angle, in binary64: the exact result. -/
noncomputable def clearTurn : Curve ℝ := ⟨[[1, 2], [7, 7], [3, 1]], 2, none, .float⟩

theorem clearTurn_WF : WF clearTurn where
  two_le := by simp [clearTurn]
  rect := by simp [clearTurn]
  tlen := by simp [clearTurn]
  repr := by intro _ _ x _; rfl

example (r : Except PyErr (Curve ℝ)) (hr : CoorientplaneTo rnd clearTurn 0 1 r) : r = clearTurn.reverse := by
  have hp : IsPos clearTurn.ndim 0 0 := ⟨by simp [clearTurn, Curve.ndim], .inl rfl⟩
  have hq : IsPos clearTurn.ndim 1 1 := ⟨by simp [clearTurn, Curve.ndim], .inl rfl⟩
  have h2 : 2 ≤ clearTurn.size := by simp [clearTurn, Curve.size]
  have d : firstAt clearTurn 0 = 1 ∧ firstAt clearTurn 1 = 2 ∧ lastAt clearTurn 0 = 3 ∧ lastAt clearTurn 1 = 1 := by simp [firstAt, lastAt, clearTurn]
  obtain ⟨d1, d2, d3, d4⟩ := d
  rw [(C159_agrees rnd_rounding (by norm_num) clearTurn_WF h2 0 1 0 1 hp hq (by rw [d1, d2, d3, d4]; norm_num) r).1 hr]
  unfold Curve.coorientplane
  have e : endDet clearTurn 0 1 = firstAt clearTurn 0 * lastAt clearTurn 1 - lastAt clearTurn 0 * firstAt clearTurn 1 := rfl
  rw [isCoorient_eq clearTurn_WF h2 0 1 0 1 hp hq, e, d1, d2, d3, d4]
  norm_num

example (r : Except PyErr (Curve ℝ)) (hr : CoorientplaneTo rnd clearTurn 0 1 r) : ∃ c', r = .ok c' ∧ ∀ r', CoorientplaneTo rnd c' 0 1 r' → r' = .ok c' := by
  have d : firstAt clearTurn 0 = 1 ∧ firstAt clearTurn 1 = 2 ∧ lastAt clearTurn 0 = 3 ∧ lastAt clearTurn 1 = 1 := by simp [firstAt, lastAt, clearTurn]
  obtain ⟨d1, d2, d3, d4⟩ := d
  obtain ⟨c', d, h1, -, h3, -⟩ := C159_twice rnd_rounding (by norm_num) clearTurn_WF (by simp [clearTurn, Curve.size]) 0 1 0 1 ⟨by simp [clearTurn, Curve.ndim], .inl rfl⟩ ⟨by simp [clearTurn, Curve.ndim], .inl rfl⟩
    (by rw [d1, d2, d3, d4]; norm_num) hr
  exact ⟨c', h1, h3⟩

example : ∃ r, CoorientplaneTo rnd clearTurn 0 1 r :=
  (C159_choice clearTurn_WF (by simp [clearTurn, Curve.size]) 0 1 0 1 ⟨by simp [clearTurn, Curve.ndim], .inl rfl⟩ ⟨by simp [clearTurn, Curve.ndim], .inl rfl⟩).1

example : CoorientplaneTo id clearTurn 0 1 (clearTurn.coorientplane 0 1) :=
  (C159_exact clearTurn_WF (by simp [clearTurn, Curve.size]) 0 1 0 1 ⟨by simp [clearTurn, Curve.ndim], .inl rfl⟩ ⟨by simp [clearTurn, Curve.ndim], .inl rfl⟩ _).2 rfl

example {s : SignType} (hs : DetSignTo rnd 1 3 2 1 s) : s = -1 := by
  rw [C159_sign rnd_rounding (by norm_num) (by norm_num) hs]
  rw [sign_neg (by norm_num)]

end Verif.Props
