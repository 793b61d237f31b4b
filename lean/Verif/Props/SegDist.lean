import Verif.Lemmas.SegDist
import Verif.Model.SegPairs
import Verif.Spec.Geom
import Mathlib.Tactic.Positivity

/-!
Overlap and distance of segments (C31-C36).
-/
namespace Verif.Props

open Verif Verif.Model Verif.Spec

/-! ## C31 -/

section
variable {K : Type} [Field K] [LinearOrder K] [IsStrictOrderedRing K] {n : Nat}

theorem between_param {q g p : Vec n K} {x y : K} (hp : Between (q + x • g) (q + y • g) p) :
    ∃ z, min x y ≤ z ∧ z ≤ max x y ∧ p = q + z • g := by
  obtain ⟨l, h0, h1, rfl⟩ := hp
  refine ⟨x + l * (y - x), ?_, ?_, ?_⟩
  · rcases le_total x y with h | h
    · rw [min_eq_left h]; nlinarith
    · rw [min_eq_right h]; nlinarith
  · rcases le_total x y with h | h
    · rw [max_eq_right h]; nlinarith
    · rw [max_eq_left h]; nlinarith
  · rw [add_smul, mul_smul, sub_smul, add_sub_add_left_eq_sub]; abel

theorem param_between {q g : Vec n K} {x y z : K} (h1 : min x y ≤ z) (h2 : z ≤ max x y) :
    Between (q + x • g) (q + y • g) (q + z • g) := by
  by_cases hxy : x = y
  · subst hxy
    simp at h1 h2
    have : z = x := le_antisymm h2 h1
    subst this
    exact ⟨0, le_refl _, zero_le_one, by simp⟩
  · have hne : y - x ≠ 0 := sub_ne_zero.2 (Ne.symm hxy)
    refine ⟨(z - x) / (y - x), ?_, ?_, ?_⟩
    · rcases lt_or_gt_of_ne hxy with h | h
      · rw [min_eq_left h.le] at h1; exact div_nonneg (by linarith) (by linarith)
      · rw [max_eq_left h.le] at h2; exact div_nonneg_of_nonpos (by linarith) (by linarith)
    · rcases lt_or_gt_of_ne hxy with h | h
      · rw [max_eq_right h.le] at h2; rw [div_le_one (by linarith)]; linarith
      · rw [min_eq_right h.le] at h1; rw [div_le_one_of_neg (by linarith)]; linarith
    · have : q + y • g - (q + x • g) = (y - x) • g := by rw [sub_smul]; abel
      rw [this, smul_smul, div_mul_cancel₀ _ hne, sub_smul]; abel

/-- Coordinates of the two corner points, by the sign of the direction. -/
theorem corners {q g : Vec n K} {x1 x2 x3 x4 : K} (i : Fin n) :
    let lo := max (min x1 x2) (min x3 x4)
    let hi := min (max x1 x2) (max x3 x4)
    let c := fun x => (q + x • g) i
    (0 ≤ g i → max (min (c x1) (c x2)) (min (c x3) (c x4)) = c lo ∧ min (max (c x1) (c x2)) (max (c x3) (c x4)) = c hi) ∧
    (g i ≤ 0 → max (min (c x1) (c x2)) (min (c x3) (c x4)) = c hi ∧ min (max (c x1) (c x2)) (max (c x3) (c x4)) = c lo) := by
  intro lo hi c
  constructor
  · intro hg
    have hm : Monotone c := by
      intro x y h
      simp only [c, Pi.add_apply, Pi.smul_apply, smul_eq_mul]
      have := mul_le_mul_of_nonneg_right h hg
      linarith
    simp only [lo, hi, hm.map_max, hm.map_min, and_self]
  · intro hg
    have hm : Antitone c := by
      intro x y h
      simp only [c, Pi.add_apply, Pi.smul_apply, smul_eq_mul]
      have := mul_le_mul_of_nonpos_right h hg
      linarith
    simp only [lo, hi, hm.map_max, hm.map_min, and_self]

/-- **C31 (emptiness and midpoint).** For two segments on one line (any line): `overlap` is None exactly when
they have no common point; otherwise the midpoint of the returned segment is on both. -/
theorem C31_none_iff (s r : Seg n K) (h : OnLine [s.p1, s.p2, r.p1, r.p2]) :
    (s.overlap r false = none ↔ ¬ ∃ p, Between s.p1 s.p2 p ∧ Between r.p1 r.p2 p) ∧
    ∀ o, s.overlap r false = some o →
      Between s.p1 s.p2 (o.point (1 / 2)) ∧ Between r.p1 r.p2 (o.point (1 / 2)) := by
  obtain ⟨q, g, h⟩ := h
  obtain ⟨x1, e1⟩ := h s.p1 (by simp)
  obtain ⟨x2, e2⟩ := h s.p2 (by simp)
  obtain ⟨x3, e3⟩ := h r.p1 (by simp)
  obtain ⟨x4, e4⟩ := h r.p2 (by simp)
  obtain ⟨p1, p2⟩ := s
  obtain ⟨p3, p4⟩ := r
  simp only at e1 e2 e3 e4
  subst e1 e2 e3 e4
  simp only [Seg.overlap, Bool.false_and, Bool.false_eq_true, if_false]
  set lo := max (min x1 x2) (min x3 x4) with hlo
  set hi := min (max x1 x2) (max x3 x4) with hhi
  have hc := fun i => corners (q := q) (g := g) (x1 := x1) (x2 := x2) (x3 := x3) (x4 := x4) i
  simp only at hc
  rw [← hlo, ← hhi] at hc
  -- the corners agree with the common parameter interval
  have hmid : ∀ i, max (min ((q + x1 • g) i) ((q + x2 • g) i)) (min ((q + x3 • g) i) ((q + x4 • g) i)) +
      min (max ((q + x1 • g) i) ((q + x2 • g) i)) (max ((q + x3 • g) i) ((q + x4 • g) i)) =
      (q + lo • g) i + (q + hi • g) i := by
    intro i
    rcases le_total 0 (g i) with hg | hg
    · rw [((hc i).1 hg).1, ((hc i).1 hg).2]
    · rw [((hc i).2 hg).1, ((hc i).2 hg).2, add_comm]
  have hgt : (∃ i, max (min ((q + x1 • g) i) ((q + x2 • g) i)) (min ((q + x3 • g) i) ((q + x4 • g) i)) >
      min (max ((q + x1 • g) i) ((q + x2 • g) i)) (max ((q + x3 • g) i) ((q + x4 • g) i))) ↔ g ≠ 0 ∧ hi < lo := by
    constructor
    · rintro ⟨i, hi'⟩
      have hg0 : g i ≠ 0 := by
        intro h0
        have h1 := (hc i).1 h0.ge
        rw [h1.1, h1.2] at hi'
        simp [h0] at hi'
      refine ⟨fun h0 => hg0 (by rw [h0]; rfl), ?_⟩
      rcases lt_or_gt_of_ne hg0 with hg | hg
      · rw [((hc i).2 hg.le).1, ((hc i).2 hg.le).2] at hi'
        simp only [Pi.add_apply, Pi.smul_apply, smul_eq_mul, gt_iff_lt, add_lt_add_iff_left] at hi'
        exact (mul_lt_mul_right_of_neg hg).1 hi'
      · rw [((hc i).1 hg.le).1, ((hc i).1 hg.le).2] at hi'
        simp only [Pi.add_apply, Pi.smul_apply, smul_eq_mul, gt_iff_lt, add_lt_add_iff_left] at hi'
        exact lt_of_mul_lt_mul_right hi' hg.le
    · rintro ⟨hg0, hlt⟩
      obtain ⟨i, hi0⟩ : ∃ i, g i ≠ 0 := by
        by_contra hn; push Not at hn; exact hg0 (funext hn)
      refine ⟨i, ?_⟩
      rcases lt_or_gt_of_ne hi0 with hg | hg
      · rw [((hc i).2 hg.le).1, ((hc i).2 hg.le).2]
        simp only [Pi.add_apply, Pi.smul_apply, smul_eq_mul, gt_iff_lt, add_lt_add_iff_left]
        exact mul_lt_mul_of_neg_right hlt hg
      · rw [((hc i).1 hg.le).1, ((hc i).1 hg.le).2]
        simp only [Pi.add_apply, Pi.smul_apply, smul_eq_mul, gt_iff_lt, add_lt_add_iff_left]
        exact mul_lt_mul_of_pos_right hlt hg
  have hin : ∀ z, lo ≤ z → z ≤ hi → Between (q + x1 • g) (q + x2 • g) (q + z • g) ∧ Between (q + x3 • g) (q + x4 • g) (q + z • g) :=
    fun z h1 h2 => ⟨param_between ((le_max_left _ _).trans h1) (h2.trans (min_le_left _ _)),
      param_between ((le_max_right _ _).trans h1) (h2.trans (min_le_right _ _))⟩
  constructor
  · by_cases hgl : g ≠ 0 ∧ hi < lo
    · rw [if_pos (hgt.2 hgl)]
      simp only [true_iff]
      rintro ⟨p, hb1, hb2⟩
      obtain ⟨z, z1, z2, hz⟩ := between_param hb1
      obtain ⟨z', z1', z2', hz'⟩ := between_param hb2
      have hzz : z = z' := by
        have : (z - z') • g = 0 := by
          rw [sub_smul, sub_eq_zero]; exact add_left_cancel (hz.symm.trans hz')
        rcases smul_eq_zero.1 this with h' | h'
        · linarith
        · exact absurd h' hgl.1
      subst hzz
      have : lo ≤ hi := le_trans (max_le z1 z1') (le_min z2 z2')
      linarith [hgl.2]
    · rw [if_neg (fun hh => hgl (hgt.1 hh))]
      simp only [reduceCtorEq, false_iff, not_not]
      by_cases hg : g = 0
      · refine ⟨q + x1 • g, ⟨0, le_refl _, zero_le_one, by simp⟩, ⟨0, le_refl _, zero_le_one, by simp [hg]⟩⟩
      · have : lo ≤ hi := by by_contra hn; exact hgl ⟨hg, not_le.1 hn⟩
        exact ⟨q + lo • g, hin lo (le_refl _) this⟩
  · intro o ho
    by_cases hgl : g ≠ 0 ∧ hi < lo
    · rw [if_pos (hgt.2 hgl)] at ho; simp at ho
    · rw [if_neg (fun hh => hgl (hgt.1 hh))] at ho
      have ho := Option.some.inj ho
      have hpt : o.point (1 / 2) = q + ((lo + hi) / 2) • g := by
        rw [Seg.point_eq, ← ho]
        funext i
        simp only [Seg.direction, Pi.add_apply, Pi.smul_apply, Pi.sub_apply, smul_eq_mul]
        have := hmid i
        simp only [Pi.add_apply, Pi.smul_apply, smul_eq_mul] at this
        linarith
      rw [hpt]
      by_cases hg : g = 0
      · subst hg
        simp only [smul_zero, add_zero]
        exact ⟨⟨0, le_refl _, zero_le_one, by simp⟩, ⟨0, le_refl _, zero_le_one, by simp⟩⟩
      · have hle : lo ≤ hi := by by_contra hn; exact hgl ⟨hg, not_le.1 hn⟩
        exact hin _ (by linarith) (by linarith)

/-- **C31 (exactness, partial).** On a line whose direction has no coordinates of opposite sign, the returned
segment is exactly the set of common points. Missing: mixed signs, `C31_mixed_signs`. -/
theorem C31_common_partial (s r : Seg n K) (q g : Vec n K) (hg : ∀ i, 0 ≤ g i)
    (hl : ∀ p ∈ [s.p1, s.p2, r.p1, r.p2], ∃ x : K, p = q + x • g) {o : Seg n K} (ho : s.overlap r false = some o) (p : Vec n K) :
    Between o.p1 o.p2 p ↔ Between s.p1 s.p2 p ∧ Between r.p1 r.p2 p := by
  have hnone := (C31_none_iff s r ⟨q, g, hl⟩).1
  obtain ⟨x1, e1⟩ := hl s.p1 (by simp)
  obtain ⟨x2, e2⟩ := hl s.p2 (by simp)
  obtain ⟨x3, e3⟩ := hl r.p1 (by simp)
  obtain ⟨x4, e4⟩ := hl r.p2 (by simp)
  obtain ⟨p1, p2⟩ := s
  obtain ⟨p3, p4⟩ := r
  simp only at e1 e2 e3 e4
  subst e1 e2 e3 e4
  have hne : ¬ (⟨q + x1 • g, q + x2 • g⟩ : Seg n K).overlap ⟨q + x3 • g, q + x4 • g⟩ false = none := by rw [ho]; simp
  rw [hnone, not_not] at hne
  simp only [Seg.overlap, Bool.false_and, Bool.false_eq_true, if_false] at ho
  split_ifs at ho
  have ho := Option.some.inj ho
  set lo := max (min x1 x2) (min x3 x4) with hlo
  set hi := min (max x1 x2) (max x3 x4) with hhi
  have hc := fun i => (corners (q := q) (g := g) (x1 := x1) (x2 := x2) (x3 := x3) (x4 := x4) i).1 (hg i)
  simp only [← hlo, ← hhi] at hc
  have ho1 : o.p1 = q + lo • g := by rw [← ho]; funext i; exact (hc i).1
  have ho2 : o.p2 = q + hi • g := by rw [← ho]; funext i; exact (hc i).2
  rw [ho1, ho2]
  by_cases hg0 : g = 0
  · subst hg0; simp
  have uniq : ∀ {z z' : K}, q + z • g = q + z' • g → z = z' := by
    intro z z' hz
    have : (z - z') • g = 0 := by rw [sub_smul, sub_eq_zero]; exact add_left_cancel hz
    rcases smul_eq_zero.1 this with h' | h'
    · linarith
    · exact absurd h' hg0
  have hle : lo ≤ hi := by
    obtain ⟨p', hb1, hb2⟩ := hne
    obtain ⟨z, z1, z2, hz⟩ := between_param hb1
    obtain ⟨z', z1', z2', hz'⟩ := between_param hb2
    have hzz := uniq (hz.symm.trans hz')
    subst hzz
    exact le_trans (max_le z1 z1') (le_min z2 z2')
  constructor
  · intro hb
    obtain ⟨z, z1, z2, rfl⟩ := between_param hb
    rw [min_eq_left hle] at z1
    rw [max_eq_right hle] at z2
    exact ⟨param_between ((le_max_left _ _).trans z1) (z2.trans (min_le_left _ _)),
      param_between ((le_max_right _ _).trans z1) (z2.trans (min_le_right _ _))⟩
  · rintro ⟨hb1, hb2⟩
    obtain ⟨z, z1, z2, hz⟩ := between_param hb1
    obtain ⟨z', z1', z2', hz'⟩ := between_param hb2
    have hzz := uniq (hz.symm.trans hz')
    subst hzz
    rw [hz]
    exact param_between (by rw [min_eq_left hle]; exact max_le z1 z1') (by rw [max_eq_right hle]; exact le_min z2 z2')

/-- The collinearity test in front: with `check_collinear` the result is the same or None. -/
theorem C31_check (s r : Seg n K) :
    s.overlap r true = if s.collinear (.seg r) = true then s.overlap r false else none := by
  unfold Seg.overlap
  by_cases h : s.collinear (.seg r) = true <;> simp [h]

end

/-- **C31 violated.** The overlap of the segment (0,1)-(1,0) with itself is reported as (0,0)-(1,1), whose first
point is not on the segment. -/
theorem C31_mixed_signs :
    (⟨![0, 1], ![1, 0]⟩ : Seg 2 ℚ).overlap ⟨![0, 1], ![1, 0]⟩ false = some ⟨![0, 0], ![1, 1]⟩ ∧
    ¬ Between ![(0 : ℚ), 1] ![1, 0] ![0, 0] := by
  constructor
  · unfold Seg.overlap
    simp only [Bool.false_and, Bool.false_eq_true, if_false]
    rw [if_neg]
    · congr 1
      ext i <;> fin_cases i <;> simp
    · rintro ⟨i, hi⟩
      fin_cases i <;> simp at hi <;> linarith
  · rintro ⟨x, _, _, h⟩
    have h0 := congrFun h 0
    have h1 := congrFun h 1
    simp at h0 h1
    rw [← h0] at h1
    norm_num at h1

/-! ## C32 -/

section
variable {n : Nat}

theorem segToPoint_range {K : Type} [Field K] [LinearOrder K] [IsStrictOrderedRing K] (s : Seg n K) (p : Vec n K) :
    0 ≤ segToPoint s p ∧ segToPoint s p ≤ 1 := by
  unfold segToPoint
  simp only
  split_ifs with h1 h2
  · exact ⟨le_refl _, zero_le_one⟩
  · exact ⟨zero_le_one, le_refl _⟩
  · push Not at h1 h2
    exact ⟨div_nonneg h1.1 (vdot_self_nonneg _), div_le_one_of_le₀ h2.1 (vdot_self_nonneg _)⟩

/-- distance squared from `p` to the point of parameter `x` -/
theorem sq_to_point (s : Seg n ℝ) (p : Vec n ℝ) (x : ℝ) :
    Model.edist (s.point x) p ^ 2 =
      vdot (p - s.p1) (p - s.p1) - 2 * vdot (p - s.p1) s.direction * x + vdot s.direction s.direction * x * x := by
  rw [edist_eq_vnorm, vnorm_sq, Seg.point_eq]
  have : s.p1 + x • s.direction - p = x • s.direction - (p - s.p1) := by abel
  rw [this]
  generalize p - s.p1 = z
  simp only [vdot_sub, sub_vdot, smul_vdot, vdot_smul, vdot_comm s.direction z]
  ring

/-- **C32 (partial).** The foot point is on the segment, the connecting segment ends in `p`, and the square of
the distance exceeds the square of the distance to any point of the segment by at most
2e-8 + 1e-5 |(p - p1) . (p2 - p1)|. Missing: exact minimality, violated in the tolerance zone (`C32_short`);
outside of it see `C32_exact`. -/
theorem C32_distance_partial (s : Seg n ℝ) (p : Vec n ℝ) :
    Between s.p1 s.p2 (s.shortest (.point p)).p1 ∧ (s.shortest (.point p)).p2 = p ∧
    ∀ x, 0 ≤ x → x ≤ 1 → s.distance (.point p) ^ 2 ≤ Model.edist (s.point x) p ^ 2 +
      (2 / 100000000 + 1 / 100000 * |∑ i, (p i - s.p1 i) * (s.p2 i - s.p1 i)|) := by
  refine ⟨⟨segToPoint s p, (segToPoint_range s p).1, (segToPoint_range s p).2, Seg.point_eq s _⟩, rfl, ?_⟩
  intro x h0 h1
  have hd : s.distance (.point p) = Model.edist (s.point (segToPoint s p)) p := rfl
  have hsum : ∑ i, (p i - s.p1 i) * (s.p2 i - s.p1 i) = vdot (p - s.p1) s.direction := by rw [vdot_eq]; rfl
  rw [hd, sq_to_point, sq_to_point, hsum]
  have hc2 : 0 ≤ vdot s.direction s.direction := vdot_self_nonneg _
  unfold segToPoint
  simp only
  generalize vdot (p - s.p1) s.direction = c1
  generalize vdot s.direction s.direction = c2 at hc2
  have habs := abs_nonneg c1
  have hcx : 0 ≤ c2 * x * x := by positivity
  split_ifs with h2 h3
  · rcases h2 with h2 | h2
    · nlinarith
    · have : |c1| ≤ 1 / 100000000 := by simpa [closeK, atol, rtol] using h2
      have h3 := le_abs_self c1
      nlinarith
  · push Not at h2
    have hc1 : 0 ≤ c1 := h2.1
    rw [abs_of_nonneg hc1]
    have hx1 : 0 ≤ 1 - x := by linarith
    have key : ∀ ε, 0 ≤ ε → c2 ≤ c1 + ε → -2 * c1 * 1 + c2 * 1 * 1 ≤ -2 * c1 * x + c2 * x * x + ε := by
      intro ε hε hce
      have e1 : (-2 * c1 * 1 + c2 * 1 * 1) - (-2 * c1 * x + c2 * x * x) = (1 - x) * (c2 * (1 + x) - 2 * c1) := by ring
      have e2 : c2 * (1 + x) - 2 * c1 ≤ (c1 + ε) * (1 + x) - 2 * c1 := by nlinarith
      have e3 := mul_le_mul_of_nonneg_left e2 hx1
      nlinarith [mul_nonneg hc1 (mul_nonneg hx1 hx1), mul_nonneg hε (mul_self_nonneg x)]
    rcases h3 with h3 | h3
    · have := key 0 (le_refl _) (by linarith)
      linarith
    · have h4 : |c2 - c1| ≤ 1 / 100000000 + 1 / 100000 * |c1| := by simpa [closeK, atol, rtol] using h3
      rw [abs_of_nonneg hc1] at h4
      have h5 := le_abs_self (c2 - c1)
      have := key (1 / 100000000 + 1 / 100000 * c1) (by positivity) (by linarith)
      linarith
  · push Not at h2 h3
    have hpos : 0 < c2 := by
      have hc1 : c1 ≠ 0 := by
        rintro rfl
        exact h2.2 (by simp [closeK, atol, rtol])
      have := lt_of_le_of_ne h2.1 (Ne.symm hc1)
      linarith [h3.1]
    have e1 : (-2 * c1 * x + c2 * x * x) - (-2 * c1 * (c1 / c2) + c2 * (c1 / c2) * (c1 / c2)) = c2 * (x - c1 / c2) ^ 2 := by
      field_simp; ring
    have e2 : 0 ≤ c2 * (x - c1 / c2) ^ 2 := by positivity
    nlinarith

/-- **C32 (exact).** Outside the tolerance zone the distance is the exact minimum: with
`c1 = (p - p1).(p2 - p1)` and `c2 = |p2 - p1|²`, when `c1` is negative or above 1e-8 and `c2 - c1` is negative or
above 1e-8 + 1e-5 c1. -/
theorem C32_exact (s : Seg n ℝ) (p : Vec n ℝ)
    (h1 : (∑ i, (p i - s.p1 i) * (s.p2 i - s.p1 i)) ≤ 0 ∨ 1 / 100000000 < ∑ i, (p i - s.p1 i) * (s.p2 i - s.p1 i))
    (h2 : (∑ i, (s.p2 i - s.p1 i) ^ 2) ≤ (∑ i, (p i - s.p1 i) * (s.p2 i - s.p1 i)) ∨
      1 / 100000000 + 1 / 100000 * |∑ i, (p i - s.p1 i) * (s.p2 i - s.p1 i)| <
        (∑ i, (s.p2 i - s.p1 i) ^ 2) - ∑ i, (p i - s.p1 i) * (s.p2 i - s.p1 i))
    (x : ℝ) (h0 : 0 ≤ x) (hx1 : x ≤ 1) : s.distance (.point p) ≤ Model.edist (s.point x) p := by
  have hd : s.distance (.point p) = Model.edist (s.point (segToPoint s p)) p := rfl
  have hsum : ∑ i, (p i - s.p1 i) * (s.p2 i - s.p1 i) = vdot (p - s.p1) s.direction := by rw [vdot_eq]; rfl
  have hsum2 : ∑ i, (s.p2 i - s.p1 i) ^ 2 = vdot s.direction s.direction := by rw [vdot_eq]; simp [sq, Seg.direction]
  refine le_of_sq_le_sq ?_ (edist_nonneg _ _)
  rw [hd, sq_to_point, sq_to_point]
  rw [hsum] at h1 h2
  rw [hsum2] at h2
  have hc2 : 0 ≤ vdot s.direction s.direction := vdot_self_nonneg _
  unfold segToPoint
  simp only
  generalize vdot (p - s.p1) s.direction = c1 at *
  generalize vdot s.direction s.direction = c2 at *
  have hcx : 0 ≤ c2 * x * x := by positivity
  split_ifs with h3 h4
  · have hc1 : c1 ≤ 0 := by
      rcases h3 with h3 | h3
      · exact h3.le
      · rcases h1 with h1 | h1
        · exact h1
        · have : |c1| ≤ 1 / 100000000 := by simpa [closeK, atol, rtol] using h3
          linarith [le_abs_self c1]
    nlinarith
  · have hcc : c2 ≤ c1 := by
      rcases h4 with h4 | h4
      · exact h4.le
      · rcases h2 with h2 | h2
        · exact h2
        · have : |c2 - c1| ≤ 1 / 100000000 + 1 / 100000 * |c1| := by simpa [closeK, atol, rtol] using h4
          linarith [le_abs_self (c2 - c1)]
    have hx : 0 ≤ 1 - x := by linarith
    nlinarith [mul_nonneg hx (sub_nonneg.2 hcc), mul_nonneg hc2 (mul_nonneg hx hx)]
  · push Not at h3 h4
    have hpos : 0 < c2 := by
      have hc1 : c1 ≠ 0 := by
        rintro rfl
        exact h3.2 (by simp [closeK, atol, rtol])
      have := lt_of_le_of_ne h3.1 (Ne.symm hc1)
      linarith [h4.1]
    have e1 : (-2 * c1 * x + c2 * x * x) - (-2 * c1 * (c1 / c2) + c2 * (c1 / c2) * (c1 / c2)) = c2 * (x - c1 / c2) ^ 2 := by
      field_simp; ring
    have e2 : 0 ≤ c2 * (x - c1 / c2) ^ 2 := by positivity
    nlinarith

end

/-- **C32 violated.** The point p2 of the segment (0,0)-(1e-5,0) is reported to be at distance 1e-5 from it. -/
theorem C32_short :
    (⟨![0, 0], ![1 / 100000, 0]⟩ : Seg 2 ℝ).distance (.point ![1 / 100000, 0]) = 1 / 100000 := by
  have ht : segToPoint (⟨![0, 0], ![1 / 100000, 0]⟩ : Seg 2 ℝ) ![1 / 100000, 0] = 0 := by
    unfold segToPoint
    simp only
    rw [if_pos]
    right
    simp [closeK, atol, rtol, vdot_eq, Fin.sum_univ_two, Seg.direction]
    norm_num
  have : (⟨![0, 0], ![1 / 100000, 0]⟩ : Seg 2 ℝ).distance (.point ![1 / 100000, 0]) =
      Model.edist ((⟨![0, 0], ![1 / 100000, 0]⟩ : Seg 2 ℝ).point 0) ![1 / 100000, 0] := by
    unfold Seg.distance Seg.shortest
    simp only [ht]
    rfl
  rw [this, Seg.point_eq]
  simp only [zero_smul, add_zero, Model.edist, Fin.sum_univ_two]
  rw [show ((![0, 0] : Fin 2 → ℝ) 0 - (![1 / 100000, 0] : Fin 2 → ℝ) 0) ^ 2 + ((![0, 0] : Fin 2 → ℝ) 1 - (![1 / 100000, 0] : Fin 2 → ℝ) 1) ^ 2
    = (1 / 100000) ^ 2 by norm_num]
  exact Real.sqrt_sq (by norm_num)

/-! ## C33 -/

section
variable {K : Type} [Field K] [LinearOrder K] [IsStrictOrderedRing K] {n : Nat}

/-- **C33.** For every pair of segments — in fact for arbitrary numbers in place of the dot products — and every
monotone rounding of the intermediate results with 0 and 1 representable, both parameters are in [0, 1]. -/
theorem C33_range (fl : K → K) (hmono : Monotone fl) (h0 : fl 0 = 0) (h1 : fl 1 = 1) {tol : K} (htol : 0 < tol)
    (a b c d e : K) :
    (0 ≤ (s2sCore fl tol a b c d e).1 ∧ (s2sCore fl tol a b c d e).1 ≤ 1) ∧
    (0 ≤ (s2sCore fl tol a b c d e).2 ∧ (s2sCore fl tol a b c d e).2 ≤ 1) := by
  -- rounding a quotient of the unit interval
  have unit : ∀ x : K, 0 ≤ x → x ≤ 1 → 0 ≤ fl x ∧ fl x ≤ 1 := fun x a1 a2 => ⟨h0 ▸ hmono a1, h1 ▸ hmono a2⟩
  have quot : ∀ x y : K, (x = 0 ∨ x = y ∨ (0 ≤ x ∧ x ≤ y)) →
      0 ≤ (if |x| < tol then 0 else fl (x / y)) ∧ (if |x| < tol then 0 else fl (x / y)) ≤ 1 := by
    intro x y h
    split_ifs with hlt
    · exact ⟨le_refl _, zero_le_one⟩
    · have hx : x ≠ 0 := by rintro rfl; simp at hlt; linarith
      rcases h with h | h | ⟨h, h'⟩
      · exact absurd h hx
      · rw [← h, div_self hx, h1]; exact ⟨zero_le_one, le_refl _⟩
      · exact unit _ (div_nonneg h (h.trans h')) (div_le_one_of_le₀ h' (h.trans h'))
  unfold s2sCore
  simp only
  set g := s2sLines fl tol a b c d e with hg
  have hgs : g.sn = 0 ∨ g.sn = g.sd ∨ (0 ≤ g.sn ∧ g.sn ≤ g.sd) := by
    rw [hg]
    unfold s2sLines
    simp only
    split_ifs with q1 q2 q3
    · exact .inl rfl
    · exact .inl rfl
    · exact .inr (.inl rfl)
    · exact .inr (.inr ⟨not_lt.1 q2, not_lt.1 q3⟩)
  have hfs : ∀ f, f = s2sClamp fl a b d g → (f.sn = 0 ∨ f.sn = f.sd ∨ (0 ≤ f.sn ∧ f.sn ≤ f.sd)) ∧
      (f.tn = 0 ∨ f.tn = f.td ∨ (0 ≤ f.tn ∧ f.tn ≤ f.td)) := by
    rintro f rfl
    unfold s2sClamp
    split_ifs with q1 q2 q3 q4 q5 q6
    · exact ⟨.inl rfl, .inl rfl⟩
    · exact ⟨.inr (.inl rfl), .inl rfl⟩
    · exact ⟨.inr (.inr ⟨not_lt.1 q2, not_lt.1 q3⟩), .inl rfl⟩
    · exact ⟨.inl rfl, .inr (.inl rfl)⟩
    · exact ⟨.inr (.inl rfl), .inr (.inl rfl)⟩
    · exact ⟨.inr (.inr ⟨not_lt.1 q5, not_lt.1 q6⟩), .inr (.inl rfl)⟩
    · exact ⟨hgs, .inr (.inr ⟨not_lt.1 q1, not_lt.1 q4⟩)⟩
  obtain ⟨f1, f2⟩ := hfs _ rfl
  exact ⟨quot _ _ f1, quot _ _ f2⟩

/-- **C33 (segments).** The connecting segment starts on the first and ends on the second segment. -/
theorem C33_endpoints (s r : Seg n K) :
    Between s.p1 s.p2 (s.shortest (.seg r)).p1 ∧ Between r.p1 r.p2 (s.shortest (.seg r)).p2 := by
  have := C33_range id monotone_id rfl rfl (tol := (F_EPS : K)) (by simp [F_EPS]) (vdot s.direction s.direction)
    (vdot s.direction r.direction) (vdot r.direction r.direction) (vdot s.direction (s.p1 - r.p1)) (vdot r.direction (s.p1 - r.p1))
  exact ⟨⟨_, this.1.1, this.1.2, Seg.point_eq s _⟩, ⟨_, this.2.1, this.2.2, Seg.point_eq r _⟩⟩

end

/-- A monotone rounding with 0 and 1 representable: round down to a multiple of 1/4. -/
example : ∃ fl : ℚ → ℚ, Monotone fl ∧ fl 0 = 0 ∧ fl 1 = 1 ∧ fl (1 / 3) ≠ 1 / 3 := by
  refine ⟨fun x => (⌊x * 4⌋ : ℚ) / 4, ?_, ?_, ?_, ?_⟩
  · intro x y h
    have : ⌊x * 4⌋ ≤ ⌊y * 4⌋ := Int.floor_le_floor (by linarith)
    have h2 : ((⌊x * 4⌋ : ℤ) : ℚ) ≤ ((⌊y * 4⌋ : ℤ) : ℚ) := by exact_mod_cast this
    simp only
    linarith
  · norm_num
  · norm_num
  · norm_num

/-! ## C34, C35 -/

section
variable {n : Nat}

/-- connecting vector of two points of the segments -/
theorem edist_points (s r : Seg n ℝ) (x y : ℝ) :
    Model.edist (s.point x) (r.point y) = vnorm ((s.p1 - r.p1) + x • s.direction - y • r.direction) := by
  rw [edist_eq_vnorm, Seg.point_eq, Seg.point_eq]
  congr 1
  abel

theorem qf_vnorm (u v w : Vec n ℝ) (x y : ℝ) :
    vdot (w + x • u - y • v) (w + x • u - y • v) =
      vdot w w + qf (vdot u u) (vdot u v) (vdot v v) (vdot u w) (vdot v w) x y := by
  unfold qf
  simp only [vdot_sub, sub_vdot, vdot_add, add_vdot, smul_vdot, vdot_smul, vdot_comm w u, vdot_comm w v, vdot_comm v u]
  ring

/-- The error bound of `C34_bound_partial`. -/
noncomputable def distErr (u v : Vec n ℝ) : ℝ :=
  let g := vdot u u * vdot v v - vdot u v * vdot u v
  2 * √ F_EPS + (if F_EPS ≤ g then (vnorm u + vnorm v) * (F_EPS / g) else 2 * √ (g / vdot v v))

theorem f_eps_pos : (0 : ℝ) < F_EPS := by simp [F_EPS]
theorem f_eps_le : (F_EPS : ℝ) ≤ 1 := by unfold F_EPS; norm_num

/-- minimality of the parameters before truncation -/
theorem exact_min (s r : Seg n ℝ) {tol : ℝ} (htol : 0 < tol)
    (hcase : tol ≤ vdot s.direction s.direction * vdot r.direction r.direction - vdot s.direction r.direction * vdot s.direction r.direction ∨
      (vdot s.direction s.direction * vdot r.direction r.direction - vdot s.direction r.direction * vdot s.direction r.direction = 0 ∧ r.p1 ≠ r.p2))
    {x y : ℝ} (hx0 : 0 ≤ x) (hx1 : x ≤ 1) (hy0 : 0 ≤ y) (hy1 : y ≤ 1) :
    let p := s2sExact tol (vdot s.direction s.direction) (vdot s.direction r.direction) (vdot r.direction r.direction)
      (vdot s.direction (s.p1 - r.p1)) (vdot r.direction (s.p1 - r.p1))
    Model.edist (s.point p.1) (r.point p.2) ≤ Model.edist (s.point x) (r.point y) := by
  intro p
  have hb : vdot s.direction r.direction * vdot s.direction r.direction ≤ vdot s.direction s.direction * vdot r.direction r.direction := by
    have := gram_nonneg s.direction r.direction; linarith
  have kkt : KKT _ _ _ _ _ p.1 p.2 := s2s_kkt htol (vdot_self_nonneg s.direction) (vdot_self_nonneg r.direction) hb
    (fun h => by rw [vdot_self_eq_zero] at h; rw [h, zero_vdot]) (by
      rcases hcase with h | ⟨h, hr⟩
      · exact .inl h
      · refine .inr ⟨h, vdot_self_pos ?_, ?_⟩
        · intro h0
          have : r.p2 - r.p1 = 0 := h0
          exact hr (sub_eq_zero.1 this).symm
        · have := gram_zero h
          have h2 := congrArg (fun z => vdot z (s.p1 - r.p1)) this
          simpa [smul_vdot] using h2)
  have hmin := kkt.min (vdot_self_nonneg s.direction) (vdot_self_nonneg r.direction) hb hx0 hx1 hy0 hy1
  rw [edist_points, edist_points]
  apply vnorm_le_of_sq
  rw [qf_vnorm, qf_vnorm]
  linarith

/-- moving the parameters changes the distance by at most the lengths moved -/
theorem edist_shift (s r : Seg n ℝ) (x x' y y' : ℝ) :
    Model.edist (s.point x') (r.point y') ≤ Model.edist (s.point x) (r.point y) + |x' - x| * vnorm s.direction + |y' - y| * vnorm r.direction := by
  rw [edist_points, edist_points]
  have e : s.p1 - r.p1 + x' • s.direction - y' • r.direction =
      ((s.p1 - r.p1 + x • s.direction - y • r.direction) + (x' - x) • s.direction) - (y' - y) • r.direction := by
    simp only [sub_smul]; abel
  rw [e]
  refine (vnorm_sub_le _ _).trans ?_
  have := vnorm_add_le (s.p1 - r.p1 + x • s.direction - y • r.direction) ((x' - x) • s.direction)
  rw [vnorm_smul] at this ⊢
  linarith

/-- **C34 (bound, partial).** For every pair whose second segment is not a single point, the computed distance
exceeds the distance of any two points of the segments by at most `distErr`: `2 sqrt(eps)` plus, with `G` the Gram
determinant of the directions, `(|u| + |v|) eps / G` if `G >= eps` and `2 sqrt(G) / |v|` otherwise.
Missing: exact minimality (see `C34_exact_partial`) and a singular second segment (`C34_singular_second`). -/
theorem C34_bound_partial (s r : Seg n ℝ) (hr : r.p1 ≠ r.p2) {x y : ℝ} (hx0 : 0 ≤ x) (hx1 : x ≤ 1) (hy0 : 0 ≤ y) (hy1 : y ≤ 1) :
    s.distance (.seg r) ≤ Model.edist (s.point x) (r.point y) + distErr (s.p2 - s.p1) (r.p2 - r.p1) := by
  have hc : 0 < vdot r.direction r.direction := vdot_self_pos fun h => hr (sub_eq_zero.1 (show r.p2 - r.p1 = 0 from h)).symm
  have hd : s.distance (.seg r) = Model.edist (s.point (segToSeg s r F_EPS).1) (r.point (segToSeg s r F_EPS).2) := rfl
  rw [hd]
  have hsh := edist_shift s r
    (s2sExact F_EPS (vdot s.direction s.direction) (vdot s.direction r.direction) (vdot r.direction r.direction)
      (vdot s.direction (s.p1 - r.p1)) (vdot r.direction (s.p1 - r.p1))).1 (segToSeg s r F_EPS).1
    (s2sExact F_EPS (vdot s.direction s.direction) (vdot s.direction r.direction) (vdot r.direction r.direction)
      (vdot s.direction (s.p1 - r.p1)) (vdot r.direction (s.p1 - r.p1))).2 (segToSeg s r F_EPS).2
  have h1 := s2s_trunc1 (tol := F_EPS) (b := vdot s.direction r.direction) (c := vdot r.direction r.direction)
    (d := vdot s.direction (s.p1 - r.p1)) (e := vdot r.direction (s.p1 - r.p1)) f_eps_pos f_eps_le (vnorm_nonneg s.direction)
    (vnorm_mul_self s.direction).symm
  have h2 := s2s_trunc2 (tol := F_EPS) (a := vdot s.direction s.direction) (b := vdot s.direction r.direction)
    (d := vdot s.direction (s.p1 - r.p1)) (e := vdot r.direction (s.p1 - r.p1)) f_eps_pos (vnorm_nonneg r.direction)
    (vnorm_mul_self r.direction).symm
  have hseg : segToSeg s r F_EPS = s2sCore id F_EPS (vdot s.direction s.direction) (vdot s.direction r.direction) (vdot r.direction r.direction)
      (vdot s.direction (s.p1 - r.p1)) (vdot r.direction (s.p1 - r.p1)) := rfl
  rw [← hseg] at h1 h2
  have hdir : distErr (s.p2 - s.p1) (r.p2 - r.p1) = distErr s.direction r.direction := rfl
  rw [hdir]
  unfold distErr
  simp only
  by_cases hg : F_EPS ≤ vdot s.direction s.direction * vdot r.direction r.direction - vdot s.direction r.direction * vdot s.direction r.direction
  · rw [if_pos hg] at h1 h2 ⊢
    have hmin := exact_min s r f_eps_pos (.inl hg) hx0 hx1 hy0 hy1
    simp only at hmin
    nlinarith
  · rw [if_neg hg] at h1 h2 ⊢
    have hmin := near_parallel s.direction r.direction (s.p1 - r.p1) (tol := F_EPS) hc (not_le.1 hg) hx0 hx1 hy0 hy1
    simp only at hmin
    rw [← edist_points, ← edist_points] at hmin
    have ho : vnorm (orth s.direction r.direction) = √ ((vdot s.direction s.direction * vdot r.direction r.direction - vdot s.direction r.direction * vdot s.direction r.direction) / vdot r.direction r.direction) := by
      unfold vnorm; rw [orth_norm _ _ hc]
    rw [ho] at hmin
    linarith

/-- A number that is an integer multiple of `h`. -/
def OnGrid (h x : ℝ) : Prop := ∃ z : ℤ, x = z * h

/-- All coordinates of a segment are integer multiples of `h`. -/
def SegOnGrid (h : ℝ) (s : Seg n ℝ) : Prop := ∀ i, OnGrid h (s.p1 i) ∧ OnGrid h (s.p2 i)

theorem OnGrid.sub {h x y : ℝ} (hx : OnGrid h x) (hy : OnGrid h y) : OnGrid h (x - y) := by
  obtain ⟨a, rfl⟩ := hx; obtain ⟨b, rfl⟩ := hy; exact ⟨a - b, by push_cast; ring⟩
theorem OnGrid.add {h x y : ℝ} (hx : OnGrid h x) (hy : OnGrid h y) : OnGrid h (x + y) := by
  obtain ⟨a, rfl⟩ := hx; obtain ⟨b, rfl⟩ := hy; exact ⟨a + b, by push_cast; ring⟩
theorem OnGrid.neg {h x : ℝ} (hx : OnGrid h x) : OnGrid h (-x) := by
  obtain ⟨a, rfl⟩ := hx; exact ⟨-a, by push_cast; ring⟩
theorem OnGrid.mul {h k x y : ℝ} (hx : OnGrid h x) (hy : OnGrid k y) : OnGrid (h * k) (x * y) := by
  obtain ⟨a, rfl⟩ := hx; obtain ⟨b, rfl⟩ := hy; exact ⟨a * b, by push_cast; ring⟩
theorem OnGrid.vdot {h : ℝ} {u v : Vec n ℝ} (hu : ∀ i, OnGrid h (u i)) (hv : ∀ i, OnGrid h (v i)) : OnGrid (h * h) (vdot u v) := by
  rw [vdot_eq]
  refine Finset.sum_induction _ (OnGrid (h * h)) (fun _ _ => OnGrid.add) ⟨0, by simp⟩ (fun i _ => (hu i).mul (hv i))
theorem OnGrid.gap {h x : ℝ} (hx : OnGrid h x) (hh : 0 < h) {tol : ℝ} (ht : tol ≤ h) : x ≤ 0 ∨ tol ≤ x := by
  obtain ⟨z, rfl⟩ := hx
  rcases le_or_gt z 0 with hz | hz
  · left; have : (z : ℝ) ≤ 0 := by exact_mod_cast hz
    nlinarith
  · right; have : (1 : ℝ) ≤ z := by exact_mod_cast hz
    nlinarith

theorem clear_of_grid (s r : Seg n ℝ) {h tol : ℝ} (hh : 0 < h) (ht2 : tol ≤ h * h) (ht4 : tol ≤ h * h * (h * h)) (ht1 : tol ≤ 1)
    (hs : SegOnGrid h s) (hr : SegOnGrid h r) :
    Clear tol (vdot s.direction s.direction) (vdot s.direction r.direction) (vdot r.direction r.direction)
      (vdot s.direction (s.p1 - r.p1)) (vdot r.direction (s.p1 - r.p1)) ∧
    OnGrid (h * h * (h * h)) (vdot s.direction s.direction * vdot r.direction r.direction - vdot s.direction r.direction * vdot s.direction r.direction) := by
  have hu : ∀ i, OnGrid h (s.direction i) := fun i => (hs i).2.sub (hs i).1
  have hv : ∀ i, OnGrid h (r.direction i) := fun i => (hr i).2.sub (hr i).1
  have hw : ∀ i, OnGrid h ((s.p1 - r.p1) i) := fun i => (hs i).1.sub (hr i).1
  have a := OnGrid.vdot hu hu
  have b := OnGrid.vdot hu hv
  have c := OnGrid.vdot hv hv
  have d := OnGrid.vdot hu hw
  have e := OnGrid.vdot hv hw
  have h2 : 0 < h * h := by positivity
  have h4 : 0 < h * h * (h * h) := by positivity
  exact ⟨⟨ht1, c.gap h2 ht2, ((b.mul e).sub (c.mul d)).gap h4 ht4, ((a.mul e).sub (b.mul d)).gap h4 ht4, e.gap h2 ht2,
    (e.add b).gap h2 ht2, d.neg.gap h2 ht2, (d.neg.add b).gap h2 ht2⟩, (a.mul c).sub (b.mul b)⟩

/-- **C34 (exact, partial).** When all coordinates are multiples of a grid size `h >= 2^-13` (integers, or
numbers with three decimals), and the second segment is not a single point, the computed distance is the exact
minimum. Missing: finer coordinates (`C34_bound_partial`) and a singular second segment. -/
theorem C34_exact_partial (s r : Seg n ℝ) {h : ℝ} (hh : 1 / 2 ^ 13 ≤ h) (hs : SegOnGrid h s) (hr : SegOnGrid h r)
    (hne : r.p1 ≠ r.p2) {x y : ℝ} (hx0 : 0 ≤ x) (hx1 : x ≤ 1) (hy0 : 0 ≤ y) (hy1 : y ≤ 1) :
    s.distance (.seg r) ≤ Model.edist (s.point x) (r.point y) := by
  have hhp : 0 < h := lt_of_lt_of_le (by norm_num) hh
  have h2 : (1 : ℝ) / 2 ^ 26 ≤ h * h := by
    have : (1 / 2 ^ 13) * (1 / 2 ^ 13) ≤ h * h := mul_le_mul hh hh (by norm_num) hhp.le
    norm_num at this ⊢; linarith
  have h4 : (F_EPS : ℝ) ≤ h * h * (h * h) := by
    have : ((1 : ℝ) / 2 ^ 26) * (1 / 2 ^ 26) ≤ h * h * (h * h) := mul_le_mul h2 h2 (by norm_num) (by positivity)
    unfold F_EPS; norm_num at this ⊢; linarith
  have h2' : (F_EPS : ℝ) ≤ h * h := by unfold F_EPS; norm_num at h2 ⊢; linarith
  obtain ⟨hclear, hgrid⟩ := clear_of_grid s r hhp h2' h4 f_eps_le hs hr
  have hd : s.distance (.seg r) = Model.edist (s.point (segToSeg s r F_EPS).1) (r.point (segToSeg s r F_EPS).2) := rfl
  have hseg : segToSeg s r F_EPS = s2sExact F_EPS (vdot s.direction s.direction) (vdot s.direction r.direction) (vdot r.direction r.direction)
      (vdot s.direction (s.p1 - r.p1)) (vdot r.direction (s.p1 - r.p1)) :=
    s2sCore_eq_exact f_eps_pos (vdot_self_nonneg _) hclear
  rw [hd, hseg]
  apply exact_min s r f_eps_pos _ hx0 hx1 hy0 hy1
  have hnn := gram_nonneg s.direction r.direction
  rcases hgrid.gap (by positivity) h4 with hg | hg
  · exact .inr ⟨le_antisymm hg (by linarith), hne⟩
  · exact .inl hg

/-- **C35 (partial).** Under the hypotheses of `C34_exact_partial` in both orders, the distance is symmetric.
In general the two differ by at most the error bounds of `C34_bound_partial`. -/
theorem C35_symm_partial (s r : Seg n ℝ) (hs : s.p1 ≠ s.p2) (hr : r.p1 ≠ r.p2) :
    (∀ h : ℝ, 1 / 2 ^ 13 ≤ h → SegOnGrid h s → SegOnGrid h r → s.distance (.seg r) = r.distance (.seg s)) ∧
    s.distance (.seg r) ≤ r.distance (.seg s) + distErr (s.p2 - s.p1) (r.p2 - r.p1) := by
  have key : ∀ (s r : Seg n ℝ), ∃ x y : ℝ, (0 ≤ x ∧ x ≤ 1) ∧ (0 ≤ y ∧ y ≤ 1) ∧ r.distance (.seg s) = Model.edist (s.point x) (r.point y) := by
    intro s r
    have := C33_range id monotone_id rfl rfl (tol := (F_EPS : ℝ)) f_eps_pos (vdot r.direction r.direction)
      (vdot r.direction s.direction) (vdot s.direction s.direction) (vdot r.direction (r.p1 - s.p1)) (vdot s.direction (r.p1 - s.p1))
    refine ⟨(segToSeg r s F_EPS).2, (segToSeg r s F_EPS).1, this.2, this.1, ?_⟩
    rw [Model.edist_comm]; rfl
  constructor
  · intro h hh gs gr
    apply le_antisymm
    · obtain ⟨x, y, hx, hy, e⟩ := key s r
      rw [e]; exact C34_exact_partial s r hh gs gr hr hx.1 hx.2 hy.1 hy.2
    · obtain ⟨x, y, hx, hy, e⟩ := key r s
      rw [e]; exact C34_exact_partial r s hh gr gs hs hx.1 hx.2 hy.1 hy.2
  · obtain ⟨x, y, hx, hy, e⟩ := key s r
    rw [e]; exact C34_bound_partial s r hr hx.1 hx.2 hy.1 hy.2

/-- **C35 (zero).** Distance 0 always means a common point; conversely segments on a grid (as in
`C34_exact_partial`) with a common point have distance 0, and in general at most the error bound. -/
theorem C35_zero_partial (s r : Seg n ℝ) :
    (s.distance (.seg r) = 0 → ∃ p, Between s.p1 s.p2 p ∧ Between r.p1 r.p2 p) ∧
    (r.p1 ≠ r.p2 → (∃ p, Between s.p1 s.p2 p ∧ Between r.p1 r.p2 p) →
      s.distance (.seg r) ≤ distErr (s.p2 - s.p1) (r.p2 - r.p1) ∧
      ∀ h : ℝ, 1 / 2 ^ 13 ≤ h → SegOnGrid h s → SegOnGrid h r → s.distance (.seg r) = 0) := by
  constructor
  · intro h
    obtain ⟨h1, h2⟩ := C33_endpoints s r
    have : (s.shortest (.seg r)).p1 = (s.shortest (.seg r)).p2 := edist_eq_zero.1 h
    exact ⟨_, h1, this ▸ h2⟩
  · rintro hr ⟨p, ⟨x, x0, x1, rfl⟩, ⟨y, y0, y1, hy⟩⟩
    have hz : Model.edist (s.point x) (r.point y) = 0 := by
      rw [edist_eq_zero, Seg.point_eq, Seg.point_eq]; exact hy
    constructor
    · have := C34_bound_partial s r hr x0 x1 y0 y1
      rwa [hz, zero_add] at this
    · intro h hh gs gr
      have := C34_exact_partial s r hh gs gr hr x0 x1 y0 y1
      rw [hz] at this
      exact le_antisymm this (edist_nonneg _ _)

end

/-- segments with integer coordinates are on a grid -/
example : SegOnGrid 1 (⟨![0, 0], ![2, 0]⟩ : Seg 2 ℝ) := by
  intro i; fin_cases i
  · exact ⟨⟨0, by simp⟩, ⟨2, by simp⟩⟩
  · exact ⟨⟨0, by simp⟩, ⟨0, by simp⟩⟩

/-- **C34, C35 violated.** With a single-point second segment the result is wrong and asymmetric: the distance of
(0,0)-(2,0) to the one-point segment (1,1) is reported as sqrt 2; the other way round, and correctly, as 1. -/
theorem C34_singular_second :
    (⟨![0, 0], ![2, 0]⟩ : Seg 2 ℝ).distance (.seg ⟨![1, 1], ![1, 1]⟩) = √ 2 ∧
    (⟨![1, 1], ![1, 1]⟩ : Seg 2 ℝ).distance (.seg ⟨![0, 0], ![2, 0]⟩) = 1 := by
  have ht : segToSeg (⟨![0, 0], ![2, 0]⟩ : Seg 2 ℝ) ⟨![1, 1], ![1, 1]⟩ F_EPS = (0, 0) := by
    simp [segToSeg, s2sCore, s2sLines, s2sClamp, Seg.direction, vdot_eq, Fin.sum_univ_two, F_EPS]
  have ht2 : segToSeg (⟨![1, 1], ![1, 1]⟩ : Seg 2 ℝ) ⟨![0, 0], ![2, 0]⟩ F_EPS = (0, 1 / 2) := by
    simp [segToSeg, s2sCore, s2sLines, s2sClamp, Seg.direction, vdot_eq, Fin.sum_univ_two, F_EPS]
    norm_num
  constructor
  · unfold Seg.distance Seg.shortest
    simp only [ht, Seg.seglen, Model.edist, Seg.point_eq, Fin.sum_univ_two]
    congr 1
    simp [Seg.direction]
    norm_num
  · unfold Seg.distance Seg.shortest
    simp only [ht2, Seg.seglen, Model.edist, Seg.point_eq, Fin.sum_univ_two]
    simp [Seg.direction]

/-! ## C36 -/

section
variable {K : Type} [Field K] [LinearOrder K] [IsStrictOrderedRing K] {n : Nat}

/-- Entry of the four arrays. -/
def _root_.Verif.Model.FracMat.entry (f : FracMat K) (i j : Nat) : Fracs K := ⟨f.sn i j, f.sd i j, f.tn i j, f.td i j⟩

theorem segsLines_entry {tol : K} (htol : 0 < tol) (a b c d e : Mat K) (i j : Nat) :
    (segsLines tol a b c d e).entry i j = s2sLines id tol (a i j) (b i j) (c i j) (d i j) (e i j) := by
  simp only [segsLines, FracMat.entry, setMask, s2sLines, id_eq]
  by_cases h1 : a i j * c i j - b i j * b i j < tol
  · simp [h1]
  · have hn : ¬ a i j * c i j - b i j * b i j < 0 := by linarith [not_lt.1 h1]
    by_cases h2 : b i j * e i j - c i j * d i j < 0
    · simp only [h1, h2, decide_false, decide_true, Bool.not_false, Bool.and_true, Bool.and_false, if_true, Bool.false_eq_true, if_false, gt_iff_lt, hn]
    · by_cases h3 : a i j * c i j - b i j * b i j < b i j * e i j - c i j * d i j
      · simp only [h1, h2, h3, decide_false, decide_true, Bool.not_false, Bool.and_true, Bool.and_false, if_true, Bool.false_eq_true, if_false, gt_iff_lt]
      · simp only [h1, h2, h3, decide_false, decide_true, Bool.not_false, Bool.and_true, Bool.and_false, if_true, Bool.false_eq_true, if_false, gt_iff_lt]

theorem segsClamp_entry (a b d : Mat K) (f : FracMat K) (i j : Nat) (ha : 0 ≤ a i j) (htd : 0 ≤ f.td i j) :
    (segsClamp a b d f).entry i j = s2sClamp id (a i j) (b i j) (d i j) (f.entry i j) := by
  have hbd : b i j - d i j = -d i j + b i j := by ring
  simp only [segsClamp, FracMat.entry, setMask, s2sClamp, id_eq, hbd]
  have hcn : ¬ f.td i j < 0 := not_lt.2 htd
  by_cases h1 : f.tn i j < 0
  · by_cases h2 : -d i j < 0
    · have h3 : ¬ a i j < -d i j := by linarith
      simp only [h1, h2, h3, hcn, decide_false, decide_true, Bool.not_false, Bool.not_true, Bool.and_true, Bool.and_false, if_true, Bool.false_eq_true, if_false, gt_iff_lt]
    · by_cases h3 : a i j < -d i j
      · simp only [h1, h2, h3, hcn, decide_false, decide_true, Bool.not_false, Bool.not_true, Bool.and_true, Bool.and_false, if_true, Bool.false_eq_true, if_false, gt_iff_lt]
      · simp only [h1, h2, h3, hcn, decide_false, decide_true, Bool.not_false, Bool.not_true, Bool.and_true, Bool.and_false, if_true, Bool.false_eq_true, if_false, gt_iff_lt]
  · by_cases h4 : f.td i j < f.tn i j
    · by_cases h2 : -d i j + b i j < 0
      · have h3 : ¬ a i j < -d i j + b i j := by linarith
        simp only [h1, h2, h3, h4, decide_false, decide_true, Bool.not_false, Bool.not_true, Bool.and_true, Bool.and_false, if_true, Bool.false_eq_true, if_false, gt_iff_lt]
      · by_cases h3 : a i j < -d i j + b i j
        · simp only [h1, h2, h3, h4, decide_false, decide_true, Bool.not_false, Bool.not_true, Bool.and_true, Bool.and_false, if_true, Bool.false_eq_true, if_false, gt_iff_lt]
        · simp only [h1, h2, h3, h4, decide_false, decide_true, Bool.not_false, Bool.not_true, Bool.and_true, Bool.and_false, if_true, Bool.false_eq_true, if_false, gt_iff_lt]
    · simp only [h1, h4, decide_false, decide_true, Bool.not_false, Bool.and_true, Bool.and_false, if_true, Bool.false_eq_true, if_false, gt_iff_lt]

theorem segsParam_entry (store : K → K) (tol : K) (num den : Mat K) (i j : Nat) :
    segsParam store tol num den i j = if |num i j| < tol then 0 else store (num i j / den i j) := by
  unfold segsParam setMask
  by_cases h : |num i j| < tol <;> simp [h]

/-- **C36 (partial).** For float data: entry (i, j) of the parameter and point arrays is what the scalar
computation gives for segment i of the first and segment j of the second curve. Missing: integer data, where the
parameters are truncated, `C36_int_data`. -/
theorem C36_entries_partial (data1 data2 : List (Vec n K)) {tol : K} (htol : 0 < tol) (i j : Nat)
    (hi : i + 1 < data1.length) (hj : j + 1 < data2.length) :
    let s : Seg n K := ⟨data1[i], data1[i + 1]⟩
    let r : Seg n K := ⟨data2[j], data2[j + 1]⟩
    let res := segsToSegs id tol data1 data2
    i < res.m1 ∧ j < res.m2 ∧
    (res.t1 i j, res.t2 i j) = segToSeg s r tol ∧
    res.p1 i j = s.point (segToSeg s r tol).1 ∧ res.p2 i j = r.point (segToSeg s r tol).2 := by
  intro s r res
  have hs1 : rowAt data1 i = s.p1 := by simp [rowAt, s, List.getD_eq_getElem?_getD, Nat.lt_of_succ_lt hi]
  have hr1 : rowAt data2 j = r.p1 := by simp [rowAt, r, List.getD_eq_getElem?_getD, Nat.lt_of_succ_lt hj]
  have hs2 : diffAt data1 i = s.direction := by simp [diffAt, rowAt, s, Seg.direction, List.getD_eq_getElem?_getD, hi, Nat.lt_of_succ_lt hi]
  have hr2 : diffAt data2 j = r.direction := by simp [diffAt, rowAt, r, Seg.direction, List.getD_eq_getElem?_getD, hj, Nat.lt_of_succ_lt hj]
  have hmain : (res.t1 i j, res.t2 i j) = segToSeg s r tol := by
    simp only [res, segsToSegs, segToSeg, s2sCore, segsParam_entry]
    have ha : 0 ≤ vdot s.direction s.direction := vdot_self_nonneg _
    have hc : 0 ≤ vdot r.direction r.direction := vdot_self_nonneg _
    have hl := segsLines_entry htol (fun i _ => vdot (diffAt data1 i) (diffAt data1 i)) (fun i j => vdot (diffAt data1 i) (diffAt data2 j))
      (fun _ j => vdot (diffAt data2 j) (diffAt data2 j)) (fun i j => vdot (diffAt data1 i) (rowAt data1 i - rowAt data2 j))
      (fun i j => vdot (diffAt data2 j) (rowAt data1 i - rowAt data2 j)) i j
    have hcl := segsClamp_entry (fun i _ => vdot (diffAt data1 i) (diffAt data1 i)) (fun i j => vdot (diffAt data1 i) (diffAt data2 j))
      (fun i j => vdot (diffAt data1 i) (rowAt data1 i - rowAt data2 j))
      (segsLines tol (fun i _ => vdot (diffAt data1 i) (diffAt data1 i)) (fun i j => vdot (diffAt data1 i) (diffAt data2 j))
      (fun _ j => vdot (diffAt data2 j) (diffAt data2 j)) (fun i j => vdot (diffAt data1 i) (rowAt data1 i - rowAt data2 j))
      (fun i j => vdot (diffAt data2 j) (rowAt data1 i - rowAt data2 j))) i j (vdot_self_nonneg _) (by
        have := congrArg Fracs.td hl
        simp only [FracMat.entry] at this
        rw [this]
        unfold s2sLines
        simp only
        split_ifs with q1
        · exact vdot_self_nonneg _
        · exact vdot_self_nonneg _
        · exact vdot_self_nonneg _
        · exact htol.le.trans (not_lt.1 q1))
    rw [hl] at hcl
    simp only [hs1, hr1, hs2, hr2] at hcl
    rw [← hcl]
    rfl
  refine ⟨by simp [res, segsToSegs]; omega, by simp [res, segsToSegs]; omega, hmain, ?_, ?_⟩
  · rw [← hmain, Seg.point_eq]
    simp only [res, segsToSegs, hs1, hs2]
  · rw [← hmain, Seg.point_eq]
    simp only [res, segsToSegs, hr1, hr2]

end

/-- **C36 violated (integer data).** For integer curves the parameters are stored into integer arrays: for the
crossing diagonals (0,0)-(2,2) and (0,2)-(2,0) the scalar computation gives (1/2, 1/2), the vectorized one
(0, 0). -/
theorem C36_int_data {K : Type} [Field K] [LinearOrder K] [IsStrictOrderedRing K] [FloorRing K] :
    let res := segsToSegs (truncK : K → K) F_EPS [![0, 0], ![2, 2]] [![0, 2], ![2, 0]]
    (res.t1 0 0, res.t2 0 0) = (0, 0) ∧
    segToSeg (⟨![0, 0], ![2, 2]⟩ : Seg 2 K) ⟨![0, 2], ![2, 0]⟩ F_EPS = (1 / 2, 1 / 2) := by
  intro res
  have h := C36_entries_partial (K := K) [![0, 0], ![2, 2]] [![0, 2], ![2, 0]] (tol := F_EPS) (by simp [F_EPS]) 0 0 (by simp) (by simp)
  have h2 : segToSeg (⟨![0, 0], ![2, 2]⟩ : Seg 2 K) ⟨![0, 2], ![2, 0]⟩ F_EPS = (1 / 2, 1 / 2) := by
    simp [segToSeg, s2sCore, s2sLines, s2sClamp, Seg.direction, vdot_eq, Fin.sum_univ_two, F_EPS]
    norm_num
  refine ⟨?_, h2⟩
  simp only [List.getElem_cons_zero, List.getElem_cons_succ, h2] at h
  obtain ⟨_, _, h, _⟩ := h
  rw [Prod.mk.injEq] at h
  have key : ∀ num den : Mat K, segsParam id F_EPS num den 0 0 = 1 / 2 → segsParam (truncK : K → K) F_EPS num den 0 0 = 0 := by
    intro num den hh
    simp only [segsParam, setMask] at hh ⊢
    split_ifs at hh ⊢ with q
    · simp only [id] at hh
      rw [hh]
      have hfl : ⌊(1 / 2 : K)⌋ = 0 := by rw [Int.floor_eq_iff]; norm_num
      rw [truncK, if_pos (by norm_num), hfl]; simp
    · rfl
  simp only [segsToSegs] at h
  simp only [res, segsToSegs]
  rw [Prod.mk.injEq]
  exact ⟨key _ _ h.1, key _ _ h.2⟩

/-! ## Concrete cases -/

/-- Two overlapping pieces of the diagonal. -/
theorem exDiagonal : ∀ p ∈ [(![0, 0] : Vec 2 ℚ), ![2, 2], ![1, 1], ![3, 3]], ∃ x : ℚ, p = 0 + x • ![1, 1] := by
  intro p hp
  simp only [List.mem_cons, List.not_mem_nil, or_false] at hp
  rcases hp with rfl | rfl | rfl | rfl
  · exact ⟨0, by ext i; fin_cases i <;> simp⟩
  · exact ⟨2, by ext i; fin_cases i <;> simp⟩
  · exact ⟨1, by ext i; fin_cases i <;> simp⟩
  · exact ⟨3, by ext i; fin_cases i <;> simp⟩

example := C31_none_iff (⟨![0, 0], ![2, 2]⟩ : Seg 2 ℚ) ⟨![1, 1], ![3, 3]⟩ ⟨0, ![1, 1], exDiagonal⟩

theorem exDiagonal_overlap : ∃ o, (⟨![0, 0], ![2, 2]⟩ : Seg 2 ℚ).overlap ⟨![1, 1], ![3, 3]⟩ false = some o := by
  by_contra h
  have hn : (⟨![0, 0], ![2, 2]⟩ : Seg 2 ℚ).overlap ⟨![1, 1], ![3, 3]⟩ false = none := by
    cases hc : (⟨![0, 0], ![2, 2]⟩ : Seg 2 ℚ).overlap ⟨![1, 1], ![3, 3]⟩ false with
    | none => rfl
    | some o => exact absurd ⟨o, hc⟩ h
  refine (C31_none_iff _ _ ⟨0, ![1, 1], exDiagonal⟩).1.1 hn ⟨![1, 1], ⟨1 / 2, by norm_num, by norm_num, ?_⟩, ⟨0, by norm_num, by norm_num, ?_⟩⟩
  · ext i; fin_cases i <;> simp
  · ext i; fin_cases i <;> simp

example (p : Vec 2 ℚ) : ∃ o, (⟨![0, 0], ![2, 2]⟩ : Seg 2 ℚ).overlap ⟨![1, 1], ![3, 3]⟩ false = some o ∧
    (Between o.p1 o.p2 p ↔ Between ![0, 0] ![2, 2] p ∧ Between ![1, 1] ![3, 3] p) := by
  obtain ⟨o, ho⟩ := exDiagonal_overlap
  exact ⟨o, ho, C31_common_partial _ _ 0 ![1, 1] (by intro i; fin_cases i <;> simp) exDiagonal ho p⟩

example := (C32_distance_partial (⟨![0, 0], ![2, 0]⟩ : Seg 2 ℝ) ![1, 3]).2.2 (1 / 3) (by norm_num) (by norm_num)
example := C32_exact (⟨![0, 0], ![2, 0]⟩ : Seg 2 ℝ) ![1, 3] (Or.inr (by norm_num [Fin.sum_univ_two]))
  (Or.inr (by norm_num [Fin.sum_univ_two])) (1 / 3) (by norm_num) (by norm_num)
example := C33_range (fun x : ℚ => (⌊x⌋ : ℚ)) (fun _ _ h => Int.cast_le.2 (Int.floor_mono h)) (by simp) (by simp) (tol := 1 / 100)
  (by norm_num) 1 2 3 4 5

theorem exOnGrid1 : SegOnGrid 1 (⟨![0, 0], ![2, 0]⟩ : Seg 2 ℝ) := by
  intro i; fin_cases i
  · exact ⟨⟨0, by simp⟩, ⟨2, by simp⟩⟩
  · exact ⟨⟨0, by simp⟩, ⟨0, by simp⟩⟩
theorem exOnGrid2 : SegOnGrid 1 (⟨![1, 1], ![1, 4]⟩ : Seg 2 ℝ) := by
  intro i; fin_cases i
  · exact ⟨⟨1, by simp⟩, ⟨1, by simp⟩⟩
  · exact ⟨⟨1, by simp⟩, ⟨4, by simp⟩⟩
theorem exOnGrid_ne1 : (⟨![0, 0], ![2, 0]⟩ : Seg 2 ℝ).p1 ≠ (⟨![0, 0], ![2, 0]⟩ : Seg 2 ℝ).p2 :=
  fun h => by have := congrFun h 0; simp at this
theorem exOnGrid_ne2 : (⟨![1, 1], ![1, 4]⟩ : Seg 2 ℝ).p1 ≠ (⟨![1, 1], ![1, 4]⟩ : Seg 2 ℝ).p2 :=
  fun h => by have := congrFun h 1; simp at this

example := C34_bound_partial ⟨![0, 0], ![2, 0]⟩ ⟨![1, 1], ![1, 4]⟩ exOnGrid_ne2 (x := 1 / 2) (y := 0) (by norm_num) (by norm_num) (by norm_num) (by norm_num)
example := C34_exact_partial ⟨![0, 0], ![2, 0]⟩ ⟨![1, 1], ![1, 4]⟩ (h := 1) (by norm_num) exOnGrid1 exOnGrid2 exOnGrid_ne2
  (x := 1 / 2) (y := 0) (by norm_num) (by norm_num) (by norm_num) (by norm_num)
example := (C35_symm_partial ⟨![0, 0], ![2, 0]⟩ ⟨![1, 1], ![1, 4]⟩ exOnGrid_ne1 exOnGrid_ne2).1 1 (by norm_num) exOnGrid1 exOnGrid2
example := ((C35_zero_partial ⟨![0, 0], ![2, 0]⟩ ⟨![0, 0], ![2, 0]⟩).2 exOnGrid_ne1
  ⟨![0, 0], ⟨0, by norm_num, by norm_num, by simp⟩, ⟨0, by norm_num, by norm_num, by simp⟩⟩).2 1 (by norm_num) exOnGrid1 exOnGrid1
example := C36_entries_partial [(![0, 0] : Vec 2 ℚ), ![1, 0], ![1, 1]] [![0, 1], ![2, 0]] (tol := 1 / 100) (by norm_num) 1 0 (by simp) (by simp)

end Verif.Props
