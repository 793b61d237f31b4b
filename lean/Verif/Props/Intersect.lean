import Verif.Model.Intersect
import Verif.Spec.Intersect
import Verif.Props.Segment
import Verif.Props.SegDist

/-!
Exact intersection of segments (C37-C39).
-/
namespace Verif.Props

open Verif Verif.Model Verif.Spec

section
variable {K : Type} [Field K] [LinearOrder K] [IsStrictOrderedRing K] {n : Nat}

theorem vecEq_iff (a b : Vec n K) : vecEq a b = true ↔ CloseVec a b := by
  simp [vecEq, CloseVec, closeK, atol, rtol]

theorem gram_eq (u v : Vec n K) : gram u v = vdot u u * vdot v v - vdot u v * vdot u v := by
  simp only [gram, vdot_eq, sq]

theorem parallel_iff (s r : Seg n K) (tol : K) : s.parallel r tol = true ↔ gram s.direction r.direction < tol := by
  rw [gram_eq]; simp [Seg.parallel]

/-- In a plane spanned by two independent directions every difference is a combination of them. -/
theorem plane_solve (s r : Seg n K) (hp : InPlane [s.p1, s.p2, r.p1, r.p2]) (hg : gram s.direction r.direction ≠ 0) :
    ∃ x y : K, r.p1 - s.p1 = x • s.direction - y • r.direction := by
  obtain ⟨q, g, h, H⟩ := hp
  obtain ⟨a1, b1, e1⟩ := H s.p1 (by simp)
  obtain ⟨a2, b2, e2⟩ := H s.p2 (by simp)
  obtain ⟨a3, b3, e3⟩ := H r.p1 (by simp)
  obtain ⟨a4, b4, e4⟩ := H r.p2 (by simp)
  have eu : s.direction = (a2 - a1) • g + (b2 - b1) • h := by
    unfold Seg.direction; rw [e1, e2]; simp only [sub_smul]; abel
  have ev : r.direction = (a4 - a3) • g + (b4 - b3) • h := by
    unfold Seg.direction; rw [e3, e4]; simp only [sub_smul]; abel
  have eb : r.p1 - s.p1 = (a3 - a1) • g + (b3 - b1) • h := by
    rw [e1, e3]; simp only [sub_smul]; abel
  rw [eu, ev, gram_eq] at hg
  rw [eu, ev, eb]
  generalize a2 - a1 = x1 at *; generalize b2 - b1 = y1 at *
  generalize a4 - a3 = x2 at *; generalize b4 - b3 = y2 at *
  generalize a3 - a1 = x3 at *; generalize b3 - b1 = y3 at *
  have hdet : x1 * y2 - x2 * y1 ≠ 0 := by
    intro h0
    apply hg
    simp only [vdot_add, add_vdot, smul_vdot, vdot_smul, vdot_comm h g]
    have : ∀ A B C : K, (x1 * (x1 * A) + y1 * (x1 * B) + (x1 * (y1 * B) + y1 * (y1 * C))) * (x2 * (x2 * A) + y2 * (x2 * B) + (x2 * (y2 * B) + y2 * (y2 * C))) -
        (x1 * (x2 * A) + y1 * (x2 * B) + (x1 * (y2 * B) + y1 * (y2 * C))) * (x1 * (x2 * A) + y1 * (x2 * B) + (x1 * (y2 * B) + y1 * (y2 * C))) =
        (x1 * y2 - x2 * y1) ^ 2 * (A * C - B * B) := by intros; ring
    have h2 := this (vdot g g) (vdot g h) (vdot h h)
    rw [h0] at h2
    linear_combination h2
  refine ⟨(x3 * y2 - x2 * y3) / (x1 * y2 - x2 * y1), -(x1 * y3 - x3 * y1) / (x1 * y2 - x2 * y1), ?_⟩
  funext i
  simp only [Pi.add_apply, Pi.sub_apply, Pi.smul_apply, smul_eq_mul]
  rw [div_mul_eq_mul_div, div_mul_eq_mul_div, ← sub_div, eq_div_iff hdet]
  ring

/-- The solution of the linear system does not depend on the way it is computed. -/
theorem lstsq2_exact {u v b : Vec n K} {x y : K} (hb : b = x • u - y • v) (hg : gram u v ≠ 0) : lstsq2 u v b = (x, y) := by
  rw [gram_eq] at hg
  subst hb
  unfold lstsq2
  simp only [vdot_sub, vdot_smul, vdot_comm v u]
  ext <;> simp only <;> rw [div_eq_iff hg] <;> ring

theorem solve2_exact (h : n = 2) {u v b : Vec n K} {x y : K} (hb : b = x • u - y • v) (hg : gram u v ≠ 0) :
    solve2 h u v b = some (x, y) := by
  subst h
  subst hb
  have hd : u 0 * (-v 1) - (-v 0) * u 1 ≠ 0 := by
    intro h0
    apply hg
    simp only [gram, Fin.sum_univ_two]
    linear_combination (u 0 * (-v 1) - (-v 0) * u 1) * h0
  unfold solve2
  simp only [Fin.mk_zero, Fin.mk_one, Fin.zero_eta, Fin.isValue]
  rw [if_neg hd]
  congr 1
  ext <;> simp only [Pi.sub_apply, Pi.smul_apply, smul_eq_mul] <;> rw [div_eq_iff hd] <;> ring

theorem exactFinish_meet (feps : K) (s r : Seg n K) (x y : K) (h : s.point x = r.point y) :
    exactFinish feps s r (x, y) =
      if inUnit x && inUnit y then .ok ⟨.point (s.point x), .exact⟩ else .ok notIntersected := by
  unfold exactFinish
  have hv : vecEq (s.point x) (r.point y) = true := by
    rw [vecEq_iff, h]; intro i; simp; positivity
  by_cases hu : (inUnit x && inUnit y) = true
  · simp [hu, hv, IType.call, IData.isPoint]
  · simp [hu]

theorem f_eps_pos' : (0 : K) < F_EPS := by simp [F_EPS]

/-- What `_intersect_segments` does, in one formula. -/
theorem exactSegments_eq (feps : K) (s r : Seg n K) (hc : s.collinear (.seg r) = false)
    (hg : F_EPS ≤ gram s.direction r.direction) (hp : InPlane [s.p1, s.p2, r.p1, r.p2])
    (hs : s.singular = false) (hr : r.singular = false) {x y : K} (hxy : s.point x = r.point y) :
    exactSegments feps s r =
      if inUnit x && inUnit y then .ok ⟨.point (s.point x), .exact⟩ else .ok notIntersected := by
  have hpar : s.parallel r F_EPS = false := by
    rw [← Bool.not_eq_true, parallel_iff]; exact not_lt.2 hg
  have hg0 : gram s.direction r.direction ≠ 0 := (lt_of_lt_of_le f_eps_pos' hg).ne'
  obtain ⟨b, hb1, hb2⟩ := C29_segment s (.seg r)
  have hbt : b = true := hb2.2 hp
  have hb : r.p1 - s.p1 = x • s.direction - y • r.direction := by
    rw [Seg.point_eq, Seg.point_eq] at hxy
    rw [sub_eq_sub_iff_add_eq_add, ← hxy, add_comm]
  unfold exactSegments
  rw [hb1, hbt]
  simp only [hc, hpar, hs, hr, Bool.false_eq_true, if_false, Bool.not_true, Bool.or_self]
  by_cases h2 : n = 2
  · rw [dif_pos h2, solve2_exact h2 hb hg0]
    exact exactFinish_meet feps s r x y hxy
  · rw [dif_neg h2, lstsq2_exact hb hg0]
    exact exactFinish_meet feps s r x y hxy

/-- The remaining cases: overlap, or no intersection. -/
theorem exactSegments_cases (feps : K) (s r : Seg n K) :
    (s.collinear (.seg r) = true ∧ exactSegments feps s r =
      match s.overlap r false with
      | none => .ok notIntersected
      | some o => .ok ⟨.segment o, .overlap⟩) ∨
    (s.collinear (.seg r) = false ∧ exactSegments feps s r = .ok notIntersected) ∨
    (s.collinear (.seg r) = false ∧ ∃ x y, s.point x = r.point y ∧ inUnit x = true ∧ inUnit y = true ∧
      exactSegments feps s r = .ok ⟨.point (s.point x), .exact⟩) := by
  by_cases hc : s.collinear (.seg r) = true
  · left
    refine ⟨hc, ?_⟩
    unfold exactSegments
    rw [if_pos hc]
    cases s.overlap r false <;> simp [IType.call, IData.isSegment]
  · right
    rw [Bool.not_eq_true] at hc
    by_cases hpar : s.parallel r F_EPS = true
    · left; exact ⟨hc, by unfold exactSegments; simp [hc, hpar]⟩
    · obtain ⟨b, hb1, hb2⟩ := C29_segment s (.seg r)
      cases b with
      | false => left; exact ⟨hc, by unfold exactSegments; simp [hc, hpar, hb1]⟩
      | true =>
        by_cases hsing : (s.singular || r.singular) = true
        · left; refine ⟨hc, ?_⟩
          unfold exactSegments; rw [hb1]
          simp only [hc, hpar, hsing, Bool.false_eq_true, if_false, Bool.not_true, if_true]
        · have hg : F_EPS ≤ gram s.direction r.direction := by
            rw [parallel_iff] at hpar; exact not_lt.1 hpar
          have hp : InPlane [s.p1, s.p2, r.p1, r.p2] := hb2.1 rfl
          obtain ⟨x, y, hxy⟩ := plane_solve s r hp (lt_of_lt_of_le f_eps_pos' hg).ne'
          have hm : s.point x = r.point y := by
            rw [Seg.point_eq, Seg.point_eq]
            rw [sub_eq_sub_iff_add_eq_add] at hxy
            rw [add_comm s.p1, ← hxy]
          rw [Bool.or_eq_true, not_or, Bool.not_eq_true, Bool.not_eq_true] at hsing
          have := exactSegments_eq feps s r hc hg hp hsing.1 hsing.2 hm
          by_cases hu : (inUnit x && inUnit y) = true
          · right
            rw [if_pos hu] at this
            rw [Bool.and_eq_true] at hu
            exact ⟨hc, x, y, hm, hu.1, hu.2, this⟩
          · left
            rw [if_neg hu] at this
            exact ⟨hc, this⟩

theorem inUnit_range {t : K} (h : inUnit t = true) : -(1 / 100000000) ≤ t ∧ t ≤ 1 + (1 / 100000000 + 1 / 100000) := by
  unfold inUnit closeK atol rtol at h
  simp only [Bool.and_eq_true, Bool.or_eq_true, decide_eq_true_eq, abs_le, abs_zero, abs_one] at h
  constructor
  · rcases h.1 with h | h
    · have : (0 : K) < 1 / 100000000 := by norm_num
      linarith
    · linarith [h.1]
  · rcases h.2 with h | h
    · have : (0 : K) < 1 / 100000000 + 1 / 100000 := by norm_num
      linarith
    · linarith [h.2]

theorem inUnit_of {t : K} (h0 : 0 ≤ t) (h1 : t ≤ 1) : inUnit t = true := by
  unfold inUnit closeK atol rtol
  simp only [Bool.and_eq_true, Bool.or_eq_true, decide_eq_true_eq]
  constructor
  · rcases h0.lt_or_eq with h | h
    · exact .inl h
    · right; rw [← h]; simp
  · rcases h1.lt_or_eq with h | h
    · exact .inl h
    · right; rw [h]; simp; positivity

/-! ## C37 -/

/-- **C37.** If the exact method reports EXACT with the point `P`, then `P` is on both lines and its parameters on
both segments are in [0, 1] up to the tolerance 1e-8 below and 1e-8 + 1e-5 above. -/
theorem C37_on_both (feps : K) (s r : Seg n K) {P : Vec n K} (h : exactSegments feps s r = .ok ⟨.point P, .exact⟩) :
    ∃ x y : K, P = s.p1 + x • (s.p2 - s.p1) ∧ P = r.p1 + y • (r.p2 - r.p1) ∧
      -(1 / 100000000) ≤ x ∧ x ≤ 1 + (1 / 100000000 + 1 / 100000) ∧
      -(1 / 100000000) ≤ y ∧ y ≤ 1 + (1 / 100000000 + 1 / 100000) := by
  rcases exactSegments_cases feps s r with ⟨_, h'⟩ | ⟨_, h'⟩ | ⟨_, x, y, hm, hx, hy, h'⟩
  · rw [h] at h'
    cases ho : s.overlap r false <;> rw [ho] at h' <;> simp [notIntersected] at h'
  · rw [h] at h'; simp [notIntersected] at h'
  · rw [h] at h'
    injection h' with h'
    have hP : P = s.point x := by injection h' with h1 _; injection h1
    refine ⟨x, y, ?_, ?_, (inUnit_range hx).1, (inUnit_range hx).2, (inUnit_range hy).1, (inUnit_range hy).2⟩
    · rw [hP, Seg.point_eq]; rfl
    · rw [hP, hm, Seg.point_eq]; rfl

/-! ## C38 -/

/-- Two non-parallel segments whose ends are not all on one line: never collinear for the code, unless they are close
to each other. -/
theorem not_collinear (s r : Seg n K) (hg : 0 < gram s.direction r.direction)
    (h1 : ¬ (CloseVec r.p1 s.p1 ∧ CloseVec r.p2 s.p2)) (h2 : ¬ (CloseVec r.p2 s.p1 ∧ CloseVec r.p1 s.p2)) :
    s.collinear (.seg r) = false := by
  rw [← Bool.not_eq_true]
  intro hc
  have hcl : ¬ CloseTo s (.seg r) := by
    rintro (h | h)
    · rw [Seg.eq, Bool.and_eq_true, vecEq_iff, vecEq_iff] at h; exact h1 h
    · rw [Seg.eq, Bool.and_eq_true, vecEq_iff, vecEq_iff] at h; exact h2 h
  obtain ⟨q, g, H⟩ := C27_sound_partial s (.seg r) hcl hc
  obtain ⟨x1, e1⟩ := H s.p1 (by simp)
  obtain ⟨x2, e2⟩ := H s.p2 (by simp)
  obtain ⟨x3, e3⟩ := H r.p1 (by simp [otherPoints])
  obtain ⟨x4, e4⟩ := H r.p2 (by simp [otherPoints])
  have eu : s.direction = (x2 - x1) • g := by unfold Seg.direction; rw [e1, e2, sub_smul]; abel
  have ev : r.direction = (x4 - x3) • g := by unfold Seg.direction; rw [e3, e4, sub_smul]; abel
  have : gram s.direction r.direction = 0 := by
    rw [gram_eq, eu, ev]; simp only [smul_vdot, vdot_smul]; ring
  rw [this] at hg
  exact absurd hg (lt_irrefl _)

/-- **C38 (partial).** Two crossing segments of any dimension: the exact method reports EXACT with exactly the common
point, provided the squared lengths times the squared sine of the angle is at least 2^-52, neither segment has ends
that are equal up to the tolerances, and the two segments are not equal (or equal after reversal) up to the
tolerances. Missing: crossing pairs that violate one of these, for which the answer is NONE (see the witnesses). -/
theorem C38_crossing_partial (feps : K) (s r : Seg n K) {P : Vec n K} (hP1 : Between s.p1 s.p2 P) (hP2 : Between r.p1 r.p2 P)
    (hg : 1 / 2 ^ 52 ≤ gram (s.p2 - s.p1) (r.p2 - r.p1))
    (hs : ¬ CloseVec s.p1 s.p2) (hr : ¬ CloseVec r.p1 r.p2)
    (h1 : ¬ (CloseVec r.p1 s.p1 ∧ CloseVec r.p2 s.p2)) (h2 : ¬ (CloseVec r.p2 s.p1 ∧ CloseVec r.p1 s.p2)) :
    exactSegments feps s r = .ok ⟨.point P, .exact⟩ := by
  obtain ⟨x, hx0, hx1, ex⟩ := hP1
  obtain ⟨y, hy0, hy1, ey⟩ := hP2
  have hsx : s.point x = P := by rw [Seg.point_eq, ex]; rfl
  have hry : r.point y = P := by rw [Seg.point_eq, ey]; rfl
  have hp : InPlane [s.p1, s.p2, r.p1, r.p2] := by
    refine ⟨P, s.direction, r.direction, ?_⟩
    intro p hp
    simp only [List.mem_cons, List.not_mem_nil, or_false] at hp
    rcases hp with rfl | rfl | rfl | rfl
    · exact ⟨-x, 0, by rw [← hsx, Seg.point_eq]; simp⟩
    · exact ⟨1 - x, 0, by rw [← hsx, Seg.point_eq, sub_smul, one_smul]; unfold Seg.direction; simp⟩
    · exact ⟨0, -y, by rw [← hry, Seg.point_eq]; simp⟩
    · exact ⟨0, 1 - y, by rw [← hry, Seg.point_eq, sub_smul, one_smul]; unfold Seg.direction; simp⟩
  rw [exactSegments_eq feps s r (not_collinear s r (lt_of_lt_of_le f_eps_pos' hg) h1 h2) hg hp (by rw [← Bool.not_eq_true, Seg.singular, vecEq_iff]; exact hs)
    (by rw [← Bool.not_eq_true, Seg.singular, vecEq_iff]; exact hr) (hsx.trans hry.symm), inUnit_of hx0 hx1, inUnit_of hy0 hy1, hsx]
  rfl

/-! ## C39 -/

/-- **C39 (partial).** Two segments on one line that share a point: if the line passes through the origin, or there
are at most two distinct end points, or the segments are equal up to the tolerances, the exact method reports OVERLAP
and the middle of the reported segment is on both. Missing: lines that do not pass through the origin, where the code
finds the segments not collinear and reports NONE (see the witness). -/
theorem C39_overlap_partial (feps : K) (s r : Seg n K) (hl : OnLine [s.p1, s.p2, r.p1, r.p2])
    (hm : Meet s.p1 s.p2 r.p1 r.p2)
    (h : OnLineThroughOrigin [s.p1, s.p2, r.p1, r.p2] ∨ [s.p1, s.p2, r.p1, r.p2].dedup.length < 3 ∨
      (CloseVec r.p1 s.p1 ∧ CloseVec r.p2 s.p2) ∨ (CloseVec r.p2 s.p1 ∧ CloseVec r.p1 s.p2)) :
    ∃ o, exactSegments feps s r = .ok ⟨.segment o, .overlap⟩ ∧
      Between s.p1 s.p2 (o.point (1 / 2)) ∧ Between r.p1 r.p2 (o.point (1 / 2)) := by
  have hc : s.collinear (.seg r) = true := by
    rw [collinear_iff]
    rcases h with h | h | h | h
    · exact .inr (.inr h)
    · exact .inr (.inl h)
    · left; left; rw [Seg.eq, Bool.and_eq_true, vecEq_iff, vecEq_iff]; exact h
    · left; right; rw [Seg.eq, Bool.and_eq_true, vecEq_iff, vecEq_iff]; exact h
  obtain ⟨hn, ho⟩ := C31_none_iff s r hl
  rcases exactSegments_cases feps s r with ⟨_, h'⟩ | ⟨h', _⟩ | ⟨h', _⟩
  · cases hov : s.overlap r false with
    | none => exact absurd hm (hn.1 hov)
    | some o =>
      rw [hov] at h'
      exact ⟨o, h', ho o hov⟩
  · rw [hc] at h'; simp at h'
  · rw [hc] at h'; simp at h'

/-- **C39 (no false overlap).** If the exact method reports OVERLAP for two segments on one line, they do have a
common point. -/
theorem C39_sound (feps : K) (s r o : Seg n K) (hl : OnLine [s.p1, s.p2, r.p1, r.p2])
    (h : exactSegments feps s r = .ok ⟨.segment o, .overlap⟩) : Meet s.p1 s.p2 r.p1 r.p2 := by
  obtain ⟨hn, ho⟩ := C31_none_iff s r hl
  rcases exactSegments_cases feps s r with ⟨_, h'⟩ | ⟨_, h'⟩ | ⟨_, x, y, _, _, _, h'⟩
  · cases hov : s.overlap r false with
    | none => rw [hov] at h'; rw [h] at h'; simp [notIntersected] at h'
    | some o' => exact ⟨_, (ho o' hov).1, (ho o' hov).2⟩
  · rw [h] at h'; simp [notIntersected] at h'
  · rw [h] at h'; simp at h'

end

/-! ## Examples and witnesses -/

/-- The hypotheses of `C38_crossing_partial` hold for the diagonals of a square; the point is found. -/
example : exactSegments (F_EPS : ℚ) ⟨![0, 0], ![2, 2]⟩ ⟨![0, 2], ![2, 0]⟩ = .ok ⟨.point ![1, 1], .exact⟩ := by
  apply C38_crossing_partial
  · exact ⟨1 / 2, by norm_num, by norm_num, by funext i; fin_cases i <;> norm_num⟩
  · exact ⟨1 / 2, by norm_num, by norm_num, by funext i; fin_cases i <;> norm_num⟩
  · simp [gram, Fin.sum_univ_two]; norm_num
  · intro h; have := h 0; norm_num [abs_le] at this
  · intro h; have := h 0; norm_num [abs_le] at this
  · rintro ⟨h, _⟩; have := h 1; norm_num [abs_le] at this
  · rintro ⟨h, _⟩; have := h 0; norm_num [abs_le] at this

/-- The same in three dimensions, where the system is solved by least squares. -/
example : exactSegments (F_EPS : ℚ) ⟨![0, 0, 1], ![2, 2, 1]⟩ ⟨![0, 2, 0], ![2, 0, 2]⟩ = .ok ⟨.point ![1, 1, 1], .exact⟩ := by
  apply C38_crossing_partial
  · exact ⟨1 / 2, by norm_num, by norm_num, by funext i; fin_cases i <;> norm_num⟩
  · exact ⟨1 / 2, by norm_num, by norm_num, by funext i; fin_cases i <;> norm_num⟩
  · simp [gram, Fin.sum_univ_three]; norm_num
  · intro h; have := h 0; norm_num [abs_le] at this
  · intro h; have := h 0; norm_num [abs_le] at this
  · rintro ⟨h, _⟩; have := h 1; norm_num [abs_le] at this
  · rintro ⟨h, _⟩; have := h 0; norm_num [abs_le] at this

/-- **C38 (witness: short segments).** Two perpendicular segments of length 2e-5 with a common point in the middle are
reported as not intersecting: they count as parallel. -/
theorem C38_short_missed :
    Meet ![-(1 / 100000 : ℚ), 0] ![1 / 100000, 0] ![0, -(1 / 100000)] ![0, 1 / 100000] ∧
    exactSegments (F_EPS : ℚ) ⟨![-(1 / 100000), 0], ![1 / 100000, 0]⟩ ⟨![0, -(1 / 100000)], ![0, 1 / 100000]⟩ = .ok notIntersected := by
  constructor
  · refine ⟨![0, 0], ⟨1 / 2, by norm_num, by norm_num, ?_⟩, ⟨1 / 2, by norm_num, by norm_num, ?_⟩⟩ <;>
      funext i <;> fin_cases i <;> norm_num
  · set s : Seg 2 ℚ := ⟨![-(1 / 100000), 0], ![1 / 100000, 0]⟩ with hs
    set r : Seg 2 ℚ := ⟨![0, -(1 / 100000)], ![0, 1 / 100000]⟩ with hr
    have hc : s.collinear (.seg r) = false := by
      apply not_collinear
      · simp [gram, Fin.sum_univ_two, Seg.direction, hs, hr]
      · rintro ⟨h, _⟩; have := h 0; norm_num [abs_le, hs, hr] at this
      · rintro ⟨h, _⟩; have := h 0; norm_num [abs_le, hs, hr] at this
    have hp : s.parallel r F_EPS = true := by
      rw [parallel_iff]; simp [gram, Fin.sum_univ_two, Seg.direction, hs, hr, F_EPS]; norm_num
    unfold exactSegments
    simp [hc, hp]

/-- **C38 (witness: far from the origin).** Two perpendicular segments of length 2 that cross at (1000000, 0) are
reported as not intersecting: the ends of the first are equal up to the relative tolerance, so it counts as
singular. -/
theorem C38_far_missed :
    Meet ![(999999 : ℚ), 0] ![1000001, 0] ![1000000, -1] ![1000000, 1] ∧
    exactSegments (F_EPS : ℚ) ⟨![999999, 0], ![1000001, 0]⟩ ⟨![1000000, -1], ![1000000, 1]⟩ = .ok notIntersected := by
  constructor
  · refine ⟨![1000000, 0], ⟨1 / 2, by norm_num, by norm_num, ?_⟩, ⟨1 / 2, by norm_num, by norm_num, ?_⟩⟩ <;>
      funext i <;> fin_cases i <;> norm_num
  · set s : Seg 2 ℚ := ⟨![999999, 0], ![1000001, 0]⟩ with hs
    set r : Seg 2 ℚ := ⟨![1000000, -1], ![1000000, 1]⟩ with hr
    have hc : s.collinear (.seg r) = false := by
      apply not_collinear
      · simp [gram, Fin.sum_univ_two, Seg.direction, hs, hr]; norm_num
      · rintro ⟨h, _⟩; have := h 1; norm_num [abs_le, hs, hr] at this
      · rintro ⟨h, _⟩; have := h 1; norm_num [abs_le, hs, hr] at this
    have hsing : s.singular = true := by
      rw [Seg.singular, vecEq_iff]
      intro i; fin_cases i <;> norm_num [hs, abs_le]
    unfold exactSegments
    simp [hc, hsing, Seg.coplanar, coplanarPoints]

/-- **C39 (witness).** The segments (0,1)-(2,1) and (1,1)-(3,1) share the part from (1,1) to (2,1), but the exact method
reports that they do not intersect. -/
theorem C39_missed :
    Meet ![(0 : ℚ), 1] ![2, 1] ![1, 1] ![3, 1] ∧
    exactSegments (F_EPS : ℚ) ⟨![0, 1], ![2, 1]⟩ ⟨![1, 1], ![3, 1]⟩ = .ok notIntersected := by
  constructor
  · refine ⟨![1, 1], ⟨1 / 2, by norm_num, by norm_num, ?_⟩, ⟨0, by norm_num, by norm_num, ?_⟩⟩ <;>
      funext i <;> fin_cases i <;> norm_num
  · set s : Seg 2 ℚ := ⟨![0, 1], ![2, 1]⟩ with hs
    set r : Seg 2 ℚ := ⟨![1, 1], ![3, 1]⟩ with hr
    have hc : s.collinear (.seg r) = false := by
      rw [← Bool.not_eq_true, collinear_iff]
      rintro ((h | h) | h | ⟨g, h⟩)
      · rw [Seg.eq, Bool.and_eq_true, vecEq_iff, vecEq_iff] at h
        have := h.1 0; norm_num [abs_le, hs, hr] at this
      · rw [Seg.eq, Bool.and_eq_true, vecEq_iff, vecEq_iff] at h
        have := h.1 0; norm_num [abs_le, hs, hr, Seg.reverse] at this
      · have hnd : ([s.p1, s.p2] ++ otherPoints (.seg r)).Nodup := by
          simp [hs, hr, otherPoints]
        rw [hnd.dedup] at h
        simp [otherPoints] at h
      · obtain ⟨x, hx⟩ := h s.p1 (by simp)
        obtain ⟨y, hy⟩ := h s.p2 (by simp)
        have a1 := congrFun hx 0; have a2 := congrFun hx 1
        have b1 := congrFun hy 0; have b2 := congrFun hy 1
        simp [hs] at a1 a2 b1 b2
        rcases a1 with h | h
        · rw [h] at a2; simp at a2
        · rw [h] at b1; simp at b1
    have hp : s.parallel r F_EPS = true := by
      rw [parallel_iff]; simp [gram, Fin.sum_univ_two, Seg.direction, hs, hr, F_EPS]; norm_num
    unfold exactSegments
    simp [hc, hp]

/-- The hypotheses of `C39_overlap_partial` hold on the diagonal: (0,0)-(2,2) and (1,1)-(3,3). -/
example : ∃ o, exactSegments (F_EPS : ℚ) ⟨![0, 0], ![2, 2]⟩ ⟨![1, 1], ![3, 3]⟩ = .ok ⟨.segment o, .overlap⟩ ∧
    Between ![(0 : ℚ), 0] ![2, 2] (o.point (1 / 2)) ∧ Between ![(1 : ℚ), 1] ![3, 3] (o.point (1 / 2)) := by
  have hO : OnLineThroughOrigin [![(0 : ℚ), 0], ![2, 2], ![1, 1], ![3, 3]] := by
    refine ⟨![1, 1], ?_⟩
    intro p hp
    simp only [List.mem_cons, List.not_mem_nil, or_false] at hp
    rcases hp with rfl | rfl | rfl | rfl
    · exact ⟨0, by simp⟩
    · exact ⟨2, by simp⟩
    · exact ⟨1, by simp⟩
    · exact ⟨3, by simp⟩
  refine C39_overlap_partial (F_EPS : ℚ) ⟨![0, 0], ![2, 2]⟩ ⟨![1, 1], ![3, 3]⟩ (onLine_of_origin hO) ?_ (.inl hO)
  refine ⟨![1, 1], ⟨1 / 2, by norm_num, by norm_num, ?_⟩, ⟨0, by norm_num, by norm_num, ?_⟩⟩ <;>
    funext i <;> fin_cases i <;> norm_num

/-! ## Concrete cases -/

example {P : Vec 2 ℚ} (h : exactSegments (F_EPS : ℚ) ⟨![0, 0], ![2, 2]⟩ ⟨![0, 2], ![2, 0]⟩ = .ok ⟨.point P, .exact⟩) := C37_on_both F_EPS _ _ h
example {o : Seg 2 ℚ} (h : exactSegments (F_EPS : ℚ) ⟨![0, 0], ![2, 2]⟩ ⟨![1, 1], ![3, 3]⟩ = .ok ⟨.segment o, .overlap⟩) :=
  C39_sound F_EPS _ _ o ⟨![0, 0], ![1, 1], by
    intro p hp
    simp only [List.mem_cons, List.not_mem_nil, or_false] at hp
    rcases hp with rfl | rfl | rfl | rfl
    · exact ⟨0, by funext i; fin_cases i <;> simp⟩
    · exact ⟨2, by funext i; fin_cases i <;> simp⟩
    · exact ⟨1, by funext i; fin_cases i <;> simp⟩
    · exact ⟨3, by funext i; fin_cases i <;> simp⟩⟩ h

end Verif.Props
