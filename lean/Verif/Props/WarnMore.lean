import Verif.Model.WarnMore
import Verif.Props.Intersect

/-!
C170: the warnings of segments, of exact intersections, of `intersect`, of interpolators and of the construction of curves.
-/
namespace Verif.Props

open Verif Verif.Np Verif.Model Verif.Spec

section
variable {n : Nat} {K : Type} [Field K] [LinearOrder K] [IsStrictOrderedRing K]

/-- The squared distance of two points. -/
def sqGap (p q : Vec n K) : K := ∑ i, (p i - q i) ^ 2

theorem vdot_sqGap (p q : Vec n K) : vdot (p - q) (p - q) = sqGap p q := by
  simp [vdot_eq, sqGap, sq]

theorem sqGap_comm (p q : Vec n K) : sqGap p q = sqGap q p :=
  Finset.sum_congr rfl fun i _ => by ring

/-- The least squares solution is the nearest point of the line. -/
theorem nearest {s : Seg n K} (h : s.direction ≠ 0) (p : Vec n K) (x : K) :
    sqGap (s.point (lstsq1 s.direction (p - s.p1))) p ≤ sqGap (s.point x) p := by
  have hd := vdot_self_pos h
  have e : ∀ x, sqGap (s.point x) p = vdot (p - s.p1) (p - s.p1) - 2 * x * vdot s.direction (p - s.p1) + x ^ 2 * vdot s.direction s.direction := by
    intro x
    rw [sqGap_comm, ← vdot_sqGap, Seg.point_eq, show p - (s.p1 + x • s.direction) = (p - s.p1) - x • s.direction by abel]
    generalize p - s.p1 = b
    rw [vdot_sub, vdot_smul, vdot_comm _ b, vdot_sub, vdot_smul, vdot_comm (b - x • s.direction) s.direction, vdot_sub, vdot_smul,
      vdot_comm b s.direction]
    ring
  rw [e, e]
  unfold lstsq1
  generalize vdot s.direction (p - s.p1) = m at *
  generalize vdot s.direction s.direction = a at *
  have ha : m = m / a * a := (div_mul_cancel₀ _ hd.ne').symm
  generalize m / a = z at ha
  subst ha
  have := mul_nonneg (sq_nonneg (x - z)) hd.le
  nlinarith [this]

/-- The residual test of one point asks how far the point is from the line. -/
theorem residual_iff (s : Seg n K) (p : Vec n K) :
    tooLarge (residual1 s.direction (p - s.p1) (lstsq1 s.direction (p - s.p1))) F_EPS = true ↔
      1 < n ∧ s.p1 ≠ s.p2 ∧ ∀ x, F_EPS < sqGap (s.point x) p := by
  have hd : s.direction ≠ 0 ↔ s.p1 ≠ s.p2 := by
    unfold Seg.direction
    rw [sub_ne_zero]
    exact ne_comm
  unfold residual1
  by_cases h : 1 < n ∧ s.direction ≠ 0
  · rw [if_pos h]
    have e : vdot (p - s.p1 - lstsq1 s.direction (p - s.p1) • s.direction) (p - s.p1 - lstsq1 s.direction (p - s.p1) • s.direction) =
        sqGap (s.point (lstsq1 s.direction (p - s.p1))) p := by
      rw [sqGap_comm, ← vdot_sqGap, Seg.point_eq, sub_add_eq_sub_sub]
    simp only [tooLarge, e, gt_iff_lt, decide_eq_true_eq]
    exact ⟨fun k => ⟨h.1, hd.1 h.2, fun x => lt_of_lt_of_le k (nearest h.2 p x)⟩, fun k => k.2.2 _⟩
  · rw [if_neg h]
    simp only [tooLarge, Bool.false_eq_true, false_iff]
    rintro ⟨k1, k2, -⟩
    exact h ⟨k1, hd.2 k2⟩

theorem t_none (s : Seg n K) (p : Vec n K) : s.t p = none ↔ s.collinear (.point p) = false := by
  unfold Seg.t
  by_cases h : s.collinear (.point p) = true <;> simp [h]

/-- **C170 (one point).** `Segment.t` of a point: the value is that without warnings; there is at most one warning; one says that
the point is not collinear, and is issued iff the value is NaN; the other is issued iff there is a value although the point is
farther than √F_EPS from every point of the line, which happens only for points close to an end of the segment. -/
theorem C170_t (s : Seg n K) (p : Vec n K) :
    (s.tW p).1 = s.t p ∧ (s.tW p).2.length ≤ 1 ∧ (∀ w ∈ (s.tW p).2, w = .notCollinear ∨ w = .residuals) ∧
    (.notCollinear ∈ (s.tW p).2 ↔ s.t p = none) ∧
    (.residuals ∈ (s.tW p).2 ↔ s.t p ≠ none ∧ 1 < n ∧ s.p1 ≠ s.p2 ∧ ∀ x, F_EPS < sqGap (s.point x) p) ∧
    (.residuals ∈ (s.tW p).2 → CloseVec p s.p1 ∨ CloseVec p s.p2) := by
  have hr := residual_iff s p
  have hn := t_none s p
  have key : (.residuals ∈ (s.tW p).2 ↔ s.t p ≠ none ∧ 1 < n ∧ s.p1 ≠ s.p2 ∧ ∀ x, F_EPS < sqGap (s.point x) p) := by
    rw [Ne, hn, ← hr]
    unfold Seg.tW
    by_cases h : s.collinear (.point p) = true
    · by_cases k : tooLarge (residual1 s.direction (p - s.p1) (lstsq1 s.direction (p - s.p1))) F_EPS = true <;> simp [h, k]
    · simp [h]
  refine ⟨?_, ?_, ?_, ?_, key, ?_⟩
  · unfold Seg.tW Seg.t
    by_cases h : s.collinear (.point p) = true <;> simp [h]
  · unfold Seg.tW
    by_cases h : s.collinear (.point p) = true
    · simp only [h, Bool.not_true, Bool.false_eq_true, if_false]
      split <;> simp
    · simp [h]
  · unfold Seg.tW
    by_cases h : s.collinear (.point p) = true
    · simp only [h, Bool.not_true, Bool.false_eq_true, if_false]
      split <;> simp
    · simp [h]
  · rw [hn]
    unfold Seg.tW
    by_cases h : s.collinear (.point p) = true
    · simp only [h, Bool.not_true, Bool.false_eq_true, if_false]
      split <;> simp
    · simp [h]
  · intro h
    obtain ⟨h1, -, h3, h4⟩ := key.1 h
    rw [Ne, hn, Bool.not_eq_false] at h1
    by_contra hc
    have hcl : ¬ CloseTo s (.point p) := by
      simp only [CloseTo, vecEq_iff]
      exact hc
    obtain ⟨q, g, H⟩ := C27_sound_partial s (.point p) hcl h1
    obtain ⟨a, ea⟩ := H s.p1 (by simp)
    obtain ⟨b, eb⟩ := H s.p2 (by simp)
    obtain ⟨c, ec⟩ := H p (by simp [otherPoints])
    have hab : b - a ≠ 0 := by
      intro h0
      apply h3
      rw [ea, eb, sub_eq_zero.1 h0]
    have hp : s.point ((c - a) / (b - a)) = p := by
      rw [Seg.point_eq]
      unfold Seg.direction
      rw [ea, eb, ec]
      funext i
      simp only [Pi.add_apply, Pi.smul_apply, Pi.sub_apply, smul_eq_mul]
      field_simp
      ring
    have := h4 ((c - a) / (b - a))
    rw [hp] at this
    have h0 : sqGap p p = (0 : K) := by simp [sqGap]
    rw [h0] at this
    exact absurd this (not_lt.2 f_eps_pos'.le)

/-- **C170 (points of the line).** A point that is found on the line of a segment that is not degenerate gets its value without a
warning. -/
theorem C170_t_silent {s : Seg n K} (hs : s.p1 ≠ s.p2) (x : K) (h : s.t (s.point x) ≠ none) :
    (s.tW (s.point x)) = (some x, []) := by
  obtain ⟨h1, -, h3, h4, h5, -⟩ := C170_t s (s.point x)
  have hw : (s.tW (s.point x)).2 = [] := by
    refine List.eq_nil_iff_forall_not_mem.2 fun w hw => ?_
    rcases h3 w hw with rfl | rfl
    · exact h (h4.1 hw)
    · have := (h5.1 hw).2.2.2 x
      rw [show sqGap (s.point x) (s.point x) = (0 : K) by simp [sqGap]] at this
      exact absurd this (not_lt.2 f_eps_pos'.le)
  have ht : s.t (s.point x) = some x := by
    have hd : s.direction ≠ 0 := by
      unfold Seg.direction
      rw [sub_ne_zero]
      exact hs.symm
    have hc : s.collinear (.point (s.point x)) = true := by
      rw [Ne, t_none, Bool.not_eq_false] at h
      exact h
    unfold Seg.t
    simp only [hc, Bool.not_true, Bool.false_eq_true, if_false, Option.some.injEq]
    unfold lstsq1
    rw [Seg.point_eq, add_sub_cancel_left, vdot_smul]
    exact mul_div_cancel_right₀ _ (vdot_self_pos hd).ne'
  exact Prod.ext (h1.trans ht) hw

/-- **C170 (violated).** A point of the line may be reported as not collinear, with NaN as value. -/
theorem C170_t_fails : ∃ (s : Seg 2 ℚ) (x : ℚ), s.p1 ≠ s.p2 ∧ s.tW (s.point x) = (none, [.notCollinear]) := by
  refine ⟨⟨![0, 1], ![1, 1]⟩, 2, by decide, ?_⟩
  have h := C27_misses.2
  have e : (⟨![0, 1], ![1, 1]⟩ : Seg 2 ℚ).point 2 = ![2, 1] := by
    funext i
    fin_cases i <;> simp [Seg.point, Seg.direction]
  rw [e]
  unfold Seg.tW
  simp [h]

/-- **C170 (violated).** On a degenerate segment every point gets the value 0 and there is no warning. -/
theorem C170_degenerate_fails (s : Seg n K) (h : s.p1 = s.p2) (p : Vec n K) : s.tW p = (some 0, []) := by
  have hd : s.direction = 0 := by
    unfold Seg.direction
    rw [h, sub_self]
  have hc : s.collinear (.point p) = true := by
    rw [collinear_iff]
    right; left
    have : ([s.p1, s.p2] ++ otherPoints (.point p)).dedup.length ≤ [s.p2, p].length := by
      refine List.Subperm.length_le (List.nodup_dedup _ |>.subperm ?_)
      intro x hx
      rw [List.mem_dedup] at hx
      simpa [otherPoints, h] using hx
    simp only [List.length_cons, List.length_nil] at this
    omega
  unfold Seg.tW
  simp [hc, residual1, hd, tooLarge, lstsq1, vdot_eq]

/-- **C170 (several points).** `Segment.t` of a sequence of points: the values are those without warnings; one warning is issued iff
some point gets no value, the other iff the first point is farther than √F_EPS from every point of the line. -/
theorem C170_ts (s : Seg n K) (p : Vec n K) (ps : List (Vec n K)) :
    (s.tsW (p :: ps)).1 = s.ts (p :: ps) ∧ (s.tsW (p :: ps)).2.Nodup ∧
    (∀ w ∈ (s.tsW (p :: ps)).2, w = .someNotCollinear ∨ w = .residuals) ∧
    (.someNotCollinear ∈ (s.tsW (p :: ps)).2 ↔ ∃ q ∈ p :: ps, s.t q = none) ∧
    (.residuals ∈ (s.tsW (p :: ps)).2 ↔ 1 < n ∧ s.p1 ≠ s.p2 ∧ ∀ x, F_EPS < sqGap (s.point x) p) := by
  have hr := residual_iff s p
  rw [← hr]
  simp only [t_none]
  have hall : (((p :: ps).map fun p => s.collinear (.point p)).all id = true) ↔ ¬ ∃ q ∈ p :: ps, s.collinear (.point q) = false := by
    simp only [List.all_map, List.all_eq_true, Function.comp, id, not_exists, not_and, Bool.not_eq_false]
  generalize hk : tooLarge (residual1 s.direction (p - s.p1) (lstsq1 s.direction (p - s.p1))) F_EPS = k
  have hts : s.ts (p :: ps) = if ((p :: ps).map fun p => s.collinear (.point p)).all id then
      .ok ((p :: ps).map fun p => some (lstsq1 s.direction (p - s.p1)))
    else if (p :: ps).length = 1 then .error .indexError
    else .ok (List.zipWith (fun c x => if c then x else none) ((p :: ps).map fun p => s.collinear (.point p))
      ((p :: ps).map fun p => some (lstsq1 s.direction (p - s.p1)))) := rfl
  have htw : s.tsW (p :: ps) = if ((p :: ps).map fun p => s.collinear (.point p)).all id then
      (.ok ((p :: ps).map fun p => some (lstsq1 s.direction (p - s.p1))), if k then [MoreWarn.residuals] else [])
    else if (p :: ps).length = 1 then (.error .indexError, (if k then [MoreWarn.residuals] else []) ++ [.someNotCollinear])
    else (.ok (List.zipWith (fun c x => if c then x else none) ((p :: ps).map fun p => s.collinear (.point p))
      ((p :: ps).map fun p => some (lstsq1 s.direction (p - s.p1)))), (if k then [MoreWarn.residuals] else []) ++ [.someNotCollinear]) := by
    rw [← hk]
    rfl
  rw [hts, htw]
  by_cases h : ((p :: ps).map fun p => s.collinear (.point p)).all id = true
  · have h' := hall.1 h
    rw [if_pos h, if_pos h]
    cases k
    · exact ⟨rfl, by simp, by simp, iff_of_false (by simp) h', by simp⟩
    · exact ⟨rfl, by simp, by simp, iff_of_false (by simp) h', by simp⟩
  · have h' : ∃ q ∈ p :: ps, s.collinear (.point q) = false := by
      by_contra hc
      exact h (hall.2 hc)
    rw [if_neg h, if_neg h]
    split
    · cases k
      · exact ⟨rfl, by simp, by simp, iff_of_true (by simp) h', by simp⟩
      · exact ⟨rfl, by simp, by simp, iff_of_true (by simp) h', by simp⟩
    · cases k
      · exact ⟨rfl, by simp, by simp, iff_of_true (by simp) h', by simp⟩
      · exact ⟨rfl, by simp, by simp, iff_of_true (by simp) h', by simp⟩

/-- **C170 (violated).** Whether the residuals are reported depends on the order of the points. -/
theorem C170_order_fails : ∃ (s : Seg 2 ℚ) (p q : Vec 2 ℚ),
    .residuals ∈ (s.tsW [p, q]).2 ∧ .residuals ∉ (s.tsW [q, p]).2 := by
  refine ⟨⟨![0, 0], ![1, 0]⟩, ![0, 1], ![0, 0], ?_, ?_⟩
  · rw [(C170_ts _ _ _).2.2.2.2]
    refine ⟨by norm_num, by decide, fun x => ?_⟩
    have : sqGap ((⟨![0, 0], ![1, 0]⟩ : Seg 2 ℚ).point x) ![0, 1] = x ^ 2 + 1 := by
      simp [sqGap, Seg.point, Seg.direction, Fin.sum_univ_two]
    rw [this]
    have : (F_EPS : ℚ) < 1 := by norm_num [F_EPS]
    nlinarith [sq_nonneg x]
  · rw [(C170_ts _ _ _).2.2.2.2]
    rintro ⟨-, -, h⟩
    have := h 0
    have e : sqGap ((⟨![0, 0], ![1, 0]⟩ : Seg 2 ℚ).point 0) ![0, 0] = 0 := by
      simp [sqGap, Seg.point, Seg.direction, Fin.sum_univ_two]
    rw [e] at this
    exact absurd this (not_lt.2 f_eps_pos'.le)

/-! ## Exact intersections -/

theorem finish_fst (feps : K) (s r : Seg n K) (t : K × K) : (exactFinishW feps s r t).1 = exactFinish feps s r t := by
  unfold exactFinishW exactFinish
  dsimp only
  split
  · split <;> rfl
  · rfl

theorem finish_meet (feps : K) (s r : Seg n K) {t : K × K} (h : s.point t.1 = r.point t.2) : (exactFinishW feps s r t).2 = [] := by
  have hv : vecEq (s.point t.1) (r.point t.2) = true := by
    rw [vecEq_iff, h]; intro i; simp; positivity
  unfold exactFinishW
  dsimp only
  split
  · rw [if_neg (by simp [hv])]
  · rfl

/-- **C170 (exact intersections).** The exact method gives the result it gives without warnings, and in exact arithmetic it never warns
about the solution of the equations; about residuals only with a negative `feps`, in more than two dimensions. -/
theorem C170_exact (feps : K) (s r : Seg n K) : (exactSegmentsW feps s r).1 = exactSegments feps s r ∧
    (∀ w ∈ (exactSegmentsW feps s r).2, w = .residuals ∧ feps < 0 ∧ 2 < n) ∧
    (0 ≤ feps → (exactSegmentsW feps s r).2 = []) ∧
    ∀ P, exactSegments feps s r = .ok ⟨.point P, .exact⟩ → feps < 0 → 2 < n → (exactSegmentsW feps s r).2 = [.residuals] := by
  have main : (exactSegmentsW feps s r).1 = exactSegments feps s r ∧
      (∀ w ∈ (exactSegmentsW feps s r).2, w = .residuals ∧ feps < 0 ∧ 2 < n) ∧
      ∀ P, exactSegments feps s r = .ok ⟨.point P, .exact⟩ → feps < 0 → 2 < n → (exactSegmentsW feps s r).2 = [.residuals] := by
    unfold exactSegmentsW exactSegments
    by_cases hc : s.collinear (.seg r) = true
    · rw [if_pos hc, if_pos hc]
      cases s.overlap r false <;> simp [IType.call, IData.isSegment, notIntersected]
    · rw [if_neg hc, if_neg hc]
      by_cases hpar : s.parallel r F_EPS = true
      · rw [if_pos hpar, if_pos hpar]
        simp [notIntersected]
      · rw [if_neg hpar, if_neg hpar]
        obtain ⟨b, hb1, hb2⟩ := C29_segment s (.seg r)
        rw [hb1]
        cases b with
        | false => simp [notIntersected]
        | true =>
          dsimp only
          by_cases hsing : (s.singular || r.singular) = true
          · simp [hsing, notIntersected]
          · simp only [hsing, Bool.not_true, Bool.false_eq_true, if_false]
            have hg : F_EPS ≤ gram s.direction r.direction := by
              rw [parallel_iff] at hpar; exact not_lt.1 hpar
            have hg0 := (lt_of_lt_of_le f_eps_pos' hg).ne'
            obtain ⟨x, y, hxy⟩ := plane_solve s r (hb2.1 rfl) hg0
            have hm : s.point x = r.point y := by
              rw [Seg.point_eq, Seg.point_eq]
              rw [sub_eq_sub_iff_add_eq_add] at hxy
              rw [add_comm s.p1, ← hxy]
            by_cases h2 : n = 2
            · rw [dif_pos h2, dif_pos h2, solve2_exact h2 hxy hg0]
              refine ⟨finish_fst _ _ _ _, ?_, fun _ _ _ h3 => by omega⟩
              rw [finish_meet feps s r hm]
              simp
            · rw [dif_neg h2, dif_neg h2, lstsq2_exact hxy hg0]
              refine ⟨finish_fst _ _ _ _, ?_, fun _ _ h0 h3 => ?_⟩
              rotate_left
              · rw [finish_meet feps s r hm, List.append_nil, if_pos]
                rw [gram_eq] at hg0
                simp [residual2, tooLarge, h3, hg0, hxy, vdot_zero, h0]
              rw [finish_meet feps s r hm, List.append_nil]
              intro w hw
              split at hw
              · rename_i ht
                refine ⟨by simpa using hw, ?_⟩
                unfold residual2 tooLarge at ht
                by_cases hn : 2 < n ∧ vdot s.direction s.direction * vdot r.direction r.direction - vdot s.direction r.direction * vdot s.direction r.direction ≠ 0
                · rw [if_pos hn, hxy, sub_self] at ht
                  simp only [vdot_zero, gt_iff_lt, decide_eq_true_eq] at ht
                  exact ⟨ht, hn.1⟩
                · rw [if_neg hn] at ht
                  simp at ht
              · simp at hw
  refine ⟨main.1, main.2.1, fun h => List.eq_nil_iff_forall_not_mem.2 fun w hw => ?_, main.2.2⟩
  exact absurd (main.2.1 w hw).2.1 (not_lt.2 h)

theorem collectW_spec {f : SegObj n K → SegObj n K → Except PyErr (Info n K)}
    {g : SegObj n K → SegObj n K → Except PyErr (Info n K) × List MoreWarn} (h : ∀ s r, (g s r).1 = f s r) (c1 c2 : GCurve n K)
    (l : List (Nat × Nat)) : (collectW g c1 c2 l).1 = collect f c1 c2 l ∧
      ∀ w ∈ (collectW g c1 c2 l).2, ∃ ij ∈ l, w ∈ (g (c1.segment ij.1) (c2.segment ij.2)).2 := by
  induction l with
  | nil => exact ⟨rfl, by simp [collectW]⟩
  | cons ij l ih =>
    unfold collectW collect
    have hij := h (c1.segment ij.1) (c2.segment ij.2)
    obtain ⟨a, ws, e⟩ : ∃ a ws, g (c1.segment ij.1) (c2.segment ij.2) = (a, ws) := ⟨_, _, rfl⟩
    rw [e] at hij
    simp only at hij
    rw [← hij, e]
    cases a with
    | error err => exact ⟨rfl, fun w hw => ⟨ij, by simp, by rw [e]; exact hw⟩⟩
    | ok info =>
      refine ⟨?_, fun w hw => ?_⟩
      · simp only [ih.1]
        cases collect f c1 c2 l <;> rfl
      · simp only [List.mem_append] at hw
        rcases hw with hw | hw
        · exact ⟨ij, by simp, by rw [e]; exact hw⟩
        · obtain ⟨ij', k1, k2⟩ := ih.2 w hw
          exact ⟨ij', by simp [k1], k2⟩

/-- **C170 (exact intersections of curves).** The same for curves. -/
theorem C170_exact_curves (feps : K) (c1 c2 : GCurve n K) : (exactCurvesW feps c1 c2).1 = exactCurves feps c1 c2 ∧
    (∀ w ∈ (exactCurvesW feps c1 c2).2, w = .residuals ∧ feps < 0 ∧ 2 < n) ∧ (0 ≤ feps → (exactCurvesW feps c1 c2).2 = []) := by
  have h := collectW_spec (f := fun s r => exactSegments feps s.seg r.seg) (g := fun s r => exactSegmentsW feps s.seg r.seg)
    (fun s r => (C170_exact feps s.seg r.seg).1) c1 c2 (bboxPairs c1 c2)
  have hw : ∀ w ∈ (exactCurvesW feps c1 c2).2, w = .residuals ∧ feps < 0 ∧ 2 < n := by
    intro w hw
    obtain ⟨ij, -, k⟩ := h.2 w hw
    exact (C170_exact feps _ _).2.1 w k
  refine ⟨h.1, hw, fun h0 => List.eq_nil_iff_forall_not_mem.2 fun w hw' => ?_⟩
  exact absurd (hw w hw').2.1 (not_lt.2 h0)

end

/-! ## Angles -/

theorem vnorm_dir {n : Nat} (s : Seg n ℝ) : vnorm s.direction = s.seglen := by
  unfold vnorm Seg.seglen Model.edist
  congr 1
  simp only [vdot_eq, Seg.direction, Pi.sub_apply]
  exact Finset.sum_congr rfl fun i _ => by ring

/-- **C170 (angles).** The angle is that without warnings; the warning is issued iff it is NaN, and this is iff the product of the lengths
is at most 1e-8. -/
theorem C170_angle {n : Nat} (s r : Seg n ℝ) (rd : ℝ → ℝ) : (s.angleW r rd).1 = s.angle r rd ∧
    (s.angleW r rd).2 = (if s.seglen * r.seglen ≤ 1 / 10 ^ 8 then [.degenerate] else []) ∧
    (s.angle r rd = none ↔ s.seglen * r.seglen ≤ 1 / 10 ^ 8) := by
  have h0 : 0 ≤ s.seglen * r.seglen := mul_nonneg (Real.sqrt_nonneg _) (Real.sqrt_nonneg _)
  have hc : closeK (vnorm s.direction * vnorm r.direction) 0 = true ↔ s.seglen * r.seglen ≤ 1 / 10 ^ 8 := by
    rw [vnorm_dir, vnorm_dir]
    simp only [closeK, atol, rtol, sub_zero, abs_zero, mul_zero, add_zero, abs_of_nonneg h0, decide_eq_true_eq]
    norm_num
  unfold Seg.angleW Seg.angle
  dsimp only
  by_cases h : closeK (vnorm s.direction * vnorm r.direction) 0 = true
  · rw [if_pos h, if_pos h, if_pos (hc.1 h)]
    exact ⟨rfl, rfl, iff_of_true rfl (hc.1 h)⟩
  · have h' := fun k => h (hc.2 k)
    rw [if_neg h, if_neg h, if_neg h']
    exact ⟨rfl, rfl, iff_of_false (by simp) h'⟩

/-- **C170 (violated).** The warning says that a segment degenerates into a point, also for segments with two different end points. -/
theorem C170_angle_fails (rd : ℝ → ℝ) : ∃ s r : Seg 2 ℝ, s.singular = false ∧ r.singular = false ∧
    s.angleW r rd = (none, [.degenerate]) := by
  refine ⟨⟨![0, 0], ![1 / 10 ^ 4, 0]⟩, ⟨![0, 0], ![1 / 10 ^ 4, 0]⟩, ?_, ?_, ?_⟩
  · simp only [Seg.singular, ← Bool.not_eq_true, vecEq_iff, CloseVec]
    intro h
    have := h 0
    norm_num at this
  · simp only [Seg.singular, ← Bool.not_eq_true, vecEq_iff, CloseVec]
    intro h
    have := h 0
    norm_num at this
  · have hl : (⟨![0, 0], ![1 / 10 ^ 4, 0]⟩ : Seg 2 ℝ).seglen = 1 / 10 ^ 4 := by
      simp [Seg.seglen, Model.edist, Fin.sum_univ_two]
    obtain ⟨h1, h2, h3⟩ := C170_angle (⟨![0, 0], ![1 / 10 ^ 4, 0]⟩ : Seg 2 ℝ) ⟨![0, 0], ![1 / 10 ^ 4, 0]⟩ rd
    rw [hl] at h2 h3
    have hle : (1 / 10 ^ 4 : ℝ) * (1 / 10 ^ 4) ≤ 1 / 10 ^ 8 := by norm_num
    rw [if_pos hle] at h2
    exact Prod.ext (h1.trans (h3.2 hle)) h2

/-! ## intersect, interpolators, curves -/

/-- **C170 (intersect).** `intersect` gives the result it gives without warnings; it warns that parameters are ignored iff the objects have
the same dimension, the method is a method object and there are parameters; then the result is the one without parameters. -/
theorem C170_params (reg : Reg (IClass IObj IKwargs IRes)) (o1 o2 : IObj) (method : MethodArg IObj IRes) (kw : IKwargs) :
    (intersectW reg o1 o2 method kw).1 = intersectCall reg o1 o2 method kw ∧
    ((intersectW reg o1 o2 method kw).2 = [.paramsIgnored] ∨ (intersectW reg o1 o2 method kw).2 = []) ∧
    ((intersectW reg o1 o2 method kw).2 = [.paramsIgnored] ↔
      kw ≠ [] ∧ (∃ m, method = .inst m) ∧ ∃ d, o1.ndim? = some d ∧ o2.ndim? = some d) ∧
    ((intersectW reg o1 o2 method kw).2 = [.paramsIgnored] →
      intersectCall reg o1 o2 method kw = intersectCall reg o1 o2 method []) := by
  have hd : ∀ o : IObj, HasNdim.ndim o = o.ndim? := fun _ => rfl
  unfold intersectW intersectCall getNdim
  simp only [hd]
  cases h1 : o1.ndim? with
  | none => exact ⟨rfl, by simp, by simp, by simp⟩
  | some d1 =>
    cases h2 : o2.ndim? with
    | none => exact ⟨rfl, by simp, by simp, by simp⟩
    | some d2 =>
      by_cases hne : d1 ≠ d2
      · have hne' : ¬ d2 = d1 := fun h => hne h.symm
        simp [hne, hne', bind, Except.bind]
      · rw [not_not] at hne
        subst hne
        cases method with
        | none =>
          unfold resolveMethod
          cases reg.default <;> simp [bind, Except.bind, chooseMethod]
        | name s => simp [bind, Except.bind, chooseMethod, resolveMethod]
        | inst m =>
          cases kw <;> simp [bind, Except.bind, chooseMethod, resolveMethod]
        | other => simp [bind, Except.bind, chooseMethod, resolveMethod]

/-- **C170 (interpolators).** An interpolator gives the result it gives without warnings. It warns that the curve is empty iff it is, whatever
the method and the grid, and that the grid does not cover the range iff the curve has two points and the grid is accepted with that
remark, even if the method then fails; it never warns twice. -/
theorem C170_interpolator (junk : ℝ) (c : Curve ℝ) (impl : InterpImpl) (spec : GridSpec) :
    (interpolatorCallW junk c impl spec).1 = interpolatorCall junk c impl spec ∧
    (interpolatorCallW junk c impl spec).2.length ≤ 1 ∧
    (∀ w ∈ (interpolatorCallW junk c impl spec).2, w = .emptyCurve ∨ w = .gridRange) ∧
    (.emptyCurve ∈ (interpolatorCallW junk c impl spec).2 ↔ c.rows = []) ∧
    (.gridRange ∈ (interpolatorCallW junk c impl spec).2 ↔ 2 ≤ c.size ∧ ∃ grid, getGrid junk c spec = .ok (grid, true)) := by
  have hs : c.size = 0 ↔ c.rows = [] := List.length_eq_zero_iff
  unfold interpolatorCallW interpolatorCall
  by_cases h0 : c.size = 0
  · rw [if_pos h0, if_pos h0]
    exact ⟨rfl, by simp, by simp, by simp [hs.1 h0], by simp [h0]⟩
  · rw [if_neg h0, if_neg h0]
    have h0' : ¬ c.rows = [] := fun h => h0 (hs.2 h)
    by_cases h1 : c.size = 1
    · rw [if_pos h1, if_pos h1]
      exact ⟨rfl, by simp, by simp, by simp [h0'], by simp [h1]⟩
    · rw [if_neg h1, if_neg h1]
      have h2 : 2 ≤ c.size := by omega
      cases hg : getGrid junk c spec with
      | error e => exact ⟨rfl, by simp, by simp, by simp [h0'], by simp⟩
      | ok q =>
        obtain ⟨grid, w⟩ := q
        cases w
        · exact ⟨rfl, by simp, by simp, by simp [h0'], by simp⟩
        · exact ⟨rfl, by simp, by simp, by simp [h0'], by simp [h2]⟩

/-- **C170 (construction).** `Curve(…)` gives the result it gives without warnings. It warns about `tdata` or `axis` iff they are given together
with a curve (and `ndmin` is accepted), and then they have no effect. -/
theorem C170_construct {α : Type} [Elem α] (data : CurveData α) (tdata : Option (List α)) (axis ndmin : Option Int)
    (dtype : Option DType) :
    (Curve.initW data tdata axis ndmin dtype).1 = Curve.init data tdata axis ndmin dtype ∧
    (Curve.initW data tdata axis ndmin dtype).2.Nodup ∧
    (∀ w, w ∈ (Curve.initW data tdata axis ndmin dtype).2 ↔ (∃ c, data = .curve c) ∧ 2 ≤ ndmin.getD 2 ∧
      (w = .tdataIgnored ∧ tdata ≠ none ∨ w = .axisIgnored ∧ axis ≠ none)) ∧
    (∀ c, data = .curve c → Curve.init data tdata axis ndmin dtype = Curve.init data none none ndmin dtype) := by
  unfold Curve.initW
  by_cases hn : ndmin.getD 2 < 2
  · rw [if_pos hn]
    have hn' : ¬ 2 ≤ ndmin.getD 2 := by omega
    refine ⟨?_, by simp, by simp [hn'], ?_⟩
    · simp [Curve.init, hn]
    · rintro c rfl
      simp [Curve.init]
  · rw [if_neg hn]
    have hn' : 2 ≤ ndmin.getD 2 := by omega
    cases data with
    | arr a dt => exact ⟨rfl, by simp, by simp, by simp⟩
    | seq xs => exact ⟨rfl, by simp, by simp, by simp⟩
    | curve c =>
      refine ⟨?_, ?_, ?_, ?_⟩
      · cases ht : c.tdata <;> simp [Curve.init, hn, Curve.isparametric, ht]
      · cases tdata <;> cases axis <;> simp
      · intro w
        cases tdata <;> cases axis <;> simp [hn']
      · rintro c' h
        simp [Curve.init]

/-! ## Cases -/

/-- **C170 (violated).** With a negative `feps` a correct crossing in space is reported together with the warning that it might be wrong. -/
theorem C170_feps_fails : exactSegmentsW (-1 : ℚ) (⟨![0, 0, 0], ![2, 2, 0]⟩ : Seg 3 ℚ) ⟨![2, 0, 0], ![0, 2, 0]⟩ =
    (.ok ⟨.point ![1, 1, 0], .exact⟩, [.residuals]) := by
  have h : exactSegments (-1 : ℚ) (⟨![0, 0, 0], ![2, 2, 0]⟩ : Seg 3 ℚ) ⟨![2, 0, 0], ![0, 2, 0]⟩ = .ok ⟨.point ![1, 1, 0], .exact⟩ := by
    refine C38_crossing_partial _ _ _ ⟨1 / 2, by norm_num, by norm_num, ?_⟩ ⟨1 / 2, by norm_num, by norm_num, ?_⟩ ?_ ?_ ?_ ?_ ?_
    · funext i; fin_cases i <;> simp
    · funext i; fin_cases i <;> simp <;> norm_num
    · simp [gram, Fin.sum_univ_three]; norm_num
    · intro h; have := h 0; norm_num at this
    · intro h; have := h 0; norm_num at this
    · rintro ⟨h, -⟩; have := h 0; norm_num at this
    · rintro ⟨h, -⟩; have := h 1; norm_num at this
  obtain ⟨h1, -, -, h4⟩ := C170_exact (-1 : ℚ) (⟨![0, 0, 0], ![2, 2, 0]⟩ : Seg 3 ℚ) ⟨![2, 0, 0], ![0, 2, 0]⟩
  exact Prod.ext (h1.trans h) (h4 _ h (by norm_num) (by norm_num))

example := C170_t (⟨![0, 1], ![1, 1]⟩ : Seg 2 ℚ) ![2, 1]
example : (⟨![0, 0], ![2, 0]⟩ : Seg 2 ℚ).tW ((⟨![0, 0], ![2, 0]⟩ : Seg 2 ℚ).point (1 / 2)) = (some (1 / 2), []) := by
  refine C170_t_silent (by decide) _ ?_
  rw [Ne, t_none, Bool.not_eq_false]
  refine C27_complete_partial _ _ ⟨![1, 0], ?_⟩
  intro q hq
  have : q = ![0, 0] ∨ q = ![2, 0] ∨ q = ![1, 0] := by
    have e : (⟨![0, 0], ![2, 0]⟩ : Seg 2 ℚ).point (1 / 2) = ![1, 0] := by
      funext i; fin_cases i <;> simp [Seg.point, Seg.direction]
    rw [e] at hq
    simpa [otherPoints] using hq
  rcases this with rfl | rfl | rfl
  · exact ⟨0, by simp⟩
  · exact ⟨2, by simp⟩
  · exact ⟨1, by simp⟩
example := C170_degenerate_fails (⟨![1, 1], ![1, 1]⟩ : Seg 2 ℚ) rfl ![5, 7]
example := C170_ts (⟨![0, 0], ![1, 0]⟩ : Seg 2 ℚ) ![0, 1] [![1, 0]]
example := (C170_exact (F_EPS : ℚ) (⟨![0, 0], ![2, 2]⟩ : Seg 2 ℚ) ⟨![2, 0], ![0, 2]⟩).2.2.1 f_eps_pos'.le
example := (C170_exact_curves (F_EPS : ℚ) (⟨0, false, [![0, 0], ![2, 2]]⟩ : GCurve 2 ℚ) ⟨1, false, [![2, 0], ![0, 2]]⟩).2.2 f_eps_pos'.le
example : (intersectW Reg.empty (.curve ⟨[[0, 0], [1, 1]], 2, none, .float⟩ 0) (.curve ⟨[[0, 1], [1, 0]], 2, none, .float⟩ 1)
    (.inst fun _ _ => .error .valueError) [("feps", .num 0)]).2 = [.paramsIgnored] :=
  (C170_params _ _ _ _ _).2.2.1.2 ⟨by simp, ⟨_, rfl⟩, 2, rfl, rfl⟩
example (impl : InterpImpl) : .emptyCurve ∈ (interpolatorCallW 0 ⟨[], 2, none, .float⟩ impl .other).2 :=
  (C170_interpolator _ _ _ _).2.2.2.1.2 rfl
example : .tdataIgnored ∈ (Curve.initW (.curve (⟨[[1, 2], [3, 4]], 2, none, .float⟩ : Curve ℚ)) (some [0, 1]) none none none).2 :=
  ((C170_construct _ _ _ _ _).2.2.1 _).2 ⟨⟨_, rfl⟩, by simp, .inl ⟨rfl, by simp⟩⟩

end Verif.Props
