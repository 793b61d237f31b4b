import Verif.Lemmas.Dist
import Verif.Spec.Geom
import Mathlib.LinearAlgebra.FiniteDimensional.Lemmas
import Mathlib.LinearAlgebra.Dimension.FreeAndStrongRankCondition
import Mathlib.LinearAlgebra.Dimension.Constructions
import Mathlib.Geometry.Euclidean.Angle.Unoriented.Basic

/-!
Segments: parametrization, collinearity, parallelism, planarity, angle (C25-C30).
-/
namespace Verif.Props

open Verif Verif.Model Verif.Spec

section
variable {K : Type} [Field K] [LinearOrder K] [IsStrictOrderedRing K] {n : Nat}

/-! ## C25 -/

/-- **C25.** `point` is the affine parametrization; sequences are treated element by element. -/
theorem C25_affine (s : Seg n K) :
    s.point 0 = s.p1 ∧ s.point 1 = s.p2 ∧ (∀ t, s.point t = (1 - t) • s.p1 + t • s.p2) ∧
    (∀ t, 0 ≤ t → t ≤ 1 → Between s.p1 s.p2 (s.point t)) ∧
    (∀ t i, 0 ≤ t → t ≤ 1 → min (s.p1 i) (s.p2 i) ≤ s.point t i ∧ s.point t i ≤ max (s.p1 i) (s.p2 i)) ∧
    (∀ ts, s.points ts = ts.map s.point) := by
  have haff : ∀ t, s.point t = (1 - t) • s.p1 + t • s.p2 := by
    intro t; rw [Seg.point_eq]; funext i; simp [Seg.direction]; ring
  refine ⟨by simp [Seg.point_eq], by simp [Seg.point_eq, Seg.direction], haff, ?_, ?_, ?_⟩
  · intro t h0 h1
    exact ⟨t, h0, h1, Seg.point_eq s t⟩
  · intro t i h0 h1
    rw [haff]
    simp only [Pi.add_apply, Pi.smul_apply, smul_eq_mul]
    have h2 : 0 ≤ 1 - t := by linarith
    constructor
    · have a1 := mul_le_mul_of_nonneg_left (min_le_left (s.p1 i) (s.p2 i)) h2
      have a2 := mul_le_mul_of_nonneg_left (min_le_right (s.p1 i) (s.p2 i)) h0
      linarith
    · have a1 := mul_le_mul_of_nonneg_left (le_max_left (s.p1 i) (s.p2 i)) h2
      have a2 := mul_le_mul_of_nonneg_left (le_max_right (s.p1 i) (s.p2 i)) h0
      linarith
  · intro ts
    simp [Seg.points, Seg.point, Function.comp_def]

/-- **C25 (speed).** The distance of two points of the segment is the parameter difference times the length. -/
theorem C25_length (s : Seg n ℝ) (x y : ℝ) : Model.edist (s.point x) (s.point y) = |x - y| * s.seglen := edist_point s x y

/-! ## C18 for segments -/

/-- **C18 (segments).** Equality of segments is coordinate-wise closeness of both end points: it is reflexive and
accepts segments with exactly the same points; segments whose points differ by more than the tolerance in one
coordinate are unequal. -/
theorem C18_segment (s r : Seg n K) :
    s.eq s = true ∧
    (s.eq r = true ↔ ∀ i, |s.p1 i - r.p1 i| ≤ 1 / 100000000 + 1 / 100000 * |r.p1 i| ∧
      |s.p2 i - r.p2 i| ≤ 1 / 100000000 + 1 / 100000 * |r.p2 i|) := by
  have h2 : ∀ s r : Seg n K, s.eq r = true ↔ ∀ i, |s.p1 i - r.p1 i| ≤ 1 / 100000000 + 1 / 100000 * |r.p1 i| ∧
      |s.p2 i - r.p2 i| ≤ 1 / 100000000 + 1 / 100000 * |r.p2 i| := by
    intro s r
    have hv : ∀ a b : Vec n K, vecEq a b = true ↔ ∀ i, |a i - b i| ≤ 1 / 100000000 + 1 / 100000 * |b i| := by
      intro a b; unfold vecEq; rw [decide_eq_true_iff]
      exact forall_congr' fun i => by unfold closeK atol rtol; rw [decide_eq_true_iff]
    rw [Seg.eq, Bool.and_eq_true, hv, hv]
    exact ⟨fun h i => ⟨h.1 i, h.2 i⟩, fun h => ⟨fun i => (h i).1, fun i => (h i).2⟩⟩
  refine ⟨(h2 s s).2 fun i => ?_, h2 s r⟩
  simp only [sub_self, abs_zero]
  constructor <;> positivity

/-! ## C27 -/

theorem rank_le_one_iff (ps : List (Vec n K)) : matrixRank ps ≤ 1 ↔ OnLineThroughOrigin ps := by
  unfold matrixRank OnLineThroughOrigin
  rw [finrank_le_one_iff]
  constructor
  · rintro ⟨⟨g, hg⟩, h⟩
    refine ⟨g, fun p hp => ?_⟩
    obtain ⟨c, hc⟩ := h ⟨p, Submodule.subset_span hp⟩
    exact ⟨c, (congrArg Subtype.val hc).symm⟩
  · rintro ⟨g, h⟩
    have hle : Submodule.span K {v | v ∈ ps} ≤ Submodule.span K {g} := by
      rw [Submodule.span_le]
      intro p hp
      obtain ⟨x, hx⟩ := h p hp
      rw [hx]
      exact Submodule.smul_mem _ _ (Submodule.mem_span_singleton_self g)
    by_cases hz : ∀ p ∈ ps, p = 0
    · refine ⟨0, ?_⟩
      rintro ⟨w, hw⟩
      refine ⟨0, ?_⟩
      have hbot : Submodule.span K {v | v ∈ ps} ≤ ⊥ := by
        rw [Submodule.span_le]; intro p hp; exact hz p hp
      have := hbot hw
      simp at this
      subst this
      apply Subtype.ext
      simp
    · push Not at hz
      obtain ⟨p, hp, hp0⟩ := hz
      obtain ⟨x, hx⟩ := h p hp
      have hx0 : x ≠ 0 := by rintro rfl; simp at hx; exact hp0 hx
      refine ⟨⟨p, Submodule.subset_span hp⟩, ?_⟩
      rintro ⟨w, hw⟩
      obtain ⟨y, hy⟩ := Submodule.mem_span_singleton.1 (hle hw)
      refine ⟨y * x⁻¹, ?_⟩
      apply Subtype.ext
      simp only [SetLike.mk_smul_mk]
      rw [hx, ← hy, smul_smul, mul_assoc, inv_mul_cancel₀ hx0, mul_one]

theorem onLine_of_origin {ps : List (Vec n K)} (h : OnLineThroughOrigin ps) : OnLine ps := by
  obtain ⟨g, h⟩ := h
  exact ⟨0, g, fun p hp => by obtain ⟨x, hx⟩ := h p hp; exact ⟨x, by simpa using hx⟩⟩

theorem onLine_of_dedup {ps : List (Vec n K)} (h : ps.dedup.length < 3) : OnLine ps := by
  have key : ∀ ds : List (Vec n K), ds.length < 3 → OnLine ds := by
    intro ds hd
    match ds, hd with
    | [], _ => exact ⟨0, 0, by simp⟩
    | [a], _ => exact ⟨a, 0, by intro p hp; exact ⟨0, by simpa using hp⟩⟩
    | [a, b], _ =>
      refine ⟨a, b - a, ?_⟩
      intro p hp
      simp at hp
      rcases hp with rfl | rfl
      · exact ⟨0, by simp⟩
      · exact ⟨1, by simp⟩
    | _ :: _ :: _ :: _, hd => simp at hd; omega
  obtain ⟨q, g, hq⟩ := key _ h
  exact ⟨q, g, fun p hp => hq p (List.mem_dedup.2 hp)⟩

theorem collinearPoints_iff (ps : List (Vec n K)) :
    collinearPoints ps = true ↔ ps.dedup.length < 3 ∨ OnLineThroughOrigin ps := by
  unfold collinearPoints
  have : OnLineThroughOrigin ps.dedup ↔ OnLineThroughOrigin ps := by
    unfold OnLineThroughOrigin; simp only [List.mem_dedup]
  by_cases h : ps.dedup.length < 3
  · simp [h]
  · simp only [h, if_false, false_or]
    rw [decide_eq_true_iff, rank_le_one_iff, this]

/-- The points of the two arguments of `collinear`. -/
def otherPoints : PointOrSeg n K → List (Vec n K)
  | .point p => [p]
  | .seg r => [r.p1, r.p2]

/-- The shortcut of `collinear`: the other object is close to an end point / to the segment itself. -/
def CloseTo (s : Seg n K) : PointOrSeg n K → Prop
  | .point p => vecEq p s.p1 = true ∨ vecEq p s.p2 = true
  | .seg r => r.eq s = true ∨ r.reverse.eq s = true

theorem collinear_iff (s : Seg n K) (o : PointOrSeg n K) :
    s.collinear o = true ↔ CloseTo s o ∨ ([s.p1, s.p2] ++ otherPoints o).dedup.length < 3 ∨
      OnLineThroughOrigin ([s.p1, s.p2] ++ otherPoints o) := by
  cases o with
  | point p =>
    simp only [Seg.collinear, CloseTo, otherPoints, List.cons_append, List.nil_append]
    rw [← collinearPoints_iff]
    by_cases h : (vecEq p s.p1 || vecEq p s.p2) = true
    · simp [h]; left; simpa using h
    · simp only [h, Bool.false_eq_true, if_false]
      constructor
      · exact .inr
      · rintro (h1 | h1)
        · exact absurd (by simpa using h1) h
        · exact h1
  | seg r =>
    simp only [Seg.collinear, CloseTo, otherPoints, List.cons_append, List.nil_append]
    rw [← collinearPoints_iff]
    by_cases h : (r.eq s || r.reverse.eq s) = true
    · simp [h]; left; simpa using h
    · simp only [h, Bool.false_eq_true, if_false]
      constructor
      · exact .inr
      · rintro (h1 | h1)
        · exact absurd (by simpa using h1) h
        · exact h1

/-- **C27 (soundness, partial).** If `collinear` is true and the other object is not one that is only
*close* to the segment's end points, then all points are on one line. Missing: close objects, see
`C27_close_accepted`. -/
theorem C27_sound_partial (s : Seg n K) (o : PointOrSeg n K) (hcl : ¬ CloseTo s o) (h : s.collinear o = true) :
    OnLine ([s.p1, s.p2] ++ otherPoints o) := by
  rcases (collinear_iff s o).1 h with h | h | h
  · exact absurd h hcl
  · exact onLine_of_dedup h
  · exact onLine_of_origin h

/-- **C27 (completeness, partial).** Points on one line through the origin are reported collinear.
Missing: lines that do not pass through the origin, `C27_misses`. -/
theorem C27_complete_partial (s : Seg n K) (o : PointOrSeg n K)
    (h : OnLineThroughOrigin ([s.p1, s.p2] ++ otherPoints o)) : s.collinear o = true :=
  (collinear_iff s o).2 (.inr (.inr h))

/-- The exact behaviour of the rank test: for at least three distinct points it asks for a line through the
origin. -/
theorem C27_exact_behaviour (s : Seg n K) (o : PointOrSeg n K) (hcl : ¬ CloseTo s o)
    (h3 : 3 ≤ ([s.p1, s.p2] ++ otherPoints o).dedup.length) :
    s.collinear o = true ↔ OnLineThroughOrigin ([s.p1, s.p2] ++ otherPoints o) := by
  rw [collinear_iff]
  constructor
  · rintro (h | h | h)
    · exact absurd h hcl
    · omega
    · exact h
  · exact fun h => .inr (.inr h)

end

/-- **C27 violated.** (0,1), (1,1), (2,1) are on the line y = 1, but the segment (0,1)-(1,1) and the point
(2,1) are reported as not collinear. -/
theorem C27_misses :
    OnLine [![(0 : ℚ), 1], ![1, 1], ![2, 1]] ∧ (⟨![0, 1], ![1, 1]⟩ : Seg 2 ℚ).collinear (.point ![2, 1]) = false := by
  constructor
  · refine ⟨![0, 1], ![1, 0], ?_⟩
    intro p hp
    simp only [List.mem_cons, List.not_mem_nil, or_false] at hp
    rcases hp with rfl | rfl | rfl
    · exact ⟨0, by funext i; fin_cases i <;> simp⟩
    · exact ⟨1, by funext i; fin_cases i <;> simp⟩
    · exact ⟨2, by funext i; fin_cases i <;> simp⟩
  · rw [← Bool.not_eq_true, C27_exact_behaviour]
    · rintro ⟨g, h⟩
      obtain ⟨x, hx⟩ := h ![0, 1] (by simp)
      obtain ⟨y, hy⟩ := h ![1, 1] (by simp)
      have h0 := congrFun hx 0
      have h1 := congrFun hx 1
      have h2 := congrFun hy 0
      simp at h0 h1 h2
      rcases h0 with h0 | h0
      · rw [h0] at h1; simp at h1
      · rw [h0] at h2; simp at h2
    · simp only [CloseTo, vecEq, decide_eq_true_eq, not_or, not_forall]
      exact ⟨⟨0, by simp [closeK, atol, rtol]; norm_num⟩, ⟨0, by simp [closeK, atol, rtol]; norm_num⟩⟩
    · decide

/-- **C27 violated.** A point near an end point but off the line is reported collinear. -/
theorem C27_close_accepted :
    ¬ OnLine [![(0 : ℚ), 0], ![1, 0], ![0, 1 / 1000000000]] ∧
    (⟨![0, 0], ![1, 0]⟩ : Seg 2 ℚ).collinear (.point ![0, 1 / 1000000000]) = true := by
  constructor
  · rintro ⟨q, g, h⟩
    obtain ⟨x, hx⟩ := h ![0, 0] (by simp)
    obtain ⟨y, hy⟩ := h ![1, 0] (by simp)
    obtain ⟨z, hz⟩ := h ![0, 1 / 1000000000] (by simp)
    have x0 := congrFun hx 0; have x1 := congrFun hx 1
    have y0 := congrFun hy 0; have y1 := congrFun hy 1
    have z0 := congrFun hz 0; have z1 := congrFun hz 1
    simp at x0 x1 y0 y1 z0 z1
    have e1 : (y - x) * g 0 = 1 := by linarith
    have e2 : (y - x) * g 1 = 0 := by linarith
    have e3 : (z - x) * g 0 = 0 := by linarith
    have e4 : (z - x) * g 1 = 1 / 1000000000 := by linarith
    have : (1 : ℚ) / 1000000000 = 0 := by
      calc (1 : ℚ) / 1000000000 = ((y - x) * g 0) * ((z - x) * g 1) := by rw [e1, e4]; ring
        _ = ((z - x) * g 0) * ((y - x) * g 1) := by ring
        _ = 0 := by rw [e2, e3]; ring
    norm_num at this
  · rw [collinear_iff]
    left; left
    simp only [vecEq, decide_eq_true_eq]
    intro i
    fin_cases i
    · simp [closeK, atol, rtol]
    · simp [closeK, atol, rtol]; norm_num [abs_le]

/-! ## C26 -/

section
variable {K : Type} [Field K] [LinearOrder K] [IsStrictOrderedRing K] {n : Nat}

theorem lstsq1_point (s : Seg n K) (hs : s.p1 ≠ s.p2) (t : K) : lstsq1 s.direction (s.point t - s.p1) = t := by
  have hd : s.direction ≠ 0 := by
    intro h
    apply hs
    have : s.p2 - s.p1 = 0 := h
    exact (sub_eq_zero.1 this).symm
  unfold lstsq1
  rw [Seg.point_eq, add_sub_cancel_left, vdot_smul, mul_div_assoc, div_self (vdot_self_pos hd).ne', mul_one]

/-- The one-column least squares solution minimises the residual. -/
theorem lstsq1_spec (a b : Vec n K) (x : K) :
    vdot (lstsq1 a b • a - b) (lstsq1 a b • a - b) ≤ vdot (x • a - b) (x • a - b) := by
  by_cases ha : a = 0
  · subst ha; simp
  · have hp := vdot_self_pos ha
    have e : ∀ y, vdot (y • a - b) (y • a - b) = vdot a a * (y - lstsq1 a b) ^ 2 + (vdot b b - vdot a b ^ 2 / vdot a a) := by
      intro y
      simp only [sub_vdot, vdot_sub, smul_vdot, vdot_smul, lstsq1, vdot_comm b a]
      field_simp
      ring
    rw [e, e x, sub_self]
    have : 0 ≤ vdot a a * (x - lstsq1 a b) ^ 2 := mul_nonneg hp.le (sq_nonneg _)
    linarith

/-- **C26 (exact behaviour).** On the point of parameter `t`, `Segment.t` returns `t` when the collinearity
test accepts the point and NaN otherwise. -/
theorem C26_point (s : Seg n K) (hs : s.p1 ≠ s.p2) (t : K) :
    s.t (s.point t) = if s.collinear (.point (s.point t)) = true then some t else none := by
  unfold Seg.t
  by_cases h : s.collinear (.point (s.point t)) = true
  · simp [h, lstsq1_point s hs t]
  · simp [h]

/-- **C26 (partial).** For a segment whose line passes through the origin, `t` inverts `point`. Missing: other
lines, where NaN is returned (`C26_nan_on_line`). -/
theorem C26_inverse_partial (s : Seg n K) (hs : s.p1 ≠ s.p2) (ho : OnLineThroughOrigin [s.p1, s.p2]) (t : K) :
    s.t (s.point t) = some t := by
  rw [C26_point s hs, if_pos]
  apply C27_complete_partial
  obtain ⟨g, h⟩ := ho
  refine ⟨g, ?_⟩
  intro p hp
  simp only [otherPoints, List.cons_append, List.nil_append, List.mem_cons, List.not_mem_nil, or_false] at hp
  rcases hp with rfl | rfl | rfl
  · exact h _ (by simp)
  · exact h _ (by simp)
  · obtain ⟨x, hx⟩ := h s.p1 (by simp)
    obtain ⟨y, hy⟩ := h s.p2 (by simp)
    refine ⟨x + t * (y - x), ?_⟩
    rw [Seg.point_eq, Seg.direction, hx, hy]
    simp only [add_smul, mul_smul, sub_smul]

/-- At the end points the inverse is right for every non-singular segment. -/
theorem C26_ends (s : Seg n K) (hs : s.p1 ≠ s.p2) : s.t s.p1 = some 0 ∧ s.t s.p2 = some 1 := by
  have self : ∀ p : Vec n K, vecEq p p = true := by
    intro p
    simp only [vecEq, decide_eq_true_eq, closeK, sub_self, abs_zero, atol, rtol]
    intro i; positivity
  have h0 := C26_point s hs 0
  have h1 := C26_point s hs 1
  have e0 : s.point 0 = s.p1 := (C25_affine s).1
  have e1 : s.point 1 = s.p2 := (C25_affine s).2.1
  rw [e0] at h0
  rw [e1] at h1
  refine ⟨?_, ?_⟩
  · rw [h0, if_pos]; exact (collinear_iff _ _).2 (.inl (.inl (self _)))
  · rw [h1, if_pos]; exact (collinear_iff _ _).2 (.inl (.inr (self _)))

/-- **C26 (points off the line).** A point that is not on the line and not close to an end point gives NaN. -/
theorem C26_off_line (s : Seg n K) (p : Vec n K) (h : ¬ OnLine [s.p1, s.p2, p]) (hcl : ¬ CloseTo s (.point p)) :
    s.t p = none := by
  unfold Seg.t
  have : s.collinear (.point p) ≠ true := fun hc => h (C27_sound_partial s _ hcl hc)
  simp [this]

/-- **C26 (sequences, partial).** For a sequence of at least two points, or one collinear point, the result is
the vector of the single results. Missing: one non-collinear point (`C26_single_point_list`). -/
theorem C26_sequence_partial (s : Seg n K) (ps : List (Vec n K)) (hne : ps ≠ [])
    (h1 : ps.length ≠ 1 ∨ ∀ p ∈ ps, s.collinear (.point p) = true) : s.ts ps = .ok (ps.map s.t) := by
  unfold Seg.ts
  have he : ps.isEmpty = false := by cases ps <;> simp_all
  simp only [he, Bool.false_eq_true, if_false]
  by_cases hall : (ps.map fun p => s.collinear (.point p)).all id = true
  · rw [if_pos hall]
    congr 1
    apply List.map_congr_left
    intro p hp
    simp only [List.all_map, List.all_eq_true, Function.comp, id] at hall
    simp [Seg.t, hall p hp]
  · rw [if_neg hall]
    have hl : ps.length ≠ 1 := by
      rcases h1 with h1 | h1
      · exact h1
      · exact absurd (by simpa using h1) hall
    rw [if_neg hl]
    congr 1
    rw [List.zipWith_map, List.zipWith_self]
    apply List.map_congr_left
    intro p _
    unfold Seg.t
    cases s.collinear (.point p) <;> simp

/-- **C26 violated (one-element sequence).** A list with one non-collinear point raises IndexError. -/
theorem C26_single_point_list (s : Seg n K) (p : Vec n K) (h : s.collinear (.point p) = false) :
    s.ts [p] = .error .indexError ∧ s.t p = none := by
  constructor
  · unfold Seg.ts; simp [h]
  · unfold Seg.t; simp [h]

end

/-- **C26 violated.** On the segment (0,1)-(1,1): `t(point(2))` is NaN. -/
theorem C26_nan_on_line : (⟨![0, 1], ![1, 1]⟩ : Seg 2 ℚ).t ((⟨![0, 1], ![1, 1]⟩ : Seg 2 ℚ).point 2) = none := by
  have hp : (⟨![0, 1], ![1, 1]⟩ : Seg 2 ℚ).point 2 = ![2, 1] := by
    funext i; fin_cases i <;> simp [Seg.point, Seg.direction]
  rw [hp]
  unfold Seg.t
  simp [C27_misses.2]

/-! ## C28 -/

section
variable {K : Type} [Field K] [LinearOrder K] [IsStrictOrderedRing K] {n : Nat}

/-- **C28.** Dependent directions are reported parallel; the test is symmetric; True means that the Gram
determinant of the directions is below the tolerance. -/
theorem C28_parallel (s r : Seg n K) {tol : K} (htol : 0 < tol) :
    ((∃ x : K, s.p2 - s.p1 = x • (r.p2 - r.p1) ∨ r.p2 - r.p1 = x • (s.p2 - s.p1)) → s.parallel r tol = true) ∧
    s.parallel r tol = r.parallel s tol ∧
    (s.parallel r tol = true ↔
      (∑ i, (s.p2 i - s.p1 i) ^ 2) * (∑ i, (r.p2 i - r.p1 i) ^ 2) - (∑ i, (s.p2 i - s.p1 i) * (r.p2 i - r.p1 i)) ^ 2 < tol) := by
  have hsym : s.parallel r tol = r.parallel s tol := by
    unfold Seg.parallel
    simp only [vdot_comm r.direction s.direction, mul_comm (vdot s.direction s.direction)]
  have h1 : ∀ (s r : Seg n K) (x : K), s.p2 - s.p1 = x • (r.p2 - r.p1) → s.parallel r tol = true := by
    intro s r x h
    unfold Seg.parallel
    have hd : s.direction = x • r.direction := h
    simp only [hd, gram_of_smul, decide_eq_true_eq]
    exact htol
  refine ⟨?_, hsym, ?_⟩
  · rintro ⟨x, h | h⟩
    · exact h1 s r x h
    · rw [hsym]; exact h1 r s x h
  · unfold Seg.parallel
    simp only [decide_eq_true_eq, vdot_eq, Seg.direction, Pi.sub_apply]
    simp only [sq]

/-- Lagrange's identity, as a lower bound by one minor. -/
theorem gram_ge_minor (u v : Vec n K) (i j : Fin n) (hij : i ≠ j) :
    (u i * v j - u j * v i) ^ 2 ≤ vdot u u * vdot v v - vdot u v * vdot u v := by
  have key : ∀ (u v : Vec n K), 2 * (vdot u u * vdot v v - vdot u v * vdot u v) =
      ∑ i, ∑ j, (u i * v j - u j * v i) ^ 2 := by
    intro u v
    have e : ∀ i j, (u i * v j - u j * v i) ^ 2 =
        (u i * u i) * (v j * v j) + (v i * v i) * (u j * u j) - 2 * ((u i * v i) * (u j * v j)) := by
      intro i j; ring
    simp only [e, Finset.sum_add_distrib, Finset.sum_sub_distrib, ← Finset.mul_sum, ← Finset.sum_mul]
    simp only [vdot_eq]
    ring
  have h2 := key u v
  have h3 : (u i * v j - u j * v i) ^ 2 + (u j * v i - u i * v j) ^ 2 ≤ ∑ i, ∑ j, (u i * v j - u j * v i) ^ 2 := by
    have a1 : (u i * v j - u j * v i) ^ 2 ≤ ∑ k, (u i * v k - u k * v i) ^ 2 :=
      Finset.single_le_sum (f := fun k => (u i * v k - u k * v i) ^ 2) (fun k _ => sq_nonneg _) (Finset.mem_univ j)
    have a2 : (u j * v i - u i * v j) ^ 2 ≤ ∑ k, (u j * v k - u k * v j) ^ 2 :=
      Finset.single_le_sum (f := fun k => (u j * v k - u k * v j) ^ 2) (fun k _ => sq_nonneg _) (Finset.mem_univ i)
    have a3 := Finset.add_le_sum (f := fun l => ∑ k, (u l * v k - u k * v l) ^ 2) (s := Finset.univ)
      (fun l _ => Finset.sum_nonneg fun k _ => sq_nonneg _) (Finset.mem_univ i) (Finset.mem_univ j) hij
    linarith
  have h4 : (u j * v i - u i * v j) ^ 2 = (u i * v j - u j * v i) ^ 2 := by ring
  linarith

/-- **C28 (non-parallel, partial).** When some 2x2 minor of the directions is large enough (its square at
least the tolerance), the segments are reported non-parallel. Missing: small non-parallel segments,
`C28_short_segments`. -/
theorem C28_nonparallel_partial (s r : Seg n K) {tol : K} (i j : Fin n)
    (h : tol ≤ ((s.p2 i - s.p1 i) * (r.p2 j - r.p1 j) - (s.p2 j - s.p1 j) * (r.p2 i - r.p1 i)) ^ 2) (htol : 0 < tol) :
    s.parallel r tol = false := by
  have hij : i ≠ j := by
    rintro rfl
    have : ((s.p2 i - s.p1 i) * (r.p2 i - r.p1 i) - (s.p2 i - s.p1 i) * (r.p2 i - r.p1 i)) ^ 2 = 0 := by ring
    linarith
  have := gram_ge_minor s.direction r.direction i j hij
  unfold Seg.parallel
  simp only [decide_eq_false_iff_not, not_lt]
  have h2 : (s.direction i * r.direction j - s.direction j * r.direction i) ^ 2 =
    ((s.p2 i - s.p1 i) * (r.p2 j - r.p1 j) - (s.p2 j - s.p1 j) * (r.p2 i - r.p1 i)) ^ 2 := rfl
  linarith

end

/-- **C28 violated.** Two perpendicular segments of length 1e-5 are reported parallel. -/
theorem C28_short_segments :
    (⟨![0, 0], ![1 / 100000, 0]⟩ : Seg 2 ℚ).parallel ⟨![0, 0], ![0, 1 / 100000]⟩ F_EPS = true := by
  simp [Seg.parallel, Seg.direction, vdot_eq, Fin.sum_univ_two, F_EPS]
  norm_num

/-! ## C29 -/

section
variable {K : Type} [Field K] [LinearOrder K] [IsStrictOrderedRing K] {n : Nat}

theorem rank_le_two_iff (ps : List (Vec n K)) :
    matrixRank ps ≤ 2 ↔ ∃ g h : Vec n K, ∀ p ∈ ps, ∃ x y : K, p = x • g + y • h := by
  unfold matrixRank
  constructor
  · intro hr
    set V := Submodule.span K {v | v ∈ ps} with hV
    let b := Module.finBasis K V
    have hsum : ∀ p ∈ ps, ∃ f : Fin (Module.finrank K V) → K, p = ∑ i, f i • (b i : Vec n K) := by
      intro p hp
      have hpV : p ∈ V := Submodule.subset_span hp
      refine ⟨fun i => b.repr ⟨p, hpV⟩ i, ?_⟩
      have := congrArg Subtype.val (b.sum_repr ⟨p, hpV⟩)
      simp only [Submodule.coe_sum, Submodule.coe_smul] at this
      exact this.symm
    generalize hbv : (fun i => (b i : Vec n K)) = bv at hsum
    have hbv' : ∀ i, (b i : Vec n K) = bv i := fun i => congrFun hbv i
    simp only [hbv'] at hsum
    clear hbv' hbv b
    revert bv hsum hr
    generalize Module.finrank K V = m
    intro hr bv hsum
    match m, hr, bv, hsum with
    | 0, _, bv, hsum => exact ⟨0, 0, fun p hp => ⟨0, 0, by obtain ⟨f, hf⟩ := hsum p hp; simpa using hf⟩⟩
    | 1, _, bv, hsum =>
      exact ⟨bv 0, 0, fun p hp => by obtain ⟨f, hf⟩ := hsum p hp; exact ⟨f 0, 0, by simpa using hf⟩⟩
    | 2, _, bv, hsum =>
      exact ⟨bv 0, bv 1, fun p hp => by
        obtain ⟨f, hf⟩ := hsum p hp; exact ⟨f 0, f 1, by simpa [Fin.sum_univ_two] using hf⟩⟩
  · rintro ⟨g, h, hp⟩
    have hle : Submodule.span K {v | v ∈ ps} ≤ Submodule.span K (({g, h} : Finset (Vec n K)) : Set (Vec n K)) := by
      rw [Submodule.span_le]
      intro p hpm
      obtain ⟨x, y, hxy⟩ := hp p hpm
      rw [hxy]
      apply Submodule.add_mem
      · exact Submodule.smul_mem _ _ (Submodule.subset_span (by simp))
      · exact Submodule.smul_mem _ _ (Submodule.subset_span (by simp))
    calc _ ≤ _ := Submodule.finrank_mono hle
      _ ≤ ({g, h} : Finset (Vec n K)).card := finrank_span_finset_le_card _
      _ ≤ 2 := Finset.card_le_two

theorem inPlane_of_dim {ps : List (Vec n K)} (h : n < 3) : InPlane ps := by
  match n, h with
  | 0, _ => exact ⟨0, 0, 0, fun p _ => ⟨0, 0, funext fun i => i.elim0⟩⟩
  | 1, _ => exact ⟨0, fun _ => 1, 0, fun p _ => ⟨p 0, 0, by funext i; fin_cases i; simp⟩⟩
  | 2, _ => exact ⟨0, ![1, 0], ![0, 1], fun p _ => ⟨p 0, p 1, by funext i; fin_cases i <;> simp⟩⟩

/-- **C29.** For two or more points of any dimension, and for any points of dimension less than 3, the check succeeds and is True exactly when all
points lie in one plane. -/
theorem C29_coplanar_partial (ps : List (Vec n K)) (hne' : n < 3 ∨ 2 ≤ ps.length) :
    ∃ b, coplanarPoints ps = .ok b ∧ (b = true ↔ InPlane ps) := by
  unfold coplanarPoints
  by_cases hn : n < 3
  · rw [if_pos hn]
    exact ⟨true, rfl, by simp [inPlane_of_dim hn]⟩
  · rw [if_neg hn]
    have hlen : 2 ≤ ps.length := hne'.resolve_left hn
    have hne : ps ≠ [] := by rintro rfl; simp at hlen
    have hl := List.getLast?_eq_some_getLast hne
    rw [hl]
    have hd : ((ps.map fun p => p - ps.getLast hne).dropLast.isEmpty) = false := by
      cases h : (ps.map fun p => p - ps.getLast hne).dropLast with
      | nil =>
        have := congrArg List.length h
        simp at this
        omega
      | cons a l => rfl
    simp only [hd, Bool.false_eq_true, if_false]
    refine ⟨_, rfl, ?_⟩
    rw [decide_eq_true_iff, rank_le_two_iff]
    set l := ps.getLast hne with hldef
    have hsplit : ps = ps.dropLast ++ [l] := (List.dropLast_append_getLast hne).symm
    have hdl : (ps.map fun p => p - l).dropLast = ps.dropLast.map fun p => p - l := List.map_dropLast.symm
    rw [hdl]
    constructor
    · rintro ⟨g, h, hp⟩
      refine ⟨l, g, h, ?_⟩
      intro p hpm
      rw [hsplit, List.mem_append] at hpm
      rcases hpm with hpm | hpm
      · obtain ⟨x, y, hxy⟩ := hp (p - l) (List.mem_map.2 ⟨p, hpm, rfl⟩)
        exact ⟨x, y, by rw [add_assoc, ← hxy]; abel⟩
      · simp at hpm
        exact ⟨0, 0, by simpa using hpm⟩
    · rintro ⟨q, g, h, hp⟩
      obtain ⟨xl, yl, hl'⟩ := hp l (List.getLast_mem hne)
      refine ⟨g, h, ?_⟩
      intro p hpm
      obtain ⟨p', hp', rfl⟩ := List.mem_map.1 hpm
      obtain ⟨x, y, hxy⟩ := hp p' (List.mem_of_mem_dropLast hp')
      refine ⟨x - xl, y - yl, ?_⟩
      rw [hxy, hl', sub_smul, sub_smul]
      abel

/-- the methods `coplanar` of a segment -/
theorem C29_segment (s : Seg n K) (o : PointOrSeg n K) :
    ∃ b, s.coplanar o = .ok b ∧ (b = true ↔ InPlane ([s.p1, s.p2] ++ otherPoints o)) := by
  cases o with
  | point p => exact C29_coplanar_partial [s.p1, s.p2, p] (by simp)
  | seg r => exact C29_coplanar_partial [s.p1, s.p2, r.p1, r.p2] (by simp)

/-- What fails for few points: in dimension 3 and more a single point is a ValueError, no point an IndexError. -/
theorem C29_few_fails (h : 3 ≤ n) (p : Vec n K) : coplanarPoints [p] = .error .valueError ∧ coplanarPoints ([] : List (Vec n K)) = .error .indexError ∧
    InPlane [p] := by
  refine ⟨?_, ?_, ⟨p, 0, 0, fun q hq => ⟨0, 0, by simpa using hq⟩⟩⟩
  · unfold coplanarPoints
    rw [if_neg (by omega)]
    rfl
  · unfold coplanarPoints
    rw [if_neg (by omega)]
    rfl

/-- **C29 (translation).** The outcome does not change under translation. -/
theorem C29_translate (ps : List (Vec n K)) (v : Vec n K) :
    coplanarPoints (ps.map fun p => p + v) = coplanarPoints ps := by
  by_cases hne : ¬ (n < 3 ∨ 2 ≤ ps.length)
  · match ps, hne with
    | [], _ => rfl
    | [p], h =>
      have hn : 3 ≤ n := by omega
      rw [(C29_few_fails hn p).1]
      exact (C29_few_fails hn (p + v)).1
    | _ :: _ :: _, h => exact absurd (.inr (by simp)) h
  · have hne := not_not.1 hne
    obtain ⟨b, h1, h2⟩ := C29_coplanar_partial ps hne
    obtain ⟨b', h1', h2'⟩ := C29_coplanar_partial (ps.map fun p => p + v) (by simpa using hne)
    rw [h1, h1']
    congr 1
    have : InPlane (ps.map fun p => p + v) ↔ InPlane ps := by
      constructor
      · rintro ⟨q, g, h, hp⟩
        refine ⟨q - v, g, h, fun p hpm => ?_⟩
        obtain ⟨x, y, hxy⟩ := hp (p + v) (List.mem_map.2 ⟨p, hpm, rfl⟩)
        exact ⟨x, y, by rw [eq_sub_of_add_eq hxy]; abel⟩
      · rintro ⟨q, g, h, hp⟩
        refine ⟨q + v, g, h, fun p hpm => ?_⟩
        obtain ⟨p', hp', rfl⟩ := List.mem_map.1 hpm
        obtain ⟨x, y, hxy⟩ := hp p' hp'
        exact ⟨x, y, by rw [hxy]; abel⟩
    rw [Bool.eq_iff_iff, h2, h2', this]

end

/-! ## C30 -/

section
variable {n : Nat}

theorem closeK_zero (x : ℝ) : closeK x 0 = true ↔ |x| ≤ 1 / 100000000 := by
  simp [closeK, atol, rtol]

/-- Two segments whose lengths have a product that is not near 0. -/
def Proper (s r : Seg n ℝ) : Prop := 1 / 100000000 < s.seglen * r.seglen

theorem seglen_eq (s : Seg n ℝ) : s.seglen = vnorm s.direction := by
  rw [Seg.seglen, edist_comm, edist_eq_vnorm]; rfl

theorem angle_none_iff (s r : Seg n ℝ) (rd : ℝ → ℝ) : s.angle r rd = none ↔ ¬ Proper s r := by
  unfold Seg.angle Proper
  rw [seglen_eq, seglen_eq]
  have hnn : 0 ≤ vnorm s.direction * vnorm r.direction := mul_nonneg (vnorm_nonneg _) (vnorm_nonneg _)
  by_cases h : closeK (vnorm s.direction * vnorm r.direction) 0 = true
  · simp only [h, if_true, true_iff, not_lt]
    rw [closeK_zero, abs_of_nonneg hnn] at h
    exact h
  · simp only [h, Bool.false_eq_true, if_false, reduceCtorEq, false_iff, not_not]
    rw [closeK_zero, abs_of_nonneg hnn] at h
    linarith

/-- **C30 (range).** The result is NaN exactly for near-singular segments; otherwise it lies in [0, π], however
the cosine was rounded. -/
theorem C30_range (s r : Seg n ℝ) (rd : ℝ → ℝ) :
    (s.angle r rd = none ↔ ¬ Proper s r) ∧ ∀ θ, s.angle r rd = some θ → 0 ≤ θ ∧ θ ≤ Real.pi := by
  refine ⟨angle_none_iff s r rd, ?_⟩
  intro θ h
  unfold Seg.angle at h
  by_cases hc : closeK (vnorm s.direction * vnorm r.direction) 0 = true
  · simp [hc] at h
  · simp only [hc, Bool.false_eq_true, if_false, Option.some.injEq] at h
    rw [← h]
    exact ⟨Real.arccos_nonneg _, Real.arccos_le_pi _⟩

/-- **C30 (meaning).** Without rounding it is the angle of the two directions in euclidean space. -/
theorem C30_geometric (s r : Seg n ℝ) (h : Proper s r) :
    s.angle r id = some (InnerProductGeometry.angle (WithLp.toLp 2 (s.p2 - s.p1) : EuclideanSpace ℝ (Fin n))
      (WithLp.toLp 2 (r.p2 - r.p1))) := by
  have hn : ¬ closeK (vnorm s.direction * vnorm r.direction) 0 = true := by
    intro hc
    have : s.angle r id = none := by unfold Seg.angle; simp [hc]
    exact (angle_none_iff s r id).1 this h
  unfold Seg.angle
  simp only [hn, Bool.false_eq_true, if_false, id, InnerProductGeometry.angle]
  have hin : inner ℝ (WithLp.toLp 2 (s.p2 - s.p1) : EuclideanSpace ℝ (Fin n)) (WithLp.toLp 2 (r.p2 - r.p1)) =
      vdot s.direction r.direction := by
    rw [EuclideanSpace.inner_eq_star_dotProduct]
    simp [vdot, Seg.direction, dotProduct_comm]
  rw [hin, ← vnorm_eq_norm, ← vnorm_eq_norm]
  have hb := abs_real_inner_div_norm_mul_norm_le_one (WithLp.toLp 2 (s.p2 - s.p1) : EuclideanSpace ℝ (Fin n)) (WithLp.toLp 2 (r.p2 - r.p1))
  rw [hin, ← vnorm_eq_norm, ← vnorm_eq_norm, abs_le] at hb
  have hb1 : vdot s.direction r.direction / (vnorm s.direction * vnorm r.direction) ≤ 1 := hb.2
  have hb2 : -1 ≤ vdot s.direction r.direction / (vnorm s.direction * vnorm r.direction) := hb.1
  rw [if_neg (not_lt.2 hb1), if_neg (not_lt.2 hb2)]
  rfl

/-- **C30 (symmetry).** For every rounding. -/
theorem C30_symm (s r : Seg n ℝ) (rd : ℝ → ℝ) : s.angle r rd = r.angle s rd := by
  unfold Seg.angle
  simp only [vdot_comm r.direction s.direction, mul_comm (vnorm r.direction)]

/-- **C30 (self).** The angle of a segment with itself is 0. -/
theorem C30_self (s : Seg n ℝ) (h : Proper s s) : s.angle s id = some 0 := by
  rw [C30_geometric s s h, InnerProductGeometry.angle_self]
  intro h0
  unfold Proper at h
  rw [seglen_eq, vnorm_eq_norm] at h
  have : (WithLp.toLp 2 s.direction : EuclideanSpace ℝ (Fin n)) = 0 := h0
  rw [this] at h
  norm_num at h

theorem direction_reverse (s : Seg n ℝ) : s.reverse.direction = - s.direction := by
  simp [Seg.reverse, Seg.direction]

/-- **C30 (supplement).** Reversing one segment gives the supplement, for every odd rounding of the cosine. -/
theorem C30_reverse (s r : Seg n ℝ) (rd : ℝ → ℝ) (hodd : ∀ x, rd (-x) = - rd x) :
    s.angle r.reverse rd = (s.angle r rd).map fun θ => Real.pi - θ := by
  simp only [Seg.angle, direction_reverse, vnorm_neg, vdot_neg, neg_div, hodd]
  generalize rd (vdot s.direction r.direction / (vnorm s.direction * vnorm r.direction)) = c
  by_cases hc : closeK (vnorm s.direction * vnorm r.direction) 0 = true
  · simp [hc]
  · simp only [hc, Bool.false_eq_true, if_false, Option.map_some, ← Real.arccos_neg]
    congr 2
    split_ifs <;> linarith

/-- **C30 (scaling).** Scaling a direction by a positive factor does not change the angle, as long as neither
pair is near-singular. -/
theorem C30_scale (s s' r : Seg n ℝ) (rd : ℝ → ℝ) (k : ℝ) (hk : 0 < k) (hd : s'.p2 - s'.p1 = k • (s.p2 - s.p1))
    (h : Proper s r) (h' : Proper s' r) : s'.angle r rd = s.angle r rd := by
  have hn : ¬ closeK (vnorm s.direction * vnorm r.direction) 0 = true := by
    intro hc
    exact (angle_none_iff s r rd).1 (by unfold Seg.angle; simp [hc]) h
  have hn' : ¬ closeK (vnorm s'.direction * vnorm r.direction) 0 = true := by
    intro hc
    exact (angle_none_iff s' r rd).1 (by unfold Seg.angle; simp [hc]) h'
  unfold Seg.angle
  simp only [hn, hn', Bool.false_eq_true, if_false]
  have hd' : s'.direction = k • s.direction := hd
  rw [hd', vnorm_smul, smul_vdot, abs_of_pos hk]
  have : k * vdot s.direction r.direction / (k * vnorm s.direction * vnorm r.direction) =
      vdot s.direction r.direction / (vnorm s.direction * vnorm r.direction) := by
    rw [mul_assoc, mul_div_mul_left _ _ hk.ne']
  rw [this]

end

/-! ## The hypotheses are met by concrete objects -/

example : OnLineThroughOrigin [![(1 : ℚ), 2, 3], ![2, 4, 6]] :=
  ⟨![1, 2, 3], by
    intro p hp
    simp only [List.mem_cons, List.not_mem_nil, or_false] at hp
    rcases hp with rfl | rfl
    · exact ⟨1, by simp⟩
    · exact ⟨2, by funext i; fin_cases i <;> simp <;> norm_num⟩⟩

example : Proper (⟨![0, 0], ![3, 4]⟩ : Seg 2 ℝ) ⟨![0, 0], ![1, 0]⟩ := by
  have h1 : (⟨![0, 0], ![3, 4]⟩ : Seg 2 ℝ).seglen = 5 := by
    simp only [Seg.seglen, Model.edist, Fin.sum_univ_two]
    rw [show (((![0, 0] : Fin 2 → ℝ) 0 - (![3, 4] : Fin 2 → ℝ) 0) ^ 2 + ((![0, 0] : Fin 2 → ℝ) 1 - (![3, 4] : Fin 2 → ℝ) 1) ^ 2) = 5 ^ 2 by norm_num]
    exact Real.sqrt_sq (by norm_num)
  have h2 : (⟨![0, 0], ![1, 0]⟩ : Seg 2 ℝ).seglen = 1 := by
    simp only [Seg.seglen, Model.edist, Fin.sum_univ_two]
    norm_num
  unfold Proper
  rw [h1, h2]; norm_num

/-- a segment whose parallel test is false, by `C28_nonparallel_partial` -/
example : (⟨![0, 0], ![3, 4]⟩ : Seg 2 ℚ).parallel ⟨![0, 0], ![1, 0]⟩ F_EPS = false :=
  C28_nonparallel_partial _ _ 0 1 (by simp [F_EPS]; norm_num) (by simp [F_EPS])

/-! ## Concrete cases -/

/-- The line through the origin in the direction (1, 2, 3). -/
theorem exOrigin : OnLineThroughOrigin [![(1 : ℚ), 2, 3], ![2, 4, 6], ![3, 6, 9]] :=
  ⟨![1, 2, 3], by
    intro p hp
    simp only [List.mem_cons, List.not_mem_nil, or_false] at hp
    rcases hp with rfl | rfl | rfl
    · exact ⟨1, by simp⟩
    · exact ⟨2, by funext i; fin_cases i <;> simp <;> norm_num⟩
    · exact ⟨3, by funext i; fin_cases i <;> simp <;> norm_num⟩⟩

theorem exNotClose : ¬ CloseTo (⟨![1, 2, 3], ![2, 4, 6]⟩ : Seg 3 ℚ) (.point ![3, 6, 9]) := by
  rintro (h | h)
  · norm_num [vecEq, closeK, atol, rtol, Fin.forall_fin_succ] at h
  · norm_num [vecEq, closeK, atol, rtol, Fin.forall_fin_succ] at h

example := (C25_affine (⟨![1, 2], ![4, 6]⟩ : Seg 2 ℚ)).2.2.2.1 (1 / 3) (by norm_num) (by norm_num)
example := C27_complete_partial (⟨![1, 2, 3], ![2, 4, 6]⟩ : Seg 3 ℚ) (.point ![3, 6, 9]) exOrigin
example := C27_sound_partial (⟨![1, 2, 3], ![2, 4, 6]⟩ : Seg 3 ℚ) (.point ![3, 6, 9]) exNotClose (C27_complete_partial _ _ exOrigin)
example := C27_exact_behaviour (⟨![1, 2, 3], ![2, 4, 6]⟩ : Seg 3 ℚ) (.point ![3, 6, 9]) exNotClose (by decide)
example := C26_point (⟨![1, 2], ![4, 6]⟩ : Seg 2 ℚ) (by decide) (1 / 3)
example := C26_inverse_partial (⟨![1, 2, 3], ![2, 4, 6]⟩ : Seg 3 ℚ) (by decide) (by obtain ⟨g, h⟩ := exOrigin; exact ⟨g, fun p hp => h p (by simp at hp ⊢; tauto)⟩) (1 / 3)
example := C26_ends (⟨![1, 2], ![4, 6]⟩ : Seg 2 ℚ) (by decide)
theorem exOffLine : ¬ OnLine [![(0 : ℚ), 0], ![1, 0], ![0, 1]] := by
  rintro ⟨q, g, h⟩
  obtain ⟨x, hx⟩ := h _ (List.mem_cons_self)
  obtain ⟨y, hy⟩ := h ![1, 0] (by simp)
  obtain ⟨z, hz⟩ := h ![0, 1] (by simp)
  have x0 := congrFun hx 0; have x1 := congrFun hx 1
  have y0 := congrFun hy 0; have y1 := congrFun hy 1
  have z0 := congrFun hz 0; have z1 := congrFun hz 1
  simp at x0 x1 y0 y1 z0 z1
  have a1 : (y - x) * g 0 = 1 := by linarith
  have a2 : (y - x) * g 1 = 0 := by linarith
  have a3 : (z - x) * g 1 = 1 := by linarith
  rcases mul_eq_zero.1 a2 with e | e
  · rw [e] at a1; simp at a1
  · rw [e] at a3; simp at a3
theorem exOffClose : ¬ CloseTo (⟨![0, 0], ![1, 0]⟩ : Seg 2 ℚ) (.point ![0, 1]) := by
  rintro (h | h)
  · norm_num [vecEq, closeK, atol, rtol, Fin.forall_fin_succ] at h
  · norm_num [vecEq, closeK, atol, rtol, Fin.forall_fin_succ] at h
example := C26_off_line (⟨![0, 0], ![1, 0]⟩ : Seg 2 ℚ) ![0, 1] exOffLine exOffClose
example := C26_sequence_partial (⟨![0, 0], ![1, 0]⟩ : Seg 2 ℚ) [![0, 1], ![3, 0]] (by simp) (.inl (by simp))
theorem exOffCollinear : (⟨![0, 0], ![1, 0]⟩ : Seg 2 ℚ).collinear (.point ![0, 1]) = false := by
  rw [Bool.eq_false_iff]
  exact fun h => exOffLine (C27_sound_partial (⟨![0, 0], ![1, 0]⟩ : Seg 2 ℚ) (.point ![0, 1]) exOffClose h)
example := C26_single_point_list (⟨![0, 0], ![1, 0]⟩ : Seg 2 ℚ) ![0, 1] exOffCollinear
example := (C28_parallel (⟨![0, 0], ![1, 2]⟩ : Seg 2 ℚ) ⟨![5, 0], ![8, 6]⟩ (tol := 1 / 1000) (by norm_num)).1 ⟨1 / 3, .inl (by funext i; fin_cases i <;> norm_num)⟩
theorem exProper : Proper (⟨![0, 0], ![3, 4]⟩ : Seg 2 ℝ) ⟨![0, 0], ![1, 0]⟩ := by
  have h1 : (⟨![0, 0], ![3, 4]⟩ : Seg 2 ℝ).seglen = 5 := by
    simp only [Seg.seglen, Model.edist, Fin.sum_univ_two]
    rw [show (((![0, 0] : Fin 2 → ℝ) 0 - (![3, 4] : Fin 2 → ℝ) 0) ^ 2 + ((![0, 0] : Fin 2 → ℝ) 1 - (![3, 4] : Fin 2 → ℝ) 1) ^ 2) = 5 ^ 2 by norm_num]
    exact Real.sqrt_sq (by norm_num)
  have h2 : (⟨![0, 0], ![1, 0]⟩ : Seg 2 ℝ).seglen = 1 := by
    simp only [Seg.seglen, Model.edist, Fin.sum_univ_two]
    norm_num
  unfold Proper
  rw [h1, h2]; norm_num
theorem exProperSelf : Proper (⟨![0, 0], ![1, 0]⟩ : Seg 2 ℝ) ⟨![0, 0], ![1, 0]⟩ := by
  have h2 : (⟨![0, 0], ![1, 0]⟩ : Seg 2 ℝ).seglen = 1 := by
    simp only [Seg.seglen, Model.edist, Fin.sum_univ_two]
    norm_num
  unfold Proper
  rw [h2]; norm_num
example : ∃ θ, (⟨![0, 0], ![3, 4]⟩ : Seg 2 ℝ).angle ⟨![0, 0], ![1, 0]⟩ id = some θ ∧ 0 ≤ θ ∧ θ ≤ Real.pi :=
  ⟨_, C30_geometric _ _ exProper, (C30_range _ _ id).2 _ (C30_geometric _ _ exProper)⟩
example := C30_symm (⟨![0, 0], ![3, 4]⟩ : Seg 2 ℝ) ⟨![0, 0], ![1, 0]⟩ id
example := C30_self _ exProperSelf
example := C30_reverse (⟨![0, 0], ![3, 4]⟩ : Seg 2 ℝ) ⟨![0, 0], ![1, 0]⟩ id (fun _ => rfl)
example := C30_scale (⟨![0, 0], ![1, 0]⟩ : Seg 2 ℝ) ⟨![2, 2], ![5, 2]⟩ ⟨![0, 0], ![1, 0]⟩ id 3 (by norm_num) (by funext i; fin_cases i <;> norm_num) exProperSelf (by
  have h1 : (⟨![2, 2], ![5, 2]⟩ : Seg 2 ℝ).seglen = 3 := by
    simp only [Seg.seglen, Model.edist, Fin.sum_univ_two]
    rw [show (((![2, 2] : Fin 2 → ℝ) 0 - (![5, 2] : Fin 2 → ℝ) 0) ^ 2 + ((![2, 2] : Fin 2 → ℝ) 1 - (![5, 2] : Fin 2 → ℝ) 1) ^ 2) = 3 ^ 2 by norm_num]
    exact Real.sqrt_sq (by norm_num)
  have h2 : (⟨![0, 0], ![1, 0]⟩ : Seg 2 ℝ).seglen = 1 := by
    simp only [Seg.seglen, Model.edist, Fin.sum_univ_two]
    norm_num
  unfold Proper
  rw [h1, h2]; norm_num)

end Verif.Props
