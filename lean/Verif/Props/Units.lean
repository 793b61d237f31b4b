import Verif.Props.Position
import Verif.Props.Stable

/-!
C154: segments, distances and intersections in another unit of length.
-/
namespace Verif.Spec

open Verif.Model

variable {n : Nat}

/-- All coordinates multiplied by `k`. -/
noncomputable def scaleSeg (k : ℝ) (s : Seg n ℝ) : Seg n ℝ := ⟨k • s.p1, k • s.p2⟩

/-- The same for a point or segment. -/
noncomputable def scaleArg (k : ℝ) : PointOrSeg n ℝ → PointOrSeg n ℝ
  | .point p => .point (k • p)
  | .seg s => .seg (scaleSeg k s)

/-- What an intersection method reports, in the other unit. -/
noncomputable def scaleInfo (k : ℝ) (x : Info n ℝ) : Info n ℝ :=
  ⟨match x.data with
    | .none => .none
    | .point p => .point (k • p)
    | .segment s => .segment (scaleSeg k s)
    | .typeClass => .typeClass
    | .other => .other, x.type⟩

end Verif.Spec

namespace Verif.Props

open Verif Verif.Np Verif.Model Verif.Spec

section
variable {n : Nat}

theorem scaleSeg_direction (k : ℝ) (s : Seg n ℝ) : (scaleSeg k s).direction = k • s.direction := by
  unfold Seg.direction scaleSeg
  rw [smul_sub]

theorem scaleSeg_point (k : ℝ) (s : Seg n ℝ) (t : ℝ) : (scaleSeg k s).point t = k • s.point t := by
  rw [Seg.point_eq, Seg.point_eq, scaleSeg_direction]
  unfold scaleSeg
  module

theorem edist_scale {k : ℝ} (hk : 0 ≤ k) (p q : Vec n ℝ) : Model.edist (k • p) (k • q) = k * Model.edist p q := by
  rw [edist_eq_vnorm, edist_eq_vnorm, ← smul_sub, vnorm_smul, abs_of_nonneg hk]

theorem gram_scale (k : ℝ) (u v : Vec n ℝ) : gram (k • u) (k • v) = k ^ 4 * gram u v := by
  rw [gram_eq, gram_eq]
  simp only [smul_vdot, vdot_smul]
  ring

theorem inPlane_scale {k : ℝ} (hk : k ≠ 0) (s r : Seg n ℝ) :
    Spec.InPlane [(scaleSeg k s).p1, (scaleSeg k s).p2, (scaleSeg k r).p1, (scaleSeg k r).p2] ↔ Spec.InPlane [s.p1, s.p2, r.p1, r.p2] := by
  have one : ∀ (k : ℝ) (ps : List (Vec n ℝ)), Spec.InPlane ps → Spec.InPlane (ps.map (k • ·)) := by
    rintro k ps ⟨q, g, h, H⟩
    refine ⟨k • q, k • g, k • h, fun p hp => ?_⟩
    obtain ⟨p, hp', rfl⟩ := List.mem_map.1 hp
    obtain ⟨x, y, e⟩ := H p hp'
    refine ⟨x, y, ?_⟩
    beta_reduce
    rw [e]
    module
  constructor
  · intro h
    have := one k⁻¹ _ h
    simpa [scaleSeg, smul_smul, inv_mul_cancel₀ hk] using this
  · intro h
    have := one k _ h
    simpa [scaleSeg] using this

theorem matrixRank_scale {k : ℝ} (hk : k ≠ 0) (rows : List (Vec n ℝ)) : matrixRank (rows.map (k • ·)) = matrixRank rows := by
  unfold matrixRank
  have : Submodule.span ℝ {v | v ∈ rows.map (k • ·)} = Submodule.span ℝ {v | v ∈ rows} := by
    apply le_antisymm
    · rw [Submodule.span_le]
      intro v hv
      obtain ⟨p, hp, rfl⟩ := List.mem_map.1 hv
      exact Submodule.smul_mem _ _ (Submodule.subset_span hp)
    · rw [Submodule.span_le]
      intro v hv
      have : v = k⁻¹ • (k • v) := by rw [smul_smul, inv_mul_cancel₀ hk, one_smul]
      rw [this]
      exact Submodule.smul_mem _ _ (Submodule.subset_span (List.mem_map.2 ⟨v, hv, rfl⟩))
  rw [this]

theorem collinearPoints_scale {k : ℝ} (hk : k ≠ 0) (pts : List (Vec n ℝ)) : collinearPoints (pts.map (k • ·)) = collinearPoints pts := by
  have hi : Function.Injective (k • · : Vec n ℝ → Vec n ℝ) := smul_right_injective _ hk
  unfold collinearPoints
  simp only [List.dedup_map_of_injective hi, List.length_map, matrixRank_scale hk]

theorem overlap_scale {k : ℝ} (hk : 0 < k) (s r : Seg n ℝ) : (scaleSeg k s).overlap (scaleSeg k r) false = (s.overlap r false).map (scaleSeg k) := by
  have hm : ∀ a b : ℝ, min (k * a) (k * b) = k * min a b := fun a b => (mul_min_of_nonneg a b hk.le).symm
  have hM : ∀ a b : ℝ, max (k * a) (k * b) = k * max a b := fun a b => (mul_max_of_nonneg a b hk.le).symm
  unfold Seg.overlap
  simp only [Bool.false_and, Bool.false_eq_true, if_false, scaleSeg, Pi.smul_apply, smul_eq_mul, hm, hM, gt_iff_lt, mul_lt_mul_iff_right₀ hk]
  split
  · rfl
  · simp only [Option.map_some, Option.some.injEq]
    congr 1

/-- **C154 (segments).** In another unit of length (all coordinates multiplied by `k > 0`) the length of a segment and the points on it are multiplied by `k`; so is the overlap; coplanarity does not change; the test of parallelism gives the
same answer with the tolerance `k⁴ tol`; the angle does not change if the product of the lengths of the segments exceeds `1e-8` in both units. -/
theorem C154_segments {k : ℝ} (hk : 0 < k) (s r : Seg n ℝ) (tol t : ℝ) (rd : ℝ → ℝ) :
    (scaleSeg k s).seglen = k * s.seglen ∧ (scaleSeg k s).point t = k • s.point t ∧
    (scaleSeg k s).overlap (scaleSeg k r) false = (s.overlap r false).map (scaleSeg k) ∧
    (scaleSeg k s).coplanar (.seg (scaleSeg k r)) = s.coplanar (.seg r) ∧
    (scaleSeg k s).parallel (scaleSeg k r) (k ^ 4 * tol) = s.parallel r tol ∧
    (1 / 10 ^ 8 < s.seglen * r.seglen → 1 / 10 ^ 8 < k ^ 2 * (s.seglen * r.seglen) → (scaleSeg k s).angle (scaleSeg k r) rd = s.angle r rd) := by
  refine ⟨edist_scale hk.le _ _, scaleSeg_point k s t, overlap_scale hk s r, ?_, ?_, ?_⟩
  · obtain ⟨b, hb1, hb2⟩ := C29_segment s (.seg r)
    obtain ⟨b', hb1', hb2'⟩ := C29_segment (scaleSeg k s) (.seg (scaleSeg k r))
    rw [hb1, hb1']
    have := hb2'.trans ((inPlane_scale hk.ne' s r).trans hb2.symm)
    rw [Bool.eq_iff_iff.2 this]
  · rw [Bool.eq_iff_iff, parallel_iff, parallel_iff, scaleSeg_direction, scaleSeg_direction, gram_scale, mul_lt_mul_iff_right₀ (by positivity)]
  · intro h1 h2
    have e1 : vnorm s.direction = s.seglen := by
      unfold Seg.seglen Seg.direction
      rw [edist_eq_vnorm, ← vnorm_neg, neg_sub]
    have e2 : vnorm r.direction = r.seglen := by
      unfold Seg.seglen Seg.direction
      rw [edist_eq_vnorm, ← vnorm_neg, neg_sub]
    have hc : ∀ x : ℝ, 1 / 10 ^ 8 < x → ¬ closeK x 0 = true := by
      intro x hx hcl
      rw [closeK_zero] at hcl
      have := (le_abs_self x).trans hcl
      norm_num at hx
      linarith
    have hn : vnorm (scaleSeg k s).direction * vnorm (scaleSeg k r).direction = k ^ 2 * (s.seglen * r.seglen) := by
      rw [scaleSeg_direction, scaleSeg_direction, vnorm_smul, vnorm_smul, abs_of_pos hk, e1, e2]
      ring
    have hd : vdot (scaleSeg k s).direction (scaleSeg k r).direction = k ^ 2 * vdot s.direction r.direction := by
      rw [scaleSeg_direction, scaleSeg_direction, smul_vdot, vdot_smul]
      ring
    unfold Seg.angle
    simp only [hn, hd, e1, e2, if_neg (hc _ h1), if_neg (hc _ h2)]
    rw [mul_div_mul_left _ _ (by positivity)]

theorem distance_scale_point {k : ℝ} (hk : 0 < k) (s : Seg n ℝ) (p : Vec n ℝ) :
    (scaleSeg k s).distance (.point (k • p)) ≤ k * s.distance (.point p) + pointErr (scaleSeg k s) (k • p) := by
  obtain ⟨b1, b2, -⟩ := C32_distance_partial s p
  obtain ⟨-, -, b3⟩ := C32_distance_partial (scaleSeg k s) (k • p)
  obtain ⟨x, x0, x1, e⟩ := between_point b1
  have d' : s.distance (.point p) = Model.edist (s.point x) p := by
    unfold Seg.distance Seg.seglen
    rw [e, b2]
  have q := sqrt_of_sq (Model.edist_nonneg _ _) (by positivity) (b3 x x0 x1)
  rw [scaleSeg_point, edist_scale hk.le, ← d'] at q
  exact q

theorem scaleSeg_inv {k : ℝ} (hk : k ≠ 0) (s : Seg n ℝ) : scaleSeg k⁻¹ (scaleSeg k s) = s := by
  unfold scaleSeg
  simp only [smul_smul, inv_mul_cancel₀ hk, one_smul]

/-- **C154 (distance of a segment and a point).** In another unit the computed distance is multiplied by `k`, up to the error of the computation (C32) in the two units. -/
theorem C154_point {k : ℝ} (hk : 0 < k) (s : Seg n ℝ) (p : Vec n ℝ) :
    |(scaleSeg k s).distance (.point (k • p)) - k * s.distance (.point p)| ≤ max (pointErr (scaleSeg k s) (k • p)) (k * pointErr s p) := by
  have a := distance_scale_point hk s p
  have b := distance_scale_point (inv_pos.2 hk) (scaleSeg k s) (k • p)
  rw [scaleSeg_inv hk.ne', smul_smul, inv_mul_cancel₀ hk.ne', one_smul] at b
  have b' : k * s.distance (.point p) ≤ (scaleSeg k s).distance (.point (k • p)) + k * pointErr s p := by
    have := mul_le_mul_of_nonneg_left b hk.le
    rwa [mul_add, ← mul_assoc, mul_inv_cancel₀ hk.ne', one_mul] at this
  have m1 := le_max_left (pointErr (scaleSeg k s) (k • p)) (k * pointErr s p)
  have m2 := le_max_right (pointErr (scaleSeg k s) (k • p)) (k * pointErr s p)
  rw [abs_le]
  constructor <;> linarith

theorem distance_scale_seg {k : ℝ} (hk : 0 < k) (s r : Seg n ℝ) : ∃ x y, 0 ≤ x ∧ x ≤ 1 ∧ 0 ≤ y ∧ y ≤ 1 ∧
    Model.edist ((scaleSeg k s).point x) ((scaleSeg k r).point y) = k * s.distance (.seg r) := by
  obtain ⟨b1, b2⟩ := C33_endpoints s r
  obtain ⟨x, x0, x1, e⟩ := between_point b1
  obtain ⟨y, y0, y1, e'⟩ := between_point b2
  refine ⟨x, y, x0, x1, y0, y1, ?_⟩
  rw [scaleSeg_point, scaleSeg_point, edist_scale hk.le]
  unfold Seg.distance Seg.seglen
  rw [e, e']

theorem scaleSeg_ne {k : ℝ} (hk : k ≠ 0) {r : Seg n ℝ} (hr : r.p1 ≠ r.p2) : (scaleSeg k r).p1 ≠ (scaleSeg k r).p2 :=
  fun e => hr (smul_right_injective _ hk e)

/-- **C154 (distance of two segments).** If the second segment is not a single point, the computed distance in another unit is multiplied by `k`, up to the error of the computation (C34) in the two units. -/
theorem C154_distance {k : ℝ} (hk : 0 < k) (s r : Seg n ℝ) (hr : r.p1 ≠ r.p2) :
    |(scaleSeg k s).distance (.seg (scaleSeg k r)) - k * s.distance (.seg r)| ≤
      max (distErr (k • (s.p2 - s.p1)) (k • (r.p2 - r.p1))) (k * distErr (s.p2 - s.p1) (r.p2 - r.p1)) := by
  have one : ∀ {k : ℝ} (_ : 0 < k) (s r : Seg n ℝ), r.p1 ≠ r.p2 → (scaleSeg k s).distance (.seg (scaleSeg k r)) ≤ k * s.distance (.seg r) + distErr (k • (s.p2 - s.p1)) (k • (r.p2 - r.p1)) := by
    intro k hk s r hr
    obtain ⟨x, y, x0, x1, y0, y1, e⟩ := distance_scale_seg hk s r
    have := C34_bound_partial (scaleSeg k s) (scaleSeg k r) (scaleSeg_ne hk.ne' hr) x0 x1 y0 y1
    rw [e] at this
    simpa only [scaleSeg, ← smul_sub] using this
  have a := one hk s r hr
  have b := one (inv_pos.2 hk) (scaleSeg k s) (scaleSeg k r) (scaleSeg_ne hk.ne' hr)
  rw [scaleSeg_inv hk.ne', scaleSeg_inv hk.ne'] at b
  simp only [scaleSeg, ← smul_sub, smul_smul, inv_mul_cancel₀ hk.ne', one_smul] at b
  have b' : k * s.distance (.seg r) ≤ (scaleSeg k s).distance (.seg (scaleSeg k r)) + k * distErr (s.p2 - s.p1) (r.p2 - r.p1) := by
    have := mul_le_mul_of_nonneg_left b hk.le
    rwa [mul_add, ← mul_assoc, mul_inv_cancel₀ hk.ne', one_mul] at this
  have m1 := le_max_left (distErr (k • (s.p2 - s.p1)) (k • (r.p2 - r.p1))) (k * distErr (s.p2 - s.p1) (r.p2 - r.p1))
  have m2 := le_max_right (distErr (k • (s.p2 - s.p1)) (k • (r.p2 - r.p1))) (k * distErr (s.p2 - s.p1) (r.p2 - r.p1))
  rw [abs_le]
  constructor <;> linarith

/-- **C154 (distance on grids).** If all coordinates are multiples of a number of at least `2^-13` (integers or numbers with three decimals, say) in both units, the computed distance is multiplied by `k` exactly. -/
theorem C154_distance_grid {k : ℝ} (hk : 0 < k) (s r : Seg n ℝ) (hr : r.p1 ≠ r.p2) {h h' : ℝ} (hh : 1 / 2 ^ 13 ≤ h) (hh' : 1 / 2 ^ 13 ≤ h')
    (hs : SegOnGrid h s) (hrg : SegOnGrid h r) (hs' : SegOnGrid h' (scaleSeg k s)) (hrg' : SegOnGrid h' (scaleSeg k r)) :
    (scaleSeg k s).distance (.seg (scaleSeg k r)) = k * s.distance (.seg r) := by
  apply le_antisymm
  · obtain ⟨x, y, x0, x1, y0, y1, e⟩ := distance_scale_seg hk s r
    have := C34_exact_partial (scaleSeg k s) (scaleSeg k r) hh' hs' hrg' (scaleSeg_ne hk.ne' hr) x0 x1 y0 y1
    rwa [e] at this
  · obtain ⟨x, y, x0, x1, y0, y1, e⟩ := distance_scale_seg (inv_pos.2 hk) (scaleSeg k s) (scaleSeg k r)
    rw [scaleSeg_inv hk.ne', scaleSeg_inv hk.ne'] at e
    have := C34_exact_partial s r hh hs hrg hr x0 x1 y0 y1
    rw [e] at this
    have := mul_le_mul_of_nonneg_left this hk.le
    rwa [← mul_assoc, mul_inv_cancel₀ hk.ne', one_mul] at this

/-- **C154 (exact intersection, partial).** Two segments which are not equal up to the tolerances in either unit: the exact method reports the intersection in the other unit, provided that the tests against absolute tolerances (segments nearly
parallel, ends of a segment nearly equal) turn out alike in both units. Missing: other segments, for which the claim fails (`C154_exact_fails`). -/
theorem C154_exact_partial {k : ℝ} (hk : 0 < k) (feps : ℝ) (s r : Seg n ℝ) (hd : Distinct s r) (hd' : Distinct (scaleSeg k s) (scaleSeg k r))
    (hg : F_EPS ≤ gram s.direction r.direction ↔ F_EPS ≤ k ^ 4 * gram s.direction r.direction)
    (hs : CloseVec (k • s.p1) (k • s.p2) ↔ CloseVec s.p1 s.p2) (hr : CloseVec (k • r.p1) (k • r.p2) ↔ CloseVec r.p1 r.p2) :
    ∃ x, exactSegments feps s r = .ok x ∧ exactSegments feps (scaleSeg k s) (scaleSeg k r) = .ok (scaleInfo k x) := by
  have hcol : collinearPoints [(scaleSeg k s).p1, (scaleSeg k s).p2, (scaleSeg k r).p1, (scaleSeg k r).p2] = collinearPoints [s.p1, s.p2, r.p1, r.p2] := by
    rw [← collinearPoints_scale hk.ne' [s.p1, s.p2, r.p1, r.p2]]
    rfl
  have hpl := inPlane_scale hk.ne' s r
  have hgr : gram (scaleSeg k s).direction (scaleSeg k r).direction = k ^ 4 * gram s.direction r.direction := by
    rw [scaleSeg_direction, scaleSeg_direction, gram_scale]
  rcases exactSegments_char feps hd with ⟨q, e⟩ | ⟨q, q', e⟩ | ⟨q, ⟨q1, q2, q3, q4⟩, x, y, hxy, e⟩
  · rcases exactSegments_char feps hd' with ⟨p, e'⟩ | ⟨p, -, -⟩ | ⟨p, -, -⟩
    · rw [overlap_scale hk] at e'
      rw [e, e']
      cases s.overlap r false with
      | none => exact ⟨_, rfl, rfl⟩
      | some o => exact ⟨_, rfl, rfl⟩
    · rw [hcol, q] at p; simp at p
    · rw [hcol, q] at p; simp at p
  · rcases exactSegments_char feps hd' with ⟨p, -⟩ | ⟨p, -, e'⟩ | ⟨p, ⟨p1, p2, p3, p4⟩, -⟩
    · rw [hcol, q] at p; simp at p
    · exact ⟨_, e, e'⟩
    · exfalso
      rw [hgr] at p1
      rcases q' with h | h | h | h
      · exact absurd (hg.2 p1) (not_le.2 h)
      · exact h (hpl.1 p2)
      · exact p3 (hs.2 h)
      · exact p4 (hr.2 h)
  · have hxy' : (scaleSeg k s).point x = (scaleSeg k r).point y := by rw [scaleSeg_point, scaleSeg_point, hxy]
    rw [e, exactSegments_eq feps _ _ (by rw [distinct_collinear hd', hcol]; exact q) (by rw [hgr]; exact hg.1 q1) (hpl.2 q2) (s_ns fun h => q3 (hs.1 h)) (s_ns fun h => q4 (hr.1 h)) hxy', scaleSeg_point]
    split
    · exact ⟨_, rfl, rfl⟩
    · exact ⟨_, rfl, rfl⟩


/-! ### Almost intersections -/

/-- All points of the curve multiplied by `k`; the identity of the curve (self-intersection or not) is kept. -/
structure ScaledCurve (k : ℝ) (c c' : GCurve n ℝ) : Prop where
  cid : c'.cid = c.cid
  data : c'.data = c.data.map (k • ·)

theorem ScaledCurve.segment {k : ℝ} {c c' : GCurve n ℝ} (h : ScaledCurve k c c') {i : Nat} (hi : i + 1 < c.data.length) :
    c'.segment i = ⟨scaleSeg k (c.segment i).seg, (c.segment i).origin⟩ := by
  have hr : ∀ j, j < c.data.length → Model.rowAt c'.data j = k • Model.rowAt c.data j := by
    intro j hj
    unfold Model.rowAt
    rw [h.data]
    simp [List.getD_eq_getElem?_getD, hj]
  unfold GCurve.segment scaleSeg
  rw [hr i (by omega), hr (i + 1) hi, h.cid]

/-- All coordinates of the points are multiples of `h`. -/
def CurveOnGrid (h : ℝ) (c : GCurve n ℝ) : Prop := ∀ p ∈ c.data, ∀ i, OnGrid h (p i)

theorem CurveOnGrid.seg {h : ℝ} {c : GCurve n ℝ} (hc : CurveOnGrid h c) {i : Nat} (hi : i + 1 < c.data.length) : SegOnGrid h (c.segment i).seg := by
  have hr : ∀ j, j < c.data.length → Model.rowAt c.data j ∈ c.data := by
    intro j hj
    unfold Model.rowAt
    simp only [List.getD_eq_getElem?_getD, List.getElem?_eq_getElem hj, Option.getD_some]
    exact List.getElem_mem hj
  intro q
  exact ⟨hc _ (hr i (by omega)) q, hc _ (hr (i + 1) hi) q⟩

/-- **C154 (almost intersections).** Two curves whose coordinates are multiples of a number of at least `2^-13` in both units, the second without repeated consecutive points: with the distance tolerance in the other unit the almost method compares
the same pairs of segments and accepts the same ones. -/
theorem C154_almost {k : ℝ} (hk : 0 < k) (d : ℝ) {h h' : ℝ} (hh : 1 / 2 ^ 13 ≤ h) (hh' : 1 / 2 ^ 13 ≤ h') {c1 c2 c1' c2' : GCurve n ℝ} (h1 : ScaledCurve k c1 c1') (h2 : ScaledCurve k c2 c2')
    (hf : (c1.int && c2.int) = false) (hf' : (c1'.int && c2'.int) = false) (g1 : CurveOnGrid h c1) (g2 : CurveOnGrid h c2) (g1' : CurveOnGrid h' c1') (g2' : CurveOnGrid h' c2')
    (hs : ∀ j, j + 1 < c2.data.length → (c2.segment j).seg.p1 ≠ (c2.segment j).seg.p2) (i j : Nat) :
    (i, j) ∈ almostPairs (k * d) c1' c2' ↔ (i, j) ∈ almostPairs d c1 c2 := by
  rw [mem_almostPairs hf', mem_almostPairs hf, h1.cid, h2.cid, h1.data, h2.data, List.length_map, List.length_map]
  refine and_congr_right fun b1 => and_congr_right fun b2 => and_congr_left fun _ => ?_
  have l1 : i + 1 < c1'.data.length := by rw [h1.data, List.length_map]; exact b1
  have l2 : j + 1 < c2'.data.length := by rw [h2.data, List.length_map]; exact b2
  have e1 := g1'.seg l1
  have e2 := g2'.seg l2
  rw [h1.segment b1] at e1
  rw [h2.segment b2] at e2
  rw [h1.segment b1, h2.segment b2, C154_distance_grid hk _ _ (hs j b2) hh hh' (g1.seg b1) (g2.seg b2) e1 e2]
  exact mul_lt_mul_iff_right₀ hk

end

/-! ### Where it fails, and examples -/

theorem unit_scale (k a b c d : ℝ) : scaleSeg k (⟨![a, b], ![c, d]⟩ : Seg 2 ℝ) = ⟨![k * a, k * b], ![k * c, k * d]⟩ := by
  unfold scaleSeg
  congr 1 <;> ext i <;> fin_cases i <;> simp

/-- **C154 (exact method, fails).** The crossing of (-1,0)-(1,0) and (0,-1)-(0,1) is found; with all coordinates divided by 20000 it is not: the segments are perpendicular, but they count as parallel. -/
theorem C154_exact_fails :
    exactSegments (F_EPS : ℝ) (⟨![-1, 0], ![1, 0]⟩ : Seg 2 ℝ) ⟨![0, -1], ![0, 1]⟩ = .ok ⟨.point ![0, 0], .exact⟩ ∧
    exactSegments (F_EPS : ℝ) (scaleSeg (1 / 20000) (⟨![-1, 0], ![1, 0]⟩ : Seg 2 ℝ)) (scaleSeg (1 / 20000) ⟨![0, -1], ![0, 1]⟩) = .ok notIntersected := by
  constructor
  · have hd : Distinct (⟨![-1, 0], ![1, 0]⟩ : Seg 2 ℝ) ⟨![0, -1], ![0, 1]⟩ := by
      refine ⟨?_, ?_, ?_, ?_⟩ <;> rintro ⟨h, -⟩ <;> have h0 := h 0 <;> have h1 := h 1 <;> revert h0 h1 <;> norm_num [abs_le]
    have hg : F_EPS ≤ gram (⟨![-1, 0], ![1, 0]⟩ : Seg 2 ℝ).direction (⟨![0, -1], ![0, 1]⟩ : Seg 2 ℝ).direction := by
      norm_num [gram, Fin.sum_univ_two, Seg.direction, F_EPS]
    rw [exactSegments_eq (F_EPS : ℝ) _ _ (not_collinear _ _ (lt_of_lt_of_le f_eps_pos' hg) hd.1 hd.2.1) hg (x := 1 / 2) (y := 1 / 2)]
    · have : (⟨![-1, 0], ![1, 0]⟩ : Seg 2 ℝ).point (1 / 2) = ![0, 0] := by
        rw [Seg.point_eq]; ext i; fin_cases i <;> norm_num [Seg.direction]
      rw [this, if_pos]
      norm_num [inUnit]
    · refine ⟨0, ![1, 0], ![0, 1], fun p _ => ⟨p 0, p 1, ?_⟩⟩
      ext i; fin_cases i <;> simp
    · exact s_ns fun h => by have h0 := h 0; norm_num [abs_le] at h0
    · exact s_ns fun h => by have h0 := h 1; norm_num [abs_le] at h0
    · rw [Seg.point_eq, Seg.point_eq]; ext i; fin_cases i <;> norm_num [Seg.direction]
  · rw [unit_scale, unit_scale]
    have hd : Distinct (⟨![1 / 20000 * -1, 1 / 20000 * 0], ![1 / 20000 * 1, 1 / 20000 * 0]⟩ : Seg 2 ℝ) ⟨![1 / 20000 * 0, 1 / 20000 * -1], ![1 / 20000 * 0, 1 / 20000 * 1]⟩ := by
      refine ⟨?_, ?_, ?_, ?_⟩ <;> rintro ⟨h, -⟩ <;> have h0 := h 0 <;> have h1 := h 1 <;> revert h0 h1 <;> norm_num [abs_le]
    have hp : (0 : ℝ) < gram (⟨![1 / 20000 * -1, 1 / 20000 * 0], ![1 / 20000 * 1, 1 / 20000 * 0]⟩ : Seg 2 ℝ).direction (⟨![1 / 20000 * 0, 1 / 20000 * -1], ![1 / 20000 * 0, 1 / 20000 * 1]⟩ : Seg 2 ℝ).direction := by
      norm_num [gram, Fin.sum_univ_two, Seg.direction]
    have hg : gram (⟨![1 / 20000 * -1, 1 / 20000 * 0], ![1 / 20000 * 1, 1 / 20000 * 0]⟩ : Seg 2 ℝ).direction (⟨![1 / 20000 * 0, 1 / 20000 * -1], ![1 / 20000 * 0, 1 / 20000 * 1]⟩ : Seg 2 ℝ).direction < F_EPS := by
      norm_num [gram, Fin.sum_univ_two, Seg.direction, F_EPS]
    rcases exactSegments_char F_EPS hd with ⟨q, -⟩ | ⟨-, -, e⟩ | ⟨-, ⟨q, -⟩, -⟩
    · rw [← distinct_collinear hd, not_collinear _ _ hp hd.1 hd.2.1] at q
      simp at q
    · exact e
    · exact absurd q (not_le.2 hg)

/-- **C154 (angle, fails).** The angle of two perpendicular segments of length 1 is a right angle; in a unit 100000 times as large it is NaN. -/
theorem C154_angle_fails :
    (⟨![0, 0], ![1, 0]⟩ : Seg 2 ℝ).angle ⟨![0, 0], ![0, 1]⟩ id = some (Real.pi / 2) ∧
    (scaleSeg (1 / 100000) (⟨![0, 0], ![1, 0]⟩ : Seg 2 ℝ)).angle (scaleSeg (1 / 100000) ⟨![0, 0], ![0, 1]⟩) id = none := by
  have v1 : vnorm (⟨![0, 0], ![1, 0]⟩ : Seg 2 ℝ).direction = 1 := by
    simp [vnorm, Seg.direction, vdot, Fin.sum_univ_two]
  have v2 : vnorm (⟨![0, 0], ![0, 1]⟩ : Seg 2 ℝ).direction = 1 := by
    simp [vnorm, Seg.direction, vdot, Fin.sum_univ_two]
  have v3 : vdot (⟨![0, 0], ![1, 0]⟩ : Seg 2 ℝ).direction (⟨![0, 0], ![0, 1]⟩ : Seg 2 ℝ).direction = 0 := by
    simp [Seg.direction, vdot, Fin.sum_univ_two]
  constructor
  · have hc : ¬ closeK ((1 : ℝ) * 1) 0 = true := by rw [closeK_zero]; norm_num
    unfold Seg.angle
    simp only [v1, v2, v3, if_neg hc]
    norm_num
  · have hc : closeK (vnorm (scaleSeg (1 / 100000) (⟨![0, 0], ![1, 0]⟩ : Seg 2 ℝ)).direction * vnorm (scaleSeg (1 / 100000) (⟨![0, 0], ![0, 1]⟩ : Seg 2 ℝ)).direction) 0 = true := by
      rw [scaleSeg_direction, scaleSeg_direction, vnorm_smul, vnorm_smul, v1, v2, closeK_zero]
      norm_num
    unfold Seg.angle
    simp only [if_pos hc]

/-- The hypotheses of `C154_exact_partial` hold for the diagonals of a square in metres and in millimetres. -/
example : ∃ x, exactSegments (F_EPS : ℝ) (⟨![0, 0], ![2, 2]⟩ : Seg 2 ℝ) ⟨![0, 2], ![2, 0]⟩ = .ok x ∧
    exactSegments (F_EPS : ℝ) (scaleSeg 1000 ⟨![0, 0], ![2, 2]⟩) (scaleSeg 1000 ⟨![0, 2], ![2, 0]⟩) = .ok (scaleInfo 1000 x) := by
  apply C154_exact_partial (by norm_num)
  · refine ⟨?_, ?_, ?_, ?_⟩ <;> rintro ⟨h, -⟩ <;> have h0 := h 0 <;> have h1 := h 1 <;> revert h0 h1 <;> norm_num [abs_le]
  · rw [unit_scale, unit_scale]
    refine ⟨?_, ?_, ?_, ?_⟩ <;> rintro ⟨h, -⟩ <;> have h0 := h 0 <;> have h1 := h 1 <;> revert h0 h1 <;> norm_num [abs_le]
  · norm_num [gram, Fin.sum_univ_two, Seg.direction, F_EPS]
  · constructor <;> intro h <;> have h0 := h 0 <;> revert h0 <;> norm_num [abs_le]
  · constructor <;> intro h <;> have h0 := h 0 <;> revert h0 <;> norm_num [abs_le]

/-- The hypotheses of `C154_distance_grid` hold for two integer segments in centimetres and in millimetres. -/
example : (scaleSeg 10 (⟨![0, 0], ![2, 2]⟩ : Seg 2 ℝ)).distance (.seg (scaleSeg 10 ⟨![3, 0], ![5, -1]⟩)) = 10 * (⟨![0, 0], ![2, 2]⟩ : Seg 2 ℝ).distance (.seg ⟨![3, 0], ![5, -1]⟩) := by
  have g : ∀ z : ℤ, OnGrid 1 (z : ℝ) := fun z => ⟨z, by simp⟩
  apply C154_distance_grid (h := 1) (h' := 1) (by norm_num)
  · intro h; have := congrFun h 0; norm_num at this
  · norm_num
  · norm_num
  · intro i; fin_cases i
    · exact ⟨by simpa using g 0, by simpa using g 2⟩
    · exact ⟨by simpa using g 0, by simpa using g 2⟩
  · intro i; fin_cases i
    · exact ⟨by simpa using g 3, by simpa using g 5⟩
    · exact ⟨by simpa using g 0, by simpa using g (-1)⟩
  · rw [unit_scale]; intro i; fin_cases i
    · exact ⟨by simpa using g 0, ⟨20, by norm_num⟩⟩
    · exact ⟨by simpa using g 0, ⟨20, by norm_num⟩⟩
  · rw [unit_scale]; intro i; fin_cases i
    · exact ⟨⟨30, by norm_num⟩, ⟨50, by norm_num⟩⟩
    · exact ⟨by simpa using g 0, ⟨-10, by norm_num⟩⟩

/-- The hypotheses of `C154_almost` hold for two integer curves of which the coordinates are doubled. -/
example (d : ℝ) (i j : Nat) : (i, j) ∈ almostPairs (2 * d) (⟨0, false, [![0, 0], ![2, 2]]⟩ : GCurve 2 ℝ) ⟨1, false, [![6, 0], ![10, -2]]⟩ ↔
    (i, j) ∈ almostPairs d (⟨0, false, [![0, 0], ![1, 1]]⟩ : GCurve 2 ℝ) ⟨1, false, [![3, 0], ![5, -1]]⟩ := by
  have a1 : ScaledCurve 2 (⟨0, false, [![0, 0], ![1, 1]]⟩ : GCurve 2 ℝ) ⟨0, false, [![0, 0], ![2, 2]]⟩ := ⟨rfl, by simp⟩
  have a2 : ScaledCurve 2 (⟨1, false, [![3, 0], ![5, -1]]⟩ : GCurve 2 ℝ) ⟨1, false, [![6, 0], ![10, -2]]⟩ := ⟨rfl, by simp; norm_num⟩
  refine C154_almost (h := 1) (h' := 1) (by norm_num) d (by norm_num) (by norm_num) a1 a2 rfl rfl ?_ ?_ ?_ ?_ ?_ i j
  · intro p hp q
    simp only [List.mem_cons, List.not_mem_nil, or_false] at hp
    rcases hp with rfl | rfl <;> fin_cases q
    exacts [⟨0, by simp⟩, ⟨0, by simp⟩, ⟨1, by simp⟩, ⟨1, by simp⟩]
  · intro p hp q
    simp only [List.mem_cons, List.not_mem_nil, or_false] at hp
    rcases hp with rfl | rfl <;> fin_cases q
    exacts [⟨3, by simp⟩, ⟨0, by simp⟩, ⟨5, by simp⟩, ⟨-1, by simp⟩]
  · intro p hp q
    simp only [List.mem_cons, List.not_mem_nil, or_false] at hp
    rcases hp with rfl | rfl <;> fin_cases q
    exacts [⟨0, by simp⟩, ⟨0, by simp⟩, ⟨2, by simp⟩, ⟨2, by simp⟩]
  · intro p hp q
    simp only [List.mem_cons, List.not_mem_nil, or_false] at hp
    rcases hp with rfl | rfl <;> fin_cases q
    exacts [⟨6, by simp⟩, ⟨0, by simp⟩, ⟨10, by simp⟩, ⟨-2, by simp⟩]
  · intro j hj h
    have : j = 0 := by simp at hj; omega
    subst this
    have := congrFun h 0
    norm_num [GCurve.segment, Model.rowAt] at this

/-! ## Concrete cases -/

example := C154_segments (k := 1000) (by norm_num) (⟨![0, 0], ![2, 2]⟩ : Seg 2 ℝ) ⟨![0, 2], ![2, 0]⟩ F_EPS (1 / 3) id
example := C154_point (k := 1000) (by norm_num) (⟨![0, 0], ![2, 2]⟩ : Seg 2 ℝ) ![5, 6]
example := C154_distance (k := 1000) (by norm_num) (⟨![0, 0], ![2, 2]⟩ : Seg 2 ℝ) ⟨![0, 2], ![2, 0]⟩ (fun h => by have := congrFun h 0; simp at this)

end Verif.Props
