import Verif.Spec.Position
import Verif.Props.Almost
import Verif.Props.Segment
import Verif.Props.IntersectMore

/-!
Geometry of segments and the almost intersection do not depend on the position: C98.
-/
namespace Verif.Props

open Verif Verif.Np Verif.Model Verif.Spec

section
variable {n n' : Nat} (L : EuclideanSpace ℝ (Fin n) →ₗᵢ[ℝ] EuclideanSpace ℝ (Fin n')) (w : EuclideanSpace ℝ (Fin n'))

/-- The linear part on coordinate vectors. -/
noncomputable def linPart : Vec n ℝ →ₗ[ℝ] Vec n' ℝ where
  toFun u := WithLp.ofLp (L (WithLp.toLp 2 u))
  map_add' u v := by rw [WithLp.toLp_add, map_add]; rfl
  map_smul' a u := by rw [WithLp.toLp_smul, map_smul]; rfl

theorem movePt_sub (p q : Vec n ℝ) : movePt L w p - movePt L w q = linPart L (p - q) := by
  rw [map_sub]
  funext i
  simp [movePt, linPart]

theorem movePt_add (p u : Vec n ℝ) : movePt L w (p + u) = movePt L w p + linPart L u := by
  funext i
  simp [movePt, linPart]
  ring

theorem vdot_inner (u v : Vec n ℝ) : vdot u v = inner ℝ (WithLp.toLp 2 u : EuclideanSpace ℝ (Fin n)) (WithLp.toLp 2 v) := by
  rw [PiLp.inner_apply, vdot_comm, vdot_eq]
  simp

theorem linPart_dot (u v : Vec n ℝ) : vdot (linPart L u) (linPart L v) = vdot u v := by
  rw [vdot_inner, vdot_inner]
  exact L.inner_map_map _ _

theorem linPart_inj : Function.Injective (linPart L) := by
  intro u v h
  have h0 : vdot (linPart L (u - v)) (linPart L (u - v)) = 0 := by rw [map_sub, h, sub_self, zero_vdot]
  rw [linPart_dot, vdot_self_eq_zero] at h0
  exact sub_eq_zero.1 h0

theorem moveSeg_direction (s : Seg n ℝ) : (moveSeg L w s).direction = linPart L s.direction := movePt_sub L w s.p2 s.p1

theorem moveSeg_point (s : Seg n ℝ) (t : ℝ) : (moveSeg L w s).point t = movePt L w (s.point t) := by
  rw [Seg.point_eq, Seg.point_eq, movePt_add, map_smul, moveSeg_direction]
  rfl

theorem edist_move (p q : Vec n ℝ) : Model.edist (movePt L w p) (movePt L w q) = Model.edist p q := by
  rw [edist_eq, edist_eq, movePt_sub, linPart_dot]

theorem moveSeg_seglen (s : Seg n ℝ) : (moveSeg L w s).seglen = s.seglen := edist_move L w _ _

theorem segToPoint_move (s : Seg n ℝ) (p : Vec n ℝ) : segToPoint (moveSeg L w s) (movePt L w p) = segToPoint s p := by
  unfold segToPoint
  rw [moveSeg_direction, show (moveSeg L w s).p1 = movePt L w s.p1 from rfl, movePt_sub]
  simp only [linPart_dot]

theorem segToSeg_move (s r : Seg n ℝ) (tol : ℝ) : segToSeg (moveSeg L w s) (moveSeg L w r) tol = segToSeg s r tol := by
  unfold segToSeg
  simp only
  rw [moveSeg_direction, moveSeg_direction, show (moveSeg L w s).p1 = movePt L w s.p1 from rfl,
    show (moveSeg L w r).p1 = movePt L w r.p1 from rfl, movePt_sub]
  simp only [linPart_dot]

theorem shortest_move (s : Seg n ℝ) (o : PointOrSeg n ℝ) : (moveSeg L w s).shortest (moveArg L w o) = moveSeg L w (s.shortest o) := by
  cases o with
  | point p =>
    show (⟨(moveSeg L w s).point (segToPoint (moveSeg L w s) (movePt L w p)), movePt L w p⟩ : Seg n' ℝ) = _
    rw [segToPoint_move, moveSeg_point]; rfl
  | seg r =>
    show (⟨(moveSeg L w s).point (segToSeg (moveSeg L w s) (moveSeg L w r) F_EPS).1,
      (moveSeg L w r).point (segToSeg (moveSeg L w s) (moveSeg L w r) F_EPS).2⟩ : Seg n' ℝ) = _
    rw [segToSeg_move, moveSeg_point, moveSeg_point]; rfl

/-- **C98 (segments).** Length, angle, parallelism, distance and shortest connection of segments (and points): an isometry,
also into a space of higher dimension, changes no number and moves the shortest connecting segment along. -/
theorem C98_segments (s r : Seg n ℝ) (o : PointOrSeg n ℝ) (tol : ℝ) (rd : ℝ → ℝ) (t : ℝ) :
    (moveSeg L w s).seglen = s.seglen ∧ (moveSeg L w s).point t = movePt L w (s.point t) ∧
    (moveSeg L w s).angle (moveSeg L w r) rd = s.angle r rd ∧ (moveSeg L w s).parallel (moveSeg L w r) tol = s.parallel r tol ∧
    (moveSeg L w s).distance (moveArg L w o) = s.distance o ∧
    (moveSeg L w s).shortest (moveArg L w o) = moveSeg L w (s.shortest o) := by
  refine ⟨moveSeg_seglen L w s, moveSeg_point L w s t, ?_, ?_, ?_, shortest_move L w s o⟩
  · unfold Seg.angle vnorm
    simp only [moveSeg_direction, linPart_dot]
  · unfold Seg.parallel
    simp only [moveSeg_direction, linPart_dot]
  · unfold Seg.distance
    rw [shortest_move, moveSeg_seglen]

theorem matrixRank_lin (pts : List (Vec n ℝ)) : matrixRank (pts.map (linPart L)) = matrixRank pts := by
  unfold matrixRank
  have h : {v | v ∈ pts.map (linPart L)} = (linPart L) '' {v | v ∈ pts} := by ext v; simp
  rw [h, Submodule.span_image]
  exact (Submodule.equivMapOfInjective (linPart L) (linPart_inj L) _).finrank_eq.symm

theorem matrixRank_le_dim (pts : List (Vec n ℝ)) : matrixRank pts ≤ n := by
  unfold matrixRank
  have := Submodule.finrank_le (Submodule.span ℝ {v | v ∈ pts})
  simpa using this

include L in
theorem dim_le_of_isometry : n ≤ n' := by
  have := LinearMap.finrank_le_finrank_of_injective (linPart_inj L)
  simpa using this

theorem coplanarPoints_move (pts : List (Vec n ℝ)) (h2 : 2 ≤ pts.length) :
    coplanarPoints (pts.map (movePt L w)) = coplanarPoints pts := by
  have hd := dim_le_of_isometry L
  have h : pts ≠ [] := by rintro rfl; simp at h2
  have he : ∀ (m : Nat) (g : Vec n ℝ → Vec m ℝ), ((pts.map g).dropLast.isEmpty) = false := by
    intro m g
    cases hh : (pts.map g).dropLast with
    | nil =>
      have := congrArg List.length hh
      simp at this
      omega
    | cons a l => rfl
  unfold coplanarPoints
  rw [List.getLast?_map]
  obtain ⟨l, hl⟩ : ∃ l, pts.getLast? = some l := ⟨_, List.getLast?_eq_some_getLast h⟩
  rw [hl]
  simp only [Option.map_some, List.map_map, he, Bool.false_eq_true, if_false]
  have e : List.map ((fun p => p - movePt L w l) ∘ movePt L w) pts = (pts.map fun p => p - l).map (linPart L) := by
    rw [List.map_map]
    apply List.map_congr_left
    intro p _
    exact movePt_sub L w p l
  rw [e, ← List.map_dropLast, matrixRank_lin]
  by_cases h3 : n' < 3
  · rw [if_pos h3, if_pos (by omega)]
  · rw [if_neg h3]
    split
    · have := matrixRank_le_dim (pts.map fun p => p - l).dropLast
      rw [decide_eq_true (by omega)]
    · rfl

/-- **C98 (coplanarity).** -/
theorem C98_coplanar (s : Seg n ℝ) (o : PointOrSeg n ℝ) : (moveSeg L w s).coplanar (moveArg L w o) = s.coplanar o := by
  cases o with
  | point p => exact coplanarPoints_move L w [s.p1, s.p2, p] (by simp)
  | seg r => exact coplanarPoints_move L w [s.p1, s.p2, r.p1, r.p2] (by simp)

/-! ### The almost method -/

theorem nonzero_congr {m1 m2 : Nat} {a b : Mat Bool} (h : ∀ i j, i < m1 → j < m2 → a i j = b i j) : nonzero m1 m2 a = nonzero m1 m2 b := by
  unfold nonzero
  apply List.flatMap_congr
  intro i hi
  rw [List.mem_range] at hi
  congr 1
  apply List.filter_congr
  intro j hj
  rw [List.mem_range] at hj
  exact h i j hi hj

theorem curvesIndices_congr {m1 m2 : Nat} {a b : Mat Bool} {self : Bool} (h : ∀ i j, i < m1 → j < m2 → a i j = b i j) :
    curvesIndices m1 m2 a self = curvesIndices m1 m2 b self := by
  unfold curvesIndices
  cases self
  · simp only [Bool.false_eq_true, if_false]
    exact nonzero_congr h
  · simp only [if_true]
    rw [nonzero_congr (a := fun i j => if j ≤ i then false else a i j) (b := fun i j => if j ≤ i then false else b i j)]
    intro i j hi hj
    rw [h i j hi hj]

/-- Removing redundant intersections, for objects with the same lengths and distances. -/
theorem removeExtra_map {α β : Type} (g : α → β) (pt : α → Vec n ℝ) (pt' : β → Vec n' ℝ) (len : α → ℝ) (len' : β → ℝ) (tol : ℝ)
    (comps : Nat → (Nat → Nat → Bool) → List (List Nat)) (xs : List α) (hl : ∀ x ∈ xs, len' (g x) = len x)
    (hd : ∀ x ∈ xs, ∀ y ∈ xs, Model.edist (pt' (g x)) (pt' (g y)) = Model.edist (pt x) (pt y)) :
    removeExtra pt' len' tol comps (xs.map g) = (removeExtra pt len tol comps xs).map g := by
  have he : extraEdge pt' tol (xs.map g) = extraEdge pt tol xs := by
    funext i j
    unfold extraEdge
    rw [List.getElem?_map, List.getElem?_map]
    cases hi : xs[i]? with
    | none => simp
    | some x =>
      cases hj : xs[j]? with
      | none => simp
      | some y =>
        simp only [Option.map_some]
        rw [hd x (List.mem_of_getElem? hi) y (List.mem_of_getElem? hj)]
  have hr : ∀ cs, removedIndices len' (xs.map g) cs = removedIndices len xs cs := by
    intro cs
    unfold removedIndices
    apply List.flatMap_congr
    intro blob _
    congr 2
    funext i j
    have hk : ∀ i : Nat, (match (xs.map g)[i]? with
        | some x => len' x
        | none => 0) = match xs[i]? with
        | some x => len x
        | none => 0 := by
      intro i
      rw [List.getElem?_map]
      cases hi : xs[i]? with
      | none => simp
      | some x => simp only [Option.map_some]; exact hl x (List.mem_of_getElem? hi)
    exact decide_eq_decide.2 (iff_of_eq (congrArg₂ (· ≤ ·) (hk i) (hk j)))
  unfold removeExtra
  simp only
  rw [he, hr, List.length_map, List.zipIdx_map, List.filterMap_map, List.map_filterMap]
  apply List.filterMap_congr
  intro x _
  simp only [Function.comp, Prod.map]
  split <;> simp_all

/-- `c'` is the curve `c` moved; both have the same identity. -/
structure MovedCurve (c : GCurve n ℝ) (c' : GCurve n' ℝ) : Prop where
  cid : c'.cid = c.cid
  data : c'.data = c.data.map (movePt L w)

variable {L w}

theorem MovedCurve.segment {c : GCurve n ℝ} {c' : GCurve n' ℝ} (h : MovedCurve L w c c') {i : Nat} (hi : i + 1 < c.data.length) :
    c'.segment i = ⟨moveSeg L w (c.segment i).seg, (c.segment i).origin⟩ := by
  have hr : ∀ j, j < c.data.length → rowAt c'.data j = movePt L w (rowAt c.data j) := by
    intro j hj
    unfold rowAt
    rw [h.data]
    simp [List.getD_eq_getElem?_getD, hj]
  unfold GCurve.segment moveSeg
  rw [hr i (by omega), hr (i + 1) hi, h.cid]

/-- **C98 (almost intersection of segments).** Without `correct_overlap`. -/
theorem C98_almost_segments (distTol parTol : ℝ) (s r : SegObj n ℝ) :
    ∃ x, almostSegments distTol false parTol s r = .ok x ∧
      almostSegments distTol false parTol (⟨moveSeg L w s.seg, s.origin⟩ : SegObj n' ℝ) ⟨moveSeg L w r.seg, r.origin⟩ =
        .ok (moveInfo L w x) := by
  have h1 : (moveSeg L w s.seg).shortest (.seg (moveSeg L w r.seg)) = moveSeg L w (s.seg.shortest (.seg r.seg)) :=
    shortest_move L w s.seg (.seg r.seg)
  unfold almostSegments
  simp only [h1, moveSeg_seglen]
  by_cases hd : (s.seg.shortest (.seg r.seg)).seglen < distTol
  · simp only [if_pos hd, call_almost, bind, Except.bind]
    exact ⟨_, rfl, rfl⟩
  · simp only [if_neg hd]
    exact ⟨_, rfl, rfl⟩

theorem almostPairs_move (d : ℝ) {c1 c2 : GCurve n ℝ} {c1' c2' : GCurve n' ℝ} (h1 : MovedCurve L w c1 c1') (h2 : MovedCurve L w c2 c2')
    (hf : (c1.int && c2.int) = false) (hf' : (c1'.int && c2'.int) = false) :
    almostPairs d c1' c2' = almostPairs d c1 c2 := by
  have l1 : c1'.data.length = c1.data.length := by rw [h1.data, List.length_map]
  have l2 : c2'.data.length = c2.data.length := by rw [h2.data, List.length_map]
  have m1 : (almostS2S c1' c2').m1 = (almostS2S c1 c2).m1 := by show c1'.data.length - 1 = c1.data.length - 1; rw [l1]
  have m2 : (almostS2S c1' c2').m2 = (almostS2S c1 c2).m2 := by show c2'.data.length - 1 = c2.data.length - 1; rw [l2]
  unfold almostPairs
  simp only
  rw [m1, m2, h1.cid, h2.cid]
  apply curvesIndices_congr
  intro i j hi hj
  have hi' : i < c1.data.length - 1 := hi
  have hj' : j < c2.data.length - 1 := hj
  have e := float_s2s hf i j (by omega) (by omega)
  have e' := float_s2s hf' i j (by omega) (by omega)
  rw [h1.segment (by omega), h2.segment (by omega)] at e'
  have e'' := e'.trans (shortest_move L w (c1.segment i).seg (.seg (c2.segment j).seg))
  rw [← e] at e''
  have hlen := congrArg Seg.seglen e''
  rw [moveSeg_seglen] at hlen
  unfold Seg.seglen Model.edist at hlen
  simp only at hlen
  exact decide_eq_decide.2 (by rw [hlen])

/-- **C98 (almost intersection of curves).** Without `correct_overlap`, for data that is not integer in both curves: moving both
curves moves every intersection and changes nothing else, also with `remove_extra`. -/
theorem C98_almost_curves (p : AlmostParams) (hco : p.correctOverlap = false) (comps : Nat → (Nat → Nat → Bool) → List (List Nat))
    {c1 c2 : GCurve n ℝ} {c1' c2' : GCurve n' ℝ} (h1 : MovedCurve L w c1 c1') (h2 : MovedCurve L w c2 c2')
    (hf : (c1.int && c2.int) = false) (hf' : (c1'.int && c2'.int) = false) :
    ∃ xs, almostCurves p comps c1 c2 = .ok xs ∧ almostCurves p comps c1' c2' = .ok (xs.map (moveInt L w)) := by
  obtain ⟨ys, hys⟩ : ∃ ys : List (SegInt n ℝ), ys = (almostPairs p.distTol c1 c2).map fun q =>
      ⟨c1.segment q.1, c2.segment q.2, ⟨.segment ⟨(almostS2S c1 c2).p1 q.1 q.2, (almostS2S c1 c2).p2 q.1 q.2⟩, .almost⟩⟩ := ⟨_, rfl⟩
  have hl : almostList p.distTol c1 c2 = .ok ys := by rw [almostList_eq, hys]
  have hl' : almostList p.distTol c1' c2' = .ok (ys.map (moveInt L w)) := by
    rw [almostList_eq, almostPairs_move p.distTol h1 h2 hf hf', hys, List.map_map]
    congr 1
    apply List.map_congr_left
    intro q hq
    obtain ⟨i, j⟩ := q
    obtain ⟨g1, g2, -⟩ := (mem_almostPairs hf i j).1 hq
    have l1 : c1'.data.length = c1.data.length := by rw [h1.data, List.length_map]
    have l2 : c2'.data.length = c2.data.length := by rw [h2.data, List.length_map]
    have e := float_s2s hf i j g1 g2
    have e' := float_s2s hf' i j (by omega) (by omega)
    rw [h1.segment g1, h2.segment g2] at e'
    have e'' := e'.trans (shortest_move L w (c1.segment i).seg (.seg (c2.segment j).seg))
    rw [← e] at e''
    show (⟨c1'.segment i, c2'.segment j, ⟨.segment ⟨(almostS2S c1' c2').p1 i j, (almostS2S c1' c2').p2 i j⟩, .almost⟩⟩ : SegInt n' ℝ) = _
    rw [e'', h1.segment g1, h2.segment g2]
    rfl
  have hseg : ∀ y ∈ ys, ∃ q, y.info = ⟨.segment q, .almost⟩ := by
    intro y hy
    rw [hys, List.mem_map] at hy
    obtain ⟨q, _, rfl⟩ := hy
    exact ⟨_, rfl⟩
  have hlen : ∀ y ∈ ys, lenOf (moveInt L w y) = lenOf y := by
    intro y hy
    obtain ⟨q, hq⟩ := hseg y hy
    obtain ⟨s1, s2, info⟩ := y
    simp only at hq
    subst hq
    simp [lenOf, SegInt.segment, SegInt.bool, moveInt, moveInfo, moveSeg_seglen]
  have hpt : ∀ y ∈ ys, pointOf (moveInt L w y) = movePt L w (pointOf y) := by
    intro y hy
    obtain ⟨q, hq⟩ := hseg y hy
    obtain ⟨s1, s2, info⟩ := y
    simp only at hq
    subst hq
    simp [pointOf, SegInt.point, SegInt.bool, moveInt, moveInfo, moveSeg_point]
  unfold almostCurves
  simp only [hl, hl', bind, Except.bind, hco, List.isEmpty_map]
  cases hemp : ys.isEmpty with
  | true => exact ⟨[], rfl, rfl⟩
  | false =>
    simp only [Bool.false_eq_true, if_false]
    cases p.removeExtra with
    | false => exact ⟨ys, rfl, rfl⟩
    | true =>
      simp only [if_true]
      refine ⟨_, rfl, ?_⟩
      rw [removeExtra_map (moveInt L w) pointOf pointOf lenOf lenOf p.extraTol comps ys hlen]
      intro x hx y hy
      rw [hpt x hx, hpt y hy, edist_move]

/-! ### The exact method -/

theorem gram_move (s r : Seg n ℝ) : gram (moveSeg L w s).direction (moveSeg L w r).direction = gram s.direction r.direction := by
  rw [gram_eq, gram_eq, moveSeg_direction, moveSeg_direction]
  simp only [linPart_dot]

theorem inPlane_move (s r : Seg n ℝ) :
    InPlane [(moveSeg L w s).p1, (moveSeg L w s).p2, (moveSeg L w r).p1, (moveSeg L w r).p2] ↔ InPlane [s.p1, s.p2, r.p1, r.p2] := by
  obtain ⟨b, hb1, hb2⟩ := C29_segment s (.seg r)
  obtain ⟨b', hb1', hb2'⟩ := C29_segment (moveSeg L w s) (.seg (moveSeg L w r))
  have h := C98_coplanar L w s (.seg r)
  have h' : (moveSeg L w s).coplanar (.seg (moveSeg L w r)) = s.coplanar (.seg r) := h
  rw [hb1, hb1', Except.ok.injEq] at h'
  subst h'
  exact hb2'.symm.trans hb2

/-- **C98 (exact intersection, partial).** Two segments that are not nearly parallel: the exact method finds the moved point
exactly when it found the point, provided that, before and after, neither segment is degenerate up to the tolerances and
neither equals the other up to the tolerances. Missing: these, and nearly parallel segments (`C98_exact_fails`). -/
theorem C98_exact_partial (feps : ℝ) (s r : Seg n ℝ) (hg : F_EPS ≤ gram s.direction r.direction)
    (hd : Distinct s r) (hd' : Distinct (moveSeg L w s) (moveSeg L w r))
    (hs : ¬ CloseVec s.p1 s.p2) (hr : ¬ CloseVec r.p1 r.p2)
    (hs' : ¬ CloseVec (moveSeg L w s).p1 (moveSeg L w s).p2) (hr' : ¬ CloseVec (moveSeg L w r).p1 (moveSeg L w r).p2) :
    ∃ x, exactSegments feps s r = .ok x ∧ exactSegments feps (moveSeg L w s) (moveSeg L w r) = .ok (moveInfo L w x) := by
  have hg' : F_EPS ≤ gram (moveSeg L w s).direction (moveSeg L w r).direction := by rw [gram_move]; exact hg
  have hn : ∀ {m : Nat} {a b : Seg m ℝ}, F_EPS ≤ gram a.direction b.direction → Distinct a b →
      a.collinear (.seg b) = false := fun {m a b} h1 h2 =>
    not_collinear a b (lt_of_lt_of_le f_eps_pos' h1) h2.1 h2.2.1
  by_cases hp : InPlane [s.p1, s.p2, r.p1, r.p2]
  · have hp' := (inPlane_move (L := L) (w := w) s r).2 hp
    obtain ⟨x, y, hxy⟩ := plane_solve s r hp (lt_of_lt_of_le f_eps_pos' hg).ne'
    have hm : s.point x = r.point y := by
      rw [Seg.point_eq, Seg.point_eq]
      rw [sub_eq_sub_iff_add_eq_add] at hxy
      rw [add_comm s.p1, ← hxy]
    have hm' : (moveSeg L w s).point x = (moveSeg L w r).point y := by rw [moveSeg_point, moveSeg_point, hm]
    rw [exactSegments_eq feps s r (hn hg hd) hg hp (s_ns hs) (s_ns hr) hm,
      exactSegments_eq feps _ _ (hn hg' hd') hg' hp' (s_ns hs') (s_ns hr') hm', moveSeg_point]
    split
    · exact ⟨_, rfl, rfl⟩
    · exact ⟨_, rfl, rfl⟩
  · have hp' := fun q => hp ((inPlane_move (L := L) (w := w) s r).1 q)
    rcases exactSegments_char feps hd with ⟨q, _⟩ | ⟨_, _, e⟩ | ⟨_, q, _⟩
    · rw [← distinct_collinear hd, hn hg hd] at q; simp at q
    · rcases exactSegments_char feps hd' with ⟨q, _⟩ | ⟨_, _, e'⟩ | ⟨_, q, _⟩
      · rw [← distinct_collinear hd', hn hg' hd'] at q; simp at q
      · exact ⟨_, e, e'⟩
      · exact absurd q.2.1 hp'
    · exact absurd q.2.1 hp

end

/-! ## Examples and witness -/

/-- A translation. -/
theorem movePt_id {n : Nat} (w p : Vec n ℝ) : movePt LinearIsometry.id (WithLp.toLp 2 w) p = p + w := rfl

/-- **C98 (exact method, fails).** The overlap of (0,0)-(2,0) and (1,0)-(3,0) is found; one unit higher it is not. -/
theorem C98_exact_fails :
    (∃ o, exactSegments (F_EPS : ℝ) ⟨![0, 0], ![2, 0]⟩ ⟨![1, 0], ![3, 0]⟩ = .ok ⟨.segment o, .overlap⟩) ∧
    exactSegments (F_EPS : ℝ) (moveSeg LinearIsometry.id (WithLp.toLp 2 ![0, 1]) ⟨![0, 0], ![2, 0]⟩)
      (moveSeg LinearIsometry.id (WithLp.toLp 2 ![0, 1]) ⟨![1, 0], ![3, 0]⟩) = .ok notIntersected := by
  constructor
  · have hO : OnLineThroughOrigin [![(0 : ℝ), 0], ![2, 0], ![1, 0], ![3, 0]] := by
      refine ⟨![1, 0], ?_⟩
      intro p hp
      simp only [List.mem_cons, List.not_mem_nil, or_false] at hp
      rcases hp with rfl | rfl | rfl | rfl
      · exact ⟨0, by simp⟩
      · exact ⟨2, by simp⟩
      · exact ⟨1, by simp⟩
      · exact ⟨3, by simp⟩
    obtain ⟨o, ho, _⟩ := C39_overlap_partial (F_EPS : ℝ) ⟨![0, 0], ![2, 0]⟩ ⟨![1, 0], ![3, 0]⟩ (onLine_of_origin hO)
      ⟨![1, 0], ⟨1 / 2, by norm_num, by norm_num, by funext i; fin_cases i <;> norm_num⟩,
        ⟨0, by norm_num, by norm_num, by funext i; fin_cases i <;> norm_num⟩⟩ (.inl hO)
    exact ⟨o, ho⟩
  · have e1 : moveSeg LinearIsometry.id (WithLp.toLp 2 ![0, 1]) ⟨![0, 0], ![2, 0]⟩ = (⟨![0, 1], ![2, 1]⟩ : Seg 2 ℝ) := by
      unfold moveSeg; rw [movePt_id, movePt_id]; norm_num
    have e2 : moveSeg LinearIsometry.id (WithLp.toLp 2 ![0, 1]) ⟨![1, 0], ![3, 0]⟩ = (⟨![1, 1], ![3, 1]⟩ : Seg 2 ℝ) := by
      unfold moveSeg; rw [movePt_id, movePt_id]; norm_num
    rw [e1, e2]
    set s : Seg 2 ℝ := ⟨![0, 1], ![2, 1]⟩ with hs
    set r : Seg 2 ℝ := ⟨![1, 1], ![3, 1]⟩ with hr
    have hc : s.collinear (.seg r) = false := by
      rw [← Bool.not_eq_true, collinear_iff]
      rintro ((h | h) | h | ⟨g, h⟩)
      · rw [Seg.eq, Bool.and_eq_true, vecEq_iff, vecEq_iff] at h
        have := h.1 0; norm_num [abs_le, hs, hr] at this
      · rw [Seg.eq, Bool.and_eq_true, vecEq_iff, vecEq_iff] at h
        have := h.1 0; norm_num [abs_le, hs, hr, Seg.reverse] at this
      · have hnd : ([s.p1, s.p2] ++ otherPoints (.seg r)).Nodup := by
          simp [hs, hr, otherPoints]
        rw [hnd.dedup] at h
        simp [otherPoints] at h
      · obtain ⟨x, hx⟩ := h s.p1 (by simp)
        obtain ⟨y, hy⟩ := h s.p2 (by simp)
        have a1 := congrFun hx 0; have a2 := congrFun hx 1
        have b1 := congrFun hy 0; have b2 := congrFun hy 1
        simp [hs] at a1 a2 b1 b2
        rcases a1 with h | h
        · rw [h] at a2; simp at a2
        · rw [h] at b1; simp at b1
    have hp : s.parallel r F_EPS = true := by
      rw [parallel_iff]; simp [gram, Fin.sum_univ_two, Seg.direction, hs, hr, F_EPS]; norm_num
    unfold exactSegments
    simp [hc, hp]

/-- The hypotheses of `C98_exact_partial` hold for the diagonals of a square moved up by one. -/
example : ∃ x, exactSegments (F_EPS : ℝ) (⟨![0, 0], ![2, 2]⟩ : Seg 2 ℝ) ⟨![0, 2], ![2, 0]⟩ = .ok x ∧
    exactSegments (F_EPS : ℝ) (moveSeg LinearIsometry.id (WithLp.toLp 2 ![0, 1]) ⟨![0, 0], ![2, 2]⟩)
      (moveSeg LinearIsometry.id (WithLp.toLp 2 ![0, 1]) ⟨![0, 2], ![2, 0]⟩) = .ok (moveInfo LinearIsometry.id (WithLp.toLp 2 ![0, 1]) x) := by
  apply C98_exact_partial
  · norm_num [gram, Fin.sum_univ_two, Seg.direction, F_EPS]
  · refine ⟨?_, ?_, ?_, ?_⟩ <;> rintro ⟨h, -⟩ <;> have h0 := h 0 <;> have h1 := h 1 <;> revert h0 h1 <;> norm_num [abs_le]
  · refine ⟨?_, ?_, ?_, ?_⟩ <;> rintro ⟨h, -⟩ <;> have h0 := h 0 <;> have h1 := h 1 <;>
      revert h0 h1 <;> norm_num [abs_le, moveSeg, movePt_id]
  · intro h; have h0 := h 0; norm_num [abs_le] at h0
  · intro h; have h0 := h 0; norm_num [abs_le] at h0
  · intro h; have h0 := h 0; norm_num [abs_le, moveSeg, movePt_id] at h0
  · intro h; have h0 := h 0; norm_num [abs_le, moveSeg, movePt_id] at h0

/-- The hypotheses of `C98_almost_curves` hold for a curve of three points and its translate. -/
example : MovedCurve LinearIsometry.id (WithLp.toLp 2 ![0, 1]) (⟨0, false, [![0, 0], ![1, 1], ![2, 0]]⟩ : GCurve 2 ℝ)
    ⟨0, false, [![0, 1], ![1, 2], ![2, 1]]⟩ := by
  refine ⟨rfl, ?_⟩
  simp only [List.map_cons, List.map_nil, movePt_id]
  norm_num

/-! ## Concrete cases -/

example := C98_segments (LinearIsometry.id : EuclideanSpace ℝ (Fin 2) →ₗᵢ[ℝ] EuclideanSpace ℝ (Fin 2)) (WithLp.toLp 2 ![0, 1]) ⟨![0, 0], ![2, 2]⟩ ⟨![0, 2], ![2, 0]⟩ (.point ![5, 5]) (1 / 10) id (1 / 2)
example (comps : Nat → (Nat → Nat → Bool) → List (List Nat)) := C98_almost_curves (L := LinearIsometry.id) (w := WithLp.toLp 2 ![0, 1]) ⟨1 / 100, false, 1 / 100, false, 1 / 100⟩ rfl comps
  (c1 := ⟨0, false, [![0, 0], ![1, 1], ![2, 0]]⟩) (c2 := ⟨1, false, [![0, 1], ![3, 1]]⟩) (c1' := ⟨0, false, [![0, 1], ![1, 2], ![2, 1]]⟩) (c2' := ⟨1, false, [![0, 2], ![3, 2]]⟩)
  ⟨rfl, by simp only [List.map_cons, List.map_nil, movePt_id]; norm_num⟩ ⟨rfl, by simp only [List.map_cons, List.map_nil, movePt_id]; norm_num⟩ rfl rfl

end Verif.Props
