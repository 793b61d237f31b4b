import Verif.Model.SegmentObj
import Verif.Props.CurveSeg
import Verif.Props.Distance
import Verif.Props.Segment
import Verif.Props.Select

/-!
C112: segments as objects.
-/
namespace Verif.Spec

open Verif Verif.Np Verif.Model

/-- The point object with the coordinates `v`. -/
def ptObj {n : Nat} {K : Type} (v : Vec n K) : Point K := ⟨List.ofFn v, .float⟩

/-- The segment object with the end points of `s`. -/
def segObj {n : Nat} {K : Type} (s : Seg n K) : Segment K := ⟨ptObj s.p1, ptObj s.p2⟩

/-- The argument object. -/
def argObj {n : Nat} {K : Type} : PointOrSeg n K → PyObj K
  | .point p => .point (ptObj p)
  | .seg s => .segment (segObj s)

/-- A segment object as the constructor makes it: the points have one and the same dimension, at least 1. -/
structure ValidSeg {α : Type} (s : Segment α) : Prop where
  pos : s.p1.data ≠ []
  same : s.p1.data.length = s.p2.data.length

/-- Dimension of an argument, if it is a point or a segment. -/
def dimOf {α : Type} : PyObj α → Option Nat
  | .point p => some p.data.length
  | .segment s => some s.p1.data.length
  | .other => none

/-- The argument is a point or segment as the constructors make them. -/
def ValidArg {α : Type} : PyObj α → Prop
  | .point _ => True
  | .segment s => ValidSeg s
  | .other => True

end Verif.Spec

namespace Verif.Props

open Verif Verif.Np Verif.Model Verif.Spec

section
variable {α : Type} [Elem α]

/-- **C112 (constructor).** A segment is built from two points of the same dimension, at least 1. Anything but points is a TypeError, points that do
not fit a ValueError. -/
theorem C112_init (a b : PyObj α) : (∃ p q, a = .point p ∧ b = .point q ∧ p.data ≠ [] ∧ p.data.length = q.data.length ∧
      Segment.init a b = .ok ⟨p, q⟩) ∨
    ((∃ p q, a = .point p ∧ b = .point q ∧ (p.data = [] ∨ p.data.length ≠ q.data.length)) ∧ Segment.init a b = .error .valueError) ∨
    ((¬ ∃ p q, a = PyObj.point p ∧ b = PyObj.point q) ∧ Segment.init a b = .error .typeError) := by
  cases a with
  | point p =>
    cases b with
    | point q =>
      unfold Segment.init Point.ndim
      by_cases h0 : p.data = []
      · refine .inr (.inl ⟨⟨p, q, rfl, rfl, .inl h0⟩, ?_⟩)
        simp [h0]
      · by_cases h1 : p.data.length = q.data.length
        · refine .inl ⟨p, q, rfl, rfl, h0, h1, ?_⟩
          have h2 : p.data.length ≠ 0 := by simpa using h0
          simp only [← h1, h2, or_self, if_false, ne_eq, not_true_eq_false]
        · refine .inr (.inl ⟨⟨p, q, rfl, rfl, .inr h1⟩, ?_⟩)
          simp only [ne_eq, h1, not_false_eq_true, if_true, ite_self]
    | segment r => exact .inr (.inr ⟨(by rintro ⟨p, q, h1, h2⟩; cases h2), rfl⟩)
    | other => exact .inr (.inr ⟨(by rintro ⟨p, q, h1, h2⟩; cases h2), rfl⟩)
  | segment r => exact .inr (.inr ⟨(by rintro ⟨p, q, h1, h2⟩; cases h1), by cases b <;> rfl⟩)
  | other => exact .inr (.inr ⟨(by rintro ⟨p, q, h1, h2⟩; cases h1), by cases b <;> rfl⟩)

theorem init_valid {p q : Point α} (h : ValidSeg (⟨p, q⟩ : Segment α)) : Segment.init (.point p) (.point q) = .ok ⟨p, q⟩ := by
  have h2 : p.data.length ≠ 0 := by simpa using h.pos
  have h1 : p.data.length = q.data.length := h.same
  unfold Segment.init Point.ndim
  simp only [← h1, h2, or_self, if_false, ne_eq, not_true_eq_false]

theorem valid_of_init {a b : PyObj α} {s : Segment α} (h : Segment.init a b = .ok s) : ValidSeg s := by
  rcases C112_init a b with ⟨p, q, -, -, h0, h1, h2⟩ | ⟨-, h2⟩ | ⟨-, h2⟩
  · rw [h2] at h
    cases h
    exact ⟨h0, h1⟩
  · rw [h2] at h; cases h
  · rw [h2] at h; cases h

theorem validSeg_swap {p q : Point α} (h : ValidSeg (⟨p, q⟩ : Segment α)) : ValidSeg (⟨q, p⟩ : Segment α) := by
  refine ⟨?_, h.same.symm⟩
  have := h.pos
  have h1 := h.same
  intro h2
  simp only at this h1 h2
  rw [h2] at h1
  exact this (List.length_eq_zero_iff.1 h1)

/-- **C112 (reversal).** Reversing exchanges the points; twice is the segment itself. -/
theorem C112_reverse {s : Segment α} (hs : ValidSeg s) : s.reverse = .ok ⟨s.p2, s.p1⟩ ∧ (Segment.mk s.p2 s.p1).reverse = .ok s :=
  ⟨init_valid (validSeg_swap hs), init_valid hs⟩

theorem data_valid {s : Segment α} (hs : ValidSeg s) : s.data = .ok [s.p1.data, s.p2.data] := by
  unfold Segment.data vstackD
  simp [hs.same]

/-- **C112 (as a curve).** In dimension 2 and more `to_curve` is the curve with the two points, without parameters; in dimension 1 there are no curves
and it is a ValueError. The hypotheses about `cast` say that integer points have integer coordinates. -/
theorem C112_toCurve {s : Segment α} (hs : ValidSeg s) (h1 : ∀ x ∈ s.p1.data, s.p1.dtype.cast x = x) (h2 : ∀ x ∈ s.p2.data, s.p2.dtype.cast x = x) :
    (2 ≤ s.p1.data.length → ∃ c, s.toCurve = .ok c ∧ WF c ∧ c.rows = [s.p1.data, s.p2.data] ∧ c.tdata = none ∧ c.ncols = s.p1.data.length ∧
      (c.dtype = .int ↔ s.p1.dtype = .int ∧ s.p2.dtype = .int)) ∧
    (s.p1.data.length = 1 → s.toCurve = .error .valueError) := by
  have hl : ∀ r ∈ [s.p1.data, s.p2.data], r.length = s.p1.data.length := by
    intro r hr
    simp only [List.mem_cons, List.not_mem_nil, or_false] at hr
    rcases hr with rfl | rfl
    · rfl
    · exact hs.same.symm
  have hint : s.p1.dtype.promote s.p2.dtype = .int ↔ s.p1.dtype = .int ∧ s.p2.dtype = .int := by
    cases s.p1.dtype <;> cases s.p2.dtype <;> decide
  have hcast : ∀ r ∈ [s.p1.data, s.p2.data], ∀ x ∈ r, (s.p1.dtype.promote s.p2.dtype).cast x = x := by
    intro r hr x hx
    cases hd : s.p1.dtype.promote s.p2.dtype with
    | float => rfl
    | obj => rfl
    | int =>
      obtain ⟨e1, e2⟩ := hint.1 hd
      rw [e1] at h1
      rw [e2] at h2
      simp only [List.mem_cons, List.not_mem_nil, or_false] at hr
      rcases hr with rfl | rfl
      · exact h1 x hx
      · exact h2 x hx
  have hdef : s.toCurve = Curve.ofRows [s.p1.data, s.p2.data] s.p1.data.length (s.p1.dtype.promote s.p2.dtype) none := by
    unfold Segment.toCurve
    rw [data_valid hs]
    rfl
  constructor
  · intro hn
    rw [hdef, ofRows_ok hn hl hcast (by simp)]
    exact ⟨_, rfl, ⟨by simpa using hn, by simpa using hs.same.symm, by simp, hcast⟩, rfl, rfl, by simp, hint⟩
  · intro hn
    rw [hdef, ofRows_eq _ _ _ _ hl]
    simp [hn]
end

/-- **C112 (segments of a curve).** The segment number `k` of a curve, made a curve, has the points of `curve[k:k+2]`, and its arc length is the length
of the segment and the chord number `k` of the curve. -/
theorem C112_curveSegment {c : Curve ℝ} (hc : WF c) (cid : Nat) {k : Nat} (hk : k + 1 < c.rows.length) (junk : ℝ) :
    ∃ s d e, CurveSegment.init c cid k = .ok s ∧ (Segment.mk s.p1.point s.p2.point).toCurve = .ok d ∧
      c.getSub (.slice ⟨some k, some (k + 2 : Nat), none⟩) = .ok e ∧ d.rows = e.rows ∧ d.ncols = e.ncols ∧ d.dtype = .float ∧ WF d ∧
      arclen junk d = s.seglen ∧ s.chordlen junk = .ok (arclen junk d) ∧ (Segment.mk s.p1.point s.p2.point).seglen = .ok (.fin (arclen junk d)) := by
  have ha := List.getElem?_eq_getElem (show k < c.rows.length by omega)
  have hb := List.getElem?_eq_getElem hk
  have hla := hc.rect _ (List.getElem_mem (show k < c.rows.length by omega))
  have hlb := hc.rect _ (List.getElem_mem hk)
  have h2 := hc.two_le
  have hcs := cseg_nat (cid := cid) ha hb
  have his := isSegAt hc (cid := cid) ha hb
  have hv : ValidSeg (Segment.mk (Point.init c.rows[k] none) (Point.init c.rows[k + 1] none)) := by
    refine ⟨?_, by simp only [point_init_float]; omega⟩
    simp only [point_init_float]
    intro h
    rw [h] at hla
    simp at hla
    omega
  obtain ⟨d, d1, d2, d3, -, d4, -⟩ := (C112_toCurve hv (fun _ _ => rfl) (fun _ _ => rfl)).1 (by simp only [point_init_float]; omega)
  obtain ⟨e, e1, e2, -⟩ := C07_plain hc k (k + 2)
  obtain ⟨e', ks, e3, e4, -⟩ := C07_slice hc ⟨some (k : Int), some ((k + 2 : Nat) : Int), none⟩ (by simp)
  rw [e1] at e3
  injection e3 with e3
  subst e3
  simp only [point_init_float] at d3 d4
  have hrows : (c.rows.take (k + 2)).drop k = [c.rows[k], c.rows[k + 1]] := by
    apply List.ext_getElem
    · simp; omega
    · intro i h1 h2
      simp only [List.length_cons, List.length_nil] at h2
      rcases (show i = 0 ∨ i = 1 by omega) with rfl | rfl <;> simp
  have hfl : d.dtype = .float := by
    have := d1
    unfold Segment.toCurve at this
    rw [data_valid hv] at this
    have h3 : Curve.ofRows [(Point.init c.rows[k] none).data, (Point.init c.rows[k + 1] none).data] (Point.init c.rows[k] none).data.length .float none = .ok d := this
    rw [point_init_float, point_init_float, ofRows_ok (by omega) (by simp; omega) (fun _ _ _ _ => rfl) (by simp)] at h3
    injection h3 with h3
    rw [← h3]
  have harc : arclen junk d = chord c.rows[k] c.rows[k + 1] := by
    unfold arclen chordlen
    rw [if_neg (by rw [d3]; simp), d3]
    show ([chord c.rows[k] c.rows[k + 1]] : List ℝ).sum = _
    simp
  have hlen : (CurveSegment.mk ⟨Point.init c.rows[k] none, k, c, cid⟩ ⟨Point.init c.rows[k + 1] none, (k + 1 : Nat), c, cid⟩ c k).seglen =
      chord c.rows[k] c.rows[k + 1] := by
    unfold CurveSegment.seglen
    simp only [point_init_float]
  refine ⟨_, d, e, hcs, d1, e1, ?_, ?_, hfl, d2, ?_, ?_, ?_⟩
  · rw [d3, e2, hrows]
  · rw [d4, hla]
    refine (e4.ndim ?_).symm
    rintro rfl
    have hp := e4.points
    have : e.rows = [] := by
      simpa [Picks] using hp
    rw [e2, hrows] at this
    simp at this
  · rw [harc, hlen]
  · rw [his.chord, ← his.len, hlen, harc]
  · rw [harc]
    show euclidean [] _ _ = _
    rw [euclidean_nil]
    unfold bcast2
    simp only [point_init_float]
    rw [if_pos (by omega)]
    show Except.ok (Val.fin (√ _)) = _
    unfold chord
    congr 4
    rw [List.map_zipWith]
    congr 1
    funext x y
    ring

section
variable {K : Type} [Field K] [LinearOrder K] [IsStrictOrderedRing K] [FloorRing K] {n : Nat}

theorem pinit_float (l : List K) : Point.init l none = ⟨l, .float⟩ := by
  unfold Point.init
  simp only [Option.getD_none]
  congr 1
  exact List.map_id' l

theorem bcast2_ofFn {β : Type} (f : β → β → β) (u v : Fin n → β) : bcast2 f (List.ofFn u) (List.ofFn v) = .ok (List.ofFn fun i => f (u i) (v i)) := by
  unfold bcast2
  rw [if_pos (by simp)]
  congr 1
  apply List.ext_getElem <;> simp

theorem matmul_ofFn (u v : Vec n K) : matmul (List.ofFn u) (List.ofFn v) = .ok (vdot u v) := by
  unfold matmul
  rw [if_pos (by simp)]
  congr 1
  have h : List.zipWith (· * ·) (List.ofFn u) (List.ofFn v) = List.ofFn fun i => u i * v i := by
    apply List.ext_getElem <;> simp
  unfold dot
  rw [h]
  have : (List.ofFn fun i => u i * v i).foldr (· + ·) 0 = (List.ofFn fun i => u i * v i).sum := by rw [List.sum]
  rw [this, List.sum_ofFn]
  rfl

theorem ptOp_ptObj (f : K → K → K) (u v : Vec n K) : ptOp f (ptObj u) (ptObj v) = .ok (ptObj fun i => f (u i) (v i)) := by
  unfold ptOp ptObj
  simp only [bcast2_ofFn, Except.map, pinit_float]

theorem ptDot_ptObj (u v : Vec n K) : ptDot (ptObj u) (ptObj v) = .ok (vdot u v) := matmul_ofFn u v

theorem ptScale_ptObj (u : Vec n K) (t : K) : ptScale (ptObj u) t = ptObj fun i => u i * t := by
  unfold ptScale ptObj
  rw [pinit_float, List.map_ofFn]
  rfl

theorem direction_obj (s : Seg n K) : (segObj s).direction = .ok (ptObj s.direction) := ptOp_ptObj _ _ _

theorem pointAt_obj (s : Seg n K) (t : K) : (segObj s).pointAt t = .ok (ptObj (s.point t)) := by
  unfold Segment.pointAt
  rw [direction_obj]
  show ptOp _ (ptObj s.p1) (ptScale (ptObj s.direction) t) = _
  rw [ptScale_ptObj, ptOp_ptObj]
  rfl

theorem parallel_obj (s r : Seg n K) (tol : K) : (segObj s).parallel tol (.segment (segObj r)) = .ok (s.parallel r tol) := by
  unfold Segment.parallel
  simp only [direction_obj, bind, Except.bind, ptDot_ptObj]
  rfl

theorem rowVec_ofFn (v : Vec n K) : rowVec n (List.ofFn v) = v := by
  funext i
  simp [rowVec, List.getD_eq_getElem?_getD]

theorem vstackD_ofFn (v : Vec n K) (vs : List (Vec n K)) : vstackD ((v :: vs).map List.ofFn) = .ok ((v :: vs).map List.ofFn) := by
  unfold vstackD
  simp

theorem rankRows_ofFn (vs : List (Vec n K)) : rankRows n (vs.map List.ofFn) = matrixRank vs := by
  unfold rankRows
  rw [List.map_map]
  have : (rowVec n ∘ List.ofFn : Vec n K → Vec n K) = id := by funext v; exact rowVec_ofFn v
  rw [this, List.map_id]

theorem headD_length {vs : List (Vec n K)} (h : vs ≠ []) : ((vs.map List.ofFn).headD []).length = n := by
  cases vs with
  | nil => exact absurd rfl h
  | cons v vs => simp

theorem collinearRows_ofFn (v : Vec n K) (vs : List (Vec n K)) : collinearRows ((v :: vs).map List.ofFn) = .ok (collinearPoints (v :: vs)) := by
  unfold collinearRows collinearPoints
  rw [vstackD_ofFn]
  simp only [bind, Except.bind]
  rw [List.dedup_map_of_injective List.ofFn_injective, List.length_map]
  split
  · rfl
  · have hne : (v :: vs).dedup ≠ [] := by
      intro h
      have := List.mem_dedup.2 (List.mem_cons_self (a := v) (l := vs))
      rw [h] at this
      simp at this
    rw [headD_length hne, rankRows_ofFn]
    rfl

theorem coplanarData_ofFn (vs : List (Vec n K)) : coplanarData n (vs.map List.ofFn) = coplanarPoints vs := by
  unfold coplanarData coplanarPoints
  split
  · rfl
  · cases hl : vs.getLast? with
    | none =>
      have hl' : (vs.map List.ofFn).getLast? = none := by rw [List.getLast?_map, hl]; rfl
      simp only [hl']
    | some l =>
      have hl' : (vs.map List.ofFn).getLast? = some (List.ofFn l) := by rw [List.getLast?_map, hl]; rfl
      simp only [hl']
      have : (vs.map List.ofFn).map (fun r => List.zipWith (· - ·) r (List.ofFn l)) = (vs.map fun p => p - l).map List.ofFn := by
        rw [List.map_map, List.map_map]
        apply List.map_congr_left
        intro p _
        apply List.ext_getElem <;> simp
      rw [this, ← List.map_dropLast, rankRows_ofFn, List.isEmpty_map]

theorem coplanarRows_ofFn (v : Vec n K) (vs : List (Vec n K)) : coplanarRows ((v :: vs).map List.ofFn) = coplanarPoints (v :: vs) := by
  unfold coplanarRows
  rw [vstackD_ofFn]
  simp only [bind, Except.bind]
  rw [headD_length (by simp), coplanarData_ofFn]

/-- The points of a curve as vectors. -/
def ptsOf (c : Curve K) : List (Vec c.ncols K) := c.rows.map (rowVec c.ncols)

theorem ptsOf_rows {c : Curve K} (hc : WF c) : (ptsOf c).map List.ofFn = c.rows := by
  unfold ptsOf
  rw [List.map_map]
  conv_rhs => rw [← List.map_id c.rows]
  apply List.map_congr_left
  intro r hr
  have hl := hc.rect r hr
  apply List.ext_getElem
  · simp [hl]
  · intro i h1 h2
    have h3 : i < r.length := h2
    simp [rowVec, List.getD_eq_getElem?_getD, h3]

/-- **C29 (curves).** `isplane` of a curve is true exactly if its points lie in one plane; a curve in two dimensions always is plane. -/
theorem C29_isplane_partial {c : Curve K} (hc : WF c) (h : c.ncols = 2 ∨ 2 ≤ c.rows.length) :
    ∃ b, c.isplane = .ok b ∧ (b = true ↔ InPlane (ptsOf c)) ∧ (c.is2d = true → b = true) := by
  have h1 : c.isplane = coplanarPoints (ptsOf c) := by
    unfold Curve.isplane
    conv_lhs => rw [← ptsOf_rows hc]
    exact coplanarData_ofFn _
  obtain ⟨b, h2, h3⟩ := C29_coplanar_partial (ptsOf c) (h.imp (fun h => by omega) (fun h => by simpa [ptsOf] using h))
  refine ⟨b, by rw [h1, h2], h3, fun h4 => ?_⟩
  rw [h3]
  have : c.ncols = 2 := by simpa [Curve.is2d, Curve.ndim] using h4
  exact inPlane_of_dim (by omega)

/-- What fails for few points: `isplane` of a curve in space with one point is a ValueError, with no point an IndexError. -/
theorem C29_isplane_fails : (⟨[[1, 2, 3]], 3, none, .float⟩ : Curve ℚ).isplane = .error .valueError ∧
    (⟨[], 3, none, .float⟩ : Curve ℚ).isplane = .error .indexError := ⟨rfl, rfl⟩

/-- A curve in space with two points. -/
example : ∃ c : Curve ℚ, WF c ∧ (c.ncols = 2 ∨ 2 ≤ c.rows.length) ∧ c.isspatial = true :=
  ⟨⟨[[1, 2, 3], [4, 5, 6]], 3, none, .float⟩, ⟨by decide, by simp, by simp, by intro r _ x _; rfl⟩, .inr (by decide), rfl⟩

theorem ptEq_obj (u v : Vec n K) : (ptObj u).eq (ptObj v) = vecEq u v := by
  unfold Point.eq ptObj Point.ndim
  rw [if_neg (by simp)]
  unfold vecEq rowEq
  rw [Bool.eq_iff_iff]
  simp only [List.all_eq_true, decide_eq_true_eq]
  have h : List.zipWith (isequal .float .float) (List.ofFn u) (List.ofFn v) = List.ofFn fun i => closeK (u i) (v i) := by
    apply List.ext_getElem <;> simp [isequal, Elem.isclose]
  rw [h]
  simp

theorem segEq_obj (s r : Seg n K) : (segObj s).eq (segObj r) = s.eq r := by
  unfold Segment.eq Seg.eq
  exact congrArg₂ _ (ptEq_obj _ _) (ptEq_obj _ _)

theorem valid_obj (hn : 0 < n) (s : Seg n K) : ValidSeg (segObj s) := by
  refine ⟨?_, by simp [segObj, ptObj]⟩
  intro h
  have := congrArg List.length h
  simp [segObj, ptObj] at this
  omega

theorem reverse_obj (hn : 0 < n) (s : Seg n K) : (segObj s).reverse = .ok (segObj s.reverse) := (C112_reverse (valid_obj hn s)).1

theorem collinear_obj (hn : 0 < n) (s : Seg n K) (o : PointOrSeg n K) : (segObj s).collinear (argObj o) = .ok (s.collinear o) := by
  cases o with
  | point p =>
    show (if (ptObj p).eq (ptObj s.p1) || (ptObj p).eq (ptObj s.p2) then Except.ok true else collinearRows ([s.p1, s.p2, p].map List.ofFn)) = _
    rw [ptEq_obj, ptEq_obj, collinearRows_ofFn]
    unfold Seg.collinear
    split <;> simp_all
  | seg r =>
    show (if (segObj r).eq (segObj s) then Except.ok true else _) = _
    unfold Seg.collinear
    rw [segEq_obj, reverse_obj hn]
    simp only [bind, Except.bind, segEq_obj]
    have h : collinearRows [(segObj s).p1.data, (segObj s).p2.data, (segObj r).p1.data, (segObj r).p2.data] = _ := collinearRows_ofFn s.p1 [s.p2, r.p1, r.p2]
    rw [h]
    cases r.eq s <;> cases r.reverse.eq s <;> rfl

theorem coplanar_obj (s : Seg n K) (o : PointOrSeg n K) : (segObj s).coplanar (argObj o) = s.coplanar o := by
  cases o with
  | point p => exact coplanarRows_ofFn s.p1 [s.p2, p]
  | seg r => exact coplanarRows_ofFn s.p1 [s.p2, r.p1, r.p2]

theorem init_obj (hn : 0 < n) (u v : Vec n K) : Segment.init (.point (ptObj u)) (.point (ptObj v)) = .ok (segObj ⟨u, v⟩) :=
  init_valid (valid_obj hn ⟨u, v⟩)

theorem overlap_obj (hn : 0 < n) (s r : Seg n K) (check : Bool) :
    (segObj s).overlap check (.segment (segObj r)) = .ok ((s.overlap r check).map segObj) := by
  have hd : overlapData (segObj s) (segObj r) = .ok ((s.overlap r false).map segObj) := by
    unfold overlapData Seg.overlap segObj ptObj
    simp only [bcast2_ofFn, bind, Except.bind, pinit_float, Bool.false_and, Bool.false_eq_true, if_false]
    have h : ∀ a b : Vec n K, ((List.zipWith (fun a b => decide (a > b)) (List.ofFn a) (List.ofFn b)).any id = true) ↔ ∃ i, a i > b i := by
      intro a b
      have : List.zipWith (fun a b => decide (a > b)) (List.ofFn a) (List.ofFn b) = List.ofFn fun i => decide (a i > b i) := by
        apply List.ext_getElem <;> simp
      rw [this]
      simp
    simp only [h]
    split
    · rfl
    · have := init_obj (K := K) hn (fun i => max (min (s.p1 i) (s.p2 i)) (min (r.p1 i) (r.p2 i))) (fun i => min (max (s.p1 i) (s.p2 i)) (max (r.p1 i) (r.p2 i)))
      unfold ptObj at this
      rw [this]
      rfl
  unfold Segment.overlap
  cases check with
  | false =>
    simp only [Bool.false_eq_true, if_false, bind, Except.bind, pure, Except.pure, Bool.not_true]
    exact hd
  | true =>
    have hc := collinear_obj hn s (.seg r)
    simp only [argObj] at hc
    simp only [if_true, hc, bind, Except.bind]
    rw [hd]
    unfold Seg.overlap
    cases s.collinear (.seg r) <;> rfl

theorem shortest_obj (hn : 0 < n) (s : Seg n K) (o : PointOrSeg n K) : (segObj s).shortest (argObj o) = .ok (segObj (s.shortest o)) := by
  cases o with
  | point p =>
    have h : segToPointObj (segObj s) (ptObj p) = .ok (segToPoint s p) := by
      unfold segToPointObj segToPoint
      have h2 : ptOp (· - ·) (ptObj p) (segObj s).p1 = .ok (ptObj (p - s.p1)) := ptOp_ptObj _ _ _
      simp only [direction_obj, bind, Except.bind, h2, ptDot_ptObj]
      split
      · rfl
      · split <;> rfl
    show ((segToPointObj (segObj s) (ptObj p)).bind fun t => ((segObj s).pointAt t).bind fun p1 => Segment.init (.point p1) (.point (ptObj p).copy)) = _
    rw [h]
    show (((segObj s).pointAt (segToPoint s p)).bind fun p1 => Segment.init (.point p1) (.point (ptObj p).copy)) = _
    rw [pointAt_obj]
    have hc : (ptObj p).copy = ptObj p := pinit_float _
    rw [hc]
    exact init_obj hn _ _
  | seg r =>
    have h : segToSegObj (segObj s) (segObj r) F_EPS = .ok (segToSeg s r F_EPS) := by
      unfold segToSegObj segToSeg
      have h2 : ptOp (· - ·) (segObj s).p1 (segObj r).p1 = .ok (ptObj (s.p1 - r.p1)) := ptOp_ptObj _ _ _
      simp only [direction_obj, bind, Except.bind, h2, ptDot_ptObj]
      rfl
    show ((segToSegObj (segObj s) (segObj r) F_EPS).bind fun t => ((segObj s).pointAt t.1).bind fun p1 => ((segObj r).pointAt t.2).bind fun p2 =>
      Segment.init (.point p1) (.point p2)) = _
    rw [h]
    show (((segObj s).pointAt (segToSeg s r F_EPS).1).bind fun p1 => ((segObj r).pointAt (segToSeg s r F_EPS).2).bind fun p2 =>
      Segment.init (.point p1) (.point p2)) = _
    rw [pointAt_obj]
    show (((segObj r).pointAt (segToSeg s r F_EPS).2).bind fun p2 => Segment.init (.point _) (.point p2)) = _
    rw [pointAt_obj]
    exact init_obj hn _ _

end

section
variable {n : Nat}

theorem seglen_obj (s : Seg n ℝ) : (segObj s).seglen = .ok (.fin s.seglen) := by
  show euclidean [] _ _ = _
  rw [euclidean_nil]
  unfold segObj ptObj
  simp only [bcast2_ofFn]
  show Except.ok (Val.fin (√ _)) = _
  unfold Seg.seglen Model.edist
  congr 3
  rw [List.map_ofFn, List.sum_ofFn]
  apply Finset.sum_congr rfl
  intro i _
  simp only [Function.comp_apply]
  ring

theorem norm_obj (u : Vec n ℝ) : (ptObj u).norm = .ok (vnorm u) := by
  unfold Point.norm ptObj
  rw [matmul_ofFn]
  rfl

theorem angle_obj (s r : Seg n ℝ) (rd : ℝ → ℝ) : (segObj s).angle rd (.segment (segObj r)) = .ok (s.angle r rd) := by
  unfold Segment.angle Seg.angle
  simp only [direction_obj, bind, Except.bind, norm_obj, ptDot_ptObj]
  split <;> rfl

theorem distance_obj (hn : 0 < n) (s : Seg n ℝ) (o : PointOrSeg n ℝ) : (segObj s).distance (argObj o) = .ok (.fin (s.distance o)) := by
  unfold Segment.distance
  rw [shortest_obj hn]
  exact seglen_obj _

/-- **C112 (the geometry of objects).** On objects of one dimension the methods of segment objects compute the geometry of Model/Geom.lean, and never
raise: so all that is proved there (C25-C35, C94, C98) is about the objects. -/
theorem C112_geometry (hn : 0 < n) (s r : Seg n ℝ) (o : PointOrSeg n ℝ) (rd : ℝ → ℝ) (tol : ℝ) (check : Bool) (t : ℝ) :
    (segObj s).seglen = .ok (.fin s.seglen) ∧ (segObj s).direction = .ok (ptObj s.direction) ∧ (segObj s).dot = .ok (vdot s.p1 s.p2) ∧
    (segObj s).eq (segObj r) = s.eq r ∧ (segObj s).singular = s.singular ∧ (segObj s).point (.num t) = .ok (.one (ptObj (s.point t))) ∧
    (segObj s).angle rd (.segment (segObj r)) = .ok (s.angle r rd) ∧ (segObj s).parallel tol (.segment (segObj r)) = .ok (s.parallel r tol) ∧
    (segObj s).collinear (argObj o) = .ok (s.collinear o) ∧ (segObj s).coplanar (argObj o) = s.coplanar o ∧
    (segObj s).overlap check (.segment (segObj r)) = .ok ((s.overlap r check).map segObj) ∧
    (segObj s).shortest (argObj o) = .ok (segObj (s.shortest o)) ∧ (segObj s).distance (argObj o) = .ok (.fin (s.distance o)) ∧
    (segObj s).reverse = .ok (segObj s.reverse) := by
  refine ⟨seglen_obj s, direction_obj s, ptDot_ptObj _ _, segEq_obj s r, ptEq_obj _ _, ?_, angle_obj s r rd, parallel_obj s r tol, collinear_obj hn s o,
    coplanar_obj s o, overlap_obj hn s r check, shortest_obj hn s o, distance_obj hn s o, reverse_obj hn s⟩
  simp only [Segment.point, pointAt_obj, Except.map]

/-- **C112 (sequences of parameters).** A sequence of parameters gives the points for each of them, in order; an array with several axes is a
ValueError. -/
theorem C112_points (s : Seg n ℝ) (ts : List ℝ) :
    (segObj s).point (.seq ts) = .ok (.many (ts.map fun t => .vec (ptObj (s.point t)))) ∧ (segObj s).point .arr2 = .error .valueError := by
  refine ⟨?_, rfl⟩
  have h : ts.mapM (fun t => bcast2 (· + ·) (segObj s).p1.data ((ptObj s.direction).data.map (· * t))) = .ok (ts.map fun t => List.ofFn (s.point t)) := by
    apply mapM_ok_map
    intro t _
    unfold segObj ptObj
    simp only [List.map_ofFn, bcast2_ofFn]
    rfl
  simp only [Segment.point, direction_obj, bind, Except.bind, h, pure, Except.pure, List.map_map]
  congr 2
  apply List.map_congr_left
  intro t _
  simp only [Function.comp_apply, pinit_float]
  rfl

/-- Every valid segment object with float coordinates is such an object. -/
theorem C112_objects {s : Segment ℝ} (hs : ValidSeg s) (h1 : s.p1.dtype = .float) (h2 : s.p2.dtype = .float) :
    ∃ (n : Nat) (s' : Seg n ℝ), 0 < n ∧ s = segObj s' := by
  refine ⟨s.p1.data.length, ⟨fun i => s.p1.data[i], fun i => s.p2.data[i]'(by rw [← hs.same]; exact i.2)⟩, ?_, ?_⟩
  · exact List.length_pos_of_ne_nil hs.pos
  · obtain ⟨⟨d1, t1⟩, ⟨d2, t2⟩⟩ := s
    simp only at h1 h2
    subst h1 h2
    have hsame : d1.length = d2.length := hs.same
    unfold segObj ptObj
    congr 2
    · apply List.ext_getElem <;> simp
    · apply List.ext_getElem
      · simp [hsame]
      · simp

end

section
variable {K : Type} [Field K] [LinearOrder K] [IsStrictOrderedRing K] [FloorRing K]

theorem bcast2_cases {β : Type} (f : β → β → β) (a b : List β) : (∃ c, bcast2 f a b = .ok c) ∨ bcast2 f a b = .error .valueError := by
  unfold bcast2
  split
  · exact .inl ⟨_, rfl⟩
  · split
    · exact .inl ⟨_, rfl⟩
    · exact .inl ⟨_, rfl⟩
    · exact .inr rfl

theorem bcast2_same {β : Type} (f : β → β → β) {a b : List β} (h : a.length = b.length) : bcast2 f a b = .ok (List.zipWith f a b) := if_pos h

theorem ptOp_same (f : K → K → K) {p q : Point K} (h : p.data.length = q.data.length) : ∃ r, ptOp f p q = .ok r ∧ r.data.length = p.data.length := by
  unfold ptOp
  rw [bcast2_same f h]
  refine ⟨_, rfl, ?_⟩
  simp only [pinit_float]
  simp [h]

theorem ptDot_same {p q : Point K} (h : p.data.length = q.data.length) : ∃ x, ptDot p q = .ok x := ⟨_, if_pos h⟩

theorem ptDot_diff {p q : Point K} (h : p.data.length ≠ q.data.length) : ptDot p q = .error .valueError := if_neg h

theorem direction_valid {s : Segment K} (hs : ValidSeg s) : ∃ u, s.direction = .ok u ∧ u.data.length = s.p1.data.length := by
  obtain ⟨u, h1, h2⟩ := ptOp_same (· - ·) hs.same.symm
  exact ⟨u, h1, by rw [h2, hs.same]⟩

theorem pointAt_valid {s : Segment K} (hs : ValidSeg s) (t : K) : ∃ u, s.pointAt t = .ok u ∧ u.data.length = s.p1.data.length := by
  obtain ⟨u, h1, h2⟩ := direction_valid hs
  obtain ⟨v, h3, h4⟩ := ptOp_same (· + ·) (p := s.p1) (q := ptScale u t) (by unfold ptScale; rw [pinit_float]; simp [h2])
  refine ⟨v, ?_, h4⟩
  unfold Segment.pointAt
  rw [h1]
  exact h3

theorem vstackD_diff {α : Type} [Elem α] {r x : List α} {rs : List (List α)} (hx : x ∈ rs) (h : x.length ≠ r.length) :
    vstackD (r :: rs) = .error .valueError := by
  show (if rs.all (fun x => x.length == r.length) = true then _ else _) = _
  rw [if_neg]
  intro hall
  rw [List.all_eq_true] at hall
  have := hall x hx
  simp at this
  exact h this

theorem ptEq_diff {α : Type} [Elem α] [DecidableEq α] {p q : Point α} (h : p.data.length ≠ q.data.length) : p.eq q = false := by
  unfold Point.eq Point.ndim
  rw [if_pos h]

theorem init_diff {α : Type} [Elem α] {p q : Point α} (h : p.data.length ≠ q.data.length) : Segment.init (.point p) (.point q) = .error .valueError := by
  unfold Segment.init Point.ndim
  simp only [ne_eq, h, not_false_eq_true, if_true, ite_self]

/-- **C112 (errors).** What is neither a point nor a segment is a TypeError, an object of another dimension a ValueError. -/
theorem C112_errors_partial {s : Segment K} (hs : ValidSeg s) (o : PyObj K) (ho : ValidArg o) :
    (dimOf o = none → s.collinear o = .error .typeError ∧ s.coplanar o = .error .typeError ∧ s.shortest o = .error .typeError) ∧
    (∀ m, dimOf o = some m → m ≠ s.p1.data.length → s.collinear o = .error .valueError ∧ s.coplanar o = .error .valueError ∧
      s.shortest o = .error .valueError ∧ ∀ r, o = .segment r → ∀ tol, s.parallel tol o = .error .valueError) := by
  constructor
  · intro h
    cases o with
    | point p => cases h
    | segment r => cases h
    | other => exact ⟨rfl, rfl, rfl⟩
  · intro m hm hne
    cases o with
    | other => cases hm
    | point p =>
      have hp : p.data.length ≠ s.p1.data.length := by
        injection hm with hm
        rw [hm]
        exact hne
      refine ⟨?_, ?_, ?_, ?_⟩
      · simp only [Segment.collinear, collinearRows, ptEq_diff hp, ptEq_diff (show p.data.length ≠ s.p2.data.length by rw [← hs.same]; exact hp),
          vstackD_diff (x := p.data) (rs := [s.p2.data, p.data]) (by simp) hp]
        rfl
      · simp only [Segment.coplanar, coplanarRows, vstackD_diff (x := p.data) (rs := [s.p2.data, p.data]) (by simp) hp]
        rfl
      · obtain ⟨u, u1, u2⟩ := direction_valid hs
        have hbad : ∀ t, ((s.pointAt t).bind fun p1 => Segment.init (.point p1) (.point p.copy)) = .error .valueError := by
          intro t
          obtain ⟨v, v1, v2⟩ := pointAt_valid hs t
          rw [v1]
          refine init_diff ?_
          unfold Point.copy
          rw [v2, pinit_float]
          exact hp.symm
        show ((segToPointObj s p).bind fun t => (s.pointAt t).bind fun p1 => Segment.init (.point p1) (.point p.copy)) = _
        have hcase : (∃ t, segToPointObj s p = .ok t) ∨ segToPointObj s p = .error .valueError := by
          unfold segToPointObj
          simp only [u1, bind, Except.bind]
          cases hw : ptOp (· - ·) p s.p1 with
          | error e =>
            right
            unfold ptOp at hw
            rcases bcast2_cases (· - ·) p.data s.p1.data with ⟨c, hc⟩ | hc
            · rw [hc] at hw; cases hw
            · rw [hc] at hw; cases hw; rfl
          | ok w =>
            by_cases hl : w.data.length = u.data.length
            · obtain ⟨c1, hc1⟩ := ptDot_same hl
              obtain ⟨c2, hc2⟩ := ptDot_same (p := u) (q := u) rfl
              left
              simp only [hc1, hc2]
              split
              · exact ⟨_, rfl⟩
              · split <;> exact ⟨_, rfl⟩
            · right
              simp only [ptDot_diff hl]
        rcases hcase with ⟨t, ht⟩ | ht
        · rw [ht]
          exact hbad t
        · rw [ht]
          rfl
      · intro r hr
        cases hr
    | segment r =>
      have hr : ValidSeg r := ho
      have hp : r.p1.data.length ≠ s.p1.data.length := by
        injection hm with hm
        rw [hm]
        exact hne
      have hp' : r.p2.data.length ≠ s.p1.data.length := by rw [← hr.same]; exact hp
      obtain ⟨u, u1, u2⟩ := direction_valid hs
      obtain ⟨v, v1, v2⟩ := direction_valid hr
      have huv : ptDot u v = .error .valueError := ptDot_diff (by rw [u2, v2]; exact hp.symm)
      obtain ⟨a, ha⟩ := ptDot_same (p := u) (q := u) rfl
      refine ⟨?_, ?_, ?_, ?_⟩
      · unfold Segment.collinear collinearRows
        have e1 : r.eq s = false := by unfold Segment.eq; rw [ptEq_diff hp]; rfl
        have e2 : (Segment.mk r.p2 r.p1).eq s = false := by unfold Segment.eq; rw [ptEq_diff hp']; rfl
        simp only [e1, (C112_reverse hr).1, bind, Except.bind, e2, vstackD_diff (x := r.p1.data) (rs := [s.p2.data, r.p1.data, r.p2.data]) (by simp) hp]
        rfl
      · simp only [Segment.coplanar, coplanarRows, vstackD_diff (x := r.p1.data) (rs := [s.p2.data, r.p1.data, r.p2.data]) (by simp) hp]
        rfl
      · show ((segToSegObj s r F_EPS).bind fun t => _) = _
        have : segToSegObj s r F_EPS = .error .valueError := by
          unfold segToSegObj
          simp only [u1, v1, bind, Except.bind]
          cases hw : ptOp (· - ·) s.p1 r.p1 with
          | error e =>
            unfold ptOp at hw
            rcases bcast2_cases (· - ·) s.p1.data r.p1.data with ⟨c, hc⟩ | hc
            · rw [hc] at hw; cases hw
            · rw [hc] at hw; cases hw; rfl
          | ok w => simp only [ha, huv]
        rw [this]
        rfl
      · intro r' hr' tol
        unfold Segment.parallel
        simp only [u1, v1, bind, Except.bind, ha, huv]

end

/-- **C112 (errors of distance and angle).** The same for the distance; for the angle the dimension is only noticed if neither segment is (almost) a
point. -/
theorem C112_errors_real_partial {s : Segment ℝ} (hs : ValidSeg s) (o : PyObj ℝ) (ho : ValidArg o) (rd : ℝ → ℝ) :
    (dimOf o = none → s.distance o = .error .typeError) ∧ ((∀ r, o ≠ .segment r) → s.angle rd o = .error .typeError) ∧
    (∀ m, dimOf o = some m → m ≠ s.p1.data.length → s.distance o = .error .valueError ∧
      ∀ r u v nu nv, o = .segment r → s.direction = .ok u → r.direction = .ok v → u.norm = .ok nu → v.norm = .ok nv →
        s.angle rd o = if |nu * nv| ≤ 1 / 100000000 then .ok none else .error .valueError) := by
  have h := C112_errors_partial hs o ho
  refine ⟨fun h0 => ?_, fun h0 => ?_, fun m hm hne => ⟨?_, ?_⟩⟩
  · unfold Segment.distance
    rw [(h.1 h0).2.2]
    rfl
  · cases o with
    | point p => rfl
    | other => rfl
    | segment r => exact absurd rfl (h0 r)
  · unfold Segment.distance
    rw [(h.2 m hm hne).2.2.1]
    rfl
  · rintro r u v nu nv rfl hu hv hnu hnv
    have hr : ValidSeg r := ho
    obtain ⟨u', u1, u2⟩ := direction_valid hs
    obtain ⟨v', v1, v2⟩ := direction_valid hr
    rw [hu] at u1
    rw [hv] at v1
    injection u1 with u1
    injection v1 with v1
    subst u1 v1
    have huv : ptDot u v = .error .valueError := ptDot_diff (by
      rw [u2, v2]
      injection hm with hm
      rw [hm]
      exact hne.symm)
    unfold Segment.angle
    simp only [hu, hv, hnu, hnv, bind, Except.bind, huv, closeK_zero]
    rfl

/-- What fails for angles: the angle between a point-like segment in the plane and a segment in space is NaN, not an error. -/
theorem C112_angle_fails : ∃ s r : Segment ℝ, ValidSeg s ∧ ValidSeg r ∧ s.p1.data.length ≠ r.p1.data.length ∧ s.angle id (.segment r) = .ok none := by
  have hs : ValidSeg (⟨⟨[0, 0], .float⟩, ⟨[0, 0], .float⟩⟩ : Segment ℝ) := ⟨by simp, rfl⟩
  have hr : ValidSeg (⟨⟨[0, 0, 0], .float⟩, ⟨[1, 0, 0], .float⟩⟩ : Segment ℝ) := ⟨by simp, rfl⟩
  refine ⟨_, _, hs, hr, by decide, ?_⟩
  have h := ((C112_errors_real_partial hs (.segment _) hr id).2.2 3 rfl (by decide)).2 _ ⟨[0 - 0, 0 - 0], .float⟩ ⟨[1 - 0, 0 - 0, 0 - 0], .float⟩
    (√ ((0 - 0) * (0 - 0) + ((0 - 0) * (0 - 0) + 0))) (√ ((1 - 0) * (1 - 0) + ((0 - 0) * (0 - 0) + ((0 - 0) * (0 - 0) + 0)))) rfl rfl rfl rfl rfl
  rw [h, if_pos]
  norm_num

/-- What fails for overlaps: the coordinate of a segment on the number line is used for all coordinates of the other one. -/
theorem C112_overlap_fails : ∃ s r q : Segment ℚ, ValidSeg s ∧ ValidSeg r ∧ s.p1.data.length ≠ r.p1.data.length ∧
    s.overlap false (.segment r) = .ok (some q) ∧ q = ⟨⟨[0, 0], .float⟩, ⟨[1, 1], .float⟩⟩ := by
  refine ⟨⟨⟨[0], .float⟩, ⟨[1], .float⟩⟩, ⟨⟨[0, 0], .float⟩, ⟨[2, 3], .float⟩⟩, _, ⟨by simp, rfl⟩, ⟨by simp, rfl⟩, by decide, ?_, rfl⟩
  unfold Segment.overlap
  simp only [Bool.false_eq_true, if_false, bind, Except.bind, pure, Except.pure, Bool.not_true]
  decide

/-- What fails for other kinds: `parallel` and `overlap` raise AttributeError where the other methods raise TypeError. -/
theorem C112_attribute_fails (s : Segment ℚ) (tol : ℚ) : s.parallel tol .other = .error .attributeError ∧
    (∀ p, s.parallel tol (.point p) = .error .attributeError) ∧ s.overlap false .other = .error .attributeError ∧
    ∀ p, s.overlap false (.point p) = .error .attributeError := ⟨rfl, fun _ => rfl, rfl, fun _ => rfl⟩

/-- What fails for parameters: from an array without axes `point` makes a list of numbers, one for each coordinate. -/
theorem C112_parameter_fails : (⟨⟨[0, 0], .float⟩, ⟨[2, 4], .float⟩⟩ : Segment ℚ).point (.arr0 (1 / 2)) = .ok (.many [.scalar 1 .float, .scalar 2 .float]) := by
  have h1 : (0 : ℚ) + (2 - 0) * (1 / 2) = 1 := by norm_num
  have h2 : (0 : ℚ) + (4 - 0) * (1 / 2) = 2 := by norm_num
  show Except.ok (PtRes.many [PointObj.scalar ((0 : ℚ) + (2 - 0) * (1 / 2)) DType.float, PointObj.scalar ((0 : ℚ) + (4 - 0) * (1 / 2)) .float]) = _
  rw [h1, h2]

/-- A plane segment and a point of space: a valid segment and arguments of every kind. -/
example : ValidSeg (⟨⟨[0, 0], .float⟩, ⟨[1, 2], .float⟩⟩ : Segment ℚ) ∧ dimOf (.point ⟨[1, 2, 3], .float⟩ : PyObj ℚ) = some 3 ∧ dimOf (.other : PyObj ℚ) = none :=
  ⟨⟨by simp, rfl⟩, rfl, rfl⟩

/-- **C112 (kinds of curves).** `is2d`, `is3d` and `isspatial` of a curve say that its points have two, three and at least three coordinates, also for
curves without points; a curve is exactly one of plane and spatial. -/
theorem C112_kinds {c : Curve ℝ} (hc : WF c) : (c.is2d = true ↔ c.ndim = 2) ∧ (c.is3d = true ↔ c.ndim = 3) ∧ (c.isspatial = true ↔ 3 ≤ c.ndim) ∧
    (c.isspatial = !c.is2d) ∧ (c.is3d = true → c.isspatial = true) ∧ (∀ r ∈ c.rows, c.is2d = true → r.length = 2) ∧
    (∀ r ∈ c.rows, c.is3d = true → r.length = 3) ∧ ∀ r ∈ c.rows, c.isspatial = true → 3 ≤ r.length := by
  have h2 : (c.is2d = true ↔ c.ndim = 2) := by unfold Curve.is2d; simp
  have h3 : (c.is3d = true ↔ c.ndim = 3) := by unfold Curve.is3d; simp
  have hs : (c.isspatial = true ↔ 3 ≤ c.ndim) := by unfold Curve.isspatial; simp
  have hn : 2 ≤ c.ndim := hc.two_le
  refine ⟨h2, h3, hs, ?_, ?_, ?_, ?_, ?_⟩
  · rw [Bool.eq_iff_iff, hs, Bool.not_eq_true', ← Bool.not_eq_true, h2]; omega
  · rw [h3, hs]; omega
  · intro r hr h; rw [hc.rect r hr]; exact h2.1 h
  · intro r hr h; rw [hc.rect r hr]; exact h3.1 h
  · intro r hr h; rw [hc.rect r hr]; exact hs.1 h

example : WF (⟨[[0, 0, 0, 1], [1, 0, 0, 2]], 4, none, .float⟩ : Curve ℝ) :=
  ⟨by decide, by simp, by simp, by intro r _ x _; rfl⟩

/-! ## Concrete cases -/

/-- A segment object of the plane, one point of integer dtype. -/
theorem exValidSeg : ValidSeg (⟨⟨[0, 0], .float⟩, ⟨[1, 2], .float⟩⟩ : Segment ℚ) := ⟨by simp, rfl⟩
theorem exValidSegR : ValidSeg (⟨⟨[0, 0], .float⟩, ⟨[1, 2], .float⟩⟩ : Segment ℝ) := ⟨by simp, rfl⟩
theorem exSpaceWF : WF (⟨[[1, 2, 3], [4, 5, 6]], 3, none, .float⟩ : Curve ℚ) := ⟨by decide, by simp, by simp, by intro r _ x _; rfl⟩
example := C112_reverse exValidSeg
example := (C112_toCurve exValidSeg (fun _ _ => rfl) (fun _ _ => rfl)).1 (by decide)
example := (C112_toCurve (s := (⟨⟨[0], .float⟩, ⟨[1], .float⟩⟩ : Segment ℚ)) ⟨by simp, rfl⟩ (fun _ _ => rfl) (fun _ _ => rfl)).2 rfl
example := C112_curveSegment exPath_WF 0 (k := 1) (by simp [exPath]) 0
example := C29_isplane_partial exSpaceWF (.inr (by decide))
example := C112_geometry (by norm_num) (⟨![0, 0], ![1, 2]⟩ : Seg 2 ℝ) ⟨![1, 0], ![0, 2]⟩ (.point ![3, 3]) id 1 false (1 / 2)
example := C112_objects exValidSegR rfl rfl
example := (C112_errors_partial exValidSeg .other trivial).1 rfl
example := (C112_errors_partial exValidSeg (.point ⟨[1, 2, 3], .float⟩) trivial).2 3 rfl (by decide)
example := (C112_errors_real_partial exValidSegR (.point ⟨[1, 2, 3], .float⟩) trivial id).2.1 (by simp)
example := (C112_errors_real_partial exValidSegR .other trivial id).1 rfl
example := (C112_errors_real_partial exValidSegR (.point ⟨[1, 2, 3], .float⟩) trivial id).2.2 3 rfl (by simp)
example := C112_kinds (c := ⟨[[0, 0, 0, 1], [1, 0, 0, 2]], 4, none, .float⟩) ⟨by decide, by simp, by simp, by intro r _ x _; rfl⟩

end Verif.Props
