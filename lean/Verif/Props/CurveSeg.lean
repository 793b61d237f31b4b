import Verif.Props.ArcLen

/-!
C73 (curve segments), C57 (co-orientation).
-/
namespace Verif.Props

open Verif Verif.Np Verif.Model Verif.Spec

/-! ## C73 -/

theorem cpoint_nat {α : Type} [Elem α] {c : Curve α} {cid k : Nat} {a : List α} (h : c.rows[k]? = some a) :
    CurvePoint.init c cid (k : Int) = .ok ⟨Point.init a none, k, c, cid⟩ := by
  have hk := (List.getElem?_eq_some_iff.1 h).1
  have hg : getIdx c.rows (k : Int) = .ok a := by
    rw [getIdx_ok]
    exact ⟨k, ⟨hk, .inl rfl⟩, h⟩
  unfold CurvePoint.init
  simp only [if_neg (show ¬ ((k : Int) < 0) by omega), hg]

/-- The segment `CurveSegment(c, k)` for an index counted from the start. -/
theorem cseg_nat {c : Curve ℝ} {cid k : Nat} {a b : List ℝ} (ha : c.rows[k]? = some a) (hb : c.rows[k + 1]? = some b) :
    CurveSegment.init c cid (k : Int) =
      .ok ⟨⟨Point.init a none, k, c, cid⟩, ⟨Point.init b none, (k + 1 : Nat), c, cid⟩, c, k⟩ := by
  have hk : k + 1 < c.rows.length := (List.getElem?_eq_some_iff.1 hb).1
  have h1 : ¬ ((k : Int) ≥ (c.size : Int) - 1) := by simp only [Curve.size]; omega
  have h2 := cpoint_nat (cid := cid) ha
  have h3 := cpoint_nat (cid := cid) hb
  unfold CurveSegment.init
  simp only [if_neg (show ¬ ((k : Int) < 0) by omega), h1, if_false, h2]
  rw [show ((k : Int) + 1) = ((k + 1 : Nat) : Int) by push_cast; rfl, h3]

theorem point_init_float {a : List ℝ} : (Point.init a none).data = a := by
  have h1 : (Point.init a none).data = a.map id := rfl
  rw [h1, List.map_id]

/-- What a segment from `a` (point `k`) to `b` (point `k + 1`) is. -/
structure IsSegAt (c : Curve ℝ) (s : CurveSegment) (k : Nat) (a b : List ℝ) : Prop where
  start : s.p1.point.data = a
  stop : s.p2.point.data = b
  idx1 : s.p1.idx = k
  idx2 : s.p2.idx = (k + 1 : Nat)
  len : s.seglen = gap c.ndim a b
  chord : ∀ junk, s.chordlen junk = .ok (gap c.ndim a b)

theorem isSegAt {c : Curve ℝ} (hc : WF c) {cid k : Nat} {a b : List ℝ} (ha : c.rows[k]? = some a)
    (hb : c.rows[k + 1]? = some b) :
    IsSegAt c ⟨⟨Point.init a none, k, c, cid⟩, ⟨Point.init b none, (k + 1 : Nat), c, cid⟩, c, k⟩ k a b := by
  refine ⟨point_init_float, point_init_float, rfl, rfl, ?_, ?_⟩
  · unfold CurveSegment.seglen
    simp only [point_init_float]
    exact chord_eq_gap (hc.rect a (List.mem_of_getElem? ha)) (hc.rect b (List.mem_of_getElem? hb))
  · intro junk
    have hne : c.rows ≠ [] := by intro h; rw [h] at ha; simp at ha
    obtain ⟨xs, h1, h2, -, h3⟩ := C50_chordlen_partial hc hne junk
    unfold CurveSegment.chordlen
    simp only [h1]
    have hx := h3 k a b ha hb
    rw [getIdx_ok]
    exact ⟨k, ⟨(List.getElem?_eq_some_iff.1 hx).1, .inl rfl⟩, hx⟩

theorem mapM_ok_map {β γ : Type} (l : List β) (f : β → Except PyErr γ) (g : β → γ) (h : ∀ x ∈ l, f x = .ok (g x)) :
    l.mapM f = .ok (l.map g) := by
  induction l with
  | nil => rfl
  | cons x l ih =>
    rw [List.mapM_cons, h x (by simp), ih fun y hy => h y (List.mem_cons_of_mem _ hy)]
    rfl

/-- **C73 (tiling).** `segments` has size - 1 entries (none for size 0 and 1); segment `k` goes from point `k`
to point `k + 1`, and its length is the chord length `k`, the distance of the two points. -/
theorem C73_segments {c : Curve ℝ} (hc : WF c) (cid : Nat) :
    ∃ ss, c.segments cid = .ok ss ∧ ss.length = c.size - 1 ∧
      ∀ k a b, c.rows[k]? = some a → c.rows[k + 1]? = some b → ∃ s, ss[k]? = some s ∧ IsSegAt c s k a b := by
  let g : Nat → CurveSegment := fun k => ⟨⟨Point.init (c.rows.getD k []) none, k, c, cid⟩,
    ⟨Point.init (c.rows.getD (k + 1) []) none, (k + 1 : Nat), c, cid⟩, c, k⟩
  have hg : ∀ k a b, c.rows[k]? = some a → c.rows[k + 1]? = some b →
      g k = ⟨⟨Point.init a none, k, c, cid⟩, ⟨Point.init b none, (k + 1 : Nat), c, cid⟩, c, k⟩ := by
    intro k a b ha hb
    simp only [g, List.getD_eq_getElem?_getD, ha, hb, Option.getD_some]
  have hm : c.segments cid = .ok ((List.range (c.size - 1)).map g) := by
    unfold Curve.segments
    refine mapM_ok_map _ _ g ?_
    intro k hk
    have hk' : k + 1 < c.rows.length := by
      have := List.mem_range.1 hk
      simp only [Curve.size] at this
      omega
    have ha := List.getElem?_eq_getElem (show k < c.rows.length by omega)
    have hb := List.getElem?_eq_getElem hk'
    rw [hg k _ _ ha hb]
    exact cseg_nat ha hb
  refine ⟨_, hm, by simp, ?_⟩
  intro k a b ha hb
  have hk : k + 1 < c.rows.length := (List.getElem?_eq_some_iff.1 hb).1
  refine ⟨g k, ?_, ?_⟩
  · rw [List.getElem?_map, List.getElem?_range (by simp only [Curve.size]; omega)]
    rfl
  · rw [hg k a b ha hb]
    exact isSegAt hc ha hb

/-- **C73 (sum).** The lengths of the segments sum to the arc length. -/
theorem C73_sum {c : Curve ℝ} (hc : WF c) (hne : c.rows ≠ []) (cid : Nat) (junk : ℝ) :
    ∃ ss, c.segments cid = .ok ss ∧ (ss.map CurveSegment.seglen).sum = arclen junk c := by
  obtain ⟨ss, h1, h2, h3⟩ := C73_segments hc cid
  obtain ⟨xs, h4, h5, -, h6⟩ := C50_chordlen_partial hc hne junk
  refine ⟨ss, h1, ?_⟩
  unfold arclen
  rw [h4]
  show _ = xs.sum
  congr 1
  apply List.ext_getElem?
  intro k
  by_cases hk : k + 1 < c.rows.length
  · have ha := List.getElem?_eq_getElem (show k < c.rows.length by omega)
    have hb := List.getElem?_eq_getElem hk
    obtain ⟨s, hs, hs'⟩ := h3 k _ _ ha hb
    rw [List.getElem?_map, hs, h6 k _ _ ha hb]
    simp [hs'.len]
  · rw [List.getElem?_eq_none (by simp only [List.length_map, h2, Curve.size]; omega),
      List.getElem?_eq_none (by simp only [h5, Curve.size]; omega)]

/-- **C73 (accepted indices, partial).** Indices from -(size-1) to size-2 are accepted and mean the segment
counted from the start or from the end; indices from size-1 on are a ValueError. Missing: smaller indices
are not all rejected, see `C73_below_range_accepted`. -/
theorem C73_index_partial {c : Curve ℝ} (hc : WF c) (cid : Nat) (i : Int) :
    (-((c.size : Int) - 1) ≤ i → i < (c.size : Int) - 1 → ∃ (s : CurveSegment) (k : Nat) (a b : List ℝ),
      CurveSegment.init c cid i = .ok s ∧ ((k : Int) = i ∧ 0 ≤ i ∨ (k : Int) = i + (c.size - 1) ∧ i < 0) ∧
      c.rows[k]? = some a ∧ c.rows[k + 1]? = some b ∧ IsSegAt c s k a b) ∧
    (0 ≤ i → (c.size : Int) - 1 ≤ i → CurveSegment.init c cid i = .error .valueError) := by
  constructor
  · intro h1 h2
    obtain ⟨k, hk⟩ : ∃ k : Nat, (k : Int) = if i < 0 then ((c.size : Int) - 1) + i else i :=
      ⟨(if i < 0 then ((c.size : Int) - 1) + i else i).toNat, by split <;> omega⟩
    have hk' : k + 1 < c.rows.length := by
      have : (c.size : Int) = c.rows.length := rfl
      split at hk <;> omega
    have ha := List.getElem?_eq_getElem (show k < c.rows.length by omega)
    have hb := List.getElem?_eq_getElem hk'
    have hs := cseg_nat (cid := cid) ha hb
    have hs' : CurveSegment.init c cid i = CurveSegment.init c cid (k : Int) := by
      unfold CurveSegment.init
      simp only [← hk, if_neg (show ¬ ((k : Int) < 0) by omega)]
    refine ⟨_, k, _, _, hs'.trans hs, ?_, ha, hb, isSegAt hc ha hb⟩
    split at hk
    · right; omega
    · left; omega
  · intro h0 h1
    unfold CurveSegment.init
    simp only [if_neg (show ¬ (i < 0) by omega), ge_iff_le, h1, if_true]

/-- **C73 fails below the range**: for every curve with at least two points, index -size is accepted although
the range ends at -(size-1), and gives a segment that is not on the curve, from the last point to the
first. Its `chordlen` is the length of the last chord of the curve. -/
theorem C73_below_range_accepted {c : Curve ℝ} (hc : WF c) (cid : Nat) (m : Nat) (hm : c.rows.length = m + 2)
    (first prev last : List ℝ) (hf : c.rows[0]? = some first) (hp : c.rows[m]? = some prev)
    (hl : c.rows[m + 1]? = some last) :
    ∃ s, CurveSegment.init c cid (-(c.size : Int)) = .ok s ∧ s.p1.point.data = last ∧ s.p2.point.data = first ∧
      s.seglen = gap c.ndim last first ∧ ∀ junk, s.chordlen junk = .ok (gap c.ndim prev last) := by
  have hsz : c.size = m + 2 := hm
  have hg : getIdx c.rows ((c.size : Int) + -1) = .ok last := by
    rw [getIdx_ok]
    exact ⟨m + 1, ⟨by omega, by left; omega⟩, hl⟩
  have h1 : CurvePoint.init c cid (-1) = .ok ⟨Point.init last none, (c.size : Int) + -1, c, cid⟩ := by
    unfold CurvePoint.init
    simp only [if_pos (show (-1 : Int) < 0 by omega), hg]
  have h2 : CurvePoint.init c cid 0 = .ok ⟨Point.init first none, 0, c, cid⟩ := cpoint_nat (k := 0) hf
  refine ⟨⟨⟨Point.init last none, (c.size : Int) + -1, c, cid⟩, ⟨Point.init first none, 0, c, cid⟩, c, -1⟩, ?_,
    point_init_float, point_init_float, ?_, ?_⟩
  · unfold CurveSegment.init
    simp only [if_pos (show -(c.size : Int) < 0 by omega)]
    rw [show ((c.size : Int) - 1 + -(c.size : Int)) = -1 by omega, if_neg (by omega), h1]
    simp only
    rw [show (-1 + 1 : Int) = 0 by rfl, h2]
  · unfold CurveSegment.seglen
    simp only [point_init_float]
    exact chord_eq_gap (hc.rect _ (List.mem_of_getElem? hl)) (hc.rect _ (List.mem_of_getElem? hf))
  · intro junk
    have hne : c.rows ≠ [] := by intro h; rw [h] at hf; simp at hf
    obtain ⟨xs, h1, h2, -, h3⟩ := C50_chordlen_partial hc hne junk
    unfold CurveSegment.chordlen
    simp only [h1]
    have hx := h3 m prev last hp hl
    rw [getIdx_ok]
    exact ⟨m, ⟨(List.getElem?_eq_some_iff.1 hx).1, by right; omega⟩, hx⟩

example : exPath.rows[0]? = some [0, 0] ∧ exPath.rows[1]? = some [3, 0] ∧ exPath.rows[2]? = some [3, 4] ∧
    exPath.rows.length = 1 + 2 := ⟨rfl, rfl, rfl, rfl⟩

/-! ## C57 -/

section
variable {K : Type} [Field K] [LinearOrder K] [IsStrictOrderedRing K] [FloorRing K]

theorem reverse_WF {c r : Curve K} (h : c.reverse = .ok r) : WF r := by
  unfold Curve.reverse Curve.ofRows at h
  exact init_WF h

/-- The sign the code tests: the determinant of the first and the last point in the plane of two axes. -/
def endDet (c : Curve K) (p q : Nat) : K :=
  (c.rows.head?.getD []).getD p 0 * (c.rows.getLast?.getD []).getD q 0 -
    (c.rows.getLast?.getD []).getD p 0 * (c.rows.head?.getD []).getD q 0

theorem isCoorient_eq {c : Curve K} (hc : WF c) (h2 : 2 ≤ c.size) (a1 a2 : Int) (p q : Nat)
    (hp : IsPos c.ndim a1 p) (hq : IsPos c.ndim a2 q) : isCoorient c a1 a2 = .ok (decide (0 < endDet c p q)) := by
  have hsz : c.size = c.rows.length := rfl
  obtain ⟨a, l, hal⟩ : ∃ a l, c.rows = a :: l := by
    cases h : c.rows with
    | nil => rw [hsz, h] at h2; simp at h2
    | cons a l => exact ⟨a, l, rfl⟩
  have hne : c.rows ≠ [] := by rw [hal]; simp
  set b := c.rows.getLast hne with hb
  have hlast : c.rows[c.rows.length - 1]? = some b := by
    rw [← List.getLast?_eq_getElem?, List.getLast?_eq_some_getLast hne]
  have hfirst : c.rows[0]? = some a := by rw [hal]; rfl
  have hbm : b ∈ c.rows := List.getLast_mem _
  have ham : a ∈ c.rows := by rw [hal]; simp
  have hcast : ∀ r : List K, (Point.init r none).data = r := by
    intro r
    have h1 : (Point.init r none).data = r.map id := rfl
    rw [h1, List.map_id]
  have h1 : CurvePoint.init c 0 0 = .ok ⟨Point.init a none, 0, c, 0⟩ := cpoint_nat (k := 0) hfirst
  have hg : getIdx c.rows ((c.size : Int) + -1) = .ok b := by
    rw [getIdx_ok]
    exact ⟨c.rows.length - 1, ⟨by omega, by left; omega⟩, hlast⟩
  have h3 : CurvePoint.init c 0 (-1) = .ok ⟨Point.init b none, (c.size : Int) + -1, c, 0⟩ := by
    unfold CurvePoint.init
    simp only [if_pos (show (-1 : Int) < 0 by omega), hg]
  have hget : ∀ r ∈ c.rows, ∀ i k, IsPos c.ndim i k → getIdx r i = .ok (r.getD k 0) := by
    intro r hr i k hk
    have hl : r.length = c.ndim := hc.rect r hr
    rw [getIdx_ok, hl]
    refine ⟨k, hk, ?_⟩
    have hk' : k < r.length := by rw [hl]; exact hk.1
    simp [List.getD_eq_getElem?_getD, hk']
  unfold isCoorient
  rw [if_neg (by omega)]
  simp only [h1, h3, hcast, hget a ham _ _ hp, hget a ham _ _ hq, hget b hbm _ _ hp, hget b hbm _ _ hq]
  congr 2
  unfold endDet
  have hh : c.rows.head?.getD [] = a := by rw [hal]; rfl
  have hl : c.rows.getLast?.getD [] = b := by rw [List.getLast?_eq_some_getLast hne]; rfl
  rw [hh, hl]

/-- **C57 (choice).** For axes inside the dimension the result has the points of the curve or of the reversed
curve, with their parameter values. -/
theorem C57_choice {c : Curve K} (hc : WF c) (a1 a2 : Int) (p q : Nat)
    (hp : IsPos c.ndim a1 p) (hq : IsPos c.ndim a2 q) :
    c.coorientplane a1 a2 = c.copy ∨ c.coorientplane a1 a2 = c.reverse := by
  unfold Curve.coorientplane
  by_cases h2 : 2 ≤ c.size
  · rw [isCoorient_eq hc h2 a1 a2 p q hp hq]
    by_cases h : 0 < endDet c p q
    · simp [h]
    · simp [h]
  · have : isCoorient c a1 a2 = .ok true := by
      unfold isCoorient
      exact if_pos (by omega)
    rw [this]
    exact .inl rfl

/-- **C57 (orientation independent and idempotent, partial).** When the end points are not collinear with the
origin in the chosen plane (the determinant the code computes is not 0), the curve and the reversed curve
are co-oriented to one and the same curve, and co-orienting again changes nothing. Missing: determinant 0,
which includes every closed curve, see `C57_det_zero_fails`. -/
theorem C57_canonical_partial {c : Curve K} (hc : WF c) (a1 a2 : Int) (p q : Nat)
    (hp : IsPos c.ndim a1 p) (hq : IsPos c.ndim a2 q) (h2 : 2 ≤ c.size) (hd : endDet c p q ≠ 0) :
    ∃ c' r, c.reverse = .ok r ∧ c.coorientplane a1 a2 = .ok c' ∧ r.coorientplane a1 a2 = .ok c' ∧
      c'.coorientplane a1 a2 = .ok c' := by
  have hne : c.rows ≠ [] := by intro h; simp [Curve.size, h] at h2
  have hrev := reverse_eq hc
  have hcopy := copy_eq hc
  rw [if_neg hne] at hrev hcopy
  set r : Curve K := ⟨c.rows.reverse, c.ncols, c.tdata.map List.reverse, c.dtype⟩ with hr
  have hrc : WF r := reverse_WF hrev
  have hrne : r.rows ≠ [] := by simpa [hr] using hne
  have hrrev := reverse_eq hrc
  have hrcopy := copy_eq hrc
  rw [if_neg hrne] at hrrev hrcopy
  have hback : (⟨r.rows.reverse, r.ncols, r.tdata.map List.reverse, r.dtype⟩ : Curve K) = c := by
    simp [hr, Option.map_map, Function.comp_def]
  rw [hback] at hrrev
  have hr2 : 2 ≤ r.size := by simpa [hr, Curve.size] using h2
  have hneg : endDet r p q = - endDet c p q := by
    unfold endDet
    simp only [hr, List.head?_reverse, List.getLast?_reverse]
    ring
  have e1 := isCoorient_eq hc h2 a1 a2 p q hp hq
  have e2 := isCoorient_eq hrc hr2 a1 a2 p q hp hq
  rw [hneg] at e2
  have hc1 : c.copy = .ok c := hcopy
  have hr1 : r.copy = .ok r := hrcopy
  by_cases h : 0 < endDet c p q
  · have hn : ¬ (0 < - endDet c p q) := by linarith
    have k1 : c.coorientplane a1 a2 = .ok c := by
      unfold Curve.coorientplane; rw [e1]; simp [h, hc1]
    have k2 : r.coorientplane a1 a2 = .ok c := by
      unfold Curve.coorientplane; rw [e2, decide_eq_false hn]; exact hrrev
    exact ⟨c, r, hrev, k1, k2, k1⟩
  · have hp : 0 < - endDet c p q := by
      have := lt_of_le_of_ne (not_lt.1 h) hd
      linarith
    have k1 : c.coorientplane a1 a2 = .ok r := by
      unfold Curve.coorientplane; rw [e1, decide_eq_false h]; exact hrev
    have k2 : r.coorientplane a1 a2 = .ok r := by
      unfold Curve.coorientplane; rw [e2, decide_eq_true hp]; exact hr1
    exact ⟨r, r, hrev, k1, k2, k2⟩

/-- **C57 fails for determinant 0**: the curve is reversed every time, so the result depends on the
orientation given and a second application undoes the first. -/
theorem C57_det_zero_fails {c : Curve K} (hc : WF c) (a1 a2 : Int) (p q : Nat)
    (hp : IsPos c.ndim a1 p) (hq : IsPos c.ndim a2 q) (h2 : 2 ≤ c.size) (hd : endDet c p q = 0) :
    ∃ r, c.reverse = .ok r ∧ c.coorientplane a1 a2 = .ok r ∧ r.coorientplane a1 a2 = .ok c := by
  have hne : c.rows ≠ [] := by intro h; simp [Curve.size, h] at h2
  have hrev := reverse_eq hc
  rw [if_neg hne] at hrev
  set r : Curve K := ⟨c.rows.reverse, c.ncols, c.tdata.map List.reverse, c.dtype⟩ with hr
  have hrc : WF r := reverse_WF hrev
  have hrne : r.rows ≠ [] := by simpa [hr] using hne
  have hrrev := reverse_eq hrc
  rw [if_neg hrne] at hrrev
  have hback : (⟨r.rows.reverse, r.ncols, r.tdata.map List.reverse, r.dtype⟩ : Curve K) = c := by
    simp [hr, Option.map_map, Function.comp_def]
  rw [hback] at hrrev
  have hr2 : 2 ≤ r.size := by simpa [hr, Curve.size] using h2
  have hneg : endDet r p q = 0 := by
    have : endDet r p q = - endDet c p q := by
      unfold endDet
      simp only [hr, List.head?_reverse, List.getLast?_reverse]
      ring
    rw [this, hd, neg_zero]
  refine ⟨r, hrev, ?_, ?_⟩
  · unfold Curve.coorientplane
    rw [isCoorient_eq hc h2 a1 a2 p q hp hq, hd]; simpa using hrev
  · unfold Curve.coorientplane
    rw [isCoorient_eq hrc hr2 a1 a2 p q hp hq, hneg]; simpa using hrrev

/-- The determinant of a closed curve is 0. -/
theorem C57_closed {c : Curve K} (h : c.rows.head? = c.rows.getLast?) (p q : Nat) : endDet c p q = 0 := by
  unfold endDet
  rw [h]; ring

/-- **C57 (axes).** An axis outside the dimension is an IndexError when the curve has two or more points. -/
theorem C57_axis_range {c : Curve K} (hc : WF c) (h2 : 2 ≤ c.size) (a1 a2 : Int)
    (h : ¬ InRange c.ndim a1 ∨ ¬ InRange c.ndim a2) : c.coorientplane a1 a2 = .error .indexError := by
  have hsz : c.size = c.rows.length := rfl
  have ha := List.getElem?_eq_getElem (show 0 < c.rows.length by omega)
  have hb := List.getElem?_eq_getElem (show c.rows.length - 1 < c.rows.length by omega)
  have hcast : ∀ r : List K, (Point.init r none).data = r := by
    intro r
    have h1 : (Point.init r none).data = r.map id := rfl
    rw [h1, List.map_id]
  have h1 : CurvePoint.init c 0 0 = .ok ⟨Point.init _ none, 0, c, 0⟩ := cpoint_nat (k := 0) ha
  have hg : getIdx c.rows ((c.size : Int) + -1) = .ok c.rows[c.rows.length - 1] := by
    rw [getIdx_ok]
    exact ⟨c.rows.length - 1, ⟨by omega, by left; omega⟩, hb⟩
  have h3 : CurvePoint.init c 0 (-1) = .ok ⟨Point.init c.rows[c.rows.length - 1] none, (c.size : Int) + -1, c, 0⟩ := by
    unfold CurvePoint.init
    simp only [if_pos (show (-1 : Int) < 0 by omega), hg]
  have hbad : ∀ r ∈ c.rows, ∀ i, ¬ InRange c.ndim i → getIdx r i = .error .indexError := by
    intro r hr i hi
    rw [getIdx_error, hc.rect r hr]
    unfold InRange Curve.ndim at hi
    exact ⟨rfl, by omega⟩
  have hm1 : c.rows[0] ∈ c.rows := List.getElem_mem _
  have hm2 : c.rows[c.rows.length - 1] ∈ c.rows := List.getElem_mem _
  have herr : ∀ (r : List K) (i : Int) (e : PyErr), getIdx r i = .error e → e = .indexError := by
    intro r i e he
    exact (getIdx_error.1 he).1
  unfold Curve.coorientplane isCoorient
  rw [if_neg (by omega)]
  simp only [h1, h3, hcast]
  by_cases hx : InRange c.ndim a1
  · have hy := h.resolve_left (not_not.2 hx)
    rw [hbad _ hm1 _ hy, hbad _ hm2 _ hy]
    cases e1 : getIdx c.rows[0] a1 with
    | error e => rw [herr _ _ _ e1]
    | ok x =>
      cases e2 : getIdx c.rows[c.rows.length - 1] a1 with
      | error e => rw [herr _ _ _ e2]
      | ok y => rfl
  · rw [hbad _ hm1 _ hx]

end

/-- An open arc, an example for `C57_canonical_partial`: the determinant is 1. -/
example : endDet (⟨[[1, 0], [2, 2], [0, 1]], 2, none, .float⟩ : Curve ℚ) 0 1 = 1 := by
  simp [endDet]

/-- A closed triangle, an example for `C57_det_zero_fails`. -/
example : endDet (⟨[[1, 0], [2, 2], [1, 0]], 2, none, .float⟩ : Curve ℚ) 0 1 = 0 :=
  C57_closed rfl 0 1

/-! ## Concrete cases -/

example := C73_segments exPath_WF 0
example := C73_sum exPath_WF (by simp [exPath]) 0 0
example := (C73_index_partial exPath_WF 0 (-2)).1 (by simp [exPath, Curve.size]) (by simp [exPath, Curve.size])
example := (C73_index_partial exPath_WF 0 2).2 (by simp) (by simp [exPath, Curve.size])
example := C73_below_range_accepted exPath_WF 0 1 rfl [0, 0] [3, 0] [3, 4] rfl rfl rfl
theorem exArcWF : WF (⟨[[1, 0], [2, 2], [0, 1]], 2, none, .float⟩ : Curve ℚ) := ⟨by decide, by decide, by simp, fun _ _ _ _ => rfl⟩
example := C57_choice exArcWF 0 (-1) 0 1 ⟨by decide, by decide⟩ ⟨by decide, by decide⟩
example := C57_canonical_partial exArcWF 0 (-1) 0 1 ⟨by decide, by decide⟩ ⟨by decide, by decide⟩ (by decide) (by simp [endDet])
example := C57_axis_range exArcWF (by decide) 0 2 (.inr (by unfold InRange; decide))

end Verif.Props
