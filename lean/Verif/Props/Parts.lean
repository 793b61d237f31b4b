import Verif.Props.Select
import Verif.Props.ArcLen
import Verif.Props.Shorten
import Verif.Model.DiffGeom

/-!
C173: a part of a curve has the lengths of the curve and, away from its ends, the derivatives, Frenet vectors, curvature and torsion of the curve.
-/
namespace Verif.Props

open Verif Verif.Np Verif.Model Verif.Spec

/-- `c'` is `p_i.subcurve(p_j)` of the points `i` and `j` of `c`. -/
def IsPart (c : Curve ℝ) (i j : Nat) (c' : Curve ℝ) : Prop :=
  ∃ p q, CurvePoint.init c 0 i = .ok p ∧ CurvePoint.init c 0 j = .ok q ∧ p.subcurveArg (.cpoint q) true = .ok c'

/-- **C173 (existence).** Two points of a curve, in order, have exactly one curve between them. -/
theorem C173_part {c : Curve ℝ} (hc : WF c) {i j : Nat} (hi : i ≤ j) (hj : j < c.size) : ∃! c', IsPart c i j c' := by
  obtain ⟨p, q, c', h1, h2, h3, _⟩ := C72_subcurve hc 0 i j hi hj true
  refine ⟨c', ⟨p, q, h1, h2, h3⟩, ?_⟩
  rintro d ⟨p', q', g1, g2, g3⟩
  rw [h1] at g1; injection g1 with g1; subst g1
  rw [h2] at g2; injection g2 with g2; subst g2
  rw [h3] at g3; injection g3 with g3; exact g3.symm

/-- What a part consists of. -/
theorem IsPart.data {c c' : Curve ℝ} (hc : WF c) {i j : Nat} (hi : i ≤ j) (hj : j < c.size) (h : IsPart c i j c') :
    WF c' ∧ c'.rows = (c.rows.take (j + 1)).drop i ∧ c'.tdata = (c.tdata.map fun t => (t.take (j + 1)).drop i) ∧ c'.size = j - i + 1 ∧
      c'.ncols = c.ncols := by
  obtain ⟨p, q, d, h1, h2, h3, h4, h5, _⟩ := C72_subcurve hc 0 i j hi hj true
  have e : d = c' := (C173_part hc hi hj).unique ⟨p, q, h1, h2, h3⟩ h
  subst e
  have hw : WF d := by
    simp only [CurvePoint.subcurveArg, CurvePoint.subcurve] at h3
    split at h3
    · cases h3
    · exact getSub_WF h3
  have hl : d.rows.length = j - i + 1 := by
    have : j < c.rows.length := hj
    rw [h4]
    simp
    omega
  refine ⟨hw, by simpa using h4, by simpa using h5, hl, ?_⟩
  obtain ⟨R, hm⟩ := List.exists_mem_of_length_pos (show 0 < d.rows.length by omega)
  rw [← hw.rect R hm]
  apply hc.rect
  rw [h4] at hm
  exact List.mem_of_mem_take (List.mem_of_mem_drop hm)

/-- **C173 (lengths).** The chord lengths of the part `i..j` are the chord lengths `i..j-1` of the curve, its cumulative lengths are the differences to the
one at `i`, and its arc length is the difference of those at `j` and `i`, at least the distance of the two points. -/
theorem C173_lengths {c c' : Curve ℝ} (hc : WF c) {i j : Nat} (hi : i ≤ j) (hj : j < c.size) (h : IsPart c i j c') (junk : ℝ) :
    (∀ k, k < j - i → (chords c'.rows)[k]? = (chords c.rows)[i + k]?) ∧
    (∀ k, k ≤ j - i → ∃ x y, (cumarclen junk c)[i]? = some x ∧ (cumarclen junk c)[i + k]? = some y ∧ (cumarclen junk c')[k]? = some (y - x)) ∧
    (∃ x y, (cumarclen junk c)[i]? = some x ∧ (cumarclen junk c)[j]? = some y ∧ arclen junk c' = y - x) ∧
    ∀ P Q, c.rows[i]? = some P → c.rows[j]? = some Q → gap c.ndim P Q ≤ arclen junk c' := by
  obtain ⟨hw, hr, _, hs, hn⟩ := h.data hc hi hj
  have hj' : j < c.rows.length := hj
  have hne : c.rows ≠ [] := by intro h0; rw [h0] at hj'; simp at hj'
  have hne' : c'.rows ≠ [] := by intro h0; simp [Curve.size, h0] at hs
  have row : ∀ k, k ≤ j - i → c'.rows[k]? = c.rows[i + k]? := by
    intro k hk
    rw [hr, List.getElem?_drop, List.getElem?_take, if_pos (by omega)]
  have cum : ∀ k, k ≤ j - i → ∃ x y, (cumarclen junk c)[i]? = some x ∧ (cumarclen junk c)[i + k]? = some y ∧
      (cumarclen junk c')[k]? = some (y - x) := by
    intro k hk
    have g := (C50_cumarclen_partial hc hne junk).2.2.1
    have g' := (C50_cumarclen_partial hw hne' junk).2.2.1
    refine ⟨_, _, g i (by omega), g (i + k) (by omega), ?_⟩
    rw [g' k (by omega)]
    congr 1
    have nn : c'.ndim = c.ndim := hn
    have e1 : c'.rows.take (k + 1) = c.rows[i] :: (c.rows.take (i + k + 1)).drop (i + 1) := by
      rw [hr, List.take_drop, List.take_take, show min (i + (k + 1)) (j + 1) = i + k + 1 by omega,
        List.drop_eq_getElem_cons (by simp; omega)]
      simp
    have e2 : c.rows.take (i + k + 1) = c.rows.take i ++ c.rows[i] :: (c.rows.take (i + k + 1)).drop (i + 1) := by
      conv_lhs => rw [← List.take_append_drop i (c.rows.take (i + k + 1))]
      rw [List.take_take, show min i (i + k + 1) = i by omega, List.drop_eq_getElem_cons (by simp; omega)]
      simp
    have e3 : c.rows.take (i + 1) = c.rows.take i ++ [c.rows[i]] := by
      rw [List.take_add_one, List.getElem?_eq_getElem (by omega)]; rfl
    generalize (c.rows.take (i + k + 1)).drop (i + 1) = X at e1 e2
    rw [nn, e1, e3, e2]
    cases X with
    | nil => simp [pathLen]
    | cons b X =>
      rw [pathLen_append]
      simp only [pathLen]
      ring
  refine ⟨?_, cum, ?_, ?_⟩
  · intro k hk
    unfold chords
    rw [List.getElem?_zipWith, List.getElem?_zipWith, List.getElem?_tail, List.getElem?_tail, row k (by omega), row (k + 1) (by omega)]
    rfl
  · obtain ⟨x, y, a, b, d⟩ := cum (j - i) le_rfl
    rw [show i + (j - i) = j by omega] at b
    refine ⟨x, y, a, b, ?_⟩
    have := (C50_cumarclen_partial hw hne' junk).2.2.2.2.1
    rw [List.getLast?_eq_getElem?, (C50_cumarclen_partial hw hne' junk).1, hs, show j - i + 1 - 1 = j - i by omega, d] at this
    exact (Option.some.inj this).symm
  · intro P Q hP hQ
    have := C51_ends hw 0 (j - i) (by omega) P Q (by rw [row 0 (by omega)]; exact hP) (by rw [row _ le_rfl, show i + (j - i) = j by omega]; exact hQ) junk
    rwa [show c'.ndim = c.ndim from hn] at this

/-- **C173 (parameter).** A part keeps own parameter values; the default parameter starts at 0 again. -/
theorem C173_parameter {c c' : Curve ℝ} (hc : WF c) {i j : Nat} (hi : i ≤ j) (hj : j < c.size) (h : IsPart c i j c') (junk : ℝ) {k : Nat} (hk : k ≤ j - i) :
    (c.isparametric = true → (c'.t junk)[k]? = (c.t junk)[i + k]?) ∧
    (c.isparametric = false → ∃ x y, (c.t junk)[i]? = some x ∧ (c.t junk)[i + k]? = some y ∧ (c'.t junk)[k]? = some (y - x)) := by
  obtain ⟨_, _, ht, _, _⟩ := h.data hc hi hj
  unfold Curve.t Curve.isparametric
  rw [ht]
  cases c.tdata with
  | none => exact ⟨by simp, fun _ => (C173_lengths hc hi hj h junk).2.1 k hk⟩
  | some t =>
    refine ⟨fun _ => ?_, by simp⟩
    simp only [Option.map_some]
    rw [List.getElem?_drop, List.getElem?_take, if_pos (by omega)]

/-- The rows `lo..hi` of `b` are the rows `i + lo..i + hi` of `a`. -/
structure Agree (i lo hi : Nat) (b a : NMat) : Prop where
  cols : b.k = a.k
  below : hi < b.m
  below' : i + hi < a.m
  rows : ∀ k, lo ≤ k → k ≤ hi → ∀ j, b.v k j = a.v (i + k) j

theorem Agree.gradient {i lo hi : Nat} {b a : NMat} (h : Agree i lo hi b a) (hl : lo + 2 ≤ hi) : Agree i (lo + 1) (hi - 1) (gradient b) (gradient a) := by
  have h1 := h.below
  have h2 := h.below'
  unfold Model.gradient
  rw [if_pos (by omega), if_pos (by omega)]
  refine ⟨h.cols, by simp only; omega, by simp only; omega, fun k k1 k2 j => ?_⟩
  simp only [npGradient]
  rw [if_neg (by omega), if_neg (by omega), if_neg (by omega), if_neg (by omega), h.rows (k + 1) (by omega) (by omega), h.rows (k - 1) (by omega) (by omega),
    show i + (k + 1) = i + k + 1 by omega, show i + (k - 1) = i + k - 1 by omega]

theorem Agree.mono {i lo hi lo' hi' : Nat} {b a : NMat} (h : Agree i lo hi b a) (h1 : lo ≤ lo') (h2 : hi' ≤ hi) : Agree i lo' hi' b a :=
  ⟨h.cols, lt_of_le_of_lt h2 h.below, lt_of_le_of_lt (by omega) h.below', fun k k1 k2 => h.rows k (by omega) (by omega)⟩

theorem Agree.norm {i lo hi : Nat} {b a : NMat} (h : Agree i lo hi b a) {k : Nat} (k1 : lo ≤ k) (k2 : k ≤ hi) : rowNorm b k = rowNorm a (i + k) := by
  unfold rowNorm
  rw [h.cols]
  simp only [h.rows k k1 k2]

theorem Agree.dot {i lo hi : Nat} {b a b' a' : NMat} (h : Agree i lo hi b a) (h' : Agree i lo hi b' a') {k : Nat} (k1 : lo ≤ k) (k2 : k ≤ hi) :
    dotRow b b' k = dotRow a a' (i + k) := by
  unfold dotRow
  rw [h.cols]
  simp only [h.rows k k1 k2, h'.rows k k1 k2]

theorem Agree.unit {i lo hi : Nat} {b a : NMat} (h : Agree i lo hi b a) : Agree i lo hi (unitRows b) (unitRows a) :=
  ⟨h.cols, h.below, h.below', fun k k1 k2 j => by simp only [unitRows, frenetNorm, h.rows k k1 k2, h.norm k1 k2]⟩

theorem Agree.reject {i lo hi : Nat} {b a b' a' : NMat} (h : Agree i lo hi b a) (h' : Agree i lo hi b' a') : Agree i lo hi (reject b b') (reject a a') :=
  ⟨h.cols, h.below, h.below', fun k k1 k2 j => by simp only [Model.reject, h.rows k k1 k2, h'.rows k k1 k2, h.dot h' k1 k2]⟩

theorem Agree.reject2 {i lo hi : Nat} {b a b1 a1 b2 a2 : NMat} (h : Agree i lo hi b a) (h1 : Agree i lo hi b1 a1) (h2 : Agree i lo hi b2 a2) :
    Agree i lo hi (reject2 b b1 b2) (reject2 a a1 a2) :=
  ⟨h.cols, h.below, h.below', fun k k1 k2 j => by
    simp only [Model.reject2, h.rows k k1 k2, h1.rows k k1 k2, h2.rows k k1 k2, h.dot h1 k1 k2, h.dot h2 k1 k2]⟩

/-- Equal rows of the arrays. -/
theorem Agree.get {i lo hi : Nat} {b a : NMat} (h : Agree i lo hi b a) {k : Nat} (k1 : lo ≤ k) (k2 : k ≤ hi) : b.rows[k]? = a.rows[i + k]? := by
  have h1 := h.below
  have h2 := h.below'
  unfold NMat.rows
  rw [List.getElem?_map, List.getElem?_map, List.getElem?_range (by omega), List.getElem?_range (by omega), h.cols]
  simp only [Option.map_some, h.rows k k1 k2]

theorem IsPart.mat {c c' : Curve ℝ} (hc : WF c) {i j : Nat} (hi : i ≤ j) (hj : j < c.size) (h : IsPart c i j c') : Agree i 0 (j - i) c'.mat c.mat := by
  obtain ⟨_, hr, _, hs, hn⟩ := h.data hc hi hj
  have hj' : j < c.rows.length := hj
  have hs' : c'.rows.length = j - i + 1 := hs
  refine ⟨hn, by simp only [Curve.mat]; omega, by simp only [Curve.mat]; omega, fun k _ k2 l => ?_⟩
  simp only [Curve.mat]
  congr 1
  rw [List.getD_eq_getElem?_getD, List.getD_eq_getElem?_getD, hr, List.getElem?_drop, List.getElem?_take, if_pos (by omega)]

/-- **C173 (first order, partial).** At least one point away from both ends of the part: first derivative, speed and tangent vector are those of the curve.
Missing: the ends of the part, see `C173_ends_fails`. -/
theorem C173_first_partial {c c' : Curve ℝ} (hc : WF c) {i j : Nat} (hi : i ≤ j) (hj : j < c.size) (h : IsPart c i j c') {k : Nat} (k1 : 1 ≤ k) (k2 : k + 1 ≤ j - i) :
    (firstderiv c').rows[k]? = (firstderiv c).rows[i + k]? ∧ rowNorm (firstderiv c') k = rowNorm (firstderiv c) (i + k) ∧
      (frenet1 c').rows[k]? = (frenet1 c).rows[i + k]? := by
  have a1 : Agree i 1 (j - i - 1) (firstderiv c') (firstderiv c) := (h.mat hc hi hj).gradient (by omega)
  exact ⟨a1.get k1 (by omega), a1.norm k1 (by omega), a1.unit.get k1 (by omega)⟩

/-- **C173 (second order, partial).** At least two points away from both ends: second derivative, normal vectors and curvature. Missing: points nearer to the ends. -/
theorem C173_second_partial {c c' : Curve ℝ} (hc : WF c) {i j : Nat} (hi : i ≤ j) (hj : j < c.size) (h : IsPart c i j c') {k : Nat} (k1 : 2 ≤ k) (k2 : k + 2 ≤ j - i) :
    (secondderiv c').rows[k]? = (secondderiv c).rows[i + k]? ∧ (normal c').rows[k]? = (normal c).rows[i + k]? ∧
      (frenet2 c').rows[k]? = (frenet2 c).rows[i + k]? ∧
      ∃ xs' xs x, curvature c' = .ok xs' ∧ curvature c = .ok xs ∧ xs'[k]? = some x ∧ xs[i + k]? = some x := by
  obtain ⟨_, _, _, hs, hn⟩ := h.data hc hi hj
  have a1 : Agree i 1 (j - i - 1) (firstderiv c') (firstderiv c) := (h.mat hc hi hj).gradient (by omega)
  have a2 : Agree i 2 (j - i - 1 - 1) (secondderiv c') (secondderiv c) := a1.gradient (by omega)
  have b1 := a1.mono (lo' := 2) (hi' := j - i - 1 - 1) (by omega) (by omega)
  have n2 : Agree i 2 (j - i - 1 - 1) (normal c') (normal c) := a2.reject b1.unit
  refine ⟨a2.get k1 (by omega), n2.get k1 (by omega), n2.unit.get k1 (by omega), ?_⟩
  have cols : (firstderiv c').k = c.ncols ∧ (firstderiv c).k = c.ncols := by
    have : (firstderiv c).k = c.ncols := by
      unfold firstderiv gradient
      rw [if_pos (show 3 ≤ c.mat.m from by have : c.mat.m = c.size := rfl; omega)]
      rfl
    exact ⟨a1.cols.trans this, this⟩
  have nd : c'.ndim = c.ndim := hn
  by_cases h2 : c.ndim = 2
  · have h2' : c.ncols = 2 := h2
    refine ⟨(List.range c'.size).map (curvature2 c'), (List.range c.size).map (curvature2 c), curvature2 c (i + k), ?_, ?_, ?_, ?_⟩
    · unfold curvature
      rw [if_pos (by omega), if_neg (by omega)]
    · unfold curvature
      rw [if_pos h2, if_neg (by omega)]
    · rw [List.getElem?_map, List.getElem?_range (by omega)]
      simp only [Option.map_some, curvature2, b1.rows k k1 (by omega), a2.rows k k1 (by omega)]
    · rw [List.getElem?_map, List.getElem?_range (by omega)]
      rfl
  · refine ⟨(List.range c'.size).map (curvatureN c'), (List.range c.size).map (curvatureN c), curvatureN c (i + k), ?_, ?_, ?_, ?_⟩
    · unfold curvature
      rw [if_neg (by omega)]
    · unfold curvature
      rw [if_neg h2]
    · have g : Agree i 2 (j - i - 1 - 1) (gradient (frenet1 c')) (gradient (frenet1 c)) := a1.unit.gradient (by omega)
      rw [List.getElem?_map, List.getElem?_range (by omega)]
      simp only [Option.map_some, curvatureN, g.norm k1 (show k ≤ j - i - 1 - 1 by omega), b1.norm k1 (show k ≤ j - i - 1 - 1 by omega)]
    · rw [List.getElem?_map, List.getElem?_range (by omega)]
      rfl

/-- **C173 (third order, partial).** At least three points away from both ends: third derivative, binormal vectors and torsion. Missing: points nearer to the ends. -/
theorem C173_third_partial {c c' : Curve ℝ} (hc : WF c) {i j : Nat} (hi : i ≤ j) (hj : j < c.size) (h : IsPart c i j c') {k : Nat} (k1 : 3 ≤ k) (k2 : k + 3 ≤ j - i) :
    (thirdderiv c').rows[k]? = (thirdderiv c).rows[i + k]? ∧ (binormal c').rows[k]? = (binormal c).rows[i + k]? ∧
      (frenet3 c').rows[k]? = (frenet3 c).rows[i + k]? ∧ ∃ x, (torsion c')[k]? = some x ∧ (torsion c)[i + k]? = some x := by
  obtain ⟨_, _, _, hs, _⟩ := h.data hc hi hj
  have a1 : Agree i 1 (j - i - 1) (firstderiv c') (firstderiv c) := (h.mat hc hi hj).gradient (by omega)
  have a2 : Agree i 2 (j - i - 1 - 1) (secondderiv c') (secondderiv c) := a1.gradient (by omega)
  have a3 : Agree i 3 (j - i - 1 - 1 - 1) (thirdderiv c') (thirdderiv c) := a2.gradient (by omega)
  have n2 : Agree i 2 (j - i - 1 - 1) (normal c') (normal c) := a2.reject (a1.unit.mono (by omega) (by omega))
  have f2 : Agree i 2 (j - i - 1 - 1) (frenet2 c') (frenet2 c) := n2.unit
  have a1' := a1.mono (lo' := 3) (hi' := j - i - 1 - 1 - 1) (by omega) (by omega)
  have b3 : Agree i 3 (j - i - 1 - 1 - 1) (binormal c') (binormal c) := a3.reject2 a1'.unit (f2.mono (by omega) (by omega))
  have f3 : Agree i 3 (j - i - 1 - 1 - 1) (frenet3 c') (frenet3 c) := b3.unit
  have g : Agree i 3 (j - i - 1 - 1 - 1) (gradient (frenet2 c')) (gradient (frenet2 c)) := f2.gradient (by omega)
  have k3 : k ≤ j - i - 1 - 1 - 1 := by omega
  refine ⟨a3.get k1 k3, b3.get k1 k3, f3.get k1 k3, torsionAt c (i + k), ?_, ?_⟩
  · unfold torsion
    rw [List.getElem?_map, List.getElem?_range (by omega)]
    simp only [Option.map_some, torsionAt, g.dot f3 k1 k3, a1'.norm k1 k3]
  · unfold torsion
    rw [List.getElem?_map, List.getElem?_range (by omega)]
    rfl

/-- **C173 fails at the ends of the part.** The points 0, 1, 8, 27, 64 on an axis: the derivative at 1 is 4 on the curve and 1 on the part from 1 to 64. -/
theorem C173_ends_fails : ∃ c', IsPart (onAxis [0, 1, 8, 27, 64]) 1 4 c' ∧ (firstderiv (onAxis [0, 1, 8, 27, 64])).v 1 0 = 4 ∧ (firstderiv c').v 0 0 = 1 := by
  have hs : (4 : Nat) < (onAxis [0, 1, 8, 27, 64]).size := by simp [onAxis, Curve.size]
  obtain ⟨c', h, _⟩ := C173_part (onAxis_WF [0, 1, 8, 27, 64]) (i := 1) (j := 4) (by norm_num) hs
  obtain ⟨_, hr, _, _, _⟩ := h.data (onAxis_WF _) (by norm_num) hs
  refine ⟨c', h, ?_, ?_⟩
  · norm_num [firstderiv, gradient, npGradient, Curve.mat, onAxis]
  · have hr' : c'.rows = [[1, 0], [8, 0], [27, 0], [64, 0]] := by rw [hr]; simp [onAxis]
    norm_num [firstderiv, gradient, npGradient, Curve.mat, hr']

/-! ## The hypotheses are met -/

/-- C173: the part from 1 to 27 of the points above has length 26, and the derivative of the curve at its middle point 8. -/
example : ∃ c', IsPart (onAxis [0, 1, 8, 27, 64]) 1 3 c' ∧ (firstderiv c').rows[1]? = (firstderiv (onAxis [0, 1, 8, 27, 64])).rows[2]? ∧
    26 ≤ arclen 0 c' := by
  have hs : (3 : Nat) < (onAxis [0, 1, 8, 27, 64]).size := by simp [onAxis, Curve.size]
  obtain ⟨c', h, _⟩ := C173_part (onAxis_WF [0, 1, 8, 27, 64]) (i := 1) (j := 3) (by norm_num) hs
  refine ⟨c', h, (C173_first_partial (onAxis_WF _) (by norm_num) hs h (k := 1) le_rfl (by norm_num)).1, ?_⟩
  have := (C173_lengths (onAxis_WF _) (by norm_num) hs h 0).2.2.2 [1, 0] [27, 0] (by simp [onAxis]) (by simp [onAxis])
  refine le_trans (le_of_eq ?_) this
  show (26 : ℝ) = dist (pt 2 [1, 0]) (pt 2 [27, 0])
  rw [EuclideanSpace.dist_eq, Fin.sum_univ_two]
  simp only [pt, Real.dist_eq]
  norm_num
  rw [show (676 : ℝ) = 26 ^ 2 by norm_num, Real.sqrt_sq (by norm_num)]

/-- C173: a part of eight points, and the point in its middle. -/
example : ∃ c', IsPart (onAxis [0, 1, 8, 27, 64, 25, 6, 7, 8, 9]) 1 8 c' ∧ (c'.t 0).length = 8 ∧
    (secondderiv c').rows[3]? = (secondderiv (onAxis [0, 1, 8, 27, 64, 25, 6, 7, 8, 9])).rows[4]? ∧
    (thirdderiv c').rows[3]? = (thirdderiv (onAxis [0, 1, 8, 27, 64, 25, 6, 7, 8, 9])).rows[4]? := by
  have hs : (8 : Nat) < (onAxis [0, 1, 8, 27, 64, 25, 6, 7, 8, 9]).size := by simp [onAxis, Curve.size]
  obtain ⟨c', h, _⟩ := C173_part (onAxis_WF [0, 1, 8, 27, 64, 25, 6, 7, 8, 9]) (i := 1) (j := 8) (by norm_num) hs
  obtain ⟨hw, _, ht, hl, _⟩ := h.data (onAxis_WF _) (by norm_num) hs
  refine ⟨c', h, ?_, (C173_second_partial (onAxis_WF _) (by norm_num) hs h (k := 3) (by norm_num) (by norm_num)).1,
    (C173_third_partial (onAxis_WF _) (by norm_num) hs h (k := 3) le_rfl (by norm_num)).1⟩
  have hn : c'.tdata = none := by rw [ht]; rfl
  have hne : c'.rows ≠ [] := by intro h0; simp [Curve.size, h0] at hl
  unfold Curve.t
  rw [hn]
  exact (C50_cumarclen_partial hw hne 0).1.trans hl

end Verif.Props
