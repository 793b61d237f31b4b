import Verif.Props.Local
import Verif.Props.ReverseGeom

/-!
C110: differential geometry at a point depends on the neighbouring points only.
-/
namespace Verif.Spec

open Verif Verif.Model

/-- The point `i` of `c` and the point `i'` of `c'` have `w` neighbours on either side, and these, the points themselves and the dimensions
are the same. -/
structure SameAround (w i i' : Nat) (c c' : Curve ℝ) : Prop where
  ncols : c'.ncols = c.ncols
  lo : w ≤ i
  lo' : w ≤ i'
  hi : i + w < c.rows.length
  hi' : i' + w < c'.rows.length
  pts : ∀ p q, p + i' = q + i → i ≤ p + w → p ≤ i + w → c'.rows[q]? = c.rows[p]?

/-- How many neighbours on either side the value of a property depends on. -/
inductive Reach : PropName → Nat → Prop
  | firstderiv : Reach .firstderiv 1
  | tangent : Reach .tangent 1
  | speed : Reach .speed 1
  | frenet1 : Reach .frenet1 1
  | secondderiv : Reach .secondderiv 2
  | normal : Reach .normal 2
  | frenet2 : Reach .frenet2 2
  | curvature : Reach .curvature 2
  | thirdderiv : Reach .thirdderiv 3
  | binormal : Reach .binormal 3
  | frenet3 : Reach .frenet3 3
  | torsion : Reach .torsion 3

end Verif.Spec

namespace Verif.Props

open Verif Verif.Np Verif.Model Verif.Spec

/-- The rows of `b` around `i'` are those of `a` around `i`. -/
structure NearRows (w i i' : Nat) (a b : NMat) : Prop where
  k : b.k = a.k
  lo : w ≤ i
  lo' : w ≤ i'
  hi : i + w < a.m
  hi' : i' + w < b.m
  v : ∀ p q j, p + i' = q + i → i ≤ p + w → p ≤ i + w → b.v q j = a.v p j

section
variable {w i i' : Nat}

theorem NearRows.weaken {w' : Nat} {a b : NMat} (h : NearRows w i i' a b) (hw : w' ≤ w) : NearRows w' i i' a b := by
  have := h.lo; have := h.lo'; have := h.hi; have := h.hi'
  exact ⟨h.k, by omega, by omega, by omega, by omega, fun p q j e1 e2 e3 => h.v p q j e1 (by omega) (by omega)⟩

theorem near_gradient {a b : NMat} (h : NearRows (w + 1) i i' a b) : NearRows w i i' (gradient a) (gradient b) := by
  have l := h.lo; have l' := h.lo'; have u := h.hi; have u' := h.hi'
  refine ⟨by rw [gradient_k (by omega), gradient_k (by omega), h.k], by omega, by omega, by simp; omega, by simp; omega, ?_⟩
  intro p q j e1 e2 e3
  rw [gradient_v, gradient_v]
  unfold grad1 npGradient
  rw [if_pos (show 3 ≤ b.m by omega), if_pos (show 3 ≤ a.m by omega), if_neg (show ¬ q = 0 by omega), if_neg (show ¬ q = b.m - 1 by omega),
    if_neg (show ¬ p = 0 by omega), if_neg (show ¬ p = a.m - 1 by omega)]
  show (b.v (q + 1) j - b.v (q - 1) j) / 2 = (a.v (p + 1) j - a.v (p - 1) j) / 2
  rw [h.v (p + 1) (q + 1) j (by omega) (by omega) (by omega), h.v (p - 1) (q - 1) j (by omega) (by omega) (by omega)]

theorem near_norm {a b : NMat} (h : NearRows w i i' a b) {p q : Nat} (e1 : p + i' = q + i) (e2 : i ≤ p + w) (e3 : p ≤ i + w) :
    rowNorm b q = rowNorm a p := by
  unfold rowNorm
  rw [h.k]
  congr 1
  exact Finset.sum_congr rfl fun j _ => by rw [h.v p q j e1 e2 e3]

theorem near_dot {a b d e : NMat} (h : NearRows w i i' a b) (h' : NearRows w i i' d e) {p q : Nat} (e1 : p + i' = q + i) (e2 : i ≤ p + w) (e3 : p ≤ i + w) :
    dotRow b e q = dotRow a d p := by
  unfold dotRow
  rw [h.k]
  exact Finset.sum_congr rfl fun j _ => by rw [h.v p q j e1 e2 e3, h'.v p q j e1 e2 e3]

theorem near_unit {a b : NMat} (h : NearRows w i i' a b) : NearRows w i i' (unitRows a) (unitRows b) := by
  refine ⟨h.k, h.lo, h.lo', h.hi, h.hi', ?_⟩
  intro p q j e1 e2 e3
  show b.v q j / frenetNorm b q = a.v p j / frenetNorm a p
  unfold frenetNorm
  rw [near_norm h e1 e2 e3, h.v p q j e1 e2 e3]

theorem near_reject {s t e f : NMat} (h : NearRows w i i' s t) (h' : NearRows w i i' e f) : NearRows w i i' (reject s e) (reject t f) := by
  refine ⟨h.k, h.lo, h.lo', h.hi, h.hi', ?_⟩
  intro p q j e1 e2 e3
  show t.v q j - dotRow t f q * f.v q j = s.v p j - dotRow s e p * e.v p j
  rw [near_dot h h' e1 e2 e3, h.v p q j e1 e2 e3, h'.v p q j e1 e2 e3]

theorem near_reject2 {s t e f g o : NMat} (h : NearRows w i i' s t) (h' : NearRows w i i' e f) (h'' : NearRows w i i' g o) :
    NearRows w i i' (reject2 s e g) (reject2 t f o) := by
  refine ⟨h.k, h.lo, h.lo', h.hi, h.hi', ?_⟩
  intro p q j e1 e2 e3
  show t.v q j - dotRow t f q * f.v q j - dotRow t o q * o.v q j = s.v p j - dotRow s e p * e.v p j - dotRow s g p * g.v p j
  rw [near_dot h h' e1 e2 e3, near_dot h h'' e1 e2 e3, h.v p q j e1 e2 e3, h'.v p q j e1 e2 e3, h''.v p q j e1 e2 e3]

theorem near_row {a b : NMat} (h : NearRows w i i' a b) : b.rows[i']? = a.rows[i]? := by
  have u := h.hi; have u' := h.hi'
  unfold NMat.rows
  rw [List.getElem?_map, List.getElem?_map, List.getElem?_range (by omega), List.getElem?_range (by omega), h.k]
  simp only [Option.map_some, Option.some.injEq]
  exact List.map_congr_left fun j _ => h.v i i' j (by omega) (by omega) (by omega)

theorem near_mat {c c' : Curve ℝ} (h : SameAround w i i' c c') : NearRows w i i' c.mat c'.mat := by
  refine ⟨h.ncols, h.lo, h.lo', h.hi, h.hi', ?_⟩
  intro p q j e1 e2 e3
  show (c'.rows.getD q []).getD j 0 = (c.rows.getD p []).getD j 0
  rw [List.getD_eq_getElem?_getD (l := c'.rows), List.getD_eq_getElem?_getD (l := c.rows), h.pts p q e1 e2 e3]

theorem near_first {c c' : Curve ℝ} (h : SameAround (w + 1) i i' c c') : NearRows w i i' (firstderiv c) (firstderiv c') := near_gradient (near_mat h)

theorem near_second {c c' : Curve ℝ} (h : SameAround (w + 2) i i' c c') : NearRows w i i' (secondderiv c) (secondderiv c') ∧
    NearRows w i i' (normal c) (normal c') ∧ NearRows w i i' (frenet2 c) (frenet2 c') := by
  have r1 : NearRows (w + 1) i i' (firstderiv c) (firstderiv c') := near_first h
  have r2 : NearRows w i i' (secondderiv c) (secondderiv c') := near_gradient r1
  have nn : NearRows w i i' (normal c) (normal c') := near_reject r2 (near_unit (r1.weaken (by omega)))
  exact ⟨r2, nn, near_unit nn⟩

theorem near_third {c c' : Curve ℝ} (h : SameAround (w + 3) i i' c c') : NearRows w i i' (thirdderiv c) (thirdderiv c') ∧
    NearRows w i i' (binormal c) (binormal c') ∧ NearRows w i i' (frenet3 c) (frenet3 c') := by
  obtain ⟨r2, _, f2⟩ := near_second (w := w + 1) h
  have r1 : NearRows (w + 2) i i' (firstderiv c) (firstderiv c') := near_first h
  have r3 : NearRows w i i' (thirdderiv c) (thirdderiv c') := near_gradient r2
  have bb : NearRows w i i' (binormal c) (binormal c') := near_reject2 r3 (near_unit (r1.weaken (by omega))) (f2.weaken (by omega))
  exact ⟨r3, bb, near_unit bb⟩

end

theorem getIdx_congr {α : Type} {xs ys : List α} {i j : Nat} (h : ys[j]? = xs[i]?) : getIdx ys (j : Int) = getIdx xs (i : Int) := by
  by_cases hi : i < xs.length
  · have hj : j < ys.length := by
      rw [List.getElem?_eq_getElem hi] at h
      exact (List.getElem?_eq_some_iff.1 h).1
    unfold getIdx normIdx
    simp [hi, hj] at h ⊢
    rw [h]
  · have hj : ¬ j < ys.length := by
      rw [List.getElem?_eq_none (Nat.le_of_not_lt hi)] at h
      have := List.getElem?_eq_none_iff.1 h
      omega
    unfold getIdx normIdx
    simp [hi, hj]

/-- **C110.** The derivatives, Frenet vectors, speed, curvature and torsion at a point depend only on the point and one, two or three
neighbours on either side: if these are the same for points of two curves, so is the property. -/
theorem C110_local {f : PropName} {w i i' : Nat} (hf : Reach f w) {p p' : CurvePoint ℝ} (h : SameAround w i i' p.curve p'.curve)
    (hi : p.idx = i) (hi' : p'.idx = i') (junk : ℝ) : CurvePoint.prop junk p' f = CurvePoint.prop junk p f := by
  have l := h.lo; have l' := h.lo'; have u := h.hi; have u' := h.hi'
  have e : p.curve.size = p.curve.rows.length := rfl
  have e' : p'.curve.size = p'.curve.rows.length := rfl
  unfold CurvePoint.prop
  rw [hi, hi']
  have hne : p.curve.rows ≠ [] := by intro h0; rw [h0] at u; simp at u
  have hne' : p'.curve.rows ≠ [] := by intro h0; rw [h0] at u'; simp at u'
  have row : ∀ {a b : NMat} {w : Nat}, NearRows w i i' a b → (PropVal.rows b.rows).at i' = (PropVal.rows a.rows).at i := by
    intro a b w hn
    simp only [PropVal.at]
    rw [getIdx_congr (near_row hn)]
  have num : ∀ {g g' : Nat → Val ℝ}, g' i' = g i →
      (PropVal.nums ((List.range p'.curve.size).map g')).at i' = (PropVal.nums ((List.range p.curve.size).map g)).at i := by
    intro g g' hg
    simp only [PropVal.at]
    rw [getIdx_congr]
    rw [List.getElem?_map, List.getElem?_map, List.getElem?_range (by omega), List.getElem?_range (by omega)]
    simp [hg]
  cases hf with
  | firstderiv => exact row (near_first (w := 0) h)
  | tangent => exact row (near_first (w := 0) h)
  | speed =>
    simp only [fresh, if_neg hne, if_neg hne']
    exact num (by rw [near_norm (p := i) (q := i') (near_first (w := 0) h) (by omega) (by omega) (by omega)])
  | frenet1 => exact row (near_unit (near_first (w := 0) h))
  | secondderiv => exact row (near_second (w := 0) h).1
  | normal => exact row (near_second (w := 0) h).2.1
  | frenet2 => exact row (near_second (w := 0) h).2.2
  | curvature =>
    have hd : p'.curve.ndim = p.curve.ndim := h.ncols
    have k1 : (firstderiv p.curve).k = p.curve.ndim := firstderiv_k (by omega)
    have k1' : (firstderiv p'.curve).k = p'.curve.ndim := firstderiv_k (by omega)
    have n1 : NearRows 1 i i' (firstderiv p.curve) (firstderiv p'.curve) := near_first h
    have n2 := (near_second (w := 0) h).1
    simp only [fresh, if_neg hne, if_neg hne', Model.curvature, hd, k1, k1']
    by_cases h2 : p.curve.ndim = 2
    · simp only [if_pos h2, if_neg (show ¬ p.curve.ndim < 2 by omega)]
      refine num ?_
      unfold curvature2
      rw [n1.v i i' 0 (by omega) (by omega) (by omega), n1.v i i' 1 (by omega) (by omega) (by omega), n2.v i i' 0 (by omega) (by omega) (by omega),
        n2.v i i' 1 (by omega) (by omega) (by omega)]
    · simp only [if_neg h2]
      refine num ?_
      unfold curvatureN
      rw [near_norm (p := i) (q := i') n1 (by omega) (by omega) (by omega),
        near_norm (p := i) (q := i') (near_gradient (w := 0) (show NearRows 1 i i' (frenet1 p.curve) (frenet1 p'.curve) from near_unit n1)) (by omega) (by omega) (by omega)]
  | thirdderiv => exact row (near_third (w := 0) h).1
  | binormal => exact row (near_third (w := 0) h).2.1
  | frenet3 => exact row (near_third (w := 0) h).2.2
  | torsion =>
    have n1 : NearRows 2 i i' (firstderiv p.curve) (firstderiv p'.curve) := near_first h
    refine num ?_
    unfold torsionAt
    rw [near_norm (p := i) (q := i') n1 (by omega) (by omega) (by omega), near_dot (p := i) (q := i') (near_gradient (w := 0) (near_second (w := 1) h).2.2) (near_third (w := 0) h).2.2
      (by omega) (by omega) (by omega)]

/-- **C110 (slices).** The points of a slice have the same derivatives, Frenet vectors, speed, curvature and torsion as in the curve, except
the first and last one, two or three. -/
theorem C110_slice {c c' : Curve ℝ} (hc : WF c) {a b : Nat} (hsub : c.getSub (.slice ⟨some a, some b, none⟩) = .ok c') (hb : b ≤ c.size)
    {f : PropName} {w i : Nat} (hf : Reach f w) (h0 : w ≤ i) (h1 : a + i + w < b) {p p' : CurvePoint ℝ} (hp : p.curve = c) (hp' : p'.curve = c')
    (hi : p.idx = (a + i : Nat)) (hi' : p'.idx = i) (junk : ℝ) : CurvePoint.prop junk p' f = CurvePoint.prop junk p f := by
  have hw : 1 ≤ w := by cases hf <;> omega
  obtain ⟨_, _, _, h4, h5, h6⟩ := slice_rows hc hsub hb (by omega)
  have hs : c.size = c.rows.length := rfl
  have hs' : c'.size = c'.rows.length := rfl
  refine C110_local hf (i := a + i) (i' := i) ?_ hi hi' junk
  rw [hp, hp']
  refine ⟨h4, by omega, h0, by omega, by omega, ?_⟩
  intro u v e1 e2 e3
  obtain rfl : u = a + v := by omega
  exact h6 v (by omega)

/-! ## Instances -/

example : SameAround 1 1 1 ⟨[[0, 0], [1, 0], [1, 1], [5, 5]], 2, none, .float⟩ ⟨[[0, 0], [1, 0], [1, 1]], 2, none, .float⟩ := by
  refine ⟨rfl, by omega, by omega, by simp, by simp, ?_⟩
  intro p q e1 _ e3
  obtain rfl : p = q := by omega
  have : p = 0 ∨ p = 1 ∨ p = 2 := by omega
  rcases this with rfl | rfl | rfl <;> rfl

/-- The slice `exTail[1:5]` of six points, at its second point. -/
example : ∃ c', (exTail 3).getSub (.slice ⟨some 1, some 5, none⟩) = .ok c' ∧
    CurvePoint.prop 0 ⟨⟨[1, 0], .float⟩, 1, c', 1⟩ .tangent = CurvePoint.prop 0 ⟨⟨[1, 0], .float⟩, 2, exTail 3, 0⟩ .tangent := by
  obtain ⟨c', hsub, _⟩ := C07_plain (exTail_WF 3) 1 5
  exact ⟨c', hsub, C110_slice (exTail_WF 3) (a := 1) (b := 5) hsub (by simp [exTail, Curve.size]) .tangent (i := 1) (by omega) (by omega) rfl rfl rfl rfl 0⟩

/-- **C110 (the ends).** At the first point of a slice the properties are others than in the curve. -/
theorem C110_ends_fails : ∃ c', exBend.getSub (.slice ⟨some 1, some 3, none⟩) = .ok c' ∧
    CurvePoint.prop 0 ⟨⟨[1, 0], .float⟩, 0, c', 1⟩ .firstderiv = .ok (.row [0, 1]) ∧
    CurvePoint.prop 0 ⟨⟨[1, 0], .float⟩, 1, exBend, 0⟩ .firstderiv = .ok (.row [1 / 2, 1 / 2]) := by
  obtain ⟨c', hsub, _⟩ := C07_plain exBend_WF 1 3
  refine ⟨c', hsub, ?_, ?_⟩
  · obtain ⟨h1, h2, h3, h4, _⟩ := slice_rows exBend_WF (a := 1) (b := 3) hsub (by simp [exBend, Curve.size]) (by omega)
    obtain ⟨rows, ncols, tdata, dtype⟩ := c'
    subst h1
    simp only at h4
    subst h4
    simp [CurvePoint.prop, fresh, firstderiv, gradient, Curve.mat, NMat.rows, exBend, PropVal.at, getIdx, normIdx, npGradient, List.range_succ, Except.map]
  · simp [CurvePoint.prop, fresh, firstderiv, gradient, Curve.mat, NMat.rows, exBend, PropVal.at, getIdx, normIdx, npGradient, List.range_succ, Except.map]

end Verif.Props
