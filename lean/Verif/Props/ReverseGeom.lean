import Verif.Props.Motion

/-!
C109: differential geometry of a curve run through backwards.
-/
namespace Verif.Spec

open Verif Verif.Model

/-- The values from the last point to the first. -/
def fromLast : PropVal → PropVal
  | .nums xs => .nums xs.reverse
  | .rows rs => .rows rs.reverse
  | .num x => .num x

/-- The values from the last point to the first, with the opposite sign. -/
noncomputable def negFromLast : PropVal → PropVal
  | .nums xs => .nums (xs.reverse.map Val.neg)
  | .rows rs => .rows (rs.reverse.map fun r => r.map (- ·))
  | .num x => .num (-x)

end Verif.Spec

namespace Verif.Props

open Verif Verif.Np Verif.Model Verif.Spec

/-- `b` is `a` from the last row to the first, with the sign `σ`. -/
structure Mirror (σ : ℝ) (a b : NMat) : Prop where
  m : b.m = a.m
  k : b.k = a.k
  v : ∀ i j, i < a.m → b.v i j = σ * a.v (a.m - 1 - i) j

theorem mirror_gradient {σ : ℝ} {a b : NMat} (h : Mirror σ a b) : Mirror (-σ) (gradient a) (gradient b) := by
  refine ⟨by simp [h.m], ?_, ?_⟩
  · unfold gradient
    rw [h.m]
    split_ifs
    · exact h.k
    · exact h.k
    · rfl
  · intro i j hi
    rw [gradient_m] at hi ⊢
    rw [gradient_v, gradient_v, h.m, grad1_congr (fun l hl => h.v l j hl) hi]
    have e := grad1_lin a.m (fun l => a.v (a.m - 1 - l) j) (fun _ => 0) σ 0 i
    simp only [mul_zero, add_zero, zero_mul] at e
    rw [e, grad1_reverse (fun l => a.v l j) hi]
    ring

section
variable {σ : ℝ} (hσ : σ ^ 2 = 1)
include hσ

theorem mirror_norm {a b : NMat} (h : Mirror σ a b) {i : Nat} (hi : i < a.m) : rowNorm b i = rowNorm a (a.m - 1 - i) := by
  unfold rowNorm
  rw [h.k]
  congr 1
  refine Finset.sum_congr rfl fun j _ => ?_
  rw [h.v i j hi, mul_pow, hσ, one_mul]

theorem mirror_unit {a b : NMat} (h : Mirror σ a b) : Mirror σ (unitRows a) (unitRows b) := by
  refine ⟨h.m, h.k, ?_⟩
  intro i j hi
  have hi : i < a.m := hi
  show b.v i j / frenetNorm b i = σ * (a.v (a.m - 1 - i) j / frenetNorm a (a.m - 1 - i))
  unfold frenetNorm
  rw [mirror_norm hσ h hi, h.v i j hi, mul_div_assoc]

end

theorem mirror_dot {σ τ : ℝ} {a b d e : NMat} (h : Mirror σ a b) (h' : Mirror τ d e) (hm : a.m = d.m) {i : Nat} (hi : i < a.m) :
    dotRow b e i = σ * τ * dotRow a d (a.m - 1 - i) := by
  unfold dotRow
  rw [h.k, Finset.mul_sum]
  refine Finset.sum_congr rfl fun j _ => ?_
  rw [h.v i j hi, h'.v i j (by omega), ← hm]
  ring

theorem mirror_reject {σ τ : ℝ} (hτ : τ ^ 2 = 1) {s t e f : NMat} (h : Mirror σ s t) (h' : Mirror τ e f) (hm : s.m = e.m) :
    Mirror σ (reject s e) (reject t f) := by
  refine ⟨h.m, h.k, ?_⟩
  intro i j hi
  have hi : i < s.m := hi
  show t.v i j - dotRow t f i * f.v i j = σ * (s.v (s.m - 1 - i) j - dotRow s e (s.m - 1 - i) * e.v (s.m - 1 - i) j)
  rw [mirror_dot h h' hm hi, h.v i j hi, h'.v i j (by omega), ← hm]
  linear_combination (- σ * dotRow s e (s.m - 1 - i) * e.v (s.m - 1 - i) j) * hτ

theorem mirror_reject2 {σ τ υ : ℝ} (hτ : τ ^ 2 = 1) (hυ : υ ^ 2 = 1) {s t e f g q : NMat} (h : Mirror σ s t) (h' : Mirror τ e f)
    (h'' : Mirror υ g q) (hm : s.m = e.m) (hm' : s.m = g.m) : Mirror σ (reject2 s e g) (reject2 t f q) := by
  refine ⟨h.m, h.k, ?_⟩
  intro i j hi
  have hi : i < s.m := hi
  show t.v i j - dotRow t f i * f.v i j - dotRow t q i * q.v i j = σ * (s.v (s.m - 1 - i) j - dotRow s e (s.m - 1 - i) * e.v (s.m - 1 - i) j -
    dotRow s g (s.m - 1 - i) * g.v (s.m - 1 - i) j)
  rw [mirror_dot h h' hm hi, mirror_dot h h'' hm' hi, h.v i j hi, h'.v i j (by omega), h''.v i j (by omega), ← hm, ← hm']
  linear_combination (- σ * dotRow s e (s.m - 1 - i) * e.v (s.m - 1 - i) j) * hτ + (- σ * dotRow s g (s.m - 1 - i) * g.v (s.m - 1 - i) j) * hυ

theorem range_reverse_map {α : Type} {m : Nat} {f g : Nat → α} (h : ∀ i, i < m → g i = f (m - 1 - i)) :
    (List.range m).map g = ((List.range m).map f).reverse := by
  apply List.ext_getElem (by simp)
  intro i h1 h2
  simp only [List.length_map, List.length_range] at h1
  simp only [List.getElem_map, List.getElem_range, List.getElem_reverse, List.length_map, List.length_range]
  exact h i h1

theorem mirror_rows {a b : NMat} (h : Mirror 1 a b) : b.rows = a.rows.reverse := by
  unfold NMat.rows
  rw [h.m, h.k]
  refine range_reverse_map fun i hi => ?_
  apply List.map_congr_left
  intro j _
  rw [h.v i j hi, one_mul]

theorem mirror_rows_neg {a b : NMat} (h : Mirror (-1) a b) : b.rows = a.rows.reverse.map fun r => r.map (- ·) := by
  rw [← List.map_reverse.symm]
  unfold NMat.rows
  rw [h.m, h.k, List.map_map]
  refine range_reverse_map fun i hi => ?_
  simp only [Function.comp, List.map_map]
  apply List.map_congr_left
  intro j _
  simp only [Function.comp]
  rw [h.v i j hi, neg_one_mul]

/-- Signs of all arrays of a curve run through backwards. -/
theorem mirror_all {c c' : Curve ℝ} (hn : c'.ncols = c.ncols) (hr : c'.rows = c.rows.reverse) :
    Mirror (-1) (firstderiv c) (firstderiv c') ∧ Mirror 1 (secondderiv c) (secondderiv c') ∧ Mirror (-1) (thirdderiv c) (thirdderiv c') ∧
    Mirror (-1) (frenet1 c) (frenet1 c') ∧ Mirror 1 (normal c) (normal c') ∧ Mirror 1 (frenet2 c) (frenet2 c') ∧
    Mirror (-1) (binormal c) (binormal c') ∧ Mirror (-1) (frenet3 c) (frenet3 c') := by
  obtain ⟨m1, m2, m3, m4, m5, m6, m7, m8⟩ := shapes_m c
  have r0 : Mirror 1 c.mat c'.mat := by
    refine ⟨by simp [Curve.mat, hr], hn, ?_⟩
    intro i j hi
    have hi : i < c.rows.length := hi
    show (c'.rows.getD i []).getD j 0 = 1 * (c.rows.getD (c.rows.length - 1 - i) []).getD j 0
    rw [hr, one_mul, List.getD_eq_getElem?_getD (l := c.rows.reverse), List.getElem?_reverse hi, ← List.getD_eq_getElem?_getD]
  have r1 : Mirror (-1) (firstderiv c) (firstderiv c') := mirror_gradient r0
  have r2 : Mirror 1 (secondderiv c) (secondderiv c') := by have := mirror_gradient r1; rwa [neg_neg] at this
  have r3 : Mirror (-1) (thirdderiv c) (thirdderiv c') := mirror_gradient r2
  have f1 : Mirror (-1) (frenet1 c) (frenet1 c') := mirror_unit (by norm_num) r1
  have nn : Mirror 1 (normal c) (normal c') := mirror_reject (by norm_num) r2 f1 (by omega)
  have f2 : Mirror 1 (frenet2 c) (frenet2 c') := mirror_unit (by norm_num) nn
  have bb : Mirror (-1) (binormal c) (binormal c') := mirror_reject2 (by norm_num) (by norm_num) r3 f1 f2 (by omega) (by omega)
  exact ⟨r1, r2, r3, f1, nn, f2, bb, mirror_unit (by norm_num) bb⟩

theorem div_neg_left (a b : ℝ) : Val.div (.fin (-a)) (.fin b) = (Val.div (.fin a) (.fin b)).neg := by
  simp only [Val.div]
  by_cases hb : b = 0
  · rw [if_pos hb, if_pos hb]
    rcases lt_trichotomy a 0 with h | h | h
    · simp [Val.infOfSign, h, h.le, Val.neg, not_lt.2 h.le]
    · subst h; simp [Val.infOfSign, Val.neg]
    · simp [Val.infOfSign, h, Val.neg, not_lt.2 h.le]
  · rw [if_neg hb, if_neg hb, Val.neg, neg_div]

section
variable {c c' : Curve ℝ} (hc : WF c) (hr : c.reverse = .ok c')
include hc hr

theorem reverse_shape : c'.rows = c.rows.reverse ∧ (c.rows ≠ [] → c'.ncols = c.ncols) := by
  rw [reverse_eq hc] at hr
  injection hr with hr
  subst hr
  exact ⟨rfl, fun h => by simp [h]⟩

/-- **C109 (vectors).** Run through backwards, a curve has the opposite first and third derivatives, tangent, binormal, first and third
Frenet vectors, and the same second derivatives, normals and second Frenet vectors, each at the corresponding points. -/
theorem C109_vectors (junk : ℝ) :
    (∀ f, f = .firstderiv ∨ f = .tangent ∨ f = .thirdderiv ∨ f = .frenet1 ∨ f = .binormal ∨ f = .frenet3 →
      ∃ v, fresh junk c f = .ok v ∧ fresh junk c' f = .ok (negFromLast v)) ∧
    (∀ f, f = .secondderiv ∨ f = .normal ∨ f = .frenet2 → ∃ v, fresh junk c f = .ok v ∧ fresh junk c' f = .ok (fromLast v)) := by
  obtain ⟨h1, h2⟩ := reverse_shape hc hr
  by_cases hne : c.rows = []
  · have e : c'.rows = [] := by rw [h1, hne]; rfl
    have z : ∀ a : NMat, a.m = 0 → a.rows = [] := fun a h => by simp [NMat.rows, h]
    obtain ⟨m1, m2, m3, m4, m5, m6, m7, m8⟩ := shapes_m c
    obtain ⟨n1, n2, n3, n4, n5, n6, n7, n8⟩ := shapes_m c'
    have s : c.size = 0 := by simp [Curve.size, hne]
    have s' : c'.size = 0 := by simp [Curve.size, e]
    constructor
    · rintro f (rfl | rfl | rfl | rfl | rfl | rfl) <;> refine ⟨_, rfl, ?_⟩ <;> simp only [fresh, negFromLast] <;>
        rw [z _ (by omega), z _ (by omega)] <;> rfl
    · rintro f (rfl | rfl | rfl) <;> refine ⟨_, rfl, ?_⟩ <;> simp only [fresh, fromLast] <;>
        rw [z _ (by omega), z _ (by omega)] <;> rfl
  obtain ⟨r1, r2, r3, f1, nn, f2, bb, f3⟩ := mirror_all (h2 hne) h1
  constructor
  · rintro f (rfl | rfl | rfl | rfl | rfl | rfl) <;> refine ⟨_, rfl, ?_⟩ <;> simp only [fresh, negFromLast]
    · rw [mirror_rows_neg r1]
    · rw [mirror_rows_neg r1]
    · rw [mirror_rows_neg r3]
    · rw [mirror_rows_neg f1]
    · rw [mirror_rows_neg bb]
    · rw [mirror_rows_neg f3]
  · rintro f (rfl | rfl | rfl) <;> refine ⟨_, rfl, ?_⟩ <;> simp only [fresh, fromLast]
    · rw [mirror_rows r2]
    · rw [mirror_rows nn]
    · rw [mirror_rows f2]

/-- **C109 (numbers).** Run through backwards, a curve has the same speed and torsion at the corresponding points; the same curvature if it
is not a plane curve, and the opposite (signed) curvature if it is one. -/
theorem C109_numbers (hne : c.rows ≠ []) (junk : ℝ) :
    (∃ v, fresh junk c .speed = .ok v ∧ fresh junk c' .speed = .ok (fromLast v)) ∧
    (∃ v, fresh junk c .torsion = .ok v ∧ fresh junk c' .torsion = .ok (fromLast v)) ∧
    (c.ndim ≠ 2 → ∃ v, fresh junk c .curvature = .ok v ∧ fresh junk c' .curvature = .ok (fromLast v)) ∧
    (c.ndim = 2 → 2 ≤ c.size → ∃ v, fresh junk c .curvature = .ok v ∧ fresh junk c' .curvature = .ok (negFromLast v)) := by
  obtain ⟨h1, h2⟩ := reverse_shape hc hr
  have h2 := h2 hne
  have hne' : c'.rows ≠ [] := by rw [h1]; simpa using hne
  obtain ⟨r1, r2, r3, f1, nn, f2, bb, f3⟩ := mirror_all h2 h1
  obtain ⟨m1, m2, m3, m4, m5, m6, m7, m8⟩ := shapes_m c
  have hs : c'.size = c.size := by simp [Curve.size, h1]
  have hsp : ∀ i, i < c.size → rowNorm (firstderiv c') i = rowNorm (firstderiv c) (c.size - 1 - i) := by
    intro i hi
    rw [mirror_norm (by norm_num) r1 (by omega), m1]
  have g1 := mirror_gradient f1
  have g2 := mirror_gradient f2
  refine ⟨?_, ?_, ?_, ?_⟩
  · simp only [fresh, if_neg hne, if_neg hne', hs]
    refine ⟨_, rfl, ?_⟩
    simp only [fromLast]
    rw [range_reverse_map (f := fun i => Val.fin (rowNorm (firstderiv c) i)) fun i hi => by rw [hsp i hi]]
  · refine ⟨_, rfl, ?_⟩
    simp only [fresh, fromLast, torsion, hs]
    rw [range_reverse_map fun i hi => ?_]
    unfold torsionAt
    rw [hsp i hi, mirror_dot g2 f3 (by rw [gradient_m]; omega) (by rw [gradient_m]; omega), gradient_m, m6]
    norm_num
  · intro hd
    have hd' : c'.ndim ≠ 2 := by rw [show c'.ndim = c.ndim from h2]; exact hd
    simp only [fresh, if_neg hne, if_neg hne', Model.curvature, if_neg hd, if_neg hd', hs]
    refine ⟨_, rfl, ?_⟩
    simp only [fromLast]
    rw [range_reverse_map fun i hi => ?_]
    unfold curvatureN
    rw [hsp i hi, mirror_norm (by norm_num) g1 (by rw [gradient_m]; omega), gradient_m, m4]
  · intro hd hl
    have hd' : c'.ndim = 2 := by rw [show c'.ndim = c.ndim from h2]; exact hd
    have k1 : (firstderiv c).k = c.ndim := firstderiv_k hl
    have k1' : (firstderiv c').k = c'.ndim := firstderiv_k (by omega)
    simp only [fresh, if_neg hne, if_neg hne', Model.curvature, if_pos hd, if_pos hd', hs, k1, k1', if_neg (show ¬ c.ndim < 2 by omega),
      if_neg (show ¬ c'.ndim < 2 by omega)]
    refine ⟨_, rfl, ?_⟩
    simp only [negFromLast]
    rw [← List.map_reverse.symm, List.map_map, range_reverse_map fun i hi => ?_]
    simp only [Function.comp, curvature2]
    rw [r1.v i 0 (by omega), r1.v i 1 (by omega), r2.v i 0 (by omega), r2.v i 1 (by omega), m1, m2, ← div_neg_left]
    congr 2 <;> ring_nf

end

/-! ## Instances -/

/-- Three points around a corner. -/
def exBend : Curve ℝ := ⟨[[0, 0], [1, 0], [1, 1]], 2, none, .float⟩

theorem exBend_WF : WF exBend where
  two_le := by simp [exBend]
  rect := by simp [exBend]
  tlen := by simp [exBend]
  repr := by intro r _ x _; rfl

/-- The reversed corner turns to the right. -/
example : ∃ c' v, exBend.reverse = .ok c' ∧ fresh 0 exBend .curvature = .ok v ∧ fresh 0 c' .curvature = .ok (negFromLast v) := by
  have h : ∃ c', exBend.reverse = .ok c' := ⟨_, reverse_eq exBend_WF⟩
  obtain ⟨c', h⟩ := h
  obtain ⟨v, h1, h2⟩ := (C109_numbers exBend_WF h (by simp [exBend]) 0).2.2.2 rfl (by simp [exBend, Curve.size])
  exact ⟨c', v, h, h1, h2⟩

example : ∃ c' v, exBend.reverse = .ok c' ∧ fresh 0 exBend .frenet1 = .ok v ∧ fresh 0 c' .frenet1 = .ok (negFromLast v) := by
  have h : ∃ c', exBend.reverse = .ok c' := ⟨_, reverse_eq exBend_WF⟩
  obtain ⟨c', h⟩ := h
  obtain ⟨v, h1, h2⟩ := (C109_vectors exBend_WF h 0).1 .frenet1 (by simp)
  exact ⟨c', v, h, h1, h2⟩

end Verif.Props
