import Verif.Lemmas.NonFinite
import Verif.Props.Nonsingular
import Verif.Props.Boundary
import Verif.Props.Construct
import Verif.Props.IntersectCurves

/-!
C162: curves with NaN and infinite coordinates. Which lengths, derivatives, Frenet vectors, curvatures and torsions a point that is not finite spoils, and that the others are what they would be for a curve of numbers.
-/
namespace Verif.Spec

open Verif Verif.Np Verif.Model

/-- Point `l` of the curve with special values is point `l` of the curve of numbers. -/
def SamePoint (c : Curve (Val ℝ)) (d : Curve ℝ) (l : Nat) : Prop := c.rows.getD l [] = (d.rows.getD l []).map Val.fin

/-- All coordinates of point `l` are numbers. -/
def FinPoint (c : Curve (Val ℝ)) (l : Nat) : Prop := ∀ x ∈ c.rows.getD l [], ∃ y, x = Val.fin y

/-- The finite difference at point `k` of `m` points uses point `l`: the two neighbours, at the ends the three points there, and both of two points. -/
def Stencil (m k l : Nat) : Prop :=
  l < m ∧ (m = 2 ∨ 3 ≤ m ∧ (k = 0 ∧ l ≤ 2 ∨ k + 1 = m ∧ m ≤ l + 3 ∨ 0 < k ∧ k + 1 < m ∧ (l + 1 = k ∨ l = k + 1)))

/-- The second difference at point `k` uses point `l`. -/
def Stencil2 (m k l : Nat) : Prop := ∃ i, Stencil m k i ∧ Stencil m i l

/-- The third difference at point `k` uses point `l`. -/
def Stencil3 (m k l : Nat) : Prop := ∃ i, Stencil m k i ∧ Stencil2 m i l

/-- The two ends of segment `i` are points of numbers. -/
def FinSeg {n : Nat} (c : VCurve n) (i : Nat) : Prop := ∀ l p, l = i ∨ l = i + 1 → c.data[l]? = some p → ∀ q, ∃ x, p q = Val.fin x

/-- No coordinate is infinite (some may be NaN). -/
def NoInf {n : Nat} (c : VCurve n) : Prop := ∀ p ∈ c.data, ∀ q, p q ≠ .pinf ∧ p q ≠ .ninf

/-- The same curve of numbers, where the points are numbers. -/
def Agrees {n : Nat} (c : VCurve n) (d : GCurve n ℝ) : Prop :=
  d.cid = c.cid ∧ d.data.length = c.data.length ∧ ∀ (l : Nat) (p : Vec n (Val ℝ)) (p' : Vec n ℝ), c.data[l]? = some p → d.data[l]? = some p' → (∀ q, ∃ x, p q = Val.fin x) → ∀ q, p q = .fin (p' q)

end Verif.Spec

namespace Verif.Props

open Verif Verif.Np Verif.Model Verif.Spec Verif.Lemmas

variable {c : Curve (Val ℝ)} {d : Curve ℝ}

theorem uses_iff {m k : Nat} (h2 : 2 ≤ m) (hk : k < m) (l : Nat) : Uses m k l ↔ Stencil m k l := by
  unfold Uses Stencil
  split_ifs <;> omega

theorem stencil_lt {m k l : Nat} (h : Stencil m k l) : l < m := h.1

theorem vmat_same (hc : WF c) {l : Nat} (hl : l < c.size) (h : SamePoint c d l) : SameAt c.vmat d.mat l := by
  intro j hj
  show (c.rows.getD l []).getD j (.fin 0) = .fin ((d.rows.getD l []).getD j 0)
  rw [h]
  simp [List.getD_eq_getElem?_getD, List.getElem?_map]

theorem row_len (hc : WF c) {l : Nat} (hl : l < c.size) : (c.rows.getD l []).length = c.ncols := by
  have h : l < c.rows.length := hl
  rw [List.getD_eq_getElem?_getD, List.getElem?_eq_getElem h]
  exact hc.rect _ (List.getElem_mem h)

theorem getD_get {α : Type} (r : List α) {j : Nat} (h : j < r.length) (x : α) : r.getD j x = r[j] := by simp [h]

theorem vmat_fin (hc : WF c) {l : Nat} (hl : l < c.size) : FinAt c.vmat l ↔ FinPoint c l := by
  have hr := row_len hc hl
  unfold FinAt FinPoint
  constructor
  · intro h x hx
    obtain ⟨j, hj, rfl⟩ := List.getElem_of_mem hx
    have := h j (by show j < c.ncols; omega)
    rw [← isFin_iff]
    show Val.isFin ((c.rows.getD l [])[j]) = true
    have e : c.vmat.v l j = (c.rows.getD l [])[j] := by
      show (c.rows.getD l []).getD j (.fin 0) = _
      exact getD_get _ hj _
    rwa [e] at this
  · intro h j hj
    have hj : j < (c.rows.getD l []).length := by rw [hr]; exact hj
    have e : c.vmat.v l j = (c.rows.getD l [])[j] := by
      show (c.rows.getD l []).getD j (.fin 0) = _
      exact getD_get _ hj _
    rw [e, isFin_iff]
    exact h _ (List.getElem_mem _)

/-- The arrays of a curve with special values and of a curve of numbers: shapes. -/
theorem shaped_mat (hs : c.size = d.size) (hn : c.ncols = d.ncols) : Shaped c.vmat d.mat := ⟨hs, hn⟩

section
variable (hc : WF c) (hs : c.size = d.size) (hn : c.ncols = d.ncols) (h2 : 2 ≤ c.size)
include hc hs hn h2

theorem first_same {k : Nat} (hk : k < c.size) (h : ∀ l, Stencil c.size k l → SamePoint c d l) : SameAt (firstderivV c) (firstderiv d) k :=
  gradientV_same (shaped_mat hs hn) h2 hk fun l hl => vmat_same hc (stencil_lt ((uses_iff h2 hk l).1 hl)) (h l ((uses_iff h2 hk l).1 hl))

omit hc h2 in
theorem first_shaped : Shaped (firstderivV c) (firstderiv d) := (shaped_mat hs hn).gradient

omit hc hs hn h2 in
theorem first_m : (firstderivV c).m = c.size := gradientV_m _

omit hc hs hn h2 in
theorem second_m : (secondderivV c).m = c.size := (gradientV_m _).trans first_m

omit hc hs hn in
theorem first_k : (firstderivV c).k = c.ncols := gradientV_k h2

omit hc hs hn in
theorem second_k : (secondderivV c).k = c.ncols := (gradientV_k (by rw [first_m]; exact h2)).trans (first_k h2)

omit hc hs hn in
theorem third_k : (thirdderivV c).k = c.ncols := (gradientV_k (by rw [second_m]; exact h2)).trans (second_k h2)

omit hc h2 in
theorem second_shaped : Shaped (secondderivV c) (secondderiv d) := (first_shaped hs hn).gradient

omit hc h2 in
theorem third_shaped : Shaped (thirdderivV c) (thirdderiv d) := (second_shaped hs hn).gradient

theorem second_same {k : Nat} (hk : k < c.size) (h : ∀ l, Stencil2 c.size k l → SamePoint c d l) : SameAt (secondderivV c) (secondderiv d) k :=
  gradientV_same (first_shaped hs hn) (by rw [first_m]; exact h2) (by rw [first_m]; exact hk) fun i hi => by
    rw [first_m, uses_iff h2 hk] at hi
    exact first_same hc hs hn h2 (stencil_lt hi) fun l hl => h l ⟨i, hi, hl⟩

theorem third_same {k : Nat} (hk : k < c.size) (h : ∀ l, Stencil3 c.size k l → SamePoint c d l) : SameAt (thirdderivV c) (thirdderiv d) k :=
  gradientV_same (second_shaped hs hn) (by rw [second_m]; exact h2) (by rw [second_m]; exact hk) fun i hi => by
    rw [second_m, uses_iff h2 hk] at hi
    exact second_same hc hs hn h2 (stencil_lt hi) fun l hl => h l ⟨i, hi, hl⟩

omit hs hn in
theorem first_fin {k : Nat} (hk : k < c.size) (h : FinAt (firstderivV c) k) {l : Nat} (hl : Stencil c.size k l) : FinPoint c l :=
  (vmat_fin hc (stencil_lt hl)).1 (gradientV_fin h2 hk h ((uses_iff h2 hk l).2 hl))

omit hs hn in
theorem second_fin {k : Nat} (hk : k < c.size) (h : FinAt (secondderivV c) k) {l : Nat} (hl : Stencil2 c.size k l) : FinPoint c l := by
  obtain ⟨i, hi, hl⟩ := hl
  have := gradientV_fin (a := firstderivV c) (by rw [first_m]; exact h2) (by rw [first_m]; exact hk) h (l := i) (by rw [first_m, uses_iff h2 hk]; exact hi)
  exact first_fin hc h2 (stencil_lt hi) this hl

omit hs hn in
theorem third_fin {k : Nat} (hk : k < c.size) (h : FinAt (thirdderivV c) k) {l : Nat} (hl : Stencil3 c.size k l) : FinPoint c l := by
  obtain ⟨i, hi, hl⟩ := hl
  have := gradientV_fin (a := secondderivV c) (by rw [second_m]; exact h2) (by rw [second_m]; exact hk) h (l := i) (by rw [second_m, uses_iff h2 hk]; exact hi)
  exact second_fin hc h2 (stencil_lt hi) this hl

end

/-! ### Values -/

section
variable (hc : WF c) (hs : c.size = d.size) (hn : c.ncols = d.ncols) (h2 : 2 ≤ c.size)
include hc hs hn h2

theorem frenet1_same {k : Nat} (hk : k < c.size) (h : ∀ l, Stencil c.size k l → SamePoint c d l) : SameAt (frenet1V c) (frenet1 d) k :=
  unitRowsV_same (first_shaped hs hn) (first_same hc hs hn h2 hk h)

theorem normal_same {k : Nat} (hk : k < c.size) (h : ∀ l, Stencil c.size k l ∨ Stencil2 c.size k l → SamePoint c d l) : SameAt (normalV c) (normal d) k :=
  rejectV_same (second_shaped hs hn) (second_same hc hs hn h2 hk fun l hl => h l (.inr hl)) (by rw [second_k h2]; exact (first_k h2).symm)
    (frenet1_same hc hs hn h2 hk fun l hl => h l (.inl hl))

theorem frenet2_same {k : Nat} (hk : k < c.size) (h : ∀ l, Stencil c.size k l ∨ Stencil2 c.size k l → SamePoint c d l) : SameAt (frenet2V c) (frenet2 d) k :=
  unitRowsV_same (a := normalV c) (b := normal d) (second_shaped hs hn) (normal_same hc hs hn h2 hk h)

theorem binormal_same {k : Nat} (hk : k < c.size) (h : ∀ l, Stencil c.size k l ∨ Stencil2 c.size k l ∨ Stencil3 c.size k l → SamePoint c d l) : SameAt (binormalV c) (binormal d) k :=
  reject2V_same (third_shaped hs hn) (third_same hc hs hn h2 hk fun l hl => h l (.inr (.inr hl))) (by rw [third_k h2]; exact (first_k h2).symm)
    (frenet1_same hc hs hn h2 hk fun l hl => h l (.inl hl)) (by rw [third_k h2]; exact (second_k h2).symm)
    (frenet2_same hc hs hn h2 hk fun l hl => h l (by tauto))

theorem frenet3_same {k : Nat} (hk : k < c.size) (h : ∀ l, Stencil c.size k l ∨ Stencil2 c.size k l ∨ Stencil3 c.size k l → SamePoint c d l) : SameAt (frenet3V c) (frenet3 d) k :=
  unitRowsV_same (a := binormalV c) (b := binormal d) (third_shaped hs hn) (binormal_same hc hs hn h2 hk h)

end

/-- The point `l` is used by the torsion at `k`. -/
def TorsionUses (m k l : Nat) : Prop := Stencil3 m k l ∨ ∃ i, (i = k ∨ Stencil m k i) ∧ (Stencil m i l ∨ Stencil2 m i l)

/-- **C162 (derivatives and Frenet vectors).** The derivatives, speeds, tangent, normal and binormal vectors at a point are those of a curve of numbers if the points of the finite differences there are: whatever the other
points are, NaN and infinite ones included. -/
theorem C162_values (hc : WF c) (hs : c.size = d.size) (hn : c.ncols = d.ncols) (h2 : 2 ≤ c.size) {k : Nat} (hk : k < c.size) :
    ((∀ l, Stencil c.size k l → SamePoint c d l) →
      (∀ j, j < c.ncols → (firstderivV c).v k j = .fin ((firstderiv d).v k j) ∧ (frenet1V c).v k j = .fin ((frenet1 d).v k j)) ∧
        (speedV c)[k]? = some (.fin (rowNorm (firstderiv d) k))) ∧
    ((∀ l, Stencil2 c.size k l → SamePoint c d l) → ∀ j, j < c.ncols → (secondderivV c).v k j = .fin ((secondderiv d).v k j)) ∧
    ((∀ l, Stencil3 c.size k l → SamePoint c d l) → ∀ j, j < c.ncols → (thirdderivV c).v k j = .fin ((thirdderiv d).v k j)) ∧
    ((∀ l, Stencil c.size k l ∨ Stencil2 c.size k l → SamePoint c d l) → ∀ j, j < c.ncols → (normalV c).v k j = .fin ((normal d).v k j) ∧ (frenet2V c).v k j = .fin ((frenet2 d).v k j)) ∧
    ((∀ l, Stencil c.size k l ∨ Stencil2 c.size k l ∨ Stencil3 c.size k l → SamePoint c d l) →
      ∀ j, j < c.ncols → (binormalV c).v k j = .fin ((binormal d).v k j) ∧ (frenet3V c).v k j = .fin ((frenet3 d).v k j)) := by
  refine ⟨fun h => ⟨fun j hj => ⟨?_, ?_⟩, ?_⟩, fun h j hj => ?_, fun h j hj => ?_, fun h j hj => ⟨?_, ?_⟩, fun h j hj => ⟨?_, ?_⟩⟩
  · exact first_same hc hs hn h2 hk h j (by rw [first_k h2]; exact hj)
  · exact frenet1_same hc hs hn h2 hk h j (by show j < (firstderivV c).k; rw [first_k h2]; exact hj)
  · rw [speedV, List.getElem?_map, List.getElem?_range hk, Option.map_some, rowNormV_same (first_shaped hs hn) (first_same hc hs hn h2 hk h)]
  · exact second_same hc hs hn h2 hk h j (by rw [second_k h2]; exact hj)
  · exact third_same hc hs hn h2 hk h j (by rw [third_k h2]; exact hj)
  · exact normal_same hc hs hn h2 hk h j (by show j < (secondderivV c).k; rw [second_k h2]; exact hj)
  · exact frenet2_same hc hs hn h2 hk h j (by show j < (secondderivV c).k; rw [second_k h2]; exact hj)
  · exact binormal_same hc hs hn h2 hk h j (by show j < (thirdderivV c).k; rw [third_k h2]; exact hj)
  · exact frenet3_same hc hs hn h2 hk h j (by show j < (thirdderivV c).k; rw [third_k h2]; exact hj)

theorem curvature2_same (hc : WF c) (hs : c.size = d.size) (hn : c.ncols = d.ncols) (h2 : 2 ≤ c.size) (hd : c.ncols = 2) {k : Nat} (hk : k < c.size)
    (h : ∀ l, Stencil c.size k l ∨ Stencil2 c.size k l → SamePoint c d l) : curvature2V c k = curvature2 d k := by
  have f := first_same hc hs hn h2 hk fun l hl => h l (.inl hl)
  have g := second_same hc hs hn h2 hk fun l hl => h l (.inr hl)
  have kf : (firstderivV c).k = 2 := by rw [first_k h2, hd]
  have kg : (secondderivV c).k = 2 := by rw [second_k h2, hd]
  unfold curvature2V curvature2
  simp only [f 0 (by omega), f 1 (by omega), g 0 (by omega), g 1 (by omega)]
  have q0 : 0 ≤ (firstderiv d).v k 0 * (firstderiv d).v k 0 + (firstderiv d).v k 1 * (firstderiv d).v k 1 := by nlinarith [sq_nonneg ((firstderiv d).v k 0), sq_nonneg ((firstderiv d).v k 1)]
  simp [Val.mul, Val.add, Val.sub, Val.neg, Val.sqrt, q0, sub_eq_add_neg]

theorem curvatureN_same (hc : WF c) (hs : c.size = d.size) (hn : c.ncols = d.ncols) (h2 : 2 ≤ c.size) {k : Nat} (hk : k < c.size)
    (h : ∀ l, Stencil c.size k l ∨ Stencil2 c.size k l → SamePoint c d l) : curvatureNV c k = curvatureN d k := by
  have f := first_same hc hs hn h2 hk fun l hl => h l (.inl hl)
  have sh : Shaped (frenet1V c) (frenet1 d) := first_shaped hs hn
  have m1 : (frenet1V c).m = c.size := first_m
  have g : SameAt (gradientV (frenet1V c)) (gradient (frenet1 d)) k := gradientV_same sh (by rw [m1]; exact h2) (by rw [m1]; exact hk) fun i hi => by
    rw [m1, uses_iff h2 hk] at hi
    exact frenet1_same hc hs hn h2 (stencil_lt hi) fun l hl => h l (.inr ⟨i, hi, hl⟩)
  unfold curvatureNV curvatureN
  rw [rowNormV_same sh.gradient g, rowNormV_same (first_shaped hs hn) f]

/-- **C162 (curvature and torsion).** The curvature and the torsion at a point are those of a curve of numbers if the points of the finite differences there are. -/
theorem C162_curvature (hc : WF c) (hs : c.size = d.size) (hn : c.ncols = d.ncols) (h2 : 2 ≤ c.size) {k : Nat} (hk : k < c.size) :
    ((∀ l, Stencil c.size k l ∨ Stencil2 c.size k l → SamePoint c d l) → ∃ ks ks' x, curvatureV c = .ok ks ∧ curvature d = .ok ks' ∧ ks[k]? = some x ∧ ks'[k]? = some x) ∧
    ((∀ l, TorsionUses c.size k l → SamePoint c d l) → ∃ x, (torsionV c)[k]? = some x ∧ (torsion d)[k]? = some x) := by
  have hk' : k < d.size := hs ▸ hk
  constructor
  · intro h
    unfold curvatureV curvature
    have e1 : c.ndim = c.ncols := rfl
    have e2 : d.ndim = d.ncols := rfl
    by_cases hd : c.ncols = 2
    · have k1 : ¬ (firstderivV c).k < 2 := by rw [first_k h2]; omega
      have k2 : ¬ (firstderiv d).k < 2 := by rw [← (first_shaped (c := c) hs hn).2]; exact k1
      rw [if_pos (e1.trans hd), if_pos (e2.trans (hn ▸ hd)), if_neg k1, if_neg k2]
      exact ⟨_, _, curvature2V c k, rfl, rfl, by rw [List.getElem?_map, List.getElem?_range hk]; rfl,
        by rw [List.getElem?_map, List.getElem?_range hk', curvature2_same hc hs hn h2 hd hk h]; rfl⟩
    · rw [if_neg (show ¬ c.ndim = 2 from hd), if_neg (show ¬ d.ndim = 2 by rw [e2, ← hn]; exact hd)]
      exact ⟨_, _, curvatureNV c k, rfl, rfl, by rw [List.getElem?_map, List.getElem?_range hk]; rfl,
        by rw [List.getElem?_map, List.getElem?_range hk', curvatureN_same hc hs hn h2 hk h]; rfl⟩
  · intro h
    have sh : Shaped (frenet2V c) (frenet2 d) := second_shaped hs hn
    have m1 : (frenet2V c).m = c.size := second_m
    have g : SameAt (gradientV (frenet2V c)) (gradient (frenet2 d)) k := gradientV_same sh (by rw [m1]; exact h2) (by rw [m1]; exact hk) fun i hi => by
      rw [m1, uses_iff h2 hk] at hi
      exact frenet2_same hc hs hn h2 (stencil_lt hi) fun l hl => h l (.inr ⟨i, .inr hi, hl⟩)
    have f3 : SameAt (frenet3V c) (frenet3 d) k := frenet3_same hc hs hn h2 hk fun l hl => h l (by
      rcases hl with hl | hl | hl
      exacts [.inr ⟨k, .inl rfl, .inl hl⟩, .inr ⟨k, .inl rfl, .inr hl⟩, .inl hl])
    have f1 := first_same hc hs hn h2 hk fun l hl => h l (.inr ⟨k, .inl rfl, .inl hl⟩)
    have kk : (gradientV (frenet2V c)).k = (frenet3V c).k := by
      rw [gradientV_k (by rw [m1]; exact h2)]
      exact (second_k h2).trans (third_k h2).symm
    refine ⟨_, by rw [torsionV, List.getElem?_map, List.getElem?_range hk, Option.map_some], ?_⟩
    rw [torsion, List.getElem?_map, List.getElem?_range hk', Option.map_some, dotRowV_same sh.gradient g kk f3, rowNormV_same (first_shaped hs hn) f1]
    rfl

/-! ### Where values are missing -/

section
variable (hc : WF c) (h2 : 2 ≤ c.size)
include hc h2

theorem ncols_pos : 0 < c.ncols := by have := hc.two_le; omega

theorem frenet1_fin {k : Nat} (hk : k < c.size) (h : FinAt (frenet1V c) k) {l : Nat} (hl : Stencil c.size k l) : FinPoint c l := first_fin hc h2 hk (unitRowsV_fin h) hl

theorem normal_fin {k : Nat} (hk : k < c.size) (h : FinAt (normalV c) k) {l : Nat} (hl : Stencil c.size k l ∨ Stencil2 c.size k l) : FinPoint c l := by
  have := rejectV_fin (s := secondderivV c) (e := frenet1V c) (by rw [second_k h2]; exact (first_k h2).symm) (by rw [second_k h2]; exact ncols_pos hc h2) h
  rcases hl with hl | hl
  exacts [frenet1_fin hc h2 hk this.2 hl, second_fin hc h2 hk this.1 hl]

theorem binormal_fin {k : Nat} (hk : k < c.size) (h : FinAt (binormalV c) k) {l : Nat} (hl : Stencil c.size k l ∨ Stencil2 c.size k l ∨ Stencil3 c.size k l) : FinPoint c l := by
  have := reject2V_fin (s := thirdderivV c) (e := frenet1V c) (g := frenet2V c) (by rw [third_k h2]; exact (first_k h2).symm) (by rw [third_k h2]; exact (second_k h2).symm)
    (by rw [third_k h2]; exact ncols_pos hc h2) h
  rcases hl with hl | hl | hl
  exacts [frenet1_fin hc h2 hk this.2.1 hl, normal_fin hc h2 hk (unitRowsV_fin this.2.2) (.inr hl), third_fin hc h2 hk this.1 hl]

end

/-- **C162 (missing values).** Conversely, a derivative, speed or Frenet vector with finite coordinates only comes from points with finite coordinates: no value computed from a point that is not finite looks like a number. -/
theorem C162_missing (hc : WF c) (h2 : 2 ≤ c.size) {k : Nat} (hk : k < c.size) :
    ((∀ j, j < c.ncols → ((firstderivV c).v k j).isFin = true) ∨ (∀ j, j < c.ncols → ((frenet1V c).v k j).isFin = true) ∨ (∃ x, (speedV c)[k]? = some (.fin x)) →
      ∀ l, Stencil c.size k l → FinPoint c l) ∧
    ((∀ j, j < c.ncols → ((secondderivV c).v k j).isFin = true) → ∀ l, Stencil2 c.size k l → FinPoint c l) ∧
    ((∀ j, j < c.ncols → ((thirdderivV c).v k j).isFin = true) → ∀ l, Stencil3 c.size k l → FinPoint c l) ∧
    ((∀ j, j < c.ncols → ((normalV c).v k j).isFin = true) ∨ (∀ j, j < c.ncols → ((frenet2V c).v k j).isFin = true) → ∀ l, Stencil c.size k l ∨ Stencil2 c.size k l → FinPoint c l) ∧
    ((∀ j, j < c.ncols → ((binormalV c).v k j).isFin = true) ∨ (∀ j, j < c.ncols → ((frenet3V c).v k j).isFin = true) →
      ∀ l, Stencil c.size k l ∨ Stencil2 c.size k l ∨ Stencil3 c.size k l → FinPoint c l) := by
  have e1 := first_k h2
  have e2 := second_k h2
  have e3 := third_k h2
  have f1 : (frenet1V c).k = c.ncols := e1
  have f2 : (frenet2V c).k = c.ncols := e2
  have f3 : (frenet3V c).k = c.ncols := e3
  have n2 : (normalV c).k = c.ncols := e2
  have n3 : (binormalV c).k = c.ncols := e3
  refine ⟨?_, fun h l hl => ?_, fun h l hl => ?_, ?_, ?_⟩
  · rintro (h | h | ⟨x, h⟩) l hl
    · exact first_fin hc h2 hk (fun j hj => h j (e1 ▸ hj)) hl
    · exact frenet1_fin hc h2 hk (fun j hj => h j (f1 ▸ hj)) hl
    · rw [speedV, List.getElem?_map, List.getElem?_range hk, Option.map_some, Option.some.injEq] at h
      exact first_fin hc h2 hk (rowNormV_fin (by rw [h]; rfl)) hl
  · exact second_fin hc h2 hk (fun j hj => h j (e2 ▸ hj)) hl
  · exact third_fin hc h2 hk (fun j hj => h j (e3 ▸ hj)) hl
  · rintro (h | h) l hl
    · exact normal_fin hc h2 hk (fun j hj => h j (n2 ▸ hj)) hl
    · exact normal_fin hc h2 hk (unitRowsV_fin fun j hj => h j (f2 ▸ hj)) hl
  · rintro (h | h) l hl
    · exact binormal_fin hc h2 hk (fun j hj => h j (n3 ▸ hj)) hl
    · exact binormal_fin hc h2 hk (unitRowsV_fin fun j hj => h j (f3 ▸ hj)) hl

/-- **C162 (missing curvature and torsion).** A curvature of a plane curve and a torsion that is a number comes from finite points; a curvature in space comes from finite points of the second differences. The points of the
first difference may be infinite in space, see `C162_infinite_fails`. -/
theorem C162_missing_curvature (hc : WF c) (h2 : 2 ≤ c.size) {k : Nat} (hk : k < c.size) {ks : List (Val ℝ)} (hks : curvatureV c = .ok ks) {x : ℝ} :
    (ks[k]? = some (.fin x) → (∀ l, Stencil2 c.size k l → FinPoint c l) ∧ (c.ncols = 2 → ∀ l, Stencil c.size k l → FinPoint c l)) ∧
    ((torsionV c)[k]? = some (.fin x) → ∀ l, TorsionUses c.size k l → FinPoint c l) := by
  constructor
  · intro hx
    unfold curvatureV at hks
    have e1 : c.ndim = c.ncols := rfl
    by_cases hd : c.ncols = 2
    · have kf : (firstderivV c).k = 2 := by rw [first_k h2, hd]
      have kg : (secondderivV c).k = 2 := by rw [second_k h2, hd]
      rw [if_pos (e1.trans hd), if_neg (by omega)] at hks
      cases hks
      rw [List.getElem?_map, List.getElem?_range hk, Option.map_some, Option.some.injEq] at hx
      have := (div_fin (a := _) (b := _) (by unfold curvature2V at hx; rw [hx]; rfl)).1
      rw [sub_fin, mul_fin, mul_fin] at this
      obtain ⟨⟨h1, h3⟩, h4, h5⟩ := this
      have ff : FinAt (firstderivV c) k := fun j hj => by
        obtain rfl | rfl : j = 0 ∨ j = 1 := by omega
        exacts [h3, h5]
      have fg : FinAt (secondderivV c) k := fun j hj => by
        obtain rfl | rfl : j = 0 ∨ j = 1 := by omega
        exacts [h4, h1]
      exact ⟨fun l hl => second_fin hc h2 hk fg hl, fun _ l hl => first_fin hc h2 hk ff hl⟩
    · refine ⟨fun l hl => ?_, fun h => absurd h hd⟩
      rw [if_neg (show ¬ c.ndim = 2 from hd)] at hks
      cases hks
      rw [List.getElem?_map, List.getElem?_range hk, Option.map_some, Option.some.injEq] at hx
      have := rowNormV_fin (div_fin (a := _) (b := _) (by unfold curvatureNV at hx; rw [hx]; rfl)).1
      obtain ⟨i, hi, hl⟩ := hl
      have m1 : (frenet1V c).m = c.size := first_m
      exact frenet1_fin hc h2 (stencil_lt hi) (gradientV_fin (by rw [m1]; exact h2) (by rw [m1]; exact hk) this (by rw [m1, uses_iff h2 hk]; exact hi)) hl
  · intro hx l hl
    rw [torsionV, List.getElem?_map, List.getElem?_range hk, Option.map_some, Option.some.injEq] at hx
    have m1 : (frenet2V c).m = c.size := second_m
    have kk : (gradientV (frenet2V c)).k = (frenet3V c).k := by
      rw [gradientV_k (by rw [m1]; exact h2)]
      exact (second_k h2).trans (third_k h2).symm
    have := dotRowV_fin kk (div_fin (a := _) (b := _) (by rw [hx]; rfl)).1
    have b3 := fun {l} => binormal_fin hc h2 hk (unitRowsV_fin this.2) (l := l)
    rcases hl with hl | ⟨i, rfl | hi, hl⟩
    · exact b3 (.inr (.inr hl))
    · exact b3 (by tauto)
    · exact normal_fin hc h2 (stencil_lt hi) (unitRowsV_fin (gradientV_fin (by rw [m1]; exact h2) (by rw [m1]; exact hk) this.1 (by rw [m1, uses_iff h2 hk]; exact hi))) hl

/-- **C162 (which points).** Away from the ends the first difference uses the two neighbours of the point, but not the point itself; the second difference the point and the points two steps away; the third one the neighbours and the
points three steps away; the torsion all points up to three steps away. -/
theorem C162_reach {m k : Nat} (h1 : 3 ≤ k) (hk : k + 3 < m) (l : Nat) :
    (Stencil m k l ↔ l + 1 = k ∨ l = k + 1) ∧ (Stencil2 m k l ↔ l + 2 = k ∨ l = k ∨ l = k + 2) ∧ (Stencil3 m k l ↔ l + 3 = k ∨ l + 1 = k ∨ l = k + 1 ∨ l = k + 3) ∧
      (TorsionUses m k l ↔ k ≤ l + 3 ∧ l ≤ k + 3) := by
  have s1 : ∀ i l, 0 < i → i + 1 < m → (Stencil m i l ↔ l + 1 = i ∨ l = i + 1) := by intro i l h h'; unfold Stencil; omega
  have s2 : ∀ i l, 2 ≤ i → i + 2 < m → (Stencil2 m i l ↔ l + 2 = i ∨ l = i ∨ l = i + 2) := by
    intro i l h h'
    unfold Stencil2
    constructor
    · rintro ⟨a, ha, hl⟩
      rw [s1 i a (by omega) (by omega)] at ha
      rw [s1 a l (by omega) (by omega)] at hl
      omega
    · intro hl
      by_cases hl' : l < i
      · exact ⟨i - 1, (s1 _ _ (by omega) (by omega)).2 (by omega), (s1 _ _ (by omega) (by omega)).2 (by omega)⟩
      · exact ⟨i + 1, (s1 _ _ (by omega) (by omega)).2 (by omega), (s1 _ _ (by omega) (by omega)).2 (by omega)⟩
  have s3 : Stencil3 m k l ↔ l + 3 = k ∨ l + 1 = k ∨ l = k + 1 ∨ l = k + 3 := by
    unfold Stencil3
    constructor
    · rintro ⟨a, ha, hl⟩
      rw [s1 k a (by omega) (by omega)] at ha
      rw [s2 a l (by omega) (by omega)] at hl
      omega
    · intro hl
      by_cases hl' : l < k
      · exact ⟨k - 1, (s1 _ _ (by omega) (by omega)).2 (by omega), (s2 _ _ (by omega) (by omega)).2 (by omega)⟩
      · exact ⟨k + 1, (s1 _ _ (by omega) (by omega)).2 (by omega), (s2 _ _ (by omega) (by omega)).2 (by omega)⟩
  refine ⟨s1 k l (by omega) (by omega), s2 k l (by omega) (by omega), s3, ?_⟩
  unfold TorsionUses
  rw [s3]
  constructor
  · rintro (h | ⟨i, hi, hl⟩)
    · omega
    · have hi : i = k ∨ i + 1 = k ∨ i = k + 1 := by
        rcases hi with hi | hi
        · exact .inl hi
        · exact .inr ((s1 _ _ (by omega) (by omega)).1 hi)
      rw [s1 i l (by omega) (by omega), s2 i l (by omega) (by omega)] at hl
      omega
  · intro hl
    by_cases ho : l + 3 = k ∨ l + 1 = k ∨ l = k + 1 ∨ l = k + 3
    · exact .inl ho
    · exact .inr ⟨k, .inl rfl, .inr ((s2 _ _ (by omega) (by omega)).2 (by omega))⟩

/-! ### Lengths -/

theorem finRow_iff {r : List (Val ℝ)} : FinRow r ↔ ∀ x ∈ r, x.isFin = true := by
  unfold FinRow
  constructor
  · intro h x hx; obtain ⟨y, rfl⟩ := h x hx; rfl
  · intro h x hx; exact isFin_iff.1 (h x hx)

theorem chordV_fin_iff {a b : List (Val ℝ)} (hl : a.length = b.length) : (chordV a b).isFin = true ↔ FinRow a ∧ FinRow b := by
  constructor
  · intro h
    have := (sumV_fin _).1 (sqrt_fin h)
    have key : ∀ i (h1 : i < a.length) (h2 : i < b.length), (a[i]).isFin = true ∧ (b[i]).isFin = true := by
      intro i h1 h2
      have := this _ (List.getElem_mem (l := List.zipWith (fun x y => (Val.sub y x).sq) a b) (n := i) (by simp; omega))
      rw [List.getElem_zipWith, sq_fin, sub_fin] at this
      exact this.symm
    rw [finRow_iff, finRow_iff]
    constructor
    · intro x hx
      obtain ⟨i, hi, rfl⟩ := List.getElem_of_mem hx
      exact (key i hi (by omega)).1
    · intro x hx
      obtain ⟨i, hi, rfl⟩ := List.getElem_of_mem hx
      exact (key i (by omega) hi).2
  · rintro ⟨ha, hb⟩
    rw [finRow_map ha, finRow_map hb, chordV_fin]
    rfl

/-- The numbers of the points; 0 for NaN and the infinities. -/
noncomputable def numCurve (c : Curve (Val ℝ)) : Curve ℝ := ⟨c.rows.map fun r => r.map num, c.ncols, none, .float⟩

theorem samePoint_num (l : Nat) (h : FinPoint c l) : SamePoint c (numCurve c) l := by
  unfold SamePoint numCurve
  have e : (c.rows.map fun r => r.map num).getD l [] = (c.rows.getD l []).map num := by
    simp only [List.getD_eq_getElem?_getD, List.getElem?_map]
    cases c.rows[l]? <;> rfl
  simp only [e]
  exact finRow_map h

theorem chordsV_length (rows : List (List (Val ℝ))) : (chordsV rows).length = rows.length - 1 := by
  unfold chordsV; simp

theorem chordsV_get {k : Nat} (hk : k + 1 < c.size) : (chordsV c.rows)[k]? = some (chordV (c.rows.getD k []) (c.rows.getD (k + 1) [])) := by
  have h1 : k + 1 < c.rows.length := hk
  unfold chordsV
  rw [List.getElem?_zipWith, List.getElem?_tail]
  simp [List.getElem?_eq_getElem h1, List.getElem?_eq_getElem (show k < c.rows.length by omega), List.getD_eq_getElem?_getD]

/-- **C162 (chord lengths).** A chord length is a number exactly if both end points are finite; then it is their distance. -/
theorem C162_chord (hc : WF c) {k : Nat} (hk : k + 1 < c.size) :
    ∃ x, (chordsV c.rows)[k]? = some x ∧ (x.isFin = true ↔ FinPoint c k ∧ FinPoint c (k + 1)) ∧
      ∀ d : Curve ℝ, SamePoint c d k → SamePoint c d (k + 1) → x = .fin (gap c.ncols (d.rows.getD k []) (d.rows.getD (k + 1) [])) := by
  have l1 := row_len hc (show k < c.size by omega)
  have l2 := row_len hc hk
  refine ⟨_, chordsV_get hk, ?_, fun d h1 h2 => ?_⟩
  · exact chordV_fin_iff (l1.trans l2.symm)
  · rw [h1, h2, chordV_fin, chord_eq_gap (n := c.ncols)]
    · rw [h1] at l1; simpa using l1
    · rw [h2] at l2; simpa using l2

theorem cumV_length (s : Val ℝ) (xs : List (Val ℝ)) : (cumV s xs).length = xs.length := by
  induction xs generalizing s with
  | nil => rfl
  | cons x xs ih => simp [cumV, ih]

theorem cumV_get (xs : List (Val ℝ)) (s : Val ℝ) {k : Nat} (hk : k < xs.length) : (cumV s xs)[k]? = some ((xs.take (k + 1)).foldl Val.add s) := by
  induction xs generalizing s k with
  | nil => simp at hk
  | cons x xs ih =>
    cases k with
    | zero => simp [cumV]
    | succ k =>
      have := ih (s.add x) (k := k) (by simpa using hk)
      simpa [cumV] using this

theorem take_eq (xs : List (Val ℝ)) {k : Nat} (hk : k ≤ xs.length) : xs.take k = (List.range k).map fun i => xs.getD i (.fin 0) := by
  apply List.ext_getElem
  · simp [hk]
  · intro i h1 h2
    simp at h1
    simp [List.getElem?_eq_getElem h1.2]

/-- the cumulative lengths as sums of chord lengths -/
theorem cumarclenV_get {k : Nat} (hk : k < c.size) :
    (cumarclenV c)[k]? = some (sumV ((List.range k).map fun i => chordV (c.rows.getD i []) (c.rows.getD (i + 1) []))) := by
  have hl := chordsV_length c.rows
  have hk' : k < c.rows.length := hk
  unfold cumarclenV
  cases k with
  | zero => rfl
  | succ k =>
    rw [List.getElem?_cons_succ, cumV_get _ _ (by omega), take_eq _ (by omega)]
    congr 2
    apply List.map_congr_left
    intro i hi
    rw [List.mem_range] at hi
    rw [List.getD_eq_getElem?_getD, chordsV_get (show i + 1 < c.size by omega)]
    rfl

/-- **C162 (arc length).** The cumulative length at a point is a number exactly if all points up to there are finite (always 0 at the first point); then it is the length of the polygon. The arc length of a curve of at least two points is a
number exactly if all points are finite. -/
theorem C162_length (hc : WF c) (h2 : 2 ≤ c.size) :
    (cumarclenV c).length = c.size ∧ (cumarclenV c)[0]? = some (.fin 0) ∧
    (∀ k, 0 < k → k < c.size → ∃ x, (cumarclenV c)[k]? = some x ∧ (x.isFin = true ↔ ∀ l, l ≤ k → FinPoint c l) ∧
      ∀ d : Curve ℝ, (∀ l, l ≤ k → SamePoint c d l) → x = .fin (∑ i ∈ Finset.range k, gap c.ncols (d.rows.getD i []) (d.rows.getD (i + 1) []))) ∧
    ((arclenV c).isFin = true ↔ ∀ l, l < c.size → FinPoint c l) ∧
    ∀ d : Curve ℝ, (∀ l, l < c.size → SamePoint c d l) → arclenV c = .fin (∑ i ∈ Finset.range (c.size - 1), gap c.ncols (d.rows.getD i []) (d.rows.getD (i + 1) [])) := by
  have key : ∀ k, 0 < k → k < c.size → ((sumV ((List.range k).map fun i => chordV (c.rows.getD i []) (c.rows.getD (i + 1) []))).isFin = true ↔ ∀ l, l ≤ k → FinPoint c l) := by
    intro k h0 hk
    rw [sumV_range]
    constructor
    · intro h l hl
      have e : ∀ i, i < k → FinPoint c i ∧ FinPoint c (i + 1) := fun i hi =>
        (chordV_fin_iff ((row_len hc (by omega)).trans (row_len hc (show i + 1 < c.size by omega)).symm)).1 (h i hi)
      by_cases hl' : l < k
      · exact (e l hl').1
      · have := (e (k - 1) (by omega)).2
        rwa [show k - 1 + 1 = l by omega] at this
    · intro h i hi
      exact (chordV_fin_iff ((row_len hc (by omega)).trans (row_len hc (show i + 1 < c.size by omega)).symm)).2 ⟨h i (by omega), h (i + 1) (by omega)⟩
  have val : ∀ k, k < c.size → ∀ d : Curve ℝ, (∀ l, l ≤ k → SamePoint c d l) →
      sumV ((List.range k).map fun i => chordV (c.rows.getD i []) (c.rows.getD (i + 1) [])) = .fin (∑ i ∈ Finset.range k, gap c.ncols (d.rows.getD i []) (d.rows.getD (i + 1) [])) := by
    intro k hk d h
    refine sumV_same fun i hi => ?_
    obtain ⟨x, hx, -, hv⟩ := C162_chord hc (k := i) (by omega)
    rw [chordsV_get (by omega), Option.some.injEq] at hx
    rw [hx]
    exact hv d (h i (by omega)) (h (i + 1) (by omega))
  have ea : arclenV c = sumV ((List.range (c.size - 1)).map fun i => chordV (c.rows.getD i []) (c.rows.getD (i + 1) [])) := by
    unfold arclenV
    congr 1
    have hl := chordsV_length c.rows
    have hs : c.size = c.rows.length := rfl
    conv_lhs => rw [← List.take_of_length_le (show (chordsV c.rows).length ≤ c.size - 1 by omega)]
    rw [take_eq _ (by omega)]
    apply List.map_congr_left
    intro i hi
    rw [List.mem_range] at hi
    rw [List.getD_eq_getElem?_getD, chordsV_get (show i + 1 < c.size by omega)]
    rfl
  refine ⟨?_, rfl, fun k h0 hk => ⟨_, cumarclenV_get hk, key k h0 hk, val k hk⟩, ?_, fun d h => ?_⟩
  · unfold cumarclenV
    rw [List.length_cons, cumV_length, chordsV_length]
    have : c.size = c.rows.length := rfl
    omega
  · rw [ea, key _ (by omega) (by omega)]
    exact ⟨fun h l hl => h l (by omega), fun h l hl => h l (by omega)⟩
  · rw [ea]
    exact val _ (by omega) d fun l hl => h l (by omega)

/-! ### nonsingular -/

/-- **C162 (nonsingular).** `nonsingular` repairs such curves: every chord length, derivative, speed and curvature of the result, if it has two points, is that of a curve of numbers. -/
theorem C162_nonsingular (hc : WF c) (hne : c.rows ≠ []) :
    ∃ c' d, c.nonsingular = .ok c' ∧ d.size = c'.size ∧ d.ncols = c'.ncols ∧ (∀ l, SamePoint c' d l) ∧ (∀ l, FinPoint c' l) ∧
      (2 ≤ c'.size → c'.ncols = c.ncols ∧ (arclenV c').isFin = true ∧ ∀ k, k < c'.size →
        (∀ j, j < c'.ncols → (firstderivV c').v k j = .fin ((firstderiv d).v k j)) ∧
        ∃ ks ks' x, curvatureV c' = .ok ks ∧ curvature d = .ok ks' ∧ ks[k]? = some x ∧ ks'[k]? = some x) := by
  obtain ⟨c', ks, h1, h2, h3, h4, h5⟩ := C17_kept_partial hc hne
  have fp : ∀ l, FinPoint c' l := by
    intro l x hx
    by_cases hl : l < c'.rows.length
    · rw [getD_get _ hl] at hx
      exact h4 _ (List.getElem_mem hl) x hx
    · rw [List.getD_eq_getElem?_getD, List.getElem?_eq_none (by omega)] at hx
      simp at hx
  refine ⟨c', numCurve c', h1, by simp [numCurve, Curve.size], rfl, fun l => samePoint_num l (fp l), fp, fun s2 => ?_⟩
  have hw : WF c' := by
    unfold Curve.nonsingular at h1
    rw [if_neg hne] at h1
    exact drop_WF h1
  have hk : ks ≠ [] := by
    rintro rfl
    have := h2.points
    unfold Picks at this
    simp [Curve.size] at this s2
    simp [this] at s2
  refine ⟨h2.ndim hk, (C162_length hw s2).2.2.2.1.2 fun l _ => fp l, fun k hk => ?_⟩
  have hs : c'.size = (numCurve c').size := by simp [numCurve, Curve.size]
  have := C162_values hw hs rfl s2 hk
  exact ⟨fun j hj => ((this.1 fun l _ => samePoint_num l (fp l)).1 j hj).1, (C162_curvature hw hs rfl s2 hk).1 fun l _ => samePoint_num l (fp l)⟩

/-! ### Infinite coordinates -/

theorem sum_pinf (xs : List (Val ℝ)) (a : Val ℝ) (ha : (∃ x, a = .fin x) ∨ a = .pinf) (h : ∀ x ∈ xs, (∃ y, x = .fin y) ∨ x = .pinf) (h1 : a = .pinf ∨ .pinf ∈ xs) : xs.foldl Val.add a = .pinf := by
  induction xs generalizing a with
  | nil => simpa using h1
  | cons x xs ih =>
    rw [List.foldl_cons]
    have hx := h x (by simp)
    have h' := fun y hy => h y (List.mem_cons_of_mem _ hy)
    rcases hx with ⟨y, rfl⟩ | rfl
    · rcases ha with ⟨z, rfl⟩ | rfl
      · exact ih (.fin (z + y)) (.inl ⟨_, rfl⟩) h' (.inr (by simpa using h1))
      · exact ih .pinf (.inr rfl) h' (.inl rfl)
    · rcases ha with ⟨z, rfl⟩ | rfl
      · exact ih .pinf (.inr rfl) h' (.inl rfl)
      · exact ih .pinf (.inr rfl) h' (.inl rfl)

/-- **C162 fails in space.** Next to a point with an infinite coordinate (and none that is NaN) the curvature in space is the number 0, whatever the curve: the norm of the tangent vector is infinite. -/
theorem C162_infinite_fails (hc : WF c) (hn : c.ncols ≠ 2) {k : Nat} (h3 : 3 ≤ k) (hk : k + 3 < c.size) (f : ∀ l, l + 2 = k ∨ l + 1 = k ∨ l = k ∨ l = k + 2 → FinPoint c l)
    (hi : ∀ x ∈ c.rows.getD (k + 1) [], x ≠ .nan) (hi' : ¬ FinPoint c (k + 1)) : ∃ ks, curvatureV c = .ok ks ∧ ks[k]? = some (.fin 0) := by
  have h2 : 2 ≤ c.size := by omega
  refine ⟨_, by rw [curvatureV, if_neg (show ¬ c.ndim = 2 from hn)], ?_⟩
  rw [List.getElem?_map, List.getElem?_range (show k < c.size by omega), Option.map_some, Option.some.injEq]
  unfold curvatureNV
  have hn0 : c.ncols ≠ 0 := by have := hc.two_le; omega
  have m1 : (frenet1V c).m = c.size := first_m
  have hs : c.size = (numCurve c).size := by simp [numCurve, Curve.size]
  have sh : Shaped (frenet1V c) (frenet1 (numCurve c)) := first_shaped hs rfl
  have g : SameAt (gradientV (frenet1V c)) (gradient (frenet1 (numCurve c))) k := gradientV_same sh (by rw [m1]; exact h2) (by rw [m1]; omega) fun i hi => by
    rw [m1, uses_iff h2 (by omega)] at hi
    exact frenet1_same hc hs rfl h2 (stencil_lt hi) fun l hl => samePoint_num l (f l (by
      have := ((C162_reach h3 hk l).2.1).1 ⟨i, hi, hl⟩
      omega))
  rw [rowNormV_same sh.gradient g]
  have hr := row_len hc (show k + 1 < c.size by omega)
  have hr' := row_len hc (show k - 1 < c.size by omega)
  have ent : ∀ j, j < c.ncols → (firstderivV c).v k j = (((c.rows.getD (k + 1) []).getD j (.fin 0)).sub ((c.rows.getD (k - 1) []).getD j (.fin 0))).div (.fin 2) := by
    intro j hj
    have hm : c.vmat.m = c.size := rfl
    unfold firstderivV gradientV
    rw [if_pos (by omega)]
    simp only [npGradientV]
    rw [if_neg (by omega), if_neg (by omega)]
    rfl
  have old : ∀ j, j < c.ncols → ∃ y, (c.rows.getD (k - 1) []).getD j (.fin 0) = .fin y := fun j hj => by
    rw [getD_get _ (by omega)]
    exact f (k - 1) (by omega) _ (List.getElem_mem _)
  have two : ¬ (2:ℝ) < 0 := by norm_num
  have sqs : ∀ j, j < c.ncols → (∃ y, ((firstderivV c).v k j).sq = .fin y) ∨ ((firstderivV c).v k j).sq = .pinf := by
    intro j hj
    obtain ⟨y, hy⟩ := old j hj
    rw [ent j hj, hy]
    have := hi ((c.rows.getD (k + 1) []).getD j (.fin 0)) (by rw [getD_get (c.rows.getD (k + 1) []) (by omega)]; exact List.getElem_mem _)
    cases hv : (c.rows.getD (k + 1) []).getD j (.fin 0) with
    | fin z => exact .inl ⟨((z + -y) / 2) ^ 2, by simp [Val.sub, Val.neg, Val.add, Val.div, Val.sq]⟩
    | nan => exact absurd hv this
    | pinf => exact .inr (by simp [Val.sub, Val.neg, Val.add, Val.div, Val.sq, two])
    | ninf => exact .inr (by simp [Val.sub, Val.neg, Val.add, Val.div, Val.sq, two])
  have hinf : rowNormV (firstderivV c) k = .pinf := by
    unfold rowNormV
    rw [first_k h2]
    have : sumV ((List.range c.ncols).map fun j => ((firstderivV c).v k j).sq) = .pinf := by
      refine sum_pinf _ _ (.inl ⟨0, rfl⟩) ?_ (.inr ?_)
      · intro x hx
        obtain ⟨j, hj, rfl⟩ := List.mem_map.1 hx
        exact sqs j (List.mem_range.1 hj)
      · unfold FinPoint at hi'
        push Not at hi'
        obtain ⟨x, hx, hx'⟩ := hi'
        obtain ⟨j, hj, rfl⟩ := List.getElem_of_mem hx
        rw [hr] at hj
        refine List.mem_map.2 ⟨j, List.mem_range.2 hj, ?_⟩
        obtain ⟨y, hy⟩ := old j hj
        rcases sqs j hj with ⟨z, hz⟩ | h
        · exfalso
          have : (((firstderivV c).v k j).sq).isFin = true := by rw [hz]; rfl
          rw [sq_fin, ent j hj] at this
          have := ((sub_fin _ _).1 (div_fin this).1).1
          rw [getD_get (c.rows.getD (k + 1) []) (by omega)] at this
          obtain ⟨w, hw⟩ := isFin_iff.1 this
          exact hx' w hw
        · exact h
    rw [this]
    rfl
  rw [hinf]
  rfl

/-! ### Smoothing -/

/-- **C162 (smoothing).** Window smoothing inside: a coordinate of the result is a number exactly if this coordinate of all points under the window is, entries of the window that are 0 included; then it is their mean with the weights of the window,
whatever the other points and coordinates are. -/
theorem C162_smooth {r : Reg SmoothFn} {m : String} (hf : getSmooth r m = .ok windowFn) (hc : WF c) (hne : c.rows ≠ []) (hd : c.dtype = .float) {ws : List ℝ} (hs : ws.sum ≠ 0) {p : WinParams}
    (hp : makeWindow p.wtype p.size = .ok (.floats (fins ws))) (hmode : BoundaryMode p.mode) :
    ∃ R, c.smooth r m (.window p) = .ok R ∧ R.size = c.size ∧ R.ncols = c.ncols ∧ ∀ i j, i < c.size → j < c.ncols → ws.length ≤ i + ws.length / 2 + 1 → i + ws.length / 2 < c.size →
      (((R.rows.getD i []).getD j .nan).isFin = true ↔ ∀ q, q < ws.length → ((c.rows.getD (i + ws.length / 2 - q) []).getD j (.fin 0)).isFin = true) ∧
      ∀ x : Nat → ℝ, (∀ q, q < ws.length → (c.rows.getD (i + ws.length / 2 - q) []).getD j (.fin 0) = .fin (x q)) →
        (R.rows.getD i []).getD j .nan = .fin (∑ q ∈ Finset.range ws.length, ws.getD q 0 / ws.sum * x q) := by
  obtain ⟨e, he⟩ := boundary_ofString hmode
  have hnw : normWindow (.floats (fins ws)) = .ok (.floats (fins (ws.map (· / ws.sum)))) := by
    simp only [normWindow, sumV_fins]
    congr 2
    unfold fins
    rw [List.map_map, List.map_map]
    apply List.map_congr_left
    intro x _
    exact Val.div_fin hs
  have hwne : ws ≠ [] := by rintro rfl; simp at hs
  have hfw : fins (ws.map (· / ws.sum)) ≠ [] := by simp [fins, hwne]
  have hwf : windowFilter c p = .ok (.arr (NdArr.ofRows (.fin 0) (convolve1d c.rows c.ncols .float (fins (ws.map (· / ws.sum))) e p.cval) c.ncols) .float) := by
    unfold windowFilter
    simp only [hp, bind, Except.bind, hnw]
    rw [if_neg hfw]
    simp only [he]
    rw [if_neg (by simp [hd]), hd]
  rw [smooth_ok hf (p := .window p) hwf]
  have hrows : ∀ row ∈ convolve1d c.rows c.ncols .float (fins (ws.map (· / ws.sum))) e p.cval, row.length = c.ncols := by
    intro row hrow
    unfold convolve1d at hrow
    obtain ⟨i, _, rfl⟩ := List.mem_map.1 hrow
    simp
  have hcl : (convolve1d c.rows c.ncols .float (fins (ws.map (· / ws.sum))) e p.cval) ≠ [] := by
    unfold convolve1d
    simpa using hne
  have := ofRows_ok (rows := convolve1d c.rows c.ncols .float (fins (ws.map (· / ws.sum))) e p.cval) (n := c.ncols) (dt := .float) (t := none) hc.two_le hrows (by intro _ _ x _; rfl) (by simp)
  rw [if_neg hcl] at this
  refine ⟨_, this, by simp [Curve.size, convolve1d], rfl, fun i j hi hj w1 w2 => ?_⟩
  have ent : ((convolve1d c.rows c.ncols .float (fins (ws.map (· / ws.sum))) e p.cval).getD i []).getD j .nan =
      sumV ((List.range ws.length).map fun q => (Val.fin (ws.getD q 0 / ws.sum)).mul ((c.rows.getD (i + ws.length / 2 - q) []).getD j (.fin 0))) := by
    have hi' : i < c.rows.length := hi
    have hi2 : i + ws.length / 2 < c.rows.length := w2
    unfold convolve1d
    rw [getD_get (List.map _ (List.range c.rows.length)) (show i < _ by simpa using hi'), List.getElem_map, List.getElem_range, getD_get _ (show j < _ by simpa using hj), List.getElem_map, List.getElem_range]
    have hl : (fins (ws.map (· / ws.sum))).length = ws.length := by simp [fins]
    show sumV _ = _
    rw [hl]
    congr 1
    apply List.map_congr_left
    intro q hq
    rw [List.mem_range] at hq
    congr 1
    · simp [fins, List.getElem?_eq_getElem hq]
    · unfold extAt extIndex
      rw [if_pos (by constructor <;> omega)]
      simp only
      congr 2
      omega
  constructor
  · rw [ent, sumV_range]
    constructor
    · intro h q hq; exact ((mul_fin _ _).1 (h q hq)).2
    · intro h q hq; exact (mul_fin _ _).2 ⟨rfl, h q hq⟩
  · intro x hx
    rw [ent]
    exact sumV_same fun q hq => by rw [hx q hq]; rfl

/-! ### Intersections -/

theorem nan_closed {a b : Val ℝ} (h : (a = .nan ∨ ∃ x, a = .fin x) ∧ (b = .nan ∨ ∃ x, b = .fin x)) :
    (∃ x y, a = .fin x ∧ b = .fin y) ∨ a.npmin b = .nan ∧ a.npmax b = .nan := by
  rcases h with ⟨rfl | ⟨x, rfl⟩, rfl | ⟨y, rfl⟩⟩
  · exact .inr ⟨rfl, rfl⟩
  · exact .inr ⟨rfl, rfl⟩
  · exact .inr ⟨rfl, rfl⟩
  · exact .inl ⟨x, y, rfl, rfl⟩

theorem ltB_nan (a : Val ℝ) : a.ltB .nan = false ∧ Val.ltB .nan a = false := by
  cases a <;> exact ⟨rfl, rfl⟩

theorem isclose_withNan (a : Val ℝ) : a.isclose .nan = false ∧ Val.isclose .nan a = false := by
  cases a <;> exact ⟨rfl, rfl⟩

theorem bboxEntryV_iff {n : Nat} {s r : Seg n (Val ℝ)} {s' r' : Seg n ℝ} (hs : ∀ i, (s.p1 i = .nan ∨ ∃ x, s.p1 i = .fin x) ∧ (s.p2 i = .nan ∨ ∃ x, s.p2 i = .fin x))
    (hr : ∀ i, (r.p1 i = .nan ∨ ∃ x, r.p1 i = .fin x) ∧ (r.p2 i = .nan ∨ ∃ x, r.p2 i = .fin x))
    (es : (∀ i, (∃ x, s.p1 i = .fin x) ∧ ∃ x, s.p2 i = .fin x) → ∀ i, s.p1 i = .fin (s'.p1 i) ∧ s.p2 i = .fin (s'.p2 i))
    (er : (∀ i, (∃ x, r.p1 i = .fin x) ∧ ∃ x, r.p2 i = .fin x) → ∀ i, r.p1 i = .fin (r'.p1 i) ∧ r.p2 i = .fin (r'.p2 i)) :
    bboxEntryV s r = true ↔ bboxEntry s' r' = true ∧ (∀ i, (∃ x, s.p1 i = .fin x) ∧ ∃ x, s.p2 i = .fin x) ∧ ∀ i, (∃ x, r.p1 i = .fin x) ∧ ∃ x, r.p2 i = .fin x := by
  have fin : bboxEntryV s r = true → (∀ i, (∃ x, s.p1 i = .fin x) ∧ ∃ x, s.p2 i = .fin x) ∧ ∀ i, (∃ x, r.p1 i = .fin x) ∧ ∃ x, r.p2 i = .fin x := by
    intro h
    unfold bboxEntryV at h
    rw [List.all_eq_true] at h
    constructor
    · intro i
      rcases nan_closed (hs i) with ⟨x, y, hx, hy⟩ | ⟨h1, h2⟩
      · exact ⟨⟨x, hx⟩, y, hy⟩
      · have := h i (List.mem_finRange i)
        rw [h1, h2] at this
        simp [(ltB_nan _).2, (isclose_withNan _).2] at this
    · intro i
      rcases nan_closed (hr i) with ⟨x, y, hx, hy⟩ | ⟨h1, h2⟩
      · exact ⟨⟨x, hx⟩, y, hy⟩
      · have := h i (List.mem_finRange i)
        rw [h1, h2] at this
        simp [(ltB_nan _).1, (isclose_withNan _).1] at this
  by_cases hf : (∀ i, (∃ x, s.p1 i = .fin x) ∧ ∃ x, s.p2 i = .fin x) ∧ ∀ i, (∃ x, r.p1 i = .fin x) ∧ ∃ x, r.p2 i = .fin x
  · have e1 := es hf.1
    have e2 := er hf.2
    have : bboxEntryV s r = bboxEntry s' r' := by
      unfold bboxEntryV bboxEntry
      rw [Bool.eq_iff_iff, List.all_eq_true, decide_eq_true_eq]
      simp only [List.mem_finRange, true_implies]
      refine forall_congr' fun i => ?_
      rw [(e1 i).1, (e1 i).2, (e2 i).1, (e2 i).2]
      simp only [Val.npmin_fin, Val.npmax_fin, Val.ltB_fin, Val.isclose, Bool.and_eq_true, Bool.or_eq_true, decide_eq_true_eq, gt_iff_lt]
    rw [this]
    exact ⟨fun h => ⟨h, hf⟩, fun h => h.1⟩
  · exact ⟨fun h => absurd (fin h) hf, fun h => absurd h.2 hf⟩

theorem nonzero_filter {m1 m2 : Nat} {A B : Mat Bool} {P : Nat × Nat → Bool} (h : ∀ i j, i < m1 → j < m2 → A i j = (B i j && P (i, j))) : nonzero m1 m2 A = (nonzero m1 m2 B).filter P := by
  unfold nonzero
  rw [List.filter_flatMap]
  refine List.flatMap_congr fun i hi => ?_
  rw [List.mem_range] at hi
  rw [List.filter_map, List.filter_filter]
  congr 1
  apply List.filter_congr
  intro j hj
  rw [List.mem_range] at hj
  rw [h i j hi hj]
  simp [Bool.and_comm]

theorem indices_filter {m1 m2 : Nat} {A B : Mat Bool} {P : Nat × Nat → Bool} (b : Bool) (h : ∀ i j, i < m1 → j < m2 → A i j = (B i j && P (i, j))) : curvesIndices m1 m2 A b = (curvesIndices m1 m2 B b).filter P := by
  unfold curvesIndices
  cases b
  · simpa using nonzero_filter h
  · simp only [if_true]
    rw [List.filter_filter]
    rw [nonzero_filter (P := P) (B := fun i j => if j ≤ i then false else B i j)]
    · rw [List.filter_filter]
      exact List.filter_congr fun _ _ => Bool.and_comm _ _
    · intro i j hi hj
      split
      · simp
      · exact h i j hi hj

theorem segment_data {n : Nat} {c : VCurve n} {i : Nat} (hi : i < c.data.length - 1) : ∃ p q, c.data[i]? = some p ∧ c.data[i + 1]? = some q ∧ c.segment i = ⟨p, q⟩ := by
  refine ⟨_, _, List.getElem?_eq_getElem (by omega), List.getElem?_eq_getElem (by omega), ?_⟩
  unfold VCurve.segment
  rw [getD_get _ (by omega), getD_get _ (by omega)]

theorem finSeg_iff {n : Nat} {c : VCurve n} {i : Nat} (hi : i < c.data.length - 1) : FinSeg c i ↔ ∀ q, (∃ x, (c.segment i).p1 q = .fin x) ∧ ∃ x, (c.segment i).p2 q = .fin x := by
  obtain ⟨p, q, h1, h2, h3⟩ := segment_data hi
  rw [h3]
  constructor
  · intro h k
    exact ⟨h i p (.inl rfl) h1 k, h (i + 1) q (.inr rfl) h2 k⟩
  · rintro h l w (rfl | rfl) hw k
    · rw [h1] at hw; cases hw; exact (h k).1
    · rw [h2] at hw; cases hw; exact (h k).2

theorem noInf_seg {n : Nat} {c : VCurve n} {i : Nat} (hi : i < c.data.length - 1) (h : NoInf c) (k : Fin n) :
    ((c.segment i).p1 k = .nan ∨ ∃ x, (c.segment i).p1 k = .fin x) ∧ ((c.segment i).p2 k = .nan ∨ ∃ x, (c.segment i).p2 k = .fin x) := by
  obtain ⟨p, q, h1, h2, h3⟩ := segment_data hi
  rw [h3]
  have two : ∀ v : Val ℝ, v ≠ .pinf ∧ v ≠ .ninf → v = .nan ∨ ∃ x, v = .fin x := by
    rintro (x | _ | _ | _) h <;> simp at h ⊢
  exact ⟨two _ (h p (List.mem_of_getElem? h1) k), two _ (h q (List.mem_of_getElem? h2) k)⟩

theorem agrees_seg {n : Nat} {c : VCurve n} {d : GCurve n ℝ} (ha : Agrees c d) {i : Nat} (hi : i < c.data.length - 1) (hf : FinSeg c i) (k : Fin n) :
    (c.segment i).p1 k = .fin ((d.segment i).seg.p1 k) ∧ (c.segment i).p2 k = .fin ((d.segment i).seg.p2 k) := by
  obtain ⟨p, q, h1, h2, h3⟩ := segment_data hi
  have hd := ha.2.1
  have e : ∀ l, l < d.data.length → d.data[l]? = some (Model.rowAt d.data l) := by
    intro l hl
    unfold Model.rowAt
    simp [hl]
  rw [h3]
  exact ⟨ha.2.2 i p _ h1 (e i (by omega)) (hf i p (.inl rfl) h1) k, ha.2.2 (i + 1) q _ h2 (e _ (by omega)) (hf (i + 1) q (.inr rfl) h2) k⟩

section
open Classical

/-- **C162 (candidate segments).** Curves with NaN but no infinite coordinates: the pairs of segments chosen by the bounding boxes are those of curves of numbers with the same finite points, less those with a segment that has a NaN. -/
theorem C162_pairs {n : Nat} {c1 c2 : VCurve n} {d1 d2 : GCurve n ℝ} (i1 : NoInf c1) (i2 : NoInf c2) (a1 : Agrees c1 d1) (a2 : Agrees c2 d2) (hid : c2.cid = c1.cid → c2 = c1 ∧ d2 = d1) :
    bboxPairsV c1 c2 = (bboxPairs d1 d2).filter fun ij => decide (FinSeg c1 ij.1 ∧ FinSeg c2 ij.2) := by
  unfold bboxPairsV bboxPairs
  simp only [a1.1, a2.1, a1.2.1, a2.2.1, GCurve.numSegs]
  by_cases h0 : c1.data.length = 0 ∨ c2.data.length = 0
  · rw [if_pos h0, if_pos h0]; simp
  rw [if_neg h0, if_neg h0]
  have main : ∀ {e : VCurve n} {f : GCurve n ℝ}, NoInf e → Agrees e f → ∀ i j, i < c1.data.length - 1 → j < e.data.length - 1 →
      bboxEntryV (c1.segment i) (e.segment j) = (bboxEntry (d1.segment i).seg (f.segment j).seg && decide (FinSeg c1 i ∧ FinSeg e j)) := by
    intro e f ie ae i j hi hj
    rw [Bool.eq_iff_iff, bboxEntryV_iff (noInf_seg hi i1) (noInf_seg hj ie) (fun h => agrees_seg a1 hi ((finSeg_iff hi).2 h)) (fun h => agrees_seg ae hj ((finSeg_iff hj).2 h)),
      Bool.and_eq_true, decide_eq_true_eq, finSeg_iff hi, finSeg_iff hj]
  by_cases hs : c2.cid = c1.cid
  · obtain ⟨rfl, rfl⟩ := hid hs
    simp only [if_true, decide_true, a1.2.1]
    exact indices_filter true (main i1 a1)
  · simp only [hs, decide_false, Bool.false_eq_true, if_false, a2.2.1]
    exact indices_filter false (main i2 a2)

theorem agrees_numbers {n : Nat} (c : VCurve n) : Agrees c c.numbers := by
  refine ⟨rfl, by simp [VCurve.numbers], fun l p p' h h' hf q => ?_⟩
  simp only [VCurve.numbers, List.getElem?_map, h, Option.map_some, Option.some.injEq] at h'
  obtain ⟨x, hx⟩ := hf q
  rw [← h']
  simp only [hx, Val.real]

theorem collect_filter {n : Nat} {f : SegObj n ℝ → SegObj n ℝ → Except PyErr (Info n ℝ)} {c1 c2 d1 d2 : GCurve n ℝ} (P : Nat → Nat → Prop) : ∀ (l : List (Nat × Nat)) {r : List (SegInt n ℝ)},
    (∀ ij ∈ l, P ij.1 ij.2 → c1.segment ij.1 = d1.segment ij.1 ∧ c2.segment ij.2 = d2.segment ij.2) → collect f d1 d2 l = .ok r →
    collect f c1 c2 (l.filter fun ij => decide (P ij.1 ij.2)) = .ok (r.filter fun x => decide (∃ i j, x.seg1.origin = some (d1.cid, i) ∧ x.seg2.origin = some (d2.cid, j) ∧ P i j))
  | [], r, _, h => by
    simp only [collect, Except.ok.injEq] at h
    subst h
    rfl
  | ij :: l, r, hs, h => by
    simp only [collect, bind, Except.bind] at h
    cases hi : f (d1.segment ij.1) (d2.segment ij.2) with
    | error e => rw [hi] at h; simp at h
    | ok info =>
      rw [hi] at h
      simp only at h
      cases ht : collect f d1 d2 l with
      | error e => rw [ht] at h; simp at h
      | ok tail =>
        rw [ht] at h
        simp only [Except.ok.injEq] at h
        have ih := collect_filter (c1 := c1) (c2 := c2) P l (fun ij hij => hs ij (List.mem_cons_of_mem _ hij)) ht
        have key : (∃ i j, (d1.segment ij.1).origin = some (d1.cid, i) ∧ (d2.segment ij.2).origin = some (d2.cid, j) ∧ P i j) ↔ P ij.1 ij.2 := by
          simp only [GCurve.segment, Option.some.injEq, Prod.mk.injEq, true_and]
          constructor
          · rintro ⟨i, j, h1, h2, h3⟩; rw [h1, h2]; exact h3
          · intro h; exact ⟨_, _, rfl, rfl, h⟩
        by_cases hP : P ij.1 ij.2
        · rw [List.filter_cons, if_pos (by simpa using hP)]
          simp only [collect, bind, Except.bind]
          obtain ⟨e1, e2⟩ := hs ij (by simp) hP
          rw [e1, e2, hi]
          simp only
          rw [ih]
          simp only [Except.ok.injEq]
          rw [← h]
          split
          · rw [List.filter_cons, if_pos (by rw [decide_eq_true_eq]; exact key.2 hP)]
          · rfl
        · rw [List.filter_cons, if_neg (by simpa using hP), ih, ← h]
          split
          · rw [List.filter_cons, if_neg (by rw [decide_eq_true_eq]; exact fun h => hP (key.1 h))]
          · rfl

/-- **C162 (intersections).** The exact intersections of curves with NaN but no infinite coordinates are those of curves of numbers with the same finite points, less those of segments that have a NaN. -/
theorem C162_exact {n : Nat} {c1 c2 : VCurve n} {d1 d2 : GCurve n ℝ} (i1 : NoInf c1) (i2 : NoInf c2) (a1 : Agrees c1 d1) (a2 : Agrees c2 d2) (hid : c2.cid = c1.cid → c2 = c1 ∧ d2 = d1)
    (feps : ℝ) : ∃ r, exactCurves feps d1 d2 = .ok r ∧
    exactCurvesV feps c1 c2 = .ok (r.filter fun x => decide (∃ i j, x.seg1.origin = some (d1.cid, i) ∧ x.seg2.origin = some (d2.cid, j) ∧ FinSeg c1 i ∧ FinSeg c2 j)) := by
  obtain ⟨r, h, -⟩ := exactCall_curves feps 0 false d1 d2
  refine ⟨r, h, ?_⟩
  unfold exactCurvesV
  rw [C162_pairs i1 i2 a1 a2 hid]
  convert collect_filter (c1 := c1.numbers) (c2 := c2.numbers) (fun i j => FinSeg c1 i ∧ FinSeg c2 j) (bboxPairs d1 d2) ?_ h using 3
  · funext ij; congr
  intro ij hij hP
  have hlt := mem_bboxPairs hij fun h => (hid (by rw [← a1.1, ← a2.1]; exact h)).2
  have l1 := hlt.1
  have l2 := hlt.2.1
  rw [a1.2.1] at l1
  rw [a2.2.1] at l2
  have same : ∀ {c : VCurve n} {d : GCurve n ℝ}, Agrees c d → ∀ i, i < c.data.length - 1 → FinSeg c i → c.numbers.segment i = d.segment i := by
    intro c d ha i hi hf
    have h1 := agrees_seg ha hi hf
    have h2 := agrees_seg (agrees_numbers c) hi hf
    ext k
    · exact Val.fin.inj ((h2 k).1.symm.trans (h1 k).1)
    · exact Val.fin.inj ((h2 k).2.symm.trans (h1 k).2)
    · simp [GCurve.segment, ha.1, VCurve.numbers]
  exact ⟨same a1 _ (by omega) hP.1, same a2 _ (by omega) hP.2⟩

end

/-! ### Examples -/

/-- Nine points of a parabola, the fifth of which is missing. -/
noncomputable def exGap : Curve (Val ℝ) :=
  ⟨[[.fin 0, .fin 0], [.fin 1, .fin 1], [.fin 2, .fin 4], [.fin 3, .fin 9], [.nan, .fin 16], [.fin 5, .fin 25], [.fin 6, .fin 36], [.fin 7, .fin 49], [.fin 8, .fin 64]], 2, none, .float⟩

theorem exGap_WF : WF exGap := ⟨by simp [exGap], by simp [exGap], by simp [exGap], by intro r _ x _; rfl⟩

theorem exGap_fin {l : Nat} (h : l ≠ 4) : FinPoint exGap l := by
  unfold FinPoint
  match l, h with
  | 0, _ => simp [exGap]
  | 1, _ => simp [exGap]
  | 2, _ => simp [exGap]
  | 3, _ => simp [exGap]
  | 5, _ => simp [exGap]
  | 6, _ => simp [exGap]
  | 7, _ => simp [exGap]
  | 8, _ => simp [exGap]
  | l + 9, _ => simp [exGap]

/-- At the missing point itself the first derivative is a number (it uses the neighbours), at its neighbours it is not. -/
example : (∃ x, (firstderivV exGap).v 4 0 = .fin x) ∧ ¬ (∀ j, j < 2 → ((firstderivV exGap).v 5 j).isFin = true) ∧ (∃ x, (speedV exGap)[4]? = some (.fin x)) ∧
    ¬ (∀ j, j < 2 → ((secondderivV exGap).v 4 j).isFin = true) := by
  have hs : exGap.size = 9 := rfl
  have v := (C162_values exGap_WF (d := numCurve exGap) (by simp [numCurve, Curve.size]) rfl (by simp [hs]) (show 4 < exGap.size by simp [hs])).1 (fun l hl => samePoint_num l (exGap_fin (by
    rw [hs] at hl
    have := ((C162_reach (by norm_num) (by norm_num) l).1).1 hl
    omega)))
  refine ⟨⟨_, (v.1 0 (by decide)).1⟩, fun h => ?_, ⟨_, v.2⟩, fun h => ?_⟩
  · have := (C162_missing exGap_WF (by simp [hs]) (show 5 < exGap.size by simp [hs])).1 (.inl h) 4 (by rw [hs]; unfold Stencil; omega) .nan (by simp [exGap])
    simp at this
  · have := (C162_missing exGap_WF (by simp [hs]) (show 4 < exGap.size by simp [hs])).2.1 h 4 (by rw [hs]; exact ((C162_reach (by norm_num) (by norm_num) 4).2.1).2 (by omega)) .nan (by simp [exGap])
    simp at this

/-- The curvature at point 7 is that of the parabola without the gap (the third derivative there is not). -/
example : ∃ ks ks' x, curvatureV exGap = .ok ks ∧ curvature (numCurve exGap) = .ok ks' ∧ ks[7]? = some x ∧ ks'[7]? = some x := by
  have hs : exGap.size = 9 := rfl
  refine (C162_curvature exGap_WF (by simp [numCurve, Curve.size]) rfl (by simp [hs]) (by simp [hs])).1 fun l hl => samePoint_num l (exGap_fin ?_)
  rw [hs] at hl
  rintro rfl
  rcases hl with h | ⟨i, h, h'⟩
  · unfold Stencil at h; omega
  · unfold Stencil at h h'; omega

/-- The chord after the gap is not a number, so the arc length is not; the cumulative length before the gap is. -/
example : (∃ x, (chordsV exGap.rows)[4]? = some x ∧ x.isFin = false) ∧ (arclenV exGap).isFin = false ∧ ∃ x, (cumarclenV exGap)[3]? = some x ∧ x.isFin = true := by
  have bad : ¬ FinPoint exGap 4 := fun h => by simpa using h .nan (by simp [exGap])
  have hs : exGap.size = 9 := rfl
  obtain ⟨x, h1, h2, -⟩ := C162_chord exGap_WF (k := 4) (by simp [hs])
  obtain ⟨-, -, h3, h4, -⟩ := C162_length exGap_WF (by simp [hs])
  obtain ⟨y, h5, h6, -⟩ := h3 3 (by norm_num) (by simp [hs])
  refine ⟨⟨x, h1, ?_⟩, ?_, y, h5, h6.2 fun l hl => exGap_fin (by omega)⟩
  · rw [← Bool.not_eq_true, h2]; exact fun h => bad h.1
  · rw [← Bool.not_eq_true, h4]; exact fun h => bad (h 4 (by simp [hs]))

example : ∃ c' d, exGap.nonsingular = .ok c' ∧ d.size = c'.size ∧ ∀ l, SamePoint c' d l := by
  obtain ⟨c', d, h1, h2, -, h3, -⟩ := C162_nonsingular exGap_WF (by simp [exGap])
  exact ⟨c', d, h1, h2, h3⟩

/-- Seven points in space on a corner, one of which is at infinity. -/
noncomputable def exFarOff : Curve (Val ℝ) :=
  ⟨[[.fin 0, .fin 0, .fin 0], [.fin 1, .fin 1, .fin 0], [.fin 2, .fin 4, .fin 0], [.fin 3, .fin 9, .fin 1], [.fin 4, .pinf, .fin 2], [.fin 5, .fin 25, .fin 0], [.fin 6, .fin 36, .fin 0]], 3, none, .float⟩

example : ∃ ks, curvatureV exFarOff = .ok ks ∧ ks[3]? = some (.fin 0) := by
  refine C162_infinite_fails ⟨by simp [exFarOff], by simp [exFarOff], by simp [exFarOff], by intro r _ x _; rfl⟩ (by simp [exFarOff]) (by norm_num) (by simp [exFarOff, Curve.size]) ?_ (by simp [exFarOff])
    fun h => by simpa using h .pinf (by simp [exFarOff])
  intro l hl
  have : l = 1 ∨ l = 2 ∨ l = 3 ∨ l = 5 := by omega
  unfold FinPoint
  rcases this with rfl | rfl | rfl | rfl <;> simp [exFarOff]

/-- A window of three equal weights: point 5 loses its abscissa but not its ordinate, point 6 keeps both. -/
example (f : SmoothFn) : ∃ R, exGap.smooth (smoothReg f) "window" (.window { size := 3, wtype := .callable fun _ => .ok (.floats (fins [1, 1, 1])), mode := "reflect" }) = .ok R ∧
    ((R.rows.getD 5 []).getD 0 .nan).isFin = false ∧ ((R.rows.getD 5 []).getD 1 .nan).isFin = true ∧ (R.rows.getD 6 []).getD 0 .nan = .fin 6 := by
  obtain ⟨R, h1, -, -, h2⟩ := C162_smooth (smoothReg_window f) exGap_WF (by simp [exGap]) rfl (ws := [1, 1, 1]) (by norm_num)
    (p := { size := 3, wtype := .callable fun _ => .ok (.floats (fins [1, 1, 1])), mode := "reflect" }) rfl (by simp [BoundaryMode])
  have hs : exGap.size = 9 := rfl
  have hn : exGap.ncols = 2 := rfl
  refine ⟨R, h1, ?_, ?_, ?_⟩
  · rw [← Bool.not_eq_true, (h2 5 0 (by simp [hs]) (by simp [hn]) (by simp) (by simp [hs])).1]
    intro h
    have := h 2 (by simp)
    simp [exGap, Val.isFin] at this
  · rw [(h2 5 1 (by simp [hs]) (by simp [hn]) (by simp) (by simp [hs])).1]
    intro q hq
    have : q = 0 ∨ q = 1 ∨ q = 2 := by simp at hq; omega
    rcases this with rfl | rfl | rfl <;> simp [exGap, Val.isFin]
  · rw [(h2 6 0 (by simp [hs]) (by simp [hn]) (by simp) (by simp [hs])).2 (fun q => 7 - q)]
    · simp [Finset.sum_range_succ]; norm_num
    · intro q hq
      have : q = 0 ∨ q = 1 ∨ q = 2 := by simp at hq; omega
      rcases this with rfl | rfl | rfl <;> simp [exGap] <;> norm_num

/-- Two segments and one with a NaN, and a curve of numbers across. -/
noncomputable def exGapA : VCurve 2 := ⟨0, false, [![.fin 0, .fin 0], ![.fin 2, .fin 2], ![.fin 4, .fin 0], ![.nan, .fin 1]]⟩
noncomputable def exGapB : VCurve 2 := ⟨1, false, [![.fin 0, .fin 1], ![.fin 5, .fin 1]]⟩

example (feps : ℝ) : ∃ r, exactCurves feps exGapA.numbers exGapB.numbers = .ok r ∧
    exactCurvesV feps exGapA exGapB = .ok (r.filter fun x => @decide (∃ i j, x.seg1.origin = some (0, i) ∧ x.seg2.origin = some (1, j) ∧ FinSeg exGapA i ∧ FinSeg exGapB j) (Classical.propDecidable _)) ∧
    FinSeg exGapA 1 ∧ ¬ FinSeg exGapA 2 := by
  have i1 : NoInf exGapA := by
    intro p hp q
    simp only [exGapA, List.mem_cons, List.not_mem_nil, or_false] at hp
    rcases hp with rfl | rfl | rfl | rfl <;> fin_cases q <;> simp
  have i2 : NoInf exGapB := by
    intro p hp q
    simp only [exGapB, List.mem_cons, List.not_mem_nil, or_false] at hp
    rcases hp with rfl | rfl <;> fin_cases q <;> simp
  obtain ⟨r, hr, hr'⟩ := C162_exact i1 i2 (agrees_numbers _) (agrees_numbers _) (by simp [exGapA, exGapB]) feps
  refine ⟨r, hr, hr', ?_, fun h => ?_⟩
  · rintro l p (rfl | rfl) hp q
    · simp [exGapA] at hp; subst hp; fin_cases q <;> simp
    · simp [exGapA] at hp; subst hp; fin_cases q <;> simp
  · have := h 3 _ (.inr rfl) (by simp [exGapA]; rfl) 0
    simp at this

/-! ## Concrete cases -/

example {c : Curve (Val ℝ)} (hc : c = ⟨[[.fin 0, .fin 0], [.fin 1, .fin 1], [.fin 2, .fin 4], [.nan, .fin 9]], 2, none, .float⟩) {ks : List (Val ℝ)} (h : curvatureV c = .ok ks) :=
  C162_missing_curvature (c := c) (k := 1) (x := 2) (by subst hc; exact ⟨by simp, by simp, by simp, by intros; rfl⟩) (by subst hc; simp [Curve.size]) (by subst hc; simp [Curve.size]) h

end Verif.Props
