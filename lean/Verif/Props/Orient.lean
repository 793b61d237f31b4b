import Verif.Props.CurveSeg
import Verif.Model.FullHistory

/-!
`coorientplane` on floating point values (C57).
-/
namespace Verif.Props

open Verif Verif.Np Verif.Model Verif.Spec

/-- **C57 (floating point values).** With two or more points and axes inside the dimension, `coorientplane` does not fail: it returns the copy or the reversed curve, also when coordinates are NaN or infinite. If the
four coordinates of the two end points on the two axes are finite numbers, it is the copy exactly when their determinant is positive. -/
theorem C57_nonfinite (dec : Bool) {c : Curve (Val ℝ)} (hc : WF c) (h2 : 2 ≤ c.size) (a1 a2 : Int) (p q : Nat) (hp : IsPos c.ndim a1 p) (hq : IsPos c.ndim a2 q) :
    (c.coorientplaneV dec a1 a2 = c.copy ∨ c.coorientplaneV dec a1 a2 = c.reverse) ∧
    ∀ x1 x2 y1 y2 : ℝ, (c.rows.head?.getD [])[p]? = some (.fin x1) → (c.rows.head?.getD [])[q]? = some (.fin x2) →
      (c.rows.getLast?.getD [])[p]? = some (.fin y1) → (c.rows.getLast?.getD [])[q]? = some (.fin y2) →
      (0 < x1 * y2 - y1 * x2 → c.coorientplaneV dec a1 a2 = c.copy) ∧ (x1 * y2 - y1 * x2 ≤ 0 → c.coorientplaneV dec a1 a2 = c.reverse) := by
  have hsz : c.size = c.rows.length := rfl
  obtain ⟨a, l, hal⟩ : ∃ a l, c.rows = a :: l := by
    cases h : c.rows with
    | nil => rw [hsz, h] at h2; simp at h2
    | cons a l => exact ⟨a, l, rfl⟩
  have hne : c.rows ≠ [] := by rw [hal]; simp
  obtain ⟨b, hb⟩ : ∃ b, b = c.rows.getLast hne := ⟨_, rfl⟩
  have hlast : c.rows[c.rows.length - 1]? = some b := by
    rw [← List.getLast?_eq_getElem?, List.getLast?_eq_some_getLast hne, hb]
  have hfirst : c.rows[0]? = some a := by rw [hal]; rfl
  have hbm : b ∈ c.rows := by rw [hb]; exact List.getLast_mem _
  have ham : a ∈ c.rows := by rw [hal]; simp
  have hcast : ∀ r : List (Val ℝ), (Point.init r none).data = r := by
    intro r
    have h1 : (Point.init r none).data = r.map id := rfl
    rw [h1, List.map_id]
  have h1 : CurvePoint.init c 0 0 = .ok ⟨Point.init a none, 0, c, 0⟩ := cpoint_nat (k := 0) hfirst
  have hg : getIdx c.rows ((c.size : Int) + -1) = .ok b := by
    rw [getIdx_ok]
    exact ⟨c.rows.length - 1, ⟨by omega, by left; omega⟩, hlast⟩
  have h3 : CurvePoint.init c 0 (-1) = .ok ⟨Point.init b none, (c.size : Int) + -1, c, 0⟩ := by
    unfold CurvePoint.init
    simp only [if_pos (show (-1 : Int) < 0 by omega), hg]
  have hget : ∀ r ∈ c.rows, ∀ i k, IsPos c.ndim i k → ∃ v, getIdx r i = .ok v ∧ r[k]? = some v := by
    intro r hr i k hk
    have hl : r.length = c.ndim := hc.rect r hr
    have hk' : k < r.length := by rw [hl]; exact hk.1
    refine ⟨r[k], ?_, List.getElem?_eq_getElem hk'⟩
    rw [getIdx_ok, hl]
    exact ⟨k, hk, List.getElem?_eq_getElem hk'⟩
  obtain ⟨v1, g1, e1⟩ := hget a ham _ _ hp
  obtain ⟨v2, g2, e2⟩ := hget a ham _ _ hq
  obtain ⟨w1, g3, e3⟩ := hget b hbm _ _ hp
  obtain ⟨w2, g4, e4⟩ := hget b hbm _ _ hq
  have hh : c.rows.head?.getD [] = a := by rw [hal]; rfl
  have hl : c.rows.getLast?.getD [] = b := by rw [List.getLast?_eq_some_getLast hne, hb]; rfl
  rw [hh, hl]
  unfold Curve.coorientplaneV isCoorientV
  rw [if_neg (by omega)]
  simp only [h1, h3, hcast, g1, g2, g3, g4]
  constructor
  · have any : ∀ d : Bool, (match (Except.ok d : Except PyErr Bool) with | .error e => .error e | .ok false => c.reverse | .ok true => c.copy) = c.copy ∨
        (match (Except.ok d : Except PyErr Bool) with | .error e => .error e | .ok false => c.reverse | .ok true => c.copy) = c.reverse := by
      intro d
      cases d <;> simp
    cases v1 <;> cases v2 <;> cases w1 <;> cases w2 <;> exact any _
  · intro x1 x2 y1 y2 q1 q2 q3 q4
    obtain rfl := Option.some.inj (e1.symm.trans q1)
    obtain rfl := Option.some.inj (e2.symm.trans q2)
    obtain rfl := Option.some.inj (e3.symm.trans q3)
    obtain rfl := Option.some.inj (e4.symm.trans q4)
    constructor <;> intro h
    · simp only [decide_eq_true h]
    · simp only [decide_eq_false (not_lt.2 h)]

/-- A curve with a NaN as first coordinate. -/
example : 2 ≤ (⟨[[.nan, .fin 1], [.fin 2, .fin 3]], 2, none, .float⟩ : Curve (Val ℝ)).size ∧ IsPos 2 0 0 ∧ IsPos 2 (-1) 1 := by
  refine ⟨by simp [Curve.size], ⟨by omega, by left; rfl⟩, ⟨by omega, by right; rfl⟩⟩

end Verif.Props
