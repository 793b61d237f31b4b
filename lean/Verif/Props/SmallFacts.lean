import Verif.Props.Select
import Verif.Props.Metrics
import Verif.Model.History

/-!
Two facts that seeded faults had shown to be missing: the step `subcurve` of a history (C72) and the absolute value of the metric
`correlation` (C127).
-/
namespace Verif.Props

open Verif Verif.Np Verif.Model Verif.Spec

/-- **C72 (as a step of a history).** For positions `i ≤ j` the step gives the points `i..j` (without `j` if `endpoint` is False) with their
parameter values. -/
theorem C72_step {α : Type} [Elem α] [LE α] [DecidableLE α] [DecidableEq α] {c : Curve α} (hc : WF c) (i j : Nat) (hi : i ≤ j) (hj : j < c.size) (e : Bool) :
    ∃ c', Op.step (.subcurve i j e) c = .ok c' ∧ c'.rows = (c.rows.take (if e then j + 1 else j)).drop i ∧
      c'.tdata = (c.tdata.map fun t => (t.take (if e then j + 1 else j)).drop i) := by
  obtain ⟨p, q, c', h1, h2, h3, h4, h5, _⟩ := C72_subcurve hc 0 i j hi hj e
  refine ⟨c', ?_, h4, h5⟩
  simp only [Op.step, h1, h2]
  exact h3

/-- **C127 (absolute value).** The absolute value of a floating point number is NaN only for NaN, never negative, and infinite exactly for
the infinities. -/
theorem C127_abs (v : Val ℝ) : (v.abs = .nan ↔ v = .nan) ∧ (v.abs = .pinf ↔ v = .pinf ∨ v = .ninf) ∧ v.abs ≠ .ninf ∧
    ∀ x, v.abs = .fin x ↔ 0 ≤ x ∧ (v = .fin x ∨ v = .fin (-x)) := by
  cases v with
  | fin y =>
    refine ⟨by simp [Val.abs], by simp [Val.abs], by simp [Val.abs], fun x => ?_⟩
    simp only [Val.abs, Val.fin.injEq]
    constructor
    · rintro rfl
      refine ⟨abs_nonneg y, ?_⟩
      rcases abs_cases y with ⟨h, _⟩ | ⟨h, _⟩ <;> rw [h] <;> simp
    · rintro ⟨h, rfl | rfl⟩
      · exact abs_of_nonneg h
      · rw [abs_neg, abs_of_nonneg h]
  | nan => simp [Val.abs]
  | pinf => simp [Val.abs]
  | ninf => simp [Val.abs]

example : ∃ c', Op.step (.subcurve 0 1 true) exCurve = .ok c' ∧ c'.rows = [[0, 0], [1, 2]] := by
  obtain ⟨c', h1, h2, _⟩ := C72_step exCurve_WF 0 1 (by decide) (by decide) true
  exact ⟨c', h1, by rw [h2]; decide⟩

end Verif.Props
