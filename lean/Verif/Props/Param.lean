import Verif.Props.ArcLen

/-!
C50: the parameter of a curve.
-/
namespace Verif.Props

open Verif Verif.Np Verif.Model Verif.Spec

theorem finish_tdata {raw : Arr2 ℝ} {dt : DType} {t : Option (List ℝ)} {b : Bool} {k : Nat} {c : Curve ℝ}
    (h : Curve.finish raw dt t b k = .ok c) : c.tdata = t := by
  unfold Curve.finish at h
  simp only at h
  split_ifs at h <;> cases t <;> simp at h <;> (try split_ifs at h) <;> (try simp at h) <;> subst h <;> rfl

/-- **C50 (parameter).** The parameter `t` of a curve made with `tdata=ts` from an array or from lists of coordinates is `ts`. Without
`tdata` entry `k` is the length of the polygonal line through the points 0..k. A curve made from a curve with a parameter has that one,
whatever `tdata` is given; made from one without, the lengths along itself. -/
theorem C50_t {data : CurveData ℝ} {ts : Option (List ℝ)} {axis ndmin : Option Int} {dt : Option DType} {c : Curve ℝ}
    (h : Curve.init data ts axis ndmin dt = .ok c) (junk : ℝ) :
    ((∀ c₀, data ≠ .curve c₀) → ∀ t, ts = some t → c.t junk = t) ∧
    (∀ c₀ t, data = .curve c₀ → c₀.tdata = some t → c.t junk = t) ∧
    (((∀ c₀, data ≠ .curve c₀) ∧ ts = none ∨ ∃ c₀, data = .curve c₀ ∧ c₀.tdata = none) → ∀ k < c.size,
      (c.t junk)[k]? = some (pathLen c.ndim (c.rows.take (k + 1)))) := by
  have hw := init_WF h
  have hnone : c.tdata = none → ∀ k < c.size, (c.t junk)[k]? = some (pathLen c.ndim (c.rows.take (k + 1))) := by
    intro hn k hk
    have hne : c.rows ≠ [] := by intro h0; simp [Curve.size, h0] at hk
    have : c.t junk = cumarclen junk c := by unfold Curve.t; rw [hn]
    rw [this]
    exact (C50_cumarclen_partial hw hne junk).2.2.1 k hk
  have hsome : ∀ t, c.tdata = some t → c.t junk = t := by
    intro t ht; unfold Curve.t; rw [ht]
  unfold Curve.init at h
  simp only at h
  split_ifs at h
  cases data with
  | curve c₀ =>
    simp only at h
    cases hr : as2d (NdArr.ofRows Elem.zero c₀.rows c₀.ncols) 0 with
    | error e => rw [hr] at h; simp at h
    | ok raw =>
      rw [hr] at h
      have e := finish_tdata h
      refine ⟨fun k => absurd rfl (k c₀), ?_, ?_⟩
      · intro c₁ t e1 e2
        cases e1
        exact hsome t (by rw [e, e2])
      · rintro (⟨k, _⟩ | ⟨c₁, e1, e2⟩)
        · exact absurd rfl (k c₀)
        · cases e1
          exact hnone (by rw [e, e2])
  | arr a d =>
    simp only at h
    cases hr : as2d a (axis.getD 0) with
    | error e => rw [hr] at h; simp at h
    | ok raw =>
      rw [hr] at h
      have e := finish_tdata h
      refine ⟨fun _ t et => hsome t (by rw [e, et]), fun c₀ t e1 => (by cases e1), ?_⟩
      rintro (⟨_, k⟩ | ⟨c₁, e1, e2⟩)
      · exact hnone (by rw [e, k])
      · cases e1
  | seq xs =>
    simp only at h
    cases hr : as2d (asarray xs) (axis.getD 1) with
    | error e => rw [hr] at h; simp at h
    | ok raw =>
      rw [hr] at h
      have e := finish_tdata h
      refine ⟨fun _ t et => hsome t (by rw [e, et]), fun c₀ t e1 => (by cases e1), ?_⟩
      rintro (⟨_, k⟩ | ⟨c₁, e1, e2⟩)
      · exact hnone (by rw [e, k])
      · cases e1

/-- A right angle with the parameter 1, 5, 7; and without a parameter, where the last entry is the length 7. -/
example : (∃ c, Curve.init (.arr (NdArr.ofRows Elem.zero [[0, 0], [3, 0], [3, 4]] 2) .float) (some [1, 5, 7]) none none none = .ok c ∧
      ∀ junk, c.t junk = ([1, 5, 7] : List ℝ)) ∧
    ∃ c, Curve.init (.arr (NdArr.ofRows Elem.zero [[0, 0], [3, 0], [3, 4]] 2) .float) none none none none = .ok c ∧
      ∀ junk, (c.t junk)[2]? = some (pathLen 2 ([[0, 0], [3, 0], [3, 4]] : List (List ℝ))) := by
  have hr : ∀ r ∈ ([[0, 0], [3, 0], [3, 4]] : List (List ℝ)), r.length = 2 := by simp
  constructor
  · have h := ofRows_ok (dt := .float) (t := some [1, 5, 7]) le_rfl hr (by intro r _ x _; rfl) (by simp)
    exact ⟨_, h, fun junk => (C50_t h junk).1 (by simp) _ rfl⟩
  · have h := ofRows_ok (dt := .float) (t := none) le_rfl hr (by intro r _ x _; rfl) (by simp)
    exact ⟨_, h, fun junk => (C50_t h junk).2.2 (.inl ⟨by simp, rfl⟩) 2 (by simp [Curve.size])⟩

end Verif.Props
