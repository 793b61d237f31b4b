import Verif.Spec.Plot
import Verif.Props.DiffGeom

/-!
Plotting (C92).
-/
namespace Verif.Props

open Verif Verif.Np Verif.Model Verif.Spec

theorem columns_of (c : Curve ℝ) : ColumnsOf c c.columns := by
  refine ⟨by simp [Curve.columns], ?_, ?_⟩
  · intro col hcol
    simp only [Curve.columns, List.mem_map] at hcol
    obtain ⟨j, -, rfl⟩ := hcol
    simp [Curve.size]
  · intro i j hi hj
    have hi' : i < c.rows.length := hi
    simp [Curve.columns, List.getD_eq_getElem?_getD, hj, hi', at2]

theorem plotSegments_spec (c : Curve ℝ) : (plotSegments c).length = c.size - 1 ∧
    ∀ i a b, c.rows[i]? = some a → c.rows[i + 1]? = some b → (plotSegments c)[i]? = some (a, b) := by
  refine ⟨by simp [plotSegments, Curve.size], ?_⟩
  intro i a b ha hb
  have hl : i + 1 < c.rows.length := (List.getElem?_eq_some_iff.1 hb).1
  unfold plotSegments
  rw [List.getElem?_zip_eq_some]
  constructor
  · rw [List.getElem?_dropLast, if_pos (by omega), ha]
  · rw [List.getElem?_tail, hb]

theorem normals_shown {c : Curve ℝ} (hc : WF c) (hs : 2 ≤ c.size) (junk : ℝ) (f : Option PropName) :
    Shows junk c f (.quiver c.columns ((List.range c.ndim).map fun j => (List.range c.size).map fun i => (frenet2 c).v i j)) := by
  refine ⟨columns_of c, by simp, ?_⟩
  intro i j hi hj
  obtain ⟨m1, m2, m3, m4, m5, m6, m7, m8⟩ := shapes_m c
  obtain ⟨k2, k3, k4, k5, k6, k7, k8⟩ := shapes_k c (by omega)
  have k1 : (firstderiv c).k = c.ndim := firstderiv_k hs
  rw [at2_lt _ (by omega) (by omega)]
  simp [List.getD_eq_getElem?_getD, hj, hi]

theorem multicolor_ok {junk : ℝ} {c : Curve ℝ} {a : PlotArgs} {p : Option PropName} (ha : a.param = some p) {ax ax' : PlotAxes}
    (h : multicolorPlot junk c a p ax = (ax', .ok ())) :
    ∃ new, ax' = ⟨ax.solid, ax.artists ++ new⟩ ∧ new.map kindOf = (if a.marker then [.segs, .scatter] else [.segs]) ∧
      ∀ x ∈ new, Shows junk c (a.param.getD none) x := by
  unfold multicolorPlot at h
  split at h
  · simp at h
  · rename_i f
    split at h
    · simp at h
    · rename_i vs hvs
      split_ifs at h with h0 hm
      · simp at h
      · simp only [Prod.mk.injEq, and_true] at h
        refine ⟨[.segs (plotSegments c) vs, .scatter c.columns vs], by rw [← h]; simp, by simp [hm, kindOf], ?_⟩
        intro x hx
        simp only [List.mem_cons, List.not_mem_nil, or_false] at hx
        rcases hx with rfl | rfl
        · exact ⟨(plotSegments_spec c).1, (plotSegments_spec c).2, f, by rw [ha]; rfl, hvs⟩
        · exact ⟨columns_of c, f, by rw [ha]; rfl, hvs⟩
      · simp only [Prod.mk.injEq, and_true] at h
        refine ⟨[.segs (plotSegments c) vs], by rw [← h], by simp [hm, kindOf], ?_⟩
        intro x hx
        simp only [List.mem_cons, List.not_mem_nil, or_false] at hx
        subst hx
        exact ⟨(plotSegments_spec c).1, (plotSegments_spec c).2, f, by rw [ha]; rfl, hvs⟩
    · simp at h

theorem multicolor_error {junk : ℝ} {c : Curve ℝ} {a : PlotArgs} {p : Option PropName} {ax ax' : PlotAxes} {e : PyErr}
    (h : multicolorPlot junk c a p ax = (ax', .error e)) : ax' = ax := by
  unfold multicolorPlot at h
  repeat' split at h
  all_goals simp at h
  all_goals exact h.1.symm

theorem plotNormals_ok {c : Curve ℝ} {ax ax' : PlotAxes} (h : plotNormals c ax = (ax', .ok ())) : 2 ≤ c.size ∧ c.ndim = 2 ∧
    ax' = ⟨ax.solid, ax.artists ++ [.quiver c.columns ((List.range c.ndim).map fun j => (List.range c.size).map fun i => (frenet2 c).v i j)]⟩ := by
  unfold plotNormals at h
  split_ifs at h with h1 h2
  · simp at h
  · simp only [Prod.mk.injEq, and_true] at h
    exact ⟨by omega, h2, h.symm⟩
  · simp at h

theorem plotOn_ok {junk : ℝ} {c : Curve ℝ} (hc : WF c) {a : PlotArgs} {ax ax' : PlotAxes} (h : plotOn junk c a ax = (ax', .ok ())) :
    ∃ new, ax' = ⟨ax.solid, ax.artists ++ new⟩ ∧ new.map kindOf = wantedKinds a ∧ ∀ x ∈ new, Shows junk c (a.param.getD none) x := by
  have key : ∀ ax1 new1, ax1 = ⟨ax.solid, ax.artists ++ new1⟩ →
      new1.map kindOf = (if a.param.isSome then if a.marker then [.segs, .scatter] else [.segs] else [.line]) →
      (∀ x ∈ new1, Shows junk c (a.param.getD none) x) →
      (if a.showNormals then plotNormals c ax1 else (ax1, .ok ())) = (ax', .ok ()) →
      ∃ new, ax' = ⟨ax.solid, ax.artists ++ new⟩ ∧ new.map kindOf = wantedKinds a ∧ ∀ x ∈ new, Shows junk c (a.param.getD none) x := by
    intro ax1 new1 e1 e2 e3 h
    by_cases hn : a.showNormals
    · rw [if_pos hn] at h
      obtain ⟨g1, g2, g3⟩ := plotNormals_ok h
      refine ⟨new1 ++ [.quiver c.columns ((List.range c.ndim).map fun j => (List.range c.size).map fun i => (frenet2 c).v i j)], ?_, ?_, ?_⟩
      · rw [g3, e1]; simp
      · simp only [List.map_append, e2, wantedKinds, if_pos hn, List.map_cons, List.map_nil, kindOf]
      · intro x hx
        rcases List.mem_append.1 hx with hx | hx
        · exact e3 x hx
        · rw [List.mem_singleton] at hx
          subst hx
          exact normals_shown hc g1 junk _
    · rw [if_neg hn] at h
      simp only [Prod.mk.injEq, and_true] at h
      refine ⟨new1, by rw [← h, e1], ?_, e3⟩
      simp only [e2, wantedKinds, if_neg hn, List.append_nil]
  unfold plotOn at h
  cases hp : a.param with
  | none =>
    simp only [hp] at h
    exact hp ▸ key _ [.line c.columns] rfl (by simp [hp, kindOf]) (by
      intro x hx; rw [List.mem_singleton] at hx; subst hx; exact columns_of c) h
  | some p =>
    simp only [hp] at h
    cases hm : multicolorPlot junk c a p ax with
    | mk ax1 r =>
      cases r with
      | error e => simp [hm] at h
      | ok u =>
        simp only [hm] at h
        obtain ⟨new1, e1, e2, e3⟩ := multicolor_ok hp hm
        exact hp ▸ key ax1 new1 e1 (by simp [hp, e2]) e3 h

/-- **C92 (what is drawn).** If plotting a curve succeeds, what was on the axes stays, and what is added is exactly what the
arguments ask for, each showing the curve: the line through its points, or the pieces between neighbouring points with the values of
the requested property, markers at its points, and its normals. -/
theorem C92_shows {junk : ℝ} {c : Curve ℝ} (hc : WF c) {a : PlotArgs} {ax ax' : Option PlotAxes}
    (h : curvePlot junk c a ax = (ax', .ok ())) :
    c.ndim ≤ 3 ∧ ∃ x' new, ax' = some x' ∧ x'.artists = ((ax.map (·.artists)).getD []) ++ new ∧
      x'.solid = (ax.map (·.solid)).getD (decide (c.ndim = 3)) ∧ (c.ndim = 3 → x'.solid = true) ∧
      new.map kindOf = wantedKinds a ∧ ∀ y ∈ new, Shows junk c (a.param.getD none) y := by
  unfold curvePlot at h
  split_ifs at h with hn
  · simp at h
  refine ⟨by omega, ?_⟩
  cases ax with
  | none =>
    simp only [Prod.mk.injEq] at h
    obtain ⟨new, e1, e2, e3⟩ := plotOn_ok hc (ax' := (plotOn junk c a ⟨decide (c.ndim = 3), []⟩).1) (Prod.ext rfl h.2)
    refine ⟨_, new, h.1.symm, by rw [e1]; rfl, by rw [e1]; rfl, ?_, e2, e3⟩
    intro h3
    rw [e1]
    simpa using h3
  | some x =>
    simp only at h
    split_ifs at h with hs
    · simp at h
    · simp only [Prod.mk.injEq] at h
      obtain ⟨new, e1, e2, e3⟩ := plotOn_ok hc (ax' := (plotOn junk c a x).1) (Prod.ext rfl h.2)
      refine ⟨_, new, h.1.symm, by rw [e1]; rfl, by rw [e1]; rfl, ?_, e2, e3⟩
      intro h3
      rw [e1]
      by_contra hf
      exact hs ⟨h3, by simpa using hf⟩

/-- **C92 (chains).** If a chain of plots on given axes succeeds, what was on the axes stays, and the curves follow one after the
other in the order of the chain. -/
theorem C92_chain {junk : ℝ} {l : List (Curve ℝ × PlotArgs)} (hc : ∀ p ∈ l, WF p.1) {x : PlotAxes} {ax' : Option PlotAxes}
    (h : plotChain junk l (some x) = (ax', .ok ())) :
    ∃ parts : List (List Artist), ax' = some ⟨x.solid, x.artists ++ parts.flatten⟩ ∧
      List.Forall₂ (fun p part => part.map kindOf = wantedKinds p.2 ∧ ∀ y ∈ part, Shows junk p.1 (p.2.param.getD none) y) l parts := by
  induction l generalizing x with
  | nil =>
    simp only [plotChain, Prod.mk.injEq, and_true] at h
    exact ⟨[], by rw [← h]; simp, .nil⟩
  | cons p l ih =>
    obtain ⟨c, a⟩ := p
    simp only [plotChain] at h
    cases hcp : curvePlot junk c a (some x) with
    | mk ax1 r =>
      cases r with
      | error e => simp [hcp] at h
      | ok u =>
        simp only [hcp] at h
        obtain ⟨-, x1, new, e1, e2, e3, -, e5, e6⟩ := C92_shows (hc (c, a) (by simp)) hcp
        subst e1
        obtain ⟨parts, g1, g2⟩ := ih (fun p hp => hc p (by simp [hp])) h
        refine ⟨new :: parts, ?_, .cons ⟨e5, e6⟩ g2⟩
        rw [g1, e3, e2]
        simp

/-- **C92 (refusals).** A curve of more than three dimensions is a ValueError, a curve of three dimensions on plane axes a TypeError;
and every failure of a plot without normals, whatever its kind, leaves the axes as they were. -/
theorem C92_errors_partial {junk : ℝ} (c : Curve ℝ) (a : PlotArgs) (x : PlotAxes) :
    (3 < c.ndim → curvePlot junk c a (some x) = (some x, .error .valueError)) ∧
    (c.ndim = 3 → x.solid = false → curvePlot junk c a (some x) = (some x, .error .typeError)) ∧
    (a.showNormals = false → ∀ ax' e, curvePlot junk c a (some x) = (ax', .error e) → ax' = some x) := by
  refine ⟨fun h => by unfold curvePlot; rw [if_pos h], ?_, ?_⟩
  · intro h hs
    unfold curvePlot
    rw [if_neg (by omega)]
    simp only [h, hs, and_self, if_true]
  · intro hn ax' e h
    unfold curvePlot at h
    split_ifs at h with h3
    · simp only [Prod.mk.injEq] at h; exact h.1.symm
    simp only at h
    split_ifs at h with h4
    · simp only [Prod.mk.injEq] at h; exact h.1.symm
    · simp only [Prod.mk.injEq] at h
      obtain ⟨g1, g2⟩ := h
      rw [← g1]
      congr 1
      unfold plotOn at g2 ⊢
      cases hp : a.param with
      | none => simp [hp, hn] at g2
      | some p =>
        simp only [hp] at g2 ⊢
        cases hm : multicolorPlot junk c a p x with
        | mk ax1 r =>
          cases r with
          | error e' => simp only; exact multicolor_error hm
          | ok u => simp [hm, hn] at g2

/-- **C92 (violated).** The request for normals of a curve in space fails after the curve has been drawn. -/
theorem C92_normals_fails {junk : ℝ} {c : Curve ℝ} (h2 : 2 ≤ c.size) (h3 : c.ndim = 3) (l : List Artist) :
    curvePlot junk c ⟨none, true, false⟩ (some ⟨true, l⟩) = (some ⟨true, l ++ [.line c.columns]⟩, .error .runtimeError) := by
  unfold curvePlot plotOn plotNormals
  rw [if_neg (by omega)]
  simp only [h3]
  simp [show ¬ c.size ≤ 1 by omega]

/-! ## Instances -/

/-- Plotting the curvature of a plane curve with markers and normals succeeds. -/
example : ∃ ax', curvePlot 0 exParab ⟨some (some .curvature), true, true⟩ none = (ax', .ok ()) := by
  obtain ⟨v, h1, h2, -⟩ := C58_shape_partial exParab_WF (by simp [exParab, Curve.size]) 0 (f := .curvature) trivial
  have : ∃ xs, v = .nums xs ∧ xs ≠ [] := by
    unfold fresh at h1
    simp only [exParab, List.cons_ne_nil, if_false] at h1
    split at h1
    · simp at h1
    · rename_i xs _
      simp only [Except.ok.injEq] at h1
      refine ⟨xs, h1.symm, ?_⟩
      rintro rfl
      rw [← h1] at h2
      simp [entryCount, Curve.size, exParab] at h2
  obtain ⟨xs, rfl, hne⟩ := this
  have n2 : ¬ exParab.ndim > 3 := by simp [exParab, Curve.ndim]
  have n3 : exParab.ndim = 2 := rfl
  have n4 : ¬ exParab.size ≤ 1 := by simp [exParab, Curve.size]
  refine ⟨_, Prod.ext rfl ?_⟩
  simp only [curvePlot, plotOn, multicolorPlot, h1, if_neg hne, if_neg n2, plotNormals, if_true, if_neg n4, n3]
  rw [if_neg (by norm_num)]

/-! ## Concrete cases -/

example {ax' : Option PlotAxes} (h : curvePlot 0 exParab ⟨some (some .curvature), true, true⟩ none = (ax', .ok ())) := C92_shows exParab_WF h
example {ax' : Option PlotAxes} (h : plotChain 0 [(exParab, ⟨some (some .curvature), true, true⟩), (exParab, ⟨none, false, false⟩)] (some ⟨false, []⟩) = (ax', .ok ())) :=
  C92_chain (by simp [exParab_WF]) h
example := C92_errors_partial (junk := 0) exParab ⟨none, false, false⟩ ⟨false, []⟩

end Verif.Props
