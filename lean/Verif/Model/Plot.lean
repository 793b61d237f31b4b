import Verif.Model.DiffGeom

/-!
Model of skcurve/plot.py: what `CurvePlot` draws on the axes.

Axes are a kind and the list of what was added to them. The functions of matplotlib are taken to succeed on what they are given, and
line styles, colour maps and the colour bar are left out. `param` is one of the properties of the curve that are arrays with one
number per point, or the name of no attribute; other properties are outside of the model (the TypeError below stands for them).
-/
namespace Verif.Model

open Verif Verif.Np

/-- Something added to axes: `plot`, `LineCollection` / `Line3DCollection` with the values set by `set_array`, `scatter` with the
values behind its colours, `quiver`. -/
inductive Artist
  | line (columns : List (List ℝ))
  | segs (segments : List (List ℝ × List ℝ)) (values : List (Val ℝ))
  | scatter (columns : List (List ℝ)) (values : List (Val ℝ))
  | quiver (columns normals : List (List ℝ))

/-- Axes: `solid` means an instance of `Axes3D`. -/
structure PlotAxes where
  solid : Bool
  artists : List Artist

/-- The arguments of `CurvePlot` (plot.py 50-57) that are modelled: `param` (`some none` is the name of no attribute), `show_normals`
and whether `marker` is among the keyword arguments. -/
structure PlotArgs where
  param : Option (Option PropName)
  showNormals : Bool
  marker : Bool

/-- `list(curve.values())` (_base.py 1896). -/
def Curve.columns (c : Curve ℝ) : List (List ℝ) := (List.range c.ndim).map fun j => c.rows.map fun r => r.getD j 0

/-- `np.concatenate([points[:-1], points[1:]], axis=1)` (plot.py 127-128). -/
def plotSegments (c : Curve ℝ) : List (List ℝ × List ℝ) := List.zip c.rows.dropLast c.rows.tail

/-- `_multicolor_plot` (plot.py 123-159). `min` of an empty array is a ValueError. -/
noncomputable def multicolorPlot (junk : ℝ) (c : Curve ℝ) (a : PlotArgs) (param : Option PropName) (ax : PlotAxes) :
    PlotAxes × Except PyErr Unit :=
  match param with
  | none => (ax, .error .attributeError)
  | some f => match fresh junk c f with
    | .error e => (ax, .error e)
    | .ok (.nums vs) =>
      if vs = [] then (ax, .error .valueError)
      else
        let ax := { ax with artists := ax.artists ++ [.segs (plotSegments c) vs] }
        let ax := if a.marker then { ax with artists := ax.artists ++ [.scatter c.columns vs] } else ax
        (ax, .ok ())
    | .ok _ => (ax, .error .typeError)

/-- The normals (plot.py 181-197): `frenet2[:, i]` of fewer than two points has not enough columns. NotImplementedError is a
RuntimeError. -/
noncomputable def plotNormals (c : Curve ℝ) (ax : PlotAxes) : PlotAxes × Except PyErr Unit :=
  if c.size ≤ 1 then (ax, .error .indexError)
  else if c.ndim = 2 then
    ({ ax with artists := ax.artists ++ [.quiver c.columns ((List.range c.ndim).map fun j => (List.range c.size).map fun i => (frenet2 c).v i j)] },
      .ok ())
  else (ax, .error .runtimeError)

/-- `_plot` (plot.py 161-197) on axes. -/
noncomputable def plotOn (junk : ℝ) (c : Curve ℝ) (a : PlotArgs) (ax : PlotAxes) : PlotAxes × Except PyErr Unit :=
  let r : PlotAxes × Except PyErr Unit := match a.param with
    | some p => multicolorPlot junk c a p ax
    | none => ({ ax with artists := ax.artists ++ [.line c.columns] }, .ok ())
  match r with
  | (ax, .error e) => (ax, .error e)
  | (ax, .ok ()) => if a.showNormals then plotNormals c ax else (ax, .ok ())

/-- `CurvePlot(curve, ..., axes=ax)` (plot.py 50-70, 161-171): the axes afterwards, none if there are none, and the outcome. -/
noncomputable def curvePlot (junk : ℝ) (c : Curve ℝ) (a : PlotArgs) (ax : Option PlotAxes) : Option PlotAxes × Except PyErr Unit :=
  if c.ndim > 3 then (ax, .error .valueError)
  else match ax with
    | none =>
      let (x, r) := plotOn junk c a ⟨c.ndim = 3, []⟩
      (some x, r)
    | some x =>
      if c.ndim = 3 ∧ x.solid = false then (some x, .error .typeError)
      else
        let (x, r) := plotOn junk c a x
        (some x, r)

/-- The chain `curveplot(c1, ...).curveplot(c2, ...)...` (plot.py 75-121): an exception ends it. -/
noncomputable def plotChain (junk : ℝ) : List (Curve ℝ × PlotArgs) → Option PlotAxes → Option PlotAxes × Except PyErr Unit
  | [], ax => (ax, .ok ())
  | (c, a) :: l, ax => match curvePlot junk c a ax with
    | (ax, .error e) => (ax, .error e)
    | (ax, .ok ()) => plotChain junk l ax

end Verif.Model
