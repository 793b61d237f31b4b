import Verif.Model.Warn

/-!
Specification of the warnings of a curve: what is computed when a property is read, and what is wrong with the curve.
-/
namespace Verif.Spec

open Verif Verif.Np Verif.Model

/-- The properties that are computed when `f` is read on a new curve with points (a plane curve with one point has no
curvature), and on a new empty curve. -/
noncomputable def needs (c : Curve ℝ) : PropName → List PropName
  | .chordlen => [.chordlen]
  | .arclen => [.arclen]
  | .cumarclen => [.cumarclen, .chordlen]
  | .t => if c.tdata.isSome then [.t] else [.t, .cumarclen, .chordlen]
  | .firstderiv => [.firstderiv]
  | .secondderiv => [.secondderiv, .firstderiv]
  | .thirdderiv => [.thirdderiv, .secondderiv, .firstderiv]
  | .tangent => [.tangent, .firstderiv]
  | .speed => if c.rows = [] then [.tangent, .firstderiv] else [.speed, .tangent, .firstderiv]
  | .frenet1 => if c.rows = [] then [.frenet1] else [.frenet1, .tangent, .firstderiv]
  | .normal => if c.rows = [] then [.normal] else [.normal, .secondderiv, .frenet1, .tangent, .firstderiv]
  | .frenet2 => if c.rows = [] then [.frenet2]
    else [.frenet2, .normal, .secondderiv, .frenet1, .tangent, .firstderiv]
  | .binormal => if c.rows = [] then [.binormal]
    else [.binormal, .thirdderiv, .frenet2, .normal, .secondderiv, .frenet1, .tangent, .firstderiv]
  | .frenet3 => if c.rows = [] then [.frenet3]
    else [.frenet3, .binormal, .thirdderiv, .frenet2, .normal, .secondderiv, .frenet1, .tangent, .firstderiv]
  | .curvature => if c.rows = [] then [.curvature]
    else if c.ndim = 2 then
      if c.size = 1 ∨ c.ncols < 2 then [.firstderiv] else [.curvature, .secondderiv, .firstderiv]
    else [.curvature, .frenet1, .tangent, .firstderiv]
  | .torsion => if c.rows = [] then [.torsion]
    else [.torsion, .frenet3, .binormal, .thirdderiv, .frenet2, .normal, .secondderiv, .frenet1, .tangent, .firstderiv]

/-- Differences are taken of this many points when `f` itself is computed. -/
def Differences (c : Curve ℝ) (f : PropName) : Prop :=
  f = .firstderiv ∨ f = .secondderiv ∨ f = .thirdderiv ∨ f = .torsion ∨ f = .curvature ∧ c.ndim ≠ 2

/-- Some row of an array is not a unit vector. -/
def NotUnit (rows : List (List ℝ)) : Prop := ∃ r ∈ rows, (r.map (· ^ 2)).sum ≠ 1

/-- The warnings that computing `f` deserves: too few points for differences of second or first order, or vectors that could
not be normalised. -/
def Deserved (c : Curve ℝ) (w : Warn) : Prop :=
  (Differences c w.1 ∧
    (c.size = 2 ∧ w.2 = .few 2 3 ∨ c.size = 1 ∧ (w.2 = .few 1 3 ∨ w.2 = .few 1 2 ∨ w.2 = .cannot))) ∨
  (w.2 = .undefined ∧
    (w.1 = .frenet1 ∧ NotUnit (frenet1 c).rows ∨ w.1 = .frenet2 ∧ NotUnit (frenet2 c).rows ∨
      w.1 = .frenet3 ∧ NotUnit (frenet3 c).rows))

end Verif.Spec
