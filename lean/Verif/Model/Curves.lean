import Verif.Model.ArcLen
import Mathlib.Analysis.SpecialFunctions.Trigonometric.Basic
import Mathlib.MeasureTheory.Integral.IntervalIntegral.Basic

/-!
The well-known curves of `curves.py`, in exact real arithmetic.
-/
namespace Verif.Model

open Verif.Np

/-- `np.linspace(a, b, n)` of finite numbers (the exact values; `linspace` in `Model/Interp` is the version with special values). -/
noncomputable def linspaceE (a b : ℝ) (n : Int) : Except PyErr (List ℝ) :=
  if n < 0 then .error .valueError
  else .ok ((List.range n.toNat).map fun (i : Nat) =>
    if 1 < n ∧ (i : Int) + 1 = n then b else (i : ℝ) * (if 1 < n then (b - a) / ((n : ℝ) - 1) else b - a) + a)

/-- `Curve([x, y, ...], tdata=theta)`. -/
noncomputable def coordCurve (xs : List (List ℝ)) (theta : List ℝ) : Except PyErr (Curve ℝ) :=
  Curve.init (.seq xs) (some theta) none none none

/-- `arc` (curves.py 14-55). -/
noncomputable def arc (tStart tStop : ℝ) (pCount : Int) (r c : ℝ) : Except PyErr (Curve ℝ) := do
  let theta ← linspaceE tStart tStop pCount
  let x := theta.map fun t => Real.cos t * r + c
  let y := theta.map fun t => Real.sin t * r + c
  coordCurve [x, y] theta

/-- `lemniscate_of_bernoulli` (curves.py 58-86). -/
noncomputable def lemniscate (tStart tStop : ℝ) (pCount : Int) (c : ℝ) : Except PyErr (Curve ℝ) := do
  let theta ← linspaceE tStart tStop pCount
  let x := theta.map fun t => (c * √ 2 * Real.cos t) / (Real.sin t ^ 2 + 1)
  let y := theta.map fun t => (c * √ 2 * Real.cos t * Real.sin t) / (Real.sin t ^ 2 + 1)
  coordCurve [x, y] theta

/-- `archimedean_spiral` (curves.py 89-113). -/
noncomputable def archimedean (tStart tStop : ℝ) (pCount : Int) (a b : ℝ) : Except PyErr (Curve ℝ) := do
  let theta ← linspaceE tStart tStop pCount
  let x := theta.map fun t => (a + b * t) * Real.cos t
  let y := theta.map fun t => (a + b * t) * Real.sin t
  coordCurve [x, y] theta

/-- The second value of `scipy.special.fresnel`. -/
noncomputable def fresnelC (t : ℝ) : ℝ := ∫ u in (0)..t, Real.cos (Real.pi / 2 * u ^ 2)

/-- The first value of `scipy.special.fresnel`. -/
noncomputable def fresnelS (t : ℝ) : ℝ := ∫ u in (0)..t, Real.sin (Real.pi / 2 * u ^ 2)

/-- `euler_spiral` (curves.py 116-135). -/
noncomputable def euler (tStart tStop : ℝ) (pCount : Int) : Except PyErr (Curve ℝ) := do
  let t ← linspaceE tStart tStop pCount
  coordCurve [t.map fresnelC, t.map fresnelS] t

/-- `lissajous` (curves.py 138-169). -/
noncomputable def lissajous (tStart tStop : ℝ) (pCount : Int) (aAmpl bAmpl a b d : ℝ) : Except PyErr (Curve ℝ) := do
  let theta ← linspaceE tStart tStop pCount
  let x := theta.map fun t => aAmpl * Real.sin (a * t + d)
  let y := theta.map fun t => bAmpl * Real.sin (b * t)
  coordCurve [x, y] theta

/-- `helix` (curves.py 172-197). -/
noncomputable def helix (tStart tStop : ℝ) (pCount : Int) (a b : ℝ) : Except PyErr (Curve ℝ) := do
  let theta ← linspaceE tStart tStop pCount
  let x := theta.map fun t => Real.sin t * a
  let y := theta.map fun t => Real.cos t * a
  let z := theta.map fun t => t * b
  coordCurve [x, y, z] theta

/-- `irregular_helix` (curves.py 200-226). -/
noncomputable def irregularHelix (tStart tStop zStart zStop : ℝ) (pCount : Int) : Except PyErr (Curve ℝ) := do
  let theta ← linspaceE tStart tStop pCount
  let z ← linspaceE zStart zStop pCount
  let r := z.map fun u => u ^ 2 + 1
  let x := List.zipWith (fun u t => u * Real.sin t) r theta
  let y := List.zipWith (fun u t => u * Real.cos t) r theta
  coordCurve [x, y, z] theta

end Verif.Model
