import Verif.Model.Spline
import Verif.Spec.Interp
import Verif.Spec.DiffGeom

/-!
Vocabulary for interpolation by splines.
-/
namespace Verif.Spec

open Verif Verif.Model

/-- On every accepted grid of values in `dom` the call gives the curve of the points `F x`, with the dimension, the dtype and
the parametricity of `c`. A single value is an accepted grid, so `F` is determined on `dom`. -/
def EvaluatesTo (c : Curve ℝ) (call : GridSpec → Except PyErr (Curve (Val ℝ))) (dom : ℝ → Prop) (F : ℝ → List ℝ) : Prop :=
  ∀ xs : List ℝ, xs ≠ [] → StepsOver xs → (∀ x ∈ xs, dom x) →
    ∃ R, call (.arr (.ok (GridArr.of (fins xs)))) = .ok R ∧
      Represents R ⟨xs.map F, c.ncols, if c.isparametric then some xs else none, c.dtype⟩

/-- Coordinate `j` of a point. -/
def coordOf (j : Nat) (p : List ℝ) : ℝ := p.getD j 0

/-- `x` lies between the first and the last value. -/
def WithinEnds (t : List ℝ) (x : ℝ) : Prop := (∀ a, t.head? = some a → a ≤ x) ∧ ∀ b, t.getLast? = some b → x ≤ b

/-- The linear system for the slopes `d` that `CubicSpline.__init__` sets up for `bc_type='natural'` (second derivative 0 at
both ends): `n` knots `x`, values `y`. -/
structure NaturalSystem (n : Nat) (x y d : Nat → ℝ) : Prop where
  first : 2 * (x 1 - x 0) * d 0 + (x 1 - x 0) * d 1 = 3 * (y 1 - y 0)
  last : (x (n - 1) - x (n - 2)) * d (n - 2) + 2 * (x (n - 1) - x (n - 2)) * d (n - 1) = 3 * (y (n - 1) - y (n - 2))
  inner : ∀ k, k + 2 < n → (x (k + 2) - x (k + 1)) * d k + 2 * ((x (k + 1) - x k) + (x (k + 2) - x (k + 1))) * d (k + 1) +
    (x (k + 1) - x k) * d (k + 2) = 3 * ((x (k + 2) - x (k + 1)) * ((y (k + 1) - y k) / (x (k + 1) - x k)) +
      (x (k + 1) - x k) * ((y (k + 2) - y (k + 1)) / (x (k + 2) - x (k + 1))))

/-- What is assumed of scipy's solver: for accepted knots it returns the solution of the natural system. -/
def NaturalOk (lib : SplineLib) : Prop :=
  ∀ xs (y : NMat), knotsOk xs y.m = true → ∃ d, lib.cubic "natural" xs y = .ok d ∧
    ∀ j, j < y.k → NaturalSystem xs.length (fun i => xs.getD i 0) (fun i => y.v i j) (fun i => d.v i j)

/-- The points of `c` lie on the line through `o` in direction `v`, the point with parameter value `x` at `o + x v`. -/
def AlongLine (c : Curve ℝ) (t : List ℝ) (o v : Nat → ℝ) : Prop :=
  ∀ i x j, t[i]? = some x → j < c.ncols → at2 c.rows i j = o j + x * v j

/-- The point `o + x v` of a line in `n` dimensions. -/
noncomputable def linePt (n : Nat) (o v : Nat → ℝ) (x : ℝ) : List ℝ := (List.range n).map fun j => o j + x * v j

/-- `c'` is `c` moved by `w`. -/
structure Moved (w : Nat → ℝ) (c c' : Curve ℝ) : Prop where
  size : c'.rows.length = c.rows.length
  ncols : c'.ncols = c.ncols
  tdata : c'.tdata = c.tdata
  dtype : c'.dtype = c.dtype
  rows : ∀ i j, i < c.rows.length → j < c.ncols → at2 c'.rows i j = at2 c.rows i j + w j

end Verif.Spec
