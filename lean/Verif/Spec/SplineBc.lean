import Verif.Spec.Spline
import Verif.Lemmas.Taylor
import Mathlib.MeasureTheory.Integral.IntervalIntegral.Basic
import Mathlib.Algebra.Polynomial.Derivative

/-!
Vocabulary for the boundary conditions of cubic splines and their bending energy.
-/
namespace Verif.Spec

open Verif Verif.Model

/-- The equations at the inner knots that `CubicSpline.__init__` sets up for every boundary condition. -/
def InnerEqs (n : Nat) (x y d : Nat → ℝ) : Prop :=
  ∀ k, k + 2 < n → (x (k + 2) - x (k + 1)) * d k + 2 * ((x (k + 1) - x k) + (x (k + 2) - x (k + 1))) * d (k + 1) +
    (x (k + 1) - x k) * d (k + 2) = 3 * ((x (k + 2) - x (k + 1)) * ((y (k + 1) - y k) / (x (k + 1) - x k)) +
      (x (k + 1) - x k) * ((y (k + 2) - y (k + 1)) / (x (k + 2) - x (k + 1))))

/-- The linear system of `bc_type='clamped'`: slope 0 at both ends. -/
structure ClampedSystem (n : Nat) (x y d : Nat → ℝ) : Prop where
  inner : InnerEqs n x y d
  first : d 0 = 0
  last : d (n - 1) = 0

/-- The linear system of `bc_type='not-a-knot'`; scipy treats two and three knots separately. -/
structure KnotSystem (n : Nat) (x y d : Nat → ℝ) : Prop where
  two : n = 2 → d 0 = (y 1 - y 0) / (x 1 - x 0) ∧ d 1 = (y 1 - y 0) / (x 1 - x 0)
  three : n = 3 → d 0 + d 1 = 2 * ((y 1 - y 0) / (x 1 - x 0)) ∧ d 1 + d 2 = 2 * ((y 2 - y 1) / (x 2 - x 1))
  inner : InnerEqs n x y d
  first : 4 ≤ n → (x 2 - x 1) * d 0 + (x 2 - x 0) * d 1 =
    (((x 1 - x 0) + 2 * (x 2 - x 0)) * (x 2 - x 1) * ((y 1 - y 0) / (x 1 - x 0)) +
      (x 1 - x 0) ^ 2 * ((y 2 - y 1) / (x 2 - x 1))) / (x 2 - x 0)
  last : 4 ≤ n → (x (n - 1) - x (n - 3)) * d (n - 2) + (x (n - 2) - x (n - 3)) * d (n - 1) =
    ((x (n - 1) - x (n - 2)) ^ 2 * ((y (n - 2) - y (n - 3)) / (x (n - 2) - x (n - 3))) +
      (2 * (x (n - 1) - x (n - 3)) + (x (n - 1) - x (n - 2))) * (x (n - 2) - x (n - 3)) *
        ((y (n - 1) - y (n - 2)) / (x (n - 1) - x (n - 2)))) / (x (n - 1) - x (n - 3))

/-- The linear system of `bc_type='periodic'` (scipy's formulas for two and three knots are its solutions). -/
structure PeriodicSystem (n : Nat) (x y d : Nat → ℝ) : Prop where
  close : d (n - 1) = d 0
  inner : InnerEqs n x y d
  wrap : (x 1 - x 0) * d (n - 2) + 2 * ((x (n - 1) - x (n - 2)) + (x 1 - x 0)) * d 0 + (x (n - 1) - x (n - 2)) * d 1 =
    3 * ((x 1 - x 0) * ((y (n - 1) - y (n - 2)) / (x (n - 1) - x (n - 2))) +
      (x (n - 1) - x (n - 2)) * ((y 1 - y 0) / (x 1 - x 0)))

/-- What is assumed of scipy's solver for these boundary conditions: for accepted knots it returns the solution of the system;
for periodic boundary conditions only if the first and the last value are equal. -/
structure BoundaryOk (lib : SplineLib) : Prop where
  clamped : ∀ xs (y : NMat), knotsOk xs y.m = true → ∃ d, lib.cubic "clamped" xs y = .ok d ∧
    ∀ j, j < y.k → ClampedSystem xs.length (fun i => xs.getD i 0) (fun i => y.v i j) (fun i => d.v i j)
  knot : ∀ xs (y : NMat), knotsOk xs y.m = true → ∃ d, lib.cubic "not-a-knot" xs y = .ok d ∧
    ∀ j, j < y.k → KnotSystem xs.length (fun i => xs.getD i 0) (fun i => y.v i j) (fun i => d.v i j)
  periodic : ∀ xs (y : NMat), knotsOk xs y.m = true → (∀ j, j < y.k → y.v (xs.length - 1) j = y.v 0 j) →
    ∃ d, lib.cubic "periodic" xs y = .ok d ∧
      ∀ j, j < y.k → PeriodicSystem xs.length (fun i => xs.getD i 0) (fun i => y.v i j) (fun i => d.v i j)

/-- `f` is, between neighbouring values of `t`, a polynomial `P i` of degree at most 3, takes the values `y` at the values of `t`,
and is twice continuously differentiable where two polynomials meet. -/
structure CubicOn (t : List ℝ) (y : Nat → ℝ) (f : ℝ → ℝ) (P : Nat → Polynomial ℝ) : Prop where
  degree : ∀ i, (P i).natDegree ≤ 3
  piece : ∀ i u v, t[i]? = some u → t[i + 1]? = some v → ∀ x, u ≤ x → x ≤ v → f x = (P i).eval x
  left : ∀ i u, t[i]? = some u → i + 1 < t.length → (P i).eval u = y i
  right : ∀ i v, t[i + 1]? = some v → (P i).eval v = y (i + 1)
  slope : ∀ i v, t[i + 1]? = some v → i + 2 < t.length → (P i).derivative.eval v = (P (i + 1)).derivative.eval v
  bend : ∀ i v, t[i + 1]? = some v → i + 2 < t.length →
    (P i).derivative.derivative.eval v = (P (i + 1)).derivative.derivative.eval v

/-- The coordinates of the points of `c` are the values of polynomials `Q j` at the parameter values. -/
def SamplesOf (c : Curve ℝ) (t : List ℝ) (Q : Nat → Polynomial ℝ) : Prop :=
  ∀ i x j, t[i]? = some x → j < c.ncols → at2 c.rows i j = (Q j).eval x

/-- `f` has the first and second derivatives `f1`, `f2` on the interval, and `f2` is continuous. -/
def TwiceOn (a b : ℝ) (f f1 f2 : ℝ → ℝ) : Prop := DerivOn a b f f1 ∧ DerivOn a b f1 f2 ∧ ContinuousOn f2 (Set.Icc a b)

/-- The bending energy: the integral of the square of the second derivative. -/
noncomputable def bending (a b : ℝ) (f2 : ℝ → ℝ) : ℝ := ∫ x in a..b, f2 x ^ 2

end Verif.Spec
