import Verif.Spec.SplineBc

/-!
Vocabulary for cubic splines with a boundary condition for each end.
-/
namespace Verif.Spec

open Verif Verif.Model

/-- Left-hand side of the equation that `CubicSpline.__init__` sets up at the first knot. For two knots not-a-knot means the slope of the
line. -/
noncomputable def startRow (n : Nat) (x : Nat → ℝ) (d : Nat → ℝ) : EndCond → ℝ
  | .slope _ => d 0
  | .bend _ => 2 * (x 1 - x 0) * d 0 + (x 1 - x 0) * d 1
  | .knot => if n = 2 then d 0 else (x 2 - x 1) * d 0 + (x 2 - x 0) * d 1

/-- Its right-hand side, for coordinate `j`. -/
noncomputable def startRhs (n : Nat) (x y : Nat → ℝ) (j : Nat) : EndCond → ℝ
  | .slope v => v.getD j 0
  | .bend v => -(1 / 2) * v.getD j 0 * (x 1 - x 0) ^ 2 + 3 * (y 1 - y 0)
  | .knot => if n = 2 then (y 1 - y 0) / (x 1 - x 0) else
    (((x 1 - x 0) + 2 * (x 2 - x 0)) * (x 2 - x 1) * ((y 1 - y 0) / (x 1 - x 0)) +
      (x 1 - x 0) ^ 2 * ((y 2 - y 1) / (x 2 - x 1))) / (x 2 - x 0)

/-- The same at the last knot. -/
noncomputable def stopRow (n : Nat) (x : Nat → ℝ) (d : Nat → ℝ) : EndCond → ℝ
  | .slope _ => d (n - 1)
  | .bend _ => (x (n - 1) - x (n - 2)) * d (n - 2) + 2 * (x (n - 1) - x (n - 2)) * d (n - 1)
  | .knot => if n = 2 then d (n - 1) else (x (n - 1) - x (n - 3)) * d (n - 2) + (x (n - 2) - x (n - 3)) * d (n - 1)

@[inherit_doc stopRow]
noncomputable def stopRhs (n : Nat) (x y : Nat → ℝ) (j : Nat) : EndCond → ℝ
  | .slope v => v.getD j 0
  | .bend v => 1 / 2 * v.getD j 0 * (x (n - 1) - x (n - 2)) ^ 2 + 3 * (y (n - 1) - y (n - 2))
  | .knot => if n = 2 then (y (n - 1) - y (n - 2)) / (x (n - 1) - x (n - 2)) else
    ((x (n - 1) - x (n - 2)) ^ 2 * ((y (n - 2) - y (n - 3)) / (x (n - 2) - x (n - 3))) +
      (2 * (x (n - 1) - x (n - 3)) + (x (n - 1) - x (n - 2))) * (x (n - 2) - x (n - 3)) *
        ((y (n - 1) - y (n - 2)) / (x (n - 1) - x (n - 2)))) / (x (n - 1) - x (n - 3))

/-- The linear system for conditions `a` at the first and `b` at the last knot: not-a-knot at both ends has a form of its own for three
knots. -/
structure EndsSystem (n : Nat) (x y : Nat → ℝ) (j : Nat) (a b : EndCond) (d : Nat → ℝ) : Prop where
  knots : a = .knot → b = .knot → KnotSystem n x y d
  inner : InnerEqs n x y d
  start : a ≠ .knot ∨ b ≠ .knot → startRow n x d a = startRhs n x y j a
  stop : a ≠ .knot ∨ b ≠ .knot → stopRow n x d b = stopRhs n x y j b

/-- What is assumed of scipy's solver: for accepted knots it returns the solution of the system. -/
def EndsOk (lib : SplineLib) : Prop :=
  ∀ a b xs (y : NMat), knotsOk xs y.m = true → ∃ d, lib.cubicEnds a b xs y = .ok d ∧
    ∀ j, j < y.k → EndsSystem xs.length (fun i => xs.getD i 0) (fun i => y.v i j) j a b (fun i => d.v i j)

/-- The documented values of an entry of a pair, for curves with `k` coordinates: one of three strings, or an order 1 or 2 with one value per
coordinate. -/
def Documented (k : Nat) (e : BcEnd) : Prop :=
  e = .str "natural" ∨ e = .str "clamped" ∨ e = .str "not-a-knot" ∨
    ∃ o vs, e = .deriv o vs ∧ (o = 1 ∨ o = 2) ∧ vs.length = k

/-- What entry `e` of a pair demands of coordinate `j` at one end: `P` is the polynomial at this end, `P'` its neighbour, `u` the parameter
value there, and `s` the slope of the line through the first two (last two) points. -/
structure MeetsEnd (e : BcEnd) (n j : Nat) (P P' : Polynomial ℝ) (u s : ℝ) : Prop where
  natural : e = .str "natural" → P.derivative.derivative.eval u = 0
  clamped : e = .str "clamped" → P.derivative.eval u = 0
  knot : e = .str "not-a-knot" → 3 ≤ n → P = P'
  line : e = .str "not-a-knot" → n = 2 → P.derivative.eval u = s
  first : ∀ vs v, e = .deriv 1 vs → vs[j]? = some v → P.derivative.eval u = v
  second : ∀ vs v, e = .deriv 2 vs → vs[j]? = some v → P.derivative.derivative.eval u = v

/-- A polynomial that fits entry `e` for coordinate `j` at `u`. -/
structure FitsEnd (e : BcEnd) (j : Nat) (Q : Polynomial ℝ) (u : ℝ) : Prop where
  natural : e = .str "natural" → Q.derivative.derivative.eval u = 0
  clamped : e = .str "clamped" → Q.derivative.eval u = 0
  first : ∀ vs v, e = .deriv 1 vs → vs[j]? = some v → Q.derivative.eval u = v
  second : ∀ vs v, e = .deriv 2 vs → vs[j]? = some v → Q.derivative.derivative.eval u = v

end Verif.Spec
