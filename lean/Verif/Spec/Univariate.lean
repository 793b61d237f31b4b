import Verif.Spec.Smoothing

/-!
Vocabulary for univariate splines: what is assumed of scipy's `UnivariateSpline` when it interpolates (`s=0`), for degree 1 and 3.
-/
namespace Verif.Spec

open Verif Verif.Model

/-- What a spline does outside of the range of its knots. -/
inductive OutMode
  | extrapolate | zeros | raise | const

/-- The values of the argument `ext`. -/
def ExtIs (e : ArgVal) : OutMode → Prop
  | .extrapolate => e = .int 0 ∨ e = .str "extrapolate"
  | .zeros => e = .int 1 ∨ e = .str "zeros"
  | .raise => e = .int 2 ∨ e = .str "raise"
  | .const => e = .int 3 ∨ e = .str "const"

/-- `f` evaluates `F` in the range of `xs`, and outside of it as `mode` says. -/
def ExtendedBy (mode : OutMode) (xs : List ℝ) (F : ℝ → ℝ) (f : Val ℝ → Except PyErr (Val ℝ)) : Prop :=
  (∀ x, WithinEnds xs x → f (.fin x) = .ok (.fin (F x))) ∧
  ∀ x a b, xs.head? = some a → xs.getLast? = some b → ¬ WithinEnds xs x →
    match mode with
    | .extrapolate => f (.fin x) = .ok (.fin (F x))
    | .zeros => f (.fin x) = .ok (.fin 0)
    | .raise => ∃ e, f (.fin x) = .error e
    | .const => f (.fin x) = .ok (.fin (F (if x < a then a else b)))

/-- `z` belongs to piece `i` between `u` and `v`; the first and the last piece reach to infinity. -/
def OnPiece (t : List ℝ) (i : Nat) (u v z : ℝ) : Prop :=
  t[i]? = some u ∧ t[i + 1]? = some v ∧ (i = 0 ∨ u ≤ z) ∧ (i + 2 = t.length ∨ z ≤ v)

/-- `F` is the broken line through the values `ys` at `xs`, with the first and the last segment prolonged. -/
def BrokenLine (xs ys : List ℝ) (F : ℝ → ℝ) : Prop :=
  ∀ i u v z, OnPiece xs i u v z → F z = ys.getD i 0 + (z - u) / (v - u) * (ys.getD (i + 1) 0 - ys.getD i 0)

/-- `F` is a twice continuously differentiable piecewise cubic through the values `ys` at `xs` without a knot at the second and at the last but
one value, the first and the last polynomial prolonged. -/
def CubicThrough (xs ys : List ℝ) (F : ℝ → ℝ) : Prop :=
  ∃ P, CubicOn xs (fun i => ys.getD i 0) F P ∧ P 0 = P 1 ∧ P (xs.length - 3) = P (xs.length - 2) ∧
    ∀ i u v z, OnPiece xs i u v z → F z = (P i).eval z

/-- What is assumed of `UnivariateSpline` for `s=0`, strictly increasing abscissae, positive weights: degree 1 gives the broken line; degree 3, for
at least four values, the cubic spline whose knots are the abscissae except for the second and the last but one (as `fpcurf.f` chooses them). With
too few values or abscissae that do not increase strictly it is an error. -/
structure UnivariateOk (lib : SplineLib) : Prop where
  linear : ∀ s ws w e mode xs ys, SmoothIs s 0 → WeightsFor ws xs.length w → ExtIs e mode → xs.Pairwise (· < ·) → ys.length = xs.length →
    2 ≤ xs.length → ∃ f F, lib.univariate (.int 1) s ws e xs ys = .ok f ∧ BrokenLine xs ys F ∧ ExtendedBy mode xs F f
  cubic : ∀ s ws w e mode xs ys, SmoothIs s 0 → WeightsFor ws xs.length w → ExtIs e mode → xs.Pairwise (· < ·) → ys.length = xs.length →
    4 ≤ xs.length → ∃ f F, lib.univariate (.int 3) s ws e xs ys = .ok f ∧ CubicThrough xs ys F ∧ ExtendedBy mode xs F f
  few : ∀ (k : Nat) s ws w e mode xs ys, k = 1 ∨ k = 3 → SmoothIs s 0 → WeightsFor ws xs.length w → ExtIs e mode → ys.length = xs.length →
    (xs.length ≤ k ∨ ¬ xs.Pairwise (· < ·)) → ∃ err, lib.univariate (.int k) s ws e xs ys = .error err

/-- On every accepted grid the call gives the points `F x` if all values are in the range of `t`, and otherwise does as `mode` says. -/
def ExtendedCall (mode : OutMode) (c : Curve ℝ) (t : List ℝ) (call : GridSpec → Except PyErr (Curve (Val ℝ))) (F : ℝ → List ℝ) : Prop :=
  EvaluatesTo c call (WithinEnds t) F ∧
  match mode with
  | .extrapolate => EvaluatesTo c call (fun _ => True) F
  | .zeros => ∃ G, EvaluatesTo c call (fun _ => True) G ∧ (∀ x, WithinEnds t x → G x = F x) ∧ ∀ x, ¬ WithinEnds t x → G x = List.replicate c.ncols 0
  | .raise => ∀ xs : List ℝ, StepsOver xs → (∃ x ∈ xs, ¬ WithinEnds t x) → call (.arr (.ok (GridArr.of (fins xs)))) = .error .interpolationError
  | .const => ∃ G, EvaluatesTo c call (fun _ => True) G ∧ (∀ x, WithinEnds t x → G x = F x) ∧
      (∀ x a, t.head? = some a → x < a → G x = F a) ∧ ∀ x b, t.getLast? = some b → b < x → G x = F b

end Verif.Spec
