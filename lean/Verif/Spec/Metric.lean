import Verif.Model.Distance
import Mathlib.Data.Real.Basic
import Mathlib.Analysis.SpecialFunctions.Pow.Real
import Mathlib.Algebra.BigOperators.Fin

/-!
Specification of distances (C127).
-/
namespace Verif.Spec

open Verif Verif.Model

/-- `D` is a metric on the points with `n` coordinates. -/
def MetricOn (n : Nat) (D : Point ℝ → Point ℝ → Except PyErr (Val ℝ)) : Prop :=
  ∃ d : Point ℝ → Point ℝ → ℝ, (∀ p q : Point ℝ, p.data.length = n → q.data.length = n → D p q = .ok (.fin (d p q))) ∧
    ∀ p q r : Point ℝ, p.data.length = n → q.data.length = n → r.data.length = n →
      0 ≤ d p q ∧ (d p q = 0 ↔ p.data = q.data) ∧ d p q = d q p ∧ d p r ≤ d p q + d q r

/-- The difference of two points in coordinate `i`. -/
noncomputable def diffAt (p q : Point ℝ) (i : Nat) : ℝ := p.data.getD i 0 - q.data.getD i 0

/-- `(Σ wᵢ |pᵢ - qᵢ|ᵖ)^(1/p)`. -/
noncomputable def lpDist (n : Nat) (p : ℝ) (w : Nat → ℝ) (a b : Point ℝ) : ℝ := (∑ i : Fin n, w i * |diffAt a b i| ^ p) ^ (1 / p)

/-- `Σ |pᵢ - qᵢ| / (|pᵢ| + |qᵢ|)` over the coordinates that are not both 0. -/
noncomputable def canberraDist (n : Nat) (w : Nat → ℝ) (a b : Point ℝ) : ℝ :=
  ∑ i : Fin n, if a.data.getD i 0 = 0 ∧ b.data.getD i 0 = 0 then 0 else w i * (|diffAt a b i| / (|a.data.getD i 0| + |b.data.getD i 0|))

/-- The weights given by keyword: all 1, one for every coordinate, or one for all. -/
def WeightsAre (n : Nat) (kw : Kw) (w : Nat → ℝ) : Prop :=
  ((kw.lookup "w" = none ∨ kw.lookup "w" = some .none) ∧ ∀ i, w i = 1) ∨
  (∃ l : List ℝ, kw.lookup "w" = some (.vec l) ∧ l.length = n ∧ ∀ i < n, w i = l.getD i 0) ∨
  ∃ x : ℝ, kw.lookup "w" = some (.num x) ∧ ∀ i, w i = x

/-- The order given by keyword, 2 by default. -/
def OrderIs (kw : Kw) (p : ℝ) : Prop := kw.lookup "p" = some (.num p) ∨ kw.lookup "p" = none ∧ p = 2

/-- All keyword arguments are among the given names. -/
def NamesIn (kw : Kw) (names : List String) : Prop := ∀ a ∈ kw, a.1 ∈ names

/-- `1 - Σ wᵢ xᵢ yᵢ / √ (Σ wᵢ xᵢ² · Σ wᵢ yᵢ²)`. -/
noncomputable def cosDist (n : Nat) (w x y : Nat → ℝ) : ℝ :=
  1 - (∑ i : Fin n, w i * (x i * y i)) / √ ((∑ i : Fin n, w i * (x i * x i)) * ∑ i : Fin n, w i * (y i * y i))

/-- Coordinates of a point. -/
noncomputable def coord (p : Point ℝ) (i : Nat) : ℝ := p.data.getD i 0

/-- The weighted mean of `n` numbers. -/
noncomputable def wmean (n : Nat) (w x : Nat → ℝ) : ℝ := (∑ i : Fin n, w i * x i) / ∑ i : Fin n, w i

/-- `√ (Σ_l (Σ_i B_li (pᵢ - qᵢ))²)`: the euclidean distance of the images under the matrix `B`. -/
noncomputable def imageDist {k n : Nat} (B : Fin k → Fin n → ℝ) (p q : Point ℝ) : ℝ :=
  √ (∑ l : Fin k, (∑ i : Fin n, B l i * diffAt p q i) ^ 2)

/-- The coordinates as shares of their sum. -/
noncomputable def share (n : Nat) (p : Point ℝ) (i : Nat) : ℝ := coord p i / ∑ j : Fin n, coord p j

/-- The Jensen-Shannon divergence of the shares of two points (`0 log 0 = 0`). -/
noncomputable def jsDiv (n : Nat) (p q : Point ℝ) : ℝ :=
  ((∑ i : Fin n, share n p i * Real.log (share n p i / ((share n p i + share n q i) / 2))) +
    ∑ i : Fin n, share n q i * Real.log (share n q i / ((share n p i + share n q i) / 2))) / 2

end Verif.Spec
