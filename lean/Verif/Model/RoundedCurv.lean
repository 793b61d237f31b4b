import Verif.Model.Rounded

/-!
Curvature with every operation rounded (_diffgeom.py 539-602). The power `** 1.5` and the norms are known up to their error, see `Curv2To` and `RowNormTo`.
-/
namespace Verif.Model

open Verif Verif.Np

/-- A division of floats (_diffgeom.py 594, 601): the quotient is rounded; division by 0 gives inf or nan. -/
noncomputable def quotFl (fl : ℝ → ℝ) (x y : ℝ) : Val ℝ :=
  match Val.div (.fin x) (.fin y) with
  | .fin z => .fin (fl z)
  | v => v

/-- The curvature of a plane curve at one point (_diffgeom.py 584-594). The power `** 1.5` of the C library has a relative error of at most `η`. -/
def Curv2To (fl : ℝ → ℝ) (η : ℝ) (c : Curve ℝ) (i : Nat) (x : Val ℝ) : Prop :=
  let fx := (derivFl fl c 1).v i 0
  let fy := (derivFl fl c 1).v i 1
  let sx := (derivFl fl c 2).v i 0
  let sy := (derivFl fl c 2).v i 1
  let q := fl (fl (fx * fx) + fl (fy * fy))
  ∃ w, |w - q * √ q| ≤ η * (q * √ q) ∧ x = quotFl fl (fl (fl (sy * fx) - fl (sx * fy))) w

/-- Rows divided by their computed norms, as in `frenet1` (_diffgeom.py 157-166, 429-453). -/
def UnitTo (fl : ℝ → ℝ) (a u : NMat) : Prop :=
  ∃ z : Nat → ℝ, (∀ i, i < a.m → RowNormTo fl a i (z i)) ∧ u = ⟨a.m, a.k, fun i j => unitFl fl a (z i) i j⟩

/-- The curvature of another curve at one point (_diffgeom.py 597-601). -/
def CurvNTo (fl : ℝ → ℝ) (c : Curve ℝ) (i : Nat) (x : Val ℝ) : Prop :=
  ∃ u y t, UnitTo fl (derivFl fl c 1) u ∧ RowNormTo fl (gradientFl fl u) i y ∧ RowNormTo fl (derivFl fl c 1) i t ∧ x = quotFl fl y t

/-- `curvature` (_diffgeom.py 539-602) of a curve with points may give `r` (compare `curvature`). -/
def CurvatureTo (fl : ℝ → ℝ) (η : ℝ) (c : Curve ℝ) (r : Except PyErr (List (Val ℝ))) : Prop :=
  if c.ndim = 2 then
    if (derivFl fl c 1).k < 2 then r = .error .indexError
    else ∃ ks : List (Val ℝ), r = .ok ks ∧ ks.length = c.size ∧ ∀ i (h : i < ks.length), Curv2To fl η c i ks[i]
  else ∃ ks : List (Val ℝ), r = .ok ks ∧ ks.length = c.size ∧ ∀ i (h : i < ks.length), CurvNTo fl c i ks[i]

end Verif.Model
