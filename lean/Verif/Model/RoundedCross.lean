import Verif.Model.Rounded
import Verif.Model.Intersect

/-!
`ExactIntersectionMethod._intersect_segments` for segments of the plane with every operation rounded by a function `fl`. `η` is the accuracy of the library routines `np.linalg.solve` and `scipy.spatial.distance.euclidean`.
-/
namespace Verif.Model

open Verif Verif.Np

/-- `np.isclose(x, y)` for numbers: `abs(x - y) <= atol + rtol * abs(y)`. -/
def CloseFl (fl : ℝ → ℝ) (x y : ℝ) : Prop := |fl (x - y)| ≤ fl (fl atol + fl (fl rtol * |y|))

/-- `Point.__eq__` for floats of the same dimension (_base.py 202-224). -/
def VecCloseFl (fl : ℝ → ℝ) {n : Nat} (p q : Vec n ℝ) : Prop := ∀ i, CloseFl fl (p i) (q i)

/-- Changes of the entries of a matrix which are small compared with its largest entry. -/
def SmallChange (η : ℝ) (a e : Fin 2 → Fin 2 → ℝ) : Prop := ∀ i j, ∃ k l, |e i j| ≤ η * |a k l|

/-- `np.linalg.solve(a, b)` for two equations: the computed solution solves a system with slightly changed coefficients exactly (LAPACK's dgesv: elimination with pivoting; `Props/RoundedCross.lean` shows this for the elimination written out). -/
def SolveTo (η : ℝ) (a : Fin 2 → Fin 2 → ℝ) (b t : Vec 2 ℝ) : Prop :=
  ∃ e, SmallChange η a e ∧ ∀ i, (a i 0 + e i 0) * t 0 + (a i 1 + e i 1) * t 1 = b i

/-- `np.linalg.solve` raises `LinAlgError`: only if a slightly changed matrix is singular. -/
def SolveFails (η : ℝ) (a : Fin 2 → Fin 2 → ℝ) : Prop :=
  ∃ e, SmallChange η a e ∧ (a 0 0 + e 0 0) * (a 1 1 + e 1 1) - (a 0 1 + e 0 1) * (a 1 0 + e 1 0) = 0

/-- The range test of a parameter (_intersect.py 506-507). -/
def InUnitFl (fl : ℝ → ℝ) (t : ℝ) : Prop := (0 < t ∨ CloseFl fl t 0) ∧ (t < 1 ∨ CloseFl fl t 1)

/-- `Segment.point(t)` for a number (_geomalg.py 61). -/
def segPointFl (fl : ℝ → ℝ) {n : Nat} (s : Seg n ℝ) (t : ℝ) : Vec n ℝ := fun i => pointFl fl (s.p1 i) (s.p2 i) t

open Classical in
/-- The last part of `_intersect_segments` (_intersect.py 506-523). -/
def FinishTo (fl : ℝ → ℝ) (η feps : ℝ) (s r : Seg 2 ℝ) (t : Vec 2 ℝ) (x : Info 2 ℝ) : Prop :=
  if InUnitFl fl (t 0) ∧ InUnitFl fl (t 1) then
    if VecCloseFl fl (segPointFl fl s (t 0)) (segPointFl fl r (t 1)) then x = ⟨.point (segPointFl fl s (t 0)), .exact⟩
    else ∃ z, |z - edist (segPointFl fl s (t 0)) (segPointFl fl r (t 1))| ≤ η * edist (segPointFl fl s (t 0)) (segPointFl fl r (t 1)) ∧
      x = if feps < z then notIntersected else ⟨.point (segPointFl fl s (t 0)), .exact⟩
  else x = notIntersected

/-- The matrix `np.stack((direction1, -direction2), axis=1)` (_intersect.py 489-490). -/
def crossMat (fl : ℝ → ℝ) (s r : Seg 2 ℝ) : Fin 2 → Fin 2 → ℝ := fun i j => if j = 0 then subFl fl s.p2 s.p1 i else -subFl fl r.p2 r.p1 i

open Classical in
/-- `ExactIntersectionMethod._intersect_segments` (_intersect.py 477-523) in the plane, after the test of collinearity (lines 468-475), which has said no. `coplanar` is true in the plane. -/
def CrossTo (fl : ℝ → ℝ) (η feps : ℝ) (s r : Seg 2 ℝ) (x : Info 2 ℝ) : Prop :=
  ∃ q, ParallelTo fl s r F_EPS q ∧
    if q = true ∨ VecCloseFl fl s.p1 s.p2 ∨ VecCloseFl fl r.p1 r.p2 then x = notIntersected
    else (SolveFails η (crossMat fl s r) ∧ x = notIntersected) ∨
      ∃ t, SolveTo η (crossMat fl s r) (subFl fl r.p1 s.p1) t ∧ FinishTo fl η feps s r t x

/-- Elimination with row exchange for two equations, every operation rounded; `none` for a pivot 0. -/
noncomputable def eliminate (fl : ℝ → ℝ) (a : Fin 2 → Fin 2 → ℝ) (b : Vec 2 ℝ) : Option (Vec 2 ℝ) :=
  let p : Fin 2 := if |a 0 0| < |a 1 0| then 1 else 0
  let q : Fin 2 := if |a 0 0| < |a 1 0| then 0 else 1
  if a p 0 = 0 then none
  else
    let l := fl (a q 0 / a p 0)
    let u := fl (a q 1 - fl (l * a p 1))
    if u = 0 then none
    else
      let y := fl (b q - fl (l * b p))
      let t1 := fl (y / u)
      some ![fl (fl (b p - fl (a p 1 * t1)) / a p 0), t1]

end Verif.Model
