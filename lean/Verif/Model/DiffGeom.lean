import Verif.Model.ArcLen

/-!
Model of the differential geometry in skcurve/_diffgeom.py: gradients, Frenet vectors, curvature,
torsion; of the point-wise access to them (`CurvePoint`) and of the lazy caching (`cached_property`).

2-D float arrays are a number of rows, a number of columns and the entries as a function of row and column
number (the function is only meaningful inside the array). Arithmetic is exact; warnings are not modelled.
-/
namespace Verif.Model

open Verif Verif.Np

/-- A 2-D array of `m` rows and `k` columns. -/
structure NMat where
  m : Nat
  k : Nat
  v : Nat → Nat → ℝ

/-- `curve.data` as such an array. -/
def Curve.mat (c : Curve ℝ) : NMat := ⟨c.rows.length, c.ncols, fun i j => (c.rows.getD i []).getD j 0⟩

/-- Rows of the array as lists. -/
def NMat.rows (a : NMat) : List (List ℝ) := (List.range a.m).map fun i => (List.range a.k).map fun j => a.v i j

/-- `np.gradient` of the column `f` of length `m` with unit spacing: central differences inside, one-sided
differences of first or second order at the two ends (numpy `function_base.gradient`). -/
noncomputable def npGradient (edgeOrder m : Nat) (f : Nat → ℝ) (i : Nat) : ℝ :=
  if i = 0 then
    if edgeOrder = 1 then f 1 - f 0 else -1.5 * f 0 + 2 * f 1 + -0.5 * f 2
  else if i = m - 1 then
    if edgeOrder = 1 then f (m - 1) - f (m - 2) else 0.5 * f (m - 3) + -2 * f (m - 2) + 1.5 * f (m - 1)
  else (f (i + 1) - f (i - 1)) / 2

/-- `_gradient` (_diffgeom.py 118-154) of an array with at least one row: the largest edge order 2, 1 for
which there are enough rows; a single row gives `np.zeros((1, 1))`, whatever the number of columns. -/
noncomputable def gradient (a : NMat) : NMat :=
  if 3 ≤ a.m then ⟨a.m, a.k, fun i j => npGradient 2 a.m (fun i => a.v i j) i⟩
  else if 2 ≤ a.m then ⟨a.m, a.k, fun i j => npGradient 1 a.m (fun i => a.v i j) i⟩
  else ⟨a.m, 1, fun _ _ => 0⟩

/-- `np.linalg.norm(v, axis=1)`. -/
noncomputable def rowNorm (a : NMat) (i : Nat) : ℝ := √ (∑ j ∈ Finset.range a.k, a.v i j ^ 2)

/-- `dot1d` (_numeric.py 70-87). -/
noncomputable def dotRow (a b : NMat) (i : Nat) : ℝ := ∑ j ∈ Finset.range a.k, a.v i j * b.v i j

/-- `_frenet_vector_norm` (_diffgeom.py 157-166): norms close to 0 are replaced by 1. -/
noncomputable def frenetNorm (a : NMat) (i : Nat) : ℝ := if closeK (rowNorm a i) 0 then 1 else rowNorm a i

/-- `v / norm` with one norm per row. -/
noncomputable def unitRows (a : NMat) : NMat := ⟨a.m, a.k, fun i j => a.v i j / frenetNorm a i⟩

/-- `s - dot1d(s, e)[:, np.newaxis] * e`. All arrays of one curve have the same shape. -/
noncomputable def reject (s e : NMat) : NMat := ⟨s.m, s.k, fun i j => s.v i j - dotRow s e i * e.v i j⟩

/-- `s - dot1d(s, e1)[:, np.newaxis] * e1 - dot1d(s, e2)[:, np.newaxis] * e2` -/
noncomputable def reject2 (s e1 e2 : NMat) : NMat :=
  ⟨s.m, s.k, fun i j => s.v i j - dotRow s e1 i * e1.v i j - dotRow s e2 i * e2.v i j⟩

/-! The properties of a curve with at least one point (_diffgeom.py 242-537). -/

/-- `firstderiv` (242-261), `tangent` (300-320). -/
noncomputable def firstderiv (c : Curve ℝ) : NMat := gradient c.mat

/-- `secondderiv` (263-279). -/
noncomputable def secondderiv (c : Curve ℝ) : NMat := gradient (firstderiv c)

/-- `thirdderiv` (281-298). -/
noncomputable def thirdderiv (c : Curve ℝ) : NMat := gradient (secondderiv c)

/-- `frenet1` (419-452). -/
noncomputable def frenet1 (c : Curve ℝ) : NMat := unitRows (firstderiv c)

/-- `normal` (322-356). -/
noncomputable def normal (c : Curve ℝ) : NMat := reject (secondderiv c) (frenet1 c)

/-- `frenet2` (454-495). -/
noncomputable def frenet2 (c : Curve ℝ) : NMat := unitRows (normal c)

/-- `binormal` (358-394). -/
noncomputable def binormal (c : Curve ℝ) : NMat := reject2 (thirdderiv c) (frenet1 c) (frenet2 c)

/-- `frenet3` (497-537). -/
noncomputable def frenet3 (c : Curve ℝ) : NMat := unitRows (binormal c)

/-- Signed curvature of a plane curve at one point (594); `y ** 1.5` of `y >= 0` is `y * sqrt(y)`. -/
noncomputable def curvature2 (c : Curve ℝ) (i : Nat) : Val ℝ :=
  let fx := (firstderiv c).v i 0
  let fy := (firstderiv c).v i 1
  let sx := (secondderiv c).v i 0
  let sy := (secondderiv c).v i 1
  Val.div (.fin (sy * fx - sx * fy)) (.fin ((fx * fx + fy * fy) * √ (fx * fx + fy * fy)))

/-- Curvature in 3 or more dimensions at one point (597-601). -/
noncomputable def curvatureN (c : Curve ℝ) (i : Nat) : Val ℝ :=
  Val.div (.fin (rowNorm (gradient (frenet1 c)) i)) (.fin (rowNorm (firstderiv c) i))

/-- `curvature` (539-602) of a curve with points. The arrays of a single point have one column, so taking
column 1 of them fails (588). -/
noncomputable def curvature (c : Curve ℝ) : Except PyErr (List (Val ℝ)) :=
  if c.ndim = 2 then
    if (firstderiv c).k < 2 then .error .indexError
    else .ok ((List.range c.size).map (curvature2 c))
  else .ok ((List.range c.size).map (curvatureN c))

/-- `torsion` (604-638) at one point. -/
noncomputable def torsionAt (c : Curve ℝ) (i : Nat) : Val ℝ :=
  Val.div (.fin (dotRow (gradient (frenet2 c)) (frenet3 c) i)) (.fin (rowNorm (firstderiv c) i))

/-- `torsion` of a curve with points. -/
noncomputable def torsion (c : Curve ℝ) : List (Val ℝ) := (List.range c.size).map (torsionAt c)

/-- The cached properties of a curve. -/
inductive PropName
  | chordlen | arclen | cumarclen | t | firstderiv | secondderiv | thirdderiv | tangent | normal | binormal
  | speed | frenet1 | frenet2 | frenet3 | curvature | torsion
  deriving DecidableEq, Repr

/-- A value of such a property: per point a number or a row of numbers; or, for `chordlen` of an empty curve
and for `arclen`, a single number. -/
inductive PropVal
  | nums (xs : List (Val ℝ))
  | rows (rs : List (List ℝ))
  | num (x : ℝ)

/-- The property computed from scratch. For an empty curve the derivatives are 1-D empty arrays (so `speed`
fails with AxisError, which is both a ValueError and an IndexError), the others empty arrays. -/
noncomputable def fresh (junk : ℝ) (c : Curve ℝ) (f : PropName) : Except PyErr PropVal :=
  match f with
  | .chordlen => match Model.chordlen junk c with
    | .vec xs => .ok (.nums (xs.map .fin))
    | .scalar x => .ok (.num x)
  | .arclen => .ok (.num (Model.arclen junk c))
  | .cumarclen => .ok (.nums ((Model.cumarclen junk c).map .fin))
  | .t => .ok (.nums ((c.t junk).map .fin))
  | .firstderiv => .ok (.rows (Model.firstderiv c).rows)
  | .tangent => .ok (.rows (Model.firstderiv c).rows)
  | .secondderiv => .ok (.rows (Model.secondderiv c).rows)
  | .thirdderiv => .ok (.rows (Model.thirdderiv c).rows)
  | .normal => .ok (.rows (Model.normal c).rows)
  | .binormal => .ok (.rows (Model.binormal c).rows)
  | .speed => if c.rows = [] then .error .valueError
    else .ok (.nums ((List.range c.size).map fun i => .fin (rowNorm (Model.firstderiv c) i)))
  | .frenet1 => .ok (.rows (Model.frenet1 c).rows)
  | .frenet2 => .ok (.rows (Model.frenet2 c).rows)
  | .frenet3 => .ok (.rows (Model.frenet3 c).rows)
  | .curvature => if c.rows = [] then .ok (.nums [])
    else match Model.curvature c with
      | .error e => .error e
      | .ok xs => .ok (.nums xs)
  | .torsion => .ok (.nums (Model.torsion c))

/-- What a property of a curve point is: a number or a row. -/
inductive PointVal
  | num (x : Val ℝ)
  | row (r : List ℝ)

/-- `array[i]`. -/
noncomputable def PropVal.at (v : PropVal) (i : Int) : Except PyErr PointVal :=
  match v with
  | .nums xs => (getIdx xs i).map .num
  | .rows rs => (getIdx rs i).map .row
  | .num _ => .error .indexError

/-- `_maybe_curve_point` (_diffgeom.py 208-214) and `CurvePoint.t` (_base.py 455-464): the property of a
curve point is the entry at its index of the property of its curve. -/
noncomputable def CurvePoint.prop (junk : ℝ) (p : CurvePoint ℝ) (f : PropName) : Except PyErr PointVal :=
  match fresh junk p.curve f with
  | .error e => .error e
  | .ok v => v.at p.idx

end Verif.Model
