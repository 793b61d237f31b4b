import Verif.Model.DiffGeom
import Verif.Model.Smooth
import Verif.Model.Intersect

/-!
Lengths, derivatives, Frenet vectors, curvature and torsion (skcurve/_diffgeom.py) of curves with NaN and infinite coordinates, and the bounding boxes of skcurve/_intersect.py for such curves. Arithmetic is exact on
finite numbers and follows IEEE on the others (Model/PointOps.lean).
-/
namespace Verif.Model

open Verif Verif.Np

/-- The chord lengths (_diffgeom.py 91). -/
noncomputable def chordsV (rows : List (List (Val ℝ))) : List (Val ℝ) := List.zipWith chordV rows rows.tail

/-- `arclen` (_diffgeom.py 94-115) of a curve with points. -/
noncomputable def arclenV (c : Curve (Val ℝ)) : Val ℝ := sumV (chordsV c.rows)

/-- The running sums. -/
noncomputable def cumV (s : Val ℝ) : List (Val ℝ) → List (Val ℝ)
  | [] => []
  | x :: xs => s.add x :: cumV (s.add x) xs

/-- `cumarclen` (_diffgeom.py 226-240) of a curve with points. -/
noncomputable def cumarclenV (c : Curve (Val ℝ)) : List (Val ℝ) := .fin 0 :: cumV (.fin 0) (chordsV c.rows)

/-- A 2-D array with special values. -/
structure VMat where
  m : Nat
  k : Nat
  v : Nat → Nat → Val ℝ

/-- `curve.data`. -/
def Curve.vmat (c : Curve (Val ℝ)) : VMat := ⟨c.rows.length, c.ncols, fun i j => (c.rows.getD i []).getD j (.fin 0)⟩

/-- `np.gradient` of one column, see `npGradient`. -/
noncomputable def npGradientV (edgeOrder m : Nat) (f : Nat → Val ℝ) (i : Nat) : Val ℝ :=
  if i = 0 then
    if edgeOrder = 1 then (f 1).sub (f 0) else (((Val.fin (-1.5)).mul (f 0)).add ((Val.fin 2).mul (f 1))).add ((Val.fin (-0.5)).mul (f 2))
  else if i = m - 1 then
    if edgeOrder = 1 then (f (m - 1)).sub (f (m - 2))
    else (((Val.fin 0.5).mul (f (m - 3))).add ((Val.fin (-2)).mul (f (m - 2)))).add ((Val.fin 1.5).mul (f (m - 1)))
  else ((f (i + 1)).sub (f (i - 1))).div (.fin 2)

/-- `_gradient` (_diffgeom.py 118-154), see `gradient`. -/
noncomputable def gradientV (a : VMat) : VMat :=
  if 3 ≤ a.m then ⟨a.m, a.k, fun i j => npGradientV 2 a.m (fun i => a.v i j) i⟩
  else if 2 ≤ a.m then ⟨a.m, a.k, fun i j => npGradientV 1 a.m (fun i => a.v i j) i⟩
  else ⟨a.m, 1, fun _ _ => .fin 0⟩

/-- `np.linalg.norm(v, axis=1)`. -/
noncomputable def rowNormV (a : VMat) (i : Nat) : Val ℝ := (sumV ((List.range a.k).map fun j => (a.v i j).sq)).sqrt

/-- `dot1d` (_numeric.py 70-87). -/
noncomputable def dotRowV (a b : VMat) (i : Nat) : Val ℝ := sumV ((List.range a.k).map fun j => (a.v i j).mul (b.v i j))

/-- `_frenet_vector_norm` (_diffgeom.py 157-166); NaN and Inf are not close to 0. -/
noncomputable def frenetNormV (a : VMat) (i : Nat) : Val ℝ := if (rowNormV a i).isclose (.fin 0) then .fin 1 else rowNormV a i

/-- `v / norm` (_diffgeom.py 452, 491, 533). -/
noncomputable def unitRowsV (a : VMat) : VMat := ⟨a.m, a.k, fun i j => (a.v i j).div (frenetNormV a i)⟩

/-- `s - dot1d(s, e)[:, np.newaxis] * e` (_diffgeom.py 356). -/
noncomputable def rejectV (s e : VMat) : VMat := ⟨s.m, s.k, fun i j => (s.v i j).sub ((dotRowV s e i).mul (e.v i j))⟩

/-- `s - dot1d(s, e1)[:, np.newaxis] * e1 - dot1d(s, e2)[:, np.newaxis] * e2` (_diffgeom.py 394). -/
noncomputable def reject2V (s e1 e2 : VMat) : VMat :=
  ⟨s.m, s.k, fun i j => ((s.v i j).sub ((dotRowV s e1 i).mul (e1.v i j))).sub ((dotRowV s e2 i).mul (e2.v i j))⟩

/-- `firstderiv` (_diffgeom.py 242-260) of a curve with points, as the following ones. -/
noncomputable def firstderivV (c : Curve (Val ℝ)) : VMat := gradientV c.vmat

/-- `secondderiv` (_diffgeom.py 262-279). -/
noncomputable def secondderivV (c : Curve (Val ℝ)) : VMat := gradientV (firstderivV c)

/-- `thirdderiv` (_diffgeom.py 281-298). -/
noncomputable def thirdderivV (c : Curve (Val ℝ)) : VMat := gradientV (secondderivV c)

/-- `speed` (_diffgeom.py 396-417). -/
noncomputable def speedV (c : Curve (Val ℝ)) : List (Val ℝ) := (List.range c.size).map (rowNormV (firstderivV c))

/-- `frenet1` (_diffgeom.py 419-452). -/
noncomputable def frenet1V (c : Curve (Val ℝ)) : VMat := unitRowsV (firstderivV c)

/-- `normal` (_diffgeom.py 322-356). -/
noncomputable def normalV (c : Curve (Val ℝ)) : VMat := rejectV (secondderivV c) (frenet1V c)

/-- `frenet2` (_diffgeom.py 454-495). -/
noncomputable def frenet2V (c : Curve (Val ℝ)) : VMat := unitRowsV (normalV c)

/-- `binormal` (_diffgeom.py 358-394). -/
noncomputable def binormalV (c : Curve (Val ℝ)) : VMat := reject2V (thirdderivV c) (frenet1V c) (frenet2V c)

/-- `frenet3` (_diffgeom.py 497-537). -/
noncomputable def frenet3V (c : Curve (Val ℝ)) : VMat := unitRowsV (binormalV c)

/-- The curvature of a plane curve at one point (_diffgeom.py 588-593); `q ** 1.5` is `q * sqrt(q)`. -/
noncomputable def curvature2V (c : Curve (Val ℝ)) (i : Nat) : Val ℝ :=
  let fx := (firstderivV c).v i 0
  let fy := (firstderivV c).v i 1
  let sx := (secondderivV c).v i 0
  let sy := (secondderivV c).v i 1
  let q := (fx.mul fx).add (fy.mul fy)
  ((sy.mul fx).sub (sx.mul fy)).div (q.mul q.sqrt)

/-- The curvature of another curve at one point (_diffgeom.py 596-600). -/
noncomputable def curvatureNV (c : Curve (Val ℝ)) (i : Nat) : Val ℝ := (rowNormV (gradientV (frenet1V c)) i).div (rowNormV (firstderivV c) i)

/-- `curvature` (_diffgeom.py 539-602) of a curve with points. -/
noncomputable def curvatureV (c : Curve (Val ℝ)) : Except PyErr (List (Val ℝ)) :=
  if c.ndim = 2 then
    if (firstderivV c).k < 2 then .error .indexError
    else .ok ((List.range c.size).map (curvature2V c))
  else .ok ((List.range c.size).map (curvatureNV c))

/-- `torsion` (_diffgeom.py 604-638) of a curve with points. -/
noncomputable def torsionV (c : Curve (Val ℝ)) : List (Val ℝ) :=
  (List.range c.size).map fun i => (dotRowV (gradientV (frenet2V c)) (frenet3V c) i).div (rowNormV (firstderivV c) i)

/-- One entry of `is_intersect` (_intersect.py 564-586): `np.minimum` and `np.maximum` give NaN if one of the numbers is NaN, comparisons with NaN are false. -/
noncomputable def bboxEntryV {n : Nat} (s r : Seg n (Val ℝ)) : Bool :=
  (List.finRange n).all fun i =>
    (((s.p1 i).npmin (s.p2 i)).ltB ((r.p1 i).npmax (r.p2 i)) || ((s.p1 i).npmin (s.p2 i)).isclose ((r.p1 i).npmax (r.p2 i))) &&
      (((r.p1 i).npmin (r.p2 i)).ltB ((s.p1 i).npmax (s.p2 i)) || ((s.p1 i).npmax (s.p2 i)).isclose ((r.p1 i).npmin (r.p2 i)))

/-- A curve with special values (compare `GCurve`). -/
structure VCurve (n : Nat) where
  cid : Nat
  int : Bool
  data : List (Vec n (Val ℝ))

/-- Segment `i`. -/
def VCurve.segment {n : Nat} (c : VCurve n) (i : Nat) : Seg n (Val ℝ) := ⟨c.data.getD i fun _ => .fin 0, c.data.getD (i + 1) fun _ => .fin 0⟩

/-- `_find_segments_bbox_intersection` (_intersect.py 544-590), see `bboxPairs`. -/
noncomputable def bboxPairsV {n : Nat} (c1 c2 : VCurve n) : List (Nat × Nat) :=
  let selfInt := decide (c2.cid = c1.cid)
  if c1.data.length = 0 ∨ c2.data.length = 0 then []
  else
    let other := if selfInt then c1 else c2
    curvesIndices (c1.data.length - 1) (other.data.length - 1) (fun i j => bboxEntryV (c1.segment i) (other.segment j)) selfInt

/-- The finite numbers of the data; anything else is 0. -/
noncomputable def VCurve.numbers {n : Nat} (c : VCurve n) : GCurve n ℝ := ⟨c.cid, c.int, c.data.map fun p i => (p i).real⟩

/-- `ExactIntersectionMethod._intersect_curves` (_intersect.py 525-542) for curves without infinite coordinates: the segments of the pairs have no NaN (`C162_pairs`), so that they can be intersected as numbers. -/
noncomputable def exactCurvesV {n : Nat} (feps : ℝ) (c1 c2 : VCurve n) : Except PyErr (List (SegInt n ℝ)) :=
  collect (fun s r => exactSegments feps s.seg r.seg) c1.numbers c2.numbers (bboxPairsV c1 c2)

end Verif.Model
