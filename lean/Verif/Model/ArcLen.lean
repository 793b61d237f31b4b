import Verif.Model.PointOps
import Mathlib.Analysis.Real.Sqrt

/-!
Model of the length part of skcurve/_diffgeom.py (`chordlen`, `arclen`, `cumarclen`) and of the parts of
_base.py that use it (`Curve.t`, `CurveSegment`, `Curve.segments`, `Curve.coorientplane`).

Arithmetic is exact (real numbers) except for `cumsumFl`, which takes an arbitrary rounding function.
-/
namespace Verif.Model

open Verif Verif.Np

/-- What `chordlen` may return: a 1-D array, or (for an empty curve) the 0-d array `np.ndarray([])`. -/
inductive NArr
  | vec (xs : List ℝ)
  | scalar (x : ℝ)

/-- `sqrt(sum((b - a)**2))` of two rows (_diffgeom.py 91). -/
noncomputable def chord (a b : List ℝ) : ℝ := √ (List.zipWith (fun x y => (y - x) ^ 2) a b).sum

/-- The array built by line 91: one chord per pair of neighbouring rows. -/
noncomputable def chords (rows : List (List ℝ)) : List ℝ := List.zipWith chord rows rows.tail

/-- `chordlen` (_diffgeom.py 69-91). For an empty curve `np.ndarray([], dtype=np.float64)` is an
uninitialised 0-d array: its content is the parameter `junk` (line 88-89). -/
noncomputable def chordlen (junk : ℝ) (c : Curve ℝ) : NArr :=
  if c.rows = [] then .scalar junk else .vec (chords c.rows)

/-- `np.sum`. -/
noncomputable def NArr.sum : NArr → ℝ
  | .vec xs => xs.sum
  | .scalar x => x

/-- `arclen` (_diffgeom.py 94-115, _base.py 1610-1624). -/
noncomputable def arclen (junk : ℝ) (c : Curve ℝ) : ℝ := (chordlen junk c).sum

/-- The running sums after a first value `s`, every addition rounded by `fl`. -/
noncomputable def cumFrom (fl : ℝ → ℝ) (s : ℝ) : List ℝ → List ℝ
  | [] => []
  | x :: xs => fl (s + x) :: cumFrom fl (fl (s + x)) xs

/-- `np.cumsum` of a 1-D array: the first value is copied, the others are added one after another. -/
noncomputable def cumsumFl (fl : ℝ → ℝ) : List ℝ → List ℝ
  | [] => []
  | x :: xs => x :: cumFrom fl x xs

/-- `np.cumsum` of a 1-D or 0-d array (the latter is flattened to one element). -/
noncomputable def NArr.cumsum (fl : ℝ → ℝ) : NArr → List ℝ
  | .vec xs => cumsumFl fl xs
  | .scalar x => [x]

/-- `cumarclen` of a curve (_diffgeom.py 226-240) with additions rounded by `fl`. -/
noncomputable def cumarclenFl (fl : ℝ → ℝ) (junk : ℝ) (c : Curve ℝ) : List ℝ :=
  0 :: (chordlen junk c).cumsum fl

/-- `cumarclen` in exact arithmetic. -/
noncomputable def cumarclen (junk : ℝ) (c : Curve ℝ) : List ℝ := cumarclenFl id junk c

/-- `Curve.t` (_base.py 1568-1594). -/
noncomputable def Curve.t (junk : ℝ) (c : Curve ℝ) : List ℝ :=
  match c.tdata with
  | some t => t
  | none => cumarclen junk c

/-- A curve segment (_base.py 915-985): two curve points, the curve and the stored index. -/
structure CurveSegment where
  p1 : CurvePoint ℝ
  p2 : CurvePoint ℝ
  curve : Curve ℝ
  idx : Int

/-- `CurveSegment.__init__` (_base.py 929-941). `curve[i]` with an integer builds a `CurvePoint`. The check
of `Segment.__init__` (equal dimensions) never fails for two points of one curve. -/
noncomputable def CurveSegment.init (c : Curve ℝ) (cid : Nat) (index : Int) : Except PyErr CurveSegment :=
  let i := if index < 0 then ((c.size : Int) - 1) + index else index
  if i ≥ (c.size : Int) - 1 then .error .valueError
  else match CurvePoint.init c cid i with
    | .error e => .error e
    | .ok p1 => match CurvePoint.init c cid (i + 1) with
      | .error e => .error e
      | .ok p2 => .ok ⟨p1, p2, c, i⟩

/-- `Segment.seglen` of a curve segment (_base.py 594-604): the distance of its end points. -/
noncomputable def CurveSegment.seglen (s : CurveSegment) : ℝ := chord s.p1.point.data s.p2.point.data

/-- `CurveSegment.chordlen` (_base.py 972-985): numpy indexing of the chord lengths; a 0-d array cannot be
indexed. -/
noncomputable def CurveSegment.chordlen (junk : ℝ) (s : CurveSegment) : Except PyErr ℝ :=
  match Model.chordlen junk s.curve with
  | .scalar _ => .error .indexError
  | .vec xs => getIdx xs s.idx

/-- `Curve.segments` (_base.py 1626-1637). -/
noncomputable def Curve.segments (c : Curve ℝ) (cid : Nat) : Except PyErr (List CurveSegment) :=
  (List.range (c.size - 1)).mapM fun (k : Nat) => CurveSegment.init c cid (k : Int)

section
variable {K : Type} [Field K] [LinearOrder K] [IsStrictOrderedRing K] [FloorRing K]

/-- `coorientplane` (_diffgeom.py 169-205). `point[axis]` is numpy indexing. `np.linalg.det` is exact. -/
def isCoorient (c : Curve K) (a1 a2 : Int) : Except PyErr Bool :=
  if c.size = 0 ∨ c.size = 1 then .ok true
  else match CurvePoint.init c 0 0, CurvePoint.init c 0 (-1) with
    | .ok pb, .ok pe =>
      match getIdx pb.point.data a1, getIdx pe.point.data a1, getIdx pb.point.data a2, getIdx pe.point.data a2 with
      | .ok x1, .ok y1, .ok x2, .ok y2 => .ok (decide (0 < x1 * y2 - y1 * x2))
      | .error e, _, _, _ => .error e
      | _, .error e, _, _ => .error e
      | _, _, .error e, _ => .error e
      | _, _, _, .error e => .error e
    | .error e, _ => .error e
    | _, .error e => .error e

/-- `Curve.coorientplane` (_base.py 1660-1693). `Curve(self, tdata=self._tdata)` is the copying
constructor (the tdata argument is the one of `self` anyway). -/
def Curve.coorientplane (c : Curve K) (a1 a2 : Int) : Except PyErr (Curve K) :=
  match isCoorient c a1 a2 with
  | .error e => .error e
  | .ok false => c.reverse
  | .ok true => c.copy

end

/-! Further arithmetic of floating point values (see Model/PointOps.lean) needed by `nonsingular`: exact on
finite numbers, IEEE rules for NaN and the infinities. -/

/-- `a ** 2`. -/
noncomputable def Val.sq : Val ℝ → Val ℝ
  | .fin x => .fin (x ^ 2)
  | .nan => .nan
  | _ => .pinf

/-- `np.sqrt`. -/
noncomputable def Val.sqrt : Val ℝ → Val ℝ
  | .fin x => if 0 ≤ x then .fin (√ x) else .nan
  | .nan => .nan
  | .pinf => .pinf
  | .ninf => .nan

/-- One chord of `chordlen` (_diffgeom.py 91) with NaN and Inf. -/
noncomputable def chordV (a b : List (Val ℝ)) : Val ℝ :=
  ((List.zipWith (fun x y => (y.sub x).sq) a b).foldl Val.add (.fin 0)).sqrt

/-- `is_singular` inside `nonsingular` (_diffgeom.py 62-64) on the rows of a non-empty curve. -/
noncomputable def isSingular (rows : List (List (Val ℝ))) : List Bool :=
  List.zipWith (· || ·)
    (rows.map fun r => r.any fun x => !x.isFin)
    ((Val.fin 1 :: List.zipWith chordV rows rows.tail).map fun x => x.isclose (.fin 0))

/-- `nonsingular` (_diffgeom.py 41-66, _base.py 2123-2141). For an empty curve the chord array is 0-d, so
arrays of length 0 and 2 meet in `|`: ValueError. -/
noncomputable def Curve.nonsingular (c : Curve (Val ℝ)) : Except PyErr (Curve (Val ℝ)) :=
  if c.rows = [] then .error .valueError
  else c.drop fun rows => .boolVec (isSingular rows)

end Verif.Model
