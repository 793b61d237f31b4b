import Verif.Model.IntersectObj
import Verif.Model.Interp

/-!
The other warnings of the library: segments (_geomalg.py), exact intersections and `intersect` (_intersect.py), interpolators
(_interpolate.py) and the construction of curves (_base.py). Every definition is the one without warnings, with the
`warnings.warn` calls in their places; arithmetic is exact. Not modelled: a warning filter that turns warnings into exceptions.
-/
namespace Verif.Model

open Verif Verif.Np

/-- The texts of the warnings. -/
inductive MoreWarn
  | notCollinear
  | someNotCollinear
  | residuals
  | degenerate
  | cannotSolve
  | incorrect
  | paramsIgnored
  | emptyCurve
  | gridRange
  | tdataIgnored
  | axisIgnored
  deriving DecidableEq, Repr

section
variable {n : Nat} {K : Type} [Field K] [LinearOrder K] [IsStrictOrderedRing K]

/-- The sum of squares that `np.linalg.lstsq` returns for a one-column matrix; empty (`none`) if the column is 0 or there is only
one row. -/
def residual1 (a b : Vec n K) (t : K) : Option K :=
  if 1 < n ∧ a ≠ 0 then some (vdot (b - t • a) (b - t • a)) else none

/-- `residuals.size > 0 and residuals[0] > eps`. -/
def tooLarge (r : Option K) (eps : K) : Bool :=
  match r with
  | some x => decide (x > eps)
  | none => false

/-- `segment_t` for one point (_geomalg.py 85-109). -/
noncomputable def Seg.tW (s : Seg n K) (p : Vec n K) : Option K × List MoreWarn :=
  if !s.collinear (.point p) then (none, [.notCollinear])
  else
    let t := lstsq1 s.direction (p - s.p1)
    (some t, if tooLarge (residual1 s.direction (p - s.p1) t) F_EPS then [.residuals] else [])

/-- `segment_t` for a sequence of points (_geomalg.py 92-117): `residuals[0]` belongs to the first point. -/
noncomputable def Seg.tsW (s : Seg n K) (ps : List (Vec n K)) : Except PyErr (List (Option K)) × List MoreWarn :=
  let isCollinear := ps.map fun p => s.collinear (.point p)
  match ps with
  | [] => (.error .valueError, [])
  | p0 :: _ =>
    let t := ps.map fun p => some (lstsq1 s.direction (p - s.p1))
    let w1 := if tooLarge (residual1 s.direction (p0 - s.p1) (lstsq1 s.direction (p0 - s.p1))) F_EPS then [MoreWarn.residuals] else []
    if isCollinear.all id then (.ok t, w1)
    else if ps.length = 1 then (.error .indexError, w1 ++ [.someNotCollinear])
    else (.ok (List.zipWith (fun c x => if c then x else none) isCollinear t), w1 ++ [.someNotCollinear])

/-- `segments_angle` (_geomalg.py 120-160). -/
noncomputable def Seg.angleW {n : Nat} (s r : Seg n ℝ) (rd : ℝ → ℝ) : Option ℝ × List MoreWarn :=
  let u1 := s.direction
  let u2 := r.direction
  let den := vnorm u1 * vnorm u2
  if closeK den 0 = true then (none, [.degenerate])
  else
    let cosPhi := rd (vdot u1 u2 / den)
    let cosPhi := if cosPhi > 1 then 1 else cosPhi
    let cosPhi := if cosPhi < -1 then -1 else cosPhi
    (some (Real.arccos cosPhi), [])

/-- The last part of `ExactIntersectionMethod._intersect_segments` (_intersect.py 506-523). -/
def exactFinishW (feps : K) (s r : Seg n K) (t : K × K) : Except PyErr (Info n K) × List MoreWarn :=
  if inUnit t.1 && inUnit t.2 then
    let p1 := s.point t.1
    let p2 := r.point t.2
    if vecEq p1 p2 = false ∧ (feps < 0 ∨ vdot (p1 - p2) (p1 - p2) > feps * feps) then (.ok notIntersected, [.incorrect])
    else (IType.exact.call (.point p1), [])
  else (.ok notIntersected, [])

/-- The residuals of the n x 2 system with columns `u`, `-v` (_intersect.py 500): empty unless there are more than two rows and the
columns are independent. -/
def residual2 (u v b : Vec n K) (t : K × K) : Option K :=
  if 2 < n ∧ vdot u u * vdot v v - vdot u v * vdot u v ≠ 0 then
    some (vdot (b - (t.1 • u - t.2 • v)) (b - (t.1 • u - t.2 • v)))
  else none

/-- `ExactIntersectionMethod._intersect_segments` (_intersect.py 467-523). -/
noncomputable def exactSegmentsW (feps : K) (s r : Seg n K) : Except PyErr (Info n K) × List MoreWarn :=
  if s.collinear (.seg r) then
    match s.overlap r false with
    | none => (.ok notIntersected, [])
    | some o => (IType.overlap.call (.segment o), [])
  else if s.parallel r F_EPS then (.ok notIntersected, [])
  else
    match s.coplanar (.seg r) with
    | .error e => (.error e, [])
    | .ok cop =>
      if !cop then (.ok notIntersected, [])
      else if s.singular || r.singular then (.ok notIntersected, [])
      else
        let b := r.p1 - s.p1
        if h : n = 2 then
          match solve2 h s.direction r.direction b with
          | none => (.ok notIntersected, [.cannotSolve])
          | some t => exactFinishW feps s r t
        else
          let t := lstsq2 s.direction r.direction b
          let q := exactFinishW feps s r t
          (q.1, (if tooLarge (residual2 s.direction r.direction b t) feps then [.residuals] else []) ++ q.2)

/-- The loop of `_intersect_curves` (_intersect.py 533-540). -/
def collectW (f : SegObj n K → SegObj n K → Except PyErr (Info n K) × List MoreWarn) (c1 c2 : GCurve n K) :
    List (Nat × Nat) → Except PyErr (List (SegInt n K)) × List MoreWarn
  | [] => (.ok [], [])
  | ij :: rest =>
    match f (c1.segment ij.1) (c2.segment ij.2) with
    | (.error e, ws) => (.error e, ws)
    | (.ok info, ws) =>
      let q := collectW f c1 c2 rest
      (q.1.map fun tail => if info.type ≠ .none then ⟨c1.segment ij.1, c2.segment ij.2, info⟩ :: tail else tail, ws ++ q.2)

/-- `ExactIntersectionMethod._intersect_curves` (_intersect.py 525-542). -/
noncomputable def exactCurvesW (feps : K) (c1 c2 : GCurve n K) : Except PyErr (List (SegInt n K)) × List MoreWarn :=
  collectW (fun s r => exactSegmentsW feps s.seg r.seg) c1 c2 (bboxPairs c1 c2)

end

/-- `intersect` (_intersect.py 749-809), without the warnings of the method itself. -/
noncomputable def intersectW (reg : Reg (IClass IObj IKwargs IRes)) (o1 o2 : IObj) (method : MethodArg IObj IRes) (kw : IKwargs) :
    Except PyErr IRes × List MoreWarn :=
  let method := resolveMethod reg method
  match getNdim o1, getNdim o2 with
  | .error e, _ => (.error e, [])
  | _, .error e => (.error e, [])
  | .ok d1, .ok d2 =>
    if d1 ≠ d2 then (.error .valueError, [])
    else match method with
      | .name s => (do let m ← getIntersectMethod reg s kw; wrapErr .intersectionError (m o1 o2), [])
      | .inst m => (wrapErr .intersectionError (m o1 o2), if kw.isEmpty then [] else [.paramsIgnored])
      | _ => (.error .valueError, [])

/-- `InterpolatorBase.__call__` (_interpolate.py 282-304). -/
noncomputable def interpolatorCallW (junk : ℝ) (c : Curve ℝ) (impl : InterpImpl) (spec : GridSpec) :
    Except PyErr (Curve (Val ℝ)) × List MoreWarn :=
  if c.size = 0 then (Curve.init (.seq []) none none (some c.ndim) (some c.dtype), [.emptyCurve])
  else if c.size = 1 then (.error .valueError, [])
  else match getGrid junk c spec with
    | .error e => (.error e, [])
    | .ok (grid, w) =>
      ((do
        let (data, dt) ← wrapErr .interpolationError (impl grid)
        let tdata := if c.isparametric then some grid else none
        Curve.init (.arr data dt) tdata none none (some c.dtype)), if w then [.gridRange] else [])

/-- `Curve.__init__` (_base.py 1095-1168): the arguments a curve makes superfluous (1116-1128) are replaced. -/
def Curve.initW {α : Type} [Elem α] (data : CurveData α) (tdata : Option (List α)) (axis ndmin : Option Int)
    (dtype : Option DType) : Except PyErr (Curve α) × List MoreWarn :=
  if ndmin.getD 2 < 2 then (.error .valueError, [])
  else match data with
    | .curve c =>
      let w1 := if tdata.isSome then [MoreWarn.tdataIgnored] else []
      let w2 := if axis.isSome then [MoreWarn.axisIgnored] else []
      let tdata := if c.isparametric then c.tdata else none
      (Curve.init (.arr (NdArr.ofRows Elem.zero c.rows c.ncols) c.dtype) tdata (some 0) ndmin dtype, w1 ++ w2)
    | data => (Curve.init data tdata axis ndmin dtype, [])

end Verif.Model
