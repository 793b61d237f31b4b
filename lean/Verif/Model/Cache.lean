import Verif.Model.DiffGeom

/-!
Model of the lazily computed properties of a curve: `cached_property` (package cached-property: the value returned by
the function is stored in the instance dictionary under the name of the function and returned by later reads) applied
to the properties of skcurve/_base.py 1568-1624 and skcurve/_diffgeom.py 226-638.

Arrays live in a heap, so that properties that return the array of another property (`tangent`, `t`) share it, and so
that a user can write into a returned array. `_data` and `_tdata` are read-only arrays (_base.py 1158, 1166), all
computed arrays are writeable.
-/
namespace Verif.Model

open Verif Verif.Np

/-- A stored value. -/
inductive CVal
  | chord (a : NArr)
  | num (x : ℝ)
  | nums (xs : List ℝ)
  | ronums (xs : List ℝ)
  | vals (xs : List (Val ℝ))
  | mat (a : NMat)

/-- The value as seen by the user. -/
noncomputable def CVal.seen : CVal → PropVal
  | .chord (.vec xs) => .nums (xs.map .fin)
  | .chord (.scalar x) => .num x
  | .num x => .num x
  | .nums xs => .nums (xs.map .fin)
  | .ronums xs => .nums (xs.map .fin)
  | .vals xs => .nums xs
  | .mat a => .rows a.rows

def CVal.asChord : CVal → NArr
  | .chord a => a
  | _ => .vec []

def CVal.asMat : CVal → NMat
  | .mat a => a
  | _ => ⟨0, 0, fun _ _ => 0⟩

/-- The mutable part of a curve object: its instance dictionary and the arrays. -/
structure CacheObj where
  cache : PropName → Option Nat
  heap : List CVal

/-- A just constructed curve. -/
def CacheObj.new : CacheObj := ⟨fun _ => none, []⟩

/-- A computation on the object. -/
abbrev CacheM := CacheObj → Except PyErr Nat × CacheObj

/-- A new array. -/
def alloc (v : CVal) : CacheM := fun s => (.ok s.heap.length, { s with heap := s.heap ++ [v] })

/-- Failure. -/
def raise (e : PyErr) : CacheM := fun s => (.error e, s)

/-- Obtain an array and go on with its present content. -/
def useVal (m : CacheM) (k : CVal → CacheM) : CacheM := fun s =>
  match m s with
  | (.error e, s') => (.error e, s')
  | (.ok a, s') => match s'.heap[a]? with
    | some v => k v s'
    | none => (.error .keyError, s')

/-- `cached_property`. -/
def memo (f : PropName) (compute : CacheM) : CacheM := fun s =>
  match s.cache f with
  | some a => (.ok a, s)
  | none => match compute s with
    | (.error e, s') => (.error e, s')
    | (.ok a, s') => (.ok a, { s' with cache := fun g => if g = f then some a else s'.cache g })

/-- An array without rows. -/
def emptyMat : NMat := ⟨0, 0, fun _ _ => 0⟩

section
variable (junk : ℝ) (c : Curve ℝ)

/-- `chordlen` (_base.py 1596-1607). -/
noncomputable def getChordlen : CacheM := memo .chordlen (alloc (.chord (chordlen junk c)))

/-- `arclen` (_base.py 1609-1624): calls `_diffgeom.arclen`, which does not use the cached chord lengths. -/
noncomputable def getArclen : CacheM := memo .arclen (alloc (.num (arclen junk c)))

/-- `cumarclen` (_diffgeom.py 226-240). -/
noncomputable def getCumarclen : CacheM := memo .cumarclen <|
  useVal (getChordlen junk c) fun v => alloc (.nums (0 :: v.asChord.cumsum id))

/-- `t` (_base.py 1568-1594): the read-only parameter array or the cumulative lengths themselves. -/
noncomputable def getT : CacheM := memo .t <|
  match c.tdata with
  | some t => alloc (.ronums t)
  | none => getCumarclen junk c

/-- `firstderiv` (_diffgeom.py 242-260). -/
noncomputable def getFirstderiv : CacheM := memo .firstderiv (alloc (.mat (gradient c.mat)))

/-- `secondderiv` (262-279). -/
noncomputable def getSecondderiv : CacheM := memo .secondderiv <|
  useVal (getFirstderiv c) fun v => alloc (.mat (gradient v.asMat))

/-- `thirdderiv` (281-298). -/
noncomputable def getThirdderiv : CacheM := memo .thirdderiv <|
  useVal (getSecondderiv c) fun v => alloc (.mat (gradient v.asMat))

/-- `tangent` (300-320): the array of `firstderiv`. -/
noncomputable def getTangent : CacheM := memo .tangent (getFirstderiv c)

/-- `frenet1` (419-452). -/
noncomputable def getFrenet1 : CacheM := memo .frenet1 <|
  if c.rows = [] then alloc (.mat emptyMat)
  else useVal (getTangent c) fun v => alloc (.mat (unitRows v.asMat))

/-- `normal` (322-356). -/
noncomputable def getNormal : CacheM := memo .normal <|
  if c.rows = [] then alloc (.mat emptyMat)
  else useVal (getSecondderiv c) fun s => useVal (getFrenet1 c) fun e1 => alloc (.mat (reject s.asMat e1.asMat))

/-- `frenet2` (454-495). -/
noncomputable def getFrenet2 : CacheM := memo .frenet2 <|
  if c.rows = [] then alloc (.mat emptyMat)
  else useVal (getNormal c) fun v => alloc (.mat (unitRows v.asMat))

/-- `binormal` (358-394). -/
noncomputable def getBinormal : CacheM := memo .binormal <|
  if c.rows = [] then alloc (.mat emptyMat)
  else useVal (getThirdderiv c) fun t => useVal (getFrenet1 c) fun e1 => useVal (getFrenet2 c) fun e2 =>
    alloc (.mat (reject2 t.asMat e1.asMat e2.asMat))

/-- `frenet3` (497-537). -/
noncomputable def getFrenet3 : CacheM := memo .frenet3 <|
  if c.rows = [] then alloc (.mat emptyMat)
  else useVal (getBinormal c) fun v => alloc (.mat (unitRows v.asMat))

/-- `speed` (396-417); `norm(axis=1)` of the 1-D empty array of an empty curve fails. -/
noncomputable def getSpeed : CacheM := memo .speed <|
  useVal (getTangent c) fun v =>
    if c.rows = [] then raise .valueError
    else alloc (.vals ((List.range c.size).map fun i => .fin (rowNorm v.asMat i)))

/-- Signed curvature from the two derivatives (588-594). -/
noncomputable def curv2 (f s : NMat) (i : Nat) : Val ℝ :=
  Val.div (.fin (s.v i 1 * f.v i 0 - s.v i 0 * f.v i 1))
    (.fin ((f.v i 0 * f.v i 0 + f.v i 1 * f.v i 1) * √ (f.v i 0 * f.v i 0 + f.v i 1 * f.v i 1)))

/-- `curvature` (539-602). -/
noncomputable def getCurvature : CacheM := memo .curvature <|
  if c.rows = [] then alloc (.vals [])
  else if c.ndim = 2 then
    useVal (getFirstderiv c) fun f =>
      if f.asMat.k < 2 then raise .indexError
      else useVal (getSecondderiv c) fun s =>
        alloc (.vals ((List.range c.size).map (curv2 f.asMat s.asMat)))
  else useVal (getFrenet1 c) fun e1 => useVal (getTangent c) fun t =>
    alloc (.vals ((List.range c.size).map fun i =>
      Val.div (.fin (rowNorm (gradient e1.asMat) i)) (.fin (rowNorm t.asMat i))))

/-- `torsion` (604-638). -/
noncomputable def getTorsion : CacheM := memo .torsion <|
  if c.rows = [] then alloc (.vals [])
  else useVal (getFrenet2 c) fun e2 => useVal (getTangent c) fun t => useVal (getFrenet3 c) fun e3 =>
    alloc (.vals ((List.range c.size).map fun i =>
      Val.div (.fin (dotRow (gradient e2.asMat) e3.asMat i)) (.fin (rowNorm t.asMat i))))

/-- Reading a property: the address of the array. -/
noncomputable def readProp : PropName → CacheM
  | .chordlen => getChordlen junk c
  | .arclen => getArclen junk c
  | .cumarclen => getCumarclen junk c
  | .t => getT junk c
  | .firstderiv => getFirstderiv c
  | .secondderiv => getSecondderiv c
  | .thirdderiv => getThirdderiv c
  | .tangent => getTangent c
  | .normal => getNormal c
  | .binormal => getBinormal c
  | .speed => getSpeed c
  | .frenet1 => getFrenet1 c
  | .frenet2 => getFrenet2 c
  | .frenet3 => getFrenet3 c
  | .curvature => getCurvature c
  | .torsion => getTorsion c

/-- Reading a property: what the user sees. -/
noncomputable def readSeen (f : PropName) (s : CacheObj) : Except PyErr PropVal × CacheObj :=
  match readProp junk c f s with
  | (.error e, s') => (.error e, s')
  | (.ok a, s') => match s'.heap[a]? with
    | some v => (.ok v.seen, s')
    | none => (.error .keyError, s')

/-- The object after a series of reads (errors are caught by the caller). -/
noncomputable def afterReads (fs : List PropName) (s : CacheObj) : CacheObj :=
  fs.foldl (fun s f => (readSeen junk c f s).2) s

end

/-- In-place assignment to all of a returned array. Python floats and the read-only parameter array refuse. -/
def writeAt (a : Nat) (v : CVal) (s : CacheObj) : Except PyErr CacheObj :=
  match s.heap[a]? with
  | some (.num _) => .error .typeError
  | some (.ronums _) => .error .valueError
  | some _ => .ok { s with heap := s.heap.set a v }
  | none => .error .keyError

end Verif.Model
