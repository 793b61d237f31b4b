import Verif.Model.Cache

/-!
The warnings of the computed properties of a curve (skcurve/_diffgeom.py 118-166, 419-537): which `warnings.warn` calls are
made, in order, by which property. A warning is issued where the property is computed, not where the stored value is read.
Warnings of numpy itself (division by zero) are not modelled, nor a warning filter that turns warnings into exceptions.
-/
namespace Verif.Model

open Verif Verif.Np

/-- The texts of the warnings. -/
inductive WarnKind
  | few (points needed : Nat)
  | cannot
  | undefined
  deriving DecidableEq, Repr

/-- A warning and the property that was being computed. -/
abbrev Warn := PropName × WarnKind

/-- The loop of `_gradient` over the edge orders (_diffgeom.py 142-152): a warning for every order that needs more rows, and one
if none is left. -/
def gradLoop (m : Nat) : List Nat → List WarnKind
  | [] => [.cannot]
  | o :: os => if m < o + 1 then .few m (o + 1) :: gradLoop m os else []

/-- The warnings of `_gradient` of an array with `m` rows (139-152); `edge_order` is 2 in all calls. -/
def gradWarns (m : Nat) : List WarnKind := if m = 0 then [] else gradLoop m [2, 1]

/-- The warning of `_frenet_vector_norm` (157-166). -/
noncomputable def normWarns (a : NMat) : List WarnKind :=
  open Classical in if ∃ i < a.m, closeK (rowNorm a i) 0 then [.undefined] else []

/-- A computation on the object and the warnings it issues. -/
abbrev WarnM := CacheObj → (Except PyErr Nat × CacheObj) × List Warn

/-- Issue warnings. -/
def emit (f : PropName) (ws : List WarnKind) (m : WarnM) : WarnM := fun s =>
  ((m s).1, ws.map (fun w => (f, w)) ++ (m s).2)

/-- A computation without warnings. -/
def quiet (m : CacheM) : WarnM := fun s => (m s, [])

/-- Obtain an array and go on with its present content. -/
def useW (m : WarnM) (k : CVal → WarnM) : WarnM := fun s =>
  match m s with
  | ((.error e, s'), ws) => ((.error e, s'), ws)
  | ((.ok a, s'), ws) => match s'.heap[a]? with
    | some v => ((k v s').1, ws ++ (k v s').2)
    | none => ((.error .keyError, s'), ws)

/-- `cached_property`. -/
def memoW (f : PropName) (compute : WarnM) : WarnM := fun s =>
  match s.cache f with
  | some a => ((.ok a, s), [])
  | none => match compute s with
    | ((.error e, s'), ws) => ((.error e, s'), ws)
    | ((.ok a, s'), ws) => ((.ok a, { s' with cache := fun g => if g = f then some a else s'.cache g }), ws)

section
variable (junk : ℝ) (c : Curve ℝ)

/-- `chordlen` (_base.py 1596-1607). -/
noncomputable def wChordlen : WarnM := memoW .chordlen (quiet (alloc (.chord (chordlen junk c))))

/-- `arclen` (_base.py 1609-1624). -/
noncomputable def wArclen : WarnM := memoW .arclen (quiet (alloc (.num (arclen junk c))))

/-- `cumarclen` (_diffgeom.py 226-240). -/
noncomputable def wCumarclen : WarnM := memoW .cumarclen <|
  useW (wChordlen junk c) fun v => quiet (alloc (.nums (0 :: v.asChord.cumsum id)))

/-- `t` (_base.py 1568-1594). -/
noncomputable def wT : WarnM := memoW .t <|
  match c.tdata with
  | some t => quiet (alloc (.ronums t))
  | none => wCumarclen junk c

/-- `firstderiv` (_diffgeom.py 242-260). -/
noncomputable def wFirstderiv : WarnM := memoW .firstderiv <|
  emit .firstderiv (gradWarns c.mat.m) (quiet (alloc (.mat (gradient c.mat))))

/-- `secondderiv` (262-279). -/
noncomputable def wSecondderiv : WarnM := memoW .secondderiv <|
  useW (wFirstderiv c) fun v => emit .secondderiv (gradWarns v.asMat.m) (quiet (alloc (.mat (gradient v.asMat))))

/-- `thirdderiv` (281-298). -/
noncomputable def wThirdderiv : WarnM := memoW .thirdderiv <|
  useW (wSecondderiv c) fun v => emit .thirdderiv (gradWarns v.asMat.m) (quiet (alloc (.mat (gradient v.asMat))))

/-- `tangent` (300-320). -/
noncomputable def wTangent : WarnM := memoW .tangent (wFirstderiv c)

/-- `frenet1` (419-452). -/
noncomputable def wFrenet1 : WarnM := memoW .frenet1 <|
  if c.rows = [] then quiet (alloc (.mat emptyMat))
  else useW (wTangent c) fun v => emit .frenet1 (normWarns v.asMat) (quiet (alloc (.mat (unitRows v.asMat))))

/-- `normal` (322-356). -/
noncomputable def wNormal : WarnM := memoW .normal <|
  if c.rows = [] then quiet (alloc (.mat emptyMat))
  else useW (wSecondderiv c) fun s => useW (wFrenet1 c) fun e1 => quiet (alloc (.mat (reject s.asMat e1.asMat)))

/-- `frenet2` (454-495). -/
noncomputable def wFrenet2 : WarnM := memoW .frenet2 <|
  if c.rows = [] then quiet (alloc (.mat emptyMat))
  else useW (wNormal c) fun v => emit .frenet2 (normWarns v.asMat) (quiet (alloc (.mat (unitRows v.asMat))))

/-- `binormal` (358-394). -/
noncomputable def wBinormal : WarnM := memoW .binormal <|
  if c.rows = [] then quiet (alloc (.mat emptyMat))
  else useW (wThirdderiv c) fun t => useW (wFrenet1 c) fun e1 => useW (wFrenet2 c) fun e2 =>
    quiet (alloc (.mat (reject2 t.asMat e1.asMat e2.asMat)))

/-- `frenet3` (497-537). -/
noncomputable def wFrenet3 : WarnM := memoW .frenet3 <|
  if c.rows = [] then quiet (alloc (.mat emptyMat))
  else useW (wBinormal c) fun v => emit .frenet3 (normWarns v.asMat) (quiet (alloc (.mat (unitRows v.asMat))))

/-- `speed` (396-417). -/
noncomputable def wSpeed : WarnM := memoW .speed <|
  useW (wTangent c) fun v =>
    if c.rows = [] then quiet (raise .valueError)
    else quiet (alloc (.vals ((List.range c.size).map fun i => .fin (rowNorm v.asMat i))))

/-- `curvature` (539-602): in other dimensions than two `_gradient` is called once more (597). -/
noncomputable def wCurvature : WarnM := memoW .curvature <|
  if c.rows = [] then quiet (alloc (.vals []))
  else if c.ndim = 2 then
    useW (wFirstderiv c) fun f =>
      if f.asMat.k < 2 then quiet (raise .indexError)
      else useW (wSecondderiv c) fun s =>
        quiet (alloc (.vals ((List.range c.size).map (curv2 f.asMat s.asMat))))
  else useW (wFrenet1 c) fun e1 => emit .curvature (gradWarns e1.asMat.m) <| useW (wTangent c) fun t =>
    quiet (alloc (.vals ((List.range c.size).map fun i =>
      Val.div (.fin (rowNorm (gradient e1.asMat) i)) (.fin (rowNorm t.asMat i)))))

/-- `torsion` (604-638): `_gradient` is called before the third Frenet vectors are read (635-638). -/
noncomputable def wTorsion : WarnM := memoW .torsion <|
  if c.rows = [] then quiet (alloc (.vals []))
  else useW (wFrenet2 c) fun e2 => emit .torsion (gradWarns e2.asMat.m) <| useW (wTangent c) fun t =>
    useW (wFrenet3 c) fun e3 =>
    quiet (alloc (.vals ((List.range c.size).map fun i =>
      Val.div (.fin (dotRow (gradient e2.asMat) e3.asMat i)) (.fin (rowNorm t.asMat i)))))

/-- Reading a property. -/
noncomputable def readW : PropName → WarnM
  | .chordlen => wChordlen junk c
  | .arclen => wArclen junk c
  | .cumarclen => wCumarclen junk c
  | .t => wT junk c
  | .firstderiv => wFirstderiv c
  | .secondderiv => wSecondderiv c
  | .thirdderiv => wThirdderiv c
  | .tangent => wTangent c
  | .normal => wNormal c
  | .binormal => wBinormal c
  | .speed => wSpeed c
  | .frenet1 => wFrenet1 c
  | .frenet2 => wFrenet2 c
  | .frenet3 => wFrenet3 c
  | .curvature => wCurvature c
  | .torsion => wTorsion c

/-- A series of reads: the object afterwards and all warnings, oldest first (errors are caught by the caller). -/
noncomputable def readsW : List PropName → CacheObj → CacheObj × List Warn
  | [], s => (s, [])
  | f :: fs, s => let r := readW junk c f s; let q := readsW fs r.1.2; (q.1, r.2 ++ q.2)

end

end Verif.Model
