import Verif.Model.Cache
import Verif.Model.Registry

/-!
Several threads on one curve and on one registry.

The code takes no locks. `cached_property` (package cached-property) is a non-data descriptor: reading `curve.f` looks `f` up
in the instance dictionary; if it is missing the function is called, its value is stored under the name and returned. Another
thread may run between these steps, and between the steps of the function. The steps are what CPython's global interpreter
lock makes atomic: one dictionary lookup, one dictionary store, one allocation of a computed array, one use of the content of
an array. numpy may release the lock while it reads arrays; as long as nobody writes into them (C22) this cannot be
observed, so a use of a content is one step.
-/
namespace Verif.Model

open Verif Verif.Np

/-- The rest of what a thread does in one read of a property, cut where another thread may run. -/
inductive Prog
  | done (r : Except PyErr Nat)
  | look (f : PropName) (k : Option Nat → Prog)
  | store (f : PropName) (a : Nat) (k : Prog)
  | new (v : CVal) (k : Nat → Prog)
  | load (a : Nat) (k : CVal → Prog)

/-- `p`, then `k` with the array obtained; exceptions leave. -/
def Prog.bind : Prog → (Nat → Prog) → Prog
  | .done (.ok a), k => k a
  | .done (.error e), _ => .done (.error e)
  | .look f j, k => .look f fun o => (j o).bind k
  | .store f a j, k => .store f a (j.bind k)
  | .new v j, k => .new v fun a => (j a).bind k
  | .load a j, k => .load a fun v => (j v).bind k

/-- A new array. -/
def newP (v : CVal) : Prog := .new v fun a => .done (.ok a)

/-- Obtain an array and go on with its content. -/
def useP (m : Prog) (k : CVal → Prog) : Prog := m.bind fun a => .load a k

/-- `cached_property`: lookup, computation, store. -/
def memoP (f : PropName) (compute : Prog) : Prog :=
  .look f fun o => match o with
    | some a => .done (.ok a)
    | none => compute.bind fun a => .store f a (.done (.ok a))

section
variable (junk : ℝ) (c : Curve ℝ)

/-- `chordlen` (_base.py 1596-1607). -/
noncomputable def pChordlen : Prog := memoP .chordlen (newP (.chord (chordlen junk c)))

/-- `arclen` (_base.py 1609-1624). -/
noncomputable def pArclen : Prog := memoP .arclen (newP (.num (arclen junk c)))

/-- `cumarclen` (_diffgeom.py 226-240). -/
noncomputable def pCumarclen : Prog := memoP .cumarclen <|
  useP (pChordlen junk c) fun v => newP (.nums (0 :: v.asChord.cumsum id))

/-- `t` (_base.py 1568-1594). -/
noncomputable def pT : Prog := memoP .t <|
  match c.tdata with
  | some t => newP (.ronums t)
  | none => pCumarclen junk c

/-- `firstderiv` (_diffgeom.py 242-260). -/
noncomputable def pFirstderiv : Prog := memoP .firstderiv (newP (.mat (gradient c.mat)))

/-- `secondderiv` (262-279). -/
noncomputable def pSecondderiv : Prog := memoP .secondderiv <|
  useP (pFirstderiv c) fun v => newP (.mat (gradient v.asMat))

/-- `thirdderiv` (281-298). -/
noncomputable def pThirdderiv : Prog := memoP .thirdderiv <|
  useP (pSecondderiv c) fun v => newP (.mat (gradient v.asMat))

/-- `tangent` (300-320). -/
noncomputable def pTangent : Prog := memoP .tangent (pFirstderiv c)

/-- `frenet1` (419-452). -/
noncomputable def pFrenet1 : Prog := memoP .frenet1 <|
  if c.rows = [] then newP (.mat emptyMat)
  else useP (pTangent c) fun v => newP (.mat (unitRows v.asMat))

/-- `normal` (322-356). -/
noncomputable def pNormal : Prog := memoP .normal <|
  if c.rows = [] then newP (.mat emptyMat)
  else useP (pSecondderiv c) fun s => useP (pFrenet1 c) fun e1 => newP (.mat (reject s.asMat e1.asMat))

/-- `frenet2` (454-495). -/
noncomputable def pFrenet2 : Prog := memoP .frenet2 <|
  if c.rows = [] then newP (.mat emptyMat)
  else useP (pNormal c) fun v => newP (.mat (unitRows v.asMat))

/-- `binormal` (358-394). -/
noncomputable def pBinormal : Prog := memoP .binormal <|
  if c.rows = [] then newP (.mat emptyMat)
  else useP (pThirdderiv c) fun t => useP (pFrenet1 c) fun e1 => useP (pFrenet2 c) fun e2 =>
    newP (.mat (reject2 t.asMat e1.asMat e2.asMat))

/-- `frenet3` (497-537). -/
noncomputable def pFrenet3 : Prog := memoP .frenet3 <|
  if c.rows = [] then newP (.mat emptyMat)
  else useP (pBinormal c) fun v => newP (.mat (unitRows v.asMat))

/-- `speed` (396-417). -/
noncomputable def pSpeed : Prog := memoP .speed <|
  useP (pTangent c) fun v =>
    if c.rows = [] then .done (.error .valueError)
    else newP (.vals ((List.range c.size).map fun i => .fin (rowNorm v.asMat i)))

/-- `curvature` (539-602). -/
noncomputable def pCurvature : Prog := memoP .curvature <|
  if c.rows = [] then newP (.vals [])
  else if c.ndim = 2 then
    useP (pFirstderiv c) fun f =>
      if f.asMat.k < 2 then .done (.error .indexError)
      else useP (pSecondderiv c) fun s =>
        newP (.vals ((List.range c.size).map (curv2 f.asMat s.asMat)))
  else useP (pFrenet1 c) fun e1 => useP (pTangent c) fun t =>
    newP (.vals ((List.range c.size).map fun i =>
      Val.div (.fin (rowNorm (gradient e1.asMat) i)) (.fin (rowNorm t.asMat i))))

/-- `torsion` (604-638). -/
noncomputable def pTorsion : Prog := memoP .torsion <|
  if c.rows = [] then newP (.vals [])
  else useP (pFrenet2 c) fun e2 => useP (pTangent c) fun t => useP (pFrenet3 c) fun e3 =>
    newP (.vals ((List.range c.size).map fun i =>
      Val.div (.fin (dotRow (gradient e2.asMat) e3.asMat i)) (.fin (rowNorm t.asMat i))))

/-- Reading a property. -/
noncomputable def readP : PropName → Prog
  | .chordlen => pChordlen junk c
  | .arclen => pArclen junk c
  | .cumarclen => pCumarclen junk c
  | .t => pT junk c
  | .firstderiv => pFirstderiv c
  | .secondderiv => pSecondderiv c
  | .thirdderiv => pThirdderiv c
  | .tangent => pTangent c
  | .normal => pNormal c
  | .binormal => pBinormal c
  | .speed => pSpeed c
  | .frenet1 => pFrenet1 c
  | .frenet2 => pFrenet2 c
  | .frenet3 => pFrenet3 c
  | .curvature => pCurvature c
  | .torsion => pTorsion c

/-- One step of a thread inside of a read. -/
def Prog.step (s : CacheObj) : Prog → Prog × CacheObj
  | .done r => (.done r, s)
  | .look f k => (k (s.cache f), s)
  | .store f a k => (k, { s with cache := fun g => if g = f then some a else s.cache g })
  | .new v k => (k s.heap.length, { s with heap := s.heap ++ [v] })
  | .load a k => match s.heap[a]? with
    | some v => (k v, s)
    | none => (.done (.error .keyError), s)

/-- A read without other threads: all steps one after another. -/
def Prog.run : Prog → CacheObj → Except PyErr Nat × CacheObj
  | .done r, s => (r, s)
  | .look f k, s => (k (s.cache f)).run s
  | .store f a k, s => k.run { s with cache := fun g => if g = f then some a else s.cache g }
  | .new v k, s => (k s.heap.length).run { s with heap := s.heap ++ [v] }
  | .load a k, s => match s.heap[a]? with
    | some v => (k v).run s
    | none => (.error .keyError, s)

/-- A thread: the properties it has still to read, the read it is in, the results so far (oldest first). -/
structure Thread where
  todo : List PropName
  cur : Option (PropName × Prog)
  got : List (PropName × Except PyErr Nat)

/-- The curve object and the threads. -/
structure Sys where
  obj : CacheObj
  threads : List Thread

/-- A new curve object and threads that will read the given properties. -/
def Sys.start (plans : List (List PropName)) : Sys := ⟨CacheObj.new, plans.map fun fs => ⟨fs, none, []⟩⟩

/-- One step of one thread: begin the next read, end the present one, or a step inside of it. -/
noncomputable def Thread.step (s : CacheObj) (th : Thread) : Thread × CacheObj :=
  match th.cur with
  | some (f, .done r) => ({ th with cur := none, got := th.got ++ [(f, r)] }, s)
  | some (f, p) => let q := p.step s; ({ th with cur := some (f, q.1) }, q.2)
  | none => match th.todo with
    | [] => (th, s)
    | f :: fs => ({ th with todo := fs, cur := some (f, readP junk c f) }, s)

/-- The scheduler lets thread `i` make one step; numbers without a thread do nothing. -/
noncomputable def Sys.step (s : Sys) (i : Nat) : Sys :=
  match s.threads[i]? with
  | none => s
  | some th => let q := th.step junk c s.obj; ⟨q.2, s.threads.set i q.1⟩

/-- Any sequence of decisions of the scheduler. -/
noncomputable def Sys.run (s : Sys) (sched : List Nat) : Sys := sched.foldl (Sys.step junk c) s

end

/-! ## Registries -/

section
variable {ι : Type}

/-- The rest of a call of a registry function, cut where another thread may run. -/
inductive RProg (ι : Type)
  | done (r : Except PyErr (Option ι))
  | has (name : String) (k : Bool → RProg ι)
  | item (name : String)
  | set (name : String) (v : ι) (k : RProg ι)
  | setDefault (name : String) (k : RProg ι)

/-- `set_default_intersect_method` (_intersect.py 383-403): the test, then the assignment. -/
def setDefaultP (name : String) : RProg ι :=
  .has name fun b => if b = false then .done (.error .nameError) else .setDefault name (.done (.ok none))

/-- A call by a thread: `register_intersect_method` (_intersect.py 428-436; with `dflt = false` also
`register_interpolator`, _interpolate.py 391-396), `set_default_intersect_method`, and the lookup of
`get_intersect_method` (364-368) and `get_interpolator` (684-687). Listing the names is one step and not modelled here. -/
def regP : RegOp ι → RProg ι
  | .register name c dflt => .has name fun b =>
      if b then .done (.error .valueError)
      else if c.isSub = false then .done (.error .typeError)
      else .set name c.impl (if dflt then setDefaultP name else .done (.ok none))
  | .setDefault name => setDefaultP name
  | .lookup name => .has name fun b => if b = false then .done (.error .nameError) else .item name
  | .list => .done (.ok none)

/-- One step of a call. -/
def RProg.step (r : Reg ι) : RProg ι → RProg ι × Reg ι
  | .done x => (.done x, r)
  | .has name k => (k (r.has name), r)
  | .item name => (.done ((r.item name).map some), r)
  | .set name v k => (k, r.setItem name v)
  | .setDefault name k => (k, { r with default := some name })

/-- The registry and one call per thread. -/
structure RSys (ι : Type) where
  reg : Reg ι
  calls : List (RProg ι)

/-- All threads are about to make their calls. -/
def RSys.start (r : Reg ι) (ops : List (RegOp ι)) : RSys ι := ⟨r, ops.map regP⟩

/-- Thread `i` makes one step. -/
def RSys.step (s : RSys ι) (i : Nat) : RSys ι :=
  match s.calls[i]? with
  | none => s
  | some p => let q := p.step s.reg; ⟨q.2, s.calls.set i q.1⟩

/-- Any sequence of decisions of the scheduler. -/
def RSys.run (s : RSys ι) (sched : List Nat) : RSys ι := sched.foldl RSys.step s

end

end Verif.Model
