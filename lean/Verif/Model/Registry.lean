import Verif.Np.Err

/-!
The registries of methods: `_intersect.py` 36-37, 320-438, `_interpolate.py` 32, 375-397, 641-693, `_smooth.py` 21,
54-121, and the dispatchers `intersect` (_intersect.py 749-809), `get_interpolator`, `interpolate`
(_interpolate.py 654-726), `smooth` (_smooth.py 181-219).

A registry is the dict, as a list of pairs in insertion order, and the default name. A function that changes the
registry returns the new state together with its outcome.
-/
namespace Verif.Model

open Verif

/-- What is given to a registering decorator: an object and whether `issubclass(cls, Base)` holds for it. For an object
that is not a class `issubclass` itself raises a TypeError, the same outcome as for a class that is not a subclass. -/
structure Cand (ι : Type) where
  impl : ι
  isSub : Bool

/-- The module state. -/
structure Reg (ι : Type) where
  entries : List (String × ι)
  default : Option String

variable {ι : Type}

/-- The state before the first registration (_intersect.py 36-37, _interpolate.py 32, _smooth.py 21). -/
def Reg.empty : Reg ι := ⟨[], none⟩

/-- `intersect_methods`, `interp_methods`, `smooth_methods` (_intersect.py 320-335, _interpolate.py 641-651,
_smooth.py 78-92): `list(d.keys())`. -/
def Reg.names (r : Reg ι) : List String := r.entries.map Prod.fst

/-- `name in d`. -/
def Reg.has (r : Reg ι) (name : String) : Bool := r.entries.any fun e => e.1 == name

/-- `d[name]`. -/
def Reg.item (r : Reg ι) (name : String) : Except PyErr ι :=
  match r.entries.find? fun e => e.1 == name with
  | some e => .ok e.2
  | none => .error .keyError

/-- `d[name] = v`: replaces the value of an existing key in place, otherwise appends. -/
def Reg.setItem (r : Reg ι) (name : String) (v : ι) : Reg ι :=
  if r.has name then { r with entries := r.entries.map fun e => if e.1 == name then (name, v) else e }
  else { r with entries := r.entries ++ [(name, v)] }

/-- The class lookup of `get_intersect_method` (_intersect.py 364-368). -/
def getIntersectClass (r : Reg ι) (name : String) : Except PyErr ι :=
  if r.has name = false then .error .nameError else r.item name

/-- `set_default_intersect_method` (_intersect.py 383-403). -/
def setDefaultIntersect (r : Reg ι) (name : String) : Reg ι × Except PyErr Unit :=
  if r.has name = false then (r, .error .nameError) else ({ r with default := some name }, .ok ())

/-- The decorator of `register_intersect_method` (_intersect.py 428-436). -/
def registerIntersect (r : Reg ι) (name : String) (c : Cand ι) (dflt : Bool) : Reg ι × Except PyErr Unit :=
  if r.has name then (r, .error .valueError)
  else if c.isSub = false then (r, .error .typeError)
  else
    let r := r.setItem name c.impl
    if dflt then setDefaultIntersect r name else (r, .ok ())

/-- The decorator of `register_interpolator` (_interpolate.py 391-396). -/
def registerInterp (r : Reg ι) (name : String) (c : Cand ι) : Reg ι × Except PyErr Unit :=
  if r.has name then (r, .error .valueError)
  else if c.isSub = false then (r, .error .typeError)
  else (r.setItem name c.impl, .ok ())

/-- The class lookup of `get_interpolator` (_interpolate.py 684-687). -/
def getInterpClass (r : Reg ι) (name : String) : Except PyErr ι :=
  if r.has name = false then .error .nameError else r.item name

/-- The decorator of `register_smooth_method` (_smooth.py 69-73). There is no test of the object. -/
def registerSmooth (r : Reg ι) (name : String) (c : Cand ι) : Reg ι × Except PyErr Unit :=
  if r.has name then (r, .error .valueError)
  else (r.setItem name c.impl, .ok ())

/-- `get_smooth_method` (_smooth.py 118-121). -/
def getSmooth (r : Reg ι) (name : String) : Except PyErr ι :=
  if r.has name = false then .error .nameError else r.item name

/-- Calls of the module functions. -/
inductive RegOp (ι : Type)
  | register (name : String) (c : Cand ι) (dflt : Bool)
  | setDefault (name : String)
  | lookup (name : String)
  | list

/-- One call on the registry of intersection methods. -/
def stepIntersect (r : Reg ι) : RegOp ι → Reg ι
  | .register name c dflt => (registerIntersect r name c dflt).1
  | .setDefault name => (setDefaultIntersect r name).1
  | .lookup _ => r
  | .list => r

/-- One call on the registry of interpolators (there is no default). -/
def stepInterp (r : Reg ι) : RegOp ι → Reg ι
  | .register name c _ => (registerInterp r name c).1
  | _ => r

/-- One call on the registry of smoothing methods (there is no default). -/
def stepSmooth (r : Reg ι) : RegOp ι → Reg ι
  | .register name c _ => (registerSmooth r name c).1
  | _ => r

/-- The registrations made by importing `_intersect.py` (441, 593). -/
def importIntersect (exact almost : ι) : List (RegOp ι) :=
  [.register "exact" ⟨exact, true⟩ true, .register "almost" ⟨almost, true⟩ false]

/-! ## Dispatch -/

section
variable {O P R : Type}

/-- An object given to `intersect`: the attribute `ndim`, if there is one. -/
class HasNdim (O : Type) where
  ndim : O → Option Nat

/-- An intersection method object: any behaviour of its `__call__`. -/
abbrev IMethod (O R : Type) := O → O → Except PyErr R

/-- A method class: any behaviour of its constructor. -/
abbrev IClass (O P R : Type) := P → Except PyErr (IMethod O R)

/-- The argument `method` of `intersect`: None, a string, an instance of a subclass of `IntersectionMethodBase`,
anything else. -/
inductive MethodArg (O R : Type)
  | none
  | name (s : String)
  | inst (m : IMethod O R)
  | other

/-- `obj.ndim`. -/
def getNdim [HasNdim O] (o : O) : Except PyErr Nat :=
  match HasNdim.ndim o with
  | some d => .ok d
  | none => .error .attributeError

/-- `get_intersect_method` (_intersect.py 339-368). -/
def getIntersectMethod (r : Reg (IClass O P R)) (name : String) (params : P) : Except PyErr (IMethod O R) := do
  let cls ← getIntersectClass r name
  cls params

/-- The default replaces None (_intersect.py 789-790); before any registration the default itself is None, which is then
neither a string nor a method object. -/
def resolveMethod (r : Reg (IClass O P R)) : MethodArg O R → MethodArg O R
  | .none => match r.default with
    | some s => .name s
    | Option.none => .other
  | m => m

/-- The choice of the method (_intersect.py 795-804). -/
def chooseMethod (r : Reg (IClass O P R)) (params : P) : MethodArg O R → Except PyErr (IMethod O R)
  | .name s => getIntersectMethod r s params
  | .inst m => .ok m
  | _ => .error .valueError

/-- `try: return f() except Exception as err: raise E from err`. -/
def wrapErr (e : PyErr) (x : Except PyErr R) : Except PyErr R :=
  match x with
  | .ok a => .ok a
  | .error _ => .error e

/-- `intersect` (_intersect.py 749-809). -/
def intersectCall [HasNdim O] (r : Reg (IClass O P R)) (o1 o2 : O) (method : MethodArg O R) (params : P) : Except PyErr R := do
  let method := resolveMethod r method
  let d1 ← getNdim o1
  let d2 ← getNdim o2
  if d1 ≠ d2 then .error .valueError
  else
    let m ← chooseMethod r params method
    wrapErr .intersectionError (m o1 o2)

/-- An interpolator class: constructor, then `__call__` with the grid specification (`D` is the type of the result). -/
abbrev PClass (C P G D : Type) := C → P → Except PyErr (G → Except PyErr D)

/-- `get_interpolator` (_interpolate.py 654-693). -/
def getInterpolator {C G D : Type} (r : Reg (PClass C P G D)) (name : String) (c : C) (params : P) :
    Except PyErr (G → Except PyErr D) := do
  let cls ← getInterpClass r name
  wrapErr .interpolationError (cls c params)

/-- `interpolate` (_interpolate.py 696-726). -/
def interpolateCall {C G D : Type} (r : Reg (PClass C P G D)) (c : C) (grid : G) (name : String) (params : P) :
    Except PyErr D := do
  let f ← getInterpolator r name c params
  f grid

/-- `smooth` (_smooth.py 181-219): ValueError and TypeError of the method pass, every other exception becomes a
SmoothingError; the result is converted by the curve constructor `make`. -/
def smoothCall {C D : Type} (r : Reg (C → P → Except PyErr D)) (make : D → Except PyErr C) (c : C) (name : String) (params : P) :
    Except PyErr C := do
  let m ← getSmooth r name
  match m c params with
  | .ok d => make d
  | .error e => if e = .valueError ∨ e = .typeError then .error e else .error .smoothingError

end

end Verif.Model
