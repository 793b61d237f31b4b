import Verif.Model.Curve

/-!
Histories of curve-returning operations (used by C01).
-/
namespace Verif.Model

open Verif Verif.Np

/-- One curve-returning call on the current curve, with arbitrary arguments. Each constructor is the
method of the same name in _base.py; `rebuild` is `Curve(c, ndmin=.., dtype=..)`; `subcurve i j e` is
`c[i].subcurve(c[j], e)`; `addL o` is `o + c`. -/
inductive Op (α : Type)
  | getSub (ix : Indexer)
  | addR (o : Curve α)
  | addL (o : Curve α)
  | copy
  | rebuild (ndmin : Option Int) (dt : Option DType)
  | reverse
  | insert (ix : Obj) (o : PointOrCurve α)
  | append (o : PointOrCurve α)
  | delete (ix : Obj)
  | insertdim (axis : Int) (vals : Option (List α))
  | appenddim (vals : Option (List α))
  | deletedim (axis : Obj)
  | unique
  | drop (isa : List (List α) → DropRes)
  | subcurve (i j : Int) (endpoint : Bool)

variable {α : Type} [Elem α] [LE α] [DecidableLE α] [DecidableEq α]

/-- Effect of one call. -/
def Op.step : Op α → Curve α → Except PyErr (Curve α)
  | .getSub ix, c => c.getSub ix
  | .addR o, c => c.add o
  | .addL o, c => o.add c
  | .copy, c => c.copy
  | .rebuild k d, c => Curve.init (.curve c) none none k d
  | .reverse, c => c.reverse
  | .insert ix o, c => c.insert ix o
  | .append o, c => c.append o
  | .delete ix, c => c.delete ix
  | .insertdim a v, c => c.insertdim a v
  | .appenddim v, c => c.appenddim v
  | .deletedim a, c => c.deletedim a
  | .unique, c => c.unique
  | .drop f, c => c.drop f
  | .subcurve i j e, c =>
    match CurvePoint.init c 0 i, CurvePoint.init c 0 j with
    | .ok p, .ok q => p.subcurve q e
    | .error e, _ => .error e
    | _, .error e => .error e

/-- A history: calls one after another; an exception ends it. -/
def run : List (Op α) → Curve α → Except PyErr (Curve α)
  | [], c => .ok c
  | o :: os, c => match o.step c with
    | .error e => .error e
    | .ok c' => run os c'

end Verif.Model
