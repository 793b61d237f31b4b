import Verif.Model.Num

/-!
Point arithmetic (skcurve/_base.py 225-260 and 361-380) over floating point values with the IEEE special
values.
-/
namespace Verif.Model

open Verif

section
variable {K : Type} [Field K] [LinearOrder K] [IsStrictOrderedRing K] [FloorRing K]

/-- Floating point addition (exact on finite numbers: rounding and overflow are not modelled). -/
def Val.add : Val K → Val K → Val K
  | .fin x, .fin y => .fin (x + y)
  | .nan, _ => .nan
  | _, .nan => .nan
  | .pinf, .ninf => .nan
  | .ninf, .pinf => .nan
  | .pinf, _ => .pinf
  | .ninf, _ => .ninf
  | _, .pinf => .pinf
  | _, .ninf => .ninf

/-- Negation. -/
def Val.neg : Val K → Val K
  | .fin x => .fin (-x)
  | .nan => .nan
  | .pinf => .ninf
  | .ninf => .pinf

/-- Subtraction. -/
def Val.sub (a b : Val K) : Val K := a.add b.neg

/-- infinity of the sign of `x`, NaN for 0 -/
def Val.infOfSign (x : K) : Val K := if 0 < x then .pinf else if x < 0 then .ninf else .nan

/-- Multiplication. -/
def Val.mul : Val K → Val K → Val K
  | .fin x, .fin y => .fin (x * y)
  | .nan, _ => .nan
  | _, .nan => .nan
  | .pinf, .pinf => .pinf
  | .ninf, .ninf => .pinf
  | .pinf, .ninf => .ninf
  | .ninf, .pinf => .ninf
  | .pinf, .fin y => Val.infOfSign y
  | .fin x, .pinf => Val.infOfSign x
  | .ninf, .fin y => Val.infOfSign (-y)
  | .fin x, .ninf => Val.infOfSign (-x)

/-- Division; signed zeros are not distinguished, so `x / 0` has the sign of `x`. -/
def Val.div : Val K → Val K → Val K
  | .fin x, .fin y => if y = 0 then Val.infOfSign x else .fin (x / y)
  | .nan, _ => .nan
  | _, .nan => .nan
  | .fin _, _ => .fin 0
  | .pinf, .fin y => if y < 0 then .ninf else .pinf
  | .ninf, .fin y => if y < 0 then .pinf else .ninf
  | _, _ => .nan

/-- Floor division on finite numbers; special values as for division except that an infinite dividend
gives NaN. -/
def Val.floordiv : Val K → Val K → Val K
  | .fin x, .fin y => if y = 0 then Val.infOfSign x else .fin (⌊x / y⌋ : K)
  | .pinf, _ => .nan
  | .ninf, _ => .nan
  | .fin x, .pinf => if x < 0 then .fin (-1) else .fin 0
  | .fin x, .ninf => if 0 < x then .fin (-1) else .fin 0
  | _, _ => .nan

/-- The operators of `operator` that `Point` uses (_base.py 225-253). -/
inductive ArithOp
  | add | sub | mul | truediv | floordiv
  deriving DecidableEq, Repr

/-- The operator on two numbers. Simplification: arithmetic of integer points is done in the same
numbers (no wrap-around; integer floor division by 0, which numpy makes 0, is treated as for floats). -/
def ArithOp.sem : ArithOp → Val K → Val K → Val K
  | .add => Val.add
  | .sub => Val.sub
  | .mul => Val.mul
  | .truediv => Val.div
  | .floordiv => Val.floordiv

/-- The other operand. -/
inductive Operand (K : Type)
  | point (p : Point (Val K))
  | num (x : Val K)
  | other

/-- numpy broadcasting of a binary operation on two 1-D arrays. -/
def bcast2 {β : Type} (f : β → β → β) (a b : List β) : Except PyErr (List β) :=
  if a.length = b.length then .ok (List.zipWith f a b)
  else match a, b with
    | [x], _ => .ok (b.map (f x))
    | _, [y] => .ok (a.map (f · y))
    | _, _ => .error .valueError

/-- `Point._op` (_base.py 361-380). `right = true` is the reflected call. `NotImplemented` of the
reflected call ends in a TypeError raised by the interpreter. -/
def Point.op (o : ArithOp) (p : Point (Val K)) (arg : Operand K) (right : Bool) : Except PyErr (Point (Val K)) :=
  let apply (r : Except PyErr (List (Val K))) : Except PyErr (Point (Val K)) := r.map fun d => Point.init d none
  match arg with
  | .other => .error .typeError
  | .point q => if right then apply (bcast2 o.sem q.data p.data) else apply (bcast2 o.sem p.data q.data)
  | .num x => if right then apply (.ok (p.data.map fun y => o.sem x y)) else apply (.ok (p.data.map fun y => o.sem y x))

end

/-- `np.dot` of two vectors of one length. -/
def dot {K : Type} [Add K] [Mul K] [Zero K] (a b : List K) : K := (List.zipWith (· * ·) a b).foldr (· + ·) 0

/-- `Point.__matmul__` (_base.py 255-272) on finite coordinates: `np.dot`, ValueError when the lengths
differ. -/
def matmul {K : Type} [Add K] [Mul K] [Zero K] (a b : List K) : Except PyErr K :=
  if a.length = b.length then .ok (dot a b) else .error .valueError

end Verif.Model
