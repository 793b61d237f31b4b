import Verif.Model.SegmentObj
import Verif.Model.ArcLen
import Verif.Model.Intersect

/-!
Model of the text representations (`__repr__`) of points, curve points, segments, curve segments, curves (skcurve/_base.py 153-156, 412-415, 523-527, 943-947, 1170-1177) and intersections
(skcurve/_intersect.py 105-112). Texts are lists of characters.

How numpy turns numbers into text is left open (`Fmt`), except for which entries of an array are shown (`np.array2string`: `threshold` and `edgeitems`). The options that are not set by the code (line width, sign, ...)
belong to `Fmt`.
-/
namespace Verif.Model

open Verif Verif.Np

/-- The global print options of numpy that the code sets. -/
structure PrintOpts where
  suppress : Bool
  precision : Nat
  threshold : Nat
  edgeitems : Nat

/-- `with np.printoptions(...)`: the body runs with the changed options, the old ones are restored. -/
def withOptions {β : Type} (change : PrintOpts → PrintOpts) (body : PrintOpts → β) (o : PrintOpts) : β × PrintOpts := (body (change o), o)

/-- The entries of an axis that `np.array2string` shows: all, or the first and last `edge` ones around dots (`none`). -/
def summarise {β : Type} (on : Bool) (edge : Nat) (xs : List β) : List (Option β) :=
  if on = true ∧ 2 * edge < xs.length then (xs.take edge).map some ++ none :: (xs.drop (xs.length - edge)).map some
  else xs.map some

/-- What is shown of a 1-D array. -/
def shown1 {α : Type} (o : PrintOpts) (xs : List α) : List (Option α) := summarise (decide (o.threshold < xs.length)) o.edgeitems xs

/-- What is shown of a 2-D array; the threshold counts the numbers. -/
def shown2 {α : Type} (o : PrintOpts) (rows : List (List α)) (ncols : Nat) : List (Option (List (Option α))) :=
  let on := decide (o.threshold < rows.length * ncols)
  summarise on o.edgeitems (rows.map (summarise on o.edgeitems))

/-- The text of the shown part of an array with the given `suppress` and `precision`. -/
structure Fmt (α : Type) where
  one : Bool → Nat → DType → List (Option α) → List Char
  two : Bool → Nat → DType → List (Option (List (Option α))) → List Char

/-- `str` of a dtype. -/
def DType.text : DType → List Char
  | .int => "int64".toList
  | .float => "float64".toList
  | .obj => "object".toList

/-- `str` of an integer. -/
def natText (n : Nat) : List Char := Nat.toDigits 10 n
def intText : Int → List Char
  | .ofNat n => natText n
  | .negSucc n => '-' :: natText (n + 1)

/-- The lines of a text (`str.splitlines`; the only line break in the texts of numpy is a newline). -/
def textLines : List Char → List (List Char)
  | [] => [[]]
  | c :: cs =>
    if c = '\n' then [] :: textLines cs
    else match textLines cs with
      | l :: ls => (c :: l) :: ls
      | [] => [[c]]

/-- Lines joined by a separator. -/
def joinLines (sep : List Char) : List (List Char) → List Char
  | [] => []
  | [l] => l
  | l :: ls => l ++ sep ++ joinLines sep ls

/-- `textwrap.indent`: lines that consist of white space only are left. -/
def indentText (pre : List Char) (s : List Char) : List Char :=
  joinLines ['\n'] ((textLines s).map fun l => if l.all Char.isWhitespace then l else pre ++ l)

/-- `str.strip`. -/
def stripText (s : List Char) : List Char := ((s.dropWhile Char.isWhitespace).reverse.dropWhile Char.isWhitespace).reverse

section
variable {α : Type} (F : Fmt α)

/-- `np.printoptions(suppress=True, precision=DATA_FORMAT_PRECISION)` (79, 154). -/
def dataOpts (o : PrintOpts) : PrintOpts := { o with suppress := true, precision := 4 }

/-- `f'{array}'` of the coordinates of a point. -/
def dataText (p : Point α) (o : PrintOpts) : List Char := F.one o.suppress o.precision p.dtype (shown1 o p.data)

/-- `Point.__repr__` (_base.py 153-156). -/
def Point.repr (name : List Char) (p : Point α) (o : PrintOpts) : List Char × PrintOpts :=
  let r := withOptions dataOpts (dataText F p) o
  (name ++ '(' :: r.1 ++ ", ndim=".toList ++ natText p.ndim ++ ", dtype=".toList ++ p.dtype.text ++ [')'], r.2)

/-- `CurvePoint.__repr__` (_base.py 412-415). -/
def CurvePoint.repr (name : List Char) (p : CurvePoint α) (o : PrintOpts) : List Char × PrintOpts :=
  let r := withOptions dataOpts (dataText F p.point) o
  (name ++ '(' :: r.1 ++ ", index=".toList ++ intText p.idx ++ [')'], r.2)

/-- `Segment.__repr__` (_base.py 523-527). -/
def Segment.repr (name : List Char) (s : Segment α) (o : PrintOpts) : List Char × PrintOpts :=
  let r := withOptions dataOpts (fun o => (dataText F s.p1 o, dataText F s.p2 o)) o
  (name ++ "(p1=".toList ++ r.1.1 ++ ", p2=".toList ++ r.1.2 ++ [')'], r.2)

/-- `CurveSegment.__repr__` (_base.py 943-947). -/
def segmentRepr (name : List Char) (p1 p2 : Point α) (idx : Int) (o : PrintOpts) : List Char × PrintOpts :=
  let r := withOptions dataOpts (fun o => (dataText F p1 o, dataText F p2 o)) o
  (name ++ "(p1=".toList ++ r.1.1 ++ ", p2=".toList ++ r.1.2 ++ ", index=".toList ++ intText idx ++ [')'], r.2)

/-- The options of `Curve.__repr__` (1173-1174). -/
def curveOpts (ndim : Nat) (o : PrintOpts) : PrintOpts := { o with suppress := true, precision := 4, edgeitems := 4, threshold := 10 * ndim }

/-- `f'{self._data}'` of a curve. -/
def rowsText (c : Curve α) (o : PrintOpts) : List Char := F.two o.suppress o.precision c.dtype (shown2 o c.rows c.ncols)

/-- `Curve.__repr__` (_base.py 1170-1177). -/
def Curve.repr (name : List Char) (c : Curve α) (o : PrintOpts) : List Char × PrintOpts :=
  let r := withOptions (curveOpts c.ndim) (fun o => stripText (indentText (List.replicate (name.length + 1) ' ') (rowsText F c o))) o
  (name ++ '(' :: r.1 ++ ", size=".toList ++ natText c.size ++ ", ndim=".toList ++ natText c.ndim ++ ", dtype=".toList ++ c.dtype.text ++ [')'], r.2)

/-- `intersect_type.name`. -/
def IType.text : IType → List Char
  | .none => "NONE".toList
  | .exact => "EXACT".toList
  | .overlap => "OVERLAP".toList
  | .almost => "ALMOST".toList

/-- `SegmentsIntersection.__repr__` (_intersect.py 105-112) from the texts of its parts. -/
def intersectionRepr (name s1 s2 p : List Char) (t : IType) : List Char :=
  name ++ '(' :: s1 ++ ", ".toList ++ s2 ++ ", ".toList ++ p ++ ", type=".toList ++ t.text ++ [')']

end

end Verif.Model
