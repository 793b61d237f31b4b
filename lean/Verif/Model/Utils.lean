import Verif.Np.Array

/-!
Model of skcurve/_utils.py.
-/
namespace Verif.Model

open Verif Verif.Np

/-- Python `list.pop(axis)` followed by `list.insert(0, ·)`, i.e. `_utils.py` 41-42
(`tr_axes.insert(0, tr_axes.pop(axis))`); `pop` normalises a negative index and raises IndexError when
out of range. Returns the normalised axis and the list of axes. -/
def popFront (n : Nat) (axis : Int) : Except PyErr (Nat × List Nat) :=
  match normIdx n axis with
  | none => .error .indexError
  | some a => .ok (a, a :: (List.range n).eraseIdx a)

/-- `as2d` (skcurve/_utils.py 6-45). The dtype is handled by the caller. `arr.shape[axis]` (line 43)
normalises the same index as `pop`. -/
def as2d {α : Type} (arr : NdArr α) (axis0 : Int) : Except PyErr (Arr2 α) :=
  if arr.size = 0 then .ok ⟨[], 2⟩                                    -- 33-34
  else
    let axis := if axis0 < 0 then (arr.ndim : Int) + axis0 else axis0  -- 36-37
    if axis ≥ arr.ndim then .error .valueError                         -- 39-40
    else match popFront arr.ndim axis with                             -- 41-42
      | .error e => .error e
      | .ok (a, axes) =>
        let k := arr.shape.getD a 0
        .ok ((arr.transpose axes).reshape2 k (arr.size / k))           -- 43-45

end Verif.Model
