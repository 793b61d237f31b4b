import Verif.Model.ArcLen
import Verif.Spec.Range

/-!
Chord lengths and arc lengths in binary64 arithmetic, with underflow and overflow: every operation of `numpy` is followed by the rounding
`rnd64` of the exact result.
-/
namespace Verif.Model

open Verif Verif.Np Verif.Spec

/-- Rounding of the exact result of an operation on binary64 values. -/
noncomputable def fl64 : Val ℝ → Val ℝ
  | .fin x => rnd64 x
  | v => v

/-- `np.sum` of binary64 values in any order and grouping (compare `SumsTo`). -/
inductive SumsTo64 : List (Val ℝ) → Val ℝ → Prop
  | nil : SumsTo64 [] (.fin 0)
  | one (x : Val ℝ) : SumsTo64 [x] x
  | add {xs ys zs : List (Val ℝ)} {s t : Val ℝ} (hx : SumsTo64 xs s) (hy : SumsTo64 ys t) (nx : xs ≠ []) (ny : ys ≠ [])
      (hz : zs.Perm (xs ++ ys)) : SumsTo64 zs (fl64 (s.add t))

/-- The entries of `np.diff(data, axis=0)**2` for two rows (_diffgeom.py 91). -/
noncomputable def sqTerms64 (a b : List (Val ℝ)) : List (Val ℝ) := List.zipWith (fun x y => fl64 (fl64 (y.sub x)).sq) a b

/-- `np.sqrt(np.sum(np.diff(data, axis=0)**2, axis=1))` for two rows (_diffgeom.py 91). -/
def ChordTo64 (a b : List (Val ℝ)) (z : Val ℝ) : Prop := ∃ s, SumsTo64 (sqTerms64 a b) s ∧ z = fl64 s.sqrt

/-- `chordlen` of a curve with points (_diffgeom.py 69-91). -/
def ChordsTo64 (rows : List (List (Val ℝ))) (zs : List (Val ℝ)) : Prop :=
  List.Forall₂ (fun (p : List (Val ℝ) × List (Val ℝ)) z => ChordTo64 p.1 p.2 z) (rows.zip rows.tail) zs

/-- `arclen` of a curve with points (_diffgeom.py 94-115). -/
def ArclenTo64 (rows : List (List (Val ℝ))) (l : Val ℝ) : Prop := ∃ zs, ChordsTo64 rows zs ∧ SumsTo64 zs l

end Verif.Model
