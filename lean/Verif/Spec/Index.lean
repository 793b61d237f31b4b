import Verif.Np.Index

/-!
Declarative specifications of the indexing operations (independent of the model's algorithms).
-/
namespace Verif.Spec

open Verif Verif.Np

/-- A slice bound `v` on an axis of length `n`: counted from the end when negative, then limited to the
range of meaningful bounds (`0..n` for a positive step, `-1..n-1` for a negative one). -/
def bound (n : Nat) (k v : Int) : Int :=
  let w := if v < 0 then v + n else v
  if k < 0 then max (-1) (min ((n : Int) - 1) w) else max 0 (min (n : Int) w)

/-- First position visited. -/
def first (n : Nat) (s : PySlice) : Int :=
  match s.start with
  | some v => bound n (s.step.getD 1) v
  | none => if s.step.getD 1 < 0 then (n : Int) - 1 else 0

/-- Bound at which the visit stops (exclusive). -/
def last (n : Nat) (s : PySlice) : Int :=
  match s.stop with
  | some v => bound n (s.step.getD 1) v
  | none => if s.step.getD 1 < 0 then -1 else n

/-- Python reference manual: `s[i:j:k]` selects the positions `i, i+k, i+2k, ...` up to but not
including `j`. -/
def SliceMem (n : Nat) (s : PySlice) (x : Nat) : Prop :=
  let k := s.step.getD 1
  (∃ m : Nat, (x : Int) = first n s + m * k) ∧ (if k < 0 then last n s < x else (x : Int) < last n s)

/-- The elements of `xs` at the positions not named, in order. -/
def removeAt {α : Type _} (named : Nat → Bool) (xs : List α) : List α :=
  (xs.zipIdx.filter fun p => !(named p.2)).map Prod.fst

/-- The elements of `xs` at the positions named, in order. -/
def keepAt {α : Type _} (named : Nat → Bool) (xs : List α) : List α :=
  (xs.zipIdx.filter fun p => named p.2).map Prod.fst

/-- Position meant by a python index on an axis of length `n`. -/
def IsPos (n : Nat) (i : Int) (k : Nat) : Prop := k < n ∧ ((k : Int) = i ∨ (k : Int) = i + n)

/-- Put `vals[j]` immediately before the original element `pos[j]` (position `n` = at the end);
several values for one position stay in the order in which they are listed. -/
def insertBefore {α : Type _} (xs : List α) (pv : List (Nat × α)) : List α :=
  (List.range (xs.length + 1)).flatMap fun k =>
    (pv.filter fun q => q.1 == k).map Prod.snd ++ (xs[k]?).toList

end Verif.Spec
