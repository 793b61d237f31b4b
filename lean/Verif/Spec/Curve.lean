import Verif.Model.Curve
import Verif.Spec.Index

/-!
Specification vocabulary for curves.
-/
namespace Verif.Spec

open Verif Verif.Model Verif.Np

variable {α : Type} [Elem α]

/-- A well formed curve: at least two dimensions, every point has `ndim` coordinates, one parameter value
per point if parametric, and every stored number is representable in the dtype. -/
structure WF (c : Curve α) : Prop where
  two_le : 2 ≤ c.ncols
  rect : ∀ r ∈ c.rows, r.length = c.ncols
  tlen : ∀ t, c.tdata = some t → t.length = c.rows.length
  repr : ∀ r ∈ c.rows, ∀ x ∈ r, c.dtype.cast x = x

/-- All rows have length `n`. -/
def Rect (rows : List (List α)) (n : Nat) : Prop := ∀ r ∈ rows, r.length = n

/-- `ys` lists the elements of `xs` at the positions `ks`, all of which exist. -/
def Picks {β : Type} (xs : List β) (ks : List Nat) (ys : List β) : Prop :=
  ys.map some = ks.map fun k => xs[k]?

/-- `c'` consists of the points of `c` at the positions `ks`, each with its own parameter value. (The
dimension is only claimed when something is selected: see C05, C07 for what happens otherwise.) -/
structure SubCurve (c c' : Curve α) (ks : List Nat) : Prop where
  points : Picks c.rows ks c'.rows
  param : c'.isparametric = c.isparametric
  tvals : ∀ t t', c.tdata = some t → c'.tdata = some t' → Picks t ks t'
  dtype : c'.dtype = c.dtype
  ndim : ks ≠ [] → c'.ndim = c.ndim

/-- Position `x` is named by the delete index `o` on an axis of length `n`. -/
def Named (n : Nat) (o : Obj) (x : Nat) : Prop :=
  match o with
  | .int i => IsPos n i x
  | .slice s => SliceMem n s x
  | .arr is => ∃ i ∈ is, IsPos n i x
  | .mask bs => bs[x]? = some true

/-- Python index in range. -/
def InRange (n : Nat) (i : Int) : Prop := -(n : Int) ≤ i ∧ i < n

end Verif.Spec
