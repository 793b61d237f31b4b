import Verif.Np.Index

/-!
N-dimensional numpy arrays: a shape and an element function on multi-indices; `transpose` and
`reshape` through the C-order enumeration of multi-indices. 2-D arrays as lists of rows.
-/
namespace Verif.Np

open Verif

/-- An N-D array: shape and element function (only multi-indices inside the shape matter). -/
structure NdArr (α : Type) where
  shape : List Nat
  get : List Nat → α

/-- A 2-D array as a list of rows with the number of columns (needed when there are no rows). -/
structure Arr2 (α : Type) where
  rows : List (List α)
  ncols : Nat

variable {α : Type}

/-- `arr.size`. -/
def NdArr.size (a : NdArr α) : Nat := a.shape.prod

/-- `arr.ndim`. -/
def NdArr.ndim (a : NdArr α) : Nat := a.shape.length

/-- All multi-indices of a shape in C order (last axis fastest). -/
def indices : List Nat → List (List Nat)
  | [] => [[]]
  | k :: ks => (List.range k).flatMap fun i => (indices ks).map (i :: ·)

/-- The elements in C order (`arr.ravel()`). -/
def NdArr.ravel (a : NdArr α) : List α := (indices a.shape).map a.get

/-- `arr.transpose(axes)`: `result[idx] = arr[jdx]` with `jdx[axes[k]] = idx[k]`. -/
def NdArr.transpose (a : NdArr α) (axes : List Nat) : NdArr α where
  shape := axes.map fun k => a.shape.getD k 0
  get idx := a.get ((List.range a.shape.length).map fun j => idx.getD (axes.idxOf j) 0)

/-- Cut a list into `m` rows of length `n` (`reshape((m, n))` of the C-order elements). -/
def chunks (m n : Nat) (xs : List α) : List (List α) :=
  match m with
  | 0 => []
  | m + 1 => xs.take n :: chunks m n (xs.drop n)

/-- `arr.reshape((m, n))`. -/
def NdArr.reshape2 (a : NdArr α) (m n : Nat) : Arr2 α := ⟨chunks m n a.ravel, n⟩

/-- A 2-D array given by its rows, as an N-D array (`d` is the value outside the shape, never read). -/
def NdArr.ofRows (d : α) (rows : List (List α)) (n : Nat) : NdArr α where
  shape := [rows.length, n]
  get idx := ((rows.getD (idx.getD 0 0) []).getD (idx.getD 1 0) d)

end Verif.Np
