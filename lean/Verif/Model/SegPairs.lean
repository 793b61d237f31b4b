import Verif.Model.Geom

/-!
`segments_to_segments`: the vectorised computation of the shortest segments of all pairs of segments of two
polylines. Two-dimensional numpy arrays are functions of two indices together with their shape.
-/
namespace Verif.Model

open Verif

section
variable {K : Type} [Field K] [LinearOrder K] [IsStrictOrderedRing K] {n : Nat}

/-- Entries of an M1 x M2 array. -/
abbrev Mat (K : Type) := Nat → Nat → K

/-- `x[mask] = y[mask]`. -/
def setMask (x : Mat K) (mask : Mat Bool) (y : Mat K) : Mat K := fun i j => if mask i j then y i j else x i j

/-- `np.diff(data, axis=0)` row `i`, and row `i` of `data`. -/
def rowAt (data : List (Vec n K)) (i : Nat) : Vec n K := data.getD i 0
def diffAt (data : List (Vec n K)) (i : Nat) : Vec n K := rowAt data (i + 1) - rowAt data i

/-- Result of `segments_to_segments` with the shape M1 x M2 of the parameter arrays. -/
structure PairsResult (n : Nat) (K : Type) where
  m1 : Nat
  m2 : Nat
  t1 : Mat K
  t2 : Mat K
  p1 : Mat (Vec n K)
  p2 : Mat (Vec n K)

/-- The four arrays updated in place. -/
structure FracMat (K : Type) where
  sn : Mat K
  sd : Mat K
  tn : Mat K
  td : Mat K

/-- First part of `segments_to_segments` (_geomalg.py 491-523): up to the clamping of the first parameter. -/
def segsLines (tol : K) (a b c d e : Mat K) : FracMat K :=
  let dd : Mat K := fun i j => a i j * c i j - b i j * b i j
  let sd := dd
  let td := dd
  let sn : Mat K := fun _ _ => 0
  let tn : Mat K := fun _ _ => 0
  let dd_lt_tol : Mat Bool := fun i j => decide (dd i j < tol)
  let not_dd_lt_tol : Mat Bool := fun i j => !dd_lt_tol i j
  let sd := setMask sd dd_lt_tol (fun _ _ => 1)
  let tn := setMask tn dd_lt_tol e
  let td := setMask td dd_lt_tol c
  let be_cd : Mat K := fun i j => b i j * e i j - c i j * d i j
  let ae_bd : Mat K := fun i j => a i j * e i j - b i j * d i j
  let sn := setMask sn not_dd_lt_tol be_cd
  let tn := setMask tn not_dd_lt_tol ae_bd
  let sn_lt_zero : Mat Bool := fun i j => decide (sn i j < 0) && not_dd_lt_tol i j
  let sn := setMask sn sn_lt_zero (fun _ _ => 0)
  let tn := setMask tn sn_lt_zero e
  let td := setMask td sn_lt_zero c
  let sn_gt_sd : Mat Bool := fun i j => decide (sn i j > sd i j) && not_dd_lt_tol i j
  let sn := setMask sn sn_gt_sd sd
  let tn := setMask tn sn_gt_sd (fun i j => e i j + b i j)
  let td := setMask td sn_gt_sd c
  ⟨sn, sd, tn, td⟩

/-- Second part (_geomalg.py 525-550): clamping of the second parameter. -/
def segsClamp (a b d : Mat K) (f : FracMat K) : FracMat K :=
  let sn := f.sn
  let sd := f.sd
  let tn := f.tn
  let td := f.td
  let tn_lt_zero : Mat Bool := fun i j => decide (tn i j < 0)
  let tn := setMask tn tn_lt_zero (fun _ _ => 0)
  let md_lt_zero : Mat Bool := fun i j => decide (-d i j < 0) && tn_lt_zero i j
  let md_gt_a : Mat Bool := fun i j => decide (-d i j > a i j) && tn_lt_zero i j
  let md_else : Mat Bool := fun i j => (!md_lt_zero i j && !md_gt_a i j) && tn_lt_zero i j
  let sn := setMask sn md_lt_zero (fun _ _ => 0)
  let sn := setMask sn md_gt_a sd
  let sn := setMask sn md_else (fun i j => -d i j)
  let sd := setMask sd md_else a
  let tn_gt_td : Mat Bool := fun i j => decide (tn i j > td i j)
  let tn := setMask tn tn_gt_td td
  let bmd : Mat K := fun i j => b i j - d i j
  let bmd_lt_zero : Mat Bool := fun i j => decide (bmd i j < 0) && tn_gt_td i j
  let bmd_gt_a : Mat Bool := fun i j => decide (bmd i j > a i j) && tn_gt_td i j
  let bmd_else : Mat Bool := fun i j => (!bmd_lt_zero i j && !bmd_gt_a i j) && tn_gt_td i j
  let sn := setMask sn bmd_lt_zero (fun _ _ => 0)
  let sn := setMask sn bmd_gt_a sd
  let sn := setMask sn bmd_else bmd
  let sd := setMask sd bmd_else a
  ⟨sn, sd, tn, td⟩

/-- Last part (_geomalg.py 551-558): one parameter array. `store` is the conversion done when a float is assigned
into an array of the dtype of the data (`zeros_like(dd)`): the identity for float data, truncation for integer
data. -/
def segsParam (store : K → K) (tol : K) (num den : Mat K) : Mat K :=
  let abs_gt_tol : Mat Bool := fun i j => !decide (|num i j| < tol)
  setMask (fun _ _ => 0) abs_gt_tol (fun i j => store (num i j / den i j))

/-- `segments_to_segments` (_geomalg.py 438-561) for data with at least one point each.

The einsum expressions are written as dot products: `'ijk,ijk->jk'` of `u` (N x M1 x 1) with itself repeated
along the second axis, `'ijk,ikl->jl'` of `u` and `v` (N x 1 x M2), `'ijk,ijl->jl'` of `u` and `w` (N x M1 x M2),
`'ijk,ilk->lk'` of `v` and `w`. -/
def segsToSegs (store : K → K) (tol : K) (data1 data2 : List (Vec n K)) : PairsResult n K :=
  let u := diffAt data1
  let v := diffAt data2
  let p11 := rowAt data1
  let p21 := rowAt data2
  let w : Mat (Vec n K) := fun i j => p11 i - p21 j
  let a : Mat K := fun i _ => vdot (u i) (u i)
  let b : Mat K := fun i j => vdot (u i) (v j)
  let c : Mat K := fun _ j => vdot (v j) (v j)
  let d : Mat K := fun i j => vdot (u i) (w i j)
  let e : Mat K := fun i j => vdot (v j) (w i j)
  let f := segsClamp a b d (segsLines tol a b c d e)
  let t1 := segsParam store tol f.sn f.sd
  let t2 := segsParam store tol f.tn f.td
  { m1 := data1.length - 1
    m2 := data2.length - 1
    t1 := t1
    t2 := t2
    p1 := fun i j => p11 i + t1 i j • u i
    p2 := fun i j => p21 j + t2 i j • v j }

end

end Verif.Model
