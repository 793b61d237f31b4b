import Verif.Model.RoundedDist
import Verif.Model.SegPairs

/-!
`segments_to_segments` and the method `almost` for curves with every operation rounded by a function `fl`. Float data.
-/
namespace Verif.Model

open Verif Verif.Np

variable {n : Nat}

/-- First part of `segments_to_segments` (_geomalg.py 491-523): up to the clamping of the first parameter. -/
noncomputable def segsLinesFl (fl : ℝ → ℝ) (tol : ℝ) (a b c d e : Mat ℝ) : FracMat ℝ :=
  let dd : Mat ℝ := fun i j => fl (fl (a i j * c i j) - fl (b i j * b i j))
  let sd := dd
  let td := dd
  let sn : Mat ℝ := fun _ _ => 0
  let tn : Mat ℝ := fun _ _ => 0
  let dd_lt_tol : Mat Bool := fun i j => decide (dd i j < tol)
  let not_dd_lt_tol : Mat Bool := fun i j => !dd_lt_tol i j
  let sd := setMask sd dd_lt_tol (fun _ _ => 1)
  let tn := setMask tn dd_lt_tol e
  let td := setMask td dd_lt_tol c
  let be_cd : Mat ℝ := fun i j => fl (fl (b i j * e i j) - fl (c i j * d i j))
  let ae_bd : Mat ℝ := fun i j => fl (fl (a i j * e i j) - fl (b i j * d i j))
  let sn := setMask sn not_dd_lt_tol be_cd
  let tn := setMask tn not_dd_lt_tol ae_bd
  let sn_lt_zero : Mat Bool := fun i j => decide (sn i j < 0) && not_dd_lt_tol i j
  let sn := setMask sn sn_lt_zero (fun _ _ => 0)
  let tn := setMask tn sn_lt_zero e
  let td := setMask td sn_lt_zero c
  let sn_gt_sd : Mat Bool := fun i j => decide (sn i j > sd i j) && not_dd_lt_tol i j
  let sn := setMask sn sn_gt_sd sd
  let tn := setMask tn sn_gt_sd (fun i j => fl (e i j + b i j))
  let td := setMask td sn_gt_sd c
  ⟨sn, sd, tn, td⟩

/-- Second part (_geomalg.py 525-550): clamping of the second parameter. -/
noncomputable def segsClampFl (fl : ℝ → ℝ) (a b d : Mat ℝ) (f : FracMat ℝ) : FracMat ℝ :=
  let sn := f.sn
  let sd := f.sd
  let tn := f.tn
  let td := f.td
  let tn_lt_zero : Mat Bool := fun i j => decide (tn i j < 0)
  let tn := setMask tn tn_lt_zero (fun _ _ => 0)
  let md_lt_zero : Mat Bool := fun i j => decide (-d i j < 0) && tn_lt_zero i j
  let md_gt_a : Mat Bool := fun i j => decide (-d i j > a i j) && tn_lt_zero i j
  let md_else : Mat Bool := fun i j => (!md_lt_zero i j && !md_gt_a i j) && tn_lt_zero i j
  let sn := setMask sn md_lt_zero (fun _ _ => 0)
  let sn := setMask sn md_gt_a sd
  let sn := setMask sn md_else (fun i j => -d i j)
  let sd := setMask sd md_else a
  let tn_gt_td : Mat Bool := fun i j => decide (tn i j > td i j)
  let tn := setMask tn tn_gt_td td
  let bmd : Mat ℝ := fun i j => fl (b i j - d i j)
  let bmd_lt_zero : Mat Bool := fun i j => decide (bmd i j < 0) && tn_gt_td i j
  let bmd_gt_a : Mat Bool := fun i j => decide (bmd i j > a i j) && tn_gt_td i j
  let bmd_else : Mat Bool := fun i j => (!bmd_lt_zero i j && !bmd_gt_a i j) && tn_gt_td i j
  let sn := setMask sn bmd_lt_zero (fun _ _ => 0)
  let sn := setMask sn bmd_gt_a sd
  let sn := setMask sn bmd_else bmd
  let sd := setMask sd bmd_else a
  ⟨sn, sd, tn, td⟩

/-- `segments_to_segments` (_geomalg.py 438-561) for float data. The squared lengths `a`, `c` are computed once for each segment and repeated. -/
def PairsTo (fl : ℝ → ℝ) (tol : ℝ) (data1 data2 : List (Vec n ℝ)) (res : PairsResult n ℝ) : Prop :=
  let u : Nat → Vec n ℝ := fun i => subFl fl (rowAt data1 (i + 1)) (rowAt data1 i)
  let v : Nat → Vec n ℝ := fun j => subFl fl (rowAt data2 (j + 1)) (rowAt data2 j)
  let w : Mat (Vec n ℝ) := fun i j => subFl fl (rowAt data1 i) (rowAt data2 j)
  res.m1 = data1.length - 1 ∧ res.m2 = data2.length - 1 ∧
  ∃ (a c : Nat → ℝ) (b d e : Mat ℝ), (∀ i, i < res.m1 → VDotTo fl (u i) (u i) (a i)) ∧ (∀ j, j < res.m2 → VDotTo fl (v j) (v j) (c j)) ∧
    (∀ i j, i < res.m1 → j < res.m2 → VDotTo fl (u i) (v j) (b i j) ∧ VDotTo fl (u i) (w i j) (d i j) ∧ VDotTo fl (v j) (w i j) (e i j)) ∧
    let f := segsClampFl fl (fun i _ => a i) b d (segsLinesFl fl tol (fun i _ => a i) b (fun _ j => c j) d e)
    res.t1 = segsParam fl tol f.sn f.sd ∧ res.t2 = segsParam fl tol f.tn f.td ∧
    (res.p1 = fun i j k => fl (rowAt data1 i k + fl (res.t1 i j * u i k))) ∧
    res.p2 = fun i j k => fl (rowAt data2 j k + fl (res.t2 i j * v j k))

/-- `AlmostIntersectionMethod._intersect_curves` (_intersect.py 652-680) with `remove_extra=False` and `correct_overlap=False` for two float curves, or a float curve and an integer one: the result. -/
def AlmostCurvesTo (fl : ℝ → ℝ) (distTol : ℝ) (c1 c2 : GCurve n ℝ) (xs : List (SegInt n ℝ)) : Prop :=
  ∃ (res : PairsResult n ℝ) (z : Mat ℝ), PairsTo fl F_EPS c1.data c2.data res ∧
    (∀ i j, i < res.m1 → j < res.m2 → ChordTo fl (List.ofFn (res.p2 i j)) (List.ofFn (res.p1 i j)) (z i j)) ∧
    xs = (curvesIndices res.m1 res.m2 (fun i j => decide (z i j < distTol)) (decide (c1.cid = c2.cid))).map fun ij =>
      ⟨c1.segment ij.1, c2.segment ij.2, ⟨.segment ⟨res.p1 ij.1 ij.2, res.p2 ij.1 ij.2⟩, .almost⟩⟩

end Verif.Model
