import Verif.Model.Intersect
import Mathlib.LinearAlgebra.FiniteDimensional.Lemmas

/-!
Functions that can be evaluated, equal to the definitions of `Model/Geom` and `Model/Intersect` that use the
rank of a matrix. The rank is computed by elimination.
-/
namespace Verif.Tests

open Verif Verif.Model

set_option linter.unusedSectionVars false

variable {K : Type} [Field K] [LinearOrder K] [IsStrictOrderedRing K] {n : Nat}

/-- a coordinate that is not 0 -/
def pivot (v : Vec n K) : Option (Fin n) := (List.finRange n).find? fun i => decide (v i ≠ 0)

/-- rank by elimination; the first argument is a bound for the number of rows -/
def elimRank : Nat → List (Vec n K) → Nat
  | 0, _ => 0
  | _ + 1, [] => 0
  | k + 1, v :: rest =>
    match pivot v with
    | none => elimRank k rest
    | some i => 1 + elimRank k (rest.map fun w => (fun j => w j - w i / v i * v j : Vec n K))

theorem pivot_none {v : Vec n K} (h : pivot v = none) : v = 0 := by
  funext i
  have := List.find?_eq_none.1 h i (List.mem_finRange i)
  simpa using this

theorem pivot_some {v : Vec n K} {i : Fin n} (h : pivot v = some i) : v i ≠ 0 := by
  have := List.find?_some h
  simpa using this

theorem matrixRank_nil : matrixRank ([] : List (Vec n K)) = 0 := by
  unfold matrixRank
  simp

theorem setOf_cons (v : Vec n K) (rest : List (Vec n K)) : {w | w ∈ v :: rest} = insert v {w | w ∈ rest} := by
  ext w; simp

theorem matrixRank_zero_cons (rest : List (Vec n K)) : matrixRank ((0 : Vec n K) :: rest) = matrixRank rest := by
  unfold matrixRank
  rw [setOf_cons, Submodule.span_insert_zero]

theorem matrixRank_pivot {v : Vec n K} {i : Fin n} (hi : v i ≠ 0) (rest : List (Vec n K)) :
    matrixRank (v :: rest) =
      1 + matrixRank (rest.map fun w => (fun j => w j - w i / v i * v j : Vec n K)) := by
  unfold matrixRank
  set red : Vec n K → Vec n K := fun w j => w j - w i / v i * v j with hred
  have hr : ∀ w, red w = w - (w i / v i) • v := by intro w; funext j; simp [hred]
  set S := Submodule.span K {w | w ∈ rest.map red} with hS
  have hsup : Submodule.span K {w | w ∈ v :: rest} = Submodule.span K {v} ⊔ S := by
    rw [setOf_cons, Submodule.span_insert]
    apply le_antisymm
    · refine sup_le le_sup_left ?_
      rw [Submodule.span_le]
      intro w hw
      have : w = (w i / v i) • v + red w := by rw [hr]; abel
      rw [this]
      exact Submodule.add_mem_sup (Submodule.smul_mem _ _ (Submodule.mem_span_singleton_self v))
        (Submodule.subset_span (List.mem_map_of_mem hw))
    · refine sup_le le_sup_left ?_
      rw [hS, Submodule.span_le]
      intro w hw
      obtain ⟨u, hu, rfl⟩ := List.mem_map.1 hw
      rw [hr, sub_eq_add_neg, add_comm, ← neg_smul]
      exact Submodule.add_mem_sup (Submodule.smul_mem _ _ (Submodule.mem_span_singleton_self v))
        (Submodule.subset_span hu)
  have hz : ∀ w ∈ S, w i = 0 := by
    intro w hw
    refine Submodule.span_induction (p := fun w _ => w i = 0) ?_ rfl ?_ ?_ hw
    · intro w hw
      obtain ⟨u, hu, rfl⟩ := List.mem_map.1 hw
      simp only [hred]
      rw [div_mul_cancel₀ _ hi, sub_self]
    · intro x y _ _ hx hy
      simp [hx, hy]
    · intro a x _ hx
      simp [hx]
  have hinf : Submodule.span K {v} ⊓ S = ⊥ := by
    rw [eq_bot_iff]
    rintro w ⟨h1, h2⟩
    obtain ⟨x, rfl⟩ := Submodule.mem_span_singleton.1 h1
    have := hz _ h2
    simp only [Pi.smul_apply, smul_eq_mul, mul_eq_zero, hi, or_false] at this
    simp [this]
  have hv : v ≠ 0 := by rintro rfl; exact hi rfl
  have hd := Submodule.finrank_sup_add_finrank_inf_eq (Submodule.span K {v}) S
  rw [hinf, finrank_bot, add_zero, finrank_span_singleton hv] at hd
  rw [hsup, hd]

/-- Elimination computes the rank. -/
theorem elimRank_eq (k : Nat) (rows : List (Vec n K)) (h : rows.length ≤ k) : elimRank k rows = matrixRank rows := by
  induction k generalizing rows with
  | zero => rw [List.length_eq_zero_iff.1 (Nat.le_zero.1 h), elimRank, matrixRank_nil]
  | succ k ih =>
    cases rows with
    | nil => rw [elimRank, matrixRank_nil]
    | cons v rest =>
      have hl : rest.length ≤ k := by simpa using h
      rw [elimRank]
      cases hp : pivot v with
      | none => rw [pivot_none hp, matrixRank_zero_cons]; exact ih rest hl
      | some i =>
        rw [matrixRank_pivot (pivot_some hp)]
        dsimp only
        rw [ih _ (by simpa using hl)]

/-- see `collinearPoints` -/
def collinearPointsX (pts : List (Vec n K)) : Bool :=
  let m := pts.dedup
  if m.length < 3 then true else decide (elimRank m.length m ≤ 1)

theorem collinearPointsX_eq (pts : List (Vec n K)) : collinearPointsX pts = collinearPoints pts := by
  unfold collinearPointsX collinearPoints
  simp only [elimRank_eq _ _ le_rfl]

/-- see `coplanarPoints` -/
def coplanarPointsX (pts : List (Vec n K)) : Except PyErr Bool :=
  if n < 3 then .ok true
  else match pts.getLast? with
    | none => .error .indexError
    | some l =>
      let rel := pts.map fun p => p - l
      if rel.dropLast.isEmpty then .error .valueError
      else .ok (decide (elimRank rel.dropLast.length rel.dropLast ≤ 2))

theorem coplanarPointsX_eq (pts : List (Vec n K)) : coplanarPointsX pts = coplanarPoints pts := by
  unfold coplanarPointsX coplanarPoints
  simp only [elimRank_eq _ _ le_rfl]
  rfl

/-- see `Seg.collinear` -/
def collinearX (s : Seg n K) : PointOrSeg n K → Bool
  | .point p => if vecEq p s.p1 || vecEq p s.p2 then true else collinearPointsX [s.p1, s.p2, p]
  | .seg r => if r.eq s || r.reverse.eq s then true else collinearPointsX [s.p1, s.p2, r.p1, r.p2]

theorem collinearX_eq (s : Seg n K) (o : PointOrSeg n K) : collinearX s o = s.collinear o := by
  cases o <;> simp only [collinearX, Seg.collinear, collinearPointsX_eq]

/-- see `Seg.coplanar` -/
def coplanarX (s : Seg n K) : PointOrSeg n K → Except PyErr Bool
  | .point p => coplanarPointsX [s.p1, s.p2, p]
  | .seg r => coplanarPointsX [s.p1, s.p2, r.p1, r.p2]

theorem coplanarX_eq (s : Seg n K) (o : PointOrSeg n K) : coplanarX s o = s.coplanar o := by
  cases o <;> simp only [coplanarX, Seg.coplanar, coplanarPointsX_eq]

/-- see `Seg.t` -/
def tX (s : Seg n K) (p : Vec n K) : Option K :=
  if !collinearX s (.point p) then none
  else some (lstsq1 s.direction (p - s.p1))

theorem tX_eq (s : Seg n K) (p : Vec n K) : tX s p = s.t p := by
  simp only [tX, Seg.t, collinearX_eq]

/-- see `Seg.overlap` -/
def overlapX (s r : Seg n K) (checkCollinear : Bool) : Option (Seg n K) :=
  if checkCollinear && !collinearX s (.seg r) then none
  else
    let minmax : Vec n K := fun i => min (max (s.p1 i) (s.p2 i)) (max (r.p1 i) (r.p2 i))
    let maxmin : Vec n K := fun i => max (min (s.p1 i) (s.p2 i)) (min (r.p1 i) (r.p2 i))
    if ∃ i, maxmin i > minmax i then none
    else some ⟨maxmin, minmax⟩

theorem overlapX_eq (s r : Seg n K) (b : Bool) : overlapX s r b = s.overlap r b := by
  simp only [overlapX, Seg.overlap, collinearX_eq]

/-- see `exactSegments` -/
def exactSegmentsX (feps : K) (s r : Seg n K) : Except PyErr (Info n K) :=
  if collinearX s (.seg r) then
    match overlapX s r false with
    | none => .ok notIntersected
    | some o => IType.overlap.call (.segment o)
  else if s.parallel r F_EPS then .ok notIntersected
  else
    match coplanarX s (.seg r) with
    | .error e => .error e
    | .ok cop =>
      if !cop then .ok notIntersected
      else if s.singular || r.singular then .ok notIntersected
      else
        let b := r.p1 - s.p1
        if h : n = 2 then
          match solve2 h s.direction r.direction b with
          | none => .ok notIntersected
          | some t => exactFinish feps s r t
        else exactFinish feps s r (lstsq2 s.direction r.direction b)

theorem exactSegmentsX_eq (feps : K) (s r : Seg n K) : exactSegmentsX feps s r = exactSegments feps s r := by
  unfold exactSegmentsX exactSegments
  rw [collinearX_eq, overlapX_eq, coplanarX_eq]
  congr 1
  cases s.overlap r false <;> rfl

/-- see `exactCurves` -/
def exactCurvesX (feps : K) (c1 c2 : GCurve n K) : Except PyErr (List (SegInt n K)) :=
  collect (fun s r => exactSegmentsX feps s.seg r.seg) c1 c2 (bboxPairs c1 c2)

theorem exactCurvesX_eq (feps : K) (c1 c2 : GCurve n K) : exactCurvesX feps c1 c2 = exactCurves feps c1 c2 := by
  simp only [exactCurvesX, exactCurves, exactSegmentsX_eq]

end Verif.Tests
