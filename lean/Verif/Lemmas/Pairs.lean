import Verif.Model.Intersect
import Verif.Spec.Intersect

/-! Lists of index pairs. -/
namespace Verif.Model

open Verif Verif.Spec

theorem mem_nonzero {m1 m2 : Nat} {mat : Mat Bool} {p : Nat × Nat} :
    p ∈ nonzero m1 m2 mat ↔ p.1 < m1 ∧ p.2 < m2 ∧ mat p.1 p.2 = true := by
  obtain ⟨i, j⟩ := p
  simp only [nonzero, List.mem_flatMap, List.mem_range, List.mem_map, List.mem_filter, Prod.mk.injEq]
  constructor
  · rintro ⟨a, ha, b, ⟨hb, hm⟩, rfl, rfl⟩; exact ⟨ha, hb, hm⟩
  · rintro ⟨ha, hb, hm⟩; exact ⟨i, ha, j, ⟨hb, hm⟩, rfl, rfl⟩

theorem nonzero_before (m1 m2 : Nat) (mat : Mat Bool) : (nonzero m1 m2 mat).Pairwise Before := by
  unfold nonzero
  rw [List.pairwise_flatMap]
  constructor
  · intro i _
    rw [List.pairwise_map]
    exact (List.pairwise_lt_range.sublist List.filter_sublist).imp fun h => .inr ⟨rfl, h⟩
  · refine List.pairwise_lt_range.imp ?_
    intro a b hab x hx y hy
    simp only [List.mem_map] at hx hy
    obtain ⟨_, _, rfl⟩ := hx
    obtain ⟨_, _, rfl⟩ := hy
    exact .inl hab

theorem mem_curvesIndices {m1 m2 : Nat} {mat : Mat Bool} {self : Bool} {p : Nat × Nat} :
    p ∈ curvesIndices m1 m2 mat self ↔ p.1 < m1 ∧ p.2 < m2 ∧ mat p.1 p.2 = true ∧ (self = true → p.1 + 2 ≤ p.2) := by
  unfold curvesIndices
  cases self
  · simp [mem_nonzero]
  · simp only [if_true, List.mem_filter, mem_nonzero, Bool.not_eq_true', decide_eq_false_iff_not, not_lt, forall_const]
    constructor
    · rintro ⟨⟨h1, h2, h3⟩, h4⟩
      split_ifs at h3 with h
      refine ⟨h1, h2, h3, ?_⟩
      rw [abs_of_nonpos (by omega)] at h4
      omega
    · rintro ⟨h1, h2, h3, h4⟩
      refine ⟨⟨h1, h2, ?_⟩, ?_⟩
      · rw [if_neg (by omega)]; exact h3
      · rw [abs_of_nonpos (by omega)]; omega

theorem curvesIndices_before (m1 m2 : Nat) (mat : Mat Bool) (self : Bool) :
    (curvesIndices m1 m2 mat self).Pairwise Before := by
  unfold curvesIndices
  cases self
  · exact nonzero_before _ _ _
  · exact (nonzero_before _ _ _).sublist List.filter_sublist

/-- A list strictly increasing in an irreflexive order has no repetitions. -/
theorem before_nodup {l : List (Nat × Nat)} (h : l.Pairwise Before) : l.Nodup := by
  refine h.imp ?_
  rintro ⟨a, b⟩ ⟨c, d⟩ h e
  rw [Prod.mk.injEq] at e
  unfold Before at h
  simp only at h
  omega

variable {n : Nat} {K : Type} [Field K] [LinearOrder K] [IsStrictOrderedRing K]

theorem collect_ok {f : SegObj n K → SegObj n K → Except PyErr (Info n K)} {g : SegObj n K → SegObj n K → Info n K}
    (h : ∀ s r, f s r = .ok (g s r)) (c1 c2 : GCurve n K) (l : List (Nat × Nat)) :
    collect f c1 c2 l = .ok ((l.filter fun p => decide ((g (c1.segment p.1) (c2.segment p.2)).type ≠ .none)).map
      fun p => ⟨c1.segment p.1, c2.segment p.2, g (c1.segment p.1) (c2.segment p.2)⟩) := by
  induction l with
  | nil => rfl
  | cons p l ih =>
    rw [collect, h, ih]
    simp only [bind, Except.bind]
    by_cases hp : (g (c1.segment p.1) (c2.segment p.2)).type = .none
    · simp [hp]
    · simp [hp]

theorem segment_eq (c : GCurve n K) (i : Nat) (hi : i + 1 < c.data.length) :
    c.segment i = ⟨⟨c.data[i], c.data[i + 1]⟩, some (c.cid, i)⟩ := by
  have h1 : c.data.getD i 0 = c.data[i] := by simp [List.getD, List.getElem?_eq_getElem (show i < c.data.length by omega)]
  have h2 : c.data.getD (i + 1) 0 = c.data[i + 1] := by simp [List.getD, List.getElem?_eq_getElem hi]
  unfold GCurve.segment rowAt
  rw [h1, h2]

end Verif.Model
