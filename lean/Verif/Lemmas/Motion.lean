import Verif.Spec.Motion
import Verif.Props.DiffGeom

/-! Arrays of vectors under linear isometries. -/
namespace Verif.Props

open Verif Verif.Np Verif.Model Verif.Spec

section
variable {n n' : Nat} (L : EuclideanSpace ℝ (Fin n) →ₗᵢ[ℝ] EuclideanSpace ℝ (Fin n'))

/-- Row by row, `b` is the image of `a`. -/
structure Rel (a b : NMat) : Prop where
  m : b.m = a.m
  k : a.k ≤ n
  k' : b.k ≤ n'
  v : ∀ i, i < a.m → rowVec n' b.rows i = L (rowVec n a.rows i)

/-- The gradient as a combination of rows. -/
theorem rowVec_gradient {p : Nat} {a : NMat} (h2 : 2 ≤ a.m) {i : Nat} (hi : i < a.m) :
    rowVec p (gradient a).rows i =
      if 3 ≤ a.m then
        if i = 0 then (-1.5 : ℝ) • rowVec p a.rows 0 + (2 : ℝ) • rowVec p a.rows 1 + (-0.5 : ℝ) • rowVec p a.rows 2
        else if i = a.m - 1 then (0.5 : ℝ) • rowVec p a.rows (a.m - 3) + (-2 : ℝ) • rowVec p a.rows (a.m - 2) + (1.5 : ℝ) • rowVec p a.rows (a.m - 1)
        else (1 / 2 : ℝ) • (rowVec p a.rows (i + 1) - rowVec p a.rows (i - 1))
      else rowVec p a.rows 1 - rowVec p a.rows 0 := by
  ext j
  rw [rowVec_apply, gradient_at2 h2 hi]
  unfold grad1 npGradient
  by_cases h3 : 3 ≤ a.m
  · simp only [if_pos h3]
    by_cases h0 : i = 0
    · simp [h0, rowVec_apply]
    · simp only [if_neg h0]
      by_cases hm : i = a.m - 1
      · simp [hm, rowVec_apply]
      · simp only [if_neg hm, PiLp.smul_apply, PiLp.sub_apply, rowVec_apply, smul_eq_mul]
        ring
  · have h : a.m = 2 := by omega
    have : i = 0 ∨ i = 1 := by omega
    rcases this with rfl | rfl <;> simp [h, rowVec_apply]

variable {L}

/-- Differences do not see a translation. -/
theorem rel_gradient_affine {a b : NMat} (h2 : 2 ≤ a.m) (w : EuclideanSpace ℝ (Fin n')) (hm : b.m = a.m) (hk : a.k ≤ n) (hk' : b.k ≤ n')
    (hv : ∀ i, i < a.m → rowVec n' b.rows i = L (rowVec n a.rows i) + w) : Rel L (gradient a) (gradient b) := by
  refine ⟨by simp [hm], by rw [gradient_k h2]; exact hk, by rw [gradient_k (by omega)]; exact hk', ?_⟩
  intro i hi
  rw [gradient_m] at hi
  rw [rowVec_gradient h2 hi, rowVec_gradient (by omega) (by omega), hm]
  by_cases h3 : 3 ≤ a.m
  · simp only [if_pos h3]
    by_cases h0 : i = 0
    · simp only [if_pos h0]
      rw [hv 0 (by omega), hv 1 (by omega), hv 2 (by omega)]
      simp only [map_add, map_smul]
      module
    · simp only [if_neg h0]
      by_cases he : i = a.m - 1
      · simp only [if_pos he]
        rw [hv _ (by omega), hv _ (by omega), hv _ (by omega)]
        simp only [map_add, map_smul]
        module
      · simp only [if_neg he]
        rw [hv _ (by omega), hv _ (by omega)]
        simp only [map_sub, map_smul]
        module
  · simp only [if_neg h3]
    rw [hv _ (by omega), hv _ (by omega)]
    simp only [map_sub]
    module

theorem rel_gradient {a b : NMat} (h2 : 2 ≤ a.m) (h : Rel L a b) : Rel L (gradient a) (gradient b) :=
  rel_gradient_affine h2 0 h.m h.k h.k' (by intro i hi; rw [add_zero]; exact h.v i hi)

theorem rel_norm {a b : NMat} (h : Rel L a b) {i : Nat} (hi : i < a.m) : rowNorm b i = rowNorm a i := by
  rw [rowNorm_eq h.k hi, rowNorm_eq h.k' (by rw [h.m]; exact hi), h.v i hi, L.norm_map]

theorem rel_dot {a b d e : NMat} (h : Rel L a b) (h' : Rel L d e) (hk : a.k = d.k) (hk' : b.k = e.k) {i : Nat} (hi : i < a.m) (hi' : i < d.m) :
    dotRow b e i = dotRow a d i := by
  rw [dotRow_eq h.k hk hi hi', dotRow_eq h.k' hk' (by rw [h.m]; exact hi) (by rw [h'.m]; exact hi'), h.v i hi, h'.v i hi', L.inner_map_map]

theorem rel_unit {a b : NMat} (h : Rel L a b) : Rel L (unitRows a) (unitRows b) := by
  refine ⟨h.m, h.k, h.k', ?_⟩
  intro i hi
  have hi : i < a.m := hi
  rw [rowVec_unitRows hi, rowVec_unitRows (by rw [h.m]; exact hi), h.v i hi, map_smul]
  unfold frenetNorm
  rw [rel_norm h hi]

theorem rel_reject {s t e f : NMat} (h : Rel L s t) (h' : Rel L e f) (hm : s.m = e.m) (hk : s.k = e.k) (hk' : t.k = f.k) :
    Rel L (reject s e) (reject t f) := by
  refine ⟨h.m, h.k, h.k', ?_⟩
  intro i hi
  have hi : i < s.m := hi
  rw [rowVec_reject h.k hk hi (by omega), rowVec_reject h.k' hk' (by rw [h.m]; exact hi) (by rw [h'.m]; omega), h.v i hi,
    h'.v i (by omega), L.inner_map_map, map_sub, map_smul]

theorem rel_reject2 {s t e f g q : NMat} (h : Rel L s t) (h' : Rel L e f) (h'' : Rel L g q) (hm : s.m = e.m) (hm' : s.m = g.m)
    (hk : s.k = e.k) (hk' : t.k = f.k) (hk2 : s.k = g.k) (hk2' : t.k = q.k) : Rel L (reject2 s e g) (reject2 t f q) := by
  refine ⟨h.m, h.k, h.k', ?_⟩
  intro i hi
  have hi : i < s.m := hi
  rw [rowVec_reject2 h.k hk hk2 hi (by omega) (by omega),
    rowVec_reject2 h.k' hk' hk2' (by rw [h.m]; exact hi) (by rw [h'.m]; omega) (by rw [h''.m]; omega), h.v i hi,
    h'.v i (by omega), h''.v i (by omega), L.inner_map_map, L.inner_map_map, map_sub, map_sub, map_smul, map_smul]

end

/-- The chords, given the distances of neighbouring points. -/
theorem chords_congr {n n' : Nat} {xs ys : List (List ℝ)} (hl : ys.length = xs.length) (hx : ∀ r ∈ xs, r.length = n)
    (hy : ∀ r ∈ ys, r.length = n')
    (h : ∀ i, i + 1 < xs.length → gap n' (ys.getD i []) (ys.getD (i + 1) []) = gap n (xs.getD i []) (xs.getD (i + 1) [])) :
    chords ys = chords xs := by
  apply List.ext_getElem
  · rw [chords_length, chords_length, hl]
  · intro i h1 h2
    rw [chords_length] at h1 h2
    have := h i (by omega)
    simp only [List.getD_eq_getElem?_getD] at this
    rw [List.getElem?_eq_getElem (show i < ys.length by omega), List.getElem?_eq_getElem (show i + 1 < ys.length by omega),
      List.getElem?_eq_getElem (show i < xs.length by omega), List.getElem?_eq_getElem (show i + 1 < xs.length by omega)] at this
    simp only [Option.getD_some] at this
    simp only [chords, List.getElem_zipWith, List.getElem_tail]
    rw [chord_eq_gap (n := n') (hy _ (List.getElem_mem _)) (hy _ (List.getElem_mem _)),
      chord_eq_gap (n := n) (hx _ (List.getElem_mem _)) (hx _ (List.getElem_mem _))]
    exact this

end Verif.Props
