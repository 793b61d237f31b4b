import Verif.Model.ArcLen
import Verif.Spec.ArcLen
import Verif.Spec.Curve

/-! Chord lengths are distances; the polygonal length and its monotonicity. -/
namespace Verif.Model

open Verif Verif.Np Verif.Spec

theorem gap_nonneg (n : Nat) (a b : List ℝ) : 0 ≤ gap n a b := dist_nonneg
theorem gap_comm (n : Nat) (a b : List ℝ) : gap n a b = gap n b a := dist_comm _ _
theorem gap_triangle (n : Nat) (a b c : List ℝ) : gap n a c ≤ gap n a b + gap n b c := dist_triangle _ _ _

theorem gap_eq_sqrt (n : Nat) (a b : List ℝ) :
    gap n a b = √ (∑ i : Fin n, (b.getD i 0 - a.getD i 0) ^ 2) := by
  unfold gap pt
  rw [EuclideanSpace.dist_eq]
  congr 1
  refine Finset.sum_congr rfl fun i _ => ?_
  simp only [Real.dist_eq, sq_abs]
  ring

theorem sum_zipWith_sq (n : Nat) (a b : List ℝ) (ha : a.length = n) (hb : b.length = n) :
    (List.zipWith (fun x y => (y - x) ^ 2) a b).sum = ∑ i : Fin n, (b.getD i 0 - a.getD i 0) ^ 2 := by
  induction n generalizing a b with
  | zero =>
    rw [List.length_eq_zero_iff] at ha; subst ha; simp
  | succ n ih =>
    cases a with
    | nil => simp at ha
    | cons x a =>
      cases b with
      | nil => simp at hb
      | cons y b =>
        rw [Fin.sum_univ_succ]
        have := ih a b (by simpa using ha) (by simpa using hb)
        simpa using this

theorem chord_eq_gap {n : Nat} {a b : List ℝ} (ha : a.length = n) (hb : b.length = n) :
    chord a b = gap n a b := by
  rw [gap_eq_sqrt, chord, sum_zipWith_sq n a b ha hb]

theorem chord_nonneg (a b : List ℝ) : 0 ≤ chord a b := Real.sqrt_nonneg _

theorem chords_nonneg {rows : List (List ℝ)} {x : ℝ} (h : x ∈ chords rows) : 0 ≤ x := by
  unfold chords at h
  rw [List.mem_iff_getElem] at h
  obtain ⟨i, hi, rfl⟩ := h
  rw [List.getElem_zipWith]
  exact chord_nonneg _ _

theorem chords_length (rows : List (List ℝ)) : (chords rows).length = rows.length - 1 := by
  simp [chords]

theorem chords_cons_cons (a b : List ℝ) (l : List (List ℝ)) :
    chords (a :: b :: l) = chord a b :: chords (b :: l) := by simp [chords]

theorem chords_sum {n : Nat} {rows : List (List ℝ)} (h : ∀ r ∈ rows, r.length = n) :
    (chords rows).sum = pathLen n rows := by
  induction rows with
  | nil => simp [chords, pathLen]
  | cons a l ih =>
    cases l with
    | nil => simp [chords, pathLen]
    | cons b l =>
      rw [chords_cons_cons, List.sum_cons, ih (fun r hr => h r (List.mem_cons_of_mem _ hr)),
        chord_eq_gap (h a (by simp)) (h b (by simp))]
      rfl

theorem pathLen_nonneg (n : Nat) (l : List (List ℝ)) : 0 ≤ pathLen n l := by
  induction l with
  | nil => simp [pathLen]
  | cons a l ih =>
    cases l with
    | nil => simp [pathLen]
    | cons b l => exact add_nonneg (gap_nonneg _ _ _) ih

/-- a path may start anywhere: the detour over a first point is not shorter -/
theorem pathLen_cons_le (n : Nat) (a : List ℝ) (l : List (List ℝ)) : pathLen n l ≤ pathLen n (a :: l) := by
  cases l with
  | nil => simp [pathLen]
  | cons b l => exact le_add_of_nonneg_left (gap_nonneg _ _ _)

theorem pathLen_skip (n : Nat) (a b : List ℝ) (l : List (List ℝ)) :
    pathLen n (a :: l) ≤ gap n a b + pathLen n (b :: l) := by
  cases l with
  | nil => simp only [pathLen]; have := gap_nonneg n a b; linarith
  | cons c l =>
    simp only [pathLen]
    have := gap_triangle n a b c
    linarith

theorem pathLen_sublist_aux (n : Nat) {l l' : List (List ℝ)} (h : l.Sublist l') :
    pathLen n l ≤ pathLen n l' ∧ ∀ a, pathLen n (a :: l) ≤ pathLen n (a :: l') := by
  induction h with
  | slnil => simp
  | cons b h ih =>
    rename_i l₁ l₂
    refine ⟨ih.1.trans (pathLen_cons_le n b l₂), fun a => ?_⟩
    calc pathLen n (a :: l₁) ≤ gap n a b + pathLen n (b :: l₁) := pathLen_skip n a b l₁
      _ ≤ gap n a b + pathLen n (b :: l₂) := by have := ih.2 b; linarith
  | cons_cons b h ih =>
    rename_i l₁ l₂
    exact ⟨ih.2 b, fun a => by simp only [pathLen]; have := ih.2 b; linarith⟩

theorem pathLen_sublist (n : Nat) {l l' : List (List ℝ)} (h : l.Sublist l') : pathLen n l ≤ pathLen n l' :=
  (pathLen_sublist_aux n h).1

theorem pathLen_append (n : Nat) (l : List (List ℝ)) (a b : List ℝ) (l' : List (List ℝ)) :
    pathLen n (l ++ a :: b :: l') = pathLen n (l ++ [a]) + gap n a b + pathLen n (b :: l') := by
  induction l with
  | nil => simp [pathLen]
  | cons c l ih =>
    cases l with
    | nil => simp only [List.nil_append, List.cons_append, pathLen] at *; ring
    | cons d l =>
      simp only [List.cons_append, pathLen] at *
      linarith

theorem pathLen_reverse (n : Nat) (l : List (List ℝ)) : pathLen n l.reverse = pathLen n l := by
  induction l with
  | nil => simp
  | cons a l ih =>
    cases l with
    | nil => simp
    | cons b l =>
      have := pathLen_append n l.reverse b a []
      simp only [List.reverse_cons, List.append_assoc, List.cons_append, List.nil_append] at *
      rw [this, ih]
      simp only [pathLen]
      rw [gap_comm n a b]
      ring

theorem pathLen_split (n : Nat) (l : List (List ℝ)) (i : Nat) :
    pathLen n l = pathLen n (l.take (i + 1)) + pathLen n (l.drop i) := by
  induction i generalizing l with
  | zero => cases l <;> simp [pathLen]
  | succ i ih =>
    cases l with
    | nil => simp [pathLen]
    | cons a l =>
      cases l with
      | nil => simp [pathLen]
      | cons b l =>
        have := ih (b :: l)
        simp only [List.take_succ_cons, List.drop_succ_cons, pathLen] at *
        linarith

end Verif.Model
