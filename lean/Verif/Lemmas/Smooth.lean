import Verif.Model.Smooth
import Verif.Spec.Smooth
import Verif.Lemmas.Interp
import Verif.Lemmas.Curve
import Mathlib.Algebra.BigOperators.Group.Finset.Basic
import Mathlib.Algebra.BigOperators.Ring.Finset
import Mathlib.Algebra.Order.BigOperators.Group.Finset

/-!
Lemmas on smoothing.
-/
namespace Verif.Model

open Verif.Np Verif.Spec

theorem ofString_repeat {mode : String} (h : RepeatMode mode) : ∃ m, ExtMode.ofString mode = some m ∧ m ≠ .constant := by
  simp [RepeatMode] at h
  rcases h with rfl | rfl | rfl | rfl
  · exact ⟨.reflect, by simp [ExtMode.ofString], by simp⟩
  · exact ⟨.mirror, by simp [ExtMode.ofString], by simp⟩
  · exact ⟨.nearest, by simp [ExtMode.ofString], by simp⟩
  · exact ⟨.wrap, by simp [ExtMode.ofString], by simp⟩

theorem extIndex_lt {m : ExtMode} (hm : m ≠ .constant) {n : Nat} (hn : 0 < n) (i : Int) : ∃ p, p < n ∧ extIndex m n i = some p := by
  unfold extIndex
  split
  · exact ⟨i.toNat, by omega, rfl⟩
  · cases m with
    | reflect =>
      have h1 := Int.emod_nonneg i (show (2 * (n : Int)) ≠ 0 by omega)
      have h2 := Int.emod_lt_of_pos i (show (0 : Int) < 2 * n by omega)
      simp only
      split
      · exact ⟨_, by omega, rfl⟩
      · exact ⟨_, by omega, rfl⟩
    | mirror =>
      simp only
      split
      · exact ⟨0, by omega, rfl⟩
      · have h1 := Int.emod_nonneg i (show (2 * (n : Int) - 2) ≠ 0 by omega)
        have h2 := Int.emod_lt_of_pos i (show (0 : Int) < 2 * n - 2 by omega)
        split
        · exact ⟨_, by omega, rfl⟩
        · exact ⟨_, by omega, rfl⟩
    | nearest =>
      simp only
      split
      · exact ⟨0, by omega, rfl⟩
      · exact ⟨n - 1, by omega, rfl⟩
    | wrap =>
      have h1 := Int.emod_nonneg i (show (n : Int) ≠ 0 by omega)
      have h2 := Int.emod_lt_of_pos i (show (0 : Int) < n by omega)
      exact ⟨_, by omega, rfl⟩
    | constant => exact absurd rfl hm

/-- The entry at position `i` of the extended line, for the modes that repeat. -/
def extPos (m : ExtMode) (n : Nat) (i : Int) : Nat := (extIndex m n i).getD 0

theorem extPos_lt {m : ExtMode} (hm : m ≠ .constant) {n : Nat} (hn : 0 < n) (i : Int) :
    extPos m n i < n ∧ extIndex m n i = some (extPos m n i) := by
  obtain ⟨p, h1, h2⟩ := extIndex_lt hm hn i
  unfold extPos
  rw [h2]
  exact ⟨h1, rfl⟩

theorem sumV_fins (xs : List ℝ) : sumV (fins xs) = .fin xs.sum := by
  unfold sumV
  rw [foldl_add_fins, zero_add]

theorem getD_map_fins (rows : List (List ℝ)) (p j : Nat) :
    ((rows.map fins).getD p []).getD j (.fin 0) = .fin (at2 rows p j) := by
  unfold at2
  simp only [List.getD_eq_getElem?_getD, List.getElem?_map]
  cases rows[p]? with
  | none => simp
  | some r =>
    simp only [Option.map_some, Option.getD_some, fins, List.getElem?_map]
    cases r[j]? <;> simp

theorem list_sum_range (f : Nat → ℝ) (n : Nat) : ((List.range n).map f).sum = ∑ k ∈ Finset.range n, f k := by
  induction n with
  | zero => simp
  | succ n ih => rw [List.range_succ, List.map_append, List.sum_append, ih, Finset.sum_range_succ]; simp

theorem list_sum_getD (l : List ℝ) : l.sum = ∑ k ∈ Finset.range l.length, l.getD k 0 := by
  rw [← list_sum_range]
  congr 1
  apply List.ext_getElem
  · simp
  · intro i h1 h2
    simp at h2
    simp [h2]

/-- One entry of the convolution before the cast. -/
theorem conv_entry (rows : List (List ℝ)) (hne : rows ≠ []) {m : ExtMode} (hm : m ≠ .constant) (cval : Val ℝ) (ws : List ℝ)
    (i : Int) (j : Nat) :
    sumV ((List.range (fins ws).length).map fun (k : Nat) =>
      ((fins ws).getD k (.fin 0)).mul (extAt (rows.map fins) m cval (i + (((fins ws).length / 2 : Nat) : Int) - (k : Int)) j)) =
    .fin (∑ k ∈ Finset.range ws.length, ws.getD k 0 * at2 rows (extPos m rows.length (i + ((ws.length / 2 : Nat) : Int) - (k : Int))) j) := by
  have hlen : (fins ws).length = ws.length := by simp [fins]
  have hpos : 0 < rows.length := List.length_pos_iff.2 hne
  rw [hlen, ← list_sum_range, ← sumV_fins]
  congr 1
  unfold fins
  rw [List.map_map]
  apply List.map_congr_left
  intro k _
  have h1 : (List.map Val.fin ws).getD k (Val.fin 0) = .fin (ws.getD k 0) := by
    simp only [List.getD_eq_getElem?_getD, List.getElem?_map]
    cases ws[k]? <;> simp
  have h2 : extAt (rows.map fins) m cval (i + ((ws.length / 2 : Nat) : Int) - (k : Int)) j =
      .fin (at2 rows (extPos m rows.length (i + ((ws.length / 2 : Nat) : Int) - (k : Int))) j) := by
    unfold extAt
    rw [List.length_map, (extPos_lt hm hpos _).2]
    exact getD_map_fins rows _ j
  simp only [Function.comp]
  rw [h1]
  unfold fins at h2
  rw [h2, Val.mul_fin]

/-- The weight of point `p` in the smoothed point `i`. -/
noncomputable def avgWeight (m : ExtMode) (n : Nat) (ws : List ℝ) (i p : Nat) : ℝ :=
  ∑ k ∈ Finset.range ws.length, if extPos m n ((i : Int) + ((ws.length / 2 : Nat) : Int) - (k : Int)) = p then ws.getD k 0 else 0

theorem avgWeight_sum {m : ExtMode} (hm : m ≠ .constant) {n : Nat} (hn : 0 < n) (ws : List ℝ) (i : Nat) (f : Nat → ℝ) :
    ∑ k ∈ Finset.range ws.length, ws.getD k 0 * f (extPos m n ((i : Int) + ((ws.length / 2 : Nat) : Int) - (k : Int))) =
    ∑ p ∈ Finset.range n, avgWeight m n ws i p * f p := by
  unfold avgWeight
  simp only [Finset.sum_mul]
  rw [Finset.sum_comm]
  apply Finset.sum_congr rfl
  intro k _
  rw [Finset.sum_eq_single (extPos m n ((i : Int) + ((ws.length / 2 : Nat) : Int) - (k : Int)))]
  · simp
  · intro p _ hp; rw [if_neg (Ne.symm hp), zero_mul]
  · intro h; exact absurd (Finset.mem_range.2 (extPos_lt hm hn _).1) h

theorem avgWeight_nonneg {m : ExtMode} {n : Nat} {ws : List ℝ} (hw : ∀ x ∈ ws, 0 ≤ x) (i p : Nat) : 0 ≤ avgWeight m n ws i p := by
  unfold avgWeight
  apply Finset.sum_nonneg
  intro k hk
  split
  · rw [Finset.mem_range] at hk
    rw [List.getD_eq_getElem?_getD, List.getElem?_eq_getElem hk, Option.getD_some]
    exact hw _ (List.getElem_mem hk)
  · exact le_refl _

theorem avgWeight_total {m : ExtMode} (hm : m ≠ .constant) {n : Nat} (hn : 0 < n) (ws : List ℝ) (i : Nat) :
    ∑ p ∈ Finset.range n, avgWeight m n ws i p = ws.sum := by
  have := avgWeight_sum hm hn ws i (fun _ => 1)
  simp only [mul_one] at this
  rw [← this, list_sum_getD]

theorem at2_range (f : Nat → Nat → ℝ) (m n : Nat) {i j : Nat} (hi : i < m) (hj : j < n) :
    at2 ((List.range m).map fun i => (List.range n).map fun j => f i j) i j = f i j := by
  unfold at2
  simp [List.getD_eq_getElem?_getD, hi, hj]

theorem rows_eq_at2 {rows : List (List ℝ)} {n : Nat} (h : ∀ r ∈ rows, r.length = n) :
    rows = (List.range rows.length).map fun i => (List.range n).map fun j => at2 rows i j := by
  apply List.ext_getElem
  · simp
  · intro i h1 h2
    have hr := h _ (List.getElem_mem h1)
    apply List.ext_getElem
    · simp [hr]
    · intro j h3 h4
      simp at h4
      unfold at2
      simp [List.getD_eq_getElem?_getD, h1, h3]

/-- Lists of rows of one shape with equal entries are equal. -/
theorem rows_ext {a b : List (List ℝ)} {n : Nat} (ha : ∀ r ∈ a, r.length = n) (hb : ∀ r ∈ b, r.length = n) (hl : a.length = b.length)
    (h : ∀ i j, i < a.length → j < n → at2 a i j = at2 b i j) : a = b := by
  rw [rows_eq_at2 ha, rows_eq_at2 hb, ← hl]
  apply List.map_congr_left
  intro i hi
  apply List.map_congr_left
  intro j hj
  exact h i j (List.mem_range.1 hi) (List.mem_range.1 hj)

end Verif.Model
