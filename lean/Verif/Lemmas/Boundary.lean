import Verif.Spec.Boundary
import Verif.Lemmas.Smooth
import Mathlib.Algebra.Ring.Periodic

/-!
The positions of `extIndex` continue a sequence as the modes say.
-/
namespace Verif.Model

open Verif Verif.Np Verif.Spec

theorem emod_of {a b q r : ℤ} (h : a = b * q + r) (h0 : 0 ≤ r) (h1 : r < b) : a % b = r := by
  rw [h, add_comm, Int.add_mul_emod_self_left]
  exact Int.emod_eq_of_lt h0 h1

theorem emod_spec {a b : ℤ} (hb : 0 < b) : ∃ q r, a = b * q + r ∧ 0 ≤ r ∧ r < b ∧ a % b = r :=
  ⟨a / b, a % b, (Int.mul_ediv_add_emod a b).symm, Int.emod_nonneg _ hb.ne', Int.emod_lt_of_pos _ hb, rfl⟩

theorem periodic_emod {e : ℤ → ℝ} {b : ℤ} (hb : 0 < b) (h : ∀ i, e (i + b) = e i) (i : ℤ) : e (i % b) = e i := by
  have hp : Function.Periodic e b := h
  obtain ⟨q, r, h1, _, _, h4⟩ := emod_spec (a := i) hb
  rw [h4, h1]
  have := hp.int_mul q r
  rw [add_comm, mul_comm]
  exact this.symm

/-- The continued sequence by positions. -/
noncomputable def extVal (m : ExtMode) (n : Nat) (cval : ℝ) (f : Nat → ℝ) (i : ℤ) : ℝ :=
  match extIndex m n i with
  | some p => f p
  | none => cval

/-- There is no other continuation. -/
theorem continues_unique {mode : String} {m : ExtMode} (hm : ExtMode.ofString mode = some m) {n : Nat} (hn : 0 < n) {cval : ℝ}
    {f : Nat → ℝ} {e : ℤ → ℝ} (h : Continues mode n cval f e) (i : ℤ) : e i = extVal m n cval f i := by
  unfold extVal extIndex
  by_cases hin : 0 ≤ i ∧ i < n
  · rw [if_pos hin]
    simp only
    rw [← h.inside i.toNat (by omega)]
    congr 1
    omega
  · rw [if_neg hin]
    cases m with
    | reflect =>
      have hmode : mode = "reflect" := by
        unfold ExtMode.ofString at hm
        split_ifs at hm <;> first | assumption | simp at hm
      have h1 := h.reflect hmode
      have hper : ∀ i, e (i + 2 * n) = e i := by
        intro i
        have := (h1 (-1 - i)).2
        rw [show (2 * n - 1 - (-1 - i) : ℤ) = i + 2 * n by ring] at this
        rw [this, (h1 i).1]
      rw [← periodic_emod (show (0 : ℤ) < 2 * n by omega) hper i]
      obtain ⟨q, r, e1, e2, e3, e4⟩ := emod_spec (a := i) (show (0 : ℤ) < 2 * n by omega)
      rw [e4]
      simp only
      split_ifs with hr
      · simp only
        rw [← h.inside r.toNat (by omega)]
        congr 1; omega
      · simp only
        rw [← h.inside _ (by omega), ← (h1 r).2]
        congr 1; omega
    | mirror =>
      have hmode : mode = "mirror" := by
        unfold ExtMode.ofString at hm
        split_ifs at hm <;> first | assumption | simp at hm
      obtain ⟨h1, h2⟩ := h.mirror hmode
      by_cases hn1 : n = 1
      · simp only [if_pos hn1]
        rw [h2 hn1 i, ← h.inside 0 (by omega)]
        rfl
      · simp only [if_neg hn1]
        have hper : ∀ i, e (i + (2 * n - 2)) = e i := by
          intro i
          have := (h1 (-i)).2
          rw [show (2 * (n - 1) - (-i) : ℤ) = i + (2 * n - 2) by ring] at this
          rw [this, (h1 i).1]
        rw [← periodic_emod (show (0 : ℤ) < 2 * n - 2 by omega) hper i]
        obtain ⟨q, r, e1, e2, e3, e4⟩ := emod_spec (a := i) (show (0 : ℤ) < 2 * n - 2 by omega)
        rw [e4]
        split_ifs with hr
        · simp only
          rw [← h.inside r.toNat (by omega)]
          congr 1; omega
        · simp only
          rw [← h.inside _ (by omega), ← (h1 r).2]
          congr 1; omega
    | nearest =>
      have hmode : mode = "nearest" := by
        unfold ExtMode.ofString at hm
        split_ifs at hm <;> first | assumption | simp at hm
      obtain ⟨h1, h2⟩ := h.nearest hmode
      simp only
      split_ifs with hi
      · simp only
        rw [h1 i hi, ← h.inside 0 (by omega)]
        rfl
      · simp only
        rw [h2 i (by omega), ← h.inside (n - 1) (by omega)]
        congr 1; omega
    | wrap =>
      have hmode : mode = "wrap" := by
        unfold ExtMode.ofString at hm
        split_ifs at hm <;> first | assumption | simp at hm
      have h1 := h.wrap hmode
      rw [← periodic_emod (show (0 : ℤ) < n by omega) h1 i]
      obtain ⟨q, r, e1, e2, e3, e4⟩ := emod_spec (a := i) (show (0 : ℤ) < n by omega)
      rw [e4]
      simp only
      rw [← h.inside r.toNat (by omega)]
      congr 1; omega
    | constant =>
      have hmode : mode = "constant" := by
        unfold ExtMode.ofString at hm
        split_ifs at hm <;> first | assumption | simp at hm
      exact h.constant hmode i (by omega)

/-- A continuation exists. -/
theorem continues_exists {mode : String} {m : ExtMode} (hm : ExtMode.ofString mode = some m) {n : Nat} (hn : 0 < n) (cval : ℝ)
    (f : Nat → ℝ) : Continues mode n cval f (extVal m n cval f) := by
  have key : ∀ {i j : ℤ}, extIndex m n i = extIndex m n j → extVal m n cval f i = extVal m n cval f j := by
    intro i j h; unfold extVal; rw [h]
  have inside : ∀ {i : ℤ}, 0 ≤ i → i < n → extIndex m n i = some i.toNat := by
    intro i h0 h1; unfold extIndex; rw [if_pos ⟨h0, h1⟩]
  refine ⟨?_, ?_, ?_, ?_, ?_, ?_⟩
  · intro i hi
    unfold extVal
    rw [inside (by omega) (by omega)]
    simp
  · rintro rfl i
    obtain rfl : ExtMode.reflect = m := by simpa [ExtMode.ofString] using hm
    -- the position by the remainder alone
    have pos : ∀ i : ℤ, extIndex .reflect n i = if i % (2 * n) < n then some (i % (2 * n)).toNat else some (2 * n - 1 - i % (2 * n)).toNat := by
      intro i
      by_cases h : 0 ≤ i ∧ i < n
      · rw [inside h.1 h.2, Int.emod_eq_of_lt h.1 (by omega), if_pos h.2]
      · unfold extIndex; rw [if_neg h]
    obtain ⟨q, r, e1, e2, e3, e4⟩ := emod_spec (a := i) (show (0 : ℤ) < 2 * n by omega)
    constructor
    · apply key
      rw [pos, pos, e4, emod_of (q := -q - 1) (r := 2 * n - 1 - r) (by rw [e1]; ring) (by omega) (by omega)]
      split_ifs <;> first | omega | (congr 1 <;> omega)
    · apply key
      rw [pos, pos, e4, emod_of (q := -q) (r := 2 * n - 1 - r) (by rw [e1]; ring) (by omega) (by omega)]
      split_ifs <;> first | omega | (congr 1 <;> omega)
  · rintro rfl
    obtain rfl : ExtMode.mirror = m := by simpa [ExtMode.ofString] using hm
    by_cases hn1 : n = 1
    · subst hn1
      have pos : ∀ i : ℤ, extIndex .mirror 1 i = some 0 := by
        intro i
        by_cases h : 0 ≤ i ∧ i < (1 : Nat)
        · rw [inside h.1 h.2]
          congr 1; omega
        · unfold extIndex; rw [if_neg h]; simp
      exact ⟨fun i => ⟨key (by rw [pos, pos]), key (by rw [pos, pos])⟩, fun _ i => key (by rw [pos, pos])⟩
    · refine ⟨?_, fun h => absurd h hn1⟩
      intro i
      have pos : ∀ i : ℤ, extIndex .mirror n i =
          if i % (2 * n - 2) < n then some (i % (2 * n - 2)).toNat else some (2 * n - 2 - i % (2 * n - 2)).toNat := by
        intro i
        by_cases h : 0 ≤ i ∧ i < n
        · by_cases h2 : i < 2 * n - 2
          · rw [inside h.1 h.2, Int.emod_eq_of_lt h.1 h2, if_pos h.2]
          · -- only for two points, at the second one
            exfalso; omega
        · unfold extIndex; simp only [if_neg h, if_neg hn1]
      obtain ⟨q, r, e1, e2, e3, e4⟩ := emod_spec (a := i) (show (0 : ℤ) < 2 * n - 2 by omega)
      by_cases h0 : r = 0
      · have a1 : (-i) % (2 * n - 2 : ℤ) = 0 := emod_of (q := -q) (by rw [e1, h0]; ring) (le_refl _) (by omega)
        have a2 : (2 * (n - 1) - i) % (2 * n - 2 : ℤ) = 0 := emod_of (q := 1 - q) (by rw [e1, h0]; ring) (le_refl _) (by omega)
        exact ⟨key (by rw [pos, pos, a1, e4, h0]), key (by rw [pos, pos, a2, e4, h0])⟩
      · have a1 : (-i) % (2 * n - 2 : ℤ) = 2 * n - 2 - r := emod_of (q := -q - 1) (by rw [e1]; ring) (by omega) (by omega)
        have a2 : (2 * (n - 1) - i) % (2 * n - 2 : ℤ) = 2 * n - 2 - r := emod_of (q := -q) (by rw [e1]; ring) (by omega) (by omega)
        have a3 : (if (2 * n - 2 - r : ℤ) < n then some (2 * n - 2 - r : ℤ).toNat else some (2 * n - 2 - (2 * n - 2 - r) : ℤ).toNat) =
            if r < n then some r.toNat else some (2 * n - 2 - r : ℤ).toNat := by
          split_ifs <;> first | omega | (congr 1 <;> omega)
        exact ⟨key (by rw [pos, pos, a1, e4, a3]), key (by rw [pos, pos, a2, e4, a3])⟩
  · rintro rfl
    obtain rfl : ExtMode.nearest = m := by simpa [ExtMode.ofString] using hm
    constructor
    · intro i hi
      apply key
      rw [inside (i := 0) (by omega) (by omega)]
      unfold extIndex
      rw [if_neg (by omega)]
      simp [hi]
    · intro i hi
      apply key
      rw [inside (i := (n : ℤ) - 1) (by omega) (by omega)]
      unfold extIndex
      rw [if_neg (by omega)]
      simp only
      rw [if_neg (by omega)]
      congr 1; omega
  · rintro rfl
    obtain rfl : ExtMode.wrap = m := by simpa [ExtMode.ofString] using hm
    have pos : ∀ i : ℤ, extIndex .wrap n i = some (i % n).toNat := by
      intro i
      by_cases h : 0 ≤ i ∧ i < n
      · rw [inside h.1 h.2, Int.emod_eq_of_lt h.1 h.2]
      · unfold extIndex; rw [if_neg h]
    intro i
    apply key
    rw [pos, pos, Int.add_emod_right]
  · rintro rfl
    obtain rfl : ExtMode.constant = m := by simpa [ExtMode.ofString] using hm
    intro i hi
    unfold extVal extIndex
    rw [if_neg (by omega)]

end Verif.Model
