import Verif.Model.Int64
import Verif.Props.ArcLen
import Mathlib.Data.Int.ModEq

/-!
C136: integer coordinates with 64 bits.
-/
namespace Verif.Spec

/-- The square of the distance of two points with integer coordinates. -/
def sqDist (a b : List ℤ) : ℤ := (List.zipWith (fun x y => (y - x) ^ 2) a b).sum

/-- Scalar product. -/
def scalar (a b : List ℤ) : ℤ := (List.zipWith (fun x y => x * y) a b).sum

end Verif.Spec

namespace Verif.Props

open Verif Verif.Np Verif.Model Verif.Spec

theorem wrap64_mod (z : ℤ) : wrap64 z ≡ z [ZMOD 2 ^ 64] := by
  unfold wrap64 Int.ModEq
  omega

theorem wrap64_range (z : ℤ) : -2 ^ 63 ≤ wrap64 z ∧ wrap64 z < 2 ^ 63 := by
  unfold wrap64
  omega

theorem wrap64_id {z : ℤ} (h1 : -2 ^ 63 ≤ z) (h2 : z < 2 ^ 63) : wrap64 z = z := by
  unfold wrap64
  omega

/-- Only one number of 64 bits is congruent to `z`. -/
theorem wrap64_unique {r z : ℤ} (h : r ≡ z [ZMOD 2 ^ 64]) (h1 : -2 ^ 63 ≤ r) (h2 : r < 2 ^ 63) : r = wrap64 z := by
  unfold wrap64
  unfold Int.ModEq at h
  omega

theorem sum64_mod (xs : List ℤ) : sum64 xs ≡ xs.sum [ZMOD 2 ^ 64] := by
  induction xs with
  | nil => rfl
  | cons x xs ih =>
    simp only [sum64, List.sum_cons]
    exact (wrap64_mod _).trans (ih.add_left x)

theorem sum64_range (xs : List ℤ) : -2 ^ 63 ≤ sum64 xs ∧ sum64 xs < 2 ^ 63 := by
  cases xs with
  | nil => simp [sum64]
  | cons x xs => exact wrap64_range _

theorem sum64_eq (xs : List ℤ) : sum64 xs = wrap64 xs.sum := wrap64_unique (sum64_mod xs) (sum64_range xs).1 (sum64_range xs).2

/-- The order and grouping of the additions do not matter: any number of 64 bits that is congruent to the sum is the result. -/
theorem C136_order {xs : List ℤ} {r : ℤ} (h : r ≡ xs.sum [ZMOD 2 ^ 64]) (h1 : -2 ^ 63 ≤ r) (h2 : r < 2 ^ 63) : r = sum64 xs := by
  rw [sum64_eq]; exact wrap64_unique h h1 h2

theorem sum_mod_congr {β γ : Type} {f g : β → γ → ℤ} (h : ∀ x y, f x y ≡ g x y [ZMOD 2 ^ 64]) (a : List β) (b : List γ) :
    (List.zipWith f a b).sum ≡ (List.zipWith g a b).sum [ZMOD 2 ^ 64] := by
  induction a generalizing b with
  | nil => rfl
  | cons x a ih =>
    cases b with
    | nil => rfl
    | cons y b => simp only [List.zipWith_cons_cons, List.sum_cons]; exact (h x y).add (ih b)

theorem sqDist_sum64 (a b : List ℤ) :
    sum64 (List.zipWith (fun x y => wrap64 (wrap64 (y - x) * wrap64 (y - x))) a b) = wrap64 (sqDist a b) := by
  rw [sum64_eq]
  apply wrap64_unique _ (wrap64_range _).1 (wrap64_range _).2
  refine (wrap64_mod _).trans ?_
  apply sum_mod_congr
  intro x y
  refine (wrap64_mod _).trans ?_
  rw [pow_two]
  exact (wrap64_mod _).mul (wrap64_mod _)

theorem sqDist_nonneg (a b : List ℤ) : 0 ≤ sqDist a b := by
  unfold sqDist
  apply List.sum_nonneg
  intro z hz
  rw [List.mem_iff_getElem?] at hz
  obtain ⟨i, hi⟩ := hz
  rw [List.getElem?_zipWith] at hi
  cases h1 : a[i]? with
  | none => simp [h1] at hi
  | some x => cases h2 : b[i]? with
    | none => simp [h1, h2] at hi
    | some y => simp only [h1, h2, Option.some.injEq] at hi; rw [← hi]; positivity

/-- **C136, chords.** The entry of `chordlen` for two points with integer coordinates is the root of a number of 64 bits that differs from
the square of the distance by a multiple of 2^64 (NaN if it is negative). It is the distance if and only if the square of the distance is below
2^63. -/
theorem C136_chord (a b : List ℤ) :
    (∃ r : ℤ, r ≡ sqDist a b [ZMOD 2 ^ 64] ∧ -2 ^ 63 ≤ r ∧ r < 2 ^ 63 ∧ (r < 0 → chord64 a b = .nan) ∧ (0 ≤ r → chord64 a b = .fin (√ (r : ℝ)))) ∧
    (chord64 a b = .fin (√ (sqDist a b : ℝ)) ↔ sqDist a b < 2 ^ 63) := by
  have e : chord64 a b = sqrt64 (wrap64 (sqDist a b)) := by unfold chord64; rw [sqDist_sum64]
  refine ⟨⟨wrap64 (sqDist a b), wrap64_mod _, (wrap64_range _).1, (wrap64_range _).2, ?_, ?_⟩, ?_, ?_⟩
  · intro h; rw [e, sqrt64, if_pos h]
  · intro h; rw [e, sqrt64, if_neg (by omega)]
  · intro h
    rw [e, sqrt64] at h
    split_ifs at h with h'
    have h2 : √ ((wrap64 (sqDist a b) : ℤ) : ℝ) = √ (sqDist a b : ℝ) := by injection h
    rw [Real.sqrt_inj (by exact_mod_cast not_lt.1 h') (by exact_mod_cast sqDist_nonneg a b)] at h2
    have h3 : wrap64 (sqDist a b) = sqDist a b := by exact_mod_cast h2
    have := (wrap64_range (sqDist a b)).2
    omega
  · intro h
    have := sqDist_nonneg a b
    rw [e, wrap64_id (by omega) h, sqrt64, if_neg (by omega)]

/-- The points of a curve of integers, as real numbers. -/
def realRows (rows : List (List ℤ)) : List (List ℝ) := rows.map fun r => r.map fun (z : ℤ) => (z : ℝ)

theorem chord_int (a b : List ℤ) : chord (a.map fun (z : ℤ) => (z : ℝ)) (b.map fun (z : ℤ) => (z : ℝ)) = √ (sqDist a b : ℝ) := by
  unfold chord sqDist
  congr 1
  rw [List.zipWith_map]
  induction a generalizing b with
  | nil => simp
  | cons x a ih =>
    cases b with
    | nil => simp
    | cons y b => simp only [List.zipWith_cons_cons, List.sum_cons, Int.cast_add]; rw [ih]; push_cast; ring

/-- **C136, chord lengths.** If all neighbouring points are closer than 2^31.5, the chord lengths of an integer curve are those of exact
arithmetic. -/
theorem C136_chordlen {rows : List (List ℤ)} (h : ∀ (i : Nat) a b, rows[i]? = some a → rows[i + 1]? = some b → sqDist a b < 2 ^ 63) :
    chordlen64 rows = (chords (realRows rows)).map .fin := by
  unfold chordlen64 chords realRows
  induction rows with
  | nil => rfl
  | cons a rows ih =>
    cases rows with
    | nil => rfl
    | cons b rows =>
      have ih' := ih (fun i x y hx hy => h (i + 1) x y hx hy)
      simp only [List.tail_cons, List.map_cons, List.zipWith_cons_cons] at ih' ⊢
      rw [ih', chord_int, (C136_chord a b).2.2 (h 0 a b rfl rfl)]

theorem sqDist_box {n : Nat} {m : ℤ} {a b : List ℤ} (ha : a.length = n) (h1 : ∀ x ∈ a, |x| ≤ m) (h2 : ∀ x ∈ b, |x| ≤ m) :
    sqDist a b ≤ n * (2 * m) ^ 2 := by
  unfold sqDist
  induction a generalizing b n with
  | nil => subst ha; simp
  | cons x a ih =>
    cases b with
    | nil => simp; positivity
    | cons y b =>
      subst ha
      simp only [List.zipWith_cons_cons, List.sum_cons, List.length_cons]
      have := ih rfl (fun z hz => h1 z (List.mem_cons_of_mem _ hz)) (fun z hz => h2 z (List.mem_cons_of_mem _ hz))
      have hx := abs_le.1 (h1 x (by simp))
      have hy := abs_le.1 (h2 y (by simp))
      have : (y - x) ^ 2 ≤ (2 * m) ^ 2 := by nlinarith
      push_cast
      linarith

/-- **C136, box.** Coordinates up to `m` in `n` dimensions are safe if `n (2m)^2 < 2^63`, for instance up to 10^9 in the plane and up to
8 * 10^8 in space. -/
theorem C136_box {n : Nat} {m : ℤ} (hm : n * (2 * m) ^ 2 < 2 ^ 63) {rows : List (List ℤ)} (hn : ∀ r ∈ rows, r.length = n)
    (hb : ∀ r ∈ rows, ∀ x ∈ r, |x| ≤ m) : chordlen64 rows = (chords (realRows rows)).map .fin := by
  apply C136_chordlen
  intro i a b ha hb'
  have ha' := List.mem_of_getElem? ha
  have hb'' := List.mem_of_getElem? hb'
  exact lt_of_le_of_lt (sqDist_box (hn a ha') (hb a ha') (hb b hb'')) hm

/-- **C136, scalar products.** `p @ q` of points of dtype int64 is the scalar product up to a multiple of 2^64, so it is the scalar product if
and only if that has 64 bits; the norm is right if and only if its square is below 2^63. -/
theorem C136_dot (a b : List ℤ) :
    dot64 a b ≡ scalar a b [ZMOD 2 ^ 64] ∧ (dot64 a b = scalar a b ↔ -2 ^ 63 ≤ scalar a b ∧ scalar a b < 2 ^ 63) ∧
    (norm64 a = .fin (√ (scalar a a : ℝ)) ↔ scalar a a < 2 ^ 63) := by
  have e : ∀ a b, dot64 a b = wrap64 (scalar a b) := by
    intro a b
    unfold dot64
    rw [sum64_eq]
    apply wrap64_unique _ (wrap64_range _).1 (wrap64_range _).2
    refine (wrap64_mod _).trans ?_
    apply sum_mod_congr
    intro x y
    exact wrap64_mod _
  have hpos : 0 ≤ scalar a a := by
    unfold scalar
    apply List.sum_nonneg
    intro z hz
    rw [List.zipWith_self] at hz
    obtain ⟨x, _, rfl⟩ := List.mem_map.1 hz
    exact mul_self_nonneg x
  refine ⟨?_, ?_, ?_⟩
  · rw [e]; exact wrap64_mod _
  · rw [e]
    constructor
    · intro h; rw [← h]; exact wrap64_range _
    · rintro ⟨h1, h2⟩; exact wrap64_id h1 h2
  · unfold norm64
    rw [e]
    constructor
    · intro h
      rw [sqrt64] at h
      split_ifs at h with h'
      have h2 : √ ((wrap64 (scalar a a) : ℤ) : ℝ) = √ (scalar a a : ℝ) := by injection h
      rw [Real.sqrt_inj (by exact_mod_cast not_lt.1 h') (by exact_mod_cast hpos)] at h2
      have h3 : wrap64 (scalar a a) = scalar a a := by exact_mod_cast h2
      have := (wrap64_range (scalar a a)).2
      omega
    · intro h
      rw [wrap64_id (by omega) h, sqrt64, if_neg (by omega)]

/-- `compress` keeps what the flags say. -/
theorem compress_cons {β : Type} (b : Bool) (bs : List Bool) (x : β) (xs : List β) :
    compress (b :: bs) (x :: xs) = if b then x :: compress bs xs else compress bs xs := rfl

/-- **C136, nonsingular.** If neighbouring points are closer than 2^31.5, `nonsingular` of an integer curve keeps the first point and those
that are more than 1e-8 from the point before, that is, all points that differ from the point before. -/
theorem C136_nonsingular {a : List ℤ} {rows : List (List ℤ)} (hrect : ∀ r ∈ rows, r.length = a.length)
    (h : ∀ (i : Nat) x y, (a :: rows)[i]? = some x → (a :: rows)[i + 1]? = some y → sqDist x y < 2 ^ 63) :
    nonsingular64 (a :: rows) = a :: (((a :: rows).zip rows).filter fun p => decide (p.1 ≠ p.2)).map Prod.snd := by
  have h1 : (Val.fin (1 : ℝ)).isclose (.fin 0) = false := by
    simp [Val.isclose, closeK, atol, rtol]
    norm_num
  have hz : ∀ {x y : List ℤ}, x.length = y.length → (sqDist x y = 0 ↔ x = y) := by
    intro x
    induction x with
    | nil => intro y hy; cases y <;> simp_all [sqDist]
    | cons u x ih =>
      intro y hy
      cases y with
      | nil => simp at hy
      | cons v y =>
        simp only [List.length_cons, Nat.add_right_cancel_iff] at hy
        have e : sqDist (u :: x) (v :: y) = (v - u) ^ 2 + sqDist x y := by simp [sqDist]
        rw [e, List.cons.injEq, ← ih hy]
        have := sqDist_nonneg x y
        have := sq_nonneg (v - u)
        constructor
        · intro h0
          have h3 : (v - u) ^ 2 = 0 := by omega
          have : v - u = 0 := by simpa using h3
          omega
        · rintro ⟨rfl, h0⟩; rw [h0]; simp
  have hcl : ∀ {x y : List ℤ}, x.length = y.length → sqDist x y < 2 ^ 63 → ((chord64 x y).isclose (.fin 0) = decide (x = y)) := by
    intro x y hl hlt
    rw [(C136_chord x y).2.2 hlt]
    by_cases hxy : x = y
    · rw [(hz hl).2 hxy]
      simp [hxy, Val.isclose, closeK, atol, rtol]
      try norm_num
    · have h0 : 1 ≤ sqDist x y := by
        have := sqDist_nonneg x y
        have := (hz hl).not.2 hxy
        omega
      have h2 : (1 : ℝ) ≤ √ (sqDist x y : ℝ) := by
        rw [Real.one_le_sqrt]; exact_mod_cast h0
      simp [hxy, Val.isclose, closeK, atol, rtol, abs_of_nonneg (Real.sqrt_nonneg _)]
      try norm_num
      try linarith
  unfold nonsingular64
  rw [List.map_cons, h1, compress_cons]
  simp only [Bool.not_false, if_true, List.cons.injEq, true_and]
  unfold chordlen64
  simp only [List.tail_cons]
  clear h1
  induction rows generalizing a with
  | nil => rfl
  | cons b rows ih =>
    have hb := hrect b (by simp)
    have := ih (a := b) (fun r hr => by rw [hrect r (by simp [hr]), hb]) (fun i x y hx hy => h (i + 1) x y hx hy)
    simp only [List.zipWith_cons_cons, List.map_cons, compress_cons, List.zip_cons_cons, List.filter_cons]
    rw [this, hcl hb.symm (h 0 a b rfl rfl)]
    by_cases hab : a = b <;> simp [hab]

/-- **C136, violated.** Points that are 2^32 apart have chord length 0, and `nonsingular` removes the second one; points that are
3037000500 apart have chord length NaN; points that are 2^32+1 apart have a chord length below 10^5. -/
theorem C136_overflow_fails : chord64 [0, 0] [4294967296, 0] = .fin 0 ∧ nonsingular64 [[0, 0], [4294967296, 0], [4294967296, 1]] = [[0, 0], [4294967296, 1]] ∧
    chord64 [0, 0] [3037000500, 0] = .nan ∧ (∃ x, chord64 [0, 0] [4294967297, 0] = .fin x ∧ x < 100000) := by
  have w : ∀ a b s : ℤ, sqDist [0, 0] [a, b] = s → chord64 [0, 0] [a, b] = sqrt64 (wrap64 s) := by
    intro a b s hs; unfold chord64; rw [sqDist_sum64, hs]
  have e1 : chord64 [0, 0] [4294967296, 0] = .fin 0 := by
    rw [w _ _ 18446744073709551616 (by norm_num [sqDist])]
    norm_num [wrap64, sqrt64]
  have e2 : chord64 [4294967296, 0] [4294967296, 1] = .fin 1 := by
    unfold chord64; rw [sqDist_sum64, show sqDist [4294967296, 0] [4294967296, 1] = 1 by norm_num [sqDist]]
    norm_num [wrap64, sqrt64]
  refine ⟨e1, ?_, ?_, ?_⟩
  · unfold nonsingular64 chordlen64
    simp only [List.tail_cons, List.zipWith_cons_cons, List.zipWith_nil_right, List.map_cons, List.map_nil, e1, e2, compress_cons]
    norm_num [Val.isclose, closeK, atol, rtol, compress]
  · rw [w _ _ 9223372037000250000 (by norm_num [sqDist])]
    norm_num [wrap64, sqrt64]
  · refine ⟨√ 8589934593, ?_, ?_⟩
    · rw [w _ _ 18446744082299486209 (by norm_num [sqDist])]
      norm_num [wrap64, sqrt64]
    · rw [Real.sqrt_lt' (by norm_num)]; norm_num

/-- The same points as floating point numbers: the chord length is the distance. -/
example : chords [[0, 0], [4294967296, 0]] = [4294967296] := by
  simp [chords, chord]

/-- Ordinary data. -/
example : chordlen64 [[0, 0], [3, 4], [1000000000, 4]] = (chords (realRows [[0, 0], [3, 4], [1000000000, 4]])).map .fin :=
  C136_box (n := 2) (m := 1000000000) (by norm_num) (by simp) (by simp)

/-! ## Concrete cases -/

example := C136_order (xs := [2 ^ 62, 2 ^ 62]) (r := -2 ^ 63) (by decide) (by norm_num) (by norm_num)
example := C136_chord [0, 0] [3, 4]
example := C136_chordlen (rows := [[0, 0], [3, 4]]) (by
  intro i a b ha hb
  match i with
  | 0 => simp at ha hb; subst ha hb; norm_num [sqDist]
  | (k + 1) => simp at hb)
example := C136_nonsingular (a := [0, 0]) (rows := [[3, 4], [3, 4]]) (by simp) (by
  intro i a b ha hb
  match i with
  | 0 => simp at ha hb; subst ha hb; norm_num [sqDist]
  | 1 => simp at ha hb; subst ha hb; norm_num [sqDist]
  | (k + 2) => simp at hb)

end Verif.Props
