import Verif.Model.Rounded
import Verif.Spec.Rounding
import Verif.Spec.ArcLen
import Verif.Lemmas.ArcLen
import Verif.Props.ArcLen
import Verif.Props.Distance

/-!
C119: lengths computed in rounded arithmetic.
-/
namespace Verif.Props

open Verif Verif.Np Verif.Model Verif.Spec

/-- Relative bounds after `k` roundings. -/
def RelErr (ε : ℝ) (k : Nat) (x z : ℝ) : Prop := (1 - ε) ^ k * x ≤ z ∧ z ≤ (1 + ε) ^ k * x

section
variable {ε : ℝ} {fl : ℝ → ℝ} (hf : Rounding ε fl)
include hf

theorem fl_zero : fl 0 = 0 := by
  have := hf.rel 0
  simpa using this

theorem fl_nonneg {x : ℝ} (hx : 0 ≤ x) : 0 ≤ fl x := by
  rw [← fl_zero hf]; exact hf.mono hx

theorem fl_rel {x : ℝ} (hx : 0 ≤ x) : RelErr ε 1 x (fl x) := by
  have := hf.rel x
  rw [abs_of_nonneg hx, abs_le] at this
  exact ⟨by rw [pow_one]; linarith [this.1], by rw [pow_one]; linarith [this.2]⟩

theorem RelErr.trans {j k : Nat} {x y z : ℝ} (h1 : RelErr ε j x y) (h2 : RelErr ε k y z) : RelErr ε (j + k) x z := by
  have a := hf.nonneg
  have b := hf.lt_one
  constructor
  · refine le_trans ?_ h2.1
    rw [pow_add, mul_comm ((1 - ε) ^ j), mul_assoc]
    exact mul_le_mul_of_nonneg_left h1.1 (pow_nonneg (by linarith) _)
  · refine h2.2.trans ?_
    rw [pow_add, mul_comm ((1 + ε) ^ j), mul_assoc]
    exact mul_le_mul_of_nonneg_left h1.2 (pow_nonneg (by linarith) _)

theorem RelErr.weaken {j k : Nat} {x z : ℝ} (h : RelErr ε j x z) (hjk : j ≤ k) (hx : 0 ≤ x) : RelErr ε k x z := by
  have a := hf.nonneg
  have b := hf.lt_one
  constructor
  · refine le_trans (mul_le_mul_of_nonneg_right ?_ hx) h.1
    exact pow_le_pow_of_le_one (by linarith) (by linarith) hjk
  · refine h.2.trans (mul_le_mul_of_nonneg_right ?_ hx)
    exact pow_le_pow_right₀ (by linarith) hjk

omit hf in
theorem RelErr.add {k : Nat} {x y z w : ℝ} (h1 : RelErr ε k x z) (h2 : RelErr ε k y w) : RelErr ε k (x + y) (z + w) :=
  ⟨by rw [mul_add]; exact add_le_add h1.1 h2.1, by rw [mul_add]; exact add_le_add h1.2 h2.2⟩

theorem RelErr.nonneg {k : Nat} {x z : ℝ} (h : RelErr ε k x z) (hx : 0 ≤ x) : 0 ≤ z :=
  le_trans (mul_nonneg (pow_nonneg (by linarith [hf.lt_one]) _) hx) h.1

omit hf in
theorem RelErr.refl (x : ℝ) : RelErr ε 0 x x := ⟨by simp, by simp⟩

/-- A rounded sum of non-negative numbers, in any order. -/
theorem sums_rel {xs : List ℝ} {s : ℝ} (h : SumsTo fl xs s) (h0 : ∀ x ∈ xs, 0 ≤ x) : RelErr ε (xs.length - 1) xs.sum s := by
  induction h with
  | nil => simpa using RelErr.refl 0
  | one x => simpa using RelErr.refl x
  | @add xs ys zs s t _ _ nx ny hz ih1 ih2 =>
    have p1 : ∀ x ∈ xs, 0 ≤ x := fun x hx => h0 x (hz.mem_iff.2 (List.mem_append_left _ hx))
    have p2 : ∀ x ∈ ys, 0 ≤ x := fun x hx => h0 x (hz.mem_iff.2 (List.mem_append_right _ hx))
    have l1 : 0 < xs.length := List.length_pos_of_ne_nil nx
    have l2 : 0 < ys.length := List.length_pos_of_ne_nil ny
    have s1 := List.sum_nonneg p1
    have s2 := List.sum_nonneg p2
    have r1 := (ih1 p1).weaken hf (k := xs.length + ys.length - 2) (by omega) s1
    have r2 := (ih2 p2).weaken hf (k := xs.length + ys.length - 2) (by omega) s2
    have r := r1.add r2
    rw [hz.sum_eq, hz.length_eq, List.sum_append, List.length_append]
    have := r.trans hf (fl_rel hf (r.nonneg hf (by linarith)))
    rwa [show xs.length + ys.length - 2 + 1 = xs.length + ys.length - 1 by omega] at this

omit hf in
theorem RelErr.sum {k : Nat} {xs zs : List ℝ} (h : List.Forall₂ (RelErr ε k) xs zs) : RelErr ε k xs.sum zs.sum := by
  induction h with
  | nil => constructor <;> simp
  | cons h _ ih => simpa using h.add ih

theorem sq_rel {x z : ℝ} (h : |z - x| ≤ ε * |x|) : RelErr ε 2 (x ^ 2) (z ^ 2) := by
  have a := hf.nonneg
  have b := hf.lt_one
  have h1 : |z| ≤ (1 + ε) * |x| := by
    have := abs_sub_abs_le_abs_sub z x
    linarith
  have h2 : (1 - ε) * |x| ≤ |z| := by
    have := abs_sub_abs_le_abs_sub x z
    rw [abs_sub_comm] at this
    linarith
  rw [← sq_abs x, ← sq_abs z]
  constructor
  · rw [← mul_pow]; exact pow_le_pow_left₀ (mul_nonneg (by linarith) (abs_nonneg _)) h2 2
  · rw [← mul_pow]; exact pow_le_pow_left₀ (abs_nonneg _) h1 2

theorem sqTerm_rel {x y z : ℝ} (h : SqTerm fl x y z) : RelErr ε 3 ((y - x) ^ 2) z := by
  have h1 := sq_rel hf (hf.rel (y - x))
  rw [sq (fl _)] at h1
  rcases h with rfl | rfl
  · exact h1.trans hf (fl_rel hf (mul_self_nonneg _))
  · exact h1.weaken hf (by omega) (sq_nonneg _)

theorem sqTerms_rel : ∀ {a b ws : List ℝ}, List.Forall₂ (fun (p : ℝ × ℝ) w => SqTerm fl p.1 p.2 w) (a.zip b) ws →
    List.Forall₂ (RelErr ε 3) (List.zipWith (fun x y => (y - x) ^ 2) a b) ws
  | [], _, _, h => by cases h; simp
  | _ :: _, [], _, h => by cases h; simp
  | x :: a, y :: b, _, h => by
    cases h with
    | cons h1 h2 => exact .cons (sqTerm_rel hf h1) (sqTerms_rel h2)

/-- The square of a rounded distance of two points. -/
theorem chord_rel {n : Nat} {a b : List ℝ} (ha : a.length = n) (hb : b.length = n) (hn : 0 < n) {z : ℝ} (h : ChordTo fl a b z) :
    0 ≤ z ∧ RelErr ε (n + 4) (chord a b ^ 2) (z ^ 2) := by
  obtain ⟨ws, s, h1, h2, rfl⟩ := h
  have r1 := sqTerms_rel hf h1
  have hlen : ws.length = n := by rw [← r1.length_eq]; simp [ha, hb]
  have hsum := RelErr.sum r1
  have hpos : ∀ x ∈ List.zipWith (fun x y : ℝ => (y - x) ^ 2) a b, 0 ≤ x := by
    intro x hx
    rw [← List.map_uncurry_zip_eq_zipWith] at hx
    obtain ⟨p, -, rfl⟩ := List.mem_map.1 hx
    exact sq_nonneg _
  have hws : ∀ x ∈ ws, 0 ≤ x := by
    intro x hx
    obtain ⟨i, hi, rfl⟩ := List.getElem_of_mem hx
    have := List.Forall₂.get r1 (i := i) (by rw [r1.length_eq]; exact hi) hi
    exact this.nonneg hf (hpos _ (List.getElem_mem _))
  have r2 := sums_rel hf h2 hws
  have r3 := hsum.trans hf r2
  rw [hlen] at r3
  have s0 : 0 ≤ (List.zipWith (fun x y : ℝ => (y - x) ^ 2) a b).sum := List.sum_nonneg hpos
  have sp := r3.nonneg hf s0
  have r4 : RelErr ε 2 (√ s ^ 2) (fl (√ s) ^ 2) := sq_rel hf (hf.rel _)
  rw [Real.sq_sqrt sp] at r4
  refine ⟨fl_nonneg hf (Real.sqrt_nonneg _), ?_⟩
  have := r3.trans hf r4
  rw [show 3 + (n - 1) + 2 = n + 4 by omega] at this
  unfold chord
  rwa [Real.sq_sqrt s0]

theorem chord_rel' {n : Nat} {a b : List ℝ} (ha : a.length = n) (hb : b.length = n) (hn : 0 < n) {z : ℝ} (h : ChordTo fl a b z) :
    RelErr ε (n + 4) (gap n a b) z := by
  have e0 := hf.nonneg
  have e1 := hf.lt_one
  obtain ⟨z0, r⟩ := chord_rel hf ha hb hn h
  rw [chord_eq_gap ha hb] at r
  have g0 : 0 ≤ gap n a b := dist_nonneg
  constructor
  · refine abs_le_of_sq_le_sq' ?_ z0 |>.2
    refine le_trans ?_ r.1
    rw [mul_pow, ← pow_mul]
    exact mul_le_mul_of_nonneg_right (pow_le_pow_of_le_one (by linarith) (by linarith) (by omega)) (sq_nonneg _)
  · refine abs_le_of_sq_le_sq' ?_ (mul_nonneg (pow_nonneg (by linarith) _) g0) |>.2
    refine r.2.trans ?_
    rw [mul_pow, ← pow_mul]
    exact mul_le_mul_of_nonneg_right (pow_le_pow_right₀ (by linarith) (by omega)) (sq_nonneg _)

theorem pow_one_add_le {k : Nat} (hk : 2 * (k * ε) ≤ 1) : (1 + ε) ^ k ≤ 1 + 2 * (k * ε) := by
  have e0 := hf.nonneg
  induction k with
  | zero => simp
  | succ k ih =>
    push_cast at hk ⊢
    have := ih (by nlinarith)
    rw [pow_succ]
    have h1 : (1 + ε) ^ k * (1 + ε) ≤ (1 + 2 * (k * ε)) * (1 + ε) := mul_le_mul_of_nonneg_right this (by linarith)
    nlinarith [mul_le_mul_of_nonneg_right (show 2 * (k * ε) ≤ 1 by nlinarith) e0]

theorem rel_simple {k : Nat} {x z : ℝ} (h : RelErr ε k x z) (hx : 0 ≤ x) (hk : 2 * (k * ε) ≤ 1) : |z - x| ≤ 2 * k * ε * x := by
  have e0 := hf.nonneg
  have e1 := hf.lt_one
  have u := mul_le_mul_of_nonneg_right (pow_one_add_le hf hk) hx
  have l := mul_le_mul_of_nonneg_right (one_add_mul_le_pow (show (-2 : ℝ) ≤ -ε by linarith) k) hx
  rw [← sub_eq_add_neg] at l
  have h1 := h.1
  have h2 := h.2
  have : 0 ≤ k * ε * x := mul_nonneg (mul_nonneg (Nat.cast_nonneg _) e0) hx
  rw [abs_le]
  constructor <;> nlinarith

omit hf in
/-- Entries of the running sums are sums. -/
theorem cumFrom_sums (zs : List ℝ) : ∀ (ys : List ℝ) (s : ℝ), SumsTo fl ys s → ys ≠ [] → ∀ (k : Nat) (l : ℝ), (cumFrom fl s zs)[k]? = some l →
    SumsTo fl (ys ++ zs.take (k + 1)) l := by
  induction zs with
  | nil => intro ys s _ _ k l h; simp [cumFrom] at h
  | cons z zs ih =>
    intro ys s hs hne k l h
    have hs' : SumsTo fl (ys ++ [z]) (fl (s + z)) := .add hs (.one z) hne (by simp) (List.Perm.refl _)
    rw [cumFrom] at h
    cases k with
    | zero =>
      simp only [List.getElem?_cons_zero, Option.some.injEq] at h
      subst h
      simpa using hs'
    | succ k =>
      rw [List.getElem?_cons_succ] at h
      have := ih (ys ++ [z]) _ hs' (by simp) k l h
      simpa using this

omit hf in
theorem cumsum_sums (zs : List ℝ) (k : Nat) (l : ℝ) (h : (0 :: cumsumFl fl zs)[k]? = some l) : SumsTo fl (zs.take k) l := by
  cases k with
  | zero =>
    simp only [List.getElem?_cons_zero, Option.some.injEq] at h
    subst h
    exact .nil
  | succ k =>
    rw [List.getElem?_cons_succ] at h
    cases zs with
    | nil => simp [cumsumFl] at h
    | cons z zs =>
      rw [cumsumFl] at h
      cases k with
      | zero =>
        simp only [List.getElem?_cons_zero, Option.some.injEq] at h
        subst h
        exact .one z
      | succ k =>
        rw [List.getElem?_cons_succ] at h
        simpa using cumFrom_sums zs [z] z (.one z) (by simp) k l h

omit hf in
theorem pathLen_eq_sum (n : Nat) : ∀ rows : List (List ℝ), pathLen n rows = (List.zipWith (gap n) rows rows.tail).sum
  | [] => rfl
  | [_] => rfl
  | a :: b :: rows => by
    have := pathLen_eq_sum n (b :: rows)
    simp only [List.tail_cons] at this
    simp [pathLen, this]

theorem chords_rel {n : Nat} (hn : 0 < n) : ∀ {rows : List (List ℝ)} {zs : List ℝ}, (∀ r ∈ rows, r.length = n) → ChordsTo fl rows zs →
    List.Forall₂ (RelErr ε (n + 4)) (List.zipWith (gap n) rows rows.tail) zs
  | [], _, _, h => by cases h; simp
  | [_], _, _, h => by cases h; simp
  | a :: b :: rows, _, hr, h => by
    unfold ChordsTo at h
    simp only [List.tail_cons, List.zip_cons_cons] at h
    cases h with
    | cons h1 h2 =>
      have := chords_rel hn (rows := b :: rows) (fun r hm => hr r (List.mem_cons_of_mem _ hm)) h2
      simp only [List.tail_cons, List.zipWith_cons_cons] at this ⊢
      exact .cons (chord_rel' hf (hr a (by simp)) (hr b (by simp)) hn h1) this

end

/-! ## C119 -/

variable {ε : ℝ} {fl : ℝ → ℝ} {c : Curve ℝ}

theorem forall2_take {R : ℝ → ℝ → Prop} {xs ys : List ℝ} (h : List.Forall₂ R xs ys) (k : Nat) : List.Forall₂ R (xs.take k) (ys.take k) := by
  induction h generalizing k with
  | nil => simp
  | cons a _ ih => cases k with
    | zero => simp
    | succ k => exact .cons a (ih k)

theorem zip_take {α β : Type} (f : α → α → β) : ∀ (l : List α) (k : Nat),
    List.zipWith f (l.take (k + 1)) (l.take (k + 1)).tail = (List.zipWith f l l.tail).take k
  | [], k => by simp
  | [_], k => by simp
  | a :: b :: l, 0 => by simp
  | a :: b :: l, k + 1 => by
    have := zip_take f (b :: l) k
    simp only [List.take_succ_cons, List.tail_cons, List.zipWith_cons_cons] at this ⊢
    rw [this]

theorem sum_gaps_nonneg (n : Nat) (rows : List (List ℝ)) : 0 ≤ pathLen n rows := by
  rw [pathLen_eq_sum]
  refine List.sum_nonneg ?_
  intro x hx
  rw [← List.map_uncurry_zip_eq_zipWith] at hx
  obtain ⟨p, -, rfl⟩ := List.mem_map.1 hx
  exact dist_nonneg

theorem rel_sum_gaps (hf : Rounding ε fl) {n : Nat} (hn : 0 < n) {rows : List (List ℝ)} {zs : List ℝ} (hr : ∀ r ∈ rows, r.length = n)
    (h : ChordsTo fl rows zs) {l : ℝ} (hl : SumsTo fl zs l) (hm : 2 ≤ rows.length) : RelErr ε (n + rows.length + 2) (pathLen n rows) l := by
  have r1 := chords_rel hf hn hr h
  have hlen : zs.length = rows.length - 1 := by rw [← r1.length_eq]; simp
  have hz : ∀ z ∈ zs, 0 ≤ z := by
    intro z hz
    obtain ⟨i, hi, rfl⟩ := List.getElem_of_mem hz
    have := List.Forall₂.get r1 (i := i) (by rw [r1.length_eq]; exact hi) hi
    refine this.nonneg hf ?_
    simp only [List.get_eq_getElem, List.getElem_zipWith]
    exact dist_nonneg
  have := (RelErr.sum r1).trans hf (sums_rel hf hl hz)
  rwa [← pathLen_eq_sum, hlen, show n + 4 + (rows.length - 1 - 1) = n + rows.length + 2 by omega] at this

/-- **C119 (chords).** A chord length computed with rounded operations, with the terms added in any order, differs from the distance of the two points
by at most `2 (n + 4) ε` times the distance; it is 0 exactly for equal points. -/
theorem C119_chord (hf : Rounding ε fl) {n : Nat} (hn : 0 < n) (hε : 2 * ((n + 4 : ℕ) * ε) ≤ 1) {a b : List ℝ} (ha : a.length = n) (hb : b.length = n) {z : ℝ}
    (h : ChordTo fl a b z) : |z - gap n a b| ≤ 2 * (n + 4 : ℕ) * ε * gap n a b ∧ 0 ≤ z ∧ (z = 0 ↔ a = b) := by
  have r := chord_rel' hf ha hb hn h
  have g0 : 0 ≤ gap n a b := dist_nonneg
  refine ⟨rel_simple hf r g0 hε, r.nonneg hf g0, ?_⟩
  rw [← gap_eq_zero ha hb]
  constructor
  · intro hz
    rw [hz] at r
    have p : 0 < (1 - ε) ^ (n + 4) := pow_pos (by linarith [hf.lt_one]) _
    nlinarith [r.1]
  · intro hg
    rw [hg] at r
    have h1 := r.1
    have h2 := r.2
    rw [mul_zero] at h1 h2
    linarith

/-- **C119 (direction).** Exchanging the points gives the same computed chord length. -/
theorem C119_swap (hf : Rounding ε fl) {a b : List ℝ} {z : ℝ} (h : ChordTo fl a b z) : ChordTo fl b a z := by
  obtain ⟨ws, s, h1, h2, h3⟩ := h
  refine ⟨ws, s, ?_, h2, h3⟩
  clear h2 h3
  induction a generalizing b ws with
  | nil => cases h1; simp
  | cons x a ih =>
    cases b with
    | nil => cases h1; simp
    | cons y b =>
      cases h1 with
      | cons p q =>
        refine .cons ?_ (ih _ q)
        have e : fl (y - x) * fl (y - x) = fl (x - y) * fl (x - y) := by
          rw [show y - x = -(x - y) by ring, hf.odd]; ring
        unfold SqTerm at p ⊢
        rwa [e] at p

/-- **C119 (arc length).** The arc length of a curve of `s ≥ 2` points in `n` dimensions computed with rounded operations, with the chords added in any order,
differs from the length of the polygonal line by at most `2 (n + s + 2) ε` times the length. -/
theorem C119_arclen (hf : Rounding ε fl) (hc : WF c) (hs : 2 ≤ c.size) (hε : 2 * ((c.ndim + c.size + 2 : ℕ) * ε) ≤ 1) {l : ℝ} (h : ArclenTo fl c.rows l) :
    |l - pathLen c.ndim c.rows| ≤ 2 * (c.ndim + c.size + 2 : ℕ) * ε * pathLen c.ndim c.rows := by
  obtain ⟨zs, h1, h2⟩ := h
  have hn : 0 < c.ndim := by have := hc.two_le; show 0 < c.ncols; omega
  exact rel_simple hf (rel_sum_gaps hf hn hc.rect h1 h2 hs) (sum_gaps_nonneg _ _) hε

/-- **C119 (cumulative arc length).** Entry `k` of the cumulative arc length computed with rounded operations differs from the length of the
polygonal line through the points 0..k by at most `2 (n + k + 4) ε` times the length; the first entry is 0 and the entries do not decrease. -/
theorem C119_cumarclen (hf : Rounding ε fl) (hc : WF c) (hs : 1 ≤ c.size) {ls : List ℝ} (h : CumTo fl c.rows ls) :
    ls.length = c.size ∧ ls[0]? = some 0 ∧ ls.Pairwise (· ≤ ·) ∧
    ∀ (k : Nat) (l : ℝ), ls[k]? = some l → 2 * ((c.ndim + k + 4 : ℕ) * ε) ≤ 1 →
      |l - pathLen c.ndim (c.rows.take (k + 1))| ≤ 2 * (c.ndim + k + 4 : ℕ) * ε * pathLen c.ndim (c.rows.take (k + 1)) := by
  obtain ⟨zs, h1, rfl⟩ := h
  have hn : 0 < c.ndim := by have := hc.two_le; show 0 < c.ncols; omega
  have r1 := chords_rel hf hn hc.rect h1
  have hs' : 1 ≤ c.rows.length := hs
  have hlen : zs.length = c.rows.length - 1 := by rw [← r1.length_eq]; simp
  have hz : ∀ z ∈ zs, 0 ≤ z ∧ fl z = z := by
    intro z hz
    obtain ⟨i, hi, rfl⟩ := List.getElem_of_mem hz
    have h3 := List.Forall₂.get h1 (i := i) (by rw [h1.length_eq]; exact hi) hi
    obtain ⟨_, s, _, _, e⟩ := h3
    simp only [List.get_eq_getElem] at e
    rw [e]
    exact ⟨fl_nonneg hf (Real.sqrt_nonneg _), hf.idem _⟩
  refine ⟨by simp [length_cumsumFl, hlen, Curve.size]; omega, rfl,
    C50_monotone_rounded fl hf.mono hf.idem zs (fun z h => (hz z h).1) (fun z h => (hz z h).2), ?_⟩
  intro k l hl hk
  have hsum := cumsum_sums zs k l hl
  have hkl : k ≤ zs.length := by
    have := (List.getElem?_eq_some_iff.1 hl).1
    simp [length_cumsumFl] at this
    omega
  have e := zip_take (gap c.ndim) c.rows k
  have r2 := (RelErr.sum (forall2_take r1 k)).trans hf (sums_rel hf hsum fun z h => (hz z (List.mem_of_mem_take h)).1)
  rw [← e, ← pathLen_eq_sum] at r2
  refine rel_simple hf (r2.weaken hf ?_ (sum_gaps_nonneg _ _)) (sum_gaps_nonneg _ _) hk
  rw [List.length_take, min_eq_left hkl]
  omega

/-! ## The rounded model without rounding is the exact model -/

theorem sumsTo_exists (fl : ℝ → ℝ) (xs : List ℝ) : ∃ s, SumsTo fl xs s := by
  induction xs with
  | nil => exact ⟨0, .nil⟩
  | cons x xs ih =>
    obtain ⟨s, hs⟩ := ih
    by_cases hx : xs = []
    · subst hx; exact ⟨x, .one x⟩
    · exact ⟨_, .add (.one x) hs (by simp) hx (List.Perm.refl _)⟩

theorem sumsTo_id {xs : List ℝ} {s : ℝ} : SumsTo id xs s ↔ s = xs.sum := by
  have fw : ∀ {xs : List ℝ} {s : ℝ}, SumsTo id xs s → s = xs.sum := by
    intro xs s h
    induction h with
    | nil => simp
    | one x => simp
    | add _ _ _ _ hz ih1 ih2 => rw [hz.sum_eq, List.sum_append, ← ih1, ← ih2]; rfl
  refine ⟨fw, ?_⟩
  rintro rfl
  obtain ⟨s, hs⟩ := sumsTo_exists id xs
  rwa [fw hs] at hs

theorem sqTerms_id : ∀ {a b ws : List ℝ}, List.Forall₂ (fun (p : ℝ × ℝ) w => SqTerm id p.1 p.2 w) (a.zip b) ws ↔
    ws = List.zipWith (fun x y => (y - x) ^ 2) a b
  | [], _, _ => by simp
  | _ :: _, [], _ => by simp
  | x :: a, y :: b, ws => by
    rw [List.zip_cons_cons, List.forall₂_cons_left_iff, List.zipWith_cons_cons]
    constructor
    · rintro ⟨w, ws', h1, h2, rfl⟩
      rw [sqTerms_id.1 h2]
      rcases h1 with rfl | rfl <;> simp [sq]
    · rintro rfl
      exact ⟨_, _, .inl (by simp [sq]), sqTerms_id.2 rfl, rfl⟩

/-- **C119 (no rounding).** Without rounding the computed numbers are those of the exact model. -/
theorem C119_exact (junk : ℝ) (hc : c.rows ≠ []) : (∀ a b z, ChordTo id a b z ↔ z = chord a b) ∧
    (∀ zs, ChordsTo id c.rows zs ↔ chordlen junk c = .vec zs) ∧ (∀ l, ArclenTo id c.rows l ↔ l = arclen junk c) ∧
    ∀ ls, CumTo id c.rows ls ↔ ls = cumarclen junk c := by
  have h1 : ∀ a b z, ChordTo id a b z ↔ z = chord a b := by
    intro a b z
    unfold ChordTo chord
    constructor
    · rintro ⟨ws, s, e1, e2, e3⟩
      rw [sqTerms_id] at e1
      rw [sumsTo_id] at e2
      rw [e3, e2, e1]; rfl
    · rintro rfl
      exact ⟨_, _, sqTerms_id.2 rfl, sumsTo_id.2 rfl, rfl⟩
  have h2 : ∀ zs, ChordsTo id c.rows zs ↔ zs = chords c.rows := by
    intro zs
    unfold ChordsTo chords
    generalize c.rows.tail = t
    generalize c.rows = r
    induction r generalizing t zs with
    | nil => simp
    | cons a r ih =>
      cases t with
      | nil => simp
      | cons b t =>
        rw [List.zip_cons_cons, List.forall₂_cons_left_iff, List.zipWith_cons_cons]
        constructor
        · rintro ⟨w, ws, e1, e2, rfl⟩
          rw [(h1 _ _ _).1 e1, (ih _ _).1 e2]
        · rintro rfl
          exact ⟨_, _, (h1 _ _ _).2 rfl, (ih _ _).2 rfl, rfl⟩
  refine ⟨h1, ?_, ?_, ?_⟩
  · intro zs
    rw [h2]
    unfold chordlen
    rw [if_neg hc, NArr.vec.injEq]
    exact eq_comm
  · intro l
    unfold ArclenTo arclen chordlen
    rw [if_neg hc]
    simp only [h2, sumsTo_id, exists_eq_left]
    rfl
  · intro ls
    unfold CumTo cumarclen cumarclenFl chordlen
    rw [if_neg hc]
    simp only [h2, exists_eq_left]
    rfl

/-- A curve of a million points in the plane, binary64 arithmetic: the relative error is below 3e-10. -/
example (hc : WF c) (hn : c.ndim = 2) (h2 : 2 ≤ c.size) (hs : c.size ≤ 10 ^ 6) {l : ℝ} (h : ArclenTo rnd c.rows l) :
    |l - pathLen 2 c.rows| ≤ 3 / 10 ^ 10 * pathLen 2 c.rows := by
  have h1 : ((c.ndim + c.size + 2 : ℕ) : ℝ) ≤ 1000004 := by
    have : c.ndim + c.size + 2 ≤ 1000004 := by rw [hn]; omega
    exact_mod_cast this
  have key := C119_arclen rnd_rounding hc h2 (by norm_num at h1 ⊢; nlinarith) h
  rw [hn] at key h1
  refine key.trans (mul_le_mul_of_nonneg_right ?_ (sum_gaps_nonneg _ _))
  have : 2 * (2⁻¹ : ℝ) ^ 53 * 1000004 ≤ 3 / 10 ^ 10 := by norm_num
  have h3 : 2 * ((2 + c.size + 2 : ℕ) : ℝ) * (2⁻¹ : ℝ) ^ 53 ≤ 2 * 1000004 * (2⁻¹ : ℝ) ^ 53 := by
    refine mul_le_mul_of_nonneg_right ?_ (by positivity)
    linarith
  linarith

/-- There always are computed values. -/
example (fl : ℝ → ℝ) (a b : List ℝ) : ∃ z, ChordTo fl a b z := by
  obtain ⟨s, hs⟩ := sumsTo_exists fl ((a.zip b).map fun p => fl (fl (p.2 - p.1) * fl (p.2 - p.1)))
  refine ⟨_, _, s, ?_, hs, rfl⟩
  rw [List.forall₂_map_right_iff, List.forall₂_same]
  exact fun p _ => .inl rfl

/-! ## Concrete cases -/

/-- The distance of two points of the plane in binary64. -/
example : ∃ z, ChordTo rnd [0, 0] [1, 3] z ∧ |z - gap 2 [0, 0] [1, 3]| ≤ 1 / 10 ^ 14 * gap 2 [0, 0] [1, 3] ∧ ChordTo rnd [1, 3] [0, 0] z := by
  obtain ⟨s, hs⟩ := sumsTo_exists rnd ((([0, 0] : List ℝ).zip [1, 3]).map fun p => rnd (rnd (p.2 - p.1) * rnd (p.2 - p.1)))
  have h : ChordTo rnd [0, 0] [1, 3] (rnd (√ s)) := by
    refine ⟨_, s, ?_, hs, rfl⟩
    rw [List.forall₂_map_right_iff, List.forall₂_same]
    exact fun p _ => .inl rfl
  refine ⟨_, h, (C119_chord rnd_rounding (n := 2) (by norm_num) (by norm_num) rfl rfl h).1.trans ?_, C119_swap rnd_rounding h⟩
  have : 0 ≤ gap 2 [0, 0] [1, 3] := dist_nonneg
  norm_num
  nlinarith
/-- Accumulated lengths of a curve of three points. -/
example {ls : List ℝ} (h : CumTo rnd [[0, 0], [3, 0], [3, 4]] ls) := C119_cumarclen rnd_rounding (c := ⟨[[0, 0], [3, 0], [3, 4]], 2, none, .float⟩)
  ⟨by simp, by simp, by simp, by intro r _ x _; rfl⟩ (by simp [Curve.size]) h
example := C119_exact (c := ⟨[[0, 0], [3, 0], [3, 4]], 2, none, .float⟩) 99 (by simp)

end Verif.Props
