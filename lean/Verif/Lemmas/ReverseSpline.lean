import Verif.Lemmas.SplineLine

/-! Slopes and polynomials of the splines through the same points in the opposite order. -/
namespace Verif.Model

open Verif Verif.Np Verif.Spec

theorem hermR_reverse {x0 x1 : ℝ} (h : x0 < x1) (L y0 y1 d0 d1 x : ℝ) :
    hermR (L - x1) (L - x0) y1 y0 (-d1) (-d0) x = hermR x0 x1 y0 y1 d0 d1 (L - x) := by
  have h1 : x1 - x0 ≠ 0 := by linarith
  obtain ⟨u, hu⟩ : ∃ u, x = L - x1 + u * (x1 - x0) := ⟨(x - (L - x1)) / (x1 - x0), by field_simp; ring⟩
  have e1 := hermR_basis (x0 := L - x1) (x1 := L - x0) (by linarith) y1 y0 (-d1) (-d0) u
  have e2 := hermR_basis h y0 y1 d0 d1 (1 - u)
  rw [show L - x1 + u * (L - x0 - (L - x1)) = x by rw [hu]; ring] at e1
  rw [show x0 + (1 - u) * (x1 - x0) = L - x by rw [hu]; ring] at e2
  rw [e1, e2]
  ring

theorem PPoly.coord_reverse {p q : PPoly} {n : Nat} {L : ℝ} (hp : p.xs.length = n) (hq : q.xs.length = n) (hn : 2 ≤ n)
    (hs : p.xs.Pairwise (· < ·)) (hs' : q.xs.Pairwise (· < ·)) (hx : ∀ i, i < n → knot q.xs i = L - knot p.xs (n - 1 - i)) {j : Nat}
    (hy : ∀ i, i < n → q.y.v i j = p.y.v (n - 1 - i) j) (hd : ∀ i, i < n → q.d.v i j = - p.d.v (n - 1 - i) j) (x : ℝ) :
    q.coord j x = p.coord j (L - x) := by
  obtain ⟨i, h1, h2, h3⟩ := exists_piece (xs := q.xs) (by omega) x
  have h3' : i + 2 = q.xs.length ∨ x ≤ knot q.xs (i + 1) := h3.imp_right le_of_lt
  rw [PPoly.coord_on hs' h1 j h2 h3', PPoly.coord_on hs (i := n - 2 - i) (by omega) j]
  · unfold PPoly.cub
    have e1 := hx i (by omega)
    have e2 := hx (i + 1) (by omega)
    rw [show n - 1 - (i + 1) = n - 2 - i by omega] at e2
    rw [show n - 1 - i = n - 2 - i + 1 by omega] at e1
    have d1 := hd i (by omega)
    have d2 := hd (i + 1) (by omega)
    rw [show n - 1 - (i + 1) = n - 2 - i by omega] at d2
    rw [show n - 1 - i = n - 2 - i + 1 by omega] at d1
    have y1 := hy i (by omega)
    have y2 := hy (i + 1) (by omega)
    rw [show n - 1 - (i + 1) = n - 2 - i by omega] at y2
    rw [show n - 1 - i = n - 2 - i + 1 by omega] at y1
    rw [d1, d2, y1, y2]
    rw [e1, e2]
    exact hermR_reverse (knot_lt hs (by omega) (by omega)) L _ _ _ _ x
  · rcases h3' with h | h
    · left; omega
    · right
      have e2 := hx (i + 1) (by omega)
      rw [show n - 1 - (i + 1) = n - 2 - i by omega] at e2
      rw [e2] at h
      linarith
  · rcases h2 with h | h
    · left; omega
    · right
      have e1 := hx i (by omega)
      rw [show n - 1 - i = n - 2 - i + 1 by omega] at e1
      rw [e1] at h
      linarith

theorem npSign_flip (x : ℝ) : npSign (-x) = - npSign x := by
  unfold npSign
  rcases lt_trichotomy x 0 with h | h | h
  · rw [if_pos (by linarith), if_neg (by linarith), if_pos h]; rfl
  · subst h; simp
  · rw [if_neg (by linarith), if_pos (by linarith), if_pos h]

theorem pchipEdge_neg (h0 h1 m0 m1 : ℝ) : pchipEdge h0 h1 (-m0) (-m1) = - pchipEdge h0 h1 m0 m1 := by
  unfold pchipEdge
  simp only
  rw [show ((2 * h0 + h1) * -m0 - h0 * -m1) / (h0 + h1) = -(((2 * h0 + h1) * m0 - h0 * m1) / (h0 + h1)) by ring]
  simp only [npSign_flip, abs_neg, ne_eq, neg_inj]
  split_ifs <;> ring

section
variable {n : Nat} {x y x' y' : Nat → ℝ} {L : ℝ} (hx : ∀ i, i < n → x' i = L - x (n - 1 - i)) (hy : ∀ i, i < n → y' i = y (n - 1 - i))
include hx hy

omit hy in
theorem step_reverse {i k : Nat} (hk : i + k + 2 = n) : x' (i + 1) - x' i = x (k + 1) - x k := by
  rw [hx i (by omega), hx (i + 1) (by omega), show n - 1 - i = k + 1 by omega, show n - 1 - (i + 1) = k by omega]
  ring

theorem secant_reverse {i k : Nat} (hk : i + k + 2 = n) :
    (y' (i + 1) - y' i) / (x' (i + 1) - x' i) = -((y (k + 1) - y k) / (x (k + 1) - x k)) := by
  rw [step_reverse hx hk, hy i (by omega), hy (i + 1) (by omega), show n - 1 - i = k + 1 by omega, show n - 1 - (i + 1) = k by omega]
  ring

theorem pchipSlope_reverse (hn : 2 ≤ n) {k : Nat} (hk : k < n) : pchipSlope n x' y' k = - pchipSlope n x y (n - 1 - k) := by
  unfold pchipSlope
  simp only
  by_cases h2 : n = 2
  · rw [if_pos h2, if_pos h2, secant_reverse hx hy (i := 0) (k := 0) (by omega)]
  rw [if_neg h2, if_neg h2]
  by_cases h0 : k = 0
  · rw [if_pos h0, if_neg (by omega), if_pos (by omega), secant_reverse hx hy (i := 0) (k := n - 2) (by omega),
      secant_reverse hx hy (i := 1) (k := n - 3) (by omega), step_reverse hx (i := 0) (k := n - 2) (by omega),
      step_reverse hx (i := 1) (k := n - 3) (by omega), pchipEdge_neg]
  rw [if_neg h0]
  by_cases hl : k = n - 1
  · rw [if_pos hl, if_pos (by omega), secant_reverse hx hy (i := n - 2) (k := 0) (by omega),
      secant_reverse hx hy (i := n - 3) (k := 1) (by omega), step_reverse hx (i := n - 2) (k := 0) (by omega),
      step_reverse hx (i := n - 3) (k := 1) (by omega), pchipEdge_neg]
  rw [if_neg hl, if_neg (show ¬ n - 1 - k = 0 by omega), if_neg (show ¬ n - 1 - k = n - 1 by omega),
    secant_reverse hx hy (i := k) (k := n - 1 - k - 1) (by omega),
    secant_reverse hx hy (i := k - 1) (k := n - 1 - k) (by omega), step_reverse hx (i := k) (k := n - 1 - k - 1) (by omega),
    step_reverse hx (i := k - 1) (k := n - 1 - k) (by omega)]
  obtain ⟨a, ha⟩ : ∃ a, a = (y (n - 1 - k + 1) - y (n - 1 - k)) / (x (n - 1 - k + 1) - x (n - 1 - k)) := ⟨_, rfl⟩
  obtain ⟨b, hb⟩ : ∃ b, b = (y (n - 1 - k - 1 + 1) - y (n - 1 - k - 1)) / (x (n - 1 - k - 1 + 1) - x (n - 1 - k - 1)) := ⟨_, rfl⟩
  rw [← ha, ← hb]
  have hiff : (npSign (-b) ≠ npSign (-a) ∨ -b = 0 ∨ -a = 0) ↔ (npSign a ≠ npSign b ∨ a = 0 ∨ b = 0) := by
    rw [npSign_flip, npSign_flip, ne_eq, neg_inj, neg_eq_zero, neg_eq_zero, ne_eq, eq_comm (a := npSign b)]
    tauto
  by_cases hz : npSign a ≠ npSign b ∨ a = 0 ∨ b = 0
  · rw [if_pos (hiff.2 hz), if_pos hz, neg_zero]
  · rw [if_neg (fun h => hz (hiff.1 h)), if_neg hz]
    obtain ⟨u, hu⟩ : ∃ u, u = x (n - 1 - k + 1) - x (n - 1 - k) := ⟨_, rfl⟩
    obtain ⟨v, hv⟩ : ∃ v, v = x (n - 1 - k - 1 + 1) - x (n - 1 - k - 1) := ⟨_, rfl⟩
    rw [← hu, ← hv, div_neg, div_neg]
    rw [show -((2 * v + u) / a) + -((v + 2 * u) / b) = -((2 * u + v) / b + (u + 2 * v) / a) by ring,
      show 2 * v + u + (v + 2 * u) = 2 * u + v + (u + 2 * v) by ring, neg_div, div_neg]

theorem akimaM_reverse (hn : 3 ≤ n) {i : Nat} (hi : i < n + 3) : akimaM n x' y' i = - akimaM n x y (n + 2 - i) := by
  unfold akimaM
  simp only
  by_cases h0 : i = 0
  · rw [if_pos h0, if_neg (by omega), if_neg (by omega), if_neg (by omega), if_neg (by omega),
      secant_reverse hx hy (i := 0) (k := n - 2) (by omega), secant_reverse hx hy (i := 1) (k := n - 3) (by omega)]
    ring
  rw [if_neg h0]
  by_cases h1 : i = 1
  · rw [if_pos h1, if_neg (by omega), if_neg (by omega), if_neg (by omega), if_pos (by omega),
      secant_reverse hx hy (i := 0) (k := n - 2) (by omega), secant_reverse hx hy (i := 1) (k := n - 3) (by omega)]
    ring
  rw [if_neg h1]
  by_cases h2 : i ≤ n
  · rw [if_pos h2, if_neg (by omega), if_neg (by omega), if_pos (by omega),
      secant_reverse hx hy (i := i - 2) (k := n + 2 - i - 2) (by omega)]
  rw [if_neg h2]
  by_cases h3 : i = n + 1
  · rw [if_pos h3, if_neg (by omega), if_pos (by omega), secant_reverse hx hy (i := n - 2) (k := 0) (by omega),
      secant_reverse hx hy (i := n - 3) (k := 1) (by omega)]
    ring
  · rw [if_neg h3, if_pos (by omega), secant_reverse hx hy (i := n - 2) (k := 0) (by omega),
      secant_reverse hx hy (i := n - 3) (k := 1) (by omega)]
    ring

theorem akimaF12_reverse (hn : 3 ≤ n) {k : Nat} (hk : k < n) : akimaF12 (akimaM n x' y') k = akimaF12 (akimaM n x y) (n - 1 - k) := by
  have hM := fun i hi => akimaM_reverse hx hy hn (i := i) hi
  unfold akimaF12
  rw [hM (k + 3) (by omega), hM (k + 2) (by omega), hM (k + 1) (by omega), hM k (by omega),
    show n + 2 - (k + 3) = n - 1 - k by omega, show n + 2 - (k + 2) = n - 1 - k + 1 by omega,
    show n + 2 - (k + 1) = n - 1 - k + 2 by omega, show n + 2 - k = n - 1 - k + 3 by omega]
  rw [show ∀ a b : ℝ, -a - -b = b - a by intro a b; ring, show ∀ a b : ℝ, -a - -b = b - a by intro a b; ring]
  rw [add_comm]

theorem akimaSlope_reverse (hn : 3 ≤ n) (top : ℝ) {k : Nat} (hk : k < n) :
    akimaSlope (akimaM n x' y') top k = - akimaSlope (akimaM n x y) top (n - 1 - k) := by
  have hM := fun i hi => akimaM_reverse hx hy hn (i := i) hi
  unfold akimaSlope
  rw [akimaF12_reverse hx hy hn hk, hM (k + 3) (by omega), hM (k + 2) (by omega), hM (k + 1) (by omega), hM k (by omega),
    show n + 2 - (k + 3) = n - 1 - k by omega, show n + 2 - (k + 2) = n - 1 - k + 1 by omega,
    show n + 2 - (k + 1) = n - 1 - k + 2 by omega, show n + 2 - k = n - 1 - k + 3 by omega]
  simp only [show ∀ a b : ℝ, -a - -b = b - a by intro a b; ring]
  split_ifs <;> ring

theorem natural_reverse (hn : 2 ≤ n) (hlt : ∀ i, i + 1 < n → x i < x (i + 1)) {d d' : Nat → ℝ} (hd : NaturalSystem n x y d)
    (hd' : NaturalSystem n x' y' d') {k : Nat} (hk : k < n) : d' k = - d (n - 1 - k) := by
  have hlt' : ∀ i, i + 1 < n → x' i < x' (i + 1) := by
    intro i hi
    have := step_reverse hx (i := i) (k := n - 2 - i) (by omega)
    have := hlt (n - 2 - i) (by omega)
    linarith
  refine natural_unique hn hlt' hd' (d' := fun k => - d (n - 1 - k)) ⟨?_, ?_, ?_⟩ k hk
  · have h1 := step_reverse hx (i := 0) (k := n - 2) (by omega)
    rw [Nat.zero_add, show n - 2 + 1 = n - 1 by omega] at h1
    have h2 := hd.last
    rw [h1, hy 0 (by omega), hy 1 (by omega), show n - 1 - 0 = n - 1 by omega, show n - 1 - 1 = n - 2 by omega]
    linarith
  · have h1 := step_reverse hx (i := n - 2) (k := 0) (by omega)
    rw [Nat.zero_add, show n - 2 + 1 = n - 1 by omega] at h1
    have h2 := hd.first
    rw [h1, hy (n - 1) (by omega), hy (n - 2) (by omega), show n - 1 - (n - 1) = 0 by omega, show n - 1 - (n - 2) = 1 by omega]
    linarith
  · intro i hi
    have h2 := hd.inner (n - 3 - i) (by omega)
    have s1 := secant_reverse hx hy (i := i) (k := n - 3 - i + 1) (by omega)
    have s2 := secant_reverse hx hy (i := i + 1) (k := n - 3 - i) (by omega)
    have t1 := step_reverse hx (i := i) (k := n - 3 - i + 1) (by omega)
    have t2 := step_reverse hx (i := i + 1) (k := n - 3 - i) (by omega)
    rw [show i + 1 + 1 = i + 2 by omega] at s2 t2
    rw [show n - 3 - i + 1 + 1 = n - 3 - i + 2 by omega] at s1 t1
    rw [s1, s2, t1, t2, show n - 1 - i = n - 3 - i + 2 by omega, show n - 1 - (i + 1) = n - 3 - i + 1 by omega,
      show n - 1 - (i + 2) = n - 3 - i by omega]
    linarith

end

/-- The largest of the same numbers. -/
theorem foldl_max_congr {l l' : List ℝ} (h : ∀ a, a ∈ l ↔ a ∈ l') (z : ℝ) : l.foldl max z = l'.foldl max z := by
  have up : ∀ (l : List ℝ) (z b : ℝ), l.foldl max z ≤ b ↔ z ≤ b ∧ ∀ a ∈ l, a ≤ b := by
    intro l
    induction l with
    | nil => intro z b; simp
    | cons a l ih => intro z b; rw [List.foldl_cons, ih]; simp [and_assoc]
  apply le_antisymm
  · rw [up]
    have := (up l' z _).1 le_rfl
    exact ⟨this.1, fun a ha => this.2 a ((h a).1 ha)⟩
  · rw [up]
    have := (up l z _).1 le_rfl
    exact ⟨this.1, fun a ha => this.2 a ((h a).2 ha)⟩

end Verif.Model
