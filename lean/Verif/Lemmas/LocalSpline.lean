import Verif.Lemmas.RescaleSpline

/-! Slopes at the ends of a piece depend on the neighbours of the piece only. -/
namespace Verif.Model

open Verif Verif.Np Verif.Spec

/-- The values `f` around piece `i` of `n` knots are, up to the constant `b`, those of `f'` around piece `i'` of `n'` knots. -/
structure Around (n n' i i' : Nat) (b : ℝ) (f f' : Nat → ℝ) : Prop where
  lt : i + 1 < n
  lt' : i' + 1 < n'
  first : i = 0 ↔ i' = 0
  last : i + 2 = n ↔ i' + 2 = n'
  at0 : f' i' = f i + b
  at1 : f' (i' + 1) = f (i + 1) + b
  before : ∀ k k', i = k + 1 → i' = k' + 1 → f' k' = f k + b
  after : i + 2 < n → f' (i' + 2) = f (i + 2) + b

section
variable {n n' i i' : Nat} {b : ℝ} {x x' y y' : Nat → ℝ} (hx : Around n n' i i' b x x') (hy : Around n n' i i' 0 y y')

include hx in
theorem Around.step : x' (i' + 1) - x' i' = x (i + 1) - x i ∧
    (∀ k k', i = k + 1 → i' = k' + 1 → x' (k' + 1) - x' k' = x (k + 1) - x k) ∧
    (i + 2 < n → x' (i' + 1 + 1) - x' (i' + 1) = x (i + 1 + 1) - x (i + 1)) := by
  refine ⟨by rw [hx.at0, hx.at1]; ring, ?_, ?_⟩
  · rintro k k' h h'
    have h0 := hx.at0
    rw [h, h'] at h0
    rw [h0, hx.before k k' h h']; ring
  · intro h
    have := hx.after h
    rw [show i' + 1 + 1 = i' + 2 from rfl, show i + 1 + 1 = i + 2 from rfl, this, hx.at1]; ring

include hx hy in
theorem pchipSlope_around : pchipSlope n' x' y' i' = pchipSlope n x y i ∧ pchipSlope n' x' y' (i' + 1) = pchipSlope n x y (i + 1) := by
  obtain ⟨s0, s1, s2⟩ := hx.step
  obtain ⟨u0, u1, u2⟩ := hy.step
  have l := hx.lt
  have l' := hx.lt'
  have hf := hx.first
  have hla := hx.last
  unfold pchipSlope
  simp only
  by_cases h2 : n = 2
  · have h2' : n' = 2 := by omega
    have hi : i = 0 := by omega
    have hi' : i' = 0 := by omega
    subst hi hi'
    rw [if_pos h2, if_pos h2', if_pos h2, if_pos h2', s0, u0]
    exact ⟨rfl, rfl⟩
  have h2' : ¬ n' = 2 := by omega
  rw [if_neg h2, if_neg h2', if_neg h2, if_neg h2', if_neg (show ¬ i + 1 = 0 by omega), if_neg (show ¬ i' + 1 = 0 by omega)]
  constructor
  · cases i with
    | zero =>
      have hi' : i' = 0 := hf.1 rfl
      subst hi'
      have s2 := s2 (by omega)
      have u2 := u2 (by omega)
      simp only [Nat.zero_add] at s0 s2 u0 u2 ⊢
      rw [if_pos trivial, if_pos trivial, s0, s2, u0, u2]
    | succ k =>
      obtain ⟨k', rfl⟩ : ∃ k', i' = k' + 1 := ⟨i' - 1, by omega⟩
      have s1 := s1 k k' rfl rfl
      have u1 := u1 k k' rfl rfl
      rw [if_neg (show ¬ k + 1 = 0 by omega), if_neg (show ¬ k' + 1 = 0 by omega), if_neg (show ¬ k + 1 = n - 1 by omega),
        if_neg (show ¬ k' + 1 = n' - 1 by omega)]
      simp only [Nat.add_sub_cancel, s0, s1, u0, u1]
  · by_cases h3 : i + 1 = n - 1
    · obtain ⟨k, rfl⟩ : ∃ k, i = k + 1 := ⟨i - 1, by omega⟩
      obtain ⟨k', rfl⟩ : ∃ k', i' = k' + 1 := ⟨i' - 1, by omega⟩
      have s1 := s1 k k' rfl rfl
      have u1 := u1 k k' rfl rfl
      have h3' : k' + 1 + 1 = n' - 1 := by omega
      rw [if_pos h3, if_pos h3', show n - 2 = k + 1 by omega, show n' - 2 = k' + 1 by omega, show n - 3 = k by omega,
        show n' - 3 = k' by omega, s0, s1, u0, u1]
    · have h3' : ¬ i' + 1 = n' - 1 := by omega
      have s2 := s2 (by omega)
      have u2 := u2 (by omega)
      rw [if_neg h3, if_neg h3']
      simp only [Nat.add_sub_cancel, s0, s2, u0, u2]

end

theorem npGradient_around {n n' i i' : Nat} {y y' : Nat → ℝ} (hy : Around n n' i i' 0 y y') {o o' : Nat} (ho : o = 1 ↔ n = 2) (ho' : o' = 1 ↔ n' = 2) :
    npGradient o' n' y' i' = npGradient o n y i ∧ npGradient o' n' y' (i' + 1) = npGradient o n y (i + 1) := by
  have l := hy.lt
  have l' := hy.lt'
  have hf := hy.first
  have hla := hy.last
  have a0 := hy.at0
  have a1 := hy.at1
  have bf := hy.before
  have af := hy.after
  simp only [add_zero] at a0 a1 bf af
  have hoo : o = 1 ↔ o' = 1 := by rw [ho, ho']; omega
  unfold npGradient
  simp only [ho, ho']
  by_cases h2 : n = 2
  · have h2' : n' = 2 := by omega
    have hi : i = 0 := by omega
    have hi' : i' = 0 := by omega
    subst hi hi' h2 h2'
    simp only [Nat.zero_add] at a0 a1
    simp [a0, a1]
  have h2' : ¬ n' = 2 := by omega
  rw [if_neg h2, if_neg h2', if_neg (show ¬ i + 1 = 0 by omega), if_neg (show ¬ i' + 1 = 0 by omega)]
  constructor
  · cases i with
    | zero =>
      have hi' : i' = 0 := hf.1 rfl
      subst hi'
      have af := af (by omega)
      simp only [Nat.zero_add] at a0 a1 af ⊢
      rw [if_pos trivial, if_pos trivial, a0, a1, af]
    | succ k =>
      obtain ⟨k', rfl⟩ : ∃ k', i' = k' + 1 := ⟨i' - 1, by omega⟩
      have bf := bf k k' rfl rfl
      rw [if_neg (show ¬ k + 1 = 0 by omega), if_neg (show ¬ k' + 1 = 0 by omega), if_neg (show ¬ k + 1 = n - 1 by omega),
        if_neg (show ¬ k' + 1 = n' - 1 by omega)]
      simp only [Nat.add_sub_cancel, a1, bf]
  · by_cases h3 : i + 1 = n - 1
    · obtain ⟨k, rfl⟩ : ∃ k, i = k + 1 := ⟨i - 1, by omega⟩
      obtain ⟨k', rfl⟩ : ∃ k', i' = k' + 1 := ⟨i' - 1, by omega⟩
      have bf := bf k k' rfl rfl
      have h3' : k' + 1 + 1 = n' - 1 := by omega
      rw [if_pos h3, if_pos h3', show n - 2 = k + 1 by omega, show n' - 2 = k' + 1 by omega, show n - 3 = k by omega,
        show n' - 3 = k' by omega, show n - 1 = k + 1 + 1 by omega, show n' - 1 = k' + 1 + 1 by omega, a0, a1, bf]
      simp only [h2, h2', if_false]
    · have h3' : ¬ i' + 1 = n' - 1 := by omega
      have af := af (by omega)
      rw [if_neg h3, if_neg h3']
      simp only [Nat.add_sub_cancel]
      rw [show i' + 1 + 1 = i' + 2 from rfl, show i + 1 + 1 = i + 2 from rfl, af, a0]

end Verif.Model
