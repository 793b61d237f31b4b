import Verif.Model.Binary64
import Verif.Props.Rounded
import Verif.Props.Interp

/-!
C139: chord lengths and arc lengths with the range of binary64 numbers.
-/
namespace Verif.Props

open Verif Verif.Np Verif.Model Verif.Spec

local notation "ε₀" => ((2 : ℝ)⁻¹ ^ 53)
local notation "η₀" => ((2 : ℝ) ^ (-1075 : ℤ))

/-- `z` is within `k` relative errors of a number that is within `δ` of `x`. -/
def NearErr (k : Nat) (δ x z : ℝ) : Prop := ∃ x', 0 ≤ x' ∧ |x' - x| ≤ δ ∧ RelErr ε₀ k x' z

theorem NearErr.of_rel {k : Nat} {x z : ℝ} (hx : 0 ≤ x) (h : RelErr ε₀ k x z) : NearErr k 0 x z := ⟨x, hx, by simp, h⟩

theorem NearErr.weaken {k k' : Nat} {δ δ' x z : ℝ} (h : NearErr k δ x z) (hk : k ≤ k') (hd : δ ≤ δ') : NearErr k' δ' x z := by
  obtain ⟨x', h1, h2, h3⟩ := h
  exact ⟨x', h1, h2.trans hd, h3.weaken rnd_rounding hk h1⟩

theorem NearErr.nonneg {k : Nat} {δ x z : ℝ} (h : NearErr k δ x z) : 0 ≤ z := by
  obtain ⟨x', h1, _, h3⟩ := h
  exact h3.nonneg rnd_rounding h1

theorem NearErr.delta {k : Nat} {δ x z : ℝ} (h : NearErr k δ x z) : 0 ≤ δ := by
  obtain ⟨x', h1, h2, h3⟩ := h
  exact (abs_nonneg _).trans h2

theorem NearErr.add {k : Nat} {δ δ' x y z w : ℝ} (h1 : NearErr k δ x z) (h2 : NearErr k δ' y w) : NearErr k (δ + δ') (x + y) (z + w) := by
  obtain ⟨x', a1, a2, a3⟩ := h1
  obtain ⟨y', b1, b2, b3⟩ := h2
  refine ⟨x' + y', by linarith, ?_, a3.add b3⟩
  rw [show x' + y' - (x + y) = x' - x + (y' - y) by ring]
  exact (abs_add_le _ _).trans (add_le_add a2 b2)

/-- Half of the number is left after `k` relative errors. -/
theorem half_le_pow {k : Nat} (hk : 4 * (k * ε₀) ≤ 1) : 1 / 2 ≤ (1 - ε₀) ^ k := by
  have h := one_add_mul_le_pow (a := -ε₀) (by norm_num) k
  rw [← sub_eq_add_neg] at h
  linarith

theorem pow_le_three_halves {k : Nat} (hk : 4 * (k * ε₀) ≤ 1) : (1 + ε₀) ^ k ≤ 3 / 2 := by
  have := pow_one_add_le rnd_rounding (k := k) (by linarith)
  linarith

/-- Errors one after the other: an error of an intermediate result is one of the start of at most twice the size. -/
theorem NearErr.trans {j k : Nat} {δ δ' x y z : ℝ} (h1 : NearErr j δ x y) (h2 : NearErr k δ' y z) (hj : 4 * (j * ε₀) ≤ 1) :
    NearErr (j + k) (δ + 2 * δ') x z := by
  have hd := h2.delta
  obtain ⟨x', a1, a2, a3⟩ := h1
  obtain ⟨y', b1, b2, b3⟩ := h2
  have hh := half_le_pow hj
  have hxy : x' ≤ 2 * y := by
    have := mul_le_mul_of_nonneg_right hh a1
    linarith [a3.1]
  rcases (show 0 ≤ y by linarith).eq_or_lt with h0 | h0
  · have hx0 : x' = 0 := by linarith
    refine ⟨y', b1, ?_, ?_⟩
    · rw [← h0] at b2
      rw [hx0] at a2
      rw [show y' - x = (y' - 0) + (0 - x) by ring]
      exact (abs_add_le _ _).trans (by linarith)
    · exact (RelErr.weaken rnd_rounding (RelErr.refl y') (Nat.zero_le j) b1).trans rnd_rounding b3
  · refine ⟨x' * (y' / y), by positivity, ?_, ?_⟩
    · have e : x' * (y' / y) - x = x' / y * (y' - y) + (x' - x) := by field_simp; ring
      rw [e]
      refine (abs_add_le _ _).trans ?_
      rw [abs_mul, abs_of_nonneg (by positivity : 0 ≤ x' / y)]
      have : x' / y ≤ 2 := by rw [div_le_iff₀ h0]; linarith
      nlinarith [mul_le_mul this b2 (abs_nonneg _) (by norm_num)]
    · refine RelErr.trans rnd_rounding ?_ b3
      have hq : 0 ≤ y' / y := by positivity
      constructor
      · calc (1 - ε₀) ^ j * (x' * (y' / y)) = (1 - ε₀) ^ j * x' * (y' / y) := by ring
          _ ≤ y * (y' / y) := mul_le_mul_of_nonneg_right a3.1 hq
          _ = y' := by field_simp
      · calc y' = y * (y' / y) := by field_simp
          _ ≤ (1 + ε₀) ^ j * x' * (y' / y) := mul_le_mul_of_nonneg_right a3.2 hq
          _ = (1 + ε₀) ^ j * (x' * (y' / y)) := by ring

/-- One rounding. -/
theorem near_rndS {y : ℝ} (hy : 0 ≤ y) : NearErr 1 η₀ y (rndS y) := by
  rcases rndS_err y with h | h
  · rw [abs_of_nonneg hy, abs_le] at h
    refine ⟨y, hy, by simp, ?_⟩
    constructor <;> rw [pow_one] <;> linarith [h.1, h.2]
  · exact ⟨rndS y, rndS_nonneg hy, h, (RelErr.refl _).weaken rnd_rounding (by omega) (rndS_nonneg hy)⟩

theorem NearErr.bound {k : Nat} {δ x z : ℝ} (h : NearErr k δ x z) (hk : 4 * (k * ε₀) ≤ 1) : z ≤ 3 / 2 * (x + δ) := by
  obtain ⟨x', a1, a2, a3⟩ := h
  have := pow_le_three_halves hk
  have := (abs_le.1 a2).2
  have := mul_le_mul (pow_le_three_halves hk) (show x' ≤ x + δ by linarith) a1 (by norm_num)
  linarith [a3.2]

theorem NearErr.simple {k : Nat} {δ x z : ℝ} (h : NearErr k δ x z) (hk : 4 * (k * ε₀) ≤ 1) : |z - x| ≤ 2 * k * ε₀ * x + 2 * δ := by
  obtain ⟨x', a1, a2, a3⟩ := h
  have h1 := rel_simple rnd_rounding a3 a1 (by linarith)
  rw [show z - x = z - x' + (x' - x) by ring]
  refine (abs_add_le _ _).trans ?_
  have h2 := (abs_le.1 a2).2
  have : 2 * k * ε₀ * x' ≤ 2 * k * ε₀ * (x + δ) := mul_le_mul_of_nonneg_left (by linarith) (by positivity)
  have h3 : 2 * k * ε₀ * δ ≤ 1 * δ := mul_le_mul_of_nonneg_right (by linarith) ((abs_nonneg _).trans a2)
  linarith

theorem fin_add (x y : ℝ) : (Val.fin x).add (.fin y) = .fin (x + y) := rfl

/-- A sum of finite non-negative numbers in binary64, none of the partial sums too large. -/
theorem sums64 {vs : List (Val ℝ)} {v : Val ℝ} (h : SumsTo64 vs v) : ∀ ws : List ℝ, vs = fins ws → (∀ w ∈ ws, 0 ≤ w) →
    4 * (ws.length * ε₀) ≤ 1 → ws.sum ≤ 2 ^ 1022 → ∃ s, v = .fin s ∧ NearErr (ws.length - 1) (2 * (ws.length - 1 : ℕ) * η₀) ws.sum s := by
  have hη : (0 : ℝ) ≤ η₀ := by positivity
  induction h with
  | nil =>
    intro ws e _ _ _
    cases ws with
    | nil => exact ⟨0, rfl, by simpa using NearErr.of_rel (k := 0) le_rfl (RelErr.refl 0)⟩
    | cons a l => simp [fins] at e
  | one x =>
    intro ws e h0 _ _
    match ws, e with
    | [w], e =>
      simp only [fins, List.map_cons, List.map_nil, List.cons.injEq, and_true] at e
      refine ⟨w, e, ?_⟩
      have := NearErr.of_rel (h0 w (by simp)) (RelErr.refl w)
      simpa using this
    | [], e => simp [fins] at e
    | _ :: _ :: _, e => simp [fins] at e
  | @add xs ys zs s t _ _ nx ny hz ih1 ih2 =>
    intro ws e h0 hlen hsum
    -- the two parts are finite
    have hall : ∀ v ∈ zs, ∃ w, 0 ≤ w ∧ v = .fin w := by
      intro v hv
      rw [e] at hv
      obtain ⟨w, hw, rfl⟩ := List.mem_map.1 hv
      exact ⟨w, h0 w hw, rfl⟩
    have hpart : ∀ l : List (Val ℝ), (∀ v ∈ l, ∃ w, 0 ≤ w ∧ v = .fin w) → ∃ ws : List ℝ, l = fins ws ∧ ∀ w ∈ ws, 0 ≤ w := by
      intro l
      induction l with
      | nil => intro _; exact ⟨[], rfl, by simp⟩
      | cons a l ih =>
        intro h
        obtain ⟨w, w0, rfl⟩ := h a (by simp)
        obtain ⟨ws, rfl, h1⟩ := ih fun v hv => h v (by simp [hv])
        exact ⟨w :: ws, rfl, by simpa using ⟨w0, h1⟩⟩
    obtain ⟨us, e1, u0⟩ := hpart xs fun v hv => hall v (hz.mem_iff.2 (List.mem_append_left _ hv))
    obtain ⟨vs, e2, v0⟩ := hpart ys fun v hv => hall v (hz.mem_iff.2 (List.mem_append_right _ hv))
    have hperm : ws.Perm (us ++ vs) := by
      rw [e, e1, e2] at hz
      have := hz.map Val.real
      rw [List.map_append, map_real_fins, map_real_fins, map_real_fins] at this
      exact this
    have l1 : 0 < us.length := by
      rcases us with _ | ⟨a, l⟩
      · exact absurd e1 nx
      · simp
    have l2 : 0 < vs.length := by
      rcases vs with _ | ⟨a, l⟩
      · exact absurd e2 ny
      · simp
    have hl : ws.length = us.length + vs.length := by rw [hperm.length_eq, List.length_append]
    have hs : ws.sum = us.sum + vs.sum := by rw [hperm.sum_eq, List.sum_append]
    have su := List.sum_nonneg u0
    have sv := List.sum_nonneg v0
    have hc : ∀ {m : ℕ}, m ≤ ws.length → 4 * (m * ε₀) ≤ 1 := by
      intro m hm
      have : (m : ℝ) ≤ ws.length := by exact_mod_cast hm
      have := mul_le_mul_of_nonneg_right this (show (0 : ℝ) ≤ ε₀ by positivity)
      linarith
    obtain ⟨s', rfl, r1⟩ := ih1 us e1 u0 (hc (by omega)) (by linarith)
    obtain ⟨t', rfl, r2⟩ := ih2 vs e2 v0 (hc (by omega)) (by linarith)
    have r1' := r1.weaken (k' := us.length + vs.length - 2) (by omega) le_rfl
    have r2' := r2.weaken (k' := us.length + vs.length - 2) (by omega) le_rfl
    have r := r1'.add r2'
    have hb := r.bound (hc (by omega))
    have hδ : 2 * ((us.length - 1 : ℕ) : ℝ) * η₀ + 2 * ((vs.length - 1 : ℕ) : ℝ) * η₀ = 2 * ((us.length + vs.length - 2 : ℕ) : ℝ) * η₀ := by
      rw [show us.length + vs.length - 2 = (us.length - 1) + (vs.length - 1) by omega]
      push_cast
      ring
    have hδ1 : 2 * ((us.length + vs.length - 2 : ℕ) : ℝ) * η₀ ≤ 1 := by
      have h1 := hc (m := us.length + vs.length - 2) (by omega)
      have h2 : η₀ ≤ ε₀ := by
        rw [show ε₀ = (2 : ℝ) ^ (-53 : ℤ) by norm_num]
        exact two_zpow_le.2 (by norm_num)
      have := mul_le_mul_of_nonneg_left h2 (show (0 : ℝ) ≤ 2 * ((us.length + vs.length - 2 : ℕ) : ℝ) by positivity)
      linarith
    have hst : |s' + t'| ≤ 2 ^ 1023 := by
      rw [abs_of_nonneg r.nonneg]
      rw [hδ] at hb
      rw [hs] at hsum
      have h4 : (4 : ℝ) ≤ 2 ^ 1022 := by
        rw [show (4 : ℝ) = 2 ^ 2 by norm_num]
        exact pow_le_pow_right₀ (by norm_num) (by norm_num)
      rw [show (2 : ℝ) ^ 1023 = 2 * 2 ^ 1022 from pow_succ' 2 1022]
      generalize (2 : ℝ) ^ 1022 = z at hsum h4
      linarith
    refine ⟨rndS (s' + t'), ?_, ?_⟩
    · rw [fin_add]
      exact rnd64_fin hst
    · have := r.trans (near_rndS r.nonneg) (hc (by omega))
      rw [hs, hl]
      rw [hδ] at this
      refine this.weaken (by omega) ?_
      rw [show us.length + vs.length - 1 = us.length + vs.length - 2 + 1 by omega]
      push_cast
      linarith

theorem NearErr.sum {k : Nat} {δ : ℝ} {xs zs : List ℝ} (h : List.Forall₂ (NearErr k δ) xs zs) : NearErr k (xs.length * δ) xs.sum zs.sum := by
  induction h with
  | nil => simpa using (NearErr.of_rel (k := 0) le_rfl (RelErr.refl 0)).weaken (Nat.zero_le k) le_rfl
  | @cons x z xs zs h _ ih =>
    have := h.add ih
    simp only [List.sum_cons, List.length_cons]
    refine this.weaken le_rfl ?_
    push_cast
    linarith

/-- One squared difference in binary64. -/
theorem term64 {x y : ℝ} (hx : rndS x = x) (hy : rndS y = y) (h : (y - x) ^ 2 ≤ 2 ^ 1020) :
    ∃ w, fl64 (fl64 ((Val.fin y).sub (.fin x))).sq = .fin w ∧ NearErr 3 (2 * η₀) ((y - x) ^ 2) w := by
  have hd : |y - x| ≤ 2 ^ 510 := by
    refine abs_le_of_sq_le_sq ?_ (by positivity)
    rwa [← pow_mul]
  have e1 : (Val.fin y).sub (.fin x) = .fin (y - x) := by
    unfold Val.sub Val.neg
    rw [fin_add, ← sub_eq_add_neg]
  have e2 : fl64 (.fin (y - x)) = .fin (rndS (y - x)) := rnd64_fin (hd.trans (pow_le_pow_right₀ (by norm_num) (by norm_num)))
  have r : RelErr ε₀ 2 ((y - x) ^ 2) (rndS (y - x) ^ 2) := sq_rel rnd_rounding (rndS_sub hx hy)
  have r' := NearErr.of_rel (sq_nonneg _) r
  have hb := r'.bound (by norm_num)
  have hb' : |rndS (y - x) ^ 2| ≤ 2 ^ 1023 := by
    rw [abs_of_nonneg (sq_nonneg _), show (2 : ℝ) ^ 1023 = 8 * 2 ^ 1020 by rw [show (8 : ℝ) = 2 ^ 3 by norm_num, ← pow_add]]
    have : (0 : ℝ) ≤ 2 ^ 1020 := by positivity
    generalize (2 : ℝ) ^ 1020 = z at h this
    linarith
  refine ⟨rndS (rndS (y - x) ^ 2), ?_, ?_⟩
  · rw [e1, e2]
    exact rnd64_fin hb'
  · have := r'.trans (near_rndS (sq_nonneg _)) (by norm_num)
    simpa using this

theorem terms64 : ∀ {a b : List ℝ}, a.length = b.length → (∀ x ∈ a, rndS x = x) → (∀ x ∈ b, rndS x = x) →
    (List.zipWith (fun x y : ℝ => (y - x) ^ 2) a b).sum ≤ 2 ^ 1020 →
    ∃ ws, sqTerms64 (fins a) (fins b) = fins ws ∧ List.Forall₂ (NearErr 3 (2 * η₀)) (List.zipWith (fun x y : ℝ => (y - x) ^ 2) a b) ws
  | [], [], _, _, _, _ => ⟨[], rfl, .nil⟩
  | [], _ :: _, h, _, _, _ => by simp at h
  | _ :: _, [], h, _, _, _ => by simp at h
  | x :: a, y :: b, hl, ha, hb, hs => by
    have hpos : ∀ (a b : List ℝ), 0 ≤ (List.zipWith (fun x y : ℝ => (y - x) ^ 2) a b).sum := by
      intro a b
      refine List.sum_nonneg fun w hw => ?_
      rw [← List.map_uncurry_zip_eq_zipWith] at hw
      obtain ⟨p, -, rfl⟩ := List.mem_map.1 hw
      exact sq_nonneg _
    simp only [List.zipWith_cons_cons, List.sum_cons] at hs
    have h1 := hpos a b
    obtain ⟨w, e, hw⟩ := term64 (ha x (by simp)) (hb y (by simp)) (by linarith [hs, h1])
    obtain ⟨ws, e', hws⟩ := terms64 (a := a) (b := b) (by simpa using hl) (fun x hx => ha x (by simp [hx])) (fun x hx => hb x (by simp [hx]))
      (by linarith [hs, sq_nonneg (y - x)])
    refine ⟨w :: ws, ?_, .cons hw hws⟩
    unfold sqTerms64 at e' ⊢
    simp only [fins, List.map_cons, List.zipWith_cons_cons] at e' ⊢
    rw [e, e']

/-- The square root keeps the errors, an absolute one with its root. -/
theorem NearErr.sqrt {k : Nat} {δ x z : ℝ} (h : NearErr k δ x z) (hx : 0 ≤ x) : NearErr k (√ δ) (√ x) (√ z) := by
  have hd := h.delta
  have hz := h.nonneg
  obtain ⟨x', a1, a2, a3⟩ := h
  refine ⟨√ x', Real.sqrt_nonneg _, ?_, ?_⟩
  · have key : ∀ {u v : ℝ}, 0 ≤ v → u ≤ v + δ → √ u ≤ √ v + √ δ := by
      intro u v hv huv
      refine (Real.sqrt_le_sqrt huv).trans ?_
      rw [Real.sqrt_le_left (by positivity)]
      nlinarith [Real.sq_sqrt hv, Real.sq_sqrt hd, Real.sqrt_nonneg v, Real.sqrt_nonneg δ]
    rw [abs_le] at a2 ⊢
    constructor
    · linarith [key a1 (show x ≤ x' + δ by linarith [a2.1])]
    · linarith [key hx (show x' ≤ x + δ by linarith [a2.2])]
  · have e0 : (0 : ℝ) ≤ 1 - ε₀ := by norm_num
    have e1 : (1 : ℝ) - ε₀ ≤ 1 := by norm_num
    constructor
    · refine Real.le_sqrt_of_sq_le ?_
      rw [mul_pow, Real.sq_sqrt a1, ← pow_mul]
      refine le_trans (mul_le_mul_of_nonneg_right ?_ a1) a3.1
      exact pow_le_pow_of_le_one e0 e1 (by omega)
    · rw [Real.sqrt_le_left (by positivity), mul_pow, Real.sq_sqrt a1, ← pow_mul]
      refine a3.2.trans (mul_le_mul_of_nonneg_right ?_ a1)
      exact pow_le_pow_right₀ (by norm_num) (by omega)

theorem root_delta (n : Nat) (hn : 0 < n) : √ (n * (2 * η₀) + 2 * (2 * (n - 1 : ℕ) * η₀)) + 2 * η₀ ≤ √ n * 2 ^ (-536 : ℤ) := by
  have hη : (0 : ℝ) < η₀ := by positivity
  have h1 : n * (2 * η₀) + 2 * (2 * (n - 1 : ℕ) * η₀) ≤ (√ n * (5 / 2 * 2 ^ (-538 : ℤ) * √ 2)) ^ 2 := by
    have e : (η₀ : ℝ) = 2 * (2 ^ (-538 : ℤ)) ^ 2 := by
      rw [← zpow_natCast, ← zpow_mul, show (-1075 : ℤ) = 1 + -538 * ((2 : ℕ) : ℤ) by norm_num, zpow_add₀ two_ne_zero, zpow_one]
    rw [mul_pow, Real.sq_sqrt (by positivity), mul_pow, Real.sq_sqrt (by norm_num), mul_pow]
    have : ((n - 1 : ℕ) : ℝ) ≤ n := by exact_mod_cast Nat.sub_le n 1
    rw [e]
    have p : (0 : ℝ) < (2 ^ (-538 : ℤ)) ^ 2 := by positivity
    generalize ((2 : ℝ) ^ (-538 : ℤ)) ^ 2 = w at p
    have := mul_le_mul_of_nonneg_right this p.le
    have : (0 : ℝ) ≤ n * w := by positivity
    nlinarith
  have h2 := Real.sqrt_le_sqrt h1
  rw [Real.sqrt_sq (by positivity)] at h2
  have h3 : √ (2 : ℝ) ≤ 3 / 2 := by
    rw [Real.sqrt_le_left (by norm_num)]
    norm_num
  have hs : (1 : ℝ) ≤ √ n := by
    rw [show (1 : ℝ) = √ 1 by simp]
    exact Real.sqrt_le_sqrt (by exact_mod_cast hn)
  have e2 : (2 : ℝ) ^ (-536 : ℤ) = 4 * 2 ^ (-538 : ℤ) := by
    rw [show (-536 : ℤ) = 2 + -538 by norm_num, zpow_add₀ two_ne_zero]; norm_num
  have e3 : 2 * η₀ ≤ 1 / 4 * (2 : ℝ) ^ (-538 : ℤ) := by
    rw [show (1 / 4 : ℝ) = 2 ^ (-2 : ℤ) by norm_num, ← zpow_add₀ two_ne_zero, show (2 : ℝ) * 2 ^ (-1075 : ℤ) = 2 ^ (-1074 : ℤ) by
      rw [show (-1074 : ℤ) = 1 + -1075 by norm_num, zpow_add₀ two_ne_zero, zpow_one]]
    exact two_zpow_le.2 (by norm_num)
  have p : (0 : ℝ) < 2 ^ (-538 : ℤ) := by positivity
  rw [e2]
  refine (add_le_add h2 e3).trans ?_
  generalize (2 : ℝ) ^ (-538 : ℤ) = w at p
  have h5 : 5 / 2 * w * √ 2 ≤ 5 / 2 * w * (3 / 2) := mul_le_mul_of_nonneg_left h3 (by positivity)
  have h6 := mul_le_mul_of_nonneg_left h5 (show 0 ≤ √ (n : ℝ) by positivity)
  have h7 := mul_le_mul_of_nonneg_right hs p.le
  nlinarith

theorem chord64_near {n : Nat} (hn : 0 < n) (hε : 4 * ((n + 4 : ℕ) * ε₀) ≤ 1) {a b : List ℝ} (ha : a.length = n) (hb : b.length = n)
    (fa : ∀ x ∈ a, rndS x = x) (fb : ∀ x ∈ b, rndS x = x) (hg : gap n a b ≤ 2 ^ 510) {z : Val ℝ} (h : ChordTo64 (fins a) (fins b) z) :
    ∃ z', z = .fin z' ∧ NearErr (n + 3) (√ n * 2 ^ (-536 : ℤ)) (gap n a b) z' := by
  obtain ⟨s, h1, rfl⟩ := h
  have g0 : 0 ≤ gap n a b := dist_nonneg
  have hsq : (List.zipWith (fun x y : ℝ => (y - x) ^ 2) a b).sum = gap n a b ^ 2 := by
    rw [← chord_eq_gap ha hb]
    unfold chord
    rw [Real.sq_sqrt]
    refine List.sum_nonneg fun w hw => ?_
    rw [← List.map_uncurry_zip_eq_zipWith] at hw
    obtain ⟨p, -, rfl⟩ := List.mem_map.1 hw
    exact sq_nonneg _
  have hg2 : gap n a b ^ 2 ≤ 2 ^ 1020 := by
    have := pow_le_pow_left₀ g0 hg 2
    rwa [← pow_mul] at this
  obtain ⟨ws, e, hws⟩ := terms64 (by rw [ha, hb]) fa fb (by rw [hsq]; exact hg2)
  have hlen : ws.length = n := by rw [← hws.length_eq]; simp [ha, hb]
  have hlen' : (List.zipWith (fun x y : ℝ => (y - x) ^ 2) a b).length = n := by simp [ha, hb]
  have hc : ∀ {m : ℕ}, m ≤ n + 4 → 4 * (m * ε₀) ≤ 1 := by
    intro m hm
    have : (m : ℝ) ≤ (n + 4 : ℕ) := by exact_mod_cast hm
    have := mul_le_mul_of_nonneg_right this (show (0 : ℝ) ≤ ε₀ by positivity)
    linarith
  have w0 : ∀ w ∈ ws, 0 ≤ w := by
    intro w hw
    obtain ⟨i, hi, rfl⟩ := List.getElem_of_mem hw
    exact (List.Forall₂.get hws (i := i) (by rw [hws.length_eq]; exact hi) hi).nonneg
  have r1 := NearErr.sum hws
  rw [hsq, hlen'] at r1
  have hη : (n : ℝ) * (2 * η₀) ≤ 1 := by
    have h1 := hc (m := n) (by omega)
    have h2 : η₀ ≤ ε₀ := by
      rw [show ε₀ = (2 : ℝ) ^ (-53 : ℤ) by norm_num]
      exact two_zpow_le.2 (by norm_num)
    have := mul_le_mul_of_nonneg_left h2 (show (0 : ℝ) ≤ n by positivity)
    linarith
  have hsum : ws.sum ≤ 2 ^ 1022 := by
    have := r1.bound (hc (by omega))
    have h4 : (1 : ℝ) ≤ 2 ^ 1020 := one_le_pow₀ (by norm_num)
    rw [show (2 : ℝ) ^ 1022 = 4 * 2 ^ 1020 by rw [show (4 : ℝ) = 2 ^ 2 by norm_num, ← pow_add]]
    generalize (2 : ℝ) ^ 1020 = z at hg2 h4
    linarith
  obtain ⟨s', rfl, r2⟩ := sums64 h1 ws e w0 (hc (by omega)) hsum
  rw [hlen] at r2
  have r3 := r1.trans r2 (hc (by omega))
  have s0 := r3.nonneg
  have r4 := r3.sqrt (sq_nonneg _)
  rw [Real.sqrt_sq g0] at r4
  have hs' : |√ s'| ≤ 2 ^ 1023 := by
    rw [abs_of_nonneg (Real.sqrt_nonneg _), Real.sqrt_le_left (by positivity)]
    have hb := r2.bound (hc (by omega))
    have h1 : 2 * ((n - 1 : ℕ) : ℝ) * η₀ ≤ 1 := by
      have : ((n - 1 : ℕ) : ℝ) ≤ n := by exact_mod_cast Nat.sub_le n 1
      have := mul_le_mul_of_nonneg_right this (show (0 : ℝ) ≤ η₀ by positivity)
      linarith
    have h4 : (1 : ℝ) ≤ 2 ^ 1022 := one_le_pow₀ (by norm_num)
    have h5 : (2 : ℝ) ^ 1022 * 4 ≤ (2 ^ 1023) ^ 2 := by
      rw [show (4 : ℝ) = 2 ^ 2 by norm_num, ← pow_add, ← pow_mul]
      exact pow_le_pow_right₀ (by norm_num) (by norm_num)
    refine le_trans ?_ h5
    generalize (2 : ℝ) ^ 1022 = z at hsum h4
    linarith
  refine ⟨rndS (√ s'), ?_, ?_⟩
  · have : (Val.fin s').sqrt = .fin (√ s') := by simp only [Val.sqrt, if_pos s0]
    rw [this]
    exact rnd64_fin hs'
  · have := r4.trans (near_rndS (Real.sqrt_nonneg s')) (hc (by omega))
    refine this.weaken (by omega) (root_delta n hn)

/-- **C139 (chords).** Two points with `n` binary64 coordinates, not more than `2^510` apart: the chord length computed in binary64 arithmetic,
with the squares added in any order, is finite and differs from the distance by at most `2 (n + 4) 2^-53` times the distance plus `√n 2^-535`. -/
theorem C139_chord {n : Nat} (hn : 0 < n) (hε : 4 * ((n + 4 : ℕ) * ε₀) ≤ 1) {a b : List ℝ} (ha : a.length = n) (hb : b.length = n)
    (fa : ∀ x ∈ a, rndS x = x) (fb : ∀ x ∈ b, rndS x = x) (hg : gap n a b ≤ 2 ^ 510) {z : Val ℝ} (h : ChordTo64 (fins a) (fins b) z) :
    ∃ z', z = .fin z' ∧ 0 ≤ z' ∧ |z' - gap n a b| ≤ 2 * (n + 4 : ℕ) * 2⁻¹ ^ 53 * gap n a b + √ n * 2 ^ (-535 : ℤ) := by
  obtain ⟨z', e, r⟩ := chord64_near hn hε ha hb fa fb hg h
  refine ⟨z', e, r.nonneg, ?_⟩
  have r' := r.weaken (show n + 3 ≤ n + 4 by omega) le_rfl
  have := r'.simple hε
  rw [show (2 : ℝ) ^ (-535 : ℤ) = 2 * 2 ^ (-536 : ℤ) by
    rw [show (-535 : ℤ) = 1 + -536 by norm_num, zpow_add₀ two_ne_zero, zpow_one]]
  linarith

theorem chords64_near {n : Nat} (hn : 0 < n) (hε : 4 * ((n + 4 : ℕ) * ε₀) ≤ 1) : ∀ {rows : List (List ℝ)} {zs : List (Val ℝ)},
    (∀ r ∈ rows, r.length = n) → (∀ r ∈ rows, ∀ x ∈ r, rndS x = x) →
    (∀ i p q, rows[i]? = some p → rows[i + 1]? = some q → gap n p q ≤ 2 ^ 510) → ChordsTo64 (rows.map fins) zs →
    ∃ zs', zs = fins zs' ∧ List.Forall₂ (NearErr (n + 3) (√ n * 2 ^ (-536 : ℤ))) (List.zipWith (gap n) rows rows.tail) zs'
  | [], _, _, _, _, h => by
    cases h
    exact ⟨[], rfl, .nil⟩
  | [_], _, _, _, _, h => by
    cases h
    exact ⟨[], rfl, .nil⟩
  | p :: q :: rows, zs, hl, hf, hg, h => by
    unfold ChordsTo64 at h
    simp only [List.map_cons, List.tail_cons, List.zip_cons_cons] at h
    cases h with
    | @cons _ z _ zs h1 h2 =>
      obtain ⟨z', rfl, r⟩ := chord64_near hn hε (hl p (by simp)) (hl q (by simp)) (hf p (by simp)) (hf q (by simp)) (hg 0 p q rfl rfl) h1
      obtain ⟨zs', rfl, rs⟩ := chords64_near hn hε (rows := q :: rows) (zs := zs) (fun r hr => hl r (by simp_all)) (fun r hr => hf r (by simp_all))
        (fun i u v hu hv => hg (i + 1) u v (by simpa using hu) (by simpa using hv)) h2
      exact ⟨z' :: zs', rfl, .cons r rs⟩

/-- **C139 (arc length).** A curve of `s ≥ 2` points with `n` binary64 coordinates, neighbours not more than `2^510` apart: the arc length
computed in binary64 arithmetic, all terms added in any order, is finite and differs from the length of the polygonal line by at most
`2 (n + s + 2) 2^-53` times the length plus `s √n 2^-535`. -/
theorem C139_arclen {c : Curve ℝ} (hc : WF c) (hs : 2 ≤ c.size) (hε : 4 * ((c.ndim + c.size + 4 : ℕ) * ε₀) ≤ 1)
    (hf : ∀ r ∈ c.rows, ∀ x ∈ r, rndS x = x) (hg : ∀ i p q, c.rows[i]? = some p → c.rows[i + 1]? = some q → gap c.ndim p q ≤ 2 ^ 510)
    {l : Val ℝ} (h : ArclenTo64 (c.rows.map fins) l) :
    ∃ l', l = .fin l' ∧ 0 ≤ l' ∧
      |l' - pathLen c.ndim c.rows| ≤ 2 * (c.ndim + c.size + 2 : ℕ) * 2⁻¹ ^ 53 * pathLen c.ndim c.rows + c.size * √ c.ndim * 2 ^ (-535 : ℤ) := by
  obtain ⟨zs, h1, h2⟩ := h
  have hn : 0 < c.ndim := by have := hc.two_le; show 0 < c.ncols; omega
  have hsz : c.size = c.rows.length := rfl
  have hη : (0 : ℝ) < η₀ := by positivity
  have hk : ∀ {m : ℕ}, m ≤ c.ndim + c.size + 4 → 4 * (m * ε₀) ≤ 1 := by
    intro m hm
    have : (m : ℝ) ≤ (c.ndim + c.size + 4 : ℕ) := by exact_mod_cast hm
    have := mul_le_mul_of_nonneg_right this (show (0 : ℝ) ≤ ε₀ by positivity)
    linarith
  obtain ⟨zs', rfl, r⟩ := chords64_near hn (hk (by omega)) hc.rect hf hg h1
  have hlen' : (List.zipWith (gap c.ndim) c.rows c.rows.tail).length = c.size - 1 := by simp [hsz]
  have hlen : zs'.length = c.size - 1 := by rw [← r.length_eq, hlen']
  have z0 : ∀ z ∈ zs', 0 ≤ z := by
    intro z hz
    obtain ⟨i, hi, rfl⟩ := List.getElem_of_mem hz
    exact (List.Forall₂.get r (i := i) (by rw [r.length_eq]; exact hi) hi).nonneg
  have r1 := NearErr.sum r
  rw [← pathLen_eq_sum, hlen'] at r1
  -- the sum stays far below the largest number
  have hS : (c.size : ℝ) ≤ 2 ^ 51 := by
    have h := hk (m := c.size) (by omega)
    have : (c.size : ℝ) = 4 * (c.size * ε₀) * 2 ^ 51 := by ring
    rw [this]
    exact mul_le_of_le_one_left (by positivity) h
  have hN : (c.ndim : ℝ) ≤ 2 ^ 51 := by
    have h := hk (m := c.ndim) (by omega)
    have : (c.ndim : ℝ) = 4 * (c.ndim * ε₀) * 2 ^ 51 := by ring
    rw [this]
    exact mul_le_of_le_one_left (by positivity) h
  have hL : pathLen c.ndim c.rows ≤ 2 ^ 51 * 2 ^ 510 := by
    rw [pathLen_eq_sum]
    have : (List.zipWith (gap c.ndim) c.rows c.rows.tail).sum ≤ (c.size - 1 : ℕ) * (2 : ℝ) ^ 510 := by
      rw [← hlen', ← nsmul_eq_mul]
      refine List.sum_le_card_nsmul _ _ fun w hw => ?_
      obtain ⟨i, hi, rfl⟩ := List.getElem_of_mem hw
      rw [List.getElem_zipWith]
      rw [hlen'] at hi
      refine hg i _ _ (List.getElem?_eq_getElem (by omega)) ?_
      rw [List.getElem_tail]
      exact List.getElem?_eq_getElem (by omega)
    refine this.trans (mul_le_mul_of_nonneg_right ?_ (by positivity))
    refine le_trans ?_ hS
    exact_mod_cast Nat.sub_le _ _
  have hroot : (1 : ℝ) ≤ √ c.ndim ∧ √ (c.ndim : ℝ) ≤ 2 ^ 51 := by
    constructor
    · rw [show (1 : ℝ) = √ 1 by simp]
      exact Real.sqrt_le_sqrt (by exact_mod_cast hn)
    · rw [Real.sqrt_le_left (by positivity)]
      exact hN.trans (by norm_num)
  have hδ : ((c.size - 1 : ℕ) : ℝ) * (√ c.ndim * 2 ^ (-536 : ℤ)) ≤ 2 ^ 102 := by
    have h1 : ((c.size - 1 : ℕ) : ℝ) ≤ 2 ^ 51 := le_trans (by exact_mod_cast Nat.sub_le _ _) hS
    have h2 : (2 : ℝ) ^ (-536 : ℤ) ≤ 1 := by
      rw [show (1 : ℝ) = 2 ^ (0 : ℤ) by norm_num]
      exact two_zpow_le.2 (by norm_num)
    have h3 : √ (c.ndim : ℝ) * 2 ^ (-536 : ℤ) ≤ 2 ^ 51 * 1 := mul_le_mul hroot.2 h2 (by positivity) (by positivity)
    refine (mul_le_mul h1 h3 (by positivity) (by positivity)).trans ?_
    norm_num
  have hsum : zs'.sum ≤ 2 ^ 1022 := by
    have hb := r1.bound (hk (by omega))
    have e : (2 : ℝ) ^ 1022 = 2 ^ 461 * (2 ^ 51 * 2 ^ 510) := by rw [← pow_add, ← pow_add]
    have e2 : (2 : ℝ) ^ 102 ≤ 2 ^ 51 * 2 ^ 510 := by
      rw [← pow_add]
      exact pow_le_pow_right₀ (by norm_num) (by norm_num)
    have e3 : (4 : ℝ) ≤ 2 ^ 461 := by
      rw [show (4 : ℝ) = 2 ^ 2 by norm_num]
      exact pow_le_pow_right₀ (by norm_num) (by norm_num)
    have e4 : (0 : ℝ) ≤ 2 ^ 51 * 2 ^ 510 := by positivity
    rw [e]
    have e5 := mul_le_mul_of_nonneg_right e3 e4
    generalize (2 : ℝ) ^ 51 * 2 ^ 510 = z at hL e2 e4 e5
    refine hb.trans (le_trans ?_ e5)
    have := add_le_add hL (hδ.trans e2)
    linarith
  obtain ⟨l', rfl, r2⟩ := sums64 h2 zs' rfl z0 (by rw [hlen]; exact hk (by omega)) hsum
  rw [hlen] at r2
  refine ⟨l', rfl, r2.nonneg, ?_⟩
  have r3 := r1.trans r2 (hk (by omega))
  have r4 := r3.weaken (show c.ndim + 3 + (c.size - 1 - 1) ≤ c.ndim + c.size + 2 by omega)
    (show ((c.size - 1 : ℕ) : ℝ) * (√ c.ndim * 2 ^ (-536 : ℤ)) + 2 * (2 * (c.size - 1 - 1 : ℕ) * η₀) ≤ c.size * √ c.ndim * 2 ^ (-536 : ℤ) by
      have e1 : ((c.size - 1 : ℕ) : ℝ) = c.size - 1 := by rw [Nat.cast_sub (by omega)]; simp
      have e2 : ((c.size - 1 - 1 : ℕ) : ℝ) ≤ 2 ^ 51 := le_trans (by exact_mod_cast (by omega : c.size - 1 - 1 ≤ c.size)) hS
      have e3 : (4 * 2 ^ 51 : ℝ) * η₀ ≤ 2 ^ (-536 : ℤ) := by
        rw [show (4 * 2 ^ 51 : ℝ) = 2 ^ (53 : ℤ) by norm_num, ← zpow_add₀ two_ne_zero]
        exact two_zpow_le.2 (by norm_num)
      have p : (0 : ℝ) < 2 ^ (-536 : ℤ) := by positivity
      have e4 := mul_le_mul_of_nonneg_right e2 hη.le
      have e5 := mul_le_mul_of_nonneg_right hroot.1 p.le
      rw [e1]
      generalize (2 : ℝ) ^ (-536 : ℤ) = w at p e3 e5
      generalize η₀ = u at e3 e4 hη
      nlinarith)
  have := r4.simple (hk (by omega))
  rw [show (2 : ℝ) ^ (-535 : ℤ) = 2 * 2 ^ (-536 : ℤ) by
    rw [show (-535 : ℤ) = 1 + -536 by norm_num, zpow_add₀ two_ne_zero, zpow_one]]
  linarith

/-! ## Where it fails -/

theorem sums64_inf {vs : List (Val ℝ)} {v : Val ℝ} (h : SumsTo64 vs v) : (∀ x ∈ vs, x = .pinf ∨ x = .fin 0) → v = if .pinf ∈ vs then .pinf else .fin 0 := by
  have f0 : fl64 (.fin 0) = .fin 0 := by
    show rnd64 0 = _
    rw [rnd64_fin (by rw [abs_zero]; positivity), rndS_zero]
  induction h with
  | nil => intro _; simp
  | one x => intro hx; rcases hx x (by simp) with rfl | rfl <;> simp
  | @add xs ys zs s t _ _ nx ny hz ih1 ih2 =>
    intro hv
    have h1 := ih1 fun x hx => hv x (hz.mem_iff.2 (List.mem_append_left _ hx))
    have h2 := ih2 fun x hx => hv x (hz.mem_iff.2 (List.mem_append_right _ hx))
    have hm : Val.pinf ∈ zs ↔ Val.pinf ∈ xs ∨ Val.pinf ∈ ys := by rw [hz.mem_iff, List.mem_append]
    rw [h1, h2]
    by_cases a : Val.pinf ∈ xs <;> by_cases b : Val.pinf ∈ ys <;> simp [a, b, hm, Val.add, fl64] <;> exact f0

theorem two_pow_fixed {k : ℤ} (h : -1022 ≤ k) : rndS (2 ^ k) = 2 ^ k := rndS_two_pow h

/-- **C139 fails above the range.** The chord between two points `2^512` apart is infinite. -/
theorem C139_overflow_fails : (∀ x ∈ [(2 : ℝ) ^ 512, 0], rndS x = x) ∧ gap 2 [0, 0] [2 ^ 512, 0] = 2 ^ 512 ∧
    ∀ z, ChordTo64 (fins [0, 0]) (fins [2 ^ 512, 0]) z ↔ z = .pinf := by
  have e512 : rndS (2 ^ 512) = 2 ^ 512 := by exact_mod_cast rndS_two_pow (k := 512) (by norm_num)
  have e1024 : rndS (2 ^ 1024) = 2 ^ 1024 := by exact_mod_cast rndS_two_pow (k := 1024) (by norm_num)
  have t1 : fl64 (fl64 ((Val.fin ((2 : ℝ) ^ 512)).sub (.fin 0))).sq = .pinf := by
    have e : (Val.fin ((2 : ℝ) ^ 512)).sub (.fin 0) = .fin (2 ^ 512) := by
      unfold Val.sub Val.neg
      rw [fin_add, neg_zero, add_zero]
    have e' : fl64 (.fin ((2 : ℝ) ^ 512)) = .fin (2 ^ 512) := by
      show rnd64 _ = _
      rw [rnd64_fin (by rw [abs_of_pos (by positivity)]; exact pow_le_pow_right₀ (by norm_num) (by norm_num)), e512]
    rw [e, e']
    show rnd64 ((2 ^ 512) ^ 2) = _
    rw [← pow_mul]
    unfold rnd64
    rw [show 512 * 2 = 1024 from rfl, e1024, if_pos (le_abs_self _)]
    unfold Val.infOfSign
    rw [if_pos (by positivity)]
  have f0 : fl64 (.fin 0) = .fin 0 := by
    show rnd64 0 = _
    rw [rnd64_fin (by rw [abs_zero]; positivity), rndS_zero]
  have t2 : fl64 (fl64 ((Val.fin (0 : ℝ)).sub (.fin 0))).sq = .fin 0 := by
    have e : (Val.fin (0 : ℝ)).sub (.fin 0) = .fin 0 := by
      unfold Val.sub Val.neg
      rw [fin_add, neg_zero, add_zero]
    rw [e, f0]
    show fl64 (.fin (0 ^ 2)) = _
    rw [show (0 : ℝ) ^ 2 = 0 by norm_num, f0]
  have hT : sqTerms64 (fins [0, 0]) (fins [2 ^ 512, 0]) = [.pinf, .fin 0] := by
    unfold sqTerms64 fins
    simp only [List.map_cons, List.map_nil, List.zipWith_cons_cons, List.zipWith_nil_right, t1, t2]
  refine ⟨?_, ?_, ?_⟩
  · intro x hx
    simp only [List.mem_cons, List.not_mem_nil, or_false] at hx
    rcases hx with rfl | rfl
    · exact e512
    · exact rndS_zero
  · rw [gap_eq_sqrt, Fin.sum_univ_two]
    simp only [List.getD_cons_zero, Fin.val_zero, Fin.val_one, List.getD_cons_succ, sub_zero]
    rw [show (0 : ℝ) ^ 2 = 0 by norm_num, add_zero, Real.sqrt_sq (by positivity)]
  · intro z
    constructor
    · rintro ⟨s, h, rfl⟩
      rw [hT] at h
      rw [sums64_inf h (by simp)]
      simp [Val.sqrt, fl64]
    · rintro rfl
      refine ⟨.pinf, ?_, rfl⟩
      rw [hT]
      exact SumsTo64.add (.one .pinf) (.one (.fin 0)) (by simp) (by simp) (List.Perm.refl _)

/-- **C139 fails below the range.** The chord between two points `2^-600` apart is 0: different points are not told apart, and the relative
error is 1. -/
theorem C139_underflow_fails : (∀ x ∈ [(2 : ℝ) ^ (-600 : ℤ), 0], rndS x = x) ∧ gap 2 [0, 0] [2 ^ (-600 : ℤ), 0] = 2 ^ (-600 : ℤ) ∧
    ∀ z, ChordTo64 (fins [0, 0]) (fins [2 ^ (-600 : ℤ), 0]) z ↔ z = .fin 0 := by
  have e600 : rndS (2 ^ (-600 : ℤ)) = 2 ^ (-600 : ℤ) := rndS_two_pow (by norm_num)
  have hone : ∀ k : ℤ, k ≤ 0 → |(2 : ℝ) ^ k| ≤ 2 ^ 1023 := by
    intro k hk
    rw [abs_of_pos (by positivity)]
    have : (2 : ℝ) ^ k ≤ 2 ^ (1023 : ℤ) := two_zpow_le.2 (by omega)
    exact_mod_cast this
  have e1200 : rndS (2 ^ (-1200 : ℤ)) = 0 := by
    rw [rndS_small (by rw [abs_of_pos (by positivity)]; exact zpow_lt_zpow_right₀ (by norm_num) (by norm_num)), ← zpow_sub₀ two_ne_zero,
      rne_near (m := 0)]
    · simp
    · rw [Int.cast_zero, sub_zero, abs_of_pos (by positivity), show (1 / 2 : ℝ) = 2 ^ (-1 : ℤ) by norm_num]
      exact zpow_lt_zpow_right₀ (by norm_num) (by norm_num)
  have t1 : fl64 (fl64 ((Val.fin ((2 : ℝ) ^ (-600 : ℤ))).sub (.fin 0))).sq = .fin 0 := by
    have e : (Val.fin ((2 : ℝ) ^ (-600 : ℤ))).sub (.fin 0) = .fin (2 ^ (-600 : ℤ)) := by
      unfold Val.sub Val.neg
      rw [fin_add, neg_zero, add_zero]
    have e' : fl64 (.fin ((2 : ℝ) ^ (-600 : ℤ))) = .fin (2 ^ (-600 : ℤ)) := by
      show rnd64 _ = _
      rw [rnd64_fin (hone _ (by norm_num)), e600]
    rw [e, e']
    show rnd64 ((2 ^ (-600 : ℤ)) ^ 2) = _
    rw [← zpow_natCast, ← zpow_mul, show (-600 : ℤ) * ((2 : ℕ) : ℤ) = -1200 by norm_num, rnd64_fin (hone _ (by norm_num)), e1200]
  have f0 : fl64 (.fin 0) = .fin 0 := by
    show rnd64 0 = _
    rw [rnd64_fin (by rw [abs_zero]; positivity), rndS_zero]
  have t2 : fl64 (fl64 ((Val.fin (0 : ℝ)).sub (.fin 0))).sq = .fin 0 := by
    have e : (Val.fin (0 : ℝ)).sub (.fin 0) = .fin 0 := by
      unfold Val.sub Val.neg
      rw [fin_add, neg_zero, add_zero]
    rw [e, f0]
    show fl64 (.fin (0 ^ 2)) = _
    rw [show (0 : ℝ) ^ 2 = 0 by norm_num, f0]
  have hT : sqTerms64 (fins [0, 0]) (fins [2 ^ (-600 : ℤ), 0]) = [.fin 0, .fin 0] := by
    unfold sqTerms64 fins
    simp only [List.map_cons, List.map_nil, List.zipWith_cons_cons, List.zipWith_nil_right, t1, t2]
  have hsq : (Val.fin (0 : ℝ)).sqrt = .fin 0 := by simp [Val.sqrt]
  refine ⟨?_, ?_, ?_⟩
  · intro x hx
    simp only [List.mem_cons, List.not_mem_nil, or_false] at hx
    rcases hx with rfl | rfl
    · exact e600
    · exact rndS_zero
  · rw [gap_eq_sqrt, Fin.sum_univ_two]
    simp only [List.getD_cons_zero, Fin.val_zero, Fin.val_one, List.getD_cons_succ, sub_zero]
    rw [show (0 : ℝ) ^ 2 = 0 by norm_num, add_zero, Real.sqrt_sq (by positivity)]
  · intro z
    constructor
    · rintro ⟨s, h, rfl⟩
      rw [hT] at h
      rw [sums64_inf h (by simp)]
      simp only [List.mem_cons, reduceCtorEq, List.not_mem_nil, or_self, if_false, hsq, f0]
    · rintro rfl
      refine ⟨.fin 0, ?_, by rw [hsq, f0]⟩
      rw [hT]
      have := SumsTo64.add (.one (.fin 0)) (.one (.fin 0)) (by simp) (by simp) (List.Perm.refl _)
      rwa [fin_add, add_zero, f0] at this

/-! ## Instances -/

theorem sums64_exists (vs : List (Val ℝ)) : ∃ v, SumsTo64 vs v := by
  induction vs with
  | nil => exact ⟨_, .nil⟩
  | cons x l ih =>
    rcases l with _ | ⟨y, l⟩
    · exact ⟨_, .one x⟩
    · obtain ⟨t, ht⟩ := ih
      exact ⟨_, .add (.one x) ht (by simp) (by simp) (List.Perm.refl _)⟩

/-- The computed distance of (0, 0) and (3, 4). -/
example : ∃ z, ChordTo64 (fins [0, 0]) (fins [3, 4]) z ∧ ∃ z', z = .fin z' ∧ |z' - 5| ≤ 60 * 2⁻¹ ^ 53 + √ 2 * 2 ^ (-535 : ℤ) := by
  obtain ⟨s, hs⟩ := sums64_exists (sqTerms64 (fins [0, 0]) (fins [3, 4]))
  have fixed : ∀ m : ℤ, 1 ≤ |m| → |m| ≤ 2 ^ 53 → rndS m = m := by
    intro m h1 h2
    rw [rndS_normal, rnd_int m h2]
    have : ((1 : ℤ) : ℝ) ≤ ((|m| : ℤ) : ℝ) := by exact_mod_cast h1
    push_cast at this
    refine le_trans ?_ this
    rw [show (1 : ℝ) = 2 ^ (0 : ℤ) by norm_num]
    exact two_zpow_le.2 (by norm_num)
  have e5 : gap 2 [0, 0] [3, 4] = 5 := by
    rw [gap_eq_sqrt, Fin.sum_univ_two]
    simp
    rw [show (3 : ℝ) ^ 2 + 4 ^ 2 = 5 ^ 2 by norm_num, Real.sqrt_sq (by norm_num)]
  refine ⟨_, ⟨s, hs, rfl⟩, ?_⟩
  obtain ⟨z', e, _, h⟩ := C139_chord (n := 2) (by norm_num) (by norm_num) (a := [0, 0]) (b := [3, 4]) rfl rfl
    (by intro x hx; simp at hx; subst hx; exact rndS_zero)
    (by
      intro x hx
      simp only [List.mem_cons, List.not_mem_nil, or_false] at hx
      rcases hx with rfl | rfl
      · exact_mod_cast fixed 3 (by norm_num) (by norm_num)
      · exact_mod_cast fixed 4 (by norm_num) (by norm_num))
    (by
      rw [e5]
      calc (5 : ℝ) ≤ 2 ^ 3 := by norm_num
        _ ≤ 2 ^ 510 := pow_le_pow_right₀ (by norm_num) (by norm_num)) ⟨s, hs, rfl⟩
  refine ⟨z', e, ?_⟩
  rw [e5] at h
  norm_num at h ⊢
  exact h

/-- A curve with points of integer coordinates meets the hypotheses on arc lengths. -/
example : ∃ c : Curve ℝ, WF c ∧ 2 ≤ c.size ∧ 4 * ((c.ndim + c.size + 4 : ℕ) * ε₀) ≤ 1 ∧ (∀ r ∈ c.rows, ∀ x ∈ r, rndS x = x) ∧
    (∀ i p q, c.rows[i]? = some p → c.rows[i + 1]? = some q → gap c.ndim p q ≤ 2 ^ 510) ∧ ∃ l, ArclenTo64 (c.rows.map fins) l := by
  have e1 : rndS 1 = 1 := by simpa using rndS_two_pow (k := 0) (by norm_num)
  refine ⟨⟨[[0, 0], [1, 0], [1, 1]], 2, none, .float⟩, ⟨by simp, by simp, by simp, by intro r _ x _; rfl⟩, by simp [Curve.size],
    by norm_num [Curve.size, Curve.ndim], ?_, ?_, ?_⟩
  · intro r hr x hx
    have : x = 0 ∨ x = 1 := by simp at hr; rcases hr with rfl | rfl | rfl <;> simp at hx <;> tauto
    rcases this with rfl | rfl
    · exact rndS_zero
    · exact e1
  · intro i p q hp hq
    have hone : (1 : ℝ) ≤ 2 ^ 510 := one_le_pow₀ (by norm_num)
    match i with
    | 0 => simp at hp hq; subst hp hq; rw [gap_eq_sqrt]; show √ (∑ i : Fin 2, _) ≤ _; simpa [Fin.sum_univ_two] using hone
    | 1 => simp at hp hq; subst hp hq; rw [gap_eq_sqrt]; show √ (∑ i : Fin 2, _) ≤ _; simpa [Fin.sum_univ_two] using hone
    | (k + 2) => simp at hq
  · obtain ⟨s, hs⟩ := sums64_exists (sqTerms64 (fins [0, 0]) (fins [1, 0]))
    obtain ⟨t, ht⟩ := sums64_exists (sqTerms64 (fins [1, 0]) (fins [1, 1]))
    obtain ⟨l, hl⟩ := sums64_exists [fl64 s.sqrt, fl64 t.sqrt]
    exact ⟨l, _, .cons ⟨s, hs, rfl⟩ (.cons ⟨t, ht, rfl⟩ .nil), hl⟩

end Verif.Props
