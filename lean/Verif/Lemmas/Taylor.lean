import Mathlib.Analysis.Calculus.MeanValue
import Mathlib.Analysis.Calculus.Deriv.Pow
import Mathlib.Analysis.Calculus.Deriv.Comp
import Mathlib.Analysis.Calculus.Deriv.Add
import Mathlib.Analysis.Calculus.Deriv.Mul
import Mathlib.Tactic.Module

/-! Taylor's formula with explicit bounds, for curves with a Lipschitz continuous highest derivative. -/
namespace Verif.Spec

open Set

variable {E : Type*} [NormedAddCommGroup E] [NormedSpace ℝ E]

/-- `d` is the derivative of `g` on the interval from `a` to `b`. -/
def DerivOn (a b : ℝ) (g d : ℝ → E) : Prop := ∀ x ∈ Icc a b, HasDerivWithinAt g (d x) (Icc a b) x

/-- `g` changes by at most `M` times the distance. -/
def LipOn (a b M : ℝ) (g : ℝ → E) : Prop := ∀ x ∈ Icc a b, ∀ y ∈ Icc a b, ‖g y - g x‖ ≤ M * |y - x|

end Verif.Spec

namespace Verif.Props

open Set Verif.Spec

variable {E : Type*} [NormedAddCommGroup E] [NormedSpace ℝ E]

/-- A function that starts at 0 and whose derivative grows at most like a power. -/
theorem norm_le_pow {F D : ℝ → E} {x b C : ℝ} (n : ℕ) (hF : DerivOn x b F D) (h0 : F x = 0)
    (hD : ∀ y ∈ Icc x b, ‖D y‖ ≤ C * (y - x) ^ n) {y : ℝ} (hy : y ∈ Icc x b) : ‖F y‖ ≤ C / (n + 1) * (y - x) ^ (n + 1) := by
  refine image_norm_le_of_norm_deriv_right_le_deriv_boundary (f := F) (f' := D) (a := x) (b := b)
    (B := fun y => C / (n + 1) * (y - x) ^ (n + 1)) (B' := fun y => C * (y - x) ^ n)
    (fun z hz => (hF z hz).continuousWithinAt) ?_ (by simp [h0]) ?_ (fun z hz => hD z (Ico_subset_Icc_self hz)) hy
  · intro z hz
    exact (hF z (Ico_subset_Icc_self hz)).mono_of_mem_nhdsWithin (Icc_mem_nhdsGE_of_mem hz)
  · intro z
    have := (((hasDerivAt_id z).sub_const x).pow (n + 1)).const_mul (C / (n + 1))
    refine this.congr_deriv ?_
    have hn : (n : ℝ) + 1 ≠ 0 := by positivity
    simp
    field_simp

theorem _root_.Verif.Spec.DerivOn.mono {a b a' b' : ℝ} {g d : ℝ → E} (h : DerivOn a b g d) (ha : a ≤ a') (hb : b' ≤ b) : DerivOn a' b' g d :=
  fun x hx => (h x (Icc_subset_Icc ha hb hx)).mono (Icc_subset_Icc ha hb)

/-- Backwards. -/
theorem _root_.Verif.Spec.DerivOn.reverse {a b : ℝ} {g d : ℝ → E} (h : DerivOn a b g d) : DerivOn (-b) (-a) (fun s => g (-s)) (fun s => -d (-s)) := by
  intro x hx
  have hx' : -x ∈ Icc a b := ⟨by linarith [hx.2], by linarith [hx.1]⟩
  have := (h (-x) hx').scomp x ((hasDerivWithinAt_id x (Icc (-b) (-a))).neg) (by
    intro s hs
    exact ⟨by show a ≤ -s; linarith [hs.2], by show -s ≤ b; linarith [hs.1]⟩)
  simpa [Function.comp_def] using this

theorem _root_.Verif.Spec.DerivOn.neg {a b : ℝ} {g d : ℝ → E} (h : DerivOn a b g d) : DerivOn a b (fun s => -g s) (fun s => -d s) :=
  fun x hx => (h x hx).neg

theorem _root_.Verif.Spec.LipOn.reverse {a b M : ℝ} {g : ℝ → E} (h : LipOn a b M g) : LipOn (-b) (-a) M (fun s => g (-s)) := by
  intro x hx y hy
  have := h (-x) ⟨by linarith [hx.2], by linarith [hx.1]⟩ (-y) ⟨by linarith [hy.2], by linarith [hy.1]⟩
  rwa [show -y - -x = -(y - x) by ring, abs_neg] at this

theorem _root_.Verif.Spec.LipOn.neg {a b M : ℝ} {g : ℝ → E} (h : LipOn a b M g) : LipOn a b M (fun s => -g s) := by
  intro x hx y hy
  have := h x hx y hy
  rwa [show -g y - -g x = -(g y - g x) by abel, norm_neg]

theorem taylor1_right {a b M : ℝ} {g d : ℝ → E} (h1 : DerivOn a b g d) (hl : LipOn a b M d) {x y : ℝ} (hx : x ∈ Icc a b) (hy : y ∈ Icc x b) :
    ‖g y - g x - (y - x) • d x‖ ≤ M / 2 * (y - x) ^ 2 := by
  have := norm_le_pow (F := fun y => g y - g x - (y - x) • d x) (D := fun y => d y - d x) (C := M) (b := b) 1 (x := x) ?_ (by simp) ?_ hy
  · norm_num at this ⊢
    exact this
  · intro z hz
    have h := ((h1.mono hx.1 le_rfl z hz).sub_const (g x)).sub (((hasDerivWithinAt_id z (Icc x b)).sub_const x).smul_const (d x))
    exact h.congr_deriv (by simp)
  · intro z hz
    have := hl x hx z ⟨hx.1.trans hz.1, hz.2⟩
    rwa [pow_one, ← abs_of_nonneg (show 0 ≤ z - x by linarith [hz.1])]

/-- Taylor's formula of first order. -/
theorem taylor1 {a b M : ℝ} {g d : ℝ → E} (h1 : DerivOn a b g d) (hl : LipOn a b M d) {x y : ℝ} (hx : x ∈ Icc a b) (hy : y ∈ Icc a b) :
    ‖g y - g x - (y - x) • d x‖ ≤ M / 2 * |y - x| ^ 2 := by
  rcases le_total x y with h | h
  · rw [abs_of_nonneg (by linarith)]
    exact taylor1_right h1 hl hx ⟨h, hy.2⟩
  · have := taylor1_right h1.reverse hl.reverse.neg (x := -x) (y := -y) ⟨by linarith [hx.2], by linarith [hx.1]⟩
      ⟨by linarith, by linarith [hy.1]⟩
    simp only [neg_neg] at this
    rw [abs_of_nonpos (by linarith)]
    refine le_of_eq_of_le (congrArg _ ?_) (this.trans_eq (by ring))
    module

theorem taylor2_right {a b M : ℝ} {g d e : ℝ → E} (h1 : DerivOn a b g d) (h2 : DerivOn a b d e) (hl : LipOn a b M e) {x y : ℝ} (hx : x ∈ Icc a b)
    (hy : y ∈ Icc x b) : ‖g y - g x - (y - x) • d x - ((y - x) ^ 2 / 2) • e x‖ ≤ M / 6 * (y - x) ^ 3 := by
  have := norm_le_pow (F := fun y => g y - g x - (y - x) • d x - ((y - x) ^ 2 / 2) • e x) (D := fun y => d y - d x - (y - x) • e x) (C := M / 2)
    (b := b) 2 (x := x) ?_ (by simp) ?_ hy
  · norm_num at this ⊢
    exact this.trans_eq (by ring)
  · intro z hz
    have h := (((h1.mono hx.1 le_rfl z hz).sub_const (g x)).sub (((hasDerivWithinAt_id z (Icc x b)).sub_const x).smul_const (d x))).sub
      (((((hasDerivWithinAt_id z (Icc x b)).sub_const x).pow 2).div_const 2).smul_const (e x))
    exact h.congr_deriv (by simp)
  · intro z hz
    exact taylor1_right h2 hl hx hz

/-- Taylor's formula of second order. -/
theorem taylor2 {a b M : ℝ} {g d e : ℝ → E} (h1 : DerivOn a b g d) (h2 : DerivOn a b d e) (hl : LipOn a b M e) {x y : ℝ} (hx : x ∈ Icc a b)
    (hy : y ∈ Icc a b) : ‖g y - g x - (y - x) • d x - ((y - x) ^ 2 / 2) • e x‖ ≤ M / 6 * |y - x| ^ 3 := by
  rcases le_total x y with h | h
  · rw [abs_of_nonneg (by linarith)]
    exact taylor2_right h1 h2 hl hx ⟨h, hy.2⟩
  · have := taylor2_right h1.reverse h2.reverse.neg hl.reverse.neg.neg (x := -x) (y := -y) ⟨by linarith [hx.2], by linarith [hx.1]⟩
      ⟨by linarith, by linarith [hy.1]⟩
    simp only [neg_neg] at this
    rw [abs_of_nonpos (by linarith)]
    refine le_of_eq_of_le (congrArg _ ?_) (this.trans_eq (by ring))
    module

theorem taylor3_right {a b M : ℝ} {g d e f : ℝ → E} (h1 : DerivOn a b g d) (h2 : DerivOn a b d e) (h3 : DerivOn a b e f) (hl : LipOn a b M f)
    {x y : ℝ} (hx : x ∈ Icc a b) (hy : y ∈ Icc x b) :
    ‖g y - g x - (y - x) • d x - ((y - x) ^ 2 / 2) • e x - ((y - x) ^ 3 / 6) • f x‖ ≤ M / 24 * (y - x) ^ 4 := by
  have := norm_le_pow (F := fun y => g y - g x - (y - x) • d x - ((y - x) ^ 2 / 2) • e x - ((y - x) ^ 3 / 6) • f x)
    (D := fun y => d y - d x - (y - x) • e x - ((y - x) ^ 2 / 2) • f x) (C := M / 6) (b := b) 3 (x := x) ?_ (by simp) ?_ hy
  · norm_num at this ⊢
    exact this.trans_eq (by ring)
  · intro z hz
    have h := ((((h1.mono hx.1 le_rfl z hz).sub_const (g x)).sub (((hasDerivWithinAt_id z (Icc x b)).sub_const x).smul_const (d x))).sub
      (((((hasDerivWithinAt_id z (Icc x b)).sub_const x).pow 2).div_const 2).smul_const (e x))).sub
      (((((hasDerivWithinAt_id z (Icc x b)).sub_const x).pow 3).div_const 6).smul_const (f x))
    refine h.congr_deriv ?_
    simp only [id, one_smul, Nat.cast_ofNat, Nat.add_one_sub_one, pow_one, mul_one]
    module
  · intro z hz
    exact taylor2_right h2 h3 hl hx hz

/-- Taylor's formula of third order. -/
theorem taylor3 {a b M : ℝ} {g d e f : ℝ → E} (h1 : DerivOn a b g d) (h2 : DerivOn a b d e) (h3 : DerivOn a b e f) (hl : LipOn a b M f)
    {x y : ℝ} (hx : x ∈ Icc a b) (hy : y ∈ Icc a b) :
    ‖g y - g x - (y - x) • d x - ((y - x) ^ 2 / 2) • e x - ((y - x) ^ 3 / 6) • f x‖ ≤ M / 24 * |y - x| ^ 4 := by
  rcases le_total x y with h | h
  · rw [abs_of_nonneg (by linarith)]
    exact taylor3_right h1 h2 h3 hl hx ⟨h, hy.2⟩
  · have := taylor3_right h1.reverse h2.reverse.neg h3.reverse.neg.neg hl.reverse.neg.neg.neg (x := -x) (y := -y)
      ⟨by linarith [hx.2], by linarith [hx.1]⟩ ⟨by linarith, by linarith [hy.1]⟩
    simp only [neg_neg] at this
    rw [abs_of_nonpos (by linarith)]
    refine le_of_eq_of_le (congrArg _ ?_) (this.trans_eq (by ring))
    module

end Verif.Props
