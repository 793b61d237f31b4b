import Verif.Model.NonFinite
import Mathlib.Tactic.Linarith
import Mathlib.Tactic.Ring

/-!
Arithmetic with NaN and infinities: results are finite numbers only if the arguments are.
-/
namespace Verif.Lemmas

open Verif Verif.Np Verif.Model

theorem isFin_iff {v : Val ℝ} : v.isFin = true ↔ ∃ x, v = .fin x := by cases v <;> simp [Val.isFin]

theorem isFin_fin (x : ℝ) : (Val.fin x).isFin = true := rfl

theorem add_fin (a b : Val ℝ) : (a.add b).isFin = true ↔ a.isFin = true ∧ b.isFin = true := by
  cases a <;> cases b <;> simp [Val.add, Val.isFin]

theorem neg_fin (a : Val ℝ) : a.neg.isFin = true ↔ a.isFin = true := by cases a <;> simp [Val.neg, Val.isFin]

theorem sub_fin (a b : Val ℝ) : (a.sub b).isFin = true ↔ a.isFin = true ∧ b.isFin = true := by
  rw [Val.sub, add_fin, neg_fin]

theorem infOfSign_fin (x : ℝ) : (Val.infOfSign x).isFin = false := by
  unfold Val.infOfSign; split_ifs <;> rfl

theorem mul_fin (a b : Val ℝ) : (a.mul b).isFin = true ↔ a.isFin = true ∧ b.isFin = true := by
  cases a <;> cases b <;> simp [Val.mul, Val.isFin, infOfSign_fin] <;> simpa [Val.isFin] using infOfSign_fin _

theorem sq_fin (a : Val ℝ) : a.sq.isFin = true ↔ a.isFin = true := by cases a <;> simp [Val.sq, Val.isFin]

theorem sqrt_fin {a : Val ℝ} (h : a.sqrt.isFin = true) : a.isFin = true := by
  cases a <;> simp [Val.sqrt, Val.isFin] at h ⊢

theorem div_fin {a b : Val ℝ} (h : (a.div b).isFin = true) : a.isFin = true ∧ b ≠ .nan ∧ b ≠ .fin 0 := by
  cases a <;> cases b <;> simp [Val.div, Val.isFin] at h ⊢
  · split_ifs at h with h1
    · rw [← Val.isFin.eq_def, infOfSign_fin] at h; cases h
    · exact h1
  · split_ifs at h
  · split_ifs at h

theorem sumV_acc (xs : List (Val ℝ)) (a : Val ℝ) : (xs.foldl Val.add a).isFin = true ↔ a.isFin = true ∧ ∀ x ∈ xs, x.isFin = true := by
  induction xs generalizing a with
  | nil => simp
  | cons x xs ih => rw [List.foldl_cons, ih, add_fin]; simp [and_assoc]

theorem sumV_fin (xs : List (Val ℝ)) : (sumV xs).isFin = true ↔ ∀ x ∈ xs, x.isFin = true := by
  rw [sumV, sumV_acc]; simp [isFin_fin]

theorem sumV_range (k : Nat) (f : Nat → Val ℝ) : (sumV ((List.range k).map f)).isFin = true ↔ ∀ j, j < k → (f j).isFin = true := by
  rw [sumV_fin]; simp

theorem sumV_same {k : Nat} {f : Nat → Val ℝ} {g : Nat → ℝ} (h : ∀ j, j < k → f j = .fin (g j)) : sumV ((List.range k).map f) = .fin (∑ j ∈ Finset.range k, g j) := by
  induction k with
  | zero => rfl
  | succ k ih =>
    rw [List.range_succ, List.map_append, sumV, List.foldl_append, ← sumV, ih fun j hj => h j (by omega), Finset.sum_range_succ]
    simp [h k (by omega), Val.add]

/-- The sum of squares of numbers, NaN and infinities is not minus infinity. -/
theorem sumSq_ninf (xs : List (Val ℝ)) (a : Val ℝ) (ha : a ≠ .ninf) (h : ∀ x ∈ xs, x ≠ .ninf) : xs.foldl Val.add a ≠ .ninf := by
  induction xs generalizing a with
  | nil => exact ha
  | cons x xs ih =>
    rw [List.foldl_cons]
    refine ih _ ?_ fun y hy => h y (List.mem_cons_of_mem _ hy)
    have := h x (by simp)
    cases a <;> cases x <;> simp_all [Val.add]

/-! ### Rows -/

/-- Row `i` of the array has finite entries only. -/
def FinAt (a : VMat) (i : Nat) : Prop := ∀ j, j < a.k → (a.v i j).isFin = true

/-- Row `i` of the array is row `i` of an array of numbers. -/
def SameAt (a : VMat) (b : NMat) (i : Nat) : Prop := ∀ j, j < a.k → a.v i j = .fin (b.v i j)

/-- Same shape. -/
def Shaped (a : VMat) (b : NMat) : Prop := a.m = b.m ∧ a.k = b.k

theorem finAt_of_same {a : VMat} {b : NMat} {i : Nat} (h : SameAt a b i) : FinAt a i := fun j hj => by rw [h j hj]; rfl

/-- The rows which `np.gradient` uses for row `i` of an array of `m` rows. -/
def Uses (m i l : Nat) : Prop :=
  if m ≤ 1 then False
  else if m = 2 then l < 2
  else if i = 0 then l ≤ 2
  else if i + 1 = m then m ≤ l + 3 ∧ l < m
  else l + 1 = i ∨ l = i + 1

theorem gradientV_m (a : VMat) : (gradientV a).m = a.m := by unfold gradientV; split_ifs <;> rfl
theorem gradientV_k {a : VMat} (h : 2 ≤ a.m) : (gradientV a).k = a.k := by unfold gradientV; split_ifs <;> first | rfl | omega
theorem gradient_m' (a : NMat) : (gradient a).m = a.m := by unfold gradient; split_ifs <;> rfl
theorem gradient_k' {a : NMat} (h : 2 ≤ a.m) : (gradient a).k = a.k := by unfold gradient; split_ifs <;> first | rfl | omega

theorem Shaped.gradient {a : VMat} {b : NMat} (h : Shaped a b) : Shaped (gradientV a) (Model.gradient b) := by
  refine ⟨by rw [gradientV_m, gradient_m', h.1], ?_⟩
  unfold gradientV Model.gradient
  rw [h.1]
  split_ifs <;> first | exact h.2 | rfl

theorem gradientV_same {a : VMat} {b : NMat} (hs : Shaped a b) (h2 : 2 ≤ a.m) {i : Nat} (hi : i < a.m) (h : ∀ l, Uses a.m i l → SameAt a b l) : SameAt (gradientV a) (Model.gradient b) i := by
  intro j hj
  rw [gradientV_k h2] at hj
  have g : ∀ l, Uses a.m i l → a.v l j = .fin (b.v l j) := fun l hl => h l hl j hj
  unfold gradientV Model.gradient
  rw [← hs.1]
  unfold Uses at g
  by_cases h3 : 3 ≤ a.m
  · rw [if_pos h3, if_pos h3]
    simp only [npGradientV, npGradient]
    simp only [if_neg (show ¬ a.m ≤ 1 by omega), if_neg (show ¬ a.m = 2 by omega)] at g
    by_cases i0 : i = 0
    · rw [if_pos i0, if_pos i0, if_neg (by omega), if_neg (by omega)]
      simp only [if_pos i0] at g
      rw [g 0 (by omega), g 1 (by omega), g 2 (by omega)]
      rfl
    · simp only [if_neg i0] at g
      rw [if_neg i0, if_neg i0]
      by_cases im : i = a.m - 1
      · simp only [if_pos (show i + 1 = a.m by omega)] at g
        rw [if_pos im, if_pos im, if_neg (by omega), if_neg (by omega)]
        rw [g (a.m - 1) (by omega), g (a.m - 2) (by omega), g (a.m - 3) (by omega)]
        rfl
      · simp only [if_neg (show ¬ i + 1 = a.m by omega)] at g
        rw [if_neg im, if_neg im, g (i + 1) (by omega), g (i - 1) (by omega)]
        simp [Val.sub, Val.neg, Val.add, Val.div, sub_eq_add_neg]
  · have hm : a.m = 2 := by omega
    rw [if_neg h3, if_neg h3, if_pos h2, if_pos h2]
    simp only [if_neg (show ¬ a.m ≤ 1 by omega), if_pos hm] at g
    simp only [npGradientV, npGradient, if_true]
    by_cases i0 : i = 0
    · rw [if_pos i0, if_pos i0, g 0 (by omega), g 1 (by omega)]
      simp [Val.sub, Val.neg, Val.add, sub_eq_add_neg]
    · rw [if_neg i0, if_neg i0, if_pos (by omega), if_pos (by omega), g (a.m - 1) (by omega), g (a.m - 2) (by omega)]
      simp [Val.sub, Val.neg, Val.add, sub_eq_add_neg]

theorem gradientV_fin {a : VMat} (h2 : 2 ≤ a.m) {i : Nat} (hi : i < a.m) (h : FinAt (gradientV a) i) {l : Nat} (hl : Uses a.m i l) : FinAt a l := by
  intro j hj
  have h := h j (by rw [gradientV_k h2]; exact hj)
  unfold gradientV at h
  unfold Uses at hl
  rw [if_neg (by omega)] at hl
  by_cases h3 : 3 ≤ a.m
  · rw [if_pos h3] at h
    simp only [npGradientV] at h
    rw [if_neg (by omega)] at hl
    by_cases i0 : i = 0
    · rw [if_pos i0, if_neg (by omega)] at h
      rw [if_pos i0] at hl
      rw [add_fin, add_fin, mul_fin, mul_fin, mul_fin] at h
      obtain rfl | rfl | rfl : l = 0 ∨ l = 1 ∨ l = 2 := by omega
      exacts [h.1.1.2, h.1.2.2, h.2.2]
    · rw [if_neg i0] at h hl
      by_cases im : i = a.m - 1
      · rw [if_pos im, if_neg (by omega)] at h
        rw [if_pos (show i + 1 = a.m by omega)] at hl
        rw [add_fin, add_fin, mul_fin, mul_fin, mul_fin] at h
        obtain rfl | rfl | rfl : l = a.m - 3 ∨ l = a.m - 2 ∨ l = a.m - 1 := by omega
        exacts [h.1.1.2, h.1.2.2, h.2.2]
      · rw [if_neg im] at h
        rw [if_neg (show ¬ i + 1 = a.m by omega)] at hl
        have := (div_fin h).1
        rw [sub_fin] at this
        obtain rfl | rfl : l = i - 1 ∨ l = i + 1 := by omega
        exacts [this.2, this.1]
  · have hm : a.m = 2 := by omega
    rw [if_neg h3, if_pos h2] at h
    rw [if_pos hm] at hl
    simp only [npGradientV, if_true] at h
    have e1 : a.m - 1 = 1 := by omega
    have e2 : a.m - 2 = 0 := by omega
    rw [e1, e2] at h
    have h : (a.v 1 j).isFin = true ∧ (a.v 0 j).isFin = true := by
      rw [← sub_fin]
      by_cases i0 : i = 0
      · rwa [if_pos i0] at h
      · rwa [if_neg i0, if_pos (by omega)] at h
    obtain rfl | rfl : l = 0 ∨ l = 1 := by omega
    exacts [h.2, h.1]

theorem rowNormV_same {a : VMat} {b : NMat} (hs : Shaped a b) {i : Nat} (h : SameAt a b i) : rowNormV a i = .fin (rowNorm b i) := by
  unfold rowNormV rowNorm
  rw [sumV_same (g := fun j => b.v i j ^ 2) fun j hj => by rw [h j hj]; rfl, hs.2]
  have : 0 ≤ ∑ j ∈ Finset.range b.k, b.v i j ^ 2 := Finset.sum_nonneg fun _ _ => sq_nonneg _
  simp [Val.sqrt, this]

theorem rowNormV_fin {a : VMat} {i : Nat} (h : (rowNormV a i).isFin = true) : FinAt a i := by
  intro j hj
  have := (sumV_range _ _).1 (sqrt_fin h) j hj
  rwa [sq_fin] at this

/-- The norm of a row that is not finite is NaN or plus infinity; it is infinite only if an entry is. -/
theorem rowNormV_bad (a : VMat) (i : Nat) : (∃ x, 0 ≤ x ∧ rowNormV a i = .fin x) ∨ rowNormV a i = .nan ∨ rowNormV a i = .pinf := by
  unfold rowNormV
  generalize sumV ((List.range a.k).map fun j => (a.v i j).sq) = s
  cases s with
  | fin x =>
    by_cases hx : 0 ≤ x
    · exact .inl ⟨√ x, Real.sqrt_nonneg _, by simp [Val.sqrt, hx]⟩
    · exact .inr (.inl (by simp [Val.sqrt, hx]))
  | nan => exact .inr (.inl rfl)
  | pinf => exact .inr (.inr rfl)
  | ninf => exact .inr (.inl rfl)

theorem unitRowsV_same {a : VMat} {b : NMat} (hs : Shaped a b) {i : Nat} (h : SameAt a b i) : SameAt (unitRowsV a) (unitRows b) i := by
  intro j hj
  have hn := rowNormV_same hs h
  show (a.v i j).div (frenetNormV a i) = .fin (b.v i j / frenetNorm b i)
  unfold frenetNormV frenetNorm
  rw [hn, h j hj]
  show (Val.fin _).div (if closeK (rowNorm b i) 0 = true then _ else _) = _
  by_cases hc : closeK (rowNorm b i) 0 = true
  · rw [if_pos hc, if_pos hc]; simp [Val.div]
  · rw [if_neg hc, if_neg hc]
    have : rowNorm b i ≠ 0 := by
      intro h0
      rw [h0] at hc
      exact hc (by unfold closeK; simp [atol])
    simp [Val.div, this]

theorem Shaped.unit {a : VMat} {b : NMat} (h : Shaped a b) : Shaped (unitRowsV a) (unitRows b) := h

theorem unitRowsV_fin {a : VMat} {i : Nat} (h : FinAt (unitRowsV a) i) : FinAt a i := by
  intro j hj
  exact (div_fin (h j hj)).1

theorem dotRowV_same {a e : VMat} {b f : NMat} (hs : Shaped a b) {i : Nat} (h : SameAt a b i) (he : a.k = e.k) (h' : SameAt e f i) : dotRowV a e i = .fin (dotRow b f i) := by
  unfold dotRowV dotRow
  rw [sumV_same (g := fun j => b.v i j * f.v i j) fun j hj => by rw [h j hj, h' j (he ▸ hj)]; rfl, hs.2]

theorem dotRowV_fin {a e : VMat} {i : Nat} (he : a.k = e.k) (h : (dotRowV a e i).isFin = true) : FinAt a i ∧ FinAt e i := by
  have := (sumV_range _ _).1 h
  constructor
  · intro j hj; exact ((mul_fin _ _).1 (this j hj)).1
  · intro j hj; exact ((mul_fin _ _).1 (this j (he ▸ hj))).2

theorem rejectV_same {s e : VMat} {b f : NMat} (hs : Shaped s b) {i : Nat} (h : SameAt s b i) (he : s.k = e.k) (h' : SameAt e f i) : SameAt (rejectV s e) (reject b f) i := by
  intro j hj
  show (s.v i j).sub ((dotRowV s e i).mul (e.v i j)) = .fin (b.v i j - dotRow b f i * f.v i j)
  rw [dotRowV_same hs h he h', h j hj, h' j (he ▸ hj)]
  simp [Val.mul, Val.sub, Val.neg, Val.add, sub_eq_add_neg]

theorem rejectV_fin {s e : VMat} {i : Nat} (he : s.k = e.k) (h0 : 0 < s.k) (h : FinAt (rejectV s e) i) : FinAt s i ∧ FinAt e i := by
  have := (sub_fin _ _).1 (h 0 h0)
  exact dotRowV_fin he ((mul_fin _ _).1 this.2).1

theorem reject2V_same {s e g : VMat} {b f u : NMat} (hs : Shaped s b) {i : Nat} (h : SameAt s b i) (he : s.k = e.k) (h' : SameAt e f i) (hg : s.k = g.k) (hu : SameAt g u i) :
    SameAt (reject2V s e g) (reject2 b f u) i := by
  intro j hj
  show ((s.v i j).sub ((dotRowV s e i).mul (e.v i j))).sub ((dotRowV s g i).mul (g.v i j)) = .fin (b.v i j - dotRow b f i * f.v i j - dotRow b u i * u.v i j)
  rw [dotRowV_same hs h he h', dotRowV_same hs h hg hu, h j hj, h' j (he ▸ hj), hu j (hg ▸ hj)]
  simp [Val.mul, Val.sub, Val.neg, Val.add, sub_eq_add_neg]

theorem reject2V_fin {s e g : VMat} {i : Nat} (he : s.k = e.k) (hg : s.k = g.k) (h0 : 0 < s.k) (h : FinAt (reject2V s e g) i) : FinAt s i ∧ FinAt e i ∧ FinAt g i := by
  have := (sub_fin _ _).1 (h 0 h0)
  have h1 := dotRowV_fin hg ((mul_fin _ _).1 this.2).1
  have h2 := dotRowV_fin he ((mul_fin _ _).1 ((sub_fin _ _).1 this.1).2).1
  exact ⟨h1.1, h2.2, h1.2⟩

end Verif.Lemmas
