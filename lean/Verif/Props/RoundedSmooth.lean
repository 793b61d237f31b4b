import Verif.Props.RoundedDeriv
import Verif.Props.Boundary
import Verif.Props.Shorten
import Mathlib.Tactic.IntervalCases

/-!
C131: smoothing with a window in rounded arithmetic.
-/
namespace Verif.Props

open Verif Verif.Np Verif.Model Verif.Spec

section
variable {ε : ℝ} {fl : ℝ → ℝ}

/-- The error of a sum of products. -/
theorem lin_err (hf : Rounding ε fl) {ps : List (ℝ × ℝ)} {y : ℝ} (h : LinTo fl ps y) :
    1 ≤ ps.length ∧ |y - (ps.map fun p => p.1 * p.2).sum| ≤ ((1 + ε) ^ ps.length - 1) * (ps.map fun p => |p.1 * p.2|).sum := by
  have e0 := hf.nonneg
  have two : ∀ a b w z : ℝ, z = fl (fl (a + b) * w) ∨ z = fl (a + b) * w → |z - (w * a + w * b)| ≤ ((1 + ε) ^ 2 - 1) * (|w * a| + |w * b|) := by
    intro a b w z hz
    have h1 := hf.rel (a + b)
    have h2 : |fl (a + b) * w - (w * a + w * b)| ≤ ε * (|w * a| + |w * b|) := by
      rw [show fl (a + b) * w - (w * a + w * b) = w * (fl (a + b) - (a + b)) by ring, abs_mul]
      refine (mul_le_mul_of_nonneg_left h1 (abs_nonneg w)).trans ?_
      rw [abs_mul, abs_mul, ← mul_add]
      have := mul_le_mul_of_nonneg_left (abs_add_le a b) (abs_nonneg w)
      nlinarith [mul_le_mul_of_nonneg_left this e0]
    have p0 : 0 ≤ |w * a| + |w * b| := by positivity
    rcases hz with rfl | rfl
    · have h3 := hf.rel (fl (a + b) * w)
      have h4 : |fl (a + b) * w| ≤ (1 + ε) * (|w * a| + |w * b|) := by
        have := abs_add_le (w * a + w * b) (fl (a + b) * w - (w * a + w * b))
        rw [show w * a + w * b + (fl (a + b) * w - (w * a + w * b)) = fl (a + b) * w by ring] at this
        have := abs_add_le (w * a) (w * b)
        linarith
      have tri := abs_sub_le (fl (fl (a + b) * w)) (fl (a + b) * w) (w * a + w * b)
      nlinarith [mul_le_mul_of_nonneg_left h4 e0]
    · nlinarith [mul_nonneg e0 p0]
  induction h with
  | @one w x z h =>
    refine ⟨le_rfl, ?_⟩
    simp only [List.map_cons, List.map_nil, List.sum_cons, List.sum_nil, List.length_cons, List.length_nil, add_zero, zero_add, pow_one, add_sub_cancel_left]
    rcases h with rfl | rfl
    · exact hf.rel _
    · rw [sub_self, abs_zero]; positivity
  | @pair w x y z h =>
    refine ⟨by simp, ?_⟩
    simp only [List.map_cons, List.map_nil, List.sum_cons, List.sum_nil, List.length_cons, List.length_nil, add_zero, zero_add]
    exact two x y w z h
  | @anti w x y z h =>
    refine ⟨by simp, ?_⟩
    simp only [List.map_cons, List.map_nil, List.sum_cons, List.sum_nil, List.length_cons, List.length_nil, add_zero, zero_add]
    have := two x (-y) w z (by rwa [← sub_eq_add_neg])
    rwa [show w * -y = -w * y by ring] at this
  | @add xs ys zs s t _ _ hz ih1 ih2 =>
    obtain ⟨l1, a1⟩ := ih1
    obtain ⟨l2, a2⟩ := ih2
    have hl : zs.length = xs.length + ys.length := by rw [hz.length_eq, List.length_append]
    refine ⟨by omega, ?_⟩
    rw [(hz.map _).sum_eq, (hz.map _).sum_eq, List.map_append, List.map_append, List.sum_append, List.sum_append, hl]
    set A := (xs.map fun p => p.1 * p.2).sum
    set B := (ys.map fun p => p.1 * p.2).sum
    set A' := (xs.map fun p => |p.1 * p.2|).sum with hA
    set B' := (ys.map fun p => |p.1 * p.2|).sum with hB
    have absSum : ∀ l : List (ℝ × ℝ), |(l.map fun p => p.1 * p.2).sum| ≤ (l.map fun p => |p.1 * p.2|).sum := by
      intro l
      induction l with
      | nil => simp
      | cons p l ih => simp only [List.map_cons, List.sum_cons]; exact (abs_add_le _ _).trans (add_le_add le_rfl ih)
    have A0 : |A| ≤ A' := absSum xs
    have B0 : |B| ≤ B' := absSum ys
    have pA : 0 ≤ A' := (abs_nonneg _).trans A0
    have pB : 0 ≤ B' := (abs_nonneg _).trans B0
    have k1 : (1 + ε) ^ xs.length ≤ (1 + ε) ^ (xs.length + ys.length - 1) := pow_le_pow_right₀ (by linarith) (by omega)
    have k2 : (1 + ε) ^ ys.length ≤ (1 + ε) ^ (xs.length + ys.length - 1) := pow_le_pow_right₀ (by linarith) (by omega)
    have ek : (1 + ε) ^ (xs.length + ys.length) = (1 + ε) ^ (xs.length + ys.length - 1) * (1 + ε) := by
      rw [← pow_succ]; congr 1; omega
    rw [ek]
    generalize (1 + ε) ^ (xs.length + ys.length - 1) = Q at *
    have s1 : |s + t - (A + B)| ≤ (Q - 1) * (A' + B') := by
      have := abs_add_le (s - A) (t - B)
      rw [show s - A + (t - B) = s + t - (A + B) by ring] at this
      have := mul_le_mul_of_nonneg_right (sub_le_sub_right k1 1) pA
      have := mul_le_mul_of_nonneg_right (sub_le_sub_right k2 1) pB
      linarith
    have s2 : |s + t| ≤ Q * (A' + B') := by
      have := abs_add_le (A + B) (s + t - (A + B))
      rw [show A + B + (s + t - (A + B)) = s + t by ring] at this
      have := abs_add_le A B
      linarith
    have s3 := hf.rel (s + t)
    have tri := abs_sub_le (fl (s + t)) (s + t) (A + B)
    nlinarith [mul_le_mul_of_nonneg_left s2 e0]

/-- The weights used. -/
theorem weights_err (hf : Rounding ε fl) {η : ℝ} {ws us : List ℝ} {S : ℝ} (hw : ∀ w ∈ ws, 0 ≤ w) (hs : 0 < ws.sum) (hε : 4 * (ws.length * ε) ≤ 1)
    (hS : SumsTo fl ws S) (hu : List.Forall₂ (fun w u => |u - fl (w / S)| ≤ η) ws us) :
    List.Forall₂ (fun w u => |u - w / ws.sum| ≤ 4 * ws.length * ε * (w / ws.sum) + η) ws us := by
  have e0 := hf.nonneg
  have e1 := hf.lt_one
  have hne : ws ≠ [] := by rintro rfl; simp at hs
  have hl : 1 ≤ ws.length := List.length_pos_of_ne_nil hne
  have hl' : (1 : ℝ) ≤ ws.length := by exact_mod_cast hl
  have r := rel_simple hf (sums_rel hf hS hw) hs.le (by push_cast [Nat.cast_sub hl]; nlinarith)
  rw [Nat.cast_sub hl, Nat.cast_one] at r
  have hη : 2 * ((ws.length : ℝ) - 1) * ε ≤ 1 / 2 := by nlinarith
  have hSl : ws.sum / 2 ≤ S := by
    have := (abs_le.1 r).1
    nlinarith
  have Sp : 0 < S := by linarith
  have one : ∀ w, 0 ≤ w → |fl (w / S) - w / ws.sum| ≤ 4 * ws.length * ε * (w / ws.sum) := by
    intro w w0
    have h1 := hf.rel (w / S)
    have e : w / S - w / ws.sum = (w / ws.sum) * ((ws.sum - S) / S) := by field_simp
    have q : |(ws.sum - S) / S| ≤ 4 * ((ws.length : ℝ) - 1) * ε := by
      rw [abs_div, abs_of_pos Sp, div_le_iff₀ Sp, abs_sub_comm]
      refine r.trans ?_
      have : 0 ≤ ((ws.length : ℝ) - 1) * ε := mul_nonneg (by linarith) e0
      nlinarith
    have X0 : 0 ≤ w / ws.sum := div_nonneg w0 hs.le
    have d1 : |w / S - w / ws.sum| ≤ 4 * ((ws.length : ℝ) - 1) * ε * (w / ws.sum) := by
      rw [e, abs_mul, mul_comm, abs_of_nonneg X0]
      exact mul_le_mul_of_nonneg_right q X0
    have tri := abs_sub_le (fl (w / S)) (w / S) (w / ws.sum)
    have m : |w / S| ≤ w / ws.sum + |w / S - w / ws.sum| := by
      have := abs_add_le (w / ws.sum) (w / S - w / ws.sum)
      rwa [show w / ws.sum + (w / S - w / ws.sum) = w / S by ring, abs_of_nonneg X0] at this
    generalize w / ws.sum = X at *
    have m1 := mul_le_mul_of_nonneg_left m e0
    have m2 := mul_le_mul_of_nonneg_left d1 e0
    have m3 : ε * (4 * ((ws.length : ℝ) - 1) * ε * X) ≤ ε * X := by
      refine mul_le_mul_of_nonneg_left ?_ e0
      have : 4 * ((ws.length : ℝ) - 1) * ε ≤ 1 := by nlinarith
      nlinarith
    have m4 : 0 ≤ ε * X := mul_nonneg e0 X0
    linarith
  rw [List.forall₂_iff_get] at hu ⊢
  refine ⟨hu.1, fun i h1 h2 => ?_⟩
  have a := hu.2 i h1 h2
  have b := one _ (hw _ (List.get_mem ws ⟨i, h1⟩))
  have := abs_sub_le (us.get ⟨i, h2⟩) (fl (ws.get ⟨i, h1⟩ / S)) (ws.get ⟨i, h1⟩ / ws.sum)
  linarith

/-- Sums with nearby weights. -/
theorem near_weights {η δ X D : ℝ} (hX : 0 ≤ X) (hδ : 0 ≤ δ) (hη : 0 ≤ η) (hD : 0 < D) : ∀ {ws us es : List ℝ}, List.Forall₂ (fun w u => |u - w / D| ≤ δ * (w / D) + η) ws us →
    (∀ w ∈ ws, 0 ≤ w) → es.length = ws.length → (∀ e ∈ es, |e| ≤ X) →
    |((us.zip es).map fun p => p.1 * p.2).sum - (List.zipWith (fun w e => w / D * e) ws es).sum| ≤ (δ * (ws.sum / D) + ws.length * η) * X ∧
    ((us.zip es).map fun p => |p.1 * p.2|).sum ≤ ((1 + δ) * (ws.sum / D) + ws.length * η) * X := by
  intro ws us es h
  induction h generalizing es with
  | nil => intro _ h _; simp
  | @cons w u ws us h1 h2 ih =>
    intro hw hl he
    cases es with
    | nil => simp at hl
    | cons e es =>
      obtain ⟨i1, i2⟩ := ih (fun w hm => hw w (List.mem_cons_of_mem _ hm)) (by simpa using hl) (fun e hm => he e (List.mem_cons_of_mem _ hm))
      have w0 := hw w (by simp)
      have ee := he e (by simp)
      have q0 : 0 ≤ w / D := div_nonneg w0 hD.le
      simp only [List.zip_cons_cons, List.map_cons, List.sum_cons, List.zipWith_cons_cons, List.length_cons]
      push_cast
      have b0 : 0 ≤ δ * (w / D) + η := by positivity
      constructor
      · have e1 : u * e + ((us.zip es).map fun p => p.1 * p.2).sum - (w / D * e + (List.zipWith (fun w e => w / D * e) ws es).sum) =
            (u - w / D) * e + (((us.zip es).map fun p => p.1 * p.2).sum - (List.zipWith (fun w e => w / D * e) ws es).sum) := by ring
        rw [e1]
        refine (abs_add_le _ _).trans ?_
        have : |(u - w / D) * e| ≤ (δ * (w / D) + η) * X := by
          rw [abs_mul]; exact mul_le_mul h1 ee (abs_nonneg _) b0
        rw [add_div]
        linarith
      · have au : |u| ≤ w / D + (δ * (w / D) + η) := by
          have := abs_add_le (w / D) (u - w / D)
          rw [show w / D + (u - w / D) = u by ring, abs_of_nonneg q0] at this
          linarith
        have : |u * e| ≤ (w / D + (δ * (w / D) + η)) * X := by
          rw [abs_mul]; exact mul_le_mul au ee (abs_nonneg _) (by linarith)
        rw [add_div]
        linarith

/-- One computed value and the exact one. -/
theorem smoothTo_err (hf : Rounding ε fl) {η X : ℝ} (hη : 0 ≤ η) {ws es : List ℝ} (hw : ∀ w ∈ ws, 0 ≤ w) (hs : 0 < ws.sum) (hε : 4 * (ws.length * ε) ≤ 1)
    (hn : ws.length * η ≤ 1) (hl : es.length = ws.length) (hX : ∀ e ∈ es, |e| ≤ X) (hX0 : 0 ≤ X) {y : ℝ} (h : SmoothTo fl η ws es y) :
    |y - (List.zipWith (fun w e => w / ws.sum * e) ws es).sum| ≤ ws.length * (10 * ε + η) * X := by
  have e0 := hf.nonneg
  obtain ⟨S, us, h1, h2, h3⟩ := h
  have n0 : (0 : ℝ) ≤ ws.length := Nat.cast_nonneg _
  have hw2 := weights_err hf hw hs hε h1 h2
  obtain ⟨a1, a2⟩ := near_weights (δ := 4 * ws.length * ε) hX0 (by positivity) hη hs hw2 hw hl hX
  rw [div_self hs.ne'] at a1 a2
  have b := (lin_err hf h3).2
  have hul : us.length = ws.length := h2.length_eq.symm
  have hlen : (us.zip es).length = ws.length := by rw [List.length_zip, hul, hl, min_self]
  rw [hlen] at b
  have p := pow_one_add_le hf (k := ws.length) (by linarith)
  have a2' : ((us.zip es).map fun p => |p.1 * p.2|).sum ≤ 3 * X := a2.trans (mul_le_mul_of_nonneg_right (by linarith) hX0)
  have b' : |y - ((us.zip es).map fun p => p.1 * p.2).sum| ≤ 2 * (ws.length * ε) * (3 * X) := by
    refine b.trans ?_
    have q0 : 0 ≤ ((us.zip es).map fun p => |p.1 * p.2|).sum := by
      refine List.sum_nonneg fun x hx => ?_
      obtain ⟨p, -, rfl⟩ := List.mem_map.1 hx
      exact abs_nonneg _
    refine mul_le_mul (by linarith) a2' q0 (by positivity)
  have tri := abs_sub_le y ((us.zip es).map fun p => p.1 * p.2).sum (List.zipWith (fun w e => w / ws.sum * e) ws es).sum
  linarith

theorem continues_bounded {mode : String} (hmode : BoundaryMode mode) {n : Nat} (hn : 0 < n) {cv X : ℝ} {f : Nat → ℝ} {e : ℤ → ℝ} (h : Continues mode n cv f e)
    (hf : ∀ i, i < n → |f i| ≤ X) (hcv : |cv| ≤ X) (k : ℤ) : |e k| ≤ X := by
  obtain ⟨m, hm⟩ := boundary_ofString hmode
  rw [continues_unique hm hn h k]
  unfold extVal
  by_cases hc : m = .constant
  · subst hc
    unfold extIndex
    split
    · rename_i p heq
      split at heq
      · rename_i hk
        simp only [Option.some.injEq] at heq
        exact hf _ (by omega)
      · simp at heq
    · exact hcv
  · obtain ⟨p, hp, e1⟩ := extIndex_lt hc hn k
    rw [e1]
    exact hf p hp

/-! ## C131 -/

/-- **C131.** Smoothing with a window in rounded arithmetic, for windows of `n` non-negative numbers: the values of the smoothed curve differ from those of the exact model by at most
`n (10 ε + η)` times a bound of the data (and of the constant beyond the ends), in whatever order the terms are added. -/
theorem C131_window (hf : Rounding ε fl) {η : ℝ} (hη : 0 ≤ η) {r : Reg SmoothFn} {name : String} (hfn : getSmooth r name = .ok windowFn) {c : Curve ℝ} (hc : WF c)
    (hne : c.rows ≠ []) (hd : c.dtype = .float) {ws : List ℝ} (hw : ∀ w ∈ ws, 0 ≤ w) (hs : 0 < ws.sum) (hε : 4 * (ws.length * ε) ≤ 1) (hn : ws.length * η ≤ 1)
    {p : WinParams} (hp : makeWindow p.wtype p.size = .ok (.floats (fins ws))) {cv : ℝ} (hcv : p.cval = .fin cv) (hmode : BoundaryMode p.mode) {e : Nat → ℤ → ℝ}
    (he : ∀ j, j < c.ncols → Continues p.mode c.size cv (fun q => at2 c.rows q j) (e j)) {X : ℝ} (hX : ∀ i j, i < c.size → j < c.ncols → |at2 c.rows i j| ≤ X) (hX' : |cv| ≤ X) :
    ∃ c', (finCurve c).smooth r name (.window p) = .ok (finCurve c') ∧ c'.size = c.size ∧ c'.ncols = c.ncols ∧
      ∀ i j y, i < c.size → j < c.ncols → SmoothTo fl η ws ((List.range ws.length).map fun (k : Nat) => e j (i + (ws.length / 2 : Nat) - k)) y →
        |y - at2 c'.rows i j| ≤ ws.length * (10 * ε + η) * X := by
  obtain ⟨c', h1, _, h2, h3, _, _, h4⟩ := C100_window hfn hc hne (by simp [hd]) hs.ne' hp hcv hmode he
  refine ⟨c', h1, h2, h3, fun i j y hi hj hy => ?_⟩
  have X0 : 0 ≤ X := (abs_nonneg _).trans hX'
  have := smoothTo_err hf hη hw hs hε hn (by simp) (X := X) (by
    intro x hx
    obtain ⟨k, -, rfl⟩ := List.mem_map.1 hx
    exact continues_bounded hmode (List.length_pos_iff.2 hne) (he j hj) (fun i hi => hX i j hi hj) hX' _) X0 hy
  rw [h4 i j hi hj, hd]
  show |y - ∑ k ∈ Finset.range ws.length, _| ≤ _
  convert this using 3
  have el : List.zipWith (fun w e => w / ws.sum * e) ws ((List.range ws.length).map fun (k : Nat) => e j (i + (ws.length / 2 : Nat) - k)) =
      (List.range ws.length).map fun (k : Nat) => ws.getD k 0 / ws.sum * e j (i + (ws.length / 2 : Nat) - k) := by
    refine List.ext_getElem (by simp) fun k h1 h2 => ?_
    simp only [List.length_map, List.length_range] at h2
    simp [h2]
  rw [el, ← List.sum_toFinset _ List.nodup_range, List.toFinset_range]

theorem lin_snoc {w x s : ℝ} {k : Nat} (h : LinTo fl (List.replicate (k + 1) (w, x)) s) : LinTo fl (List.replicate (k + 2) (w, x)) (fl (s + fl (w * x))) := by
  refine .add h (.one (.inl rfl)) ?_
  rw [List.replicate_succ' (n := k + 1)]

/-- **C131 fails exactly.** In binary64 the average of ten equal numbers 1, with ten equal weights added from left to right as scipy does, is `1 - 2^-53`: a constant curve
is not kept, and the value is outside of the range of the data. -/
theorem C131_const_fails : SmoothTo rnd 0 (List.replicate 10 1) (List.replicate 10 1) (1 - 2⁻¹ ^ 53) ∧
    ∀ y, SmoothTo id 0 (List.replicate 10 1) (List.replicate 10 1) y → y = 1 := by
  constructor
  · have hw : rnd (1 / 10) = (3602879701896397 / 2 ^ 55 : ℝ) := by
      rw [rnd_value (-4) 7205759403792794 (by norm_num [zpow_neg]) (by norm_num [zpow_neg]) (.inl (by rw [abs_lt]; norm_num [zpow_neg]))]
      norm_num [zpow_neg]
    have hw1 : rnd ((3602879701896397 / 2 ^ 55 : ℝ) * 1) = (3602879701896397 / 2 ^ 55 : ℝ) := by rw [mul_one, ← hw, rnd_idem]
    have nat : ∀ n : Nat, n ≤ 10 → rnd n = n := by
      intro n hn
      have := rnd_int n (by rw [abs_of_nonneg (by positivity)]; exact_mod_cast hn.trans (by norm_num))
      exact_mod_cast this
    have sums : ∀ n : Nat, n + 1 ≤ 10 → SumsTo rnd (List.replicate (n + 1) 1) ((n + 1 : ℕ) : ℝ) := by
      intro n
      induction n with
      | zero => intro _; simpa using SumsTo.one (fl := rnd) 1
      | succ n ih =>
        intro hn
        have := SumsTo.add (ih (by omega)) (.one 1) (by simp) (by simp) (List.Perm.refl _)
        rw [← List.replicate_succ', show ((n + 1 : ℕ) : ℝ) + 1 = ((n + 1 + 1 : ℕ) : ℝ) by push_cast; ring, nat _ hn] at this
        exact this
    have l1 : LinTo rnd (List.replicate 1 ((3602879701896397 / 2 ^ 55 : ℝ), 1)) (3602879701896397 / 2 ^ 55 : ℝ) := .one (.inl hw1.symm)
    have r2 : rnd ((3602879701896397 / 2 ^ 55 : ℝ) + (3602879701896397 / 2 ^ 55 : ℝ)) = (7205759403792794 / 2 ^ 55 : ℝ) := by
      rw [rnd_value (-3) 7205759403792794 (by norm_num [zpow_neg]) (by norm_num [zpow_neg]) (.inl (by rw [abs_lt]; norm_num [zpow_neg]))]
      norm_num [zpow_neg]
    have l2 := lin_snoc l1
    rw [hw1, r2] at l2
    have r3 : rnd ((7205759403792794 / 2 ^ 55 : ℝ) + (3602879701896397 / 2 ^ 55 : ℝ)) = (5404319552844596 / 2 ^ 54 : ℝ) := by
      rw [rnd_value (-2) 5404319552844596 (by norm_num [zpow_neg]) (by norm_num [zpow_neg]) (.inr ⟨by norm_num [zpow_neg, abs_of_neg], ⟨2702159776422298, by norm_num⟩⟩)]
      norm_num [zpow_neg]
    have l3 := lin_snoc l2
    rw [hw1, r3] at l3
    have r4 : rnd ((5404319552844596 / 2 ^ 54 : ℝ) + (3602879701896397 / 2 ^ 55 : ℝ)) = (7205759403792794 / 2 ^ 54 : ℝ) := by
      rw [rnd_value (-2) 7205759403792794 (by norm_num [zpow_neg]) (by norm_num [zpow_neg]) (.inr ⟨by norm_num [zpow_neg, abs_of_neg], ⟨3602879701896397, by norm_num⟩⟩)]
      norm_num [zpow_neg]
    have l4 := lin_snoc l3
    rw [hw1, r4] at l4
    have r5 : rnd ((7205759403792794 / 2 ^ 54 : ℝ) + (3602879701896397 / 2 ^ 55 : ℝ)) = (4503599627370496 / 2 ^ 53 : ℝ) := by
      rw [rnd_value (-1) 4503599627370496 (by norm_num [zpow_neg]) (by norm_num [zpow_neg]) (.inl (by rw [abs_lt]; norm_num [zpow_neg]))]
      norm_num [zpow_neg]
    have l5 := lin_snoc l4
    rw [hw1, r5] at l5
    have r6 : rnd ((4503599627370496 / 2 ^ 53 : ℝ) + (3602879701896397 / 2 ^ 55 : ℝ)) = (5404319552844595 / 2 ^ 53 : ℝ) := by
      rw [rnd_value (-1) 5404319552844595 (by norm_num [zpow_neg]) (by norm_num [zpow_neg]) (.inl (by rw [abs_lt]; norm_num [zpow_neg]))]
      norm_num [zpow_neg]
    have l6 := lin_snoc l5
    rw [hw1, r6] at l6
    have r7 : rnd ((5404319552844595 / 2 ^ 53 : ℝ) + (3602879701896397 / 2 ^ 55 : ℝ)) = (6305039478318694 / 2 ^ 53 : ℝ) := by
      rw [rnd_value (-1) 6305039478318694 (by norm_num [zpow_neg]) (by norm_num [zpow_neg]) (.inl (by rw [abs_lt]; norm_num [zpow_neg]))]
      norm_num [zpow_neg]
    have l7 := lin_snoc l6
    rw [hw1, r7] at l7
    have r8 : rnd ((6305039478318694 / 2 ^ 53 : ℝ) + (3602879701896397 / 2 ^ 55 : ℝ)) = (7205759403792793 / 2 ^ 53 : ℝ) := by
      rw [rnd_value (-1) 7205759403792793 (by norm_num [zpow_neg]) (by norm_num [zpow_neg]) (.inl (by rw [abs_lt]; norm_num [zpow_neg]))]
      norm_num [zpow_neg]
    have l8 := lin_snoc l7
    rw [hw1, r8] at l8
    have r9 : rnd ((7205759403792793 / 2 ^ 53 : ℝ) + (3602879701896397 / 2 ^ 55 : ℝ)) = (8106479329266892 / 2 ^ 53 : ℝ) := by
      rw [rnd_value (-1) 8106479329266892 (by norm_num [zpow_neg]) (by norm_num [zpow_neg]) (.inl (by rw [abs_lt]; norm_num [zpow_neg]))]
      norm_num [zpow_neg]
    have l9 := lin_snoc l8
    rw [hw1, r9] at l9
    have r10 : rnd ((8106479329266892 / 2 ^ 53 : ℝ) + (3602879701896397 / 2 ^ 55 : ℝ)) = (9007199254740991 / 2 ^ 53 : ℝ) := by
      rw [rnd_value (-1) 9007199254740991 (by norm_num [zpow_neg]) (by norm_num [zpow_neg]) (.inl (by rw [abs_lt]; norm_num [zpow_neg]))]
      norm_num [zpow_neg]
    have l10 := lin_snoc l9
    rw [hw1, r10] at l10
    refine ⟨10, List.replicate 10 (3602879701896397 / 2 ^ 55 : ℝ), by exact_mod_cast sums 9 le_rfl, ?_, ?_⟩
    · rw [List.forall₂_iff_get]
      refine ⟨by simp, fun i h1 h2 => ?_⟩
      simp only [List.get_eq_getElem, List.getElem_replicate]
      rw [hw, sub_self, abs_zero]
    · have e : (List.replicate 10 (3602879701896397 / 2 ^ 55 : ℝ)).zip (List.replicate 10 (1 : ℝ)) = List.replicate 10 ((3602879701896397 / 2 ^ 55 : ℝ), (1 : ℝ)) := by
        rw [List.zip_replicate, min_self]
      rw [e]
      have : (1 - 2⁻¹ ^ 53 : ℝ) = (9007199254740991 / 2 ^ 53 : ℝ) := by norm_num
      rw [this]
      exact l10
  · intro y hy
    have hid : Rounding 0 id := ⟨le_rfl, by norm_num, by intro x; simp, monotone_id, fun _ => rfl, fun _ => rfl⟩
    have := smoothTo_err hid (η := 0) le_rfl (X := 1) (by intro w hw; rw [List.eq_of_mem_replicate hw]; norm_num) (by norm_num) (by norm_num) (by norm_num) (by simp)
      (by intro w hw; rw [List.eq_of_mem_replicate hw]; norm_num) (by norm_num) hy
    simp only [mul_zero, add_zero, zero_mul] at this
    have h0 := abs_nonpos_iff.1 this
    rw [List.zipWith_replicate] at h0
    norm_num at h0
    linarith

/-- A window of 1001 numbers in binary64, data up to 1: errors below 2e-12. -/
example {ws es : List ℝ} (hw : ∀ w ∈ ws, 0 ≤ w) (hs : 0 < ws.sum) (hn : ws.length = 1001) (hl : es.length = 1001) (he : ∀ e ∈ es, |e| ≤ 1) {y : ℝ}
    (h : SmoothTo rnd (2⁻¹ ^ 52) ws es y) : |y - (List.zipWith (fun w e => w / ws.sum * e) ws es).sum| ≤ 2 / 10 ^ 12 := by
  have := smoothTo_err rnd_rounding (by norm_num) hw hs (by rw [hn]; norm_num) (by rw [hn]; norm_num) (by rw [hl, hn]) he (by norm_num) h
  refine this.trans ?_
  rw [hn]
  norm_num

/-- The hypotheses of `C131_window` for the curve through (0, 0), (1, 0), (0, 0) and three equal weights, and a computed value. -/
example (f : SmoothFn) : ∃ (e : Nat → ℤ → ℝ) (c' : Curve ℝ) (y : ℝ), (finCurve (onAxis [0, 1, 0])).smooth (smoothReg f) "window"
      (.window { size := 3, wtype := .callable fun _ => .ok (.floats (fins [1, 1, 1])) }) = .ok (finCurve c') ∧
    SmoothTo rnd (2⁻¹ ^ 52) [1, 1, 1] ((List.range 3).map fun (k : Nat) => e 0 ((1 : Nat) + (3 / 2 : Nat) - k)) y ∧ |y - at2 c'.rows 1 0| ≤ 3 * (10 * 2⁻¹ ^ 53 + 2⁻¹ ^ 52) * 1 := by
  have hmode : BoundaryMode "reflect" := by simp [BoundaryMode]
  choose e he using fun j => C100_continuation hmode (n := 3) (by norm_num) 0 (fun q => at2 (onAxis [0, 1, 0]).rows q j)
  obtain ⟨c', h1, _, _, h2⟩ := C131_window rnd_rounding (η := 2⁻¹ ^ 52) (by norm_num) (smoothReg_window f) (onAxis_WF [0, 1, 0]) (by simp [onAxis]) rfl (ws := [1, 1, 1])
    (by simp) (by norm_num) (by norm_num) (by norm_num) (p := { size := 3, wtype := .callable fun _ => .ok (.floats (fins [1, 1, 1])) }) rfl rfl hmode
    (e := e) (fun j _ => (he j).1) (X := 1) (by
      intro i j hi hj
      have hi' : i < 3 := hi
      have hj' : j < 2 := hj
      interval_cases i <;> interval_cases j <;> simp [at2, onAxis]) (by simp)
  obtain ⟨S, hS⟩ := sumsTo_exists rnd [1, 1, 1]
  have lin : ∀ (a b d : ℝ × ℝ), LinTo rnd [a, b, d] (rnd (rnd (rnd (a.1 * a.2) + rnd (b.1 * b.2)) + rnd (d.1 * d.2))) := fun a b d =>
    .add (.add (.one (.inl rfl)) (.one (.inl rfl)) (List.Perm.refl _)) (.one (.inl rfl)) (List.Perm.refl _)
  have hy : SmoothTo rnd (2⁻¹ ^ 52) [1, 1, 1] ((List.range 3).map fun (k : Nat) => e 0 ((1 : Nat) + (3 / 2 : Nat) - k)) _ :=
    ⟨S, [rnd (1 / S), rnd (1 / S), rnd (1 / S)], hS, by simp, lin _ _ _⟩
  refine ⟨e, c', _, h1, hy, ?_⟩
  have := h2 1 0 _ (by simp [onAxis, Curve.size]) (by simp [onAxis]) hy
  simpa using this

end

end Verif.Props
