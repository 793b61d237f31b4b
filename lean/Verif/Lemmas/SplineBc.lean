import Verif.Lemmas.NaturalSpline
import Verif.Spec.SplineBc

/-!
The linear systems of the boundary conditions `clamped`, `not-a-knot` and `periodic` have exactly one solution.
-/
namespace Verif.Model

open Verif Verif.Np Verif.Spec

/-- A square linear system without other solution than 0 for right-hand side 0 has a solution for every right-hand side. -/
theorem rows_exist {n : Nat} (row : (Nat → ℝ) → Nat → ℝ)
    (lin : ∀ d e a k, row (fun i => d i + a * e i) k = row d k + a * row e k)
    (ker : ∀ e, (∀ k, k < n → row e k = 0) → ∀ k, k < n → e k = 0) (rhs : Nat → ℝ) :
    ∃ d, ∀ k, k < n → row d k = rhs k := by
  have r0 : ∀ k, row (fun _ => 0) k = 0 := by
    intro k
    have := lin (fun _ => 0) (fun _ => 0) 1 k
    simp only [mul_zero, add_zero, one_mul] at this
    linarith
  let ext : (Fin n → ℝ) → Nat → ℝ := fun d i => if hi : i < n then d ⟨i, hi⟩ else 0
  have ext_lin : ∀ d e a i, ext (d + a • e) i = ext d i + a * ext e i := by
    intro d e a i
    simp only [ext]
    split_ifs <;> simp
  let L : (Fin n → ℝ) →ₗ[ℝ] (Fin n → ℝ) :=
    { toFun := fun d k => row (ext d) k
      map_add' := by
        intro d e
        funext k
        have := lin (ext d) (ext e) 1 k
        have e1 : ext (d + e) = fun i => ext d i + 1 * ext e i := by
          funext i
          have := ext_lin d e 1 i
          rwa [one_smul] at this
        simp only [Pi.add_apply]
        rw [e1, this]; ring
      map_smul' := by
        intro a e
        funext k
        have := lin (ext 0) (ext e) a k
        have e1 : ext (a • e) = fun i => ext 0 i + a * ext e i := by
          funext i
          have := ext_lin 0 e a i
          rwa [zero_add] at this
        have e0 : row (ext 0) k = 0 := by
          have : ext 0 = fun _ => 0 := by funext i; simp [ext]
          rw [this]; exact r0 k
        simp only [Pi.smul_apply, RingHom.id_apply, smul_eq_mul]
        rw [e1, this, e0]; ring }
  have inj : Function.Injective L := by
    rw [injective_iff_map_eq_zero]
    intro d hd
    funext k
    have := ker (ext d) (fun k hk => congrFun hd ⟨k, hk⟩) k k.2
    simpa [ext] using this
  obtain ⟨d, hd⟩ := (LinearMap.injective_iff_surjective.1 inj) (fun k => rhs k)
  exact ⟨ext d, fun k hk => congrFun hd ⟨k, hk⟩⟩

/-- Numbers each of which is at most a proper fraction of every bound for all of them are 0. -/
theorem contract_zero (S : Finset Nat) (e : Nat → ℝ)
    (h : ∀ k ∈ S, ∀ M, (∀ i ∈ S, |e i| ≤ M) → ∃ θ, θ < 1 ∧ |e k| ≤ θ * M) : ∀ k ∈ S, e k = 0 := by
  intro k hk
  obtain ⟨m, hm, hmax⟩ := Finset.exists_max_image S (fun i => |e i|) ⟨k, hk⟩
  obtain ⟨θ, h1, h2⟩ := h m hm |e m| hmax
  have h3 := abs_nonneg (e m)
  have h4 : |e m| = 0 := by
    by_contra hne
    have : 0 < |e m| := lt_of_le_of_ne h3 (Ne.symm hne)
    nlinarith
  have h5 := hmax k hk
  rw [h4] at h5
  exact abs_eq_zero.1 (le_antisymm h5 (abs_nonneg _))

/-- An inner equation without right-hand side halves. -/
theorem inner_halves {a b u v w M : ℝ} (ha : 0 < a) (hb : 0 < b) (h : b * u + 2 * (a + b) * v + a * w = 0) (hu : |u| ≤ M)
    (hw : |w| ≤ M) : |v| ≤ 1 / 2 * M := by
  have h3 : 2 * (a + b) * v = -(b * u + a * w) := by linarith
  have h4 : 2 * (a + b) * |v| = |b * u + a * w| := by
    rw [← abs_neg (b * u + a * w), ← h3, abs_mul, abs_of_pos (by linarith : 0 < 2 * (a + b))]
  have h5 : |b * u + a * w| ≤ b * |u| + a * |w| := by
    refine (abs_add_le _ _).trans ?_
    rw [abs_mul, abs_mul, abs_of_pos ha, abs_of_pos hb]
  have h6 := mul_le_mul_of_nonneg_left hu hb.le
  have h7 := mul_le_mul_of_nonneg_left hw ha.le
  have h8 : (a + b) * (2 * |v|) ≤ (a + b) * M := by linarith
  have := le_of_mul_le_mul_left h8 (by linarith)
  linarith

/-- The first equation of the condensed not-a-knot system. -/
theorem edge_shrinks {a b v w M : ℝ} (ha : 0 < a) (hb : 0 < b) (h : (a + b) * v + a * w = 0) (hw : |w| ≤ M) :
    |v| ≤ a / (a + b) * M := by
  have h3 : (a + b) * v = -(a * w) := by linarith
  have h4 : (a + b) * |v| = a * |w| := by
    have : |(a + b) * v| = |a * w| := by rw [h3, abs_neg]
    rwa [abs_mul, abs_mul, abs_of_pos ha, abs_of_pos (by linarith : 0 < a + b)] at this
  have h6 := mul_le_mul_of_nonneg_left hw ha.le
  rw [div_mul_eq_mul_div, le_div_iff₀ (by linarith)]
  linarith

/-! ## The systems by rows -/

/-- Left-hand side of the inner equation at knot `k`. -/
noncomputable def innerRow (x d : Nat → ℝ) (k : Nat) : ℝ :=
  (x (k + 1) - x k) * d (k - 1) + 2 * ((x k - x (k - 1)) + (x (k + 1) - x k)) * d k + (x k - x (k - 1)) * d (k + 1)

/-- Its right-hand side. -/
noncomputable def innerRhs (x y : Nat → ℝ) (k : Nat) : ℝ :=
  3 * ((x (k + 1) - x k) * ((y k - y (k - 1)) / (x k - x (k - 1))) + (x k - x (k - 1)) * ((y (k + 1) - y k) / (x (k + 1) - x k)))

theorem innerEqs_iff {n : Nat} (x y d : Nat → ℝ) :
    InnerEqs n x y d ↔ ∀ k, 0 < k → k + 1 < n → innerRow x d k = innerRhs x y k := by
  constructor
  · intro h k h0 hk
    obtain ⟨l, rfl⟩ : ∃ l, k = l + 1 := ⟨k - 1, by omega⟩
    exact h l (by omega)
  · intro h k hk
    exact h (k + 1) (by omega) (by omega)

theorem innerRow_linear (x d e : Nat → ℝ) (a : ℝ) (k : Nat) :
    innerRow x (fun i => d i + a * e i) k = innerRow x d k + a * innerRow x e k := by
  unfold innerRow; ring

/-- The systems with two end rows, given as linear forms. -/
noncomputable def endRow (n : Nat) (x : Nat → ℝ) (A B : (Nat → ℝ) → ℝ) (d : Nat → ℝ) (k : Nat) : ℝ :=
  if k = 0 then A d else if k = n - 1 then B d else innerRow x d k

theorem endRow_linear {n : Nat} {x : Nat → ℝ} {A B : (Nat → ℝ) → ℝ} (hA : ∀ d e a, A (fun i => d i + a * e i) = A d + a * A e)
    (hB : ∀ d e a, B (fun i => d i + a * e i) = B d + a * B e) (d e : Nat → ℝ) (a : ℝ) (k : Nat) :
    endRow n x A B (fun i => d i + a * e i) k = endRow n x A B d k + a * endRow n x A B e k := by
  unfold endRow
  split_ifs
  · exact hA _ _ _
  · exact hB _ _ _
  · exact innerRow_linear _ _ _ _ _

/-- Existence for a system with two end rows. -/
theorem ends_exist {n : Nat} (hn : 2 ≤ n) {x : Nat → ℝ} (y : Nat → ℝ) {A B : (Nat → ℝ) → ℝ}
    (hA : ∀ d e a, A (fun i => d i + a * e i) = A d + a * A e) (hB : ∀ d e a, B (fun i => d i + a * e i) = B d + a * B e)
    (ker : ∀ e, A e = 0 → B e = 0 → (∀ k, 0 < k → k + 1 < n → innerRow x e k = 0) → ∀ k, k < n → e k = 0) (p q : ℝ) :
    ∃ d, A d = p ∧ B d = q ∧ InnerEqs n x y d := by
  obtain ⟨d, hd⟩ := rows_exist (n := n) (endRow n x A B) (endRow_linear hA hB) (by
    intro e he
    refine ker e ?_ ?_ ?_
    · simpa [endRow] using he 0 (by omega)
    · have e1 : n - 1 ≠ 0 := by omega
      simpa [endRow, e1] using he (n - 1) (by omega)
    · intro k h0 hk
      have e1 : k ≠ 0 := by omega
      have e2 : k ≠ n - 1 := by omega
      simpa [endRow, e1, e2] using he k (by omega)) (fun k => if k = 0 then p else if k = n - 1 then q else innerRhs x y k)
  refine ⟨d, ?_, ?_, ?_⟩
  · simpa [endRow] using hd 0 (by omega)
  · have e1 : n - 1 ≠ 0 := by omega
    simpa [endRow, e1] using hd (n - 1) (by omega)
  · rw [innerEqs_iff]
    intro k h0 hk
    have e1 : k ≠ 0 := by omega
    have e2 : k ≠ n - 1 := by omega
    simpa [endRow, e1, e2] using hd k (by omega)

/-- Uniqueness for a system with two end rows. -/
theorem ends_unique {n : Nat} {x y : Nat → ℝ} {A B : (Nat → ℝ) → ℝ}
    (hA : ∀ d e a, A (fun i => d i + a * e i) = A d + a * A e) (hB : ∀ d e a, B (fun i => d i + a * e i) = B d + a * B e)
    (ker : ∀ e, A e = 0 → B e = 0 → (∀ k, 0 < k → k + 1 < n → innerRow x e k = 0) → ∀ k, k < n → e k = 0) {d d' : Nat → ℝ}
    (h1 : A d = A d') (h2 : B d = B d') (h : InnerEqs n x y d) (h' : InnerEqs n x y d') : ∀ k, k < n → d k = d' k := by
  rw [innerEqs_iff] at h h'
  have := ker (fun i => d i + (-1) * d' i) (by rw [hA, h1]; ring) (by rw [hB, h2]; ring) (by
    intro k h0 hk
    rw [innerRow_linear, h k h0 hk, h' k h0 hk]; ring)
  intro k hk
  have := this k hk
  linarith

section
variable {n : Nat} (hn : 2 ≤ n) {x : Nat → ℝ} (hx : ∀ i, i + 1 < n → x i < x (i + 1))
include hn hx

theorem clamped_ker (e : Nat → ℝ) (h1 : e 0 = 0) (h2 : e (n - 1) = 0) (h : ∀ k, 0 < k → k + 1 < n → innerRow x e k = 0) :
    ∀ k, k < n → e k = 0 := by
  have := contract_zero (Finset.range n) e (by
    intro k hk M hM
    rw [Finset.mem_range] at hk
    have hM0 : 0 ≤ M := (abs_nonneg _).trans (hM k (Finset.mem_range.2 hk))
    by_cases k0 : k = 0
    · exact ⟨0, by norm_num, by rw [k0, h1]; simp⟩
    by_cases k1 : k = n - 1
    · exact ⟨0, by norm_num, by rw [k1, h2]; simp⟩
    refine ⟨1 / 2, by norm_num, ?_⟩
    have e1 : k - 1 + 1 = k := by omega
    have p1 := hx (k - 1) (by omega)
    rw [e1] at p1
    have p2 := hx k (by omega)
    exact inner_halves (by linarith) (by linarith) (h k (by omega) (by omega)) (hM _ (Finset.mem_range.2 (by omega)))
      (hM _ (Finset.mem_range.2 (by omega))))
  intro k hk
  exact this k (Finset.mem_range.2 hk)

theorem clamped_exists (y : Nat → ℝ) : ∃ d, ClampedSystem n x y d := by
  obtain ⟨d, h1, h2, h3⟩ := ends_exist hn (x := x) y (A := fun d => d 0) (B := fun d => d (n - 1)) (fun _ _ _ => rfl) (fun _ _ _ => rfl)
    (fun e => clamped_ker hn hx e) 0 0
  exact ⟨d, h3, h1, h2⟩

theorem periodic_ker (e : Nat → ℝ) (h1 : (x 1 - x 0) * e (n - 2) + 2 * ((x (n - 1) - x (n - 2)) + (x 1 - x 0)) * e 0 +
    (x (n - 1) - x (n - 2)) * e 1 = 0) (h2 : e (n - 1) - e 0 = 0) (h : ∀ k, 0 < k → k + 1 < n → innerRow x e k = 0) :
    ∀ k, k < n → e k = 0 := by
  have p0 : x 0 < x 1 := hx 0 (by omega)
  have e9 : n - 2 + 1 = n - 1 := by omega
  have p9 := hx (n - 2) (by omega)
  rw [e9] at p9
  have := contract_zero (Finset.range n) e (by
    intro k hk M hM
    rw [Finset.mem_range] at hk
    refine ⟨1 / 2, by norm_num, ?_⟩
    have hend : |e 0| ≤ 1 / 2 * M := inner_halves (by linarith) (by linarith) h1 (hM _ (Finset.mem_range.2 (by omega)))
        (hM _ (Finset.mem_range.2 (by omega)))
    by_cases k0 : k = 0
    · rw [k0]; exact hend
    by_cases k1 : k = n - 1
    · rw [k1, show e (n - 1) = e 0 by linarith]; exact hend
    have e1 : k - 1 + 1 = k := by omega
    have p1 := hx (k - 1) (by omega)
    rw [e1] at p1
    have p2 := hx k (by omega)
    exact inner_halves (by linarith) (by linarith) (h k (by omega) (by omega)) (hM _ (Finset.mem_range.2 (by omega)))
      (hM _ (Finset.mem_range.2 (by omega))))
  intro k hk
  exact this k (Finset.mem_range.2 hk)

theorem periodic_exists (y : Nat → ℝ) : ∃ d, PeriodicSystem n x y d := by
  obtain ⟨d, h1, h2, h3⟩ := ends_exist hn (x := x) y
    (A := fun e => (x 1 - x 0) * e (n - 2) + 2 * ((x (n - 1) - x (n - 2)) + (x 1 - x 0)) * e 0 + (x (n - 1) - x (n - 2)) * e 1)
    (B := fun e => e (n - 1) - e 0) (fun _ _ _ => by ring) (fun _ _ _ => by ring)
    (fun e => periodic_ker hn hx e) (3 * ((x 1 - x 0) * ((y (n - 1) - y (n - 2)) / (x (n - 1) - x (n - 2))) +
      (x (n - 1) - x (n - 2)) * ((y 1 - y 0) / (x 1 - x 0)))) 0
  exact ⟨d, by linarith, h3, h1⟩

omit hn in
theorem knot_ker (hn4 : 4 ≤ n) (e : Nat → ℝ) (h1 : (x 2 - x 1) * e 0 + (x 2 - x 0) * e 1 = 0)
    (h2 : (x (n - 1) - x (n - 3)) * e (n - 2) + (x (n - 2) - x (n - 3)) * e (n - 1) = 0)
    (h : ∀ k, 0 < k → k + 1 < n → innerRow x e k = 0) : ∀ k, k < n → e k = 0 := by
  have p0 : x 0 < x 1 := hx 0 (by omega)
  have p1 : x 1 < x 2 := hx 1 (by omega)
  have e9 : n - 2 + 1 = n - 1 := by omega
  have e8 : n - 3 + 1 = n - 2 := by omega
  have p9 := hx (n - 2) (by omega)
  have p8 := hx (n - 3) (by omega)
  rw [e9] at p9
  rw [e8] at p8
  have r1 := h 1 (by omega) (by omega)
  have r2 := h (n - 2) (by omega) (by omega)
  unfold innerRow at r1 r2
  rw [e9, show n - 2 - 1 = n - 3 by omega] at r2
  norm_num at r1
  have mid := contract_zero (Finset.Ioo 0 (n - 1)) e (by
    intro k hk M hM
    rw [Finset.mem_Ioo] at hk
    by_cases k0 : k = 1
    · refine ⟨(x 1 - x 0) / ((x 1 - x 0) + (x 2 - x 1)), by rw [div_lt_one (by linarith)]; linarith, ?_⟩
      rw [k0]
      exact edge_shrinks (by linarith) (by linarith) (w := e 2) (by linarith) (hM _ (Finset.mem_Ioo.2 (by omega)))
    by_cases k1 : k = n - 2
    · refine ⟨(x (n - 1) - x (n - 2)) / ((x (n - 1) - x (n - 2)) + (x (n - 2) - x (n - 3))),
        by rw [div_lt_one (by linarith)]; linarith, ?_⟩
      rw [k1]
      exact edge_shrinks (by linarith) (by linarith) (w := e (n - 3)) (by linarith) (hM _ (Finset.mem_Ioo.2 (by omega)))
    refine ⟨1 / 2, by norm_num, ?_⟩
    have e1 : k - 1 + 1 = k := by omega
    have p1 := hx (k - 1) (by omega)
    rw [e1] at p1
    have p2 := hx k (by omega)
    exact inner_halves (by linarith) (by linarith) (h k (by omega) (by omega)) (hM _ (Finset.mem_Ioo.2 (by omega)))
      (hM _ (Finset.mem_Ioo.2 (by omega))))
  intro k hk
  by_cases k0 : k = 0
  · rw [mid 1 (Finset.mem_Ioo.2 (by omega)), mul_zero, add_zero] at h1
    rw [k0]
    exact (mul_eq_zero.1 h1).resolve_left (by linarith)
  by_cases k1 : k = n - 1
  · rw [mid (n - 2) (Finset.mem_Ioo.2 (by omega)), mul_zero, zero_add] at h2
    rw [k1]
    exact (mul_eq_zero.1 h2).resolve_left (by linarith)
  exact mid k (Finset.mem_Ioo.2 (by omega))

omit hn in
theorem knot3_ker (hn3 : n = 3) (e : Nat → ℝ) (h1 : e 0 + e 1 = 0) (h2 : e 1 + e 2 = 0)
    (h : ∀ k, 0 < k → k + 1 < n → innerRow x e k = 0) : ∀ k, k < n → e k = 0 := by
  subst hn3
  have p0 : x 0 < x 1 := hx 0 (by omega)
  have p1 : x 1 < x 2 := hx 1 (by omega)
  have r1 := h 1 (by omega) (by omega)
  unfold innerRow at r1
  norm_num at r1
  have : e 1 = 0 := by
    have : (x 2 - x 0) * e 1 = 0 := by nlinarith
    exact (mul_eq_zero.1 this).resolve_left (by linarith)
  intro k hk
  interval_cases k <;> linarith

theorem knot_exists (y : Nat → ℝ) : ∃ d, KnotSystem n x y d := by
  by_cases n2 : n = 2
  · refine ⟨fun _ => (y 1 - y 0) / (x 1 - x 0), fun _ => ⟨rfl, rfl⟩, fun h => by omega, ?_, fun h => by omega, fun h => by omega⟩
    intro k hk; omega
  by_cases n3 : n = 3
  · obtain ⟨d, h1, h2, h3⟩ := ends_exist hn (x := x) y (A := fun e => e 0 + e 1) (B := fun e => e 1 + e 2) (fun _ _ _ => by ring)
      (fun _ _ _ => by ring) (fun e => knot3_ker hx n3 e) (2 * ((y 1 - y 0) / (x 1 - x 0))) (2 * ((y 2 - y 1) / (x 2 - x 1)))
    exact ⟨d, fun h => by omega, fun _ => ⟨h1, h2⟩, h3, fun h => by omega, fun h => by omega⟩
  · obtain ⟨d, h1, h2, h3⟩ := ends_exist hn (x := x) y (A := fun e => (x 2 - x 1) * e 0 + (x 2 - x 0) * e 1)
      (B := fun e => (x (n - 1) - x (n - 3)) * e (n - 2) + (x (n - 2) - x (n - 3)) * e (n - 1)) (fun _ _ _ => by ring)
      (fun _ _ _ => by ring) (fun e => knot_ker hx (by omega) e) _ _
    exact ⟨d, fun h => by omega, fun h => by omega, h3, fun _ => h1, fun _ => h2⟩

theorem knot_unique {y d d' : Nat → ℝ} (h : KnotSystem n x y d) (h' : KnotSystem n x y d') : ∀ k, k < n → d k = d' k := by
  by_cases n2 : n = 2
  · intro k hk
    obtain ⟨a, b⟩ := h.two n2
    obtain ⟨a', b'⟩ := h'.two n2
    subst n2
    interval_cases k
    · rw [a, a']
    · rw [b, b']
  by_cases n3 : n = 3
  · exact ends_unique (A := fun e => e 0 + e 1) (B := fun e => e 1 + e 2) (fun _ _ _ => by ring) (fun _ _ _ => by ring)
      (fun e => knot3_ker hx n3 e) (by rw [(h.three n3).1, (h'.three n3).1]) (by rw [(h.three n3).2, (h'.three n3).2]) h.inner h'.inner
  · exact ends_unique (A := fun e => (x 2 - x 1) * e 0 + (x 2 - x 0) * e 1)
      (B := fun e => (x (n - 1) - x (n - 3)) * e (n - 2) + (x (n - 2) - x (n - 3)) * e (n - 1)) (fun _ _ _ => by ring)
      (fun _ _ _ => by ring) (fun e => knot_ker hx (by omega) e) (by rw [h.first (by omega), h'.first (by omega)])
      (by rw [h.last (by omega), h'.last (by omega)]) h.inner h'.inner

end

/-- Libraries that meet the contract exist. -/
theorem exists_boundaryOk : ∃ lib : SplineLib, NaturalOk lib ∧ BoundaryOk lib := by
  classical
  let pick : (((Nat → ℝ) → (Nat → ℝ) → (Nat → ℝ) → Prop)) → List ℝ → NMat → NMat := fun S xs y => ⟨y.m, y.k, fun i j =>
    if h : ∃ d, S (fun i => xs.getD i 0) (fun i => y.v i j) d then h.choose i else 0⟩
  have hpick : ∀ (S : (Nat → ℝ) → (Nat → ℝ) → (Nat → ℝ) → Prop) (xs : List ℝ) (y : NMat) (j : Nat), (∃ d, S (fun i => xs.getD i 0) (fun i => y.v i j) d) →
      S (fun i => xs.getD i 0) (fun i => y.v i j) (fun i => (pick S xs y).v i j) := by
    intro S xs y j h
    have := h.choose_spec
    simp only [pick, dif_pos h]
    exact this
  refine ⟨⟨fun _ y => y, fun bc xs y => .ok (pick (fun x y d => if bc = "natural" then NaturalSystem xs.length x y d else
    if bc = "clamped" then ClampedSystem xs.length x y d else if bc = "not-a-knot" then KnotSystem xs.length x y d else
    PeriodicSystem xs.length x y d) xs y),
    fun _ _ _ _ _ _ => .error .valueError, fun _ _ _ _ => .error .valueError, fun _ _ _ _ => .error .valueError⟩, ?_, ?_, ?_, ?_⟩
  · intro xs y hk
    obtain ⟨h1, h2, h3⟩ := knotsOk_iff.1 hk
    refine ⟨_, rfl, ?_⟩
    intro j hj
    simp only [if_true]
    exact hpick (fun x y d => NaturalSystem xs.length x y d) xs y j (natural_exists h1 (fun i hi => knot_lt h3 (show i < i + 1 by omega) hi) _)
  · intro xs y hk
    obtain ⟨h1, h2, h3⟩ := knotsOk_iff.1 hk
    refine ⟨_, rfl, ?_⟩
    intro j hj
    simp only [show ¬ ("clamped" = "natural") by decide, if_true, if_false]
    exact hpick (fun x y d => ClampedSystem xs.length x y d) xs y j (clamped_exists h1 (fun i hi => knot_lt h3 (show i < i + 1 by omega) hi) _)
  · intro xs y hk
    obtain ⟨h1, h2, h3⟩ := knotsOk_iff.1 hk
    refine ⟨_, rfl, ?_⟩
    intro j hj
    simp only [show ¬ ("not-a-knot" = "natural") by decide, show ¬ ("not-a-knot" = "clamped") by decide, if_true, if_false]
    exact hpick (fun x y d => KnotSystem xs.length x y d) xs y j (knot_exists h1 (fun i hi => knot_lt h3 (show i < i + 1 by omega) hi) _)
  · intro xs y hk _
    obtain ⟨h1, h2, h3⟩ := knotsOk_iff.1 hk
    refine ⟨_, rfl, ?_⟩
    intro j hj
    simp only [show ¬ ("periodic" = "natural") by decide, show ¬ ("periodic" = "clamped") by decide,
      show ¬ ("periodic" = "not-a-knot") by decide, if_false]
    exact hpick (fun x y d => PeriodicSystem xs.length x y d) xs y j (periodic_exists h1 (fun i hi => knot_lt h3 (show i < i + 1 by omega) hi) _)

end Verif.Model
