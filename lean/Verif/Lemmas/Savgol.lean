import Verif.Spec.Savgol
import Verif.Lemmas.Smooth
import Mathlib.LinearAlgebra.Vandermonde
import Mathlib.LinearAlgebra.Matrix.NonsingularInverse
import Mathlib.Algebra.Polynomial.Taylor
import Mathlib.Algebra.Polynomial.HasseDeriv
import Mathlib.Algebra.Polynomial.Roots
import Mathlib.RingTheory.Polynomial.DegreeLT
import Mathlib.Analysis.InnerProductSpace.Projection.Minimal
import Mathlib.Analysis.InnerProductSpace.PiL2
import Mathlib.Topology.Algebra.Module.FiniteDimension

/-! Savitzky-Golay coefficients satisfy the moment conditions; fitted polynomials reproduce polynomial data. -/
namespace Verif.Model

open Verif Verif.Np Verif.Spec

/-- An entry of the convolution all of whose data lies inside the curve, for any boundary mode. -/
theorem conv_inside (rows : List (List ℝ)) (m : ExtMode) (cval : Val ℝ) (ws : List ℝ) (i : Nat) (j : Nat)
    (hlo : ws.length ≤ i + ws.length / 2 + 1) (hhi : i + ws.length / 2 < rows.length) :
    sumV ((List.range (fins ws).length).map fun (k : Nat) =>
      ((fins ws).getD k (.fin 0)).mul (extAt (rows.map fins) m cval ((i : Int) + (((fins ws).length / 2 : Nat) : Int) - (k : Int)) j)) =
    .fin (∑ k ∈ Finset.range ws.length, ws.getD k 0 * at2 rows (i + ws.length / 2 - k) j) := by
  have hlen : (fins ws).length = ws.length := by simp [fins]
  rw [hlen, ← list_sum_range, ← sumV_fins]
  congr 1
  unfold fins
  rw [List.map_map]
  apply List.map_congr_left
  intro k hk
  rw [List.mem_range] at hk
  have h1 : (List.map Val.fin ws).getD k (Val.fin 0) = .fin (ws.getD k 0) := by
    simp only [List.getD_eq_getElem?_getD, List.getElem?_map]
    cases ws[k]? <;> simp
  have h2 : extAt (rows.map fins) m cval ((i : Int) + ((ws.length / 2 : Nat) : Int) - (k : Int)) j =
      .fin (at2 rows (i + ws.length / 2 - k) j) := by
    unfold extAt extIndex
    rw [List.length_map, if_pos (by omega)]
    have : ((i : Int) + ((ws.length / 2 : Nat) : Int) - (k : Int)).toNat = i + ws.length / 2 - k := by omega
    rw [this]
    exact getD_map_fins rows _ j
  simp only [Function.comp]
  rw [h1]
  unfold fins at h2
  rw [h2, Val.mul_fin]

/-- The moment equations have a solution: a Vandermonde system. -/
theorem moments_solvable (s : ℝ) (po wl : Nat) (h : po < wl) (y : Nat → ℝ) :
    ∃ c : List ℝ, c.length = wl ∧ ∀ m, m ≤ po → ∑ k ∈ Finset.range wl, (s - k) ^ m * c.getD k 0 = y m := by
  obtain ⟨v, hv⟩ : ∃ v : Fin (po + 1) → ℝ, v = fun k : Fin (po + 1) => s - ((k : Nat) : ℝ) := ⟨_, rfl⟩
  have hinj : Function.Injective v := by
    intro a b hab
    rw [hv] at hab
    have : ((a : Nat) : ℝ) = ((b : Nat) : ℝ) := by simpa using hab
    exact Fin.ext (by exact_mod_cast this)
  have hdet : (Matrix.vandermonde v).transpose.det ≠ 0 := by
    rw [Matrix.det_transpose]; exact Matrix.det_vandermonde_ne_zero_iff.2 hinj
  obtain ⟨c, hc⟩ : ∃ c : Fin (po + 1) → ℝ, (Matrix.vandermonde v).transpose.mulVec c = fun m : Fin (po + 1) => y m := by
    refine ⟨(Matrix.vandermonde v).transpose⁻¹.mulVec fun m : Fin (po + 1) => y m, ?_⟩
    rw [Matrix.mulVec_mulVec, Matrix.mul_nonsing_inv _ (isUnit_iff_ne_zero.2 hdet), Matrix.one_mulVec]
  refine ⟨(List.range wl).map fun k => if hk : k < po + 1 then c ⟨k, hk⟩ else 0, by simp, ?_⟩
  intro m hm
  have e := congrFun hc ⟨m, by omega⟩
  simp only [Matrix.mulVec, dotProduct, Matrix.transpose_apply, Matrix.vandermonde_apply] at e
  rw [← e, Finset.sum_fin_eq_sum_range]
  rw [← Finset.sum_subset (Finset.range_subset_range.2 (show po + 1 ≤ wl by omega))]
  · apply Finset.sum_congr rfl
    intro k hk
    rw [Finset.mem_range] at hk
    simp [hk, hv, List.getD_eq_getElem?_getD, show k < wl by omega, show k ≤ po by omega]
  · intro k hk hk2
    simp only [Finset.mem_range] at hk hk2
    simp [hk, List.getD_eq_getElem?_getD]
    intro h; omega

/-- The least squares solution solves the moment equations exactly. -/
theorem lstsq_moments {lib : LsqLib} (hl : LsqOk lib) (s : ℝ) (po wl : Nat) (h : po < wl) (y : Nat → ℝ) :
    ∃ c, lib.lstsq ((List.range (po + 1)).map fun m => (List.range wl).map fun (k : Nat) => (s - k) ^ m)
        ((List.range (po + 1)).map y) = c ∧ c.length = wl ∧
      ∀ m, m ≤ po → ∑ k ∈ Finset.range wl, c.getD k 0 * (s - k) ^ m = y m := by
  obtain ⟨A, hA⟩ : ∃ A, A = (List.range (po + 1)).map fun m => (List.range wl).map fun (k : Nat) => (s - k) ^ m := ⟨_, rfl⟩
  obtain ⟨Y, hY⟩ : ∃ Y, Y = (List.range (po + 1)).map y := ⟨_, rfl⟩
  rw [← hA, ← hY]
  have hne : A ≠ [] := by rw [hA]; simp [List.range_succ]
  have hr : ∀ r ∈ A, r.length = wl := by
    intro r hr; rw [hA] at hr; obtain ⟨m, _, rfl⟩ := List.mem_map.1 hr; simp
  have hAY : A.length = Y.length := by rw [hA, hY]; simp
  have hYl : Y.length = po + 1 := by rw [hY]; simp
  have hlen := hl.lstsq_len A Y wl hne hr hAY
  refine ⟨_, rfl, hlen, ?_⟩
  obtain ⟨c0, h0, h1⟩ := moments_solvable s po wl h y
  have hAe : ∀ i k, i < po + 1 → k < wl → at2 A i k = (s - k) ^ i := by
    intro i k hi hk
    rw [hA]
    exact at2_range (fun i k => (s - (k : Nat)) ^ i) (po + 1) wl hi hk
  have hYe : ∀ i, i < po + 1 → Y.getD i 0 = y i := by
    intro i hi
    rw [hY]
    simp [List.getD_eq_getElem?_getD, hi]
  have hres0 : resid A Y c0 = 0 := by
    unfold resid
    apply Finset.sum_eq_zero
    intro i hi
    rw [hYl, Finset.mem_range] at hi
    rw [hYe i hi, ← h1 i (by omega), h0]
    have : ∀ k ∈ Finset.range wl, at2 A i k * c0.getD k 0 = (s - k) ^ i * c0.getD k 0 := by
      intro k hk; rw [hAe i k hi (Finset.mem_range.1 hk)]
    rw [Finset.sum_congr rfl this]
    ring
  have hres := hl.lstsq_min A Y wl hne hr hAY c0 h0
  rw [hres0] at hres
  intro m hm
  have hz : resid A Y (lib.lstsq A Y) = 0 := le_antisymm hres (Finset.sum_nonneg fun _ _ => sq_nonneg _)
  unfold resid at hz
  have := (Finset.sum_eq_zero_iff_of_nonneg fun _ _ => sq_nonneg _).1 hz m (Finset.mem_range.2 (by omega))
  have := pow_eq_zero_iff (two_ne_zero) |>.1 this
  rw [hYe m (by omega), sub_eq_zero, hlen] at this
  rw [← this]
  apply Finset.sum_congr rfl
  intro k hk
  rw [hAe m k (by omega) (Finset.mem_range.1 hk), mul_comm]

/-- The filter applied to a polynomial: the derivative in the middle of the window. -/
theorem moments_poly (s a : ℝ) (d po wl : Nat) (delta : ℝ) (c : List ℝ)
    (hm : ∀ m, m ≤ po → ∑ k ∈ Finset.range wl, c.getD k 0 * (s - k) ^ m = if m = d then (d.factorial : ℝ) / delta ^ d else 0)
    (hd : d ≤ po) (q : Polynomial ℝ) (hq : q.natDegree ≤ po) :
    ∑ k ∈ Finset.range wl, c.getD k 0 * q.eval (a + (s - k)) = ((Polynomial.derivative^[d]) q).eval a / delta ^ d := by
  have h1 : ∀ x, q.eval (a + x) = ∑ m ∈ Finset.range (po + 1), (Polynomial.taylor a q).coeff m * x ^ m := by
    intro x
    rw [add_comm, ← Polynomial.taylor_eval, Polynomial.eval_eq_sum_range' (n := po + 1) (by rw [Polynomial.natDegree_taylor]; omega)]
  simp only [h1, Finset.mul_sum]
  rw [Finset.sum_comm]
  have h2 : ∀ m ∈ Finset.range (po + 1), ∑ k ∈ Finset.range wl, c.getD k 0 * ((Polynomial.taylor a q).coeff m * (s - k) ^ m) =
      if m = d then (Polynomial.taylor a q).coeff m * ((d.factorial : ℝ) / delta ^ d) else 0 := by
    intro m hmem
    rw [Finset.mem_range] at hmem
    have := hm m (by omega)
    have e : ∀ k ∈ Finset.range wl, c.getD k 0 * ((Polynomial.taylor a q).coeff m * (s - k) ^ m) =
        (Polynomial.taylor a q).coeff m * (c.getD k 0 * (s - k) ^ m) := by intro k _; ring
    rw [Finset.sum_congr rfl e, ← Finset.mul_sum, this]
    split_ifs <;> simp
  rw [Finset.sum_congr rfl h2, Finset.sum_ite_eq' , if_pos (Finset.mem_range.2 (by omega)), Polynomial.taylor_coeff]
  have h3 : (Polynomial.derivative^[d]) q = (d.factorial : ℕ) • Polynomial.hasseDeriv d q := by
    rw [← Polynomial.factorial_smul_hasseDeriv]; rfl
  rw [h3, Polynomial.eval_smul]
  simp only [nsmul_eq_mul]
  ring

/-- A fit to the values of a polynomial of admissible degree finds this polynomial. -/
theorem polyfit_exact {lib : LsqLib} (hl : LsqOk lib) (q : Polynomial ℝ) (ys : List ℝ) (d : Nat) (hd : d < ys.length)
    (hq : q.natDegree ≤ d) (hy : ∀ k, k < ys.length → ys.getD k 0 = q.eval (k : ℝ)) : lib.polyfit (fins ys) d = .ok q := by
  obtain ⟨P, h1, h2, h3⟩ := hl.polyfit_min ys d hd
  have h4 := h3 q hq
  have h5 : polyErr ys q = 0 := by
    unfold polyErr
    apply Finset.sum_eq_zero
    intro k hk
    rw [hy k (Finset.mem_range.1 hk)]; ring
  rw [h5] at h4
  have h6 : polyErr ys P = 0 := le_antisymm h4 (Finset.sum_nonneg fun _ _ => sq_nonneg _)
  unfold polyErr at h6
  rw [h1]
  congr 1
  refine Polynomial.eq_of_natDegree_lt_card_of_eval_eq P q (ι := Fin ys.length) (f := fun k => ((k : Nat) : ℝ)) ?_ ?_ ?_
  · intro a b hab
    have hab' : ((a : Nat) : ℝ) = ((b : Nat) : ℝ) := hab
    exact Fin.ext (by exact_mod_cast hab')
  · intro k
    have := (Finset.sum_eq_zero_iff_of_nonneg fun _ _ => sq_nonneg _).1 h6 k (Finset.mem_range.2 k.2)
    have := pow_eq_zero_iff (two_ne_zero) |>.1 this
    rw [hy k k.2, sub_eq_zero] at this
    exact this
  · rw [Fintype.card_fin]; omega

/-! ### Least squares solutions exist, so the assumptions can be met -/

theorem exists_closest {V : Type} [AddCommGroup V] [Module ℝ V] {N : Nat} (f : V →ₗ[ℝ] EuclideanSpace ℝ (Fin N))
    (y : EuclideanSpace ℝ (Fin N)) : ∃ v, ∀ w, ‖y - f v‖ ≤ ‖y - f w‖ := by
  have hc : IsComplete ((LinearMap.range f : Submodule ℝ _) : Set (EuclideanSpace ℝ (Fin N))) :=
    (Submodule.closed_of_finiteDimensional _).isComplete
  obtain ⟨x, ⟨v, rfl⟩, hx⟩ := Submodule.exists_norm_eq_iInf_of_complete_subspace (LinearMap.range f) hc y
  refine ⟨v, fun w => ?_⟩
  rw [hx]
  have hb : BddBelow (Set.range fun z : ((LinearMap.range f : Submodule ℝ _) : Set (EuclideanSpace ℝ (Fin N))) => ‖y - z‖) :=
    ⟨0, by rintro _ ⟨_, rfl⟩; exact norm_nonneg _⟩
  have hw : f w ∈ ((LinearMap.range f : Submodule ℝ _) : Set (EuclideanSpace ℝ (Fin N))) := ⟨w, rfl⟩
  exact ciInf_le hb ⟨f w, hw⟩

theorem exists_lstsq (A : List (List ℝ)) (y : List ℝ) (L : Nat) :
    ∃ c : List ℝ, c.length = L ∧ ∀ c' : List ℝ, c'.length = L → resid A y c ≤ resid A y c' := by
  obtain ⟨f, hf⟩ : ∃ f : (Fin L → ℝ) →ₗ[ℝ] EuclideanSpace ℝ (Fin y.length),
      ∀ c i, f c i = ∑ k : Fin L, at2 A i k * c k := by
    refine ⟨{ toFun := fun c => WithLp.toLp 2 fun i => ∑ k : Fin L, at2 A i k * c k, map_add' := ?_, map_smul' := ?_ }, fun _ _ => rfl⟩
    · intro a b
      ext i
      simp [mul_add, Finset.sum_add_distrib]
    · intro r a
      ext i
      simp only [Pi.smul_apply, smul_eq_mul, RingHom.id_apply, PiLp.smul_apply, Finset.mul_sum]
      exact Finset.sum_congr rfl fun k _ => by ring
  obtain ⟨v, hv⟩ := exists_closest f (WithLp.toLp 2 fun i => y.getD i 0)
  have key : ∀ c : List ℝ, c.length = L → resid A y c = ‖(WithLp.toLp 2 fun i : Fin y.length => y.getD i 0) - f (fun k => c.getD k 0)‖ ^ 2 := by
    intro c hc
    rw [EuclideanSpace.norm_sq_eq]
    unfold resid
    rw [Finset.sum_range]
    refine Finset.sum_congr rfl fun i _ => ?_
    rw [hc, Finset.sum_range]
    simp only [PiLp.sub_apply, hf, Real.norm_eq_abs, sq_abs]
    ring
  refine ⟨List.ofFn v, by simp, ?_⟩
  intro c' hc'
  rw [key _ (by simp), key _ hc']
  have e : (fun k : Fin L => (List.ofFn v).getD k 0) = v := by funext k; simp [List.getD_eq_getElem?_getD]
  rw [e]
  exact pow_le_pow_left₀ (norm_nonneg _) (hv _) 2

theorem exists_polyfit (ys : List ℝ) (d : Nat) : ∃ P : Polynomial ℝ, P.natDegree ≤ d ∧
    ∀ Q : Polynomial ℝ, Q.natDegree ≤ d → polyErr ys P ≤ polyErr ys Q := by
  obtain ⟨f, hf⟩ : ∃ f : Polynomial.degreeLT ℝ (d + 1) →ₗ[ℝ] EuclideanSpace ℝ (Fin ys.length),
      ∀ c i, f c i = (c : Polynomial ℝ).eval ((i : Nat) : ℝ) := by
    refine ⟨{ toFun := fun c => WithLp.toLp 2 fun i => (c : Polynomial ℝ).eval ((i : Nat) : ℝ), map_add' := ?_, map_smul' := ?_ }, fun _ _ => rfl⟩
    · intro a b
      ext i
      simp
    · intro r a
      ext i
      simp
  obtain ⟨v, hv⟩ := exists_closest f (WithLp.toLp 2 fun i => ys.getD i 0)
  have key : ∀ c : Polynomial.degreeLT ℝ (d + 1), polyErr ys c = ‖(WithLp.toLp 2 fun i : Fin ys.length => ys.getD i 0) - f c‖ ^ 2 := by
    intro c
    rw [EuclideanSpace.norm_sq_eq]
    unfold polyErr
    rw [Finset.sum_range]
    refine Finset.sum_congr rfl fun i _ => ?_
    simp only [PiLp.sub_apply, hf, Real.norm_eq_abs, sq_abs]
    ring
  have hdeg : ∀ Q : Polynomial ℝ, Q.natDegree ≤ d ↔ Q ∈ Polynomial.degreeLT ℝ (d + 1) := by
    intro Q
    rw [Polynomial.mem_degreeLT, Polynomial.natDegree_le_iff_degree_le]
    by_cases h : Q = 0
    · simp [h]
    · rw [Polynomial.degree_eq_natDegree h]
      norm_cast
      omega
  refine ⟨v, (hdeg _).2 v.2, ?_⟩
  intro Q hQ
  have := key ⟨Q, (hdeg Q).1 hQ⟩
  simp only at this
  rw [key v, this]
  exact pow_le_pow_left₀ (norm_nonneg _) (hv _) 2

theorem exists_LsqLib (b : Bool) : ∃ lib, LsqOk lib ∧ lib.evenOk = b := by
  classical
  refine ⟨⟨fun A y => (exists_lstsq A y (A.headD []).length).choose,
    fun vs d => if h : ∃ ys, vs = fins ys then .ok (exists_polyfit h.choose d).choose else .error .linAlgError, b⟩, ⟨?_, ?_, ?_⟩, rfl⟩
  · intro A y L hne hr _
    cases A with
    | nil => exact absurd rfl hne
    | cons r A =>
      rw [(exists_lstsq (r :: A) y _).choose_spec.1]
      exact hr r (by simp)
  · intro A y L hne hr _
    cases A with
    | nil => exact absurd rfl hne
    | cons r A =>
      intro c hc
      refine (exists_lstsq (r :: A) y _).choose_spec.2 c ?_
      rw [hc]; exact (hr r (by simp)).symm
  · intro ys d _
    have h : ∃ zs, fins ys = fins zs := ⟨ys, rfl⟩
    have hz : h.choose = ys := by
      have h2 := h.choose_spec
      unfold fins at h2
      exact (List.map_injective_iff.2 (fun a b hab => by injection hab) h2).symm
    refine ⟨_, dif_pos h, ?_⟩
    have := (exists_polyfit h.choose d).choose_spec
    refine ⟨this.1, ?_⟩
    intro Q hQ
    have := this.2 Q hQ
    rw [hz] at this
    simpa only [hz] using this

end Verif.Model
