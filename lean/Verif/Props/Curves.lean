import Verif.Model.Curves
import Verif.Spec.Curves
import Verif.Lemmas.Interp
import Verif.Props.Construct
import Mathlib.Analysis.SpecialFunctions.Trigonometric.Basic
import Mathlib.MeasureTheory.Integral.IntervalIntegral.Basic

/-!
The well-known curves: C69.
-/
namespace Verif.Props

open Verif Verif.Np Verif.Model Verif.Spec

theorem linspaceE_eq (a b : ℝ) (n : Nat) : linspaceE a b n = .ok (linspaceR a b n) := by
  unfold linspaceE linspaceR
  rw [if_neg (by omega)]
  simp only [Int.toNat_natCast]
  congr 1
  apply List.map_congr_left
  intro i hi
  rw [List.mem_range] at hi
  by_cases hn : 1 < n
  · have hn' : (1 : Int) < (n : Int) := by omega
    have hpos : ((n : ℝ) - 1) ≠ 0 := by
      have : (1 : ℝ) < n := by exact_mod_cast hn
      linarith
    rw [if_pos hn']
    have e : (((n : Int) : ℝ) - 1) = (n : ℝ) - 1 := by push_cast; ring
    rw [e]
    split
    · rename_i h
      have hi' : (i : ℝ) = (n : ℝ) - 1 := by
        have : i + 1 = n := by omega
        rw [← this]; push_cast; ring
      rw [hi']; field_simp; ring
    · ring
  · have h0 : i = 0 := by omega
    subst h0
    rw [if_neg (by intro h; omega)]
    simp

theorem linspaceE_neg (a b : ℝ) {n : Int} (h : n < 0) : linspaceE a b n = .error .valueError := if_pos h

/-- The constructor applied to coordinate vectors and a parameter. -/
theorem coordCurve_eq (xs : List (List ℝ)) (ts : List ℝ) (m : Nat) (hn : 2 ≤ xs.length) (hm : 1 ≤ m)
    (hlen : ∀ x ∈ xs, x.length = m) (ht : ts.length = m) :
    coordCurve xs ts = .ok ⟨(List.range m).map fun j => xs.map fun x => x.getD j 0, xs.length, some ts, .float⟩ := by
  have hx0 : xs.length ≠ 0 := by omega
  have harr : asarray xs = NdArr.ofRows Elem.zero xs m := by
    match xs, hx0 with
    | x :: xs', _ =>
      have hx := hlen x (by simp)
      simp only [asarray]
      rw [if_pos, hx]
      rw [List.all_eq_true]
      intro y hy
      simp [hlen y hy, hx]
  obtain ⟨rows, hrows⟩ : ∃ rows : List (List ℝ), rows = (List.range m).map fun j => xs.map fun x => x.getD j 0 := ⟨_, rfl⟩
  have hrl : ∀ r ∈ rows, r.length = xs.length := by
    intro r hr; simp only [hrows, List.mem_map] at hr; obtain ⟨j, _, rfl⟩ := hr; simp
  have hrn : rows.length = m := by simp [hrows]
  have h1 := ofRows_ok (rows := rows) (n := xs.length) (dt := .float) (t := some ts) hn hrl
    (by intro r _ x _; rfl) (by intro s hs; injection hs with hs; rw [← hs, ht, hrn])
  have hne : rows ≠ [] := by intro e; rw [e] at hrn; simp at hrn; omega
  rw [if_neg hne] at h1
  rw [← hrows, ← h1]
  unfold coordCurve Curve.ofRows Curve.init
  simp only [Option.getD_none, Option.isSome_none]
  rw [harr, as2d_axis1 _ _ _ hlen hx0 (by omega), as2d_ofRows _ _ _ hrl]
  rw [if_neg (Nat.mul_ne_zero (by omega) hx0), hrows]
  rfl

/-- Coordinates computed from the parameter. -/
theorem coordCurve_map (fs : List (ℝ → ℝ)) (a b : ℝ) (n : Nat) (hf : 2 ≤ fs.length) (hn : 1 ≤ n) (P : ℝ → List ℝ → Prop)
    (hP : ∀ t, P t (fs.map fun f => f t)) :
    ∃ c, coordCurve (fs.map fun f => (linspaceR a b n).map f) (linspaceR a b n) = .ok c ∧ Sampled c fs.length n a b P := by
  rw [coordCurve_eq _ _ n (by simpa using hf) hn (by simp [linspaceR_length]) (linspaceR_length a b n)]
  refine ⟨_, rfl, by simp [Curve.size], by simp, rfl, by simp, _, rfl, ?_, ?_, ?_⟩
  · intro h; exact linspaceR_even a b h
  · rintro rfl; simp [linspaceR]
  · intro i t row h1 h2
    have hi : i < n := by
      have := (List.getElem?_eq_some_iff.1 h1).1
      rwa [linspaceR_length] at this
    simp only [List.getElem?_map, List.getElem?_range hi, Option.map_some, Option.some.injEq] at h2
    have e : row = fs.map fun f => f t := by
      rw [← h2, List.map_map]
      apply List.map_congr_left
      intro f _
      simp [List.getD_eq_getElem?_getD, h1]
    rw [e]
    exact hP t

/-- **C69 (count).** A negative `p_count` is a ValueError; `p_count = 0` gives an empty curve. -/
theorem C69_count (a b r c u v w : ℝ) :
    (∀ n : Int, n < 0 → arc a b n r c = .error .valueError ∧ lemniscate a b n c = .error .valueError ∧
      archimedean a b n r c = .error .valueError ∧ helix a b n r c = .error .valueError ∧ euler a b n = .error .valueError ∧
      lissajous a b n r c u v w = .error .valueError ∧ irregularHelix a b u v n = .error .valueError) ∧
    arc a b 0 r c = .ok ⟨[], 2, some [], .float⟩ := by
  constructor
  · intro n hn
    have := fun a b => linspaceE_neg a b hn
    refine ⟨?_, ?_, ?_, ?_, ?_, ?_, ?_⟩ <;> simp [arc, lemniscate, archimedean, helix, euler, lissajous, irregularHelix, this, bind, Except.bind]
  · have h0 : linspaceE a b 0 = .ok [] := by simp [linspaceE]
    simp [arc, h0, bind, Except.bind, coordCurve, Curve.init, asarray, NdArr.ofRows, as2d, NdArr.size, Curve.finish]

/-- **C69 (arc).** `p_count ≥ 1` points on the circle of radius `|r|` around `(c, c)`, at the angle given by the parameter. -/
theorem C69_arc (a b r c : ℝ) (n : Nat) (hn : 1 ≤ n) :
    ∃ C, arc a b n r c = .ok C ∧ Sampled C 2 n a b fun t row => ∃ x y, row = [x, y] ∧ (x - c) ^ 2 + (y - c) ^ 2 = r ^ 2 ∧
      (x - c) * Real.sin t = (y - c) * Real.cos t := by
  unfold arc
  simp only [linspaceE_eq, bind, Except.bind]
  refine coordCurve_map [fun t => Real.cos t * r + c, fun t => Real.sin t * r + c] a b n (by simp) hn _ ?_
  intro t
  refine ⟨_, _, rfl, ?_, by ring⟩
  have := Real.sin_sq_add_cos_sq t
  linear_combination r ^ 2 * this

/-- **C69 (full arc).** An arc over a whole number of turns is closed: its last point is its first one. -/
theorem C69_arc_closed (a r c : ℝ) (k : ℤ) (n : Nat) (hn : 1 ≤ n) :
    ∃ C, arc a (a + k * (2 * Real.pi)) n r c = .ok C ∧ C.rows.head? = C.rows.getLast? := by
  unfold arc
  simp only [linspaceE_eq, bind, Except.bind]
  have h := coordCurve_eq [(linspaceR a (a + k * (2 * Real.pi)) n).map fun t => Real.cos t * r + c,
    (linspaceR a (a + k * (2 * Real.pi)) n).map fun t => Real.sin t * r + c] (linspaceR a (a + k * (2 * Real.pi)) n) n (by simp) hn
    (by simp [linspaceR_length]) (linspaceR_length _ _ _)
  refine ⟨_, h, ?_⟩
  simp only
  rw [List.head?_eq_getElem?, List.getLast?_eq_getElem?]
  simp only [List.length_map, List.length_range, List.getElem?_map]
  rw [List.getElem?_range (by omega), List.getElem?_range (by omega)]
  simp only [Option.map_some, List.map_cons, List.map_nil, List.getD_eq_getElem?_getD, List.getElem?_map]
  rw [linspaceR_get (by omega), linspaceR_get (by omega)]
  rcases Nat.lt_or_ge n 2 with h2 | h2
  · have : n = 1 := by omega
    subst this; simp
  · have hpos : ((n : ℝ) - 1) ≠ 0 := by
      have : (2 : ℝ) ≤ n := by exact_mod_cast h2
      linarith
    have e : ((n - 1 : Nat) : ℝ) = (n : ℝ) - 1 := by rw [Nat.cast_sub (by omega)]; simp
    have e2 : a + ((n - 1 : Nat) : ℝ) * ((a + k * (2 * Real.pi) - a) / ((n : ℝ) - 1)) = a + k * (2 * Real.pi) := by
      rw [e]; field_simp; ring
    simp only [Option.map_some, Option.getD_some, e2, Real.cos_add_int_mul_two_pi, Real.sin_add_int_mul_two_pi]
    simp

/-- **C69 (lemniscate).** -/
theorem C69_lemniscate (a b c : ℝ) (n : Nat) (hn : 1 ≤ n) :
    ∃ C, lemniscate a b n c = .ok C ∧ Sampled C 2 n a b fun _ row => ∃ x y, row = [x, y] ∧
      (x ^ 2 + y ^ 2) ^ 2 = 2 * c ^ 2 * (x ^ 2 - y ^ 2) := by
  unfold lemniscate
  simp only [linspaceE_eq, bind, Except.bind]
  refine coordCurve_map [fun t => (c * √ 2 * Real.cos t) / (Real.sin t ^ 2 + 1), fun t => (c * √ 2 * Real.cos t * Real.sin t) / (Real.sin t ^ 2 + 1)]
    a b n (by simp) hn _ ?_
  intro t
  refine ⟨_, _, rfl, ?_⟩
  have hs : √ (2 : ℝ) ^ 2 = 2 := Real.sq_sqrt (by norm_num)
  have hp : Real.sin t ^ 2 + 1 ≠ 0 := by positivity
  have hc : Real.cos t ^ 2 = 1 - Real.sin t ^ 2 := by have := Real.sin_sq_add_cos_sq t; linarith
  have e1 : ((c * √ 2 * Real.cos t) / (Real.sin t ^ 2 + 1)) ^ 2 = 2 * c ^ 2 * Real.cos t ^ 2 / (Real.sin t ^ 2 + 1) ^ 2 := by
    rw [div_pow, mul_pow, mul_pow, hs]; ring
  have e2 : ((c * √ 2 * Real.cos t * Real.sin t) / (Real.sin t ^ 2 + 1)) ^ 2 =
      2 * c ^ 2 * Real.cos t ^ 2 * Real.sin t ^ 2 / (Real.sin t ^ 2 + 1) ^ 2 := by
    rw [div_pow, mul_pow, mul_pow, mul_pow, hs]; ring
  rw [e1, e2, hc]
  field_simp
  ring

/-- **C69 (spiral).** -/
theorem C69_spiral (t0 t1 a b : ℝ) (n : Nat) (hn : 1 ≤ n) :
    ∃ C, archimedean t0 t1 n a b = .ok C ∧ Sampled C 2 n t0 t1 fun t row => ∃ x y, row = [x, y] ∧
      x ^ 2 + y ^ 2 = (a + b * t) ^ 2 ∧ x * Real.sin t = y * Real.cos t := by
  unfold archimedean
  simp only [linspaceE_eq, bind, Except.bind]
  refine coordCurve_map [fun t => (a + b * t) * Real.cos t, fun t => (a + b * t) * Real.sin t] t0 t1 n (by simp) hn _ ?_
  intro t
  refine ⟨_, _, rfl, ?_, by ring⟩
  have := Real.sin_sq_add_cos_sq t
  linear_combination (a + b * t) ^ 2 * this

/-- **C69 (Lissajous curve).** -/
theorem C69_lissajous (t0 t1 A B a b d : ℝ) (n : Nat) (hn : 1 ≤ n) :
    ∃ C, lissajous t0 t1 n A B a b d = .ok C ∧ Sampled C 2 n t0 t1 fun _ row => ∃ x y, row = [x, y] ∧ |x| ≤ |A| ∧ |y| ≤ |B| := by
  unfold lissajous
  simp only [linspaceE_eq, bind, Except.bind]
  refine coordCurve_map [fun t => A * Real.sin (a * t + d), fun t => B * Real.sin (b * t)] t0 t1 n (by simp) hn _ ?_
  intro t
  refine ⟨_, _, rfl, ?_, ?_⟩
  · rw [abs_mul]; exact mul_le_of_le_one_right (abs_nonneg _) (Real.abs_sin_le_one _)
  · rw [abs_mul]; exact mul_le_of_le_one_right (abs_nonneg _) (Real.abs_sin_le_one _)

/-- **C69 (Lissajous curve, shape).** With equal frequencies the points lie on an ellipse; in general a coordinate vanishes exactly if its phase is a multiple of `π`, and reaches
its amplitude exactly if its phase is `π / 2` up to full turns. -/
theorem C69_lissajous_shape (t0 t1 A B a b d : ℝ) (n : Nat) (hn : 1 ≤ n) (hA : A ≠ 0) (hB : B ≠ 0) :
    ∃ C, lissajous t0 t1 n A B a b d = .ok C ∧ Sampled C 2 n t0 t1 fun t row => ∃ x y, row = [x, y] ∧
      (a = b → (x / A) ^ 2 - 2 * (x / A) * (y / B) * Real.cos d + (y / B) ^ 2 = Real.sin d ^ 2) ∧
      (x = 0 ↔ ∃ k : ℤ, k * Real.pi = a * t + d) ∧ (y = 0 ↔ ∃ k : ℤ, k * Real.pi = b * t) ∧
      (x = A ↔ ∃ k : ℤ, k * (2 * Real.pi) + Real.pi / 2 = a * t + d) ∧ (y = B ↔ ∃ k : ℤ, k * (2 * Real.pi) + Real.pi / 2 = b * t) := by
  have hone : ∀ x : ℝ, Real.sin x = 1 ↔ ∃ k : ℤ, k * (2 * Real.pi) + Real.pi / 2 = x := by
    intro x
    rw [← Real.cos_sub_pi_div_two, Real.cos_eq_one_iff]
    constructor
    · rintro ⟨k, hk⟩; exact ⟨k, by linarith⟩
    · rintro ⟨k, hk⟩; exact ⟨k, by linarith⟩
  unfold lissajous
  simp only [linspaceE_eq, bind, Except.bind]
  refine coordCurve_map [fun t => A * Real.sin (a * t + d), fun t => B * Real.sin (b * t)] t0 t1 n (by simp) hn _ ?_
  intro t
  refine ⟨_, _, rfl, ?_, ?_, ?_, ?_, ?_⟩
  · rintro rfl
    rw [mul_div_cancel_left₀ _ hA, mul_div_cancel_left₀ _ hB, Real.sin_add]
    have h1 := Real.sin_sq_add_cos_sq (a * t)
    have h2 := Real.sin_sq_add_cos_sq d
    linear_combination (Real.sin d ^ 2) * h1 - Real.sin (a * t) ^ 2 * h2
  · rw [mul_eq_zero, or_iff_right hA, Real.sin_eq_zero_iff]
  · rw [mul_eq_zero, or_iff_right hB, Real.sin_eq_zero_iff]
  · rw [← hone]
    exact mul_eq_left₀ hA
  · rw [← hone]
    exact mul_eq_left₀ hB

example : ∃ C, lissajous 0 1 2 1 1 3 2 0 = .ok C ∧ Sampled C 2 2 0 1 fun t row => ∃ x y, row = [x, y] ∧
      (x = 0 ↔ ∃ k : ℤ, k * Real.pi = 3 * t + 0) ∧ (y = 1 ↔ ∃ k : ℤ, k * (2 * Real.pi) + Real.pi / 2 = 2 * t) := by
  obtain ⟨C, h1, h2⟩ := C69_lissajous_shape 0 1 1 1 3 2 0 2 (by norm_num) one_ne_zero one_ne_zero
  obtain ⟨ts, p1, p2, p3, p4⟩ := h2.param
  refine ⟨C, h1, h2.size, h2.dim, h2.dtype, h2.rect, ts, p1, p2, p3, fun i t row a b => ?_⟩
  obtain ⟨x, y, q1, -, q2, -, -, q3⟩ := p4 i t row a b
  exact ⟨x, y, q1, q2, q3⟩

/-- **C69 (helix).** -/
theorem C69_helix (t0 t1 a b : ℝ) (n : Nat) (hn : 1 ≤ n) :
    ∃ C, helix t0 t1 n a b = .ok C ∧ Sampled C 3 n t0 t1 fun t row => ∃ x y z, row = [x, y, z] ∧ x ^ 2 + y ^ 2 = a ^ 2 ∧ z = b * t := by
  unfold helix
  simp only [linspaceE_eq, bind, Except.bind]
  refine coordCurve_map [fun t => Real.sin t * a, fun t => Real.cos t * a, fun t => t * b] t0 t1 n (by simp) hn _ ?_
  intro t
  refine ⟨_, _, _, rfl, ?_, by ring⟩
  have := Real.sin_sq_add_cos_sq t
  linear_combination a ^ 2 * this

/-- **C69 (irregular helix).** The radius is `z² + 1`; `z` runs evenly from `z_start` to `z_stop`. -/
theorem C69_irregular_helix (t0 t1 z0 z1 : ℝ) (n : Nat) (hn : 2 ≤ n) :
    ∃ C, irregularHelix t0 t1 z0 z1 n = .ok C ∧
      Sampled C 3 n t0 t1 (fun _ row => ∃ x y z, row = [x, y, z] ∧ x ^ 2 + y ^ 2 = (z ^ 2 + 1) ^ 2) ∧
      ∃ zs, C.values 2 = .ok zs ∧ EvenlySpaced zs n z0 z1 := by
  unfold irregularHelix
  simp only [linspaceE_eq, bind, Except.bind]
  obtain ⟨x, hx⟩ : ∃ x, x = List.zipWith (fun u t => u * Real.sin t) ((linspaceR z0 z1 n).map fun u => u ^ 2 + 1) (linspaceR t0 t1 n) := ⟨_, rfl⟩
  obtain ⟨y, hy⟩ : ∃ y, y = List.zipWith (fun u t => u * Real.cos t) ((linspaceR z0 z1 n).map fun u => u ^ 2 + 1) (linspaceR t0 t1 n) := ⟨_, rfl⟩
  rw [← hx, ← hy]
  rw [coordCurve_eq [x, y, linspaceR z0 z1 n] _ n (by simp) (by omega) (by simp [hx, hy, linspaceR_length]) (linspaceR_length _ _ _)]
  refine ⟨_, rfl, ⟨by simp [Curve.size], by simp, rfl, by simp, _, rfl, ?_, ?_, ?_⟩, linspaceR z0 z1 n, ?_, linspaceR_even z0 z1 hn⟩
  · intro h; exact linspaceR_even t0 t1 h
  · omega
  · intro i t row h1 h2
    have hi : i < n := by
      have := (List.getElem?_eq_some_iff.1 h1).1
      rwa [linspaceR_length] at this
    simp only [List.getElem?_map, List.getElem?_range hi, Option.map_some, Option.some.injEq] at h2
    have hz := linspaceR_get (a := z0) (b := z1) hi
    have ex : x[i]? = some (((z0 + (i : ℝ) * ((z1 - z0) / ((n : ℝ) - 1))) ^ 2 + 1) * Real.sin t) := by
      rw [hx, List.getElem?_zipWith, List.getElem?_map, hz, h1]; rfl
    have ey : y[i]? = some (((z0 + (i : ℝ) * ((z1 - z0) / ((n : ℝ) - 1))) ^ 2 + 1) * Real.cos t) := by
      rw [hy, List.getElem?_zipWith, List.getElem?_map, hz, h1]; rfl
    refine ⟨_, _, _, by rw [← h2]; simp only [List.map_cons, List.map_nil, List.getD_eq_getElem?_getD, ex, ey, hz, Option.getD_some]; rfl, ?_⟩
    have := Real.sin_sq_add_cos_sq t
    linear_combination ((z0 + (i : ℝ) * ((z1 - z0) / ((n : ℝ) - 1))) ^ 2 + 1) ^ 2 * this
  · rw [values_ok _ 2 2 ⟨by simp [Curve.ndim], by left; rfl⟩]
    congr 1
    apply List.ext_getElem?
    intro j
    by_cases hj : j < n
    · simp [hj, List.getD_eq_getElem?_getD, linspaceR_get hj]
    · rw [List.getElem?_eq_none (by simp; omega), List.getElem?_eq_none (by rw [linspaceR_length]; omega)]

/-! ## C82: the Euler spiral -/

theorem fresnel_neg (t : ℝ) : fresnelC (-t) = - fresnelC t ∧ fresnelS (-t) = - fresnelS t := by
  have key : ∀ f : ℝ → ℝ, (∀ x, f (-x) = f x) → ∫ u in (0)..(-t), f u = - ∫ u in (0)..t, f u := by
    intro f hf
    have h := intervalIntegral.integral_comp_neg (a := 0) (b := t) f
    simp only [hf, neg_zero] at h
    rw [h, intervalIntegral.integral_symm]
  exact ⟨key _ (by intro x; simp), key _ (by intro x; simp)⟩

theorem fresnel_dist (s t : ℝ) : (fresnelC t - fresnelC s) ^ 2 + (fresnelS t - fresnelS s) ^ 2 ≤ (t - s) ^ 2 := by
  have hcont : Continuous fun u : ℝ => Real.cos (Real.pi / 2 * u ^ 2) := by fun_prop
  have hcont2 : Continuous fun u : ℝ => Real.sin (Real.pi / 2 * u ^ 2) := by fun_prop
  obtain ⟨C, hC⟩ : ∃ C, C = fresnelC t - fresnelC s := ⟨_, rfl⟩
  obtain ⟨S, hS⟩ : ∃ S, S = fresnelS t - fresnelS s := ⟨_, rfl⟩
  have h1 : C = ∫ u in s..t, Real.cos (Real.pi / 2 * u ^ 2) := by
    rw [hC]; unfold fresnelC
    rw [intervalIntegral.integral_interval_sub_left (hcont.intervalIntegrable _ _) (hcont.intervalIntegrable _ _)]
  have h2 : S = ∫ u in s..t, Real.sin (Real.pi / 2 * u ^ 2) := by
    rw [hS]; unfold fresnelS
    rw [intervalIntegral.integral_interval_sub_left (hcont2.intervalIntegrable _ _) (hcont2.intervalIntegrable _ _)]
  have h3 : C ^ 2 + S ^ 2 = ∫ u in s..t, (C * Real.cos (Real.pi / 2 * u ^ 2) + S * Real.sin (Real.pi / 2 * u ^ 2)) := by
    rw [intervalIntegral.integral_add ((hcont.const_mul C).intervalIntegrable _ _) ((hcont2.const_mul S).intervalIntegrable _ _),
      intervalIntegral.integral_const_mul, intervalIntegral.integral_const_mul, ← h1, ← h2]
    ring
  have h4 : ‖∫ u in s..t, (C * Real.cos (Real.pi / 2 * u ^ 2) + S * Real.sin (Real.pi / 2 * u ^ 2))‖ ≤ √ (C ^ 2 + S ^ 2) * |t - s| := by
    apply intervalIntegral.norm_integral_le_of_norm_le_const
    intro u _
    rw [Real.norm_eq_abs, ← Real.sqrt_sq_eq_abs]
    apply Real.sqrt_le_sqrt
    have := Real.sin_sq_add_cos_sq (Real.pi / 2 * u ^ 2)
    nlinarith [sq_nonneg (C * Real.sin (Real.pi / 2 * u ^ 2) - S * Real.cos (Real.pi / 2 * u ^ 2))]
  rw [← h3, Real.norm_eq_abs, abs_of_nonneg (by positivity)] at h4
  rw [← hC, ← hS]
  obtain ⟨q, hq⟩ : ∃ q, q = √ (C ^ 2 + S ^ 2) := ⟨_, rfl⟩
  have hq2 : q ^ 2 = C ^ 2 + S ^ 2 := by rw [hq]; exact Real.sq_sqrt (by positivity)
  have hq0 : 0 ≤ q := by rw [hq]; exact Real.sqrt_nonneg _
  rw [← hq, ← hq2] at h4
  rw [← hq2, ← sq_abs (t - s)]
  rcases hq0.eq_or_lt with h | h
  · rw [← h]; nlinarith [abs_nonneg (t - s)]
  · have : q ≤ |t - s| := by
      by_contra hlt
      nlinarith
    nlinarith

/-- **C82 (chords).** No two samples of the Euler spiral are further apart than their parameter values. -/
theorem C82_chords (a b : ℝ) (n : Nat) (hn : 1 ≤ n) :
    ∃ C ts, euler a b n = .ok C ∧ Sampled C 2 n a b (fun _ _ => True) ∧ C.tdata = some ts ∧
      ∀ (i j : Nat) (s t x y x' y' : ℝ), ts[i]? = some s → ts[j]? = some t → C.rows[i]? = some [x, y] → C.rows[j]? = some [x', y'] →
        √ ((x' - x) ^ 2 + (y' - y) ^ 2) ≤ |t - s| := by
  unfold euler
  simp only [linspaceE_eq, bind, Except.bind]
  obtain ⟨c, h1, h2⟩ := coordCurve_map [fresnelC, fresnelS] a b n (by simp) hn (fun t row => row = [fresnelC t, fresnelS t]) (by intro t; rfl)
  obtain ⟨ts, g1, g2, g3, g4⟩ := h2.param
  refine ⟨c, ts, h1, ⟨h2.size, h2.dim, h2.dtype, h2.rect, ts, g1, g2, g3, fun _ _ _ _ _ => trivial⟩, g1, ?_⟩
  intro i j s t x y x' y' e1 e2 e3 e4
  have f1 := g4 i s _ e1 e3
  have f2 := g4 j t _ e2 e4
  simp only [List.cons.injEq, and_true] at f1 f2
  rw [f1.1, f1.2, f2.1, f2.2, ← Real.sqrt_sq_eq_abs]
  exact Real.sqrt_le_sqrt (fresnel_dist s t)

/-- **C82 (symmetry).** Over a symmetric parameter range the curve is symmetric about the origin. -/
theorem C82_symmetric (b : ℝ) (n : Nat) (hn : 1 ≤ n) :
    ∃ C, euler (-b) b n = .ok C ∧ (2 ≤ n → ∀ (i : Nat) (x y : ℝ), C.rows[i]? = some [x, y] → C.rows[n - 1 - i]? = some [-x, -y]) := by
  unfold euler
  simp only [linspaceE_eq, bind, Except.bind]
  have h := coordCurve_eq [(linspaceR (-b) b n).map fresnelC, (linspaceR (-b) b n).map fresnelS] (linspaceR (-b) b n) n (by simp) hn
    (by simp [linspaceR_length]) (linspaceR_length _ _ _)
  refine ⟨_, h, ?_⟩
  intro h2 i x y hi
  have hin : i < n := by
    have := (List.getElem?_eq_some_iff.1 hi).1
    simpa using this
  have hpos : ((n : ℝ) - 1) ≠ 0 := by
    have : (2 : ℝ) ≤ n := by exact_mod_cast h2
    linarith
  have e : ((n - 1 - i : Nat) : ℝ) = (n : ℝ) - 1 - i := by
    rw [Nat.cast_sub (by omega), Nat.cast_sub (by omega)]; simp
  have e2 : -b + ((n - 1 - i : Nat) : ℝ) * ((b - -b) / ((n : ℝ) - 1)) = - (-b + (i : ℝ) * ((b - -b) / ((n : ℝ) - 1))) := by
    rw [e]; field_simp; ring
  simp only [List.getElem?_map, List.getElem?_range hin, Option.map_some, Option.some.injEq, List.map_cons, List.map_nil,
    List.getD_eq_getElem?_getD, linspaceR_get hin, Option.getD_some, List.cons.injEq, and_true] at hi
  simp only [List.getElem?_map, List.getElem?_range (show n - 1 - i < n by omega), Option.map_some, Option.some.injEq, List.map_cons, List.map_nil,
    List.getD_eq_getElem?_getD, linspaceR_get (show n - 1 - i < n by omega), Option.getD_some, e2, (fresnel_neg _).1, (fresnel_neg _).2, hi.1, hi.2]

/-! ## Concrete curves -/

/-- The full unit circle with the default number of points. -/
example : ∃ C, arc 0 (0 + (1 : ℤ) * (2 * Real.pi)) (49 : Nat) 1 0 = .ok C ∧ C.rows.head? = C.rows.getLast? :=
  C69_arc_closed 0 1 0 1 49 (by norm_num)

/-- Two points of the helix. -/
example : ∃ C, helix 0 Real.pi (2 : Nat) 1 1 = .ok C ∧ C.rows = [[0, 1, 0], [0, -1, Real.pi]] := by
  unfold helix
  simp only [linspaceE_eq, bind, Except.bind]
  rw [coordCurve_eq _ _ 2 (by simp) (by norm_num) (by simp [linspaceR_length]) (linspaceR_length _ _ _)]
  refine ⟨_, rfl, ?_⟩
  have : ((2 : ℝ) - 1) = 1 := by norm_num
  simp [linspaceR, List.range_succ, this]

/-! ## Concrete cases -/

example := C69_count 0 1 2 3 4 5 6
example := C69_arc 0 1 2 3 50 (by norm_num)
example := C69_lemniscate 0 1 2 50 (by norm_num)
example := C69_spiral 0 10 1 2 50 (by norm_num)
example := C69_lissajous 0 10 1 2 3 4 5 50 (by norm_num)
example := C69_helix 0 10 1 2 50 (by norm_num)
example := C69_irregular_helix 0 10 (-1) 2 50 (by norm_num)
example := C82_chords 0 10 50 (by norm_num)
example := C82_symmetric 10 50 (by norm_num)

end Verif.Props
