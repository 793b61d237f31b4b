import Verif.Props.StableSpline
import Verif.Props.Refine

/-!
C153: resampling a curve by its arc length, when the points are moved a little.
-/
namespace Verif.Props

open Verif Verif.Np Verif.Model Verif.Spec

section path

variable {E : Type*} [NormedAddCommGroup E] [NormedSpace ℝ E]

/-- The distance of two points of a polygonal line is at most the length of the line between them. -/
theorem path_dist_le {P : Nat → E} {T : Nat → ℝ} {k : Nat} (h : ∀ i, i < k → ‖P (i + 1) - P i‖ ≤ T (i + 1) - T i) {i : Nat} (hi : i ≤ k) : ‖P k - P i‖ ≤ T k - T i := by
  induction k with
  | zero => simp [Nat.le_zero.1 hi]
  | succ k ih =>
    rcases Nat.lt_or_ge i (k + 1) with hlt | hge
    · have h1 := ih (fun i hi => h i (by omega)) (by omega)
      have h2 := h k (by omega)
      calc ‖P (k + 1) - P i‖ = ‖(P (k + 1) - P k) + (P k - P i)‖ := by congr 1; abel
        _ ≤ _ := norm_add_le _ _
        _ ≤ T (k + 1) - T i := by linarith
    · have : i = k + 1 := by omega
      subst this
      simp

theorem path_mix_lt {P : Nat → E} {T : Nat → ℝ} {m : Nat} (h : ∀ i, i + 1 < m → ‖P (i + 1) - P i‖ = T (i + 1) - T i) {i k : Nat} (hik : i < k) (hk : k + 1 < m)
    {s u : ℝ} (s1 : s ≤ 1) (u0 : 0 ≤ u) :
    ‖(P k + u • (P (k + 1) - P k)) - (P i + s • (P (i + 1) - P i))‖ ≤ (T k + u * (T (k + 1) - T k)) - (T i + s * (T (i + 1) - T i)) := by
  have h1 := path_dist_le (P := P) (T := T) (k := k) (fun j hj => (h j (by omega)).le) (i := i + 1) hik
  have e : (P k + u • (P (k + 1) - P k)) - (P i + s • (P (i + 1) - P i)) = u • (P (k + 1) - P k) + ((P k - P (i + 1)) + (1 - s) • (P (i + 1) - P i)) := by module
  rw [e]
  refine (norm_add_le _ _).trans ((add_le_add_right (norm_add_le _ _) _).trans ?_)
  rw [norm_smul, norm_smul, h k hk, h i (by omega), Real.norm_of_nonneg u0, Real.norm_of_nonneg (by linarith : 0 ≤ 1 - s)]
  linarith

/-- A polygonal line parametrized by arc length does not move faster than its parameter. -/
theorem path_lipschitz {P : Nat → E} {T : Nat → ℝ} {m : Nat} (h : ∀ i, i + 1 < m → ‖P (i + 1) - P i‖ = T (i + 1) - T i) {i k : Nat} (hi : i + 1 < m) (hk : k + 1 < m)
    {s u : ℝ} (s0 : 0 ≤ s) (s1 : s ≤ 1) (u0 : 0 ≤ u) (u1 : u ≤ 1) :
    ‖(P i + s • (P (i + 1) - P i)) - (P k + u • (P (k + 1) - P k))‖ ≤ |(T i + s * (T (i + 1) - T i)) - (T k + u * (T (k + 1) - T k))| := by
  rcases lt_trichotomy i k with hlt | rfl | hgt
  · rw [norm_sub_rev, abs_sub_comm]
    exact (path_mix_lt h hlt hk s1 u0).trans (le_abs_self _)
  · have e : (P i + s • (P (i + 1) - P i)) - (P i + u • (P (i + 1) - P i)) = (s - u) • (P (i + 1) - P i) := by module
    have e' : (T i + s * (T (i + 1) - T i)) - (T i + u * (T (i + 1) - T i)) = (s - u) * (T (i + 1) - T i) := by ring
    have h1 := h i hi
    rw [e, e', norm_smul, abs_mul, h1, Real.norm_eq_abs, abs_of_nonneg (show 0 ≤ T (i + 1) - T i by rw [← h1]; exact norm_nonneg _)]
  · exact (path_mix_lt h hgt hi u1 s0).trans (le_abs_self _)

/-- Points of two polygonal lines at nearby arc lengths. -/
theorem path_moved {P P' : Nat → E} {T T' : Nat → ℝ} {m : Nat} {δ : ℝ} (h : ∀ i, i + 1 < m → ‖P (i + 1) - P i‖ = T (i + 1) - T i) (h' : ∀ i, i + 1 < m → ‖P' (i + 1) - P' i‖ = T' (i + 1) - T' i)
    (hP : ∀ i, i < m → ‖P i - P' i‖ ≤ δ) (hT : ∀ i, i < m → |T i - T' i| ≤ 2 * i * δ) {i k : Nat} (hi : i + 1 < m) (hk : k + 1 < m)
    {s u : ℝ} (s0 : 0 ≤ s) (s1 : s ≤ 1) (u0 : 0 ≤ u) (u1 : u ≤ 1) :
    ‖(P i + s • (P (i + 1) - P i)) - (P' k + u • (P' (k + 1) - P' k))‖ ≤
      δ + 2 * ((m - 1 : Nat) : ℝ) * δ + |(T i + s * (T (i + 1) - T i)) - (T' k + u * (T' (k + 1) - T' k))| := by
  have hδ : 0 ≤ δ := (norm_nonneg _).trans (hP i (by omega))
  have l := path_lipschitz h' hi hk s0 s1 u0 u1
  have a1 : ‖(P i + s • (P (i + 1) - P i)) - (P' i + s • (P' (i + 1) - P' i))‖ ≤ δ := by
    have e : (P i + s • (P (i + 1) - P i)) - (P' i + s • (P' (i + 1) - P' i)) = (1 - s) • (P i - P' i) + s • (P (i + 1) - P' (i + 1)) := by module
    rw [e]
    refine (norm_add_le _ _).trans ?_
    rw [norm_smul, norm_smul, Real.norm_of_nonneg s0, Real.norm_of_nonneg (by linarith : 0 ≤ 1 - s)]
    nlinarith [hP i (by omega), hP (i + 1) hi]
  have a2 : |(T' i + s * (T' (i + 1) - T' i)) - (T i + s * (T (i + 1) - T i))| ≤ 2 * ((m - 1 : Nat) : ℝ) * δ := by
    have e : (T' i + s * (T' (i + 1) - T' i)) - (T i + s * (T (i + 1) - T i)) = (1 - s) * (T' i - T i) + s * (T' (i + 1) - T (i + 1)) := by ring
    rw [e]
    refine (abs_add_le _ _).trans ?_
    rw [abs_mul, abs_mul, abs_of_nonneg s0, abs_of_nonneg (by linarith : 0 ≤ 1 - s), abs_sub_comm, abs_sub_comm (T' (i + 1))]
    have b1 := hT i (by omega)
    have b2 := hT (i + 1) hi
    have c1 : (i : ℝ) ≤ ((m - 1 : Nat) : ℝ) := by exact_mod_cast (show i ≤ m - 1 by omega)
    have c2 : ((i + 1 : Nat) : ℝ) ≤ ((m - 1 : Nat) : ℝ) := by exact_mod_cast (show i + 1 ≤ m - 1 by omega)
    have d1 : |T i - T' i| ≤ 2 * ((m - 1 : Nat) : ℝ) * δ := b1.trans (by gcongr)
    have d2 : |T (i + 1) - T' (i + 1)| ≤ 2 * ((m - 1 : Nat) : ℝ) * δ := b2.trans (by gcongr)
    nlinarith
  generalize (P i + s • (P (i + 1) - P i)) = A at *
  generalize (P' i + s • (P' (i + 1) - P' i)) = A' at *
  generalize (P' k + u • (P' (k + 1) - P' k)) = B at *
  generalize (T i + s * (T (i + 1) - T i)) = x at *
  generalize (T' i + s * (T' (i + 1) - T' i)) = x' at *
  generalize (T' k + u * (T' (k + 1) - T' k)) = y at *
  calc ‖A - B‖ = ‖(A - A') + (A' - B)‖ := by congr 1; abel
    _ ≤ ‖A - A'‖ + ‖A' - B‖ := norm_add_le _ _
    _ ≤ δ + (|x' - x| + |x - y|) := by
      refine add_le_add a1 (l.trans ?_)
      calc |x' - y| = |(x' - x) + (x - y)| := by congr 1; ring
        _ ≤ _ := abs_add_le _ _
    _ ≤ _ := by linarith

end path

/-- The grid of `n` points on a curve. -/
theorem getGrid_count {c : Curve ℝ} (hc : WF c) (hs : 2 ≤ c.size) {junk : ℝ} {n : Nat} (hn : 2 ≤ n) (hL : ((n - 1 : Nat) : ℝ) / 10 ^ 8 < tLast junk c - tFirst junk c) :
    ∃ w, getGrid junk c (.int n) = .ok (fins (linspaceR (tFirst junk c) (tLast junk c) n), w) := by
  have hn1 : (0 : ℝ) < ((n - 1 : Nat) : ℝ) := by exact_mod_cast (show 0 < n - 1 by omega)
  have hx : StepsOver (linspaceR (tFirst junk c) (tLast junk c) n) := by
    intro i x y hx hy
    have hi : i + 1 < n := by
      have := (List.getElem?_eq_some_iff.1 hy).1
      rwa [linspaceR_length] at this
    rw [linspaceR_get (by omega)] at hx
    rw [linspaceR_get hi] at hy
    cases hx
    cases hy
    have e : (n : ℝ) - 1 = ((n - 1 : Nat) : ℝ) := by rw [Nat.cast_sub (by omega)]; simp
    rw [e]
    have : (1 : ℝ) / 10 ^ 8 < (tLast junk c - tFirst junk c) / ((n - 1 : Nat) : ℝ) := by
      rw [lt_div_iff₀ hn1]
      calc (1 : ℝ) / 10 ^ 8 * ((n - 1 : Nat) : ℝ) = ((n - 1 : Nat) : ℝ) / 10 ^ 8 := by ring
        _ < _ := hL
    push_cast
    linarith
  have hne : linspaceR (tFirst junk c) (tLast junk c) n ≠ [] := by
    intro h
    have := linspaceR_length (tFirst junk c) (tLast junk c) n
    rw [h] at this
    simp at this
    omega
  obtain ⟨w, hw⟩ := getGrid_fins junk c _ hne hx
  refine ⟨w, ?_⟩
  rw [← hw]
  have hi : UniformGrid.init (.int n) "point" = .ok ⟨.int n, .point⟩ := by
    simp [UniformGrid.init, GridKind.ofString, PyNum.isInt, PyNum.toInt]
    omega
  unfold getGrid
  simp only [gridOfSpec, hi, uniform_call hs junk n, bind, Except.bind, pure, Except.pure]

/-- Resampling a curve without parameter to `n` points: the points of the result on the polygonal line. -/
theorem resample_points {c : Curve ℝ} (hc : WF c) (hs : 2 ≤ c.size) (hp : c.tdata = none)
    (hdiff : ∀ i, i + 1 < c.size → c.rows.getD i [] ≠ c.rows.getD (i + 1) [])
    (hd : c.dtype ≠ .int) {junk : ℝ} {r : InterpReg Bool} {name : String} (hr : IsLinear junk r name) (ex : Bool) {n : Nat} (hn : 2 ≤ n)
    (hL : ((n - 1 : Nat) : ℝ) / 10 ^ 8 < arclen junk c) :
    ∃ R C, c.interpolate r (.int n) name ex = .ok R ∧ Represents R C ∧ C.ncols = c.ncols ∧ C.rows.length = n ∧
      ∀ j, j < n → ∃ i s, i + 1 < c.size ∧ 0 ≤ s ∧ s ≤ 1 ∧
        pathLen c.ncols (c.rows.take (i + 1)) + s * (pathLen c.ncols (c.rows.take (i + 2)) - pathLen c.ncols (c.rows.take (i + 1))) = (j : ℝ) * (arclen junk c / ((n : ℝ) - 1)) ∧
        pt c.ncols (C.rows.getD j []) = pt c.ncols (c.rows.getD i []) + s • (pt c.ncols (c.rows.getD (i + 1) []) - pt c.ncols (c.rows.getD i [])) := by
  have hne := rows_ne_of_size hs
  have hs' : 2 ≤ c.rows.length := hs
  have hlt : (c.t junk).length = c.rows.length := t_length hc hne junk
  have htc : c.t junk = cumarclen junk c := by simp [Curve.t, hp]
  have hget : ∀ i, i < c.rows.length → (c.t junk)[i]? = some (pathLen c.ncols (c.rows.take (i + 1))) := fun i hi => by
    rw [htc]; exact cumarclen_get hc.rect junk i hi
  have hrow : ∀ i, i < c.rows.length → c.rows[i]? = some (c.rows.getD i []) := fun i hi => by
    simp only [List.getD_eq_getElem?_getD, List.getElem?_eq_getElem hi, Option.getD_some]
  have hstep : ∀ i, i + 1 < c.rows.length → pathLen c.ncols (c.rows.take (i + 2)) = pathLen c.ncols (c.rows.take (i + 1)) + gap c.ncols (c.rows.getD i []) (c.rows.getD (i + 1) []) :=
    fun i hi => pathLen_take_succ (hrow i (by omega)) (hrow (i + 1) hi)
  have hpos : ∀ i, i + 1 < c.rows.length → 0 < gap c.ncols (c.rows.getD i []) (c.rows.getD (i + 1) []) := by
    intro i hi
    refine dist_pos.2 fun e => hdiff i hi ?_
    have l1 := hc.rect _ (List.mem_of_getElem? (hrow i (by omega)))
    have l2 := hc.rect _ (List.mem_of_getElem? (hrow (i + 1) hi))
    generalize c.rows.getD i [] = p at *
    generalize c.rows.getD (i + 1) [] = q at *
    refine List.ext_getElem (by omega) fun k k1 k2 => ?_
    have := congrArg (fun v : EuclideanSpace ℝ (Fin c.ncols) => v ⟨k, by omega⟩) e
    simpa [pt, List.getD_eq_getElem?_getD, List.getElem?_eq_getElem k1, List.getElem?_eq_getElem k2] using this
  have ht : (c.t junk).Pairwise (· < ·) := by
    apply pairwise_of_steps
    intro i x y hx hy
    have hi : i + 1 < c.rows.length := by
      have := (List.getElem?_eq_some_iff.1 hy).1
      omega
    rw [hget i (by omega)] at hx
    rw [hget (i + 1) hi] at hy
    cases hx
    cases hy
    rw [hstep i hi]
    linarith [hpos i hi]
  obtain ⟨ha, hb⟩ := t_ends hc hne junk
  have e0 : tFirst junk c = 0 := by
    rw [List.head?_eq_getElem?, hget 0 (by omega)] at ha
    injection ha with ha
    rw [← ha]
    obtain ⟨p, hp0⟩ : ∃ p, c.rows.take 1 = [p] := by
      cases hcr : c.rows with
      | nil => exact absurd hcr hne
      | cons p l => exact ⟨p, by simp⟩
    rw [hp0]
    rfl
  have e1 : tLast junk c = arclen junk c := by
    rw [List.getLast?_eq_getElem?, hlt, hget _ (by omega)] at hb
    injection hb with hb
    rw [← hb, arclen_eq hc.rect hne, show c.rows.length - 1 + 1 = c.rows.length by omega, List.take_length]
  have hL0 : 0 ≤ arclen junk c := by
    refine le_trans ?_ hL.le
    positivity
  obtain ⟨w, hg⟩ := getGrid_count hc hs (junk := junk) hn (by rw [e0, e1, sub_zero]; exact hL)
  rw [e0, e1] at hg
  rw [e0] at ha
  rw [e1] at hb
  have hev := linspaceR_even 0 (arclen junk c) hn
  have hn1 : (0 : ℝ) < (n : ℝ) - 1 := by
    have : (2 : ℝ) ≤ n := by exact_mod_cast hn
    linarith
  have hxs : ∀ x ∈ linspaceR 0 (arclen junk c) n, 0 ≤ x ∧ x ≤ arclen junk c := by
    intro x hx
    obtain ⟨j, hj⟩ := List.mem_iff_getElem?.1 hx
    have hjn : j < n := by
      have := (List.getElem?_eq_some_iff.1 hj).1
      rwa [linspaceR_length] at this
    rw [linspaceR_get hjn] at hj
    injection hj with hj
    rw [← hj]
    have hj1 : (j : ℝ) ≤ (n : ℝ) - 1 := by
      have : ((j + 1 : Nat) : ℝ) ≤ n := by exact_mod_cast hjn
      push_cast at this
      linarith
    constructor
    · have : 0 ≤ (arclen junk c - 0) / ((n : ℝ) - 1) := div_nonneg (by linarith) hn1.le
      positivity
    · rw [zero_add, sub_zero, mul_div_assoc', div_le_iff₀ hn1]
      nlinarith
  have hxne : linspaceR 0 (arclen junk c) n ≠ [] := by
    intro h
    have := linspaceR_length 0 (arclen junk c) n
    rw [h] at this
    simp at this
    omega
  obtain ⟨R, h1, h2⟩ := linear_repr hc hs ht hd hr ex hxne hg ha hb (.inr hxs)
  refine ⟨R, _, h1, h2, rfl, by simp [linspaceR_length], fun j hj => ?_⟩
  have hjx := linspaceR_get (a := 0) (b := arclen junk c) hj
  obtain ⟨l0, l1⟩ := hxs _ (List.mem_of_getElem? hjx)
  obtain ⟨i, u, v, k1, k2, k3, k4⟩ := between_neighbours (c.t junk) (by omega) ha hb l0 l1
  have hi : i + 1 < c.rows.length := by
    have := (List.getElem?_eq_some_iff.1 k2).1
    omega
  have f1 := hget i (by omega)
  have f2 := hget (i + 1) hi
  rw [k1] at f1
  rw [k2] at f2
  injection f1 with f1
  injection f2 with f2
  have huv : 0 < v - u := by rw [f1, f2, hstep i hi]; linarith [hpos i hi]
  refine ⟨i, _, hi, div_nonneg (sub_nonneg.2 k3) huv.le, (div_le_one huv).2 (by linarith), ?_, ?_⟩
  · rw [← f1, ← f2, div_mul_cancel₀ _ huv.ne']
    ring
  · simp only [List.getD_eq_getElem?_getD, List.getElem?_map, hjx, Option.map_some, Option.getD_some]
    rw [rowAt_pair hc hs ht _ i u v _ _ k1 k2 (hrow i (by omega)) (hrow (i + 1) hi) (.inr k3) (.inr k4),
      pt_mix (n := c.ncols) (hc.rect _ (List.mem_of_getElem? (hrow i (by omega)))) (hc.rect _ (List.mem_of_getElem? (hrow (i + 1) hi)))]
    simp only [List.getD_eq_getElem?_getD]

/-- **C153 (resampling).** Two curves of a float dtype without parameter, of `m` points, whose points are not farther apart than `δ`, consecutive points being different. Both are resampled to `n` points by linear interpolation (`interpolate(n)`:
equal steps of the arc length, above `1e-8`): the resulting points are not farther apart than `(4 (m - 1) + 1) δ`, whatever `n` is. -/
theorem C153_resample {δ : ℝ} {c c' : Curve ℝ} (hc : WF c) (hc' : WF c') (hs : 2 ≤ c.size) (h : NearCurve δ c c') (hp : c.tdata = none) (hp' : c'.tdata = none)
    (hdiff : ∀ i, i + 1 < c.size → c.rows.getD i [] ≠ c.rows.getD (i + 1) [] ∧ c'.rows.getD i [] ≠ c'.rows.getD (i + 1) [])
    (hd : c.dtype ≠ .int) (hd' : c'.dtype ≠ .int) {junk : ℝ} {r : InterpReg Bool} {name : String} (hr : IsLinear junk r name) (ex : Bool) {n : Nat} (hn : 2 ≤ n)
    (hL : ((n - 1 : Nat) : ℝ) / 10 ^ 8 < arclen junk c) (hL' : ((n - 1 : Nat) : ℝ) / 10 ^ 8 < arclen junk c') :
    ∃ R R' C C', c.interpolate r (.int n) name ex = .ok R ∧ c'.interpolate r (.int n) name ex = .ok R' ∧
      Represents R C ∧ Represents R' C' ∧ NearCurve ((4 * ((c.size - 1 : Nat) : ℝ) + 1) * δ) C C' ∧ C.size = n := by
  have hsz : c'.size = c.size := h.size
  have hne := rows_ne_of_size hs
  obtain ⟨R, C, a1, a2, a3, a4, a5⟩ := resample_points hc hs hp (fun i hi => (hdiff i hi).1) hd hr ex hn hL
  obtain ⟨R', C', b1, b2, b3, b4, b5⟩ := resample_points hc' (by omega) hp' (fun i hi => (hdiff i (by omega)).2) hd' hr ex hn hL'
  refine ⟨R, R', C, C', a1, b1, a2, b2, ⟨by rw [a3, b3, h.ndim], by rw [a4, b4], fun j hj => ?_⟩, a4⟩
  rw [a4] at hj
  obtain ⟨i, s, i1, s0, s1, s2, s3⟩ := a5 j hj
  obtain ⟨k, u, k1, u0, u1, u2, u3⟩ := b5 j hj
  rw [h.ndim] at u2 u3
  have key : ∀ {d : Curve ℝ} (i : Nat), i + 1 < d.size → ‖pt c.ncols (d.rows.getD (i + 1) []) - pt c.ncols (d.rows.getD i [])‖ =
      pathLen c.ncols (d.rows.take (i + 1 + 1)) - pathLen c.ncols (d.rows.take (i + 1)) := by
    intro d i hi
    have hi' : i + 1 < d.rows.length := hi
    have e1 := List.getElem?_eq_getElem (show i < d.rows.length by omega)
    have e2 := List.getElem?_eq_getElem hi'
    simp only [List.getD_eq_getElem?_getD, e1, e2, Option.getD_some]
    rw [pathLen_take_succ (n := c.ncols) e1 e2, add_sub_cancel_left, norm_sub_rev]
    rfl
  obtain ⟨-, lk, lL⟩ := C153_length hc hc' hne h junk
  have hT : ∀ i, i < c.size → |pathLen c.ncols (c.rows.take (i + 1)) - pathLen c.ncols (c'.rows.take (i + 1))| ≤ 2 * i * δ := by
    intro i hi
    obtain ⟨x, y, q1, q2, q3⟩ := lk i hi
    rw [cumarclen_get hc.rect junk i hi] at q1
    rw [cumarclen_get hc'.rect junk i (by rw [h.size]; exact hi), h.ndim] at q2
    cases q1
    cases q2
    exact q3
  have main := path_moved (P := fun i => pt c.ncols (c.rows.getD i [])) (P' := fun i => pt c.ncols (c'.rows.getD i []))
    (T := fun i => pathLen c.ncols (c.rows.take (i + 1))) (T' := fun i => pathLen c.ncols (c'.rows.take (i + 1))) (m := c.size) (δ := δ)
    (fun i hi => key i hi) (fun i hi => key i (by omega)) (fun i hi => by have := h.near i hi; rwa [gap, dist_eq_norm] at this) hT i1 (by omega : k + 1 < c.size) s0 s1 u0 u1
  beta_reduce at main
  rw [a3, gap, dist_eq_norm, s3, u3]
  refine main.trans ?_
  rw [s2, u2, ← mul_sub, ← sub_div]
  have hn1 : (0 : ℝ) < (n : ℝ) - 1 := by
    have : (2 : ℝ) ≤ n := by exact_mod_cast hn
    linarith
  have hj1 : (j : ℝ) ≤ (n : ℝ) - 1 := by
    have : ((j + 1 : Nat) : ℝ) ≤ n := by exact_mod_cast hj
    push_cast at this
    linarith
  have : |(j : ℝ) * ((arclen junk c - arclen junk c') / ((n : ℝ) - 1))| ≤ 2 * ((c.size - 1 : Nat) : ℝ) * δ := by
    refine le_trans ?_ lL
    rw [abs_mul, abs_div, abs_of_pos hn1, Nat.abs_cast, mul_div_assoc', div_le_iff₀ hn1]
    nlinarith [abs_nonneg (arclen junk c - arclen junk c')]
  linarith

/-! The hypotheses hold for two curves of three points, lengths 7 and 7.01, resampled to 8 points. -/

private noncomputable def rsA (y : ℝ) : Curve ℝ := ⟨[[0, 0], [3, 0], [3, y]], 2, none, .float⟩

private theorem rsA_WF (y : ℝ) : WF (rsA y) where
  two_le := by simp [rsA]
  rect := by simp [rsA]
  tlen := by simp [rsA]
  repr := by simp [rsA, DType.cast]

private theorem rsA_arclen {y : ℝ} (hy : 0 ≤ y) : arclen 0 (rsA y) = 3 + y := by
  rw [arclen_eq (rsA_WF y).rect (by simp [rsA])]
  simp only [rsA, pathLen, gap_eq_sqrt]
  simp [Fin.sum_univ_two, Real.sqrt_sq hy]

example : ∃ R R' C C', (rsA 4).interpolate (linearReg 0) (.int (8 : Nat)) "linear" true = .ok R ∧
    (rsA (4 + 1 / 100)).interpolate (linearReg 0) (.int (8 : Nat)) "linear" true = .ok R' ∧
    Represents R C ∧ Represents R' C' ∧ NearCurve ((4 * ((3 - 1 : Nat) : ℝ) + 1) * (1 / 100)) C C' ∧ C.size = 8 := by
  refine C153_resample (n := 8) (δ := 1 / 100) (rsA_WF 4) (rsA_WF (4 + 1 / 100)) (by simp [rsA, Curve.size]) ⟨rfl, rfl, ?_⟩ rfl rfl ?_ (by simp [rsA]) (by simp [rsA]) (isLinear_linearReg 0) true (by norm_num) ?_ ?_
  · intro i hi
    match i, hi with
    | 0, _ => simp only [rsA, gap_eq_sqrt]; simp
    | 1, _ => simp only [rsA, gap_eq_sqrt]; simp
    | 2, _ =>
      simp only [rsA, gap_eq_sqrt]
      simp [Fin.sum_univ_two]
  · intro i hi
    match i, hi with
    | 0, _ => simp [rsA]
    | 1, _ => simp [rsA]; norm_num
  · rw [rsA_arclen (by norm_num)]; norm_num
  · rw [rsA_arclen (by norm_num)]; norm_num

end Verif.Props
