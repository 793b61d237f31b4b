import Verif.Props.AccuracyFrenet
import Verif.Props.AccuracyLen
import Verif.Props.AccuracySmooth
import Verif.Props.SegDist
import Verif.Props.Intersect
import Verif.Props.IntersectCurves

/-!
C153: small changes of the points change the results little.
-/
namespace Verif.Spec

open Verif Verif.Model

/-- Two curves of the same dimension and size whose points with the same index are not farther apart than `δ`. -/
structure NearCurve (δ : ℝ) (c c' : Curve ℝ) : Prop where
  ndim : c'.ncols = c.ncols
  size : c'.rows.length = c.rows.length
  near : ∀ i, i < c.rows.length → gap c.ncols (c.rows.getD i []) (c'.rows.getD i []) ≤ δ

/-- The signed area of the parallelogram of two vectors of the plane. -/
def cross2 {K : Type*} [Field K] (u v : Fin 2 → K) : K := u 0 * v 1 - u 1 * v 0

end Verif.Spec

namespace Verif.Props

open Verif Verif.Np Verif.Model Verif.Spec

/-! ### Lengths -/

theorem gap_moved {n : Nat} {δ : ℝ} {a b a' b' : List ℝ} (h1 : gap n a a' ≤ δ) (h2 : gap n b b' ≤ δ) : |gap n a b - gap n a' b'| ≤ 2 * δ := by
  unfold gap at *
  rw [abs_le]
  have t1 := dist_triangle4 (pt n a) (pt n a') (pt n b') (pt n b)
  have t2 := dist_triangle4 (pt n a') (pt n a) (pt n b) (pt n b')
  rw [dist_comm (pt n b') (pt n b)] at t1
  rw [dist_comm (pt n a') (pt n a)] at t2
  constructor <;> linarith

theorem pathLen_moved {n : Nat} {δ : ℝ} : ∀ {l l' : List (List ℝ)}, List.Forall₂ (fun a b => gap n a b ≤ δ) l l' →
    |pathLen n l - pathLen n l'| ≤ 2 * ((l.length - 1 : Nat) : ℝ) * δ := by
  intro l l' h
  induction h with
  | nil => simp [pathLen]
  | @cons a a' l l' h1 ht ih =>
    cases ht with
    | nil => simp [pathLen]
    | @cons b b' l l' h2 ht =>
      have g := gap_moved h1 h2
      simp only [pathLen, List.length_cons, Nat.add_sub_cancel] at ih ⊢
      rw [abs_le] at *
      push_cast at ih ⊢
      constructor <;> linarith [g.1, g.2, ih.1, ih.2]

theorem _root_.Verif.Spec.NearCurve.forall₂ {δ : ℝ} {c c' : Curve ℝ} (h : NearCurve δ c c') : List.Forall₂ (fun a b => gap c.ncols a b ≤ δ) c.rows c'.rows := by
  rw [List.forall₂_iff_get]
  refine ⟨h.size.symm, ?_⟩
  intro i h1 h2
  have := h.near i h1
  simp only [List.getD_eq_getElem?_getD, List.getElem?_eq_getElem h1, List.getElem?_eq_getElem h2, Option.getD_some] at this
  exact this

theorem forall₂_take {α β : Type*} {R : α → β → Prop} {l : List α} {l' : List β} (h : List.Forall₂ R l l') (k : Nat) : List.Forall₂ R (l.take k) (l'.take k) := by
  induction h generalizing k with
  | nil => simp
  | cons h1 _ ih => cases k with
    | zero => simp
    | succ k => simpa using ⟨h1, ih k⟩

theorem _root_.Verif.Spec.NearCurve.symm {δ : ℝ} {c c' : Curve ℝ} (h : NearCurve δ c c') : NearCurve δ c' c := by
  refine ⟨h.ndim.symm, h.size.symm, ?_⟩
  intro i hi
  have := h.near i (h.size ▸ hi)
  rw [h.ndim]
  unfold gap at *
  rwa [dist_comm]

/-- **C153 (lengths).** If the points of a curve are moved by at most `δ`, then every chord length changes by at most `2 δ`, the entry `k` of the
cumulative arc length by at most `2 k δ`, and the arc length by at most `2 (m - 1) δ`, where `m` is the number of points. -/
theorem C153_length {δ : ℝ} {c c' : Curve ℝ} (hc : WF c) (hc' : WF c') (hne : c.rows ≠ []) (h : NearCurve δ c c') (junk : ℝ) :
    (∃ xs ys, chordlen junk c = .vec xs ∧ chordlen junk c' = .vec ys ∧ xs.length = ys.length ∧
      ∀ (i : Nat) (x y : ℝ), xs[i]? = some x → ys[i]? = some y → |x - y| ≤ 2 * δ) ∧
    (∀ k, k < c.size → ∃ x y, (cumarclen junk c)[k]? = some x ∧ (cumarclen junk c')[k]? = some y ∧ |x - y| ≤ 2 * k * δ) ∧
    |arclen junk c - arclen junk c'| ≤ 2 * ((c.size - 1 : Nat) : ℝ) * δ := by
  have hne' : c'.rows ≠ [] := by
    intro h0
    have := h.size
    rw [h0] at this
    exact hne (List.length_eq_zero_iff.1 this.symm)
  have hr : ∀ r ∈ c.rows, r.length = c.ncols := hc.rect
  have hr' : ∀ r ∈ c'.rows, r.length = c'.ncols := hc'.rect
  refine ⟨⟨_, _, chordlen_vec hne junk, chordlen_vec hne' junk, by rw [chords_length, chords_length, h.size], ?_⟩, ?_, ?_⟩
  · intro i x y hx hy
    rw [chords_get] at hx hy
    cases e1 : c.rows[i]? with
    | none => simp [e1] at hx
    | some a =>
      cases e2 : c.rows[i + 1]? with
      | none => simp [e1, e2] at hx
      | some b =>
        cases e3 : c'.rows[i]? with
        | none => simp [e3] at hy
        | some a' =>
          cases e4 : c'.rows[i + 1]? with
          | none => simp [e3, e4] at hy
          | some b' =>
            simp only [e1, e2, e3, e4, Option.some.injEq] at hx hy
            have l2 := (List.getElem?_eq_some_iff.1 e2).1
            have n1 := h.near i (by omega)
            have n2 := h.near (i + 1) l2
            simp only [List.getD_eq_getElem?_getD, e1, e2, e3, e4, Option.getD_some] at n1 n2
            rw [← hx, ← hy, chord_eq_gap (hr _ (List.mem_of_getElem? e1)) (hr _ (List.mem_of_getElem? e2)),
              chord_eq_gap (n := c.ncols) (h.ndim ▸ hr' _ (List.mem_of_getElem? e3)) (h.ndim ▸ hr' _ (List.mem_of_getElem? e4))]
            exact gap_moved n1 n2
  · intro k hk
    refine ⟨_, _, cumarclen_get hr junk k hk, cumarclen_get hr' junk k (by rw [h.size]; exact hk), ?_⟩
    have := pathLen_moved (forall₂_take h.forall₂ (k + 1))
    rw [List.length_take, show min (k + 1) c.rows.length - 1 = k by have : k < c.rows.length := hk; omega] at this
    rwa [h.ndim]
  · rw [arclen_eq hr hne, arclen_eq hr' hne', h.ndim]
    exact pathLen_moved h.forall₂

/-! ### Derivatives -/

theorem _root_.Verif.Spec.NearCurve.row {δ : ℝ} {c c' : Curve ℝ} (h : NearCurve δ c c') {i : Nat} (hi : i < c.size) :
    ‖rowVec c.ncols c.rows i - rowVec c.ncols c'.rows i‖ ≤ δ := by
  have := h.near i hi
  unfold gap at this
  rw [dist_eq_norm] at this
  exact this

section
variable {E : Type*} [NormedAddCommGroup E] [NormedSpace ℝ E]

theorem gradV_moved {m : Nat} {u v : Nat → E} {δ : ℝ} (h : ∀ i, i < m → ‖u i - v i‖ ≤ δ) (h3 : 3 ≤ m) {i : Nat} (hi : i < m) :
    ‖gradV m u i - gradV m v i‖ ≤ 4 * δ ∧ (1 ≤ i → i + 1 < m → ‖gradV m u i - gradV m v i‖ ≤ δ) := by
  have hδ : 0 ≤ δ := (norm_nonneg _).trans (h 0 (by omega))
  have mid : 1 ≤ i → i + 1 < m → ‖gradV m u i - gradV m v i‖ ≤ δ := by
    intro h1 h2
    unfold gradV
    rw [if_neg (by omega), if_neg (by omega), if_neg (by omega), if_neg (by omega)]
    rw [show (1 / 2 : ℝ) • (u (i + 1) - u (i - 1)) - (1 / 2 : ℝ) • (v (i + 1) - v (i - 1)) =
      (1 / 2 : ℝ) • (u (i + 1) - v (i + 1)) + (-1 / 2 : ℝ) • (u (i - 1) - v (i - 1)) by module]
    refine (norm_comb2 _ _ (h (i + 1) (by omega)) (h (i - 1) (by omega))).trans ?_
    norm_num [abs_of_neg, abs_of_pos]
    linarith
  refine ⟨?_, mid⟩
  by_cases h0 : i = 0
  · subst h0
    unfold gradV
    rw [if_pos rfl, if_pos rfl]
    rw [show (-1.5 : ℝ) • u 0 + (2 : ℝ) • u 1 + (-0.5 : ℝ) • u 2 - ((-1.5 : ℝ) • v 0 + (2 : ℝ) • v 1 + (-0.5 : ℝ) • v 2) =
      (-1.5 : ℝ) • (u 0 - v 0) + (2 : ℝ) • (u 1 - v 1) + (-0.5 : ℝ) • (u 2 - v 2) by module]
    refine (norm_comb3 _ _ _ (h 0 (by omega)) (h 1 (by omega)) (h 2 (by omega))).trans ?_
    norm_num [abs_of_neg, abs_of_pos]
    linarith
  · by_cases hl : i = m - 1
    · unfold gradV
      rw [if_neg h0, if_pos hl, if_neg h0, if_pos hl]
      rw [show (0.5 : ℝ) • u (m - 3) + (-2 : ℝ) • u (m - 2) + (1.5 : ℝ) • u (m - 1) - ((0.5 : ℝ) • v (m - 3) + (-2 : ℝ) • v (m - 2) + (1.5 : ℝ) • v (m - 1)) =
        (0.5 : ℝ) • (u (m - 3) - v (m - 3)) + (-2 : ℝ) • (u (m - 2) - v (m - 2)) + (1.5 : ℝ) • (u (m - 1) - v (m - 1)) by module]
      refine (norm_comb3 _ _ _ (h (m - 3) (by omega)) (h (m - 2) (by omega)) (h (m - 1) (by omega))).trans ?_
      norm_num [abs_of_neg, abs_of_pos]
      linarith
    · exact (mid (by omega) (by omega)).trans (by linarith)

end

/-- **C153 (derivatives).** If the points of a curve with three points or more are moved by at most `δ`, then the first, second and third
derivative change by at most `4 δ`, `16 δ` and `64 δ`, and by at most `δ` if the entry and the neighbours used are not at the ends; the speed
changes by no more than the first derivative. -/
theorem C153_derivatives {δ : ℝ} {c c' : Curve ℝ} (hc : WF c) (hc' : WF c') (h3 : 3 ≤ c.size) (h : NearCurve δ c c') {i : Nat} (hi : i < c.size) :
    ‖rowVec c.ncols (firstderiv c).rows i - rowVec c.ncols (firstderiv c').rows i‖ ≤ 4 * δ ∧
    ‖rowVec c.ncols (secondderiv c).rows i - rowVec c.ncols (secondderiv c').rows i‖ ≤ 16 * δ ∧
    ‖rowVec c.ncols (thirdderiv c).rows i - rowVec c.ncols (thirdderiv c').rows i‖ ≤ 64 * δ ∧
    (1 ≤ i → i + 1 < c.size → ‖rowVec c.ncols (firstderiv c).rows i - rowVec c.ncols (firstderiv c').rows i‖ ≤ δ) ∧
    (2 ≤ i → i + 2 < c.size → ‖rowVec c.ncols (secondderiv c).rows i - rowVec c.ncols (secondderiv c').rows i‖ ≤ δ) ∧
    (3 ≤ i → i + 3 < c.size → ‖rowVec c.ncols (thirdderiv c).rows i - rowVec c.ncols (thirdderiv c').rows i‖ ≤ δ) := by
  have hs : c'.size = c.size := h.size
  rw [first_row hc h3 hi, first_row hc' (by omega) (by omega), second_row hc h3 hi, second_row hc' (by omega) (by omega),
    third_row hc h3 hi, third_row hc' (by omega) (by omega), hs]
  have r0 : ∀ i, i < c.size → ‖rowVec c.ncols c.rows i - rowVec c.ncols c'.rows i‖ ≤ δ := fun i hi => h.row hi
  have r1 := fun i (hi : i < c.size) => (gradV_moved r0 h3 hi).1
  have r2 := fun i (hi : i < c.size) => (gradV_moved r1 h3 hi).1
  have r3 := fun i (hi : i < c.size) => (gradV_moved r2 h3 hi).1
  have s1 := fun i (hi : i < c.size) => (gradV_moved r0 h3 hi).2
  have mid : ∀ (u v : Nat → EuclideanSpace ℝ (Fin c.ncols)) (i : Nat), 1 ≤ i → i + 1 < c.size → ‖u (i + 1) - v (i + 1)‖ ≤ δ → ‖u (i - 1) - v (i - 1)‖ ≤ δ →
      ‖gradV c.size u i - gradV c.size v i‖ ≤ δ := by
    intro u v i h1 h2 a b
    unfold gradV
    rw [if_neg (by omega), if_neg (by omega), if_neg (by omega), if_neg (by omega)]
    rw [show (1 / 2 : ℝ) • (u (i + 1) - u (i - 1)) - (1 / 2 : ℝ) • (v (i + 1) - v (i - 1)) =
      (1 / 2 : ℝ) • (u (i + 1) - v (i + 1)) + (-1 / 2 : ℝ) • (u (i - 1) - v (i - 1)) by module]
    refine (norm_comb2 _ _ a b).trans ?_
    norm_num [abs_of_neg, abs_of_pos]
    linarith
  have s2 : ∀ i, 2 ≤ i → i + 2 < c.size → _ := fun i h1 h2 =>
    mid (gradV c.size fun i => rowVec c.ncols c.rows i) (gradV c.size fun i => rowVec c.ncols c'.rows i) i (by omega) (by omega)
      (s1 (i + 1) (by omega) (by omega) (by omega)) (s1 (i - 1) (by omega) (by omega) (by omega))
  refine ⟨r1 i hi, (r2 i hi).trans (by linarith), (r3 i hi).trans (by linarith), s1 i hi, s2 i, ?_⟩
  intro h1 h2
  exact mid _ _ i (by omega) (by omega) (s2 (i + 1) (by omega) (by omega)) (s2 (i - 1) (by omega) (by omega))

/-- **C153 (speed).** The speed changes by at most `4 δ`, and by at most `δ` except at the two ends. -/
theorem C153_speed {δ : ℝ} {c c' : Curve ℝ} (hc : WF c) (hc' : WF c') (h3 : 3 ≤ c.size) (h : NearCurve δ c c') (junk : ℝ) :
    ∃ xs ys, fresh junk c .speed = .ok (.nums xs) ∧ fresh junk c' .speed = .ok (.nums ys) ∧ xs.length = c.size ∧ ys.length = c.size ∧
      ∀ i, i < c.size → ∃ x y, xs[i]? = some (.fin x) ∧ ys[i]? = some (.fin y) ∧ |x - y| ≤ 4 * δ ∧ (1 ≤ i → i + 1 < c.size → |x - y| ≤ δ) := by
  have hs : c'.size = c.size := h.size
  refine ⟨(List.range c.size).map fun i => .fin (rowNorm (firstderiv c) i), (List.range c.size).map fun i => .fin (rowNorm (firstderiv c') i), ?_, ?_, by simp, by simp, ?_⟩
  · unfold fresh
    rw [if_neg (by intro h0; simp [Curve.size, h0] at h3)]
  · unfold fresh
    rw [if_neg (by intro h0; simp [Curve.size, h0] at hs; simp [Curve.size] at h3; omega)]
    simp only [hs]
  · intro i hi
    have k1 : (firstderiv c).k = c.ncols := firstderiv_k (by omega)
    have k2 : (firstderiv c').k = c'.ncols := firstderiv_k (by omega)
    refine ⟨rowNorm (firstderiv c) i, rowNorm (firstderiv c') i, by simp [hi], by simp [hi], ?_⟩
    rw [rowNorm_eq (n := c.ncols) k1.le (by rw [(shapes_m c).1]; exact hi),
      rowNorm_eq (n := c.ncols) (by rw [k2, h.ndim]) (by rw [(shapes_m c').1]; omega)]
    obtain ⟨d1, _, _, d2, _⟩ := C153_derivatives hc hc' h3 h hi
    exact ⟨(abs_norm_sub_norm_le _ _).trans d1, fun h1 h2 => (abs_norm_sub_norm_le _ _).trans (d2 h1 h2)⟩

/-- **C153 (tangents).** Where the speed of both curves exceeds the threshold `1e-8`, the unit tangents differ by at most `8 δ` divided by the speed. -/
theorem C153_tangent {δ : ℝ} {c c' : Curve ℝ} (hc : WF c) (hc' : WF c') (h3 : 3 ≤ c.size) (h : NearCurve δ c c') {i : Nat} (hi : i < c.size)
    (hv : 1 / 10 ^ 8 < ‖rowVec c.ncols (firstderiv c).rows i‖) (hv' : 1 / 10 ^ 8 < ‖rowVec c.ncols (firstderiv c').rows i‖) :
    ‖rowVec c.ncols (frenet1 c).rows i - rowVec c.ncols (frenet1 c').rows i‖ ≤ 8 * δ / ‖rowVec c.ncols (firstderiv c').rows i‖ := by
  have hs : c'.size = c.size := h.size
  have k1 : (firstderiv c).k = c.ncols := firstderiv_k (by omega)
  have k2 : (firstderiv c').k = c'.ncols := firstderiv_k (by omega)
  have n1 : Normalised (rowVec c.ncols (firstderiv c).rows i) (rowVec c.ncols (frenet1 c).rows i) :=
    normalised_unitRows k1.le (by rw [(shapes_m c).1]; exact hi)
  have n2 : Normalised (rowVec c.ncols (firstderiv c').rows i) (rowVec c.ncols (frenet1 c').rows i) :=
    normalised_unitRows (by rw [k2, h.ndim]) (by rw [(shapes_m c').1]; omega)
  have d1 := (C153_derivatives hc hc' h3 h hi).1
  obtain ⟨-, u1⟩ := unit_row n1 hv one_pos le_rfl (lt_trans (by norm_num) hv') (η := 4 * δ) (by rw [one_smul]; exact d1)
  obtain ⟨-, u2⟩ := unit_row n2 hv' one_pos le_rfl (lt_trans (by norm_num) hv') (η := 0) (by rw [one_smul]; simp)
  rw [mul_zero, zero_div] at u2
  have u3 := norm_le_zero_iff.1 u2
  rw [sub_eq_zero] at u3
  rw [u3]
  refine u1.trans_eq ?_
  rw [one_mul]
  ring

/-- Curvature in the plane as a function of the two derivatives. -/
theorem planeCurv_moved {p q p' q' : EuclideanSpace ℝ (Fin 2)} {v S δ : ℝ} (h0 : 0 < v) (hv : v ≤ ‖p‖) (hS : ‖q‖ ≤ S) (h1 : ‖p - p'‖ ≤ 4 * δ) (h2 : ‖q - q'‖ ≤ 16 * δ)
    (hsm : 8 * δ ≤ v) : p' ≠ 0 ∧ |planeCurv p q - planeCurv p' q'| ≤ (184 * S / v ^ 3 + 192 / v ^ 2) * δ := by
  have hP0 : 0 < ‖p‖ := lt_of_lt_of_le h0 hv
  have hδ : 0 ≤ δ := by have := (norm_nonneg _).trans h1; linarith
  have hS0 : 0 ≤ S := (norm_nonneg _).trans hS
  obtain ⟨hab1, hab2⟩ := abs_le.1 ((abs_norm_sub_norm_le p p').trans h1)
  have hP' : ‖p‖ / 2 ≤ ‖p'‖ := by linarith
  have hP'2 : ‖p'‖ ≤ 3 / 2 * ‖p‖ := by linarith
  have hP'0 : 0 < ‖p'‖ := by linarith
  refine ⟨norm_pos_iff.1 hP'0, ?_⟩
  have cr : ∀ a b : EuclideanSpace ℝ (Fin 2), |a 0 * b 1 - a 1 * b 0| ≤ ‖a‖ * ‖b‖ := by
    intro a b
    rw [norm_plane, norm_plane, ← Real.sqrt_mul (by nlinarith [mul_self_nonneg (a 0), mul_self_nonneg (a 1)])]
    apply Real.abs_le_sqrt
    nlinarith [sq_nonneg (a 0 * b 0 + a 1 * b 1)]
  unfold planeCurv
  obtain ⟨X, hX⟩ : ∃ X, X = p 0 * q 1 - p 1 * q 0 := ⟨_, rfl⟩
  obtain ⟨X', hX'⟩ : ∃ X', X' = p' 0 * q' 1 - p' 1 * q' 0 := ⟨_, rfl⟩
  rw [← hX, ← hX']
  have bX : |X| ≤ ‖p‖ * S := by rw [hX]; exact (cr p q).trans (by gcongr)
  have bd : |X - X'| ≤ 4 * δ * (S + 16 * δ) + ‖p‖ * (16 * δ) := by
    have e : X - X' = ((p - p') 0 * q' 1 - (p - p') 1 * q' 0) + (p 0 * (q - q') 1 - p 1 * (q - q') 0) := by
      rw [hX, hX']; simp only [PiLp.sub_apply]; ring
    rw [e]
    refine (abs_add_le _ _).trans (add_le_add ((cr _ _).trans ?_) ((cr _ _).trans ?_))
    · have : ‖q'‖ ≤ S + 16 * δ := by
        have := (abs_le.1 ((abs_norm_sub_norm_le q q').trans h2)).1
        linarith
      exact mul_le_mul h1 this (norm_nonneg _) (by linarith)
    · gcongr
  have bd2 : |X - X'| ≤ 4 * δ * S + 24 * δ * ‖p‖ := by nlinarith
  generalize ‖p‖ = P at *
  generalize ‖p'‖ = P' at *
  have e : X / P ^ 3 - X' / P' ^ 3 = (X - X') / P' ^ 3 + X * ((P' ^ 3 - P ^ 3) / (P ^ 3 * P' ^ 3)) := by
    field_simp
    ring
  have hd3 : |P' ^ 3 - P ^ 3| ≤ 19 * δ * P ^ 2 := by
    have : P' ^ 3 - P ^ 3 = (P' - P) * (P' ^ 2 + P' * P + P ^ 2) := by ring
    rw [this, abs_mul, abs_of_nonneg (show 0 ≤ P' ^ 2 + P' * P + P ^ 2 by positivity)]
    have q1 : |P' - P| ≤ 4 * δ := by rw [abs_sub_comm, abs_le]; constructor <;> linarith
    have q2 : P' ^ 2 + P' * P + P ^ 2 ≤ 19 / 4 * P ^ 2 := by nlinarith
    calc |P' - P| * (P' ^ 2 + P' * P + P ^ 2) ≤ (4 * δ) * (19 / 4 * P ^ 2) := mul_le_mul q1 q2 (by positivity) (by linarith)
      _ = 19 * δ * P ^ 2 := by ring
  have hinv : 1 / P' ^ 3 ≤ 8 / P ^ 3 := by
    rw [div_le_div_iff₀ (by positivity) (by positivity)]
    have : (P / 2) ^ 3 ≤ P' ^ 3 := by gcongr
    nlinarith
  rw [e]
  refine (abs_add_le _ _).trans ?_
  rw [abs_div, abs_mul, abs_div, abs_of_pos (show 0 < P' ^ 3 by positivity), abs_of_pos (show 0 < P ^ 3 * P' ^ 3 by positivity)]
  have t1 : |X - X'| / P' ^ 3 ≤ (4 * δ * S + 24 * δ * P) * (8 / P ^ 3) := by
    rw [div_eq_mul_one_div]
    exact mul_le_mul bd2 hinv (by positivity) (by positivity)
  have t2 : |X| * (|P' ^ 3 - P ^ 3| / (P ^ 3 * P' ^ 3)) ≤ (P * S) * (19 * δ * P ^ 2 / P ^ 3 * (8 / P ^ 3)) := by
    refine mul_le_mul bX ?_ (by positivity) (by positivity)
    rw [show |P' ^ 3 - P ^ 3| / (P ^ 3 * P' ^ 3) = |P' ^ 3 - P ^ 3| / P ^ 3 * (1 / P' ^ 3) by field_simp]
    exact mul_le_mul (by gcongr) hinv (by positivity) (by positivity)
  have t3 : (4 * δ * S + 24 * δ * P) * (8 / P ^ 3) + (P * S) * (19 * δ * P ^ 2 / P ^ 3 * (8 / P ^ 3)) = (184 * S / P ^ 3 + 192 / P ^ 2) * δ := by
    field_simp
    ring
  calc _ ≤ _ := add_le_add t1 t2
    _ = _ := t3
    _ ≤ _ := by gcongr

/-- **C153 (curvature).** A plane curve of three points or more whose speed is at least `v` and whose second derivative is at most `S`: if its points are moved by `δ`, at most
`v / 8`, then both curves have a curvature at every point, and it changes by at most `(184 S / v³ + 192 / v²) δ`. -/
theorem C153_curvature {δ v S : ℝ} {c c' : Curve ℝ} (hc : WF c) (hc' : WF c') (h2 : c.ncols = 2) (h3 : 3 ≤ c.size) (h : NearCurve δ c c') (h0 : 0 < v)
    (hv : ∀ i, i < c.size → v ≤ ‖rowVec 2 (firstderiv c).rows i‖) (hS : ∀ i, i < c.size → ‖rowVec 2 (secondderiv c).rows i‖ ≤ S) (hsm : 8 * δ ≤ v) :
    ∃ ks ks', curvature c = .ok ks ∧ curvature c' = .ok ks' ∧ ks.length = c.size ∧ ks'.length = c.size ∧
      ∀ i, i < c.size → ∃ k k', ks[i]? = some (.fin k) ∧ ks'[i]? = some (.fin k') ∧ |k - k'| ≤ (184 * S / v ^ 3 + 192 / v ^ 2) * δ := by
  have hs : c'.size = c.size := h.size
  obtain ⟨ks, e1, e2, e3⟩ := curvature_plane h2 (c := c) (by omega)
  obtain ⟨ks', f1, f2, f3⟩ := curvature_plane (c := c') (by rw [h.ndim, h2]) (by omega)
  refine ⟨ks, ks', e1, f1, e2, by omega, fun i hi => ?_⟩
  obtain ⟨d1, d2, -⟩ := C153_derivatives hc hc' h3 h hi
  rw [h2] at d1 d2
  obtain ⟨n0, b⟩ := planeCurv_moved h0 (hv i hi) (hS i hi) d1 d2 hsm
  exact ⟨_, _, e3 i hi (norm_pos_iff.1 (lt_of_lt_of_le h0 (hv i hi))), f3 i (by omega) n0, b⟩

/-! ### Linear interpolation and smoothing -/

/-- **C153 (linear interpolation).** Two curves of a float dtype with the same increasing parameter, whose points are not farther apart than `δ`, interpolated linearly at the same values inside
the range of the parameter: the resulting points are not farther apart than `δ`. -/
theorem C153_linear {δ : ℝ} {c c' : Curve ℝ} (hc : WF c) (hc' : WF c') (hs : 2 ≤ c.size) (h : NearCurve δ c c') {junk : ℝ} (ht : (c.t junk).Pairwise (· < ·))
    (htt : c'.t junk = c.t junk) (hd : c.dtype ≠ .int) (hd' : c'.dtype ≠ .int) {r : InterpReg Bool} {m : String} (hr : IsLinear junk r m) (ex : Bool) {xs : List ℝ}
    (hne : xs ≠ []) (hx : StepsOver xs) {t0 t1 : ℝ} (ht0 : (c.t junk).head? = some t0) (ht1 : (c.t junk).getLast? = some t1) (hxs : ∀ x ∈ xs, t0 ≤ x ∧ x ≤ t1) :
    ∃ R R' C C', c.interpolate r (.arr (.ok (GridArr.of (fins xs)))) m ex = .ok R ∧ c'.interpolate r (.arr (.ok (GridArr.of (fins xs)))) m ex = .ok R' ∧
      Represents R C ∧ Represents R' C' ∧ NearCurve δ C C' ∧ C.size = xs.length := by
  have hsz : c'.size = c.size := h.size
  obtain ⟨R, C, e1, e2, e3, e4, -, -, e5⟩ := C64_between_partial hc hs ht hd hr ex hne hx ht0 ht1 (.inr hxs)
  obtain ⟨R', C', f1, f2, f3, f4, -, -, f5⟩ := C64_between_partial hc' (by omega) (by rw [htt]; exact ht) hd' hr ex hne hx (by rw [htt]; exact ht0) (by rw [htt]; exact ht1) (.inr hxs)
  refine ⟨R, R', C, C', e1, f1, e2, f2, ⟨by rw [e4, f4, h.ndim], ?_, ?_⟩, e3⟩
  · have e3' : C.rows.length = xs.length := e3
    have f3' : C'.rows.length = xs.length := f3
    omega
  intro j hj
  have e3' : C.rows.length = xs.length := e3
  obtain ⟨x, hj1⟩ : ∃ x, xs[j]? = some x := ⟨_, List.getElem?_eq_getElem (by omega)⟩
  obtain ⟨l0, l1⟩ := hxs x (List.mem_of_getElem? hj1)
  have hlt : (c.t junk).length = c.rows.length := t_length hc (rows_ne_of_size hs) junk
  have hs' : 2 ≤ c.rows.length := hs
  have hsz' : c'.rows.length = c.rows.length := h.size
  obtain ⟨i, u, v, k1, k2, k3, k4⟩ := between_neighbours (c.t junk) (by omega) ht0 ht1 l0 l1
  have hi : i + 1 < c.rows.length := by
    have := (List.getElem?_eq_some_iff.1 k2).1
    omega
  obtain ⟨p, ep⟩ : ∃ p, c.rows[i]? = some p := ⟨_, List.getElem?_eq_getElem (by omega)⟩
  obtain ⟨q, eq⟩ : ∃ q, c.rows[i + 1]? = some q := ⟨_, List.getElem?_eq_getElem hi⟩
  obtain ⟨p', ep'⟩ : ∃ p, c'.rows[i]? = some p := ⟨_, List.getElem?_eq_getElem (by omega)⟩
  obtain ⟨q', eq'⟩ : ∃ q, c'.rows[i + 1]? = some q := ⟨_, List.getElem?_eq_getElem (by omega)⟩
  obtain ⟨s, s0, s1, s2, s3⟩ := e5 j i x u v p q hj1 k1 k2 ep eq k3 k4
  obtain ⟨s', s0', s1', s2', s3'⟩ := f5 j i x u v p' q' hj1 (by rw [htt]; exact k1) (by rw [htt]; exact k2) ep' eq' k3 k4
  have huv : u < v := by
    obtain ⟨p1, g1⟩ := List.getElem?_eq_some_iff.1 k1
    obtain ⟨p2, g2⟩ := List.getElem?_eq_some_iff.1 k2
    rw [← g1, ← g2]
    exact List.pairwise_iff_getElem.1 ht _ _ _ _ (by omega)
  have hss : s' = s := by
    have : (v - u) * s' = (v - u) * s := by rw [s2, s2']
    exact mul_left_cancel₀ (by linarith : v - u ≠ 0) this
  subst hss
  have n1 := h.near i (by omega)
  have n2 := h.near (i + 1) hi
  simp only [List.getD_eq_getElem?_getD, ep, eq, ep', eq', Option.getD_some] at n1 n2
  simp only [List.getD_eq_getElem?_getD, s3, s3', Option.getD_some]
  rw [e4]
  unfold gap at *
  rw [dist_eq_norm] at *
  rw [pt_mix (n := c.ncols) (hc.rect _ (List.mem_of_getElem? ep)) (hc.rect _ (List.mem_of_getElem? eq)),
    pt_mix (n := c.ncols) (h.ndim ▸ hc'.rect _ (List.mem_of_getElem? ep')) (h.ndim ▸ hc'.rect _ (List.mem_of_getElem? eq'))]
  rw [show pt c.ncols p + s' • (pt c.ncols q - pt c.ncols p) - (pt c.ncols p' + s' • (pt c.ncols q' - pt c.ncols p')) =
    (1 - s') • (pt c.ncols p - pt c.ncols p') + s' • (pt c.ncols q - pt c.ncols q') by module]
  refine (norm_comb2 _ _ n1 n2).trans ?_
  rw [abs_of_nonneg (by linarith), abs_of_nonneg s0]
  nlinarith

/-- **C153 (window smoothing).** Two float curves whose points are not farther apart than `δ`, smoothed with the same window of entries at least 0 and a positive sum, in a mode that repeats points of the curve
(`reflect`, the default, `mirror`, `nearest` or `wrap`): the resulting points are not farther apart than `δ`. -/
theorem C153_window {δ : ℝ} {c c' : Curve ℝ} (hc : WF c) (hc' : WF c') (hne : c.rows ≠ []) (h : NearCurve δ c c') (hd : c.dtype = .float) (hd' : c'.dtype = .float)
    {r : Reg SmoothFn} {m : String} (hf : getSmooth r m = .ok windowFn) {ws : List ℝ} (hw : ∀ x ∈ ws, 0 ≤ x)
    (hs : 0 < ws.sum) {p : WinParams} (hp : makeWindow p.wtype p.size = .ok (.floats (fins ws))) (hmode : RepeatMode p.mode) :
    ∃ C C', (finCurve c).smooth r m (.window p) = .ok (finCurve C) ∧ (finCurve c').smooth r m (.window p) = .ok (finCurve C') ∧ NearCurve δ C C' ∧ C.size = c.size := by
  have hsz : c'.size = c.size := h.size
  obtain ⟨A, hA0, hA1, hA⟩ := C68_averaging hf hw hs hp hmode c.size (List.length_pos_iff.2 hne)
  obtain ⟨C, e1, e2, e3, -, -, -, e4⟩ := hA c hc rfl hd
  obtain ⟨C', f1, f2, f3, -, -, -, f4⟩ := hA c' hc' hsz hd'
  have e2' : C.rows.length = c.size := e2
  have f2' : C'.rows.length = c.size := f2
  refine ⟨C, C', e1, f1, ⟨by rw [e3, f3, h.ndim], by omega, ?_⟩, e2⟩
  intro i hi
  have hi : i < c.size := by omega
  have key : ∀ (c C : Curve ℝ) (k : Nat), (∀ j, j < k → at2 C.rows i j = ∑ q ∈ Finset.range c.size, A i q * at2 c.rows q j) →
      rowVec k C.rows i = ∑ q ∈ Finset.range c.size, A i q • rowVec k c.rows q := by
    intro c C k hk
    ext j
    rw [WithLp.ofLp_sum, Finset.sum_apply]
    exact hk j j.2
  have a1 := key c C c.ncols fun j hj => e4 i j hi hj
  have a2 := key c' C' c.ncols fun j hj => by rw [hsz]; exact f4 i j hi (by rw [h.ndim]; exact hj)
  rw [hsz] at a2
  rw [e3]
  show dist (rowVec c.ncols C.rows i) (rowVec c.ncols C'.rows i) ≤ δ
  rw [a1, a2, dist_eq_norm, ← Finset.sum_sub_distrib]
  calc ‖∑ q ∈ Finset.range c.size, (A i q • rowVec c.ncols c.rows q - A i q • rowVec c.ncols c'.rows q)‖
      ≤ ∑ q ∈ Finset.range c.size, A i q * δ := by
        refine norm_sum_le_of_le _ fun q hq => ?_
        rw [← smul_sub, norm_smul, Real.norm_eq_abs, abs_of_nonneg (hA0 i q)]
        exact mul_le_mul_of_nonneg_left (h.row (Finset.mem_range.1 hq)) (hA0 i q)
    _ = δ := by rw [← Finset.sum_mul, hA1, one_mul]

/-! ### Segments -/

section
variable {n : Nat}

theorem point_moved {s s' : Seg n ℝ} {δ x : ℝ} (h1 : Model.edist s.p1 s'.p1 ≤ δ) (h2 : Model.edist s.p2 s'.p2 ≤ δ) (x0 : 0 ≤ x) (x1 : x ≤ 1) :
    Model.edist (s.point x) (s'.point x) ≤ δ := by
  rw [edist_eq_vnorm] at *
  rw [Seg.point_eq, Seg.point_eq]
  have e : s.p1 + x • s.direction - (s'.p1 + x • s'.direction) = (1 - x) • (s.p1 - s'.p1) + x • (s.p2 - s'.p2) := by
    unfold Seg.direction
    module
  rw [e]
  refine (vnorm_add_le _ _).trans ?_
  rw [vnorm_smul, vnorm_smul, abs_of_nonneg (by linarith), abs_of_nonneg x0]
  nlinarith

/-- The error of the distance of a segment and a point, from C32. -/
noncomputable def pointErr (s : Seg n ℝ) (p : Vec n ℝ) : ℝ := √ (2 / 100000000 + 1 / 100000 * |∑ i, (p i - s.p1 i) * (s.p2 i - s.p1 i)|)

theorem sqrt_of_sq {a b e : ℝ} (hb : 0 ≤ b) (he : 0 ≤ e) (h : a ^ 2 ≤ b ^ 2 + e) : a ≤ b + √ e := by
  have h2 : a ^ 2 ≤ (b + √ e) ^ 2 := by
    have := Real.sq_sqrt he
    nlinarith [mul_nonneg hb (Real.sqrt_nonneg e)]
  exact (le_abs_self a).trans (abs_le_of_sq_le_sq h2 (by positivity))

theorem between_point {s : Seg n ℝ} {P : Vec n ℝ} (h : Between s.p1 s.p2 P) : ∃ x, 0 ≤ x ∧ x ≤ 1 ∧ P = s.point x := by
  obtain ⟨x, x0, x1, e⟩ := h
  exact ⟨x, x0, x1, by rw [e, Seg.point_eq]; rfl⟩

theorem distance_point_le {s s' : Seg n ℝ} {p p' : Vec n ℝ} {δ : ℝ} (h1 : Model.edist s.p1 s'.p1 ≤ δ) (h2 : Model.edist s.p2 s'.p2 ≤ δ) (hp : Model.edist p p' ≤ δ) :
    s.distance (.point p) ≤ s'.distance (.point p') + 2 * δ + pointErr s p := by
  obtain ⟨b1, b2, -⟩ := C32_distance_partial s' p'
  obtain ⟨-, -, b3⟩ := C32_distance_partial s p
  obtain ⟨x, x0, x1, e⟩ := between_point b1
  have d' : s'.distance (.point p') = Model.edist (s'.point x) p' := by
    unfold Seg.distance Seg.seglen
    rw [e, b2]
  have k := sqrt_of_sq (Model.edist_nonneg _ _) (by positivity) (b3 x x0 x1)
  have t := Model.edist_triangle (s.point x) (s'.point x) p
  have t' := Model.edist_triangle (s'.point x) p' p
  have m := point_moved h1 h2 x0 x1
  rw [Model.edist_comm] at hp
  unfold pointErr
  linarith

/-- **C153 (distance of a segment and a point).** If the ends of a segment and the point are moved by at most `δ`, the computed distance changes by at most `2 δ`, up to the error of the computation (C32). -/
theorem C153_distance_point {s s' : Seg n ℝ} {p p' : Vec n ℝ} {δ : ℝ} (h1 : Model.edist s.p1 s'.p1 ≤ δ) (h2 : Model.edist s.p2 s'.p2 ≤ δ) (hp : Model.edist p p' ≤ δ) :
    |s.distance (.point p) - s'.distance (.point p')| ≤ 2 * δ + max (pointErr s p) (pointErr s' p') := by
  have a := distance_point_le h1 h2 hp
  have b := distance_point_le (s := s') (s' := s) (p := p') (p' := p) (δ := δ) (by rwa [Model.edist_comm]) (by rwa [Model.edist_comm]) (by rwa [Model.edist_comm])
  have m1 := le_max_left (pointErr s p) (pointErr s' p')
  have m2 := le_max_right (pointErr s p) (pointErr s' p')
  rw [abs_le]
  constructor <;> linarith

theorem distance_seg_le {s s' r r' : Seg n ℝ} {δ : ℝ} (hr : r.p1 ≠ r.p2) (h1 : Model.edist s.p1 s'.p1 ≤ δ) (h2 : Model.edist s.p2 s'.p2 ≤ δ)
    (h3 : Model.edist r.p1 r'.p1 ≤ δ) (h4 : Model.edist r.p2 r'.p2 ≤ δ) :
    s.distance (.seg r) ≤ s'.distance (.seg r') + 2 * δ + distErr (s.p2 - s.p1) (r.p2 - r.p1) := by
  obtain ⟨b1, b2⟩ := C33_endpoints s' r'
  obtain ⟨x, x0, x1, e⟩ := between_point b1
  obtain ⟨y, y0, y1, e'⟩ := between_point b2
  have d' : s'.distance (.seg r') = Model.edist (s'.point x) (r'.point y) := by
    unfold Seg.distance Seg.seglen
    rw [e, e']
  have k := C34_bound_partial s r hr x0 x1 y0 y1
  have t := Model.edist_triangle (s.point x) (s'.point x) (r.point y)
  have t' := Model.edist_triangle (s'.point x) (r'.point y) (r.point y)
  have m := point_moved h1 h2 x0 x1
  have m' := point_moved h3 h4 y0 y1
  rw [Model.edist_comm] at m'
  linarith

/-- **C153 (distance of two segments).** If the ends of two segments are moved by at most `δ`, and the second ones are not singular, the computed distance changes by at most `2 δ`, up to the error of the
computation (C34). -/
theorem C153_distance_segment {s s' r r' : Seg n ℝ} {δ : ℝ} (hr : r.p1 ≠ r.p2) (hr' : r'.p1 ≠ r'.p2) (h1 : Model.edist s.p1 s'.p1 ≤ δ) (h2 : Model.edist s.p2 s'.p2 ≤ δ)
    (h3 : Model.edist r.p1 r'.p1 ≤ δ) (h4 : Model.edist r.p2 r'.p2 ≤ δ) :
    |s.distance (.seg r) - s'.distance (.seg r')| ≤ 2 * δ + max (distErr (s.p2 - s.p1) (r.p2 - r.p1)) (distErr (s'.p2 - s'.p1) (r'.p2 - r'.p1)) := by
  have a := distance_seg_le hr h1 h2 h3 h4
  have b := distance_seg_le (s := s') (s' := s) (r := r') (r' := r) (δ := δ) hr' (by rwa [Model.edist_comm]) (by rwa [Model.edist_comm]) (by rwa [Model.edist_comm]) (by rwa [Model.edist_comm])
  have m1 := le_max_left (distErr (s.p2 - s.p1) (r.p2 - r.p1)) (distErr (s'.p2 - s'.p1) (r'.p2 - r'.p1))
  have m2 := le_max_right (distErr (s.p2 - s.p1) (r.p2 - r.p1)) (distErr (s'.p2 - s'.p1) (r'.p2 - r'.p1))
  rw [abs_le]
  constructor <;> linarith

end

/-! ### Crossings in the plane -/

theorem cross2_le (a b : Vec 2 ℝ) : |cross2 a b| ≤ vnorm a * vnorm b := by
  unfold vnorm cross2
  rw [← Real.sqrt_mul (vdot_self_nonneg a)]
  apply Real.abs_le_sqrt
  simp only [vdot_eq, Fin.sum_univ_two]
  nlinarith [sq_nonneg (a 0 * b 0 + a 1 * b 1)]

theorem gram_cross2 (a b : Vec 2 ℝ) : gram a b = cross2 a b ^ 2 := by
  unfold gram cross2
  simp only [Fin.sum_univ_two]
  ring

theorem direction_moved {n : Nat} {s s' : Seg n ℝ} {δ L : ℝ} (h1 : Model.edist s.p1 s'.p1 ≤ δ) (h2 : Model.edist s.p2 s'.p2 ≤ δ) (hL : Model.edist s.p1 s.p2 ≤ L) :
    vnorm (s'.p2 - s'.p1) ≤ L + 2 * δ ∧ vnorm ((s'.p2 - s'.p1) - (s.p2 - s.p1)) ≤ 2 * δ := by
  have e2 : vnorm (s'.p2 - s'.p1 - (s.p2 - s.p1)) ≤ 2 * δ := by
    rw [show s'.p2 - s'.p1 - (s.p2 - s.p1) = (s'.p2 - s.p2) + (s.p1 - s'.p1) by abel]
    refine (vnorm_add_le _ _).trans ?_
    rw [← edist_eq_vnorm, ← edist_eq_vnorm, Model.edist_comm s'.p2]
    linarith
  refine ⟨?_, e2⟩
  have := vnorm_add_le (s.p2 - s.p1) (s'.p2 - s'.p1 - (s.p2 - s.p1))
  rw [add_sub_cancel, ← edist_eq_vnorm s.p2 s.p1, Model.edist_comm] at this
  linarith

theorem cross2_moved {s s' r r' : Seg 2 ℝ} {δ L D : ℝ} (h1 : Model.edist s.p1 s'.p1 ≤ δ) (h2 : Model.edist s.p2 s'.p2 ≤ δ) (h3 : Model.edist r.p1 r'.p1 ≤ δ) (h4 : Model.edist r.p2 r'.p2 ≤ δ)
    (hs : Model.edist s.p1 s.p2 ≤ L) (hr : Model.edist r.p1 r.p2 ≤ L) (hD : D ≤ |cross2 (s.p2 - s.p1) (r.p2 - r.p1)|) (hsm : 8 * δ * (L + δ) ≤ D) :
    D / 2 ≤ |cross2 (s'.p2 - s'.p1) (r'.p2 - r'.p1)| := by
  have hδ : 0 ≤ δ := (Model.edist_nonneg _ _).trans h1
  have hL : 0 ≤ L := (Model.edist_nonneg _ _).trans hs
  obtain ⟨a1, a2⟩ := direction_moved h1 h2 hs
  obtain ⟨b1, b2⟩ := direction_moved h3 h4 hr
  have hs' : vnorm (s.p2 - s.p1) ≤ L := by rw [← edist_eq_vnorm, Model.edist_comm]; exact hs
  have e : cross2 (s'.p2 - s'.p1) (r'.p2 - r'.p1) - cross2 (s.p2 - s.p1) (r.p2 - r.p1) =
      cross2 (s'.p2 - s'.p1 - (s.p2 - s.p1)) (r'.p2 - r'.p1) + cross2 (s.p2 - s.p1) (r'.p2 - r'.p1 - (r.p2 - r.p1)) := by
    unfold cross2
    simp only [Pi.sub_apply]
    ring
  have k : |cross2 (s'.p2 - s'.p1) (r'.p2 - r'.p1) - cross2 (s.p2 - s.p1) (r.p2 - r.p1)| ≤ 2 * δ * (L + 2 * δ) + L * (2 * δ) := by
    rw [e]
    refine (abs_add_le _ _).trans (add_le_add ((cross2_le _ _).trans ?_) ((cross2_le _ _).trans ?_))
    · exact mul_le_mul a2 b1 (vnorm_nonneg _) (by linarith)
    · exact mul_le_mul hs' b2 (vnorm_nonneg _) hL
  have t := abs_sub_abs_le_abs_sub (cross2 (s.p2 - s.p1) (r.p2 - r.p1)) (cross2 (s'.p2 - s'.p1) (r'.p2 - r'.p1))
  rw [abs_sub_comm (cross2 (s.p2 - s.p1) (r.p2 - r.p1))] at t
  nlinarith

/-- Moving the ends of two crossing segments moves the common point a little. -/
theorem crossing_moved {s s' r r' : Seg 2 ℝ} {δ L D m x y : ℝ} {P : Vec 2 ℝ}
    (h1 : Model.edist s.p1 s'.p1 ≤ δ) (h2 : Model.edist s.p2 s'.p2 ≤ δ) (h3 : Model.edist r.p1 r'.p1 ≤ δ) (h4 : Model.edist r.p2 r'.p2 ≤ δ)
    (hs : Model.edist s.p1 s.p2 ≤ L) (hr : Model.edist r.p1 r.p2 ≤ L) (hD : D ≤ |cross2 (s.p2 - s.p1) (r.p2 - r.p1)|) (hD0 : 0 < D) (hsm : 8 * δ * (L + δ) ≤ D)
    (hP : P = s.p1 + x • (s.p2 - s.p1)) (hP' : P = r.p1 + y • (r.p2 - r.p1)) (x0 : m ≤ x) (x1 : x ≤ 1 - m) (y0 : m ≤ y) (y1 : y ≤ 1 - m) (hm : 4 * δ * (L + 2 * δ) ≤ m * D) :
    ∃ Q, Between s'.p1 s'.p2 Q ∧ Between r'.p1 r'.p2 Q ∧ Model.edist P Q ≤ δ + 4 * δ * (L + 2 * δ) ^ 2 / D := by
  have hδ : 0 ≤ δ := (Model.edist_nonneg _ _).trans h1
  have hL : 0 ≤ L := (Model.edist_nonneg _ _).trans hs
  have hm0 : 0 ≤ m := by
    by_contra hn
    push Not at hn
    have : 0 ≤ 4 * δ * (L + 2 * δ) := by positivity
    nlinarith
  obtain ⟨a1, -⟩ := direction_moved h1 h2 hs
  obtain ⟨b1, -⟩ := direction_moved h3 h4 hr
  have hD' := cross2_moved h1 h2 h3 h4 hs hr hD hsm
  have p1 := point_moved h1 h2 (hm0.trans x0) (by linarith : x ≤ 1)
  have p2 := point_moved h3 h4 (hm0.trans y0) (by linarith : y ≤ 1)
  have q1 : s.point x = P := by rw [hP, Seg.point_eq]; rfl
  have q2 : r.point y = P := by rw [hP', Seg.point_eq]; rfl
  rw [q1] at p1
  rw [q2] at p2
  obtain ⟨e, he⟩ : ∃ e, e = s'.point x - r'.point y := ⟨_, rfl⟩
  have be : vnorm e ≤ 2 * δ := by
    rw [he, ← edist_eq_vnorm]
    have := Model.edist_triangle (s'.point x) P (r'.point y)
    rw [Model.edist_comm (s'.point x) P] at this
    linarith
  obtain ⟨u, hu⟩ : ∃ u, u = s'.p2 - s'.p1 := ⟨_, rfl⟩
  obtain ⟨v, hv⟩ : ∃ v, v = r'.p2 - r'.p1 := ⟨_, rfl⟩
  rw [← hu] at a1
  rw [← hv] at b1
  rw [← hu, ← hv] at hD'
  have hc0 : cross2 u v ≠ 0 := by
    intro h0
    rw [h0, abs_zero] at hD'
    linarith
  have shift : ∀ w : Vec 2 ℝ, vnorm w ≤ L + 2 * δ → |cross2 e w / cross2 u v| ≤ 4 * δ * (L + 2 * δ) / D := by
    intro w hw
    rw [abs_div, div_le_div_iff₀ (abs_pos.2 hc0) hD0]
    have k1 : |cross2 e w| ≤ 2 * δ * (L + 2 * δ) := (cross2_le _ _).trans (mul_le_mul be hw (vnorm_nonneg _) (by linarith))
    have k2 : 0 ≤ 2 * δ * (L + 2 * δ) := by positivity
    calc |cross2 e w| * D ≤ 2 * δ * (L + 2 * δ) * D := mul_le_mul_of_nonneg_right k1 hD0.le
      _ = 4 * δ * (L + 2 * δ) * (D / 2) := by ring
      _ ≤ 4 * δ * (L + 2 * δ) * |cross2 u v| := by gcongr
  have hmD : 4 * δ * (L + 2 * δ) / D ≤ m := by rw [div_le_iff₀ hD0]; exact hm
  have sx := shift v b1
  have sy := shift u a1
  obtain ⟨sx1, sx2⟩ := abs_le.1 (sx.trans hmD)
  obtain ⟨sy1, sy2⟩ := abs_le.1 (sy.trans hmD)
  have hmeet : s'.p1 + (x - cross2 e v / cross2 u v) • u = r'.p1 + (y - cross2 e u / cross2 u v) • v := by
    have hee : e = s'.p1 + x • u - (r'.p1 + y • v) := by rw [he, Seg.point_eq, Seg.point_eq, hu, hv]; rfl
    have key : e = (cross2 e v / cross2 u v) • u - (cross2 e u / cross2 u v) • v := by
      clear hee
      unfold cross2 at hc0 ⊢
      funext i
      fin_cases i
      · show e 0 = _ / _ * u 0 - _ / _ * v 0
        rw [div_mul_eq_mul_div, div_mul_eq_mul_div, ← sub_div, eq_div_iff hc0]
        ring
      · show e 1 = _ / _ * u 1 - _ / _ * v 1
        rw [div_mul_eq_mul_div, div_mul_eq_mul_div, ← sub_div, eq_div_iff hc0]
        ring
    have : s'.p1 + x • u = r'.p1 + y • v + ((cross2 e v / cross2 u v) • u - (cross2 e u / cross2 u v) • v) := by
      rw [← key, hee]; abel
    rw [sub_smul, sub_smul, ← add_sub_assoc, ← add_sub_assoc, this]
    abel
  refine ⟨s'.p1 + (x - cross2 e v / cross2 u v) • u, ⟨x - cross2 e v / cross2 u v, by linarith, by linarith, by rw [← hu]⟩, ⟨y - cross2 e u / cross2 u v, by linarith, by linarith, by rw [hmeet, ← hv]⟩, ?_⟩
  have t := Model.edist_triangle P (s'.point x) (s'.p1 + (x - cross2 e v / cross2 u v) • u)
  have d : Model.edist (s'.point x) (s'.p1 + (x - cross2 e v / cross2 u v) • u) ≤ 4 * δ * (L + 2 * δ) / D * (L + 2 * δ) := by
    have : s'.point x - (s'.p1 + (x - cross2 e v / cross2 u v) • u) = (cross2 e v / cross2 u v) • u := by
      rw [Seg.point_eq, hu, sub_smul]
      unfold Seg.direction
      abel
    rw [edist_eq_vnorm, this, vnorm_smul]
    exact mul_le_mul sx a1 (vnorm_nonneg _) (by positivity)
  calc _ ≤ δ + 4 * δ * (L + 2 * δ) / D * (L + 2 * δ) := by linarith
    _ = _ := by ring

/-- **C153 (crossing segments, partial).** Two segments of the plane, not longer than `L`, that cross at `P`, at parameters at least `m` away from the ends, and `D` is a lower bound of the area of the parallelogram of their directions.
If their ends are moved by at most `δ` with `8 δ (L + δ) ≤ D` and `4 δ (L + 2 δ) ≤ m D`, then the new segments cross too, and the exact method reports EXACT for both pairs, with points not farther apart than
`δ + 4 δ (L + 2 δ)² / D`. Missing, as in C38: segments which are equal or whose ends are equal up to the tolerances, or with a small `D`. -/
theorem C153_crossing_partial (feps : ℝ) {s s' r r' : Seg 2 ℝ} {δ L D m x y : ℝ} {P : Vec 2 ℝ}
    (h1 : Model.edist s.p1 s'.p1 ≤ δ) (h2 : Model.edist s.p2 s'.p2 ≤ δ) (h3 : Model.edist r.p1 r'.p1 ≤ δ) (h4 : Model.edist r.p2 r'.p2 ≤ δ)
    (hs : Model.edist s.p1 s.p2 ≤ L) (hr : Model.edist r.p1 r.p2 ≤ L) (hD : D ≤ |cross2 (s.p2 - s.p1) (r.p2 - r.p1)|) (hD0 : 1 / 2 ^ 25 ≤ D) (hsm : 8 * δ * (L + δ) ≤ D)
    (hP : P = s.p1 + x • (s.p2 - s.p1)) (hP' : P = r.p1 + y • (r.p2 - r.p1)) (x0 : m ≤ x) (x1 : x ≤ 1 - m) (y0 : m ≤ y) (y1 : y ≤ 1 - m) (hm : 4 * δ * (L + 2 * δ) ≤ m * D)
    (n1 : ¬ CloseVec s.p1 s.p2) (n2 : ¬ CloseVec r.p1 r.p2) (n3 : ¬ (CloseVec r.p1 s.p1 ∧ CloseVec r.p2 s.p2)) (n4 : ¬ (CloseVec r.p2 s.p1 ∧ CloseVec r.p1 s.p2))
    (m1 : ¬ CloseVec s'.p1 s'.p2) (m2 : ¬ CloseVec r'.p1 r'.p2) (m3 : ¬ (CloseVec r'.p1 s'.p1 ∧ CloseVec r'.p2 s'.p2)) (m4 : ¬ (CloseVec r'.p2 s'.p1 ∧ CloseVec r'.p1 s'.p2)) :
    ∃ Q, exactSegments feps s r = .ok ⟨.point P, .exact⟩ ∧ exactSegments feps s' r' = .ok ⟨.point Q, .exact⟩ ∧ Model.edist P Q ≤ δ + 4 * δ * (L + 2 * δ) ^ 2 / D := by
  have hδ : 0 ≤ δ := (Model.edist_nonneg _ _).trans h1
  have hL : 0 ≤ L := (Model.edist_nonneg _ _).trans hs
  have hD1 : 0 < D := lt_of_lt_of_le (by norm_num) hD0
  have hm0 : 0 ≤ m := by
    by_contra hn
    push Not at hn
    have : 0 ≤ 4 * δ * (L + 2 * δ) := by positivity
    nlinarith
  obtain ⟨Q, q1, q2, q3⟩ := crossing_moved h1 h2 h3 h4 hs hr hD hD1 hsm hP hP' x0 x1 y0 y1 hm
  have hD' := cross2_moved h1 h2 h3 h4 hs hr hD hsm
  have g : ∀ {a : ℝ}, D / 2 ≤ |a| → 1 / 2 ^ 52 ≤ a ^ 2 := by
    intro a ha
    rw [← sq_abs]
    have : (1 / 2 ^ 26 : ℝ) ≤ |a| := by
      refine le_trans ?_ ha
      have : (1 / 2 ^ 26 : ℝ) = 1 / 2 ^ 25 / 2 := by norm_num
      rw [this]
      linarith
    calc (1 / 2 ^ 52 : ℝ) = (1 / 2 ^ 26) ^ 2 := by norm_num
      _ ≤ |a| ^ 2 := by gcongr
  refine ⟨Q, ?_, ?_, q3⟩
  · exact C38_crossing_partial feps s r ⟨x, by linarith, by linarith, hP⟩ ⟨y, by linarith, by linarith, hP'⟩
      (by rw [gram_cross2]; exact g (by linarith)) n1 n2 n3 n4
  · exact C38_crossing_partial feps s' r' q1 q2 (by rw [gram_cross2]; exact g hD') m1 m2 m3 m4

theorem crossing_listed {n : Nat} (feps : ℝ) (fresh : Nat) (int : Bool) {c1 c2 : GCurve n ℝ} (hid : c1.cid ≠ c2.cid) {i j : Nat} (hi : i + 1 < c1.data.length) (hj : j + 1 < c2.data.length)
    {P : Vec n ℝ} (hm : Meet c1.data[i] c1.data[i + 1] c2.data[j] c2.data[j + 1])
    (he : exactSegments feps ⟨c1.data[i], c1.data[i + 1]⟩ ⟨c2.data[j], c2.data[j + 1]⟩ = .ok ⟨.point P, .exact⟩) :
    ∃ xs, exactCall feps fresh int (.curve c1) (.curve c2) = .ok (.list xs) ∧ ⟨c1.segment i, c2.segment j, ⟨.point P, .exact⟩⟩ ∈ xs := by
  obtain ⟨idx, info, hcall, _, _, hseg, _⟩ := C41_row_major feps fresh int c1 c2 hid
  obtain ⟨_, _, h3, _, h5⟩ := hseg i j hi hj
  rw [he] at h3
  injection h3 with h3
  refine ⟨_, hcall, List.mem_map.2 ⟨(i, j), h5 hm (by rw [← h3]; simp), ?_⟩⟩
  rw [h3]

/-- **C153 (crossing curves, partial).** Two curves of the plane whose segments `i` and `j` cross as in `C153_crossing_partial`, and two other curves with points not farther than `δ` from theirs: both lists of intersections
contain an exact intersection of the segments `i` and `j`, with points not farther apart than `δ + 4 δ (L + 2 δ)² / D`. -/
theorem C153_curves_partial (feps : ℝ) (fresh : Nat) (int : Bool) {c1 c2 c1' c2' : GCurve 2 ℝ} (hid : c1.cid ≠ c2.cid) (hid' : c1'.cid ≠ c2'.cid) {i j : Nat}
    (i1 : i + 1 < c1.data.length) (i2 : i + 1 < c1'.data.length) (j1 : j + 1 < c2.data.length) (j2 : j + 1 < c2'.data.length) {δ L D m x y : ℝ} {P : Vec 2 ℝ}
    (h1 : Model.edist c1.data[i] c1'.data[i] ≤ δ) (h2 : Model.edist c1.data[i + 1] c1'.data[i + 1] ≤ δ) (h3 : Model.edist c2.data[j] c2'.data[j] ≤ δ) (h4 : Model.edist c2.data[j + 1] c2'.data[j + 1] ≤ δ)
    (hs : Model.edist c1.data[i] c1.data[i + 1] ≤ L) (hr : Model.edist c2.data[j] c2.data[j + 1] ≤ L)
    (hD : D ≤ |cross2 (c1.data[i + 1] - c1.data[i]) (c2.data[j + 1] - c2.data[j])|) (hD0 : 1 / 2 ^ 25 ≤ D) (hsm : 8 * δ * (L + δ) ≤ D)
    (hP : P = c1.data[i] + x • (c1.data[i + 1] - c1.data[i])) (hP' : P = c2.data[j] + y • (c2.data[j + 1] - c2.data[j]))
    (x0 : m ≤ x) (x1 : x ≤ 1 - m) (y0 : m ≤ y) (y1 : y ≤ 1 - m) (hm : 4 * δ * (L + 2 * δ) ≤ m * D)
    (n1 : ¬ CloseVec c1.data[i] c1.data[i + 1]) (n2 : ¬ CloseVec c2.data[j] c2.data[j + 1])
    (n3 : ¬ (CloseVec c2.data[j] c1.data[i] ∧ CloseVec c2.data[j + 1] c1.data[i + 1])) (n4 : ¬ (CloseVec c2.data[j + 1] c1.data[i] ∧ CloseVec c2.data[j] c1.data[i + 1]))
    (m1 : ¬ CloseVec c1'.data[i] c1'.data[i + 1]) (m2 : ¬ CloseVec c2'.data[j] c2'.data[j + 1])
    (m3 : ¬ (CloseVec c2'.data[j] c1'.data[i] ∧ CloseVec c2'.data[j + 1] c1'.data[i + 1])) (m4 : ¬ (CloseVec c2'.data[j + 1] c1'.data[i] ∧ CloseVec c2'.data[j] c1'.data[i + 1])) :
    ∃ xs xs' Q, exactCall feps fresh int (.curve c1) (.curve c2) = .ok (.list xs) ∧ exactCall feps fresh int (.curve c1') (.curve c2') = .ok (.list xs') ∧
      ⟨c1.segment i, c2.segment j, ⟨.point P, .exact⟩⟩ ∈ xs ∧ ⟨c1'.segment i, c2'.segment j, ⟨.point Q, .exact⟩⟩ ∈ xs' ∧
      Model.edist P Q ≤ δ + 4 * δ * (L + 2 * δ) ^ 2 / D := by
  obtain ⟨Q, e1, e2, e3⟩ := C153_crossing_partial feps (s := ⟨c1.data[i], c1.data[i + 1]⟩) (s' := ⟨c1'.data[i], c1'.data[i + 1]⟩) (r := ⟨c2.data[j], c2.data[j + 1]⟩) (r' := ⟨c2'.data[j], c2'.data[j + 1]⟩)
    h1 h2 h3 h4 hs hr hD hD0 hsm hP hP' x0 x1 y0 y1 hm n1 n2 n3 n4 m1 m2 m3 m4
  have hδ : 0 ≤ δ := (Model.edist_nonneg _ _).trans h1
  have hL : 0 ≤ L := (Model.edist_nonneg _ _).trans hs
  have hD1 : 0 < D := lt_of_lt_of_le (by norm_num) hD0
  have hm0 : 0 ≤ m := by
    by_contra hn
    push Not at hn
    have : 0 ≤ 4 * δ * (L + 2 * δ) := by positivity
    nlinarith
  obtain ⟨Q', q1, q2, -⟩ := crossing_moved (s := ⟨c1.data[i], c1.data[i + 1]⟩) (s' := ⟨c1'.data[i], c1'.data[i + 1]⟩) (r := ⟨c2.data[j], c2.data[j + 1]⟩) (r' := ⟨c2'.data[j], c2'.data[j + 1]⟩)
    h1 h2 h3 h4 hs hr hD hD1 hsm hP hP' x0 x1 y0 y1 hm
  obtain ⟨xs, a1, a2⟩ := crossing_listed feps fresh int hid i1 j1 ⟨P, ⟨x, by linarith, by linarith, hP⟩, ⟨y, by linarith, by linarith, hP'⟩⟩ e1
  obtain ⟨xs', b1, b2⟩ := crossing_listed feps fresh int hid' i2 j2 ⟨Q', q1, q2⟩ e2
  exact ⟨xs, xs', Q, a1, b1, a2, b2, e3⟩

/-- **C153 fails in space.** The segments from (-1, 0, 0) to (1, 0, 0) and from (0, -1, 0) to (0, 1, 0) cross at the origin, and EXACT is reported; if the second is lifted by any `δ` other than 0, no exact intersection is reported. -/
theorem C153_space_fails (feps : ℝ) {δ : ℝ} (hδ : δ ≠ 0) :
    exactSegments feps ⟨![-1, 0, 0], ![1, 0, 0]⟩ ⟨![0, -1, 0], ![0, 1, 0]⟩ = .ok ⟨.point ![0, 0, 0], .exact⟩ ∧
    ∀ P, exactSegments feps ⟨![-1, 0, 0], ![1, 0, 0]⟩ ⟨![0, -1, δ], ![0, 1, δ]⟩ ≠ .ok ⟨.point P, .exact⟩ := by
  constructor
  · apply C38_crossing_partial
    · exact ⟨1 / 2, by norm_num, by norm_num, by funext i; fin_cases i <;> norm_num⟩
    · exact ⟨1 / 2, by norm_num, by norm_num, by funext i; fin_cases i <;> norm_num⟩
    · simp [gram, Fin.sum_univ_three]
      norm_num
    · intro h
      have := h 0
      norm_num [abs_le] at this
    · intro h
      have := h 1
      norm_num [abs_le] at this
    · rintro ⟨h, _⟩
      have := h 0
      norm_num [abs_le] at this
    · rintro ⟨h, _⟩
      have := h 0
      norm_num [abs_le] at this
  · intro P h
    obtain ⟨x, y, e1, e2, -⟩ := C37_on_both _ _ _ h
    have := congrFun (e1.symm.trans e2) 2
    simp at this
    exact hδ this.symm

/-! The hypotheses hold for a polyline with three points, for `δ = 1/100`, and for two crossing segments. -/

private noncomputable def stA : Curve ℝ := ⟨[[0, 0], [1, 0], [2, 1]], 2, some [0, 1, 3], .float⟩
private noncomputable def stB : Curve ℝ := ⟨[[0, 0], [1, 1 / 100], [2, 1]], 2, some [0, 1, 3], .float⟩

private theorem stA_WF : WF stA where
  two_le := by simp [stA]
  rect := by simp [stA]
  tlen := by simp [stA]
  repr := by simp [stA, DType.cast]

private theorem stB_WF : WF stB where
  two_le := by simp [stB]
  rect := by simp [stB]
  tlen := by simp [stB]
  repr := by simp [stB, DType.cast]

private theorem stMoved : NearCurve (1 / 100) stA stB where
  ndim := rfl
  size := rfl
  near := by
    intro i hi
    match i, hi with
    | 0, _ => simp only [stA, stB, gap_eq_sqrt]; simp
    | 1, _ =>
      simp only [stA, stB, gap_eq_sqrt]
      simp [Fin.sum_univ_two]
    | 2, _ => simp only [stA, stB, gap_eq_sqrt]; simp

example : |arclen 0 stA - arclen 0 stB| ≤ 2 * ((3 - 1 : Nat) : ℝ) * (1 / 100) :=
  (C153_length stA_WF stB_WF (by simp [stA]) stMoved 0).2.2

example : ‖rowVec 2 (firstderiv stA).rows 1 - rowVec 2 (firstderiv stB).rows 1‖ ≤ 1 / 100 :=
  (C153_derivatives stA_WF stB_WF (by simp [stA, Curve.size]) stMoved (i := 1) (by simp [stA, Curve.size])).2.2.2.1 le_rfl (by simp [stA, Curve.size])

example : ∃ R R' C C', stA.interpolate (linearReg 0) (.arr (.ok (GridArr.of (fins [1 / 2, 2])))) "linear" true = .ok R ∧
    stB.interpolate (linearReg 0) (.arr (.ok (GridArr.of (fins [1 / 2, 2])))) "linear" true = .ok R' ∧
    Represents R C ∧ Represents R' C' ∧ NearCurve (1 / 100) C C' ∧ C.size = 2 := by
  refine C153_linear stA_WF stB_WF (by simp [stA, Curve.size]) stMoved (t0 := 0) (t1 := 3) ?_ rfl (by simp [stA]) (by simp [stB]) (isLinear_linearReg 0) true (by simp) ?_ rfl rfl ?_
  · show [(0 : ℝ), 1, 3].Pairwise (· < ·)
    simp
  · intro i x y hx hy
    match i with
    | 0 => simp at hx hy; subst hx hy; norm_num
    | (k + 1) => simp at hy
  · intro x hx
    simp at hx
    rcases hx with rfl | rfl <;> norm_num

example : ∃ Q, exactSegments (F_EPS : ℝ) (⟨![-1, 0], ![1, 0]⟩ : Seg 2 ℝ) ⟨![0, -1], ![0, 1]⟩ = .ok ⟨.point ![0, 0], .exact⟩ ∧
    exactSegments (F_EPS : ℝ) (⟨![-1, 0], ![1, 1 / 100]⟩ : Seg 2 ℝ) ⟨![0, -1], ![0, 1]⟩ = .ok ⟨.point Q, .exact⟩ ∧ Model.edist ![0, 0] Q ≤ 1 / 100 + 4 * (1 / 100) * (2 + 2 * (1 / 100)) ^ 2 / 4 := by
  refine C153_crossing_partial F_EPS (δ := 1 / 100) (L := 2) (D := 4) (m := 1 / 4) (x := 1 / 2) (y := 1 / 2) ?_ ?_ ?_ ?_ ?_ ?_ ?_ ?_ ?_ ?_ ?_ ?_ ?_ ?_ ?_ ?_ ?_ ?_ ?_ ?_ ?_ ?_ ?_ ?_
  all_goals first
    | (simp [Model.edist, Fin.sum_univ_two]; done)
    | (simp only [Model.edist, Fin.sum_univ_two]; rw [Real.sqrt_le_left (by norm_num)]; norm_num; done)
    | (simp [Model.edist, Fin.sum_univ_two]; norm_num; done)
    | (simp [cross2]; norm_num; done)
    | (norm_num; done)
    | (funext i; fin_cases i <;> norm_num; done)
    | (intro h; have := h 0; norm_num [abs_le] at this; done)
    | (intro h; have := h 1; norm_num [abs_le] at this; done)
    | (rintro ⟨h, _⟩; have := h 0; norm_num [abs_le] at this; done)

example : ∃ C C', (finCurve stA).smooth (smoothReg fun _ _ => .error .typeError) "window" (.window { size := 3 }) = .ok (finCurve C) ∧
    (finCurve stB).smooth (smoothReg fun _ _ => .error .typeError) "window" (.window { size := 3 }) = .ok (finCurve C') ∧ NearCurve (1 / 100) C C' ∧ C.size = 3 := by
  obtain ⟨ws, h1, h2, h3, _⟩ := C68_hann_partial 3 (by norm_num) (by norm_num)
  exact C153_window stA_WF stB_WF (by simp [stA]) stMoved rfl rfl (smoothReg_window fun _ _ => .error .typeError) h2 h3 (p := { size := 3 }) h1 (by simp [RepeatMode])

private theorem stA_first {i : Nat} (hi : i < 3) : ∃ y, rowVec 2 (firstderiv stA).rows i = WithLp.toLp 2 ![1, y] ∧ y = i - 1 / 2 := by
  refine ⟨i - 1 / 2, ?_, rfl⟩
  rw [first_row stA_WF (by simp [stA, Curve.size]) (by simpa [stA, Curve.size] using hi)]
  match i, hi with
  | 0, _ => ext j; fin_cases j <;> norm_num [gradV, stA, Curve.size, rowVec_apply, at2]
  | 1, _ => ext j; fin_cases j <;> norm_num [gradV, stA, Curve.size, rowVec_apply, at2]
  | 2, _ => ext j; fin_cases j <;> norm_num [gradV, stA, Curve.size, rowVec_apply, at2]

private theorem stA_second {i : Nat} (hi : i < 3) : rowVec 2 (secondderiv stA).rows i = WithLp.toLp 2 ![0, 1] := by
  rw [second_row stA_WF (by simp [stA, Curve.size]) (by simpa [stA, Curve.size] using hi)]
  match i, hi with
  | 0, _ => ext j; fin_cases j <;> norm_num [gradV, stA, Curve.size, rowVec_apply, at2]
  | 1, _ => ext j; fin_cases j <;> norm_num [gradV, stA, Curve.size, rowVec_apply, at2]
  | 2, _ => ext j; fin_cases j <;> norm_num [gradV, stA, Curve.size, rowVec_apply, at2]

example : ∃ ks ks', curvature stA = .ok ks ∧ curvature stB = .ok ks' ∧ ks.length = 3 ∧ ks'.length = 3 ∧
    ∀ i, i < 3 → ∃ k k', ks[i]? = some (.fin k) ∧ ks'[i]? = some (.fin k') ∧ |k - k'| ≤ (184 * 1 / 1 ^ 3 + 192 / 1 ^ 2) * (1 / 100) := by
  refine C153_curvature stA_WF stB_WF rfl (by simp [stA, Curve.size]) stMoved one_pos ?_ ?_ (by norm_num)
  · intro i hi
    obtain ⟨y, h, -⟩ := stA_first (by simpa [stA, Curve.size] using hi)
    rw [h, norm_plane]
    apply Real.le_sqrt_of_sq_le
    simp
    nlinarith [mul_self_nonneg y]
  · intro i hi
    rw [stA_second (by simpa [stA, Curve.size] using hi), norm_plane]
    simp

example : ‖rowVec 2 (frenet1 stA).rows 1 - rowVec 2 (frenet1 stB).rows 1‖ ≤ 8 * (1 / 100) / ‖rowVec 2 (firstderiv stB).rows 1‖ := by
  have h3 : 3 ≤ stA.size := by simp [stA, Curve.size]
  have hi : 1 < stA.size := by simp [stA, Curve.size]
  have e : 1 ≤ ‖rowVec 2 (firstderiv stA).rows 1‖ := by
    obtain ⟨y, h, -⟩ := stA_first (i := 1) (by norm_num)
    rw [h, norm_plane]
    apply Real.le_sqrt_of_sq_le
    simp
    nlinarith [mul_self_nonneg y]
  have d : ‖rowVec 2 (firstderiv stA).rows 1 - rowVec 2 (firstderiv stB).rows 1‖ ≤ 4 * (1 / 100) := (C153_derivatives stA_WF stB_WF h3 stMoved hi).1
  have d2 := norm_sub_norm_le (rowVec 2 (firstderiv stA).rows 1) (rowVec 2 (firstderiv stB).rows 1)
  refine C153_tangent stA_WF stB_WF h3 stMoved hi (lt_of_lt_of_le (by norm_num) e) ?_
  show 1 / 10 ^ 8 < ‖rowVec 2 (firstderiv stB).rows 1‖
  norm_num at d ⊢
  linarith

example : |(⟨![0, 0], ![2, 0]⟩ : Seg 2 ℝ).distance (.point ![1, 1]) - (⟨![0, 0], ![2, 0]⟩ : Seg 2 ℝ).distance (.point ![1, 101 / 100])| ≤
    2 * (1 / 100) + max (pointErr ⟨![0, 0], ![2, 0]⟩ ![1, 1]) (pointErr ⟨![0, 0], ![2, 0]⟩ ![1, 101 / 100]) := by
  refine C153_distance_point ?_ ?_ ?_
  · rw [Model.edist_self]; norm_num
  · rw [Model.edist_self]; norm_num
  · simp only [Model.edist, Fin.sum_univ_two]
    rw [Real.sqrt_le_left (by norm_num)]
    norm_num

example : |(⟨![0, 0], ![2, 0]⟩ : Seg 2 ℝ).distance (.seg ⟨![1, 1], ![1, 2]⟩) - (⟨![0, 0], ![2, 0]⟩ : Seg 2 ℝ).distance (.seg ⟨![1, 101 / 100], ![1, 2]⟩)| ≤
    2 * (1 / 100) + max (distErr (![2, 0] - ![0, 0]) (![1, 2] - ![1, 1])) (distErr (![2, 0] - ![0, 0]) (![1, 2] - ![1, 101 / 100])) := by
  refine C153_distance_segment (s := ⟨![0, 0], ![2, 0]⟩) (s' := ⟨![0, 0], ![2, 0]⟩) (r := ⟨![1, 1], ![1, 2]⟩) (r' := ⟨![1, 101 / 100], ![1, 2]⟩) ?_ ?_ ?_ ?_ ?_ ?_
  · intro h; have := congrFun h 1; norm_num at this
  · intro h; have := congrFun h 1; norm_num at this
  · rw [Model.edist_self]; norm_num
  · rw [Model.edist_self]; norm_num
  · simp only [Model.edist, Fin.sum_univ_two]
    rw [Real.sqrt_le_left (by norm_num)]
    norm_num
  · rw [Model.edist_self]; norm_num

example : ∃ xs xs' Q, exactCall (F_EPS : ℝ) 9 false (.curve ⟨0, false, [![-1, 0], ![1, 0], ![2, 0]]⟩) (.curve ⟨1, false, [![0, -1], ![0, 1]]⟩) = .ok (.list xs) ∧
    exactCall (F_EPS : ℝ) 9 false (.curve ⟨2, false, [![-1, 0], ![1, 1 / 100], ![2, 0]]⟩) (.curve ⟨3, false, [![0, -1], ![0, 1]]⟩) = .ok (.list xs') ∧
    ⟨GCurve.segment (⟨0, false, [![-1, 0], ![1, 0], ![2, 0]]⟩ : GCurve 2 ℝ) 0, GCurve.segment ⟨1, false, [![0, -1], ![0, 1]]⟩ 0, ⟨.point ![0, 0], .exact⟩⟩ ∈ xs ∧
    ⟨GCurve.segment (⟨2, false, [![-1, 0], ![1, 1 / 100], ![2, 0]]⟩ : GCurve 2 ℝ) 0, GCurve.segment ⟨3, false, [![0, -1], ![0, 1]]⟩ 0, ⟨.point Q, .exact⟩⟩ ∈ xs' ∧
    Model.edist ![0, 0] Q ≤ 1 / 100 + 4 * (1 / 100) * (2 + 2 * (1 / 100)) ^ 2 / 4 := by
  refine C153_curves_partial F_EPS 9 false (δ := 1 / 100) (L := 2) (D := 4) (m := 1 / 4) (x := 1 / 2) (y := 1 / 2) (i := 0) (j := 0)
    (by simp) (by simp) (by simp) (by simp) (by simp) (by simp) ?_ ?_ ?_ ?_ ?_ ?_ ?_ ?_ ?_ ?_ ?_ ?_ ?_ ?_ ?_ ?_ ?_ ?_ ?_ ?_ ?_ ?_ ?_ ?_
  all_goals first
    | (simp [Model.edist, Fin.sum_univ_two]; done)
    | (simp only [Model.edist, Fin.sum_univ_two]; rw [Real.sqrt_le_left (by norm_num)]; norm_num; done)
    | (simp [Model.edist, Fin.sum_univ_two]; norm_num; done)
    | (simp [cross2]; norm_num; done)
    | (norm_num; done)
    | (funext i; fin_cases i <;> norm_num; done)
    | (intro h; have := h 0; norm_num [abs_le] at this; done)
    | (intro h; have := h 1; norm_num [abs_le] at this; done)
    | (rintro ⟨h, _⟩; have := h 0; norm_num [abs_le] at this; done)
    | (simp only [List.getElem_cons_zero, List.getElem_cons_succ]; intro h; have := h 0; norm_num [abs_le] at this; done)
    | (simp only [List.getElem_cons_zero, List.getElem_cons_succ]; intro h; have := h 1; norm_num [abs_le] at this; done)
    | (simp only [List.getElem_cons_zero, List.getElem_cons_succ]; rintro ⟨h, _⟩; have := h 0; norm_num [abs_le] at this; done)

end Verif.Props
