import Verif.Props.Columns

/-!
C107: the slopes of the interpolated curve at the points of the curve.
-/
namespace Verif.Spec

open Verif Verif.Model

/-- Slope of the straight line through the points `k` and `k + 1`, coordinate `j`. -/
noncomputable def secant (t : List ℝ) (c : Curve ℝ) (j k : Nat) : ℝ :=
  (at2 c.rows (k + 1) j - at2 c.rows k j) / (t.getD (k + 1) 0 - t.getD k 0)

/-- Distance of the parameter values `k` and `k + 1`. -/
noncomputable def width (t : List ℝ) (k : Nat) : ℝ := t.getD (k + 1) 0 - t.getD k 0

/-- How much the slope turns at point `k`; at the ends, as much as at the next point. -/
noncomputable def turn (t : List ℝ) (c : Curve ℝ) (j k : Nat) : ℝ :=
  |secant t c j (max 1 (min k (c.rows.length - 2))) - secant t c j (max 1 (min k (c.rows.length - 2)) - 1)|

/-- The slope of the parabola through three points at the first of them, from the widths `h0`, `h1` and the slopes `s0`, `s1` of the pieces. -/
noncomputable def parabolaSlope (h0 h1 s0 s1 : ℝ) : ℝ := s0 - h0 * ((s1 - s0) / (h0 + h1))

/-- `d` is the parabola's slope, changed so that a piece with the slope `s0` stays monotone. -/
def LimitedSlope (h0 h1 s0 s1 d : ℝ) : Prop :=
  (parabolaSlope h0 h1 s0 s1 * s0 ≤ 0 → d = 0) ∧
  (0 < parabolaSlope h0 h1 s0 s1 * s0 → s0 * s1 ≤ 0 → 3 * |s0| < |parabolaSlope h0 h1 s0 s1| → d = 3 * s0) ∧
  (0 < parabolaSlope h0 h1 s0 s1 * s0 → 0 < s0 * s1 ∨ |parabolaSlope h0 h1 s0 s1| ≤ 3 * |s0| → d = parabolaSlope h0 h1 s0 s1)

end Verif.Spec

namespace Verif.Props

open Verif Verif.Np Verif.Model Verif.Spec

section
variable {c : Curve ℝ} (hc : WF c) (hs : 2 ≤ c.size) {junk : ℝ} (ht : (c.t junk).Pairwise (· < ·)) (hd : c.dtype ≠ .int)
include hc hs ht hd

/-- **C107 (pieces).** Between two points the curves of `hermite`, `pchip` and `akima` are cubic polynomials. -/
theorem C107_pieces {lib : SplineLib} {r : KwReg} {m : String} {dom : ℝ → Prop}
    (hm : IsHermite junk r m ∨ IsPchip junk r m ∨ IsAkima lib junk r m ∧ ∀ x, dom x → WithinEnds (c.t junk) x) :
    ∃ F, EvaluatesTo c (fun g => c.interpolate r g m .none) dom F ∧ (∀ x, (F x).length = c.ncols) ∧
      ∀ i j u v, (c.t junk)[i]? = some u → (c.t junk)[i + 1]? = some v → j < c.ncols →
        ∃ P : Polynomial ℝ, P.natDegree ≤ 3 ∧ (∀ x, u ≤ x → x ≤ v → coordOf j (F x) = P.eval x) ∧
          P.eval u = at2 c.rows i j ∧ P.eval v = at2 c.rows (i + 1) j ∧
          HasDerivAt (fun x => coordOf j (F x)) (P.derivative.eval u) u ∧ HasDerivAt (fun x => coordOf j (F x)) (P.derivative.eval v) v := by
  have hl := t_length hc (rows_ne_of_size hs) junk
  have key : ∀ {cons : Curve ℝ → InterpKw → Except PyErr InterpImpl} {q : PPoly}, getInterpClass r m = .ok (interpClass junk cons) →
      cons c .none = .ok q.impl → q.xs = c.t junk → q.y = c.mat → (q.ex = .yes ∨ q.ex = .no ∧ ∀ x, dom x → WithinEnds (c.t junk) x) →
      ∃ F, EvaluatesTo c (fun g => c.interpolate r g m .none) dom F ∧ (∀ x, (F x).length = c.ncols) ∧
      ∀ i j u v, (c.t junk)[i]? = some u → (c.t junk)[i + 1]? = some v → j < c.ncols →
        ∃ P : Polynomial ℝ, P.natDegree ≤ 3 ∧ (∀ x, u ≤ x → x ≤ v → coordOf j (F x) = P.eval x) ∧
          P.eval u = at2 c.rows i j ∧ P.eval v = at2 c.rows (i + 1) j ∧
          HasDerivAt (fun x => coordOf j (F x)) (P.derivative.eval u) u ∧ HasDerivAt (fun x => coordOf j (F x)) (P.derivative.eval v) v := by
    intro cons q hr hq hx hy hex
    refine ⟨_, spline_eval hc hs ht hd hr hq hx hy hex, fun x => by rw [q.row_length, hy]; rfl, ?_⟩
    intro i j u v hu hv hj
    have hi1 : i + 1 < c.size := by have := (List.getElem?_eq_some_iff.1 hv).1; omega
    have k0 : knot q.xs i = u := by rw [hx]; exact knot_eq hu
    have k1 : knot q.xs (i + 1) = v := by rw [hx]; exact knot_eq hv
    have huv : u < v := by
      have := knot_lt ht (show i < i + 1 by omega) (by omega)
      rwa [knot_eq hu, knot_eq hv] at this
    have hp : q.xs.Pairwise (· < ·) := by rw [hx]; exact ht
    have hco : (fun x => coordOf j (q.row x)) = q.coord j := by
      funext x
      unfold coordOf
      rw [q.row_getD (by rw [hy]; exact hj)]
    have D := fun i (hi : i < q.xs.length) => PPoly.coord_hasDerivAt (p := q) hp (by rw [hx, hl]; exact hs) hi j
    refine ⟨hermPoly u v (c.mat.v i j) (c.mat.v (i + 1) j) (q.d.v i j) (q.d.v (i + 1) j), hermPoly_degree _ _ _ _ _ _, ?_, ?_, ?_, ?_, ?_⟩
    · intro z h1 h2
      rw [show coordOf j (q.row z) = q.coord j z from congrFun hco z, PPoly.coord_on (p := q) (i := i) hp (by rw [hx]; omega) j
        (.inr (by rw [k0]; exact h1)) (.inr (by rw [k1]; exact h2)), hermPoly_eval]
      unfold PPoly.cub
      rw [k0, k1, hy]
    · rw [hermPoly_eval, hermR_left]; rfl
    · rw [hermPoly_eval, hermR_right huv]; rfl
    · have := D i (by rw [hx, hl]; omega)
      rw [hco, hermPoly_deriv, hermD_left]
      rwa [k0] at this
    · have := D (i + 1) (by rw [hx, hl]; omega)
      rw [hco, hermPoly_deriv, hermD_right huv]
      rwa [k1] at this
  rcases hm with hr | hr | ⟨hr, hdom⟩
  · exact key hr (hermite_cons hc hs ht .yes rfl) rfl rfl (.inl rfl)
  · exact key hr (pchip_cons hc hs ht .yes rfl) rfl rfl (.inl rfl)
  · exact key hr (akima_cons hc hs ht lib) rfl rfl (.inr ⟨rfl, hdom⟩)

end

/-! ## akima -/

theorem akimaM_get {n : Nat} {x y : Nat → ℝ} {k : Nat} (hk : k + 1 < n) :
    akimaM n x y (k + 2) = (y (k + 1) - y k) / (x (k + 1) - x k) := by
  unfold akimaM
  simp only
  rw [if_neg (by omega), if_neg (by omega), if_pos (by omega), Nat.add_sub_cancel]

theorem akimaM_diff {n : Nat} {x y s : Nat → ℝ} (hn : 3 ≤ n) (hsec : ∀ k, s k = (y (k + 1) - y k) / (x (k + 1) - x k)) {k : Nat} (hk : k ≤ n + 1) :
    akimaM n x y (k + 1) - akimaM n x y k = s (max 1 (min (k - 1) (n - 2))) - s (max 1 (min (k - 1) (n - 2)) - 1) := by
  have hM : ∀ i, akimaM n x y i = if i = 0 then 2 * (2 * s 0 - s 1) - s 0
      else if i = 1 then 2 * s 0 - s 1
      else if i ≤ n then s (i - 2)
      else if i = n + 1 then 2 * s (n - 2) - s (n - 3)
      else 2 * (2 * s (n - 2) - s (n - 3)) - s (n - 2) := by
    intro i
    unfold akimaM
    simp only [← hsec]
  rw [hM, hM]
  by_cases h0 : k = 0
  · subst h0
    rw [if_neg (by omega), if_pos (by omega), if_pos rfl, show max 1 (min (0 - 1) (n - 2)) = 1 by omega]
    ring
  by_cases h1 : k = 1
  · subst h1
    rw [if_neg (by omega), if_neg (by omega), if_pos (by omega), if_neg (by omega), if_pos rfl, show max 1 (min (1 - 1) (n - 2)) = 1 by omega]
    simp only [Nat.reduceAdd, Nat.sub_self]
    ring
  rw [if_neg (show ¬ k + 1 = 0 by omega), if_neg (show ¬ k + 1 = 1 by omega), if_neg h0, if_neg h1]
  by_cases h2 : k + 1 ≤ n
  · rw [if_pos h2, if_pos (by omega), show max 1 (min (k - 1) (n - 2)) = k - 1 by omega]
    rw [show k + 1 - 2 = k - 1 by omega, show k - 1 - 1 = k - 2 by omega]
  rw [if_neg h2]
  by_cases h3 : k = n
  · subst h3
    rw [if_pos rfl, if_pos le_rfl, show max 1 (min (k - 1) (k - 2)) = k - 2 by omega, show k - 2 - 1 = k - 3 by omega]
    ring
  · rw [if_neg (by omega), if_neg (by omega), if_pos (by omega), show max 1 (min (k - 1) (n - 2)) = n - 2 by omega, show n - 2 - 1 = n - 3 by omega]
    ring

theorem foldl_max_mem (l : List ℝ) (a : ℝ) : l.foldl max a = a ∨ l.foldl max a ∈ l := by
  induction l generalizing a with
  | nil => exact .inl rfl
  | cons y l ih =>
    rw [List.foldl_cons]
    rcases ih (max a y) with h | h
    · rw [h]
      rcases max_cases a y with ⟨e, _⟩ | ⟨e, _⟩
      · exact .inl e
      · right; rw [e]; simp
    · exact .inr (List.mem_cons_of_mem _ h)

theorem weighted_between {a b u v d : ℝ} (ha : 0 ≤ a) (hb : 0 ≤ b) (hab : 0 < a + b) (h : d * (a + b) = a * u + b * v) : d ∈ Set.uIcc u v := by
  rcases le_total u v with huv | huv
  · rw [Set.uIcc_of_le huv]
    constructor <;> nlinarith
  · rw [Set.uIcc_of_ge huv]
    constructor <;> nlinarith

/-- **C107 (akima).** At an inner point the slope is the mean of the slopes to the point before and after it, each weighted with the turn at
the point on the other side; it lies between them. This is so unless the turns on both sides are tiny compared with some turn of the curve;
without any turns on the two sides it is the mean of the two slopes. At the ends the slope is that of the first (last) piece,
less half the difference to the slope of the piece next to it. -/
theorem C107_akima {c : Curve ℝ} (hc : WF c) (h3 : 3 ≤ c.size) {junk : ℝ} (ht : (c.t junk).Pairwise (· < ·)) (hd : c.dtype ≠ .int)
    {lib : SplineLib} {r : KwReg} {m : String} (hr : IsAkima lib junk r m) :
    ∃ F, EvaluatesTo c (fun g => c.interpolate r g m .none) (WithinEnds (c.t junk)) F ∧
      ∀ (i j : Nat) u, (c.t junk)[i]? = some u → j < c.ncols → ∃ d, HasDerivAt (fun x => coordOf j (F x)) d u ∧
        (i = 0 → d = (3 * secant (c.t junk) c j 0 - secant (c.t junk) c j 1) / 2) ∧
        (i + 1 = c.size → d = (3 * secant (c.t junk) c j (i - 1) - secant (c.t junk) c j (i - 2)) / 2) ∧
        (0 < i → i + 1 < c.size →
          (∀ k j', 0 < k → k + 1 < c.size → j' < c.ncols →
            2 / 10 ^ 9 * turn (c.t junk) c j' k < turn (c.t junk) c j (i - 1) + turn (c.t junk) c j (i + 1)) →
          d * (turn (c.t junk) c j (i - 1) + turn (c.t junk) c j (i + 1)) =
            turn (c.t junk) c j (i + 1) * secant (c.t junk) c j (i - 1) + turn (c.t junk) c j (i - 1) * secant (c.t junk) c j i ∧
          d ∈ Set.uIcc (secant (c.t junk) c j (i - 1)) (secant (c.t junk) c j i)) ∧
        (0 < i → i + 1 < c.size → turn (c.t junk) c j (i - 1) = 0 → turn (c.t junk) c j (i + 1) = 0 →
          d = (secant (c.t junk) c j (i - 1) + secant (c.t junk) c j i) / 2) := by
  have hs : 2 ≤ c.size := by omega
  have hl := t_length hc (rows_ne_of_size hs) junk
  have ak := akima_cons hc hs ht lib
  rw [if_neg (show ¬ c.size < 3 by omega)] at ak
  refine ⟨_, spline_eval hc hs ht hd hr ak rfl rfl (.inr ⟨rfl, fun x hx => hx⟩), ?_⟩
  intro i j u hu hj
  have hi : i < c.size := by have := (List.getElem?_eq_some_iff.1 hu).1; omega
  have hco : ∀ q : PPoly, q.y = c.mat → (fun x => coordOf j (q.row x)) = q.coord j := by
    intro q hy
    funext x
    unfold coordOf
    rw [q.row_getD (by rw [hy]; exact hj)]
  refine ⟨(akimaSlopes (c.t junk) c.mat).v i j, ?_, ?_⟩
  · have := PPoly.coord_hasDerivAt (p := ⟨c.t junk, c.mat, akimaSlopes (c.t junk) c.mat, .no⟩) ht (by show 2 ≤ (c.t junk).length; omega)
      (show i < (c.t junk).length by omega) j
    rw [hco _ rfl, ← knot_eq hu]
    exact this
  obtain ⟨M, hM⟩ : ∃ M : Nat → Nat → ℝ, M = fun j => akimaM c.size (fun i => (c.t junk).getD i 0) (fun i => c.mat.v i j) := ⟨_, rfl⟩
  have hsec : ∀ j k, secant (c.t junk) c j k = (c.mat.v (k + 1) j - c.mat.v k j) / ((c.t junk).getD (k + 1) 0 - (c.t junk).getD k 0) := fun _ _ => rfl
  have hdiff : ∀ j k, k ≤ c.size + 1 → |M j (k + 1) - M j k| = turn (c.t junk) c j (k - 1) := by
    intro j k hk
    unfold turn
    rw [hM]
    simp only
    rw [akimaM_diff h3 (hsec j) hk]
    rfl
  have hget : ∀ k, k + 1 < c.size → M j (k + 2) = secant (c.t junk) c j k := by
    intro k hk
    rw [hM]; exact akimaM_get hk
  have hf12 : ∀ j k, k < c.size → akimaF12 (M j) k = turn (c.t junk) c j (k + 1) + turn (c.t junk) c j (k - 1) := by
    intro j k hk
    unfold akimaF12
    rw [hdiff j (k + 2) (by omega), hdiff j k (by omega)]
    rfl
  have hclamp : ∀ j k, turn (c.t junk) c j k = turn (c.t junk) c j (max 1 (min k (c.size - 2))) := by
    intro j k
    unfold turn
    have hsz : c.size = c.rows.length := rfl
    rw [hsz, show max 1 (min (max 1 (min k (c.rows.length - 2))) (c.rows.length - 2)) = max 1 (min k (c.rows.length - 2)) by omega]
  have hpos : ∀ j k, 0 ≤ turn (c.t junk) c j k := fun j k => abs_nonneg _
  obtain ⟨top, htop⟩ : ∃ top, top = akimaTop (c.t junk) c.mat := ⟨_, rfl⟩
  have htop0 : 0 ≤ top := by
    rw [htop]; unfold akimaTop
    exact (foldl_max_le.1 le_rfl).1
  have hslope : (akimaSlopes (c.t junk) c.mat).v i j = akimaSlope (M j) top i := by
    rw [akimaSlopes_v, hl, hM, htop]
  rw [hslope]
  unfold akimaSlope
  rw [hf12 j i hi, hdiff j (i + 2) (by omega), hdiff j i (by omega)]
  rw [show i + 2 - 1 = i + 1 by omega]
  have hd0 : ∀ k, k ≤ c.size + 1 → M j (k + 1) - M j k = secant (c.t junk) c j (max 1 (min (k - 1) (c.size - 2))) -
      secant (c.t junk) c j (max 1 (min (k - 1) (c.size - 2)) - 1) := by
    intro k hk
    rw [hM]
    exact akimaM_diff h3 (hsec j) hk
  have n1 := hpos j (i + 1)
  have n0 := hpos j (i - 1)
  refine ⟨?_, ?_, ?_, ?_⟩
  · rintro rfl
    have e2 := hget 0 (by omega)
    have e3 := hget 1 (by omega)
    have f1 := hd0 1 (by omega)
    have f0 := hd0 0 (by omega)
    rw [show max 1 (min (1 - 1) (c.size - 2)) = 1 by omega] at f1
    rw [show max 1 (min (0 - 1) (c.size - 2)) = 1 by omega] at f0
    simp only [Nat.zero_add, Nat.reduceAdd, Nat.sub_self] at e2 e3 f1 f0 n0 n1 ⊢
    have et : turn (c.t junk) c j (0 - 1) = turn (c.t junk) c j 1 := by
      rw [hclamp j (0 - 1)]; congr 1
    rw [et] at n0 ⊢
    split_ifs with h
    · have hp : 0 < turn (c.t junk) c j 1 + turn (c.t junk) c j 1 := lt_of_le_of_lt (by positivity) h
      rw [div_eq_div_iff hp.ne' two_ne_zero]
      have : M j 1 = 2 * secant (c.t junk) c j 0 - secant (c.t junk) c j 1 := by linarith
      rw [this, e2]; ring
    · linarith
  · intro hlast
    have e0 := hget (i - 2) (by omega)
    have e1 := hget (i - 1) (by omega)
    have f2 := hd0 (i + 1) (by omega)
    have f3 := hd0 (i + 2) (by omega)
    rw [show max 1 (min (i + 1 - 1) (c.size - 2)) = i - 1 by omega] at f2
    rw [show max 1 (min (i + 2 - 1) (c.size - 2)) = i - 1 by omega] at f3
    rw [show i - 1 - 1 = i - 2 by omega] at f2 f3
    rw [show i - 2 + 2 = i by omega] at e0
    rw [show i - 1 + 2 = i + 1 by omega] at e1
    have et : turn (c.t junk) c j (i + 1) = turn (c.t junk) c j (i - 1) := by
      rw [hclamp j (i + 1)]; congr 1; omega
    rw [et] at n1 ⊢
    simp only [show i + 1 + 1 = i + 2 from rfl, show i + 2 + 1 = i + 3 from rfl] at f2 f3
    split_ifs with h
    · have hp : 0 < turn (c.t junk) c j (i - 1) + turn (c.t junk) c j (i - 1) := lt_of_le_of_lt (by positivity) h
      rw [div_eq_div_iff hp.ne' two_ne_zero]
      have : M j (i + 2) = 2 * secant (c.t junk) c j (i - 1) - secant (c.t junk) c j (i - 2) := by linarith
      rw [this, e1]; ring
    · linarith
  · intro hi0 hi1 hbig
    have e1 := hget (i - 1) (by omega)
    have e2 := hget i (by omega)
    rw [show i - 1 + 2 = i + 1 by omega] at e1
    have hlt : 1 / 10 ^ 9 * top < turn (c.t junk) c j (i + 1) + turn (c.t junk) c j (i - 1) := by
      have hT : 0 < turn (c.t junk) c j (i + 1) + turn (c.t junk) c j (i - 1) := by
        have := hbig 1 j (by omega) (by omega) hj
        have h2 := hpos j 1
        have : 0 ≤ 2 / 10 ^ 9 * turn (c.t junk) c j 1 := by positivity
        linarith
      have hle : ∀ x ∈ ((List.range c.mat.k).flatMap fun j => (List.range c.size).map (akimaF12 (M j))), 1 / 10 ^ 9 * x <
          turn (c.t junk) c j (i + 1) + turn (c.t junk) c j (i - 1) := by
        intro x hx
        simp only [List.mem_flatMap, List.mem_range, List.mem_map] at hx
        obtain ⟨j', hj', k, hk, rfl⟩ := hx
        rw [hf12 j' k hk, hclamp j' (k + 1), hclamp j' (k - 1)]
        have a1 := hbig (max 1 (min (k + 1) (c.size - 2))) j' (by omega) (by omega) hj'
        have a2 := hbig (max 1 (min (k - 1) (c.size - 2))) j' (by omega) (by omega) hj'
        linarith
      have hmem : top = 0 ∨ top ∈ ((List.range c.mat.k).flatMap fun j => (List.range c.size).map (akimaF12 (M j))) := by
        rw [htop]
        rw [hM]
        unfold akimaTop
        rw [hl]
        exact foldl_max_mem _ _
      rcases hmem with h | h
      · rw [h, mul_zero]; exact hT
      · exact hle _ h
    rw [if_pos hlt, e1, e2]
    have hp : 0 < turn (c.t junk) c j (i + 1) + turn (c.t junk) c j (i - 1) := lt_of_le_of_lt (by positivity) hlt
    have e : (turn (c.t junk) c j (i + 1) * secant (c.t junk) c j (i - 1) + turn (c.t junk) c j (i - 1) * secant (c.t junk) c j i) /
        (turn (c.t junk) c j (i + 1) + turn (c.t junk) c j (i - 1)) * (turn (c.t junk) c j (i + 1) + turn (c.t junk) c j (i - 1)) =
        turn (c.t junk) c j (i + 1) * secant (c.t junk) c j (i - 1) + turn (c.t junk) c j (i - 1) * secant (c.t junk) c j i :=
      div_mul_cancel₀ _ hp.ne'
    exact ⟨by rw [add_comm (turn (c.t junk) c j (i - 1))]; exact e, weighted_between n1 n0 hp e⟩
  · intro hi0 hi1 z0 z1
    have e1 := hget (i - 1) (by omega)
    have e2 := hget i (by omega)
    rw [show i - 1 + 2 = i + 1 by omega] at e1
    have g0 := hdiff j i (by omega)
    have g1 := hdiff j (i + 2) (by omega)
    rw [z0, abs_eq_zero] at g0
    rw [show i + 2 - 1 = i + 1 by omega, z1, abs_eq_zero] at g1
    rw [if_neg (by rw [z0, z1, add_zero, not_lt]; positivity)]
    have : M j (i + 2 + 1) = M j (i + 3) := rfl
    linarith

/-! ## pchip -/

theorem npSign_ne_iff {a b : ℝ} (ha : a ≠ 0) : npSign a ≠ npSign b ↔ a * b ≤ 0 := by
  unfold npSign
  rcases lt_or_gt_of_ne ha with h | h
  · rw [if_neg (not_lt.2 h.le), if_pos h]
    rcases lt_trichotomy b 0 with hb | hb | hb
    · rw [if_neg (not_lt.2 hb.le), if_pos hb]; simp; nlinarith
    · subst hb; simp
    · rw [if_pos hb]; simp; nlinarith
  · rw [if_pos h]
    rcases lt_trichotomy b 0 with hb | hb | hb
    · rw [if_neg (not_lt.2 hb.le), if_pos hb]; simp; nlinarith
    · subst hb; simp
    · rw [if_pos hb]; simp; nlinarith

theorem pchipEdge_limited {h0 h1 : ℝ} (hh0 : 0 < h0) (hh1 : 0 < h1) (s0 s1 : ℝ) : LimitedSlope h0 h1 s0 s1 (pchipEdge h0 h1 s0 s1) := by
  have e : ((2 * h0 + h1) * s0 - h0 * s1) / (h0 + h1) = parabolaSlope h0 h1 s0 s1 := by
    unfold parabolaSlope
    have : h0 + h1 ≠ 0 := by positivity
    field_simp
    ring
  unfold pchipEdge LimitedSlope
  simp only
  rw [e]
  generalize parabolaSlope h0 h1 s0 s1 = p
  refine ⟨?_, ?_, ?_⟩
  · intro h
    by_cases hp : p = 0
    · subst hp
      by_cases hz : s0 = 0
      · subst hz; simp
      · rw [if_pos]
        rw [ne_comm, npSign_ne_iff hz]; simp
    · rw [if_pos ((npSign_ne_iff hp).2 h)]
  · intro h h2 h3
    have hp : p ≠ 0 := by rintro rfl; simp at h
    have hz : s0 ≠ 0 := by rintro rfl; simp at h
    rw [if_neg (by rw [npSign_ne_iff hp]; linarith), if_pos ⟨(npSign_ne_iff hz).2 h2, h3⟩]
  · intro h h2
    have hp : p ≠ 0 := by rintro rfl; simp at h
    have hz : s0 ≠ 0 := by rintro rfl; simp at h
    rw [if_neg (by rw [npSign_ne_iff hp]; linarith), if_neg]
    rintro ⟨h3, h4⟩
    rw [npSign_ne_iff hz] at h3
    rcases h2 with h2 | h2 <;> linarith

/-- **C107 (pchip).** At an inner point the slope is zero if one of the slopes to the point before and after it is zero or they have different
signs; otherwise it is their weighted harmonic mean. At the ends it is the slope of the parabola through three points, limited so that
the piece stays monotone. With two points the curve is straight. -/
theorem C107_pchip {c : Curve ℝ} (hc : WF c) (hs : 2 ≤ c.size) {junk : ℝ} (ht : (c.t junk).Pairwise (· < ·)) (hd : c.dtype ≠ .int)
    {r : KwReg} {m : String} (hr : IsPchip junk r m) :
    ∃ F, EvaluatesTo c (fun g => c.interpolate r g m .none) (fun _ => True) F ∧
      ∀ (i j : Nat) u, (c.t junk)[i]? = some u → j < c.ncols → ∃ d, HasDerivAt (fun x => coordOf j (F x)) d u ∧
        (c.size = 2 → d = secant (c.t junk) c j 0) ∧
        (2 < c.size → i = 0 → LimitedSlope (width (c.t junk) 0) (width (c.t junk) 1) (secant (c.t junk) c j 0) (secant (c.t junk) c j 1) d) ∧
        (2 < c.size → i + 1 = c.size → LimitedSlope (width (c.t junk) (i - 1)) (width (c.t junk) (i - 2)) (secant (c.t junk) c j (i - 1))
          (secant (c.t junk) c j (i - 2)) d) ∧
        (0 < i → i + 1 < c.size → secant (c.t junk) c j (i - 1) * secant (c.t junk) c j i ≤ 0 → d = 0) ∧
        (0 < i → i + 1 < c.size → 0 < secant (c.t junk) c j (i - 1) * secant (c.t junk) c j i →
          d * ((width (c.t junk) (i - 1) + 2 * width (c.t junk) i) / secant (c.t junk) c j (i - 1) +
            (2 * width (c.t junk) (i - 1) + width (c.t junk) i) / secant (c.t junk) c j i) =
            3 * (width (c.t junk) (i - 1) + width (c.t junk) i)) := by
  have hl := t_length hc (rows_ne_of_size hs) junk
  refine ⟨_, spline_eval hc hs ht hd hr (pchip_cons hc hs ht .yes rfl) rfl rfl (.inl rfl), ?_⟩
  intro i j u hu hj
  have hi : i < c.size := by have := (List.getElem?_eq_some_iff.1 hu).1; omega
  have hco : ∀ q : PPoly, q.y = c.mat → (fun x => coordOf j (q.row x)) = q.coord j := by
    intro q hy
    funext x
    unfold coordOf
    rw [q.row_getD (by rw [hy]; exact hj)]
  refine ⟨(pchipSlopes (c.t junk) c.mat).v i j, ?_, ?_⟩
  · have := PPoly.coord_hasDerivAt (p := ⟨c.t junk, c.mat, pchipSlopes (c.t junk) c.mat, .yes⟩) ht (by show 2 ≤ (c.t junk).length; omega)
      (show i < (c.t junk).length by omega) j
    rw [hco _ rfl, ← knot_eq hu]
    exact this
  have hsec : ∀ k, (c.mat.v (k + 1) j - c.mat.v k j) / ((c.t junk).getD (k + 1) 0 - (c.t junk).getD k 0) = secant (c.t junk) c j k := fun _ => rfl
  have hwid : ∀ k, (c.t junk).getD (k + 1) 0 - (c.t junk).getD k 0 = width (c.t junk) k := fun _ => rfl
  have hwp : ∀ k, k + 1 < c.size → 0 < width (c.t junk) k := by
    intro k hk
    have := knot_lt ht (show k < k + 1 by omega) (by omega)
    rw [← hwid]
    exact sub_pos.2 this
  rw [pchipSlopes_v, hl]
  unfold pchipSlope
  simp only [hsec]
  simp only [hwid]
  refine ⟨?_, ?_, ?_, ?_, ?_⟩
  · intro h
    rw [if_pos h]
  · rintro h rfl
    rw [if_neg (by omega), if_pos rfl]
    exact pchipEdge_limited (hwp 0 (by omega)) (hwp 1 (by omega)) _ _
  · intro h h1
    rw [if_neg (by omega), if_neg (by omega), if_pos (by omega), show c.size - 2 = i - 1 by omega, show c.size - 3 = i - 2 by omega]
    exact pchipEdge_limited (hwp _ (by omega)) (hwp _ (by omega)) _ _
  · intro h0 h1 hneg
    rw [if_neg (by omega), if_neg (by omega), if_neg (by omega), if_pos]
    by_cases hz : secant (c.t junk) c j i = 0
    · exact .inr (.inl hz)
    · left
      rw [npSign_ne_iff hz, mul_comm]; exact hneg
  · intro h0 h1 hpos
    have z0 : secant (c.t junk) c j (i - 1) ≠ 0 := by intro h; rw [h] at hpos; simp at hpos
    have z1 : secant (c.t junk) c j i ≠ 0 := by intro h; rw [h] at hpos; simp at hpos
    rw [if_neg (by omega), if_neg (by omega), if_neg (by omega), if_neg]
    · have w0 := hwp (i - 1) (by omega)
      have w1 := hwp i (by omega)
      generalize width (c.t junk) (i - 1) = a at *
      generalize width (c.t junk) i = b at *
      generalize secant (c.t junk) c j (i - 1) = s at *
      generalize secant (c.t junk) c j i = t at *
      have : (2 * b + a) / s + (b + 2 * a) / t ≠ 0 := by
        rw [div_add_div _ _ z0 z1]
        apply div_ne_zero _ (mul_ne_zero z0 z1)
        rcases pos_and_pos_or_neg_and_neg_of_mul_pos hpos with ⟨p, q⟩ | ⟨p, q⟩
        · positivity
        · have := mul_pos_of_neg_of_neg p q
          nlinarith
      rw [show a + 2 * b = 2 * b + a by ring, show 2 * a + b = b + 2 * a by ring]
      rw [one_div_div, show 2 * b + a + (b + 2 * a) = 3 * (a + b) by ring]
      exact div_mul_cancel₀ _ this
    · rw [not_or, not_or]
      refine ⟨?_, z1, z0⟩
      rw [npSign_ne_iff z1, mul_comm]; linarith

/-! ## Instances -/

example (lib : SplineLib) : ∃ F, EvaluatesTo (exStep 0) (fun g => (exStep 0).interpolate (builtinInterp lib 0) g "akima" .none)
      (WithinEnds ((exStep 0).t 0)) F ∧ HasDerivAt (fun x => coordOf 0 (F x)) (1 / 2) 1 := by
  obtain ⟨F, h1, h2⟩ := C107_akima (exStep_WF 0) (by simp [exStep, Curve.size]) (exStep_lt 0 0) (by simp [exStep]) (builtin_names lib 0).2.2.2.1
  obtain ⟨d, h3, _, _, h4, _⟩ := h2 1 0 1 rfl (by simp [exStep])
  have t0 : ∀ k, turn ((exStep 0).t 0) (exStep 0) 0 k = 1 := by
    intro k
    unfold turn
    have : max 1 (min k ((exStep 0).rows.length - 2)) = 1 ∨ max 1 (min k ((exStep 0).rows.length - 2)) = 2 := by
      have : (exStep 0).rows.length = 4 := rfl
      omega
    rcases this with h | h <;> rw [h] <;> norm_num [secant, exStep, Curve.t, at2]
  have t1 : ∀ k, turn ((exStep 0).t 0) (exStep 0) 1 k = 0 := by
    intro k
    unfold turn
    have : max 1 (min k ((exStep 0).rows.length - 2)) = 1 ∨ max 1 (min k ((exStep 0).rows.length - 2)) = 2 := by
      have : (exStep 0).rows.length = 4 := rfl
      omega
    rcases this with h | h <;> rw [h] <;> norm_num [secant, exStep, Curve.t, at2]
  have h5 := (h4 (by omega) (by simp [exStep, Curve.size]) (by
    intro k j' _ _ hj
    have hj : j' < 2 := hj
    rw [t0, t0]
    interval_cases j'
    · rw [t0]; norm_num
    · rw [t1]; norm_num)).1
  rw [t0, t0] at h5
  have s0 : secant ((exStep 0).t 0) (exStep 0) 0 (1 - 1) = 0 := by norm_num [secant, exStep, Curve.t, at2]
  have s1 : secant ((exStep 0).t 0) (exStep 0) 0 1 = 1 := by norm_num [secant, exStep, Curve.t, at2]
  rw [s0, s1] at h5
  obtain rfl : d = 1 / 2 := by linarith
  exact ⟨F, h1, h3⟩

example (lib : SplineLib) : ∃ F, EvaluatesTo exSloped (fun g => exSloped.interpolate (builtinInterp lib 0) g "pchip" .none) (fun _ => True) F ∧
    HasDerivAt (fun x => coordOf 1 (F x)) 4 1 := by
  obtain ⟨F, h1, h2⟩ := C107_pchip exSloped_WF (by simp [exSloped, Curve.size]) (exSloped_lt 0) (by simp [exSloped]) (builtin_names lib 0).2.2.1
  obtain ⟨d, h3, _, _, _, _, h4⟩ := h2 1 1 1 rfl (by simp [exSloped])
  have s0 : secant (exSloped.t 0) exSloped 1 (1 - 1) = 4 := by norm_num [secant, exSloped, Curve.t, at2]
  have s1 : secant (exSloped.t 0) exSloped 1 1 = 4 := by norm_num [secant, exSloped, Curve.t, at2]
  have w0 : width (exSloped.t 0) (1 - 1) = 1 := by norm_num [width, exSloped, Curve.t]
  have w1 : width (exSloped.t 0) 1 = 1 := by norm_num [width, exSloped, Curve.t]
  rw [s0, s1, w0, w1] at h4
  have h5 := h4 (by omega) (by simp [exSloped, Curve.size]) (by norm_num)
  norm_num at h5
  obtain rfl : d = 4 := by linarith
  exact ⟨F, h1, h3⟩

end Verif.Props
