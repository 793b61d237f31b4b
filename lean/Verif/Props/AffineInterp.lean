import Verif.Props.Affine
import Verif.Props.SplineShape
import Verif.Props.Motion
import Verif.Lemmas.AffineSpline

/-!
C99, interpolation: linear interpolation and natural cubic splines commute with affine maps, Hermite interpolation with
isometries; pchip does not commute with rotations.
-/
namespace Verif.Props

open Verif Verif.Np Verif.Model Verif.Spec

section
variable {M : Nat → Nat → ℝ} {b : Nat → ℝ} {c c' : Curve ℝ} (hc : WF c) (hc' : WF c') (hs : 2 ≤ c.size) (hA : AffineImage M b c c')
  {junk : ℝ} (ht : (c.t junk).Pairwise (· < ·)) (htt : c'.t junk = c.t junk)
include hc hc' hs hA ht htt

/-- From splines with transformed slopes. -/
theorem affine_splines (hd : c.dtype ≠ .int) (hd' : c'.dtype ≠ .int) {r : KwReg} {m : String}
    {cons : Curve ℝ → InterpKw → Except PyErr InterpImpl} {q q' : PPoly} (hr : getInterpClass r m = .ok (interpClass junk cons))
    (hq : cons c .none = .ok q.impl) (hq' : cons c' .none = .ok q'.impl) (hx : q.xs = c.t junk) (hx' : q'.xs = c'.t junk)
    (hy : q.y = c.mat) (hy' : q'.y = c'.mat) (hex : q.ex = .yes) (hex' : q'.ex = .yes)
    (hsl : ∀ i j, i < c.size → j < c'.ncols → q'.d.v i j = ∑ k ∈ Finset.range c.ncols, M j k * q.d.v i k) :
    ∃ F F', EvaluatesTo c (fun g => c.interpolate r g m .none) (fun _ => True) F ∧
      EvaluatesTo c' (fun g => c'.interpolate r g m .none) (fun _ => True) F' ∧
      ∀ x, AffinePt M b c.ncols c'.ncols (F x) (F' x) := by
  have hl := t_length hc (rows_ne_of_size hs) junk
  have hs' : 2 ≤ c'.size := by rw [hA.size]; exact hs
  have ht' : (c'.t junk).Pairwise (· < ·) := by rw [htt]; exact ht
  refine ⟨_, _, spline_eval hc hs ht hd hr hq hx hy (.inl hex), spline_eval hc' hs' ht' hd' hr hq' hx' hy' (.inl hex'), ?_⟩
  intro x
  refine ⟨by rw [q.row_length, hy]; rfl, by rw [q'.row_length, hy']; rfl, ?_⟩
  intro j hj
  rw [q'.row_getD (by rw [hy']; exact hj), PPoly.coord_affine (by rw [hx, hx', htt]) (by rw [hx]; exact ht) (by rw [hx]; omega)
    (n := c.ncols) (M := M j) (b := b j)]
  · congr 1
    apply Finset.sum_congr rfl
    intro k hk
    rw [q.row_getD (by rw [hy]; exact Finset.mem_range.1 hk)]
  · intro i hi
    rw [hx] at hi
    rw [hy, hy', mat_v, hA.pts i j (by omega) hj]
    rfl
  · intro i hi
    rw [hx] at hi
    exact hsl i j (by omega) hj

/-- **C99 (natural cubic splines).** Interpolating the image of a curve under an affine map `x ↦ M x + b`, at the same parameter
values, gives the image of the interpolated curve. (Dtypes that are not integer ones.) -/
theorem C99_cubic (hd : c.dtype ≠ .int) (hd' : c'.dtype ≠ .int) {lib : SplineLib} (hlib : NaturalOk lib) {r : KwReg} {m : String}
    (hr : IsCubic lib junk r m) :
    ∃ F F', EvaluatesTo c (fun g => c.interpolate r g m .none) (fun _ => True) F ∧
      EvaluatesTo c' (fun g => c'.interpolate r g m .none) (fun _ => True) F' ∧
      ∀ x, AffinePt M b c.ncols c'.ncols (F x) (F' x) := by
  have hl := t_length hc (rows_ne_of_size hs) junk
  have hs' : 2 ≤ c'.size := by rw [hA.size]; exact hs
  have ht' : (c'.t junk).Pairwise (· < ·) := by rw [htt]; exact ht
  obtain ⟨d, hsol, hnat⟩ := hlib (c.t junk) c.mat (knotsOk_curve hc hs ht)
  obtain ⟨d', hsol', hnat'⟩ := hlib (c'.t junk) c'.mat (knotsOk_curve hc' hs' ht')
  refine affine_splines hc hc' hs hA ht htt hd hd' hr (cubic_default hc hs ht lib hsol) (cubic_default hc' hs' ht' lib hsol') rfl rfl
    rfl rfl rfl rfl ?_
  intro i j hi hj
  have xlt : ∀ i, i + 1 < c.size → (c.t junk).getD i 0 < (c.t junk).getD (i + 1) 0 :=
    fun i hi => knot_lt ht (show i < i + 1 by omega) (by omega)
  have n2 := hnat' j hj
  rw [htt, hl] at n2
  have n1 := natural_affine (n := c.size) hs (x := fun i => (c.t junk).getD i 0) (N := c.ncols) (y := fun i k => c.mat.v i k)
    (d := fun i k => d.v i k) (by intro k hk; have := hnat k hk; rwa [hl] at this) (M j) (b j)
  have n3 : NaturalSystem c.size (fun i => (c.t junk).getD i 0) (fun i => c'.mat.v i j)
      (fun i => ∑ k ∈ Finset.range c.ncols, M j k * d.v i k) := by
    have e : ∀ i, i < c.size → c'.mat.v i j = ∑ k ∈ Finset.range c.ncols, M j k * c.mat.v i k + b j := by
      intro i hi
      rw [mat_v, hA.pts i j hi hj]
      rfl
    refine ⟨?_, ?_, ?_⟩
    · rw [e 0 (by omega), e 1 (by omega)]; exact n1.first
    · rw [e (c.size - 1) (by omega), e (c.size - 2) (by omega)]; exact n1.last
    · intro k hk
      rw [e k (by omega), e (k + 1) (by omega), e (k + 2) (by omega)]; exact n1.inner k hk
  exact natural_unique hs xlt n2 n3 i hi

/-- **C99 (linear interpolation).** Interpolating the image of a curve under an affine map `x ↦ M x + b`, at the same parameter
values, gives the image of the interpolated curve: in the range of the parameter, and with extrapolation everywhere. (Dtypes that
are not integer ones.) -/
theorem C99_linear (hd : c.dtype ≠ .int) (hd' : c'.dtype ≠ .int) {r : InterpReg Bool} {m : String} (hr : IsLinear junk r m) (ex : Bool) :
    ∃ F F', EvaluatesTo c (fun g => c.interpolate r g m ex) (fun x => ex = true ∨ WithinEnds (c.t junk) x) F ∧
      EvaluatesTo c' (fun g => c'.interpolate r g m ex) (fun x => ex = true ∨ WithinEnds (c.t junk) x) F' ∧
      ∀ x, AffinePt M b c.ncols c'.ncols (F x) (F' x) := by
  have hs' : 2 ≤ c'.size := by rw [hA.size]; exact hs
  have ht' : (c'.t junk).Pairwise (· < ·) := by rw [htt]; exact ht
  have ev : ∀ {e : Curve ℝ}, WF e → 2 ≤ e.size → (e.t junk).Pairwise (· < ·) → e.dtype ≠ .int → e.t junk = c.t junk →
      EvaluatesTo e (fun g => e.interpolate r g m ex) (fun x => ex = true ∨ WithinEnds (c.t junk) x)
        (rowAt ((e.t junk).zip e.rows)) := by
    intro e he hes het hed ett xs hne hx hdom
    obtain ⟨w, hg⟩ := getGrid_fins junk e xs hne hx
    obtain ⟨h1, h2⟩ := t_ends he (rows_ne_of_size hes) junk
    refine linear_repr he hes het hed hr ex hne hg h1 h2 ?_
    cases ex with
    | true => exact .inl rfl
    | false =>
      right
      intro x hx
      have := (hdom x hx).resolve_left (by simp)
      rw [ett] at h1 h2
      exact ⟨this.1 _ h1, this.2 _ h2⟩
  refine ⟨_, _, ev hc hs ht hd rfl, ev hc' hs' ht' hd' htt, ?_⟩
  intro x
  refine ⟨(interp1dAt_rowAt hc hs ht x).2, (interp1dAt_rowAt hc' hs' ht' x).2, ?_⟩
  intro j hj
  obtain ⟨i, u, v, p, q, h1, h2, h3, h4, h5, h6⟩ := exists_pair hc hs ht x
  have hi : i + 1 < c.rows.length := (List.getElem?_eq_some_iff.1 h4).1
  have hsz : c'.rows.length = c.rows.length := hA.size
  obtain ⟨p', h3'⟩ : ∃ p', c'.rows[i]? = some p' := ⟨_, List.getElem?_eq_getElem (by omega)⟩
  obtain ⟨q', h4'⟩ : ∃ q', c'.rows[i + 1]? = some q' := ⟨_, List.getElem?_eq_getElem (by omega)⟩
  rw [rowAt_pair hc hs ht x i u v p q h1 h2 h3 h4 h5 h6,
    rowAt_pair hc' hs' ht' x i u v p' q' (by rw [htt]; exact h1) (by rw [htt]; exact h2) h3' h4' h5 (by rw [hA.size]; exact h6)]
  obtain ⟨s, hsdef⟩ : ∃ s, s = (x - u) / (v - u) := ⟨_, rfl⟩
  rw [← hsdef]
  have mixD : ∀ {n : Nat} {p q : List ℝ}, p.length = n → q.length = n → ∀ k, k < n →
      (mix s p q).getD k 0 = p.getD k 0 + s * (q.getD k 0 - p.getD k 0) := by
    intro n p q hp hq k hk
    unfold mix
    simp [List.getD_eq_getElem?_getD, List.getElem?_zipWith, hp, hq, hk]
  have r1 := hc.rect p (List.mem_of_getElem? h3)
  have r2 := hc.rect q (List.mem_of_getElem? h4)
  have r1' := hc'.rect p' (List.mem_of_getElem? h3')
  have r2' := hc'.rect q' (List.mem_of_getElem? h4')
  have atD : ∀ {e : Curve ℝ} {i : Nat} {p : List ℝ}, e.rows[i]? = some p → ∀ k, at2 e.rows i k = p.getD k 0 := by
    intro e i p h k
    unfold at2
    rw [List.getD_eq_getElem?_getD (l := e.rows), h]; rfl
  have P := hA.pts i j (show i < c.rows.length by omega) hj
  have Q := hA.pts (i + 1) j hi hj
  simp only [atD h3, atD h4, atD h3', atD h4'] at P Q
  rw [mixD r1' r2' j hj, P, Q]
  have : ∑ k ∈ Finset.range c.ncols, M j k * (mix s p q).getD k 0 =
      ∑ k ∈ Finset.range c.ncols, M j k * p.getD k 0 + s * (∑ k ∈ Finset.range c.ncols, M j k * q.getD k 0 -
        ∑ k ∈ Finset.range c.ncols, M j k * p.getD k 0) := by
    rw [← Finset.sum_sub_distrib, Finset.mul_sum, ← Finset.sum_add_distrib]
    apply Finset.sum_congr rfl
    intro k hk
    rw [mixD r1 r2 k (Finset.mem_range.1 hk)]
    ring
  rw [this]
  ring

end

/-- A curve moved by an isometry is an affine image; the unit tangents are the images under the matrix. -/
theorem movedBy_affine {n n' : Nat} {L : EuclideanSpace ℝ (Fin n) →ₗᵢ[ℝ] EuclideanSpace ℝ (Fin n')} {w : EuclideanSpace ℝ (Fin n')}
    {c c' : Curve ℝ} (hc : WF c) (hc' : WF c') (hs : 2 ≤ c.size) (h : MovedBy L w c c') :
    ∃ M b, (∀ p : EuclideanSpace ℝ (Fin n), ∀ j : Fin n', (L p + w) j =
        ∑ k ∈ Finset.range n, M j k * (if hk : k < n then p ⟨k, hk⟩ else 0) + b j) ∧
      AffineImage M b c c' ∧
      ∀ i j, i < c.size → j < c'.ncols → (frenet1 c').v i j = ∑ k ∈ Finset.range c.ncols, M j k * (frenet1 c).v i k := by
  obtain ⟨M, hM⟩ := exists_matrix L
  have e1 : c.ncols = n := h.ndim
  have e2 : c'.ncols = n' := h.ndim'
  refine ⟨M, fun j => if hj : j < n' then w ⟨j, hj⟩ else 0, ?_, ⟨h.size, ?_⟩, ?_⟩
  · intro p j
    rw [← hM (fun k => if hk : k < n then p ⟨k, hk⟩ else 0) p (by intro k; simp) j]
    simp
  · intro i j hi hj
    rw [e2] at hj
    have := congrArg (fun v : EuclideanSpace ℝ (Fin n') => v ⟨j, hj⟩) (h.pts i hi)
    simp only [rowVec_apply, PiLp.add_apply] at this
    rw [this, hM (fun k => at2 c.rows i k) _ (fun k => rfl), e1]
    simp [hj]
  · intro i j hi hj
    have hs' : 2 ≤ c'.size := by rw [h.size]; exact hs
    obtain ⟨m1, m2, m3, m4, m5, m6, m7, m8⟩ := shapes_m c
    obtain ⟨m1', m2', m3', m4', m5', m6', m7', m8'⟩ := shapes_m c'
    obtain ⟨_, _, k4, _⟩ := shapes_k c (by omega)
    obtain ⟨_, _, k4', _⟩ := shapes_k c' (by omega)
    have k1 := firstderiv_k hs
    have k1' := firstderiv_k hs'
    obtain ⟨_, _, _, _, _, f1, _⟩ := C90_vectors hc hc' hs h hi
    have hj' : j < n' := by omega
    have := congrArg (fun v : EuclideanSpace ℝ (Fin n') => v ⟨j, hj'⟩) f1
    simp only [rowVec_apply] at this
    rw [at2_lt _ (by rw [m4', h.size]; exact hi) (by omega)] at this
    rw [this, hM (fun k => at2 (frenet1 c).rows i k) _ (fun k => rfl), e1]
    apply Finset.sum_congr rfl
    intro k hk
    rw [at2_lt _ (by omega) (by have := Finset.mem_range.1 hk; omega)]

/-- **C99 (Hermite interpolation).** Interpolating a curve moved by an isometry gives the moved result: the curves have equal
parameters (both none, or equal arrays), at least two points and a dtype that is not an integer one. The same holds with the
natural cubic spline, by `C99_cubic` with the matrix and vector of the isometry. -/
theorem C99_isometry {n n' : Nat} {L : EuclideanSpace ℝ (Fin n) →ₗᵢ[ℝ] EuclideanSpace ℝ (Fin n')} {w : EuclideanSpace ℝ (Fin n')}
    {c c' : Curve ℝ} (hc : WF c) (hc' : WF c') (hs : 2 ≤ c.size) (h : MovedBy L w c c') (htd : c'.tdata = c.tdata) {junk : ℝ}
    (ht : (c.t junk).Pairwise (· < ·)) (hd : c.dtype ≠ .int) (hd' : c'.dtype ≠ .int) {lib : SplineLib} {r : KwReg} {m : String}
    (hr : IsHermite junk r m ∨ NaturalOk lib ∧ IsCubic lib junk r m) :
    ∃ F F', EvaluatesTo c (fun g => c.interpolate r g m .none) (fun _ => True) F ∧
      EvaluatesTo c' (fun g => c'.interpolate r g m .none) (fun _ => True) F' ∧
      ∀ x, pt n' (F' x) = L (pt n (F x)) + w := by
  obtain ⟨M, b, hM, hA, hf⟩ := movedBy_affine hc hc' hs h
  have htt := (C90_lengths hc hc' h junk).2.2.2 htd
  have hs' : 2 ≤ c'.size := by rw [h.size]; exact hs
  have ht' : (c'.t junk).Pairwise (· < ·) := by rw [htt]; exact ht
  have e1 : c.ncols = n := h.ndim
  have e2 : c'.ncols = n' := h.ndim'
  obtain ⟨F, F', h1, h2, h3⟩ : ∃ F F', EvaluatesTo c (fun g => c.interpolate r g m .none) (fun _ => True) F ∧
      EvaluatesTo c' (fun g => c'.interpolate r g m .none) (fun _ => True) F' ∧ ∀ x, AffinePt M b c.ncols c'.ncols (F x) (F' x) := by
    rcases hr with hr | ⟨hlib, hr⟩
    · exact affine_splines hc hc' hs hA ht htt hd hd' hr (hermite_cons hc hs ht .yes rfl) (hermite_cons hc' hs' ht' .yes rfl) rfl rfl
        rfl rfl rfl rfl hf
    · exact C99_cubic hc hc' hs hA ht htt hd hd' hlib hr
  refine ⟨F, F', h1, h2, fun x => ?_⟩
  ext j
  rw [hM]
  obtain ⟨_, _, h6⟩ := h3 x
  have := h6 j (by rw [e2]; exact j.2)
  refine Eq.trans this ?_
  rw [e1]
  congr 1
  apply Finset.sum_congr rfl
  intro k hk
  rw [dif_pos (Finset.mem_range.1 hk)]
  rfl

/-! ## pchip and rotations -/

/-- An angle with equal legs. -/
def exLegs : Curve ℝ := ⟨[[0, 0], [5, 0], [5, 5]], 2, some [0, 5, 10], .float⟩
/-- The same, turned by the rotation `exTurn`. -/
def exLegsTurned : Curve ℝ := ⟨[[0, 0], [3, 4], [-1, 7]], 2, some [0, 5, 10], .float⟩
/-- The rotation by the larger angle of the triangle with the sides 3, 4, 5. -/
noncomputable def exTurn (j k : Nat) : ℝ :=
  if j = 0 then (if k = 0 then 3 / 5 else -(4 / 5)) else (if k = 0 then 4 / 5 else 3 / 5)

theorem exLegs_WF : WF exLegs where
  two_le := by simp [exLegs]
  rect := by simp [exLegs]
  tlen := by simp [exLegs]
  repr := by intro r _ x _; rfl

theorem exLegsTurned_WF : WF exLegsTurned where
  two_le := by simp [exLegsTurned]
  rect := by simp [exLegsTurned]
  tlen := by simp [exLegsTurned]
  repr := by intro r _ x _; rfl

theorem exLegs_turn : AffineImage exTurn (fun _ => 0) exLegs exLegsTurned := by
  refine ⟨rfl, ?_⟩
  intro i j hi hj
  have hi' : i < 3 := hi
  have hj' : j < 2 := hj
  rcases (show i = 0 ∨ i = 1 ∨ i = 2 by omega) with rfl | rfl | rfl <;>
    rcases (show j = 0 ∨ j = 1 by omega) with rfl | rfl <;>
      simp [exLegs, exLegsTurned, exTurn, at2, Finset.sum_range_succ] <;> norm_num

theorem exLegs_lt (junk : ℝ) : (exLegs.t junk).Pairwise (· < ·) := by simp [exLegs, Curve.t]; norm_num

theorem exLegsTurned_lt (junk : ℝ) : (exLegsTurned.t junk).Pairwise (· < ·) := by simp [exLegsTurned, Curve.t]; norm_num

/-- **C99 fails for `pchip`.** Interpolation of every coordinate for itself with limited slopes is not compatible with rotations:
of an angle with equal legs and the same turned by a rotation the result of the turned one is not the turned result. -/
theorem C99_pchip_fails {junk : ℝ} {r : KwReg} {m : String} (hr : IsPchip junk r m) :
    AffineImage exTurn (fun _ => 0) exLegs exLegsTurned ∧ exLegsTurned.t junk = exLegs.t junk ∧
    ∃ F F', EvaluatesTo exLegs (fun g => exLegs.interpolate r g m .none) (fun _ => True) F ∧
      EvaluatesTo exLegsTurned (fun g => exLegsTurned.interpolate r g m .none) (fun _ => True) F' ∧
      ¬ AffinePt exTurn (fun _ => 0) 2 2 (F (5 / 2)) (F' (5 / 2)) := by
  have hs : 2 ≤ exLegs.size := by simp [exLegs, Curve.size]
  have hs' : 2 ≤ exLegsTurned.size := by simp [exLegsTurned, Curve.size]
  refine ⟨exLegs_turn, rfl, _, _, spline_eval exLegs_WF hs (exLegs_lt junk) (by simp [exLegs]) hr
    (pchip_cons exLegs_WF hs (exLegs_lt junk) .yes rfl) rfl rfl (.inl rfl),
    spline_eval exLegsTurned_WF hs' (exLegsTurned_lt junk) (by simp [exLegsTurned]) hr
    (pchip_cons exLegsTurned_WF hs' (exLegsTurned_lt junk) .yes rfl) rfl rfl (.inl rfl), ?_⟩
  have k0 : knot (exLegs.t junk) 0 = 0 := knot_eq rfl
  have k1 : knot (exLegs.t junk) 1 = 5 := knot_eq rfl
  have k0' : knot (exLegsTurned.t junk) 0 = 0 := knot_eq rfl
  have k1' : knot (exLegsTurned.t junk) 1 = 5 := knot_eq rfl
  rintro ⟨_, _, h⟩
  have h0 := h 0 (by omega)
  rw [PPoly.row_getD _ (by simp [exLegsTurned, Curve.mat]), PPoly.coord_on (i := 0) (exLegsTurned_lt junk) (by simp [exLegsTurned, Curve.t]) 0 (.inl rfl)
    (.inr (by simp only [zero_add]; rw [k1']; norm_num)), Finset.sum_range_succ, Finset.sum_range_succ, Finset.sum_range_zero,
    PPoly.row_getD _ (by simp [exLegs, Curve.mat]), PPoly.row_getD _ (by simp [exLegs, Curve.mat]),
    PPoly.coord_on (i := 0) (exLegs_lt junk) (by simp [exLegs, Curve.t]) 0 (.inl rfl)
    (.inr (by simp only [zero_add]; rw [k1]; norm_num)),
    PPoly.coord_on (i := 0) (exLegs_lt junk) (by simp [exLegs, Curve.t]) 1 (.inl rfl)
    (.inr (by simp only [zero_add]; rw [k1]; norm_num))] at h0
  unfold PPoly.cub at h0
  simp only [zero_add, pchipSlopes_v] at h0
  rw [k0, k1, k0', k1'] at h0
  have s1 : pchipSlope 3 (fun i => (exLegs.t junk).getD i 0) (fun i => exLegs.mat.v i 0) 0 = 3 / 2 := by
    simp [pchipSlope, pchipEdge, npSign, exLegs, Curve.t, Curve.mat]; norm_num
  have s2 : pchipSlope 3 (fun i => (exLegs.t junk).getD i 0) (fun i => exLegs.mat.v i 0) 1 = 0 := by
    simp [pchipSlope, npSign, exLegs, Curve.t, Curve.mat]
  have s3 : pchipSlope 3 (fun i => (exLegs.t junk).getD i 0) (fun i => exLegs.mat.v i 1) 0 = 0 := by
    simp [pchipSlope, pchipEdge, npSign, exLegs, Curve.t, Curve.mat]; norm_num
  have s4 : pchipSlope 3 (fun i => (exLegs.t junk).getD i 0) (fun i => exLegs.mat.v i 1) 1 = 0 := by
    simp [pchipSlope, npSign, exLegs, Curve.t, Curve.mat]
  have s5 : pchipSlope 3 (fun i => (exLegsTurned.t junk).getD i 0) (fun i => exLegsTurned.mat.v i 0) 0 = 13 / 10 := by
    simp [pchipSlope, pchipEdge, npSign, exLegsTurned, Curve.t, Curve.mat]; norm_num
  have s6 : pchipSlope 3 (fun i => (exLegsTurned.t junk).getD i 0) (fun i => exLegsTurned.mat.v i 0) 1 = 0 := by
    simp [pchipSlope, npSign, exLegsTurned, Curve.t, Curve.mat]; norm_num
  have l1 : (exLegs.t junk).length = 3 := rfl
  have l2 : (exLegsTurned.t junk).length = 3 := rfl
  rw [l1, l2, s1, s2, s3, s4, s5, s6] at h0
  simp [hermR, exLegs, exLegsTurned, Curve.mat, exTurn] at h0
  norm_num at h0

/-! ## Concrete cases -/

example : ∃ F F', EvaluatesTo exLegs (fun g => exLegs.interpolate (linearReg 0) g "linear" true) (fun x => true = true ∨ WithinEnds (exLegs.t 0) x) F ∧
    EvaluatesTo exLegsTurned (fun g => exLegsTurned.interpolate (linearReg 0) g "linear" true) (fun x => true = true ∨ WithinEnds (exLegs.t 0) x) F' ∧
    ∀ x, AffinePt exTurn (fun _ => 0) 2 2 (F x) (F' x) :=
  C99_linear exLegs_WF exLegsTurned_WF (by simp [exLegs, Curve.size]) exLegs_turn (exLegs_lt 0) rfl (by simp [exLegs]) (by simp [exLegsTurned])
    (isLinear_linearReg 0) true

example : ∃ lib, ∃ F F', EvaluatesTo exLegs (fun g => exLegs.interpolate (builtinInterp lib 0) g "cubic" .none) (fun _ => True) F ∧
    EvaluatesTo exLegsTurned (fun g => exLegsTurned.interpolate (builtinInterp lib 0) g "cubic" .none) (fun _ => True) F' ∧
    ∀ x, AffinePt exTurn (fun _ => 0) 2 2 (F x) (F' x) := by
  obtain ⟨lib, hlib⟩ := exists_naturalOk
  exact ⟨lib, C99_cubic exLegs_WF exLegsTurned_WF (by simp [exLegs, Curve.size]) exLegs_turn (exLegs_lt 0) rfl (by simp [exLegs])
    (by simp [exLegsTurned]) hlib (builtin_names lib 0).2.2.2.2⟩

example (lib : SplineLib) : AffineImage exTurn (fun _ => 0) exLegs exLegsTurned := (C99_pchip_fails (builtin_names lib 0).2.2.1).1

/-- A curve moved by the identity and a translation, with Hermite interpolation. -/
example (lib : SplineLib) : ∃ F F', EvaluatesTo exLegs (fun g => exLegs.interpolate (builtinInterp lib 0) g "hermite" .none) (fun _ => True) F ∧
    EvaluatesTo exLegs (fun g => exLegs.interpolate (builtinInterp lib 0) g "hermite" .none) (fun _ => True) F' ∧
    ∀ x, pt 2 (F' x) = pt 2 (F x) := by
  have := C99_isometry (L := LinearIsometry.id) (w := 0) exLegs_WF exLegs_WF (by simp [exLegs, Curve.size])
    (⟨rfl, rfl, rfl, by intro i _; simp⟩ : MovedBy (n := 2) (n' := 2) _ _ exLegs exLegs) rfl (exLegs_lt 0) (by simp [exLegs]) (by simp [exLegs])
    (lib := lib) (.inl (builtin_names lib 0).2.1)
  simpa using this

/-- The default window of size 3 on a curve and its rotated image. -/
example : ∃ d d', (finCurve exLegs).smooth (smoothReg fun _ _ => .error .typeError) "window" (.window { size := 3 }) = .ok (finCurve d) ∧
    (finCurve exLegsTurned).smooth (smoothReg fun _ _ => .error .typeError) "window" (.window { size := 3 }) = .ok (finCurve d') ∧
    AffineImage exTurn (fun _ => 0) d d' := by
  obtain ⟨ws, g1, _, g3, _⟩ := C68_hann_partial 3 (by norm_num) (by norm_num)
  obtain ⟨d, d', h1, h2, _, _, _, h3⟩ := C99_smooth (C99_window (smoothReg_window fun _ _ => .error .typeError) g3 (p := { size := 3 }) g1
    (by simp [RepeatMode]) 3 (by norm_num)) exLegs_WF exLegsTurned_WF rfl rfl rfl exLegs_turn
  exact ⟨d, d', h1, h2, by simpa using h3⟩

/-- A Savitzky-Golay filter on the same. -/
example : ∃ lib, LsqOk lib ∧ ∃ d d', (finCurve exLegs).smooth (smoothReg (savgolFn lib)) "savgol" (.savgol ⟨3, 1, 0, 1, "interp", 0⟩) = .ok (finCurve d) ∧
    (finCurve exLegsTurned).smooth (smoothReg (savgolFn lib)) "savgol" (.savgol ⟨3, 1, 0, 1, "interp", 0⟩) = .ok (finCurve d') ∧
    AffineImage exTurn (fun _ => 0) d d' := by
  obtain ⟨lib, hl, _⟩ := exists_LsqLib false
  refine ⟨lib, hl, ?_⟩
  obtain ⟨d, d', h1, h2, _, _, _, h3⟩ := C99_smooth (C99_savgol hl (smoothReg_savgol (savgolFn lib)) (wl := 3) (po := 1) (by norm_num)
    (.inl (by norm_num)) 0 1 0 (.inr rfl) (mode := "interp") 3 (by norm_num) (.inr ⟨rfl, by norm_num⟩)) exLegs_WF exLegsTurned_WF rfl trivial trivial
    exLegs_turn
  exact ⟨d, d', h1, h2, by simpa using h3⟩

end Verif.Props
