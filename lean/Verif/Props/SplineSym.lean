import Verif.Props.SplineEnds
import Verif.Props.Rescale
import Verif.Lemmas.SplineSym

/-!
C141: cubic interpolation with boundary conditions commutes with affine maps of the points, with changes of units of the parameter and with
the change of direction, if given derivatives are converted.
-/
namespace Verif.Props

open Verif Verif.Np Verif.Model Verif.Spec

/-! ## Converted entries -/

theorem endImage_documented {M : Nat → Nat → ℝ} {a : ℝ} {n n' : Nat} {e e' : BcEnd} (h : EndImage M a n n' e e') (hd : Documented n e) :
    Documented n' e' := by
  cases h with
  | str s => simpa [Documented] using hd
  | deriv o vs vs' hl hv =>
    rcases hd with hd | hd | hd | ⟨o', us, he, ho, _⟩
    · exact absurd hd (by simp)
    · exact absurd hd (by simp)
    · exact absurd hd (by simp)
    · obtain ⟨rfl, rfl⟩ := BcEnd.deriv.inj he
      exact .inr (.inr (.inr ⟨o, vs', rfl, ho, hl⟩))

theorem endImage_rel {M : Nat → Nat → ℝ} {a : ℝ} {n n' : Nat} {e e' : BcEnd} (h : EndImage M a n n' e e') (hd : Documented n e)
    {w w' : EndCond} (hw : e.validate n = .ok w) (hw' : e'.validate n' = .ok w') {j : Nat} (hj : j < n') :
    EndRel a⁻¹ (a⁻¹ ^ 2) 0 j (endComb (M j) n w) w' := by
  obtain ⟨u, hu, hcase⟩ := validate_documented hd
  obtain ⟨u', hu', hcase'⟩ := validate_documented (endImage_documented h hd)
  rw [hw] at hu
  rw [hw'] at hu'
  obtain rfl := Except.ok.inj hu
  obtain rfl := Except.ok.inj hu'
  cases h with
  | str s =>
    rcases hcase with ⟨he, rfl⟩ | ⟨he, rfl⟩ | ⟨he, rfl⟩ | ⟨vs, he, _⟩ | ⟨vs, he, _⟩
    · cases he
      simp at hcase'
      subst hcase'
      simp only [EndRel, endComb, replicate_getD_zero]
      simp
    · cases he
      simp at hcase'
      subst hcase'
      simp only [EndRel, endComb, replicate_getD_zero]
      simp
    · cases he
      simp at hcase'
      subst hcase'
      simp only [EndRel, endComb]
    · simp at he
    · simp at he
  | deriv o vs vs' hl hv =>
    rcases hcase with ⟨he, _⟩ | ⟨he, _⟩ | ⟨he, _⟩ | ⟨us, he, rfl, _⟩ | ⟨us, he, rfl, _⟩
    · simp at he
    · simp at he
    · simp at he
    · obtain ⟨rfl, rfl⟩ := BcEnd.deriv.inj he
      simp at hcase'
      obtain ⟨rfl, _⟩ := hcase'
      simp only [EndRel, endComb]
      rw [hv j hj]
      simp [div_eq_inv_mul]
    · obtain ⟨rfl, rfl⟩ := BcEnd.deriv.inj he
      simp at hcase'
      obtain ⟨rfl, _⟩ := hcase'
      simp only [EndRel, endComb]
      rw [hv j hj]
      simp [div_eq_inv_mul]

theorem sum_unitMat {n j : Nat} (hj : j < n) (v : Nat → ℝ) : ∑ k ∈ Finset.range n, unitMat j k * v k = v j := by
  rw [Finset.sum_eq_single_of_mem j (Finset.mem_range.2 hj)]
  · simp [unitMat]
  · intro k _ hk
    simp [unitMat, hk.symm]

theorem endImage_back {n : Nat} {e e' : BcEnd} (h : EndImage unitMat (-1) n n e e') (hd : Documented n e)
    {w w' : EndCond} (hw : e.validate n = .ok w) (hw' : e'.validate n = .ok w') {j : Nat} (hj : j < n) : EndRel (-1) 1 j j w w' := by
  have := endImage_rel h hd hw hw' hj
  cases w <;> cases w' <;> simp only [EndRel, endComb, sum_unitMat hj] at this ⊢
  · simpa using this
  · simpa using this

/-! ## Affine maps -/

section
variable {M : Nat → Nat → ℝ} {w : Nat → ℝ} {c c' : Curve ℝ} {a b : ℝ} (hc : WF c) (hc' : WF c') (hs : 2 ≤ c.size)
  (hA : AffineImage M w c c') (ha : 0 < a)
  {junk : ℝ} (ht : (c.t junk).Pairwise (· < ·)) (htt : c'.t junk = (c.t junk).map fun x => a * x + b)
include hc hc' hs hA ha ht htt

theorem affine_ppoly {d d' : NMat} {ex ex' : Extrap}
    (hsl : ∀ i j, i < c.size → j < c'.ncols → d'.v i j = a⁻¹ * ∑ k ∈ Finset.range c.ncols, M j k * d.v i k) (x : ℝ) :
    AffinePt M w c.ncols c'.ncols (PPoly.row ⟨c.t junk, c.mat, d, ex⟩ x) (PPoly.row ⟨c'.t junk, c'.mat, d', ex'⟩ (a * x + b)) := by
  have hl := t_length hc (rows_ne_of_size hs) junk
  have ht' := rescale_lt ha ht htt
  refine ⟨by rw [PPoly.row_length]; rfl, by rw [PPoly.row_length]; rfl, ?_⟩
  intro j hj
  rw [PPoly.row_getD _ (show j < c'.ncols from hj)]
  rw [PPoly.coord_rescale (p := ⟨c.t junk, c'.mat, ⟨d'.m, d'.k, fun i j => a * d'.v i j⟩, ex⟩) (s := 1) (w := 0) ha (n := c.size) hl
    (by show (c'.t junk).length = _; rw [htt, List.length_map, hl]) hs ht ht' (fun i hi => rescale_knot hc hs htt hi) (by intro i _; simp) (by
      intro i _; show d'.v i j = 1 / a * (a * d'.v i j); field_simp) x]
  rw [PPoly.coord_affine (p := ⟨c.t junk, c.mat, d, ex⟩)
    (p' := ⟨c.t junk, c'.mat, ⟨d'.m, d'.k, fun i j => a * d'.v i j⟩, ex⟩) rfl ht (by show 2 ≤ (c.t junk).length; omega) (n := c.ncols) (M := M j) (b := w j)]
  · rw [one_mul, add_zero]
    congr 1
    apply Finset.sum_congr rfl
    intro k hk
    rw [PPoly.row_getD _ (show k < c.ncols from Finset.mem_range.1 hk)]
  · intro i hi
    show at2 c'.rows i j = _
    rw [hA.pts i j (by rw [← hl]; exact hi) hj]
    rfl
  · intro i hi
    show a * d'.v i j = _
    rw [hsl i j (by rw [← hl]; exact hi) hj, ← mul_assoc, mul_inv_cancel₀ ha.ne', one_mul]

/-- **C141 (affine maps and units).** Points `M p + w` instead of `p`, parameter values `a x + b` instead of `x` with `a > 0`, and boundary
conditions with the derivatives converted: `cubic` gives at `a x + b` the image of the point it gave at `x`, inside and outside of the range of
the parameter. (Documented entries; dtypes that are not integer ones.) -/
theorem C141_affine (hd : c.dtype ≠ .int) (hd' : c'.dtype ≠ .int) {lib : SplineLib} (hlib : EndsOk lib) {r : KwReg} {m : String}
    (hr : IsCubic lib junk r m) {s e s' e' : BcEnd} (h1 : Documented c.ncols s) (h2 : Documented c.ncols e)
    (h3 : EndImage M a c.ncols c'.ncols s s') (h4 : EndImage M a c.ncols c'.ncols e e') :
    ∃ F F', EvaluatesTo c (fun g => c.interpolate r g m ⟨[("bc_type", .tup [s, e])]⟩) (fun _ => True) F ∧
      EvaluatesTo c' (fun g => c'.interpolate r g m ⟨[("bc_type", .tup [s', e'])]⟩) (fun _ => True) F' ∧
      ∀ x, AffinePt M w c.ncols c'.ncols (F x) (F' (a * x + b)) := by
  have hl := t_length hc (rows_ne_of_size hs) junk
  have hs' : 2 ≤ c'.size := by rw [hA.size]; exact hs
  have ht' := rescale_lt ha ht htt
  have hl' : (c'.t junk).length = c.size := by rw [htt, List.length_map, hl]
  obtain ⟨u, hu, _⟩ := validate_documented h1
  obtain ⟨v, hv, _⟩ := validate_documented h2
  obtain ⟨u', hu', _⟩ := validate_documented (endImage_documented h3 h1)
  obtain ⟨v', hv', _⟩ := validate_documented (endImage_documented h4 h2)
  obtain ⟨d, hsol, hsys⟩ := hlib u v (c.t junk) c.mat (knotsOk_curve hc hs ht)
  obtain ⟨d', hsol', hsys'⟩ := hlib u' v' (c'.t junk) c'.mat (knotsOk_curve hc' hs' ht')
  refine ⟨_, _, spline_eval hc hs ht hd hr (q := ⟨c.t junk, c.mat, d, .yes⟩) (cubic_pair hc hs ht lib hu hv hsol) rfl rfl (.inl rfl),
    spline_eval hc' hs' ht' hd' hr (q := ⟨c'.t junk, c'.mat, d', .yes⟩) (cubic_pair hc' hs' ht' lib hu' hv' hsol') rfl rfl (.inl rfl), ?_⟩
  refine affine_ppoly hc hc' hs hA ha ht htt ?_
  intro i j hi hj
  have xlt : ∀ i, i + 1 < c.size → (c.t junk).getD i 0 < (c.t junk).getD (i + 1) 0 :=
    fun i hi => knot_lt ht (show i < i + 1 by omega) (by omega)
  have xlt' : ∀ i, i + 1 < c.size → (c'.t junk).getD i 0 < (c'.t junk).getD (i + 1) 0 :=
    fun i hi => knot_lt ht' (show i < i + 1 by omega) (by omega)
  have n2 := hsys' j hj
  rw [hl'] at n2
  have n1 := endsSystem_units xlt ha (x' := fun i => (c'.t junk).getD i 0) (b := b) (fun i hi => rescale_knot hc hs htt hi) hs
    (endsSystem_comb (N := c.ncols) (y := fun i k => c.mat.v i k) (d := fun i k => d.v i k) (a := u) (b := v)
      (by intro k hk; have := hsys k hk; rwa [hl] at this) (M j) (w j)) (endImage_rel h3 h1 hu hu' hj) (endImage_rel h4 h2 hv hv' hj)
  refine endsSystem_unique hs xlt' n2 (endsSystem_congr hs ?_ n1) i hi
  intro i hi
  rw [mat_v, hA.pts i j hi hj]
  rfl

end

/-! ## Backwards -/

section
variable {L : ℝ} {c c' : Curve ℝ} (hc : WF c) (hc' : WF c') (hs : 2 ≤ c.size) {junk : ℝ} (hB : Backwards L c c' (c.t junk) (c'.t junk))
  (ht : (c.t junk).Pairwise (· < ·))
include hc hc' hs hB ht

theorem back_ppoly {d d' : NMat} {ex ex' : Extrap} (hsl : ∀ i j, i < c.size → j < c.ncols → d'.v i j = - d.v (c.size - 1 - i) j) (x : ℝ) :
    PPoly.row ⟨c'.t junk, c'.mat, d', ex'⟩ x = PPoly.row ⟨c.t junk, c.mat, d, ex⟩ (L - x) := by
  obtain ⟨e1, e2, e3⟩ := back_size hc hc' hs hB
  have hl := t_length hc (rows_ne_of_size hs) junk
  have k1 : c'.mat.k = c.mat.k := hB.ncols
  unfold PPoly.row
  simp only [k1]
  apply List.map_congr_left
  intro j hj
  have hj' := List.mem_range.1 hj
  exact PPoly.coord_reverse (n := c.size) (L := L) hl e3 hs ht (back_lt hc hc' hs hB ht) (fun i hi => back_knot hc hc' hs hB hi)
    (fun i hi => back_mat hc hc' hs hB hi hj') (fun i hi => hsl i j hi hj') x

/-- **C141 (direction).** The same points backwards at mirrored parameter values `L - x`, the boundary conditions exchanged and given first
derivatives negated: `cubic` gives at `x` the point it gave at `L - x`. (Documented entries; dtypes that are not integer ones.) -/
theorem C141_reverse (hd : c.dtype ≠ .int) {lib : SplineLib} (hlib : EndsOk lib) {r : KwReg} {m : String}
    (hr : IsCubic lib junk r m) {s e s' e' : BcEnd} (h1 : Documented c.ncols s) (h2 : Documented c.ncols e)
    (h3 : EndImage unitMat (-1) c.ncols c.ncols s s') (h4 : EndImage unitMat (-1) c.ncols c.ncols e e') :
    ∃ F F', EvaluatesTo c (fun g => c.interpolate r g m ⟨[("bc_type", .tup [s, e])]⟩) (fun _ => True) F ∧
      EvaluatesTo c' (fun g => c'.interpolate r g m ⟨[("bc_type", .tup [e', s'])]⟩) (fun _ => True) F' ∧
      ∀ x, F' x = F (L - x) := by
  obtain ⟨e1, hs', hl'⟩ := back_size hc hc' hs hB
  have hl := t_length hc (rows_ne_of_size hs) junk
  have ht' := back_lt hc hc' hs hB ht
  have hd' : c'.dtype ≠ .int := by rw [hB.dtype]; exact hd
  obtain ⟨u, hu, _⟩ := validate_documented h1
  obtain ⟨v, hv, _⟩ := validate_documented h2
  obtain ⟨u', hu', _⟩ := validate_documented (endImage_documented h3 h1)
  obtain ⟨v', hv', _⟩ := validate_documented (endImage_documented h4 h2)
  obtain ⟨d, hsol, hsys⟩ := hlib u v (c.t junk) c.mat (knotsOk_curve hc hs ht)
  obtain ⟨d', hsol', hsys'⟩ := hlib v' u' (c'.t junk) c'.mat (knotsOk_curve hc' hs' ht')
  refine ⟨_, _, spline_eval hc hs ht hd hr (q := ⟨c.t junk, c.mat, d, .yes⟩) (cubic_pair hc hs ht lib hu hv hsol) rfl rfl (.inl rfl),
    spline_eval hc' hs' ht' hd' hr (q := ⟨c'.t junk, c'.mat, d', .yes⟩)
      (cubic_pair hc' hs' ht' lib (by rw [hB.ncols]; exact hv') (by rw [hB.ncols]; exact hu') hsol') rfl rfl (.inl rfl), ?_⟩
  refine back_ppoly hc hc' hs hB ht ?_
  intro i j hi hj
  have xlt' : ∀ i, i + 1 < c.size → (c'.t junk).getD i 0 < (c'.t junk).getD (i + 1) 0 :=
    fun i hi => knot_lt ht' (show i < i + 1 by omega) (by omega)
  have n1 := hsys j hj
  have n2 := hsys' j (show j < c'.ncols by rw [hB.ncols]; exact hj)
  rw [hl] at n1
  rw [hl'] at n2
  exact endsSystem_unique hs xlt' n2 (endsSystem_back (x' := fun i => (c'.t junk).getD i 0) (y' := fun i => c'.mat.v i j) (L := L)
    (fun i hi => back_knot hc hc' hs hB hi) (fun i hi => back_mat hc hc' hs hB hi hj) hs n1
    (endImage_back h3 h1 hu hu' hj) (endImage_back h4 h2 hv hv' hj)) i hi

end

/-! ## Closed curves -/

/-- The values of the periodic spline. -/
theorem periodic_eval {c : Curve ℝ} (hc : WF c) (hs : 2 ≤ c.size) {junk : ℝ} (ht : (c.t junk).Pairwise (· < ·))
    (hd : c.dtype ≠ .int) (hclosed : ∀ j, j < c.ncols → at2 c.rows (c.size - 1) j = at2 c.rows 0 j)
    {lib : SplineLib} (hlib : BoundaryOk lib) {r : KwReg} {m : String} (hr : IsCubic lib junk r m) :
    ∃ d : NMat, (∀ j, j < c.ncols → PeriodicSystem c.size (fun i => (c.t junk).getD i 0) (fun i => c.mat.v i j) (fun i => d.v i j)) ∧
      EvaluatesTo c (fun g => c.interpolate r g m ⟨[("bc_type", .str "periodic")]⟩) (fun _ => True)
        (fun x => PPoly.row ⟨c.t junk, c.mat, d, .periodic⟩ (wrapR (knot (c.t junk) 0) (knot (c.t junk) (c.size - 1)) x)) := by
  have hl := t_length hc (rows_ne_of_size hs) junk
  obtain ⟨d, hsol, hnat⟩ := hlib.periodic (c.t junk) c.mat (knotsOk_curve hc hs ht) (by
    intro j hj; rw [hl]; exact hclosed j hj)
  obtain ⟨ea, eb⟩ := t_ends hc (rows_ne_of_size hs) junk
  have ka : knot (c.t junk) 0 = (c.t junk).headD 0 := knot_eq (by rw [← List.head?_eq_getElem?]; exact ea)
  have kb : knot (c.t junk) (c.size - 1) = (c.t junk).getLastD 0 := knot_eq (by rw [← hl, ← List.getLast?_eq_getElem?]; exact eb)
  refine ⟨d, by rw [← hl]; exact hnat, ?_⟩
  refine ppoly_values hc hs hd hr (q := ⟨c.t junk, c.mat, d, .periodic⟩) (cubic_bc hc hs ht lib hsol) rfl
    (fun x => by rw [PPoly.row_length]; rfl) ?_
  intro x
  have e : PPoly.at ⟨c.t junk, c.mat, d, .periodic⟩ (.fin x) =
      PPoly.piece ⟨c.t junk, c.mat, d, .periodic⟩ (wrapPeriod ((c.t junk).headD 0) ((c.t junk).getLastD 0) (.fin x)) := by
    unfold PPoly.at
    simp [wrapPeriod]
  rw [e, ← ka, ← kb]
  exact PPoly.piece_fin _ _

theorem wrapR_units {a p q : ℝ} (ha : 0 < a) (b x : ℝ) : wrapR (a * p + b) (a * q + b) (a * x + b) = a * wrapR p q x + b := by
  unfold wrapR
  rw [show a * x + b - (a * p + b) = a * (x - p) by ring, show a * q + b - (a * p + b) = a * (q - p) by ring, mul_div_mul_left _ _ ha.ne']
  ring

theorem wrapR_shift {p q : ℝ} (h : p < q) (x : ℝ) (k : ℤ) : wrapR p q (x + (q - p) * k) = wrapR p q x := by
  have hne : q - p ≠ 0 := by linarith
  unfold wrapR
  rw [show (x + (q - p) * k - p) / (q - p) = (x - p) / (q - p) + k by field_simp; ring, Int.floor_add_intCast]
  push_cast
  ring

theorem wrapR_mem {p q : ℝ} (h : p < q) (x : ℝ) : p ≤ wrapR p q x ∧ wrapR p q x < q := by
  have hp : 0 < q - p := by linarith
  have h1 := Int.floor_le ((x - p) / (q - p))
  have h2 := Int.lt_floor_add_one ((x - p) / (q - p))
  rw [le_div_iff₀ hp] at h1
  rw [div_lt_iff₀ hp] at h2
  unfold wrapR
  constructor <;> nlinarith

/-- Mirrored values are brought into the mirrored range; the ends of the range are exchanged. -/
theorem wrapR_back {p q : ℝ} (h : p < q) (L x : ℝ) :
    (wrapR (L - q) (L - p) x = L - wrapR p q (L - x)) ∨ (wrapR (L - q) (L - p) x = L - q ∧ wrapR p q (L - x) = p) := by
  obtain ⟨z, hz⟩ : ∃ z, z = wrapR p q (L - x) := ⟨_, rfl⟩
  obtain ⟨m1, m2⟩ := wrapR_mem h (L - x)
  rw [← hz] at m1 m2 ⊢
  obtain ⟨k, hk⟩ : ∃ k : ℤ, x = L - z + ((L - p) - (L - q)) * k := by
    refine ⟨-⌊(L - x - p) / (q - p)⌋, ?_⟩
    rw [hz]
    unfold wrapR
    push_cast
    ring
  rw [hk, wrapR_shift (by linarith)]
  rcases m1.lt_or_eq with h1 | h1
  · left
    exact wrapR_in (by linarith) (by linarith)
  · right
    rw [← h1]
    exact ⟨wrapR_end (by linarith), rfl⟩

/-- **C141 (closed curves, affine maps and units).** Points `M p + w` instead of `p` and parameter values `a x + b` instead of `x` with `a > 0`:
`cubic` with `bc_type='periodic'` gives at `a x + b` the image of the point it gave at `x`, everywhere. (Dtypes that are not integer ones.) -/
theorem C141_periodic {M : Nat → Nat → ℝ} {w : Nat → ℝ} {c c' : Curve ℝ} {a b : ℝ} (hc : WF c) (hc' : WF c') (hs : 2 ≤ c.size)
    (hA : AffineImage M w c c') (ha : 0 < a) {junk : ℝ} (ht : (c.t junk).Pairwise (· < ·))
    (htt : c'.t junk = (c.t junk).map fun x => a * x + b) (hd : c.dtype ≠ .int) (hd' : c'.dtype ≠ .int)
    (hclosed : ∀ j, j < c.ncols → at2 c.rows (c.size - 1) j = at2 c.rows 0 j)
    {lib : SplineLib} (hlib : BoundaryOk lib) {r : KwReg} {m : String} (hr : IsCubic lib junk r m) :
    ∃ F F', EvaluatesTo c (fun g => c.interpolate r g m ⟨[("bc_type", .str "periodic")]⟩) (fun _ => True) F ∧
      EvaluatesTo c' (fun g => c'.interpolate r g m ⟨[("bc_type", .str "periodic")]⟩) (fun _ => True) F' ∧
      ∀ x, AffinePt M w c.ncols c'.ncols (F x) (F' (a * x + b)) := by
  have hl := t_length hc (rows_ne_of_size hs) junk
  have hs' : 2 ≤ c'.size := by rw [hA.size]; exact hs
  have ht' := rescale_lt ha ht htt
  have hl' : (c'.t junk).length = c.size := by rw [htt, List.length_map, hl]
  have hclosed' : ∀ j, j < c'.ncols → at2 c'.rows (c'.size - 1) j = at2 c'.rows 0 j := by
    intro j hj
    rw [hA.size, hA.pts _ j (by omega) hj, hA.pts 0 j (by omega) hj]
    congr 1
    apply Finset.sum_congr rfl
    intro k hk
    rw [hclosed k (Finset.mem_range.1 hk)]
  obtain ⟨d, hsys, hev⟩ := periodic_eval hc hs ht hd hclosed hlib hr
  obtain ⟨d', hsys', hev'⟩ := periodic_eval hc' hs' ht' hd' hclosed' hlib hr
  refine ⟨_, _, hev, hev', ?_⟩
  intro x
  rw [hA.size, rescale_knot hc hs htt (by omega), rescale_knot hc hs htt (by omega), wrapR_units ha]
  refine affine_ppoly hc hc' hs hA ha ht htt ?_ _
  intro i j hi hj
  have xlt : ∀ i, i + 1 < c.size → (c.t junk).getD i 0 < (c.t junk).getD (i + 1) 0 :=
    fun i hi => knot_lt ht (show i < i + 1 by omega) (by omega)
  have xlt' : ∀ i, i + 1 < c.size → (c'.t junk).getD i 0 < (c'.t junk).getD (i + 1) 0 :=
    fun i hi => knot_lt ht' (show i < i + 1 by omega) (by omega)
  have n2 := hsys' j hj
  rw [hA.size] at n2
  have n1 := periodicSystem_units xlt ha (x' := fun i => (c'.t junk).getD i 0) (b := b) (fun i hi => rescale_knot hc hs htt hi) hs
    (periodicSystem_comb (N := c.ncols) (y := fun i k => c.mat.v i k) (d := fun i k => d.v i k) hsys (M j) (w j))
  refine periodic_unique hs xlt' n2 (periodicSystem_congr hs ?_ n1) i hi
  intro i hi
  rw [mat_v, hA.pts i j hi hj]
  rfl

/-- **C141 (closed curves, direction).** The same points backwards at mirrored parameter values `L - x`: `cubic` with `bc_type='periodic'` gives
at `x` the point it gave at `L - x`, everywhere. (Dtypes that are not integer ones.) -/
theorem C141_periodic_reverse {L : ℝ} {c c' : Curve ℝ} (hc : WF c) (hc' : WF c') (hs : 2 ≤ c.size) {junk : ℝ}
    (hB : Backwards L c c' (c.t junk) (c'.t junk)) (ht : (c.t junk).Pairwise (· < ·)) (hd : c.dtype ≠ .int)
    (hclosed : ∀ j, j < c.ncols → at2 c.rows (c.size - 1) j = at2 c.rows 0 j)
    {lib : SplineLib} (hlib : BoundaryOk lib) {r : KwReg} {m : String} (hr : IsCubic lib junk r m) :
    ∃ F F', EvaluatesTo c (fun g => c.interpolate r g m ⟨[("bc_type", .str "periodic")]⟩) (fun _ => True) F ∧
      EvaluatesTo c' (fun g => c'.interpolate r g m ⟨[("bc_type", .str "periodic")]⟩) (fun _ => True) F' ∧
      ∀ x, F' x = F (L - x) := by
  obtain ⟨e1, hs', hl'⟩ := back_size hc hc' hs hB
  have hl := t_length hc (rows_ne_of_size hs) junk
  have ht' := back_lt hc hc' hs hB ht
  have hd' : c'.dtype ≠ .int := by rw [hB.dtype]; exact hd
  have hclosed' : ∀ j, j < c'.ncols → at2 c'.rows (c'.size - 1) j = at2 c'.rows 0 j := by
    intro j hj
    rw [hB.ncols] at hj
    have e9 := hB.pts (c.size - 1) j (show c.size - 1 < c.size by omega) hj
    have e0 := hB.pts 0 j (show 0 < c.size by omega) hj
    rw [show c.rows.length - 1 - (c.size - 1) = 0 by show c.size - 1 - (c.size - 1) = 0; omega] at e9
    rw [e1, e9, e0, Nat.sub_zero]
    exact (hclosed j hj).symm
  obtain ⟨d, hsys, hev⟩ := periodic_eval hc hs ht hd hclosed hlib hr
  obtain ⟨d', hsys', hev'⟩ := periodic_eval hc' hs' ht' hd' hclosed' hlib hr
  refine ⟨_, _, hev, hev', ?_⟩
  intro x
  have k0 := back_knot hc hc' hs hB (i := 0) (by omega)
  have k9 := back_knot hc hc' hs hB (i := c.size - 1) (by omega)
  rw [Nat.sub_zero] at k0
  rw [show c.size - 1 - (c.size - 1) = 0 by omega] at k9
  have hpq : knot (c.t junk) 0 < knot (c.t junk) (c.size - 1) := knot_lt ht (by omega) (by omega)
  have key := back_ppoly hc hc' hs hB ht (d := d) (d' := d') (ex := .periodic) (ex' := .periodic) (by
    intro i j hi hj
    have xlt' : ∀ i, i + 1 < c.size → (c'.t junk).getD i 0 < (c'.t junk).getD (i + 1) 0 :=
      fun i hi => knot_lt ht' (show i < i + 1 by omega) (by omega)
    have n2 := hsys' j (show j < c'.ncols by rw [hB.ncols]; exact hj)
    rw [e1] at n2
    exact periodic_unique hs xlt' n2 (periodicSystem_back (x' := fun i => (c'.t junk).getD i 0) (y' := fun i => c'.mat.v i j) (L := L)
      (fun i hi => back_knot hc hc' hs hB hi) (fun i hi => back_mat hc hc' hs hB hi hj) hs (hsys j hj)) i hi)
  beta_reduce
  rw [e1, k0, k9, key]
  rcases wrapR_back hpq L x with h | ⟨h, h'⟩
  · rw [h]
    congr 1
    ring
  · rw [h, h', sub_sub_cancel]
    unfold PPoly.row
    apply List.map_congr_left
    intro j hj
    rw [PPoly.coord_knot ht (by show 2 ≤ (c.t junk).length; omega) (by show c.size - 1 < (c.t junk).length; omega),
      PPoly.coord_knot ht (by show 2 ≤ (c.t junk).length; omega) (by show 0 < (c.t junk).length; omega)]
    exact hclosed j (List.mem_range.1 hj)

/-! ## Strings, and curves without parameter values -/

/-- **C141 (strings).** For `bc_type` `'natural'`, `'clamped'` and `'not-a-knot'` nothing has to be converted: points `M p + w` at parameter
values `a x + b` with `a > 0` give the images of the interpolated points, and the same points backwards at mirrored parameter values give the
same interpolated points. -/
theorem C141_strings {lib : SplineLib} (h1 : NaturalOk lib) (h2 : BoundaryOk lib) (h3 : EndsOk lib) {junk : ℝ} {r : KwReg} {m : String}
    (hr : IsCubic lib junk r m) {s : String} (hstr : s = "natural" ∨ s = "clamped" ∨ s = "not-a-knot") {c c' : Curve ℝ} (hc : WF c) (hc' : WF c')
    (hs : 2 ≤ c.size) (ht : (c.t junk).Pairwise (· < ·)) (hd : c.dtype ≠ .int) (hd' : c'.dtype ≠ .int) :
    (∀ M w a b, AffineImage M w c c' → 0 < a → (c'.t junk = (c.t junk).map fun x => a * x + b) →
      ∃ F F', EvaluatesTo c (fun g => c.interpolate r g m ⟨[("bc_type", .str s)]⟩) (fun _ => True) F ∧
        EvaluatesTo c' (fun g => c'.interpolate r g m ⟨[("bc_type", .str s)]⟩) (fun _ => True) F' ∧
        ∀ x, AffinePt M w c.ncols c'.ncols (F x) (F' (a * x + b))) ∧
    ∀ L, Backwards L c c' (c.t junk) (c'.t junk) →
      ∃ F F', EvaluatesTo c (fun g => c.interpolate r g m ⟨[("bc_type", .str s)]⟩) (fun _ => True) F ∧
        EvaluatesTo c' (fun g => c'.interpolate r g m ⟨[("bc_type", .str s)]⟩) (fun _ => True) F' ∧ ∀ x, F' x = F (L - x) := by
  have hdoc : ∀ k, Documented k (.str s) := by
    intro k
    rcases hstr with rfl | rfl | rfl
    · exact .inl rfl
    · exact .inr (.inl rfl)
    · exact .inr (.inr (.inl rfl))
  have e : ∀ c : Curve ℝ, (fun g => c.interpolate r g m ⟨[("bc_type", .tup [.str s, .str s])]⟩) =
      fun g => c.interpolate r g m ⟨[("bc_type", .str s)]⟩ := fun c => funext fun g => C133_same h1 h2 h3 hr hstr g
  constructor
  · intro M w a b hA ha htt
    have := C141_affine hc hc' hs hA ha ht htt hd hd' h3 hr (hdoc _) (hdoc _) (.str s) (.str s)
    rwa [e, e] at this
  · intro L hB
    have := C141_reverse hc hc' hs hB ht hd h3 hr (hdoc _) (hdoc _) (.str s) (.str s)
    rwa [e, e] at this

/-- **C141 (scaling a curve without parameter values).** Such a curve scaled by `s > 0` and moved, with entries of order 1 kept and the values
of order 2 divided by `s`: the point at `s x` is the image of the point at `x`. -/
theorem C141_scaling {s : ℝ} {w : Nat → ℝ} {c c' : Curve ℝ} (hc : WF c) (hc' : WF c') (hs : 2 ≤ c.size) (hpos : 0 < s) (hS : ScaledBy s w c c')
    (hp : c.tdata = none) (hp' : c'.tdata = none) {junk : ℝ} (ht : (c.t junk).Pairwise (· < ·)) (hd : c.dtype ≠ .int) (hd' : c'.dtype ≠ .int)
    {lib : SplineLib} (hlib : EndsOk lib) {r : KwReg} {m : String} (hr : IsCubic lib junk r m) {e f e' f' : BcEnd}
    (he : e' = e ∧ (∀ vs, e ≠ .deriv 2 vs) ∨ ∃ vs, e = .deriv 2 vs ∧ e' = .deriv 2 (vs.map (· / s)))
    (hf : f' = f ∧ (∀ vs, f ≠ .deriv 2 vs) ∨ ∃ vs, f = .deriv 2 vs ∧ f' = .deriv 2 (vs.map (· / s)))
    (h1 : Documented c.ncols e) (h2 : Documented c.ncols f) :
    ∃ F F', EvaluatesTo c (fun g => c.interpolate r g m ⟨[("bc_type", .tup [e, f])]⟩) (fun _ => True) F ∧
      EvaluatesTo c' (fun g => c'.interpolate r g m ⟨[("bc_type", .tup [e', f'])]⟩) (fun _ => True) F' ∧
      ∀ x, (F x).length = c.ncols ∧ (F' (s * x)).length = c.ncols ∧
        ∀ j, j < c.ncols → coordOf j (F' (s * x)) = s * coordOf j (F x) + w j := by
  have hnc : c'.ncols = c.ncols := hS.ndim
  have htt : c'.t junk = (c.t junk).map fun x => s * x + 0 := by
    have := (C91_lengths hc hc' (rows_ne_of_size hs) hpos.le hS junk).2.1
    unfold Curve.t
    rw [hp, hp']
    simpa using this
  have sumS : ∀ {n j : Nat}, j < n → ∀ v : Nat → ℝ, ∑ k ∈ Finset.range n, s * unitMat j k * v k = s * v j := by
    intro n j hj v
    rw [← sum_unitMat hj v, Finset.mul_sum]
    exact Finset.sum_congr rfl fun k _ => by ring
  have hA : AffineImage (fun j k => s * unitMat j k) w c c' := by
    refine ⟨hS.size, ?_⟩
    intro i j hi hj
    rw [hnc] at hj
    rw [sumS hj]
    exact hS.pts i j hi hj
  have conv : ∀ {e e' : BcEnd}, (e' = e ∧ (∀ vs, e ≠ .deriv 2 vs) ∨ ∃ vs, e = .deriv 2 vs ∧ e' = .deriv 2 (vs.map (· / s))) →
      Documented c.ncols e → EndImage (fun j k => s * unitMat j k) s c.ncols c'.ncols e e' := by
    intro e e' he hdoc
    rcases he with ⟨rfl, hne⟩ | ⟨vs, rfl, rfl⟩
    · rcases hdoc with rfl | rfl | rfl | ⟨o, vs, rfl, rfl | rfl, hl⟩
      · exact .str _
      · exact .str _
      · exact .str _
      · refine .deriv 1 _ _ (by rw [hnc]; exact hl) ?_
        intro j hj
        rw [hnc] at hj
        rw [sumS hj, zpow_one, mul_div_cancel_left₀ _ hpos.ne']
      · exact absurd rfl (hne vs)
    · rcases hdoc with h | h | h | ⟨o, us, h, _, hl⟩
      · simp at h
      · simp at h
      · simp at h
      · obtain ⟨_, rfl⟩ := BcEnd.deriv.inj h
        refine .deriv 2 _ _ (by rw [hnc, List.length_map]; exact hl) ?_
        intro j hj
        rw [hnc] at hj
        rw [sumS hj]
        have hj' : j < vs.length := by omega
        simp only [List.getD_eq_getElem?_getD, List.getElem?_map, List.getElem?_eq_getElem hj', Option.map_some, Option.getD_some]
        rw [zpow_ofNat, div_eq_div_iff hpos.ne' (by positivity)]
        ring
  obtain ⟨F, F', g1, g2, g3⟩ := C141_affine hc hc' hs hA hpos ht htt hd hd' hlib hr h1 h2 (conv he h1) (conv hf h2)
  refine ⟨F, F', g1, g2, ?_⟩
  intro x
  obtain ⟨l1, l2, l3⟩ := g3 x
  rw [add_zero] at l2 l3
  refine ⟨l1, by rw [l2, hnc], ?_⟩
  intro j hj
  have := l3 j (by rw [hnc]; exact hj)
  rw [sumS hj] at this
  exact this

/-- **C141 (reversed curves).** For a curve of at least two points without parameter values: the reversed curve, with the entries exchanged and
first derivatives negated, interpolated at `x` gives the point of the curve at (arc length `- x`). -/
theorem C141_reversed {c c' : Curve ℝ} (hc : WF c) (hs : 2 ≤ c.size) (hp : c.tdata = none) (hrev : c.reverse = .ok c') {junk : ℝ}
    (ht : (c.t junk).Pairwise (· < ·)) (hd : c.dtype ≠ .int) {lib : SplineLib} (hlib : EndsOk lib) {r : KwReg} {m : String}
    (hr : IsCubic lib junk r m) {s e s' e' : BcEnd} (h1 : Documented c.ncols s) (h2 : Documented c.ncols e)
    (h3 : EndImage unitMat (-1) c.ncols c.ncols s s') (h4 : EndImage unitMat (-1) c.ncols c.ncols e e') :
    ∃ F F', EvaluatesTo c (fun g => c.interpolate r g m ⟨[("bc_type", .tup [s, e])]⟩) (fun _ => True) F ∧
      EvaluatesTo c' (fun g => c'.interpolate r g m ⟨[("bc_type", .tup [e', s'])]⟩) (fun _ => True) F' ∧
      ∀ x, F' x = F (arclen junk c - x) :=
  C141_reverse hc (reverse_WF hrev) hs (reverse_backwards hc hs hp hrev junk) ht hd hlib hr h1 h2 h3 h4

/-! ## Values that are not converted -/

/-- Two points at the parameter values 0 and `u`. -/
def exTwoPts (u : ℝ) : Curve ℝ := ⟨[[0, 0], [1, 0]], 2, some [0, u], .float⟩

theorem exTwoPts_WF (u : ℝ) : WF (exTwoPts u) := ⟨by simp [exTwoPts], by simp [exTwoPts], by simp [exTwoPts], by intro r _ x _; rfl⟩
theorem exTwoPts_lt {u : ℝ} (h : 0 < u) (junk : ℝ) : ((exTwoPts u).t junk).Pairwise (· < ·) := by simpa [exTwoPts, Curve.t] using h
theorem exTwoPts_affine (u v : ℝ) : AffineImage unitMat (fun _ => 0) (exTwoPts u) (exTwoPts v) := by
  refine ⟨rfl, ?_⟩
  intro i j _ hj
  have hj : j < 2 := hj
  show at2 _ i j = ∑ k ∈ Finset.range 2, unitMat j k * at2 (exTwoPts u).rows i k + 0
  rw [sum_unitMat hj, add_zero]
  rfl

/-- The slope `(1, 0)`. -/
def exSlope : BcEnd := .deriv 1 [1, 0]

open Polynomial in
/-- **C141 fails for derivatives that are not converted.** The points (0, 0), (1, 0) at the parameter values 0, 1, with slope (1, 0) at both ends,
give the line: 1/4 at 1/4. With the parameter values doubled and the same `bc_type` the value at 1/2 is 11/32. -/
theorem C141_unconverted_fails {junk : ℝ} {lib : SplineLib} (hlib : EndsOk lib) {r : KwReg} {m : String} (hr : IsCubic lib junk r m) :
    AffineImage unitMat (fun _ => 0) (exTwoPts 1) (exTwoPts 2) ∧ ((exTwoPts 2).t junk = ((exTwoPts 1).t junk).map fun x => 2 * x + 0) ∧
    ∃ F F', EvaluatesTo (exTwoPts 1) (fun g => (exTwoPts 1).interpolate r g m ⟨[("bc_type", .tup [exSlope, exSlope])]⟩) (fun _ => True) F ∧
      EvaluatesTo (exTwoPts 2) (fun g => (exTwoPts 2).interpolate r g m ⟨[("bc_type", .tup [exSlope, exSlope])]⟩) (fun _ => True) F' ∧
      coordOf 0 (F (1 / 4)) = 1 / 4 ∧ coordOf 0 (F' (1 / 2)) = 11 / 32 := by
  refine ⟨exTwoPts_affine 1 2, by simp [exTwoPts, Curve.t], ?_⟩
  have hdoc : ∀ u, Documented (exTwoPts u).ncols exSlope := fun u => .inr (.inr (.inr ⟨1, [1, 0], rfl, .inl rfl, rfl⟩))
  have run : ∀ u : ℝ, 0 < u → ∀ Q : ℝ[X], Q.natDegree ≤ 3 → Q.eval 0 = 0 → Q.eval u = 1 → Q.derivative.eval 0 = 1 → Q.derivative.eval u = 1 →
      ∃ F, EvaluatesTo (exTwoPts u) (fun g => (exTwoPts u).interpolate r g m ⟨[("bc_type", .tup [exSlope, exSlope])]⟩) (fun _ => True) F ∧
        ∀ x, coordOf 0 (F x) = Q.eval x := by
    intro u hu Q q1 q2 q3 q4 q5
    obtain ⟨F, g1, _, g2⟩ := C133_ends (exTwoPts_WF u) (by simp [exTwoPts, Curve.size]) (exTwoPts_lt hu junk) (by simp [exTwoPts]) hlib hr (hdoc u) (hdoc u)
    refine ⟨F, g1, ?_⟩
    intro x
    rw [g2 (fun j => if j = 0 then Q else 0) ?_ ?_ 0 x (by simp [exTwoPts])]
    · simp
    · intro i x j hx hj
      have hj : j < 2 := hj
      match i with
      | 0 => simp [exTwoPts, Curve.t] at hx; subst hx; rcases (show j = 0 ∨ j = 1 by omega) with rfl | rfl <;> simp [exTwoPts, at2, q2]
      | 1 => simp [exTwoPts, Curve.t] at hx; subst hx; rcases (show j = 0 ∨ j = 1 by omega) with rfl | rfl <;> simp [exTwoPts, at2, q3]
      | (k + 2) => simp [exTwoPts, Curve.t] at hx
    · intro j hj
      have hj : j < 2 := hj
      rcases (show j = 0 ∨ j = 1 by omega) with rfl | rfl
      · refine ⟨by simpa using q1, ?_, ?_, by simp [exSlope], by simp [exSlope]⟩
        · intro v hv
          simp [exTwoPts, Curve.t] at hv
          subst hv
          exact ⟨by simp [exSlope], by simp [exSlope], by intro vs v h hv; simp [exSlope] at h; subst h; simp at hv; subst hv; simpa using q4,
            by simp [exSlope]⟩
        · intro v hv
          simp [exTwoPts, Curve.t] at hv
          subst hv
          exact ⟨by simp [exSlope], by simp [exSlope], by intro vs v h hv; simp [exSlope] at h; subst h; simp at hv; subst hv; simpa using q5,
            by simp [exSlope]⟩
      · refine ⟨by simp, ?_, ?_, by simp [exSlope], by simp [exSlope]⟩
        · intro v hv
          exact ⟨by simp [exSlope], by simp [exSlope], by intro vs v h hv; simp [exSlope] at h; subst h; simp at hv; subst hv; simp,
            by simp [exSlope]⟩
        · intro v hv
          exact ⟨by simp [exSlope], by simp [exSlope], by intro vs v h hv; simp [exSlope] at h; subst h; simp at hv; subst hv; simp,
            by simp [exSlope]⟩
  obtain ⟨F, f1, f2⟩ := run 1 (by norm_num) X (by simp) (by simp) (by simp) (by simp) (by simp)
  obtain ⟨F', f1', f2'⟩ := run 2 (by norm_num) (X - C (3 / 4) * X ^ 2 + C (1 / 4) * X ^ 3) (by compute_degree) (by simp) (by simp; norm_num)
    (by simp) (by simp; norm_num)
  refine ⟨F, F', f1, f1', ?_, ?_⟩
  · rw [f2]; simp
  · rw [f2']; simp; norm_num

/-! ## Instances -/

/-- The halved slope. -/
noncomputable def exHalfSlope : BcEnd := .deriv 1 [1 / 2, 0]

theorem exSlope_half : EndImage unitMat 2 2 2 exSlope exHalfSlope := by
  refine .deriv 1 _ _ rfl ?_
  intro j hj
  rw [sum_unitMat hj]
  rcases (show j = 0 ∨ j = 1 by omega) with rfl | rfl <;> simp

/-- With the slopes halved the doubled parameter values give the same curve. -/
example : ∃ lib, EndsOk lib ∧ ∃ F F',
    EvaluatesTo (exTwoPts 1) (fun g => (exTwoPts 1).interpolate (builtinInterp lib 0) g "cubic" ⟨[("bc_type", .tup [exSlope, exSlope])]⟩) (fun _ => True) F ∧
    EvaluatesTo (exTwoPts 2) (fun g => (exTwoPts 2).interpolate (builtinInterp lib 0) g "cubic" ⟨[("bc_type", .tup [exHalfSlope, exHalfSlope])]⟩)
      (fun _ => True) F' ∧ ∀ x, AffinePt unitMat (fun _ => 0) 2 2 (F x) (F' (2 * x + 0)) := by
  obtain ⟨lib, _, _, h⟩ := exists_endsOk
  have hdoc : Documented (exTwoPts 1).ncols exSlope := .inr (.inr (.inr ⟨1, [1, 0], rfl, .inl rfl, rfl⟩))
  exact ⟨lib, h, C141_affine (exTwoPts_WF 1) (exTwoPts_WF 2) (by simp [exTwoPts, Curve.size]) (exTwoPts_affine 1 2) (by norm_num)
    (exTwoPts_lt (by norm_num) 0) (by simp [exTwoPts, Curve.t]) (by simp [exTwoPts]) (by simp [exTwoPts]) h (builtin_names lib 0).2.2.2.2 hdoc hdoc
    exSlope_half exSlope_half⟩

/-- Turned points, `not-a-knot`. -/
example : ∃ lib, EndsOk lib ∧ ∃ F F',
    EvaluatesTo exLegs (fun g => exLegs.interpolate (builtinInterp lib 0) g "cubic" ⟨[("bc_type", .str "not-a-knot")]⟩) (fun _ => True) F ∧
    EvaluatesTo exLegsTurned (fun g => exLegsTurned.interpolate (builtinInterp lib 0) g "cubic" ⟨[("bc_type", .str "not-a-knot")]⟩)
      (fun _ => True) F' ∧ ∀ x, AffinePt exTurn (fun _ => 0) 2 2 (F x) (F' (1 * x + 0)) := by
  obtain ⟨lib, h1, h2, h3⟩ := exists_endsOk
  exact ⟨lib, h3, (C141_strings h1 h2 h3 (builtin_names lib 0).2.2.2.2 (.inr (.inr rfl)) exLegs_WF exLegsTurned_WF
    (by simp [exLegs, Curve.size]) (exLegs_lt 0) (by simp [exLegs]) (by simp [exLegsTurned])).1 exTurn (fun _ => 0) 1 0 exLegs_turn (by norm_num)
    (by simp [exLegs, exLegsTurned, Curve.t])⟩

/-- The reversed slope. -/
def exBackSlope : BcEnd := .deriv 1 [-1, 0]

theorem exSlope_back : EndImage unitMat (-1) 2 2 exSlope exBackSlope := by
  refine .deriv 1 _ _ rfl ?_
  intro j hj
  rw [sum_unitMat hj]
  rcases (show j = 0 ∨ j = 1 by omega) with rfl | rfl <;> simp

/-- A plain curve reversed, with a given slope at the start and `natural` at the end. -/
example : ∃ lib, EndsOk lib ∧ ∃ c', exRight.reverse = .ok c' ∧ ∃ F F',
    EvaluatesTo exRight (fun g => exRight.interpolate (builtinInterp lib 0) g "cubic" ⟨[("bc_type", .tup [exSlope, .str "natural"])]⟩) (fun _ => True) F ∧
    EvaluatesTo c' (fun g => c'.interpolate (builtinInterp lib 0) g "cubic" ⟨[("bc_type", .tup [.str "natural", exBackSlope])]⟩)
      (fun _ => True) F' ∧ ∀ x, F' x = F (arclen 0 exRight - x) := by
  obtain ⟨lib, _, _, h⟩ := exists_endsOk
  have hrev := reverse_eq exRight_WF
  rw [if_neg (by simp [exRight])] at hrev
  exact ⟨lib, h, _, hrev, C141_reversed exRight_WF (by simp [exRight, Curve.size]) rfl hrev (exRight_lt 0) (by simp [exRight]) h
    (builtin_names lib 0).2.2.2.2 (.inr (.inr (.inr ⟨1, [1, 0], rfl, .inl rfl, rfl⟩))) (.inl rfl) exSlope_back (.str _)⟩

/-- A plain curve scaled by 2: the slope is kept, the second derivative is halved. -/
example : ∃ lib, EndsOk lib ∧ ∃ F F',
    EvaluatesTo exRight (fun g => exRight.interpolate (builtinInterp lib 0) g "cubic" ⟨[("bc_type", .tup [exSlope, .deriv 2 [0, 6]])]⟩) (fun _ => True) F ∧
    EvaluatesTo exRight2 (fun g => exRight2.interpolate (builtinInterp lib 0) g "cubic" ⟨[("bc_type", .tup [exSlope, .deriv 2 ([0, 6].map (· / 2))])]⟩)
      (fun _ => True) F' ∧ coordOf 1 (F' (2 * 4)) = 2 * coordOf 1 (F 4) + 0 := by
  obtain ⟨lib, _, _, h⟩ := exists_endsOk
  have hS : ScaledBy 2 (fun _ => 0) exRight exRight2 := ⟨rfl, rfl, by
      intro i j hi hj
      have hi : i < 3 := hi
      have hj : j < 2 := hj
      rcases (show i = 0 ∨ i = 1 ∨ i = 2 by omega) with rfl | rfl | rfl <;>
        rcases (show j = 0 ∨ j = 1 by omega) with rfl | rfl <;> simp [exRight, exRight2, at2] <;> norm_num⟩
  obtain ⟨F, F', h1, h2, h3⟩ := C141_scaling exRight_WF exRight2_WF (by simp [exRight, Curve.size]) (by norm_num : (0 : ℝ) < 2) hS rfl rfl
    (exRight_lt 0) (by simp [exRight]) (by simp [exRight2]) h (builtin_names lib 0).2.2.2.2 (e := exSlope) (e' := exSlope)
    (.inl ⟨rfl, by simp [exSlope]⟩) (.inr ⟨[0, 6], rfl, rfl⟩) (.inr (.inr (.inr ⟨1, [1, 0], rfl, .inl rfl, rfl⟩)))
    (.inr (.inr (.inr ⟨2, [0, 6], rfl, .inr rfl, rfl⟩)))
  exact ⟨lib, h, F, F', h1, h2, (h3 4).2.2 1 (by simp [exRight])⟩

theorem exLoop_WF : WF exLoop := ⟨by simp [exLoop], by simp [exLoop], by simp [exLoop], by intro r _ x _; rfl⟩
theorem exLoop_closed : ∀ j, j < exLoop.ncols → at2 exLoop.rows (exLoop.size - 1) j = at2 exLoop.rows 0 j := by
  intro j hj; have hj' : j < 2 := hj; rcases (show j = 0 ∨ j = 1 by omega) with rfl | rfl <;> simp [exLoop, at2, Curve.size]

/-- `exLoop` backwards. -/
def exLoopBack : Curve ℝ := ⟨[[0, 0], [1, 1], [1, 0], [0, 0]], 2, some [0, 2, 3, 4], .float⟩
/-- `exLoop` turned by `exTurn`, five times as large, with another unit of the parameter. -/
def exLoopTurned : Curve ℝ := ⟨[[0, 0], [3, 4], [-1, 7], [0, 0]], 2, some [1, 4, 7, 13], .float⟩

theorem exLoopBack_WF : WF exLoopBack := ⟨by simp [exLoopBack], by simp [exLoopBack], by simp [exLoopBack], by intro r _ x _; rfl⟩
theorem exLoopTurned_WF : WF exLoopTurned := ⟨by simp [exLoopTurned], by simp [exLoopTurned], by simp [exLoopTurned], by intro r _ x _; rfl⟩

example : ∃ lib, BoundaryOk lib ∧ ∃ F F',
    EvaluatesTo exLoop (fun g => exLoop.interpolate (builtinInterp lib 0) g "cubic" ⟨[("bc_type", .str "periodic")]⟩) (fun _ => True) F ∧
    EvaluatesTo exLoopBack (fun g => exLoopBack.interpolate (builtinInterp lib 0) g "cubic" ⟨[("bc_type", .str "periodic")]⟩)
      (fun _ => True) F' ∧ ∀ x, F' x = F (4 - x) := by
  obtain ⟨lib, _, h⟩ := exists_boundaryOk
  refine ⟨lib, h, C141_periodic_reverse exLoop_WF exLoopBack_WF (by simp [exLoop, Curve.size]) ⟨rfl, rfl, rfl, ?_, ?_⟩ (by norm_num [exLoop, Curve.t])
    (by simp [exLoop]) exLoop_closed h (builtin_names lib 0).2.2.2.2⟩
  · intro i j hi hj
    have hi : i < 4 := hi
    have hj : j < 2 := hj
    rcases (show i = 0 ∨ i = 1 ∨ i = 2 ∨ i = 3 by omega) with rfl | rfl | rfl | rfl <;>
      rcases (show j = 0 ∨ j = 1 by omega) with rfl | rfl <;> simp [exLoop, exLoopBack, at2]
  · intro i x hi hx
    have hi : i < 4 := hi
    rcases (show i = 0 ∨ i = 1 ∨ i = 2 ∨ i = 3 by omega) with rfl | rfl | rfl | rfl <;> simp [exLoop, exLoopBack, Curve.t] at hx ⊢ <;> subst hx <;> norm_num

example : ∃ lib, BoundaryOk lib ∧ ∃ F F',
    EvaluatesTo exLoop (fun g => exLoop.interpolate (builtinInterp lib 0) g "cubic" ⟨[("bc_type", .str "periodic")]⟩) (fun _ => True) F ∧
    EvaluatesTo exLoopTurned (fun g => exLoopTurned.interpolate (builtinInterp lib 0) g "cubic" ⟨[("bc_type", .str "periodic")]⟩)
      (fun _ => True) F' ∧ ∀ x, AffinePt (fun j k => 5 * exTurn j k) (fun _ => 0) 2 2 (F x) (F' (3 * x + 1)) := by
  obtain ⟨lib, _, h⟩ := exists_boundaryOk
  refine ⟨lib, h, C141_periodic exLoop_WF exLoopTurned_WF (by simp [exLoop, Curve.size]) ⟨rfl, ?_⟩ (by norm_num) (by norm_num [exLoop, Curve.t])
    (by simp [exLoop, exLoopTurned, Curve.t]; norm_num)
    (by simp [exLoop]) (by simp [exLoopTurned]) exLoop_closed h (builtin_names lib 0).2.2.2.2⟩
  intro i j hi hj
  have hi : i < 4 := hi
  have hj : j < 2 := hj
  rcases (show i = 0 ∨ i = 1 ∨ i = 2 ∨ i = 3 by omega) with rfl | rfl | rfl | rfl <;>
    rcases (show j = 0 ∨ j = 1 by omega) with rfl | rfl <;> simp [exLoop, exLoopTurned, at2, exTurn, Finset.sum_range_succ] <;> norm_num

end Verif.Props
