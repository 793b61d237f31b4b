import Verif.Props.Univariate
import Verif.Props.SplineSym
import Verif.Props.AffineInterp
import Verif.Props.ReverseInterp

/-!
C143: the method `spline` without smoothing commutes with affine maps of the points, with changes of units of the parameter and with the change of direction.
-/
namespace Verif.Props

open Verif Verif.Np Verif.Model Verif.Spec

theorem fins_inj {a b : List ℝ} (h : fins a = fins b) : a = b := by
  unfold fins at h
  exact List.map_injective_iff.2 (fun x y h => by injection h) h

/-- What a call evaluates to is determined. -/
theorem evaluates_unique {c : Curve ℝ} {call : GridSpec → Except PyErr (Curve (Val ℝ))} {dom : ℝ → Prop} {F G : ℝ → List ℝ}
    (h1 : EvaluatesTo c call dom F) (h2 : EvaluatesTo c call dom G) {x : ℝ} (hx : dom x) : F x = G x := by
  have st : StepsOver [x] := by
    intro i a b _ hb
    simp at hb
  obtain ⟨R, e1, r1⟩ := h1 [x] (by simp) st (by simpa using hx)
  obtain ⟨R', e2, r2⟩ := h2 [x] (by simp) st (by simpa using hx)
  rw [e1] at e2
  injection e2 with e2
  subst e2
  have := r1.rows.symm.trans r2.rows
  simp only [List.map_cons, List.map_nil, List.cons.injEq, and_true] at this
  exact fins_inj this

section
variable {c c' : Curve ℝ} (hc : WF c) (hc' : WF c') (hs : 2 ≤ c.size) {junk : ℝ} (ht : (c.t junk).Pairwise (· < ·)) (hd : c.dtype ≠ .int)
include hc hc' hs ht hd

theorem linear_affine {M : Nat → Nat → ℝ} {w : Nat → ℝ} {a b : ℝ} (hA : AffineImage M w c c') (ha : 0 < a)
    (htt : c'.t junk = (c.t junk).map fun x => a * x + b) (hd' : c'.dtype ≠ .int) {r : InterpReg Bool} {m : String} (hr : IsLinear junk r m) :
    ∃ F F', EvaluatesTo c (fun g => c.interpolate r g m true) (fun _ => True) F ∧ EvaluatesTo c' (fun g => c'.interpolate r g m true) (fun _ => True) F' ∧
      ∀ x, AffinePt M w c.ncols c'.ncols (F x) (F' (a * x + b)) := by
  have hl := t_length hc (rows_ne_of_size hs) junk
  let e : Curve ℝ := { c' with tdata := some (c.t junk) }
  have he : WF e := by
    refine ⟨hc'.two_le, hc'.rect, ?_, hc'.repr⟩
    intro t h
    injection h with h
    rw [← h, hl]
    exact hA.size.symm
  have tru : ∀ {c : Curve ℝ} {call} {F : ℝ → List ℝ} {dom : ℝ → Prop}, EvaluatesTo c call (fun x => true = true ∨ dom x) F → EvaluatesTo c call (fun _ => True) F :=
    fun h xs h1 h2 _ => h xs h1 h2 fun _ _ => .inl rfl
  have hAe : AffineImage M w c e := ⟨hA.size, hA.pts⟩
  obtain ⟨F, G, h1, h2, h3⟩ := C99_linear hc he hs hAe ht rfl hd hd' hr true
  have hes : 2 ≤ e.size := by rw [show e.size = c.size from hA.size]; exact hs
  have hS : ScaledBy 1 (fun _ => 0) e c' := ⟨rfl, rfl, fun i j _ _ => by rw [one_mul, add_zero]⟩
  obtain ⟨G', F', g1, g2, g3⟩ := C104_linear he hc' hes ha hS ht htt hd' hd' hr true
  refine ⟨F, F', tru h1, tru g2, ?_⟩
  intro x
  obtain ⟨l1, l2, l3⟩ := h3 x
  obtain ⟨k1, k2, k3⟩ := g3 x
  have e1 : G x = G' x := evaluates_unique (tru h2) (tru g1) trivial
  refine ⟨l1, k2, ?_⟩
  intro j hj
  have := k3 j hj
  rw [one_mul, add_zero, ← e1] at this
  unfold coordOf at this
  rw [this]
  exact l3 j hj

/-- **C143 (affine maps and units).** Points `M p + w` instead of `p` and parameter values `a x + b` instead of `x` with `a > 0`: `spline` without smoothing, of degree 1, or of degree 3
for four or more points, gives at `a x + b` the image of the point it gave at `x`, whatever the weights, for every mode of extrapolation. (Dtypes that are not integer ones.) -/
theorem C143_affine {M : Nat → Nat → ℝ} {w : Nat → ℝ} {a b : ℝ} (hA : AffineImage M w c c') (ha : 0 < a) (htt : c'.t junk = (c.t junk).map fun x => a * x + b) (hd' : c'.dtype ≠ .int)
    {lib : SplineLib} (hlib : UnivariateOk lib) {r : KwReg} {m : String} (hr : IsSpline lib junk r m) {kw kw' : InterpKw} {k : Nat} {mode : OutMode}
    (hk : k = 1 ∨ k = 3 ∧ 4 ≤ c.size) (hkw : SplineArgs kw c.size k mode) (hkw' : SplineArgs kw' c'.size k mode) :
    ∃ F F', ExtendedCall mode c (c.t junk) (fun g => c.interpolate r g m kw) F ∧ ExtendedCall mode c' (c'.t junk) (fun g => c'.interpolate r g m kw') F' ∧
      ∀ x, AffinePt M w c.ncols c'.ncols (F x) (F' (a * x + b)) := by
  have hs' : 2 ≤ c'.size := by rw [hA.size]; exact hs
  have ht' : (c'.t junk).Pairwise (· < ·) := by
    rw [htt, List.pairwise_map]
    exact ht.imp fun h => by nlinarith
  rcases hk with rfl | ⟨rfl, h4⟩
  · obtain ⟨F, h1, h2⟩ := C129_linear hc hs hd hr ht hlib hkw
    obtain ⟨F', h1', h2'⟩ := C129_linear hc' hs' hd' hr ht' hlib hkw'
    have hl := isLinear_linearReg junk
    obtain ⟨G, G', g1, g2, g3⟩ := linear_affine hc hc' hs ht hd hA ha htt hd' hl
    refine ⟨F, F', h1, h1', ?_⟩
    intro x
    rw [evaluates_unique (h2 _ _ hl) g1 trivial, evaluates_unique (h2' _ _ hl) g2 trivial]
    exact g3 x
  · obtain ⟨F, h1, -, h2⟩ := C129_cubic hc hs hd hr ht h4 hlib hkw
    obtain ⟨F', h1', -, h2'⟩ := C129_cubic hc' hs' hd' hr ht' (by rw [hA.size]; exact h4) hlib hkw'
    obtain ⟨lib', n1, n2, n3⟩ := exists_endsOk
    have hcub := (C108_methods lib' junk []).2.2.1
    obtain ⟨G, G', g1, g2, g3⟩ := (C141_strings n1 n2 n3 hcub (.inr (.inr rfl)) hc hc' hs ht hd hd').1 M w a b hA ha htt
    refine ⟨F, F', h1, h1', ?_⟩
    intro x
    rw [evaluates_unique (h2 _ _ _ n2 hcub) g1 trivial, evaluates_unique (h2' _ _ _ n2 hcub) g2 trivial]
    exact g3 x

/-- **C143 (direction).** The same points backwards at mirrored parameter values `L - x`: `spline` without smoothing gives at `x` the point it gave at `L - x`, for every mode of extrapolation. -/
theorem C143_reverse {L : ℝ} (hB : Backwards L c c' (c.t junk) (c'.t junk))
    {lib : SplineLib} (hlib : UnivariateOk lib) {r : KwReg} {m : String} (hr : IsSpline lib junk r m) {kw kw' : InterpKw} {k : Nat} {mode : OutMode}
    (hk : k = 1 ∨ k = 3 ∧ 4 ≤ c.size) (hkw : SplineArgs kw c.size k mode) (hkw' : SplineArgs kw' c'.size k mode) :
    ∃ F F', ExtendedCall mode c (c.t junk) (fun g => c.interpolate r g m kw) F ∧ ExtendedCall mode c' (c'.t junk) (fun g => c'.interpolate r g m kw') F' ∧
      ∀ x, F' x = F (L - x) := by
  have hsz : c'.size = c.size := hB.size
  have hs' : 2 ≤ c'.size := by rw [hsz]; exact hs
  have hd' : c'.dtype ≠ .int := by rw [hB.dtype]; exact hd
  have ht' := back_lt hc hc' hs hB ht
  rcases hk with rfl | ⟨rfl, h4⟩
  · obtain ⟨F, h1, h2⟩ := C129_linear hc hs hd hr ht hlib hkw
    obtain ⟨F', h1', h2'⟩ := C129_linear hc' hs' hd' hr ht' hlib hkw'
    have hl := isLinear_linearReg junk
    obtain ⟨G, G', g1, g2, g3⟩ := C103_linear hc hc' hs hB ht hd hl true
    refine ⟨F, F', h1, h1', ?_⟩
    intro x
    rw [evaluates_unique (x := L - x) (F := F) (h2 _ _ hl) (fun xs h1 h2 _ => g1 xs h1 h2 fun _ _ => .inl rfl) trivial,
      evaluates_unique (x := x) (F := F') (h2' _ _ hl) (fun xs h1 h2 _ => g2 xs h1 h2 fun _ _ => .inl rfl) trivial]
    exact g3 x
  · obtain ⟨F, h1, -, h2⟩ := C129_cubic hc hs hd hr ht h4 hlib hkw
    obtain ⟨F', h1', -, h2'⟩ := C129_cubic hc' hs' hd' hr ht' (by rw [hsz]; exact h4) hlib hkw'
    obtain ⟨lib', n1, n2, n3⟩ := exists_endsOk
    have hcub := (C108_methods lib' junk []).2.2.1
    obtain ⟨G, G', g1, g2, g3⟩ := (C141_strings n1 n2 n3 hcub (.inr (.inr rfl)) hc hc' hs ht hd hd').2 L hB
    refine ⟨F, F', h1, h1', ?_⟩
    intro x
    rw [evaluates_unique (x := L - x) (F := F) (h2 _ _ _ n2 hcub) g1 trivial, evaluates_unique (x := x) (F := F') (h2' _ _ _ n2 hcub) g2 trivial]
    exact g3 x

end

/-- **C143 (reversed curves).** For a curve without parameter values: the reversed curve gives at `x` the point of the curve at (arc length `- x`). -/
theorem C143_reversed {c c' : Curve ℝ} (hc : WF c) (hs : 2 ≤ c.size) (hp : c.tdata = none) (hrev : c.reverse = .ok c') {junk : ℝ}
    (ht : (c.t junk).Pairwise (· < ·)) (hd : c.dtype ≠ .int) {lib : SplineLib} (hlib : UnivariateOk lib) {r : KwReg} {m : String} (hr : IsSpline lib junk r m)
    {kw : InterpKw} {k : Nat} {mode : OutMode} (hk : k = 1 ∨ k = 3 ∧ 4 ≤ c.size) (hkw : SplineArgs kw c.size k mode) :
    ∃ F F', ExtendedCall mode c (c.t junk) (fun g => c.interpolate r g m kw) F ∧ ExtendedCall mode c' (c'.t junk) (fun g => c'.interpolate r g m kw) F' ∧
      ∀ x, F' x = F (arclen junk c - x) := by
  have hB := reverse_backwards hc hs hp hrev junk
  refine C143_reverse hc (reverse_WF hrev) hs ht hd hB hlib hr hk hkw ?_
  rw [show c'.size = c.size from hB.size]
  exact hkw

/-- **C143 (scaled curves).** For a curve without parameter values scaled by `s > 0` and moved: the point at `s x` is the image of the point at `x`. -/
theorem C143_scaled {s : ℝ} {w : Nat → ℝ} {c c' : Curve ℝ} (hc : WF c) (hc' : WF c') (hs : 2 ≤ c.size) (hpos : 0 < s) (hS : ScaledBy s w c c')
    (hp : c.tdata = none) (hp' : c'.tdata = none) {junk : ℝ} (ht : (c.t junk).Pairwise (· < ·)) (hd : c.dtype ≠ .int) (hd' : c'.dtype ≠ .int)
    {lib : SplineLib} (hlib : UnivariateOk lib) {r : KwReg} {m : String} (hr : IsSpline lib junk r m) {kw : InterpKw} {k : Nat} {mode : OutMode}
    (hk : k = 1 ∨ k = 3 ∧ 4 ≤ c.size) (hkw : SplineArgs kw c.size k mode) :
    ∃ F F', ExtendedCall mode c (c.t junk) (fun g => c.interpolate r g m kw) F ∧ ExtendedCall mode c' (c'.t junk) (fun g => c'.interpolate r g m kw) F' ∧
      ∀ x, (F x).length = c.ncols ∧ (F' (s * x)).length = c.ncols ∧ ∀ j, j < c.ncols → coordOf j (F' (s * x)) = s * coordOf j (F x) + w j := by
  have hnc : c'.ncols = c.ncols := hS.ndim
  have htt : c'.t junk = (c.t junk).map fun x => s * x + 0 := by
    have := (C91_lengths hc hc' (rows_ne_of_size hs) hpos.le hS junk).2.1
    unfold Curve.t
    rw [hp, hp']
    simpa using this
  have sumS : ∀ {n j : Nat}, j < n → ∀ v : Nat → ℝ, ∑ k ∈ Finset.range n, s * unitMat j k * v k = s * v j := by
    intro n j hj v
    rw [← sum_unitMat hj v, Finset.mul_sum]
    exact Finset.sum_congr rfl fun k _ => by ring
  have hA : AffineImage (fun j k => s * unitMat j k) w c c' := by
    refine ⟨hS.size, ?_⟩
    intro i j hi hj
    rw [hnc] at hj
    rw [sumS hj]
    exact hS.pts i j hi hj
  obtain ⟨F, F', g1, g2, g3⟩ := C143_affine hc hc' hs ht hd hA hpos htt hd' hlib hr hk hkw (by rw [hA.size]; exact hkw)
  refine ⟨F, F', g1, g2, ?_⟩
  intro x
  obtain ⟨l1, l2, l3⟩ := g3 x
  rw [add_zero] at l2 l3
  refine ⟨l1, by rw [l2, hnc], ?_⟩
  intro j hj
  have := l3 j (by rw [hnc]; exact hj)
  rw [sumS hj] at this
  exact this

/-! ## A concrete case -/

/-- Four points at the parameter values `u`, `2 u`, `3 u`, `4 u`. -/
def exFourPts (u : ℝ) : Curve ℝ := ⟨[[0, 0], [1, 2], [3, 1], [4, 4]], 2, some [u, 2 * u, 3 * u, 4 * u], .float⟩

theorem exFourPts_WF (u : ℝ) : WF (exFourPts u) := ⟨by simp [exFourPts], by simp [exFourPts], by simp [exFourPts], by intros; rfl⟩

example {lib : SplineLib} (hlib : UnivariateOk lib) {r : KwReg} {m : String} (hr : IsSpline lib 0 r m) :
    ∃ F F', ExtendedCall .const (exFourPts 1) [1, 2 * 1, 3 * 1, 4 * 1] (fun g => (exFourPts 1).interpolate r g m ⟨[("extrapolate", .int 3)]⟩) F ∧
      ExtendedCall .const (exFourPts 2) [2, 2 * 2, 3 * 2, 4 * 2] (fun g => (exFourPts 2).interpolate r g m ⟨[("extrapolate", .int 3)]⟩) F' ∧
      ∀ x, AffinePt unitMat (fun _ => 0) 2 2 (F x) (F' (2 * x + 0)) := by
  have hkw : ∀ n, SplineArgs ⟨[("extrapolate", .int 3)]⟩ n 3 .const := fun n =>
    ⟨.real 0, .none, fun _ => 1, .int 3, ⟨by simp, by simp⟩, .inr ⟨by simp, rfl⟩, .inr ⟨by simp, rfl⟩, .inr ⟨by simp, rfl⟩, .inl (by simp), .inl rfl,
      .inl ⟨rfl, fun _ _ => rfl⟩, .inl rfl⟩
  refine C143_affine (exFourPts_WF 1) (exFourPts_WF 2) (by simp [exFourPts, Curve.size]) (junk := 0) ?_ (by simp [exFourPts]) ⟨rfl, ?_⟩ (by norm_num) ?_ (by simp [exFourPts])
    hlib hr (.inr ⟨rfl, by simp [exFourPts, Curve.size]⟩) (hkw _) (hkw _)
  · norm_num [exFourPts, Curve.t]
  · intro i j _ hj
    have : ∀ v : Nat → ℝ, ∑ k ∈ Finset.range 2, unitMat j k * v k = v j := sum_unitMat (n := 2) hj
    have e := this (at2 (exFourPts 1).rows i)
    rw [add_zero]
    exact e.symm
  · norm_num [exFourPts, Curve.t]

end Verif.Props
