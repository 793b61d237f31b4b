import Verif.Lemmas.Motion
import Verif.Spec.Interp

/-!
Position independence (C90) and scaling (C91) of lengths, derivatives, Frenet vectors, curvature and torsion.
-/
namespace Verif.Props

open Verif Verif.Np Verif.Model Verif.Spec

/-! ## C90 -/

section
variable {n n' : Nat} {L : EuclideanSpace ℝ (Fin n) →ₗᵢ[ℝ] EuclideanSpace ℝ (Fin n')} {w : EuclideanSpace ℝ (Fin n')}

theorem moved_chords {c c' : Curve ℝ} (hc : WF c) (hc' : WF c') (h : MovedBy L w c c') : chords c'.rows = chords c.rows := by
  have e1 : c.ncols = n := h.ndim
  have e2 : c'.ncols = n' := h.ndim'
  have hl : c'.rows.length = c.rows.length := h.size
  refine chords_congr (n := n) (n' := n') hl (fun r hr => (hc.rect r hr).trans e1) (fun r hr => (hc'.rect r hr).trans e2) ?_
  intro i hi
  have a := h.pts i (by show i < c.rows.length; omega)
  have b := h.pts (i + 1) hi
  unfold rowVec at a b
  unfold gap
  rw [a, b, dist_add_right, L.dist_map]

theorem moved_chordlen {c c' : Curve ℝ} (hc : WF c) (hc' : WF c') (h : MovedBy L w c c') (junk : ℝ) :
    Model.chordlen junk c' = Model.chordlen junk c := by
  have hl : c'.rows.length = c.rows.length := h.size
  unfold Model.chordlen
  by_cases he : c.rows = []
  · have : c'.rows = [] := by rw [he] at hl; exact List.length_eq_zero_iff.1 hl
    rw [if_pos he, if_pos this]
  · have : c'.rows ≠ [] := by intro h0; rw [h0] at hl; exact he (List.length_eq_zero_iff.1 hl.symm)
    rw [if_neg he, if_neg this, moved_chords hc hc' h]

/-- **C90 (lengths).** Moving a curve by an isometry (also into a space of higher dimension) changes no chord length, no
cumulative length and not the arc length; neither the parameter, if both curves have the same given one or none. -/
theorem C90_lengths {c c' : Curve ℝ} (hc : WF c) (hc' : WF c') (h : MovedBy L w c c') (junk : ℝ) :
    Model.chordlen junk c' = Model.chordlen junk c ∧ Model.cumarclen junk c' = Model.cumarclen junk c ∧
    Model.arclen junk c' = Model.arclen junk c ∧ (c'.tdata = c.tdata → c'.t junk = c.t junk) := by
  have := moved_chordlen hc hc' h junk
  refine ⟨this, ?_, ?_, ?_⟩
  · unfold Model.cumarclen cumarclenFl; rw [this]
  · unfold Model.arclen; rw [this]
  · intro ht
    unfold Curve.t
    rw [ht]
    cases c.tdata with
    | none => simp only; unfold Model.cumarclen cumarclenFl; rw [this]
    | some t => rfl

/-- Everything derived from a moved curve by differences and orthogonalisation is the image. -/
theorem moved_rel {c c' : Curve ℝ} (hc : WF c) (hc' : WF c') (h2 : 2 ≤ c.size) (h : MovedBy L w c c') :
    Rel L (firstderiv c) (firstderiv c') ∧ Rel L (secondderiv c) (secondderiv c') ∧ Rel L (thirdderiv c) (thirdderiv c') ∧
    Rel L (frenet1 c) (frenet1 c') ∧ Rel L (normal c) (normal c') ∧ Rel L (frenet2 c) (frenet2 c') ∧
    Rel L (binormal c) (binormal c') ∧ Rel L (frenet3 c) (frenet3 c') := by
  obtain ⟨m1, m2, m3, m4, m5, m6, m7, m8⟩ := shapes_m c
  obtain ⟨k2, k3, k4, k5, k6, k7, k8⟩ := shapes_k c (by omega)
  obtain ⟨k2', k3', k4', k5', k6', k7', k8'⟩ := shapes_k c' (by rw [h.size]; omega)
  have e1 : c.ncols = n := h.ndim
  have e2 : c'.ncols = n' := h.ndim'
  have r1 : Rel L (firstderiv c) (firstderiv c') := by
    refine rel_gradient_affine h2 w h.size (le_of_eq e1) (le_of_eq e2) ?_
    intro i hi
    have hi : i < c.size := hi
    have a1 : rowVec n' c'.mat.rows i = rowVec n' c'.rows i := by
      ext j; exact mat_at2 hc' (by rw [h.size]; exact hi)
    have a2 : rowVec n c.mat.rows i = rowVec n c.rows i := by
      ext j; exact mat_at2 hc hi
    rw [a1, a2]
    exact h.pts i hi
  have r2 : Rel L (secondderiv c) (secondderiv c') := rel_gradient (by omega) r1
  have r3 : Rel L (thirdderiv c) (thirdderiv c') := rel_gradient (by omega) r2
  have f1 : Rel L (frenet1 c) (frenet1 c') := rel_unit r1
  have nn : Rel L (normal c) (normal c') := rel_reject r2 f1 (by omega) (by omega) (by omega)
  have f2 : Rel L (frenet2 c) (frenet2 c') := rel_unit nn
  have bb : Rel L (binormal c) (binormal c') :=
    rel_reject2 r3 f1 f2 (by omega) (by omega) (by omega) (by omega) (by omega) (by omega)
  exact ⟨r1, r2, r3, f1, nn, f2, bb, rel_unit bb⟩

/-- **C90 (vectors).** The derivatives, normals, binormals and Frenet vectors of the moved curve are the images of those of the
curve under the linear part of the motion. -/
theorem C90_vectors {c c' : Curve ℝ} (hc : WF c) (hc' : WF c') (h2 : 2 ≤ c.size) (h : MovedBy L w c c') {i : Nat} (hi : i < c.size) :
    rowVec n' (firstderiv c').rows i = L (rowVec n (firstderiv c).rows i) ∧
    rowVec n' (secondderiv c').rows i = L (rowVec n (secondderiv c).rows i) ∧
    rowVec n' (thirdderiv c').rows i = L (rowVec n (thirdderiv c).rows i) ∧
    rowVec n' (normal c').rows i = L (rowVec n (normal c).rows i) ∧
    rowVec n' (binormal c').rows i = L (rowVec n (binormal c).rows i) ∧
    rowVec n' (frenet1 c').rows i = L (rowVec n (frenet1 c).rows i) ∧
    rowVec n' (frenet2 c').rows i = L (rowVec n (frenet2 c).rows i) ∧
    rowVec n' (frenet3 c').rows i = L (rowVec n (frenet3 c).rows i) := by
  obtain ⟨m1, m2, m3, m4, m5, m6, m7, m8⟩ := shapes_m c
  obtain ⟨r1, r2, r3, f1, nn, f2, bb, f3⟩ := moved_rel hc hc' h2 h
  exact ⟨r1.v i (by omega), r2.v i (by omega), r3.v i (by omega), nn.v i (by omega), bb.v i (by omega), f1.v i (by omega),
    f2.v i (by omega), f3.v i (by omega)⟩

/-- **C90 (speed, curvature, torsion).** Moving a curve of three or more dimensions by an isometry (also into a space of higher
dimension) changes neither speed nor curvature; torsion and speed do not change in any dimension. -/
theorem C90_scalars {c c' : Curve ℝ} (hc : WF c) (hc' : WF c') (h2 : 2 ≤ c.size) (h : MovedBy L w c c') (junk : ℝ) :
    fresh junk c' .speed = fresh junk c .speed ∧ fresh junk c' .torsion = fresh junk c .torsion ∧
    (n ≠ 2 → n' ≠ 2 → fresh junk c' .curvature = fresh junk c .curvature) := by
  obtain ⟨m1, m2, m3, m4, m5, m6, m7, m8⟩ := shapes_m c
  obtain ⟨k2, k3, k4, k5, k6, k7, k8⟩ := shapes_k c (by omega)
  obtain ⟨k2', k3', k4', k5', k6', k7', k8'⟩ := shapes_k c' (by rw [h.size]; omega)
  obtain ⟨m1', m2', m3', m4', m5', m6', m7', m8'⟩ := shapes_m c'
  have hsz := h.size
  obtain ⟨r1, r2, r3, f1, nn, f2, bb, f3⟩ := moved_rel hc hc' h2 h
  have hne : c.rows ≠ [] := by intro h0; simp [Curve.size, h0] at h2
  have hne' : c'.rows ≠ [] := by intro h0; have := h.size; simp [Curve.size, h0] at this; simp [Curve.size, ← this] at h2
  have hsp : ∀ i, i < c.size → rowNorm (firstderiv c') i = rowNorm (firstderiv c) i := fun i hi => rel_norm r1 (by omega)
  refine ⟨?_, ?_, ?_⟩
  · simp only [fresh, if_neg hne, if_neg hne', h.size]
    congr 2
    apply List.map_congr_left
    intro i hi
    rw [hsp i (List.mem_range.1 hi)]
  · simp only [fresh, torsion, h.size]
    congr 2
    apply List.map_congr_left
    intro i hi
    have hi := List.mem_range.1 hi
    unfold torsionAt
    rw [hsp i hi, rel_dot (rel_gradient (by omega) f2) f3 (by rw [gradient_k (by omega)]; omega) (by rw [gradient_k (by omega)]; omega)
      (by rw [gradient_m]; omega) (by omega)]
  · intro hn hn'
    have a1 : c.ndim ≠ 2 := by rw [h.ndim]; exact hn
    have a2 : c'.ndim ≠ 2 := by rw [h.ndim']; exact hn'
    simp only [fresh, if_neg hne, if_neg hne', Model.curvature, if_neg a1, if_neg a2, h.size]
    congr 2
    apply List.map_congr_left
    intro i hi
    have hi := List.mem_range.1 hi
    unfold curvatureN
    rw [hsp i hi, rel_norm (rel_gradient (by omega) f1) (by rw [gradient_m]; omega)]

end

/-! ## Similarities of the plane (C90, C91) -/

theorem sim_curv {p q u v r s a b : ℝ} (hr : 0 < r) (hs : s = 1 ∨ s = -1) (hab : a ^ 2 + b ^ 2 = 1) :
    let fx := r * (a * p - s * b * q)
    let fy := r * (b * p + s * a * q)
    let sx := r * (a * u - s * b * v)
    let sy := r * (b * u + s * a * v)
    (∃ k, Val.div (.fin (v * p - u * q)) (.fin ((p * p + q * q) * √ (p * p + q * q))) = .fin k ∧
      Val.div (.fin (sy * fx - sx * fy)) (.fin ((fx * fx + fy * fy) * √ (fx * fx + fy * fy))) = .fin (s * k / r)) ∨
    (Val.div (.fin (v * p - u * q)) (.fin ((p * p + q * q) * √ (p * p + q * q))) = .nan ∧
      Val.div (.fin (sy * fx - sx * fy)) (.fin ((fx * fx + fy * fy) * √ (fx * fx + fy * fy))) = .nan) := by
  intro fx fy sx sy
  have hs2 : s ^ 2 = 1 := by rcases hs with rfl | rfl <;> norm_num
  have e1 : fx * fx + fy * fy = r ^ 2 * (p * p + q * q) := by
    have : fx * fx + fy * fy = r ^ 2 * ((a ^ 2 + b ^ 2) * p ^ 2 + s ^ 2 * (a ^ 2 + b ^ 2) * q ^ 2) := by simp only [fx, fy]; ring
    rw [this, hab, hs2]; ring
  have e2 : sy * fx - sx * fy = r ^ 2 * s * (v * p - u * q) := by
    have : sy * fx - sx * fy = r ^ 2 * s * (a ^ 2 + b ^ 2) * (v * p - u * q) := by simp only [fx, fy, sx, sy]; ring
    rw [this, hab]; ring
  have e3 : √ (r ^ 2 * (p * p + q * q)) = r * √ (p * p + q * q) := by
    rw [Real.sqrt_mul (sq_nonneg r), Real.sqrt_sq hr.le]
  rw [e1, e2, e3]
  by_cases hz : p * p + q * q = 0
  · right
    have p0 : p = 0 := by nlinarith [mul_self_nonneg p, mul_self_nonneg q]
    have q0 : q = 0 := by nlinarith [mul_self_nonneg p, mul_self_nonneg q]
    subst p0 q0
    simp [Val.div, Val.infOfSign]
  · left
    have hp : 0 < p * p + q * q := lt_of_le_of_ne (add_nonneg (mul_self_nonneg _) (mul_self_nonneg _)) (Ne.symm hz)
    have hd := cube_pos hp
    refine ⟨_, by simp only [Val.div, if_neg hd]; rfl, ?_⟩
    have hq : √ (p * p + q * q) ≠ 0 := (Real.sqrt_pos.2 hp).ne'
    have hd' : r ^ 2 * (p * p + q * q) * (r * √ (p * p + q * q)) ≠ 0 := by
      have := hr.ne'
      positivity
    simp only [Val.div, if_neg hd']
    congr 1
    field_simp

/-- `c'` is `c` under a similarity of the plane: scaled by `r`, turned by the angle with cosine `a` and sine `b`, reflected first if
`s = -1`, and translated. -/
structure PlaneSimilar (r s a b w0 w1 : ℝ) (c c' : Curve ℝ) : Prop where
  size : c'.size = c.size
  ndim : c.ndim = 2
  ndim' : c'.ndim = 2
  pts : ∀ i, i < c.size → at2 c'.rows i 0 = r * (a * at2 c.rows i 0 - s * b * at2 c.rows i 1) + w0 ∧
    at2 c'.rows i 1 = r * (b * at2 c.rows i 0 + s * a * at2 c.rows i 1) + w1

/-- **C90, C91 (plane curves).** Under a similarity of the plane with factor `r` the signed curvature is divided by `r`, with the
opposite sign if the similarity reverses the orientation. -/
theorem C91_plane {r s a b w0 w1 : ℝ} {c c' : Curve ℝ} (hc : WF c) (hc' : WF c') (h2 : 2 ≤ c.size) (hr : 0 < r) (hs : s = 1 ∨ s = -1)
    (hab : a ^ 2 + b ^ 2 = 1) (h : PlaneSimilar r s a b w0 w1 c c') :
    ∃ xs xs', curvature c = .ok xs ∧ curvature c' = .ok xs' ∧ xs.length = c.size ∧ xs'.length = c.size ∧
      ∀ i, i < c.size → (∃ k, xs[i]? = some (.fin k) ∧ xs'[i]? = some (.fin (s * k / r))) ∨
        (xs[i]? = some .nan ∧ xs'[i]? = some .nan) := by
  have hsz := h.size
  have k1 : (firstderiv c).k = c.ndim := firstderiv_k h2
  have k1' : (firstderiv c').k = c'.ndim := firstderiv_k (by omega)
  have d1 : ∀ i, i < c.size → at2 (firstderiv c').rows i 0 = r * (a * at2 (firstderiv c).rows i 0 - s * b * at2 (firstderiv c).rows i 1) ∧
      at2 (firstderiv c').rows i 1 = r * (b * at2 (firstderiv c).rows i 0 + s * a * at2 (firstderiv c).rows i 1) := by
    intro i hi
    rw [firstderiv_at2 hc' (by omega) 0 (by omega), firstderiv_at2 hc' (by omega) 1 (by omega), firstderiv_at2 hc h2 0 hi,
      firstderiv_at2 hc h2 1 hi, hsz, grad1_congr (fun l hl => (h.pts l hl).1) hi, grad1_congr (fun l hl => (h.pts l hl).2) hi,
      grad1_translate, grad1_translate]
    constructor
    · have := grad1_lin c.size (fun l => at2 c.rows l 0) (fun l => at2 c.rows l 1) (r * a) (-(r * s * b)) i
      rw [show (fun l => r * (a * at2 c.rows l 0 - s * b * at2 c.rows l 1)) = fun l => r * a * at2 c.rows l 0 + -(r * s * b) * at2 c.rows l 1 by
        funext l; ring, this]
      ring
    · have := grad1_lin c.size (fun l => at2 c.rows l 0) (fun l => at2 c.rows l 1) (r * b) (r * s * a) i
      rw [show (fun l => r * (b * at2 c.rows l 0 + s * a * at2 c.rows l 1)) = fun l => r * b * at2 c.rows l 0 + (r * s * a) * at2 c.rows l 1 by
        funext l; ring, this]
      ring
  have d2 : ∀ i, i < c.size → at2 (secondderiv c').rows i 0 = r * (a * at2 (secondderiv c).rows i 0 - s * b * at2 (secondderiv c).rows i 1) ∧
      at2 (secondderiv c').rows i 1 = r * (b * at2 (secondderiv c).rows i 0 + s * a * at2 (secondderiv c).rows i 1) := by
    intro i hi
    rw [secondderiv_at2 (c := c') (by omega) 0 (by omega), secondderiv_at2 (c := c') (by omega) 1 (by omega), secondderiv_at2 h2 0 hi,
      secondderiv_at2 h2 1 hi, hsz, grad1_congr (fun l hl => (d1 l hl).1) hi, grad1_congr (fun l hl => (d1 l hl).2) hi]
    constructor
    · have := grad1_lin c.size (fun l => at2 (firstderiv c).rows l 0) (fun l => at2 (firstderiv c).rows l 1) (r * a) (-(r * s * b)) i
      rw [show (fun l => r * (a * at2 (firstderiv c).rows l 0 - s * b * at2 (firstderiv c).rows l 1)) =
        fun l => r * a * at2 (firstderiv c).rows l 0 + -(r * s * b) * at2 (firstderiv c).rows l 1 by funext l; ring, this]
      ring
    · have := grad1_lin c.size (fun l => at2 (firstderiv c).rows l 0) (fun l => at2 (firstderiv c).rows l 1) (r * b) (r * s * a) i
      rw [show (fun l => r * (b * at2 (firstderiv c).rows l 0 + s * a * at2 (firstderiv c).rows l 1)) =
        fun l => r * b * at2 (firstderiv c).rows l 0 + (r * s * a) * at2 (firstderiv c).rows l 1 by funext l; ring, this]
      ring
  refine ⟨(List.range c.size).map (curvature2 c), (List.range c'.size).map (curvature2 c'), ?_, ?_, by simp, by simp [hsz], ?_⟩
  · unfold curvature; rw [if_pos h.ndim, if_neg (by rw [k1, h.ndim]; omega)]
  · unfold curvature; rw [if_pos h.ndim', if_neg (by rw [k1', h.ndim']; omega)]
  · intro i hi
    rw [List.getElem?_map, List.getElem?_range hi, List.getElem?_map, List.getElem?_range (by omega), Option.map_some, Option.map_some]
    obtain ⟨a1, a2, a3, a4⟩ := curvature2_at2 h.ndim h2 hi
    obtain ⟨b1, b2, b3, b4⟩ := curvature2_at2 h.ndim' (by omega) (show i < c'.size by omega)
    simp only [Option.some.injEq]
    have := sim_curv (p := at2 (firstderiv c).rows i 0) (q := at2 (firstderiv c).rows i 1) (u := at2 (secondderiv c).rows i 0)
      (v := at2 (secondderiv c).rows i 1) hr hs hab
    simp only [curvature2, a1, a2, a3, a4, b1, b2, b3, b4, (d1 i hi).1, (d1 i hi).2, (d2 i hi).1, (d2 i hi).2]
    exact this

/-- **C90 (plane curves).** Turning and translating a plane curve does not change its signed curvature; reflecting it changes the
sign. -/
theorem C90_plane {s a b w0 w1 : ℝ} {c c' : Curve ℝ} (hc : WF c) (hc' : WF c') (h2 : 2 ≤ c.size) (hs : s = 1 ∨ s = -1)
    (hab : a ^ 2 + b ^ 2 = 1) (h : PlaneSimilar 1 s a b w0 w1 c c') :
    ∃ xs xs', curvature c = .ok xs ∧ curvature c' = .ok xs' ∧ (s = 1 → xs' = xs) ∧ (s = -1 → xs' = xs.map Val.neg) := by
  obtain ⟨xs, xs', h1, h3, l, l', h4⟩ := C91_plane hc hc' h2 one_pos hs hab h
  refine ⟨xs, xs', h1, h3, ?_, ?_⟩
  · rintro rfl
    apply List.ext_getElem?
    intro i
    by_cases hi : i < c.size
    · rcases h4 i hi with ⟨k, e1, e2⟩ | ⟨e1, e2⟩
      · rw [e1, e2]; simp
      · rw [e1, e2]
    · rw [List.getElem?_eq_none (by omega), List.getElem?_eq_none (by omega)]
  · rintro rfl
    apply List.ext_getElem?
    intro i
    rw [List.getElem?_map]
    by_cases hi : i < c.size
    · rcases h4 i hi with ⟨k, e1, e2⟩ | ⟨e1, e2⟩
      · rw [e1, e2]; simp [Val.neg]
      · rw [e1, e2]; simp [Val.neg]
    · rw [List.getElem?_eq_none (by omega), List.getElem?_eq_none (by omega)]; rfl

/-! ## C91 -/

theorem pt_scaled {r : ℝ} {w : Nat → ℝ} {c c' : Curve ℝ} (h : ScaledBy r w c c') {i : Nat} (hi : i < c.size) :
    rowVec c.ndim c'.rows i = r • rowVec c.ndim c.rows i + WithLp.toLp 2 fun j : Fin c.ndim => w j := by
  ext j
  rw [PiLp.add_apply, PiLp.smul_apply, rowVec_apply, rowVec_apply, h.pts i j hi j.isLt]
  rfl

theorem scaled_chords {r : ℝ} {w : Nat → ℝ} {c c' : Curve ℝ} (hc : WF c) (hc' : WF c') (hr : 0 ≤ r) (h : ScaledBy r w c c') :
    chords c'.rows = (chords c.rows).map (r * ·) := by
  have hl : c'.rows.length = c.rows.length := h.size
  have hn : c'.ncols = c.ndim := h.ndim
  apply List.ext_getElem
  · rw [List.length_map, chords_length, chords_length, hl]
  · intro i h1 h2
    rw [chords_length] at h1
    rw [List.getElem_map]
    simp only [chords, List.getElem_zipWith, List.getElem_tail]
    rw [chord_eq_gap (n := c.ndim) ((hc'.rect _ (List.getElem_mem _)).trans hn) ((hc'.rect _ (List.getElem_mem _)).trans hn),
      chord_eq_gap (n := c.ndim) (hc.rect _ (List.getElem_mem _)) (hc.rect _ (List.getElem_mem _))]
    have a := pt_scaled h (i := i) (by show i < c.rows.length; omega)
    have b := pt_scaled h (i := i + 1) (by show i + 1 < c.rows.length; omega)
    unfold rowVec at a b
    simp only [List.getD_eq_getElem?_getD] at a b
    rw [List.getElem?_eq_getElem (show i < c'.rows.length by omega), List.getElem?_eq_getElem (show i < c.rows.length by omega)] at a
    rw [List.getElem?_eq_getElem (show i + 1 < c'.rows.length by omega), List.getElem?_eq_getElem (show i + 1 < c.rows.length by omega)] at b
    simp only [Option.getD_some] at a b
    unfold gap
    rw [a, b, dist_add_right, dist_smul₀, Real.norm_eq_abs, abs_of_nonneg hr]

theorem cumFrom_scale (r s : ℝ) (xs : List ℝ) : cumFrom id (r * s) (xs.map (r * ·)) = (cumFrom id s xs).map (r * ·) := by
  induction xs generalizing s with
  | nil => rfl
  | cons x xs ih =>
    simp only [List.map_cons, cumFrom, id]
    rw [← mul_add, ih]

/-- **C91 (lengths).** Scaling a curve by `r` multiplies chord lengths, cumulative lengths and the arc length by `r`. -/
theorem C91_lengths {r : ℝ} {w : Nat → ℝ} {c c' : Curve ℝ} (hc : WF c) (hc' : WF c') (hne : c.rows ≠ []) (hr : 0 ≤ r)
    (h : ScaledBy r w c c') (junk : ℝ) :
    (∃ xs, Model.chordlen junk c = .vec xs ∧ Model.chordlen junk c' = .vec (xs.map (r * ·))) ∧
    Model.cumarclen junk c' = (Model.cumarclen junk c).map (r * ·) ∧ Model.arclen junk c' = r * Model.arclen junk c := by
  have hl : c'.rows.length = c.rows.length := h.size
  have hne' : c'.rows ≠ [] := by intro h0; rw [h0] at hl; exact hne (List.length_eq_zero_iff.1 hl.symm)
  have e1 : Model.chordlen junk c = .vec (chords c.rows) := if_neg hne
  have e2 : Model.chordlen junk c' = .vec ((chords c.rows).map (r * ·)) := by
    rw [← scaled_chords hc hc' hr h]; exact if_neg hne'
  refine ⟨⟨_, e1, e2⟩, ?_, ?_⟩
  · unfold Model.cumarclen cumarclenFl
    rw [e1, e2]
    simp only [NArr.cumsum, List.map_cons, mul_zero]
    congr 1
    cases chords c.rows with
    | nil => rfl
    | cons x xs => simp only [List.map_cons, cumsumFl, cumFrom_scale]
  · unfold Model.arclen
    rw [e1, e2]
    simp only [NArr.sum]
    induction chords c.rows with
    | nil => simp
    | cons x xs ih => rw [List.map_cons, List.sum_cons, List.sum_cons, ih, mul_add]

/-- Row by row, `b` is `r` times `a`. -/
structure Multiple (r : ℝ) (a b : NMat) : Prop where
  m : b.m = a.m
  k : b.k = a.k
  v : ∀ i j, i < a.m → j < a.k → b.v i j = r * a.v i j

theorem mul_gradient_affine {r : ℝ} {a b : NMat} (h2 : 2 ≤ a.m) (w : Nat → ℝ) (hm : b.m = a.m) (hk : b.k = a.k)
    (hv : ∀ i j, i < a.m → j < a.k → b.v i j = r * a.v i j + w j) : Multiple r (gradient a) (gradient b) := by
  refine ⟨by simp [hm], by rw [gradient_k h2, gradient_k (by omega), hk], ?_⟩
  intro i j hi hj
  rw [gradient_m] at hi
  rw [gradient_k h2] at hj
  rw [gradient_v, gradient_v, hm, grad1_congr (fun l hl => hv l j hl hj) hi, grad1_translate]
  have := grad1_lin a.m (fun l => a.v l j) (fun _ => 0) r 0 i
  simpa using this

theorem mul_gradient {r : ℝ} {a b : NMat} (h2 : 2 ≤ a.m) (h : Multiple r a b) : Multiple r (gradient a) (gradient b) :=
  mul_gradient_affine h2 (fun _ => 0) h.m h.k (by intro i j hi hj; rw [add_zero]; exact h.v i j hi hj)

theorem mul_norm {r : ℝ} (hr : 0 ≤ r) {a b : NMat} (h : Multiple r a b) {i : Nat} (hi : i < a.m) : rowNorm b i = r * rowNorm a i := by
  unfold rowNorm
  rw [h.k, show r * √ (∑ j ∈ Finset.range a.k, a.v i j ^ 2) = √ (r ^ 2 * ∑ j ∈ Finset.range a.k, a.v i j ^ 2) by
    rw [Real.sqrt_mul (sq_nonneg r), Real.sqrt_sq hr], Finset.mul_sum]
  congr 1
  refine Finset.sum_congr rfl fun j hj => ?_
  rw [h.v i j hi (Finset.mem_range.1 hj), mul_pow]

theorem mul_dot {r s : ℝ} {a b d e : NMat} (h : Multiple r a b) (h' : Multiple s d e) (hk : a.k = d.k) {i : Nat} (hi : i < a.m) (hi' : i < d.m) :
    dotRow b e i = r * s * dotRow a d i := by
  unfold dotRow
  rw [h.k, Finset.mul_sum]
  refine Finset.sum_congr rfl fun j hj => ?_
  have hj := Finset.mem_range.1 hj
  rw [h.v i j hi hj, h'.v i j hi' (by omega)]
  ring

/-- The norms of all rows exceed the tolerance of `np.isclose`. -/
def AllOver (a : NMat) : Prop := ∀ i, i < a.m → 1 / 10 ^ 8 < rowNorm a i

theorem frenetNorm_over {a : NMat} {i : Nat} (h : 1 / 10 ^ 8 < rowNorm a i) : frenetNorm a i = rowNorm a i := by
  unfold frenetNorm
  rw [if_neg]
  unfold closeK
  rw [decide_eq_true_iff, sub_zero, abs_zero, mul_zero, add_zero, abs_of_nonneg (show 0 ≤ rowNorm a i from Real.sqrt_nonneg _), atol, not_le]
  norm_num at h ⊢
  exact h

theorem mul_unit {r : ℝ} (hr : 0 < r) {a b : NMat} (h : Multiple r a b) (ha : AllOver a) (hb : AllOver b) :
    Multiple 1 (unitRows a) (unitRows b) := by
  refine ⟨h.m, h.k, ?_⟩
  intro i j hi hj
  have hi : i < a.m := hi
  show b.v i j / frenetNorm b i = 1 * (a.v i j / frenetNorm a i)
  have hn : 0 < rowNorm a i := lt_trans (by norm_num) (ha i hi)
  rw [frenetNorm_over (ha i hi), frenetNorm_over (hb i (by rw [h.m]; exact hi)), h.v i j hi hj, mul_norm hr.le h hi,
    mul_div_mul_left _ _ hr.ne', one_mul]

theorem mul_reject {r : ℝ} {s t e f : NMat} (h : Multiple r s t) (h' : Multiple 1 e f) (hm : s.m = e.m) (hk : s.k = e.k) :
    Multiple r (reject s e) (reject t f) := by
  refine ⟨h.m, h.k, ?_⟩
  intro i j hi hj
  have hi : i < s.m := hi
  have hj : j < s.k := hj
  show t.v i j - dotRow t f i * f.v i j = r * (s.v i j - dotRow s e i * e.v i j)
  rw [mul_dot h h' hk hi (by omega), h.v i j hi hj, h'.v i j (by omega) (by omega)]
  ring

theorem mul_reject2 {r : ℝ} {s t e f g q : NMat} (h : Multiple r s t) (h' : Multiple 1 e f) (h'' : Multiple 1 g q) (hm : s.m = e.m) (hk : s.k = e.k)
    (hm' : s.m = g.m) (hk' : s.k = g.k) : Multiple r (reject2 s e g) (reject2 t f q) := by
  refine ⟨h.m, h.k, ?_⟩
  intro i j hi hj
  have hi : i < s.m := hi
  have hj : j < s.k := hj
  show t.v i j - dotRow t f i * f.v i j - dotRow t q i * q.v i j = r * (s.v i j - dotRow s e i * e.v i j - dotRow s g i * g.v i j)
  rw [mul_dot h h' hk hi (by omega), mul_dot h h'' hk' hi (by omega), h.v i j hi hj, h'.v i j (by omega) (by omega),
    h''.v i j (by omega) (by omega)]
  ring

theorem mul_first {r : ℝ} {w : Nat → ℝ} {c c' : Curve ℝ} (h2 : 2 ≤ c.size) (h : ScaledBy r w c c') :
    Multiple r (firstderiv c) (firstderiv c') :=
  mul_gradient_affine h2 w h.size h.ndim fun i j hi hj => h.pts i j hi hj

theorem at2_mul {r : ℝ} {a b : NMat} (h : Multiple r a b) {i : Nat} (j : Nat) (hi : i < a.m) : at2 b.rows i j = r * at2 a.rows i j := by
  by_cases hj : j < a.k
  · rw [at2_lt _ hi hj, at2_lt b (by rw [h.m]; exact hi) (by rw [h.k]; exact hj), h.v i j hi hj]
  · rw [at2_ge _ hi hj, at2_ge b (by rw [h.m]; exact hi) (by rw [h.k]; exact hj), mul_zero]

/-- **C91 (derivatives and speed).** Scaling a curve by `r` multiplies its derivatives and its speed by `r`. -/
theorem C91_derivatives {r : ℝ} {w : Nat → ℝ} {c c' : Curve ℝ} (h2 : 2 ≤ c.size) (hr : 0 ≤ r) (h : ScaledBy r w c c') {i : Nat}
    (hi : i < c.size) :
    (∀ j, at2 (firstderiv c').rows i j = r * at2 (firstderiv c).rows i j ∧
      at2 (secondderiv c').rows i j = r * at2 (secondderiv c).rows i j ∧
      at2 (thirdderiv c').rows i j = r * at2 (thirdderiv c).rows i j) ∧
    ∀ junk, ∃ xs xs', fresh junk c .speed = .ok (.nums (fins xs)) ∧ fresh junk c' .speed = .ok (.nums (fins xs')) ∧
      xs' = xs.map (r * ·) := by
  obtain ⟨m1, m2, m3, -⟩ := shapes_m c
  have r1 := mul_first h2 h
  have r2 : Multiple r (secondderiv c) (secondderiv c') := mul_gradient (by omega) r1
  have r3 : Multiple r (thirdderiv c) (thirdderiv c') := mul_gradient (by omega) r2
  refine ⟨fun j => ⟨at2_mul r1 j (by omega), at2_mul r2 j (by omega), at2_mul r3 j (by omega)⟩, ?_⟩
  intro junk
  have hne : c.rows ≠ [] := by intro h0; simp [Curve.size, h0] at h2
  have hne' : c'.rows ≠ [] := by intro h0; have := h.size; simp [Curve.size, h0] at this; simp [Curve.size, ← this] at h2
  refine ⟨(List.range c.size).map (rowNorm (firstderiv c)), (List.range c'.size).map (rowNorm (firstderiv c')), ?_, ?_, ?_⟩
  · simp only [fresh, if_neg hne, fins, List.map_map]; rfl
  · simp only [fresh, if_neg hne', fins, List.map_map]; rfl
  · rw [List.map_map, h.size]
    apply List.map_congr_left
    intro i hi
    exact mul_norm hr r1 (by have := List.mem_range.1 hi; omega)

theorem div_scale {r x y : ℝ} (hr : 0 < r) (hy : 0 < y) : Val.div (.fin x) (.fin (r * y)) = .fin (x / y / r) := by
  have : r * y ≠ 0 := (mul_pos hr hy).ne'
  simp only [Val.div, if_neg this]
  congr 1
  rw [div_div, mul_comm]

/-- **C91 (curvature and torsion in three or more dimensions, partial).** If the first derivatives of both curves exceed the
tolerance `1e-8` everywhere the curvature is divided by `r` and the first Frenet vectors agree; if in addition normals and binormals
exceed it everywhere, torsion is divided by `r` and the other Frenet vectors agree. Missing: vectors shorter than `1e-8`, for
which the code does not normalise (`C91_small_fails`). -/
theorem C91_spatial_partial {r : ℝ} {w : Nat → ℝ} {c c' : Curve ℝ} (h2 : 2 ≤ c.size) (hr : 0 < r) (h : ScaledBy r w c c')
    (hT : AllOver (firstderiv c)) (hT' : AllOver (firstderiv c')) :
    (∀ i j, i < c.size → at2 (frenet1 c').rows i j = at2 (frenet1 c).rows i j) ∧
    (c.ndim ≠ 2 → ∃ xs, curvature c = .ok (fins xs) ∧ curvature c' = .ok (fins (xs.map (· / r)))) ∧
    (AllOver (normal c) → AllOver (normal c') → AllOver (binormal c) → AllOver (binormal c') →
      (∀ i j, i < c.size → at2 (frenet2 c').rows i j = at2 (frenet2 c).rows i j ∧ at2 (frenet3 c').rows i j = at2 (frenet3 c).rows i j) ∧
      ∃ xs, torsion c = fins xs ∧ torsion c' = fins (xs.map (· / r))) := by
  obtain ⟨m1, m2, m3, m4, m5, m6, m7, m8⟩ := shapes_m c
  obtain ⟨k2, k3, k4, k5, k6, k7, k8⟩ := shapes_k c (by omega)
  have r1 := mul_first h2 h
  have r2 : Multiple r (secondderiv c) (secondderiv c') := mul_gradient (by omega) r1
  have r3 : Multiple r (thirdderiv c) (thirdderiv c') := mul_gradient (by omega) r2
  have f1 : Multiple 1 (frenet1 c) (frenet1 c') := mul_unit hr r1 hT hT'
  have hpos : ∀ i, i < c.size → 0 < rowNorm (firstderiv c) i := fun i hi => lt_trans (by norm_num) (hT i (by omega))
  refine ⟨fun i j hi => by rw [at2_mul f1 j (by omega), one_mul], ?_, ?_⟩
  · intro hn
    have hn' : c'.ndim ≠ 2 := by rw [h.ndim]; exact hn
    refine ⟨(List.range c.size).map fun i => rowNorm (gradient (frenet1 c)) i / rowNorm (firstderiv c) i, ?_, ?_⟩
    · unfold curvature
      rw [if_neg hn, fins, List.map_map]
      congr 1
      apply List.map_congr_left
      intro i hi
      have := (hpos i (List.mem_range.1 hi)).ne'
      simp only [curvatureN, Val.div, if_neg this, Function.comp]
    · unfold curvature
      rw [if_neg hn', fins, List.map_map, List.map_map, h.size]
      congr 1
      apply List.map_congr_left
      intro i hi
      have hi := List.mem_range.1 hi
      simp only [curvatureN, Function.comp]
      rw [mul_norm hr.le r1 (by omega), mul_norm zero_le_one (mul_gradient (by omega) f1) (by rw [gradient_m]; omega), one_mul,
        div_scale hr (hpos i hi)]
  · intro hN hN' hB hB'
    have nn : Multiple r (normal c) (normal c') := mul_reject r2 f1 (by omega) (by omega)
    have f2 : Multiple 1 (frenet2 c) (frenet2 c') := mul_unit hr nn hN hN'
    have bb : Multiple r (binormal c) (binormal c') := mul_reject2 r3 f1 f2 (by omega) (by omega) (by omega) (by omega)
    have f3 : Multiple 1 (frenet3 c) (frenet3 c') := mul_unit hr bb hB hB'
    refine ⟨fun i j hi => ⟨by rw [at2_mul f2 j (by omega), one_mul], by rw [at2_mul f3 j (by omega), one_mul]⟩, ?_⟩
    refine ⟨(List.range c.size).map fun i => dotRow (gradient (frenet2 c)) (frenet3 c) i / rowNorm (firstderiv c) i, ?_, ?_⟩
    · unfold torsion
      rw [fins, List.map_map]
      apply List.map_congr_left
      intro i hi
      have := (hpos i (List.mem_range.1 hi)).ne'
      simp only [torsionAt, Val.div, if_neg this, Function.comp]
    · unfold torsion
      rw [fins, List.map_map, List.map_map, h.size]
      apply List.map_congr_left
      intro i hi
      have hi := List.mem_range.1 hi
      simp only [torsionAt, Function.comp]
      rw [mul_norm hr.le r1 (by omega), mul_dot (mul_gradient (by omega) f2) f3 (by rw [gradient_k (by omega)]; omega)
        (by rw [gradient_m]; omega) (by omega), one_mul, one_mul, div_scale hr (hpos i hi)]

/-- A right angle of three points with legs of length `s`, in space. -/
def exCorner (s : ℝ) : Curve ℝ := ⟨[[0, 0, 0], [s, 0, 0], [s, s, 0]], 3, none, .float⟩

theorem exCorner_WF (s : ℝ) : WF (exCorner s) where
  two_le := by simp [exCorner]
  rect := by simp [exCorner]
  tlen := by simp [exCorner]
  repr := by intro r _ x _; rfl

theorem exCorner_scaled (r s : ℝ) : ScaledBy r (fun _ => 0) (exCorner s) (exCorner (r * s)) := by
  refine ⟨rfl, rfl, ?_⟩
  intro i j hi hj
  have hi : i < 3 := hi
  have hj : j < 3 := hj
  have h1 : i = 0 ∨ i = 1 ∨ i = 2 := by omega
  have h2 : j = 0 ∨ j = 1 ∨ j = 2 := by omega
  rcases h1 with rfl | rfl | rfl <;> rcases h2 with rfl | rfl | rfl <;> simp [exCorner, at2]

theorem exCorner_first (s : ℝ) {i : Nat} (j : Nat) (hi : i < 3) :
    (firstderiv (exCorner s)).v i j = grad1 3 (fun i => at2 (exCorner s).rows i j) i := by
  unfold firstderiv
  rw [gradient_v]
  rfl

theorem exCorner_norm (s : ℝ) : rowNorm (firstderiv (exCorner s)) 0 = √ (5 / 2 * s ^ 2) ∧
    rowNorm (firstderiv (exCorner s)) 1 = √ (1 / 2 * s ^ 2) ∧ rowNorm (firstderiv (exCorner s)) 2 = √ (5 / 2 * s ^ 2) := by
  have hk : (firstderiv (exCorner s)).k = 3 := firstderiv_k (by simp [exCorner, Curve.size])
  unfold rowNorm
  rw [hk]
  simp only [Finset.sum_range_succ, Finset.sum_range_zero, exCorner_first s _ (show 0 < 3 by omega),
    exCorner_first s _ (show 1 < 3 by omega), exCorner_first s _ (show 2 < 3 by omega)]
  refine ⟨?_, ?_, ?_⟩ <;> congr 1 <;> simp [grad1, npGradient, exCorner, at2] <;> ring

/-- **C91 (violated).** A curve of three or more dimensions whose derivatives are shorter than `1e-8` does not have its tangents
normalised: two right angles of which one is half the size of the other both have curvature 2 in the middle. -/
theorem C91_small_fails : ScaledBy (1 / 2) (fun _ => 0) (exCorner (1 / 10 ^ 9)) (exCorner (1 / 2 * (1 / 10 ^ 9))) ∧
    ∃ xs xs', curvature (exCorner (1 / 10 ^ 9)) = .ok xs ∧ curvature (exCorner (1 / 2 * (1 / 10 ^ 9))) = .ok xs' ∧
      xs[1]? = some (.fin 2) ∧ xs'[1]? = some (.fin 2) := by
  have key : ∀ s : ℝ, 0 < s → s ≤ 1 / 10 ^ 9 → ∃ xs, curvature (exCorner s) = .ok xs ∧ xs[1]? = some (.fin 2) := by
    intro s hs hs'
    obtain ⟨n0, n1, n2⟩ := exCorner_norm s
    refine ⟨(List.range 3).map (curvatureN (exCorner s)), ?_, ?_⟩
    · unfold curvature
      rw [if_neg (by simp [exCorner, Curve.ndim])]
      rfl
    have small : ∀ i, i < 3 → frenetNorm (firstderiv (exCorner s)) i = 1 := by
      intro i hi
      unfold frenetNorm
      rw [if_pos]
      unfold closeK
      rw [decide_eq_true_iff, sub_zero, abs_zero, mul_zero, add_zero,
        abs_of_nonneg (show 0 ≤ rowNorm (firstderiv (exCorner s)) i from Real.sqrt_nonneg _), atol]
      have hle : ∀ q : ℝ, 0 ≤ q → q ≤ 5 / 2 → √ (q * s ^ 2) ≤ 1 / 10 ^ 8 := by
        intro q hq0 hq
        apply Real.sqrt_le_iff.2
        refine ⟨by norm_num, ?_⟩
        have : s ^ 2 ≤ (1 / 10 ^ 9) ^ 2 := pow_le_pow_left₀ hs.le hs' 2
        nlinarith [sq_nonneg s]
      have h1 : i = 0 ∨ i = 1 ∨ i = 2 := by omega
      have a5 := hle (5 / 2) (by norm_num) le_rfl
      have a1 := hle (1 / 2) (by norm_num) (by norm_num)
      norm_num at a5 a1
      rcases h1 with rfl | rfl | rfl
      · rw [n0]; norm_num; exact a5
      · rw [n1]; norm_num; exact a1
      · rw [n2]; norm_num; exact a5
    have hk : (firstderiv (exCorner s)).k = 3 := firstderiv_k (by simp [exCorner, Curve.size])
    have hf : ∀ i j, i < 3 → (frenet1 (exCorner s)).v i j = (firstderiv (exCorner s)).v i j := by
      intro i j hi
      show (firstderiv (exCorner s)).v i j / frenetNorm (firstderiv (exCorner s)) i = _
      rw [small i hi, div_one]
    have hg : rowNorm (gradient (frenet1 (exCorner s))) 1 = √ (2 * s ^ 2) := by
      unfold rowNorm
      have hkk : (gradient (frenet1 (exCorner s))).k = 3 := by
        rw [gradient_k (show 2 ≤ 3 by omega)]; exact hk
      rw [hkk]
      have hv : ∀ j, (gradient (frenet1 (exCorner s))).v 1 j = grad1 3 (fun i => (firstderiv (exCorner s)).v i j) 1 := by
        intro j
        rw [gradient_v]
        exact grad1_congr (fun l hl => hf l j hl) (show 1 < 3 by omega)
      simp only [Finset.sum_range_succ, Finset.sum_range_zero, hv]
      congr 1
      simp only [grad1, npGradient]
      simp only [exCorner_first s _ (show 0 < 3 by omega), exCorner_first s _ (show 1 < 3 by omega),
        exCorner_first s _ (show 2 < 3 by omega)]
      simp [grad1, npGradient, exCorner, at2]
      ring
    have e : curvatureN (exCorner s) 1 = .fin 2 := by
      unfold curvatureN
      rw [hg, n1]
      have hp : 0 < √ (1 / 2 * s ^ 2) := Real.sqrt_pos.2 (by positivity)
      simp only [Val.div, if_neg hp.ne']
      congr 1
      rw [show (2 : ℝ) * s ^ 2 = 2 ^ 2 * (1 / 2 * s ^ 2) by ring, Real.sqrt_mul (by norm_num), Real.sqrt_sq (by norm_num),
        mul_div_assoc, div_self hp.ne', mul_one]
    rw [List.getElem?_map, List.getElem?_range (by omega), Option.map_some, e]
  obtain ⟨xs, h1, h2⟩ := key (1 / 10 ^ 9) (by norm_num) le_rfl
  obtain ⟨xs', h3, h4⟩ := key (1 / 2 * (1 / 10 ^ 9)) (by norm_num) (by norm_num)
  exact ⟨exCorner_scaled _ _, xs, xs', h1, h3, h2, h4⟩

/-! ## Instances -/

example : ∃ xs, curvature (exCorner 1) = .ok (fins xs) ∧ curvature (exCorner (2 * 1)) = .ok (fins (xs.map (· / 2))) := by
  have over : ∀ s : ℝ, 1 ≤ s → AllOver (firstderiv (exCorner s)) := by
    intro s hs i hi
    have hi : i < 3 := by
      have e : (firstderiv (exCorner s)).m = 3 := (shapes_m (exCorner s)).1
      omega
    obtain ⟨n0, n1, n2⟩ := exCorner_norm s
    have hle : ∀ q : ℝ, 1 / 2 ≤ q → 1 / 10 ^ 8 < √ (q * s ^ 2) := by
      intro q hq
      apply Real.lt_sqrt_of_sq_lt
      nlinarith
    have h1 : i = 0 ∨ i = 1 ∨ i = 2 := by omega
    rcases h1 with rfl | rfl | rfl
    · rw [n0]; exact hle _ (by norm_num)
    · rw [n1]; exact hle _ le_rfl
    · rw [n2]; exact hle _ (by norm_num)
  exact (C91_spatial_partial (by simp [exCorner, Curve.size]) (by norm_num) (exCorner_scaled 2 1) (over 1 le_rfl)
    (over (2 * 1) (by norm_num))).2.1 (by simp [exCorner, Curve.ndim])

/-- `exParab` turned by a right angle and moved. -/
def exParabTurned : Curve ℝ := ⟨[[5, 0], [4, 1], [1, 2]], 2, none, .float⟩

theorem exParabTurned_WF : WF exParabTurned where
  two_le := by simp [exParabTurned]
  rect := by simp [exParabTurned]
  tlen := by simp [exParabTurned]
  repr := by intro r _ x _; rfl

example : curvature exParabTurned = curvature exParab := by
  obtain ⟨xs, xs', h1, h2, h3, -⟩ := C90_plane (s := 1) (a := 0) (b := 1) (w0 := 5) (w1 := 0) exParab_WF exParabTurned_WF
    (by simp [exParab, Curve.size]) (.inl rfl) (by norm_num) ⟨rfl, rfl, rfl, by
      intro i hi
      have hi : i < 3 := hi
      have : i = 0 ∨ i = 1 ∨ i = 2 := by omega
      rcases this with rfl | rfl | rfl <;> simp [exParab, exParabTurned, at2] <;> norm_num⟩
  rw [h1, h2, h3 rfl]

/-- A translation is a motion in the sense of C90. -/
example (s : ℝ) : MovedBy (n := 3) (n' := 3) LinearIsometry.id (WithLp.toLp 2 ![1, 2, 3]) (exCorner s)
    ⟨[[1, 2, 3], [s + 1, 2, 3], [s + 1, s + 2, 3]], 3, none, .float⟩ := by
  refine ⟨rfl, rfl, rfl, ?_⟩
  intro i hi
  have hi : i < 3 := hi
  have : i = 0 ∨ i = 1 ∨ i = 2 := by omega
  rcases this with rfl | rfl | rfl <;> ext j <;> fin_cases j <;> simp [exCorner, rowVec, pt]

/-! ## Concrete cases -/

theorem exCorner_WF' (s : ℝ) : WF (exCorner s) := ⟨by simp [exCorner], by simp [exCorner], by simp [exCorner], by intro r _ x _; rfl⟩

theorem exCorner_two (s : ℝ) : 2 ≤ (exCorner s).size := by simp [exCorner, Curve.size]

theorem exCorner_moved : MovedBy (n := 3) (n' := 3) LinearIsometry.id (WithLp.toLp 2 ![1, 2, 3]) (exCorner 5)
    ⟨[[1, 2, 3], [6, 2, 3], [6, 7, 3]], 3, none, .float⟩ := by
  refine ⟨rfl, rfl, rfl, ?_⟩
  intro i hi
  have hi : i < 3 := hi
  have : i = 0 ∨ i = 1 ∨ i = 2 := by omega
  rcases this with rfl | rfl | rfl <;> ext j <;> fin_cases j <;> norm_num [exCorner, rowVec, pt]

theorem exCorner_moved_WF : WF (⟨[[1, 2, 3], [6, 2, 3], [6, 7, 3]], 3, none, .float⟩ : Curve ℝ) :=
  ⟨by simp, by simp, by simp, by intro r _ x _; rfl⟩

example := C90_lengths (exCorner_WF' 5) exCorner_moved_WF exCorner_moved 99
example := C90_vectors (exCorner_WF' 5) exCorner_moved_WF (exCorner_two 5) exCorner_moved (i := 1) (by simp [exCorner, Curve.size])
example := (C90_scalars (exCorner_WF' 5) exCorner_moved_WF (exCorner_two 5) exCorner_moved 99).2.2 (by norm_num) (by norm_num)
example := C91_plane (r := 2) (s := 1) (a := 0) (b := 1) (w0 := 5) (w1 := 0) (c := exParab) (c' := ⟨[[5, 0], [3, 2], [-3, 4]], 2, none, .float⟩) exParab_WF
  ⟨by simp, by simp, by simp, by intro r _ x _; rfl⟩ (by simp [exParab, Curve.size]) (by norm_num) (.inl rfl) (by norm_num) ⟨rfl, rfl, rfl, by
      intro i hi
      have hi : i < 3 := hi
      have : i = 0 ∨ i = 1 ∨ i = 2 := by omega
      rcases this with rfl | rfl | rfl <;> simp [exParab, at2] <;> norm_num⟩
example := C91_lengths (exCorner_WF' 1) (exCorner_WF' (2 * 1)) (by simp [exCorner]) (by norm_num) (exCorner_scaled 2 1) 99
example := C91_derivatives (exCorner_two 1) (by norm_num) (exCorner_scaled 2 1) (i := 1) (by simp [exCorner, Curve.size])

end Verif.Props
