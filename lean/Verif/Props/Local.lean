import Verif.Props.Columns
import Verif.Lemmas.LocalSpline

/-!
C106: interpolation between two points depends on the points around them only.
-/
namespace Verif.Spec

open Verif Verif.Model

/-- The points `i`, `i + 1` of `c` are the points `i'`, `i' + 1` of `c'`; the parameter values of `c'` are larger by `b`. -/
structure SamePiece (b : ℝ) (i i' : Nat) (c c' : Curve ℝ) (t t' : List ℝ) : Prop where
  ndim : c'.ncols = c.ncols
  lt : i + 1 < c.rows.length
  lt' : i' + 1 < c'.rows.length
  p0 : c'.rows[i']? = c.rows[i]?
  p1 : c'.rows[i' + 1]? = c.rows[i + 1]?
  t0 : t'[i']? = t[i]?.map (· + b)
  t1 : t'[i' + 1]? = t[i + 1]?.map (· + b)

/-- Besides, the point before and the point after them are the same, or both do not exist. -/
structure SameNeighbours (b : ℝ) (i i' : Nat) (c c' : Curve ℝ) (t t' : List ℝ) : Prop extends SamePiece b i i' c c' t t' where
  first : i = 0 ↔ i' = 0
  last : i + 2 = c.rows.length ↔ i' + 2 = c'.rows.length
  before : ∀ k k', i = k + 1 → i' = k' + 1 → c'.rows[k']? = c.rows[k]? ∧ t'[k']? = t[k]?.map (· + b)
  after : i + 2 < c.rows.length → c'.rows[i' + 2]? = c.rows[i + 2]? ∧ t'[i' + 2]? = t[i + 2]?.map (· + b)

/-- `x` lies between the values at `i` and `i + 1`. -/
def InPiece (t : List ℝ) (i : Nat) (x : ℝ) : Prop := ∃ u v, t[i]? = some u ∧ t[i + 1]? = some v ∧ u ≤ x ∧ x ≤ v

end Verif.Spec

namespace Verif.Props

open Verif Verif.Np Verif.Model Verif.Spec

theorem around_of_get {n n' i i' : Nat} {b : ℝ} {f f' : Nat → ℝ} {b' : ℝ} {c c' : Curve ℝ} {t t' : List ℝ} (h : SameNeighbours b i i' c c' t t')
    (hn : n = c.rows.length) (hn' : n' = c'.rows.length)
    (hf : ∀ k k', k < n → k' < n' → c'.rows[k']? = c.rows[k]? → t'[k']? = t[k]?.map (· + b) → f' k' = f k + b') : Around n n' i i' b' f f' := by
  have l := h.lt
  have l' := h.lt'
  have hF := h.first
  have hL := h.last
  subst hn hn'
  refine ⟨l, l', hF, hL, hf i i' (by omega) (by omega) h.p0 h.t0, hf _ _ l l' h.p1 h.t1, ?_, ?_⟩
  · intro k k' e e'
    obtain ⟨h1, h2⟩ := h.before k k' e e'
    exact hf k k' (by omega) (by omega) h1 h2
  · intro hlt
    obtain ⟨h1, h2⟩ := h.after hlt
    exact hf _ _ hlt (by omega) h1 h2

theorem at2_of_get {c c' : Curve ℝ} {k k' : Nat} (h : c'.rows[k']? = c.rows[k]?) (j : Nat) : at2 c'.rows k' j = at2 c.rows k j := by
  unfold at2
  rw [List.getD_eq_getElem?_getD (l := c'.rows), List.getD_eq_getElem?_getD (l := c.rows), h]

theorem knot_of_get {t t' : List ℝ} {k k' : Nat} {b : ℝ} (hk : k < t.length) (h : t'[k']? = t[k]?.map (· + b)) :
    t'.getD k' 0 = t.getD k 0 + b := by
  rw [List.getD_eq_getElem?_getD, List.getD_eq_getElem?_getD, h, List.getElem?_eq_getElem hk]; rfl

section
variable {c c' : Curve ℝ} (hc : WF c) (hc' : WF c') (hs : 2 ≤ c.size) (hs' : 2 ≤ c'.size) {junk : ℝ}
  (ht : (c.t junk).Pairwise (· < ·)) (ht' : (c'.t junk).Pairwise (· < ·))
include hc hc' hs hs' ht ht'

/-- **C106 (pchip, hermite).** Two curves that have two neighbouring points, the one before, and the one after them in common (with parameter
values shifted by a constant): between the two points their interpolations agree. (Dtypes that are not integer ones.) -/
theorem C106_splines (hd : c.dtype ≠ .int) (hd' : c'.dtype ≠ .int) {r : KwReg} {m : String} (hm : IsPchip junk r m ∨ IsHermite junk r m) :
    ∃ F F', EvaluatesTo c (fun g => c.interpolate r g m .none) (fun _ => True) F ∧
      EvaluatesTo c' (fun g => c'.interpolate r g m .none) (fun _ => True) F' ∧
      ∀ b i i', SameNeighbours b i i' c c' (c.t junk) (c'.t junk) → ∀ x, InPiece (c.t junk) i x → F' (x + b) = F x := by
  have hl := t_length hc (rows_ne_of_size hs) junk
  have hl' := t_length hc' (rows_ne_of_size hs') junk
  have key : ∀ {cons : Curve ℝ → InterpKw → Except PyErr InterpImpl} {q q' : PPoly}, getInterpClass r m = .ok (interpClass junk cons) →
      cons c .none = .ok q.impl → cons c' .none = .ok q'.impl → q.xs = c.t junk → q'.xs = c'.t junk → q.y = c.mat → q'.y = c'.mat →
      q.ex = .yes → q'.ex = .yes → (∀ b i i' j, SameNeighbours b i i' c c' (c.t junk) (c'.t junk) → j < c.ncols →
        q'.d.v i' j = q.d.v i j ∧ q'.d.v (i' + 1) j = q.d.v (i + 1) j) →
      ∃ F F', EvaluatesTo c (fun g => c.interpolate r g m .none) (fun _ => True) F ∧
      EvaluatesTo c' (fun g => c'.interpolate r g m .none) (fun _ => True) F' ∧
      ∀ b i i', SameNeighbours b i i' c c' (c.t junk) (c'.t junk) → ∀ x, InPiece (c.t junk) i x → F' (x + b) = F x := by
    intro cons q q' hr hq hq' hx hx' hy hy' hex hex' hslope
    refine ⟨_, _, spline_eval hc hs ht hd hr hq hx hy (.inl hex), spline_eval hc' hs' ht' hd' hr hq' hx' hy' (.inl hex'), ?_⟩
    rintro b i i' h x ⟨u, v, hu, hv, h1, h2⟩
    have l : i + 1 < c.size := h.lt
    have l' : i' + 1 < c'.size := h.lt'
    have k0 : knot q.xs i = u := by rw [hx]; exact knot_eq hu
    have k1 : knot q.xs (i + 1) = v := by rw [hx]; exact knot_eq hv
    have k0' : knot q'.xs i' = u + b := by rw [hx']; exact knot_eq (by rw [h.t0, hu]; rfl)
    have k1' : knot q'.xs (i' + 1) = v + b := by rw [hx']; exact knot_eq (by rw [h.t1, hv]; rfl)
    have hk : q'.y.k = q.y.k := by rw [hy, hy']; exact h.ndim
    unfold PPoly.row
    rw [hk]
    apply List.map_congr_left
    intro j hj
    have hj : j < c.ncols := by have := List.mem_range.1 hj; rw [hy] at this; exact this
    obtain ⟨d0, d1⟩ := hslope b i i' j h hj
    rw [PPoly.coord_on (p := q) (i := i) (by rw [hx]; exact ht) (by rw [hx, hl]; exact l) j (.inr (by rw [k0]; exact h1)) (.inr (by rw [k1]; exact h2)),
      PPoly.coord_on (p := q') (i := i') (by rw [hx']; exact ht') (by rw [hx', hl']; exact l') j (.inr (by rw [k0']; linarith)) (.inr (by rw [k1']; linarith))]
    unfold PPoly.cub
    rw [d0, d1, k0, k1, k0', k1', hy, hy', mat_v, mat_v, mat_v, mat_v, at2_of_get h.p0, at2_of_get h.p1]
    have huv : u < v := by
      have := knot_lt ht (show i < i + 1 by omega) (by rw [hl]; exact l)
      rwa [knot_eq hu, knot_eq hv] at this
    have := hermR_rescale huv (a := 1) one_pos b 1 0 (at2 c.rows i j) (at2 c.rows (i + 1) j) (q.d.v i j) (q.d.v (i + 1) j) x
    simpa using this
  rcases hm with hr | hr
  · refine key hr (pchip_cons hc hs ht .yes rfl) (pchip_cons hc' hs' ht' .yes rfl) rfl rfl rfl rfl rfl rfl ?_
    intro b i i' j h _
    simp only [pchipSlopes_v]
    rw [hl, hl']
    apply pchipSlope_around (b := b)
    · exact around_of_get h rfl rfl fun k k' hk _ _ e => knot_of_get (by rw [hl]; exact hk) e
    · exact around_of_get h rfl rfl fun k k' _ _ e _ => by rw [mat_v, mat_v, at2_of_get e, add_zero]
  · refine key hr (hermite_cons hc hs ht .yes rfl) (hermite_cons hc' hs' ht' .yes rfl) rfl rfl rfl rfl rfl rfl ?_
    intro b i i' j h _
    have gv : ∀ {e : Curve ℝ}, 2 ≤ e.size → ∀ k j, (firstderiv e).v k j = npGradient (if e.size = 2 then 1 else 2) e.size (fun k => e.mat.v k j) k := by
      intro e he k j
      unfold firstderiv gradient
      have hm : e.mat.m = e.size := rfl
      rw [hm]
      by_cases h3 : 3 ≤ e.size
      · rw [if_pos h3, if_neg (show ¬ e.size = 2 by omega)]
      · rw [if_neg h3, if_pos he, if_pos (show e.size = 2 by omega)]
    have hg : ∀ j, (firstderiv c').v i' j = (firstderiv c).v i j ∧ (firstderiv c').v (i' + 1) j = (firstderiv c).v (i + 1) j := by
      intro j
      rw [gv hs, gv hs, gv hs', gv hs']
      apply npGradient_around
      · exact around_of_get h rfl rfl fun k k' _ _ e _ => by rw [mat_v, mat_v, at2_of_get e, add_zero]
      · split <;> simp_all
      · split <;> simp_all
    have hk : (firstderiv c').k = (firstderiv c).k := by rw [firstderiv_k hs, firstderiv_k hs']; exact h.ndim
    have hv : ∀ (e : Curve ℝ) k j, (frenet1 e).v k j = (firstderiv e).v k j / frenetNorm (firstderiv e) k := fun _ _ _ => rfl
    have hN : ∀ {k k'}, (∀ j, (firstderiv c').v k' j = (firstderiv c).v k j) → frenetNorm (firstderiv c') k' = frenetNorm (firstderiv c) k := by
      intro k k' h
      have : rowNorm (firstderiv c') k' = rowNorm (firstderiv c) k := by
        unfold rowNorm
        rw [hk]
        simp only [h]
      unfold frenetNorm
      rw [this]
    simp only [hv]
    rw [(hg j).1, (hg j).2, hN fun j => (hg j).1, hN fun j => (hg j).2]
    exact ⟨rfl, rfl⟩

/-- **C106 (linear).** For linear interpolation the two points suffice. -/
theorem C106_linear (hd : c.dtype ≠ .int) (hd' : c'.dtype ≠ .int) {r : InterpReg Bool} {m : String} (hr : IsLinear junk r m) (ex : Bool) :
    ∃ F F', EvaluatesTo c (fun g => c.interpolate r g m ex) (fun x => ex = true ∨ WithinEnds (c.t junk) x) F ∧
      EvaluatesTo c' (fun g => c'.interpolate r g m ex) (fun x => ex = true ∨ WithinEnds (c'.t junk) x) F' ∧
      ∀ b i i', SamePiece b i i' c c' (c.t junk) (c'.t junk) → ∀ x, InPiece (c.t junk) i x → F' (x + b) = F x := by
  have ev : ∀ {e : Curve ℝ}, WF e → 2 ≤ e.size → (e.t junk).Pairwise (· < ·) → e.dtype ≠ .int →
      EvaluatesTo e (fun g => e.interpolate r g m ex) (fun x => ex = true ∨ WithinEnds (e.t junk) x)
        (rowAt ((e.t junk).zip e.rows)) := by
    intro e he hes het hed xs hne hx hdom
    obtain ⟨w, hg⟩ := getGrid_fins junk e xs hne hx
    obtain ⟨h1, h2⟩ := t_ends he (rows_ne_of_size hes) junk
    refine linear_repr he hes het hed hr ex hne hg h1 h2 ?_
    cases ex with
    | true => exact .inl rfl
    | false =>
      right
      intro x hx
      have := (hdom x hx).resolve_left (by simp)
      exact ⟨this.1 _ h1, this.2 _ h2⟩
  refine ⟨_, _, ev hc hs ht hd, ev hc' hs' ht' hd', ?_⟩
  rintro b i i' h x ⟨u, v, hu, hv, h1, h2⟩
  have l := h.lt
  obtain ⟨p, hp⟩ : ∃ p, c.rows[i]? = some p := ⟨_, List.getElem?_eq_getElem (by omega)⟩
  obtain ⟨q, hq⟩ : ∃ q, c.rows[i + 1]? = some q := ⟨_, List.getElem?_eq_getElem l⟩
  rw [rowAt_pair hc hs ht x i u v p q hu hv hp hq (.inr h1) (.inr h2),
    rowAt_pair hc' hs' ht' (x + b) i' (u + b) (v + b) p q (by rw [h.t0, hu]; rfl) (by rw [h.t1, hv]; rfl) (by rw [h.p0, hp]) (by rw [h.p1, hq])
      (.inr (by linarith)) (.inr (by linarith))]
  congr 1
  rw [show x + b - (u + b) = x - u by ring, show v + b - (u + b) = v - u by ring]

end

/-! ## Slices -/

section
variable {c c' : Curve ℝ} (hc : WF c) {a b : Nat} (hsub : c.getSub (.slice ⟨some a, some b, none⟩) = .ok c') (hb : b ≤ c.size) (hab : a + 2 ≤ b)
  (junk : ℝ)
include hc hsub hb hab

theorem slice_rows : c'.rows = (c.rows.take b).drop a ∧ c'.tdata = c.tdata.map (fun t => (t.take b).drop a) ∧ c'.dtype = c.dtype ∧
    c'.ncols = c.ncols ∧ c'.size = b - a ∧ ∀ k, k < b - a → c'.rows[k]? = c.rows[a + k]? := by
  have hsz : c.size = c.rows.length := rfl
  obtain ⟨d, h1, h2, h3⟩ := C07_plain hc a b
  obtain ⟨e, ks, h4, h5, _⟩ := C07_slice hc ⟨some a, some b, none⟩ (by simp)
  rw [hsub] at h1 h4
  injection h1 with h1
  injection h4 with h4
  subst h1 h4
  have hlen : c'.rows.length = b - a := by rw [h2]; simp; omega
  have hks : ks ≠ [] := by
    rintro rfl
    have := congrArg List.length h5.points
    simp [hlen] at this
    omega
  refine ⟨h2, h3, h5.dtype, h5.ndim hks, hlen, ?_⟩
  intro k hk
  rw [h2, List.getElem?_drop, List.getElem?_take, if_pos (by omega)]

/-- The parameter values of a slice: those of the curve, for a curve without stored ones measured from the first point of the slice. -/
theorem slice_t : ∃ s, (c.isparametric = true → s = 0) ∧ (c.isparametric = false → (c.t junk)[a]? = some (-s)) ∧
    ∀ k, k < b - a → (c'.t junk)[k]? = (c.t junk)[a + k]?.map (· + s) := by
  obtain ⟨h1, h2, _, h4, h5, h6⟩ := slice_rows hc hsub hb hab
  cases hp : c.tdata with
  | some t =>
    refine ⟨0, fun _ => rfl, by simp [Curve.isparametric, hp], ?_⟩
    intro k hk
    rw [hp] at h2
    have e1 : c.t junk = t := by unfold Curve.t; rw [hp]
    have e2 : c'.t junk = (t.take b).drop a := by unfold Curve.t; rw [h2]; rfl
    rw [e1, e2, List.getElem?_drop, List.getElem?_take, if_pos (by omega)]
    cases t[a + k]? <;> simp
  | none =>
    rw [hp] at h2
    have hc' := getSub_WF hsub
    have e1 : c.t junk = cumarclen junk c := by unfold Curve.t; rw [hp]
    have e2 : c'.t junk = cumarclen junk c' := by unfold Curve.t; rw [h2]; rfl
    have hs : c.size = c.rows.length := rfl
    have hs' : c'.size = c'.rows.length := rfl
    obtain ⟨l1, z1, _, g1, _⟩ := C50_cumarclen_partial hc (rows_ne_of_size (show 2 ≤ c.size by omega)) junk
    obtain ⟨l2, z2, _, g2, _⟩ := C50_cumarclen_partial hc' (rows_ne_of_size (show 2 ≤ c'.size by omega)) junk
    obtain ⟨u, hu⟩ : ∃ u, (cumarclen junk c)[a]? = some u := ⟨_, List.getElem?_eq_getElem (by omega)⟩
    refine ⟨-u, by simp [Curve.isparametric, hp], fun _ => by rw [e1, hu, neg_neg], ?_⟩
    rw [e1, e2]
    intro k
    induction k with
    | zero => intro _; rw [z2, Nat.add_zero, hu]; simp
    | succ k ih =>
      intro hk
      have ih := ih (by omega)
      obtain ⟨p, hp⟩ : ∃ p, c.rows[a + k]? = some p := ⟨_, List.getElem?_eq_getElem (by omega)⟩
      obtain ⟨q, hq⟩ : ∃ q, c.rows[a + k + 1]? = some q := ⟨_, List.getElem?_eq_getElem (by omega)⟩
      obtain ⟨x, y, hx, hy, hxy⟩ := g1 (a + k) p q hp hq
      obtain ⟨x', y', hx', hy', hxy'⟩ := g2 k p q (by rw [h6 k (by omega), hp]) (by rw [h6 (k + 1) hk, ← Nat.add_assoc, hq])
      rw [hx', hx] at ih
      injection ih with ih
      rw [show c'.ndim = c.ndim from h4, ← hxy] at hxy'
      rw [hy', ← Nat.add_assoc, hy]
      simp only [Option.map_some, Option.some.injEq]
      simp only at ih
      linarith

theorem slice_lt (ht : (c.t junk).Pairwise (· < ·)) : (c'.t junk).Pairwise (· < ·) := by
  obtain ⟨_, _, _, _, h5, _⟩ := slice_rows hc hsub hb hab
  obtain ⟨s, _, _, h⟩ := slice_t hc hsub hb hab junk
  have hl := t_length hc (rows_ne_of_size (show 2 ≤ c.size by omega)) junk
  have hl' := t_length (getSub_WF hsub) (rows_ne_of_size (show 2 ≤ c'.size by omega)) junk
  have kn : ∀ k, k < b - a → knot (c'.t junk) k = knot (c.t junk) (a + k) + s := by
    intro k hk
    exact knot_of_get (by omega) (h k hk)
  rw [List.pairwise_iff_getElem]
  intro i j hi hj hij
  have e1 : (c'.t junk)[i] = knot (c'.t junk) i := (knot_eq (List.getElem?_eq_getElem hi)).symm
  have e2 : (c'.t junk)[j] = knot (c'.t junk) j := (knot_eq (List.getElem?_eq_getElem hj)).symm
  rw [e1, e2, kn i (by omega), kn j (by omega)]
  have := knot_lt ht (show a + i < a + j by omega) (by omega)
  linarith

theorem slice_piece {s : ℝ} (hst : ∀ k, k < b - a → (c'.t junk)[k]? = (c.t junk)[a + k]?.map (· + s)) {k : Nat} (hk : a + k + 1 < b) :
    SamePiece s (a + k) k c c' (c.t junk) (c'.t junk) := by
  obtain ⟨_, _, _, h4, h5, h6⟩ := slice_rows hc hsub hb hab
  have hs : c.size = c.rows.length := rfl
  have hs' : c'.size = c'.rows.length := rfl
  exact ⟨h4, by omega, by omega, h6 k (by omega), h6 (k + 1) (by omega), hst k (by omega), hst (k + 1) (by omega)⟩

theorem slice_neighbours {s : ℝ} (hst : ∀ k, k < b - a → (c'.t junk)[k]? = (c.t junk)[a + k]?.map (· + s)) {k : Nat} (hk : a + k + 1 < b)
    (h0 : 0 < k ∨ a = 0) (h1 : a + k + 2 < b ∨ a + k + 2 = c.size) : SameNeighbours s (a + k) k c c' (c.t junk) (c'.t junk) := by
  obtain ⟨_, _, _, h4, h5, h6⟩ := slice_rows hc hsub hb hab
  have hs : c.size = c.rows.length := rfl
  have hs' : c'.size = c'.rows.length := rfl
  refine ⟨slice_piece hc hsub hb hab junk hst hk, by omega, by omega, ?_, ?_⟩
  · intro i i' e e'
    have : i = a + i' := by omega
    subst this
    exact ⟨h6 i' (by omega), hst i' (by omega)⟩
  · intro hlt
    exact ⟨h6 (k + 2) (by omega), hst (k + 2) (by omega)⟩

/-- **C106 (slices).** Interpolating the slice `c[a:b]` gives the points of the interpolation of `c`, in all pieces but the first and
the last one of the slice, and in these if the slice begins or ends where the curve does. A curve without stored parameter values
measures the length from the first point of the slice. -/
theorem C106_slice (ht : (c.t junk).Pairwise (· < ·)) (hd : c.dtype ≠ .int) {r : KwReg} {m : String} (hm : IsPchip junk r m ∨ IsHermite junk r m) :
    ∃ s F F', (c.isparametric = true → s = 0) ∧ (c.isparametric = false → (c.t junk)[a]? = some (-s)) ∧
      EvaluatesTo c (fun g => c.interpolate r g m .none) (fun _ => True) F ∧
      EvaluatesTo c' (fun g => c'.interpolate r g m .none) (fun _ => True) F' ∧
      ∀ i x, a ≤ i → i + 1 < b → (a < i ∨ a = 0) → (i + 2 < b ∨ b = c.size) → InPiece (c.t junk) i x → F' (x + s) = F x := by
  obtain ⟨_, _, h3, _, h5, _⟩ := slice_rows hc hsub hb hab
  obtain ⟨s, hs1, hs2, hst⟩ := slice_t hc hsub hb hab junk
  obtain ⟨F, F', e1, e2, e3⟩ := C106_splines hc (getSub_WF hsub) (by omega) (by omega) ht (slice_lt hc hsub hb hab junk ht) hd
    (by rw [h3]; exact hd) hm
  refine ⟨s, F, F', hs1, hs2, e1, e2, ?_⟩
  intro i x hi hib h0 h1 hx
  obtain ⟨k, rfl⟩ : ∃ k, i = a + k := ⟨i - a, by omega⟩
  exact e3 s (a + k) k (slice_neighbours hc hsub hb hab junk hst hib (by omega) (by omega)) x hx

/-- **C106 (slices, linear).** For linear interpolation this holds in all pieces of the slice. -/
theorem C106_slice_linear (ht : (c.t junk).Pairwise (· < ·)) (hd : c.dtype ≠ .int) {r : InterpReg Bool} {m : String} (hr : IsLinear junk r m)
    (ex : Bool) :
    ∃ s F F', (c.isparametric = true → s = 0) ∧ (c.isparametric = false → (c.t junk)[a]? = some (-s)) ∧
      EvaluatesTo c (fun g => c.interpolate r g m ex) (fun x => ex = true ∨ WithinEnds (c.t junk) x) F ∧
      EvaluatesTo c' (fun g => c'.interpolate r g m ex) (fun x => ex = true ∨ WithinEnds (c'.t junk) x) F' ∧
      ∀ i x, a ≤ i → i + 1 < b → InPiece (c.t junk) i x → F' (x + s) = F x := by
  obtain ⟨_, _, h3, _, h5, _⟩ := slice_rows hc hsub hb hab
  obtain ⟨s, hs1, hs2, hst⟩ := slice_t hc hsub hb hab junk
  obtain ⟨F, F', e1, e2, e3⟩ := C106_linear hc (getSub_WF hsub) (by omega) (by omega) ht (slice_lt hc hsub hb hab junk ht) hd
    (by rw [h3]; exact hd) hr ex
  refine ⟨s, F, F', hs1, hs2, e1, e2, ?_⟩
  intro i x hi hib hx
  obtain ⟨k, rfl⟩ : ∃ k, i = a + k := ⟨i - a, by omega⟩
  exact e3 s (a + k) k (slice_piece hc hsub hb hab junk hst hib) x hx

end

/-! ## Witnesses -/

/-- Points at the origin for the parameter values `t`, the last one at `(b, 0)`. -/
def exLast (t : List ℝ) (b : ℝ) : Curve ℝ := ⟨List.replicate (t.length - 1) [0, 0] ++ [[b, 0]], 2, some t, .float⟩

theorem exLast_WF {t : List ℝ} (ht : t ≠ []) (b : ℝ) : WF (exLast t b) where
  two_le := by simp [exLast]
  rect := by
    intro r hr
    simp only [exLast, List.mem_append, List.mem_replicate, List.mem_singleton] at hr
    rcases hr with ⟨_, rfl⟩ | rfl <;> rfl
  tlen := by
    intro s hs
    have : 0 < t.length := List.length_pos_of_ne_nil ht
    simp only [exLast, Option.some.injEq] at hs
    subst hs
    simp [exLast]; omega
  repr := by intro r _ x _; rfl

theorem exLast_at {t : List ℝ} (b : ℝ) {i : Nat} (hi : i < t.length) : (exLast t b).mat.v i 0 = if i = t.length - 1 then b else 0 := by
  rw [mat_v]
  unfold at2 exLast
  rw [List.getD_eq_getElem?_getD (l := List.replicate (t.length - 1) [0, 0] ++ [[b, 0]])]
  by_cases h : i = t.length - 1
  · rw [if_pos h, List.getElem?_append_right (by simp; omega)]
    simp [h]
  · rw [if_neg h, List.getElem?_append_left (by simp; omega)]
    simp [List.getElem?_replicate, show i < t.length - 1 by omega]

/-- If the first slope is zero, so are all but the last one. -/
theorem natural_zero {n : Nat} {x y d : Nat → ℝ} (hlt : ∀ i, i + 1 < n → x i < x (i + 1)) (hy : ∀ i, i + 1 < n → y i = 0) (hn : 3 ≤ n)
    (hd : NaturalSystem n x y d) (h0 : d 0 = 0) : ∀ k, k + 2 < n → d k = 0 ∧ d (k + 1) = 0 := by
  intro k
  induction k with
  | zero =>
    intro _
    refine ⟨h0, ?_⟩
    have h1 := hd.first
    rw [h0, hy 0 (by omega), hy 1 (by omega)] at h1
    have := hlt 0 (by omega)
    simp only [Nat.zero_add] at this
    have : x 1 - x 0 ≠ 0 := by linarith
    have h2 : (x 1 - x 0) * d 1 = 0 := by linarith
    simpa [this] using h2
  | succ k ih =>
    intro hk
    obtain ⟨a0, a1⟩ := ih (by omega)
    refine ⟨a1, ?_⟩
    have h1 := hd.inner k (by omega)
    rw [a0, a1, hy k (by omega), hy (k + 1) (by omega), hy (k + 2) (by omega)] at h1
    have : x (k + 1) - x k ≠ 0 := by linarith [hlt k (by omega)]
    have h2 : (x (k + 1) - x k) * d (k + 2) = 0 := by
      simp at h1
      simpa using h1
    simpa [this] using h2

/-- **C106 fails for `cubic`.** Natural cubic splines: for any three or more parameter values moving the last point changes the
curve between the first two points. -/
theorem C106_cubic_fails {t : List ℝ} (hn : 3 ≤ t.length) (ht : t.Pairwise (· < ·)) {junk : ℝ} {lib : SplineLib} (hlib : NaturalOk lib) {r : KwReg}
    {m : String} (hr : IsCubic lib junk r m) :
    ∃ F F', EvaluatesTo (exLast t 0) (fun g => (exLast t 0).interpolate r g m .none) (fun _ => True) F ∧
      EvaluatesTo (exLast t 1) (fun g => (exLast t 1).interpolate r g m .none) (fun _ => True) F' ∧
      ∃ x, InPiece t 0 x ∧ coordOf 0 (F x) = 0 ∧ coordOf 0 (F' x) ≠ 0 := by
  have hne : t ≠ [] := by rintro rfl; simp at hn
  have hs : ∀ b, (exLast t b).size = t.length := by intro b; simp [exLast, Curve.size]; omega
  have hs2 : ∀ b, 2 ≤ (exLast t b).size := by intro b; rw [hs]; omega
  have htt : ∀ b, (exLast t b).t junk = t := fun b => rfl
  have hlt : ∀ i, i + 1 < t.length → t.getD i 0 < t.getD (i + 1) 0 := fun i hi => knot_lt ht (show i < i + 1 by omega) hi
  have sol : ∀ b, ∃ d : NMat, ∃ q : PPoly, q = ⟨t, (exLast t b).mat, d, .yes⟩ ∧ NaturalSystem t.length (fun i => t.getD i 0) (fun i => (exLast t b).mat.v i 0) (fun i => d.v i 0) ∧
      EvaluatesTo (exLast t b) (fun g => (exLast t b).interpolate r g m .none) (fun _ => True) q.row := by
    intro b
    obtain ⟨d, hsol, hnat⟩ := hlib ((exLast t b).t junk) (exLast t b).mat (knotsOk_curve (exLast_WF hne b) (hs2 b) ht)
    refine ⟨d, _, rfl, hnat 0 (by simp [exLast, Curve.mat]), ?_⟩
    exact spline_eval (exLast_WF hne b) (hs2 b) ht (by simp [exLast]) hr (cubic_default (exLast_WF hne b) (hs2 b) ht lib hsol) rfl rfl (.inl rfl)
  obtain ⟨d, q, hq, h1, h2⟩ := sol 0
  obtain ⟨d', q', hq', h1', h2'⟩ := sol 1
  obtain ⟨u, hu⟩ : ∃ u, t[0]? = some u := ⟨_, List.getElem?_eq_getElem (by omega)⟩
  obtain ⟨v, hv⟩ : ∃ v, t[1]? = some v := ⟨_, List.getElem?_eq_getElem (by omega)⟩
  have ku : t.getD 0 0 = u := knot_eq hu
  have kv : t.getD 1 0 = v := knot_eq hv
  have huv := hlt 0 (by omega)
  simp only [Nat.zero_add] at huv
  rw [ku, kv] at huv
  have val : ∀ (b : ℝ) (d : NMat) (q : PPoly), q = ⟨t, (exLast t b).mat, d, .yes⟩ →
      coordOf 0 (q.row ((u + v) / 2)) = (v - u) * (d.v 0 0 - d.v 1 0) / 8 := by
    rintro b d q rfl
    unfold coordOf
    rw [PPoly.row_getD _ (by simp [exLast, Curve.mat]), PPoly.coord_on (i := 0) ht (by show 0 + 1 < t.length; omega) 0 (.inl rfl)
      (.inr (by show _ ≤ knot t 1; rw [knot_eq hv]; linarith))]
    unfold PPoly.cub
    simp only [zero_add]
    rw [knot_eq hu, knot_eq hv, exLast_at b (by omega), exLast_at b (by omega), if_neg (by omega), if_neg (by omega)]
    have := hermR_basis huv 0 0 (d.v 0 0) (d.v 1 0) (1 / 2)
    rw [show u + 1 / 2 * (v - u) = (u + v) / 2 by ring] at this
    rw [this]
    ring
  refine ⟨_, _, h2, h2', (u + v) / 2, ⟨u, v, hu, hv, by linarith, by linarith⟩, ?_, ?_⟩
  · rw [val 0 d q hq]
    have z : ∀ k, k < t.length → d.v k 0 = 0 := by
      refine natural_unique (by omega) hlt h1 (d' := fun _ => 0) ⟨?_, ?_, ?_⟩
      · simp only [exLast_at 0 (show 0 < t.length by omega), exLast_at 0 (show 1 < t.length by omega)]; simp
      · simp only [exLast_at 0 (show t.length - 1 < t.length by omega), exLast_at 0 (show t.length - 2 < t.length by omega)]; simp
      · intro k hk
        simp only [exLast_at 0 (show k < t.length by omega), exLast_at 0 (show k + 1 < t.length by omega),
          exLast_at 0 (show k + 2 < t.length by omega)]
        simp
    rw [z 0 (by omega), z 1 (by omega)]; simp
  · rw [val 1 d' q' hq']
    intro h
    have n0 : v - u ≠ 0 := by linarith
    have e1 : d'.v 0 0 = d'.v 1 0 := by
      have : (v - u) * (d'.v 0 0 - d'.v 1 0) = 0 := by linarith
      have := (mul_eq_zero.1 this).resolve_left n0
      linarith
    have f1 := h1'.first
    simp only [exLast_at 1 (show 0 < t.length by omega), exLast_at 1 (show 1 < t.length by omega)] at f1
    rw [if_neg (by omega), if_neg (by omega), ku, kv, e1] at f1
    have e2 : d'.v 0 0 = 0 := by
      rw [e1]
      have : (v - u) * d'.v 1 0 = 0 := by linarith
      exact (mul_eq_zero.1 this).resolve_left n0
    have z := natural_zero hlt (fun i hi => by rw [exLast_at 1 (by omega), if_neg (by omega)]) hn h1' e2 (t.length - 3) (by omega)
    have f2 := h1'.inner (t.length - 3) (by omega)
    have f3 := h1'.last
    have l3 := hlt (t.length - 3) (by omega)
    have l2 := hlt (t.length - 2) (by omega)
    rw [show t.length - 3 + 1 = t.length - 2 by omega] at z l3 f2
    rw [show t.length - 3 + 2 = t.length - 1 by omega] at f2
    rw [show t.length - 2 + 1 = t.length - 1 by omega] at l2
    simp only [exLast_at 1 (show t.length - 1 < t.length by omega), exLast_at 1 (show t.length - 2 < t.length by omega),
      exLast_at 1 (show t.length - 3 < t.length by omega)] at f2 f3
    rw [if_pos trivial, if_neg (by omega)] at f2 f3
    rw [if_neg (show ¬ t.length - 3 = t.length - 1 by omega)] at f2
    rw [z.1, z.2] at f2
    rw [z.2] at f3
    have m3 : t.getD (t.length - 2) 0 - t.getD (t.length - 3) 0 ≠ 0 := by linarith
    have m2 : t.getD (t.length - 1) 0 - t.getD (t.length - 2) 0 ≠ 0 := by linarith
    generalize t.getD (t.length - 2) 0 - t.getD (t.length - 3) 0 = h3 at *
    generalize t.getD (t.length - 1) 0 - t.getD (t.length - 2) 0 = h2 at *
    generalize d'.v (t.length - 1) 0 = D at *
    simp at f2 f3
    field_simp at f2
    linarith

/-- A step of the first coordinate, then a rest, then a last point at `b`. -/
def exTail (b : ℝ) : Curve ℝ := ⟨[[0, 0], [0, 0], [1, 0], [1, 0], [1, 0], [b, 0]], 2, some [0, 1, 2, 3, 4, 5], .float⟩

theorem exTail_WF (b : ℝ) : WF (exTail b) where
  two_le := by simp [exTail]
  rect := by simp [exTail]
  tlen := by simp [exTail]
  repr := by intro r _ x _; rfl

theorem exTail_lt (b junk : ℝ) : ((exTail b).t junk).Pairwise (· < ·) := by simp [exTail, Curve.t]; norm_num

theorem exTail_m (b junk : ℝ) : ∀ i, i < 9 → akimaM 6 (fun i => ((exTail b).t junk).getD i 0) (fun i => (exTail b).mat.v i 0) i =
    [-2, -1, 0, 1, 0, 0, b - 1, 2 * (b - 1), 3 * (b - 1)].getD i 0 := by
  intro i hi
  interval_cases i <;> simp [akimaM, exTail, Curve.t, Curve.mat] <;> norm_num <;> ring

theorem exTail_top (b junk : ℝ) (hb : 1 ≤ b) : akimaTop ((exTail b).t junk) (exTail b).mat ≤ max 2 (2 * b) ∧
    2 * (b - 1) ≤ akimaTop ((exTail b).t junk) (exTail b).mat := by
  have e := exTail_m b junk
  have e' : ∀ i, i < 9 → akimaM 6 (fun i => ((exTail b).t junk).getD i 0) (fun i => (exTail b).mat.v i 1) i = 0 := by
    intro i hi
    interval_cases i <;> simp [akimaM, exTail, Curve.t, Curve.mat]
  have hl : ((exTail b).t junk).length = 6 := rfl
  have hk : (exTail b).mat.k = 2 := rfl
  unfold akimaTop
  rw [hl, hk]
  constructor
  · rw [foldl_max_le]
    refine ⟨by simp, ?_⟩
    intro x hx
    simp only [List.mem_flatMap, List.mem_range, List.mem_map] at hx
    obtain ⟨j, hj, i, hi, rfl⟩ := hx
    rw [le_max_iff]
    unfold akimaF12
    interval_cases j
    · right
      rw [e _ (by omega), e _ (by omega), e _ (by omega), e _ (by omega)]
      interval_cases i <;> simp only [Nat.reduceAdd, List.getD_cons_zero, List.getD_cons_succ]
      all_goals
        repeat first
          | rw [abs_of_nonneg (by linarith)]
          | rw [abs_of_nonpos (by linarith)]
        linarith
    · rw [e' _ (by omega), e' _ (by omega), e' _ (by omega), e' _ (by omega)]
      norm_num
  · refine le_trans ?_ ((foldl_max_le.1 le_rfl).2 (akimaF12 (akimaM 6 (fun i => ((exTail b).t junk).getD i 0) (fun i => (exTail b).mat.v i 0)) 5) ?_)
    · unfold akimaF12
      simp only [Nat.reduceAdd]
      rw [e 8 (by omega), e 7 (by omega), e 6 (by omega), e 5 (by omega)]
      simp only [List.getD_cons_zero, List.getD_cons_succ]
      have h1 := le_abs_self (3 * (b - 1) - 2 * (b - 1))
      have h2 := le_abs_self (b - 1 - 0)
      linarith
    · simp only [List.mem_flatMap, List.mem_range, List.mem_map]
      exact ⟨0, by omega, 5, by omega, rfl⟩

/-- The first coordinate of the interpolation at 5/4. -/
theorem exTail_value {b junk : ℝ} {lib : SplineLib} {r : KwReg} {m : String} (hr : IsAkima lib junk r m) :
    ∃ F, EvaluatesTo (exTail b) (fun g => (exTail b).interpolate r g m .none) (WithinEnds ((exTail b).t junk)) F ∧
      (1 / 10 ^ 9 * akimaTop ((exTail b).t junk) (exTail b).mat < 1 → coordOf 0 (F (5 / 4)) = 29 / 128) ∧
      (2 ≤ 1 / 10 ^ 9 * akimaTop ((exTail b).t junk) (exTail b).mat → coordOf 0 (F (5 / 4)) = 11 / 128) := by
  have hs : 2 ≤ (exTail b).size := by simp [exTail, Curve.size]
  have ht := exTail_lt b junk
  have ak := akima_cons (exTail_WF b) hs ht lib
  rw [if_neg (show ¬ (exTail b).size < 3 by simp [exTail, Curve.size])] at ak
  refine ⟨_, spline_eval (exTail_WF b) hs ht (by simp [exTail]) hr ak rfl rfl (.inr ⟨rfl, fun x hx => hx⟩), ?_⟩
  have k1 : knot ((exTail b).t junk) 1 = 1 := knot_eq rfl
  have k2 : knot ((exTail b).t junk) 2 = 2 := knot_eq rfl
  have e := exTail_m b junk
  have hl : ((exTail b).t junk).length = 6 := rfl
  have d1 : (akimaSlopes ((exTail b).t junk) (exTail b).mat).v 1 0 =
      if 1 / 10 ^ 9 * akimaTop ((exTail b).t junk) (exTail b).mat < 2 then 1 / 2 else -1 / 2 := by
    rw [akimaSlopes_v, hl]
    generalize akimaTop ((exTail b).t junk) (exTail b).mat = T
    unfold akimaSlope akimaF12
    simp only [e 1 (by omega), e 2 (by omega), e 3 (by omega), e 4 (by omega), Nat.reduceAdd, List.getD_cons_zero, List.getD_cons_succ]
    norm_num
  have d2 : (akimaSlopes ((exTail b).t junk) (exTail b).mat).v 2 0 = 0 := by
    rw [akimaSlopes_v, hl]
    generalize akimaTop ((exTail b).t junk) (exTail b).mat = T
    unfold akimaSlope akimaF12
    simp only [e 2 (by omega), e 3 (by omega), e 4 (by omega), e 5 (by omega), Nat.reduceAdd, List.getD_cons_zero, List.getD_cons_succ]
    norm_num
  unfold coordOf
  rw [PPoly.row_getD _ (by simp [exTail, Curve.mat]), PPoly.coord_on (i := 1) ht (by simp [exTail, Curve.t]) 0
    (.inr (by rw [k1]; norm_num)) (.inr (by simp only [Nat.reduceAdd]; rw [k2]; norm_num))]
  unfold PPoly.cub
  simp only [Nat.reduceAdd]
  rw [k1, k2, d1, d2]
  constructor
  · intro h
    rw [if_pos (by linarith)]; simp [hermR, exTail, Curve.mat]; norm_num
  · intro h
    rw [if_neg (by linarith)]; simp [hermR, exTail, Curve.mat]; norm_num

/-- **C106 fails for `akima`.** Slopes are the weighted means if the weights are not small compared with the largest ones of the whole curve:
moving the last of six points by 10¹⁰ changes the curve between points 1 and 2, at 5/4 from 29/128 to 11/128. -/
theorem C106_akima_fails {junk : ℝ} {lib : SplineLib} {r : KwReg} {m : String} (hr : IsAkima lib junk r m) :
    (exTail 1).t junk = (exTail (1 + 10 ^ 10)).t junk ∧ (exTail 1).rows.take 5 = (exTail (1 + 10 ^ 10)).rows.take 5 ∧
    ∃ F F', EvaluatesTo (exTail 1) (fun g => (exTail 1).interpolate r g m .none) (WithinEnds ((exTail 1).t junk)) F ∧
      EvaluatesTo (exTail (1 + 10 ^ 10)) (fun g => (exTail (1 + 10 ^ 10)).interpolate r g m .none) (WithinEnds ((exTail 1).t junk)) F' ∧
      coordOf 0 (F (5 / 4)) = 29 / 128 ∧ coordOf 0 (F' (5 / 4)) = 11 / 128 := by
  obtain ⟨F, h1, h2, _⟩ := exTail_value (b := 1) (junk := junk) hr
  obtain ⟨F', h1', _, h2'⟩ := exTail_value (b := 1 + 10 ^ 10) (junk := junk) hr
  refine ⟨rfl, rfl, F, F', h1, h1', h2 ?_, h2' ?_⟩
  · have := (exTail_top 1 junk le_rfl).1
    norm_num at this ⊢
    linarith
  · have := (exTail_top (1 + 10 ^ 10) junk (by norm_num)).2
    norm_num at this ⊢
    linarith

/-! ## Instances -/

/-- Two pieces of `exTail` that do not depend on its last point. -/
example (lib : SplineLib) (b : ℝ) : ∃ F F', EvaluatesTo (exTail 1) (fun g => (exTail 1).interpolate (builtinInterp lib 0) g "pchip" .none) (fun _ => True) F ∧
    EvaluatesTo (exTail b) (fun g => (exTail b).interpolate (builtinInterp lib 0) g "pchip" .none) (fun _ => True) F' ∧
    F' (5 / 4 + 0) = F (5 / 4) := by
  obtain ⟨F, F', h1, h2, h3⟩ := C106_splines (exTail_WF 1) (exTail_WF b) (by simp [exTail, Curve.size]) (by simp [exTail, Curve.size])
    (exTail_lt 1 0) (exTail_lt b 0) (by simp [exTail]) (by simp [exTail]) (.inl (builtin_names lib 0).2.2.1)
  refine ⟨F, F', h1, h2, h3 0 1 1 ⟨⟨rfl, by simp [exTail], by simp [exTail], rfl, rfl, by simp [exTail, Curve.t], by simp [exTail, Curve.t]⟩, Iff.rfl,
    by simp [exTail], ?_, ?_⟩ _ ⟨1, 2, rfl, rfl, by norm_num, by norm_num⟩⟩
  · intro k k' hk hk'
    obtain rfl : k = 0 := by omega
    obtain rfl : k' = 0 := by omega
    exact ⟨rfl, by simp [exTail, Curve.t]⟩
  · intro _
    exact ⟨rfl, by simp [exTail, Curve.t]⟩

/-- The slice `exTail[1:5]`. -/
example (lib : SplineLib) : ∃ c' F F', (exTail 1).getSub (.slice ⟨some 1, some 5, none⟩) = .ok c' ∧
    EvaluatesTo (exTail 1) (fun g => (exTail 1).interpolate (builtinInterp lib 0) g "hermite" .none) (fun _ => True) F ∧
    EvaluatesTo c' (fun g => c'.interpolate (builtinInterp lib 0) g "hermite" .none) (fun _ => True) F' ∧ F' (5 / 2) = F (5 / 2) := by
  obtain ⟨c', hsub, _⟩ := C07_plain (exTail_WF 1) 1 5
  obtain ⟨s, F, F', h0, _, h1, h2, h3⟩ := C106_slice (a := 1) (b := 5) (exTail_WF 1) hsub (by simp [exTail, Curve.size]) (by omega) 0 (exTail_lt 1 0)
    (by simp [exTail]) (.inr (builtin_names lib 0).2.1)
  have hs : s = 0 := h0 rfl
  refine ⟨c', F, F', hsub, h1, h2, ?_⟩
  have := h3 2 (5 / 2) (by omega) (by omega) (by omega) (by omega) ⟨2, 3, rfl, rfl, by norm_num, by norm_num⟩
  rwa [hs, add_zero] at this

/-- The slice `exRight[1:3]` of a curve without parameter values, which measures the length from its second point. -/
example : ∃ c' s F F', exRight.getSub (.slice ⟨some 1, some 3, none⟩) = .ok c' ∧ (exRight.t 0)[1]? = some (-s) ∧
    EvaluatesTo exRight (fun g => exRight.interpolate (linearReg 0) g "linear" true) (fun x => true = true ∨ WithinEnds (exRight.t 0) x) F ∧
    EvaluatesTo c' (fun g => c'.interpolate (linearReg 0) g "linear" true) (fun x => true = true ∨ WithinEnds (c'.t 0) x) F' ∧
    ∀ x, InPiece (exRight.t 0) 1 x → F' (x + s) = F x := by
  obtain ⟨c', hsub, _⟩ := C07_plain exRight_WF 1 3
  obtain ⟨s, F, F', _, h0, h1, h2, h3⟩ := C106_slice_linear (a := 1) (b := 3) exRight_WF hsub (by simp [exRight, Curve.size]) (by omega) 0 (exRight_lt 0)
    (by simp [exRight]) (isLinear_linearReg 0) true
  exact ⟨c', s, F, F', hsub, h0 rfl, h1, h2, fun x hx => h3 1 x (by omega) (by omega) hx⟩

end Verif.Props
