import Verif.Model.RoundedPairs
import Verif.Props.RoundedDist
import Verif.Props.IntersectMore

/-!
C157: almost intersections of curves in floating point.
-/
namespace Verif.Props

open Verif Verif.Np Verif.Model Verif.Spec

section
variable {ε η ν k L M : ℝ} {fl : ℝ → ℝ} {n : Nat}

theorem dotTo_self_nonneg (hf : Rounding ε fl) {ps : List (ℝ × ℝ)} {z : ℝ} (h : DotTo fl ps z) : (∀ p ∈ ps, p.1 = p.2) → 0 ≤ z := by
  have pos : ∀ x, 0 ≤ x → 0 ≤ fl x := fun x hx => by
    have := hf.mono hx
    rwa [fl_zero hf] at this
  induction h with
  | @one x y z h =>
    intro hp
    have hxy : x = y := by simpa using hp (x, y) (by simp)
    subst hxy
    rcases h with rfl | rfl
    · exact pos _ (mul_self_nonneg _)
    · exact mul_self_nonneg _
  | add hx hy hz ih1 ih2 =>
    intro hp
    exact pos _ (add_nonneg (ih1 fun p h => hp p (hz.mem_iff.2 (List.mem_append_left _ h))) (ih2 fun p h => hp p (hz.mem_iff.2 (List.mem_append_right _ h))))

theorem vDotTo_self_nonneg (hf : Rounding ε fl) {u : Vec n ℝ} {z : ℝ} (h : VDotTo fl u u z) : 0 ≤ z := by
  refine dotTo_self_nonneg hf h fun p hp => ?_
  obtain ⟨i, rfl⟩ := (List.mem_ofFn' _ _).1 hp
  rfl

/-- The masked assignments give what the branches of the scalar function give. -/
theorem segsLinesFl_entry {tol : ℝ} (htol : 0 < tol) (a b c d e : Mat ℝ) (i j : Nat) :
    (segsLinesFl fl tol a b c d e).entry i j = s2sLines fl tol (a i j) (b i j) (c i j) (d i j) (e i j) := by
  simp only [segsLinesFl, FracMat.entry, setMask, s2sLines]
  by_cases h1 : fl (fl (a i j * c i j) - fl (b i j * b i j)) < tol
  · simp [h1]
  · have hn : ¬ fl (fl (a i j * c i j) - fl (b i j * b i j)) < 0 := by linarith [not_lt.1 h1]
    by_cases h2 : fl (fl (b i j * e i j) - fl (c i j * d i j)) < 0
    · simp only [h1, h2, decide_false, decide_true, Bool.not_false, Bool.and_true, Bool.and_false, if_true, Bool.false_eq_true, if_false, gt_iff_lt, hn]
    · by_cases h3 : fl (fl (a i j * c i j) - fl (b i j * b i j)) < fl (fl (b i j * e i j) - fl (c i j * d i j))
      · simp only [h1, h2, h3, decide_false, decide_true, Bool.not_false, Bool.and_true, Bool.and_false, if_true, Bool.false_eq_true, if_false, gt_iff_lt]
      · simp only [h1, h2, h3, decide_false, decide_true, Bool.not_false, Bool.and_true, Bool.and_false, if_true, Bool.false_eq_true, if_false, gt_iff_lt]

theorem segsClampFl_entry (a b d : Mat ℝ) (f : FracMat ℝ) (i j : Nat) (ha : 0 ≤ a i j) (htd : 0 ≤ f.td i j) :
    (segsClampFl fl a b d f).entry i j = s2sClamp fl (a i j) (b i j) (d i j) (f.entry i j) := by
  have hbd : b i j - d i j = -d i j + b i j := by ring
  simp only [segsClampFl, FracMat.entry, setMask, s2sClamp, hbd]
  have hcn : ¬ f.td i j < 0 := not_lt.2 htd
  by_cases h1 : f.tn i j < 0
  · by_cases h2 : -d i j < 0
    · have h3 : ¬ a i j < -d i j := by linarith
      simp only [h1, h2, h3, hcn, decide_false, decide_true, Bool.not_false, Bool.not_true, Bool.and_true, Bool.and_false, if_true, Bool.false_eq_true, if_false, gt_iff_lt]
    · by_cases h3 : a i j < -d i j
      · simp only [h1, h2, h3, hcn, decide_false, decide_true, Bool.not_false, Bool.not_true, Bool.and_true, Bool.and_false, if_true, Bool.false_eq_true, if_false, gt_iff_lt]
      · simp only [h1, h2, h3, hcn, decide_false, decide_true, Bool.not_false, Bool.not_true, Bool.and_true, Bool.and_false, if_true, Bool.false_eq_true, if_false, gt_iff_lt]
  · by_cases h4 : f.td i j < f.tn i j
    · by_cases h2 : fl (-d i j + b i j) < 0
      · have h3 : ¬ a i j < fl (-d i j + b i j) := by linarith
        simp only [h1, h2, h3, h4, decide_false, decide_true, Bool.not_false, Bool.not_true, Bool.and_true, Bool.and_false, if_true, Bool.false_eq_true, if_false, gt_iff_lt]
      · by_cases h3 : a i j < fl (-d i j + b i j)
        · simp only [h1, h2, h3, h4, decide_false, decide_true, Bool.not_false, Bool.not_true, Bool.and_true, Bool.and_false, if_true, Bool.false_eq_true, if_false, gt_iff_lt]
        · simp only [h1, h2, h3, h4, decide_false, decide_true, Bool.not_false, Bool.not_true, Bool.and_true, Bool.and_false, if_true, Bool.false_eq_true, if_false, gt_iff_lt]
    · simp only [h1, h4, decide_false, decide_true, Bool.not_false, Bool.and_true, Bool.and_false, if_true, Bool.false_eq_true, if_false, gt_iff_lt]

theorem segsFl_entry (hf : Rounding ε fl) {tol : ℝ} (htol : 0 < tol) (a b c d e : Mat ℝ) (i j : Nat) (ha : 0 ≤ a i j) (hc : 0 ≤ c i j) :
    let f := segsClampFl fl a b d (segsLinesFl fl tol a b c d e)
    (segsParam fl tol f.sn f.sd i j, segsParam fl tol f.tn f.td i j) = s2sCore fl tol (a i j) (b i j) (c i j) (d i j) (e i j) := by
  intro f
  have hl := segsLinesFl_entry (fl := fl) htol a b c d e i j
  have hcl := segsClampFl_entry (fl := fl) a b d (segsLinesFl fl tol a b c d e) i j ha (by
    have := congrArg Fracs.td hl
    simp only [FracMat.entry] at this
    rw [this]
    unfold s2sLines
    simp only
    split_ifs with q1
    · exact hc
    · exact hc
    · exact hc
    · exact htol.le.trans (not_lt.1 q1))
  rw [hl] at hcl
  simp only [segsParam_entry, s2sCore]
  rw [← hcl]
  rfl

/-- Entry (i, j) of the arrays computed for all pairs is a result of the scalar function for the two segments. -/
theorem pairs_entry (hf : Rounding ε fl) {tol : ℝ} (htol : 0 < tol) {data1 data2 : List (Vec n ℝ)} {res : PairsResult n ℝ} (h : PairsTo fl tol data1 data2 res)
    {i j : Nat} (hi : i < res.m1) (hj : j < res.m2) :
    let s : Seg n ℝ := ⟨Model.rowAt data1 i, Model.rowAt data1 (i + 1)⟩
    let r : Seg n ℝ := ⟨Model.rowAt data2 j, Model.rowAt data2 (j + 1)⟩
    ToSegTo fl s r tol (res.t1 i j, res.t2 i j) ∧ res.p1 i j = segPointFl fl s (res.t1 i j) ∧ res.p2 i j = segPointFl fl r (res.t2 i j) := by
  intro s r
  obtain ⟨-, -, a, c, b, d, e, ha, hc, hb, h1, h2, h3, h4⟩ := h
  have A := ha i hi
  have C := hc j hj
  obtain ⟨B, D, E⟩ := hb i j hi hj
  refine ⟨⟨a i, b i j, c j, d i j, e i j, A, B, C, D, E, ?_⟩, ?_, ?_⟩
  · rw [h1, h2]
    exact segsFl_entry hf htol (fun i _ => a i) b (fun _ j => c j) d e i j (vDotTo_self_nonneg hf A) (vDotTo_self_nonneg hf C)
  · rw [h3]
    funext k
    simp only [segPointFl, pointFl, s, subFl, mul_comm]
  · rw [h4]
    funext k
    simp only [segPointFl, pointFl, r, subFl, mul_comm]

theorem gap_ofFn (p q : Vec n ℝ) : gap n (List.ofFn p) (List.ofFn q) = Model.edist p q := by
  unfold gap pt Model.edist
  rw [EuclideanSpace.dist_eq]
  congr 1
  refine Finset.sum_congr rfl fun i _ => ?_
  simp [Real.dist_eq, sq_abs]

theorem edist_swap (p q : Vec n ℝ) : Model.edist p q = Model.edist q p := by
  unfold Model.edist
  congr 1
  exact Finset.sum_congr rfl fun i _ => by ring

theorem rowAt_get (xs : List (Vec n ℝ)) (i : Nat) (h : i < xs.length) : Model.rowAt xs i = xs[i] := by
  simp [Model.rowAt, List.getD_eq_getElem?_getD, h]

/-- **C157 (pairs).** In floating point, too, the vectorised computation for two curves gives for every pair of segments a result that the method may give for these two segments alone (`AlmostTo`); the list contains the pairs with
an intersection, once each, in row-major order, for one curve with itself those with `j ≥ i + 2`. -/
theorem C157_pairs (hf : Rounding ε fl) (hn : 0 < n) (hε : 2 * ((n + 4 : ℕ) * ε) ≤ 1) {distTol : ℝ} {c1 c2 : GCurve n ℝ} {xs : List (SegInt n ℝ)} (h : AlmostCurvesTo fl distTol c1 c2 xs) :
    ∃ (x : Nat → Nat → Info n ℝ) (idx : List (Nat × Nat)),
      (∀ i j (hi : i + 1 < c1.data.length) (hj : j + 1 < c2.data.length), AlmostTo fl (2 * (n + 4 : ℕ) * ε) distTol ⟨c1.data[i], c1.data[i + 1]⟩ ⟨c2.data[j], c2.data[j + 1]⟩ (x i j)) ∧
      idx.Pairwise Before ∧
      (∀ i j, (i, j) ∈ idx ↔ i + 1 < c1.data.length ∧ j + 1 < c2.data.length ∧ (c1.cid = c2.cid → i + 2 ≤ j) ∧ x i j ≠ notIntersected) ∧
      xs = idx.map fun q => ⟨c1.segment q.1, c2.segment q.2, x q.1 q.2⟩ := by
  obtain ⟨res, z, hp, hz, rfl⟩ := h
  have m1 := hp.1
  have m2 := hp.2.1
  classical
  refine ⟨fun i j => if z i j < distTol then ⟨.segment ⟨res.p1 i j, res.p2 i j⟩, .almost⟩ else notIntersected,
    curvesIndices res.m1 res.m2 (fun i j => decide (z i j < distTol)) (decide (c1.cid = c2.cid)), ?_, curvesIndices_before _ _ _ _, ?_, ?_⟩
  · intro i j hi hj
    have hi' : i < res.m1 := by omega
    have hj' : j < res.m2 := by omega
    obtain ⟨e1, e2, e3⟩ := pairs_entry hf f_eps_pos hp hi' hj'
    simp only [rowAt_get _ _ hi, rowAt_get _ _ hj, rowAt_get _ _ (Nat.lt_of_succ_lt hi), rowAt_get _ _ (Nat.lt_of_succ_lt hj)] at e1 e2 e3
    refine ⟨⟨res.p1 i j, res.p2 i j⟩, z i j, ⟨_, e1, ?_⟩, ?_, fun h => if_pos h, fun h => if_neg h⟩
    · rw [e2, e3]
    · have := (C119_chord hf hn hε (List.length_ofFn) (List.length_ofFn) (hz i j hi' hj')).1
      rw [gap_ofFn, edist_swap] at this
      exact this
  · intro i j
    rw [mem_curvesIndices]
    simp only [decide_eq_true_eq]
    have : (if z i j < distTol then (⟨.segment ⟨res.p1 i j, res.p2 i j⟩, .almost⟩ : Info n ℝ) else notIntersected) ≠ notIntersected ↔ z i j < distTol := by
      by_cases h : z i j < distTol
      · simp [h, notIntersected]
      · simp [h]
    rw [this, m1, m2]
    constructor
    · rintro ⟨a, b, c, d⟩; exact ⟨by omega, by omega, d, c⟩
    · rintro ⟨a, b, c, d⟩; exact ⟨by omega, by omega, d, c⟩
  · apply List.map_congr_left
    rintro ⟨i, j⟩ hq
    rw [mem_curvesIndices] at hq
    have := hq.2.2.1
    simp only [decide_eq_true_eq] at this
    simp only [if_pos this]

/-- **C157 (sound).** Every reported pair are segments `i` and `j` of the curves (`j ≥ i + 2` for one curve with itself); the reported connecting segment ends within `11 ε M` of points `P` and `Q` of the two segments, whose distance is below
`dist_tol` up to rounding. -/
theorem C157_sound (hf : Rounding ε fl) (h1 : fl 1 = 1) (hn : 0 < n) (hε : 1000 * ((n + 4 : ℕ) * ε) ≤ 1) {distTol : ℝ} {c1 c2 : GCurve n ℝ} (hc1 : ∀ p ∈ c1.data, vnorm p ≤ M) (hc2 : ∀ p ∈ c2.data, vnorm p ≤ M)
    {xs : List (SegInt n ℝ)} (h : AlmostCurvesTo fl distTol c1 c2 xs) {y : SegInt n ℝ} (hy : y ∈ xs) :
    ∃ (i j : Nat) (hi : i + 1 < c1.data.length) (hj : j + 1 < c2.data.length) (q : Seg n ℝ) (P Q : Vec n ℝ),
      y = ⟨c1.segment i, c2.segment j, ⟨.segment q, .almost⟩⟩ ∧ (c1.cid = c2.cid → i + 2 ≤ j) ∧ Between c1.data[i] c1.data[i + 1] P ∧ Between c2.data[j] c2.data[j + 1] Q ∧
      Model.edist q.p1 P ≤ 11 * ε * M ∧ Model.edist q.p2 Q ≤ 11 * ε * M ∧
      (1 - 2 * (n + 4 : ℕ) * ε) * Model.edist P Q < distTol + (1 + 2 * (n + 4 : ℕ) * ε) * (22 * ε * M) := by
  have e0 := hf.nonneg
  have n4 : (4 : ℝ) ≤ (n + 4 : ℕ) := by push_cast; linarith [(Nat.cast_nonneg n : (0 : ℝ) ≤ n)]
  have hε' : ε ≤ 1 / 1000 := by nlinarith
  obtain ⟨x, idx, ha, -, hm, rfl⟩ := C157_pairs hf hn (by nlinarith) h
  obtain ⟨⟨i, j⟩, hq, rfl⟩ := List.mem_map.1 hy
  obtain ⟨hi, hj, hij, hne⟩ := (hm i j).1 hq
  have hA := ha i j hi hj
  obtain ⟨q, z, hs, hl, hx1, hx2⟩ := hA
  have hlt : z < distTol := by
    by_contra hc
    exact hne (hx2 hc)
  obtain ⟨P, Q, hP, hQ, n1, n2, hd⟩ := C156_sound hf h1 hε' (by positivity) (hc1 _ (List.getElem_mem _)) (hc1 _ (List.getElem_mem _)) (hc2 _ (List.getElem_mem _)) (hc2 _ (List.getElem_mem _)) hs hl
  refine ⟨i, j, hi, hj, q, P, Q, ?_, hij, hP, hQ, n1, n2, ?_⟩
  · simp only [hx1 hlt]
  · have := (abs_le.1 hd).1
    linarith

/-- **C157 (complete, partial).** Two segments of the curves (`j ≥ i + 2` for one curve with itself) which come closer than `dist_tol` by more than the error bound of C156 are reported. Missing: nearly parallel segments, `C157_parallel_fails`. -/
theorem C157_complete_partial (hf : Rounding ε fl) (h1 : fl 1 = 1) (hn : 0 < n) (hε : 100 * ((n + 4 : ℕ) * ε) ≤ 1) (hν : 2 * (n + 2 : ℕ) * ε ≤ ν) (hν1 : ν ≤ 1 / 1000) (L0 : 0 < L) {distTol : ℝ} {c1 c2 : GCurve n ℝ}
    (hc1 : ∀ p ∈ c1.data, vnorm p ≤ M) (hc2 : ∀ p ∈ c2.data, vnorm p ≤ M) {xs : List (SegInt n ℝ)} (h : AlmostCurvesTo fl distTol c1 c2 xs)
    {i j : Nat} (hi : i + 1 < c1.data.length) (hj : j + 1 < c2.data.length) (hij : c1.cid = c2.cid → i + 2 ≤ j)
    (hs : Model.edist c1.data[i] c1.data[i + 1] ≤ L) (hr : Model.edist c2.data[j] c2.data[j + 1] ≤ L) (hw : Model.edist c1.data[i] c2.data[j] ≤ L) (t2 : F_EPS ≤ ν * L ^ 2) (t4 : F_EPS ≤ ν * L ^ 4)
    (k0 : 0 < k) (hk : L ^ 4 ≤ k * gram (c1.data[i + 1] - c1.data[i]) (c2.data[j + 1] - c2.data[j])) (hνk : 20 * ν * k ≤ 1)
    {P Q : Vec n ℝ} (hP : Between c1.data[i] c1.data[i + 1] P) (hQ : Between c2.data[j] c2.data[j + 1] Q)
    (hlt : (1 + 2 * (n + 4 : ℕ) * ε) * (Model.edist P Q + 100 * ν * k * √ k * L + 22 * ε * M) < distTol) :
    ∃ q : Seg n ℝ, ⟨c1.segment i, c2.segment j, ⟨.segment q, .almost⟩⟩ ∈ xs := by
  have e0 := hf.nonneg
  have e4 : 100 * ((n + 2 : ℕ) * ε) ≤ 1 := by
    have : ((n + 4 : ℕ) : ℝ) = (n + 2 : ℕ) + 2 := by push_cast; ring
    rw [this] at hε
    linarith [add_mul ((n + 2 : ℕ) : ℝ) 2 ε]
  obtain ⟨x, idx, ha, -, hm, rfl⟩ := C157_pairs hf hn (by linarith) h
  have a1 : vnorm c1.data[i] ≤ M := hc1 _ (List.getElem_mem _)
  have a2 : vnorm c1.data[i + 1] ≤ M := hc1 _ (List.getElem_mem _)
  have b1 : vnorm c2.data[j] ≤ M := hc2 _ (List.getElem_mem _)
  have b2 : vnorm c2.data[j + 1] ≤ M := hc2 _ (List.getElem_mem _)
  have hA := ha i j hi hj
  have eta0 : 0 ≤ 2 * (n + 4 : ℕ) * ε := by positivity
  have eta1 : 2 * (n + 4 : ℕ) * ε < 1 := by linarith
  obtain ⟨q, hq⟩ := (C156_almost_partial (s := ⟨c1.data[i], c1.data[i + 1]⟩) (r := ⟨c2.data[j], c2.data[j + 1]⟩) hf h1 e4 eta0 eta1 hν hν1 L0 hs hr hw t2 t4 k0 hk hνk a1 a2 b1 b2 hA).1 ⟨P, Q, hP, hQ, hlt⟩
  refine ⟨q, List.mem_map.2 ⟨(i, j), (hm i j).2 ⟨hi, hj, hij, ?_⟩, ?_⟩⟩
  · rw [hq]; simp [notIntersected]
  · simp only [hq]

/-- There always is a result. -/
theorem almostCurves_exists (fl : ℝ → ℝ) (hn : 0 < n) (distTol : ℝ) (c1 c2 : GCurve n ℝ) : ∃ xs, AlmostCurvesTo fl distTol c1 c2 xs := by
  choose D hD using fun u v : Vec n ℝ => vDotTo_exists fl hn u v
  have chord : ∀ a b : List ℝ, ∃ z, ChordTo fl a b z := by
    intro a b
    obtain ⟨s, hs⟩ := sumsTo_exists fl ((a.zip b).map fun p => fl (fl (p.2 - p.1) * fl (p.2 - p.1)))
    refine ⟨_, _, s, ?_, hs, rfl⟩
    rw [List.forall₂_map_right_iff, List.forall₂_same]
    exact fun p _ => .inl rfl
  choose Z hZ using chord
  let u : Nat → Vec n ℝ := fun i => subFl fl (Model.rowAt c1.data (i + 1)) (Model.rowAt c1.data i)
  let v : Nat → Vec n ℝ := fun j => subFl fl (Model.rowAt c2.data (j + 1)) (Model.rowAt c2.data j)
  let w : Mat (Vec n ℝ) := fun i j => subFl fl (Model.rowAt c1.data i) (Model.rowAt c2.data j)
  let f := segsClampFl fl (fun i _ => D (u i) (u i)) (fun i j => D (u i) (v j)) (fun i j => D (u i) (w i j))
    (segsLinesFl fl F_EPS (fun i _ => D (u i) (u i)) (fun i j => D (u i) (v j)) (fun _ j => D (v j) (v j)) (fun i j => D (u i) (w i j)) (fun i j => D (v j) (w i j)))
  let t1 := segsParam fl F_EPS f.sn f.sd
  let t2 := segsParam fl F_EPS f.tn f.td
  let res : PairsResult n ℝ := ⟨c1.data.length - 1, c2.data.length - 1, t1, t2, fun i j k => fl (Model.rowAt c1.data i k + fl (t1 i j * u i k)), fun i j k => fl (Model.rowAt c2.data j k + fl (t2 i j * v j k))⟩
  exact ⟨_, res, fun i j => Z (List.ofFn (res.p2 i j)) (List.ofFn (res.p1 i j)),
    ⟨rfl, rfl, fun i => D (u i) (u i), fun j => D (v j) (v j), _, _, _, fun i _ => hD _ _, fun j _ => hD _ _, fun i j _ _ => ⟨hD _ _, hD _ _, hD _ _⟩, rfl, rfl, rfl, rfl⟩, fun i j _ _ => hZ _ _, rfl⟩

/-- **C157 (exact arithmetic).** Without rounding this is the method of the exact model. -/
theorem C157_exact (hn : 0 < n) (p : AlmostParams) (comps : Nat → (Nat → Nat → Bool) → List (List Nat)) (fresh : Nat) (int : Bool) {c1 c2 : GCurve n ℝ} (hi : (c1.int && c2.int) = false)
    (hr : p.removeExtra = false) (hco : p.correctOverlap = false) {xs : List (SegInt n ℝ)} (h : AlmostCurvesTo id p.distTol c1 c2 xs) :
    almostCall p comps fresh int (.curve c1) (.curve c2) = .ok (.list xs) := by
  have hid : Rounding 0 id := ⟨le_rfl, by norm_num, by intro x; simp, monotone_id, fun _ => rfl, fun _ => rfl⟩
  obtain ⟨x, idx, ha, hb, hm, rfl⟩ := C157_pairs hid hn (by simp) h
  obtain ⟨idx', e, hb', hm', -⟩ := C43_pairs_partial p comps fresh int c1 c2 hi hr hco
  have info : ∀ i j, i + 1 < c1.data.length → j + 1 < c2.data.length →
      x i j = if (c1.segment i).seg.distance (.seg (c2.segment j).seg) < p.distTol then ⟨.segment ((c1.segment i).seg.shortest (.seg (c2.segment j).seg)), .almost⟩ else notIntersected := by
    intro i j hi hj
    have hA := ha i j hi hj
    rw [mul_zero] at hA
    obtain ⟨q, z, hq, hz, h1, h2⟩ := hA
    rw [segment_eq c1 i hi, segment_eq c2 j hj]
    simp only
    have e1 := (C156_exact (⟨c1.data[i], c1.data[i + 1]⟩ : Seg n ℝ) ⟨c2.data[j], c2.data[j + 1]⟩).2.2.1 q z hq hz
    have e2 := (C156_exact (⟨c1.data[i], c1.data[i + 1]⟩ : Seg n ℝ) ⟨c2.data[j], c2.data[j + 1]⟩).2.1 q hq
    rw [← e1, ← e2]
    by_cases hlt : z < p.distTol
    · rw [if_pos hlt, h1 hlt]
    · rw [if_neg hlt, h2 hlt]
  have mem : ∀ q, q ∈ idx ↔ q ∈ idx' := by
    rintro ⟨i, j⟩
    rw [hm, hm']
    constructor
    · rintro ⟨a, b, c, d⟩
      rw [info i j a b] at d
      refine ⟨a, b, c, ?_⟩
      by_contra hlt
      rw [if_neg hlt] at d
      exact d rfl
    · rintro ⟨a, b, c, d⟩
      refine ⟨a, b, c, ?_⟩
      rw [info i j a b, if_pos d]
      simp [notIntersected]
  have hidx : idx = idx' := (before_sublist hb hb' fun q hq => (mem q).1 hq).antisymm (before_sublist hb' hb fun q hq => (mem q).2 hq)
  subst hidx
  rw [e]
  congr 2
  apply List.map_congr_left
  rintro ⟨i, j⟩ hq
  obtain ⟨a, b, c, d⟩ := (hm' i j).1 hq
  simp only [info i j a b, if_pos d]

end

/-- **C157 (binary64).** With 53 binary digits and the default `dist_tol = 1e-5`, in up to ten dimensions, for curves within `10⁶` of the origin: a reported pair comes closer than `1.01e-5`; a pair of segments under the conditions of `C156_usual`
that comes closer than `0.99e-5` is reported. -/
theorem C157_usual {n : Nat} (hn : 0 < n) (hn1 : n ≤ 10) {c1 c2 : GCurve n ℝ} (hc1 : ∀ p ∈ c1.data, vnorm p ≤ 10 ^ 6) (hc2 : ∀ p ∈ c2.data, vnorm p ≤ 10 ^ 6) {xs : List (SegInt n ℝ)}
    (h : AlmostCurvesTo rnd (1 / 10 ^ 5) c1 c2 xs) :
    (∀ y ∈ xs, ∃ (i j : Nat) (hi : i + 1 < c1.data.length) (hj : j + 1 < c2.data.length) (q : Seg n ℝ) (P Q : Vec n ℝ), y = ⟨c1.segment i, c2.segment j, ⟨.segment q, .almost⟩⟩ ∧ (c1.cid = c2.cid → i + 2 ≤ j) ∧
      Between c1.data[i] c1.data[i + 1] P ∧ Between c2.data[j] c2.data[j + 1] Q ∧ Model.edist P Q < 1.01 / 10 ^ 5) ∧
    ∀ (i j : Nat) (hi : i + 1 < c1.data.length) (hj : j + 1 < c2.data.length) (L : ℝ) (P Q : Vec n ℝ), (c1.cid = c2.cid → i + 2 ≤ j) → 1 ≤ L → L ≤ 100 →
      Model.edist c1.data[i] c1.data[i + 1] ≤ L → Model.edist c2.data[j] c2.data[j + 1] ≤ L → Model.edist c1.data[i] c2.data[j] ≤ L →
      L ^ 4 ≤ 100 * gram (c1.data[i + 1] - c1.data[i]) (c2.data[j + 1] - c2.data[j]) → Between c1.data[i] c1.data[i + 1] P → Between c2.data[j] c2.data[j + 1] Q → Model.edist P Q < 0.99 / 10 ^ 5 →
      ∃ q : Seg n ℝ, ⟨c1.segment i, c2.segment j, ⟨.segment q, .almost⟩⟩ ∈ xs := by
  have n4 : ((n + 4 : ℕ) : ℝ) ≤ 14 := by exact_mod_cast Nat.add_le_add_right hn1 4
  have r1 : rnd 1 = 1 := by simpa using rnd_rep 1 0 (by norm_num)
  have m : ((n + 4 : ℕ) : ℝ) * 2⁻¹ ^ 53 ≤ 14 * 2⁻¹ ^ 53 := mul_le_mul_of_nonneg_right n4 (by positivity)
  have eta : 2 * ((n + 4 : ℕ) : ℝ) * 2⁻¹ ^ 53 ≤ 1 / 10 ^ 9 := by norm_num at m ⊢; linarith
  have eta0 : 0 ≤ 2 * ((n + 4 : ℕ) : ℝ) * 2⁻¹ ^ 53 := by positivity
  constructor
  · intro y hy
    obtain ⟨i, j, hi, hj, q, P, Q, e, hij, hP, hQ, -, -, hd⟩ := C157_sound rnd_rounding r1 hn (by norm_num at m ⊢; linarith) hc1 hc2 h hy
    refine ⟨i, j, hi, hj, q, P, Q, e, hij, hP, hQ, ?_⟩
    by_contra hc
    have h2 := mul_le_mul_of_nonneg_left (not_lt.1 hc) (show 0 ≤ 1 - 2 * ((n + 4 : ℕ) : ℝ) * 2⁻¹ ^ 53 by linarith)
    generalize 2 * ((n + 4 : ℕ) : ℝ) * 2⁻¹ ^ 53 = η at *
    norm_num at h2 hd eta
    linarith
  · intro i j hi hj L P Q hij L1 L2 hs hr hw hk hP hQ hlt
    obtain ⟨x, idx, ha, -, hm, rfl⟩ := C157_pairs rnd_rounding hn (by norm_num at m ⊢; linarith) h
    have a1 : vnorm c1.data[i] ≤ 10 ^ 6 := hc1 _ (List.getElem_mem _)
    have a2 : vnorm c1.data[i + 1] ≤ 10 ^ 6 := hc1 _ (List.getElem_mem _)
    have b1 : vnorm c2.data[j] ≤ 10 ^ 6 := hc2 _ (List.getElem_mem _)
    have b2 : vnorm c2.data[j + 1] ≤ 10 ^ 6 := hc2 _ (List.getElem_mem _)
    have hA := ha i j hi hj
    generalize 2 * ((n + 4 : ℕ) : ℝ) * 2⁻¹ ^ 53 = η at eta eta0 hA
    obtain ⟨q, hq⟩ := (C156_usual (s := ⟨c1.data[i], c1.data[i + 1]⟩) (r := ⟨c2.data[j], c2.data[j + 1]⟩) hn1 eta0 eta L1 L2 hs hr hw hk a1 a2 b1 b2 hA).1 ⟨P, Q, hP, hQ, hlt⟩
    refine ⟨q, List.mem_map.2 ⟨(i, j), (hm i j).2 ⟨hi, hj, hij, ?_⟩, ?_⟩⟩
    · rw [hq]; simp [notIntersected]
    · simp only [hq]

/-- **C157, violated for nearly parallel segments.** The curves from (0, 0) and from (4044, 4825) to the common last point (8699, 10379): in binary64 no almost intersection is reported. -/
theorem C157_parallel_fails : (∃ xs, AlmostCurvesTo rnd (1 / 10 ^ 5) (⟨0, false, [endA.p1, endA.p2]⟩ : GCurve 2 ℝ) ⟨1, false, [endB.p1, endB.p2]⟩ xs) ∧
    ∀ xs, AlmostCurvesTo rnd (1 / 10 ^ 5) (⟨0, false, [endA.p1, endA.p2]⟩ : GCurve 2 ℝ) ⟨1, false, [endB.p1, endB.p2]⟩ xs → xs = [] := by
  refine ⟨almostCurves_exists rnd (by norm_num) _ _ _, fun xs h => ?_⟩
  obtain ⟨x, idx, ha, -, hm, rfl⟩ := C157_pairs rnd_rounding (by norm_num) (by norm_num) h
  rw [List.map_eq_nil_iff]
  refine List.eq_nil_iff_forall_not_mem.2 ?_
  rintro ⟨i, j⟩ hq
  obtain ⟨hi, hj, -, hne⟩ := (hm i j).1 hq
  obtain rfl : i = 0 := by simp only [List.length_cons, List.length_nil] at hi; omega
  obtain rfl : j = 0 := by simp only [List.length_cons, List.length_nil] at hj; omega
  have hA := ha 0 0 hi hj
  have e0 : (0 : ℝ) ≤ 2 * ((2 + 4 : ℕ) : ℝ) * 2⁻¹ ^ 53 := by positivity
  have e1 : 2 * ((2 + 4 : ℕ) : ℝ) * 2⁻¹ ^ 53 ≤ 1 / 100 := by norm_num
  simp only [List.getElem_cons_zero, List.getElem_cons_succ] at hA
  generalize 2 * ((2 + 4 : ℕ) : ℝ) * 2⁻¹ ^ 53 = η at *
  exact hne (C156_parallel_fails.2.2.2 η _ e0 e1 hA)

/-- The two skew segments as curves: the almost intersection is reported in binary64. -/
example : ∃ xs, AlmostCurvesTo rnd (1 / 10 ^ 5) (⟨0, false, [skewA.p1, skewA.p2]⟩ : GCurve 3 ℝ) ⟨1, false, [skewB.p1, skewB.p2]⟩ xs ∧ xs.length = 1 := by
  obtain ⟨xs, h⟩ := almostCurves_exists rnd (n := 3) (by norm_num) (1 / 10 ^ 5) (⟨0, false, [skewA.p1, skewA.p2]⟩ : GCurve 3 ℝ) ⟨1, false, [skewB.p1, skewB.p2]⟩
  refine ⟨xs, h, ?_⟩
  obtain ⟨x, idx, ha, hb, hm, rfl⟩ := C157_pairs rnd_rounding (by norm_num) (by norm_num) h
  have hA := ha 0 0 (by simp) (by simp)
  have e0 : (0 : ℝ) ≤ 2 * ((3 + 4 : ℕ) : ℝ) * 2⁻¹ ^ 53 := by positivity
  have e1 : 2 * ((3 + 4 : ℕ) : ℝ) * 2⁻¹ ^ 53 ≤ 1 / 10 ^ 9 := by norm_num
  simp only [List.getElem_cons_zero, List.getElem_cons_succ] at hA
  generalize 2 * ((3 + 4 : ℕ) : ℝ) * 2⁻¹ ^ 53 = η at *
  obtain ⟨q, hq⟩ := skew_almost e0 e1 hA
  have h0 : (0, 0) ∈ idx := (hm 0 0).2 ⟨by simp, by simp, by simp, by rw [hq]; simp [notIntersected]⟩
  have hidx : idx = [(0, 0)] := by
    refine (before_sublist hb (by simp) fun p hp => ?_).antisymm (by simpa using h0)
    obtain ⟨a, b, -⟩ := (hm p.1 p.2).1 hp
    simp only [List.length_cons, List.length_nil] at a b
    simp only [List.mem_singleton]
    ext <;> simp <;> omega
  rw [hidx]
  rfl

/-! ## Concrete cases -/

theorem skew_points : (∀ p ∈ (⟨0, false, [skewA.p1, skewA.p2]⟩ : GCurve 3 ℝ).data, vnorm p ≤ 2) ∧ ∀ p ∈ (⟨1, false, [skewB.p1, skewB.p2]⟩ : GCurve 3 ℝ).data, vnorm p ≤ 2 := by
  simpa using ⟨⟨skew_bounds.2.1, skew_bounds.2.2.1⟩, skew_bounds.2.2.2.1, skew_bounds.2.2.2.2⟩

example {xs : List (SegInt 3 ℝ)} (h : AlmostCurvesTo rnd (1 / 10 ^ 5) (⟨0, false, [skewA.p1, skewA.p2]⟩ : GCurve 3 ℝ) ⟨1, false, [skewB.p1, skewB.p2]⟩ xs) :=
  C157_usual (by norm_num) (by norm_num) (fun p hp => (skew_points.1 p hp).trans (by norm_num)) (fun p hp => (skew_points.2 p hp).trans (by norm_num)) h
example {xs : List (SegInt 3 ℝ)} (h : AlmostCurvesTo rnd (1 / 10 ^ 5) (⟨0, false, [skewA.p1, skewA.p2]⟩ : GCurve 3 ℝ) ⟨1, false, [skewB.p1, skewB.p2]⟩ xs) {y : SegInt 3 ℝ} (hy : y ∈ xs) :=
  C157_sound rnd_rounding (by simpa using rnd_rep 1 0 (by norm_num)) (by norm_num) (by norm_num) skew_points.1 skew_points.2 h hy
example {xs : List (SegInt 3 ℝ)} (h : AlmostCurvesTo rnd (1 / 10 ^ 5) (⟨0, false, [skewA.p1, skewA.p2]⟩ : GCurve 3 ℝ) ⟨1, false, [skewB.p1, skewB.p2]⟩ xs) {P Q : Vec 3 ℝ} (hP : Between skewA.p1 skewA.p2 P) (hQ : Between skewB.p1 skewB.p2 Q) :=
  C157_complete_partial (ν := 1 / 10 ^ 12) (k := 1) (i := 0) (j := 0) rnd_rounding (by simpa using rnd_rep 1 0 (by norm_num)) (by norm_num) (by norm_num) (by norm_num) (by norm_num) one_pos skew_points.1 skew_points.2 h
    (by simp) (by simp) (by simp) skew_bounds.1.1 skew_bounds.1.2.1 skew_bounds.1.2.2.1 (by norm_num [F_EPS]) (by norm_num [F_EPS]) one_pos (by rw [one_mul, one_pow]; exact skew_bounds.1.2.2.2) (by norm_num) hP hQ
example (comps : Nat → (Nat → Nat → Bool) → List (List Nat)) {xs : List (SegInt 3 ℝ)} (h : AlmostCurvesTo id (1 / 10 ^ 5) (⟨0, false, [skewA.p1, skewA.p2]⟩ : GCurve 3 ℝ) ⟨1, false, [skewB.p1, skewB.p2]⟩ xs) :=
  C157_exact (by norm_num) ⟨1 / 10 ^ 5, false, 1, false, 1⟩ comps 2 false rfl rfl rfl h

end Verif.Props
