import Verif.Props.Distance
import Verif.Spec.Metric
import Mathlib.Analysis.MeanInequalities
import Mathlib.Geometry.Euclidean.Angle.Unoriented.Basic

/-!
The other named distances: C127.
-/
namespace Verif.Props

open Verif Verif.Np Verif.Model Verif.Spec

/-! ## Lists of coordinates -/

theorem getD_zipWith_lt {f : ℝ → ℝ → ℝ} {u v : List ℝ} {i : Nat} (h1 : i < u.length) (h2 : i < v.length) :
    (List.zipWith f u v).getD i 0 = f (u.getD i 0) (v.getD i 0) := by
  simp [List.getD_eq_getElem?_getD, List.getElem?_zipWith, h1, h2]

theorem getD_map_lt {f : ℝ → ℝ} {u : List ℝ} {i : Nat} (h1 : i < u.length) : (u.map f).getD i 0 = f (u.getD i 0) := by
  simp [List.getD_eq_getElem?_getD, h1]

theorem sum_getD {n : Nat} {l : List ℝ} (h : l.length = n) : l.sum = ∑ i : Fin n, l.getD i 0 := by
  subst h
  rw [← List.sum_ofFn]
  congr 1
  refine List.ext_getElem (by simp) fun i h1 h2 => ?_
  simp [h1]

/-- What the weights become. -/
def WOpt (n : Nat) (o : Option (List ℝ)) (w : Nat → ℝ) : Prop :=
  (o = none ∧ ∀ i, w i = 1) ∨ (∃ l : List ℝ, o = some l ∧ l.length = n ∧ ∀ i < n, w i = l.getD i 0) ∨ ∃ x : ℝ, o = some [x] ∧ ∀ i, w i = x

theorem weightsOf_eq {n : Nat} (hn : 1 ≤ n) {kw : Kw} {w : Nat → ℝ} (h : WeightsAre n kw w) (hw : ∀ i < n, 0 ≤ w i) :
    ∃ o, weightsOf kw = .ok o ∧ WOpt n o w := by
  rcases h with ⟨h | h, h1⟩ | ⟨l, h, hl, h1⟩ | ⟨x, h, h1⟩
  · exact ⟨none, by simp [weightsOf, h], .inl ⟨rfl, h1⟩⟩
  · exact ⟨none, by simp [weightsOf, h], .inl ⟨rfl, h1⟩⟩
  · refine ⟨some l, ?_, .inr (.inl ⟨l, rfl, hl, h1⟩)⟩
    have : (l.any fun x => decide (x < 0)) = false := by
      rw [List.any_eq_false]
      intro x hx
      obtain ⟨i, hi, rfl⟩ := List.mem_iff_getElem.1 hx
      have := hw i (by omega)
      rw [h1 i (by omega)] at this
      simpa [hi] using this
    simp [weightsOf, h, KwVal.asWeights, KwVal.asVec, bind, Except.bind, this, Except.map]
  · refine ⟨some [x], ?_, .inr (.inr ⟨x, rfl, h1⟩)⟩
    have : ¬ x < 0 := by
      have := hw 0 (by omega)
      rw [h1] at this
      exact not_lt.2 this
    simp [weightsOf, h, KwVal.asWeights, KwVal.asVec, bind, Except.bind, this, Except.map]

theorem weighted_eq {n : Nat} {o : Option (List ℝ)} {w : Nat → ℝ} (h : WOpt n o w) {d : List ℝ} (hd : d.length = n) :
    ∃ r, weighted o d = .ok r ∧ r.length = n ∧ ∀ i < n, r.getD i 0 = w i * d.getD i 0 := by
  rcases h with ⟨rfl, h1⟩ | ⟨l, rfl, hl, h1⟩ | ⟨x, rfl, h1⟩
  · exact ⟨d, rfl, hd, fun i hi => by rw [h1, one_mul]⟩
  · refine ⟨List.zipWith (· * ·) l d, bcast2_eq _ (hl.trans hd.symm), by simp [hl, hd], fun i hi => ?_⟩
    rw [getD_zipWith_lt (by omega) (by omega), h1 i hi]
  · refine ⟨d.map (x * ·), ?_, by simp [hd], fun i hi => ?_⟩
    · show bcast2 _ [x] d = _
      unfold bcast2
      split_ifs with h
      · rcases d with _ | ⟨y, _ | ⟨z, d⟩⟩
        · simp at h
        · rfl
        · simp at h
      · rfl
    · rw [getD_map_lt (by omega), h1]

theorem WOpt.map {n : Nat} {o : Option (List ℝ)} {w : Nat → ℝ} (h : WOpt n o w) {f : ℝ → ℝ} (hf : f 1 = 1) :
    WOpt n (o.map fun l => l.map f) fun i => f (w i) := by
  rcases h with ⟨rfl, h1⟩ | ⟨l, rfl, hl, h1⟩ | ⟨x, rfl, h1⟩
  · exact .inl ⟨rfl, fun i => by simp only [h1, hf]⟩
  · exact .inr (.inl ⟨_, rfl, by simp [hl], fun i hi => by rw [getD_map_lt (by omega), ← h1 i hi]⟩)
  · exact .inr (.inr ⟨f x, rfl, fun i => by simp only [h1]⟩)

theorem bindKw_ok {kw : Kw} {names required : List String} (h : NamesIn kw names) (hr : ∀ r ∈ required, (kw.lookup r).isSome) :
    bindKw kw names required = .ok () := by
  unfold bindKw
  rw [if_pos]
  refine ⟨?_, ?_⟩
  · rw [List.all_eq_true]
    intro a ha
    simpa using h a ha
  · rw [List.all_eq_true]
    intro r hr'
    have := hr r hr'
    rw [Option.isSome_iff_ne_none, Ne, List.lookup_eq_none_iff] at this
    push Not at this
    obtain ⟨x, hx, he⟩ := this
    have he' : r = x.1 := by simpa using he
    simp only [List.contains_iff_mem, List.mem_map]
    exact ⟨x, hx, he'.symm⟩

theorem sub_lists {n : Nat} {p q : Point ℝ} (hp : p.data.length = n) (hq : q.data.length = n) :
    ∃ d, bcast2 (· - ·) p.data q.data = .ok d ∧ d.length = n ∧ ∀ i < n, d.getD i 0 = diffAt p q i :=
  ⟨_, bcast2_eq _ (hp.trans hq.symm), by simp [hp, hq], fun i hi => by rw [getD_zipWith_lt (by omega) (by omega)]; rfl⟩

theorem norm_lists {n : Nat} {x : List ℝ} (hx : x.length = n) {p : ℝ} (hp : 1 ≤ p) :
    NormOrder.norm x (.fin p) = .ok ((∑ i : Fin n, |x.getD i 0| ^ p) ^ (1 / p)) := by
  simp only [NormOrder.norm]
  split_ifs with h1 h2
  · subst h1
    rw [sum_getD (n := n) (by simp [hx])]
    congr 1
    simp only [Real.rpow_one, div_one]
    exact Finset.sum_congr rfl fun i _ => getD_map_lt (by omega)
  · subst h2
    rw [sum_getD (n := n) (by simp [hx]), Real.sqrt_eq_rpow]
    congr 2
    refine Finset.sum_congr rfl fun i _ => ?_
    rw [getD_map_lt (by omega), Real.rpow_two, sq_abs, sq]
  · rw [sum_getD (n := n) (by simp [hx])]
    congr 2
    exact Finset.sum_congr rfl fun i _ => getD_map_lt (by omega)

theorem root_pow {p w : ℝ} (hp : 1 ≤ p) (hw : 0 ≤ w) : (NormOrder.root w (.fin p)) = w ^ (1 / p) := by
  simp only [NormOrder.root]
  split_ifs with h1 h2
  · rw [h1]; simp
  · rw [h2, Real.sqrt_eq_rpow]
  · rfl

theorem core_eq {n : Nat} {o : Option (List ℝ)} {w : Nat → ℝ} (h : WOpt n o w) (hw : ∀ i < n, 0 ≤ w i) {p : ℝ} (hp : 1 ≤ p)
    {a b : Point ℝ} (ha : a.data.length = n) (hb : b.data.length = n) :
    minkowskiCore (.fin p) o a.data b.data = .ok (.fin (lpDist n p w a b)) := by
  obtain ⟨d, h1, h2, h3⟩ := sub_lists ha hb
  obtain ⟨r, h4, h5, h6⟩ := weighted_eq (h.map (f := fun x => NormOrder.root x (.fin p)) (by rw [root_pow hp zero_le_one]; simp)) h2
  have hb : decide (p < 1) = false := by simpa using hp
  simp only [minkowskiCore, hb, h1, bind, Except.bind, h4, norm_lists h5 hp, pure, Except.pure]
  simp only [Bool.false_eq_true, if_false]
  congr 2
  unfold lpDist
  congr 1
  refine Finset.sum_congr rfl fun i _ => ?_
  rw [h6 i i.2, h3 i i.2, root_pow hp (hw i i.2), abs_mul, Real.mul_rpow (abs_nonneg _) (abs_nonneg _),
    abs_of_nonneg (Real.rpow_nonneg (hw i i.2) _), ← Real.rpow_mul (hw i i.2), one_div, inv_mul_cancel₀ (by linarith), Real.rpow_one]

theorem lookup_ne {kw : Kw} {names : List String} (h : NamesIn kw names) {s : String} (hs : s ∉ names) : s ∉ kw.map Prod.fst := by
  intro hc
  obtain ⟨a, ha, rfl⟩ := List.mem_map.1 hc
  exact hs (h a ha)

theorem lpDist_nonneg (n : Nat) (p : ℝ) {w : Nat → ℝ} (hw : ∀ i < n, 0 ≤ w i) (a b : Point ℝ) : 0 ≤ lpDist n p w a b :=
  Real.rpow_nonneg (Finset.sum_nonneg fun (i : Fin n) _ => mul_nonneg (hw i i.2) (Real.rpow_nonneg (abs_nonneg _) _)) _

theorem lpDist_comm (n : Nat) (p : ℝ) (w : Nat → ℝ) (a b : Point ℝ) : lpDist n p w a b = lpDist n p w b a := by
  unfold lpDist
  congr 1
  refine Finset.sum_congr rfl fun i _ => ?_
  unfold diffAt
  rw [abs_sub_comm]

theorem lpDist_triangle (n : Nat) {p : ℝ} (hp : 1 ≤ p) {w : Nat → ℝ} (hw : ∀ i < n, 0 ≤ w i) (a b c : Point ℝ) :
    lpDist n p w a c ≤ lpDist n p w a b + lpDist n p w b c := by
  have key : ∀ x y : Point ℝ, lpDist n p w x y = (∑ i : Fin n, |w i ^ (1 / p) * diffAt x y i| ^ p) ^ (1 / p) := by
    intro x y
    unfold lpDist
    congr 1
    refine Finset.sum_congr rfl fun i _ => ?_
    rw [abs_mul, Real.mul_rpow (abs_nonneg _) (abs_nonneg _), abs_of_nonneg (Real.rpow_nonneg (hw i i.2) _), ← Real.rpow_mul (hw i i.2),
      one_div, inv_mul_cancel₀ (by linarith), Real.rpow_one]
  rw [key, key, key]
  refine le_trans (le_of_eq ?_) (Real.Lp_add_le Finset.univ _ _ hp)
  congr 1
  refine Finset.sum_congr rfl fun i _ => ?_
  congr 2
  unfold diffAt
  ring

theorem lpDist_zero (n : Nat) {p : ℝ} (hp : 1 ≤ p) {w : Nat → ℝ} (hw : ∀ i < n, 0 < w i) {a b : Point ℝ} (ha : a.data.length = n)
    (hb : b.data.length = n) : lpDist n p w a b = 0 ↔ a.data = b.data := by
  have hn : ∀ i ∈ (Finset.univ : Finset (Fin n)), 0 ≤ w i * |diffAt a b i| ^ p := fun i _ =>
    mul_nonneg (hw i i.2).le (Real.rpow_nonneg (abs_nonneg _) _)
  have hp0 : p ≠ 0 := by linarith
  constructor
  · intro h
    unfold lpDist at h
    rw [Real.rpow_eq_zero (Finset.sum_nonneg hn) (by simpa using hp0), Finset.sum_eq_zero_iff_of_nonneg hn] at h
    refine coords_eq ha hb fun i => ?_
    have := h i (Finset.mem_univ _)
    rw [mul_eq_zero, or_iff_right (hw i i.2).ne', Real.rpow_eq_zero (abs_nonneg _) hp0] at this
    exact this
  · intro h
    have : ∀ i, diffAt a b i = 0 := fun i => by unfold diffAt; rw [h, sub_self]
    simp [lpDist, this, Real.zero_rpow hp0, Real.zero_rpow (inv_ne_zero hp0)]

/-- **C127 (Minkowski).** `distance(..., 'minkowski', p=..., w=...)` with an order of at least 1 (2 by default) and weights that are not
negative is `(Σ wᵢ |pᵢ - qᵢ|ᵖ)^(1/p)`, and with positive weights it is a metric. -/
theorem C127_minkowski (n : Nat) (hn : 1 ≤ n) (kw : Kw) (p : ℝ) (w : Nat → ℝ) (hk : NamesIn kw ["p", "w"]) (ho : OrderIs kw p)
    (hp : 1 ≤ p) (hW : WeightsAre n kw w) (hw : ∀ i < n, 0 ≤ w i) :
    (∀ a b : Point ℝ, a.data.length = n → b.data.length = n →
      a.distance metrics b (.name "minkowski") kw = .ok (.fin (lpDist n p w a b))) ∧
    ((∀ i < n, 0 < w i) → MetricOn n fun a b => a.distance metrics b (.name "minkowski") kw) := by
  have h1 : ∀ a b : Point ℝ, a.data.length = n → b.data.length = n →
      a.distance metrics b (.name "minkowski") kw = .ok (.fin (lpDist n p w a b)) := by
    intro a b ha hb
    rw [C80_named_partial metrics a b "minkowski" minkowski kw (lookup_ne hk (by decide)) rfl]
    obtain ⟨o, h1, h2⟩ := weightsOf_eq hn hW hw
    simp only [minkowski, bindKw_ok hk (required := []) (by simp), bind, Except.bind, h1]
    rcases ho with h | ⟨h, rfl⟩
    · simp only [h, KwVal.asOrder, core_eq h2 hw hp ha hb]
    · simp only [h, core_eq h2 hw hp ha hb]
  refine ⟨h1, fun hw' => ⟨_, h1, fun a b c ha hb hc => ⟨lpDist_nonneg n p hw a b, lpDist_zero n hp hw' ha hb, lpDist_comm n p w a b,
    lpDist_triangle n hp hw a b c⟩⟩⟩

/-! ## Other names of the Minkowski distances -/

theorem named_eq {s : String} {f : MetricFn} {kw : Kw} {names : List String} (hk : NamesIn kw names) (hn : "name" ∉ names)
    (h : metrics.lookup s = some f) (a b : Point ℝ) : a.distance metrics b (.name s) kw = f kw a.data b.data :=
  C80_named_partial metrics a b s f kw (lookup_ne hk hn) h

/-- **C127 (city block, Euclid, squares).** With weights that are not negative: `cityblock` is the Minkowski distance of order 1,
`euclidean` the one of order 2, `sqeuclidean` its square. -/
theorem C127_weighted (n : Nat) (hn : 1 ≤ n) (kw : Kw) (w : Nat → ℝ) (hk : NamesIn kw ["w"]) (hW : WeightsAre n kw w)
    (hw : ∀ i < n, 0 ≤ w i) (a b : Point ℝ) (ha : a.data.length = n) (hb : b.data.length = n) :
    a.distance metrics b (.name "cityblock") kw = .ok (.fin (∑ i : Fin n, w i * |diffAt a b i|)) ∧
    a.distance metrics b (.name "euclidean") kw = .ok (.fin (√ (∑ i : Fin n, w i * diffAt a b i ^ 2))) ∧
    a.distance metrics b (.name "sqeuclidean") kw = .ok (.fin (∑ i : Fin n, w i * diffAt a b i ^ 2)) := by
  obtain ⟨o, h1, h2⟩ := weightsOf_eq hn hW hw
  obtain ⟨d, d1, d2, d3⟩ := sub_lists ha hb
  refine ⟨?_, ?_, ?_⟩
  · rw [named_eq hk (by decide) (f := cityblock) rfl]
    obtain ⟨r, r1, r2, r3⟩ := weighted_eq h2 (d := d.map abs) (by simp [d2])
    simp only [cityblock, bindKw_ok hk (required := []) (by simp), bind, Except.bind, h1, d1, r1, pure, Except.pure]
    rw [sum_getD r2]
    congr 2
    refine Finset.sum_congr rfl fun i _ => ?_
    rw [r3 i i.2, getD_map_lt (by omega), d3 i i.2]
  · rw [named_eq hk (by decide) (f := euclidean) rfl]
    simp only [euclidean, bindKw_ok hk (required := []) (by simp), bind, Except.bind, h1, core_eq h2 hw one_le_two ha hb]
    congr 2
    unfold lpDist
    rw [Real.sqrt_eq_rpow]
    congr 1
    refine Finset.sum_congr rfl fun i _ => ?_
    rw [Real.rpow_two, sq_abs]
  · rw [named_eq hk (by decide) (f := sqeuclidean) rfl]
    obtain ⟨r, r1, r2, r3⟩ := weighted_eq h2 d2
    simp only [sqeuclidean, bindKw_ok hk (required := []) (by simp), bind, Except.bind, h1, d1, r1, pure, Except.pure, matmul,
      if_pos (d2.trans r2.symm)]
    congr 2
    have : dot d r = (List.zipWith (· * ·) d r).sum := by
      unfold dot
      rw [List.sum_eq_foldr]
    rw [this, sum_getD (n := n) (by simp [d2, r2])]
    refine Finset.sum_congr rfl fun i _ => ?_
    rw [getD_zipWith_lt (by omega) (by omega), r3 i i.2, d3 i i.2]
    ring

theorem lp_norm_anti {n : Nat} {x : Fin n → ℝ} (hx : ∀ i, 0 ≤ x i) {p q : ℝ} (hp : 1 ≤ p) (hpq : p ≤ q) :
    (∑ i, x i ^ q) ^ (1 / q) ≤ (∑ i, x i ^ p) ^ (1 / p) := by
  have hp0 : 0 < p := by linarith
  have hq0 : 0 < q := by linarith
  have hS : 0 ≤ ∑ i, x i ^ p := Finset.sum_nonneg fun i _ => Real.rpow_nonneg (hx i) _
  obtain ⟨M, hM⟩ : ∃ M, M = (∑ i, x i ^ p) ^ (1 / p) := ⟨_, rfl⟩
  have hM0 : 0 ≤ M := hM ▸ Real.rpow_nonneg hS _
  have hMp : M ^ p = ∑ i, x i ^ p := by
    rw [hM, ← Real.rpow_mul hS, one_div, inv_mul_cancel₀ hp0.ne', Real.rpow_one]
  have hle : ∀ i, x i ≤ M := by
    intro i
    rw [← Real.rpow_le_rpow_iff (hx i) hM0 hp0, hMp]
    exact Finset.single_le_sum (f := fun i => x i ^ p) (fun i _ => Real.rpow_nonneg (hx i) _) (Finset.mem_univ i)
  rw [← hM]
  have hsum : ∑ i, x i ^ q ≤ M ^ q := by
    rcases eq_or_lt_of_le hpq with rfl | hlt
    · exact hMp.symm.le
    · have hd : 0 < q - p := by linarith
      have hsplit : ∀ y : ℝ, 0 ≤ y → y ^ q = y ^ p * y ^ (q - p) := by
        intro y hy
        rw [← Real.rpow_add' hy (by linarith)]
        congr 1; ring
      rw [hsplit M hM0, hMp, Finset.sum_mul]
      refine Finset.sum_le_sum fun i _ => ?_
      rw [hsplit _ (hx i)]
      exact mul_le_mul_of_nonneg_left (Real.rpow_le_rpow (hx i) (hle i) hd.le) (Real.rpow_nonneg (hx i) _)
  calc (∑ i, x i ^ q) ^ (1 / q) ≤ (M ^ q) ^ (1 / q) :=
        Real.rpow_le_rpow (Finset.sum_nonneg fun i _ => Real.rpow_nonneg (hx i) _) hsum (by positivity)
    _ = M := by rw [← Real.rpow_mul hM0, mul_one_div_cancel hq0.ne', Real.rpow_one]

/-- **C127 (orders).** Without weights the Minkowski distance decreases with the order: from the city block distance at 1 through the
euclidean distance at 2 towards the Chebyshev distance, which `p=inf` gives; it is at most the `p`-th root of the dimension times that. -/
theorem C127_orders (n : Nat) (hn : 1 ≤ n) (a b : Point ℝ) (ha : a.data.length = n) (hb : b.data.length = n) :
    a.distance metrics b (.name "minkowski") [("p", .num 1)] = a.distance metrics b (.name "cityblock") [] ∧
    a.distance metrics b (.name "minkowski") [("p", .num 2)] = a.distance metrics b (.name "euclidean") [] ∧
    a.distance metrics b (.name "minkowski") [] = a.distance metrics b (.name "euclidean") [] ∧
    a.distance metrics b (.name "minkowski") [("p", .inf)] = a.distance metrics b (.name "chebyshev") [] ∧
    ∀ p q : ℝ, 1 ≤ p → p ≤ q → ∃ dp dq m, a.distance metrics b (.name "minkowski") [("p", .num p)] = .ok (.fin dp) ∧
      a.distance metrics b (.name "minkowski") [("p", .num q)] = .ok (.fin dq) ∧ a.distance metrics b (.name "chebyshev") [] = .ok (.fin m) ∧
      m ≤ dq ∧ dq ≤ dp ∧ dp ≤ (n : ℝ) ^ (1 / p) * m := by
  have hmk : ∀ kw : Kw, ∀ p : ℝ, NamesIn kw ["p", "w"] → OrderIs kw p → kw.lookup "w" = none → 1 ≤ p →
      a.distance metrics b (.name "minkowski") kw = .ok (.fin (lpDist n p (fun _ => 1) a b)) := fun kw p h1 h2 h3 h4 =>
    (C127_minkowski n hn kw p (fun _ => 1) h1 h2 h4 (.inl ⟨.inl h3, fun _ => rfl⟩) (fun _ _ => zero_le_one)).1 a b ha hb
  have hw := C127_weighted n hn [] (fun _ => 1) (by simp [NamesIn]) (.inl ⟨.inl rfl, fun _ => rfl⟩) (fun _ _ => zero_le_one) a b ha hb
  have hN : ∀ v, NamesIn [("p", v)] ["p", "w"] := by simp [NamesIn]
  have h2 : lpDist n 2 (fun _ => 1) a b = √ (∑ i : Fin n, 1 * diffAt a b i ^ 2) := by
    unfold lpDist
    rw [Real.sqrt_eq_rpow]
    congr 1
    refine Finset.sum_congr rfl fun i _ => ?_
    rw [Real.rpow_two, sq_abs]
  refine ⟨?_, ?_, ?_, ?_, ?_⟩
  · rw [hmk _ 1 (hN _) (.inl rfl) rfl le_rfl, hw.1]
    simp [lpDist]
  · rw [hmk _ 2 (hN _) (.inl rfl) rfl one_le_two, hw.2.1, h2]
  · rw [hmk _ 2 (by simp [NamesIn]) (.inr ⟨rfl, rfl⟩) rfl one_le_two, hw.2.1, h2]
  · rw [named_eq (hN _) (by decide) (f := minkowski) rfl]
    show _ = chebyshev [] a.data b.data
    rw [chebyshev_nil]
    rfl
  · intro p q hp hpq
    obtain ⟨m, m1, m2, i, m3⟩ := chebyshev_eq ha hb hn
    refine ⟨_, _, m, hmk _ p (hN _) (.inl rfl) rfl hp, hmk _ q (hN _) (.inl rfl) rfl (hp.trans hpq), m1, ?_, ?_, ?_⟩
    · have hq0 : 0 < q := by linarith
      unfold lpDist
      have : m = (m ^ q) ^ (1 / q) := by
        rw [← Real.rpow_mul (m3 ▸ abs_nonneg _), mul_one_div_cancel hq0.ne', Real.rpow_one]
      rw [this]
      refine Real.rpow_le_rpow (Real.rpow_nonneg (m3 ▸ abs_nonneg _) _) ?_ (by positivity)
      rw [m3]
      simp only [one_mul]
      exact Finset.single_le_sum (f := fun i : Fin n => |diffAt a b i| ^ q) (fun i _ => Real.rpow_nonneg (abs_nonneg _) _) (Finset.mem_univ i)
    · unfold lpDist
      simp only [one_mul]
      exact lp_norm_anti (fun i => abs_nonneg _) hp hpq
    · have hp0 : 0 < p := by linarith
      have hm0 : 0 ≤ m := m3 ▸ abs_nonneg _
      unfold lpDist
      simp only [one_mul]
      have : (n : ℝ) ^ (1 / p) * m = ((n : ℝ) * m ^ p) ^ (1 / p) := by
        rw [Real.mul_rpow (by positivity) (Real.rpow_nonneg hm0 _), ← Real.rpow_mul hm0, mul_one_div_cancel hp0.ne', Real.rpow_one]
      rw [this]
      refine Real.rpow_le_rpow (Finset.sum_nonneg fun i _ => Real.rpow_nonneg (abs_nonneg _) _) ?_ (by positivity)
      calc (∑ i : Fin n, |diffAt a b i| ^ p) ≤ ∑ i : Fin n, m ^ p :=
            Finset.sum_le_sum fun i _ => Real.rpow_le_rpow (abs_nonneg _) (m2 i) hp0.le
        _ = n * m ^ p := by simp

theorem any_neg_false {l : List ℝ} {n : Nat} (hl : l.length = n) (h : ∀ i < n, 0 ≤ l.getD i 0) : (l.any fun x => decide (x < 0)) = false := by
  rw [List.any_eq_false]
  intro x hx
  obtain ⟨i, hi, rfl⟩ := List.mem_iff_getElem.1 hx
  have := h i (by omega)
  simpa [hi] using this

/-- **C127 (weights inside of the power).** `wminkowski` is `(Σ (wᵢ |pᵢ - qᵢ|)ᵖ)^(1/p)`: the weights of `minkowski` raised to the power
`p`; a metric for positive weights. -/
theorem C127_wminkowski (n : Nat) (kw : Kw) (p : ℝ) (l : List ℝ) (hk : NamesIn kw ["p", "w"])
    (ho : kw.lookup "p" = some (.num p)) (hp : 1 ≤ p) (hW : kw.lookup "w" = some (.vec l)) (hl : l.length = n)
    (hw : ∀ i < n, 0 ≤ l.getD i 0) :
    (∀ a b : Point ℝ, a.data.length = n → b.data.length = n → a.distance metrics b (.name "wminkowski") kw =
      .ok (.fin ((∑ i : Fin n, (l.getD i 0 * |diffAt a b i|) ^ p) ^ (1 / p)))) ∧
    ((∀ i < n, 0 < l.getD i 0) → MetricOn n fun a b => a.distance metrics b (.name "wminkowski") kw) := by
  have hp' : ∀ a b : Point ℝ, ((∑ i : Fin n, (l.getD i 0 * |diffAt a b i|) ^ p) ^ (1 / p)) = lpDist n p (fun i => l.getD i 0 ^ p) a b := by
    intro a b
    unfold lpDist
    congr 1
    refine Finset.sum_congr rfl fun i _ => ?_
    rw [Real.mul_rpow (hw i i.2) (abs_nonneg _)]
  have h1 : ∀ a b : Point ℝ, a.data.length = n → b.data.length = n → a.distance metrics b (.name "wminkowski") kw =
      .ok (.fin ((∑ i : Fin n, (l.getD i 0 * |diffAt a b i|) ^ p) ^ (1 / p))) := by
    intro a b ha hb
    rw [named_eq hk (by decide) (f := wminkowski) rfl, hp']
    have hW2 : WOpt n (some (l.map fun x => x ^ p)) fun i => l.getD i 0 ^ p :=
      .inr (.inl ⟨_, rfl, by simp [hl], fun i hi => by rw [getD_map_lt (by omega)]⟩)
    have hreq : ∀ r ∈ ["p", "w"], (kw.lookup r).isSome := by
      intro r hr
      simp only [List.mem_cons, List.not_mem_nil, or_false] at hr
      rcases hr with rfl | rfl
      · rw [ho]; rfl
      · rw [hW]; rfl
    simp only [wminkowski, bindKw_ok hk hreq, bind, Except.bind, ho, hW, Option.getD_some,
      KwVal.asOrder, KwVal.asWeights, KwVal.asVec, any_neg_false hl hw, NormOrder.power, Bool.false_eq_true, if_false]
    rw [core_eq hW2 (fun i hi => Real.rpow_nonneg (hw i hi) _) hp ha hb]
  refine ⟨h1, fun hw' => ⟨_, h1, fun a b c ha hb hc => ?_⟩⟩
  rw [hp', hp', hp', hp']
  have h0 : ∀ i < n, 0 ≤ (fun i => l.getD i 0 ^ p) i := fun i hi => Real.rpow_nonneg (hw i hi) _
  exact ⟨lpDist_nonneg n p h0 a b, lpDist_zero n hp (fun i hi => Real.rpow_pos_of_pos (hw' i hi) _) ha hb, lpDist_comm n p _ a b,
    lpDist_triangle n hp h0 a b c⟩

/-- **C127 (violated).** With `p=inf` weights below 1 vanish: the distance of any two points with weights one half is 0. -/
theorem C127_wminkowski_inf_fails (x y u v : ℝ) : (⟨[x, y], .float⟩ : Point ℝ).distance metrics ⟨[u, v], .float⟩ (.name "wminkowski")
    [("p", .inf), ("w", .vec [1 / 2, 1 / 2])] = .ok (.fin 0) := by
  rw [named_eq (names := ["p", "w"]) (by simp [NamesIn]) (by decide) (f := wminkowski) rfl]
  have h2 : ¬ (2 : ℝ)⁻¹ < 0 := by norm_num
  have h3 : (2 : ℝ)⁻¹ < 1 := by norm_num
  simp [wminkowski, bindKw, bind, Except.bind, List.lookup, KwVal.asOrder, KwVal.asWeights, KwVal.asVec, minkowskiCore, weighted, bcast2,
    NormOrder.power, NormOrder.root, NormOrder.norm, maxList, pure, Except.pure, h2, h3]

/-- **C127 (violated).** Coordinates with weight 0 do not count: different points have distance 0. -/
theorem C127_zero_weight_fails : (⟨[1, 2], .float⟩ : Point ℝ).distance metrics ⟨[1, 5], .float⟩ (.name "euclidean") [("w", .vec [1, 0])] =
    .ok (.fin 0) := by
  rw [(C127_weighted 2 (by norm_num) [("w", .vec [1, 0])] (fun i => [1, 0].getD i 0) (by simp [NamesIn])
    (.inr (.inl ⟨_, rfl, rfl, fun _ _ => rfl⟩)) (by intro i hi; interval_cases i <;> simp) _ _ rfl rfl).2.1]
  simp [Fin.sum_univ_two, diffAt]

/-- **C127 (standardised).** `seuclidean` with positive variances `V` is `√ Σ (pᵢ - qᵢ)² / Vᵢ`, a metric; the euclidean distance when all
are 1. -/
theorem C127_seuclidean (n : Nat) (V : List ℝ) (hV : V.length = n) (hpos : ∀ i < n, 0 < V.getD i 0) :
    (∀ a b : Point ℝ, a.data.length = n → b.data.length = n → a.distance metrics b (.name "seuclidean") [("V", .vec V)] =
      .ok (.fin (√ (∑ i : Fin n, diffAt a b i ^ 2 / V.getD i 0)))) ∧
    MetricOn n fun a b => a.distance metrics b (.name "seuclidean") [("V", .vec V)] := by
  have hN : NamesIn [("V", .vec V)] ["V"] := by simp [NamesIn]
  have hany : (V.any fun x => decide (x ≤ 0)) = false := by
    rw [List.any_eq_false]
    intro x hx
    obtain ⟨i, hi, rfl⟩ := List.mem_iff_getElem.1 hx
    have := hpos i (by omega)
    simpa [hi] using this
  have hW2 : WOpt n (some (V.map fun x => 1 / x)) fun i => 1 / V.getD i 0 :=
    .inr (.inl ⟨_, rfl, by simp [hV], fun i hi => by rw [getD_map_lt (f := fun x => 1 / x) (by omega)]⟩)
  have hw : ∀ i < n, 0 ≤ (fun i => 1 / V.getD i 0) i := fun i hi => (one_div_pos.2 (hpos i hi)).le
  have hp' : ∀ a b : Point ℝ, √ (∑ i : Fin n, diffAt a b i ^ 2 / V.getD i 0) = lpDist n 2 (fun i => 1 / V.getD i 0) a b := by
    intro a b
    unfold lpDist
    rw [Real.sqrt_eq_rpow]
    congr 1
    refine Finset.sum_congr rfl fun i _ => ?_
    rw [Real.rpow_two, sq_abs]
    ring
  have h1 : ∀ a b : Point ℝ, a.data.length = n → b.data.length = n → a.distance metrics b (.name "seuclidean") [("V", .vec V)] =
      .ok (.fin (√ (∑ i : Fin n, diffAt a b i ^ 2 / V.getD i 0))) := by
    intro a b ha hb
    rw [named_eq hN (by decide) (f := seuclidean) rfl, hp']
    have hl : List.lookup "V" [("V", KwVal.vec V)] = some (.vec V) := rfl
    simp only [seuclidean, bindKw_ok hN (required := ["V"]) (by simp), bind, Except.bind, hl, Option.getD_some, KwVal.asVec, hany,
      Bool.false_eq_true, if_false, hV, ha, hb, ne_eq, not_true_eq_false, or_self]
    rw [core_eq hW2 hw one_le_two ha hb]
  refine ⟨h1, ⟨_, h1, fun a b c ha hb hc => ?_⟩⟩
  rw [hp', hp', hp', hp']
  exact ⟨lpDist_nonneg n 2 hw a b, lpDist_zero n one_le_two (fun i hi => one_div_pos.2 (hpos i hi)) ha hb, lpDist_comm n 2 _ a b,
    lpDist_triangle n one_le_two hw a b c⟩

/-! ## Canberra -/

theorem canberra_pos {x y z : ℝ} (hx : 0 < x) (hy : 0 < y) (hz : 0 < z) (hxz : x ≤ z) :
    (z - x) / (x + z) ≤ |x - y| / (x + y) + |y - z| / (y + z) := by
  rcases le_total y x with h | h
  · have h1 : (z - x) / (x + z) ≤ |y - z| / (y + z) := by
      rw [abs_of_nonpos (by linarith), div_le_div_iff₀ (by linarith) (by linarith)]
      nlinarith
    have h2 : 0 ≤ |x - y| / (x + y) := by positivity
    linarith
  · rcases le_total y z with h' | h'
    · rw [abs_of_nonpos (by linarith), abs_of_nonpos (by linarith)]
      have h1 : -(x - y) / (x + y) + -(y - z) / (y + z) - (z - x) / (x + z) = (y - x) * (z - y) * (z - x) / ((x + y) * (y + z) * (x + z)) := by
        field_simp
        ring
      have h2 : 0 ≤ (y - x) * (z - y) * (z - x) / ((x + y) * (y + z) * (x + z)) := by
        apply div_nonneg
        · exact mul_nonneg (mul_nonneg (by linarith) (by linarith)) (by linarith)
        · positivity
      linarith
    · have h1 : (z - x) / (x + z) ≤ |x - y| / (x + y) := by
        rw [abs_of_nonpos (by linarith), div_le_div_iff₀ (by linarith) (by linarith)]
        nlinarith
      have h2 : 0 ≤ |y - z| / (y + z) := by positivity
      linarith

theorem canberra_le_one (x y : ℝ) : |x - y| / (|x| + |y|) ≤ 1 := by
  apply div_le_one_of_le₀ _ (by positivity)
  exact (abs_sub x y)

theorem canberra_opposite {x y : ℝ} (h : x * y ≤ 0) (h0 : x ≠ 0 ∨ y ≠ 0) : |x - y| / (|x| + |y|) = 1 := by
  have hd : |x| + |y| ≠ 0 := by
    rcases h0 with h0 | h0
    · have := abs_pos.2 h0; have := abs_nonneg y; linarith
    · have := abs_pos.2 h0; have := abs_nonneg x; linarith
  rw [div_eq_one_iff_eq hd]
  rcases le_total 0 x with hx | hx <;> rcases le_total 0 y with hy | hy
  · have : x = 0 ∨ y = 0 := by
      have := mul_nonneg hx hy
      exact mul_eq_zero.1 (le_antisymm h this)
    rcases this with rfl | rfl <;> simp
  · rw [abs_of_nonneg hx, abs_of_nonpos hy, abs_of_nonneg (by linarith)]; ring
  · rw [abs_of_nonpos hx, abs_of_nonneg hy, abs_of_nonpos (by linarith)]; ring
  · have : x = 0 ∨ y = 0 := by
      have := mul_nonneg_of_nonpos_of_nonpos hx hy
      exact mul_eq_zero.1 (le_antisymm h this)
    rcases this with rfl | rfl <;> simp

theorem canberra_triangle (x y z : ℝ) : |x - z| / (|x| + |z|) ≤ |x - y| / (|x| + |y|) + |y - z| / (|y| + |z|) := by
  have n1 : 0 ≤ |x - y| / (|x| + |y|) := by positivity
  have n2 : 0 ≤ |y - z| / (|y| + |z|) := by positivity
  have top := canberra_le_one x z
  by_cases h1 : x * y ≤ 0 ∧ (x ≠ 0 ∨ y ≠ 0)
  · have := canberra_opposite h1.1 h1.2
    linarith
  by_cases h2 : y * z ≤ 0 ∧ (y ≠ 0 ∨ z ≠ 0)
  · have := canberra_opposite h2.1 h2.2
    linarith
  rcases eq_or_ne y 0 with rfl | hy
  · have hx : x = 0 := by
      by_contra hx
      exact h1 ⟨by simp, .inl hx⟩
    have hz : z = 0 := by
      by_contra hz
      exact h2 ⟨by simp, .inr hz⟩
    simp [hx, hz]
  have h1' : 0 < x * y := by
    by_contra h
    exact h1 ⟨not_lt.1 h, .inr hy⟩
  have h2' : 0 < y * z := by
    by_contra h
    exact h2 ⟨not_lt.1 h, .inl hy⟩
  have main : ∀ {x y z : ℝ}, 0 < x → 0 < y → 0 < z → |x - z| / (|x| + |z|) ≤ |x - y| / (|x| + |y|) + |y - z| / (|y| + |z|) := by
    intro x y z hx hy hz
    rw [abs_of_pos hx, abs_of_pos hy, abs_of_pos hz]
    rcases le_total x z with h | h
    · rw [abs_of_nonpos (by linarith : x - z ≤ 0)]
      have := canberra_pos hx hy hz h
      rw [neg_sub]
      exact this
    · rw [abs_of_nonneg (by linarith : 0 ≤ x - z)]
      have := canberra_pos hz hy hx h
      rw [abs_sub_comm z y, abs_sub_comm y x, add_comm z x, add_comm z y, add_comm y x] at this
      linarith
  rcases lt_or_gt_of_ne hy with hy | hy
  · have hx : x < 0 := by by_contra h; nlinarith [not_lt.1 h]
    have hz : z < 0 := by by_contra h; nlinarith [not_lt.1 h]
    have := main (neg_pos.2 hx) (neg_pos.2 hy) (neg_pos.2 hz)
    simp only [abs_neg, neg_sub_neg] at this
    rw [abs_sub_comm z x, abs_sub_comm y x, abs_sub_comm z y] at this
    exact this
  · have hx : 0 < x := by by_contra h; nlinarith [not_lt.1 h]
    have hz : 0 < z := by by_contra h; nlinarith [not_lt.1 h]
    exact main hx hy hz

theorem foldl_add_fin (l : List (Val ℝ)) (x : ℝ) (g : List ℝ) (h : l = g.map Val.fin) : l.foldl Val.add (.fin x) = .fin (x + g.sum) := by
  subst h
  induction g generalizing x with
  | nil => simp
  | cons y g ih => rw [List.map_cons, List.foldl_cons, List.sum_cons, ← add_assoc, ← ih]; rfl

theorem nansum_eq (l : List (Val ℝ)) (g : List ℝ) (hlen : l.length = g.length)
    (h : ∀ i (h1 : i < l.length) (h2 : i < g.length), l[i] = .fin g[i] ∨ l[i] = .nan ∧ g[i] = 0) :
    (l.filter fun x => decide (x ≠ .nan)).foldl Val.add (.fin 0) = .fin g.sum := by
  suffices ∀ x, (l.filter fun x => decide (x ≠ .nan)).foldl Val.add (.fin x) = .fin (x + g.sum) by simpa using this 0
  induction l generalizing g with
  | nil => intro x; rw [List.length_nil] at hlen; rw [List.length_eq_zero_iff.1 hlen.symm]; simp
  | cons a l ih =>
    intro x
    cases g with
    | nil => simp at hlen
    | cons y g =>
      have ih' := ih g (by simpa using hlen) fun i h1 h2 => by
        have := h (i + 1) (by simpa using h1) (by simpa using h2)
        simpa using this
      rcases h 0 (by simp) (by simp) with h0 | ⟨h0, h0'⟩
      · simp only [List.getElem_cons_zero] at h0
        subst h0
        rw [List.filter_cons_of_pos (by simp), List.foldl_cons, List.sum_cons, ← add_assoc]
        exact ih' (x + y)
      · simp only [List.getElem_cons_zero] at h0 h0'
        subst h0 h0'
        rw [List.filter_cons_of_neg (by simp), List.sum_cons, zero_add]
        exact ih' x

theorem val_one_mul (x : Val ℝ) : (Val.fin 1).mul x = x := by
  cases x <;> simp [Val.mul, Val.infOfSign]

theorem weightedV_eq {n : Nat} {o : Option (List ℝ)} {w : Nat → ℝ} (h : WOpt n o w) {d : List (Val ℝ)} (hd : d.length = n) :
    ∃ r : List (Val ℝ), (match o with
      | Option.none => Except.ok d
      | some w => bcast2 Val.mul (w.map Val.fin) d) = .ok r ∧ r.length = n ∧
      ∀ i (hi : i < n) (h1 : i < r.length) (h2 : i < d.length), r[i] = (Val.fin (w i)).mul d[i] := by
  rcases h with ⟨rfl, h1⟩ | ⟨l, rfl, hl, h1⟩ | ⟨x, rfl, h1⟩
  · exact ⟨d, rfl, hd, fun i hi _ _ => by rw [h1, val_one_mul]⟩
  · refine ⟨List.zipWith Val.mul (l.map Val.fin) d, bcast2_eq _ (by simp [hl, hd]), by simp [hl, hd], fun i hi h3 h4 => ?_⟩
    have hi' : i < l.length := by omega
    rw [List.getElem_zipWith, List.getElem_map, h1 i hi]
    simp [hi']
  · refine ⟨d.map (Val.mul (.fin x)), ?_, by simp [hd], fun i hi _ _ => by rw [List.getElem_map, h1]⟩
    show bcast2 Val.mul [Val.fin x] d = _
    unfold bcast2
    split_ifs with h
    · rcases d with _ | ⟨y, _ | ⟨z, d⟩⟩
      · simp at h
      · rfl
      · simp at h
    · rfl

/-- **C127 (Canberra).** `canberra` is the sum of `wᵢ |pᵢ - qᵢ| / (|pᵢ| + |qᵢ|)` over the coordinates that are not both 0; it is a metric for
positive weights, and at most the sum of the weights. -/
theorem C127_canberra (n : Nat) (hn : 1 ≤ n) (kw : Kw) (w : Nat → ℝ) (hk : NamesIn kw ["w"]) (hW : WeightsAre n kw w)
    (hw : ∀ i < n, 0 ≤ w i) :
    (∀ a b : Point ℝ, a.data.length = n → b.data.length = n →
      a.distance metrics b (.name "canberra") kw = .ok (.fin (canberraDist n w a b))) ∧
    ((∀ i < n, 0 < w i) → MetricOn n fun a b => a.distance metrics b (.name "canberra") kw) ∧
    ∀ a b : Point ℝ, canberraDist n w a b ≤ ∑ i : Fin n, w i := by
  have hform : ∀ a b : Point ℝ, canberraDist n w a b = ∑ i : Fin n, w i * (|diffAt a b i| / (|a.data.getD i 0| + |b.data.getD i 0|)) := by
    intro a b
    refine Finset.sum_congr rfl fun i _ => ?_
    split_ifs with h
    · simp only [diffAt, h.1, h.2]; simp
    · rfl
  have h1 : ∀ a b : Point ℝ, a.data.length = n → b.data.length = n →
      a.distance metrics b (.name "canberra") kw = .ok (.fin (canberraDist n w a b)) := by
    intro a b ha hb
    rw [named_eq hk (by decide) (f := canberra) rfl]
    obtain ⟨o, o1, o2⟩ := weightsOf_eq hn hW hw
    simp only [canberra, bindKw_ok hk (required := []) (by simp), bind, Except.bind, o1, bcast2_eq _ (ha.trans hb.symm)]
    obtain ⟨D, hD⟩ : ∃ D, D = List.zipWith (fun x y => (Val.fin |x|).div (Val.fin y)) (List.zipWith (fun x1 x2 => x1 - x2) a.data b.data)
      (List.zipWith (fun x y => |x| + |y|) a.data b.data) := ⟨_, rfl⟩
    have hDl : D.length = n := by rw [hD]; simp [ha, hb]
    have hDi : ∀ i (hi : i < n) (h2 : i < D.length), D[i] = (Val.fin |diffAt a b i|).div (.fin (|a.data.getD i 0| + |b.data.getD i 0|)) := by
      intro i hi h2
      subst hD
      have h3 : i < a.data.length := by omega
      have h4 : i < b.data.length := by omega
      rw [List.getElem_zipWith, List.getElem_zipWith, List.getElem_zipWith]
      simp [diffAt, h3, h4]
    rw [← hD]
    obtain ⟨r, r1, r2, r3⟩ := weightedV_eq o2 hDl
    have key : (r.filter fun x => decide (x ≠ .nan)).foldl Val.add (.fin 0) = .fin (canberraDist n w a b) := by
      rw [nansum_eq r (List.ofFn fun i : Fin n => if a.data.getD i 0 = 0 ∧ b.data.getD i 0 = 0 then 0 else
        w i * (|diffAt a b i| / (|a.data.getD i 0| + |b.data.getD i 0|))) (by simp [r2]), List.sum_ofFn]
      · rfl
      · intro i h2 h3
        have hi : i < n := by omega
        rw [r3 i hi h2 (by omega), hDi i hi (by omega), List.getElem_ofFn]
        by_cases h : a.data.getD i 0 = 0 ∧ b.data.getD i 0 = 0
        · right
          refine ⟨?_, by simp only [if_pos h]⟩
          unfold diffAt
          rw [h.1, h.2]
          simp [Val.div, Val.infOfSign, Val.mul]
        · left
          have hne : |a.data.getD i 0| + |b.data.getD i 0| ≠ 0 := by
            intro h0
            apply h
            have h5 := abs_nonneg (a.data.getD i 0)
            have h6 := abs_nonneg (b.data.getD i 0)
            exact ⟨abs_eq_zero.1 (by linarith), abs_eq_zero.1 (by linarith)⟩
          simp only [if_neg h, Val.div, if_neg hne, Val.mul]
    cases o with
    | none =>
      have : D = r := Except.ok.inj r1
      subst this
      exact congrArg Except.ok key
    | some w' =>
      simp only at r1
      simp only [r1, pure, Except.pure, key]
  refine ⟨h1, fun hw' => ⟨_, h1, fun a b c ha hb hc => ?_⟩, fun a b => ?_⟩
  · rw [hform, hform, hform, hform]
    have hnn : ∀ x y : Point ℝ, ∀ i : Fin n, 0 ≤ w i * (|diffAt x y i| / (|x.data.getD i 0| + |y.data.getD i 0|)) := fun x y i =>
      mul_nonneg (hw i i.2) (by positivity)
    refine ⟨Finset.sum_nonneg fun i _ => hnn a b i, ?_, ?_, ?_⟩
    · constructor
      · intro h
        refine coords_eq ha hb fun i => ?_
        have := (Finset.sum_eq_zero_iff_of_nonneg fun i _ => hnn a b i).1 h i (Finset.mem_univ _)
        rw [mul_eq_zero, or_iff_right (hw' i i.2).ne', div_eq_zero_iff] at this
        rcases this with h0 | h0
        · exact h0
        · have h5 := abs_nonneg (a.data.getD i 0)
          have h6 := abs_nonneg (b.data.getD i 0)
          rw [abs_eq_zero.1 (by linarith : |a.data.getD i 0| = 0), abs_eq_zero.1 (by linarith : |b.data.getD i 0| = 0)]
          simp
      · intro h
        refine Finset.sum_eq_zero fun i _ => ?_
        simp [diffAt, h]
    · refine Finset.sum_congr rfl fun i _ => ?_
      unfold diffAt
      rw [abs_sub_comm, add_comm |a.data.getD i 0|]
    · rw [← Finset.sum_add_distrib]
      refine Finset.sum_le_sum fun i _ => ?_
      rw [← mul_add]
      exact mul_le_mul_of_nonneg_left (canberra_triangle _ _ _) (hw i i.2)
  · rw [hform]
    refine Finset.sum_le_sum fun i _ => ?_
    exact mul_le_of_le_one_right (hw i i.2) (canberra_le_one _ _)

/-! ## Bray-Curtis -/

/-- **C127 (Bray-Curtis).** `braycurtis` is `Σ wᵢ |pᵢ - qᵢ| / Σ wᵢ |pᵢ + qᵢ|`; for points with coordinates that are not negative it is
symmetric, lies between 0 and 1, and for positive weights it is 0 exactly for equal points. -/
theorem C127_braycurtis (n : Nat) (hn : 1 ≤ n) (kw : Kw) (w : Nat → ℝ) (hk : NamesIn kw ["w"]) (hW : WeightsAre n kw w)
    (hw : ∀ i < n, 0 ≤ w i) (a b : Point ℝ) (ha : a.data.length = n) (hb : b.data.length = n)
    (hs : ∑ i : Fin n, w i * |a.data.getD i 0 + b.data.getD i 0| ≠ 0) :
    ∃ d, a.distance metrics b (.name "braycurtis") kw = .ok (.fin d) ∧ b.distance metrics a (.name "braycurtis") kw = .ok (.fin d) ∧
      d = (∑ i : Fin n, w i * |diffAt a b i|) / ∑ i : Fin n, w i * |a.data.getD i 0 + b.data.getD i 0| ∧ 0 ≤ d ∧
      ((∀ i, 0 ≤ a.data.getD i 0) → (∀ i, 0 ≤ b.data.getD i 0) → d ≤ 1) ∧ ((∀ i < n, 0 < w i) → (d = 0 ↔ a.data = b.data)) := by
  have hval : ∀ a b : Point ℝ, a.data.length = n → b.data.length = n → a.distance metrics b (.name "braycurtis") kw =
      .ok ((Val.fin (∑ i : Fin n, w i * |diffAt a b i|)).div (.fin (∑ i : Fin n, w i * |a.data.getD i 0 + b.data.getD i 0|))) := by
    intro a b ha hb
    rw [named_eq hk (by decide) (f := braycurtis) rfl]
    obtain ⟨o, o1, o2⟩ := weightsOf_eq hn hW hw
    obtain ⟨r, r1, r2, r3⟩ := weighted_eq o2 (d := (List.zipWith (· - ·) a.data b.data).map abs) (by simp [ha, hb])
    obtain ⟨s, s1, s2, s3⟩ := weighted_eq o2 (d := (List.zipWith (· + ·) a.data b.data).map abs) (by simp [ha, hb])
    simp only [braycurtis, bindKw_ok hk (required := []) (by simp), bind, Except.bind, o1, bcast2_eq _ (ha.trans hb.symm), r1, s1, pure,
      Except.pure]
    rw [sum_getD r2, sum_getD s2]
    congr 3
    · refine Finset.sum_congr rfl fun i _ => ?_
      rw [r3 i i.2, getD_map_lt (by simp [ha, hb]), getD_zipWith_lt (by omega) (by omega)]
      rfl
    · refine Finset.sum_congr rfl fun i _ => ?_
      rw [s3 i i.2, getD_map_lt (by simp [ha, hb]), getD_zipWith_lt (by omega) (by omega)]
  have hnum : 0 ≤ ∑ i : Fin n, w i * |diffAt a b i| := Finset.sum_nonneg fun i _ => mul_nonneg (hw i i.2) (abs_nonneg _)
  have hden : 0 ≤ ∑ i : Fin n, w i * |a.data.getD i 0 + b.data.getD i 0| :=
    Finset.sum_nonneg fun i _ => mul_nonneg (hw i i.2) (abs_nonneg _)
  refine ⟨_, ?_, ?_, rfl, div_nonneg hnum hden, ?_, ?_⟩
  · rw [hval a b ha hb]
    simp only [Val.div, if_neg hs]
  · rw [hval b a hb ha]
    have h1 : ∑ i : Fin n, w i * |b.data.getD i 0 + a.data.getD i 0| = ∑ i : Fin n, w i * |a.data.getD i 0 + b.data.getD i 0| :=
      Finset.sum_congr rfl fun i _ => by rw [add_comm]
    have h2 : ∑ i : Fin n, w i * |diffAt b a i| = ∑ i : Fin n, w i * |diffAt a b i| :=
      Finset.sum_congr rfl fun i _ => by unfold diffAt; rw [abs_sub_comm]
    rw [h1, h2]
    simp only [Val.div, if_neg hs]
  · intro pa pb
    refine div_le_one_of_le₀ (Finset.sum_le_sum fun i _ => mul_le_mul_of_nonneg_left ?_ (hw i i.2)) hden
    unfold diffAt
    rw [abs_of_nonneg (add_nonneg (pa i) (pb i)), abs_le]
    constructor <;> linarith [pa i, pb i]
  · intro hw'
    rw [div_eq_zero_iff, or_iff_left hs]
    constructor
    · intro h
      refine coords_eq ha hb fun i => ?_
      have := (Finset.sum_eq_zero_iff_of_nonneg fun (i : Fin n) _ => mul_nonneg (hw i i.2) (abs_nonneg (diffAt a b i))).1 h i (Finset.mem_univ _)
      rw [mul_eq_zero, or_iff_right (hw' i i.2).ne'] at this
      exact this
    · intro h
      refine Finset.sum_eq_zero fun i _ => ?_
      simp [diffAt, h]

theorem braycurtis_pair (x y u v : ℝ) (h : |x + u| + |y + v| ≠ 0) :
    (⟨[x, y], .float⟩ : Point ℝ).distance metrics ⟨[u, v], .float⟩ (.name "braycurtis") [] =
      .ok (.fin ((|x - u| + |y - v|) / (|x + u| + |y + v|))) := by
  obtain ⟨d, h1, -, h2, -⟩ := C127_braycurtis 2 (by norm_num) [] (fun _ => 1) (by simp [NamesIn]) (.inl ⟨.inl rfl, fun _ => rfl⟩)
    (fun _ _ => zero_le_one) ⟨[x, y], .float⟩ ⟨[u, v], .float⟩ rfl rfl (by simpa [Fin.sum_univ_two] using h)
  rw [h1, h2]
  simp [Fin.sum_univ_two, diffAt]

/-- **C127 (violated).** `braycurtis` does not satisfy the triangle inequality: (1, 0) and (0, 1) have distance 1, and both have distance
1/3 from (1, 1). -/
theorem C127_braycurtis_fails :
    (⟨[1, 0], .float⟩ : Point ℝ).distance metrics ⟨[0, 1], .float⟩ (.name "braycurtis") [] = .ok (.fin 1) ∧
    (⟨[1, 0], .float⟩ : Point ℝ).distance metrics ⟨[1, 1], .float⟩ (.name "braycurtis") [] = .ok (.fin (1 / 3)) ∧
    (⟨[1, 1], .float⟩ : Point ℝ).distance metrics ⟨[0, 1], .float⟩ (.name "braycurtis") [] = .ok (.fin (1 / 3)) := by
  refine ⟨?_, ?_, ?_⟩ <;> rw [braycurtis_pair _ _ _ _ (by norm_num)] <;> norm_num

/-! ## Cosine and correlation -/

/-- Weights as `np.average` wants them. -/
def WList (n : Nat) (o : Option (List ℝ)) (w : Nat → ℝ) : Prop :=
  (o = none ∧ ∀ i, w i = 1) ∨ ∃ l : List ℝ, o = some l ∧ l.length = n ∧ ∀ i < n, w i = l.getD i 0

theorem average_eq {n : Nat} {o : Option (List ℝ)} {w : Nat → ℝ} (h : WList n o w) (hs : 0 < ∑ i : Fin n, w i) {x : List ℝ}
    (hx : x.length = n) : average o x = .ok (.fin ((∑ i : Fin n, w i * x.getD i 0) / ∑ i : Fin n, w i)) := by
  rcases h with ⟨rfl, h1⟩ | ⟨l, rfl, hl, h1⟩
  · have hn : (x.length : ℝ) ≠ 0 := by
      simp only [h1] at hs
      simp at hs
      rw [hx]
      positivity
    simp only [average, Val.div, if_neg hn]
    rw [sum_getD hx]
    simp [h1, hx]
  · have hsum : l.sum = ∑ i : Fin n, w i := by
      rw [sum_getD hl]
      exact Finset.sum_congr rfl fun i _ => (h1 i i.2).symm
    simp only [average, ne_eq, hl, hx, not_true_eq_false, if_false, hsum, if_neg hs.ne']
    congr 3
    rw [sum_getD (n := n) (by simp [hl, hx])]
    refine Finset.sum_congr rfl fun i _ => ?_
    rw [getD_zipWith_lt (by omega) (by omega), h1 i i.2, mul_comm]

theorem cauchy_weighted {n : Nat} {w x y : Nat → ℝ} (hw : ∀ i < n, 0 ≤ w i) :
    (∑ i : Fin n, w i * (x i * y i)) ^ 2 ≤ (∑ i : Fin n, w i * (x i * x i)) * ∑ i : Fin n, w i * (y i * y i) := by
  have := Finset.sum_mul_sq_le_sq_mul_sq Finset.univ (fun i : Fin n => √ (w i) * x i) (fun i : Fin n => √ (w i) * y i)
  have e : ∀ (f g : Nat → ℝ), ∑ i : Fin n, w i * (f i * g i) = ∑ i : Fin n, √ (w i) * f i * (√ (w i) * g i) := by
    intro f g
    refine Finset.sum_congr rfl fun i _ => ?_
    have := Real.mul_self_sqrt (hw i i.2)
    calc w i * (f i * g i) = (√ (w i) * √ (w i)) * (f i * g i) := by rw [this]
      _ = _ := by ring
  rw [e, e, e]
  simpa only [sq] using this

theorem cosDist_range {n : Nat} {w x y : Nat → ℝ} (hw : ∀ i < n, 0 ≤ w i) : 0 ≤ cosDist n w x y ∧ cosDist n w x y ≤ 2 := by
  have h := Real.abs_le_sqrt (cauchy_weighted (x := x) (y := y) hw)
  have h2 : |(∑ i : Fin n, w i * (x i * y i)) / √ ((∑ i : Fin n, w i * (x i * x i)) * ∑ i : Fin n, w i * (y i * y i))| ≤ 1 := by
    rw [abs_div, abs_of_nonneg (Real.sqrt_nonneg _)]
    exact div_le_one_of_le₀ h (Real.sqrt_nonneg _)
  obtain ⟨h3, h4⟩ := abs_le.1 h2
  unfold cosDist
  constructor <;> linarith

theorem cosDist_comm (n : Nat) (w x y : Nat → ℝ) : cosDist n w x y = cosDist n w y x := by
  unfold cosDist
  rw [mul_comm (∑ i : Fin n, w i * (x i * x i))]
  congr 2
  exact Finset.sum_congr rfl fun i _ => by ring

theorem corr_eq {n : Nat} {o : Option (List ℝ)} {w : Nat → ℝ} (h : WList n o w) (hw : ∀ i < n, 0 ≤ w i) (hs : 0 < ∑ i : Fin n, w i)
    {u v : List ℝ} (hu : u.length = n) (hv : v.length = n) {x y : Nat → ℝ} (hx : ∀ i < n, u.getD i 0 = x i) (hy : ∀ i < n, v.getD i 0 = y i)
    (h0 : ∑ i : Fin n, w i * (x i * x i) ≠ 0) (h1 : ∑ i : Fin n, w i * (y i * y i) ≠ 0) :
    correlationCore o false u v = .ok (.fin (cosDist n w x y)) := by
  have e1 : ∑ i : Fin n, w i * (List.zipWith (fun a b => a * b) u v).getD i 0 = ∑ i : Fin n, w i * (x i * y i) :=
    Finset.sum_congr rfl fun i _ => by rw [getD_zipWith_lt (by omega) (by omega), hx i i.2, hy i i.2]
  have e2 : ∑ i : Fin n, w i * (u.map fun x => x * x).getD i 0 = ∑ i : Fin n, w i * (x i * x i) :=
    Finset.sum_congr rfl fun i _ => by rw [getD_map_lt (f := fun x => x * x) (by omega), hx i i.2]
  have e3 : ∑ i : Fin n, w i * (v.map fun x => x * x).getD i 0 = ∑ i : Fin n, w i * (y i * y i) :=
    Finset.sum_congr rfl fun i _ => by rw [getD_map_lt (f := fun x => x * x) (by omega), hy i i.2]
  have p0 : 0 ≤ ∑ i : Fin n, w i * (x i * x i) := Finset.sum_nonneg fun i _ => mul_nonneg (hw i i.2) (mul_self_nonneg _)
  have p1 : 0 ≤ ∑ i : Fin n, w i * (y i * y i) := Finset.sum_nonneg fun i _ => mul_nonneg (hw i i.2) (mul_self_nonneg _)
  simp only [correlationCore, Bool.false_eq_true, if_false, bind, Except.bind, bcast2_eq _ (hu.trans hv.symm), pure, Except.pure]
  rw [average_eq h hs (by simp [hu, hv]), average_eq h hs (by simp [hu]), average_eq h hs (by simp [hv]), e1, e2, e3]
  obtain ⟨W, hW⟩ : ∃ W, W = ∑ i : Fin n, w i := ⟨_, rfl⟩
  obtain ⟨A, hA⟩ : ∃ A, A = ∑ i : Fin n, w i * (x i * x i) := ⟨_, rfl⟩
  obtain ⟨B, hB⟩ : ∃ B, B = ∑ i : Fin n, w i * (y i * y i) := ⟨_, rfl⟩
  obtain ⟨C, hC⟩ : ∃ C, C = ∑ i : Fin n, w i * (x i * y i) := ⟨_, rfl⟩
  have hd := cosDist_range (n := n) (x := x) (y := y) hw
  unfold cosDist at hd ⊢
  rw [← hW] at hs ⊢
  rw [← hA] at h0 p0 hd ⊢
  rw [← hB] at h1 p1 hd ⊢
  rw [← hC] at hd ⊢
  have hAB : 0 < A * B := mul_pos (lt_of_le_of_ne p0 h0.symm) (lt_of_le_of_ne p1 h1.symm)
  have hsq : √ (A / W * (B / W)) = √ (A * B) / W := by
    rw [show A / W * (B / W) = A * B / (W * W) by field_simp, Real.sqrt_div hAB.le, Real.sqrt_mul_self hs.le]
  have hsq0 : √ (A * B) / W ≠ 0 := (div_pos (Real.sqrt_pos.2 hAB) hs).ne'
  have hmul : (Val.fin (A / W)).mul (.fin (B / W)) = .fin (A / W * (B / W)) := rfl
  have hnn : 0 ≤ A / W * (B / W) := mul_nonneg (div_nonneg p0 hs.le) (div_nonneg p1 hs.le)
  have hC' : C / W / (√ (A * B) / W) = C / √ (A * B) := div_div_div_cancel_right₀ hs.ne' _ _
  simp only [hmul, Val.sqrt, if_pos hnn, hsq, Val.div, if_neg hsq0, hC', Val.sub, Val.neg, Val.add, Val.abs]
  congr 2
  rw [← sub_eq_add_neg]
  exact abs_of_nonneg hd.1

/-- The weights given by keyword as `np.average` wants them: none, or one for every coordinate. -/
def WeightsList (n : Nat) (kw : Kw) (w : Nat → ℝ) : Prop :=
  ((kw.lookup "w" = none ∨ kw.lookup "w" = some .none) ∧ ∀ i, w i = 1) ∨
  ∃ l : List ℝ, kw.lookup "w" = some (.vec l) ∧ l.length = n ∧ ∀ i < n, w i = l.getD i 0

theorem weightsList_eq {n : Nat} {kw : Kw} {w : Nat → ℝ} (h : WeightsList n kw w) (hw : ∀ i < n, 0 ≤ w i) :
    ∃ o, weightsOf kw = .ok o ∧ WList n o w := by
  rcases h with ⟨h | h, h1⟩ | ⟨l, h, hl, h1⟩
  · exact ⟨none, by simp [weightsOf, h], .inl ⟨rfl, h1⟩⟩
  · exact ⟨none, by simp [weightsOf, h], .inl ⟨rfl, h1⟩⟩
  · refine ⟨some l, ?_, .inr ⟨l, rfl, hl, h1⟩⟩
    have := any_neg_false hl fun i hi => (h1 i hi) ▸ hw i hi
    simp [weightsOf, h, KwVal.asWeights, KwVal.asVec, bind, Except.bind, this, Except.map]

theorem clamp_eq {d : ℝ} (h0 : 0 ≤ d) (h2 : d ≤ 2) :
    (if (Val.fin 0).ltB (if (Val.fin 2).ltB (.fin d) then Val.fin 2 else .fin d) then (if (Val.fin 2).ltB (.fin d) then Val.fin 2 else .fin d)
      else Val.fin 0) = .fin d := by
  have : (Val.fin 2).ltB (.fin d) = false := by simpa [Val.ltB] using h2
  rw [this]
  simp only [Bool.false_eq_true, if_false, Val.ltB, decide_eq_true_eq]
  split_ifs with h
  · rfl
  · rw [le_antisymm (not_lt.1 h) h0]

/-- **C127 (cosine).** `cosine` of two points with a positive weighted square sum is `1 - Σ wᵢpᵢqᵢ / √(Σ wᵢpᵢ² Σ wᵢqᵢ²)`: symmetric, between 0
and 2. Without weights it is `1 - cos` of the angle between them, and 0 exactly when one is a positive multiple of the other. -/
theorem C127_cosine (n : Nat) (kw : Kw) (w : Nat → ℝ) (hk : NamesIn kw ["w"]) (hW : WeightsList n kw w) (hw : ∀ i < n, 0 ≤ w i)
    (hs : 0 < ∑ i : Fin n, w i) (a b : Point ℝ) (ha : a.data.length = n) (hb : b.data.length = n)
    (h0 : ∑ i : Fin n, w i * (coord a i * coord a i) ≠ 0) (h1 : ∑ i : Fin n, w i * (coord b i * coord b i) ≠ 0) :
    ∃ d, a.distance metrics b (.name "cosine") kw = .ok (.fin d) ∧ b.distance metrics a (.name "cosine") kw = .ok (.fin d) ∧
      d = cosDist n w (coord a) (coord b) ∧ 0 ≤ d ∧ d ≤ 2 ∧
      ((∀ i, w i = 1) → d = 1 - Real.cos (InnerProductGeometry.angle (pt n a.data) (pt n b.data)) ∧
        (d = 0 ↔ ∃ r : ℝ, 0 < r ∧ ∀ i < n, coord b i = r * coord a i)) := by
  have hval : ∀ a b : Point ℝ, a.data.length = n → b.data.length = n → ∑ i : Fin n, w i * (coord a i * coord a i) ≠ 0 →
      ∑ i : Fin n, w i * (coord b i * coord b i) ≠ 0 →
      a.distance metrics b (.name "cosine") kw = .ok (.fin (cosDist n w (coord a) (coord b))) := by
    intro a b ha hb h0 h1
    rw [named_eq hk (by decide) (f := cosine) rfl]
    obtain ⟨o, o1, o2⟩ := weightsList_eq hW hw
    simp only [cosine, bindKw_ok hk (required := []) (by simp), bind, Except.bind, o1,
      corr_eq o2 hw hs ha hb (x := coord a) (y := coord b) (fun _ _ => rfl) (fun _ _ => rfl) h0 h1, pure, Except.pure]
    rw [clamp_eq (cosDist_range hw).1 (cosDist_range hw).2]
  have hr := cosDist_range (n := n) (x := coord a) (y := coord b) hw
  refine ⟨_, hval a b ha hb h0 h1, (hval b a hb ha h1 h0).trans (by rw [cosDist_comm]), rfl, hr.1, hr.2, fun h => ?_⟩
  have hin : ∀ x y : Point ℝ, inner ℝ (pt n x.data) (pt n y.data) = ∑ i : Fin n, w i * (coord x i * coord y i) := by
    intro x y
    rw [PiLp.inner_apply]
    refine Finset.sum_congr rfl fun i _ => ?_
    rw [h]
    simp [pt, coord, mul_comm]
  have hnorm : ∀ x : Point ℝ, ‖pt n x.data‖ = √ (∑ i : Fin n, w i * (coord x i * coord x i)) := by
    intro x
    rw [← hin, real_inner_self_eq_norm_sq, Real.sqrt_sq (norm_nonneg _)]
  have hcos : cosDist n w (coord a) (coord b) = 1 - Real.cos (InnerProductGeometry.angle (pt n a.data) (pt n b.data)) := by
    rw [InnerProductGeometry.cos_angle, hnorm, hnorm, hin, ← Real.sqrt_mul (Finset.sum_nonneg fun (i : Fin n) _ => mul_nonneg (hw i i.2) (mul_self_nonneg _))]
    rfl
  refine ⟨hcos, ?_⟩
  rw [hcos, sub_eq_zero, eq_comm, InnerProductGeometry.cos_eq_one_iff_angle_eq_zero, InnerProductGeometry.angle_eq_zero_iff]
  constructor
  · rintro ⟨-, r, hr, he⟩
    refine ⟨r, hr, fun i hi => ?_⟩
    have := congrArg (fun v : EuclideanSpace ℝ (Fin n) => v ⟨i, hi⟩) he
    simpa [pt, coord] using this
  · rintro ⟨r, hr, he⟩
    refine ⟨?_, r, hr, ?_⟩
    · intro hz
      apply h0
      rw [← hin, hz, inner_zero_left]
    · ext i
      have := he i i.2
      simpa [pt, coord] using this

/-- **C127 (correlation).** `correlation` is the cosine distance of the points after subtracting the (weighted) mean of the coordinates of
each: symmetric, between 0 and 2, and unchanged when a number is added to all coordinates of a point. -/
theorem C127_correlation (n : Nat) (kw : Kw) (w : Nat → ℝ) (hk : NamesIn kw ["w"]) (hW : WeightsList n kw w) (hw : ∀ i < n, 0 ≤ w i)
    (hs : 0 < ∑ i : Fin n, w i) (a b : Point ℝ) (ha : a.data.length = n) (hb : b.data.length = n)
    (h0 : ∑ i : Fin n, w i * (coord a i - wmean n w (coord a)) ^ 2 ≠ 0) (h1 : ∑ i : Fin n, w i * (coord b i - wmean n w (coord b)) ^ 2 ≠ 0) :
    ∃ d, a.distance metrics b (.name "correlation") kw = .ok (.fin d) ∧ b.distance metrics a (.name "correlation") kw = .ok (.fin d) ∧
      d = cosDist n w (fun i => coord a i - wmean n w (coord a)) (fun i => coord b i - wmean n w (coord b)) ∧ 0 ≤ d ∧ d ≤ 2 ∧
      ∀ (x : ℝ) (c : Point ℝ), c.data = a.data.map (x + ·) → c.distance metrics b (.name "correlation") kw = .ok (.fin d) := by
  have hval : ∀ a b : Point ℝ, a.data.length = n → b.data.length = n → ∑ i : Fin n, w i * (coord a i - wmean n w (coord a)) ^ 2 ≠ 0 →
      ∑ i : Fin n, w i * (coord b i - wmean n w (coord b)) ^ 2 ≠ 0 → a.distance metrics b (.name "correlation") kw =
        .ok (.fin (cosDist n w (fun i => coord a i - wmean n w (coord a)) (fun i => coord b i - wmean n w (coord b)))) := by
    intro a b ha hb h0 h1
    rw [named_eq (names := ["w", "centered"]) (fun x hx => by have := hk x hx; simp only [List.mem_cons, List.not_mem_nil, or_false] at this ⊢; exact .inl this)
      (by decide) (f := correlation) rfl]
    obtain ⟨o, o1, o2⟩ := weightsList_eq hW hw
    have hc : kw.lookup "centered" = none := by
      rw [List.lookup_eq_none_iff]
      intro x hx
      have := hk x hx
      simp only [List.mem_cons, List.not_mem_nil, or_false] at this
      rw [bne_iff_ne, this]
      decide
    have hb' : bindKw kw ["w", "centered"] [] = .ok () := bindKw_ok (fun x hx => by
      have := hk x hx; simp only [List.mem_cons, List.not_mem_nil, or_false] at this ⊢; exact .inl this) (by simp)
    have hm : ∀ p : Point ℝ, p.data.length = n → average o p.data = .ok (.fin (wmean n w (coord p))) := fun p hp => average_eq o2 hs hp
    have key := corr_eq o2 hw hs (u := minusMean (.fin (wmean n w (coord a))) a.data) (v := minusMean (.fin (wmean n w (coord b))) b.data)
      (by simp [minusMean, ha]) (by simp [minusMean, hb]) (x := fun i => coord a i - wmean n w (coord a))
      (y := fun i => coord b i - wmean n w (coord b)) (fun i hi => getD_map_lt (f := fun u => u - wmean n w (coord a)) (by omega))
      (fun i hi => getD_map_lt (f := fun u => u - wmean n w (coord b)) (by omega)) (by simpa only [sq] using h0) (by simpa only [sq] using h1)
    rw [← key]
    simp only [correlation, hb', bind, Except.bind, o1, hc, Option.getD_none, KwVal.truth, correlationCore, hm a ha, hm b hb]
    simp
  have hr := cosDist_range (n := n) (x := fun i => coord a i - wmean n w (coord a)) (y := fun i => coord b i - wmean n w (coord b)) hw
  refine ⟨_, hval a b ha hb h0 h1, (hval b a hb ha h1 h0).trans (by rw [cosDist_comm]), rfl, hr.1, hr.2, fun x c hc => ?_⟩
  have hci : ∀ i < n, coord c i = x + coord a i := fun i hi => by
    unfold coord
    rw [hc, getD_map_lt (by omega)]
  have hmean : wmean n w (coord c) = x + wmean n w (coord a) := by
    unfold wmean
    rw [Finset.sum_congr rfl fun (i : Fin n) _ => show w i * coord c i = w i * x + w i * coord a i by rw [hci i i.2]; ring,
      Finset.sum_add_distrib, ← Finset.sum_mul, add_div, mul_div_cancel_left₀ _ hs.ne']
  have hdev : ∀ i < n, coord c i - wmean n w (coord c) = coord a i - wmean n w (coord a) := fun i hi => by rw [hci i hi, hmean]; ring
  rw [hval c b (by rw [hc]; simp [ha]) hb ?_ h1]
  · congr 2
    unfold cosDist
    rw [Finset.sum_congr rfl fun (i : Fin n) _ => show w i * ((coord c i - wmean n w (coord c)) * (coord b i - wmean n w (coord b))) =
        w i * ((coord a i - wmean n w (coord a)) * (coord b i - wmean n w (coord b))) by rw [hdev i i.2], Finset.sum_congr rfl fun (i : Fin n) _ => show w i * ((coord c i - wmean n w (coord c)) * (coord c i - wmean n w (coord c))) =
        w i * ((coord a i - wmean n w (coord a)) * (coord a i - wmean n w (coord a))) by rw [hdev i i.2]]
  · rw [Finset.sum_congr rfl fun (i : Fin n) _ => show w i * (coord c i - wmean n w (coord c)) ^ 2 =
      w i * (coord a i - wmean n w (coord a)) ^ 2 by rw [hdev i i.2]]
    exact h0

theorem cosine_pair (x y u v : ℝ) (h : x * x + y * y ≠ 0) (h' : u * u + v * v ≠ 0) :
    (⟨[x, y], .float⟩ : Point ℝ).distance metrics ⟨[u, v], .float⟩ (.name "cosine") [] =
      .ok (.fin (1 - (x * u + y * v) / √ ((x * x + y * y) * (u * u + v * v)))) := by
  obtain ⟨d, h1, -, h2, -⟩ := C127_cosine 2 [] (fun _ => 1) (by simp [NamesIn]) (.inl ⟨.inl rfl, fun _ => rfl⟩)
    (fun _ _ => zero_le_one) (by simp) ⟨[x, y], .float⟩ ⟨[u, v], .float⟩ rfl rfl (by simpa [Fin.sum_univ_two, coord] using h)
    (by simpa [Fin.sum_univ_two, coord] using h')
  rw [h1, h2]
  simp [Fin.sum_univ_two, cosDist, coord]

/-- **C127 (violated).** `cosine` does not satisfy the triangle inequality: (1, 0) and (0, 1) have distance 1, and both have distance
`1 - 1/√2 < 1/2` from (1, 1); and the origin has distance 0 from every point (its correlation is NaN, which the comparisons turn into 0). -/
theorem C127_cosine_fails :
    (⟨[1, 0], .float⟩ : Point ℝ).distance metrics ⟨[0, 1], .float⟩ (.name "cosine") [] = .ok (.fin 1) ∧
    (⟨[1, 0], .float⟩ : Point ℝ).distance metrics ⟨[1, 1], .float⟩ (.name "cosine") [] = .ok (.fin (1 - 1 / √ 2)) ∧
    (⟨[1, 1], .float⟩ : Point ℝ).distance metrics ⟨[0, 1], .float⟩ (.name "cosine") [] = .ok (.fin (1 - 1 / √ 2)) ∧
    (1 - 1 / √ 2 : ℝ) + (1 - 1 / √ 2) < 1 ∧
    ∀ u v : ℝ, (⟨[0, 0], .float⟩ : Point ℝ).distance metrics ⟨[u, v], .float⟩ (.name "cosine") [] = .ok (.fin 0) := by
  refine ⟨?_, ?_, ?_, ?_, ?_⟩
  · rw [cosine_pair _ _ _ _ (by norm_num) (by norm_num)]; norm_num
  · rw [cosine_pair _ _ _ _ (by norm_num) (by norm_num)]; norm_num
  · rw [cosine_pair _ _ _ _ (by norm_num) (by norm_num)]; norm_num
  · have h2 : √ 2 < 2 := by
      rw [Real.sqrt_lt' (by norm_num)]; norm_num
    have h3 : 1 / 2 < 1 / √ 2 := one_div_lt_one_div_of_lt (by positivity) h2
    linarith
  · intro u v
    rw [named_eq (names := ["w"]) (by simp [NamesIn]) (by decide) (f := cosine) rfl]
    have h2 : (2 : ℝ) ≠ 0 := two_ne_zero
    simp [cosine, bindKw, bind, Except.bind, weightsOf, List.lookup, correlationCore, bcast2, average, Val.div, Val.mul, Val.sqrt, Val.infOfSign,
      Val.sub, Val.neg, Val.add, Val.abs, Val.ltB, pure, Except.pure]

/-! ## Concrete cases -/

example := C127_weighted 2 (by norm_num) [("w", .vec [1, 2])] (fun i => [1, 2].getD i 0) (by simp [NamesIn]) (Or.inr (Or.inl ⟨[1, 2], by simp, rfl, fun _ _ => rfl⟩))
  (by intro i hi; interval_cases i <;> norm_num) ⟨[1, 2], .float⟩ ⟨[4, 6], .float⟩ rfl rfl
example := (C127_orders 2 (by norm_num) ⟨[1, 2], .float⟩ ⟨[4, 6], .float⟩ rfl rfl).2.2.2.2 1 3 (by norm_num) (by norm_num)
example := (C127_wminkowski 2 [("p", .num 3), ("w", .vec [1, 2])] 3 [1, 2] (by simp [NamesIn]) (by simp) (by norm_num) (by simp [List.lookup]) rfl
  (by intro i hi; interval_cases i <;> norm_num)).2 (by intro i hi; interval_cases i <;> norm_num)
example := C127_seuclidean 2 [1, 2] rfl (by intro i hi; interval_cases i <;> norm_num)
example := (C127_canberra 2 (by norm_num) [] (fun _ => 1) (by simp [NamesIn]) (Or.inl ⟨Or.inl rfl, fun _ => rfl⟩) (by simp)).2.1 (by simp)
example := C127_braycurtis 2 (by norm_num) [] (fun _ => 1) (by simp [NamesIn]) (Or.inl ⟨Or.inl rfl, fun _ => rfl⟩) (by simp)
  ⟨[1, 2], .float⟩ ⟨[4, 6], .float⟩ rfl rfl (by norm_num [Fin.sum_univ_two])
example := (C127_cosine 2 [] (fun _ => 1) (by simp [NamesIn]) (Or.inl ⟨Or.inl rfl, fun _ => rfl⟩) (by simp) (by simp)
  ⟨[1, 2], .float⟩ ⟨[4, 6], .float⟩ rfl rfl (by norm_num [Fin.sum_univ_two, coord]) (by norm_num [Fin.sum_univ_two, coord]))
example := (C127_correlation 2 [] (fun _ => 1) (by simp [NamesIn]) (Or.inl ⟨Or.inl rfl, fun _ => rfl⟩) (by simp) (by simp)
  ⟨[1, 2], .float⟩ ⟨[4, 6], .float⟩ rfl rfl (by norm_num [Fin.sum_univ_two, coord, wmean]) (by norm_num [Fin.sum_univ_two, coord, wmean]))

end Verif.Props
