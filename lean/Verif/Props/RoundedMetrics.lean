import Verif.Model.RoundedMetrics
import Verif.Props.Metrics
import Verif.Props.RoundedSeg
import Verif.Props.RoundedDet

/-!
Distances of points in rounded arithmetic: C166.
-/
namespace Verif.Props

open Verif Verif.Np Verif.Model Verif.Spec

variable {ε η : ℝ} {fl : ℝ → ℝ} {n : Nat}

/-! ## Relative errors -/

theorem RelErr.quot (hf : Rounding ε fl) (hε : 2 * ε ≤ 1) {j k : Nat} {x y u v : ℝ} (hx : 0 ≤ x) (hy : 0 < y) (h1 : RelErr ε j x u) (h2 : RelErr ε k y v) : RelErr ε (j + 2 * k) (x / y) (u / v) := by
  have e0 := hf.nonneg
  have p1 : 0 < (1 - ε) ^ k := pow_pos (by linarith) _
  have p2 : 0 < (1 + ε) ^ k := pow_pos (by linarith) _
  have p3 : 0 ≤ (1 - ε) ^ j := pow_nonneg (by linarith) _
  have p4 : 0 < (1 + ε) ^ j := pow_pos (by linarith) _
  have v0 : 0 < v := lt_of_lt_of_le (mul_pos p1 hy) h2.1
  have u0 : 0 ≤ u := (mul_nonneg p3 hx).trans h1.1
  have q0 : 0 ≤ x / y := div_nonneg hx hy.le
  have a1 : (1 - ε) ^ k * (1 + ε) ^ k ≤ 1 := by rw [← mul_pow]; exact pow_le_one₀ (by nlinarith) (by nlinarith)
  have a2 : 1 ≤ (1 + ε) ^ k * ((1 + ε) ^ k * (1 - ε) ^ k) := by
    rw [← mul_pow, ← mul_pow]
    refine one_le_pow₀ ?_
    nlinarith [mul_nonneg e0 e0, mul_nonneg e0 (mul_nonneg e0 e0), mul_nonneg e0 (sub_nonneg.2 hε)]
  have a3 : (1 - ε) ^ k ≤ 1 := pow_le_one₀ (by linarith) (by linarith)
  have c : x = x / y * y := by field_simp
  have e1 : (1 - ε) ^ (j + 2 * k) = (1 - ε) ^ j * ((1 - ε) ^ k * (1 - ε) ^ k) := by rw [pow_add, two_mul, pow_add]
  have e2 : (1 + ε) ^ (j + 2 * k) = (1 + ε) ^ j * ((1 + ε) ^ k * (1 + ε) ^ k) := by rw [pow_add, two_mul, pow_add]
  rw [RelErr, e1, e2]
  generalize x / y = q at *
  subst c
  constructor
  · rw [le_div_iff₀ v0]
    have m1 : (1 - ε) ^ j * ((1 - ε) ^ k * (1 - ε) ^ k) * q * v ≤ (1 - ε) ^ j * ((1 - ε) ^ k * (1 - ε) ^ k) * q * ((1 + ε) ^ k * y) :=
      mul_le_mul_of_nonneg_left h2.2 (by positivity)
    have m2 : (1 - ε) ^ k * ((1 - ε) ^ k * (1 + ε) ^ k) ≤ 1 * 1 := mul_le_mul a3 a1 (by positivity) zero_le_one
    have m3 := mul_le_mul_of_nonneg_left m2 (show 0 ≤ (1 - ε) ^ j * (q * y) by positivity)
    nlinarith [h1.1]
  · rw [div_le_iff₀ v0]
    have m1 : (1 + ε) ^ j * ((1 + ε) ^ k * (1 + ε) ^ k) * q * ((1 - ε) ^ k * y) ≤ (1 + ε) ^ j * ((1 + ε) ^ k * (1 + ε) ^ k) * q * v :=
      mul_le_mul_of_nonneg_left h2.1 (by positivity)
    have m3 := mul_le_mul_of_nonneg_left a2 (show 0 ≤ (1 + ε) ^ j * (q * y) by positivity)
    nlinarith [h1.2]

theorem rel_abs (hf : Rounding ε fl) (x : ℝ) : RelErr ε 1 |x| |fl x| := by
  have : |fl x| = fl |x| := by
    rcases le_total 0 x with h | h
    · rw [abs_of_nonneg h, abs_of_nonneg (fl_nonneg hf h)]
    · rw [abs_of_nonpos h, hf.odd, abs_of_nonpos]
      have := fl_nonneg hf (x := -x) (by linarith)
      rw [hf.odd] at this
      linarith
  rw [this]
  exact fl_rel hf (abs_nonneg x)

theorem rel_eq_zero (hf : Rounding ε fl) {k : Nat} {x z : ℝ} (hx : 0 ≤ x) (h : RelErr ε k x z) : z = 0 ↔ x = 0 := by
  have p : 0 < (1 - ε) ^ k := pow_pos (by linarith [hf.lt_one]) _
  constructor
  · intro hz
    rw [hz] at h
    nlinarith [h.1]
  · intro hx
    rw [hx] at h
    have h1 := h.1
    have h2 := h.2
    rw [mul_zero] at h1 h2
    linarith

/-- Sums of computed terms that are not negative. -/
theorem terms_rel (hf : Rounding ε fl) {k : Nat} {u v : List ℝ} (hn : 0 < n) (hu : u.length = n) (hv : v.length = n) {f g : ℝ → ℝ → ℝ} (hg : ∀ x y, 0 ≤ g x y) (h : ∀ x y, RelErr ε k (g x y) (f x y)) {s : ℝ}
    (hs : SumsTo fl (List.zipWith f u v) s) : RelErr ε (n + k - 1) (∑ i : Fin n, g (u.getD i 0) (v.getD i 0)) s := by
  have r1 := sums_rel hf hs (by
    intro x hx
    rw [List.zipWith_eq_zipWith_take_min, ← List.map_uncurry_zip_eq_zipWith] at hx
    obtain ⟨p, -, rfl⟩ := List.mem_map.1 hx
    exact (h _ _).nonneg hf (hg _ _))
  have r2 : RelErr ε k (List.zipWith g u v).sum (List.zipWith f u v).sum := by
    refine RelErr.sum ?_
    rw [← List.map_uncurry_zip_eq_zipWith, ← List.map_uncurry_zip_eq_zipWith, List.forall₂_map_left_iff, List.forall₂_map_right_iff, List.forall₂_same]
    exact fun p _ => h _ _
  have e : (List.zipWith g u v).sum = ∑ i : Fin n, g (u.getD i 0) (v.getD i 0) := by
    rw [sum_getD (n := n) (by simp [hu, hv])]
    exact Finset.sum_congr rfl fun i _ => getD_zipWith_lt (by omega) (by omega)
  rw [← e]
  have := r2.trans hf r1
  rwa [List.length_zipWith, hu, hv, min_self, show k + (n - 1) = n + k - 1 by omega] at this

/-- `np.dot` of a list of pairs with products that are not negative. -/
theorem dot_rel (hf : Rounding ε fl) {ps : List (ℝ × ℝ)} {z : ℝ} (h : DotTo fl ps z) (h0 : ∀ p ∈ ps, 0 ≤ p.1 * p.2) : 0 < ps.length ∧ RelErr ε ps.length (ps.map fun p => p.1 * p.2).sum z := by
  induction h with
  | @one x y z h =>
    have q : 0 ≤ x * y := h0 (x, y) (by simp)
    refine ⟨by simp, ?_⟩
    simp only [List.map_cons, List.map_nil, List.sum_cons, List.sum_nil, add_zero, List.length_cons, List.length_nil, Nat.zero_add]
    rcases h with rfl | rfl
    · exact fl_rel hf q
    · exact (RelErr.refl _).weaken hf (by omega) q
  | @add xs ys zs s t _ _ hz ih1 ih2 =>
    have q1 : ∀ p ∈ xs, 0 ≤ p.1 * p.2 := fun p hp => h0 p (hz.mem_iff.2 (List.mem_append_left _ hp))
    have q2 : ∀ p ∈ ys, 0 ≤ p.1 * p.2 := fun p hp => h0 p (hz.mem_iff.2 (List.mem_append_right _ hp))
    obtain ⟨l1, r1⟩ := ih1 q1
    obtain ⟨l2, r2⟩ := ih2 q2
    have s1 : 0 ≤ (xs.map fun p => p.1 * p.2).sum := List.sum_nonneg (by
      intro x hx
      obtain ⟨p, hp, rfl⟩ := List.mem_map.1 hx
      exact q1 p hp)
    have s2 : 0 ≤ (ys.map fun p => p.1 * p.2).sum := List.sum_nonneg (by
      intro x hx
      obtain ⟨p, hp, rfl⟩ := List.mem_map.1 hx
      exact q2 p hp)
    have w1 := r1.weaken hf (k := xs.length + ys.length - 1) (by omega) s1
    have w2 := r2.weaken hf (k := xs.length + ys.length - 1) (by omega) s2
    have r := w1.add w2
    have e := (hz.map fun p : ℝ × ℝ => p.1 * p.2).sum_eq
    rw [e, hz.length_eq, List.map_append, List.sum_append, List.length_append]
    refine ⟨by omega, ?_⟩
    have := r.trans hf (fl_rel hf (r.nonneg hf (by linarith)))
    rwa [show xs.length + ys.length - 1 + 1 = xs.length + ys.length by omega] at this

/-! ## The distances -/

theorem city_rel (hf : Rounding ε fl) (hn : 0 < n) {a b : Point ℝ} (ha : a.data.length = n) (hb : b.data.length = n) {z : ℝ} (h : CityblockTo fl a.data b.data z) :
    RelErr ε n (∑ i : Fin n, |diffAt a b i|) z := by
  have := terms_rel hf hn ha hb (g := fun x y => |x - y|) (fun _ _ => abs_nonneg _) (fun x y => rel_abs hf (x - y)) h
  rwa [show n + 1 - 1 = n by omega] at this

theorem sqe_rel (hf : Rounding ε fl) {a b : Point ℝ} (ha : a.data.length = n) (hb : b.data.length = n) {z : ℝ} (h : SqeuclideanTo fl a.data b.data z) :
    RelErr ε (n + 2) (∑ i : Fin n, diffAt a b i ^ 2) z := by
  obtain ⟨-, r1⟩ := dot_rel hf h (by
    intro p hp
    obtain ⟨d, -, rfl⟩ := List.mem_map.1 hp
    exact mul_self_nonneg d)
  rw [List.map_map, List.length_map, List.length_zipWith, ha, hb, min_self] at r1
  have e : ∀ f : ℝ → ℝ → ℝ, (List.zipWith f a.data b.data).sum = ∑ i : Fin n, f (a.data.getD i 0) (b.data.getD i 0) := by
    intro f
    rw [sum_getD (n := n) (by simp [ha, hb])]
    exact Finset.sum_congr rfl fun i _ => getD_zipWith_lt (by omega) (by omega)
  have r2 : RelErr ε 2 (List.zipWith (fun x y => (x - y) ^ 2) a.data b.data).sum (((List.zipWith (fun x y => fl (x - y)) a.data b.data).map ((fun p : ℝ × ℝ => p.1 * p.2) ∘ fun d => (d, d)))).sum := by
    refine RelErr.sum ?_
    rw [← List.map_uncurry_zip_eq_zipWith, ← List.map_uncurry_zip_eq_zipWith, List.map_map, List.forall₂_map_left_iff, List.forall₂_map_right_iff, List.forall₂_same]
    intro p _
    have := sq_rel hf (hf.rel (p.1 - p.2))
    simpa [Function.uncurry, sq] using this
  rw [e] at r2
  have := r2.trans hf r1
  rwa [Nat.add_comm] at this

theorem euc_rel (hf : Rounding ε fl) (hη : 0 ≤ η) {a b : Point ℝ} (ha : a.data.length = n) (hb : b.data.length = n) {z : ℝ} (h : EuclideanTo fl η a.data b.data z) :
    |z - √ (∑ i : Fin n, diffAt a b i ^ 2)| ≤ (ε + η * (1 + ε)) * √ (∑ i : Fin n, diffAt a b i ^ 2) := by
  have e0 := hf.nonneg
  have e1 := hf.lt_one
  have e : (List.zipWith (fun x y => fl (x - y) ^ 2) a.data b.data).sum = ∑ i : Fin n, fl (diffAt a b i) ^ 2 := by
    rw [sum_getD (n := n) (by simp [ha, hb])]
    exact Finset.sum_congr rfl fun i _ => getD_zipWith_lt (f := fun x y => fl (x - y) ^ 2) (by omega) (by omega)
  unfold EuclideanTo at h
  rw [e] at h
  have S0 : 0 ≤ ∑ i : Fin n, diffAt a b i ^ 2 := Finset.sum_nonneg fun i _ => sq_nonneg _
  have lo : (1 - ε) ^ 2 * ∑ i : Fin n, diffAt a b i ^ 2 ≤ ∑ i : Fin n, fl (diffAt a b i) ^ 2 := by
    rw [Finset.mul_sum]
    exact Finset.sum_le_sum fun i _ => (sq_rel hf (hf.rel (diffAt a b i))).1
  have hi : ∑ i : Fin n, fl (diffAt a b i) ^ 2 ≤ (1 + ε) ^ 2 * ∑ i : Fin n, diffAt a b i ^ 2 := by
    rw [Finset.mul_sum]
    exact Finset.sum_le_sum fun i _ => (sq_rel hf (hf.rel (diffAt a b i))).2
  have l1 : (1 - ε) * √ (∑ i : Fin n, diffAt a b i ^ 2) ≤ √ (∑ i : Fin n, fl (diffAt a b i) ^ 2) := by
    refine Real.le_sqrt_of_sq_le ?_
    rwa [mul_pow, Real.sq_sqrt S0]
  have l2 : √ (∑ i : Fin n, fl (diffAt a b i) ^ 2) ≤ (1 + ε) * √ (∑ i : Fin n, diffAt a b i ^ 2) := by
    refine Real.sqrt_le_iff.2 ⟨by positivity, ?_⟩
    rwa [mul_pow, Real.sq_sqrt S0]
  have := Real.sqrt_nonneg (∑ i : Fin n, diffAt a b i ^ 2)
  generalize √ (∑ i : Fin n, diffAt a b i ^ 2) = D at *
  generalize √ (∑ i : Fin n, fl (diffAt a b i) ^ 2) = E at *
  have m := mul_le_mul_of_nonneg_left l2 hη
  rw [abs_le] at h ⊢
  constructor <;> nlinarith [h.1, h.2]

theorem canberra_term (hf : Rounding ε fl) (hε : 2 * ε ≤ 1) (x y : ℝ) : RelErr ε 4 (|x - y| / (|x| + |y|)) (canberraFl fl x y) := by
  unfold canberraFl
  have s0 : 0 ≤ |x| + |y| := by positivity
  have r1 := fl_rel hf s0
  rcases s0.eq_or_lt with h | h
  · have : fl (|x| + |y|) = 0 := by rw [← h]; exact fl_zero hf
    rw [if_pos this, ← h, div_zero]
    exact ⟨by simp, by simp⟩
  · rw [if_neg (fl_pos hf h).ne']
    have := (rel_abs hf (x - y)).quot hf hε (abs_nonneg _) h r1
    exact this.trans hf (fl_rel hf (this.nonneg hf (by positivity)))

theorem canb_rel (hf : Rounding ε fl) (hε : 2 * ε ≤ 1) (hn : 0 < n) {a b : Point ℝ} (ha : a.data.length = n) (hb : b.data.length = n) {z : ℝ} (h : CanberraTo fl a.data b.data z) :
    RelErr ε (n + 3) (canberraDist n (fun _ => 1) a b) z := by
  have := terms_rel hf hn ha hb (g := fun x y => |x - y| / (|x| + |y|)) (fun _ _ => by positivity) (canberra_term hf hε) h
  have e : canberraDist n (fun _ => 1) a b = ∑ i : Fin n, |a.data.getD i 0 - b.data.getD i 0| / (|a.data.getD i 0| + |b.data.getD i 0|) := by
    unfold canberraDist
    refine Finset.sum_congr rfl fun i _ => ?_
    split_ifs with h
    · rw [h.1, h.2]; simp
    · rw [one_mul]; rfl
  rw [e]
  exact this

/-- The exact distances. -/
theorem exact_names (hn : 0 < n) {a b : Point ℝ} (ha : a.data.length = n) (hb : b.data.length = n) :
    a.distance metrics b (.name "cityblock") [] = .ok (.fin (∑ i : Fin n, |diffAt a b i|)) ∧
    a.distance metrics b (.name "euclidean") [] = .ok (.fin (√ (∑ i : Fin n, diffAt a b i ^ 2))) ∧
    a.distance metrics b (.name "sqeuclidean") [] = .ok (.fin (∑ i : Fin n, diffAt a b i ^ 2)) ∧
    a.distance metrics b (.name "canberra") [] = .ok (.fin (canberraDist n (fun _ => 1) a b)) := by
  have := C127_weighted n hn [] (fun _ => 1) (by simp [NamesIn]) (.inl ⟨.inl rfl, fun _ => rfl⟩) (fun _ _ => zero_le_one) a b ha hb
  simp only [one_mul] at this
  exact ⟨this.1, this.2.1, this.2.2, (C127_canberra n hn [] (fun _ => 1) (by simp [NamesIn]) (.inl ⟨.inl rfl, fun _ => rfl⟩) (fun _ _ => zero_le_one)).1 a b ha hb⟩

/-- **C166 (sums).** The computed distances `cityblock`, `sqeuclidean`, `canberra` and `euclidean` of two points of `n` coordinates differ from the exact ones by a small part of these. -/
theorem C166_relative (hf : Rounding ε fl) (hn : 0 < n) (hε : 2 * ((n + 3 : ℕ) * ε) ≤ 1) {a b : Point ℝ} (ha : a.data.length = n) (hb : b.data.length = n) (z : ℝ) :
    (CityblockTo fl a.data b.data z → ∃ d, a.distance metrics b (.name "cityblock") [] = .ok (.fin d) ∧ |z - d| ≤ 2 * n * ε * d) ∧
    (SqeuclideanTo fl a.data b.data z → ∃ d, a.distance metrics b (.name "sqeuclidean") [] = .ok (.fin d) ∧ |z - d| ≤ 2 * (n + 2 : ℕ) * ε * d) ∧
    (CanberraTo fl a.data b.data z → ∃ d, a.distance metrics b (.name "canberra") [] = .ok (.fin d) ∧ |z - d| ≤ 2 * (n + 3 : ℕ) * ε * d) ∧
    (0 ≤ η → EuclideanTo fl η a.data b.data z → ∃ d, a.distance metrics b (.name "euclidean") [] = .ok (.fin d) ∧ |z - d| ≤ (ε + η * (1 + ε)) * d) := by
  obtain ⟨q1, q2, q3, q4⟩ := exact_names hn ha hb
  have e0 := hf.nonneg
  have c0 : 0 ≤ canberraDist n (fun _ => 1) a b := by
    unfold canberraDist
    refine Finset.sum_nonneg fun i _ => ?_
    split_ifs
    · exact le_rfl
    · positivity
  push_cast at hε
  have n0 : (0 : ℝ) ≤ n * ε := by positivity
  refine ⟨fun h => ⟨_, q1, ?_⟩, fun h => ⟨_, q3, ?_⟩, fun h => ⟨_, q4, ?_⟩, fun hη h => ⟨_, q2, euc_rel hf hη ha hb h⟩⟩
  · exact rel_simple hf (city_rel hf hn ha hb h) (Finset.sum_nonneg fun i _ => abs_nonneg _) (by nlinarith)
  · exact rel_simple hf (sqe_rel hf ha hb h) (Finset.sum_nonneg fun i _ => sq_nonneg _) (by push_cast; nlinarith)
  · have n1 : (1 : ℝ) ≤ n := by exact_mod_cast hn
    exact rel_simple hf (canb_rel hf (by nlinarith) hn ha hb h) c0 (by push_cast; nlinarith)

/-- **C166 (maximum).** The computed `chebyshev` distance is the exact one, rounded once. -/
theorem C166_chebyshev (hf : Rounding ε fl) (hn : 0 < n) {a b : Point ℝ} (ha : a.data.length = n) (hb : b.data.length = n) :
    ∃ d, a.distance metrics b (.name "chebyshev") [] = .ok (.fin d) ∧ ∀ z, ChebyshevTo fl a.data b.data z ↔ z = fl d := by
  obtain ⟨d, q1, q2, i, q3⟩ := chebyshev_eq (n := n) ha hb hn
  refine ⟨d, by rw [C80_named_partial metrics a b "chebyshev" chebyshev [] (by simp) rfl]; exact q1, fun z => ?_⟩
  have flabs : ∀ x, |fl x| = fl |x| := by
    intro x
    rcases le_total 0 x with h | h
    · rw [abs_of_nonneg h, abs_of_nonneg (fl_nonneg hf h)]
    · rw [abs_of_nonpos h, hf.odd, abs_of_nonpos]
      have := fl_nonneg hf (x := -x) (by linarith)
      rw [hf.odd] at this
      linarith
  have hl : (absDiffFl fl a.data b.data).length = n := by simp [absDiffFl, ha, hb]
  have hg : ∀ j < n, (absDiffFl fl a.data b.data).getD j 0 = fl |a.data.getD j 0 - b.data.getD j 0| := by
    intro j hj
    rw [absDiffFl, getD_zipWith_lt (by omega) (by omega), flabs]
  unfold ChebyshevTo
  match hL : absDiffFl fl a.data b.data, hl with
  | [], hl => simp at hl; omega
  | x :: l, hl =>
    rw [hL] at hg
    have up : ∀ y ∈ x :: l, y ≤ fl d := by
      intro y hy
      obtain ⟨j, hj, rfl⟩ := List.mem_iff_getElem.1 hy
      have := hg j (by omega)
      rw [List.getD_eq_getElem?_getD, List.getElem?_eq_getElem hj, Option.getD_some] at this
      rw [this]
      exact hf.mono (q2 ⟨j, by omega⟩)
    have mem : fl d ∈ x :: l := by
      have := hg i i.2
      rw [List.getD_eq_getElem?_getD, List.getElem?_eq_getElem (by omega), Option.getD_some, ← q3] at this
      rw [← this]
      exact List.getElem_mem _
    have e : l.foldl max x = fl d := by
      obtain ⟨m1, m2⟩ := foldl_max_spec l x
      exact le_antisymm (up _ m2) (m1 _ mem)
    simp only [maxList, e, Except.ok.injEq]
    exact eq_comm

/-- **C166 (ratio).** The computed `braycurtis` distance is within a small part of the exact one, unless all sums `xᵢ + yᵢ` vanish. -/
theorem C166_braycurtis (hf : Rounding ε fl) (hn : 0 < n) (hε : 2 * ((3 * n + 1 : ℕ) * ε) ≤ 1) {a b : Point ℝ} (ha : a.data.length = n) (hb : b.data.length = n)
    (hs : ∃ i, i < n ∧ a.data.getD i 0 + b.data.getD i 0 ≠ 0) {z : Val ℝ} (h : BraycurtisTo fl a.data b.data z) :
    ∃ d x, a.distance metrics b (.name "braycurtis") [] = .ok (.fin d) ∧ z = .fin x ∧ |x - d| ≤ 2 * (3 * n + 1 : ℕ) * ε * d ∧ (x = 0 ↔ a.data = b.data) := by
  obtain ⟨s, t, h1, h2, rfl⟩ := h
  obtain ⟨i, hi, hi0⟩ := hs
  have e0 := hf.nonneg
  have n1 : (1 : ℝ) ≤ n := by exact_mod_cast hn
  have T0 : 0 < ∑ i : Fin n, |a.data.getD i 0 + b.data.getD i 0| :=
    Finset.sum_pos' (fun _ _ => abs_nonneg _) ⟨⟨i, hi⟩, Finset.mem_univ _, abs_pos.2 hi0⟩
  obtain ⟨d, q1, -, q2, q3, -, q4⟩ := C127_braycurtis n hn [] (fun _ => 1) (by simp [NamesIn]) (.inl ⟨.inl rfl, fun _ => rfl⟩) (fun _ _ => zero_le_one) a b ha hb (by simpa only [one_mul] using T0.ne')
  simp only [one_mul] at q2
  have r1 := city_rel hf hn ha hb h1
  have r2 := terms_rel hf hn ha hb (g := fun x y => |x + y|) (fun _ _ => abs_nonneg _) (fun x y => rel_abs hf (x + y)) h2
  rw [show n + 1 - 1 = n by omega] at r2
  have t0 : t ≠ 0 := fun h => T0.ne' ((rel_eq_zero hf T0.le r2).1 h)
  have r3 := r1.quot hf (by push_cast at hε; nlinarith) (Finset.sum_nonneg fun i _ => abs_nonneg _) T0 r2
  rw [← q2] at r3
  have r4 := r3.trans hf (fl_rel hf (r3.nonneg hf q3))
  rw [show n + 2 * n + 1 = 3 * n + 1 by omega] at r4
  refine ⟨d, fl (s / t), q1, by rw [if_neg t0], rel_simple hf r4 q3 hε, ?_⟩
  rw [rel_eq_zero hf q3 r4, q4 fun _ _ => one_pos]

theorem metric_names (hn : 0 < n) :
    MetricOn n (fun a b => a.distance metrics b (.name "cityblock") []) ∧ MetricOn n (fun a b => a.distance metrics b (.name "euclidean") []) ∧
    MetricOn n (fun a b => a.distance metrics b (.name "canberra") []) := by
  have key : ∀ p : ℝ, 1 ≤ p → MetricOn n fun a b => a.distance metrics b (.name "minkowski") [("p", .num p)] := fun p hp =>
    (C127_minkowski n hn [("p", .num p)] p (fun _ => 1) (by simp [NamesIn]) (.inl rfl) hp (.inl ⟨.inl rfl, fun _ => rfl⟩) fun _ _ => zero_le_one).2 fun _ _ => one_pos
  refine ⟨?_, ?_, (C127_canberra n hn [] (fun _ => 1) (by simp [NamesIn]) (.inl ⟨.inl rfl, fun _ => rfl⟩) (fun _ _ => zero_le_one)).2.1 fun _ _ => one_pos⟩
  · obtain ⟨d, h1, h2⟩ := key 1 le_rfl
    exact ⟨d, fun p q hp hq => by show p.distance metrics q _ _ = _; rw [← (C127_orders n hn p q hp hq).1]; exact h1 p q hp hq, h2⟩
  · obtain ⟨d, h1, h2⟩ := key 2 (by norm_num)
    exact ⟨d, fun p q hp hq => by show p.distance metrics q _ _ = _; rw [← (C127_orders n hn p q hp hq).2.1]; exact h1 p q hp hq, h2⟩

/-- **C166 (zero).** A computed distance is 0 for the same coordinates only. -/
theorem C166_zero (hf : Rounding ε fl) (hn : 0 < n) (hε : 2 * ε ≤ 1) {a b : Point ℝ} (ha : a.data.length = n) (hb : b.data.length = n) (z : ℝ)
    (h : CityblockTo fl a.data b.data z ∨ ChebyshevTo fl a.data b.data z ∨ SqeuclideanTo fl a.data b.data z ∨ CanberraTo fl a.data b.data z ∨
      ∃ η, 0 ≤ η ∧ η * (1 + ε) < 1 - ε ∧ EuclideanTo fl η a.data b.data z) : 0 ≤ z ∧ (z = 0 ↔ a.data = b.data) := by
  obtain ⟨q1, q2, q3, q4⟩ := exact_names hn ha hb
  obtain ⟨⟨d1, m1, m1'⟩, ⟨d2, m2, m2'⟩, ⟨d3, m3, m3'⟩⟩ := metric_names hn
  have s1 := q1.symm.trans (m1 a b ha hb)
  have s2 := q2.symm.trans (m2 a b ha hb)
  have s3 := q4.symm.trans (m3 a b ha hb)
  simp only [Except.ok.injEq, Val.fin.injEq] at s1 s2 s3
  obtain ⟨p1, z1, -, -⟩ := m1' a b a ha hb ha
  obtain ⟨p2, z2, -, -⟩ := m2' a b a ha hb ha
  obtain ⟨p3, z3, -, -⟩ := m3' a b a ha hb ha
  rw [← s1] at p1 z1
  rw [← s2] at p2 z2
  rw [← s3] at p3 z3
  have S0 : 0 ≤ ∑ i : Fin n, diffAt a b i ^ 2 := Finset.sum_nonneg fun i _ => sq_nonneg _
  rcases h with h | h | h | h | ⟨η, hη, hη1, h⟩
  · have r := city_rel hf hn ha hb h
    exact ⟨r.nonneg hf p1, by rw [rel_eq_zero hf p1 r, z1]⟩
  · obtain ⟨d, c1, c2⟩ := C166_chebyshev hf hn ha hb
    have c3 := (C127_orders n hn a b ha hb).2.2.2.2 1 1 le_rfl le_rfl
    obtain ⟨dp, dq, m, -, k2, k3, k4, k5, k6⟩ := c3
    rw [(C127_orders n hn a b ha hb).1, q1] at k2
    rw [c1] at k3
    simp only [Except.ok.injEq, Val.fin.injEq] at k2 k3
    rw [(c2 z).1 h]
    have d0 : 0 ≤ d := by
      obtain ⟨m, w1, w2, i, w3⟩ := chebyshev_eq (n := n) ha hb hn
      rw [C80_named_partial metrics a b "chebyshev" chebyshev [] (by simp) rfl, w1] at c1
      simp only [Except.ok.injEq, Val.fin.injEq] at c1
      rw [← c1, w3]
      exact abs_nonneg _
    refine ⟨fl_nonneg hf d0, ?_⟩
    rw [rel_eq_zero hf d0 (fl_rel hf d0), ← z1]
    constructor
    · intro h0
      rw [← k3, h0, mul_zero] at k6
      rw [k2]
      exact le_antisymm (k5.trans k6) (k2 ▸ p1)
    · intro h0
      rw [h0] at k2
      exact le_antisymm (by rw [k3, k2]; exact k4) d0
  · have r := sqe_rel hf ha hb h
    exact ⟨r.nonneg hf S0, by rw [rel_eq_zero hf S0 r, ← z2, Real.sqrt_eq_zero S0]⟩
  · have r := canb_rel hf hε hn ha hb h
    exact ⟨r.nonneg hf p3, by rw [rel_eq_zero hf p3 r, z3]⟩
  · have r := euc_rel hf hη ha hb h
    rw [← z2]
    generalize √ (∑ i : Fin n, diffAt a b i ^ 2) = D at *
    rw [abs_le] at r
    refine ⟨by nlinarith [r.1], fun h0 => ?_, fun h0 => ?_⟩
    · rw [h0] at r
      nlinarith [r.1]
    · rw [h0] at r
      linarith [r.1, r.2]

/-! ## Order of the points -/

theorem dotTo_neg {ps : List (ℝ × ℝ)} {z : ℝ} (h : DotTo fl ps z) : DotTo fl (ps.map fun p => (-p.1, -p.2)) z := by
  induction h with
  | one h => exact .one (by simpa using h)
  | add _ _ hz ih1 ih2 => exact .add ih1 ih2 (by simpa using hz.map fun p : ℝ × ℝ => (-p.1, -p.2))

theorem absDiffFl_swap (hf : Rounding ε fl) (u v : List ℝ) : absDiffFl fl v u = absDiffFl fl u v := by
  unfold absDiffFl
  rw [List.zipWith_comm]
  congr 1
  funext x y
  rw [← neg_sub, hf.odd, abs_neg]

/-- **C166 (symmetry).** The order of the points does not matter, even to the last digit, provided sums are added in the same order. -/
theorem C166_swap (hf : Rounding ε fl) (u v : List ℝ) (z : ℝ) :
    (CityblockTo fl u v z → CityblockTo fl v u z) ∧ (ChebyshevTo fl u v z → ChebyshevTo fl v u z) ∧ (SqeuclideanTo fl u v z → SqeuclideanTo fl v u z) ∧
    (EuclideanTo fl η u v z → EuclideanTo fl η v u z) ∧ (CanberraTo fl u v z → CanberraTo fl v u z) ∧ (BraycurtisTo fl u v (.fin z) → BraycurtisTo fl v u (.fin z)) ∧
    (u.length = v.length → CosineTo fl u v z → CosineTo fl v u z) := by
  refine ⟨?_, ?_, ?_, ?_, ?_, ?_, ?_⟩
  · intro h
    rwa [CityblockTo, absDiffFl_swap hf]
  · intro h
    rwa [ChebyshevTo, absDiffFl_swap hf]
  · intro h
    have := dotTo_neg h
    unfold SqeuclideanTo
    rw [List.map_map, List.map_zipWith] at this
    rw [List.zipWith_comm, List.map_zipWith]
    simpa [Function.comp, ← hf.odd] using this
  · intro h
    unfold EuclideanTo at *
    have e : List.zipWith (fun x y => fl (x - y) ^ 2) v u = List.zipWith (fun x y => fl (x - y) ^ 2) u v := by
      rw [List.zipWith_comm]
      congr 1
      funext x y
      rw [← neg_sub, hf.odd, neg_sq]
    rwa [e]
  · intro h
    have e : List.zipWith (canberraFl fl) v u = List.zipWith (canberraFl fl) u v := by
      rw [List.zipWith_comm]
      congr 1
      funext x y
      unfold canberraFl
      rw [← neg_sub x y, hf.odd, abs_neg, add_comm |y|]
    rwa [CanberraTo, e]
  · rintro ⟨s, t, h1, h2, h3⟩
    refine ⟨s, t, by rwa [absDiffFl_swap hf], ?_, h3⟩
    rw [List.zipWith_comm]
    simpa only [add_comm] using h2
  · rintro hl ⟨uv, uu, vv, ⟨s, h1, h1'⟩, h2, h3, h4⟩
    refine ⟨uv, vv, uu, ⟨s, ?_, by rw [← hl]; exact h1'⟩, h3, h2, by rw [mul_comm vv]; exact h4⟩
    rw [List.zipWith_comm]
    simpa only [mul_comm] using h1

/-! ## Triangles -/

/-- **C166 (triangles).** A detour is not shorter, up to the rounding. -/
theorem C166_triangle (hf : Rounding ε fl) (hn : 0 < n) (hε : 2 * ((n + 3 : ℕ) * ε) ≤ 1) {a b c : Point ℝ} (ha : a.data.length = n) (hb : b.data.length = n)
    (hc : c.data.length = n) (x y z : ℝ) :
    (CityblockTo fl a.data b.data x → CityblockTo fl b.data c.data y → CityblockTo fl a.data c.data z → (1 - 2 * n * ε) * z ≤ (1 + 2 * n * ε) * (x + y)) ∧
    (CanberraTo fl a.data b.data x → CanberraTo fl b.data c.data y → CanberraTo fl a.data c.data z →
      (1 - 2 * (n + 3 : ℕ) * ε) * z ≤ (1 + 2 * (n + 3 : ℕ) * ε) * (x + y)) ∧
    (0 ≤ η → ε + η * (1 + ε) ≤ 1 → EuclideanTo fl η a.data b.data x → EuclideanTo fl η b.data c.data y → EuclideanTo fl η a.data c.data z →
      (1 - (ε + η * (1 + ε))) * z ≤ (1 + (ε + η * (1 + ε))) * (x + y)) ∧
    (ChebyshevTo fl a.data b.data x → ChebyshevTo fl b.data c.data y → ChebyshevTo fl a.data c.data z → (1 - ε) * z ≤ (1 + ε) * (x + y)) := by
  have e0 := hf.nonneg
  have key : ∀ e : ℝ, 0 ≤ e → e ≤ 1 → ∀ d : Point ℝ → Point ℝ → ℝ, d a c ≤ d a b + d b c → |x - d a b| ≤ e * d a b → |y - d b c| ≤ e * d b c → |z - d a c| ≤ e * d a c →
      (1 - e) * z ≤ (1 + e) * (x + y) := by
    intro e h0 h1 d ht hx hy hz
    rw [abs_le] at hx hy hz
    have t1 := mul_le_mul_of_nonneg_left (show z ≤ (1 + e) * d a c by linarith) (sub_nonneg.2 h1)
    have t2 := mul_le_mul_of_nonneg_left (show (1 - e) * (d a b + d b c) ≤ x + y by linarith) (show 0 ≤ 1 + e by linarith)
    have t3 := mul_le_mul_of_nonneg_left ht (mul_nonneg (sub_nonneg.2 h1) (show 0 ≤ 1 + e by linarith))
    nlinarith
  obtain ⟨⟨d1, m1, m1'⟩, ⟨d2, m2, m2'⟩, ⟨d3, m3, m3'⟩⟩ := metric_names hn
  have n1 : (1 : ℝ) ≤ n := by exact_mod_cast hn
  have ab := C166_relative (η := η) hf hn hε ha hb x
  have bc := C166_relative (η := η) hf hn hε hb hc y
  have ac := C166_relative (η := η) hf hn hε ha hc z
  simp only at m1 m2 m3
  refine ⟨fun h1 h2 h3 => ?_, fun h1 h2 h3 => ?_, fun hη he h1 h2 h3 => ?_, fun h1 h2 h3 => ?_⟩
  · refine key (2 * n * ε) (by positivity) (by push_cast at hε; nlinarith) d1 (m1' a b c ha hb hc).2.2.2 ?_ ?_ ?_
    · obtain ⟨d, k1, k2⟩ := ab.1 h1
      rw [m1 a b ha hb] at k1
      cases k1; exact k2
    · obtain ⟨d, k1, k2⟩ := bc.1 h2
      rw [m1 b c hb hc] at k1
      cases k1; exact k2
    · obtain ⟨d, k1, k2⟩ := ac.1 h3
      rw [m1 a c ha hc] at k1
      cases k1; exact k2
  · refine key (2 * (n + 3 : ℕ) * ε) (by positivity) (by linarith) d3 (m3' a b c ha hb hc).2.2.2 ?_ ?_ ?_
    · obtain ⟨d, k1, k2⟩ := ab.2.2.1 h1
      rw [m3 a b ha hb] at k1
      cases k1; exact k2
    · obtain ⟨d, k1, k2⟩ := bc.2.2.1 h2
      rw [m3 b c hb hc] at k1
      cases k1; exact k2
    · obtain ⟨d, k1, k2⟩ := ac.2.2.1 h3
      rw [m3 a c ha hc] at k1
      cases k1; exact k2
  · refine key _ (by positivity) he d2 (m2' a b c ha hb hc).2.2.2 ?_ ?_ ?_
    · obtain ⟨d, k1, k2⟩ := ab.2.2.2 hη h1
      rw [m2 a b ha hb] at k1
      cases k1; exact k2
    · obtain ⟨d, k1, k2⟩ := bc.2.2.2 hη h2
      rw [m2 b c hb hc] at k1
      cases k1; exact k2
    · obtain ⟨d, k1, k2⟩ := ac.2.2.2 hη h3
      rw [m2 a c ha hc] at k1
      cases k1; exact k2
  · obtain ⟨d1, k1, t1⟩ := C166_chebyshev hf hn ha hb
    obtain ⟨d2, k2, t2⟩ := C166_chebyshev hf hn hb hc
    obtain ⟨d3, k3, t3⟩ := C166_chebyshev hf hn ha hc
    obtain ⟨pq, qp, qr, pr, j1, -, j2, j3, -, -, j4, -, -, j5⟩ := (C81_chebyshev n a b c ha hb hc).1 hn
    obtain ⟨_, _, _, _, j6, -, -, -, -, -, j7, -⟩ := (C81_chebyshev n b c c hb hc hc).1 hn
    obtain ⟨_, _, _, _, j8, -, -, -, -, -, j9, -⟩ := (C81_chebyshev n a c c ha hc hc).1 hn
    rw [k1] at j1
    rw [k2] at j2 j6
    rw [k3] at j3 j8
    cases j1; cases j2; cases j3; cases j6; cases j8
    have f1 := hf.rel d1
    have f2 := hf.rel d2
    have f3 := hf.rel d3
    rw [abs_of_nonneg j4] at f1
    rw [abs_of_nonneg j7] at f2
    rw [abs_of_nonneg j9] at f3
    rw [← (t1 x).1 h1] at f1
    rw [← (t2 y).1 h2] at f2
    rw [← (t3 z).1 h3] at f3
    rw [abs_le] at f1 f2 f3
    have t1 := mul_le_mul_of_nonneg_left (show z ≤ (1 + ε) * d3 by linarith) (sub_nonneg.2 hf.lt_one.le)
    have t2 := mul_le_mul_of_nonneg_left (show (1 - ε) * (d1 + d2) ≤ x + y by linarith) (show 0 ≤ 1 + ε by linarith)
    have t3 := mul_le_mul_of_nonneg_left j5 (mul_nonneg (sub_nonneg.2 hf.lt_one.le) (show 0 ≤ 1 + ε by linarith))
    nlinarith

/-! ## Cosine -/

theorem list_abs_sum (l : List ℝ) : |l.sum| ≤ (l.map abs).sum := by
  induction l with
  | nil => simp
  | cons x l ih => rw [List.sum_cons, List.map_cons, List.sum_cons]; exact (abs_add_le _ _).trans (by linarith)

/-- Sums of numbers of any sign. -/
theorem sums_abs (hf : Rounding ε fl) {xs : List ℝ} {s : ℝ} (h : SumsTo fl xs s) : |s - xs.sum| ≤ ((1 + ε) ^ (xs.length - 1) - 1) * (xs.map abs).sum := by
  have e0 := hf.nonneg
  induction h with
  | nil => simp
  | one x => simp
  | @add xs ys zs s t _ _ nx ny hz ih1 ih2 =>
    have l1 := List.length_pos_iff.2 nx
    have l2 := List.length_pos_iff.2 ny
    rw [hz.sum_eq, (hz.map abs).sum_eq, hz.length_eq, List.map_append, List.sum_append, List.sum_append, List.length_append]
    have a1 : |xs.sum| ≤ (xs.map abs).sum := list_abs_sum xs
    have a2 : |ys.sum| ≤ (ys.map abs).sum := list_abs_sum ys
    have p1 : (1 + ε) ^ (xs.length - 1) ≤ (1 + ε) ^ (xs.length + ys.length - 2) := pow_le_pow_right₀ (by linarith) (by omega)
    have p2 : (1 + ε) ^ (ys.length - 1) ≤ (1 + ε) ^ (xs.length + ys.length - 2) := pow_le_pow_right₀ (by linarith) (by omega)
    have p3 : (1 + ε) ^ (xs.length + ys.length - 1) = (1 + ε) ^ (xs.length + ys.length - 2) * (1 + ε) := by
      rw [← pow_succ]; congr 1; omega
    have A0 := (abs_nonneg _).trans a1
    have B0 := (abs_nonneg _).trans a2
    rw [p3]
    generalize (1 + ε) ^ (xs.length + ys.length - 2) = P at *
    have b1 : |s - xs.sum| ≤ (P - 1) * (xs.map abs).sum := ih1.trans (mul_le_mul_of_nonneg_right (by linarith) A0)
    have b2 : |t - ys.sum| ≤ (P - 1) * (ys.map abs).sum := ih2.trans (mul_le_mul_of_nonneg_right (by linarith) B0)
    have b3 : |s + t| ≤ P * ((xs.map abs).sum + (ys.map abs).sum) := by
      rw [abs_le] at *
      constructor <;> linarith [b1.1, b1.2, b2.1, b2.2, a1.1, a1.2, a2.1, a2.2]
    have b4 := (hf.rel (s + t)).trans (mul_le_mul_of_nonneg_left b3 e0)
    rw [abs_le] at *
    constructor <;> nlinarith [b1.1, b1.2, b2.1, b2.2, b4.1, b4.2]

theorem rel_gap (hf : Rounding ε fl) {k : Nat} {x z : ℝ} (hx : 0 ≤ x) (h : RelErr ε k x z) : |z - x| ≤ ((1 + ε) ^ k - 1) * x := by
  have e0 := hf.nonneg
  have b1 := one_add_mul_le_pow (show (-2 : ℝ) ≤ ε by linarith) k
  have b2 := one_add_mul_le_pow (show (-2 : ℝ) ≤ -ε by linarith [hf.lt_one]) k
  rw [← sub_eq_add_neg] at b2
  have b3 := mul_le_mul_of_nonneg_right (show 2 - (1 + ε) ^ k ≤ (1 - ε) ^ k by linarith) hx
  rw [abs_le]
  constructor <;> linarith [h.1, h.2]

theorem rel_root (hf : Rounding ε fl) {k : Nat} {x z : ℝ} (hx : 0 ≤ x) (h : RelErr ε k x z) : RelErr ε k (√ x) (√ z) := by
  have e0 := hf.nonneg
  have p0 : 0 ≤ (1 - ε) ^ k := pow_nonneg (by linarith [hf.lt_one]) _
  have p1 : (1 - ε) ^ k ≤ 1 := pow_le_one₀ (by linarith [hf.lt_one]) (by linarith)
  have p2 : 1 ≤ (1 + ε) ^ k := one_le_pow₀ (by linarith)
  constructor
  · refine Real.le_sqrt_of_sq_le ?_
    rw [mul_pow, Real.sq_sqrt hx]
    nlinarith [h.1, mul_nonneg (mul_nonneg p0 (sub_nonneg.2 p1)) hx]
  · refine Real.sqrt_le_iff.2 ⟨by positivity, ?_⟩
    rw [mul_pow, Real.sq_sqrt hx]
    nlinarith [h.2, mul_nonneg (mul_nonneg (zero_le_one.trans p2) (sub_nonneg.2 p2)) hx]

theorem mean_sq (hf : Rounding ε fl) (hn : 0 < n) {u : List ℝ} (hu : u.length = n) {z : ℝ} (h : MeanProdTo fl u u z) :
    RelErr ε (n + 1) ((∑ i : Fin n, u.getD i 0 ^ 2) / n) z := by
  obtain ⟨s, h1, rfl⟩ := h
  have e : List.zipWith (fun x y => fl (x * y)) u u = List.zipWith (fun x _ => fl (x ^ 2)) u u := by
    rw [List.zipWith_self, List.zipWith_self]
    simp only [sq]
  rw [e] at h1
  have r := terms_rel hf hn hu hu (g := fun x _ => x ^ 2) (fun _ _ => sq_nonneg _) (fun x _ => fl_rel hf (sq_nonneg x)) h1
  rw [show n + 1 - 1 = n by omega] at r
  have r2 := r.mul (c := (n : ℝ)⁻¹) (by positivity)
  rw [hu, div_eq_inv_mul, div_eq_inv_mul]
  exact r2.trans hf (fl_rel hf (r2.nonneg hf (mul_nonneg (by positivity) (Finset.sum_nonneg fun _ _ => sq_nonneg _))))

theorem mean_prod (hf : Rounding ε fl) (hn : 0 < n) {u v : List ℝ} (hu : u.length = n) (hv : v.length = n) {z : ℝ} (h : MeanProdTo fl u v z) :
    |z - (∑ i : Fin n, u.getD i 0 * v.getD i 0) / n| ≤ ((1 + ε) ^ (n + 1) - 1) * ((∑ i : Fin n, |u.getD i 0 * v.getD i 0|) / n) := by
  obtain ⟨s, h1, rfl⟩ := h
  have e0 := hf.nonneg
  have N0 : (0 : ℝ) < n := by exact_mod_cast hn
  have k1 := sums_abs hf h1
  have es : ∀ f : ℝ → ℝ → ℝ, (List.zipWith f u v).sum = ∑ i : Fin n, f (u.getD i 0) (v.getD i 0) := by
    intro f
    rw [sum_getD (n := n) (by simp [hu, hv])]
    exact Finset.sum_congr rfl fun i _ => getD_zipWith_lt (by omega) (by omega)
  rw [List.map_zipWith, es, es, List.length_zipWith, hu, hv, min_self] at k1
  have k2 : |∑ i : Fin n, fl (u.getD i 0 * v.getD i 0) - ∑ i : Fin n, u.getD i 0 * v.getD i 0| ≤ ε * ∑ i : Fin n, |u.getD i 0 * v.getD i 0| := by
    rw [← Finset.sum_sub_distrib, Finset.mul_sum]
    exact (Finset.abs_sum_le_sum_abs _ _).trans (Finset.sum_le_sum fun i _ => hf.rel _)
  have k3 : ∑ i : Fin n, |fl (u.getD i 0 * v.getD i 0)| ≤ (1 + ε) * ∑ i : Fin n, |u.getD i 0 * v.getD i 0| := by
    rw [Finset.mul_sum]
    refine Finset.sum_le_sum fun i _ => ?_
    have := rel_abs hf (u.getD i 0 * v.getD i 0)
    simpa using this.2
  have k4 : |∑ i : Fin n, u.getD i 0 * v.getD i 0| ≤ ∑ i : Fin n, |u.getD i 0 * v.getD i 0| := Finset.abs_sum_le_sum_abs _ _
  have P1 : 1 ≤ (1 + ε) ^ (n - 1) := one_le_pow₀ (by linarith)
  have P2 : (1 + ε) ^ (n + 1) = (1 + ε) ^ (n - 1) * (1 + ε) * (1 + ε) := by
    rw [← pow_succ, ← pow_succ]; congr 1; omega
  rw [hu, P2]
  generalize (1 + ε) ^ (n - 1) = P at *
  generalize ∑ i : Fin n, |u.getD i 0 * v.getD i 0| = A at *
  generalize ∑ i : Fin n, u.getD i 0 * v.getD i 0 = S at *
  generalize ∑ i : Fin n, fl (u.getD i 0 * v.getD i 0) = S' at *
  generalize ∑ i : Fin n, |fl (u.getD i 0 * v.getD i 0)| = A' at *
  have A0 : 0 ≤ A := (abs_nonneg _).trans k4
  have k5 : |s - S| ≤ (P * (1 + ε) - 1) * A := by
    have := k1.trans (mul_le_mul_of_nonneg_left k3 (sub_nonneg.2 P1))
    rw [abs_le] at *
    constructor <;> nlinarith [this.1, this.2, k2.1, k2.2]
  have k6 : |s| ≤ P * (1 + ε) * A := by
    rw [abs_le] at *
    constructor <;> nlinarith [k5.1, k5.2, k4.1, k4.2]
  have k7 := hf.rel (s / n)
  rw [abs_div, abs_of_pos N0] at k7
  have k8 : |s / n - S / n| ≤ (P * (1 + ε) - 1) * (A / n) := by
    rw [← sub_div, abs_div, abs_of_pos N0, ← mul_div_assoc]
    exact div_le_div_of_nonneg_right k5 N0.le
  have k9 : |s| / n ≤ P * (1 + ε) * (A / n) := by
    rw [← mul_div_assoc]
    exact div_le_div_of_nonneg_right k6 N0.le
  have k10 := mul_le_mul_of_nonneg_left k9 e0
  rw [abs_le] at k7 k8 ⊢
  constructor <;> nlinarith [k7.1, k7.2, k8.1, k8.2]

theorem fold_near {x d e : ℝ} (h : |x - d| ≤ e) (h0 : 0 ≤ d) (h2 : d ≤ 2) : |max 0 (min |x| 2) - d| ≤ e := by
  rw [max_eq_right (le_min (abs_nonneg _) (by norm_num))]
  rw [abs_le] at h ⊢
  rcases le_total |x| 2 with k | k
  · rw [min_eq_left k]
    rcases abs_cases x with ⟨q, _⟩ | ⟨q, _⟩ <;> rw [q] <;> constructor <;> linarith [h.1, h.2]
  · rw [min_eq_right k]
    rcases abs_cases x with ⟨q, _⟩ | ⟨q, _⟩ <;> rw [q] at k <;> constructor <;> linarith [h.1, h.2]

theorem one_sub_near (hf : Rounding ε fl) {N c c' d : ℝ} (hN : 3 ≤ N) (hε : N * ε ≤ 0.01) (h : |c' - c| ≤ 5 * N * ε) (h0 : d = 1 - c) (h2 : 0 ≤ d ∧ d ≤ 2) : |fl (1 - c') - d| ≤ 6 * N * ε := by
  have e0 := hf.nonneg
  have f1 := hf.rel (1 - c')
  rw [abs_le] at h
  have f2 : |1 - c'| ≤ 2.5 := by
    rw [abs_le]
    constructor <;> linarith [h.1, h.2, h2.1, h2.2]
  have f3 := f1.trans (mul_le_mul_of_nonneg_left f2 e0)
  have f4 := mul_le_mul_of_nonneg_right hN e0
  rw [abs_le] at f3 ⊢
  constructor <;> linarith [h.1, h.2, f3.1, f3.2]

/-- **C166 (cosine).** The computed `cosine` distance lies in `[0, 2]`; it is 0 when a point is zero, and otherwise differs from the exact one by at most `6 (n + 2) ε` (an absolute bound). -/
theorem C166_cosine (hf : Rounding ε fl) (hn : 0 < n) (hε : 200 * ((n + 2 : ℕ) * ε) ≤ 1) {a b : Point ℝ} (ha : a.data.length = n) (hb : b.data.length = n)
    {z : ℝ} (h : CosineTo fl a.data b.data z) :
    0 ≤ z ∧ z ≤ 2 ∧ ((∀ x ∈ a.data, x = 0) ∨ (∀ x ∈ b.data, x = 0) → z = 0) ∧
    ((∃ x ∈ a.data, x ≠ 0) → (∃ x ∈ b.data, x ≠ 0) → ∃ d, a.distance metrics b (.name "cosine") [] = .ok (.fin d) ∧ |z - d| ≤ 6 * (n + 2 : ℕ) * ε) := by
  obtain ⟨uv, uu, vv, h1, h2, h3, rfl⟩ := h
  have e0 := hf.nonneg
  have N0 : (0 : ℝ) < n := by exact_mod_cast hn
  have r1 := mean_sq hf hn ha h2
  have r2 := mean_sq hf hn hb h3
  have r0 := mean_prod hf hn ha hb h1
  have z0 : ∀ l : List ℝ, (∀ x ∈ l, x = 0) → ∀ i, l.getD i 0 = 0 := by
    intro l h i
    rw [List.getD_eq_getElem?_getD]
    cases hi : l[i]? with
    | none => rfl
    | some x => exact h x (List.mem_of_getElem? hi)
  have nz : ∀ l : List ℝ, l.length = n → (∃ x ∈ l, x ≠ 0) → 0 < ∑ i : Fin n, l.getD i 0 ^ 2 := by
    rintro l hl ⟨x, hx, hx0⟩
    obtain ⟨j, hj, rfl⟩ := List.mem_iff_getElem.1 hx
    refine Finset.sum_pos' (fun _ _ => sq_nonneg _) ⟨⟨j, by omega⟩, Finset.mem_univ _, ?_⟩
    simp only [List.getD_eq_getElem?_getD, List.getElem?_eq_getElem hj, Option.getD_some]
    positivity
  have A0 : 0 ≤ ∑ i : Fin n, a.data.getD i 0 ^ 2 := Finset.sum_nonneg fun _ _ => sq_nonneg _
  have B0 : 0 ≤ ∑ i : Fin n, b.data.getD i 0 ^ 2 := Finset.sum_nonneg fun _ _ => sq_nonneg _
  have r3 := r1.mul2 hf r2 (div_nonneg A0 N0.le) (div_nonneg B0 N0.le)
  have Q0 := mul_nonneg (div_nonneg A0 N0.le) (div_nonneg B0 N0.le)
  have r4 := r3.trans hf (fl_rel hf (r3.nonneg hf Q0))
  have r5 := rel_root hf Q0 r4
  have r6 := r5.trans hf (fl_rel hf (Real.sqrt_nonneg _))
  have eP : √ ((∑ i : Fin n, a.data.getD i 0 ^ 2) / n * ((∑ i : Fin n, b.data.getD i 0 ^ 2) / n)) = √ (∑ i : Fin n, a.data.getD i 0 ^ 2) * √ (∑ i : Fin n, b.data.getD i 0 ^ 2) / n := by
    rw [div_mul_div_comm, Real.sqrt_div (mul_nonneg A0 B0), Real.sqrt_mul_self N0.le, Real.sqrt_mul A0]
  rw [eP, show n + 1 + (n + 1) + 1 + 1 = 2 * n + 4 by omega] at r6
  have hz := rel_eq_zero hf (by positivity) r6
  refine ⟨?_, ?_, ?_, ?_⟩
  · split_ifs
    · exact le_rfl
    · exact le_max_left _ _
  · split_ifs
    · norm_num
    · exact max_le (by norm_num) (min_le_right _ _)
  · intro h
    rw [if_pos]
    rw [hz]
    rcases h with h | h
    · simp only [z0 _ h]; simp
    · simp only [z0 _ h]; simp
  · intro ha0 hb0
    have Ap := nz _ ha ha0
    have Bp := nz _ hb hb0
    have P0 : 0 < √ (∑ i : Fin n, a.data.getD i 0 ^ 2) * √ (∑ i : Fin n, b.data.getD i 0 ^ 2) := mul_pos (Real.sqrt_pos.2 Ap) (Real.sqrt_pos.2 Bp)
    obtain ⟨d, q1, -, q2, q3, q4, -⟩ := C127_cosine n [] (fun _ => 1) (by simp [NamesIn]) (.inl ⟨.inl rfl, fun _ => rfl⟩) (fun _ _ => zero_le_one) (by simpa using N0) a b ha hb
      (by simpa only [coord, one_mul, ← sq] using Ap.ne') (by simpa only [coord, one_mul, ← sq] using Bp.ne')
    refine ⟨d, q1, ?_⟩
    rw [if_neg (by rw [hz]; positivity)]
    have gε : 1.02 * ((n + 2 : ℕ) : ℝ) * ε ≤ 0.0102 := by linarith
    have N3 : (3 : ℝ) ≤ ((n + 2 : ℕ) : ℝ) := by exact_mod_cast (by omega : 3 ≤ n + 2)
    have eε : ε ≤ 1 / 600 := by nlinarith
    have cs := cauchy_abs (fun i : Fin n => a.data.getD i 0) fun i => b.data.getD i 0
    have cs' : |∑ i : Fin n, a.data.getD i 0 * b.data.getD i 0| ≤ _ := (Finset.abs_sum_le_sum_abs _ _).trans cs
    have g1 := pow_gamma e0 (N := n + 1) (by push_cast at hε ⊢; nlinarith)
    have g2 := pow_gamma e0 (N := 2 * n + 4) (by push_cast at hε ⊢; nlinarith)
    have hB : |uv - (∑ i : Fin n, a.data.getD i 0 * b.data.getD i 0) / n| ≤
        1.02 * ((n + 2 : ℕ) : ℝ) * ε * (√ (∑ i : Fin n, a.data.getD i 0 ^ 2) * √ (∑ i : Fin n, b.data.getD i 0 ^ 2) / n) := by
      refine r0.trans (mul_le_mul (g1.trans ?_) (div_le_div_of_nonneg_right cs N0.le) (div_nonneg (Finset.sum_nonneg fun _ _ => abs_nonneg _) N0.le) (by positivity))
      push_cast
      nlinarith
    have hD := (rel_gap hf (div_pos P0 N0).le r6).trans (mul_le_mul_of_nonneg_right (g2.trans (show _ ≤ 2.03 * (1.02 * ((n + 2 : ℕ) : ℝ) * ε) + 3.1 * ε by push_cast; nlinarith)) (div_pos P0 N0).le)
    have BP : |(∑ i : Fin n, a.data.getD i 0 * b.data.getD i 0) / n| ≤ √ (∑ i : Fin n, a.data.getD i 0 ^ 2) * √ (∑ i : Fin n, b.data.getD i 0 ^ 2) / n := by
      rw [abs_div, abs_of_pos N0]
      exact div_le_div_of_nonneg_right cs' N0.le
    have key := cos_err hf (by linarith) N3 (div_pos P0 N0) BP (by positivity) gε rfl hB hD
    rw [div_div_div_cancel_right₀ N0.ne'] at key
    have dE : d = 1 - (∑ i : Fin n, a.data.getD i 0 * b.data.getD i 0) / (√ (∑ i : Fin n, a.data.getD i 0 ^ 2) * √ (∑ i : Fin n, b.data.getD i 0 ^ 2)) := by
      rw [q2, cosDist, ← Real.sqrt_mul A0]
      simp only [one_mul, coord, sq]
    refine fold_near ?_ q3 q4
    generalize fl (uv / fl (√ (fl (uu * vv)))) = c' at *
    generalize (∑ i : Fin n, a.data.getD i 0 * b.data.getD i 0) / (√ (∑ i : Fin n, a.data.getD i 0 ^ 2) * √ (∑ i : Fin n, b.data.getD i 0 ^ 2)) = c at *
    exact one_sub_near hf N3 (by linarith) key dE ⟨q3, q4⟩

/-! ## Binary64 -/

theorem two_sum (fl : ℝ → ℝ) (x y : ℝ) : SumsTo fl [x, y] (fl (x + y)) := .add (.one x) (.one y) (by simp) (by simp) (List.Perm.refl _)

/-- **C166 (violated: triangles).** In binary64 a detour can be shorter: from 0 to 1 to `2^53 + 2`. -/
theorem C166_triangle_fails : ∃ x y z : ℝ, CityblockTo rnd [0, 0] [1, 0] x ∧ CityblockTo rnd [1, 0] [2 ^ 53 + 2, 0] y ∧ CityblockTo rnd [0, 0] [2 ^ 53 + 2, 0] z ∧
    ChebyshevTo rnd [0, 0] [1, 0] x ∧ ChebyshevTo rnd [1, 0] [2 ^ 53 + 2, 0] y ∧ ChebyshevTo rnd [0, 0] [2 ^ 53 + 2, 0] z ∧ rnd (2 ^ 53 + 2) = 2 ^ 53 + 2 ∧ rnd (x + y) < z := by
  have r1 : rnd 1 = 1 := by simpa using rnd_int 1 (by norm_num)
  have r2 : rnd (2 ^ 53 + 2) = 2 ^ 53 + 2 := rnd_of _ (2 ^ 52 + 1) 1 (by norm_num) (by norm_num)
  have r3 : rnd (2 ^ 53) = 2 ^ 53 := by exact rnd_of _ 1 53 (by norm_num) (by norm_num)
  have t1 : absDiffFl rnd [0, 0] [1, 0] = [1, 0] := by simp [absDiffFl, rnd_neg, r1, rnd_zero]
  have t2 : absDiffFl rnd [1, 0] [2 ^ 53 + 2, 0] = [2 ^ 53, 0] := by
    have : (1 : ℝ) - (2 ^ 53 + 2) = -(2 ^ 53 + 1) := by ring
    simp only [absDiffFl, List.zipWith, this, rnd_neg, rnd_tie, sub_self, rnd_zero, abs_zero, abs_neg]
    norm_num
  have t3 : absDiffFl rnd [0, 0] [2 ^ 53 + 2, 0] = [2 ^ 53 + 2, 0] := by
    simp only [absDiffFl, List.zipWith, zero_sub, rnd_neg, r2, sub_self, rnd_zero, abs_zero, abs_neg]
    norm_num
  have s1 := two_sum rnd 1 0
  have s2 := two_sum rnd (2 ^ 53) 0
  have s3 := two_sum rnd (2 ^ 53 + 2) 0
  rw [add_zero, r1] at s1
  rw [add_zero, r3] at s2
  rw [add_zero, r2] at s3
  refine ⟨1, 2 ^ 53, 2 ^ 53 + 2, by rwa [CityblockTo, t1], by rwa [CityblockTo, t2], by rwa [CityblockTo, t3], ?_, ?_, ?_, r2, ?_⟩
  · rw [ChebyshevTo, t1]; simp [maxList]
  · rw [ChebyshevTo, t2]; simp [maxList]
  · rw [ChebyshevTo, t3]; simp [maxList]; norm_num
  · rw [add_comm, rnd_tie]; norm_num

/-- **C166 (violated: parallel points).** In binary64 the `cosine` distance of points in the same direction need not be 0: it is `2^-52` for `(11, 0)` and `(94906267, 0)`. -/
theorem C166_cosine_fails : CosineTo rnd [11, 0] [94906267, 0] (2⁻¹ ^ 52) ∧
    (⟨[11, 0], .float⟩ : Point ℝ).distance metrics ⟨[94906267, 0], .float⟩ (.name "cosine") [] = .ok (.fin 0) := by
  constructor
  · have v1 : rnd (11 * 94906267) = 1043968937 := by
      have := rnd_int 1043968937 (by norm_num)
      norm_num at this ⊢
      exact this
    have v2 : rnd 1043968937 = 1043968937 := by simpa using rnd_int 1043968937 (by norm_num)
    have v3 : rnd (1043968937 / 2) = 1043968937 / 2 := rnd_of _ 1043968937 (-1) (by norm_num) (by norm_num)
    have v4 : rnd (11 * 11) = 121 := by
      have := rnd_int 121 (by norm_num)
      norm_num at this ⊢
      exact this
    have v5 : rnd 121 = 121 := by simpa using rnd_int 121 (by norm_num)
    have v6 : rnd (121 / 2) = 121 / 2 := rnd_of _ 121 (-1) (by norm_num) (by norm_num)
    have v7 : rnd (94906267 * 94906267) = 9007199515875288 := by
      rw [rnd_value 53 4503599757937644 (by norm_num) (by norm_num) (.inr ⟨by norm_num, by decide⟩)]
      norm_num
    have v8 : rnd 9007199515875288 = 9007199515875288 := rnd_of _ 4503599757937644 1 (by norm_num) (by norm_num)
    have v9 : rnd (9007199515875288 / 2) = 4503599757937644 := by
      have := rnd_int 4503599757937644 (by norm_num)
      norm_num at this ⊢
      exact this
    have v10 : rnd (121 / 2 * 4503599757937644) = 272467785355227456 := by
      rw [rnd_value 57 8514618292350858 (by norm_num) (by norm_num) (.inl (by norm_num))]
      norm_num
    have lo : (8757446176669695.4 / 16777216 : ℝ) ≤ √ 272467785355227456 := Real.le_sqrt_of_sq_le (by norm_num)
    have hi : √ 272467785355227456 ≤ (8757446176669695.45 / 16777216 : ℝ) := Real.sqrt_le_iff.2 ⟨by norm_num, by norm_num⟩
    have v11 : rnd (√ 272467785355227456) = 8757446176669695 / 16777216 := by
      rw [rnd_value 28 8757446176669695 (le_trans (by norm_num) lo) (lt_of_le_of_lt hi (by norm_num)) (.inl ?_)]
      · norm_num
      · rw [abs_lt]
        norm_num
        constructor <;> linarith
    have v12 : rnd (1043968937 / 2 / (8757446176669695 / 16777216)) = 1 + 2⁻¹ ^ 52 := by
      rw [rnd_value 0 4503599627370497 (by norm_num) (by norm_num) (.inl (by rw [abs_lt]; norm_num))]
      norm_num
    have v13 : rnd (1 - (1 + 2⁻¹ ^ 52)) = -2⁻¹ ^ 52 := by
      have : (1 : ℝ) - (1 + 2⁻¹ ^ 52) = -2 ^ (-52 : ℤ) := by norm_num
      rw [this, rnd_neg, rnd_of (2 ^ (-52 : ℤ)) 1 (-52) (by norm_num) (by norm_num)]
      norm_num
    have s1 := two_sum rnd 1043968937 0
    have s2 := two_sum rnd 121 0
    have s3 := two_sum rnd 9007199515875288 0
    rw [add_zero, v2] at s1
    rw [add_zero, v5] at s2
    rw [add_zero, v8] at s3
    refine ⟨1043968937 / 2, 121 / 2, 4503599757937644, ⟨_, ?_, v3.symm⟩, ⟨_, ?_, v6.symm⟩, ⟨_, ?_, v9.symm⟩, ?_⟩
    · simpa only [List.zipWith, v1, mul_zero, rnd_zero] using s1
    · simpa only [List.zipWith, v4, mul_zero, rnd_zero] using s2
    · simpa only [List.zipWith, v7, mul_zero, rnd_zero] using s3
    · rw [v10, v11, if_neg (by norm_num), v12, v13]
      norm_num
  · rw [cosine_pair _ _ _ _ (by norm_num) (by norm_num)]
    rw [show ((11 * 11 + 0 * 0) * (94906267 * 94906267 + 0 * 0) : ℝ) = (11 * 94906267) ^ 2 by norm_num, Real.sqrt_sq (by norm_num)]
    norm_num

/-- **C166 (binary64).** For up to `2^40` coordinates in binary64, with a norm that is correct to `2^-50`: relative errors of at most `2^-10`. -/
theorem C166_usual (hn : 0 < n) (hn' : n ≤ 2 ^ 40) {a b : Point ℝ} (ha : a.data.length = n) (hb : b.data.length = n) (z : ℝ) :
    (CityblockTo rnd a.data b.data z → ∃ d, a.distance metrics b (.name "cityblock") [] = .ok (.fin d) ∧ |z - d| ≤ 2⁻¹ ^ 10 * d) ∧
    (EuclideanTo rnd (2⁻¹ ^ 50) a.data b.data z → ∃ d, a.distance metrics b (.name "euclidean") [] = .ok (.fin d) ∧ |z - d| ≤ 2⁻¹ ^ 49 * d) := by
  have N : (n : ℝ) ≤ 1099511627776 := by exact_mod_cast hn'
  obtain ⟨h1, -, -, h2⟩ := C166_relative (η := 2⁻¹ ^ 50) rnd_rounding hn (by push_cast; norm_num; linarith) ha hb z
  obtain ⟨⟨d1, m1, m1'⟩, ⟨d2, m2, m2'⟩, -⟩ := metric_names hn
  refine ⟨fun h => ?_, fun h => ?_⟩
  · obtain ⟨d, k1, k2⟩ := h1 h
    have d0 : 0 ≤ d := by
      have := (m1' a b a ha hb ha).1
      have e := k1.symm.trans (m1 a b ha hb)
      cases e; exact this
    refine ⟨d, k1, k2.trans (mul_le_mul_of_nonneg_right ?_ d0)⟩
    norm_num; linarith
  · obtain ⟨d, k1, k2⟩ := h2 (by positivity) h
    have d0 : 0 ≤ d := by
      have := (m2' a b a ha hb ha).1
      have e := k1.symm.trans (m2 a b ha hb)
      cases e; exact this
    refine ⟨d, k1, k2.trans (mul_le_mul_of_nonneg_right ?_ d0)⟩
    norm_num

/-! ## Concrete cases -/

noncomputable def exMa : Point ℝ := ⟨[1, 2], .float⟩
noncomputable def exMb : Point ℝ := ⟨[4, 6], .float⟩
noncomputable def exMc : Point ℝ := ⟨[5, 8], .float⟩

theorem small53 : 2 * (((2 + 3 : ℕ) : ℝ) * 2⁻¹ ^ 53) ≤ 1 := by norm_num

/-- Points (1, 2) and (4, 6). -/
example : ∃ x, CityblockTo rnd exMa.data exMb.data x ∧ |x - 7| ≤ 2⁻¹ ^ 10 * 7 ∧ x ≠ 0 ∧ CityblockTo rnd exMb.data exMa.data x := by
  obtain ⟨x, h⟩ := sumsTo_exists rnd (absDiffFl rnd exMa.data exMb.data)
  obtain ⟨d, h1, h2⟩ := (C166_usual (n := 2) (by norm_num) (by norm_num) rfl rfl x).1 h
  rw [(exact_names (n := 2) (by norm_num) rfl rfl).1] at h1
  have e : ∑ i : Fin 2, |diffAt exMa exMb i| = 7 := by norm_num [Fin.sum_univ_two, Spec.diffAt, exMa, exMb, abs_of_neg]
  rw [e] at h1
  cases h1
  refine ⟨x, h, h2, ?_, (C166_swap (η := 0) rnd_rounding _ _ _).1 h⟩
  rw [Ne, (C166_zero (n := 2) rnd_rounding (by norm_num) (by norm_num) rfl rfl x (.inl h)).2]
  norm_num [exMa, exMb]

example : ∃ x y z, CanberraTo rnd exMa.data exMb.data x ∧ CanberraTo rnd exMb.data exMc.data y ∧ CanberraTo rnd exMa.data exMc.data z ∧ (1 - 2 * (2 + 3 : ℕ) * 2⁻¹ ^ 53) * z ≤ (1 + 2 * (2 + 3 : ℕ) * 2⁻¹ ^ 53) * (x + y) := by
  obtain ⟨x, h1⟩ := sumsTo_exists rnd (List.zipWith (canberraFl rnd) exMa.data exMb.data)
  obtain ⟨y, h2⟩ := sumsTo_exists rnd (List.zipWith (canberraFl rnd) exMb.data exMc.data)
  obtain ⟨z, h3⟩ := sumsTo_exists rnd (List.zipWith (canberraFl rnd) exMa.data exMc.data)
  exact ⟨x, y, z, h1, h2, h3, (C166_triangle (η := 0) (n := 2) (a := exMa) (b := exMb) (c := exMc) rnd_rounding (by norm_num) small53 rfl rfl rfl x y z).2.1 h1 h2 h3⟩

example : ∃ z, ChebyshevTo rnd exMa.data exMb.data z := by
  obtain ⟨d, -, h⟩ := C166_chebyshev (n := 2) (a := exMa) (b := exMb) rnd_rounding (by norm_num) rfl rfl
  exact ⟨_, (h _).2 rfl⟩

example : ∃ z x, BraycurtisTo rnd exMa.data exMb.data z ∧ z = .fin x ∧ x ≠ 0 := by
  obtain ⟨s, h1⟩ := sumsTo_exists rnd (absDiffFl rnd exMa.data exMb.data)
  obtain ⟨t, h2⟩ := sumsTo_exists rnd (List.zipWith (fun x y => |rnd (x + y)|) exMa.data exMb.data)
  obtain ⟨d, x, -, h3, -, h4⟩ := C166_braycurtis (n := 2) (a := exMa) (b := exMb) rnd_rounding (by norm_num) (by norm_num) rfl rfl ⟨0, by norm_num, by norm_num [exMa, exMb]⟩ ⟨s, t, h1, h2, rfl⟩
  refine ⟨_, x, ⟨s, t, h1, h2, rfl⟩, h3, ?_⟩
  rw [Ne, h4]
  norm_num [exMa, exMb]

example : ∃ z d, CosineTo rnd exMa.data exMb.data z ∧ exMa.distance metrics exMb (.name "cosine") [] = .ok (.fin d) ∧ |z - d| ≤ 6 * (2 + 2 : ℕ) * 2⁻¹ ^ 53 := by
  have m : ∀ u v : List ℝ, ∃ z, MeanProdTo rnd u v z := fun u v => by
    obtain ⟨s, h⟩ := sumsTo_exists rnd (List.zipWith (fun x y => rnd (x * y)) u v)
    exact ⟨_, s, h, rfl⟩
  obtain ⟨uv, h1⟩ := m exMa.data exMb.data
  obtain ⟨uu, h2⟩ := m exMa.data exMa.data
  obtain ⟨vv, h3⟩ := m exMb.data exMb.data
  obtain ⟨-, -, -, h⟩ := C166_cosine (n := 2) (a := exMa) (b := exMb) rnd_rounding (by norm_num) (by norm_num) rfl rfl ⟨uv, uu, vv, h1, h2, h3, rfl⟩
  obtain ⟨d, k1, k2⟩ := h ⟨1, by simp [exMa], one_ne_zero⟩ ⟨4, by simp [exMb], by norm_num⟩
  exact ⟨_, d, ⟨uv, uu, vv, h1, h2, h3, rfl⟩, k1, k2⟩

end Verif.Props
