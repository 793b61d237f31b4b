import Verif.Model.Distance
import Verif.Model.Geom
import Verif.Lemmas.ArcLen

/-!
Distances between points: C70 (the default distance), C80 (keyword arguments), C81 (other metrics).
-/
namespace Verif.Props

open Verif Verif.Np Verif.Model Verif.Spec

theorem bcast2_eq {β : Type} (f : β → β → β) {a b : List β} (h : a.length = b.length) : bcast2 f a b = .ok (List.zipWith f a b) :=
  if_pos h

theorem bcast2_bad {β : Type} (f : β → β → β) {a b : List β} (h : a.length ≠ b.length) (ha : a.length ≠ 1) (hb : b.length ≠ 1) :
    bcast2 f a b = .error .valueError := by
  unfold bcast2
  rw [if_neg h]
  rcases a with _ | ⟨x, _ | ⟨x', a⟩⟩
  · rcases b with _ | ⟨y, _ | ⟨y', b⟩⟩
    · simp at h
    · simp at hb
    · rfl
  · simp at ha
  · rcases b with _ | ⟨y, _ | ⟨y', b⟩⟩
    · rfl
    · simp at hb
    · rfl

theorem euclidean_nil (u v : List ℝ) : euclidean [] u v = (bcast2 (· - ·) u v).map fun d => Val.fin (√ (d.map fun x => x * x).sum) := by
  simp only [euclidean, bindKw, weightsOf, minkowskiCore, weighted, NormOrder.norm]
  cases bcast2 (· - ·) u v <;> simp [bind, Except.bind, pure, Except.pure, Except.map, List.lookup]

theorem euclidean_eq {n : Nat} {u v : List ℝ} (hu : u.length = n) (hv : v.length = n) : euclidean [] u v = .ok (.fin (gap n u v)) := by
  rw [euclidean_nil, bcast2_eq _ (hu.trans hv.symm)]
  show Except.ok (Val.fin (√ ((List.zipWith (fun x y => x - y) u v).map fun x => x * x).sum)) = _
  rw [gap_eq_sqrt, ← sum_zipWith_sq n u v hu hv, List.map_zipWith]
  congr 5
  funext x y
  ring

theorem gap_eq_zero {n : Nat} {u v : List ℝ} (hu : u.length = n) (hv : v.length = n) : gap n u v = 0 ↔ u = v := by
  unfold gap
  rw [dist_eq_zero]
  constructor
  · intro h
    refine List.ext_getElem (hu.trans hv.symm) fun i h1 h2 => ?_
    have := congrArg (fun w : EuclideanSpace ℝ (Fin n) => w ⟨i, by omega⟩) h
    simpa [pt, h1, h2] using this
  · rintro rfl; rfl

/-- The default distance of two points. -/
theorem distance_default {n : Nat} {p q : Point ℝ} (hp : p.data.length = n) (hq : q.data.length = n) :
    p.distance metrics q (.name "euclidean") [] = .ok (.fin (gap n p.data q.data)) := by
  rw [← euclidean_eq hp hq]
  rfl

/-- **C70 (metric).** The default distance of points of one dimension is a metric: it is the euclidean distance, hence
non-negative, symmetric, zero exactly for equal coordinates, and satisfies the triangle inequality. -/
theorem C70_metric (n : Nat) (p q r : Point ℝ) (hp : p.data.length = n) (hq : q.data.length = n)
    (hr : r.data.length = n) :
    ∃ pq qp qr pr, p.distance metrics q (.name "euclidean") [] = .ok (.fin pq) ∧ q.distance metrics p (.name "euclidean") [] = .ok (.fin qp) ∧
      q.distance metrics r (.name "euclidean") [] = .ok (.fin qr) ∧ p.distance metrics r (.name "euclidean") [] = .ok (.fin pr) ∧
      pq = √ (∑ i : Fin n, (q.data.getD i 0 - p.data.getD i 0) ^ 2) ∧
      0 ≤ pq ∧ (pq = 0 ↔ p.data = q.data) ∧ pq = qp ∧ pr ≤ pq + qr :=
  ⟨_, _, _, _, distance_default hp hq, distance_default hq hp, distance_default hq hr, distance_default hp hr,
    gap_eq_sqrt _ _ _, gap_nonneg _ _ _, gap_eq_zero hp hq, gap_comm _ _ _, gap_triangle _ _ _ _⟩

/-- **C70 (dimensions).** Points of different dimension have no distance unless one of them has one coordinate, which numpy
broadcasts. -/
theorem C70_dimensions (p q : Point ℝ) :
    (p.data.length ≠ q.data.length → p.data.length ≠ 1 → q.data.length ≠ 1 →
      p.distance metrics q (.name "euclidean") [] = .error .valueError) ∧
    (∀ x, p.data = [x] → p.distance metrics q (.name "euclidean") [] =
      .ok (.fin (gap q.data.length (List.replicate q.data.length x) q.data))) := by
  refine ⟨?_, ?_⟩
  · intro h1 h2 h3
    show euclidean [] p.data q.data = _
    rw [euclidean_nil, bcast2_bad _ h1 h2 h3]
    rfl
  · intro x hx
    rw [← euclidean_eq (List.length_replicate) rfl]
    show euclidean [] p.data q.data = _
    rw [euclidean_nil, euclidean_nil, bcast2_eq (a := List.replicate _ _) _ List.length_replicate]
    have : bcast2 (· - ·) p.data q.data = Except.ok (List.zipWith (· - ·) (List.replicate q.data.length x) q.data) := by
      have hz : List.zipWith (· - ·) (List.replicate q.data.length x) q.data = q.data.map (x - ·) := by
        induction q.data with
        | nil => rfl
        | cons y l ih => simpa [List.replicate_succ] using ih
      rw [hz, hx]
      unfold bcast2
      split_ifs with h
      · rcases hq : q.data with _ | ⟨y, _ | ⟨z, l⟩⟩
        · simp [hq] at h
        · rfl
        · simp [hq] at h
      · rfl
    rw [this]

theorem dot_self_sum (l : List ℝ) : dot l l = (l.map fun x => x * x).sum := by
  induction l with
  | nil => rfl
  | cons x l ih =>
    simp only [dot, List.zipWith_cons_cons, List.foldr_cons, List.map_cons, List.sum_cons] at ih ⊢
    rw [ih]

/-- **C70 (agreement).** The length of a segment, the norm of its direction and the distance of its end points are one number; the
norm of a point is its distance to the origin. -/
theorem C70_agree (n : Nat) (p q o : Point ℝ) (hp : p.data.length = n) (hq : q.data.length = n)
    (ho : o.data = List.replicate n 0) :
    ∃ d, p.distance metrics q (.name "euclidean") [] = .ok (.fin d) ∧ pointSeglen metrics p q = .ok (.fin d) ∧
      pointDirNorm p q = .ok d ∧ p.norm.map Val.fin = p.distance metrics o (.name "euclidean") [] := by
  refine ⟨_, distance_default hp hq, distance_default hp hq, ?_, ?_⟩
  · unfold pointDirNorm Point.sub
    rw [bcast2_eq _ (hq.trans hp.symm)]
    show (Point.init (List.zipWith (· - ·) q.data p.data) none : Point ℝ).norm = _
    have hi : (Point.init (List.zipWith (· - ·) q.data p.data) none : Point ℝ).data = List.zipWith (· - ·) q.data p.data := by
      simp only [Point.init, Option.getD_none]
      exact List.map_id _
    unfold Point.norm matmul
    rw [hi, if_pos rfl, gap_comm]
    show Except.ok (√ (dot _ _)) = _
    rw [dot_self_sum, gap_eq_sqrt, ← sum_zipWith_sq n q.data p.data hq hp, List.map_zipWith]
    congr 4
    funext x y
    ring
  · rw [distance_default hp (by rw [ho]; simp)]
    unfold Point.norm matmul
    rw [if_pos rfl]
    show Except.ok (Val.fin (√ (dot _ _))) = _
    rw [dot_self_sum, gap_comm, gap_eq_sqrt, ho]
    congr 3
    subst hp
    induction p.data with
    | nil => simp
    | cons x l ih =>
      rw [List.length_cons, Fin.sum_univ_succ, List.map_cons, List.sum_cons, ih]
      simp [List.replicate_succ, sq]

/-- **C70 (agreement of the layers).** The list-based distance is the one of the geometry model. -/
theorem C70_geom (n : Nat) (s : Seg n ℝ) (p q : Point ℝ) (hp : p.data = List.ofFn s.p1) (hq : q.data = List.ofFn s.p2) :
    p.distance metrics q (.name "euclidean") [] = .ok (.fin s.seglen) ∧ s.seglen = vnorm s.direction := by
  have h1 : s.seglen = vnorm s.direction := by
    simp only [Seg.seglen, Model.edist, vnorm, vdot, dotProduct, Seg.direction, Pi.sub_apply]
    congr 1
    refine Finset.sum_congr rfl fun i _ => ?_
    ring
  refine ⟨?_, h1⟩
  rw [distance_default (n := n) (by rw [hp]; simp) (by rw [hq]; simp), gap_eq_sqrt]
  simp only [Seg.seglen, Model.edist, hp, hq]
  congr 3
  refine Finset.sum_congr rfl fun i _ => ?_
  simp [List.getD_eq_getElem?_getD]
  ring

/-- **C70 (errors).** An unknown metric name is a NameError, a metric that is neither a name nor callable a TypeError; the known
names are exactly the listed ones. (A keyword argument called `name` collides with a parameter.) -/
theorem C70_errors (p q : Point ℝ) (kw : Kw) :
    (∀ s, s ∉ knownMetrics metrics → "name" ∉ kw.map Prod.fst → p.distance metrics q (.name s) kw = .error .nameError) ∧
    (∀ s ∈ knownMetrics metrics, "name" ∉ kw.map Prod.fst →
      ∃ f, getMetric metrics s kw = .ok f ∧ p.distance metrics q (.name s) kw = f [] p.data q.data) ∧
    (∀ s, "name" ∈ kw.map Prod.fst → p.distance metrics q (.name s) kw = .error .typeError) ∧
    p.distance metrics q .other kw = .error .typeError ∧
    knownMetrics metrics = ["braycurtis", "canberra", "chebyshev", "cityblock", "correlation", "cosine", "euclidean",
      "jensenshannon", "mahalanobis", "minkowski", "seuclidean", "sqeuclidean", "wminkowski"] := by
  refine ⟨?_, ?_, ?_, rfl, rfl⟩
  · intro s hs hn
    have : metrics.lookup s = none := by
      rw [List.lookup_eq_none_iff]
      intro x hx
      rw [bne_iff_ne]
      rintro rfl
      exact hs (List.mem_map.2 ⟨x, hx, rfl⟩)
    have hn' : (kw.map Prod.fst).contains "name" = false := by simpa using hn
    simp only [Point.distance, getMetric, this, bind, Except.bind, hn']
    rfl
  · intro s hs hn
    have hn' : (kw.map Prod.fst).contains "name" = false := by simpa using hn
    obtain ⟨f, hf⟩ : ∃ f, metrics.lookup s = some f := by
      rw [← Option.isSome_iff_exists, ← Option.ne_none_iff_isSome]
      intro h
      rw [List.lookup_eq_none_iff] at h
      obtain ⟨x, hx, rfl⟩ := List.mem_map.1 hs
      simpa using h x hx
    obtain ⟨g, hg⟩ : ∃ g, getMetric metrics s kw = .ok g := by
      cases kw with
      | nil => exact ⟨f, by simp [getMetric, hf]⟩
      | cons k kw => exact ⟨fun kw2 => f (k :: kw ++ kw2), by simp only [getMetric, hf, hn']; rfl⟩
    exact ⟨g, hg, by simp only [Point.distance, hg]; rfl⟩
  · intro s hs
    have hn' : (kw.map Prod.fst).contains "name" = true := by simpa using hs
    simp only [Point.distance, getMetric, hn', bind, Except.bind]
    rfl

/-! ## C80 -/

/-- **C80 (partial: metrics given by name).** The keyword arguments of `distance`, except one called `name`, reach a metric given by its
name. -/
theorem C80_named_partial (table : List (String × MetricFn)) (p q : Point ℝ) (s : String) (f : MetricFn) (kw : Kw)
    (hn : "name" ∉ kw.map Prod.fst) (h : table.lookup s = some f) : p.distance table q (.name s) kw = f kw p.data q.data := by
  have hn' : (kw.map Prod.fst).contains "name" = false := by simpa using hn
  cases kw with
  | nil => simp [Point.distance, getMetric, h, bind, Except.bind]
  | cons k kw =>
    simp only [Point.distance, getMetric, h, bind, Except.bind, hn']
    simp

/-- **C80 (violated).** A keyword argument called `name` is never passed on: `get_metric` has a parameter of that name. -/
theorem C80_name_fails (table : List (String × MetricFn)) (p q : Point ℝ) (s : String) (kw : Kw) (v : KwVal) :
    p.distance table q (.name s) (("name", v) :: kw) = .error .typeError := by
  simp [Point.distance, getMetric, bind, Except.bind]

/-- the Minkowski distance of order `p` with a scale factor given by keyword -/
noncomputable def scaledCity : MetricFn := fun kw u v => do
  let d ← cityblock [] u v
  match kw.lookup "scale" with
  | some (.num x) => return (Val.fin x).mul d
  | _ => return d

/-- **C80 (violated).** A callable metric never sees the keyword arguments: a call with `scale=2` returns the unscaled distance. -/
theorem C80_callable_fails :
    (∀ table p q f kw, Point.distance table p q (.callable f) kw = f [] p.data q.data) ∧
    ∃ p q : Point ℝ, ∀ table, p.distance table q (.callable scaledCity) [("scale", .num 2)] = .ok (.fin 1) ∧
      scaledCity [("scale", .num 2)] p.data q.data = .ok (.fin 2) := by
  refine ⟨fun _ _ _ _ _ => rfl, ⟨[0, 0], .float⟩, ⟨[1, 0], .float⟩, fun table => ⟨?_, ?_⟩⟩
  · show scaledCity [] [0, 0] [1, 0] = _
    simp [scaledCity, cityblock, bindKw, weightsOf, weighted, bcast2, bind, Except.bind, pure, Except.pure]
  · show scaledCity [("scale", .num 2)] [0, 0] [1, 0] = _
    simp [scaledCity, cityblock, bindKw, weightsOf, weighted, bcast2, bind, Except.bind, pure, Except.pure, List.lookup, Val.mul]

/-! ## C81 -/

/-- sum of the coordinate differences -/
noncomputable def city (n : Nat) (u v : List ℝ) : ℝ := ∑ i : Fin n, |u.getD i 0 - v.getD i 0|

theorem cityblock_nil (u v : List ℝ) : cityblock [] u v = (bcast2 (· - ·) u v).map fun d => Val.fin (d.map abs).sum := by
  simp only [cityblock, bindKw, weightsOf, weighted]
  cases bcast2 (· - ·) u v <;> simp [bind, Except.bind, pure, Except.pure, Except.map, List.lookup]

theorem cityblock_eq {n : Nat} {u v : List ℝ} (hu : u.length = n) (hv : v.length = n) : cityblock [] u v = .ok (.fin (city n u v)) := by
  rw [cityblock_nil, bcast2_eq _ (hu.trans hv.symm)]
  show Except.ok (Val.fin ((List.zipWith (· - ·) u v).map abs).sum) = _
  congr 2
  unfold city
  induction n generalizing u v with
  | zero => rw [List.length_eq_zero_iff] at hu; subst hu; simp
  | succ n ih =>
    cases u with
    | nil => simp at hu
    | cons x u =>
      cases v with
      | nil => simp at hv
      | cons y v =>
        rw [Fin.sum_univ_succ]
        have := ih (u := u) (v := v) (by simpa using hu) (by simpa using hv)
        simpa using this

theorem foldl_max_spec (l : List ℝ) (x : ℝ) : (∀ y ∈ x :: l, y ≤ l.foldl max x) ∧ l.foldl max x ∈ x :: l := by
  induction l generalizing x with
  | nil => simp
  | cons z l ih =>
    obtain ⟨h1, h2⟩ := ih (max x z)
    rw [List.foldl_cons]
    refine ⟨?_, ?_⟩
    · intro y hy
      have h0 := h1 _ List.mem_cons_self
      simp only [List.mem_cons] at hy
      rcases hy with rfl | rfl | hy
      · exact (le_max_left _ _).trans h0
      · exact (le_max_right _ _).trans h0
      · exact h1 y (List.mem_cons_of_mem _ hy)
    · rcases List.mem_cons.1 h2 with h | h
      · rw [h]
        rcases max_choice x z with h | h <;> simp [h]
      · simp [h]

theorem chebyshev_nil (u v : List ℝ) :
    chebyshev [] u v = (bcast2 (· - ·) u v).bind fun d => (maxList (d.map abs)).map Val.fin := by
  have : chebyshev [] u v = (bcast2 (· - ·) u v).bind fun d => (maxList (d.map abs)).bind fun r => .ok (.fin r) := by
    simp only [chebyshev, bindKw, weightsOf]
    rfl
  rw [this]
  rfl

/-- the largest coordinate difference -/
theorem chebyshev_eq {n : Nat} {u v : List ℝ} (hu : u.length = n) (hv : v.length = n) (hn : 1 ≤ n) :
    ∃ m, chebyshev [] u v = .ok (.fin m) ∧ (∀ i : Fin n, |u.getD i 0 - v.getD i 0| ≤ m) ∧ ∃ i : Fin n, m = |u.getD i 0 - v.getD i 0| := by
  rw [chebyshev_nil, bcast2_eq _ (hu.trans hv.symm)]
  have hl : ((List.zipWith (· - ·) u v).map abs).length = n := by simp [hu, hv]
  have hg : ∀ i, i < n → ((List.zipWith (· - ·) u v).map abs)[i]? = some |u.getD i 0 - v.getD i 0| := by
    intro i hi
    have h1 : i < u.length := by omega
    have h2 : i < v.length := by omega
    simp [List.getElem?_map, List.getElem?_zipWith, h1, h2]
  obtain ⟨L, hL⟩ : ∃ L, L = (List.zipWith (· - ·) u v).map abs := ⟨_, rfl⟩
  show ∃ m, (maxList ((List.zipWith (· - ·) u v).map abs)).map Val.fin = .ok (.fin m) ∧ _
  rw [← hL] at hl hg ⊢
  cases L with
  | nil => simp at hl; omega
  | cons x l =>
    obtain ⟨h1, h2⟩ := foldl_max_spec l x
    refine ⟨_, rfl, ?_, ?_⟩
    · intro i
      exact h1 _ (List.mem_of_getElem? (hg i i.2))
    · obtain ⟨i, hi, he⟩ := List.mem_iff_getElem.1 h2
      refine ⟨⟨i, by omega⟩, ?_⟩
      have := hg i (by omega)
      rw [List.getElem?_eq_getElem hi, he] at this
      exact Option.some.inj this

theorem coords_eq {n : Nat} {u v : List ℝ} (hu : u.length = n) (hv : v.length = n) (h : ∀ i : Fin n, |u.getD i 0 - v.getD i 0| = 0) : u = v := by
  refine List.ext_getElem (hu.trans hv.symm) fun i h1 h2 => ?_
  have := h ⟨i, by omega⟩
  rw [abs_eq_zero, sub_eq_zero] at this
  simpa [h1, h2] using this

/-- **C81 (city block).** The city block distance is a metric: the sum of the absolute coordinate differences. -/
theorem C81_cityblock (n : Nat) (p q r : Point ℝ) (hp : p.data.length = n) (hq : q.data.length = n)
    (hr : r.data.length = n) :
    ∃ pq qp qr pr, p.distance metrics q (.name "cityblock") [] = .ok (.fin pq) ∧ q.distance metrics p (.name "cityblock") [] = .ok (.fin qp) ∧
      q.distance metrics r (.name "cityblock") [] = .ok (.fin qr) ∧ p.distance metrics r (.name "cityblock") [] = .ok (.fin pr) ∧
      pq = ∑ i : Fin n, |p.data.getD i 0 - q.data.getD i 0| ∧
      0 ≤ pq ∧ (pq = 0 ↔ p.data = q.data) ∧ pq = qp ∧ pr ≤ pq + qr := by
  refine ⟨_, _, _, _, cityblock_eq hp hq, cityblock_eq hq hp, cityblock_eq hq hr, cityblock_eq hp hr, rfl, ?_, ?_, ?_, ?_⟩
  · exact Finset.sum_nonneg fun i _ => abs_nonneg _
  · constructor
    · intro h
      apply coords_eq hp hq
      intro i
      exact (Finset.sum_eq_zero_iff_of_nonneg fun i _ => abs_nonneg _).1 h i (Finset.mem_univ _)
    · intro h; simp [city, h]
  · exact Finset.sum_congr rfl fun i _ => abs_sub_comm _ _
  · unfold city
    rw [← Finset.sum_add_distrib]
    exact Finset.sum_le_sum fun i _ => abs_sub_le _ _ _

/-- **C81 (Chebyshev).** The Chebyshev distance of points with at least one coordinate is a metric: the largest absolute coordinate
difference; without coordinates it is a ValueError. -/
theorem C81_chebyshev (n : Nat) (p q r : Point ℝ) (hp : p.data.length = n) (hq : q.data.length = n)
    (hr : r.data.length = n) :
    (1 ≤ n → ∃ pq qp qr pr, p.distance metrics q (.name "chebyshev") [] = .ok (.fin pq) ∧ q.distance metrics p (.name "chebyshev") [] = .ok (.fin qp) ∧
      q.distance metrics r (.name "chebyshev") [] = .ok (.fin qr) ∧ p.distance metrics r (.name "chebyshev") [] = .ok (.fin pr) ∧
      (∀ i : Fin n, |p.data.getD i 0 - q.data.getD i 0| ≤ pq) ∧ (∃ i : Fin n, pq = |p.data.getD i 0 - q.data.getD i 0|) ∧
      0 ≤ pq ∧ (pq = 0 ↔ p.data = q.data) ∧ pq = qp ∧ pr ≤ pq + qr) ∧
    (n = 0 → p.distance metrics q (.name "chebyshev") [] = .error .valueError) := by
  refine ⟨fun hn => ?_, ?_⟩
  · obtain ⟨a, a1, a2, ai, a3⟩ := chebyshev_eq hp hq hn
    obtain ⟨b, b1, b2, bi, b3⟩ := chebyshev_eq hq hp hn
    obtain ⟨c, c1, c2, ci, c3⟩ := chebyshev_eq hq hr hn
    obtain ⟨d, d1, d2, di, d3⟩ := chebyshev_eq hp hr hn
    refine ⟨a, b, c, d, a1, b1, c1, d1, a2, ⟨ai, a3⟩, ?_, ?_, ?_, ?_⟩
    · rw [a3]; exact abs_nonneg _
    · constructor
      · intro h
        apply coords_eq hp hq
        intro i
        exact le_antisymm (h ▸ a2 i) (abs_nonneg _)
      · intro h; rw [a3, h]; simp
    · apply le_antisymm
      · rw [a3, abs_sub_comm]; exact b2 ai
      · rw [b3, abs_sub_comm]; exact a2 bi
    · rw [d3]
      exact (abs_sub_le _ (q.data.getD di 0) _).trans (add_le_add (a2 di) (c2 di))
  · intro hn
    show chebyshev [] p.data q.data = _
    have h1 : p.data = [] := List.length_eq_zero_iff.1 (hp.trans hn)
    have h2 : q.data = [] := List.length_eq_zero_iff.1 (hq.trans hn)
    rw [h1, h2]
    rfl

theorem sqeuclidean_nil (u v : List ℝ) : sqeuclidean [] u v = (bcast2 (· - ·) u v).map fun d => Val.fin (d.map fun x => x * x).sum := by
  simp only [sqeuclidean, bindKw, weightsOf, weighted]
  cases bcast2 (· - ·) u v <;> simp [bind, Except.bind, pure, Except.pure, Except.map, List.lookup, matmul, dot_self_sum]

/-- **C81 (comparison).** Chebyshev ≤ Euclid ≤ city block, and the squared distance is the square of the default distance. -/
theorem C81_order (n : Nat) (p q : Point ℝ) (hp : p.data.length = n) (hq : q.data.length = n) (hn : 1 ≤ n) :
    ∃ m e s c, p.distance metrics q (.name "chebyshev") [] = .ok (.fin m) ∧ p.distance metrics q (.name "euclidean") [] = .ok (.fin e) ∧
      p.distance metrics q (.name "cityblock") [] = .ok (.fin c) ∧ p.distance metrics q (.name "sqeuclidean") [] = .ok (.fin s) ∧
      m ≤ e ∧ e ≤ c ∧ s = e ^ 2 := by
  obtain ⟨m, m1, m2, i, m3⟩ := chebyshev_eq hp hq hn
  have he : gap n p.data q.data = √ (∑ i : Fin n, |p.data.getD i 0 - q.data.getD i 0| ^ 2) := by
    rw [gap_comm, gap_eq_sqrt]; simp only [sq_abs]
  refine ⟨m, _, _, _, m1, distance_default hp hq, cityblock_eq hp hq, ?_, ?_, ?_, rfl⟩
  · show sqeuclidean [] p.data q.data = _
    rw [sqeuclidean_nil, bcast2_eq _ (hp.trans hq.symm)]
    show Except.ok (Val.fin ((List.zipWith (· - ·) p.data q.data).map fun x => x * x).sum) = _
    rw [gap_eq_sqrt, Real.sq_sqrt (Finset.sum_nonneg fun _ _ => sq_nonneg _), ← sum_zipWith_sq n _ _ hp hq, List.map_zipWith]
    congr 4
    funext x y
    ring
  · rw [he, m3]
    apply Real.le_sqrt_of_sq_le
    exact Finset.single_le_sum (f := fun i : Fin n => |p.data.getD i 0 - q.data.getD i 0| ^ 2) (fun i _ => sq_nonneg _) (Finset.mem_univ i)
  · rw [he]
    apply Real.sqrt_le_iff.2 ⟨Finset.sum_nonneg fun i _ => abs_nonneg _, ?_⟩
    exact Finset.sum_sq_le_sq_sum_of_nonneg fun i _ => abs_nonneg _

/-- Two points of the plane. -/
example :
    (⟨[0, 0], .float⟩ : Point ℝ).distance metrics ⟨[3, 4], .float⟩ (.name "euclidean") [] = .ok (.fin 5) ∧
    (⟨[0, 0], .float⟩ : Point ℝ).distance metrics ⟨[3, 4], .float⟩ (.name "cityblock") [] = .ok (.fin 7) ∧
    (⟨[0, 0], .float⟩ : Point ℝ).distance metrics ⟨[3, 4], .float⟩ (.name "nosuch") [] = .error .nameError := by
  refine ⟨?_, ?_, ?_⟩
  · rw [distance_default (n := 2) rfl rfl, gap_eq_sqrt]
    have : (∑ i : Fin 2, (([3, 4] : List ℝ).getD i 0 - ([0, 0] : List ℝ).getD i 0) ^ 2) = 5 ^ 2 := by
      simp [Fin.sum_univ_two]; norm_num
    rw [this, Real.sqrt_sq (by norm_num)]
  · show cityblock [] [0, 0] [3, 4] = _
    rw [cityblock_eq (n := 2) rfl rfl]
    simp [city, Fin.sum_univ_two]; norm_num
  · exact (C70_errors _ _ []).1 _ (by rw [(C70_errors ⟨[], .float⟩ ⟨[], .float⟩ []).2.2.2.2]; decide) (by simp)

/-! ## Concrete cases -/

example := C70_metric 2 ⟨[1, 2], .float⟩ ⟨[4, 6], .float⟩ ⟨[0, 7], .int⟩ rfl rfl rfl
example := (C70_dimensions ⟨[1, 2], .float⟩ ⟨[4, 6, 0], .float⟩).1 (by simp) (by simp) (by simp)
example := C70_agree 2 ⟨[1, 2], .float⟩ ⟨[4, 6], .float⟩ ⟨[0, 0], .float⟩ rfl rfl rfl
example := C70_geom 2 ⟨![1, 2], ![4, 6]⟩ ⟨[1, 2], .float⟩ ⟨[4, 6], .float⟩ (by simp) (by simp)
example := C80_named_partial [("half", fun _ _ _ => .ok (.fin (1 / 2)))] ⟨[1, 2], .float⟩ ⟨[4, 6], .float⟩ "half"
  (fun _ _ _ => .ok (.fin (1 / 2))) [("p", .num 3)] (by simp) (by simp)
example := C81_cityblock 2 ⟨[1, 2], .float⟩ ⟨[4, 6], .float⟩ ⟨[0, 7], .int⟩ rfl rfl rfl
example := (C81_chebyshev 2 ⟨[1, 2], .float⟩ ⟨[4, 6], .float⟩ ⟨[0, 7], .int⟩ rfl rfl rfl).1 (by norm_num)
example := C81_order 2 ⟨[1, 2], .float⟩ ⟨[4, 6], .float⟩ rfl rfl (by norm_num)

end Verif.Props
