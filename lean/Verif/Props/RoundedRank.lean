import Verif.Lemmas.RankFl

/-!
C160: the tests of collinearity and coplanarity in floating point.
-/
namespace Verif.Spec

/-- The points are, coordinate by coordinate and up to relative errors `δ`, points of a straight line through the origin. -/
def NearLineThroughOrigin {n : Nat} (δ : ℝ) (ps : List (Fin n → ℝ)) : Prop :=
  ∃ g : Fin n → ℝ, ∀ p ∈ ps, ∃ x : ℝ, ∀ i, |p i - x * g i| ≤ δ * |x * g i|

end Verif.Spec

namespace Verif.Props

open Verif Verif.Np Verif.Model Verif.Spec

variable {n : Nat} {ε η : ℝ} {fl : ℝ → ℝ}

/-- The shortcut of `collinear` for floats. -/
def CloseToFl (fl : ℝ → ℝ) (s : Seg n ℝ) : PointOrSeg n ℝ → Prop
  | .point p => VecCloseFl fl p s.p1 ∨ VecCloseFl fl p s.p2
  | .seg r => (VecCloseFl fl r.p1 s.p1 ∧ VecCloseFl fl r.p2 s.p2) ∨ (VecCloseFl fl r.p2 s.p1 ∧ VecCloseFl fl r.p1 s.p2)

theorem collinearTo_iff (s : Seg n ℝ) (tol : Option ℝ) (o : PointOrSeg n ℝ) (res : Except PyErr Bool) :
    s.CollinearTo fl η tol o res ↔
      (CloseToFl fl s o ∧ res = .ok true) ∨ (¬ CloseToFl fl s o ∧ CollinearPtsTo fl η tol ([s.p1, s.p2] ++ otherPoints o) res) := by
  cases o with
  | point p =>
    simp only [Seg.CollinearTo]
    split
    · rename_i h
      exact ⟨fun h1 => .inl ⟨h, h1⟩, fun h1 => h1.elim (fun h => h.2) fun h' => absurd h h'.1⟩
    · rename_i h
      exact ⟨fun h1 => .inr ⟨h, h1⟩, fun h1 => h1.elim (fun h' => absurd h'.1 h) fun h' => h'.2⟩
  | seg r =>
    simp only [Seg.CollinearTo]
    split
    · rename_i h
      exact ⟨fun h1 => .inl ⟨h, h1⟩, fun h1 => h1.elim (fun h => h.2) fun h' => absurd h h'.1⟩
    · rename_i h
      exact ⟨fun h1 => .inr ⟨h, h1⟩, fun h1 => h1.elim (fun h' => absurd h'.1 h) fun h' => h'.2⟩

theorem dim_pos {ps : List (Vec n ℝ)} (h3 : 3 ≤ ps.dedup.length) : 0 < n := by
  rcases Nat.eq_zero_or_pos n with rfl | h
  · exfalso
    have h1 : ∀ l : List (Vec 0 ℝ), l.Nodup → l.length ≤ 1 := by
      intro l hl
      match l, hl with
      | [], _ => simp
      | [_], _ => simp
      | a :: b :: l, hl => simp at hl; exact absurd (Subsingleton.elim a b) hl.1.1
    have := h1 _ (List.nodup_dedup ps)
    omega
  · exact h

theorem collinearPts_fl (hf : Rounding ε fl) (hε : ε ≤ 1 / 1000) (hη : 0 ≤ η) (hη1 : η ≤ 1 / 1000) {ps : List (Vec n ℝ)} (h3 : 3 ≤ ps.dedup.length) {res : Except PyErr Bool}
    (h : CollinearPtsTo fl η none ps res) :
    ∃ b, res = .ok b ∧
      (η ≤ 0.99 * (max ps.dedup.length n : Nat) / 2 ^ 52 → FlatRel 1 (0.99 * (max ps.dedup.length n : Nat) / 2 ^ 52 - η) ps.dedup → b = true) ∧
      (b = true → FlatRel 1 (1.01 * (max ps.dedup.length n : Nat) / 2 ^ 52 + η) ps.dedup) := by
  unfold CollinearPtsTo at h
  rw [if_neg (not_lt.2 h3)] at h
  obtain ⟨q, hq, rfl⟩ := h
  obtain ⟨r, rfl, hr⟩ := rank_fl hf hε hη hη1 (dim_pos h3) (by intro h; rw [h] at h3; simp at h3) hq
  refine ⟨decide (r ≤ 1), rfl, ?_, ?_⟩
  · intro h1 h2
    exact decide_eq_true ((hr 1).1 h1 h2)
  · intro h1
    exact (hr 1).2 (of_decide_eq_true h1)

/-- **C160 (collinear).** `collinear` in floating point, for at least three distinct points and no shortcut: true if the spread of the points across to one direction, relative to the largest one, is at most
`0.99 max(m, n) 2⁻⁵² - η`, and only if it is at most `1.01 max(m, n) 2⁻⁵² + η`. -/
theorem C160_collinear (hf : Rounding ε fl) (hε : ε ≤ 1 / 1000) (hη : 0 ≤ η) (hη1 : η ≤ 1 / 1000) {s : Seg n ℝ} {o : PointOrSeg n ℝ} (hcl : ¬ CloseToFl fl s o)
    (h3 : 3 ≤ ([s.p1, s.p2] ++ otherPoints o).dedup.length) {res : Except PyErr Bool} (h : s.CollinearTo fl η none o res) :
    ∃ b, res = .ok b ∧
      (η ≤ 0.99 * (max ([s.p1, s.p2] ++ otherPoints o).dedup.length n : Nat) / 2 ^ 52 →
        FlatRel 1 (0.99 * (max ([s.p1, s.p2] ++ otherPoints o).dedup.length n : Nat) / 2 ^ 52 - η) ([s.p1, s.p2] ++ otherPoints o).dedup → b = true) ∧
      (b = true → FlatRel 1 (1.01 * (max ([s.p1, s.p2] ++ otherPoints o).dedup.length n : Nat) / 2 ^ 52 + η) ([s.p1, s.p2] ++ otherPoints o).dedup) := by
  rw [collinearTo_iff] at h
  rcases h with ⟨h, -⟩ | ⟨-, h⟩
  · exact absurd h hcl
  · exact collinearPts_fl hf hε hη hη1 h3 h

theorem three_le_size {n : Nat} {ps : List (Vec n ℝ)} (h3 : 3 ≤ ps.dedup.length) : (3 : ℝ) ≤ (max ps.dedup.length n : Nat) := by
  have : 3 ≤ max ps.dedup.length n := le_trans h3 (le_max_left _ _)
  exact_mod_cast this

/-- **C160 (lines through the origin are found).** If the points are points of a line through the origin whose coordinates have been rounded (relative error at most `δ`), and `1.01 δ √n + η ≤ 2.97 2⁻⁵²`, then
`collinear` in floating point is true. In the plane and in space a single rounding to binary64 and `η = 2⁻⁵²` are covered. -/
theorem C160_line (hf : Rounding ε fl) (hε : ε ≤ 1 / 1000) (hη : 0 ≤ η) {δ : ℝ} (hδ : 0 ≤ δ) (hb : 1.01 * (δ * √n) + η ≤ 2.97 / 2 ^ 52)
    {s : Seg n ℝ} {o : PointOrSeg n ℝ} (hl : NearLineThroughOrigin δ ([s.p1, s.p2] ++ otherPoints o)) {res : Except PyErr Bool} (h : s.CollinearTo fl η none o res) : res = .ok true := by
  have hB : 0 ≤ δ * √n := by positivity
  have hη1 : η ≤ 1 / 1000 := by norm_num at *; linarith
  have hB1 : δ * √n ≤ 1 / 1000 := by norm_num at *; linarith
  rw [collinearTo_iff] at h
  rcases h with ⟨-, h⟩ | ⟨-, h⟩
  · exact h
  by_cases h3 : 3 ≤ ([s.p1, s.p2] ++ otherPoints o).dedup.length
  · obtain ⟨b, rfl, h1, -⟩ := collinearPts_fl hf hε hη hη1 h3 h
    have hn := dim_pos h3
    have hK := three_le_size h3
    have hbK : 1.01 * (δ * √n) + η ≤ 0.99 * (max ([s.p1, s.p2] ++ otherPoints o).dedup.length n : Nat) / 2 ^ 52 := by
      refine hb.trans ?_
      rw [div_le_div_iff_of_pos_right (by positivity)]
      linarith
    congr 1
    apply h1 (by linarith)
    obtain ⟨g, hg⟩ := hl
    choose! x hx using hg
    have hch := (flatRel_change ([s.p1, s.p2] ++ otherPoints o).dedup (fun p => x p • g) (fun p => p) hn hδ hB1 (fun p hp i => by
      simpa using hx p (List.mem_dedup.1 hp) i) 1 le_rfl (ρ := 0)).1
    rw [List.map_id'] at hch
    have hz : FlatRel 1 0 ((([s.p1, s.p2] ++ otherPoints o).dedup).map fun p => x p • g) := by
      refine flatRel_of_exact hn 0 (near_flat (g := fun _ => g) (r := 0) (fun p hp => ?_) (by simp))
      obtain ⟨q, -, rfl⟩ := List.mem_map.1 hp
      exact ⟨x q • g, comb_one.2 ⟨x q, rfl⟩, by simp [sprod]⟩
    have h5 := hch hz
    rw [zero_add] at h5
    obtain ⟨u, hu, d, hd⟩ := h5
    refine ⟨u, hu, d, fun w hw => (hd w hw).trans ?_⟩
    have := spread_nonneg ([s.p1, s.p2] ++ otherPoints o).dedup u
    have := sprod_self_nonneg w
    have h6 : (1.01 * (δ * √n)) ^ 2 ≤ (0.99 * (max ([s.p1, s.p2] ++ otherPoints o).dedup.length n : Nat) / 2 ^ 52 - η) ^ 2 :=
      pow_le_pow_left₀ (by positivity) (by linarith) 2
    exact mul_le_mul_of_nonneg_right (mul_le_mul_of_nonneg_right h6 (by assumption)) (by assumption)
  · unfold CollinearPtsTo at h
    rw [if_pos (not_le.1 h3)] at h
    exact h

/-! ## Minors -/

theorem minor_sq (u v : Fin n → ℝ) (i j : Fin n) : (u i * v j - u j * v i) ^ 2 ≤ sprod u u * sprod v v := by
  rcases eq_or_ne i j with rfl | hij
  · have := mul_nonneg (sprod_self_nonneg u) (sprod_self_nonneg v)
    nlinarith
  · have two : ∀ w : Fin n → ℝ, w i ^ 2 + w j ^ 2 ≤ sprod w w := by
      intro w
      have h1 : ∑ k ∈ ({i, j} : Finset (Fin n)), w k * w k ≤ ∑ k, w k * w k :=
        Finset.sum_le_sum_of_subset_of_nonneg (Finset.subset_univ _) fun k _ _ => mul_self_nonneg _
      rw [Finset.sum_pair hij] at h1
      unfold sprod
      nlinarith
    have hu := two u
    have hv := two v
    have h1 : (u i ^ 2 + u j ^ 2) * (v i ^ 2 + v j ^ 2) ≤ sprod u u * sprod v v := mul_le_mul hu hv (by positivity) (sprod_self_nonneg u)
    nlinarith [sq_nonneg (u i * v i + u j * v j)]

theorem abs_minor_le {u v : Fin n → ℝ} {a b : ℝ} (ha : 0 ≤ a) (hb : 0 ≤ b) (hu : sprod u u ≤ a ^ 2) (hv : sprod v v ≤ b ^ 2) (i j : Fin n) : |u i * v j - u j * v i| ≤ a * b := by
  apply abs_le_of_sq_le_sq _ (by positivity)
  calc _ ≤ _ := minor_sq u v i j
    _ ≤ a ^ 2 * b ^ 2 := mul_le_mul hu hv (sprod_self_nonneg v) (by positivity)
    _ = _ := by ring

theorem flatRel_near {ρ : ℝ} (hρ : 0 ≤ ρ) {ps : List (Vec n ℝ)} (h : FlatRel 1 ρ ps) {S : ℝ} (hS : 0 ≤ S) (hF : (ps.map fun p => sprod p p).sum ≤ S ^ 2) :
    ∃ g : Vec n ℝ, ∀ p ∈ ps, ∃ x : ℝ, ∑ i, (p i - x * g i) ^ 2 ≤ (ρ * S) ^ 2 := by
  obtain ⟨u, hu, g, hg⟩ := h
  have hw : FlatWithin 1 (ρ * S) ps := by
    refine ⟨g, fun w hw => (hg w hw).trans ?_⟩
    have h1 := spread_le_frob ps u
    rw [hu, mul_one] at h1
    rw [mul_pow]
    exact mul_le_mul_of_nonneg_right (mul_le_mul_of_nonneg_left (h1.trans hF) (sq_nonneg ρ)) (sprod_self_nonneg w)
  obtain ⟨g, hg⟩ := flat_near (by positivity) hw
  refine ⟨g 0, fun p hp => ?_⟩
  obtain ⟨q, ⟨x, hx⟩, hd⟩ := hg p hp
  refine ⟨x 0, le_trans (le_of_eq ?_) hd⟩
  unfold sprod
  apply Finset.sum_congr rfl
  intro i _
  simp only [Pi.sub_apply, hx, Fin.sum_univ_one]
  ring

theorem flatRel_minor {ρ : ℝ} (hρ : 0 ≤ ρ) {ps : List (Vec n ℝ)} (h : FlatRel 1 ρ ps) {S : ℝ} (hS : 0 ≤ S) (hF : (ps.map fun p => sprod p p).sum ≤ S ^ 2) {p q : Vec n ℝ} (hp : p ∈ ps) (hq : q ∈ ps)
    (i j : Fin n) : |p i * q j - p j * q i| ≤ (2 * ρ + ρ ^ 2) * S ^ 2 := by
  obtain ⟨g, hg⟩ := flatRel_near hρ h hS hF
  have le1 : ∀ p ∈ ps, sprod p p ≤ S ^ 2 := by
    intro p hp
    refine le_trans ?_ hF
    exact List.single_le_sum (by intro x hx; obtain ⟨q, _, rfl⟩ := List.mem_map.1 hx; exact sprod_self_nonneg q) _ (List.mem_map.2 ⟨p, hp, rfl⟩)
  obtain ⟨x, hx⟩ := hg p hp
  obtain ⟨y, hy⟩ := hg q hq
  let p' : Fin n → ℝ := fun i => p i - x * g i
  let q' : Fin n → ℝ := fun i => q i - y * g i
  have hp' : sprod p' p' ≤ (ρ * S) ^ 2 := by
    refine le_trans (le_of_eq ?_) hx
    unfold sprod
    exact Finset.sum_congr rfl fun i _ => by simp only [p']; ring
  have hq' : sprod q' q' ≤ (ρ * S) ^ 2 := by
    refine le_trans (le_of_eq ?_) hy
    unfold sprod
    exact Finset.sum_congr rfl fun i _ => by simp only [q']; ring
  have hρS : 0 ≤ ρ * S := by positivity
  have m1 := abs_minor_le hρS hS hp' (le1 q hq) i j
  have m2 := abs_minor_le hS hρS (le1 p hp) hq' i j
  have m3 := abs_minor_le hρS hρS hp' hq' i j
  have e : p i * q j - p j * q i = (p' i * q j - p' j * q i) + (p i * q' j - p j * q' i) - (p' i * q' j - p' j * q' i) := by
    simp only [p', q']; ring
  rw [e]
  rw [abs_le] at m1 m2 m3 ⊢
  constructor <;> nlinarith

/-- **C160 (what is found collinear).** If `collinear` in floating point is true for at least three distinct points and no shortcut, then with `ρ = 1.01 max(4, n) 2⁻⁵² + η` and `S²` the sum of the squares of all
coordinates: every point is within `ρ S` of one line through the origin, and every 2x2 minor of the coordinates of two of the points is at most `(2 ρ + ρ²) S²`. -/
theorem C160_sound (hf : Rounding ε fl) (hε : ε ≤ 1 / 1000) (hη : 0 ≤ η) (hη1 : η ≤ 1 / 1000) {s : Seg n ℝ} {o : PointOrSeg n ℝ} (hcl : ¬ CloseToFl fl s o)
    (h3 : 3 ≤ ([s.p1, s.p2] ++ otherPoints o).dedup.length) {S ρ : ℝ} (hS : 0 ≤ S) (hF : (([s.p1, s.p2] ++ otherPoints o).map fun p => ∑ i, p i ^ 2).sum ≤ S ^ 2)
    (hρ : ρ = 1.01 * (max 4 n : Nat) / 2 ^ 52 + η) (h : s.CollinearTo fl η none o (.ok true)) :
    (∃ g : Vec n ℝ, ∀ p ∈ [s.p1, s.p2] ++ otherPoints o, ∃ x : ℝ, ∑ i, (p i - x * g i) ^ 2 ≤ (ρ * S) ^ 2) ∧
    ∀ p ∈ [s.p1, s.p2] ++ otherPoints o, ∀ q ∈ [s.p1, s.p2] ++ otherPoints o, ∀ i j, |p i * q j - p j * q i| ≤ (2 * ρ + ρ ^ 2) * S ^ 2 := by
  obtain ⟨b, hb, -, h1⟩ := C160_collinear hf hε hη hη1 hcl h3 h
  have hfl := h1 (Except.ok.inj hb).symm
  have hlen : ([s.p1, s.p2] ++ otherPoints o).dedup.length ≤ 4 := by
    refine (List.Sublist.length_le (List.dedup_sublist _)).trans ?_
    cases o <;> simp [otherPoints]
  have hK : ((max ([s.p1, s.p2] ++ otherPoints o).dedup.length n : Nat) : ℝ) ≤ (max 4 n : Nat) := by
    exact_mod_cast max_le_max hlen le_rfl
  have hρ0 : 0 ≤ ρ := by rw [hρ]; positivity
  have hfl' : FlatRel 1 ρ ([s.p1, s.p2] ++ otherPoints o).dedup := by
    obtain ⟨u, hu, d, hd⟩ := hfl
    refine ⟨u, hu, d, fun w hw => (hd w hw).trans ?_⟩
    have h2 := spread_nonneg ([s.p1, s.p2] ++ otherPoints o).dedup u
    have h4 := sprod_self_nonneg w
    refine mul_le_mul_of_nonneg_right (mul_le_mul_of_nonneg_right (pow_le_pow_left₀ (by positivity) ?_ 2) h2) h4
    rw [hρ]
    have : 1.01 * ((max ([s.p1, s.p2] ++ otherPoints o).dedup.length n : Nat) : ℝ) / 2 ^ 52 ≤ 1.01 * (max 4 n : Nat) / 2 ^ 52 := by
      rw [div_le_div_iff_of_pos_right (by positivity)]
      linarith
    linarith
  have hF' : (([s.p1, s.p2] ++ otherPoints o).dedup.map fun p => sprod p p).sum ≤ S ^ 2 := by
    refine le_trans (List.Sublist.sum_le_sum ((List.dedup_sublist _).map _) ?_) (le_trans (le_of_eq ?_) hF)
    · intro x hx
      obtain ⟨p, _, rfl⟩ := List.mem_map.1 hx
      exact sprod_self_nonneg p
    · congr 1
      apply List.map_congr_left
      intro p _
      unfold sprod
      exact Finset.sum_congr rfl fun i _ => (sq _).symm
  constructor
  · obtain ⟨g, hg⟩ := flatRel_near hρ0 hfl' hS hF'
    exact ⟨g, fun p hp => hg p (List.mem_dedup.2 hp)⟩
  · intro p hp q hq i j
    exact flatRel_minor hρ0 hfl' hS hF' (List.mem_dedup.2 hp) (List.mem_dedup.2 hq) i j

/-! ## Coplanarity -/

theorem coplanarPts_concat (hn : 3 ≤ n) (tol : Option ℝ) (ps : List (Vec n ℝ)) (l : Vec n ℝ) (res : Except PyErr Bool) :
    CoplanarPtsTo fl η tol (ps ++ [l]) res ↔ ∃ q, RankTo fl η tol (ps.map fun p => subFl fl p l) q ∧ res = q.map fun r => decide (r ≤ 2) := by
  unfold CoplanarPtsTo
  simp only [if_neg (not_lt.2 hn), List.getLast?_append, List.getLast?_singleton, Option.some_or, List.map_append, List.map_cons, List.map_nil,
    List.dropLast_concat]

theorem subFl_rel (hf : Rounding ε fl) (p l : Vec n ℝ) (i : Fin n) : |subFl fl p l i - (p - l) i| ≤ ε * |(p - l) i| := hf.rel (p i - l i)

theorem flatRel_mono {k : Nat} {ρ σ : ℝ} (hρ : 0 ≤ ρ) (h : ρ ≤ σ) {ps : List (Vec n ℝ)} (hp : FlatRel k ρ ps) : FlatRel k σ ps := by
  obtain ⟨u, hu, d, hd⟩ := hp
  exact ⟨u, hu, d, fun w hw => (hd w hw).trans
    (mul_le_mul_of_nonneg_right (mul_le_mul_of_nonneg_right (pow_le_pow_left₀ hρ h 2) (spread_nonneg ps u)) (sprod_self_nonneg w))⟩

/-- **C160 (coplanar).** `coplanar_points` in floating point, in three or more dimensions, `κ = max(m - 1, n) 2⁻⁵²`: true if the spread of the exact differences to the last point across to two directions is at most `ρ` times the
largest one and `1.01 (ρ + ε √n) + η ≤ 0.99 κ`; and only if it is at most `1.03 κ + 1.01 η + ε √n` times the largest one. -/
theorem C160_coplanar (hf : Rounding ε fl) (hn : 3 ≤ n) (hε : ε * √n ≤ 1 / 1000) (hη : 0 ≤ η) (hη1 : η ≤ 1 / 1000) {ps : List (Vec n ℝ)} (hps : ps ≠ []) {l : Vec n ℝ} {κ : ℝ}
    (hκ : κ = (max ps.length n : Nat) / 2 ^ 52) {res : Except PyErr Bool} (h : CoplanarPtsTo fl η none (ps ++ [l]) res) :
    ∃ b, res = .ok b ∧
      (∀ ρ, 0 ≤ ρ → 1.01 * (ρ + ε * √n) + η ≤ 0.99 * κ → FlatRel 2 ρ (ps.map (· - l)) → b = true) ∧
      (b = true → FlatRel 2 (1.03 * κ + 1.01 * η + ε * √n) (ps.map (· - l))) := by
  have e0 := hf.nonneg
  have hε' : ε ≤ 1 / 1000 := by
    have : (1 : ℝ) ≤ √n := by
      rw [Real.one_le_sqrt]
      exact_mod_cast (by omega : 1 ≤ n)
    nlinarith
  rw [coplanarPts_concat hn] at h
  obtain ⟨q, hq, rfl⟩ := h
  obtain ⟨r, rfl, hr⟩ := rank_fl hf hε' hη hη1 (by omega) (by simpa using hps) hq
  obtain ⟨r1, r2⟩ := hr 2
  have hch : ∀ {ρ : ℝ}, 0 ≤ ρ → _ := fun {ρ} hρ => flatRel_change ps (fun p => p - l) (fun p => subFl fl p l) (by omega) e0 hε (fun p _ i => subFl_rel hf p l i) 2 (ρ := ρ) hρ
  rw [List.length_map] at r1 r2
  have k1 : 0.99 * ((max ps.length n : Nat) : ℝ) / 2 ^ 52 = 0.99 * κ := by rw [hκ]; ring
  have k2 : 1.01 * ((max ps.length n : Nat) : ℝ) / 2 ^ 52 = 1.01 * κ := by rw [hκ]; ring
  have k0 : 0 ≤ κ := by rw [hκ]; positivity
  rw [k1] at r1
  rw [k2] at r2
  have hB : 0 ≤ ε * √n := by positivity
  refine ⟨decide (r ≤ 2), rfl, fun ρ hρ h1 h2 => ?_, fun h1 => ?_⟩
  · have h3 := (hch hρ).1 h2
    exact decide_eq_true (r1 (by nlinarith) (flatRel_mono (by positivity) (by linarith) h3))
  · have h3 := (hch (by positivity)).2 (r2 (of_decide_eq_true h1))
    exact flatRel_mono (by positivity) (by nlinarith) h3

theorem flat_inPlane {ps : List (Vec n ℝ)} {l : Vec n ℝ} (hin : Spec.InPlane (ps ++ [l])) : FlatWithin 2 0 (ps.map (· - l)) := by
  obtain ⟨q, g, h, hp⟩ := hin
  refine near_flat (g := ![g, h]) (r := 0) (fun p' hp' => ?_) (by simp)
  obtain ⟨p, hpm, rfl⟩ := List.mem_map.1 hp'
  obtain ⟨x, y, h1⟩ := hp p (by simp [hpm])
  obtain ⟨x', y', h2⟩ := hp l (by simp)
  refine ⟨p - l, ⟨![x - x', y - y'], fun j => ?_⟩, by simp [sprod]⟩
  simp only [h1, h2, Fin.sum_univ_two, Pi.sub_apply, Pi.add_apply, Pi.smul_apply, smul_eq_mul, Matrix.cons_val_zero, Matrix.cons_val_one]
  ring

theorem coplanarPts_plane (hf : Rounding ε fl) (hη : 0 ≤ η) (hb : 1.01 * (ε * √n) + η ≤ 2.97 / 2 ^ 52) {ps : List (Vec n ℝ)} (h2 : 2 ≤ ps.length) (hp : Spec.InPlane ps) {res : Except PyErr Bool}
    (h : CoplanarPtsTo fl η none ps res) : res = .ok true := by
  have e0 := hf.nonneg
  have hB : 0 ≤ ε * √n := by positivity
  by_cases hn : n < 3
  · unfold CoplanarPtsTo at h
    rwa [if_pos hn] at h
  have hn := not_lt.1 hn
  obtain ⟨qs, l, rfl⟩ : ∃ qs l, ps = qs ++ [l] := by
    rcases List.eq_nil_or_concat ps with h | ⟨qs, l, h⟩
    · subst h; simp at h2
    · exact ⟨qs, l, by simpa using h⟩
  obtain ⟨b, rfl, h1, -⟩ := C160_coplanar hf hn (by norm_num at *; linarith) hη (by norm_num at *; linarith) (by rintro rfl; simp at h2) rfl h
  congr 1
  refine h1 0 le_rfl ?_ (flatRel_of_exact (by omega) 0 (flat_inPlane hp))
  rw [zero_add]
  refine hb.trans ?_
  have : (3 : ℝ) ≤ (max qs.length n : Nat) := by exact_mod_cast hn.trans (le_max_right _ _)
  have h3 := div_le_div_of_nonneg_right this (by positivity : (0 : ℝ) ≤ 2 ^ 52)
  linarith

/-- **C160 (planes are found).** Points which lie exactly in a plane are found coplanar in floating point, by `coplanar` and by `isplane`, in every dimension `n` with `1.01 ε √n + η ≤ 2.97 2⁻⁵²`. -/
theorem C160_plane (hf : Rounding ε fl) (hη : 0 ≤ η) {s : Seg n ℝ} {o : PointOrSeg n ℝ} {c : Curve ℝ} (hb : 1.01 * (ε * √n) + η ≤ 2.97 / 2 ^ 52)
    (hb' : 1.01 * (ε * √c.ncols) + η ≤ 2.97 / 2 ^ 52) (h2 : 2 ≤ c.rows.length) (res : Except PyErr Bool) :
    (Spec.InPlane ([s.p1, s.p2] ++ otherPoints o) → s.CoplanarTo fl η none o res → res = .ok true) ∧
    (Spec.InPlane (ptsOf c) → c.IsplaneTo fl η res → res = .ok true) := by
  constructor
  · intro hp h
    cases o with
    | point p => exact coplanarPts_plane hf hη hb (by simp [otherPoints]) hp h
    | seg r => exact coplanarPts_plane hf hη hb (by simp [otherPoints]) hp h
  · intro hp h
    exact coplanarPts_plane hf hη hb' (by simpa [ptsOf] using h2) hp h

/-- **C160 (what is found coplanar).** If `coplanar_points` in floating point is true in three or more dimensions, all points are within `ρ S` of one plane through the last one, where `S²` is the sum of the squared distances to the
last point and `ρ = 1.03 max(m - 1, n) 2⁻⁵² + 1.01 η + ε √n`. -/
theorem C160_coplanar_near (hf : Rounding ε fl) (hn : 3 ≤ n) (hε : ε * √n ≤ 1 / 1000) (hη : 0 ≤ η) (hη1 : η ≤ 1 / 1000) {ps : List (Vec n ℝ)} (hps : ps ≠ []) {l : Vec n ℝ} {ρ S : ℝ}
    (hρ : ρ = 1.03 * ((max ps.length n : Nat) / 2 ^ 52) + 1.01 * η + ε * √n) (hS : 0 ≤ S) (hF : (ps.map fun p => ∑ i, (p i - l i) ^ 2).sum ≤ S ^ 2)
    (h : CoplanarPtsTo fl η none (ps ++ [l]) (.ok true)) :
    ∃ g k : Vec n ℝ, ∀ p ∈ ps, ∃ x y : ℝ, ∑ i, (p i - (l i + x * g i + y * k i)) ^ 2 ≤ (ρ * S) ^ 2 := by
  obtain ⟨b, hb, -, h1⟩ := C160_coplanar hf hn hε hη hη1 hps rfl h
  have hfl := h1 (Except.ok.inj hb).symm
  rw [← hρ] at hfl
  have e0 := hf.nonneg
  have hρ0 : 0 ≤ ρ := by rw [hρ]; positivity
  obtain ⟨u, hu, d, hd⟩ := hfl
  have hw : FlatWithin 2 (ρ * S) (ps.map (· - l)) := by
    refine ⟨d, fun w hw => (hd w hw).trans ?_⟩
    have h1 := spread_le_frob (ps.map (· - l)) u
    rw [hu, mul_one, List.map_map] at h1
    have h2 : (ps.map ((fun p => sprod p p) ∘ fun x => x - l)).sum ≤ S ^ 2 := by
      refine le_trans (le_of_eq ?_) hF
      congr 1
      apply List.map_congr_left
      intro p _
      simp only [Function.comp_apply, sprod, Pi.sub_apply]
      exact Finset.sum_congr rfl fun i _ => (sq _).symm
    rw [mul_pow]
    exact mul_le_mul_of_nonneg_right (mul_le_mul_of_nonneg_left (h1.trans h2) (sq_nonneg ρ)) (sprod_self_nonneg w)
  obtain ⟨g, hg⟩ := flat_near (by positivity) hw
  refine ⟨g 0, g 1, fun p hp => ?_⟩
  obtain ⟨q, ⟨x, hx⟩, hdq⟩ := hg (p - l) (List.mem_map.2 ⟨p, hp, rfl⟩)
  refine ⟨x 0, x 1, ?_⟩
  refine le_trans (le_of_eq ?_) hdq
  unfold sprod
  apply Finset.sum_congr rfl
  intro i _
  simp only [Pi.sub_apply, hx, Fin.sum_univ_two]
  ring

/-! ## Exact arithmetic -/

theorem svdTo_zero {rows : List (Vec n ℝ)} {s : List ℝ} (h : SvdTo 0 rows s) : s = svdValues rows := by
  obtain ⟨h1, -, -, h2⟩ := h
  unfold svdValues
  apply List.ext_getElem (by simp [h1])
  intro i h3 h4
  have := h2 i h3
  rw [zero_mul] at this
  have := abs_nonpos_iff.1 this
  simp only [List.getD_eq_getElem?_getD, List.getElem?_eq_getElem h3, Option.getD_some] at this
  simp only [List.getElem_map, List.getElem_range]
  linarith

theorem svdTo_self (hη : 0 ≤ η) (rows : List (Vec n ℝ)) : SvdTo η rows (svdValues rows) := by
  have hl : (svdValues rows).length = min rows.length n := by simp [svdValues]
  refine ⟨hl, ?_, ?_, ?_⟩
  · rw [List.pairwise_iff_getElem]
    intro i j h1 h2 hij
    simp only [svdValues, List.getElem_map, List.getElem_range]
    exact (rowsMap rows).singularValues_antitone hij.le
  · intro x hx
    obtain ⟨i, _, rfl⟩ := List.mem_map.1 hx
    exact (rowsMap rows).singularValues_nonneg i
  · intro i hi
    simp only [List.getD_eq_getElem?_getD, List.getElem?_eq_getElem hi, Option.getD_some]
    simp only [svdValues, List.getElem_map, List.getElem_range, sub_self, abs_zero]
    exact mul_nonneg hη ((rowsMap rows).singularValues_nonneg 0)

theorem rankTo_id (tol : Option ℝ) (rows : List (Vec n ℝ)) (res : Except PyErr Nat) : RankTo id 0 tol rows res ↔ res = matrixRankTol tol rows := by
  have hc : countFl id tol (max rows.length n) (svdValues rows) = matrixRankTol tol rows := by
    unfold countFl matrixRankTol
    cases tol with
    | some t => rfl
    | none => cases svdValues rows <;> rfl
  constructor
  · rintro ⟨s, hs, rfl⟩
    rw [svdTo_zero hs, hc]
  · intro h
    exact ⟨_, svdTo_self le_rfl rows, by rw [hc]; exact h⟩

theorem collinearPtsTo_id (tol : Option ℝ) (ps : List (Vec n ℝ)) (res : Except PyErr Bool) : CollinearPtsTo id 0 tol ps res ↔ res = collinearPointsTol tol ps := by
  unfold CollinearPtsTo collinearPointsTol
  simp only [rankTo_id]
  split
  · simp
  · simp

theorem coplanarPtsTo_id (tol : Option ℝ) (ps : List (Vec n ℝ)) (res : Except PyErr Bool) : CoplanarPtsTo id 0 tol ps res ↔ res = coplanarPointsTol tol ps := by
  unfold CoplanarPtsTo coplanarPointsTol
  simp only [rankTo_id]
  split
  · simp
  · cases ps.getLast? with
    | none => simp
    | some l => exact ⟨fun ⟨q, h1, h2⟩ => by rw [h2, h1]; rfl, fun h => ⟨_, rfl, h⟩⟩

/-- **C160 (exact arithmetic).** Without rounding and with exact singular values the tests are those of C126. -/
theorem C160_exact (s : Seg n ℝ) (tol : Option ℝ) (o : PointOrSeg n ℝ) (c : Curve ℝ) (res : Except PyErr Bool) :
    (s.CollinearTo id 0 tol o res ↔ res = s.collinearTol tol o) ∧ (s.CoplanarTo id 0 tol o res ↔ res = s.coplanarTol tol o) ∧ (c.IsplaneTo id 0 res ↔ res = c.isplaneTol) := by
  refine ⟨?_, ?_, coplanarPtsTo_id none _ res⟩
  · rw [collinearTo_iff]
    have hcl : CloseToFl id s o ↔ CloseTo s o := by
      cases o with
      | point p => simp only [CloseToFl, CloseTo, vecCloseFl_id]
      | seg r => simp [CloseToFl, CloseTo, vecCloseFl_id, Seg.eq, Seg.reverse]
    rw [hcl, collinearPtsTo_id]
    by_cases h : CloseTo s o
    · have : s.collinearTol tol o = .ok true := by
        cases o with
        | point p => simp only [Seg.collinearTol]; rw [if_pos (by simpa [CloseTo] using h)]
        | seg r => simp only [Seg.collinearTol]; rw [if_pos (by simpa [CloseTo] using h)]
      rw [this]
      tauto
    · rw [collinearTol_far s tol o h]
      tauto
  · cases o with
    | point p => exact coplanarPtsTo_id tol [s.p1, s.p2, p] res
    | seg r => exact coplanarPtsTo_id tol [s.p1, s.p2, r.p1, r.p2] res

/-! ## A tolerance given by the caller -/

theorem top_le_frob {rows : List (Vec n ℝ)} {S : ℝ} (hS : 0 ≤ S) (h : (rows.map fun p => sprod p p).sum ≤ S ^ 2) : (rowsMap rows).singularValues 0 ≤ S := by
  refine (sv_le_iff rows 0 hS).2 ⟨fun i => i.elim0, fun w _ => ?_⟩
  exact (spread_le_frob rows w).trans (mul_le_mul_of_nonneg_right h (sprod_self_nonneg w))

/-- **C160 (tolerance).** With a tolerance `tol ≥ 0`, three or more distinct points and no shortcut, `S²` the sum of the squares of all coordinates: `collinear` in floating point is true if the spread of the points across to one
direction is at most `tol - η S`, and only if it is at most `tol + η S`. -/
theorem C160_tolerance (hη : 0 ≤ η) {t : ℝ} (ht : 0 ≤ t) {s : Seg n ℝ} {o : PointOrSeg n ℝ} (hcl : ¬ CloseToFl fl s o)
    (h3 : 3 ≤ ([s.p1, s.p2] ++ otherPoints o).dedup.length) {S : ℝ} (hS : 0 ≤ S) (hF : (([s.p1, s.p2] ++ otherPoints o).dedup.map fun p => ∑ i, p i ^ 2).sum ≤ S ^ 2)
    {res : Except PyErr Bool} (h : s.CollinearTo fl η (some t) o res) :
    ∃ b, res = .ok b ∧ (η * S ≤ t → FlatWithin 1 (t - η * S) ([s.p1, s.p2] ++ otherPoints o).dedup → b = true) ∧
      (b = true → FlatWithin 1 (t + η * S) ([s.p1, s.p2] ++ otherPoints o).dedup) := by
  rw [collinearTo_iff] at h
  rcases h with ⟨h, -⟩ | ⟨-, h⟩
  · exact absurd h hcl
  unfold CollinearPtsTo at h
  rw [if_neg (not_lt.2 h3)] at h
  obtain ⟨q, hq, rfl⟩ := h
  have hF' : (([s.p1, s.p2] ++ otherPoints o).dedup.map fun p => sprod p p).sum ≤ S ^ 2 := by
    refine le_trans (le_of_eq ?_) hF
    congr 1
    apply List.map_congr_left
    intro p _
    unfold sprod
    exact Finset.sum_congr rfl fun i _ => (sq _).symm
  obtain ⟨r, rfl, hr⟩ := rank_fl_some hη (dim_pos h3) ht hS (top_le_frob hS hF') hq
  obtain ⟨r1, r2⟩ := hr 1
  exact ⟨decide (r ≤ 1), rfl, fun h1 h2 => decide_eq_true (r1 h1 h2), fun h1 => r2 (of_decide_eq_true h1)⟩

/-! ## Lines which do not pass through the origin -/

/-- **C160 (violated: lines not through the origin).** The points (0, 1), (1, 1), (2, 1) of a horizontal line are not found collinear in floating point, however accurate the singular values are. -/
theorem C160_off_origin_fails (hf : Rounding ε fl) (hε : ε ≤ 1 / 1000) (hη : 0 ≤ η) (hη1 : η ≤ 1 / 1000) :
    OnLine [![(0 : ℝ), 1], ![1, 1], ![2, 1]] ∧ ¬ (⟨![0, 1], ![1, 1]⟩ : Seg 2 ℝ).CollinearTo fl η none (.point ![2, 1]) (.ok true) := by
  constructor
  · refine ⟨![0, 1], ![1, 0], fun p hp => ?_⟩
    simp only [List.mem_cons, List.not_mem_nil, or_false] at hp
    rcases hp with rfl | rfl | rfl
    · exact ⟨0, by simp⟩
    · exact ⟨1, by funext i; fin_cases i <;> simp⟩
    · exact ⟨2, by funext i; fin_cases i <;> simp⟩
  · intro h
    have hcl : ¬ CloseToFl fl (⟨![0, 1], ![1, 1]⟩ : Seg 2 ℝ) (.point ![2, 1]) := by
      rintro (h | h)
      · have := of_closeFl hf hε (h 0)
        norm_num at this
      · have := of_closeFl hf hε (h 0)
        norm_num at this
    have h3 : 3 ≤ ([(⟨![0, 1], ![1, 1]⟩ : Seg 2 ℝ).p1, (⟨![0, 1], ![1, 1]⟩ : Seg 2 ℝ).p2] ++ otherPoints (.point ![2, 1])).dedup.length := by
      simp only [otherPoints]
      rw [List.dedup_eq_self.2]
      · simp
      · simp
    have := (C160_sound hf hε hη hη1 hcl h3 (S := 3) (by norm_num) (by simp [otherPoints, Fin.sum_univ_two]; norm_num) rfl h).2 ![0, 1] (by simp) ![1, 1] (by simp) 0 1
    norm_num at this
    nlinarith

/-! ## Examples -/

/-- There is always a result. -/
theorem collinearTo_exists (hη : 0 ≤ η) (s : Seg n ℝ) (o : PointOrSeg n ℝ) : ∃ res, s.CollinearTo fl η none o res := by
  by_cases hc : CloseToFl fl s o
  · exact ⟨_, (collinearTo_iff s none o _).2 (.inl ⟨hc, rfl⟩)⟩
  · by_cases h3 : ([s.p1, s.p2] ++ otherPoints o).dedup.length < 3
    · exact ⟨_, (collinearTo_iff s none o _).2 (.inr ⟨hc, by unfold CollinearPtsTo; rw [if_pos h3]⟩)⟩
    · refine ⟨(countFl fl none (max ([s.p1, s.p2] ++ otherPoints o).dedup.length n) (svdValues ([s.p1, s.p2] ++ otherPoints o).dedup)).map fun r => decide (r ≤ 1),
        (collinearTo_iff s none o _).2 (.inr ⟨hc, ?_⟩)⟩
      unfold CollinearPtsTo
      rw [if_neg h3]
      exact ⟨_, ⟨_, svdTo_self hη _, rfl⟩, rfl⟩

/-- The hypotheses of `C160_line` hold for the points 0.1 (1, 3), 0.2 (1, 3), 0.7 (1, 3), rounded to binary64. -/
example {res : Except PyErr Bool}
    (h : (⟨![rnd (1 / 10), rnd (3 / 10)], ![rnd (2 / 10), rnd (6 / 10)]⟩ : Seg 2 ℝ).CollinearTo rnd (1 / 2 ^ 52) none (.point ![rnd (7 / 10), rnd (21 / 10)]) res) : res = .ok true := by
  have hs : √((2 : Nat) : ℝ) ≤ 3 / 2 := by rw [Real.sqrt_le_left (by norm_num)]; norm_num
  refine C160_line rnd_rounding (by norm_num) (by positivity) (δ := 2⁻¹ ^ 53) (by positivity) ?_ ?_ h
  · have := mul_le_mul_of_nonneg_left hs (by positivity : (0 : ℝ) ≤ 2⁻¹ ^ 53)
    norm_num at *
    linarith
  · refine ⟨![1, 3], fun p hp => ?_⟩
    simp only [otherPoints, List.cons_append, List.nil_append, List.mem_cons, List.not_mem_nil, or_false] at hp
    have key : ∀ x : ℝ, ∀ i, |(![rnd x, rnd (3 * x)] : Vec 2 ℝ) i - x * (![1, 3] : Vec 2 ℝ) i| ≤ 2⁻¹ ^ 53 * |x * (![1, 3] : Vec 2 ℝ) i| := by
      intro x i
      fin_cases i
      · simpa using rnd_rounding.rel x
      · have := rnd_rounding.rel (3 * x)
        rw [mul_comm 3 x] at this ⊢
        simpa using this
    rcases hp with rfl | rfl | rfl
    · refine ⟨1 / 10, ?_⟩
      have := key (1 / 10)
      rwa [show (3 : ℝ) * (1 / 10) = 3 / 10 by norm_num] at this
    · refine ⟨2 / 10, ?_⟩
      have := key (2 / 10)
      rwa [show (3 : ℝ) * (2 / 10) = 6 / 10 by norm_num] at this
    · refine ⟨7 / 10, ?_⟩
      have := key (7 / 10)
      rwa [show (3 : ℝ) * (7 / 10) = 21 / 10 by norm_num] at this

theorem clear_corner (hf : Rounding ε fl) (hε : ε ≤ 1 / 1000) : ¬ CloseToFl fl (⟨![0, 0], ![1, 0]⟩ : Seg 2 ℝ) (.point ![0, 1]) ∧
    3 ≤ ([(⟨![0, 0], ![1, 0]⟩ : Seg 2 ℝ).p1, (⟨![0, 0], ![1, 0]⟩ : Seg 2 ℝ).p2] ++ otherPoints (.point ![0, 1])).dedup.length := by
  constructor
  · rintro (h | h)
    · have := of_closeFl hf hε (h 1)
      norm_num at this
    · have := of_closeFl hf hε (h 1)
      norm_num at this
  · simp only [otherPoints]
    rw [List.dedup_eq_self.2]
    · simp
    · simp

/-- `C160_collinear` and `C160_sound`: the corner (0, 0), (1, 0), (0, 1) meets the hypotheses; it is not found collinear. -/
example (h : (⟨![0, 0], ![1, 0]⟩ : Seg 2 ℝ).CollinearTo rnd (1 / 2 ^ 50) none (.point ![0, 1]) (.ok true)) : False := by
  have hε : (2⁻¹ ^ 53 : ℝ) ≤ 1 / 1000 := by norm_num
  obtain ⟨hcl, h3⟩ := clear_corner rnd_rounding hε
  have hcol := C160_collinear rnd_rounding hε (by positivity) (by norm_num) hcl h3 h
  have := (C160_sound rnd_rounding hε (by positivity) (by norm_num) hcl h3 (S := 2) (by norm_num) (by simp [otherPoints, Fin.sum_univ_two]; norm_num) rfl h).2 ![1, 0] (by simp) ![0, 1]
    (by simp [otherPoints]) 0 1
  norm_num at this

/-- `C160_tolerance` for the same corner and the tolerance 1/1000. -/
example {res : Except PyErr Bool} (h : (⟨![0, 0], ![1, 0]⟩ : Seg 2 ℝ).CollinearTo rnd (1 / 2 ^ 50) (some (1 / 1000)) (.point ![0, 1]) res) : ∃ b, res = .ok b := by
  have hε : (2⁻¹ ^ 53 : ℝ) ≤ 1 / 1000 := by norm_num
  obtain ⟨hcl, h3⟩ := clear_corner rnd_rounding hε
  have hd : ([(⟨![0, 0], ![1, 0]⟩ : Seg 2 ℝ).p1, (⟨![0, 0], ![1, 0]⟩ : Seg 2 ℝ).p2] ++ otherPoints (.point ![0, 1])).dedup = [![0, 0], ![1, 0], ![0, 1]] := by
    simp only [otherPoints]
    rw [List.dedup_eq_self.2]
    · simp
    · simp
  obtain ⟨b, hb, -⟩ := C160_tolerance (by positivity) (by norm_num) hcl h3 (S := 2) (by norm_num) (by rw [hd]; simp [Fin.sum_univ_two]; norm_num) h
  exact ⟨b, hb⟩

/-- `C160_plane`, `C160_coplanar` and `C160_coplanar_near`: five points of the plane z = 1 in space, computed in binary64. -/
example {res : Except PyErr Bool} (h : CoplanarPtsTo rnd (1 / 2 ^ 52) none ([![0, 0, 1], ![1, 0, 1], ![0, 1, 1], ![1, 1, 1]] ++ [![3, 7, 1]] : List (Vec 3 ℝ)) res) :
    res = .ok true ∧ ∃ b, res = .ok b ∧ (b = true → FlatRel 2 (1.03 * ((4 : Nat) / 2 ^ 52) + 1.01 * (1 / 2 ^ 52) + 2⁻¹ ^ 53 * √(3 : Nat))
      ([![0, 0, 1], ![1, 0, 1], ![0, 1, 1], ![1, 1, 1]].map (· - ![3, 7, 1]))) := by
  have hs : √((3 : Nat) : ℝ) ≤ 2 := by rw [Real.sqrt_le_left (by norm_num)]; norm_num
  have hm := mul_le_mul_of_nonneg_left hs (by positivity : (0 : ℝ) ≤ 2⁻¹ ^ 53)
  constructor
  · refine coplanarPts_plane rnd_rounding (by positivity) (by norm_num at *; linarith) (by simp) ?_ h
    refine ⟨![0, 0, 1], ![1, 0, 0], ![0, 1, 0], fun p _ => ?_⟩
    refine ⟨p 0, p 1, ?_⟩
    rename_i hp
    simp only [List.cons_append, List.nil_append, List.mem_cons, List.not_mem_nil, or_false] at hp
    rcases hp with rfl | rfl | rfl | rfl | rfl <;> · funext i; fin_cases i <;> simp
  · obtain ⟨b, h1, -, h2⟩ := C160_coplanar rnd_rounding le_rfl (by norm_num at *; linarith) (by positivity) (by norm_num) (by simp) rfl h
    exact ⟨b, h1, h2⟩

end Verif.Props
