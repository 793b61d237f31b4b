import Verif.Props.AccuracyPieces
import Verif.Props.IntersectCurves
import Verif.Props.Almost
import Mathlib.Analysis.Calculus.MeanValue
import Mathlib.Analysis.Calculus.Deriv.MeanValue

/-!
C150: intersections of curves sampled from smooth curves.
-/

namespace Verif.Spec

open Set

/-- The points `data` are those of the curve `g` at the increasing parameters `ts` in `[a, b]`. -/
structure SampledPts {n : Nat} (g : ℝ → EuclideanSpace ℝ (Fin n)) (a b : ℝ) (ts : List ℝ) (data : List (Fin n → ℝ)) : Prop where
  len : ts.length = data.length
  mono : ts.Pairwise (· ≤ ·)
  range : ∀ t ∈ ts, t ∈ Icc a b
  pts : ∀ (i : Nat) (t : ℝ) (p : Fin n → ℝ), ts[i]? = some t → data[i]? = some p → WithLp.toLp 2 p = g t

/-- No two neighbouring points are farther apart than `l`. -/
def ChordsLe {n : Nat} (l : ℝ) (data : List (Fin n → ℝ)) : Prop :=
  ∀ (i : Nat) (p q : Fin n → ℝ), data[i]? = some p → data[i + 1]? = some q → ‖(WithLp.toLp 2 (q - p) : EuclideanSpace ℝ (Fin n))‖ ≤ l

/-- The tolerance of the exact method in the parameter of a segment. -/
noncomputable def parTol : ℝ := 1 / 10 ^ 8 + 1 / 10 ^ 5

/-- Neighbouring entries differ by at least `h0` and at most `h`. -/
def StepsIn (h0 h : ℝ) (xs : List ℝ) : Prop := ∀ (i : Nat) (u v : ℝ), xs[i]? = some u → xs[i + 1]? = some v → h0 ≤ v - u ∧ v - u ≤ h

end Verif.Spec

namespace Verif.Props

open Verif Verif.Np Verif.Model Verif.Spec Set

variable {n : Nat} {g d : ℝ → EuclideanSpace ℝ (Fin n)} {a b M h : ℝ} {ts : List ℝ} {data : List (Fin n → ℝ)}

theorem sampled_step (hs : SampledPts g a b ts data) {i : Nat} (hi : i + 1 < data.length) :
    ∃ u v, ts[i]? = some u ∧ ts[i + 1]? = some v ∧ u ∈ Icc a b ∧ v ∈ Icc a b ∧ u ≤ v ∧ WithLp.toLp 2 data[i] = g u ∧ WithLp.toLp 2 data[i + 1] = g v := by
  have l1 : i + 1 < ts.length := by rw [hs.len]; exact hi
  have l0 : i < ts.length := by omega
  have e0 := List.getElem?_eq_getElem l0
  have e1 := List.getElem?_eq_getElem l1
  refine ⟨_, _, e0, e1, hs.range _ (List.getElem_mem _), hs.range _ (List.getElem_mem _), ?_, ?_, ?_⟩
  · exact List.pairwise_iff_getElem.1 hs.mono _ _ _ _ (by omega)
  · exact hs.pts i _ _ e0 (List.getElem?_eq_getElem _)
  · exact hs.pts (i + 1) _ _ e1 (List.getElem?_eq_getElem _)

theorem parTol_pos : 0 < parTol := by unfold parTol; norm_num

/-- A point of the line of a segment of a sampled curve, not farther outside of the segment than the tolerance, is close to the curve. -/
theorem sampled_near (hM : 0 ≤ M) (h1 : DerivOn a b g d) (hl : LipOn a b M d) (hs : SampledPts g a b ts data) (hh : GapsLe h ts) {i : Nat}
    (hi : i + 1 < data.length) {x δ l : ℝ} (x0 : -δ ≤ x) (x1 : x ≤ 1 + δ) (hδ : 0 ≤ δ) (hc : ChordsLe l data) :
    ∃ t u v, ts[i]? = some u ∧ ts[i + 1]? = some v ∧ t ∈ Icc u v ∧ t ∈ Icc a b ∧
      ‖(WithLp.toLp 2 (data[i] + x • (data[i + 1] - data[i])) : EuclideanSpace ℝ (Fin n)) - g t‖ ≤ M / 8 * h ^ 2 + δ * l := by
  obtain ⟨u, v, e0, e1, hu, hv, huv, p0, p1⟩ := sampled_step hs hi
  obtain ⟨y, hy⟩ : ∃ y, y = max 0 (min 1 x) := ⟨_, rfl⟩
  have y0 : 0 ≤ y := by rw [hy]; exact le_max_left _ _
  have y1 : y ≤ 1 := by rw [hy]; exact max_le (by norm_num) (min_le_left _ _)
  have hxy : |x - y| ≤ δ := by
    rw [hy, abs_le]
    rcases le_total x 0 with h0 | h0
    · rw [min_eq_right (by linarith), max_eq_left h0]; constructor <;> linarith
    · rcases le_total x 1 with h1 | h1
      · rw [min_eq_right h1, max_eq_right h0]; constructor <;> linarith
      · rw [min_eq_left h1, max_eq_right (by norm_num)]; constructor <;> linarith
  have t0 : u ≤ u + (v - u) * y := by nlinarith
  have t1 : u + (v - u) * y ≤ v := by nlinarith
  have tt : u + (v - u) * y ∈ Icc a b := ⟨hu.1.trans t0, t1.trans hv.2⟩
  refine ⟨u + (v - u) * y, u, v, e0, e1, ⟨t0, t1⟩, tt, ?_⟩
  have c1 := chord_near hM h1 hl (x := u + (v - u) * y) (s := y) hu hv y0 y1 (by ring) tt huv (hh i u v e0 e1)
  have c2 : ‖(WithLp.toLp 2 (data[i + 1] - data[i]) : EuclideanSpace ℝ (Fin n))‖ ≤ l :=
    hc i _ _ (List.getElem?_eq_getElem _) (List.getElem?_eq_getElem _)
  have e : (WithLp.toLp 2 (data[i] + x • (data[i + 1] - data[i])) : EuclideanSpace ℝ (Fin n)) - g (u + (v - u) * y) =
      (g u + y • (g v - g u) - g (u + (v - u) * y)) + (x - y) • (WithLp.toLp 2 (data[i + 1] - data[i]) : EuclideanSpace ℝ (Fin n)) := by
    rw [← p0, ← p1]
    ext k
    simp
    ring
  rw [e]
  refine (norm_add_le _ _).trans (add_le_add c1 ?_)
  rw [norm_smul, Real.norm_eq_abs]
  exact mul_le_mul hxy c2 (norm_nonneg _) hδ

theorem exact_tol {x : ℝ} (h0 : -(1 / 100000000) ≤ x) (h1 : x ≤ 1 + (1 / 100000000 + 1 / 100000)) : -parTol ≤ x ∧ x ≤ 1 + parTol := by
  unfold parTol
  constructor
  · linarith [show (1 : ℝ) / 10 ^ 8 = 1 / 100000000 by norm_num, show (0 : ℝ) < 1 / 10 ^ 5 by norm_num]
  · linarith [show (1 : ℝ) / 10 ^ 8 = 1 / 100000000 by norm_num, show (1 : ℝ) / 10 ^ 5 = 1 / 100000 by norm_num]

section
variable {g₁ d₁ g₂ d₂ : ℝ → EuclideanSpace ℝ (Fin n)} {a₁ b₁ M₁ h₁ l₁ a₂ b₂ M₂ h₂ l₂ : ℝ} {ts₁ ts₂ : List ℝ} {c1 c2 : GCurve n ℝ}

/-- **C150 (exact).** Two different curves with points of two smooth curves. For every EXACT intersection the reported point is within `M h² / 8`, plus the tolerance of the method times the longest
chord, of both smooth curves, so that these come that close to each other: at parameters of the segments the intersection names. -/
theorem C150_exact (feps : ℝ) (fresh : Nat) (int : Bool) (hid : c1.cid ≠ c2.cid)
    (m1 : 0 ≤ M₁) (k1 : DerivOn a₁ b₁ g₁ d₁) (j1 : LipOn a₁ b₁ M₁ d₁) (s1 : SampledPts g₁ a₁ b₁ ts₁ c1.data) (w1 : GapsLe h₁ ts₁) (q1 : ChordsLe l₁ c1.data)
    (m2 : 0 ≤ M₂) (k2 : DerivOn a₂ b₂ g₂ d₂) (j2 : LipOn a₂ b₂ M₂ d₂) (s2 : SampledPts g₂ a₂ b₂ ts₂ c2.data) (w2 : GapsLe h₂ ts₂) (q2 : ChordsLe l₂ c2.data) :
    ∃ xs, exactCall feps fresh int (.curve c1) (.curve c2) = .ok (.list xs) ∧ ∀ x ∈ xs, ∀ P, x.info = ⟨.point P, .exact⟩ →
      ∃ i j t₁ t₂ u₁ v₁ u₂ v₂, x.seg1 = c1.segment i ∧ x.seg2 = c2.segment j ∧ ts₁[i]? = some u₁ ∧ ts₁[i + 1]? = some v₁ ∧ t₁ ∈ Icc u₁ v₁ ∧
        ts₂[j]? = some u₂ ∧ ts₂[j + 1]? = some v₂ ∧ t₂ ∈ Icc u₂ v₂ ∧
        ‖(WithLp.toLp 2 P : EuclideanSpace ℝ (Fin n)) - g₁ t₁‖ ≤ M₁ / 8 * h₁ ^ 2 + parTol * l₁ ∧
        ‖(WithLp.toLp 2 P : EuclideanSpace ℝ (Fin n)) - g₂ t₂‖ ≤ M₂ / 8 * h₂ ^ 2 + parTol * l₂ ∧
        ‖g₁ t₁ - g₂ t₂‖ ≤ M₁ / 8 * h₁ ^ 2 + M₂ / 8 * h₂ ^ 2 + parTol * (l₁ + l₂) := by
  obtain ⟨idx, info, hcall, _, _, hseg, hb⟩ := C41_row_major feps fresh int c1 c2 hid
  refine ⟨_, hcall, ?_⟩
  intro x hx P hP
  obtain ⟨p, hp, rfl⟩ := List.mem_map.1 hx
  obtain ⟨b1, b2⟩ := hb p hp
  obtain ⟨_, _, he, _, _⟩ := hseg p.1 p.2 b1 b2
  rw [show info p.1 p.2 = ⟨.point P, .exact⟩ from hP] at he
  obtain ⟨x, y, hx, hy, x0, x1, y0, y1⟩ := C37_on_both feps _ _ he
  obtain ⟨x0, x1⟩ := exact_tol x0 x1
  obtain ⟨y0, y1⟩ := exact_tol y0 y1
  obtain ⟨t₁, u₁, v₁, a1, a2, a3, _, a5⟩ := sampled_near m1 k1 j1 s1 w1 b1 x0 x1 parTol_pos.le q1
  obtain ⟨t₂, u₂, v₂, e1, e2, e3, _, e5⟩ := sampled_near m2 k2 j2 s2 w2 b2 y0 y1 parTol_pos.le q2
  rw [← hx] at a5
  rw [← hy] at e5
  refine ⟨p.1, p.2, t₁, t₂, u₁, v₁, u₂, v₂, rfl, rfl, a1, a2, a3, e1, e2, e3, a5, e5, ?_⟩
  have := norm_sub_le_norm_sub_add_norm_sub (g₁ t₁) (WithLp.toLp 2 P) (g₂ t₂)
  rw [norm_sub_rev (g₁ t₁) (WithLp.toLp 2 P)] at this
  linarith

/-- **C150 (exact, self-intersections).** The same for the intersections of a curve with itself; the two parameters are separated by at least one step of the sampling. -/
theorem C150_self (feps : ℝ) (fresh : Nat) (int : Bool)
    (m1 : 0 ≤ M₁) (k1 : DerivOn a₁ b₁ g₁ d₁) (j1 : LipOn a₁ b₁ M₁ d₁) (s1 : SampledPts g₁ a₁ b₁ ts₁ c1.data) (w1 : GapsLe h₁ ts₁) (q1 : ChordsLe l₁ c1.data) :
    ∃ xs, exactCall feps fresh int (.curve c1) (.curve c1) = .ok (.list xs) ∧ ∀ x ∈ xs, ∀ P, x.info = ⟨.point P, .exact⟩ →
      ∃ t₁ t₂ k u v, ts₁[k]? = some u ∧ ts₁[k + 1]? = some v ∧ a₁ ≤ t₁ ∧ t₁ ≤ u ∧ v ≤ t₂ ∧ t₂ ≤ b₁ ∧
        ‖(WithLp.toLp 2 P : EuclideanSpace ℝ (Fin n)) - g₁ t₁‖ ≤ M₁ / 8 * h₁ ^ 2 + parTol * l₁ ∧
        ‖(WithLp.toLp 2 P : EuclideanSpace ℝ (Fin n)) - g₁ t₂‖ ≤ M₁ / 8 * h₁ ^ 2 + parTol * l₁ ∧
        ‖g₁ t₁ - g₁ t₂‖ ≤ M₁ / 4 * h₁ ^ 2 + 2 * parTol * l₁ := by
  obtain ⟨idx, info, hcall, _, _, hseg, hb⟩ := C42_self feps fresh int c1
  refine ⟨_, hcall, ?_⟩
  intro x hx P hP
  obtain ⟨p, hp, rfl⟩ := List.mem_map.1 hx
  obtain ⟨b1, b2⟩ := hb p hp
  have b0 : p.1 + 1 < c1.data.length := by omega
  obtain ⟨he, _, _⟩ := hseg p.1 p.2 b0 b2
  rw [show info p.1 p.2 = ⟨.point P, .exact⟩ from hP] at he
  obtain ⟨x, y, hx, hy, x0, x1, y0, y1⟩ := C37_on_both feps _ _ he
  obtain ⟨x0, x1⟩ := exact_tol x0 x1
  obtain ⟨y0, y1⟩ := exact_tol y0 y1
  obtain ⟨t₁, u₁, v₁, a1, a2, a3, a4, a5⟩ := sampled_near m1 k1 j1 s1 w1 b0 x0 x1 parTol_pos.le q1
  obtain ⟨t₂, u₂, v₂, e1, e2, e3, e4, e5⟩ := sampled_near m1 k1 j1 s1 w1 b2 y0 y1 parTol_pos.le q1
  rw [← hx] at a5
  rw [← hy] at e5
  have l2 : p.1 + 1 + 1 < ts₁.length := by rw [s1.len]; omega
  have e6 := List.getElem?_eq_getElem l2
  have hle : ts₁[p.1 + 1 + 1] ≤ u₂ := by
    obtain ⟨l3, e7⟩ := List.getElem?_eq_some_iff.1 e1
    rw [← e7]
    rcases eq_or_lt_of_le b1 with q | q
    · exact le_of_eq (by congr 1)
    · exact List.pairwise_iff_getElem.1 s1.mono _ _ _ _ (by omega)
  refine ⟨t₁, t₂, p.1 + 1, v₁, _, a2, e6, a4.1, a3.2, hle.trans e3.1, e4.2, a5, e5, ?_⟩
  have := norm_sub_le_norm_sub_add_norm_sub (g₁ t₁) (WithLp.toLp 2 P) (g₁ t₂)
  rw [norm_sub_rev (g₁ t₁) (WithLp.toLp 2 P)] at this
  linarith

theorem rowAt_pts {data : List (Fin n → ℝ)} {i : Nat} (hi : i < data.length) : Model.rowAt data i = data[i] := by
  simp [Model.rowAt, hi]

/-- **C150 (almost).** Two different curves, not both with integer data, with points of two smooth curves; the almost method with its parameters `remove_extra` and `correct_overlap` off. Every
connecting segment starts within `M h² / 8` of the first smooth curve and ends within `M h² / 8` of the second, so that the smooth curves come closer than `dist_tol` plus these two. -/
theorem C150_almost (p : AlmostParams) (comps : Nat → (Nat → Nat → Bool) → List (List Nat)) (fresh : Nat) (int : Bool)
    (hf : (c1.int && c2.int) = false) (hr : p.removeExtra = false) (hco : p.correctOverlap = false)
    (m1 : 0 ≤ M₁) (k1 : DerivOn a₁ b₁ g₁ d₁) (j1 : LipOn a₁ b₁ M₁ d₁) (s1 : SampledPts g₁ a₁ b₁ ts₁ c1.data) (w1 : GapsLe h₁ ts₁)
    (m2 : 0 ≤ M₂) (k2 : DerivOn a₂ b₂ g₂ d₂) (j2 : LipOn a₂ b₂ M₂ d₂) (s2 : SampledPts g₂ a₂ b₂ ts₂ c2.data) (w2 : GapsLe h₂ ts₂) :
    ∃ xs, almostCall p comps fresh int (.curve c1) (.curve c2) = .ok (.list xs) ∧ ∀ x ∈ xs, ∃ σ, x.info = ⟨.segment σ, .almost⟩ ∧
      ∃ i j t₁ t₂ u₁ v₁ u₂ v₂, x.seg1 = c1.segment i ∧ x.seg2 = c2.segment j ∧ ts₁[i]? = some u₁ ∧ ts₁[i + 1]? = some v₁ ∧ t₁ ∈ Icc u₁ v₁ ∧
        ts₂[j]? = some u₂ ∧ ts₂[j + 1]? = some v₂ ∧ t₂ ∈ Icc u₂ v₂ ∧
        ‖(WithLp.toLp 2 σ.p1 : EuclideanSpace ℝ (Fin n)) - g₁ t₁‖ ≤ M₁ / 8 * h₁ ^ 2 ∧
        ‖(WithLp.toLp 2 σ.p2 : EuclideanSpace ℝ (Fin n)) - g₂ t₂‖ ≤ M₂ / 8 * h₂ ^ 2 ∧
        ‖g₁ t₁ - g₂ t₂‖ < p.distTol + M₁ / 8 * h₁ ^ 2 + M₂ / 8 * h₂ ^ 2 := by
  obtain ⟨idx, hcall, _, hmem, _⟩ := C43_pairs_partial p comps fresh int c1 c2 hf hr hco
  refine ⟨_, hcall, ?_⟩
  intro x hx
  obtain ⟨⟨i, j⟩, hp, rfl⟩ := List.mem_map.1 hx
  obtain ⟨b1, b2, _, hd⟩ := (hmem i j).1 hp
  obtain ⟨⟨x, x0, x1, hx⟩, ⟨y, y0, y1, hy⟩⟩ := C33_endpoints (c1.segment i).seg (c2.segment j).seg
  have r1 : (c1.segment i).seg = ⟨c1.data[i], c1.data[i + 1]⟩ := by
    simp only [GCurve.segment, rowAt_pts b1, rowAt_pts (show i < c1.data.length by omega)]
  have r2 : (c2.segment j).seg = ⟨c2.data[j], c2.data[j + 1]⟩ := by
    simp only [GCurve.segment, rowAt_pts b2, rowAt_pts (show j < c2.data.length by omega)]
  refine ⟨_, rfl, ?_⟩
  -- the chords need no bound as the tolerance is 0
  have near : ∀ {g d : ℝ → EuclideanSpace ℝ (Fin n)} {a b M h : ℝ} {ts : List ℝ} {data : List (Fin n → ℝ)}, 0 ≤ M → DerivOn a b g d → LipOn a b M d →
      SampledPts g a b ts data → GapsLe h ts → ∀ {i : Nat} (hi : i + 1 < data.length) {x : ℝ}, 0 ≤ x → x ≤ 1 →
      ∃ t u v, ts[i]? = some u ∧ ts[i + 1]? = some v ∧ t ∈ Icc u v ∧
        ‖(WithLp.toLp 2 (data[i] + x • (data[i + 1] - data[i])) : EuclideanSpace ℝ (Fin n)) - g t‖ ≤ M / 8 * h ^ 2 := by
    intro g d a b M h ts data m k l s w i hi x x0 x1
    obtain ⟨u, v, e0, e1, hu, hv, huv, p0, p1⟩ := sampled_step s hi
    have t0 : u ≤ u + (v - u) * x := by nlinarith
    have t1 : u + (v - u) * x ≤ v := by nlinarith
    have c := chord_near m k l (x := u + (v - u) * x) (s := x) hu hv x0 x1 (by ring) ⟨hu.1.trans t0, t1.trans hv.2⟩ huv (w i u v e0 e1)
    refine ⟨_, u, v, e0, e1, ⟨t0, t1⟩, ?_⟩
    rw [← p0, ← p1] at c
    exact c
  rw [r1] at hx
  rw [r2] at hy
  obtain ⟨t₁, u₁, v₁, f1, f2, f3, f5⟩ := near m1 k1 j1 s1 w1 b1 x0 x1
  obtain ⟨t₂, u₂, v₂, e1, e2, e3, e5⟩ := near m2 k2 j2 s2 w2 b2 y0 y1
  rw [← hx] at f5
  rw [← hy] at e5
  rw [← r1] at f5
  refine ⟨i, j, t₁, t₂, u₁, v₁, u₂, v₂, rfl, rfl, f1, f2, f3, e1, e2, e3, f5, by rw [← r2] at e5; exact e5, ?_⟩
  have hd' : ‖(WithLp.toLp 2 ((c1.segment i).seg.shortest (.seg (c2.segment j).seg)).p1 : EuclideanSpace ℝ (Fin n)) -
      WithLp.toLp 2 ((c1.segment i).seg.shortest (.seg (c2.segment j).seg)).p2‖ < p.distTol := by
    rw [← dist_eq_norm, ← edist_eq_dist]; exact hd
  have q1 := norm_sub_le_norm_sub_add_norm_sub (g₁ t₁) (WithLp.toLp 2 ((c1.segment i).seg.shortest (.seg (c2.segment j).seg)).p1) (g₂ t₂)
  have q2 := norm_sub_le_norm_sub_add_norm_sub (WithLp.toLp 2 ((c1.segment i).seg.shortest (.seg (c2.segment j).seg)).p1 : EuclideanSpace ℝ (Fin n))
    (WithLp.toLp 2 ((c1.segment i).seg.shortest (.seg (c2.segment j).seg)).p2) (g₂ t₂)
  rw [norm_sub_rev (g₁ t₁) (WithLp.toLp 2 ((c1.segment i).seg.shortest (.seg (c2.segment j).seg)).p1)] at q1
  rw [← r2] at e5
  linarith

/-- **C150 (almost, nothing missed).** Where the two smooth curves meet, or come within `δ` of each other, the almost method reports an intersection of the two segments of that place, if `dist_tol` exceeds `δ` plus
`M h² / 8` of both curves plus the error `distErr` of the distance of segments (C34). The second segment must not be a single point (`C34_singular_second`). -/
theorem C150_found (p : AlmostParams) (comps : Nat → (Nat → Nat → Bool) → List (List Nat)) (fresh : Nat) (int : Bool)
    (hf : (c1.int && c2.int) = false) (hr : p.removeExtra = false) (hco : p.correctOverlap = false)
    (m1 : 0 ≤ M₁) (k1 : DerivOn a₁ b₁ g₁ d₁) (j1 : LipOn a₁ b₁ M₁ d₁) (s1 : SampledPts g₁ a₁ b₁ ts₁ c1.data) (w1 : GapsLe h₁ ts₁)
    (m2 : 0 ≤ M₂) (k2 : DerivOn a₂ b₂ g₂ d₂) (j2 : LipOn a₂ b₂ M₂ d₂) (s2 : SampledPts g₂ a₂ b₂ ts₂ c2.data) (w2 : GapsLe h₂ ts₂)
    {i j : Nat} {u₁ v₁ u₂ v₂ t₁ t₂ δ : ℝ} (e1 : ts₁[i]? = some u₁) (e2 : ts₁[i + 1]? = some v₁) (e3 : ts₂[j]? = some u₂) (e4 : ts₂[j + 1]? = some v₂)
    (i1 : t₁ ∈ Icc u₁ v₁) (i2 : t₂ ∈ Icc u₂ v₂) (hu1 : u₁ < v₁) (hu2 : u₂ < v₂) (hδ : ‖g₁ t₁ - g₂ t₂‖ ≤ δ) (hij : c1.cid = c2.cid → i + 2 ≤ j) (hne : g₂ u₂ ≠ g₂ v₂)
    (htol : δ + M₁ / 8 * h₁ ^ 2 + M₂ / 8 * h₂ ^ 2 + distErr (WithLp.ofLp (g₁ v₁ - g₁ u₁)) (WithLp.ofLp (g₂ v₂ - g₂ u₂)) < p.distTol) :
    ∃ xs, almostCall p comps fresh int (.curve c1) (.curve c2) = .ok (.list xs) ∧ ∃ x ∈ xs, x.seg1 = c1.segment i ∧ x.seg2 = c2.segment j := by
  obtain ⟨idx, hcall, _, hmem, _⟩ := C43_pairs_partial p comps fresh int c1 c2 hf hr hco
  have b1 : i + 1 < c1.data.length := by rw [← s1.len]; exact (List.getElem?_eq_some_iff.1 e2).1
  have b2 : j + 1 < c2.data.length := by rw [← s2.len]; exact (List.getElem?_eq_some_iff.1 e4).1
  refine ⟨_, hcall, _, List.mem_map.2 ⟨(i, j), (hmem i j).2 ⟨b1, b2, hij, ?_⟩, rfl⟩, rfl, rfl⟩
  have r1 : (c1.segment i).seg = ⟨c1.data[i], c1.data[i + 1]⟩ := by
    simp only [GCurve.segment, rowAt_pts b1, rowAt_pts (show i < c1.data.length by omega)]
  have r2 : (c2.segment j).seg = ⟨c2.data[j], c2.data[j + 1]⟩ := by
    simp only [GCurve.segment, rowAt_pts b2, rowAt_pts (show j < c2.data.length by omega)]
  rw [r1, r2]
  obtain ⟨u, v, f1, f2, hu, hv, _, p1, p2⟩ := sampled_step s1 b1
  obtain rfl : u₁ = u := by simpa using e1.symm.trans f1
  obtain rfl : v₁ = v := by simpa using e2.symm.trans f2
  obtain ⟨u, v, f3, f4, hu', hv', _, p3, p4⟩ := sampled_step s2 b2
  obtain rfl : u₂ = u := by simpa using e3.symm.trans f3
  obtain rfl : v₂ = v := by simpa using e4.symm.trans f4
  have x0 : 0 ≤ (t₁ - u₁) / (v₁ - u₁) := div_nonneg (by linarith [i1.1]) (by linarith)
  have x1 : (t₁ - u₁) / (v₁ - u₁) ≤ 1 := by rw [div_le_one (by linarith)]; linarith [i1.2]
  have y0 : 0 ≤ (t₂ - u₂) / (v₂ - u₂) := div_nonneg (by linarith [i2.1]) (by linarith)
  have y1 : (t₂ - u₂) / (v₂ - u₂) ≤ 1 := by rw [div_le_one (by linarith)]; linarith [i2.2]
  have n1 : v₁ - u₁ ≠ 0 := by linarith
  have n2 : v₂ - u₂ ≠ 0 := by linarith
  have c1' := chord_near m1 k1 j1 (x := t₁) (s := (t₁ - u₁) / (v₁ - u₁)) hu hv x0 x1 (by field_simp) ⟨hu.1.trans i1.1, i1.2.trans hv.2⟩ hu1.le (w1 i _ _ e1 e2)
  have c2' := chord_near m2 k2 j2 (x := t₂) (s := (t₂ - u₂) / (v₂ - u₂)) hu' hv' y0 y1 (by field_simp) ⟨hu'.1.trans i2.1, i2.2.trans hv'.2⟩ hu2.le (w2 j _ _ e3 e4)
  have hb := C34_bound_partial ⟨c1.data[i], c1.data[i + 1]⟩ ⟨c2.data[j], c2.data[j + 1]⟩ (fun e => hne (by rw [← p3, ← p4]; exact congrArg _ e)) x0 x1 y0 y1
  have q1 : c1.data[i + 1] - c1.data[i] = WithLp.ofLp (g₁ v₁ - g₁ u₁) := by rw [← p1, ← p2]; rfl
  have q2 : c2.data[j + 1] - c2.data[j] = WithLp.ofLp (g₂ v₂ - g₂ u₂) := by rw [← p3, ← p4]; rfl
  simp only [q1, q2] at hb
  refine lt_of_le_of_lt hb (lt_of_le_of_lt (add_le_add_left ?_ _) htol)
  rw [edist_eq_dist, dist_eq_norm]
  have s1' : (WithLp.toLp 2 ((⟨c1.data[i], c1.data[i + 1]⟩ : Seg n ℝ).point ((t₁ - u₁) / (v₁ - u₁))) : EuclideanSpace ℝ (Fin n)) =
      g₁ u₁ + ((t₁ - u₁) / (v₁ - u₁)) • (g₁ v₁ - g₁ u₁) := by
    rw [← p1, ← p2]; ext k; simp [Seg.point, Seg.direction]; ring
  have s2' : (WithLp.toLp 2 ((⟨c2.data[j], c2.data[j + 1]⟩ : Seg n ℝ).point ((t₂ - u₂) / (v₂ - u₂))) : EuclideanSpace ℝ (Fin n)) =
      g₂ u₂ + ((t₂ - u₂) / (v₂ - u₂)) • (g₂ v₂ - g₂ u₂) := by
    rw [← p3, ← p4]; ext k; simp [Seg.point, Seg.direction]; ring
  rw [s1', s2']
  have z1 := norm_sub_le_norm_sub_add_norm_sub (g₁ u₁ + ((t₁ - u₁) / (v₁ - u₁)) • (g₁ v₁ - g₁ u₁)) (g₁ t₁) (g₂ u₂ + ((t₂ - u₂) / (v₂ - u₂)) • (g₂ v₂ - g₂ u₂))
  have z2 := norm_sub_le_norm_sub_add_norm_sub (g₁ t₁) (g₂ t₂) (g₂ u₂ + ((t₂ - u₂) / (v₂ - u₂)) • (g₂ v₂ - g₂ u₂))
  rw [norm_sub_rev (g₂ t₂) (g₂ u₂ + _)] at z2
  linarith

end

section
variable {f f' k k' : ℝ → ℝ} {a b Mf Mk L μ h0 h B : ℝ} {xs : List ℝ} {c1 c2 : GCurve 2 ℝ}

theorem deriv_in (h : DerivOn a b f f') {x : ℝ} (hx : x ∈ interior (Icc a b)) : HasDerivAt f (f' x) x :=
  (h x (interior_subset hx)).hasDerivAt (mem_interior_iff_mem_nhds.1 hx)

/-- A function whose derivative is at least `μ` grows at least at this rate. -/
theorem grow_ge (h : DerivOn a b f f') (hμ : ∀ x ∈ Icc a b, μ ≤ f' x) {x y : ℝ} (hx : x ∈ Icc a b) (hy : y ∈ Icc a b) (hxy : x ≤ y) :
    μ * (y - x) ≤ f y - f x :=
  (convex_Icc a b).mul_sub_le_image_sub_of_le_deriv (fun z hz => (h z hz).continuousWithinAt)
    (fun z hz => (deriv_in h hz).differentiableAt.differentiableWithinAt) (fun z hz => by
      rw [(deriv_in h hz).deriv]; exact hμ z (interior_subset hz)) x hx y hy hxy

theorem grow_le (h : DerivOn a b f f') (hL : ∀ x ∈ Icc a b, |f' x| ≤ L) {x y : ℝ} (hx : x ∈ Icc a b) (hy : y ∈ Icc a b) : |f y - f x| ≤ L * |y - x| := by
  have := (convex_Icc a b).norm_image_sub_le_of_norm_hasDerivWithin_le (f := f) (f' := f') (C := L) (fun z hz => h z hz) (fun z hz => hL z hz) hx hy
  simpa [Real.norm_eq_abs] using this

/-- Where a difference that grows at least at the rate `μ` is small, its zero is near. -/
theorem zero_near (h1 : DerivOn a b f f') (h2 : DerivOn a b k k') (hμ0 : 0 < μ) (hμ : ∀ x ∈ Icc a b, μ ≤ f' x - k' x) {x z e : ℝ} (hx : x ∈ Icc a b)
    (hz : z ∈ Icc a b) (hfz : f z = k z) (he : |f x - k x| ≤ e) : |x - z| ≤ e / μ := by
  have hd : DerivOn a b (fun x => f x - k x) (fun x => f' x - k' x) := fun x hx => (h1 x hx).sub (h2 x hx)
  rw [le_div_iff₀ hμ0]
  rcases le_total x z with q | q
  · have := grow_ge hd hμ hx hz q
    rw [abs_of_nonpos (by linarith)]
    have := (abs_le.1 he).1
    nlinarith
  · have := grow_ge hd hμ hz hx q
    rw [abs_of_nonneg (by linarith)]
    have := (abs_le.1 he).2
    nlinarith

theorem zero_exists (h1 : DerivOn a b f f') (h2 : DerivOn a b k k') {u v : ℝ} (hu : u ∈ Icc a b) (hv : v ∈ Icc a b) (huv : u ≤ v) (h0 : f u ≤ k u) (h3 : k v ≤ f v) :
    ∃ z ∈ Icc u v, f z = k z := by
  have hc : ContinuousOn (fun x => f x - k x) (Icc u v) := fun x hx => by
    have hx' : x ∈ Icc a b := ⟨hu.1.trans hx.1, hx.2.trans hv.2⟩
    exact ((h1 x hx').sub (h2 x hx')).continuousWithinAt.mono (Icc_subset_Icc hu.1 hv.2)
  have := intermediate_value_Icc huv hc
  obtain ⟨z, hz, e⟩ := this (show (0 : ℝ) ∈ Icc (f u - k u) (f v - k v) from ⟨by linarith, by linarith⟩)
  exact ⟨z, hz, by simpa [sub_eq_zero] using e⟩

/-- A sequence that starts at most 0 and ends at least 0 passes 0 somewhere. -/
theorem sign_step (D : ℝ → ℝ) : ∀ (xs : List ℝ) (u v w : ℝ), xs[0]? = some u → xs[1]? = some w → xs.getLast? = some v → D u ≤ 0 → 0 ≤ D v →
    ∃ (i : Nat) (p q : ℝ), xs[i]? = some p ∧ xs[i + 1]? = some q ∧ D p ≤ 0 ∧ 0 ≤ D q
  | [], u, _, _, h, _, _, _, _ => by simp at h
  | [x], _, _, _, _, h, _, _, _ => by simp at h
  | x :: y :: [], u, v, w, h0, h1, hl, hu, hv => by
    obtain rfl : x = u := by simpa using h0
    obtain rfl : y = v := by simpa using hl
    exact ⟨0, x, y, rfl, rfl, hu, hv⟩
  | x :: y :: z :: l, u, v, w, h0, h1, hl, hu, hv => by
    obtain rfl : x = u := by simpa using h0
    rcases le_total (D y) 0 with q | q
    · obtain ⟨i, p, q', e1, e2, e3, e4⟩ := sign_step D (y :: z :: l) y v z rfl rfl (by simpa using hl) q hv
      exact ⟨i + 1, p, q', by simpa using e1, by simpa using e2, e3, e4⟩
    · exact ⟨0, x, y, rfl, rfl, hu, q⟩

theorem gram_plane (dx p q : ℝ) : gram ![dx, p] ![dx, q] = dx ^ 2 * (q - p) ^ 2 := by
  simp [gram, Fin.sum_univ_two]; ring

theorem close_coord {p q : Fin 2 → ℝ} (i : Fin 2) {B : ℝ} (hq : |q i| ≤ B) (hgt : 1 / 10 ^ 8 + 1 / 10 ^ 5 * B < |p i - q i|) : ¬ CloseVec p q := by
  intro hc
  have := hc i
  have e : (1 : ℝ) / 100000000 + 1 / 100000 * |q i| ≤ 1 / 10 ^ 8 + 1 / 10 ^ 5 * B := by norm_num; linarith
  linarith

/-- Two segments over the same step whose order changes cross, and the exact method finds the crossing. -/
theorem step_cross (feps : ℝ) {p q y0 y1 z0 z1 μ h0 B : ℝ} (hB : |p| ≤ B ∧ |y0| ≤ B) (hB' : |q| ≤ B ∧ |y1| ≤ B) (hst : h0 ≤ q - p) (hh : 0 < h0) (hμ0 : 0 < μ)
    (hp : y0 - z0 ≤ 0) (hq : 0 ≤ y1 - z1) (grow : μ * (q - p) ≤ (y1 - z1) - (y0 - z0))
    (hg : 1 / 2 ^ 26 ≤ μ * h0 ^ 2) (hs0 : 1 / 10 ^ 8 + 1 / 10 ^ 5 * B < h0) (hs1 : 2 * (1 / 10 ^ 8 + 1 / 10 ^ 5 * B) < μ * h0) :
    ∃ s, 0 ≤ s ∧ s ≤ 1 ∧ z0 + s * (z1 - z0) = y0 + s * (y1 - y0) ∧ Meet ![p, y0] ![q, y1] ![p, z0] ![q, z1] ∧
      exactSegments feps ⟨![p, y0], ![q, y1]⟩ ⟨![p, z0], ![q, z1]⟩ = .ok ⟨.point ![p + s * (q - p), y0 + s * (y1 - y0)], .exact⟩ := by
  have hpq : 0 < q - p := by linarith
  have hD : 0 < (y1 - z1) - (y0 - z0) := lt_of_lt_of_le (mul_pos hμ0 hpq) grow
  obtain ⟨s, hs⟩ : ∃ s, s = -(y0 - z0) / ((y1 - z1) - (y0 - z0)) := ⟨_, rfl⟩
  have s0 : 0 ≤ s := by rw [hs]; exact div_nonneg (by linarith) hD.le
  have s1 : s ≤ 1 := by rw [hs, div_le_one hD]; linarith
  have hss : s * ((y1 - z1) - (y0 - z0)) = -(y0 - z0) := by rw [hs]; exact div_mul_cancel₀ _ hD.ne'
  have ee : z0 + s * (z1 - z0) = y0 + s * (y1 - y0) := by linarith
  have bt1 : Between ![p, y0] ![q, y1] ![p + s * (q - p), y0 + s * (y1 - y0)] := ⟨s, s0, s1, by ext j; fin_cases j <;> simp⟩
  have bt2 : Between ![p, z0] ![q, z1] ![p + s * (q - p), y0 + s * (y1 - y0)] := ⟨s, s0, s1, by rw [← ee]; ext j; fin_cases j <;> simp⟩
  have ab : |p - q| = q - p := by rw [abs_sub_comm]; exact abs_of_pos hpq
  refine ⟨s, s0, s1, ee, ⟨_, bt1, bt2⟩, C38_crossing_partial feps ⟨![p, y0], ![q, y1]⟩ ⟨![p, z0], ![q, z1]⟩ bt1 bt2 ?_ ?_ ?_ ?_ ?_⟩
  · have e : gram (![q, y1] - ![p, y0]) (![q, z1] - ![p, z0]) = (q - p) ^ 2 * ((y1 - z1) - (y0 - z0)) ^ 2 := by
      rw [show (![q, y1] - ![p, y0] : Fin 2 → ℝ) = ![q - p, y1 - y0] by ext j; fin_cases j <;> simp,
        show (![q, z1] - ![p, z0] : Fin 2 → ℝ) = ![q - p, z1 - z0] by ext j; fin_cases j <;> simp, gram_plane]; ring
    show _ ≤ gram (![q, y1] - ![p, y0]) (![q, z1] - ![p, z0])
    rw [e, ← mul_pow]
    have e2 : (1 : ℝ) / 2 ^ 26 ≤ (q - p) * ((y1 - z1) - (y0 - z0)) := by
      have a1 : h0 ^ 2 ≤ (q - p) ^ 2 := by gcongr
      have a2 := mul_le_mul_of_nonneg_left a1 hμ0.le
      have a3 := mul_le_mul_of_nonneg_left grow hpq.le
      linarith
    calc (1 : ℝ) / 2 ^ 52 = (1 / 2 ^ 26) ^ 2 := by norm_num
      _ ≤ _ := by gcongr
  · exact close_coord 0 (B := B) hB'.1 (by
      show _ < |p - q|
      rw [ab]; linarith)
  · exact close_coord 0 (B := B) hB'.1 (by
      show _ < |p - q|
      rw [ab]; linarith)
  · rintro ⟨q1, q2⟩
    have c1' : |z0 - y0| ≤ 1 / 100000000 + 1 / 100000 * |y0| := q1 1
    have c2' : |z1 - y1| ≤ 1 / 100000000 + 1 / 100000 * |y1| := q2 1
    have t1 := (abs_le.1 c1').2
    have t2 := (abs_le.1 c2').1
    have t3 : μ * h0 ≤ μ * (q - p) := by gcongr
    have t4 : (1 : ℝ) / 10 ^ 8 + 1 / 10 ^ 5 * B = 1 / 100000000 + 1 / 100000 * B := by norm_num
    rw [t4] at hs1
    linarith [hB.2, hB'.2]
  · rintro ⟨q1, -⟩
    exact close_coord 0 (B := B) (p := ![q, z1]) (q := ![p, y0]) hB.1 (by
      show _ < |q - p|
      rw [abs_of_pos hpq]; linarith) q1

/-- **C150 (graphs, found).** The graphs of two functions in the plane, sampled at the same places: `f` starts below `k` and ends above it, and `f - k` grows at least at the rate `μ > 0`. Then the exact method reports an
EXACT intersection; its abscissa differs from that of the crossing by at most `(Mf + Mk) h² / (8 μ)`, and its ordinate from that of the crossing by at most `L` times this plus `Mf h² / 8`. The conditions
on the sizes are those of C38: the steps are not too small for the tolerances of the method. -/
theorem C150_graphs (feps : ℝ) (fresh : Nat) (int : Bool) (hid : c1.cid ≠ c2.cid) (hc1 : c1.data = xs.map fun x => ![x, f x]) (hc2 : c2.data = xs.map fun x => ![x, k x])
    (m1 : 0 ≤ Mf) (m2 : 0 ≤ Mk) (d1 : DerivOn a b f f') (d2 : DerivOn a b k k') (l1 : LipOn a b Mf f') (l2 : LipOn a b Mk k') (hL : ∀ x ∈ Icc a b, |f' x| ≤ L)
    (hμ : ∀ x ∈ Icc a b, μ ≤ f' x - k' x) (hin : ∀ x ∈ xs, x ∈ Icc a b) (hst : StepsIn h0 h xs) {u v : ℝ} (hu : xs[0]? = some u) (hv : xs.getLast? = some v) (h2 : 2 ≤ xs.length)
    (hfu : f u ≤ k u) (hfv : k v ≤ f v) (hB : ∀ x ∈ xs, |x| ≤ B ∧ |f x| ≤ B) (hμ0 : 0 < μ)
    (hg : 1 / 2 ^ 26 ≤ μ * h0 ^ 2) (hs0 : 1 / 10 ^ 8 + 1 / 10 ^ 5 * B < h0) (hs1 : 2 * (1 / 10 ^ 8 + 1 / 10 ^ 5 * B) < μ * h0) :
    ∃ z ∈ Icc a b, f z = k z ∧ (∀ y ∈ Icc a b, f y = k y → y = z) ∧ ∃ l, exactCall feps fresh int (.curve c1) (.curve c2) = .ok (.list l) ∧ ∃ x ∈ l, ∃ P, x.info = ⟨.point P, .exact⟩ ∧
      |P 0 - z| ≤ (Mf + Mk) * h ^ 2 / (8 * μ) ∧ |P 1 - f z| ≤ L * ((Mf + Mk) * h ^ 2 / (8 * μ)) + Mf / 8 * h ^ 2 := by
  have hu' : u ∈ Icc a b := hin u (List.mem_of_getElem? hu)
  have hv' : v ∈ Icc a b := hin v (List.mem_of_getLast? hv)
  have hB0 : 0 ≤ B := (abs_nonneg _).trans (hB u (List.mem_of_getElem? hu)).1
  have hh0 : 0 < h0 := by
    have : (0 : ℝ) ≤ 1 / 10 ^ 8 + 1 / 10 ^ 5 * B := by positivity
    linarith
  obtain ⟨w, hw⟩ : ∃ w, xs[1]? = some w := ⟨_, List.getElem?_eq_getElem (by omega)⟩
  obtain ⟨i, p, q, ep, eq, hp, hq⟩ := sign_step (fun x => f x - k x) xs u v w hu hw hv (by linarith) (by linarith)
  have hp' := hin p (List.mem_of_getElem? ep)
  have hq' := hin q (List.mem_of_getElem? eq)
  obtain ⟨st0, st1⟩ := hst i p q ep eq
  have hpq : p < q := by linarith
  obtain ⟨z, hz, fz⟩ := zero_exists d1 d2 hp' hq' hpq.le (by linarith) (by linarith)
  have hz' : z ∈ Icc a b := ⟨hp'.1.trans hz.1, hz.2.trans hq'.2⟩
  have hd : DerivOn a b (fun x => f x - k x) (fun x => f' x - k' x) := fun x hx => (d1 x hx).sub (d2 x hx)
  refine ⟨z, hz', fz, fun y hy fy => ?_, ?_⟩
  · have := zero_near d1 d2 hμ0 hμ hy hz' fz (e := 0) (by rw [fy]; simp)
    rw [zero_div] at this
    linarith [abs_nonpos_iff.1 this]
  obtain ⟨idx, info, hcall, _, _, hseg, _⟩ := C41_row_major feps fresh int c1 c2 hid
  have il : i + 1 < xs.length := (List.getElem?_eq_some_iff.1 eq).1
  have b1 : i + 1 < c1.data.length := by rw [hc1, List.length_map]; exact il
  have b2 : i + 1 < c2.data.length := by rw [hc2, List.length_map]; exact il
  have p1 : c1.data[i] = ![p, f p] := by
    have : c1.data[i]? = some ![p, f p] := by rw [hc1, List.getElem?_map, ep]; rfl
    exact (List.getElem?_eq_some_iff.1 this).2
  have p2 : c1.data[i + 1] = ![q, f q] := by
    have : c1.data[i + 1]? = some ![q, f q] := by rw [hc1, List.getElem?_map, eq]; rfl
    exact (List.getElem?_eq_some_iff.1 this).2
  have p3 : c2.data[i] = ![p, k p] := by
    have : c2.data[i]? = some ![p, k p] := by rw [hc2, List.getElem?_map, ep]; rfl
    exact (List.getElem?_eq_some_iff.1 this).2
  have p4 : c2.data[i + 1] = ![q, k q] := by
    have : c2.data[i + 1]? = some ![q, k q] := by rw [hc2, List.getElem?_map, eq]; rfl
    exact (List.getElem?_eq_some_iff.1 this).2
  obtain ⟨_, _, he, _, hmem⟩ := hseg i i b1 b2
  rw [p1, p2, p3, p4] at he hmem
  have grow := grow_ge hd hμ hp' hq' hpq.le
  obtain ⟨s, s0, s1, ee, hmeet, res⟩ := step_cross feps (hB p (List.mem_of_getElem? ep)) (hB q (List.mem_of_getElem? eq)) st0 hh0 hμ0 hp hq grow hg hs0 hs1
  rw [res] at he
  have hinfo : info i i = ⟨.point ![p + s * (q - p), f p + s * (f q - f p)], .exact⟩ := by injection he with e; exact e.symm
  refine ⟨_, hcall, _, List.mem_map.2 ⟨(i, i), hmem hmeet (by rw [hinfo]; simp), rfl⟩, _, hinfo, ?_⟩
  have xi : p + s * (q - p) ∈ Icc a b := ⟨by nlinarith [hp'.1], by nlinarith [hq'.2]⟩
  have n1 := chord_near m1 d1 l1 (x := p + s * (q - p)) (s := s) hp' hq' s0 s1 (by ring) xi hpq.le st1
  have n2 := chord_near m2 d2 l2 (x := p + s * (q - p)) (s := s) hp' hq' s0 s1 (by ring) xi hpq.le st1
  rw [Real.norm_eq_abs, smul_eq_mul] at n1 n2
  rw [ee] at n2
  have e1 : |(p + s * (q - p)) - z| ≤ (Mf + Mk) * h ^ 2 / (8 * μ) := by
    have := zero_near d1 d2 hμ0 hμ xi hz' fz (e := Mf / 8 * h ^ 2 + Mk / 8 * h ^ 2) (by
      rw [abs_le] at n1 n2 ⊢
      constructor <;> linarith [n1.1, n1.2, n2.1, n2.2])
    rw [show (Mf + Mk) * h ^ 2 / (8 * μ) = (Mf / 8 * h ^ 2 + Mk / 8 * h ^ 2) / μ by field_simp]
    exact this
  refine ⟨by simpa using e1, ?_⟩
  have g1 := grow_le d1 hL hz' xi
  have L0 : 0 ≤ L := (abs_nonneg _).trans (hL z hz')
  have g2 : |f (p + s * (q - p)) - f z| ≤ L * ((Mf + Mk) * h ^ 2 / (8 * μ)) := g1.trans (mul_le_mul_of_nonneg_left e1 L0)
  have := abs_sub_le (f p + s * (f q - f p)) (f (p + s * (q - p))) (f z)
  simp only [Matrix.cons_val_one, Matrix.cons_val_zero]
  linarith

theorem graph_near (m1 : 0 ≤ Mf) (d1 : DerivOn a b f f') (l1 : LipOn a b Mf f') (hL : ∀ x ∈ Icc a b, |f' x| ≤ L) (hin : ∀ x ∈ xs, x ∈ Icc a b) (hst : StepsIn 0 h xs)
    {c : List (Fin 2 → ℝ)} (hc : c = xs.map fun x => ![x, f x]) {i : Nat} (hi : i + 1 < c.length) {x : ℝ} (x0 : -parTol ≤ x) (x1 : x ≤ 1 + parTol) {P : Fin 2 → ℝ}
    (hP : P = c[i] + x • (c[i + 1] - c[i])) : ∃ t ∈ Icc a b, |P 0 - t| ≤ parTol * h ∧ |P 1 - f t| ≤ Mf / 8 * h ^ 2 + parTol * (L * h) := by
  subst hc
  have l1' : i + 1 < xs.length := by simpa using hi
  obtain ⟨u, hu⟩ : ∃ u, u = xs[i] := ⟨_, rfl⟩
  obtain ⟨v, hv⟩ : ∃ v, v = xs[i + 1] := ⟨_, rfl⟩
  have hu' : u ∈ Icc a b := by rw [hu]; exact hin _ (List.getElem_mem _)
  have hv' : v ∈ Icc a b := by rw [hv]; exact hin _ (List.getElem_mem _)
  obtain ⟨st0, st1⟩ := hst i u v (by rw [hu]; exact List.getElem?_eq_getElem _) (by rw [hv]; exact List.getElem?_eq_getElem _)
  simp only [List.getElem_map, ← hu, ← hv] at hP
  obtain ⟨y, hy⟩ : ∃ y, y = max 0 (min 1 x) := ⟨_, rfl⟩
  have y0 : 0 ≤ y := by rw [hy]; exact le_max_left _ _
  have y1 : y ≤ 1 := by rw [hy]; exact max_le (by norm_num) (min_le_left _ _)
  have hδ := parTol_pos.le
  have hxy : |x - y| ≤ parTol := by
    rw [hy, abs_le]
    rcases le_total x 0 with h0 | h0
    · rw [min_eq_right (by linarith), max_eq_left h0]; constructor <;> linarith
    · rcases le_total x 1 with h1 | h1
      · rw [min_eq_right h1, max_eq_right h0]; constructor <;> linarith
      · rw [min_eq_left h1, max_eq_right (by norm_num)]; constructor <;> linarith
  have tt : u + (v - u) * y ∈ Icc a b := ⟨by nlinarith [hu'.1], by nlinarith [hv'.2]⟩
  have L0 : 0 ≤ L := (abs_nonneg _).trans (hL u hu')
  have n1 := chord_near m1 d1 l1 (x := u + (v - u) * y) (s := y) hu' hv' y0 y1 (by ring) tt (by linarith) st1
  rw [Real.norm_eq_abs, smul_eq_mul] at n1
  refine ⟨_, tt, ?_, ?_⟩
  · rw [hP, show (![u, f u] + x • (![v, f v] - ![u, f u]) : Fin 2 → ℝ) 0 - (u + (v - u) * y) = (x - y) * (v - u) by simp; ring, abs_mul, abs_of_nonneg st0]
    exact mul_le_mul hxy st1 st0 hδ
  · rw [hP, show (![u, f u] + x • (![v, f v] - ![u, f u]) : Fin 2 → ℝ) 1 - f (u + (v - u) * y) =
      (f u + y * (f v - f u) - f (u + (v - u) * y)) + (x - y) * (f v - f u) by simp; ring]
    refine (abs_add_le _ _).trans (add_le_add n1 ?_)
    rw [abs_mul]
    have := grow_le d1 hL hu' hv'
    rw [abs_of_nonneg st0] at this
    exact mul_le_mul hxy (this.trans (mul_le_mul_of_nonneg_left st1 L0)) (abs_nonneg _) hδ

/-- **C150 (graphs, nothing else).** In the same situation, without conditions on the sizes: the point of every EXACT intersection is near the one crossing of the graphs. -/
theorem C150_graphs_only (feps : ℝ) (fresh : Nat) (int : Bool) (hid : c1.cid ≠ c2.cid) (hc1 : c1.data = xs.map fun x => ![x, f x]) (hc2 : c2.data = xs.map fun x => ![x, k x])
    (m1 : 0 ≤ Mf) (m2 : 0 ≤ Mk) (d1 : DerivOn a b f f') (d2 : DerivOn a b k k') (l1 : LipOn a b Mf f') (l2 : LipOn a b Mk k') (hL : ∀ x ∈ Icc a b, |f' x| ≤ L ∧ |k' x| ≤ L)
    (hμ : ∀ x ∈ Icc a b, μ ≤ f' x - k' x) (hμ0 : 0 < μ) (hin : ∀ x ∈ xs, x ∈ Icc a b) (hst : StepsIn 0 h xs) {z : ℝ} (hz : z ∈ Icc a b) (fz : f z = k z) :
    ∃ l, exactCall feps fresh int (.curve c1) (.curve c2) = .ok (.list l) ∧ ∀ x ∈ l, ∀ P, x.info = ⟨.point P, .exact⟩ →
      |P 0 - z| ≤ ((Mf + Mk) / 8 * h ^ 2 + 4 * parTol * (L * h)) / μ + parTol * h := by
  obtain ⟨idx, info, hcall, _, _, hseg, hb⟩ := C41_row_major feps fresh int c1 c2 hid
  refine ⟨_, hcall, ?_⟩
  intro x hx P hP
  obtain ⟨p, hp, rfl⟩ := List.mem_map.1 hx
  obtain ⟨b1, b2⟩ := hb p hp
  obtain ⟨_, _, he, _, _⟩ := hseg p.1 p.2 b1 b2
  rw [show info p.1 p.2 = ⟨.point P, .exact⟩ from hP] at he
  obtain ⟨x, y, hx, hy, x0, x1, y0, y1⟩ := C37_on_both feps _ _ he
  obtain ⟨x0, x1⟩ := exact_tol x0 x1
  obtain ⟨y0, y1⟩ := exact_tol y0 y1
  obtain ⟨t, ht, t1, t2⟩ := graph_near m1 d1 l1 (fun x hx => (hL x hx).1) hin hst hc1 b1 x0 x1 hx
  obtain ⟨w, hw, w1, w2⟩ := graph_near m2 d2 l2 (fun x hx => (hL x hx).2) hin hst hc2 b2 y0 y1 hy
  have L0 : 0 ≤ L := (abs_nonneg _).trans (hL z hz).1
  have tw : |t - w| ≤ 2 * (parTol * h) := by
    have := abs_sub_le t (P 0) w
    rw [abs_sub_comm t (P 0)] at this
    linarith
  have g1 := grow_le d2 (fun x hx => (hL x hx).2) hw ht
  have g2 : |k t - k w| ≤ L * (2 * (parTol * h)) := g1.trans (mul_le_mul_of_nonneg_left tw L0)
  have := zero_near d1 d2 hμ0 hμ ht hz fz (e := (Mf + Mk) / 8 * h ^ 2 + 4 * parTol * (L * h)) (by
    rw [abs_le] at t2 w2 g2 ⊢
    constructor <;> linarith [t2.1, t2.2, w2.1, w2.2, g2.1, g2.2])
  have a3 := abs_sub_le (P 0) t z
  linarith

end

/-! Examples: arcs of the unit circle, and the parabola `x²` with the line `1/2`. -/

theorem sampled_map (g : ℝ → EuclideanSpace ℝ (Fin n)) {a b : ℝ} {ts : List ℝ} (hm : ts.Pairwise (· ≤ ·)) (hr : ∀ t ∈ ts, t ∈ Icc a b) :
    SampledPts g a b ts (ts.map fun t => WithLp.ofLp (g t)) where
  len := by simp
  mono := hm
  range := hr
  pts i t p h1 h2 := by
    rw [List.getElem?_map, h1] at h2
    obtain rfl : WithLp.ofLp (g t) = p := by simpa using h2
    rfl

theorem chords_lip {g : ℝ → EuclideanSpace ℝ (Fin n)} {a b V h : ℝ} {ts : List ℝ} (hV : LipOn a b V g) (h0 : 0 ≤ V) (hm : ts.Pairwise (· ≤ ·)) (hr : ∀ t ∈ ts, t ∈ Icc a b) (hh : GapsLe h ts) :
    ChordsLe (V * h) (ts.map fun t => WithLp.ofLp (g t)) := by
  intro i p q h1 h2
  rw [List.getElem?_map] at h1 h2
  obtain ⟨u, hu, rfl⟩ := Option.map_eq_some_iff.1 h1
  obtain ⟨v, hv, rfl⟩ := Option.map_eq_some_iff.1 h2
  have := hV u (hr u (List.mem_of_getElem? hu)) v (hr v (List.mem_of_getElem? hv))
  have e : u ≤ v := by
    obtain ⟨l1, rfl⟩ := List.getElem?_eq_some_iff.1 hu
    obtain ⟨l2, rfl⟩ := List.getElem?_eq_some_iff.1 hv
    exact List.pairwise_iff_getElem.1 hm _ _ _ _ (by omega)
  rw [abs_of_nonneg (by linarith)] at this
  exact this.trans (mul_le_mul_of_nonneg_left (hh i u v hu hv) h0)

/-- The unit circle at the parameters 0, 1/2, 1, as an intersection argument with identity `k`. -/
noncomputable def exArcG (k : Nat) : GCurve 2 ℝ := ⟨k, false, [0, 1 / 2, 1].map fun t => WithLp.ofLp (circ (ux 0) (uy 0) t)⟩

theorem exArcG_steps : ([0, 1 / 2, 1] : List ℝ).Pairwise (· ≤ ·) ∧ (∀ t ∈ ([0, 1 / 2, 1] : List ℝ), t ∈ Icc 0 1) ∧ GapsLe (1 / 2) ([0, 1 / 2, 1] : List ℝ) := by
  refine ⟨by simp; norm_num, by simp; norm_num, ?_⟩
  rintro (_ | _ | i) u v h1 h2
  · simp at h1 h2; subst h1 h2; norm_num
  · simp at h1 h2; subst h1 h2; norm_num
  · simp at h2

example : ∃ xs, exactCall (F_EPS : ℝ) 2 false (.curve (exArcG 0)) (.curve (exArcG 1)) = .ok (.list xs) := by
  obtain ⟨h1, h2, h3⟩ := exArcG_steps
  have hl := LipOn.of_deriv (circ_deriv 0 1 (uy 0) (-ux 0)) fun x _ => (circ_norm2 0 x).le
  have hv := LipOn.of_deriv (circ_deriv 0 1 (ux 0) (uy 0)) (M := 1) fun x _ => (circ_norm1 0 x).le
  obtain ⟨xs, h, _⟩ := C150_exact (c1 := exArcG 0) (c2 := exArcG 1) F_EPS 2 false (by decide) zero_le_one (circ_deriv 0 1 (ux 0) (uy 0)) hl (sampled_map _ h1 h2) h3
    (chords_lip hv zero_le_one h1 h2 h3) zero_le_one (circ_deriv 0 1 (ux 0) (uy 0)) hl (sampled_map _ h1 h2) h3 (chords_lip hv zero_le_one h1 h2 h3)
  exact ⟨xs, h⟩

example (comps : Nat → (Nat → Nat → Bool) → List (List Nat)) : ∃ d : ℝ, ∃ xs, almostCall ⟨d, false, 0, false, 0⟩ comps 2 false (.curve (exArcG 0)) (.curve (exArcG 1)) = .ok (.list xs) ∧
    ∃ x ∈ xs, x.seg1 = (exArcG 0).segment 0 ∧ x.seg2 = (exArcG 1).segment 0 := by
  obtain ⟨h1, h2, h3⟩ := exArcG_steps
  have hl := LipOn.of_deriv (circ_deriv 0 1 (uy 0) (-ux 0)) fun x _ => (circ_norm2 0 x).le
  have ne : circ (ux 0) (uy 0) 0 ≠ circ (ux 0) (uy 0) (1 / 2) := by
    intro e
    have := congrFun (congrArg WithLp.ofLp e) 1
    simp [circ, ux, uy] at this
    have hs := Real.sin_pos_of_pos_of_lt_pi (x := 2⁻¹) (by norm_num) (by linarith [Real.two_le_pi])
    linarith
  exact ⟨_, C150_found (c1 := exArcG 0) (c2 := exArcG 1) ⟨0 + 1 / 8 * (1 / 2) ^ 2 + 1 / 8 * (1 / 2) ^ 2 + distErr _ _ + 1, false, 0, false, 0⟩ comps 2 false rfl rfl rfl
    zero_le_one (circ_deriv 0 1 (ux 0) (uy 0)) hl (sampled_map _ h1 h2) h3 zero_le_one (circ_deriv 0 1 (ux 0) (uy 0)) hl (sampled_map _ h1 h2) h3 (i := 0) (j := 0)
    (t₁ := 0) (t₂ := 0) (δ := 0) rfl rfl rfl rfl (by norm_num) (by norm_num) (by norm_num) (by norm_num) (by simp) (fun e => absurd e (by decide)) ne (lt_add_one _)⟩

example : ∃ z, z ^ 2 = 1 / 2 ∧ ∃ l, exactCall (F_EPS : ℝ) 2 false (.curve ⟨0, false, [1 / 4, 5 / 8, 1].map fun x => ![x, x ^ 2]⟩) (.curve ⟨1, false, [1 / 4, 5 / 8, 1].map fun x => ![x, 1 / 2]⟩) = .ok (.list l) ∧
    ∃ x ∈ l, ∃ P, x.info = ⟨.point P, .exact⟩ ∧ |P 0 - z| ≤ 9 / 128 := by
  have d1 : DerivOn (1 / 4) 1 (fun x : ℝ => x ^ 2) (fun x => 2 * x) := fun x _ => ((hasDerivAt_pow 2 x).congr_deriv (by norm_num)).hasDerivWithinAt
  have d2 : DerivOn (1 / 4) 1 (fun _ : ℝ => (1 / 2 : ℝ)) (fun _ => 0) := fun x _ => (hasDerivAt_const x _).hasDerivWithinAt
  obtain ⟨z, _, hz, _, l, hl, x, hx, P, hP, h1, _⟩ := C150_graphs (f := fun x => x ^ 2) (k := fun _ => 1 / 2) (xs := [1 / 4, 5 / 8, 1]) (a := 1 / 4) (b := 1) (Mf := 2) (Mk := 0) (L := 2) (μ := 1 / 2)
    (h0 := 3 / 8) (h := 3 / 8) (B := 1) (c1 := ⟨0, false, [1 / 4, 5 / 8, 1].map fun x => ![x, x ^ 2]⟩) (c2 := ⟨1, false, [1 / 4, 5 / 8, 1].map fun x => ![x, 1 / 2]⟩) F_EPS 2 false (by decide) rfl rfl
    (by norm_num) (by norm_num) d1 d2 (fun x _ y _ => by rw [Real.norm_eq_abs, ← mul_sub, abs_mul]; norm_num) (fun x _ y _ => by simp)
    (fun x hx => by rw [abs_of_nonneg (by linarith [hx.1])]; linarith [hx.2]) (fun x hx => by linarith [hx.1]) (by simp; norm_num)
    (by
      rintro (_ | _ | i) u v h1 h2
      · simp at h1 h2; subst h1 h2; norm_num
      · simp at h1 h2; subst h1 h2; norm_num
      · simp at h2) (u := 1 / 4) (v := 1) rfl rfl (by simp) (by norm_num) (by norm_num) (by simp; norm_num) (by norm_num) (by norm_num) (by norm_num) (by norm_num)
  exact ⟨z, hz, l, hl, x, hx, P, hP, h1.trans (by norm_num)⟩

/-! ## Concrete cases -/

example : ∃ xs, exactCall (F_EPS : ℝ) 2 false (.curve (exArcG 0)) (.curve (exArcG 0)) = .ok (.list xs) := by
  obtain ⟨h1, h2, h3⟩ := exArcG_steps
  have hl := LipOn.of_deriv (circ_deriv 0 1 (uy 0) (-ux 0)) fun x _ => (circ_norm2 0 x).le
  have hv := LipOn.of_deriv (circ_deriv 0 1 (ux 0) (uy 0)) (M := 1) fun x _ => (circ_norm1 0 x).le
  obtain ⟨xs, h, _⟩ := C150_self (c1 := exArcG 0) F_EPS 2 false zero_le_one (circ_deriv 0 1 (ux 0) (uy 0)) hl (sampled_map _ h1 h2) h3 (chords_lip hv zero_le_one h1 h2 h3)
  exact ⟨xs, h⟩

example (comps : Nat → (Nat → Nat → Bool) → List (List Nat)) : ∃ xs, almostCall ⟨1 / 10, false, 0, false, 0⟩ comps 2 false (.curve (exArcG 0)) (.curve (exArcG 1)) = .ok (.list xs) := by
  obtain ⟨h1, h2, h3⟩ := exArcG_steps
  have hl := LipOn.of_deriv (circ_deriv 0 1 (uy 0) (-ux 0)) fun x _ => (circ_norm2 0 x).le
  obtain ⟨xs, h, _⟩ := C150_almost (c1 := exArcG 0) (c2 := exArcG 1) ⟨1 / 10, false, 0, false, 0⟩ comps 2 false rfl rfl rfl zero_le_one (circ_deriv 0 1 (ux 0) (uy 0)) hl (sampled_map _ h1 h2) h3
    zero_le_one (circ_deriv 0 1 (ux 0) (uy 0)) hl (sampled_map _ h1 h2) h3
  exact ⟨xs, h⟩

example {z : ℝ} (hz : z ∈ Icc (1 / 4 : ℝ) 1) (fz : z ^ 2 = 1 / 2) :=
  C150_graphs_only (f := fun x => x ^ 2) (k := fun _ => 1 / 2) (xs := [1 / 4, 5 / 8, 1]) (a := 1 / 4) (b := 1) (Mf := 2) (Mk := 0) (L := 2) (μ := 1 / 2) (h := 3 / 8)
    (f' := fun x => 2 * x) (k' := fun _ => 0) (c1 := ⟨0, false, [1 / 4, 5 / 8, 1].map fun x => ![x, x ^ 2]⟩) (c2 := ⟨1, false, [1 / 4, 5 / 8, 1].map fun x => ![x, 1 / 2]⟩) F_EPS 2 false (by decide) rfl rfl
    (by norm_num) (by norm_num) (fun x _ => ((hasDerivAt_pow 2 x).congr_deriv (by norm_num)).hasDerivWithinAt) (fun x _ => (hasDerivAt_const x _).hasDerivWithinAt)
    (fun x _ y _ => by rw [Real.norm_eq_abs, ← mul_sub, abs_mul]; norm_num) (fun x _ y _ => by simp)
    (fun x hx => by rw [abs_of_nonneg (by linarith [hx.1])]; norm_num; linarith [hx.2]) (fun x hx => by linarith [hx.1]) (by norm_num) (by simp; norm_num)
    (by
      rintro (_ | _ | i) u v h1 h2
      · simp at h1 h2; subst h1 h2; norm_num
      · simp at h1 h2; subst h1 h2; norm_num
      · simp at h2) hz fz

end Verif.Props
