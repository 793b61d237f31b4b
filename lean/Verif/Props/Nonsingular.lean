import Verif.Props.CurveSeg

/-!
C17: `nonsingular` on curves whose coordinates may be NaN or infinite.
-/
namespace Verif.Props

open Verif Verif.Np Verif.Model Verif.Spec

/-- All coordinates are finite numbers. -/
def FinRow (r : List (Val ℝ)) : Prop := ∀ x ∈ r, ∃ y, x = Val.fin y

/-- The number in a finite value (0 for NaN and the infinities, where it is not used). -/
noncomputable def num : Val ℝ → ℝ
  | .fin x => x
  | _ => 0

/-- Two finite points nearer than the tolerance 1e-8. -/
def Near (n : Nat) (a b : List (Val ℝ)) : Prop :=
  FinRow a ∧ FinRow b ∧ gap n (a.map num) (b.map num) ≤ 1 / 100000000

/-! ### Chord lengths of finite and non-finite rows -/

theorem finRow_map {r : List (Val ℝ)} (h : FinRow r) : r = (r.map num).map Val.fin := by
  rw [List.map_map]
  conv_lhs => rw [← List.map_id r]
  apply List.map_congr_left
  intro x hx
  obtain ⟨y, rfl⟩ := h x hx
  rfl

theorem foldl_fin (acc : ℝ) (xs : List ℝ) : (xs.map Val.fin).foldl Val.add (.fin acc) = .fin (acc + xs.sum) := by
  induction xs generalizing acc with
  | nil => simp
  | cons x xs ih =>
    simp only [List.map_cons, List.foldl_cons, List.sum_cons]
    rw [show Val.add (.fin acc) (.fin x) = .fin (acc + x) from rfl, ih]
    congr 1; ring

theorem chordV_fin (a b : List ℝ) : chordV (a.map Val.fin) (b.map Val.fin) = .fin (chord a b) := by
  unfold chordV chord
  have h : List.zipWith (fun x y => (Val.sub y x).sq) (a.map Val.fin) (b.map Val.fin) =
      (List.zipWith (fun x y => (y - x) ^ 2) a b).map Val.fin := by
    rw [List.zipWith_map, List.map_zipWith]
    rfl
  rw [h, foldl_fin, zero_add]
  have h0 : 0 ≤ (List.zipWith (fun x y : ℝ => (y - x) ^ 2) a b).sum := by
    apply List.sum_nonneg
    intro x hx
    rw [List.mem_iff_getElem] at hx
    obtain ⟨i, hi, rfl⟩ := hx
    rw [List.getElem_zipWith]
    exact sq_nonneg _
  simp [Val.sqrt, h0]

/-- what a sum of squares with a non-finite term looks like -/
def IsBad (v : Val ℝ) : Prop := v = .nan ∨ v = .pinf

theorem foldl_bad (xs : List (Val ℝ)) (hx : ∀ x ∈ xs, (∃ y, x = Val.fin y) ∨ IsBad x) (acc : Val ℝ)
    (h : IsBad acc ∨ ((∃ y, acc = .fin y) ∧ ∃ x ∈ xs, IsBad x)) : IsBad (xs.foldl Val.add acc) := by
  induction xs generalizing acc with
  | nil =>
    rcases h with h | ⟨_, x, hx, _⟩
    · exact h
    · simp at hx
  | cons x xs ih =>
    simp only [List.foldl_cons]
    apply ih (fun y hy => hx y (List.mem_cons_of_mem _ hy))
    have h1 := hx x (by simp)
    rcases h with h | ⟨⟨y, rfl⟩, z, hz, hb⟩
    · left
      rcases h with rfl | rfl <;> rcases h1 with ⟨y, rfl⟩ | rfl | rfl <;> simp [Val.add, IsBad]
    · rcases h1 with ⟨w, rfl⟩ | h1
      · right
        refine ⟨⟨y + w, rfl⟩, z, ?_, hb⟩
        rcases List.mem_cons.1 hz with rfl | hz
        · rcases hb with h | h <;> simp at h
        · exact hz
      · left
        rcases h1 with rfl | rfl <;> simp [Val.add, IsBad]

theorem chordV_bad {a b : List (Val ℝ)} (hl : a.length = b.length) (ha : ¬ FinRow a) (hb : FinRow b) :
    IsBad (chordV a b) := by
  have hsq : ∀ v : Val ℝ, (∃ y, v.sq = Val.fin y) ∨ IsBad v.sq := by
    intro v; cases v <;> simp [Val.sq, IsBad]
  have hs : IsBad ((List.zipWith (fun x y => (Val.sub y x).sq) a b).foldl Val.add (.fin 0)) := by
    apply foldl_bad
    · intro x hx
      rw [List.mem_iff_getElem] at hx
      obtain ⟨i, hi, rfl⟩ := hx
      rw [List.getElem_zipWith]
      exact hsq _
    · right
      refine ⟨⟨0, rfl⟩, ?_⟩
      unfold FinRow at ha
      push Not at ha
      obtain ⟨x, hx, hx'⟩ := ha
      rw [List.mem_iff_getElem] at hx
      obtain ⟨i, hi, rfl⟩ := hx
      have hib : i < b.length := by omega
      refine ⟨_, List.getElem_mem (l := List.zipWith (fun x y => (Val.sub y x).sq) a b) (n := i) (by simp; omega), ?_⟩
      rw [List.getElem_zipWith]
      obtain ⟨y, hy⟩ := hb b[i] (List.getElem_mem hib)
      rw [hy]
      cases hv : a[i] with
      | fin z => exact absurd hv (hx' z)
      | nan => simp [Val.sub, Val.neg, Val.add, Val.sq, IsBad]
      | pinf => simp [Val.sub, Val.neg, Val.add, Val.sq, IsBad]
      | ninf => simp [Val.sub, Val.neg, Val.add, Val.sq, IsBad]
  unfold chordV
  rcases hs with h | h <;> rw [h] <;> simp [Val.sqrt, IsBad]

theorem close_zero (x : ℝ) (hx : 0 ≤ x) : Val.isclose (.fin x) (.fin 0) = true ↔ x ≤ 1 / 100000000 := by
  simp only [Val.isclose, closeK]
  rw [decide_eq_true_iff, sub_zero, abs_zero, mul_zero, add_zero, abs_of_nonneg hx]
  rfl

theorem any_not_fin (r : List (Val ℝ)) : (r.any fun x => !x.isFin) = false ↔ FinRow r := by
  rw [List.any_eq_false]
  unfold FinRow
  constructor
  · intro h x hx
    have := h x hx
    cases x with
    | fin y => exact ⟨y, rfl⟩
    | nan => simp [Val.isFin] at this
    | pinf => simp [Val.isFin] at this
    | ninf => simp [Val.isFin] at this
  · intro h x hx
    obtain ⟨y, rfl⟩ := h x hx
    simp [Val.isFin]

theorem isSingular_length (rows : List (List (Val ℝ))) (hne : rows ≠ []) : (isSingular rows).length = rows.length := by
  have : rows.length ≠ 0 := by simpa using hne
  simp [isSingular]
  omega

/-- the flag of one row -/
theorem isSingular_get {rows : List (List (Val ℝ))} {n : Nat} (hr : ∀ r ∈ rows, r.length = n) {k : Nat} {r : List (Val ℝ)}
    (h : rows[k]? = some r) : (isSingular rows)[k]? = some false ↔
      FinRow r ∧ ∀ p, 0 < k → rows[k - 1]? = some p → ¬ Near n p r := by
  have hlt := (List.getElem?_eq_some_iff.1 h).1
  unfold isSingular
  rw [List.getElem?_zipWith, List.getElem?_map, h]
  cases k with
  | zero =>
    have h1 : Val.isclose (.fin (1 : ℝ)) (.fin 0) = false := by
      rw [Bool.eq_false_iff, ne_eq, close_zero 1 (by norm_num)]; norm_num
    simp only [Option.map_some, List.map_cons, List.getElem?_cons_zero, h1, Bool.or_false, Option.some.injEq]
    rw [any_not_fin]
    simp
  | succ k =>
    have hp := List.getElem?_eq_getElem (show k < rows.length by omega)
    simp only [Option.map_some, List.map_cons, List.getElem?_cons_succ, List.getElem?_map, List.getElem?_zipWith,
      List.getElem?_tail, h, hp, Nat.add_sub_cancel, Option.some.injEq, Bool.or_eq_false_iff, any_not_fin]
    have hlr : r.length = n := hr r (List.mem_of_getElem? h)
    have hlp : (rows[k]).length = n := hr _ (List.getElem_mem _)
    constructor
    · rintro ⟨h1, h2⟩
      refine ⟨h1, ?_⟩
      rintro p _ rfl ⟨hf, _, hg⟩
      rw [finRow_map hf, finRow_map h1, chordV_fin, Bool.eq_false_iff, ne_eq, close_zero _ (chord_nonneg _ _),
        chord_eq_gap (n := n) (by simp [hlp]) (by simp [hlr])] at h2
      exact h2 hg
    · rintro ⟨h1, h2⟩
      refine ⟨h1, ?_⟩
      by_cases hf : FinRow rows[k]
      · have h3 := h2 _ (by omega) rfl
        rw [Bool.eq_false_iff, ne_eq, finRow_map hf, finRow_map h1, chordV_fin, close_zero _ (chord_nonneg _ _),
          chord_eq_gap (n := n) (by simp [hlp]) (by simp [hlr])]
        intro hg
        exact h3 ⟨hf, h1, hg⟩
      · rcases chordV_bad (by rw [hlr, hlp]) hf h1 with h4 | h4 <;> rw [h4] <;> rfl

/-! ### C17 -/

/-- **C17 (what is kept, partial).** `nonsingular` of a curve with points never fails; the result is a
subsequence of the curve with its parameter values, all coordinates of which are finite; a point is kept
exactly if it is finite and not nearer than 1e-8 to a finite point immediately before it. Missing: the
result may have near-zero segments, see `C17_nan_fails` and `C17_drift_fails`; an empty curve is a
ValueError, `C17_empty_fails`. -/
theorem C17_kept_partial {c : Curve (Val ℝ)} (hc : WF c) (hne : c.rows ≠ []) :
    ∃ c' ks, c.nonsingular = .ok c' ∧ SubCurve c c' ks ∧ ks.Pairwise (· < ·) ∧ (∀ r ∈ c'.rows, FinRow r) ∧
      ∀ k, k ∈ ks ↔ ∃ r, c.rows[k]? = some r ∧ FinRow r ∧
        ∀ p, 0 < k → c.rows[k - 1]? = some p → ¬ Near c.ndim p r := by
  have hd := (C16_drop_bool hc (fun rows => .boolVec (isSingular rows)) _ rfl).1 (isSingular_length _ hne)
  obtain ⟨c', ks, h1, h2, h3, h4⟩ := hd
  have hiff : ∀ k, k ∈ ks ↔ ∃ r, c.rows[k]? = some r ∧ FinRow r ∧
        ∀ p, 0 < k → c.rows[k - 1]? = some p → ¬ Near c.ndim p r := by
    intro k
    rw [h4]
    constructor
    · intro h
      have hk := (List.getElem?_eq_some_iff.1 h).1
      rw [isSingular_length _ hne] at hk
      have hr := List.getElem?_eq_getElem hk
      exact ⟨_, hr, (isSingular_get hc.rect hr).1 h⟩
    · rintro ⟨r, hr, h⟩
      exact (isSingular_get hc.rect hr).2 h
  refine ⟨c', ks, ?_, h2, h3, ?_, hiff⟩
  · unfold Curve.nonsingular
    rw [if_neg hne]
    exact h1
  · intro r hr
    have hm : some r ∈ ks.map fun k => c.rows[k]? := by
      rw [← h2.points]; exact List.mem_map_of_mem hr
    rw [List.mem_map] at hm
    obtain ⟨k, hk, he⟩ := hm
    obtain ⟨r', h5, h6, _⟩ := (hiff k).1 hk
    rw [he] at h5
    cases h5
    exact h6

/-- **C17 (nothing to do).** A curve of finite points no two neighbours of which are near is returned
unchanged, with its parameter values. -/
theorem C17_unchanged {c : Curve (Val ℝ)} (hc : WF c) (hne : c.rows ≠ []) (hf : ∀ r ∈ c.rows, FinRow r)
    (hn : ∀ k a b, c.rows[k]? = some a → c.rows[k + 1]? = some b → ¬ Near c.ndim a b) : c.nonsingular = .ok c := by
  obtain ⟨c', ks, h1, h2, h3, -, h5⟩ := C17_kept_partial hc hne
  have hall : ∀ k, k ∈ ks ↔ k < c.rows.length := by
    intro k
    rw [h5]
    constructor
    · rintro ⟨r, hr, _⟩; exact (List.getElem?_eq_some_iff.1 hr).1
    · intro hk
      refine ⟨_, List.getElem?_eq_getElem hk, hf _ (List.getElem_mem hk), ?_⟩
      intro p hk0 hp
      obtain ⟨m, rfl⟩ : ∃ m, k = m + 1 := ⟨k - 1, by omega⟩
      exact hn m _ _ (by simpa using hp) (List.getElem?_eq_getElem hk)
  have hks : ks = List.range c.rows.length := by
    apply List.Perm.eq_of_pairwise (le := (· < ·)) _ h3 List.pairwise_lt_range
    · rw [List.perm_ext_iff_of_nodup (h3.imp (fun h => by omega)) List.nodup_range]
      intro k; rw [hall, List.mem_range]
    · intro a b _ _ h h'; omega
  have hrange : ∀ {β : Type} (xs : List β), gather xs (List.range xs.length) = xs := by
    intro β xs
    unfold gather
    apply List.ext_getElem?
    intro i
    have : (List.range xs.length).filterMap (xs[·]?) = ((List.range xs.length).map (xs[·]?)).filterMap id := by
      rw [List.filterMap_map]; rfl
    rw [this]
    have h2 : (List.range xs.length).map (xs[·]?) = xs.map some := by
      apply List.ext_getElem?
      intro j
      rw [List.getElem?_map, List.getElem?_map]
      by_cases hj : j < xs.length
      · simp [hj]
      · simp [hj]
    rw [h2, List.filterMap_map]
    simp
  have hrows : c'.rows = c.rows := by
    rw [gather_of_picks h2.points, hks, hrange]
  have hncols : c'.ncols = c.ncols := by
    apply h2.ndim
    rw [hks]
    intro h
    have := congrArg List.length h
    rw [List.length_range] at this
    exact hne (List.length_eq_zero_iff.1 this)
  have ht : c'.tdata = c.tdata := by
    have hp := h2.param
    cases h6 : c.tdata with
    | none =>
      cases h7 : c'.tdata with
      | none => rfl
      | some t' => simp [Curve.isparametric, h6, h7] at hp
    | some t =>
      cases h7 : c'.tdata with
      | none => simp [Curve.isparametric, h6, h7] at hp
      | some t' =>
        have := gather_of_picks (h2.tvals t t' h6 h7)
        rw [this, hks, ← hc.tlen t h6, hrange]
  rw [h1]
  congr 1
  cases c; cases c'
  simp only at *
  subst hrows hncols ht
  have := h2.dtype
  simp only at this
  rw [this]

/-- **C17 (no near-zero segments, partial).** If all points are finite and every two neighbours either
coincide or are farther apart than 1e-8, then neighbours in the result are farther apart than 1e-8. Missing:
NaN points between close points and neighbours at small non-zero distances (both fail, see
`C17_nan_fails`, `C17_drift_fails`). -/
theorem C17_separated_partial {c : Curve (Val ℝ)} (hc : WF c) (hne : c.rows ≠ []) (hf : ∀ r ∈ c.rows, FinRow r)
    (hn : ∀ k a b, c.rows[k]? = some a → c.rows[k + 1]? = some b → Near c.ndim a b → a = b) :
    ∃ c', c.nonsingular = .ok c' ∧
      ∀ k a b, c'.rows[k]? = some a → c'.rows[k + 1]? = some b → ¬ Near c.ndim a b := by
  obtain ⟨c', ks, h1, h2, h3, -, h5⟩ := C17_kept_partial hc hne
  refine ⟨c', h1, ?_⟩
  intro i a b ha hb
  have hpk : ∀ i : Nat, (c'.rows[i]?).map some = (ks[i]?).map fun k => c.rows[k]? := by
    intro i
    rw [← List.getElem?_map, ← List.getElem?_map, h2.points]
  have hka : ∃ ka, ks[i]? = some ka ∧ c.rows[ka]? = some a := by
    have := hpk i
    rw [ha] at this
    cases hk : ks[i]? with
    | none => rw [hk] at this; simp at this
    | some ka => rw [hk] at this; simp at this; exact ⟨ka, rfl, this.symm⟩
  have hkb : ∃ kb, ks[i + 1]? = some kb ∧ c.rows[kb]? = some b := by
    have := hpk (i + 1)
    rw [hb] at this
    cases hk : ks[i + 1]? with
    | none => rw [hk] at this; simp at this
    | some ka => rw [hk] at this; simp at this; exact ⟨ka, rfl, this.symm⟩
  obtain ⟨ka, ka1, ka2⟩ := hka
  obtain ⟨kb, kb1, kb2⟩ := hkb
  obtain ⟨hi1, ka1'⟩ := List.getElem?_eq_some_iff.1 ka1
  obtain ⟨hi2, kb1'⟩ := List.getElem?_eq_some_iff.1 kb1
  have hlt : ka < kb := by
    rw [← ka1', ← kb1']
    exact List.pairwise_iff_getElem.1 h3 i (i + 1) hi1 hi2 (by omega)
  -- nothing is kept strictly between
  have hbetween : ∀ m, ka < m → m < kb → m ∉ ks := by
    intro m h6 h7 hm
    obtain ⟨j, hj, rfl⟩ := List.getElem_of_mem hm
    have hmono := List.pairwise_iff_getElem.1 h3
    rcases lt_trichotomy j i with h | h | h
    · have := hmono j i hj hi1 h; omega
    · subst h; omega
    · rcases Nat.lt_or_ge (i + 1) j with h8 | h8
      · have := hmono (i + 1) j hi2 hj h8; omega
      · have : j = i + 1 := by omega
        subst this; omega
  -- so all rows from `ka` to `kb - 1` coincide
  have hsame : ∀ d, ka + d < kb → c.rows[ka + d]? = some a := by
    intro d
    induction d with
    | zero => intro _; exact ka2
    | succ d ih =>
      intro hd
      have hprev := ih (by omega)
      have hlen : kb < c.rows.length := (List.getElem?_eq_some_iff.1 kb2).1
      have hcur := List.getElem?_eq_getElem (show ka + (d + 1) < c.rows.length by omega)
      have hnot := hbetween (ka + (d + 1)) (by omega) hd
      rw [h5] at hnot
      push Not at hnot
      obtain ⟨p, hp0, hp1, hp2⟩ := hnot _ hcur (hf _ (List.getElem_mem _))
      have hp3 : p = a := by
        have : ka + (d + 1) - 1 = ka + d := by omega
        rw [this, hprev] at hp1
        exact (Option.some.inj hp1).symm
      subst hp3
      have := hn (ka + d) _ _ hprev hcur hp2
      rw [hcur, ← this]
  have hp := hsame (kb - 1 - ka) (by omega)
  rw [show ka + (kb - 1 - ka) = kb - 1 by omega] at hp
  have hkb : kb ∈ ks := by rw [← kb1']; exact List.getElem_mem _
  obtain ⟨r, hr, _, hr2⟩ := (h5 kb).1 hkb
  rw [kb2] at hr
  cases hr
  exact hr2 a (by omega) hp

/-- **C17 fails for empty curves**: ValueError. -/
theorem C17_empty_fails {c : Curve (Val ℝ)} (h : c.rows = []) : c.nonsingular = .error .valueError := if_pos h

theorem finRow2 (x y : ℝ) : FinRow [Val.fin x, Val.fin y] := by
  intro z hz
  simp only [List.mem_cons, List.not_mem_nil, or_false] at hz
  rcases hz with rfl | rfl
  · exact ⟨x, rfl⟩
  · exact ⟨y, rfl⟩

theorem wf2 {rows : List (List (Val ℝ))} (h : ∀ r ∈ rows, r.length = 2) : WF (⟨rows, 2, none, .float⟩ : Curve (Val ℝ)) where
  two_le := le_rfl
  rect := h
  tlen := by simp
  repr := by intro r _ x _; rfl

theorem nonsingular_ends {a m b : List (Val ℝ)} (hl : ∀ r ∈ [a, m, b], r.length = 2) (ha : FinRow a) (hb : FinRow b)
    (hm : ¬ FinRow m ∨ Near 2 a m) (hmb : ¬ Near 2 m b) :
    ∃ c', (⟨[a, m, b], 2, none, .float⟩ : Curve (Val ℝ)).nonsingular = .ok c' ∧ c'.rows = [a, b] := by
  obtain ⟨c', ks, h1, h2, h3, -, h5⟩ := C17_kept_partial (wf2 hl) (by simp)
  refine ⟨c', h1, ?_⟩
  have hks : ks = [0, 2] := by
    apply List.Perm.eq_of_pairwise (le := (· < ·)) _ h3 (by simp)
    · rw [List.perm_ext_iff_of_nodup (h3.imp (fun h => by omega)) (by simp)]
      intro k
      rw [h5]
      match k with
      | 0 => simp [ha]
      | 1 =>
        simp only [List.getElem?_cons_succ, List.getElem?_cons_zero, Option.some.injEq, exists_eq_left']
        constructor
        · rintro ⟨h6, h7⟩
          rcases hm with hm | hm
          · exact absurd h6 hm
          · exact absurd hm (h7 a (by omega) rfl)
        · intro h; simp at h
      | 2 =>
        simp only [List.getElem?_cons_succ, List.getElem?_cons_zero, Option.some.injEq, exists_eq_left']
        constructor
        · intro _; simp
        · intro _
          refine ⟨hb, ?_⟩
          rintro p _ hp
          have : p = m := by simpa using hp.symm
          rw [this]; exact hmb
      | k + 3 => simp
    · intro a b _ _ h h'; omega
  have := gather_of_picks h2.points
  rw [this, hks]
  rfl

/-- **C17 fails with NaN**: the points (0,0), (NaN,0), (0,0) become (0,0), (0,0), a segment of length 0. -/
theorem C17_nan_fails : ∃ c', (⟨[[.fin 0, .fin 0], [.nan, .fin 0], [.fin 0, .fin 0]], 2, none, .float⟩ :
      Curve (Val ℝ)).nonsingular = .ok c' ∧ c'.rows = [[.fin 0, .fin 0], [.fin 0, .fin 0]] ∧
      Near 2 [Val.fin 0, Val.fin 0] [Val.fin 0, Val.fin 0] := by
  have hn : ¬ FinRow [Val.nan, Val.fin (0 : ℝ)] := by
    intro h
    obtain ⟨y, hy⟩ := h .nan (by simp)
    simp at hy
  obtain ⟨c', h1, h2⟩ := nonsingular_ends (a := [.fin 0, .fin 0]) (m := [.nan, .fin 0]) (b := [.fin 0, .fin 0])
    (by simp) (finRow2 0 0) (finRow2 0 0) (.inl hn) (fun h => hn h.1)
  refine ⟨c', h1, h2, finRow2 0 0, finRow2 0 0, ?_⟩
  have : gap 2 ([Val.fin 0, Val.fin 0].map num) ([Val.fin 0, Val.fin 0].map num) = 0 := dist_self _
  rw [this]; norm_num

theorem gap_axis (x y : ℝ) : gap 2 ([Val.fin x, Val.fin 0].map num) ([Val.fin y, Val.fin 0].map num) = |y - x| := by
  rw [gap_eq_sqrt]
  simp [Fin.sum_univ_two, num, Real.sqrt_sq_eq_abs]

/-- **C17 fails for finite points too**: on the x-axis 0, 9e-9, -15e-10. The second point is dropped (too
near to the first), the third kept (more than 1e-8 from the second), and the remaining two points are
nearer than 1e-8. -/
theorem C17_drift_fails : ∃ c', (⟨[[.fin 0, .fin 0], [.fin (9 / 1000000000), .fin 0],
      [.fin (-15 / 10000000000), .fin 0]], 2, none, .float⟩ : Curve (Val ℝ)).nonsingular = .ok c' ∧
      c'.rows = [[.fin 0, .fin 0], [.fin (-15 / 10000000000), .fin 0]] ∧
      Near 2 [Val.fin 0, Val.fin 0] [Val.fin (-15 / 10000000000), Val.fin 0] := by
  obtain ⟨c', h1, h2⟩ := nonsingular_ends (a := [.fin 0, .fin 0]) (m := [.fin (9 / 1000000000), .fin 0])
    (b := [.fin (-15 / 10000000000), .fin 0]) (by simp) (finRow2 _ _) (finRow2 _ _)
    (.inr ⟨finRow2 _ _, finRow2 _ _, by rw [gap_axis, sub_zero, abs_of_nonneg] <;> norm_num⟩)
    (by
      rintro ⟨_, _, h⟩
      rw [gap_axis, abs_of_nonpos (by norm_num)] at h
      norm_num at h)
  refine ⟨c', h1, h2, finRow2 _ _, finRow2 _ _, ?_⟩
  rw [gap_axis, abs_of_nonpos (by norm_num)]
  norm_num

/-- A repeated point and a NaN: an example for `C17_kept_partial`. -/
example : WF (⟨[[.fin 0, .fin 0], [.fin 0, .fin 0], [.nan, .fin 1], [.fin 2, .fin 0]], 2, none, .float⟩ :
    Curve (Val ℝ)) := wf2 (by simp)

/-- A repeated point: the hypotheses of `C17_separated_partial`. -/
example : ∀ k a b, ([[.fin 0, .fin 0], [.fin 0, .fin 0], [.fin 2, .fin 0]] : List (List (Val ℝ)))[k]? = some a →
    ([[.fin 0, .fin 0], [.fin 0, .fin 0], [.fin 2, .fin 0]] : List (List (Val ℝ)))[k + 1]? = some b →
    Near 2 a b → a = b := by
  intro k a b ha hb h
  match k with
  | 0 => simp at ha hb; rw [← ha, ← hb]
  | 1 =>
    simp at ha hb
    rw [← ha, ← hb] at h
    obtain ⟨_, _, h⟩ := h
    rw [gap_axis] at h
    norm_num at h
  | 2 => simp at hb
  | k + 3 => simp at ha

/-! ## Concrete cases -/

/-- A repeated point and a NaN. -/
def exNanDup : Curve (Val ℝ) := ⟨[[.fin 0, .fin 0], [.fin 0, .fin 0], [.nan, .fin 1], [.fin 2, .fin 0]], 2, none, .float⟩

example := C17_kept_partial (c := exNanDup) ⟨by simp [exNanDup], by simp [exNanDup], by simp [exNanDup], by intros; rfl⟩ (by simp [exNanDup])

/-- Two points at the distance 2. -/
def exTwoApart : Curve (Val ℝ) := ⟨[[.fin 0, .fin 0], [.fin 2, .fin 0]], 2, none, .float⟩

theorem exTwoApart_near (k : Nat) (a b : List (Val ℝ)) (ha : exTwoApart.rows[k]? = some a) (hb : exTwoApart.rows[k + 1]? = some b) : ¬ Near exTwoApart.ndim a b := by
  match k with
  | 0 =>
    simp [exTwoApart] at ha hb
    subst ha hb
    rintro ⟨-, -, h⟩
    have e := gap_axis 0 2
    simp only [exTwoApart, Curve.ndim] at h
    rw [e] at h
    norm_num [F_EPS] at h
  | (k + 1) => simp [exTwoApart] at hb

example := C17_unchanged (c := exTwoApart) ⟨by simp [exTwoApart], by simp [exTwoApart], by simp [exTwoApart], by intros; rfl⟩ (by simp [exTwoApart])
  (by intro r hr x hx
      simp [exTwoApart] at hr
      rcases hr with rfl | rfl <;> simp at hx <;> first | exact ⟨_, hx⟩ | (rcases hx with rfl | rfl <;> exact ⟨_, rfl⟩)) exTwoApart_near
example := C17_separated_partial (c := exTwoApart) ⟨by simp [exTwoApart], by simp [exTwoApart], by simp [exTwoApart], by intros; rfl⟩ (by simp [exTwoApart])
  (by intro r hr x hx
      simp [exTwoApart] at hr
      rcases hr with rfl | rfl <;> simp at hx <;> first | exact ⟨_, hx⟩ | (rcases hx with rfl | rfl <;> exact ⟨_, rfl⟩)) (fun k a b ha hb h => absurd h (exTwoApart_near k a b ha hb))

end Verif.Props
