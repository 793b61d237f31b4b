import Verif.Props.Boundary
import Verif.Props.Rounded

/-!
C122: smoothing does not lengthen curves.
-/
namespace Verif.Props

open Verif Verif.Np Verif.Model Verif.Spec

/-- The window reads the same in both directions. -/
def SymWin (ws : List ℝ) : Prop := ws.reverse = ws

/-- The combinations of mode and window for which smoothing does not lengthen. -/
def KeepsShort (mode : String) (ws : List ℝ) (rows : List (List ℝ)) : Prop :=
  mode = "nearest" ∨ (mode = "reflect" ∧ SymWin ws) ∨ (mode = "mirror" ∧ SymWin ws) ∨
    (mode = "wrap" ∧ rows.head? = rows.getLast?)

theorem sum_period {D : ℤ → ℝ} {p : ℕ} (hD : ∀ i, D (i + p) = D i) (a b : ℤ) :
    ∑ i ∈ Finset.Ico a (a + p), D i = ∑ i ∈ Finset.Ico b (b + p), D i := by
  have step : ∀ a : ℤ, ∑ i ∈ Finset.Ico a (a + p), D i = ∑ i ∈ Finset.Ico (a + 1) (a + 1 + p), D i := by
    intro a
    rcases Nat.eq_zero_or_pos p with rfl | hp
    · simp
    · have e1 : Finset.Ico a (a + p) = insert a (Finset.Ico (a + 1) (a + p)) := by
        ext x; simp only [Finset.mem_insert, Finset.mem_Ico]; omega
      have e2 : Finset.Ico (a + 1) (a + 1 + p) = insert (a + p) (Finset.Ico (a + 1) (a + p)) := by
        ext x; simp only [Finset.mem_insert, Finset.mem_Ico]; omega
      rw [e1, e2, Finset.sum_insert (by simp), Finset.sum_insert (by simp), hD]
  have all : ∀ k : ℤ, ∑ i ∈ Finset.Ico k (k + p), D i = ∑ i ∈ Finset.Ico (0 : ℤ) (0 + p), D i := by
    intro k
    induction k using Int.induction_on with
    | zero => rfl
    | succ i ih => rw [← ih]; exact (step _).symm
    | pred i ih =>
      rw [← ih]
      have := step (-(i : ℤ) - 1)
      rwa [show -(i : ℤ) - 1 + 1 = -i by ring] at this
  rw [all a, all b]

/-- The sum of `n - 1` consecutive steps from `s` on. -/
noncomputable def stepsFrom (D : ℤ → ℝ) (n : Nat) (s : ℤ) : ℝ := ∑ j ∈ Finset.Ico s (s + (n - 1 : ℕ)), D j

theorem stepsFrom_range (D : ℤ → ℝ) (n : Nat) (s : ℤ) : stepsFrom D n s = ∑ i ∈ Finset.range (n - 1), D (i + s) := by
  unfold stepsFrom
  symm
  refine Finset.sum_nbij (fun i : ℕ => (i : ℤ) + s) ?_ ?_ ?_ ?_
  · intro i hi; have := Finset.mem_range.1 hi; simp only [Finset.mem_Ico]; omega
  · intro i _ j _ h; simp only at h; omega
  · intro j hj
    have := Finset.mem_Ico.1 hj
    exact ⟨(j - s).toNat, Finset.mem_coe.2 (Finset.mem_range.2 (by omega)), by simp only; omega⟩
  · intro i _; rfl

/-- Steps read backwards. -/
theorem stepsFrom_flip {D : ℤ → ℝ} {n : Nat} {a : ℤ} (h : ∀ i, D (a - i) = D i) (s : ℤ) :
    stepsFrom D n s = ∑ j ∈ Finset.Ico (a - s - (n - 1 : ℕ) + 1) (a - s + 1), D j := by
  unfold stepsFrom
  refine Finset.sum_nbij (fun i => a - i) ?_ ?_ ?_ ?_
  · intro i hi; have := Finset.mem_Ico.1 hi; simp only [Finset.mem_Ico]; omega
  · intro i _ j _ h; simp only at h; omega
  · intro j hj
    have := Finset.mem_Ico.1 hj
    exact ⟨a - j, Finset.mem_coe.2 (Finset.mem_Ico.2 (by omega)), by simp only; omega⟩
  · intro i _; rw [h]

section
variable {n : Nat} {mode : String} {ws : List ℝ} {D : ℤ → ℝ}

/-- What the mode makes of the steps `D`. -/
structure StepsOf (mode : String) (n : Nat) (D : ℤ → ℝ) : Prop where
  nonneg : ∀ i, 0 ≤ D i
  reflect : mode = "reflect" → (∀ i, D (-2 - i) = D i) ∧ (∀ i, D (i + (2 * n : ℕ)) = D i) ∧ D (-1) = 0 ∧ D (n - 1) = 0
  mirror : mode = "mirror" → (∀ i, D (-1 - i) = D i) ∧ (1 ≤ n → ∀ i, D (i + (2 * n - 2 : ℕ)) = D i)
  nearest : mode = "nearest" → ∀ i, i < 0 ∨ (n : ℤ) - 1 ≤ i → D i = 0
  wrap : mode = "wrap" → ∀ i, D (i + n) = D i

theorem steps_nearest (hD : StepsOf "nearest" n D) (s : ℤ) : stepsFrom D n s ≤ stepsFrom D n 0 := by
  unfold stepsFrom
  rw [← Finset.sum_filter_ne_zero (s := Finset.Ico s _)]
  refine Finset.sum_le_sum_of_subset_of_nonneg ?_ (fun i _ _ => hD.nonneg i)
  intro x hx
  by_contra hx'
  apply (Finset.mem_filter.1 hx).2
  apply hD.nearest rfl
  simp only [Finset.mem_Ico] at hx'
  omega

theorem steps_wrap (hn : 0 < n) (hD : StepsOf "wrap" n D) (h0 : D (n - 1) = 0) (s : ℤ) : stepsFrom D n s ≤ stepsFrom D n 0 := by
  have e : stepsFrom D n 0 = ∑ i ∈ Finset.Ico (0 : ℤ) (0 + n), D i := by
    have : Finset.Ico (0 : ℤ) (0 + n) = Insert.insert ((n : ℤ) - 1) (Finset.Ico (0 : ℤ) (0 + (n - 1 : ℕ))) := by
      ext x; simp only [Finset.mem_insert, Finset.mem_Ico]; omega
    rw [this, Finset.sum_insert (by simp only [Finset.mem_Ico]; omega), h0, zero_add]
    rfl
  rw [e, sum_period (hD.wrap rfl) 0 s]
  unfold stepsFrom
  refine Finset.sum_le_sum_of_subset_of_nonneg ?_ (fun i _ _ => hD.nonneg i)
  intro x hx
  simp only [Finset.mem_Ico] at hx ⊢
  omega

theorem steps_reflect (hn : 0 < n) (hD : StepsOf "reflect" n D) {s s' : ℤ} (h : s' = -s ∨ s' = 1 - s) :
    stepsFrom D n s + stepsFrom D n s' ≤ 2 * stepsFrom D n 0 := by
  obtain ⟨h1, h2, h3, h4⟩ := hD.reflect rfl
  have e : ∑ i ∈ Finset.Ico (-(n : ℤ)) (-(n : ℤ) + (2 * n : ℕ)), D i = 2 * stepsFrom D n 0 := by
    have e1 := stepsFrom_flip (n := n) h1 0
    have : Finset.Ico (-(n : ℤ)) (-(n : ℤ) + (2 * n : ℕ)) =
        Insert.insert (-1 : ℤ) (Insert.insert ((n : ℤ) - 1) (Finset.Ico (-2 - 0 - ((n - 1 : ℕ) : ℤ) + 1) (-2 - 0 + 1) ∪ Finset.Ico (0 : ℤ) (0 + ((n - 1 : ℕ) : ℤ)))) := by
      ext x; simp only [Finset.mem_insert, Finset.mem_union, Finset.mem_Ico]; omega
    rw [this, Finset.sum_insert, Finset.sum_insert, h3, h4, Finset.sum_union, ← e1]
    · show 0 + (0 + (stepsFrom D n 0 + stepsFrom D n 0)) = _
      ring
    · rw [Finset.disjoint_left]; intro x hx hx'; simp only [Finset.mem_Ico] at hx hx'; omega
    · simp only [Finset.mem_union, Finset.mem_Ico]; omega
    · simp only [Finset.mem_insert, Finset.mem_union, Finset.mem_Ico]; omega
  rw [stepsFrom_flip h1 s', ← e]
  have key : ∀ a b c : ℤ, Finset.Ico s (s + (n - 1 : ℕ)) ∪ Finset.Ico a b ⊆ Finset.Ico c (c + (2 * n : ℕ)) → b ≤ s →
      stepsFrom D n s + ∑ j ∈ Finset.Ico a b, D j ≤ ∑ i ∈ Finset.Ico (-(n : ℤ)) (-(n : ℤ) + (2 * n : ℕ)), D i := by
    intro a b c hsub hbs
    rw [sum_period h2 _ c]
    unfold stepsFrom
    rw [← Finset.sum_union]
    · exact Finset.sum_le_sum_of_subset_of_nonneg hsub (fun i _ _ => hD.nonneg i)
    · rw [Finset.disjoint_left]; intro x hx hx'; simp only [Finset.mem_Ico] at hx hx'; omega
  rcases h with rfl | rfl
  · refine key _ _ (s - n) ?_ (by omega)
    intro x hx
    simp only [Finset.mem_union, Finset.mem_Ico] at hx ⊢
    omega
  · refine key _ _ (s - n - 1) ?_ (by omega)
    intro x hx
    simp only [Finset.mem_union, Finset.mem_Ico] at hx ⊢
    omega

theorem steps_mirror_full (hn : 0 < n) (hD : StepsOf "mirror" n D) (t : ℤ) :
    ∑ i ∈ Finset.Ico t (t + (2 * n - 2 : ℕ)), D i = 2 * stepsFrom D n 0 := by
  obtain ⟨h1, h2⟩ := hD.mirror rfl
  rw [two_mul (stepsFrom D n 0)]
  nth_rewrite 1 [stepsFrom_flip h1 0]
  unfold stepsFrom
  rw [← Finset.sum_union, sum_period (h2 hn) t (-((n - 1 : ℕ) : ℤ))]
  · apply Finset.sum_congr _ (fun _ _ => rfl)
    ext x; simp only [Finset.mem_union, Finset.mem_Ico]; omega
  · rw [Finset.disjoint_left]; intro x hx hx'; simp only [Finset.mem_Ico] at hx hx'; omega

theorem steps_mirror (hn : 0 < n) (hD : StepsOf "mirror" n D) (s : ℤ) :
    stepsFrom D n s + stepsFrom D n (-s) ≤ 2 * stepsFrom D n 0 := by
  obtain ⟨h1, h2⟩ := hD.mirror rfl
  rw [stepsFrom_flip h1 (-s), ← steps_mirror_full hn hD (s - (n - 1 : ℕ))]
  unfold stepsFrom
  rw [← Finset.sum_union]
  · apply le_of_eq
    apply Finset.sum_congr _ (fun _ _ => rfl)
    ext x; simp only [Finset.mem_union, Finset.mem_Ico]; omega
  · rw [Finset.disjoint_left]; intro x hx hx'; simp only [Finset.mem_Ico] at hx hx'; omega

/-- Two opposite shifts by half steps: the last step is taken forwards by one and backwards by the other. -/
theorem steps_mirror_even {V : Type*} [NormedAddCommGroup V] {E : ℤ → V} (hn : 0 < n)
    (hD : StepsOf "mirror" n fun i => dist (E i) (E (i + 1))) (h1 : ∀ i, E (-i) = E i) (h2 : ∀ i, E (i + (2 * n - 2 : ℕ)) = E i) (s : ℤ) :
    ∑ i ∈ Finset.range (n - 1), dist (E (i + s) + E (i + (1 - s))) (E (i + s + 1) + E (i + (1 - s) + 1)) ≤
      2 * stepsFrom (fun i => dist (E i) (E (i + 1))) n 0 := by
  obtain ⟨D, hDd⟩ : ∃ D, D = fun i => dist (E i) (E (i + 1)) := ⟨_, rfl⟩
  rw [← hDd] at hD ⊢
  rcases Nat.lt_or_ge n 2 with h | h
  · have : n - 1 = 0 := by omega
    rw [this, Finset.sum_range_zero]
    unfold stepsFrom
    have := Finset.sum_nonneg (s := Finset.Ico (0 : ℤ) (0 + (n - 1 : ℕ))) fun i _ => hD.nonneg i
    linarith
  · have hlast : E ((n - 2 : ℕ) + s) + E ((n - 2 : ℕ) + (1 - s)) = E ((n - 2 : ℕ) + s + 1) + E ((n - 2 : ℕ) + (1 - s) + 1) := by
      rw [← h1 ((n - 2 : ℕ) + (1 - s)), ← h1 ((n - 2 : ℕ) + (1 - s) + 1), ← h2 (-((n - 2 : ℕ) + (1 - s))), ← h2 (-((n - 2 : ℕ) + (1 - s) + 1)),
        show -(((n - 2 : ℕ) : ℤ) + (1 - s)) + (2 * n - 2 : ℕ) = (n - 2 : ℕ) + s + 1 by omega,
        show -(((n - 2 : ℕ) : ℤ) + (1 - s) + 1) + (2 * n - 2 : ℕ) = (n - 2 : ℕ) + s by omega, add_comm]
    rw [show n - 1 = n - 2 + 1 by omega, Finset.sum_range_succ, hlast, dist_self, add_zero]
    refine (Finset.sum_le_sum fun i _ => dist_add_add_le _ _ _ _).trans ?_
    rw [Finset.sum_add_distrib, ← steps_mirror_full hn hD (s - (n - 1 : ℕ))]
    have e1 := stepsFrom_range D (n - 1) s
    have e2 := stepsFrom_range D (n - 1) (1 - s)
    rw [stepsFrom_flip (hD.mirror rfl).1 (1 - s)] at e2
    rw [show n - 1 - 1 = n - 2 by omega] at e1 e2
    simp only [hDd] at e1 e2 ⊢
    rw [← e1, ← e2]
    unfold stepsFrom
    rw [← Finset.sum_union]
    · refine Finset.sum_le_sum_of_subset_of_nonneg ?_ (fun i _ _ => dist_nonneg)
      intro x
      simp only [Finset.mem_union, Finset.mem_Ico]; omega
    · rw [Finset.disjoint_left]; intro x hx hx'; simp only [Finset.mem_Ico] at hx hx'; omega

theorem symWin_getD (hs : SymWin ws) (k : Nat) (hk : k < ws.length) : ws.getD (ws.length - 1 - k) 0 = ws.getD k 0 := by
  have e : ws.reverse[k]? = ws[k]? := by rw [show ws.reverse = ws from hs]
  rw [List.getElem?_reverse hk] at e
  rw [List.getD_eq_getElem?_getD, List.getD_eq_getElem?_getD, e]

/-- The weighted sum of the lengths of all shifts. -/
theorem weighted_steps (hn : 0 < n) (hD : StepsOf mode n D) (hw : ∀ x ∈ ws, 0 ≤ x) (rows : List (List ℝ)) (hk : KeepsShort mode ws rows)
    (hev : mode = "mirror" → ws.length % 2 = 1)
    (hwrap : mode = "wrap" → rows.head? = rows.getLast? → D (n - 1) = 0) :
    ∑ k ∈ Finset.range ws.length, ws.getD k 0 * stepsFrom D n ((ws.length / 2 : Nat) - k) ≤ ws.sum * stepsFrom D n 0 := by
  have hw' : ∀ k, 0 ≤ ws.getD k 0 := by
    intro k
    rw [List.getD_eq_getElem?_getD]
    cases h : ws[k]? with
    | none => simp
    | some x => simpa using hw x (List.mem_of_getElem? h)
  have all : (∀ s, stepsFrom D n s ≤ stepsFrom D n 0) →
      ∑ k ∈ Finset.range ws.length, ws.getD k 0 * stepsFrom D n ((ws.length / 2 : Nat) - k) ≤ ws.sum * stepsFrom D n 0 := by
    intro h
    rw [list_sum_getD ws, Finset.sum_mul]
    exact Finset.sum_le_sum fun k _ => mul_le_mul_of_nonneg_left (h _) (hw' k)
  have sym : SymWin ws → (∀ k : ℕ, k < ws.length → stepsFrom D n ((ws.length / 2 : Nat) - k) +
        stepsFrom D n ((ws.length / 2 : Nat) - ((ws.length - 1 - k : ℕ) : ℤ)) ≤ 2 * stepsFrom D n 0) →
      ∑ k ∈ Finset.range ws.length, ws.getD k 0 * stepsFrom D n ((ws.length / 2 : Nat) - k) ≤ ws.sum * stepsFrom D n 0 := by
    intro hs h
    have hrev := symWin_getD hs
    have hflip := Finset.sum_range_reflect (fun k => ws.getD k 0 * stepsFrom D n ((ws.length / 2 : Nat) - (k : ℤ))) ws.length
    have h2 : 2 * ∑ k ∈ Finset.range ws.length, ws.getD k 0 * stepsFrom D n ((ws.length / 2 : Nat) - k) ≤ 2 * (ws.sum * stepsFrom D n 0) := by
      rw [two_mul]
      nth_rewrite 2 [← hflip]
      rw [← Finset.sum_add_distrib, list_sum_getD ws, Finset.sum_mul, Finset.mul_sum]
      apply Finset.sum_le_sum
      intro k hk
      have hk := Finset.mem_range.1 hk
      rw [hrev k hk]
      have := mul_le_mul_of_nonneg_left (h k hk) (hw' k)
      linarith
    linarith
  rcases hk with rfl | ⟨rfl, hs⟩ | ⟨rfl, hs⟩ | ⟨rfl, hcl⟩
  · exact all (steps_nearest hD)
  · apply sym hs
    intro k hk
    exact steps_reflect hn hD (by omega)
  · apply sym hs
    intro k hk
    have hodd := hev rfl
    have := steps_mirror hn hD (((ws.length / 2 : Nat) : ℤ) - k)
    rwa [show -(((ws.length / 2 : Nat) : ℤ) - k) = (ws.length / 2 : Nat) - ((ws.length - 1 - k : ℕ) : ℤ) by omega] at this
  · exact all (steps_wrap hn hD (hwrap rfl hcl))

end

theorem pathLen_range (m : Nat) : ∀ rows : List (List ℝ),
    pathLen m rows = ∑ i ∈ Finset.range (rows.length - 1), gap m (rows.getD i []) (rows.getD (i + 1) [])
  | [] => rfl
  | [_] => rfl
  | a :: b :: rows => by
    have := pathLen_range m (b :: rows)
    simp only [List.length_cons, Nat.add_sub_cancel] at this ⊢
    rw [Finset.sum_range_succ']
    simp only [pathLen, this]
    rw [add_comm]
    rfl

/-- The vectors of the continued curve. -/
noncomputable def extVec (m : Nat) (e : Nat → ℤ → ℝ) (i : ℤ) : EuclideanSpace ℝ (Fin m) := WithLp.toLp 2 fun j => e j i

theorem extVec_congr {m : Nat} {e : Nat → ℤ → ℝ} {a b : ℤ} (h : ∀ j, j < m → e j a = e j b) : extVec m e a = extVec m e b := by
  unfold extVec
  congr 1
  funext j
  exact h j j.2

theorem extSteps {m n : Nat} {mode : String} {cv : ℝ} {f : Nat → Nat → ℝ} {e : Nat → ℤ → ℝ}
    (he : ∀ j, j < m → Continues mode n cv (f j) (e j)) :
    StepsOf mode n (fun i => dist (extVec m e i) (extVec m e (i + 1))) where
  nonneg _ := dist_nonneg
  reflect hm := by
    have a : ∀ i, extVec m e (-1 - i) = extVec m e i := fun i => extVec_congr fun j hj => ((he j hj).reflect hm i).1
    have b : ∀ i, extVec m e (2 * n - 1 - i) = extVec m e i := fun i => extVec_congr fun j hj => ((he j hj).reflect hm i).2
    have p : ∀ i, extVec m e (i + (2 * n : ℕ)) = extVec m e i := by
      intro i
      have := b (-1 - i)
      rw [a i] at this
      rw [← this]; congr 1; push_cast; ring
    refine ⟨fun i => ?_, fun i => ?_, ?_, ?_⟩
    · have h1 := a (i + 1)
      have h2 := a i
      rw [show (-1 - (i + 1) : ℤ) = -2 - i by ring] at h1
      rw [show (-2 - i + 1 : ℤ) = -1 - i by ring, h1, h2, dist_comm]
    · rw [p, show i + ((2 * n : ℕ) : ℤ) + 1 = i + 1 + (2 * n : ℕ) by ring, p]
    · have := a 0
      rw [show (-1 + 1 : ℤ) = 0 by ring, ← this, dist_eq_zero]
      congr 1
    · have := b n
      rw [sub_add_cancel, ← this, dist_eq_zero]
      congr 1; ring
  mirror hm := by
    have a : ∀ i, extVec m e (-i) = extVec m e i := fun i => extVec_congr fun j hj => (((he j hj).mirror hm).1 i).1
    have b : ∀ i, extVec m e (2 * (n - 1) - i) = extVec m e i := fun i => extVec_congr fun j hj => (((he j hj).mirror hm).1 i).2
    refine ⟨fun i => ?_, fun hn i => ?_⟩
    · rw [show (-1 - i + 1 : ℤ) = -i by ring, a, show (-1 - i : ℤ) = -(i + 1) by ring, a, dist_comm]
    · have p : ∀ i, extVec m e (i + (2 * n - 2 : ℕ)) = extVec m e i := by
        intro i
        rw [← a i, ← b (-i)]
        congr 1
        omega
      rw [p, show i + ((2 * n - 2 : ℕ) : ℤ) + 1 = i + 1 + (2 * n - 2 : ℕ) by ring, p]
  nearest hm i hi := by
    have a : ∀ i, i < 0 → extVec m e i = extVec m e 0 := fun i h => extVec_congr fun j hj => ((he j hj).nearest hm).1 i h
    have b : ∀ i, (n : ℤ) ≤ i → extVec m e i = extVec m e (n - 1) := fun i h => extVec_congr fun j hj => ((he j hj).nearest hm).2 i h
    rw [dist_eq_zero]
    rcases hi with hi | hi
    · rw [a i hi]
      rcases eq_or_ne (i + 1) 0 with h | h
      · rw [h]
      · rw [a (i + 1) (by omega)]
    · rw [b (i + 1) (by omega)]
      rcases eq_or_ne i (n - 1) with h | h
      · rw [h]
      · rw [b i (by omega)]
  wrap hm i := by
    have a : ∀ i, extVec m e (i + n) = extVec m e i := fun i => extVec_congr fun j hj => (he j hj).wrap hm i
    rw [a, show i + (n : ℤ) + 1 = i + 1 + n by ring, a]

/-- **C122 (smoothing does not lengthen).** A window filter whose window has entries `≥ 0` with a positive sum gives a curve that is at
most as long as the given one: in mode `nearest`, in the modes `reflect` (the default) and `mirror` if the window is symmetric, and in
mode `wrap` if the first and the last point of the curve are the same. For the other cases see `C122_lengthened`. -/
theorem C122_shorter {r : Reg SmoothFn} {name : String} (hf : getSmooth r name = .ok windowFn) {c : Curve ℝ} (hc : WF c)
    (hne : c.rows ≠ []) (hd : c.dtype = .float) {ws : List ℝ} (hw : ∀ x ∈ ws, 0 ≤ x) (hs : 0 < ws.sum) {p : WinParams}
    (hp : makeWindow p.wtype p.size = .ok (.floats (fins ws))) {cv : ℝ} (hcv : p.cval = .fin cv)
    (hk : KeepsShort p.mode ws c.rows) (junk : ℝ) :
    ∃ c', (finCurve c).smooth r name (.window p) = .ok (finCurve c') ∧ c'.size = c.size ∧ c'.ndim = c.ndim ∧
      pathLen c.ndim c'.rows ≤ pathLen c.ndim c.rows ∧ arclen junk c' ≤ arclen junk c := by
  have hmode : BoundaryMode p.mode := by
    unfold BoundaryMode
    rcases hk with h | ⟨h, _⟩ | ⟨h, _⟩ | ⟨h, _⟩ <;> simp [h]
  have hn : 0 < c.size := List.length_pos_iff.2 hne
  choose e he using fun j => C100_continuation hmode hn cv (fun q => at2 c.rows q j)
  obtain ⟨c', h1, hc', h2, h3, _, _, h4⟩ := C100_window hf hc hne (by simp [hd]) hs.ne' hp hcv hmode (e := e) (fun j _ => (he j).1)
  have hD := extSteps (m := c.ncols) (fun j _ => (he j).1)
  obtain ⟨E, hE⟩ : ∃ E, E = extVec c.ncols e := ⟨_, rfl⟩
  obtain ⟨D, hDdef⟩ : ∃ D : ℤ → ℝ, D = fun i => dist (E i) (E (i + 1)) := ⟨_, rfl⟩
  rw [← hE, ← hDdef] at hD
  have hin : ∀ i, i < c.size → pt c.ncols (c.rows.getD i []) = E i := by
    intro i hi
    rw [hE]
    unfold pt extVec
    congr 1
    funext j
    exact ((he j).1.inside i hi).symm
  have hout : ∀ i, i < c.size → pt c.ncols (c'.rows.getD i []) =
      ∑ k ∈ Finset.range ws.length, (ws.getD k 0 / ws.sum) • E (i + (ws.length / 2 : Nat) - k) := by
    intro i hi
    ext j
    have := h4 i j hi j.2
    rw [hd] at this
    have hcast : ∀ x : ℝ, DType.float.cast x = x := fun _ => rfl
    rw [hcast] at this
    show at2 c'.rows i j = _
    rw [this, hE, WithLp.ofLp_sum, Finset.sum_apply]
    rfl
  have hlen' : c'.rows.length = c.size := h2
  have hlen : c.rows.length = c.size := rfl
  have e0 : pathLen c.ncols c.rows = stepsFrom D c.size 0 := by
    rw [pathLen_range, stepsFrom_range, hlen]
    apply Finset.sum_congr rfl
    intro i hi
    have hi := Finset.mem_range.1 hi
    unfold gap
    rw [hin i (by omega), hin (i + 1) (by omega), hDdef]
    simp
  have hwrap : p.mode = "wrap" → c.rows.head? = c.rows.getLast? → D (c.size - 1) = 0 := by
    intro hm h
    have a : E (0 + c.size) = E 0 := by
      rw [hE]; exact extVec_congr fun j _ => (he j).1.wrap hm 0
    rw [hDdef]
    simp only
    rw [sub_add_cancel, ← zero_add (c.size : ℤ), a, dist_eq_zero, zero_add]
    have h0 := hin 0 hn
    have h1 := hin (c.size - 1) (by omega)
    rw [Nat.cast_sub hn] at h1
    simp only [Nat.cast_zero, Nat.cast_one] at h0 h1
    rw [← h0, ← h1]
    rw [List.head?_eq_getElem?, List.getLast?_eq_getElem?, hlen] at h
    rw [List.getD_eq_getElem?_getD, List.getD_eq_getElem?_getD, h]
  have main : pathLen c.ncols c'.rows ≤ pathLen c.ncols c.rows := by
    have hw0 : ∀ k, 0 ≤ ws.getD k 0 / ws.sum := by
      intro k
      apply div_nonneg _ hs.le
      rw [List.getD_eq_getElem?_getD]
      cases h : ws[k]? with
      | none => simp
      | some x => simpa using hw x (List.mem_of_getElem? h)
    rw [pathLen_range, hlen', e0]
    by_cases hev : p.mode = "mirror" ∧ ws.length % 2 = 0
    · obtain ⟨hm, hev⟩ := hev
      have hsym : SymWin ws := by
        rcases hk with h | ⟨h, h'⟩ | ⟨h, h'⟩ | ⟨h, _⟩
        · rw [hm] at h; simp at h
        · exact h'
        · exact h'
        · rw [hm] at h; simp at h
      have a : ∀ i, E (-i) = E i := fun i => by
        rw [hE]; exact extVec_congr fun j _ => (((he j).1.mirror hm).1 i).1
      have b : ∀ i, E (i + (2 * c.size - 2 : ℕ)) = E i := by
        intro i
        have b' : ∀ i, E (2 * (c.size - 1) - i) = E i := fun i => by
          rw [hE]; exact extVec_congr fun j _ => (((he j).1.mirror hm).1 i).2
        rw [← a i, ← b' (-i)]
        congr 1
        omega
      rw [hm, hDdef] at hD
      have hflip : ∀ i : ℤ, (2 : ℝ) • ∑ k ∈ Finset.range ws.length, (ws.getD k 0 / ws.sum) • E (i + (ws.length / 2 : Nat) - k) =
          ∑ k ∈ Finset.range ws.length, (ws.getD k 0 / ws.sum) •
            (E (i + ((ws.length / 2 : Nat) - k)) + E (i + (1 - ((ws.length / 2 : Nat) - k)))) := by
        intro i
        rw [two_smul]
        nth_rewrite 2 [← Finset.sum_range_reflect]
        rw [← Finset.sum_add_distrib]
        apply Finset.sum_congr rfl
        intro k hk
        have hk := Finset.mem_range.1 hk
        rw [symWin_getD hsym k hk, ← smul_add]
        congr 3
        · congr 1; omega
        · congr 1; omega
      have step : ∀ i ∈ Finset.range (c.size - 1), 2 * gap c.ncols (c'.rows.getD i []) (c'.rows.getD (i + 1) []) ≤
          ∑ k ∈ Finset.range ws.length, ws.getD k 0 / ws.sum * dist (E (i + ((ws.length / 2 : Nat) - k)) + E (i + (1 - ((ws.length / 2 : Nat) - k))))
            (E (i + ((ws.length / 2 : Nat) - k) + 1) + E (i + (1 - ((ws.length / 2 : Nat) - k)) + 1)) := by
        intro i hi
        have hi := Finset.mem_range.1 hi
        unfold gap
        have e2 : (2 : ℝ) = ‖(2 : ℝ)‖ := by norm_num
        rw [hout i (by omega), hout (i + 1) (by omega)]
        nth_rewrite 1 [e2]
        rw [← dist_smul₀, hflip, hflip]
        refine (dist_sum_sum_le _ _ _).trans ?_
        apply Finset.sum_le_sum
        intro k _
        rw [dist_smul₀, Real.norm_of_nonneg (hw0 k)]
        apply le_of_eq
        congr 4 <;> push_cast <;> ring
      have h2 : 2 * ∑ i ∈ Finset.range (c.size - 1), gap c.ncols (c'.rows.getD i []) (c'.rows.getD (i + 1) []) ≤ 2 * stepsFrom D c.size 0 := by
        rw [Finset.mul_sum]
        refine (Finset.sum_le_sum step).trans ?_
        rw [Finset.sum_comm]
        simp only [← Finset.mul_sum]
        refine (Finset.sum_le_sum fun k _ => mul_le_mul_of_nonneg_left (steps_mirror_even hn hD a b (((ws.length / 2 : Nat) : ℤ) - (k : ℕ))) (hw0 k)).trans ?_
        rw [← hDdef]
        rw [← Finset.sum_mul, ← Finset.sum_div, ← list_sum_getD, div_self hs.ne', one_mul]
      linarith
    have hev' : p.mode = "mirror" → ws.length % 2 = 1 := by
      intro h
      by_contra h'
      exact hev ⟨h, by omega⟩
    have key := weighted_steps hn hD hw c.rows hk hev' hwrap
    have step : ∀ i ∈ Finset.range (c.size - 1), gap c.ncols (c'.rows.getD i []) (c'.rows.getD (i + 1) []) ≤
        ∑ k ∈ Finset.range ws.length, ws.getD k 0 / ws.sum * D (i + ((ws.length / 2 : Nat) - k)) := by
      intro i hi
      have hi := Finset.mem_range.1 hi
      unfold gap
      rw [hout i (by omega), hout (i + 1) (by omega)]
      refine (dist_sum_sum_le _ _ _).trans ?_
      apply Finset.sum_le_sum
      intro k _
      rw [dist_smul₀, Real.norm_of_nonneg (hw0 k), hDdef]
      simp only
      rw [show ((i + 1 : ℕ) : ℤ) + ((ws.length / 2 : ℕ) : ℤ) - k = i + (((ws.length / 2 : ℕ) : ℤ) - k) + 1 by push_cast; ring, add_sub_assoc]
    refine (Finset.sum_le_sum step).trans ?_
    rw [Finset.sum_comm]
    have e2 : ∀ k ∈ Finset.range ws.length, ∑ i ∈ Finset.range (c.size - 1), ws.getD k 0 / ws.sum * D (i + ((ws.length / 2 : Nat) - k)) =
        (ws.getD k 0 * stepsFrom D c.size ((ws.length / 2 : Nat) - k)) / ws.sum := by
      intro k _
      rw [← Finset.mul_sum, stepsFrom_range]
      ring
    rw [Finset.sum_congr rfl e2, ← Finset.sum_div, div_le_iff₀ hs, mul_comm]
    exact key
  have hne' : c'.rows ≠ [] := by
    intro h; rw [h] at hlen'; simp at hlen'; omega
  refine ⟨c', h1, h2, h3, main, ?_⟩
  rw [(C50_cumarclen_partial hc' hne' junk).2.2.2.2.2, (C50_cumarclen_partial hc hne junk).2.2.2.2.2]
  show pathLen c'.ncols c'.rows ≤ _
  rw [h3]
  exact main

/-- The Hann window is symmetric. -/
theorem hann_sym (n : Nat) (h1 : 1 ≤ n) (h2 : n ≠ 2) :
    ∃ ws : List ℝ, makeWindow (.named hann) n = .ok (.floats (fins ws)) ∧ (∀ x ∈ ws, 0 ≤ x) ∧ 0 < ws.sum ∧ SymWin ws := by
  obtain ⟨ws, g1, g2, g3, g4⟩ := C68_hann_partial n h1 h2
  refine ⟨ws, g1, g2, g3, ?_⟩
  have g1 : hann n = .ok (.floats (fins ws)) := g1
  unfold hann at g1
  rw [if_neg (by omega)] at g1
  by_cases h3 : n ≤ 1
  · obtain ⟨x, rfl⟩ := List.length_eq_one_iff.1 (show ws.length = 1 by omega)
    rfl
  · rw [if_neg (by omega)] at g1
    have hws : ws = (List.range n).map fun (k : Nat) => 1 / 2 + 1 / 2 * Real.cos (-Real.pi + k * (2 * Real.pi / (n - 1))) := by
      simp only [Int.toNat_natCast, Except.ok.injEq, WinObj.floats.injEq, fins] at g1
      have : List.map Val.fin ((List.range n).map fun (k : Nat) => 1 / 2 + 1 / 2 * Real.cos (-Real.pi + k * (2 * Real.pi / (n - 1)))) =
          List.map Val.fin ws := by rw [← g1, List.map_map]; rfl
      exact (List.map_injective_iff.2 (fun a b h => by simpa using h) this).symm
    unfold SymWin
    apply List.ext_getElem (by simp)
    intro k hk hk'
    rw [List.getElem_reverse]
    simp only [hws, List.getElem_map, List.getElem_range, List.length_map, List.length_range]
    have hkn : k < n := by simpa [hws] using hk'
    have hn1 : ((n : ℝ) - 1) ≠ 0 := by
      have : (2 : ℝ) ≤ n := by exact_mod_cast (show 2 ≤ n by omega)
      intro h; linarith
    congr 2
    rw [← Real.cos_neg]
    congr 1
    rw [Nat.cast_sub (by omega), Nat.cast_sub (by omega)]
    field_simp
    push_cast
    ring

/-- **C122 (default parameters).** With the default window (Hann) of any size from 1 on except 2 and the default mode, smoothing
does not lengthen any float curve. -/
theorem C122_default {r : Reg SmoothFn} {name : String} (hf : getSmooth r name = .ok windowFn) {c : Curve ℝ} (hc : WF c)
    (hne : c.rows ≠ []) (hd : c.dtype = .float) {n : Nat} (h1 : 1 ≤ n) (h2 : n ≠ 2) (junk : ℝ) :
    ∃ c', (finCurve c).smooth r name (.window { size := n }) = .ok (finCurve c') ∧ c'.size = c.size ∧ c'.ndim = c.ndim ∧
      pathLen c.ndim c'.rows ≤ pathLen c.ndim c.rows ∧ arclen junk c' ≤ arclen junk c := by
  obtain ⟨ws, g1, g2, g3, g4⟩ := hann_sym n h1 h2
  exact C122_shorter hf hc hne hd g2 g3 (p := { size := n }) g1 rfl (.inr (.inl ⟨rfl, g4⟩)) junk

/-- A plane float curve on the first axis. -/
def onAxis (xs : List ℝ) : Curve ℝ := ⟨xs.map fun x => [x, 0], 2, none, .float⟩

theorem onAxis_WF (xs : List ℝ) : WF (onAxis xs) := by
  refine ⟨le_refl 2, ?_, ?_, ?_⟩
  · intro r hr
    obtain ⟨x, _, rfl⟩ := List.mem_map.1 hr
    rfl
  · intro t ht; simp [onAxis] at ht
  · intro r _ x _; rfl

theorem gap_first {a b : List ℝ} (h : a.getD 1 0 = b.getD 1 0) : gap 2 a b = |a.getD 0 0 - b.getD 0 0| := by
  unfold gap pt
  rw [EuclideanSpace.dist_eq, Fin.sum_univ_two]
  simp only [Fin.val_zero, Fin.val_one, h, dist_self, Real.dist_eq]
  rw [sq_abs, zero_pow two_ne_zero, add_zero, Real.sqrt_sq_eq_abs]

theorem pathLen_axis {rows : List (List ℝ)} (n : Nat) (hl : rows.length = n) {y : ℝ} (h : ∀ i, i < n → at2 rows i 1 = y) :
    pathLen 2 rows = ∑ i ∈ Finset.range (n - 1), |at2 rows i 0 - at2 rows (i + 1) 0| := by
  rw [pathLen_range, hl]
  apply Finset.sum_congr rfl
  intro i hi
  have hi := Finset.mem_range.1 hi
  exact gap_first ((h i (by omega)).trans (h (i + 1) (by omega)).symm)

/-- **C122 (lengthened).** The other cases can lengthen a curve: the mode `wrap` on an open curve, an asymmetric window in mode
`reflect`, and the mode `constant`. -/
theorem C122_lengthened (f : SmoothFn) :
    (∃ c', (finCurve (onAxis [0, 0, 1])).smooth (smoothReg f) "window" (.window
        { size := 3, wtype := .callable fun _ => .ok (.floats (fins [1, 0, 0])), mode := "wrap" }) = .ok (finCurve c') ∧
      pathLen 2 (onAxis [0, 0, 1]).rows = 1 ∧ pathLen 2 c'.rows = 2) ∧
    (∃ c', (finCurve (onAxis [0, 0, 0, 1])).smooth (smoothReg f) "window" (.window
        { size := 5, wtype := .callable fun _ => .ok (.floats (fins [1, 0, 0, 0, 0])), mode := "reflect" }) = .ok (finCurve c') ∧
      pathLen 2 (onAxis [0, 0, 0, 1]).rows = 1 ∧ pathLen 2 c'.rows = 2) ∧
    ∃ c', (finCurve (onAxis [5, 5, 5])).smooth (smoothReg f) "window" (.window
        { size := 3, wtype := .callable fun _ => .ok (.floats (fins [1, 1, 1])), mode := "constant" }) = .ok (finCurve c') ∧
      pathLen 2 (onAxis [5, 5, 5]).rows = 0 ∧ pathLen 2 c'.rows = 10 / 3 := by
  refine ⟨?_, ?_, ?_⟩
  · have hmode : BoundaryMode "wrap" := by simp [BoundaryMode]
    choose e he using fun j => C100_continuation hmode (n := 3) (by norm_num) 0 (fun q => at2 (onAxis [0, 0, 1]).rows q j)
    obtain ⟨c', h1, _, hsz, _, _, _, h2⟩ := C100_window (smoothReg_window f) (onAxis_WF [0, 0, 1]) (by simp [onAxis]) (by simp [onAxis])
      (ws := [1, 0, 0]) (by norm_num)
      (p := { size := 3, wtype := .callable fun _ => .ok (.floats (fins [1, 0, 0])), mode := "wrap" }) rfl rfl hmode (e := e) (fun j _ => (he j).1)
    refine ⟨c', h1, ?_, ?_⟩
    · rw [pathLen_axis 3 rfl (y := 0) (by intro i hi; interval_cases i <;> rfl)]
      norm_num [Finset.sum_range_succ, onAxis, at2]
    · have v : ∀ i j, i < 3 → j < 2 → at2 c'.rows i j = at2 (onAxis [0, 0, 1]).rows ((i + 1) % 3) j := by
        intro i j hi hj
        have hcast : ∀ x : ℝ, (onAxis [0, 0, 1]).dtype.cast x = x := fun x => rfl
        rw [h2 i j hi hj, hcast]
        have h := (he j).1
        have i0 := h.inside 0 (by norm_num)
        have i1 := h.inside 1 (by norm_num)
        have i2 := h.inside 2 (by norm_num)
        have i3 := h.wrap rfl 0
        simp only [List.length_cons, List.length_nil, Finset.sum_range_succ, Finset.sum_range_zero]
        push_cast at i0 i1 i2 i3
        interval_cases i <;> norm_num [i0, i1, i2] at i3 ⊢ <;> simp [i0, i1, i2, i3]
      rw [pathLen_axis 3 hsz (y := 0) (by intro i hi; rw [v i 1 hi (by norm_num)]; interval_cases i <;> rfl)]
      simp only [Finset.sum_range_succ, Finset.sum_range_zero, Nat.zero_add, Nat.reduceAdd, Nat.reduceSub]
      rw [v 0 0 (by norm_num) (by norm_num), v 1 0 (by norm_num) (by norm_num), v 2 0 (by norm_num) (by norm_num)]
      norm_num [onAxis, at2]
  · have hmode : BoundaryMode "reflect" := by simp [BoundaryMode]
    choose e he using fun j => C100_continuation hmode (n := 4) (by norm_num) 0 (fun q => at2 (onAxis [0, 0, 0, 1]).rows q j)
    obtain ⟨c', h1, _, hsz, _, _, _, h2⟩ := C100_window (smoothReg_window f) (onAxis_WF [0, 0, 0, 1]) (by simp [onAxis]) (by simp [onAxis])
      (ws := [1, 0, 0, 0, 0]) (by norm_num)
      (p := { size := 5, wtype := .callable fun _ => .ok (.floats (fins [1, 0, 0, 0, 0])), mode := "reflect" }) rfl rfl hmode (e := e) (fun j _ => (he j).1)
    refine ⟨c', h1, ?_, ?_⟩
    · rw [pathLen_axis 4 rfl (y := 0) (by intro i hi; interval_cases i <;> rfl)]
      norm_num [Finset.sum_range_succ, onAxis, at2]
    · have v : ∀ i j, i < 4 → j < 2 → at2 c'.rows i j = at2 (onAxis [0, 0, 0, 1]).rows ([2, 3, 3, 2].getD i 0) j := by
        intro i j hi hj
        have hcast : ∀ x : ℝ, (onAxis [0, 0, 0, 1]).dtype.cast x = x := fun x => rfl
        rw [h2 i j hi hj, hcast]
        have h := (he j).1
        have i2 := h.inside 2 (by norm_num)
        have i3 := h.inside 3 (by norm_num)
        have i4 := (h.reflect rfl 4).2
        have i5 := (h.reflect rfl 5).2
        simp only [List.length_cons, List.length_nil, Finset.sum_range_succ, Finset.sum_range_zero]
        push_cast at i2 i3 i4 i5
        norm_num at i4 i5
        interval_cases i <;> norm_num [i2, i3, ← i4, ← i5]
      rw [pathLen_axis 4 hsz (y := 0) (by intro i hi; rw [v i 1 hi (by norm_num)]; interval_cases i <;> rfl)]
      simp only [Finset.sum_range_succ, Finset.sum_range_zero, Nat.zero_add, Nat.reduceAdd, Nat.reduceSub]
      rw [v 0 0 (by norm_num) (by norm_num), v 1 0 (by norm_num) (by norm_num), v 2 0 (by norm_num) (by norm_num), v 3 0 (by norm_num) (by norm_num)]
      norm_num [onAxis, at2]
  · have hmode : BoundaryMode "constant" := by simp [BoundaryMode]
    choose e he using fun j => C100_continuation hmode (n := 3) (by norm_num) 0 (fun q => at2 (onAxis [5, 5, 5]).rows q j)
    obtain ⟨c', h1, _, hsz, _, _, _, h2⟩ := C100_window (smoothReg_window f) (onAxis_WF [5, 5, 5]) (by simp [onAxis]) (by simp [onAxis])
      (ws := [1, 1, 1]) (by norm_num)
      (p := { size := 3, wtype := .callable fun _ => .ok (.floats (fins [1, 1, 1])), mode := "constant" }) rfl rfl hmode (e := e) (fun j _ => (he j).1)
    refine ⟨c', h1, ?_, ?_⟩
    · rw [pathLen_axis 3 rfl (y := 0) (by intro i hi; interval_cases i <;> rfl)]
      norm_num [Finset.sum_range_succ, onAxis, at2]
    · have v : ∀ i j, i < 3 → j < 2 → at2 c'.rows i j = at2 (onAxis [10 / 3, 5, 10 / 3]).rows i j := by
        intro i j hi hj
        have hcast : ∀ x : ℝ, (onAxis [5, 5, 5]).dtype.cast x = x := fun x => rfl
        rw [h2 i j hi hj, hcast]
        have h := (he j).1
        have i0 := h.inside 0 (by norm_num)
        have i1 := h.inside 1 (by norm_num)
        have i2 := h.inside 2 (by norm_num)
        have i3 := h.constant rfl 3 (by norm_num)
        have im := h.constant rfl (-1) (by norm_num)
        simp only [List.length_cons, List.length_nil, Finset.sum_range_succ, Finset.sum_range_zero]
        push_cast at i0 i1 i2
        clear h2 h1 he h
        interval_cases j <;> simp only [onAxis, at2, List.map_cons, List.map_nil, List.getD_cons_zero, List.getD_cons_succ] at i0 i1 i2
          <;> interval_cases i <;> norm_num [i0, i1, i2, i3, im, onAxis, at2]
      rw [pathLen_axis 3 hsz (y := 0) (by intro i hi; rw [v i 1 hi (by norm_num)]; interval_cases i <;> rfl)]
      simp only [Finset.sum_range_succ, Finset.sum_range_zero, Nat.zero_add, Nat.reduceAdd, Nat.reduceSub]
      rw [v 0 0 (by norm_num) (by norm_num), v 1 0 (by norm_num) (by norm_num), v 2 0 (by norm_num) (by norm_num)]
      norm_num [onAxis, at2, abs_of_neg, abs_of_pos]

/-- A curve of three points with the default window of five points; the modes `mirror` and `wrap` with a window of two equal weights. -/
example (f : SmoothFn) : ∃ c', (finCurve exTri).smooth (smoothReg f) "window" (.window { size := 5 }) = .ok (finCurve c') ∧
    arclen 0 c' ≤ arclen 0 exTri := by
  obtain ⟨c', h, _, _, _, h'⟩ := C122_default (smoothReg_window f) exTri_WF (by simp [exTri]) rfl (n := 5) (by norm_num) (by norm_num) 0
  exact ⟨c', h, h'⟩

example (f : SmoothFn) (mode : String) (hm : mode = "mirror" ∨ mode = "wrap") : ∃ c', (finCurve (onAxis [0, 3, 0])).smooth (smoothReg f) "window"
    (.window { size := 2, wtype := .callable fun _ => .ok (.floats (fins [1, 1])), mode := mode }) = .ok (finCurve c') ∧
    pathLen 2 c'.rows ≤ 6 := by
  obtain ⟨c', h, _, _, h', _⟩ := C122_shorter (smoothReg_window f) (onAxis_WF [0, 3, 0]) (by simp [onAxis]) rfl (ws := [1, 1]) (by simp)
    (by norm_num) (p := { size := 2, wtype := .callable fun _ => .ok (.floats (fins [1, 1])), mode := mode }) rfl rfl
    (by rcases hm with rfl | rfl
        · exact .inr (.inr (.inl ⟨rfl, rfl⟩))
        · exact .inr (.inr (.inr ⟨rfl, by simp [onAxis]⟩))) 0
  refine ⟨c', h, h'.trans_eq ?_⟩
  show pathLen 2 _ = 6
  rw [pathLen_axis 3 rfl (y := 0) (by intro i hi; interval_cases i <;> rfl)]
  norm_num [Finset.sum_range_succ, onAxis, at2]

end Verif.Props
