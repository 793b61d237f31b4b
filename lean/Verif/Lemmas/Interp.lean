import Verif.Model.Interp
import Verif.Spec.Interp
import Verif.Lemmas.ArcLen
import Mathlib.Tactic.FieldSimp
import Mathlib.Tactic.Ring
import Mathlib.Analysis.Normed.Affine.AddTorsor

/-! Lemmas on grids and piecewise linear interpolation. -/
namespace Verif.Model

open Verif Verif.Np Verif.Spec

/-! ## Finite arithmetic -/

@[simp] theorem Val.sub_fin (x y : ℝ) : (Val.fin x).sub (.fin y) = .fin (x - y) := by
  simp [Val.sub, Val.neg, Val.add, sub_eq_add_neg]
@[simp] theorem Val.add_fin (x y : ℝ) : (Val.fin x).add (.fin y) = .fin (x + y) := rfl
@[simp] theorem Val.mul_fin (x y : ℝ) : (Val.fin x).mul (.fin y) = .fin (x * y) := rfl
@[simp] theorem Val.neg_fin (x : ℝ) : (Val.fin x).neg = .fin (-x) := rfl
theorem Val.div_fin {x y : ℝ} (h : y ≠ 0) : (Val.fin x).div (.fin y) = .fin (x / y) := by
  simp [Val.div, h]
@[simp] theorem Val.ltB_fin (x y : ℝ) : (Val.fin x).ltB (.fin y) = decide (x < y) := rfl

theorem Val.npmin_fin (x y : ℝ) : (Val.fin x).npmin (.fin y) = .fin (min x y) := by
  simp only [Val.npmin, Val.ltB_fin, decide_eq_true_eq]
  split
  · rename_i h; rw [min_eq_right h.le]
  · rename_i h; rw [min_eq_left (not_lt.1 h)]

theorem Val.npmax_fin (x y : ℝ) : (Val.fin x).npmax (.fin y) = .fin (max x y) := by
  simp only [Val.npmax, Val.ltB_fin, decide_eq_true_eq]
  split
  · rename_i h; rw [max_eq_right h.le]
  · rename_i h; rw [max_eq_left (not_lt.1 h)]

theorem npMin_fins {xs : List ℝ} {lo : ℝ} (hm : lo ∈ xs) (hl : ∀ x ∈ xs, lo ≤ x) : npMin (fins xs) = .ok (.fin lo) := by
  cases xs with
  | nil => simp at hm
  | cons x xs =>
    have key : ∀ (ys : List ℝ) (y : ℝ), (fins ys).foldl Val.npmin (.fin y) = .fin (ys.foldl min y) := by
      intro ys
      induction ys with
      | nil => intro y; rfl
      | cons z ys ih => intro y; simp only [fins, List.map_cons, List.foldl_cons, Val.npmin_fin]; exact ih _
    simp only [fins, List.map_cons, npMin]
    have := key xs x
    unfold fins at this
    rw [this]
    congr 2
    have low : ∀ (ys : List ℝ) (y : ℝ), ys.foldl min y ≤ y ∧ (∀ z ∈ ys, ys.foldl min y ≤ z) ∧ (ys.foldl min y = y ∨ ys.foldl min y ∈ ys) := by
      intro ys
      induction ys with
      | nil => intro y; simp
      | cons z ys ih =>
        intro y
        obtain ⟨h1, h2, h3⟩ := ih (min y z)
        simp only [List.foldl_cons, List.mem_cons, forall_eq_or_imp]
        refine ⟨h1.trans (min_le_left _ _), ⟨h1.trans (min_le_right _ _), h2⟩, ?_⟩
        rcases h3 with h3 | h3
        · rcases min_choice y z with e | e <;> rw [e] at h3
          · left; rw [e]; exact h3
          · right; left; rw [e]; exact h3
        · right; right; exact h3
    obtain ⟨h1, h2, h3⟩ := low xs x
    apply le_antisymm
    · rcases List.mem_cons.1 hm with rfl | hm
      · exact h1
      · exact h2 lo hm
    · rcases h3 with h3 | h3
      · rw [h3]; exact hl x (by simp)
      · exact hl _ (by simp [h3])

theorem npMax_fins {xs : List ℝ} {hi : ℝ} (hm : hi ∈ xs) (hl : ∀ x ∈ xs, x ≤ hi) : npMax (fins xs) = .ok (.fin hi) := by
  cases xs with
  | nil => simp at hm
  | cons x xs =>
    have key : ∀ (ys : List ℝ) (y : ℝ), (fins ys).foldl Val.npmax (.fin y) = .fin (ys.foldl max y) := by
      intro ys
      induction ys with
      | nil => intro y; rfl
      | cons z ys ih => intro y; simp only [fins, List.map_cons, List.foldl_cons, Val.npmax_fin]; exact ih _
    simp only [fins, List.map_cons, npMax]
    have := key xs x
    unfold fins at this
    rw [this]
    congr 2
    have low : ∀ (ys : List ℝ) (y : ℝ), y ≤ ys.foldl max y ∧ (∀ z ∈ ys, z ≤ ys.foldl max y) ∧ (ys.foldl max y = y ∨ ys.foldl max y ∈ ys) := by
      intro ys
      induction ys with
      | nil => intro y; simp
      | cons z ys ih =>
        intro y
        obtain ⟨h1, h2, h3⟩ := ih (max y z)
        simp only [List.foldl_cons, List.mem_cons, forall_eq_or_imp]
        refine ⟨(le_max_left _ _).trans h1, ⟨(le_max_right _ _).trans h1, h2⟩, ?_⟩
        rcases h3 with h3 | h3
        · rcases max_choice y z with e | e <;> rw [e] at h3
          · left; rw [e]; exact h3
          · right; left; rw [e]; exact h3
        · right; right; exact h3
    obtain ⟨h1, h2, h3⟩ := low xs x
    apply le_antisymm
    · rcases h3 with h3 | h3
      · rw [h3]; exact hl x (by simp)
      · exact hl _ (by simp [h3])
    · rcases List.mem_cons.1 hm with rfl | hm
      · exact h1
      · exact h2 hi hm

/-! ## linspace -/

/-- The values of `np.linspace` on finite numbers. -/
noncomputable def linspaceR (a b : ℝ) (n : Nat) : List ℝ :=
  (List.range n).map fun (i : Nat) => a + (i : ℝ) * ((b - a) / ((n : ℝ) - 1))

theorem linspace_fins (a b : ℝ) (n : Nat) : linspace (.fin a) (.fin b) (n : Int) = .ok (fins (linspaceR a b n)) := by
  unfold linspace linspaceR fins
  rw [if_neg (by omega)]
  simp only [Int.toNat_natCast, List.map_map]
  congr 1
  apply List.map_congr_left
  intro i hi
  rw [List.mem_range] at hi
  simp only [Function.comp]
  by_cases hn : 1 < n
  · have hn' : (1 : Int) < (n : Int) := by omega
    have hpos : ((n : ℝ) - 1) ≠ 0 := by
      have : (1 : ℝ) < n := by exact_mod_cast hn
      linarith
    rw [if_pos hn']
    have e : (((n : Int) : ℝ) - 1) = (n : ℝ) - 1 := by push_cast; ring
    rw [Val.sub_fin, e, Val.div_fin hpos, Val.mul_fin, Val.add_fin]
    split
    · rename_i h
      have hi' : (i : ℝ) = (n : ℝ) - 1 := by
        have : i + 1 = n := by omega
        rw [← this]; push_cast; ring
      rw [hi']
      congr 1
      field_simp
      ring
    · congr 1; ring
  · have h0 : i = 0 := by omega
    subst h0
    rw [if_neg (by intro h; omega)]
    rw [if_neg (by omega)]
    simp

theorem linspace_neg (a b : Val ℝ) {n : Int} (h : n < 0) : linspace a b n = .error .valueError := if_pos h

theorem linspaceR_length (a b : ℝ) (n : Nat) : (linspaceR a b n).length = n := by simp [linspaceR]

theorem linspaceR_get {a b : ℝ} {n i : Nat} (h : i < n) :
    (linspaceR a b n)[i]? = some (a + (i : ℝ) * ((b - a) / ((n : ℝ) - 1))) := by
  simp [linspaceR, h]

theorem linspaceR_step (a b : ℝ) (n : Nat) : ConstStep ((b - a) / ((n : ℝ) - 1)) (linspaceR a b n) := by
  intro i x y hx hy
  have h1 : i + 1 < n := by
    have := (List.getElem?_eq_some_iff.1 hy).1
    rwa [linspaceR_length] at this
  rw [linspaceR_get (by omega)] at hx
  rw [linspaceR_get h1] at hy
  injection hx with hx; injection hy with hy
  rw [← hx, ← hy]; push_cast; ring

theorem linspaceR_even (a b : ℝ) {n : Nat} (h : 2 ≤ n) : EvenlySpaced (linspaceR a b n) n a b where
  count := linspaceR_length a b n
  first := by
    rw [List.head?_eq_getElem?, linspaceR_get (by omega)]; simp
  last := by
    rw [List.getLast?_eq_getElem?, linspaceR_length, linspaceR_get (by omega)]
    have hpos : ((n : ℝ) - 1) ≠ 0 := by
      have : (2 : ℝ) ≤ n := by exact_mod_cast h
      linarith
    have e : ((n - 1 : Nat) : ℝ) = (n : ℝ) - 1 := by rw [Nat.cast_sub (by omega)]; simp
    rw [e]; congr 1; field_simp; ring
  step := ⟨_, linspaceR_step a b n⟩

/-- Steps that are all positive make a strictly increasing list. -/
theorem pairwise_of_steps {xs : List ℝ} (h : ∀ i x y, xs[i]? = some x → xs[i + 1]? = some y → x < y) :
    xs.Pairwise (· < ·) := by
  induction xs with
  | nil => exact List.Pairwise.nil
  | cons a l ih =>
    have ih' := ih fun i x y hx hy => h (i + 1) x y (by simpa using hx) (by simpa using hy)
    refine List.pairwise_cons.2 ⟨?_, ih'⟩
    cases l with
    | nil => simp
    | cons b l =>
      have hab : a < b := h 0 a b rfl rfl
      intro z hz
      rcases List.mem_cons.1 hz with rfl | hz
      · exact hab
      · exact hab.trans ((List.pairwise_cons.1 ih').1 z hz)

theorem pairwise_le_of_steps {xs : List ℝ} (h : ∀ i x y, xs[i]? = some x → xs[i + 1]? = some y → x ≤ y) :
    xs.Pairwise (· ≤ ·) := by
  induction xs with
  | nil => exact List.Pairwise.nil
  | cons a l ih =>
    have ih' := ih fun i x y hx hy => h (i + 1) x y (by simpa using hx) (by simpa using hy)
    refine List.pairwise_cons.2 ⟨?_, ih'⟩
    cases l with
    | nil => simp
    | cons b l =>
      have hab : a ≤ b := h 0 a b rfl rfl
      intro z hz
      rcases List.mem_cons.1 hz with rfl | hz
      · exact hab
      · exact hab.trans ((List.pairwise_cons.1 ih').1 z hz)

theorem linspaceR_lt {a b : ℝ} (hab : a < b) {n : Nat} (hn : 2 ≤ n) : (linspaceR a b n).Pairwise (· < ·) := by
  apply pairwise_of_steps
  intro i x y hx hy
  have := linspaceR_step a b n i x y hx hy
  have hpos : 0 < (b - a) / ((n : ℝ) - 1) := by
    apply div_pos (by linarith)
    have : (2 : ℝ) ≤ n := by exact_mod_cast hn
    linarith
  linarith

/-! ## rounding -/

theorem roundEven_near (x : ℝ) : |(roundEven x : ℝ) - x| ≤ 1 / 2 := by
  unfold roundEven
  have h1 := Int.floor_le x
  have h2 := Int.lt_floor_add_one x
  rw [abs_le]
  split
  · constructor <;> linarith
  · split
    · push_cast; constructor <;> linarith
    · split
      · constructor <;> linarith
      · push_cast; constructor <;> linarith

theorem roundEven_nonneg {x : ℝ} (h : 0 ≤ x) : 0 ≤ roundEven x := by
  have := abs_le.1 (roundEven_near x)
  have h2 : (-1 : ℝ) < roundEven x := by linarith
  have h3 : (-1 : Int) < roundEven x := by exact_mod_cast h2
  omega

/-! ## differences -/

theorem diffV_fins (xs : List ℝ) : diffV (fins xs) = fins (List.zipWith (fun a b => b - a) xs xs.tail) := by
  unfold diffV fins
  rw [← List.map_tail, List.zipWith_map, List.map_zipWith]
  simp

theorem diffs_sum (x : ℝ) (xs : List ℝ) :
    (List.zipWith (fun a b => b - a) (x :: xs) (x :: xs).tail).sum = (x :: xs).getLastD x - x := by
  induction xs generalizing x with
  | nil => simp
  | cons y ys ih =>
    have := ih y
    simp only [List.tail_cons, List.zipWith_cons_cons, List.sum_cons] at this ⊢
    rw [this]
    simp [List.getLastD_cons, List.getLast?_cons]

theorem foldl_add_fins (xs : List ℝ) (s : ℝ) : (fins xs).foldl Val.add (.fin s) = .fin (s + xs.sum) := by
  induction xs generalizing s with
  | nil => simp [fins]
  | cons x xs ih =>
    simp only [fins, List.map_cons, List.foldl_cons, Val.add_fin, List.sum_cons]
    have := ih (s + x)
    unfold fins at this
    rw [this]; congr 1; ring

/-- The mean difference of a finite grid. -/
theorem meanDiff_fins {x : ℝ} {xs : List ℝ} (h : xs ≠ []) :
    meanV (diffV (fins (x :: xs))) = .fin (((x :: xs).getLastD x - x) / xs.length) := by
  rw [diffV_fins]
  unfold meanV
  rw [foldl_add_fins, diffs_sum]
  have hl : (fins (List.zipWith (fun a b => b - a) (x :: xs) (x :: xs).tail)).length = xs.length := by
    simp [fins]
  rw [hl, Val.div_fin]
  · simp
  · have : xs.length ≠ 0 := by simpa using h
    exact_mod_cast this

/-! ## piecewise linear interpolation -/

theorem takeWhile_length_of {xs : List ℝ} (hs : xs.Pairwise (· < ·)) {i : Nat} {a x : ℝ}
    (hi : xs[i]? = some a) (hlt : a < x) (hnext : ∀ b, xs[i + 1]? = some b → x ≤ b) :
    (xs.takeWhile fun y => decide (y < x)).length = i + 1 := by
  induction xs generalizing i with
  | nil => simp at hi
  | cons z zs ih =>
    obtain ⟨h1, h2⟩ := List.pairwise_cons.1 hs
    cases i with
    | zero =>
      simp only [List.getElem?_cons_zero, Option.some.injEq] at hi
      subst hi
      rw [List.takeWhile_cons, if_pos (by simpa using hlt)]
      cases zs with
      | nil => simp
      | cons w ws =>
        have := hnext w rfl
        rw [List.takeWhile_cons, if_neg (by simpa using this)]
        simp
    | succ i =>
      simp only [List.getElem?_cons_succ] at hi
      have hz : z < x := (h1 a (List.mem_of_getElem? hi)).trans hlt
      rw [List.takeWhile_cons, if_pos (by simpa using hz)]
      simp only [List.length_cons]
      rw [ih h2 hi (fun b hb => hnext b (by simpa using hb))]

theorem takeWhile_length_at {xs : List ℝ} (hs : xs.Pairwise (· < ·)) {i : Nat} {a : ℝ}
    (hi : xs[i]? = some a) : (xs.takeWhile fun y => decide (y < a)).length = i := by
  induction xs generalizing i with
  | nil => simp at hi
  | cons z zs ih =>
    obtain ⟨h1, h2⟩ := List.pairwise_cons.1 hs
    cases i with
    | zero =>
      simp only [List.getElem?_cons_zero, Option.some.injEq] at hi
      subst hi
      rw [List.takeWhile_cons, if_neg (by simp)]; rfl
    | succ i =>
      simp only [List.getElem?_cons_succ] at hi
      have hz : z < a := h1 a (List.mem_of_getElem? hi)
      rw [List.takeWhile_cons, if_pos (by simpa using hz)]
      simp only [List.length_cons]
      rw [ih h2 hi]

theorem takeWhile_length_low {xs : List ℝ} (hs : xs.Pairwise (· < ·)) {x : ℝ}
    (h : ∀ b, xs[0]? = some b → x ≤ b) : (xs.takeWhile fun y => decide (y < x)).length = 0 := by
  cases xs with
  | nil => rfl
  | cons z zs =>
    rw [List.takeWhile_cons, if_neg (by simpa using h z rfl)]; rfl

theorem lerpV_fin {xlo xhi : ℝ} (h : xlo < xhi) (ylo yhi x : ℝ) :
    lerpV xlo xhi ylo yhi (.fin x) = .fin (ylo + (x - xlo) / (xhi - xlo) * (yhi - ylo)) := by
  unfold lerpV
  have : xhi - xlo ≠ 0 := by linarith
  rw [Val.div_fin this, Val.sub_fin, Val.mul_fin, Val.add_fin]
  congr 1; field_simp; ring

theorem zipWith_lerpV {xlo xhi : ℝ} (h : xlo < xhi) (p q : List ℝ) (x : ℝ) :
    List.zipWith (fun ylo yhi => lerpV xlo xhi ylo yhi (.fin x)) p q = fins (mix ((x - xlo) / (xhi - xlo)) p q) := by
  simp only [lerpV_fin h]
  unfold fins mix
  rw [List.map_zipWith]

theorem mix_one {p q : List ℝ} (h : p.length = q.length) : mix 1 p q = q := by
  induction p generalizing q with
  | nil => cases q <;> simp_all [mix]
  | cons a p ih =>
    cases q with
    | nil => simp at h
    | cons b q => simpa [mix] using ih (by simpa using h)

theorem mix_zero {p q : List ℝ} (h : p.length = q.length) : mix 0 p q = p := by
  induction p generalizing q with
  | nil => cases q <;> simp_all [mix]
  | cons a p ih =>
    cases q with
    | nil => simp at h
    | cons b q => simpa [mix] using ih (by simpa using h)

theorem mix_length {u : ℝ} {p q : List ℝ} (h : p.length = q.length) : (mix u p q).length = p.length := by
  simp [mix, h]

/-- The value between two neighbouring nodes; below the first and above the last node the first and the last pair are
used. -/
theorem interp1dAt_between {nodes : List (ℝ × List ℝ)} (hs : (nodes.map Prod.fst).Pairwise (· < ·))
    (hr : ∀ a ∈ nodes, ∀ b ∈ nodes, a.2.length = b.2.length) {i : Nat} {lo hi : ℝ × List ℝ} (hlo : nodes[i]? = some lo)
    (hhi : nodes[i + 1]? = some hi) {x : ℝ} (h1 : i = 0 ∨ lo.1 ≤ x) (h2 : i + 2 = nodes.length ∨ x ≤ hi.1) :
    interp1dAt nodes (.fin x) = fins (mix ((x - lo.1) / (hi.1 - lo.1)) lo.2 hi.2) := by
  have hl : i + 1 < nodes.length := (List.getElem?_eq_some_iff.1 hhi).1
  have xlo : (nodes.map Prod.fst)[i]? = some lo.1 := by rw [List.getElem?_map, hlo]; rfl
  have xhi : (nodes.map Prod.fst)[i + 1]? = some hi.1 := by rw [List.getElem?_map, hhi]; rfl
  have hlt : lo.1 < hi.1 := by
    obtain ⟨p1, e1⟩ := List.getElem?_eq_some_iff.1 xlo
    obtain ⟨p2, e2⟩ := List.getElem?_eq_some_iff.1 xhi
    rw [← e1, ← e2]
    exact List.pairwise_iff_getElem.1 hs i (i + 1) p1 p2 (by omega)
  have gD : ∀ k v, nodes[k]? = some v → nodes.getD k (0, []) = v := by
    intro k v h; rw [List.getD_eq_getElem?_getD, h]; rfl
  have fin : max 1 (min (searchsorted (nodes.map Prod.fst) (.fin x)) (nodes.length - 1)) = i + 1 →
      interp1dAt nodes (.fin x) = fins (mix ((x - lo.1) / (hi.1 - lo.1)) lo.2 hi.2) := by
    intro hk
    unfold interp1dAt
    simp only [hk, Nat.add_sub_cancel]
    rw [gD _ _ hlo, gD _ _ hhi]
    exact zipWith_lerpV hlt _ _ _
  have ss : searchsorted (nodes.map Prod.fst) (.fin x) = ((nodes.map Prod.fst).takeWhile fun y => decide (y < x)).length := rfl
  rcases lt_trichotomy lo.1 x with hlx | hlx | hlx
  · -- above the lower node
    rcases h2 with h2 | h2
    · -- last pair: the search result is at least i + 1
      apply fin
      have hge : i + 1 ≤ searchsorted (nodes.map Prod.fst) (.fin x) := by
        rw [ss]
        by_cases hx : x ≤ hi.1
        · rw [takeWhile_length_of hs xlo hlx (fun b hb => by rw [xhi] at hb; injection hb with hb; rw [← hb]; exact hx)]
        · rw [takeWhile_length_of hs xhi (not_le.1 hx) (fun b hb => by
            have := (List.getElem?_eq_some_iff.1 hb).1
            rw [List.length_map] at this; omega)]
          omega
      omega
    · apply fin
      have : searchsorted (nodes.map Prod.fst) (.fin x) = i + 1 := by
        rw [ss, takeWhile_length_of hs xlo hlx (fun b hb => by rw [xhi] at hb; injection hb with hb; rw [← hb]; exact h2)]
      omega
  · -- at the lower node
    have hk : searchsorted (nodes.map Prod.fst) (.fin x) = i := by
      rw [ss, ← hlx]; exact takeWhile_length_at hs xlo
    cases i with
    | zero => apply fin; omega
    | succ i =>
      have hl' : i < nodes.length := by omega
      obtain ⟨pr, hpr⟩ : ∃ pr, nodes[i]? = some pr := ⟨_, List.getElem?_eq_getElem hl'⟩
      have xpr : (nodes.map Prod.fst)[i]? = some pr.1 := by rw [List.getElem?_map, hpr]; rfl
      have hlt' : pr.1 < lo.1 := by
        obtain ⟨p1, e1⟩ := List.getElem?_eq_some_iff.1 xpr
        obtain ⟨p2, e2⟩ := List.getElem?_eq_some_iff.1 xlo
        rw [← e1, ← e2]
        exact List.pairwise_iff_getElem.1 hs i (i + 1) p1 p2 (by omega)
      have hk' : max 1 (min (searchsorted (nodes.map Prod.fst) (.fin x)) (nodes.length - 1)) = i + 1 := by omega
      unfold interp1dAt
      simp only [hk', Nat.add_sub_cancel]
      rw [gD _ _ hpr, gD _ _ hlo, zipWith_lerpV hlt', ← hlx]
      have hmem := fun {k : Nat} {v : ℝ × List ℝ} (h : nodes[k]? = some v) => List.mem_of_getElem? h
      have hz : lo.1 - pr.1 ≠ 0 := by linarith
      rw [div_self hz, sub_self, zero_div, mix_one (hr _ (hmem hpr) _ (hmem hlo)), mix_zero (hr _ (hmem hlo) _ (hmem hhi))]
  · -- below the lower node: only the first pair
    rcases h1 with rfl | h1
    · apply fin
      have : searchsorted (nodes.map Prod.fst) (.fin x) = 0 := by
        rw [ss]
        exact takeWhile_length_low hs fun b hb => by rw [xlo] at hb; injection hb with hb; rw [← hb]; exact hlx.le
      omega
    · exact absurd hlx (not_lt.2 h1)

/-! ## the polygonal line as a map -/

section poly
variable {E : Type} [NormedAddCommGroup E] [NormedSpace ℝ E]

/-- The point of the polygonal line through the nodes at parameter `x`. -/
noncomputable def polyAt : List (ℝ × E) → ℝ → E
  | (a, p) :: (b, q) :: l, x =>
    if x ≤ b then AffineMap.lineMap p q ((x - a) / (b - a)) else polyAt ((b, q) :: l) x
  | (_, p) :: [], _ => p
  | [], _ => 0

/-- The length of the polygonal line up to parameter `x`. -/
noncomputable def lenAt : List (ℝ × E) → ℝ → ℝ
  | (a, p) :: (b, q) :: l, x =>
    if x ≤ b then (x - a) / (b - a) * dist p q else dist p q + lenAt ((b, q) :: l) x
  | _ :: [], _ => 0
  | [], _ => 0

/-- Length of a polygonal line given by its points. -/
noncomputable def totalLen : List E → ℝ
  | p :: q :: l => dist p q + totalLen (q :: l)
  | _ => 0

theorem polyAt_cons (a b : ℝ) (p q : E) (l : List (ℝ × E)) (x : ℝ) : polyAt ((a, p) :: (b, q) :: l) x =
    if x ≤ b then AffineMap.lineMap p q ((x - a) / (b - a)) else polyAt ((b, q) :: l) x := by
  simp only [polyAt]

theorem lenAt_cons (a b : ℝ) (p q : E) (l : List (ℝ × E)) (x : ℝ) : lenAt ((a, p) :: (b, q) :: l) x =
    if x ≤ b then (x - a) / (b - a) * dist p q else dist p q + lenAt ((b, q) :: l) x := by
  simp only [lenAt]

theorem polyAt_start (a : ℝ) (p : E) (l : List (ℝ × E)) (h : ((a, p) :: l).Pairwise (fun u v => u.1 < v.1)) :
    polyAt ((a, p) :: l) a = p := by
  cases l with
  | nil => rfl
  | cons b l =>
    obtain ⟨b, q⟩ := b
    have hab : a < b := (List.pairwise_cons.1 h).1 (b, q) (by simp)
    simp [polyAt, hab.le]

theorem lenAt_start (a : ℝ) (p : E) (l : List (ℝ × E)) (h : ((a, p) :: l).Pairwise (fun u v => u.1 < v.1)) :
    lenAt ((a, p) :: l) a = 0 := by
  cases l with
  | nil => rfl
  | cons b l =>
    obtain ⟨b, q⟩ := b
    have hab : a < b := (List.pairwise_cons.1 h).1 (b, q) (by simp)
    simp [lenAt, hab.le]

theorem lenAt_end (l : List (ℝ × E)) (h : l.Pairwise (fun u v => u.1 < v.1)) (x : ℝ) (hx : (l.map Prod.fst).getLast? = some x) :
    lenAt l x = totalLen (l.map Prod.snd) := by
  induction l with
  | nil => simp at hx
  | cons a l ih =>
    obtain ⟨a, p⟩ := a
    cases l with
    | nil => rfl
    | cons b l =>
      obtain ⟨b, q⟩ := b
      obtain ⟨h1, h2⟩ := List.pairwise_cons.1 h
      have hab : a < b := h1 (b, q) (by simp)
      have ih' := ih h2 (by simpa [List.getLast?_cons_cons] using hx)
      simp only [List.map_cons, totalLen] at ih' ⊢
      rw [← ih', lenAt_cons]
      split
      · rename_i hxb
        -- then `x = b`
        have hbx : b ≤ x := by
          have hm : x ∈ ((b, q) :: l).map Prod.fst := List.mem_of_getLast? (by simpa [List.getLast?_cons_cons] using hx)
          simp only [List.map_cons, List.mem_cons, List.mem_map] at hm
          rcases hm with rfl | ⟨v, hv, rfl⟩
          · exact le_refl _
          · exact ((List.pairwise_cons.1 h2).1 v hv).le
        have e : x = b := le_antisymm hxb hbx
        subst e
        rw [div_self (by linarith), lenAt_start _ _ _ h2]
        ring
      · rfl

/-- The polygonal line is traversed with the speed of its length. -/
theorem dist_polyAt (l : List (ℝ × E)) (h : l.Pairwise (fun u v => u.1 < v.1)) (x y : ℝ) (hxy : x ≤ y)
    (hx : ∀ a ∈ (l.map Prod.fst).head?, a ≤ x) (hy : ∀ b ∈ (l.map Prod.fst).getLast?, y ≤ b) :
    dist (polyAt l x) (polyAt l y) ≤ lenAt l y - lenAt l x := by
  induction l generalizing x y with
  | nil => simp [polyAt, lenAt]
  | cons a l ih =>
    obtain ⟨a, p⟩ := a
    cases l with
    | nil => simp [polyAt, lenAt]
    | cons b l =>
      obtain ⟨b, q⟩ := b
      obtain ⟨h1, h2⟩ := List.pairwise_cons.1 h
      have hab : a < b := h1 (b, q) (by simp)
      have hpos : 0 < b - a := by linarith
      have ih' : ∀ x y, x ≤ y → b ≤ x → (∀ b' ∈ (((b, q) :: l).map Prod.fst).getLast?, y ≤ b') →
          dist (polyAt ((b, q) :: l) x) (polyAt ((b, q) :: l) y) ≤ lenAt ((b, q) :: l) y - lenAt ((b, q) :: l) x := by
        intro x y hxy hbx hy'
        exact ih h2 x y hxy (by simpa using hbx) hy'
      have hy' : ∀ b' ∈ (((b, q) :: l).map Prod.fst).getLast?, y ≤ b' := by
        simpa [List.getLast?_cons_cons] using hy
      simp only [polyAt_cons, lenAt_cons]
      by_cases hyb : y ≤ b
      · rw [if_pos hyb, if_pos hyb, if_pos (hxy.trans hyb), if_pos (hxy.trans hyb), dist_lineMap_lineMap, ← sub_mul]
        apply mul_le_mul_of_nonneg_right _ dist_nonneg
        rw [dist_comm, Real.dist_eq, abs_of_nonneg]
        rw [sub_nonneg]
        exact div_le_div_of_nonneg_right (by linarith) hpos.le
      · rw [if_neg hyb, if_neg hyb]
        push Not at hyb
        by_cases hxb : x ≤ b
        · rw [if_pos hxb, if_pos hxb]
          have e := ih' b y hyb.le (le_refl b) hy'
          rw [polyAt_start _ _ _ h2, lenAt_start _ _ _ h2] at e
          refine (dist_triangle _ q _).trans ?_
          have e2 : dist (AffineMap.lineMap p q ((x - a) / (b - a))) q = (1 - (x - a) / (b - a)) * dist p q := by
            rw [dist_lineMap_right, Real.norm_eq_abs, abs_of_nonneg]
            rw [sub_nonneg, div_le_one hpos]; linarith
          rw [e2]
          linarith
        · rw [if_neg hxb, if_neg hxb]
          push Not at hxb
          have := ih' x y hxy hxb.le hy'
          linarith

/-- Points taken in order from a polygonal line form a polygonal line that is not longer. -/
theorem totalLen_polyAt (l : List (ℝ × E)) (h : l.Pairwise (fun u v => u.1 < v.1)) (a b : ℝ)
    (ha : (l.map Prod.fst).head? = some a) (hb : (l.map Prod.fst).getLast? = some b) (xs : List ℝ)
    (hs : xs.Pairwise (· ≤ ·)) (hin : ∀ x ∈ xs, a ≤ x ∧ x ≤ b) :
    totalLen (xs.map (polyAt l)) ≤ totalLen (l.map Prod.snd) := by
  have key : ∀ x xs, (x :: xs).Pairwise (· ≤ ·) → (∀ y ∈ x :: xs, a ≤ y ∧ y ≤ b) →
      totalLen ((x :: xs).map (polyAt l)) ≤ lenAt l b - lenAt l x := by
    intro x xs
    induction xs generalizing x with
    | nil =>
      intro _ hin
      simp only [List.map_cons, List.map_nil, totalLen]
      have hx := hin x (by simp)
      exact le_trans dist_nonneg (dist_polyAt l h x b hx.2 (by simpa [ha] using hx.1) (by simp [hb]))
    | cons y ys ih =>
      intro hs hin
      obtain ⟨s1, s2⟩ := List.pairwise_cons.1 hs
      have h1 := ih y s2 fun z hz => hin z (by simp [List.mem_cons.1 hz])
      have hx := hin x (by simp)
      have hy := hin y (by simp)
      have h2 := dist_polyAt l h x y (s1 y (by simp)) (by simpa [ha] using hx.1) (by simpa [hb] using hy.2)
      simp only [List.map_cons, totalLen] at h1 ⊢
      linarith
  have hend := lenAt_end l h b hb
  cases xs with
  | nil =>
    simp only [List.map_nil, totalLen]
    have nn : ∀ m : List E, 0 ≤ totalLen m := by
      intro m
      induction m with
      | nil => exact le_refl _
      | cons p m ih =>
        cases m with
        | nil => exact le_refl _
        | cons q m => exact add_nonneg dist_nonneg ih
    exact nn _
  | cons x xs =>
    have h1 := key x xs hs hin
    have hx := hin x (by simp)
    have hab : a ≤ b := hx.1.trans hx.2
    have h0 : lenAt l a = 0 := by
      cases l with
      | nil => simp at ha
      | cons u l =>
        obtain ⟨u, p⟩ := u
        simp only [List.map_cons, List.head?_cons, Option.some.injEq] at ha
        subst ha
        exact lenAt_start _ _ _ h
    have h2 := le_trans dist_nonneg (dist_polyAt l h a x hx.1 (by simp [ha]) (by simpa [hb] using hx.2))
    linarith

/-- Between two neighbouring nodes. -/
theorem polyAt_between (l : List (ℝ × E)) (h : l.Pairwise (fun u v => u.1 < v.1)) {i : Nat} {lo hi : ℝ × E}
    (hlo : l[i]? = some lo) (hhi : l[i + 1]? = some hi) {x : ℝ} (h1 : lo.1 ≤ x) (h2 : x ≤ hi.1) :
    polyAt l x = AffineMap.lineMap lo.2 hi.2 ((x - lo.1) / (hi.1 - lo.1)) := by
  induction l generalizing i with
  | nil => simp at hlo
  | cons a l ih =>
    obtain ⟨a, p⟩ := a
    obtain ⟨s1, s2⟩ := List.pairwise_cons.1 h
    cases l with
    | nil => simp at hhi
    | cons b l =>
      obtain ⟨b, q⟩ := b
      have hab : a < b := s1 (b, q) (by simp)
      rw [polyAt_cons]
      cases i with
      | zero =>
        simp at hlo hhi
        subst hlo hhi
        rw [if_pos h2]
      | succ i =>
        simp only [List.getElem?_cons_succ] at hlo hhi
        have hi' := ih s2 hlo (by simpa using hhi)
        split
        · rename_i hxb
          -- then `x = b` is the lower node
          have hb : b ≤ lo.1 := by
            cases i with
            | zero => simp at hlo; rw [← hlo]
            | succ i =>
              simp only [List.getElem?_cons_succ] at hlo
              exact ((List.pairwise_cons.1 s2).1 lo (List.mem_of_getElem? hlo)).le
          have e : x = b := le_antisymm hxb (hb.trans h1)
          rw [← hi', e, polyAt_start _ _ _ s2, div_self (by linarith), AffineMap.lineMap_apply_one]
        · exact hi'

end poly

/-- Every value of the range lies between two neighbouring nodes. -/
theorem exists_interval (l : List ℝ) (a b x : ℝ) (ha : l.head? = some a) (hb : l.getLast? = some b) (hl : 2 ≤ l.length)
    (h1 : a ≤ x) (h2 : x ≤ b) : ∃ i lo hi, l[i]? = some lo ∧ l[i + 1]? = some hi ∧ lo ≤ x ∧ x ≤ hi := by
  induction l generalizing a with
  | nil => simp at hl
  | cons u l ih =>
    simp only [List.head?_cons, Option.some.injEq] at ha
    subst ha
    cases l with
    | nil => simp at hl
    | cons v l =>
      by_cases hx : x ≤ v
      · exact ⟨0, u, v, rfl, rfl, h1, hx⟩
      · push Not at hx
        cases l with
        | nil =>
          simp at hb
          subst hb
          exact absurd h2 (not_le.2 hx)
        | cons w l =>
          obtain ⟨i, lo, hi, e1, e2, e3, e4⟩ := ih v rfl (by simpa [List.getLast?_cons_cons] using hb) (by simp) hx.le
          exact ⟨i + 1, lo, hi, by simpa using e1, by simpa using e2, e3, e4⟩

theorem polyAt_mono (l : List (ℝ × ℝ)) (h : l.Pairwise (fun u v => u.1 < v.1)) (hm : l.Pairwise (fun u v => u.2 ≤ v.2))
    (x y : ℝ) (hxy : x ≤ y) (hx : ∀ a ∈ (l.map Prod.fst).head?, a ≤ x) (hy : ∀ b ∈ (l.map Prod.fst).getLast?, y ≤ b) :
    polyAt l x ≤ polyAt l y := by
  induction l generalizing x y with
  | nil => simp [polyAt]
  | cons a l ih =>
    obtain ⟨a, p⟩ := a
    cases l with
    | nil => simp [polyAt]
    | cons b l =>
      obtain ⟨b, q⟩ := b
      obtain ⟨h1, h2⟩ := List.pairwise_cons.1 h
      obtain ⟨m1, m2⟩ := List.pairwise_cons.1 hm
      have hab : a < b := h1 (b, q) (by simp)
      have hpq : p ≤ q := m1 (b, q) (by simp)
      have hpos : 0 < b - a := by linarith
      have hy' : ∀ b' ∈ (((b, q) :: l).map Prod.fst).getLast?, y ≤ b' := by
        simpa [List.getLast?_cons_cons] using hy
      simp only [polyAt_cons]
      simp only [AffineMap.lineMap_apply_ring']
      by_cases hyb : y ≤ b
      · rw [if_pos hyb, if_pos (hxy.trans hyb)]
        have : (x - a) / (b - a) ≤ (y - a) / (b - a) := div_le_div_of_nonneg_right (by linarith) hpos.le
        have := mul_le_mul_of_nonneg_right this (sub_nonneg.2 hpq)
        linarith
      · rw [if_neg hyb]
        push Not at hyb
        by_cases hxb : x ≤ b
        · rw [if_pos hxb]
          have e := ih h2 m2 b y hyb.le (by simp) hy'
          rw [polyAt_start _ _ _ h2] at e
          have h1 : (x - a) / (b - a) ≤ 1 := by rw [div_le_one hpos]; linarith
          have := mul_le_mul_of_nonneg_right h1 (sub_nonneg.2 hpq)
          linarith
        · rw [if_neg hxb]
          push Not at hxb
          exact ih h2 m2 x y hxy (by simpa using hxb.le) hy'

theorem pt_mix {n : Nat} {p q : List ℝ} (hp : p.length = n) (hq : q.length = n) (u : ℝ) :
    pt n (mix u p q) = AffineMap.lineMap (pt n p) (pt n q) u := by
  unfold pt
  ext i
  have h1 : (i : Nat) < p.length := by have := i.2; omega
  have h2 : (i : Nat) < q.length := by have := i.2; omega
  simp only [AffineMap.lineMap_apply_module, PiLp.add_apply, PiLp.smul_apply, smul_eq_mul, mix, List.getD_eq_getElem?_getD,
    List.getElem?_zipWith, List.getElem?_eq_getElem h1, List.getElem?_eq_getElem h2, Option.getD_some]
  ring

theorem pathLen_totalLen (n : Nat) (l : List (List ℝ)) : pathLen n l = totalLen (l.map (pt n)) := by
  induction l with
  | nil => rfl
  | cons a l ih =>
    cases l with
    | nil => rfl
    | cons b l => simp only [pathLen, List.map_cons, totalLen, gap] at ih ⊢; rw [ih]

theorem mem_fins_fin {xs : List ℝ} {v : Val ℝ} (h : v ∈ fins xs) : ∃ x ∈ xs, v = .fin x := by
  unfold fins at h
  obtain ⟨x, hx, rfl⟩ := List.mem_map.1 h
  exact ⟨x, hx, rfl⟩

/-! ## the test of the grid -/

theorem badSteps_fins (xs : List ℝ) : badSteps (fins xs) = false ↔ StepsOver xs := by
  unfold badSteps
  rw [diffV_fins, Bool.or_eq_false_iff, List.any_eq_false, List.any_eq_false]
  have hd : ∀ d, d ∈ List.zipWith (fun a b => b - a) xs xs.tail ↔
      ∃ (i : Nat) (x y : ℝ), xs[i]? = some x ∧ xs[i + 1]? = some y ∧ y - x = d := by
    intro d
    rw [List.mem_iff_getElem?]
    constructor
    · rintro ⟨i, hi⟩
      rw [List.getElem?_zipWith, List.getElem?_tail] at hi
      cases hx : xs[i]? with
      | none => simp [hx] at hi
      | some x =>
        cases hy : xs[i + 1]? with
        | none => simp [hx, hy] at hi
        | some y =>
          simp only [hx, hy, Option.some.injEq] at hi
          exact ⟨i, x, y, hx, hy, hi⟩
    · rintro ⟨i, x, y, hx, hy, rfl⟩
      refine ⟨i, ?_⟩
      rw [List.getElem?_zipWith, List.getElem?_tail, hx, hy]
  have hc : ∀ d : ℝ, (¬ (Val.fin d).ltB (.fin 0) = true ∧ ¬ (Val.fin d).isclose (.fin 0) = true) ↔ 1 / 10 ^ 8 < d := by
    intro d
    simp only [Val.ltB_fin, Val.isclose, closeK, decide_eq_true_eq, sub_zero, abs_zero, mul_zero, add_zero, not_le, not_lt, atol]
    constructor
    · rintro ⟨h1, h2⟩
      rw [abs_of_nonneg h1] at h2
      norm_num at h2 ⊢; exact h2
    · intro h
      have h0 : 0 ≤ d := le_trans (by norm_num) h.le
      refine ⟨h0, ?_⟩
      rw [abs_of_nonneg h0]
      norm_num at h ⊢; exact h
  constructor
  · rintro ⟨h1, h2⟩ i x y hx hy
    have hm : Val.fin (y - x) ∈ fins (List.zipWith (fun a b => b - a) xs xs.tail) :=
      List.mem_map_of_mem ((hd _).2 ⟨i, x, y, hx, hy, rfl⟩)
    exact (hc _).1 ⟨h1 _ hm, h2 _ hm⟩
  · intro h
    have : ∀ v ∈ fins (List.zipWith (fun a b => b - a) xs xs.tail),
        ¬ v.ltB (.fin 0) = true ∧ ¬ v.isclose (.fin 0) = true := by
      intro v hv
      obtain ⟨d, hd', rfl⟩ := mem_fins_fin hv
      obtain ⟨i, x, y, hx, hy, rfl⟩ := (hd d).1 hd'
      exact (hc _).2 (h i x y hx hy)
    exact ⟨fun v hv => (this v hv).1, fun v hv => (this v hv).2⟩

theorem stepsOver_lt {xs : List ℝ} (h : StepsOver xs) : xs.Pairwise (· < ·) :=
  pairwise_of_steps fun i x y hx hy => by
    have h1 := h i x y hx hy
    have h2 : (0 : ℝ) < 1 / 10 ^ 8 := by norm_num
    linarith

end Verif.Model
