import Verif.Model.Repr
import Verif.Spec.Curve
import Verif.Model.Num

/-!
Text representations (C152).
-/
namespace Verif.Spec

/-- A text that consists of the lines `L`, none of them blank, with no white space at the beginning of the first and the end of the last one. -/
structure TidyText (s : List Char) (L : List (List Char)) : Prop where
  text : s = List.intercalate ['\n'] L
  some_line : L ≠ []
  no_break : ∀ l ∈ L, '\n' ∉ l
  not_blank : ∀ l ∈ L, ∃ c ∈ l, c.isWhitespace = false
  start : ∀ l c cs, L.head? = some l → l = c :: cs → c.isWhitespace = false
  stop : ∀ l cs c, L.getLast? = some l → l = cs ++ [c] → c.isWhitespace = false

end Verif.Spec

namespace Verif.Props

open Verif Verif.Np Verif.Model Verif.Spec

theorem lines_of_line {l : List Char} (h : '\n' ∉ l) : textLines l = [l] := by
  induction l with
  | nil => rfl
  | cons c cs ih =>
    rw [textLines, if_neg (by rintro rfl; simp at h), ih (fun q => h (List.mem_cons_of_mem _ q))]

theorem lines_append {l s : List Char} (h : '\n' ∉ l) : textLines (l ++ '\n' :: s) = l :: textLines s := by
  induction l with
  | nil => simp [textLines]
  | cons c cs ih =>
    rw [List.cons_append, textLines, if_neg (by rintro rfl; simp at h), ih (fun q => h (List.mem_cons_of_mem _ q))]

theorem intercalate_two (sep l m : List Char) (L : List (List Char)) : List.intercalate sep (l :: m :: L) = l ++ sep ++ List.intercalate sep (m :: L) := by
  simp [List.intercalate, List.intersperse]

theorem lines_intercalate : ∀ (L : List (List Char)), L ≠ [] → (∀ l ∈ L, '\n' ∉ l) → textLines (List.intercalate ['\n'] L) = L
  | [], h, _ => absurd rfl h
  | [l], _, h => by
    rw [show List.intercalate ['\n'] [l] = l by simp [List.intercalate]]
    exact lines_of_line (h l (by simp))
  | l :: m :: L, _, h => by
    rw [intercalate_two, List.append_assoc, List.singleton_append, lines_append (h l (by simp)), lines_intercalate (m :: L) (by simp) (fun x hx => h x (List.mem_cons_of_mem _ hx))]

theorem joinLines_eq (sep : List Char) : ∀ L : List (List Char), joinLines sep L = List.intercalate sep L
  | [] => by simp [joinLines, List.intercalate]
  | [l] => by simp [joinLines, List.intercalate]
  | l :: m :: L => by rw [intercalate_two, joinLines, joinLines_eq sep (m :: L)]; simp

theorem intercalate_indent (pre : List Char) : ∀ L : List (List Char), L ≠ [] → List.intercalate ['\n'] (L.map (pre ++ ·)) = pre ++ List.intercalate ('\n' :: pre) L
  | [], h => absurd rfl h
  | [l], _ => by simp [List.intercalate]
  | l :: m :: L, _ => by
    have := intercalate_indent pre (m :: L) (by simp)
    rw [List.map_cons] at this
    rw [List.map_cons, List.map_cons, intercalate_two, intercalate_two, this]
    simp

theorem strip_tidy {pre s : List Char} (hp : ∀ c ∈ pre, c.isWhitespace = true) {c d : Char} (h1 : s.head? = some c) (h2 : s.getLast? = some d) (hc : c.isWhitespace = false)
    (hd : d.isWhitespace = false) : stripText (pre ++ s) = s := by
  unfold stripText
  have e1 : (pre ++ s).dropWhile Char.isWhitespace = s := by
    induction pre with
    | nil =>
      cases s with
      | nil => rfl
      | cons x xs =>
        obtain rfl : x = c := by simpa using h1
        simp [hc]
    | cons x xs ih =>
      rw [List.cons_append, List.dropWhile_cons_of_pos (hp x (by simp))]
      exact ih fun y hy => hp y (List.mem_cons_of_mem _ hy)
  rw [e1]
  have e2 : s.reverse.dropWhile Char.isWhitespace = s.reverse := by
    have : s.reverse.head? = some d := by rw [List.head?_reverse, h2]
    cases hr : s.reverse with
    | nil => rfl
    | cons x xs =>
      obtain rfl : x = d := by rw [hr] at this; simpa using this
      simp [hd]
  rw [e2, List.reverse_reverse]

theorem intercalate_ends (sep : List Char) : ∀ {L : List (List Char)}, (∀ l ∈ L, l ≠ []) → L ≠ [] →
    (List.intercalate sep L).head? = L.head?.bind List.head? ∧ (List.intercalate sep L).getLast? = L.getLast?.bind List.getLast?
  | [], _, h => absurd rfl h
  | [l], _, _ => by simp [List.intercalate]
  | l :: m :: L, h, _ => by
    obtain ⟨-, i2⟩ := intercalate_ends sep (L := m :: L) (fun x hx => h x (List.mem_cons_of_mem _ hx)) (by simp)
    rw [intercalate_two]
    constructor
    · obtain ⟨c, cs, rfl⟩ : ∃ c cs, l = c :: cs := List.exists_cons_of_ne_nil (h l (by simp))
      simp
    · have ne : List.intercalate sep (m :: L) ≠ [] := by
        intro q
        rw [q] at i2
        obtain ⟨z, hz⟩ : ∃ z, (m :: L).getLast? = some z := ⟨_, List.getLast?_eq_some_getLast (by simp)⟩
        rw [hz] at i2
        simp only [List.getLast?_nil, Option.bind_some] at i2
        have := h z (List.mem_cons_of_mem _ (List.mem_of_getLast? hz))
        rw [List.getLast?_eq_some_getLast this] at i2
        simp at i2
      rw [List.getLast?_append_of_ne_nil _ ne, i2]
      simp

theorem tidy_indent {s : List Char} {L : List (List Char)} (h : TidyText s L) (pre : List Char) (hp : ∀ c ∈ pre, c.isWhitespace = true) :
    stripText (indentText pre s) = List.intercalate ('\n' :: pre) L := by
  unfold indentText
  rw [joinLines_eq, h.text, lines_intercalate L h.some_line h.no_break]
  have e : L.map (fun l => if l.all Char.isWhitespace then l else pre ++ l) = L.map (pre ++ ·) := by
    refine List.map_congr_left fun l hl => if_neg ?_
    obtain ⟨c, hc, hw⟩ := h.not_blank l hl
    intro q
    rw [List.all_eq_true] at q
    rw [q c hc] at hw
    exact absurd hw (by simp)
  rw [e, intercalate_indent pre L h.some_line]
  have ne : ∀ l ∈ L, l ≠ [] := by
    intro l hl q
    obtain ⟨c, hc, -⟩ := h.not_blank l hl
    simp [q] at hc
  obtain ⟨i1, i2⟩ := intercalate_ends ('\n' :: pre) ne h.some_line
  obtain ⟨a, as, hL⟩ := List.exists_cons_of_ne_nil h.some_line
  have ha : L.head? = some a := by rw [hL]; rfl
  obtain ⟨c, cs, rfl⟩ := List.exists_cons_of_ne_nil (ne a (by rw [hL]; simp))
  have hz : L.getLast? = some (L.getLast h.some_line) := List.getLast?_eq_some_getLast _
  have nz := ne _ (List.getLast_mem h.some_line)
  rw [ha] at i1
  rw [hz] at i2
  refine strip_tidy hp i1 (i2.trans (List.getLast?_eq_some_getLast nz)) (h.start _ c cs ha rfl) ?_
  exact h.stop _ _ _ hz (List.dropLast_append_getLast nz).symm

theorem comma_split {x : Char} : ∀ {d d' a a' : List Char}, x ∉ d → x ∉ d' → d ++ x :: a = d' ++ x :: a' → d = d' ∧ a = a'
  | [], [], _, _, _, _, h => ⟨rfl, by simpa using h⟩
  | [], c :: cs, _, _, _, h2, h => by
    simp only [List.nil_append, List.cons_append, List.cons.injEq] at h
    exact absurd (h.1 ▸ List.mem_cons_self) h2
  | c :: cs, [], _, _, h1, _, h => by
    simp only [List.nil_append, List.cons_append, List.cons.injEq] at h
    exact absurd (h.1 ▸ List.mem_cons_self) h1
  | c :: cs, c' :: cs', a, a', h1, h2, h => by
    simp only [List.cons_append, List.cons.injEq] at h
    obtain ⟨rfl, h⟩ := h
    obtain ⟨i1, i2⟩ := comma_split (fun q => h1 (List.mem_cons_of_mem _ q)) (fun q => h2 (List.mem_cons_of_mem _ q)) h
    exact ⟨by rw [i1], i2⟩

theorem comma_last {x : Char} {d d' a a' : List Char} (h1 : x ∉ d) (h2 : x ∉ d') (h : a ++ x :: d = a' ++ x :: d') : a = a' ∧ d = d' := by
  have := congrArg List.reverse h
  rw [List.reverse_append, List.reverse_cons, List.append_assoc, List.reverse_append, List.reverse_cons, List.append_assoc, List.singleton_append, List.singleton_append] at this
  obtain ⟨i1, i2⟩ := comma_split (by simpa using h1) (by simpa using h2) this
  exact ⟨List.reverse_injective i2, List.reverse_injective i1⟩

theorem digits_no {x : Char} (hx : x.isDigit = false) (n : Nat) : x ∉ natText n := by
  intro h
  rw [Nat.isDigit_of_mem_toDigits (by decide) (by decide) h] at hx
  exact absurd hx (by simp)

theorem natText_inj {n m : Nat} (h : natText n = natText m) : n = m := by
  have := congrArg (fun l => Nat.ofDigitChars 10 l 0) h
  simpa [natText] using this

theorem intText_inj {n m : Int} (h : intText n = intText m) : n = m := by
  have no : ∀ k, '-' ∉ natText k := digits_no (by decide)
  cases n <;> cases m <;> simp only [intText] at h
  · rw [natText_inj h]
  · exact absurd (h ▸ List.mem_cons_self) (no _)
  · exact absurd (h.symm ▸ List.mem_cons_self) (no _)
  · simp only [List.cons.injEq, true_and] at h
    have := natText_inj h
    congr 1
    omega

theorem intText_no (n : Int) : ',' ∉ intText n := by
  have no : ∀ k, ',' ∉ natText k := digits_no (by decide)
  cases n <;> simp only [intText]
  · exact no _
  · intro h
    rcases List.mem_cons.1 h with q | q
    · exact absurd q (by decide)
    · exact no _ q

theorem dtypeText_inj {d e : DType} (h : d.text = e.text) : d = e := by
  cases d <;> cases e <;> first | rfl | (exfalso; revert h; decide)

theorem dtypeText_no (d : DType) : ',' ∉ d.text := by cases d <;> decide

theorem field_split {t X X' D D' : List Char} (ht : ',' ∉ t) (h1 : ',' ∉ D) (h2 : ',' ∉ D') (h : X ++ (',' :: t) ++ D = X' ++ (',' :: t) ++ D') : X = X' ∧ D = D' := by
  rw [List.append_assoc, List.append_assoc, List.cons_append, List.cons_append] at h
  obtain ⟨i1, i2⟩ := comma_last (fun q => (List.mem_append.1 q).elim ht h1) (fun q => (List.mem_append.1 q).elim ht h2) h
  exact ⟨i1, List.append_cancel_left i2⟩

section
variable {α : Type} (F : Fmt α)

/-- **C152 (print options).** The representations leave numpy's print options as they are and do not depend on the precision and the suppression of small numbers set by the caller; that of a curve does not depend on
the threshold and the number of edge items either. -/
theorem C152_options (name : List Char) (o o' : PrintOpts) (p : Point α) (q : CurvePoint α) (s : Segment α) (idx : Int) (c : Curve α) :
    ((Point.repr F name p o).2 = o ∧ (CurvePoint.repr F name q o).2 = o ∧ (Segment.repr F name s o).2 = o ∧ (segmentRepr F name p p idx o).2 = o ∧ (Curve.repr F name c o).2 = o) ∧
    (Curve.repr F name c o).1 = (Curve.repr F name c o').1 ∧
    (o.threshold = o'.threshold → o.edgeitems = o'.edgeitems → (Point.repr F name p o).1 = (Point.repr F name p o').1 ∧ (CurvePoint.repr F name q o).1 = (CurvePoint.repr F name q o').1 ∧
      (Segment.repr F name s o).1 = (Segment.repr F name s o').1) := by
  refine ⟨⟨rfl, rfl, rfl, rfl, rfl⟩, rfl, fun h1 h2 => ?_⟩
  have e : dataOpts o = dataOpts o' := by
    unfold dataOpts
    rw [h1, h2]
  refine ⟨?_, ?_, ?_⟩
  · simp only [Point.repr, withOptions, e]
  · simp only [CurvePoint.repr, withOptions, e]
  · simp only [Segment.repr, withOptions, e]

/-- **C152 (which points are shown).** The representation of a curve shows all of its points if there are at most ten, else the first four and the last four. In the second case the same goes for the coordinates of
curves of more than eight dimensions. -/
theorem C152_shown [Elem α] {c : Curve α} (hc : WF c) (o : PrintOpts) :
    (c.size ≤ 10 → shown2 (curveOpts c.ndim o) c.rows c.ncols = c.rows.map fun r => some (r.map some)) ∧
    (10 < c.size → ∃ show1 : List α → List (Option α), shown2 (curveOpts c.ndim o) c.rows c.ncols = (c.rows.take 4).map (some ∘ show1) ++ none :: (c.rows.drop (c.size - 4)).map (some ∘ show1) ∧
      (c.ndim ≤ 8 → ∀ r ∈ c.rows, show1 r = r.map some) ∧
      (8 < c.ndim → ∀ r ∈ c.rows, show1 r = (r.take 4).map some ++ none :: (r.drop (c.ndim - 4)).map some)) := by
  have hpos : 0 < c.ncols := by have := hc.two_le; omega
  have hsz : c.size = c.rows.length := rfl
  have hnd : c.ndim = c.ncols := rfl
  constructor
  · intro h
    have off : decide (10 * c.ncols < c.rows.length * c.ncols) = false := by
      rw [decide_eq_false_iff_not, not_lt]
      exact Nat.mul_le_mul_right _ (by omega)
    unfold shown2 curveOpts summarise
    simp only [hnd, off]
    simp
  · intro h
    have on : decide (10 * c.ncols < c.rows.length * c.ncols) = true := by
      rw [decide_eq_true_iff]
      exact Nat.mul_lt_mul_of_pos_right (by omega) hpos
    refine ⟨summarise true 4, ?_, ?_, ?_⟩
    · unfold shown2 curveOpts
      simp only [hnd, on]
      rw [summarise, if_pos ⟨rfl, by rw [List.length_map]; omega⟩, List.length_map]
      simp [← List.map_take, ← List.map_drop, hsz]
    · intro h8 r hr
      have := hc.rect r hr
      rw [summarise, if_neg (by omega)]
    · intro h8 r hr
      have := hc.rect r hr
      rw [summarise, if_pos ⟨rfl, by omega⟩, this, hnd]

/-- **C152 (the text of a curve).** If numpy's text of the shown part consists of the lines `L`, the representation of a curve is the name and an opening parenthesis, the lines, aligned below each other, the size, the
dimension and the dtype. -/
theorem C152_curve (name : List Char) (c : Curve α) (o : PrintOpts) {L : List (List Char)} (h : TidyText (F.two true 4 c.dtype (shown2 (curveOpts c.ndim o) c.rows c.ncols)) L) :
    (Curve.repr F name c o).1 = name ++ ['('] ++ List.intercalate ('\n' :: List.replicate (name.length + 1) ' ') L ++ ", size=".toList ++ Nat.toDigits 10 c.rows.length ++ ", ndim=".toList ++
      Nat.toDigits 10 c.ncols ++ ", dtype=".toList ++ c.dtype.text ++ [')'] := by
  have e := tidy_indent h (List.replicate (name.length + 1) ' ') (fun x hx => by rw [(List.mem_replicate.1 hx).2]; decide)
  have e' : (Curve.repr F name c o).1 = name ++ '(' :: stripText (indentText (List.replicate (name.length + 1) ' ') (F.two true 4 c.dtype (shown2 (curveOpts c.ndim o) c.rows c.ncols))) ++ ", size=".toList ++
      natText c.size ++ ", ndim=".toList ++ natText c.ndim ++ ", dtype=".toList ++ c.dtype.text ++ [')'] := rfl
  rw [e', e]
  simp [natText, Curve.size, Curve.ndim]

theorem intercalate_inj {pre : List Char} : ∀ {L L' : List (List Char)}, L ≠ [] → L' ≠ [] → (∀ l ∈ L, '\n' ∉ l) → (∀ l ∈ L', '\n' ∉ l) →
    List.intercalate ('\n' :: pre) L = List.intercalate ('\n' :: pre) L' → L = L'
  | [], _, h, _, _, _, _ => absurd rfl h
  | _, [], _, h, _, _, _ => absurd rfl h
  | [l], [m], _, _, _, _, h => by simpa [List.intercalate] using h
  | [l], m :: m' :: M, _, _, h1, _, h => by
    rw [intercalate_two, show List.intercalate ('\n' :: pre) [l] = l by simp [List.intercalate]] at h
    exact absurd (by rw [h]; simp) (h1 l (by simp))
  | l :: l' :: L, [m], _, _, _, h2, h => by
    rw [intercalate_two, show List.intercalate ('\n' :: pre) [m] = m by simp [List.intercalate]] at h
    exact absurd (by rw [← h]; simp) (h2 m (by simp))
  | l :: l' :: L, m :: m' :: M, _, _, h1, h2, h => by
    rw [intercalate_two, intercalate_two, List.append_assoc, List.append_assoc, List.cons_append, List.cons_append] at h
    obtain ⟨i1, i2⟩ := comma_split (h1 l (by simp)) (h2 m (by simp)) h
    rw [i1, intercalate_inj (by simp) (by simp) (fun x hx => h1 x (List.mem_cons_of_mem _ hx)) (fun x hx => h2 x (List.mem_cons_of_mem _ hx)) (List.append_cancel_left i2)]

/-- **C152 (what the text of a curve tells).** Two curves of the same class with the same representation have the same size, dimension and dtype, and numpy gives the same text for the shown part of their points. -/
theorem C152_curve_tells (name : List Char) (c c' : Curve α) (o : PrintOpts) {L L' : List (List Char)} (h : TidyText (F.two true 4 c.dtype (shown2 (curveOpts c.ndim o) c.rows c.ncols)) L)
    (h' : TidyText (F.two true 4 c'.dtype (shown2 (curveOpts c'.ndim o) c'.rows c'.ncols)) L') (he : (Curve.repr F name c o).1 = (Curve.repr F name c' o).1) :
    c.size = c'.size ∧ c.ndim = c'.ndim ∧ c.dtype = c'.dtype ∧ L = L' := by
  rw [C152_curve F name c o h, C152_curve F name c' o h'] at he
  have e1 := List.append_cancel_right he
  obtain ⟨e2, d1⟩ := field_split (t := " dtype=".toList) (by decide) (dtypeText_no _) (dtypeText_no _) e1
  obtain ⟨e3, d2⟩ := field_split (t := " ndim=".toList) (by decide) (digits_no (by decide) _) (digits_no (by decide) _) e2
  obtain ⟨e4, d3⟩ := field_split (t := " size=".toList) (by decide) (digits_no (by decide) _) (digits_no (by decide) _) e3
  have e5 := List.append_cancel_left e4
  exact ⟨natText_inj d3, natText_inj d2, dtypeText_inj d1, intercalate_inj h.some_line h'.some_line h.no_break h'.no_break e5⟩

/-- **C152 (the texts of points and segments).** With at most as many coordinates as the threshold, all coordinates are given to numpy, with a precision of four digits and small numbers suppressed; a point adds dimension and dtype, a
curve point and a curve segment the index. -/
theorem C152_point (name : List Char) (o : PrintOpts) :
    (∀ p : Point α, p.data.length ≤ o.threshold →
      (Point.repr F name p o).1 = name ++ "(".toList ++ F.one true 4 p.dtype (p.data.map some) ++ ", ndim=".toList ++ Nat.toDigits 10 p.data.length ++ ", dtype=".toList ++ p.dtype.text ++ ")".toList) ∧
    (∀ q : CurvePoint α, q.point.data.length ≤ o.threshold →
      (CurvePoint.repr F name q o).1 = name ++ "(".toList ++ F.one true 4 q.point.dtype (q.point.data.map some) ++ ", index=".toList ++ intText q.idx ++ ")".toList) ∧
    (∀ s : Segment α, s.p1.data.length ≤ o.threshold → s.p2.data.length ≤ o.threshold →
      (Segment.repr F name s o).1 = name ++ "(p1=".toList ++ F.one true 4 s.p1.dtype (s.p1.data.map some) ++ ", p2=".toList ++ F.one true 4 s.p2.dtype (s.p2.data.map some) ++ ")".toList) ∧
    (∀ (p q : Point α) (i : Int), p.data.length ≤ o.threshold → q.data.length ≤ o.threshold →
      (segmentRepr F name p q i o).1 = name ++ "(p1=".toList ++ F.one true 4 p.dtype (p.data.map some) ++ ", p2=".toList ++ F.one true 4 q.dtype (q.data.map some) ++ ", index=".toList ++ intText i ++ ")".toList) := by
  have e : ∀ p : Point α, p.data.length ≤ o.threshold → dataText F p (dataOpts o) = F.one true 4 p.dtype (p.data.map some) := by
    intro p hp
    have : shown1 (dataOpts o) p.data = p.data.map some := by
      unfold shown1 summarise
      rw [if_neg (fun h => by have h1 := of_decide_eq_true h.1; simp only [dataOpts] at h1; omega)]
    rw [dataText, this]
    rfl
  refine ⟨fun p hp => ?_, fun q hq => ?_, fun s h1 h2 => ?_, fun p q i h1 h2 => ?_⟩
  · simp [Point.repr, withOptions, e p hp, natText, Point.ndim]
  · simp [CurvePoint.repr, withOptions, e _ hq]
  · simp [Segment.repr, withOptions, e _ h1, e _ h2]
  · simp [segmentRepr, withOptions, e _ h1, e _ h2]

/-- **C152 (what the text of a point tells).** Two points of the same class with the same representation have the same dimension and dtype and the same text of numpy; two curve points the same index and the same text. -/
theorem C152_point_tells (name : List Char) (o : PrintOpts) :
    (∀ p p' : Point α, (Point.repr F name p o).1 = (Point.repr F name p' o).1 → p.ndim = p'.ndim ∧ p.dtype = p'.dtype ∧ dataText F p (dataOpts o) = dataText F p' (dataOpts o)) ∧
    (∀ q q' : CurvePoint α, (CurvePoint.repr F name q o).1 = (CurvePoint.repr F name q' o).1 → q.idx = q'.idx ∧ dataText F q.point (dataOpts o) = dataText F q'.point (dataOpts o)) := by
  constructor
  · intro p p' he
    have he : name ++ ('(' :: dataText F p (dataOpts o)) ++ ", ndim=".toList ++ natText p.ndim ++ ", dtype=".toList ++ p.dtype.text ++ [')'] =
      name ++ ('(' :: dataText F p' (dataOpts o)) ++ ", ndim=".toList ++ natText p'.ndim ++ ", dtype=".toList ++ p'.dtype.text ++ [')'] := by simpa [Point.repr, withOptions] using he
    have e1 := List.append_cancel_right he
    obtain ⟨e2, d1⟩ := field_split (t := " dtype=".toList) (by decide) (dtypeText_no _) (dtypeText_no _) e1
    obtain ⟨e3, d2⟩ := field_split (t := " ndim=".toList) (by decide) (digits_no (by decide) _) (digits_no (by decide) _) e2
    exact ⟨natText_inj d2, dtypeText_inj d1, (List.cons.inj (List.append_cancel_left e3)).2⟩
  · intro p p' he
    have he : name ++ ('(' :: dataText F p.point (dataOpts o)) ++ ", index=".toList ++ intText p.idx ++ [')'] =
      name ++ ('(' :: dataText F p'.point (dataOpts o)) ++ ", index=".toList ++ intText p'.idx ++ [')'] := by simpa [CurvePoint.repr, withOptions] using he
    have e1 := List.append_cancel_right he
    obtain ⟨e2, d1⟩ := field_split (t := " index=".toList) (by decide) (intText_no _) (intText_no _) e1
    exact ⟨intText_inj d1, (List.cons.inj (List.append_cancel_left e2)).2⟩

/-- **C152 (what the text of a segment tells).** If numpy's texts contain no comma, two segments of the same class with the same representation have the same texts of both end points, curve segments also the same
index. -/
theorem C152_segment_tells (name : List Char) (o : PrintOpts) (hF : ∀ p : Point α, ',' ∉ dataText F p (dataOpts o)) :
    (∀ s s' : Segment α, (Segment.repr F name s o).1 = (Segment.repr F name s' o).1 →
      dataText F s.p1 (dataOpts o) = dataText F s'.p1 (dataOpts o) ∧ dataText F s.p2 (dataOpts o) = dataText F s'.p2 (dataOpts o)) ∧
    (∀ (p q p' q' : Point α) (i i' : Int), (segmentRepr F name p q i o).1 = (segmentRepr F name p' q' i' o).1 →
      i = i' ∧ dataText F p (dataOpts o) = dataText F p' (dataOpts o) ∧ dataText F q (dataOpts o) = dataText F q' (dataOpts o)) := by
  constructor
  · intro s s' he
    have he : name ++ "(p1=".toList ++ dataText F s.p1 (dataOpts o) ++ ", p2=".toList ++ dataText F s.p2 (dataOpts o) ++ [')'] =
      name ++ "(p1=".toList ++ dataText F s'.p1 (dataOpts o) ++ ", p2=".toList ++ dataText F s'.p2 (dataOpts o) ++ [')'] := he
    obtain ⟨e2, d1⟩ := field_split (t := " p2=".toList) (by decide) (hF _) (hF _) (List.append_cancel_right he)
    exact ⟨List.append_cancel_left e2, d1⟩
  · intro p q p' q' i i' he
    have he : name ++ "(p1=".toList ++ dataText F p (dataOpts o) ++ ", p2=".toList ++ dataText F q (dataOpts o) ++ ", index=".toList ++ intText i ++ [')'] =
      name ++ "(p1=".toList ++ dataText F p' (dataOpts o) ++ ", p2=".toList ++ dataText F q' (dataOpts o) ++ ", index=".toList ++ intText i' ++ [')'] := he
    obtain ⟨e2, d1⟩ := field_split (t := " index=".toList) (by decide) (intText_no _) (intText_no _) (List.append_cancel_right he)
    obtain ⟨e3, d2⟩ := field_split (t := " p2=".toList) (by decide) (hF _) (hF _) e2
    exact ⟨intText_inj d1, List.append_cancel_left e3, d2⟩

/-- **C152 (what the text does not tell).** Curves that differ in a point that is neither among the first four nor the last four have the same representation if they have more than ten points, whatever numpy does;
so have curves that differ in their parameter values. -/
theorem C152_hidden_fails [Elem α] (name : List Char) (o : PrintOpts) {c c' : Curve α} (hc : WF c) (hd : c.dtype = c'.dtype) (hn : c.ncols = c'.ncols) (hs : c.size = c'.size) (h10 : 10 < c.size)
    (h1 : c.rows.take 4 = c'.rows.take 4) (h2 : c.rows.drop (c.size - 4) = c'.rows.drop (c.size - 4)) (hc' : WF c') : (Curve.repr F name c o).1 = (Curve.repr F name c' o).1 := by
  have e : shown2 (curveOpts c.ndim o) c.rows c.ncols = shown2 (curveOpts c'.ndim o) c'.rows c'.ncols := by
    have hpos : 0 < c.ncols := by have := hc.two_le; omega
    have hl : c.rows.length = c'.rows.length := hs
    have on : decide (10 * c'.ncols < c'.rows.length * c'.ncols) = true := by
      rw [decide_eq_true_iff]
      exact Nat.mul_lt_mul_of_pos_right (by rw [← hl]; exact h10) (by omega)
    have hsz : c.size = c.rows.length := rfl
    unfold shown2 curveOpts
    simp only [Curve.ndim, hn, hl]
    rw [summarise, if_pos ⟨on, by rw [List.length_map]; omega⟩, summarise, if_pos ⟨on, by rw [List.length_map]; omega⟩, List.length_map, List.length_map, ← List.map_take, ← List.map_take, ← List.map_drop,
      ← List.map_drop, h1, ← hl]
    rw [hsz] at h2
    rw [h2]
    rfl
  simp only [Curve.repr, withOptions, rowsText]
  have e' : shown2 (curveOpts c.ndim o) c.rows c.ncols = shown2 (curveOpts c.ndim o) c'.rows c'.ncols := by rw [e]; simp only [Curve.ndim, hn]
  rw [e', hs, hd]
  simp only [Curve.ndim, hn]

/-- **C152 (intersections).** The representation of an intersection consists of the name, the texts of the two segments and of the point and the name of the type; the type can be read off. -/
theorem C152_intersection (name s1 s2 p p' : List Char) (t t' : IType) :
    intersectionRepr name s1 s2 p t = name ++ "(".toList ++ s1 ++ ", ".toList ++ s2 ++ ", ".toList ++ p ++ ", type=".toList ++ t.text ++ ")".toList ∧
    (intersectionRepr name s1 s2 p t = intersectionRepr name s1 s2 p' t' → t = t' ∧ p = p') := by
  refine ⟨by simp [intersectionRepr], fun he => ?_⟩
  have he : (name ++ ('(' :: s1) ++ ", ".toList ++ s2 ++ ", ".toList) ++ p ++ ", type=".toList ++ t.text ++ [')'] =
    (name ++ ('(' :: s1) ++ ", ".toList ++ s2 ++ ", ".toList) ++ p' ++ ", type=".toList ++ t'.text ++ [')'] := by simpa [intersectionRepr] using he
  have no : ∀ t : IType, ',' ∉ t.text := by intro t; cases t <;> decide
  obtain ⟨e2, d1⟩ := field_split (t := " type=".toList) (by decide) (no _) (no _) (List.append_cancel_right he)
  refine ⟨?_, List.append_cancel_left e2⟩
  cases t <;> cases t' <;> first | rfl | (exfalso; revert d1; decide)

end

/-- A formatter like numpy's, for integers. -/
def exFmt : Fmt Int where
  one _ _ _ xs := '[' :: List.intercalate [' '] (xs.map fun x => match x with | some n => intText n | none => "...".toList) ++ [']']
  two _ _ _ rs := '[' :: List.intercalate "\n ".toList (rs.map fun r => match r with
    | some xs => '[' :: List.intercalate [' '] (xs.map fun x => match x with | some n => intText n | none => "...".toList) ++ [']']
    | none => "...".toList) ++ [']']

/-- `Curve([[1, 2], [3, -4]])`. -/
example (o : PrintOpts) : TidyText (exFmt.two true 4 .int (shown2 (curveOpts 2 o) [[1, 2], [3, -4]] 2)) ["[[1 2]".toList, " [3 -4]]".toList] ∧
    (Curve.repr exFmt "Curve".toList ⟨[[1, 2], [3, -4]], 2, none, .int⟩ o).1 = "Curve([[1 2]\n       [3 -4]], size=2, ndim=2, dtype=int64)".toList := by
  have t : TidyText (exFmt.two true 4 .int (shown2 (curveOpts 2 o) [[1, 2], [3, -4]] 2)) ["[[1 2]".toList, " [3 -4]]".toList] := by
    refine ⟨rfl, by decide, by decide, by decide, ?_, ?_⟩
    · rintro l c cs h rfl
      simp at h
      obtain ⟨rfl, -⟩ := h
      decide
    · rintro l cs c h rfl
      simp at h
      have := congrArg List.getLast? h
      simp at this
      subst this
      decide
  exact ⟨t, (C152_curve exFmt _ _ o t).trans (by decide)⟩

/-- Two curves of eleven points that differ in the sixth, the second one with parameter values. -/
example (F : Fmt ℚ) (o : PrintOpts) : (Curve.repr F "Curve".toList ⟨[[0, 0], [1, 0], [2, 0], [3, 0], [4, 0], [5, 0], [6, 0], [7, 0], [8, 0], [9, 0], [10, 0]], 2, none, .float⟩ o).1 =
    (Curve.repr F "Curve".toList ⟨[[0, 0], [1, 0], [2, 0], [3, 0], [4, 0], [5, 7], [6, 0], [7, 0], [8, 0], [9, 0], [10, 0]], 2, some [0, 1, 2, 3, 4, 5, 6, 7, 8, 9, 10], .float⟩ o).1 := by
  refine C152_hidden_fails F _ o ⟨by simp, by simp, by simp, by intro r _ x _; rfl⟩ rfl rfl rfl (by simp [Curve.size]) rfl rfl ⟨by simp, by simp, by simp, by intro r _ x _; rfl⟩

/-! ## Concrete cases -/

example (o o' : PrintOpts) := (C152_options exFmt "Curve".toList o o' ⟨[1, 2], .int⟩ ⟨⟨[1, 2], .int⟩, 0, ⟨[[1, 2], [3, -4]], 2, none, .int⟩, 0⟩ ⟨⟨[1, 2], .int⟩, ⟨[3, -4], .int⟩⟩ 0 ⟨[[1, 2], [3, -4]], 2, none, .int⟩).2.1
example (o : PrintOpts) := (C152_shown (α := ℚ) (c := ⟨[[1, 2], [3, -4]], 2, none, .float⟩) ⟨by simp, by simp, by simp, by intro r _ x _; rfl⟩ o).1 (by simp [Curve.size])
theorem exTidy (o : PrintOpts) : TidyText (exFmt.two true 4 .int (shown2 (curveOpts 2 o) [[1, 2], [3, -4]] 2)) ["[[1 2]".toList, " [3 -4]]".toList] := by
  refine ⟨rfl, by decide, by decide, by decide, ?_, ?_⟩
  · rintro l c cs h rfl
    simp at h
    obtain ⟨rfl, -⟩ := h
    decide
  · rintro l cs c h rfl
    simp at h
    have := congrArg List.getLast? h
    simp at this
    subst this
    decide
example (o : PrintOpts) := C152_curve_tells exFmt "Curve".toList ⟨[[1, 2], [3, -4]], 2, none, .int⟩ ⟨[[1, 2], [3, -4]], 2, some [5, 7], .int⟩ o (exTidy o) (exTidy o) rfl
example (o : PrintOpts) := (C152_point_tells exFmt "Point".toList o).1 ⟨[1, 2], .int⟩ ⟨[1, 2], .int⟩ rfl
example (o : PrintOpts) := (C152_segment_tells (α := Int) ⟨fun _ _ _ _ => "[]".toList, fun _ _ _ _ => "[]".toList⟩ "Segment".toList o (by intro p; simp [dataText])).2
example := (C152_intersection "SegmentsIntersection".toList "s".toList "r".toList "p".toList "p".toList .exact .exact).2 rfl
example (o : PrintOpts) (h : 2 ≤ o.threshold) := (C152_point exFmt "Point".toList o).1 ⟨[1, 2], .int⟩ h

end Verif.Props
