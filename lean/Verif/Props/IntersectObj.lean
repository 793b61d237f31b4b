import Verif.Model.IntersectObj
import Verif.Props.IntersectParts
import Verif.Props.SegmentObj
import Verif.Props.Registry
import Verif.Props.Select
import Verif.Props.Construct

/-!
`intersect` on objects (C114).
-/
namespace Verif.Spec

open Verif Verif.Model

/-- Coordinates are representable in the dtype. -/
def Representable (p : Point ℝ) : Prop := ∀ x ∈ p.data, p.dtype.cast x = x

/-- A segment or curve as the constructors make them. -/
def ProperObj : IObj → Prop
  | .segment s _ => ValidSeg s ∧ Representable s.p1 ∧ Representable s.p2
  | .curve c _ => WF c
  | .other _ => False

/-- The object has `n` coordinates and the coordinates, identity and dtype of `x`. -/
inductive Stands {n : Nat} : IObj → Obj n ℝ → Prop
  | segment (s : Segment ℝ) (x : SegObj n ℝ) (h1 : List.ofFn x.seg.p1 = s.p1.data) (h2 : List.ofFn x.seg.p2 = s.p2.data) :
      Stands (.segment s x.origin) (.seg x)
  | curve (c : Curve ℝ) (g : GCurve n ℝ) (hn : c.ncols = n) (h : g.data.map List.ofFn = c.rows) (hi : g.int = true ↔ c.dtype = .int) :
      Stands (.curve c g.cid) (.curve g)

/-- The parameter `name` has the value `v`: given as a keyword argument, or the default. -/
def HasValue (kw : IKwargs) (name : String) (dflt v : TolVal) : Prop := (name, v) ∈ kw ∨ (∀ w, (name, w) ∉ kw) ∧ v = dflt

/-- The parameters of the almost method are those of the keyword arguments: numbers, and truth values (0 is false, True is 1). -/
structure AlmostValues (kw : IKwargs) (p : AlmostParams) : Prop where
  dist : ∃ v, HasValue kw "dist_tol" (.num (1 / 10 ^ 5)) v ∧ (v = .num p.distTol ∨ ∃ b, v = .bool b ∧ p.distTol = if b then 1 else 0)
  extra : ∃ v, HasValue kw "extra_tol" (.num (1 / 10 ^ 3)) v ∧ (v = .num p.extraTol ∨ ∃ b, v = .bool b ∧ p.extraTol = if b then 1 else 0)
  par : ∃ v, HasValue kw "parallel_tol" (.num F_EPS) v ∧ (v = .num p.parTol ∨ ∃ b, v = .bool b ∧ p.parTol = if b then 1 else 0)
  remove : ∃ v, HasValue kw "remove_extra" (.bool false) v ∧ (v = .bool p.removeExtra ∨ ∃ x, v = .num x ∧ (p.removeExtra = true ↔ x ≠ 0))
  overlap : ∃ v, HasValue kw "correct_overlap" (.bool false) v ∧ (v = .bool p.correctOverlap ∨ ∃ x, v = .num x ∧ (p.correctOverlap = true ↔ x ≠ 0))

end Verif.Spec

namespace Verif.Props

open Verif Verif.Model Verif.Spec Verif.Np

theorem ofFn_rowVec {n : Nat} {l : List ℝ} (h : l.length = n) : List.ofFn (Model.rowVec n l) = l := by
  apply List.ext_getElem
  · simp [h]
  · intro i h1 h2
    simp [Model.rowVec, List.getD_eq_getElem?_getD, h2]

/-- Every proper object stands for something. -/
theorem stands_exists {o : IObj} (h : ProperObj o) : ∃ n, o.ndim? = some n ∧ ∃ x : Obj n ℝ, Stands o x := by
  cases o with
  | segment s g =>
    refine ⟨s.ndim, rfl, .seg (s.asObj s.ndim g), ?_⟩
    exact Stands.segment s (s.asObj s.ndim g) (ofFn_rowVec rfl) (ofFn_rowVec h.1.same.symm)
  | curve c i =>
    refine ⟨c.ncols, rfl, .curve (c.asG c.ncols i), ?_⟩
    refine Stands.curve c (c.asG c.ncols i) rfl ?_ (by simp [Curve.asG])
    unfold Curve.asG
    simp only [List.map_map]
    conv_rhs => rw [← List.map_id c.rows]
    apply List.map_congr_left
    intro r hr
    exact ofFn_rowVec ((show WF c from h).rect r hr)
  | other d => exact absurd h id

theorem map_rowVec {n : Nat} {vs : List (Vec n ℝ)} {rows : List (List ℝ)} (h : vs.map List.ofFn = rows) : rows.map (Model.rowVec n) = vs := by
  rw [← h, List.map_map]
  conv_rhs => rw [← List.map_id vs]
  apply List.map_congr_left
  intro v _
  exact rowVec_ofFn v

theorem stands_asG {n : Nat} {c : Curve ℝ} {g : GCurve n ℝ} (h : g.data.map List.ofFn = c.rows) (hi : g.int = true ↔ c.dtype = .int) :
    c.asG n g.cid = g := by
  obtain ⟨cid, int, data⟩ := g
  unfold Curve.asG
  simp only at h hi
  rw [map_rowVec h]
  congr 1
  cases int
  · simpa using hi
  · simpa using hi

theorem stands_asObj {n : Nat} {s : Segment ℝ} {x : SegObj n ℝ} (h1 : List.ofFn x.seg.p1 = s.p1.data) (h2 : List.ofFn x.seg.p2 = s.p2.data) :
    s.asObj n x.origin = x := by
  obtain ⟨⟨p, q⟩, o⟩ := x
  unfold Segment.asObj
  simp only at h1 h2
  rw [← h1, ← h2, rowVec_ofFn, rowVec_ofFn]

/-- The identities of curves. -/
def isCid (k : Nat) : IObj → Prop
  | .curve _ i => i = k
  | _ => False

/-- The call on objects is the call of the algorithms on what they stand for. -/
theorem call_eq (a : IAlg) {n : Nat} {o1 o2 : IObj} {x1 x2 : Obj n ℝ} (h1 : ProperObj o1) (h2 : ProperObj o2) (s1 : Stands o1 x1) (s2 : Stands o2 x2) :
    ∃ fresh int, ¬ isCid fresh o1 ∧ ¬ isCid fresh o2 ∧
      a.call o1 o2 = (methodCall (a.segs n) (a.curves n) fresh int x1 x2).map (Sigma.mk n) := by
  cases s1 with
  | segment s x e1 e2 =>
    have hn : s.ndim = n := by
      have := congrArg List.length e1
      simpa [Segment.ndim, Point.ndim] using this.symm
    subst hn
    cases s2 with
    | segment r y f1 f2 =>
      refine ⟨0, false, id, id, ?_⟩
      have hr : r.ndim = s.ndim := by
        have := congrArg List.length f1
        simpa [Segment.ndim, Point.ndim] using this.symm
      simp only [IAlg.call, hr, ne_eq, not_true_eq_false, if_false, stands_asObj e1 e2, stands_asObj f1 f2, methodCall, bind, Except.bind]
      cases a.segs s.ndim x y <;> rfl
    | curve d g hd f fi =>
      refine ⟨g.cid + 1, decide (s.p1.dtype = .int ∧ s.p2.dtype = .int), id, by simp [isCid], ?_⟩
      have hdn : d.ndim = s.ndim := hd
      have h2' : WF d := h2
      have hs2 : 2 ≤ s.p1.data.length := by have := h2'.two_le; rw [hd] at this; exact this
      obtain ⟨c, hc, hw, hr, ht, hcn, hi⟩ := (C112_toCurve h1.1 h1.2.1 h1.2.2).1 hs2
      have hG : c.asG s.ndim (g.cid + 1) = x.toCurve (g.cid + 1) (decide (s.p1.dtype = .int ∧ s.p2.dtype = .int)) := by
        unfold Curve.asG SegObj.toCurve
        rw [hr, ← e1, ← e2]
        simp only [List.map_cons, List.map_nil, rowVec_ofFn, hi]
      have hsz : c.size = 2 := by unfold Curve.size; rw [hr]; rfl
      have hdz : d.size = g.data.length := by unfold Curve.size; rw [← f, List.length_map]
      simp only [IAlg.call, hdn, ne_eq, not_true_eq_false, if_false, hc, bind, Except.bind, hsz, hdz, methodCall, hG, stands_asG f fi,
        stands_asObj e1 e2]
      by_cases h0 : g.data.length = 0
      · simp [h0, SegObj.toCurve]; rfl
      · simp only [h0, SegObj.toCurve, List.length_cons, List.length_nil, or_false, if_false]
        rw [if_neg (by decide), if_neg (by decide)]
        cases a.curves s.ndim _ g <;> rfl
  | curve c g hc e ei =>
    subst hc
    have h1' : WF c := h1
    have hcz : c.size = g.data.length := by unfold Curve.size; rw [← e, List.length_map]
    cases s2 with
    | segment r y f1 f2 =>
      refine ⟨g.cid + 1, decide (r.p1.dtype = .int ∧ r.p2.dtype = .int), by simp [isCid], id, ?_⟩
      have hr : r.ndim = c.ndim := by
        have := congrArg List.length f1
        simpa [Segment.ndim, Point.ndim, Curve.ndim] using this.symm
      have hs2 : 2 ≤ r.p1.data.length := by have := h1'.two_le; exact (show r.p1.data.length = c.ncols from hr) ▸ this
      obtain ⟨d, hd, hw, hrr, ht, hcn, hi⟩ := (C112_toCurve h2.1 h2.2.1 h2.2.2).1 hs2
      have hG : d.asG c.ndim (g.cid + 1) = y.toCurve (g.cid + 1) (decide (r.p1.dtype = .int ∧ r.p2.dtype = .int)) := by
        unfold Curve.asG SegObj.toCurve
        rw [hrr, ← f1, ← f2]
        simp only [List.map_cons, List.map_nil, Curve.ndim, rowVec_ofFn, hi]
      have hsz : d.size = 2 := by unfold Curve.size; rw [hrr]; rfl
      have eG : c.asG c.ndim g.cid = g := stands_asG e ei
      have eO : r.asObj c.ndim y.origin = y := stands_asObj f1 f2
      simp only [IAlg.call, hr, ne_eq, not_true_eq_false, if_false, hd, bind, Except.bind, hsz, hcz, methodCall, hG, eG, eO]
      by_cases h0 : g.data.length = 0
      · simp [h0]; rfl
      · simp only [h0, SegObj.toCurve, List.length_cons, List.length_nil, false_or, if_false]
        rw [if_neg (by decide), if_neg (by decide)]
        simp only [Curve.ndim]
        cases a.curves c.ncols g _ <;> rfl
    | curve d g' hd f fi =>
      refine ⟨max g.cid g'.cid + 1, false, by simp [isCid]; omega, by simp [isCid]; omega, ?_⟩
      have hdn : d.ndim = c.ndim := hd
      have hdz : d.size = g'.data.length := by unfold Curve.size; rw [← f, List.length_map]
      have eG : c.asG c.ndim g.cid = g := stands_asG e ei
      have eG' : d.asG c.ndim g'.cid = g' := stands_asG f fi
      simp only [IAlg.call, hdn, ne_eq, not_true_eq_false, if_false, hcz, hdz, bind, Except.bind, methodCall, eG, eG']
      by_cases h0 : g.data.length = 0 ∨ g'.data.length = 0
      · rw [if_pos h0, if_pos h0]; rfl
      · simp only [h0, if_false]
        simp only [Curve.ndim]
        cases a.curves c.ncols g g' <;> rfl

/-- **C114 (what the calls compute).** The call of either method on two proper objects with the same number of coordinates is the call of the
algorithm (to which C37 to C46, C93, C94 and C113 apply) on their coordinates, for a new identity for the curve made of a segment. -/
theorem C114_algorithms (feps : ℝ) (p : AlmostParams) (comps : Nat → (Nat → Nat → Bool) → List (List Nat)) {n : Nat} {o1 o2 : IObj} {x1 x2 : Obj n ℝ}
    (h1 : ProperObj o1) (h2 : ProperObj o2) (s1 : Stands o1 x1) (s2 : Stands o2 x2) :
    (∃ fresh int, ¬ isCid fresh o1 ∧ ¬ isCid fresh o2 ∧
      (exactAlg feps).call o1 o2 = (exactCall feps fresh int x1 x2).map (Sigma.mk n)) ∧
    (∃ fresh int, ¬ isCid fresh o1 ∧ ¬ isCid fresh o2 ∧
      (almostAlg comps p).call o1 o2 = (almostCall p comps fresh int x1 x2).map (Sigma.mk n)) :=
  ⟨call_eq (exactAlg feps) h1 h2 s1 s2, call_eq (almostAlg comps p) h1 h2 s1 s2⟩

/-- The object is a segment. -/
def isSegObj : IObj → Bool
  | .segment _ _ => true
  | _ => false

/-- **C114 (no failures).** Both methods, with any parameters, on two proper objects of the same dimension: a result, never an exception; one
intersection object for two segments, otherwise a list; the data of every intersection match its type, and a list has none of type NONE. -/
theorem C114_total (feps : ℝ) (p : AlmostParams) (comps : Nat → (Nat → Nat → Bool) → List (List Nat)) {o1 o2 : IObj} (h1 : ProperObj o1)
    (h2 : ProperObj o2) (hn : o1.ndim? = o2.ndim?) (a : IAlg) (ha : a = exactAlg feps ∨ a = almostAlg comps p) :
    ∃ n res, a.call o1 o2 = .ok ⟨n, res⟩ ∧ o1.ndim? = some n ∧ (∀ x ∈ Result.items res, Matches x.info) ∧
      ((isSegObj o1 = true ∧ isSegObj o2 = true) ↔ ∃ x, res = .single x) ∧ (∀ xs, res = .list xs → ∀ x ∈ xs, x.bool = true) := by
  obtain ⟨n, d1, x1, s1⟩ := stands_exists h1
  obtain ⟨n', d2, x2, s2⟩ := stands_exists h2
  obtain rfl : n = n' := by rw [d1, d2] at hn; injection hn
  have key : ∃ res fresh int, a.call o1 o2 = .ok ⟨n, res⟩ ∧ (exactCall feps fresh int x1 x2 = .ok res ∨ almostCall p comps fresh int x1 x2 = .ok res) ∧
      (∀ x ∈ Result.items res, Matches x.info) ∧ ∀ xs, res = .list xs → ∀ x ∈ xs, x.bool = true := by
    rcases ha with rfl | rfl
    · obtain ⟨⟨fresh, int, -, -, e⟩, -⟩ := C114_algorithms feps p comps h1 h2 s1 s2
      obtain ⟨res, hr, hm, hb⟩ := C46_results feps p comps fresh int x1 x2 _ (.inl rfl)
      exact ⟨res, fresh, int, by rw [e, hr]; rfl, .inl hr, hm, hb⟩
    · obtain ⟨-, fresh, int, -, -, e⟩ := C114_algorithms feps p comps h1 h2 s1 s2
      obtain ⟨res, hr, hm, hb⟩ := C46_results feps p comps fresh int x1 x2 _ (.inr rfl)
      exact ⟨res, fresh, int, by rw [e, hr]; rfl, .inr hr, hm, hb⟩
  obtain ⟨res, fresh, int, e, hr, hm, hb⟩ := key
  refine ⟨n, res, e, d1, hm, ?_, hb⟩
  have gen : ∀ (segs : SegObj n ℝ → SegObj n ℝ → Except PyErr (Info n ℝ)) (curves : GCurve n ℝ → GCurve n ℝ → Except PyErr (List (SegInt n ℝ))),
      methodCall segs curves fresh int x1 x2 = .ok res → ((isSegObj o1 = true ∧ isSegObj o2 = true) ↔ ∃ x, res = .single x) := by
    intro segs curves hc
    cases s1 with
    | segment s x e1 e2 =>
      cases s2 with
      | segment r y f1 f2 =>
        simp only [methodCall, bind, Except.bind] at hc
        split at hc
        · cases hc
        · injection hc with hc
          exact ⟨fun _ => ⟨_, hc.symm⟩, fun _ => ⟨rfl, rfl⟩⟩
      | curve d g hd f fi =>
        simp only [methodCall, bind, Except.bind] at hc
        refine ⟨fun h => absurd h.2 (by simp [isSegObj]), ?_⟩
        rintro ⟨z, rfl⟩
        split at hc
        · cases hc
        · split at hc <;> cases hc
    | curve c g hd f fi =>
      refine ⟨fun h => absurd h.1 (by simp [isSegObj]), ?_⟩
      rintro ⟨z, rfl⟩
      cases s2 with
      | segment r y f1 f2 =>
        simp only [methodCall, bind, Except.bind] at hc
        split at hc
        · cases hc
        · split at hc <;> cases hc
      | curve d g hd f fi =>
        simp only [methodCall, bind, Except.bind] at hc
        split at hc
        · cases hc
        · split at hc <;> cases hc
  rcases hr with hr | hr
  · exact gen _ _ hr
  · exact gen _ _ hr

theorem hasValue_get {kw : IKwargs} (hk : (kw.map Prod.fst).Nodup) {name : String} {dflt v : TolVal} :
    HasValue kw name dflt v ↔ kw.get name dflt = v := by
  unfold HasValue IKwargs.get
  induction kw with
  | nil => simp [eq_comm]
  | cons e es ih =>
    obtain ⟨k, w⟩ := e
    simp only [List.map_cons, List.nodup_cons, List.mem_map, Prod.exists, exists_and_right, exists_eq_right, not_exists] at hk
    by_cases h : k = name
    · subst h
      simp only [List.mem_cons, Prod.mk.injEq, true_and, List.find?_cons, beq_self_eq_true]
      constructor
      · rintro ((rfl | h1) | ⟨h1, _⟩)
        · rfl
        · exact absurd h1 (hk.1 v)
        · exact absurd (Or.inl rfl) (h1 w)
      · rintro rfl; exact .inl (.inl rfl)
    · have hb : (k == name) = false := by simpa using h
      have hn : ∀ u, ((name, u) = (k, w)) = False := by intro u; simp [Ne.symm h]
      simp only [List.mem_cons, hn, false_or, List.find?_cons, hb]
      exact ih hk.2

theorem acceptsOnly_iff (names : List String) (kw : IKwargs) : acceptsOnly names kw = true ↔ ∀ e ∈ kw, e.1 ∈ names := by
  simp [acceptsOnly]

/-- The built-in methods are found under their names after any history. -/
theorem builtin_classes (comps : Nat → (Nat → Nat → Bool) → List (List Nat)) (ops : List (RegOp (IClass IObj IKwargs IRes))) :
    getIntersectClass (objRegistry comps ops) "exact" = .ok exactClass ∧
    getIntersectClass (objRegistry comps ops) "almost" = .ok (almostClass comps) := by
  have h := (C49_intersect_history (importIntersect exactClass (almostClass comps)) ops).2.2.2.2.1
  exact ⟨h "exact" _ rfl, h "almost" _ rfl⟩

theorem proper_or_other (o : IObj) (h : ∀ d, o ≠ .other d) : isSegObj o = true ∨ ∃ c i, o = .curve c i := by
  cases o with
  | segment s g => exact .inl rfl
  | curve c i => exact .inr ⟨c, i, rfl⟩
  | other d => exact absurd rfl (h d)

theorem call_other (a : IAlg) {o1 o2 : IObj} (h : (∃ d, o1 = .other d) ∨ ∃ d, o2 = .other d) : a.call o1 o2 = .error .typeError := by
  rcases h with ⟨d, rfl⟩ | ⟨d, rfl⟩
  · cases o2 <;> rfl
  · cases o1 <;> rfl

/-- **C114 (errors before the method is chosen).** An argument without `ndim` is an AttributeError, arguments of different dimension a ValueError,
whatever the method; then an unknown name is a NameError and something that is neither a name nor a method object a ValueError. -/
theorem C114_arguments (comps : Nat → (Nat → Nat → Bool) → List (List Nat)) (ops : List (RegOp (IClass IObj IKwargs IRes))) (o1 o2 : IObj)
    (m : MethodArg IObj IRes) (kw : IKwargs) :
    (o1.ndim? = none ∨ o2.ndim? = none → intersectObjs (objRegistry comps ops) o1 o2 m kw = .error .attributeError) ∧
    (∀ d1 d2, o1.ndim? = some d1 → o2.ndim? = some d2 → d1 ≠ d2 → intersectObjs (objRegistry comps ops) o1 o2 m kw = .error .valueError) ∧
    (∀ d, o1.ndim? = some d → o2.ndim? = some d →
      (∀ s, s ∉ (objRegistry comps ops).names → intersectObjs (objRegistry comps ops) o1 o2 (.name s) kw = .error .nameError) ∧
      intersectObjs (objRegistry comps ops) o1 o2 .other kw = .error .valueError) := by
  refine ⟨?_, ?_, ?_⟩
  · intro h
    unfold intersectObjs intersectCall
    simp only [getNdim, HasNdim.ndim, bind, Except.bind]
    rcases h with h | h
    · rw [h]
    · rw [h]
      cases o1.ndim? <;> rfl
  · intro d1 d2 e1 e2 hd
    exact (C47_errors_partial (objRegistry comps ops) o1 o2 d1 d2 e1 e2 kw).1 hd m
  · intro d e1 e2
    have h := (C47_errors_partial (objRegistry comps ops) o1 o2 d d e1 e2 kw).2.1 rfl
    exact ⟨h.1, h.2.1⟩

theorem named_call {comps : Nat → (Nat → Nat → Bool) → List (List Nat)} {ops : List (RegOp (IClass IObj IKwargs IRes))} {o1 o2 : IObj} {d : Nat}
    (e1 : o1.ndim? = some d) (e2 : o2.ndim? = some d) (kw : IKwargs) {s : String} {cls : IClass IObj IKwargs IRes}
    (hc : getIntersectClass (objRegistry comps ops) s = .ok cls) :
    (∀ e, cls kw = .error e → intersectObjs (objRegistry comps ops) o1 o2 (.name s) kw = .error e) ∧
    (∀ m, cls kw = .ok m → intersectObjs (objRegistry comps ops) o1 o2 (.name s) kw = wrapErr .intersectionError (m o1 o2)) := by
  unfold intersectObjs intersectCall
  simp only [getNdim, HasNdim.ndim, e1, e2, bind, Except.bind, ne_eq, not_true_eq_false, if_false, resolveMethod, chooseMethod,
    getIntersectMethod, hc]
  exact ⟨fun e h => by rw [h], fun m h => by rw [h]⟩

/-- **C114 (exact).** `method='exact'` for two arguments of the same dimension, after any history of registrations: keyword arguments other than
`feps` are a TypeError; otherwise an argument that is neither segment nor curve is an IntersectionError, and two proper objects are intersected by
the exact method with the given tolerance, or the default, without an exception. -/
theorem C114_exact (comps : Nat → (Nat → Nat → Bool) → List (List Nat)) (ops : List (RegOp (IClass IObj IKwargs IRes))) (o1 o2 : IObj) (d : Nat)
    (e1 : o1.ndim? = some d) (e2 : o2.ndim? = some d) (kw : IKwargs) (hk : (kw.map Prod.fst).Nodup) :
    ((∃ e ∈ kw, e.1 ≠ "feps") → intersectObjs (objRegistry comps ops) o1 o2 (.name "exact") kw = .error .typeError) ∧
    ((∀ e ∈ kw, e.1 = "feps") →
      ((∃ d, o1 = .other d) ∨ (∃ d, o2 = .other d) → intersectObjs (objRegistry comps ops) o1 o2 (.name "exact") kw = .error .intersectionError) ∧
      (ProperObj o1 → ProperObj o2 → ∃ feps v res, HasValue kw "feps" (.num F_EPS) v ∧
        (v = .num feps ∨ ∃ b, v = .bool b ∧ feps = if b then 1 else 0) ∧ (exactAlg feps).call o1 o2 = .ok res ∧
        intersectObjs (objRegistry comps ops) o1 o2 (.name "exact") kw = .ok res)) := by
  have hb := (builtin_classes comps ops).1
  obtain ⟨herr, hok⟩ := named_call e1 e2 kw hb
  constructor
  · rintro ⟨e, he, hne⟩
    apply herr
    unfold exactClass
    rw [if_pos]
    rw [← Bool.not_eq_true, acceptsOnly_iff]
    intro h
    exact hne (by simpa using h e he)
  · intro h
    have hcls : exactClass kw = .ok (exactAlg (kw.get "feps" (.num F_EPS)).toNum).call := by
      unfold exactClass
      rw [if_neg]
      rw [Bool.not_eq_false, acceptsOnly_iff]
      intro e he
      simpa using h e he
    have := hok _ hcls
    refine ⟨fun ho => ?_, fun p1 p2 => ?_⟩
    · rw [this, call_other _ ho]; rfl
    · obtain ⟨n, res, hr, -⟩ := C114_total (kw.get "feps" (.num F_EPS)).toNum ⟨0, false, 0, false, 0⟩ comps p1 p2 (e1.trans e2.symm) _ (.inl rfl)
      refine ⟨_, _, _, (hasValue_get hk).2 rfl, ?_, hr, by rw [this, hr]; rfl⟩
      cases kw.get "feps" (.num F_EPS) with
      | num x => exact .inl rfl
      | bool b => exact .inr ⟨b, rfl, by cases b <;> rfl⟩

theorem num_value {kw : IKwargs} (hk : (kw.map Prod.fst).Nodup) (name : String) (dflt : TolVal) :
    ∃ v, HasValue kw name dflt v ∧ (v = .num (kw.get name dflt).toNum ∨ ∃ b, v = .bool b ∧ (kw.get name dflt).toNum = if b then 1 else 0) := by
  refine ⟨_, (hasValue_get hk).2 rfl, ?_⟩
  cases kw.get name dflt with
  | num x => exact .inl rfl
  | bool b => exact .inr ⟨b, rfl, by cases b <;> rfl⟩

theorem bool_value {kw : IKwargs} (hk : (kw.map Prod.fst).Nodup) (name : String) (dflt : TolVal) :
    ∃ v, HasValue kw name dflt v ∧ (v = .bool (kw.get name dflt).truth ∨ ∃ x, v = .num x ∧ ((kw.get name dflt).truth = true ↔ x ≠ 0)) := by
  refine ⟨_, (hasValue_get hk).2 rfl, ?_⟩
  cases kw.get name dflt with
  | num x => exact .inr ⟨x, rfl, by simp [TolVal.truth]⟩
  | bool b => exact .inl rfl

/-- The names of the parameters of the almost method. -/
def almostNames : List String := ["dist_tol", "remove_extra", "extra_tol", "correct_overlap", "parallel_tol"]

/-- **C114 (almost).** The same for `method='almost'` and its five parameters. -/
theorem C114_almost (comps : Nat → (Nat → Nat → Bool) → List (List Nat)) (ops : List (RegOp (IClass IObj IKwargs IRes))) (o1 o2 : IObj) (d : Nat)
    (e1 : o1.ndim? = some d) (e2 : o2.ndim? = some d) (kw : IKwargs) (hk : (kw.map Prod.fst).Nodup) :
    ((∃ e ∈ kw, e.1 ∉ almostNames) → intersectObjs (objRegistry comps ops) o1 o2 (.name "almost") kw = .error .typeError) ∧
    ((∀ e ∈ kw, e.1 ∈ almostNames) →
      ((∃ d, o1 = .other d) ∨ (∃ d, o2 = .other d) → intersectObjs (objRegistry comps ops) o1 o2 (.name "almost") kw = .error .intersectionError) ∧
      (ProperObj o1 → ProperObj o2 → ∃ p res, AlmostValues kw p ∧ (almostAlg comps p).call o1 o2 = .ok res ∧
        intersectObjs (objRegistry comps ops) o1 o2 (.name "almost") kw = .ok res)) := by
  have hb := (builtin_classes comps ops).2
  obtain ⟨herr, hok⟩ := named_call e1 e2 kw hb
  constructor
  · rintro ⟨e, he, hne⟩
    apply herr
    unfold almostClass
    rw [if_pos]
    rw [← Bool.not_eq_true, acceptsOnly_iff]
    exact fun h => hne (h e he)
  · intro h
    have hcls : almostClass comps kw = .ok (almostAlg comps (almostParams kw)).call := by
      unfold almostClass
      rw [if_neg]
      rw [Bool.not_eq_false, acceptsOnly_iff]
      exact h
    have := hok _ hcls
    refine ⟨fun ho => ?_, fun p1 p2 => ?_⟩
    · rw [this, call_other _ ho]; rfl
    · obtain ⟨n, res, hr, -⟩ := C114_total 0 (almostParams kw) comps p1 p2 (e1.trans e2.symm) _ (.inr rfl)
      exact ⟨almostParams kw, _, ⟨num_value hk _ _, num_value hk _ _, num_value hk _ _, bool_value hk _ _, bool_value hk _ _⟩, hr, by rw [this, hr]; rfl⟩

/-- **C114 (default, None, instances).** Without a method the default is used, which is `exact` after the import and as long as the default is not
changed. `curve.intersect()` is the intersection of the curve object with itself. A method object is used as it is, the keyword arguments are ignored. -/
theorem C114_defaults (comps : Nat → (Nat → Nat → Bool) → List (List Nat)) (ops : List (RegOp (IClass IObj IKwargs IRes))) (o1 o2 : IObj)
    (kw kw' : IKwargs) :
    (∀ s, (objRegistry comps ops).default = some s →
      intersectObjs (objRegistry comps ops) o1 o2 .none kw = intersectObjs (objRegistry comps ops) o1 o2 (.name s) kw) ∧
    ((∀ o ∈ ops, (∀ s, o ≠ .setDefault s) ∧ ∀ s c, o ≠ .register s c true) → (objRegistry comps ops).default = some "exact") ∧
    (∀ m, intersectObjs (objRegistry comps ops) o1 o2 (.inst m) kw = intersectObjs (objRegistry comps ops) o1 o2 (.inst m) kw') ∧
    (∀ (c : Curve ℝ) (cid : Nat) m, c.intersect (objRegistry comps ops) cid none m kw = c.intersect (objRegistry comps ops) cid (some (.curve c cid)) m kw) := by
  refine ⟨?_, ?_, fun m => rfl, fun c cid m => rfl⟩
  · intro s hs
    unfold intersectObjs intersectCall
    simp only [resolveMethod, hs]
  · intro h
    unfold objRegistry
    generalize hr : (importIntersect exactClass (almostClass comps)).foldl stepIntersect Reg.empty = r
    have h0 : r.default = some "exact" := by rw [← hr]; rfl
    clear hr
    induction ops generalizing r with
    | nil => exact h0
    | cons o ops ih =>
      rw [List.foldl_cons]
      refine ih (fun o ho => h o (List.mem_cons_of_mem _ ho)) _ ?_
      obtain ⟨h1, h2⟩ := h o (List.mem_cons_self)
      cases o with
      | setDefault s => exact absurd rfl (h1 s)
      | lookup s => exact h0
      | list => exact h0
      | register s c dflt =>
        cases dflt with
        | true => exact absurd rfl (h2 s c)
        | false =>
          unfold stepIntersect registerIntersect
          simp only [Bool.false_eq_true, if_false]
          split_ifs
          · exact h0
          · exact h0
          · unfold Reg.setItem
            split_ifs <;> exact h0

/-- The segments of a curve object in results: the object made by `CurveSegment` for the index (Model/ArcLen). -/
def IsSegmentOf {n : Nat} (x : SegObj n ℝ) (c : Curve ℝ) (cid i : Nat) : Prop :=
  x.origin = some (cid, i) ∧ ∃ s, CurveSegment.init c cid i = .ok s ∧ List.ofFn x.seg.p1 = s.p1.point.data ∧ List.ofFn x.seg.p2 = s.p2.point.data

theorem isSegmentOf_of {n : Nat} {c : Curve ℝ} {g : GCurve n ℝ} (h : g.data.map List.ofFn = c.rows) {i : Nat} (hi : i + 1 < g.data.length) :
    IsSegmentOf (g.segment i) c g.cid i := by
  have hrow : ∀ k (hk : k < g.data.length), c.rows[k]? = some (List.ofFn g.data[k]) := by
    intro k hk
    rw [← h, List.getElem?_map, List.getElem?_eq_getElem hk]
    rfl
  refine ⟨rfl, _, cseg_nat (hrow i (by omega)) (hrow (i + 1) hi), ?_, ?_⟩
  · rw [point_init_float, segment_eq g i hi]
  · rw [point_init_float, segment_eq g i hi]

/-- The segment objects in a result belong to the argument: the given segment itself, or a segment of the given curve. -/
def Belongs {n : Nat} (x : SegObj n ℝ) : IObj → Prop
  | .segment s g => x.origin = g ∧ List.ofFn x.seg.p1 = s.p1.data ∧ List.ofFn x.seg.p2 = s.p2.data
  | .curve c cid => ∃ i, i + 1 < c.size ∧ IsSegmentOf x c cid i
  | .other _ => False

theorem items_belong {n : Nat} {segs : SegObj n ℝ → SegObj n ℝ → Except PyErr (Info n ℝ)}
    {curves : GCurve n ℝ → GCurve n ℝ → Except PyErr (List (SegInt n ℝ))} {fresh : Nat} {int : Bool} {o1 o2 : IObj} {x1 x2 : Obj n ℝ}
    (s1 : Stands o1 x1) (s2 : Stands o2 x2) (f1 : ¬ isCid fresh o1) (f2 : ¬ isCid fresh o2)
    (hid : ∀ c d k, o1 = .curve c k → o2 = .curve d k → c = d)
    (hx : ∀ c d xs, (d.cid = c.cid → d = c) → curves c d = .ok xs → ∀ x ∈ xs, ∃ i j, i + 1 < c.data.length ∧ j + 1 < d.data.length ∧
      x.seg1 = c.segment i ∧ x.seg2 = d.segment j) {res : Result n ℝ} (hres : methodCall segs curves fresh int x1 x2 = .ok res) :
    ∀ x ∈ Result.items res, Belongs x.seg1 o1 ∧ Belongs x.seg2 o2 := by
  cases s1 with
  | segment s y e1 e2 =>
    cases s2 with
    | segment r z e3 e4 =>
      simp only [methodCall, bind, Except.bind] at hres
      split at hres
      · cases hres
      · injection hres with hres
        subst hres
        intro x hxm
        simp only [Result.items, List.mem_singleton] at hxm
        subst hxm
        exact ⟨⟨rfl, e1, e2⟩, rfl, e3, e4⟩
    | curve d g hd f fi =>
      have hne : g.cid ≠ fresh := f2
      simp only [methodCall, bind, Except.bind] at hres
      split at hres
      · injection hres with hres; subst hres
        intro x hxm; simp [Result.items] at hxm
      · split at hres
        · cases hres
        · rename_i xs hxs
          injection hres with hres
          subst hres
          intro x hxm
          simp only [Result.items, List.mem_map] at hxm
          obtain ⟨w, hw, rfl⟩ := hxm
          obtain ⟨i, j, hi, hj, -, k2⟩ := hx _ _ _ (fun e => absurd e hne) hxs w hw
          refine ⟨⟨rfl, e1, e2⟩, j, ?_, ?_⟩
          · unfold Curve.size; rw [← f, List.length_map]; exact hj
          · show IsSegmentOf w.seg2 d g.cid j
            rw [k2]
            exact isSegmentOf_of f hj
  | curve c g hc e ei =>
    cases s2 with
    | segment r z e3 e4 =>
      have hne : g.cid ≠ fresh := f1
      simp only [methodCall, bind, Except.bind] at hres
      split at hres
      · injection hres with hres; subst hres
        intro x hxm; simp [Result.items] at hxm
      · split at hres
        · cases hres
        · rename_i xs hxs
          injection hres with hres
          subst hres
          intro x hxm
          simp only [Result.items, List.mem_map] at hxm
          obtain ⟨w, hw, rfl⟩ := hxm
          obtain ⟨i, j, hi, hj, k1, -⟩ := hx _ _ _ (fun e => absurd e.symm hne) hxs w hw
          refine ⟨⟨i, ?_, ?_⟩, rfl, e3, e4⟩
          · unfold Curve.size; rw [← e, List.length_map]; exact hi
          · show IsSegmentOf w.seg1 c g.cid i
            rw [k1]
            exact isSegmentOf_of e hi
    | curve d g' hd f fi =>
      have hsame : g'.cid = g.cid → g' = g := by
        intro hc
        have hcd := hid c d g.cid rfl (by rw [hc])
        subst hcd
        have a1 := stands_asG e ei
        have a2 := stands_asG f fi
        rw [← a1, ← a2, hc]
      simp only [methodCall, bind, Except.bind] at hres
      split at hres
      · injection hres with hres; subst hres
        intro x hxm; simp [Result.items] at hxm
      · split at hres
        · cases hres
        · rename_i xs hxs
          injection hres with hres
          subst hres
          intro x hxm
          obtain ⟨i, j, hi, hj, k1, k2⟩ := hx _ _ _ hsame hxs x hxm
          refine ⟨⟨i, ?_, ?_⟩, j, ?_, ?_⟩
          · unfold Curve.size; rw [← e, List.length_map]; exact hi
          · rw [k1]; exact isSegmentOf_of e hi
          · unfold Curve.size; rw [← f, List.length_map]; exact hj
          · rw [k2]; exact isSegmentOf_of f hj

/-- **C114 (named segments).** In every result of either method the first segment belongs to the first argument and the second to the second: it is the
given segment object, or a segment of the given curve, with its index. (Curves with one identity are the same curve.) -/
theorem C114_named (feps : ℝ) (p : AlmostParams) (comps : Nat → (Nat → Nat → Bool) → List (List Nat)) {o1 o2 : IObj} (h1 : ProperObj o1)
    (h2 : ProperObj o2) (hid : ∀ c d k, o1 = .curve c k → o2 = .curve d k → c = d) (a : IAlg) (ha : a = exactAlg feps ∨ a = almostAlg comps p)
    {n : Nat} {res : Result n ℝ} (hres : a.call o1 o2 = .ok ⟨n, res⟩) : ∀ x ∈ Result.items res, Belongs x.seg1 o1 ∧ Belongs x.seg2 o2 := by
  obtain ⟨m, d1, x1, s1⟩ := stands_exists h1
  obtain ⟨m', d2, x2, s2⟩ := stands_exists h2
  by_cases hm : m = m'
  · subst hm
    rcases ha with rfl | rfl
    · obtain ⟨⟨fresh, int, f1, f2, e⟩, -⟩ := C114_algorithms feps p comps h1 h2 s1 s2
      rw [e] at hres
      cases hr : exactCall feps fresh int x1 x2 with
      | error er => rw [hr] at hres; cases hres
      | ok r =>
        rw [hr] at hres
        cases hres
        refine items_belong s1 s2 f1 f2 hid ?_ hr
        intro c d xs hcd hxs x hx
        obtain ⟨info, -, he⟩ := exactCurves_spec feps c d
        rw [he] at hxs
        injection hxs with hxs
        subst hxs
        obtain ⟨q, hq, rfl⟩ := List.mem_map.1 hx
        obtain ⟨b1, b2, -⟩ := mem_bboxPairs (List.mem_of_mem_filter hq) hcd
        exact ⟨q.1, q.2, b1, b2, rfl, rfl⟩
    · obtain ⟨-, fresh, int, f1, f2, e⟩ := C114_algorithms feps p comps h1 h2 s1 s2
      rw [e] at hres
      cases hr : almostCall p comps fresh int x1 x2 with
      | error er => rw [hr] at hres; cases hres
      | ok r =>
        rw [hr] at hres
        cases hres
        refine items_belong s1 s2 f1 f2 hid ?_ hr
        intro c d xs hcd hxs x hx
        obtain ⟨ys, hys, -, hy⟩ := almostCurves_ok p comps c d
        rw [hys] at hxs
        injection hxs with hxs
        subst hxs
        exact (hy x hx).2.2
  · exfalso
    have : ∀ a : IAlg, a.call o1 o2 = .error .valueError := by
      intro a
      cases o1 with
      | other => exact absurd h1 id
      | segment s g =>
        cases o2 with
        | other => exact absurd h2 id
        | segment r h =>
          have : s.ndim ≠ r.ndim := by intro e; simp only [IObj.ndim?, Option.some.injEq] at d1 d2; omega
          simp [IAlg.call, this]
        | curve d j =>
          have : s.ndim ≠ d.ndim := by intro e; simp only [IObj.ndim?, Option.some.injEq] at d1 d2; omega
          simp [IAlg.call, this]
      | curve c i =>
        cases o2 with
        | other => exact absurd h2 id
        | segment r h =>
          have : c.ndim ≠ r.ndim := by intro e; simp only [IObj.ndim?, Option.some.injEq] at d1 d2; omega
          simp [IAlg.call, this]
        | curve d j =>
          have : c.ndim ≠ d.ndim := by intro e; simp only [IObj.ndim?, Option.some.injEq] at d1 d2; omega
          simp [IAlg.call, this]
    rw [this a] at hres
    cases hres

/-- A non-empty slice `c[a:b]` as a part. -/
theorem slice_part {c c' : Curve ℝ} (hc : WF c) {a b : Nat} (h : c.getSub (.slice ⟨some a, some b, none⟩) = .ok c') (hne : c'.size ≠ 0) (i i' : Nat) :
    WF c' ∧ c'.ncols = c.ncols ∧ c'.dtype = c.dtype ∧ PartOf (c'.asG c.ncols i') (c.asG c.ncols i) a := by
  obtain ⟨e, e1, e2, -⟩ := C07_plain hc a b
  obtain ⟨e', ks, e3, e4, -⟩ := C07_slice hc ⟨some (a : Int), some (b : Int), none⟩ (by simp)
  rw [h] at e1 e3
  injection e1 with e1
  injection e3 with e3
  subst e1
  subst e3
  have hk : ks ≠ [] := by
    rintro rfl
    have := e4.points
    unfold Picks at this
    simp only [List.map_nil, List.map_eq_nil_iff] at this
    exact hne (by simp [Curve.size, this])
  refine ⟨getSub_WF h, e4.ndim hk, e4.dtype, ?_⟩
  have hlen : c'.rows.length = min b c.rows.length - a := by rw [e2]; simp
  have hpos : c'.rows.length ≠ 0 := hne
  constructor
  · simp only [Curve.asG, List.length_map]; omega
  · intro k hk
    simp only [Curve.asG, List.length_map] at hk ⊢
    simp only [List.getElem?_map, e2, List.getElem?_drop, List.getElem?_take]
    rw [if_pos (by omega)]

theorem asG_stands {c : Curve ℝ} (hc : WF c) {n : Nat} (hn : c.ncols = n) (i : Nat) : Stands (.curve c i) (.curve (c.asG n i)) := by
  subst hn
  refine Stands.curve c (c.asG c.ncols i) rfl ?_ (by simp [Curve.asG])
  unfold Curve.asG
  simp only [List.map_map]
  conv_rhs => rw [← List.map_id c.rows]
  apply List.map_congr_left
  intro r hr
  exact ofFn_rowVec (hc.rect r hr)

theorem exact_fresh (feps : ℝ) {n : Nat} (f f' : Nat) (int int' : Bool) (c d : GCurve n ℝ) :
    exactCall feps f int (.curve c) (.curve d) = exactCall feps f' int' (.curve c) (.curve d) := rfl

/-- **C114 (slices).** `c[a:b]` and `d[e:f]`, not empty, of two different curves: the exact method lists the intersections of `c` and `d` between segments
of the slices, in the same order, with the same intersection object; the same for `c[a:b]` with itself; and for the almost method without `remove_extra`. -/
theorem C114_slices (A : IAlg) (feps : ℝ) (p : AlmostParams) (hp : p.removeExtra = false) (comps : Nat → (Nat → Nat → Bool) → List (List Nat))
    (hA : A = exactAlg feps ∨ A = almostAlg comps p) {c d c' d' : Curve ℝ} (hc : WF c) (hd : WF d) (hcd : d.ncols = c.ncols) {a b e f : Nat}
    (h1 : c.getSub (.slice ⟨some a, some b, none⟩) = .ok c') (h2 : d.getSub (.slice ⟨some e, some f, none⟩) = .ok d') (n1 : c'.size ≠ 0) (n2 : d'.size ≠ 0)
    (i j i' j' : Nat) :
    (i ≠ j → i' ≠ j' → ∃ (idx : List (Nat × Nat)) (info : Nat → Nat → Info c.ncols ℝ),
      A.call (.curve c i) (.curve d j) = .ok ⟨c.ncols, .list (idx.map fun q =>
        ⟨(c.asG c.ncols i).segment q.1, (d.asG c.ncols j).segment q.2, info q.1 q.2⟩)⟩ ∧
      A.call (.curve c' i') (.curve d' j') = .ok ⟨c.ncols, .list ((idx.filter fun q =>
        decide (a ≤ q.1 ∧ q.1 + 1 < a + c'.size ∧ e ≤ q.2 ∧ q.2 + 1 < e + d'.size)).map fun q =>
        ⟨(c'.asG c.ncols i').segment (q.1 - a), (d'.asG c.ncols j').segment (q.2 - e), info q.1 q.2⟩)⟩) ∧
    (∃ (idx : List (Nat × Nat)) (info : Nat → Nat → Info c.ncols ℝ),
      A.call (.curve c i) (.curve c i) = .ok ⟨c.ncols, .list (idx.map fun q =>
        ⟨(c.asG c.ncols i).segment q.1, (c.asG c.ncols i).segment q.2, info q.1 q.2⟩)⟩ ∧
      A.call (.curve c' i') (.curve c' i') = .ok ⟨c.ncols, .list ((idx.filter fun q =>
        decide (a ≤ q.1 ∧ q.1 + 1 < a + c'.size ∧ a ≤ q.2 ∧ q.2 + 1 < a + c'.size)).map fun q =>
        ⟨(c'.asG c.ncols i').segment (q.1 - a), (c'.asG c.ncols i').segment (q.2 - a), info q.1 q.2⟩)⟩) := by
  obtain ⟨w1, m1, t1, q1⟩ := slice_part hc h1 n1 i i'
  obtain ⟨w2, m2, t2, q2⟩ := slice_part hd h2 n2 j j'
  rw [hcd] at q2
  have hs1 := asG_stands hc rfl i
  have hs2 := asG_stands hd hcd j
  have hs1' := asG_stands w1 m1 i'
  have hs2' := asG_stands w2 (m2.trans hcd) j'
  have l1 : (c'.asG c.ncols i').data.length = c'.size := by simp [Curve.asG, Curve.size]
  have l2 : (d'.asG c.ncols j').data.length = d'.size := by simp [Curve.asG, Curve.size]
  have int1 : (c'.asG c.ncols i').int = (c.asG c.ncols i).int := by simp [Curve.asG, t1]
  have int2 : (d'.asG c.ncols j').int = (d.asG c.ncols j).int := by simp [Curve.asG, t2]
  rcases hA with rfl | rfl
  · constructor
    · intro hij hij'
      obtain ⟨⟨fr, int, -, -, k1⟩, -⟩ := C114_algorithms (o1 := .curve c i) (o2 := .curve d j) feps p comps hc hd hs1 hs2
      obtain ⟨⟨fr', int', -, -, k2⟩, -⟩ := C114_algorithms (o1 := .curve c' i') (o2 := .curve d' j') feps p comps w1 w2 hs1' hs2'
      obtain ⟨idx, info, r1, r2⟩ := C113_parts feps fr int _ _ _ _ a e q1 q2 (Ne.symm hij) (Ne.symm hij')
      rw [l1, l2] at r2
      exact ⟨idx, info, by rw [k1, r1]; rfl, by rw [k2, exact_fresh feps fr' fr int' int, r2]; rfl⟩
    · obtain ⟨⟨fr, int, -, -, k1⟩, -⟩ := C114_algorithms (o1 := .curve c i) (o2 := .curve c i) feps p comps hc hc hs1 hs1
      obtain ⟨⟨fr', int', -, -, k2⟩, -⟩ := C114_algorithms (o1 := .curve c' i') (o2 := .curve c' i') feps p comps w1 w1 hs1' hs1'
      obtain ⟨idx, info, r1, r2⟩ := C113_self feps fr int _ _ a q1
      rw [l1] at r2
      exact ⟨idx, info, by rw [k1, r1]; rfl, by rw [k2, exact_fresh feps fr' fr int' int, r2]; rfl⟩
  · constructor
    · intro hij hij'
      obtain ⟨-, fr, int, -, -, k1⟩ := C114_algorithms (o1 := .curve c i) (o2 := .curve d j) feps p comps hc hd hs1 hs2
      obtain ⟨-, fr', int', -, -, k2⟩ := C114_algorithms (o1 := .curve c' i') (o2 := .curve d' j') feps p comps w1 w2 hs1' hs2'
      obtain ⟨idx, info, r1, r2⟩ := (C113_almost_partial p hp comps fr int).1 _ _ _ _ a e q1 q2 int1 int2 hij hij'
      rw [l1, l2] at r2
      have r2' : almostCall p comps fr' int' (.curve (c'.asG c.ncols i')) (.curve (d'.asG c.ncols j')) = _ := r2
      exact ⟨idx, info, by rw [k1, r1]; rfl, by rw [k2, r2']; rfl⟩
    · obtain ⟨-, fr, int, -, -, k1⟩ := C114_algorithms (o1 := .curve c i) (o2 := .curve c i) feps p comps hc hc hs1 hs1
      obtain ⟨-, fr', int', -, -, k2⟩ := C114_algorithms (o1 := .curve c' i') (o2 := .curve c' i') feps p comps w1 w1 hs1' hs1'
      obtain ⟨idx, info, r1, r2⟩ := (C113_almost_partial p hp comps fr int).2 _ _ a q1 int1
      rw [l1] at r2
      have r2' : almostCall p comps fr' int' (.curve (c'.asG c.ncols i')) (.curve (c'.asG c.ncols i')) = _ := r2
      exact ⟨idx, info, by rw [k1, r1]; rfl, by rw [k2, r2']; rfl⟩

/-- A curve in space. -/
def spaceCurve : Curve ℝ := ⟨[[0, 0, 0], [1, 0, 0], [1, 1, 1]], 3, none, .float⟩

/-- **C114 violated (empty slices).** An empty slice of a curve in space has two dimensions (C05): intersecting it with the curve is a ValueError, not an
empty list. In the plane the list is empty. -/
theorem C114_empty_fails (comps : Nat → (Nat → Nat → Bool) → List (List Nat)) (m : MethodArg IObj IRes) (kw : IKwargs) :
    (∃ c', spaceCurve.getSub (.slice ⟨some 0, some 0, none⟩) = .ok c' ∧ c'.rows = [] ∧
      spaceCurve.intersect (objRegistry comps []) 0 (some (.curve c' 1)) m kw = .error .valueError) ∧
    (∀ (c c' : Curve ℝ), WF c → c.ncols = 2 → c.getSub (.slice ⟨some 0, some 0, none⟩) = .ok c' →
      c.intersect (objRegistry comps []) 0 (some (.curve c' 1)) (.name "exact") [] = .ok ⟨2, .list []⟩) := by
  have hw : WF spaceCurve := ⟨by decide, by simp [spaceCurve], by simp [spaceCurve], by intro r _ x _; rfl⟩
  constructor
  · obtain ⟨c', h1, h2, -⟩ := C07_plain hw 0 0
    refine ⟨c', h1, by simpa using h2, ?_⟩
    have hn : c'.ncols = 2 := by
      have e : spaceCurve.getSub (.slice ⟨some (0 : Nat), some (0 : Nat), none⟩) = .ok ⟨[], 2, none, .float⟩ := rfl
      rw [h1] at e
      injection e with e
      rw [e]
    exact (C114_arguments comps [] (.curve spaceCurve 0) (.curve c' 1) m kw).2.1 3 2 rfl (by show some c'.ncols = _; rw [hn]) (by decide)
  · intro c c' hc hn h
    obtain ⟨d, h1, h2, h3⟩ := C07_plain hc 0 0
    have h1' : c.getSub (.slice ⟨some 0, some 0, none⟩) = .ok d := h1
    rw [h] at h1'
    injection h1' with h1'
    subst h1'
    have hw' : WF c' := getSub_WF h
    have hr : c'.rows = [] := by simpa using h2
    have hn' : c'.ncols = 2 := by
      have e := getSub_eq hc (.slice ⟨some 0, some 0, none⟩)
      rw [h] at e
      split at e
      · cases e
      · injection e with e
        rw [e]
        simp [hn]
    have hb := (builtin_classes comps []).1
    have hcall := (named_call (o1 := .curve c 0) (o2 := .curve c' 1) (d := 2) (by show some c.ncols = _; rw [hn]) (by show some c'.ncols = _; rw [hn']) [] hb).2 _ rfl
    refine hcall.trans ?_
    have hnd : c.ndim = 2 := hn
    have hnd' : c'.ndim = 2 := hn'
    have h0 : ∀ A : IAlg, A.call (.curve c 0) (.curve c' 1) = .ok ⟨c.ndim, .list []⟩ := by
      intro A
      simp only [IAlg.call]
      rw [if_neg (by rw [hnd, hnd']; simp), if_pos (by simp [Curve.size, hr])]
    rw [h0, hnd]
    rfl

/-- **C114 violated (names of the classes).** A registered class or function is found in the registry, but the name it was defined with is bound to None, so
that calling it (`ExactIntersectionMethod(feps=...)`) is a TypeError. -/
theorem C114_class_fails {P M : Type} (r : Reg (P → Except PyErr M)) (name : String) (f : P → Except PyErr M) (dflt : Bool) (hn : name ∉ r.names) (kw : P) :
    ∃ r' att, decorated (fun r name c => registerIntersect r name c dflt) r name ⟨f, true⟩ = (r', .ok att) ∧
      getIntersectClass r' name = .ok f ∧ att.call kw = .error .typeError := by
  have hf : r.has name = false := (has_false_iff r name).2 hn
  have hset := setItem_new hf f
  have hnone : r.entries.find? (fun e => e.1 == name) = none := by
    rw [List.find?_eq_none]
    intro e he
    have : e.1 ≠ name := by rintro rfl; exact hn (List.mem_map_of_mem he)
    simpa using this
  have hhas : (⟨r.entries ++ [(name, f)], r.default⟩ : Reg (P → Except PyErr M)).has name = true := by simp [Reg.has]
  have hget : ∀ d, getIntersectClass ⟨r.entries ++ [(name, f)], d⟩ name = .ok f := by
    intro d
    unfold getIntersectClass
    rw [lookup_spec]
    simp [hnone]
  cases dflt with
  | false =>
    refine ⟨⟨r.entries ++ [(name, f)], r.default⟩, .none, ?_, hget _, rfl⟩
    unfold decorated registerIntersect
    simp only [hf, hset, Bool.false_eq_true, if_false]
    simp [Except.map]
  | true =>
    refine ⟨⟨r.entries ++ [(name, f)], some name⟩, .none, ?_, hget _, rfl⟩
    unfold decorated registerIntersect setDefaultIntersect
    simp only [hf, hset, hhas]
    simp [Except.map]

/-- Two crossing segments in the plane, a curve and a point: proper objects of the same dimension, and arguments that are refused. -/
example : ProperObj (.segment ⟨⟨[0, 0], .int⟩, ⟨[2, 2], .float⟩⟩ none) ∧ ProperObj (.curve ⟨[[0, 2], [2, 0]], 2, none, .float⟩ 5) ∧
    (IObj.segment ⟨⟨[0, 0], .int⟩, ⟨[2, 2], .float⟩⟩ none).ndim? = (IObj.curve ⟨[[0, 2], [2, 0]], 2, none, .float⟩ 5).ndim? ∧
    ¬ ProperObj (.other (some 2)) := by
  refine ⟨⟨⟨by simp, rfl⟩, ?_, fun _ _ => rfl⟩, ⟨by decide, by simp, by simp, by intro r _ x _; rfl⟩, rfl, id⟩
  intro x hx
  simp only [List.mem_cons, List.not_mem_nil, or_false, or_self] at hx
  subst hx
  exact Elem.trunc_zero

example : HasValue [("feps", .bool true)] "feps" (.num F_EPS) (.bool true) ∧ HasValue [] "feps" (.num F_EPS) (.num F_EPS) :=
  ⟨.inl (by simp), .inr ⟨by simp, rfl⟩⟩

/-- A slice that is not empty. -/
example : ∃ c', spaceCurve.getSub (.slice ⟨some (1 : Nat), some (3 : Nat), none⟩) = .ok c' ∧ c'.size ≠ 0 := by
  obtain ⟨c', h1, h2, -⟩ := C07_plain (c := spaceCurve) ⟨by decide, by simp [spaceCurve], by simp [spaceCurve], by intro r _ x _; rfl⟩ 1 3
  exact ⟨c', h1, by simp [Curve.size, h2, spaceCurve]⟩

/-! ## Concrete cases -/

/-- The diagonal of a square as a segment, and the other diagonal as a curve. -/
abbrev exDiag : IObj := .segment ⟨⟨[0, 0], .float⟩, ⟨[2, 2], .float⟩⟩ none
abbrev exDiag' : IObj := .curve ⟨[[0, 2], [2, 0]], 2, none, .float⟩ 5
theorem exDiag_proper : ProperObj exDiag := ⟨⟨by simp, rfl⟩, fun _ _ => rfl, fun _ _ => rfl⟩
theorem exDiag'_proper : ProperObj exDiag' := ⟨by decide, by simp, by simp, by intro r _ x _; rfl⟩

theorem exDiag_stands : Stands (n := 2) exDiag (.seg ⟨⟨![0, 0], ![2, 2]⟩, none⟩) :=
  .segment _ ⟨⟨![0, 0], ![2, 2]⟩, none⟩ (by simp) (by simp)
theorem exDiag'_stands : Stands (n := 2) exDiag' (.curve ⟨5, false, [![0, 2], ![2, 0]]⟩) :=
  .curve _ ⟨5, false, [![0, 2], ![2, 0]]⟩ rfl (by simp) (by simp)
example (comps : Nat → (Nat → Nat → Bool) → List (List Nat)) (p : AlmostParams) := C114_algorithms F_EPS p comps exDiag_proper exDiag'_proper exDiag_stands exDiag'_stands
example (comps : Nat → (Nat → Nat → Bool) → List (List Nat)) (p : AlmostParams) := C114_total F_EPS p comps exDiag_proper exDiag'_proper rfl _ (.inl rfl)
example (comps : Nat → (Nat → Nat → Bool) → List (List Nat)) := (C114_arguments comps [] exDiag (.other none) .none []).1 (.inr rfl)
example (comps : Nat → (Nat → Nat → Bool) → List (List Nat)) := (C114_arguments comps [] exDiag (.other (some 3)) .none []).2.1 2 3 rfl rfl (by decide)
example (comps : Nat → (Nat → Nat → Bool) → List (List Nat)) := ((C114_arguments comps [] exDiag exDiag' .none []).2.2 2 rfl rfl).2
example (comps : Nat → (Nat → Nat → Bool) → List (List Nat)) :=
  ((C114_exact comps [] exDiag exDiag' 2 rfl rfl [("feps", .num (1 / 1000))] (by simp)).2 (by simp)).2 exDiag_proper exDiag'_proper
example (comps : Nat → (Nat → Nat → Bool) → List (List Nat)) :=
  (C114_exact comps [] exDiag exDiag' 2 rfl rfl [("eps", .num (1 / 1000))] (by simp)).1 ⟨_, List.mem_cons_self, by decide⟩
example (comps : Nat → (Nat → Nat → Bool) → List (List Nat)) :=
  ((C114_almost comps [] exDiag exDiag' 2 rfl rfl [] (by simp)).2 (by simp)).2 exDiag_proper exDiag'_proper
example (comps : Nat → (Nat → Nat → Bool) → List (List Nat)) := (C114_defaults comps [] exDiag exDiag' [] []).2.1 (by simp)
example (comps : Nat → (Nat → Nat → Bool) → List (List Nat)) (p : AlmostParams) : ∃ n res, (exactAlg F_EPS).call exDiag exDiag' = .ok ⟨n, res⟩ ∧
    ∀ x ∈ Result.items res, Belongs x.seg1 exDiag ∧ Belongs x.seg2 exDiag' := by
  obtain ⟨n, res, h, -⟩ := C114_total F_EPS p comps exDiag_proper exDiag'_proper rfl _ (.inl rfl)
  exact ⟨n, res, h, C114_named F_EPS p comps exDiag_proper exDiag'_proper (by simp [exDiag]) _ (.inl rfl) h⟩
example (comps : Nat → (Nat → Nat → Bool) → List (List Nat)) (p : AlmostParams) (hp : p.removeExtra = false) : ∃ c', spaceCurve.getSub (.slice ⟨some (1 : Nat), some (3 : Nat), none⟩) = .ok c' ∧
    ∃ (idx : List (Nat × Nat)) (info : Nat → Nat → Info spaceCurve.ncols ℝ), (exactAlg F_EPS).call (.curve spaceCurve 0) (.curve spaceCurve 0) = .ok ⟨spaceCurve.ncols, .list (idx.map fun q =>
        ⟨(spaceCurve.asG spaceCurve.ncols 0).segment q.1, (spaceCurve.asG spaceCurve.ncols 0).segment q.2, info q.1 q.2⟩)⟩ := by
  have hw : WF spaceCurve := ⟨by decide, by simp [spaceCurve], by simp [spaceCurve], by intro r _ x _; rfl⟩
  obtain ⟨c', h1, h2, -⟩ := C07_plain hw 1 3
  obtain ⟨idx, info, h3, -⟩ := (C114_slices (exactAlg F_EPS) F_EPS p hp comps (.inl rfl) hw hw rfl h1 h1 (by simp [Curve.size, h2, spaceCurve]) (by simp [Curve.size, h2, spaceCurve]) 0 1 0 1).2
  exact ⟨c', h1, idx, info, h3⟩

end Verif.Props
