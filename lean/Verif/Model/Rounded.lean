import Verif.Model.ArcLen
import Verif.Model.Geom
import Verif.Model.Interp
import Verif.Model.DiffGeom

/-!
The same code with every operation rounded by a function `fl`. With `fl = id` these are the definitions of the exact model, see
`Props/Rounded.lean`. The values that enter (coordinates, parameters) are rounded numbers. No underflow and no overflow.
-/
namespace Verif.Model

open Verif Verif.Np

/-- `np.sum` of numbers: numpy adds in an order that depends on the length and the memory layout (blocks of eight partial sums,
pairwise over long arrays), so every order and grouping is allowed. -/
inductive SumsTo (fl : ℝ → ℝ) : List ℝ → ℝ → Prop
  | nil : SumsTo fl [] 0
  | one (x : ℝ) : SumsTo fl [x] x
  | add {xs ys zs : List ℝ} {s t : ℝ} (hx : SumsTo fl xs s) (hy : SumsTo fl ys t) (nx : xs ≠ []) (ny : ys ≠ [])
      (hz : zs.Perm (xs ++ ys)) : SumsTo fl zs (fl (s + t))

/-- One term of `np.sum(np.diff(data, axis=0)**2, axis=1)` (_diffgeom.py 91); compilers may fuse the product with the following addition. -/
def SqTerm (fl : ℝ → ℝ) (x y z : ℝ) : Prop := z = fl (fl (y - x) * fl (y - x)) ∨ z = fl (y - x) * fl (y - x)

/-- `np.sqrt(np.sum((b - a)**2))` of two rows (_diffgeom.py 91). -/
def ChordTo (fl : ℝ → ℝ) (a b : List ℝ) (z : ℝ) : Prop :=
  ∃ ws s, List.Forall₂ (fun (p : ℝ × ℝ) w => SqTerm fl p.1 p.2 w) (a.zip b) ws ∧ SumsTo fl ws s ∧ z = fl (√ s)

/-- `chordlen` of a curve with points (_diffgeom.py 69-91). -/
def ChordsTo (fl : ℝ → ℝ) (rows : List (List ℝ)) (zs : List ℝ) : Prop :=
  List.Forall₂ (fun (p : List ℝ × List ℝ) z => ChordTo fl p.1 p.2 z) (rows.zip rows.tail) zs

/-- `arclen` of a curve with points (_diffgeom.py 94-115). -/
def ArclenTo (fl : ℝ → ℝ) (rows : List (List ℝ)) (l : ℝ) : Prop := ∃ zs, ChordsTo fl rows zs ∧ SumsTo fl zs l

/-- `cumarclen` of a curve with points (_diffgeom.py 226-240). -/
def CumTo (fl : ℝ → ℝ) (rows : List (List ℝ)) (ls : List ℝ) : Prop := ∃ zs, ChordsTo fl rows zs ∧ ls = 0 :: cumsumFl fl zs

/-- `segment_point` for a number, one coordinate (_geomalg.py 61). -/
def pointFl (fl : ℝ → ℝ) (x1 x2 t : ℝ) : ℝ := fl (x1 + fl (fl (x2 - x1) * t))

/-- `np.linspace(a, b, n)`, entry `i`. -/
noncomputable def linspaceAtFl (fl : ℝ → ℝ) (a b : ℝ) (n i : Nat) : ℝ :=
  if 1 < n then
    if i + 1 = n then b
    else
      let delta := fl (b - a)
      let step := fl (delta / ((n : ℝ) - 1))
      if step = 0 then fl (fl (fl (i / ((n : ℝ) - 1)) * delta) + a) else fl (fl (i * step) + a)
  else fl (fl (i * fl (b - a)) + a)

/-- `np.linspace(a, b, n)`. -/
noncomputable def linspaceFl (fl : ℝ → ℝ) (a b : ℝ) (n : Nat) : List ℝ := (List.range n).map (linspaceAtFl fl a b n)

/-- One coordinate of `interp1d._call_linear` between two nodes. -/
noncomputable def lerpFl (fl : ℝ → ℝ) (xlo xhi ylo yhi x : ℝ) : ℝ :=
  fl (fl (fl (fl (yhi - ylo) / fl (xhi - xlo)) * fl (x - xlo)) + ylo)

/-- `np.gradient` of a column of floats with unit spacing; every ufunc rounds (compare `npGradient`). -/
noncomputable def npGradientFl (fl : ℝ → ℝ) (edgeOrder m : Nat) (f : Nat → ℝ) (i : Nat) : ℝ :=
  if i = 0 then
    if edgeOrder = 1 then fl (fl (f 1 - f 0) / 1) else fl (fl (fl (-1.5 * f 0) + fl (2 * f 1)) + fl (-0.5 * f 2))
  else if i = m - 1 then
    if edgeOrder = 1 then fl (fl (f (m - 1) - f (m - 2)) / 1)
    else fl (fl (fl (0.5 * f (m - 3)) + fl (-2 * f (m - 2))) + fl (1.5 * f (m - 1)))
  else fl (fl (f (i + 1) - f (i - 1)) / 2)

/-- `_gradient` (_diffgeom.py 118-154). -/
noncomputable def gradientFl (fl : ℝ → ℝ) (a : NMat) : NMat :=
  if 3 ≤ a.m then ⟨a.m, a.k, fun i j => npGradientFl fl 2 a.m (fun i => a.v i j) i⟩
  else if 2 ≤ a.m then ⟨a.m, a.k, fun i j => npGradientFl fl 1 a.m (fun i => a.v i j) i⟩
  else ⟨a.m, 1, fun _ _ => 0⟩

/-- `firstderiv`, `secondderiv`, `thirdderiv` (_diffgeom.py 242-298): 1, 2, 3 times `_gradient`. -/
noncomputable def derivFl (fl : ℝ → ℝ) (c : Curve ℝ) : Nat → NMat
  | 0 => c.mat
  | k + 1 => gradientFl fl (derivFl fl c k)

/-- `np.linalg.norm(v, axis=1)` of row `i`: the squares are rounded, then added in any order. -/
def RowNormTo (fl : ℝ → ℝ) (a : NMat) (i : Nat) (z : ℝ) : Prop :=
  ∃ s, SumsTo fl ((List.range a.k).map fun j => fl (a.v i j * a.v i j)) s ∧ z = fl (√ s)

/-- Entry `j` of row `i` of `v / _frenet_vector_norm(v)[:, np.newaxis]` (_diffgeom.py 157-166, 452) when the computed norm of the row is `z`. -/
noncomputable def unitFl (fl : ℝ → ℝ) (a : NMat) (z : ℝ) (i j : Nat) : ℝ := fl (a.v i j / if closeK z 0 then 1 else z)

/-- A sum of products `w * x` as in `NI_Correlate1D` of scipy: products are rounded or fused with an addition, values with equal or opposite weights may be
added or subtracted before the multiplication, and the order and grouping of the additions is arbitrary. -/
inductive LinTo (fl : ℝ → ℝ) : List (ℝ × ℝ) → ℝ → Prop
  | one {w x z : ℝ} (h : z = fl (w * x) ∨ z = w * x) : LinTo fl [(w, x)] z
  | pair {w x y z : ℝ} (h : z = fl (fl (x + y) * w) ∨ z = fl (x + y) * w) : LinTo fl [(w, x), (w, y)] z
  | anti {w x y z : ℝ} (h : z = fl (fl (x - y) * w) ∨ z = fl (x - y) * w) : LinTo fl [(w, x), (-w, y)] z
  | add {xs ys zs : List (ℝ × ℝ)} {s t : ℝ} (hx : LinTo fl xs s) (hy : LinTo fl ys t) (hz : zs.Perm (xs ++ ys)) : LinTo fl zs (fl (s + t))

/-- One entry of `window_filter` (_smooth.py 148-178): `window /= window.sum()`, then `convolve1d` at a place where the extended data has the values `es` (last first). scipy takes
weights within `η = 2^-52` of a symmetric or antisymmetric window for symmetric or antisymmetric, so the weights used are those only up to `η`. -/
def SmoothTo (fl : ℝ → ℝ) (η : ℝ) (ws es : List ℝ) (y : ℝ) : Prop :=
  ∃ S us, SumsTo fl ws S ∧ List.Forall₂ (fun w u => |u - fl (w / S)| ≤ η) ws us ∧ LinTo fl (us.zip es) y

/-- `np.dot` of two vectors, given as the list of pairs of coordinates: products are rounded or fused with an addition, in any order and grouping. -/
inductive DotTo (fl : ℝ → ℝ) : List (ℝ × ℝ) → ℝ → Prop
  | one {x y z : ℝ} (h : z = fl (x * y) ∨ z = x * y) : DotTo fl [(x, y)] z
  | add {xs ys zs : List (ℝ × ℝ)} {s t : ℝ} (hx : DotTo fl xs s) (hy : DotTo fl ys t) (hz : zs.Perm (xs ++ ys)) : DotTo fl zs (fl (s + t))

/-- `p - q` of two points (_base.py 225-253) and `Segment.direction` (_base.py 618-628) for `p = s.p2`, `q = s.p1`. -/
def subFl (fl : ℝ → ℝ) {n : Nat} (p q : Vec n ℝ) : Vec n ℝ := fun i => fl (p i - q i)

/-- `u @ v` (_base.py 255-272). -/
def VDotTo (fl : ℝ → ℝ) {n : Nat} (u v : Vec n ℝ) (z : ℝ) : Prop := DotTo fl (List.ofFn fun i => (u i, v i)) z

/-- `parallel_segments` (_geomalg.py 163-191). -/
def ParallelTo (fl : ℝ → ℝ) {n : Nat} (s r : Seg n ℝ) (tol : ℝ) (q : Bool) : Prop :=
  ∃ a b c, VDotTo fl (subFl fl s.p2 s.p1) (subFl fl s.p2 s.p1) a ∧ VDotTo fl (subFl fl s.p2 s.p1) (subFl fl r.p2 r.p1) b ∧
    VDotTo fl (subFl fl r.p2 r.p1) (subFl fl r.p2 r.p1) c ∧ q = decide (fl (fl (a * c) - fl (b * b)) < tol)

/-- `segments_angle` with `ndigits=None` (_geomalg.py 120-160); `acos` is numpy's. -/
def AngleTo (fl acos : ℝ → ℝ) {n : Nat} (s r : Seg n ℝ) (q : Option ℝ) : Prop :=
  ∃ a b c, VDotTo fl (subFl fl s.p2 s.p1) (subFl fl s.p2 s.p1) a ∧ VDotTo fl (subFl fl s.p2 s.p1) (subFl fl r.p2 r.p1) b ∧
    VDotTo fl (subFl fl r.p2 r.p1) (subFl fl r.p2 r.p1) c ∧
    q = let den := fl (fl (√ a) * fl (√ c))
      if closeK den 0 = true then none
      else
        let cosPhi := fl (b / den)
        let cosPhi := if cosPhi > 1 then 1 else cosPhi
        let cosPhi := if cosPhi < -1 then -1 else cosPhi
        some (acos cosPhi)

/-- `segment_to_point` (_geomalg.py 308-339). -/
def ToPointTo (fl : ℝ → ℝ) {n : Nat} (s : Seg n ℝ) (p : Vec n ℝ) (t : ℝ) : Prop :=
  ∃ c1 c2, VDotTo fl (subFl fl p s.p1) (subFl fl s.p2 s.p1) c1 ∧ VDotTo fl (subFl fl s.p2 s.p1) (subFl fl s.p2 s.p1) c2 ∧
    t = if c1 < 0 ∨ closeK c1 0 = true then 0 else if c2 < c1 ∨ closeK c2 c1 = true then 1 else fl (c1 / c2)

end Verif.Model
