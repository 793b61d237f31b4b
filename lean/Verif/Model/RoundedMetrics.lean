import Verif.Model.Distance
import Verif.Model.Rounded

/-!
Distances of points by name in rounded arithmetic, without weights (skcurve/_distance.py 15-29, skcurve/_base.py 329-356; scipy.spatial.distance 1.7). The coordinates are finite rounded numbers, as many in both points.
-/
namespace Verif.Model

open Verif Verif.Np

/-- (_distance.py 19) `abs(u - v)`; absolute values do not round. -/
def absDiffFl (fl : ℝ → ℝ) (u v : List ℝ) : List ℝ := List.zipWith (fun x y => |fl (x - y)|) u v

/-- (_distance.py 19) `cityblock(u, v)`: `abs(u - v).sum()`. -/
def CityblockTo (fl : ℝ → ℝ) (u v : List ℝ) (z : ℝ) : Prop := SumsTo fl (absDiffFl fl u v) z

/-- (_distance.py 18) `chebyshev(u, v)`: `max(abs(u - v))`. -/
def ChebyshevTo (fl : ℝ → ℝ) (u v : List ℝ) (z : ℝ) : Prop := maxList (absDiffFl fl u v) = .ok z

/-- (_distance.py 27) `sqeuclidean(u, v)`: `np.dot(u_v, u_v)` of `u_v = u - v`. -/
def SqeuclideanTo (fl : ℝ → ℝ) (u v : List ℝ) (z : ℝ) : Prop := DotTo fl ((List.zipWith (fun x y => fl (x - y)) u v).map fun d => (d, d)) z

/-- (_distance.py 22, 25) `euclidean(u, v)` and `minkowski(u, v)`: `scipy.linalg.norm(u - v, ord=2)`, the routine `nrm2` of BLAS (which scales), taken to have a relative error of at most `η`. -/
def EuclideanTo (fl : ℝ → ℝ) (η : ℝ) (u v : List ℝ) (z : ℝ) : Prop :=
  |z - √ (List.zipWith (fun x y => fl (x - y) ^ 2) u v).sum| ≤ η * √ (List.zipWith (fun x y => fl (x - y) ^ 2) u v).sum

/-- (_distance.py 17) One term of `canberra`: `abs(x - y) / (abs(x) + abs(y))`; `np.nansum` adds 0 in place of 0/0. -/
noncomputable def canberraFl (fl : ℝ → ℝ) (x y : ℝ) : ℝ := if fl (|x| + |y|) = 0 then 0 else fl (|fl (x - y)| / fl (|x| + |y|))

/-- (_distance.py 17) `canberra(u, v)`. -/
def CanberraTo (fl : ℝ → ℝ) (u v : List ℝ) (z : ℝ) : Prop := SumsTo fl (List.zipWith (canberraFl fl) u v) z

/-- (_distance.py 16) `braycurtis(u, v)`: `abs(u - v).sum() / abs(u + v).sum()`. -/
def BraycurtisTo (fl : ℝ → ℝ) (u v : List ℝ) (z : Val ℝ) : Prop :=
  ∃ s t, SumsTo fl (absDiffFl fl u v) s ∧ SumsTo fl (List.zipWith (fun x y => |fl (x + y)|) u v) t ∧
    z = if t = 0 then (Val.fin s).div (.fin 0) else .fin (fl (s / t))

/-- (_distance.py 21) `np.average(u * v)`: the products are rounded before they are added. -/
def MeanProdTo (fl : ℝ → ℝ) (u v : List ℝ) (z : ℝ) : Prop := ∃ s, SumsTo fl (List.zipWith (fun x y => fl (x * y)) u v) s ∧ z = fl (s / u.length)

/-- (_distance.py 21) `cosine(u, v)`: `max(0, min(abs(1.0 - uv / np.sqrt(uu * vv)), 2.0))`; when the root is 0, a point is 0 and the quotient is NaN, which becomes 0. -/
def CosineTo (fl : ℝ → ℝ) (u v : List ℝ) (z : ℝ) : Prop :=
  ∃ uv uu vv, MeanProdTo fl u v uv ∧ MeanProdTo fl u u uu ∧ MeanProdTo fl v v vv ∧
    z = if fl (√ (fl (uu * vv))) = 0 then 0 else max 0 (min |fl (1 - fl (uv / fl (√ (fl (uu * vv)))))| 2)

end Verif.Model
