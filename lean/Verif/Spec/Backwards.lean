import Verif.Spec.Spline

/-!
Vocabulary for interpolation of curves run through backwards.
-/
namespace Verif.Spec

open Verif Verif.Model

/-- `c'` runs through the points of `c` backwards, and its parameter values `t'` are those of `c` mirrored: `x` becomes `L - x`. -/
structure Backwards (L : ℝ) (c c' : Curve ℝ) (t t' : List ℝ) : Prop where
  size : c'.rows.length = c.rows.length
  ncols : c'.ncols = c.ncols
  dtype : c'.dtype = c.dtype
  pts : ∀ i j, i < c.rows.length → j < c.ncols → at2 c'.rows i j = at2 c.rows (c.rows.length - 1 - i) j
  times : ∀ i x, i < c.rows.length → t[c.rows.length - 1 - i]? = some x → t'[i]? = some (L - x)

end Verif.Spec
