import Verif.Model.Plot
import Verif.Spec.DiffGeom

/-!
Specification vocabulary for plots: what it means that something drawn shows a curve.
-/
namespace Verif.Spec

open Verif Verif.Model

/-- The columns are the coordinates of the points. -/
def ColumnsOf (c : Curve ℝ) (cols : List (List ℝ)) : Prop :=
  cols.length = c.ndim ∧ (∀ col ∈ cols, col.length = c.size) ∧
    ∀ i j, i < c.size → j < c.ndim → (cols.getD j []).getD i 0 = at2 c.rows i j

/-- What is drawn shows the curve: a line or markers at its points, the pieces between neighbouring points with one value per point,
arrows at its points in the direction of the second Frenet vectors. -/
def Shows (junk : ℝ) (c : Curve ℝ) (f : Option PropName) : Artist → Prop
  | .line cols => ColumnsOf c cols
  | .segs ss vs => ss.length = c.size - 1 ∧ (∀ i a b, c.rows[i]? = some a → c.rows[i + 1]? = some b → ss[i]? = some (a, b)) ∧
      ∃ p, f = some p ∧ fresh junk c p = .ok (.nums vs)
  | .scatter cols vs => ColumnsOf c cols ∧ ∃ p, f = some p ∧ fresh junk c p = .ok (.nums vs)
  | .quiver cols ns => ColumnsOf c cols ∧ ns.length = c.ndim ∧
      ∀ i j, i < c.size → j < c.ndim → (ns.getD j []).getD i 0 = at2 (frenet2 c).rows i j

/-- The kind of something drawn. -/
inductive ArtistKind
  | line | segs | scatter | quiver
  deriving DecidableEq

def kindOf : Artist → ArtistKind
  | .line _ => .line
  | .segs _ _ => .segs
  | .scatter _ _ => .scatter
  | .quiver _ _ => .quiver

/-- What should be drawn for given arguments. -/
def wantedKinds (a : PlotArgs) : List ArtistKind :=
  (if a.param.isSome then if a.marker then [.segs, .scatter] else [.segs] else [.line]) ++ if a.showNormals then [.quiver] else []

end Verif.Spec
