import Verif.Model.FictitiousLookup

/-!
# The surface a fictitious grid is meant to be built around
-/

set_option autoImplicit false

namespace Caribou.Spec

open FictitiousGrid

/-- The triangles are the given ones or else those of the only container of the node which has triangles. -/
def MeantTriangles (s : GridScene) (given T : List (Fin 3 → ℕ)) (source : Option SurfaceContainer) : Prop :=
  (given ≠ [] ∧ T = given ∧ source = none) ∨
  (given = [] ∧ ∃ before c after, s.containers = before ++ c :: after ∧ c.triangles ≠ [] ∧
    (∀ c' ∈ before ++ after, c'.triangles = []) ∧ T = c.triangles ∧ source = some c)

/-- The positions are those of the link, or else the given ones, or else those of the container of the triangles, or else, when this one
has none, the rest positions of the only mechanical state of the node. -/
def MeantPositions (s : GridScene) (d : SurfaceData) (source : Option SurfaceContainer) (P : List (Fin 3 → ℝ)) : Prop :=
  (∃ p, d.parent = some p ∧ P = s.value p) ∨
  (d.parent = none ∧
    ((d.own ≠ [] ∧ P = d.own) ∨
      (d.own = [] ∧
        ((∃ c, source = some c ∧ c.points = some P) ∨
          ((∀ c, source = some c → c.points = none) ∧ ∃ m, s.states = [m] ∧ m.rest = some P)))))

/-- The surface, which has triangles and positions. -/
def MeantSurface (s : GridScene) (d : SurfaceData) (S : SurfaceMesh) : Prop :=
  S.triangles ≠ [] ∧ S.positions ≠ [] ∧ ∃ source, MeantTriangles s d.triangles S.triangles source ∧ MeantPositions s d source S.positions

end Caribou.Spec
