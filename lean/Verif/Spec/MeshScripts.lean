import Verif.Model.MeshScripts

/-!
# Specification vocabulary for the scripts which create meshes
-/

set_option autoImplicit false

namespace Caribou.Spec

/-- The node number `i` of `n` nodes which share the way from `0` to `1` evenly. -/
def evenly (n : ℤ) (i : ℕ) : ℚ := i / ((n : ℚ) - 1)

/-- The nodes of a box between the corners `p` and `q` with `n` nodes along each axis. -/
def boxNodes (p q : Fin 3 → ℚ) (n : Fin 3 → ℤ) : Set (Fin 3 → ℚ) :=
  {x | ∃ i : Fin 3 → ℕ, (∀ a, (i a : ℤ) < n a) ∧ ∀ a, x a = p a + evenly (n a) (i a) * (q a - p a)}

/-- The nodes of a rectangle between the corners `p` and `q`, in the plane of `p`, with `n` nodes along x and `m` along y. -/
def rectangleNodes (p q : Fin 3 → ℚ) (n m : ℤ) : Set (Fin 3 → ℚ) :=
  {x | ∃ i j : ℕ, (i : ℤ) < n ∧ (j : ℤ) < m ∧ x 0 = p 0 + evenly n i * (q 0 - p 0) ∧ x 1 = p 1 + evenly m j * (q 1 - p 1) ∧ x 2 = p 2}

/-- What Gmsh makes of a transfinite surface with the straight sides `1 → 2 → 3 → 4 → 1` and a progression 1: the nodes at the parameters `u` along the lines 2 and 4 and `v` along the lines 1 and 3. -/
def transfinite (P : Fin 4 → Fin 3 → ℚ) (u v : ℚ) : Fin 3 → ℚ := fun a => (1 - u) * (1 - v) * P 0 a + (1 - u) * v * P 1 a + u * v * P 2 a + u * (1 - v) * P 3 a

/-- The nodes of the mesh of a beam with elements of order 1, or the corner nodes of the elements of order 2: those of the surface, and copies of them in every layer of the extrusion. -/
def geoNodes (g : GeoBeam) : Set (Fin 3 → ℚ) :=
  match g.extrusion with
  | none => {x | ∃ i j : ℕ, (i : ℤ) < g.lines24 ∧ (j : ℤ) < g.lines13 ∧ x = transfinite g.points (evenly g.lines24 i) (evenly g.lines13 j)}
  | some e => {x | ∃ i j k : ℕ, (i : ℤ) < g.lines24 ∧ (j : ℤ) < g.lines13 ∧ (k : ℤ) ≤ e.layers ∧
      x = transfinite g.points (evenly g.lines24 i) (evenly g.lines13 j) + ![0, 0, (k : ℚ) / e.layers * e.length]}

/-- The program makes a body of volume elements, not only of surface elements. -/
def _root_.Caribou.GeoBeam.IsVolume (g : GeoBeam) : Prop := g.extrusion.isSome = true ∧ g.dimension = 3

/-- The types of elements with quads and hexahedra. -/
def madeOfQuads : MeshKind → Bool
  | .p1 => false
  | .p2 => false
  | .q1 => true
  | .q2 => true

/-- The degree of the elements of a type. -/
def elementDegree : MeshKind → ℕ
  | .p1 => 1
  | .p2 => 2
  | .q1 => 1
  | .q2 => 2

/-- The program makes the elements of the type `t`: of its degree, and with triangles joined to quads, in the extrusion too, if these are asked for. -/
def MakesElements (g : GeoBeam) (t : MeshKind) : Prop :=
  g.order = elementDegree t ∧ g.recombine = madeOfQuads t ∧ ∀ e, g.extrusion = some e → e.recombine = madeOfQuads t

end Caribou.Spec
