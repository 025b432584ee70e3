import Mathlib.Algebra.Order.Field.Rat
import Mathlib.Data.Fin.VecNotation
import Mathlib.Algebra.Order.AbsoluteValue.Basic

/-!
# The scripts which create the meshes of the validation

`Validation/meshes/create_beam_mesh.py` and `Validation/meshes/create_cylinder_mesh.py` write a program in the language of Gmsh, run Gmsh and write the mesh it returns.  The model is the program handed to
Gmsh and the options it is run with, or `none` when the script stops with a Python exception.  Numbers are rational instead of floating point.  The files and the call of `meshio` are left out.
-/

set_option autoImplicit false

namespace Caribou

/-- The choices of the option `--type`, `create_beam_mesh.py:14`, `create_cylinder_mesh.py:13`. -/
inductive MeshKind
  | p1 | p2 | q1 | q2
  deriving DecidableEq

/-- `quads`, `create_beam_mesh.py:23`, `create_cylinder_mesh.py:22`. -/
def MeshKind.quads (t : MeshKind) : Bool := t = .q1 ∨ t = .q2

/-- `order`, `create_beam_mesh.py:24`, `create_cylinder_mesh.py:23`. -/
def MeshKind.order (t : MeshKind) : ℕ := if t = .q1 ∨ t = .p1 then 1 else 2

/-- The options of `create_beam_mesh.py:13-21`, without the output. -/
structure BeamArgs where
  type : MeshKind
  n : List ℤ
  p0 : List ℚ
  p1 : List ℚ
  verbose : Bool
  gmsh : String

/-- The extrusion, `create_beam_mesh.py:152-154`: its length along z, the number of layers and `Recombine`. -/
structure GeoExtrusion where
  length : ℚ
  layers : ℤ
  recombine : Bool

/-- The program of a beam, `create_beam_mesh.py:124-169`: the points 1 to 4, the line `i` from the point `i` to the point `i + 1` (the last one to the point 1), the numbers of nodes on the lines 1 and 3 and on
the lines 2 and 4, `Recombine Surface`, the extrusion and the settings of the mesh. -/
structure GeoBeam where
  points : Fin 4 → Fin 3 → ℚ
  lines13 : ℤ
  lines24 : ℤ
  recombine : Bool
  extrusion : Option GeoExtrusion
  order : ℕ
  dimension : ℕ

/-- A run of Gmsh, `geo_to_msh` of `create_beam_mesh.py:32-91`: the executable, the option `-{dimension}`, the program, and whether its log is printed. -/
structure GmshRun (P : Type) where
  gmsh : String
  dimension : ℕ
  program : P
  verbose : Bool

/-- `geo_to_msh` with its default executable, `create_beam_mesh.py:32`. -/
def geoToMsh {P : Type} (program : P) (dimension : ℕ) (verbose : Bool) (gmsh : String := "/usr/bin/gmsh") : GmshRun P := ⟨gmsh, dimension, program, verbose⟩

/-- The difference `np.asarray(p1) - np.asarray(p0)` of `create_beam_mesh.py:108` when it has three components: the one of a list of three numbers and a list of three or one. -/
def spread3 (p : List ℚ) : Option (Fin 3 → ℚ) :=
  match p with
  | [a, b, c] => some ![a, b, c]
  | [a] => some ![a, a, a]
  | _ => none

/-- The corners handed to NumPy, `create_beam_mesh.py:96-98`: a point of the plane gets a third coordinate zero, and so does the other corner, `none` when that has less than two coordinates. A first corner
with one coordinate is left out (`none`): Gmsh refuses a point with one coordinate. -/
def corners3 (p0 p1 : List ℚ) : Option ((Fin 3 → ℚ) × (Fin 3 → ℚ)) :=
  match p0 with
  | [a, b] => match p1 with
    | c :: d :: _ => some (![a, b, 0], ![c, d, 0])
    | _ => none
  | [a, b, c] => (spread3 p1).map fun q => (![a, b, c], q)
  | _ => none

/-- `rectangle`, `create_beam_mesh.py:95-171`. -/
def rectangle (p0 p1 : List ℚ) (n : List ℤ) (dimension order : ℕ) (quads verbose : Bool) : Option (GmshRun GeoBeam) :=
  match corners3 p0 p1 with
  | none => none
  | some (q0, q1) =>
    if dimension = 3 ∧ ¬(n.length = 3 ∧ 1 < n.getD 2 0) then none else
    if ¬(n.length = 2 ∨ n.length = 3) then none else
    if ¬(1 < n.getD 0 0 ∧ 1 < n.getD 1 0) then none else
    let s : Fin 3 → ℚ := fun a => |q1 a - q0 a|
    let points : Fin 4 → Fin 3 → ℚ := ![q0, q0 + ![0, s 1, 0], q0 + ![s 0, 0, 0] + ![0, s 1, 0], q0 + ![s 0, 0, 0]]
    if 0 < s 2 then
      if ¬(n.length = 3 ∧ 1 < n.getD 2 0) then none else
      some (geoToMsh ⟨points, n.getD 0 0, n.getD 1 0, quads, some ⟨s 2, n.getD 2 0 - 1, quads⟩, order, dimension⟩ dimension verbose)
    else some (geoToMsh ⟨points, n.getD 0 0, n.getD 1 0, quads, none, order, dimension⟩ dimension verbose)

/-- `main`, `create_beam_mesh.py:12-29`. -/
def createBeam (a : BeamArgs) : Option (GmshRun GeoBeam) := rectangle a.p0 a.p1 a.n a.n.length a.type.order a.type.quads a.verbose

/-- The options of `create_cylinder_mesh.py:12-20`, without the output. -/
structure CylinderArgs where
  type : MeshKind
  size : ℚ
  radius : ℚ
  length : ℚ
  verbose : Bool
  gmsh : String

/-- The program of a cylinder, `create_cylinder_mesh.py:32-66`: the circle around the origin in the plane `z = 0` is extruded along z; no surface or volume is recombined. -/
structure GeoCylinder where
  radius : ℚ
  length : ℚ
  size : ℚ
  order : ℕ
  dimension : ℕ
  deriving DecidableEq

/-- `cylinder`, `create_cylinder_mesh.py:31-68`; the last two arguments are not used. -/
def cylinder (radius length size : ℚ) (dimension order : ℕ) (verbose : Bool) : GmshRun GeoCylinder := geoToMsh ⟨radius, length, size, order, dimension⟩ dimension verbose

/-- `main`, `create_cylinder_mesh.py:11-28`: the argument after the order is `verbose`, and it is given `quads`. -/
def createCylinder (a : CylinderArgs) : GmshRun GeoCylinder := cylinder a.radius a.length a.size 3 a.type.order a.type.quads

end Caribou
