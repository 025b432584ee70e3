import Verif.Model.PyTopology

/-!
# What a Python user expects of meshes, domains and containers
-/

set_option autoImplicit false

namespace Caribou.Spec

variable {K : Type*} {m : ℕ}

/-- The rows `out` are the positions, in the list of nodes of a mesh, designated by a row of node indices. -/
def Designates (nodes : List (Fin m → K)) (row : List ℤ) (out : List (List (Option K))) : Prop :=
  List.Forall₂ (fun z r => ∃ p, nodes[z.toNat]? = some p ∧ r = List.ofFn fun c => some (p c)) row out

/-- The table given to `add_domain` has `cols` columns, and designates existing nodes. -/
structure PyValidTable (nodes : List (Fin m → K)) (cols : ℕ) (table : List (List ℤ)) : Prop where
  columns : ∀ r ∈ table, r.length = cols
  nonneg : ∀ r ∈ table, ∀ z ∈ r, 0 ≤ z
  bound : ∀ r ∈ table, ∀ z ∈ r, z < nodes.length
  /-- Node indices are stored in 32 bits. -/
  small : nodes.length ≤ 4294967296

/-- A variable of the program holds the mesh `a`. -/
def MeshHeld (s : PySession K m) (a : ℕ) : Prop := ∃ x, (x, PyObj.mesh a) ∈ s.vars

/-- The value interpolated at a point of an element with the node indices `row`, for the shape function values `shape`. -/
def weightedValue [CommRing K] (shape : List K) (row : List ℤ) (values : ℕ → ℕ → K) (c : ℕ) : K :=
  ((shape.zip row).map fun x => x.1 * values x.2.toNat c).sum

/-- The rows of an interpolated field: the weighted values for the points located in an element, nothing for the others. -/
def IsField [CommRing K] (table : List (List ℤ)) (values : ℕ → ℕ → K) (cols : ℕ) (points : List (Option (ℕ × List K)))
    (out : List (Option (List K))) : Prop :=
  List.Forall₂ (fun p r => match p with
    | none => r = none
    | some (e, shape) => ∃ row, table[e]? = some row ∧ r = some ((List.range cols).map (weightedValue shape row values)))
    points out

variable [CommRing K]

/-- `x = Mesh(nodes)` is executed after the program `before`, `a` is the mesh which was made, and `after` is executed next. -/
structure MeshMade (fmt : ℕ → String) (locate : List (List (List (Option K))) → List K → Option (ℕ × List K))
    (before : List (PyStmt K m)) (x : String) (nodes : List (Fin m → K)) (after : List (PyStmt K m)) (a : ℕ) (s : PySession K m) : Prop where
  done : ∃ s0 s1, (PySession.start K m).run fmt locate before = .ok s0 ∧ s0.step fmt locate (.assign x (.newMesh nodes)) = .ok s1 ∧
    s1.lookup x = some (.mesh a) ∧ s1.run fmt locate after = .ok s

/-- `x = y.add_domain(name, kind, table)` is executed after the program `before`, where `y` is the mesh `a` with the given
positions and `x` becomes the domain `d`; then the program `after` is executed and leads to `s`. -/
structure DomainMade (fmt : ℕ → String) (locate : List (List (List (Option K))) → List K → Option (ℕ × List K))
    (before : List (PyStmt K m)) (x y : String) (name : Option String) (kind : PyElement) (cols : ℕ) (table : List (List ℤ))
    (after : List (PyStmt K m)) (a d : ℕ) (nodes : List (Fin m → K)) (s : PySession K m) : Prop where
  done : ∃ s0 s1, (PySession.start K m).run fmt locate before = .ok s0 ∧ s0.lookup y = some (.mesh a) ∧
    (∃ M, s0.world.mesh a = some M ∧ M.nodes = nodes) ∧ s0.step fmt locate (.assign x (.addDomain y name kind cols table)) = .ok s1 ∧
    s1.lookup x = some (.domain d) ∧ s1.run fmt locate after = .ok s

end Caribou.Spec
