import Mathlib.Data.List.Dedup
import Mathlib.Data.List.Sort
import Mathlib.Logic.Function.Basic
import Mathlib.Analysis.Real.Sqrt
import Mathlib.Data.Fin.VecNotation
import Mathlib.Algebra.BigOperators.Fin

/-!
# Model of the reference computation with FEBio

`Validation/febio_rectangular_beam_bending_static_stvk.py`, lines 52-135: the elements of the mesh are sorted by tag and by type, then written to the input file of FEBio.  Tags and node indices are
natural numbers.  `none` is a Python exception, which ends the script.  The load of lines 141-154 is a real vector, and the search
for the displacements in the log file of FEBio is that of lines 188-204.  The other parts of the file, the coordinates of the nodes, the run of FEBio and the output are left out.
-/

set_option autoImplicit false

namespace Caribou

namespace Febio

/-- The types of cells of meshio; `other` stands for all those which the script does not know. -/
inductive CellType
  | triangle | triangle6 | quad | quad8 | tetra | tetra10 | hexahedron | hexahedron20 | other (name : ℕ)
  deriving DecidableEq

/-- `meshio_to_febio_element_types`, lines 41-50. -/
def febioType : CellType → Option String
  | .triangle => some "tri3"
  | .triangle6 => some "tri6"
  | .quad => some "quad4"
  | .quad8 => some "quad8"
  | .tetra => some "tet4"
  | .tetra10 => some "tet10"
  | .hexahedron => some "hex8"
  | .hexahedron20 => some "hex20"
  | .other _ => none

/-- A cell block of meshio with its tags, line 54: the node indices and the tag of every cell. -/
structure Block where
  type : CellType
  cells : List (List ℕ × ℕ)

/-- An array of node indices of numpy: with two dimensions, or with three. -/
inductive NpArray
  | two (rows : List (List ℕ))
  | three (blocks : List (List (List ℕ)))

/-- `indices[~mask]`, lines 60-65.  The mask of `masked_not_equal` shrinks to the scalar `False` when nothing is masked, and indexing an array with the scalar `True` adds a dimension in front. -/
def select (b : Block) (t : ℕ) : NpArray :=
  if b.cells.all fun c => c.2 == t then .three [b.cells.map Prod.fst] else .two ((b.cells.filter fun c => c.2 == t).map Prod.fst)

/-- `np.concatenate` of two arrays along the first axis, lines 65 and 112: numbers of dimensions and the other sizes have to agree. -/
def concatenate : NpArray → NpArray → Option NpArray
  | .two a, .two b => if (a.head?.map List.length) = (b.head?.map List.length) then some (.two (a ++ b)) else none
  | .three a, .three b =>
    if (a.head?.map List.length) = (b.head?.map List.length) ∧ (a.head?.bind List.head?).map List.length = (b.head?.bind List.head?).map List.length then some (.three (a ++ b)) else none
  | _, _ => none

/-- The entries of the dictionary of one tag, in the order of insertion. -/
abbrev Types := List (String × NpArray)

/-- Lines 58-65 for one tag: `elements[t]` is changed.  The array is never empty, because the tag is one of the tags of the block. -/
def addTag (name : String) (b : Block) (d : ℕ → Types) (t : ℕ) : Option (ℕ → Types) :=
  match (d t).find? fun e => e.1 == name with
  | none => some (Function.update d t (d t ++ [(name, select b t)]))
  | some e =>
    match concatenate (select b t) e.2 with
    | none => none
    | some a => some (Function.update d t ((d t).map fun e => if e.1 == name then (name, a) else e))

/-- The loop of lines 57-65.  The order of the tags does not matter, because each one has its own entry. -/
def addTags (name : String) (b : Block) : List ℕ → (ℕ → Types) → Option (ℕ → Types)
  | [], d => some d
  | t :: ts, d => match addTag name b d t with
    | none => none
    | some d => addTags name b ts d

/-- The loop of lines 54-65; the tags of a block are its distinct tags. -/
def sortElements : List Block → (ℕ → Types) → Option (ℕ → Types)
  | [], d => some d
  | b :: bs, d =>
    match febioType b.type with
    | none => none
    | some name => match addTags name b (b.cells.map Prod.snd).dedup d with
      | none => none
      | some d => sortElements bs d

/-- An element of the file: its type, its number and its nodes, which are counted from one. -/
structure Entry where
  type : String
  id : ℕ
  nodes : List ℕ
  deriving DecidableEq

/-- The lines of one array, numbered from `start`. -/
def entries (type : String) (start : ℕ) (rows : List (List ℕ)) : List Entry := rows.mapIdx fun k r => ⟨type, start + k, r.map (· + 1)⟩

/-- `np.concatenate([...])` of line 112: an empty list raises. -/
def concatenateAll : List NpArray → Option NpArray
  | [] => none
  | [a] => some a
  | a :: as => match concatenateAll as with
    | none => none
    | some b => concatenate a b

/-- All the numbers of an array. -/
def NpArray.flat : NpArray → List ℕ
  | .two rows => rows.flatten
  | .three blocks => blocks.flatten.flatten

/-- `base_nodes`, lines 112-114: the distinct numbers in increasing order, then counted from one. -/
def nodeSet (types : Types) : Option (List ℕ) := (concatenateAll (types.map Prod.snd)).map fun a => (a.flat.dedup.insertionSort (· ≤ ·)).map (· + 1)

/-- Lines 116-120: `indices[0]` of an array with two dimensions is one row, whose numbers cannot be iterated. -/
def volumeLines : Types → Option (List Entry)
  | [] => some []
  | (type, .three (rows :: _)) :: ts => (volumeLines ts).map fun l => entries type 1 rows ++ l
  | (_, .three []) :: _ => none
  | (type, .two ([] :: _)) :: ts => volumeLines ts
  | (_, .two _) :: _ => none

/-- Lines 122-126 and 129-133: the rows of an array with three dimensions are lists, to which `1` cannot be added. -/
def surfaceLines : Types → ℕ → Option (List Entry)
  | [], _ => some []
  | (type, .two rows) :: ts, id => (surfaceLines ts (id + rows.length)).map fun l => entries type (id + 1) rows ++ l
  | (type, .three blocks) :: ts, id =>
    if blocks.all List.isEmpty then (surfaceLines ts (id + blocks.length)).map fun l => entries type (id + 1) (blocks.map fun _ => []) ++ l else none

/-- The part of the file of lines 111-134. -/
structure File where
  baseNodes : List ℕ
  volume : List Entry
  base : List Entry
  top : List Entry

/-- Lines 52-134.  A tag without elements is not in the dictionary, which raises. -/
def write (mesh : List Block) (bas top vol : ℕ) : Option File :=
  match sortElements mesh fun _ => [] with
  | none => none
  | some d =>
    if (d bas).isEmpty || (d vol).isEmpty || (d top).isEmpty then none
    else match nodeSet (d bas), volumeLines (d vol), surfaceLines (d bas) 0, surfaceLines (d top) 0 with
      | some n, some v, some b, some t => some ⟨n, v, b, t⟩
      | _, _, _, _ => none

/-- `np.linalg.norm(traction)`, line 144. -/
noncomputable def tractionNorm (T : Fin 3 → ℝ) : ℝ := Real.sqrt (∑ c, T c * T c)

/-- The linear curve through `(0, 0)` and `(nsteps, 1)`, lines 150-153, at the end of step `i`: the size of a step is one, line 90. -/
noncomputable def loadCurve (nsteps i : ℕ) : ℝ := (i + 1) / nsteps

/-- The traction which FEBio applies at step `i`: the scale of line 144 times the curve times the direction of line 145.  `none`: a zero norm gives the direction `nan, nan, nan`. -/
noncomputable def loadAt (T : Fin 3 → ℝ) (nsteps i : ℕ) : Option (Fin 3 → ℝ) :=
  open Classical in if tractionNorm T = 0 then none else some fun c => tractionNorm T * loadCurve nsteps i * (T c / tractionNorm T)

/-- Lines 190-193: the position of the last line which starts with `Data Record`, zero when there is none. -/
def lastRecord {α : Type*} (isRecord : α → Bool) : List α → ℕ → ℕ → ℕ
  | [], _, last => last
  | l :: ls, id, last => lastRecord isRecord ls (id + 1) (if isRecord l then id else last)

/-- `displacement_lines` and the assertion, lines 188-204. -/
def displacementLines {α : Type*} (isRecord : α → Bool) (lines : List α) (numberOfNodes : ℕ) : Option (List α) :=
  let start := lastRecord isRecord lines 0 0 + 5
  let found := (lines.drop start).take numberOfNodes
  if found.length = numberOfNodes then some found else none

end Febio

end Caribou
