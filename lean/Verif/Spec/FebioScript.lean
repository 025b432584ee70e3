import Verif.Model.FebioScript

/-!
# Specification vocabulary for the input file of FEBio
-/

set_option autoImplicit false

namespace Caribou.Spec

open Febio

/-- The elements of the mesh with tag `t`: their type and their nodes, counted from one. -/
def taggedElements (mesh : List Block) (t : ℕ) : List (Option String × List ℕ) :=
  mesh.flatMap fun b => (b.cells.filter fun c => c.2 = t).map fun c => (febioType b.type, c.1.map (· + 1))

/-- All the cells of the block have the same tag `t`. -/
def OnlyTag (b : Block) (t : ℕ) : Prop := ∀ c ∈ b.cells, c.2 = t

/-- The block has a cell with tag `t`. -/
def HasTag (b : Block) (t : ℕ) : Prop := ∃ c ∈ b.cells, c.2 = t

/-- What the script needs from the mesh. -/
structure FebioMesh (mesh : List Block) (bas top vol : ℕ) : Prop where
  known : ∀ b ∈ mesh, (febioType b.type).isSome
  distinct : (mesh.map Block.type).Nodup
  volume : ∀ b ∈ mesh, HasTag b vol → OnlyTag b vol
  surface : ∀ b ∈ mesh, ∀ t, t = bas ∨ t = top → HasTag b t → ¬ OnlyTag b t
  hasVolume : ∃ b ∈ mesh, HasTag b vol
  hasTop : ∃ b ∈ mesh, HasTag b top
  hasBase : ∃ b ∈ mesh, HasTag b bas ∧ ∀ c ∈ mesh, HasTag c bas → c.type = b.type

end Caribou.Spec
