import Verif.Model.Mesh

/-!
# `CaribouTopology` of `src/SofaCaribou/Topology`

A domain is represented by the positions of its mesh and its table of node indices.  The domain created by the component itself
does not own its indices: it is built with the pointer to the storage of the data `indices`.  The lifetime of a domain given to
`attachDomain` (the caller has to keep it) is not modelled, nor are the SOFA data engine and the messages.
-/

set_option autoImplicit false

namespace Caribou

variable {K : Type*} {m : ℕ}

/-- Where a domain reads its indices: a table of its own, or `rows` rows from the storage of the data `indices`. -/
inductive TopoTable where
  | own (table : List (List ℕ))
  | view (rows : ℕ)

/-- A domain with the nodes of its mesh. -/
structure TopoDomain (K : Type*) (m : ℕ) where
  nodes : List (Fin m → K)
  table : TopoTable

/-- The state of the component: the data `position` and `indices` (`CaribouTopology.h:144-148`), whether they are set, the domain,
the rest positions of the mechanical state of the context, if there is one, and whether the storage which a view designates is
still the storage of `indices`. -/
structure TopoState (K : Type*) (m : ℕ) where
  positions : List (Fin m → K)
  positionsSet : Bool
  indices : List (List ℕ)
  indicesSet : Bool
  domain : Option (TopoDomain K m)
  restPosition : Option (List (Fin m → K))
  storage : Bool

/-- The user assigns the data `indices`; `realloc`: the vector allocates a new array (it has to when the capacity is too small). -/
def setIndices (s : TopoState K m) (table : List (List ℕ)) (realloc : Bool) : TopoState K m :=
  { s with indices := table, indicesSet := true, storage := s.storage && !realloc }

/-- `attachDomain`, `CaribouTopology.inl:26-41`: keeps the pointer and copies the indices of the domain to the data, which sets
it. -/
def attachDomain (s : TopoState K m) (nodes : List (Fin m → K)) (table : List (List ℕ)) (realloc : Bool) : TopoState K m :=
  { setIndices s table realloc with domain := some ⟨nodes, .own table⟩ }

/-- The inner loop of the validation, `CaribouTopology.inl:63-70`: stops at the first invalid index. -/
def hasInvalidNode (size : ℕ) : List ℕ → Bool
  | [] => false
  | i :: is => if i ≥ size then true else hasInvalidNode size is

/-- `invalid_elements`, `CaribouTopology.inl:61-70`. -/
def invalidElements (size : ℕ) (indices : List (List ℕ)) : ℕ :=
  indices.foldl (fun c e => if hasInvalidNode size e then c + 1 else c) 0

/-- `initializeFromIndices`, `CaribouTopology.inl:44-100`.  The domain is made from `indices[0].data()`, lines 98-99, through
`Domain(mesh, data, n, cols)` (`Domain.h:201-211`), which does not copy. -/
def initializeFromIndices (s : TopoState K m) : TopoState K m :=
  if s.indices.isEmpty then s
  else if s.positions.isEmpty then s
  else if invalidElements s.positions.length s.indices > 0 then s
  else { s with domain := some ⟨s.positions, .view s.indices.length⟩, storage := true }

/-- The search of positions in the context, `CaribouTopology.inl:114-122`. -/
def findPositions (s : TopoState K m) : TopoState K m :=
  if !s.indices.isEmpty && !s.positionsSet then
    match s.restPosition with
    | none => s
    | some x => { s with positions := x, positionsSet := true }
  else s

/-- `init`, `CaribouTopology.inl:103-127`. -/
def topologyInit (s : TopoState K m) : TopoState K m :=
  if s.indicesSet then initializeFromIndices (findPositions s) else s

/-- `number_of_elements`, `CaribouTopology.h:109-111`. -/
def topologySize (s : TopoState K m) : ℕ :=
  match s.domain with
  | none => 0
  | some ⟨_, .own t⟩ => t.length
  | some ⟨_, .view n⟩ => n

/-- The indices which the domain reads for an element; `none`: outside of its table, or in an array which was freed. -/
def topologyIndices (s : TopoState K m) (e : ℕ) : Option (List ℕ) :=
  match s.domain with
  | none => none
  | some ⟨_, .own t⟩ => t[e]?
  | some ⟨_, .view n⟩ => if s.storage && decide (e < n) then s.indices[e]? else none

/-- `element(element_id)`, `CaribouTopology.h:96-99`, through `Domain::element` and `Mesh::positions`: the node positions of an
element; a missing domain, element or node is undefined behaviour. -/
def topologyElement (s : TopoState K m) (e : ℕ) : Outcome (List (Fin m → K)) :=
  match s.domain, topologyIndices s e with
  | some d, some ids =>
    if ids.all (fun i => i < d.nodes.length) then .ok (ids.filterMap fun i => d.nodes[i]?) else .undefined
  | _, _ => .undefined

end Caribou
