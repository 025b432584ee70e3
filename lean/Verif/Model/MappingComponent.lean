import Verif.Model.Mapping
import Verif.Model.Mesh

/-!
# The life of `CaribouBarycentricMapping`: looking for the topology, sizes, calls in incomplete scenes

`Model/Mapping.lean` has the same component in a complete scene.  Here the topology may be missing or empty, and the vectors of
the two mechanical objects have any sizes.

Simplifications: the context is a `Node` (the cast of line 35 is not checked by the code) and both mechanical objects exist; the
size of a mechanical object is the length of its positions; parent and mapped objects have the same scalars and the same
dimension; the domain of a topology is not replaced while a container refers to it (see `C80`); the domain refers to nodes of its
mesh only.
-/

set_option autoImplicit false

namespace Caribou

variable {K : Type*} [Field K] {m d n : ℕ}

/-- What the mapping can find in the scene graph: the `CaribouTopology<Element>` of its own node, those of the first parent and of
the ancestors of this parent, nearest first (`none` for the root, which has no parent), and the domain of each topology (`none` for
a null pointer). -/
structure MappingScene (K : Type*) (m n : ℕ) where
  own : List ℕ
  above : Option (List ℕ)
  domain : ℕ → Option (MeshDomain K m n)

/-- The vectors of the parent and of the mapped mechanical object. -/
structure MappedObjects (K : Type*) (m : ℕ) where
  parentX : List (Fin m → K)
  parentV : List (Fin m → K)
  mappedX : List (Fin m → K)
  mappedRest : List (Fin m → K)
  mappedV : List (Fin m → K)

/-- The members of the component, `CaribouBarycentricMapping.h:74-80`: the link, the container (with the domain it points to) and the
mapping matrix. -/
structure MappingComponent (K : Type*) (m d n : ℕ) where
  link : Option ℕ
  container : Option (Σ D : MeshDomain K m n, MeshDomain.Embedded K d D.numElements)
  J : SMatrix K

namespace MappingComponent

/-- The constructor, `CaribouBarycentricMapping.inl:23-27`, with the link given by the scene. -/
def fresh (link : Option ℕ) : MappingComponent K m d n := ⟨link, none, SMatrix.empty false 0 0⟩

/-- `context->get<CaribouTopology>()` (SOFA, `SearchUp`) from the first parent, then from the node of the mapping,
`CaribouBarycentricMapping.inl:35-47`. -/
def searchTopology (scene : MappingScene K m n) : Option ℕ :=
  let fromParent := match scene.above with
    | none => none
    | some above => above.head?
  match fromParent with
  | some t => some t
  | none => (scene.own ++ scene.above.getD []).head?

/-- The container used after the sanity check of the other methods, `CaribouBarycentricMapping.inl:133-135`. -/
def ready (s : MappingComponent K m d n) : Option (Σ D : MeshDomain K m n, MeshDomain.Embedded K d D.numElements) :=
  s.container.filter fun c => c.2.outside.isEmpty

/-- `apply` and `applyJ`, `CaribouBarycentricMapping.inl:129-188`: the maps are made from the first entries of the vectors, then
`interpolate` checks the sizes (`BarycentricContainer.h:179-189`) and writes the rows. -/
def applyTo (ops : ElementOps K m d n) (s : MappingComponent K m d n) {k : ℕ} (output input : List (Fin k → K)) :
    Outcome (List (Fin k → K)) :=
  match s.ready with
  | none => .ok output
  | some c =>
    if input.isEmpty || output.isEmpty then .undefined
    else if h : input.length = c.1.numNodes then
      if output.length = c.2.points.length then
        .ok (List.zipWith (fun row old => row.getD old)
          (c.1.interpolate ops c.2 fun b => input[b.val]'(by rw [h]; exact b.isLt)) output)
      else .throws output
    else .throws output

/-- `applyJT` on forces, `CaribouBarycentricMapping.inl:191-220`: the sizes of the product of line 218 are not checked. -/
def applyJT (s : MappingComponent K m d n) {k : ℕ} (output input : List (Fin k → K)) : Outcome (List (Fin k → K)) :=
  match s.ready with
  | none => .ok output
  | some c =>
    if output.isEmpty || input.isEmpty then .undefined
    else if output.length = s.J.cols ∧ input.length = s.J.rows then
      .ok ((List.range output.length).map
        (BarycentricMapping.applyJT ⟨some c.2, s.J⟩ (fun b => output.getD b 0) fun i => input.getD i 0))
    else .undefined

/-- `draw` with the mappings shown, `CaribouBarycentricMapping.inl:277-297`: the points which are drawn, in red. -/
def draw (s : MappingComponent K m d n) (rest : List (Fin m → K)) : Outcome (List (Fin m → K)) :=
  match s.container with
  | none => .ok []
  | some c => if c.2.outside.all fun i => i < rest.length then .ok (c.2.outside.map fun i => rest.getD i 0) else .undefined

variable [LinearOrder K] [FloorRing K]

/-- `sofa::core::Mapping::init` (SOFA), called at `CaribouBarycentricMapping.inl:125`: the positions, then the velocities are mapped
(not the rest positions, unless `applyRestPosition` is set). -/
def initBase (ops : ElementOps K m d n) (s : MappingComponent K m d n) (o : MappedObjects K m) :
    Outcome (MappingComponent K m d n × MappedObjects K m) :=
  match s.applyTo ops o.mappedX o.parentX with
  | .ok x =>
    match s.applyTo ops o.mappedV o.parentV with
    | .ok v => .ok (s, { o with mappedX := x, mappedV := v })
    | .throws _ => .throws (s, { o with mappedX := x })
    | .hangs => .hangs
    | .undefined => .undefined
  | .throws _ => .throws (s, o)
  | .hangs => .hangs
  | .undefined => .undefined

/-- The mapping matrix, `CaribouBarycentricMapping.inl:105-125`: `setFromTriplets` does not check the indices. -/
def initMatrix (ops : ElementOps K m d n) (s : MappingComponent K m d n) (D : MeshDomain K m n)
    (c : MeshDomain.Embedded K d D.numElements) (o : MappedObjects K m) : Outcome (MappingComponent K m d n × MappedObjects K m) :=
  let entries := BarycentricMapping.entries ops D c
  if entries.all fun e => decide (e.1 < o.mappedX.length) && decide (e.2.1 < o.parentX.length) then
    initBase ops { s with J := (SMatrix.empty false o.mappedX.length o.parentX.length).setFromTriplets entries } o
  else .undefined

/-- `init` after the topology is known, `CaribouBarycentricMapping.inl:61-126`. -/
def initWith (ops : ElementOps K m d n) (s : MappingComponent K m d n) (domain : Option (MeshDomain K m n)) (o : MappedObjects K m) :
    Outcome (MappingComponent K m d n × MappedObjects K m) :=
  match domain with
  | none => .ok (s, o)
  | some D =>
    if o.parentX.length = 0 then .ok (s, o)
    else if o.mappedX.length = 0 then .ok (s, o)
    else
      let o := { o with mappedRest := if o.mappedRest.isEmpty then o.mappedX else o.mappedRest }
      match D.container ops o.mappedRest with
      | none => .throws (s, o)
      | some c =>
        let s := { s with container := some ⟨D, c⟩ }
        if !c.outside.isEmpty then .ok (s, o) else initMatrix ops s D c o

/-- `init`, `CaribouBarycentricMapping.inl:30-126`. -/
def init (ops : ElementOps K m d n) (s : MappingComponent K m d n) (scene : MappingScene K m n) (o : MappedObjects K m) :
    Outcome (MappingComponent K m d n × MappedObjects K m) :=
  match s.link with
  | some t => initWith ops s (scene.domain t) o
  | none =>
    match searchTopology scene with
    | none => .ok (s, o)
    | some t => initWith ops { s with link := some t } (scene.domain t) o

end MappingComponent

end Caribou
