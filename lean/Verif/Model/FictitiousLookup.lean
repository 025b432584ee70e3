import Verif.Model.FictitiousLife

/-!
# Fictitious grid: where the surface comes from

`FictitiousGrid<Vec3Types>::init`, `SofaCaribou/Topology/FictitiousGrid.inl:80-287`: the implicit surface, the triangles and the positions are
given by the user or found in the context node.  Messages are left out, except for the warning of line 102, which dereferences a null
pointer.
-/

set_option autoImplicit false

namespace Caribou.FictitiousGrid

/-- A `BaseMeshTopology` of the context node: its triangles, and the data `seqPoints` when it is a `MeshTopology`, `FictitiousGrid.inl:207`. -/
structure SurfaceContainer where
  triangles : List (Fin 3 → ℕ)
  points : Option (List (Fin 3 → ℝ))

/-- A `MechanicalState` of the context node: its data `rest_position`, if it has one, `FictitiousGrid.inl:230-232`. -/
structure SurfaceState where
  rest : Option (List (Fin 3 → ℝ))

/-- What `getObjects<…>(BaseContext::Local)` returns in the context node, and the data to which the user linked the positions. -/
structure GridScene where
  isos : List ((Fin 3 → ℝ) → ℝ)
  containers : List SurfaceContainer
  states : List SurfaceState
  linked : List (Fin 3 → ℝ)

/-- The parent of the data `surface_positions`. -/
inductive PositionParent
  | points (i : ℕ)
  | rest (i : ℕ)
  | other

/-- The value of the parent. -/
def GridScene.value (s : GridScene) : PositionParent → List (Fin 3 → ℝ)
  | .points i => ((s.containers[i]?).bind SurfaceContainer.points).getD []
  | .rest i => ((s.states[i]?).bind SurfaceState.rest).getD []
  | .other => s.linked

/-- The data `iso_surface`, `surface_triangles` and `surface_positions`. -/
structure SurfaceData where
  iso : Option ((Fin 3 → ℝ) → ℝ)
  triangles : List (Fin 3 → ℕ)
  parent : Option PositionParent
  own : List (Fin 3 → ℝ)

/-- `d_surface_positions.getValue()`. -/
def SurfaceData.positions (d : SurfaceData) (s : GridScene) : List (Fin 3 → ℝ) :=
  match d.parent with
  | some p => s.value p
  | none => d.own

/-- The surface elements, `FictitiousGrid.inl:110-185`; `none` for a return, otherwise the data and the index of `topology`. -/
def SurfaceData.findTriangles (d : SurfaceData) (s : GridScene) : Option (SurfaceData × Option ℕ) :=
  if d.triangles = [] then
    match s.containers with
    | [c] => some ({ d with triangles := c.triangles }, some 0)
    | l =>
      match l.zipIdx.filter fun c => !c.1.triangles.isEmpty with
      | [c] => some ({ d with triangles := c.1.triangles }, some c.2)
      | _ => none
  else some (d, none)

/-- The positions, `FictitiousGrid.inl:187-257`; `none` for a return.  `topology` and the grid have the same context. -/
def SurfaceData.findPositions (d : SurfaceData) (topology : Option ℕ) (s : GridScene) : Option SurfaceData :=
  match d.parent with
  | some p => if s.value p = [] then none else some d
  | none =>
    if d.own = [] then
      match topology.bind fun i => (s.containers[i]?).bind fun c => c.points.map fun _ => i with
      | some i => some { d with parent := some (.points i) }
      | none =>
        match s.states with
        | [m] =>
          match m.rest with
          | some (_ :: _) => some { d with parent := some (.rest 0) }
          | _ => none
        | _ => none
    else some d

/-- What `init` found: it returned with an error, or it goes on with the surface of the data or with an implicit surface. -/
inductive SurfaceLookup
  | stopped (d : SurfaceData)
  | surface (d : SurfaceData)
  | implicit (d : SurfaceData) (f : (Fin 3 → ℝ) → ℝ)

/-- `FictitiousGrid.inl:81-257`.  With several implicit surfaces in the node, line 102 calls a method of the null pointer which the link still
is. -/
def SurfaceData.lookup (d : SurfaceData) (s : GridScene) : Outcome SurfaceLookup :=
  match d.iso with
  | some f => .ok (.implicit d f)
  | none =>
    match s.isos with
    | [] =>
      match d.findTriangles s with
      | none => .ok (.stopped d)
      | some (d₁, topology) =>
        match d₁.findPositions topology s with
        | none => .ok (.stopped d₁)
        | some d₂ => .ok (.surface d₂)
    | [f] => .ok (.implicit { d with iso := some f } f)
    | _ :: _ :: _ => .undefined

/-- The component with its data: `grid` holds the remaining data and members, `field` the result with an implicit surface. -/
structure SceneGrid where
  data : SurfaceData
  grid : GridComponent
  field : Option (IsoGrid 3 ℝ)

/-- `init`, `FictitiousGrid.inl:80-287`.  With an implicit surface and without bounds there is an error message and `create_grid` is called
all the same (lines 260-263 and 286), with null corners. -/
noncomputable def SceneGrid.init (lowest highest : ℝ) (s : GridScene) (c : SceneGrid) : Outcome SceneGrid :=
  match c.data.lookup s with
  | .ok (.stopped d) => .ok { c with data := d }
  | .ok (.surface d) =>
    match GridComponent.init lowest highest { c.grid with mesh := ⟨d.positions s, d.triangles⟩ } with
    | .ok g => .ok ⟨d, g, none⟩
    | .throws g => .throws ⟨d, g, none⟩
    | .hangs => .hangs
    | .undefined => .undefined
  | .ok (.implicit d f) =>
    let g := c.grid.gridOfData
    let types := resized c.grid.typesSize c.grid.types g.numberOfCells .undef
    match createGridIso3 c.grid.trianglesSize g f c.grid.levels c.grid.threshold types with
    | .ok r => .ok ⟨d, { c.grid with grid := some g, typesSize := g.numberOfCells, types := r.types, result := none }, some r⟩
    | .throws r => .throws ⟨d, { c.grid with grid := some g, typesSize := g.numberOfCells, types := r.types, result := none }, some r⟩
    | .hangs => .hangs
    | .undefined => .undefined
  | .throws _ => .undefined
  | .hangs => .hangs
  | .undefined => .undefined

end Caribou.FictitiousGrid
