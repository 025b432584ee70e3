import Mathlib.Data.List.Basic
import Mathlib.Logic.Function.Basic
import Mathlib.Data.Fintype.Basic

/-!
# `Mesh` and `Domain` of `src/Caribou/Topology`

Meshes, domains and index buffers are objects at addresses (natural numbers).  The operations of the two classes are
functions on the whole memory, because a domain points to its mesh, a mesh owns its domains, and a domain reads its
connectivity through a pointer.  Addresses of new objects are parameters: the allocator may return any address which
is not in use.
-/

set_option autoImplicit false

namespace Caribou

/-- How a call ends: it returns a value, throws an exception (and leaves the memory as given), never returns, or has
undefined behaviour. -/
inductive Outcome (α : Type*) where
  | ok (a : α)
  | throws (a : α)
  | hangs
  | undefined

/-- The value of `Domain::p_mesh`, `Domain.h:257`: a pointer member without default initialiser. -/
inductive MeshField where
  | null
  | attached (mesh : ℕ)
  | indeterminate
deriving DecidableEq

/-- `Domain::p_elements`, `Domain.h:266`: an Eigen map on an index buffer with its two strides. -/
structure View where
  buffer : ℕ
  rows : ℕ
  cols : ℕ
  outer : ℕ
  inner : ℕ
deriving DecidableEq

/-- A `Domain`, `Domain.h:255-266`: mesh pointer, the buffer it owns, and the view it reads. -/
structure DomainObj where
  mesh : MeshField
  owned : Option ℕ
  view : View
deriving DecidableEq

/-- A `Mesh`, `Mesh.h:603-613`: node positions and the list of named domains (`std::unique_ptr`, so owned). -/
structure MeshObj (K : Type*) (m : ℕ) where
  nodes : List (Fin m → K)
  domains : List (String × ℕ)

/-- The memory. -/
structure World (K : Type*) (m : ℕ) where
  mesh : ℕ → Option (MeshObj K m)
  domain : ℕ → Option DomainObj
  buffer : ℕ → Option (List ℕ)

variable {K : Type*} {m : ℕ}

/-- `while (cond) body;` run for at most `fuel` evaluations of the condition; `none`: still running. -/
def whileLoop {σ : Type*} (cond : σ → Bool) (body : σ → σ) : ℕ → σ → Option σ
  | 0, _ => none
  | fuel + 1, s => if cond s then whileLoop cond body fuel (body s) else some s

/-- The loop of `Mesh::remove_domain` (`Mesh.h:457`) and `Mesh::remove` (`Mesh.h:472`):
`while (it != p_domains.end() and not matches(*it));`.  The body is empty: the iterator `it`, here an index, is never
advanced. -/
def scanBody (it : ℕ) : ℕ := it

/-- The condition of that loop. -/
def scanCond (matches_ : String × ℕ → Bool) (l : List (String × ℕ)) (it : ℕ) : Bool :=
  match l[it]? with
  | none => false
  | some x => !matches_ x

/-- Result of a removal on the list of domains: the erased entry and the list which remains, or `none` when the end was
reached.  A loop that has not stopped after one more evaluation than there are domains never stops (`scan_never` in
`Lemmas/Mesh.lean`). -/
def removeScan (matches_ : String × ℕ → Bool) (l : List (String × ℕ)) :
    Outcome (Option (String × ℕ) × List (String × ℕ)) :=
  match whileLoop (scanCond matches_ l) scanBody (l.length + 1) 0 with
  | none => .hangs
  | some it =>
    match l[it]? with
    | some x => .ok (some x, l.eraseIdx it)
    | none => .ok (none, l)

namespace World

/-- Replaces the mesh at an address. -/
def setMesh (w : World K m) (a : ℕ) (M : Option (MeshObj K m)) : World K m :=
  { w with mesh := Function.update w.mesh a M }

/-- Replaces the domain at an address. -/
def setDomain (w : World K m) (a : ℕ) (D : Option DomainObj) : World K m :=
  { w with domain := Function.update w.domain a D }

/-- Replaces the buffer at an address. -/
def setBuffer (w : World K m) (a : ℕ) (B : Option (List ℕ)) : World K m :=
  { w with buffer := Function.update w.buffer a B }

/-- Destructor of a domain, `Domain.h:108`: frees the domain and the buffer it owns. -/
def destroyDomain (w : World K m) (d : ℕ) : World K m :=
  match w.domain d with
  | none => w
  | some D =>
    match D.owned with
    | none => w.setDomain d none
    | some b => (w.setBuffer b none).setDomain d none

end World

/-- The arguments of the public constructors of a domain, `Domain.h:184-220`. -/
inductive DomainSource where
  /-- `Domain(mesh, const ElementsIndices &)`, 184-193: copies the table, `buffer` is the address of the copy. -/
  | copied (buffer : ℕ) (cols : ℕ) (table : List (List ℕ))
  /-- `Domain(mesh, const ElementsIndices *)` and `Domain(mesh, data, n, cols)`, 201-211: a view on an external array in
  row major order. -/
  | external (buffer rows cols : ℕ)
  /-- `Domain(mesh, data, n, cols, outer, inner)`, 219-220. -/
  | strided (buffer rows cols outer inner : ℕ)

/-- The buffer allocated by the constructor (row major storage, `Domain.h:88`), if any. -/
def DomainSource.allocates : DomainSource → Option (ℕ × List ℕ)
  | .copied b _ table => some (b, table.flatten)
  | .external .. => none
  | .strided .. => none

/-- The object built by the constructor, `Domain.h:184-220`. -/
def DomainSource.build (mesh : MeshField) : DomainSource → DomainObj
  | .copied b cols table => ⟨mesh, some b, ⟨b, table.length, cols, cols, 1⟩⟩
  | .external b rows cols => ⟨mesh, none, ⟨b, rows, cols, cols, 1⟩⟩
  | .strided b rows cols outer inner => ⟨mesh, none, ⟨b, rows, cols, outer, inner⟩⟩

namespace World

/-- `new Domain<Element, NodeIndex>(mesh, args...)` at the address `d`. -/
def construct (w : World K m) (d : ℕ) (mesh : MeshField) (src : DomainSource) : World K m :=
  let w := match src.allocates with
    | none => w
    | some (b, data) => w.setBuffer b (some data)
  w.setDomain d (some (src.build mesh))

/-- The addresses used by a construction are not in use. -/
def freshFor (w : World K m) (d : ℕ) (src : DomainSource) : Bool :=
  (w.domain d).isNone && (match src.allocates with | none => true | some (b, _) => (w.buffer b).isNone)

/-- `Domain::attach_to`, `Domain.h:225-238`.  Reading an indeterminate pointer is undefined behaviour. -/
def attachTo (w : World K m) (d a : ℕ) : Outcome (World K m) :=
  match w.domain d with
  | none => .undefined
  | some D =>
    match D.mesh with
    | .indeterminate => .undefined
    | .attached a' => if a = a' then .ok w else .throws w
    | .null => .ok (w.setDomain d (some { D with mesh := .attached a }))

/-- `p_domains.emplace_back(name, domain)`, `Mesh.h:437`. -/
def pushDomain (w : World K m) (a : ℕ) (name : String) (d : ℕ) : World K m :=
  match w.mesh a with
  | none => w
  | some M => w.setMesh a (some { M with domains := M.domains ++ [(name, d)] })

/-- `Mesh::add_domain(BaseDomain *, const std::string &)`, `Mesh.h:414-439`. -/
def addPtr (w : World K m) (a d : ℕ) (name : String) : Outcome (World K m) :=
  match w.mesh a, w.domain d with
  | some M, some D =>
    match D.mesh with
    | .indeterminate => .undefined
    | .attached a' =>
      if a = a' then
        match M.domains.find? (fun x => x.2 == d) with
        | some x => if x.1 ≠ name then .throws w else .ok w
        | none => .ok (w.pushDomain a name d)
      else .throws w
    | .null =>
      match w.attachTo d a with
      | .ok w' => .ok (w'.pushDomain a name d)
      | o => o
  | _, _ => .undefined

/-- `Mesh::add_domain(BaseDomain *)`, `Mesh.h:444-448`.  `fmt` is the text of a pointer (`operator<<(const void *)`, which
is implementation defined). -/
def addPtrAnonymous (fmt : ℕ → String) (w : World K m) (a d : ℕ) : Outcome (World K m) :=
  w.addPtr a d ("domain_" ++ fmt d)

/-- `Mesh::add_domain<Element, NodeIndex>(name, args...)`, `Mesh.h:331-346` (and 376-393 which forward to it). -/
def addNamed (w : World K m) (a : ℕ) (name : String) (d : ℕ) (src : DomainSource) : Outcome (World K m) :=
  match w.mesh a with
  | none => .undefined
  | some M =>
    if M.domains.any (fun x => x.1 == name) then .throws w
    else (w.construct d (.attached a) src).addPtr a d name

/-- `Mesh::add_domain<Element, NodeIndex>(args...)`, `Mesh.h:356-366` and 402-409. -/
def addAnonymous (fmt : ℕ → String) (w : World K m) (a d : ℕ) (src : DomainSource) : Outcome (World K m) :=
  match w.mesh a with
  | none => .undefined
  | some _ => (w.construct d (.attached a) src).addPtrAnonymous fmt a d

/-- `p_domains.erase(it)` destroys the domain (undefined when it was destroyed before); shared by the two removals. -/
def removeWith (matches_ : String × ℕ → Bool) (w : World K m) (a : ℕ) : Outcome (Bool × World K m) :=
  match w.mesh a with
  | none => .undefined
  | some M =>
    match removeScan matches_ M.domains with
    | .ok (some x, rest) =>
      if (w.domain x.2).isSome then .ok (true, (w.setMesh a (some { M with domains := rest })).destroyDomain x.2)
      else .undefined
    | .ok (none, _) => .ok (false, w)
    | .throws _ => .throws (false, w)
    | .hangs => .hangs
    | .undefined => .undefined

/-- `Mesh::remove_domain(name)`, `Mesh.h:455-463`. -/
def removeDomain (w : World K m) (a : ℕ) (name : String) : Outcome (Bool × World K m) :=
  w.removeWith (fun x => x.1 == name) a

/-- `Mesh::remove(domain)`, `Mesh.h:470-478`. -/
def remove (w : World K m) (a d : ℕ) : Outcome (Bool × World K m) :=
  w.removeWith (fun x => x.2 == d) a

/-- `Mesh::domain(name)`, `Mesh.h:313-321`. -/
def lookup (w : World K m) (a : ℕ) (name : String) : Option ℕ :=
  match w.mesh a with
  | none => none
  | some M => (M.domains.find? (fun x => x.1 == name)).map (·.2)

/-- `Domain::clone()` with the copy constructor, `Domain.h:99-115`: the buffer is copied (to `b`), the view is the view of
the original, and `p_mesh` is not initialised. -/
def cloneDomain (w : World K m) (d d' b : ℕ) : World K m :=
  match w.domain d with
  | none => w
  | some D =>
    let w := w.setBuffer b (some (match D.owned with
      | none => []
      | some b' => (w.buffer b').getD []))
    w.setDomain d' (some ⟨.indeterminate, some b, D.view⟩)

/-- The loop of the copy constructor of a mesh, `Mesh.h:225-229`; `addrs` are the addresses given by the allocator. -/
def cloneAll (w : World K m) : List (String × ℕ) → List (ℕ × ℕ) → World K m × List (String × ℕ)
  | x :: xs, (d', b) :: addrs =>
    let r := (w.cloneDomain x.2 d' b).cloneAll xs addrs
    (r.1, (x.1, d') :: r.2)
  | _, _ => (w, [])

/-- Copy constructor of a mesh, `Mesh.h:220-230`, at the address `a'`. -/
def copyMesh (w : World K m) (a a' : ℕ) (addrs : List (ℕ × ℕ)) : World K m :=
  match w.mesh a with
  | none => w
  | some M =>
    let r := w.cloneAll M.domains addrs
    r.1.setMesh a' (some ⟨M.nodes, r.2⟩)

/-- `swap(first, second)`, `Mesh.h:594-601`. -/
def swapMesh (w : World K m) (a a' : ℕ) : World K m :=
  { w with mesh := Function.update (Function.update w.mesh a (w.mesh a')) a' (w.mesh a) }

/-- Move constructor of a mesh, `Mesh.h:233-236`: an empty mesh, then a swap. -/
def moveMesh (w : World K m) (a a' : ℕ) : World K m := (w.setMesh a' (some ⟨[], []⟩)).swapMesh a' a

/-- Destructor of a mesh, `Mesh.h:143`: destroys the domains it owns (undefined when one of them was destroyed before). -/
def deleteMesh (w : World K m) (a : ℕ) : Outcome (World K m) :=
  match w.mesh a with
  | none => .undefined
  | some M =>
    if (M.domains.all fun x => (w.domain x.2).isSome) && decide (M.domains.map (·.2)).Nodup then
      .ok ((M.domains.foldl (fun w x => w.destroyDomain x.2) w).setMesh a none)
    else .undefined

end World

/-- The calls a user can make. -/
inductive MeshOp (K : Type*) (m : ℕ) where
  /-- a new mesh with the given positions, `Mesh.h:138-189` -/
  | newMesh (a : ℕ) (nodes : List (Fin m → K))
  /-- the user allocates an array of indices -/
  | newBuffer (b : ℕ) (data : List ℕ)
  /-- a domain which belongs to no mesh yet, `Domain(nullptr, ...)` -/
  | newDomain (d : ℕ) (src : DomainSource)
  | addNamed (a : ℕ) (name : String) (d : ℕ) (src : DomainSource)
  | addAnonymous (a : ℕ) (d : ℕ) (src : DomainSource)
  | addPtr (a d : ℕ) (name : String)
  | addPtrAnonymous (a d : ℕ)
  | attachTo (d a : ℕ)
  | removeDomain (a : ℕ) (name : String)
  | remove (a d : ℕ)
  | copyMesh (a a' : ℕ) (addrs : List (ℕ × ℕ))
  | moveMesh (a a' : ℕ)
  | swapMesh (a a' : ℕ)
  | deleteMesh (a : ℕ)

/-- The value of a call, without its returned boolean. -/
def Outcome.world : Outcome (Bool × World K m) → Outcome (World K m)
  | .ok r => .ok r.2
  | .throws r => .throws r.2
  | .hangs => .hangs
  | .undefined => .undefined

/-- One call.  A call with an address in use, where the allocator has to give a new one, cannot happen; it is mapped to
`undefined`. -/
def World.step (fmt : ℕ → String) (w : World K m) : MeshOp K m → Outcome (World K m)
  | .newMesh a nodes => if (w.mesh a).isNone then .ok (w.setMesh a (some ⟨nodes, []⟩)) else .undefined
  | .newBuffer b data => if (w.buffer b).isNone then .ok (w.setBuffer b (some data)) else .undefined
  | .newDomain d src => if w.freshFor d src then .ok (w.construct d .null src) else .undefined
  | .addNamed a name d src => if w.freshFor d src then w.addNamed a name d src else .undefined
  | .addAnonymous a d src => if w.freshFor d src then w.addAnonymous fmt a d src else .undefined
  | .addPtr a d name => w.addPtr a d name
  | .addPtrAnonymous a d => w.addPtrAnonymous fmt a d
  | .attachTo d a => w.attachTo d a
  | .removeDomain a name => (w.removeDomain a name).world
  | .remove a d => (w.remove a d).world
  | .copyMesh a a' addrs =>
    if (w.mesh a').isNone && (addrs.all fun x => (w.domain x.1).isNone && (w.buffer x.2).isNone) &&
        addrs.length == ((w.mesh a).map fun M => M.domains.length).getD 0 &&
        decide (addrs.map (·.1)).Nodup && decide (addrs.map (·.2)).Nodup
    then .ok (w.copyMesh a a' addrs) else .undefined
  | .moveMesh a a' => if (w.mesh a').isNone && (w.mesh a).isSome then .ok (w.moveMesh a a') else .undefined
  | .swapMesh a a' => if (w.mesh a).isSome && (w.mesh a').isSome then .ok (w.swapMesh a a') else .undefined
  | .deleteMesh a => w.deleteMesh a

/-- A sequence of calls.  An exception is caught and the sequence goes on; a call that hangs or is undefined ends it. -/
def World.run (fmt : ℕ → String) (w : World K m) : List (MeshOp K m) → Outcome (World K m)
  | [] => .ok w
  | op :: ops =>
    match w.step fmt op with
    | .ok w' => w'.run fmt ops
    | .throws w' => w'.run fmt ops
    | .hangs => .hangs
    | .undefined => .undefined

/-- The memory before the first call. -/
def World.initial (K : Type*) (m : ℕ) : World K m := ⟨fun _ => none, fun _ => none, fun _ => none⟩

namespace MeshObj

/-- `Mesh::position(index)`, `Mesh.h:484-489` (a read outside of the table is undefined behaviour in release). -/
def position (M : MeshObj K m) (i : ℕ) : Outcome (Fin m → K) :=
  match M.nodes[i]? with
  | some p => .ok p
  | none => .undefined

/-- The loop of `Mesh::positions(indices)`, `Mesh.h:505-513`, `550-559`, `577-591`. -/
def positions (M : MeshObj K m) : List ℕ → Outcome (List (Fin m → K))
  | [] => .ok []
  | i :: rest =>
    match M.position i, M.positions rest with
    | .ok p, .ok ps => .ok (p :: ps)
    | _, _ => .undefined

/-- `Mesh::node(id)`, `Mesh.h:271-282`: a vector with three coordinates of which only the first `Dimension` ones are
written; `none` stands for an indeterminate coordinate. -/
def node (M : MeshObj K m) (i : ℕ) : Outcome (Fin 3 → Option K) :=
  match M.position i with
  | .ok p => .ok fun c =>
      if h0 : c.val = 0 then (if h : 0 < m then some (p ⟨0, h⟩) else none)
      else if c.val = 1 then (if h : 1 < m then some (p ⟨1, h⟩) else none)
      else (if h : 2 < m then some (p ⟨2, h⟩) else none)
  | _ => .undefined

end MeshObj

namespace World

/-- One entry of `Domain::element_indices(e)`, `Domain.h:286-292`. -/
def elementIndex (w : World K m) (D : DomainObj) (e j : ℕ) : Outcome ℕ :=
  match w.buffer D.view.buffer with
  | none => .undefined
  | some data =>
    match data[e * D.view.outer + j * D.view.inner]? with
    | none => .undefined
    | some i => .ok i

/-- `Domain::element_indices(e)`, `Domain.h:286-292`. -/
def elementIndices (w : World K m) (D : DomainObj) (e : ℕ) : ℕ → Outcome (List ℕ)
  | 0 => .ok []
  | n + 1 =>
    match w.elementIndices D e n, w.elementIndex D e n with
    | .ok is, .ok i => .ok (is ++ [i])
    | _, _ => .undefined

/-- The row of node `i` written by `Domain::element(id)`, `Domain.h:328-336`: the first `Dimension` coordinates of
`mesh()->node(i)`. -/
def nodeRow (M : MeshObj K m) (i : ℕ) : Outcome (Fin m → Option K) :=
  match M.node i with
  | .ok n => .ok fun c =>
      if c.val = 0 then n 0 else if c.val = 1 then n 1 else if c.val = 2 then n 2 else none
  | _ => .undefined

/-- The loop of `Domain::element(id)`, `Domain.h:326-337`, over the node indices of the element. -/
def nodeRows (M : MeshObj K m) : List ℕ → Outcome (List (Fin m → Option K))
  | [] => .ok []
  | i :: rest =>
    match nodeRow M i, nodeRows M rest with
    | .ok p, .ok ps => .ok (p :: ps)
    | _, _ => .undefined

/-- `Domain::element(id)`, `Domain.h:317-340`: the node positions of the element. -/
def element (w : World K m) (d e : ℕ) : Outcome (List (Fin m → Option K)) :=
  match w.domain d with
  | none => .undefined
  | some D =>
    match w.elementIndices D e D.view.cols, D.mesh with
    | .ok is, .attached a =>
      match w.mesh a with
      | none => .undefined
      | some M => nodeRows M is
    | _, _ => .undefined

/-- The loop of `Domain::element(id, positions)`, `Domain.h:308-311`. -/
def givenRows (positions : List (Fin m → K)) : List ℕ → Outcome (List (Fin m → K))
  | [] => .ok []
  | i :: rest =>
    match positions[i]?, givenRows positions rest with
    | some p, .ok ps => .ok (p :: ps)
    | _, _ => .undefined

/-- `Domain::element(id, positions)`, `Domain.h:296-314`. -/
def elementWith (w : World K m) (d e : ℕ) (positions : List (Fin m → K)) : Outcome (List (Fin m → K)) :=
  match w.domain d with
  | none => .undefined
  | some D =>
    match w.elementIndices D e D.view.cols with
    | .ok is => givenRows positions is
    | _ => .undefined

end World

end Caribou
