import Verif.Lemmas.Mesh
import Mathlib.Data.Rat.Defs
import Mathlib.Tactic.NormNum
import Mathlib.Data.Fin.VecNotation

/-!
# C37–C40, C71: the mesh and its domains
-/

set_option autoImplicit false

namespace Caribou

open World

variable {K : Type*} {m : ℕ}

/-! ### C37 -/

/-- C37 (partial): after any history in which named domains are added by `add_domain<Element>(name, ...)`, with removals,
copies, moves, swaps and deletions of meshes, every mesh lists each name at most once and a lookup by name returns the
domain listed under that name.  Missing: the overload `add_domain(domain, name)`, see `C37_violated`, and automatic names,
see `C37_automatic_partial`. -/
theorem C37_partial (fmt : ℕ → String) (hist : List (MeshOp K m)) (hc : ∀ op ∈ hist, op.Checked) (w : World K m)
    (hw : (World.initial K m).run fmt hist = .ok w) (a : ℕ) (M : MeshObj K m) (hM : w.mesh a = some M) :
    UniqueNames M.domains ∧ ∀ name d, (name, d) ∈ M.domains → w.lookup a name = some d := by
  have h := Registry.run hist registry_initial hc hw
  refine ⟨h.names a M hM, fun name d hx => ?_⟩
  simp only [World.lookup, hM, find_unique (h.names a M hM) hx, Option.map_some]

/-- C37: a name in use is rejected and nothing changes. -/
theorem C37_rejected (w : World K m) (a : ℕ) (M : MeshObj K m) (hM : w.mesh a = some M) (name : String) (d d' : ℕ)
    (hx : (name, d) ∈ M.domains) (src : DomainSource) : w.addNamed a name d' src = .throws w := by
  have : M.domains.any (fun x => x.1 == name) = true := List.any_eq_true.mpr ⟨_, hx, by simp⟩
  simp only [World.addNamed, hM, this, if_true]

/-- C37: a new name is accepted; afterwards the lookup of the name gives the new domain, and no other lookup, in this mesh
or another one, has changed. -/
theorem C37_added (fmt : ℕ → String) (hist : List (MeshOp K m)) (hc : ∀ op ∈ hist, op.Checked) (w : World K m)
    (hw : (World.initial K m).run fmt hist = .ok w) (a : ℕ) (M : MeshObj K m) (hM : w.mesh a = some M) (name : String) (d : ℕ)
    (hn : ∀ d', (name, d') ∉ M.domains) (src : DomainSource) (hd : w.domain d = none) :
    ∃ w', w.addNamed a name d src = .ok w' ∧ w'.lookup a name = some d ∧ w'.lookup a name ≠ w.lookup a name ∧
      ∀ a' name', a' ≠ a ∨ name' ≠ name → w'.lookup a' name' = w.lookup a' name' := by
  have h := Registry.run hist registry_initial hc hw
  have hs : name ∉ M.domains.map Prod.fst := by
    intro hc
    obtain ⟨x, hx, rfl⟩ := List.mem_map.mp hc
    exact hn x.2 hx
  have hnone : M.domains.find? (fun x => x.1 == name) = none := by
    rw [List.find?_eq_none]
    intro x hx hc
    simp only [beq_iff_eq] at hc
    exact hs (hc ▸ List.mem_map_of_mem hx)
  rcases addNamed_ok (w := w) (a := a) (d := d) (s := name) (src := src) (fun M hM => h.fresh hd a M hM) with e | ⟨N, hN, hNs, e⟩ | ⟨N, hN, hNs, e⟩
  · exfalso
    revert e
    have : M.domains.any (fun x => x.1 == name) = false := by
      rw [List.any_eq_false]
      rw [List.find?_eq_none] at hnone
      exact hnone
    have hfind : M.domains.find? (fun x => x.2 == d) = none := by
      rw [List.find?_eq_none]
      intro x hx hc
      simp only [beq_iff_eq] at hc
      exact h.fresh hd a M hM (hc ▸ List.mem_map_of_mem hx)
    simp only [World.addNamed, hM, this, World.addPtr, construct_mesh, construct_domain, Function.update_self, build_mesh, if_true,
      hfind]
    intro h; cases h
  · rw [hM] at hN; cases hN; exact (hs hNs).elim
  · rw [hM] at hN; cases hN
    have hmesh : ((w.construct d (.attached a) src).pushDomain a name d).mesh =
        Function.update w.mesh a (some { M with domains := M.domains ++ [(name, d)] }) := by
      rw [pushDomain_mesh _ a name d M (by rw [construct_mesh]; exact hM), construct_mesh]
    have h1 : ((w.construct d (.attached a) src).pushDomain a name d).lookup a name = some d := by
      simp only [World.lookup, hmesh, Function.update_self, List.find?_append, hnone]
      simp
    refine ⟨_, e, h1, ?_, ?_⟩
    · rw [h1]
      simp only [World.lookup, hM, hnone]
      simp
    · intro a' name' hne
      by_cases ha : a' = a
      · subst ha
        have hne' : name ≠ name' := by rcases hne with h | h; exact (h rfl).elim; exact Ne.symm h
        simp only [World.lookup, hmesh, Function.update_self, hM, List.find?_append]
        simp [hne']
      · simp only [World.lookup, hmesh, Function.update_of_ne ha]

/-- C37 (partial), with automatic names: names stay unique for the anonymous overloads too, as long as no user picks a name of
the automatic form, pointers are printed injectively, and meshes are not copied or moved. -/
theorem C37_automatic_partial (fmt : ℕ → String) (hfmt : Function.Injective fmt) (hist : List (MeshOp K m))
    (hc : ∀ op ∈ hist, op.Auto fmt) (w : World K m) (hw : (World.initial K m).run fmt hist = .ok w) (a : ℕ) (M : MeshObj K m)
    (hM : w.mesh a = some M) : UniqueNames M.domains ∧ ∀ name d, (name, d) ∈ M.domains → w.lookup a name = some d := by
  have h := AutoNames.run hfmt hist (autoNames_initial fmt) hc hw
  refine ⟨h.names a M hM, fun name d hx => ?_⟩
  simp only [World.lookup, hM, find_unique (h.names a M hM) hx, Option.map_some]

/-- A printing of pointers for the examples. -/
def exampleFmt (p : ℕ) : String := String.ofList (List.replicate p 'x')

theorem exampleFmt_injective : Function.Injective exampleFmt := by
  intro p q h
  have := congrArg String.toList h
  simp only [exampleFmt, String.toList_ofList] at this
  simpa using congrArg List.length this

/-- A mesh with two named domains, a refused third one, a copy, and a removal. -/
def checkedHistory : List (MeshOp ℚ 2) :=
  [.newMesh 0 [![0, 0], ![1, 0], ![0, 1], ![1, 1]], .addNamed 0 "left" 0 (.copied 0 3 [[0, 1, 2]]),
   .addNamed 0 "right" 1 (.copied 1 3 [[1, 3, 2]]), .addNamed 0 "left" 2 (.copied 2 3 [[1, 3, 2]]),
   .copyMesh 0 1 [(2, 2), (3, 3)], .removeDomain 0 "left"]

example : (∀ op ∈ checkedHistory, op.Checked) ∧ ∃ w M, (World.initial ℚ 2).run exampleFmt checkedHistory = .ok w ∧
    w.mesh 0 = some M ∧ M.domains = [("right", 1)] ∧ (w.mesh 1).map (·.domains) = some [("left", 2), ("right", 3)] := by
  refine ⟨?_, ?_⟩
  · intro op hop
    simp only [checkedHistory, List.mem_cons, List.not_mem_nil, or_false] at hop
    rcases hop with rfl | rfl | rfl | rfl | rfl | rfl <;> trivial
  · exact ⟨_, _, rfl, rfl, rfl, rfl⟩

example : Function.Injective exampleFmt ∧ ∃ w M, (World.initial ℚ 1).run exampleFmt
    [.newMesh 0 [![0]], .addAnonymous 0 0 (.copied 0 1 [[0]]), .newDomain 1 (.copied 1 1 [[0]]), .addPtrAnonymous 0 1] = .ok w ∧
    w.mesh 0 = some M ∧ M.domains = [("domain_", 0), ("domain_x", 1)] :=
  ⟨exampleFmt_injective, _, _, rfl, rfl, rfl⟩

/-- C37 is false for the overload `add_domain(domain, name)`: it does not check the name, so two domains are listed under the
same name, and the lookup gives the first one although the second one was added under that name. -/
theorem C37_violated : ∃ (hist : List (MeshOp ℚ 1)) (w : World ℚ 1) (M : MeshObj ℚ 1),
    (World.initial ℚ 1).run exampleFmt hist = .ok w ∧ w.mesh 0 = some M ∧ ¬ UniqueNames M.domains ∧ ("left", 1) ∈ M.domains ∧
    w.lookup 0 "left" ≠ some 1 := by
  refine ⟨[.newMesh 0 [![0]], .newDomain 0 (.copied 0 1 [[0]]), .newDomain 1 (.copied 1 1 [[0]]), .addPtr 0 0 "left", .addPtr 0 1 "left"],
    _, _, rfl, rfl, ?_, ?_, ?_⟩
  · simp [UniqueNames]
  · exact List.mem_cons_of_mem _ List.mem_cons_self
  · decide

/-! ### C38 -/

/-- C38 (partial): on a mesh without domains a removal returns false and changes nothing; when the designated domain is the
first one it is removed and destroyed, and nothing else changes.  Missing: every other case, see `C38_hangs`. -/
theorem C38_partial (w : World K m) (a : ℕ) (M : MeshObj K m) (hM : w.mesh a = some M) :
    (M.domains = [] → ∀ name d, w.removeDomain a name = .ok (false, w) ∧ w.remove a d = .ok (false, w)) ∧
    (∀ x rest, M.domains = x :: rest → (w.domain x.2).isSome → ∃ w', w.removeDomain a x.1 = .ok (true, w') ∧
      w.remove a x.2 = .ok (true, w') ∧ Without M.domains x rest ∧ w'.mesh a = some ⟨M.nodes, rest⟩ ∧
      (∀ a', a' ≠ a → w'.mesh a' = w.mesh a') ∧ w'.domain x.2 = none ∧ ∀ d, d ≠ x.2 → w'.domain d = w.domain d) := by
  refine ⟨fun he name d => ?_, fun x rest he hx => ?_⟩
  · simp [World.removeDomain, World.remove, World.removeWith, hM, he, removeScan_nil]
  · refine ⟨(w.setMesh a (some { M with domains := rest })).destroyDomain x.2, ?_, ?_, ⟨[], rest, he, rfl⟩, ?_, ?_, ?_, ?_⟩
    · simp only [World.removeDomain, World.removeWith, hM, he, removeScan_head (fun y => y.1 == x.1) x rest (beq_self_eq_true x.1), hx, if_true]
    · simp only [World.remove, World.removeWith, hM, he, removeScan_head (fun y => y.2 == x.2) x rest (beq_self_eq_true x.2), hx, if_true]
    · simp
    · intro a' ha; simp [Function.update_of_ne ha]
    · simp
    · intro d hd; simp [Function.update_of_ne hd]

/-- C38 fails: as soon as the first domain is not the designated one, neither removal returns. -/
theorem C38_hangs (w : World K m) (a : ℕ) (M : MeshObj K m) (hM : w.mesh a = some M) (x : String × ℕ) (rest : List (String × ℕ))
    (he : M.domains = x :: rest) : (∀ name, x.1 ≠ name → w.removeDomain a name = .hangs) ∧ (∀ d, x.2 ≠ d → w.remove a d = .hangs) := by
  refine ⟨fun name hn => ?_, fun d hn => ?_⟩
  · have : (x.1 == name) = false := by simpa using hn
    simp only [World.removeDomain, World.removeWith, hM, he, removeScan_hangs (fun y => y.1 == name) x rest this]
  · have : (x.2 == d) = false := by simpa using hn
    simp only [World.remove, World.removeWith, hM, he, removeScan_hangs (fun y => y.2 == d) x rest this]

/-- `hangs` means that the loop is still running after any number of iterations. -/
theorem C38_never_returns (p : String × ℕ → Bool) (l : List (String × ℕ)) (h : removeScan p l = .hangs) (fuel : ℕ) :
    whileLoop (scanCond p l) scanBody fuel 0 = none := by
  apply scan_never
  unfold removeScan at h
  split at h
  · assumption
  · split at h <;> cases h

/-- C38 is false: a mesh with two domains, of which the second one is removed. -/
theorem C38_violated : ∃ (hist : List (MeshOp ℚ 1)) (w : World ℚ 1), (World.initial ℚ 1).run exampleFmt hist = .ok w ∧
    w.lookup 0 "right" = some 1 ∧ w.removeDomain 0 "right" = .hangs ∧ w.remove 0 1 = .hangs :=
  ⟨[.newMesh 0 [![0]], .addNamed 0 "left" 0 (.copied 0 1 [[0]]), .addNamed 0 "right" 1 (.copied 1 1 [[0]])], _, rfl, rfl, rfl, rfl⟩

/-! ### C39 -/

/-- C39: `positions(indices)` gives the rows of the table for exactly these indices, in their order. -/
theorem C39_positions (M : MeshObj K m) (idx : List ℕ) (h : ∀ i ∈ idx, i < M.nodes.length) :
    ∃ rows, M.positions idx = .ok rows ∧ rows.length = idx.length ∧
      ∀ k (hk : k < idx.length), rows[k]? = some (M.nodes[idx[k]]'(h _ (List.getElem_mem hk))) := by
  obtain ⟨rows, e1, e2, e3⟩ := positions_ok M idx h
  refine ⟨rows, e1, e2, fun k hk => ?_⟩
  rw [e3 k hk, List.getElem?_eq_getElem]

/-- C39: `element(e)` of a domain which reads a table of node indices through a view has the positions designated by row `e` of
the table, whatever the strides of the view, and `element(e, positions)` has those of the given positions. -/
theorem C39_element (hm : m ≤ 3) (w : World K m) (d : ℕ) (D : DomainObj) (hD : w.domain d = some D) (a : ℕ) (hf : D.mesh = .attached a)
    (M : MeshObj K m) (hM : w.mesh a = some M) (data : List ℕ) (hb : w.buffer D.view.buffer = some data) (row : List ℕ)
    (hrow : row.length = D.view.cols) (e : ℕ)
    (hdata : ∀ j (hj : j < row.length), data[e * D.view.outer + j * D.view.inner]? = some row[j])
    (hidx : ∀ i ∈ row, i < M.nodes.length) (given : List (Fin m → K)) (hgiven : given.length = M.nodes.length) :
    (∃ rows, w.element d e = .ok rows ∧ rows.length = row.length ∧ ∀ j (hj : j < row.length),
      rows[j]? = some fun c => some ((M.nodes[row[j]]'(hidx _ (List.getElem_mem hj))) c)) ∧
    (∃ rows, w.elementWith d e given = .ok rows ∧ rows.length = row.length ∧ ∀ j (hj : j < row.length),
      rows[j]? = some (given[row[j]]'(hgiven ▸ hidx _ (List.getElem_mem hj)))) := by
  have hrange : ∀ j < D.view.cols, e * D.view.outer + j * D.view.inner < data.length := by
    intro j hj
    have := hdata j (hrow ▸ hj)
    exact (List.getElem?_eq_some_iff.mp this).1
  have hidx' : w.elementIndices D e D.view.cols = .ok row := by
    rw [elementIndices_ok w D data hb e D.view.cols hrange]
    congr 1
    apply List.ext_getElem
    · simp [hrow]
    · intro j h1 h2
      simp [hdata j h2]
  refine ⟨?_, ?_⟩
  · obtain ⟨rows, e1, e2, e3⟩ := nodeRows_ok hm M row hidx
    refine ⟨rows, by simp only [World.element, hD, hidx', hf, hM, e1], e2, fun j hj => ?_⟩
    rw [e3 j hj, List.getElem?_eq_getElem (hidx _ (List.getElem_mem hj)), Option.map_some]
  · obtain ⟨rows, e1, e2, e3⟩ := givenRows_ok given row (fun i hi => hgiven ▸ hidx i hi)
    refine ⟨rows, by simp only [World.elementWith, hD, hidx', e1], e2, fun j hj => ?_⟩
    rw [e3 j hj, List.getElem?_eq_getElem (hgiven ▸ hidx _ (List.getElem_mem hj))]

/-- C39: a domain created by `add_domain(name, indices)` on a mesh reached by calls in place: its element `e` has the node
positions of the mesh designated by row `e` of the table given, and the copy of the table belongs to the domain. -/
theorem C39_added (hm : m ≤ 3) (fmt : ℕ → String) (hist : List (MeshOp K m)) (hc : ∀ op ∈ hist, op.InPlace) (w w' : World K m)
    (hw : (World.initial K m).run fmt hist = .ok w) (a : ℕ) (M : MeshObj K m) (hM : w.mesh a = some M) (name : String) (d b cols : ℕ)
    (table : List (List ℕ)) (hcols : ∀ r ∈ table, r.length = cols) (hidx : ∀ r ∈ table, ∀ i ∈ r, i < M.nodes.length)
    (hs : w.step fmt (.addNamed a name d (.copied b cols table)) = .ok w') (e : ℕ) (he : e < table.length) :
    ∃ rows, w'.element d e = .ok rows ∧ rows.length = cols ∧ ∀ j (hj : j < table[e].length),
      rows[j]? = some fun c => some ((M.nodes[table[e][j]]'(hidx _ (List.getElem_mem he) _ (List.getElem_mem hj))) c) := by
  have hat := Attached.run hist attached_initial hc hw
  simp only [World.step] at hs
  split at hs
  · rename_i hf
    have hd := fresh_domain hf
    have hfr : ∀ M, w.mesh a = some M → d ∉ M.domains.map Prod.snd := fun M hM =>
      hat.unlisted (by intro D hD; rw [hd] at hD; cases hD) a M hM
    rcases addNamed_ok (w := w) (a := a) (d := d) (s := name) (src := .copied b cols table) hfr with e1 | ⟨N, hN, hNs, e1⟩ | ⟨N, hN, hNs, e1⟩
    · rw [e1] at hs; cases hs
    · rw [e1] at hs; cases hs
    · rw [e1] at hs; cases hs
      rw [hM] at hN; cases hN
      have hmesh : ((w.construct d (.attached a) (.copied b cols table)).pushDomain a name d).mesh a =
          some { M with domains := M.domains ++ [(name, d)] } := by
        rw [pushDomain_mesh _ a name d M (by rw [construct_mesh]; exact hM), Function.update_self]
      have hlen : table[e].length = cols := hcols _ (List.getElem_mem he)
      obtain ⟨rows, r1, r2, r3⟩ := (C39_element hm ((w.construct d (.attached a) (.copied b cols table)).pushDomain a name d) d
        ((DomainSource.copied b cols table).build (.attached a)) (by simp) a rfl _ hmesh table.flatten
        (by simp [DomainSource.build, World.construct, DomainSource.allocates]) table[e] hlen e
        (fun j hj => by
          simp only [DomainSource.build, Nat.mul_one]
          rw [flatten_get cols table hcols e j he (hlen ▸ hj), List.getElem?_eq_getElem hj])
        (hidx _ (List.getElem_mem he)) M.nodes rfl).1
      exact ⟨rows, r1, r2.trans hlen, r3⟩
  · cases hs

/-- C39: no call on domains changes a position, and none makes a mesh appear. -/
theorem C39_nodes_unchanged (fmt : ℕ → String) (w w' : World K m) (op : MeshOp K m) (hop : op.InPlace)
    (hnew : ∀ a nodes, op ≠ .newMesh a nodes) (hw : w.step fmt op = .ok w' ∨ w.step fmt op = .throws w') (a : ℕ) (M' : MeshObj K m)
    (hM' : w'.mesh a = some M') : ∃ M, w.mesh a = some M ∧ M'.nodes = M.nodes :=
  step_nodes op hop hnew hw a M' hM'

/-- C39: after any history of calls in place, a further call leaves all elements of a domain as they were, as long as the
domain stays listed by its mesh and its connectivity was copied (or nobody else owns the array it refers to). -/
theorem C39_stable (fmt : ℕ → String) (hist : List (MeshOp K m)) (hc : ∀ op ∈ hist, op.InPlace) (w w' : World K m)
    (hw : (World.initial K m).run fmt hist = .ok w) (op : MeshOp K m) (hop : op.InPlace) (hs : w.step fmt op = .ok w' ∨ w.step fmt op = .throws w')
    (a : ℕ) (M M' : MeshObj K m) (hM : w.mesh a = some M) (hM' : w'.mesh a = some M') (name : String) (d : ℕ) (hl : (name, d) ∈ M.domains)
    (hl' : (name, d) ∈ M'.domains) (D : DomainObj) (hD : w.domain d = some D)
    (hb : D.owned.isSome ∨ (w.buffer D.view.buffer).isSome ∧ ∀ d' D', w.domain d' = some D' → D'.owned ≠ some D.view.buffer) (e : ℕ) :
    w'.element d e = w.element d e := by
  have hat := Attached.run hist attached_initial hc hw
  have hbu := Buffers.run hist buffers_initial hc hw
  have hat' := hat.step op hop hs
  obtain ⟨D1, h1, hf1⟩ := hat.field a M hM (name, d) hl
  rw [hD] at h1; cases h1
  obtain ⟨D2, h2, hf2⟩ := hat'.field a M' hM' (name, d) hl'
  have hv : (w.buffer D.view.buffer).isSome := by
    rcases hb with hb | hb
    · obtain ⟨b, hb⟩ := Option.isSome_iff_exists.mp hb
      have := hbu.live d D b hD hb
      rw [this.2]; exact this.1
    · exact hb.1
  have keep := step_keeps hbu op hop hs d D hD (by rw [hf1]; simp) (by rw [h2]; rfl) hv (hb.imp id And.right)
  have hnodes : M'.nodes = M.nodes := by
    by_cases hnew : ∃ a nodes, op = .newMesh a nodes
    · obtain ⟨a1, nodes, rfl⟩ := hnew
      simp only [World.step] at hs
      split at hs
      · rename_i hn
        rcases hs with hs | hs <;> cases hs
        have hne : a ≠ a1 := by rintro rfl; rw [Option.isNone_iff_eq_none] at hn; rw [hn] at hM; cases hM
        rw [setMesh_mesh, Function.update_of_ne hne, hM] at hM'
        cases hM'; rfl
      · rcases hs with hs | hs <;> cases hs
    · obtain ⟨N, hN, hNn⟩ := step_nodes op hop (fun a nodes hc => hnew ⟨a, nodes, hc⟩) hs a M' hM'
      rw [hM] at hN; cases hN; exact hNn
  simp only [World.element, hD, keep.1, hf1, elementIndices_congr D keep.2]
  cases w.elementIndices D e D.view.cols <;> simp only [hM, hM', nodeRows_congr hnodes]

/-- Two triangles, the second one referring to an external array stored by columns. -/
def inPlaceHistory : List (MeshOp ℚ 2) :=
  [.newMesh 0 [![0, 0], ![1, 0], ![0, 1], ![1, 1]], .addNamed 0 "left" 0 (.copied 0 3 [[0, 1, 2], [1, 3, 2]]),
   .newBuffer 7 [0, 1, 1, 3, 2, 2], .addNamed 0 "right" 1 (.strided 7 2 3 1 2)]

example : (∀ op ∈ inPlaceHistory, op.InPlace) ∧ ∃ w w' M, (World.initial ℚ 2).run exampleFmt inPlaceHistory = .ok w ∧
    w.step exampleFmt (.removeDomain 0 "left") = .ok w' ∧ w'.mesh 0 = some M ∧ ("right", 1) ∈ M.domains ∧
    (∃ r, w.element 1 1 = .ok r ∧ r = [fun c => some (![1, 0] c), fun c => some (![1, 1] c), fun c => some (![0, 1] c)]) := by
  refine ⟨?_, _, _, _, rfl, rfl, rfl, ?_, _, rfl, ?_⟩
  · intro op hop
    simp only [inPlaceHistory, List.mem_cons, List.not_mem_nil, or_false] at hop
    rcases hop with rfl | rfl | rfl | rfl <;> trivial
  · exact List.mem_cons_self
  · decide +kernel

/-- C39 fails for copies of a mesh: after the original is deleted, the elements of the domains of the copy are read from freed
memory, even when the positions are given. -/
theorem C39_copy_violated : ∃ (hist : List (MeshOp ℚ 1)) (w : World ℚ 1), (World.initial ℚ 1).run exampleFmt hist = .ok w ∧
    w.lookup 1 "left" = some 1 ∧ w.element 1 0 = .undefined ∧ w.elementWith 1 0 [![0], ![1]] = .undefined :=
  ⟨[.newMesh 0 [![0], ![1]], .addNamed 0 "left" 0 (.copied 0 2 [[0, 1]]), .copyMesh 0 1 [(1, 1)], .deleteMesh 0], _, rfl, rfl, rfl, rfl⟩

/-! ### C40 -/

/-- C40: attaching a domain which belongs to another mesh is rejected and changes nothing, attaching it again to its mesh
changes nothing, and attaching a free domain sets its mesh. -/
theorem C40_attach (w : World K m) (d a : ℕ) (D : DomainObj) (hD : w.domain d = some D) :
    (∀ a', D.mesh = .attached a' → a' ≠ a → w.attachTo d a = .throws w) ∧
    (D.mesh = .attached a → w.attachTo d a = .ok w) ∧
    (D.mesh = .null → ∃ w', w.attachTo d a = .ok w' ∧ w'.domain d = some { D with mesh := .attached a } ∧
      ∀ x, x ≠ d → w'.domain x = w.domain x) := by
  refine ⟨fun a' hf hne => ?_, fun hf => ?_, fun hf => ?_⟩
  · simp only [World.attachTo, hD, hf]
    rw [if_neg (Ne.symm hne)]
  · simp only [World.attachTo, hD, hf, if_true]
  · refine ⟨_, by simp only [World.attachTo, hD, hf]; rfl, by simp, fun x hx => by simp [Function.update_of_ne hx]⟩

/-- C40: adding a domain which belongs to another mesh is rejected and changes nothing. -/
theorem C40_add (w : World K m) (d a a' : ℕ) (M : MeshObj K m) (hM : w.mesh a = some M) (D : DomainObj) (hD : w.domain d = some D)
    (hf : D.mesh = .attached a') (hne : a' ≠ a) (name : String) : w.addPtr a d name = .throws w := by
  simp only [World.addPtr, hM, hD, hf]
  rw [if_neg (Ne.symm hne)]

/-- C40 (partial): after any history of calls in place every domain listed by a mesh exists, is attached to this mesh, is
listed once, and is listed by no other mesh.  Missing: histories with copies and moves of meshes, see `C40_copy_violated` and
`C40_move_violated`. -/
theorem C40_listed_partial (fmt : ℕ → String) (hist : List (MeshOp K m)) (hc : ∀ op ∈ hist, op.InPlace) (w : World K m)
    (hw : (World.initial K m).run fmt hist = .ok w) (a : ℕ) (M : MeshObj K m) (hM : w.mesh a = some M) :
    (M.domains.map Prod.snd).Nodup ∧ ∀ name d, (name, d) ∈ M.domains →
      (∃ D, w.domain d = some D ∧ D.mesh = .attached a) ∧
      ∀ a' M' name', w.mesh a' = some M' → (name', d) ∈ M'.domains → a' = a := by
  have h := Attached.run hist attached_initial hc hw
  refine ⟨h.once a M hM, fun name d hx => ⟨h.field a M hM _ hx, fun a' M' name' hM' hx' => ?_⟩⟩
  obtain ⟨D, hD, hf⟩ := h.field a M hM _ hx
  obtain ⟨D', hD', hf'⟩ := h.field a' M' hM' _ hx'
  rw [hD] at hD'; cases hD'
  rw [hf] at hf'; cases hf'; rfl

/-- C40 fails for copies: the domains listed by a copied mesh have an indeterminate mesh pointer. -/
theorem C40_copy_violated : ∃ (hist : List (MeshOp ℚ 1)) (w : World ℚ 1) (M : MeshObj ℚ 1) (D : DomainObj),
    (World.initial ℚ 1).run exampleFmt hist = .ok w ∧ w.mesh 1 = some M ∧ ("left", 1) ∈ M.domains ∧ w.domain 1 = some D ∧
    D.mesh = .indeterminate :=
  ⟨[.newMesh 0 [![0], ![1]], .addNamed 0 "left" 0 (.copied 0 2 [[0, 1]]), .copyMesh 0 1 [(1, 1)]], _, _, _, rfl, rfl,
    List.mem_cons_self, rfl, rfl⟩

/-- C40 fails for moves: the domains listed by a moved mesh still point to the mesh they were moved from, so that adding them
again by pointer to the latter is accepted and two meshes list (and own) the same domain. -/
theorem C40_move_violated : ∃ (hist : List (MeshOp ℚ 1)) (w w' : World ℚ 1) (M M0 M1 : MeshObj ℚ 1) (D : DomainObj),
    (World.initial ℚ 1).run exampleFmt hist = .ok w ∧ w.mesh 1 = some M ∧ ("left", 0) ∈ M.domains ∧ w.domain 0 = some D ∧
    D.mesh = .attached 0 ∧ w.addPtr 0 0 "left" = .ok w' ∧ w'.mesh 0 = some M0 ∧ w'.mesh 1 = some M1 ∧ ("left", 0) ∈ M0.domains ∧
    ("left", 0) ∈ M1.domains :=
  ⟨[.newMesh 0 [![0], ![1]], .addNamed 0 "left" 0 (.copied 0 2 [[0, 1]]), .moveMesh 0 1], _, _, _, _, _, _, rfl, rfl,
    List.mem_cons_self, rfl, rfl, rfl, rfl, rfl, List.mem_cons_self, List.mem_cons_self⟩

/-! ### C71 -/

/-- C71 (partial): in dimension 3 `node(i)` is the position of node `i`; in all dimensions its first coordinates are.
Missing: the other coordinates, see `C71_violated`. -/
theorem C71_partial [Zero K] (hm : m ≤ 3) (M : MeshObj K m) (i : ℕ) (hi : i < M.nodes.length) :
    ∃ n, M.node i = .ok n ∧ (∀ c : Fin 3, c.val < m → n c = some (padded M.nodes[i] c)) ∧
      (m = 3 → ∀ c, n c = some (padded M.nodes[i] c)) := by
  have key : ∀ c : Fin 3, c.val < m → (fun c : Fin 3 => if h0 : c.val = 0 then (if h : 0 < m then some (M.nodes[i] ⟨0, h⟩) else none)
      else if c.val = 1 then (if h : 1 < m then some (M.nodes[i] ⟨1, h⟩) else none)
      else (if h : 2 < m then some (M.nodes[i] ⟨2, h⟩) else none)) c = some (padded M.nodes[i] c) := by
    intro c hc
    obtain ⟨c, hc3⟩ := c
    simp only at hc
    have : c = 0 ∨ c = 1 ∨ c = 2 := by omega
    rcases this with rfl | rfl | rfl <;> simp [padded, hc]
  refine ⟨_, by simp only [MeshObj.node, MeshObj.position, List.getElem?_eq_getElem hi], key, fun h3 c => key c (by omega)⟩

example : ∃ M : MeshObj ℚ 2, (1 : ℕ) < M.nodes.length ∧ M.nodes[1]? = some ![3, 4] := ⟨⟨[![0, 0], ![3, 4]], []⟩, by decide, rfl⟩

/-- C71 is false in dimensions 1 and 2: the remaining coordinates of `node(i)` are not written, whatever the position. -/
theorem C71_violated (M : MeshObj K m) (i : ℕ) (hi : i < M.nodes.length) (c : Fin 3) (hc : m ≤ c.val) :
    ∃ n, M.node i = .ok n ∧ n c = none := by
  refine ⟨_, by simp only [MeshObj.node, MeshObj.position, List.getElem?_eq_getElem hi]; rfl, ?_⟩
  obtain ⟨c, hc3⟩ := c
  simp only at hc
  have : c = 0 ∨ c = 1 ∨ c = 2 := by omega
  rcases this with rfl | rfl | rfl
  · simp; omega
  · simp; omega
  · simp; omega

end Caribou
