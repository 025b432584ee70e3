import Verif.Model.Topology
import Mathlib.Data.Rat.Defs
import Mathlib.Algebra.Field.Rat
import Mathlib.Data.Fin.VecNotation
import Mathlib.Tactic.NormNum

/-!
# C70, C80: the topology component
-/

set_option autoImplicit false

namespace Caribou

namespace Spec

/-- An index table over `size` nodes: not empty, and every index designates a node. -/
def ValidTable (size : ℕ) (table : List (List ℕ)) : Prop :=
  table ≠ [] ∧ ∀ ids ∈ table, ∀ i ∈ ids, i < size

end Spec

open Spec

variable {K : Type*} {m : ℕ}

theorem hasInvalidNode_iff (size : ℕ) : ∀ ids : List ℕ, hasInvalidNode size ids = true ↔ ∃ i ∈ ids, size ≤ i
  | [] => by simp [hasInvalidNode]
  | i :: is => by
    rw [hasInvalidNode]
    by_cases h : size ≤ i
    · simp [h]
    · simp [h, hasInvalidNode_iff size is]

theorem invalidElements_fold (size : ℕ) : ∀ (l : List (List ℕ)) (c : ℕ),
    l.foldl (fun c e => if hasInvalidNode size e then c + 1 else c) c = 0 ↔ c = 0 ∧ ∀ ids ∈ l, ∀ i ∈ ids, i < size
  | [], c => by simp
  | ids :: l, c => by
    rw [List.foldl_cons, invalidElements_fold size l]
    have h := hasInvalidNode_iff size ids
    by_cases hb : hasInvalidNode size ids = true
    · rw [if_pos hb]
      obtain ⟨i, hi, hs⟩ := h.mp hb
      constructor
      · intro h; omega
      · intro h; have := h.2 ids List.mem_cons_self i hi; omega
    · rw [if_neg hb]
      have : ∀ i ∈ ids, i < size := by
        intro i hi
        by_contra hc
        exact hb (h.mpr ⟨i, hi, by omega⟩)
      simp only [List.mem_cons, forall_eq_or_imp]
      tauto

theorem invalidElements_zero (size : ℕ) (l : List (List ℕ)) :
    invalidElements size l = 0 ↔ ∀ ids ∈ l, ∀ i ∈ ids, i < size := by
  rw [invalidElements, invalidElements_fold]; simp

/-- C70: initialising from indices replaces the domain if and only if there are nodes and the table is valid for them; then the
domain has the positions and, for every element, the indices of the data.  Otherwise nothing changes. -/
theorem C70 (s : TopoState K m) :
    (s.positions ≠ [] ∧ ValidTable s.positions.length s.indices →
      (initializeFromIndices s).domain.map (·.nodes) = some s.positions ∧
      topologySize (initializeFromIndices s) = s.indices.length ∧
      ∀ e, topologyIndices (initializeFromIndices s) e = s.indices[e]?) ∧
    (¬ (s.positions ≠ [] ∧ ValidTable s.positions.length s.indices) → initializeFromIndices s = s) := by
  have h0 := invalidElements_zero s.positions.length s.indices
  unfold initializeFromIndices ValidTable
  by_cases h1 : s.indices = []
  · simp [h1]
  · by_cases h2 : s.positions = []
    · simp [h2]
    · by_cases h3 : invalidElements s.positions.length s.indices = 0
      · have h4 := h0.mp h3
        simp only [List.isEmpty_iff, h1, h2, h3, if_false, gt_iff_lt, lt_irrefl]
        refine ⟨fun _ => ⟨rfl, rfl, fun e => ?_⟩, fun h => (h ⟨h2, h1, h4⟩).elim⟩
        simp only [topologyIndices, Bool.true_and, decide_eq_true_eq]
        by_cases he : e < s.indices.length
        · rw [if_pos he]
        · rw [if_neg he, List.getElem?_eq_none (by omega)]
      · have h4 := mt h0.mpr h3
        have h5 : 0 < invalidElements s.positions.length s.indices := Nat.pos_of_ne_zero h3
        simp only [List.isEmpty_iff, h1, h2, if_false, gt_iff_lt, h5, if_true]
        exact ⟨fun h => (h4 h.2.2).elim, fun _ => trivial⟩

/-- C70, the whole initialisation of a component whose data `indices` is set and not empty.  The positions are the ones of the
data, or, when they are not set, the rest positions of the mechanical state.  When the table is valid for them, the domain has
these positions and the indices of the data; otherwise the domain is the one attached before. -/
theorem C70_init (s : TopoState K m) (hset : s.indicesSet = true) (hne : s.indices ≠ []) (X : List (Fin m → K))
    (hX : (s.positionsSet = true ∧ X = s.positions) ∨ (s.positionsSet = false ∧ s.restPosition = some X)) :
    (X ≠ [] ∧ ValidTable X.length s.indices →
      (topologyInit s).domain.map (·.nodes) = some X ∧ topologySize (topologyInit s) = s.indices.length ∧
      ∀ e, topologyIndices (topologyInit s) e = s.indices[e]?) ∧
    (¬ (X ≠ [] ∧ ValidTable X.length s.indices) → (topologyInit s).domain = s.domain) := by
  have hp : (findPositions s).positions = X ∧ (findPositions s).indices = s.indices ∧ (findPositions s).domain = s.domain := by
    rcases hX with ⟨h, rfl⟩ | ⟨h, hr⟩
    · simp [findPositions, h]
    · simp [findPositions, h, hr, hne]
  have hi : topologyInit s = initializeFromIndices (findPositions s) := by rw [topologyInit, if_pos hset]
  have h := C70 (findPositions s)
  rw [hp.1, hp.2.1, ← hi] at h
  exact ⟨h.1, fun hv => by rw [h.2 hv, hp.2.2]⟩

theorem filterMap_getElem {α : Type*} (x : List α) : ∀ (l : List ℕ) (h : ∀ i ∈ l, i < x.length),
    l.filterMap (fun i => x[i]?) = l.pmap (fun i h => x[i]'h) h
  | [], _ => rfl
  | a :: l, h => by
    rw [List.filterMap_cons, List.getElem?_eq_getElem (h a List.mem_cons_self), List.pmap]
    simp only [filterMap_getElem x l (fun i hi => h i (List.mem_cons_of_mem _ hi))]

/-- C80 (partial): right after the initialisation of a component without domain, whatever the data and the mechanical state, the elements of
the component are read within bounds, and node `j` of element `e` is at the position designated by the index `(e, j)`.  Missing: later changes of the data, see `C80_violated`, `C80_dangling`. -/
theorem C80_partial (s : TopoState K m) (hs : s.domain = none) (e : ℕ) (he : e < topologySize (topologyInit s)) :
    ∃ x, topologyElement (topologyInit s) e = .ok x ∧
      ∃ ids : List ℕ, s.indices[e]? = some ids ∧ x.length = ids.length ∧
        ∀ (j i : ℕ), ids[j]? = some i → x[j]? = (topologyInit s).positions[i]? ∧ x[j]? ≠ none := by
  have hf : (findPositions s).domain = none ∧ (findPositions s).indices = s.indices := by
    unfold findPositions
    by_cases h : (!s.indices.isEmpty && !s.positionsSet) = true
    · rw [if_pos h]
      cases hr : s.restPosition <;> exact ⟨hs, rfl⟩
    · rw [if_neg h]; exact ⟨hs, rfl⟩
  by_cases hset : s.indicesSet = true
  · have hi : topologyInit s = initializeFromIndices (findPositions s) := by rw [topologyInit, if_pos hset]
    obtain ⟨c1, c2⟩ := C70 (findPositions s)
    by_cases hv : (findPositions s).positions ≠ [] ∧ ValidTable (findPositions s).positions.length (findPositions s).indices
    · obtain ⟨hd, hsz, hid⟩ := c1 hv
      rw [hf.2] at hsz hid
      have hpos : (initializeFromIndices (findPositions s)).positions = (findPositions s).positions := by
        unfold initializeFromIndices
        split_ifs <;> rfl
      rw [hi] at he ⊢
      rw [hsz] at he
      obtain ⟨d, hd1, hd2⟩ := Option.map_eq_some_iff.mp hd
      have hget : s.indices[e]? = some s.indices[e] := List.getElem?_eq_getElem he
      have hlt : ∀ i ∈ s.indices[e], i < d.nodes.length := by
        have := hv.2.2
        rw [hf.2, ← hd2] at this
        exact this _ (List.getElem_mem he)
      have hall : s.indices[e].all (fun i => decide (i < d.nodes.length)) = true := by
        simpa using hlt
      refine ⟨s.indices[e].filterMap (fun i => d.nodes[i]?), ?_, s.indices[e], hget, ?_, ?_⟩
      · simp only [topologyElement, hd1, hid, hget, hall, if_true]
      · rw [filterMap_getElem _ _ hlt, List.length_pmap]
      · intro j i hj
        obtain ⟨hjl, rfl⟩ := List.getElem?_eq_some_iff.mp hj
        have hb := hlt _ (List.getElem_mem hjl)
        rw [filterMap_getElem _ _ hlt, hpos, List.getElem?_eq_getElem (by simpa using hjl), List.getElem_pmap, ← hd2,
          List.getElem?_eq_getElem hb]
        exact ⟨rfl, by simp⟩
    · have := c2 hv
      rw [hi, this, topologySize, hf.1] at he
      exact absurd he (Nat.not_lt_zero _)
  · rw [topologyInit, if_neg hset, topologySize, hs] at he
    exact absurd he (Nat.not_lt_zero _)

/-- A component with two triangles on four nodes. -/
def sampleTopology : TopoState ℚ 2 where
  positions := []
  positionsSet := false
  indices := [[0, 1, 2], [1, 3, 2]]
  indicesSet := true
  domain := none
  restPosition := some [![0, 0], ![1, 0], ![0, 1], ![1, 1]]
  storage := true

example : sampleTopology.domain = none ∧ 1 < topologySize (topologyInit sampleTopology) ∧
    topologyElement (topologyInit sampleTopology) 1 = .ok [![1, 0], ![1, 1], ![0, 1]] := ⟨rfl, by decide, rfl⟩

example : (findPositions sampleTopology).positions ≠ [] ∧
    ValidTable (findPositions sampleTopology).positions.length (findPositions sampleTopology).indices := by
  refine ⟨by simp [findPositions, sampleTopology], by simp [findPositions, sampleTopology], ?_⟩
  simp [findPositions, sampleTopology]

/-- C70_init on the same component, whose positions are not set. -/
example : sampleTopology.indicesSet = true ∧ sampleTopology.indices ≠ [] ∧ sampleTopology.positionsSet = false ∧
    sampleTopology.restPosition = some [![0, 0], ![1, 0], ![0, 1], ![1, 1]] ∧ ValidTable 4 sampleTopology.indices := by
  refine ⟨rfl, by simp [sampleTopology], rfl, rfl, by simp [sampleTopology], ?_⟩
  simp [sampleTopology]

/-- C70, a table with an invalid index is rejected: no domain is attached. -/
example : (initializeFromIndices ({ findPositions sampleTopology with indices := [[0, 1, 2], [1, 4, 2]] })).domain = none := rfl

/-- C80 violated: a rejected table leaves the domain created before in place, though the documentation says that the reference to
it is removed (`CaribouTopology.h:126-128`).  That domain reads its indices in the storage of the rejected table: the component
still has two elements, and reading the second one is out of range. -/
theorem C80_violated : ∃ (s : TopoState ℚ 2) (table : List (List ℕ)),
    let s' := topologyInit (setIndices (topologyInit s) table false)
    s.domain = none ∧ topologySize s' = 2 ∧ ¬ ValidTable s'.positions.length s'.indices ∧
      topologyElement s' 1 = .undefined := by
  refine ⟨sampleTopology, [[0, 1, 2], [1, 7, 2]], rfl, rfl, ?_, rfl⟩
  intro h
  have := h.2 [1, 7, 2] (by exact List.mem_cons_of_mem _ List.mem_cons_self) 7 (by simp)
  exact absurd this (by decide)

/-- C80, the created domain is not a copy of the indices: after a successful initialisation, an assignment of the data which
allocates a new array makes every read of an element undefined. -/
theorem C80_dangling (s : TopoState K m) (hv : s.positions ≠ [] ∧ ValidTable s.positions.length s.indices)
    (table : List (List ℕ)) (e : ℕ) : topologyElement (setIndices (initializeFromIndices s) table true) e = .undefined := by
  have h0 := (invalidElements_zero s.positions.length s.indices).mpr hv.2.2
  have : (initializeFromIndices s).domain = some ⟨s.positions, .view s.indices.length⟩ := by
    unfold initializeFromIndices
    simp only [List.isEmpty_iff, hv.2.1, hv.1, h0, if_false, gt_iff_lt, lt_irrefl]
  simp [topologyElement, topologyIndices, setIndices, this]

/-- C80: a domain attached by `attachDomain` keeps its own nodes and indices whatever is assigned to the data, until the next
initialisation: node `j` of element `e` is the node of its mesh designated by the index `(e, j)` of its table. -/
theorem C80_attached (s : TopoState K m) (nodes : List (Fin m → K)) (table t' : List (List ℕ)) (r r' : Bool) :
    (attachDomain s nodes table r).indices = table ∧
    topologySize (setIndices (attachDomain s nodes table r) t' r') = table.length ∧
    ∀ (e : ℕ) (ids : List ℕ) (hlt : ∀ i ∈ ids, i < nodes.length), table[e]? = some ids →
      topologyElement (setIndices (attachDomain s nodes table r) t' r') e = .ok (ids.pmap (fun i h => nodes[i]'h) hlt) := by
  refine ⟨rfl, rfl, fun e ids hlt he => ?_⟩
  have hall : ids.all (fun i => decide (i < nodes.length)) = true := by simpa using hlt
  rw [← filterMap_getElem nodes ids hlt]
  simp only [topologyElement, topologyIndices, setIndices, attachDomain, he, hall, if_true]

/-- C70, the usual order: the table of indices is assigned, then the component is initialised. Whatever its state before (a domain may be attached), the domain has the positions `X` and these indices when
they are valid, and is the one from before otherwise. -/
theorem C70_assigned (s : TopoState K m) (table : List (List ℕ)) (r : Bool) (hne : table ≠ []) (X : List (Fin m → K))
    (hX : (s.positionsSet = true ∧ X = s.positions) ∨ (s.positionsSet = false ∧ s.restPosition = some X)) :
    (X ≠ [] ∧ ValidTable X.length table →
      (topologyInit (setIndices s table r)).domain.map (·.nodes) = some X ∧ topologySize (topologyInit (setIndices s table r)) = table.length ∧
      ∀ e, topologyIndices (topologyInit (setIndices s table r)) e = table[e]?) ∧
    (¬ (X ≠ [] ∧ ValidTable X.length table) → (topologyInit (setIndices s table r)).domain = s.domain) :=
  C70_init (setIndices s table r) rfl hne X hX

example : topologyElement (topologyInit (setIndices sampleTopology [[3, 2, 1]] true)) 0 = .ok [![1, 1], ![0, 1], ![1, 0]] := rfl

/-- C80, an attached domain does not survive the initialisation: attaching it assigns the data `indices`, so that `init` builds another domain with the positions of the mechanical state. -/
theorem C80_overridden (s : TopoState K m) (nodes : List (Fin m → K)) (table : List (List ℕ)) (r : Bool) (hne : table ≠ []) (X : List (Fin m → K))
    (hX : (s.positionsSet = true ∧ X = s.positions) ∨ (s.positionsSet = false ∧ s.restPosition = some X)) (hv : X ≠ [] ∧ ValidTable X.length table) :
    (topologyInit (attachDomain s nodes table r)).domain.map (·.nodes) = some X ∧ ∀ e, topologyIndices (topologyInit (attachDomain s nodes table r)) e = table[e]? := by
  have h := (C70_init (attachDomain s nodes table r) rfl hne X hX).1 hv
  exact ⟨h.1, h.2.2⟩

example : topologyElement (topologyInit (attachDomain sampleTopology [![5, 5], ![6, 5], ![5, 6]] [[0, 1, 2]] true)) 0 = .ok [![0, 0], ![1, 0], ![0, 1]] := rfl

example : topologyElement (setIndices (attachDomain sampleTopology [![5, 5], ![6, 5], ![5, 6]] [[0, 1, 2]] true) [[7, 7, 7]] false) 0 =
    .ok [![5, 5], ![6, 5], ![5, 6]] := rfl

end Caribou
