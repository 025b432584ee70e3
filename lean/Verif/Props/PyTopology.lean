import Verif.Lemmas.PyTopology
import Mathlib.Data.Rat.Defs
import Mathlib.Data.Fin.VecNotation
import Mathlib.Algebra.Field.Rat

/-!
# Meshes, domains and containers used from Python (C112)
-/

set_option autoImplicit false

namespace Caribou

open Spec PySession

variable {K : Type*} {m : ℕ} [CommRing K]

private theorem held_iff {s : PySession K m} (hs : Inv s) (a : ℕ) : MeshHeld s a ↔ ∃ M, s.world.mesh a = some M := by
  rw [hs.held a, holds_iff]; rfl

private theorem domain_known {fmt : ℕ → String} {locate : List (List (List (Option K))) → List K → Option (ℕ × List K)}
    {before : List (PyStmt K m)} {x y : String} {name : Option String} {kind : PyElement} {cols : ℕ} {table : List (List ℤ)}
    {after : List (PyStmt K m)} {a d : ℕ} {nodes : List (Fin m → K)} {s : PySession K m}
    (h : DomainMade fmt locate before x y name kind cols table after a d nodes s) :
    cols = kind.nodes ∧ Inv s ∧ Track s a d nodes ⟨.attached a, some d, ⟨d, table.length, cols, cols, 1⟩⟩
      (table.map fun r => r.map toUnsigned).flatten kind := by
  obtain ⟨s0, s1, h0, hy, ⟨M, hM, rfl⟩, h1, hx, h2⟩ := h.done
  obtain ⟨i0, -, -⟩ := run_spec fmt locate before inv_start h0
  by_cases hc : cols = kind.nodes
  · subst hc
    refine ⟨rfl, ?_⟩
    have he : s0.eval fmt locate (.addDomain y name kind kind.nodes table) =
        .ok (s0.added a M (name.getD ("domain_" ++ fmt s0.next)) kind kind.nodes table, .domain s0.next) := by
      simp only [eval, hy]; exact addDomain_eq fmt s0 a M hM name kind table
    obtain ⟨s', b1, b2, b3, -, -, b6, -⟩ := bind_spec (added_inv i0 a M hM (name.getD ("domain_" ++ fmt s0.next)) kind kind.nodes table) x
      (.domain s0.next) (by simp)
    have hss : s' = s1 := by
      simp only [step, he, b1] at h1
      cases h1; rfl
    subst hss
    have hd : d = s0.next := by
      rw [mem_lookup b2.names (v := .domain s0.next) (by rw [b3]; exact List.mem_cons_self)] at hx
      cases hx; rfl
    subst hd
    obtain ⟨i2, t2, -⟩ := run_spec fmt locate after b2 h2
    exact ⟨i2, t2 _ _ _ _ _ _ (b6 _ _ _ _ _ _ (added_new i0 a M hM _ kind kind.nodes table))⟩
  · simp [step, eval, hy, addDomain_cols fmt s0 a name kind cols table hc] at h1

private theorem domain_alive {fmt : ℕ → String} {locate : List (List (List (Option K))) → List K → Option (ℕ × List K)}
    {before : List (PyStmt K m)} {x y : String} {name : Option String} {kind : PyElement} {cols : ℕ} {table : List (List ℤ)}
    {after : List (PyStmt K m)} {a d : ℕ} {nodes : List (Fin m → K)} {s : PySession K m}
    (h : DomainMade fmt locate before x y name kind cols table after a d nodes s) (hheld : MeshHeld s a) :
    ∃ M, s.world.mesh a = some M ∧ M.nodes = nodes ∧
      s.world.domain d = some ⟨.attached a, some d, ⟨d, table.length, cols, cols, 1⟩⟩ ∧
      s.world.buffer d = some (table.map fun r => r.map toUnsigned).flatten ∧ s.kinds d = kind := by
  obtain ⟨-, hi, ht⟩ := domain_known h
  obtain ⟨M', hM'⟩ := (held_iff hi a).mp hheld
  rcases ht.state with ⟨h1, -⟩ | ⟨M, h1, h2, -, h4, h5, h6⟩
  · rw [h1] at hM'; cases hM'
  · exact ⟨M, h1, h2, h4, h5, h6⟩

private theorem read_indices {fmt : ℕ → String} {locate : List (List (List (Option K))) → List K → Option (ℕ × List K)}
    {before : List (PyStmt K m)} {x y : String} {name : Option String} {kind : PyElement} {cols : ℕ} {table : List (List ℤ)}
    {after : List (PyStmt K m)} {a d : ℕ} {nodes : List (Fin m → K)} {s : PySession K m}
    (h : DomainMade fmt locate before x y name kind cols table after a d nodes s) (hheld : MeshHeld s a)
    (hv : PyValidTable nodes cols table) (e : ℕ) (row : List ℤ) (he : table[e]? = some row) :
    s.readIndices d e = .ok (row.map Int.toNat) := by
  obtain ⟨M, -, -, h3, h4, -⟩ := domain_alive h hheld
  have := hv.small
  simp only [readIndices, h3]
  exact table_indices s.world d a cols table hv.columns hv.nonneg
    (fun r hr z hz => by have := hv.bound r hr z hz; omega) h4 e row he

private theorem read_element {fmt : ℕ → String} {locate : List (List (List (Option K))) → List K → Option (ℕ × List K)}
    {before : List (PyStmt K m)} {x y : String} {name : Option String} {kind : PyElement} {cols : ℕ} {table : List (List ℤ)}
    {after : List (PyStmt K m)} {a d : ℕ} {nodes : List (Fin m → K)} {s : PySession K m} (hm : m ≤ 3)
    (h : DomainMade fmt locate before x y name kind cols table after a d nodes s) (hheld : MeshHeld s a)
    (hv : PyValidTable nodes cols table) (hdim : kind.dim = m) (e : ℕ) (row : List ℤ) (he : table[e]? = some row) :
    ∃ rows, s.readElement d e = .ok rows ∧ Designates nodes row rows := by
  obtain ⟨M, h1, h2, h3, h4, h5⟩ := domain_alive h hheld
  subst h2
  obtain ⟨hlt, hrow⟩ := List.getElem?_eq_some_iff.mp he
  have hmem : row ∈ table := hrow ▸ List.getElem_mem hlt
  obtain ⟨rows, r1, r2⟩ := pyRows_ok hm M row (hv.nonneg row hmem) (hv.bound row hmem)
  refine ⟨rows, ?_, r2⟩
  have hi := read_indices h hheld hv e row he
  simp only [readIndices, h3] at hi
  simp only [readElement, h3, hi, h1, h5, hdim, r1]

/-- A valid triangle. -/
private def triangleProgram : List (PyStmt ℚ 2) :=
  [.assign "mesh" (.newMesh [![0, 0], ![1, 0], ![0, 1]]),
   .assign "domain" (.addDomain "mesh" none ⟨2, 3⟩ 3 [[0, 1, 2]]),
   .assign "array" (.elementIndices "domain" 0),
   .assign "container" (.embed "domain" 2 [[1/4, 1/4], [3, 3]])]

/-- Locates a point in the first element with the shape functions of the reference triangle, if it is in it. -/
private def triangleLocate : List (List (List (Option ℚ))) → List ℚ → Option (ℕ × List ℚ)
  | _, [u, v] => if 0 ≤ u ∧ 0 ≤ v ∧ u + v ≤ 1 then some (0, [1 - u - v, u, v]) else none
  | _, _ => none

private def pyText : ℕ → String := fun _ => "0x0"

/-- **C112**, positions: as long as a variable holds a mesh made by `Mesh(nodes)`, whatever the program did since, its
positions are those given. -/
theorem C112_positions (fmt : ℕ → String) (locate : List (List (List (Option K))) → List K → Option (ℕ × List K))
    (before : List (PyStmt K m)) (x : String) (nodes : List (Fin m → K)) (after : List (PyStmt K m)) (a : ℕ) (s : PySession K m)
    (h : MeshMade fmt locate before x nodes after a s) (z : String) (hz : s.lookup z = some (.mesh a)) (idx : List ℕ)
    (hidx : ∀ i ∈ idx, i < nodes.length) :
    ∃ rows, s.eval fmt locate (.positions z idx) = .ok (s, .positions rows) ∧
      List.Forall₂ (fun i r => ∃ p, nodes[i]? = some p ∧ r = List.ofFn p) idx rows := by
  obtain ⟨s0, s1, h0, h1, hx, h2⟩ := h.done
  obtain ⟨i0, -, -⟩ := run_spec fmt locate before inv_start h0
  obtain ⟨s', b1, b2, b3, -, -, -, -, b8⟩ := allocated_bind i0 nodes x
  have hss : s' = s1 := by
    simp only [step, eval] at h1
    change (s0.allocated nodes).bind x (.mesh s0.next) = .ok s1 at h1
    rw [b1] at h1; cases h1; rfl
  subst hss
  have ha : a = s0.next := by
    rw [mem_lookup b2.names (v := .mesh s0.next) (by rw [b3]; exact List.mem_cons_self)] at hx
    cases hx; rfl
  subst ha
  obtain ⟨i2, -, t2⟩ := run_spec fmt locate after b2 h2
  have ht := t2 _ _ b8
  obtain ⟨M', hM'⟩ := (held_iff i2 _).mp ⟨z, lookup_mem hz⟩
  rcases ht.state with h | ⟨M, hM, rfl⟩
  · rw [h] at hM'; cases hM'
  · obtain ⟨l, l1, l2, l3⟩ := World.positions_ok M idx hidx
    refine ⟨l.map List.ofFn, by simp only [eval, hz, hM, l1], ?_⟩
    rw [List.forall₂_iff_get]
    refine ⟨by simp [l2], ?_⟩
    intro k hk1 hk2
    have := l3 k hk1
    rw [List.getElem?_eq_getElem (by omega : k < l.length)] at this
    exact ⟨l[k], this.symm, by simp⟩

example : ∃ s : PySession ℚ 2, MeshMade (fun _ => "p") (fun _ _ => none) [.assign "other" (.newMesh [])] "mesh" [![0, 0], ![1, 0], ![0, 1]]
    [.assign "d" (.addDomain "mesh" (some "t") ⟨2, 3⟩ 3 [[0, 1, 2]]), .assign "k" (.meshOf "d"), .del "mesh"] 1 s ∧
    s.lookup "k" = some (.mesh 1) := ⟨_, ⟨_, _, rfl, rfl, rfl, rfl⟩, rfl⟩

/-- **C112**, elements: as long as a variable holds the mesh of a domain (made by `add_domain` with a valid table and elements of
the dimension of the mesh), whatever the program did since: the number of elements is the number of rows given, the mesh of
the domain is the mesh it was added to, and element `e` has the positions designated by the row `e` given. -/
theorem C112_kept (hm : m ≤ 3) (fmt : ℕ → String) (locate : List (List (List (Option K))) → List K → Option (ℕ × List K))
    (before : List (PyStmt K m)) (x y : String) (name : Option String) (kind : PyElement) (cols : ℕ) (table : List (List ℤ))
    (after : List (PyStmt K m)) (a d : ℕ) (nodes : List (Fin m → K)) (s : PySession K m)
    (h : DomainMade fmt locate before x y name kind cols table after a d nodes s) (hheld : MeshHeld s a)
    (hv : PyValidTable nodes cols table) (hdim : kind.dim = m) (z : String) (hz : s.lookup z = some (.domain d)) :
    s.eval fmt locate (.size z) = .ok (s, .integers [table.length]) ∧
    s.eval fmt locate (.meshOf z) = .ok (s, .mesh a) ∧
    ∀ e row, table[e]? = some row →
      ∃ rows, s.eval fmt locate (.element z e) = .ok (s, .element rows) ∧ Designates nodes row rows := by
  obtain ⟨M, h1, h2, h3, h4, h5⟩ := domain_alive h hheld
  refine ⟨by simp only [eval, hz, h3], by simp only [eval, hz, h3], ?_⟩
  intro e row he
  obtain ⟨rows, r1, r2⟩ := read_element hm h hheld hv hdim e row he
  exact ⟨rows, by simp only [eval, hz, r1], r2⟩

example : ∃ s : PySession ℚ 2, DomainMade pyText triangleLocate (triangleProgram.take 1) "domain" "mesh" none ⟨2, 3⟩ 3 [[0, 1, 2]]
    (triangleProgram.drop 2 ++ [.assign "mesh2" (.meshOf "domain"), .del "mesh"]) 0 1 [![0, 0], ![1, 0], ![0, 1]] s ∧
    MeshHeld s 0 ∧ PyValidTable (m := 2) (K := ℚ) [![0, 0], ![1, 0], ![0, 1]] 3 [[0, 1, 2]] ∧ s.lookup "domain" = some (.domain 1) ∧
    s.eval pyText triangleLocate (.element "domain" 0) = .ok (s, .element [[some 0, some 0], [some 1, some 0], [some 0, some 1]]) :=
  ⟨_, ⟨_, _, rfl, rfl, ⟨_, rfl, rfl⟩, rfl, rfl, rfl⟩, ⟨"mesh2", List.mem_cons_self⟩, by constructor <;> decide, rfl, rfl⟩

/-- **C112**, node indices: as long as a variable holds the mesh of the domain, an array of `element_indices(e)`, whenever it was
obtained, reads the row `e` given. -/
theorem C112_indices (fmt : ℕ → String) (locate : List (List (List (Option K))) → List K → Option (ℕ × List K))
    (before : List (PyStmt K m)) (x y : String) (name : Option String) (kind : PyElement) (cols : ℕ) (table : List (List ℤ))
    (after : List (PyStmt K m)) (a d : ℕ) (nodes : List (Fin m → K)) (s : PySession K m)
    (h : DomainMade fmt locate before x y name kind cols table after a d nodes s) (hheld : MeshHeld s a)
    (hv : PyValidTable nodes cols table) (z : String) (e : ℕ) (row : List ℤ) (he : table[e]? = some row) :
    (s.lookup z = some (.domain d) → s.eval fmt locate (.elementIndices z e) = .ok (s, .indices d e)) ∧
    (s.lookup z = some (.indices d e) → s.eval fmt locate (.readIndices z) = .ok (s, .integers (row.map Int.toNat))) := by
  obtain ⟨M, h1, h2, h3, h4, h5⟩ := domain_alive h hheld
  refine ⟨fun hz => by simp only [eval, hz, h3], fun hz => ?_⟩
  simp only [eval, hz, read_indices h hheld hv e row he]

example : ∃ s : PySession ℚ 2, DomainMade pyText triangleLocate (triangleProgram.take 1) "domain" "mesh" none ⟨2, 3⟩ 3 [[0, 1, 2]]
    (triangleProgram.drop 2) 0 1 [![0, 0], ![1, 0], ![0, 1]] s ∧ MeshHeld s 0 ∧
    s.lookup "array" = some (.indices 1 0) ∧ s.eval pyText triangleLocate (.readIndices "array") = .ok (s, .integers [0, 1, 2]) :=
  ⟨_, ⟨_, _, rfl, rfl, ⟨_, rfl, rfl⟩, rfl, rfl, rfl⟩, ⟨"mesh", by decide +kernel⟩, rfl, rfl⟩

private theorem read_elements {fmt : ℕ → String} {locate : List (List (List (Option K))) → List K → Option (ℕ × List K)}
    {before : List (PyStmt K m)} {x y : String} {name : Option String} {kind : PyElement} {cols : ℕ} {table : List (List ℤ)}
    {after : List (PyStmt K m)} {a d : ℕ} {nodes : List (Fin m → K)} {s : PySession K m} (hm : m ≤ 3)
    (h : DomainMade fmt locate before x y name kind cols table after a d nodes s) (hheld : MeshHeld s a)
    (hv : PyValidTable nodes cols table) (hdim : kind.dim = m) (n : ℕ) (hn : n ≤ table.length) :
    ∃ els, s.readElements d n = .ok els ∧ List.Forall₂ (Designates nodes) (table.take n) els := by
  induction n with
  | zero => exact ⟨[], rfl, by simp⟩
  | succ n ih =>
    obtain ⟨els, e1, e2⟩ := ih (by omega)
    have hn' : n < table.length := by omega
    obtain ⟨rows, r1, r2⟩ := read_element hm h hheld hv hdim n table[n] (List.getElem?_eq_getElem hn')
    refine ⟨els ++ [rows], by simp only [readElements, e1, r1], ?_⟩
    rw [List.take_succ_eq_append_getElem hn']
    exact List.rel_append e2 (List.Forall₂.cons r2 List.Forall₂.nil)

/-- **C112**, containers: as long as a variable holds the mesh of a domain with elements, embedding points in it locates them in
the elements designated by the table, and interpolating a field with one value per node of the mesh gives, for every located
point, the values at the nodes of its element weighted by the shape functions.  The rows of points located in no element are
never written. -/
theorem C112_container (hm : m ≤ 3) (fmt : ℕ → String) (locate : List (List (List (Option K))) → List K → Option (ℕ × List K))
    (before : List (PyStmt K m)) (x y : String) (name : Option String) (kind : PyElement) (cols : ℕ) (table : List (List ℤ))
    (after : List (PyStmt K m)) (a d : ℕ) (nodes : List (Fin m → K)) (s : PySession K m)
    (h : DomainMade fmt locate before x y name kind cols table after a d nodes s) (hheld : MeshHeld s a)
    (hv : PyValidTable nodes cols table) (hdim : kind.dim = m) (z : String) :
    (s.lookup z = some (.domain d) → table ≠ [] → ∀ points, ∃ els, List.Forall₂ (Designates nodes) table els ∧
      s.eval fmt locate (.embed z m points) = .ok (s, .container d (points.map (locate els)))) ∧
    (∀ points, s.lookup z = some (.container d points) → (∀ e shape, some (e, shape) ∈ points → e < table.length) →
      ∀ k values, ∃ out, s.eval fmt locate (.interpolate z nodes.length k values) = .ok (s, .field out) ∧
        IsField table values k points out) := by
  obtain ⟨M, h1, h2, h3, h4, h5⟩ := domain_alive h hheld
  subst h2
  refine ⟨fun hz hne points => ?_, fun points hz hin k values => ?_⟩
  · obtain ⟨els, e1, e2⟩ := read_elements hm h hheld hv hdim table.length le_rfl
    rw [List.take_length] at e2
    refine ⟨els, e2, ?_⟩
    have : table.length ≠ 0 := by simpa using hne
    simp only [eval, hz, h3, this, if_false, e1, h5, hdim, ne_eq, not_true_eq_false]
  · have hall : ∀ l : List (Option (ℕ × List K)), (∀ e shape, some (e, shape) ∈ l → e < table.length) →
        ∃ out, s.interpolateAll d M.nodes.length k values l = .ok out ∧ IsField table values k l out := by
      intro l
      induction l with
      | nil => intro _; exact ⟨[], rfl, List.Forall₂.nil⟩
      | cons p l ih =>
        intro hl
        obtain ⟨out, o1, o2⟩ := ih (fun e shape hh => hl e shape (List.mem_cons_of_mem _ hh))
        cases p with
        | none => exact ⟨none :: out, by simp only [interpolateAll, o1], List.Forall₂.cons rfl o2⟩
        | some p =>
          obtain ⟨e, shape⟩ := p
          have he := hl e shape List.mem_cons_self
          have hrow := List.getElem?_eq_getElem he
          obtain ⟨rows, r1, -⟩ := read_element hm h hheld hv hdim e table[e] hrow
          have i1 := read_indices h hheld hv e table[e] hrow
          have hb : ((table[e].map Int.toNat).all fun i => decide (i < M.nodes.length)) = true := by
            rw [List.all_eq_true]
            intro i hi
            obtain ⟨z, hz', rfl⟩ := List.mem_map.mp hi
            have := hv.bound _ (List.getElem_mem he) z hz'
            have := hv.nonneg _ (List.getElem_mem he) z hz'
            simp; omega
          refine ⟨some ((List.range k).map (weightedValue shape table[e] values)) :: out, ?_,
            List.Forall₂.cons ⟨table[e], hrow, rfl⟩ o2⟩
          simp only [interpolateAll, interpolateAt, r1, i1, hb, if_true, o1]
          congr 4
          funext c
          unfold weightedValue
          rw [List.zip_map_right, List.map_map]
          rfl
    obtain ⟨out, o1, o2⟩ := hall points hin
    exact ⟨out, by simp only [eval, hz, h3, h1, ne_eq, not_true_eq_false, if_false, o1], o2⟩

example : ∃ s : PySession ℚ 2, DomainMade pyText triangleLocate (triangleProgram.take 1) "domain" "mesh" none ⟨2, 3⟩ 3 [[0, 1, 2]]
    (triangleProgram.drop 2) 0 1 [![0, 0], ![1, 0], ![0, 1]] s ∧ MeshHeld s 0 ∧
    s.lookup "container" = some (.container 1 [some (0, [1/2, 1/4, 1/4]), none]) ∧
    IsField [[0, 1, 2]] (fun i _ => (i : ℚ)) 1 [some (0, [1/2, 1/4, 1/4]), none] [some [3/4], none] := by
  refine ⟨_, ⟨_, _, rfl, rfl, ⟨_, rfl, rfl⟩, rfl, rfl, rfl⟩, ⟨"mesh", by decide +kernel⟩, by decide +kernel, ?_⟩
  refine List.Forall₂.cons ⟨[0, 1, 2], rfl, ?_⟩ (List.Forall₂.cons rfl List.Forall₂.nil)
  norm_num [weightedValue, List.range_succ, Int.toNat]

/-- **C112**, freed memory: once no variable holds the mesh of a domain, everything done with the domain, with an array of its
node indices, or with a container made from it, is undefined behaviour, although the Python objects are alive.  The bindings
keep nothing alive. -/
theorem C112_freed (fmt : ℕ → String) (locate : List (List (List (Option K))) → List K → Option (ℕ × List K))
    (before : List (PyStmt K m)) (x y : String) (name : Option String) (kind : PyElement) (cols : ℕ) (table : List (List ℤ))
    (after : List (PyStmt K m)) (a d : ℕ) (nodes : List (Fin m → K)) (s : PySession K m)
    (h : DomainMade fmt locate before x y name kind cols table after a d nodes s) (hheld : ¬ MeshHeld s a) (z : String) :
    (s.lookup z = some (.domain d) → s.eval fmt locate (.size z) = .undefined ∧ s.eval fmt locate (.meshOf z) = .undefined ∧
      (∀ e, s.eval fmt locate (.element z e) = .undefined ∧ s.eval fmt locate (.elementIndices z e) = .undefined) ∧
      ∀ k points, s.eval fmt locate (.embed z k points) = .undefined) ∧
    (∀ e, s.lookup z = some (.indices d e) → s.eval fmt locate (.readIndices z) = .undefined) ∧
    (∀ points, s.lookup z = some (.container d points) →
      ∀ n k values, s.eval fmt locate (.interpolate z n k values) = .undefined) := by
  obtain ⟨-, hi, ht⟩ := domain_known h
  have hdead : s.world.domain d = none := by
    rcases ht.state with ⟨-, h2⟩ | ⟨M, h1, -⟩
    · exact h2
    · exact absurd ((held_iff hi a).mpr ⟨M, h1⟩) hheld
  refine ⟨fun hz => ⟨?_, ?_, fun e => ⟨?_, ?_⟩, fun k points => ?_⟩, fun e hz => ?_, fun points hz n k values => ?_⟩
  all_goals simp only [eval, hz, hdead, readElement, PySession.readIndices]

example : ∃ s : PySession ℚ 2, DomainMade pyText triangleLocate (triangleProgram.take 1) "domain" "mesh" none ⟨2, 3⟩ 3 [[0, 1, 2]]
    (triangleProgram.drop 2 ++ [.del "mesh"]) 0 1 [![0, 0], ![1, 0], ![0, 1]] s ∧ ¬ MeshHeld s 0 ∧
    s.lookup "domain" = some (.domain 1) ∧ s.lookup "array" = some (.indices 1 0) := by
  refine ⟨_, ⟨_, _, rfl, rfl, ⟨_, rfl, rfl⟩, rfl, rfl, rfl⟩, ?_, rfl, rfl⟩
  rintro ⟨z, hz⟩
  revert hz
  simp [PySession.start]

/-- **C112** is violated: `mesh = Mesh(…); domain = mesh.add_domain(…); del mesh; domain.element(0)` is undefined behaviour, although
the program holds a reference on the domain. -/
theorem C112_violated :
    (∀ c ∈ ([.element "domain" 0, .size "domain", .meshOf "domain", .readIndices "array", .interpolate "container" 3 1 fun _ _ => 0] :
        List (PyCall ℚ 2)),
      (PySession.start ℚ 2).run pyText triangleLocate (triangleProgram ++ [.del "mesh", .assign "r" c]) = .undefined) ∧
    ∀ c ∈ ([.element "domain" 0, .size "domain", .meshOf "domain", .readIndices "array"] :
        List (PyCall ℚ 2)),
      ∃ s, (PySession.start ℚ 2).run pyText triangleLocate (triangleProgram ++ [.assign "r" c]) = .ok s := by
  refine ⟨fun c hc => ?_, fun c hc => ?_⟩ <;> simp only [List.mem_cons, List.not_mem_nil, or_false] at hc
  · rcases hc with rfl | rfl | rfl | rfl | rfl <;> rfl
  · rcases hc with rfl | rfl | rfl | rfl <;> exact ⟨_, rfl⟩

/-- **C112**, dimensions: a domain of three-dimensional elements is accepted in a two-dimensional mesh; its elements have
an undetermined third coordinate. -/
theorem C112_dimension_violated :
    ∃ s : PySession ℚ 2, (PySession.start ℚ 2).run pyText triangleLocate
      [.assign "mesh" (.newMesh [![0, 0], ![1, 0], ![0, 1]]), .assign "domain" (.addDomain "mesh" none ⟨3, 3⟩ 3 [[0, 1, 2]])] = .ok s ∧
    s.eval pyText triangleLocate (.element "domain" 0) =
      .ok (s, .element [[some 0, some 0, none], [some 1, some 0, none], [some 0, some 1, none]]) := ⟨_, rfl, rfl⟩

/-- **C112**, indices: a negative index, or an index which is not that of a node, is accepted by `add_domain`; asking for the element
is then undefined behaviour. -/
theorem C112_index_violated :
    ∀ z ∈ ([-1, 3, 100] : List ℤ), ∃ s : PySession ℚ 2, (PySession.start ℚ 2).run pyText triangleLocate
      [.assign "mesh" (.newMesh [![0, 0], ![1, 0], ![0, 1]]), .assign "domain" (.addDomain "mesh" none ⟨2, 3⟩ 3 [[0, 1, z]])] = .ok s ∧
    s.eval pyText triangleLocate (.element "domain" 0) = .undefined := by
  intro z hz
  simp only [List.mem_cons, List.not_mem_nil, or_false] at hz
  rcases hz with rfl | rfl | rfl
  all_goals exact ⟨_, rfl, rfl⟩

/-- **C112**, outside points: for a point which is in no element, `interpolate` returns a row which was never written. -/
theorem C112_outside_violated :
    ∃ s : PySession ℚ 2, (PySession.start ℚ 2).run pyText triangleLocate triangleProgram = .ok s ∧
    ∃ row, s.eval pyText triangleLocate (.interpolate "container" 3 1 fun _ _ => 1) = .ok (s, .field [some row, none]) := by
  have h : ∃ s : PySession ℚ 2, (PySession.start ℚ 2).run pyText triangleLocate triangleProgram = .ok s ∧
      DomainMade pyText triangleLocate (triangleProgram.take 1) "domain" "mesh" none ⟨2, 3⟩ 3 [[0, 1, 2]]
        (triangleProgram.drop 2) 0 1 [![0, 0], ![1, 0], ![0, 1]] s ∧ MeshHeld s 0 ∧
      s.lookup "container" = some (.container 1 [some (0, [1/2, 1/4, 1/4]), none]) :=
    ⟨_, rfl, ⟨_, _, rfl, rfl, ⟨_, rfl, rfl⟩, rfl, rfl, rfl⟩, ⟨"mesh", by decide +kernel⟩, by decide +kernel⟩
  obtain ⟨s, h0, h1, h2, h3⟩ := h
  refine ⟨s, h0, ?_⟩
  obtain ⟨out, o1, o2⟩ := (C112_container (by norm_num) _ _ _ _ _ _ _ _ _ _ _ _ _ s h1 h2 (by constructor <;> decide) rfl
    "container").2 _ h3 (by simp) 1 fun _ _ => 1
  cases o2 with
  | cons p1 p2 => cases p2 with
    | cons q1 q2 => cases q2; obtain ⟨row, -, rfl⟩ := p1; subst q1; exact ⟨_, o1⟩

/-- **C112**, dropping a reference (`del x`) in a reachable state is never undefined behaviour: no mesh or domain is freed
twice. -/
theorem C112_drop (fmt : ℕ → String) (locate : List (List (List (Option K))) → List K → Option (ℕ × List K))
    (before : List (PyStmt K m)) (s : PySession K m) (h : (PySession.start K m).run fmt locate before = .ok s) (x : String) :
    ∃ s', s.step fmt locate (.del x) = .ok s' ∨ (s' = s ∧ s.lookup x = none ∧ s.step fmt locate (.del x) = .throws s') := by
  obtain ⟨hs, -, -⟩ := run_spec fmt locate before inv_start h
  cases hx : s.lookup x with
  | none => exact ⟨s, Or.inr ⟨rfl, rfl, by simp [step, hx]⟩⟩
  | some v =>
    obtain ⟨s', h1, -⟩ := filter_release hs x [] (by simp) (by simp) (by simp)
    refine ⟨s', Or.inl ?_⟩
    simp only [step, hx]
    rw [hx] at h1
    exact h1

/-- **C112**, the number of columns: `add_domain` refuses a table which has not one column per node of the element. -/
theorem C112_columns (fmt : ℕ → String) (locate : List (List (List (Option K))) → List K → Option (ℕ × List K)) (s : PySession K m)
    (x y : String) (name : Option String) (kind : PyElement) (cols : ℕ) (table : List (List ℤ)) (hc : cols ≠ kind.nodes) :
    s.step fmt locate (.assign x (.addDomain y name kind cols table)) = .throws s := by
  simp only [step, eval]
  split
  · rename_i s' v he
    split at he
    · rw [addDomain_cols fmt s _ name kind cols table hc] at he; cases he
    · cases he
  · rename_i s' v he
    split at he
    · rw [addDomain_cols fmt s _ name kind cols table hc] at he; cases he; rfl
    · cases he; rfl
  · rename_i he
    split at he
    · rw [addDomain_cols fmt s _ name kind cols table hc] at he; cases he
    · cases he
  · rename_i he
    split at he
    · rw [addDomain_cols fmt s _ name kind cols table hc] at he; cases he
    · cases he

end Caribou
