import Verif.Spec.Lookup

/-!
# Property C97: components bind to the partner which is designated or to the only possible one
-/

set_option autoImplicit false

namespace Caribou

open Spec

theorem candidate_iff (E : FieldElement) (o : SceneObject) :
    Candidate E o ↔ ((o.asTopology E).isSome || o.isCompatibleMesh E) = true := by
  cases o with
  | topology i t e => by_cases h : t = E <;> simp [Candidate, SceneObject.asTopology, SceneObject.isCompatibleMesh, h]
  | mesh i a d =>
    simp only [Candidate, SceneObject.asTopology, SceneObject.isCompatibleMesh, meshIsCompatible, Option.isSome_none, Bool.false_or,
      Bool.and_eq_true, Bool.not_eq_true']
    tauto
  | other i => simp [Candidate, SceneObject.asTopology, SceneObject.isCompatibleMesh]

theorem topology_not_mesh (E : FieldElement) (o : SceneObject) (h : (o.asTopology E).isSome = true) : o.isCompatibleMesh E = false := by
  cases o <;> simp_all [SceneObject.asTopology, SceneObject.isCompatibleMesh]

/-- The two lists of `init` hold the candidates. -/
theorem filter_lengths (E : FieldElement) (context : List SceneObject) :
    (context.filter fun o => (o.asTopology E).isSome).length + (context.filter fun o => o.isCompatibleMesh E).length =
    (context.filter fun o => (o.asTopology E).isSome || o.isCompatibleMesh E).length := by
  induction context with
  | nil => rfl
  | cons o l ih =>
    by_cases h1 : (o.asTopology E).isSome = true
    · have h2 := topology_not_mesh E o h1
      simp [List.filter_cons, h1, h2]
      omega
    · by_cases h2 : o.isCompatibleMesh E = true
      · simp [List.filter_cons, h1, h2]
        omega
      · simp [List.filter_cons, h1, h2]
        omega

theorem only_iff (E : FieldElement) (context : List SceneObject) (o : SceneObject) :
    OnlyCandidate E context o ↔ (context.filter fun o => (o.asTopology E).isSome || o.isCompatibleMesh E) = [o] := by
  constructor
  · rintro ⟨a, b, rfl, ho, ha, hb⟩
    have e : ∀ l : List SceneObject, (∀ p ∈ l, ¬ Candidate E p) →
        l.filter (fun o => (o.asTopology E).isSome || o.isCompatibleMesh E) = [] := by
      intro l hl
      rw [List.filter_eq_nil_iff]
      exact fun p hp h => hl p hp ((candidate_iff E p).2 h)
    rw [List.filter_append, List.filter_cons, e a ha, e b hb, if_pos ((candidate_iff E o).1 ho)]
    rfl
  · intro h
    rw [List.filter_eq_cons_iff] at h
    obtain ⟨a, b, rfl, ha, ho, hb⟩ := h
    rw [List.filter_eq_nil_iff] at hb
    exact ⟨a, b, rfl, (candidate_iff E o).2 ho, fun p hp hc => ha p hp ((candidate_iff E p).1 hc),
      fun p hp hc => hb p hp ((candidate_iff E p).1 hc)⟩

/-- The links left by `init` in the three cases. -/
theorem init_cases (E : FieldElement) (printLog : Bool) (context : List SceneObject) :
    let C := context.filter fun o => (o.asTopology E).isSome || o.isCompatibleMesh E
    (C = [] ∧ initTopology E true printLog none context = .ok (bindTopology E true none)) ∨
    (∃ o, C = [o] ∧ initTopology E true printLog none context = .ok (bindTopology E false (some o))) ∨
    (1 < C.length ∧ initTopology E true printLog none context =
      if printLog then .undefined else .ok (bindTopology E true none)) := by
  intro C
  have hlen : _ = C.length := filter_lengths E context
  set A := context.filter fun o => (o.asTopology E).isSome with hA
  set B := context.filter fun o => o.isCompatibleMesh E with hB
  have hinit : initTopology E true printLog none context =
      if A.isEmpty && B.isEmpty then .ok (bindTopology E true none)
      else if A.length + B.length > 1 then (if printLog then .undefined else .ok (bindTopology E true none))
      else .ok (bindTopology E false (if !A.isEmpty then A.head? else B.head?)) := rfl
  rw [hinit]
  have hsub : ∀ o, C = [o] → (A = [o] ∧ B = []) ∨ (A = [] ∧ B = [o]) := by
    intro o hC
    obtain ⟨a, b, hl, ha, ho, hb⟩ := List.filter_eq_cons_iff.1 hC
    rw [List.filter_eq_nil_iff] at hb
    have key : ∀ l : List SceneObject, (∀ p ∈ l, ¬ ((p.asTopology E).isSome || p.isCompatibleMesh E) = true) →
        l.filter (fun o => (o.asTopology E).isSome) = [] ∧ l.filter (fun o => o.isCompatibleMesh E) = [] := by
      intro l hl'
      constructor <;> rw [List.filter_eq_nil_iff] <;> intro p hp h <;> exact hl' p hp (by simp [h])
    obtain ⟨a1, a2⟩ := key a ha
    obtain ⟨b1, b2⟩ := key b hb
    by_cases h1 : (o.asTopology E).isSome = true
    · left
      rw [hA, hB, hl, List.filter_append, List.filter_append, a1, a2, List.filter_cons, List.filter_cons, b1, b2,
        if_pos h1, topology_not_mesh E o h1]
      exact ⟨rfl, rfl⟩
    · right
      have h2 : o.isCompatibleMesh E = true := by simpa [h1] using ho
      rw [hA, hB, hl, List.filter_append, List.filter_append, a1, a2, List.filter_cons, List.filter_cons, b1, b2,
        if_neg h1, if_pos h2]
      exact ⟨rfl, rfl⟩
  rcases hC : C with _ | ⟨o, _ | ⟨o', C'⟩⟩
  · left
    rw [hC] at hlen
    rw [List.length_nil] at hlen
    have h1 : A = [] := List.length_eq_zero_iff.1 (by omega)
    have h2 : B = [] := List.length_eq_zero_iff.1 (by omega)
    rw [h1, h2]
    exact ⟨rfl, rfl⟩
  · right; left
    refine ⟨o, rfl, ?_⟩
    rcases hsub o hC with ⟨h1, h2⟩ | ⟨h1, h2⟩ <;> rw [h1, h2] <;> rfl
  · right; right
    refine ⟨by simp, ?_⟩
    have h3 : A.length + B.length > 1 := by rw [hlen, hC]; simp
    have h4 : (A.isEmpty && B.isEmpty) = false := by
      by_contra h
      simp only [Bool.not_eq_false, Bool.and_eq_true, List.isEmpty_iff] at h
      rw [h.1, h.2] at h3
      simp at h3
    rw [h4, if_neg (by simp), if_pos h3]

/-- **C97** (topology, partial): without a designated topology the force field is bound to an object exactly when this is the only
candidate of the node, and the user is warned when it is not bound.  Missing: several candidates with `printLog`
(`C97_crash_violated`). -/
theorem C97_topology_partial (E : FieldElement) (printLog : Bool) (context : List SceneObject)
    (h : printLog = true → ∀ o, ∀ before after, context = before ++ o :: after → Candidate E o → ∀ p ∈ after, ¬ Candidate E p) :
    ∃ r, initTopology E true printLog none context = .ok r ∧
      (∀ o, r.link = some o ↔ OnlyCandidate E context o) ∧ (r.link = none → r.warned = true) := by
  have hcase : ∀ C, (context.filter fun o => (o.asTopology E).isSome || o.isCompatibleMesh E) = C → (∀ o, C ≠ [o]) →
      ∀ o, (none : Option SceneObject) = some o ↔ OnlyCandidate E context o := by
    intro C hC hn o
    rw [only_iff, hC]
    exact ⟨fun h => by simp at h, fun h => absurd h (hn o)⟩
  rcases init_cases E printLog context with ⟨h1, h2⟩ | ⟨o, h1, h2⟩ | ⟨h1, h2⟩
  · exact ⟨_, h2, hcase _ h1 (by simp), fun _ => rfl⟩
  · refine ⟨_, h2, fun p => ?_, fun hn => nomatch hn⟩
    rw [only_iff, h1]
    simp [bindTopology]
  · by_cases hp : printLog = true
    · exfalso
      have hp' := h hp
      rcases hC : context.filter fun o => (o.asTopology E).isSome || o.isCompatibleMesh E with _ | ⟨o, _ | ⟨o', C'⟩⟩
      · rw [hC] at h1; simp at h1
      · rw [hC] at h1; simp at h1
      · obtain ⟨a, b, hl, _, ho, hb⟩ := List.filter_eq_cons_iff.1 hC
        have : o' ∈ b.filter fun o => (o.asTopology E).isSome || o.isCompatibleMesh E := by rw [hb]; exact List.mem_cons_self
        rw [List.mem_filter] at this
        exact hp' o a b hl ((candidate_iff E o).2 ho) o' this.1 ((candidate_iff E o').2 this.2)
    · rw [if_neg hp] at h2
      refine ⟨_, h2, hcase _ rfl (fun o ho => ?_), fun _ => rfl⟩
      rw [ho] at h1
      simp at h1

/-- **C97** (designated topology): a topology designated by the user is never replaced, and the user is warned when it has no elements of
the type of the force field. -/
theorem C97_designated (E : FieldElement) (printLog : Bool) (o : SceneObject) (context : List SceneObject) :
    ∃ r, initTopology E true printLog (some o) context = .ok r ∧ r.link = some o ∧
      ((∀ elements, ElementsOf E o elements → elements = []) → r.warned = true) := by
  refine ⟨bindTopology E false (some o), rfl, rfl, fun h => ?_⟩
  cases o with
  | topology i t e =>
    by_cases ht : t = E
    · have := h e ⟨ht, rfl⟩
      simp [bindTopology, SceneObject.asTopology, this, ht]
    · simp [bindTopology, SceneObject.asTopology, ht]
  | mesh i a d =>
    by_cases hq : E.quadratic = true
    · simp [bindTopology, indicesFrom, hq]
    · have hq' : E.quadratic = false := by simpa using hq
      rcases hd : d E.shape with _ | els
      · simp [bindTopology, indicesFrom, hq', hd]
      · have := h els ⟨hq', hd⟩
        simp [bindTopology, indicesFrom, hq', hd, this]
  | other i => simp [bindTopology, SceneObject.asTopology]

/-- **C97** (elements): the elements on which a force field is applied are always elements of its type of the object it is linked to. -/
theorem C97_elements (E : FieldElement) (hasState printLog : Bool) (link : Option SceneObject) (context : List SceneObject)
    (r : TopologyLookup) (h : initTopology E hasState printLog link context = .ok r) (elements : List (List ℕ))
    (he : r.elements = some elements) (hne : elements ≠ []) : ∃ o, r.link = some o ∧ ElementsOf E o elements := by
  have key : ∀ (w : Bool) (l : Option SceneObject), r = bindTopology E w l → ∃ o, r.link = some o ∧ ElementsOf E o elements := by
    rintro w l rfl
    cases l with
    | none => exact nomatch he
    | some o =>
      refine ⟨o, rfl, ?_⟩
      cases o with
      | topology i t e =>
        by_cases ht : t = E
        · simp only [bindTopology, SceneObject.asTopology, ht, if_true, Option.some.injEq] at he
          exact ⟨ht, he⟩
        · simp [bindTopology, SceneObject.asTopology, ht] at he
      | mesh i a d =>
        by_cases hq : E.quadratic = true
        · simp [bindTopology, indicesFrom, hq] at he
          exact absurd he.symm (by simpa using hne)
        · have hq' : E.quadratic = false := by simpa using hq
          rcases hd : d E.shape with _ | els
          · simp [bindTopology, indicesFrom, hq', hd] at he
            exact absurd he.symm (by simpa using hne)
          · simp [bindTopology, indicesFrom, hq', hd] at he
            exact ⟨hq', by rw [hd, he]⟩
      | other i => simp [bindTopology, SceneObject.asTopology] at he
  cases hasState with
  | false =>
    simp only [initTopology, Bool.not_false, if_true, Outcome.ok.injEq] at h
    rw [← h] at he
    exact nomatch he
  | true =>
    cases link with
    | some o =>
      simp only [initTopology, Bool.not_true, Bool.false_eq_true, if_false, Outcome.ok.injEq] at h
      exact key _ _ h.symm
    | none =>
      rcases init_cases E printLog context with ⟨_, h2⟩ | ⟨o, _, h2⟩ | ⟨_, h2⟩
      · rw [h2, Outcome.ok.injEq] at h; exact key _ _ h.symm
      · rw [h2, Outcome.ok.injEq] at h; exact key _ _ h.symm
      · rw [h2] at h
        split_ifs at h
        rw [Outcome.ok.injEq] at h
        exact key _ _ h.symm

/-- **C97** (template names): a name accepted by two element types which exist designates one and the same. -/
theorem C97_template (E E' : FieldElement) (hE : Spec.FieldElement.Exists E) (hE' : Spec.FieldElement.Exists E') (template : String)
    (ht : template ≠ "") (path path' : Option (Option SceneObject)) (parent parent' : Bool) (context context' : List SceneObject)
    (h : (canCreate E template path parent context).1 = true) (h' : (canCreate E' template path' parent' context').1 = true) :
    E = E' := by
  have h1 : template = E.lowerName := by
    by_contra hn
    simp [canCreate, hn, ht] at h
  have h2 : template = E'.lowerName := by
    by_contra hn
    simp [canCreate, hn, ht] at h'
  rw [h1] at h2
  obtain ⟨s, p, q⟩ := E
  obtain ⟨s', p', q'⟩ := E'
  revert hE hE' h2
  clear h h' h1 ht
  cases s <;> cases p <;> cases q <;> cases s' <;> cases p' <;> cases q' <;>
    simp [FieldElement.lowerName, Spec.FieldElement.Exists]

/-- **C97** (scene files, partial): with a template name, a component described in a scene is bound exactly as by `init`; without a
template name, it is bound to the first candidate.  Missing: several candidates without a template name (`C97_guess_violated`). -/
theorem C97_create_partial (E : FieldElement) (template : String) (printLog : Bool) (context : List SceneObject) :
    (template = E.lowerName → createAndInit E template none true printLog context = some (initTopology E true printLog none context)) ∧
    (template = "" → ∀ o, FirstCandidate E context o → ∃ r,
      createAndInit E template none true printLog context = some (.ok r) ∧ r.link = some o) ∧
    (template = "" → (∀ o ∈ context, ¬ Candidate E o) → createAndInit E template none true printLog context = none) := by
  have hne : ("" : String) ≠ E.lowerName := by
    obtain ⟨s, p, q⟩ := E
    cases s <;> cases p <;> cases q <;> simp [FieldElement.lowerName]
  refine ⟨fun h => by simp [createAndInit, canCreate, h], fun h o ⟨a, b, hl, ho, ha⟩ => ?_, fun h hn => ?_⟩
  · subst h
    have hf : (context.find? fun o => (o.asTopology E).isSome || o.isCompatibleMesh E) = some o := by
      rw [List.find?_eq_some_iff_append]
      refine ⟨(candidate_iff E o).1 ho, a, b, hl, fun p hp => ?_⟩
      have := fun h => ha p hp ((candidate_iff E p).2 h)
      simpa using this
    refine ⟨bindTopology E false (some o), ?_, rfl⟩
    simp [createAndInit, canCreate, hne, hf, initTopology]
  · subst h
    have hf : (context.find? fun o => (o.asTopology E).isSome || o.isCompatibleMesh E) = none := by
      rw [List.find?_eq_none]
      exact fun p hp h => hn p hp ((candidate_iff E p).2 h)
    simp [createAndInit, canCreate, hne, hf]

/-- **C97** (template, designated topology): without a template name, a component whose attribute `topology` leads to an object is created
exactly when this object can be the topology of its elements, and is then bound to it; when the attribute leads to nothing, it is not
created. -/
theorem C97_create_designated (E : FieldElement) (printLog : Bool) (context : List SceneObject) :
    (∀ o, Candidate E o → ∃ r, createAndInit E "" (some (some o)) true printLog context = some (.ok r) ∧ r.link = some o) ∧
    (∀ o, ¬ Candidate E o → createAndInit E "" (some (some o)) true printLog context = none) ∧
    createAndInit E "" (some none) true printLog context = none := by
  have hne : ("" : String) ≠ E.lowerName := by
    obtain ⟨s, p, q⟩ := E
    cases s <;> cases p <;> cases q <;> simp [FieldElement.lowerName]
  refine ⟨fun o ho => ?_, fun o ho => ?_, by simp [createAndInit, canCreate, hne]⟩
  · have h := (candidate_iff E o).1 ho
    have h' : ((o.asTopology E).isNone && !o.isCompatibleMesh E) = false := by
      rcases ha : o.asTopology E with _ | v <;> simp_all
    refine ⟨bindTopology E false (some o), ?_, rfl⟩
    simp [createAndInit, canCreate, hne, h', initTopology]
  · have h : ¬ _ := fun h => ho ((candidate_iff E o).2 h)
    have h' : ((o.asTopology E).isNone && !o.isCompatibleMesh E) = true := by
      rcases ha : o.asTopology E with _ | v <;> simp_all
    simp [createAndInit, canCreate, hne, h']

/-- **C97** (material): without a designated material the force field uses the only one of its node; the user is warned otherwise. -/
theorem C97_material {α : Type*} (materials : List α) :
    (∀ m, (initMaterial none materials).1 = some m ↔ materials = [m]) ∧
    ((initMaterial none materials).1 = none → (initMaterial none materials).2 = true) ∧
    ∀ m, initMaterial (some m) materials = (some m, false) := by
  refine ⟨?_, ?_, fun m => rfl⟩
  · rcases materials with _ | ⟨m, _ | ⟨m', l⟩⟩ <;> simp [initMaterial]
  · rcases materials with _ | ⟨m, _ | ⟨m', l⟩⟩ <;> simp [initMaterial]

/-- **C97** (linear solver, partial): after `init` the solver linked is compatible or an error was reported; a compatible solver which was
designated is kept; one which was found without a message is the only compatible one of the node.  Missing: several compatible solvers,
designated solvers which are not compatible (`C97_solver_violated`). -/
theorem C97_solver_partial (link : Option SceneSolver) (solvers : List SceneSolver) :
    let r := initLinearSolver link solvers
    ((∃ s, r.1 = some s ∧ s.caribou = true) ∨ r.2 = .error) ∧
    (∀ s, link = some s → s.caribou = true → r.1 = some s) ∧
    (link = none → r.2 = .silent → ∃ s, r.1 = some s ∧ ∃ before after, solvers = before ++ s :: after ∧
      (∀ t ∈ before, t.caribou = false) ∧ ∀ t ∈ after, t.caribou = false) := by
  intro r
  have hval : ∀ s : SceneSolver, hasValidSolver (some s) = s.caribou := fun _ => rfl
  by_cases hv : hasValidSolver link = true
  · have hr : r = (link, .silent) := if_pos hv
    rcases link with _ | s
    · exact absurd hv (by simp [hasValidSolver])
    · rw [hr]
      exact ⟨Or.inl ⟨s, rfl, hv⟩, fun t ht _ => ht, fun h => nomatch h⟩
  · have h2 : ∀ s, link = some s → s.caribou = true → r.1 = some s := by
      rintro s rfl hs
      exact absurd hs hv
    rcases hC : solvers.filter (·.caribou) with _ | ⟨s, _ | ⟨s', l⟩⟩
    · have hr : r = (link, .error) := by
        show initLinearSolver link solvers = _
        rw [initLinearSolver, if_neg hv, hC]
      rw [hr] at h2 ⊢
      exact ⟨Or.inr rfl, h2, fun _ h => nomatch h⟩
    · have hr : r = (some s, .silent) := by
        show initLinearSolver link solvers = _
        rw [initLinearSolver, if_neg hv, hC]
      obtain ⟨a, b, hl, ha, hs, hb⟩ := List.filter_eq_cons_iff.1 hC
      rw [List.filter_eq_nil_iff] at hb
      rw [hr] at h2 ⊢
      exact ⟨Or.inl ⟨s, rfl, hs⟩, h2, fun _ _ => ⟨s, rfl, a, b, hl, fun t ht => by simpa using ha t ht, fun t ht => by simpa using hb t ht⟩⟩
    · have hr : r = (some s, .warning) := by
        show initLinearSolver link solvers = _
        rw [initLinearSolver, if_neg hv, hC]
      obtain ⟨a, b, hl, ha, hs, hb⟩ := List.filter_eq_cons_iff.1 hC
      rw [hr] at h2 ⊢
      exact ⟨Or.inl ⟨s, rfl, hs⟩, h2, fun _ h => nomatch h⟩

/-- Two topologies of linear tetrahedra. -/
def twoTopologies : List SceneObject :=
  [.topology 0 ⟨.tetrahedron, false, false⟩ [[0, 1, 2, 3]], .topology 1 ⟨.tetrahedron, false, false⟩ [[4, 5, 6, 7]]]

/-- **C97, negation** (log): with two topologies in the node and `printLog`, `init` reads through a null pointer. -/
theorem C97_crash_violated : initTopology ⟨.tetrahedron, false, false⟩ true true none twoTopologies = .undefined := rfl

/-- **C97, negation** (template): without a template name the first of two topologies is taken and the user is not warned, while with the
template name the force field is not bound. -/
theorem C97_guess_violated :
    (∃ r, createAndInit ⟨.tetrahedron, false, false⟩ "" none true false twoTopologies = some (.ok r) ∧
      r.elements = some [[0, 1, 2, 3]] ∧ r.warned = false) ∧
    ∃ r, createAndInit ⟨.tetrahedron, false, false⟩ "tetrahedron" none true false twoTopologies = some (.ok r) ∧
      r.elements = none ∧ r.warned = true :=
  ⟨⟨_, rfl, rfl, rfl⟩, ⟨_, rfl, rfl, rfl⟩⟩

/-- **C97, negation** (linear solver): a designated solver which is not compatible is replaced without a message, and with several
compatible solvers the first one is taken. -/
theorem C97_solver_violated :
    initLinearSolver (some ⟨0, false⟩) [⟨0, false⟩, ⟨1, true⟩] = (some ⟨1, true⟩, .silent) ∧
    (initLinearSolver none [⟨1, true⟩, ⟨2, true⟩]).1 = some ⟨1, true⟩ := by decide

/-- A node with a topology of quadratic tetrahedra and a mesh of hexahedra, which is also a container of quads: force fields of both
types and of quads are bound. -/
example :
    let context : List SceneObject := [.other 0, .topology 1 ⟨.tetrahedron, false, true⟩ [List.range 10],
      .mesh 2 (fun s => s = .hexahedron || s = .quad) fun s => if s = .hexahedron then some [List.range 8] else some []]
    (∃ o, OnlyCandidate ⟨.tetrahedron, false, true⟩ context o) ∧ (∃ o, OnlyCandidate ⟨.hexahedron, false, false⟩ context o) ∧
    ¬ ∃ o, OnlyCandidate ⟨.tetrahedron, false, false⟩ context o := by
  intro context
  simp only [only_iff]
  refine ⟨⟨_, rfl⟩, ⟨_, rfl⟩, ?_⟩
  rintro ⟨o, h⟩
  exact absurd (congrArg List.length h) (by simp [context, SceneObject.asTopology, SceneObject.isCompatibleMesh, meshIsCompatible])

end Caribou
