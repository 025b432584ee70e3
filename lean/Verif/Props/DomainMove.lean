import Verif.Model.DomainMove
import Verif.Props.Mesh

/-!
# C142: moving and exchanging domains
-/

set_option autoImplicit false
set_option linter.all false

namespace Caribou

variable {K : Type*} {m : ℕ}

/-- The domains after an exchange. -/
theorem swapDomain_domain {w : World K m} {d d' : ℕ} {D D' : DomainObj} (hD : w.domain d = some D) (hD' : w.domain d' = some D') :
    (w.swapDomain d d').domain d = some { D with owned := D'.owned, view := D'.view } ∧ (w.swapDomain d d').domain d' = some { D' with owned := D.owned, view := D.view } ∧
      (∀ x, x ≠ d → x ≠ d' → (w.swapDomain d d').domain x = w.domain x) ∧ (w.swapDomain d d').mesh = w.mesh ∧ (w.swapDomain d d').buffer = w.buffer := by
  simp only [World.swapDomain, hD, hD', World.setDomain]
  refine ⟨?_, by simp, fun x h1 h2 => by simp [h1, h2], trivial, trivial⟩
  by_cases h : d = d'
  · subst h
    rw [hD] at hD'
    cases hD'
    simp
  · simp [h]

/-- The node indices of an element are read through the view. -/
theorem elementIndices_of_view {w w' : World K m} {D D' : DomainObj} (hb : w'.buffer = w.buffer) (hv : D'.view = D.view) (e n : ℕ) : w'.elementIndices D' e n = w.elementIndices D e n := by
  induction n with
  | zero => rfl
  | succ n ih => simp only [World.elementIndices, ih, World.elementIndex, hb, hv]

/-- An element with given positions is read through the view. -/
theorem elementWith_of_view {w w' : World K m} {d d' : ℕ} {D D' : DomainObj} (hD : w.domain d = some D) (hD' : w'.domain d' = some D') (hb : w'.buffer = w.buffer) (hv : D'.view = D.view) (e : ℕ)
    (given : List (Fin m → K)) : w'.elementWith d' e given = w.elementWith d e given := by
  simp only [World.elementWith, hD, hD', elementIndices_of_view hb hv, hv]

/-- An element is read through the view and the mesh pointer. -/
theorem element_of_view {w w' : World K m} {d d' : ℕ} {D D' : DomainObj} (hD : w.domain d = some D) (hD' : w'.domain d' = some D') (hb : w'.buffer = w.buffer) (hm : w'.mesh = w.mesh)
    (hv : D'.view = D.view) (hf : D'.mesh = D.mesh) (e : ℕ) : w'.element d' e = w.element d e := by
  simp only [World.element, hD, hD', elementIndices_of_view hb hv, hv, hf, hm]

/-- **C142 (move).** A domain moved to another address has the elements of the former one for all given positions; the former one has no elements any more; meshes, arrays and all other domains are
as before. -/
theorem C142_move_partial (w : World K m) (null d d' : ℕ) (D : DomainObj) (hD : w.domain d = some D) (hd' : w.domain d' = none) :
    (w.moveDomain null d d').numberOfElements d' = w.numberOfElements d ∧ (w.moveDomain null d d').numberOfElements d = some 0 ∧
    (∀ e given, (w.moveDomain null d d').elementWith d' e given = w.elementWith d e given) ∧
    (∀ x, x ≠ d → x ≠ d' → (∀ e, (w.moveDomain null d d').element x e = w.element x e) ∧ (w.moveDomain null d d').numberOfElements x = w.numberOfElements x) ∧
    (w.moveDomain null d d').mesh = w.mesh ∧ (w.moveDomain null d d').buffer = w.buffer := by
  have hne : d ≠ d' := by
    rintro rfl
    rw [hD] at hd'
    cases hd'
  have h1 : (w.setDomain d' (some (World.emptyDomain null))).domain d' = some (World.emptyDomain null) := by simp
  have h2 : (w.setDomain d' (some (World.emptyDomain null))).domain d = some D := by simp [World.setDomain, hne, hD]
  obtain ⟨s1, s2, s3, s4, s5⟩ := swapDomain_domain h1 h2
  refine ⟨?_, ?_, fun e given => ?_, fun x hx hx' => ?_, s4, s5⟩
  · simp only [World.numberOfElements, World.moveDomain, s1, hD, Option.map_some]
  · simp only [World.numberOfElements, World.moveDomain, s2, Option.map_some]
    rfl
  · exact elementWith_of_view hD s1 s5 rfl e given
  · have s := s3 x hx' hx
    have hx3 : (w.setDomain d' (some (World.emptyDomain null))).domain x = w.domain x := by simp [World.setDomain, hx']
    rw [hx3] at s
    refine ⟨fun e => ?_, ?_⟩
    · rcases h : w.domain x with _ | X
      · simp only [World.element, World.moveDomain, s, h]
      · exact element_of_view h (s.trans h) s5 s4 rfl rfl e
    · simp only [World.numberOfElements, World.moveDomain, s]

/-- **C142 fails for the mesh of a moved domain:** the pointer to the mesh is not moved, so the elements of the new domain cannot be read and it cannot be attached to any mesh: both have undefined
behaviour, for every domain. -/
theorem C142_move_violated (w : World K m) (null d d' : ℕ) (D : DomainObj) (hD : w.domain d = some D) (hd' : w.domain d' = none) :
    (∀ e, (w.moveDomain null d d').element d' e = .undefined) ∧ (∀ a, (w.moveDomain null d d').attachTo d' a = .undefined) ∧
      ∀ a name, (w.moveDomain null d d').addPtr a d' name = .undefined := by
  have hne : d ≠ d' := by
    rintro rfl
    rw [hD] at hd'
    cases hd'
  have h1 : (w.setDomain d' (some (World.emptyDomain null))).domain d' = some (World.emptyDomain null) := by simp
  have h2 : (w.setDomain d' (some (World.emptyDomain null))).domain d = some D := by simp [World.setDomain, hne, hD]
  obtain ⟨s1, -, -, -, -⟩ := swapDomain_domain h1 h2
  have hs : (World.emptyDomain null).mesh = .indeterminate := rfl
  refine ⟨fun e => ?_, fun a => ?_, fun a name => ?_⟩
  · simp only [World.element, World.moveDomain, s1]
    split <;> simp_all [World.emptyDomain]
  · simp only [World.attachTo, World.moveDomain, s1, hs]
  · rcases h : (w.moveDomain null d d').mesh a with _ | M
    · simp only [World.addPtr, h]
    · have s1' : (w.moveDomain null d d').domain d' = _ := s1
      simp only [World.addPtr, h, s1', hs]

/-- **C142 (exchange).** Exchanging two domains of the same mesh exchanges their elements and changes no other domain; exchanging any two domains exchanges their elements for given positions, and twice
is as if nothing happened.  Missing: domains of different meshes, see `C142_swap_violated`. -/
theorem C142_swap_partial (w : World K m) (d d' : ℕ) (D D' : DomainObj) (hD : w.domain d = some D) (hD' : w.domain d' = some D') :
    (D.mesh = D'.mesh → ∀ e, (w.swapDomain d d').element d e = w.element d' e ∧ (w.swapDomain d d').element d' e = w.element d e) ∧
    (∀ e given, (w.swapDomain d d').elementWith d e given = w.elementWith d' e given ∧ (w.swapDomain d d').elementWith d' e given = w.elementWith d e given) ∧
    (∀ x, x ≠ d → x ≠ d' → ∀ e, (w.swapDomain d d').element x e = w.element x e) ∧
    (w.swapDomain d d').numberOfElements d = w.numberOfElements d' ∧ (w.swapDomain d d').numberOfElements d' = w.numberOfElements d ∧
    (w.swapDomain d d').swapDomain d d' = w := by
  obtain ⟨s1, s2, s3, s4, s5⟩ := swapDomain_domain hD hD'
  refine ⟨fun hm e => ⟨element_of_view hD' s1 s5 s4 rfl hm e, element_of_view hD s2 s5 s4 rfl hm.symm e⟩,
    fun e given => ⟨elementWith_of_view hD' s1 s5 rfl e given, elementWith_of_view hD s2 s5 rfl e given⟩, fun x hx hx' e => ?_, ?_, ?_, ?_⟩
  · have s := s3 x hx hx'
    rcases h : w.domain x with _ | X
    · simp only [World.element, s, h]
    · exact element_of_view h (s.trans h) s5 s4 rfl rfl e
  · simp only [World.numberOfElements, s1, hD', Option.map_some]
  · simp only [World.numberOfElements, s2, hD, Option.map_some]
  · obtain ⟨t1, t2, t3, t4, t5⟩ := swapDomain_domain s1 s2
    have hdom : ((w.swapDomain d d').swapDomain d d').domain = w.domain := by
      funext x
      by_cases hx : x = d
      · subst hx; rw [t1, hD]
      · by_cases hx' : x = d'
        · subst hx'; rw [t2, hD']
        · rw [t3 x hx hx', s3 x hx hx']
    rcases hw : (w.swapDomain d d').swapDomain d d' with ⟨a, b, c⟩
    rw [hw] at hdom t4 t5
    rcases w with ⟨a', b', c'⟩
    simp only at hdom t4 t5
    rw [hdom, t4, t5, s4, s5]

/-- **C142 (count).** A domain built from a table of indices or from an array has one element per row, before and after it has been moved. -/
theorem C142_count (w : World K m) (null d d' : ℕ) (mesh : MeshField) (hd' : w.domain d' = none) (hne : d ≠ d') :
    (∀ b cols table, (w.construct d mesh (.copied b cols table)).numberOfElements d = some table.length ∧
      ((w.construct d mesh (.copied b cols table)).moveDomain null d d').numberOfElements d' = some table.length) ∧
    (∀ b rows cols, (w.construct d mesh (.external b rows cols)).numberOfElements d = some rows ∧
      ((w.construct d mesh (.external b rows cols)).moveDomain null d d').numberOfElements d' = some rows) ∧
    ∀ b rows cols outer inner, (w.construct d mesh (.strided b rows cols outer inner)).numberOfElements d = some rows ∧
      ((w.construct d mesh (.strided b rows cols outer inner)).moveDomain null d d').numberOfElements d' = some rows := by
  have key : ∀ src : DomainSource, (w.construct d mesh src).domain d = some (src.build mesh) ∧ (w.construct d mesh src).domain d' = none := by
    intro src
    unfold World.construct
    cases src.allocates <;> simp [World.setDomain, World.setBuffer, hne.symm, hd']
  have h1 : ∀ src : DomainSource, (w.construct d mesh src).numberOfElements d = some (src.build mesh).view.rows := by
    intro src
    simp only [World.numberOfElements, (key src).1, Option.map_some]
  have h2 : ∀ src : DomainSource, ((w.construct d mesh src).moveDomain null d d').numberOfElements d' = some (src.build mesh).view.rows := by
    intro src
    rw [(C142_move_partial _ null d d' _ (key src).1 (key src).2).1, h1]
  exact ⟨fun _ _ _ => ⟨h1 _, h2 _⟩, fun _ _ _ => ⟨h1 _, h2 _⟩, fun _ _ _ _ _ => ⟨h1 _, h2 _⟩⟩

/-- **C142 (memory).** When the moved domain and the former one are destroyed, the array which was owned is freed and nothing else. -/
theorem C142_freed (w : World K m) (null d d' : ℕ) (D : DomainObj) (hD : w.domain d = some D) (hd' : w.domain d' = none) :
    (((w.moveDomain null d d').destroyDomain d').destroyDomain d) = w.destroyDomain d ∧ (((w.moveDomain null d d').destroyDomain d).destroyDomain d') = w.destroyDomain d := by
  have hne : d ≠ d' := by
    rintro rfl
    rw [hD] at hd'
    cases hd'
  have h1 : (w.setDomain d' (some (World.emptyDomain null))).domain d' = some (World.emptyDomain null) := by simp
  have h2 : (w.setDomain d' (some (World.emptyDomain null))).domain d = some D := by simp [World.setDomain, hne, hD]
  obtain ⟨s1, s2, s3, s4, s5⟩ := swapDomain_domain h1 h2
  have hx : ∀ x, x ≠ d → x ≠ d' → (w.moveDomain null d d').domain x = w.domain x := by
    intro x hx hx'
    rw [World.moveDomain, s3 x hx' hx]
    simp [World.setDomain, hx']
  have hz : ∀ x, x ≠ d → x ≠ d' → (w.moveDomain null d d').domain x = w.domain x := hx
  change (w.moveDomain null d d').domain d' = _ at s1
  change (w.moveDomain null d d').domain d = _ at s2
  change (w.moveDomain null d d').mesh = _ at s4
  change (w.moveDomain null d d').buffer = _ at s5
  generalize w.moveDomain null d d' = w' at s1 s2 s4 s5 hz ⊢
  have hdom : Function.update (Function.update w'.domain d' none) d none = Function.update w.domain d none := by
    funext x
    by_cases h : x = d
    · subst h; simp
    · by_cases h' : x = d'
      · subst h'; simp [h, hd']
      · simp [h, h', hz x h h']
  have hdom' : Function.update (Function.update w'.domain d none) d' none = Function.update w.domain d none := by
    rw [Function.update_comm hne.symm] at hdom
    exact hdom
  rcases ho : D.owned with _ | b
  · have e1 : ∀ v : World K m, v.domain d = w'.domain d → v.destroyDomain d = v.setDomain d none := by
      intro v hv
      simp only [World.destroyDomain, hv, s2, World.emptyDomain]
    have e2 : ∀ v : World K m, v.domain d' = w'.domain d' → v.destroyDomain d' = v.setDomain d' none := by
      intro v hv
      simp only [World.destroyDomain, hv, s1, ho]
    have e3 : w.destroyDomain d = w.setDomain d none := by simp only [World.destroyDomain, hD, ho]
    rw [e2 w' rfl, e1 w' rfl, e1 _ (by simp [World.setDomain, hne]), e2 _ (by simp [World.setDomain, hne.symm]), e3]
    simp only [World.setDomain, hdom, hdom', s4, s5, and_self]
  · have e1 : ∀ v : World K m, v.domain d = w'.domain d → v.destroyDomain d = v.setDomain d none := by
      intro v hv
      simp only [World.destroyDomain, hv, s2, World.emptyDomain]
    have e2 : ∀ v : World K m, v.domain d' = w'.domain d' → v.destroyDomain d' = (v.setBuffer b none).setDomain d' none := by
      intro v hv
      simp only [World.destroyDomain, hv, s1, ho]
    have e3 : w.destroyDomain d = (w.setBuffer b none).setDomain d none := by simp only [World.destroyDomain, hD, ho]
    rw [e2 w' rfl, e1 w' rfl, e1 _ (by simp [World.setDomain, World.setBuffer, hne]), e2 _ (by simp [World.setDomain, hne.symm]), e3]
    simp only [World.setDomain, World.setBuffer, hdom, hdom', s4, s5, and_self]

/-- **C142 fails for domains of different meshes:** after an exchange the elements of each domain are made of the nodes of its own mesh, with the indices of the other mesh. -/
theorem C142_swap_violated : ∃ (hist : List (MeshOp ℚ 1)) (w : World ℚ 1), (World.initial ℚ 1).run exampleFmt hist = .ok w ∧
    (∃ r, w.element 0 0 = .ok r ∧ r.map (· 0) = [some 0, some 1]) ∧ (∃ r, w.element 1 0 = .ok r ∧ r.map (· 0) = [some 5, some 7]) ∧
    (∃ r, (w.swapDomain 0 1).element 0 0 = .ok r ∧ r.map (· 0) = [some 1, some 0]) ∧ ∃ r, (w.swapDomain 0 1).element 1 0 = .ok r ∧ r.map (· 0) = [some 7, some 5] :=
  ⟨[.newMesh 0 [![0], ![1]], .newMesh 1 [![7], ![5]], .addNamed 0 "left" 0 (.copied 0 2 [[0, 1]]), .addNamed 1 "right" 1 (.copied 1 2 [[1, 0]])], _, rfl, ⟨_, rfl, rfl⟩, ⟨_, rfl, rfl⟩,
    ⟨_, rfl, rfl⟩, _, rfl, rfl⟩

/-- A domain of two segments is moved and exchanged with another one of its mesh. -/
example : ∃ (hist : List (MeshOp ℚ 1)) (w : World ℚ 1) (D D' : DomainObj), (World.initial ℚ 1).run exampleFmt hist = .ok w ∧ w.domain 0 = some D ∧ w.domain 1 = some D' ∧ w.domain 2 = none ∧
    D.mesh = D'.mesh ∧ D.view.rows = 2 ∧ D'.view.rows = 1 :=
  ⟨[.newMesh 0 [![0], ![1], ![2]], .addNamed 0 "left" 0 (.copied 0 2 [[0, 1], [1, 2]]), .addNamed 0 "right" 1 (.copied 1 2 [[1, 0]])], _, _, _, rfl, rfl, rfl, rfl, rfl, rfl, rfl⟩

end Caribou
