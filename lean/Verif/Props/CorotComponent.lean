import Verif.Model.CorotComponent
import Verif.Spec.CorotComponent

/-!
# Property C108: the life of the corotational components
-/

set_option autoImplicit false

namespace Caribou

open Spec

variable {C : CorotClass}

/-! ### The topology -/

/-- The component after the first part of `init`. -/
def CorotComponent.bound (s : CorotComponent C) (scene : CorotScene C.nodes) : CorotComponent C :=
  match s.link, scene.here with
  | none, [k] => { s with link := some k }
  | _, _ => s

theorem CorotComponent.init_eq (s : CorotComponent C) (d : CorotData) (scene : CorotScene C.nodes) :
    s.init d scene = (s.bound scene).reinit d scene := rfl

theorem CorotComponent.bound_link (s : CorotComponent C) (scene : CorotScene C.nodes) :
    (s.bound scene).link = meantTopology s.link scene := by
  unfold CorotComponent.bound meantTopology
  rcases hl : s.link with _ | k
  · rcases hh : scene.here with _ | ⟨a, _ | ⟨b, l⟩⟩
    · simpa using hl
    · simp
    · simpa using hl
  · simpa using hl

theorem CorotComponent.bound_Ke (s : CorotComponent C) (scene : CorotScene C.nodes) : (s.bound scene).Ke = s.Ke := by
  unfold CorotComponent.bound
  split <;> rfl

theorem CorotComponent.emptied_link : ∀ (C : CorotClass) (s : CorotComponent C), (emptied C s).link = s.link
  | .tetra, _ => rfl
  | .hexa, _ => rfl

theorem CorotComponent.reinit_link {s s' : CorotComponent C} {d : CorotData} {scene : CorotScene C.nodes} (h : s.reinit d scene = .ok s') :
    s'.link = s.link := by
  unfold CorotComponent.reinit at h
  split at h
  · split_ifs at h
    · injection h with h; rw [← h]
    · injection h with h; rw [← h, emptied_link]
    · injection h with h
      rw [← h]
      exact emptied_link C s
  · injection h with h; rw [← h]

/-- **C108 (topology).** After a successful `init` the component uses the designated topology or the only one of its node, and no other one. -/
theorem C108_topology (link : Option ℕ) (d : CorotData) (scene : CorotScene C.nodes) (s : CorotComponent C)
    (h : (CorotComponent.created link).init d scene = .ok s) : s.link = meantTopology link scene := by
  rw [CorotComponent.init_eq] at h
  rw [CorotComponent.reinit_link h, CorotComponent.bound_link]
  rfl

/-! ### Complete scenes -/

/-- The vectors have the sizes of the elements. -/
structure CorotComponent.Ready (s : CorotComponent C) (k : ℕ) (els : List (Fin C.nodes → ℕ)) (N : ℕ) : Prop where
  link : s.link = some k
  some : els ≠ []
  below : NodesBelow els N
  matrices : s.Ke.length = els.length
  initial : els.length ≤ s.initialRotation.length
  current : els.length ≤ s.currentRotation.length

theorem CorotComponent.reinit_ready {s : CorotComponent C} {k : ℕ} {els : List (Fin C.nodes → ℕ)} {N : ℕ} {scene : CorotScene C.nodes}
    (hl : s.link = some k) (hs : SceneOf k els N scene) (he : els ≠ []) (hb : NodesBelow els N) (d : CorotData) :
    ∃ s', s.reinit d scene = .ok s' ∧ s'.Ready k els N := by
  obtain ⟨h1, X, x, h2, rfl, -⟩ := hs
  have e : s.elements scene = some els := by simp [CorotComponent.elements, hl, h1]
  have : s.reinit d scene = .ok { (emptied C s).store (CorotClass.reinitState d (readAt X X.length) C
      ((emptied C s).view els X.length hb)) with K := none } := by
    unfold CorotComponent.reinit
    rw [e, h2]
    dsimp only
    rw [if_neg he, if_neg (fun h => h.2 hb), dif_pos hb]
  refine ⟨_, this, ?_, he, hb, ?_, ?_, ?_⟩
  · exact (emptied_link C s).trans hl
  all_goals simp [CorotComponent.store]

theorem CorotComponent.addForce_eq {s : CorotComponent C} {els : List (Fin C.nodes → ℕ)} {scene : CorotScene C.nodes}
    {X x : List (Fin 3 → ℝ)} (e : s.elements scene = some els) (h2 : scene.state = some (X, x)) (hK : s.Ke.length = els.length) {d : CorotData}
    {y f : List (Fin 3 → ℝ)} (h : NodesBelow els f.length ∧ NodesBelow els y.length ∧ NodesBelow els X.length ∧
      els.length ≤ s.initialRotation.length ∧ els.length ≤ s.currentRotation.length) :
    s.addForce d scene y f = .ok
      ({ s with currentRotation := List.ofFn ((s.view els f.length h.1).addForce d.corotated C.frame (readAt X f.length) (readAt y f.length)
          (readAt f f.length)).1.currentRotation ++ s.currentRotation.drop els.length },
        List.ofFn ((s.view els f.length h.1).addForce d.corotated C.frame (readAt X f.length) (readAt y f.length) (readAt f f.length)).2) := by
  unfold CorotComponent.addForce
  rw [e, h2]
  dsimp only
  rw [if_neg (not_not.2 hK), dif_pos h]

theorem CorotComponent.addForce_forces {s : CorotComponent C} {els : List (Fin C.nodes → ℕ)} {scene : CorotScene C.nodes}
    {X x : List (Fin 3 → ℝ)} (e : s.elements scene = some els) (h2 : scene.state = some (X, x)) (hK : s.Ke.length = els.length) (d : CorotData)
    {y f : List (Fin 3 → ℝ)} {N : ℕ} (hN : f.length = N) (hb : NodesBelow els N) (h : NodesBelow els y.length ∧ NodesBelow els X.length ∧
      els.length ≤ s.initialRotation.length ∧ els.length ≤ s.currentRotation.length) :
    ∃ s', s.addForce d scene y f = .ok (s', List.ofFn ((s.view els N hb).addForce d.corotated C.frame (readAt X N) (readAt y N)
      (readAt f N)).2) := by
  subst hN
  exact ⟨_, addForce_eq e h2 hK ⟨hb, h⟩⟩

theorem CorotComponent.perform_ready {s : CorotComponent C} {k : ℕ} {els : List (Fin C.nodes → ℕ)} {N : ℕ} (h : s.Ready k els N)
    {scene : CorotScene C.nodes} (hs : SceneOf k els N scene) {c : CorotCall} (hc : c.OfSize N) :
    ∃ s', c.perform s scene = .ok s' ∧ s'.Ready k els N := by
  obtain ⟨h1, X, x, h2, hX, hx⟩ := hs
  have e : s.elements scene = some els := by simp [CorotComponent.elements, h.link, h1]
  cases c with
  | reinit d => exact reinit_ready h.link ⟨h1, X, x, h2, hX, hx⟩ h.some h.below d
  | addForce d y f =>
    obtain ⟨hy, hf⟩ := hc
    have hh : NodesBelow els f.length ∧ NodesBelow els y.length ∧ NodesBelow els X.length ∧ els.length ≤ s.initialRotation.length ∧
        els.length ≤ s.currentRotation.length := by
      rw [hy, hf, hX]
      exact ⟨h.below, h.below, h.below, h.initial, h.current⟩
    refine ⟨_, congrArg (fun o => Outcome.then o Prod.fst) (addForce_eq e h2 h.matrices hh), ?_⟩
    exact ⟨h.link, h.some, h.below, h.matrices, h.initial, by simp⟩
  | addDForce t dx df =>
    obtain ⟨hy, hf⟩ := hc
    have hh : NodesBelow els df.length ∧ NodesBelow els dx.length ∧ els.length ≤ s.currentRotation.length := by
      rw [hy, hf]
      exact ⟨h.below, h.below, h.current⟩
    refine ⟨s, ?_, h⟩
    show (s.addDForce scene t dx df).then _ = _
    unfold CorotComponent.addDForce
    rw [e, h2]
    dsimp only
    rw [if_neg (not_not.2 h.matrices), dif_pos hh]
    rfl
  | addKToMatrix t N' A =>
    have hN : N' = N := hc
    subst hN
    refine ⟨s, ?_, h⟩
    show (s.addKToMatrix scene t A).then _ = _
    unfold CorotComponent.addKToMatrix
    rw [e]
    dsimp only
    rw [dif_pos ⟨h.below, h.current, h.matrices.ge⟩]
    rfl
  | draw flag =>
    refine ⟨s, ?_, h⟩
    show (s.draw scene flag).then _ = _
    unfold CorotComponent.draw
    rw [e, h2]
    dsimp only
    have : NodesBelow els x.length := hx ▸ h.below
    split_ifs <;> rfl
  | computeBBox v =>
    refine ⟨s, ?_, h⟩
    show (s.boxPositions scene v).then _ = _
    unfold CorotComponent.boxPositions
    rw [h2]
    dsimp only
    split_ifs <;> rfl

/-- **C108 (complete scenes).** When the topology which is meant has elements and the mechanical state has their nodes, `init` succeeds, and so
does every sequence of calls, whatever the positions and the parameters become. -/
theorem C108_complete (link : Option ℕ) (d : CorotData) (scene : CorotScene C.nodes) (k : ℕ) (els : List (Fin C.nodes → ℕ)) (N : ℕ)
    (hk : meantTopology link scene = some k) (hs : SceneOf k els N scene) (he : els ≠ []) (hb : NodesBelow els N) :
    ∃ s : CorotComponent C, (CorotComponent.created link).init d scene = .ok s ∧
      ∀ calls : List (CorotScene C.nodes × CorotCall), (∀ c ∈ calls, SceneOf k els N c.1 ∧ c.2.OfSize N) → ∃ s', runCalls s calls = .ok s' := by
  have hl : ((CorotComponent.created link : CorotComponent C).bound scene).link = some k := (CorotComponent.bound_link _ scene).trans hk
  obtain ⟨s, h1, h2⟩ := CorotComponent.reinit_ready hl hs he hb d
  refine ⟨s, h1, fun calls => ?_⟩
  clear h1
  induction calls generalizing s with
  | nil => exact fun _ => ⟨s, rfl⟩
  | cons c calls ih =>
    intro h
    obtain ⟨s', h3, h4⟩ := CorotComponent.perform_ready h2 (h c List.mem_cons_self).1 (h c List.mem_cons_self).2
    obtain ⟨s'', h5⟩ := ih s' h4 fun c' hc' => h c' (List.mem_cons_of_mem _ hc')
    refine ⟨s'', ?_⟩
    unfold runCalls
    rw [h3]
    exact h5

theorem CorotComponent.reinitState_idx {N M : ℕ} (d : CorotData) (X : Fin N → Fin 3 → ℝ) :
    ∀ (C : CorotClass) (v : CorotState N C.nodes M), (CorotClass.reinitState d X C v).idx = v.idx
  | .tetra, _ => rfl
  | .hexa, _ => rfl

theorem CorotComponent.reinitState_cached {N M : ℕ} (d : CorotData) (X : Fin N → Fin 3 → ℝ) :
    ∀ (C : CorotClass) (v : CorotState N C.nodes M), v.cachedK = none → (CorotClass.reinitState d X C v).cachedK = none
  | .tetra, _, h => h
  | .hexa, _, _ => rfl

/-- **C108 (forces).** The forces added after `init` are those of the formulas of which C73, C74, C76 and C93 are proved. -/
theorem C108_forces (link : Option ℕ) (d : CorotData) (scene : CorotScene C.nodes) (k : ℕ) (els : List (Fin C.nodes → ℕ))
    (X x : List (Fin 3 → ℝ)) (hk : meantTopology link scene = some k) (h1 : scene.topologies k = els) (h2 : scene.state = some (X, x))
    (he : els ≠ []) (hb : NodesBelow els X.length) (f : List (Fin 3 → ℝ)) (hx : x.length = X.length) (hf : f.length = X.length) :
    ∃ s s' : CorotComponent C, (CorotComponent.created link).init d scene = .ok s ∧
      s.addForce d scene x f = .ok (s', List.ofFn ((CorotClass.reinitState d (readAt X X.length) C
        (CorotState.fresh fun (e : Fin els.length) i => (⟨els.get e i, hb _ (List.get_mem els e) i⟩ : Fin X.length))).addForce d.corotated C.frame
          (readAt X X.length) (readAt x X.length) (readAt f X.length)).2) := by
  have hl : ((CorotComponent.created link : CorotComponent C).bound scene).link = some k := (CorotComponent.bound_link _ scene).trans hk
  obtain ⟨s0, hs0⟩ : ∃ s0, s0 = (CorotComponent.created link : CorotComponent C).bound scene := ⟨_, rfl⟩
  have hcr : s0.qnodes = [] ∧ s0.initialRotation = [] ∧ s0.currentRotation = [] ∧ s0.Ke = [] := by
    rw [hs0]
    unfold CorotComponent.bound
    split <;> exact ⟨rfl, rfl, rfl, rfl⟩
  have e0 : s0.elements scene = some els := by rw [← hs0] at hl; simp [CorotComponent.elements, hl, h1]
  have hview : (CorotComponent.emptied C s0).view els X.length hb =
      CorotState.fresh fun (e : Fin els.length) i => (⟨els.get e i, hb _ (List.get_mem els e) i⟩ : Fin X.length) := by
    obtain ⟨l, q, r0, r, ke, kk⟩ := s0
    obtain ⟨rfl, rfl, rfl, rfl⟩ := hcr
    cases C <;> rfl
  obtain ⟨v, hv⟩ : ∃ v, v = CorotClass.reinitState d (readAt X X.length) C
      (CorotState.fresh fun (e : Fin els.length) i => (⟨els.get e i, hb _ (List.get_mem els e) i⟩ : Fin X.length)) := ⟨_, rfl⟩
  have hvi : v.idx = fun e i => ⟨els.get e i, hb _ (List.get_mem els e) i⟩ := by rw [hv, CorotComponent.reinitState_idx]; rfl
  have hvc : v.cachedK = none := by rw [hv]; exact CorotComponent.reinitState_cached _ _ _ _ rfl
  have hi : (CorotComponent.created link : CorotComponent C).init d scene = .ok { (CorotComponent.emptied C s0).store v with K := none } := by
    rw [CorotComponent.init_eq, ← hs0]
    unfold CorotComponent.reinit
    rw [e0, h2]
    dsimp only
    rw [if_neg he, if_neg (fun h => h.2 hb), dif_pos hb, hview, hv]
  have e1 : CorotComponent.elements { (CorotComponent.emptied C s0).store v with K := none } scene = some els := by
    have : (CorotComponent.emptied C s0).link = some k := (CorotComponent.emptied_link C s0).trans (hs0 ▸ hl)
    simp [CorotComponent.elements, CorotComponent.store, this, h1]
  have hsv : ∀ h, CorotComponent.view { (CorotComponent.emptied C s0).store v with K := none } els X.length h = v := by
    intro h
    obtain ⟨a1, a2, a3, a4, a5, a6⟩ := v
    dsimp only at hvi hvc
    subst hvi hvc
    simp [CorotComponent.view, CorotComponent.store]
  rw [← hv]
  obtain ⟨s', hs'⟩ := CorotComponent.addForce_forces e1 h2 (by simp [CorotComponent.store]) d (y := x) hf hb
    ⟨hx ▸ hb, hb, by simp [CorotComponent.store], by simp [CorotComponent.store]⟩
  rw [hsv] at hs'
  exact ⟨_, s', hi, hs'⟩

/-! ### Incomplete scenes -/

theorem CorotComponent.emptied_Ke : ∀ (C : CorotClass) (s : CorotComponent C), s.Ke = [] → (emptied C s).Ke = []
  | .tetra, _, _ => rfl
  | .hexa, _, h => h

theorem CorotComponent.reinit_unusable {s : CorotComponent C} {scene : CorotScene C.nodes} (hu : Unusable s.link scene)
    (hp : ∀ X x, scene.state = some (X, x) → X ≠ []) (d : CorotData) :
    s.reinit d scene = .ok s ∨ s.reinit d scene = .ok (emptied C s) := by
  unfold CorotComponent.reinit CorotComponent.elements
  rcases hl : s.link with _ | k
  · exact .inl rfl
  · rcases hs : scene.state with _ | ⟨X, x⟩
    · exact .inl rfl
    · dsimp only
      by_cases he : scene.topologies k = []
      · rw [if_pos he]; exact .inl rfl
      · rw [if_neg he]
        have hb : ¬NodesBelow (scene.topologies k) X.length := by
          rcases hu with h | h | ⟨t, h, h'⟩ | ⟨t, X', x', h, h', e, he, i, hi⟩
          · simp [hl] at h
          · simp [hs] at h
          · rw [hl] at h; injection h with h; subst h; exact absurd h' he
          · rw [hl] at h; injection h with h; subst h
            rw [hs] at h'; injection h' with h'; injection h' with h1 h2; subst h1
            intro hn
            exact absurd (hn e he i) (by omega)
        rw [if_pos ⟨hp X x hs, hb⟩]
        exact .inr rfl

theorem ofFn_readAt (f : List (Fin 3 → ℝ)) : List.ofFn (readAt f f.length) = f := by
  apply List.ext_getElem
  · simp
  · intro i h1 h2
    simp [readAt, List.getD_eq_getElem?_getD, h2]

theorem CorotComponent.addForce_empty {s : CorotComponent C} (hK : s.Ke = []) (d : CorotData) (scene : CorotScene C.nodes)
    (x f : List (Fin 3 → ℝ)) : ∃ s', s.addForce d scene x f = .ok (s', f) ∧ s'.Ke = [] ∧ s'.link = s.link := by
  unfold CorotComponent.addForce
  split
  · rename_i els X _ _ _
    by_cases he : els = []
    · subst he
      have h : NodesBelow ([] : List (Fin C.nodes → ℕ)) f.length ∧ NodesBelow ([] : List (Fin C.nodes → ℕ)) x.length ∧
          NodesBelow ([] : List (Fin C.nodes → ℕ)) X.length ∧ ([] : List (Fin C.nodes → ℕ)).length ≤ s.initialRotation.length ∧
          ([] : List (Fin C.nodes → ℕ)).length ≤ s.currentRotation.length :=
        ⟨by simp [NodesBelow], by simp [NodesBelow], by simp [NodesBelow], by simp, by simp⟩
      rw [if_neg (by simp [hK]), dif_pos h]
      have : ((s.view [] f.length h.1).addForce d.corotated C.frame (readAt X f.length) (readAt x f.length) (readAt f f.length)).2 =
          readAt f f.length := by
        funext p
        show readAt f f.length p - ∑ e : Fin 0, _ = _
        rw [Finset.univ_eq_empty, Finset.sum_empty, sub_zero]
      exact ⟨_, congrArg (fun l => Outcome.ok (({ s with
          currentRotation := List.ofFn ((s.view [] f.length h.1).addForce d.corotated C.frame (readAt X f.length) (readAt x f.length)
            (readAt f f.length)).1.currentRotation ++ s.currentRotation.drop 0 } : CorotComponent C), l))
        ((congrArg List.ofFn this).trans (ofFn_readAt f)), hK, rfl⟩
    · rw [if_pos (by rw [hK]; exact fun h => he (List.length_eq_zero_iff.1 h.symm))]
      exact ⟨s, rfl, hK, rfl⟩
  · exact ⟨s, rfl, hK, rfl⟩

theorem CorotComponent.addDForce_empty {s : CorotComponent C} (hK : s.Ke = []) (scene : CorotScene C.nodes) (k : ℝ)
    (dx df : List (Fin 3 → ℝ)) : s.addDForce scene k dx df = .ok df := by
  unfold CorotComponent.addDForce
  split
  · rename_i els _ _ _
    by_cases he : els = []
    · subst he
      have h : NodesBelow ([] : List (Fin C.nodes → ℕ)) df.length ∧ NodesBelow ([] : List (Fin C.nodes → ℕ)) dx.length ∧
          ([] : List (Fin C.nodes → ℕ)).length ≤ s.currentRotation.length :=
        ⟨by simp [NodesBelow], by simp [NodesBelow], by simp⟩
      rw [if_neg (by simp [hK]), dif_pos h]
      have : (s.view [] df.length h.1).addDForce k (readAt dx df.length) (readAt df df.length) = readAt df df.length := by
        funext p
        show readAt df df.length p - ∑ e : Fin 0, _ = _
        rw [Finset.univ_eq_empty, Finset.sum_empty, sub_zero]
      exact congrArg Outcome.ok ((congrArg List.ofFn this).trans (ofFn_readAt df))
    · rw [if_pos (by rw [hK]; exact fun h => he (List.length_eq_zero_iff.1 h.symm))]
  · rfl

/-- **C108 (incomplete scenes).** A component which was initialised in a scene without the topology, without mechanical state, without
elements or with missing nodes adds no forces: neither in this scene nor after further attempts in scenes like this one.  Missing: scenes
with a mechanical state without any node, and the other functions (see the following theorems). -/
theorem C108_incomplete_partial (link : Option ℕ) (d : CorotData) (scene : CorotScene C.nodes)
    (hu : Unusable (meantTopology link scene) scene) (hp : ∀ X x, scene.state = some (X, x) → X ≠ []) :
    ∃ s : CorotComponent C, (CorotComponent.created link).init d scene = .ok s ∧
      ∀ tries : List (CorotData × CorotScene C.nodes), (∀ t ∈ tries, Unusable s.link t.2 ∧ ∀ X x, t.2.state = some (X, x) → X ≠ []) →
        ∃ s' : CorotComponent C, runCalls s (tries.map fun t => (t.2, .reinit t.1)) = .ok s' ∧
          ∀ (d' : CorotData) (scene' : CorotScene C.nodes) (x f : List (Fin 3 → ℝ)) (k : ℝ),
            (s'.addForce d' scene' x f).then Prod.snd = .ok f ∧ s'.addDForce scene' k x f = .ok f := by
  have h0 : ((CorotComponent.created link : CorotComponent C).bound scene).Ke = [] := (CorotComponent.bound_Ke _ _).trans rfl
  obtain ⟨s, h1, h2⟩ : ∃ s : CorotComponent C, (CorotComponent.created link).init d scene = .ok s ∧ s.Ke = [] := by
    rw [CorotComponent.init_eq]
    have hu' : Unusable ((CorotComponent.created link : CorotComponent C).bound scene).link scene := by
      rw [CorotComponent.bound_link]; exact hu
    rcases CorotComponent.reinit_unusable hu' hp d with h | h
    · exact ⟨_, h, h0⟩
    · exact ⟨_, h, CorotComponent.emptied_Ke _ _ h0⟩
  refine ⟨s, h1, fun tries => ?_⟩
  clear h1
  induction tries generalizing s with
  | nil =>
    intro _
    refine ⟨s, rfl, fun d' scene' x f k => ⟨?_, CorotComponent.addDForce_empty h2 _ _ _ _⟩⟩
    obtain ⟨s', h3, -⟩ := CorotComponent.addForce_empty h2 d' scene' x f
    rw [h3]
    rfl
  | cons t tries ih =>
    intro h
    have ht := h t List.mem_cons_self
    have hr : ∃ s1 : CorotComponent C, s.reinit t.1 t.2 = .ok s1 ∧ s1.Ke = [] ∧ s1.link = s.link := by
      rcases CorotComponent.reinit_unusable ht.1 ht.2 t.1 with h | h
      · exact ⟨_, h, h2, rfl⟩
      · exact ⟨_, h, CorotComponent.emptied_Ke _ _ h2, CorotComponent.emptied_link _ _⟩
    obtain ⟨s1, h3, h4, h5⟩ := hr
    obtain ⟨s', h6, h7⟩ := ih s1 h4 fun t' ht' => by rw [h5]; exact h t' (List.mem_cons_of_mem _ ht')
    refine ⟨s', ?_, h7⟩
    rw [List.map_cons]
    unfold runCalls
    show (match s.reinit t.1 t.2 with | .ok s' => _ | o => o) = _
    rw [h3]
    exact h6

/-- **C108 (tetrahedra).** A component of tetrahedra whose `reinit` finds an element with a missing node stops adding forces. -/
theorem C108_tetra_failed (s : CorotComponent .tetra) (d : CorotData) (scene : CorotScene CorotClass.tetra.nodes) (k : ℕ) (X x : List (Fin 3 → ℝ))
    (hl : s.link = some k) (hs : scene.state = some (X, x)) (hX : X ≠ []) (hb : ∃ e ∈ scene.topologies k, ∃ i, X.length ≤ e i) :
    ∃ s', s.reinit d scene = .ok s' ∧ ∀ (d' : CorotData) (scene' : CorotScene CorotClass.tetra.nodes) (y f : List (Fin 3 → ℝ)) (t : ℝ),
      (s'.addForce d' scene' y f).then Prod.snd = .ok f ∧ s'.addDForce scene' t y f = .ok f := by
  obtain ⟨e, he, i, hi⟩ := hb
  have h1 : s.reinit d scene = .ok (CorotComponent.emptied .tetra s) := by
    unfold CorotComponent.reinit CorotComponent.elements
    rw [hl, hs]
    dsimp only
    rw [if_neg (List.ne_nil_of_mem he), if_pos ⟨hX, fun hn => absurd (hn e he i) (by omega)⟩]
  refine ⟨_, h1, fun d' scene' y f t => ⟨?_, CorotComponent.addDForce_empty rfl _ _ _ _⟩⟩
  obtain ⟨s', h3, -⟩ := CorotComponent.addForce_empty (s := CorotComponent.emptied .tetra s) rfl d' scene' y f
  rw [h3]
  rfl

/-! ### What goes wrong -/

/-- A node with one topology made of `m` elements with the nodes 0, 1, 2, …, and a mechanical state with `N` nodes. -/
noncomputable def fewNodes (C : CorotClass) (m N : ℕ) : CorotScene C.nodes :=
  ⟨fun _ => List.replicate m fun i => i, [0], some (List.replicate N 0, List.replicate N 0)⟩

theorem fewNodes_below (C : CorotClass) (m N : ℕ) (h : C.nodes ≤ N) : NodesBelow (List.replicate m fun i : Fin C.nodes => (i : ℕ)) N := by
  intro e he i
  rw [List.eq_of_mem_replicate he]
  exact i.2.trans_le h

theorem fewNodes_not_below (C : CorotClass) (m N : ℕ) (h : N < C.nodes) : ¬NodesBelow (List.replicate (m + 1) fun i : Fin C.nodes => (i : ℕ)) N :=
  fun hn => absurd (hn _ (List.mem_replicate.2 ⟨Nat.succ_ne_zero m, rfl⟩) ⟨N, h⟩) (lt_irrefl N)

theorem fewNodes_init (C : CorotClass) (m N : ℕ) (d : CorotData) : (CorotComponent.created none : CorotComponent C).init d (fewNodes C m N) =
    (CorotComponent.created (some 0) : CorotComponent C).reinit d (fewNodes C m N) := rfl

theorem fewNodes_init_failed (C : CorotClass) (m N : ℕ) (h : N + 1 < C.nodes) (d : CorotData) :
    (CorotComponent.created none : CorotComponent C).init d (fewNodes C (m + 1) (N + 1)) = .ok (CorotComponent.emptied C (.created (some 0))) := by
  rw [fewNodes_init]
  unfold CorotComponent.reinit
  show (if List.replicate (m + 1) (fun i : Fin C.nodes => (i : ℕ)) = [] then _ else _) = _
  rw [if_neg (by simp), List.length_replicate, if_pos ⟨by simp, fewNodes_not_below C m _ h⟩]

/-- **C108 is false of a mechanical state without nodes.** The test of the indices subtracts one from the number of nodes, an unsigned number;
without nodes every index passes and the positions are read out of bounds. -/
theorem C108_empty_violated (C : CorotClass) (d : CorotData) : ∃ scene : CorotScene C.nodes, Unusable (meantTopology none scene) scene ∧
    (CorotComponent.created none : CorotComponent C).init d scene = .undefined := by
  have hC : 0 < C.nodes := by cases C <;> decide
  refine ⟨fewNodes C 1 0, .inr (.inr (.inr ⟨0, [], [], rfl, rfl, fun i => i, List.mem_singleton.2 rfl, ⟨0, hC⟩, Nat.zero_le _⟩)), ?_⟩
  rw [fewNodes_init]
  unfold CorotComponent.reinit
  show (if List.replicate 1 (fun i : Fin C.nodes => (i : ℕ)) = [] then _ else _) = _
  rw [if_neg (by simp), if_neg (by simp)]
  exact dif_neg (fewNodes_not_below C 0 0 hC)

/-- **C108 is false of the matrix.** After an initialisation which reported missing nodes, `addKToMatrix` reads element matrices which
do not exist. -/
theorem C108_matrix_violated (C : CorotClass) (d : CorotData) : ∃ (scene : CorotScene C.nodes) (s : CorotComponent C),
    Unusable (meantTopology none scene) scene ∧ (CorotComponent.created none).init d scene = .ok s ∧
      ∀ (k : ℝ) (N : ℕ) (A : Dof N → Dof N → ℝ), s.addKToMatrix scene k A = .undefined := by
  have hC : 1 < C.nodes := by cases C <;> decide
  refine ⟨fewNodes C 1 1, _, .inr (.inr (.inr ⟨0, [0], [0], rfl, rfl, fun i => i, List.mem_singleton.2 rfl, ⟨1, hC⟩, le_refl _⟩)),
    fewNodes_init_failed C 0 0 hC d, fun k N A => ?_⟩
  have e : (CorotComponent.emptied C (.created (some 0))).elements (fewNodes C 1 1) = some [fun i : Fin C.nodes => (i : ℕ)] := by
    unfold CorotComponent.elements
    rw [CorotComponent.emptied_link]
    rfl
  have hk : (CorotComponent.emptied C (.created (some 0))).Ke = [] := CorotComponent.emptied_Ke C _ rfl
  unfold CorotComponent.addKToMatrix
  rw [e]
  dsimp only
  rw [dif_neg]
  rw [hk]
  simp

/-- **C108 is false without mechanical state.** The initialisation reports it and continues; drawing, the bounding box and `K()` then follow the null
pointer. -/
theorem C108_state_violated (C : CorotClass) (d : CorotData) : ∃ (scene : CorotScene C.nodes) (s : CorotComponent C),
    Unusable (meantTopology none scene) scene ∧ (CorotComponent.created none).init d scene = .ok s ∧ s.draw scene true = .undefined ∧
      s.boxPositions scene true = .undefined :=
  ⟨⟨fun _ => [fun i => i], [0], none⟩, .created (some 0), .inr (.inl rfl), rfl, rfl, rfl⟩

/-- `K()` without mechanical state. -/
theorem C108_getK_violated (d : CorotData) : ∃ (scene : CorotScene 8) (s : CorotComponent .hexa),
    (CorotComponent.created none : CorotComponent .hexa).init d scene = .ok s ∧ s.getK scene = .undefined :=
  ⟨⟨fun _ => [fun i => i], [0], none⟩, .created (some 0), rfl, rfl⟩

/-- **C108 is false of a second initialisation of the hexahedra.** When the mechanical state has lost a node, `reinit` reports it and
keeps the former matrices; `addForce` then reads positions which do not exist. -/
theorem C108_stale_violated (d : CorotData) : ∃ (scene scene' : CorotScene CorotClass.hexa.nodes) (s s' : CorotComponent .hexa) (x : List (Fin 3 → ℝ)),
    (CorotComponent.created none : CorotComponent .hexa).init d scene = .ok s ∧ Unusable s.link scene' ∧ s.reinit d scene' = .ok s' ∧
      scene'.state = some (x, x) ∧ s'.addForce d scene' x x = .undefined := by
  have hs : SceneOf 0 (List.replicate 1 fun i : Fin CorotClass.hexa.nodes => (i : ℕ)) 8 (fewNodes .hexa 1 8) := ⟨rfl, _, _, rfl, by simp, by simp⟩
  obtain ⟨s, h1, h2⟩ := CorotComponent.reinit_ready (s := (CorotComponent.created (some 0) : CorotComponent .hexa)) rfl hs (by simp)
    (fewNodes_below .hexa 1 8 le_rfl) d
  have e : s.elements (fewNodes .hexa 1 7) = some (List.replicate 1 fun i : Fin CorotClass.hexa.nodes => (i : ℕ)) := by
    unfold CorotComponent.elements; rw [h2.link]; rfl
  have hn : ¬NodesBelow (List.replicate 1 fun i : Fin CorotClass.hexa.nodes => (i : ℕ)) 7 := fewNodes_not_below .hexa 0 7 (by decide)
  refine ⟨fewNodes .hexa 1 8, fewNodes .hexa 1 7, s, s, List.replicate 7 0, h1, ?_, ?_, rfl, ?_⟩
  · exact .inr (.inr (.inr ⟨0, _, _, h2.link, rfl, fun i => i, List.mem_singleton.2 rfl, ⟨7, by decide⟩, by simp⟩))
  · unfold CorotComponent.reinit
    rw [e]
    show (if _ then _ else _) = _
    rw [if_neg (by simp), List.length_replicate, if_pos ⟨by simp, hn⟩]
    rfl
  · unfold CorotComponent.addForce
    rw [e]
    show (if _ then _ else _) = _
    rw [if_neg (not_not.2 h2.matrices), dif_neg]
    rw [List.length_replicate]
    exact fun h => hn h.1

/-- **C108 is false of topologies which change.** When an element was added to the topology, `addForce` adds no forces at all, without a message, and
`addKToMatrix` reads an element matrix which does not exist. -/
theorem C108_changed_violated (C : CorotClass) (d : CorotData) : ∃ (scene scene' : CorotScene C.nodes) (s : CorotComponent C),
    (CorotComponent.created none : CorotComponent C).init d scene = .ok s ∧ (scene'.topologies 0).take 1 = scene.topologies 0 ∧
      scene'.state = scene.state ∧ ¬Unusable s.link scene' ∧
      (∀ x f : List (Fin 3 → ℝ), s.addForce d scene' x f = .ok (s, f)) ∧
      ∀ (k : ℝ) (N : ℕ) (A : Dof N → Dof N → ℝ), s.addKToMatrix scene' k A = .undefined := by
  have hs : SceneOf 0 (List.replicate 1 fun i : Fin C.nodes => (i : ℕ)) C.nodes (fewNodes C 1 C.nodes) := ⟨rfl, _, _, rfl, by simp, by simp⟩
  obtain ⟨s, h1, h2⟩ := CorotComponent.reinit_ready (s := (CorotComponent.created (some 0) : CorotComponent C)) rfl hs (by simp)
    (fewNodes_below C 1 _ le_rfl) d
  have e : s.elements (fewNodes C 2 C.nodes) = some (List.replicate 2 fun i : Fin C.nodes => (i : ℕ)) := by
    unfold CorotComponent.elements; rw [h2.link]; rfl
  have hK : s.Ke.length = 1 := h2.matrices
  refine ⟨fewNodes C 1 C.nodes, fewNodes C 2 C.nodes, s, h1, rfl, rfl, ?_, fun x f => ?_, fun k N A => ?_⟩
  · rw [h2.link]
    rintro (h | h | ⟨t, h, h'⟩ | ⟨t, X, x, h, h', el, he, i, hi⟩)
    · cases h
    · cases h
    · cases h'
    · injection h' with h'; injection h' with h3 h4; subst h3
      have := fewNodes_below C 2 C.nodes le_rfl el he i
      simp at hi
      omega
  · unfold CorotComponent.addForce
    rw [e]
    show (if _ then _ else _) = _
    rw [if_pos (by rw [hK]; simp)]
  · unfold CorotComponent.addKToMatrix
    rw [e]
    dsimp only
    rw [dif_neg]
    rw [hK]
    simp

/-- A complete scene and a sequence of calls. -/
example (C : CorotClass) (d : CorotData) : ∃ s : CorotComponent C, (CorotComponent.created none).init d (fewNodes C 2 C.nodes) = .ok s ∧
    ∃ s', runCalls s [(fewNodes C 2 C.nodes, .addForce d (List.replicate C.nodes 1) (List.replicate C.nodes 0)), (fewNodes C 2 C.nodes, .draw true),
      (fewNodes C 2 C.nodes, .reinit d)] = .ok s' := by
  obtain ⟨s, h1, h2⟩ := C108_complete none d (fewNodes C 2 C.nodes) 0 (List.replicate 2 fun i : Fin C.nodes => (i : ℕ)) C.nodes rfl
    ⟨rfl, _, _, rfl, by simp, by simp⟩ (by simp) (fewNodes_below C 2 _ le_rfl)
  refine ⟨s, h1, h2 _ fun c hc => ?_⟩
  have hs : SceneOf 0 (List.replicate 2 fun i : Fin C.nodes => (i : ℕ)) C.nodes (fewNodes C 2 C.nodes) := ⟨rfl, _, _, rfl, by simp, by simp⟩
  simp only [List.mem_cons, List.not_mem_nil, or_false] at hc
  rcases hc with rfl | rfl | rfl
  · exact ⟨hs, by simp [CorotCall.OfSize]⟩
  · exact ⟨hs, trivial⟩
  · exact ⟨hs, trivial⟩

/-- A scene in which an element uses a node which does not exist. -/
example (C : CorotClass) : Unusable (meantTopology none (fewNodes C 1 1)) (fewNodes C 1 1) ∧
    ∀ X x, (fewNodes C 1 1).state = some (X, x) → X ≠ [] := by
  have hC : 1 < C.nodes := by cases C <;> decide
  refine ⟨.inr (.inr (.inr ⟨0, [0], [0], rfl, rfl, fun i => i, List.mem_singleton.2 rfl, ⟨1, hC⟩, le_refl _⟩)), fun X x h => ?_⟩
  injection h with h
  injection h with h1 h2
  subst h1
  simp

end Caribou
