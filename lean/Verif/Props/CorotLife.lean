import Verif.Props.CorotComponent
import Verif.Props.Corotational

/-!
# Property C108, continued: forces and stiffness during the life of the corotational components
-/

set_option autoImplicit false

namespace Caribou

open Spec

variable {C : CorotClass}

/-- What the operators need to know of the matrices of the elements. -/
structure CorotComponent.Kept (s : CorotComponent C) (k : ℕ) (els : List (Fin C.nodes → ℕ)) (N : ℕ) : Prop where
  ready : s.Ready k els N
  good : ∃ D, CorotReady (s.view els N ready.below) D

theorem CorotComponent.reinitState_ready {N M : ℕ} (d : CorotData) (X : Fin N → Fin 3 → ℝ) :
    ∀ (C : CorotClass) (v : CorotState N C.nodes M), (∀ e, ∀ q ∈ v.qnodes e, ∀ b, ∑ i, q.dN i b = 0) →
      CorotReady (CorotClass.reinitState d X C v) (elasticityMatrix d.young d.poisson)
  | .tetra, v, _ => reinitTetra_ready v d.corotated d.young d.poisson X
  | .hexa, v, h => by
    refine ⟨elasticityMatrix_symm _ _, fun _ => rfl, fun e q hq b => ?_⟩
    rcases List.mem_append.mp hq with hq | hq
    · exact h e q hq b
    · obtain ⟨g, _, rfl⟩ := List.mem_map.mp hq
      exact gaussNodeOf_sum hexa1 (SolidType.dsum .hexa1) _ g b

theorem CorotComponent.emptied_sum {els : List (Fin C.nodes → ℕ)} {N : ℕ} (hb : NodesBelow els N) (s : CorotComponent C)
    (h : ∀ e, ∀ q ∈ (s.view els N hb).qnodes e, ∀ b, ∑ i, q.dN i b = 0) :
    ∀ e, ∀ q ∈ ((emptied C s).view els N hb).qnodes e, ∀ b, ∑ i, q.dN i b = 0 := by
  cases C with
  | tetra =>
    intro e q hq
    simp [view, emptied] at hq
  | hexa => exact h

theorem CorotComponent.reinit_kept {s : CorotComponent C} {k : ℕ} {els : List (Fin C.nodes → ℕ)} {N : ℕ} {scene : CorotScene C.nodes}
    (hl : s.link = some k) (hs : SceneOf k els N scene) (he : els ≠ []) (hb : NodesBelow els N) (d : CorotData)
    (hq : ∀ e, ∀ q ∈ (s.view els N hb).qnodes e, ∀ b, ∑ i, q.dN i b = 0) :
    ∃ s', s.reinit d scene = .ok s' ∧ s'.Kept k els N := by
  obtain ⟨s', h1, h2⟩ := reinit_ready hl hs he hb d
  refine ⟨s', h1, h2, ?_⟩
  obtain ⟨h3, X, x, h4, rfl, -⟩ := hs
  have e : s.elements scene = some els := by simp [CorotComponent.elements, hl, h3]
  have : s.reinit d scene = .ok { (emptied C s).store (CorotClass.reinitState d (readAt X X.length) C
      ((emptied C s).view els X.length hb)) with K := none } := by
    unfold CorotComponent.reinit
    rw [e, h4]
    dsimp only
    rw [if_neg he, if_neg (fun h => h.2 hb), dif_pos hb]
  rw [this] at h1
  injection h1 with h1
  subst h1
  have hr := reinitState_ready d (readAt X X.length) C _ (emptied_sum hb s hq)
  refine ⟨_, hr.sym, fun e => ?_, fun e => ?_⟩
  · simpa [view, store] using hr.ke e
  · simpa [view, store] using hr.sum e

theorem CorotComponent.perform_kept {s : CorotComponent C} {k : ℕ} {els : List (Fin C.nodes → ℕ)} {N : ℕ} (h : s.Kept k els N)
    {scene : CorotScene C.nodes} (hs : SceneOf k els N scene) {c : CorotCall} (hc : c.OfSize N) :
    ∃ s', c.perform s scene = .ok s' ∧ s'.Kept k els N := by
  obtain ⟨s', h1, h2⟩ := perform_ready h.ready hs hc
  obtain ⟨D, hD⟩ := h.good
  have same : s' = s → s'.Kept k els N := fun e => e ▸ h
  have keep : ∀ {α : Type} {o : Outcome α}, o.then (fun _ => s) = .ok s' → s' = s := by
    intro α o ho
    cases o <;> simp [Outcome.then] at ho
    exact ho.symm
  cases c with
  | reinit d => exact reinit_kept h.ready.link hs h.ready.some h.ready.below d hD.sum
  | addForce d y f =>
    refine ⟨s', h1, h2, D, ?_⟩
    have : s'.Ke = s.Ke ∧ s'.qnodes = s.qnodes := by
      change (s.addForce d scene y f).then _ = _ at h1
      unfold CorotComponent.addForce at h1
      split at h1
      · split_ifs at h1
        · simp [Outcome.then] at h1; exact h1 ▸ ⟨rfl, rfl⟩
        · simp [Outcome.then] at h1; exact h1 ▸ ⟨rfl, rfl⟩
        · simp [Outcome.then] at h1
      · simp [Outcome.then] at h1; exact h1 ▸ ⟨rfl, rfl⟩
    refine ⟨hD.sym, fun e => ?_, fun e => ?_⟩
    · have := hD.ke e
      simpa [view, *] using this
    · have := hD.sum e
      simpa [view, *] using this
  | addDForce t dx df => exact ⟨s', h1, same (keep h1)⟩
  | addKToMatrix t N' A => exact ⟨s', h1, same (keep h1)⟩
  | draw flag => exact ⟨s', h1, same (keep h1)⟩
  | computeBBox v => exact ⟨s', h1, same (keep h1)⟩

theorem CorotComponent.runCalls_kept {s : CorotComponent C} {k : ℕ} {els : List (Fin C.nodes → ℕ)} {N : ℕ} (h : s.Kept k els N)
    (calls : List (CorotScene C.nodes × CorotCall)) (hc : ∀ c ∈ calls, SceneOf k els N c.1 ∧ c.2.OfSize N) :
    ∃ s', runCalls s calls = .ok s' ∧ s'.Kept k els N := by
  induction calls generalizing s with
  | nil => exact ⟨s, rfl, h⟩
  | cons c calls ih =>
    obtain ⟨s', h3, h4⟩ := perform_kept h (hc c List.mem_cons_self).1 (hc c List.mem_cons_self).2
    obtain ⟨s'', h5, h6⟩ := ih h4 fun c' hc' => hc c' (List.mem_cons_of_mem _ hc')
    refine ⟨s'', ?_, h6⟩
    unfold runCalls
    rw [h3]
    exact h5

/-- The stiffness of the state. -/
noncomputable def CorotState.stiffnessOf {N n M : ℕ} (v : CorotState N n M) : Dof N → Dof N → ℝ := fun d d' => -v.addKToMatrix 1 0 d d'

theorem CorotState.addKToMatrix_factor {N n M : ℕ} {v : CorotState N n M} {D : Mat6} (h : CorotReady v D) (k : ℝ) (A : Dof N → Dof N → ℝ) :
    v.addKToMatrix k A = fun d d' => A d d' - k * v.stiffnessOf d d' := by
  funext d d'
  rw [addKToMatrix_eq h, CorotState.stiffnessOf, addKToMatrix_eq h]
  simp

theorem CorotState.addDForce_factor {N n M : ℕ} {v : CorotState N n M} {D : Mat6} (h : CorotReady v D) (k : ℝ) (dx df : Fin N → Fin 3 → ℝ) :
    v.addDForce k dx df = fun p a => df p a - k * ∑ d : Dof N, v.stiffnessOf (p, a) d * dx d.1 d.2 := by
  funext p a
  rw [same_operator_generic h k 0, addKToMatrix_factor h, Finset.mul_sum, sub_eq_add_neg, ← Finset.sum_neg_distrib]
  congr 1
  refine Finset.sum_congr rfl fun d _ => ?_
  simp
  ring

/-- Without the rotations the force is affine and its derivative is what `addDForce` applies. -/
theorem CorotState.addForce_affine {N n M : ℕ} (v : CorotState N n M) (frame : (Fin n → Fin 3 → ℝ) → Mat3)
    (X x u f : Fin N → Fin 3 → ℝ) (p : Fin N) :
    (v.addForce false frame X (fun p => x p + u p) f).2 p = v.addDForce 1 u (v.addForce false frame X x f).2 p := by
  simp only [CorotState.addForce, CorotState.addDForce, CorotState.updateRotation, if_false, Bool.false_eq_true]
  rw [sub_sub, ← Finset.sum_add_distrib]
  congr 1
  refine Finset.sum_congr rfl fun e _ => ?_
  rw [← Finset.sum_add_distrib]
  refine Finset.sum_congr rfl fun i _ => ?_
  split_ifs
  · simp only [CorotState.elementForce, mul_one]
    rw [← Matrix.mulVec_add]
    congr 1
    funext a
    simp only [selfadjointMul, Pi.add_apply]
    rw [← Finset.sum_add_distrib]
    refine Finset.sum_congr rfl fun c _ => ?_
    rw [← mul_add]
    congr 1
    simp only [Matrix.mulVec_add, Pi.sub_apply, Pi.add_apply]
    ring
  · simp

theorem readAt_ofFn {N : ℕ} (v : Fin N → Fin 3 → ℝ) : readAt (List.ofFn v) N = v := by
  funext p
  simp [readAt]

theorem readAt_zipWith {N : ℕ} {x u : List (Fin 3 → ℝ)} (hx : x.length = N) (hu : u.length = N) :
    readAt (List.zipWith (· + ·) x u) N = fun p => readAt x N p + readAt u N p := by
  subst hx
  funext p
  have h1 : (p : ℕ) < u.length := by rw [hu]; exact p.2
  simp [readAt, h1]

theorem CorotComponent.elements_of {s : CorotComponent C} {k : ℕ} {els : List (Fin C.nodes → ℕ)} {N : ℕ} {scene : CorotScene C.nodes}
    (hl : s.link = some k) (hs : SceneOf k els N scene) : s.elements scene = some els := by
  simp [CorotComponent.elements, hl, hs.elements]

theorem CorotComponent.addDForce_ready {s : CorotComponent C} {k : ℕ} {els : List (Fin C.nodes → ℕ)} {N : ℕ} {scene : CorotScene C.nodes}
    (h : s.Ready k els N) (hs : SceneOf k els N scene) (t : ℝ) {dx df : List (Fin 3 → ℝ)} (h1 : dx.length = N) (h2 : df.length = N) :
    s.addDForce scene t dx df = .ok (List.ofFn ((s.view els N h.below).addDForce t (readAt dx N) (readAt df N))) := by
  subst h2
  obtain ⟨X, x, h3, -, -⟩ := hs.state
  unfold CorotComponent.addDForce
  rw [elements_of h.link hs, h3]
  dsimp only
  rw [if_neg (not_not.2 h.matrices), dif_pos ⟨h.below, h1 ▸ h.below, h.current⟩]

theorem CorotComponent.addKToMatrix_ready {s : CorotComponent C} {k : ℕ} {els : List (Fin C.nodes → ℕ)} {N : ℕ} {scene : CorotScene C.nodes}
    (h : s.Ready k els N) (hs : SceneOf k els N scene) (t : ℝ) (A : Dof N → Dof N → ℝ) :
    s.addKToMatrix scene t A = .ok ((s.view els N h.below).addKToMatrix t A) := by
  unfold CorotComponent.addKToMatrix
  rw [elements_of h.link hs]
  dsimp only
  rw [dif_pos ⟨h.below, h.current, h.matrices.ge⟩]

theorem CorotComponent.addForce_ready {s : CorotComponent C} {k : ℕ} {els : List (Fin C.nodes → ℕ)} {N : ℕ} {scene : CorotScene C.nodes}
    (h : s.Ready k els N) (hs : SceneOf k els N scene) (d : CorotData) {x f : List (Fin 3 → ℝ)} (h1 : x.length = N) (h2 : f.length = N)
    {X z : List (Fin 3 → ℝ)} (h3 : scene.state = some (X, z)) (h4 : X.length = N) :
    ∃ s', s.addForce d scene x f =
      .ok (s', List.ofFn ((s.view els N h.below).addForce d.corotated C.frame (readAt X N) (readAt x N) (readAt f N)).2) :=
  addForce_forces (elements_of h.link hs) h3 h.matrices d h2 h.below ⟨h1 ▸ h.below, h4 ▸ h.below, h.initial, h.current⟩

/-- The component has one symmetric stiffness matrix: it is what `addKToMatrix` subtracts, multiplied by the factor, what `addDForce` applies,
multiplied by the factor, and without rotations it is the derivative of the forces, which are balanced. -/
def OneStiffness (s : CorotComponent C) (scene : CorotScene C.nodes) (N : ℕ) : Prop :=
  ∃ S : Dof N → Dof N → ℝ, (∀ d d', S d d' = S d' d) ∧
    (∀ t A, s.addKToMatrix scene t A = .ok fun d d' => A d d' - t * S d d') ∧
    (∀ t dx df, dx.length = N → df.length = N → ∃ g, s.addDForce scene t dx df = .ok g ∧ g.length = N ∧
      ∀ p a, readAt g N p a = readAt df N p a - t * ∑ d : Dof N, S (p, a) d * readAt dx N d.1 d.2) ∧
    (∀ d x f, x.length = N → f.length = N → ∃ s' g, s.addForce d scene x f = .ok (s', g) ∧ g.length = N ∧
      ∀ a, ∑ p, readAt g N p a = ∑ p, readAt f N p a) ∧
    ∀ d, d.corotated = false → ∀ x u f, x.length = N → u.length = N → f.length = N →
      ∃ s₁ s₂ g₁ g₂, s.addForce d scene x f = .ok (s₁, g₁) ∧ s.addForce d scene (List.zipWith (· + ·) x u) f = .ok (s₂, g₂) ∧
        ∀ p a, readAt g₂ N p a = readAt g₁ N p a - ∑ e : Dof N, S (p, a) e * readAt u N e.1 e.2

theorem CorotComponent.Kept.oneStiffness {s : CorotComponent C} {k : ℕ} {els : List (Fin C.nodes → ℕ)} {N : ℕ} (h : s.Kept k els N)
    {scene : CorotScene C.nodes} (hs : SceneOf k els N scene) : OneStiffness s scene N := by
  obtain ⟨D, hD⟩ := h.good
  obtain ⟨X, z, h3, h4, h5⟩ := hs.state
  refine ⟨(s.view els N h.ready.below).stiffnessOf, fun d d' => ?_, fun t A => ?_, fun t dx df h1 h2 => ?_, fun d x f h1 h2 => ?_,
    fun d hd x u f h1 h2 h6 => ?_⟩
  · rw [CorotState.stiffnessOf, CorotState.stiffnessOf, symmetric_generic hD]
  · rw [addKToMatrix_ready h.ready hs, CorotState.addKToMatrix_factor hD]
  · refine ⟨_, addDForce_ready h.ready hs t h1 h2, by simp, fun p a => ?_⟩
    rw [readAt_ofFn, CorotState.addDForce_factor hD]
  · obtain ⟨s', h6⟩ := addForce_ready h.ready hs d h1 h2 h3 h4
    refine ⟨s', _, h6, by simp, fun a => ?_⟩
    rw [readAt_ofFn]
    exact balance_generic hD _ _ _ _ _ a
  · obtain ⟨s₁, e₁⟩ := addForce_ready h.ready hs d h1 h6 h3 h4
    have hz : (List.zipWith (· + ·) x u).length = N := by simp [h1, h2]
    obtain ⟨s₂, e₂⟩ := addForce_ready h.ready hs d hz h6 h3 h4
    refine ⟨s₁, s₂, _, _, e₁, e₂, fun p a => ?_⟩
    rw [readAt_ofFn, readAt_ofFn, readAt_zipWith h1 h2, hd, CorotState.addForce_affine, CorotState.addDForce_factor hD]
    dsimp only
    rw [one_mul]

/-- **C108 (stiffness).** After `init` and any calls in complete scenes, the three operators of the component use one stiffness matrix. -/
theorem C108_stiffness (link : Option ℕ) (d : CorotData) (scene : CorotScene C.nodes) (k : ℕ) (els : List (Fin C.nodes → ℕ)) (N : ℕ)
    (hk : meantTopology link scene = some k) (hs : SceneOf k els N scene) (he : els ≠ []) (hb : NodesBelow els N) :
    ∃ s : CorotComponent C, (CorotComponent.created link).init d scene = .ok s ∧
      ∀ calls : List (CorotScene C.nodes × CorotCall), (∀ c ∈ calls, SceneOf k els N c.1 ∧ c.2.OfSize N) →
        ∃ s', runCalls s calls = .ok s' ∧ ∀ scene', SceneOf k els N scene' → OneStiffness s' scene' N := by
  have hl : ((CorotComponent.created link : CorotComponent C).bound scene).link = some k := (CorotComponent.bound_link _ scene).trans hk
  have hq : ((CorotComponent.created link : CorotComponent C).bound scene).qnodes = [] := by
    unfold CorotComponent.bound
    split <;> rfl
  obtain ⟨s, h1, h2⟩ := CorotComponent.reinit_kept hl hs he hb d (fun e q h => by simp [CorotComponent.view, hq] at h)
  refine ⟨s, h1, fun calls hc => ?_⟩
  obtain ⟨s', h3, h4⟩ := CorotComponent.runCalls_kept h2 calls hc
  exact ⟨s', h3, fun scene' h => h4.oneStiffness h⟩

theorem CorotComponent.perform_K {s s' : CorotComponent C} {scene : CorotScene C.nodes} {c : CorotCall} (h : c.perform s scene = .ok s')
    (hc : ∀ d, c ≠ .reinit d) : s'.K = s.K := by
  have keep : ∀ {α : Type} {o : Outcome α}, o.then (fun _ => s) = .ok s' → s' = s := by
    intro α o ho
    cases o <;> simp [Outcome.then] at ho
    exact ho.symm
  cases c with
  | reinit d => exact absurd rfl (hc d)
  | addForce d y f =>
    change (s.addForce d scene y f).then _ = _ at h
    unfold CorotComponent.addForce at h
    split at h
    · split_ifs at h
      · simp [Outcome.then] at h; exact h ▸ rfl
      · simp [Outcome.then] at h; exact h ▸ rfl
      · simp [Outcome.then] at h
    · simp [Outcome.then] at h; exact h ▸ rfl
  | addDForce t dx df => exact congrArg _ (keep h)
  | addKToMatrix t N' A => exact congrArg _ (keep h)
  | draw flag => exact congrArg _ (keep h)
  | computeBBox v => exact congrArg _ (keep h)

theorem CorotComponent.reinit_K {s s' : CorotComponent C} {scene : CorotScene C.nodes} {d : CorotData} (h : s.reinit d scene = .ok s')
    {k : ℕ} {els : List (Fin C.nodes → ℕ)} {N : ℕ} (hl : s.link = some k) (hs : SceneOf k els N scene) (he : els ≠ []) (hb : NodesBelow els N) :
    s'.K = none := by
  obtain ⟨h3, X, x, h4, rfl, -⟩ := hs
  have e : s.elements scene = some els := by simp [CorotComponent.elements, hl, h3]
  unfold CorotComponent.reinit at h
  rw [e, h4] at h
  dsimp only at h
  rw [if_neg he, if_neg (fun h => h.2 hb), dif_pos hb] at h
  injection h with h
  rw [← h]

theorem CorotComponent.runCalls_K {s s' : CorotComponent C} {k : ℕ} {els : List (Fin C.nodes → ℕ)} {N : ℕ} (h : s.Ready k els N)
    (calls : List (CorotScene C.nodes × CorotCall)) (hc : ∀ c ∈ calls, SceneOf k els N c.1 ∧ c.2.OfSize N)
    (hr : s.K = none ∨ ∀ c ∈ calls, ∀ d, c.2 ≠ .reinit d) (hs : runCalls s calls = .ok s') : s'.K = s.K ∧ s'.Ready k els N := by
  induction calls generalizing s with
  | nil =>
    simp only [runCalls, Outcome.ok.injEq] at hs
    exact hs ▸ ⟨rfl, h⟩
  | cons c calls ih =>
    obtain ⟨t, h3, h4⟩ := perform_ready h (hc c List.mem_cons_self).1 (hc c List.mem_cons_self).2
    have ht : t.K = s.K := by
      by_cases hd : ∀ d, c.2 ≠ .reinit d
      · exact perform_K h3 hd
      · push Not at hd
        obtain ⟨d, hd⟩ := hd
        rcases hr with hr | hr
        · rw [hd] at h3
          rw [hr]
          exact reinit_K h3 h.link (hc c List.mem_cons_self).1 h.some h.below
        · exact absurd hd (hr c List.mem_cons_self d)
    unfold runCalls at hs
    rw [h3] at hs
    have := ih h4 (fun c' hc' => hc c' (List.mem_cons_of_mem _ hc'))
      (hr.imp (fun h => ht.trans h) fun h c' hc' => h c' (List.mem_cons_of_mem _ hc')) hs
    exact ⟨this.1.trans ht, this.2⟩

/-- **C108 (matrix of the hexahedra).** In a complete scene `K()` succeeds, and until the next `reinit` it gives the same matrix. -/
theorem C108_getK (link : Option ℕ) (d : CorotData) (scene : CorotScene CorotClass.hexa.nodes) (k : ℕ)
    (els : List (Fin CorotClass.hexa.nodes → ℕ)) (N : ℕ)
    (hk : meantTopology link scene = some k) (hs : SceneOf k els N scene) (he : els ≠ []) (hb : NodesBelow els N) :
    ∃ s : CorotComponent .hexa, (CorotComponent.created link).init d scene = .ok s ∧
      ∀ calls : List (CorotScene CorotClass.hexa.nodes × CorotCall), (∀ c ∈ calls, SceneOf k els N c.1 ∧ c.2.OfSize N) →
        ∃ s', runCalls s calls = .ok s' ∧ ∃ s'' A, s'.getK scene = .ok (s'', ⟨N, A⟩) ∧
          ∀ later : List (CorotScene CorotClass.hexa.nodes × CorotCall),
            (∀ c ∈ later, SceneOf k els N c.1 ∧ c.2.OfSize N ∧ ∀ d, c.2 ≠ .reinit d) →
            ∃ s₃, runCalls s'' later = .ok s₃ ∧ s₃.getK scene = .ok (s₃, ⟨N, A⟩) := by
  have hl : ((CorotComponent.created link : CorotComponent .hexa).bound scene).link = some k := (CorotComponent.bound_link _ scene).trans hk
  obtain ⟨s, h1, h2⟩ := C108_stiffness (C := .hexa) link d scene k els N hk hs he hb
  have hr := CorotComponent.reinit_ready hl hs he hb d
  obtain ⟨t, ht, hr⟩ := hr
  have : t = s := by
    rw [CorotComponent.init_eq, ht] at h1
    injection h1
  subst this
  have hK : t.K = none := CorotComponent.reinit_K ht hl hs he hb
  refine ⟨t, h1, fun calls hc => ?_⟩
  obtain ⟨s', h3, -⟩ := h2 calls hc
  obtain ⟨h4, h5⟩ := CorotComponent.runCalls_K hr calls hc (.inl hK) h3
  obtain ⟨X, x, h6, rfl, -⟩ := hs.state
  have hg : s'.getK scene = .ok ({ s' with K := some ⟨X.length, (s'.view els X.length h5.below).assembleK⟩ },
      ⟨X.length, (s'.view els X.length h5.below).assembleK⟩) := by
    unfold CorotComponent.getK
    rw [h4.trans hK]
    dsimp only
    rw [h6, CorotComponent.elements_of h5.link hs]
    dsimp only
    rw [dif_pos ⟨h5.below, h5.current, h5.matrices.ge⟩]
  refine ⟨s', h3, _, _, hg, fun later hc' => ?_⟩
  have h7 : CorotComponent.Ready { s' with K := some ⟨X.length, (s'.view els X.length h5.below).assembleK⟩ } k els X.length :=
    ⟨h5.link, h5.some, h5.below, h5.matrices, h5.initial, h5.current⟩
  have run : ∃ s₃, runCalls { s' with K := some ⟨X.length, (s'.view els X.length h5.below).assembleK⟩ } later = .ok s₃ := by
    clear hg
    generalize ({ s' with K := some ⟨X.length, (s'.view els X.length h5.below).assembleK⟩ } : CorotComponent .hexa) = u at h7
    clear hc
    induction later generalizing u with
    | nil => exact ⟨u, rfl⟩
    | cons c l ih =>
      obtain ⟨v, h8, h9⟩ := CorotComponent.perform_ready h7 (hc' c List.mem_cons_self).1 (hc' c List.mem_cons_self).2.1
      obtain ⟨w, hw⟩ := ih (fun c' hc'' => hc' c' (List.mem_cons_of_mem _ hc'')) v h9
      refine ⟨w, ?_⟩
      unfold runCalls
      rw [h8]
      exact hw
  obtain ⟨s₃, h8⟩ := run
  obtain ⟨h9, -⟩ := CorotComponent.runCalls_K h7 later (fun c h => ⟨(hc' c h).1, (hc' c h).2.1⟩) (.inr fun c h => (hc' c h).2.2) h8
  refine ⟨s₃, h8, ?_⟩
  unfold CorotComponent.getK
  rw [h9]

/-- **C108 (drawing).** -/
theorem C108_drawing (s : CorotComponent C) (scene : CorotScene C.nodes) (k : ℕ) (els : List (Fin C.nodes → ℕ)) (hl : s.link = some k)
    (h1 : scene.topologies k = els) (X x : List (Fin 3 → ℝ)) (h2 : scene.state = some (X, x)) (hb : NodesBelow els x.length) :
    s.draw scene false = .ok [] ∧ s.draw scene true = .ok (els.flatMap fun e => C.drawn fun i => x.getD (e i) 0) ∧
      s.boxPositions scene false = .ok [] ∧ s.boxPositions scene true = .ok x := by
  have e : s.elements scene = some els := by simp [CorotComponent.elements, hl, h1]
  simp [CorotComponent.draw, CorotComponent.boxPositions, e, h2, hb]

/-- A complete scene with two elements. -/
example (C : CorotClass) (d : CorotData) : ∃ s : CorotComponent C, (CorotComponent.created none).init d (fewNodes C 2 C.nodes) = .ok s ∧
    OneStiffness s (fewNodes C 2 C.nodes) C.nodes := by
  have hs : SceneOf 0 (List.replicate 2 fun i : Fin C.nodes => (i : ℕ)) C.nodes (fewNodes C 2 C.nodes) := ⟨rfl, _, _, rfl, by simp, by simp⟩
  obtain ⟨s, h1, h2⟩ := C108_stiffness none d (fewNodes C 2 C.nodes) 0 (List.replicate 2 fun i : Fin C.nodes => (i : ℕ)) C.nodes rfl
    hs (by simp) (fewNodes_below C 2 _ le_rfl)
  obtain ⟨s', h3, h4⟩ := h2 [] (by simp)
  simp only [runCalls, Outcome.ok.injEq] at h3
  subst h3
  exact ⟨s, h1, h4 _ hs⟩

end Caribou
