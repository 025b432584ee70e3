import Verif.Lemmas.HyperComponent
import Verif.Spec.StoredTensors

/-!
# Lemmas on the benchmark of stored tensors
-/

set_option autoImplicit false
set_option linter.all false

namespace Caribou

open Spec HyperComponent

variable {T : SolidType} {N M : ℕ}

/-- The node of the library. -/
def BenchNode.toQ {n : ℕ} (g : BenchNode n) : QNode n := ⟨g.weight, g.detJ, g.dN⟩

@[simp] theorem toQ_write {n : ℕ} (v : Storage) (g : BenchNode n) (t : Tensors) : (v.write g t).toQ = g.toQ := by
  cases v <;> rfl

theorem read_write {n : ℕ} (v : Storage) (law : Material) (g : BenchNode n) (x : Fin n → Fin 3 → ℝ) :
    v.read law (v.write g (evaluateTensors law g x)) x = evaluateTensors law g x := by
  cases v <;> rfl

@[simp] theorem write_dN {n : ℕ} (v : Storage) (g : BenchNode n) (t : Tensors) : (v.write g t).dN = g.dN := by
  cases v <;> rfl

theorem evaluate_write {n : ℕ} (v : Storage) (law : Material) (g : BenchNode n) (t : Tensors) (x : Fin n → Fin 3 → ℝ) :
    evaluateTensors law (v.write g t) x = evaluateTensors law g x := by
  cases v <;> rfl

theorem toQ_benchNodeOf {n : ℕ} (E : Elem ℝ 3 n) (X : Fin n → Fin 3 → ℝ) (g : GaussNode 3) :
    (benchNodeOf E X g).toQ = gaussNodeOf E X g := rfl

theorem storedK_fresh {n : ℕ} (v : Storage) (law : Material) (idx : Fin M → Fin n → Fin N) (q : Fin M → List (BenchNode n))
    (x : Fin N → Fin 3 → ℝ)
    (h : ∀ e, ∀ g ∈ q e, v.read law g (fun i => x (idx e i)) = evaluateTensors law g (fun i => x (idx e i))) :
    v.storedK law idx q x = HyperMesh.storedK ⟨idx, fun e => (q e).map BenchNode.toQ⟩ law x := by
  have hk : ∀ e i a j b, v.elementStiffness law (q e) (fun i => x (idx e i)) i a j b =
      elementStiffness law ((q e).map BenchNode.toQ) (fun i => x (idx e i)) i a j b := by
    intro e i a j b
    unfold Storage.elementStiffness elementStiffness
    rw [List.map_map]
    congr 1
    refine List.map_congr_left fun g hg => ?_
    rw [h e g hg]
    rfl
  funext r c
  unfold Storage.storedK HyperMesh.storedK
  simp only [hk]
  rfl

namespace BenchComponent

/-- The component of the library with the same data, the matrix `K` and the eigenvalues `ev`. -/
def lib (b : BenchComponent T N M) (K : Dof N → Dof N → ℝ) (ev : List ℝ) : HyperComponent T N M :=
  ⟨b.mstate, b.material, b.idx, b.topologyNodes, b.nodes.map fun q e => (q e).map BenchNode.toQ, b.xId, K, ev,
    b.stiffnessUpToDate, b.eigenvaluesUpToDate⟩

/-- What an assembly does on both sides. -/
structure Updated (v : Storage) (b b' : BenchComponent T N M) (K K' : Dof N → Dof N → ℝ) (x : Fin N → Fin 3 → ℝ) : Prop where
  mstate : b'.mstate = b.mstate
  idx : b'.idx = b.idx
  topo : b'.topologyNodes = b.topologyNodes
  nodes : b'.nodes = b.nodes
  xId : b'.xId = b.xId
  ev : b'.eigenvalues = b.eigenvalues
  mat : b'.material = b.material.map MaterialComponent.beforeUpdate
  without : b.material = none → b' = b ∧ K' = K
  flag : b.material ≠ none → b'.stiffnessUpToDate = true ∧ b'.eigenvaluesUpToDate = false
  full : ∀ m q, b.material = some m → b.nodes = some q →
    b'.K = v.storedK (dataLaw m.kind m.young m.poisson) b.idx q x ∧
      K' = HyperMesh.storedK ⟨b.idx, fun e => (q e).map BenchNode.toQ⟩ (dataLaw m.kind m.young m.poisson) x
  zero : b.material ≠ none → b.nodes = none → b'.K = 0 ∧ K' = 0

theorem updateAt_lib (v : Storage) (b : BenchComponent T N M) (K : Dof N → Dof N → ℝ) (ev : List ℝ) (x : Fin N → Fin 3 → ℝ) :
    (b.updateAt v x = .undefined ∧ (b.lib K ev).assembleAt x = .undefined) ∨
    ∃ b' K', b.updateAt v x = .ok b' ∧ (b.lib K ev).assembleAt x = .ok (b'.lib K' ev) ∧ Updated v b b' K K' x := by
  obtain ⟨ms, mat, idx, topo, nodes, xId, K0, ev0, fl, efl⟩ := b
  cases mat with
  | none => exact .inr ⟨_, K, rfl, rfl, ⟨rfl, rfl, rfl, rfl, rfl, rfl, rfl, fun _ => ⟨rfl, rfl⟩, fun h => absurd rfl h,
      fun _ _ h => by simp at h, fun h => absurd rfl h⟩⟩
  | some m =>
    cases nodes with
    | some q => exact .inr ⟨_, _, rfl, rfl, ⟨rfl, rfl, rfl, rfl, rfl, rfl, rfl, fun h => by simp at h, fun _ => ⟨rfl, rfl⟩,
        fun m' q' h1 h2 => by
          simp only [Option.some.injEq] at h1 h2
          subst h1; subst h2
          exact ⟨rfl, rfl⟩, fun _ h => by simp at h⟩⟩
    | none =>
      by_cases hM : M = 0
      · refine .inr ⟨_, _, by simp [updateAt, hM]; rfl, by simp [assembleAt, lib, hM]; rfl, ?_⟩
        exact ⟨rfl, rfl, rfl, rfl, rfl, rfl, rfl, fun h => by simp at h, fun _ => ⟨rfl, rfl⟩, fun _ _ _ h => by simp at h,
          fun _ _ => ⟨rfl, rfl⟩⟩
      · exact .inl ⟨by simp [updateAt, hM], by simp [assembleAt, lib, hM]⟩

theorem update_lib (v : Storage) (b : BenchComponent T N M) (K : Dof N → Dof N → ℝ) (ev : List ℝ) :
    (b.update v = .undefined ∧ (b.lib K ev).assemble = .undefined) ∨
    ∃ b' K' c, b.update v = .ok b' ∧ (b.lib K ev).assemble = .ok (b'.lib K' ev) ∧ b.mstate = some c ∧
      Updated v b b' K K' (c b.xId) := by
  cases hc : b.mstate with
  | none => exact .inl ⟨by simp [update, hc], by simp [assemble, lib, hc]⟩
  | some c =>
    have e1 : b.update v = b.updateAt v (c b.xId) := by simp [update, hc]
    have e2 : (b.lib K ev).assemble = (b.lib K ev).assembleAt (c b.xId) := by simp [assemble, lib, hc]
    rw [e1, e2]
    rcases updateAt_lib v b K ev (c b.xId) with h | ⟨b', K', h1, h2, h3⟩
    · exact .inl h
    · exact .inr ⟨b', K', c, h1, h2, rfl, h3⟩

/-- The component with new integration points. -/
noncomputable def reset (b : BenchComponent T N M) (c : CoordId → Fin N → Fin 3 → ℝ) : BenchComponent T N M :=
  { b with nodes := some fun e => T.gauss.map (benchNodeOf T.elem fun i => elementNodes b.topologyNodes c (b.idx e i)) }

theorem init_lib (v : Storage) (b : BenchComponent T N M) (K : Dof N → Dof N → ℝ) (ev : List ℝ) :
    (b.initComponent v = .undefined ∧ (b.lib K ev).initComponent = .undefined) ∨
    ∃ b' K' c, b.initComponent v = .ok b' ∧ (b.lib K ev).initComponent = .ok (b'.lib K' ev) ∧ b.mstate = some c ∧
      Updated v (b.reset c) b' K K' (c b.xId) := by
  cases hc : b.mstate with
  | none => exact .inl ⟨by simp [initComponent, update, hc], by simp [HyperComponent.initComponent, assemble, lib, hc]⟩
  | some c =>
    have e1 : b.initComponent v = (b.reset c).update v := by simp [initComponent, hc, reset]
    have e2 : (b.lib K ev).initComponent = ((b.reset c).lib K ev).assemble := by
      simp only [HyperComponent.initComponent, lib, hc, reset, Option.map_some]
      congr 3
      funext e
      simp only [HyperMesh.initialize, getGaussNodes, List.map_map]
      rfl
    rw [e1, e2]
    rcases update_lib v (b.reset c) K ev with h | ⟨b', K', c', h1, h2, h3, h4⟩
    · exact .inl h
    · have : c' = c := by
        have : (b.reset c).mstate = b.mstate := rfl
        rw [this, hc] at h3
        exact (Option.some.inj h3).symm
      subst this
      exact .inr ⟨b', K', _, h1, h2, rfl, h4⟩

/-- What a force evaluation does on both sides. -/
structure Evaluated (v : Storage) (b b' : BenchComponent T N M) (id : CoordId) : Prop where
  mstate : b'.mstate = b.mstate
  idx : b'.idx = b.idx
  topo : b'.topologyNodes = b.topologyNodes
  xId : b'.xId = id
  ev : b'.eigenvalues = b.eigenvalues
  K : b'.K = b.K
  mat : b'.material = none ↔ b.material = none
  nodes : b'.nodes = none ↔ b.nodes = none
  flag : b'.eigenvaluesUpToDate = true → b.eigenvaluesUpToDate = true
  full : ∀ c m q, b.mstate = some c → b.material = some m → b.nodes = some q → M ≠ 0 →
    b'.stiffnessUpToDate = false ∧ b'.material = some m.beforeUpdate ∧
      b'.nodes = some fun e => (q e).map fun g =>
        v.write g (evaluateTensors (dataLaw m.kind m.young m.poisson) g fun i => c id (b.idx e i))

theorem addForce_lib (v : Storage) (b : BenchComponent T N M) (K : Dof N → Dof N → ℝ) (ev : List ℝ) (id : CoordId)
    (f : Fin N → Fin 3 → ℝ) :
    (b.lib K ev).addForce id f = ((b.addForce v id f).1.lib K ev, (b.addForce v id f).2) ∧
      Evaluated v b (b.addForce v id f).1 id := by
  obtain ⟨ms, mat, idx, topo, nodes, xId, K0, ev0, fl, efl⟩ := b
  by_cases hM : M = 0
  · have e0 : N = 0 ∨ M = 0 := .inr hM
    cases ms <;> cases mat <;>
      refine ⟨by simp [HyperComponent.addForce, addForce, lib, e0], ?_⟩ <;>
      simp [addForce, e0] <;>
      exact ⟨rfl, rfl, rfl, rfl, rfl, rfl, by simp, by simp, by simp, by simp [hM]⟩
  · by_cases hN : N = 0
    · refine absurd ?_ hM
      by_contra h
      have e : Fin M := ⟨0, Nat.pos_of_ne_zero h⟩
      have i : Fin T.numNodes := ⟨0, by cases T <;> decide⟩
      have := idx e i
      rw [hN] at this
      exact this.elim0
    · have e0 : ¬ (N = 0 ∨ M = 0) := by simp [hM, hN]
      cases ms with
      | none =>
        exact ⟨by simp [HyperComponent.addForce, addForce, lib],
          ⟨rfl, rfl, rfl, rfl, rfl, rfl, by simp [addForce], by simp [addForce], by simp [addForce], by simp⟩⟩
      | some c =>
        cases mat with
        | none =>
          exact ⟨by simp [HyperComponent.addForce, addForce, lib],
            ⟨rfl, rfl, rfl, rfl, rfl, rfl, by simp [addForce], by simp [addForce], by simp [addForce], by simp⟩⟩
        | some m =>
          cases nodes with
          | none =>
            refine ⟨by simp [HyperComponent.addForce, addForce, lib, e0, current_beforeUpdate], ?_⟩
            simp [addForce, e0, current_beforeUpdate]
            exact ⟨rfl, rfl, rfl, rfl, rfl, rfl, by simp, by simp, by simp, by simp⟩
          | some q =>
            refine ⟨?_, ?_⟩
            · simp only [HyperComponent.addForce, addForce, lib, e0, if_false, current_beforeUpdate, Option.map_some]
              refine Prod.ext ?_ ?_
              · simp only [HyperComponent.mk.injEq, true_and, and_true, Option.some.injEq]
                funext e
                simp [List.map_map, Function.comp_def]
              · funext p
                simp only [HyperMesh.addForce, nodalForces, List.map_map]
                rfl
            · simp only [addForce, e0, if_false, current_beforeUpdate]
              refine ⟨rfl, rfl, rfl, rfl, rfl, rfl, by simp, by simp, by simp, ?_⟩
              intro c' m' q' h1 h2 h3 _
              simp only [Option.some.injEq] at h1 h2 h3
              subst h1; subst h2; subst h3
              exact ⟨rfl, rfl, rfl⟩

theorem energy_lib (b : BenchComponent T N M) (K : Dof N → Dof N → ℝ) (ev : List ℝ) (id : CoordId) :
    (b.lib K ev).getPotentialEnergy id = b.getPotentialEnergy id := by
  obtain ⟨ms, mat, idx, topo, nodes, xId, K0, ev0, fl, efl⟩ := b
  cases ms with
  | none => rfl
  | some c =>
    cases mat with
    | none => rfl
    | some m =>
      cases nodes with
      | none => rfl
      | some q =>
        simp only [HyperComponent.getPotentialEnergy, getPotentialEnergy, lib, Option.map_some]
        split
        · rfl
        · cases hcur : m.current with
          | none => rfl
          | some law =>
            simp only [HyperMesh.potentialEnergy, List.map_map]
            rfl

/-! ### Calls on both sides -/

/-- No matrix is assembled, or it is null. -/
def Degenerate (b : BenchComponent T N M) : Prop := b.material = none ∨ b.nodes = none ∨ M = 0

theorem Updated.degenerate {v : Storage} {b b' : BenchComponent T N M} {K K' : Dof N → Dof N → ℝ} {x : Fin N → Fin 3 → ℝ}
    (h : Updated v b b' K K' x) (hd : Degenerate b) (hK : b.material = none → b.K = K) : b'.K = K' := by
  cases hm : b.material with
  | none =>
    obtain ⟨h1, h2⟩ := h.without hm
    rw [h1, h2]
    exact hK hm
  | some m =>
    cases hn : b.nodes with
    | none =>
      obtain ⟨h1, h2⟩ := h.zero (by simp [hm]) hn
      rw [h1, h2]
    | some q =>
      rcases hd with hd | hd | hd
      · simp [hm] at hd
      · simp [hn] at hd
      · obtain ⟨h1, h2⟩ := h.full m q hm hn
        rw [h1, h2]
        subst hd
        funext r c
        simp [Storage.storedK, HyperMesh.storedK]

/-- The tensors which an assembly reads are those of the positions. -/
def Fresh (v : Storage) (b : BenchComponent T N M) : Prop :=
  ∀ c m q, b.mstate = some c → b.material = some m → b.nodes = some q → ∀ e, ∀ g ∈ q e,
    v.read (dataLaw m.kind m.young m.poisson) g (fun i => c b.xId (b.idx e i)) =
      evaluateTensors (dataLaw m.kind m.young m.poisson) g (fun i => c b.xId (b.idx e i))

theorem Updated.fresh {v : Storage} {b b' : BenchComponent T N M} {K K' : Dof N → Dof N → ℝ} {c : CoordId → Fin N → Fin 3 → ℝ}
    (h : Updated v b b' K K' (c b.xId)) (hc : b.mstate = some c) (hf : Fresh v b) (hK : b.material = none → b.K = K) :
    b'.K = K' := by
  by_cases hd : Degenerate b
  · exact h.degenerate hd hK
  · simp only [Degenerate, not_or] at hd
    obtain ⟨m, hm⟩ := Option.ne_none_iff_exists'.1 hd.1
    obtain ⟨q, hq⟩ := Option.ne_none_iff_exists'.1 hd.2.1
    obtain ⟨h1, h2⟩ := h.full m q hm hq
    rw [h1, h2]
    exact storedK_fresh v _ b.idx q _ (hf c m q hc hm hq)

theorem Updated.keepsFresh {v : Storage} {b b' : BenchComponent T N M} {K K' : Dof N → Dof N → ℝ} {x : Fin N → Fin 3 → ℝ}
    (h : Updated v b b' K K' x) (hf : Fresh v b) : Fresh v b' := by
  intro c m q hc hm hq
  rw [h.mstate] at hc
  rw [h.nodes] at hq
  rw [h.mat] at hm
  obtain ⟨m0, hm0, rfl⟩ := Option.map_eq_some_iff.1 hm
  rw [h.xId, h.idx]
  exact hf c m0 q hc hm0 hq

theorem Updated.keepsDegenerate {v : Storage} {b b' : BenchComponent T N M} {K K' : Dof N → Dof N → ℝ} {x : Fin N → Fin 3 → ℝ}
    (h : Updated v b b' K K' x) : Degenerate b' ↔ Degenerate b := by
  unfold Degenerate
  rw [h.mat, h.nodes, Option.map_eq_none_iff]

theorem Evaluated.fresh {v : Storage} {b b' : BenchComponent T N M} {id : CoordId} (h : Evaluated v b b' id) (hM : M ≠ 0) :
    Fresh v b' := by
  intro c m q hc hm hq e g hg
  rw [h.mstate] at hc
  have hm0 : b.material ≠ none := fun h0 => by rw [h.mat.2 h0] at hm; simp at hm
  have hq0 : b.nodes ≠ none := fun h0 => by rw [h.nodes.2 h0] at hq; simp at hq
  obtain ⟨m0, hm0⟩ := Option.ne_none_iff_exists'.1 hm0
  obtain ⟨q0, hq0⟩ := Option.ne_none_iff_exists'.1 hq0
  obtain ⟨_, h2, h3⟩ := h.full c m0 q0 hc hm0 hq0 hM
  rw [hm] at h2
  rw [hq] at h3
  simp only [Option.some.injEq] at h2 h3
  subst h2; subst h3
  obtain ⟨g0, _, rfl⟩ := List.mem_map.1 hg
  rw [h.xId, h.idx, evaluate_write]
  exact read_write v _ g0 _

theorem read_of_other {n : ℕ} {v : Storage} (hv : v ≠ .storeFAndS) {law law' : Material} {g : BenchNode n} {x : Fin n → Fin 3 → ℝ}
    (h : v.read law g x = evaluateTensors law g x) : v.read law' g x = evaluateTensors law' g x := by
  cases v with
  | recomputeF => rfl
  | storeF =>
    have : g.F = deformationGradient g.dN x := congrArg Tensors.F h
    simp only [Storage.read, evaluateTensors, this]
  | storeFAndS => exact absurd rfl hv

/-- What is the same on both sides in a phase. -/
def PhaseRel (v : Storage) (b : BenchComponent T N M) (K : Dof N → Dof N → ℝ) : Phase → Prop
  | .stale => True
  | .evaluated id => b.xId = id ∧ (Degenerate b ∨ Fresh v b ∧ b.stiffnessUpToDate = false)
  | .assembled id => b.xId = id ∧ (Degenerate b ∨ Fresh v b ∧ b.stiffnessUpToDate = true) ∧ b.K = K
  | .held => (Degenerate b ∨ b.stiffnessUpToDate = true) ∧ b.K = K

/-- What is the same on both sides. -/
structure Rel (v : Storage) (p : Phase) (b : BenchComponent T N M) (K : Dof N → Dof N → ℝ) (ev : List ℝ) : Prop where
  deg : Degenerate b → b.K = K
  ms : b.mstate = none → b.nodes = none
  eig : b.eigenvaluesUpToDate = true → b.eigenvalues = ev
  phase : PhaseRel v b K p

theorem refresh_lib {v : Storage} {p : Phase} {b : BenchComponent T N M} {K : Dof N → Dof N → ℝ} {ev : List ℝ} (h : Rel v p b K ev)
    (p' : Phase) (hp : p.next v (.addDForce 0 0 0 : Op N) = some p') :
    (b.refresh v = .undefined ∧ (b.lib K ev).refresh = .undefined) ∨
    ∃ b' K', b.refresh v = .ok b' ∧ (b.lib K ev).refresh = .ok (b'.lib K' ev) ∧ b'.K = K' ∧ Rel v p' b' K' ev := by
  have hdir : b.stiffnessUpToDate = true → b.refresh v = .ok b ∧ (b.lib K ev).refresh = .ok (b.lib K ev) := by
    intro hf
    exact ⟨by simp [refresh, hf], by simp [HyperComponent.refresh, lib, hf]⟩
  have hupd : b.stiffnessUpToDate = false → b.refresh v = b.update v ∧ (b.lib K ev).refresh = (b.lib K ev).assemble := by
    intro hf
    exact ⟨by simp [refresh, hf], by simp [HyperComponent.refresh, lib, hf]⟩
  have hKn : b.material = none → b.K = K := fun h0 => h.deg (.inl h0)
  -- an assembly of a degenerate component
  have hgen : ∀ p0 : Phase, (∀ b' K', Degenerate b' → b'.K = K' → b'.xId = b.xId → b'.mstate = b.mstate → b'.nodes = b.nodes →
        (b'.eigenvaluesUpToDate = true → b'.eigenvalues = ev) → Rel v p0 b' K' ev) → Degenerate b →
      (b.refresh v = .undefined ∧ (b.lib K ev).refresh = .undefined) ∨
      ∃ b' K', b.refresh v = .ok b' ∧ (b.lib K ev).refresh = .ok (b'.lib K' ev) ∧ b'.K = K' ∧ Rel v p0 b' K' ev := by
    intro p0 h0 hd
    cases hf : b.stiffnessUpToDate with
    | true =>
      obtain ⟨h1, h2⟩ := hdir hf
      exact .inr ⟨b, K, h1, h2, h.deg hd, h0 b K hd (h.deg hd) rfl rfl rfl h.eig⟩
    | false =>
      obtain ⟨h1, h2⟩ := hupd hf
      rw [h1, h2]
      rcases update_lib v b K ev with hu | ⟨b', K', c, h3, h4, h5, h6⟩
      · exact .inl hu
      · refine .inr ⟨b', K', h3, h4, h6.degenerate hd hKn, h0 b' K' (h6.keepsDegenerate.2 hd) (h6.degenerate hd hKn) h6.xId h6.mstate
          h6.nodes ?_⟩
        cases hm : b.material with
        | none => rw [(h6.without hm).1]; exact h.eig
        | some m => rw [(h6.flag (by simp [hm])).2]; simp
  cases p with
  | stale => simp [Phase.next] at hp
  | evaluated id =>
    simp only [Phase.next, Option.some.injEq] at hp
    subst hp
    obtain ⟨hx, hd | ⟨hfr, hf⟩⟩ := h.phase
    · refine hgen _ ?_ hd
      intro b' K' h1 h2 h3 h4 h5 h6
      exact ⟨fun _ => h2, by rw [h4, h5]; exact h.ms, h6, by rw [h3]; exact hx, .inl h1, h2⟩
    · obtain ⟨h1, h2⟩ := hupd hf
      rw [h1, h2]
      rcases update_lib v b K ev with hu | ⟨b', K', c, h3, h4, h5, h6⟩
      · exact .inl hu
      · have hk := h6.fresh h5 hfr hKn
        refine .inr ⟨b', K', h3, h4, hk, fun _ => hk, by rw [h6.mstate, h6.nodes]; exact h.ms, ?_, by rw [h6.xId]; exact hx, ?_, hk⟩
        · cases hm : b.material with
          | none => rw [(h6.without hm).1]; exact h.eig
          | some m => rw [(h6.flag (by simp [hm])).2]; simp
        · cases hm : b.material with
          | none => exact .inl (h6.keepsDegenerate.2 (.inl hm))
          | some m => exact .inr ⟨h6.keepsFresh hfr, (h6.flag (by simp [hm])).1⟩
  | assembled id =>
    simp only [Phase.next, Option.some.injEq] at hp
    subst hp
    obtain ⟨hx, hd | ⟨hfr, hf⟩, hk⟩ := h.phase
    · refine hgen _ ?_ hd
      intro b' K' h1 h2 h3 h4 h5 h6
      exact ⟨fun _ => h2, by rw [h4, h5]; exact h.ms, h6, by rw [h3]; exact hx, .inl h1, h2⟩
    · obtain ⟨h1, h2⟩ := hdir hf
      exact .inr ⟨b, K, h1, h2, hk, h⟩
  | held =>
    simp only [Phase.next, Option.some.injEq] at hp
    subst hp
    obtain ⟨hd | hf, hk⟩ := h.phase
    · refine hgen _ ?_ hd
      intro b' K' h1 h2 h3 h4 h5 h6
      exact ⟨fun _ => h2, by rw [h4, h5]; exact h.ms, h6, .inl h1, h2⟩
    · obtain ⟨h1, h2⟩ := hdir hf
      exact .inr ⟨b, K, h1, h2, hk, h⟩

/-- A call in a phase in which it may be done: both sides end alike, return the same, and stay related. -/
theorem call_rel {v : Storage} (solver : (Dof N → Dof N → ℝ) → List ℝ) {p p' : Phase} {b : BenchComponent T N M}
    {K : Dof N → Dof N → ℝ} {ev : List ℝ} (h : Rel v p b K ev) (o : Op N) (hp : p.next v o = some p') :
    SameEnd (fun r r' => r.2 = r'.2 ∧ ∃ K' ev', r'.1 = r.1.lib K' ev' ∧ Rel v p' r.1 K' ev') (b.call v solver o)
      ((b.lib K ev).call solver o) := by
  have hpar : ∀ (b' : BenchComponent T N M), b'.mstate = b.mstate → b'.nodes = b.nodes → b'.idx = b.idx → b'.xId = b.xId →
      b'.K = b.K → b'.eigenvalues = b.eigenvalues → b'.eigenvaluesUpToDate = b.eigenvaluesUpToDate →
      b'.stiffnessUpToDate = b.stiffnessUpToDate → (b'.material = none ↔ b.material = none) →
      Rel v (p.writeParameter v) b' K ev := by
    intro b' h1 h2 h3 h4 h5 h6 h7 h8 h9
    have hdg : Degenerate b' ↔ Degenerate b := by unfold Degenerate; rw [h9, h2]
    have hfr : v ≠ .storeFAndS → Fresh v b → Fresh v b' := by
      intro hv hf c m q hc hm hq e g hg
      rw [h1] at hc
      rw [h2] at hq
      have hm0 : b.material ≠ none := fun h0 => by rw [h9.2 h0] at hm; simp at hm
      obtain ⟨m0, hm0⟩ := Option.ne_none_iff_exists'.1 hm0
      rw [h3, h4]
      exact read_of_other hv (hf c m0 q hc hm0 hq e g hg)
    refine ⟨by rw [hdg, h5]; exact h.deg, by rw [h1, h2]; exact h.ms, by rw [h6, h7]; exact h.eig, ?_⟩
    have hph := h.phase
    by_cases hv : v = .storeFAndS
    · cases p with
      | stale => simp only [Phase.writeParameter, if_pos hv]; trivial
      | evaluated id => simp only [Phase.writeParameter, if_pos hv]; trivial
      | assembled id =>
        simp only [Phase.writeParameter, if_pos hv]
        obtain ⟨_, hd, hk⟩ := hph
        refine ⟨?_, by rw [h5]; exact hk⟩
        rcases hd with hd | hd
        · exact .inl (hdg.2 hd)
        · right; rw [h8]; exact hd.2
      | held =>
        simp only [Phase.writeParameter, if_pos hv]
        unfold PhaseRel at hph ⊢
        rw [hdg, h5, h8]; exact hph
    · cases p with
      | stale => simp only [Phase.writeParameter, if_neg hv]; trivial
      | evaluated id =>
        simp only [Phase.writeParameter, if_neg hv]
        obtain ⟨hx, hd⟩ := hph
        refine ⟨by rw [h4]; exact hx, ?_⟩
        rcases hd with hd | hd
        · exact .inl (hdg.2 hd)
        · right; rw [h8]; exact ⟨hfr hv hd.1, hd.2⟩
      | assembled id =>
        simp only [Phase.writeParameter, if_neg hv]
        obtain ⟨hx, hd, hk⟩ := hph
        refine ⟨by rw [h4]; exact hx, ?_, by rw [h5]; exact hk⟩
        rcases hd with hd | hd
        · exact .inl (hdg.2 hd)
        · right; rw [h8]; exact ⟨hfr hv hd.1, hd.2⟩
      | held =>
        simp only [Phase.writeParameter, if_neg hv]
        unfold PhaseRel at hph ⊢
        rw [hdg, h5, h8]; exact hph
  have hasm : ∀ {b1 b' : BenchComponent T N M} {K' : Dof N → Dof N → ℝ} {x : Fin N → Fin 3 → ℝ}, Updated v b1 b' K K' x →
      (b1.material = none → b1.K = K) → (b1.mstate = none → b1.nodes = none) →
      (b1.eigenvaluesUpToDate = true → b1.eigenvalues = ev) → Rel v .stale b' K' ev := by
    intro b1 b' K' x hu h1 h2 h3
    refine ⟨fun hd => hu.degenerate (hu.keepsDegenerate.1 hd) h1, by rw [hu.mstate, hu.nodes]; exact h2, ?_, trivial⟩
    cases hm : b1.material with
    | none => rw [(hu.without hm).1]; exact h3
    | some m => rw [(hu.flag (by simp [hm])).2]; simp
  cases o with
  | setYoung e =>
    simp only [Phase.next, Option.some.injEq] at hp
    subst hp
    refine ⟨rfl, K, ev, rfl, hpar _ rfl rfl rfl rfl rfl rfl rfl rfl (by simp)⟩
  | setPoisson e =>
    simp only [Phase.next, Option.some.injEq] at hp
    subst hp
    refine ⟨rfl, K, ev, rfl, hpar _ rfl rfl rfl rfl rfl rfl rfl rfl (by simp)⟩
  | setPositions i x =>
    simp only [Phase.next, Option.some.injEq] at hp
    subst hp
    refine ⟨rfl, K, ev, rfl, h.deg, ?_, h.eig, ?_⟩
    · intro hc
      exact h.ms (by simpa using hc)
    · have hph := h.phase
      have hfr : ∀ id, b.xId = id → i ≠ id → Fresh v b →
          Fresh v { b with mstate := b.mstate.map fun c => Function.update c i x } := by
        intro id hx hne hf c m q hc hm hq e g hg
        simp only at hc hm hq
        obtain ⟨c0, hc0, rfl⟩ := Option.map_eq_some_iff.1 hc
        have hcx : (Function.update c0 i x) b.xId = c0 b.xId := by
          rw [Function.update_of_ne]
          rw [hx]; exact fun h => hne h.symm
        simp only [hcx]
        exact hf c0 m q hc0 hm hq e g hg
      cases p with
      | stale => trivial
      | held => exact hph
      | evaluated id =>
        obtain ⟨hx, hd⟩ := hph
        by_cases hi : i = id
        · rw [Phase.writePositions, if_pos hi]; trivial
        · rw [Phase.writePositions, if_neg hi]
          refine ⟨hx, ?_⟩
          rcases hd with hd | hd
          · exact .inl hd
          · exact .inr ⟨hfr _ hx hi hd.1, hd.2⟩
      | assembled id =>
        obtain ⟨hx, hd, hk⟩ := hph
        by_cases hi : i = id
        · rw [Phase.writePositions, if_pos hi]
          refine ⟨?_, hk⟩
          rcases hd with hd | hd
          · exact .inl hd
          · exact .inr hd.2
        · rw [Phase.writePositions, if_neg hi]
          refine ⟨hx, ?_, hk⟩
          rcases hd with hd | hd
          · exact .inl hd
          · exact .inr ⟨hfr _ hx hi hd.1, hd.2⟩
  | init =>
    simp only [Phase.next, Option.some.injEq] at hp
    subst hp
    rcases init_lib v b K ev with ⟨h1, h2⟩ | ⟨b', K', c, h1, h2, h3, h4⟩
    · simp only [call, h1, HyperComponent.call, step, h2, SameEnd]
    · simp only [call, h1, HyperComponent.call, step, h2, SameEnd]
      refine ⟨trivial, K', ev, rfl, hasm h4 (fun h0 => h.deg (.inl h0)) ?_ h.eig⟩
      intro h0
      have : b.mstate = none := h0
      rw [h3] at this
      simp at this
  | addForce id f =>
    simp only [Phase.next, Option.some.injEq] at hp
    subst hp
    obtain ⟨h1, h2⟩ := addForce_lib v b K ev id f
    simp only [call, HyperComponent.call, h1, SameEnd]
    have hdg : Degenerate (b.addForce v id f).1 ↔ Degenerate b := by
      unfold Degenerate; rw [h2.mat, h2.nodes]
    refine ⟨trivial, K, ev, rfl, by rw [hdg, h2.K]; exact h.deg, by rw [h2.mstate, h2.nodes]; exact h.ms, ?_, h2.xId, ?_⟩
    · intro he
      rw [h2.ev]
      exact h.eig (h2.flag he)
    · by_cases hd : Degenerate b
      · exact .inl (hdg.2 hd)
      · right
        simp only [Degenerate, not_or] at hd
        obtain ⟨m, hm⟩ := Option.ne_none_iff_exists'.1 hd.1
        obtain ⟨q, hq⟩ := Option.ne_none_iff_exists'.1 hd.2.1
        have hc0 : b.mstate ≠ none := fun h0 => hd.2.1 (h.ms h0)
        obtain ⟨c, hc⟩ := Option.ne_none_iff_exists'.1 hc0
        exact ⟨h2.fresh hd.2.2, (h2.full c m q hc hm hq hd.2.2).1⟩
  | addDForce k dx df =>
    rcases refresh_lib h p' (by cases p <;> exact hp) with ⟨h1, h2⟩ | ⟨b', K', h1, h2, h3, h4⟩
    · simp only [call, h1, HyperComponent.call, HyperComponent.addDForce, h2, SameEnd]
    · simp only [call, h1, HyperComponent.call, HyperComponent.addDForce, h2, SameEnd]
      exact ⟨by rw [h3]; rfl, K', ev, rfl, h4⟩
  | addKToMatrix k A =>
    rcases refresh_lib h p' (by cases p <;> exact hp) with ⟨h1, h2⟩ | ⟨b', K', h1, h2, h3, h4⟩
    · simp only [call, h1, HyperComponent.call, HyperComponent.addKToMatrix, h2, SameEnd]
    · simp only [call, h1, HyperComponent.call, HyperComponent.addKToMatrix, h2, SameEnd]
      exact ⟨by rw [h3]; rfl, K', ev, rfl, h4⟩
  | potentialEnergy id =>
    simp only [Phase.next, Option.some.injEq] at hp
    subst hp
    simp only [call, HyperComponent.call, energy_lib]
    cases b.getPotentialEnergy id with
    | ok e => exact ⟨rfl, K, ev, rfl, h⟩
    | throws e => exact ⟨rfl, K, ev, rfl, h⟩
    | hangs => trivial
    | undefined => trivial
  | eigenvalues =>
    have hpp : p' = p ∧ b.K = K := by
      cases p with
      | stale => simp [Phase.next] at hp
      | evaluated id => simp [Phase.next] at hp
      | assembled id => simp only [Phase.next, Option.some.injEq] at hp; exact ⟨hp.symm, h.phase.2.2⟩
      | held => simp only [Phase.next, Option.some.injEq] at hp; exact ⟨hp.symm, h.phase.2⟩
    obtain ⟨rfl, hk⟩ := hpp
    simp only [call, HyperComponent.call, SameEnd]
    cases he : b.eigenvaluesUpToDate with
    | true =>
      have e1 : b.getEigenvalues solver = (b, b.eigenvalues) := by simp [getEigenvalues, he]
      have e2 : (b.lib K ev).getEigenvalues solver = (b.lib K ev, ev) := by simp [HyperComponent.getEigenvalues, lib, he]
      rw [e1, e2]
      exact ⟨by rw [h.eig he], K, ev, rfl, h⟩
    | false =>
      have e1 : b.getEigenvalues solver = ({ b with eigenvalues := solver (fullK b.K), eigenvaluesUpToDate := true },
          solver (fullK b.K)) := by simp [getEigenvalues, he]
      have e2 : (b.lib K ev).getEigenvalues solver = ({ b with eigenvalues := solver (fullK b.K), eigenvaluesUpToDate := true }.lib K
          (solver (fullK K)), solver (fullK K)) := by simp [HyperComponent.getEigenvalues, lib, he, stiffness]
      rw [e1, e2]
      refine ⟨by rw [hk], K, _, rfl, ?_⟩
      exact ⟨h.deg, h.ms, fun _ => by rw [hk], h.phase⟩
  | assemble =>
    rcases update_lib v b K ev with ⟨h1, h2⟩ | ⟨b', K', c, h1, h2, h3, h4⟩
    · simp only [call, h1, HyperComponent.call, step, h2, SameEnd]
    · simp only [call, h1, HyperComponent.call, step, h2, SameEnd]
      refine ⟨trivial, K', ev, rfl, ?_⟩
      have hst := hasm h4 (fun h0 => h.deg (.inl h0)) h.ms h.eig
      have hcase : ∀ id, b.xId = id → (Degenerate b ∨ Fresh v b) → Rel v (.assembled id) b' K' ev := by
        intro id hx hd
        have hk : b'.K = K' := by
          rcases hd with hd | hd
          · exact h4.degenerate hd fun h0 => h.deg (.inl h0)
          · exact h4.fresh h3 hd fun h0 => h.deg (.inl h0)
        refine ⟨hst.deg, hst.ms, hst.eig, by rw [h4.xId]; exact hx, ?_, hk⟩
        rcases hd with hd | hd
        · exact .inl (h4.keepsDegenerate.2 hd)
        · cases hm : b.material with
          | none => exact .inl (h4.keepsDegenerate.2 (.inl hm))
          | some m => exact .inr ⟨h4.keepsFresh hd, (h4.flag (by simp [hm])).1⟩
      cases p with
      | stale => simp only [Phase.next, Option.some.injEq] at hp; subst hp; exact hst
      | held => simp only [Phase.next, Option.some.injEq] at hp; subst hp; exact hst
      | evaluated id =>
        simp only [Phase.next, Option.some.injEq] at hp; subst hp
        exact hcase id h.phase.1 (h.phase.2.imp_right And.left)
      | assembled id =>
        simp only [Phase.next, Option.some.injEq] at hp; subst hp
        exact hcase id h.phase.1 (h.phase.2.1.imp_right And.left)
  | assembleAt x =>
    simp only [Phase.next, Option.some.injEq] at hp
    subst hp
    rcases updateAt_lib v b K ev x with ⟨h1, h2⟩ | ⟨b', K', h1, h2, h4⟩
    · simp only [call, h1, HyperComponent.call, step, h2, SameEnd]
    · simp only [call, h1, HyperComponent.call, step, h2, SameEnd]
      exact ⟨trivial, K', ev, rfl, hasm h4 (fun h0 => h.deg (.inl h0)) h.ms h.eig⟩

/-- The traces of both sides for calls in phases. -/
theorem trace_rel {v : Storage} (solver : (Dof N → Dof N → ℝ) → List ℝ) (ops : List (Op N)) {p : Phase} {b : BenchComponent T N M}
    {K : Dof N → Dof N → ℝ} {ev : List ℝ} (h : Rel v p b K ev) (ho : Evaluates v p ops) :
    b.trace v solver ops = (b.lib K ev).trace solver ops := by
  induction ops generalizing p b K ev with
  | nil => rfl
  | cons o os ih =>
    obtain ⟨p', hp, ho⟩ := ho
    have hc := call_rel solver h o hp
    simp only [trace, HyperComponent.trace]
    cases h1 : b.call v solver o <;> cases h2 : (b.lib K ev).call solver o <;> rw [h1, h2] at hc <;>
      simp only [SameEnd] at hc
    · obtain ⟨e1, K', ev', e2, hr⟩ := hc
      dsimp only
      rw [e1, e2, ih hr ho]
    · obtain ⟨e1, K', ev', e2, hr⟩ := hc
      dsimp only
      rw [e1]

/-- Any call: both sides end alike and return the same forces and energies. -/
theorem call_mechanical (v : Storage) (solver : (Dof N → Dof N → ℝ) → List ℝ) (b : BenchComponent T N M)
    (K : Dof N → Dof N → ℝ) (ev : List ℝ) (o : Op N) :
    SameEnd (fun r r' => Out.mechanical [r.2] = Out.mechanical [r'.2] ∧ ∃ K' ev', r'.1 = r.1.lib K' ev') (b.call v solver o)
      ((b.lib K ev).call solver o) := by
  have hre : (b.refresh v = .undefined ∧ (b.lib K ev).refresh = .undefined) ∨
      ∃ b' K', b.refresh v = .ok b' ∧ (b.lib K ev).refresh = .ok (b'.lib K' ev) := by
    cases hf : b.stiffnessUpToDate with
    | true => exact .inr ⟨b, K, by simp [refresh, hf], by simp [HyperComponent.refresh, lib, hf]⟩
    | false =>
      have e1 : b.refresh v = b.update v := by simp [refresh, hf]
      have e2 : (b.lib K ev).refresh = (b.lib K ev).assemble := by simp [HyperComponent.refresh, lib, hf]
      rw [e1, e2]
      rcases update_lib v b K ev with h | ⟨b', K', c, h1, h2, _⟩
      · exact .inl h
      · exact .inr ⟨b', K', h1, h2⟩
  cases o with
  | setYoung e => exact ⟨rfl, K, ev, rfl⟩
  | setPoisson e => exact ⟨rfl, K, ev, rfl⟩
  | setPositions i x => exact ⟨rfl, K, ev, rfl⟩
  | init =>
    rcases init_lib v b K ev with ⟨h1, h2⟩ | ⟨b', K', c, h1, h2, _⟩
    · simp only [call, h1, HyperComponent.call, step, h2, SameEnd]
    · simp only [call, h1, HyperComponent.call, step, h2, SameEnd]
      exact ⟨trivial, K', ev, rfl⟩
  | addForce id f =>
    obtain ⟨h1, h2⟩ := addForce_lib v b K ev id f
    simp only [call, HyperComponent.call, h1, SameEnd]
    exact ⟨trivial, K, ev, rfl⟩
  | addDForce k dx df =>
    rcases hre with ⟨h1, h2⟩ | ⟨b', K', h1, h2⟩
    · simp only [call, h1, HyperComponent.call, HyperComponent.addDForce, h2, SameEnd]
    · simp only [call, h1, HyperComponent.call, HyperComponent.addDForce, h2, SameEnd]
      exact ⟨rfl, K', ev, rfl⟩
  | addKToMatrix k A =>
    rcases hre with ⟨h1, h2⟩ | ⟨b', K', h1, h2⟩
    · simp only [call, h1, HyperComponent.call, HyperComponent.addKToMatrix, h2, SameEnd]
    · simp only [call, h1, HyperComponent.call, HyperComponent.addKToMatrix, h2, SameEnd]
      exact ⟨rfl, K', ev, rfl⟩
  | potentialEnergy id =>
    simp only [call, HyperComponent.call, energy_lib]
    cases b.getPotentialEnergy id with
    | ok e => exact ⟨rfl, K, ev, rfl⟩
    | throws e => exact ⟨rfl, K, ev, rfl⟩
    | hangs => trivial
    | undefined => trivial
  | eigenvalues =>
    simp only [call, HyperComponent.call, SameEnd]
    refine ⟨rfl, ?_⟩
    cases he : b.eigenvaluesUpToDate with
    | true => exact ⟨K, ev, by simp [getEigenvalues, HyperComponent.getEigenvalues, lib, he]⟩
    | false => exact ⟨K, solver (fullK K), by simp [getEigenvalues, HyperComponent.getEigenvalues, lib, he, stiffness]⟩
  | assemble =>
    rcases update_lib v b K ev with ⟨h1, h2⟩ | ⟨b', K', c, h1, h2, _⟩
    · simp only [call, h1, HyperComponent.call, step, h2, SameEnd]
    · simp only [call, h1, HyperComponent.call, step, h2, SameEnd]
      exact ⟨trivial, K', ev, rfl⟩
  | assembleAt x =>
    rcases updateAt_lib v b K ev x with ⟨h1, h2⟩ | ⟨b', K', h1, h2, _⟩
    · simp only [call, h1, HyperComponent.call, step, h2, SameEnd]
    · simp only [call, h1, HyperComponent.call, step, h2, SameEnd]
      exact ⟨trivial, K', ev, rfl⟩

theorem mechanical_cons (a : Out N) (l : List (Out N)) : Out.mechanical (a :: l) = Out.mechanical [a] ++ Out.mechanical l := by
  cases a <;> rfl

theorem trace_mechanical (v : Storage) (solver : (Dof N → Dof N → ℝ) → List ℝ) (ops : List (Op N)) (b : BenchComponent T N M)
    (K : Dof N → Dof N → ℝ) (ev : List ℝ) :
    SameEnd (fun l l' => Out.mechanical l = Out.mechanical l') (b.trace v solver ops) ((b.lib K ev).trace solver ops) := by
  induction ops generalizing b K ev with
  | nil => rfl
  | cons o os ih =>
    have hc := call_mechanical v solver b K ev o
    simp only [trace, HyperComponent.trace]
    cases h1 : b.call v solver o <;> cases h2 : (b.lib K ev).call solver o <;> rw [h1, h2] at hc <;>
      simp only [SameEnd] at hc
    · obtain ⟨e1, K', ev', e2⟩ := hc
      dsimp only
      rw [e2]
      rename_i r r'
      have h := ih r.1 K' ev'
      cases h3 : r.1.trace v solver os <;> cases h4 : (r.1.lib K' ev').trace solver os <;> rw [h3, h4] at h <;>
        simp only [SameEnd] at h ⊢
      · rw [mechanical_cons, mechanical_cons r'.2, e1, h]
      · rw [mechanical_cons, mechanical_cons r'.2, e1, h]
    · exact hc.1
    · trivial
    · trivial

theorem Updated.recompute {b b' : BenchComponent T N M} {K' : Dof N → Dof N → ℝ} {x : Fin N → Fin 3 → ℝ}
    (h : Updated .recomputeF b b' b.K K' x) : b'.K = K' := by
  by_cases hd : Degenerate b
  · exact h.degenerate hd fun _ => rfl
  · simp only [Degenerate, not_or] at hd
    obtain ⟨m, hm⟩ := Option.ne_none_iff_exists'.1 hd.1
    obtain ⟨q, hq⟩ := Option.ne_none_iff_exists'.1 hd.2.1
    obtain ⟨h1, h2⟩ := h.full m q hm hq
    rw [h1, h2]
    exact storedK_fresh _ _ b.idx q _ fun e g _ => rfl

/-- The component which recomputes the tensors, and that of the library. -/
theorem call_recompute (solver : (Dof N → Dof N → ℝ) → List ℝ) (b : BenchComponent T N M) (o : Op N) :
    SameEnd (fun r r' => r.2 = r'.2 ∧ r'.1 = r.1.lib r.1.K r.1.eigenvalues) (b.call .recomputeF solver o)
      ((b.lib b.K b.eigenvalues).call solver o) := by
  have hre : (b.refresh .recomputeF = .undefined ∧ (b.lib b.K b.eigenvalues).refresh = .undefined) ∨
      ∃ b', b.refresh .recomputeF = .ok b' ∧ (b.lib b.K b.eigenvalues).refresh = .ok (b'.lib b'.K b'.eigenvalues) := by
    cases hf : b.stiffnessUpToDate with
    | true => exact .inr ⟨b, by simp [refresh, hf], by simp [HyperComponent.refresh, lib, hf]⟩
    | false =>
      have e1 : b.refresh .recomputeF = b.update .recomputeF := by simp [refresh, hf]
      have e2 : (b.lib b.K b.eigenvalues).refresh = (b.lib b.K b.eigenvalues).assemble := by simp [HyperComponent.refresh, lib, hf]
      rw [e1, e2]
      rcases update_lib .recomputeF b b.K b.eigenvalues with h | ⟨b', K', c, h1, h2, _, h3⟩
      · exact .inl h
      · refine .inr ⟨b', h1, ?_⟩
        rw [h3.recompute, h3.ev]
        exact h2
  cases o with
  | setYoung e => exact ⟨rfl, rfl⟩
  | setPoisson e => exact ⟨rfl, rfl⟩
  | setPositions i x => exact ⟨rfl, rfl⟩
  | init =>
    rcases init_lib .recomputeF b b.K b.eigenvalues with ⟨h1, h2⟩ | ⟨b', K', c, h1, h2, _, h3⟩
    · simp only [call, h1, HyperComponent.call, step, h2, SameEnd]
    · simp only [call, h1, HyperComponent.call, step, h2, SameEnd]
      refine ⟨trivial, ?_⟩
      rw [Updated.recompute (b := b.reset c) h3, h3.ev]
      rfl
  | addForce id f =>
    obtain ⟨h1, h2⟩ := addForce_lib .recomputeF b b.K b.eigenvalues id f
    simp only [call, HyperComponent.call, h1, SameEnd]
    refine ⟨trivial, ?_⟩
    rw [h2.K, h2.ev]
  | addDForce k dx df =>
    rcases hre with ⟨h1, h2⟩ | ⟨b', h1, h2⟩
    · simp only [call, h1, HyperComponent.call, HyperComponent.addDForce, h2, SameEnd]
    · simp only [call, h1, HyperComponent.call, HyperComponent.addDForce, h2, SameEnd]
      exact ⟨rfl, trivial⟩
  | addKToMatrix k A =>
    rcases hre with ⟨h1, h2⟩ | ⟨b', h1, h2⟩
    · simp only [call, h1, HyperComponent.call, HyperComponent.addKToMatrix, h2, SameEnd]
    · simp only [call, h1, HyperComponent.call, HyperComponent.addKToMatrix, h2, SameEnd]
      exact ⟨rfl, trivial⟩
  | potentialEnergy id =>
    simp only [call, HyperComponent.call, energy_lib]
    cases b.getPotentialEnergy id with
    | ok e => exact ⟨rfl, rfl⟩
    | throws e => exact ⟨rfl, rfl⟩
    | hangs => trivial
    | undefined => trivial
  | eigenvalues =>
    simp only [call, HyperComponent.call, SameEnd]
    cases he : b.eigenvaluesUpToDate with
    | true => simp [getEigenvalues, HyperComponent.getEigenvalues, lib, he]
    | false => simp [getEigenvalues, HyperComponent.getEigenvalues, lib, he, stiffness]
  | assemble =>
    rcases update_lib .recomputeF b b.K b.eigenvalues with ⟨h1, h2⟩ | ⟨b', K', c, h1, h2, _, h3⟩
    · simp only [call, h1, HyperComponent.call, step, h2, SameEnd]
    · simp only [call, h1, HyperComponent.call, step, h2, SameEnd]
      refine ⟨trivial, ?_⟩
      rw [h3.recompute, h3.ev]
  | assembleAt x =>
    rcases updateAt_lib .recomputeF b b.K b.eigenvalues x with ⟨h1, h2⟩ | ⟨b', K', h1, h2, h3⟩
    · simp only [call, h1, HyperComponent.call, step, h2, SameEnd]
    · simp only [call, h1, HyperComponent.call, step, h2, SameEnd]
      refine ⟨trivial, ?_⟩
      rw [h3.recompute, h3.ev]

theorem trace_recompute (solver : (Dof N → Dof N → ℝ) → List ℝ) (ops : List (Op N)) (b : BenchComponent T N M) :
    b.trace .recomputeF solver ops = (b.lib b.K b.eigenvalues).trace solver ops := by
  induction ops generalizing b with
  | nil => rfl
  | cons o os ih =>
    have hc := call_recompute solver b o
    simp only [trace, HyperComponent.trace]
    cases h1 : b.call .recomputeF solver o <;> cases h2 : (b.lib b.K b.eigenvalues).call solver o <;> rw [h1, h2] at hc <;>
      simp only [SameEnd] at hc
    · obtain ⟨e1, e2⟩ := hc
      dsimp only
      rw [e1, e2, ih]
    · dsimp only
      rw [hc.1]

end BenchComponent

end Caribou
