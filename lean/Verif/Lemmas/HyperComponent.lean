import Verif.Spec.HyperComponent
import Verif.Props.Hyperelastic

/-! Lemmas for `Props/HyperComponent.lean`. -/

set_option autoImplicit false
set_option linter.all false

namespace Caribou

open Spec HyperComponent

namespace HyperComponent

variable {T : SolidType} {N M : ℕ}

/-- The law for the data of the material. -/
noncomputable def dataLaw (kind : MaterialKind) (young poisson : ℝ) : Material :=
  kind.law (lameMu young poisson) (lameL young poisson)

theorem current_beforeUpdate (m : MaterialComponent) :
    m.beforeUpdate.current = some (dataLaw m.kind m.young m.poisson) := rfl

/-- What quiet calls keep. -/
structure Kept (s : HyperComponent T N M) (id : CoordId) (x : Fin N → Fin 3 → ℝ) (kind : MaterialKind) (young poisson : ℝ)
    (idx : Fin M → Fin T.numNodes → Fin N) (q : Fin M → List (QNode T.numNodes)) : Prop where
  pos : ∃ c, s.mstate = some c ∧ c id = x
  mat : ∃ m, s.material = some m ∧ m.kind = kind ∧ m.young = young ∧ m.poisson = poisson ∧ m.lame ≠ none
  nodes : s.qnodes = some q
  ids : s.idx = idx
  which : s.xId = id
  stored : s.stiffnessUpToDate = true → s.K = HyperMesh.storedK ⟨idx, q⟩ (dataLaw kind young poisson) x

variable {s : HyperComponent T N M} {id : CoordId} {x : Fin N → Fin 3 → ℝ} {kind : MaterialKind} {young poisson : ℝ}
  {idx : Fin M → Fin T.numNodes → Fin N} {q : Fin M → List (QNode T.numNodes)}

theorem Kept.assemble (h : Kept s id x kind young poisson idx q) :
    ∃ s', s.assemble = .ok s' ∧ Kept s' id x kind young poisson idx q ∧ s'.stiffnessUpToDate = true := by
  obtain ⟨⟨c, hc, hx⟩, ⟨m, hm, rfl, rfl, rfl, hl⟩, hq, rfl, rfl, hs⟩ := h
  have he : s.assemble = .ok { s with
      material := some m.beforeUpdate
      K := HyperMesh.storedK ⟨s.idx, q⟩ (dataLaw m.kind m.young m.poisson) (c s.xId)
      stiffnessUpToDate := true
      eigenvaluesUpToDate := false } := by
    simp only [HyperComponent.assemble, hc, assembleAt, hm, current_beforeUpdate, hq]
  refine ⟨_, he, ?_, rfl⟩
  refine ⟨⟨c, by simp [hc], hx⟩, ⟨m.beforeUpdate, rfl, rfl, rfl, rfl, by simp [MaterialComponent.beforeUpdate]⟩, hq, rfl, rfl, ?_⟩
  intro _
  simp only [hx]

theorem Kept.refresh (h : Kept s id x kind young poisson idx q) :
    ∃ s', s.refresh = .ok s' ∧ Kept s' id x kind young poisson idx q ∧ s'.stiffnessUpToDate = true := by
  unfold HyperComponent.refresh
  by_cases hb : s.stiffnessUpToDate = true
  · exact ⟨s, by rw [if_pos hb], h, hb⟩
  · rw [if_neg hb]
    exact h.assemble

theorem Kept.quiet (solver : (Dof N → Dof N → ℝ) → List ℝ) (h : Kept s id x kind young poisson idx q) (o : Op N) (ho : Quiet id o) :
    ∃ s', s.step solver o = .ok s' ∧ Kept s' id x kind young poisson idx q := by
  cases o with
  | setPositions i y =>
    obtain ⟨⟨c, hc, hx⟩, hm, hq, hi, hw, hs⟩ := h
    have hne : i ≠ id := ho
    exact ⟨_, rfl, ⟨Function.update c i y, by simp [setPositions, hc], by rw [Function.update_of_ne hne.symm, hx]⟩, hm, hq, hi, hw, hs⟩
  | addDForce k dx df =>
    obtain ⟨s', h1, h2, h3⟩ := h.refresh
    exact ⟨s', by simp only [step, addDForce, h1, keep], h2⟩
  | addKToMatrix k A =>
    obtain ⟨s', h1, h2, h3⟩ := h.refresh
    exact ⟨s', by simp only [step, addKToMatrix, h1, keep], h2⟩
  | potentialEnergy i =>
    refine ⟨s, ?_, h⟩
    obtain ⟨⟨c, hc, hx⟩, ⟨m, hm, rfl, rfl, rfl, hl⟩, hq, hi, hw, hs⟩ := h
    obtain ⟨p, hp⟩ := Option.ne_none_iff_exists'.mp hl
    simp only [step, getPotentialEnergy, hc, hm, hq, MaterialComponent.current, hp]
    by_cases h0 : N = 0 ∨ M = 0 <;> simp [h0]
  | eigenvalues =>
    refine ⟨_, rfl, ?_⟩
    obtain ⟨hp, hm, hq, hi, hw, hs⟩ := h
    unfold getEigenvalues
    split
    · exact ⟨hp, hm, hq, hi, hw, hs⟩
    · exact ⟨hp, hm, hq, hi, hw, hs⟩
  | assemble =>
    obtain ⟨s', h1, h2, h3⟩ := h.assemble
    exact ⟨s', by simp only [step, h1], h2⟩
  | setYoung e => exact ho.elim
  | setPoisson e => exact ho.elim
  | init => exact ho.elim
  | addForce i f => exact ho.elim
  | assembleAt y => exact ho.elim

theorem run_append (solver : (Dof N → Dof N → ℝ) → List ℝ) (s : HyperComponent T N M) (a b : List (Op N)) (s' : HyperComponent T N M)
    (h : run solver s a = .ok s') : run solver s (a ++ b) = run solver s' b := by
  induction a generalizing s with
  | nil => simp only [run, Outcome.ok.injEq] at h; subst h; rfl
  | cons o os ih =>
    simp only [run, List.cons_append] at h ⊢
    cases hs : s.step solver o with
    | ok t => rw [hs] at h; exact ih t h
    | throws t => rw [hs] at h; simp at h
    | hangs => rw [hs] at h; simp at h
    | undefined => rw [hs] at h; simp at h

theorem Kept.run (solver : (Dof N → Dof N → ℝ) → List ℝ) (ops : List (Op N)) (ho : ∀ o ∈ ops, Quiet id o)
    (h : Kept s id x kind young poisson idx q) :
    ∃ s', run solver s ops = .ok s' ∧ Kept s' id x kind young poisson idx q := by
  induction ops generalizing s with
  | nil => exact ⟨s, rfl, h⟩
  | cons o os ih =>
    obtain ⟨s', h1, h2⟩ := h.quiet solver o (ho o (by simp))
    obtain ⟨t, h3, h4⟩ := ih (fun o' ho' => ho o' (by simp [ho'])) h2
    exact ⟨t, by simp only [HyperComponent.run, h1, h3], h4⟩

/-- What calls without assembly keep once the stiffness is up to date. -/
structure Held (s : HyperComponent T N M) (K : Dof N → Dof N → ℝ) : Prop where
  flag : s.stiffnessUpToDate = true
  stored : s.K = K

variable {K : Dof N → Dof N → ℝ}

theorem Held.step (solver : (Dof N → Dof N → ℝ) → List ℝ) (h : Held s K) (o : Op N) (ho : NoAssembly o) :
    ∀ s', s.step solver o = .ok s' → Held s' K := by
  intro s' hs
  obtain ⟨h1, h2⟩ := h
  cases o with
  | setYoung e => simp only [HyperComponent.step, Outcome.ok.injEq] at hs; subst hs; exact ⟨h1, h2⟩
  | setPoisson e => simp only [HyperComponent.step, Outcome.ok.injEq] at hs; subst hs; exact ⟨h1, h2⟩
  | setPositions i y => simp only [HyperComponent.step, Outcome.ok.injEq] at hs; subst hs; exact ⟨h1, h2⟩
  | addDForce k dx df =>
    simp only [HyperComponent.step, addDForce, HyperComponent.refresh, if_pos h1, keep, Outcome.ok.injEq] at hs
    subst hs; exact ⟨h1, h2⟩
  | addKToMatrix k A =>
    simp only [HyperComponent.step, addKToMatrix, HyperComponent.refresh, if_pos h1, keep, Outcome.ok.injEq] at hs
    subst hs; exact ⟨h1, h2⟩
  | potentialEnergy i =>
    simp only [HyperComponent.step] at hs
    split at hs
    · simp at hs
    · simp only [Outcome.ok.injEq] at hs; subst hs; exact ⟨h1, h2⟩
  | eigenvalues =>
    simp only [HyperComponent.step, Outcome.ok.injEq] at hs
    subst hs
    unfold getEigenvalues
    split
    · exact ⟨h1, h2⟩
    · exact ⟨h1, h2⟩
  | assemble => exact ho.elim
  | init => exact ho.elim
  | addForce i f => exact ho.elim
  | assembleAt y => exact ho.elim

theorem Held.run (solver : (Dof N → Dof N → ℝ) → List ℝ) (ops : List (Op N)) (ho : ∀ o ∈ ops, NoAssembly o) (h : Held s K) :
    ∀ s', run solver s ops = .ok s' → Held s' K := by
  induction ops generalizing s with
  | nil => intro s' hs; simp only [HyperComponent.run, Outcome.ok.injEq] at hs; subst hs; exact h
  | cons o os ih =>
    intro s' hs
    simp only [HyperComponent.run] at hs
    cases hst : s.step solver o with
    | ok t => rw [hst] at hs; exact ih (fun o' ho' => ho o' (by simp [ho'])) (h.step solver o (ho o (by simp)) t hst) s' hs
    | throws t => rw [hst] at hs; simp at hs
    | hangs => rw [hst] at hs; simp at hs
    | undefined => rw [hst] at hs; simp at hs

/-- The operator of a stored matrix. -/
noncomputable def storedOperator (K : Dof N → Dof N → ℝ) (dx : Fin N → Fin 3 → ℝ) : Fin N → Fin 3 → ℝ :=
  fun p a => applyStored 1 K (fun d => dx d.1 d.2) 0 (p, a)

theorem storedOperator_eq (K : Dof N → Dof N → ℝ) (dx : Dof N → ℝ) (p : Fin N) (a : Fin 3) :
    storedOperator K (fun q b => dx (q, b)) p a = - ∑ d, fullK K (p, a) d * dx d := by
  unfold storedOperator
  rw [applyStored_eq]
  simp

theorem appliesOperator_of_refresh {s s' : HyperComponent T N M} (h : s.refresh = .ok s') (hK : s'.K = K) :
    AppliesOperator s (storedOperator K) := by
  subst hK
  constructor
  · intro k dx df
    refine ⟨s', _, by simp only [addDForce, h]; rfl, ?_⟩
    intro p a
    rw [storedOperator_eq, applyStored_eq]
    ring
  · intro k A
    refine ⟨s', _, by simp only [addKToMatrix, h]; rfl, ?_⟩
    intro dx p a
    rw [storedOperator_eq, mul_neg, Finset.mul_sum, ← Finset.sum_neg_distrib]
    refine Finset.sum_congr rfl fun d _ => ?_
    rw [addStored_eq]
    ring

theorem Kept.applies (h : Kept s id x kind young poisson idx q) :
    AppliesOperator s (storedOperator (HyperMesh.storedK ⟨idx, q⟩ (dataLaw kind young poisson) x)) := by
  obtain ⟨s', h1, h2, h3⟩ := h.refresh
  exact appliesOperator_of_refresh h1 (h2.stored h3)

theorem Held.applies (h : Held s K) : AppliesOperator s (storedOperator K) :=
  appliesOperator_of_refresh (by unfold HyperComponent.refresh; rw [if_pos h.flag]) h.stored

/-- The forces of an initialised component. -/
theorem forceAt_eq {c : CoordId → Fin N → Fin 3 → ℝ} {m : MaterialComponent} (hc : s.mstate = some c) (hm : s.material = some m)
    (hq : s.qnodes = some q) (hM : 0 < M) (y : Fin N → Fin 3 → ℝ) :
    forceAt s id y = HyperMesh.addForce ⟨s.idx, q⟩ (dataLaw m.kind m.young m.poisson) y 0 := by
  have hN : N ≠ 0 := by
    intro h
    subst h
    have h0 : 0 < T.numNodes := by cases T <;> decide
    exact (s.idx ⟨0, hM⟩ ⟨0, h0⟩).elim0
  have h0 : ¬ (N = 0 ∨ M = 0) := by simp [hN, hM.ne']
  simp only [forceAt, setPositions, HyperComponent.addForce, hc, hm, hq, Option.map_some, if_neg h0, current_beforeUpdate,
    Function.update_self]

theorem addForce_kept {c : CoordId → Fin N → Fin 3 → ℝ} {m : MaterialComponent} (hc : s.mstate = some c) (hm : s.material = some m)
    (hq : s.qnodes = some q) (hM : 0 < M) (f : Fin N → Fin 3 → ℝ) :
    Kept (s.addForce id f).1 id (c id) m.kind m.young m.poisson s.idx q := by
  have hN : N ≠ 0 := by
    intro h
    subst h
    have h0 : 0 < T.numNodes := by cases T <;> decide
    exact (s.idx ⟨0, hM⟩ ⟨0, h0⟩).elim0
  have h0 : ¬ (N = 0 ∨ M = 0) := by simp [hN, hM.ne']
  simp only [HyperComponent.addForce, hc, hm, hq, if_neg h0, current_beforeUpdate]
  exact ⟨⟨c, by simp, rfl⟩, ⟨m.beforeUpdate, rfl, rfl, rfl, rfl, by simp [MaterialComponent.beforeUpdate]⟩, rfl, rfl, rfl, by simp⟩

theorem isTangent_stored {c : CoordId → Fin N → Fin 3 → ℝ} {m : MaterialComponent} (hc : s.mstate = some c)
    (hm : s.material = some m) (hq : s.qnodes = some q) (hM : 0 < M) (hinj : ∀ e, Function.Injective (s.idx e))
    (hpos : m.kind = .neoHookean → NotInverted s x) :
    IsTangent (forceAt s id) x (storedOperator (HyperMesh.storedK ⟨s.idx, q⟩ (dataLaw m.kind m.young m.poisson) x)) := by
  intro y dx hy hdx p a
  simp only [forceAt_eq hc hm hq hM]
  unfold storedOperator
  cases hk : m.kind with
  | saintVenantKirchhoff =>
    have := C47_derivative_svk (lameMu m.young m.poisson) (lameL m.young m.poisson) (⟨s.idx, q⟩ : HyperMesh N T.numNodes M) hinj y dx 0
      hdx 0 p a
    rw [hy] at this
    exact this
  | neoHookean =>
    have := C47_derivative_neohookean (lameMu m.young m.poisson) (lameL m.young m.poisson) (⟨s.idx, q⟩ : HyperMesh N T.numNodes M) hinj
      y dx 0 hdx (by rw [hy]; intro e g hg; exact hpos hk q hq e g hg) 0 p a
    rw [hy] at this
    exact this

/-- What calls keeping the rest shape keep; `fresh`: the parameters of the law are those of the data. -/
structure Rested (s : HyperComponent T N M) (X : Fin N → Fin 3 → ℝ) (kind : MaterialKind) (idx : Fin M → Fin T.numNodes → Fin N)
    (q : Fin M → List (QNode T.numNodes)) (fresh : Prop) : Prop where
  pos : ∃ c, s.mstate = some c ∧ c .restPosition = X
  mat : ∃ m, s.material = some m ∧ m.kind = kind ∧ m.lame ≠ none ∧
    (fresh → m.lame = some (lameMu m.young m.poisson, lameL m.young m.poisson))
  nodes : s.qnodes = some q
  ids : s.idx = idx

variable {X : Fin N → Fin 3 → ℝ} {fresh : Prop}

theorem Rested.assembleAt (h : Rested s X kind idx q fresh) (y : Fin N → Fin 3 → ℝ) :
    ∃ s', s.assembleAt y = .ok s' ∧ Rested s' X kind idx q True := by
  obtain ⟨hc, ⟨m, hm, hk, hl, hf⟩, hq, hi⟩ := h
  have he : s.assembleAt y = .ok { s with
      material := some m.beforeUpdate
      K := HyperMesh.storedK ⟨s.idx, q⟩ (dataLaw m.kind m.young m.poisson) y
      stiffnessUpToDate := true
      eigenvaluesUpToDate := false } := by
    simp only [HyperComponent.assembleAt, hm, current_beforeUpdate, hq]
  exact ⟨_, he, hc, ⟨m.beforeUpdate, rfl, hk, by simp [MaterialComponent.beforeUpdate], fun _ => rfl⟩, hq, hi⟩

theorem Rested.assemble (h : Rested s X kind idx q fresh) :
    ∃ s', s.assemble = .ok s' ∧ Rested s' X kind idx q True := by
  obtain ⟨c, hc, hx⟩ := h.pos
  obtain ⟨s', h1, h2⟩ := h.assembleAt (c s.xId)
  exact ⟨s', by simp only [HyperComponent.assemble, hc, h1], h2⟩

theorem Rested.weaken {P Q : Prop} (hPQ : Q → P) (h : Rested s X kind idx q P) : Rested s X kind idx q Q := by
  obtain ⟨hc, ⟨m, hm, hk, hl, hf⟩, hq, hi⟩ := h
  exact ⟨hc, ⟨m, hm, hk, hl, fun hQ => hf (hPQ hQ)⟩, hq, hi⟩

theorem Rested.refresh (h : Rested s X kind idx q fresh) : ∃ s', s.refresh = .ok s' ∧ Rested s' X kind idx q fresh := by
  unfold HyperComponent.refresh
  by_cases hb : s.stiffnessUpToDate = true
  · exact ⟨s, by rw [if_pos hb], h⟩
  · rw [if_neg hb]
    obtain ⟨s', h1, h2⟩ := h.assemble
    exact ⟨s', h1, h2.weaken fun _ => trivial⟩

theorem Rested.addForce (h : Rested s X kind idx q fresh) (i : CoordId) (f : Fin N → Fin 3 → ℝ) :
    Rested (s.addForce i f).1 X kind idx q True := by
  obtain ⟨⟨c, hc, hx⟩, ⟨m, hm, hk, hl, hf⟩, hq, hi⟩ := h
  have hmat : ∃ m', some m.beforeUpdate = some m' ∧ m'.kind = kind ∧ m'.lame ≠ none ∧
      (True → m'.lame = some (lameMu m'.young m'.poisson, lameL m'.young m'.poisson)) :=
    ⟨m.beforeUpdate, rfl, hk, by simp [MaterialComponent.beforeUpdate], fun _ => rfl⟩
  simp only [HyperComponent.addForce, hc, hm, hq, current_beforeUpdate]
  split
  · exact ⟨⟨c, by simp, hx⟩, hmat, rfl, hi⟩
  · exact ⟨⟨c, by simp, hx⟩, hmat, rfl, hi⟩

theorem Rested.step (solver : (Dof N → Dof N → ℝ) → List ℝ) (h : Rested s X kind idx q fresh) (o : Op N) (ho : KeepsRest o)
    (hp : fresh → KeepsParameters o) : ∃ s', s.step solver o = .ok s' ∧ Rested s' X kind idx q fresh := by
  cases o with
  | setYoung e =>
    obtain ⟨hc, ⟨m, hm, hk, hl, hf⟩, hq, hi⟩ := h
    exact ⟨_, rfl, hc, ⟨{ m with young := e }, by simp [setYoung, hm], hk, hl, fun hF => (hp hF).elim⟩, hq, hi⟩
  | setPoisson e =>
    obtain ⟨hc, ⟨m, hm, hk, hl, hf⟩, hq, hi⟩ := h
    exact ⟨_, rfl, hc, ⟨{ m with poisson := e }, by simp [setPoisson, hm], hk, hl, fun hF => (hp hF).elim⟩, hq, hi⟩
  | setPositions i y =>
    obtain ⟨⟨c, hc, hx⟩, hm, hq, hi⟩ := h
    have hne : i ≠ .restPosition := ho
    exact ⟨_, rfl, ⟨Function.update c i y, by simp [setPositions, hc], by rw [Function.update_of_ne hne.symm, hx]⟩, hm, hq, hi⟩
  | init => exact ho.elim
  | addForce i f => exact ⟨_, rfl, (h.addForce i f).weaken fun _ => trivial⟩
  | addDForce k dx df =>
    obtain ⟨s', h1, h2⟩ := h.refresh
    exact ⟨s', by simp only [HyperComponent.step, addDForce, h1, keep], h2⟩
  | addKToMatrix k A =>
    obtain ⟨s', h1, h2⟩ := h.refresh
    exact ⟨s', by simp only [HyperComponent.step, addKToMatrix, h1, keep], h2⟩
  | potentialEnergy i =>
    refine ⟨s, ?_, h⟩
    obtain ⟨⟨c, hc, hx⟩, ⟨m, hm, hk, hl, hf⟩, hq, hi⟩ := h
    obtain ⟨p, hp⟩ := Option.ne_none_iff_exists'.mp hl
    simp only [HyperComponent.step, getPotentialEnergy, hc, hm, hq, MaterialComponent.current, hp]
    by_cases h0 : N = 0 ∨ M = 0 <;> simp [h0]
  | eigenvalues =>
    refine ⟨_, rfl, ?_⟩
    obtain ⟨hc, hm, hq, hi⟩ := h
    unfold getEigenvalues
    split
    · exact ⟨hc, hm, hq, hi⟩
    · exact ⟨hc, hm, hq, hi⟩
  | assemble =>
    obtain ⟨s', h1, h2⟩ := h.assemble
    exact ⟨s', h1, h2.weaken fun _ => trivial⟩
  | assembleAt y =>
    obtain ⟨s', h1, h2⟩ := h.assembleAt y
    exact ⟨s', h1, h2.weaken fun _ => trivial⟩

theorem Rested.run (solver : (Dof N → Dof N → ℝ) → List ℝ) (ops : List (Op N)) (h : Rested s X kind idx q fresh)
    (ho : ∀ o ∈ ops, KeepsRest o) (hp : fresh → ∀ o ∈ ops, KeepsParameters o) :
    ∃ s', run solver s ops = .ok s' ∧ Rested s' X kind idx q fresh := by
  induction ops generalizing s with
  | nil => exact ⟨s, rfl, h⟩
  | cons o os ih =>
    obtain ⟨s', h1, h2⟩ := h.step solver o (ho o (by simp)) fun hf => hp hf o (by simp)
    obtain ⟨t, h3, h4⟩ := ih h2 (fun o' ho' => ho o' (by simp [ho'])) fun hf o' ho' => hp hf o' (by simp [ho'])
    exact ⟨t, by simp only [HyperComponent.run, h1, h3], h4⟩

theorem Rested.init {c : CoordId → Fin N → Fin 3 → ℝ} {m : MaterialComponent} (hc : s.mstate = some c) (hm : s.material = some m) :
    ∃ s', s.initComponent = .ok s' ∧ Rested s' (c .restPosition) m.kind s.idx
      (HyperMesh.initialize T.elem T.gauss s.idx (elementNodes s.topologyNodes c)).qnodes True := by
  have he : s.initComponent = .ok { s with
      qnodes := some (HyperMesh.initialize T.elem T.gauss s.idx (elementNodes s.topologyNodes c)).qnodes
      material := some m.beforeUpdate
      K := HyperMesh.storedK ⟨s.idx, (HyperMesh.initialize T.elem T.gauss s.idx (elementNodes s.topologyNodes c)).qnodes⟩
        (dataLaw m.kind m.young m.poisson) (c s.xId)
      stiffnessUpToDate := true
      eigenvaluesUpToDate := false } := by
    simp only [initComponent, hc, HyperComponent.assemble, HyperComponent.assembleAt, hm, current_beforeUpdate]
  exact ⟨_, he, ⟨c, by simp [hc], rfl⟩, ⟨m.beforeUpdate, rfl, rfl, by simp [MaterialComponent.beforeUpdate], fun _ => rfl⟩, rfl, rfl⟩

/-- The energy of a component whose law has the parameters of the data. -/
theorem Rested.energy (h : Rested s X kind idx q True) (hM : 0 < M) (i : CoordId) (hi : i ≠ .restPosition) :
    ∃ young poisson, (∀ z, forceAt s i z = HyperMesh.addForce ⟨idx, q⟩ (dataLaw kind young poisson) z 0) ∧
      ∀ y, (s.setPositions i y).getPotentialEnergy i = .ok (HyperMesh.potentialEnergy ⟨idx, q⟩ (dataLaw kind young poisson) X y) := by
  obtain ⟨⟨c, hc, hx⟩, ⟨m, hm, rfl, hl, hf⟩, hq, rfl⟩ := h
  have hN : N ≠ 0 := by
    intro h
    subst h
    have h0 : 0 < T.numNodes := by cases T <;> decide
    exact (s.idx ⟨0, hM⟩ ⟨0, h0⟩).elim0
  have h0 : ¬ (N = 0 ∨ M = 0) := by simp [hN, hM.ne']
  refine ⟨m.young, m.poisson, fun z => forceAt_eq hc hm hq hM z, fun y => ?_⟩
  simp only [setPositions, getPotentialEnergy, hc, hm, hq, Option.map_some, if_neg h0, MaterialComponent.current, hf trivial,
    Function.update_self, Function.update_of_ne hi.symm, hx]
  rfl

end HyperComponent

end Caribou
