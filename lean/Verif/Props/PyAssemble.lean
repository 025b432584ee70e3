import Verif.Spec.PyAssemble
import Verif.Props.CGComponent

/-!
# Property C158: assembling the system from a script does not change the solves of the simulation
-/

set_option autoImplicit false
set_option linter.all false

namespace Caribou

open Spec

section Assemble

variable {F : Type*} [Field F] [LinearOrder F] [IsStrictOrderedRing F]

omit [IsStrictOrderedRing F] in
theorem solveStep_selected (c : CGParams F) (chol lu : IncompletePrecond F) (s : CGComponent F) (M op : SystemMatrix F)
    (objects : List (MechObject F)) (bId xId : ℕ) (r : CGComponent F × List (MechObject F))
    (h : s.solveStep c chol lu M op objects bId xId = .ok r) : r.1.selected = s.selected := by
  have hset : ∀ t, s.setMatrix c chol lu M = .ok t → t.selected = s.selected := by
    intro t ht
    unfold CGComponent.setMatrix at ht
    split_ifs at ht
    · cases ht; rfl
    · cases hb : s.base.setMatrix (cgMethodBackend c chol lu s.method) M <;> rw [hb] at ht <;> simp at ht
      subst ht; rfl
  have hsol : ∀ (t : CGComponent F) r, t.solveSystem c chol lu op objects = .ok r → r.1.selected = t.selected := by
    intro t r hr
    unfold CGComponent.solveSystem at hr
    split_ifs at hr
    · cases hr; rfl
    · cases hb : t.base.solveSystem (cgMethodBackend c chol lu t.method) objects <;> rw [hb] at hr <;> simp at hr
      subst hr; rfl
  unfold CGComponent.solveStep at h
  cases hm : s.setMatrix c chol lu M <;> rw [hm] at h <;> simp at h
  rename_i t
  rw [hsol _ _ h]
  exact hset t hm

omit [IsStrictOrderedRing F] in
/-- A solve with a matrix assembled does not depend on the matrix which was there before, but for its size. -/
theorem solveStep_over (c : CGParams F) (chol lu : IncompletePrecond F) (s : CGComponent F) (A : SystemMatrix F) (p : Bool)
    (hm : s.method ≠ .none) (M op : SystemMatrix F) (objects : List (MechObject F)) (bId xId : ℕ)
    (h : ¬Incomplete s.method ∨ (A.dim = M.dim ↔ s.base.A.dim = M.dim) ∨ Analysed s.method s.base.inner M.dim) :
    ({ s with base := { s.base with A := A, hasPointer := p } } : CGComponent F).solveStep c chol lu M op objects bId xId =
      s.solveStep c chol lu M op objects bId xId := by
  have hset : ({ s with base := { s.base with A := A, hasPointer := p } } : CGComponent F).setMatrix c chol lu M =
      s.setMatrix c chol lu M := by
    have hmk : ∀ b x base, (CGComponent.mk s.selected b x base : CGComponent F).method = s.method := fun _ _ _ => rfl
    obtain ⟨m, hmeq⟩ : ∃ m, m = s.method := ⟨_, rfl⟩
    simp only [CGComponent.setMatrix, EigenSolverState.setMatrix, hmk, ← hmeq] at *
    rw [if_neg hm, if_neg hm]
    rcases h with h | h | h
    · cases m
      · exact absurd rfl hm
      · simp only [cgMethodBackend, ite_self]
      · simp only [cgMethodBackend, ite_self]
      · exact absurd (Or.inl rfl) h
      · exact absurd (Or.inr rfl) h
    · by_cases h1 : A.dim = M.dim
      · simp [h1, h.1 h1]
      · have h2 : ¬s.base.A.dim = M.dim := fun h3 => h1 (h.2 h3)
        simp [h1, h2]
    · cases m <;> simp only [Analysed] at h <;> by_cases h1 : A.dim = M.dim <;> by_cases h2 : s.base.A.dim = M.dim <;>
        simp [cgMethodBackend, h1, h2, h]
  unfold CGComponent.solveStep
  rw [hset]

omit [IsStrictOrderedRing F] in
theorem solveStep_matrix (c : CGParams F) (chol lu : IncompletePrecond F) (s : CGComponent F) (hm : s.method ≠ .none) (M op : SystemMatrix F)
    (objects : List (MechObject F)) (bId xId : ℕ) (r : CGComponent F × List (MechObject F))
    (h : s.solveStep c chol lu M op objects bId xId = .ok r) : r.1.base.A = M := by
  have hbase : ∀ (B : SolverBackend F (CGPreconds F)) (b t : EigenSolverState F (CGPreconds F)), b.setMatrix B M = .ok t → t.A = M := by
    intro B b t ht
    simp only [EigenSolverState.setMatrix] at ht
    split at ht
    · rename_i a _
      cases hf : B.factorize a.1 M <;> rw [hf] at ht <;> simp at ht
      subst ht; rfl
    · simp at ht
    · simp at ht
    · simp at ht
  have hset : ∀ t, s.setMatrix c chol lu M = .ok t → t.base.A = M := by
    intro t ht
    unfold CGComponent.setMatrix at ht
    rw [if_neg hm] at ht
    cases hb : s.base.setMatrix (cgMethodBackend c chol lu s.method) M <;> rw [hb] at ht <;> simp at ht
    subst ht; exact hbase _ _ _ hb
  have hsol : ∀ (t : CGComponent F) r, t.solveSystem c chol lu op objects = .ok r → r.1.base.A = t.base.A := by
    intro t r hr
    unfold CGComponent.solveSystem at hr
    split_ifs at hr
    · cases hr; rfl
    · cases hb : t.base.solveSystem (cgMethodBackend c chol lu t.method) objects <;> rw [hb] at hr <;> simp at hr
      subst hr
      unfold EigenSolverState.solveSystem at hb
      split at hb <;> simp at hb
      subst hb; rfl
  unfold CGComponent.solveStep at h
  cases hs : s.setMatrix c chol lu M <;> rw [hs] at h <;> simp at h
  rename_i t
  rw [hsol _ _ h]
  have := hset t hs
  unfold CGComponent.setLhs CGComponent.setRhs
  split_ifs <;> exact this

theorem pyRun_over (c : CGParams F) (chol lu : IncompletePrecond F) (es : List (PyEvent F)) : ∀ (s : CGComponent F) (A : SystemMatrix F) (p : Bool),
    ¬Incomplete s.method →
    ({ s with base := { s.base with A := A, hasPointer := p } } : CGComponent F).pyRun c chol lu es = s.pyRun c chol lu (withoutScript es) := by
  induction es with
  | nil => intro s A p h; rfl
  | cons e es ih =>
    intro s A p h
    cases e with
    | assemble P => exact ih s P true h
    | solve M op objects bId xId =>
      change CGComponent.pyRun c chol lu _ (.solve M op objects bId xId :: es) = s.pyRun c chol lu (.solve M op objects bId xId :: withoutScript es)
      by_cases hm : s.method = .none
      · have hm' : ({ s with base := { s.base with A := A, hasPointer := p } } : CGComponent F).method = .none := hm
        simp only [CGComponent.pyRun, step_free c chol lu s hm, step_free c chol lu _ hm']
        have := ih { s with bId := bId, xId := xId } A p h
        simp only at this
        rw [this]
      · simp only [CGComponent.pyRun, solveStep_over c chol lu s A p hm M op objects bId xId (Or.inl h)]
        cases hr : s.solveStep c chol lu M op objects bId xId with
        | ok r =>
          have hsel := solveStep_selected c chol lu s M op objects bId xId r hr
          have hmr : r.1.method = s.method := by unfold CGComponent.method CGComponent.selectedName; rw [hsel]
          have := ih r.1 r.1.base.A r.1.base.hasPointer (by rw [hmr]; exact h)
          simp only at this ⊢
          rw [this]
        | throws r => rfl
        | hangs => rfl
        | undefined => rfl

theorem pyRun_sized (c : CGParams F) (chol lu : IncompletePrecond F) (n : ℕ) (hn : n ≠ 0) (es : List (PyEvent F)) :
    ∀ (s : CGComponent F) (A : SystemMatrix F) (p : Bool), s.method ≠ .none → Analysed s.method s.base.inner n → CGReady s →
      (∀ e ∈ es, SolvesSize n e) →
      ({ s with base := { s.base with A := A, hasPointer := p } } : CGComponent F).pyRun c chol lu es =
        s.pyRun c chol lu (withoutScript es) := by
  induction es with
  | nil => intro s A p hm ha hs h; rfl
  | cons e es ih =>
    intro s A p hm ha hs h
    have hes : ∀ e ∈ es, SolvesSize n e := fun e he => h e (List.mem_cons_of_mem _ he)
    cases e with
    | assemble P => exact ih s P true hm ha hs hes
    | solve M op objects bId xId =>
      change CGComponent.pyRun c chol lu _ (.solve M op objects bId xId :: es) = s.pyRun c chol lu (.solve M op objects bId xId :: withoutScript es)
      obtain ⟨hM, hsized, hdim⟩ := h _ List.mem_cons_self
      obtain ⟨s', hr, hs', hsel⟩ := step_assembled c chol lu s hs hm M op (by rw [hM]; exact hn) objects hsized (hM.trans hdim) bId xId
      have hA : s'.base.A = M := solveStep_matrix c chol lu s hm M op objects bId xId _ hr
      have hmr : s'.method = s.method := by unfold CGComponent.method CGComponent.selectedName; rw [hsel]
      have ha' : Analysed s'.method s'.base.inner n := by
        have := hs' (by rw [hA, hM]; exact hn)
        rwa [hA, hM] at this
      have hrun := ih s' s'.base.A s'.base.hasPointer (by rw [hmr]; exact hm) ha' hs' hes
      simp only [CGComponent.pyRun, solveStep_over c chol lu s A p hm M op objects bId xId (Or.inr (Or.inr (by rw [hM]; exact ha))), hr]
      simp only at hrun ⊢
      rw [hrun]

/-- **C158** (partial): with the methods which use no incomplete factorization, whatever the state of the component, a simulation in which a
script assembles the system any number of times, with any factors and at any moments between the solves, gives the same objects after
every solve (and the same exceptions) as without the script.  Missing: the incomplete factorizations (`C158_analysed`, `C158_violated`). -/
theorem C158_partial (c : CGParams F) (chol lu : IncompletePrecond F) (s : CGComponent F) (h : ¬Incomplete s.method)
    (es : List (PyEvent F)) : s.pyRun c chol lu es = s.pyRun c chol lu (withoutScript es) :=
  pyRun_over c chol lu es s s.base.A s.base.hasPointer h

/-- **C158** (any method): a call before a solve changes nothing, not even the component, if its matrix does not have the size of the system
to be solved or if the method selected has analysed a system of this size before. -/
theorem C158_analysed (c : CGParams F) (chol lu : IncompletePrecond F) (s : CGComponent F) (hs : CGReady s) (hm : s.method ≠ .none)
    (P M op : SystemMatrix F) (hM : M.dim ≠ 0) (objects : List (MechObject F)) (bId xId : ℕ)
    (h : P.dim ≠ M.dim ∨ Analysed s.method s.base.inner M.dim) :
    (s.pyAssemble P).solveStep c chol lu M op objects bId xId = s.solveStep c chol lu M op objects bId xId := by
  refine solveStep_over c chol lu s P true hm M op objects bId xId ?_
  rcases h with h | h
  · by_cases hd : s.base.A.dim = M.dim
    · exact Or.inr (Or.inr (hd ▸ hs (by rw [hd]; exact hM)))
    · exact Or.inr (Or.inl ⟨fun h1 => absurd h1 h, fun h1 => absurd h1 hd⟩)
  · exact Or.inr (Or.inr h)

/-- **C158** (after a solve, any method): in a simulation whose systems all have the same size and which begins with a solve, the calls of the
script change nothing, whatever the matrices it assembles. -/
theorem C158_after (c : CGParams F) (chol lu : IncompletePrecond F) (s : CGComponent F) (hs : CGReady s) (n : ℕ) (hn : n ≠ 0)
    (M op : SystemMatrix F) (objects : List (MechObject F)) (bId xId : ℕ) (es : List (PyEvent F))
    (h : ∀ e ∈ PyEvent.solve M op objects bId xId :: es, SolvesSize n e) :
    s.pyRun c chol lu (.solve M op objects bId xId :: es) =
      s.pyRun c chol lu (.solve M op objects bId xId :: withoutScript es) := by
  by_cases hm : s.method = .none
  · exact C158_partial c chol lu s (by rw [hm]; unfold Incomplete; decide) (.solve M op objects bId xId :: es)
  obtain ⟨hM, hsized, hdim⟩ := h _ List.mem_cons_self
  obtain ⟨s', hr, hs', hsel⟩ := step_assembled c chol lu s hs hm M op (by rw [hM]; exact hn) objects hsized (hM.trans hdim) bId xId
  have hA : s'.base.A = M := solveStep_matrix c chol lu s hm M op objects bId xId _ hr
  have hmr : s'.method = s.method := by unfold CGComponent.method CGComponent.selectedName; rw [hsel]
  have ha' : Analysed s'.method s'.base.inner n := by
    have := hs' (by rw [hA, hM]; exact hn)
    rwa [hA, hM] at this
  have hrun := pyRun_sized c chol lu n hn es s' s'.base.A s'.base.hasPointer (by rw [hmr]; exact hm) ha' hs'
    fun e he => h e (List.mem_cons_of_mem _ he)
  simp only [CGComponent.pyRun, hr]
  simp only at hrun ⊢
  rw [hrun]

/-- **C158 is violated.** If a script assembles the system before the first solve, then with an incomplete factorization the first solve of a
system of this size, even of the same system, factorizes a matrix which was never analysed: its behaviour is undefined, while the solve
without the script is defined. -/
theorem C158_violated (c : CGParams F) (chol lu : IncompletePrecond F) (i : Fin 5) (hi : i = 3 ∨ i = 4) (P M op : SystemMatrix F)
    (hP : P.dim = M.dim) (hM : M.dim ≠ 0) (objects : List (MechObject F)) (hsized : SizedObjects objects)
    (hdim : M.dim = globalDimension objects) (bId xId : ℕ) :
    (CGComponent.fresh.select i).pyRun c chol lu [.assemble P, .solve M op objects bId xId] = .undefined ∧
    ∃ o, (CGComponent.fresh.select i).pyRun c chol lu [.solve M op objects bId xId] = .ok [o] := by
  have h3 : ∀ b x base, (CGComponent.mk 3 b x base : CGComponent F).method = .incompleteCholesky := fun _ _ _ => by
    change methodFromString "IncompleteCholesky" = _
    decide
  have h4 : ∀ b x base, (CGComponent.mk 4 b x base : CGComponent F).method = .incompleteLU := fun _ _ _ => by
    change methodFromString "IncompleteLU" = _
    decide
  constructor
  · rcases hi with rfl | rfl
    · simp [CGComponent.pyRun, CGComponent.pyAssemble, CGComponent.solveStep, CGComponent.select, CGComponent.setMatrix, CGComponent.fresh, h3,
        EigenSolverState.setMatrix, EigenSolverState.fresh, hP, cgMethodBackend]
    · simp [CGComponent.pyRun, CGComponent.pyAssemble, CGComponent.solveStep, CGComponent.select, CGComponent.setMatrix, CGComponent.fresh, h4,
        EigenSolverState.setMatrix, EigenSolverState.fresh, hP, cgMethodBackend]
  · have hm : (CGComponent.fresh.select i : CGComponent F).method ≠ .none := by
      rcases hi with rfl | rfl
      · rw [show (CGComponent.fresh.select 3 : CGComponent F).method = .incompleteCholesky from h3 _ _ _]; decide
      · rw [show (CGComponent.fresh.select 4 : CGComponent F).method = .incompleteLU from h4 _ _ _]; decide
    obtain ⟨s', h1, -⟩ := step_assembled c chol lu (CGComponent.fresh.select i) (fun h0 => absurd rfl h0) hm M op hM objects hsized hdim bId xId
    exact ⟨_, by simp only [CGComponent.pyRun, h1]; rfl⟩

end Assemble

/-- The script assembles three times, with matrices of two sizes, around two solves with the diagonal. -/
example (chol lu : IncompletePrecond ℚ) (c : CGParams ℚ) :
    (CGComponent.fresh.select 2).pyRun c chol lu [.assemble fullTwo, .solve unevenTwo unevenTwo pairObjects 0 1,
      .assemble ⟨3, fun _ _ => 5, fun _ _ => true⟩, .assemble unevenTwo, .solve fullTwo fullTwo pairObjects 0 1] =
    (CGComponent.fresh.select 2).pyRun c chol lu [.solve unevenTwo unevenTwo pairObjects 0 1, .solve fullTwo fullTwo pairObjects 0 1] :=
  C158_partial c chol lu (CGComponent.fresh.select 2) (by
    rw [show (CGComponent.fresh.select 2 : CGComponent ℚ).method = .diagonal by change methodFromString "Diagonal" = _; decide]
    unfold Incomplete; decide) _

/-- A matrix of size 3 assembled before a system of size 2 is solved with an incomplete factorization. -/
example (chol lu : IncompletePrecond ℚ) (c : CGParams ℚ) :
    ((CGComponent.fresh.select 3).pyAssemble ⟨3, fun _ _ => 5, fun _ _ => true⟩).solveStep c chol lu unevenTwo unevenTwo pairObjects 0 1 =
      (CGComponent.fresh.select 3).solveStep c chol lu unevenTwo unevenTwo pairObjects 0 1 :=
  C158_analysed c chol lu _ (fun h0 => absurd rfl h0) (by change methodFromString "IncompleteCholesky" ≠ _; decide) _ _ _ (by decide) _ 0 1
    (Or.inl (by decide))

/-- With an incomplete factorization, after a solve. -/
example (chol lu : IncompletePrecond ℚ) (c : CGParams ℚ) :
    (CGComponent.fresh.select 4).pyRun c chol lu [.solve unevenTwo unevenTwo pairObjects 0 1, .assemble fullTwo,
      .solve fullTwo fullTwo pairObjects 0 1] =
    (CGComponent.fresh.select 4).pyRun c chol lu [.solve unevenTwo unevenTwo pairObjects 0 1, .solve fullTwo fullTwo pairObjects 0 1] := by
  refine C158_after c chol lu _ (fun h0 => absurd rfl h0) 2 (by decide) _ _ _ 0 1 _ fun e he => ?_
  simp only [List.mem_cons, List.not_mem_nil, or_false] at he
  rcases he with rfl | rfl | rfl
  · exact ⟨rfl, pairObjects_sized, rfl⟩
  · trivial
  · exact ⟨rfl, pairObjects_sized, rfl⟩

/-- The systems of the witness. -/
example (chol lu : IncompletePrecond ℚ) (c : CGParams ℚ) :
    (CGComponent.fresh.select 3).pyRun c chol lu [.assemble unevenTwo, .solve unevenTwo unevenTwo pairObjects 0 1] = .undefined :=
  (C158_violated c chol lu 3 (Or.inl rfl) unevenTwo unevenTwo unevenTwo rfl (by decide) pairObjects pairObjects_sized rfl 0 1).1

end Caribou
