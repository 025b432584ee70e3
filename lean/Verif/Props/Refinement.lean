import Verif.Lemmas.Refinement
import Verif.Props.Grid
import Verif.Props.GridMesh

/-!
# C135: refining a mesh does not worsen a linear static solution
-/

set_option autoImplicit false
set_option linter.all false

namespace Caribou

open Spec MeasureTheory

section

variable {N M N' M' : ℕ} {C C' : CorotClass} {d : CorotData} {idx : Fin M → Fin C.nodes → Fin N} {X : Fin N → Fin 3 → ℝ} {idx' : Fin M' → Fin C'.nodes → Fin N'}
  {X' : Fin N' → Fin 3 → ℝ} {Ω : Set (Fin 3 → ℝ)} {h h' σ s σ' s' : ℝ}

theorem strainWork_self_nonneg {l mu : ℝ} (hmu : 0 ≤ mu) (hl : 0 ≤ 3 * l + 2 * mu) (G : Mat3) : 0 ≤ strainWork l mu G G := by
  rw [strainWork_self]
  exact lameForm_nonneg hmu hl _

theorem overElements_nonneg {n : ℕ} {E : Elem ℝ 3 n} {R : Set (Fin 3 → ℝ)} (hR : MeasurableSet R) {idx : Fin M → Fin n → Fin N} {f : Fin M → (Fin 3 → ℝ) → ℝ}
    (hf : ∀ e, ∀ ξ ∈ R, 0 ≤ f e ξ) : 0 ≤ overElements E R idx X f :=
  Finset.sum_nonneg fun e _ => setIntegral_nonneg hR fun ξ hξ => mul_nonneg (abs_nonneg _) (hf e ξ hξ)

/-- The energy of a difference. -/
theorem energy_sub {A : Fin M → Mat3} (hA : ∀ e ξ, (C.elem.jacobian (fun i => X (idx e i)) ξ : Mat3) = A e) (l mu : ℝ) {P Q : Fin M → (Fin 3 → ℝ) → Mat3}
    (cP : ∀ e a b, ContinuousOn (fun ξ => P e ξ a b) C.canonical) (cQ : ∀ e a b, ContinuousOn (fun ξ => Q e ξ a b) C.canonical) :
    overElements C.elem C.canonical idx X (fun e ξ => strainWork l mu (P e ξ - Q e ξ) (P e ξ - Q e ξ)) =
      overElements C.elem C.canonical idx X (fun e ξ => strainWork l mu (P e ξ) (P e ξ)) +
        -2 * overElements C.elem C.canonical idx X (fun e ξ => strainWork l mu (P e ξ) (Q e ξ)) +
        overElements C.elem C.canonical idx X (fun e ξ => strainWork l mu (Q e ξ) (Q e ξ)) := by
  have k1 : ∀ e, ContinuousOn (fun ξ => strainWork l mu (P e ξ) (P e ξ)) C.canonical := fun e => strainWork_continuousOn (cP e) (cP e)
  have k2 : ∀ e, ContinuousOn (fun ξ => -2 * strainWork l mu (P e ξ) (Q e ξ)) C.canonical := fun e => continuousOn_const.mul (strainWork_continuousOn (cP e) (cQ e))
  have k3 : ∀ e, ContinuousOn (fun ξ => strainWork l mu (Q e ξ) (Q e ξ)) C.canonical := fun e => strainWork_continuousOn (cQ e) (cQ e)
  have k4 : ∀ e, ContinuousOn (fun ξ => strainWork l mu (P e ξ) (P e ξ) + -2 * strainWork l mu (P e ξ) (Q e ξ)) C.canonical := fun e => (k1 e).add (k2 e)
  rw [← overElements_smul hA, ← overElements_add hA C.good.compact k1 k2, ← overElements_add hA C.good.compact k4 k3]
  refine overElements_congr C.good.compact.measurableSet fun e ξ _ => ?_
  rw [strainWork_sub_left, strainWork_comm l mu (P e ξ) (P e ξ - Q e ξ), strainWork_comm l mu (Q e ξ) (P e ξ - Q e ξ), strainWork_sub_left, strainWork_sub_left,
    strainWork_comm l mu (Q e ξ) (P e ξ)]
  ring

/-- **C135 (error).** A mesh which refines another one: no displacement of the coarse mesh is closer to that of the elastic body, in energy, than the static solution on the fine mesh. -/
theorem C135_error (hc : d.corotated = false) (hm : d.method = .regular) (h1 : 0 < d.young) (h2 : -1 < d.poisson) (h3 : d.poisson < 1 / 2)
    (m : C.MeshOf Ω h X idx) (m' : C'.MeshOf Ω h' X' idx') (hS : Straight C.elem idx X σ s) (hS' : Straight C'.elem idx' X' σ' s') {fixed : Set (Fin N)} {fixed' : Set (Fin N')}
    (hr : RefinedBy C idx X fixed C' idx' X' fixed') (u' : (Fin 3 → ℝ) → Mat3) (hu' : ∀ a b, ContinuousOn (fun x => u' x a b) Ω)
    (F' : Fin N' → Fin 3 → ℝ) (hw : WeakSolution (lameL d.young d.poisson) (lameMu d.young d.poisson) C'.elem C'.canonical idx' X' fixed' F' u')
    (U' : Fin N' → Fin 3 → ℝ) (hU' : ∀ p ∈ fixed', U' p = 0) (heq : ∀ p, p ∉ fixed' → netForce C' d idx' X' U' F' p = 0)
    (U : Fin N → Fin 3 → ℝ) (hU : ∀ p ∈ fixed, U p = 0)
    (GU : Fin M → (Fin 3 → ℝ) → Mat3) (hGU : FieldGradient C.elem C.canonical idx X U GU)
    (GU' : Fin M' → (Fin 3 → ℝ) → Mat3) (hGU' : FieldGradient C'.elem C'.canonical idx' X' U' GU') :
    energyError (lameL d.young d.poisson) (lameMu d.young d.poisson) C'.elem C'.canonical idx' X' u' GU' ≤
      energyError (lameL d.young d.poisson) (lameMu d.young d.poisson) C.elem C.canonical idx X u' GU := by
  obtain ⟨V', hV'0, hV'⟩ := hr U hU
  have hS0 := hS
  have hS0' := hS'
  choose c A hdet hσ hX using hS
  choose c' A' hdet' hσ' hX' using hS'
  have hGV' := fieldGradient_exists C' hdet' hX' V'
  have mf := meshFacts C' idx' X' Ω h' m'
  refine (C124_best C' hc hm h1 h2 h3 hS0' U' F' fixed' u'
    (fun e a b => (hu' a b).comp (C'.good.world _).continuousOn fun ξ hξ => mf.point e ξ hξ) hw heq GU' hGU' V' (fun p hp => (hV'0 p hp).trans (hU' p hp).symm) _ hGV').trans (le_of_eq ?_)
  refine (same_integral hdet hX hdet' hX' m m' hV' hGU hGV' (fun x P => strainWork (lameL d.young d.poisson) (lameMu d.young d.poisson) (u' x - P) (u' x - P)) fun P hP => ?_).symm
  have hk : ∀ a b, ContinuousOn (fun x => (u' x - P x) a b) Ω := fun a b => by
    simp only [Matrix.sub_apply]
    exact (hu' a b).sub (hP a b).continuousOn
  exact strainWork_continuousOn hk hk

/-- **C135 (softer).** A mesh which refines another one, under the same loads: the loads do at least as much work on the static solution of the fine mesh as on that of the coarse mesh. -/
theorem C135_softer (hc : d.corotated = false) (hm : d.method = .regular) (h1 : 0 < d.young) (h2 : -1 < d.poisson) (h3 : d.poisson < 1 / 2)
    (m : C.MeshOf Ω h X idx) (m' : C'.MeshOf Ω h' X' idx') (hS : Straight C.elem idx X σ s) (hS' : Straight C'.elem idx' X' σ' s') {fixed : Set (Fin N)} {fixed' : Set (Fin N')}
    (hr : RefinedBy C idx X fixed C' idx' X' fixed') (F : Fin N → Fin 3 → ℝ) (F' : Fin N' → Fin 3 → ℝ) (hF : SameLoads C idx X F C' idx' X' F')
    (U : Fin N → Fin 3 → ℝ) (hU : ∀ p ∈ fixed, U p = 0) (heq : ∀ p, p ∉ fixed → netForce C d idx X U F p = 0)
    (U' : Fin N' → Fin 3 → ℝ) (hU' : ∀ p ∈ fixed', U' p = 0) (heq' : ∀ p, p ∉ fixed' → netForce C' d idx' X' U' F' p = 0) :
    power F U ≤ power F' U' := by
  obtain ⟨hmu, hl⟩ := lame_strict h1 h2 h3
  obtain ⟨V', hV'0, hV'⟩ := hr U hU
  have hS0 := hS
  have hS0' := hS'
  choose c A hdet hσ hX using hS
  choose c' A' hdet' hσ' hX' using hS'
  have hGU := fieldGradient_exists C hdet hX U
  have hGV' := fieldGradient_exists C' hdet' hX' V'
  have hGU' := fieldGradient_exists C' hdet' hX' U'
  have e1 := C124_virtual C hc hm hS0 U F U _ _ hGU hGU
  have e2 := C124_virtual C' hc hm hS0' U' F' U' _ _ hGU' hGU'
  have e3 := C124_virtual C' hc hm hS0' U' F' V' _ _ hGU' hGV'
  rw [power_fixed heq hU] at e1
  rw [power_fixed heq' hU'] at e2
  rw [power_fixed heq' hV'0] at e3
  have e4 := same_integral hdet hX hdet' hX' m m' hV' hGU hGV' (fun x P => strainWork (lameL d.young d.poisson) (lameMu d.young d.poisson) P P) fun P hP =>
    strainWork_continuousOn (fun a b => (hP a b).continuousOn) (fun a b => (hP a b).continuousOn)
  have hA' : ∀ e ξ, (C'.elem.jacobian (fun i => X' (idx' e i)) ξ : Mat3) = A' e := fun e ξ => C'.good.affine (c' e) (A' e) _ (hX' e) ξ
  have e5 := energy_sub hA' (lameL d.young d.poisson) (lameMu d.young d.poisson) (fieldGradient_continuous hA' C'.good.deriv hdet' hGU')
    (fieldGradient_continuous hA' C'.good.deriv hdet' hGV')
  have e6 : 0 ≤ overElements C'.elem C'.canonical idx' X' (fun e ξ => strainWork (lameL d.young d.poisson) (lameMu d.young d.poisson)
      ((C'.elem.jacobian (fun i => U' (idx' e i)) ξ : Mat3) * (A' e)⁻¹ - (C'.elem.jacobian (fun i => V' (idx' e i)) ξ : Mat3) * (A' e)⁻¹)
      ((C'.elem.jacobian (fun i => U' (idx' e i)) ξ : Mat3) * (A' e)⁻¹ - (C'.elem.jacobian (fun i => V' (idx' e i)) ξ : Mat3) * (A' e)⁻¹)) :=
    overElements_nonneg C'.good.compact.measurableSet fun e ξ _ => strainWork_self_nonneg hmu.le hl.le _
  have e7 := hF U V' hV'
  linarith

/-- **C135 (body).** A mesh is not softer than the elastic body: the loads do at most as much work on the static solution as on the displacement of the body. The latter is
twice the energy of the body. -/
theorem C135_body (hc : d.corotated = false) (hm : d.method = .regular) (h1 : 0 < d.young) (h2 : -1 < d.poisson) (h3 : d.poisson < 1 / 2)
    (m : C.MeshOf Ω h X idx) (hS : Straight C.elem idx X σ s) {fixed : Set (Fin N)} (u' : (Fin 3 → ℝ) → Mat3) (hu' : ∀ a b, ContinuousOn (fun x => u' x a b) Ω)
    (F : Fin N → Fin 3 → ℝ) (hw : WeakSolution (lameL d.young d.poisson) (lameMu d.young d.poisson) C.elem C.canonical idx X fixed F u')
    (U : Fin N → Fin 3 → ℝ) (hU : ∀ p ∈ fixed, U p = 0) (heq : ∀ p, p ∉ fixed → netForce C d idx X U F p = 0) :
    power F U ≤ ∫ x in Ω, strainWork (lameL d.young d.poisson) (lameMu d.young d.poisson) (u' x) (u' x) := by
  obtain ⟨hmu, hl⟩ := lame_strict h1 h2 h3
  have hS0 := hS
  choose c A hdet hσ hX using hS
  have hA : ∀ e ξ, (C.elem.jacobian (fun i => X (idx e i)) ξ : Mat3) = A e := fun e ξ => C.good.affine (c e) (A e) _ (hX e) ξ
  have hGU := fieldGradient_exists C hdet hX U
  have mf := meshFacts C idx X Ω h m
  have e1 := C124_virtual C hc hm hS0 U F U _ _ hGU hGU
  rw [power_fixed heq hU] at e1
  have e2 := hw U _ hU hGU
  have e3 := mf.total (fun x => strainWork (lameL d.young d.poisson) (lameMu d.young d.poisson) (u' x) (u' x)) (strainWork_continuousOn hu' hu')
  rw [← e3]
  set G : Fin M → (Fin 3 → ℝ) → Mat3 := fun e ξ => (C.elem.jacobian (fun i => U (idx e i)) ξ : Mat3) * (A e)⁻¹
  set P : Fin M → (Fin 3 → ℝ) → Mat3 := fun e ξ => u' (C.elem.worldCoordinates (fun i => X (idx e i)) ξ)
  have cG := fieldGradient_continuous hA C.good.deriv hdet hGU
  have cP : ∀ e a b, ContinuousOn (fun ξ => P e ξ a b) C.canonical := fun e a b => (hu' a b).comp (C.good.world _).continuousOn fun ξ hξ => mf.point e ξ hξ
  have e4 : 0 ≤ overElements C.elem C.canonical idx X (fun e ξ => strainWork (lameL d.young d.poisson) (lameMu d.young d.poisson) (P e ξ - G e ξ) (P e ξ - G e ξ)) :=
    overElements_nonneg C.good.compact.measurableSet fun e ξ _ => strainWork_self_nonneg hmu.le hl.le _
  have e5 := energy_sub hA (lameL d.young d.poisson) (lameMu d.young d.poisson) cP cG
  linarith

end

/-! ### Nested meshes -/

section

variable {N M N' M' : ℕ} {C C' : CorotClass} {idx : Fin M → Fin C.nodes → Fin N} {X : Fin N → Fin 3 → ℝ} {idx' : Fin M' → Fin C'.nodes → Fin N'}
  {X' : Fin N' → Fin 3 → ℝ}

theorem class_node_mem (C : CorotClass) (i : Fin C.nodes) : C.elem.node i ∈ C.canonical := by
  cases C
  · exact node_mem_canonical .tetra1 i
  · exact node_mem_canonical .hexa1 i

theorem class_interpolate_node (C : CorotClass) (v : Fin C.nodes → Fin 3 → ℝ) (i : Fin C.nodes) : C.elem.interpolate (C.elem.node i) v = v i := by
  cases C
  · exact C02_interpolate_at_node .tetra1 v i
  · exact C02_interpolate_at_node .hexa1 v i

theorem nested_generic (hsv : SingleValued C idx X) {fixed : Set (Fin N)} {fixed' : Set (Fin N')}
    (hin : ∀ e', ∃ e, ∃ τ : (Fin 3 → ℝ) → Fin 3 → ℝ,
      (∀ ξ' ∈ C'.canonical, τ ξ' ∈ C.canonical ∧ C.elem.worldCoordinates (fun i => X (idx e i)) (τ ξ') = C'.elem.worldCoordinates (fun i => X' (idx' e' i)) ξ') ∧
      ∀ (v : Fin C.nodes → Fin 3 → ℝ) ξ', C.elem.interpolate (τ ξ') v = C'.elem.interpolate ξ' fun i => C.elem.interpolate (τ (C'.elem.node i)) v)
    (hfix : ∀ p ∈ fixed', ∃ e, ∃ ξ ∈ C.canonical, C.elem.worldCoordinates (fun i => X (idx e i)) ξ = X' p ∧ ∀ i, C.elem.L ξ i ≠ 0 → idx e i ∈ fixed) :
    RefinedBy C idx X fixed C' idx' X' fixed' := by
  classical
  intro V hV
  set V' : Fin N' → Fin 3 → ℝ := fun p => if h : ∃ e, ∃ ξ ∈ C.canonical, C.elem.worldCoordinates (fun i => X (idx e i)) ξ = X' p then
    C.elem.interpolate h.choose_spec.choose fun i => V (idx h.choose i) else 0 with hV'
  have key : ∀ p e ξ, ξ ∈ C.canonical → C.elem.worldCoordinates (fun i => X (idx e i)) ξ = X' p → V' p = C.elem.interpolate ξ fun i => V (idx e i) := by
    intro p e ξ hξ h0
    have h : ∃ e, ∃ ξ ∈ C.canonical, C.elem.worldCoordinates (fun i => X (idx e i)) ξ = X' p := ⟨e, ξ, hξ, h0⟩
    rw [hV']
    simp only
    rw [dif_pos h]
    exact hsv V _ _ h.choose_spec.choose_spec.1 e ξ hξ (h.choose_spec.choose_spec.2.trans h0.symm)
  refine ⟨V', fun p hp => ?_, fun e ξ hξ e' ξ' hξ' h0 => ?_⟩
  · obtain ⟨e, ξ, hξ, h0, hL⟩ := hfix p hp
    rw [key p e ξ hξ h0]
    funext a
    refine Finset.sum_eq_zero fun i _ => ?_
    by_cases hi : C.elem.L ξ i = 0
    · rw [hi, mul_zero]
    · show V (idx e i) a * _ = 0
      rw [hV _ (hL i hi)]
      simp
  · obtain ⟨e0, τ, hτ, hint⟩ := hin e'
    have h1 : ∀ i, V' (idx' e' i) = C.elem.interpolate (τ (C'.elem.node i)) fun j => V (idx e0 j) := by
      intro i
      obtain ⟨k1, k2⟩ := hτ _ (class_node_mem C' i)
      refine key _ e0 _ k1 (k2.trans ?_)
      exact class_interpolate_node C' (fun i => X' (idx' e' i)) i
    simp only [h1]
    rw [← hint]
    exact hsv V e ξ hξ e0 _ (hτ ξ' hξ').1 (h0.trans (hτ ξ' hξ').2.symm)

/-- **C135 (loads at nodes).** Forces on nodes which are in both meshes are the same loads. -/
theorem C135_loads (ι : Fin N → Fin N') (F : Fin N → Fin 3 → ℝ) (F' : Fin N' → Fin 3 → ℝ) (hF' : ∀ p, F' p = ∑ q, if ι q = p then F q else 0)
    (hι : ∀ q, F q ≠ 0 → X' (ι q) = X q ∧ (∃ e i, idx e i = q) ∧ ∃ e i, idx' e i = ι q) : SameLoads C idx X F C' idx' X' F' := by
  intro V V' h
  have e1 : power F' V' = ∑ q, F q ⬝ᵥ V' (ι q) := by
    rw [power]
    simp only [hF', sum_dotProduct]
    rw [Finset.sum_comm]
    refine Finset.sum_congr rfl fun q _ => ?_
    rw [Finset.sum_eq_single (ι q)]
    · simp
    · intro p _ hp
      rw [if_neg fun h => hp h.symm, zero_dotProduct]
    · simp
  rw [e1, power]
  refine Finset.sum_congr rfl fun q _ => ?_
  by_cases hq : F q = 0
  · rw [hq, zero_dotProduct, zero_dotProduct]
  · obtain ⟨h0, ⟨e, i, rfl⟩, e', i', hi'⟩ := hι q hq
    have h1 := h e _ (class_node_mem C i) e' _ (class_node_mem C' i') ?_
    · rw [class_interpolate_node, class_interpolate_node, hi'] at h1
      rw [h1]
    · show C.elem.interpolate _ _ = C'.elem.interpolate _ _
      rw [class_interpolate_node, class_interpolate_node, hi', h0]

end

/-- **C135 (deflection).** A force on a node which is in both meshes: the displacement of the node in the direction of the force is at least as large on the fine mesh. -/
theorem C135_point {N M N' M' : ℕ} {C C' : CorotClass} {d : CorotData} {idx : Fin M → Fin C.nodes → Fin N} {X : Fin N → Fin 3 → ℝ} {idx' : Fin M' → Fin C'.nodes → Fin N'}
    {X' : Fin N' → Fin 3 → ℝ} {Ω : Set (Fin 3 → ℝ)} {h h' σ s σ' s' : ℝ} (hc : d.corotated = false) (hm : d.method = .regular) (h1 : 0 < d.young) (h2 : -1 < d.poisson)
    (h3 : d.poisson < 1 / 2) (m : C.MeshOf Ω h X idx) (m' : C'.MeshOf Ω h' X' idx') (hS : Straight C.elem idx X σ s) (hS' : Straight C'.elem idx' X' σ' s')
    {fixed : Set (Fin N)} {fixed' : Set (Fin N')} (hr : RefinedBy C idx X fixed C' idx' X' fixed') (e : Fin M) (i : Fin C.nodes) (e' : Fin M') (i' : Fin C'.nodes)
    (hp : X' (idx' e' i') = X (idx e i)) (f : Fin 3 → ℝ)
    (U : Fin N → Fin 3 → ℝ) (hU : ∀ p ∈ fixed, U p = 0) (heq : ∀ p, p ∉ fixed → netForce C d idx X U (Pi.single (idx e i) f) p = 0)
    (U' : Fin N' → Fin 3 → ℝ) (hU' : ∀ p ∈ fixed', U' p = 0) (heq' : ∀ p, p ∉ fixed' → netForce C' d idx' X' U' (Pi.single (idx' e' i') f) p = 0) :
    f ⬝ᵥ U (idx e i) ≤ f ⬝ᵥ U' (idx' e' i') := by
  have hF : SameLoads C idx X (Pi.single (idx e i) f) C' idx' X' (Pi.single (idx' e' i') f) := by
    refine C135_loads (fun _ => idx' e' i') _ _ (fun p => ?_) fun q hq => ?_
    · by_cases hpp : p = idx' e' i'
      · subst hpp
        simp
      · rw [Pi.single_eq_of_ne hpp]
        exact (Finset.sum_eq_zero fun q _ => by rw [if_neg fun h => hpp h.symm]).symm
    · by_cases hqq : q = idx e i
      · rw [hqq]
        exact ⟨hp, ⟨e, i, rfl⟩, e', i', rfl⟩
      · simp [Pi.single_apply, hqq] at hq
  have := C135_softer hc hm h1 h2 h3 m m' hS hS' hr _ _ hF U hU heq U' hU' heq'
  have e1 : ∀ {K : ℕ} (p : Fin K) (V : Fin K → Fin 3 → ℝ), power (Pi.single p f) V = f ⬝ᵥ V p := by
    intro K p V
    rw [power, Finset.sum_eq_single p]
    · rw [Pi.single_eq_same]
    · intro q _ hq
      rw [Pi.single_eq_of_ne hq, zero_dotProduct]
    · simp
  rwa [e1, e1] at this

/-- **C135 (tetrahedra).** A mesh of tetrahedra refines a mesh of tetrahedra without hanging nodes when the nodes of each of its tetrahedra are in one of the coarse tetrahedra, and when its held nodes are on
sides, edges or nodes of the coarse mesh which are held. -/
theorem C135_tetra {N M N' M' : ℕ} {idx : Fin M → Fin 4 → Fin N} {X : Fin N → Fin 3 → ℝ} {idx' : Fin M' → Fin 4 → Fin N'} {X' : Fin N' → Fin 3 → ℝ}
    (hsv : SingleValued .tetra idx X) {fixed : Set (Fin N)} {fixed' : Set (Fin N')}
    (hin : ∀ e', ∃ e, ∀ i', ∃ ξ ∈ canonicalSet .simplex 3, tetra1.worldCoordinates (fun i => X (idx e i)) ξ = X' (idx' e' i'))
    (hfix : ∀ p ∈ fixed', ∃ e, ∃ ξ ∈ canonicalSet .simplex 3, tetra1.worldCoordinates (fun i => X (idx e i)) ξ = X' p ∧ ∀ i, tetra1.L ξ i ≠ 0 → idx e i ∈ fixed) :
    RefinedBy .tetra idx X fixed .tetra idx' X' fixed' := by
  refine nested_generic hsv (fun e' => ?_) hfix
  obtain ⟨e, hξ⟩ := hin e'
  choose ξ hξm hξw using hξ
  have hL : ∀ (w : Fin 4 → ℝ), ∑ i, w i = 1 → ∀ j, (tetra1 (K := ℝ)).L (fun a => ∑ i, w i * ξ i a) j = ∑ i, w i * tetra1.L (ξ i) j := by
    intro w hw j
    rw [sum_fin4] at hw
    fin_cases j <;> simp only [tetra1, sum_fin4, Fin.zero_eta, Fin.mk_one, Fin.reduceFinMk, Fin.isValue, Matrix.cons_val]
    linear_combination (-1 : ℝ) * hw
  have hsum : ∀ ζ : Fin 3 → ℝ, ∑ i, (tetra1 (K := ℝ)).L ζ i = 1 := fun ζ => C01_partition_of_unity .tetra1 ζ
  have hnode : ∀ i j, (tetra1 (K := ℝ)).L (tetra1.node i) j = if j = i then 1 else 0 := by
    intro i j
    fin_cases i <;> fin_cases j <;> simp [tetra1]
  have hint : ∀ (v : Fin 4 → Fin 3 → ℝ) ζ, (tetra1 (K := ℝ)).interpolate (fun a => ∑ i, tetra1.L ζ i * ξ i a) v =
      tetra1.interpolate ζ fun i => tetra1.interpolate (ξ i) v := by
    intro v ζ
    funext a
    simp only [Elem.interpolate, hL _ (hsum ζ), Finset.mul_sum, Finset.sum_mul]
    rw [Finset.sum_comm]
    refine Finset.sum_congr rfl fun i _ => Finset.sum_congr rfl fun j _ => by ring
  refine ⟨e, fun ζ a => ∑ i, tetra1.L ζ i * ξ i a, fun ζ hζ => ⟨⟨fun a => ?_, ?_⟩, ?_⟩, fun v ζ => ?_⟩
  · have h0 : ∀ i, 0 ≤ (tetra1 (K := ℝ)).L ζ i := by
      have hs : ζ 0 + ζ 1 + ζ 2 ≤ 1 := by
        have := hζ.2
        rwa [sum_fin3] at this
      intro i
      fin_cases i <;> simp only [tetra1, Fin.zero_eta, Fin.mk_one, Fin.reduceFinMk, Fin.isValue, Matrix.cons_val]
      · linarith
      · exact hζ.1 0
      · exact hζ.1 1
      · exact hζ.1 2
    exact Finset.sum_nonneg fun i _ => mul_nonneg (h0 i) ((hξm i).1 a)
  · have h0 : ∀ i, 0 ≤ (tetra1 (K := ℝ)).L ζ i := by
      have hs : ζ 0 + ζ 1 + ζ 2 ≤ 1 := by
        have := hζ.2
        rwa [sum_fin3] at this
      intro i
      fin_cases i <;> simp only [tetra1, Fin.zero_eta, Fin.mk_one, Fin.reduceFinMk, Fin.isValue, Matrix.cons_val]
      · linarith
      · exact hζ.1 0
      · exact hζ.1 1
      · exact hζ.1 2
    rw [Finset.sum_comm]
    simp only [← Finset.mul_sum]
    rw [← hsum ζ]
    exact Finset.sum_le_sum fun i _ => mul_le_of_le_one_right (h0 i) (hξm i).2
  · exact (hint _ ζ).trans (congrArg _ (funext fun i => hξw i))
  · refine (hint v ζ).trans (congrArg _ (funext fun i => ?_))
    show _ = (tetra1 (K := ℝ)).interpolate _ _
    congr 1
    funext a
    have : ∀ j, (tetra1 (K := ℝ)).L (CorotClass.tetra.elem.node i) j = if j = i then 1 else 0 := hnode i
    simp [this]

/-- A tetrahedron held at three nodes, and the two tetrahedra obtained when its edge to the fourth is cut in the middle. -/
example : RefinedBy (N := 4) .tetra (fun (_ : Fin 1) (i : Fin 4) => i) (tetra1 (K := ℝ)).node {0, 2, 3} .tetra (![![0, 4, 2, 3], ![4, 1, 2, 3]] : Fin 2 → Fin 4 → Fin 5)
    ![![0, 0, 0], ![1, 0, 0], ![0, 1, 0], ![0, 0, 1], ![1 / 2, 0, 0]] {0, 2, 3} := by
  have hw : ∀ ξ, (tetra1 (K := ℝ)).worldCoordinates (fun i => tetra1.node i) ξ = ξ := by
    intro ξ
    funext a
    fin_cases a <;> simp [Elem.worldCoordinates, Elem.interpolate, Fin.sum_univ_four, tetra1]
  refine C135_tetra (fun V e ξ _ e' ξ' _ h => ?_) (fun e' => ⟨0, fun i' => ⟨_, ?_, hw _⟩⟩) fun p hp => ⟨0, _, ?_, hw _, fun i hi => ?_⟩
  · have h1 : ξ = ξ' := (hw ξ).symm.trans (Eq.trans h (hw ξ'))
    rw [h1]
  · refine ⟨fun a => ?_, ?_⟩ <;> fin_cases e' <;> fin_cases i' <;> first | (fin_cases a <;> simp) | (simp [Fin.sum_univ_three] <;> norm_num)
  · simp only [Set.mem_insert_iff, Set.mem_singleton_iff] at hp
    rcases hp with rfl | rfl | rfl
    all_goals refine ⟨fun a => ?_, ?_⟩ <;> first | (fin_cases a <;> simp) | simp [Fin.sum_univ_three]
  · simp only [Set.mem_insert_iff, Set.mem_singleton_iff] at hp
    rcases hp with rfl | rfl | rfl <;> fin_cases i <;> simp [tetra1] at hi ⊢

/-- **C135 (hexahedra).** A mesh of hexahedra refines a mesh of hexahedra without hanging nodes when each of its hexahedra is cut out of a coarse one parallel to its sides, and when its held nodes are on
sides, edges or nodes of the coarse mesh which are held. -/
theorem C135_hexa {N M N' M' : ℕ} {idx : Fin M → Fin 8 → Fin N} {X : Fin N → Fin 3 → ℝ} {idx' : Fin M' → Fin 8 → Fin N'} {X' : Fin N' → Fin 3 → ℝ}
    (hsv : SingleValued .hexa idx X) {fixed : Set (Fin N)} {fixed' : Set (Fin N')}
    (hin : ∀ e', ∃ e, ∃ b c : Fin 3 → ℝ, ∀ i', (fun a => b a + c a * hexa1.node i' a) ∈ canonicalSet .cube 3 ∧
      hexa1.worldCoordinates (fun i => X (idx e i)) (fun a => b a + c a * hexa1.node i' a) = X' (idx' e' i'))
    (hfix : ∀ p ∈ fixed', ∃ e, ∃ ξ ∈ canonicalSet .cube 3, hexa1.worldCoordinates (fun i => X (idx e i)) ξ = X' p ∧ ∀ i, hexa1.L ξ i ≠ 0 → idx e i ∈ fixed) :
    RefinedBy .hexa idx X fixed .hexa idx' X' fixed' := by
  refine nested_generic hsv (fun e' => ?_) hfix
  obtain ⟨e, b, c, hbc⟩ := hin e'
  have hL : ∀ (ζ : Fin 3 → ℝ) i, (hexa1 (K := ℝ)).L (fun a => b a + c a * ζ a) i = ∑ j, hexa1.L (fun a => b a + c a * hexa1.node j a) i * hexa1.L ζ j := by
    intro ζ i
    rw [Fin.sum_univ_eight]
    fin_cases i <;> simp only [hexa1, Fin.zero_eta, Fin.mk_one, Fin.reduceFinMk, Fin.isValue, Matrix.cons_val] <;> ring
  have hint : ∀ (v : Fin 8 → Fin 3 → ℝ) ζ, (hexa1 (K := ℝ)).interpolate (fun a => b a + c a * ζ a) v =
      hexa1.interpolate ζ fun j => hexa1.interpolate (fun a => b a + c a * hexa1.node j a) v := by
    intro v ζ
    funext a
    simp only [Elem.interpolate, Finset.sum_mul]
    rw [Finset.sum_comm]
    refine Finset.sum_congr rfl fun i _ => ?_
    rw [hL, Finset.mul_sum]
    exact Finset.sum_congr rfl fun j _ => by ring
  refine ⟨e, fun ζ a => b a + c a * ζ a, fun ζ hζ => ⟨fun a => ?_, ?_⟩, hint⟩
  · have h0 := (hbc 0).1 a
    have h6 := (hbc 6).1 a
    have hn : ((hexa1 (K := ℝ)).node 0 a = -1) ∧ (hexa1 (K := ℝ)).node 6 a = 1 := by
      fin_cases a <;> simp [hexa1]
    simp only [hn.1] at h0
    simp only [hn.2] at h6
    have hz := hζ a
    show -1 ≤ b a + c a * ζ a ∧ b a + c a * ζ a ≤ 1
    constructor <;> rcases le_total 0 (c a) with hc | hc <;> nlinarith [h0.1, h0.2, h6.1, h6.2, hz.1, hz.2]
  · exact (hint _ ζ).trans (congrArg _ (funext fun j => (hbc j).2))

/-! ### Grids -/

/-- Linear interpolation between the integers `c` and `c + 1`. -/
def lerp (f : ℤ → ℝ) (c : ℤ) (s : ℝ) : ℝ := (1 - s) * f c + s * f (c + 1)

theorem lerp_same (f : ℤ → ℝ) {c c' : ℤ} {s s' : ℝ} (h0 : 0 ≤ s) (h1 : s ≤ 1) (h0' : 0 ≤ s') (h1' : s' ≤ 1) (h : (c : ℝ) + s = c' + s') :
    lerp f c s = lerp f c' s' := by
  have k1 : c - c' ≤ 1 := by
    have : ((c - c' : ℤ) : ℝ) ≤ 1 := by push_cast; linarith
    exact_mod_cast this
  have k2 : c' - c ≤ 1 := by
    have : ((c' - c : ℤ) : ℝ) ≤ 1 := by push_cast; linarith
    exact_mod_cast this
  have k3 : c = c' ∨ c = c' + 1 ∨ c' = c + 1 := by omega
  rcases k3 with k | k | k
  · subst k
    have : s = s' := by linarith
    rw [this]
  · subst k
    push_cast at h
    have e1 : s = 0 := by linarith
    have e2 : s' = 1 := by linarith
    rw [e1, e2, lerp, lerp]
    ring
  · subst k
    push_cast at h
    have e1 : s = 1 := by linarith
    have e2 : s' = 0 := by linarith
    rw [e1, e2, lerp, lerp]
    ring

theorem lerp3_same (W : ℤ → ℤ → ℤ → ℝ) {c c' : Fin 3 → ℤ} {s s' : Fin 3 → ℝ} (h : ∀ a, 0 ≤ s a ∧ s a ≤ 1) (h' : ∀ a, 0 ≤ s' a ∧ s' a ≤ 1) (k : ∀ a, (c a : ℝ) + s a = c' a + s' a) :
    lerp (fun x => lerp (fun y => lerp (fun z => W x y z) (c 2) (s 2)) (c 1) (s 1)) (c 0) (s 0) =
      lerp (fun x => lerp (fun y => lerp (fun z => W x y z) (c' 2) (s' 2)) (c' 1) (s' 1)) (c' 0) (s' 0) := by
  have e2 : ∀ f, lerp f (c 2) (s 2) = lerp f (c' 2) (s' 2) := fun f => lerp_same f (h 2).1 (h 2).2 (h' 2).1 (h' 2).2 (k 2)
  have e1 : ∀ f, lerp f (c 1) (s 1) = lerp f (c' 1) (s' 1) := fun f => lerp_same f (h 1).1 (h 1).2 (h' 1).1 (h' 1).2 (k 1)
  have e0 : ∀ f, lerp f (c 0) (s 0) = lerp f (c' 0) (s' 0) := fun f => lerp_same f (h 0).1 (h 0).2 (h' 0).1 (h' 0).2 (k 0)
  simp only [e2, e1, e0]

theorem grid_affine (g : Grid 3 ℝ) (hf : Fits g.n) (e : Fin g.numberOfCells.toNat) (i : Fin 8) :
    g.node (g.cellNodes hf e i) = (fun a => g.anchor a + (g.cellCoordinatesAt e a + 1 / 2) * g.H a) + (Matrix.diagonal fun a => g.H a / 2).mulVec (hexa1.node i) := by
  funext a
  obtain ⟨h1, _, _, h4⟩ := C25_3d g hf e (by omega) (by omega)
  refine (Eq.trans (congrArg (fun z => g.node z a) (Int.toNat_of_nonneg (h1 i).1)) (h4 i a)).trans ?_
  rw [Pi.add_apply, Matrix.mulVec_diagonal]
  simp only [gridPoint]
  ring

theorem grid_world (g : Grid 3 ℝ) (hf : Fits g.n) (e : Fin g.numberOfCells.toNat) (ξ : Fin 3 → ℝ) (a : Fin 3) :
    (hexa1 (K := ℝ)).worldCoordinates (fun i => g.node (g.cellNodes hf e i)) ξ a = g.anchor a + (g.cellCoordinatesAt e a + (1 + ξ a) / 2) * g.H a := by
  rw [hexa_good.straight _ _ _ (grid_affine g hf e) ξ, Pi.add_apply, Matrix.mulVec_diagonal]
  ring

theorem grid_straight (g : Grid 3 ℝ) (hf : Fits g.n) (hH : ∀ a, 0 < g.H a) : Straight (CorotClass.elem .hexa) (g.cellNodes hf) (fun p => g.node p) 0 0 := fun e =>
  ⟨_, _, by rw [Matrix.det_diagonal]; exact Finset.prod_pos fun a _ => half_pos (hH a), fun a b => by simp, fun i => grid_affine g hf e i⟩

/-- The value at the node with the coordinates `x`, `y` and `z`. -/
noncomputable def gridValue (g : Grid 3 ℝ) (V : Fin g.numberOfNodes.toNat → Fin 3 → ℝ) (x y z : ℤ) : Fin 3 → ℝ :=
  if h : (g.nodeIndexAt ![x, y, z]).toNat < g.numberOfNodes.toNat then V ⟨_, h⟩ else 0

theorem cellNodes_val (g : Grid 3 ℝ) (hf : Fits g.n) (e : Fin g.numberOfCells.toNat) (i : Fin 8) :
    (g.cellNodes hf e i : ℕ) = (g.nodeIndicesOf3 (g.cellCoordinatesAt e) i).toNat := by
  unfold Grid.cellNodes
  rfl

theorem corner_index (g : Grid 3 ℝ) (c : Fin 3 → ℤ) (i : Fin 8) :
    g.nodeIndicesOf3 c i = g.nodeIndexAt ![c 0 + offset3 i 0, c 1 + offset3 i 1, c 2 + offset3 i 2] := by
  have e : c + offset3 i = ![c 0 + offset3 i 0, c 1 + offset3 i 1, c 2 + offset3 i 2] := by
    funext b
    fin_cases b <;> rfl
  rw [nodeIndicesOf3_eq, e]

theorem value_at {n : ℕ} (V : Fin n → Fin 3 → ℝ) (q : Fin n) (k : ℕ) (h : (q : ℕ) = k) : V q = if hk : k < n then V ⟨k, hk⟩ else 0 := by
  subst h
  rw [dif_pos q.2]

theorem gridValue_eq (g : Grid 3 ℝ) (hf : Fits g.n) (V : Fin g.numberOfNodes.toNat → Fin 3 → ℝ) (e : Fin g.numberOfCells.toNat) (i : Fin 8) : V (g.cellNodes hf e i) =
    gridValue g V (g.cellCoordinatesAt e 0 + offset3 i 0) (g.cellCoordinatesAt e 1 + offset3 i 1) (g.cellCoordinatesAt e 2 + offset3 i 2) := by
  unfold gridValue
  exact value_at V _ _ ((cellNodes_val g hf e i).trans (congrArg Int.toNat (corner_index g _ i)))

/-- The interpolation in a cell, one axis after the other. -/
theorem grid_lerp (c : Fin 3 → ℤ) (W : ℤ → ℤ → ℤ → Fin 3 → ℝ) (ξ : Fin 3 → ℝ) (a : Fin 3) :
    (hexa1 (K := ℝ)).interpolate ξ (fun i => W (c 0 + offset3 i 0) (c 1 + offset3 i 1) (c 2 + offset3 i 2)) a =
      lerp (fun x => lerp (fun y => lerp (fun z => W x y z a) (c 2) ((1 + ξ 2) / 2)) (c 1) ((1 + ξ 1) / 2)) (c 0) ((1 + ξ 0) / 2) := by
  simp only [Elem.interpolate, Fin.sum_univ_eight, lerp, hexa1, offset3, Fin.isValue, Matrix.cons_val, add_zero]
  ring

theorem grid_single (g : Grid 3 ℝ) (hf : Fits g.n) (hH : ∀ a, 0 < g.H a) : SingleValued .hexa (g.cellNodes hf) (fun p => g.node p) := by
  intro V e ξ hξ e' ξ' hξ' h
  have k : ∀ a, (g.cellCoordinatesAt e a : ℝ) + (1 + ξ a) / 2 = g.cellCoordinatesAt e' a + (1 + ξ' a) / 2 := by
    intro a
    have h0 := congrFun h a
    have h1 := (grid_world g hf e ξ a).symm.trans (h0.trans (grid_world g hf e' ξ' a))
    exact mul_right_cancel₀ (hH a).ne' (add_left_cancel h1)
  have hs : ∀ a, (0 ≤ (1 + ξ a) / 2 ∧ (1 + ξ a) / 2 ≤ 1) := fun a => by
    have := hξ a
    constructor <;> linarith [this.1, this.2]
  have hs' : ∀ a, (0 ≤ (1 + ξ' a) / 2 ∧ (1 + ξ' a) / 2 ≤ 1) := fun a => by
    have := hξ' a
    constructor <;> linarith [this.1, this.2]
  funext a
  have hW : ∀ e ξ, (hexa1 (K := ℝ)).interpolate ξ (fun i => V (g.cellNodes hf e i)) a = _ := fun e ξ =>
    (congrArg (fun v => (hexa1 (K := ℝ)).interpolate ξ v a) (funext fun i => gridValue_eq g hf V e i)).trans (grid_lerp (g.cellCoordinatesAt e) (gridValue g V) ξ a)
  refine (hW e ξ).trans (Eq.trans ?_ (hW e' ξ').symm)
  exact lerp3_same (fun x y z => gridValue g V x y z a) (s := fun a => (1 + ξ a) / 2) (s' := fun a => (1 + ξ' a) / 2) hs hs' k

/-- The position along the axis `b.1` of a side of the box of the grid, the lower or the upper one. -/
noncomputable def Grid.sidePosition (g : Grid 3 ℝ) (b : Fin 3 × Bool) : ℝ := if b.2 then g.anchor b.1 + g.size b.1 else g.anchor b.1

/-- The nodes on some sides of the box of the grid. -/
def Grid.sideNodesOf (g : Grid 3 ℝ) (B : Set (Fin 3 × Bool)) : Set (Fin g.numberOfNodes.toNat) := {p | ∃ b ∈ B, g.node p b.1 = g.sidePosition b}

theorem grid_node_mem (g : Grid 3 ℝ) (hf : Fits g.n) (hn : ∀ a, 0 < g.n a) (hs : ∀ a, 0 < g.size a) (p : Fin g.numberOfNodes.toNat) :
    g.node p ∈ Set.Icc g.anchor fun a => g.anchor a + g.size a := by
  have h := (C23_index (Or.inr (Or.inr rfl)) g hf p (by omega) (by omega)).1
  have hH : ∀ a, 0 < g.H a := fun a => div_pos (hs a) (by exact_mod_cast hn a)
  have e : ∀ a, g.size a = g.n a * g.H a := fun a => by
    have : (g.n a : ℝ) ≠ 0 := by exact_mod_cast (hn a).ne'
    rw [Grid.H, mul_div_cancel₀ _ this]
  have e1 : ∀ a, g.node p a = g.anchor a + g.nodeCoordinatesAt p a * g.H a := fun a => rfl
  have h1 : ∀ a, (0 : ℝ) ≤ g.nodeCoordinatesAt p a ∧ (g.nodeCoordinatesAt p a : ℝ) ≤ g.n a := fun a => ⟨by exact_mod_cast (h a).1, by exact_mod_cast (h a).2⟩
  constructor <;> intro a <;> simp only [e1, e]
  · have := mul_nonneg (h1 a).1 (hH a).le
    linarith
  · have := mul_le_mul_of_nonneg_right (h1 a).2 (hH a).le
    linarith

/-- **C135 (grids).** A grid with several cells along each axis for each cell of another grid of the same box refines it, when the nodes on the same sides of the box are held. -/
theorem C135_grids (g g' : Grid 3 ℝ) (hf : Fits g.n) (hf' : Fits g'.n) (hn : ∀ a, 0 < g.n a) (hn' : ∀ a, 0 < g'.n a) (hs : ∀ a, 0 < g.size a) (ha : g'.anchor = g.anchor) (hsz : g'.size = g.size)
    (k : Fin 3 → ℕ) (hk : ∀ a, g'.n a = k a * g.n a) (B : Set (Fin 3 × Bool)) :
    RefinedBy .hexa (g.cellNodes hf) (fun p => g.node p) (g.sideNodesOf B) .hexa (g'.cellNodes hf') (fun p => g'.node p) (g'.sideNodesOf B) := by
  have hH : ∀ a, 0 < g.H a := fun a => div_pos (hs a) (by exact_mod_cast hn a)
  have hk0 : ∀ a, 0 < k a := fun a => Nat.pos_of_ne_zero fun h => by
    have := hn' a
    rw [hk, h, zero_mul] at this
    exact lt_irrefl _ this
  have hkr : ∀ a, (0 : ℝ) < k a := fun a => by exact_mod_cast hk0 a
  have hH' : ∀ a, g'.H a * k a = g.H a := fun a => by
    have h1 : (g.n a : ℝ) ≠ 0 := by exact_mod_cast (hn a).ne'
    have h2 := (hkr a).ne'
    rw [Grid.H, Grid.H, hsz, hk]
    push_cast
    field_simp
  obtain ⟨hc, hi, hsur⟩ := cells_enumerated (Or.inr (Or.inr rfl)) g hf
  obtain ⟨hc', hi', hsur'⟩ := cells_enumerated (Or.inr (Or.inr rfl)) g' hf'
  refine C135_hexa (grid_single g hf hH) (fun e' => ?_) (fun p hp => ?_)
  · have hcell : IsCell g.n fun a => g'.cellCoordinatesAt e' a / k a := by
      intro a
      have := hc' e' a
      have hka : (0 : ℤ) < k a := by exact_mod_cast hk0 a
      refine ⟨Int.ediv_nonneg this.1 hka.le, Int.ediv_lt_of_lt_mul hka ?_⟩
      have h2 := this.2
      rw [hk] at h2
      push_cast at h2
      linarith
    obtain ⟨e, he⟩ := hsur _ hcell
    refine ⟨e, fun a => (2 * ((g'.cellCoordinatesAt e' a % k a : ℤ) : ℝ) + 1) / k a - 1, fun a => 1 / k a, fun i' => ?_⟩
    have hr : ∀ a, (0 : ℝ) ≤ ((g'.cellCoordinatesAt e' a % k a : ℤ) : ℝ) ∧ ((g'.cellCoordinatesAt e' a % k a : ℤ) : ℝ) + 1 ≤ k a := by
      intro a
      have hka : (0 : ℤ) < k a := by exact_mod_cast hk0 a
      have h1 := Int.emod_nonneg (g'.cellCoordinatesAt e' a) hka.ne'
      have h2 := Int.emod_lt_of_pos (g'.cellCoordinatesAt e' a) hka
      have h3 : g'.cellCoordinatesAt e' a % k a + 1 ≤ k a := h2
      exact ⟨by exact_mod_cast h1, by exact_mod_cast h3⟩
    have hd : ∀ a, (g'.cellCoordinatesAt e' a : ℝ) = k a * ((g'.cellCoordinatesAt e' a / k a : ℤ) : ℝ) + ((g'.cellCoordinatesAt e' a % k a : ℤ) : ℝ) := by
      intro a
      have := (Int.mul_ediv_add_emod (g'.cellCoordinatesAt e' a) (k a)).symm
      exact_mod_cast this
    have hnode : ∀ a, -1 ≤ (hexa1 (K := ℝ)).node i' a ∧ (hexa1 (K := ℝ)).node i' a ≤ 1 := node_mem_canonical .hexa1 i'
    constructor
    · intro a
      have := hr a
      have h1 := hnode a
      have h2 := hkr a
      have e1 : (2 * ((g'.cellCoordinatesAt e' a % k a : ℤ) : ℝ) + 1) / k a - 1 + 1 / k a * hexa1.node i' a =
          (2 * ((g'.cellCoordinatesAt e' a % k a : ℤ) : ℝ) + 1 + hexa1.node i' a) / k a - 1 := by ring
      show -1 ≤ _ ∧ _ ≤ (1 : ℝ)
      simp only [e1]
      constructor
      · have : 0 ≤ (2 * ((g'.cellCoordinatesAt e' a % k a : ℤ) : ℝ) + 1 + hexa1.node i' a) / k a := div_nonneg (by linarith) h2.le
        linarith
      · have : (2 * ((g'.cellCoordinatesAt e' a % k a : ℤ) : ℝ) + 1 + hexa1.node i' a) / k a ≤ 2 := by
          rw [div_le_iff₀ h2]
          linarith
        linarith
    · funext a
      rw [grid_world, congrFun (grid_affine g' hf' e' i') a, Pi.add_apply, Matrix.mulVec_diagonal, he, ha, hd a, ← hH' a]
      have h2 := (hkr a).ne'
      field_simp
      ring
  · obtain ⟨b, hb, hpb⟩ := hp
    have hΩ : g'.node p ∈ Set.Icc g.anchor fun a => g.anchor a + g.size a := by
      have := grid_node_mem g' hf' hn' (fun a => by rw [hsz]; exact hs a) p
      rwa [ha, hsz] at this
    obtain ⟨hm, -⟩ := C123_grid g hf hn hs (g.H 0 + g.H 1 + g.H 2) ((g.H 0 + g.H 1 + g.H 2) / g.H 0 + (g.H 0 + g.H 1 + g.H 2) / g.H 1 + (g.H 0 + g.H 1 + g.H 2) / g.H 2) (by have := hH 0; have := hH 1; have := hH 2; positivity)
      (fun a => by have := hH 0; have := hH 1; have := hH 2; fin_cases a <;> simp only [Fin.zero_eta, Fin.mk_one, Fin.reduceFinMk] <;> linarith)
      (fun a => by
        have p0 := hH 0; have p1 := hH 1; have p2 := hH 2
        have q0 : 0 < g.H 0 + g.H 1 + g.H 2 := by positivity
        have e0 := div_pos q0 p0; have e1 := div_pos q0 p1; have e2 := div_pos q0 p2
        have m0 := div_mul_cancel₀ (g.H 0 + g.H 1 + g.H 2) p0.ne'
        have m1 := div_mul_cancel₀ (g.H 0 + g.H 1 + g.H 2) p1.ne'
        have m2 := div_mul_cancel₀ (g.H 0 + g.H 1 + g.H 2) p2.ne'
        fin_cases a <;> simp only [Fin.zero_eta, Fin.mk_one, Fin.reduceFinMk] <;> nlinarith)
    have hfill := Spec.MeshOf.fills (T := .hexa1) hm
    rw [← hfill] at hΩ
    obtain ⟨e, ξ, hξ, hw⟩ := Set.mem_iUnion.1 hΩ
    have hξ' : ∀ a, -1 ≤ ξ a ∧ ξ a ≤ 1 := hξ
    refine ⟨e, ξ, hξ, hw, fun i hi => ⟨b, hb, ?_⟩⟩
    have hwb := (grid_world g hf e ξ b.1).symm.trans (congrFun hw b.1)
    rw [hpb, Grid.sidePosition, ha, hsz] at hwb
    have hcb := hc e b.1
    have hx := hξ' b.1
    have hnode : ∀ (a : Fin 3), (ξ a = -1 → (hexa1 (K := ℝ)).node i a = -1) ∧ (ξ a = 1 → (hexa1 (K := ℝ)).node i a = 1) := by
      intro a
      constructor <;> intro hξa <;> by_contra hno <;> refine hi ?_ <;> fin_cases a <;> fin_cases i <;>
        simp only [hexa1, Fin.zero_eta, Fin.mk_one, Fin.reduceFinMk, Fin.isValue, Matrix.cons_val] at hξa hno ⊢ <;>
        first
          | exact absurd rfl hno
          | exact absurd trivial hno
          | (rw [hξa]; ring)
    have hcr : (0 : ℝ) ≤ g.cellCoordinatesAt e b.1 ∧ (g.cellCoordinatesAt e b.1 : ℝ) + 1 ≤ g.n b.1 := by
      have h2 : g.cellCoordinatesAt e b.1 + 1 ≤ g.n b.1 := hcb.2
      exact ⟨by exact_mod_cast hcb.1, by exact_mod_cast h2⟩
    have hsize : g.size b.1 = g.n b.1 * g.H b.1 := by
      have : (g.n b.1 : ℝ) ≠ 0 := by exact_mod_cast (hn b.1).ne'
      rw [Grid.H, mul_div_cancel₀ _ this]
    show g.node (g.cellNodes hf e i) b.1 = _
    rw [congrFun (grid_affine g hf e i) b.1, Pi.add_apply, Matrix.mulVec_diagonal, Grid.sidePosition]
    cases hb2 : b.2
    · rw [hb2] at hwb
      simp only [Bool.false_eq_true, if_false] at hwb ⊢
      have h0 : (g.cellCoordinatesAt e b.1 + (1 + ξ b.1) / 2) * g.H b.1 = 0 := by linarith
      have h1 : (g.cellCoordinatesAt e b.1 : ℝ) + (1 + ξ b.1) / 2 = 0 := (mul_eq_zero.1 h0).resolve_right (hH b.1).ne'
      have h2 : ξ b.1 = -1 := by linarith [hcr.1, hx.1]
      rw [(hnode b.1).1 h2]
      have h3 : (g.cellCoordinatesAt e b.1 : ℝ) = 0 := by linarith [hcr.1, hx.1]
      rw [h3]
      ring
    · rw [hb2] at hwb
      simp only [if_true] at hwb ⊢
      have h0 : (g.cellCoordinatesAt e b.1 + (1 + ξ b.1) / 2) * g.H b.1 = g.n b.1 * g.H b.1 := by linarith
      have h1 : (g.cellCoordinatesAt e b.1 : ℝ) + (1 + ξ b.1) / 2 = g.n b.1 := mul_right_cancel₀ (hH b.1).ne' h0
      have h2 : ξ b.1 = 1 := by linarith [hcr.2, hx.2]
      rw [(hnode b.1).2 h2]
      have h3 : (g.cellCoordinatesAt e b.1 : ℝ) = g.n b.1 - 1 := by linarith [hcr.2, hx.2]
      rw [h3, hsize]
      ring

theorem grid_fine (g : Grid 3 ℝ) (hf : Fits g.n) (hn : ∀ a, 0 < g.n a) (hs : ∀ a, 0 < g.size a) :
    CorotClass.MeshOf (Set.Icc g.anchor fun a => g.anchor a + g.size a) (g.H 0 + g.H 1 + g.H 2) (fun p => g.node p) .hexa (g.cellNodes hf) := by
  have hH : ∀ a, 0 < g.H a := fun a => div_pos (hs a) (by exact_mod_cast hn a)
  exact (C123_grid g hf hn hs (g.H 0 + g.H 1 + g.H 2) ((g.H 0 + g.H 1 + g.H 2) / g.H 0 + (g.H 0 + g.H 1 + g.H 2) / g.H 1 + (g.H 0 + g.H 1 + g.H 2) / g.H 2)
      (by have := hH 0; have := hH 1; have := hH 2; positivity)
      (fun a => by have := hH 0; have := hH 1; have := hH 2; fin_cases a <;> simp only [Fin.zero_eta, Fin.mk_one, Fin.reduceFinMk] <;> linarith)
      (fun a => by
        have p0 := hH 0; have p1 := hH 1; have p2 := hH 2
        have q0 : 0 < g.H 0 + g.H 1 + g.H 2 := by positivity
        have e0 := div_pos q0 p0; have e1 := div_pos q0 p1; have e2 := div_pos q0 p2
        have m0 := div_mul_cancel₀ (g.H 0 + g.H 1 + g.H 2) p0.ne'
        have m1 := div_mul_cancel₀ (g.H 0 + g.H 1 + g.H 2) p1.ne'
        have m2 := div_mul_cancel₀ (g.H 0 + g.H 1 + g.H 2) p2.ne'
        fin_cases a <;> simp only [Fin.zero_eta, Fin.mk_one, Fin.reduceFinMk] <;> nlinarith)).1

theorem offset_exists : ∀ x y z : Fin 2, ∃ i, offset3 i 0 = (x : ℕ) ∧ offset3 i 1 = (y : ℕ) ∧ offset3 i 2 = (z : ℕ) := by decide

/-- Every node of a grid is a node of one of its cells. -/
theorem grid_covered (g : Grid 3 ℝ) (hf : Fits g.n) (hn : ∀ a, 0 < g.n a) (p : Fin g.numberOfNodes.toNat) : ∃ e i, g.cellNodes hf e i = p := by
  obtain ⟨h1, h2⟩ := C23_index (Or.inr (Or.inr rfl)) g hf p (by omega) (by omega)
  obtain ⟨-, -, hsur⟩ := cells_enumerated (Or.inr (Or.inr rfl)) g hf
  obtain ⟨e, he⟩ := hsur (fun a => min (g.nodeCoordinatesAt p a) (g.n a - 1)) fun a => by
    have := h1 a
    have := hn a
    constructor <;> simp only [] <;> omega
  have hd : ∀ a, ∃ x : Fin 2, g.nodeCoordinatesAt p a - min (g.nodeCoordinatesAt p a) (g.n a - 1) = (x : ℕ) := by
    intro a
    have k1 := h1 a
    have k2 := hn a
    rcases le_or_gt (g.nodeCoordinatesAt p a) (g.n a - 1) with h | h
    · exact ⟨0, by rw [min_eq_left h]; simp⟩
    · refine ⟨1, ?_⟩
      rw [min_eq_right h.le]
      have := k1.2
      show _ = ((1 : ℕ) : ℤ)
      omega
  obtain ⟨x, hx⟩ := hd 0
  obtain ⟨y, hy⟩ := hd 1
  obtain ⟨z, hz⟩ := hd 2
  obtain ⟨i, hi0, hi1, hi2⟩ := offset_exists x y z
  refine ⟨e, i, Fin.ext ?_⟩
  have hc : g.cellCoordinatesAt e + offset3 i = g.nodeCoordinatesAt p := by
    rw [he]
    funext a
    simp only [Pi.add_apply]
    fin_cases a <;> simp only [Fin.zero_eta, Fin.mk_one, Fin.reduceFinMk] <;> omega
  rw [cellNodes_val, nodeIndicesOf3_eq, hc, h2]
  exact Int.toNat_natCast _

/-- **C135 (grid deflection).** A box held at some of its sides, and a force on a node which is in both grids: the displacement of the node in the direction of the force is at least as large
on the grid with several cells for each cell of the other. -/
theorem C135_box {d : CorotData} (hc : d.corotated = false) (hm : d.method = .regular) (h1 : 0 < d.young) (h2 : -1 < d.poisson) (h3 : d.poisson < 1 / 2)
    (g g' : Grid 3 ℝ) (hf : Fits g.n) (hf' : Fits g'.n) (hn : ∀ a, 0 < g.n a) (hs : ∀ a, 0 < g.size a) (ha : g'.anchor = g.anchor) (hsz : g'.size = g.size)
    (k : Fin 3 → ℕ) (hk0 : ∀ a, 0 < k a) (hk : ∀ a, g'.n a = k a * g.n a) (B : Set (Fin 3 × Bool))
    (p : Fin g.numberOfNodes.toNat) (p' : Fin g'.numberOfNodes.toNat) (hp : g'.node p' = g.node p) (f : Fin 3 → ℝ)
    (U : Fin g.numberOfNodes.toNat → Fin 3 → ℝ) (hU : ∀ q ∈ g.sideNodesOf B, U q = 0)
    (heq : ∀ q, q ∉ g.sideNodesOf B → netForce .hexa d (g.cellNodes hf) (fun q => g.node q) U (Pi.single p f) q = 0)
    (U' : Fin g'.numberOfNodes.toNat → Fin 3 → ℝ) (hU' : ∀ q ∈ g'.sideNodesOf B, U' q = 0)
    (heq' : ∀ q, q ∉ g'.sideNodesOf B → netForce .hexa d (g'.cellNodes hf') (fun q => g'.node q) U' (Pi.single p' f) q = 0) :
    f ⬝ᵥ U p ≤ f ⬝ᵥ U' p' := by
  have hn' : ∀ a, 0 < g'.n a := fun a => by
    rw [hk]
    exact Nat.mul_pos (hk0 a) (hn a)
  have hs' : ∀ a, 0 < g'.size a := fun a => by
    rw [hsz]
    exact hs a
  have m' := grid_fine g' hf' hn' hs'
  rw [ha, hsz] at m'
  obtain ⟨e, i, rfl⟩ := grid_covered g hf hn p
  obtain ⟨e', i', rfl⟩ := grid_covered g' hf' hn' p'
  exact C135_point (C := .hexa) (C' := .hexa) hc hm h1 h2 h3 (grid_fine g hf hn hs) m' (grid_straight g hf fun a => div_pos (hs a) (by exact_mod_cast hn a))
    (grid_straight g' hf' fun a => div_pos (hs' a) (by exact_mod_cast hn' a)) (C135_grids g g' hf hf' hn hn' hs ha hsz k hk B) e i e' i' hp f U hU heq U' hU' heq'

end Caribou
