import Verif.Spec.LinearStatics
import Verif.Props.BoxSolution
import Verif.Props.Energy

/-!
# C136: linear static solutions superpose, are reciprocal and have the least energy
-/

set_option autoImplicit false
set_option linter.all false

namespace Caribou

open Spec Matrix

section Form

variable {N M : ℕ} (C : CorotClass) (d : CorotData) (idx : Fin M → Fin C.nodes → Fin N) (X : Fin N → Fin 3 → ℝ)

theorem class_points :
    CorotReady (CorotClass.reinitState d X C (CorotState.fresh idx)) (elasticityMatrix d.young d.poisson) ∧
    (∀ e, (CorotClass.reinitState d X C (CorotState.fresh idx)).qnodes e = (energyPoints C d.method).map (signedGaussNodeOf C.elem fun i => X (idx e i))) ∧
    (CorotClass.reinitState d X C (CorotState.fresh idx)).idx = idx ∧
    (∀ e, (CorotClass.reinitState d X C (CorotState.fresh idx)).currentRotation e = 1) := by
  cases C
  · exact ⟨reinitTetra_ready _ _ _ _ _, fun e => rfl, rfl, fun e => rfl⟩
  · exact ⟨⟨elasticityMatrix_symm _ _, fun _ => rfl, (HexaHistory.fresh.reinit _ d.corotated d.young d.poisson d.method X).inv.2.1⟩, fun e => rfl, rfl, fun e => rfl⟩

/-- The work of the internal forces of the displacement `U` on the displacement `V`. -/
noncomputable def innerWork (U V : Fin N → Fin 3 → ℝ) : ℝ := -power (netForce C d idx X U 0) V

variable {C d idx X}

theorem netForce_matrix (hc : d.corotated = false) (U F : Fin N → Fin 3 → ℝ) (p : Fin N) (a : Fin 3) :
    netForce C d idx X U F p a = F p a - ∑ q : Dof N, (CorotClass.reinitState d X C (CorotState.fresh idx)).stiffnessOf (p, a) q * U q.1 q.2 := by
  obtain ⟨r1, r2, r3, r4⟩ := class_points C d idx X
  have r5 := class_initial C d hc idx X
  unfold netForce
  rw [hc, linear_force _ r1 r4 r5 C.frame X U F, CorotState.addDForce_factor r1]
  simp only [one_mul]

theorem power_sum (f v : Fin N → Fin 3 → ℝ) : power f v = ∑ q : Dof N, f q.1 q.2 * v q.1 q.2 := by
  rw [power, Fintype.sum_prod_type]
  rfl

theorem power_netForce (hc : d.corotated = false) (U F V : Fin N → Fin 3 → ℝ) :
    power (netForce C d idx X U F) V = power F V - innerWork C d idx X U V := by
  rw [innerWork, sub_neg_eq_add, power_sum, power_sum, power_sum, ← Finset.sum_add_distrib]
  refine Finset.sum_congr rfl fun q _ => ?_
  rw [netForce_matrix hc U F, netForce_matrix hc U 0]
  simp only [Pi.zero_apply]
  ring

theorem innerWork_sum (hc : d.corotated = false) (U V : Fin N → Fin 3 → ℝ) : innerWork C d idx X U V =
    ∑ p : Dof N, ∑ q : Dof N, V p.1 p.2 * (CorotClass.reinitState d X C (CorotState.fresh idx)).stiffnessOf p q * U q.1 q.2 := by
  rw [innerWork, power_sum, ← Finset.sum_neg_distrib]
  refine Finset.sum_congr rfl fun p _ => ?_
  rw [netForce_matrix hc U 0]
  simp only [Pi.zero_apply, zero_sub, neg_mul, neg_neg, Finset.sum_mul]
  exact Finset.sum_congr rfl fun q _ => by ring

theorem stiffnessOf_symm (p q : Dof N) : (CorotClass.reinitState d X C (CorotState.fresh idx)).stiffnessOf p q =
    (CorotClass.reinitState d X C (CorotState.fresh idx)).stiffnessOf q p := by
  obtain ⟨r1, -⟩ := class_points C d idx X
  rw [CorotState.stiffnessOf, CorotState.stiffnessOf, symmetric_generic r1]

theorem innerWork_comm (hc : d.corotated = false) (U V : Fin N → Fin 3 → ℝ) : innerWork C d idx X U V = innerWork C d idx X V U := by
  rw [innerWork_sum hc, innerWork_sum hc, Finset.sum_comm]
  refine Finset.sum_congr rfl fun p _ => Finset.sum_congr rfl fun q _ => ?_
  rw [stiffnessOf_symm q p]
  ring

theorem innerWork_line (hc : d.corotated = false) (U W V : Fin N → Fin 3 → ℝ) (t : ℝ) :
    innerWork C d idx X (U + t • W) V = innerWork C d idx X U V + t * innerWork C d idx X W V := by
  rw [innerWork_sum hc, innerWork_sum hc, innerWork_sum hc, Finset.mul_sum, ← Finset.sum_add_distrib]
  refine Finset.sum_congr rfl fun p _ => ?_
  rw [Finset.mul_sum, ← Finset.sum_add_distrib]
  refine Finset.sum_congr rfl fun q _ => ?_
  simp only [Pi.add_apply, Pi.smul_apply, smul_eq_mul]
  ring

theorem innerWork_self (hc : d.corotated = false) (U : Fin N → Fin 3 → ℝ) : innerWork C d idx X U U = 2 * bodyEnergy C d idx X U := by
  obtain ⟨r1, r2, r3, r4⟩ := class_points C d idx X
  have r5 := class_initial C d hc idx X
  have h := corot_work r1 r4 r5 C.frame X U 0 U
  have h0 : power (0 : Fin N → Fin 3 → ℝ) U = 0 := by simp [power]
  have h1 : innerWork C d idx X U U = ∑ e, (((CorotClass.reinitState d X C (CorotState.fresh idx)).qnodes e).map fun q => (q.detJ * q.weight) *
      strainWork (lameL d.young d.poisson) (lameMu d.young d.poisson) (deformationGradient q.dN fun i => U ((CorotClass.reinitState d X C (CorotState.fresh idx)).idx e i))
        (deformationGradient q.dN fun i => U ((CorotClass.reinitState d X C (CorotState.fresh idx)).idx e i))).sum := by
    rw [innerWork, netForce, hc, h, h0, zero_sub, neg_neg]
  rw [h1, bodyEnergy, Finset.mul_sum]
  refine Finset.sum_congr rfl fun e _ => ?_
  simp only [r2, r3, strainWork_self]
  have := signed_energy C.elem (fun i => X (idx e i)) (fun i => U (idx e i)) (energyPoints C d.method) (lameL d.young d.poisson) (lameMu d.young d.poisson)
  linarith

theorem power_line (F U W : Fin N → Fin 3 → ℝ) (t : ℝ) : power F (U + t • W) = power F U + t * power F W := by
  rw [power_sum, power_sum, power_sum, Finset.mul_sum, ← Finset.sum_add_distrib]
  exact Finset.sum_congr rfl fun q _ => by simp only [Pi.add_apply, Pi.smul_apply, smul_eq_mul]; ring

/-- The energy on a line. -/
theorem energy_line (hc : d.corotated = false) (U W : Fin N → Fin 3 → ℝ) (t : ℝ) :
    bodyEnergy C d idx X (U + t • W) = bodyEnergy C d idx X U + t * innerWork C d idx X U W + t ^ 2 * bodyEnergy C d idx X W := by
  have h := innerWork_self (C := C) (idx := idx) (X := X) hc (U + t • W)
  rw [innerWork_line hc, innerWork_comm hc U, innerWork_comm hc W, innerWork_line hc, innerWork_line hc, innerWork_self hc, innerWork_self hc, innerWork_comm hc W U] at h
  linarith

theorem weights_nonneg (C : CorotClass) (m : IntegrationMethod) : ∀ g ∈ energyPoints C m, 0 ≤ g.weight := by
  cases C
  · exact fun g hg => (solid_weight_pos .tetra1 g hg).le
  · cases m
    · exact fun g hg => (solid_weight_pos .hexa1 g hg).le
    · intro g hg
      simp only [energyPoints, hexaQuadrature, List.mem_singleton] at hg
      subst hg
      norm_num

theorem elementEnergy_nonneg (hm : Admissible d.young d.poisson) (hX : NotInverted C.elem (energyPoints C d.method) idx X) (U : Fin N → Fin 3 → ℝ) (e : Fin M) :
    0 ≤ strainEnergy C.elem (energyPoints C d.method) (lameL d.young d.poisson) (lameMu d.young d.poisson) (fun i => X (idx e i)) fun i => U (idx e i) := by
  refine mul_nonneg (by norm_num) (list_sum_nonneg' _ _ fun g hg => ?_)
  exact mul_nonneg (mul_nonneg (hX e g hg) (weights_nonneg C d.method g hg)) (lameForm_nonneg hm.lame.1 hm.lame.2 _)

theorem bodyEnergy_nonneg (hm : Admissible d.young d.poisson) (hX : NotInverted C.elem (energyPoints C d.method) idx X) (U : Fin N → Fin 3 → ℝ) :
    0 ≤ bodyEnergy C d idx X U := Finset.sum_nonneg fun e _ => elementEnergy_nonneg hm hX U e

end Form

section

variable {N M : ℕ} {C : CorotClass} {d : CorotData} {idx : Fin M → Fin C.nodes → Fin N} {X : Fin N → Fin 3 → ℝ}

/-- **C136 (superposition).** The forces which remain when displacements and loads are added and scaled are the sums and multiples of those which remained: the sum of two static
solutions is the static solution for the sum of the loads, whatever the nodes which are held. -/
theorem C136_superposition (hc : d.corotated = false) (U V F G : Fin N → Fin 3 → ℝ) (s t : ℝ) :
    netForce C d idx X (s • U + t • V) (s • F + t • G) = s • netForce C d idx X U F + t • netForce C d idx X V G := by
  funext p a
  simp only [netForce_matrix hc, Pi.add_apply, Pi.smul_apply, smul_eq_mul]
  have : ∀ K : Dof N → ℝ, ∑ q, K q * (s * U q.1 q.2 + t * V q.1 q.2) = s * ∑ q, K q * U q.1 q.2 + t * ∑ q, K q * V q.1 q.2 := by
    intro K
    rw [Finset.mul_sum, Finset.mul_sum, ← Finset.sum_add_distrib]
    exact Finset.sum_congr rfl fun q _ => by ring
  rw [this]
  ring

/-- **C136 (reciprocity).** The work of the loads of one static solution on the displacement of another one is the work of the loads of the second on the displacement of
the first. -/
theorem C136_reciprocity (hc : d.corotated = false) (fixed : Set (Fin N)) (U V F G : Fin N → Fin 3 → ℝ)
    (hU : ∀ p ∈ fixed, U p = 0) (hU2 : ∀ p, p ∉ fixed → netForce C d idx X U F p = 0)
    (hV : ∀ p ∈ fixed, V p = 0) (hV2 : ∀ p, p ∉ fixed → netForce C d idx X V G p = 0) : power F V = power G U := by
  have h1 := power_fixed hU2 hV
  have h2 := power_fixed hV2 hU
  rw [power_netForce hc] at h1 h2
  rw [innerWork_comm hc] at h2
  linarith

/-- **C136 (Maxwell).** The displacement of a node `q` in the direction `v` under a force `u` at the node `p` is the displacement of `p` in the direction `u` under the force `v` at `q`. -/
theorem C136_maxwell (hc : d.corotated = false) (fixed : Set (Fin N)) (p q : Fin N) (u v : Fin 3 → ℝ) (U V : Fin N → Fin 3 → ℝ)
    (hU : ∀ p ∈ fixed, U p = 0) (hU2 : ∀ r, r ∉ fixed → netForce C d idx X U (pointLoad p u) r = 0)
    (hV : ∀ p ∈ fixed, V p = 0) (hV2 : ∀ r, r ∉ fixed → netForce C d idx X V (pointLoad q v) r = 0) : v ⬝ᵥ U q = u ⬝ᵥ V p := by
  have h := C136_reciprocity hc fixed U V _ _ hU hU2 hV hV2
  have hp : ∀ (r : Fin N) (w : Fin 3 → ℝ) (W : Fin N → Fin 3 → ℝ), power (pointLoad r w) W = w ⬝ᵥ W r := by
    intro r w W
    rw [power, Finset.sum_eq_single r]
    · simp [pointLoad]
    · intro b _ hb
      simp [pointLoad, hb]
    · simp
  rw [hp, hp] at h
  exact h.symm

/-- **C136 (work).** Twice the elastic energy of a body which is held in place at some nodes is the work of the loads on the displacement. -/
theorem C136_work (hc : d.corotated = false) (fixed : Set (Fin N)) (U F : Fin N → Fin 3 → ℝ)
    (hU : ∀ p ∈ fixed, U p = 0) (hU2 : ∀ p, p ∉ fixed → netForce C d idx X U F p = 0) : 2 * bodyEnergy C d idx X U = power F U := by
  have h1 := power_fixed hU2 hU
  rw [power_netForce hc, innerWork_self hc] at h1
  linarith

/-- **C136 (excess).** The energy of a displacement with the same values at the held nodes exceeds that of the static solution by the elastic energy of the difference. -/
theorem C136_excess (hc : d.corotated = false) (fixed : Set (Fin N)) (U V F : Fin N → Fin 3 → ℝ)
    (hU2 : ∀ p, p ∉ fixed → netForce C d idx X U F p = 0) (hV : ∀ p ∈ fixed, V p = U p) :
    bodyEnergy C d idx X V - power F V = bodyEnergy C d idx X U - power F U + bodyEnergy C d idx X (V - U) := by
  have e : V = U + (1 : ℝ) • (V - U) := by simp
  have h1 := energy_line (C := C) (idx := idx) (X := X) hc U (V - U) 1
  have h2 := power_line F U (V - U) 1
  rw [← e] at h1 h2
  have h3 := power_fixed hU2 (V := V - U) fun p hp => by simp [hV p hp]
  rw [power_netForce hc] at h3
  linarith

/-- **C136 (least energy).** The forces on the nodes which are not held balance if and only if no displacement with the same values at the held nodes has less energy, the elastic energy minus
the work of the loads. -/
theorem C136_least (hc : d.corotated = false) (hm : Admissible d.young d.poisson) (hX : NotInverted C.elem (energyPoints C d.method) idx X)
    (fixed : Set (Fin N)) (U F : Fin N → Fin 3 → ℝ) :
    (∀ p, p ∉ fixed → netForce C d idx X U F p = 0) ↔
      ∀ V, (∀ p ∈ fixed, V p = U p) → bodyEnergy C d idx X U - power F U ≤ bodyEnergy C d idx X V - power F V := by
  classical
  constructor
  · intro h V hV
    rw [C136_excess hc fixed U V F h hV]
    linarith [bodyEnergy_nonneg (C := C) (idx := idx) hm hX (V - U)]
  · intro h p hp
    set f := netForce C d idx X U F with hf
    set W : Fin N → Fin 3 → ℝ := fun q => if q = p then f p else 0 with hW
    have hpow : power f W = f p ⬝ᵥ f p := by
      rw [power, Finset.sum_eq_single p]
      · simp [hW]
      · intro b _ hb
        simp [hW, hb]
      · simp
    have key : ∀ t : ℝ, 0 ≤ -(t * (f p ⬝ᵥ f p)) + t ^ 2 * bodyEnergy C d idx X W := by
      intro t
      have h1 := h (U + t • W) fun q hq => by
        have : q ≠ p := fun e => hp (e ▸ hq)
        simp [hW, this]
      rw [energy_line hc, power_line] at h1
      have h2 := power_netForce (C := C) (idx := idx) (X := X) hc U F W
      rw [← hf, hpow] at h2
      rw [h2]
      linarith
    have hE := bodyEnergy_nonneg (C := C) (idx := idx) hm hX W
    set w := f p ⬝ᵥ f p with hw
    have hw0 : 0 ≤ w := Finset.sum_nonneg fun a _ => mul_self_nonneg _
    have hz : w = 0 := by
      by_contra hne
      have hpos : 0 < w := lt_of_le_of_ne hw0 (Ne.symm hne)
      have h1 := key (w / (2 * (bodyEnergy C d idx X W + 1)))
      have hd : 0 < 2 * (bodyEnergy C d idx X W + 1) := by linarith
      set t := w / (2 * (bodyEnergy C d idx X W + 1)) with ht
      have htp : 0 < t := div_pos hpos hd
      have hte : t * (2 * (bodyEnergy C d idx X W + 1)) = w := div_mul_cancel₀ _ hd.ne'
      have : t * (bodyEnergy C d idx X W) * t ≤ t * (w / 2) := by
        rw [mul_assoc]
        refine mul_le_mul_of_nonneg_left ?_ htp.le
        nlinarith
      nlinarith [mul_pos htp hpos]
    exact dotProduct_self_eq_zero.1 hz

end

section

variable {N M M' : ℕ} {C C' : CorotClass} {d d' : CorotData} {idx : Fin M → Fin C.nodes → Fin N} {idx' : Fin M' → Fin C'.nodes → Fin N} {X X' : Fin N → Fin 3 → ℝ}

/-- A body which stores more energy in the same displacements and is held at more nodes gives way less to the same loads. -/
theorem stiffer_generic (hc : d.corotated = false) (hm : Admissible d.young d.poisson) (hX : NotInverted C.elem (energyPoints C d.method) idx X) (hc' : d'.corotated = false)
    (fixed fixed' : Set (Fin N)) (hfix : fixed ⊆ fixed') (hE : ∀ V, bodyEnergy C d idx X V ≤ bodyEnergy C' d' idx' X' V) (U U' F : Fin N → Fin 3 → ℝ)
    (hU : ∀ p ∈ fixed, U p = 0) (hU2 : ∀ p, p ∉ fixed → netForce C d idx X U F p = 0)
    (hU' : ∀ p ∈ fixed', U' p = 0) (hU2' : ∀ p, p ∉ fixed' → netForce C' d' idx' X' U' F p = 0) : power F U' ≤ power F U := by
  have h1 := C136_work hc fixed U F hU hU2
  have h2 := C136_work hc' fixed' U' F hU' hU2'
  have h3 := (C136_least hc hm hX fixed U F).1 hU2 U' fun p hp => by rw [hU p hp, hU' p (hfix hp)]
  have h4 := hE U'
  linarith

theorem energy_young {c : ℝ} (V : Fin N → Fin 3 → ℝ) : bodyEnergy C {d with young := c * d.young} idx X V = c * bodyEnergy C d idx X V := by
  have h1 : lameL (c * d.young) d.poisson = c * lameL d.young d.poisson := by
    rw [lameL, lameL]
    ring
  have h2 : lameMu (c * d.young) d.poisson = c * lameMu d.young d.poisson := by
    rw [lameMu, lameMu]
    ring
  have h3 : ∀ l mu (S : Mat3), lameForm (c * l) (c * mu) S = c * lameForm l mu S := by
    intro l mu S
    rw [lameForm, lameForm]
    ring
  rw [bodyEnergy, bodyEnergy, Finset.mul_sum]
  refine Finset.sum_congr rfl fun e _ => ?_
  simp only [strainEnergy, h1, h2, h3]
  rw [mul_left_comm c, list_sum_mul_left, list_sum_mul_left, list_sum_mul_left]
  refine congrArg List.sum (List.map_congr_left fun q _ => ?_)
  ring

/-- **C136 (stiffer).** A body with more elements, the same ones among them, of a material with a larger Young modulus, held at more nodes, gives way less to the same loads: their work on its
displacement is not larger. -/
theorem C136_stiffer {M : ℕ} {idx : Fin M → Fin C.nodes → Fin N} {idx' : Fin M' → Fin C.nodes → Fin N} (ι : Fin M → Fin M') (hι : Function.Injective ι) (hidx : ∀ e, idx' (ι e) = idx e)
    (hc : d.corotated = false) (hm : Admissible d.young d.poisson) (hX : NotInverted C.elem (energyPoints C d.method) idx' X) (c : ℝ) (hc1 : 1 ≤ c)
    (fixed fixed' : Set (Fin N)) (hfix : fixed ⊆ fixed') (U U' F : Fin N → Fin 3 → ℝ)
    (hU : ∀ p ∈ fixed, U p = 0) (hU2 : ∀ p, p ∉ fixed → netForce C d idx X U F p = 0)
    (hU' : ∀ p ∈ fixed', U' p = 0) (hU2' : ∀ p, p ∉ fixed' → netForce C {d with young := c * d.young} idx' X U' F p = 0) : power F U' ≤ power F U := by
  classical
  have hX0 : NotInverted C.elem (energyPoints C d.method) idx X := by
    intro e g hg
    rw [← hidx e]
    exact hX (ι e) g hg
  refine stiffer_generic hc hm hX0 (d' := {d with young := c * d.young}) hc fixed fixed' hfix (fun V => ?_) U U' F hU hU2 hU' hU2'
  rw [energy_young]
  have h0 : bodyEnergy C d idx X V ≤ bodyEnergy C d idx' X V := by
    have : bodyEnergy C d idx X V = ∑ e' ∈ Finset.univ.image ι, strainEnergy C.elem (energyPoints C d.method) (lameL d.young d.poisson) (lameMu d.young d.poisson)
        (fun i => X (idx' e' i)) fun i => V (idx' e' i) := by
      rw [Finset.sum_image fun a _ b _ h => hι h, bodyEnergy]
      exact Finset.sum_congr rfl fun e _ => by rw [hidx]
    rw [this, bodyEnergy]
    exact Finset.sum_le_sum_of_subset_of_nonneg (Finset.subset_univ _) fun e _ _ => elementEnergy_nonneg hm hX V e
  have := bodyEnergy_nonneg (C := C) (idx := idx') hm hX V
  nlinarith

/-- **C136 (Young modulus).** The displacement of a body of a material with `c` times the Young modulus under the same loads is `c` times smaller. -/
theorem C136_young (hc : d.corotated = false) (c : ℝ) (hc0 : c ≠ 0) (U F : Fin N → Fin 3 → ℝ) :
    netForce C {d with young := c * d.young} idx X (c⁻¹ • U) F = netForce C d idx X U F := by
  classical
  have hW : ∀ V W : Fin N → Fin 3 → ℝ, innerWork C {d with young := c * d.young} idx X V W = c * innerWork C d idx X V W := by
    intro V W
    have e1 := energy_line (C := C) (d := {d with young := c * d.young}) (idx := idx) (X := X) hc V W 1
    have e2 := energy_line (C := C) (d := d) (idx := idx) (X := X) hc V W 1
    rw [energy_young, energy_young, energy_young, e2] at e1
    linarith
  have hp : ∀ V : Fin N → Fin 3 → ℝ, power (netForce C {d with young := c * d.young} idx X (c⁻¹ • U) F) V = power (netForce C d idx X U F) V := by
    intro V
    rw [power_netForce (d := {d with young := c * d.young}) hc, power_netForce hc, hW]
    have : (c⁻¹ • U) = (0 : Fin N → Fin 3 → ℝ) + c⁻¹ • U := by simp
    rw [this, innerWork_line hc]
    have h0 : innerWork C d idx X 0 V = 0 := by
      rw [innerWork_sum hc]
      simp
    rw [h0, zero_add, ← mul_assoc, mul_inv_cancel₀ hc0, one_mul]
  funext p a
  have := hp (fun q b => if q = p ∧ b = a then 1 else 0)
  rw [power_sum, power_sum] at this
  have hs : ∀ f : Fin N → Fin 3 → ℝ, ∑ q : Dof N, f q.1 q.2 * (if q.1 = p ∧ q.2 = a then (1 : ℝ) else 0) = f p a := by
    intro f
    rw [Finset.sum_eq_single ((p, a) : Dof N)]
    · simp
    · rintro ⟨q, b⟩ _ hq
      have : ¬(q = p ∧ b = a) := fun h => hq (by rw [h.1, h.2])
      simp [this]
    · simp
  rw [hs, hs] at this
  exact this

end

/-- A cube held at one side, pulled at two corners of the other one. -/
example (F G : Fin 3 → ℝ) : ∃ hf : Fits (![1, 1, 1] : Fin 3 → ℕ),
    let g : Grid 3 ℝ := ⟨0, ![1, 1, 1], 1⟩
    let d : CorotData := ⟨false, 1000, 1 / 4, .regular⟩
    ∃ p q : Fin g.numberOfNodes.toNat, p ≠ q ∧ ∃ U V : Fin g.numberOfNodes.toNat → Fin 3 → ℝ,
      (∀ r ∈ g.sideNodesOf {(0, false)}, U r = 0) ∧ (∀ r, r ∉ g.sideNodesOf {(0, false)} → netForce .hexa d (g.cellNodes hf) (fun q => g.node q) U (pointLoad p F) r = 0) ∧
      (∀ r ∈ g.sideNodesOf {(0, false)}, V r = 0) ∧ (∀ r, r ∉ g.sideNodesOf {(0, false)} → netForce .hexa d (g.cellNodes hf) (fun q => g.node q) V (pointLoad q G) r = 0) ∧
      G ⬝ᵥ U q = F ⬝ᵥ V p := by
  have hf : Fits (![1, 1, 1] : Fin 3 → ℕ) := by
    unfold Fits
    decide
  refine ⟨hf, ?_⟩
  intro g d
  have hn : ∀ a, 0 < g.n a := by decide
  have hs : ∀ a, 0 < g.size a := fun a => one_pos
  have k : IsNode g.n 1 := by decide
  have k' : IsNode g.n ![1, 0, 0] := by decide
  have hne : g.nodeOf hf 1 k ≠ g.nodeOf hf ![1, 0, 0] k' := by
    intro h
    have := congrArg (fun r : Fin g.numberOfNodes.toNat => g.node r 1) h
    simp only [nodeOf_position] at this
    simp [g, Grid.H] at this
  obtain ⟨U, ⟨hU, hU2⟩, -⟩ := C135_box_unique (d := d) rfl rfl (by norm_num) (by norm_num) (by norm_num) g hf hn hs {(0, false)} ⟨_, rfl⟩ (pointLoad (g.nodeOf hf 1 k) F)
  obtain ⟨V, ⟨hV, hV2⟩, -⟩ := C135_box_unique (d := d) rfl rfl (by norm_num) (by norm_num) (by norm_num) g hf hn hs {(0, false)} ⟨_, rfl⟩ (pointLoad (g.nodeOf hf ![1, 0, 0] k') G)
  exact ⟨_, _, hne, U, V, hU, hU2, hV, hV2, C136_maxwell rfl _ _ _ F G U V hU hU2 hV hV2⟩

/-- A box of six hexahedra held at one side, and one of a material twice as stiff held at two sides; its static solution has the least energy. -/
example : ∃ hf : Fits (![3, 2, 1] : Fin 3 → ℕ),
    let g : Grid 3 ℝ := ⟨0, ![3, 2, 1], 1⟩
    let d : CorotData := ⟨false, 1000, 1 / 4, .regular⟩
    let d' : CorotData := ⟨false, 2 * 1000, 1 / 4, .regular⟩
    let B : Set (Fin 3 × Bool) := {(0, false)}
    let B' : Set (Fin 3 × Bool) := {(0, false), (1, true)}
    ∀ F : Fin g.numberOfNodes.toNat → Fin 3 → ℝ, ∃ U U' : Fin g.numberOfNodes.toNat → Fin 3 → ℝ,
      (∀ r ∈ g.sideNodesOf B, U r = 0) ∧ (∀ r, r ∉ g.sideNodesOf B → netForce .hexa d (g.cellNodes hf) (fun q => g.node q) U F r = 0) ∧
      (∀ r ∈ g.sideNodesOf B', U' r = 0) ∧ (∀ r, r ∉ g.sideNodesOf B' → netForce .hexa d' (g.cellNodes hf) (fun q => g.node q) U' F r = 0) ∧
      power F U' ≤ power F U ∧
      ∀ V, (∀ r ∈ g.sideNodesOf B, V r = U r) → bodyEnergy .hexa d (g.cellNodes hf) (fun q => g.node q) U - power F U ≤ bodyEnergy .hexa d (g.cellNodes hf) (fun q => g.node q) V - power F V := by
  have hf : Fits (![3, 2, 1] : Fin 3 → ℕ) := by
    unfold Fits
    decide
  refine ⟨hf, ?_⟩
  intro g d d' B B' F
  have hn : ∀ a, 0 < g.n a := by decide
  have hs : ∀ a, 0 < g.size a := fun a => one_pos
  have hS := grid_straight g hf fun a => div_pos (hs a) (by exact_mod_cast hn a)
  have hX : NotInverted (CorotClass.elem .hexa) (energyPoints .hexa d.method) (g.cellNodes hf) fun q => g.node q := by
    intro e q _
    obtain ⟨c, A, hdet, -, hX⟩ := hS e
    have := CorotClass.good .hexa
    rw [this.affine c A _ hX]
    exact hdet.le
  obtain ⟨U, ⟨hU, hU2⟩, -⟩ := C135_box_unique (d := d) rfl rfl (by norm_num) (by norm_num) (by norm_num) g hf hn hs B ⟨_, rfl⟩ F
  obtain ⟨U', ⟨hU', hU2'⟩, -⟩ := C135_box_unique (d := d') rfl rfl (by norm_num [d']) (by norm_num) (by norm_num) g hf hn hs B' ⟨(0, false), by simp [B']⟩ F
  have hm : Admissible d.young d.poisson := ⟨by norm_num [d], by norm_num [d], by norm_num [d]⟩
  have hsub : g.sideNodesOf B ⊆ g.sideNodesOf B' := by
    rintro r ⟨b, hb, h⟩
    exact ⟨b, Or.inl hb, h⟩
  exact ⟨U, U', hU, hU2, hU', hU2', C136_stiffer (C := .hexa) (d := d) id Function.injective_id (fun _ => rfl) rfl hm hX 2 (by norm_num) _ _ hsub U U' F hU hU2 hU' hU2',
    (C136_least (C := .hexa) (d := d) rfl hm hX _ U F).1 hU2⟩

end Caribou
