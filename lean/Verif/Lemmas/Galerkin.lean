import Verif.Spec.Galerkin
import Verif.Lemmas.CorotEnergy
import Verif.Props.SmallStrain
import Verif.Lemmas.Convergence2

/-!
# Lemmas on the quality of a linear static solution
-/

set_option autoImplicit false
set_option linter.all false

namespace Caribou

open Spec MeasureTheory

theorem ddot_add_left (A B D : Mat3) : ddot (A + B) D = ddot A D + ddot B D := by
  simp [ddot, add_mul, Finset.sum_add_distrib]

theorem ddot_comm (A B : Mat3) : ddot A B = ddot B A := by
  simp [ddot, mul_comm]

theorem ddot_neg_left (A B : Mat3) : ddot (-A) B = -ddot A B := by
  simp [ddot, Finset.sum_neg_distrib]

theorem symPart_add (G H : Mat3) : symPart (G + H) = symPart G + symPart H := by
  simp only [symPart, Matrix.transpose_add, ← smul_add]
  congr 1
  abel

theorem symPart_neg (G : Mat3) : symPart (-G) = -symPart G := by
  simp only [symPart, Matrix.transpose_neg, ← smul_neg]
  congr 1
  abel

theorem symPart_trace (G : Mat3) : (symPart G).trace = G.trace := by
  simp [symPart, Matrix.trace_add, Matrix.trace_smul, Matrix.trace_transpose]
  ring

theorem strainWork_comm (l mu : ℝ) (G H : Mat3) : strainWork l mu G H = strainWork l mu H G := by
  rw [strainWork, strainWork, ddot_comm]
  ring

theorem strainWork_add_left (l mu : ℝ) (G G' H : Mat3) : strainWork l mu (G + G') H = strainWork l mu G H + strainWork l mu G' H := by
  simp only [strainWork, symPart_add, ddot_add_left, Matrix.trace_add]
  ring

theorem strainWork_neg_left (l mu : ℝ) (G H : Mat3) : strainWork l mu (-G) H = -strainWork l mu G H := by
  simp only [strainWork, symPart_neg, ddot_neg_left, Matrix.trace_neg]
  ring

theorem strainWork_sub_left (l mu : ℝ) (G G' H : Mat3) : strainWork l mu (G - G') H = strainWork l mu G H - strainWork l mu G' H := by
  rw [sub_eq_add_neg, strainWork_add_left, strainWork_neg_left, sub_eq_add_neg]

theorem strainWork_self (l mu : ℝ) (G : Mat3) : strainWork l mu G G = lameForm l mu (symPart G) := by
  rw [strainWork, lameForm, symPart_trace]
  ring

theorem strainWork_square (l mu : ℝ) (P Q : Mat3) : strainWork l mu (P + Q) (P + Q) =
    strainWork l mu P P + 2 * strainWork l mu P Q + strainWork l mu Q Q := by
  rw [strainWork_add_left, strainWork_comm l mu P (P + Q), strainWork_comm l mu Q (P + Q), strainWork_add_left, strainWork_add_left,
    strainWork_comm l mu Q P]
  ring

theorem defGrad_add {n : ℕ} (dN U V : Fin n → Fin 3 → ℝ) : deformationGradient dN (fun i => U i + V i) =
    deformationGradient dN U + deformationGradient dN V := by
  ext a b
  simp only [defGrad_apply, Matrix.add_apply, Pi.add_apply, add_mul, Finset.sum_add_distrib]

theorem list_sum_add {α : Type*} (l : List α) (f g : α → ℝ) : (l.map fun a => f a + g a).sum = (l.map f).sum + (l.map g).sum := by
  induction l with
  | nil => simp
  | cons a l ih => simp only [List.map_cons, List.sum_cons, ih]; ring

theorem addDForce_add {N n M : ℕ} {s : CorotState N n M} {C : Mat6} (hs : CorotReady s C) (u v : Fin N → Fin 3 → ℝ) (d : Dof N) :
    s.addDForce 1 (fun p => u p + v p) 0 d.1 d.2 = s.addDForce 1 u 0 d.1 d.2 + s.addDForce 1 v 0 d.1 d.2 := by
  rw [addDForce_matrix hs, addDForce_matrix hs, addDForce_matrix hs, ← Finset.sum_add_distrib]
  exact Finset.sum_congr rfl fun d' _ => mul_add _ _ _

/-- The work of the internal forces of the linear force field. -/
theorem corot_work {N n M : ℕ} {s : CorotState N n M} {young poisson : ℝ} (hs : CorotReady s (elasticityMatrix young poisson))
    (hR : ∀ e, s.currentRotation e = 1) (hR0 : ∀ e, s.initialRotation e = 1) (frame : (Fin n → Fin 3 → ℝ) → Mat3)
    (X u F v : Fin N → Fin 3 → ℝ) :
    power (s.addForce false frame X (X + u) F).2 v = power F v - ∑ e, ((s.qnodes e).map fun q => (q.detJ * q.weight) *
      strainWork (lameL young poisson) (lameMu young poisson) (deformationGradient q.dN fun i => u (s.idx e i))
        (deformationGradient q.dN fun i => v (s.idx e i))).sum := by
  set l := lameL young poisson
  set mu := lameMu young poisson
  set b : (Fin N → Fin 3 → ℝ) → (Fin N → Fin 3 → ℝ) → ℝ := fun u v => ∑ d : Dof N, v d.1 d.2 * s.addDForce 1 u 0 d.1 d.2 with hb
  have hsym : ∀ u v, b u v = b v u := fun u v => addDForce_reciprocal hs v u
  have hadd : ∀ u v w, b (fun p => u p + v p) w = b u w + b v w := by
    intro u v w
    simp only [hb, addDForce_add hs, mul_add, Finset.sum_add_distrib]
  have hself : ∀ u, -b u u = ∑ e, ((s.qnodes e).map fun q => (q.detJ * q.weight) *
      strainWork l mu (deformationGradient q.dN fun i => u (s.idx e i)) (deformationGradient q.dN fun i => u (s.idx e i))).sum := by
    intro u
    have h := corot_form hs u
    simp only [hR, Matrix.transpose_one, Matrix.one_mulVec] at h
    simp only [strainWork_self]
    rw [← h, hb]
    simp only [Fintype.sum_prod_type]
  have hpol : ∀ u v, -b u v = ∑ e, ((s.qnodes e).map fun q => (q.detJ * q.weight) *
      strainWork l mu (deformationGradient q.dN fun i => u (s.idx e i)) (deformationGradient q.dN fun i => v (s.idx e i))).sum := by
    intro u v
    have h1 := hself fun p => u p + v p
    have h0 : b (fun p => u p + v p) (fun p => u p + v p) = b u u + 2 * b u v + b v v := by
      rw [hadd u v (fun p => u p + v p), hsym u (fun p => u p + v p), hsym v (fun p => u p + v p), hadd u v u, hadd u v v, hsym v u]
      ring
    rw [h0] at h1
    have h2 : ∀ e, ((s.qnodes e).map fun q => (q.detJ * q.weight) *
        strainWork l mu (deformationGradient q.dN fun i => u (s.idx e i) + v (s.idx e i))
          (deformationGradient q.dN fun i => u (s.idx e i) + v (s.idx e i))).sum =
        ((s.qnodes e).map fun q => (q.detJ * q.weight) *
          strainWork l mu (deformationGradient q.dN fun i => u (s.idx e i)) (deformationGradient q.dN fun i => u (s.idx e i))).sum +
        2 * ((s.qnodes e).map fun q => (q.detJ * q.weight) *
          strainWork l mu (deformationGradient q.dN fun i => u (s.idx e i)) (deformationGradient q.dN fun i => v (s.idx e i))).sum +
        ((s.qnodes e).map fun q => (q.detJ * q.weight) *
          strainWork l mu (deformationGradient q.dN fun i => v (s.idx e i)) (deformationGradient q.dN fun i => v (s.idx e i))).sum := by
      intro e
      rw [list_sum_mul_left, ← list_sum_add, ← list_sum_add]
      refine congrArg List.sum (List.map_congr_left fun q _ => ?_)
      rw [defGrad_add, strainWork_square]
      ring
    simp only [h2, Finset.sum_add_distrib, ← Finset.mul_sum] at h1
    linarith [hself u, hself v, h1]
  have hf : (s.addForce false frame X (X + u) F).2 = s.addDForce 1 u F := linear_force s hs hR hR0 frame X u F
  rw [hf, ← hpol, hb, sub_neg_eq_add, power, power]
  simp only [dotProduct, Fintype.sum_prod_type]
  rw [← Finset.sum_add_distrib]
  refine Finset.sum_congr rfl fun p _ => ?_
  rw [← Finset.sum_add_distrib]
  refine Finset.sum_congr rfl fun a _ => ?_
  rw [same_operator_generic hs 1 0 u F, same_operator_generic hs 1 0 u 0]
  simp
  ring

/-! ### Integrals over the elements -/

section

variable {n N M : ℕ} {E : Elem ℝ 3 n} {R : Set (Fin 3 → ℝ)} {idx : Fin M → Fin n → Fin N} {X : Fin N → Fin 3 → ℝ}

theorem strainWork_continuousOn {l mu : ℝ} {P Q : (Fin 3 → ℝ) → Mat3} (hP : ∀ a b, ContinuousOn (fun ξ => P ξ a b) R)
    (hQ : ∀ a b, ContinuousOn (fun ξ => Q ξ a b) R) : ContinuousOn (fun ξ => strainWork l mu (P ξ) (Q ξ)) R := by
  have h : ∀ G H : Mat3, strainWork l mu G H = l * ((∑ a, G a a) * ∑ a, H a a) + 2 * mu * ∑ i, ∑ j, (1 / 2 * (G i j + G j i)) * (1 / 2 * (H i j + H j i)) :=
    fun G H => rfl
  simp only [h]
  refine ContinuousOn.add (continuousOn_const.mul (ContinuousOn.mul (continuousOn_finset_sum _ fun a _ => hP a a)
    (continuousOn_finset_sum _ fun a _ => hQ a a))) (continuousOn_const.mul (continuousOn_finset_sum _ fun i _ => continuousOn_finset_sum _ fun j _ => ?_))
  exact (continuousOn_const.mul ((hP i j).add (hP j i))).mul (continuousOn_const.mul ((hQ i j).add (hQ j i)))

theorem overElements_congr (hm : MeasurableSet R) {f g : Fin M → (Fin 3 → ℝ) → ℝ} (h : ∀ e, ∀ ξ ∈ R, f e ξ = g e ξ) :
    overElements E R idx X f = overElements E R idx X g :=
  Finset.sum_congr rfl fun e _ => setIntegral_congr_fun hm fun ξ hξ => by
    show _ * _ = _ * _
    rw [h e ξ hξ]

variable {A : Fin M → Mat3} (hA : ∀ e ξ, (E.jacobian (fun i => X (idx e i)) ξ : Mat3) = A e)
include hA

theorem overElements_add (hR : IsCompact R) {f g : Fin M → (Fin 3 → ℝ) → ℝ} (hf : ∀ e, ContinuousOn (f e) R) (hg : ∀ e, ContinuousOn (g e) R) :
    overElements E R idx X (fun e ξ => f e ξ + g e ξ) = overElements E R idx X f + overElements E R idx X g := by
  simp only [overElements, hA, mul_add]
  rw [← Finset.sum_add_distrib]
  refine Finset.sum_congr rfl fun e _ => ?_
  exact integral_add ((continuousOn_const.mul (hf e)).integrableOn_compact hR) ((continuousOn_const.mul (hg e)).integrableOn_compact hR)

theorem overElements_smul (c : ℝ) (f : Fin M → (Fin 3 → ℝ) → ℝ) :
    overElements E R idx X (fun e ξ => c * f e ξ) = c * overElements E R idx X f := by
  simp only [overElements, hA, Finset.mul_sum]
  refine Finset.sum_congr rfl fun e _ => ?_
  rw [← integral_const_mul]
  refine integral_congr_ae (Filter.Eventually.of_forall fun ξ => ?_)
  show _ * (_ * _) = _ * (_ * _)
  ring

theorem overElements_mono (hR : IsCompact R) {f g : Fin M → (Fin 3 → ℝ) → ℝ} (hf : ∀ e, ContinuousOn (f e) R) (hg : ∀ e, ContinuousOn (g e) R)
    (h : ∀ e, ∀ ξ ∈ R, f e ξ ≤ g e ξ) : overElements E R idx X f ≤ overElements E R idx X g := by
  simp only [overElements, hA]
  refine Finset.sum_le_sum fun e _ => ?_
  refine setIntegral_mono_on ((continuousOn_const.mul (hf e)).integrableOn_compact hR) ((continuousOn_const.mul (hg e)).integrableOn_compact hR)
    hR.measurableSet fun ξ hξ => ?_
  exact mul_le_mul_of_nonneg_left (h e ξ hξ) (abs_nonneg _)

theorem fieldGradient_eq (hdet : ∀ e, 0 < (A e).det) {V : Fin N → Fin 3 → ℝ} {G : Fin M → (Fin 3 → ℝ) → Mat3} (hG : FieldGradient E R idx X V G)
    (e : Fin M) (ξ : Fin 3 → ℝ) (hξ : ξ ∈ R) : G e ξ = (E.jacobian (fun i => V (idx e i)) ξ : Mat3) * (A e)⁻¹ := by
  rw [hG e ξ hξ, hA, Matrix.mul_assoc, Matrix.mul_nonsing_inv _ (isUnit_iff_ne_zero.2 (hdet e).ne'), Matrix.mul_one]

theorem fieldGradient_continuous (hdL : ∀ i k, Continuous fun ξ => E.dL ξ i k) (hdet : ∀ e, 0 < (A e).det) {V : Fin N → Fin 3 → ℝ}
    {G : Fin M → (Fin 3 → ℝ) → Mat3} (hG : FieldGradient E R idx X V G) (e : Fin M) (a b : Fin 3) : ContinuousOn (fun ξ => G e ξ a b) R := by
  have : ContinuousOn (fun ξ => ((E.jacobian (fun i => V (idx e i)) ξ : Mat3) * (A e)⁻¹) a b) R := by
    simp only [Matrix.mul_apply, Elem.jacobian]
    refine (continuous_finset_sum _ fun k _ => Continuous.mul (continuous_finset_sum _ fun i _ => continuous_const.mul (hdL i k)) continuous_const).continuousOn
  refine this.congr fun ξ hξ => ?_
  show G e ξ a b = _
  rw [fieldGradient_eq hA hdet hG e ξ hξ]

/-- The best approximation, up to the residual of the equilibrium. -/
theorem galerkin_core (hR : IsCompact R) (hdL : ∀ i k, Continuous fun ξ => E.dL ξ i k) (hdet : ∀ e, 0 < (A e).det) {l mu : ℝ} (hmu : 0 ≤ mu)
    (hl : 0 ≤ 3 * l + 2 * mu) (Q : Fin M → (Fin n → Fin 3 → ℝ) → (Fin n → Fin 3 → ℝ) → ℝ)
    (hQ : ∀ e U V, Q e U V = ∫ ξ in R, (A e).det * strainWork l mu ((E.jacobian U ξ : Mat3) * (A e)⁻¹) ((E.jacobian V ξ : Mat3) * (A e)⁻¹))
    (U F r : Fin N → Fin 3 → ℝ) (hwork : ∀ v, power r v = power F v - ∑ e, Q e (fun i => U (idx e i)) (fun i => v (idx e i)))
    (fixed : Set (Fin N)) (u' : (Fin 3 → ℝ) → Mat3)
    (hu' : ∀ e a b, ContinuousOn (fun ξ => u' (E.worldCoordinates (fun i => X (idx e i)) ξ) a b) R) (η : ℝ)
    (hη : ∀ V G, (∀ p ∈ fixed, V p = 0) → FieldGradient E R idx X V G →
      (overElements E R idx X (fun e ξ => strainWork l mu (u' (E.worldCoordinates (fun i => X (idx e i)) ξ)) (G e ξ)) - power F V + power r V) ^ 2 ≤
        η ^ 2 * overElements E R idx X fun e ξ => strainWork l mu (G e ξ) (G e ξ))
    (GU : Fin M → (Fin 3 → ℝ) → Mat3) (hGU : FieldGradient E R idx X U GU) (W : Fin N → Fin 3 → ℝ) (hW : ∀ p ∈ fixed, W p = U p)
    (GW : Fin M → (Fin 3 → ℝ) → Mat3) (hGW : FieldGradient E R idx X W GW) :
    energyError l mu E R idx X u' GU ≤ energyError l mu E R idx X u' GW + η ^ 2 := by
  set D : Fin N → Fin 3 → ℝ := fun p => U p - W p with hD
  set GD : Fin M → (Fin 3 → ℝ) → Mat3 := fun e ξ => GU e ξ - GW e ξ with hGDdef
  have hGD : FieldGradient E R idx X D GD := by
    intro e ξ hξ
    rw [hGDdef]
    simp only
    rw [Matrix.sub_mul, ← hGU e ξ hξ, ← hGW e ξ hξ]
    ext a b
    simp [Elem.jacobian, hD, sub_mul, Finset.sum_sub_distrib]
  have cU := fieldGradient_continuous hA hdL hdet hGU
  have cD := fieldGradient_continuous hA hdL hdet hGD
  have cE : ∀ e a b, ContinuousOn (fun ξ => (u' (E.worldCoordinates (fun i => X (idx e i)) ξ) - GU e ξ) a b) R := fun e a b => by
    simp only [Matrix.sub_apply]
    exact (hu' e a b).sub (cU e a b)
  -- the error of `W` in terms of the error of `U`
  have e1 : energyError l mu E R idx X u' GW = energyError l mu E R idx X u' GU +
      2 * overElements E R idx X (fun e ξ => strainWork l mu (u' (E.worldCoordinates (fun i => X (idx e i)) ξ) - GU e ξ) (GD e ξ)) +
      overElements E R idx X fun e ξ => strainWork l mu (GD e ξ) (GD e ξ) := by
    have c1 : ∀ e, ContinuousOn (fun ξ => strainWork l mu (u' (E.worldCoordinates (fun i => X (idx e i)) ξ) - GU e ξ)
        (u' (E.worldCoordinates (fun i => X (idx e i)) ξ) - GU e ξ)) R := fun e => strainWork_continuousOn (cE e) (cE e)
    have c2 : ∀ e, ContinuousOn (fun ξ => 2 * strainWork l mu (u' (E.worldCoordinates (fun i => X (idx e i)) ξ) - GU e ξ) (GD e ξ)) R :=
      fun e => continuousOn_const.mul (strainWork_continuousOn (cE e) (cD e))
    have c3 : ∀ e, ContinuousOn (fun ξ => strainWork l mu (GD e ξ) (GD e ξ)) R := fun e => strainWork_continuousOn (cD e) (cD e)
    rw [energyError, energyError, ← overElements_smul hA, ← overElements_add hA hR c1 c2]
    have c4 : ∀ e, ContinuousOn (fun ξ => strainWork l mu (u' (E.worldCoordinates (fun i => X (idx e i)) ξ) - GU e ξ)
        (u' (E.worldCoordinates (fun i => X (idx e i)) ξ) - GU e ξ) +
        2 * strainWork l mu (u' (E.worldCoordinates (fun i => X (idx e i)) ξ) - GU e ξ) (GD e ξ)) R := fun e => (c1 e).add (c2 e)
    rw [← overElements_add hA hR c4 c3]
    refine overElements_congr hR.measurableSet fun e ξ _ => ?_
    rw [← strainWork_square]
    have : u' (E.worldCoordinates (fun i => X (idx e i)) ξ) - GW e ξ = u' (E.worldCoordinates (fun i => X (idx e i)) ξ) - GU e ξ + GD e ξ := by
      rw [hGDdef]
      simp
    rw [this]
  -- the mixed term
  have e2 : overElements E R idx X (fun e ξ => strainWork l mu (u' (E.worldCoordinates (fun i => X (idx e i)) ξ) - GU e ξ) (GD e ξ)) =
      overElements E R idx X (fun e ξ => strainWork l mu (u' (E.worldCoordinates (fun i => X (idx e i)) ξ)) (GD e ξ)) - power F D + power r D := by
    have e3 : overElements E R idx X (fun e ξ => strainWork l mu (GU e ξ) (GD e ξ)) = ∑ e, Q e (fun i => U (idx e i)) (fun i => D (idx e i)) := by
      simp only [overElements, hA, hQ, abs_of_pos (hdet _)]
      refine Finset.sum_congr rfl fun e _ => setIntegral_congr_fun hR.measurableSet fun ξ hξ => ?_
      show _ * _ = _ * _
      rw [fieldGradient_eq hA hdet hGU e ξ hξ, fieldGradient_eq hA hdet hGD e ξ hξ]
    have e4 : overElements E R idx X (fun e ξ => strainWork l mu (u' (E.worldCoordinates (fun i => X (idx e i)) ξ)) (GD e ξ)) =
        overElements E R idx X (fun e ξ => strainWork l mu (u' (E.worldCoordinates (fun i => X (idx e i)) ξ) - GU e ξ) (GD e ξ)) +
        overElements E R idx X (fun e ξ => strainWork l mu (GU e ξ) (GD e ξ)) := by
      rw [← overElements_add hA hR (fun e => strainWork_continuousOn (cE e) (cD e)) (fun e => strainWork_continuousOn (cU e) (cD e))]
      refine overElements_congr hR.measurableSet fun e ξ _ => ?_
      rw [← strainWork_add_left, sub_add_cancel]
    have := hwork D
    rw [← e3] at this
    linarith
  have h1 := hη D GD (fun p hp => by rw [hD]; simp [hW p hp]) hGD
  rw [← e2] at h1
  set m := overElements E R idx X (fun e ξ => strainWork l mu (u' (E.worldCoordinates (fun i => X (idx e i)) ξ) - GU e ξ) (GD e ξ))
  set d := overElements E R idx X fun e ξ => strainWork l mu (GD e ξ) (GD e ξ) with hd
  have hd0 : 0 ≤ d := by
    rw [hd]
    refine Finset.sum_nonneg fun e _ => setIntegral_nonneg hR.measurableSet fun ξ _ => mul_nonneg (abs_nonneg _) ?_
    dsimp only
    rw [strainWork_self]
    exact lameForm_nonneg hmu hl _
  rw [e1]
  -- `2 m + d + η² ≥ 0`
  have h2 : 0 ≤ 2 * m + d + η ^ 2 := by
    by_contra hc
    push Not at hc
    nlinarith [sq_nonneg (d - η ^ 2), sq_nonneg η, h1]
  linarith

end

end Caribou
