import Verif.Model.Hyperelastic
import Verif.Model.StaticODE
import Verif.Model.Mesh
import Mathlib.Analysis.Real.Sqrt

/-!
# Model of the reference computation with FEniCS

`Validation/fenics_rectangular_beam_bending_static_stvk.py`.  What UFL does is modelled: `nabla_grad(u)[i, j]` is the derivative of component `j` along axis `i`, and `derivative` is the
derivative in the direction of a function.  A function of the space is given by its values at the nodes of an element; the quadrature chosen by the form compiler is a parameter.  Numbers
are real.  Reading the mesh, marking the facets, printing and writing the result are left out.
-/

set_option autoImplicit false

namespace Caribou

namespace Fenics

/-- `mu`, line 81. -/
noncomputable def mu (young poisson : ℝ) : ℝ := young / (2 * (1 + poisson))

/-- `lmbda`, line 82. -/
noncomputable def lmbda (young poisson : ℝ) : ℝ := young * poisson / ((1 + poisson) * (1 - 2 * poisson))

variable {n : ℕ}

/-- `nabla_grad` of the function with values `u` at the nodes, whose shape functions have gradients `dN`, lines 95 and 100. -/
noncomputable def nablaGrad (dN u : Fin n → Fin 3 → ℝ) : Mat3 := Matrix.of fun i j => ∑ k, dN k i * u k j

/-- `F = I + nabla_grad(u)`, line 95. -/
noncomputable def defGrad (dN u : Fin n → Fin 3 → ℝ) : Mat3 := 1 + nablaGrad dN u

/-- `E = 0.5*(F.T*F - I)`, lines 96-97. -/
noncomputable def strain (dN u : Fin n → Fin 3 → ℝ) : Mat3 := (1 / 2 : ℝ) • ((defGrad dN u).transpose * defGrad dN u - 1)

/-- `lmbda*tr(E)*I + 2*mu*E`, line 98. -/
noncomputable def stress (m l : ℝ) (E : Mat3) : Mat3 := (l * E.trace) • (1 : Mat3) + (2 * m) • E

/-- `derivative(E, u, w)`, line 100. -/
noncomputable def strainSlope (dN u w : Fin n → Fin 3 → ℝ) : Mat3 :=
  (1 / 2 : ℝ) • ((nablaGrad dN w).transpose * defGrad dN u + (defGrad dN u).transpose * nablaGrad dN w)

/-- `derivative(derivative(E, u, w), u, v)`, a part of line 107. -/
noncomputable def strainCurvature (dN v w : Fin n → Fin 3 → ℝ) : Mat3 :=
  (1 / 2 : ℝ) • ((nablaGrad dN w).transpose * nablaGrad dN v + (nablaGrad dN v).transpose * nablaGrad dN w)

/-- `inner` of two matrices. -/
def inner (A B : Mat3) : ℝ := ∑ i, ∑ j, A i j * B i j

/-- The integrand of `a`, line 100. -/
noncomputable def work (m l : ℝ) (dN u w : Fin n → Fin 3 → ℝ) : ℝ := inner (stress m l (strain dN u)) (strainSlope dN u w)

/-- The derivative of the integrand of `a` along `v`, line 107: the loads do not depend on `u`. -/
noncomputable def workSlope (m l : ℝ) (dN u v w : Fin n → Fin 3 → ℝ) : ℝ :=
  inner (stress m l (strainSlope dN u v)) (strainSlope dN u w) + inner (stress m l (strain dN u)) (strainCurvature dN v w)

/-- The shape function of node `i` along axis `a`. -/
def basis (i : Fin n) (a : Fin 3) : Fin n → Fin 3 → ℝ := fun k b => if k = i ∧ b = a then 1 else 0

/-- The contribution of an element to the entry `(i, a)` of `assemble(a)`, lines 100, 114 and 124. -/
noncomputable def elementResidual (m l : ℝ) (qs : List (QNode n)) (u : Fin n → Fin 3 → ℝ) (i : Fin n) (a : Fin 3) : ℝ :=
  (qs.map fun g => work m l g.dN u (basis i a) * (g.detJ * g.weight)).sum

/-- The contribution of an element to the entry `(i, a), (j, b)` of `assemble(J)`, lines 107 and 114: test functions give the rows and trial functions the columns. -/
noncomputable def elementJacobian (m l : ℝ) (qs : List (QNode n)) (u : Fin n → Fin 3 → ℝ) (i : Fin n) (a : Fin 3) (j : Fin n) (b : Fin 3) : ℝ :=
  (qs.map fun g => workSlope m l g.dN u (basis j b) (basis i a) * (g.detJ * g.weight)).sum

/-- `-traction/nsteps*(i+1)`, line 94: the second component of the traction of step `i`. -/
noncomputable def stepTraction (traction : ℝ) (nsteps i : ℕ) : ℝ := -traction / nsteps * (i + 1)

variable {ι : Type*} [Fintype ι] [DecidableEq ι]

/-- The forms of one load step, assembled: the residual `R`, its derivative `J` and the degrees of freedom held at zero by `bc`, lines 69-70 and 94-107. -/
structure Problem (ι : Type*) where
  R : (ι → ℝ) → ι → ℝ
  J : (ι → ℝ) → Matrix ι ι ℝ
  fixed : ι → Bool

/-- The assembly of `R` and `J` over the mesh, lines 114 and 124: `load` is the assembled `L` of line 101. -/
noncomputable def problem {N M : ℕ} (m l : ℝ) (idx : Fin M → Fin n → Fin N) (qs : Fin M → List (QNode n)) (load : Dof N → ℝ) (fixed : Fin N → Bool) : Problem (Dof N) where
  R u d := (∑ e, ∑ i, if idx e i = d.1 then elementResidual m l (qs e) (fun k b => u (idx e k, b)) i d.2 else 0) - load d
  J u := Matrix.of fun d d' => ∑ e, ∑ i, ∑ j, if idx e i = d.1 ∧ idx e j = d'.1 then elementJacobian m l (qs e) (fun k b => u (idx e k, b)) i d.2 j d'.2 else 0
  fixed d := fixed d.1

/-- `norm("l2")`. -/
noncomputable def l2 (v : ι → ℝ) : ℝ := Real.sqrt (dotProduct v v)

/-- `U` after an iteration, lines 130-134. -/
def total (f0 : Option ℝ) (U du : ι → ℝ) : ι → ℝ :=
  match f0 with
  | none => du
  | some _ => U + du

/-- The Newton iterations, lines 113-148, with the iterations that are left, the displacement `u`, its part `U` made by this step and `f0_norm` once it is known.  `assemble_system` clears the
rows and columns of the held degrees of freedom and their entries of the right-hand side (the diagonal it writes is taken to be one); `bc.apply` clears the entries of the residual.  `lu` is the
linear solver (`none`: it raises).  The norms are Python numbers, whose division by zero raises at line 137. -/
noncomputable def newton (P : Problem ι) (lu : Matrix ι ι ℝ → (ι → ℝ) → Option (ι → ℝ)) (aTol rTol : ℝ) : ℕ → (ι → ℝ) → (ι → ℝ) → Option ℝ → Outcome (ι → ℝ)
  | 0, u, _, _ => .ok u
  | left + 1, u, U, f0 =>
    match lu (constrainMatrix P.fixed (P.J u)) (projectResponse P.fixed (-P.R u)) with
    | none => .throws u
    | some du =>
      let u' := u + du
      let fNorm := l2 (projectResponse P.fixed (P.R u'))
      let duNorm := l2 du
      let U' := total f0 U du
      let f0' := f0.getD fNorm
      let uNorm := l2 U'
      if f0' = 0 ∨ uNorm = 0 then .throws u'
      else if fNorm < aTol then .ok u'
      else if fNorm / f0' < rTol then .ok u'
      else if duNorm / uNorm < rTol then .ok u'
      else newton P lu aTol rTol left u' U' (some f0')

/-- The loop on the load steps, lines 92-148: the displacement is kept from one step to the next. -/
noncomputable def run (lu : Matrix ι ι ℝ → (ι → ℝ) → Option (ι → ℝ)) (aTol rTol : ℝ) (iterations : ℕ) : List (Problem ι) → (ι → ℝ) → Outcome (ι → ℝ)
  | [], u => .ok u
  | P :: Ps, u => match newton P lu aTol rTol iterations u 0 none with
    | .ok u' => run lu aTol rTol iterations Ps u'
    | o => o

end Fenics

end Caribou
