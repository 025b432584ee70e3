import Mathlib.LinearAlgebra.Matrix.NonsingularInverse
import Mathlib.LinearAlgebra.Matrix.Trace
import Mathlib.LinearAlgebra.Matrix.Notation
import Mathlib.Analysis.SpecialFunctions.Log.Basic

/-!
# Model of the dyadic products and of the hyperelastic materials

Numbers are real (the code uses `double`; rounding, overflow and the NaN of `log` of a negative number are not
modelled: the theorems assume a positive determinant wherever `log` is used).
-/

set_option autoImplicit false

namespace Caribou

/-- `Eigen::Matrix<Real, 3, 3>`. -/
abbrev Mat3 := Matrix (Fin 3) (Fin 3) ℝ

/-- `Eigen::Matrix<Real, 6, 6>`. -/
abbrev Mat6 := Matrix (Fin 6) (Fin 6) ℝ

/-- `symmetric_dyad_1`, `src/Caribou/Algebra/Tensor.h:14-25`. -/
def symmetricDyad1 (a : Mat3) : Mat6 :=
  !![a 0 0 * a 0 0, a 0 0 * a 1 1, a 0 0 * a 2 2, a 0 0 * a 0 1, a 0 0 * a 1 2, a 0 0 * a 0 2;
     a 0 0 * a 1 1, a 1 1 * a 1 1, a 1 1 * a 2 2, a 1 1 * a 0 1, a 1 1 * a 1 2, a 1 1 * a 0 2;
     a 0 0 * a 2 2, a 1 1 * a 2 2, a 2 2 * a 2 2, a 2 2 * a 0 1, a 2 2 * a 1 2, a 2 2 * a 0 2;
     a 0 0 * a 0 1, a 1 1 * a 0 1, a 2 2 * a 0 1, a 0 1 * a 0 1, a 0 1 * a 1 2, a 0 1 * a 0 2;
     a 0 0 * a 1 2, a 1 1 * a 1 2, a 2 2 * a 1 2, a 0 1 * a 1 2, a 1 2 * a 1 2, a 1 2 * a 0 2;
     a 0 0 * a 0 2, a 1 1 * a 0 2, a 2 2 * a 0 2, a 0 1 * a 0 2, a 1 2 * a 0 2, a 0 2 * a 0 2]

/-- `symmetric_dyad_2`, `src/Caribou/Algebra/Tensor.h:34-45`. -/
noncomputable def symmetricDyad2 (a : Mat3) : Mat6 :=
  !![a 0 0 * a 0 0, a 0 1 * a 0 1, a 0 2 * a 0 2, a 0 0 * a 0 1, a 0 1 * a 0 2, a 0 0 * a 0 2;
     a 0 1 * a 0 1, a 1 1 * a 1 1, a 1 2 * a 1 2, a 1 1 * a 0 1, a 1 1 * a 1 2, a 1 2 * a 0 1;
     a 0 2 * a 0 2, a 1 2 * a 1 2, a 2 2 * a 2 2, a 1 2 * a 0 2, a 2 2 * a 1 2, a 2 2 * a 0 2;
     a 0 0 * a 0 1, a 1 1 * a 0 1, a 1 2 * a 0 2,
       1/2 * (a 0 0 * a 1 1 + a 0 1 * a 0 1), 1/2 * (a 0 1 * a 1 2 + a 0 2 * a 1 1),
       1/2 * (a 0 0 * a 1 2 + a 0 2 * a 0 1);
     a 0 1 * a 0 2, a 1 1 * a 1 2, a 2 2 * a 1 2,
       1/2 * (a 0 1 * a 1 2 + a 0 2 * a 1 1), 1/2 * (a 1 1 * a 2 2 + a 1 2 * a 1 2),
       1/2 * (a 0 1 * a 2 2 + a 1 2 * a 0 2);
     a 0 0 * a 0 2, a 1 2 * a 0 1, a 2 2 * a 0 2,
       1/2 * (a 0 0 * a 1 2 + a 0 2 * a 0 1), 1/2 * (a 0 1 * a 2 2 + a 1 2 * a 0 2),
       1/2 * (a 0 0 * a 2 2 + a 0 2 * a 0 2)]

/-- The interface `HyperelasticMaterial`, `src/SofaCaribou/Material/HyperelasticMaterial.h:21-58`: energy, stress and
stress jacobian as functions of `J` and `C`. -/
structure Material where
  /-- `strain_energy_density(J, C)`. -/
  energy : ℝ → Mat3 → ℝ
  /-- `PK2_stress(J, C)`. -/
  stress : ℝ → Mat3 → Mat3
  /-- `PK2_stress_jacobian(J, C)`. -/
  jacobian : ℝ → Mat3 → Mat6

/-- `mu` of `before_update`, `NeoHookeanMaterial.h:36`, `SaintVenantKirchhoffMaterial.h:35`. -/
noncomputable def lameMu (young poisson : ℝ) : ℝ := young / (2 * (1 + poisson))

/-- `l` of `before_update`, `NeoHookeanMaterial.h:37`, `SaintVenantKirchhoffMaterial.h:36`. -/
noncomputable def lameL (young poisson : ℝ) : ℝ := young * poisson / ((1 + poisson) * (1 - 2 * poisson))

/-- `E = 1/2 (C - Id)`, `SaintVenantKirchhoffMaterial.h:58,68`. -/
noncomputable def greenStrain (C : Mat3) : Mat3 := (1 / 2 : ℝ) • (C - 1)

/-- `SaintVenantKirchhoffMaterial` after `before_update` with Lamé parameters `mu` and `l`:
the elasticity matrix `SaintVenantKirchhoffMaterial.h:38-46`, `strain_energy_density` 55-62, `PK2_stress` 65-70,
`PK2_stress_jacobian` 73-76. -/
noncomputable def saintVenantKirchhoff (mu l : ℝ) : Material where
  energy _ C :=
    let E := greenStrain C
    let trE := E.trace
    let trEE := (E * E).trace
    l / 2 * (trE * trE) + mu * trEE
  stress _ C :=
    let E := greenStrain C
    (l * E.trace) • (1 : Mat3) + (2 * mu) • E
  jacobian _ _ :=
    !![l + 2 * mu, l, l, 0, 0, 0;
       l, l + 2 * mu, l, 0, 0, 0;
       l, l, l + 2 * mu, 0, 0, 0;
       0, 0, 0, mu, 0, 0;
       0, 0, 0, 0, mu, 0;
       0, 0, 0, 0, 0, mu]

/-- `NeoHookeanMaterial` after `before_update` with Lamé parameters `mu` and `l`: `strain_energy_density`
`NeoHookeanMaterial.h:46-50`, `PK2_stress` 53-60, `PK2_stress_jacobian` 63-72. -/
noncomputable def neoHookean (mu l : ℝ) : Material where
  energy J C :=
    let lnJ := Real.log J
    mu / 2 * (C.trace - 3) - mu * lnJ + l / 2 * lnJ * lnJ
  stress J C :=
    let Ci := C⁻¹
    mu • (1 - Ci) + (l * Real.log J) • Ci
  jacobian J C :=
    let Ci := C⁻¹
    l • symmetricDyad1 Ci + (2 * (mu - l * Real.log J)) • symmetricDyad2 Ci

end Caribou
