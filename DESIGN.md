# Formal model of jnbrunet/caribou — design

## What is here

* `properties.jsonl` — the English properties (C01, C02, ...).
* `lean/Verif/Model/*.lean` — the model: definitions transcribed function by function from `/repo`
  (each carries file and lines, and says where it simplifies).
* `lean/Verif/Spec/*.lean` — small specifications (what "derivative", "corner of a cell", "segment meets cube", ...
  mean) that mention no model helper.
* `lean/Verif/Lemmas/*.lean` — helper lemmas.
* `lean/Verif/Props/*.lean` — the property theorems, each followed by `example`s showing the hypotheses are
  satisfiable on a non-trivial instance.
* `MANIFEST.json` — which theorem proves which property and how completely.
* `seeded/LOG.jsonl` — seeded-bug experiments.

## Trusted base

* The kernel of Lean 4.33.0 (and `lake`/the elaborator, which produce the terms the kernel checks) and Mathlib 4.33.0.
* Axioms: only `propext`, `Classical.choice` and `Quot.sound`. No axiom of our own, no `sorry`, no `native_decide`, no
  `bv_decide`. `lean/Verif/Audit.lean` prints the axioms of every theorem named in the manifest; some theorems need fewer
  (the build log shows the list of each).
* The transcription from C++ to Lean, done by reading `/repo` as text. Nothing was compiled or run.
* Assumed to behave as documented: Eigen (products, inverses, solvers, maps), the C++ standard library and compiler,
  SOFA (visitors, data, events, mechanical operations), VTK (reading of files). Where the code relies on them the model
  takes them as parameters (Newton solvers, backward Euler) or replaces them by the mathematical operation.

## Modelling conventions

* Floating point numbers are exact: the reals `ℝ` where square roots, logarithms, derivatives or integrals occur, otherwise
  an arbitrary (ordered) field, so that instances can be evaluated over `ℚ`. Rounding, infinities and overflow of `double`
  are not modelled. Not-a-number is modelled in the solvers (`Option K`, `none`), since their control flow tests for it.
  Tolerances in the code are kept as they are.
* `UNSIGNED_INTEGER_TYPE` is `Nat`, `INTEGER_TYPE` is `Int`, except in the regular grids and the fictitious grid, where the
  code mixes signed and unsigned 64-bit (or 32-bit) integers: there `toU64`, `toI64`, `toI32` model the conversions and the
  theorems have hypotheses on the number of nodes.
* `caribou_assert` does nothing in release builds. A precondition it checks is a hypothesis of the theorems.
* Undefined behaviour (reads out of range, uninitialised reads), exceptions and endless loops are distinct outcomes
  (`Outcome`: `ok`, `throws`, `hangs`, `undefined`).
* Eigen matrices are functions or Mathlib matrices; the inverse is Mathlib's `⁻¹` with invertibility as a hypothesis where the
  code inverts. Sums are exact, their order does not matter.
* Messages and logging are not modelled; timers only for C156, drawing only in the models named after it.
* A property that the code does not have is stated in full in `properties.jsonl`; its negation is proved on a witness
  (`Cxx_violated`), and what remains true is proved with the suffix `_partial`.

## What is modelled, file by file

| source (under `/repo/src`) | model | not modelled |
|---|---|---|
| `Caribou/Geometry/*` | `Elements` (shape functions, derivatives, nodes, interpolation, Jacobian, quadratic-from-linear), `Boundary` (sides, edges), `Canonical` (Gauss tables, `contains_local`), `LocalCoordinates` (Newton inverse), `Rectangular`, `Frame`, `Intersect` | `center`-like accessors that only return a stored value; `hexahedron.frame()` without argument (does not compile: `Zeros()`) |
| `Caribou/Topology/Grid/*` | `Grid` | |
| `Caribou/Topology/HashGrid.h` | `HashGrid` (map from cell coordinates to lists) | the hash function (only equality of keys matters); overflow of cell coordinates |
| `Caribou/Topology/BarycentricContainer.h` | `Barycentric` | |
| `Caribou/Topology/{Mesh,Domain,BaseMesh,BaseDomain}.h` | `Mesh` (objects with identities, copies, moves, pointers that can dangle) | `Mesh::positions(std::array)` (does not compile) |
| `Caribou/Topology/IO/VTKReader.cpp` | `VTK` | parsing of files by VTK |
| `Caribou/Algebra/Tensor.h`, `Caribou/Mechanics/Elasticity/Strain.h` | `Material` | |
| `SofaCaribou/Material/*` | `Material` | |
| `SofaCaribou/Forcefield/HyperelasticForcefield.*` | `Hyperelastic`, `HyperComponent` (life of the component), `Report` (`cond`) | OpenMP (sums are exact and element loops independent), the eigenvalue solver of Eigen is a parameter |
| `SofaCaribou/Topology/{Circle,Sphere,Cylinder}IsoSurface.h` | `IsoSurfaces` (`iso_value`) | the `Data` fields, `IsoSurface::iso_value(Coord)`, which has no return statement and no caller |
| `Benchmark/SofaCaribou/Forcefield/RecomputeOrStore/*` | `StoredTensors` | the scene script, registration, durations |
| `SofaCaribou/Forcefield/{Tetrahedron,Hexahedron}ElasticForce.*` | `Corotational`, `CorotComponent` (life of the components), `CorotEnergy` (reported energy), `Drawing` | colours of the drawing, eigenvalue helpers (`cond`) |
| `SofaCaribou/Forcefield/TractionForcefield.*`, `CaribouForcefield.*` | `Traction`, `Lookup` (topology of the scene, templates), `Drawing` (solid elements), `SurfaceDrawing` (triangles and quads) | colours and wire frame of the drawing, factory of SOFA |
| `SofaCaribou/Solver/ConjugateGradientSolver.*` | `ConjugateGradient`, `CGComponent` (options), `CGStatic`, `CGDynamic` (as linear solver of a static solve or of a time step) | incomplete Cholesky / LU preconditioners (any symmetric positive definite preconditioner is allowed) |
| `SofaCaribou/Ode/NewtonRaphsonSolver.*` | `Newton` (loop, pattern analysis, status), `Lookup` (linear solver), `CGStatic`, `CGDynamic` (increments kept between iterations) | line search does not exist in this commit |
| `SofaCaribou/Ode/{StaticODESolver,BackwardEulerODESolver}.*`, `SofaCaribou/Visitor/{AssembleGlobalMatrix,ConstrainGlobalMatrix}.*` | `Newton`, `BackwardEuler`, `StaticODE`, `DynamicODE` (projective constraints, linear mappings) | mappings with a varying Jacobian, constraint solvers |
| `SofaCaribou/Solver/{EigenSolver,LUSolver,LDLTSolver,LLTSolver}.*` | `EigenSolver` | assembly from the scene (see `StaticODE`), the decompositions of Eigen and Pardiso (parameters) |
| `SofaCaribou/Ode/LegacyStaticODESolver.*` | `LegacyStatic`, `LegacyScene`, `LegacyCG` (with the conjugate gradient, its records), `IntegrationFactors` | durations |
| `SofaCaribou/Algebra/{EigenVector.h,BaseVectorOperations.cpp}`, `SofaCaribou/Visitor/MultiVecEqualVisitor.*` | `BaseVector` | narrowing of the size to `int`, accumulation in `float` |
| `SofaCaribou/Algebra/EigenMatrix.h` | `EigenMatrix` (compressed and uncompressed storage, reserved slots) | conversions `float`/`double` |
| `SofaCaribou/Mapping/CaribouBarycentricMapping.*` | `Mapping`, `MappingComponent` (incomplete scenes), `Creation` | |
| `SofaCaribou/Topology/FictitiousGrid.*`, `*IsoSurface.h` | `FictitiousGrid`, `FictitiousRegions`, `FictitiousSparse`, `FictitiousGauss`, `FictitiousSurface` (3D triangle meshes), `FictitiousLookup` (where the surface comes from), `FictitiousLife` (several initialisations, volume ratios, `create_grid` with an implicit surface) | 2D segments (not implemented in the code), lookup of the surface in the scene, several initialisations with an implicit surface, drawing |
| `SofaCaribou/Topology/CaribouTopology.*` | `Topology` | |
| `Caribou/Python/Topology/Mesh.cpp`, `Domain.h`, `BarycentricContainer.h` | `PyTopology` | calls and lifetimes; conversions of numpy arrays by pybind11 not modelled |
| `Caribou/Python/Geometry/*` | `PyFactories` | keyword arguments, conversions of numpy arrays by pybind11, `__str__` |
| `FictitiousGrid.inl` drawing, `FictitiousGrid.h` `computeBBox` | `GridDrawing` | vectors which are filled but not drawn, lighting |
| `Caribou/Python/Topology/Grid.cpp` | `PyGrid` | keywords, arrays with two indices, negative edge and face indices |
| `Caribou/Python/Topology/HashGrid.cpp` | `PyHashGrid` | direct constructors of the classes (same as the function) |
| `canCreate` of `CaribouBarycentricMapping`, `EigenSolver`, `HyperelasticMaterial`, registrations | `Creation` | the object factory, the paths and the links of SOFA are modelled from its documented behaviour |
| assembly from the scene: `EigenSolver::assemble`, `StaticODESolver::assemble_*`, `AssembleGlobalMatrix`, `ConstrainGlobalMatrix` | `GlobalSystem` | the multi-matrix accessor and the mechanical visitors of SOFA are modelled from their documented behaviour; interaction force fields between two bodies are not modelled |
| `Validation/manufactured_solution/assemble.py`, `sympy_solution.py`, constants of `manufactured_solution.py` | `Manufactured` | real numbers; `lambdify` and the scene are not modelled |
| `Validation/meshes/create_beam_mesh.py`, `create_cylinder_mesh.py` | `MeshScripts` | rational numbers; the program handed to Gmsh and its options; files, `meshio` and Gmsh itself are not modelled |
| `Validation/fenics_rectangular_beam_bending_static_stvk.py` | `FenicsScript` | real numbers; what UFL and the linear solver do is modelled by its meaning; reading the mesh, marking of facets, printing, output |
| `Validation/febio_rectangular_beam_bending_static_stvk.py`, lines 41-65, 111-154 and 188-204 | `FebioScript` | numpy arrays by their dimensions, dictionaries as lists; what FEBio does, the XML syntax and the rest of the file are not modelled |
| `scenes/multiple_materials.py` | `Composite` (several force fields on one mechanical object, the selection of the elements) | the other components of the scene; `BoxROI` and the visitors of SOFA from their documented behaviour |
| `SofaCaribou/Python/Ode/LegacyStaticODESolver.cpp`, `bind_vector` in `SofaCaribou/Python/SofaCaribou.cpp` | `PyRecords` | pybind11 from its documented behaviour; slices, negative indices, other changes by the script than `append` |
| `Benchmark/SofaCaribou/Solver/fat_direct_linear_solvers.py`, `get_motion_per_dt` and the motion of the controller | `BenchmarkMotion` | real numbers, one point; the tables which are printed and the other components of the scene |
| grid and boxes of `scenes/conjugate_gradient_benchmark.py`, `Benchmark/SofaCaribou/Solver/beam_*_linear_solvers.py`, `Benchmark/SofaCaribou/Forcefield/RecomputeOrStore/beam_recompute_f.py` | `BeamScenes` | exact numbers; the other components of the scenes |
| calls of `AdvancedTimer` in `NewtonRaphsonSolver.cpp`, `LegacyStaticODESolver.cpp`, `ConjugateGradientSolver.inl`, `initialize_elements` of the force fields | `TimerEvents` | outcomes of the tests are arbitrary; the steps of the assembly and of `addForce`, `addDForce`, `addKToMatrix`, which are straight code, are parameters |
| `extract_newton_steps` and `pretty_print_methods` of `Benchmark/SofaCaribou/Forcefield/RecomputeOrStore/beam_recompute_f.py` | `BenchmarkTable` | column of the total time only, exact durations; widths and formats; the variants of the functions in the other benchmarks |
| `assemble` of `SofaCaribou/Python/Solver/ConjugateGradientSolver.h` | `PyAssemble` | the matrix assembled from the scene is a parameter; solves of the solvers of SOFA only; not the function `A` |
| `extract_newton_steps` and `pretty_print_methods` of `Benchmark/SofaCaribou/Solver/{beam,fat}_direct_linear_solvers.py` | `DirectTable` | column of the total time only, exact durations; widths and formats; the names of the methods are parameters |
| `extract_newton_steps` of `Benchmark/SofaCaribou/Solver/beam_cg_linear_solvers.py` | `CGTable` | column of the number of iterations only; records of the solvers of SOFA |
| `extract_newton_steps` of `scenes/conjugate_gradient_benchmark.py` | `CGTable`, `CGTimes` | number of iterations, times of the update and of the solve, mean time; records of other scenes |
| `doc/generate_doxygen_intersphinx.py` | `DocInventory` | the lines of the inventory; XML files, compression, header |
| other `Caribou/Python/*`, `SofaCaribou/Python/*` | | bindings only |

## Per property

"Proved" and "partial" as in `MANIFEST.json`, which also lists the theorems.

| id | model | statement and proof |
|----|-------|-------------------|
| C01 | `Elements` | `∀ ξ, Σ L = 1`, ring identity per element type |
| C02 | + canonical nodes, `interpolate` | Kronecker delta, cases on nodes |
| C03 | + `dL` | `HasDerivAt` along each coordinate |
| C04 | `dL`, `jacobian` | `Σ dL = 0`, translation invariance |
| C05, C06 | `interpolate` | reproduction of every affine map; of every quadratic polynomial by the quadratic types |
| C07 | `jacobian` | `HasDerivAt` of the map from C03 |
| C08 | from-linear constructors | equality of maps for all ξ |
| C09 | `Boundary` | trace identity per side; two elements sharing a side agree on it |
| C10 | sides, edges | each edge once per direction; normals outward for every affine image of positive determinant |
| C11 | quadratic rectangular hexahedron sides | **false in the code**; corner columns right |
| C12 | Gauss tables | exact for all polynomials of the degree, against Mathlib integrals; quadratic tetrahedron up to the decimals of the source |
| C13 | Gauss counts | **false** for the two quadratic rectangular types |
| C14 | `contains_local` | iff; monotone in the tolerance |
| C15–C17 | `LocalCoordinates` | exact inverse for affine elements, exit condition, normal equations for manifolds |
| C18, C19 | `Rectangular` | linear algebra with `RᵀR = 1`; **false** for rectangular quads close to the centre |
| C20 | `Frame` | orthonormality, equivariance under rigid motions |
| C21, C22 | `Intersect` | separating axes, both directions |
| C23–C27 | `Grid` | bijections, incidences, by arithmetic on 64-bit integers |
| C28–C30 | `Grid` location | iff for points of the grid; **false** outside |
| C31, C32 | `HashGrid` | invariant over insert histories |
| C33–C36 | `Barycentric` | uses C31 and C15; exactness **false** for elements smaller than the absolute Newton tolerance |
| C37–C40, C71 | `Mesh` | invariants over histories of operations; **false** for unchecked overload, `remove`, copies, moves, unset coordinates |
| C41–C44 | `Material` | derivatives along every direction of `Sym(3)` |
| C45 | `Hyperelastic` gradients | affine motions give their gradient; rigid motions no strain |
| C46–C48, C72 | `Hyperelastic`, `Corotational` | power balance, derivative of the force, rigid motions, force as gradient of the energy |
| C49, C73, C74, C76 | `Corotational` | **false**: `K()` and re-initialisation; tangent at rest in rotated frames. Objectivity and agreement of `addDForce`/`addKToMatrix` proved |
| C50, C75 | `Traction` | induction over events; **false**: reset, second init |
| C51 | bounding box | **false**: `else if` in the minimum |
| C52, C53 | `ConjugateGradient` | loop invariants, Krylov spaces; **false**: report for a guess that is already good |
| C54, C55 | `Newton` | induction over iterations and calls; **false**: reference of the relative criterion, single iteration, stale flag |
| C56, C77 | `BackwardEuler` | linear algebra; **false** for the first solve of a step |
| C57, C58 | `EigenMatrix` | refinement to a function of two indices; **false** for uncompressed storage |
| C59 | `Mapping` | duality of sums |
| C60–C62 | `FictitiousGrid`, `FictitiousRegions` | structural induction on cell trees; regions are connected components |
| C63 | tags | **false** in two dimensions |
| C64 | `FictitiousSparse` | renumbering is a bijection onto the kept nodes |
| C65–C67 | `FictitiousGauss` | **false**: positions of the integration points from two levels on, faces between equal cells, zero iso values |
| C68, C69, C79 | `VTK` | node orders; **false** for quadratic hexahedra in the order of the VTK documentation |
| C70, C80 | `Topology` | decision logic; **false** after the data changes |
| C81 | `HyperObjectivity` | frame change of every quadrature term |
| C82 | `Stability` | quadratic form of the Lamé tensor, congruence by the strain matrices; the orientation hypothesis is shown to be needed |
| C83 | `Quadrature` | change of variables of Mathlib, degrees of the determinants; **false** for curved quadratic solids |
| C84 | `StaticODE` | one Newton step on a linear scene; **false** when mapped forces act on fixed degrees of freedom |
| C85 | `EigenSolver` | invariant "the pattern of the current matrix is analysed"; conjugate gradient from C52 and C53; **false** for a new pattern of the same size and for a null right-hand side |
| C86 | `Hyperelastic`, `Mesh`, element classes | divergence identity of a linear tetrahedron and of a hexahedron (the two-point quadrature is exact for it), sides shared by two elements are mirrored and cancel; energy and moments by summing over the Gauss nodes |
| C87 | `HyperComponent` (`init`, `addForce`, lazy assembly, `p_X_id`) | invariant: while the flag is down a refresh would assemble at the kept positions, once it is up the stored matrix is the one of these positions; C47 gives the derivative; witnesses with a scaled tetrahedron |
| C88 | `HyperComponent`, `MaterialComponent` (`before_update`) | invariant that the Lamé coefficients are those of the data since the last `before_update`; C72 for the gradient; witnesses with a scaled tetrahedron |
| C89 | `HyperComponent` | invariant that the component is idle, by induction on the calls; the null dereference of `init` is computed |
| C90 | `Report` | Rayleigh quotients in the basis of eigenvectors |
| C91 | `FictitiousSurface`, `Intersect`, `GridEnclosing` | every cell met by a triangle is among its enclosing cells (C30, C22); chains of convex boxes sharing faces are polygonal paths |
| C92 | `BackwardEuler`, `Hyperelastic`, `Corotational` | internal forces and stiffness have zero column sums; invariant of the Newton loop under exact increments |
| C93 | `Hyperelastic`, `Corotational`, `Material` | derivative of the force at rest is the stiffness (C47); both materials linearise to Hooke's law; the strain-displacement matrix gives the same 3x3 blocks |
| C94 | `StaticODE`, `Newton`, `Corotational` | C93 and the patch test C86 for the forces; C84 for equilibrium; unstrained displacements of a held mesh vanish (C82) |
| C95 | `Hyperelastic`, `Material` | positivity of both densities (eigenvalues of C, log x <= x - 1); **false** for the neo-Hookean material with a negative Poisson ratio |
| C96 | `DynamicODE` | invariant of the Newton loop under exact increments, one exact solve on a linear scene; **false** for fixed degrees of freedom with a velocity or under a mapped object |
| C78 | `LegacyStatic` | induction over the iterations; **false**: first test, reference of the relative criterion |
| C97 | `Lookup` | case analysis on the candidates of the node; **false** with several candidates |
| C98 | `Elements`, `Hyperelastic`, `Corotational` | symmetries of the reference element carry nodes, shape functions and quadrature to themselves; sums reindexed; **false** with corotation |
| C99 | `Hyperelastic`, `Material`, `Corotational` | the quadrature of the similar element is computed from the one of the element; isotropy of the laws; stiffness from the uniqueness of the derivative; **false** with corotation |
| C100 | `BaseVector` | induction on the history; case analysis on the types; induction on the scene graph; assignment **false** when the target is longer |
| C101 | `Hyperelastic`, `Corotational`, `StaticODE` | energy of a displacement as a sum of strain energies; kernel of the canonical element computed by hand and transported by the affine map, glued along faces; for hexahedra of any shape the rotations at the quadrature points are shown equal from the signs of the Jacobian determinants (`Lemmas/HexaRigid`); **false** for the quadratic hexahedron, curved quadratic tetrahedra and the one point integration (explicit zero-energy displacements) |
| C102 | `FictitiousLife`, `FictitiousGauss` | map insertion by induction on the sorted list; with an implicit surface retyping the regions changes no leaf; **false** for triangle meshes by an invariant of the stored types over all histories |
| C103 | `FictitiousLife`, `FictitiousSurface` | the component as a state machine; stale triangle indices do not change the classification as long as they exist; **false** in general, four witnesses |
| C104 | `StoredTensors`, `HyperComponent` | simulation of the component of the library by the three components, by a relation which depends on what the caller did since the last evaluation; **false** for the stiffness in general, three witnesses on one tetrahedron |
| C105 | `IsoSurfaces`, `FictitiousLife`, `FictitiousGrid` | convexity of balls and the distance of a point of a box to its nodes; the sum of the weights over the leaves as the Lebesgue measure of their union (boxes disjoint, covering the grid); **false** for the cylinder and for shapes between the nodes |
| C106 | `FictitiousLookup` | case distinction on the lists of objects of the node; the only container with triangles by filtering with indices; **false** for several implicit surfaces, empty containers and changed triangles |
| C107 | `Drawing`, `SurfaceDrawing` | the centre is a combination of all nodes with positive weights and the Jacobian has an inverse, hence it is in the interior of the convex hull; volumes from the divergence theorem of `Patch`; **false** for the orientation of the older hexahedra and the place of the older tetrahedra |
| C108 | `CorotComponent` | invariant of the sizes of the vectors through all calls, the formulas of `Corotational` behind the tests of the code; **false** in five situations, each with a scene |
| C109 | `CorotEnergy` | quadratic form of the stiffness matrix as strain energy, chain rule, symmetry of the stress behind the frame; the integral of the power over one turn of a sheared tetrahedron; **false** for the reported energy, the moment and the closed path |
| C110 | `CGComponent` | selection of the method in every call around the loops of `ConjugateGradient`, the incomplete factorizations as parameters with the calls Eigen requires; sizes analysed as invariant; both loops agree on the vectors which vanish on the fixed degrees of freedom; **false** in five situations |
| C111 | `MappingComponent` | lookup in the scene graph, sizes checked and not checked around the container of `Barycentric` and the matrix of `Mapping`; **false** for sizes which do not fit, empty domains and a second `init` |
| C112 | `PyTopology` | interpreter of Python statements over the heap of `Lifetime` with reference counts as variables; invariant tracked through any program; **false** when only the domain is held, and for tables which are not valid |
| C113 | `PyFactories` | overloads as lists of parameter shapes, first one which accepts; C08, C05 and C19 for the geometry; **false** for `RectangularHexahedron(n0, …)` and `Triangle(_1D)` |
| C114 | `GridDrawing` | queue of cells with their elements, vectors per region, calls to the drawing tool; C62 for the regions; **false** for cells inside their region, for a later `draw_scale` and for swapped corners |
| C115 | `PyGrid` | classes and overloads of the bindings over the `Grid` model, conversion of the arguments; C23 to C29 carried over; **false** for the hidden functions and `cell_at` |
| C116 | `PyHashGrid` | class picked by the function, calls to `add` with exceptions; C31 and C32 carried over; **false** for the names of the classes, for other arguments and for negative sizes |
| C117 | `Creation` | scene graph, paths and object factory of SOFA (small models), `canCreate` functions; **false** for relative paths, for several types of topologies and for unknown templates of topologies |
| C118 | `GlobalSystem` | tree of bodies as a list in the order of the visits, the accessor of SOFA as a small model; bilinear forms, induction on the list; **false** for fixed bodies with mapped ones and for mappings without `getJ` |
| C119 | `Elements`, `Boundary` | the listings of a side are the rotations and reflections of its corners and middle nodes; polynomial identity for each of them, then C09_boundary_is_trace |
| C120 | `Manufactured` | the loops of the script as folds, sympy derivatives as `deriv`; linear functionals of the loads, the boundary loads of C86, derivatives of the energy by the entries of `F`; **false** for other Lamé parameters than 1 and 1.25 |
| C121 | `Elements`, `Hyperelastic` | Taylor expansion at the point; the constant and linear terms are reproduced (C01, C05), the quadratic term by quadratic elements (C06); the sums of the absolute values of the shape functions are bounded on the canonical elements |
| C122 | `Elements`, `Manufactured`, `Grid` | per element, the quadrature is compared with the change of variables formula (C83); the elements are added with the additivity of the integral over sets that meet in a null set; uniform continuity on the compact body; the grid cells are boxes (C24, C25) |
| C123 | `Hyperelastic`, `Material`, `Grid` | the gradients computed at the integration points are uniformly close to those of the motion (C121); the densities are uniformly continuous near the compact set of the gradients; the sums converge to the integrals (C122); the stiffness is written as the second variation |
| C124 | `Corotational`, `CorotComponent`, `Elements`, `Canonical` | the stiffness is the strain work, and its quadrature is exact on affine elements (constant gradients, or degree at most two in each local coordinate); Galerkin orthogonality and positivity give optimality; the interpolation error of the gradients (C121) gives the rate; coercivity of the energy gives the strains |
| C125 | `Motion` | one Newton iteration leaves a residual of the order of the step, further ones do not increase it; consistency and a discrete Gronwall inequality around the motion; **false** when steps are skipped by the absolute threshold |
| C126 | `StaticODE`, `Newton` | invariant of the loop: expansion of the force around the equilibrium, bound of the inverse of the constrained matrix; **false** for total displacements below the square root of `EPSILON` |
| C127 | `Hyperelastic`, `Material`, `StaticODE`, `Newton` | the forces are twice continuously differentiable near rest, their derivative is the assembled stiffness (C47), which is regular (C101); inverse function theorem; the loop invariant of C126 with the same constants for all loads |
| C128 | `ConjugateGradient` | the iterates are those of the recurrence of C53, whose directions span the Krylov space; the energy is minimal over it; simultaneous diagonalisation of the matrix and the preconditioner, Chebyshev polynomials of Mathlib for the rate, a Richardson step for one iteration; the residual is compared with the energy for the stopping test |
| C129 | `LocalCoordinates`, `Elements`, `Canonical`, `BarycentricContainer` | `NearBox`: the higher moments of the corners are small combinations of the mean edges; the first Newton matrix is then close to the Jacobian everywhere, each step at least halves and squares the error; the margin is the error after five steps or the stopping tolerance; `C129_violated` computes the first step in a tapered strip |
| C130 | `Elements`, `Gauss` | explicit bounds of the sums of the slopes of each type; the map is the affine one after the identity plus a contraction; determinants of matrices close to the identity between powers of one minus and one plus the sum of a row; change of variables for the volumes |
| C131 | `LocalCoordinates`, `Elements`, `Canonical`, `BarycentricContainer`, `HashGrid` | the shape functions are polynomials, hence their slopes are bounded and Lipschitz on a ball containing the iterates; near an affine image Newton's matrix is close to the affine one, and the estimate of C129 applies; `C131_violated` is one quad of eight nodes whose upper side rises above its nodes into an empty cell |
| C132 | `Traction`, `Elements`, `Canonical` | the Jacobian of a flat element is constant and the interpolated displacement is a polynomial which the rule of the element integrates exactly; the moment is the work in an infinitesimal rotation; `C132_violated`: the reported energy is constant |
| C133 | `Traction`, `Corotational`, `Hyperelastic`, `Boundary`, `StaticSolve` | the internal forces of an affinely stretched conforming mesh are its stress times the boundary loads (C86), which on the end are the nodal forces of the traction and vanish on free coordinates elsewhere; the linear scene has one equilibrium and a static solve ends there; the width of the Neo-Hookean bar by the intermediate value theorem |
| C134 | `Mesh`, `MeshAssign` | invariants of `World.step` for the owners of buffers and the lists of domains; the effect of the destructor and of the copy-and-swap assignment on the three maps; `C134_violated`: a moved domain added again to the mesh it comes from |
| C135 | `Corotational`, `CorotComponent`, `Grid`, `Elements` | a displacement of the coarse mesh is one of the fine mesh with the same gradient at every point, so the two energies agree (change of variables on each element); Galerkin orthogonality then gives the inequalities; refinement is shown by interpolating at the fine nodes, for grids one axis after the other; solutions are unique by C101 |
| C136 | `Corotational`, `CorotComponent` | the forces which remain are the loads minus a symmetric matrix times the displacement, the quadratic form of which is twice the energy of the specification (`corot_form`); the energy along a line of displacements is a polynomial of degree two in the parameter |
| C137 | `Hyperelastic`, `Corotational`, `CorotComponent`, `Grid` | hyperelastic forces from the frame (C99), the numbering (C98) and the order of nodes (C98); linear forces from the invariance of the energy of each element, which determines its bilinear form; solutions by uniqueness (C135); the mirror of a grid on node and cell coordinates |
| C138 | `Hyperelastic`, `Corotational`, `CorotComponent`, `Traction`, `Grid` | sums and moments of the internal forces (C46, C73, C109); the displacements without forces are those without strain, hence rigid on each element (C101) and on the piece; a symmetric system is solvable when its right-hand side is orthogonal to the kernel |
| C139 | `MeshScripts` | the program handed to Gmsh is a function of the arguments; its nodes (transfinite surface and layers of the extrusion) are compared with those of the box |
| C140 | `Hyperelastic`, `Corotational`, `CorotComponent`, `StaticODE`, `Newton`, `Grid` | the stiffness at rest is that of the linear force field (C93), the rest positions are a regular equilibrium (C127), so the linear theory of C127 is the linear force field; the first system of a solve from rest is the linear one |
| C141 | `BackwardEuler`, `DynamicODE`, `Newton`, `Corotational`, `Grid` | a step with two iterations is the implicit step, of which the energy (kinetic plus potential) loses at least a quadratic form in the velocity; with one iteration a modified energy takes its place; the losses are summable and the step map is continuous |
| C142 | `Mesh`, `DomainMove` | the two functions exchange buffer and view in the memory; elements are functions of view, buffer and mesh pointer |
| C143 | `Hyperelastic`, `Material`, `StaticODE`, `Newton` | the Newton iterations contract to the equilibrium of each small load in one ball around rest, in which the positions stay; the equilibria are unique and Lipschitz in the load there |
| C144 | `Composite`, `Hyperelastic`, `Material`, `StaticODE`, `Newton`, `Grid` | the loops over force fields and elements are sums over the list of all elements; the quadratic form of the stiffness at rest is a sum of strain energies, zero only for rigid motions of every element, which faces join; rest is then a regular equilibrium (C126) |
| C145 | `Hyperelastic`, `Elements`, `Canonical` | the Jacobian of the raised field is that of the field at every local point (C08); the weights of both tetrahedra add up to the same volume and both hexahedra have the same points, so sums of functions of gradients are equal; forces and stiffness as work, the inequality from the minimum of the quadratic form (C82) |
| C146 | `CGStatic`, `StaticODE`, `Newton`, `ConjugateGradient` | the iterates of the conjugate gradient stay in the space of displacements which hold the fixed points; it terminates with a residual below the tolerance (C52, C53) unless its guess is already good, which the previous increment is not; in a linear scene the next forces are this residual, near an equilibrium the error of the increment is bounded by the inverse of the matrix (C126) |
| C147 | `FenicsScript`, `Hyperelastic`, `Material`, `StaticODE`, `Newton` | the work of the script is a polynomial identity away from the one of the force field because the law is isotropic (traces of `F Fᵀ` and `Fᵀ F`); the derivative is found from the cubic polynomial along a line; the two Newton loops run in step, the comparisons of norms and of squared norms being the same |
| C148 | `FebioScript` | arrays of numpy have two or three dimensions, because the mask of a block with one tag is a scalar; inductions over the blocks with the entries of a tag as invariant; the search in the log file is an induction over its lines |
| C149 | `CGDynamic`, `DynamicODE`, `Newton`, `ConjugateGradient` | the matrix of a time step of a stable scene is symmetric positive definite; in a linear scene the next right-hand side is the residual of the conjugate gradient, plus the forces created by the velocities after the first iteration (C56); the rest as in C146 |
| C150 | `LegacyScene`, `LegacyStatic`, `StaticODE`, `Newton` | simulation: the two loops stay at the same positions, forces, displacements and residuals until one of them stops; **false**: small initial forces, failures of the linear solver |
| C151 | `LegacyCG`, `LegacyStatic`, `ConjugateGradient` | on vectors which vanish on the fixed degrees of freedom the product without matrix is the product with the constrained matrix (as in C110); the last residual tells whether the linear solve converged; induction over the iterations; termination from C53; **false**: linear solves which reach their limit, warm starts |
| C152 | `IntegrationFactors`, `LegacyScene`, `LegacyStatic` | one iteration of the solver unfolded, the factors compared with it; **false**: the factors of the velocity on the position and of the solution; negative orders |
| C153 | `PyRecords`, `LegacyCG` | values of Python as copies or references with the policy of pybind11, memory blocks of the vector of vectors; induction over the steps; the capacity from the length of the records; **false**: vectors of numbers, entries of the vector of vectors, reading before the first step |
| C154 | `BenchmarkMotion` | the position after any number of steps in closed form with the ceiling of the duration by the time step; Euclidean norms; **false**: durations which are not a multiple of the time step, another time step of the scene |
| C155 | `BeamScenes` | floors and inequalities along each axis; grid and box of SOFA as documented; **false**: extents which are not a multiple of the cell size |
| C156 | `TimerEvents` | the calls of the timer in order, for any sequence of outcomes; induction over the iterations; **false**: initialisation without a mechanical object, conjugate gradient with nothing to do |
| C157 | `BenchmarkTable` | dictionaries of lists as functions, exceptions as `none`; induction over values, methods and steps; **false**: time steps with one iteration or none |
| C158 | `PyAssemble` | the state of the component (C110) with calls between the solves; induction over the events; **false**: a call before the first solve with an incomplete factorization |
| C159 | `DirectTable` | dictionaries in the order of insertion as lists, exceptions as `none`; induction over methods and values; **false**: solvers with one iteration or none |
| C160 | `CGTable`, `TimerEvents` | the records of the timer as functions of its calls (C156); induction over the calls; **false**: the script looks for a step which the static solver does not make |
| C161 | `CGTable`, `TimerEvents` | as C160, for the script of the scene; **false**: a step which was made once is not a list |
| C162 | `CGTimes` | measured steps as trees; the time of a step is its own time and that of its steps; induction over the trees |
| C163 | `DocInventory` | a reader of the format as specification; reading what is written, by induction over the compounds |

No property is left as not applicable.

## Findings in the code

Each of these is proved as a theorem of the model (name in parentheses) unless marked "read".

* Side table of the quadratic rectangular hexahedron (`C11_violated`); advertised Gauss counts of the quadratic rectangular types
  (`C13_violated`); rectangular quads use an iterative inverse with an absolute tolerance (`C18_quad_violated`).
* Regular grid: points outside are located in cells (`C28_violated`, `C29_violated`, `C30_violated`).
* Barycentric container: the absolute Newton tolerance accepts a wrong position in small elements (`C33_violated`, `C36_violated`).
* Mesh: `add_domain(domain, name)` accepts a name twice (`C37_violated`); `remove` of any but the first domain never returns
  (`C38_hangs`); copies and moves keep pointers to the original (`C39_copy_violated`, `C40_copy_violated`, `C40_move_violated`);
  coordinates beyond the dimension are never written (`C71_violated`).
* Corotational forces: `K()` reads wrong blocks and adds at every initialisation (`C49_violated`, `C49_reinit_violated`); the tangent at
  rest ignores the initial rotation (`C74_violated`).
* The Gauss rules of the quadratic tetrahedron and hexahedron do not give the volume of curved elements (`C83_violated`).
* Corotational forces store the signed determinant (hyperelastic ones its absolute value): a reversed rest element gives a stiffness of
  the wrong sign (`C82_orientation_needed`).
* Static solver: the projective constraints are applied to the matrix before the mapped stiffness is added, so that a mapped force
  moves fixed degrees of freedom (`C84_violated`); `EigenSolver::assemble` and the backward Euler solver use the same order.
* Hyperelastic component: the stiffness is assembled at its first use, with the positions and the parameters of that time
  (`C87_positions_violated`, `C87_parameters_violated`); forces use the coefficients of the last `before_update` while the energy does
  not refresh them (`C88_parameters_violated`); elements over a mesh of SOFA are built at `position`, not `rest_position`
  (`C88_rest_violated`); `init` dereferences a missing mechanical state (`C89_violated`); `cond()` returns the inverse of the
  condition number (`C90_violated`).
* Linear solvers: a matrix of the same size with another pattern is factorized with the old analysis (`C85_violated`); the zero solution
  of a null right-hand side is not written (`C85_cg_violated`). `p_A_is_factorized` is never read.
* Bounding box: wrong minimum (`C51_violated`), third coordinate in the plane (`C51_plane_violated`).
* Traction: reset empties the nodal forces (`C75_violated`, `C75_incremental_violated`), a second init doubles the load
  (`C75_init_twice_violated`).
* Conjugate gradient: no convergence reported for a null right-hand side or a good guess (`C52_violated`).
* Newton-Raphson: `C54_violated`, `C54_single_violated`, `C54_stale_violated`. Legacy static: `C78_violated`, `C78_exact_violated`.
* The legacy static solver with the conjugate gradient (C151): a step whose linear solve has reached its limit is taken with the method `None` and thrown away with the others (`C151_limit_violated`); with a warm start and a preconditioner, the solver leaves the equilibrium which it has found, because a zero solution is reported as a failure and the former increment is added again (`C151_warm_violated`).
* The cells of the beam of the benchmarks (C155) are not of the size which is written in the scripts, since the number of cells is rounded down: 5/3 by 5/3 by 3/2 for a size of 3/2 (`C155_violated`).
* `HyperelasticForcefield::initialize_elements` (C156) returns without ending its step of the timer if there is no mechanical object; both conjugate gradients jump over the decrement of the counter if the first residual is small enough, and tell one iteration (`C156_violated`).
* The table of the benchmark of the stored tensors (C157) leaves out time steps with a single Newton iteration (the timer gives a dictionary instead of a list), and ends with an exception if one with several iterations follows or if a time step needs none (`C157_violated`).
* `assemble` of the Python binding of the conjugate gradient solver (C158) resizes the matrix of the solver without analysing it: with an incomplete factorization, if it is called before the first solve, this solve finds no change of size and factorizes without analysis (`C158_violated`).
* The tables of the benchmarks of the direct solvers (C159) have no column for a solver which needed a single Newton iteration; the script of the beam ends with an exception if one needs none (`C159_violated`).
* The benchmark of the conjugate gradients (C160) looks for the step `ConjugateGradient::solve` of the timer, which is only made by `solveSystem` without a preconditioner; with `StaticODESolver`, as in its scene, the number of iterations is always shown as a dash (`C160_violated`).
* The scene `conjugate_gradient_benchmark.py` (C161) iterates over the record of `cg_iteration` as over a list; after a solve in a single iteration it is a dictionary, and the script ends with an exception. A system which is solved already is shown with one iteration (`C161_violated`).
* The moved points of the benchmark of the direct solvers (C154) go beyond their goal if the duration is not a multiple of the time step, and by a factor if the time step of the scene is not the one (1) which is written in the script (`C154_violated`).
* Records read from Python (C153): `squared_residuals` and the records of the linear solver are references to the vectors of the solver, so that what a script has kept of one step shows the next one; an entry of `iterative_linear_solver_squared_residuals` is a dangling reference after a step with fewer iterations or a greater limit (`C153_violated`). `squared_initial_residual` of the legacy solver has no initialiser and is read uninitialised before the first step (`C153_early_violated`).
* `Validation/fenics_rectangular_beam_bending_euler_implicit.py` is an empty file, although a unit test refers to it for its reference solution (not a property, no model).
* The integration factors of the legacy static solver (C152) are those of an implicit Euler step solved for the velocity: a solution is said to move the positions by the time step and the velocities by one. The solver adds the solution itself to the positions and does not touch the velocities (`C152_violated`). A negative order of derivation reads outside of the table (`C152_range`).
* The legacy static solver ignores failures of the linear solver (C150): `EigenSolver::solveSystem` only copies a solution when there is one and returns nothing; the increment is then zero, which the correction criterion takes for convergence (`C150_failure_violated`), or with a warm start the former increment, which is added again. Forces whose square is below the relative threshold are accepted at once (`C150_start_violated`).
* Backward Euler: `C56_violated`, `C56_frozen_violated`, `C56_rayleigh_violated`, `C77_violated`.
* Backward Euler does not project velocities on the constraints: a fixed degree of freedom with a velocity drifts
  (`C96_drift_violated`); mapped stiffness on fixed degrees of freedom moves them (`C96_mapped_violated`).
* The neo-Hookean energy is negative for some compressions when the Poisson ratio is negative (`C95_violated`).
* Corotation: the frame of an element follows the first nodes of its list, so listing a tetrahedron in another order (a rotation of the
  same tetrahedron) changes the forces, by a factor two in the witness (`C98_corotated_violated`).
* Corotation: `compute_K` builds the element matrix with gradients in the axes of the world, and `addForce` applies it to displacements in
  the axes of the element.  Turning the whole scene, rest positions included, therefore changes the forces: by a factor two in the witness
  (`C99_corotated_violated`).
* `MultiVecEqualVisitor`: `internal_copy` never shortens the target, so that after `a := b` the last entries of a longer `a` remain
  (`C100_copy_violated`).
* `Hexahedron<Quadratic>` has the quadrature rule of the linear hexahedron (8 points, 48 strain components for 60 unknowns): a
  hyperelastic body made of one has a singular stiffness matrix even when its eight corners are fixed (`C101_hexa2_violated`).
  Some quadratic tetrahedra with curved edges have the same defect although their Jacobian determinant is constant
  (`C101_tetra2_violated`).
  The option `OnePointGauss` of `HexahedronElasticForce` has the same effect on linear hexahedra (`C101_onepoint_violated`).
* `FictitiousGrid`: for a triangle mesh the cells inside and outside are only marked in the trees; `get_type_at` and
  `cell_volume_ratio_distribution` read `p_cells_types`, where they stay `Undefined`: no point is ever inside and no inner cell is
  listed (`C102_mesh`, `C102_mesh_violated`).  With an implicit surface in three dimensions a reference to an entry of the empty
  `p_triangles_of_cell` is taken (`C102_iso3_violated`).
* `FictitiousGrid`: a second initialisation resizes `p_cells_types` and `p_triangles_of_cell` without clearing them: cells of the old
  surface stay `Boundary` (`C103_types_violated`), and triangles are read out of range when the new mesh has fewer of them
  (`C103_fewer_violated`).  The default bounds are those of the first surface (`C103_bounds_violated`), and a single given bound is
  replaced by the bounding box (`C103_oneBound_violated`).
* `HyperelasticForcefieldStoreFAndS` (benchmark): `init` assembles the stiffness from integration points whose stress is the identity
  and whose determinant is zero (`C104_init_violated`).  The components which store tensors assemble with the tensors of the last force
  evaluation, not with the positions and, if the stress is stored, not with the parameters of the call
  (`C104_positions_violated`, `C104_parameters_violated`); with respect to the positions this is the better behaviour, since the product
  is the derivative of the forces last returned (`C104_stored_tangent`), which the library does not guarantee.
* `CylinderIsoSurface`: the length is a parameter which is read by nothing, the cylinder has no ends (`C105_cylinder_violated`).
  `FictitiousGrid` with an implicit surface: a cell of the coarse grid whose nodes are all outside is never refined, so that a small
  object is lost at every number of levels (`C105_missed_violated`).
* `FictitiousGrid::init`: with several implicit surfaces in the node the warning which announces that the first one will be used
  dereferences the empty link (`C106_isos_violated`); a single container without triangles, or without points, is taken although two of
  them would stop the initialisation (`C106_empty_violated`); triangles which were found are copied while positions are linked, so that
  a second initialisation mixes old triangles and new points (`C106_stale_violated`).
* `HexahedronElasticForce::draw`: the triangles of two of the six faces turn the other way (`C107_orientation_violated`).
  `TetrahedronElasticForce::draw` computes `0.666667 (x + g/2)` instead of `g + 2/3 (x - g)`; the difference is `5e-7 g` with the mean `g`, and
  a tetrahedron far from the origin is drawn outside of itself (`C107_tetraForce_violated`).
* `HexahedronElasticForce` and `TetrahedronElasticForce`: the indices are compared with `X.size()-1`, which is the largest number when there
  are no nodes (`C108_empty_violated`); `addKToMatrix` does not compare the sizes and reads matrices which do not exist after an
  initialisation which failed (`C108_matrix_violated`) or when elements were added (`C108_changed_violated`, where `addForce` silently
  adds nothing); `draw`, `computeBBox` and `K()` follow the null pointer when there is no mechanical state (`C108_state_violated`,
  `C108_getK_violated`); `HexahedronElasticForce::reinit` keeps the former matrices when it fails, and `addForce` then reads missing
  positions (`C108_stale_violated`).
* `getPotentialEnergy` of `HexahedronElasticForce` and `TetrahedronElasticForce` returns zero in every configuration
  (`C109_energy_violated`). The corotational forces derive from no energy at all, because the frame is not that of the polar
  decomposition and its variation is not part of the force: turning a sheared tetrahedron once about an axis costs the work pi/6
  (`C109_work_violated`, `C109_potential_violated`), and the internal forces exert a total moment (`C109_moment_violated`).
* `ConjugateGradientSolver`: `None` is documented as the default of `preconditioning_method`, the constructor selects `Identity`
  (`C110_default_violated`). The pattern is only analysed when the size of the system changes: after selecting an incomplete
  factorization during a simulation, `factorize` runs without analysis (`C110_switch_violated`); `resetSystem` repairs it
  (`C110_run_partial`). A preconditioner selected between `setSystemMBKMatrix` and `solveSystem` follows a pointer never set
  (`C110_pending_violated`). `None` writes the solution zero of a null right-hand side and iterates which did not converge, the other
  methods write neither (`C110_null_violated`, `C110_unconverged_violated`).
* `CaribouBarycentricMapping::init` compares no sizes: with a parent object which has not one node per node of the mesh, or a number of
  rest positions other than the number of mapped nodes, an exception leaves `init` or the mapping matrix is filled out of range
  (`C111_parent_violated`, `C111_rest_violated`). A domain without elements throws too (`C111_elements_violated`). The early returns of
  a second `init` keep the container of the first: the mapping stays active and reads empty vectors (`C111_again_violated`).
* Python: `Domain` is bound with a holder which deletes nothing and nothing keeps its mesh alive (no `keep_alive`): a domain, an array of
  `element_indices` or a `BarycentricContainer` used after the last reference on the mesh reads freed memory (`C112_violated`,
  `C112_freed`). `add_domain` of Python accepts elements of another dimension than the mesh (`C112_dimension_violated`) and any index,
  also negative (`C112_index_violated`). `BarycentricContainer.interpolate` returns uninitialised rows for the points outside of all
  elements (`C112_outside_violated`).
* Python: `RectangularHexahedron(n0, …, n7)` and `RectangularHexahedron(n0, …, n19)` return a `Hexahedron`
  (`RectangularHexahedron.cpp:103-104,121`, `C113_rectangular_violated`); `Triangle(_1D)` and `Quad(_1D)` return three-dimensional
  elements (`C113_dimension_violated`).
* Fictitious grid, drawing: `draw_inside_cells`, `draw_outside_cells` and `draw_boundary_cells` only draw the cells on the boundary of
  their region (`FictitiousGrid.inl:1123`, `C114_violated`); `draw_scale` is only read during the initialisation
  (`FictitiousGrid.inl:1085`, `C114_scale_violated`); `computeBBox` does not order the corners as `create_grid` does
  (`FictitiousGrid.h:257-273`, `C114_bbox_violated`) and leaves the box alone unless `onlyVisible` is set.
* Python grids: `cell_coordinates_at(world_coordinates)` and `node(node_coordinates)` are given to the base class, and hidden by the functions
  of the derived class with the same names (`Python/Topology/Grid.cpp:32-35,51-53`, `C115_violated`); `Grid2D.cell_at` returns an object of a
  class which is registered nowhere (`C115_cell_at_violated`); negative numbers of cells become huge ones, coordinates with decimals are
  truncated (`C115_make_violated`); `cell_index_containing` has another default for `test_for_boundary` in Python than in C++.
* Python hash grids: `Hexahedron20HashGrid` is for elements of 8 nodes and `Hexahedron8HashGrid` for those of 20
  (`Python/Topology/HashGrid.cpp:34-35`, `C116_names_violated`); `HashGrid` returns `None` for anything which is not a class of elements, such
  as the function `Tetrahedron` (`C116_none_violated`); a negative cell size is accepted and loses elements (`C116_size_violated`).
* Creation: `CaribouBarycentricMapping::canCreate` looks for the path of the topology from the root
  (`CaribouBarycentricMapping.inl:331`) while the link is relative to the node of the mapping (`C117_path_violated`); without attributes,
  each class looks for its own type in all ancestors, so that a farther topology can be preferred to the one of the parent
  (`C117_nearest_violated`); `CaribouTopology` has no `canCreate`, an unknown template silently gives hexahedra (`C117_topology_violated`).
* Assembly with mappings: the constraints are applied before `computeGlobalMatrix` (`EigenSolver.inl:86-97`,
  `StaticODESolver.cpp:78-89`), which then adds the mapped stiffness to the rows of fixed degrees of freedom (`C118_fixed_violated`);
  `CaribouBarycentricMapping` maps forces and matrices but does not override `getJ`, so that the stiffness of the force fields of its output
  is lost while their forces are kept (`C118_getJ_violated`).
* Backward Euler: the test of the absolute threshold at the beginning of a time step (`C56_frozen_violated`) prevents convergence: a
  body on which no force acts stays in place at every time step, however small (`C125_violated`).
* Newton-Raphson: a solve whose total displacement is below 3.2e-10 (`du_squared_norm < EPSILON`) is declared diverged, even when the
  residual is exactly zero, whatever the thresholds (`C126_violated`).
* Points on the sides of distorted elements (C129): `Element::local_coordinates` stops when the residual is less than 1e-5 times the initial one, whereas `contains_local` is called with the tolerance 1e-10. In two almost rectangular quads side by side, a point of their common side is inside of the mesh but found in neither quad, hence reported outside and left out of the barycentric mappings.
* Curved elements and the hash grid (C131): `HashGrid::add` registers an element in the cells of the box of its nodes, but the side of a quadratic element can leave this box. A point strictly inside of an unfolded quad of eight nodes is then looked up in a cell where the element is missing and is reported outside of the mesh.
* Energy of a traction load (C132): `TractionForcefield::getPotentialEnergy` prints an error and returns zero, so the energies summed over a loaded scene (`getPotentialEnergy` of all force fields) are not a potential of the forces.
* Double free after a move (C134): moving a `Mesh` leaves `p_mesh` of its domains on the mesh they come from, so `add_domain(pointer)` of that mesh accepts them again and both meshes own them; destroying both frees them twice.
* Mesh scripts (C139): `create_beam_mesh.py` applies `n[0]` to the lines along y and `n[1]` to those along x, replaces the second corner by the first one plus the size, makes a surface without an error when three numbers are given for corners of equal height, and ignores `--gmsh`; `create_cylinder_mesh.py` hands `quads` to the parameter `verbose`, so that the types `q1` and `q2` make tetrahedra and `--verbose` is ignored.
* Time steps (C141): the first iteration of a backward Euler step evaluates the forces at the positions of the last step and `h v` is not added before it, so a step of one iteration, the default, is not the implicit step: it conserves an energy in scenes without damping, which oscillate forever (`C141_violated`).
* Moving domains (C142): the move constructor of `Domain` and `swap` do not touch `p_mesh`: the mesh of a moved domain is an uninitialised pointer (`C142_move_violated`), and exchanging domains of two meshes makes elements of the wrong nodes (`C142_swap_violated`).
* Scene `multiple_materials.py` (C144): the boxes which select the elements of the two halves of the beam overlap (`z` up to 40.1 and from 30.9), so the cells of the two layers between 32 and 40 belong to both force fields and are as stiff as both materials together (`C144_scene_violated`, `C144_overlap`).
* Static solves with the conjugate gradient (C146): `p_DX` is not cleared between Newton iterations, which is harmless for tolerances up to a third; but when the absolute threshold is disabled and an iteration reaches the equilibrium exactly, the next iteration calls the conjugate gradient with a zero right-hand side, it returns false (C52) and the Newton solver reports divergence (`C146_violated`).
* Validation with FEniCS (C147): line 137 divides by the norm of the forces left by the first iteration and by the norm of the displacement; when one of them is zero (a linear problem, a zero traction) Python raises `ZeroDivisionError` before the test of the absolute tolerance of line 140 (`C147_violated`).
* Validation with FEBio (C148): `indices[~mask]` (lines 60-65) has three dimensions when all the cells of a block have the tag, and two otherwise. The volume elements are read with `indices[0]` (line 118) and the surfaces with `indices` (lines 124 and 131), so a volume block with two tags, or a block which is entirely on the base or on the top, raises (`C148_volume_violated`, `C148_surface_violated`). Two blocks of the same type and size lose the first one without a message (`C148_lost_violated`), other sizes raise, as does a base of two types (`C148_concatenate_violated`). The numbers of the volume elements start again at one for every type (`C148_numbers_violated`). A zero traction is written as nan (`C148_loads_violated`).
* Time steps with the conjugate gradient (C149): the first right-hand side is evaluated at the positions before they move with the velocities (C56), so that the second one is not small; when the first increment, which is the guess of the second iteration, solves the second system, the conjugate gradient returns false and the step is abandoned, e.g. for a unit mass on a unit spring at `x = v = 1` with `dt = 1` (`C149_violated`).
* Validation: `sympy_solution.compute(mu, lmbda, rad, length)` does not use `mu` and `lmbda`: line 9 sets `l, m = 1.25, 1.`
  (`C120_compute_violated`).  The displacement documented in `manufactured_solution.py:6-8` (`1e-3 z exp(x)`) is not the one of the
  code (`z exp(x / length)`).
* Lookups: `CaribouForcefield::init` reads through a null pointer with several topologies and `printLog` (`C97_crash_violated`); without a
  template name the first of several topologies is taken silently (`C97_guess_violated`); the Newton solver replaces a designated solver
  which is not compatible (`C97_solver_violated`).
* Sparse matrix wrapper: `C57_violated`, `C58_violated`.
* Fictitious grid: `C63_violated`, `C65_violated`, `C65_coarse_violated`, `C66_violated`, `C67_violated`.
* VTK reader: `C68_violated`. Topology: `C80_violated`, `C80_dangling`, `C80_overridden` (an attached domain is replaced at `init`).
* Read, not proved: the three-dimensional iso-surface path never resizes `p_triangles_of_cell`; `types[3]` is indexed by the value 4;
  `get_node_indices_of` uses the hexahedra in two dimensions too; `Tetrahedron/HexahedronElasticForce::reinit` computes `X.size()-1`
  on an empty state; `HyperelasticMaterial` documents the Jacobian as `dS/dC` and returns `2 dS/dC`; `hexahedron.frame()` calls a
  function that does not exist.
* Read, not proved: the hyperelastic stiffness assumes that the node indices of an element are distinct; switching `corotated` off and
  calling `reinit` keeps the rotations of the last force; the matrix of `HexahedronElasticForce::K()` is kept when the rotations change;
  the flag of the pattern analysis is not reset when the linear solver is replaced; a dense matrix wrapper made from dimensions is not
  initialised; the size of the parent is not checked by the barycentric mapping; a failed second `init` of the topology keeps the old
  domain.
