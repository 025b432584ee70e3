import Verif.Props.Accuracy
import Verif.Props.BackwardEuler
import Verif.Props.Bar
import Verif.Props.Barycentric
import Verif.Props.BaseVector
import Verif.Props.BeamScenes
import Verif.Props.BenchmarkMotion
import Verif.Props.BenchmarkTable
import Verif.Props.Boundary
import Verif.Props.BoxSolution
import Verif.Props.CGComponent
import Verif.Props.CGDynamic
import Verif.Props.CGRate
import Verif.Props.CGStatic
import Verif.Props.CGTable
import Verif.Props.CGTimes
import Verif.Props.Canonical
import Verif.Props.Composite
import Verif.Props.ConjugateGradient
import Verif.Props.Consistency
import Verif.Props.Continuity
import Verif.Props.Convergence
import Verif.Props.CorotComponent
import Verif.Props.CorotEnergy
import Verif.Props.CorotLife
import Verif.Props.Corotational
import Verif.Props.Creation
import Verif.Props.DirectTable
import Verif.Props.Distorted
import Verif.Props.DocInventory
import Verif.Props.DomainMove
import Verif.Props.Drawing
import Verif.Props.DynamicODE
import Verif.Props.EigenMatrix
import Verif.Props.EigenSolver
import Verif.Props.Energy
import Verif.Props.FebioScript
import Verif.Props.FenicsScript
import Verif.Props.FictitiousGauss
import Verif.Props.FictitiousGrid
import Verif.Props.FictitiousLife
import Verif.Props.FictitiousLookup
import Verif.Props.FictitiousOutside
import Verif.Props.FictitiousRatios
import Verif.Props.FictitiousSparse
import Verif.Props.FictitiousSurface
import Verif.Props.FictitiousTags
import Verif.Props.Galerkin
import Verif.Props.GlobalSystem
import Verif.Props.Grid
import Verif.Props.GridDrawing
import Verif.Props.GridLocate
import Verif.Props.GridMesh
import Verif.Props.HashGrid
import Verif.Props.HeldBody
import Verif.Props.HyperComponent
import Verif.Props.HyperObjectivity
import Verif.Props.Hyperelastic
import Verif.Props.IntegrationFactors
import Verif.Props.Intersect
import Verif.Props.IsoSurfaces
import Verif.Props.LegacyCG
import Verif.Props.LegacyScene
import Verif.Props.LegacyStatic
import Verif.Props.LinearStatics
import Verif.Props.LoadHistory
import Verif.Props.LocalCoordinates
import Verif.Props.Lookup
import Verif.Props.Manufactured
import Verif.Props.ManufacturedStress
import Verif.Props.Mapping
import Verif.Props.MappingComponent
import Verif.Props.Material
import Verif.Props.Mesh
import Verif.Props.MeshMemory
import Verif.Props.MeshScripts
import Verif.Props.Momentum
import Verif.Props.Motion
import Verif.Props.NearAffine
import Verif.Props.NearNewton
import Verif.Props.Newton
import Verif.Props.NodeOrder
import Verif.Props.Objectivity
import Verif.Props.OrderRaise
import Verif.Props.Patch
import Verif.Props.PyAssemble
import Verif.Props.PyFactories
import Verif.Props.PyGrid
import Verif.Props.PyHashGrid
import Verif.Props.PyRecords
import Verif.Props.PyTopology
import Verif.Props.Quadratic
import Verif.Props.Quadrature
import Verif.Props.Rectangular
import Verif.Props.Refinement
import Verif.Props.Report
import Verif.Props.Settle
import Verif.Props.Shape
import Verif.Props.Similarity
import Verif.Props.SmallAgree
import Verif.Props.SmallLoads
import Verif.Props.SmallStrain
import Verif.Props.Stability
import Verif.Props.StaticODE
import Verif.Props.StaticPatch
import Verif.Props.StoredTensors
import Verif.Props.Supports
import Verif.Props.SurfaceDrawing
import Verif.Props.Symmetry
import Verif.Props.TimerEvents
import Verif.Props.Topology
import Verif.Props.Traction
import Verif.Props.TractionWork
import Verif.Props.VTK

/-! Axioms of every theorem listed in `MANIFEST.json`. -/

#print axioms Caribou.C01_partition_of_unity
#print axioms Caribou.C02_nodal
#print axioms Caribou.C02_interpolate_at_node
#print axioms Caribou.C02_world_coordinates_at_node
#print axioms Caribou.C03_derivative
#print axioms Caribou.C04_derivatives_sum_to_zero
#print axioms Caribou.C04_jacobian_translation
#print axioms Caribou.C05_affine_reproduction
#print axioms Caribou.C05_affine_geometry
#print axioms Caribou.C06_quadratic_reproduction
#print axioms Caribou.C07_jacobian_is_derivative
#print axioms Caribou.C08_triangle_from_linear
#print axioms Caribou.C08_quad_from_linear
#print axioms Caribou.C08_tetra_from_linear
#print axioms Caribou.C08_hexa_from_linear
#print axioms Caribou.C09_boundary_is_trace
#print axioms Caribou.C09_neighbours_match
#print axioms Caribou.C09_side_is_facet
#print axioms Caribou.C10_closed
#print axioms Caribou.C10_outward
#print axioms Caribou.C10_plane
#print axioms Caribou.C11_violated
#print axioms Caribou.C11_wrong_centre
#print axioms Caribou.C11_corners_partial
#print axioms Caribou.C12_inside_positive
#print axioms Caribou.C12_tensor_exact
#print axioms Caribou.C12_triangle_exact
#print axioms Caribou.C12_tetra
#print axioms Caribou.C12_weights
#print axioms Caribou.C13_violated
#print axioms Caribou.C13_gauss_count_partial
#print axioms Caribou.C14_contains_iff
#print axioms Caribou.C14_monotone
#print axioms Caribou.C14_accepts
#print axioms Caribou.C14_inverted
#print axioms Caribou.C15_affine_inverse
#print axioms Caribou.C15_unique
#print axioms Caribou.C15_segment
#print axioms Caribou.C15_triangle
#print axioms Caribou.C15_tetra
#print axioms Caribou.C16_exit
#print axioms Caribou.C16_step_is_newton
#print axioms Caribou.C17_projection
#print axioms Caribou.C17_segment
#print axioms Caribou.C17_triangle
#print axioms Caribou.C18_local_of_world
#print axioms Caribou.C18_world_of_local
#print axioms Caribou.C18_contains
#print axioms Caribou.C18_quad_violated
#print axioms Caribou.C18_quad_partial
#print axioms Caribou.C18_quad3_partial
#print axioms Caribou.C19_hexa_world
#print axioms Caribou.C19_quad_world2
#print axioms Caribou.C19_quad_world3
#print axioms Caribou.C19_from_hexa
#print axioms Caribou.C19_from_hexa_same_map
#print axioms Caribou.C19_from_quad2
#print axioms Caribou.C19_from_quad3
#print axioms Caribou.C19_frame
#print axioms Caribou.C20_tetra
#print axioms Caribou.C20_hexa
#print axioms Caribou.C20_tetra_rigid
#print axioms Caribou.C20_hexa_rigid
#print axioms Caribou.C20_tetra_identity
#print axioms Caribou.C20_hexa_identity
#print axioms Caribou.C21_segment
#print axioms Caribou.C21_world
#print axioms Caribou.C22_triangle
#print axioms Caribou.C22_degenerate
#print axioms Caribou.C22_local
#print axioms Caribou.C22_world
#print axioms Caribou.C23_coordinates
#print axioms Caribou.C23_index
#print axioms Caribou.C23_count
#print axioms Caribou.C24_coordinates
#print axioms Caribou.C24_index
#print axioms Caribou.C24_count
#print axioms Caribou.C25_1d
#print axioms Caribou.C25_2d
#print axioms Caribou.C25_3d
#print axioms Caribou.C26_2d_sound
#print axioms Caribou.C26_2d
#print axioms Caribou.C26_3d_sound
#print axioms Caribou.C26_3d
#print axioms Caribou.C27_sound
#print axioms Caribou.C27
#print axioms Caribou.C28_partial
#print axioms Caribou.C28_open_partial
#print axioms Caribou.C28_violated
#print axioms Caribou.C29_partial
#print axioms Caribou.C29_violated
#print axioms Caribou.C30_partial
#print axioms Caribou.C30_violated
#print axioms Caribou.C31_complete
#print axioms Caribou.C32_sound
#print axioms Caribou.C33_found
#print axioms Caribou.C33_not_found
#print axioms Caribou.C33_affine_partial
#print axioms Caribou.C33_violated
#print axioms Caribou.C34_complete
#print axioms Caribou.C34_triangle
#print axioms Caribou.C34_tetra
#print axioms Caribou.C34_surface
#print axioms Caribou.C35_bookkeeping
#print axioms Caribou.C36_linear
#print axioms Caribou.C36_located
#print axioms Caribou.C36_affine_partial
#print axioms Caribou.C36_violated
#print axioms Caribou.C37_partial
#print axioms Caribou.C37_rejected
#print axioms Caribou.C37_added
#print axioms Caribou.C37_automatic_partial
#print axioms Caribou.C37_violated
#print axioms Caribou.C38_partial
#print axioms Caribou.C38_hangs
#print axioms Caribou.C38_never_returns
#print axioms Caribou.C38_violated
#print axioms Caribou.C39_positions
#print axioms Caribou.C39_element
#print axioms Caribou.C39_added
#print axioms Caribou.C39_nodes_unchanged
#print axioms Caribou.C39_stable
#print axioms Caribou.C39_copy_violated
#print axioms Caribou.C40_attach
#print axioms Caribou.C40_add
#print axioms Caribou.C40_listed_partial
#print axioms Caribou.C40_copy_violated
#print axioms Caribou.C40_move_violated
#print axioms Caribou.C71_partial
#print axioms Caribou.C71_violated
#print axioms Caribou.C41_stress_is_gradient
#print axioms Caribou.C41_stress_is_gradient_strain
#print axioms Caribou.C41_jacobian_is_derivative
#print axioms Caribou.C41_rest_and_symmetry
#print axioms Caribou.C41_energy_nonneg
#print axioms Caribou.C41_young_poisson
#print axioms Caribou.C42_stress_is_gradient
#print axioms Caribou.C42_first_piola
#print axioms Caribou.C42_rest_and_symmetry
#print axioms Caribou.C43_jacobian_is_derivative
#print axioms Caribou.C43_symmetric
#print axioms Caribou.C43_rest_tangent
#print axioms Caribou.C44_dyad1_entries
#print axioms Caribou.C44_dyad2_entries
#print axioms Caribou.C44_symmetric
#print axioms Caribou.C44_dyad1_action
#print axioms Caribou.C44_dyad2_action
#print axioms Caribou.C45_affine
#print axioms Caribou.C45_displacement_eq_position
#print axioms Caribou.C45_rigid
#print axioms Caribou.C46_element
#print axioms Caribou.C46_total
#print axioms Caribou.C47_symmetric
#print axioms Caribou.C47_same_operator
#print axioms Caribou.C47_derivative_svk
#print axioms Caribou.C47_derivative_neohookean
#print axioms Caribou.C48_hyperelastic
#print axioms Caribou.C48_tetra
#print axioms Caribou.C48_hexa
#print axioms Caribou.C49_violated
#print axioms Caribou.C49_reinit_violated
#print axioms Caribou.C49_reinit_partial
#print axioms Caribou.C49_cache_partial
#print axioms Caribou.C49_tetra_reinit
#print axioms Caribou.C72_force_is_gradient_svk
#print axioms Caribou.C72_force_is_gradient_neohookean
#print axioms Caribou.C73_tetra
#print axioms Caribou.C73_hexa
#print axioms Caribou.C74_violated
#print axioms Caribou.C74_tetra_partial
#print axioms Caribou.C74_hexa_partial
#print axioms Caribou.C50_constant
#print axioms Caribou.C50_incremental
#print axioms Caribou.C50_plane
#print axioms Caribou.C50_triangles
#print axioms Caribou.C50_parallelograms
#print axioms Caribou.C50_nodes
#print axioms Caribou.C51_violated
#print axioms Caribou.C51_plane_violated
#print axioms Caribou.C51_partial
#print axioms Caribou.C52_residual
#print axioms Caribou.C52_limit
#print axioms Caribou.C52_sound
#print axioms Caribou.C52_partial
#print axioms Caribou.C52_violated
#print axioms Caribou.C52_matrix_free
#print axioms Caribou.C53_terminates
#print axioms Caribou.C53_exact
#print axioms Caribou.C53_orthogonal
#print axioms Caribou.C53_conjugate
#print axioms Caribou.C53_preconditioners
#print axioms Caribou.C75_violated
#print axioms Caribou.C75_incremental_violated
#print axioms Caribou.C75_init_twice_violated
#print axioms Caribou.C75_partial
#print axioms Caribou.C54_violated
#print axioms Caribou.C54_single_violated
#print axioms Caribou.C54_stale_violated
#print axioms Caribou.C54_partial
#print axioms Caribou.C55_never
#print axioms Caribou.C55_always
#print axioms Caribou.C55_time_step
#print axioms Caribou.C55_simulation
#print axioms Caribou.C56_violated
#print axioms Caribou.C56_frozen_violated
#print axioms Caribou.C56_rayleigh_violated
#print axioms Caribou.C56_propagation
#print axioms Caribou.C56_residual
#print axioms Caribou.C56_linear_partial
#print axioms Caribou.C56_two_iterations
#print axioms Caribou.C56_derivative
#print axioms Caribou.C77_violated
#print axioms Caribou.C77_partial
#print axioms Caribou.C77_two_iterations
#print axioms Caribou.C57_violated
#print axioms Caribou.C57_partial
#print axioms Caribou.C57_flag_matters
#print axioms Caribou.C57_dense
#print axioms Caribou.C58_violated
#print axioms Caribou.C58_cleared
#print axioms Caribou.C58_partial
#print axioms Caribou.C58_dense
#print axioms Caribou.C59_rows
#print axioms Caribou.C59_applyJ
#print axioms Caribou.C59_power
#print axioms Caribou.C59_resultant
#print axioms Caribou.C59_affine
#print axioms Caribou.C59_constraints
#print axioms Caribou.C59_not_ready
#print axioms Caribou.C59_example
#print axioms Caribou.C60_weights
#print axioms Caribou.C60_leaves
#print axioms Caribou.C60_tiling
#print axioms Caribou.C60_validate
#print axioms Caribou.C61
#print axioms Caribou.C61_symmetric
#print axioms Caribou.C61_all
#print axioms Caribou.C62
#print axioms Caribou.C62_grid
#print axioms Caribou.C63_partial
#print axioms Caribou.C63_2d
#print axioms Caribou.C63_violated
#print axioms Caribou.C64
#print axioms Caribou.C64_weight
#print axioms Caribou.C65_weights
#print axioms Caribou.C65_levels
#print axioms Caribou.C65_partial
#print axioms Caribou.C65_coarse
#print axioms Caribou.C65_violated
#print axioms Caribou.C65_coarse_violated
#print axioms Caribou.C66_partial
#print axioms Caribou.C66_violated
#print axioms Caribou.C67_partial
#print axioms Caribou.C67_subdivision
#print axioms Caribou.C67_zero
#print axioms Caribou.C67_violated
#print axioms Caribou.C68_partial
#print axioms Caribou.C68_hexahedron
#print axioms Caribou.C68_meshio
#print axioms Caribou.C68_violated
#print axioms Caribou.C69
#print axioms Caribou.C69_3d
#print axioms Caribou.C69_empty
#print axioms Caribou.C70
#print axioms Caribou.C70_init
#print axioms Caribou.C70_assigned
#print axioms Caribou.C76_tetra
#print axioms Caribou.C76_hexa
#print axioms Caribou.C79
#print axioms Caribou.C80_partial
#print axioms Caribou.C80_attached
#print axioms Caribou.C80_violated
#print axioms Caribou.C80_dangling
#print axioms Caribou.C80_overridden
#print axioms Caribou.C78_partial
#print axioms Caribou.C78_violated
#print axioms Caribou.C78_exact_violated
#print axioms Caribou.C81_svk
#print axioms Caribou.C81_neohookean
#print axioms Caribou.C82_tetra
#print axioms Caribou.C82_hexa
#print axioms Caribou.C82_null
#print axioms Caribou.C82_svk_tensile
#print axioms Caribou.C82_hyper_rest
#print axioms Caribou.C82_orientation_needed
#print axioms Caribou.C83_partial
#print axioms Caribou.C83_exact
#print axioms Caribou.C83_affine
#print axioms Caribou.C83_straight
#print axioms Caribou.C83_violated
#print axioms Caribou.C84_system_partial
#print axioms Caribou.C84_fixed_partial
#print axioms Caribou.C84_equilibrium_partial
#print axioms Caribou.C84_violated
#print axioms Caribou.C85_start
#print axioms Caribou.C85_direct_partial
#print axioms Caribou.C85_violated
#print axioms Caribou.C85_cg_partial
#print axioms Caribou.C85_cg_spd_partial
#print axioms Caribou.C85_cg_violated
#print axioms Caribou.C86_tetra
#print axioms Caribou.C86_hexa
#print axioms Caribou.C86_interior
#print axioms Caribou.C86_energy
#print axioms Caribou.C86_virial
#print axioms Caribou.C87_partial
#print axioms Caribou.C87_init
#print axioms Caribou.C87_eigenvalues
#print axioms Caribou.C87_positions_violated
#print axioms Caribou.C87_parameters_violated
#print axioms Caribou.C88_partial
#print axioms Caribou.C88_after_force
#print axioms Caribou.C88_parameters_violated
#print axioms Caribou.C88_rest_violated
#print axioms Caribou.C89_partial
#print axioms Caribou.C89_violated
#print axioms Caribou.C90_partial
#print axioms Caribou.C90_violated
#print axioms Caribou.C91
#print axioms Caribou.C91_first
#print axioms Caribou.C91_object
#print axioms Caribou.C91_bounds
#print axioms Caribou.C91_outside
#print axioms Caribou.C91_resolution
#print axioms Caribou.C92
#print axioms Caribou.C92_loads
#print axioms Caribou.C93_tetra
#print axioms Caribou.C93_hexa
#print axioms Caribou.C94_forces
#print axioms Caribou.C94_regular
#print axioms Caribou.C94_tetra
#print axioms Caribou.C94_hexa
#print axioms Caribou.C94_tetra_held
#print axioms Caribou.C94_hexa_held
#print axioms Caribou.C95_svk
#print axioms Caribou.C95_neohookean_partial
#print axioms Caribou.C95_distances
#print axioms Caribou.C95_violated
#print axioms Caribou.C96_system_partial
#print axioms Caribou.C96_step_partial
#print axioms Caribou.C96_fixed_partial
#print axioms Caribou.C96_motion_partial
#print axioms Caribou.C96_drift_violated
#print axioms Caribou.C96_mapped_violated
#print axioms Caribou.C97_topology_partial
#print axioms Caribou.C97_designated
#print axioms Caribou.C97_elements
#print axioms Caribou.C97_template
#print axioms Caribou.C97_create_partial
#print axioms Caribou.C97_create_designated
#print axioms Caribou.C97_material
#print axioms Caribou.C97_solver_partial
#print axioms Caribou.C97_crash_violated
#print axioms Caribou.C97_guess_violated
#print axioms Caribou.C97_solver_violated
#print axioms Caribou.C98_forces
#print axioms Caribou.C98_stiffness
#print axioms Caribou.C98_numbering
#print axioms Caribou.C98_tetrahedron
#print axioms Caribou.C98_tetra_partial
#print axioms Caribou.C98_hexa_partial
#print axioms Caribou.C98_corotated_violated
#print axioms Caribou.C99_materials
#print axioms Caribou.C99_hyperelastic
#print axioms Caribou.C99_stiffness
#print axioms Caribou.C99_tetra_partial
#print axioms Caribou.C99_hexa_partial
#print axioms Caribou.C99_corotated_violated
#print axioms Caribou.C100_vector
#print axioms Caribou.C100_defined
#print axioms Caribou.C100_wrap
#print axioms Caribou.C100_created
#print axioms Caribou.C100_dot
#print axioms Caribou.C100_dot_sizes
#print axioms Caribou.C100_copy_partial
#print axioms Caribou.C100_copy_unsupported
#print axioms Caribou.C100_copy_violated
#print axioms Caribou.C101_tetra
#print axioms Caribou.C101_hexa
#print axioms Caribou.C101_hyperelastic_partial
#print axioms Caribou.C101_solvable
#print axioms Caribou.C101_aligned
#print axioms Caribou.C101_hexa2_violated
#print axioms Caribou.C101_tetra2_violated
#print axioms Caribou.C101_onepoint_violated
#print axioms Caribou.C102_distribution
#print axioms Caribou.C102_iso
#print axioms Caribou.C102_point_iso
#print axioms Caribou.C102_iso3
#print axioms Caribou.C102_mesh
#print axioms Caribou.C102_mesh_violated
#print axioms Caribou.C102_iso3_violated
#print axioms Caribou.C103_partial
#print axioms Caribou.C103_createGrid_partial
#print axioms Caribou.C103_history_partial
#print axioms Caribou.C103_twice
#print axioms Caribou.C103_data
#print axioms Caribou.C103_bounds_kept
#print axioms Caribou.C103_types_violated
#print axioms Caribou.C103_fewer_violated
#print axioms Caribou.C103_bounds_violated
#print axioms Caribou.C103_oneBound_violated
#print axioms Caribou.C104_forces
#print axioms Caribou.C104_recompute
#print axioms Caribou.C104_partial
#print axioms Caribou.C104_storeF_init_partial
#print axioms Caribou.C104_stored_tangent
#print axioms Caribou.C104_init_violated
#print axioms Caribou.C104_positions_violated
#print axioms Caribou.C104_parameters_violated
#print axioms Caribou.C105_sign
#print axioms Caribou.C105_cylinder_partial
#print axioms Caribou.C105_cylinder_violated
#print axioms Caribou.C105_leaves_partial
#print axioms Caribou.C105_volume
#print axioms Caribou.C105_area
#print axioms Caribou.C105_missed
#print axioms Caribou.C105_missed_violated
#print axioms Caribou.C106_surface
#print axioms Caribou.C106_sound_partial
#print axioms Caribou.C106_stops
#print axioms Caribou.C106_kept
#print axioms Caribou.C106_implicit
#print axioms Caribou.C106_again
#print axioms Caribou.C106_isos_violated
#print axioms Caribou.C106_empty_violated
#print axioms Caribou.C106_stale_violated
#print axioms Caribou.C107_groups
#print axioms Caribou.C107_inside
#print axioms Caribou.C107_apart
#print axioms Caribou.C107_volume
#print axioms Caribou.C107_tetra
#print axioms Caribou.C107_corners
#print axioms Caribou.C107_hexa
#print axioms Caribou.C107_hexa_plane
#print axioms Caribou.C107_hexaForce_partial
#print axioms Caribou.C107_hexaForce_faces
#print axioms Caribou.C107_tetraForce_faces
#print axioms Caribou.C107_tetraForce_partial
#print axioms Caribou.C107_orientation_violated
#print axioms Caribou.C107_tetraForce_violated
#print axioms Caribou.C107_surface_order
#print axioms Caribou.C107_surface_plane
#print axioms Caribou.C107_surface_covers
#print axioms Caribou.C107_surface_inside
#print axioms Caribou.C107_surface_area
#print axioms Caribou.C107_surface_apart
#print axioms Caribou.C108_topology
#print axioms Caribou.C108_complete
#print axioms Caribou.C108_forces
#print axioms Caribou.C108_stiffness
#print axioms Caribou.C108_getK
#print axioms Caribou.C108_drawing
#print axioms Caribou.C108_incomplete_partial
#print axioms Caribou.C108_tetra_failed
#print axioms Caribou.C108_empty_violated
#print axioms Caribou.C108_matrix_violated
#print axioms Caribou.C108_state_violated
#print axioms Caribou.C108_getK_violated
#print axioms Caribou.C108_stale_violated
#print axioms Caribou.C108_changed_violated
#print axioms Caribou.C109_tetra_partial
#print axioms Caribou.C109_hexa_partial
#print axioms Caribou.C109_tetra_moment_partial
#print axioms Caribou.C109_hexa_moment_partial
#print axioms Caribou.C109_moment_violated
#print axioms Caribou.C109_energy_violated
#print axioms Caribou.C109_work_violated
#print axioms Caribou.C109_potential_violated
#print axioms Caribou.C110_names
#print axioms Caribou.C110_assembled
#print axioms Caribou.C110_free
#print axioms Caribou.C110_spd
#print axioms Caribou.C110_same
#print axioms Caribou.C110_run_partial
#print axioms Caribou.C110_default_violated
#print axioms Caribou.C110_switch_violated
#print axioms Caribou.C110_pending_violated
#print axioms Caribou.C110_null_violated
#print axioms Caribou.C110_unconverged_violated
#print axioms Caribou.C111_topology
#print axioms Caribou.C111_complete
#print axioms Caribou.C111_missing
#print axioms Caribou.C111_outside
#print axioms Caribou.C111_parent_violated
#print axioms Caribou.C111_rest_violated
#print axioms Caribou.C111_elements_violated
#print axioms Caribou.C111_again_violated
#print axioms Caribou.C112_positions
#print axioms Caribou.C112_kept
#print axioms Caribou.C112_indices
#print axioms Caribou.C112_container
#print axioms Caribou.C112_freed
#print axioms Caribou.C112_drop
#print axioms Caribou.C112_columns
#print axioms Caribou.C112_violated
#print axioms Caribou.C112_dimension_violated
#print axioms Caribou.C112_index_violated
#print axioms Caribou.C112_outside_violated
#print axioms Caribou.C113_table
#print axioms Caribou.C113_points
#print axioms Caribou.C113_line
#print axioms Caribou.C113_order
#print axioms Caribou.C113_default
#print axioms Caribou.C113_box
#print axioms Caribou.C113_table_refused
#print axioms Caribou.C113_points_refused
#print axioms Caribou.C113_rectangular_violated
#print axioms Caribou.C113_dimension_violated
#print axioms Caribou.C114_draw
#print axioms Caribou.C114_shrunk
#print axioms Caribou.C114_disjoint
#print axioms Caribou.C114_colour
#print axioms Caribou.C114_bbox
#print axioms Caribou.C114_violated
#print axioms Caribou.C114_scale_violated
#print axioms Caribou.C114_bbox_violated
#print axioms Caribou.C115_nodes
#print axioms Caribou.C115_cells
#print axioms Caribou.C115_cell_at_partial
#print axioms Caribou.C115_cell_at_violated
#print axioms Caribou.C115_edges
#print axioms Caribou.C115_faces
#print axioms Caribou.C115_points
#print axioms Caribou.C115_flags
#print axioms Caribou.C115_numbers
#print axioms Caribou.C115_integers
#print axioms Caribou.C115_violated
#print axioms Caribou.C115_base_partial
#print axioms Caribou.C115_make
#print axioms Caribou.C115_make_violated
#print axioms Caribou.C116_get
#print axioms Caribou.C116_refused
#print axioms Caribou.C116_identifiers
#print axioms Caribou.C116_none_violated
#print axioms Caribou.C116_names_partial
#print axioms Caribou.C116_names_violated
#print axioms Caribou.C116_size_violated
#print axioms Caribou.C117_template
#print axioms Caribou.C117_path_partial
#print axioms Caribou.C117_path_violated
#print axioms Caribou.C117_search
#print axioms Caribou.C117_nearest_partial
#print axioms Caribou.C117_nearest_violated
#print axioms Caribou.C117_topology_partial
#print axioms Caribou.C117_topology_violated
#print axioms Caribou.C117_backend
#print axioms Caribou.C117_constructed
#print axioms Caribou.C117_material
#print axioms Caribou.C118_matrix
#print axioms Caribou.C118_rhs
#print axioms Caribou.C118_rhs_fixed
#print axioms Caribou.C118_derivative
#print axioms Caribou.C118_fixed_partial
#print axioms Caribou.C118_fixed_violated
#print axioms Caribou.C118_getJ_violated
#print axioms Caribou.C119_continuous
#print axioms Caribou.C119_any_order
#print axioms Caribou.C119_inside
#print axioms Caribou.C119_one_value
#print axioms Caribou.C120_work
#print axioms Caribou.C120_resultant
#print axioms Caribou.C120_moment
#print axioms Caribou.C120_normal
#print axioms Caribou.C120_traction
#print axioms Caribou.C120_uniform
#print axioms Caribou.C120_error
#print axioms Caribou.C120_displacement
#print axioms Caribou.C120_parameters
#print axioms Caribou.C120_stress_partial
#print axioms Caribou.C120_balance_partial
#print axioms Caribou.C120_compute_violated
#print axioms Caribou.C121_interpolation
#print axioms Caribou.C121_quadratic
#print axioms Caribou.C121_gradient
#print axioms Caribou.C121_refinement
#print axioms Caribou.C121_gradient_quadratic
#print axioms Caribou.C122_first
#print axioms Caribou.C122_volume
#print axioms Caribou.C122_second
#print axioms Caribou.C122_converges
#print axioms Caribou.C122_loads
#print axioms Caribou.C122_grid
#print axioms Caribou.C122_grid_plane
#print axioms Caribou.C122_grid_converges
#print axioms Caribou.C123_energy
#print axioms Caribou.C123_forces
#print axioms Caribou.C123_stiffness
#print axioms Caribou.C123_equilibrium
#print axioms Caribou.C123_materials
#print axioms Caribou.C123_grid
#print axioms Caribou.C124_best
#print axioms Caribou.C124_unfinished
#print axioms Caribou.C124_error
#print axioms Caribou.C124_strains
#print axioms Caribou.C124_converges
#print axioms Caribou.C124_virtual
#print axioms Caribou.C124_patch
#print axioms Caribou.C124_loads
#print axioms Caribou.C124_integral
#print axioms Caribou.C125_converges_partial
#print axioms Caribou.C125_above_partial
#print axioms Caribou.C125_smooth
#print axioms Caribou.C125_linear_partial
#print axioms Caribou.C125_violated
#print axioms Caribou.C126_quadratic_partial
#print axioms Caribou.C126_reported_partial
#print axioms Caribou.C126_smooth
#print axioms Caribou.C126_violated
#print axioms Caribou.C127_equilibrium
#print axioms Caribou.C127_solve_partial
#print axioms Caribou.C127_rest
#print axioms Caribou.C127_hyperelastic_partial
#print axioms Caribou.C128_optimal
#print axioms Caribou.C128_rate
#print axioms Caribou.C128_step
#print axioms Caribou.C128_iterations
#print axioms Caribou.C128_count
#print axioms Caribou.C128_matrix_free
#print axioms Caribou.C129_quad
#print axioms Caribou.C129_hexahedron
#print axioms Caribou.C129_quad_found_partial
#print axioms Caribou.C129_hexahedron_found_partial
#print axioms Caribou.C129_violated
#print axioms Caribou.C130_jacobian
#print axioms Caribou.C130_unfolded
#print axioms Caribou.C130_quadrature
#print axioms Caribou.C130_volume
#print axioms Caribou.C131_coordinates
#print axioms Caribou.C131_found_partial
#print axioms Caribou.C131_violated
#print axioms Caribou.C132_work
#print axioms Caribou.C132_affine
#print axioms Caribou.C132_moment
#print axioms Caribou.C132_violated
#print axioms Caribou.C133_tetra
#print axioms Caribou.C133_hexa
#print axioms Caribou.C133_hyper_tetra
#print axioms Caribou.C133_hyper_hexa
#print axioms Caribou.C133_stress_svk
#print axioms Caribou.C133_stress_neohookean
#print axioms Caribou.C134_buffers
#print axioms Caribou.C134_domains_partial
#print axioms Caribou.C134_destroyed_partial
#print axioms Caribou.C134_empty_partial
#print axioms Caribou.C134_assign_partial
#print axioms Caribou.C134_move_partial
#print axioms Caribou.C134_violated
#print axioms Caribou.C135_error
#print axioms Caribou.C135_softer
#print axioms Caribou.C135_body
#print axioms Caribou.C135_loads
#print axioms Caribou.C135_point
#print axioms Caribou.C135_tetra
#print axioms Caribou.C135_hexa
#print axioms Caribou.C135_grids
#print axioms Caribou.C135_box
#print axioms Caribou.C135_unique
#print axioms Caribou.C135_box_unique
#print axioms Caribou.C136_superposition
#print axioms Caribou.C136_reciprocity
#print axioms Caribou.C136_maxwell
#print axioms Caribou.C136_work
#print axioms Caribou.C136_excess
#print axioms Caribou.C136_least
#print axioms Caribou.C136_stiffer
#print axioms Caribou.C136_young
#print axioms Caribou.C137_hyperelastic
#print axioms Caribou.C137_hyperelastic_box
#print axioms Caribou.C137_linear
#print axioms Caribou.C137_solution
#print axioms Caribou.C137_box
#print axioms Caribou.C138_unfinished
#print axioms Caribou.C138_hyperelastic
#print axioms Caribou.C138_linear
#print axioms Caribou.C138_traction
#print axioms Caribou.C138_traction_hyperelastic
#print axioms Caribou.C138_motion
#print axioms Caribou.C138_free
#print axioms Caribou.C138_free_solutions
#print axioms Caribou.C138_box
#print axioms Caribou.C138_box_held
#print axioms Caribou.C139_beam
#print axioms Caribou.C139_beam_partial
#print axioms Caribou.C139_counts_violated
#print axioms Caribou.C139_corners_violated
#print axioms Caribou.C139_rectangle
#print axioms Caribou.C139_flat_violated
#print axioms Caribou.C139_refused
#print axioms Caribou.C139_gmsh_violated
#print axioms Caribou.C139_cylinder_violated
#print axioms Caribou.C139_cylinder
#print axioms Caribou.C140_equilibrium
#print axioms Caribou.C140_materials
#print axioms Caribou.C140_slope
#print axioms Caribou.C140_first
#print axioms Caribou.C140_solve
#print axioms Caribou.C140_box
#print axioms Caribou.C141_settles_partial
#print axioms Caribou.C141_damped_partial
#print axioms Caribou.C141_unlimited_partial
#print axioms Caribou.C141_bounded
#print axioms Caribou.C141_violated
#print axioms Caribou.C141_body
#print axioms Caribou.C141_box_partial
#print axioms Caribou.C142_move_partial
#print axioms Caribou.C142_count
#print axioms Caribou.C142_move_violated
#print axioms Caribou.C142_swap_partial
#print axioms Caribou.C142_swap_violated
#print axioms Caribou.C142_freed
#print axioms Caribou.C143_history_partial
#print axioms Caribou.C143_consequences_partial
#print axioms Caribou.C143_hyperelastic
#print axioms Caribou.C144_cut
#print axioms Caribou.C144_adds
#print axioms Caribou.C144_regular
#print axioms Caribou.C144_rest
#print axioms Caribou.C144_solve_partial
#print axioms Caribou.C144_materials
#print axioms Caribou.C144_box
#print axioms Caribou.C144_overlap
#print axioms Caribou.C144_scene_violated
#print axioms Caribou.C145_energy
#print axioms Caribou.C145_forces
#print axioms Caribou.C145_equilibrium
#print axioms Caribou.C145_stiffness
#print axioms Caribou.C145_softer
#print axioms Caribou.C146_linear_partial
#print axioms Caribou.C146_reported_partial
#print axioms Caribou.C146_near_partial
#print axioms Caribou.C146_violated
#print axioms Caribou.C147_derivative
#print axioms Caribou.C147_same
#print axioms Caribou.C147_loads
#print axioms Caribou.C147_run_partial
#print axioms Caribou.C147_violated
#print axioms Caribou.C148_write_partial
#print axioms Caribou.C148_loads_partial
#print axioms Caribou.C148_log
#print axioms Caribou.C148_log_short
#print axioms Caribou.C148_volume_violated
#print axioms Caribou.C148_surface_violated
#print axioms Caribou.C148_numbers_violated
#print axioms Caribou.C148_lost_violated
#print axioms Caribou.C148_concatenate_violated
#print axioms Caribou.C148_loads_violated
#print axioms Caribou.C149_linear_partial
#print axioms Caribou.C149_violated
#print axioms Caribou.C150_same_partial
#print axioms Caribou.C150_one_partial
#print axioms Caribou.C150_start_violated
#print axioms Caribou.C150_failure_violated
#print axioms Caribou.C151_same_partial
#print axioms Caribou.C151_stable
#print axioms Caribou.C151_records
#print axioms Caribou.C151_limit_violated
#print axioms Caribou.C151_warm_violated
#print axioms Caribou.C152_partial
#print axioms Caribou.C152_range
#print axioms Caribou.C152_violated
#print axioms Caribou.C153_partial
#print axioms Caribou.C153_shared
#print axioms Caribou.C153_entry
#print axioms Caribou.C153_append
#print axioms Caribou.C153_reserved
#print axioms Caribou.C153_violated
#print axioms Caribou.C153_early_violated
#print axioms Caribou.C154_partial
#print axioms Caribou.C154_end
#print axioms Caribou.C154_violated
#print axioms Caribou.C155_partial
#print axioms Caribou.C155_ends
#print axioms Caribou.C155_violated
#print axioms Caribou.C156_partial
#print axioms Caribou.C156_cg
#print axioms Caribou.C156_newton
#print axioms Caribou.C156_legacy
#print axioms Caribou.C156_violated
#print axioms Caribou.C157_partial
#print axioms Caribou.C157_lists
#print axioms Caribou.C157_violated
#print axioms Caribou.C158_partial
#print axioms Caribou.C158_analysed
#print axioms Caribou.C158_after
#print axioms Caribou.C158_violated
#print axioms Caribou.C159_partial
#print axioms Caribou.C159_violated
#print axioms Caribou.C160_partial
#print axioms Caribou.C160_violated
#print axioms Caribou.C161_partial
#print axioms Caribou.C161_violated
#print axioms Caribou.C162
#print axioms Caribou.C162_mean
#print axioms Caribou.C162_moved
#print axioms Caribou.C163
