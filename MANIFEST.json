{
 "claims": [
  {
   "property": "C01",
   "status": "proved",
   "theorems": [
    "Caribou.C01_partition_of_unity"
   ],
   "note": "all fourteen element types, every local coordinate, any field of characteristic zero"
  },
  {
   "property": "C02",
   "status": "proved",
   "theorems": [
    "Caribou.C02_nodal",
    "Caribou.C02_interpolate_at_node",
    "Caribou.C02_world_coordinates_at_node"
   ],
   "note": "all element types"
  },
  {
   "property": "C03",
   "status": "proved",
   "theorems": [
    "Caribou.C03_derivative"
   ],
   "note": "partial derivatives over the reals"
  },
  {
   "property": "C04",
   "status": "proved",
   "theorems": [
    "Caribou.C04_derivatives_sum_to_zero",
    "Caribou.C04_jacobian_translation"
   ],
   "note": "all element types, any world dimension"
  },
  {
   "property": "C05",
   "status": "proved",
   "theorems": [
    "Caribou.C05_affine_reproduction",
    "Caribou.C05_affine_geometry"
   ],
   "note": "all element types"
  },
  {
   "property": "C06",
   "status": "proved",
   "theorems": [
    "Caribou.C06_quadratic_reproduction"
   ],
   "note": "all quadratic element types"
  },
  {
   "property": "C07",
   "status": "proved",
   "theorems": [
    "Caribou.C07_jacobian_is_derivative"
   ],
   "note": "arbitrary node positions"
  },
  {
   "property": "C08",
   "status": "proved",
   "theorems": [
    "Caribou.C08_triangle_from_linear",
    "Caribou.C08_quad_from_linear",
    "Caribou.C08_tetra_from_linear",
    "Caribou.C08_hexa_from_linear"
   ],
   "note": "all four from-linear constructors"
  },
  {
   "property": "C09",
   "status": "proved",
   "theorems": [
    "Caribou.C09_boundary_is_trace",
    "Caribou.C09_neighbours_match",
    "Caribou.C09_side_is_facet"
   ],
   "note": "All element types with a consistent side table (every type except the quadratic rectangular hexahedron, see C11)."
  },
  {
   "property": "C10",
   "status": "proved",
   "theorems": [
    "Caribou.C10_closed",
    "Caribou.C10_outward",
    "Caribou.C10_plane"
   ],
   "note": "Closed orientation for every type; outward normals for affine images with positive determinant; plane elements counter-clockwise."
  },
  {
   "property": "C11",
   "status": "partial",
   "theorems": [
    "Caribou.C11_violated",
    "Caribou.C11_wrong_centre",
    "Caribou.C11_corners_partial"
   ],
   "note": "The side table of the quadratic rectangular hexahedron is wrong in the code; the negation is proved and only the corner columns are shown right."
  },
  {
   "property": "C12",
   "status": "proved",
   "theorems": [
    "Caribou.C12_inside_positive",
    "Caribou.C12_tensor_exact",
    "Caribou.C12_triangle_exact",
    "Caribou.C12_tetra",
    "Caribou.C12_weights"
   ],
   "note": "Quadratic tetrahedron: degree 1 exact, degree 2 up to the decimals written in the source."
  },
  {
   "property": "C13",
   "status": "partial",
   "theorems": [
    "Caribou.C13_violated",
    "Caribou.C13_gauss_count_partial"
   ],
   "note": "The advertised number of Gauss nodes is wrong for the two quadratic rectangular types; the negation is proved and the other twelve types are shown right."
  },
  {
   "property": "C14",
   "status": "proved",
   "theorems": [
    "Caribou.C14_contains_iff",
    "Caribou.C14_monotone",
    "Caribou.C14_accepts",
    "Caribou.C14_inverted"
   ],
   "note": "Types whose containment test exists (the rectangular quads have none)."
  },
  {
   "property": "C15",
   "status": "proved",
   "theorems": [
    "Caribou.C15_affine_inverse",
    "Caribou.C15_unique",
    "Caribou.C15_segment",
    "Caribou.C15_triangle",
    "Caribou.C15_tetra"
   ],
   "note": "Exact arithmetic."
  },
  {
   "property": "C16",
   "status": "proved",
   "theorems": [
    "Caribou.C16_exit",
    "Caribou.C16_step_is_newton"
   ],
   "note": ""
  },
  {
   "property": "C17",
   "status": "proved",
   "theorems": [
    "Caribou.C17_projection",
    "Caribou.C17_segment",
    "Caribou.C17_triangle"
   ],
   "note": "Exact arithmetic."
  },
  {
   "property": "C18",
   "status": "partial",
   "theorems": [
    "Caribou.C18_local_of_world",
    "Caribou.C18_world_of_local",
    "Caribou.C18_contains",
    "Caribou.C18_quad_violated",
    "Caribou.C18_quad_partial",
    "Caribou.C18_quad3_partial"
   ],
   "note": "Proved in full for rectangular hexahedra. False for rectangular quads near the centre (negation proved): they use the iterative inverse; outside 1e-5 of the centre the inverse is exact."
  },
  {
   "property": "C19",
   "status": "proved",
   "theorems": [
    "Caribou.C19_hexa_world",
    "Caribou.C19_quad_world2",
    "Caribou.C19_quad_world3",
    "Caribou.C19_from_hexa",
    "Caribou.C19_from_hexa_same_map",
    "Caribou.C19_from_quad2",
    "Caribou.C19_from_quad3",
    "Caribou.C19_frame"
   ],
   "note": "Both orders."
  },
  {
   "property": "C20",
   "status": "proved",
   "theorems": [
    "Caribou.C20_tetra",
    "Caribou.C20_hexa",
    "Caribou.C20_tetra_rigid",
    "Caribou.C20_hexa_rigid",
    "Caribou.C20_tetra_identity",
    "Caribou.C20_hexa_identity"
   ],
   "note": "Real numbers. The overload hexahedron.frame() without argument does not compile in the source (calls Zeros()); the overload with a local point is modelled."
  },
  {
   "property": "C21",
   "status": "proved",
   "theorems": [
    "Caribou.C21_segment",
    "Caribou.C21_world"
   ],
   "note": "Zero tolerance, exact arithmetic; local test and rectangular hexahedron in world coordinates. General hexahedra only through their local coordinates."
  },
  {
   "property": "C22",
   "status": "proved",
   "theorems": [
    "Caribou.C22_triangle",
    "Caribou.C22_degenerate",
    "Caribou.C22_local",
    "Caribou.C22_world"
   ],
   "note": "Zero tolerance, exact arithmetic; degenerate triangles included."
  },
  {
   "property": "C23",
   "status": "proved",
   "theorems": [
    "Caribou.C23_coordinates",
    "Caribou.C23_index",
    "Caribou.C23_count"
   ],
   "note": "under the hypothesis that the number of nodes fits in 63 bits"
  },
  {
   "property": "C24",
   "status": "proved",
   "theorems": [
    "Caribou.C24_coordinates",
    "Caribou.C24_index",
    "Caribou.C24_count"
   ],
   "note": "under the hypothesis that the number of nodes fits in 63 bits"
  },
  {
   "property": "C25",
   "status": "proved",
   "theorems": [
    "Caribou.C25_1d",
    "Caribou.C25_2d",
    "Caribou.C25_3d"
   ],
   "note": "under the hypothesis that the number of nodes fits in 63 bits"
  },
  {
   "property": "C26",
   "status": "proved",
   "theorems": [
    "Caribou.C26_2d_sound",
    "Caribou.C26_2d",
    "Caribou.C26_3d_sound",
    "Caribou.C26_3d"
   ],
   "note": "under the hypothesis that the number of nodes fits in 63 bits; 3D needs at least one cell per axis"
  },
  {
   "property": "C27",
   "status": "proved",
   "theorems": [
    "Caribou.C27_sound",
    "Caribou.C27"
   ],
   "note": "under the hypothesis that the number of nodes fits in 63 bits"
  },
  {
   "property": "C28",
   "status": "partial",
   "theorems": [
    "Caribou.C28_partial",
    "Caribou.C28_open_partial",
    "Caribou.C28_violated"
   ],
   "note": "proved for points of the grid; false for points outside of the grid (and for the upper faces with the default flag)"
  },
  {
   "property": "C29",
   "status": "partial",
   "theorems": [
    "Caribou.C29_partial",
    "Caribou.C29_violated"
   ],
   "note": "proved for points of the grid; false for points outside of the grid"
  },
  {
   "property": "C30",
   "status": "partial",
   "theorems": [
    "Caribou.C30_partial",
    "Caribou.C30_violated"
   ],
   "note": "proved for points of the grid; false when some points are outside of the grid"
  },
  {
   "property": "C31",
   "status": "proved",
   "theorems": [
    "Caribou.C31_complete"
   ],
   "note": "for meshes in any of the three dimensions, any insert history and positive cell size"
  },
  {
   "property": "C32",
   "status": "proved",
   "theorems": [
    "Caribou.C32_sound"
   ],
   "note": "up to the tolerance of the code (cells closer than EPSILON cell sizes are looked up too)"
  },
  {
   "property": "C33",
   "status": "partial",
   "theorems": [
    "Caribou.C33_found",
    "Caribou.C33_not_found",
    "Caribou.C33_affine_partial",
    "Caribou.C33_violated"
   ],
   "note": "exact position recovery proved for affine elements whose Newton residual tolerance is not the reason of acceptance; false for elements smaller than the absolute residual tolerance"
  },
  {
   "property": "C34",
   "status": "proved",
   "theorems": [
    "Caribou.C34_complete",
    "Caribou.C34_triangle",
    "Caribou.C34_tetra",
    "Caribou.C34_surface"
   ],
   "note": "for affine images of the isoparametric classes; rectangular classes not covered"
  },
  {
   "property": "C35",
   "status": "proved",
   "theorems": [
    "Caribou.C35_bookkeeping"
   ],
   "note": ""
  },
  {
   "property": "C36",
   "status": "partial",
   "theorems": [
    "Caribou.C36_linear",
    "Caribou.C36_located",
    "Caribou.C36_affine_partial",
    "Caribou.C36_violated"
   ],
   "note": "affine fields are reproduced whenever the located position is exact; false for elements smaller than the absolute residual tolerance"
  },
  {
   "property": "C37",
   "status": "partial",
   "theorems": [
    "Caribou.C37_partial",
    "Caribou.C37_rejected",
    "Caribou.C37_added",
    "Caribou.C37_automatic_partial",
    "Caribou.C37_violated"
   ],
   "note": "proved for the checked overloads; false for add_domain(domain, name), which does not check the name"
  },
  {
   "property": "C38",
   "status": "partial",
   "theorems": [
    "Caribou.C38_partial",
    "Caribou.C38_hangs",
    "Caribou.C38_never_returns",
    "Caribou.C38_violated"
   ],
   "note": "the loop never advances its iterator: proved when the mesh is empty or the domain is the first one, false otherwise"
  },
  {
   "property": "C39",
   "status": "partial",
   "theorems": [
    "Caribou.C39_positions",
    "Caribou.C39_element",
    "Caribou.C39_added",
    "Caribou.C39_nodes_unchanged",
    "Caribou.C39_stable",
    "Caribou.C39_copy_violated"
   ],
   "note": "proved for histories without copies of meshes; a copied mesh reads the connectivity of the original"
  },
  {
   "property": "C40",
   "status": "partial",
   "theorems": [
    "Caribou.C40_attach",
    "Caribou.C40_add",
    "Caribou.C40_listed_partial",
    "Caribou.C40_copy_violated",
    "Caribou.C40_move_violated"
   ],
   "note": "proved for histories without copies and moves; false after a copy (indeterminate pointer) or a move (stale pointer)"
  },
  {
   "property": "C41",
   "status": "proved",
   "theorems": [
    "Caribou.C41_stress_is_gradient",
    "Caribou.C41_stress_is_gradient_strain",
    "Caribou.C41_jacobian_is_derivative",
    "Caribou.C41_rest_and_symmetry",
    "Caribou.C41_energy_nonneg",
    "Caribou.C41_young_poisson"
   ],
   "note": ""
  },
  {
   "property": "C42",
   "status": "proved",
   "theorems": [
    "Caribou.C42_stress_is_gradient",
    "Caribou.C42_first_piola",
    "Caribou.C42_rest_and_symmetry"
   ],
   "note": "for positive determinant"
  },
  {
   "property": "C43",
   "status": "proved",
   "theorems": [
    "Caribou.C43_jacobian_is_derivative",
    "Caribou.C43_symmetric",
    "Caribou.C43_rest_tangent"
   ],
   "note": ""
  },
  {
   "property": "C44",
   "status": "proved",
   "theorems": [
    "Caribou.C44_dyad1_entries",
    "Caribou.C44_dyad2_entries",
    "Caribou.C44_symmetric",
    "Caribou.C44_dyad1_action",
    "Caribou.C44_dyad2_action"
   ],
   "note": ""
  },
  {
   "property": "C45",
   "status": "proved",
   "theorems": [
    "Caribou.C45_affine",
    "Caribou.C45_displacement_eq_position",
    "Caribou.C45_rigid"
   ],
   "note": ""
  },
  {
   "property": "C46",
   "status": "proved",
   "theorems": [
    "Caribou.C46_element",
    "Caribou.C46_total"
   ],
   "note": ""
  },
  {
   "property": "C47",
   "status": "proved",
   "theorems": [
    "Caribou.C47_symmetric",
    "Caribou.C47_same_operator",
    "Caribou.C47_derivative_svk",
    "Caribou.C47_derivative_neohookean"
   ],
   "note": "derivative part for elements with distinct node indices"
  },
  {
   "property": "C48",
   "status": "proved",
   "theorems": [
    "Caribou.C48_hyperelastic",
    "Caribou.C48_tetra",
    "Caribou.C48_hexa"
   ],
   "note": ""
  },
  {
   "property": "C49",
   "status": "partial",
   "theorems": [
    "Caribou.C49_violated",
    "Caribou.C49_reinit_violated",
    "Caribou.C49_reinit_partial",
    "Caribou.C49_cache_partial",
    "Caribou.C49_tetra_reinit"
   ],
   "note": "false: K() reads blocks at wrong offsets and omits the lower triangle; every initialisation adds the stiffness once more"
  },
  {
   "property": "C50",
   "status": "proved",
   "theorems": [
    "Caribou.C50_constant",
    "Caribou.C50_incremental",
    "Caribou.C50_plane",
    "Caribou.C50_triangles",
    "Caribou.C50_parallelograms",
    "Caribou.C50_nodes"
   ],
   "note": "area is the Gauss quadrature of the area factor; equal to the geometric area for flat triangles and parallelograms"
  },
  {
   "property": "C51",
   "status": "partial",
   "theorems": [
    "Caribou.C51_violated",
    "Caribou.C51_plane_violated",
    "Caribou.C51_partial"
   ],
   "note": "false: else-if keeps a wrong minimum on decreasing lists, and the plane case reads a third coordinate; upper corner proved, lower corner proved exactly when the smallest coordinate is reached after the first position"
  },
  {
   "property": "C52",
   "status": "partial",
   "theorems": [
    "Caribou.C52_residual",
    "Caribou.C52_limit",
    "Caribou.C52_sound",
    "Caribou.C52_partial",
    "Caribou.C52_violated",
    "Caribou.C52_matrix_free"
   ],
   "note": "false: reports no convergence when the right-hand side is zero or the guess is already good; soundness of a positive report and the other parts proved"
  },
  {
   "property": "C53",
   "status": "proved",
   "theorems": [
    "Caribou.C53_terminates",
    "Caribou.C53_exact",
    "Caribou.C53_orthogonal",
    "Caribou.C53_conjugate",
    "Caribou.C53_preconditioners"
   ],
   "note": ""
  },
  {
   "property": "C54",
   "status": "partial",
   "theorems": [
    "Caribou.C54_violated",
    "Caribou.C54_single_violated",
    "Caribou.C54_stale_violated",
    "Caribou.C54_partial"
   ],
   "note": "false: the relative criterion is measured against the first iterate instead of the initial residual, one iteration never updates the residual, and calls without a linear solver keep an old flag; everything else proved"
  },
  {
   "property": "C55",
   "status": "proved",
   "theorems": [
    "Caribou.C55_never",
    "Caribou.C55_always",
    "Caribou.C55_time_step",
    "Caribou.C55_simulation"
   ],
   "note": "an analysis that fails is tried again by the next solve"
  },
  {
   "property": "C56",
   "status": "partial",
   "theorems": [
    "Caribou.C56_violated",
    "Caribou.C56_frozen_violated",
    "Caribou.C56_rayleigh_violated",
    "Caribou.C56_propagation",
    "Caribou.C56_residual",
    "Caribou.C56_linear_partial",
    "Caribou.C56_two_iterations",
    "Caribou.C56_derivative"
   ],
   "note": "false for the first solve of a step (forces taken at the old positions) and when forces vanish at the start; proved from the second solve on"
  },
  {
   "property": "C57",
   "status": "partial",
   "theorems": [
    "Caribou.C57_violated",
    "Caribou.C57_partial",
    "Caribou.C57_flag_matters",
    "Caribou.C57_dense"
   ],
   "note": "false for the sparse wrapper when rows or columns are cleared across the storage order after an entry was created; proved for all other histories, and for the dense wrapper"
  },
  {
   "property": "C58",
   "status": "partial",
   "theorems": [
    "Caribou.C58_violated",
    "Caribou.C58_cleared",
    "Caribou.C58_partial",
    "Caribou.C58_dense"
   ],
   "note": "false for the sparse wrapper: the first compress, set or clearing of a row or column discards the wrapped matrix; true for the dense wrapper"
  },
  {
   "property": "C59",
   "status": "proved",
   "theorems": [
    "Caribou.C59_rows",
    "Caribou.C59_applyJ",
    "Caribou.C59_power",
    "Caribou.C59_resultant",
    "Caribou.C59_affine",
    "Caribou.C59_constraints",
    "Caribou.C59_not_ready",
    "Caribou.C59_example"
   ],
   "note": "parent object has one node per node of the mesh"
  },
  {
   "property": "C60",
   "status": "proved",
   "theorems": [
    "Caribou.C60_weights",
    "Caribou.C60_leaves",
    "Caribou.C60_tiling",
    "Caribou.C60_validate"
   ],
   "note": "every depth, any classification of the sub-cells; two and three dimensions"
  },
  {
   "property": "C61",
   "status": "proved",
   "theorems": [
    "Caribou.C61",
    "Caribou.C61_symmetric",
    "Caribou.C61_all"
   ],
   "note": "every cell tree; fewer than 2^31 cells per axis"
  },
  {
   "property": "C62",
   "status": "proved",
   "theorems": [
    "Caribou.C62",
    "Caribou.C62_grid"
   ],
   "note": "regions are the connected components of the leaf cells of equal type, and the flood fill ends"
  },
  {
   "property": "C63",
   "status": "partial",
   "theorems": [
    "Caribou.C63_partial",
    "Caribou.C63_2d",
    "Caribou.C63_violated"
   ],
   "note": "proved in three dimensions; false in two dimensions, where every undefined cell is tagged outside"
  },
  {
   "property": "C64",
   "status": "proved",
   "theorems": [
    "Caribou.C64",
    "Caribou.C64_weight"
   ],
   "note": "every tree of cells and threshold; fewer than 2^31 nodes"
  },
  {
   "property": "C65",
   "status": "partial",
   "theorems": [
    "Caribou.C65_weights",
    "Caribou.C65_levels",
    "Caribou.C65_partial",
    "Caribou.C65_coarse",
    "Caribou.C65_violated",
    "Caribou.C65_coarse_violated"
   ],
   "note": "weights proved for every tree and level; positions proved for one level of subdivision and false from two levels on"
  },
  {
   "property": "C66",
   "status": "partial",
   "theorems": [
    "Caribou.C66_partial",
    "Caribou.C66_violated"
   ],
   "note": "false on faces shared by cells of equal type (an exception is thrown); all other points of the grid are proved"
  },
  {
   "property": "C67",
   "status": "partial",
   "theorems": [
    "Caribou.C67_partial",
    "Caribou.C67_subdivision",
    "Caribou.C67_zero",
    "Caribou.C67_violated"
   ],
   "note": "false when an iso value at a node is exactly zero; proved otherwise"
  },
  {
   "property": "C68",
   "status": "partial",
   "theorems": [
    "Caribou.C68_partial",
    "Caribou.C68_hexahedron",
    "Caribou.C68_meshio",
    "Caribou.C68_violated"
   ],
   "note": "proved for all types but quadratic hexahedra; for these, false with the order of the VTK documentation (nodes 10 and 12 to 19), true with the order used by the sample mesh of the unit tests"
  },
  {
   "property": "C69",
   "status": "proved",
   "theorems": [
    "Caribou.C69",
    "Caribou.C69_3d",
    "Caribou.C69_empty"
   ],
   "note": "non-empty point sets; an empty one is an out of range read in dimension 1 and 2"
  },
  {
   "property": "C70",
   "status": "proved",
   "theorems": [
    "Caribou.C70",
    "Caribou.C70_init",
    "Caribou.C70_assigned"
   ],
   "note": ""
  },
  {
   "property": "C71",
   "status": "partial",
   "theorems": [
    "Caribou.C71_partial",
    "Caribou.C71_violated"
   ],
   "note": "the coordinates beyond the dimension of the mesh are never written"
  },
  {
   "property": "C72",
   "status": "proved",
   "theorems": [
    "Caribou.C72_force_is_gradient_svk",
    "Caribou.C72_force_is_gradient_neohookean"
   ],
   "note": ""
  },
  {
   "property": "C73",
   "status": "proved",
   "theorems": [
    "Caribou.C73_tetra",
    "Caribou.C73_hexa"
   ],
   "note": ""
  },
  {
   "property": "C74",
   "status": "partial",
   "theorems": [
    "Caribou.C74_violated",
    "Caribou.C74_tetra_partial",
    "Caribou.C74_hexa_partial"
   ],
   "note": "false when an element frame is not the identity; proved when all frames are the identity or without the corotational option"
  },
  {
   "property": "C75",
   "status": "partial",
   "theorems": [
    "Caribou.C75_violated",
    "Caribou.C75_incremental_violated",
    "Caribou.C75_init_twice_violated",
    "Caribou.C75_partial"
   ],
   "note": "false: reset empties the nodal forces and a second init adds the load twice"
  },
  {
   "property": "C76",
   "status": "proved",
   "theorems": [
    "Caribou.C76_tetra",
    "Caribou.C76_hexa"
   ],
   "note": "every configuration, also with degenerate frames; also for the tangent operator"
  },
  {
   "property": "C77",
   "status": "partial",
   "theorems": [
    "Caribou.C77_violated",
    "Caribou.C77_partial",
    "Caribou.C77_two_iterations"
   ],
   "note": "false with the default of one Newton iteration; proved for exact steps and for two iterations"
  },
  {
   "property": "C78",
   "status": "partial",
   "theorems": [
    "Caribou.C78_partial",
    "Caribou.C78_violated",
    "Caribou.C78_exact_violated"
   ],
   "note": "The status is characterised exactly; the criteria themselves differ from the documented ones: the first test compares the squared residual with the unsquared threshold (C78_violated) and the relative residual refers to the first iterate, so that an exact equilibrium reached by the first iteration is never recognised (C78_exact_violated). Divergence is not reported separately from the iteration limit."
  },
  {
   "property": "C79",
   "status": "proved",
   "theorems": [
    "Caribou.C79"
   ],
   "note": "given that VTK lists the types of the cells once each"
  },
  {
   "property": "C80",
   "status": "partial",
   "theorems": [
    "Caribou.C80_partial",
    "Caribou.C80_attached",
    "Caribou.C80_violated",
    "Caribou.C80_dangling",
    "Caribou.C80_overridden"
   ],
   "note": "right after the first initialisation; false after the data is changed: the domain designates the storage of the data"
  },
  {
   "property": "C81",
   "status": "proved",
   "theorems": [
    "Caribou.C81_svk",
    "Caribou.C81_neohookean"
   ],
   "note": "meshes whose elements have distinct node indices and are not degenerate at rest; any configuration"
  },
  {
   "property": "C82",
   "status": "partial",
   "theorems": [
    "Caribou.C82_tetra",
    "Caribou.C82_hexa",
    "Caribou.C82_null",
    "Caribou.C82_svk_tensile",
    "Caribou.C82_hyper_rest",
    "Caribou.C82_orientation_needed"
   ],
   "note": "corotational: every history, correctly oriented elements (needed: the signed determinant is stored); hyperelastic: at rest, after a rigid motion, and for Saint Venant-Kirchhoff under tensile stress only, since a compressed body may buckle"
  },
  {
   "property": "C83",
   "status": "partial",
   "theorems": [
    "Caribou.C83_partial",
    "Caribou.C83_exact",
    "Caribou.C83_affine",
    "Caribou.C83_straight",
    "Caribou.C83_violated"
   ],
   "note": "Lebesgue measure of the image of the canonical element; false for quadratic tetrahedra and hexahedra with curved edges"
  },
  {
   "property": "C84",
   "status": "partial",
   "theorems": [
    "Caribou.C84_system_partial",
    "Caribou.C84_fixed_partial",
    "Caribou.C84_equilibrium_partial",
    "Caribou.C84_violated"
   ],
   "note": "mapped forces may only act on free degrees of freedom; otherwise the stiffness they add after the constraints moves fixed degrees of freedom and misses the equilibrium (C84_violated)"
  },
  {
   "property": "C85",
   "status": "partial",
   "theorems": [
    "Caribou.C85_start",
    "Caribou.C85_direct_partial",
    "Caribou.C85_violated",
    "Caribou.C85_cg_partial",
    "Caribou.C85_cg_spd_partial",
    "Caribou.C85_cg_violated"
   ],
   "note": "a matrix of the same size with another pattern is factorized with the old analysis (C85_violated); the conjugate gradient does not write the solution of a null right-hand side (C85_cg_violated); the decompositions of Eigen are parameters with the requirements of their documentation"
  },
  {
   "property": "C86",
   "status": "proved",
   "theorems": [
    "Caribou.C86_tetra",
    "Caribou.C86_hexa",
    "Caribou.C86_interior",
    "Caribou.C86_energy",
    "Caribou.C86_virial"
   ],
   "note": "nodal forces for linear tetrahedra and hexahedra, energy and moments for all classes; rounding not modelled"
  },
  {
   "property": "C87",
   "status": "partial",
   "theorems": [
    "Caribou.C87_partial",
    "Caribou.C87_init",
    "Caribou.C87_eigenvalues",
    "Caribou.C87_positions_violated",
    "Caribou.C87_parameters_violated"
   ],
   "note": "positions and parameters may not be written between the force evaluation and the first use of the stiffness, since the assembly is lazy (C87_positions_violated, C87_parameters_violated)"
  },
  {
   "property": "C88",
   "status": "partial",
   "theorems": [
    "Caribou.C88_partial",
    "Caribou.C88_after_force",
    "Caribou.C88_parameters_violated",
    "Caribou.C88_rest_violated"
   ],
   "note": "parameters written after the last before_update make the energy and the force disagree (C88_parameters_violated); elements built on a mesh of SOFA use its position vector, not the rest positions (C88_rest_violated)"
  },
  {
   "property": "C89",
   "status": "partial",
   "theorems": [
    "Caribou.C89_partial",
    "Caribou.C89_violated"
   ],
   "note": "false without mechanical state: init dereferences it (C89_violated)"
  },
  {
   "property": "C90",
   "status": "partial",
   "theorems": [
    "Caribou.C90_partial",
    "Caribou.C90_violated"
   ],
   "note": "cond() returns the inverse of the condition number"
  },
  {
   "property": "C91",
   "status": "proved",
   "theorems": [
    "Caribou.C91",
    "Caribou.C91_first",
    "Caribou.C91_object",
    "Caribou.C91_bounds",
    "Caribou.C91_outside",
    "Caribou.C91_resolution"
   ],
   "note": "positions of the mesh in the box of the grid (a triangle with a node out of it is skipped and reported by the code); exact arithmetic"
  },
  {
   "property": "C92",
   "status": "proved",
   "theorems": [
    "Caribou.C92",
    "Caribou.C92_loads"
   ],
   "note": "exact linear solver, no projective constraints or mappings; neo-Hookean with exact inverse; exact arithmetic"
  },
  {
   "property": "C93",
   "status": "proved",
   "theorems": [
    "Caribou.C93_tetra",
    "Caribou.C93_hexa"
   ],
   "note": "rotations disabled ('corotated' = false); with rotations and rest frames other than the identity see C74_violated"
  },
  {
   "property": "C94",
   "status": "proved",
   "theorems": [
    "Caribou.C94_forces",
    "Caribou.C94_regular",
    "Caribou.C94_tetra",
    "Caribou.C94_hexa",
    "Caribou.C94_tetra_held",
    "Caribou.C94_hexa_held"
   ],
   "note": "rotations disabled; exact linear solver; regularity of the constrained stiffness proved for tetrahedra and parallelepipeds, an hypothesis for hexahedra of other shapes"
  },
  {
   "property": "C95",
   "status": "partial",
   "theorems": [
    "Caribou.C95_svk",
    "Caribou.C95_neohookean_partial",
    "Caribou.C95_distances",
    "Caribou.C95_violated"
   ],
   "note": "Saint Venant-Kirchhoff in full; neo-Hookean for Poisson ratios >= 0, false below; exact arithmetic"
  },
  {
   "property": "C96",
   "status": "partial",
   "theorems": [
    "Caribou.C96_system_partial",
    "Caribou.C96_step_partial",
    "Caribou.C96_fixed_partial",
    "Caribou.C96_motion_partial",
    "Caribou.C96_drift_violated",
    "Caribou.C96_mapped_violated"
   ],
   "note": "false for fixed degrees of freedom with an initial velocity and for mapped objects depending on fixed ones; exact linear solver, constant Jacobian"
  },
  {
   "property": "C97",
   "status": "partial",
   "theorems": [
    "Caribou.C97_topology_partial",
    "Caribou.C97_designated",
    "Caribou.C97_elements",
    "Caribou.C97_template",
    "Caribou.C97_create_partial",
    "Caribou.C97_create_designated",
    "Caribou.C97_material",
    "Caribou.C97_solver_partial",
    "Caribou.C97_crash_violated",
    "Caribou.C97_guess_violated",
    "Caribou.C97_solver_violated"
   ],
   "note": "false with several candidates: null pointer read with printLog, first one taken without a template name, first linear solver taken; the factory of SOFA is not modelled"
  },
  {
   "property": "C98",
   "status": "partial",
   "theorems": [
    "Caribou.C98_forces",
    "Caribou.C98_stiffness",
    "Caribou.C98_numbering",
    "Caribou.C98_tetrahedron",
    "Caribou.C98_tetra_partial",
    "Caribou.C98_hexa_partial",
    "Caribou.C98_corotated_violated"
   ],
   "note": "proved for the hyperelastic force field and for the elastic force fields without corotation (orders which keep the orientation); false with corotation: the frame follows the first nodes of the list"
  },
  {
   "property": "C99",
   "status": "partial",
   "theorems": [
    "Caribou.C99_materials",
    "Caribou.C99_hyperelastic",
    "Caribou.C99_stiffness",
    "Caribou.C99_tetra_partial",
    "Caribou.C99_hexa_partial",
    "Caribou.C99_corotated_violated"
   ],
   "note": "proved for the hyperelastic force field (Neo-Hookean stiffness: no inverted integration point), for the elastic force fields without corotation, and with corotation for changes of unit and translations; false with corotation when the scene is turned"
  },
  {
   "property": "C100",
   "status": "partial",
   "theorems": [
    "Caribou.C100_vector",
    "Caribou.C100_defined",
    "Caribou.C100_wrap",
    "Caribou.C100_created",
    "Caribou.C100_dot",
    "Caribou.C100_dot_sizes",
    "Caribou.C100_copy_partial",
    "Caribou.C100_copy_unsupported",
    "Caribou.C100_copy_violated"
   ],
   "note": "the assignment of multi-vectors keeps the last entries of a when it is longer than b (C100_copy_violated); everything else proved"
  },
  {
   "property": "C101",
   "status": "partial",
   "theorems": [
    "Caribou.C101_tetra",
    "Caribou.C101_hexa",
    "Caribou.C101_hyperelastic_partial",
    "Caribou.C101_solvable",
    "Caribou.C101_aligned",
    "Caribou.C101_hexa2_violated",
    "Caribou.C101_tetra2_violated",
    "Caribou.C101_onepoint_violated"
   ],
   "note": "false for the quadratic hexahedron (its 8 quadrature points do not see a displacement of the mid-edge nodes, C101_hexa2_violated), for some curved quadratic tetrahedra (C101_tetra2_violated) and for the one point integration of HexahedronElasticForce (C101_onepoint_violated); proved for linear tetrahedra and linear hexahedra of all shapes and straight quadratic tetrahedra"
  },
  {
   "property": "C102",
   "status": "partial",
   "theorems": [
    "Caribou.C102_distribution",
    "Caribou.C102_iso",
    "Caribou.C102_point_iso",
    "Caribou.C102_iso3",
    "Caribou.C102_mesh",
    "Caribou.C102_mesh_violated",
    "Caribou.C102_iso3_violated"
   ],
   "note": "false for triangle meshes: the types found for cells which the surface does not meet are not stored where the queries read them, hence no point is ever inside and no inner cell is listed (C102_mesh, C102_mesh_violated); in three dimensions an implicit surface takes a reference out of range (C102_iso3_violated); proved for implicit surfaces which are not zero at the corners of the cells"
  },
  {
   "property": "C103",
   "status": "partial",
   "theorems": [
    "Caribou.C103_partial",
    "Caribou.C103_createGrid_partial",
    "Caribou.C103_history_partial",
    "Caribou.C103_twice",
    "Caribou.C103_data",
    "Caribou.C103_bounds_kept",
    "Caribou.C103_types_violated",
    "Caribou.C103_fewer_violated",
    "Caribou.C103_bounds_violated",
    "Caribou.C103_oneBound_violated"
   ],
   "note": "false: old Boundary types are kept (C103_types_violated), a mesh with fewer triangles leads to reading outside of the triangles (C103_fewer_violated), default bounds are never computed again (C103_bounds_violated) and a single given bound is overwritten (C103_oneBound_violated); proved for the grid, the trees, the regions and the sparse grid as long as no mesh has fewer triangles than the one it replaces"
  },
  {
   "property": "C104",
   "status": "partial",
   "theorems": [
    "Caribou.C104_forces",
    "Caribou.C104_recompute",
    "Caribou.C104_partial",
    "Caribou.C104_storeF_init_partial",
    "Caribou.C104_stored_tangent",
    "Caribou.C104_init_violated",
    "Caribou.C104_positions_violated",
    "Caribou.C104_parameters_violated"
   ],
   "note": "proved in full for forces, energies and failures (C104_forces) and for the component which recomputes (C104_recompute); the stiffness of the components which store tensors agrees when it is used after a force evaluation with nothing written in between (C104_partial); false right after init (C104_init_violated) and when positions or parameters are written in between (C104_positions_violated, C104_parameters_violated)"
  },
  {
   "property": "C105",
   "status": "partial",
   "theorems": [
    "Caribou.C105_sign",
    "Caribou.C105_cylinder_partial",
    "Caribou.C105_cylinder_violated",
    "Caribou.C105_leaves_partial",
    "Caribou.C105_volume",
    "Caribou.C105_area",
    "Caribou.C105_missed",
    "Caribou.C105_missed_violated"
   ],
   "note": "proved in full for the sign of the circle and the sphere and for the two bounds of the covered and inside volumes when no node of the coarse grid is on the surface; the cylinder is endless, its length is ignored (C105_cylinder_violated); the error of the inside volume does not go below half the diagonal of a coarse cell and every grid has a disc or ball it does not see at any number of levels, since a coarse cell without a node inside is not refined (C105_missed_violated)"
  },
  {
   "property": "C106",
   "status": "partial",
   "theorems": [
    "Caribou.C106_surface",
    "Caribou.C106_sound_partial",
    "Caribou.C106_stops",
    "Caribou.C106_kept",
    "Caribou.C106_implicit",
    "Caribou.C106_again",
    "Caribou.C106_isos_violated",
    "Caribou.C106_empty_violated",
    "Caribou.C106_stale_violated"
   ],
   "note": "the surface which is meant is always found and nothing else is used; false for several implicit surfaces, where the warning dereferences a null link (C106_isos_violated), for a single container without triangles or points, around which a grid is created (C106_empty_violated), and for a container whose triangles changed before a second initialisation (C106_stale_violated)"
  },
  {
   "property": "C107",
   "status": "partial",
   "theorems": [
    "Caribou.C107_groups",
    "Caribou.C107_inside",
    "Caribou.C107_apart",
    "Caribou.C107_volume",
    "Caribou.C107_tetra",
    "Caribou.C107_corners",
    "Caribou.C107_hexa",
    "Caribou.C107_hexa_plane",
    "Caribou.C107_hexaForce_partial",
    "Caribou.C107_hexaForce_faces",
    "Caribou.C107_tetraForce_faces",
    "Caribou.C107_tetraForce_partial",
    "Caribou.C107_orientation_violated",
    "Caribou.C107_tetraForce_violated",
    "Caribou.C107_surface_order",
    "Caribou.C107_surface_plane",
    "Caribou.C107_surface_covers",
    "Caribou.C107_surface_inside",
    "Caribou.C107_surface_area",
    "Caribou.C107_surface_apart"
   ],
   "note": "holds for the force fields made from CaribouForcefield; HexahedronElasticForce draws inside of its elements but with two faces turned inwards (C107_orientation_violated); TetrahedronElasticForce uses two constants which do not fit, its drawing drifts away from the elements with the distance to the origin (C107_tetraForce_violated)"
  },
  {
   "property": "C108",
   "status": "partial",
   "theorems": [
    "Caribou.C108_topology",
    "Caribou.C108_complete",
    "Caribou.C108_forces",
    "Caribou.C108_stiffness",
    "Caribou.C108_getK",
    "Caribou.C108_drawing",
    "Caribou.C108_incomplete_partial",
    "Caribou.C108_tetra_failed",
    "Caribou.C108_empty_violated",
    "Caribou.C108_matrix_violated",
    "Caribou.C108_state_violated",
    "Caribou.C108_getK_violated",
    "Caribou.C108_stale_violated",
    "Caribou.C108_changed_violated"
   ],
   "note": "complete scenes are safe, their operators use one stiffness matrix, and forces are only added in them; false for a mechanical state without nodes (C108_empty_violated), for addKToMatrix after a failed initialisation (C108_matrix_violated), for drawing, bounding box and K() without mechanical state (C108_state_violated, C108_getK_violated), for hexahedra initialised again with fewer nodes (C108_stale_violated) and for topologies which change (C108_changed_violated)"
  },
  {
   "property": "C109",
   "status": "partial",
   "theorems": [
    "Caribou.C109_tetra_partial",
    "Caribou.C109_hexa_partial",
    "Caribou.C109_tetra_moment_partial",
    "Caribou.C109_hexa_moment_partial",
    "Caribou.C109_moment_violated",
    "Caribou.C109_energy_violated",
    "Caribou.C109_work_violated",
    "Caribou.C109_potential_violated"
   ],
   "note": "without the corotational option the forces derive from the strain energy of the rest shape and exert no moment about the rest positions; no moment about the positions when each element is stretched symmetrically behind its frame; false for the reported energy, which is zero (C109_energy_violated), for the moment of a sheared element (C109_moment_violated) and, with the corotational option, for every energy: turning a sheared element once costs work (C109_work_violated, C109_potential_violated)"
  },
  {
   "property": "C110",
   "status": "partial",
   "theorems": [
    "Caribou.C110_names",
    "Caribou.C110_assembled",
    "Caribou.C110_free",
    "Caribou.C110_spd",
    "Caribou.C110_same",
    "Caribou.C110_run_partial",
    "Caribou.C110_default_violated",
    "Caribou.C110_switch_violated",
    "Caribou.C110_pending_violated",
    "Caribou.C110_null_violated",
    "Caribou.C110_unconverged_violated"
   ],
   "note": "false for the documented default (C110_default_violated), for options changed without resetSystem (C110_switch_violated, C110_pending_violated), for null right-hand sides, where the options differ (C110_null_violated), and for the method None, which writes iterates that did not converge (C110_unconverged_violated)"
  },
  {
   "property": "C111",
   "status": "partial",
   "theorems": [
    "Caribou.C111_topology",
    "Caribou.C111_complete",
    "Caribou.C111_missing",
    "Caribou.C111_outside",
    "Caribou.C111_parent_violated",
    "Caribou.C111_rest_violated",
    "Caribou.C111_elements_violated",
    "Caribou.C111_again_violated"
   ],
   "note": "false for a parent object which has not one node per node of the mesh (C111_parent_violated), for a number of rest positions other than the number of mapped nodes (C111_rest_violated), for a domain without elements (C111_elements_violated) and for a second init in a scene which became incomplete (C111_again_violated); both objects exist and have the same dimension and scalars"
  },
  {
   "property": "C112",
   "status": "partial",
   "theorems": [
    "Caribou.C112_positions",
    "Caribou.C112_kept",
    "Caribou.C112_indices",
    "Caribou.C112_container",
    "Caribou.C112_freed",
    "Caribou.C112_drop",
    "Caribou.C112_columns",
    "Caribou.C112_violated",
    "Caribou.C112_dimension_violated",
    "Caribou.C112_index_violated",
    "Caribou.C112_outside_violated"
   ],
   "note": "proved for programs which hold the mesh; false once no variable holds the mesh although the domain, the array or the container is held (C112_violated; C112_freed: every use is undefined behaviour), for elements of another dimension (C112_dimension_violated), indices out of range (C112_index_violated) and the rows of points outside of all elements (C112_outside_violated)"
  },
  {
   "property": "C113",
   "status": "partial",
   "theorems": [
    "Caribou.C113_table",
    "Caribou.C113_points",
    "Caribou.C113_line",
    "Caribou.C113_order",
    "Caribou.C113_default",
    "Caribou.C113_box",
    "Caribou.C113_table_refused",
    "Caribou.C113_points_refused",
    "Caribou.C113_rectangular_violated",
    "Caribou.C113_dimension_violated"
   ],
   "note": "false for rectangular hexahedra made from points (C113_rectangular_violated) and for triangles and quads of dimension one, which are not refused (C113_dimension_violated); positional arguments"
  },
  {
   "property": "C114",
   "status": "partial",
   "theorems": [
    "Caribou.C114_draw",
    "Caribou.C114_shrunk",
    "Caribou.C114_disjoint",
    "Caribou.C114_colour",
    "Caribou.C114_bbox",
    "Caribou.C114_violated",
    "Caribou.C114_scale_violated",
    "Caribou.C114_bbox_violated"
   ],
   "note": "false: of each region only the cells on its boundary are drawn (C114_violated), draw_scale has no effect after the initialisation (C114_scale_violated) and the bounding box is empty when the corners are not in increasing order (C114_bbox_violated); C114_draw gives the exact calls of draw on every grid"
  },
  {
   "property": "C115",
   "status": "partial",
   "theorems": [
    "Caribou.C115_nodes",
    "Caribou.C115_cells",
    "Caribou.C115_cell_at_partial",
    "Caribou.C115_cell_at_violated",
    "Caribou.C115_edges",
    "Caribou.C115_faces",
    "Caribou.C115_points",
    "Caribou.C115_flags",
    "Caribou.C115_numbers",
    "Caribou.C115_integers",
    "Caribou.C115_violated",
    "Caribou.C115_base_partial",
    "Caribou.C115_make",
    "Caribou.C115_make_violated"
   ],
   "note": "false: cell_coordinates_at of a point and node of coordinates are hidden by the derived class and always raise TypeError (C115_violated), cell_at always raises it in two dimensions, and in three when Caribou.Geometry is not imported (C115_cell_at_violated), negative numbers of cells and coordinates which are not integers are accepted (C115_make_violated); everything else is proved"
  },
  {
   "property": "C116",
   "status": "partial",
   "theorems": [
    "Caribou.C116_get",
    "Caribou.C116_refused",
    "Caribou.C116_identifiers",
    "Caribou.C116_none_violated",
    "Caribou.C116_names_partial",
    "Caribou.C116_names_violated",
    "Caribou.C116_size_violated"
   ],
   "note": "false: None is returned for anything but a class of elements (C116_none_violated), the names of the two classes for hexahedra are swapped (C116_names_violated), a negative size is accepted and elements are lost (C116_size_violated); proved for classes of elements and positive sizes"
  },
  {
   "property": "C117",
   "status": "partial",
   "theorems": [
    "Caribou.C117_template",
    "Caribou.C117_path_partial",
    "Caribou.C117_path_violated",
    "Caribou.C117_search",
    "Caribou.C117_nearest_partial",
    "Caribou.C117_nearest_violated",
    "Caribou.C117_topology_partial",
    "Caribou.C117_topology_violated",
    "Caribou.C117_backend",
    "Caribou.C117_constructed",
    "Caribou.C117_material"
   ],
   "note": "false: relative paths are followed from the root by canCreate (C117_path_violated), the first class in alphabetical order which finds a topology of its type in any ancestor is taken instead of the nearest topology (C117_nearest_violated), a topology with an unknown or missing template is made for hexahedra (C117_topology_violated); the rest is proved"
  },
  {
   "property": "C118",
   "status": "partial",
   "theorems": [
    "Caribou.C118_matrix",
    "Caribou.C118_rhs",
    "Caribou.C118_rhs_fixed",
    "Caribou.C118_derivative",
    "Caribou.C118_fixed_partial",
    "Caribou.C118_fixed_violated",
    "Caribou.C118_getJ_violated"
   ],
   "note": "false in two cases: constraints are applied before the matrices of the mapped bodies are added, the row of a fixed degree of freedom is not the identity when a mapping starts from its body (C118_fixed_violated); a mapping without getJ (CaribouBarycentricMapping) has its forces in the vector and nothing in the matrix (C118_getJ_violated); the rest is proved"
  },
  {
   "property": "C119",
   "status": "proved",
   "theorems": [
    "Caribou.C119_continuous",
    "Caribou.C119_any_order",
    "Caribou.C119_inside",
    "Caribou.C119_one_value"
   ],
   "note": "RectangularHexahedron<Quadratic> is left out, its table of sides is wrong (C11); C119_one_value asks that the shared side is not folded over itself"
  },
  {
   "property": "C120",
   "status": "partial",
   "theorems": [
    "Caribou.C120_work",
    "Caribou.C120_resultant",
    "Caribou.C120_moment",
    "Caribou.C120_normal",
    "Caribou.C120_traction",
    "Caribou.C120_uniform",
    "Caribou.C120_error",
    "Caribou.C120_displacement",
    "Caribou.C120_parameters",
    "Caribou.C120_stress_partial",
    "Caribou.C120_balance_partial",
    "Caribou.C120_compute_violated"
   ],
   "note": "compute ignores the Lame parameters given to it and always uses mu = 1, lambda = 1.25 (C120_compute_violated); its stress and body force are right for these values (C120_stress_partial, C120_balance_partial); the rest is proved"
  },
  {
   "property": "C121",
   "status": "proved",
   "theorems": [
    "Caribou.C121_interpolation",
    "Caribou.C121_quadratic",
    "Caribou.C121_gradient",
    "Caribou.C121_refinement",
    "Caribou.C121_gradient_quadratic"
   ],
   "note": "lengths and errors are measured with the maximum norm of the coordinates; exact arithmetic"
  },
  {
   "property": "C122",
   "status": "proved",
   "theorems": [
    "Caribou.C122_first",
    "Caribou.C122_volume",
    "Caribou.C122_second",
    "Caribou.C122_converges",
    "Caribou.C122_loads",
    "Caribou.C122_grid",
    "Caribou.C122_grid_plane",
    "Caribou.C122_grid_converges"
   ],
   "note": "elements whose dimension is that of the space; curved quadratic solids are excluded, whose weights do not add up to the volume (C83); exact arithmetic"
  },
  {
   "property": "C123",
   "status": "proved",
   "theorems": [
    "Caribou.C123_energy",
    "Caribou.C123_forces",
    "Caribou.C123_stiffness",
    "Caribou.C123_equilibrium",
    "Caribou.C123_materials",
    "Caribou.C123_grid"
   ],
   "note": "consistency only: that the equilibrium positions found by the solvers converge would need the stability of the nonlinear problem; exact arithmetic"
  },
  {
   "property": "C124",
   "status": "proved",
   "theorems": [
    "Caribou.C124_best",
    "Caribou.C124_unfinished",
    "Caribou.C124_error",
    "Caribou.C124_strains",
    "Caribou.C124_converges",
    "Caribou.C124_virtual",
    "Caribou.C124_patch",
    "Caribou.C124_loads",
    "Caribou.C124_integral"
   ],
   "note": "affine elements (all tetrahedra, parallelepiped hexahedra) and loads consistent with the principle of virtual work; the one-point integration of the hexahedra is excluded; exact arithmetic"
  },
  {
   "property": "C125",
   "status": "partial",
   "theorems": [
    "Caribou.C125_converges_partial",
    "Caribou.C125_above_partial",
    "Caribou.C125_smooth",
    "Caribou.C125_linear_partial",
    "Caribou.C125_violated"
   ],
   "note": "a time step at the beginning of which the forces are within the absolute threshold is skipped, so that a body moving without forces never moves (C125_violated); the convergence is proved for motions without such steps, in particular with the threshold disabled or with forces above it"
  },
  {
   "property": "C126",
   "status": "partial",
   "theorems": [
    "Caribou.C126_quadratic_partial",
    "Caribou.C126_reported_partial",
    "Caribou.C126_smooth",
    "Caribou.C126_violated"
   ],
   "note": "a solve whose total displacement has a squared norm below EPSILON = 1e-19 is declared diverged even when it reached the equilibrium exactly (C126_violated); mapped points attached to fixed ones are excluded (C84_violated); otherwise proved"
  },
  {
   "property": "C127",
   "status": "partial",
   "theorems": [
    "Caribou.C127_equilibrium",
    "Caribou.C127_solve_partial",
    "Caribou.C127_rest",
    "Caribou.C127_hyperelastic_partial"
   ],
   "note": "loads so small that the solve hardly moves are declared diverged (C126_violated) and curved quadratic elements have singular matrices (C101_tetra2_violated, C101_hexa2_violated); otherwise proved"
  },
  {
   "property": "C128",
   "status": "proved",
   "theorems": [
    "Caribou.C128_optimal",
    "Caribou.C128_rate",
    "Caribou.C128_step",
    "Caribou.C128_iterations",
    "Caribou.C128_count",
    "Caribou.C128_matrix_free"
   ],
   "note": ""
  },
  {
   "property": "C129",
   "status": "partial",
   "theorems": [
    "Caribou.C129_quad",
    "Caribou.C129_hexahedron",
    "Caribou.C129_quad_found_partial",
    "Caribou.C129_hexahedron_found_partial",
    "Caribou.C129_violated"
   ],
   "note": "points on the sides of distorted elements may be missed (C129_violated); points away from the sides are found, with an explicit margin"
  },
  {
   "property": "C130",
   "status": "proved",
   "theorems": [
    "Caribou.C130_jacobian",
    "Caribou.C130_unfolded",
    "Caribou.C130_quadrature",
    "Caribou.C130_volume"
   ],
   "note": ""
  },
  {
   "property": "C131",
   "status": "partial",
   "theorems": [
    "Caribou.C131_coordinates",
    "Caribou.C131_found_partial",
    "Caribou.C131_violated"
   ],
   "note": "points of the parts of a curved element outside of the box of its nodes may be missed (C131_violated); the others are found up to the margin of C129"
  },
  {
   "property": "C132",
   "status": "partial",
   "theorems": [
    "Caribou.C132_work",
    "Caribou.C132_affine",
    "Caribou.C132_moment",
    "Caribou.C132_violated"
   ],
   "note": "the work, the resultant and the moment are proved; the energy reported is always zero and not a potential of the forces (C132_violated)"
  },
  {
   "property": "C133",
   "status": "proved",
   "theorems": [
    "Caribou.C133_tetra",
    "Caribou.C133_hexa",
    "Caribou.C133_hyper_tetra",
    "Caribou.C133_hyper_hexa",
    "Caribou.C133_stress_svk",
    "Caribou.C133_stress_neohookean"
   ],
   "note": ""
  },
  {
   "property": "C134",
   "status": "partial",
   "theorems": [
    "Caribou.C134_buffers",
    "Caribou.C134_domains_partial",
    "Caribou.C134_destroyed_partial",
    "Caribou.C134_empty_partial",
    "Caribou.C134_assign_partial",
    "Caribou.C134_move_partial",
    "Caribou.C134_violated"
   ],
   "note": "arrays: all histories; domains: histories in which domains are added by name; false with domains added by pointer after a move (C134_violated)"
  },
  {
   "property": "C135",
   "status": "proved",
   "theorems": [
    "Caribou.C135_error",
    "Caribou.C135_softer",
    "Caribou.C135_body",
    "Caribou.C135_loads",
    "Caribou.C135_point",
    "Caribou.C135_tetra",
    "Caribou.C135_hexa",
    "Caribou.C135_grids",
    "Caribou.C135_box",
    "Caribou.C135_unique",
    "Caribou.C135_box_unique"
   ],
   "note": "affine elements (all tetrahedra, parallelepiped hexahedra); the one-point integration of the hexahedra is excluded; exact arithmetic"
  },
  {
   "property": "C136",
   "status": "proved",
   "theorems": [
    "Caribou.C136_superposition",
    "Caribou.C136_reciprocity",
    "Caribou.C136_maxwell",
    "Caribou.C136_work",
    "Caribou.C136_excess",
    "Caribou.C136_least",
    "Caribou.C136_stiffer",
    "Caribou.C136_young"
   ],
   "note": "corotated = false; superposition, reciprocity and the work hold for inverted elements and all parameters as well; exact arithmetic"
  },
  {
   "property": "C137",
   "status": "proved",
   "theorems": [
    "Caribou.C137_hyperelastic",
    "Caribou.C137_hyperelastic_box",
    "Caribou.C137_linear",
    "Caribou.C137_solution",
    "Caribou.C137_box"
   ],
   "note": "corotated = false for the corotational force fields (the rotations of elements depend on the order of their nodes and on the frame, C98, C99); elements without inverted points; exact arithmetic"
  },
  {
   "property": "C138",
   "status": "proved",
   "theorems": [
    "Caribou.C138_unfinished",
    "Caribou.C138_hyperelastic",
    "Caribou.C138_linear",
    "Caribou.C138_traction",
    "Caribou.C138_traction_hyperelastic",
    "Caribou.C138_motion",
    "Caribou.C138_free",
    "Caribou.C138_free_solutions",
    "Caribou.C138_box",
    "Caribou.C138_box_held"
   ],
   "note": "the moment for linear bodies is at the rest positions and with corotated = false; at the current positions it does not vanish (C109_moment_violated); exact arithmetic"
  },
  {
   "property": "C139",
   "status": "partial",
   "theorems": [
    "Caribou.C139_beam",
    "Caribou.C139_beam_partial",
    "Caribou.C139_counts_violated",
    "Caribou.C139_corners_violated",
    "Caribou.C139_rectangle",
    "Caribou.C139_flat_violated",
    "Caribou.C139_refused",
    "Caribou.C139_gmsh_violated",
    "Caribou.C139_cylinder_violated",
    "Caribou.C139_cylinder"
   ],
   "note": "the numbers along x and y are exchanged, the box extends in the positive directions from the first corner, three numbers with corners of equal height make a surface, --gmsh is ignored, the types with hexahedra of the cylinder make tetrahedra; what Gmsh makes of the program is specified, not modelled"
  },
  {
   "property": "C140",
   "status": "proved",
   "theorems": [
    "Caribou.C140_equilibrium",
    "Caribou.C140_materials",
    "Caribou.C140_slope",
    "Caribou.C140_first",
    "Caribou.C140_solve",
    "Caribou.C140_box"
   ],
   "note": "corotated = false and, for hexahedra, the regular integration; linear tetrahedra and hexahedra are the elements both kinds of force fields accept; exact arithmetic, a linear solver which returns solutions"
  },
  {
   "property": "C141",
   "status": "partial",
   "theorems": [
    "Caribou.C141_settles_partial",
    "Caribou.C141_damped_partial",
    "Caribou.C141_unlimited_partial",
    "Caribou.C141_bounded",
    "Caribou.C141_violated",
    "Caribou.C141_body",
    "Caribou.C141_box_partial"
   ],
   "note": "the positions are not moved before the first iteration, so with newton_iterations = 1, the default, a step is not the backward Euler step: an undamped scene keeps an energy and never settles (C141_violated), a damped one does (C141_damped_partial) and both stay bounded (C141_bounded); partial because steps which make no second iteration are excluded; exact arithmetic, constant load"
  },
  {
   "property": "C142",
   "status": "partial",
   "theorems": [
    "Caribou.C142_move_partial",
    "Caribou.C142_count",
    "Caribou.C142_move_violated",
    "Caribou.C142_swap_partial",
    "Caribou.C142_swap_violated",
    "Caribou.C142_freed"
   ],
   "note": "the pointer to the mesh is not moved: element(id), attach_to and add_domain of a moved domain are undefined; exchanging domains of different meshes mixes indices of one with nodes of the other; element(id, positions), counts and memory are right"
  },
  {
   "property": "C143",
   "status": "partial",
   "theorems": [
    "Caribou.C143_history_partial",
    "Caribou.C143_consequences_partial",
    "Caribou.C143_hyperelastic"
   ],
   "note": "partial for the reasons of C127: a step may end without convergence because the correction is small or the iterations are used up (C126_violated), and mapped points attached to fixed ones are assumed away (C84_violated); exact arithmetic, small loads"
  },
  {
   "property": "C144",
   "status": "partial",
   "theorems": [
    "Caribou.C144_cut",
    "Caribou.C144_adds",
    "Caribou.C144_regular",
    "Caribou.C144_rest",
    "Caribou.C144_solve_partial",
    "Caribou.C144_materials",
    "Caribou.C144_box",
    "Caribou.C144_overlap",
    "Caribou.C144_scene_violated"
   ],
   "note": "in the scene multiple_materials.py the boxes which select the elements overlap: two of the twenty layers of cells have both materials (C144_scene_violated), whose coefficients add there (C144_overlap); C144_solve_partial as C143; the visitors of SOFA and BoxROI are modelled from their documented behaviour"
  },
  {
   "property": "C145",
   "status": "proved",
   "theorems": [
    "Caribou.C145_energy",
    "Caribou.C145_forces",
    "Caribou.C145_equilibrium",
    "Caribou.C145_stiffness",
    "Caribou.C145_softer"
   ],
   "note": "the quadrature of the quadratic tetrahedron only integrates constants here, so its rounded decimals have no effect"
  },
  {
   "property": "C146",
   "status": "partial",
   "theorems": [
    "Caribou.C146_linear_partial",
    "Caribou.C146_reported_partial",
    "Caribou.C146_near_partial",
    "Caribou.C146_violated"
   ],
   "note": "once the equilibrium is reached exactly, the conjugate gradient reports a failure for the zero right-hand side and so does the Newton solver, unless its absolute threshold stops it before (C146_violated); missing otherwise: mapped points attached to fixed ones (C84_violated) and solves which hardly move (C126_violated); incomplete factorizations as preconditioners are not covered"
  },
  {
   "property": "C147",
   "status": "partial",
   "theorems": [
    "Caribou.C147_derivative",
    "Caribou.C147_same",
    "Caribou.C147_loads",
    "Caribou.C147_run_partial",
    "Caribou.C147_violated"
   ],
   "note": "when the first iteration of a step leaves exactly no force, as in a linear problem, the plugin reports convergence while the script divides by zero (C147_violated); the quadrature of the form compiler is taken to be the one of the element"
  },
  {
   "property": "C148",
   "status": "partial",
   "theorems": [
    "Caribou.C148_write_partial",
    "Caribou.C148_loads_partial",
    "Caribou.C148_log",
    "Caribou.C148_log_short",
    "Caribou.C148_volume_violated",
    "Caribou.C148_surface_violated",
    "Caribou.C148_numbers_violated",
    "Caribou.C148_lost_violated",
    "Caribou.C148_concatenate_violated",
    "Caribou.C148_loads_violated"
   ],
   "note": "the file is right when each block of volume elements has a single tag, each block with surface elements several tags, the types of the blocks differ and the base has one type; the other theorems show that each of these conditions is needed, that volume elements of two types have the same numbers, and that a zero traction gives nan"
  },
  {
   "property": "C149",
   "status": "partial",
   "theorems": [
    "Caribou.C149_linear_partial",
    "Caribou.C149_violated"
   ],
   "note": "the second iteration is abandoned when the first increment happens to solve its system, because the conjugate gradient is handed this increment as a guess and reports a failure when the guess is already good; the step then violates the equation of motion and may increase the energy whatever the number of iterations (C149_violated); missing otherwise: mapped points attached to fixed ones, as in C96"
  },
  {
   "property": "C150",
   "status": "partial",
   "theorems": [
    "Caribou.C150_same_partial",
    "Caribou.C150_one_partial",
    "Caribou.C150_start_violated",
    "Caribou.C150_failure_violated"
   ],
   "note": "false with small forces, which the legacy solver accepts at once since it compares their square with the threshold (C150_start_violated), and when the linear solver fails: the legacy solver is not told and may report convergence (C150_failure_violated); with one iteration the residuals reported differ, the positions and the status do not (C150_one_partial)"
  },
  {
   "property": "C151",
   "status": "partial",
   "theorems": [
    "Caribou.C151_same_partial",
    "Caribou.C151_stable",
    "Caribou.C151_records",
    "Caribou.C151_limit_violated",
    "Caribou.C151_warm_violated"
   ],
   "note": "false when a linear solve reaches its limit, since the solution is then only copied by the method None (C151_limit_violated), and with a warm start, since the zero found in equilibrium is not copied by the method Identity (C151_warm_violated); missing otherwise: mapped points attached to fixed ones, as in C96"
  },
  {
   "property": "C152",
   "status": "partial",
   "theorems": [
    "Caribou.C152_partial",
    "Caribou.C152_range",
    "Caribou.C152_violated"
   ],
   "note": "false: the factors are those of an implicit Euler step, but the solver adds the solution itself to the positions and leaves the velocities, so they tell the step exactly when the solution is zero and the time step or the velocities are (C152_partial, C152_violated); negative orders read outside of the table (C152_range); proved for steps of one iteration"
  },
  {
   "property": "C153",
   "status": "partial",
   "theorems": [
    "Caribou.C153_partial",
    "Caribou.C153_shared",
    "Caribou.C153_entry",
    "Caribou.C153_append",
    "Caribou.C153_reserved",
    "Caribou.C153_violated",
    "Caribou.C153_early_violated"
   ],
   "note": "proved for the durations and the initial residual after the first step; false for the others: Python holds references to the vectors of the solver, which show the last step (C153_shared), references to single entries dangle after a step with fewer iterations or a greater limit (C153_entry, C153_violated), and the initial residual is not initialised before the first step (C153_early_violated)"
  },
  {
   "property": "C154",
   "status": "partial",
   "theorems": [
    "Caribou.C154_partial",
    "Caribou.C154_end",
    "Caribou.C154_violated"
   ],
   "note": "true exactly if the time step of the scene is the one which get_motion_per_dt was given and the distance is a multiple of the step (C154_partial); otherwise the point stays beyond its goal, by less than a step if only the distance does not fit (C154_end, C154_violated); real numbers"
  },
  {
   "property": "C155",
   "status": "partial",
   "theorems": [
    "Caribou.C155_partial",
    "Caribou.C155_ends",
    "Caribou.C155_violated"
   ],
   "note": "the layers are the right ones for all sizes (C155_ends); the cells are equal, of at least the given size and less than twice of it, and of the given size exactly if the extents are multiples of it (C155_partial), which is not so for the numbers of the scenes (C155_violated); exact numbers, RegularGridTopology and BoxROI as documented by SOFA"
  },
  {
   "property": "C156",
   "status": "partial",
   "theorems": [
    "Caribou.C156_partial",
    "Caribou.C156_cg",
    "Caribou.C156_newton",
    "Caribou.C156_legacy",
    "Caribou.C156_violated"
   ],
   "note": "the solvers end what they begin on every path (C156_cg, C156_newton, C156_legacy), the Newton solvers tell the completed iterations and the conjugate gradient the iterations exactly if it had something to do; false: HyperelasticForcefield::initialize_elements without a mechanical object leaves its step open (C156_partial), a conjugate gradient with nothing to do tells one iteration, an iteration in which the linear solver fails is begun but not counted (C156_violated)"
  },
  {
   "property": "C157",
   "status": "partial",
   "theorems": [
    "Caribou.C157_partial",
    "Caribou.C157_lists",
    "Caribou.C157_violated"
   ],
   "note": "true if the same methods are recorded in all time steps, each with at least two complete iterations (C157_partial); the loop over the steps raises exactly if a time step without values of a method comes before one with values of it, and loses nothing otherwise (C157_lists); false: a time step with one iteration is left out of the mean or ends the script, one without iterations ends it (C157_violated); exact durations, column of the total time"
  },
  {
   "property": "C158",
   "status": "partial",
   "theorems": [
    "Caribou.C158_partial",
    "Caribou.C158_analysed",
    "Caribou.C158_after",
    "Caribou.C158_violated"
   ],
   "note": "true for the methods without incomplete factorization, in any simulation (C158_partial); with any method if the matrix assembled has another size than the next system or the method has analysed this size (C158_analysed), so after a first solve while the size of the systems stays (C158_after); false for a call before the first solve with an incomplete factorization: undefined behaviour (C158_violated); solves as made by the solvers of SOFA; the function A of the binding is not modelled"
  },
  {
   "property": "C159",
   "status": "partial",
   "theorems": [
    "Caribou.C159_partial",
    "Caribou.C159_violated"
   ],
   "note": "true if the names of the methods are different and each has made several iterations, the first of which came to the linear solve, and stopped at the first which did not (C159_partial); false: a solver which needed one iteration has no column, and one which needed none ends the script of the beam with an exception (C159_violated); exact durations, column of the total time"
  },
  {
   "property": "C160",
   "status": "partial",
   "theorems": [
    "Caribou.C160_partial",
    "Caribou.C160_violated"
   ],
   "note": "true with the legacy static solver, no preconditioner and several iterations (C160_partial); false with the static solver which the scene of the benchmark uses and with every preconditioner: always a dash; with the legacy solver and a single iteration an exception (C160_violated); records of the timer as documented, solvers of SOFA as a parameter"
  },
  {
   "property": "C161",
   "status": "partial",
   "theorems": [
    "Caribou.C161_partial",
    "Caribou.C161_violated"
   ],
   "note": "true for several iterations with both static solvers which the scene uses (C161_partial); false otherwise: a single iteration ends the script with an exception, a system which is solved already is shown with one iteration (C161_violated); records of the timer as documented, solvers of SOFA as a parameter"
  },
  {
   "property": "C162",
   "status": "proved",
   "theorems": [
    "Caribou.C162",
    "Caribou.C162_mean",
    "Caribou.C162_moved"
   ],
   "note": "exact durations; rows which are printed (when the script raises instead: C161_violated); steps and values have different names"
  },
  {
   "property": "C163",
   "status": "proved",
   "theorems": [
    "Caribou.C163"
   ],
   "note": "names without ends of lines and without spaces at their ends, identifiers without spaces; reading as documented for the format; XML files and compression are not modelled; classes in Python get the domain python, which Sphinx calls py"
  }
 ]
}