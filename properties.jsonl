{"id": "C01", "title": "Shape functions form a partition of unity", "statement": "For every element type (segment, triangle, quad, tetrahedron, hexahedron; linear and quadratic) the values returned by L(xi) sum to exactly 1.", "quantifier": "every element type, every local coordinate xi (inside or outside the element)", "why_tests_cant": "a test evaluates finitely many xi; the identity is over a continuum of coordinates", "anchors": ["src/Caribou/Geometry/Segment.h: get_L/get_dL", "src/Caribou/Geometry/Triangle.h: get_L/get_dL", "src/Caribou/Geometry/Quad.h: get_L/get_dL", "src/Caribou/Geometry/Tetrahedron.h: get_L/get_dL", "src/Caribou/Geometry/Hexahedron.h: get_L/get_dL"]}
{"id": "C02", "title": "Shape functions are nodal (Kronecker delta)", "statement": "L(xi) evaluated at the canonical position of node j is 1 for node j and 0 for every other node, so interpolate() at a node returns that node's value and world_coordinates() of a canonical node is the node position.", "quantifier": "every element type, every node, every node position and every nodal field", "why_tests_cant": "interpolated fields and node positions range over all reals", "anchors": ["src/Caribou/Geometry/Segment.h: get_L/get_dL", "src/Caribou/Geometry/Triangle.h: get_L/get_dL", "src/Caribou/Geometry/Quad.h: get_L/get_dL", "src/Caribou/Geometry/Tetrahedron.h: get_L/get_dL", "src/Caribou/Geometry/Hexahedron.h: get_L/get_dL", "src/Caribou/Geometry/Element.h: interpolate, world_coordinates"]}
{"id": "C03", "title": "dL is the derivative of L", "statement": "Each entry (i,j) returned by dL(xi) is the partial derivative of the i-th entry of L with respect to the j-th local coordinate.", "quantifier": "every element type, every local coordinate, every node, every direction", "why_tests_cant": "finite differences only approximate the derivative at sampled points", "anchors": ["src/Caribou/Geometry/Segment.h: get_L/get_dL", "src/Caribou/Geometry/Triangle.h: get_L/get_dL", "src/Caribou/Geometry/Quad.h: get_L/get_dL", "src/Caribou/Geometry/Tetrahedron.h: get_L/get_dL", "src/Caribou/Geometry/Hexahedron.h: get_L/get_dL"]}
{"id": "C04", "title": "Constant fields have zero gradient", "statement": "Every column returned by dL(xi) sums to zero: a field that is constant over the nodes has zero gradient and a translation of all nodes does not change the Jacobian.", "quantifier": "every element type, every local coordinate, every translation", "why_tests_cant": "requires an identity over all coordinates and all translations", "anchors": ["src/Caribou/Geometry/Segment.h: get_L/get_dL", "src/Caribou/Geometry/Triangle.h: get_L/get_dL", "src/Caribou/Geometry/Quad.h: get_L/get_dL", "src/Caribou/Geometry/Tetrahedron.h: get_L/get_dL", "src/Caribou/Geometry/Hexahedron.h: get_L/get_dL", "src/Caribou/Geometry/Element.h: jacobian"]}
{"id": "C05", "title": "Affine fields are interpolated exactly", "statement": "If the nodal values are the values of an affine function of the local coordinates at the canonical nodes, interpolate() returns that affine function's value at every local coordinate. In particular an element whose nodes are the affine image of the canonical nodes has exactly that affine map as world_coordinates().", "quantifier": "every element type, every affine map, every local coordinate", "why_tests_cant": "infinitely many affine maps and coordinates", "anchors": ["src/Caribou/Geometry/Segment.h: get_L/get_dL", "src/Caribou/Geometry/Triangle.h: get_L/get_dL", "src/Caribou/Geometry/Quad.h: get_L/get_dL", "src/Caribou/Geometry/Tetrahedron.h: get_L/get_dL", "src/Caribou/Geometry/Hexahedron.h: get_L/get_dL", "src/Caribou/Geometry/Element.h: interpolate, world_coordinates"]}
{"id": "C06", "title": "Quadratic elements interpolate quadratic fields exactly", "statement": "For every quadratic element type, nodal values sampled from any polynomial of total degree at most two are interpolated exactly everywhere.", "quantifier": "every quadratic element type, every polynomial of total degree <= 2, every local coordinate", "why_tests_cant": "the space of polynomials and coordinates is infinite", "anchors": ["src/Caribou/Geometry/Segment.h: get_L", "src/Caribou/Geometry/Triangle.h: get_L", "src/Caribou/Geometry/Quad.h: get_L", "src/Caribou/Geometry/Tetrahedron.h: get_L", "src/Caribou/Geometry/Hexahedron.h: get_L"]}
{"id": "C07", "title": "jacobian() is the derivative of world_coordinates()", "statement": "For every element with arbitrary node positions, entry (a,j) of jacobian(xi) is the partial derivative of the a-th world coordinate with respect to the j-th local coordinate.", "quantifier": "every element type, every node position, every local coordinate", "why_tests_cant": "an analytic statement over all node positions", "anchors": ["src/Caribou/Geometry/Element.h: jacobian, world_coordinates"]}
{"id": "C08", "title": "Quadratic element built from a linear element describes the same shape", "statement": "Constructing a quadratic triangle, quad, tetrahedron or hexahedron from a linear one gives an element whose world_coordinates() equals the linear element's at every local coordinate.", "quantifier": "every linear element (all node positions), every local coordinate", "why_tests_cant": "node positions and coordinates are continuous", "anchors": ["src/Caribou/Geometry/Triangle.h: Triangle<Quadratic>(Triangle<Linear>)", "src/Caribou/Geometry/Quad.h", "src/Caribou/Geometry/Tetrahedron.h", "src/Caribou/Geometry/Hexahedron.h"]}
{"id": "C09", "title": "Boundary elements are the trace of the element", "statement": "boundary_element(i) of a triangle, quad, tetrahedron or hexahedron maps its local coordinates to points that the parent maps from the corresponding parametrisation of its i-th side. Hence the geometry on a side depends only on that side's nodes and neighbouring elements sharing those nodes match.", "quantifier": "every element type with a boundary, every side, all node positions, all local coordinates of the side", "why_tests_cant": "continuum of node positions and side coordinates", "anchors": ["src/Caribou/Geometry/Element.h: boundary_element", "src/Caribou/Geometry/Triangle.h: get_boundary_elements_nodes", "src/Caribou/Geometry/Quad.h: get_boundary_elements_nodes", "src/Caribou/Geometry/Tetrahedron.h: get_boundary_elements_nodes", "src/Caribou/Geometry/Hexahedron.h: get_boundary_elements_nodes"]}
{"id": "C10", "title": "Element boundary is closed and consistently oriented", "statement": "The side tables of tetrahedra and hexahedra describe a closed surface: every edge of the element is shared by exactly two sides that traverse it in opposite directions, and on every element whose corner Jacobian is positive the side normal (right-hand rule over the side's nodes) points away from the opposite side. For triangles and quads the sides form one closed counter-clockwise cycle.", "quantifier": "every side, every edge; every positively oriented affine element", "why_tests_cant": "outward orientation must hold for every positively oriented geometry", "anchors": ["src/Caribou/Geometry/Tetrahedron.h: get_boundary_elements_nodes, edges", "src/Caribou/Geometry/Hexahedron.h: get_boundary_elements_nodes, edges", "src/Caribou/Geometry/Triangle.h", "src/Caribou/Geometry/Quad.h"]}
{"id": "C11", "title": "Quadratic rectangular hexahedron side table matches the element", "statement": "The side table of the quadratic rectangular hexahedron lists, for every side, mid-edge nodes that lie on that side, so its boundary elements are the trace of the element.", "quantifier": "every side of the quadratic rectangular hexahedron", "why_tests_cant": "unit tests only touch the linear rectangular hexahedron's sides", "anchors": ["src/Caribou/Geometry/RectangularHexahedron.h: RectangularHexahedron<Quadratic>::get_boundary_elements_nodes"]}
{"id": "C12", "title": "Gauss rules integrate polynomials exactly", "statement": "The Gauss nodes of every element type lie inside the element, have positive weights that add up to the measure of the canonical element, and integrate exactly all polynomials up to the rule's degree (1 for the single-point rules, 2 for the quadratic triangle, 3 in each variable for the tensor two-point rules).", "quantifier": "every element type, every polynomial of the stated degree", "why_tests_cant": "the set of polynomials is infinite", "anchors": ["src/Caribou/Geometry/Segment.h: get_gauss_nodes", "src/Caribou/Geometry/Triangle.h: get_gauss_nodes", "src/Caribou/Geometry/Quad.h: get_gauss_nodes", "src/Caribou/Geometry/Tetrahedron.h: get_gauss_nodes", "src/Caribou/Geometry/Hexahedron.h: get_gauss_nodes"]}
{"id": "C13", "title": "Declared number of Gauss nodes matches the Gauss table", "statement": "number_of_gauss_nodes() of every element type equals the number of entries returned by gauss_nodes().", "quantifier": "every element type", "why_tests_cant": "tests iterate over one of the two and never compare both for every type", "anchors": ["src/Caribou/Geometry/RectangularHexahedron.h: traits, get_gauss_nodes", "src/Caribou/Geometry/RectangularQuad.h: traits, get_gauss_nodes", "src/Caribou/Geometry/Hexahedron.h", "src/Caribou/Geometry/Quad.h", "src/Caribou/Geometry/Triangle.h", "src/Caribou/Geometry/Tetrahedron.h", "src/Caribou/Geometry/Segment.h"]}
{"id": "C14", "title": "contains_local decides membership in the canonical element", "statement": "contains_local(xi, eps) is true exactly when xi lies in the canonical element enlarged by eps (closed for segments, quads and hexahedra, open for triangles and tetrahedra). It is monotone in eps and every point of the element is accepted for every eps > 0.", "quantifier": "every element type, every xi, every eps >= 0 (and the behaviour for eps < -1 stated)", "why_tests_cant": "a decision procedure over all reals", "anchors": ["src/Caribou/Geometry/BaseSegment.h: get_contains_local", "src/Caribou/Geometry/BaseTriangle.h: get_contains_local", "src/Caribou/Geometry/BaseQuad.h: get_contains_local", "src/Caribou/Geometry/BaseTetrahedron.h: get_contains_local", "src/Caribou/Geometry/BaseHexahedron.h: get_contains_local", "src/Caribou/Config/macros.h.in: IN_CLOSED_INTERVAL"]}
{"id": "C15", "title": "local_coordinates inverts affine elements", "statement": "On every non-degenerate element whose map is affine (all linear simplices; quads and hexahedra that are parallelograms/parallelepipeds; quadratic elements with straight affine geometry), local_coordinates(p) run with at least one iteration returns either the starting point with an absolute residual below the tolerance, or a point that maps back exactly to p, whatever the starting point.", "quantifier": "every affine element, every world point, every starting point, every tolerance, every iteration limit", "why_tests_cant": "infinitely many elements and points; exactness of one Newton step is an algebraic fact", "anchors": ["src/Caribou/Geometry/Element.h: local_coordinates"]}
{"id": "C16", "title": "local_coordinates always terminates and reports its last iterate", "statement": "local_coordinates performs at most max(1, maximum_number_of_iterations) Newton updates. When it stops early the last residual is below the relative tolerance (or the initial residual was below the absolute tolerance).", "quantifier": "every element, every point, starting point, tolerance and iteration limit", "why_tests_cant": "termination and the exit condition must hold for all inputs, including those where Newton diverges", "anchors": ["src/Caribou/Geometry/Element.h: local_coordinates"]}
{"id": "C17", "title": "local_coordinates of a lower-dimensional element is the orthogonal projection", "statement": "For an affine segment or triangle embedded in a higher dimensional space, the point returned by local_coordinates after one update is the least-squares solution: the residual is orthogonal to the element.", "quantifier": "every non-degenerate affine segment/triangle in 2D/3D, every world point, every starting point", "why_tests_cant": "continuum of inputs", "anchors": ["src/Caribou/Geometry/Element.h: local_coordinates (Dimension != CanonicalDimension branch)"]}
{"id": "C18", "title": "Rectangular elements: world and local coordinates are mutually inverse", "statement": "For a rectangular hexahedron or quad with non-zero size and a rotation matrix, local_coordinates(world_coordinates(xi)) = xi and world_coordinates(local_coordinates(p)) = p; contains(p) holds exactly when p lies in the rotated box.", "quantifier": "every centre, size, rotation, xi and p", "why_tests_cant": "continuum of boxes, rotations, points", "anchors": ["src/Caribou/Geometry/BaseRectangularHexahedron.h: world_coordinates, local_coordinates, contains", "src/Caribou/Geometry/BaseRectangularQuad.h"]}
{"id": "C19", "title": "Rectangular elements agree with their isoparametric form", "statement": "A rectangular hexahedron/quad's world_coordinates equals the interpolation of its nodes() by its shape functions, and a Hexahedron that is already rectangular converts to a RectangularHexahedron describing the same map.", "quantifier": "every centre, size, rotation and local coordinate", "why_tests_cant": "continuum of inputs", "anchors": ["src/Caribou/Geometry/RectangularHexahedron.h: get_node, RectangularHexahedron(Hexahedron)", "src/Caribou/Geometry/RectangularQuad.h", "src/Caribou/Geometry/BaseHexahedron.h: frame"]}
{"id": "C20", "title": "Element frames are rotation matrices that follow rigid motions", "statement": "frame() of a tetrahedron or hexahedron whose first two axes are not parallel is orthonormal with determinant +1, is the identity for an axis-aligned element, and frame of the element rotated by Q and translated is Q times the frame.", "quantifier": "every non-degenerate element, every rotation and translation", "why_tests_cant": "continuum of elements and rotations", "anchors": ["src/Caribou/Geometry/BaseTetrahedron.h: frame", "src/Caribou/Geometry/BaseHexahedron.h: frame", "src/Caribou/Geometry/BaseQuad.h: frame"]}
{"id": "C21", "title": "Segment/cube intersection test is exact", "statement": "intersects(segment) with eps = 0 returns true exactly when some point of the closed segment lies in the closed (hexahedral) cube, in local coordinates.", "quantifier": "every pair of end points", "why_tests_cant": "a decision procedure over R^6", "anchors": ["src/Caribou/Geometry/BaseHexahedron.h: intersects_local_segment", "src/Caribou/Geometry/BaseRectangularHexahedron.h: intersects_local_segment"]}
{"id": "C22", "title": "Triangle/cube intersection test is exact", "statement": "intersects(triangle) with eps = 0 on a non-degenerate triangle returns true exactly when some point of the closed triangle lies in the closed cube, in local coordinates.", "quantifier": "every non-degenerate triangle", "why_tests_cant": "a decision procedure over R^9", "anchors": ["src/Caribou/Geometry/BaseHexahedron.h: intersects_local_polygon", "src/Caribou/Geometry/BaseRectangularHexahedron.h: intersects_local_polygon"]}
{"id": "C23", "title": "Grid node numbering is a bijection", "statement": "node_index_at and node_coordinates_at are inverse to each other between integer node coordinates in [0,n]^d and indices below number_of_nodes().", "quantifier": "every grid dimension (1,2,3) and every subdivision count, every node", "why_tests_cant": "unbounded grid sizes", "anchors": ["src/Caribou/Topology/Grid/Internal/BaseMultidimensionalGrid.h: node_index_at, node_coordinates_at", "src/Caribou/Topology/Grid/Internal/BaseGrid.h: number_of_nodes"]}
{"id": "C24", "title": "Grid cell numbering is a bijection", "statement": "cell_index_at and cell_coordinates_at(index) are inverse to each other between integer cell coordinates in [0,n) and indices below number_of_cells().", "quantifier": "every grid dimension and subdivision count, every cell", "why_tests_cant": "unbounded grid sizes", "anchors": ["src/Caribou/Topology/Grid/Internal/BaseMultidimensionalGrid.h: cell_index_at, cell_coordinates_at"]}
{"id": "C25", "title": "Nodes of a grid cell are its corners", "statement": "node_indices_of(cell) returns valid, pairwise distinct node indices whose positions are the corners of the cell's box in the canonical node order of the cell's element type, and they are the node positions of cell_at(cell).", "quantifier": "every grid, every cell", "why_tests_cant": "unbounded grid sizes", "anchors": ["src/Caribou/Topology/Grid/Grid.h: node_indices_of, cell_at", "src/Caribou/Topology/Grid/Internal/BaseMultidimensionalGrid.h: node"]}
{"id": "C26", "title": "Grid edges are enumerated exactly once", "statement": "For 2D and 3D grids edge(i), i < number_of_edges(), lists every pair of nodes that are neighbours along one axis exactly once, and nothing else.", "quantifier": "every 2D/3D grid with at least one cell per axis, every edge index", "why_tests_cant": "unbounded grid sizes; counting and enumeration must match for all of them", "anchors": ["src/Caribou/Topology/Grid/Grid.h: Grid<2>::edge, Grid<3>::edge, number_of_edges"]}
{"id": "C27", "title": "Grid faces are enumerated exactly once", "statement": "For 3D grids face(i), i < number_of_faces(), lists every axis-aligned unit face of the grid exactly once, as four nodes around the face.", "quantifier": "every 3D grid, every face index", "why_tests_cant": "unbounded grid sizes", "anchors": ["src/Caribou/Topology/Grid/Grid.h: Grid<3>::face, number_of_faces"]}
{"id": "C28", "title": "Locating a point in a grid returns a cell that contains it", "statement": "For every point of the grid's box (upper faces included as documented by contains), cell_index_containing returns the index of a cell whose closed box contains the point. For points the grid does not contain the result does not denote a valid cell.", "quantifier": "every grid, every world point", "why_tests_cant": "continuum of points; boundary points matter", "anchors": ["src/Caribou/Topology/Grid/Internal/BaseGrid.h: cell_index_containing, cell_coordinates_at, contains"]}
{"id": "C29", "title": "cells_around returns exactly the cells touching a point", "statement": "For every point of the grid, cells_around(p) returns precisely the cells whose closed box contains p (all of them, each once, up to the documented tolerance); for points outside it returns none.", "quantifier": "every grid, every world point", "why_tests_cant": "points on faces, edges, corners and outside the grid", "anchors": ["src/Caribou/Topology/Grid/Internal/BaseGrid.h: cells_around"]}
{"id": "C30", "title": "cells_enclosing covers the bounding box of the points", "statement": "cells_enclosing(p1,...,pn) returns valid cell indices, each once; every grid cell whose interior meets the bounding box of the points is returned and every returned cell meets the bounding box.", "quantifier": "every grid, every non-empty list of points (inside or outside the grid)", "why_tests_cant": "continuum of points", "anchors": ["src/Caribou/Topology/Grid/Internal/BaseGrid.h: cells_enclosing"]}
{"id": "C31", "title": "Hash grid never misses an element", "statement": "If an element was added to a hash grid with positive cell size, get(p) returns it for every point p inside the bounding box of the element's nodes.", "quantifier": "every cell size > 0, every sequence of added elements, every query point", "why_tests_cant": "histories of insertions and continuous queries", "anchors": ["src/Caribou/Topology/HashGrid.h: add, get"]}
{"id": "C32", "title": "Hash grid returns only plausible candidates", "statement": "Every element returned by get(p) was added, and its bounding box lies within one cell (in every axis) of p, up to the tolerance EPSILON times the cell size.", "quantifier": "every history of insertions, every query", "why_tests_cant": "histories of insertions and continuous queries", "anchors": ["src/Caribou/Topology/HashGrid.h: add, get"]}
{"id": "C33", "title": "Barycentric search is sound", "statement": "When barycentric_point(p) returns an element, the element's local coordinates are accepted by contains_local, and for affine elements mapping them back gives p; when it reports failure no candidate element accepted p.", "quantifier": "every domain, every point", "why_tests_cant": "all meshes and points", "anchors": ["src/Caribou/Topology/BarycentricContainer.h: barycentric_point"]}
{"id": "C34", "title": "Barycentric search is complete for affine meshes", "statement": "For a mesh of affine elements, a point inside some element of the domain is found by barycentric_point, whatever the number and order of elements.", "quantifier": "every mesh of affine elements, every point in an element", "why_tests_cant": "all meshes and points; depends on the hash grid never missing an element", "anchors": ["src/Caribou/Topology/BarycentricContainer.h: ctor, barycentric_point, closest_elements", "src/Caribou/Topology/HashGrid.h"]}
{"id": "C35", "title": "Embedded points bookkeeping", "statement": "After construction with embedded points, barycentric_points has one entry per embedded point; the listed outside nodes are exactly the indices of points that were found in no element, in increasing order, without duplicates.", "quantifier": "every domain and every list of embedded points", "why_tests_cant": "unbounded lists", "anchors": ["src/Caribou/Topology/BarycentricContainer.h: set_embedded_points"]}
{"id": "C36", "title": "Interpolation on embedded points reproduces affine fields", "statement": "interpolate(values) on a container whose points are all inside: nodal values sampled from an affine function of position give the function's values at the embedded points, and the interpolation is linear in the nodal values.", "quantifier": "every mesh of affine elements, every set of embedded points, every affine field", "why_tests_cant": "continuum of fields and points", "anchors": ["src/Caribou/Topology/BarycentricContainer.h: interpolate"]}
{"id": "C37", "title": "Named domains are unique", "statement": "After any sequence of add_domain calls with names and remove calls, the mesh lists each name at most once, adding an existing name is rejected and leaves the mesh unchanged, and a lookup by name returns the domain that was added under that name.", "quantifier": "every history of add/remove calls", "why_tests_cant": "histories are unbounded", "anchors": ["src/Caribou/Topology/Mesh.h: add_domain, domain, remove_domain"]}
{"id": "C38", "title": "Removing a domain always terminates and removes exactly it", "statement": "remove_domain(name)/remove(domain) returns for every mesh, removes exactly the domain designated and nothing else, and does nothing when it is absent.", "quantifier": "every mesh state and every argument", "why_tests_cant": "non-termination cannot be observed as a test result; must hold for all states", "anchors": ["src/Caribou/Topology/Mesh.h: remove_domain, remove"]}
{"id": "C39", "title": "Mesh nodes and domain connectivity are preserved", "statement": "positions(indices) returns the rows of the position table for exactly those indices; a domain's element(i) has the node positions designated by row i of its connectivity; changing domains never changes positions.", "quantifier": "every mesh, every connectivity table, every element", "why_tests_cant": "unbounded meshes", "anchors": ["src/Caribou/Topology/Mesh.h: position, positions", "src/Caribou/Topology/Domain.h: element, element_indices"]}
{"id": "C40", "title": "A domain belongs to at most one mesh", "statement": "attach_to never moves a domain that is already attached to another mesh: the second attachment is rejected and the domain keeps its mesh; all domains listed by a mesh are attached to it after any history.", "quantifier": "every history of creation/attachment, copy and move operations", "why_tests_cant": "histories of operations", "anchors": ["src/Caribou/Topology/Domain.h: attach_to, copy/move constructors", "src/Caribou/Topology/Mesh.h: add_domain, copy/move constructors"]}
{"id": "C41", "title": "Saint Venant-Kirchhoff stress is the energy gradient", "statement": "PK2_stress is the derivative of strain_energy_density with respect to the Green strain, PK2_stress_jacobian is the derivative of the stress, both vanish appropriately at rest and the stress is symmetric.", "quantifier": "every Young modulus/Poisson ratio in the admissible range, every deformation", "why_tests_cant": "analytic statement over all deformations", "anchors": ["src/SofaCaribou/Material/SaintVenantKirchhoffMaterial.h"]}
{"id": "C42", "title": "Neo-Hookean stress is the energy gradient", "statement": "PK2_stress is twice the derivative of strain_energy_density with respect to the right Cauchy-Green tensor for every deformation with positive determinant; the stress vanishes at rest and is symmetric.", "quantifier": "all admissible parameters, every symmetric positive definite C with J = sqrt(det C)", "why_tests_cant": "analytic statement over all deformations", "anchors": ["src/SofaCaribou/Material/NeoHookeanMaterial.h"]}
{"id": "C43", "title": "Neo-Hookean tangent is the stress derivative", "statement": "PK2_stress_jacobian contracted with a strain increment equals twice the derivative of PK2_stress in that direction, for every deformation with positive determinant; the Voigt matrix is symmetric.", "quantifier": "all admissible parameters, all deformations, all directions", "why_tests_cant": "analytic statement over all deformations and directions", "anchors": ["src/SofaCaribou/Material/NeoHookeanMaterial.h: PK2_stress_jacobian", "src/Caribou/Algebra/Tensor.h: symmetric_dyad_1, symmetric_dyad_2"]}
{"id": "C44", "title": "Dyadic tensor products have the documented symmetries", "statement": "symmetric_dyad_1 and symmetric_dyad_2 return symmetric 6x6 matrices whose action on a symmetric tensor in Voigt form is (A:E)A respectively 1/2(A E A + (A E A)^T).", "quantifier": "every symmetric matrix A and E", "why_tests_cant": "continuum of matrices", "anchors": ["src/Caribou/Algebra/Tensor.h"]}
{"id": "C45", "title": "Deformation gradient of an affine displacement is constant", "statement": "deformation gradient F computed from shape derivatives and nodal displacements of an affine motion x -> A X + b equals A at every integration point; it is unchanged by translations and becomes Q F under a rotation Q.", "quantifier": "every element with invertible Jacobian, every affine motion", "why_tests_cant": "continuum of motions and elements", "anchors": ["src/Caribou/Mechanics/Elasticity/Strain.h: F", "src/SofaCaribou/Forcefield/HyperelasticForcefield.inl: addForce"]}
{"id": "C46", "title": "Hyperelastic nodal forces are self-equilibrated", "statement": "The internal nodal forces added by the hyperelastic force field on any element add up to zero, and their total moment about any point is zero, for any material returning a symmetric stress.", "quantifier": "every element geometry, every displacement, every symmetric stress, every quadrature", "why_tests_cant": "continuum of states", "anchors": ["src/SofaCaribou/Forcefield/HyperelasticForcefield.inl: addForce"]}
{"id": "C47", "title": "Hyperelastic stiffness is symmetric and consistent", "statement": "The stiffness assembled by the hyperelastic force field is symmetric; addDForce and addKToMatrix apply the same operator, and that operator is the derivative of the nodal force with respect to the node positions.", "quantifier": "every mesh, every displacement and increment", "why_tests_cant": "continuum of states and directions", "anchors": ["src/SofaCaribou/Forcefield/HyperelasticForcefield.inl: addDForce, addKToMatrix, assemble_stiffness"]}
{"id": "C48", "title": "Rigid motions create no elastic force", "statement": "Corotational tetrahedron and hexahedron forces and the hyperelastic force are zero in the rest state and after any rigid motion of the rest state.", "quantifier": "every mesh, every rotation and translation", "why_tests_cant": "continuum of rigid motions", "anchors": ["src/SofaCaribou/Forcefield/TetrahedronElasticForce.cpp: addForce", "src/SofaCaribou/Forcefield/HexahedronElasticForce.cpp: addForce", "src/SofaCaribou/Forcefield/HyperelasticForcefield.inl: addForce"]}
{"id": "C49", "title": "Hexahedron force: K() equals the assembled stiffness", "statement": "The sparse matrix returned by K() is the negative of the matrix added by addKToMatrix with factor one, and re-initialising the force field does not change the stiffness.", "quantifier": "every mesh of hexahedra and every number of re-initialisations", "why_tests_cant": "needs all meshes/histories", "anchors": ["src/SofaCaribou/Forcefield/HexahedronElasticForce.cpp: K, addKToMatrix, reinit"]}
{"id": "C50", "title": "Traction load equals traction times area", "statement": "The total nodal force produced by a traction field equals the traction vector times the total area of the surface elements, and with an incremental load the applied traction is exactly min(n*slope, 1) times the prescribed traction after n increments.", "quantifier": "every surface mesh, every traction, every positive slope, every number of steps", "why_tests_cant": "all meshes and all event histories", "anchors": ["src/SofaCaribou/Forcefield/TractionForcefield.inl: init, handleEvent, increment_load, addForce, reset"]}
{"id": "C51", "title": "Bounding box of a force field encloses its nodes", "statement": "computeBBox yields the smallest axis aligned box that contains all node positions.", "quantifier": "every non-empty list of positions in any order", "why_tests_cant": "all lists and orders", "anchors": ["src/SofaCaribou/Forcefield/CaribouForcefield.inl: computeBBox"]}
{"id": "C52", "title": "Conjugate gradient keeps the true residual and stops correctly", "statement": "At every iteration of the conjugate gradient solver the stored residual equals b - A x for the current x; the solver performs at most the maximum number of iterations; and it reports convergence exactly when the residual is below the requested threshold.", "quantifier": "every matrix, right-hand side, initial guess, preconditioner, threshold and iteration limit (exact arithmetic)", "why_tests_cant": "every linear system", "anchors": ["src/SofaCaribou/Solver/ConjugateGradientSolver.inl: solve"]}
{"id": "C53", "title": "Conjugate gradient terminates in n steps", "statement": "In exact arithmetic, on a symmetric positive definite system of size n the conjugate gradient iterates reach the exact solution after at most n iterations; residuals are mutually orthogonal and directions mutually conjugate.", "quantifier": "every symmetric positive definite matrix, right-hand side and initial guess", "why_tests_cant": "every linear system", "anchors": ["src/SofaCaribou/Solver/ConjugateGradientSolver.inl: solve"]}
{"id": "C54", "title": "Newton solver status is truthful", "statement": "When the Newton solver reports convergence, one of its documented criteria held on the last iterate; it performs at most newton_iterations iterations, records one residual per iteration, and the converged flag always describes the last call to solve.", "quantifier": "every force/solver behaviour (arbitrary residual sequence), all thresholds, every history of calls", "why_tests_cant": "all sequences of residuals and histories", "anchors": ["src/SofaCaribou/Ode/NewtonRaphsonSolver.cpp: solve"]}
{"id": "C55", "title": "Newton solver pattern analysis strategy is honoured", "statement": "NEVER never analyses the matrix pattern, BEGINNING_OF_THE_SIMULATION analyses exactly once over all solves since the last reset, BEGINNING_OF_THE_TIME_STEP exactly once per solve that assembles a system, ALWAYS once per assembled system.", "quantifier": "every history of solves and resets", "why_tests_cant": "histories of calls", "anchors": ["src/SofaCaribou/Ode/NewtonRaphsonSolver.cpp: solve, reset"]}
{"id": "C56", "title": "Backward Euler system is consistent", "statement": "The matrix assembled by the backward Euler solver is minus the derivative of its residual with respect to the acceleration; for linear forces one exact linear solve makes the residual zero, and after propagation velocity and position satisfy v = v0 + h a, x = x0 + h v.", "quantifier": "every mass, damping, stiffness, Rayleigh coefficients, time step and state", "why_tests_cant": "continuum of systems", "anchors": ["src/SofaCaribou/Ode/BackwardEulerODESolver.cpp"]}
{"id": "C57", "title": "Sparse matrix wrapper refines a plain matrix", "statement": "After any sequence of set, add, add_block, compress, clear, resize and clear row/column operations on a matrix wrapper, reading element(i,j) after compress returns what the same sequence on a plain dense matrix gives.", "quantifier": "every history of operations, every index", "why_tests_cant": "histories of operations", "anchors": ["src/SofaCaribou/Algebra/EigenMatrix.h"]}
{"id": "C58", "title": "Wrapping an existing matrix preserves it", "statement": "A sparse matrix wrapper constructed around or as a copy of an existing matrix presents that matrix's coefficients until they are modified; compress and set/add do not lose other coefficients.", "quantifier": "every matrix and every history of operations", "why_tests_cant": "histories of operations", "anchors": ["src/SofaCaribou/Algebra/EigenMatrix.h: EigenMatrix(Eigen::EigenBase), initialize, set, compress"]}
{"id": "C59", "title": "Barycentric mapping conserves force and power", "statement": "The mapping matrix rows sum to one; applyJT is the exact transpose of applyJ (virtual power is conserved), the total mapped force equals the total force, constraint rows are mapped by the same transpose whichever storage order is used.", "quantifier": "every mapping, every velocity, force and constraint", "why_tests_cant": "continuum of vectors and all sparsity patterns", "anchors": ["src/SofaCaribou/Mapping/CaribouBarycentricMapping.inl"]}
{"id": "C60", "title": "Fictitious grid subdivision conserves volume", "statement": "Whatever the subdivision, the leaf cells' weights of a grid cell add up to 1 and validate_grid's volume check succeeds; leaves' boxes tile the cell.", "quantifier": "every subdivision tree", "why_tests_cant": "unbounded trees", "anchors": ["src/SofaCaribou/Topology/FictitiousGrid.cpp: subdivide_intersected_cells", "src/SofaCaribou/Topology/FictitiousGrid.inl: validate_grid, get_leaf_cells, get_cell_weight"]}
{"id": "C61", "title": "Neighbour queries on the fictitious grid are geometric and symmetric", "statement": "get_neighbors(c, axis, direction) returns exactly the leaf cells that share a face portion with c on that side: symmetric, never out of the grid, at any combination of levels.", "quantifier": "every tree of cells, every leaf, axis, direction", "why_tests_cant": "unbounded trees", "anchors": ["src/SofaCaribou/Topology/FictitiousGrid.inl: get_neighbors"]}
{"id": "C62", "title": "Region colouring computes connected components", "statement": "create_regions_from_same_type_cells partitions the leaf cells into the connected components of same-type neighbouring cells, for any symmetric neighbour relation, and terminates.", "quantifier": "every finite set of cells, types and symmetric neighbour relation", "why_tests_cant": "unbounded graphs", "anchors": ["src/SofaCaribou/Topology/FictitiousGrid.inl: create_regions_from_same_type_cells"]}
{"id": "C63", "title": "Inside/outside tagging", "statement": "After tagging, a region of untagged cells is Outside exactly when it touches the border of the grid and Inside otherwise; boundary cells keep their type.", "quantifier": "every region partition and grid, in 2D and 3D", "why_tests_cant": "unbounded grids", "anchors": ["src/SofaCaribou/Topology/FictitiousGrid.inl: tag_outside_cells, tag_inside_cells"]}
{"id": "C64", "title": "Sparse grid numbering is a bijection", "statement": "The sparse grid's node and cell renumberings are mutually inverse bijections between kept full-grid indices and 0..n-1, and every sparse element's nodes are valid.", "quantifier": "every set of kept cells", "why_tests_cant": "unbounded grids", "anchors": ["src/SofaCaribou/Topology/FictitiousGrid.inl: create_sparse_grid"]}
{"id": "C65", "title": "Sub-cell integration points are positioned in their leaf cell", "statement": "get_gauss_nodes_of_cell returns, for a subdivided cell, points that lie inside the leaf they belong to (in the cell's local coordinates) and weights whose sum is the cell's volume.", "quantifier": "every subdivision tree", "why_tests_cant": "unbounded depth", "anchors": ["src/SofaCaribou/Topology/FictitiousGrid.inl: get_gauss_nodes_of_cell, get_subcells_elements"]}
{"id": "C66", "title": "Point classification on the fictitious grid", "statement": "get_type_at(p) returns the type of the cell containing p, for every point inside the grid, including points on faces shared by cells of equal type.", "quantifier": "every point, every typing", "why_tests_cant": "continuum of points", "anchors": ["src/SofaCaribou/Topology/FictitiousGrid.inl: get_type_at"]}
{"id": "C67", "title": "Implicit surface tagging is memory safe and exact", "statement": "For every iso-surface, tagging from node signs accesses only valid memory; cells whose nodes are all strictly inside are Inside, all strictly outside are Outside, and all other cells are Boundary.", "quantifier": "every assignment of iso values (including exact zeros)", "why_tests_cant": "measure-zero values never sampled by tests", "anchors": ["src/SofaCaribou/Topology/FictitiousGrid.inl: tag_intersected_cells_from_implicit_surface", "src/SofaCaribou/Topology/FictitiousGrid.h: Type"]}
{"id": "C68", "title": "VTK import keeps element geometry", "statement": "Reading a VTK quadratic hexahedron gives an element whose i-th node is placed at the i-th canonical position of the element type.", "quantifier": "every quadratic hexahedron in every VTK file", "why_tests_cant": "node order must hold for every mesh", "anchors": ["src/Caribou/Topology/IO/VTKReader.cpp: VTKReader ctor (VTK_QUADRATIC_HEXAHEDRON builder)"]}
{"id": "C69", "title": "Axis extraction from planar VTK meshes", "statement": "Reading a VTK point set into a 1D/2D mesh succeeds exactly when the number of axes along which coordinates vary is the mesh dimension; the axes retained are exactly those, in increasing order, so no information is lost.", "quantifier": "every non-empty list of points", "why_tests_cant": "all point sets", "anchors": ["src/Caribou/Topology/IO/VTKReader.cpp: extract_axes_from_3D_vectors"]}
{"id": "C70", "title": "Topology initialisation validates indices", "statement": "CaribouTopology initialised from indices attaches a domain only if every node index is valid and the number of nodes per element matches the element type; an invalid list is rejected without an out-of-range access.", "quantifier": "every index table, every number of nodes", "why_tests_cant": "all tables", "anchors": ["src/SofaCaribou/Topology/CaribouTopology.inl: initializeFromIndices"]}
{"id": "C71", "title": "Mesh::node pads positions with zeros", "statement": "node(i) of a mesh of any dimension is the position of node i, with the missing coordinates equal to zero in dimension 1 and 2.", "quantifier": "every mesh in dimension 1, 2 and 3, every node", "why_tests_cant": "an unwritten coordinate may happen to be zero in a test run", "anchors": ["src/Caribou/Topology/Mesh.h: node", "src/Caribou/Topology/BaseMesh.h: node"]}
{"id": "C72", "title": "Hyperelastic forces derive from the potential energy", "statement": "The force added by the hyperelastic force field is minus the gradient of getPotentialEnergy with respect to the node positions, for the Saint-Venant-Kirchhoff material everywhere and for the Neo-Hookean material wherever the deformation gradient has a positive determinant at the integration points.", "quantifier": "every mesh of non-degenerate elements, every motion", "why_tests_cant": "equality of a derivative over a continuum of states", "anchors": ["src/SofaCaribou/Forcefield/HyperelasticForcefield.inl: addForce, getPotentialEnergy"]}
{"id": "C73", "title": "Corotational forces are balanced and the tangent operators agree", "statement": "The forces added by the tetrahedron and hexahedron corotational force fields add up to zero; addDForce adds the product of the matrix contributed by addKToMatrix with the increment; this matrix is symmetric.", "quantifier": "every mesh, every history of initialisations and force evaluations, every increment and factor", "why_tests_cant": "all histories and a continuum of positions", "anchors": ["src/SofaCaribou/Forcefield/TetrahedronElasticForce.cpp: addForce, addDForce, addKToMatrix", "src/SofaCaribou/Forcefield/HexahedronElasticForce.cpp: addForce, addDForce, addKToMatrix"]}
{"id": "C74", "title": "The corotational tangent at rest is rigid-motion free", "statement": "At the rest positions, addDForce of the corotational force fields sends every infinitesimal rigid motion of the rest shape (a rotation rate plus a translation) to zero, as required by the absence of force along rigid motions.", "quantifier": "every mesh, every orientation of its elements, every infinitesimal rigid motion", "why_tests_cant": "tests use axis aligned beams only", "anchors": ["src/SofaCaribou/Forcefield/TetrahedronElasticForce.cpp: reinit, compute_K, addDForce", "src/SofaCaribou/Forcefield/HexahedronElasticForce.cpp: reinit, compute_K, addDForce"]}
{"id": "C75", "title": "Reset returns a traction field to its initial state", "statement": "After reset, a traction force field behaves as it did just after its first initialisation, and initialising it again does not change the load it applies.", "quantifier": "every surface mesh, every traction and slope, every history of events", "why_tests_cant": "histories of calls", "anchors": ["src/SofaCaribou/Forcefield/TractionForcefield.inl: init, reset, handleEvent, addForce"]}
{"id": "C76", "title": "Corotational forces are objective", "statement": "Rotating and translating all current positions by a rigid motion rotates the forces added by the corotational force fields in the same way: f(Qx + t) = Q f(x).", "quantifier": "every mesh, every deformed configuration with non-degenerate frames, every rotation and translation", "why_tests_cant": "continuum of configurations and rotations", "anchors": ["src/SofaCaribou/Forcefield/TetrahedronElasticForce.cpp: addForce", "src/SofaCaribou/Forcefield/HexahedronElasticForce.cpp: addForce"]}
{"id": "C77", "title": "A backward Euler time step does not create energy", "statement": "On a linear conservative scene without load, a time step of the backward Euler solver with an exact linear solver never increases the mechanical energy.", "quantifier": "every positive semi-definite mass, stiffness and damping, every time step and state", "why_tests_cant": "continuum of systems", "anchors": ["src/SofaCaribou/Ode/BackwardEulerODESolver.cpp: assemble_rhs_vector, assemble_system_matrix, propagate_solution_increment", "src/SofaCaribou/Ode/NewtonRaphsonSolver.cpp: solve"]}
{"id": "C78", "title": "Legacy static solver status is truthful", "statement": "When the legacy static solver reports that it converged, one of its enabled criteria holds for the last residual or correction it computed; when it reports divergence, the residual grew; it never runs more iterations than requested.", "quantifier": "every system, every sequence of residuals and corrections, every setting", "why_tests_cant": "all sequences of iterates", "anchors": ["src/SofaCaribou/Ode/LegacyStaticODESolver.cpp: solve"]}
{"id": "C79", "title": "VTK import is complete and faithful", "statement": "Reading a VTK file gives a mesh whose nodes are the points of the file in order; every supported cell type gives exactly one domain, of the matching element class, listing the cells of that type in the order of the file; domain names are distinct and cells of other types are left out.", "quantifier": "every VTK unstructured grid with points, every dimension", "why_tests_cant": "all files", "anchors": ["src/Caribou/Topology/IO/VTKReader.cpp: Read, mesh", "src/Caribou/Topology/IO/VTKReader.h: register_element_type"]}
{"id": "C80", "title": "Topology elements agree with the indices", "statement": "The elements shown by a CaribouTopology initialised from indices are the ones listed in its 'indices' data, read within bounds, also after the data is changed and the component initialised again.", "quantifier": "every index table, every sequence of assignments and initialisations", "why_tests_cant": "histories of calls", "anchors": ["src/SofaCaribou/Topology/CaribouTopology.inl: initializeFromIndices, attachDomain, init"]}
{"id": "C81", "title": "Hyperelastic forces are objective", "statement": "Rotating and translating all current positions by a rigid motion rotates the forces and the tangent stiffness of a hyperelastic force field in the same way and leaves its energy unchanged: f(Qx + t) = Q f(x), E(Qx + t) = E(x), K(Qx + t) = Q K(x) Q^T.", "quantifier": "every mesh of every supported element type, every deformed configuration, every rotation and translation, both materials", "why_tests_cant": "continuum of configurations and rotations", "anchors": ["src/SofaCaribou/Forcefield/HyperelasticForcefield.inl: addForce, assemble_stiffness, getPotentialEnergy"]}
{"id": "C82", "title": "Elastic stiffness is never negative", "statement": "For a positive Young modulus and a Poisson ratio in (-1, 1/2), the stiffness added by the elastic force fields dissipates no energy: every displacement does a non-positive work in addDForce and addKToMatrix adds a negative semi-definite matrix, with zero work only for displacements without strain.", "quantifier": "every mesh of correctly oriented elements, every history of the corotational force fields, every displacement; hyperelastic force fields at rest or after a rigid motion", "why_tests_cant": "all displacements, orientations and histories", "anchors": ["src/SofaCaribou/Forcefield/TetrahedronElasticForce.cpp: reinit, addDForce, addKToMatrix", "src/SofaCaribou/Forcefield/HexahedronElasticForce.cpp: reinit, addDForce, addKToMatrix", "src/SofaCaribou/Forcefield/HyperelasticForcefield.inl: assemble_stiffness"]}
{"id": "C83", "title": "Quadrature measures the element", "statement": "For an element that is not folded over itself, the sum over its Gauss nodes of weight times determinant of the Jacobian is the length, area or volume of the region it occupies.", "quantifier": "every element class, every position of the nodes", "why_tests_cant": "continuum of node positions", "anchors": ["src/Caribou/Geometry/Element.h: gauss_nodes, jacobian", "src/Caribou/Geometry/Hexahedron.h: get_gauss_nodes", "src/Caribou/Geometry/Tetrahedron.h: get_gauss_nodes"]}
{"id": "C84", "title": "Static solves keep fixed points and reach equilibrium", "statement": "After a static solve that reports convergence of a scene with linear forces, projective constraints and linear mappings, the constrained degrees of freedom did not move, mapped points follow their mapping, and the forces on the free degrees of freedom, mapped forces included, vanish.", "quantifier": "every linear scene, every set of fixed degrees of freedom, every mapped force field, every linear solver that solves what it is given", "why_tests_cant": "all scenes", "anchors": ["src/SofaCaribou/Ode/StaticODESolver.cpp: assemble_rhs_vector, assemble_system_matrix, propagate_solution_increment", "src/SofaCaribou/Ode/NewtonRaphsonSolver.cpp: solve", "src/SofaCaribou/Visitor/ConstrainGlobalMatrix.cpp: processNodeTopDown"]}
{"id": "C85", "title": "Linear solvers write the solution of the assembled system", "statement": "After setSystemMBKMatrix, setSystemRHVector, setSystemLHVector and solveSystem, the unknown vector of the mechanical objects solves the assembled system for the right-hand side they hold (within the tolerance for the conjugate gradient), no other vector changes, and nothing changes when the solve fails; this remains true for any sequence of solves.", "quantifier": "every sequence of systems, every distribution of degrees of freedom over mechanical objects, LU, LDLT, LLT and conjugate gradient solvers", "why_tests_cant": "all sequences of systems", "anchors": ["src/SofaCaribou/Solver/EigenSolver.inl: setSystemMBKMatrix, setSystemRHVector, setSystemLHVector, solveSystem, resetSystem", "src/SofaCaribou/Solver/LUSolver.inl: analyze_pattern, factorize, solve", "src/SofaCaribou/Solver/LDLTSolver.inl", "src/SofaCaribou/Solver/LLTSolver.inl", "src/SofaCaribou/Solver/ConjugateGradientSolver.inl: solve"]}
{"id": "C86", "title": "Uniform deformations give uniform stress (patch test)", "statement": "On a conforming mesh of correctly oriented elements whose nodes are moved by x = F X + t, the hyperelastic force field exerts no force on interior nodes (linear tetrahedra and hexahedra of any shape), the force on a boundary node is minus the first Piola-Kirchhoff stress of F times the integral of its shape function over the boundary sides, the energy is the energy density of F times the volume, and the moments of the forces give the stress times the volume.", "quantifier": "every mesh, every deformation gradient and translation, both materials; energy and moments for all element types", "why_tests_cant": "continuum of meshes and deformations", "anchors": ["src/SofaCaribou/Forcefield/HyperelasticForcefield.inl: addForce, getPotentialEnergy, initialize_elements", "src/Caribou/Geometry/Tetrahedron.h: boundary_elements_node_indices, dL", "src/Caribou/Geometry/Hexahedron.h: boundary_elements_node_indices, dL"]}
{"id": "C87", "title": "The stored stiffness belongs to the last force evaluation", "statement": "addDForce and addKToMatrix of the hyperelastic force field apply the derivative of the forces at the positions and with the parameters of the last force evaluation (of init when there was none), whatever is called in between; reported eigenvalues are those of the matrix K() returns.", "quantifier": "every mesh, element type and material, every sequence of calls (init, addForce, addDForce, addKToMatrix, energy, eigenvalues, writing positions and parameters)", "why_tests_cant": "all sequences of calls", "anchors": ["src/SofaCaribou/Forcefield/HyperelasticForcefield.inl: init, addForce, addDForce, addKToMatrix, assemble_stiffness, eigenvalues", "src/SofaCaribou/Forcefield/HyperelasticForcefield.h: K, p_X_id, K_is_up_to_date"]}
{"id": "C88", "title": "The force field component exerts forces derived from the energy it reports", "statement": "Through any sequence of calls, the forces the hyperelastic component adds are minus the gradient of getPotentialEnergy at the same positions, and both are zero at the rest positions of the mechanical state.", "quantifier": "every mesh, element type and material, every sequence of calls", "why_tests_cant": "all sequences of calls and all positions", "anchors": ["src/SofaCaribou/Forcefield/HyperelasticForcefield.inl: addForce, getPotentialEnergy, initialize_elements", "src/SofaCaribou/Forcefield/CaribouForcefield.inl: init", "src/SofaCaribou/Material/SaintVenantKirchhoffMaterial.h: before_update", "src/SofaCaribou/Material/NeoHookeanMaterial.h: before_update"]}
{"id": "C89", "title": "An incomplete scene never crashes the hyperelastic component", "statement": "When the mechanical state, the material or the topology is missing, the component reports it and no sequence of calls has undefined behaviour, exerts a force or contributes stiffness.", "quantifier": "every combination of missing components, every sequence of calls", "why_tests_cant": "all sequences of calls", "anchors": ["src/SofaCaribou/Forcefield/HyperelasticForcefield.inl: init, addForce, addDForce, addKToMatrix, getPotentialEnergy, assemble_stiffness", "src/SofaCaribou/Forcefield/CaribouForcefield.inl: init"]}
{"id": "C90", "title": "cond() is the condition number of the stiffness", "statement": "For a positive definite stiffness, cond() returns its condition number: the largest ratio of the energies of two unit displacements.", "quantifier": "every symmetric positive definite matrix", "why_tests_cant": "continuum of matrices", "anchors": ["src/SofaCaribou/Forcefield/HyperelasticForcefield.inl: cond", "src/SofaCaribou/Forcefield/HexahedronElasticForce.cpp: cond"]}
{"id": "C91", "title": "Immersing a surface mesh never loses a part of the object", "statement": "create_grid of the fictitious grid, on a triangle mesh in the box of the grid, ends without exception; the leaf cells tagged Boundary are exactly those the surface meets; from every point of a leaf tagged Outside one can walk to the border of the grid without crossing the surface, so that no point of an object bounded by the surface is in an Outside leaf; and with a volume threshold of zero every point of the object is in an element of the sparse grid. Without given bounds the grid is the bounding box of the surface.", "quantifier": "every triangle mesh (closed or not), every grid, every number of subdivisions, every object bounded by the surface", "why_tests_cant": "continuum of surfaces and grids", "anchors": ["src/SofaCaribou/Topology/FictitiousGrid.cpp: tag_intersected_cells, subdivide_intersected_cells", "src/SofaCaribou/Topology/FictitiousGrid.inl: init, create_grid, create_regions_from_same_type_cells, tag_outside_cells, tag_inside_cells, validate_grid, create_sparse_grid"]}
{"id": "C92", "title": "A time step conserves the momentum of a free body", "statement": "A backward Euler step of a body without constraints changes its total momentum only by the external loads: without loads and without Rayleigh mass damping the momentum is the same before and after the step, whether or not the Newton iterations converged; with loads of resultant P and mass damping r, (1 + h r) p1 = p0 + h P, and the centre of mass moves with the new momentum.", "quantifier": "every mesh, every initial position and velocity, both hyperelastic materials and both corotational force fields, every time step, every Newton setting, stiffness damping included, every linear solver that solves what it is given", "why_tests_cant": "all scenes and states", "anchors": ["src/SofaCaribou/Ode/BackwardEulerODESolver.cpp: assemble_rhs_vector, assemble_system_matrix, propagate_solution_increment", "src/SofaCaribou/Ode/NewtonRaphsonSolver.cpp: solve", "src/SofaCaribou/Forcefield/HyperelasticForcefield.inl: addForce, assemble_stiffness", "src/SofaCaribou/Forcefield/TetrahedronElasticForce.cpp: addForce, addKToMatrix", "src/SofaCaribou/Forcefield/HexahedronElasticForce.cpp: addForce, addKToMatrix"]}
{"id": "C93", "title": "For small displacements the force fields agree", "statement": "Built on the same mesh with the same Young modulus and Poisson ratio, the linear force field (corotational one with rotations disabled) has at rest the same stiffness matrix and operator as the hyperelastic force field with either material, and its force is the derivative at rest of the hyperelastic force.", "quantifier": "every mesh of correctly oriented linear tetrahedra or hexahedra, every pair of parameters, both materials", "why_tests_cant": "continuum of meshes and parameters", "anchors": ["src/SofaCaribou/Forcefield/HyperelasticForcefield.inl: addForce, assemble_stiffness", "src/SofaCaribou/Forcefield/TetrahedronElasticForce.cpp: reinit, addForce, addDForce, addKToMatrix", "src/SofaCaribou/Forcefield/HexahedronElasticForce.cpp: reinit, addForce, addDForce, addKToMatrix", "src/SofaCaribou/Material/SaintVenantKirchhoffMaterial.h: PK2_stress, PK2_stress_jacobian", "src/SofaCaribou/Material/NeoHookeanMaterial.h: PK2_stress, PK2_stress_jacobian"]}
{"id": "C94", "title": "A static solve reproduces uniform deformations", "statement": "On a conforming mesh with the linear force field, when the nodes that are not interior are fixed at x = F X + t, a static solve puts every interior node at F X + t wherever it started, unless the initial forces are below the absolute residual threshold and nothing moves. For correctly oriented tetrahedra all nodes of which are held (fixed, or opposite a held side) and admissible parameters, the constrained system always has a unique solution; for hexahedra this is required.", "quantifier": "every mesh of tetrahedra or hexahedra, every deformation gradient and translation, every start, every setting of the solver, every exact linear solver", "why_tests_cant": "continuum of meshes and deformations", "anchors": ["src/SofaCaribou/Ode/StaticODESolver.cpp: assemble_rhs_vector, assemble_system_matrix, propagate_solution_increment", "src/SofaCaribou/Ode/NewtonRaphsonSolver.cpp: solve", "src/SofaCaribou/Visitor/ConstrainGlobalMatrix.cpp: processNodeTopDown", "src/SofaCaribou/Forcefield/TetrahedronElasticForce.cpp: reinit, addForce, addKToMatrix", "src/SofaCaribou/Forcefield/HexahedronElasticForce.cpp: reinit, addForce, addKToMatrix"]}
{"id": "C95", "title": "The elastic energy is never negative", "statement": "For a positive Young modulus and a Poisson ratio in (-1, 1/2), the potential energy of the hyperelastic force field is never negative, and it is zero exactly when the deformed elements measure the same lengths and angles as the rest elements at all integration points (for linear tetrahedra: when the distances between the nodes of each element are kept).", "quantifier": "every mesh of solid elements, every deformation (not inverted for the neo-Hookean material), every pair of parameters, both materials", "why_tests_cant": "continuum of deformations and parameters", "anchors": ["src/SofaCaribou/Material/SaintVenantKirchhoffMaterial.h: before_update, strain_energy_density", "src/SofaCaribou/Material/NeoHookeanMaterial.h: before_update, strain_energy_density", "src/SofaCaribou/Forcefield/HyperelasticForcefield.inl: getPotentialEnergy"]}
{"id": "C96", "title": "Time steps keep fixed points in place and carry mapped points along", "statement": "Over any number of backward Euler steps, degrees of freedom fixed by a projective constraint keep their position, mapped objects are at the image of the positions with the image of the velocities, and the state reached on a linear scene satisfies the equation of motion on the free degrees of freedom, forces and damping of mapped objects included.", "quantifier": "every scene with fixed degrees of freedom and a linear mapping, every sequence of time steps with their own settings and forces, every linear solver that solves what it is given", "why_tests_cant": "all scenes and sequences of steps", "anchors": ["src/SofaCaribou/Ode/BackwardEulerODESolver.cpp: solve, assemble_rhs_vector, assemble_system_matrix, propagate_solution_increment", "src/SofaCaribou/Ode/NewtonRaphsonSolver.cpp: solve", "src/SofaCaribou/Visitor/ConstrainGlobalMatrix.cpp: processNodeTopDown"]}
{"id": "C97", "title": "Components bind to the designated partner or to the only possible one", "statement": "A force field, material lookup or Newton solver that is not given its topology, material or linear solver uses the only compatible one of its node; with none or several it stays unbound and says so, and init never crashes. A designated partner is never replaced. A force field acts only on elements of its own type of the object it is linked to, and a template name designates one element type.", "quantifier": "every content of the node, every element type, every designated object, with and without template name, with and without log", "why_tests_cant": "all scenes", "anchors": ["src/SofaCaribou/Forcefield/CaribouForcefield.inl: init, canCreate", "src/SofaCaribou/Forcefield/HyperelasticForcefield.inl: init", "src/SofaCaribou/Ode/NewtonRaphsonSolver.cpp: init, has_valid_linear_solver", "src/SofaCaribou/Topology/CaribouTopology[Quad].cpp: templateName"]}
{"id": "C98", "title": "The numbering of the mesh does not matter", "statement": "The forces, the energy and the stiffness of an elastic force field depend on the elements, not on how they are written down: listing the nodes of an element in another order which describes the same element changes nothing, and renumbering the nodes or the elements of the mesh renumbers the results.", "quantifier": "every mesh, every element type, every material, every admissible order of the nodes of each element, every permutation of the nodes and of the elements, every state", "why_tests_cant": "all meshes, all orders", "anchors": ["src/SofaCaribou/Forcefield/HyperelasticForcefield.inl: addForce, getPotentialEnergy, assemble_stiffness, get_gauss_nodes", "src/SofaCaribou/Forcefield/TetrahedronElasticForce.cpp: reinit, addForce, compute_K", "src/SofaCaribou/Forcefield/HexahedronElasticForce.cpp: reinit, addForce, compute_K", "src/Caribou/Geometry/Tetrahedron.h: L, dL, frame", "src/Caribou/Geometry/Hexahedron.h: L, dL"]}
{"id": "C99", "title": "The units and the placement of the scene do not matter", "statement": "A scene can be described in another consistent system of units, moved or turned as a whole: when lengths are multiplied by s, Young moduli by m, and the scene is rotated by Q and translated, the elastic forces and the products of the stiffness are multiplied by m s^2 and turned by Q, and the energy is multiplied by m s^3.", "quantifier": "every mesh, every element type, both materials, all positive s, every m, every rotation (and reflection) Q, every translation, every state", "why_tests_cant": "all scenes, all changes of unit, all placements", "anchors": ["src/SofaCaribou/Forcefield/HyperelasticForcefield.inl: addForce, getPotentialEnergy, assemble_stiffness, get_gauss_nodes", "src/SofaCaribou/Material/SaintVenantKirchhoffMaterial.h: PK2_stress, strain_energy_density", "src/SofaCaribou/Material/NeoHookeanMaterial.h: PK2_stress, strain_energy_density", "src/SofaCaribou/Forcefield/TetrahedronElasticForce.cpp: reinit, addForce, addDForce, compute_K", "src/SofaCaribou/Forcefield/HexahedronElasticForce.cpp: reinit, addForce, addDForce, compute_K"]}
{"id": "C100", "title": "Vectors shared with SOFA hold what was written", "statement": "A vector wrapper gives back at each index the value last written there plus what was added since (zero after clear and resize), and shares its content with the wrapped vector exactly when it wraps a reference; the dot product of two vectors is the sum of the products of their entries, whatever their types; the assignment a := b of multi-vectors makes a equal to b in exactly the mechanical objects selected by its flags.", "quantifier": "every sequence of modifications of a vector, all pairs of vectors of the same size and of any types, every scene graph with its mappings, all flags", "why_tests_cant": "all histories, all scene graphs", "anchors": ["src/SofaCaribou/Algebra/EigenVector.h: EigenVector, resize, clear, set, add, element, size", "src/SofaCaribou/Algebra/BaseVectorOperations.cpp: dot", "src/SofaCaribou/Visitor/MultiVecEqualVisitor.cpp: fwdMechanicalState, fwdMappedMechanicalState, copy, internal_copy", "src/SofaCaribou/Visitor/MultiVecEqualVisitor.h: stopAtMechanicalMapping"]}
{"id": "C101", "title": "A body held by three points has a regular system", "statement": "When every piece of a body (elements connected through their faces) has three fixed nodes which are not aligned, the constrained stiffness matrix of its force field at rest is symmetric positive definite: it can be factorised, the static problem has one solution and the conjugate gradient converges. With all fixed nodes on a line it is singular.", "quantifier": "every mesh of solid elements of every type, all admissible material parameters, every set of fixed nodes, all rigid motions of the rest positions", "why_tests_cant": "all meshes and all sets of fixed nodes; a zero-energy displacement depends on the quadrature", "anchors": ["src/SofaCaribou/Forcefield/HyperelasticForcefield.inl: update_stiffness, addKToMatrix", "src/SofaCaribou/Forcefield/TetrahedronElasticForce.cpp: compute_K, addKToMatrix", "src/SofaCaribou/Forcefield/HexahedronElasticForce.cpp: reinit, compute_K, addKToMatrix", "src/Caribou/Geometry/Hexahedron.h: get_gauss_nodes", "src/Caribou/Geometry/Tetrahedron.h: get_gauss_nodes", "src/SofaCaribou/Ode/StaticODESolver.cpp: assemble_system_matrix"]}
{"id": "C102", "title": "The queries of a fictitious grid agree with its cells", "statement": "The type which get_type_at gives for a point and the ratios of cell_volume_ratio_distribution agree with the classification of the cells made by create_grid: a point of a cell inside the object is inside, a cell is listed with the part of it which the object covers, each cell once and the ratios in increasing order.", "quantifier": "all grids in two and three dimensions, all implicit surfaces, all triangle meshes, all subdivision levels and numbers of decimals, all points, all histories of the component", "why_tests_cant": "all surfaces and grids; tests compare the ratios of one circle", "anchors": ["src/SofaCaribou/Topology/FictitiousGrid.inl: get_type_at", "src/SofaCaribou/Topology/FictitiousGrid.inl: cell_volume_ratio_distribution", "src/SofaCaribou/Topology/FictitiousGrid.inl: create_grid", "src/SofaCaribou/Topology/FictitiousGrid.cpp: subdivide_intersected_cells", "src/SofaCaribou/Topology/FictitiousGrid.cpp: tag_intersected_cells"]}
{"id": "C103", "title": "Initialising a fictitious grid again gives the grid of its present data", "statement": "When a fictitious grid is initialised again, for instance after its surface, its bounds or its number of cells were changed, the result is that of a new component with the same data; and initialising it twice without any change changes nothing.", "quantifier": "all sequences of changes of the data and initialisations, all triangle meshes, all grids", "why_tests_cant": "all histories of a component; tests initialise each component once", "anchors": ["src/SofaCaribou/Topology/FictitiousGrid.inl: init", "src/SofaCaribou/Topology/FictitiousGrid.inl: create_grid", "src/SofaCaribou/Topology/FictitiousGrid.cpp: tag_intersected_cells", "src/SofaCaribou/Topology/FictitiousGrid.cpp: subdivide_intersected_cells"]}
{"id": "C104", "title": "Storing or recomputing the deformation tensors gives the same results", "statement": "The three hyperelastic force fields of the benchmark RecomputeOrStore, which keep nothing, the deformation gradient, or all the tensors of the integration points between the evaluation of the forces and the assembly of the stiffness, return through every sequence of calls the forces, energies, products, matrices and eigenvalues of the HyperelasticForcefield of the library.", "quantifier": "all elements with the quadrature of the library, all meshes, both materials, all sequences of calls and changes of positions and parameters, all failures", "why_tests_cant": "all sequences of calls; the benchmark measures durations and compares nothing", "anchors": ["Benchmark/SofaCaribou/Forcefield/RecomputeOrStore/HyperelasticForcefieldRecomputeF.inl: update_stiffness", "Benchmark/SofaCaribou/Forcefield/RecomputeOrStore/HyperelasticForcefieldStoreF.inl: addForce", "Benchmark/SofaCaribou/Forcefield/RecomputeOrStore/HyperelasticForcefieldStoreF.inl: update_stiffness", "Benchmark/SofaCaribou/Forcefield/RecomputeOrStore/HyperelasticForcefieldStoreFAndS.inl: get_gauss_nodes", "Benchmark/SofaCaribou/Forcefield/RecomputeOrStore/HyperelasticForcefieldStoreFAndS.inl: addForce", "Benchmark/SofaCaribou/Forcefield/RecomputeOrStore/HyperelasticForcefieldStoreFAndS.inl: update_stiffness", "Benchmark/SofaCaribou/Forcefield/RecomputeOrStore/HyperelasticForcefieldStoreFAndS.inl: init"]}
{"id": "C105", "title": "A grid around an implicit circle or sphere approximates what is inside of it", "statement": "The circle, sphere and cylinder surfaces are negative inside, zero on and positive outside of the shape they are named after; and a FictitiousGrid which holds a circle or sphere has only cells within the disc or ball tagged Inside, only cells on the finest level which meet the circle or sphere tagged Boundary, and the areas or volumes of its ratios approximate the area or volume of the disc or ball, with an error which shrinks with the number of levels.", "quantifier": "all centres, radii (also negative) and lengths, all points, all grids in two and three dimensions, all numbers of levels, thresholds and former types", "why_tests_cant": "needs the sign at every point and the sums over all refinements, for every position of the shape relative to the grid", "anchors": ["SofaCaribou/Topology/CircleIsoSurface.h: iso_value", "SofaCaribou/Topology/SphereIsoSurface.h: iso_value", "SofaCaribou/Topology/CylinderIsoSurface.h: iso_value", "SofaCaribou/Topology/FictitiousGrid.inl: tag_intersected_cells_from_implicit_surface", "SofaCaribou/Topology/FictitiousGrid.inl: subdivide_intersected_cells"]}
{"id": "C106", "title": "A fictitious grid is built around the designated surface or the only possible one", "statement": "FictitiousGrid::init uses the designated implicit surface, or else the only one of its node; without implicit surface it uses the given triangles, or else those of the only container of the node which has triangles, with the linked or given positions, or else the points of this container, or else the rest positions of the only mechanical state; it creates no grid when the surface cannot be found in this way, and a second initialisation finds the surface anew.", "quantifier": "all contents of the node (implicit surfaces, containers, mechanical states), all given data and links, all states of the component, in three dimensions", "why_tests_cant": "the choice depends on what else is in the node; tests set the data of one or two scenes", "anchors": ["SofaCaribou/Topology/FictitiousGrid.inl: init"]}
{"id": "C107", "title": "Force fields draw their elements shrunk around their centres and apart from each other", "statement": "The triangles drawn by a force field are, face by face, those of its elements moved towards the centre of each element: for a scale smaller than one all that is drawn of a linear or straight element is inside of it, elements which do not overlap are drawn without a common point, and the drawn surface turns outwards and encloses the volume of the element times the cube of the scale; a triangle or a quad is drawn as the reduced triangle or planar quad itself, with its orientation and its area times the square of the scale.", "quantifier": "all solid and surface element types, all meshes, all positions, all scales in [0, 1]; the volume for tetrahedra and hexahedra with plane faces, the area for linear and straight elements", "why_tests_cant": "a drawing is looked at and not tested, in scenes close to the origin", "anchors": ["SofaCaribou/Forcefield/CaribouForcefield.inl: draw", "SofaCaribou/Forcefield/HexahedronElasticForce.cpp: draw", "SofaCaribou/Forcefield/TetrahedronElasticForce.cpp: draw"]}
{"id": "C108", "title": "An incomplete scene never crashes the corotational components", "statement": "The tetrahedron and hexahedron corotational components use the designated topology or the only one of their node; when it has elements and the mechanical state has their nodes, every sequence of calls succeeds and the forces are those of the formulas; when the topology, the mechanical state or a node is missing, or the topology changes, no call has undefined behaviour and no force is added.", "quantifier": "both components, all scenes, all sequences of calls, all positions and parameters", "why_tests_cant": "tests initialise complete scenes; a read outside of a vector often goes unnoticed", "anchors": ["SofaCaribou/Forcefield/TetrahedronElasticForce.cpp: init, reinit, addForce, addDForce, addKToMatrix, draw, computeBBox", "SofaCaribou/Forcefield/HexahedronElasticForce.cpp: init, reinit, addForce, addDForce, addKToMatrix, K, draw, computeBBox"]}
{"id": "C109", "title": "The forces of the corotational components derive from the energy they report and exert no moment", "statement": "The forces which the tetrahedron and hexahedron corotational components add are minus the derivative of the energy which getPotentialEnergy reports, so that moving a body and bringing it back costs no work; the internal forces of a free body exert no total moment.", "quantifier": "both components, with and without the corotational option, all meshes, positions and parameters", "why_tests_cant": "a test measures forces in a few configurations; the work along a closed path and the moment are not measured", "anchors": ["SofaCaribou/Forcefield/TetrahedronElasticForce.h: getPotentialEnergy", "SofaCaribou/Forcefield/HexahedronElasticForce.h: getPotentialEnergy", "SofaCaribou/Forcefield/TetrahedronElasticForce.cpp: addForce", "SofaCaribou/Forcefield/HexahedronElasticForce.cpp: addForce"]}
{"id": "C110", "title": "The conjugate gradient component solves the system with every preconditioner which can be selected", "statement": "Each documented name of preconditioning_method, in any capitals, selects its method and the documented default is selected at first; with every method the solution written is one of the system within the tolerance and no other vector changes; the methods with and without an assembled matrix give the same result; the option can be changed at any time and takes effect in the next solve.", "quantifier": "all names, all options and changes of options, all systems, right-hand sides and initial guesses, all incomplete factorizations", "why_tests_cant": "the scenes keep one option; an analysis which is missing only shows when the option is changed", "anchors": ["SofaCaribou/Solver/ConjugateGradientSolver.inl: constructor, get_preconditioning_method_from_string, setSystemMBKMatrix, setSystemRHVector, setSystemLHVector, solveSystem, analyze_pattern, factorize, solve"]}
{"id": "C111", "title": "A barycentric mapping works in complete scenes and is inert in incomplete ones", "statement": "The topology used is the one designated, otherwise the nearest one above the node of the mapping, otherwise the first one of this node. With a topology with elements, parent and mapped objects of fitting sizes and every mapped node in an element, init maps positions and velocities with the shape functions of the elements, later calls do the same with any vectors, and forces do the same work on both sides. In any other scene init reports it and returns, nothing is mapped by it or by later calls, and the nodes outside of the elements are the ones drawn. No call crashes or throws.", "quantifier": "all scene graphs, topologies, domains, sizes and values of the vectors of both objects, all previous states of the component, all elements", "why_tests_cant": "the unit tests have complete scenes only; sizes which do not fit show as exceptions or writes out of range", "anchors": ["SofaCaribou/Mapping/CaribouBarycentricMapping.inl: init, apply, applyJ, applyJT, draw", "Caribou/Topology/BarycentricContainer.h: interpolate"]}
{"id": "C112", "title": "Meshes, domains and containers used from Python stay usable as long as Python holds them", "statement": "In any program which makes meshes, adds domains, asks for elements, node indices, positions, containers and interpolated fields, rebinds and deletes variables: as long as a variable holds the mesh, its positions are those given, a domain gives the number of elements and the nodes of the table it was made from, arrays of node indices read this table, embedding locates points in these elements and interpolation weighs the values of the nodes of the element. As long as a variable holds a domain, an array of indices or a container, it can be used. Tables which are not valid (number of columns, dimension of the elements, indices) are refused. Every row of an interpolated field is a value. No object is freed twice.", "quantifier": "all programs before and after, all tables, elements, positions, dimensions up to 3, all ways to locate points", "why_tests_cant": "the Python tests hold the mesh until the end of each test; use of freed memory usually gives the expected values for some time", "anchors": ["Caribou/Python/Topology/Mesh.cpp", "Caribou/Python/Topology/Domain.h", "Caribou/Python/Topology/BarycentricContainer.h"]}
{"id": "C113", "title": "Elements made from Python are the ones asked", "statement": "Segment, Triangle, Quad, Tetrahedron, Hexahedron and RectangularHexahedron of the Python module return the element of this name with the nodes given, as one table, as one array per node, or as numbers on a line; linear nodes with the quadratic order give the quadratic element which is the same map; without nodes they return the canonical element of the dimension and order asked; a rectangular hexahedron made from the nodes of a box, or from its centre, size and rotation, is this box. Any other table or points, and dimensions which the element has not, raise an exception.", "quantifier": "all names, orders, dimensions, numbers and shapes of arrays, all nodes, boxes and rotations", "why_tests_cant": "the Python tests make a few elements with lists of fixed nodes; which of the overloads is called depends on all shapes", "anchors": ["Caribou/Python/Geometry/Segment.cpp", "Caribou/Python/Geometry/Triangle.cpp", "Caribou/Python/Geometry/Quad.cpp", "Caribou/Python/Geometry/Tetrahedron.cpp", "Caribou/Python/Geometry/Hexahedron.cpp", "Caribou/Python/Geometry/RectangularHexahedron.cpp"]}
{"id": "C114", "title": "The fictitious grid draws the cells which are asked", "statement": "After its creation the fictitious grid draws, for every region of a requested kind (boundary, outside, inside), the cells of this region, each one once, shrunk about its centre by draw_scale, in the colour of the region, with its edges; cells which are drawn do not overlap. With the wire frame only the edges are drawn. The bounding box of the component holds the grid.", "quantifier": "all grids in two and three dimensions, all trees of cells and types, all scales, flags and corners", "why_tests_cant": "nothing which is drawn can be looked at by a unit test, and the cells drawn depend on the regions found", "anchors": ["SofaCaribou/Topology/FictitiousGrid.inl populate_drawing_vectors, draw", "SofaCaribou/Topology/FictitiousGrid.h computeBBox"]}
{"id": "C115", "title": "A grid used from Python answers like the C++ grid", "statement": "From Python a two or three dimensional grid is made from its anchor, its numbers of cells and its size; nodes, cells, edges and faces are numbered as in C++ and can be asked by index or by coordinates; the cell which contains a point, the cells around it and the position of a node can be asked, and cell_at gives the element of a cell.", "quantifier": "all grids in two and three dimensions whose nodes can be numbered with 64-bit integers, all arguments (integers, numbers, booleans, arrays of any length), with and without the module Caribou.Geometry", "why_tests_cant": "which C++ function is called depends on the class where the name is found and on the arguments; a test tries a few calls on one grid", "anchors": ["Caribou/Python/Topology/Grid.cpp declare_basegrid, declare_grid", "Caribou/Topology/Grid/Internal/BaseGrid.h"]}
{"id": "C116", "title": "A hash grid used from Python finds the elements near a point", "statement": "HashGrid(cls, size) makes a hash grid for the elements of the class; add refuses elements of another class and identifiers which are not unsigned integers; get gives every identifier added with an element whose bounding box contains the point, and only those of elements closer than one cell; the name of the class tells its elements.", "quantifier": "all classes of elements, all sequences of calls to add, all points and positive sizes", "why_tests_cant": "histories of calls and positions are unbounded", "anchors": ["Caribou/Python/Topology/HashGrid.cpp create_hashgrid", "Caribou/Topology/HashGrid.h add, get"]}
{"id": "C117", "title": "Components created from a scene are those designated by their description", "statement": "A mapping described with a template is created for this element type, a mapping described with the path of a topology for the element type of this topology, which it uses, and a mapping described with neither for the nearest topology above it; a topology is created for the element type of its template and refused without one; a direct solver uses the backend requested or is not created; a material is created for the type of the positions.", "quantifier": "all scene graphs, all paths (absolute or relative), all strings for the templates and backends, with and without MKL", "why_tests_cant": "which class answers depends on the order of the classes, on where a path begins and on all ancestors; tests create components in one scene", "anchors": ["CaribouBarycentricMapping::canCreate, init", "EigenSolver::canCreate", "HyperelasticMaterial::canCreate", "CaribouTopology[*].cpp, LDLTSolver.cpp, LLTSolver.cpp, LUSolver.cpp registrations"]}
{"id": "C118", "title": "The system assembled from a scene of several bodies is the one of the whole scene", "statement": "When a scene has several bodies, some of them mapped from others, the matrix and the vector assembled by the solvers are those of the whole scene: on motions which leave the fixed degrees of freedom in place, every force field contributes with the motion that the mappings give to its body, the matrix is the negative derivative of the vector, and a fixed degree of freedom has a zero force and the row of the identity.", "quantifier": "all lists of top level and mapped bodies, all chains of mappings, all force fields and fixed degrees of freedom, all positions and motions", "why_tests_cant": "each scene of a test has one or two bodies; the claim is about all trees of mappings, where blocks must not overlap and every product by a Jacobian must be made once and in the right order", "anchors": ["EigenSolver::assemble", "StaticODESolver::assemble_system_matrix, assemble_rhs_vector", "AssembleGlobalMatrix", "ConstrainGlobalMatrix"]}
{"id": "C119", "title": "A field interpolated on a mesh has one value on the sides shared by elements", "statement": "When two elements share a side, from whichever corner and in whichever direction each of them lists its nodes, every point of the side is the same point in space for the two elements and every field interpolated from the values of the nodes has the same value there. When the sides are straight segments or linear triangles, sharing the nodes is enough.", "quantifier": "all pairs of element types with the same type of side, except the quadratic rectangular hexahedron, all node numberings, all sides, all points of the side, all positions and fields with any number of components", "why_tests_cant": "a test compares two elements at some points for some order of the nodes; a wrong order of the nodes of one face or a wrong middle node makes the field jump only across some pairs of faces", "anchors": ["Element::interpolate", "Element::world_coordinates", "Element::boundary_elements_node_indices", "Element::boundary_element"]}
{"id": "C120", "title": "The validation by a manufactured solution integrates the right loads", "statement": "The nodal loads which the validation script assembles do the work of the function they are made from on every interpolated displacement, with its resultant and its moment; a constant function gives the loads of TractionForcefield, and the stress of a uniformly deformed mesh on its boundary exactly balances the forces of the material. The stress, body force and displacement of compute solve the equations of the material with the Lame parameters given to it, and the error of the script is zero only for the manufactured displacement at the Gauss points.", "quantifier": "all meshes, element types, functions of the position and of the element, displacements, materials, deformation gradients, Lame parameters, lengths and points", "why_tests_cant": "the script prints one error for one mesh and one set of parameters; a wrong load would only change the printed number", "anchors": ["assemble.py assemble, integrate", "sympy_solution.py compute", "BaseTriangle::normal"]}
{"id": "C121", "title": "Interpolated fields and computed deformation gradients become exact when the elements become small", "statement": "When the nodal values are those of a field whose derivative changes by at most B per unit of length, the value interpolated at any point of an element differs from the field by at most a constant of the element type times B/2 times the square of the size of the element, and the deformation gradient computed at an integration point differs from the derivative of the motion by a quantity that is divided by two when the element is. Quadratic elements with straight sides gain one order in both cases.", "quantifier": "all element types, node positions, points of the element and fields of any number of components with a Lipschitz derivative on a convex set; all solid element types, integration points with an invertible Jacobian, motions and scalings", "why_tests_cant": "a test compares the error on two or three meshes for one field; the order of convergence is a statement about all sizes and all fields, and a wrong middle node only shows as a lower order", "anchors": ["Element::interpolate", "Element::world_coordinates", "HyperelasticForcefield::addForce", "HyperelasticForcefield::get_gauss_nodes"]}
{"id": "C122", "title": "The integrals computed on a mesh converge to the integrals over the body", "statement": "On every mesh whose elements are not folded, fill the body and do not overlap, the volume computed from the integration points is the volume of the body; the integral computed for a continuous function is within the variation of the function over one element times the volume, so that it converges when the elements become small; with linear elements, or quadratic elements with straight sides, the error is of the order of the square of the mesh size. The load vector assembled from a continuous body force converges in the same way: its work on the nodal values of any continuous field tends to the integral of the product. The cells of a grid are such a mesh of its box.", "quantifier": "all element types filling their space, meshes of any number of elements and nodes, bodies, continuous or smooth functions, body forces and fields; all plane and solid grids", "why_tests_cant": "a test computes one integral on a few meshes; convergence is a statement about all functions and arbitrarily fine meshes, and a wrong weight or a gap between cells changes the limit by a small amount only", "anchors": ["Element::gauss_nodes", "Element::jacobian", "integrate", "assemble", "Grid::cell_at", "Grid::node_indices_of"]}
{"id": "C123", "title": "The hyperelastic force field is consistent with the continuous body", "statement": "On meshes of a body that become finer without being flattened, for the images of the nodes by a smooth motion that does not invert the material: the potential energy tends to the integral of the energy density of the motion; the work of the forces of addForce on the nodal values of a smooth field tends to minus the integral of the first Piola-Kirchhoff stress contracted with the gradient of the field; the work of what addDForce adds tends to minus its factor times the integral of the second variation of the energy. When the motion is in equilibrium with a body force, the work of the residual of the mesh tends to zero. Both materials and the grids of hexahedra with a bounded ratio of sides meet the assumptions.", "quantifier": "all four solid element types, materials with a continuous energy, stress and stress derivative, bodies, motions and fields with a Lipschitz derivative, families of regular meshes, factors and accuracies", "why_tests_cant": "a test compares a few meshes with a reference value for one motion; consistency is a statement about the limit for all motions, and a wrong factor in one term may be hidden by the discretisation error", "anchors": ["HyperelasticForcefield::addForce", "HyperelasticForcefield::addDForce", "HyperelasticForcefield::getPotentialEnergy", "HyperelasticForcefield::get_gauss_nodes", "NeoHookeanMaterial", "SaintVenantKirchhoffMaterial"]}
{"id": "C124", "title": "A linear static solution is the best one the mesh can represent and its strains converge", "statement": "For linear elastic tetrahedra and hexahedra (corotated off, regular integration) with affine uninverted elements and an admissible material: when the forces after addForce vanish at the nodes which are not fixed, no other displacement of the mesh with the same values at the fixed nodes is closer in energy to the displacement of the elastic body that satisfies the principle of virtual work for the same loads; a remaining force of dual norm eta adds at most eta squared. If the displacement of the body has a Lipschitz derivative, the energy of the error is at most a constant times the volume times the square of the mesh size, and the strains converge to the true ones on finer meshes whose elements are not flattened. An affine displacement is reproduced exactly.", "quantifier": "both corotational components in their linear setting, materials, bodies, meshes of affine elements, fixed nodes, loads, displacements and accuracies", "why_tests_cant": "a test measures the error of one manufactured solution on a few meshes; optimality is a statement about all displacements of the mesh, and a slightly wrong stiffness or weight can hide behind the discretisation error", "anchors": ["TetrahedronElasticForce::reinit", "TetrahedronElasticForce::addForce", "HexahedronElasticForce::reinit", "HexahedronElasticForce::addForce", "HexahedronElasticForce::compute_K"]}
{"id": "C125", "title": "Backward Euler time steps converge to the motion of the scene", "statement": "When the time step becomes small, the positions and velocities after all the time steps up to a given time approach those of the motion which satisfies M a = f(x) - D v, with an error at most proportional to the time step, whatever the number of Newton iterations, their thresholds and the exact linear solver are, for nonlinear forces and Rayleigh damping.", "quantifier": "all scenes with an invertible mass and forces with a bounded stiffness around the motion, all motions, final times, sufficiently small time steps, numbers of time steps, Newton parameters with at least one iteration and exact linear solvers", "why_tests_cant": "a test compares one trajectory at one time step with a recorded one; the order of convergence is a statement about all small time steps", "anchors": ["BackwardEulerODESolver::solve", "BackwardEulerODESolver::assemble_rhs_vector", "NewtonRaphsonSolver::solve"]}
{"id": "C126", "title": "Near a stable equilibrium a static solve converges quadratically and reports it", "statement": "When a static solve starts close enough to an equilibrium at which every displacement of the free points creates a force on them, each Newton iteration squares the distance to it up to a constant and at least halves it, whatever the exact linear solver is; with enough iterations allowed, the solver reports convergence by its correction threshold or by its absolute threshold, however small they are.", "quantifier": "all scenes with forces twice differentiable around the equilibrium, all starting positions close enough to it, Newton parameters, numbers of iterations and exact linear solvers", "why_tests_cant": "a test runs a few iterations from one position; it cannot show the order of convergence nor that convergence is always reported", "anchors": ["NewtonRaphsonSolver::solve", "StaticODESolver::assemble_rhs_vector", "StaticODESolver::assemble_system_matrix", "StaticODESolver::propagate_solution_increment"]}
{"id": "C127", "title": "A held hyperelastic body under a small load has one equilibrium near rest and the static solve finds it", "statement": "A hyperelastic body held by three nodes which are not aligned in every piece, under any small enough load, has exactly one equilibrium near its rest positions; it is at a distance at most proportional to the load and agrees with the linear theory up to the square of the load; a static solve started at rest goes to it, each iteration squaring the distance, and reports convergence.", "quantifier": "all meshes of linear elements and straight quadratic tetrahedra, both hyperelastic materials, admissible parameters, sets of fixed nodes, small loads, Newton parameters and exact linear solvers", "why_tests_cant": "a test compares a few simulations with a reference; it cannot show that the equilibrium exists, that it is the only one nearby, or that every small load is solved", "anchors": ["HyperelasticForcefield<Element>::addForce", "HyperelasticForcefield<Element>::addKToMatrix", "NeoHookeanMaterial", "SaintVenantKirchhoffMaterial", "NewtonRaphsonSolver::solve", "StaticODESolver::assemble_rhs_vector", "StaticODESolver::assemble_system_matrix", "StaticODESolver::propagate_solution_increment"]}
{"id": "C128", "title": "The conjugate gradient converges at the rate given by the condition number", "statement": "On a symmetric positive definite system with a symmetric positive definite preconditioner, the solution after k iterations has the smallest energy of the error among all those reachable by k products with the matrix; with the eigenvalues of the preconditioned matrix within [lo, hi] and kappa = hi / lo, the energy of the error is at most 4 ((sqrt kappa - 1) / (sqrt kappa + 1))^(2k) times the initial one, each iteration multiplies it by at most ((kappa - 1) / (kappa + 1))^2, and convergence is reported after a number of iterations proportional to sqrt kappa and to the logarithm of the required reduction of the residual, whatever the size of the system.", "quantifier": "all sizes, symmetric positive definite matrices and preconditioners, right-hand sides, initial guesses which are not already accepted, parameters and numbers of iterations, in exact arithmetic; both the assembled and the matrix-free solver", "why_tests_cant": "a test counts the iterations on a few matrices; the rate is about every matrix with given spectral bounds", "anchors": ["ConjugateGradientSolver::solve", "ConjugateGradientSolver::solve(precond, A, b, x)"]}
{"id": "C129", "title": "Points of distorted quads and hexahedra are found", "statement": "Every point of a quad or of a hexahedron is found by the search in a mesh, also when the element is not a parallelogram or a parallelepiped, and the local coordinates returned are those of the point. Proved up to an explicit error, at most 1/2^31 or 4e-5 times the distance to the centre over the smallest half-size, for elements whose edges differ from their mean by at most 1/8 (quads) or 1/48 (hexahedra): points farther than this from the sides are found. False on the sides: in a strip of two almost rectangular quads a point of their common side is found in neither, because the search of the local coordinates stops at the relative tolerance 1e-5 whereas contains_local allows 1e-10.", "quantifier": "all quads in the plane and hexahedra in space near a box, all points, all other elements of the mesh, in exact arithmetic", "why_tests_cant": "tests locate points in rectangles or in one distorted element whose coordinates happen to converge; where the search stops depends on the element and on the point", "anchors": ["Element::local_coordinates", "BarycentricContainer::barycentric_point", "Quad::contains_local", "Hexahedron::contains_local"]}
{"id": "C130", "title": "Elements not far from an affine image are not folded and have nearly its volume", "statement": "When the nodes of an element of any type are at most theta away, in local units, from an affine image of the canonical element, and theta is small enough with respect to the slopes of the shape functions (an explicit bound for each type), then each point of the element has a single local position, the determinant of the Jacobian has everywhere the sign of the image and differs from its determinant by at most an explicit factor, and both the volume computed by the quadrature and the real volume differ from the volume of the image by at most this factor. This is a condition which can be checked for the hypothesis of the properties about integrals on meshes.", "quantifier": "all element types, all affine images with a regular matrix, all positions of the nodes within the bound", "why_tests_cant": "tests evaluate the Jacobian at a few points of a few elements; nothing in the library checks that an element is not folded", "anchors": ["Element::jacobian", "Element::world_coordinates", "BaseTriangle", "BaseQuad", "BaseTetrahedron", "BaseHexahedron", "Element::gauss_nodes"]}
{"id": "C131", "title": "Points of curved elements are found", "statement": "Every point of an element of any type, also one with curved sides, is found by the search in a mesh, and the local coordinates returned are those of the point. Proved for elements close enough to an affine image of the canonical element (a positive distance for each type), for the points in the box of the nodes of the element and inside of it by the error of the search (the greater of 1/2^31 and 4e-5 times the distance to the image of the origin over the smallest size). False for the parts of a curved element outside of the box of its nodes: a quad of eight nodes, which is not folded, has a point strictly inside of it that is not found, because the hash grid only knows the box of the nodes.", "quantifier": "all element types, all elements near an affine one, all points, all other elements of the mesh, in exact arithmetic", "why_tests_cant": "tests locate points in elements with straight sides; which points are missed depends on how much a side bulges and on where the cells of the grid are", "anchors": ["BarycentricContainer::barycentric_point", "HashGrid::add", "Element::local_coordinates", "Element::contains_local"]}
{"id": "C132", "title": "A traction load does the work of the load on the surface", "statement": "The nodal forces of TractionForcefield are equivalent to the traction applied on the surface: on flat elements of every type with regularly placed nodes their work in any displacement of the nodes is the integral over the surface of the traction times the interpolated displacement, and their resultant and moment about any point are those of the traction times the area of each element, applied at its centre; with incremental loads, of the part of the traction reached. The energy reported by the field should be a potential of these forces: it is not, getPotentialEnergy returns zero.", "quantifier": "all meshes of flat triangles and quads of both orders, all displacements, all centres of moments, all numbers of time steps", "why_tests_cant": "tests sum the nodal forces; a wrong distribution between the nodes keeps the sum but changes the moment", "anchors": ["TractionForcefield::increment_load", "TractionForcefield::get_gauss_nodes", "TractionForcefield::addForce", "TractionForcefield::getPotentialEnergy"]}
{"id": "C133", "title": "A bar in tension elongates and narrows as its Young's modulus and Poisson's ratio say", "statement": "A straight bar pulled at its end by a traction t (TractionForcefield) and held on symmetry planes: with the linear force field (CorotationalTetrahedra/HexahedraForcefield not corotated) one static solve from any positions gives the elongation t/E along the axis and the contraction Poisson's ratio times t/E across it in every element, so the end moves by force times length over E times area. With HyperelasticForcefield the bar stretched by a and narrowed by b is in equilibrium under the nominal traction a S(a, b) when the material has no lateral stress: for Saint Venant-Kirchhoff b^2 - 1 = -nu (a^2 - 1) and S = E (a^2 - 1)/2, for Neo-Hookean a width b exists for every stretch.", "quantifier": "all conforming meshes of tetrahedra and of hexahedra of any shape, all loads, all starting positions, all stretches", "why_tests_cant": "a test has one mesh and a tolerance; the claim is about the coupling of three components on every mesh", "anchors": ["TractionForcefield::increment_load", "TractionForcefield::addForce", "CorotationalTetrahedraForcefield::addForce", "CorotationalHexahedraForcefield::addForce", "HyperelasticForcefield::addForce", "StaticODESolver::solve"]}
{"id": "C134", "title": "Meshes free the memory of their domains once", "statement": "Whatever the sequence of calls on meshes and domains: an index array which is still allocated belongs to the user or to exactly one domain which is alive; a domain which is alive belongs to the user or to exactly one mesh; destroying a mesh frees its domains and their arrays once and nothing else; copy assignment and move assignment give the target the content of the source and free the former domains of the target; when all meshes are destroyed nothing is left. With domains added by pointer after a move this fails: two meshes own the same domain and it is freed twice.", "quantifier": "all histories of calls on any number of meshes, all addresses the allocator may give", "why_tests_cant": "a leak or a double free shows only in rare sequences, and leaks are not observed by assertions", "anchors": ["Mesh::~Mesh", "Mesh::operator=", "Mesh::Mesh(Mesh&&)", "Mesh::Mesh(const Mesh&)", "Mesh::add_domain", "Mesh::remove_domain", "swap(Mesh&, Mesh&)", "Domain::~Domain"]}
{"id": "C135", "title": "Refining a mesh does not worsen a linear static solution", "statement": "A linear elastic body (corotational force fields with corotated = false) computed on a mesh and on a mesh which refines it: the energy of the error of the static solution does not grow, whatever displacement of the coarse mesh it is compared with; under the same loads the work of the loads does not decrease, and it never exceeds that of the elastic body; a node pushed by a force moves at least as far in the direction of the force. A grid with several cells for each cell of another grid of the same box refines it when the same sides are held, and the box has exactly one static solution on each of them.", "quantifier": "all meshes of tetrahedra or parallelepipeds one of which refines the other, all held nodes, all loads, all Young's moduli and Poisson's ratios below 1/2, all grids of a box the numbers of cells of which are multiples", "why_tests_cant": "a test compares two meshes and one load; monotonicity holds for all of them or not at all", "anchors": ["HexahedronElasticForce::addForce", "TetrahedronElasticForce::addForce", "HexahedronElasticForce::reinit", "TetrahedronElasticForce::reinit", "Grid::node_indices_of", "Grid::node"]}
{"id": "C136", "title": "Linear static solutions superpose, are reciprocal and have the least energy", "statement": "A linear elastic body (corotational force fields with corotated = false): displacements and loads may be added and scaled, and the forces which remain are added and scaled with them; the work of one load on the displacement under another load is the work of the second on the displacement under the first, so the displacement of one node under a force at another one is that of the second under the same force at the first; twice the elastic energy is the work of the loads; the forces balance at the nodes which are not held exactly when no displacement with the same held values has less energy; a body with more elements, a larger Young's modulus or more held nodes gives way less to the same loads; and c times the Young's modulus gives displacements c times smaller.", "quantifier": "all meshes without inverted elements, all held nodes, all loads and displacements, both integration methods of the hexahedra, all Young's moduli and Poisson's ratios between -1 and 1/2", "why_tests_cant": "a test solves a few problems; these are relations between all pairs of loads, all displacements and all sets of supports", "anchors": ["HexahedronElasticForce::addForce", "TetrahedronElasticForce::addForce", "HexahedronElasticForce::reinit", "TetrahedronElasticForce::reinit", "HexahedronElasticForce::compute_K", "TetrahedronElasticForce::compute_K"]}
{"id": "C137", "title": "Symmetric problems have symmetric solutions", "statement": "A body is symmetric when an isometry (a rotation, or a mirror) takes its nodes to nodes and its elements to elements, whatever the order in which their nodes are listed. Hyperelastic forces on the moved positions of a symmetric body with an isotropic material are the moved forces, and the energy is the same. The same holds for the displacements of linear elastic bodies (corotational force fields with corotated = false), and the static solution of a symmetric linear elastic body, held at a symmetric set of nodes under symmetric loads, is symmetric: a box of hexahedra held and loaded alike on both sides of its middle plane has displacements which are mirror images of each other.", "quantifier": "all isometries, all symmetric meshes and numberings of nodes and elements, all positions, displacements, loads and supports; all grids and all three axes for the box", "why_tests_cant": "a test checks one symmetric model, with tolerances; the claim is about all isometries and meshes", "anchors": ["HyperelasticForcefield::addForce", "HyperelasticForcefield::getPotentialEnergy", "HexahedronElasticForce::addForce", "TetrahedronElasticForce::addForce", "HexahedronElasticForce::reinit", "TetrahedronElasticForce::reinit", "CartesianGridContainer/Grid::node_indices_of"]}
{"id": "C138", "title": "The supports carry the loads", "statement": "When the forces at the free coordinates of a body balance, the forces its supports have to bring add up to the opposite of the loads; they also have the opposite moment, at the current positions for hyperelastic bodies with a symmetric stress and at the rest positions for linear elastic ones. When they do not balance exactly, the difference is the sum of the forces left. Under a traction field the supports bring minus the traction applied times the area of the surface. A linear elastic body in one piece which nothing holds has a static solution if and only if the loads have no sum and no moment, and then its solutions are one of them plus all small rigid motions.", "quantifier": "all meshes, element types, materials, positions, loads and sets of held coordinates; all bodies in one piece for the second half, among them all boxes of hexahedra", "why_tests_cant": "a test compares the reactions of one model; the claim is about all bodies, supports and loads, and about solutions which do not exist", "anchors": ["HyperelasticForcefield::addForce", "HexahedronElasticForce::addForce", "TetrahedronElasticForce::addForce", "HexahedronElasticForce::reinit", "TetrahedronElasticForce::reinit", "TractionForcefield::addForce"]}
{"id": "C139", "title": "The mesh scripts of the validation describe the body they are asked for", "statement": "create_beam_mesh.py has Gmsh mesh the box between the two corners given, with the numbers of nodes given along x, y and z, or the rectangle when two numbers are given; it stops when an axis has less than two nodes, and uses the executable given. create_cylinder_mesh.py has it mesh the cylinder with the radius, length, element size and type of elements given.", "quantifier": "all corners, numbers of nodes, types of elements and options", "why_tests_cant": "a test runs Gmsh on a few meshes; the claim is about all corners and numbers", "anchors": ["Validation/meshes/create_beam_mesh.py:rectangle", "Validation/meshes/create_beam_mesh.py:main", "Validation/meshes/create_beam_mesh.py:geo_to_msh", "Validation/meshes/create_cylinder_mesh.py:cylinder", "Validation/meshes/create_cylinder_mesh.py:main"]}
{"id": "C140", "title": "Under small loads hyperelastic bodies move like linear ones", "statement": "Take a body of tetrahedra or of hexahedra, three nodes of which are held in every piece, with the same Young modulus and Poisson ratio in a linear force field without rotations and in a hyperelastic force field with the Saint-Venant-Kirchhoff or the Neo-Hookean material. Under a small load the hyperelastic force field has one equilibrium near rest and it differs from the static solution of the linear one by at most a constant times the square of the load, hence so do the equilibria of the two materials. The positions under a growing load start with the slope of the linear solution. One iteration of the static solver from rest gives the linear solution exactly, whatever the load, and every solve which makes an iteration ends near it.", "quantifier": "all correctly oriented meshes of linear tetrahedra and hexahedra, loads, held nodes, both materials, solver parameters; among them all boxes", "why_tests_cant": "a test compares two force fields on one mesh for one load; the claim bounds the difference for all small loads", "anchors": ["HyperelasticForcefield::addForce", "HyperelasticForcefield::addKToMatrix", "HexahedronElasticForce::addForce", "TetrahedronElasticForce::addForce", "NewtonRaphsonSolver::solve", "StaticODESolver::assemble_system_matrix"]}
{"id": "C141", "title": "Time steps settle in the static solution", "statement": "Simulate a linear scene whose stiffness is positive on the degrees of freedom which are not held, with the backward Euler solver and a constant load. Whatever the time step, the masses and the damping, time steps of two iterations or more bring the scene to rest at its static solution: the distance and the velocity become as small as wanted, from a time step on which does not depend on the linear solver or the thresholds. In particular a linear elastic box held at one side settles in the one solution of the static problem.", "quantifier": "all linear scenes with mapped and held degrees of freedom, time steps, Rayleigh coefficients, initial states, sequences of solver settings, exact linear solvers; among them all boxes", "why_tests_cant": "a test simulates finitely many steps of one scene; the claim is about the limit for all scenes and time steps", "anchors": ["BackwardEulerODESolver::solve", "BackwardEulerODESolver::assemble_rhs_vector", "BackwardEulerODESolver::assemble_system_matrix", "BackwardEulerODESolver::propagate_solution_increment", "NewtonRaphsonSolver::solve"]}
{"id": "C142", "title": "Moving and exchanging domains keeps their elements", "statement": "A domain which is moved (std::move into a new one) keeps its elements, its mesh and its memory; the domain it comes from is empty afterwards and nothing is freed twice. swap(first, second) exchanges the elements of two domains and nothing else changes.", "quantifier": "all meshes, domains with their own or external arrays of indices, strides", "why_tests_cant": "a test moves one domain and reads its indices; the claim is about all domains and about what else is read afterwards", "anchors": ["Domain::Domain(Domain&&)", "Domain::swap", "Domain::element", "Domain::attach_to"]}
{"id": "C143", "title": "The history of the loads does not matter", "statement": "Simulate a hyperelastic body, three nodes of which are held in every piece, with the static solver, under loads which change from one time step to the next. As long as the loads are small, each has one equilibrium near rest, which depends on the load in a Lipschitz way, and the positions after a time step are near the equilibrium of its load, at a distance which depends on the number of iterations of that time step only (it at least halves, and squares, with each), not on the loads and the settings before. Two simulations which end with the same load end at the same place; a body whose load is removed comes back to rest; when the load changes by little from step to step, the positions follow the equilibria with an error which does not grow with the number of steps.", "quantifier": "all scenes with a regular equilibrium, among them all hyperelastic bodies with both materials; all sequences of small loads of any length, solver settings which change from step to step, exact linear solvers", "why_tests_cant": "a test runs one sequence of loads; the claim compares all sequences with the same end", "anchors": ["StaticODESolver::solve", "NewtonRaphsonSolver::solve", "StaticODESolver::assemble_rhs_vector", "HyperelasticForcefield::addForce", "HyperelasticForcefield::addKToMatrix"]}
{"id": "C144", "title": "A body may be made of several materials", "statement": "Put several hyperelastic force fields on one mechanical object, each with its own elements, element type and material. The forces, the energy and the matrix are the sums of those of the force fields and only depend on the elements and their materials, not on how they are distributed over the force fields or on the order of these. A body the nodes of which are joined to three held ones through elements which share faces, whatever their types and materials, has a regular system at rest, one equilibrium near rest under every small load, and the static solver finds it. In the scene given as an example every element has one material.", "quantifier": "all lists of force fields with tetrahedra, quadratic tetrahedra and hexahedra, all distributions of elements and materials; small loads in any sequence; all cells of the scene", "why_tests_cant": "a test runs one body with two materials; the claim is about all of them", "anchors": ["HyperelasticForcefield::addForce", "HyperelasticForcefield::addKToMatrix", "HyperelasticForcefield::getPotentialEnergy", "AssembleGlobalMatrix::fwdForceField", "StaticODESolver::assemble_rhs_vector", "scenes/multiple_materials.py"]}
{"id": "C145", "title": "Quadratic elements contain the linear ones", "statement": "Replace the tetrahedra or hexahedra of a mesh by quadratic ones by adding the middles of the edges. At every deformation of the linear mesh, the middles moved to the middles of the moved edges, the hyperelastic energy is the same, the forces of the linear mesh are those of the quadratic mesh with half of the force of every middle given to each end of its edge, and so is the stiffness. Hence a deformation of the linear mesh which is an equilibrium of the quadratic mesh is one of the linear mesh, and the quadratic mesh is never stiffer: the first Newton iterate from rest moves at least as far along the loads.", "quantifier": "all meshes of tetrahedra or hexahedra with any number of elements, curved by any deformation; all positions, loads and held nodes; all materials (energy, forces), both materials (stiffness)", "why_tests_cant": "a test compares one mesh at one deformation up to a tolerance; the equalities hold for all of them", "anchors": ["HyperelasticForcefield::addForce", "HyperelasticForcefield::getPotentialEnergy", "HyperelasticForcefield::addDForce", "HyperelasticForcefield::assemble_stiffness", "Tetrahedron10", "Hexahedron20"]}
{"id": "C146", "title": "Static solves may use the conjugate gradient", "statement": "Use the conjugate gradient as the linear solver of a static solve; it starts every time from the previous increment and stops at its tolerance. In a linear stable scene, with a tolerance of at most a third and at least as many iterations allowed as there are degrees of freedom, every Newton iteration divides the forces out of balance at least by the tolerance, and the fixed points do not move at all. Near a stable equilibrium of any scene, with a small enough tolerance, every iteration divides the distance to the equilibrium at least by four. The solve ends when it has converged and says so, at the maximum number of iterations, when it has hardly moved or when the forces out of balance are negligible; an equilibrium that has been reached is reported.", "quantifier": "all scenes with mapped objects and fixed points, all starting positions (near the equilibrium when the scene is not linear), all thresholds, the methods None, Identity and Diagonal", "why_tests_cant": "a test runs one scene with one tolerance; the claim is about all of them and about the limit", "anchors": ["NewtonRaphsonSolver::solve", "StaticODESolver::assemble_system_matrix", "ConjugateGradientSolver::solve"]}
{"id": "C147", "title": "The reference computation with FEniCS solves the problem of the plugin", "statement": "The script which validates the bending beam computes with FEniCS what the plugin computes: on every mesh, with the same quadrature, its residual is minus the force of the Saint Venant-Kirchhoff force field plus the load, although it builds the strain from the transposed gradient; its Jacobian is the derivative of this residual and the matrix of the plugin. Its load steps are equal and the last one applies the whole traction. When the plugin, with the same tolerances, number of iterations and linear solver, converges at every step, the script ends with the same positions.", "quantifier": "all meshes of solid elements with distinct nodes and no degenerate quadrature point, all materials, loads, held nodes, displacements and tolerances, all numbers of steps, all scenes without mapped objects", "why_tests_cant": "the script runs in a container of another library; no test compares the two for more than one beam", "anchors": ["HyperelasticForcefield::addForce", "HyperelasticForcefield::assemble_stiffness", "NewtonRaphsonSolver::solve", "Validation/fenics_rectangular_beam_bending_static_stvk.py"]}
{"id": "C148", "title": "The reference computation with FEBio is given the mesh, the loads and its own results", "statement": "The input file which the validation script writes for FEBio lists exactly the volume elements and the surface elements of the base and of the top of the mesh, with their own types and with nodes counted from one; the elements of one list have distinct numbers; the clamped nodes are those of the elements of the base, each once and in increasing order. The traction of load step i out of n is (i+1)/n of the whole one, as in the computation with FEniCS. The displacements read back are those of the last record of the log file, and the script stops when one is missing.", "quantifier": "all meshes, tags, tractions and numbers of steps, all log files", "why_tests_cant": "the script has no test, and it runs FEBio in a container on one mesh only", "anchors": ["Validation/febio_rectangular_beam_bending_static_stvk.py"]}
{"id": "C149", "title": "Time steps may use the conjugate gradient", "statement": "Use the conjugate gradient as the linear solver of a backward Euler time step. In a linear stable scene, with a tolerance of at most a third and at least as many iterations allowed as there are degrees of freedom, the velocities are moved by the accelerations found and the positions by the new velocities, fixed degrees of freedom keep their velocities, and what the equation of motion leaves at the end is at most the tolerance to the number of iterations minus one times what the first iteration leaves: the tolerance times the initial residual, plus the change of the forces along the velocities. The step runs until it has converged, reaches the maximum number of iterations, or the accelerations or the residual are negligible.", "quantifier": "all linear scenes with mapped objects and fixed points, all positions and velocities, all thresholds and damping coefficients, the methods None, Identity and Diagonal", "why_tests_cant": "a test runs one scene with one tolerance; whether an iteration is abandoned depends on the velocities", "anchors": ["NewtonRaphsonSolver::solve", "BackwardEulerODESolver::solve", "ConjugateGradientSolver::solve"]}
{"id": "C150", "title": "The legacy static solver and the static solver give the same result", "statement": "Replace a LegacyStaticODESolver by a StaticODESolver with the same number of iterations and thresholds, in the same scene and with the same direct linear solver. The residuals, the status and the final positions are the same, whatever the warm start and whatever a former step left; or the new solver has stopped earlier, after the same residuals, because the squared norm of the forces was below the square of its absolute threshold.", "quantifier": "all scenes with mapped objects and fixed points, linear or not, all positions, all thresholds, all numbers of iterations, all linear solvers", "why_tests_cant": "the two solvers are tested apart, on scenes where the forces are not small and the linear solver does not fail", "anchors": ["LegacyStaticODESolver::solve", "NewtonRaphsonSolver::solve", "EigenSolver::solveSystem"]}
{"id": "C151", "title": "The legacy static solver does the same with and without an assembled matrix", "statement": "Use the conjugate gradient in a LegacyStaticODESolver. The method None, which never builds the matrix, and the method Identity, which builds it and uses no preconditioner, give the same positions, status, residuals and records of the linear solver, whatever the scene, the limit of the linear solver and the warm start. The squared right-hand side norms which the solver records for the linear solves are those of the forces before the iterations.", "quantifier": "all scenes with mapped objects and fixed points, linear or not, all positions, all thresholds and limits of the two solvers", "why_tests_cant": "tests use scenes where every linear solve converges, and no warm start", "anchors": ["LegacyStaticODESolver::solve", "ConjugateGradientSolver::solveSystem", "EigenSolver::solveSystem", "LegacyStaticODESolver::iterative_linear_solver_squared_rhs_norms"]}
{"id": "C152", "title": "The integration factors of the legacy static solver tell what it does", "statement": "Ask a LegacyStaticODESolver how much positions, velocities and the solution of its linear system affect the positions and velocities after the step, as contact corrections do. The answers are those of the step: the new positions and velocities are the combinations of the old ones and the solution with these factors. Orders of three and more have the factor zero, and no order reads outside of the tables.", "quantifier": "all scenes, positions, velocities, time steps, solutions of the linear system and orders of derivation", "why_tests_cant": "no test calls these methods, they are only used by contact corrections", "anchors": ["LegacyStaticODESolver::getIntegrationFactor", "LegacyStaticODESolver::getSolutionIntegrationFactor", "LegacyStaticODESolver::getPositionIntegrationFactor", "LegacyStaticODESolver::getVelocityIntegrationFactor", "LegacyStaticODESolver::solve"]}
{"id": "C153", "title": "Records read from Python stay as they were read", "statement": "Let a script read iteration_times, squared_residuals, squared_initial_residual, iterative_linear_solver_squared_residuals (or one of its entries) and iterative_linear_solver_squared_rhs_norms of a LegacyStaticODESolver and keep them. Later steps of the simulation do not change what it has read, and reading never leaves the memory of the solver.", "quantifier": "all sequences of steps, all numbers of iterations and limits, all linear solvers", "why_tests_cant": "tests read the records in C++, right after the step", "anchors": ["LegacyStaticODESolver::squared_residuals", "LegacyStaticODESolver::iterative_linear_solver_squared_residuals", "LegacyStaticODESolver::squared_initial_residual", "addLegacyStaticODESolver", "LegacyStaticODESolver::solve"]}
{"id": "C154", "title": "The moved points of the benchmark reach their goal with the given velocity", "statement": "In the benchmark of the direct solvers, points are moved by a controller with the increments of get_motion_per_dt. Whatever the start, the goal, the velocity and the time step of the scene, a point covers the velocity times the time step in every step, until it is at its goal, where it stays.", "quantifier": "all starts, goals, positive velocities and time steps, any number of steps", "why_tests_cant": "the benchmark has no tests, and uses one goal, which is a multiple of its step", "anchors": ["get_motion_per_dt", "Controller.onAnimateBeginEvent", "Controller.onAnimateEndEvent"]}
{"id": "C155", "title": "The beam scenes have cells of the given size, one end held and the other one loaded", "statement": "Whatever the radius, the length and the cell size which are written at the top of a benchmark scene of the beam, as long as there is at least a cell along each axis, the grid fills the beam with equal cells of the given size; the box of the fixed nodes takes exactly the first layer of nodes, the box of the loaded side exactly the last layer, and no node is in both.", "quantifier": "all radii, lengths and cell sizes with at least one cell along each axis, all nodes", "why_tests_cant": "the scenes are benchmarks without tests, run with one set of numbers each", "anchors": ["nx", "nz", "eps", "base_roi", "top_roi"]}
{"id": "C156", "title": "The timer of SOFA is told what the solvers do", "statement": "Whatever happens during a solve (any convergence, any failure of the linear solver, any number of iterations), the steps which the static, dynamic, legacy and conjugate gradient solvers and the force fields begin in the timer of SOFA are ended in the reverse order, and the numbers nb_iterations and has_converged given to the timer are the number of iterations done and whether the solve converged.", "quantifier": "all executions of the loops, all numbers of iterations, all well nested events of other components", "why_tests_cant": "the timer is not looked at by the tests; the paths with break and goto are rarely taken", "anchors": ["NewtonRaphsonSolver::solve", "LegacyStaticODESolver::solve", "ConjugateGradientSolver::solve", "HyperelasticForcefield::initialize_elements", "TractionForcefield::initialize_elements"]}
{"id": "C157", "title": "The table of the benchmark of the stored tensors shows the means of what was measured", "statement": "Whatever the number of time steps, of methods, and of Newton iterations of a method in a time step, the benchmark of the stored tensors prints a table in which the mean of a method is the mean of the durations of all its Newton iterations in all time steps.", "quantifier": "all numbers of time steps, methods and iterations, all durations", "why_tests_cant": "the benchmark has no tests, and its scene makes several iterations in every step", "anchors": ["extract_newton_steps", "pretty_print_methods", "Controller.onAnimateEndEvent"]}
{"id": "C158", "title": "Assembling the system from a Python script does not change the solves of the simulation", "statement": "Whatever the preconditioner selected, a script which calls assemble(m, b, k) of the conjugate gradient solver any number of times, with any factors, between the solves of the simulation leaves the result of every solve as it would be without these calls.", "quantifier": "all components, preconditioners, systems, orders of calls and solves", "why_tests_cant": "the binding has no tests, and which solve goes wrong depends on the order of the calls and on the sizes of the systems", "anchors": ["ConjugateGradientSolver", "bind_ConjugateGradientSolver", "EigenSolver::assemble", "EigenSolver::setSystemMBKMatrix"]}
{"id": "C159", "title": "The tables of the benchmarks of the direct solvers show the durations of the Newton iterations of every solver", "statement": "Whatever the number of solvers and of Newton iterations which each of them needed, the table printed at the end of a time step has a column for each solver and in line n the duration of its iteration number n, or a dash if it did not come to solve the system in this iteration.", "quantifier": "all lists of methods, all numbers of iterations, all durations", "why_tests_cant": "the benchmarks have no tests, and their scenes need several iterations in every step", "anchors": ["extract_newton_steps", "pretty_print_methods", "Controller.onAnimateEndEvent"]}
{"id": "C160", "title": "The benchmark of the conjugate gradients shows how many iterations each of them made", "statement": "Whatever the method of preconditioning and the number of iterations which a conjugate gradient solver of Caribou needed in a Newton iteration, the column with the number of its iterations in the table of the benchmark shows this number.", "quantifier": "all methods, static solvers, numbers of iterations, events of the force fields", "why_tests_cant": "the benchmark has no tests; the script reads steps of the timer by their names, which are written in other files", "anchors": ["extract_newton_steps", "ConjugateGradientSolver::solveSystem", "EigenSolver::solveSystem", "NewtonRaphsonSolver::solve"]}
{"id": "C161", "title": "The scene which compares the conjugate gradients shows how many iterations each of them made", "statement": "Whatever the method of preconditioning and the number of iterations which a conjugate gradient solver of Caribou needed in a Newton iteration, the scene conjugate_gradient_benchmark.py prints this number as the number of iterations of the solver.", "quantifier": "all methods, static solvers, numbers of iterations, events of the force fields", "why_tests_cant": "the scene has no tests; the form of a record of the timer depends on how often a step was made, and the steps are made in other files", "anchors": ["extract_newton_steps", "ConjugateGradientSolver::solveSystem", "EigenSolver::solveSystem", "NewtonRaphsonSolver::solve"]}
{"id": "C162", "title": "The scene which compares the conjugate gradients loses no time between its columns", "statement": "Whatever steps the timer has measured in a Newton iteration, if the scene conjugate_gradient_benchmark.py prints a row for it, the time of the update of the matrix and the time of the solve in the row are together the time measured for the two, the time of the solve is not negative, only the time of an update of the stiffness made within the solve is moved from one to the other, and the mean time of an iteration is the mean of the measured ones.", "quantifier": "all trees of measured steps, values, durations which are not negative", "why_tests_cant": "the scene has no tests; the records depend on the solver, the force fields and the number of their calls", "anchors": ["extract_newton_steps", "HyperelasticForcefield::addDForce", "HyperelasticForcefield::assemble_stiffness", "ConjugateGradientSolver::solveSystem"]}
{"id": "C163", "title": "The inventory of the documentation leads to every documented class", "statement": "Whatever compounds Doxygen has found, reading the inventory which generate_doxygen_intersphinx.py writes gives, in their order, exactly one entry for each class and each structure among them, with its name without spaces, its page, and its name as the text of the link.", "quantifier": "all lists of compounds, kinds, names with and without spaces", "why_tests_cant": "the script has no tests; names of templates have spaces, which also separate the fields of the inventory", "anchors": ["doc/generate_doxygen_intersphinx.py"]}
