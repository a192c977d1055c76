{"id": "C01", "title": "Padded cell addressing is in bounds and collision-free", "statement": "For a generated grid, every cell triple in the padded range addresses exactly one storage slot inside the grid's storage, two different triples never share a slot, and every slot belongs to some triple.", "quantifier": "for every dimension 1-3, every cell count and padding whose products fit in an int, and every pair of padded triples", "why_tests_cant": "Tests check a handful of index values on 10-cell grids; collisions and out-of-range slots can appear only for other extents, paddings or dimensions.", "anchors": ["src/cpu/grid.cc: Grid::index, Grid::generate, Grid::size"]}
{"id": "C02", "title": "Node coordinates are cell centres", "statement": "After grid generation, the coordinate of cell (i,j,k), ghosts included, along every active axis is min + (i + 1/2) * (max - min) / n, and the coordinate along inactive axes is 0, whatever the padding.", "quantifier": "for every dimension, box, cell count, padding and padded cell", "why_tests_cant": "Tests check padding 1 on one box; the formula must hold for every padding, since schemes with wider stencils need a wider padding.", "anchors": ["src/cpu/grid.cc: Grid::generate, Grid::operator(), Grid::setPadding"]}
{"id": "C03", "title": "Base-node lookup finds the enclosing interval", "statement": "The base node returned for a point x satisfies coordinate(base) <= x < coordinate(base + 1) along each active axis, and it is the only integer node with that property.", "quantifier": "for every point, box with positive extent and positive cell count", "why_tests_cant": "Needs a statement over the continuum of points, including points exactly on nodes and outside the box.", "anchors": ["src/cpu/grid.cc: Grid::baseNodeId"]}
{"id": "C04", "title": "Interpolation stencils of in-domain points stay in storage", "statement": "For every point of the closed domain box, the base node and its +1 neighbours along each active axis are padded cells of the grid, so that reading them is in bounds.", "quantifier": "for every point of the closed box, every dimension, cell count and padding >= 1", "why_tests_cant": "Out-of-bounds reads occur only for particular points (upper faces, corners), which sampling misses.", "anchors": ["src/cpu/grid.cc: Grid::baseNodeId, Grid::index", "src/cpu/interpolation/hermite-1d.cc", "src/cpu/interpolation/hermite-2d.cc", "src/cpu/interpolation/hermite-3d.cc"]}
{"id": "C05", "title": "Point interpolation executes no undefined integer arithmetic", "statement": "Interpolating at a point of the domain performs no signed integer overflow.", "quantifier": "for every grid dimension and every point", "why_tests_cant": "Signed overflow is silent on the usual compilers, so that tests pass whether or not it happens.", "anchors": ["src/cpu/grid.cc: Grid::baseNodeId, Grid::index", "src/cpu/interpolation/hermite-1d.cc: interpolate", "src/cpu/interpolation/hermite-2d.cc: interpolate", "src/cpu/interpolation/linear-1d.cc: linearInterpolation"]}
{"id": "C06", "title": "Grid generation forgets history", "statement": "After any sequence of padding changes and generations that ends in a generation, the grid is the same (extents, spacing, coordinates, size, cell total) as a fresh grid given the last padding and generated once with the last box.", "quantifier": "for every finite history of setPadding and generate calls", "why_tests_cant": "The claim is about all call histories; tests use one or two.", "anchors": ["src/cpu/grid.cc: Grid::setPadding, Grid::generate, Grid::Grid"]}
{"id": "C07", "title": "Arrays behave as finite maps over cells", "statement": "An array over a grid starts with the zero value in every cell, a read returns the last value written to that cell, and writes to one cell never change another cell.", "quantifier": "for every history of reads, writes and whole-array assignments on padded cells, for every element type", "why_tests_cant": "It quantifies over all histories and all pairs of cells.", "anchors": ["src/cpu/array.cc: Array::Array, Array::operator(), Array::operator[], Array::operator="]}
{"id": "C08", "title": "Whole-array assignment is a deep copy usable on the target's grid", "statement": "After a = b every padded cell of a's grid can be read and equals b's value there, and later writes to b do not change a.", "quantifier": "for every pair of arrays, also when their grids differ", "why_tests_cant": "Aliasing and size mismatch depend on later history and on the pair of grids.", "anchors": ["src/cpu/array.cc: Array::operator="]}
{"id": "C09", "title": "Array text output lists each interior cell once, in order", "statement": "Writing an array emits one line for each interior cell, in i-major then j then k order, with the cell's coordinates followed by its value, and never prints ghost cells.", "quantifier": "for every grid, padding and array contents", "why_tests_cant": "Completeness and order must hold for every extent and dimension.", "anchors": ["include/gals/utilities/array.h: operator<<", "src/cpu/file-utils.cc: FileUtils::write"]}
{"id": "C10", "title": "Vector minimum is the least component", "statement": "min() of a 3-vector returns a component that is less than or equal to all three components.", "quantifier": "for every triple, ties included", "why_tests_cant": "Ties are a measure-zero set that random tests miss.", "anchors": ["src/cpu/vec3.cc: Vec3::min"]}
{"id": "C11", "title": "Tolerant comparison laws", "statement": "Floating comparison is reflexive, symmetric and implied by exact equality, holds exactly when the values differ by at most 1e-10, and integer comparison is exact; vector and matrix equality are the conjunction over components.", "quantifier": "for all pairs of values", "why_tests_cant": "Boundary behaviour at the tolerance, and the failure of transitivity, need reasoning over all values.", "anchors": ["include/gals/utilities/utilities.h: is_equal", "src/cpu/vec3.cc: operator==", "src/cpu/mat3.cc: operator=="]}
{"id": "C12", "title": "Matrix-vector contraction uses the Jacobian transpose", "statement": "dot of a 3x3 matrix M (row = component, column = derivative) with v returns the vector whose i-th entry is sum_j M(j,i) v_j; it is linear in both arguments and the identity matrix leaves v unchanged; entry (r,c) is the r,c argument of the constructor.", "quantifier": "for all matrices and vectors", "why_tests_cant": "The transposition is invisible on symmetric or diagonal examples.", "anchors": ["src/cpu/mat3.cc: Mat3::dot, Mat3::operator()"]}
{"id": "C13", "title": "Valid arguments never terminate the process", "statement": "Constructing a 3-vector from a 3-element list, or computing a supported analytic velocity in 2D or 3D, returns normally, in every build configuration.", "quantifier": "for every valid argument and both settings of the test-build option", "why_tests_cant": "The unit tests are compiled with the option that hides the exit statement; the other configuration cannot be observed from them.", "anchors": ["include/gals/utilities/utilities.h: GALS_ABORT, GALS_FUNCTION_NOT_IMPLEMENTED", "src/cpu/vec3.cc: Vec3(std::vector)", "src/cpu/analytical-fields/velocity.cc: compute", "CMakeLists.txt: BUILD_TESTS"]}
{"id": "C14", "title": "1D Hermite interpolation is exact on cubics", "statement": "If node values and gradients are those of a cubic polynomial, the interpolated value and gradient at any point equal the polynomial and its derivative there; in particular node data are reproduced.", "quantifier": "for every cubic, grid spacing and point in the storage range", "why_tests_cant": "A polynomial identity over a continuum of points, data and spacings.", "anchors": ["src/cpu/interpolation/hermite-1d.cc: interpolate", "include/gals/cpu/interpolation/hermite.h: ControlPoints, B0..B3"]}
{"id": "C15", "title": "2D Hermite interpolation is exact on bicubics", "statement": "If node values, gradients and mixed derivatives are those of a polynomial of degree at most 3 in each variable, interpolated value and gradient equal the polynomial and its partial derivatives at every point of the cell.", "quantifier": "for every bicubic polynomial, spacing and point", "why_tests_cant": "Sixteen coefficients and a continuum of points; an error in one control point can cancel on symmetric test data.", "anchors": ["src/cpu/interpolation/hermite-2d.cc: interpolate"]}
{"id": "C16", "title": "3D Hermite interpolation is exact on tricubics", "statement": "If node values, gradients and the four mixed derivatives are those of a polynomial of degree at most 3 in each variable, interpolated value and gradient equal the polynomial and its partial derivatives at every point of the cell.", "quantifier": "for every tricubic polynomial, spacing and point", "why_tests_cant": "Sixty-four control points typed by hand; tests touch only a few fields.", "anchors": ["src/cpu/interpolation/hermite-3d.cc: interpolate"]}
{"id": "C17", "title": "Interpolated gradient is the derivative of the interpolated value", "statement": "Inside a cell the returned gradient is the derivative (partial derivatives in 2D and 3D) of the returned value as a function of the query point, for arbitrary node data, with or without gradient limiting.", "quantifier": "for every node data, cell, point, dimension and limiter setting", "why_tests_cant": "A statement about derivatives at all points.", "anchors": ["src/cpu/interpolation/hermite-1d.cc", "src/cpu/interpolation/hermite-2d.cc", "src/cpu/interpolation/hermite-3d.cc"]}
{"id": "C18", "title": "Piecewise Hermite interpolant is continuously differentiable across cells", "statement": "Value and gradient computed from the two cells that share a node (1D), edge (2D) or face (3D) agree at every shared point, without limiting.", "quantifier": "for every node data and every shared point", "why_tests_cant": "Every shared point of every pair of cells for arbitrary data.", "anchors": ["src/cpu/interpolation/hermite-1d.cc", "src/cpu/interpolation/hermite-2d.cc", "src/cpu/interpolation/hermite-3d.cc"]}
{"id": "C19", "title": "Gradient limiting keeps node values and removes overshoot", "statement": "With limiting, the control points at both nodes are the node values, data already monotone are not altered, and the limited cubic stays between the smallest and largest of the two node values.", "quantifier": "for every pair of node values and gradients and every point in the cell", "why_tests_cant": "Branches of the limiter depend on sign combinations of five differences; sampling cannot exclude a bad combination.", "anchors": ["include/gals/cpu/interpolation/hermite.h: get_control_points"]}
{"id": "C20", "title": "Field interpolation writes exactly the interior interpolation results", "statement": "Interpolating a level set at a field of points sets, at every interior cell, the previous-step interpolated value and gradient to the point interpolation, and changes no other cell and no other field.", "quantifier": "for every grid, point field within storage, and data, in 1D, 2D and 3D", "why_tests_cant": "Frame conditions quantify over every cell and field that is not the target.", "anchors": ["src/cpu/interpolation/hermite-1d.cc: compute", "src/cpu/interpolation/hermite-2d.cc: compute", "src/cpu/interpolation/hermite-3d.cc: compute"]}
{"id": "C21", "title": "Linear interpolation is exact on affine data and obeys the maximum principle", "statement": "1D linear interpolation reproduces affine functions exactly and its result lies between the two neighbouring node values.", "quantifier": "for all node data and all points in storage range", "why_tests_cant": "Continuum of points and data.", "anchors": ["src/cpu/interpolation/linear-1d.cc: linearInterpolation, compute"]}
{"id": "C22", "title": "Second-order central gradient is exact on quadratics", "statement": "The gradient computed at every interior cell equals the exact gradient if the field samples a polynomial of degree at most 2 in each coordinate; no ghost cell of the result changes; no access is out of bounds for padding >= 1.", "quantifier": "for every quadratic field, grid, dimension and interior cell", "why_tests_cant": "Order of accuracy is an identity over all quadratics and spacings.", "anchors": ["src/cpu/gradient/second-order-central.cc: compute"]}
{"id": "C23", "title": "Third-order gradient is exact on cubics", "statement": "The gradient computed at every interior cell equals the exact gradient if the field samples a polynomial of degree at most 3 in each coordinate, provided the padding is at least 2.", "quantifier": "for every cubic field, grid, dimension and interior cell", "why_tests_cant": "Order of accuracy is an identity over all cubics and spacings.", "anchors": ["src/cpu/gradient/third-order.cc: compute"]}
{"id": "C24", "title": "Gradient schemes never read outside the array", "statement": "Computing a gradient on an array over any generated grid, with the padding a grid has by default, reads only cells of the array.", "quantifier": "for every scheme, dimension and extent", "why_tests_cant": "An out-of-bounds vector read need not fail a test.", "anchors": ["src/cpu/gradient/third-order.cc: compute", "src/cpu/gradient/second-order-central.cc: compute", "src/cpu/grid.cc: Grid::Grid"]}
{"id": "C25", "title": "Vector-field gradients have component rows and derivative columns", "statement": "The gradient of a vector field has at entry (c,d) the finite-difference derivative of component c along axis d.", "quantifier": "for every vector field, scheme, dimension and interior cell", "why_tests_cant": "Wrong off-diagonal entries cannot be seen on fields with equal components or diagonal Jacobians.", "anchors": ["src/cpu/gradient/second-order-central.cc", "src/cpu/gradient/third-order.cc", "include/gals/cpu/gradient.h"]}
{"id": "C26", "title": "Explicit Euler step solves the advection equation", "statement": "One explicit Euler step sets phi = phi_prev - dt * (u . grad phi_prev) at every interior cell.", "quantifier": "for every velocity, level set, dt and interior cell", "why_tests_cant": "The test runs on zero fields only.", "anchors": ["src/cpu/temporal-schemes/euler.cc: compute"]}
{"id": "C27", "title": "Semi-Lagrangian step with zero velocity is the identity", "statement": "With zero velocity and zero velocity gradient a semi-Lagrangian step returns, at every interior cell, the previous value and the previous gradient (active axes).", "quantifier": "for every level-set data, dt, grid and dimension", "why_tests_cant": "Arbitrary data at every cell.", "anchors": ["src/cpu/temporal-schemes/semi-lagrangian/euler.cc: compute"]}
{"id": "C28", "title": "Semi-Lagrangian step translates cubic fields exactly", "statement": "For a spatially constant velocity with per-axis Courant number below one and data sampling a polynomial of degree at most 3 in each variable (with exact derivatives), one step gives at every interior cell the exactly translated polynomial and its gradient.", "quantifier": "for every polynomial, velocity, dt within the bound, grid and interior cell", "why_tests_cant": "An identity over all polynomials and velocities.", "anchors": ["src/cpu/temporal-schemes/semi-lagrangian/euler.cc: compute", "src/cpu/interpolation/hermite-2d.cc"]}
{"id": "C29", "title": "Semi-Lagrangian gradient update is the chain rule", "statement": "The updated gradient at a node equals the gradient with respect to the node position of the interpolant evaluated at the departure point x - dt u(x), for any differentiable velocity whose Jacobian is the stored velocity gradient.", "quantifier": "for every differentiable velocity field, data, dt and node", "why_tests_cant": "Transposition and sign errors vanish for symmetric or zero Jacobians.", "anchors": ["src/cpu/temporal-schemes/semi-lagrangian/euler.cc: compute", "src/cpu/mat3.cc: dot"]}
{"id": "C30", "title": "Semi-Lagrangian step is memory safe under a CFL bound", "statement": "If |u_axis| dt < dx_axis at every interior cell, a semi-Lagrangian step never accesses cells outside the padded storage; without the bound it can.", "quantifier": "for every velocity field satisfying the bound, every grid and dimension", "why_tests_cant": "Only particular velocities near the boundary trigger an out-of-range access.", "anchors": ["src/cpu/temporal-schemes/semi-lagrangian/euler.cc: compute", "src/cpu/grid.cc: Grid::baseNodeId"]}
{"id": "C31", "title": "Time stepping never writes ghost cells of the level set", "statement": "Through any number of steps the ghost cells of phi and psi keep the values they had at the start, so whatever boundary data the caller stores there persist.", "quantifier": "for every number of steps and every data", "why_tests_cant": "Induction over an unbounded number of steps.", "anchors": ["src/cpu/temporal-schemes/semi-lagrangian/euler.cc", "src/cpu/temporal-schemes/euler.cc", "applications/advection/main.cc"]}
{"id": "C32", "title": "Analytic circle level set is the signed distance", "statement": "The circle field at every interior cell is |x - centre| - radius: negative exactly inside, zero exactly on the circle, 1-Lipschitz in the position; ghost cells are not written; unknown names write nothing.", "quantifier": "for every centre, radius, position field and cell", "why_tests_cant": "Sign and Lipschitz claims quantify over all positions.", "anchors": ["src/cpu/analytical-fields/levelset.cc: compute"]}
{"id": "C33", "title": "Analytic circular velocity is a rigid rotation about the given centre", "statement": "The circular velocity vanishes exactly at the given centre (in the plane), is perpendicular to x - centre, has speed proportional to the distance from the centre, and is divergence free.", "quantifier": "for every centre and position", "why_tests_cant": "The test input uses a centre with equal coordinates, which hides swapped components.", "anchors": ["src/cpu/analytical-fields/velocity.cc: compute"]}
{"id": "C34", "title": "Analytic velocity gradient is available at every cell", "statement": "With the analytic gradient scheme, after computing the velocity the velocity gradient at every interior cell is the Jacobian of the velocity.", "quantifier": "for every grid and interior cell", "why_tests_cant": "No test reads the gradient at cells; a wrong slot is silent.", "anchors": ["src/cpu/analytical-fields/velocity.cc: compute"]}
{"id": "C35", "title": "The advection loop terminates just past the end time", "statement": "For a positive time step the loop runs exactly max(1, ceil((t_end - tol)/dt)) steps starting from the configured start time, and ends with a simulation time at least t_end - tol and less than one step beyond it.", "quantifier": "for every dt, start and end time", "why_tests_cant": "Termination for all parameters is not testable.", "anchors": ["applications/advection/main.cc: main", "include/gals/utilities/utilities.h: is_equal"]}
{"id": "C36", "title": "Automatic time step respects the smallest cell", "statement": "If the time step is not fixed by the user it is half of the smallest cell width among the active axes.", "quantifier": "for every grid", "why_tests_cant": "Depends on ties and on inactive axes.", "anchors": ["applications/advection/main.cc: main", "src/cpu/vec3.cc: Vec3::min"]}
{"id": "C37", "title": "A valid run of the advection application completes without undefined behaviour", "statement": "For a well-formed two-dimensional input the application performs every step without out-of-bounds access and writes the velocity file.", "quantifier": "for every well-formed input", "why_tests_cant": "Undefined behaviour need not show in a test run.", "anchors": ["applications/advection/main.cc: main", "src/cpu/gradient/third-order.cc", "src/cpu/grid.cc"]}
{"id": "C38", "title": "Input sections are parsed independently", "statement": "Each configuration section that is present determines its own fields only, sections may be absent, and the order of sections in the file does not matter.", "quantifier": "for every subset and order of sections with arbitrary contents", "why_tests_cant": "Quantifies over all documents.", "anchors": ["src/cpu/input-parser.cc: InputParser::parse", "src/cpu/input-parser/*.cc"]}
{"id": "C39", "title": "File utilities: directory and write operations", "statement": "Creating a directory is idempotent and afterwards it exists; removing a file makes it not exist and touches nothing else; writing replaces the whole previous content of the file.", "quantifier": "for every file-system state and history of operations", "why_tests_cant": "Histories of operations are unbounded.", "anchors": ["src/cpu/file-utils.cc: FileUtils"]}
{"id": "C40", "title": "Reference and library 2D Hermite interpolation agree", "statement": "The reference code's bicubic Hermite evaluation (value, x-derivative, y-derivative) equals the library's 2D Hermite value and gradient for the same node data, spacing and point.", "quantifier": "for every node data, spacing and point", "why_tests_cant": "Two different hand-written polynomial forms; equality is a polynomial identity.", "anchors": ["src/reference/Hermite.h: hp, hermx, hermy", "src/cpu/interpolation/hermite-2d.cc: interpolate"]}
{"id": "C41", "title": "Reference 1D edge interpolation reproduces cubics", "statement": "The 1D Hermite evaluation used for points outside the domain is exact on cubic data on any spacing.", "quantifier": "for every cubic and spacing", "why_tests_cant": "Identity over all data and spacings; spacing-one examples hide missing factors.", "anchors": ["src/reference/Hermite.h: hp1D"]}
{"id": "C42", "title": "Cell search finds the enclosing cell", "statement": "For a point strictly inside the domain the search returns the cell c with x[c] < p <= x[c+1], with no access outside the node array, and the CPU (binary) and GPU (linear) searches return the same cell.", "quantifier": "for every strictly increasing node array with at least two nodes and every point strictly inside", "why_tests_cant": "All node arrays and points.", "anchors": ["src/reference/AdvectionPointCalcs.h: find_advection_point_location", "src/reference/CUDA/AdvectionPointCalcsCUDA.cu: locationAlgo"]}
{"id": "C43", "title": "Serial, OpenMP and CUDA advection points agree at every node", "statement": "All reference implementations compute the same departure point at every grid node.", "quantifier": "for every grid size and velocity", "why_tests_cant": "The outputs of the variants are never compared by a test.", "anchors": ["src/reference/AdvectionPointCalcs.h: advection_point, advection_point_MPI", "src/reference/CUDA/AdvectionPointCalcsCUDA.cu: advection_point_cuda"]}
{"id": "C44", "title": "Parallel level-set update is schedule independent", "statement": "The parallel update of level-set data gives the same arrays for every order and interleaving of iterations (threads), equal to the sequential result.", "quantifier": "for every permutation and interleaving of iterations", "why_tests_cant": "Schedules cannot be enumerated by tests.", "anchors": ["src/reference/AdvectionPointCalcs.h: update_levelset_data", "src/reference/CUDA/AdvectionPointCalcsCUDA.cu: update_levelset_data_cuda"]}
{"id": "C45", "title": "Parallel mixed-derivative update is schedule independent", "statement": "The parallel update of mixed derivatives gives the same array for every interleaving of threads, equal to the sequential result.", "quantifier": "for every interleaving of the threads' individual reads and writes", "why_tests_cant": "A data race shows only under particular schedules.", "anchors": ["src/reference/AdvectionPointCalcs.h: update_mixed_derivatives", "src/reference/CUDA/AdvectionPointCalcsCUDA.cu: update_mixed_derivatives_cuda"]}
{"id": "C46", "title": "GPU launch covers every node exactly once", "statement": "The launch configuration and thread-to-node map process each grid node exactly once and no thread touches memory outside the grid.", "quantifier": "for every nx, ny", "why_tests_cant": "Holds for sizes divisible by the tile, fails for others; tests use one size.", "anchors": ["src/reference/CUDA/GALS_Advection.cu: dimGrid, dimBlock", "src/reference/CUDA/AdvectionPointCalcsCUDA.cu: index computation"]}
{"id": "C47", "title": "GPU and CPU mixed-derivative formulas agree", "statement": "The GPU kernel computes at every node the same mixed derivative as the CPU code.", "quantifier": "for every grid of at least 2x2 nodes, every data and node", "why_tests_cant": "A single corner formula differs only for data not constant there.", "anchors": ["src/reference/AdvectionPointCalcs.h: update_mixed_derivatives", "src/reference/CUDA/AdvectionPointCalcsCUDA.cu: update_mixed_derivatives_cuda"]}
{"id": "C48", "title": "Superconsistent Jacobian is the derivative of the backtrace", "statement": "The Jacobian used by the superconsistent scheme to transport gradients is the exact derivative, with respect to the node position, of the third-order Runge-Kutta departure-point map.", "quantifier": "for every continuously differentiable velocity, time, dt and node", "why_tests_cant": "An analytic identity over function spaces.", "anchors": ["src/reference/TimeSteppingMethods.h: SuperConsistentScheme", "src/reference/AdvectionPointCalcs.h: advection_point"]}
{"id": "C49", "title": "Vortex test velocity: gradients, incompressibility, impermeable walls", "statement": "The vortex velocity's coded gradients are its exact partial derivatives, its divergence is zero everywhere and the normal component vanishes on the unit square's boundary.", "quantifier": "for every position and time", "why_tests_cant": "Analytic identities at all points.", "anchors": ["src/reference/VortexVelocity.h: Velx, Vely, gradUx, gradUy, gradVx, gradVy"]}
{"id": "C50", "title": "Initial level set of the reference code has consistent derivatives", "statement": "The coded initial gradient and mixed derivative are the exact partial derivatives of the coded initial level set.", "quantifier": "for every position", "why_tests_cant": "Analytic identities at all points.", "anchors": ["src/reference/InitializeLevelSet.h: initialize, derivxinit, derivyinit, derivxyinit"]}
{"id": "C51", "title": "Mixed-derivative stencils are second-order consistent", "statement": "The mixed-derivative update gives the exact mixed derivative at interior, edge and corner nodes whenever the gradient data come from a polynomial of low degree (degree as claimed per node kind).", "quantifier": "for every polynomial of that degree, spacing and node", "why_tests_cant": "Identities over all polynomials; edge and corner formulas are separate code.", "anchors": ["src/reference/AdvectionPointCalcs.h: update_mixed_derivatives"]}
{"id": "C52", "title": "MPI gather delivers the other half completely", "statement": "After the exchange, rank 0 holds for every node of the second half the value rank 1 computed.", "quantifier": "for every grid size and data", "why_tests_cant": "Element-type and size mismatch lose data only in part; timing of messages varies.", "anchors": ["src/reference/GALS_Advection_MPI.cpp: main (MPI_Send, MPI_Recv)"]}
{"id": "C53", "title": "MPI exchange is deadlock free and matches messages in order", "statement": "The blocking exchange between the two ranks terminates under every interleaving, whether or not sends are buffered, and every receive gets the message meant for it.", "quantifier": "for every interleaving and every buffering decision of the MPI library", "why_tests_cant": "Deadlock depends on message size and library buffering.", "anchors": ["src/reference/GALS_Advection_MPI.cpp: main (MPI_Send, MPI_Recv)"]}
{"id": "C54", "title": "Reference output frames", "statement": "A run of n steps with print step p writes the initial frame and one frame after each p-th step, 1 + floor(n/p) frames in all, with n the truncated quotient of final time and dt.", "quantifier": "for every n and p >= 1", "why_tests_cant": "All n and p.", "anchors": ["src/reference/SerialCode/GALS_Advection.cpp: main", "src/reference/Allocation.h: fileprint"]}
{"id": "C55", "title": "Two-stage (Heun) gradient update uses the predictor consistently", "statement": "The Heun update of the gradient uses, for both components, the predicted gradient of the first stage.", "quantifier": "for every data", "why_tests_cant": "Order-of-assignment errors are of higher order in dt and pass tolerance tests.", "anchors": ["src/reference/TimeSteppingMethods.h: Heuns_internal"]}
{"id": "C56", "title": "Bernstein basis laws", "statement": "The four basis functions are non-negative on [0,1], sum to one everywhere, their coded derivatives are the exact derivatives and sum to zero; hence an interpolated value lies between the least and the greatest control point.", "quantifier": "for every parameter and every set of control points", "why_tests_cant": "Continuum of parameters.", "anchors": ["include/gals/cpu/interpolation/hermite.h: B0..B3, B0_Prime..B3_Prime"]}
{"id": "C57", "title": "Interpolation is linear in the data", "statement": "Without limiting, interpolating a linear combination of two data sets gives the same linear combination of the interpolations (value and gradient).", "quantifier": "for all data sets, coefficients and points, in 1D, 2D and 3D", "why_tests_cant": "Superposition over all data.", "anchors": ["src/cpu/interpolation/hermite-1d.cc", "src/cpu/interpolation/hermite-2d.cc", "src/cpu/interpolation/hermite-3d.cc"]}
{"id": "C58", "title": "Departure points are located for every node", "statement": "After the search every node holds the tracker class of its departure point (inside, outside in y, outside in x, outside in both), the enclosing cell along each axis where it is inside and the first or last cell along one where it is outside; a node outside along both axes keeps its old cell; nothing else changes and no access leaves the arrays.", "quantifier": "for every strictly increasing grid, every departure points and every schedule of the iterations, on the CPU and, with the tile dividing the grid, on the GPU", "why_tests_cant": "All grids, departure points and interleavings.", "anchors": ["src/reference/AdvectionPointCalcs.h: find_advection_point_location, find_advection_point_location_MPI", "src/reference/CUDA/AdvectionPointCalcsCUDA.cu: find_advection_point_location_cuda"]}
{"id": "C59", "title": "Level-set update stores the semi-Lagrangian update", "statement": "The level-set update of the reference code stores at every node the value and gradient given by the specification: inside the domain the bicubic Hermite interpolant of the old data at the departure point with its gradient transported by the chosen scheme, outside along one axis interpolation along the other axis with an explicit step for the rest, outside along both axes an explicit step; it changes no other array. The interpolant of the specification reproduces the nodal data and its coded derivatives are its exact partial derivatives.", "quantifier": "for every grid of at least 3x3 nodes, data, velocity, time, dt, cells and classes in range, and every schedule of the iterations", "why_tests_cant": "Sixteen-term interpolation formulas and five node classes, over all data.", "anchors": ["src/reference/AdvectionPointCalcs.h: update_levelset_data", "src/reference/CUDA/AdvectionPointCalcsCUDA.cu: update_levelset_data_cuda", "src/reference/Hermite.h: hp, hermx, hermy"]}
{"id": "C60", "title": "A run of the CPU reference program computes the specified fields", "statement": "From the grid, the initial functions and the velocity, every time step of the serial and OpenMP programs is free of undefined behaviour and stores the fields obtained by composing the departure point, cell, level-set update and mixed-derivative specifications; a run of n steps ends with the n-fold composition.", "quantifier": "for every setting with at least 3x3 nodes and a domain of positive size, every velocity, initial functions, scheme names and number of steps", "why_tests_cant": "All settings, data and numbers of steps.", "anchors": ["src/reference/SerialCode/GALS_Advection.cpp: main", "src/reference/GALS_Advection_OpenMP.cpp: main", "src/reference/Allocation.h: gridnodes, allocate_levelset_matrices"]}
{"id": "C61", "title": "Result of an OpenMP step does not depend on the schedule", "statement": "Every terminated execution of a time step of the OpenMP program by several threads leaves the same fields as one thread.", "quantifier": "for every number of threads, distribution of iterations and interleaving of accesses", "why_tests_cant": "Races show only under some schedules.", "anchors": ["src/reference/GALS_Advection_OpenMP.cpp: main", "src/reference/AdvectionPointCalcs.h: update_mixed_derivatives"]}
{"id": "C62", "title": "MPI output starts with the initial frame exactly once", "statement": "After both ranks have done their initial output, each output file holds the initial frame exactly once and nothing else.", "quantifier": "for every interleaving of the file operations of the two ranks and every previous content", "why_tests_cant": "Depends on the relative timing of two processes on a shared file system.", "anchors": ["src/reference/GALS_Advection_MPI.cpp: main", "src/reference/Allocation.h: fileprint"]}
{"id": "C63", "title": "A step of the CUDA program computes the specified fields under every schedule", "statement": "A time step of the CUDA program is free of undefined behaviour and leaves the fields prescribed by the method, whatever the schedule of the GPU threads.", "quantifier": "for every grid divisible into tiles, field, velocity, time step and interleaving of the threads of each kernel", "why_tests_cant": "Reads of freshly allocated device memory return whatever was there before; a test sees one of infinitely many outcomes.", "anchors": ["src/reference/CUDA/GALS_Advection.cu: main", "src/reference/CUDA/AdvectionPointCalcsCUDA.cu: find_advection_point_location_cuda, update_levelset_data_cuda, devicetodevicecopy"]}
{"id": "C64", "title": "Frames written by the CUDA program show the current fields", "statement": "Every frame that the CUDA program writes shows the level set, its gradient and its mixed derivative as they are on the device at that time.", "quantifier": "for every setting, velocity and initial fields", "why_tests_cant": "Stale data look plausible; only a comparison of every element with the device reveals them.", "anchors": ["src/reference/CUDA/GALS_Advection.cu: main", "src/reference/CUDA/Allocation.h: fileprint"]}
{"id": "C65", "title": "Hermite interpolants of neighbouring cells agree where they meet", "statement": "The bicubic Hermite interpolants that the reference code builds on two cells of the grid have the same value and the same two first derivatives at every point that lies in both closed cells, so the interpolation of a field is continuously differentiable across cell edges and the choice of the cell for a point on an edge does not matter.", "quantifier": "for every uniform grid, nodal data, pair of cells and common point", "why_tests_cant": "All data and all edge points; a test that samples edges sees equality only up to rounding for the data tried.", "anchors": ["src/reference/Hermite.h: hp, hermx, hermy"]}
{"id": "C66", "title": "The first serial program advances every node in every step", "statement": "The first version of the serial program, which loops over cells and tries the four corner nodes of each, is free of undefined behaviour and gives every node in every step the value and gradient of its departure point.", "quantifier": "for every setting with at least 3x3 nodes, velocity, initial functions, schemes and number of steps", "why_tests_cant": "A node that no cell accepts silently keeps its old value; this depends on the velocity, the time step and the grid.", "anchors": ["src/reference/OldSerialCode/GALS_Advection.cpp: main"]}
{"id": "C67", "title": "The first serial program and the OpenMP program compute the same fields", "statement": "From the same settings, velocity and initial functions the first version of the serial program and the OpenMP program run by one thread end with the same level set, gradient and mixed derivative at every node.", "quantifier": "for every setting with at least 3x3 nodes, velocity, initial functions, schemes and number of steps", "why_tests_cant": "Differences arise only for departure points on the boundary or more than one cell away.", "anchors": ["src/reference/OldSerialCode/GALS_Advection.cpp: main", "src/reference/GALS_Advection_OpenMP.cpp: main"]}
{"id": "C68", "title": "Runs of the reference programs are linear in the initial data", "statement": "For a given velocity the fields after any number of steps of the serial, OpenMP and CUDA programs started from f + k g are F + k G, where F and G are the fields of the runs started from f and g; the same holds for every frame written by the CPU programs.", "quantifier": "for every valid setting, velocity, scheme, initial functions f and g, factor k and number of steps (CUDA: without a node that departs outside along both axes)", "why_tests_cant": "Superposition is a statement about all pairs of initial data; a nonlinear term in one branch (edge, corner, transport) is invisible for most data.", "anchors": ["src/reference/AdvectionPointCalcs.h: update_gradient", "src/reference/TimeSteppingMethods.h", "src/reference/GALS_Advection_OpenMP.cpp: main"]}
{"id": "C69", "title": "Constant level sets are preserved", "statement": "A run of the serial, OpenMP or CUDA program started from a constant level set with zero derivatives ends with, and writes in every frame, the same constant and zero derivatives, whatever the velocity.", "quantifier": "for every valid setting, velocity, scheme, constant and number of steps (CUDA: without a node that departs outside along both axes)", "why_tests_cant": "Needs the weights of the interpolant to add up to one at every departure point and every branch of the update to be free of source terms for every velocity.", "anchors": ["src/reference/Hermite.h", "src/reference/AdvectionPointCalcs.h: update_gradient"]}
{"id": "C70", "title": "At rest the level set and its gradient do not change", "statement": "With zero velocity a run of the OpenMP program leaves the level set and its gradient at every node as initialised, for every number of steps, and the mixed derivative is that of the stencil applied to the initial gradient.", "quantifier": "for every valid setting, scheme, initial functions and number of steps", "why_tests_cant": "Every node then lies on cell boundaries and the wall nodes count as outside, so all branches of the location and the update take part at borderline points.", "anchors": ["src/reference/GALS_Advection_OpenMP.cpp: main", "src/reference/AdvectionPointCalcs.h"]}
{"id": "C71", "title": "Uniform flow transports affine level sets exactly and bicubic ones for a step", "statement": "In a uniform flow (u, w) the OpenMP program, started from a + b x + d y with its derivatives, has after t steps at every node, boundary included, the value a + b (x - t dt u) + d (y - t dt w) and unchanged derivatives; from the nodal data of any polynomial of degree at most three in x and in y one step gives at every node that departs inside the domain the value and gradient of the translated polynomial.", "quantifier": "for every valid setting, time step, scheme, velocity, coefficients and number of steps", "why_tests_cant": "Exactness over all grids, time steps (also of many cells) and polynomials.", "anchors": ["src/reference/GALS_Advection_OpenMP.cpp: main", "src/reference/AdvectionPointCalcs.h", "src/reference/Hermite.h"]}
{"id": "C72", "title": "Threads inside the ranks of the hybrid version do not change the exchange", "statement": "In the MPI and OpenMP program the loops that fill and unpack the exchange buffers are shared out by rows. Whatever the schedules of the parallel loops, a step of rank 1 that ends leaves the arrays and the five send buffers that the MPI program has, and, if whole doubles are sent, a step of rank 0 that ends leaves the specified fields; after n steps rank 0 has the fields after n specified steps. The ranks start exactly when the program gets one argument.", "quantifier": "for every valid setting with an even number of columns, velocity, initial functions, number of steps, number of threads, distribution and interleaving of single accesses", "why_tests_cant": "Interleavings inside two ranks at once; races need not show.", "anchors": ["src/reference/GALS_Advection_MPI_OpenMP.cpp: main", "src/reference/AdvectionPointCalcs.h"]}
{"id": "C73", "title": "With two ghost layers the application runs to the end", "statement": "If the grid of the advection application is given at least two ghost layers before it is generated, and no interior node moves by a cell or more in a step, the time loop has exactly one run: it ends without a fault after the counted number of steps, every step being the same map of level set and gradient; ghost cells keep their initial values, and the file written afterwards has one line per interior cell with its stored position and the velocity of the rotation.", "quantifier": "for every supported two-dimensional grid with padding at least 2, initial level set, centre of rotation, value of pi, end time and positive time step within the bound", "why_tests_cant": "Memory safety and the number of steps over all grids and step sizes.", "anchors": ["applications/advection/main.cc: main", "src/cpu/analytical-fields/velocity.cc: compute", "src/cpu/gradient.cc", "src/cpu/temporal-schemes/semi-lagrangian/euler.cc: compute", "src/cpu/interpolation/hermite-1d.cc", "src/cpu/interpolation/hermite-2d.cc", "src/cpu/interpolation/hermite-3d.cc"]}
{"id": "C74", "title": "A step interpolates on the cell that contains the departure point", "statement": "With at least two ghost layers and small steps, the value a step of the application gives an interior node is the Hermite interpolant of the old level set on the mesh cell that contains the departure point of the node.", "quantifier": "for every supported two-dimensional grid with padding at least 2, initial level set, centre of rotation and time step within the bound", "why_tests_cant": "The repository has no test of a step with padding above 1, and the shift by whole cells is hidden by data that a bicubic polynomial fits.", "anchors": ["src/cpu/grid.cc: generate, baseNodeId", "src/cpu/interpolation/hermite-1d.cc", "src/cpu/interpolation/hermite-2d.cc", "src/cpu/interpolation/hermite-3d.cc", "src/cpu/temporal-schemes/semi-lagrangian/euler.cc: compute", "applications/advection/main.cc: main"]}
{"id": "C75", "title": "The reader of the reference output shows every frame", "statement": "Run on the files of a run of the serial or the OpenMP program, Readfiles.m gets the axes of the grid, and for each frame that was written, and no other, its six fields and its time.", "quantifier": "for every valid setting, velocity, initial functions, number of steps and print step", "why_tests_cant": "The number of frames depends on the remainder of the number of steps by the print step; a few settings do not show it.", "anchors": ["src/reference/Readfiles.m", "src/reference/Allocation.h: fileprint", "src/reference/SerialCode/GALS_Advection.cpp: main"]}
{"id": "C76", "title": "The reader of the library's output draws the cells of the grid", "statement": "For a two-dimensional array written by the library, Visualize.m draws the surface over the mesh of cells: entries of its matrices that are next to each other are cells next to each other, with the position and the value of the cell. For the velocity that the application writes it draws one arrow per interior cell, with position and velocity.", "quantifier": "for every supported two-dimensional grid and array contents", "why_tests_cant": "There are no tests of the script; the order of the cells matters only on grids that are not square.", "anchors": ["tools/octave/Visualize.m", "include/gals/utilities/array.h: operator<<", "applications/advection/main.cc: main"]}
{"id": "C77", "title": "Hermite interpolation of a smooth function is fourth order accurate", "statement": "If the values, gradients and mixed derivatives at the nodes are those of a smooth function, the interpolated value differs from the function by at most a constant times the fourth power of the spacing, and the interpolated gradient from its gradient by at most a constant times the third power; the constants are explicit in bounds for its fourth derivatives. This holds in one, two and three dimensions in the library (one ghost layer, the default) and for hp, hermx and hermy in the reference code.", "quantifier": "for every supported grid with one ghost layer, every spacing, every smooth function with bounded derivatives, and every point between stored nodes", "why_tests_cant": "Tests compare at a few points of one function with a tolerance; an error of the formulas that vanishes for that function or is small on that grid is not seen.", "anchors": ["src/cpu/interpolation: Hermite::compute", "src/reference/Hermite.h: hp, hermx, hermy"]}
{"id": "C78", "title": "Departure points are fourth order accurate in a time step", "statement": "For a smooth bounded velocity the departure point that a program stores for a node differs from the place where the particle that arrives at the node was one time step earlier by at most (K dt)^4 with RK3 and (K dt)^2/2 with Euler, where K bounds the velocity and its derivatives up to order three. The vortex has such a K and its particles have paths over all times.", "quantifier": "for every velocity three times differentiable with bounded derivatives, every time step, step number, node and particle path, under every schedule; OpenMP, MPI and CUDA versions at all nodes, serial version outside the last row and column", "why_tests_cant": "A run shows the error of all parts together; a weight or a stage time that is slightly wrong lowers the order without a visible change on one grid.", "anchors": ["src/reference/AdvectionPointCalcs.h", "src/reference/CUDA/AdvectionPointCalcsCUDA.cu", "src/reference/VortexVelocity.h"]}
{"id": "C79", "title": "A time step carries the level set along the flow up to fourth order", "statement": "When the fields before a step are values and derivatives of a smooth function, the new level set value at a node differs from the function at the place where the particle that arrives at the node was one time step earlier by at most the interpolation error (fourth order in dx and dy) plus 2 L times the error of the departure point (fourth order in dt with RK3). In the vortex on the unit square with dt at most 1/40 this holds at all nodes, with constants that do not depend on the grid, also for the first step from the initial circle.", "quantifier": "for every smooth Lipschitz function, smooth bounded velocity, grid, time step and step number, for the serial program, the OpenMP program with one thread and under every schedule of its loops", "why_tests_cant": "The exact solution of the vortex is not known in closed form, and a run compares only with itself after a whole period; a wrong cell or weight at few nodes disappears in an average.", "anchors": ["src/reference/AdvectionPointCalcs.h", "src/reference/VortexVelocity.h", "src/reference/InitializeLevelSet.h", "src/reference/SerialCode/GALS_Advection.cpp"]}
{"id": "C80", "title": "The vortex test ends where it began", "statement": "In the coded vortex every particle runs its path back in the second half of T_period and is at the end where it was at the beginning; no particle crosses a wall of the unit square and those on the walls do not move. Hence, with Tfinal = T_period, the exact level set after the last step is the initial one at every node.", "quantifier": "for every period, particle path, initial function, grid and time step that divides the period", "why_tests_cant": "The test judges the programs by the difference between last and first frame; that the exact difference is zero is an assumption of the test which no run of the programs checks.", "anchors": ["src/reference/VortexVelocity.h", "src/reference/Setting.h"]}
{"id": "C81", "title": "A time step carries the gradient along the flow up to third order", "statement": "With the SuperConsistent scheme, when the fields before a step are values and derivatives of a smooth function, the new gradient at a node that departs inside the domain differs from the gradient, with respect to the node, of the function at the departure point by at most (1 + z + z^2/2 + z^3/6) times the interpolation error of the gradient (third order in dx and dy), where z is dt times a bound of the velocity gradient. In the vortex on the unit square with dt at most 1/40 this holds at all nodes that are not on a wall.", "quantifier": "for every smooth function, differentiable velocity with bounded gradients, grid, time step and step number, for the serial program, the OpenMP program with one thread and under every schedule of its loops", "why_tests_cant": "The gradient enters the next step only through the interpolant; a wrong factor in the Jacobian lowers the order but leaves plausible pictures.", "anchors": ["src/reference/AdvectionPointCalcs.h", "src/reference/TimeSteppingMethods.h", "src/reference/VortexVelocity.h"]}
{"id": "C82", "title": "The level set and its gradient follow the flow at the walls", "statement": "In the vortex on the unit square the value and the gradient that the programs store at the nodes of the walls are those of the initial function carried along the flow.", "quantifier": "for every initial function, grid, time step and number of steps, serial and OpenMP program", "why_tests_cant": "The circle of the test stays away from the walls and the run is judged after a whole period, when the exact gradient at the walls has returned to its initial value.", "anchors": ["src/reference/AdvectionPointCalcs.h", "src/reference/TimeSteppingMethods.h", "src/reference/VortexVelocity.h"]}
{"id": "C83", "title": "The reference programs stay inside their arrays in double arithmetic", "statement": "In IEEE double arithmetic, with rounding, infinities and NaN, a run of the serial or OpenMP program never reads or writes outside an array or an uninitialised element: the cell found for a departure point always has a right and an upper neighbour.", "quantifier": "for every domain, numbers of nodes, time step, scheme, velocity, initial data and number of steps, and every number of threads and schedule", "why_tests_cant": "Whether a number lies between the last stored node and the limit depends on the rounding of each domain and node count; a departure point has to fall into a gap of one or two last places, and the read beyond the row then usually returns some number.", "anchors": ["src/reference/Allocation.h", "src/reference/AdvectionPointCalcs.h", "src/reference/SerialCode/GALS_Advection.cpp", "src/reference/GALS_Advection_OpenMP.cpp"]}
{"id": "C84", "title": "The reference programs take Tfinal/dt steps", "statement": "When Tfinal is a whole number of time steps, the programs take that number of steps; in any case the number of steps is the quotient of the two doubles rounded down or up to an integer.", "quantifier": "for all doubles Tfinal >= 0 and dt > 0 whose quotient fits unsigned int", "why_tests_cant": "The default times are powers of two and divide exactly; decimal times lose a step depending on the rounding of the quotient.", "anchors": ["src/reference/SerialCode/GALS_Advection.cpp", "src/reference/GALS_Advection_OpenMP.cpp"]}
{"id": "C85", "title": "Base node and interpolation of the library in double arithmetic", "statement": "In IEEE double arithmetic the base node of a point is the cell whose centre is the last one not beyond the point, in particular every stored node is its own base node; the base node of a point of the closed box and its neighbours are stored, and interpolation there never reads outside an array or converts an unrepresentable number.", "quantifier": "for every dimension, grid, padding of at least one cell, box with finite corners and widths between 2^-900 and 2^900, level set data of any kind (infinities and NaN included) and point of the box", "why_tests_cant": "Whether the rounded coordinate of a node falls below the integer depends on box and number of cells; tests use a few boxes and compare interpolated values with a tolerance that hides the wrong cell.", "anchors": ["src/cpu/grid.cc", "include/gals/cpu/interpolation/hermite.h", "src/cpu/interpolation/hermite-1d.cc", "src/cpu/interpolation/hermite-2d.cc", "src/cpu/interpolation/hermite-3d.cc"]}
{"id": "C86", "title": "A semi-Lagrangian step of the library in double arithmetic", "statement": "In IEEE double arithmetic a semi-Lagrangian step never reads outside the storage when the fluid moves by less than a cell per step, whatever the level set data; in a fluid at rest it leaves the values unchanged and does not use ghost cells.", "quantifier": "for every dimension, grid with padding between one cell and the number of cells, box with finite corners whose nodes are well separated as doubles, finite velocity and time step, and level set data of any kind (infinities and NaN included)", "why_tests_cant": "Departure points near stored nodes depend on the last bits of box, number of cells and velocity; the wrong cell changes values only in the last place unless ghost data is far off.", "anchors": ["src/cpu/temporal-schemes/semi-lagrangian/euler.cc", "src/cpu/grid.cc", "src/cpu/temporal.cc", "src/cpu/interpolation/hermite-1d.cc", "src/cpu/interpolation/hermite-2d.cc", "src/cpu/interpolation/hermite-3d.cc"]}
{"id": "C87", "title": "The advection loop counts its steps correctly in double arithmetic", "statement": "In IEEE double arithmetic the time loop ends, and after exactly the number of steps max(1, ceil((t_end - 1e-10)/dt)) of the exact values; in particular after n steps if t_end is n steps.", "quantifier": "for all doubles dt > 0 and t_end, whatever the steps do", "why_tests_cant": "Accumulated rounding over many steps, and loops that never end, depend on the magnitudes of step and end time.", "anchors": ["applications/advection/main.cc: main", "include/gals/utilities/utilities.h: is_equal"]}
{"id": "C88", "title": "The advection application in double arithmetic", "statement": "In IEEE double arithmetic, with enough ghost layers and a rotation that moves less than a cell per step, the whole application runs without undefined behaviour: it prepares its fields, makes exactly the number of steps of the exact count, ends at the end time up to accumulated rounding, and writes a file with one line per interior cell in order, whose velocities are the rotation up to a small part of a cell per step.", "quantifier": "for every grid with padding at least two and at most the number of cells, box with finite corners whose nodes are well separated as doubles, centre, finite time step and end time within range, and initial level set", "why_tests_cant": "Safety of every read in every step depends on accumulated rounding of times, positions and velocities, for all sizes and all input numbers; a run shows one of them.", "anchors": ["applications/advection/main.cc: main", "src/cpu/analytical-fields/velocity.cc", "src/cpu/temporal-schemes/semi-lagrangian/euler.cc", "src/cpu/gradient.cc", "include/gals/utilities/utilities.h: is_equal"]}
{"id": "C89", "title": "Rounding error of the Hermite interpolation", "statement": "In IEEE double arithmetic the interpolation of the library returns finite numbers, and they differ from the value and the gradient of the exact Hermite spline through the stored data (values, gradients and mixed derivatives) at the point by at most 2^(8+3d) K M 2^-52, respectively 2^(10+3d) K M 2^-52 per cell width: M is the largest stored datum with derivatives multiplied by cell widths, and K the number of cells along an axis times the distance of the box from the origin in sides. In particular a base node that is one cell off by rounding does no harm to value and gradient.", "quantifier": "for every dimension 1 to 3, every grid with padding 1 and K at most 2^28, box with sides and data between 2^-300 and 2^300, every point within half a cell of the box, and all stored level set data", "why_tests_cant": "An error bound for all data, points and grid sizes needs a bound of every rounding of up to 64 basis products; a test compares one point with a tolerance.", "anchors": ["src/cpu/interpolation/hermite-1d.cc", "src/cpu/interpolation/hermite-2d.cc", "src/cpu/interpolation/hermite-3d.cc", "include/gals/utilities/grid.h: baseNodeId"]}
{"id": "C90", "title": "Rounding error of a semi-Lagrangian step", "statement": "In IEEE double arithmetic a semi-Lagrangian step of the library returns, and leaves in every interior cell a finite value and gradient: the value of the exact Hermite spline through the previous data at the exact departure point up to 2^(9+3d) K M 2^-52, and its gradient multiplied by the Jacobian of the departure map up to 2^(13+3d) K M 2^-52 per cell width (K, M as in C89). In particular a fluid at rest keeps values and gradients up to these errors.", "quantifier": "for every dimension 1 to 3, every grid with padding 1 and K at most 2^28, box with sides and data between 2^-300 and 2^300, finite time step, every velocity field whose departure points stay within half a cell of the box (any number of cells away), every velocity gradient that changes displacements by at most a cell per cell, and all previous data", "why_tests_cant": "The bound covers the accumulated roundings of positions, departure points, base nodes, basis functions and matrix products for all data; a test sees single numbers within a tolerance chosen by hand.", "anchors": ["src/cpu/temporal-schemes/semi-lagrangian/euler.cc", "src/cpu/interpolation/hermite-1d.cc", "src/cpu/interpolation/hermite-2d.cc", "src/cpu/interpolation/hermite-3d.cc", "src/cpu/mat3.cc: dot"]}
{"id": "C91", "title": "MPI program on any number of ranks", "statement": "Started on any number of ranks the MPI version of the reference code ends, and every output file then holds the initial frame followed by exactly the frames of the steps that are multiples of the print step, in order, as with two ranks.", "quantifier": "for every number of ranks, every interleaving of messages and file operations of the ranks, whether or not the library buffers messages, every grid, velocity field, number of steps, print step and previous content of the files", "why_tests_cant": "Which rank removes a file last, and whether a send blocks, depend on timing, message size and the MPI library; a test sees one schedule on one number of ranks.", "anchors": ["src/reference/GALS_Advection_MPI.cpp: main", "src/reference/GALS_Advection_MPI_OpenMP.cpp: main", "src/reference/defineMPI.h: context", "src/reference/Allocation.h: fileprint"]}
{"id": "C92", "title": "Number of threads from the command line", "statement": "The OpenMP programs of the reference code ask for exactly the number of threads given as their argument, and refuse a call whose argument is missing or is not the decimal numeral of a positive int.", "quantifier": "for every command line", "why_tests_cant": "The command line is unbounded; overflow of the conversion and missing arguments are seldom tried.", "anchors": ["src/reference/GALS_Advection_OpenMP.cpp: main", "src/reference/GALS_Advection_MPI_OpenMP.cpp: main"]}
{"id": "C93", "title": "Finite-difference gradients of smooth functions are second and third order accurate", "statement": "If the stored values are those of a smooth function at the nodes, the components of the gradient at interior nodes differ from the partial derivatives by at most B h^2 / 6 (central scheme, B bounds the third derivatives along the axes) respectively B h^3 / 12 (third-order scheme, fourth derivatives); the same for the diagonal entries of the gradient of a vector field. The constants are best possible: on every grid there is a field for which they are attained.", "quantifier": "for every dimension 1 to 3, every grid with enough ghost layers (1 and 2), every function with continuous derivatives, all positions", "why_tests_cant": "An error bound over all smooth functions and spacings is a statement about a limit; tests compare one function on a few grids.", "anchors": ["src/cpu/gradient/second-order-central.cc", "src/cpu/gradient/third-order.cc"]}
{"id": "C94", "title": "Rounding error of the finite-difference gradients", "statement": "In IEEE double arithmetic the gradient of finite data consists of finite numbers that differ from the difference quotients of the data, with the exact cell width h, by at most 9 M 2^-52 / h (central scheme) respectively 48 M 2^-52 / h (third-order scheme), M the largest datum; the same for all entries of the gradient of a vector field. For data within e of a smooth function at the exact nodes the total error is at most that of C93 plus e / h respectively 2 e / h plus the rounding error.", "quantifier": "for every dimension 1 to 3, every grid with enough ghost layers and at most 2^28 cells per axis, sides of the box and data between 2^-300 and 2^300, all data", "why_tests_cant": "The bound covers every combination of roundings in width, reciprocal, products and cancellation; a test sees single numbers within a tolerance chosen by hand.", "anchors": ["src/cpu/gradient/second-order-central.cc", "src/cpu/gradient/third-order.cc", "src/cpu/grid.cc: generate"]}
{"id": "C95", "title": "A semi-Lagrangian step follows the level-set equation", "statement": "If the data before a step are the values, gradients and mixed derivatives of a solution f of the level-set equation f_t + u . grad f = 0 at time t, then after one step of length tau every interior node holds f(x, t + tau) up to E + B tau^2 and its gradient up to (1 + d W tau) E' + (B' + d W L) tau^2. E (of order h^4) and E' (of order h^3) are the interpolation errors of C77, B and B' bound the second derivatives of f and of its gradient in time and along the departure line, L the derivative of the gradient along that line and W the velocity gradient.", "quantifier": "for every dimension 1 to 3, every grid with one ghost layer, every three times continuously differentiable solution and every velocity differentiable at the nodes, every time step for which the departure points stay within the stored nodes", "why_tests_cant": "The tests compare a step with polynomials that the scheme reproduces exactly; that the scheme is consistent with the differential equation to second order in the time step, for value and gradient, is a statement about all smooth solutions.", "anchors": ["src/cpu/temporal-schemes/semi-lagrangian/euler.cc", "src/cpu/interpolation/hermite-1d.cc", "src/cpu/interpolation/hermite-2d.cc", "src/cpu/interpolation/hermite-3d.cc"]}
{"id": "C96", "title": "Interpolation and step in double arithmetic follow smooth functions and the level-set equation", "statement": "If the stored doubles are the values, gradients and mixed derivatives of a smooth function up to e (derivatives times cell widths), then the interpolation computed in IEEE double arithmetic consists of finite numbers that differ from the function by at most E + (5/4)^d e + 2^(8+3d) K M 2^-52 and from its gradient by E' + (4 (5/4)^(d-1) e + 2^(10+3d) K M 2^-52) / h, with the interpolation errors E, E' of C77. If the function is a solution of the level-set equation, one semi-Lagrangian step gives its values at the next time up to E + (5/4)^d e + B tau^2 + 2^(9+3d) K M 2^-52 and its gradients up to (1 + d W tau) E' + (B' + d W L) tau^2 + (4 (d+1) (5/4)^(d-1) e + 2^(13+3d) K M 2^-52) / h.", "quantifier": "for every dimension 1 to 3, every grid with one ghost layer and at most 2^28 cells per axis relative to its distance from the origin, data M and box sides between 2^-300 and 2^300, every smooth solution, velocities at the nodes that are doubles, all time steps for which the departure points stay within half a cell of the box", "why_tests_cant": "The bound joins the discretisation errors of all smooth solutions with every combination of roundings; tests see single numbers within a tolerance chosen by hand.", "anchors": ["src/cpu/temporal-schemes/semi-lagrangian/euler.cc", "src/cpu/interpolation/hermite-1d.cc", "src/cpu/interpolation/hermite-2d.cc", "src/cpu/interpolation/hermite-3d.cc", "src/cpu/grid.cc"]}
{"id": "C97", "title": "In uniform flow on a line a step does not add bending energy", "statement": "After a semi-Lagrangian step in a flow with the same velocity at every interior node, the piecewise cubic through the interior values and gradients has at most the bending energy (integral of the squared second derivative) that the piecewise cubic through all stored values and gradients had before; so steps are stable in this norm, for every Courant number the storage allows. Over the stored nodes including ghosts this fails: ghost nodes are not written by a step, and straight-line data acquire energy in every step with a displacement other than zero.", "quantifier": "for every one-dimensional grid with one ghost layer, all data, every velocity and time step for which the departure points stay within the stored nodes; the second part for every such grid and every displacement of less than a cell", "why_tests_cant": "An energy inequality for all data is a statement about infinitely many inputs; tests compare single steps on polynomials, for which the energy is unchanged.", "anchors": ["src/cpu/temporal-schemes/semi-lagrangian/euler.cc", "src/cpu/interpolation/hermite-1d.cc"]}
{"id": "C98", "title": "Linear interpolation is second order accurate, also in doubles", "statement": "Linear interpolation of the nodal values of a function with second derivative at most M is off by at most M h^2/8 with one ghost layer, and this is attained; with p >= 2 ghost layers the pair of nodes used lies p - 1 cells to the right of the point, and the bound becomes p (p - 1) M h^2/2. In double arithmetic with one ghost layer the result is finite and within M h^2/8 plus the error of the stored values plus a rounding term of 2^9 K times the largest value times 2^-52 of the function, where K measures the resolution of the box.", "quantifier": "for every one-dimensional grid, every twice continuously differentiable function, every point between stored nodes; in doubles every point whose distance from the ends of the storage is at least 2^-16 cell widths", "why_tests_cant": "An error bound for all functions and points cannot be sampled; the tests interpolate linear data, for which the error vanishes for every padding.", "anchors": ["src/cpu/interpolation/linear-1d.cc", "include/gals/cpu/interpolation/linear.h"]}
{"id": "C99", "title": "A step of the application is exact for quadratic level sets", "statement": "Away from the boundary of the grid, a step of the advection application maps a level set that is a quadratic polynomial at the nodes to the values of this polynomial at the departure points.", "quantifier": "for every two-dimensional grid with at least two ghost layers (with one the application leaves its storage), every centre of rotation, every time step that moves no node by a cell or more, every quadratic polynomial, every cell all of whose data come from interior cells", "why_tests_cant": "The application has no test; exactness for a class of functions on all grids cannot be sampled.", "anchors": ["applications/advection/main.cc", "src/cpu/interpolation/hermite-2d.cc", "src/cpu/gradient/third-order.cc", "src/cpu/temporal-schemes/semi-lagrangian/euler.cc"]}
{"id": "C100", "title": "Readfiles shows what the reference programs computed, to ten decimals", "statement": "The text of the output files (numbers with ten fixed decimals, commas, ends of line) is read by Readfiles.m without error, in the order of rows, columns and frames, each number being the one computed rounded to ten decimals (infinities and NaN unchanged): the error is at most half of 10^-10 plus the rounding of the conversion, numbers with at most ten decimals come back exactly, no order and no sign is inverted, and exactly the numbers below 5e-11 in magnitude become zero, so that the files do not determine the sign of the level set. Two records in details.txt, as two processes write them, run together and make the reader show the first frame alone.", "quantifier": "for every program with this main function that ends in double arithmetic, every velocity, initial data and setting with less than 2^31 nodes and steps and a print step that divides the number of steps; the statements on numbers for every pair of doubles", "why_tests_cant": "There is no test of the output; the round trip through text for all doubles and all grids cannot be sampled.", "anchors": ["src/reference/Allocation.h", "src/reference/SerialCode/GALS_Advection.cpp", "src/reference/GALS_Advection_MPI_OpenMP.cpp", "src/reference/Readfiles.m"]}
{"id": "C101", "title": "Visualize shows the arrays the library wrote, to six significant digits", "statement": "The text of a file with an array (position and value in each line, default format of a stream) is read by Visualize.m without error and gives the same columns with each number replaced by one that depends on it alone and is the double nearest to the decimal number of six digits nearest to it; NaN, infinities and zeros are unchanged. Finite numbers stay finite, the relative error is at most 5.1e-6, numbers with at most six digits come back exactly, signs are kept, order is not inverted, positive numbers more than 1.02 units of the sixth digit apart stay different. Numbers closer than half a unit of the sixth digit to the same decimal have the same text, so that the file does not determine the positions of the cells.", "quantifier": "for every list of lines of scalars or vectors in double arithmetic, and for every pair of doubles (relative error and distance from 2^-1000 on)", "why_tests_cant": "There is no test that reads a file back; a test with a box of size one sees all positions different.", "anchors": ["include/gals/utilities/array.h", "include/gals/utilities/vec3.h", "src/cpu/file-utils.cc", "tools/octave/Visualize.m"]}
{"id": "C102", "title": "Repeated semi-Lagrangian steps in uniform flow on a line converge to the exact solution", "statement": "On a line with padding 1, in a uniform flow w with |w tau| < h, let phi and psi hold a twice differentiable function u (second derivative at most M) and its derivative at the stored nodes. Then k steps (copy phi, psi to the previous generation, semi-Lagrangian Euler step) all return, and at every interior node with at least k-1 interior nodes upstream of it the value differs from u(x - k w tau) by at most k M h^2 / 13; at a fixed time and Courant number this is first order in h. Nodes nearer to the inflow end are excluded: they depend on ghost cells that no step writes, and are wrong from the second step on.", "quantifier": "every line grid with padding 1, every velocity and time step with |w tau| < h, every twice differentiable u with bounded second derivative, every number of steps, every node", "why_tests_cant": "It is a bound for all numbers of steps and all functions; errors that accumulate from step to step only show as a growth rate.", "anchors": ["src/cpu/temporal-schemes/semi-lagrangian/euler.cc", "src/cpu/interpolation/hermite-1d.cc", "applications/advection/main.cc"]}
{"id": "C103", "title": "Steps that recompute the gradient amplify noise", "statement": "On a line with padding 2, in a uniform flow to the left of less than a cell per step or at rest, let two level sets differ by epsilon times the sign that alternates from node to node. After k steps as the application makes them (third-order gradient of phi, copies to the previous generation, semi-Lagrangian Euler step) they differ, at nodes whose data came only from stored nodes of the start, by exactly epsilon times L^k times that sign, with L = 4 y^3 + 22/3 y^2 + 4/3 y - 1 and y = 1 + w tau / h. For displacements of at most half a cell L is at least 2; at rest it is 35/3. So the steps are not stable: 40 steps turn a difference of 2^-40 into one of at least 1.", "quantifier": "every line grid with padding 2, every velocity with -h < w tau <= 0, every pair of level sets with such a difference, every number of steps, every node whose data came only from stored nodes", "why_tests_cant": "A test of one step on smooth data sees an exact or accurate result; the growth needs many steps, and a test of a run would have to be compared with an exact solution.", "anchors": ["applications/advection/main.cc", "src/cpu/gradient/third-order.cc", "src/cpu/interpolation/hermite-1d.cc", "src/cpu/temporal-schemes/semi-lagrangian/euler.cc"]}
{"id": "C104", "title": "For smooth level sets repeated steps on a line are of second order", "statement": "On a line with padding 1, in a uniform flow of less than a cell per step, let the level set hold the values and derivatives of a four times continuously differentiable function u whose fourth derivative is at most M. After k semi-Lagrangian Euler steps that carry the gradient along, at each interior node whose data came only from stored nodes of the start, the value differs from u(x - k w tau) by at most k^2 M h^4 / 27 and the gradient from the derivative of u there by at most k^2 M h^3 / 4. For steps of at least l cells this is an error of at most (w T)^2 M h^2 / (27 l^2) in the value and (w T)^2 M h / (4 l^2) in the gradient after the time T.", "quantifier": "every line grid with padding 1, every uniform velocity with |w tau| < h, every such function, every number of steps, every interior node whose data came only from stored nodes", "why_tests_cant": "A test measures the error for one function, one grid and one number of steps; an order of convergence is a statement about all of them.", "anchors": ["src/cpu/temporal-schemes/semi-lagrangian/euler.cc", "src/cpu/interpolation/hermite-1d.cc", "applications/advection/main.cc"]}
{"id": "C105", "title": "Repeated steps of doubles on a line are of second order up to rounding", "statement": "On a line with padding 1, in a uniform flow of at least 2^-15 and at most 1 - 2^-15 cells per step, let the level set hold doubles that are the values and derivatives (times the cell width h) of a four times continuously differentiable function u, with fourth derivative at most Q, up to e. Then k semi-Lagrangian Euler steps that carry the gradient along return. At each interior node whose data came only from stored nodes of the start the resulting doubles are finite; the value differs from u(x - k w tau) by at most e + k^2 (Q h^4 / 18 + 4 r) and h times the gradient from h times the derivative by at most e + k^2 (Q h^4 / 2 + 15 r), where r = e + 2^16 K M / 2^52, K is the number of cells times the ratio of the largest coordinate to the side of the box and M bounds the data plus these errors. So rounding errors grow at most like k^2 and never become infinities or NaNs, whatever is stored in the other cells.", "quantifier": "every line grid of doubles with padding 1 and moderate sides, every uniform velocity of that size, every such function and tolerance, every number of steps, every interior node whose data came only from stored nodes", "why_tests_cant": "A test runs one function on one grid; how rounding errors of earlier steps are carried on by all later ones is a statement about all sequences of roundings.", "anchors": ["src/cpu/temporal-schemes/semi-lagrangian/euler.cc", "src/cpu/interpolation/hermite-1d.cc", "applications/advection/main.cc"]}
{"id": "C106", "title": "Without mixed derivatives steps in a plane are of first order only", "statement": "On a plane grid with padding 1, in a uniform flow u of less than a cell per step along each axis, let the level set hold the values and derivatives of p(x) + q(y) + m x y with cubics p and q, and the number mu as mixed derivative at all nodes (0 as constructed; no code of the library writes mixed derivatives). After k semi-Lagrangian Euler steps that carry the gradient along, at each interior node whose data came only from stored nodes of the start, the value is the translated polynomial minus (m - mu) h_x h_y S(s) S(w) times the sum over j < k of 1 + X + ... + X^j + Y + ... + Y^j (powers from the first on), where s and w are the local coordinates of the departure point, S(s) = s (1 - s) (1 - 2 s), X = 1 - 6 s (1 - s) and Y the same for w; the gradient has similar errors. With mu = m the steps are exact. Otherwise the error grows in proportion to k: by at most |m - mu| (|u_x tau| h_y + |u_y tau| h_x) / 6 per step and, for steps of at most a fifth of a cell, by at least 144/625 |m - mu| |u_x tau| |u_y tau|.", "quantifier": "every plane grid with padding 1, every uniform velocity and time step with |u_a tau| < h_a, all cubics p and q, all numbers m and mu, every number of steps, every interior node whose data came only from stored nodes", "why_tests_cant": "A run shows one error; that it is of first order for every grid, and due to the missing mixed derivatives alone, is a statement about all of them.", "anchors": ["src/cpu/temporal-schemes/semi-lagrangian/euler.cc", "src/cpu/interpolation/hermite-2d.cc", "src/cpu/levelset.cc", "applications/advection/main.cc"]}
{"id": "C107", "title": "Any number of steps on a line stay bounded up to the inflow", "statement": "On a line of n interior nodes with padding 1, in a uniform flow of less than a cell per step, let the spline through the stored values and slopes from the ghost node at the inflow to the last interior node have bending energy (integral of the squared second derivative) at most X^2 h. Any number k of semi-Lagrangian Euler steps that carry the gradient along returns. The ghost node keeps its value v and slope s. With Y = X + k (7/2) (|w tau| / h) |s| / h the bending energy is at most Y^2 h, the slope at the interior node number i from the inflow is within sqrt(i+1) h Y of s, and its value within 2 (i+1)^(3/2) h^2 Y of the line through the ghost node. In particular, if the ghost node has slope 0, values and slopes are bounded by the same number after any number of steps.", "quantifier": "every line with padding 1, every uniform velocity and time step with 0 < |w tau| < h (either direction), all stored values and slopes, every number of steps, every interior node", "why_tests_cant": "Growth may show only after many steps or for particular data; the claim is about all data and all numbers of steps.", "anchors": ["src/cpu/temporal-schemes/semi-lagrangian/euler.cc", "src/cpu/interpolation/hermite-1d.cc", "src/cpu/levelset.cc", "applications/advection/main.cc"]}
{"id": "C108", "title": "Long runs on a line converge to data of the ghost cell at the inflow", "statement": "On a line with padding 1, in a uniform flow of less than a cell per step (D = |w tau| / h, 0 < D < 1), every number of semi-Lagrangian Euler steps that carry the gradient along returns, and as the number of steps grows the values and slopes at all interior nodes converge, whatever the level set at the start. With the value v and the slope s of the ghost node at the inflow and rho = D^2 / (6 - 6 D + D^2), the slope at the interior node number i from the inflow tends to s rho^(i+1) and the value to v + s h (2 - D)/6 (1 - rho^(i+1)) (minus for flow to the left). Hence for phi = x, whose exact values x - k w tau are unbounded, the error grows beyond every bound at every interior node.", "quantifier": "every line with padding 1, every uniform velocity and time step with 0 < |w tau| < h (either direction), all stored values and slopes, every interior node", "why_tests_cant": "It is about the limit of infinitely many steps, for all data at the start.", "anchors": ["src/cpu/temporal-schemes/semi-lagrangian/euler.cc", "src/cpu/interpolation/hermite-1d.cc", "src/cpu/levelset.cc", "applications/advection/main.cc"]}
{"id": "C109", "title": "Many steps of doubles on a line stay finite and bounded up to the inflow", "statement": "On a line of n interior nodes with padding 1, in a uniform flow of at least 2^-15 and at most 1 - 2^-15 cells per step, let the doubles from the ghost node at the inflow (value v, slope s) to the last interior node be finite and the spline through them have bending energy at most X^2 h. Let M, neither extremely small nor large, be at least |v| + n h |s| + 2 n^(3/2) h^2 (X + k (7/2) (|w tau|/h) |s|/h) + 9 k n^2 e with e = 2^16 K M / 2^52. Then k semi-Lagrangian Euler steps that carry the gradient along return, all doubles at all interior nodes are finite, the ghost node is unchanged, and with Y = X + k ((7/2) (|w tau|/h) |s|/h + (9/2) sqrt(n) e/h^2) the energy is at most Y^2 h, the slope at the interior node number i from the inflow is within sqrt(i+1) h Y of s and the value within 2 (i+1)^(3/2) h^2 Y of the line through the ghost node. In particular, if B bounds these data in exact arithmetic, doubles are at most 2 B as long as k n^2 K <= 2^31, where K is n times the ratio of the largest coordinate to the side of the box.", "quantifier": "every line with padding 1 and at most 2^28 cells relative to its coordinates, every uniform velocity and time step in the stated range (either direction), all finite stored values and slopes, every number of steps within the bound, every interior node", "why_tests_cant": "Rounding errors of millions of steps feed back through the interpolation; a test sees single runs, the claim is that no start and no number of steps within the bound makes them grow or overflow.", "anchors": ["src/cpu/temporal-schemes/semi-lagrangian/euler.cc", "src/cpu/interpolation/hermite-1d.cc", "src/cpu/levelset.cc", "applications/advection/main.cc"]}
{"id": "C110", "title": "Gradient limiting in doubles keeps the interpolant between the node values", "statement": "On a line with padding 1, let the stored values and slopes be finite doubles, at most M when slopes are multiplied by the width h of a cell. Limited Hermite interpolation at a point of the box (or up to almost half a cell outside) returns and uses two neighbouring nodes around the point. If the slopes at these nodes have the sign of the difference D of the node values and either both are at most three times as steep as the chord or one is less steep than the chord (for which exact arithmetic does not overshoot, C19), the result in double arithmetic is finite and between the two node values up to 2^12 K M / 2^52.", "quantifier": "every line with padding 1 and at most 2^28 cells relative to its coordinates, every point, all finite stored values and slopes", "why_tests_cant": "Whether rounding flips a branch of the limiter depends on the last bits of the data; random tests do not hit slopes equal to the chord slope, where one flip turns a bounded result into one of arbitrary size.", "anchors": ["include/gals/cpu/interpolation/hermite.h: get_control_points"]}
{"id": "C111", "title": "Inside and outside are treated alike, bit for bit", "statement": "If all stored values, gradients and mixed derivatives of two level sets are opposite doubles (equal up to the sign; the sign of zero does not count), then Hermite interpolation at any point (with and without gradient limiting), the gradients of both orders, a semi-Lagrangian step and a whole run of the time loop of the application return opposite results bit for bit, or stop with the same fault, after the same number of steps. In exact arithmetic the same holds for multiplication of the data by any nonzero number, i.e. a change of units. Explicit Euler does not have this symmetry.", "quantifier": "all grids of dimension 1 to 3, all stored data including NaN and infinities, all velocities, points, time steps and numbers of steps", "why_tests_cant": "The limiter compares rounded products; that no rounding or branch distinguishes the two signs is a statement about all pairs of data, and a test that finds equal norms does not show equality of bits.", "anchors": ["include/gals/cpu/interpolation/hermite.h", "src/cpu/gradient/third-order.cc", "src/cpu/temporal-schemes/semi-lagrangian/euler.cc", "src/cpu/temporal-schemes/euler.cc", "applications/advection/main.cc"]}
{"id": "C112", "title": "The reference programs treat inside and outside alike, bit for bit", "statement": "If two initial level sets (values, both gradients, mixed derivative) are opposite doubles at every point, up to the sign of zero and with NaN and infinities included, then in each of the reference programs both runs stop with the same fault or both end, the stored level sets and the printed numbers are opposite in the same sense, and grids, departure points, cells, messages between ranks and the files of the velocity are equal. This holds for every interleaving of OpenMP threads (races included), of CUDA threads, and of the two MPI ranks: each execution with the one level set has a partner with the other. In exact arithmetic the same holds for multiples by any number.", "quantifier": "all settings, all velocity functions on doubles, all initial level sets, all numbers of steps, all interleavings; for whole runs of the CUDA program all grids with an even number of nodes", "why_tests_cant": "A test compares some runs under some schedules; that no rounding, branch or race anywhere distinguishes the two signs is a statement about all data and all interleavings.", "anchors": ["src/reference/AdvectionPointCalcs.h", "src/reference/Hermite.h", "src/reference/TimeSteppingMethods.h", "src/reference/SerialCode/GALS_Advection.cpp", "src/reference/OldSerialCode/GALS_Advection.cpp", "src/reference/GALS_Advection_OpenMP.cpp", "src/reference/GALS_Advection_MPI.cpp", "src/reference/GALS_Advection_MPI_OpenMP.cpp", "src/reference/CUDA/AdvectionPointCalcsCUDA.cu", "src/reference/CUDA/GALS_Advection.cu"]}
{"id": "C113", "title": "The level set never decides what the reference programs execute", "statement": "For any two initial level sets, of any values including NaN and infinities, each of the reference programs stops with the same fault or ends for both; the same locations are initialised, the files have numbers at the same places, and grids, departure points, cells, messages between ranks and the files of the velocity are equal; every interleaving of threads and ranks with the one has a partner with the other, and a CUDA step can fault with the one exactly when it can with the other. So whether a run is free of undefined behaviour depends only on settings and velocity.", "quantifier": "any arithmetic; all settings, velocities and pairs of initial level sets, all interleavings; for whole runs of the CUDA program all grids with an even number of nodes", "why_tests_cant": "Independence of control flow from data relates pairs of runs over all data; a test sees single runs.", "anchors": ["src/reference/AdvectionPointCalcs.h", "src/reference/Hermite.h", "src/reference/TimeSteppingMethods.h", "src/reference/SerialCode/GALS_Advection.cpp", "src/reference/OldSerialCode/GALS_Advection.cpp", "src/reference/GALS_Advection_OpenMP.cpp", "src/reference/GALS_Advection_MPI.cpp", "src/reference/GALS_Advection_MPI_OpenMP.cpp", "src/reference/CUDA/AdvectionPointCalcsCUDA.cu", "src/reference/CUDA/GALS_Advection.cu"]}
{"id": "C114", "title": "Data travel a bounded number of cells per step", "statement": "If the fluid moves less than a cell per step (in doubles: at most 1 - 2^-16 cells), the padding is at least 1 and two level sets agree in values, gradients and mixed derivatives in all stored cells of a window around a cell, then k steps of both return and leave the same value and gradient there, bit for bit, whatever the data elsewhere are (NaN and infinities included). With padding p the window is, along each axis, from k*min(0,p-2) to k*p cells away; with the gradient recomputed by the third-order differences as the application does (p at least 2), from k*min(0,p-4) to k*(p+1). For padding 1 and two steps the window of two cells on either side cannot be made smaller.", "quantifier": "all dimensions, grids, velocities within the bound, pairs of level sets, cells and numbers of steps; doubles and any ordered field", "why_tests_cant": "The claim relates pairs of runs that differ arbitrarily outside a window, for every number of steps; in doubles the location of the base node depends on rounding.", "anchors": ["src/cpu/temporal-schemes/semi-lagrangian/euler.cc", "src/cpu/interpolation/hermite-1d.cc", "src/cpu/interpolation/hermite-2d.cc", "src/cpu/interpolation/hermite-3d.cc", "src/cpu/gradient/third-order.cc", "src/cpu/grid.cc", "applications/advection/main.cc"]}
{"id": "C115", "title": "The level set decides nothing but the level set", "statement": "Over any arithmetic and for level sets of the same shape holding any values, interpolation (limited or not), gradients and both time steps stop with the same fault or both return; no branch, index or memory access of the time step depends on the level set. The time loop and the end of the application have the same outcomes (fault or files) whatever the level set holds, and two parameter files that differ only in centre, radius and gradient scheme of the level set have the same outcomes: the application writes nothing of the level set.", "quantifier": "all arithmetics (doubles included), dimensions, grids, velocities, pairs of level sets, parameter files and file systems", "why_tests_cant": "The claim relates all pairs of runs, and holds of values such as NaN and infinities that tests do not start from.", "anchors": ["applications/advection/main.cc", "src/cpu/temporal.cc", "src/cpu/temporal-schemes/euler.cc", "src/cpu/temporal-schemes/semi-lagrangian/euler.cc", "src/cpu/interpolation/hermite-1d.cc", "src/cpu/interpolation/hermite-2d.cc", "src/cpu/interpolation/hermite-3d.cc", "src/cpu/gradient/third-order.cc", "src/cpu/analytical-fields/levelset.cc"]}
{"id": "C116", "title": "The doubles of the model are those of IEEE 754", "statement": "For finite operands, the sum, difference, product and quotient by a non-zero number are what IEEE 754 prescribes under rounding to nearest: the magnitude nearest to the exact result among all magnitudes with 53 binary digits and an exponent of at least -1074, the one with last digit 0 if two are as near, an infinity of the right sign exactly if the exact result is at least 2^1024 - 2^970 in magnitude, and the prescribed sign, also of zero. Conversion of integers likewise. Comparisons compare the values. NaN spreads and compares with nothing, and infinities and division by zero give the prescribed results.", "quantifier": "all operands", "why_tests_cant": "There are 2^128 pairs of operands per operation. Every theorem about doubles rests on this arithmetic.", "anchors": ["src/reference/VariableDefinitions.h", "src/reference/Allocation.h", "src/reference/AdvectionPointCalcs.h", "src/reference/SerialCode/GALS_Advection.cpp"]}
{"id": "C117", "title": "The axes are treated alike", "statement": "In exact arithmetic, let a grid, level set, velocity and velocity gradient be given a second time with the axes in use renamed. Then the interpolation without limiter returns the same value and the same gradient but for the names of the axes, at every point among the stored nodes, and so does any number of time steps in which the fluid moves less than a cell, with the gradient carried along or recomputed as in the application, in all stored cells. With the limiter this is false: exchanging x and y changes the value. In doubles it is false bit for bit.", "quantifier": "one, two and three dimensions; all permutations of the axes in use; all grids, data, velocities, points, numbers of steps", "why_tests_cant": "The three-dimensional interpolation writes out 64 control points by hand from 8 nodes and 4 mixed derivatives; an exchange of two axes or mixed derivatives shows only for data without symmetry.", "anchors": ["src/cpu/interpolation/hermite-2d.cc", "src/cpu/interpolation/hermite-3d.cc", "include/gals/cpu/interpolation/hermite.h", "src/cpu/temporal-schemes/semi-lagrangian/euler.cc", "src/cpu/gradient/third-order.cc", "src/cpu/grid.cc", "applications/advection/main.cc"]}
{"id": "C118", "title": "Left and right are treated alike", "statement": "In exact arithmetic and with one layer of padding, let a grid, level set, velocity and velocity gradient be given a second time in a mirror across the x axis (the other axes follow by C117). Then the interpolation without limiter returns mirror images at every point between the stored nodes, nodes included; so does any number of time steps with the gradient carried along in which the fluid moves less than a cell, in all stored cells; so do the interpolation with limiter on a line, away from the nodes, and central differences. It is false of the third order differences, and of the interpolation with limiter in the plane.", "quantifier": "one, two and three dimensions; all grids with one layer of padding, data, velocities, points, numbers of steps", "why_tests_cant": "An index off by one at a cell boundary, a sign error in a mixed derivative or a condition of the limiter that is tested too early shows only for particular data and points.", "anchors": ["src/cpu/interpolation/hermite-1d.cc", "src/cpu/interpolation/hermite-2d.cc", "src/cpu/interpolation/hermite-3d.cc", "include/gals/cpu/interpolation/hermite.h", "src/cpu/temporal-schemes/semi-lagrangian/euler.cc", "src/cpu/gradient/second-order-central.cc", "src/cpu/gradient/third-order.cc", "src/cpu/grid.cc"]}
{"id": "C119", "title": "Origin and units of length do not matter", "statement": "In exact arithmetic let a grid, level set, velocity and velocity gradient be given a second time in other coordinates: along each axis x becomes z x + o, with a positive z of its own, slopes are divided and velocities multiplied by z. Then the interpolation, with or without limiter, returns the same value and the gradient in the other units at every point between the stored nodes; so do the differences of both schemes in all stored cells; so does any number of time steps in which the fluid moves less than a cell, whether the gradient is carried along or recomputed in every step as in the application. It is false in doubles: a grid moved by 2^52, with exact box and point, returns 1 instead of 1/2.", "quantifier": "one, two and three dimensions; all grids, units, origins, data, velocities, points, numbers of steps", "why_tests_cant": "A cell width forgotten or used twice, or the width of another axis, is invisible on the unit grids with square cells that tests use, and a comparison in the limiter that depends on units shows only for particular data.", "anchors": ["src/cpu/interpolation/hermite-1d.cc", "src/cpu/interpolation/hermite-2d.cc", "src/cpu/interpolation/hermite-3d.cc", "include/gals/cpu/interpolation/hermite.h", "src/cpu/temporal-schemes/semi-lagrangian/euler.cc", "src/cpu/gradient/second-order-central.cc", "src/cpu/gradient/third-order.cc", "src/cpu/grid.cc", "applications/advection/main.cc"]}
{"id": "C120", "title": "Data that do not depend on the last axis are treated as in fewer dimensions", "statement": "In exact arithmetic let a level set in two or three dimensions not depend on the last axis: values and gradients repeat those of a level set in one dimension less, the slope along the last axis and the mixed derivatives with it are zero. Then without limiter the interpolation returns at every point between the stored nodes the same value and gradient as the one in fewer dimensions; the differences of both schemes at interior cells are the same, and zero along the last axis; and a time step with the gradient carried along, in which the fluid moves less than a cell, gives the same new values and gradients at the interior cells, whatever the velocity along the last axis. With the limiter it is false: values 0 and 1 with slopes 2 and 0 give 3/4 on the line and 219/256 in the plane.", "quantifier": "from two to one and from three to two dimensions; all grids, paddings, data, velocities, points", "why_tests_cant": "The three interpolations are separate code with 4, 16 and 64 control points; a wrong one shows only for particular data and points, and tests check each dimension by itself.", "anchors": ["src/cpu/interpolation/hermite-1d.cc", "src/cpu/interpolation/hermite-2d.cc", "src/cpu/interpolation/hermite-3d.cc", "include/gals/cpu/interpolation/hermite.h", "src/cpu/temporal-schemes/semi-lagrangian/euler.cc", "src/cpu/gradient/second-order-central.cc", "src/cpu/gradient/third-order.cc", "src/cpu/grid.cc", "src/cpu/temporal.cc"]}
{"id": "C121", "title": "Units of time do not matter", "statement": "Multiply the time step by a number k, not zero, and divide the velocity and its gradient by k. In exact arithmetic a step of either time scheme, and any number of semi-Lagrangian steps with the gradient carried along or recomputed, then have the same outcome: the same level set, or the same error. k can be negative: a reversed flow followed backwards in time. In doubles the outcome is the same bit for bit if the multiplications by k are without rounding, for instance for powers of two far from overflow and underflow; it is false otherwise.", "quantifier": "all dimensions, grids, arrays of any size, velocities, time steps, level sets, numbers of steps; no precondition", "why_tests_cant": "A time step used where none belongs, or forgotten, is invisible when tests use one time step or the time step 1, and a bit-for-bit claim for all velocities and all outcomes including errors cannot be sampled.", "anchors": ["src/cpu/temporal-schemes/euler.cc", "src/cpu/temporal-schemes/semi-lagrangian/euler.cc", "src/cpu/temporal.cc", "src/cpu/levelset-velocity.cc", "applications/advection/main.cc"]}
{"id": "C122", "title": "All levels are treated alike", "statement": "Replace a level set by k times itself plus a, k not zero: stored values, gradients and mixed derivatives. In exact arithmetic the interpolation, with or without the limiter, then returns k times the value plus a and k times the gradient; the gradients computed by differences are k times the old ones; and after any number of semi-Lagrangian steps of less than a cell, with the gradient carried along or recomputed, the level set is k times what it would be, plus a. So inside and outside can be exchanged (k = -1), and the zero level is moved as any other. In doubles this is false. The explicit Euler step does not have this property: its result differs by k - 1 times the time step times the first velocity component.", "quantifier": "all dimensions, grids, level sets, velocities moving the fluid by less than a cell per step, time steps, numbers of steps, factors k not zero and constants a", "why_tests_cant": "A threshold with units, a comparison with zero or a value not multiplied by all weights would show only for some levels; tests use the level sets at hand, and no test can go through all factors and constants.", "anchors": ["src/cpu/interpolation/hermite-1d.cc", "src/cpu/interpolation/hermite-2d.cc", "src/cpu/interpolation/hermite-3d.cc", "include/gals/cpu/interpolation/hermite.h", "src/cpu/temporal-schemes/semi-lagrangian/euler.cc", "src/cpu/gradient/second-order-central.cc", "src/cpu/gradient/third-order.cc", "applications/advection/main.cc", "src/cpu/temporal-schemes/euler.cc"]}
{"id": "C123", "title": "Time steps of the library are linear in the level set", "statement": "Let the third of three level sets be al times the first plus be times the second: stored values, gradients and mixed derivatives. In exact arithmetic, after any number of semi-Lagrangian steps of less than a cell with the gradient carried along, or recomputed in every step as in the application, the third is still al times the first plus be times the second, in all stored cells; and the gradients computed by differences of either scheme are combined in the same way. With the gradient limiter the interpolation is not linear. Neither is the explicit Euler step: it differs by al + be - 1 times the time step times the first velocity component.", "quantifier": "all dimensions, grids, pairs of level sets, coefficients, velocities moving the fluid by less than a cell per step, time steps, numbers of steps", "why_tests_cant": "Linearity of a run is a statement on all pairs of level sets and all coefficients and numbers of steps; a term that is not linear in cells or steps not visited by a test goes unnoticed.", "anchors": ["src/cpu/interpolation/hermite-1d.cc", "src/cpu/interpolation/hermite-2d.cc", "src/cpu/interpolation/hermite-3d.cc", "include/gals/cpu/interpolation/hermite.h", "src/cpu/temporal-schemes/semi-lagrangian/euler.cc", "src/cpu/gradient/second-order-central.cc", "src/cpu/gradient/third-order.cc", "applications/advection/main.cc", "src/cpu/temporal-schemes/euler.cc"]}
{"id": "C124", "title": "The reference programs treat all levels alike", "statement": "Replace the initial level set of a reference program by k times itself plus a, and its derivatives by k times themselves. In exact arithmetic the run ends as before, with k times the fields plus a in the arrays, and, for the serial and OpenMP programs, in all frames written. So the level shown as the interface is moved as any other, inside and outside can be exchanged, and units of the level set do not matter.", "quantifier": "all grids, velocities, schemes, initial level sets, factors and constants, numbers of steps and frames; CUDA program: no node departing outside along both axes; first serial program: departure points at most a cell away from the nodes and off the boundary", "why_tests_cant": "A test compares finitely many pairs of runs; a threshold on the level set, or a constant mixed into the derivatives, shows only at some levels, and the claim is on all factors, constants, flows and steps.", "anchors": ["src/reference/AdvectionPointCalcs.h: update_gradient", "src/reference/TimeSteppingMethods.h", "src/reference/GALS_Advection_OpenMP.cpp: main", "src/reference/InitializeLevelSet.h"]}
