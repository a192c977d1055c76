{
 "claims": [
  {
   "property": "C01",
   "status": "proved",
   "theorems": [
    "Gals.Props.C01_padded_addressing",
    "Gals.Props.C01_unused_axis_collides"
   ],
   "note": "All dimensions, paddings, extents with product in int; both readings of int. Requires one cell along unused axes; C01_unused_axis_collides shows why."
  },
  {
   "property": "C02",
   "status": "partial",
   "theorems": [
    "Gals.Props.C02_coordinates",
    "Gals.Props.C02_cell_centres_partial",
    "Gals.Props.C02_false"
   ],
   "note": "False of the code for every padding other than 1 (C02_false); proved for padding 1; exact coordinates for all paddings in C02_coordinates. Exact arithmetic; rounded coordinates enter C89."
  },
  {
   "property": "C03",
   "status": "proved",
   "theorems": [
    "Gals.Props.C03_base_node"
   ],
   "note": "Over an ordered field with floor (no rounding)."
  },
  {
   "property": "C04",
   "status": "proved",
   "theorems": [
    "Gals.Props.C04_stencil_in_storage",
    "Gals.Props.C04_needs_padding"
   ],
   "note": "Over an ordered field with floor (no rounding)."
  },
  {
   "property": "C05",
   "status": "partial",
   "theorems": [
    "Gals.Props.C05_false",
    "Gals.Props.C05_linear_false",
    "Gals.Props.C05_no_overflow_partial"
   ],
   "note": "False in 1D and 2D for every grid and every point (C05_false, C05_linear_false); proved in 3D."
  },
  {
   "property": "C06",
   "status": "proved",
   "theorems": [
    "Gals.Props.C06_generate_forgets",
    "Gals.Props.C06_history_returns"
   ],
   "note": "Whole object state, law-free scalars, any history."
  },
  {
   "property": "C07",
   "status": "proved",
   "theorems": [
    "Gals.Props.C07_arrays_are_maps",
    "Gals.Props.C07_last_write"
   ],
   "note": "Refinement to functions on cells, any history."
  },
  {
   "property": "C08",
   "status": "partial",
   "theorems": [
    "Gals.Props.C08_deep_copy_partial",
    "Gals.Props.C08_false"
   ],
   "note": "False when the source grid has fewer slots than the target's (C08_false); proved for equal extents."
  },
  {
   "property": "C09",
   "status": "proved",
   "theorems": [
    "Gals.Props.C09_output"
   ],
   "note": "Lines as pairs (coordinates, value); character formatting not modelled."
  },
  {
   "property": "C10",
   "status": "partial",
   "theorems": [
    "Gals.Props.C10_min_is_component",
    "Gals.Props.C10_min_iff",
    "Gals.Props.C10_min_partial",
    "Gals.Props.C10_false"
   ],
   "note": "False on a tie of the first two components; exact characterisation in C10_min_iff."
  },
  {
   "property": "C100",
   "status": "proved",
   "theorems": [
    "Gals.Props.C100_read",
    "Gals.Props.C100_run",
    "Gals.Props.C100_near",
    "Gals.Props.C100_exact",
    "Gals.Props.C100_sign",
    "Gals.Props.C100_order",
    "Gals.Props.C100_false",
    "Gals.Props.C100_records",
    "Gals.Props.C100_two"
   ],
   "note": "Text at the level of characters. Conversion of doubles to text as in the GNU C library (exact value, ties to even); conversion back to the nearest double; other forms of numbers (exponents, blanks) are not modelled. The number of frames expected by the reader is the subject of C75. C100_run holds for every time step function of the model, so for the serial and the OpenMP program."
  },
  {
   "property": "C101",
   "status": "proved",
   "theorems": [
    "Gals.Props.C101_scalar",
    "Gals.Props.C101_vector",
    "Gals.Props.C101_near",
    "Gals.Props.C101_exact",
    "Gals.Props.C101_sign",
    "Gals.Props.C101_order",
    "Gals.Props.C101_apart",
    "Gals.Props.C101_collapse",
    "Gals.Props.C101_false"
   ],
   "note": "Text at the level of characters. Conversion of doubles to text as in the GNU C library (exact value, ties to even); conversion back to the nearest double. What the lines are for a grid and how they are arranged is the subject of C76."
  },
  {
   "property": "C102",
   "status": "proved",
   "theorems": [
    "Gals.Props.C102_line",
    "Gals.Props.C102_rate",
    "Gals.Props.C102_inflow_false"
   ],
   "note": "The steps are those of the application without the recomputation of psi (Model/Carry.lean says so); the excluded nodes next to the inflow end are the subject of C102_inflow_false."
  },
  {
   "property": "C103",
   "status": "proved",
   "theorems": [
    "Gals.Props.C103_factor",
    "Gals.Props.C103_doubles",
    "Gals.Props.C103_false"
   ],
   "note": "The application itself has two dimensions and a rotating flow; the steps here are its steps on a line with the velocity as a parameter (Model/Carry.lean)."
  },
  {
   "property": "C104",
   "status": "proved",
   "theorems": [
    "Gals.Props.C104_line",
    "Gals.Props.C104_rate"
   ],
   "note": "Real arithmetic. The order observed for one step (C77) would suggest k M h^4; the energy argument gives k^2."
  },
  {
   "property": "C105",
   "status": "proved",
   "theorems": [
    "Gals.Props.C105_line"
   ],
   "note": "Doubles with round to nearest even. Steps of less than 2^-15 cells or within 2^-15 of a whole cell are left out, since rounding may then place the foot in the next cell."
  },
  {
   "property": "C106",
   "status": "proved",
   "theorems": [
    "Gals.Props.C106_saddle",
    "Gals.Props.C106_right",
    "Gals.Props.C106_drift"
   ],
   "note": "Exact arithmetic, any ordered field with floor. On a line the same steps are of second order for smooth data (C104)."
  },
  {
   "property": "C107",
   "status": "proved",
   "theorems": [
    "Gals.Props.C107_right",
    "Gals.Props.C107_left",
    "Gals.Props.C107_bounded"
   ],
   "note": "Exact real arithmetic. C102 and C104 speak about nodes whose data came only from stored nodes of the start; this is about all interior nodes. With recomputed gradients (as the application does) data can grow (C103)."
  },
  {
   "property": "C108",
   "status": "proved",
   "theorems": [
    "Gals.Props.C108_right",
    "Gals.Props.C108_left",
    "Gals.Props.C108_drift"
   ],
   "note": "Exact real arithmetic. The limits come from the ghost cells, which no step writes (C102_inflow_false); nodes that depend on stored nodes only are C102 and C104."
  },
  {
   "property": "C109",
   "status": "proved",
   "theorems": [
    "Gals.Props.C109_right",
    "Gals.Props.C109_left",
    "Gals.Props.C109_steps"
   ],
   "note": "C107 in IEEE double arithmetic with rounding to nearest. C109_steps is for flow to the right. As in C107 the gradient is carried along; the application recomputes it."
  },
  {
   "property": "C11",
   "status": "proved",
   "theorems": [
    "Gals.Props.C11_tolerant",
    "Gals.Props.C11_not_transitive",
    "Gals.Props.C11_vec",
    "Gals.Props.C11_mat",
    "Gals.Props.C11_int"
   ],
   "note": "Over an ordered field."
  },
  {
   "property": "C110",
   "status": "partial",
   "theorems": [
    "Gals.Props.C110_false",
    "Gals.Props.C110_limited_partial"
   ],
   "note": "False as stated when the less steep slope equals that of the chord (C110_false). Proved when it is less steep by at least 2^7 M / 2^52 after multiplication by h, or when both are at most three times as steep."
  },
  {
   "property": "C111",
   "status": "proved",
   "theorems": [
    "Gals.Props.C111_interpolate",
    "Gals.Props.C111_gradient",
    "Gals.Props.C111_step",
    "Gals.Props.C111_run",
    "Gals.Props.C111_units",
    "Gals.Props.C111_negate",
    "Gals.Props.C111_euler_false"
   ],
   "note": "Mixed derivatives and ghost values are part of the data. The sign of zero is not tracked (x - x is +0 for both)."
  },
  {
   "property": "C112",
   "status": "proved",
   "theorems": [
    "Gals.Props.C112_programs",
    "Gals.Props.C112_negate",
    "Gals.Props.C112_units"
   ],
   "note": "Whole runs of the CUDA program are covered when nx*ny is even: otherwise one copy ends inside a number (C64), whose halves are not modelled. The sign of zero is not tracked. Output of the MPI program with threads is left out, as in the model."
  },
  {
   "property": "C113",
   "status": "proved",
   "theorems": [
    "Gals.Props.C113_programs",
    "Gals.Props.C113_openmp"
   ],
   "note": ""
  },
  {
   "property": "C114",
   "status": "proved",
   "theorems": [
    "Gals.Props.C114_doubles",
    "Gals.Props.C114_exact",
    "Gals.Props.C114_sharp"
   ],
   "note": "The window is shown to be exact for padding 1 and two steps in both directions (C114_sharp)."
  },
  {
   "property": "C115",
   "status": "proved",
   "theorems": [
    "Gals.Props.C115_library",
    "Gals.Props.C115_run",
    "Gals.Props.C115_output"
   ],
   "note": "As shipped (padding 1) the outcome of C115_output is always a fault or an early exit (C37); C115_run is for grids of any padding."
  },
  {
   "property": "C116",
   "status": "proved",
   "theorems": [
    "Gals.Props.C116_rounding",
    "Gals.Props.C116_overflow",
    "Gals.Props.C116_operations",
    "Gals.Props.C116_order",
    "Gals.Props.C116_special"
   ],
   "note": "That the compiled code uses this arithmetic (no extended precision, no contraction, default rounding mode) is an assumption; see DESIGN.md."
  },
  {
   "property": "C117",
   "status": "proved",
   "theorems": [
    "Gals.Props.C117_interpolation",
    "Gals.Props.C117_steps",
    "Gals.Props.C117_limited_false",
    "Gals.Props.C117_double_false"
   ],
   "note": ""
  },
  {
   "property": "C118",
   "status": "proved",
   "theorems": [
    "Gals.Props.C118_interpolation",
    "Gals.Props.C118_steps",
    "Gals.Props.C118_limited_line",
    "Gals.Props.C118_central",
    "Gals.Props.C118_third_false",
    "Gals.Props.C118_limited_plane_false"
   ],
   "note": ""
  },
  {
   "property": "C119",
   "status": "proved",
   "theorems": [
    "Gals.Props.C119_interpolation",
    "Gals.Props.C119_gradient",
    "Gals.Props.C119_steps",
    "Gals.Props.C119_double_false"
   ],
   "note": ""
  },
  {
   "property": "C12",
   "status": "proved",
   "theorems": [
    "Gals.Props.C12_dot_transpose",
    "Gals.Props.C12_dot_mulVec",
    "Gals.Props.C12_dot_linear",
    "Gals.Props.C12_dot_identity",
    "Gals.Props.C12_entries",
    "Gals.Props.C12_setEntry"
   ],
   "note": ""
  },
  {
   "property": "C120",
   "status": "proved",
   "theorems": [
    "Gals.Props.C120_interpolation",
    "Gals.Props.C120_gradient",
    "Gals.Props.C120_step",
    "Gals.Props.C120_limiter_false"
   ],
   "note": "One step, with the gradient carried along: a step does not write ghost cells."
  },
  {
   "property": "C121",
   "status": "proved",
   "theorems": [
    "Gals.Props.C121_steps",
    "Gals.Props.C121_double",
    "Gals.Props.C121_double_false"
   ],
   "note": ""
  },
  {
   "property": "C122",
   "status": "proved",
   "theorems": [
    "Gals.Props.C122_interpolation",
    "Gals.Props.C122_gradient",
    "Gals.Props.C122_steps",
    "Gals.Props.C122_double_false",
    "Gals.Props.C122_euler"
   ],
   "note": ""
  },
  {
   "property": "C123",
   "status": "proved",
   "theorems": [
    "Gals.Props.C123_gradient",
    "Gals.Props.C123_steps",
    "Gals.Props.C123_limiter_false",
    "Gals.Props.C123_euler"
   ],
   "note": ""
  },
  {
   "property": "C124",
   "status": "proved",
   "theorems": [
    "Gals.Props.C124_openmp",
    "Gals.Props.C124_serial",
    "Gals.Props.C124_cuda",
    "Gals.Props.C124_old"
   ],
   "note": ""
  },
  {
   "property": "C13",
   "status": "partial",
   "theorems": [
    "Gals.Props.C13_vec_partial",
    "Gals.Props.C13_vec_false",
    "Gals.Props.C13_vec_short",
    "Gals.Props.C13_velocity_partial",
    "Gals.Props.C13_velocity_false"
   ],
   "note": "False in the non-test build (un-braced macro): Vec3(vector) and the circular velocity end the process on good input; proved in the test build."
  },
  {
   "property": "C14",
   "status": "proved",
   "theorems": [
    "Gals.Props.C14_exact_on_cubics",
    "Gals.Props.C14_node_data",
    "Gals.Props.C14_node_data_false"
   ],
   "note": "End to end through grid and array model, any padding, wrap-around index arithmetic (ISO arithmetic faults, C05); ordered field, no rounding. Arbitrary (non-cubic) node data are reproduced for padding 1 (C14_node_data), not for padding 2 (C14_node_data_false)."
  },
  {
   "property": "C15",
   "status": "proved",
   "theorems": [
    "Gals.Props.C15_exact_on_bicubics"
   ],
   "note": "As C14, 2D."
  },
  {
   "property": "C16",
   "status": "proved",
   "theorems": [
    "Gals.Props.C16_exact_on_tricubics"
   ],
   "note": "As C14, 3D, both readings of int."
  },
  {
   "property": "C17",
   "status": "proved",
   "theorems": [
    "Gals.Props.C17_gradient_is_derivative",
    "Gals.Props.C17_partial_derivatives"
   ],
   "note": "Over the reals, every dimension, padding, limiter setting, point strictly inside a cell."
  },
  {
   "property": "C18",
   "status": "partial",
   "theorems": [
    "Gals.Props.C18_faces_agree",
    "Gals.Props.C18_continuously_differentiable_partial",
    "Gals.Props.C18_padding2_false"
   ],
   "note": "Kernels of neighbouring cells agree on shared faces for all data; the program's interpolant is C1 across cells for padding 1; false for padding 2."
  },
  {
   "property": "C19",
   "status": "partial",
   "theorems": [
    "Gals.Props.C19_ends_kept",
    "Gals.Props.C19_monotone_unaltered_false",
    "Gals.Props.C19_no_overshoot_false",
    "Gals.Props.C19_unaltered_partial",
    "Gals.Props.C19_altered",
    "Gals.Props.C19_no_overshoot_partial"
   ],
   "note": "Node values kept: proved. 'Monotone data unaltered' and 'no overshoot' are false as stated; the exact unaltered case and a sufficient condition for no overshoot are proved."
  },
  {
   "property": "C20",
   "status": "proved",
   "theorems": [
    "Gals.Props.C20_compute",
    "Gals.Props.C20_compute_in_storage"
   ],
   "note": "C20_compute needs no number laws."
  },
  {
   "property": "C21",
   "status": "partial",
   "theorems": [
    "Gals.Props.C21_exact_on_affine",
    "Gals.Props.C21_maximum_principle_partial",
    "Gals.Props.C21_maximum_false",
    "Gals.Props.C21_compute"
   ],
   "note": "Exactness and field loop for any padding; maximum principle for padding 1, false for padding 2."
  },
  {
   "property": "C22",
   "status": "proved",
   "theorems": [
    "Gals.Props.C22_exact_on_quadratics"
   ],
   "note": ""
  },
  {
   "property": "C23",
   "status": "proved",
   "theorems": [
    "Gals.Props.C23_exact_on_cubics"
   ],
   "note": ""
  },
  {
   "property": "C24",
   "status": "partial",
   "theorems": [
    "Gals.Props.C24_false",
    "Gals.Props.C24_no_outside_access_partial"
   ],
   "note": "False: the default third-order scheme with default padding 1 leaves the array on every grid. Holds for the central scheme, and for third order with padding 2 or more."
  },
  {
   "property": "C25",
   "status": "partial",
   "theorems": [
    "Gals.Props.C25_false",
    "Gals.Props.C25_computed",
    "Gals.Props.C25_diagonal_partial"
   ],
   "note": "False off the diagonal; what is computed is characterised exactly; diagonal entries (all of 1D) are right."
  },
  {
   "property": "C26",
   "status": "partial",
   "theorems": [
    "Gals.Props.C26_explicit_euler_partial",
    "Gals.Props.C26_false"
   ],
   "note": "False: the step subtracts dt*u_x, not dt*(u . grad phi_prev) (C26_false); what is computed is characterised exactly."
  },
  {
   "property": "C27",
   "status": "partial",
   "theorems": [
    "Gals.Props.C27_zero_velocity_partial",
    "Gals.Props.C27_false"
   ],
   "note": "Proved for padding 1 (default); false for padding 2."
  },
  {
   "property": "C28",
   "status": "proved",
   "theorems": [
    "Gals.Props.C28_translates_cubics"
   ],
   "note": "Every dimension and padding at least 1; ordered field, no rounding."
  },
  {
   "property": "C29",
   "status": "partial",
   "theorems": [
    "Gals.Props.C29_chain_rule_partial",
    "Gals.Props.C29_padding2_false"
   ],
   "note": "Padding 1, or departure point strictly inside a cell; false otherwise (interpolant not differentiable)."
  },
  {
   "property": "C30",
   "status": "partial",
   "theorems": [
    "Gals.Props.C30_memory_safe_partial",
    "Gals.Props.C30_outside_storage",
    "Gals.Props.C30_bound_needed",
    "Gals.Props.C30_padding0_false"
   ],
   "note": "Proved for padding at least 1; false for padding 0; the bound is needed."
  },
  {
   "property": "C31",
   "status": "proved",
   "theorems": [
    "Gals.Props.C31_ghosts_persist"
   ],
   "note": "Law-free scalars; any sequence of steps, gradients, interpolations and copies."
  },
  {
   "property": "C32",
   "status": "proved",
   "theorems": [
    "Gals.Props.C32_circle",
    "Gals.Props.C32_unknown_name"
   ],
   "note": "Over the reals (square root exact)."
  },
  {
   "property": "C33",
   "status": "partial",
   "theorems": [
    "Gals.Props.C33_rotation_partial",
    "Gals.Props.C33_false",
    "Gals.Props.C33_swapped_centre",
    "Gals.Props.C33_divergence_free"
   ],
   "note": "False for every centre with different first two coordinates: the rotation is about the swapped point. Divergence-freeness proved for every centre. Test build (the non-test build exits, C13)."
  },
  {
   "property": "C34",
   "status": "partial",
   "theorems": [
    "Gals.Props.C34_false",
    "Gals.Props.C34_never_written",
    "Gals.Props.C34_one_dimension_partial"
   ],
   "note": "False at every interior cell of every 2D and 3D grid: the loop writes array elements 0 and 1 instead of the cell."
  },
  {
   "property": "C35",
   "status": "partial",
   "theorems": [
    "Gals.Props.C35_steps_partial",
    "Gals.Props.C35_terminates",
    "Gals.Props.C35_diverges",
    "Gals.Props.C35_false",
    "Gals.Props.C35_start_ignored"
   ],
   "note": "Step count, final time, termination and uniqueness of the run proved for every step function; the configured start time is ignored, so the claim is false for every start of at least one step."
  },
  {
   "property": "C36",
   "status": "partial",
   "theorems": [
    "Gals.Props.C36_auto_dt_iff",
    "Gals.Props.C36_auto_dt_partial",
    "Gals.Props.C36_false",
    "Gals.Props.C36_fixed_dt"
   ],
   "note": "Exact characterisation; false on every square mesh of another depth, as in the sample input."
  },
  {
   "property": "C37",
   "status": "partial",
   "theorems": [
    "Gals.Props.C37_false",
    "Gals.Props.C37_setup_partial",
    "Gals.Props.C37_finish_partial",
    "Gals.Props.C37_no_input"
   ],
   "note": "False for every complete input: the test build reads out of bounds in the first step, the non-test build exits in the parser. What precedes and follows the loop is proved."
  },
  {
   "property": "C38",
   "status": "partial",
   "theorems": [
    "Gals.Props.C38_sections",
    "Gals.Props.C38_order",
    "Gals.Props.C38_only_sections",
    "Gals.Props.C38_no_interference",
    "Gals.Props.C38_any_subset_partial",
    "Gals.Props.C38_release_false",
    "Gals.Props.C38_short_cells"
   ],
   "note": "Every document of every length; any subset and order of sections proved for the test build. The non-test build exits on every document with a levelset section; a cells list shorter than 3 is read out of bounds."
  },
  {
   "property": "C39",
   "status": "partial",
   "theorems": [
    "Gals.Props.C39_create_directory_partial",
    "Gals.Props.C39_directory_false",
    "Gals.Props.C39_remove_file",
    "Gals.Props.C39_remove_file_fails",
    "Gals.Props.C39_write",
    "Gals.Props.C39_write_lost",
    "Gals.Props.C39_last_write",
    "Gals.Props.C39_history"
   ],
   "note": "Over a model of the file system (no links, no permissions). False for createDirectory on an existing file, which reports success."
  },
  {
   "property": "C40",
   "status": "proved",
   "theorems": [
    "Gals.Props.C40_formulas",
    "Gals.Props.C40_library"
   ],
   "note": "Values and both derivatives of the reference basis on a cell equal the library's, for every cell data and point."
  },
  {
   "property": "C41",
   "status": "partial",
   "theorems": [
    "Gals.Props.C41_exact_iff_unit_spacing",
    "Gals.Props.C41_false",
    "Gals.Props.C41_scaled_partial"
   ],
   "note": "hp1D reproduces all cubics exactly when dx = 1; proved when the slopes are multiplied by dx. Nothing in the repository calls hp1D."
  },
  {
   "property": "C42",
   "status": "proved",
   "theorems": [
    "Gals.Props.C42_search",
    "Gals.Props.C42_gpu_overrun"
   ],
   "note": "Both searches return the unique enclosing cell without leaving the node array, for every strictly increasing array with at least two (fewer than 2^32) nodes and every point strictly inside. C42_gpu_overrun: beyond the last node the GPU search reads one element past the array, so the strictness is needed."
  },
  {
   "property": "C43",
   "status": "partial",
   "theorems": [
    "Gals.Props.C43_openmp_mpi",
    "Gals.Props.C43_serial_partial",
    "Gals.Props.C43_cuda",
    "Gals.Props.C43_false"
   ],
   "note": "The claim is false (C43_false): the serial version stops at ny-1, nx-1 and leaves the last row and column unwritten. Proved: the OpenMP/MPI version (every schedule) and the CUDA version (every schedule, tile dividing the grid, RK3) compute the specified departure point at every node, the serial one at every other node. The CUDA version has no Euler backtrace."
  },
  {
   "property": "C44",
   "status": "proved",
   "theorems": [
    "Gals.Props.C44_openmp",
    "Gals.Props.C44_cuda"
   ],
   "note": "OpenMP loop and CUDA kernel: every distribution over threads and every interleaving of single accesses is free of undefined behaviour and ends in the sequential result, whenever the sequential execution is defined. On the GPU it is not defined when a node lies outside along both axes, because the cell arrays come uninitialised from cudaMalloc."
  },
  {
   "property": "C45",
   "status": "partial",
   "theorems": [
    "Gals.Props.C45_cuda",
    "Gals.Props.C45_atomic_partial",
    "Gals.Props.C45_race",
    "Gals.Props.C45_false"
   ],
   "note": "False for the OpenMP loop: the temporaries are declared outside the parallel region. C45_race: any two interior iterations conflict, on every grid; C45_false: an interleaving of two threads under the static schedule with a wrong result. Proved: the CUDA kernel, every schedule; the OpenMP loop when iterations do not overlap, any order."
  },
  {
   "property": "C46",
   "status": "partial",
   "theorems": [
    "Gals.Props.C46_at_most_once",
    "Gals.Props.C46_exactly_once_partial",
    "Gals.Props.C46_false"
   ],
   "note": "The claim is false when TileSize does not divide nx or ny (C46_false: nodes are left out). Proved: never a node twice and never outside the grid, for all sizes below 2^32; every node exactly once when the tile divides both sizes."
  },
  {
   "property": "C47",
   "status": "partial",
   "theorems": [
    "Gals.Props.C47_partial",
    "Gals.Props.C47_false"
   ],
   "note": "False at the first node of the last row, where the CUDA kernel uses a wrong node in d3. Proved: agreement at every other node and the exact difference there."
  },
  {
   "property": "C48",
   "status": "proved",
   "theorems": [
    "Gals.Props.C48_superconsistent"
   ],
   "note": "For both backtrace schemes; the transported gradient is the gradient of the interpolant composed with the departure-point map, for every function differentiable at the departure point."
  },
  {
   "property": "C49",
   "status": "proved",
   "theorems": [
    "Gals.Props.C49_gradients",
    "Gals.Props.C49_incompressible",
    "Gals.Props.C49_walls"
   ],
   "note": "Over the reals, with the mathematical pi; the code's M_PI is its double approximation."
  },
  {
   "property": "C50",
   "status": "proved",
   "theorems": [
    "Gals.Props.C50_initial",
    "Gals.Props.C50_cuda",
    "Gals.Props.C50_circle"
   ],
   "note": "CPU and CUDA versions; C50_circle: the zero level set is the circle of the stated radius."
  },
  {
   "property": "C51",
   "status": "proved",
   "theorems": [
    "Gals.Props.C51_cubic",
    "Gals.Props.C51_interior",
    "Gals.Props.C51_row",
    "Gals.Props.C51_column",
    "Gals.Props.C51_corner",
    "Gals.Props.C51_stored",
    "Gals.Props.C51_sharp"
   ],
   "note": "Polynomials of total degree at most 3 at every node; larger classes per kind of node; C51_sharp shows that degree 4 fails at corners and interior nodes."
  },
  {
   "property": "C52",
   "status": "partial",
   "theorems": [
    "Gals.Props.C52_partial",
    "Gals.Props.C52_false",
    "Gals.Props.C52_odd",
    "Gals.Props.C52_double"
   ],
   "note": "False: the calls send MPI_FLOAT, so half of every buffer is lost and rank 0 reads uninitialised values in the first step of every run (C52_false); an odd number of columns overruns the send buffer (C52_odd). Proved: exactly what arrives; with MPI_DOUBLE everything arrives and the run equals the OpenMP run (C52_double)."
  },
  {
   "property": "C53",
   "status": "proved",
   "theorems": [
    "Gals.Props.C53_exchange"
   ],
   "note": "All interleavings and buffering decisions; any settings and data."
  },
  {
   "property": "C54",
   "status": "proved",
   "theorems": [
    "Gals.Props.C54_serial",
    "Gals.Props.C54_openmp",
    "Gals.Props.C54_size",
    "Gals.Props.stepCount_ok",
    "Gals.Props.C54_print_zero",
    "Gals.Props.C54_overflow",
    "Gals.Props.C54_no_argument"
   ],
   "note": "Serial and one-thread OpenMP programs: exact contents of the output files for every n and p >= 1 (or n = 0); p = 0, an overflowing step count and a missing OpenMP argument are undefined behaviour."
  },
  {
   "property": "C55",
   "status": "partial",
   "theorems": [
    "Gals.Props.C55_partial",
    "Gals.Props.C55_iff",
    "Gals.Props.C55_false"
   ],
   "note": "False: line 27 uses the corrected first component. Proved: the exact error and exactly when it vanishes."
  },
  {
   "property": "C56",
   "status": "proved",
   "theorems": [
    "Gals.Props.C56_basis",
    "Gals.Props.C56_convex_hull",
    "Gals.Props.C56_interpolated_1d"
   ],
   "note": ""
  },
  {
   "property": "C57",
   "status": "proved",
   "theorems": [
    "Gals.Props.C57_linear"
   ],
   "note": "End to end, all dimensions; ordered field, no rounding."
  },
  {
   "property": "C58",
   "status": "proved",
   "theorems": [
    "Gals.Props.C58_locate_cpu",
    "Gals.Props.C58_locate_cuda"
   ],
   "note": "For every schedule of the iterations. On the GPU a node outside along both axes keeps a cell that cudaMalloc left uninitialised; see C44."
  },
  {
   "property": "C59",
   "status": "proved",
   "theorems": [
    "Gals.Props.C59_update_cpu",
    "Gals.Props.C59_update_function",
    "Gals.Props.C59_update_cuda",
    "Gals.Props.C59_bicubic"
   ],
   "note": "For the CUDA version the tile divides the grid and every cell is set."
  },
  {
   "property": "C60",
   "status": "proved",
   "theorems": [
    "Gals.Props.C60_step",
    "Gals.Props.C60_step_serial",
    "Gals.Props.C54_serial",
    "Gals.Props.C54_openmp"
   ],
   "note": "Whole steps and whole runs, one thread; the serial program uses departure point (0, 0) in the last row and column (C43)."
  },
  {
   "property": "C61",
   "status": "partial",
   "theorems": [
    "Gals.Props.C60_openmp_partial",
    "Gals.Props.C61_race",
    "Gals.Props.C61_false"
   ],
   "note": "False: shared temporaries of update_mixed_derivatives race on every grid with two interior nodes. Proved: everything but the mixed derivative under every schedule."
  },
  {
   "property": "C62",
   "status": "partial",
   "theorems": [
    "Gals.Props.C62_partial",
    "Gals.Props.C62_false"
   ],
   "note": "False: both ranks remove and append to the same files, so the initial frame may be there twice. Proved: once or twice, nothing else."
  },
  {
   "property": "C63",
   "status": "partial",
   "theorems": [
    "Gals.Props.C63_step_partial",
    "Gals.Props.C63_corner_undefined",
    "Gals.Props.C63_main_undefined",
    "Gals.Props.C63_false"
   ],
   "note": "False: the cells are allocated anew in every step and not written for a node that departs outside along both axes, but read by the update kernel; with the shipped settings and vortex no run is defined (C63_false). Proved: without such a node a step is defined, race free and as specified under every schedule; with one it is undefined. Launch limits of the device are not modelled."
  },
  {
   "property": "C64",
   "status": "partial",
   "theorems": [
    "Gals.Props.C64_frames_partial",
    "Gals.Props.C64_false"
   ],
   "note": "False: gridmemoryint instead of gridmemory bytes of the y derivative are copied back, the mixed derivative not at all. Proved: exactly what the frames show, for every run without a node that departs outside along both axes."
  },
  {
   "property": "C65",
   "status": "proved",
   "theorems": [
    "Gals.Props.C65_continuous"
   ],
   "note": "All uniform grids, data, cells and common points, over any ordered field."
  },
  {
   "property": "C66",
   "status": "partial",
   "theorems": [
    "Gals.Props.C66_run_partial",
    "Gals.Props.C66_courant",
    "Gals.Props.CellStep.unique",
    "Gals.Props.C66_false"
   ],
   "note": "False for departure points more than one cell away: no cell accepts such a node and it keeps its old value (C66_false). Proved: every run is defined, with exactly what each node gets in each step; each node is advanced when departure points are at most one cell away."
  },
  {
   "property": "C67",
   "status": "partial",
   "theorems": [
    "Gals.Props.C67_run_partial",
    "Gals.Props.C67_false"
   ],
   "note": "False for departure points exactly on the boundary: the first program treats them as inside, the OpenMP program as outside (C67_false). Proved: equal final fields when all departure points are at most one cell away and off the boundary."
  },
  {
   "property": "C68",
   "status": "proved",
   "theorems": [
    "Gals.Props.C68_openmp",
    "Gals.Props.C68_serial",
    "Gals.Props.C68_cuda"
   ],
   "note": "OpenMP program as run by one thread."
  },
  {
   "property": "C69",
   "status": "proved",
   "theorems": [
    "Gals.Props.C69_openmp",
    "Gals.Props.C69_serial",
    "Gals.Props.C69_cuda"
   ],
   "note": "OpenMP program as run by one thread; CUDA without a node that departs outside along both axes (otherwise undefined, C63)."
  },
  {
   "property": "C70",
   "status": "proved",
   "theorems": [
    "Gals.Props.C70_openmp",
    "Gals.Props.C70_serial_false"
   ],
   "note": "OpenMP program as run by one thread. The serial program does not have the property (C70_serial_false: its last row and column depart from the origin)."
  },
  {
   "property": "C71",
   "status": "proved",
   "theorems": [
    "Gals.Props.C71_affine",
    "Gals.Props.C71_poly",
    "Gals.Props.C71_cuda_undefined"
   ],
   "note": "OpenMP program as run by one thread. The serial program does not have the property (C70_serial_false), the CUDA program is undefined in every uniform flow (C71_cuda_undefined)."
  },
  {
   "property": "C72",
   "status": "partial",
   "theorems": [
    "Gals.Props.C72_rank1",
    "Gals.Props.C72_step_partial",
    "Gals.Props.C72_run",
    "Gals.Props.C72_false",
    "Gals.Props.C72_run_false"
   ],
   "note": "False as the program stands: doubles are sent as MPI_FLOAT, so no step of rank 0 ends (C72_false, C72_run_false). Proved: rank 1 under every schedule (C72_rank1); with MPI_DOUBLE level set and gradient under every schedule, and all fields, also after n steps, when the iterations of the loop for the mixed derivatives do not overlap (C45_false)."
  },
  {
   "property": "C73",
   "status": "proved",
   "theorems": [
    "Gals.Props.C73_padding_one",
    "Gals.Props.C73_prepared",
    "Gals.Props.C73_run",
    "Gals.Props.C73_ghosts",
    "Gals.Props.C73_file"
   ],
   "note": "Test build, 32-bit wrapping index arithmetic, velocity CIRCULAR, exact arithmetic. The changed preparation is that of the application when the padding is 1 (C73_padding_one), where the loop faults (C37_false)."
  },
  {
   "property": "C74",
   "status": "partial",
   "theorems": [
    "Gals.Props.C74_step_partial",
    "Gals.Props.C74_false",
    "Gals.Props.C74_erased"
   ],
   "note": "False for every supported grid with padding at least 2 (C74_false): the polynomial of the cell padding-1 cells to the right and above is evaluated. Proved: the exact values of a step (C74_step_partial); with more than two layers the last columns and rows become 0 (C74_erased)."
  },
  {
   "property": "C75",
   "status": "partial",
   "theorems": [
    "Gals.Props.C75_read_partial",
    "Gals.Props.C75_error",
    "Gals.Props.C75_run_partial",
    "Gals.Props.C75_false"
   ],
   "note": "False: MATLAB rounds steps/printstep to the nearest integer, so with a remainder of half the print step or more the reader expects a frame too many and fails (C75_error, C75_false). Proved for all other numbers of steps. Numbers below 2^31; the digits of the numbers are the subject of C100; plotting not modelled."
  },
  {
   "property": "C76",
   "status": "partial",
   "theorems": [
    "Gals.Props.C76_surface",
    "Gals.Props.C76_mesh_partial",
    "Gals.Props.C76_arrows",
    "Gals.Props.C76_false"
   ],
   "note": "False on grids that are not square: lines are written with j fastest and reshaped with i fastest. Proved: which cell each entry is (C76_surface), that the surface is right exactly if nx = ny (C76_mesh_partial), and the arrows of the velocity (C76_arrows)."
  },
  {
   "property": "C77",
   "status": "proved",
   "theorems": [
    "Gals.Props.C77_line",
    "Gals.Props.C77_plane",
    "Gals.Props.C77_space",
    "Gals.Props.C77_reference"
   ],
   "note": "Library with one ghost layer (the default); with more the interpolant is that of another cell (C14, C74). Exact arithmetic."
  },
  {
   "property": "C78",
   "status": "proved",
   "theorems": [
    "Gals.Props.C78_order",
    "Gals.Props.C78_openmp_mpi",
    "Gals.Props.C78_serial",
    "Gals.Props.C78_cuda",
    "Gals.Props.C78_vortex"
   ],
   "note": "Exact arithmetic. The serial program does not compute departure points in its last row and column (C43_false)."
  },
  {
   "property": "C79",
   "status": "proved",
   "theorems": [
    "Gals.Props.C79_step",
    "Gals.Props.C79_serial",
    "Gals.Props.C79_vortex",
    "Gals.Props.C79_first"
   ],
   "note": "Exact arithmetic. General velocities: at nodes that depart inside the domain or stay on a side where the velocity across vanishes; vortex: all nodes. One step; the gradient of later steps is that computed by the program, not the exact one."
  },
  {
   "property": "C80",
   "status": "proved",
   "theorems": [
    "Gals.Props.C80_return",
    "Gals.Props.C80_end",
    "Gals.Props.C80_walls"
   ],
   "note": "About the coded velocity; exact paths over the real numbers."
  },
  {
   "property": "C81",
   "status": "proved",
   "theorems": [
    "Gals.Props.C81_step",
    "Gals.Props.C81_serial",
    "Gals.Props.C81_vortex"
   ],
   "note": "Exact arithmetic; nodes that depart inside the domain (at the walls: C82). The comparison is with the gradient of the function at the computed departure point, whose own error is C78."
  },
  {
   "property": "C82",
   "status": "partial",
   "theorems": [
    "Gals.Props.C82_partial",
    "Gals.Props.C82_frozen",
    "Gals.Props.C82_false"
   ],
   "note": "False across the walls: the programs keep the initial gradient at wall nodes during the whole run (C82_frozen), but the exact derivative across the wall changes (C82_false). Proved for the value and the derivative along the wall (C82_partial)."
  },
  {
   "property": "C83",
   "status": "partial",
   "theorems": [
    "Gals.Props.C83_serial",
    "Gals.Props.C83_openmp",
    "Gals.Props.C83_threads",
    "Gals.Props.C83_serial_partial",
    "Gals.Props.C83_openmp_partial",
    "Gals.Props.C83_false",
    "Gals.Props.C83_gap"
   ],
   "note": "False for lower limits other than zero (C83_false, evaluated run). Proved for any arithmetic when no number lies between the end nodes and the limits (C83_serial, C83_openmp, C83_threads), which holds in double arithmetic for domains that begin at zero (the _partial theorems). The data race of the mixed derivatives is C45."
  },
  {
   "property": "C84",
   "status": "partial",
   "theorems": [
    "Gals.Props.C84_near",
    "Gals.Props.C84_partial",
    "Gals.Props.C84_false",
    "Gals.Props.C84_rounding"
   ],
   "note": "False for decimal times such as 0.3 and 0.1 (C84_false). Proved when Tfinal is an exact multiple of dt as a double (C84_partial) and up to rounding to an integer in general (C84_near)."
  },
  {
   "property": "C85",
   "status": "partial",
   "theorems": [
    "Gals.Props.C85_base_node_partial",
    "Gals.Props.C85_stencil",
    "Gals.Props.C85_interpolate",
    "Gals.Props.C85_false"
   ],
   "note": "The base node is not exact (C85_false: the stored node of cell 3 of six cells on [0, 1] has base node 2). Proved up to n * 2^-48 cell widths (C85_base_node_partial); that the stencil is stored (C85_stencil) and interpolation returns (C85_interpolate, any data) hold in full."
  },
  {
   "property": "C86",
   "status": "partial",
   "theorems": [
    "Gals.Props.C86_memory_safe_partial",
    "Gals.Props.C86_strict_false",
    "Gals.Props.C86_rest_false",
    "Gals.Props.C86_ghost_false"
   ],
   "note": "Memory safety is proved with a margin of 2^-16 of a cell (C86_memory_safe_partial) and false without a margin (C86_strict_false); at rest values change in the last place (C86_rest_false) and ghost values can enter (C86_ghost_false)."
  },
  {
   "property": "C87",
   "status": "partial",
   "theorems": [
    "Gals.Props.C87_steps_partial",
    "Gals.Props.C87_whole",
    "Gals.Props.C87_false",
    "Gals.Props.C87_stuck",
    "Gals.Props.C87_nan"
   ],
   "note": "False when accumulated rounding exceeds the tolerance (C87_false), when the simulation time absorbs the step (C87_stuck) and for NaN (C87_nan). Proved when the accumulated error n^2 dt / 2^52 does not reach the end time minus tolerance (C87_steps_partial), and for whole numbers of steps with n^2 dt <= 10^5, dt >= 10^-9 (C87_whole)."
  },
  {
   "property": "C88",
   "status": "partial",
   "theorems": [
    "Gals.Props.C88_prepared",
    "Gals.Props.C88_run_partial",
    "Gals.Props.C88_file"
   ],
   "note": "For the application with at least two ghost layers (as written, with one, it reads beyond its storage in every arithmetic, C37_false). Preparation holds for all numbers (C88_prepared); the loop is proved with the margins that doubles need (C88_run_partial: displacement below 1 - 2^-15 of a cell, cf. C86_strict_false; accumulated time error clear of the end test, cf. C87_false); file contents after the loop in C88_file. Only the circular velocity field; accuracy of the level set values in doubles is not claimed."
  },
  {
   "property": "C89",
   "status": "proved",
   "theorems": [
    "Gals.Props.C89_interpolation"
   ],
   "note": "Values and gradients of the Hermite interpolation (without limiter) in double arithmetic against the exact Hermite spline, in 1, 2 and 3 dimensions, for padding 1 (stored positions are off by pad - 1 cells otherwise, C02) and points within half a cell of the box."
  },
  {
   "property": "C90",
   "status": "proved",
   "theorems": [
    "Gals.Props.C90_step",
    "Gals.Props.C90_rest"
   ],
   "note": "One semi-Lagrangian step in double arithmetic against the exact spline at the exact departure points, for padding 1; values (2^(9+3d) K M / 2^52) and transported gradients (2^(13+3d) K M / 2^52 per cell width). C90_rest: a fluid at rest keeps the level set up to rounding, the repaired form of C86_rest_false."
  },
  {
   "property": "C91",
   "status": "partial",
   "theorems": [
    "Gals.Props.C91_two_ranks",
    "Gals.Props.C91_any_ranks_partial",
    "Gals.Props.C91_false",
    "Gals.Props.C91_hang",
    "Gals.Props.C91_alone"
   ],
   "note": "Proved for two ranks with the initial frame once or twice (C91_two_ranks, cf. C62_false). False for one rank (C91_alone: it waits for ever), and for three or more: without buffering the ranks from 2 on never get past their first send (C91_hang), with buffering a late rank can remove all frames (C91_false). For every number of ranks from two on rank 0 computes the same (C91_any_ranks_partial). One output file at a time; details.txt is not covered."
  },
  {
   "property": "C92",
   "status": "partial",
   "theorems": [
    "Gals.Props.C92_threads_partial",
    "Gals.Props.C92_numeral",
    "Gals.Props.C92_hybrid_usage",
    "Gals.Props.C92_false"
   ],
   "note": "Numerals of positive ints are passed on exactly (C92_threads_partial); what any numeral with blanks, sign and trailing text gives is C92_numeral. False for all other arguments (C92_false: trailing text ignored, large numbers wrapped, words and negative numbers passed on; without an argument the OpenMP program hands a null pointer to strtol). The hybrid program checks the number of arguments (C92_hybrid_usage)."
  },
  {
   "property": "C93",
   "status": "proved",
   "theorems": [
    "Gals.Props.C93_scalar",
    "Gals.Props.C93_diagonal",
    "Gals.Props.C93_sharp"
   ],
   "note": "Exact arithmetic, both schemes, all dimensions; positions as the code stores them (C02). C93_sharp: the constants are attained on every grid."
  },
  {
   "property": "C94",
   "status": "proved",
   "theorems": [
    "Gals.Props.C94_scalar",
    "Gals.Props.C94_vector",
    "Gals.Props.C94_samples"
   ],
   "note": "Double arithmetic against the exact difference quotients of the data (entries of vector gradients as in C25_computed), and against the derivatives of a smooth function (C94_samples)."
  },
  {
   "property": "C95",
   "status": "proved",
   "theorems": [
    "Gals.Props.C95_line",
    "Gals.Props.C95_plane",
    "Gals.Props.C95_space"
   ],
   "note": "Exact arithmetic, padding 1 (as C77). The step is the library's: departure point from the velocity at the node, gradient through (I - dt grad u) as the code writes it."
  },
  {
   "property": "C96",
   "status": "proved",
   "theorems": [
    "Gals.Props.C96_interpolation_line",
    "Gals.Props.C96_interpolation_plane",
    "Gals.Props.C96_interpolation_space",
    "Gals.Props.C96_line",
    "Gals.Props.C96_plane",
    "Gals.Props.C96_space"
   ],
   "note": "Double arithmetic from the stored doubles to the solution of the differential equation, padding 1: joins C77/C95 (exact arithmetic) with C89/C90 (rounding). Velocity and velocity gradient at the nodes are taken to be doubles exactly."
  },
  {
   "property": "C97",
   "status": "proved",
   "theorems": [
    "Gals.Props.C97_line",
    "Gals.Props.C97_ghost_false"
   ],
   "note": "Exact arithmetic, one dimension, padding 1, as C95. C97_line bounds the energy over the interior nodes by the energy over the stored nodes before the step; C97_ghost_false shows that the stored nodes cannot be used on both sides, because ghost nodes are never updated."
  },
  {
   "property": "C98",
   "status": "proved",
   "theorems": [
    "Gals.Props.C98_exact",
    "Gals.Props.C98_sharp",
    "Gals.Props.C98_rounding",
    "Gals.Props.C98_double"
   ],
   "note": "One dimension (the only one linear-1d.cc is written for). C98_exact for every padding of at least one layer; C98_rounding and C98_double for padding 1. The values stored may be off by epsilon."
  },
  {
   "property": "C99",
   "status": "partial",
   "theorems": [
    "Gals.Props.C99_step_partial",
    "Gals.Props.C99_false",
    "Gals.Props.C99_rest"
   ],
   "note": "False as soon as the polynomial has a term m x y (C99_false: wrong at every cell away from the boundary, for every flow and time step; C99_rest: at rest the value changes by 36 m h_x h_y with two ghost layers). C99_step_partial gives the exact value, so exactness for sums of a cubic in x and a cubic in y."
  }
 ]
}