# Verification design — gradient-augmented level set (GALS)

Source: `/repo` (acrlakshman/gradient-augmented-levelset-cuda), read as text, never built or run.
Technique: Lean 4 model + theorems (`/verif/lean`). Properties: `properties.jsonl`. Status: `MANIFEST.json`.
Mutation log: `seeded/LOG.jsonl`.

## 1. What is modelled, and how

| Concern | Decision |
| --- | --- |
| undefined behaviour | every model function that can misbehave returns `Except Fault α` (`Verif/Cpp.lean`). Faults are distinct outcomes: `overflow` (signed overflow), `oob` (vector access outside the vector), `conv` (double-to-int conversion out of range), `exited` (process ended by `exit(0)`), `exn` (C++ exception), `uninit` (read of an uninitialised value). |
| `int` | `ℤ` with an explicit range check after each operation. The check has two readings, selected by a parameter `s : IntSem`: `strict` (ISO C++: overflow is a fault) and `wrap` (two's complement, what the compilers used here do in these expressions). Theorems are stated for every `s` when they hold for both; the ones that need `wrap` say so. |
| `size_t` index | the `int` index value; a negative one converts to a number ≥ 2^63, so it is out of bounds of any vector. |
| `double` | a type `K` with the bare operations `+ - * / neg 0 1 <, casts, floor`, *no laws*. Structural theorems (addressing, frames, histories, schedules) hold for every such `K`, hence for IEEE doubles. Numerical theorems assume `K` is a linearly ordered field (with floor), so rounding is **not** modelled there. Analytic theorems use `ℝ`. For the claims about rounding (C83 on) `K` is `F64` (`Verif/Model/Double.lean`): IEEE binary64, a sign and a rational magnitude, infinities, one NaN, every operation rounded to nearest with ties to even, subnormal numbers included. That it is this arithmetic is itself proved against a statement of the standard (C116). |
| `std::vector` | `List` with checked access. |
| loops | folds over the list of index triples, in the order of the source. |
| references to the grid | passed explicitly: an array stores its own copies of extents, and each access gets the grid it refers to. |
| OpenMP / CUDA | iterations run in any order (permutations); for the race, an interleaving semantics of the individual reads and writes. |
| memory of the reference code | a map from locations (array name and indices) to `oob`, `uninit` or a value; reading anything but a value and writing outside an array are faults. A piece of code is a `Prog`, a tree of single reads and writes, so that threads can be interleaved access by access. |
| MPI | a two-process transition system (any number of processes in C91) with either rendezvous or buffered sends; payloads are 4-byte words with their contents, so the effect of a wrong data type is visible. |
| CUDA | a kernel is the list of the programs of its threads, interleaved in any way; `cudaMalloc` gives uninitialised memory, `cudaMemcpy` copies whole or half elements. Limits of the device (threads per block, grid size) and error codes are not modelled: every launch succeeds. |

Every definition cites file and lines of `/repo`.

Not modelled: rounding, NaN and infinities outside the claims about them (C83 on), extended precision and fused operations (a compiler may use them unless told not to), allocation failure, the YAML
grammar, spdlog, terminal output, real file systems (a map from paths to entries instead), real MPI, GPU memory
hierarchy, performance. Of
`src/reference/GALS_Advection_MPI_OpenMP.cpp` the argument check, the parallel loops and the steps of the ranks are modelled, its
output is not (it is that of the MPI program); the number of threads is arbitrary there (how it is read: C92). Copies in the
repository are modelled once: the headers of `src/reference/SerialCode` are those of `src/reference`, byte for byte;
`OldSerialCode/Hermite.h` and `CUDA/HermiteCUDA.cu` have the functions of `Hermite.h` (other local variables, `__device__`);
`CUDA/InitializeLevelSet.h` and `OldSerialCode/Initializer_vortex.h` have the formulas of `InitializeLevelSet.h` and
`VortexVelocity.h`. The scripts that
read the output (`src/reference/Readfiles.m`, `tools/octave/Visualize.m`) are modelled up to the data they pass to the plotting
functions; MATLAB and Octave are modelled by the behaviour these scripts rely on (`Verif/Model/Readers.lean`); the files
of the reference programs are also modelled as characters, with the digits of the numbers (`Verif/Model/RefText.lean`). `π` stands for
`M_PI`.

## 2. Layout

* `Verif/Cpp.lean` – faults, checked integers, vectors, loops.
* `Verif/Model/*` – the code, function by function.
* `Verif/Spec/*` – small specifications, which do not use the model's helpers.
* `Verif/Lemmas/*` – helper lemmas.
* `Verif/Props/*` – the property theorems, each with a concrete instance beside it.
* `Verif/Validate/*` – the authors' unit tests run on the model (tests, not proofs).

## 3. Plan for each property

| id | model | proof plan |
| --- | --- | --- |
| C01 | `Grid.index`, size set by `generate` | closed form; injective by mixed radix; surjective onto `[0,size)`. Needs the unused axes to have one cell: negation otherwise. |
| C02 | `generate` loop | loop invariant; padding 1 proved, negation for padding 2. |
| C03, C04 | `baseNodeId` | floor inequalities. |
| C05 | `interpolate` in strict mode | negation: faults for **every** input in 1D and 2D; proved for 3D. |
| C06 | `setPadding`, `generate` | induction over histories. |
| C07, C08 | `Arr` | refinement to a function on cells, induction over histories; negation for assignment between grids of different size. |
| C09 | `operator<<` | list equality. |
| C10 | `Vec3.min` | exact characterisation; negation (tie); partial without the tie. |
| C11, C12 | `is_equal`, `Mat3` | algebra. |
| C13 | macro expansion, two build modes | negation for the non-test build; proved for the test build. |
| C14–C18, C56, C57 | Hermite kernels 1D/2D/3D | tensor-product form, then exactness in 1D; end-to-end through the grid and array model. |
| C19 | `get_control_points` | case analysis on the limiter. |
| C20 | `compute` loops | loop invariant with frame. |
| C21 | linear interpolation | algebra. |
| C22–C25 | gradient schemes | algebra + loop invariant; negations for padding 1 and off-diagonal entries. |
| C26 | Euler | loop invariant; negation (the code subtracts `dt*u` with no gradient). |
| C27–C31 | semi-Lagrangian Euler | composition of the above; induction over steps. |
| C32–C34 | analytic fields | real analysis; negations for the swapped centre and the never-written gradient. |
| C35–C37 | application | recursion with an explicit fuel-free termination proof; negations (start time ignored, tie in `min`, out-of-bounds at the first step). |
| C38 | parser | sections as a finite map; fold. |
| C39 | file utilities | map from paths to entries. |
| C40, C41 | reference Hermite | polynomial identities; negation for `hp1D`. |
| C42 | cell search | loop invariants for both searches. |
| C43 | advection point loops | negation (serial skips last row and column), agreement elsewhere. |
| C44, C45, C46, C47 | OpenMP and CUDA loops | permutation invariance; interleaving semantics; negations (shared scalars, tile remainder, corner formula). |
| C48, C49, C50 | RK3 and its Jacobian; vortex; Gaussian | `HasDerivAt` / `HasFDerivAt`. |
| C51 | mixed derivative stencils | algebra. |
| C52, C53 | MPI exchange | transition system; negation for payload size. |
| C54 | main loop counting | induction. |
| C55 | Heun | algebra; negation. |

| C58, C59 | cell search and level-set update of the reference code | weakest preconditions per node, ownership of the written locations, then independence of the schedule. |
| C60, C61 | time step and main program of the CPU versions | composition of C43, C58, C59, C51; induction over steps; negation (race). |
| C62 | initial output of the two MPI ranks | all interleavings of the file operations; negation. |
| C63, C64 | CUDA main program | kernels in sequence with copies; negations (uninitialised cells, stale host arrays). |
| C65 | interpolants of neighbouring cells | algebra on the shared edge. |
| C66, C67 | first serial program | invariant over the loop over cells: each node is untouched so far or has the data of an accepting cell; C65 makes the choice irrelevant; negations (step of two cells, point on the wall). |
| C68–C71 | data whose transport is known: sums, constants, rest, uniform flow | algebra on the specified step (C60, C63), induction over steps; negation for the serial program. |
| C72 | loops and steps of the MPI and OpenMP program | every assignment owns its target, so rows are independent and can be regrouped buffer by buffer; then C52, C60; negation (half of every buffer is uninitialised). |
| C73, C74 | application with more ghost layers | one step from `slEuler_ok`, `gradScalar_ok`, `circular_run_ext` and C40 as a map of fields; the loop by induction with an invariant; negation (the interpolated cell is `padding - 1` cells too far). |
| C75 | `Readfiles.m` on the files of C54 | `textscan` undoes the text of a row; frame count by rounding division; negation (a frame too many is expected). |
| C76 | `Visualize.m` on the lines of C09 and C73 | position of a cell in the list of lines, then index arithmetic; the surface is right exactly on square grids; negation. |
| C77 | interpolation of smooth data | the error at a point is the fourth derivative at some other point times a polynomial (Rolle four times, also for the derivative of the error); tensor products through bounds of the one-dimensional operator. |
| C78 | departure points against exact particle paths | velocity and time as an autonomous system; Taylor expansion with remainder from the mean value theorem, the solution by repeated integration of its equation, the stages by substitution; bounds of the vortex by periodicity, its paths by Picard–Lindelöf. |
| C79 | one time step against the exact flow | C60 gives the new value as the bicubic of the cell of the departure point, C77 its error, C78 the error of the departure point. Nodes whose departure leaves the domain are excluded (`Stays`); the vortex has none for dt ≤ 1/40, because its velocity vanishes with the square of the distance to the walls. |
| C80 | exact solution of the vortex | uniqueness of solutions of the differential equation (Mathlib); the path run backward solves it because the velocity is odd about half of the period; the walls are at rest. |
| C81 | gradient of one time step | C48 gives the gradient at the departure point by the chain rule as a matrix, C77 the error of the interpolated gradient; column sums bound the matrix. |
| C82 | wall nodes in the vortex over a whole run | induction over the steps: wall nodes keep value and gradient; exact for the value and the derivative along the wall; negation for the derivative across by estimates of a path near the wall. |
| C83 | reference programs in double arithmetic | a safety calculus for programs in which nothing is known about values but an invariant (nodes as computed, cells inside the grid); the binary search needs no order laws. The invariant rests on one condition, that no number lies between the last node and the limit; for a lower limit of zero it follows from error bounds of binary64; negation by evaluation in the kernel. |
| C84 | step count in double arithmetic | rounding is monotone and fixes integers; negation by evaluation. |
| C85 | base node and interpolation in double arithmetic | error bounds of each rounded operation (relative error 2^-53, absolute 2^-1075), magnitudes between 2^-900 and 2^900 so that nothing overflows; then a law-free lemma that interpolation only needs its stencil; negation by evaluation. |
| C86 | semi-Lagrangian step in double arithmetic | error bounds of node positions and departure points (below 2^-17 cell widths), C85 for points outside the box, the law-free interpolation lemma; negations by evaluation. |
| C87 | time loop in double arithmetic | accumulated error of repeated addition by induction (n^2 dt / 2^52); rounding is monotone, so a time that absorbs the step is never passed; negation by evaluation. |
| C88 | application in double arithmetic | rounding error of the rotation velocity (`turn_double`), the step of C86 with its resulting fields as invariant of the loop of C87; preparation and output do not depend on arithmetic laws. |
| C89 | rounding error of the Hermite interpolation | a calculus of rounded values with magnitude and error (`Apx`, Lemmas/Apx) run through the kernels of 1, 2 and 3 dimensions (Lemmas/KernelDouble); error of the local coordinate (Lemmas/EtaDouble); the exact kernel is a nested Hermite sum (Lemmas/SplineNest), continuous with bounded slope across cell faces (Lemmas/SplineNear), so a base node that is one cell off costs no more than the error of the coordinate. The spline itself is defined in Spec/Spline. |
| C90 | rounding error of a semi-Lagrangian step | error of the departure point in units of the last place (`departure_fine`), slope of the spline across cells (Lemmas/SplineMove), C89, and the calculus of `Apx` for the product with the Jacobian matrix (Lemmas/PullDouble); at rest the departure point is the node, where the spline has the data of the cell. |
| C91 | MPI program on any number of ranks | transition system of any number of ranks with their messages and their operations on a file (Model/RefRanks); invariants of the traffic between ranks 0 and 1 (C53), of the prologues of the ranks and of the file content (Lemmas/Ranks); weight of the events to go for termination. |
| C92 | `strtol`, conversion to `int`, argument checks | induction over the digits; evaluation for the negation. |
| C93 | `gradScalar`, `gradVector` over the reals | threefold integration of a bound of the remainder and its derivatives (mean value inequality); the powers of a coordinate attain the bounds. |
| C94 | `gradScalar`, `gradVector` over `F64` | running error bounds (`Apx`), then C93 for samples of a smooth function. |
| C95 | `temporal .semiLagrangian` over ℝ, padding 1 | second-order Taylor along time and along the straight departure path, equality of the first-order terms from the level-set equation and, for the gradient, from its spatial derivative (symmetry of second derivatives), then C77 for the interpolation. |
| C96 | `interpolate`, `temporal .semiLagrangian` over `F64`, padding 1 | C89/C90 give the exact Hermite spline of the stored rationals; cast to ℝ, compared with the spline of the exact nodal derivatives (Lebesgue constants 5/4 and 4 of the scaled basis), then C77's error bounds and C95's Taylor argument at the exact departure point. |
| C97 | `temporal .semiLagrangian` over ℝ in one dimension, padding 1 | In uniform flow all departure points lie at the same fraction of their cells, so the new nodal data are the values and slopes of the old spline; the cubic between two such points minimises the bending energy among the piecewise cubics with these end data (orthogonality, here by the closed form of the energy and a sum of squares). `C97_ghost_false`: over ghost nodes the inequality fails for every grid. |
| C98 | `linearInterp` over ℝ (any padding ≥ 1) and over `F64` (padding 1) | Remainder of the line through two nodes by applying Rolle's theorem twice; the point is `pad - 1` cells to the left of the pair of nodes used (C02), which gives the factor `pad (pad - 1)`. In doubles: the base node and fraction of C90's `point_double`, then the rounded weights. `C98_sharp`: the bound with one ghost layer is attained. |
| C99 | `appAdvance` over ordered fields, padding at least 2 | C74's exact values of a step, exactness of the third-order difference for cubics, and the closed form of the Hermite patch without mixed derivatives. |
| C100 | text of the output files of the reference programs in doubles (`fixed10`, Model/RefText) and `Readfiles.m` on it | decimal digits of natural numbers read back by induction; fields and rows are separated because no number contains a separator; half-unit error of `roundEven`; C83's double arithmetic for the run as shipped. |
| C101 | text of the files that `FileUtils::write` makes of arrays, in doubles (`shortText`, Model/Text) and `Visualize.m` on it | decimal logarithm and `roundEven` give the nearest decimal of six digits; dropped zeros do not change its value; words are separated because no number contains a tab or an end of line; the largest double is rounded down. |
| C102 | repeated steps with the gradient carried along (`carrySteps`, Model/Carry), reals | the bending energy pays for the error: resampling a spline loses at least 192/h³ times the square of the distance between the new and the old spline at any point (a clamped deflection needs energy), the energy of the start is at most M² h per cell (the cubic is the least), and the cone of cells a node depends on grows by one cell per step; Cauchy–Schwarz over the steps. |
| C103 | steps as the application makes them (`recomputeSteps`, Model/Carry) on a line with padding 2, reals | with padding 2 the interpolation extrapolates from the next cell (C74); alternating data are an eigenvector of differences and extrapolation, and everything is linear, so the difference of two runs is known in closed form by induction over the steps. |
| C104 | `carrySteps` (Model/Carry) on a line with padding 1, four times differentiable data, reals | the error of a run is the error carried by a step plus the error of the step; the first does not gain bending energy and loses as much as pays for its change at a point (C102), the second has little energy by the error of the second derivative of Hermite interpolation (Rolle's theorem); energies are added with weights so that the sum over k steps grows as k². |
| C105 | `carrySteps` (Model/Carry) on a line with padding 1 in double arithmetic, four times differentiable data up to a tolerance | one step of doubles is one exact step up to the rounding of C96; these errors have little bending energy when the widths are of the same size, so that the sum of C104 carries them too; finiteness by induction over the nodes the result depends on. |
| C106 | `carrySteps` (Model/Carry) on a plane with padding 1 in uniform flow, level sets p(x) + q(y) + m x y, mixed derivatives as stored (`phi_mixed_prev`, which nothing writes) | the errors of value and gradient are the same at all nodes that depend on stored nodes only, so that a step is a recursion for three numbers, solved in closed form; bounds by geometric sums. |
| C107 | `carrySteps` (Model/Carry) on a line with padding 1 in uniform flow, all interior nodes, the ghost node at the inflow never written | bending energy over the intervals from the ghost node on: joining cut cubics loses energy (C97), the first interval is stretched, which costs at most √12 (w τ/h) \|s\|/√h in the root of the energy; Cauchy's inequality gives slopes and values. |
| C108 | `carrySteps` (Model/Carry) on a line with padding 1 in uniform flow, as the number of steps grows, ghost cells never written | a step leaves a geometric sequence of slopes unchanged; differences from it contract node by node in the energy norm of a clamped cubic (share of the energy lost per step at least D³/4). |
| C109 | `carrySteps` (Model/Carry) on a line with padding 1 in uniform flow in double arithmetic, all interior nodes, the ghost node at the inflow never written | one step of doubles is one exact step up to rounding while the data are bounded by M (C105); the rounding errors form a spline of small energy, added by Minkowski's inequality to the energy of C107; finiteness and bounds by induction over the steps. |
| C110 | limited `interpolate` (Model/Hermite, Model/Levelset) on a line with padding 1 in double arithmetic: `getControlPoints` with `use_gradient_limiting`, the four Bernstein products and their sum | signs of rounded products are those of the products; each of the four branches is followed with rounding errors of 100 ulp of the data; the cubic of control points in an interval leaves it by at most 4 delta of its length when the point leaves the cell by delta. |
| C111 | `interpolate` with and without limiting, `getControlPoints`, gradients of both orders, the semi-Lagrangian step and the time loop of the application, all in double arithmetic with NaN, infinities and subnormal numbers | a relation between values that addition, subtraction, multiplication by equal factors and the comparisons of the limiter respect is respected by every function (Lemmas/Flip); opposite doubles and multiples in a field are two such relations. |
| C112 | All six reference programs (serial, first serial, OpenMP, CUDA, MPI, MPI with threads) in double arithmetic, with every interleaving of threads and ranks | programs that make the same accesses with related values are bisimilar (Lemmas/RefFlip); every loop body and kernel is related to itself for any relation that the arithmetic on the level set respects. |
| C113 | The same programs over any arithmetic | the relation that holds of any two numbers is respected by the arithmetic (Lemmas/RefFlip), so control flow cannot depend on the level set. |
| C114 | Any number of semi-Lagrangian steps of the library in one to three dimensions, gradient carried along or recomputed, in doubles and in exact arithmetic | interpolation reads the base node and its neighbours only (any arithmetic, Lemmas/Local), the base node is located from C85/C86 (doubles) or exactly, and the windows of successive steps add up. |
| C115 | Interpolation, gradients and both time steps of the library over any arithmetic; the whole application | the relational lemmas of C111 hold for every relation between values closed under the operations, in particular the one that relates everything; the end of the application reads the velocity only. |
| C116 | Type `double`: rounding, `+ - * /`, conversion of integers, comparisons, NaN and infinities | the rounding of the model is shown to be the one magnitude that is nearest with ties to even among all numbers of 53 digits (Spec/Ieee, written from the standard), and overflow to begin at `2^1024 - 2^970`. |
| C117 | Interpolation without limiter, steps of the semi-Lagrangian scheme with the gradient carried or recomputed, in exact arithmetic, all dimensions | the tensor form of the interpolation commutes with every permutation of the axes in use (Spec/Axes); steps by induction. With the limiter, and bit for bit in doubles, concrete counterexamples. |
| C118 | Interpolation without limiter and steps of the semi-Lagrangian scheme with the gradient carried along, exact arithmetic, one layer of padding, all dimensions; interpolation with limiter on a line; central differences | the mirrored point lies in the mirrored cell, or, on a node, in the next one, where the sum depends on the node alone (Spec/Mirror, Lemmas/Mirror). With the limiter in the plane, and for the third order differences, concrete counterexamples. |
| C119 | Interpolation with and without limiter, both difference schemes, and steps of the semi-Lagrangian scheme with the gradient carried along or recomputed, exact arithmetic, all dimensions and paddings | the point in other coordinates lies in the same cell at the same fraction; every control point is that of the first level set times one constant, which the conditions of the limiter, being products, do not see (Spec/Zoom, Lemmas/Zoom). In doubles a concrete counterexample. |
| C120 | Interpolation without limiter, both difference schemes, and one step of the semi-Lagrangian scheme with the gradient carried along, exact arithmetic, from two dimensions to one and from three to two | sums of Hermite polynomials with equal values and slopes zero at both ends are the value (Lemmas/Flat over the tensor form of the kernels in Lemmas/Hermite); the base cell without the last coordinate is the base cell in fewer dimensions. With limiter a concrete counterexample. Only one step is treated: ghost cells are not written by a step, so that after it the data depend on the last axis between the interior and the ghost cells. |
| C121 | Steps of both time schemes, any number of semi-Lagrangian steps with the gradient carried along or recomputed, all grids and arrays, all outcomes including errors; exact arithmetic and doubles | time step and velocity enter as products only, and each product is the same number (Spec/Clock, Lemmas/Clock). In doubles the products are the same when the factors are multiplied without rounding; otherwise a concrete counterexample. The velocity is an input of the steps: how the application computes it from the time is not part of this property. |
| C122 | Interpolation with and without the limiter, differences of both schemes, any number of semi-Lagrangian steps with the gradient carried along or recomputed, 1D to 3D; exact arithmetic, and a counterexample in doubles | the level set times `k` plus `a` (Spec/Level) is followed through control points, limiter, Bernstein sums (the weights add up to 1, their derivatives to 0) and differences (Lemmas/Level). The limiter compares slopes of one cell with one another, so that it acts alike on both. |
| C123 | Any number of semi-Lagrangian steps of the library with the gradient carried along or recomputed, and the differences of both schemes, 1D to 3D, exact arithmetic | combinations of two level sets (Spec/Superpose) are followed through differences, interpolation (C57) and the product with the matrix (Lemmas/Superpose), step by step. With the limiter, which the steps do not use, a concrete counterexample. |
| C124 | Whole runs of the OpenMP program by one thread, of the serial program of the CUDA program (fields on the device, no node departing outside along both axes) and of the first serial program (departure points at most a cell away and off the boundary), all steps and frames, exact arithmetic | the fields of a run are linear in the initial data (C68) and constants stay constant (C69); `k` times plus `a` is such a combination (Spec/RefLevel). |

Nothing in the list is inexpressible; what the model cannot exhibit (the rounding of a particular machine, real schedulers, the OS) is named
in the note of each claim.

## 4. Trusted base

* The Lean 4.33.0 kernel, and the statements of the Mathlib definitions that occur in the theorems (`ℝ`, `HasDerivAt`, fields,
  orders, lists).
* Axioms. No axiom is added. Of the theorems in the manifest
  * `C10_false`, `C62_partial`, `C62_false` use none;
  * `C10_min_is_component`, `C11_int`, `C13_vec_partial`, `C13_vec_false`, `C13_vec_short`, `C13_velocity_false`,
    `C32_unknown_name`, `C35_start_ignored`, `C36_fixed_dt` use `propext`;
  * `C06_generate_forgets`, `C12_dot_identity`, `C12_entries`, `C19_ends_kept`, `C42_search`, `C42_gpu_overrun`, `C45_race`,
    `C46_false`, `C54_size`, `C54_no_argument`, `C73_padding_one` use `propext` and `Quot.sound`;
  * all others use `propext`, `Classical.choice` and `Quot.sound`.
* The reading of the C++ text by the model. It was made by hand from the text; the citations are there to check it.
* Assumptions about libraries: a `std::vector` access outside the vector, a read of uninitialised memory and a signed overflow may
  do anything; `std::lower_bound` and the like as documented; yaml-cpp delivers a document as a finite map with its values (no
  grammar); the file system is a map from paths to entries, with neither links nor permissions, and each call atomic; OpenMP
  distributes the iterations of a loop in any way over any number of threads with a barrier at the end; MPI messages between two
  ranks arrive in order; CUDA kernels of one stream run one after the other.

### Validation of the model

The reading of the text is tested by `Verif/Validate/UnitTests.lean`. It writes the unit tests of `/repo/tests` as programs on the
model and runs them, in `F64` by the kernel and in Lean's `Float` by `#guard`. These are tests; no theorem rests on them.

* The Hermite tests in one and two dimensions carry error norms from the authors' Matlab program. The model reproduces these
  numbers to `1e-12` (sizes 11 to 81 in 1D, 11 to 41 in 2D; the two larger 2D grids take long and are left out).
* The tests of the grid, the array, `Vec3`, `Mat3`, the gradients and the time steps pass.
* The file test and the input files of the tests are covered by `Props/Files.lean` and `Props/Parser.lean`; `VecN` is a list, so
  its test says nothing.
* Oddities of the tests themselves: the 3D Hermite test and the tests in `linear-interpolation.cc`, `euler.cc`,
  `semi-lagrangian-euler.cc`, `analytical-fields-levelset.cc`, `analytical-fields-velocity.cc`, `input-parser.cc`,
  `levelset.cc`, `levelset-velocity.cc` and `utilities.cc` expect nothing, so they pass whatever is computed; `GRID_1D` passes `INT_MAX` as the idle indices, which overflows `int` once the padding is added; the
  model takes the value a wrapping machine gives there.

## 5. Findings: claims that are false of the code

The statement is kept, its negation is proved with a witness, and the part that holds is proved under `_partial`.

| id | what the code does |
| --- | --- |
| C01 | a grid of lower dimension with more than one cell along an unused axis maps different cells to one element. |
| C02 | with a padding other than 1 all coordinates are shifted by the difference: cell centres are right for padding 1 only. C14 (node data), C18, C21 (maximum principle), C27 and C29 fail for padding 2 for this reason. |
| C05 | in 1D and 2D the interpolation computes indices of unused axes from the bounds of `int`: signed overflow for every point. |
| C08 | assignment from an array of a smaller grid leaves an array that is too short for its grid. |
| C10 | `Vec3::min` returns the third component when the first two are equal and smaller. |
| C13 | a macro without braces: in the non-test build the code after the check is the body of the `if`, and `exit` is unconditional. Good input ends the process. C38: so does each document with a levelset section. |
| C19 | the limiter alters some monotone data, and some limited interpolants overshoot. |
| C24 | the default third-order gradient with the default padding 1 reads out of bounds on every grid. Hence C37: no complete input runs to the end. |
| C25 | off-diagonal entries of the velocity gradient are wrong. |
| C26 | the explicit Euler step subtracts `dt * u_x` instead of `dt * (u . grad phi)`. |
| C30 | with padding 0 the semi-Lagrangian step leaves the array. |
| C33 | the rotation is about the point with its first two coordinates swapped. |
| C34 | the loop for the velocity gradient writes elements 0 and 1, never the cell. |
| C35 | the start time is ignored. |
| C36 | the automatic time step is wrong on a square mesh of another depth (C10) and takes the spacing of unused axes into account. |
| C38 | a `cells` list shorter than 3 is read out of bounds. |
| C39 | `createDirectory` reports success when a file of that name exists. |
| C41 | `hp1D` is right for `dx = 1` only; nothing calls it. |
| C42 | beyond the last node the GPU search reads one element past the array (needed hypothesis, not a false claim). |
| C43 | the serial version skips the last row and column; the CUDA version ignores the choice of Euler. |
| C45, C61 | the temporaries of `update_mixed_derivatives` are shared between the OpenMP threads: a race on every grid. |
| C46 | nodes are left out unless the tile divides both sizes. |
| C47 | wrong node in the CUDA stencil at the first node of the last row. |
| C52 | the MPI version sends doubles as `MPI_FLOAT`: half of every buffer is lost; an odd number of columns overruns the buffer. |
| C54 | print step 0, too many steps for `unsigned int`, and a missing argument of the OpenMP program are undefined behaviour. |
| C55 | Heun's method uses the corrected first component in the second. |
| C62 | both MPI ranks write the initial frame. |
| C63 | the update kernel reads cells that were never written when a node departs outside along both axes; with the shipped settings every run is undefined. |
| C64 | the host's y derivative is copied back by half, the mixed derivative never: frames show stale data. |
| C66 | in the first serial program a node whose departure point is more than one cell away silently keeps its old value. |
| C67 | departure points on the boundary (all nodes of a wall without flow through it) count as inside in the first serial program and as outside in all later ones, which therefore never change the wall-normal gradient there. |
| C70 | (holds for the OpenMP program) the serial program changes the last row and column even at rest: they depart from the origin. |
| C71 | (holds for the OpenMP program) the CUDA program is undefined in every uniform flow. |
| C72 | with `MPI_FLOAT` as in the source no step of rank 0 ends: every schedule of the unpacking loop can reach an uninitialised read. The mixed derivative depends on the schedule (as C45, C60). |
| C74 | with padding `p` the stored position of a cell is `p - 1` cells to the right of and above its true centre, while the base cell of a point is found from true centres: for `p` at least 2 a step extrapolates from a cell `p - 1` cells away, reads ghost cells (which stay 0) at the upper and right boundary, and for `p` at least 3 sets the last `p - 2` columns and rows to 0. |
| C75 | MATLAB rounds the quotient of the number of steps by the print step to the nearest integer: if the remainder is at least half the print step, the reader expects one frame more than was written and ends with an error. |
| C76 | the library writes the cells with `j` running fastest, `Visualize.m` reshapes with the first index running fastest: on grids that are not square the surface connects cells that are not neighbours. |
| C82 | a node on a wall departs on the boundary, is classed as outside and keeps its derivative across the wall; in the vortex it keeps value and gradient during the whole run, while the exact derivative across the wall changes by an amount of order one until the middle of the period (and then returns). |
| C83 | the last node is computed as `xlim1 + dx * (nx - 1)` with a rounded `dx` and can lie below `xlim2` with doubles between; a departure point there is classed as inside, its cell is the last node, and `update_levelset_data` reads one element beyond the end of a row. Example: `xlim = [-1, 0.8]`, four nodes, `dt = 0.6`, velocity -1. With `[-1, 1]` and fifty nodes there is such a gap too; with `xlim1 = 0`, as shipped, there is none. |
| C84 | `unsigned int n = Tfinal/dt` truncates a rounded quotient: `Tfinal = 0.3`, `dt = 0.1` gives two steps. |
| C85 | `base_node_id` floors a rounded coordinate: with six cells on `[0, 1]` the stored node of cell 3 gets cell 2 as its base node. The error is below `n * 2^-48` cells, so stencils of points of the box stay inside the storage. |
| C86 | in doubles a fluid at rest changes the level set (six cells on `[0, 1]`: 3 becomes `3 - 2^-51`) and can pull in ghost values (three cells on `[-1, 1]`: a NaN in the ghost cell reaches the first cell), since a node can be classed to the left neighbour (C85). A displacement of `1/2 - 2^-54` on cells of width `1/2`, less than a cell, reads beyond the storage; a margin of `2^-16` suffices. |
| C87 | the tolerance `1e-10` of the end test is absolute: with `dt = 2^18 + 2^-33` and `t_end = 6 dt` the loop makes seven steps; with `dt = 1` and `t_end = 2^54`, or a NaN as step or end time, it never ends. |
| C88 | none new: with two ghost layers, a margin of `2^-15` of a cell and times clear of the end test the application runs in doubles as it does in exact arithmetic (C73); its velocities differ from the rotation by at most `2^-16` of a cell per step. |
| C89 | none: although base nodes can be one cell off (C85), interpolated values and gradients are within a small multiple of the unit in the last place of the exact spline, since value and gradient of the spline are continuous across cells. |
| C90 | none new: a step is accurate to rounding for displacements of any length inside the box; at rest the change found in C86 is bounded by a small multiple of the unit in the last place. |
| C91 | the program never asks for the number of ranks.  On one rank it waits for ever; on three or more the additional ranks repeat the work of rank 1, their messages are never received (without buffering they hang), and as they also remove and append to the output files, a late one can delete all frames written so far.  On two ranks the frames of the steps are safe, because rank 0 needs a message that rank 1 sends after its initial output. |
| C92 | the argument is not checked: trailing text is ignored, numbers from 2^31 on are wrapped (4294967297 gives one thread), words give 0 threads, which OpenMP leaves open; the OpenMP program without an argument hands a null pointer to `strtol`. |
| C99 | the application never computes the mixed derivatives (the call is commented out at `applications/advection/main.cc:152`), and with two ghost layers it extrapolates (C74): a level set with a term `m x y` is wrong at every cell away from the boundary after every step, by `-m G(s) G(w) h_x h_y` with `G(s) = s (1 - s) (1 - 2 s)` and `s`, `w` in `[-1, 0)`; at rest by `-36 m h_x h_y`, however small the time step. |
| C100 | ten fixed decimals lose the sign of every value below 5e-11 in magnitude: a level set positive at every node can have the same text as one that vanishes at every node.  `details.txt` has no end of line: when two processes write it, the print step and the first number of the second record run together (16 and 128 give 16128), and the reader shows the first frame alone. |
| C101 | six significant digits: cells closer together than the sixth digit of their position are written with the same text.  On a box with corner 1000 and cells of width 2^-12 the first twenty cells have the same x in the file. |
| C102 | repeated steps converge at the nodes whose data come only from stored nodes of the start; upstream of them the ghost cells, which no step writes, hold the values of the start, and already the second step is wrong for `phi = x` (`C102_inflow_false`). |
| C103 | recomputing the gradient in every step (`applications/advection/main.cc:146`) makes the steps unstable with the two ghost layers it needs: noise that alternates from node to node is multiplied by 35/3 in each step at rest, and at least doubled for displacements of up to half a cell to the left (`C103_factor`, `C103_doubles`, `C103_false`). |
| C108 | A level set in uniform flow is translated by w τ per step for as long as the run goes on | On a line with carried gradients it converges instead: every interior value tends to a limit that depends only on the value and the slope in the ghost cell at the inflow, which nothing updates. For phi = x the error grows beyond every bound at every interior node (`C108_drift`). |
| C110 | Limited data whose slope at one end is that of the chord do not overshoot in doubles | False (`C110_false`): values 2, 3 and slopes 1, 100 in cells of width 1 give less than -9 halfway, where exact arithmetic stays in [2, 3]. `3 (c21 - f0)` is rounded to a number slightly above `f1 - f0`, both factors of the last test are positive and the data are left alone. `C110_limited_partial` asks for a margin of 2^7 M / 2^52. |
| C111 | A time step treats inside and outside alike | False for explicit Euler (`C111_euler_false`): it subtracts the velocity without a gradient (src/cpu/temporal-schemes/euler.cc:59), so the level set zero, its own opposite, becomes negative. |
| C114 | A value travels with the flow | For padding `p` the window is not centred: stored positions are off by `p - 1` cells (C74), so with `p` of 2 or more a cell takes its data from the cells after it, up to `p` per step, even when the fluid is at rest. |
| C115 | The advection application saves the advected field | Its output does not depend on the level set at all: two runs whose level sets differ in every value end with the same files. Only the velocity is written. |
| C117 | The axes are treated alike | True in exact arithmetic without the limiter. With the limiter the inner control points of a cell come from the bottom and top edge on one side and from the right edge on the other (`src/cpu/interpolation/hermite-2d.cc`), so exchanging `x` and `y` changes the result (`C117_limited_false`). In doubles the last bits depend on the order of summation (`C117_double_false`). |
| C118 | Left and right are treated alike | True in exact arithmetic without the limiter, for central differences, and with the limiter on a line. False of the third order differences which the application uses: they take two cells on the left and one on the right whatever the flow (`C118_third_false`). False with the limiter in the plane (`C118_limited_plane_false`). |
| C119 | Origin and units of length do not matter | True in exact arithmetic, with the limiter too. False in doubles far from the origin: a square of four cells moved by 2^52, box and point at doubles, gives 1 instead of 1/2 (`C119_double_false`). |
| C120 | Data that do not depend on the last axis are treated as in fewer dimensions | True without limiter in exact arithmetic (interpolation, differences, one step). False with limiter: 3/4 on the line, 219/256 in the plane (`C120_limiter_false`). |
| C121 | Units of time do not matter | True in exact arithmetic, and bit for bit in doubles if the change of units does not round (powers of two, changes of sign). False in doubles otherwise: velocity 7 with time steps of 1/20 against 7/20 with time steps of 1 (`C121_double_false`). |
| C122 | All levels are treated alike: the interface is not special | True in exact arithmetic, with the limiter too, and for negative factors (inside and outside exchanged). False in doubles: values 0 and 1 plus `2 ^ 52` are interpolated to `2 ^ 52 + 2` (`C122_double_false`). False of the explicit Euler step, which ignores the gradient: by how much is `C122_euler`. |
| C123 | Time steps of the library are linear in the level set | True in exact arithmetic. False of the interpolation with the limiter, which the time step does not use (`C123_limiter_false`). False of the explicit Euler step: by how much is `C123_euler`. |
