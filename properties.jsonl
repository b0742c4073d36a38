{"id": "C01", "title": "Linear loop index and cell coordinates are in one-to-one correspondence", "statement": "For every array extent, converting a linear loop index to cell coordinates and back returns the index, converting coordinates to an index and back returns the coordinates, and the indices 0..size-1 reach every cell of the array exactly once and no cell outside it. This holds for both memory layouts the code can be compiled for.", "quantifier": "all extents Nx,Ny,Nz >= 1, all indices, all in-range coordinates, both layouts, 2D and 3D", "why_tests_cant": "A test can only sample extents; a single mis-handled extent (e.g. non-square) silently skips or duplicates cells in every kernel.", "anchors": ["src/shared/kokkos_shared.h: index2coord, coord2index"]}
{"id": "C02", "title": "Index arithmetic does not overflow for arrays whose cell count fits in int", "statement": "When the number of cells of the array fits in a C int, converting between linear index and coordinates performs no signed-integer overflow and no division by zero; when an extent product exceeds it, the 3D conversion does overflow.", "quantifier": "all extents and indices as 32-bit signed ints", "why_tests_cant": "Overflow only appears at sizes far beyond what tests allocate.", "anchors": ["src/shared/kokkos_shared.h: index2coord, coord2index"]}
{"id": "C03", "title": "A race-free parallel loop gives one result under every thread schedule", "statement": "If in a Kokkos parallel loop no work item writes a location that another work item reads or writes, then every interleaving of the individual loads and stores of the work items terminates in the same memory, equal to running the items one after another.", "quantifier": "all kernels, numbers of work items, memories, and interleavings of single loads/stores", "why_tests_cant": "Tests exercise a handful of schedules out of exponentially many.", "anchors": ["src/shared/SolverBase.cpp: make_boundary", "src/muscl/HydroRunFunctors2D.h", "src/muscl/MHDRunFunctors3D.h", "Kokkos::parallel_for call sites"]}
{"id": "C04", "title": "Atomic accumulation gives one result under every thread schedule (exact arithmetic)", "statement": "If the work items of a loop only update shared locations through atomic additions, and neither read nor plainly write these, then under every interleaving each such location ends with its initial value plus the sum of all contributions.", "quantifier": "all kernels of that form, all interleavings, any commutative monoid of values", "why_tests_cant": "Order of atomics is nondeterministic; a test sees one order.", "anchors": ["src/muscl/MHDRunFunctors2D.h: ComputeFluxesAndUpdateFunctor2D_MHD, ComputeEmfAndUpdateFunctor2D", "src/muscl/MHDRunFunctors3D.h: ComputeFluxesAndUpdateFunctor3D_MHD, ComputeEmfAndUpdateFunctor3D"]}
{"id": "C05", "title": "Serial ghost fill, 2D hydro: every ghost cell gets the value its boundary condition prescribes", "statement": "After the serial boundary fill of a 2D hydro array, every ghost cell (corners included) holds: for reflecting sides the mirror cell with the normal velocity negated, for absorbing sides the nearest interior cell, for periodic sides the cell one period away; every interior cell is unchanged; no access is out of bounds; and the result is the same for every thread schedule.", "quantifier": "all sizes nx,ny >= ghost width >= 1, all 3^4 combinations of the three boundary conditions, all data, all schedules", "why_tests_cant": "Combination of sizes, boundary types, corners and schedules is unbounded.", "anchors": ["src/shared/BoundariesFunctors.h: MakeBoundariesFunctor2D", "src/shared/SolverBase.cpp: make_boundary, make_boundaries_serial"]}
{"id": "C06", "title": "Serial ghost fill, 3D hydro", "statement": "Same as the 2D statement for 3D arrays, edges and corners included.", "quantifier": "all sizes nx,ny,nz >= ghost width >= 1, all combinations of the three boundary conditions on six faces, all data, all schedules", "why_tests_cant": "Unbounded combinations of sizes, boundary types and schedules.", "anchors": ["src/shared/BoundariesFunctors.h: MakeBoundariesFunctor3D", "src/shared/SolverBase.cpp: make_boundary, make_boundaries_serial"]}
{"id": "C07", "title": "Serial ghost fill, MHD 2D and 3D", "statement": "For MHD arrays the same ghost-fill statement holds with eight variables, the reflecting condition negating the normal velocity and the normal magnetic field component.", "quantifier": "all sizes >= ghost width, all boundary condition combinations, all data, all schedules", "why_tests_cant": "Unbounded combinations of sizes, boundary types and schedules.", "anchors": ["src/shared/BoundariesFunctors.h: MakeBoundariesFunctor2D_MHD, MakeBoundariesFunctor3D_MHD"]}
{"id": "C08", "title": "Filling ghost cells twice is the same as filling them once", "statement": "Applying the boundary fill to an array whose ghost cells are already filled does not change it.", "quantifier": "all sizes >= ghost width, all boundary conditions, all data", "why_tests_cant": "Needs all data and sizes.", "anchors": ["src/shared/SolverBase.cpp: make_boundaries_serial", "src/shared/BoundariesFunctors.h"]}
{"id": "C09", "title": "Ghost fill on domains thinner than the ghost layer", "statement": "On a domain thinner than the ghost layer the fill is not well defined: the periodic fill contains a data race (two schedules give two results) and the reflecting fill copies ghost cells that were not filled.", "quantifier": "existence statement: concrete sizes, data and two schedules", "why_tests_cant": "The race is schedule dependent; a test run usually sees only one order.", "anchors": ["src/shared/BoundariesFunctors.h: MakeBoundariesFunctor2D", "src/shared/HydroParams.cpp: init (nx defaults to 1)"]}
{"id": "C10", "title": "MPI halo exchange equals the serial ghost fill of the global domain", "statement": "For every decomposition into mx x my (x mz) ranks, after the MPI boundary fill each rank's local array (ghosts included) equals the corresponding window of the globally assembled array after the serial ghost fill with the same boundary conditions.", "quantifier": "all process grids, local sizes >= ghost width, boundary conditions, and data", "why_tests_cant": "Tests run a few process counts; correctness for all process grids and corner cases needs proof.", "anchors": ["src/shared/SolverBase.cpp: make_boundaries_mpi, copy_boundaries, transfert_boundaries_2d/3d, copy_boundaries_back", "src/shared/mpiBorderUtils.h", "src/shared/HydroParams.cpp: setup_mpi"]}
{"id": "C11", "title": "Neighbour ranks are symmetric and the exchange pattern matches", "statement": "In the cartesian topology the neighbour in direction +d of the neighbour in direction -d of a rank is the rank itself; each message sent towards the -d (resp. +d) neighbour is received by that neighbour into its +d (resp. -d) ghost buffer, each receive has exactly one matching send of equal size, and the sequence of send-receive calls cannot deadlock.", "quantifier": "all process grids, all ranks and directions, including extent 1 and 2 where both neighbours coincide", "why_tests_cant": "All process grids; degenerate grids are where matching by tag can go wrong.", "anchors": ["src/utils/mpiUtils/MpiCommCart.cpp: getNeighborRank", "src/shared/HydroParams.cpp: setup_mpi", "src/shared/SolverBase.cpp: transfert_boundaries_2d/3d"]}
{"id": "C12", "title": "All ranks advance with the same global time step", "statement": "After the reduction every rank holds the same time step, it is the minimum of the local ones, and it equals the time step that a single-process run on the whole domain would compute from the same cell data.", "quantifier": "all numbers of ranks, all local data", "why_tests_cant": "Unbounded number of ranks and data.", "anchors": ["src/shared/SolverBase.cpp: compute_dt", "src/muscl/SolverHydroMuscl.cpp: compute_dt_local"]}
{"id": "C13", "title": "The time loop never runs past the end time", "statement": "Throughout the run the simulated time never exceeds the requested end time (when it starts below it), and whenever the time step is positive it increases strictly.", "quantifier": "all start/end times, all sequences of positive CFL time steps produced by the scheme", "why_tests_cant": "Ranges over all histories of time steps.", "anchors": ["src/shared/SolverBase.cpp: compute_dt, finished, next_iteration", "src/main.cpp: main loop"]}
{"id": "C14", "title": "The time loop stops: iteration limit and end time", "statement": "The run performs at most nStepmax iterations, performs none if the start time is at or past the end time, the number of iterations performed equals the iteration counter, and if it stops before the iteration limit the final time is the end time (to the code's 1e-14 tolerance), reached exactly by the last clipped step if the step before did not land in the tolerance window.", "quantifier": "all parameters and histories", "why_tests_cant": "Ranges over all histories.", "anchors": ["src/shared/SolverBase.cpp: finished, next_iteration, compute_dt", "src/main.cpp"]}
{"id": "C15", "title": "Output snapshots: numbering and final snapshot", "statement": "With output enabled, snapshots are numbered consecutively from zero without gaps, the first shows the initial state, the last one shows the final state, and with nOutput=-1 there is one before every step; with nOutput=0 none is written.", "quantifier": "all parameters and histories of the loop", "why_tests_cant": "Ranges over all histories.", "anchors": ["src/shared/SolverBase.cpp: should_save_solution, save_solution", "src/main.cpp", "src/muscl/SolverHydroMuscl.cpp: next_iteration_impl"]}
{"id": "C16", "title": "Double buffering always reads the newest state", "statement": "At every iteration the step reads the array written by the previous iteration and writes the other one, and a snapshot written at any moment contains the newest state.", "quantifier": "all iteration counts and histories, with every step function", "why_tests_cant": "Parity bugs depend on when a snapshot is requested.", "anchors": ["src/muscl/SolverHydroMuscl.cpp: next_iteration_impl, godunov_unsplit, save_solution_impl, compute_dt_local"]}
{"id": "C17", "title": "Configuration: the last assignment of a key wins and other keys are unaffected", "statement": "After parsing a parameter file, looking up (section,name) returns the value of the last assignment to that key in the file, comparing section and name case-insensitively, and the default when there is none.", "quantifier": "all sequences of well-formed lines (sections, assignments, comments, blank lines)", "why_tests_cant": "Unbounded input space.", "anchors": ["src/utils/config/inih/ini.cpp: ini_parse_buffer", "src/utils/config/inih/INIReader.cpp: valueHandler, makeKey", "src/utils/config/ConfigMap.cpp"]}
{"id": "C18", "title": "Configuration: set then get returns the value", "statement": "Setting a string, boolean or integer parameter and reading it back with the same section/name (any letter case) returns it; any other key keeps its value; the documented boolean spellings decode as documented and anything else gives the default.", "quantifier": "all keys, values, previous contents", "why_tests_cant": "Unbounded.", "anchors": ["src/utils/config/ConfigMap.cpp: setString,setBool,setInteger", "src/utils/config/inih/INIReader.cpp"]}
{"id": "C19", "title": "Configuration: keys containing a dot alias", "statement": "Two different (section,name) pairs denote the same parameter exactly when their lower-cased 'section.name' strings agree; so section 'a.b' name 'c' and section 'a' name 'b.c' are the same parameter.", "quantifier": "all pairs of keys", "why_tests_cant": "All pairs.", "anchors": ["src/utils/config/inih/INIReader.cpp: makeKey"]}
{"id": "C20", "title": "Configuration: parsing is total, error reporting returns the first bad line", "statement": "Parsing any text terminates, never aborts early, and returns 0 exactly when every line is well formed, otherwise the number of the first malformed line, with assignments of all well-formed lines applied.", "quantifier": "all byte strings", "why_tests_cant": "Unbounded input.", "anchors": ["src/utils/config/inih/ini.cpp: ini_parse_buffer, ini_parse"]}
{"id": "C21", "title": "Configuration: serial and MPI parsers agree on short lines", "statement": "The file parser used without MPI and the buffer parser used with MPI produce the same configuration for every file all of whose lines have fewer than 199 characters, and can differ when a line is longer.", "quantifier": "all files; existence statement for the difference", "why_tests_cant": "Unbounded input.", "anchors": ["src/utils/config/inih/ini.cpp: ini_parse, ini_parse_buffer", "src/utils/config/ConfigMap.cpp: broadcast_parameters"]}
{"id": "C22", "title": "Hydro step conserves mass, momentum and energy on periodic domains", "statement": "With periodic boundaries and no gravity, one step of the 2D and 3D MUSCL scheme changes each of the total mass, momentum components and energy by exactly zero (exact arithmetic), whatever the Riemann solver, limiter, time step and state.", "quantifier": "all grid sizes, states, time steps, Riemann solver choices; exact arithmetic", "why_tests_cant": "All states and sizes.", "anchors": ["src/muscl/HydroRunFunctors2D.h: ComputeAndStoreFluxesFunctor2D, UpdateFunctor2D", "src/muscl/HydroRunFunctors3D.h", "src/muscl/SolverHydroMuscl.cpp: godunov_unsplit_impl"]}
{"id": "C23", "title": "Hydro step: change of the totals is the boundary flux", "statement": "For any boundary condition the change of each conserved total over the interior equals the net flux through the domain boundary.", "quantifier": "all sizes, fluxes", "why_tests_cant": "All sizes and data.", "anchors": ["src/muscl/HydroRunFunctors2D.h: UpdateFunctor2D", "src/muscl/HydroRunFunctors3D.h: UpdateFunctor3D", "src/mood/MoodUpdateFunctors.h"]}
{"id": "C24", "title": "The two implementations of the 2D hydro step agree", "statement": "Selecting implementationVersion 0 or 1 gives the same result for the 2D hydro MUSCL scheme (bit for bit, as both perform the same operations up to the order of the two directional updates), with and without gravity.", "quantifier": "all sizes, states, time steps, slope types 0,1,2, Riemann solvers", "why_tests_cant": "All inputs.", "anchors": ["src/muscl/HydroRunFunctors2D.h: ComputeAndStoreFluxesFunctor2D, UpdateFunctor2D, ComputeSlopesFunctor2D, ComputeTraceAndFluxes_Functor2D, UpdateDirFunctor2D", "src/muscl/SolverHydroMuscl.cpp"]}
{"id": "C25", "title": "The two implementations of the 3D hydro step agree", "statement": "Selecting implementationVersion 0 or 1 gives the same result for the 3D hydro MUSCL scheme.", "quantifier": "all sizes, states, time steps, slope types, Riemann solvers, gravity fields", "why_tests_cant": "All inputs; the difference only shows with a gravity field along z.", "anchors": ["src/muscl/HydroRunFunctors3D.h: ComputeAndStoreFluxesFunctor3D, ComputeTraceAndFluxes_Functor3D"]}
{"id": "C26", "title": "A uniform flow is left unchanged by the hydro step", "statement": "If the state is the same in every cell (ghosts included), no gravity, density and pressure above the floors, the step returns the same state for every consistent Riemann solver.", "quantifier": "all uniform states, sizes, time steps", "why_tests_cant": "All states.", "anchors": ["src/muscl/HydroRunFunctors2D.h", "src/muscl/HydroBaseFunctor2D.h", "src/shared/RiemannSolvers.h"]}
{"id": "C27", "title": "Hydro Riemann solvers are consistent", "statement": "Given identical left and right states with positive density and pressure above the floors, the LLF, HLL, HLLC and approximate solvers return the physical Euler flux of that state.", "quantifier": "all physical states, all gamma > 1", "why_tests_cant": "All states.", "anchors": ["src/shared/RiemannSolvers.h: riemann_llf, riemann_hll, riemann_hllc, riemann_approx, cmpflx"]}
{"id": "C28", "title": "Hydro Riemann solvers respect mirror symmetry", "statement": "Mirroring the problem (swap left/right, negate normal velocities) negates the mass, energy and transverse momentum fluxes and keeps the normal momentum flux.", "quantifier": "all pairs of states (LLF, HLL, HLLC); all pairs of states whose computed contact velocity is not exactly zero (approximate solver)", "why_tests_cant": "All states.", "anchors": ["src/shared/RiemannSolvers.h: riemann_llf, riemann_hll, riemann_hllc"]}
{"id": "C29", "title": "Riemann solver selection always computes a flux", "statement": "For each Riemann solver name the configuration accepts, the 2D hydro, 3D hydro and MHD flux routines compute the flux. (False for HLL in 3D hydro, HLLD in hydro, and approx/hllc in MHD, for which the flux is never assigned.)", "quantifier": "all solver names x dimension x physics", "why_tests_cant": "Reading an unassigned variable is undefined behaviour and may look fine in a test.", "anchors": ["src/shared/RiemannSolvers.h: riemann_hydro", "src/shared/RiemannSolvers_MHD.h: riemann_mhd", "src/shared/HydroParams.cpp: setup"]}
{"id": "C30", "title": "Limited slopes create no new extrema", "statement": "The limited slope has the sign of both one-sided differences or is zero, its magnitude never exceeds slope_type times either one-sided difference nor the centred difference, so the reconstructed face values (q +/- slope/2) stay between the neighbouring cell values for slope_type 1 and 2.", "quantifier": "all real triples of cell values, slope_type 1 and 2", "why_tests_cant": "All reals.", "anchors": ["src/muscl/HydroBaseFunctor2D.h: slope_unsplit_hydro_2d_scalar", "src/muscl/HydroBaseFunctor3D.h: slope_unsplit_hydro_3d_scalar"]}
{"id": "C31", "title": "Primitive variables are always physical", "statement": "Converting any conservative state gives density >= smallr > 0, pressure >= smallp*density > 0 and a well-defined positive sound speed; for states above the floors converting back gives the original state.", "quantifier": "all conservative states, gamma > 1, positive floors", "why_tests_cant": "All reals.", "anchors": ["src/muscl/HydroBaseFunctor2D.h: computePrimitives, eos", "src/muscl/HydroBaseFunctor3D.h: computePrimitives"]}
{"id": "C32", "title": "Time step honours the CFL condition in every cell", "statement": "The time step times (|u|+c)/dx + (|v|+c)/dy (+ z) is at most cfl in every interior cell, and equality holds in some cell.", "quantifier": "all sizes, states", "why_tests_cant": "All sizes and states.", "anchors": ["src/muscl/HydroRunFunctors2D.h: ComputeDtFunctor2D", "src/muscl/SolverHydroMuscl.cpp: compute_dt_local"]}
{"id": "C33", "title": "Gravity source keeps internal energy and adds the expected momentum", "statement": "The gravity source term changes momentum by dt/2*g*(rho_old+rho_new), total energy exactly by the change of kinetic energy (internal energy unchanged), and leaves density unchanged.", "quantifier": "all states with nonzero density, all gravity fields", "why_tests_cant": "All reals.", "anchors": ["src/muscl/HydroRunFunctors2D.h: GravitySourceTermFunctor2D", "src/muscl/HydroRunFunctors3D.h: GravitySourceTermFunctor3D"]}
{"id": "C34", "title": "Constrained transport keeps div B in 2D", "statement": "The discrete divergence of the face-centred magnetic field of every cell whose four faces are updated is unchanged by the step; with periodic boundaries and refilled ghosts this is every interior cell. (Fails in the last row/column for non-periodic boundaries.)", "quantifier": "all sizes, emf fields, states, time steps; exact arithmetic", "why_tests_cant": "All data.", "anchors": ["src/muscl/MHDRunFunctors2D.h: UpdateEmfFunctor2D", "src/muscl/SolverMHDMuscl.cpp"]}
{"id": "C35", "title": "Constrained transport keeps div B in 3D", "statement": "Same statement in 3D with three emf components.", "quantifier": "all sizes, emf fields, states, time steps; exact arithmetic", "why_tests_cant": "All data.", "anchors": ["src/muscl/MHDRunFunctors3D.h: UpdateEmfFunctor3D", "src/muscl/SolverMHDMuscl.cpp"]}
{"id": "C36", "title": "The store-and-update and atomic implementations of the MHD step agree", "statement": "implementationVersion 0 (store fluxes and emf, then update) and 1 (atomic updates) of the MHD step give the same interior result in exact arithmetic, under every thread schedule.", "quantifier": "all sizes, fluxes, emfs, schedules", "why_tests_cant": "All schedules and data.", "anchors": ["src/muscl/MHDRunFunctors2D.h", "src/muscl/MHDRunFunctors3D.h"]}
{"id": "C37", "title": "MHD Riemann solvers are consistent", "statement": "Given identical left and right states the MHD LLF, HLL and HLLD solvers return the physical MHD flux, and the two-dimensional emf solver with four identical states returns the electric field u*B-v*A of that state.", "quantifier": "all physical MHD states", "why_tests_cant": "All reals.", "anchors": ["src/shared/RiemannSolvers_MHD.h: riemann_llf, riemann_hll, riemann_hlld, mag_riemann2d_hlld, compute_emf", "src/shared/mhd_utils.h: find_mhd_flux, find_speed_info"]}
{"id": "C38", "title": "Fast magnetosonic speed is well defined", "statement": "The radicands in the fast speed are non-negative for every physical state, the fast speed is at least the sound speed and at least the Alfven speed along the direction.", "quantifier": "all states with positive density and pressure", "why_tests_cant": "All reals.", "anchors": ["src/shared/mhd_utils.h: find_speed_fast, find_speed_alfven"]}
{"id": "C39", "title": "Characteristic transform and its inverse cancel", "statement": "Converting a conservative vector to characteristic variables and back (either order) returns it, for each direction in 2D and 3D.", "quantifier": "all vectors, all reference states with nonzero sound speed and gamma != 1", "why_tests_cant": "All reals; a single wrong coefficient in one direction breaks it.", "anchors": ["src/shared/EulerEquations.h: cons_to_charac, charac_to_cons"]}
{"id": "C40", "title": "Monomial map lists every monomial exactly once within its table", "statement": "The table of exponents built for (dim,degree) contains every exponent vector of total degree at most degree exactly once, in graded order, and the number of entries is the binomial coefficient it is sized with (so no write outside the table).", "quantifier": "all degrees, dimensions 2 and 3", "why_tests_cant": "All degrees.", "anchors": ["src/mood/monomials_ordering.h: mono_next_grlex", "src/mood/MonomialMap.h: init_map", "src/mood/Binomial.h"]}
{"id": "C41", "title": "Binomial coefficients are correct", "statement": "The template binomial and, as long as no intermediate product leaves the int range (guaranteed up to n = 26), the run-time binomial return n choose k for every 0<=k<=n; the closed forms that size the tables agree with it. For larger arguments the run-time function overflows int although its result fits (32 choose 16).", "quantifier": "all n,k", "why_tests_cant": "All n,k.", "anchors": ["src/mood/Binomial.h: binom, Binomial"]}
{"id": "C42", "title": "Reconstruction polynomials reproduce the cell average", "statement": "The geometric terms are the cell means of the monomials and the geometry matrix holds differences of means. If the stencil values are the cell means of a polynomial of the stencil's degree, the code recovers all its non-constant coefficients. The reconstruction keeps the cell value as its mean for degree 1, but not for degree 2 and above: the constant coefficient is the cell value itself although the evaluated monomials do not have the cell mean subtracted, so the mean is off by the means of the even monomials (proved for every 2D stencil of degree at least 2).", "quantifier": "all coefficients, dx, dy, dz, degrees", "why_tests_cant": "All reals.", "anchors": ["src/mood/GeometricTerms.cpp: eval_moment, eval_hat", "src/mood/mood_utils.h: fill_geometry_matrix"]}
{"id": "C43", "title": "MOOD: a cell flagged as inadmissible is recomputed with the robust flux on all its faces", "statement": "If the candidate update of a cell yields negative density or pressure, the fluxes on all four (six) faces of this cell are replaced by first-order fluxes. (False: the flag of the lower neighbour is never read and pressure is tested on the old state.)", "quantifier": "all states, fluxes, cells", "why_tests_cant": "All data; visible only at inadmissible cells.", "anchors": ["src/mood/MoodUpdateFunctors.h: ComputeMoodFlagsUpdateFunctor", "src/mood/MoodFluxesFunctors.h: RecomputeFluxesFunctor"]}
{"id": "C44", "title": "MOOD: 3D flux along z is scaled with dt/dz", "statement": "The update contribution of the z faces equals dt/dz times the z flux. (False unless dy = dz: dt/dy is used.)", "quantifier": "all spacings and states", "why_tests_cant": "Every shipped test uses cubic cells.", "anchors": ["src/mood/MoodFluxesFunctors.h: ComputeFluxesFunctor (flux along Z)"]}
{"id": "C45", "title": "Runge-Kutta stages are convex combinations of Euler steps", "statement": "The SSP-RK2 and SSP-RK3 updates equal the textbook convex combination of forward-Euler steps, so a bound that every Euler step keeps is kept, and totals conserved by Euler steps are conserved.", "quantifier": "all states and flux functions", "why_tests_cant": "All inputs.", "anchors": ["src/mood/MoodUpdateFunctors.h: UpdateFunctor, UpdateFunctor_ssprk2, UpdateFunctor_weight", "src/mood/SolverHydroMood.h: time_integration_*"]}
{"id": "C46", "title": "Stencils stay inside the ghost layer", "statement": "For each stencil except the 3D one of degree 4 the number of listed offsets equals the declared size, offsets are distinct and the origin is included; for every stencil all offsets from any cell at most one layer outside the interior stay inside the array, and stencil names select the right stencil. The 3D degree 4 stencil stores 57 of 63 offsets: the rest read as the origin.", "quantifier": "all stencils, all array sizes and cells", "why_tests_cant": "All sizes and cells.", "anchors": ["src/mood/Stencil.cpp", "src/mood/Stencil.h", "src/mood/MoodPolynomialReconstructionFunctors.h"]}
{"id": "C47", "title": "Quadrature rules are exact", "statement": "The face quadrature rules with 1, 2, 3 points per direction have weights summing to one and integrate every polynomial of degree up to 1, 3, 5 (per tangential direction) exactly up to the error of the literals for the square roots (1e-36 times the sum of the coefficients for 1 and 2 points, 1e-16 for 3 points, where the literal for sqrt(0.6) is wrong from digit 17 on); every stencil gets enough points for its degree, and the two cells of a face use the same points in space.", "quantifier": "all polynomials of the given degree", "why_tests_cant": "All coefficients.", "anchors": ["src/mood/QuadratureRules.h", "src/mood/MoodFluxesFunctors.h"]}
{"id": "C48", "title": "Matrix assignment and transposition", "statement": "Copying, transposing, extracting a minor and multiplying matrices gives the mathematical result for all shapes and entries and never leaves the storage; transposing twice gives the original; mismatching shapes are refused in mult. Assignment makes the target equal. (False: assigning between equal element counts and different shapes keeps the old shape; a.mult(a, b) with the target as an operand gives zero.)", "quantifier": "all shapes and entries", "why_tests_cant": "All shapes.", "anchors": ["src/mood/Matrix.h: operator=, transpose, mult"]}
{"id": "C49", "title": "Unsupported slope types and solvers", "statement": "For supported settings (hydro: slope type 0, 1, 2 and a solver of the dispatch; MHD: slope type 1 or 2 in 2D, solver HLLD, HLL or LLF) the result of a step does not depend on uninitialised variables. For every other slope type (hydro; 2D MHD) and for the solvers missing from the dispatch (hydro HLLD; MHD approx and HLLC), which the configuration accepts, it does.", "quantifier": "all slope_type values", "why_tests_cant": "Undefined behaviour may look fine in a test.", "anchors": ["src/muscl/HydroBaseFunctor2D.h: slope_unsplit_hydro_2d", "src/muscl/MHDBaseFunctor2D.h: slope_unsplit_hydro_2d"]}
{"id": "C50", "title": "Solver factory returns the registered solver", "statement": "For every registered name the factory creates the solver registered last under this name, and unknown names never return a solver.", "quantifier": "all registration sequences and names", "why_tests_cant": "All sequences.", "anchors": ["src/shared/SolverFactory.h: registerSolver, create"]}
{"id": "C51", "title": "Grid parameters are consistent", "statement": "Array extents equal interior size plus twice the ghost width, the cells tile the domain exactly, and in MPI runs the per-rank subdomains tile the global domain with the same spacing.", "quantifier": "all sizes, bounds, process grids", "why_tests_cant": "All parameters.", "anchors": ["src/shared/HydroParams.cpp: setup, setup_mpi, init"]}
{"id": "C52", "title": "A log interval of zero is undefined behaviour", "statement": "A run whose parameter file asks for a log interval (nlog) of zero is undefined behaviour exactly when at least one time step is to be done; every other run of the MUSCL time loop is well defined.", "quantifier": "all parameters, initial states and schemes", "why_tests_cant": "Integer remainder by zero traps on some machines only, and the converse ranges over all runs.", "anchors": ["src/muscl/SolverHydroMuscl.h: next_iteration_impl", "src/shared/HydroParams.cpp: setup"]}
{"id": "C53", "title": "Configuration: comments that become values", "statement": "A comment never becomes the value of a parameter. (False: an indented comment line after an assignment replaces the assigned value, and 'name = ; comment' stores the comment as the value, for every comment text.)", "quantifier": "all comment texts", "why_tests_cant": "Ranges over all comment texts; the failing layouts are unusual.", "anchors": ["src/utils/config/inih/ini.cpp: ini_parse_buffer, find_char_or_comment"]}
{"id": "C54", "title": "Hydro Riemann solvers never divide by zero or take the root of a negative number", "statement": "With gamma > 1 and positive floors, the LLF, HLL, HLLC and approximate solvers perform no division by zero and no square root of a negative number, for every pair of input states including negative density or pressure; in HLLC the contact wave lies strictly between the outer waves and the star densities are positive.", "quantifier": "all pairs of states, all gamma > 1, all positive floors; exact arithmetic", "why_tests_cant": "The denominators depend on ten continuous inputs; vanishing is a codimension-one event that samples miss.", "anchors": ["src/shared/RiemannSolvers.h: riemann_approx, riemann_llf, riemann_hll, riemann_hllc", "src/shared/HydroParams.cpp: init"]}
{"id": "C55", "title": "HLL and HLLC are upwind in supersonic flow", "statement": "If both states are above the floors and both move in the same direction at least as fast as the larger sound speed, HLL and HLLC return the Euler flux of the upwind state, so nothing downstream influences the flux.", "quantifier": "all pairs of states meeting the premise, both directions, 2D and 3D", "why_tests_cant": "Quantifies over a continuum of states; the branch boundary (equality) is never hit by samples.", "anchors": ["src/shared/RiemannSolvers.h: riemann_hll, riemann_hllc"]}
{"id": "C56", "title": "HLLC keeps isolated contact discontinuities exactly", "statement": "For states with equal normal velocity and pressure, HLLC returns the Euler flux of the upwind side (only the pressure if the contact is at rest), whatever the densities and transverse velocities. LLF does not.", "quantifier": "all pairs of states above the floors with equal velocity and pressure", "why_tests_cant": "Exact statement over a continuum of density and transverse velocity pairs.", "anchors": ["src/shared/RiemannSolvers.h: riemann_hllc, riemann_llf"]}
{"id": "C57", "title": "The MUSCL predictor advances by half a time step when the spacings are equal, and not otherwise", "statement": "With dx = dy = dz the traced face states equal the half-step prediction of the Euler equations plus or minus half a slope; on grids with unequal spacings they do not, because every trace uses the spacing of its own direction for the derivatives in all directions.", "quantifier": "all states, slopes, time steps; counterexample with dy = 2 dx", "why_tests_cant": "All reals; test problems use equal spacings.", "anchors": ["src/muscl/HydroBaseFunctor3D.h: trace_unsplit_3d_along_dir"]}
{"id": "C58", "title": "A hydro step is memory safe, race free and independent of the thread schedule", "statement": "For every admissible grid, boundary condition, configuration, state and time step, all loops of a 2D or 3D MUSCL hydro step access only allocated entries, have no data race, terminate, and produce one result under every interleaving; the interior of the input buffer and the gravity field survive.", "quantifier": "all grids with at least two ghost layers and nx,ny,nz >= ghostWidth, all states, time steps, configurations and schedules", "why_tests_cant": "A test runs one schedule on one grid; a race or out-of-range access may stay invisible.", "anchors": ["src/muscl/SolverHydroMuscl.cpp: godunov_unsplit_impl", "src/muscl/HydroRunFunctors2D.h", "src/muscl/HydroRunFunctors3D.h"]}
{"id": "C59", "title": "With gravity the time step limits the accelerated travel distance", "statement": "With static gravity the time step is such that in every interior cell a signal starting with speed sum(|velocity|+c) and accelerated by sum|g| covers at most cfl times the smallest grid spacing; it does not depend on how the reduction was distributed over threads.", "quantifier": "all sizes, states, gravity fields, reduction orders", "why_tests_cant": "All sizes, states and reduction trees.", "anchors": ["src/muscl/HydroRunFunctors2D.h: ComputeDtGravityFunctor2D", "src/muscl/HydroRunFunctors3D.h: ComputeDtGravityFunctor3D"]}
{"id": "C60", "title": "A hydro step is one step of the MUSCL-Hancock scheme", "statement": "On a grid of square (cubic) cells, or on any uniform grid with slope_type 0, one step of the MUSCL hydro solver (2D or 3D, implementationVersion 0 or 1, slope_type 0, 1 or 2, any Riemann solver the code supports in that dimension, with or without gravity, any boundary conditions) computes in every interior cell exactly (in real arithmetic) the update of the textbook unsplit MUSCL-Hancock scheme: primitive variables, limited slopes from the two neighbours along each axis, half-step prediction by the Euler equations, numerical flux at each face, conservative update, gravity source. Exceptions: 3D implementation 1 with gravity, and 2D gravity cells below the density floor.", "quantifier": "for all grids, boundary conditions, memories, time steps, settings with equal spacings or slope_type 0, slope_type in {0,1,2} and supported Riemann solver, all schedules", "why_tests_cant": "Reference solutions only compare a few flows; swapped neighbours, a wrong sign in one transverse term or a wrong face index change the result at truncation-error level and pass visual checks. The claim is an identity for all states.", "anchors": ["src/muscl/HydroRunFunctors2D.h:182-1256", "src/muscl/HydroRunFunctors3D.h:196-1421", "src/muscl/HydroBaseFunctor2D.h:79-518", "src/muscl/HydroBaseFunctor3D.h:81-576", "src/muscl/SolverHydroMuscl.cpp:257-403"]}
{"id": "C61", "title": "MHD Riemann solvers never divide by zero", "statement": "For every pair of states with positive density and pressure the MHD LLF and HLL solvers, and for every four such states the edge (emf) solver, evaluate no division by zero and no square root of a negative number; HLLD can only fail through its two denominators estar, which cannot vanish when there is no normal field, and its contact wave always lies strictly between the outer waves.", "quantifier": "for all physical left/right (four corner) states, all edge directions, gamma > 1, smallc > 0", "why_tests_cant": "The denominators vanish on thin sets of states that random tests miss, and a NaN then spreads over the grid.", "anchors": ["src/shared/RiemannSolvers_MHD.h:27-392", "src/shared/RiemannSolvers_MHD.h:398-874", "src/shared/mhd_utils.h:89-231"]}
{"id": "C62", "title": "MHD Riemann solvers are mirror symmetric", "statement": "Exchanging left and right and changing the sign of normal velocity and normal field changes the fluxes of LLF, HLL and HLLD exactly as mirroring does (mass, energy, transverse momentum and transverse induction flux change sign, normal momentum flux does not); at a reflecting wall LLF and HLL give no mass, energy, transverse momentum or induction flux. HLLD: provided its five wave speeds are in order and none is exactly zero.", "quantifier": "for all left and right states", "why_tests_cant": "An asymmetry between the left and right branch shows only for particular sign patterns of five wave speeds.", "anchors": ["src/shared/RiemannSolvers_MHD.h:27-367"]}
{"id": "C63", "title": "MHD HLL, HLLD and the edge solver are upwind", "statement": "If all waves between two states with the same normal field move to the right (left), HLL and HLLD return the MHD flux of the left (right) state. If the four states around an edge all move into one quadrant at least with the fast speeds, the edge solver returns the electric field of the state in the opposite quadrant.", "quantifier": "for all pairs of physical states with equal normal field", "why_tests_cant": "Shock tube tests do not cover all super-fast inflow states in both directions.", "anchors": ["src/shared/RiemannSolvers_MHD.h:27-67", "src/shared/RiemannSolvers_MHD.h:133-367", "src/shared/RiemannSolvers_MHD.h:398-874"]}
{"id": "C64", "title": "An MHD step is memory safe, race free and schedule independent", "statement": "With at least three ghost layers and at least as many cells as ghost layers per direction, the loops of an MHD step (ghost fill included) access only allocated entries, are free of data races, terminate and give a result that does not depend on the thread schedule (implementation 1: in exact arithmetic); the interior of the input buffer survives.", "quantifier": "for all grid sizes, boundary conditions, settings, states, time steps, 2D and 3D, both implementations, all schedules", "why_tests_cant": "A race or an access just outside an array may go unnoticed in any number of runs.", "anchors": ["src/muscl/SolverMHDMuscl.cpp", "src/muscl/SolverMHDMuscl.h", "src/muscl/MHDRunFunctors2D.h", "src/muscl/MHDRunFunctors3D.h"]}
{"id": "C65", "title": "MHD steps conserve all totals on periodic domains", "statement": "On a periodic domain any number of MHD steps leaves the totals of mass, energy, the momentum components and the magnetic field components unchanged (supported Riemann solver and slope type, no rotation in 3D; exact arithmetic).", "quantifier": "for all grid sizes, states, time steps, numbers of steps, 2D and 3D, both implementations, all schedules", "why_tests_cant": "All states; a small leak at one boundary is hidden by round-off in short tests.", "anchors": ["src/muscl/SolverMHDMuscl.cpp", "src/muscl/MHDRunFunctors2D.h", "src/muscl/MHDRunFunctors3D.h"]}
{"id": "C66", "title": "Characteristic variables diagonalise the Euler flux", "statement": "The derivative of the code's Euler flux (flux_x/y/z with compute_pressure) at a gas state, in any direction of state space, expressed with cons_to_charac at the true sound speed, is the characteristic vector of that direction multiplied by u_n - c, u_n, (u_n,) u_n, u_n + c. So the limiter's characteristic fields are the waves of the flux the solver uses.", "quantifier": "for all states with positive density and pressure above the floor, all perturbations, all gamma > 1, x/y (2D) and x/y/z (3D)", "why_tests_cant": "Statement about a derivative at every state; one wrong coefficient is invisible on symmetric or resting states.", "anchors": ["src/shared/EulerEquations.h: cons_to_charac, flux_x, flux_y, flux_z, compute_pressure"]}
{"id": "C67", "title": "Euler conversions, fluxes and sound speed of the SDM solver", "statement": "convert_to_primitive and compute_pressure invert the definition of the conserved quantities for gases above the floors, the flux functions compute the Euler flux in each direction, and in 3D pressure is positive for every positive density. compute_speed_of_sound returns the square of the sound speed: below the sound speed when that is below one and above it when it is above one. In 2D convert_to_primitive and compute_pressure disagree on thin gases because only one floors the density.", "quantifier": "for all states and gamma > 1", "why_tests_cant": "All states; the missing square root is invisible when the sound speed is near one, as in usual test problems.", "anchors": ["src/shared/EulerEquations.h: compute_pressure, convert_to_primitive, compute_speed_of_sound, flux_x, flux_y, flux_z"]}
{"id": "C68", "title": "Viscous flux is a stress tensor that dissipates", "statement": "flux_visc_x/y/z return the rows of mu (grad u + grad u^T - (2/dim) div u I) with energy flux v.tau + heat term; the tensor is symmetric and traceless, its work on the velocity gradient is non-negative for mu >= 0, and a rigid rotation gives no stress.", "quantifier": "for all velocity gradients, velocities, heat terms, mu; 2D and 3D, all directions", "why_tests_cant": "All gradient tensors; a swapped derivative in one component survives shear-only or compression-only tests.", "anchors": ["src/shared/EulerEquations.h: flux_visc_x, flux_visc_y, flux_visc_z"]}
{"id": "C69", "title": "Time step of the spectral difference solver", "statement": "The time step of the spectral difference solver is cfl divided by the largest signal rate over the solution points of the inner cells, but with the square of the sound speed in place of the sound speed: where the sound speed is at least one it honours the CFL condition, and for gas at rest with sound speed a it is 1/a times the CFL limit, so slow gas is advanced with too large a step. With rescale_dt_enabled the step exceeds the limit whenever all rates are below cfl. The result does not depend on the order of the parallel reduction.", "quantifier": "all orders, grids, states and parameters, all reduction orders", "why_tests_cant": "The error shows only for slow gas and then only as an instability; a statement over all states is needed.", "anchors": ["src/sdm/SDM_Dt_Functor.h:247-473", "src/sdm/SolverHydroSDM.h:864-889", "src/shared/EulerEquations.h"]}
{"id": "C70", "title": "Integer powers and setting polynomial coefficients", "statement": "power(x,n) is x^n for every n; mypow(x,n) is x^n for n <= 9 and 0 (wrong for x != 0) from 10 on; polynomial_setCoefs changes exactly the coefficient of the named monomial, so the polynomial changes by (value - old) times that monomial, and it changes nothing for a monomial above the degree.", "quantifier": "all bases and exponents; all degrees, dimensions 2 and 3, all coefficients and points", "why_tests_cant": "All exponents, degrees and coefficients.", "anchors": ["src/mood/Polynomial.h: power, mypow, polynomial_setCoefs, PolynomialEvaluator::eval"]}
{"id": "C71", "title": "The reconstruction's least squares problem has a unique solution", "statement": "For every stencil and all non-zero cell sizes only the zero coefficient vector is mapped to zero by the geometry matrix; so a left inverse exists and the pseudo-inverse the solver computes is well defined.", "quantifier": "all 12 stencils, all real dx, dy, dz != 0", "why_tests_cant": "Non-singularity for all cell sizes; tests fix dx and dy.", "anchors": ["src/mood/Stencil.cpp: init_stencil", "src/mood/mood_utils.h: fill_geometry_matrix", "src/mood/SolverHydroMood.h: init_mood"]}
{"id": "C72", "title": "The pseudo-inverse the solver computes is a left inverse and gives the least-squares solution", "statement": "If dgeqrf and dtrsm do what LAPACK/BLAS document, the solver's initialisation yields for every stencil and all non-zero cell sizes a matrix P with P*G = 1 for the geometry matrix G, and P*b minimises |G x - b| for every b. (False when the output matrix already has the shape of the input: the shape is kept and the result is not the pseudo-inverse.)", "quantifier": "all stencils, cell sizes, right-hand sides, all implementations of the two library routines meeting their contract", "why_tests_cant": "Quantifies over all real cell sizes, right-hand sides and QR implementations.", "anchors": ["src/mood/Matrix.cpp: compute_pseudo_inverse", "src/mood/SolverHydroMood.h: init_mood"]}
{"id": "C73", "title": "A MOOD step is well defined", "statement": "One time step of the MOOD solver (forward Euler, SSP-RK2, SSP-RK3 with all their kernels) has exactly one result whatever the order in which the cells of each kernel run and whatever memory layout is used; it leaves the interior of the input buffer unchanged.", "quantifier": "all stencils, grids with at least ghost-width interior cells, states, time steps, boundary types, schedules, 2D and 3D", "why_tests_cant": "Quantifies over all interleavings of the parallel kernels.", "anchors": ["src/mood/SolverHydroMood.h: time_integration, time_int_forward_euler, time_int_ssprk2, time_int_ssprk3", "src/mood/MoodFluxesFunctors.h", "src/mood/MoodUpdateFunctors.h"]}
{"id": "C74", "title": "MOOD keeps a uniform gas uniform", "statement": "A gas with the same state in every cell is returned unchanged by a MOOD step, for non-reflecting sides, every time step, order, integrator and Riemann solver. (Holds in 2D; false in 3D: the polynomials behind the lower sides are never computed, so mass leaks through the lower sides.)", "quantifier": "all uniform states with non-negative density, all time steps, grids, 2D stencils, pseudo-inverses", "why_tests_cant": "All states and orders; in 3D the error is confined to one layer of cells.", "anchors": ["src/mood/MoodPolynomialReconstructionFunctors.h: ComputeReconstructionPolynomialFunctor", "src/mood/MoodFluxesFunctors.h: ComputeFluxesFunctor"]}
{"id": "C75", "title": "MOOD conserves mass, momentum and energy", "statement": "A forward Euler step changes the totals of the conserved variables by the net inflow through the sides; with periodic sides the totals do not change. (The balance holds always. Conservation holds in 2D if no cell next to a lower side is flagged, and is false otherwise; it is false in 3D.)", "quantifier": "all states, time steps, grids, orders, Riemann solvers", "why_tests_cant": "All states; the tests compare pictures.", "anchors": ["src/mood/MoodUpdateFunctors.h: UpdateFunctor", "src/mood/MoodFluxesFunctors.h: RecomputeFluxesFunctor"]}
{"id": "C76", "title": "Time step of the MOOD solver", "statement": "The time step of the MOOD solver is cfl divided by the largest signal rate over all inner cells, so no signal crosses more than cfl of a cell. With the ssprk3 integrator and degree at least 2 the step is raised to the power (degree+1)/3: this shrinks steps below one and enlarges steps above one, so the CFL condition is violated whenever all rates are below cfl and degree is at least 3. The result does not depend on the order of the parallel reduction.", "quantifier": "all grids, states, degrees, parameters, all reduction orders", "why_tests_cant": "Quantifies over all states and all parallel schedules.", "anchors": ["src/mood/SolverHydroMood.h:760-791", "src/mood/MoodDtFunctor.h:177-335"]}
{"id": "C77", "title": "MOOD solver on several processes exchanges ghost cells", "statement": "When the MOOD solver is run with MPI on mx x my (x mz) processes, after filling the ghost cells a process's ghost cells at an inner border hold the cells of the neighbouring process, as they do for the MUSCL solvers (C10).", "quantifier": "every box size, ghost width, boundary conditions, process grid and state of the whole domain", "why_tests_cant": "Tests run one process; with several, each process silently fills inner borders by the physical boundary condition of the whole domain and the output looks plausible.", "anchors": ["src/mood/SolverHydroMood.h:1429-1530", "src/shared/HydroParams.cpp:145-156", "src/shared/HydroParams.cpp:326-353"]}
{"id": "C78", "title": "A run starts only with a grid that fits its solver", "statement": "If the program reaches its time loop, the parameter file names a solver the build provides, exactly that solver was created, and the dimension, number of variables per cell, ghost layers and MHD flag that HydroParams::setup derived from the name (with its own list of names and substring tests) are those the solver's arrays and kernels need. With any other name, or none, the program stops.", "quantifier": "all parameter files and builds with or without SDM and MOOD", "why_tests_cant": "Two independent lists of names must agree for every name, including names only one of them knows.", "anchors": ["src/shared/HydroParams.cpp: setup", "src/shared/SolverFactory.cpp: SolverFactory", "src/main.cpp: main"]}
{"id": "C79", "title": "Derived settings are valid whatever the parameter file says", "statement": "After a set-up the implementation version is 0, 1 or 2 (the requested one if it is one of these, otherwise 0), the Riemann solver is the named one or approx, gamma6, smallp and smallpp have their defining values, and with gamma0 > 1 and positive smallr and smallc all gas parameters are positive.", "quantifier": "all parameter files", "why_tests_cant": "All values.", "anchors": ["src/shared/HydroParams.cpp: setup, init"]}
{"id": "C80", "title": "Real parameters are used as written in the parameter file", "statement": "The real numbers of the parameter file (and the defaults) are used to the precision of real_t. (False for double precision builds: ConfigMap::getFloat returns float, so every real parameter is a single precision number; for no file does the program use the adiabatic index 1.4. With conversions that round to nearest the relative error is at most 2^-24.)", "quantifier": "all parameter files", "why_tests_cant": "A test compares printed values with few digits; the claim is about all values.", "anchors": ["src/utils/config/ConfigMap.cpp: getFloat", "src/shared/HydroParams.cpp: setup"]}
{"id": "C81", "title": "Every degree of freedom of the spectral difference method has its own place", "statement": "DofMap numbers the variables at the solution points of a cell 0, 1, ..., nb_dof - 1 without gap or collision; DofMapFlux gives every variable at every flux point of each direction its own place below nb_dof_flux.", "quantifier": "all numbers of points, of variables, all points, 2D and 3D", "why_tests_cant": "Infinitely many sizes; a collision only shows for particular index combinations.", "anchors": ["src/sdm/sdm_shared.h: DofMap, DofMapFlux", "src/sdm/SolverHydroSDM.h: allocation"]}
{"id": "C82", "title": "Solution and flux points of the spectral difference method", "statement": "For one to six points per direction: the solution points are the Chebyshev zeros, strictly inside the cell, increasing and symmetric; the flux points are the two faces and the zeros of the Legendre polynomial of degree N-1, increasing and symmetric; no solution point is a flux point, so no matrix entry divides by zero.", "quantifier": "all N from 1 to 6, all points, exact arithmetic", "why_tests_cant": "Equalities of irrational numbers.", "anchors": ["src/sdm/SDM_Geometry.h: init_1d"]}
{"id": "C83", "title": "Interpolation and differentiation matrices are exact on polynomials", "statement": "On every cell, sol2flux reproduces polynomials of degree below N at the flux points, flux2sol polynomials of degree up to N at the solution points, flux2sol_derivative scaled by the inverse cell width their derivative, sol2sol_derivative the derivative of polynomials of degree below N; interpolating to the flux points and back is the identity.", "quantifier": "all polynomials of these degrees, all cells, all N from 1 to 6", "why_tests_cant": "All polynomials and cells.", "anchors": ["src/sdm/SDM_Geometry.h: init_lagrange_1d", "src/sdm/SDMBaseFunctor.h: sol2flux_vector, flux2sol_vector, flux2sol_derivative_vector"]}
{"id": "C84", "title": "The derivative of the fluxes is conservative", "statement": "Whatever the values at the N+1 flux points of a line, the mean over the cell of the polynomial through the N computed derivatives is (last value - first value) / cell width; constant fluxes have zero derivative and constant states are interpolated to the same constant.", "quantifier": "all flux values, all N from 1 to 6", "why_tests_cant": "All values; rounding hides small defects.", "anchors": ["src/sdm/SDMBaseFunctor.h: flux2sol_derivative_vector", "src/sdm/SDM_Geometry.h: init_lagrange_1d"]}
{"id": "C85", "title": "A step of the spectral difference solver is well defined and computes the divergence of the gas fluxes", "statement": "One time step of SolverHydroSDM (inviscid, without limiter), for every order N, dimension, integrator, grid with at least as many cells as ghost layers, boundary condition and state: all kernels stay inside their arrays, are free of data races and give a result that does not depend on the schedule, the loop order of the backend or the previous contents of ghost cells and work arrays. What a stage leaves in Uaux is, at every solution point of every interior cell, the sum over the directions of the derivative of the polynomial through the fluxes at the flux points of the line, where the inner fluxes are Euler fluxes of the interpolated state and the face fluxes are those of the selected Riemann solver, one value shared by both cells.", "quantifier": "all orders N >= 1 (1..6 for the exact formula), 2D and 3D, all grids, boundary conditions, states, time steps, integrators, schedules, both loop orders", "why_tests_cant": "Races and out-of-bounds accesses depend on the schedule and the grid; the equality with the polynomial derivative is over all states and orders.", "anchors": ["src/sdm/SolverHydroSDM.h:1075-1096", "src/sdm/SolverHydroSDM.h:1228-1263", "src/sdm/SDM_Interpolate_Functors.h:76-174", "src/sdm/SDM_Flux_Functors.h:73-267", "src/sdm/SDM_Run_Functors.h:515-564"]}
{"id": "C86", "title": "The spectral difference solver conserves what cannot leave the box", "statement": "The total of a variable is the sum over cells of the integral mean of the cell's polynomial. An explicit stage changes the total by dt times the flux entering through the sides of the box. If along every axis the sides are periodic, or reflecting and the variable is not the momentum normal to them (Riemann solver hllc, hll or llf), a whole step with forward Euler, ssprk2 or ssprk3 keeps the total exactly. With ssprk54 the property fails: every total is multiplied by 1.000000000000001 in each step, because the coefficients of the last stage do not add up to one.", "quantifier": "all orders 1..6, 2D and 3D, all grids, states, time steps, variables", "why_tests_cant": "Conservation is an identity over all states; a drift of 1e-15 per step is below any test tolerance.", "anchors": ["src/sdm/SolverHydroSDM.h:1272-1532", "src/sdm/SDM_Interpolate_Functors.h:400-506", "src/sdm/SDM_Boundaries_Functors.h:58-292"]}
{"id": "C87", "title": "Ghost cells of the spectral difference solver continue the solution", "statement": "make_boundaries of SolverHydroSDM fills all ghost cells, edges and corners included: periodic sides repeat the values point by point, absorbing sides copy the next interior cell, reflecting sides take the mirrored cell with the solution points in mirrored order and the sign of the normal momentum changed, so that the polynomial behind the wall is the mirror image of that in front of it. Interior values and other arrays are unchanged.", "quantifier": "all orders, 2D and 3D, all grids with at least as many cells as ghost layers, all combinations of boundary conditions, all values, all schedules", "why_tests_cant": "Corner values depend on the order of six kernels and on all combinations of conditions.", "anchors": ["src/sdm/SDM_Boundaries_Functors.h:58-292", "src/sdm/SDM_Boundaries_Functors.h:302-686", "src/sdm/SolverHydroSDM.h:1643-1697"]}
{"id": "C88", "title": "The spectral difference solver keeps uniform states", "statement": "A uniform state above the density and pressure floors, without flow through reflecting sides, is reproduced exactly at every solution point by a step with forward Euler, ssprk2 or ssprk3, whatever the time step, order, dimension and boundary conditions. With ssprk54 every variable is multiplied by 1.000000000000001 in each step.", "quantifier": "all orders 1..6, 2D and 3D, all grids, all boundary conditions, all time steps, all uniform states above the floors", "why_tests_cant": "Exact preservation is an identity in real arithmetic over all states and orders.", "anchors": ["src/sdm/SolverHydroSDM.h:1272-1532", "src/sdm/SDM_Geometry.h"]}
{"id": "C89", "title": "Runge-Kutta structure of the spectral difference solver", "statement": "A step with ssprk2 and ssprk3 is the convex combination of explicit Euler steps that defines the strong stability preserving schemes of order two and three; the work arrays U_RK1, U_RK2 are used without interference. A step with ssprk54 performs the five stages of the Spiteri-Ruuth scheme with coefficients rounded to fifteen digits.", "quantifier": "all states, time steps, orders, grids, boundary conditions", "why_tests_cant": "A wrong stage array or coefficient changes the order of accuracy but leaves plausible results.", "anchors": ["src/sdm/SolverHydroSDM.h:955-987", "src/sdm/SolverHydroSDM.h:1272-1532", "src/sdm/SDM_Run_Functors.h:515-628"]}
{"id": "C91", "title": "Limiting in the spectral difference solver keeps what it should", "statement": "With the limiter enabled, the average of every cell is the mean of its values; a cell whose slopes in characteristic variables need no limiting keeps its values, any other is replaced by a linear profile with minmod-limited slopes around the same mean, so that limiting keeps the totals of mass, momentum and energy. All loops are memory safe, race free and schedule independent; uniform gas and first order solutions are untouched.", "quantifier": "every dimension, order, grid, state, threshold and schedule", "why_tests_cant": "The quadrature error is a fixed factor hidden by the shocks the limiter is used on, and conservation must hold for all states.", "anchors": ["src/sdm/SDM_Limiter_Functors.h:30-1180", "src/sdm/SolverHydroSDM.h:992-1067"]}
{"id": "C92", "title": "Time step of the MHD solver honours the CFL condition", "statement": "In 3D, and in 2D when there is no field along z, the MHD time step is such that no fast magnetosonic wave crosses more than cfl of a cell in any direction. In 2D with a field along z and gamma below 2 the step of a uniform state exceeds this limit. The result does not depend on the order of the parallel reduction.", "quantifier": "all grids, states above the floors, parameters, all reduction orders", "why_tests_cant": "Quantifies over all magnetised states; the fast speed is characterised as the largest root of the dispersion relation rather than by the code's formula.", "anchors": ["src/muscl/MHDRunFunctors2D.h:29-98", "src/muscl/MHDRunFunctors3D.h:29-105", "src/muscl/SolverMHDMuscl.h:722-741", "src/shared/mhd_utils.h"]}
{"id": "C93", "title": "MHD primitive variables of the 2D and 3D solvers", "statement": "In every cell with a full set of faces the 3D conversion returns the density, pressure, velocity and the mean of the two face values of each field component of the gas whose conserved variables are stored. The 2D conversion does so too except that it returns half of the field along z, and a pressure too large by 3/8 (gamma-1) Bz^2.", "quantifier": "all grids, all states above the floors", "why_tests_cant": "The 2D error vanishes in every test with the field in the plane.", "anchors": ["src/muscl/MHDRunFunctors2D.h", "src/muscl/MHDRunFunctors3D.h"]}
{"id": "C94", "title": "The HLLD flux is that of a five-wave fan obeying the jump conditions", "statement": "For any two physical states the flux returned by the HLLD solver is the flux, at the position of the face, of a sequence of constant states separated by two outer waves with the speeds min(u)-max(cf), max(u)+max(cf), two Alfven waves and a contact, such that across every wave the jump conditions of the eight conservation laws hold, velocity and total pressure are constant between the outer waves, and all densities are positive. Without normal field this needs no further premise. With normal field the solver replaces the transverse velocity and field by those outside whenever estar/a^2 is within 1e-8 of 1; there the claim fails (a state is given), because the quantity that has to be tested is estar itself.", "quantifier": "all pairs of physical states outside the special case, all gamma > 1", "why_tests_cant": "Quantifies over all pairs of states; the states where the special case misfires form a thin set no sampling hits.", "anchors": ["src/shared/RiemannSolvers_MHD.h:133-367"]}
{"id": "C95", "title": "The MHD step is a consistent conservative scheme and keeps uniform flow", "statement": "After a whole MHD time step every interior cell has changed by the difference of face fluxes (density, momentum, energy) and by the circulation of edge fields around its faces (magnetic field), and wherever the flow is uniform over the cells around a face or edge those are exactly the physical MHD flux along the direction of the face and the component of -v x B along the edge. In particular a uniform flow with uniform magnetic field in a box without reflecting sides is left unchanged by a step, whatever the time step.", "quantifier": "all grids, all adiabatic settings, slope type 1 or 2, LLF, HLL and HLLD, both 2D and 3D (in 2D a field in the plane), all uniform gases above the floors", "why_tests_cant": "A wrong component, sign or rotation in one of the three directions shows only for flows with that component present; all flows have to be covered.", "anchors": ["src/muscl/SolverMHDMuscl.h", "src/muscl/MHDRunFunctors2D.h", "src/muscl/MHDRunFunctors3D.h", "src/shared/RiemannSolvers_MHD.h"]}
{"id": "C96", "title": "The half time step of the MHD solver keeps the field continuous and its divergence", "statement": "The predicted magnetic field normal to a face is the same seen from both cells next to the face, and its discrete divergence in each cell is the divergence of the stored field, whatever the primitive variables, slopes and time step.", "quantifier": "all grids, settings, states and time steps, 2D and 3D", "why_tests_cant": "Holds for every state; a small error in one of the edge fields shows up only as slowly growing monopoles.", "anchors": ["src/muscl/MHDRunFunctors2D.h", "src/muscl/MHDRunFunctors3D.h", "src/muscl/MHDBaseFunctor2D.h", "src/muscl/MHDBaseFunctor3D.h"]}
{"id": "C97", "title": "An MHD step is one step of the MUSCL-Hancock scheme with constrained transport", "statement": "The value a whole MHD time step writes in an interior cell is that of the scheme written once in vector notation for any direction: floored primitive variables from face-averaged fields, limited slopes, half-step prediction of gas by the quasi-linear equations and of face fields by the circulation of the edge electric field, face and edge reconstruction with floors, one Riemann solver per face in rotated axes, one electric field per edge, and the conservative and circulation updates. The 2D solver differs from the scheme only by the halved z field in its primitive variables and by ignoring rotation.", "quantifier": "all grids and states, slope type 1 or 2, all Riemann solvers the solver can use, both implementations, 2D and 3D", "why_tests_cant": "The code is written out by hand for every direction and corner; only a proof compares each of the copies with the scheme for all states.", "anchors": ["src/muscl/SolverMHDMuscl.h", "src/muscl/MHDRunFunctors2D.h", "src/muscl/MHDRunFunctors3D.h", "src/muscl/MHDBaseFunctor2D.h", "src/muscl/MHDBaseFunctor3D.h"]}
{"id": "C98", "title": "The edge solver of the MHD code respects the symmetries of the equations and is diffusive", "statement": "The electric field computed for an edge changes sign when the two axes across the edge are exchanged, when one of them is reversed (no outer wave at rest exactly) and when the magnetic field is reversed, and is unchanged when the axis along the edge is reversed. For gas at rest with equal total pressure around the edge it is minus a positive multiple of each part of the current along the edge, so that the field diffuses and never grows.", "quantifier": "all edge directions, all quadruples of states (physical states at rest for the last claim)", "why_tests_cant": "Nine cases selected by the signs of four wave speeds; symmetries relate all of them for all states. A wrong sign in one term is an anti-diffusion only visible after long runs.", "anchors": ["src/shared/RiemannSolvers_MHD.h:398-874"]}
{"id": "C99", "title": "The fluxes of the MOOD solver are consistent in every direction", "statement": "Where the gas is the same on both sides of the lower face of a flagged cell the flux stored for the face is the physical flux in that direction times time step over cell size; if gas enters a flagged cell faster than sound in 2D it is the flux of the gas it comes from; where the gas is uniform over the stencils of both cells of a face the high order flux is the physical flux, times time step over the cell size the code uses (dy in place of dz in direction z, see C44).", "quantifier": "all grids, stencils, directions, gases above the floors", "why_tests_cant": "Flagged cells are rare and occur near shocks, where a wrong rotation of the recomputed flux is hidden.", "anchors": ["src/mood/MoodFluxesFunctors.h", "src/mood/SolverHydroMood.h"]}
{"id": "C100", "title": "The magnetic field of the initial conditions is free of divergence", "statement": "After the set-up of an MHD run (initial condition, ghost cells, second copy, primitive variables) the discrete divergence of the magnetic field is zero in every cell for all problems, provided an implosion has equal fields inside and outside, a field loop lies inside the domain and a wave was made for the domain; in a periodic box it is zero after any number of steps. Otherwise it is not: an implosion has the divergence of the jump, and with default parameters the field loop is cut by the boundary and the run carries the divergence for ever. The set-up accesses only allocated entries, has no data race and one result.", "quantifier": "all problems and their parameters, random numbers, grids, boundary conditions, schedules, numbers of steps", "why_tests_cant": "The divergence is a cancellation between cells for all grids and parameters; wrap-around holds only if the wave length fits the box exactly.", "anchors": ["src/muscl/MHDInitFunctors2D.h", "src/muscl/MHDInitFunctors3D.h", "src/muscl/SolverMHDMuscl.h:663-709", "src/shared/problems/WaveParams.h:31-147"]}
{"id": "C101", "title": "The MHD solver starts from the documented state of the chosen problem", "statement": "After the set-up of an MHD run the primitive variables of every interior cell (whose upper neighbours are interior) are those of the documented plasma at the centre of the cell: 3D blast, Orszag-Tang vortex, smooth and sharp shear layers, 3D field loop, implosion between gases at rest. Violated by: the 2D blast (higher pressure, weaker field in every cell), the rotor (velocity scaled: 2D taper not cut off in the disc, 3D velocity stored as momentum), the implosion of moving gas, the 2D field loop (pressure too low), 3D shear layers with random perturbation (no field), shear layers without a kind of perturbation and 2D waves (nothing is set up).", "quantifier": "all parameters, grids, domains, memories, interior cells", "why_tests_cant": "A wrong initial plasma runs without complaint; the errors depend on dimension, density and position and are small in the default runs.", "anchors": ["src/muscl/MHDInitFunctors2D.h", "src/muscl/MHDInitFunctors3D.h", "src/muscl/SolverMHDMuscl.h"]}
{"id": "C102", "title": "The hydro solver starts from the documented state of the chosen problem", "statement": "After the set-up of a hydro run every interior cell holds the density, momentum and energy of the documented gas (blast, shear layers, Gresho vortex, isentropic vortex, rising bubble, Rayleigh-Taylor, implosion) at the centre of the cell in the whole domain, in both copies of the state; the set-up accesses only allocated entries and has no race. Violations: the implosion stores velocity as momentum, the 3D Gresho vortex also moves along z, the Rayleigh-Taylor energy lacks the kinetic part of the perturbation, and shear layers without a selected perturbation are not set up at all (zero density).", "quantifier": "all parameters, grids, process positions, random numbers, schedules", "why_tests_cant": "A wrong initial state runs without complaint; the tests only look at a few default parameters, for which momentum and velocity agree.", "anchors": ["src/muscl/HydroInitFunctors2D.h", "src/muscl/HydroInitFunctors3D.h", "src/muscl/SolverHydroMuscl.h"]}
{"id": "C103", "title": "The initial state does not depend on the decomposition among processes", "statement": "Two processes of two decompositions of one domain (one may be the run on a single process) set up bit by bit the same state, and the same gravity, in cells at the same place of the whole domain: for all hydro problems without random numbers in all cells, for all MHD problems without random numbers except the field loop in all interior cells. Of the field loop this holds for density, field and horizontal momentum; the vertical momentum in 2D is computed from the cell numbers of the process and differs.", "quantifier": "all problems and parameters, pairs of decompositions, cells, arithmetics", "why_tests_cant": "Decompositions are unbounded in number, and a missing process offset is invisible on one process.", "anchors": ["src/muscl/HydroInitFunctors2D.h", "src/muscl/HydroInitFunctors3D.h", "src/muscl/MHDInitFunctors2D.h", "src/muscl/MHDInitFunctors3D.h"]}
{"id": "C104", "title": "The vortex problems start from exact solutions of the Euler equations", "statement": "The state set up for the isentropic vortex is the initial state of an exact solution of the Euler equations, the vortex carried along by the flow; that of the Gresho vortex is a steady solution if the density is 1, and is not for any other density.", "quantifier": "all parameters, points and times", "why_tests_cant": "Convergence studies compare with the exact solution at a few resolutions; that it is a solution is a statement about derivatives everywhere.", "anchors": ["src/muscl/HydroInitFunctors2D.h", "src/shared/problems/IsentropicVortexParams.h", "src/shared/problems/GreshoParams.h"]}
{"id": "C105", "title": "The 2D Riemann problems are the tabulated four wave problems", "statement": "For every configuration number except 5 and 9 each of the four interfaces is a single shock, rarefaction or contact to within 1/1000, as the classification requires; the numbers 0 to 17 select different problems, all others the first one; the four gases fill the quadrants around the chosen point. Numbers 5 and 9 violate it, and the entry meant for 18 cannot be selected.", "quantifier": "all configuration numbers, grids, positions of the crossing point", "why_tests_cant": "A mistyped digit in a table still gives a plausible run.", "anchors": ["src/shared/problems/initRiemannConfig2d.h", "src/muscl/HydroInitFunctors2D.h"]}
{"id": "C106", "title": "Stratified problems start in hydrostatic balance", "statement": "For the Rayleigh-Taylor problem at rest and the rising bubble the gravity field is uniform in all cells, and the pressure difference between two cells is the weight of gas of their mean density, plus a jump that vanishes if the densities are equal or the point between them is at zero potential. At the interface of the Rayleigh-Taylor problem the balance fails unless the interface is at zero potential. If gravity is disabled in the parameter file these problems write to an array that was never allocated.", "quantifier": "all parameters, pairs of cells, grids", "why_tests_cant": "An imbalance shows only as slow drift; memory errors in an unusual configuration may pass unnoticed.", "anchors": ["src/muscl/HydroInitFunctors2D.h", "src/muscl/HydroInitFunctors3D.h"]}
{"id": "C107", "title": "The disk starts in rotational equilibrium around its central mass", "statement": "The disk rotates about its axis with the documented velocity, density and pressure; without softening pressure and rotation balance the attraction of the central mass exactly. The gravity field is that of the mass at its position plus the centre of the disk: right if the source is left at the origin, wrong if it is put at the centre of the disk. At a cell centred on the axis the momentum is a division by zero.", "quantifier": "all parameters and points, grids", "why_tests_cant": "Equilibrium is an identity between derivatives everywhere; default parameters hide the double offset.", "anchors": ["src/muscl/HydroInitFunctors2D.h", "src/muscl/HydroInitFunctors3D.h", "src/shared/problems/DiskParams.h"]}
{"id": "C108", "title": "The MHD linear wave problem starts from a wave", "statement": "The 3D MHD 'wave' problem starts from a plane wave: in a right-handed orthonormal frame whose first axis is the wave vector, with one period along each edge of the box, the conservative variables are those of the background gas plus amplitude times sine of the phase times a fixed disturbance (the field on faces up to second order in the cell size), and for each of the four wave types this disturbance is a right eigenvector of the linearised ideal MHD flux, so that the wave travels unchanged.", "quantifier": "every box, process position, amplitude, wave type, gamma0 and cell size", "why_tests_cant": "Convergence tests use one configuration and only see the sum of all errors; a disturbance that is not an eigenvector looks like a slightly larger error.", "anchors": ["src/shared/problems/WaveParams.h:31-147", "src/muscl/MHDInitFunctors3D.h:1034-1308", "src/shared/HydroParams.cpp:158"]}
{"id": "C109", "title": "Positivity preservation of the spectral difference solver", "statement": "With sdm/positivity_enabled, before the fluxes of the spectral difference solver are computed, the values of each cell are pulled towards the average of the cell just enough that density and pressure are positive at every point where fluxes are evaluated; cells that are already fine keep their values; the mass, momentum and energy of the cell do not change; the loops are safe and schedule independent.", "quantifier": "every order, dimension, grid, gamma0 > 1, cell state whose average is admissible, and schedule", "why_tests_cant": "The values that need correction appear only in strong shocks and near vacuum, and the correction depends on a root of a quadratic whose coefficients vary over all cell states; a loss of conservation of a fraction per step hides in the physics.", "anchors": ["src/sdm/SDM_Positivity_preserving.h:929-1783", "src/sdm/SolverHydroSDM.h:992-1022", "src/sdm/SDM_Limiter_Functors.h:68-178"]}
{"id": "C90", "title": "Viscous terms of the spectral difference solver", "statement": "With a positive viscosity the spectral difference solver adds the divergence of the viscous fluxes computed from the velocity gradients, with the mean of the two cells at every cell border. In the code this does not hold: no step with positive viscosity is well defined, because the flux loop reads an array that is never bound; before that, only the first velocity component is averaged at borders and, except in 2D along x, the gradients are added to those of earlier evaluations.", "quantifier": "every grid, order, dimension, direction, integrator and memory content; every viscosity", "why_tests_cant": "Reading an unallocated view may go unnoticed or crash depending on the build; wrong borders and accumulation show up only as wrong numbers, for which a test would need a reference for every state.", "anchors": ["src/sdm/SDM_Viscous_Flux_Functors.h:80-89", "src/sdm/SDM_Interpolate_viscous_Functors.h:379-388", "src/sdm/SDM_Interpolate_viscous_Functors.h:648-930", "src/sdm/SolverHydroSDM.h:1102-1261"]}
{"id": "C110", "title": "VTK files hold the solver's data", "statement": "For every grid, sub-domain and variable set, a reader of the .vti file written by save_VTK_2D/3D (serial or MPI, ASCII or binary) finds, for each variable and each cell of the sub-domain at its place in the whole domain, the value the solver holds there, and no ghost cells. In binary mode this needs (nbvar-1)*nx*ny*nz < 2^31: beyond that the offset computation overflows an int (for example MHD on 700^3 cells).", "quantifier": "all grid sizes, ghost widths, numbers of variables, contents, places in the process grid, byte codings of reals; ascii and binary; 2D and 3D; serial and MPI", "why_tests_cant": "Offsets, order of cells and extents must agree for every size; a test compares a few files and never reaches the sizes at which int products overflow.", "anchors": ["src/utils/io/IO_VTK.cpp:21-216", "src/utils/io/IO_VTK.cpp:217-408", "src/utils/io/IO_VTK.cpp:409-622", "src/utils/io/IO_VTK.cpp:624-859"]}
{"id": "C111", "title": "Names of VTK files and the parallel header", "statement": "Different output numbers and ranks give different file names, so no output overwrites another. The .pvti header lists for every rank the extent and name of the file this rank writes, and the pieces tile the domain exactly once. In the code the last part fails in 2D (z range 0 1 in the header, 0 0 in the files) and with a debug name (the header names files nobody wrote).", "quantifier": "all output numbers, ranks, directories, prefixes, debug names, process grids and sub-domain sizes", "why_tests_cant": "Uniqueness and tiling range over all numbers and process grids; tests look at single names.", "anchors": ["src/utils/io/IO_VTK.cpp:78-83", "src/utils/io/IO_VTK.cpp:480-501", "src/utils/io/IO_VTK.cpp:704-725", "src/utils/io/IO_VTK.cpp:860-1005"]}
{"id": "C112", "title": "HDF5 files hold the whole domain", "statement": "Saving with HDF5 (no ghost cells, pieces assembled) succeeds and every element of every field in the file is the value the owner of this cell holds, at the cell's place in the whole domain; extents are those of the whole domain; output number and time are stored. Hence files do not depend on the number of processes, the memory layout or the order in which processes write. With reassembleInFile=no the file holds the pieces of the processes one after the other along the last direction, in the order of their ranks, each complete, for every order of writing.", "quantifier": "all grids, ghost widths, process grids, layouts, contents, orders of the ranks' stores; 2D/3D; hydro/MHD; single process classes and MPI classes", "why_tests_cant": "Tests compare a few files of a few decompositions; agreement of memory box, file box and copy loops is needed for all sizes, decompositions and write orders.", "anchors": ["src/utils/io/IO_HDF5.h:104-195", "src/utils/io/IO_HDF5.h:209-514", "src/utils/io/IO_HDF5.h:566-662", "src/utils/io/IO_HDF5.h:676-1512"]}
{"id": "C113", "title": "Saving and loading is the identity", "statement": "A run that loads the HDF5 file of another run of the same global size (any numbers of processes, layouts and ghost widths on both sides) holds in each inner cell exactly the values saved, and gets the saved output number and time. With all ghost cells in the file every rank gets its whole array back; with the outer ghost cells too, if overlapping cells agree between ranks, in particular on one process.", "quantifier": "all grids, decompositions on either side, layouts, contents, orders of stores, previous memory contents", "why_tests_cant": "Round trips in a test use single sizes and decompositions; the claim ranges over pairs of decompositions and all contents.", "anchors": ["src/utils/io/IO_HDF5.h:1536-2153", "src/utils/io/IO_HDF5.h:2175-2795"]}
{"id": "C114", "title": "Files that cannot be read back", "statement": "Every file a run writes can be read by the same run, and the content does not depend on timing. In the code this fails: with reassembleInFile=no a run with several sub-domains along x (in 3D: or y) writes files that it cannot read; a file with ghost cells cannot be read without that setting and vice versa, because the reader ignores the attributes; with outer ghost cells and several processes the last process to write an overlap wins, so that inner cells may come back with a neighbour's ghost values; with LayoutLeft the offset isize*jsize*ksize*nvar overflows an int (MHD, 680^3 cells per process).", "quantifier": "all grids, process grids, contents and write orders in the mismatch and overflow results; a witness for the race", "why_tests_cant": "The race depends on timing and the overflow on sizes no test uses; mismatched settings give no error from the code.", "anchors": ["src/utils/io/IO_HDF5.h:797-960", "src/utils/io/IO_HDF5.h:1031-1163", "src/utils/io/IO_HDF5.h:2353-2611", "src/utils/io/IO_HDF5.h:149-155"]}
{"id": "C115", "title": "Restart at twice the resolution", "statement": "With run/restart_upscale a run with even extents that loads a file of half the resolution with outer ghost cells holds, on every rank and in every cell, the cell averages of the enclosing coarse cell and magnetic face values that are coarse ones or the mean of the two nearest; no access leaves the buffers; totals of mass, momentum and energy are kept; every cell has the divergence of the coarse cell around it, so a divergence-free field stays so. In the code this needs the ghost cells in the file, which nothing checks: without them the last faces of every rank are computed from uninitialised memory. The energy is copied although the magnetic energy changes, so positive pressures can become negative.", "quantifier": "all even grids, decompositions, ghost widths >= 1, contents of file and memory; 2D and 3D", "why_tests_cant": "Divergence must vanish in every cell for every file and decomposition; uninitialised memory is often zero in tests.", "anchors": ["src/utils/io/IO_HDF5.h:1605-1655", "src/utils/io/IO_HDF5.h:1696-1770", "src/utils/io/IO_HDF5.h:1893-2065", "src/utils/io/IO_HDF5.h:2300-2700"]}
{"id": "C116", "title": "A restarted run continues the interrupted one", "statement": "A run restarted from a file that an earlier run wrote, with the steps already made taken off nstepmax, rewrites that file and then writes exactly the files that the uninterrupted run wrote after it - same numbers, times and contents - and ends at the same time, step and state. In the code this holds when the state is not due for output again; with noutput<0 the state is written twice and all later numbers are shifted by one. A run restarted with a later end time and the same noutput, or with the clock reset, writes nothing between its first file number n and time (n+1)*tEnd/noutput - nothing at all until the end if n+1 >= noutput. A file whose name does not end in .h5, or disabled HDF5 output, makes the run start silently from arrays of zeros with number 0.", "quantifier": "all schemes whose ghost cells are derived from the inside, all runs, all points of interruption, any arithmetic for the equality and real arithmetic for the output times", "why_tests_cant": "Equality of all later files must hold for every point of interruption and problem; tests compare one restart at best.", "anchors": ["src/utils/io/IO_ReadWrite.cpp:200-288", "src/muscl/SolverHydroMuscl.h:572-632", "src/muscl/SolverMHDMuscl.h:613-658", "src/main.cpp:139-166", "src/shared/SolverBase.cpp:234-290"]}
{"id": "C117", "title": "The hydro program from start to end", "statement": "Started from a parameter file, the hydro program (one process) initialises its arrays, runs its time loop and ends, whatever the schedules of its parallel loops, the order of its reductions and the values of uninitialised variables. All its executions write the same files - same numbers, times and values in every cell - and stop after the same number of steps at the same time. The files are numbered 0,1,2,... without gaps, their times never decrease and never leave [tCurrent,tEnd], the first holds the initial condition, the last the final state. With periodic boundaries and no gravity every file has the mass, momentum and energy of the first; without reflecting boundaries and gravity a uniform gas stays uniform in all files.", "quantifier": "all nine modelled problems and their parameters, all grids, boundary types, valid settings, both implementations, 2D and 3D, all schedules; real arithmetic", "why_tests_cant": "A test runs one schedule; equality of all files over all schedules, problems and sizes is out of reach.", "anchors": ["src/main.cpp:139-166", "src/shared/SolverBase.cpp:145-290", "src/muscl/SolverHydroMuscl.h:290-300", "src/muscl/SolverHydroMuscl.h:640-820", "src/muscl/SolverHydroMuscl.cpp:100-403"]}
{"id": "C118", "title": "Restarting the hydro program", "statement": "If the hydro program is interrupted after writing a file in its loop and restarted from it with the steps made taken off nstepmax, it writes that file again and then files equal to those the uninterrupted program writes, in every cell, under every schedule, and ends at the same time after the same number of steps in total. In the code this holds for problems without a gravity field; the restart does not restore the gravity field (it stays zero), so a restarted Rayleigh-Taylor, rising bubble or disk run continues without gravity, e.g. keeps its total momentum in a periodic box although gravity is enabled.", "quantifier": "all runs, points of interruption where an output is due once, problems, grids, boundaries, schedules; real arithmetic", "why_tests_cant": "Every point of interruption and schedule; a missing gravity field shows only when two long runs are compared.", "anchors": ["src/muscl/SolverHydroMuscl.cpp:106-117", "src/muscl/SolverHydroMuscl.cpp:185-196", "src/muscl/SolverHydroMuscl.h:508-632", "src/muscl/SolverHydroMuscl.h:238-300"]}
{"id": "C119", "title": "One step of the hydro solver on several processes", "statement": "When mx*my*mz processes hold their blocks of the state of a domain, one step of the hydro solver (exchange of borders, then the update) touches only allocated memory, cannot deadlock, always terminates, whatever the interleaving of the processes and whether or not MPI buffers their messages, and leaves every process with its block of the state that one process computes for the whole domain. The same holds for the set-up from the initial conditions. All processes use the time step of the single process.", "quantifier": "all numbers of processes per direction, grids, boundary types, valid settings, initial conditions without random numbers, both implementations, 2D and 3D, all interleavings and buffering choices; real arithmetic", "why_tests_cant": "A test runs one interleaving on one MPI implementation with a few process counts; absence of deadlock and equality for all of them is out of reach.", "anchors": ["src/muscl/SolverHydroMuscl.cpp:22-64", "src/muscl/SolverHydroMuscl.cpp:257-403", "src/muscl/SolverHydroMuscl.h:290-297", "src/shared/SolverBase.cpp:145-178", "src/shared/HydroParams.cpp:230-275"]}
{"id": "C120", "title": "The hydro program on several processes writes the files of the serial program", "statement": "Run on mx*my*mz processes, the hydro program comes to its end without deadlock; it makes as many steps and stops at the same time as the serial program on the whole domain; every process writes as many files, with the same numbers and times, and each file it writes is its block of the file the serial program writes. Hence two runs that cut the same domain among different numbers of processes agree in every cell of every file.", "quantifier": "all numbers of processes per direction, grids, boundary types, valid settings, problems without random numbers, both implementations, 2D and 3D, all interleavings, schedules and reduction orders; real arithmetic, real_t = double", "why_tests_cant": "Equality over all decompositions, interleavings and run lengths cannot be sampled.", "anchors": ["src/main.cpp:139-166", "src/shared/SolverBase.cpp:145-290", "src/muscl/SolverHydroMuscl.cpp:22-64", "src/muscl/SolverHydroMuscl.h:690-760", "src/shared/HydroParams.cpp:230-275"]}
{"id": "C121", "title": "The XDMF index lists the HDF5 files of the run", "statement": "The index main writes at the end of a run has one entry per file the run wrote, in order, and no other; each entry lists every dataset of its file under its name and with the dataset's extents. (The code: it does for a run from initial conditions, on one process and on each rank, for every setting of ghost cells and assembly; after a restart from file n it also lists the numbers below n, which this run did not write; with singleStep it lists one step too many; the time it gives for an entry is the file's number, not its time; names are without the output directory.)", "quantifier": "all runs of the hydro program, all schedules and interleavings, all grids, process grids and output settings", "why_tests_cant": "The number of files depends on the run; agreement of index, file extents and names is needed for all runs and all settings.", "anchors": ["src/utils/io/IO_HDF5.cpp:15-378", "src/main.cpp:169-176", "src/utils/io/IO_HDF5.h:163-195", "src/utils/io/IO_HDF5.h:630-1512"]}
{"id": "C122", "title": "The MHD program from start to end", "statement": "A run of the MHD program (set-up, loop of steps that each fill ghost cells, convert, compute their time step and advance, output) always ends, and all its executions write the same files and stop at the same time after the same number of steps. The files are numbered without gaps, their times never decrease and lie between start and end time, the first holds the initial state and the last the final one. In a periodic box all files have the same mass, momentum, energy and total field, and the same divergence of the magnetic field in every cell - zero for the problems with a divergence-free initial field; with other boundaries the divergence is the same in all cells whose upper neighbours are in the domain. A uniform magnetised flow stays as it is in all files if no boundary reflects. Runs that differ only in implementationVersion 0 or 1 write the same files.", "quantifier": "all problems, grids, dimensions, boundaries, implementation versions 0, 1 and 2, schedules, reduction and atomic orders, contents of uninitialised variables; supported solver and slope type, no rotation in 3D; real arithmetic; one process", "why_tests_cant": "Executions differ by schedule and by what uninitialised memory holds, and the divergence has to stay the same in every cell of every file of every run.", "anchors": ["src/main.cpp:139-166", "src/muscl/SolverMHDMuscl.h:389-403", "src/muscl/SolverMHDMuscl.h:722-805", "src/muscl/SolverMHDMuscl.h:894-907", "src/muscl/SolverMHDMuscl.cpp:373-572", "src/shared/SolverBase.cpp:145-244"]}
{"id": "C123", "title": "Restarting the MHD program", "statement": "If the MHD program is interrupted after writing a file in its loop and restarted from it with the steps made taken off nstepmax, the files written before followed by those the restarted program writes are, in every cell, the files of the uninterrupted run, under every schedule and whatever the other arrays hold, and it ends at the same time after the same number of steps in total.", "quantifier": "all states at the top of the loop where an output is due once, grids, boundaries, schedules; real arithmetic; one process", "why_tests_cant": "Every point of interruption, parity of the iteration (the two copies of the state swap roles) and schedule.", "anchors": ["src/muscl/SolverMHDMuscl.h:613-643", "src/muscl/SolverMHDMuscl.h:389-403", "src/muscl/SolverMHDMuscl.h:745-805", "src/main.cpp:139-166"]}
{"id": "C124", "title": "A closed box keeps what it holds", "statement": "In a box whose axes are each periodic or have reflecting walls on both sides, without gravity, a hydro step leaves the total mass, the total energy and the total momentum along every axis without walls unchanged, and all files of a run of the program have the totals of the first. Nothing leaks through a wall, whatever hits it.", "quantifier": "all states, grids, 2D and 3D, combinations of walls and periodic axes, both implementations, LLF, HLL and HLLC solvers (all solvers if there are no walls), slope types 0, 1, 2, schedules, numbers of steps; real arithmetic", "why_tests_cant": "A leak may need a certain combination of state, limiter branch and solver branch at a wall, and tests sample a few runs.", "anchors": ["src/muscl/SolverHydroMuscl.cpp:259-323", "src/muscl/SolverHydroMuscl.cpp:332-403", "src/muscl/HydroRunFunctors2D.h:487-842", "src/muscl/HydroRunFunctors3D.h:267-820", "src/shared/BoundariesFunctors.h:18-224", "src/shared/BoundariesFunctors.h:227-532", "src/shared/RiemannSolvers.h:219-568"]}
{"id": "C125", "title": "Mirror images", "statement": "The hydro scheme has no preferred side. If the gas, the gravity field and the boundary conditions of a run are the mirror images of those of another (positions reversed along one axis, momentum along it reversed), then so is the result of a step, exactly. Hence a run that begins symmetric about the middle plane of the domain - for example a blast in the middle - is symmetric in all its files.", "quantifier": "all states, grids, axes, boundary conditions, both implementations (with gravity in 3D: along z implementation 0 only), LLF, HLL and HLLC solvers, slope types 0, 1, 2, time steps, schedules; real arithmetic", "why_tests_cant": "Asymmetries come from one side of one formula (an index, a sign, a limiter argument) and appear only for states that exercise it; symmetry quantifies over pairs of runs.", "anchors": ["src/muscl/SolverHydroMuscl.cpp:259-323", "src/muscl/SolverHydroMuscl.cpp:332-403", "src/muscl/HydroRunFunctors2D.h:182-1344", "src/muscl/HydroRunFunctors3D.h:196-1514", "src/muscl/HydroBaseFunctor2D.h", "src/muscl/HydroBaseFunctor3D.h", "src/shared/BoundariesFunctors.h:18-532", "src/shared/RiemannSolvers.h:219-568"]}
{"id": "C126", "title": "Exchange of axes", "statement": "The hydro scheme has no preferred axis. If two axes are exchanged - numbers and sizes of the cells, boundary conditions, gravity, momentum components - the result of a step is the result with the axes exchanged, exactly. Hence a run that looks the same with the axes exchanged at the beginning - for example the implosion problem on a square grid - does so in all its files.", "quantifier": "all states, grids, boundary conditions, x and y in 2D, any two axes in 3D, both implementations (with gravity in 3D implementation 1 only for x and y), all supported solvers, slope types 0, 1, 2, time steps, schedules; real arithmetic", "why_tests_cant": "The code for the directions is written out separately, with components swapped by hand; a slip shows only in states with all components different, and the claim is about pairs of runs.", "anchors": ["src/muscl/SolverHydroMuscl.cpp:259-323", "src/muscl/SolverHydroMuscl.cpp:332-403", "src/muscl/HydroRunFunctors2D.h:182-1344", "src/muscl/HydroRunFunctors3D.h:196-1514", "src/muscl/HydroBaseFunctor2D.h", "src/muscl/HydroBaseFunctor3D.h", "src/shared/BoundariesFunctors.h:18-532", "src/shared/RiemannSolvers.h:61-568"]}
{"id": "C127", "title": "The wedge problem is a Mach 10 shock running over a wedge", "statement": "For every parameter file whose front angle lies between 0 and 90 degrees, the initial condition of the high order finite volume solver (2D, 3D) and of the spectral difference solver puts at every cell centre or solution point the gas of one moving shock at time 0; the treatment of the boundaries in 2D at time t leaves the gas in the box alone and fills every ghost cell as the problem asks for: gas behind the shock on the left, on the floor up to the wedge and above as far as the front has come by then, outflow (spectral differences: undisturbed gas) in the rest of the upper side, outflow on the right, mirror image with the vertical momentum reversed under the wedge. The default states satisfy the jump conditions of a shock with speed 10 along its normal for every angle, and the gas ahead rests with sound speed 1. Otherwise: for a front angle between 90 and 180 degrees the initial condition has the two gases exchanged.", "quantifier": "all parameter files, angles, times, grids with at least as many rows as ghost cells, orders of the scheme, memory contents, schedules of the parallel loops, and for spectral differences all process positions", "why_tests_cant": "A test runs one angle, one grid and a few time steps; the agreement between initial condition, moving front at the upper boundary and jump conditions holds or fails for a continuum of angles and times.", "anchors": ["src/shared/problems/WedgeParams.h:19-77", "src/shared/BoundariesFunctorsWedge.h:22-187", "src/mood/MoodInitFunctors.h:737-862", "src/sdm/SDM_Boundaries_Functors_Wedge.h:25-300", "src/sdm/init/InitWedgeFunctor.h:36-222", "src/mood/SolverHydroMood.h:1431-1463", "src/sdm/SolverHydroSDM.h:1650-1660"]}
{"id": "C128", "title": "The jet enters through its opening only, with the pressure asked for when gamma0 is given", "statement": "For every parameter file the initial condition of the jet problem of the spectral difference solver fills the box with the gas around the jet; the treatment of the boundaries, in 2D and 3D, leaves the gas in the box alone and puts on the left side the jet at the solution points inside the opening (an interval around pos_jet, in 3D a disc) and the gas around it elsewhere; the other sides continue the outermost cells (right side: mirrored in 2D, repeated in 3D). When the parameter file sets gamma0, the solver sees in both gases the pressures the file asks for. Otherwise: when the file does not set gamma0, the states are made with 5/3 while the solver works with 1.4, so that both pressures are 0.6 times what the file asks for.", "quantifier": "all parameter files, orders of the scheme, grids, memory contents, schedules of the parallel loops, process positions", "why_tests_cant": "The ghost cells of a few grids do not show where the edge of the opening is for all grids, orders and positions; the wrong pressure shows only when a parameter file leaves gamma0 out.", "anchors": ["src/shared/problems/JetParams.h:23-85", "src/sdm/SDM_Boundaries_Functors_Jet.h:28-567", "src/sdm/init/InitJetFunctor.h:36-138", "src/sdm/SolverHydroSDM.h:1661-1676", "src/shared/HydroParams.cpp:158"]}
{"id": "C129", "title": "The spectral difference solver starts from the problem asked for", "statement": "For all parameters the initial condition of the spectral difference solver puts, at every solution point of every cell of every process, the gas that the problem describes at the place of that point: Sod's shock tube, the problem of Shu and Osher (whose left gas is the one behind a Mach 3 shock), the blast, the Kelvin-Helmholtz instability (smooth; sharp with noise of at most half the amplitude), the Gresho vortex in 2D and 3D, the isentropic vortex, and with use_tEnd the vortex moved with the wind up to periods of the box. Otherwise: the implosion stores velocities in place of momenta (right only for density 1 or gas at rest); with use_tEnd the vortex can leave a box that does not begin at 0; the four quadrants are shifted by half a cell in 2D and nothing at all is stored in 3D; the Kelvin-Helmholtz problem with neither perturbation stores nothing; an unknown problem name selects the implosion.", "quantifier": "all parameters of the problems, orders and solution points of the scheme, grids, process positions, memory contents, random numbers in [0,1], schedules of the parallel loop; real arithmetic", "why_tests_cant": "A test looks at one grid, order and parameter set; the values differ at every point, and half a cell of shift or a velocity in place of a momentum is invisible with the default parameters of most problems.", "anchors": ["src/sdm/init/InitSodFunctor.h", "src/sdm/init/InitShuOsherFunctor.h", "src/sdm/init/InitBlastFunctor.h", "src/sdm/init/InitImplodeFunctor.h", "src/sdm/init/InitFourQuadrantFunctor.h", "src/sdm/init/InitKelvinHelmholtzFunctor.h", "src/sdm/init/InitGreshoVortexFunctor.h", "src/sdm/init/InitIsentropicVortexFunctor.h", "src/sdm/SolverHydroSDM.h:665-723"]}
{"id": "C130", "title": "The high order finite volume solver starts from the problem asked for", "statement": "For all parameters the initial condition of the high order finite volume solver puts in every cell of a run on one process the gas that the problem describes at the centre of the cell: the blast, the four quadrants in 2D and 3D, the Kelvin-Helmholtz instability. For the isentropic vortex in 2D with one to four quadrature points per direction every cell holds the mean over the cell of mass, momentum and energy by the integration rule that is exact for polynomials of degree below twice the number of points; with w_a = 0 these are the ones of the vortex. Otherwise: the implosion is a fixed one that ignores its parameters (the default one in the unit square); with w_a not 0, as by default, the energy of the 2D vortex is too large by rho w_a^2 / 2; in 3D the energy of the vortex is read from behind the end of an array; with another number of quadrature points the numbers are not set at all; on several processes every process starts from the field of the first one; an unknown problem name selects the four quadrants.", "quantifier": "all parameters of the problems, grids, memory contents, random numbers in [0,1], layouts, schedules of the parallel loop; real arithmetic", "why_tests_cant": "Exactness of a quadrature rule is a statement about all polynomials of a degree; the other claims are about all cells of all grids and parameters, and reads behind the end of an array may go unnoticed in a run.", "anchors": ["src/mood/MoodInitFunctors.h:32-1185", "src/mood/SolverHydroMood.h:385-422", "src/mood/SolverHydroMood.h:1538-1651", "src/shared/problems/IsentropicVortexParams.h:54"]}
{"id": "C131", "title": "The spectral difference program as a whole: same files, order, totals", "statement": "For every configuration of one process without limiter, positivity procedure and viscous terms, the spectral difference program runs to its end, and all runs \u2013 whatever the schedules of the loops, the order of the reductions, the values of uninitialised variables and the order in which the loops go through the cells \u2013 write the same files (number, time, every variable at every solution point) after the same number of steps. The first file is written at the start time and shows the gas of the problem at every solution point, the last at the end. While the density stays positive, files are numbered from 0 without gaps and their times never decrease. In a closed box every file has the total of the first with forward Euler, ssprk2 and ssprk3; with ssprk54 the totals grow by 1e-15 of themselves per step. A uniform flow stays as it is. With nlog = 0 a run with a step to make divides by zero.", "quantifier": "all parameters, orders, grids, boundary conditions, problems (other than wedge and jet), schedules, numbers of steps; real arithmetic", "why_tests_cant": "A test compares two runs of one configuration on one machine; the claim is about all schedules and all memory contents over all numbers of steps, and a drift of 1e-15 per step drowns in rounding.", "anchors": ["src/main.cpp:139-166", "src/sdm/SolverHydroSDM.h:661-801", "src/sdm/SolverHydroSDM.h:893-932", "src/sdm/SolverHydroSDM.h:2042-2051", "src/shared/SolverBase.cpp:145-244"]}
{"id": "C132", "title": "The high order finite volume program as a whole: same files, order, and what is lost", "statement": "For every configuration of one process the high order finite volume program runs to its end, and all runs \u2013 whatever the schedules of the loops, the order of the reductions, the values of uninitialised variables and the order in which the loops go through the cells \u2013 write the same files (number, time, every variable of every cell) after the same number of steps. Files are numbered from 0 without gaps and their times never decrease; the first is written at the start time and shows the gas of the problem, the last at the end. In two dimensions a uniform gas stays as it is. Otherwise: with ssprk54 every file shows the state of the first although its time advances; in three dimensions, with forward Euler and the LLF solver, a gas at rest in a periodic box has lost mass after one step.", "quantifier": "all parameters, stencils other than the one of degree 4 in 3D (whose table has too few cells, C46), Riemann solvers the program has, grids, boundary conditions, problems (other than wedge and jet), schedules, numbers of steps; real arithmetic", "why_tests_cant": "The claim is about all schedules and all memory contents over all numbers of steps; that coefficients next to the lower sides are never computed, and keep the zeros of the allocation through a whole run, is not visible in any single loop.", "anchors": ["src/main.cpp:139-166", "src/mood/SolverHydroMood.h:382-452", "src/mood/SolverHydroMood.h:760-898", "src/mood/SolverHydroMood.h:1657-1668", "src/shared/SolverBase.cpp:145-244"]}
{"id": "C133", "title": "MHD with implementationVersion=2: well defined, and in 2D the same scheme as versions 0 and 1", "statement": "For every grid, boundary condition, setting, state and time step, the loops of an MHD step with implementationVersion=2 (slopes and half-advanced fields kept in arrays, fluxes added atomically) access only allocated array entries, are free of data races and terminate, the result does not depend on the schedule, and the interior of the input buffer survives. In 2D, two sequences of steps with the same time steps, one with version 2 (as in the shipped Orszag-Tang settings) and one with version 0 or 1, give the same numbers in every interior cell, whatever is in uninitialised variables. The whole program in 2D writes with version 2 the same number of files with the same times and the same values as with version 0 or 1.", "quantifier": "all grids with ghost width 3, boundary conditions, supported settings, states, time steps, numbers of steps, schedules, contents of uninitialised variables; real arithmetic", "why_tests_cant": "A test compares versions for one problem on one machine; the claim is about all states, including those where a floor or limiter is active in one cell, and all interleavings of atomic additions.", "anchors": ["src/muscl/SolverMHDMuscl.cpp:375-572", "src/muscl/MHDRunFunctors2D.h:164-375", "src/muscl/MHDRunFunctors2D.h:920-1536", "src/muscl/MHDRunFunctors3D.h:168-440", "src/muscl/MHDRunFunctors3D.h:865-1780"]}
{"id": "C134", "title": "MHD with implementationVersion=2 keeps the divergence of the magnetic field and the totals", "statement": "A step of version 2, in 2D or 3D, does not change the divergence of the magnetic field in any interior cell whose upper neighbours are interior. On a periodic domain any number of steps leaves the divergence in every cell and the totals of mass, energy, momentum and magnetic field unchanged. For slope types 1 and 2 and the solvers HLLD, HLL and LLF, uninitialised variables have no influence on the interior of the new state.", "quantifier": "all grids, states, settings, time steps, numbers of steps, schedules; real arithmetic", "why_tests_cant": "Conservation and divergence are sums over all cells for all states; a test sees one state and rounding errors.", "anchors": ["src/muscl/SolverMHDMuscl.cpp:375-572", "src/muscl/MHDRunFunctors2D.h:164-375", "src/muscl/MHDRunFunctors2D.h:920-1536", "src/muscl/MHDRunFunctors3D.h:168-440", "src/muscl/MHDRunFunctors3D.h:865-1780"]}
{"id": "C135", "title": "MHD with implementationVersion=2 is the same scheme in 3D (violated)", "statement": "Users expect implementationVersion to select an implementation of one scheme. In 3D version 2 is another scheme: the slope along z of the face magnetic field is computed from the same neighbour twice and is always zero, and at edges along x and y the magnetic field along y is extrapolated twice. For a flow of constant density, pressure and velocity with a magnetic field along x that is a ramp in z, one step of version 0 or 1 and one step of version 2 give fields that differ by exactly 1/20.", "quantifier": "all memory contents, settings and corners (z slope, edge states); witness for the difference, all contents of uninitialised variables; real arithmetic", "why_tests_cant": "No test compares the versions in 3D; both schemes are stable and look alike in pictures.", "anchors": ["src/muscl/MHDBaseFunctor3D.h:130-155", "src/muscl/MHDRunFunctors3D.h:1408-1529"]}
{"id": "C136", "title": "What a 3D MHD step with implementationVersion=2 computes", "statement": "In 3D, a step with implementationVersion=2 changes the density, energy and momentum of every interior cell by the fluxes of the MUSCL-Hancock scheme for ideal MHD that versions 0 and 1 follow, except that the floor of reconstructed pressures is smallp times the density instead of smallp; from the same state and time step the three versions therefore give a cell the same density, energy and momentum unless a pressure floor acts at one of its faces. The electric field on edges along z is that of the scheme; on edges along x and y it is computed from states that differ from the scheme's in the magnetic field along x and y only, by the exact amounts given in the specification.", "quantifier": "all 3D grids with ghost width 3, boundary conditions, states, time steps, contents of uninitialised variables, schedules; slope types 1 and 2, solvers HLLD, HLL, LLF, positive smallr, no isothermal gas; real arithmetic", "why_tests_cant": "A test shows single numbers; which parts of the update are those of the published scheme, for all states, cannot be sampled.", "anchors": ["src/muscl/MHDRunFunctors3D.h:168-440", "src/muscl/MHDRunFunctors3D.h:865-1780", "src/muscl/MHDBaseFunctor3D.h:109-155"]}
{"id": "C137", "title": "One step of the MHD solver on several processes", "statement": "When mx*my*mz processes hold their blocks of the state of a domain, one step of the MHD solver (exchange of borders, time step, update of gas and magnetic field) touches only allocated memory, cannot deadlock, always terminates, whatever the interleaving of the processes and whether or not MPI buffers their messages, and leaves every process with its block of the state that one process computes for the whole domain, magnetic field on shared faces included. All processes use the time step of the single process. The same holds for the set-up from the initial conditions, and it makes no difference if some processes are already in the exchange of the next step while others still update.", "quantifier": "all numbers of processes per direction, grids with ghost width 3, boundary types, settings that the implementation supports (no rotating frame in 3D), initial conditions without random numbers other than the field loop, implementation versions 0, 1 and 2, 2D and 3D, all interleavings and buffering choices; real arithmetic", "why_tests_cant": "A test runs one interleaving on one MPI implementation with a few process counts; absence of deadlock and equality for all of them is out of reach.", "anchors": ["src/muscl/SolverMHDMuscl.cpp:22-64", "src/muscl/SolverMHDMuscl.cpp:366-620", "src/muscl/SolverMHDMuscl.h:389-399", "src/shared/SolverBase.cpp:145-178"]}
{"id": "C138", "title": "The MHD program on several processes writes the files of the serial program", "statement": "Run on mx*my*mz processes, the MHD program comes to its end without deadlock; it makes as many steps and stops at the same time as the serial program on the whole domain; every process writes as many files, with the same numbers and times, and each file it writes is its block of the file the serial program writes, in all eight variables. Hence two runs that cut the same domain among different numbers of processes agree in every cell of every file.", "quantifier": "all numbers of processes per direction, grids with ghost width 3, boundary types, settings that the implementation supports, problems without random numbers other than the field loop, implementation versions 0, 1 and 2, 2D and 3D, all interleavings, schedules and reduction orders; real arithmetic, real_t = double", "why_tests_cant": "Equality over all decompositions, interleavings and run lengths cannot be sampled.", "anchors": ["src/main.cpp:139-166", "src/shared/SolverBase.cpp:145-290", "src/muscl/SolverMHDMuscl.cpp:22-64", "src/muscl/SolverMHDMuscl.h:747-805"]}
{"id": "C139", "title": "One step of the SDM solver on several processes", "statement": "When mx*my*mz processes hold their blocks of the solution of a domain, the exchange of borders of the spectral difference solver touches only memory the process owns, cannot deadlock and always terminates, whatever the interleaving and whether or not MPI buffers messages; afterwards every process holds, ghost cells included, its block of what the serial ghost fill makes of the whole domain. The same holds for a whole time step with its exchanges before every Runge-Kutta stage, which leaves every process with its block of the serial step, and for the initial condition. If every process has somewhere gas of positive density, all processes use the serial time step.", "quantifier": "all orders N, numbers of processes per direction, grids, boundary types, Riemann solvers, Runge-Kutta schemes, 2D and 3D, problems without random numbers other than wedge and jet, all values of uninitialised variables, interleavings and buffering choices; real arithmetic", "why_tests_cant": "A test runs one interleaving on one MPI implementation with a few process counts and orders.", "anchors": ["src/sdm/SolverHydroSDM.h:1699-1853", "src/sdm/SolverHydroSDM.h:1622-1636", "src/shared/SolverBase.cpp:145-178"]}
{"id": "C140", "title": "The SDM program on several processes writes the files of the serial program", "statement": "As long as every process has somewhere gas of positive density, the spectral difference program run on mx*my*mz processes comes to its end without deadlock; it makes as many steps and stops at the same time as the serial program on the whole domain; every process writes as many files, with the same numbers and times, and each is its block of the serial file, at all solution points and in all variables. Hence two runs that cut the same domain among different numbers of processes agree in every cell of every file.", "quantifier": "all orders N, numbers of processes per direction, grids, boundary types, Runge-Kutta schemes, 2D and 3D, problems without random numbers other than wedge and jet, all interleavings, schedules and reduction orders; real arithmetic", "why_tests_cant": "Equality over all decompositions, interleavings and run lengths cannot be sampled.", "anchors": ["src/main.cpp:139-166", "src/shared/SolverBase.cpp:145-290", "src/sdm/SolverHydroSDM.h:1622-1636", "src/sdm/SolverHydroSDM.h:1699-1853"]}
{"id": "C141", "title": "The jet problem of the SDM solver with MPI", "statement": "A user expects the jet problem to show a jet entering through the opening in the left side, whether or not the program is built with MPI. Built without MPI it does: in the first step the mean of every variable along each line of points behind the opening changes by what the Riemann solver lets in between jet and surrounding gas. Built with MPI it does not: on any number of processes, one included, the program ends and all its files show only the surrounding gas, unchanged, since the exchange of borders never looks at the problem.", "quantifier": "all orders N, numbers of processes per direction, grids, boundary types without flow through walls, Riemann solvers, forward Euler, ssprk2 and ssprk3 (entering jet: forward Euler), 2D and 3D, all parameters of the jet with a gas above the floors, all interleavings; real arithmetic", "why_tests_cant": "Tests of the jet problem run one build at one resolution; that no file of any parallel run ever shows the jet is a statement about all run lengths and process counts.", "anchors": ["src/sdm/SolverHydroSDM.h:1622-1636", "src/sdm/SolverHydroSDM.h:1661-1676", "src/sdm/SolverHydroSDM.h:1699-1853", "src/sdm/SDM_Boundaries_Functors_Jet.h:115-247", "src/sdm/init/InitJetFunctor.h:66-133"]}
{"id": "C142", "title": "Steps of the SDM solver with limiter and positivity preservation", "statement": "With the limiter, the positivity preservation, both or neither, a time step touches only arrays that are allocated for these options, has no data races, ends, and has one result whatever the schedule. With both off it is the plain step. With any of them on, a uniform gas that does not flow through reflecting sides stays exactly as it is.", "quantifier": "all orders, grids, memory contents, time integrations, Riemann solvers, thresholds, time steps, schedules, 2D and 3D (uniform gas: forward Euler, ssprk2, ssprk3, real arithmetic, gas above the floors with pressure at least 1e-12)", "why_tests_cant": "Tests run the options on a few problems with one schedule; that no combination reads an array that was not allocated, and that a uniform state is kept for every threshold and step, is a statement about all of them.", "anchors": ["src/sdm/SolverHydroSDM.h:613-659", "src/sdm/SolverHydroSDM.h:939-1068", "src/sdm/SolverHydroSDM.h:1228-1263", "src/sdm/SDM_Limiter_Functors.h:909-1250", "src/sdm/SDM_Positivity_preserving.h"]}
{"id": "C143", "title": "The limiter of the SDM solver and the borders of the array", "statement": "A user expects that with the limiter on, as with it off, the result does not depend on the number of MPI processes, and that periodic data evolve the same in every period. Neither holds: the limiter leaves out the ghost cells, which are filled before it acts, so fluxes through the sides of the array use limited gas inside and unlimited gas outside. From the same ramp of density in every cell of a periodic box, one step gives flat gas in all cells away from the sides but another density in the first column; and on several processes another density in the first column of every process that has one on its left than the serial program has in the same place.", "quantifier": "all orders of at least two, grids, numbers of processes per direction, slopes at least the threshold, gases at rest above the floors, time steps > 0, all interleavings, forward Euler with the solver llf, 2D and 3D; real arithmetic", "why_tests_cant": "Parallel runs with the limiter agree with serial ones wherever it does not act near a border, so comparing a few runs settles nothing; the theorem gives the exact place and cause for all grids and process counts.", "anchors": ["src/sdm/SDM_Limiter_Functors.h:924-925", "src/sdm/SDM_Limiter_Functors.h:1061-1062", "src/sdm/SolverHydroSDM.h:939-1068", "src/sdm/SolverHydroSDM.h:1228-1263", "src/shared/HydroParams.cpp:80", "src/shared/HydroParams.cpp:92"]}
{"id": "C144", "title": "Positivity preservation of the SDM solver on several MPI processes", "statement": "With the limiter off and positivity preservation on (or off), a time step on several MPI processes never hangs, touches only memory the process owns, and leaves every process its part of the step the serial program makes on the whole domain. So unlike the limiter (C143), positivity preservation does not make results depend on the number of processes.", "quantifier": "all orders, grids, numbers of processes per direction, boundary conditions, states, time integrations, Riemann solvers, time steps, interleavings, values of uninitialised variables, 2D and 3D; real arithmetic", "why_tests_cant": "The procedure acts only in cells near vacuum, also in ghost cells that another process owns; a comparison of a few parallel and serial runs would have to hit such a cell at a border in every stage of every integrator.", "anchors": ["src/sdm/SolverHydroSDM.h:939-1068", "src/sdm/SolverHydroSDM.h:1228-1263", "src/sdm/SDM_Positivity_preserving.h", "src/shared/SolverBase.cpp"]}
{"id": "C145", "title": "The SDM program with limiter and positivity preservation", "statement": "With any choice of limiter and positivity preservation the SDM program on one process runs to its end and all its runs write the same files and stop at the same time after the same number of steps, whatever the schedules, reductions, uninitialised variables and cell order of the build. While the density is positive the files are numbered from 0 without gaps at non-decreasing times. A uniform gas that does not flow through reflecting sides is in all files. With the limiter off, the program on any number of MPI processes never hangs and writes its parts of the serial program's files.", "quantifier": "all problems but wedge and jet, orders, grids, options, thresholds, schedules, interleavings, process counts, 2D and 3D; real arithmetic; several processes: limiter off, no random initial perturbation, every rank has somewhere gas of positive density; uniform gas: not ssprk54, pressure at least 1e-12", "why_tests_cant": "The claim is about every schedule and every number of steps and processes; a test sees single runs.", "anchors": ["src/main.cpp:139-166", "src/sdm/SolverHydroSDM.h:613-801", "src/sdm/SolverHydroSDM.h:864-1068", "src/sdm/SolverHydroSDM.h:1228-1263", "src/shared/SolverBase.cpp:145-244"]}
{"id": "C146", "title": "Positivity preservation leaves steps far from vacuum alone", "statement": "Turning positivity preservation on does not change a time step of a gas far from vacuum: if at every state at which the step evaluates fluxes density and pressure are above the bounds of the procedure at all points where fluxes are evaluated, ghost cells included, and the density at one of these points of each cell is no larger than the weighted mean of the cell, then the step with the option gives exactly the values of the step without it at every solution point.", "quantifier": "all orders, grids, boundary conditions, Riemann solvers, time steps, schedules, values of uninitialised variables, 2D and 3D, forward Euler, ssprk2 and ssprk3; limiter off; real arithmetic", "why_tests_cant": "Tests compare single runs with and without the option; that no stage of any step is changed is a statement about all states above the bounds.", "anchors": ["src/sdm/SolverHydroSDM.h:939-1068", "src/sdm/SolverHydroSDM.h:1228-1263", "src/sdm/SDM_Positivity_preserving.h:929-1783"]}
{"id": "C147", "title": "A periodic box with positivity preservation and its mass", "statement": "A user expects a periodic box to keep its mass with positivity preservation on, as it does with it off. It does not: if every cell holds the same ramp of density, of positive mean and not positive at one end, then after a step of forward Euler the total mass is larger than before, whatever the time step and the Riemann solver, since the average towards which values are pulled is too large.", "quantifier": "all orders of at least two, grids, mean densities at least smallr (and below 1e13 smallr over the factor of the average), slopes at least twice the mean, energies, time steps, Riemann solvers, schedules, 2D and 3D; limiter off; real arithmetic", "why_tests_cant": "The procedure acts only near vacuum; a gain of mass there looks like the physics of the flow, and the claim is about all such ramps, grids and time steps.", "anchors": ["src/sdm/SolverHydroSDM.h:939-1068", "src/sdm/SDM_Limiter_Functors.h:68-178", "src/sdm/SDM_Positivity_preserving.h:929-1783"]}
{"id": "C148", "title": "Time of the moving shock during a Runge-Kutta step of the wedge problem", "statement": "A user who runs the wedge problem (double Mach reflection) with a Runge-Kutta method expects the upper boundary to show the moving shock, in each stage, where it is at the time of that stage. It does not: with ssprk2, ssprk3 and ssprk54 the ghost cells above the box of the last stage show the gas of the shock at the time the step starts. With ssprk2, whose stage holds inside the box exactly the result of a forward Euler step to t + dt, every point the front passes during the step has in the ghost cells the density ahead of the shock and not the density that is there at t + dt. The step itself is safe: no access outside allocated memory, no data race, one result for all schedules.", "quantifier": "all orders N, 2D grids, states, steps dt, times t, front angles between 0 and 90 degrees, gases, points above the box, values of uninitialised variables, thread schedules; real arithmetic", "why_tests_cant": "A test compares pictures or totals at one resolution, where the lag of less than one step is invisible; that every stage of every step lags is a statement about all states and times.", "anchors": ["src/sdm/SolverHydroSDM.h:1650-1660", "src/sdm/SolverHydroSDM.h:1311-1344", "src/sdm/SolverHydroSDM.h:1366-1532", "src/sdm/SDM_Boundaries_Functors_Wedge.h:226-273", "src/shared/SolverBase.cpp:205-220", "src/shared/problems/WedgeParams.h:36-77"]}
{"id": "C149", "title": "One result for the jet problem without MPI", "statement": "In a build without MPI every run of the SDM program for the jet problem ends, and all its runs, whatever the schedules of the parallel loops, the order of the reductions and the values of uninitialised variables, write the same files with the same numbers and times and stop after the same number of steps at the same time. A single step depends on nothing but the gas in the box: what ghost cells and work arrays held before has no influence.", "quantifier": "all orders N, 2D and 3D grids, time integrations, Riemann solvers, parameters of the jet, run controls with nlog other than 0, initial memory of the step, thread schedules, reduction orders; real arithmetic", "why_tests_cant": "Two equal test runs do not exclude that a third schedule or other stale memory gives another result; the claim is about all schedules and all contents of memory.", "anchors": ["src/sdm/SolverHydroSDM.h:1661-1676", "src/sdm/SDM_Boundaries_Functors_Jet.h:115-247", "src/sdm/SDM_Boundaries_Functors_Jet.h:325-562", "src/sdm/SolverHydroSDM.h:939-987", "src/sdm/SolverHydroSDM.h:893-932", "src/main.cpp:145-166"]}
{"id": "C150", "title": "One result for the wedge problem without MPI", "statement": "In a build without MPI every 2D run of the SDM solver for the wedge problem (oblique shock that moves over a wall) ends, and all its runs, whatever the schedules of the parallel loops, the order of the reductions and the values of uninitialised variables, end after the same number of steps, at the same time, with the same gas at every solution point of the box. A single step at a given time depends on nothing but the gas in the box: what ghost cells and work arrays held before has no influence. The front at the boundary follows the clock: every step uses the boundaries for the time at its start, the clock moves by the time step the gas allows, never past the end time, and no step starts after the end time or beyond the allowed number of steps. The first step starts from the gas with the shock where it is at time 0, whatever the start time.", "quantifier": "all orders N, 2D grids, time integrations, Riemann solvers, wedge parameters with shock angle between 0 and pi/2, run controls with nlog other than 0, initial memory of the step, thread schedules, reduction orders; real arithmetic", "why_tests_cant": "Two equal test runs do not exclude that a third schedule or other stale memory gives another result; the claim is about all schedules and all contents of memory, and about boundaries that change with time.", "anchors": ["src/sdm/SDM_Boundaries_Functors_Wedge.h:25-300", "src/sdm/SolverHydroSDM.h:893-932", "src/sdm/SolverHydroSDM.h:1978-1985", "src/shared/SolverBase.cpp:145-220", "src/main.cpp:154-159"]}
