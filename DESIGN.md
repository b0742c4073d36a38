# Formal model of ppkMHD in Lean 4

`/verif/lean` holds a Lean 4 model of the code in `/repo` (C++/Kokkos/MPI
hydrodynamics and MHD solvers) and kernel-checked proofs of the properties in
`properties.jsonl`.  `MANIFEST.json` maps each property to its theorems;
`seeded/LOG.jsonl` lists the wrong programs the theorems were tried on.

## Layout

* `Verif/Model/*`  – the model, function by function.  Every definition cites the file and lines it models.
* `Verif/Spec/*`   – small independent specifications the property theorems are stated with.
* `Verif/Lemmas/*` – helper lemmas (no property is stated there).
* `Verif/Props/*`  – the property theorems, each with a non-vacuity `example`.  The file name gives the
  range of properties.

## Trusted base

* The Lean kernel.  The axioms each theorem depends on are in the table at the end; nothing besides
  `propext`, `Classical.choice`, `Quot.sound` occurs (no own axioms, `sorry`, `native_decide`, `bv_decide`).
* That the definitions in `Verif/Model` describe the cited C++ lines.  This was done by reading; the code was
  not compiled or run.
* The specifications in `Verif/Spec` and the statements in `Verif/Props` say what the English says.
* Behaviour assumed of libraries, as listed below under *Kokkos*, *MPI*, *LAPACK*, *C library*, *HDF5*.
* Rounding is not modelled in theorems stated over `ℝ`.

## Modelling decisions

**Arithmetic.**  The numerical code is written over a class `ROps` of operations without laws (add, sub,
mul, div, neg, sqrt, fabs, fmin, fmax, comparisons, literals); the initial conditions use `TOps`, which adds
`sin`, `exp`, `pow`, …, also without laws.
A theorem that uses no laws (copies, schedule independence, memory safety, equality of two
implementations, MPI = serial) therefore holds for IEEE floats bit for bit, provided the compiler does not
reassociate.  Theorems that need laws (conservation, div B, consistency, CFL) are stated for `ℝ`.
Where definedness is the claim (division by zero, root of a negative number: C37, C38, C54, C61) the same
model is run at the type `Spec.CReal` of reals with an explicit undefined value that every operation propagates.

**Undefined behaviour.**  Kernels are programs in a free monad of single loads, stores and
atomic adds (`Model/Kernel.lean`).  Out-of-bounds accesses and data races are distinct
outcomes: `Launch.Yields dom m m'` says that every interleaving stays inside the allocated addresses `dom`,
is free of races and ends in `m'`.  Unassigned variables are arbitrary values (`Junk` parameters) or `none`.
Overflow of `int` is a distinct outcome where integers come from the user (C02, C41, C51, C79) and is
ignored elsewhere (loop indices are unbounded `Int` with C division `Int.tdiv`).

**Kokkos.**  `parallel_for(n, f)` is the set of all interleavings of single
memory accesses of the `n` work items, on sequentially consistent memory.  Successive launches are ordered
(one execution space instance).  `parallel_reduce` may split the items into any tree of partial reductions, each
starting from the value the functor's `init` sets (or the identity of the reducer), joined in any order.
Views are zero when allocated.  `MDRange` policies are loops over all cells of the box in any order.

**MPI.**  See the head of `Model/Mpi.lean`: non-overtaking messages per (source, destination, tag),
`MPI_Sendrecv` as two independent halves with or without buffering, barriers.  No assumption on relative
speeds.  `MPI_Allreduce` gives the fold of the operation over the ranks (C12).

**LAPACK.**  `dgeqrf`, `dorgqr`/`dtrsm` are parameters; C72 assumes their documented contract
(`Spec/Lapack.lean`) and shows it satisfiable.

**C library.**  `strtod` is not modelled (a parameter where needed), `strtof` and the conversion
`double → float` are parameters of C80; `pow` with integer exponents is repeated multiplication in the MOOD
geometry, elsewhere a parameter or, over `ℝ`, the real power; `drand48` gives arbitrary numbers.

**Hydro MUSCL** (`Model/HydroMuscl`, `Riemann`, `ComputeDt`).  2D and 3D are one definition with a flag `d3`,
each difference an explicit `if d3`.  Implementations 0 and 1; implementation numbers from 2 on do nothing, as in
the code.  The gravity array is allocated only if gravity is enabled.

**MHD MUSCL** (`Model/MhdMuscl`, `RiemannMhd`).  Implementations 0, 1 and 2 with all slope types in the dispatch.
Version 2 keeps slopes and half-advanced fields in arrays and adds fluxes atomically; its 3D scheme differs from that of
versions 0 and 1 (C135, C136).
The rotating frame is part of the 3D predictor.  The 2D code halves the magnetic field along z in the
primitive variables; this is modelled as it is (C93).  `Spec/MhdScheme.lean` is an independently written
scheme (cell and face fields, limited slopes, half step, face solver, edge solver, constrained transport).
Its z weights keep the code's quirk that the 2D half step uses the cell-centred z field.

**MOOD** (`Model/MoodPoly`, `MoodMatrix`, `MoodQuad`, `MoodStencil`, `MoodStep`).  Accesses of `Matrix` are checked
against the allocation.  Quadrature points and weights use the literals of the code.  The step is
reconstruction, fluxes, flags, recomputed fluxes, update, for each Runge-Kutta scheme; serial only, since
`SolverHydroMood::make_boundaries` has no MPI path.

**Spectral differences** (`Model/SdmGeometry`, `SdmStep`).  Points, matrices, numbering, interpolation, face
fluxes, divergence, ghost fill, all Runge-Kutta schemes.  `Spec/SdmStep.lean` describes the result in terms of
polynomials.  Inviscid; serial here (several processes: `Model/SdmMpi`).  The limiter (`Model/SdmLimiter`) and the positivity preservation
(`Model/SdmPositivity`), both off by default, are modelled as separate stages; the step and the program with them are in `Model/SdmFixed`, serial
and on several processes.  The viscous terms (`Model/SdmViscous`), whose flux loop reads a view that is never bound, are not composed with
the step.

**Euler equations** (`Model/Euler`).  Conversions, fluxes, viscous flux, characteristic transforms.

**Parameters, factory, start of the program** (`Model/Config`, `HydroParams`, `Factory`).  Text is a list of bytes in
the "C" locale; the line buffers enter through the length limits they impose.  `long → int` is modulo 2^32.

**Time loop** (`Model/TimeLoop`).  The content of the arrays is abstract; C16 ties it to double buffering.
Time steps of the individual solvers are in `ComputeDt` and `OtherDt`.

**Initial conditions** (`Model/InitMhd`, `InitHydro`).  A functor's stores into its own cell are a list of pairs; a
value read back by the same work item is the stored one.  Numbers drawn from `drand48` are arbitrary.
Integers are unbounded.

**VTK output** (`Model/Vtk`).  A file is its extents, its arrays (numbers, or an offset into the appended bytes) and
the bytes; XML syntax is not modelled, printed numbers are exact.  `Spec/Vtk.lean` is a reader as the VTK format
describes it.  Products of `int`s overflow to a distinct outcome.

**HDF5 output and restart** (`Model/Hdf5`, index of the files in `Model/Xdmf`, restart from half the resolution in `Model/Hdf5Upscale`).  The library is the two calls that move data: selected boxes of memory and
file are paired element by element in row-major order; a call with extents other than the dataset's is a distinct outcome.
The ranks' stores of a collective write take place in any order.  Chunking, compression and attributes the
reader does not use are left out.

**Restarted runs** (`Model/Restart`).  The time loop of `Model/TimeLoop` started from a file: its number, time and content.

**The hydro program** (`Model/HydroProgram`).  Initialisation, time step, step and output of the hydro solver put together, one process:
`main` as a relation between parameters and possible outcomes (files, clock, arrays).  A file is the array handed to the writer
(what is in the file then is C110, C112).

**The MHD program** (`Model/MhdProgram`).  The same for the MHD solver, whose steps compute their time step themselves.

**The SDM and MOOD programs** (`Model/HighProgram`).  The same for the high order solvers; what they share is the structure `Driver`.  In the
SDM program the limiter, the positivity procedure and the viscous terms are off; wedge and jet are left out.

**Symmetries** (`Spec/Symmetry`, C124–C126).  Statements about pairs of runs of the hydro scheme – mirrored, or with two axes exchanged – and
their consequences for the files of one symmetric run; walls keep what the box holds.  No new model.

**Initial conditions of the high order solvers** (`Model/InitHigh`).  The state stored at a point, as an option (`none`: the functor stores
nothing), for all problems of the MOOD and SDM solvers other than wedge and jet.  Random numbers and memory that the code reads without
having set it (the vortex of the MOOD solver) are arguments.  `fmod` is in `FOps`, a class without laws.

**Wedge and jet** (`Model/Wedge`).  Parameters, initial conditions and the boundary conditions of their own of these problems.  Constant
states are stored in a loop over the variables.

**The hydro program on several processes** (`Model/HydroMpi`).  The ranks' programs within a phase (set-up, one step) run as a network in any
interleaving; `MPI_Allreduce` in `compute_dt` separates the phases: no rank gets its result before all have called it, and by
then every message of the phase has been received.  Deadlock and ranks disagreeing about the end of the loop are distinct
outcomes.

**The MHD program on several processes** (`Model/MhdMpi`).  As the hydro program.  `compute_dt` comes after the exchange here, and
the loops after it send nothing; a rank that is still in them while its neighbours have begun the next exchange is covered by
C137_overlap.

**The SDM program on several processes** (`Model/SdmMpi`).  As the hydro program, with an exchange before every Runge-Kutta stage; what
parallel programs share is `Jobs` and `Driver.MpiMain`.  The equality with the serial time step needs gas of positive density on every process
(`SdmSomeGas`).

**The jet problem with MPI** (`Model/JetMpi`).  The jet problem with the exchange of `Model/SdmMpi`, and without MPI with the boundaries of
`Model/Wedge`.

**The wedge problem without MPI** (`Model/WedgeStep`).  One step of the SDM solver in 2D at a given time, with the boundaries of
`Model/Wedge`, the initial condition and the time loop.  The files a run writes are left out; `nlog` is not 0.

## What is not modelled

* PnetCDF files, timers, log output, `GlobalMpiSession`.
* Thermal terms of the SDM solver.
* Shearing boxes, functors no solver uses.
* Memory models weaker than sequential consistency (not visible in race-free loops).

## Where the code does not do what the property says

Properties are stated as a user would expect them.  Where the code violates one, the theorems prove the
negation with a concrete witness (or an exact formula for the error) next to the part that holds; the
`note` in `MANIFEST.json` says so.  These are C09, C12 (single precision), C19, C25, C29, C34 (non-periodic), C37 (aligned
field), C41, C42, C43, C44, C46, C47, C48, C49, C52, C53, C57, C67, C69, C70, C72 (shape), C74, C75, C76, C77, C80, C86, C88, C90, C91, C92,
C93, C94 (guard), C100, C101, C102, C103, C104, C105, C106, C107, C108 (`gamma0` other than 5/3), C109 (conservation), C110 (sizes), C111, C114, C115 (ghost cells, pressure), C116 (output numbers and times), C118 (gravity), C121 (restarted runs, times), C127 (angles over 90 degrees), C128 (`gamma0` left out), C129 (implosion, quadrants, moved vortex), C130 (implosion, vortex, several processes), C131 (ssprk54, nlog), C132 (ssprk54, 3D), C135, C141, C143, C147, C148 and later ones marked in the manifest.


## Theorems and axioms

P = `propext`, C = `Classical.choice`, Q = `Quot.sound`.

| property | status | file | theorems (axioms) |
|---|---|---|---|
| C01 | proved | C01_C02_Index.lean | `C01_index_coord_2d` (PCQ), `C01_index_coord_3d` (PCQ) |
| C02 | proved | C01_C02_Index.lean | `C02_no_overflow_2d` (PCQ), `C02_no_overflow_3d` (PCQ), `C02_overflow` (PCQ), `C02_overflow_beyond` (PQ), `C02_overflow_3d_witness` (none) |
| C03 | proved | C03_C04_Schedules.lean | `C03_race_free_loop_is_deterministic` (PCQ) |
| C04 | proved | C03_C04_Schedules.lean | `C04_atomic_accumulation` (PCQ) |
| C05 | proved | C05_C08_Ghosts.lean | `C05_ghost_fill_2d_hydro` (PCQ), `C05_cross_real` (PCQ) |
| C06 | proved | C05_C08_Ghosts.lean | `C06_ghost_fill_3d_hydro` (PCQ) |
| C07 | proved | C05_C08_Ghosts.lean | `C07_ghost_fill_2d_mhd` (PCQ), `C07_ghost_fill_3d_mhd` (PCQ) |
| C08 | proved | C05_C08_Ghosts.lean | `C08_fill_twice_2d` (PCQ), `C08_fill_twice_3d` (PCQ) |
| C09 | proved | C09_ThinDomains.lean | `C09_periodic_race` (PCQ), `C09_periodic_two_results` (PCQ), `C09_reflecting_stale` (PCQ) |
| C10 | proved | C10_C12_Mpi.lean | `C10_mpi_fill_2d` (PCQ), `C10_mpi_fill_3d` (PCQ) |
| C11 | proved | C10_C12_Mpi.lean | `C11_blocks` (PCQ), `C11_neighbour` (PCQ), `C11_symmetric` (PCQ), `C11_matching_2d` (PCQ), `C11_matching_3d` (PCQ), `C11_no_deadlock_2d` (PCQ), `C11_no_deadlock_3d` (PCQ) |
| C12 | proved | C10_C12_Mpi.lean | `C12_same_step` (PCQ), `C12_equals_serial` (PCQ), `C12_float_build` (PCQ) |
| C13 | proved | C13_C16_TimeLoop.lean | `C13_never_past_end` (PCQ) |
| C14 | proved | C13_C16_TimeLoop.lean | `C14_loop_stops` (PCQ), `C14_reaches_end` (PCQ), `C16_double_buffering` (PCQ) |
| C15 | proved | C13_C16_TimeLoop.lean | `C15_outputs` (PCQ) |
| C16 | proved | C13_C16_TimeLoop.lean | `C16_double_buffering` (PCQ), `C16_step_reads_newest` (PCQ) |
| C17 | proved | C17_C21_Config.lean | `C17_last_assignment_wins` (PCQ), `C17_last_assignment_wins_serial` (PCQ) |
| C18 | proved | C17_C21_Config.lean | `C18_set_get_string` (PQ), `C18_set_get_typed` (PCQ), `C18_bool_spellings` (PCQ) |
| C19 | proved | C17_C21_Config.lean | `C19_key_aliasing` (PCQ), `C19_dot_alias` (PCQ), `C19_long_section` (PCQ) |
| C20 | proved | C17_C21_Config.lean | `C20_first_bad_line` (PCQ), `C20_bad_lines_ignored` (PCQ) |
| C21 | proved | C17_C21_Config.lean | `C21_parsers_agree` (PQ), `C21_parsers_differ` (PCQ) |
| C22 | proved | C22_C26_HydroStep.lean | `C22_conservation` (PCQ) |
| C23 | proved | C22_C26_HydroStep.lean | `C23_flux_balance` (PCQ), `C23_flux_balance_impl1` (PCQ), `C23_update` (PCQ) |
| C24 | proved | C22_C26_HydroStep.lean | `C24_implementations_2d` (PCQ) |
| C25 | proved | C22_C26_HydroStep.lean, C25_C49_Differences.lean | `C25_implementations_3d` (PCQ), `C25_gravity_differs` (PCQ) |
| C26 | proved | C22_C26_HydroStep.lean | `C26_uniform` (PCQ) |
| C27 | proved | C27_C29_Riemann.lean | `C27_llf` (PCQ), `C27_hll` (PCQ), `C27_hllc` (PCQ), `C27_approx` (PCQ), `C27_dispatch` (PCQ) |
| C28 | proved | C27_C29_Riemann.lean | `C28_llf` (PCQ), `C28_hll` (PCQ), `C28_hllc` (PCQ), `C28_approx` (PCQ), `C28_wall` (PCQ) |
| C29 | proved | C27_C29_Riemann.lean, C37_C63_MhdRiemann.lean | `C29_hydro2d` (PCQ), `C29_hydro3d` (PCQ), `C29_unassigned` (PCQ), `C29_selects` (PCQ), `C29_mhd` (PCQ) |
| C30 | proved | C30_C33_Cell.lean | `C30_sign` (PCQ), `C30_bounds` (PCQ), `C30_no_new_extrema` (PCQ), `C30_linear` (PCQ) |
| C31 | proved | C30_C33_Cell.lean | `C31_physical` (PCQ), `C31_roundtrip` (PCQ) |
| C32 | proved | C32_C59_Dt.lean | `C32_cfl` (PCQ), `C32_cfl_any` (PCQ), `C32_unique` (PCQ) |
| C33 | proved | C30_C33_Cell.lean, C33_GravityStep.lean | `C33_gravity` (PCQ), `C33_mass` (PCQ), `C33_step` (PCQ) |
| C34 | proved | C34_C36_MhdStep.lean, C34_C49_MhdDifferences.lean | `C34_divB_2d` (PCQ), `C34_divB_periodic_2d` (PCQ), `C34_absorbing_fails` (PCQ) |
| C35 | proved | C34_C36_MhdStep.lean | `C35_divB_3d` (PCQ), `C35_divB_periodic_3d` (PCQ) |
| C36 | proved | C34_C36_MhdStep.lean | `C36_implementations` (PCQ), `C36_runs` (PCQ) |
| C37 | proved | C37_C63_MhdRiemann.lean | `C37_llf` (PCQ), `C37_hll` (PCQ), `C37_hlld` (PCQ), `C37_hlld_aligned` (PCQ), `C37_emf` (PCQ), `C37_dispatch` (PCQ) |
| C38 | proved | C37_C63_MhdRiemann.lean | `C38_fast` (PCQ), `C38_info` (PCQ), `C38_alfven` (PCQ), `C38_alternative` (PCQ) |
| C39 | proved | C39_C68_Euler.lean | `C39_roundtrip_2d` (PCQ), `C39_inverse_2d` (PCQ), `C39_roundtrip_3d` (PCQ), `C39_inverse_3d` (PCQ) |
| C40 | proved | C40_C41_Monomials.lean | `C40_table` (PCQ), `C40_position` (PCQ) |
| C41 | proved | C40_C41_Monomials.lean | `C41_template` (PCQ), `C41_template_undefined` (PQ), `C41_binom` (PCQ), `C41_binom_small` (PCQ), `C41_binom_overflow` (P), `C41_number_of_coefficients` (PCQ) |
| C42 | proved | C42_C71_Reconstruction.lean | `C42_moment_2D` (PCQ), `C42_moment_3D` (PCQ), `C42_geometry_2D` (PCQ), `C42_geometry_3D` (PCQ), `C42_reconstruction_2D` (PCQ), `C42_reconstruction_3D` (PCQ), `C42_own_mean_2D` (PCQ), `C42_own_mean_3D` (PCQ), `C42_no_shift` (PCQ), `C42_degree_one` (PCQ), `C42_fails_2D` (PCQ) |
| C43 | proved | C43_C44_MoodFluxes.lean, C43_C75_MoodWitness.lean | `C43_lower_faces` (PCQ), `C43_flag_is_density` (PCQ), `C43_negative_pressure_passes` (PCQ), `C43_fails` (PCQ) |
| C44 | proved | C43_C44_MoodFluxes.lean | `C44_flux_scaling` (PCQ), `C44_fails_3D` (PCQ) |
| C45 | proved | C45_C73_MoodStep.lean | `C45_selected` (none), `C45_ssprk2` (PCQ), `C45_ssprk3` (PCQ), `C45_ssprk2_bounds` (PCQ), `C45_ssprk3_bounds` (PCQ), `C45_ssprk2_totals` (PCQ), `C45_ssprk3_totals` (PCQ), `C45_ssprk54_does_nothing` (PCQ) |
| C46 | proved | C42_C71_Reconstruction.lean | `C46_stencil` (P), `C46_degree4_3D_fails` (none), `C46_in_bounds` (PCQ), `C46_names` (P) |
| C47 | proved | C47_Quadrature.lean | `C47_exact_2D` (PCQ), `C47_exact_3D` (PCQ), `C47_weights` (PCQ), `C47_enough_points` (none), `C47_faces_match_2D` (PCQ), `C47_faces_match_3D` (PCQ), `C47_sqrt_3_5_digits` (PCQ) |
| C48 | proved | C48_Matrix.lean | `C48_allocate` (PQ), `C48_copy` (PQ), `C48_ofArray` (PQ), `C48_assign` (PCQ), `C48_assign_fails` (PCQ), `C48_reset` (PQ), `C48_minor` (PCQ), `C48_mult` (PCQ), `C48_mult_mismatch` (PQ), `C48_mult_self_fails` (PCQ), `C48_transpose` (PCQ), `C48_transpose_transpose` (PCQ) |
| C49 | proved | C22_C26_HydroStep.lean, C34_C36_MhdStep.lean, C25_C49_Differences.lean, C34_C49_MhdDifferences.lean | `C49_no_uninitialised` (PCQ), `C49_mhd_no_uninitialised` (PCQ), `C49_slope_type` (PCQ), `C49_hlld` (PCQ), `C49_mhd_solver` (PCQ), `C49_mhd_slope_type` (PCQ) |
| C50 | proved | C50_C51_Setup.lean | `C50_last_registered` (PQ), `C50_unknown` (none), `C50_returned` (none), `C50_builtin` (P) |
| C51 | proved | C50_C51_Setup.lean | `C51_extents` (PCQ), `C51_defined` (PCQ), `C51_tiling` (PCQ), `C51_tiling_mpi` (PCQ) |
| C52 | proved | C13_C16_TimeLoop.lean | `C52_nlog_zero` (PCQ) |
| C53 | proved | C17_C21_Config.lean | `C53_comment_as_value` (PCQ) |
| C54 | proved | C27_C29_Riemann.lean | `C54_llf` (PCQ), `C54_hll` (PCQ), `C54_hllc` (PCQ), `C54_approx` (PCQ), `C54_hllc_waves` (PCQ) |
| C55 | proved | C27_C29_Riemann.lean | `C55_hll` (PCQ), `C55_hllc` (PCQ) |
| C56 | proved | C27_C29_Riemann.lean | `C56_hllc_contact` (PCQ), `C56_llf_diffuses` (PCQ) |
| C57 | proved | C30_C33_Cell.lean | `C57_predictor` (PCQ), `C57_anisotropic` (PCQ) |
| C58 | proved | C22_C26_HydroStep.lean | `C58_hydro_step` (PCQ), `C58_hydro_unique` (PCQ), `C58_hydro_preserves` (PCQ) |
| C59 | proved | C32_C59_Dt.lean | `C59_gravity_cfl` (PCQ), `C59_unique` (PCQ) |
| C60 | proved | C60_Hancock.lean | `C60_hancock` (PCQ) |
| C61 | proved | C37_C63_MhdRiemann.lean | `C61_llf` (PCQ), `C61_hll` (PCQ), `C61_hlld` (PCQ), `C61_hlld_perp` (PCQ), `C61_emf` (PCQ) |
| C62 | proved | C37_C63_MhdRiemann.lean | `C62_llf` (PCQ), `C62_hll` (PCQ), `C62_hlld` (PCQ), `C62_wall` (PCQ) |
| C63 | proved | C37_C63_MhdRiemann.lean | `C63_hll` (PCQ), `C63_hlld` (PCQ), `C63_emf` (PCQ), `C63_emf_rotate` (PCQ) |
| C64 | proved | C34_C36_MhdStep.lean | `C64_mhd_step` (PCQ), `C64_mhd_step_atomic` (PCQ), `C64_mhd_preserves` (PCQ) |
| C65 | proved | C34_C36_MhdStep.lean | `C65_mhd_conservation` (PCQ), `C65_mhd_conservation_run` (PCQ) |
| C66 | proved | C39_C68_Euler.lean | `C66_waves_2d` (PCQ), `C66_waves_3d` (PCQ) |
| C67 | proved | C39_C68_Euler.lean | `C67_primitive_2d` (PCQ), `C67_primitive_3d` (PCQ), `C67_pressure_positive_3d` (PCQ), `C67_pressure_disagrees_2d` (PCQ), `C67_flux_2d` (PCQ), `C67_flux_3d` (PCQ), `C67_sound_speed_squared` (PCQ), `C67_sound_speed_wrong` (PCQ) |
| C68 | proved | C39_C68_Euler.lean | `C68_stress_2d` (PCQ), `C68_stress_3d` (PCQ), `C68_symmetric_2d` (PCQ), `C68_symmetric_3d` (PCQ), `C68_dissipates_2d` (PCQ), `C68_dissipates_3d` (PCQ), `C68_rigid_3d` (PCQ) |
| C69 | partial | C69_C93_Dt.lean | `C69_dt` (PCQ), `C69_cfl_partial` (PCQ), `C69_exceeds` (PCQ), `C69_rescaled` (PCQ), `C69_unique` (PCQ) |
| C70 | proved | C70_Powers.lean | `C70_power` (PCQ), `C70_mypow` (PCQ), `C70_mypow_fails` (PCQ), `C70_setCoefs` (PCQ), `C70_setCoefs_above` (PCQ), `C70_monomial_2D` (PCQ), `C70_monomial_3D` (PCQ) |
| C71 | proved | C42_C71_Reconstruction.lean | `C71_unique` (PCQ), `C71_exists_left_inverse` (PCQ) |
| C72 | proved | C72_PseudoInverse.lean | `C72_pseudo_inverse` (PCQ), `C72_contract` (PCQ), `C72_fill` (PCQ), `C72_init_mood` (PCQ), `C72_shape_fails` (PCQ) |
| C73 | proved | C45_C73_MoodStep.lean | `C73_mood_step` (PCQ), `C73_mood_unique` (PCQ), `C73_mood_input_kept` (PCQ), `C73_mood_layout` (PCQ) |
| C74 | proved | C74_C75_MoodBalance.lean, C74_C75_MoodLowerSides.lean | `C74_uniform_2D` (PCQ), `C74_uniform_euler` (PCQ), `C74_fails_3D` (PCQ), `C74_fails_3D_strict` (PCQ) |
| C75 | proved | C74_C75_MoodBalance.lean, C43_C75_MoodWitness.lean, C74_C75_MoodLowerSides.lean | `C75_balance` (PCQ), `C75_conservation_2D` (PCQ), `C75_fails_flagged` (PCQ), `C75_fails_3D` (PCQ) |
| C76 | proved | C69_C93_Dt.lean | `C76_dt` (PCQ), `C76_cfl` (PCQ), `C76_rescaled` (PCQ), `C76_rescaled_exceeds` (PCQ), `C76_unique` (PCQ) |
| C77 | proved | C77_MoodMpi.lean | `C77_mood_mpi_wrong_2d` (PCQ), `C77_mood_mpi_wrong_3d` (PCQ) |
| C78 | proved | C50_C51_Setup.lean | `C78_fits` (PCQ), `C78_unknown_name` (PCQ) |
| C79 | proved | C50_C51_Setup.lean | `C79_version` (PCQ), `C79_riemann` (PCQ), `C79_gas` (PCQ) |
| C80 | proved | C80_Precision.lean | `C80_single_precision` (PCQ), `C80_gamma` (PCQ), `C80_error` (PCQ) |
| C81 | proved | C81_C84_SdmGeometry.lean | `dofMap_lt` (PQ), `dofMap_injective` (PQ), `dofMap_onto` (PCQ), `dofMapFlux_lt` (PQ), `dofMapFlux_injective` (PQ), `dofMap_not_for_fluxes` (PCQ) |
| C82 | proved | C81_C84_SdmGeometry.lean | `solution_points_inside` (PCQ), `solution_points_increasing` (PCQ), `solution_points_chebyshev` (PCQ), `solution_points_symmetric` (PCQ), `flux_points_ends` (PCQ), `flux_points_increasing` (PCQ), `flux_points_legendre` (PCQ), `flux_points_symmetric` (PCQ), `solution_points_apart` (PCQ), `flux_points_seven` (PCQ) |
| C83 | proved | C81_C84_SdmGeometry.lean | `sol2flux_exact` (PCQ), `flux2sol_exact` (PCQ), `flux2sol_derivative_exact` (PCQ), `sol2sol_derivative_exact` (PCQ), `sol2flux_flux2sol` (PCQ), `sol2flux_limit` (PCQ) |
| C84 | proved | C81_C84_SdmGeometry.lean | `flux_derivative_mean` (PCQ), `lineMean_sum` (PCQ), `lineMean_const` (PCQ), `lineMean_polynomial` (PCQ), `flux_derivative_const` (PCQ), `sol2flux_const` (PCQ) |
| C85 | proved | C85_C89_SdmStep.lean | `C85_step` (PCQ), `C85_unique` (PCQ), `C85_interior_only` (PCQ), `C85_divergence` (PCQ), `C85_gas` (PCQ) |
| C86 | proved | C85_C89_SdmStep.lean | `C86_balance` (PCQ), `C86_closed_inflow` (PCQ), `C86_conserved` (PCQ), `C86_ssprk54` (PCQ) |
| C87 | proved | C85_C89_SdmStep.lean | `C87_ghosts` (PCQ), `C87_mirror` (PCQ) |
| C88 | proved | C85_C89_SdmStep.lean | `C88_uniform` (PCQ), `C88_ssprk54` (PCQ) |
| C89 | proved | C85_C89_SdmStep.lean | `C89_selected` (none), `C89_euler` (PCQ), `C89_ssprk2` (PCQ), `C89_ssprk3` (PCQ), `C89_ssprk54` (PCQ) |
| C90 | proved | C90_SdmViscous.lean | `C90_flux_undefined` (PCQ), `C90_undefined` (PCQ), `C90_off` (PCQ), `C90_gradients` (PCQ), `C90_jump_missed` (PCQ), `C90_accumulates` (PCQ) |
| C91 | proved | C91_SdmLimiter.lean | `C91_safe` (PCQ), `C91_average` (PCQ), `C91_weighted_mean` (PCQ), `C91_factor` (PCQ), `C91_factor_one` (PCQ), `C91_factor_two` (PCQ), `C91_average_too_large` (PCQ), `C91_gradient` (PCQ), `C91_minmod` (PCQ), `C91_limited` (PCQ), `C91_mean` (PCQ), `C91_kept` (PCQ), `C91_flat_cell` (PCQ), `C91_first_order` (PCQ), `C91_not_conserved` (PCQ), `C91_mass_grows` (PCQ), `C91_wrong_speed` (PCQ) |
| C92 | proved | C69_C93_Dt.lean | `C92_cfl` (PCQ), `C92_unique` (PCQ), `C92_exceeds_2d` (PCQ) |
| C93 | proved | C69_C93_Dt.lean | `C93_conversion` (PCQ), `C93_conversion_2d` (PCQ) |
| C94 | proved | C94_Fan.lean | `C94_hlld` (PCQ), `C94_hlld_perp` (PCQ), `C94_guard` (PCQ) |
| C95 | proved | C95_C97_MhdScheme.lean | `C95_consistent` (PCQ), `C95_uniform` (PCQ) |
| C96 | proved | C95_C97_MhdScheme.lean | `C96_continuous` (PCQ), `C96_divergence` (PCQ) |
| C97 | proved | C95_C97_MhdScheme.lean | `C97_scheme` (PCQ) |
| C98 | proved | C98_Edge.lean | `C98_exchange` (PCQ), `C98_reflect` (PCQ), `C98_along` (PCQ), `C98_polarity` (PCQ), `C98_diffusion` (PCQ) |
| C99 | proved | C99_MoodConsistency.lean | `C99_flagged` (PCQ), `C99_upwind` (PCQ), `C99_smooth` (PCQ) |
| C100 | proved | C100_InitField.lean | `C100_divB_start` (PCQ), `C100_divB_run` (PCQ), `C100_setup` (PCQ), `C100_implode_jump` (PCQ), `C100_loop_cut` (PCQ), `C100_loop_cut_run` (PCQ) |
| C101 | proved | C101_InitPlasma.lean | `C101_blast` (PCQ), `C101_blast3` (PCQ), `C101_blast2_wrong` (PCQ), `C101_orszagTang` (PCQ), `C101_shear` (PCQ), `C101_sharp` (PCQ), `C101_rotor` (PCQ), `C101_rotor_wrong` (PCQ), `C101_implode` (PCQ), `C101_implode_rest` (PCQ), `C101_implode_wrong` (PCQ), `C101_fieldLoop` (PCQ), `C101_fieldLoop2_wrong` (PCQ), `C101_nothing` (PCQ), `C101_random3` (PCQ) |
| C102 | proved | C102_InitHydro.lean | `C102_setup` (PCQ), `C102_blast` (PCQ), `C102_shear2` (PCQ), `C102_shear3` (PCQ), `C102_sharp2` (PCQ), `C102_sharp3` (PCQ), `C102_shear_none` (PCQ), `C102_gresho` (PCQ), `C102_gresho3` (PCQ), `C102_gresho3_wrong` (PCQ), `C102_vortex` (PCQ), `C102_bubble` (PCQ), `C102_rayleighTaylor` (PCQ), `C102_rayleighTaylor_wrong` (PCQ), `C102_implode` (PCQ), `C102_implode_wrong` (PCQ) |
| C103 | proved | C103_Decomposition.lean | `C103_hydro` (PCQ), `C103_mhd` (PCQ), `C103_fieldLoop` (PCQ), `C103_fieldLoop_momentum_wrong` (PCQ) |
| C104 | proved | C104_Vortices.lean | `C104_vortex` (PCQ), `C104_gresho` (PCQ), `C104_gresho_wrong` (PCQ) |
| C105 | proved | C105_Riemann2d.lean | `C105_waves` (PCQ), `C105_config5_wrong` (PCQ), `C105_config9_wrong` (PCQ), `C105_config18_wrong` (PCQ), `C105_numbers` (PCQ), `C105_placed` (PCQ) |
| C106 | proved | C106_Hydrostatic.lean | `C106_gravity` (PCQ), `C106_rayleighTaylor` (PCQ), `C106_bubble` (PCQ), `C106_interface_wrong` (PCQ), `C106_unallocated` (PCQ) |
| C107 | proved | C107_Disk.lean | `C107_pressure` (PCQ), `C107_gas` (PCQ), `C107_equilibrium` (PCQ), `C107_gravity` (PCQ), `C107_centred` (PCQ), `C107_offset_wrong` (PCQ), `C107_axis_wrong` (PCQ) |
| C108 | proved | C108_LinearWave.lean | `C108_plane_wave` (PCQ), `C108_eigenvector` (PCQ), `C108_contact` (PCQ), `C108_alfven` (PCQ), `C108_gamma` (PCQ), `C108_default_wrong` (PCQ) |
| C109 | proved | C109_SdmPositivity.lean | `C109_safe` (PCQ), `C109_density` (PCQ), `C109_pressure` (PCQ), `C109_kept` (PCQ), `C109_mean` (PCQ), `C109_average` (PCQ), `C109_positive` (PCQ), `C109_not_conserved` (PCQ), `C109_mass_grows` (PCQ) |
| C110 | proved | C110_Vtk.lean | `C110_file` (PCQ), `C110_ghosts` (PCQ), `C110_overflow` (PQ), `C110_overflow_mhd` (PCQ) |
| C111 | proved | C111_VtkNames.lean | `C111_names` (PCQ), `C111_tiles` (PCQ), `C111_pieces` (PCQ), `C111_flat` (PCQ), `C111_debug` (PCQ) |
| C112 | proved | C112_Hdf5.lean | `C112_content` (PCQ), `C112_decomposition` (PCQ), `C112_pieces` (PCQ) |
| C113 | proved | C112_Hdf5.lean | `C113_restart` (PCQ), `C113_all` (PCQ), `C113_outer` (PCQ), `C113_single` (PCQ) |
| C114 | proved | C112_Hdf5.lean | `C114_mismatch` (PCQ), `C114_stacked` (PCQ), `C114_ghosts` (PCQ), `C114_overflow` (PCQ), `C114_last` (PCQ), `C114_race` (PCQ) |
| C115 | proved | C115_Upscale.lean | `C115_refined` (PCQ), `C115_divergence` (PCQ), `C115_total` (PCQ), `C115_source` (PCQ), `C115_noghost` (PCQ), `C115_pressure` (PCQ) |
| C116 | proved | C116_Restart.lean | `C116_continue` (PCQ), `C116_every_step` (PCQ), `C116_not_due` (PCQ), `C116_silent` (PCQ), `C116_extended` (PCQ), `C116_reads` (PCQ), `C116_unread` (PQ) |
| C117 | proved | C117_HydroProgram.lean | `C117_same_files` (PCQ), `C117_outputs` (PCQ), `C117_conservation` (PCQ), `C117_uniform` (PCQ) |
| C118 | proved | C118_HydroRestart.lean | `C118_continue` (PCQ), `C118_gravity_lost` (PCQ) |
| C119 | proved | C119_C120_HydroMpi.lean | `C119_step` (PCQ), `C119_setup` (PCQ), `C119_dt` (PCQ) |
| C120 | proved | C119_C120_HydroMpi.lean | `C120_equals_serial` (PCQ), `C120_any_ranks` (PCQ) |
| C121 | proved | C121_Xdmf.lean | `C121_entries` (PCQ), `C121_complete` (PCQ), `C121_restarted` (PCQ), `C121_single` (PCQ), `C121_times` (PCQ) |
| C122 | proved | C122_C123_MhdProgram.lean | `C122_same_files` (PCQ), `C122_outputs` (PCQ), `C122_conservation` (PCQ), `C122_divB` (PCQ), `C122_divB_inside` (PCQ), `C122_solenoidal` (PCQ), `C122_uniform` (PCQ), `C122_versions` (PCQ) |
| C123 | proved | C122_C123_MhdProgram.lean | `C123_continue` (PCQ) |
| C124 | proved | C124_C126_Symmetry.lean | `C124_closed_box` (PCQ), `C124_files` (PCQ) |
| C125 | proved | C124_C126_Symmetry.lean | `C125_step` (PCQ), `C125_files` (PCQ), `C125_symmetric_gas` (PCQ), `C125_blast` (PCQ) |
| C126 | proved | C124_C126_Symmetry.lean | `C126_step` (PCQ), `C126_files` (PCQ), `C126_symmetric_gas` (PCQ), `C126_implode` (PCQ) |
| C127 | proved | C127_Wedge.lean | `C127_states` (PCQ), `C127_init_mood` (PCQ), `C127_init_sdm` (PCQ), `C127_ghosts_mood` (PCQ), `C127_ghosts_sdm` (PCQ), `C127_inflow` (PCQ), `C127_obtuse` (PCQ) |
| C128 | proved | C128_Jet.lean | `C128_ghosts` (PCQ), `C128_init` (PCQ), `C128_pressure` (PCQ), `C128_default_gamma` (PCQ) |
| C129 | proved | C129_InitSdm.lean | `C129_sod` (PCQ), `C129_shuOsher` (PCQ), `C129_shuOsher_shock` (PCQ), `C129_blast` (PCQ), `C129_implode` (PCQ), `C129_implode_wrong` (PCQ), `C129_shear2` (PCQ), `C129_shear3` (PCQ), `C129_sharp` (PCQ), `C129_shear_none` (PCQ), `C129_gresho` (PCQ), `C129_vortex` (PCQ), `C129_vortex_moved` (PCQ), `C129_vortex_moved_wrong` (PCQ), `C129_quadrants` (PCQ), `C129_quadrants_wrong` (PCQ), `C129_quadrants_none` (PCQ), `C129_only` (PCQ), `C129_names` (P) |
| C130 | proved | C130_InitMood.lean | `C130_blast` (PCQ), `C130_quadrants` (PCQ), `C130_shear2` (PCQ), `C130_shear3` (PCQ), `C130_sharp` (PCQ), `C130_shear_none` (PCQ), `C130_implode` (PCQ), `C130_implode_default` (PCQ), `C130_implode_wrong` (PCQ), `C130_vortex` (PCQ), `C130_vortex_still` (PCQ), `C130_vortex_wrong` (PCQ), `C130_vortex3_wrong` (PCQ), `C130_vortex_points_wrong` (PCQ), `C130_ranks` (PCQ), `C130_ranks_wrong` (PCQ), `C130_only` (PCQ), `C130_names` (P) |
| C131 | proved | C131_SdmProgram.lean | `C131_same_files` (PCQ), `C131_nlog` (PCQ), `C131_order` (PCQ), `C131_first` (PCQ), `C131_conservation` (PCQ), `C131_drift` (PCQ), `C131_uniform` (PCQ) |
| C132 | proved | C132_MoodProgram.lean | `C132_same_files` (PCQ), `C132_order` (PCQ), `C132_first` (PCQ), `C132_ssprk54_frozen` (PCQ), `C132_uniform` (PCQ), `C132_fails_3D` (PCQ) |
| C133 | proved | C133_C135_MhdVersion2.lean | `C133_step` (PCQ), `C133_preserves` (PCQ), `C133_runs_2d` (PCQ), `C133_runs_exist` (PCQ), `C133_files_2d` (PCQ) |
| C134 | proved | C133_C135_MhdVersion2.lean | `C134_divB` (PCQ), `C134_divB_periodic` (PCQ), `C134_conservation` (PCQ), `C134_no_uninitialised` (PCQ) |
| C135 | proved | C133_C135_MhdVersion2.lean | `C135_differs` (PCQ), `C135_z_slope` (PCQ), `C135_edge_field` (PCQ) |
| C136 | proved | C136_MhdVersion2Scheme.lean | `C136_scheme` (PCQ), `C136_same_gas` (PCQ) |
| C137 | proved | C137_C138_MhdMpi.lean | `C137_exchange` (PCQ), `C137_setup` (PCQ), `C137_step` (PCQ), `C137_overlap` (PCQ) |
| C138 | proved | C137_C138_MhdMpi.lean | `C138_equals_serial` (PCQ), `C138_any_ranks` (PCQ) |
| C139 | proved | C139_C140_SdmMpi.lean | `C139_exchange` (PCQ), `C139_start` (PCQ), `C139_dt` (PCQ), `C139_step` (PCQ) |
| C140 | proved | C139_C140_SdmMpi.lean | `C140_equals_serial` (PCQ), `C140_any_ranks` (PCQ) |
| C141 | proved | C141_JetMpi.lean, C141_JetSerial.lean | `C141_no_jet` (PCQ), `C141_jet_enters` (PCQ), `C141_density_changes` (PCQ), `C141_safe` (PCQ), `C141_serial` (PCQ), `C141_serial_jet` (PCQ) |
| C142 | proved | C142_SdmFixed.lean | `C142_safe` (PCQ), `C142_off` (PCQ), `C142_uniform` (PCQ) |
| C143 | proved | C143_SdmLimiterBorder.lean | `C143_sides` (PCQ), `C143_processes` (PCQ) |
| C144 | proved | C144_C145_SdmFixedProgram.lean | `C144_step` (PCQ) |
| C145 | proved | C144_C145_SdmFixedProgram.lean | `C145_same_files` (PCQ), `C145_order` (PCQ), `C145_uniform` (PCQ), `C145_equals_serial` (PCQ) |
| C146 | proved | C146_C147_SdmPositivityStep.lean | `C146_same` (PCQ) |
| C147 | proved | C146_C147_SdmPositivityStep.lean | `C147_mass_grows` (PCQ) |
| C148 | proved | C148_WedgeStages.lean | `C148_safe` (PCQ), `C148_stage` (PCQ), `C148_last` (PCQ), `C148_lag` (PCQ) |
| C149 | proved | C149_JetSame.lean | `C149_step` (PCQ), `C149_same_files` (PCQ) |
| C150 | proved | C150_WedgeSame.lean | `C150_step` (PCQ), `C150_same` (PCQ), `C150_clock` (PCQ), `C150_start` (PCQ) |
