{
 "claims": [
  {
   "property": "C01",
   "status": "proved",
   "theorems": [
    "Verif.C01_index_coord_2d",
    "Verif.C01_index_coord_3d"
   ],
   "note": ""
  },
  {
   "property": "C02",
   "status": "proved",
   "theorems": [
    "Verif.C02_no_overflow_2d",
    "Verif.C02_no_overflow_3d",
    "Verif.C02_overflow",
    "Verif.C02_overflow_beyond",
    "Verif.C02_overflow_3d_witness"
   ],
   "note": ""
  },
  {
   "property": "C03",
   "status": "proved",
   "theorems": [
    "Verif.C03_race_free_loop_is_deterministic"
   ],
   "note": ""
  },
  {
   "property": "C04",
   "status": "proved",
   "theorems": [
    "Verif.C04_atomic_accumulation"
   ],
   "note": ""
  },
  {
   "property": "C05",
   "status": "proved",
   "theorems": [
    "Verif.C05_ghost_fill_2d_hydro",
    "Verif.C05_cross_real"
   ],
   "note": ""
  },
  {
   "property": "C06",
   "status": "proved",
   "theorems": [
    "Verif.C06_ghost_fill_3d_hydro"
   ],
   "note": ""
  },
  {
   "property": "C07",
   "status": "proved",
   "theorems": [
    "Verif.C07_ghost_fill_2d_mhd",
    "Verif.C07_ghost_fill_3d_mhd"
   ],
   "note": ""
  },
  {
   "property": "C08",
   "status": "proved",
   "theorems": [
    "Verif.C08_fill_twice_2d",
    "Verif.C08_fill_twice_3d"
   ],
   "note": ""
  },
  {
   "property": "C09",
   "status": "proved",
   "theorems": [
    "Verif.C09_periodic_race",
    "Verif.C09_periodic_two_results",
    "Verif.C09_reflecting_stale"
   ],
   "note": "The code violates the property for thin domains: concrete witnesses."
  },
  {
   "property": "C10",
   "status": "proved",
   "theorems": [
    "Verif.C10_mpi_fill_2d",
    "Verif.C10_mpi_fill_3d"
   ],
   "note": "For the three boundary conditions and numbers with x*1 = x. MPI library behaviour as listed in Model/Mpi."
  },
  {
   "property": "C100",
   "status": "proved",
   "theorems": [
    "Verif.C100_divB_start",
    "Verif.C100_divB_run",
    "Verif.C100_setup",
    "Verif.C100_implode_jump",
    "Verif.C100_loop_cut",
    "Verif.C100_loop_cut_run"
   ],
   "note": "Exact arithmetic for the divergence; C100_setup holds in any arithmetic. Memory is zero when allocated (Kokkos)."
  },
  {
   "property": "C101",
   "status": "proved",
   "theorems": [
    "Verif.C101_blast",
    "Verif.C101_blast3",
    "Verif.C101_blast2_wrong",
    "Verif.C101_orszagTang",
    "Verif.C101_shear",
    "Verif.C101_sharp",
    "Verif.C101_rotor",
    "Verif.C101_rotor_wrong",
    "Verif.C101_implode",
    "Verif.C101_implode_rest",
    "Verif.C101_implode_wrong",
    "Verif.C101_fieldLoop",
    "Verif.C101_fieldLoop2_wrong",
    "Verif.C101_nothing",
    "Verif.C101_random3"
   ],
   "note": "Holds for the 3D blast, Orszag-Tang, shear layers, 3D field loop and implosions of gas at rest; the violated cases are proved as *_wrong, C101_nothing and C101_random3, with the state actually set up."
  },
  {
   "property": "C102",
   "status": "proved",
   "theorems": [
    "Verif.C102_setup",
    "Verif.C102_blast",
    "Verif.C102_shear2",
    "Verif.C102_shear3",
    "Verif.C102_sharp2",
    "Verif.C102_sharp3",
    "Verif.C102_shear_none",
    "Verif.C102_gresho",
    "Verif.C102_gresho3",
    "Verif.C102_gresho3_wrong",
    "Verif.C102_vortex",
    "Verif.C102_bubble",
    "Verif.C102_rayleighTaylor",
    "Verif.C102_rayleighTaylor_wrong",
    "Verif.C102_implode",
    "Verif.C102_implode_wrong"
   ],
   "note": "Exact arithmetic for the states, any arithmetic for C102_setup. Names ending in _wrong prove the violations; memory is zero when allocated (Kokkos)."
  },
  {
   "property": "C103",
   "status": "proved",
   "theorems": [
    "Verif.C103_hydro",
    "Verif.C103_mhd",
    "Verif.C103_fieldLoop",
    "Verif.C103_fieldLoop_momentum_wrong"
   ],
   "note": "Any arithmetic. Fails for the field loop: C103_fieldLoop_momentum_wrong (exact arithmetic). MHD ghost cells are filled by the boundary conditions afterwards and not compared."
  },
  {
   "property": "C104",
   "status": "proved",
   "theorems": [
    "Verif.C104_vortex",
    "Verif.C104_gresho",
    "Verif.C104_gresho_wrong"
   ],
   "note": "Exact arithmetic; solutions are classical away from the kinks of the Gresho vortex. C104_gresho_wrong: not a solution for density other than 1."
  },
  {
   "property": "C105",
   "status": "proved",
   "theorems": [
    "Verif.C105_waves",
    "Verif.C105_config5_wrong",
    "Verif.C105_config9_wrong",
    "Verif.C105_config18_wrong",
    "Verif.C105_numbers",
    "Verif.C105_placed"
   ],
   "note": "Tables are exact decimals. Fails for numbers 5, 9 and 18 (C105_config5_wrong, C105_config9_wrong, C105_config18_wrong)."
  },
  {
   "property": "C106",
   "status": "proved",
   "theorems": [
    "Verif.C106_gravity",
    "Verif.C106_rayleighTaylor",
    "Verif.C106_bubble",
    "Verif.C106_interface_wrong",
    "Verif.C106_unallocated"
   ],
   "note": "Exact arithmetic. Fails at the interface (C106_interface_wrong) and with gravity disabled (C106_unallocated)."
  },
  {
   "property": "C107",
   "status": "proved",
   "theorems": [
    "Verif.C107_pressure",
    "Verif.C107_gas",
    "Verif.C107_equilibrium",
    "Verif.C107_gravity",
    "Verif.C107_centred",
    "Verif.C107_offset_wrong",
    "Verif.C107_axis_wrong"
   ],
   "note": "Exact arithmetic; equilibrium without softening, where the squared rotation rate is positive. Fails for a displaced source (C107_offset_wrong) and on the axis (C107_axis_wrong)."
  },
  {
   "property": "C108",
   "status": "proved",
   "theorems": [
    "Verif.C108_plane_wave",
    "Verif.C108_eigenvector",
    "Verif.C108_contact",
    "Verif.C108_alfven",
    "Verif.C108_gamma",
    "Verif.C108_default_wrong"
   ],
   "note": "The state is a plane wave for every configuration. The disturbance is an eigenvector (to 1e-6, the precision of the constants) for gamma0 = 5/3; contact and Alfven waves for other values, too. FALSE for fast and slow waves with any other gamma0, in particular for the default 1.4 of the solver."
  },
  {
   "property": "C109",
   "status": "proved",
   "theorems": [
    "Verif.Sdm.C109_safe",
    "Verif.Sdm.C109_density",
    "Verif.Sdm.C109_pressure",
    "Verif.Sdm.C109_kept",
    "Verif.Sdm.C109_mean",
    "Verif.Sdm.C109_average",
    "Verif.Sdm.C109_positive",
    "Verif.Sdm.C109_not_conserved",
    "Verif.Sdm.C109_mass_grows"
   ],
   "note": "Proved in exact arithmetic for every cell whose stored average is admissible and larger than its least density: positive density and pressure of at least 1e-13 at all flux points afterwards, values kept where nothing is to be done. Conservation is violated, because the averages are too large (C91): the mass of a cell that is corrected grows."
  },
  {
   "property": "C11",
   "status": "proved",
   "theorems": [
    "Verif.C11_blocks",
    "Verif.C11_neighbour",
    "Verif.C11_symmetric",
    "Verif.C11_matching_2d",
    "Verif.C11_matching_3d",
    "Verif.C11_no_deadlock_2d",
    "Verif.C11_no_deadlock_3d"
   ],
   "note": ""
  },
  {
   "property": "C110",
   "status": "proved",
   "theorems": [
    "Verif.Vtk.C110_file",
    "Verif.Vtk.C110_ghosts",
    "Verif.Vtk.C110_overflow",
    "Verif.Vtk.C110_overflow_mhd"
   ],
   "note": "Holds within the int range; binary files of large grids are undefined (C110_overflow, 700^3 MHD). XML text is abstracted to its attributes and arrays; printing of numbers in ASCII mode is taken as exact; byte coding is any codec a decoder inverts."
  },
  {
   "property": "C111",
   "status": "proved",
   "theorems": [
    "Verif.Vtk.C111_names",
    "Verif.Vtk.C111_tiles",
    "Verif.Vtk.C111_pieces",
    "Verif.Vtk.C111_flat",
    "Verif.Vtk.C111_debug"
   ],
   "note": "Names and tiling hold; violated: 2D header extents differ from the files (C111_flat), debug name missing in the header (C111_debug)."
  },
  {
   "property": "C112",
   "status": "proved",
   "theorems": [
    "Verif.Hdf5.C112_content",
    "Verif.Hdf5.C112_decomposition",
    "Verif.Hdf5.C112_pieces"
   ],
   "note": "The library calls H5Dwrite/H5Dread are modelled (selected elements paired in row-major order). Needs the int products of the code to fit (see C114)."
  },
  {
   "property": "C113",
   "status": "proved",
   "theorems": [
    "Verif.Hdf5.C113_restart",
    "Verif.Hdf5.C113_all",
    "Verif.Hdf5.C113_outer",
    "Verif.Hdf5.C113_single"
   ],
   "note": "Without upscaling. For values that the HDF5 type represents exactly (the file has the type real_t)."
  },
  {
   "property": "C114",
   "status": "proved",
   "theorems": [
    "Verif.Hdf5.C114_mismatch",
    "Verif.Hdf5.C114_stacked",
    "Verif.Hdf5.C114_ghosts",
    "Verif.Hdf5.C114_overflow",
    "Verif.Hdf5.C114_last",
    "Verif.Hdf5.C114_race"
   ],
   "note": "The property as stated is violated; the theorems prove where: reading is rejected by (or unspecified in) the library for mismatched extents, and the race has a witness on two processes."
  },
  {
   "property": "C115",
   "status": "proved",
   "theorems": [
    "Verif.Hdf5.C115_refined",
    "Verif.Hdf5.C115_divergence",
    "Verif.Hdf5.C115_total",
    "Verif.Hdf5.C115_source",
    "Verif.Hdf5.C115_noghost",
    "Verif.Hdf5.C115_pressure"
   ],
   "note": "Over the reals. Violated parts (no ghost cells in the file; pressure) are proved as negations."
  },
  {
   "property": "C116",
   "status": "proved",
   "theorems": [
    "Verif.C116_continue",
    "Verif.C116_every_step",
    "Verif.C116_not_due",
    "Verif.C116_silent",
    "Verif.C116_extended",
    "Verif.C116_reads",
    "Verif.C116_unread"
   ],
   "note": "The scheme enters through GhostsDerived; C118 instantiates it for the hydro program. Violated parts (numbers with noutput<0, missing outputs, unread files) are proved."
  },
  {
   "property": "C117",
   "status": "proved",
   "theorems": [
    "Verif.C117_same_files",
    "Verif.C117_outputs",
    "Verif.C117_conservation",
    "Verif.C117_uniform"
   ],
   "note": "Over the reals, without MPI. Settings: ValidHydro (see C26/C49 for the invalid ones), positive floors and spacings."
  },
  {
   "property": "C118",
   "status": "proved",
   "theorems": [
    "Verif.C118_continue",
    "Verif.C118_gravity_lost"
   ],
   "note": "The gravity part of the property is violated and proved as such."
  },
  {
   "property": "C119",
   "status": "proved",
   "theorems": [
    "Verif.C119_step",
    "Verif.C119_setup",
    "Verif.C119_dt"
   ],
   "note": "Real arithmetic. The phases of a run are separated by MPI_Allreduce. Kelvin-Helmholtz with random perturbations is excluded: the ranks seed their own generators."
  },
  {
   "property": "C12",
   "status": "proved",
   "theorems": [
    "Verif.C12_same_step",
    "Verif.C12_equals_serial",
    "Verif.C12_float_build"
   ],
   "note": "Double precision builds, hydro MUSCL solver, exact arithmetic. For single precision builds the property fails: C12_float_build."
  },
  {
   "property": "C120",
   "status": "proved",
   "theorems": [
    "Verif.C120_equals_serial",
    "Verif.C120_any_ranks"
   ],
   "note": "Files are each rank's interior data, as the VTK and HDF5 models (C110-C115) write them; real arithmetic, real_t = double; no random initial conditions; cfl >= 0, nlog nonzero."
  },
  {
   "property": "C121",
   "status": "proved",
   "theorems": [
    "Verif.Hdf5.C121_entries",
    "Verif.Hdf5.C121_complete",
    "Verif.Hdf5.C121_restarted",
    "Verif.Hdf5.C121_single",
    "Verif.Hdf5.C121_times"
   ],
   "note": "Holds for runs from initial conditions; C121_restarted, C121_single and C121_times prove where the code departs. XML syntax not modelled; products of sizes taken not to overflow. The name of the index file itself (indexName) is modelled, but no theorem is about it."
  },
  {
   "property": "C122",
   "status": "proved",
   "theorems": [
    "Verif.C122_same_files",
    "Verif.C122_outputs",
    "Verif.C122_conservation",
    "Verif.C122_divB",
    "Verif.C122_divB_inside",
    "Verif.C122_solenoidal",
    "Verif.C122_uniform",
    "Verif.C122_versions"
   ],
   "note": "One process, real arithmetic, implementation versions 0, 1, 2. The order of files needs positive floors, spacings and CFL number."
  },
  {
   "property": "C123",
   "status": "proved",
   "theorems": [
    "Verif.C123_continue"
   ],
   "note": "What a restart reads from the file is a premise (C112-C115 treat the reading); restart_reset_totaltime=false."
  },
  {
   "property": "C124",
   "status": "proved",
   "theorems": [
    "Verif.C124_closed_box",
    "Verif.C124_files"
   ],
   "note": "The approximate Riemann solver is excluded at walls: its Newton iteration is cut off after ten rounds, so the state at the wall need not have converged to rest."
  },
  {
   "property": "C125",
   "status": "proved",
   "theorems": [
    "Verif.C125_step",
    "Verif.C125_files",
    "Verif.C125_symmetric_gas",
    "Verif.C125_blast"
   ],
   "note": "The approximate Riemann solver is excluded. With gravity in 3D, implementation 1 leaves out the gravity predictor on one side of the z faces (see C25), so the z mirror is claimed for implementation 0 only."
  },
  {
   "property": "C126",
   "status": "proved",
   "theorems": [
    "Verif.C126_step",
    "Verif.C126_files",
    "Verif.C126_symmetric_gas",
    "Verif.C126_implode"
   ],
   "note": "All solvers. With gravity in 3D and implementation 1 only x and y can be exchanged."
  },
  {
   "property": "C127",
   "status": "proved",
   "theorems": [
    "Verif.Special.C127_states",
    "Verif.Special.C127_init_mood",
    "Verif.Special.C127_init_sdm",
    "Verif.Special.C127_ghosts_mood",
    "Verif.Special.C127_ghosts_sdm",
    "Verif.Special.C127_inflow",
    "Verif.Special.C127_obtuse"
   ],
   "note": "Exact real arithmetic. C127_obtuse is the deviation for angles over 90 degrees. The finite volume functor has no process offsets; its theorem is about one process."
  },
  {
   "property": "C128",
   "status": "proved",
   "theorems": [
    "Verif.Special.C128_ghosts",
    "Verif.Special.C128_init",
    "Verif.Special.C128_pressure",
    "Verif.Special.C128_default_gamma"
   ],
   "note": "Exact real arithmetic. C128_default_gamma is the deviation when the parameter file does not set gamma0."
  },
  {
   "property": "C129",
   "status": "proved",
   "theorems": [
    "Verif.Start.C129_sod",
    "Verif.Start.C129_shuOsher",
    "Verif.Start.C129_shuOsher_shock",
    "Verif.Start.C129_blast",
    "Verif.Start.C129_implode",
    "Verif.Start.C129_implode_wrong",
    "Verif.Start.C129_shear2",
    "Verif.Start.C129_shear3",
    "Verif.Start.C129_sharp",
    "Verif.Start.C129_shear_none",
    "Verif.Start.C129_gresho",
    "Verif.Start.C129_vortex",
    "Verif.Start.C129_vortex_moved",
    "Verif.Start.C129_vortex_moved_wrong",
    "Verif.Start.C129_quadrants",
    "Verif.Start.C129_quadrants_wrong",
    "Verif.Start.C129_quadrants_none",
    "Verif.Start.C129_only",
    "Verif.Start.C129_names"
   ],
   "note": "The _wrong and _none theorems show the deviations named in the statement. What random number generators draw is any number in [0,1]."
  },
  {
   "property": "C13",
   "status": "proved",
   "theorems": [
    "Verif.C13_never_past_end"
   ],
   "note": "Exact real arithmetic."
  },
  {
   "property": "C130",
   "status": "proved",
   "theorems": [
    "Verif.Start.C130_blast",
    "Verif.Start.C130_quadrants",
    "Verif.Start.C130_shear2",
    "Verif.Start.C130_shear3",
    "Verif.Start.C130_sharp",
    "Verif.Start.C130_shear_none",
    "Verif.Start.C130_implode",
    "Verif.Start.C130_implode_default",
    "Verif.Start.C130_implode_wrong",
    "Verif.Start.C130_vortex",
    "Verif.Start.C130_vortex_still",
    "Verif.Start.C130_vortex_wrong",
    "Verif.Start.C130_vortex3_wrong",
    "Verif.Start.C130_vortex_points_wrong",
    "Verif.Start.C130_ranks",
    "Verif.Start.C130_ranks_wrong",
    "Verif.Start.C130_only",
    "Verif.Start.C130_names"
   ],
   "note": "The _wrong and _none theorems show the deviations named in the statement; the content of memory that the code does not set is arbitrary."
  },
  {
   "property": "C131",
   "status": "proved",
   "theorems": [
    "Verif.C131_same_files",
    "Verif.C131_nlog",
    "Verif.C131_order",
    "Verif.C131_first",
    "Verif.C131_conservation",
    "Verif.C131_drift",
    "Verif.C131_uniform"
   ],
   "note": "Whole program on one process, limiter, positivity procedure and viscous terms off. Totals drift with ssprk54 (its coefficients do not add up to 1). The order of the files needs positive densities, which the scheme does not guarantee (C90, C91)."
  },
  {
   "property": "C132",
   "status": "proved",
   "theorems": [
    "Verif.C132_same_files",
    "Verif.C132_order",
    "Verif.C132_first",
    "Verif.C132_ssprk54_frozen",
    "Verif.C132_uniform",
    "Verif.C132_fails_3D"
   ],
   "note": "Whole program on one process. ssprk54 does nothing; in 3D the coefficients next to the lower sides are never computed, so that a gas at rest loses mass."
  },
  {
   "property": "C133",
   "status": "proved",
   "theorems": [
    "Verif.C133_step",
    "Verif.C133_preserves",
    "Verif.C133_runs_2d",
    "Verif.C133_runs_exist",
    "Verif.C133_files_2d"
   ],
   "note": "Real arithmetic (the order of atomic additions is irrelevant). 2D: slope types 1 and 2, one of HLLD, HLL, LLF."
  },
  {
   "property": "C134",
   "status": "proved",
   "theorems": [
    "Verif.C134_divB",
    "Verif.C134_divB_periodic",
    "Verif.C134_conservation",
    "Verif.C134_no_uninitialised"
   ],
   "note": "Real arithmetic."
  },
  {
   "property": "C135",
   "status": "proved",
   "theorems": [
    "Verif.C135_differs",
    "Verif.C135_z_slope",
    "Verif.C135_edge_field"
   ],
   "note": "The code does not have the property a user expects: the 3D step of version 2 is another scheme than that of versions 0 and 1; proved with a witness, and exact formulas for the two places where it differs."
  },
  {
   "property": "C136",
   "status": "proved",
   "theorems": [
    "Verif.C136_scheme",
    "Verif.C136_same_gas"
   ],
   "note": "Real arithmetic. The variant of the scheme (edge states, floor) is specified in Spec/MhdScheme.lean; see C135 for the place where it differs from versions 0 and 1."
  },
  {
   "property": "C137",
   "status": "proved",
   "theorems": [
    "Verif.C137_exchange",
    "Verif.C137_setup",
    "Verif.C137_step",
    "Verif.C137_overlap"
   ],
   "note": ""
  },
  {
   "property": "C138",
   "status": "proved",
   "theorems": [
    "Verif.C138_equals_serial",
    "Verif.C138_any_ranks"
   ],
   "note": ""
  },
  {
   "property": "C139",
   "status": "proved",
   "theorems": [
    "Verif.C139_exchange",
    "Verif.C139_start",
    "Verif.C139_dt",
    "Verif.C139_step"
   ],
   "note": "Inviscid step without limiter. The premise on the density is needed for the time step: a process without gas of positive density takes cfl divided by a non-positive rate."
  },
  {
   "property": "C14",
   "status": "proved",
   "theorems": [
    "Verif.C14_loop_stops",
    "Verif.C14_reaches_end",
    "Verif.C16_double_buffering"
   ],
   "note": ""
  },
  {
   "property": "C140",
   "status": "proved",
   "theorems": [
    "Verif.C140_equals_serial",
    "Verif.C140_any_ranks"
   ],
   "note": "Limiter, positivity procedure and viscous terms off."
  },
  {
   "property": "C141",
   "status": "proved",
   "theorems": [
    "Verif.C141_no_jet",
    "Verif.C141_jet_enters",
    "Verif.C141_density_changes",
    "Verif.C141_safe",
    "Verif.C141_serial",
    "Verif.C141_serial_jet"
   ],
   "note": "The code violates the expectation: C141_no_jet and C141_density_changes (same configuration, see the example) prove that the builds differ; C141_serial and C141_serial_jet say the same of the files of the whole program without MPI. The wedge problem is affected in the same way, see C139_exchange. Limiter, positivity procedure and viscous terms off."
  },
  {
   "property": "C142",
   "status": "proved",
   "theorems": [
    "Verif.Sdm.C142_safe",
    "Verif.Sdm.C142_off",
    "Verif.Sdm.C142_uniform"
   ],
   "note": "Viscous terms off. Uniform gas in real arithmetic, schemes other than ssprk54 (C88: its coefficients do not add up to one)."
  },
  {
   "property": "C143",
   "status": "proved",
   "theorems": [
    "Verif.Sdm.C143_sides",
    "Verif.Sdm.C143_processes"
   ],
   "note": "Violated: the theorems prove that translation and independence of the number of processes fail with the limiter on; with it off they hold (C139, C140)."
  },
  {
   "property": "C144",
   "status": "proved",
   "theorems": [
    "Verif.C144_step"
   ],
   "note": "Limiter off. With the limiter on the claim is false (C143)."
  },
  {
   "property": "C145",
   "status": "proved",
   "theorems": [
    "Verif.C145_same_files",
    "Verif.C145_order",
    "Verif.C145_uniform",
    "Verif.C145_equals_serial"
   ],
   "note": "Whole program with both options; several processes with the limiter off only, since with it on the claim is false (C143)."
  },
  {
   "property": "C146",
   "status": "proved",
   "theorems": [
    "Verif.Sdm.C146_same"
   ],
   "note": "forward Euler, ssprk2, ssprk3; real arithmetic. Examples: a ramp of density in a periodic box (forward Euler); healthy_uniform shows that uniform gas meets the hypotheses at all stages."
  },
  {
   "property": "C147",
   "status": "proved",
   "theorems": [
    "Verif.Sdm.C147_mass_grows"
   ],
   "note": "Violation: negation of the expected conservation, for a family of ramps; forward Euler, real arithmetic."
  },
  {
   "property": "C148",
   "status": "proved",
   "theorems": [
    "Verif.C148_safe",
    "Verif.C148_stage",
    "Verif.C148_last",
    "Verif.C148_lag"
   ],
   "note": "The code violates the expectation; C148_lag proves the negation for ssprk2, C148_last the time of the ghost cells for all three Runge-Kutta methods. Build without MPI; limiter, positivity procedure and viscous terms off."
  },
  {
   "property": "C149",
   "status": "proved",
   "theorems": [
    "Verif.C149_step",
    "Verif.C149_same_files"
   ],
   "note": "Limiter, positivity procedure and viscous terms off. Files are compared in the box; the ghost cells of the first file are the subject of C141_serial."
  },
  {
   "property": "C15",
   "status": "proved",
   "theorems": [
    "Verif.C15_outputs"
   ],
   "note": ""
  },
  {
   "property": "C150",
   "status": "proved",
   "theorems": [
    "Verif.C150_step",
    "Verif.C150_same",
    "Verif.C150_clock",
    "Verif.C150_start"
   ],
   "note": "Limiter, positivity procedure and viscous terms off. The files a run writes are not part of the model of the wedge run; the gas is compared in the box."
  },
  {
   "property": "C16",
   "status": "proved",
   "theorems": [
    "Verif.C16_double_buffering",
    "Verif.C16_step_reads_newest"
   ],
   "note": ""
  },
  {
   "property": "C17",
   "status": "proved",
   "theorems": [
    "Verif.C17_last_assignment_wins",
    "Verif.C17_last_assignment_wins_serial"
   ],
   "note": ""
  },
  {
   "property": "C18",
   "status": "proved",
   "theorems": [
    "Verif.C18_set_get_string",
    "Verif.C18_set_get_typed",
    "Verif.C18_bool_spellings"
   ],
   "note": "getFloat/setFloat are not modelled."
  },
  {
   "property": "C19",
   "status": "proved",
   "theorems": [
    "Verif.C19_key_aliasing",
    "Verif.C19_dot_alias",
    "Verif.C19_long_section"
   ],
   "note": ""
  },
  {
   "property": "C20",
   "status": "proved",
   "theorems": [
    "Verif.C20_first_bad_line",
    "Verif.C20_bad_lines_ignored"
   ],
   "note": ""
  },
  {
   "property": "C21",
   "status": "proved",
   "theorems": [
    "Verif.C21_parsers_agree",
    "Verif.C21_parsers_differ"
   ],
   "note": ""
  },
  {
   "property": "C22",
   "status": "proved",
   "theorems": [
    "Verif.C22_conservation"
   ],
   "note": "2D and 3D, both implementations, whole step including ghost fill; exact real arithmetic; slope types 0,1,2 and Riemann solvers in the dispatch."
  },
  {
   "property": "C23",
   "status": "proved",
   "theorems": [
    "Verif.C23_flux_balance",
    "Verif.C23_flux_balance_impl1",
    "Verif.C23_update"
   ],
   "note": "MUSCL hydro solver, all boundary conditions, exact real arithmetic. The MOOD update functors of the anchors are treated under the MOOD properties."
  },
  {
   "property": "C24",
   "status": "proved",
   "theorems": [
    "Verif.C24_implementations_2d"
   ],
   "note": "Over arithmetic without laws, hence also for floating point evaluated operation by operation."
  },
  {
   "property": "C25",
   "status": "proved",
   "theorems": [
    "Verif.C25_implementations_3d",
    "Verif.C25_gravity_differs"
   ],
   "note": "Agreement proved without gravity; with gravity along z the claim is false (bug: missing predictor on the right state in the ZDIR branch), proved by a concrete run."
  },
  {
   "property": "C26",
   "status": "proved",
   "theorems": [
    "Verif.C26_uniform"
   ],
   "note": "All uniform states (floors not even needed), sides absorbing or periodic in any mix, exact real arithmetic."
  },
  {
   "property": "C27",
   "status": "proved",
   "theorems": [
    "Verif.C27_llf",
    "Verif.C27_hll",
    "Verif.C27_hllc",
    "Verif.C27_approx",
    "Verif.C27_dispatch"
   ],
   "note": "Exact real arithmetic. LLF and HLL for every state; HLLC and approx for states above the floors."
  },
  {
   "property": "C28",
   "status": "proved",
   "theorems": [
    "Verif.C28_llf",
    "Verif.C28_hll",
    "Verif.C28_hllc",
    "Verif.C28_approx",
    "Verif.C28_wall"
   ],
   "note": "Exact real arithmetic."
  },
  {
   "property": "C29",
   "status": "proved",
   "theorems": [
    "Verif.C29_hydro2d",
    "Verif.C29_hydro3d",
    "Verif.C29_unassigned",
    "Verif.C29_selects",
    "Verif.C29_mhd"
   ],
   "note": "The exact set of solver names for which a flux is assigned, per physics and dimension; the property as a user would hope for it is refuted for the names listed in the statement."
  },
  {
   "property": "C30",
   "status": "proved",
   "theorems": [
    "Verif.C30_sign",
    "Verif.C30_bounds",
    "Verif.C30_no_new_extrema",
    "Verif.C30_linear"
   ],
   "note": "Hydro limiter (2D and 3D use the same scalar function), slope_type 1 and 2, reals."
  },
  {
   "property": "C31",
   "status": "proved",
   "theorems": [
    "Verif.C31_physical",
    "Verif.C31_roundtrip"
   ],
   "note": "Over the reals, gamma > 1 and positive floors."
  },
  {
   "property": "C32",
   "status": "proved",
   "theorems": [
    "Verif.C32_cfl",
    "Verif.C32_cfl_any",
    "Verif.C32_unique"
   ],
   "note": "Over the reals, for every way Kokkos may distribute the maximum reduction; single process (compute_dt_local)."
  },
  {
   "property": "C33",
   "status": "proved",
   "theorems": [
    "Verif.C33_gravity",
    "Verif.C33_mass",
    "Verif.C33_step"
   ],
   "note": "Formula and its effect in a whole step of implementation 0; in 2D the new density must not be below the floor smallr (the code floors it there)."
  },
  {
   "property": "C34",
   "status": "proved",
   "theorems": [
    "Verif.C34_divB_2d",
    "Verif.C34_divB_periodic_2d",
    "Verif.C34_absorbing_fails"
   ],
   "note": "The failure next to a non-periodic boundary is shown by a concrete run."
  },
  {
   "property": "C35",
   "status": "proved",
   "theorems": [
    "Verif.C35_divB_3d",
    "Verif.C35_divB_periodic_3d"
   ],
   "note": ""
  },
  {
   "property": "C36",
   "status": "proved",
   "theorems": [
    "Verif.C36_implementations",
    "Verif.C36_runs"
   ],
   "note": ""
  },
  {
   "property": "C37",
   "status": "proved",
   "theorems": [
    "Verif.C37_llf",
    "Verif.C37_hll",
    "Verif.C37_hlld",
    "Verif.C37_hlld_aligned",
    "Verif.C37_emf",
    "Verif.C37_dispatch"
   ],
   "note": "In checked real arithmetic. HLLD needs a transverse field or Alfven speed below sound speed; in the remaining case C37_hlld_aligned proves that the result is 0/0, i.e. the property is false there."
  },
  {
   "property": "C38",
   "status": "proved",
   "theorems": [
    "Verif.C38_fast",
    "Verif.C38_info",
    "Verif.C38_alfven",
    "Verif.C38_alternative"
   ],
   "note": "Definedness in checked arithmetic, root of the dispersion relation, bounds by sound and Alfven speed; the unused fast_mhd_speed computes the same."
  },
  {
   "property": "C39",
   "status": "proved",
   "theorems": [
    "Verif.C39_roundtrip_2d",
    "Verif.C39_inverse_2d",
    "Verif.C39_roundtrip_3d",
    "Verif.C39_inverse_3d"
   ],
   "note": ""
  },
  {
   "property": "C40",
   "status": "proved",
   "theorems": [
    "Verif.Mood.C40_table",
    "Verif.Mood.C40_position"
   ],
   "note": ""
  },
  {
   "property": "C41",
   "status": "proved",
   "theorems": [
    "Verif.Mood.C41_template",
    "Verif.Mood.C41_template_undefined",
    "Verif.Mood.C41_binom",
    "Verif.Mood.C41_binom_small",
    "Verif.Mood.C41_binom_overflow",
    "Verif.Mood.C41_number_of_coefficients"
   ],
   "note": "Finding: binom overflows int for 32 choose 16 although the result fits."
  },
  {
   "property": "C42",
   "status": "proved",
   "theorems": [
    "Verif.Mood.C42_moment_2D",
    "Verif.Mood.C42_moment_3D",
    "Verif.Mood.C42_geometry_2D",
    "Verif.Mood.C42_geometry_3D",
    "Verif.Mood.C42_reconstruction_2D",
    "Verif.Mood.C42_reconstruction_3D",
    "Verif.Mood.C42_own_mean_2D",
    "Verif.Mood.C42_own_mean_3D",
    "Verif.Mood.C42_no_shift",
    "Verif.Mood.C42_degree_one",
    "Verif.Mood.C42_fails_2D"
   ],
   "note": "Finding: the mean of the reconstruction differs from the cell value for degree 2 and above. The pseudo-inverse enters as a left inverse of the geometry matrix."
  },
  {
   "property": "C43",
   "status": "proved",
   "theorems": [
    "Verif.Mood.C43_lower_faces",
    "Verif.Mood.C43_flag_is_density",
    "Verif.Mood.C43_negative_pressure_passes",
    "Verif.Mood.C43_fails"
   ],
   "note": "The claim is false. Proved: the lower faces of flagged cells are recomputed; the flag only depends on the density; a negative pressure is never flagged; and a run in which the upper face of a flagged cell keeps the high order flux and its density becomes negative."
  },
  {
   "property": "C44",
   "status": "proved",
   "theorems": [
    "Verif.Mood.C44_flux_scaling",
    "Verif.Mood.C44_fails_3D"
   ],
   "note": "The claim is false: the z flux is scaled with dt/dy (MoodFluxesFunctors.h:750). Proved for every uniform state in cells whose lower neighbours are reconstructed; x and y are scaled correctly."
  },
  {
   "property": "C45",
   "status": "proved",
   "theorems": [
    "Verif.Mood.C45_selected",
    "Verif.Mood.C45_ssprk2",
    "Verif.Mood.C45_ssprk3",
    "Verif.Mood.C45_ssprk2_bounds",
    "Verif.Mood.C45_ssprk3_bounds",
    "Verif.Mood.C45_ssprk2_totals",
    "Verif.Mood.C45_ssprk3_totals",
    "Verif.Mood.C45_ssprk54_does_nothing"
   ],
   "note": "Over the real numbers. SSP-RK(5,4) can be selected but performs no update (C45_ssprk54_does_nothing)."
  },
  {
   "property": "C46",
   "status": "proved",
   "theorems": [
    "Verif.Mood.C46_stencil",
    "Verif.Mood.C46_degree4_3D_fails",
    "Verif.Mood.C46_in_bounds",
    "Verif.Mood.C46_names"
   ],
   "note": "Finding: STENCIL_3D_DEGREE4 stores 57 of 63 offsets."
  },
  {
   "property": "C47",
   "status": "proved",
   "theorems": [
    "Verif.Mood.C47_exact_2D",
    "Verif.Mood.C47_exact_3D",
    "Verif.Mood.C47_weights",
    "Verif.Mood.C47_enough_points",
    "Verif.Mood.C47_faces_match_2D",
    "Verif.Mood.C47_faces_match_3D",
    "Verif.Mood.C47_sqrt_3_5_digits"
   ],
   "note": "Exact up to the error of the literals SQRT_3 and SQRT_3_5, which is bounded; C47_sqrt_3_5_digits shows that the literal for sqrt(0.6) is wrong from digit 17 on."
  },
  {
   "property": "C48",
   "status": "proved",
   "theorems": [
    "Verif.Mood.C48_allocate",
    "Verif.Mood.C48_copy",
    "Verif.Mood.C48_ofArray",
    "Verif.Mood.C48_assign",
    "Verif.Mood.C48_assign_fails",
    "Verif.Mood.C48_reset",
    "Verif.Mood.C48_minor",
    "Verif.Mood.C48_mult",
    "Verif.Mood.C48_mult_mismatch",
    "Verif.Mood.C48_mult_self_fails",
    "Verif.Mood.C48_transpose",
    "Verif.Mood.C48_transpose_transpose"
   ],
   "note": "Assignment is proved for equal shapes or different element counts and refuted for equal counts with different shapes; mult is proved for a target different from the operands and refuted for a target that is an operand."
  },
  {
   "property": "C49",
   "status": "proved",
   "theorems": [
    "Verif.C49_no_uninitialised",
    "Verif.C49_mhd_no_uninitialised",
    "Verif.C49_slope_type",
    "Verif.C49_hlld",
    "Verif.C49_mhd_solver",
    "Verif.C49_mhd_slope_type"
   ],
   "note": "Hydro slope type failure: 2D, implementation 0."
  },
  {
   "property": "C50",
   "status": "proved",
   "theorems": [
    "Verif.C50_last_registered",
    "Verif.C50_unknown",
    "Verif.C50_returned",
    "Verif.C50_builtin"
   ],
   "note": "All sequences of registerSolver calls (constructor and plug-ins). C50_builtin: the names of a build without plug-ins."
  },
  {
   "property": "C51",
   "status": "proved",
   "theorems": [
    "Verif.C51_extents",
    "Verif.C51_defined",
    "Verif.C51_tiling",
    "Verif.C51_tiling_mpi"
   ],
   "note": "Extents hold for any arithmetic; tilings in exact arithmetic, with the cell centres the initialisation functors use. MPI: as many processes as mx*my(*mz), which the code only reports. int overflow is undefined in the model; C51_defined gives sizes without it."
  },
  {
   "property": "C52",
   "status": "proved",
   "theorems": [
    "Verif.C52_nlog_zero"
   ],
   "note": ""
  },
  {
   "property": "C53",
   "status": "proved",
   "theorems": [
    "Verif.C53_comment_as_value"
   ],
   "note": "The code violates the property; the theorem gives the failing layouts for every comment text."
  },
  {
   "property": "C54",
   "status": "proved",
   "theorems": [
    "Verif.C54_llf",
    "Verif.C54_hll",
    "Verif.C54_hllc",
    "Verif.C54_approx",
    "Verif.C54_hllc_waves"
   ],
   "note": "Solvers run at a type of reals with an explicit undefined value."
  },
  {
   "property": "C55",
   "status": "proved",
   "theorems": [
    "Verif.C55_hll",
    "Verif.C55_hllc"
   ],
   "note": "Exact real arithmetic."
  },
  {
   "property": "C56",
   "status": "proved",
   "theorems": [
    "Verif.C56_hllc_contact",
    "Verif.C56_llf_diffuses"
   ],
   "note": "Exact real arithmetic."
  },
  {
   "property": "C57",
   "status": "proved",
   "theorems": [
    "Verif.C57_predictor",
    "Verif.C57_anisotropic"
   ],
   "note": "Equal spacings positive result (3D), counterexample for unequal spacings."
  },
  {
   "property": "C58",
   "status": "proved",
   "theorems": [
    "Verif.C58_hydro_step",
    "Verif.C58_hydro_unique",
    "Verif.C58_hydro_preserves"
   ],
   "note": "Interleaving semantics of the kernel model; arbitrary arithmetic."
  },
  {
   "property": "C59",
   "status": "proved",
   "theorems": [
    "Verif.C59_gravity_cfl",
    "Verif.C59_unique"
   ],
   "note": "Over the reals; k is double in the code."
  },
  {
   "property": "C60",
   "status": "proved",
   "theorems": [
    "Verif.C60_hancock"
   ],
   "note": "Refinement of an independently written scheme (Spec/Hancock.lean). The Riemann solver is the configured one (its properties: C27, C28). Equal spacings are needed because of C57."
  },
  {
   "property": "C61",
   "status": "proved",
   "theorems": [
    "Verif.C61_llf",
    "Verif.C61_hll",
    "Verif.C61_hlld",
    "Verif.C61_hlld_perp",
    "Verif.C61_emf"
   ],
   "note": "HLLD relative to estar /= 0; see C37_hlld_aligned for states where estar = 0."
  },
  {
   "property": "C62",
   "status": "proved",
   "theorems": [
    "Verif.C62_llf",
    "Verif.C62_hll",
    "Verif.C62_hlld",
    "Verif.C62_wall"
   ],
   "note": "HLLD for ordered, non-zero wave speeds (the code does not guarantee the order)."
  },
  {
   "property": "C63",
   "status": "proved",
   "theorems": [
    "Verif.C63_hll",
    "Verif.C63_hlld",
    "Verif.C63_emf",
    "Verif.C63_emf_rotate"
   ],
   "note": ""
  },
  {
   "property": "C64",
   "status": "proved",
   "theorems": [
    "Verif.C64_mhd_step",
    "Verif.C64_mhd_step_atomic",
    "Verif.C64_mhd_preserves"
   ],
   "note": ""
  },
  {
   "property": "C65",
   "status": "proved",
   "theorems": [
    "Verif.C65_mhd_conservation",
    "Verif.C65_mhd_conservation_run"
   ],
   "note": ""
  },
  {
   "property": "C66",
   "status": "proved",
   "theorems": [
    "Verif.C66_waves_2d",
    "Verif.C66_waves_3d"
   ],
   "note": "The sound speed is a hypothesis: c^2 = gamma p / rho. The limiter passes another value (see C67)."
  },
  {
   "property": "C67",
   "status": "proved",
   "theorems": [
    "Verif.C67_primitive_2d",
    "Verif.C67_primitive_3d",
    "Verif.C67_pressure_positive_3d",
    "Verif.C67_pressure_disagrees_2d",
    "Verif.C67_flux_2d",
    "Verif.C67_flux_3d",
    "Verif.C67_sound_speed_squared",
    "Verif.C67_sound_speed_wrong"
   ],
   "note": "Finding: compute_speed_of_sound lacks the square root."
  },
  {
   "property": "C68",
   "status": "proved",
   "theorems": [
    "Verif.C68_stress_2d",
    "Verif.C68_stress_3d",
    "Verif.C68_symmetric_2d",
    "Verif.C68_symmetric_3d",
    "Verif.C68_dissipates_2d",
    "Verif.C68_dissipates_3d",
    "Verif.C68_rigid_3d"
   ],
   "note": ""
  },
  {
   "property": "C69",
   "status": "partial",
   "theorems": [
    "Verif.C69_dt",
    "Verif.C69_cfl_partial",
    "Verif.C69_exceeds",
    "Verif.C69_rescaled",
    "Verif.C69_unique"
   ],
   "note": "The intended claim (CFL honoured for every state) is false: compute_speed_of_sound lacks a square root. C69_dt gives the exact value in every case, C69_cfl_partial the claim where the sound speed is at least one, C69_exceeds and C69_rescaled the failures. pow is the real power; the reduction starts from an arbitrary value bot."
  },
  {
   "property": "C70",
   "status": "proved",
   "theorems": [
    "Verif.Mood.C70_power",
    "Verif.Mood.C70_mypow",
    "Verif.Mood.C70_mypow_fails",
    "Verif.Mood.C70_setCoefs",
    "Verif.Mood.C70_setCoefs_above",
    "Verif.Mood.C70_monomial_2D",
    "Verif.Mood.C70_monomial_3D"
   ],
   "note": "Finding: mypow returns 0 for exponents from 10 on."
  },
  {
   "property": "C71",
   "status": "proved",
   "theorems": [
    "Verif.Mood.C71_unique",
    "Verif.Mood.C71_exists_left_inverse"
   ],
   "note": ""
  },
  {
   "property": "C72",
   "status": "proved",
   "theorems": [
    "Verif.Mood.C72_pseudo_inverse",
    "Verif.Mood.C72_contract",
    "Verif.Mood.C72_fill",
    "Verif.Mood.C72_init_mood",
    "Verif.Mood.C72_shape_fails"
   ],
   "note": "Relative to the documented contract of dgeqrf and dtrsm (Spec/Lapack.lean), which C72_contract shows to be satisfiable. C72_shape_fails: an output matrix of the input's shape keeps this shape."
  },
  {
   "property": "C73",
   "status": "proved",
   "theorems": [
    "Verif.Mood.C73_mood_step",
    "Verif.Mood.C73_mood_unique",
    "Verif.Mood.C73_mood_input_kept",
    "Verif.Mood.C73_mood_layout"
   ],
   "note": ""
  },
  {
   "property": "C74",
   "status": "proved",
   "theorems": [
    "Verif.Mood.C74_uniform_2D",
    "Verif.Mood.C74_uniform_euler",
    "Verif.Mood.C74_fails_3D",
    "Verif.Mood.C74_fails_3D_strict"
   ],
   "note": "Holds in 2D. False in 3D: exact formula of the loss for gas at rest with the local Lax-Friedrichs solver."
  },
  {
   "property": "C75",
   "status": "proved",
   "theorems": [
    "Verif.Mood.C75_balance",
    "Verif.Mood.C75_conservation_2D",
    "Verif.Mood.C75_fails_flagged",
    "Verif.Mood.C75_fails_3D"
   ],
   "note": "Balance always; conservation in 2D without flagged cells next to the lower sides; two refutations otherwise. SSP-RK: combine with C45_*_totals."
  },
  {
   "property": "C76",
   "status": "proved",
   "theorems": [
    "Verif.C76_dt",
    "Verif.C76_cfl",
    "Verif.C76_rescaled",
    "Verif.C76_rescaled_exceeds",
    "Verif.C76_unique"
   ],
   "note": "C76_cfl covers the step without rescaling, C76_rescaled the rescaled step when it is at most one, C76_rescaled_exceeds the failure otherwise. pow is the real power."
  },
  {
   "property": "C77",
   "status": "proved",
   "theorems": [
    "Verif.C77_mood_mpi_wrong_2d",
    "Verif.C77_mood_mpi_wrong_3d"
   ],
   "note": "The property is FALSE in the code: SolverHydroMood::make_boundaries has no MPI branch. Proved for every size, boundary condition, process grid and process with a neighbour at lower x: there is a state for which the ghost cell holds 0 while the neighbour holds 1."
  },
  {
   "property": "C78",
   "status": "proved",
   "theorems": [
    "Verif.C78_fits",
    "Verif.C78_unknown_name"
   ],
   "note": "No plug-in registrations. Ghost layers of MOOD are compared with the reach of the stencil the class uses."
  },
  {
   "property": "C79",
   "status": "proved",
   "theorems": [
    "Verif.C79_version",
    "Verif.C79_riemann",
    "Verif.C79_gas"
   ],
   "note": ""
  },
  {
   "property": "C80",
   "status": "proved",
   "theorems": [
    "Verif.C80_single_precision",
    "Verif.C80_gamma",
    "Verif.C80_error"
   ],
   "note": "The property is false for double builds; the theorems say so and bound the error. strtof and the conversion double to float are parameters of the model."
  },
  {
   "property": "C81",
   "status": "proved",
   "theorems": [
    "Verif.Sdm.dofMap_lt",
    "Verif.Sdm.dofMap_injective",
    "Verif.Sdm.dofMap_onto",
    "Verif.Sdm.dofMapFlux_lt",
    "Verif.Sdm.dofMapFlux_injective",
    "Verif.Sdm.dofMap_not_for_fluxes"
   ],
   "note": "All N and numbers of variables."
  },
  {
   "property": "C82",
   "status": "proved",
   "theorems": [
    "Verif.Sdm.solution_points_inside",
    "Verif.Sdm.solution_points_increasing",
    "Verif.Sdm.solution_points_chebyshev",
    "Verif.Sdm.solution_points_symmetric",
    "Verif.Sdm.flux_points_ends",
    "Verif.Sdm.flux_points_increasing",
    "Verif.Sdm.flux_points_legendre",
    "Verif.Sdm.flux_points_symmetric",
    "Verif.Sdm.solution_points_apart",
    "Verif.Sdm.flux_points_seven"
   ],
   "note": "Exact cosine, square root and pi. flux_points_seven: other N leave the points at zero."
  },
  {
   "property": "C83",
   "status": "proved",
   "theorems": [
    "Verif.Sdm.sol2flux_exact",
    "Verif.Sdm.flux2sol_exact",
    "Verif.Sdm.flux2sol_derivative_exact",
    "Verif.Sdm.sol2sol_derivative_exact",
    "Verif.Sdm.sol2flux_flux2sol",
    "Verif.Sdm.sol2flux_limit"
   ],
   "note": "Exact arithmetic. sol2flux_limit: the degree bound is sharp for N = 1."
  },
  {
   "property": "C84",
   "status": "proved",
   "theorems": [
    "Verif.Sdm.flux_derivative_mean",
    "Verif.Sdm.lineMean_sum",
    "Verif.Sdm.lineMean_const",
    "Verif.Sdm.lineMean_polynomial",
    "Verif.Sdm.flux_derivative_const",
    "Verif.Sdm.sol2flux_const"
   ],
   "note": "Exact arithmetic."
  },
  {
   "property": "C85",
   "status": "proved",
   "theorems": [
    "Verif.Sdm.C85_step",
    "Verif.Sdm.C85_unique",
    "Verif.Sdm.C85_interior_only",
    "Verif.Sdm.C85_divergence",
    "Verif.Sdm.C85_gas"
   ],
   "note": "Inviscid step without limiter and positivity preservation, serial. The formula is over the real numbers; well-definedness holds for any arithmetic."
  },
  {
   "property": "C86",
   "status": "proved",
   "theorems": [
    "Verif.Sdm.C86_balance",
    "Verif.Sdm.C86_closed_inflow",
    "Verif.Sdm.C86_conserved",
    "Verif.Sdm.C86_ssprk54"
   ],
   "note": "Real arithmetic. The last theorem shows that the property fails with ssprk54."
  },
  {
   "property": "C87",
   "status": "proved",
   "theorems": [
    "Verif.Sdm.C87_ghosts",
    "Verif.Sdm.C87_mirror"
   ],
   "note": "Serial ghost fill."
  },
  {
   "property": "C88",
   "status": "proved",
   "theorems": [
    "Verif.Sdm.C88_uniform",
    "Verif.Sdm.C88_ssprk54"
   ],
   "note": "Real arithmetic. The second theorem shows that the property fails with ssprk54."
  },
  {
   "property": "C89",
   "status": "proved",
   "theorems": [
    "Verif.Sdm.C89_selected",
    "Verif.Sdm.C89_euler",
    "Verif.Sdm.C89_ssprk2",
    "Verif.Sdm.C89_ssprk3",
    "Verif.Sdm.C89_ssprk54"
   ],
   "note": "Real arithmetic."
  },
  {
   "property": "C90",
   "status": "proved",
   "theorems": [
    "Verif.Sdm.C90_flux_undefined",
    "Verif.Sdm.C90_undefined",
    "Verif.Sdm.C90_off",
    "Verif.Sdm.C90_gradients",
    "Verif.Sdm.C90_jump_missed",
    "Verif.Sdm.C90_accumulates"
   ],
   "note": "The intended claim is false. C90_undefined: with positive viscosity the loops are not well defined on any grid from any state, since the flux functor never initialises its view FUgrad; C90_off: without viscosity (the default) none of them runs. C90_gradients: safety and exact value of the velocity gradients (division as real division, so meaningful for non-zero densities); C90_jump_missed and C90_accumulates are two further failures. The loops after the undefined one are modelled but nothing is claimed about them; thermal terms are not modelled."
  },
  {
   "property": "C91",
   "status": "proved",
   "theorems": [
    "Verif.Sdm.C91_safe",
    "Verif.Sdm.C91_average",
    "Verif.Sdm.C91_weighted_mean",
    "Verif.Sdm.C91_factor",
    "Verif.Sdm.C91_factor_one",
    "Verif.Sdm.C91_factor_two",
    "Verif.Sdm.C91_average_too_large",
    "Verif.Sdm.C91_gradient",
    "Verif.Sdm.C91_minmod",
    "Verif.Sdm.C91_limited",
    "Verif.Sdm.C91_mean",
    "Verif.Sdm.C91_kept",
    "Verif.Sdm.C91_flat_cell",
    "Verif.Sdm.C91_first_order",
    "Verif.Sdm.C91_not_conserved",
    "Verif.Sdm.C91_mass_grows",
    "Verif.Sdm.C91_wrong_speed"
   ],
   "note": "Real arithmetic. Structure of the limiter proved; averages and conservation are violated: the quadrature weights sum to more than one (factor pi^2/8 = 1.23 at order two in 2D), so limiting multiplies mass and energy (C91_not_conserved); the characteristic variables use gamma E / rho as speed of sound (C91_wrong_speed)."
  },
  {
   "property": "C92",
   "status": "proved",
   "theorems": [
    "Verif.C92_cfl",
    "Verif.C92_unique",
    "Verif.C92_exceeds_2d"
   ],
   "note": "2D with Bz = 0 and 3D; C92_exceeds_2d is the failure in 2D with Bz nonzero and gamma < 2. cIso <= 0 (not isothermal)."
  },
  {
   "property": "C93",
   "status": "proved",
   "theorems": [
    "Verif.C93_conversion",
    "Verif.C93_conversion_2d"
   ],
   "note": "C93_conversion_2d states the exact (wrong) value of Bz and of the pressure in 2D."
  },
  {
   "property": "C94",
   "status": "proved",
   "theorems": [
    "Verif.C94_hlld",
    "Verif.C94_hlld_perp",
    "Verif.C94_guard"
   ],
   "note": "Real arithmetic. C94_guard proves that the claim fails for states the code's special case |estar/a^2-1| <= 1e-8 catches; C94_hlld excludes these states and those with estar = 0 (division by zero, see C37)."
  },
  {
   "property": "C95",
   "status": "proved",
   "theorems": [
    "Verif.C95_consistent",
    "Verif.C95_uniform"
   ],
   "note": "Fluxes and edge fields are existentially quantified but tied down by consistency; real arithmetic, serial run. In 2D a uniform field along z is excluded (RegularGas) because of the halved z field, see C93."
  },
  {
   "property": "C96",
   "status": "proved",
   "theorems": [
    "Verif.C96_continuous",
    "Verif.C96_divergence"
   ],
   "note": "About the buffers the trace functors fill; real arithmetic."
  },
  {
   "property": "C97",
   "status": "proved",
   "theorems": [
    "Verif.C97_scheme"
   ],
   "note": "The scheme is Spec/MhdScheme.lean; its face and edge solvers are the modelled ones, whose meaning is C36, C37, C94, C95, C98."
  },
  {
   "property": "C98",
   "status": "proved",
   "theorems": [
    "Verif.C98_exchange",
    "Verif.C98_reflect",
    "Verif.C98_along",
    "Verif.C98_polarity",
    "Verif.C98_diffusion"
   ],
   "note": "Real arithmetic."
  },
  {
   "property": "C99",
   "status": "proved",
   "theorems": [
    "Verif.Mood.C99_flagged",
    "Verif.Mood.C99_upwind",
    "Verif.Mood.C99_smooth"
   ],
   "note": "After one forward Euler step; real arithmetic. The stencil with too few offsets (3D degree 4) is excluded, as is the lower ghost layer in 3D that the code does not reconstruct (C74)."
  }
 ]
}