{
 "claims": [
  {
   "property": "C01",
   "status": "partial",
   "theorems": [
    "Mpdata.C01_slab_unique_owner",
    "Mpdata.C01_slab_subset",
    "Mpdata.C01_slab_contiguous",
    "Mpdata.C01_slab_balanced",
    "Mpdata.C01_slab_nonempty_iff_ctor",
    "Mpdata.C01_no_idle_thread_1d_2d",
    "Mpdata.C01_fails_3d_ctor_checks_wrong_dimension",
    "Mpdata.C01_fails_mpi_ctor_checks_global_size"
   ],
   "note": "All claims about slabs are proved (tiling, order, balance, no empty slab iff size <= span). The constructor clause is proved for 1-D and 2-D without MPI and is false in 3-D and with MPI, where the check looks at another size than the one that is divided (C01_fails_*)."
  },
  {
   "property": "C02",
   "status": "proved",
   "theorems": [
    "Mpdata.C02_advectee_is_newest",
    "Mpdata.C02_read_write_distinct",
    "Mpdata.C02_fails_for_mask_beyond_equations"
   ],
   "note": "Invariant over any history of steps. The restriction to masks inside the equation range (in the statement) is needed: C02_fails_for_mask_beyond_equations."
  },
  {
   "property": "C03",
   "status": "proved",
   "theorems": [
    "Mpdata.C03_advance_composes",
    "Mpdata.C03_exact_step_count",
    "Mpdata.C03_start_hook_once",
    "Mpdata.C03_start_hook_repeats_after_advance_zero"
   ],
   "note": "The condition a >= 1 (in the statement) is needed: C03_start_hook_repeats_after_advance_zero."
  },
  {
   "property": "C04",
   "status": "proved",
   "theorems": [
    "Mpdata.C04_each_equation_once",
    "Mpdata.C04_order"
   ],
   "note": ""
  },
  {
   "property": "C05",
   "status": "proved",
   "theorems": [
    "Mpdata.C05_panic_stops_at_step_boundary"
   ],
   "note": ""
  },
  {
   "property": "C06",
   "status": "partial",
   "theorems": [
    "Mpdata.C06_steady_courant_exact_1d",
    "Mpdata.C06_courant_is_max_2d",
    "Mpdata.C06_courant1_blind_to_opposing_faces",
    "Mpdata.C06_adapt_exit_within_limit",
    "Mpdata.C06_adapt_homogeneous",
    "Mpdata.C06_adapt_terminates_accelerating",
    "Mpdata.C06_adapt_may_not_terminate",
    "Mpdata.C06_time_loop_steps",
    "Mpdata.C06_time_loop_terminates",
    "Mpdata.C06_advance_zero_steps",
    "Mpdata.C06_courant_is_max_3d",
    "Mpdata.C06_courant_is_max",
    "Mpdata.C06_steady_courant_exact",
    "Mpdata.C06_steady_run_2d",
    "Mpdata.C06_steady_run_3d"
   ],
   "note": "Proved: the time loop, the steady choice of dt in 1-D, 2-D and 3-D (cyclic boundaries, in 2-D/3-D also rigid walls) and the run that follows it, the Courant number as a maximum, the limit on exit from the adaptive loop and its termination for accelerating flow. False as stated: the adaptive loop need not terminate (C06_adapt_may_not_terminate), the 1-D Courant number does not see opposing faces (C06_courant1_blind_to_opposing_faces), advance(0) makes extra steps."
  },
  {
   "property": "C07",
   "status": "proved",
   "theorems": [
    "Mpdata.C07_step_unaffected_1d",
    "Mpdata.C07_program_unaffected_1d",
    "Mpdata.C07_run_unaffected",
    "Mpdata.C07_fails_with_fct_or_without_pfc",
    "Mpdata.C07_scale_roundtrip",
    "Mpdata.C07_homogeneous_unaffected"
   ],
   "note": "Round trip for every exponent; the operator is abstract and homogeneous as the statement says, and C07_run_unaffected/C07_program_unaffected_1d instantiate it with the MPDATA step; C07_fails_with_fct_or_without_pfc shows option sets for which the step is not homogeneous."
  },
  {
   "property": "C08",
   "status": "proved",
   "theorems": [
    "Mpdata.C08_conservation_1d",
    "Mpdata.C08_conservation_2d",
    "Mpdata.C08_conservation_3d",
    "Mpdata.C08_cyclic_1d",
    "Mpdata.C08_closed_1d",
    "Mpdata.C08_cyclic_2d",
    "Mpdata.C08_closed_2d",
    "Mpdata.C08_cyclic_3d",
    "Mpdata.C08_closed_3d"
   ],
   "note": "C08_cyclic_* and C08_closed_* are the two halves of the statement; C08_conservation_* is the common core for arbitrary fluxes."
  },
  {
   "property": "C09",
   "status": "proved",
   "theorems": [
    "Mpdata.C09_sign_1d",
    "Mpdata.C09_sign_2d",
    "Mpdata.C09_sign_3d",
    "Mpdata.C09_courant_bound_needed"
   ],
   "note": "The bound is needed: C09_courant_bound_needed."
  },
  {
   "property": "C10",
   "status": "proved",
   "theorems": [
    "Mpdata.C10_no_new_extrema_1d",
    "Mpdata.C10_no_new_extrema_2d",
    "Mpdata.C10_no_new_extrema_3d",
    "Mpdata.C10_divergent_creates_extrema"
   ],
   "note": "Non-divergence is needed: C10_divergent_creates_extrema."
  },
  {
   "property": "C11",
   "status": "proved",
   "theorems": [
    "Mpdata.C11_npa_pospart",
    "Mpdata.C11_npa_negpart",
    "Mpdata.C11_equiv_1d",
    "Mpdata.C11_equiv_2d",
    "Mpdata.C11_equiv_3d"
   ],
   "note": ""
  },
  {
   "property": "C12",
   "status": "partial",
   "theorems": [
    "Mpdata.C12_conservation_1d_partial",
    "Mpdata.C12_fails_div2_three_passes",
    "Mpdata.C12_conservation_2d_partial",
    "Mpdata.C12_conservation_3d_partial"
   ],
   "note": "Proved about the array program for all three dimensions, all option sets, passes and steps except divergence-form options with three or more passes and no fct, for which it is false (C12_fails_div2_three_passes)."
  },
  {
   "property": "C13",
   "status": "partial",
   "theorems": [
    "Mpdata.C13_fct_positive_any_bc_2d",
    "Mpdata.C13_fct_positive_any_bc_3d",
    "Mpdata.C13_positive_definite_1d",
    "Mpdata.C13_fct_positive_1d",
    "Mpdata.C13_iga_not_positive",
    "Mpdata.C13_positive_div2_1d",
    "Mpdata.C13_positive_div2_2d",
    "Mpdata.C13_positive_div2_3d",
    "Mpdata.C13_positive_definite_2d",
    "Mpdata.C13_positive_definite_3d",
    "Mpdata.C13_fails_div2_1d",
    "Mpdata.C13_positive_definite_2d_partial",
    "Mpdata.C13_positive_definite_3d_partial",
    "Mpdata.C13_fct_positive_2d",
    "Mpdata.C13_fct_positive_3d"
   ],
   "note": "1-D: every option without iga and without divergence form; with dfl for |C| <= 1/2. 2-D/3-D: the same options, any number of passes, under Courant bounds that halve with each pass (without tot and dfl one bound for any number of passes). With fct: every option, every dimension. Divergence form (div_2nd, two passes, no fct): false under the usual bound (C13_fails_div2_1d), proved under reduced bounds. Missing: a reduced bound for div_3rd without fct."
  },
  {
   "property": "C14",
   "status": "proved",
   "theorems": [
    "Mpdata.C14_fct_local_bounds_1d",
    "Mpdata.C14_fct_local_bounds_any_bc_2d",
    "Mpdata.C14_fct_local_bounds_any_bc_3d",
    "Mpdata.C14_fct_local_bounds_2d",
    "Mpdata.C14_fct_local_bounds_3d"
   ],
   "note": "For arbitrary antidiffusive velocities, all FCT variants, 1-3 dimensions; C14_*_any_bc_* are about the array program with any boundary conditions."
  },
  {
   "property": "C15",
   "status": "proved",
   "theorems": [
    "Mpdata.C15_fct_global_range_1d",
    "Mpdata.C15_constant_stays_1d",
    "Mpdata.C15_needs_fct",
    "Mpdata.C15_fct_global_range_any_bc_2d",
    "Mpdata.C15_fct_global_range_any_bc_3d",
    "Mpdata.C15_fct_global_range_2d",
    "Mpdata.C15_fct_global_range_3d"
   ],
   "note": "About the array program: on a cyclic domain, and (C15_*_any_bc_*) with any boundary conditions whose scalar halos hold interior values, shown for every mix of cyclic, rigid and open sides. C15_needs_fct shows fct is needed."
  },
  {
   "property": "C16",
   "status": "proved",
   "theorems": [
    "Mpdata.C16_limiter_weakens_1d",
    "Mpdata.C16_limiter_weakens_nd"
   ],
   "note": ""
  },
  {
   "property": "C17",
   "status": "proved",
   "theorems": [
    "Mpdata.C17_corr_does_not_alias_unco",
    "Mpdata.C17_next_reads_previous",
    "Mpdata.C17_advector_preserved",
    "Mpdata.C17_tmp_allocated",
    "Mpdata.C17_corr_does_not_alias_unco_nd",
    "Mpdata.C17_next_reads_previous_nd",
    "Mpdata.C17_advector_preserved_nd"
   ],
   "note": ""
  },
  {
   "property": "C18",
   "status": "partial",
   "theorems": [
    "Mpdata.C18_antidiff_constant",
    "Mpdata.C18_constant_is_fixed_point_1d",
    "Mpdata.C18_constant_is_fixed_point_2d_partial",
    "Mpdata.C18_constant_is_fixed_point_3d_partial",
    "Mpdata.C18_fails_div3_nonuniform_2d"
   ],
   "note": "Proved for all options except div_3rd with exact/aver2 interpolation in non-uniform flow, for which it is false (C18_fails_div3_nonuniform_2d), and the option sets excluded in C20/C21."
  },
  {
   "property": "C19",
   "status": "partial",
   "theorems": [
    "Mpdata.C19_translation_1d",
    "Mpdata.C19_sign_1d",
    "Mpdata.C19_sign_needs_abs",
    "Mpdata.C19_iga_linear_1d",
    "Mpdata.C19_iga_shift_1d",
    "Mpdata.C19_iga_linear_run_1d",
    "Mpdata.C19_iga_shift_run_1d",
    "Mpdata.C19_translation_2d_partial",
    "Mpdata.C19_translation_3d_partial",
    "Mpdata.C19_sign_2d_partial",
    "Mpdata.C19_sign_3d_partial",
    "Mpdata.C19_iga_linear_2d",
    "Mpdata.C19_iga_linear_3d",
    "Mpdata.C19_iga_shift_2d_partial",
    "Mpdata.C19_iga_shift_3d_partial"
   ],
   "note": "Proved about the array program with the option sets excluded in C20/C21 left out; the shift symmetry of iga with div_3rd under the conditions of C18."
  },
  {
   "property": "C20",
   "status": "partial",
   "theorems": [
    "Mpdata.C20_halo_suffices_1d_partial",
    "Mpdata.C20_fails_div2_three_passes",
    "Mpdata.C20_halo_suffices_all_bconds_2d_partial",
    "Mpdata.C20_halo_suffices_all_bconds_3d_partial",
    "Mpdata.C20_fails_div3_three_passes",
    "Mpdata.C20_halo_suffices_2d_partial",
    "Mpdata.C20_halo_suffices_3d_partial",
    "Mpdata.C20_halo_suffices_all_bconds_run_2d_partial",
    "Mpdata.C20_halo_suffices_all_bconds_run_3d_partial"
   ],
   "note": "Proved for every option set and boundary condition of the local kind except divergence-form options with three or more passes without fct (false: C20_fails_div2_three_passes); in 2-D/3-D every combination of cyclic, rigid, ground/sky, open and polar boundaries is covered (C20_halo_suffices_all_bconds_*, single steps and whole runs); div_3rd with fct and three or more passes is covered for cyclic boundaries and false beside others (C20_fails_div3_three_passes)."
  },
  {
   "property": "C21",
   "status": "partial",
   "theorems": [
    "Mpdata.C21_cyclic_1d_is_periodic_partial",
    "Mpdata.C21_cyclic_sclr_exchange",
    "Mpdata.C21_cyclic_vctr_exchange",
    "Mpdata.C21_needs_halo_le_period",
    "Mpdata.C21_cyclic_2d_is_periodic_partial",
    "Mpdata.C21_cyclic_3d_is_periodic_partial"
   ],
   "note": "Exchanges: complete. Whole runs equal the periodic run except where C20 fails."
  },
  {
   "property": "C22",
   "status": "partial",
   "theorems": [
    "Mpdata.C22_open_sclr",
    "Mpdata.C22_open_edge_cells_nondivergent_2d",
    "Mpdata.C22_open_open_rim_nondivergent_2d",
    "Mpdata.C22_open_cyclic_corner_divergent",
    "Mpdata.C22_open_cyclic_uniform_flow_rejected",
    "Mpdata.C22_open_edge_cells_nondivergent_3d",
    "Mpdata.C22_open_vctr_1d_left",
    "Mpdata.C22_open_vctr_1d_right_partial",
    "Mpdata.C22_fails_open_1d_right_halo2"
   ],
   "note": "Scalars and 2-D/3-D edge cells proved. False: the right 1-D advector halo (C22_fails_open_1d_right_halo2) and the corner cells with open x and cyclic y (C22_open_cyclic_corner_divergent)."
  },
  {
   "property": "C23",
   "status": "partial",
   "theorems": [
    "Mpdata.C23_rigid_sclr",
    "Mpdata.C23_rigid_pres",
    "Mpdata.C23_rigid_vctr",
    "Mpdata.C23_rigid_vctr_ad_left",
    "Mpdata.C23_fails_rigid_ad_right",
    "Mpdata.C23_rigid_edge",
    "Mpdata.C23_rigid_flux"
   ],
   "note": "Everything except the exchange of corrective velocities at the right wall, which is off by one (C23_fails_rigid_ad_right)."
  },
  {
   "property": "C24",
   "status": "partial",
   "theorems": [
    "Mpdata.C24_polar_neighbour_involution",
    "Mpdata.C24_fails_even_longitudes",
    "Mpdata.C24_polar_sclr_mirror",
    "Mpdata.C24_polar_vctr_alng",
    "Mpdata.C24_fails_polar_vctr_halo3",
    "Mpdata.C24_polar_vctr_nrml_left_partial",
    "Mpdata.C24_fails_polar_vctr_nrml_right",
    "Mpdata.C24_polar_sclr_mirror_3d",
    "Mpdata.C24_fails_polar_3d_second_dim"
   ],
   "note": "False for halo 3 (C24_fails_polar_vctr_halo3), the right transverse advector (C24_fails_polar_vctr_nrml_right) and even numbers of longitudes (C24_fails_even_longitudes), and in 3-D for poles in the second dimension (C24_fails_polar_3d_second_dim)."
  },
  {
   "property": "C25",
   "status": "partial",
   "theorems": [
    "Mpdata.Barrier.C25_no_run_ahead_partial",
    "Mpdata.Barrier.C25_no_deadlock_partial",
    "Mpdata.Barrier.C25_release_partial",
    "Mpdata.Barrier.C25_fails_after_2_pow_32",
    "Mpdata.Barrier.C25_threshold_matches",
    "Mpdata.Barrier.C25_3d_threshold_mismatch_deadlock",
    "Mpdata.Barrier.C25_3d_deadlock_permanent"
   ],
   "note": "Safety and progress hold in every interleaving up to 2^32 episodes; beyond, the generation counter wraps and a sleeping thread can miss its release (C25_fails_after_2_pow_32). With the 3-D threshold mismatch a deadlock is proved (C25_3d_*)."
  },
  {
   "property": "C26",
   "status": "partial",
   "theorems": [
    "Mpdata.Threads.C26_threads_1d",
    "Mpdata.Threads.C26_threads_2d_partial",
    "Mpdata.Threads.C26_executions_exist",
    "Mpdata.Threads.C26_threads_3d_partial",
    "Mpdata.Threads.C26_threads_3d_psi_partial",
    "Mpdata.Threads.C26_fails_fct_2d",
    "Mpdata.Threads.C26_fails_fct_3d"
   ],
   "note": "Runs of any number of steps, any numbers of threads up to the number of points of the split dimension. 1-D: all option sets. 2-D and 3-D: all option sets for which it is true; false for fct without iga, where a data race on flux is exhibited (C26_fails_fct_2d, C26_fails_fct_3d). In 3-D without div_3rd some corner halo values of the antidiffusive velocity, never read for the field, depend on the schedule."
  },
  {
   "property": "C27",
   "status": "proved",
   "theorems": [
    "Mpdata.Threads.C27_sum_threads",
    "Mpdata.Threads.C27_sum_thread_count",
    "Mpdata.Threads.C27_sum_threads_mpi",
    "Mpdata.Threads.C27_sum_exact",
    "Mpdata.Threads.C27_sum_processes",
    "Mpdata.Threads.C27_min_threads",
    "Mpdata.Threads.C27_max_threads",
    "Mpdata.Threads.C27_extr_processes",
    "Mpdata.Threads.C27_executions_exist"
   ],
   "note": ""
  },
  {
   "property": "C28",
   "status": "proved",
   "theorems": [
    "Mpdata.Mpi.C28_messages_matched",
    "Mpdata.Mpi.C28_scalar_halo",
    "Mpdata.Mpi.C28_vector_halo",
    "Mpdata.Mpi.C28_frame",
    "Mpdata.Mpi.C28_timing_independent",
    "Mpdata.Mpi.C28_run_equals_serial",
    "Mpdata.Mpi.C28_donor_run",
    "Mpdata.Mpi.C28_fails_narrow"
   ],
   "note": "The width condition is needed: C28_fails_narrow."
  },
  {
   "property": "C29",
   "status": "proved",
   "theorems": [
    "Mpdata.Mpi.C29_no_deadlock",
    "Mpdata.Mpi.C29_no_deadlock_synchronous",
    "Mpdata.Mpi.C29_terminates",
    "Mpdata.Mpi.C29_completes",
    "Mpdata.Mpi.C29_gather_from_owner",
    "Mpdata.Mpi.C29_gather_total",
    "Mpdata.Mpi.C29_set_then_gather",
    "Mpdata.Mpi.C29_can_complete"
   ],
   "note": ""
  },
  {
   "property": "C30",
   "status": "proved",
   "theorems": [
    "Mpdata.C30_euler_a",
    "Mpdata.C30_euler_b",
    "Mpdata.C30_trapez",
    "Mpdata.C30_norhs_untouched",
    "Mpdata.C30_constant_rhs",
    "Mpdata.C30_trapez_uses_previous_rhs"
   ],
   "note": ""
  },
  {
   "property": "C31",
   "status": "partial",
   "theorems": [
    "Mpdata.C31_extrapolated",
    "Mpdata.C31_exact_for_linear",
    "Mpdata.C31_time_derivatives_exact_partial",
    "Mpdata.C31_drying_cell_velocity_reversed",
    "Mpdata.C31_interpolation_exact",
    "Mpdata.C31_interpolation_mass_flux",
    "Mpdata.C31_velocity_of_state",
    "Mpdata.VP.C31_fails_derivative_with_density"
   ],
   "note": "The extrapolation is proved in full. The time derivatives are exact if velocities are advected (C31_time_derivatives_exact_partial) and wrong if momenta are (C31_fails_derivative_with_density). Where the density of a cell vanishes between two steps the stored velocity is taken as zero (C31_drying_cell_velocity_reversed)."
  },
  {
   "property": "C32",
   "status": "proved",
   "theorems": [
    "Mpdata.C32_stash_previous",
    "Mpdata.C32_stash_second_previous",
    "Mpdata.C32_trials_keep_history"
   ],
   "note": ""
  },
  {
   "property": "C33",
   "status": "proved",
   "theorems": [
    "Mpdata.C33_implicit_is_convex",
    "Mpdata.C33_no_overshoot",
    "Mpdata.C33_stored_forcing",
    "Mpdata.C33_run_stable",
    "Mpdata.C33_explicit_step",
    "Mpdata.C33_explicit_unstable"
   ],
   "note": "The explicit variant is unstable for large dt*c (C33_explicit_unstable)."
  },
  {
   "property": "C34",
   "status": "proved",
   "theorems": [
    "Mpdata.Prs.C34_mr_converged",
    "Mpdata.Prs.C34_mr_l2_decreases",
    "Mpdata.Prs.C34_mr_raises_iff",
    "Mpdata.Prs.C34_gcrk_converged_partial",
    "Mpdata.Prs.C34_cr_converged",
    "Mpdata.Prs.C34_gcrk_l2_decreases",
    "Mpdata.Prs.C34_gcrk_pointwise_fails",
    "Mpdata.Prs.C34_mr_velocity_divergence",
    "Mpdata.Prs.C34_gcrk_velocity_divergence_partial",
    "Mpdata.Prs.C34_cr_velocity_divergence",
    "Mpdata.Prs.C34_mr_fixed_point",
    "Mpdata.Prs.C34_open_absorber_fails"
   ],
   "note": "For minimal residual as stated. The conjugate-residual solvers are also modelled: with one search direction (cr) the tolerance is met at every point (C34_cr_converged); with several (gcrk) proved in the L2 norm of its own exit test, false pointwise (C34_gcrk_pointwise_fails). With an open boundary and an implicit absorber the final velocity is not non-divergent (C34_open_absorber_fails)."
  },
  {
   "property": "C35",
   "status": "proved",
   "theorems": [
    "Mpdata.C35_divergence_check_2d",
    "Mpdata.C35_divergence_check_3d",
    "Mpdata.C35_dfl_skips",
    "Mpdata.C35_zero_tolerance_exact"
   ],
   "note": ""
  },
  {
   "property": "C36",
   "status": "proved",
   "theorems": [
    "Mpdata.C36_recorded_steps",
    "Mpdata.C36_split_irrelevant",
    "Mpdata.C36_fails_window_beyond_freq",
    "Mpdata.C36_fails_after_advance_zero"
   ],
   "note": "outwindow <= outfreq and calls of at least one step (both in the statement) are needed: C36_fails_*."
  },
  {
   "property": "C37",
   "status": "proved",
   "theorems": [
    "Mpdata.C37_time_axis",
    "Mpdata.C37_fails_before_outstart",
    "Mpdata.C37_fails_two_advances"
   ],
   "note": "The conditions of the statement are needed: C37_fails_*."
  },
  {
   "property": "C38",
   "status": "proved",
   "theorems": [
    "Mpdata.C38_linear_records",
    "Mpdata.C38_every_multiple_once",
    "Mpdata.C38_linear_convex",
    "Mpdata.C38_linear_exact",
    "Mpdata.C38_quadratic_records",
    "Mpdata.C38_half_interval_suffices",
    "Mpdata.C38_quadratic_exact",
    "Mpdata.C38_fails_long_step",
    "Mpdata.C38_fails_quadratic_consecutive"
   ],
   "note": "The conditions are needed: C38_fails_*."
  },
  {
   "property": "C39",
   "status": "proved",
   "theorems": [
    "Mpdata.C39_hyperslabs_tile",
    "Mpdata.C39_file_names_injective"
   ],
   "note": ""
  },
  {
   "property": "C40",
   "status": "proved",
   "theorems": [
    "Mpdata.C40_announced_equals_sent",
    "Mpdata.C40_fails_window_or_second_advance"
   ],
   "note": "The conditions are needed: C40_fails_*."
  },
  {
   "property": "C41",
   "status": "proved",
   "theorems": [
    "Mpdata.C41_constant",
    "Mpdata.C41_linear",
    "Mpdata.C41_divergence_sums_to_zero",
    "Mpdata.C41_adjoint",
    "Mpdata.C41_cyclic_halo",
    "Mpdata.C41_laplacian_symmetric",
    "Mpdata.C41_laplacian_negative"
   ],
   "note": ""
  },
  {
   "property": "C42",
   "status": "proved",
   "theorems": [
    "Mpdata.C42_momentum_any_stress",
    "Mpdata.C42_momentum_conserved",
    "Mpdata.C42_momentum_conserved_dns",
    "Mpdata.C42_heat_conserved",
    "Mpdata.C42_momentum_centred",
    "Mpdata.C42_centred_density_fails",
    "Mpdata.C42_rigid_motion",
    "Mpdata.C42_translation",
    "Mpdata.C42_rigid_motion_centred",
    "Mpdata.C42_tdef_nonneg",
    "Mpdata.C42_tdef_zero",
    "Mpdata.C42_vip_div_exact",
    "Mpdata.C42_isotropic_expansion"
   ],
   "note": "For the compact operators as stated; the centred variant ignores density (C42_centred_density_fails)."
  },
  {
   "property": "C43",
   "status": "partial",
   "theorems": [
    "Mpdata.C43_lake_at_rest",
    "Mpdata.C43_depth_unforced",
    "Mpdata.C43_momentum_conserved",
    "Mpdata.C43_pressure_flux",
    "Mpdata.C43_slope",
    "Mpdata.VP.C43_program_mass_1d_partial",
    "Mpdata.VP.C43_program_mass_2d_partial",
    "Mpdata.VP.C43_program_momentum_1d_partial",
    "Mpdata.VP.C43_program_momentum_2d_partial",
    "Mpdata.VP.C43_program_lake_at_rest_1d_partial",
    "Mpdata.VP.C43_program_lake_at_rest_2d_partial",
    "Mpdata.VP.C43_program_depth_nonneg_1d_partial",
    "Mpdata.VP.C43_program_depth_nonneg_2d_partial",
    "Mpdata.VP.C43_assert_trapez",
    "Mpdata.VP.C43_fails_assert_euler",
    "Mpdata.VP.C43_lake_at_rest_walls_2d_partial",
    "Mpdata.VP.C43_program_uniform_current_1d_partial",
    "Mpdata.VP.C43_program_uniform_current_2d_partial"
   ],
   "note": "The forcing, the per-step statements and the assertion with trapez are proved in full. Whole runs (C43_program_*) are proved on cyclic domains with the exclusions of C61; lake at rest in 2-D also with rigid and open boundaries, there without the third-order divergence-form options (C43_lake_at_rest_walls_2d_partial). The assertion in update_rhs fails with euler_a and euler_b: C43_fails_assert_euler."
  },
  {
   "property": "C44",
   "status": "proved",
   "theorems": [
    "Mpdata.Bsq.C44_implicit_solves",
    "Mpdata.Bsq.C44_next_half_step",
    "Mpdata.Bsq.C44_implicit_unique",
    "Mpdata.Bsq.C44_initial_rhs",
    "Mpdata.Bsq.C44_stable_divisor",
    "Mpdata.Bsq.C44_explicit",
    "Mpdata.Bsq.C44_filter_linear",
    "Mpdata.Bsq.C44_filter_bounds",
    "Mpdata.PP.C44_run_filter",
    "Mpdata.PP.C44_run_implicit",
    "Mpdata.PP.C44_run_explicit",
    "Mpdata.PP.C44_env_gradient",
    "Mpdata.PP.C44_run_implicit_start",
    "Mpdata.PP.C44_run_explicit_start"
   ],
   "note": ""
  },
  {
   "property": "C45",
   "status": "partial",
   "theorems": [
    "Mpdata.C45_isset_combine",
    "Mpdata.C45_opts_string_determines_partial",
    "Mpdata.C45_opts_string_not_injective",
    "Mpdata.C45_most_significant"
   ],
   "note": "Bits and membership proved. The name determines the set except for div_3rd_dt, which is not part of the name (C45_opts_string_not_injective)."
  },
  {
   "property": "C46",
   "status": "proved",
   "theorems": [
    "Mpdata.C46_pi2_addresses",
    "Mpdata.C46_pi3_addresses",
    "Mpdata.C46_pi2_bijective",
    "Mpdata.C46_pi3_bijective",
    "Mpdata.C46_arrvec_wrap",
    "Mpdata.C46_arrvec_wrap_pow2",
    "Mpdata.C46_arrvec_wrap_fails_below_minus_size"
   ],
   "note": ""
  },
  {
   "property": "C47",
   "status": "proved",
   "theorems": [
    "Mpdata.Threads.C47_flux_faces",
    "Mpdata.Threads.C47_flux_faces_1d",
    "Mpdata.Threads.C47_scale_faces",
    "Mpdata.Threads.C47_scale_once",
    "Mpdata.Threads.C47_multiply_once",
    "Mpdata.Threads.C47_extend_range"
   ],
   "note": ""
  },
  {
   "property": "C48",
   "status": "partial",
   "theorems": [
    "Mpdata.C48_xdmf_dims_partial",
    "Mpdata.C48_fails_aux"
   ],
   "note": "False for auxiliary variables (C48_fails_aux)."
  },
  {
   "property": "C49",
   "status": "partial",
   "theorems": [
    "Mpdata.C49_self_advec_is_donor_partial",
    "Mpdata.C49_khn_loses_field",
    "Mpdata.C49_khn_loses_field_2d",
    "Mpdata.C49_khn_loses_field_3d"
   ],
   "note": "Proved without khn; with khn the old field is lost (C49_khn_loses_field*)."
  },
  {
   "property": "C50",
   "status": "partial",
   "theorems": [
    "Mpdata.C50_fails_fct_right_wall",
    "Mpdata.C50_walls_conserve_2d_partial",
    "Mpdata.C50_walls_conserve_3d_partial",
    "Mpdata.C50_box_conserves_2d_partial",
    "Mpdata.C50_box_conserves_3d_partial"
   ],
   "note": "2-D and 3-D, about the array program, rigid walls in any directions, every option set without fct (with at most two passes for the divergence-form options), any passes, steps and memory contents. With fct it is false: the right wall fills the corrective velocity off by one (C50_fails_fct_right_wall)."
  },
  {
   "property": "C51",
   "status": "partial",
   "theorems": [
    "Mpdata.Threads.C51_threads_sgs_2d_partial",
    "Mpdata.Threads.C51_threads_sgs_2d_cyclic",
    "Mpdata.Threads.C51_fails_compact_smg"
   ],
   "note": "2-D: normal and Pade differencing with any boundary conditions and either stress model; compact differencing with constant viscosity between rigid walls in the split dimension, or cyclic in it (there the exchange of the divergence races, but only halo values of a work array that are never used are affected). False for compact differencing with eddy viscosity, where a data race is exhibited (C51_fails_compact_smg). The anisotropic model requires compact differencing and has the same race. Missing: 3-D."
  },
  {
   "property": "C52",
   "status": "proved",
   "theorems": [
    "Mpdata.C52_energy_identity",
    "Mpdata.C52_dissipative"
   ],
   "note": ""
  },
  {
   "property": "C53",
   "status": "partial",
   "theorems": [
    "Mpdata.C53_smg_viscosity_fails",
    "Mpdata.C53_uniform_deformation",
    "Mpdata.C53_mixing_length_3d",
    "Mpdata.C53_mixing_length_2d_fails"
   ],
   "note": "The viscosity computed is (c*Delta)^2 |S|^2, without the square root, so the proportionality is false (C53_smg_viscosity_fails); the mixing length is divided by 3 in 2-D as well (C53_mixing_length_2d_fails). Exact values for uniform deformation are proved."
  },
  {
   "property": "C54",
   "status": "proved",
   "theorems": [
    "Mpdata.C54_order_of_accuracy_1d",
    "Mpdata.C54_order_of_accuracy_3d",
    "Mpdata.C54_order_of_accuracy_2d"
   ],
   "note": "About the array program, 1-3 dimensions."
  },
  {
   "property": "C55",
   "status": "proved",
   "theorems": [
    "Mpdata.C55_infinite_gauge_is_the_limit_2d",
    "Mpdata.C55_infinite_gauge_is_the_limit_3d",
    "Mpdata.C55_infinite_gauge_is_the_limit_1d"
   ],
   "note": "About the array program, 1-3 dimensions, over the real numbers."
  },
  {
   "property": "C56",
   "status": "proved",
   "theorems": [
    "Mpdata.C56_second_order_1d",
    "Mpdata.C56_second_order_2d",
    "Mpdata.C56_second_order_3d"
   ],
   "note": "1-, 2- and 3-D, one step of the array program."
  },
  {
   "property": "C57",
   "status": "partial",
   "theorems": [
    "Mpdata.C57_third_order_1d",
    "Mpdata.C57_third_order_2d",
    "Mpdata.C57_third_order_3d",
    "Mpdata.C57_fails_div3dt_linear2_2d"
   ],
   "note": "1-, 2- and 3-D, one step of the array program. In the basic (not infinite-gauge) scheme where the leading corrective velocities do not vanish. False for div_3rd_dt with extrapolated Courant numbers in 2-D (C57_fails_div3dt_linear2_2d)."
  },
  {
   "property": "C58",
   "status": "partial",
   "theorems": [
    "Mpdata.C58_fails_fct_right_wall",
    "Mpdata.C58_walls_are_mirrors_2d_partial",
    "Mpdata.C58_walls_are_mirrors_3d_partial"
   ],
   "note": "2-D and 3-D, about the array program, without fct. With fct it is false (C58_fails_fct_right_wall)."
  },
  {
   "property": "C59",
   "status": "partial",
   "theorems": [
    "Mpdata.C59_reversed_axis_1d_partial",
    "Mpdata.C59_reversed_axis_2d_partial",
    "Mpdata.C59_renamed_axes_2d_partial",
    "Mpdata.C59_reversed_axis_3d_partial",
    "Mpdata.C59_renamed_axes_3d_partial",
    "Mpdata.C59_reversed_axis_walls_2d_partial",
    "Mpdata.C59_renamed_axes_walls_2d_partial",
    "Mpdata.C59_reversed_axis_walls_3d_partial",
    "Mpdata.C59_renamed_axes_walls_3d_partial"
   ],
   "note": "1-D, 2-D and 3-D. With cyclic boundaries: all options; divergence-form options with three or more passes and no fct excluded (there the halo is not refilled, C12_fails_div2_three_passes). With rigid walls: without fct; with fct it is false (C58_fails_fct_right_wall)."
  },
  {
   "property": "C60",
   "status": "partial",
   "theorems": [
    "Mpdata.C60_sclr_values",
    "Mpdata.C60_pres_values_partial",
    "Mpdata.C60_nrml_values_partial",
    "Mpdata.C60_alng_values_partial",
    "Mpdata.C60_sclr_keeps_domain",
    "Mpdata.C60_pres_keeps_domain",
    "Mpdata.C60_alng_keeps_inner_faces",
    "Mpdata.C60_nrml_keeps_faces",
    "Mpdata.C60_flux_keeps_inner_faces",
    "Mpdata.C60_sgs_keeps_inner_faces",
    "Mpdata.C60_sgs_div_keeps_domain_partial",
    "Mpdata.C60_sclr_no_stale",
    "Mpdata.C60_sclr_idempotent",
    "Mpdata.C60_nrml_no_stale",
    "Mpdata.C60_alng_no_stale",
    "Mpdata.C60_advector_no_stale",
    "Mpdata.C60_pres_no_stale_partial",
    "Mpdata.C60_sgs_vctr_edge_values",
    "Mpdata.C60_flux_edge_values",
    "Mpdata.C60_ground_tnsr_extrapolates",
    "Mpdata.C60_fails_sgs_div",
    "Mpdata.C60_fails_pres_open_left",
    "Mpdata.C60_ground_tnsr_ignores_viscosity"
   ],
   "note": "False for the velocity divergence with a right lateral wall (C60_fails_sgs_div) and for the second pressure halo layer at a left open boundary in 2-D (C60_fails_pres_open_left). Everything else proved for all combinations of boundary kinds; multi-threaded splitting of the exchanges and MPI (remote) boundaries are in C26, C28, C51."
  },
  {
   "property": "C61",
   "status": "partial",
   "theorems": [
    "Mpdata.VP.C61_box_budget_2d_partial",
    "Mpdata.VP.C61_box_budget_3d_partial",
    "Mpdata.VP.C61_fails_wall_impermeable",
    "Mpdata.VP.C61_fails_box_total",
    "Mpdata.VP.C61_budget_1d_partial",
    "Mpdata.VP.C61_budget_2d_partial",
    "Mpdata.VP.C61_budget_3d_partial",
    "Mpdata.VP.C61_constant_source_1d_partial",
    "Mpdata.VP.C61_constant_source_2d_partial",
    "Mpdata.VP.C61_constant_source_3d_partial",
    "Mpdata.VP.C61_linear_damping_1d_partial",
    "Mpdata.VP.C61_cyclic_is_periodic_1d_partial",
    "Mpdata.VP.C61_cyclic_is_periodic_2d_partial",
    "Mpdata.VP.C61_cyclic_is_periodic_3d_partial",
    "Mpdata.VP.C61_totals_1d_partial",
    "Mpdata.VP.C61_totals_2d_partial",
    "Mpdata.VP.C61_totals_3d_partial",
    "Mpdata.VP.C61_rest_1d_partial",
    "Mpdata.VP.C61_rest_2d_partial",
    "Mpdata.VP.C61_rest_3d_partial",
    "Mpdata.VP.C61_nonneg_1d_partial",
    "Mpdata.VP.C61_nonneg_2d_partial",
    "Mpdata.VP.C61_nonneg_3d_partial",
    "Mpdata.VP.C61_nonneg_nofct_2d_partial",
    "Mpdata.VP.C61_nonneg_nofct_3d_partial",
    "Mpdata.VP.C61_rest_walls_2d_partial",
    "Mpdata.VP.C61_rest_walls_3d_partial",
    "Mpdata.VP.C61_uniform_flow_1d_partial",
    "Mpdata.VP.C61_uniform_flow_2d_partial",
    "Mpdata.VP.C61_uniform_flow_3d_partial"
   ],
   "note": "Divergence-form options with three or more passes and no fct are excluded (HaloCovered), where already the advection of one field is wrong (C20). In 2-D and 3-D the sign is proved with fct under the usual outflow condition and without it, for options not of divergence form, under a smaller bound on the advector. Budgets (C61_budget_*) are for equations the velocity absorber does not touch. In boxes with rigid walls contents are kept only as long as the velocities vanish on the walls (C61_box_budget_*), which a flow towards a wall does not respect (C61_fails_wall_impermeable, C61_fails_box_total). Uniform flow (C61_uniform_flow_*): uniform G-factor (in 1-D only needed with the third-order time derivatives). Rest with rigid and open boundaries (C61_rest_walls_*): 2-D and 3-D, without the third-order divergence-form options. One subdomain; no pressure solver."
  },
  {
   "property": "C62",
   "status": "partial",
   "theorems": [
    "Mpdata.PP.C62_box_budget_2d_partial",
    "Mpdata.PP.C62_box_budget_3d_partial",
    "Mpdata.PP.C62_box_total_2d_partial",
    "Mpdata.PP.C62_box_total_3d_partial",
    "Mpdata.PP.C62_velocity_nondivergent",
    "Mpdata.PP.C62_advector_nondivergent_partial",
    "Mpdata.PP.C62_advector_nondivergent_cyclic",
    "Mpdata.PP.C62_advector_fixed_dt_cyclic",
    "Mpdata.PP.C62_totals_cyclic",
    "Mpdata.PP.C62_rest_cyclic_2d",
    "Mpdata.PP.C62_rest_cyclic_3d",
    "Mpdata.PP.C62_fails_open_nonuniform_G",
    "Mpdata.PP.C62_momentum_equation",
    "Mpdata.PP.C62_initial_pressure"
   ],
   "note": "Velocities: proved for all boundaries. Advectors: every cell of domains cyclic in all dimensions; otherwise every cell except the first and last points of cyclic dimensions. Totals in domains cyclic in all dimensions and in closed boxes (rigid walls in all dimensions, there without flux-corrected transport and third-order time derivatives; domains with both kinds of boundary are missing); rest with guaranteed convergence on cyclic domains. All pressure schemes (mr, cr, gcrk); with gcrk and several search directions the bound on the divergence is the tolerance times the square root of the number of grid points (C34: it does not hold pointwise); velocities advected themselves; one subdomain. C62_momentum_equation: each step's velocities obey the discrete momentum equation. C62_fails_open_nonuniform_G: at open boundaries with a G-factor that varies there the advector is divergent."
  },
  {
   "property": "C63",
   "status": "partial",
   "theorems": [
    "Mpdata.PP.C63_box_heat_impl_2d_partial",
    "Mpdata.PP.C63_box_heat_impl_3d_partial",
    "Mpdata.PP.C63_box_tracers_impl_2d_partial",
    "Mpdata.PP.C63_box_tracers_impl_3d_partial",
    "Mpdata.PP.C63_box_heat_2d_partial",
    "Mpdata.PP.C63_box_adiabatic_2d_partial",
    "Mpdata.PP.C63_box_heat_3d_partial",
    "Mpdata.PP.C63_box_adiabatic_3d_partial",
    "Mpdata.PP.C63_hydrostatic_expl_2d_partial",
    "Mpdata.PP.C63_hydrostatic_expl_3d_partial",
    "Mpdata.PP.C63_hydrostatic_impl_2d_partial",
    "Mpdata.PP.C63_hydrostatic_impl_3d_partial",
    "Mpdata.PP.C63_expl_velocity_nondivergent",
    "Mpdata.PP.C63_impl_velocity_nondivergent_partial",
    "Mpdata.PP.C63_impl_advector_nondivergent_partial",
    "Mpdata.C63_no_flow_2d_partial",
    "Mpdata.C63_no_flow_3d_partial",
    "Mpdata.C63_no_flow_div3_2d_partial",
    "Mpdata.C63_no_flow_div3_3d_partial"
   ],
   "note": "The third-order divergence-form options (div_3rd, div_3rd_dt) are excluded from the statement on hydrostatic balance; in the statement on advection without flow they are included where the halo filling covers them (C20). The implicit solver with open boundaries at the bottom and top is excluded from the statement on divergence. No subgrid scheme (iles), one subdomain; all pressure schemes (bound on the divergence for gcrk as in C62). Heat budgets: closed boxes, without flux-corrected transport and third-order time derivatives. Theorem C44_run_implicit gives the implicit equations in whole runs."
  },
  {
   "property": "C64",
   "status": "partial",
   "theorems": [
    "Mpdata.PP.C64_box_budget_2d_partial",
    "Mpdata.PP.C64_box_budget_3d_partial",
    "Mpdata.PP.C64_velocity_nondivergent",
    "Mpdata.PP.C64_advector_nondivergent_partial",
    "Mpdata.PP.C64_momentum_equation",
    "Mpdata.PP.C64_momentum_budget_cyclic",
    "Mpdata.PP.C64_momentum_constant_cyclic",
    "Mpdata.PP.C64_totals_cyclic",
    "Mpdata.PP.C64_advector_nondivergent_cyclic",
    "Mpdata.PP.C64_dns_momentum_constant",
    "Mpdata.PP.C64_smg_momentum_constant"
   ],
   "note": "Velocities: all boundaries and all forces. Advectors: every cell of domains cyclic in all dimensions; otherwise every cell except the first and last points of cyclic dimensions. Momentum: cyclic domains, uniform density, no absorber. Totals of scalars: cyclic domains and closed boxes (as in C62). Halo exchanges inside the calculation of the forces are represented by the periodic extension of the velocities; drag at the surface, the anisotropic model and differencing that is not compact are covered by the statements for arbitrary forces only. All pressure schemes (bound on the divergence for gcrk as in C62), one subdomain."
  },
  {
   "property": "C65",
   "status": "partial",
   "theorems": [
    "Mpdata.Threads.C65_threads_prs_2d_partial",
    "Mpdata.Threads.C65_threads_decide_alike_partial",
    "Mpdata.Threads.C65_threads_complete_partial",
    "Mpdata.Threads.C65_fails_forcing_trapez",
    "Mpdata.Threads.C65_fails_forcing_euler_b"
   ],
   "note": "Conditions: FCT only with the infinite-gauge option (otherwise C26_fails_fct_2d), and forcings that read neighbouring columns do so only of fields that are no velocities, are not scaled and have no right-hand side unless the scheme is euler_a (false otherwise: C65_fails_forcing_trapez, C65_fails_forcing_euler_b). 2-D; the mixed scheme, variable time steps and subgrid-scale models are not in the modelled program."
  },
  {
   "property": "C66",
   "status": "partial",
   "theorems": [
    "Mpdata.VP.C66_scheme_1d_partial",
    "Mpdata.VP.C66_scheme_2d_partial",
    "Mpdata.VP.C66_scheme_3d_partial"
   ],
   "note": "Cyclic boundaries; the halo must cover what the options read (the same condition as in C61). With a density variable and div_3rd the derivatives of the advector are those the code computes (from momentum and stored velocity), see C31_fails_derivative_with_density."
  },
  {
   "property": "C67",
   "status": "partial",
   "theorems": [
    "Mpdata.PP.C67_semi_implicit_2d_partial",
    "Mpdata.PP.C67_semi_implicit_3d_partial",
    "Mpdata.PP.C67_determined_by_potential"
   ],
   "note": "Cyclic boundaries, all pressure schemes (the statement leaves open which potential is found; bound on the divergence for gcrk as in C62), halo condition as in C61; runs in which the pressure solver gives up end with an exception and are not covered."
  },
  {
   "property": "C68",
   "status": "proved",
   "theorems": [
    "Mpdata.Mpi.C68_same_as_one_thread",
    "Mpdata.Mpi.C68_schedule_independent",
    "Mpdata.Mpi.C68_call_fills_halos",
    "Mpdata.Mpi.C68_run_equals_serial",
    "Mpdata.Mpi.C68_no_deadlock",
    "Mpdata.Mpi.C68_terminates",
    "Mpdata.Mpi.C68_completes",
    "Mpdata.Mpi.C68_can_complete",
    "Mpdata.Mpi.C68_messages_cover_whole_range",
    "Mpdata.Mpi.C68_buffers_suffice",
    "Mpdata.Mpi.C68_buffers_wide_halo_fails",
    "Mpdata.Mpi.C68_buffers_freed_once"
   ],
   "note": "Each process at least as wide as the halo (the first and last wider), as in C28. The computations of all threads of a process between two calls are one step (their independence of schedules is C20, C26, C65). With halos of four points or more the buffers are overrun (C68_buffers_wide_halo_fails)."
  },
  {
   "property": "C69",
   "status": "partial",
   "theorems": [
    "Mpdata.Backend.C69_threads_run_whole_domain",
    "Mpdata.Backend.C69_openmp_latest_partial",
    "Mpdata.Backend.C69_openmp_roomy_grids_partial",
    "Mpdata.Backend.C69_memory_matches_subdomains",
    "Mpdata.Backend.C69_reductions_see_subdomains_only",
    "Mpdata.Backend.C69_thread_count",
    "Mpdata.Backend.C69_boundary_owner",
    "Mpdata.Backend.C69_fails_openmp_second_solver",
    "Mpdata.Backend.C69_fails_openmp_second_solver_larger",
    "Mpdata.Backend.C69_fails_openmp_3d_evaluation_order",
    "Mpdata.Backend.C69_fails_reductions_3d",
    "Mpdata.Backend.C69_fails_reductions_3d_overrun",
    "Mpdata.Backend.C69_fails_no_threads"
   ],
   "note": "serial, boost_thread, cxx11_thread: every program in which at least one thread is asked for. False for openmp (C69_fails_openmp_*): proved for the solver made last, and for programs whose grids have at least as many points as threads are asked for. Barriers and reductions: 1-D and 2-D; false in 3-D (C69_fails_reductions_3d, C25_3d_threshold_mismatch_deadlock). Zero threads: C69_fails_no_threads."
  },
  {
   "property": "C70",
   "status": "partial",
   "theorems": [
    "Mpdata.Heat.C70_heat_budget",
    "Mpdata.Heat.C70_weak_form",
    "Mpdata.Heat.C70_viscosity",
    "Mpdata.Heat.C70_viscosity_sign",
    "Mpdata.Heat.C70_variance_decreases",
    "Mpdata.Heat.C70_no_heating_of_warmest",
    "Mpdata.Heat.C70_uniform_temperature",
    "Mpdata.Heat.C70_no_stale",
    "Mpdata.Heat.At.C70_fl_agrees",
    "Mpdata.Heat.At.C70_fails_at_rest",
    "Mpdata.Heat.At.C70_at_rest_stable"
   ],
   "note": "everything for one subdomain, exact arithmetic, deformation as given; that the viscosity is a number is false of flow at rest under unstable stratification (C70_fails_at_rest). Not modelled: several threads and processes, the exchange of the stress tensor in the same function."
  },
  {
   "property": "C71",
   "status": "partial",
   "theorems": [
    "Mpdata.Drag.C71_boussinesq_viscosity",
    "Mpdata.Drag.C71_boussinesq_momentum",
    "Mpdata.Drag.C71_boussinesq_energy",
    "Mpdata.Drag.C71_drag_law",
    "Mpdata.Drag.C71_momentum_budget",
    "Mpdata.Drag.C71_free_slip",
    "Mpdata.Drag.C71_energy",
    "Mpdata.Drag.C71_anisotropy",
    "Mpdata.Drag.C71_drag_opposes_wind",
    "Mpdata.Drag.C71_energy_decreases",
    "Mpdata.Drag.C71_fails_viscosity_from_flow"
   ],
   "note": "everything for one subdomain, exact arithmetic, models dns, smg, smgani, and the Boussinesq versions of the last two (these for uniform density); energy for uniform density only (otherwise the divergence implied by the density enters the diagonal stresses). That the eddy viscosity is a function of the flow is false at the ground (C71_fails_viscosity_from_flow). Not modelled: several threads and processes."
  },
  {
   "property": "C72",
   "status": "partial",
   "theorems": [
    "Mpdata.Mon.C72_in_bounds",
    "Mpdata.Mon.C72_in_bounds_var",
    "Mpdata.Mon.C72_shows_progress",
    "Mpdata.Mon.C72_fails_interpolated"
   ],
   "note": "Fixed time steps: everything. Adaptive time steps: advance(t) with t > 0 and out_intrp_ord at most 1; false for out_intrp_ord = 2 (C72_fails_interpolated)."
  }
 ]
}