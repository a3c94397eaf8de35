{
 "C01": [
  "partial",
  "All claims about slabs are proved (tiling, order, balance, no empty slab iff size <= span). The constructor clause is proved for 1-D and 2-D without MPI and is false in 3-D and with MPI, where the check looks at another size than the one that is divided (C01_fails_*)."
 ],
 "C02": [
  "proved",
  "Invariant over any history of steps. The restriction to masks inside the equation range (in the statement) is needed: C02_fails_for_mask_beyond_equations."
 ],
 "C03": [
  "proved",
  "The condition a >= 1 (in the statement) is needed: C03_start_hook_repeats_after_advance_zero."
 ],
 "C04": [
  "proved",
  ""
 ],
 "C05": [
  "proved",
  ""
 ],
 "C06": [
  "partial",
  "Proved: the time loop, the steady choice of dt in 1-D, 2-D and 3-D (cyclic boundaries, in 2-D/3-D also rigid walls) and the run that follows it, the Courant number as a maximum, the limit on exit from the adaptive loop and its termination for accelerating flow. False as stated: the adaptive loop need not terminate (C06_adapt_may_not_terminate), the 1-D Courant number does not see opposing faces (C06_courant1_blind_to_opposing_faces), advance(0) makes extra steps."
 ],
 "C07": [
  "proved",
  "Round trip for every exponent; the operator is abstract and homogeneous as the statement says, and C07_run_unaffected/C07_program_unaffected_1d instantiate it with the MPDATA step; C07_fails_with_fct_or_without_pfc shows option sets for which the step is not homogeneous."
 ],
 "C08": [
  "proved",
  "C08_cyclic_* and C08_closed_* are the two halves of the statement; C08_conservation_* is the common core for arbitrary fluxes."
 ],
 "C09": [
  "proved",
  "The bound is needed: C09_courant_bound_needed."
 ],
 "C10": [
  "proved",
  "Non-divergence is needed: C10_divergent_creates_extrema."
 ],
 "C11": [
  "proved",
  ""
 ],
 "C12": [
  "partial",
  "Proved about the array program for all three dimensions, all option sets, passes and steps except divergence-form options with three or more passes and no fct, for which it is false (C12_fails_div2_three_passes)."
 ],
 "C13": [
  "partial",
  "1-D: every option without iga and without divergence form; with dfl for |C| <= 1/2. 2-D/3-D: the same options, any number of passes, under Courant bounds that halve with each pass (without tot and dfl one bound for any number of passes). With fct: every option, every dimension. Divergence form (div_2nd, two passes, no fct): false under the usual bound (C13_fails_div2_1d), proved under reduced bounds. Missing: a reduced bound for div_3rd without fct."
 ],
 "C14": [
  "proved",
  "For arbitrary antidiffusive velocities, all FCT variants, 1-3 dimensions; C14_*_any_bc_* are about the array program with any boundary conditions."
 ],
 "C15": [
  "proved",
  "About the array program: on a cyclic domain, and (C15_*_any_bc_*) with any boundary conditions whose scalar halos hold interior values, shown for every mix of cyclic, rigid and open sides. C15_needs_fct shows fct is needed."
 ],
 "C16": [
  "proved",
  ""
 ],
 "C17": [
  "proved",
  ""
 ],
 "C18": [
  "partial",
  "Proved for all options except div_3rd with exact/aver2 interpolation in non-uniform flow, for which it is false (C18_fails_div3_nonuniform_2d), and the option sets excluded in C20/C21."
 ],
 "C19": [
  "partial",
  "Proved about the array program with the option sets excluded in C20/C21 left out; the shift symmetry of iga with div_3rd under the conditions of C18."
 ],
 "C20": [
  "partial",
  "Proved for every option set and boundary condition of the local kind except divergence-form options with three or more passes without fct (false: C20_fails_div2_three_passes); in 2-D/3-D every combination of cyclic, rigid, ground/sky, open and polar boundaries is covered (C20_halo_suffices_all_bconds_*, single steps and whole runs); div_3rd with fct and three or more passes is covered for cyclic boundaries and false beside others (C20_fails_div3_three_passes)."
 ],
 "C21": [
  "partial",
  "Exchanges: complete. Whole runs equal the periodic run except where C20 fails."
 ],
 "C22": [
  "partial",
  "Scalars and 2-D/3-D edge cells proved. False: the right 1-D advector halo (C22_fails_open_1d_right_halo2) and the corner cells with open x and cyclic y (C22_open_cyclic_corner_divergent)."
 ],
 "C23": [
  "partial",
  "Everything except the exchange of corrective velocities at the right wall, which is off by one (C23_fails_rigid_ad_right)."
 ],
 "C24": [
  "partial",
  "False for halo 3 (C24_fails_polar_vctr_halo3), the right transverse advector (C24_fails_polar_vctr_nrml_right) and even numbers of longitudes (C24_fails_even_longitudes), and in 3-D for poles in the second dimension (C24_fails_polar_3d_second_dim)."
 ],
 "C25": [
  "partial",
  "Safety and progress hold in every interleaving up to 2^32 episodes; beyond, the generation counter wraps and a sleeping thread can miss its release (C25_fails_after_2_pow_32). With the 3-D threshold mismatch a deadlock is proved (C25_3d_*)."
 ],
 "C26": [
  "partial",
  "Runs of any number of steps, any numbers of threads up to the number of points of the split dimension. 1-D: all option sets. 2-D and 3-D: all option sets for which it is true; false for fct without iga, where a data race on flux is exhibited (C26_fails_fct_2d, C26_fails_fct_3d). In 3-D without div_3rd some corner halo values of the antidiffusive velocity, never read for the field, depend on the schedule."
 ],
 "C27": [
  "proved",
  ""
 ],
 "C28": [
  "proved",
  "The width condition is needed: C28_fails_narrow."
 ],
 "C29": [
  "proved",
  ""
 ],
 "C30": [
  "proved",
  ""
 ],
 "C31": [
  "partial",
  "The extrapolation is proved in full. The time derivatives are exact if velocities are advected (C31_time_derivatives_exact_partial) and wrong if momenta are (C31_fails_derivative_with_density). Where the density of a cell vanishes between two steps the stored velocity is taken as zero (C31_drying_cell_velocity_reversed)."
 ],
 "C32": [
  "proved",
  ""
 ],
 "C33": [
  "proved",
  "The explicit variant is unstable for large dt*c (C33_explicit_unstable)."
 ],
 "C34": [
  "proved",
  "For minimal residual as stated. The conjugate-residual solvers are also modelled: with one search direction (cr) the tolerance is met at every point (C34_cr_converged); with several (gcrk) proved in the L2 norm of its own exit test, false pointwise (C34_gcrk_pointwise_fails). With an open boundary and an implicit absorber the final velocity is not non-divergent (C34_open_absorber_fails)."
 ],
 "C35": [
  "proved",
  ""
 ],
 "C36": [
  "proved",
  "outwindow <= outfreq and calls of at least one step (both in the statement) are needed: C36_fails_*."
 ],
 "C37": [
  "proved",
  "The conditions of the statement are needed: C37_fails_*."
 ],
 "C38": [
  "proved",
  "The conditions are needed: C38_fails_*."
 ],
 "C39": [
  "proved",
  ""
 ],
 "C40": [
  "proved",
  "The conditions are needed: C40_fails_*."
 ],
 "C41": [
  "proved",
  ""
 ],
 "C42": [
  "proved",
  "For the compact operators as stated; the centred variant ignores density (C42_centred_density_fails)."
 ],
 "C43": [
  "partial",
  "The forcing, the per-step statements and the assertion with trapez are proved in full. Whole runs (C43_program_*) are proved on cyclic domains with the exclusions of C61; lake at rest in 2-D also with rigid and open boundaries, there without the third-order divergence-form options (C43_lake_at_rest_walls_2d_partial). The assertion in update_rhs fails with euler_a and euler_b: C43_fails_assert_euler."
 ],
 "C44": [
  "proved",
  ""
 ],
 "C45": [
  "partial",
  "Bits and membership proved. The name determines the set except for div_3rd_dt, which is not part of the name (C45_opts_string_not_injective)."
 ],
 "C46": [
  "proved",
  ""
 ],
 "C47": [
  "proved",
  ""
 ],
 "C48": [
  "partial",
  "False for auxiliary variables (C48_fails_aux)."
 ],
 "C49": [
  "partial",
  "Proved without khn; with khn the old field is lost (C49_khn_loses_field*)."
 ],
 "C50": [
  "partial",
  "2-D and 3-D, about the array program, rigid walls in any directions, every option set without fct (with at most two passes for the divergence-form options), any passes, steps and memory contents. With fct it is false: the right wall fills the corrective velocity off by one (C50_fails_fct_right_wall)."
 ],
 "C51": [
  "partial",
  "2-D: normal and Pade differencing with any boundary conditions and either stress model; compact differencing with constant viscosity between rigid walls in the split dimension, or cyclic in it (there the exchange of the divergence races, but only halo values of a work array that are never used are affected). False for compact differencing with eddy viscosity, where a data race is exhibited (C51_fails_compact_smg). The anisotropic model requires compact differencing and has the same race. Missing: 3-D."
 ],
 "C56": [
  "proved",
  "1-, 2- and 3-D, one step of the array program."
 ],
 "C57": [
  "partial",
  "1-, 2- and 3-D, one step of the array program. In the basic (not infinite-gauge) scheme where the leading corrective velocities do not vanish. False for div_3rd_dt with extrapolated Courant numbers in 2-D (C57_fails_div3dt_linear2_2d)."
 ],
 "C58": [
  "partial",
  "2-D and 3-D, about the array program, without fct. With fct it is false (C58_fails_fct_right_wall)."
 ],
 "C59": [
  "partial",
  "1-D, 2-D and 3-D. With cyclic boundaries: all options; divergence-form options with three or more passes and no fct excluded (there the halo is not refilled, C12_fails_div2_three_passes). With rigid walls: without fct; with fct it is false (C58_fails_fct_right_wall)."
 ],
 "C60": [
  "partial",
  "False for the velocity divergence with a right lateral wall (C60_fails_sgs_div) and for the second pressure halo layer at a left open boundary in 2-D (C60_fails_pres_open_left). Everything else proved for all combinations of boundary kinds; multi-threaded splitting of the exchanges and MPI (remote) boundaries are in C26, C28, C51."
 ],
 "C61": [
  "partial",
  "Divergence-form options with three or more passes and no fct are excluded (HaloCovered), where already the advection of one field is wrong (C20). In 2-D and 3-D the sign is proved with fct under the usual outflow condition and without it, for options not of divergence form, under a smaller bound on the advector. Budgets (C61_budget_*) are for equations the velocity absorber does not touch. In boxes with rigid walls contents are kept only as long as the velocities vanish on the walls (C61_box_budget_*), which a flow towards a wall does not respect (C61_fails_wall_impermeable, C61_fails_box_total). Uniform flow (C61_uniform_flow_*): uniform G-factor (in 1-D only needed with the third-order time derivatives). Rest with rigid and open boundaries (C61_rest_walls_*): 2-D and 3-D, without the third-order divergence-form options. One subdomain; no pressure solver."
 ],
 "C62": [
  "partial",
  "Velocities: proved for all boundaries. Advectors: every cell of domains cyclic in all dimensions; otherwise every cell except the first and last points of cyclic dimensions. Totals in domains cyclic in all dimensions and in closed boxes (rigid walls in all dimensions, there without flux-corrected transport and third-order time derivatives; domains with both kinds of boundary are missing); rest with guaranteed convergence on cyclic domains. All pressure schemes (mr, cr, gcrk); with gcrk and several search directions the bound on the divergence is the tolerance times the square root of the number of grid points (C34: it does not hold pointwise); velocities advected themselves; one subdomain. C62_momentum_equation: each step's velocities obey the discrete momentum equation. C62_fails_open_nonuniform_G: at open boundaries with a G-factor that varies there the advector is divergent."
 ],
 "C63": [
  "partial",
  "The third-order divergence-form options (div_3rd, div_3rd_dt) are excluded from the statement on hydrostatic balance; in the statement on advection without flow they are included where the halo filling covers them (C20). The implicit solver with open boundaries at the bottom and top is excluded from the statement on divergence. No subgrid scheme (iles), one subdomain; all pressure schemes (bound on the divergence for gcrk as in C62). Heat budgets: closed boxes, without flux-corrected transport and third-order time derivatives. Theorem C44_run_implicit gives the implicit equations in whole runs."
 ],
 "C64": [
  "partial",
  "Velocities: all boundaries and all forces. Advectors: every cell of domains cyclic in all dimensions; otherwise every cell except the first and last points of cyclic dimensions. Momentum: cyclic domains, uniform density, no absorber. Totals of scalars: cyclic domains and closed boxes (as in C62). Halo exchanges inside the calculation of the forces are represented by the periodic extension of the velocities; drag at the surface, the anisotropic model and differencing that is not compact are covered by the statements for arbitrary forces only. All pressure schemes (bound on the divergence for gcrk as in C62), one subdomain."
 ],
 "C65": [
  "partial",
  "Conditions: FCT only with the infinite-gauge option (otherwise C26_fails_fct_2d), and forcings that read neighbouring columns do so only of fields that are no velocities, are not scaled and have no right-hand side unless the scheme is euler_a (false otherwise: C65_fails_forcing_trapez, C65_fails_forcing_euler_b). 2-D; the mixed scheme, variable time steps and subgrid-scale models are not in the modelled program."
 ],
 "C66": [
  "partial",
  "Cyclic boundaries; the halo must cover what the options read (the same condition as in C61). With a density variable and div_3rd the derivatives of the advector are those the code computes (from momentum and stored velocity), see C31_fails_derivative_with_density."
 ],
 "C67": [
  "partial",
  "Cyclic boundaries, all pressure schemes (the statement leaves open which potential is found; bound on the divergence for gcrk as in C62), halo condition as in C61; runs in which the pressure solver gives up end with an exception and are not covered."
 ],
 "C68": [
  "proved",
  "Each process at least as wide as the halo (the first and last wider), as in C28. The computations of all threads of a process between two calls are one step (their independence of schedules is C20, C26, C65). With halos of four points or more the buffers are overrun (C68_buffers_wide_halo_fails)."
 ],
 "C69": [
  "partial",
  "serial, boost_thread, cxx11_thread: every program in which at least one thread is asked for. False for openmp (C69_fails_openmp_*): proved for the solver made last, and for programs whose grids have at least as many points as threads are asked for. Barriers and reductions: 1-D and 2-D; false in 3-D (C69_fails_reductions_3d, C25_3d_threshold_mismatch_deadlock). Zero threads: C69_fails_no_threads."
 ],
 "C70": [
  "partial",
  "everything for one subdomain, exact arithmetic, deformation as given; that the viscosity is a number is false of flow at rest under unstable stratification (C70_fails_at_rest). Not modelled: several threads and processes, the exchange of the stress tensor in the same function."
 ],
 "C71": [
  "partial",
  "everything for one subdomain, exact arithmetic, models dns, smg, smgani, and the Boussinesq versions of the last two (these for uniform density); energy for uniform density only (otherwise the divergence implied by the density enters the diagonal stresses). That the eddy viscosity is a function of the flow is false at the ground (C71_fails_viscosity_from_flow). Not modelled: several threads and processes."
 ],
 "C72": [
  "partial",
  "Fixed time steps: everything. Adaptive time steps: advance(t) with t > 0 and out_intrp_ord at most 1; false for out_intrp_ord = 2 (C72_fails_interpolated)."
 ],
 "C52": [
  "proved",
  ""
 ],
 "C53": [
  "partial",
  "The viscosity computed is (c*Delta)^2 |S|^2, without the square root, so the proportionality is false (C53_smg_viscosity_fails); the mixing length is divided by 3 in 2-D as well (C53_mixing_length_2d_fails). Exact values for uniform deformation are proved."
 ],
 "C54": [
  "proved",
  "About the array program, 1-3 dimensions."
 ],
 "C55": [
  "proved",
  "About the array program, 1-3 dimensions, over the real numbers."
 ]
}