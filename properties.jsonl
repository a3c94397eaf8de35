{"id": "C01", "title": "Thread and MPI slabs tile the grid exactly", "statement": "When a domain of `span` cells is split over `size` workers (threads or MPI processes), the index ranges handed to the workers are contiguous in rank order, pairwise disjoint, together cover the whole domain and nothing else, and their lengths differ by at most one; every worker gets at least one cell exactly when size <= span (the condition the constructor enforces).", "quantifier": "every domain length, every worker count, every rank", "why_tests_cant": "unit tests run a handful of grid sizes and thread counts; rounding in rank*span/size can only be settled for all of them by arithmetic", "anchors": ["libmpdata++/formulae/domain_decomposition.hpp: slab, min, max", "libmpdata++/concurr/detail/sharedmem.hpp: slab, ctor size checks"]}
{"id": "C02", "title": "Read-outs address the newest time level for every equation", "statement": "After any number of time steps (with any n_iters, upwind_filter_freq and a delayed_step mask that names only existing equations) the field a user gets for equation e is the field that the last completed step computed for e, for every e at once; within a step the field being read and the field being written are never the same buffer.", "quantifier": "every number of equations, delayed-advection mask inside the equation range, n_iters, filter frequency and every history of steps", "why_tests_cant": "the time-level index is a modular counter shared between per-equation and global state; a parity slip only shows for particular histories of equations, iterations and filter steps", "anchors": ["libmpdata++/solvers/detail/solver_common.hpp: cycle, is_last_eqn, solve_loop_body, state", "libmpdata++/concurr/detail/sharedmem.hpp: cycle, advectee", "libmpdata++/blitz.hpp: arrvec_t::operator[]"]}
{"id": "C03", "title": "advance() calls compose", "statement": "With fixed time step, advance(a) followed by advance(b) leaves the same simulation state (fields, step counter, time) as a single advance(a+b), and the start-of-run hook runs exactly once, provided a >= 1; the number of steps performed by advance(n) is exactly n unless a panic is signalled.", "quantifier": "every pair of step counts, every per-step dynamics, every earlier history", "why_tests_cant": "tests compare a few splits; composition must hold for every split and every solver in the hierarchy", "anchors": ["libmpdata++/solvers/detail/solver_common.hpp: solve", "libmpdata++/concurr/detail/concurr_common.hpp: advance"]}
{"id": "C04", "title": "Each equation is advected exactly once per step, non-delayed ones first", "statement": "In one time step every equation is advected exactly once; all equations not in delayed_step are advected, in increasing order, before the ante-delayed-step hook, and all those in delayed_step, in increasing order, after it; ante-step hook precedes and post-step hook follows all of them.", "quantifier": "every number of equations and every delayed_step mask", "why_tests_cant": "tests fix one or two masks; the loop/mask interplay has to be right for all of them", "anchors": ["libmpdata++/solvers/detail/solver_common.hpp: solve, solve_loop_body", "libmpdata++/opts.hpp: isset, bit"]}
{"id": "C05", "title": "A panic request stops the run at a step boundary", "statement": "If the panic flag is raised, no further time step is started after the flag is observed at the next step boundary: the state is exactly the state after some whole number of steps, never a partially advanced one.", "quantifier": "every step at which the flag is raised, every requested step count", "why_tests_cant": "the moment of the signal is arbitrary; tests raise it at one moment if at all", "anchors": ["libmpdata++/solvers/detail/solver_common.hpp: solve", "libmpdata++/concurr/detail/concurr_common.hpp: panic"]}
{"id": "C06", "title": "Adaptive time-stepping reaches the requested time and keeps the Courant limit", "statement": "With variable dt, advance(t) returns only after the simulated time has reached the previous time plus t and after the extra output-interpolation steps; for a steady advector the dt chosen makes the maximum Courant number equal to max_courant; for a re-computed advector every step is taken with Courant number not exceeding max_courant.", "quantifier": "every sequence of positive dt values / Courant numbers", "why_tests_cant": "step counts and dt sequences depend on the flow; tests use one flow", "anchors": ["libmpdata++/solvers/detail/solver_common.hpp: solve, hook_ante_loop", "libmpdata++/solvers/detail/solver_1d.hpp: scale_gc, courant_number"]}
{"id": "C07", "title": "Equation scaling hints do not change the physics", "statement": "The power-of-two scaling requested by hint_scale is undone exactly: fields seen by the user before and after the step are in user units, and for a homogeneous advection operator the result equals that of an unscaled run.", "quantifier": "every scaling exponent of either sign, every field, every homogeneous advection operator", "why_tests_cant": "exponent sign and the pairing of scale/unscale over the changing time level must be right for all exponents", "anchors": ["libmpdata++/solvers/detail/solver_common.hpp: scale, solve_loop_body", "libmpdata++/opts.hpp: ct_params_default_t::hint_scale"]}
{"id": "C08", "title": "Donor-cell transport conserves the advected quantity", "statement": "One upwind pass with cyclic boundaries leaves the density-weighted total of the field over one period unchanged, in 1, 2 and 3 dimensions, for any advector and any positive G; with zero normal advector on the boundary faces the total over the whole domain is unchanged.", "quantifier": "every grid size, field, Courant field and G-factor field", "why_tests_cant": "conservation is an identity over all fields; tests check some fields to a tolerance", "anchors": ["libmpdata++/formulae/donorcell_formulae.hpp: flux, make_flux, donorcell_sum", "libmpdata++/bcond/cyclic_1d.hpp", "libmpdata++/solvers/detail/mpdata_osc_1d.hpp: advop"]}
{"id": "C09", "title": "Donor-cell transport preserves sign", "statement": "If in every cell the outflow Courant number does not exceed G, an upwind pass maps a non-negative field to a non-negative field (and never turns a positive cell negative), in 1, 2 and 3 dimensions.", "quantifier": "every field, advector satisfying the stability bound, grid size and dimension", "why_tests_cant": "must hold for all fields including degenerate ones", "anchors": ["libmpdata++/formulae/donorcell_formulae.hpp", "libmpdata++/formulae/common.hpp: pospart, negpart"]}
{"id": "C10", "title": "Donor-cell transport creates no new extrema in non-divergent flow", "statement": "If the advector is non-divergent and the stability bound holds, each new cell value of an upwind pass lies between the minimum and maximum of the old values in the cell and its face neighbours; a constant field stays constant.", "quantifier": "every field, non-divergent advector under the stability bound, G and dimension", "why_tests_cant": "a universally quantified inequality", "anchors": ["libmpdata++/formulae/donorcell_formulae.hpp"]}
{"id": "C11", "title": "Alternative evaluation options do not change the mathematics", "statement": "The `npa` option (positive/negative part through absolute value) gives the same fluxes as the default min/max form, and the `khn` option (compensated summation) gives the same sums as plain summation, in exact arithmetic.", "quantifier": "every advector, field and number of summands", "why_tests_cant": "equality over all inputs", "anchors": ["libmpdata++/formulae/common.hpp: negpart, pospart", "libmpdata++/formulae/kahan_sum.hpp: kahan_zro, kahan_add", "libmpdata++/kahan_reduction.hpp", "libmpdata++/formulae/donorcell_formulae.hpp: donorcell_sum"]}
{"id": "C12", "title": "MPDATA conserves the advected quantity for every option set and iteration count", "statement": "A full MPDATA step (any n_iters, any combination of tot, dfl, fct, iga, abs, pfc, npa, div_2nd, div_3rd, khn, nug) on a cyclic 1-D domain leaves the G-weighted total over one period unchanged, also over any number of steps; likewise the 2-D and 3-D step.", "quantifier": "every option set, iteration count, grid size, initial field, advector, positive G, number of steps", "why_tests_cant": "2^13 option sets times all fields", "anchors": ["libmpdata++/solvers/detail/mpdata_osc_1d.hpp: advop", "libmpdata++/solvers/detail/mpdata_osc_2d.hpp: advop", "libmpdata++/solvers/detail/mpdata_osc_3d.hpp: advop"]}
{"id": "C13", "title": "Basic MPDATA is positive definite", "statement": "Without infinite gauge and with G = 1, a full 1-D MPDATA step under the Courant bound |C| <= 1 with outflow at most 1 maps non-negative fields to non-negative fields for every number of corrective iterations, so a run of any length stays non-negative; in 2-D likewise under a correspondingly reduced Courant bound.", "quantifier": "every non-negative field, advector under the bound, iteration count, number of steps", "why_tests_cant": "must hold for every field, including fields with zeros where denominators vanish", "anchors": ["libmpdata++/formulae/mpdata/formulae_mpdata_1d.hpp: antidiff", "libmpdata++/formulae/mpdata/formulae_mpdata_common.hpp: frac", "libmpdata++/formulae/mpdata/formulae_mpdata_psi_1d.hpp: ndx_psi"]}
{"id": "C14", "title": "FCT keeps every corrective pass inside local bounds", "statement": "With the fct option, after each corrective pass every new cell value lies between the minimum and the maximum of the step's initial field and the current iterate over the cell and its face neighbours, for standard, infinite-gauge and variable-sign versions, in 1, 2 and 3 dimensions, whatever the antidiffusive velocities are.", "quantifier": "every field, antidiffusive velocity field, positive G, dimension and FCT variant", "why_tests_cant": "a universally quantified inequality with many sign cases", "anchors": ["libmpdata++/formulae/mpdata/formulae_mpdata_fct_1d.hpp: beta_up, beta_dn, GC_mono", "libmpdata++/formulae/mpdata/formulae_mpdata_fct_2d.hpp", "libmpdata++/formulae/mpdata/formulae_mpdata_fct_3d.hpp", "libmpdata++/solvers/detail/mpdata_fct_1d.hpp: fct_init, fct_adjust_antidiff"]}
{"id": "C15", "title": "MPDATA+FCT never leaves the global initial range", "statement": "With fct, non-divergent flow and the donor-cell stability bound, a simulation of any length stays within [min, max] of its initial field, for any number of iterations per step; in particular constants stay constant and non-negative fields non-negative.", "quantifier": "every number of steps, iterations, every field, option set with fct", "why_tests_cant": "length of the run is unbounded", "anchors": ["libmpdata++/solvers/detail/mpdata_osc_1d.hpp: advop", "libmpdata++/solvers/detail/mpdata_fct_1d.hpp"]}
{"id": "C16", "title": "The FCT limiter only weakens the correction", "statement": "The limited antidiffusive velocity has the sign of the unlimited one (or is zero) and never exceeds it in modulus.", "quantifier": "every field and antidiffusive velocity", "why_tests_cant": "universally quantified inequality", "anchors": ["libmpdata++/formulae/mpdata/formulae_mpdata_fct_1d.hpp: GC_mono", "libmpdata++/formulae/mpdata/formulae_mpdata_fct_2d.hpp: GC_mono", "libmpdata++/formulae/mpdata/formulae_mpdata_fct_3d.hpp: GC_mono"]}
{"id": "C17", "title": "Corrective iterations never overwrite their own input", "statement": "In every corrective iteration the velocity field being read and the one being produced are distinct storage, the user's advector is never overwritten, and the field read is the one produced by the previous iteration, for any n_iters; the temporary storage allocated is enough.", "quantifier": "every iteration count and iteration index", "why_tests_cant": "buffer reuse alternates; tests use n_iters of 2 or 3", "anchors": ["libmpdata++/solvers/detail/mpdata_common.hpp: GC_unco, GC_corr, GC, n_tmp, alloc"]}
{"id": "C18", "title": "Constant fields are preserved by every corrective formula", "statement": "For a spatially constant positive field, the antidiffusive velocity vanishes except for the terms that measure flow divergence, so in non-divergent flow with constant G a constant field is a fixed point of the whole MPDATA step for the default options, with tot, and with the divergence-form options.", "quantifier": "every option set, constant value, non-divergent advector and grid size", "why_tests_cant": "all option sets times all flows", "anchors": ["libmpdata++/formulae/mpdata/formulae_mpdata_1d.hpp: antidiff", "libmpdata++/formulae/mpdata/formulae_mpdata_2d.hpp: antidiff", "libmpdata++/formulae/mpdata/formulae_mpdata_hot_1d.hpp", "libmpdata++/formulae/mpdata/formulae_mpdata_dfl_1d.hpp"]}
{"id": "C19", "title": "MPDATA respects scaling, sign and shift symmetries", "statement": "The infinite-gauge step is linear in scale and invariant under adding a constant in non-divergent flow (solution(psi + c) = solution(psi) + c); the variable-sign (abs) step maps -psi to -solution; the step commutes with grid translation on cyclic domains.", "quantifier": "every field, constant, scale and shift", "why_tests_cant": "equalities over all fields", "anchors": ["libmpdata++/formulae/mpdata/formulae_mpdata_psi_1d.hpp: ndx_psi", "libmpdata++/solvers/detail/mpdata_osc_1d.hpp: advop"]}
{"id": "C20", "title": "Halo width is sufficient for every option set", "statement": "The values computed in the interior by one MPDATA step (1-D, 2-D or 3-D, any combination of boundary kinds) depend only on array elements inside the allocated index ranges (grid plus halo), for every option set: no read falls outside allocated memory or onto never-written elements.", "quantifier": "every option set, grid size, iteration count, boundary kind on each side of each dimension, content of memory", "why_tests_cant": "out-of-range reads are silent in release builds and depend on the option set", "anchors": ["libmpdata++/formulae/mpdata/formulae_mpdata_common.hpp: halo", "libmpdata++/solvers/detail/mpdata_fct_common.hpp: fct_min_halo", "libmpdata++/solvers/detail/solver_1d.hpp: alloc", "libmpdata++/solvers/detail/solver_common.hpp: rng_vctr, rng_sclr"]}
{"id": "C21", "title": "Cyclic boundaries present a periodic extension", "statement": "After the cyclic halo exchange every scalar or advector element in the halo equals the interior element one period away; interior elements are unchanged; repeating the exchange changes nothing; a field whose two end points agree (they represent the same location) keeps them equal after every step.", "quantifier": "every grid size, halo width not exceeding it, field and number of steps", "why_tests_cant": "index arithmetic at both ends for all sizes and halo widths", "anchors": ["libmpdata++/bcond/cyclic_1d.hpp", "libmpdata++/bcond/cyclic_2d.hpp", "libmpdata++/bcond/cyclic_3d.hpp", "libmpdata++/bcond/detail/bcond_common.hpp: ctor"]}
{"id": "C22", "title": "Open boundaries extend the edge value and keep edge cells divergence-free", "statement": "After the open-boundary exchange, scalar halo values equal the edge value of the same row; the along-axis advector in the halo is such that the edge cells' outermost flux equals the value making the halo cells non-divergent; interior values are unchanged.", "quantifier": "every grid size, halo width, field and advector", "why_tests_cant": "both ends and all halo widths; the two ends are separate code", "anchors": ["libmpdata++/bcond/open_1d.hpp", "libmpdata++/bcond/open_2d.hpp", "libmpdata++/bcond/open_3d.hpp"]}
{"id": "C23", "title": "Rigid walls mirror scalars and negate the normal advector", "statement": "After the rigid-wall exchange scalars are mirror-symmetric about the wall, the normal advector is antisymmetric about it (so its average on the wall is zero), and edge velocities are zeroed.", "quantifier": "every grid size, halo width, field, both sides", "why_tests_cant": "left and right sides are separate index formulae", "anchors": ["libmpdata++/bcond/rigid_2d.hpp", "libmpdata++/bcond/rigid_3d.hpp"]}
{"id": "C24", "title": "Polar boundaries map across the pole consistently", "statement": "Crossing the pole identifies each meridian with the opposite one: the neighbour map is an involution without fixed points on an odd-sized longitude grid and halo rows are mirror images of the interior rows on the opposite meridian.", "quantifier": "every longitude count and halo width", "why_tests_cant": "index map modulo the circle for every size", "anchors": ["libmpdata++/bcond/polar_2d.hpp", "libmpdata++/bcond/polar_3d.hpp", "libmpdata++/bcond/detail/polar_common.hpp: polar_neighbours"]}
{"id": "C25", "title": "The thread barrier never lets a thread run ahead or get stuck", "statement": "With the built-in C++11 barrier, in every interleaving of any number of threads (including spurious wake-ups), no thread leaves its k-th wait before all threads have entered their k-th wait, and when all threads have entered, all of them can leave (no deadlock).", "quantifier": "every thread count, every interleaving, every number of barrier episodes", "why_tests_cant": "scheduling is not controllable from tests", "anchors": ["libmpdata++/concurr/cxx11_thread.hpp: barrier::wait"]}
{"id": "C26", "title": "Results do not depend on the number of threads or their scheduling", "statement": "A 1-D or 2-D upwind/MPDATA pass executed by any number of threads in any interleaving between barriers yields the same field as the serial execution, for arbitrary (also non-associative floating-point) arithmetic.", "quantifier": "every thread count, interleaving, field and advector; every arithmetic", "why_tests_cant": "interleavings and thread counts cannot be enumerated by tests", "anchors": ["libmpdata++/solvers/detail/mpdata_osc_1d.hpp: advop, im", "libmpdata++/solvers/detail/mpdata_osc_2d.hpp: advop, ctor", "libmpdata++/concurr/detail/sharedmem.hpp: slab"]}
{"id": "C27", "title": "Parallel reductions are reproducible", "statement": "Shared-memory sum gives the same bits whatever the number of threads (for non-associative addition too), and sum/min/max over the slabs equal the reduction over the whole domain.", "quantifier": "every grid size, thread count, field, and any addition operation", "why_tests_cant": "floating-point non-associativity makes this a statement about every partition", "anchors": ["libmpdata++/concurr/detail/sharedmem.hpp: sum, min, max"]}
{"id": "C28", "title": "MPI halo exchange reproduces the serial periodic halo", "statement": "With the domain split over any number of MPI processes, each with more points than the halo is wide, after the exchange each process's halo holds exactly the values the serial cyclic run would have there, both for scalars and for advectors, and messages are matched (same tag and length, sent by the neighbour meant by the receiver).", "quantifier": "every number of processes, grid size, halo width, field", "why_tests_cant": "needs clusters of every size", "anchors": ["libmpdata++/bcond/detail/remote_common.hpp: xchng, peer, is_cyclic", "libmpdata++/bcond/remote_1d.hpp", "libmpdata++/bcond/remote_2d.hpp"]}
{"id": "C29", "title": "MPI exchanges cannot deadlock and gathering rebuilds the global field", "statement": "The ordered left/right exchanges complete for every number of processes; advectee_global() returns each cell from the process that owns it.", "quantifier": "every number of processes and every message timing", "why_tests_cant": "message timing is not testable", "anchors": ["libmpdata++/solvers/detail/solver_common.hpp: set_bcs", "libmpdata++/bcond/detail/remote_common.hpp: xchng", "libmpdata++/concurr/detail/distmem.hpp: get_global_array"]}
{"id": "C30", "title": "Right-hand-side time integration schemes apply the documented weights", "statement": "In every step of every run: euler_a yields the advected fields plus dt*R(fields before the step), euler_b yields the advection of (fields + dt*R(fields)), trapez adds dt/2 of a right-hand side before and dt/2 of R(advected fields) after advection, the half added before the next step's advection being the same R that was added after the previous one; for a constant R and constant field every scheme adds exactly dt*R per step; equations flagged as having no right-hand side are left untouched.", "quantifier": "every rhs function, field, dt, number of equations, flag mask", "why_tests_cant": "all masks and rhs functions", "anchors": ["libmpdata++/solvers/mpdata_rhs.hpp: hook_ante_step, hook_post_step, update_rhs, apply_rhs"]}
{"id": "C31", "title": "Advector extrapolation is exact for velocities linear in time", "statement": "With velocities as prognostic variables the advector used in a step is the linear extrapolation of velocity to mid-step: exact whenever velocity is linear in time, also with variable time steps; in the first step the initial velocity is used. With the fully third-order options the time derivatives of the advector handed to the scheme are exact for velocities linear (first derivative) and quadratic (second derivative) in time, whether velocities or momenta are advected.", "quantifier": "every pair of time steps, velocity field", "why_tests_cant": "variable dt ratios are continuous parameters", "anchors": ["libmpdata++/solvers/detail/mpdata_rhs_vip_common.hpp: extrp, vip_stash, calc_gc", "libmpdata++/solvers/mpdata_rhs_vip.hpp: extrapolate_in_time, interpolate_in_space", "libmpdata++/solvers/detail/mpdata_rhs_vip_common.hpp: calc_ndt_gc"]}
{"id": "C32", "title": "The velocity history holds the right time levels", "statement": "At every step the stored velocities labelled t-1 (and t-2 for third-order options) are those of the previous (second previous) step, for constant and variable dt, for any number of steps.", "quantifier": "every number of steps and option set", "why_tests_cant": "slots alternate with step parity", "anchors": ["libmpdata++/solvers/detail/mpdata_rhs_vip_common.hpp: vip_stash, fill_stash, hook_post_step"]}
{"id": "C33", "title": "The absorber relaxes velocities implicitly and stably", "statement": "The implicit absorber update returns a convex combination of the unrelaxed velocity and the reference velocity, for every non-negative absorption coefficient and dt (no overshoot), and leaves velocities with zero coefficient unchanged; the stored forcing equals -c (v_new - v_ref).", "quantifier": "every non-negative absorber coefficient, dt, velocity and reference", "why_tests_cant": "universally quantified inequality", "anchors": ["libmpdata++/solvers/detail/mpdata_rhs_vip_common.hpp: normalize_vip, add_relax, vip_rhs_impl_fnlz"]}
{"id": "C34", "title": "The pressure solver returns only when converged", "statement": "When the iterative pressure solver (minimal residual) returns, the divergence residual is within the requested tolerance at every grid point, the reported residual is the true residual of the returned pressure, the L2 residual never increases, and if not converged within the iteration cap it raises an error instead of returning.", "quantifier": "every right-hand side, every iteration history, linear symmetric or not operator", "why_tests_cant": "the number of iterations and data are arbitrary", "anchors": ["libmpdata++/solvers/detail/mpdata_rhs_vip_prs_common.hpp: pressure_solver_update", "libmpdata++/solvers/detail/mpdata_rhs_vip_prs_mr.hpp", "libmpdata++/solvers/detail/mpdata_rhs_vip_prs_gcrk.hpp"]}
{"id": "C35", "title": "Divergent initial advectors are rejected", "statement": "A 2-D or 3-D run without the dfl option starts only if the advector's divergence is within tolerance in every cell; otherwise an error is raised before any step; the divergence measured is the sum of face differences of every cell.", "quantifier": "every advector and tolerance", "why_tests_cant": "all fields", "anchors": ["libmpdata++/solvers/detail/solver_2d.hpp: hook_ante_loop, max_abs_vctr_div", "libmpdata++/solvers/detail/solver_3d.hpp: hook_ante_loop, max_abs_vctr_div"]}
{"id": "C36", "title": "Output is recorded at exactly the requested steps", "statement": "With fixed dt and outwindow <= outfreq the recorded step numbers are step 0 and exactly those steps s >= outstart with (s mod outfreq) < outwindow (counted from a multiple not before outstart), each once and in increasing order; how the run is split into advance() calls of at least one step does not matter.", "quantifier": "every outfreq, outstart, outwindow, run length, split into advance() calls", "why_tests_cant": "parameter space is unbounded", "anchors": ["libmpdata++/output/detail/output_common.hpp: hook_ante_loop, hook_post_step"]}
{"id": "C37", "title": "The HDF5 time axis matches the recorded files", "statement": "For a single advance(nt) with outstart <= nt and outwindow <= outfreq, the time coordinate written at start-up has one entry per record and its k-th entry is the time of the k-th record.", "quantifier": "every nt, outfreq, outstart, outwindow", "why_tests_cant": "closed-form count with modular corrections", "anchors": ["libmpdata++/output/hdf5.hpp: start", "libmpdata++/output/detail/output_common.hpp: hook_post_step"]}
{"id": "C38", "title": "Variable-dt output is recorded once per output interval and interpolated exactly", "statement": "With variable dt not exceeding outfreq and linear output interpolation, exactly one record is made for every multiple of outfreq reached; recorded values are convex combinations of the two surrounding states and exact for solutions linear in time; the quadratic option is exact for quadratic ones.", "quantifier": "every sequence of dt values", "why_tests_cant": "dt sequences are continuous parameters", "anchors": ["libmpdata++/output/detail/output_common.hpp: hook_ante_step, hook_post_step"]}
{"id": "C39", "title": "HDF5 output from several processes tiles the file", "statement": "The hyperslabs written by different MPI processes (cell data, coordinate data, data with halo) are disjoint and cover the dataset exactly; file names of distinct steps are distinct.", "quantifier": "every process count, grid size, halo, step number", "why_tests_cant": "needs all process counts", "anchors": ["libmpdata++/output/hdf5.hpp: start, base_name"]}
{"id": "C40", "title": "The gnuplot script announces as many frames as are sent", "statement": "For a 1-D run with a single advance(nt), outwindow = 1, the number of plot elements announced in the gnuplot command equals the number of data blocks sent afterwards.", "quantifier": "every nt, outfreq, outstart, number of variables", "why_tests_cant": "unbounded parameters", "anchors": ["libmpdata++/output/gnuplot.hpp: start, record", "libmpdata++/output/detail/output_common.hpp: hook_post_step"]}
{"id": "C41", "title": "Discrete gradient and divergence are consistent operators", "statement": "Centred gradients vanish on constants and are exact on linear fields; on a cyclic domain the discrete divergence integrates to zero and gradient and divergence are negative adjoints (summation by parts).", "quantifier": "every field, spacing, grid size", "why_tests_cant": "identities over all fields", "anchors": ["libmpdata++/formulae/nabla_formulae.hpp: grad, calc_grad, div"]}
{"id": "C42", "title": "Subgrid stresses conserve momentum and vanish for rigid motion", "statement": "Compact stress tendencies sum (density-weighted) to zero over a cyclic domain; the deformation tensor vanishes for uniform translation and rigid rotation; the squared total deformation is non-negative.", "quantifier": "every velocity field, viscosity field, grid size", "why_tests_cant": "identities over all fields", "anchors": ["libmpdata++/formulae/stress_formulae.hpp: calc_stress_rhs_cmpct, calc_deform_cmpct, calc_tdef_sq, flux_div_cmpct"]}
{"id": "C43", "title": "Shallow water: lake at rest stays at rest", "statement": "With zero velocities and constant depth the shallow-water right-hand side is zero; total mass is not changed by the right-hand side. For the assembled solver on a cyclic domain, in runs of any number of steps: total depth is constant, total momentum is constant, a lake at rest stays exactly at rest, and the depth stays non-negative as long as no step drains more from a cell than it holds; a current of uniform depth and momentum stays exactly as it is; a lake at rest stays at rest also between rigid walls or open boundaries; the solver's own assertions hold for every right-hand side scheme.", "quantifier": "every depth, grid size", "why_tests_cant": "all sizes and values", "anchors": ["libmpdata++/solvers/shallow_water.hpp: update_rhs, forcings_helper"]}
{"id": "C44", "title": "Boussinesq implicit update solves the trapezoidal system", "statement": "The semi-implicit Boussinesq velocity/temperature update satisfies exactly the trapezoidal equations linking vertical velocity and potential-temperature perturbation, for every dt and stratification for which the denominator is non-zero. In whole runs the equations of the explicit and implicit solvers hold in every step. The buoyancy filter of the explicit solver creates no new extrema and keeps the column totals of buoyancy, whatever the boundary conditions at the bottom and top.", "quantifier": "every state, dt, absorber and stratification", "why_tests_cant": "algebraic identity over all inputs", "anchors": ["libmpdata++/solvers/detail/boussinesq_impl.hpp: normalize_vip, vip_rhs_impl_fnlz, update_rhs"]}
{"id": "C45", "title": "Option sets have unambiguous codes and names", "statement": "Option flags are distinct bits: membership tests see exactly the flags that were combined; the textual name recorded in output metadata determines the option set.", "quantifier": "every option set", "why_tests_cant": "2^13 sets", "anchors": ["libmpdata++/opts.hpp: bit, isset, opts_string, opt2name"]}
{"id": "C46", "title": "Dimension permutation and vector wrap-around select the intended component", "statement": "Formulae written once for a generic direction address exactly the intended direction: the index permutations are bijections, and component offsets d+1, d-1 wrap around cyclically in 2 and 3 dimensions.", "quantifier": "every dimension, direction and index", "why_tests_cant": "index-level claim used by every formula", "anchors": ["libmpdata++/formulae/idxperm.hpp: pi", "libmpdata++/blitz.hpp: arrvec_t::operator[]"]}
{"id": "C47", "title": "Thread-aware face ranges cover every face", "statement": "The face ranges on which the threads compute fluxes, scale the advector and multiply stresses cover every face of the domain, and where an update is in place (scaling, multiplication) each face is updated exactly once.", "quantifier": "every thread count and grid size", "why_tests_cant": "double or missed updates occur only at slab borders for particular decompositions", "anchors": ["libmpdata++/solvers/detail/solver_common.hpp: extend_range", "libmpdata++/solvers/detail/mpdata_osc_2d.hpp: ctor", "libmpdata++/solvers/detail/solver_2d.hpp: scale_gc", "libmpdata++/solvers/detail/mpdata_rhs_vip_prs_sgs_common.hpp: ijkm_sep"]}
{"id": "C48", "title": "XDMF descriptors match the data sets they point to", "statement": "The dimensions declared in the XDMF descriptor for every grid attribute equal those of the data set written for it.", "quantifier": "every grid size and dimension", "why_tests_cant": "all sizes", "anchors": ["libmpdata++/output/detail/xdmf_writer.hpp: setup, add_attribute, make_attribute", "libmpdata++/output/hdf5_xdmf.hpp"]}
{"id": "C49", "title": "In-place donor-cell advection equals one upwind step", "statement": "Advecting an auxiliary field in place with the donor-cell scheme leaves in that field exactly the upwind update of its previous values, for every supported option set.", "quantifier": "all fields, fluxes, G factors and option sets, in 1-D, 2-D and 3-D", "why_tests_cant": "A test fixes one option set; the property must hold for every option combination and every field, and the failure depends on argument aliasing inside one option branch.", "anchors": ["libmpdata++/solvers/detail/mpdata_osc_1d.hpp: self_advec_donorcell", "libmpdata++/solvers/detail/mpdata_osc_2d.hpp: self_advec_donorcell", "libmpdata++/solvers/detail/mpdata_osc_3d.hpp: self_advec_donorcell", "libmpdata++/formulae/donorcell_formulae.hpp: donorcell_sum"]}
{"id": "C50", "title": "Rigid walls conserve the half-weighted total", "statement": "Between two rigid walls the wall points lie on the walls, and advection conserves the sum of the field with the wall points weighted by one half (the trapezoidal integral over the domain), for any advecting velocity and any number of steps.", "quantifier": "every grid size, field, velocity field, number of steps", "why_tests_cant": "a test sums one field on one grid; the weights and the exactness for all inputs cannot be seen", "anchors": ["libmpdata++/bcond/rigid_2d.hpp: fill_halos_sclr, fill_halos_vctr_alng", "libmpdata++/formulae/donorcell_formulae.hpp: donorcell"]}
{"id": "C51", "title": "Subgrid stress computation does not depend on thread count", "statement": "The subgrid-scale right-hand sides computed by the team of threads are the same for every number of threads and every schedule.", "quantifier": "every thread count, every interleaving, every field", "why_tests_cant": "races appear only under some schedules", "anchors": ["libmpdata++/solvers/detail/mpdata_rhs_vip_prs_sgs_common.hpp: vip_rhs_expl_calc", "libmpdata++/solvers/detail/mpdata_rhs_vip_prs_sgs_smg.hpp: multiply_sgs_visc", "libmpdata++/solvers/detail/mpdata_rhs_vip_prs_sgs_dns.hpp: multiply_sgs_visc"]}
{"id": "C52", "title": "Subgrid stresses dissipate kinetic energy", "statement": "On a periodic domain with uniform density, the work done on the resolved flow by the subgrid stresses equals minus the sum over stress points of viscosity times squared deformation, hence is never positive when the viscosity is non-negative.", "quantifier": "every velocity field, viscosity field, grid spacing, grid size", "why_tests_cant": "sign over all velocity fields", "anchors": ["libmpdata++/formulae/stress_formulae.hpp: calc_deform_cmpct, calc_stress_rhs_cmpct, multiply_tnsr_cmpct"]}
{"id": "C53", "title": "Smagorinsky viscosity is proportional to the deformation magnitude", "statement": "Multiplying all velocities by a positive factor multiplies the Smagorinsky eddy viscosity by the same factor (viscosity = (c*Delta)^2 |S|).", "quantifier": "every velocity field and factor", "why_tests_cant": "a scaling law over all inputs", "anchors": ["libmpdata++/solvers/detail/mpdata_rhs_vip_prs_sgs_smg.hpp: multiply_sgs_visc"]}
{"id": "C54", "title": "Announced order of accuracy in uniform flow", "statement": "In a uniform flow on a cyclic domain with uniform G, a two-pass infinite-gauge solver without limiter moves any field that is locally a polynomial of position of total degree at most q exactly by the Courant numbers per step, where q is the order its options announce: 2 by default, 3 with tot or with div_3rd / div_3rd_dt on top of div_2nd (in 1-D: with tot), 4 with fot on top of a third-order scheme in 2-D. It holds for every Courant number of either sign, every polynomial and every number of steps, wherever the domain of dependence of the point stays inside the region where the field is that polynomial.", "quantifier": "all option sets (infinite gauge, no abs, no fct) x all Courant numbers x all polynomials up to the announced degree x all grid sizes x all numbers of steps x all points", "why_tests_cant": "convergence tests fit a slope on a few grids and a few flow angles; a wrong cross-term coefficient that vanishes on those directions or is masked by the leading error passes", "anchors": ["libmpdata++/formulae/mpdata/formulae_mpdata_1d.hpp: antidiff", "libmpdata++/formulae/mpdata/formulae_mpdata_2d.hpp: antidiff, div_2nd, div_3rd", "libmpdata++/formulae/mpdata/formulae_mpdata_3d.hpp: antidiff", "libmpdata++/formulae/mpdata/formulae_mpdata_hot_2d.hpp: TOT, FOT", "libmpdata++/formulae/mpdata/formulae_mpdata_hot_3d.hpp: TOT"]}
{"id": "C55", "title": "The infinite-gauge option is the limit of the basic scheme on a growing background", "statement": "For a non-divergent advector on a cyclic domain: run the basic scheme (or the variable-sign `abs` variant) with one or two passes on the field plus a constant background a, then subtract the background. As a grows, the result tends at every grid point, after any number of steps, to what the same solver with opts::iga computes from the field itself; all other options shared.", "quantifier": "every dimension 1-3, grid size, field, non-divergent advector (with the third-order divergence-form options: steady, and aver4 or without curvature along its own dimension), G field, option set without fct and fot, number of steps, pattern of upwind-filter steps", "why_tests_cant": "a limit over all backgrounds and fields cannot be sampled; large backgrounds lose precision in floating point exactly where the property would be observed", "anchors": ["libmpdata++/formulae/mpdata/formulae_mpdata_psi_1d.hpp", "libmpdata++/formulae/mpdata/formulae_mpdata_psi_2d.hpp", "libmpdata++/formulae/mpdata/formulae_mpdata_psi_3d.hpp", "libmpdata++/formulae/mpdata/formulae_mpdata_fdiv_2d.hpp", "libmpdata++/formulae/mpdata/formulae_mpdata_fdiv_3d.hpp", "libmpdata++/solvers/detail/mpdata_osc_2d.hpp: advop"]}
{"id": "C56", "title": "Second-order accuracy in variable flows", "statement": "With one corrective pass, without the flux limiter, and with the option dfl or div_2nd the solver is second-order accurate in any smooth flow: for a solution of the advection equation G dpsi/dt + div(U psi) = 0 with flux velocity U varying in space and time and G factor varying in space, one step from exact values with time step proportional to the grid spacing h differs from the exact solution by at most a constant times h^3, the constant being independent of the grid and of the grid point's position on it.", "quantifier": "one to three dimensions, every smooth solution, flow and G factor, cyclic grid, grid point at which no component of the flow vanishes (and, in the basic scheme, the field does not vanish), option set without abs and fct, supported interpolation of the Courant numbers in space and time, and contents of the rest of memory", "why_tests_cant": "a convergence test observes one flow on a few grids and cannot tell an order from a small constant; the order must hold for every smooth solution", "anchors": ["libmpdata++/formulae/mpdata/formulae_mpdata_dfl_1d.hpp: DFL", "libmpdata++/formulae/mpdata/formulae_mpdata_1d.hpp: antidiff, div_2nd", "libmpdata++/formulae/mpdata/formulae_mpdata_2d.hpp", "libmpdata++/formulae/mpdata/formulae_mpdata_3d.hpp", "libmpdata++/solvers/detail/mpdata_osc_1d.hpp: advop"]}
{"id": "C57", "title": "Third-order accuracy in variable flows", "statement": "With the options div_2nd and div_3rd (or div_3rd_dt) and the time derivatives of the Courant numbers supplied, the error of one step from exact values in any smooth flow is at most a constant times h^4, whichever interpolation of the Courant numbers in space (exact, two- or four-point average) and in time (mid-step values or linear extrapolation) is announced to the solver.", "quantifier": "one to three dimensions, every smooth solution, flow and G factor, cyclic grid, grid point at which no component of the flow vanishes, announced interpolation, and contents of the rest of memory", "why_tests_cant": "a convergence test observes one flow on a few grids; a wrong coefficient of one of the many correction terms shows only for flows in which that term matters", "anchors": ["libmpdata++/formulae/mpdata/formulae_mpdata_hot_1d.hpp", "libmpdata++/formulae/mpdata/formulae_mpdata_1d.hpp: div_3rd, div_3rd_spatial, div_3rd_temporal, div_3rd_upwind", "libmpdata++/formulae/mpdata/formulae_mpdata_2d.hpp: div_3rd", "libmpdata++/formulae/mpdata/formulae_mpdata_3d.hpp: div_3rd", "libmpdata++/solvers/detail/mpdata_osc_1d.hpp: advop"]}
{"id": "C58", "title": "Rigid walls act as mirrors", "statement": "A run in a box with rigid walls in some directions and cyclic boundaries in the others gives, at every grid point and after any number of steps, exactly the values of the run on the domain continued by reflection: fields even and the normal velocity odd across each wall, on a cyclic domain of twice the distance between the walls.", "quantifier": "every field and advector, every combination of rigid and cyclic directions, option set, number of passes and steps, and contents of temporary memory", "why_tests_cant": "a test compares one pair of runs; the equality must hold for every field and every length of run", "anchors": ["libmpdata++/bcond/rigid_2d.hpp: fill_halos_sclr, fill_halos_vctr_alng, fill_halos_vctr_nrml", "libmpdata++/bcond/rigid_3d.hpp", "libmpdata++/solvers/detail/mpdata_osc_2d.hpp: advop", "libmpdata++/solvers/detail/mpdata_osc_3d.hpp: advop"]}
{"id": "C59", "title": "No preferred direction", "statement": "The solver has no preferred axis and no preferred sense along an axis: giving it the same problem with its axes renamed (grid sizes, boundary kinds, field, G factor and velocity components renamed along), or with one axis read backwards (that velocity component changing sign), gives the same results, renamed or read backwards, at every grid point and after any number of steps.", "quantifier": "every field, advector and G factor, every renaming of the axes and every axis to reverse, cyclic boundaries or rigid walls in any directions, option set, number of passes and steps, and contents of temporary memory", "why_tests_cant": "a test compares one pair of runs in one orientation; an error in one of the many permuted or half-shifted formulae would show only for particular fields, options and orientations", "anchors": ["libmpdata++/formulae/mpdata/formulae_mpdata_2d.hpp: antidiff", "libmpdata++/formulae/mpdata/formulae_mpdata_3d.hpp: antidiff", "libmpdata++/formulae/idxperm.hpp: pi", "libmpdata++/formulae/mpdata/formulae_mpdata_fct_1d.hpp", "libmpdata++/solvers/detail/mpdata_osc_2d.hpp: advop", "libmpdata++/solvers/detail/mpdata_osc_3d.hpp: advop"]}
{"id": "C60", "title": "Halo exchanges never alter the domain and leave nothing stale", "statement": "Exchanging the halos of a field (scalar, derivative, pressure, advector, flux, subgrid stress, velocity divergence) never changes a value at a grid point of the domain or at a face between two grid points of the domain. After an exchange over the full halo every halo value, corners included, is determined by the values inside the domain, so that nothing left over from earlier computations can influence the next step, and a second exchange changes nothing. At rigid walls the average of stress and flux fields across the edge is zero, at the ground it is the prescribed surface value.", "quantifier": "every field, every combination of cyclic, rigid, ground/sky, open and polar boundaries on the sides of a 2-D or 3-D domain, every domain size not smaller than the halo, every halo width and every earlier content of the halo", "why_tests_cant": "the combinations of boundary kinds, fields and halo widths are many and a stale or overwritten value shows only for particular contents of memory", "anchors": ["libmpdata++/bcond/cyclic_2d.hpp", "libmpdata++/bcond/rigid_2d.hpp", "libmpdata++/bcond/gndsky_2d.hpp", "libmpdata++/bcond/open_2d.hpp", "libmpdata++/bcond/polar_2d.hpp", "libmpdata++/bcond/rigid_3d.hpp", "libmpdata++/bcond/open_3d.hpp", "libmpdata++/bcond/polar_3d.hpp", "libmpdata++/solvers/detail/solver_2d.hpp: xchng_sclr, xchng_vctr_alng, xchng_vctr_nrml, xchng_pres, xchng_sgs_div", "libmpdata++/solvers/detail/solver_3d.hpp: xchng_*"]}
{"id": "C61", "title": "Whole runs with prognosed velocities: halos invisible, totals kept or budgeted, rest kept, sign kept", "statement": "A solver whose advector is computed from the advected velocities or momenta, run for any number of steps on a cyclic domain, holds at every grid point exactly what the same time loop computes on the unbounded grid from the periodically repeated initial data: halo contents, temporaries and whatever memory held at the beginning do not matter. The (G-weighted) total of an equation without net source is the same at all times whatever the velocities do, and the total of a forced equation changes in every step exactly by what its forcing supplies: the time step times the total of the source (Euler), or half of it with the source before and half with the source after advection (trapez). A uniform state without motion and forcing stays exactly as it is. A uniform flow on which no force acts stays exactly as it is on cyclic domains, however fast. With cyclic, rigid or open boundaries a fluid without motion on which no force acts stays exactly as it is, whatever the distribution of the other variables. An unforced equation that is non-negative at the beginning (a density, a depth) stays non-negative as long as no step drains more from a cell than it holds. In a box closed by rigid walls contents follow the sources as long as no velocity is directed through a wall.", "quantifier": "1-D, 2-D and 3-D; every grid size, initial state, forcing (a function of the state in the halo region), right-hand side scheme, absorber, set of equations, velocity and density variables, delayed equations, upwind-filter steps, constant or adaptive time steps with any trial steps, advection options, number of passes and steps, content of memory", "why_tests_cant": "the statement couples all parts of the solver over histories of any length; a test fixes one history", "anchors": ["libmpdata++/solvers/detail/solver_common.hpp: solve, solve_loop_body", "libmpdata++/solvers/detail/mpdata_rhs_vip_common.hpp", "libmpdata++/solvers/mpdata_rhs_vip.hpp", "libmpdata++/solvers/mpdata_rhs.hpp", "libmpdata++/solvers/shallow_water.hpp"]}
{"id": "C62", "title": "Whole runs of incompressible solvers: flow and advectors non-divergent at all times, totals kept", "statement": "A solver with a pressure term, run for any number of steps with any of the pressure schemes, holds at the end of the initialisation and of every step velocities whose G-weighted divergence is within the tolerance of the pressure solver at every grid point (for gcrk with several search directions, within the tolerance times the square root of the number of points), with zero flow through rigid walls and the initial normal flow through open boundaries. The advector with which the next step transports all fields, extrapolated in time and interpolated to the faces, is non-divergent in every cell within twice the user's tolerance times G for a fixed time step. The G-weighted total of every transported scalar without net source is the same at all times; in general it changes in every step by exactly the time step times the total of the source. In a box closed by rigid walls points on the walls count with half of the cell. With the trapezoidal scheme every velocity component obeys in every step the discrete momentum equation: half of the forces at the beginning of the step before advection, half of those at its end after it, pressure gradient included. If the pressure solver does not converge the run ends with an exception instead.", "quantifier": "2-D and 3-D; every grid size, kind of boundary in every dimension, initial state, forcing, absorber, right-hand side scheme, advection options, time steps, number of steps, content of memory", "why_tests_cant": "the divergence of the advector depends on the history of velocities, on the consistency of the interpolation with the halo filling at every boundary, and on everything that happens between two pressure solves; a test samples a few flows", "anchors": ["libmpdata++/solvers/detail/mpdata_rhs_vip_prs_common.hpp: hook_ante_loop, vip_rhs_impl_fnlz, pressure_solver_update, pressure_solver_apply", "libmpdata++/solvers/detail/mpdata_rhs_vip_prs_mr.hpp", "libmpdata++/solvers/detail/mpdata_rhs_vip_prs_gcrk.hpp", "libmpdata++/solvers/mpdata_rhs_vip.hpp: interpolate_in_space, extrapolate_in_time", "libmpdata++/solvers/detail/mpdata_rhs_vip_common.hpp", "libmpdata++/bcond/detail/bcond_common.hpp"]}
{"id": "C63", "title": "Still air stays still: without flow nothing is transported, hydrostatic balance is kept exactly, Boussinesq flow is non-divergent", "statement": "If the advector vanishes on the faces of the domain's cells, advection changes no field. A Boussinesq solver, explicit or implicit, started at rest with the environmental temperature profile and no heating, runs for any number of steps without the pressure solver failing and returns exactly the initial state. Started from anything, it holds at the end of every step velocities whose G-weighted divergence is within the pressure solver's tolerance at every grid point, with no flow through rigid walls and the initial normal flow through open boundaries; vertical velocity and temperature then satisfy the coupled implicit equations with the pressure found. In a closed box the heat content changes in every step by the time step times the mean of the heating (heat flux and relaxation) before and after the step, whatever the flow; with the implicit solver, which stores deviations from the environment, vertical motion across the environmental profile is part of it.", "quantifier": "2-D and 3-D; every stratification, gravity, sponge, grid size, kind of boundary in every dimension, advection options, time steps, number of steps, content of halos and temporaries", "why_tests_cant": "spurious motion may appear only for a particular stratification, boundary combination, option set or stale memory, and after many steps; a test shows a few", "anchors": ["libmpdata++/solvers/boussinesq.hpp", "libmpdata++/solvers/detail/boussinesq_common.hpp", "libmpdata++/solvers/detail/boussinesq_expl.hpp: buoy_at_0, buoy_at_1, filter, update_rhs", "libmpdata++/solvers/detail/boussinesq_impl.hpp: calc_dtht_e, update_rhs, normalize_vip, vip_rhs_impl_fnlz", "libmpdata++/solvers/detail/mpdata_rhs_vip_prs_common.hpp", "libmpdata++/solvers/detail/mpdata_osc_2d.hpp", "libmpdata++/solvers/detail/mpdata_osc_3d.hpp"]}
{"id": "C64", "title": "Subgrid-scale forces leave the flow non-divergent and, on cyclic domains, conserve momentum", "statement": "An incompressible solver with a subgrid-scale model, run for any number of steps, holds after each step velocities (and uses in each step advectors) that are non-divergent within the pressure solver's tolerance, whatever forces the model adds. On cyclic domains scalars without net source keep their G-weighted totals, and with uniform density and no absorber total momentum changes in each step by exactly the time step times the net force of the model; with the constant-viscosity and the Smagorinsky models (compact differencing) it does not change at all. Each step's velocities obey the discrete momentum equation with the model's force.", "quantifier": "any number of dimensions, grid size, boundary kinds (for non-divergence), force depending on the whole state and on the step, initial velocities, time steps, number of steps, content of halos and temporaries", "why_tests_cant": "a drift of momentum or divergence depends on the flow, the viscosity, the options and the number of steps; a test runs a few", "anchors": ["libmpdata++/solvers/detail/mpdata_rhs_vip_prs_sgs_common.hpp: vip_rhs_expl_calc", "libmpdata++/solvers/detail/mpdata_rhs_vip_prs_sgs_dns.hpp: multiply_sgs_visc", "libmpdata++/solvers/detail/mpdata_rhs_vip_prs_sgs_smg.hpp: multiply_sgs_visc", "libmpdata++/formulae/stress_formulae.hpp: calc_deform_cmpct, calc_stress_rhs_cmpct", "libmpdata++/solvers/detail/mpdata_rhs_vip_common.hpp: hook_ante_step", "libmpdata++/solvers/detail/mpdata_rhs_vip_prs_common.hpp"]}
{"id": "C65", "title": "Incompressible solvers give the same results on any number of threads and never lock up", "statement": "A whole run (any number of steps) of a two-dimensional solver with right-hand sides, prognosed velocities and a pressure solver (minimal-residual or conjugate-residual) ends with the same fields whatever the number of threads and however they interleave. The number of passes of the pressure solver depends on data and every thread tests convergence on its own, but all threads always take the same decision, so no thread waits at a barrier that another one never reaches, and a run can always be completed.", "quantifier": "all numbers of threads, all interleavings, grid sizes, boundary conditions, forcings, right-hand-side schemes, numbers of equations, pressure solvers and tolerances, numbers of steps and (not associative, rounding) arithmetic", "why_tests_cant": "an interleaving that exposes a missing barrier or makes two threads decide differently may occur once in millions of runs", "anchors": ["libmpdata++/solvers/detail/mpdata_rhs_vip_prs_common.hpp: pressure_solver_update, lap, vip_rhs_impl_fnlz", "libmpdata++/solvers/detail/mpdata_rhs_vip_prs_mr.hpp: pressure_solver_loop_body", "libmpdata++/solvers/detail/mpdata_rhs_vip_prs_gcrk.hpp: pressure_solver_loop_body", "libmpdata++/solvers/mpdata_rhs.hpp: update_rhs, apply_rhs, hook_ante_step, hook_post_step", "libmpdata++/solvers/detail/mpdata_rhs_vip_common.hpp: hook_ante_step, hook_post_step", "libmpdata++/concurr/detail/sharedmem.hpp: sum, min, max, barrier", "libmpdata++/solvers/detail/solver_common.hpp: solve"]}
{"id": "C66", "title": "Solvers with forced equations and prognosed velocities compute the intended time stepping, formula by formula", "statement": "After any number of steps of a cyclic solver with right-hand sides and prognosed velocities every field equals what the documented formulae give: Courant numbers from velocities (momentum divided by density where it applies) extrapolated half a step ahead with weights for varying step lengths and averaged to faces with the G-factor; time derivatives of the advector from divided differences over the last steps; right-hand sides applied as Euler-backward-in-advection, Euler-forward or trapezoidal; the velocity absorber explicit or Crank-Nicolson; every equation advected exactly once per step with the same advector. The order of hooks, the storage of earlier velocities, halos and the order of equations have no influence.", "quantifier": "1, 2 and 3 dimensions, grid sizes, all advection options, numbers of passes, forcings, right-hand-side schemes, absorbers, time-step sequences with any number of trial steps, initial fields and contents of memory, numbers of steps", "why_tests_cant": "a wrong weight or a velocity taken from the wrong step shows only for particular sequences of step lengths, schemes and options, as a loss of accuracy", "anchors": ["libmpdata++/solvers/detail/mpdata_rhs_vip_common.hpp: extrp, fill_stash, vip_stash, calc_gc, calc_ndt_gc, hook_ante_step, hook_post_step, vip_rhs_impl_fnlz, vip_rhs_expl_calc, vip_rhs_apply", "libmpdata++/solvers/mpdata_rhs_vip.hpp: interpolate_in_space, extrapolate_in_time", "libmpdata++/solvers/mpdata_rhs.hpp: update_rhs, apply_rhs, hook_ante_step, hook_post_step", "libmpdata++/solvers/detail/solver_common.hpp: solve"]}
{"id": "C67", "title": "Incompressible solvers compute the intended semi-implicit scheme, formula by formula", "statement": "If a run of an incompressible solver on a periodic domain reaches the end of a step, then the fields in memory are those of the documented scheme: initial velocities made non-divergent by subtracting a gradient; first potential minus kinetic energy up to a constant; in every step half of the kept force (pressure gradient, absorber) added before advection, right-hand sides by the chosen scheme, every equation advected once with velocities extrapolated half a step ahead, half of the new force after it, the new force being minus the centred gradient of the new potential over half a time step plus the relaxation by the implicit absorber of the new velocity; the new velocity non-divergent within the tolerance. Only the potential, which the iteration finds, is left open; it determines everything else.", "quantifier": "2 and 3 dimensions, grid sizes, all advection options, numbers of passes, forcings, right-hand-side schemes, absorbers, tolerances, iteration limits, time-step sequences, initial fields and contents of memory, numbers of steps", "why_tests_cant": "errors in factors of one half, in the step a force is taken from or in the order of projection and absorber leave results plausible and show only as loss of accuracy or for particular options", "anchors": ["libmpdata++/solvers/detail/mpdata_rhs_vip_prs_common.hpp: pressure_solver_update, pressure_solver_apply, ini_pressure, hook_ante_loop, vip_rhs_impl_fnlz", "libmpdata++/solvers/detail/mpdata_rhs_vip_common.hpp: normalize_vip, add_relax, vip_rhs_apply", "libmpdata++/solvers/mpdata_rhs_vip.hpp", "libmpdata++/solvers/detail/mpdata_rhs_vip_prs_mr.hpp: pressure_solver_loop_body"]}
{"id": "C68", "title": "Halo exchange between processes by several threads of each process", "statement": "When the processes of a distributed run have several threads, the thread of lowest rank exchanging with the left and the one of highest rank with the right neighbour, then for every schedule of threads and every timing of messages, with both communicating at the same time or one after the other: after each call all exchanged arrays (a call may exchange more than one, scalar or face fields) hold in their halos the values of the serial cyclic run, exactly as if each process had one thread; the run cannot deadlock, always ends, and leaves no message behind; messages cover the whole range of the process across x whatever the numbers of threads, agree in extent at both ends, and do not overrun their buffers for halos of up to three points.", "quantifier": "numbers of processes and threads, grid sizes and halos (each process at least as wide as the halo), sequences of calls and computations between them, thread schedules, message timings", "why_tests_cant": "depends on thread schedule and message timing, and on combinations of process and thread counts", "anchors": ["libmpdata++/bcond/remote_3d.hpp: xchng, send, recv, fill_halos_sclr, fill_halos_vctr_alng, fill_halos_sgs_vctr", "libmpdata++/bcond/detail/remote_3d_common.hpp: extend_idx", "libmpdata++/bcond/detail/remote_common.hpp: remote_common, xchng", "libmpdata++/solvers/detail/solver_3d.hpp: xchng_sclr, xchng_vctr_alng, xchng_vctr_nrml, xchng_pres, xchng_sgs_tnsr_offdiag, barrier_if_single_threaded_bc0", "libmpdata++/solvers/detail/solver_common.hpp: set_bcs, extend_range"]}
{"id": "C69", "title": "Advancing a solver runs all of its domain, whatever other solvers the program has made", "statement": "In a program that makes any number of solvers of any of the concurrency classes, one after the other and on any grids, and advances them in any order, each call of advance runs every subdomain of its solver exactly once; the subdomains run cover every grid point exactly once; barriers and reductions over threads count exactly the subdomains run; there is at least one subdomain and there are no more of them than grid points; and each condition at an end of the domain is handled by the one subdomain that lies there.", "quantifier": "sequences of constructions and advances, concurrency classes, dimensions, grid sizes, OMP_NUM_THREADS and numbers of hardware threads, order of evaluation of constructor arguments", "why_tests_cant": "depends on the history of the whole program and on its environment; tests make one solver, or solvers on equal grids", "anchors": ["libmpdata++/concurr/openmp.hpp: size, solve, openmp", "libmpdata++/concurr/boost_thread.hpp: size, solve, boost_thread", "libmpdata++/concurr/cxx11_thread.hpp: size, solve, cxx11_thread", "libmpdata++/concurr/serial.hpp: size, solve, serial", "libmpdata++/concurr/detail/concurr_common.hpp: init, advance", "libmpdata++/concurr/detail/sharedmem.hpp: sharedmem_common, min, max", "libmpdata++/bcond/shared.hpp: shared"]}
{"id": "C70", "title": "Eddy diffusion moves heat but creates none, and only the ground adds to it", "statement": "In the Boussinesq solvers with the Smagorinsky model (isotropic or anisotropic), the heating computed in each time step from any temperature and deformation sums over the domain to exactly the prescribed heat flux summed over the ground; inside the domain heat flows from warm to cold, in proportion to the temperature difference and to an eddy viscosity that is a number, is never negative and vanishes where the Richardson number reaches the Prandtl number; with an insulated ground mixing never increases the variance of temperature nor heats the warmest point; nothing depends on what the temporary arrays held before.", "quantifier": "temperature and deformation fields, densities, mixing lengths, grid sizes and steps, numbers of dimensions, cyclic or walled sides, ground or wall below, sky or wall above, previous contents of memory", "why_tests_cant": "an exact budget over all fields and boundary combinations; tests run one boundary layer and compare statistics", "anchors": ["libmpdata++/solvers/detail/boussinesq_sgs_common.hpp: multiply_sgs_visc, calc_rcdsn_num", "libmpdata++/formulae/stress_formulae.hpp: multiply_vctr_cmpct, flux_div_cmpct, calc_tdef_sq_cmpct", "libmpdata++/formulae/nabla_formulae.hpp: calc_grad_cmpct", "libmpdata++/bcond/gndsky_2d.hpp: fill_halos_sgs_vctr", "libmpdata++/bcond/gndsky_3d.hpp: fill_halos_sgs_vctr"]}
{"id": "C71", "title": "Viscous stresses only redistribute momentum; drag on the ground is the only sink, and energy is never created", "statement": "In the incompressible solvers with a subgrid-scale model and compact differencing, in a domain with cyclic or walled sides, ground or wall below and sky or wall above, the forces computed in a step change the total of each horizontal momentum component along cyclic sides by exactly minus the surface stress summed over the ground; that stress is drag coefficient times density times wind speed times wind component; without drag the total is conserved. With uniform density the total work of the forces is minus the work against the drag minus a sum of nonnegative viscous dissipation terms, hence never positive. The eddy viscosity is a function of the deformation of the flow (and of the stratification in the Boussinesq solvers, where it is the viscosity of the heat equation); the anisotropic model differs from the isotropic one in the length scales only: vertical for vertical shear, horizontal for everything else.", "quantifier": "velocities, densities, drag coefficients, viscosities, grid sizes and steps, numbers of dimensions, boundary kinds on every side, previous contents of memory", "why_tests_cant": "exact budgets over all flows and boundary combinations, including what the halo exchanges put at edges and corners; tests compare a few profiles with a reference", "anchors": ["libmpdata++/solvers/detail/mpdata_rhs_vip_prs_sgs_common.hpp: vip_rhs_expl_calc, calc_drag_cmpct", "libmpdata++/solvers/detail/mpdata_rhs_vip_prs_sgs_dns.hpp: multiply_sgs_visc", "libmpdata++/solvers/detail/mpdata_rhs_vip_prs_sgs_smg.hpp: multiply_sgs_visc", "libmpdata++/solvers/detail/mpdata_rhs_vip_prs_sgs_smgani.hpp: multiply_sgs_visc", "libmpdata++/solvers/detail/boussinesq_sgs_common.hpp: multiply_sgs_visc", "libmpdata++/formulae/stress_formulae.hpp: calc_drag_cmpct, calc_deform_cmpct, multiply_tnsr_cmpct, calc_stress_rhs_cmpct", "libmpdata++/solvers/detail/solver_2d.hpp: xchng_sgs_tnsr_offdiag", "libmpdata++/solvers/detail/solver_3d.hpp: xchng_sgs_tnsr_offdiag", "libmpdata++/bcond/gndsky_2d.hpp: fill_halos_sgs_vctr"]}
{"id": "C72", "title": "Progress reporting stays within its buffer and keeps the thread names", "statement": "Whatever the calls of advance() made before, whatever the lengths of the thread names and whenever the run is stopped, writing the percentage of the run into the name of each thread touches no memory outside the buffer used, and each thread shows the first ten characters of its name followed by its own last percentage, complete.", "quantifier": "histories of advance() calls with fixed or adaptive time steps, stop requests, thread names, interleavings of the threads", "why_tests_cant": "an overrun by a byte on the stack is silent, and needs an unusual ratio of time step and requested time", "anchors": ["libmpdata++/solvers/detail/monitor.hpp: monitor", "libmpdata++/solvers/detail/solver_common.hpp: solve"]}
