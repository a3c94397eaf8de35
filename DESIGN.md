# Formal model of libmpdata++ in Lean 4 — design

## 1. What is proved about what

The C++ templates in `/repo/libmpdata++` are modelled, function by function, as
total computable Lean functions (`lean/Verif/Model/*.lean`, every definition
carries the file and lines it models).  Properties (`properties.jsonl`,
C01...) are stated in `lean/Verif/Props/*.lean`, in terms of the model functions
and of small independent specifications (`lean/Verif/Spec/*.lean` or in-line
quantified statements), and proved with helper lemmas from
`lean/Verif/Lemmas/*.lean`.

### Trusted base
* Lean 4.33.0 kernel. Axioms: at most `propext`, `Classical.choice`, `Quot.sound`
  (checked by `#print axioms`, listed per theorem at the end of this file).
  No `sorry`, no own axioms, no `native_decide`/`bv_decide`.
* The reading of the C++ (the code is not executed here). Each model definition
  cites its source; simplifications are named in its comment.
* Real arithmetic: `real_t` is modelled by an arbitrary linearly ordered field
  `K` (so theorems hold over ℚ and ℝ).  Rounding, overflow, NaN/Inf are NOT modelled.
  Exception: statements on reproducibility (threads, reductions, MPI halos) are
  proved for an arbitrary carrier type with arbitrary operations, so they hold for
  IEEE floats as well.
* Integers: `int`/`size_t` are unbounded `Int`/`Nat` except where the property is
  about wrap-around (`arrvec_t::operator[]`, barrier generation counter) where
  modular arithmetic is explicit.
* Blitz++ whole-range assignment `a(r) = expr` is modelled as: evaluate `expr` for
  every index in `r` on the old state, then store. This is the
  semantics when the assigned array is not read at shifted indices on the right-hand side, which
  is the case everywhere it is used here.
* Arrays are functions `Int → K` (`Int → Int → K`, ...). Allocation bounds are a
  separate notion, used in the halo-sufficiency property (C20).

### Not modelled
Floating-point rounding; template metaprogramming itself (compile-time option
selection becomes an `if` on the option mask); blitz expression templates;
memory allocation and lifetimes; real MPI, OpenMP and HDF5 libraries (MPI appears as
abstract matched messages); gnuplot rendering; timers; the
`mpdata_rhs_vip_prs_*` preconditioned solver `_pc` (does not compile when instantiated as written); the averaging of edge values over MPI (`copy_edge_sclr_to_halo1_cyclic`).

## 2. Plan per property

| id | model | proof |
|---|---|---|
| C01 | `slabMin/slabMax/slab` with truncating integer division | div/mod arithmetic; cover by monotone staircase |
| C02 | solver state (per-equation `n[e]`, global `n`, buffers as write-log) driven by `advop`/`cycle`; `arrvec` index modulo 2^64 | invariant by induction over steps |
| C03 | `solve` loop as fuel-free recursion over remaining steps with an abstract step | induction |
| C04 | event trace of one step | list lemmas on filtered ranges |
| C05 | `solve` with panic oracle | induction: state = step^k init |
| C06 | `solve` var_dt with dt oracle; `courant_number`, `scale_gc`, `hook_ante_loop` in 1-D (Model/VarDt) and N-D (Model/VarDtN) | induction on fuel; field algebra; in N-D scaling commutes with the halo filling, and the run that follows is the reference scheme with the scaled advector |
| C07 | `scale` | field algebra, integer powers of two |
| C08 | donor-cell 1D/2D/3D | telescoping sums over `Finset`/list ranges |
| C09–C10 | same | ordered-field inequalities |
| C11 | `negpart/pospart` variants, Kahan accumulator | case split; invariant c = 0 |
| C12 | full `advop` 1D/2D/3D with option mask | invariant: each pass is a flux-form update with periodic fluxes |
| C13 | same restricted to non-iga | bound on antidiffusive velocities from bounds on the velocities they are computed from, by induction over the passes; for the divergence form the same with the bound on the flux divergence, and a witness that the usual bound does not suffice |
| C14–C16 | `fct_init`, `beta_up/dn`, `GC_mono` | inequalities on limited in/outflow |
| C17 | buffer naming functions | parity induction |
| C18 | antidiff formulae | evaluation on constant fields |
| C19 | same | homomorphism proofs |
| C20 | footprint statement: two memories agreeing on the allocated ranges give the same interior result, for every combination of boundary kinds (`Props/HaloBc.lean`) | congruence lemmas; every halo filling is local (reads only allocated or already filled values) |
| C21–C24 | halo fill functions with the ranges of `bcond_common` | index arithmetic (omega), Int.emod |
| C25 | barrier transition system | inductive invariant over reachable states |
| C26 | parallel phases as interleavings of per-index writes | commutation/confluence; instantiation for the 1-D, 2-D and 3-D programs; in 3-D, assignments overwritten later in the phase are erased first and corner values nobody reads are left out |
| C27 | reduction code | induction, list append |
| C28–C29 | per-process arrays, messages as (sender, tag, payload) | index arithmetic; progress measure |
| C30 | `mpdata_rhs` hooks | symbolic evaluation, induction over equations |
| C31–C32 | `extrp`, stash slot function | field algebra; invariant over step parity |
| C33 | absorber functions | convexity |
| C34 | MR / GCRK loops over an abstract inner-product space of grid functions | invariant "err is the residual", exact line-search optimality |
| C35 | `max_abs_vctr_div`, check | order lemmas |
| C36–C38, C40 | output schedule state machine | arithmetic, list filters |
| C39 | hyperslab extents, zero-padded names | arithmetic, digits injectivity |
| C41–C42 | nabla/stress operators | summation by parts |
| C43–C44 | rhs functions; C44 also in whole runs of `Model/BsqProg.lean`, with the buoyancy filter over whole columns (`Props/BsqFilter.lean`) | field algebra; for runs, the state after every step is followed through the hooks |
| C45 | bit mask functions | `Nat.testBit`, finite table |
| C46 | permutations, wrap-around index | omega / BitVec-free modular arithmetic |
| C47 | range functions | omega on slabs |
| C48 | descriptor functions | evaluation |
| C49 | in-place donor-cell update of one cell | case split on `khn` |
| C50 | rigid-wall exchanges in the N-D array program | method of images: the run equals the run on the mirror-extended field of doubled period; reflection equivariance of every formula |
| C56–C57 | array programs on samples of smooth solutions (`Spec/Taylor`, `Spec/Accuracy1`; in 2-D and 3-D `Spec/AccuracyN`, Taylor series in several variables) | calculus of Taylor coefficients of grid functions (averages and differences as operations on coefficients, `Lemmas/Jet`, `Lemmas/Series1`), coefficient identities by ring normalisation; in 2-D and 3-D the same with commuting derivations of a power-series ring (`Lemmas/Hx`, `Gx`, `AccGrid`, `AccStepN`), the expansions of the corrective velocities in `Lemmas/Vel2`, `Vel3` (shifts of arrays unfolded in the generated `Lemmas/Shift23`), then locality and translation of a step (`Lemmas/AccRefN`) and C21 |
| C58 | rigid-wall exchanges in the N-D array program | refinement to the unbounded grid on mirror-extended fields, which reflection-equivariance of every formula keeps mirror-symmetric |
| C59 | 1-D, 2-D and 3-D array programs, cyclic and rigid boundaries | every formula commutes with axis permutations and reversals (generated lemma tables, `tools/gen_refl.py`, `gen_refl1.py`, `gen_tr.py`), induction over passes and steps, refinement |
| C51 | every statement of the 2-D `vip_rhs_expl_calc` (vip gradients, Padé iteration, halo exchanges, deformation, viscosity, divergence) as per-thread work lists between barriers, values opaque | ownership argument: within a phase no thread reads or writes a cell another thread writes (`_partial`); with compact differencing in cyclic domains the racing copy is erased and the outcome followed off a set of undetermined locations until the next exchange overwrites them (`C51_threads_sgs_2d_cyclic`); race exhibited as two executions with different forces |
| C52 | compact stress operators | summation by parts |
| C53 | `calc_tdef_sq`, `smg` viscosity | evaluation, counterexample |
| C54 | array programs, all option sets | translation of polynomials: Taylor tables on monomials, induction over steps |
| C55 | array programs over ℝ | limits of the rational corrective formulae, continuity, induction over passes and steps |
| C61 (and C43 for whole runs) | the time loop of `solve` with the hooks of `mpdata_rhs` and `mpdata_rhs_vip` and the advection programs as one program over explicit memory (`Model/VipProg.lean`, written once for 1-D, 2-D and 3-D), shallow water on top of it (`Model/SwProg.lean`) | simulation by the same loop on the unbounded grid, invariants of the latter (linear functionals, predicates kept by advection, rest); budgets of forced equations: `Spec/VipBudget.lean` defines the source at a point, `Props/VipBudget.lean` follows the total through the hooks; boxes with rigid walls (`Model/VipBox.lean`): the content of a scalar follows its right-hand side as long as no flow crosses the walls; rest with rigid and open boundaries (`Props/VipStill.lean`): at rest the advector vanishes at every face next to the grid, and advection without flow changes nothing |
| C62 | the program of C61 with the hooks of `mpdata_rhs_vip_prs_common` and the pressure schemes `mr`, `cr`, `gcrk` (`Model/PrsProg.lean`; search directions, coefficients and step length are kept from one solve to the next as in the code), halo fillings of cyclic, rigid and open boundaries (`Model/Fills.lean`), specification of the divergence on a finite grid in `Spec/FlowDiv.lean` | the pressure solver stops only with a small residual (C34: pointwise for `mr` and `cr`, in the L2 norm for `gcrk`; `Spec/PrsTol.lean` states the resulting bound), which is the divergence of the corrected velocity; frames for everything between two solves; algebra of interpolation against halo filling; simulation on the unbounded grid for cyclic domains; rest: zero residual is accepted at once, so a run exists for every number of steps; totals in a closed box: the velocities are odd across the walls, so that the transport of C50 applies to every scalar (`Lemmas/BoxRun.lean`, `Props/BoxRun.lean`), and the heat budget of C63 follows with the equations of C44 |
| C63 | the advection program of C12 with the halo fillings of every boundary kind; `boussinesq_common`, `boussinesq_expl`, `boussinesq_impl` on top of the program of C62 (`Model/BsqProg.lean`); specification of the coupled implicit equations in `Props/Boussinesq.lean` (`forceW`, `forceTht`) | zero advectors stay zero through halo filling and antidiffusive velocities, so that each pass is the identity; invariant of rest (zero velocities and stored tendencies, pressure constant) through every hook; non-divergence from C62, generalised to a normalisation of velocities and a correction after the pressure solver supplied by the derived class; heat contents of closed boxes (`Props/BoxRun.lean`, `Props/BoxBsq.lean`): totals through advection as in C62, sources from the coupled equations of every step |
| C64 | `mpdata_rhs_vip_prs_sgs_common::vip_rhs_expl_calc` on top of the program of C62 (`Model/SgsProg.lean`): an arbitrary force, and the forces of the `dns` and `smg` models with compact differencing from the formulae of C42. Drag at the surface (`cdrag`) is not part of this program (see C71); on cyclic domains the halo exchanges inside the calculation of forces are represented by the periodic extension | the invariants of C62 do not depend on the tendencies, so they hold for every force; momentum budget by a simulation on periodic fields (`Cyc.runF`), net force zero by summation over a period (C42) |
| C65 | `solve` with the hooks of a 2-D solver derived from `mpdata_rhs_vip_prs` as run by several threads (`Model/ThreadPrs.lean`): every array statement assigns the columns of the thread and names what it may read, right-hand sides are arbitrary functions of that; every thread has its own copy of the scalars of the pressure solver and branches on it; reductions as in C09 (partial results per column, a barrier, every thread combines). Absorber, boundary kinds, forcings and tolerance are inside the arbitrary functions; `mixed` scheme, variable time step and subgrid-scale models are not modelled | phases between barriers are race free and keep the copies of scalars equal (invariant), hence decisions agree; induction over the program |
| C66 | the program of C61 against `Spec/VipScheme.lean`, a step written as formulae on the unbounded grid with no hooks, stash or halos | C61 reduces the program to the same loop on the unbounded grid; there an invariant relates stash, stored right-hand sides and derivatives to the fields of earlier steps; induction over steps |
| C67 | the program of C62 on periodic domains against `Spec/PrsScheme.lean`: one step as formulae on the unbounded grid, the potential left open; advection, extrapolation and right-hand sides as in C66 | invariant: memory related to the unbounded grid (C61) where the fields, the kept force and the earlier velocities are those of a history of the scheme; the new force is obtained from the velocities the pressure solver leaves; induction over steps |
| C68 | the asynchronous exchange of C28 with two communicating threads per process, barriers of the process between calls, any number of exchanges per call; extents, buffers (`Model/MpiThreads.lean`) | invariant relating every reachable state to the run with one thread per process; progress by a global order of links; measure for termination |
| C69 | constructors, `mem_t::size` and `solve` of the four concurrency classes as operations on one program state: OpenMP's number of threads, solver objects, log of the subdomains each `advance` has run (`Model/Backends.lean`) | induction over the program; tiling from C01 |
| C70 | `multiply_sgs_visc` of boussinesq_sgs_common.hpp statement by statement on one subdomain with its exchanges, for any number of dimensions (`Model/SgsHeat.lean`); the viscosity formula also over numbers with infinities and NaN | summation by parts on each grid line with half weights at the ends, the fillings of C60 giving the boundary terms; viscosity and Richardson number read off the program |
| C71 | `vip_rhs_expl_calc` of mpdata_rhs_vip_prs_sgs_common.hpp with compact differencing and the `multiply_sgs_visc` of the `dns`, `smg` and `smgani` models and of the Boussinesq solvers (which do not exchange the diagonal components again), statement by statement on one subdomain with all its exchanges and the surface stress, for any number of dimensions (`Model/SgsDrag.lean`) | what the two-dimensional filling of the off-diagonal components leaves across every end (also at corners of cyclic and walled dimensions); summation by parts with half weights on the boundary; moving averages from stress to velocity so that stress times strain appears on every edge; for the Boussinesq solvers that deformation, with everything the exchanges add at corners, and hence viscosity take the same values at both ends of cyclic dimensions |
| C72 | `monitor` with its buffer as indexed memory, the kernel's 16-byte names, the `static` length, and the calls in the time loop (`Model/Monitor.lean`); rounding to `float` is any monotone function within a factor of two | bounds of the percentage by induction over the time loop (fixed steps with any stop requests; adaptive steps with `out_intrp_ord <= 1`), number of decimal digits, then the bytes written; names by induction over the calls of all threads. False for `out_intrp_ord = 2` (`C72_fails_interpolated`) |
| C60 | `fill_halos_*` of every boundary kind in 2-D and 3-D (`Model/Fills.lean`), all `xchng_*` methods, one subdomain, any kind on any side | frame lemma per filling, folded over the dimensions; for stale values, agreement of two memories on a zone that grows by one dimension per filling; for the values, a field that continues the domain as the boundary kinds demand (`Spec/FillValues.lean`) is a fixed point of every filling |

Properties found false of the code at some inputs are kept at full strength in this file, their
negation is proved with a concrete witness (`..._fails`) and the part that
holds is proved as `..._partial` (see section 3).

## 3. Disagreements between code and property (found while reading/modelling)

Each item names the theorem that exhibits the disagreement on the model. Items without a theorem name were noticed while reading and are not modelled.

Solver loop and options
* `delayed_step` bits beyond the number of equations make read-outs address the wrong level: `C02_fails_for_mask_beyond_equations`.
* `advance(0)` as first call runs the start hook, which is repeated by the next call (`C03_start_hook_repeats_after_advance_zero`); step 0 is recorded twice (`C36_fails_after_advance_zero`); with variable dt it makes steps (`C06_advance_zero_steps`).
* `opts_string` omits `div_3rd_dt`: `C45_opts_string_not_injective`.
* The loop that adapts dt need not terminate (`C06_adapt_may_not_terminate`); the 1-D Courant number sums signed faces and ignores G (`C06_courant1_blind_to_opposing_faces`).
* `hint_scale` changes results with `fct` or without `pfc`: `C07_fails_with_fct_or_without_pfc`.
* `arrvec_t` with an index below `-size` selects the wrong component unless the size is a power of two: `C46_arrvec_wrap_fails_below_minus_size`.

Advection
* `div_2nd`/`div_3rd` with three or more passes and no `fct` read faces of the corrective velocity that were never exchanged: `C20_fails_div2_three_passes`, conservation is lost: `C12_fails_div2_three_passes`.
* `div_3rd` with `fct`, three passes and a boundary that is not cyclic: the exchange of the corrective velocity across its own direction (`xchng_vctr_nrml` with extension 0, mpdata_fct_2d.hpp:59) does not fill the corners, and the third pass reads them. One step in an open channel with uniform flow depends on leftovers in the temporary arrays: `C20_fails_div3_three_passes` (`Props/HaloDiv3.lean`; the arrays after each stage are tabulated and every table is checked by the kernel).
* `div_3rd` with `exact` or `aver2` interpolation does not preserve constants in non-uniform non-divergent 2-D flow: `C18_fails_div3_nonuniform_2d`.
* In-place donor-cell advection with `khn` loses the field: `C49_khn_loses_field*`.
* In 2-D the `div_3rd_dt` formula (formulae_mpdata_2d.hpp:210-239) weights the second time derivative of the Courant numbers as for mid-step values even if they are announced as extrapolated, unlike in 3-D; third order is lost: `C57_fails_div3dt_linear2_2d`.

Boundary conditions
* Cyclic exchange needs halo <= period: `C21_needs_halo_le_period`.
* Open x with cyclic y leaves corner cells divergent (`C22_open_cyclic_corner_divergent`) so that uniform flow is rejected (`C22_open_cyclic_uniform_flow_rejected`); the right 1-D advector halo copies the wrong face (`C22_fails_open_1d_right_halo2`).
* In divergence form (`div_2nd`) the antidiffusive velocity is not bounded by the Courant number: where air leaving a cell on both sides meets fast air from the other direction, the second pass takes more out of the cell than it holds, although all outflows are at most one (`C13_fails_div2_1d`).
* The rigid right wall fills corrective velocities off by one (`C23_fails_rigid_ad_right`); with `fct` this loses mass and breaks the mirror symmetry (`C50_fails_fct_right_wall`, `C58_fails_fct_right_wall`), while the bounds of C13-C15 survive (`C15_fct_global_range_any_bc_2d`).
* 2-D open left side: the second pressure halo line is written by `set_edge_pres`, after the edge value was replaced, instead of by `fill_halos_pres` (open_2d.hpp:62-72; the right side and 3-D write it in `fill_halos_pres`), so the exchange leaves the old content there: `C60_fails_pres_open_left`.
* `xchng_sgs_div` with a rigid right wall in a lateral dimension overwrites the last column of the cell-centred divergence inside the domain and leaves the halo column unfilled: `C60_fails_sgs_div`.
* At the ground, the diagonal stress is rebuilt from the velocity after the multiplication by the viscosity as well as before it (mpdata_rhs_vip_prs_sgs_dns.hpp:31-34, gndsky_2d.hpp:51-61), so the value below the ground is not multiplied by the viscosity (`C60_ground_tnsr_ignores_viscosity`).
* Polar: even numbers of longitudes (`C24_fails_even_longitudes`), halo 3 (`C24_fails_polar_vctr_halo3`), right transverse advector off by one (`C24_fails_polar_vctr_nrml_right`). In 3-D with the poles in the second dimension the neighbour across the pole is looked up in the third dimension instead of the longitude (`C24_fails_polar_3d_second_dim`).

Concurrency
* 3-D: the number of threads is checked against dimension 0 although dimension 1 is divided; with MPI against the global size: `C01_fails_3d_ctor_checks_wrong_dimension`, `C01_fails_mpi_ctor_checks_global_size`.
* The barrier generation is a 32-bit counter: `C25_fails_after_2_pow_32`; a barrier built for another number of threads deadlocks: `C25_3d_threshold_mismatch_deadlock`.
* `openmp`: every constructor calls `omp_set_num_threads`, and `solve` runs as many threads as were set last, by whichever solver (openmp.hpp:37-52, 64-74): making a second solver on a smaller grid lets the first one advance only part of its domain, on a larger one lets it run subdomains that do not exist (`C69_fails_openmp_second_solver`, `C69_fails_openmp_second_solver_larger`). In 3-D even a single solver is affected if arguments are evaluated from right to left (`C69_fails_openmp_3d_evaluation_order`), and the array of reductions has another length than the number of threads (`C69_fails_reductions_3d`, `C69_fails_reductions_3d_overrun`).
* The plain Smagorinsky model evaluates the squared deformation after the deformation tensor has been given the surface stress as its value on the ground (mpdata_rhs_vip_prs_sgs_common.hpp:126-130), so the viscosity there depends on the drag coefficient even where the flow has no deformation: `Drag.C71_fails_viscosity_from_flow`. The Boussinesq version overwrites the viscosity on the ground.
* Boussinesq with the Smagorinsky model: where the flow is at rest (no deformation) and the stratification unstable, the Richardson number is minus infinity and the viscosity NaN, which then spreads (boussinesq_sgs_common.hpp:31-47, 79-84): `C70_fails_at_rest`; with neutral or stable stratification it is 0.
* With `OMP_NUM_THREADS` zero or not a number, `advance` silently does nothing: `C69_fails_no_threads`.
* 2-D and 3-D `fct` without `iga` has a data race on the flux array: `C26_fails_fct_2d`, `C26_fails_fct_3d`.
* 3-D `xchng_vctr_nrml`: without `div_3rd` there is no barrier between the fills of dimension 1 and of dimension 2 (solver_3d.hpp), so two threads write the same corner values of component 0 of the antidiffusive velocity; those that stay schedule-dependent are never read for the field (`C26_threads_3d_partial`).
* Compact differencing with the Smagorinsky viscosity: `multiply_sgs_visc` computes the viscosity from, and multiplies by it, stress and viscosity values the neighbouring thread computes in the same phase, with no barrier in between; two executions give different forces: `C51_fails_compact_smg`.
* `xchng_sgs_div` has no barrier between the fills of the last dimension by all threads and the cyclic copy of columns `1 ... halo` to the right halo by the last thread (`solver_2d.hpp:108-111`): a data race on the first and last rows. It is harmless for the forces: `C51_threads_sgs_2d_cyclic`.
* MPI parts not wider than the halo exchange stale values: `C28_fails_narrow`.
* Buffers of the 3-D exchange are sized for halos of at most three points; with `minhalo` of four or more the exchange of any advected field overruns them: `C68_buffers_wide_halo_fails`.

Right-hand sides, velocities, pressure
* `trapez` adds, before advection, the right-hand side computed from the fields before the previous half step: `C30_trapez_uses_previous_rhs`.
* A cell that dries out between steps gets minus a multiple of its old velocity: `C31_drying_cell_velocity_reversed`.
* With a density variable and `div_3rd` the time derivatives of the advector subtract a stored velocity from the undivided momentum (mpdata_rhs_vip_common.hpp:292-325), so that they are wrong even in steady uniform flow: `C31_fails_derivative_with_density`. The flow is not disturbed by them there (`C61_uniform_flow_*` holds with `div_3rd`), because wrong values that are the same everywhere move nothing.
* `shallow_water` asserts that right-hand sides are asked for at the new time level except in step 0 (shallow_water.hpp:66-70); with `euler_a` or `euler_b` a debug build aborts in the second step: `C43_fails_assert_euler`.
* The explicit absorber is unstable for large dt*c: `C33_explicit_unstable`.
* No barrier separates `update_rhs` from `apply_rhs` in `hook_ante_step` with `euler_b` and in `hook_post_step` with `trapez` (mpdata_rhs.hpp:160-163, 185-188), although halos are filled before forcings are computed so that these may use neighbouring columns; a forcing that reads neighbours of a field it changes races with the neighbouring thread: `C65_fails_forcing_trapez`, `C65_fails_forcing_euler_b`. (The solvers of the library read neighbours only of fields whose right-hand side is zero.)
* The conjugate-residual solver stops in the L2 norm, the pointwise residual may exceed the tolerance: `C34_gcrk_pointwise_fails`; open boundary with implicit absorber: `C34_open_absorber_fails`. The pressure solver raises an error even if the last permitted iteration converges (`C34_mr_raises_iff` states the exact condition).
* Without a pressure term nothing keeps the normal velocity on a rigid wall at zero (`set_edges` belongs to the pressure solvers): a flow towards the wall is advected onto it (`C61_fails_wall_impermeable`) and from the next step on the closed box loses or gains content (`C61_fails_box_total`). `C61_box_budget_*_partial` assumes that the velocities vanish on the walls.
* Next to an open boundary where the G-factor varies the advector computed from an exactly non-divergent flow is divergent, because velocities are extrapolated linearly into the halo while G is filled with the edge value: `C62_fails_open_nonuniform_G`.
* The centred stress ignores density (`C42_centred_density_fails`); plain Smagorinsky omits the square root (`C53_smg_viscosity_fails`) and divides the mixing length by 3 in 2-D (`C53_mixing_length_2d_fails`).

Output
* `outwindow > outfreq` records twice (`C36_fails_window_beyond_freq`); the time axis is wrong for runs shorter than `outstart` and for a second `advance` (`C37_fails_*`); gnuplot announces fewer frames than are sent (`C40_fails_window_or_second_advance`); XDMF declares auxiliary variables one point too small (`C48_fails_aux`); variable dt: long steps skip multiples (`C38_fails_long_step`), the quadratic option loses consecutive crossings (`C38_fails_quadratic_consecutive`).
* C72: with adaptive time steps and `out_intrp_ord = 2` the additional step made after the requested time is counted in the percentage; if the time step is a hundred times the requested time or more, `monitor` writes past the end of `char name[17]`. With `advance(0)` at time zero the percentage is `int(0/0)`.

Noticed, not modelled: `halo(opts)` omits `fot`; no `antidiff` overload for `div_3rd` without `div_2nd`; `div_3rd` and `div_3rd_dt` together are ambiguous; `err_tol` is not updated with variable dt; `bc_set_remote_impl` passes the thread rank as `single_threaded`; `remote_1d::avg_edge_and_halo1_sclr_cyclic` has a signature nobody calls; 1-D `sum()` would use an unallocated buffer; `1 << exp` is undefined for |exp| >= 31; `mpdata_rhs_vip_prs_pc.hpp` cannot be instantiated (`precond()` is called without its argument, `lap` with three arguments of five).

## 4. Axioms per theorem

Output of `#print axioms` for every theorem of MANIFEST.json (regenerate with `tools/axioms.py`).

**propext, Classical.choice, Quot.sound** (458 theorems): C01_slab_unique_owner, C01_slab_subset, C01_slab_contiguous, C01_slab_balanced, C01_slab_nonempty_iff_ctor, C01_no_idle_thread_1d_2d, C02_advectee_is_newest, C04_each_equation_once, C04_order, C05_panic_stops_at_step_boundary, C06_steady_courant_exact_1d, C06_courant_is_max_2d, C06_courant1_blind_to_opposing_faces, C06_adapt_homogeneous, C06_adapt_terminates_accelerating, C06_adapt_may_not_terminate, C06_time_loop_steps, C06_time_loop_terminates, C06_advance_zero_steps, C06_courant_is_max_3d, C06_courant_is_max, C06_steady_courant_exact, C06_steady_run_2d, C06_steady_run_3d, C07_step_unaffected_1d, C07_program_unaffected_1d, C07_run_unaffected, C07_fails_with_fct_or_without_pfc, C07_scale_roundtrip, C07_homogeneous_unaffected, C08_conservation_1d, C08_conservation_2d, C08_conservation_3d, C08_cyclic_1d, C08_closed_1d, C08_cyclic_2d, C08_closed_2d, C08_cyclic_3d, C08_closed_3d, C09_sign_1d, C09_sign_2d, C09_sign_3d, C09_courant_bound_needed, C10_no_new_extrema_1d, C10_no_new_extrema_2d, C10_no_new_extrema_3d, C10_divergent_creates_extrema, C11_npa_pospart, C11_npa_negpart, C11_equiv_1d, C11_equiv_2d, C11_equiv_3d, C12_conservation_1d_partial, C12_fails_div2_three_passes, C12_conservation_2d_partial, C12_conservation_3d_partial, C13_fct_positive_any_bc_2d, C13_fct_positive_any_bc_3d, C13_positive_definite_1d, C13_fct_positive_1d, C13_iga_not_positive, C13_positive_div2_1d, C13_positive_div2_2d, C13_positive_div2_3d, C13_positive_definite_2d, C13_positive_definite_3d, C13_fails_div2_1d, C13_positive_definite_2d_partial, C13_positive_definite_3d_partial, C13_fct_positive_2d, C13_fct_positive_3d, C14_fct_local_bounds_1d, C14_fct_local_bounds_any_bc_2d, C14_fct_local_bounds_any_bc_3d, C14_fct_local_bounds_2d, C14_fct_local_bounds_3d, C15_fct_global_range_1d, C15_constant_stays_1d, C15_needs_fct, C15_fct_global_range_any_bc_2d, C15_fct_global_range_any_bc_3d, C15_fct_global_range_2d, C15_fct_global_range_3d, C16_limiter_weakens_1d, C16_limiter_weakens_nd, C17_advector_preserved_nd, C18_antidiff_constant, C18_constant_is_fixed_point_1d, C18_constant_is_fixed_point_2d_partial, C18_constant_is_fixed_point_3d_partial, C18_fails_div3_nonuniform_2d, C19_translation_1d, C19_sign_1d, C19_sign_needs_abs, C19_iga_linear_1d, C19_iga_shift_1d, C19_iga_linear_run_1d, C19_iga_shift_run_1d, C19_translation_2d_partial, C19_translation_3d_partial, C19_sign_2d_partial, C19_sign_3d_partial, C19_iga_linear_2d, C19_iga_linear_3d, C19_iga_shift_2d_partial, C19_iga_shift_3d_partial, C20_halo_suffices_1d_partial, C20_fails_div2_three_passes, C20_halo_suffices_all_bconds_2d_partial, C20_halo_suffices_all_bconds_3d_partial, C20_fails_div3_three_passes, C20_halo_suffices_2d_partial, C20_halo_suffices_3d_partial, C20_halo_suffices_all_bconds_run_2d_partial, C20_halo_suffices_all_bconds_run_3d_partial, C21_cyclic_1d_is_periodic_partial, C21_cyclic_sclr_exchange, C21_cyclic_vctr_exchange, C21_cyclic_2d_is_periodic_partial, C21_cyclic_3d_is_periodic_partial, C22_open_sclr, C22_open_cyclic_corner_divergent, C22_open_cyclic_uniform_flow_rejected, C22_open_edge_cells_nondivergent_3d, C22_open_vctr_1d_left, C22_open_vctr_1d_right_partial, C22_fails_open_1d_right_halo2, C23_rigid_sclr, C23_rigid_pres, C23_rigid_vctr, C23_rigid_vctr_ad_left, C23_fails_rigid_ad_right, C23_rigid_edge, C23_rigid_flux, C24_polar_neighbour_involution, C24_polar_sclr_mirror, C24_polar_vctr_alng, C24_fails_polar_vctr_halo3, C24_polar_vctr_nrml_left_partial, C24_fails_polar_vctr_nrml_right, C24_polar_sclr_mirror_3d, C24_fails_polar_3d_second_dim, Barrier.C25_no_run_ahead_partial, Barrier.C25_no_deadlock_partial, Barrier.C25_release_partial, Threads.C26_threads_1d, Threads.C26_threads_2d_partial, Threads.C26_executions_exist, Threads.C26_threads_3d_partial, Threads.C26_threads_3d_psi_partial, Threads.C26_fails_fct_2d, Threads.C26_fails_fct_3d, Threads.C27_sum_threads, Threads.C27_sum_thread_count, Threads.C27_sum_threads_mpi, Threads.C27_sum_exact, Threads.C27_sum_processes, Threads.C27_min_threads, Threads.C27_max_threads, Threads.C27_extr_processes, Threads.C27_executions_exist, Mpi.C28_messages_matched, Mpi.C28_scalar_halo, Mpi.C28_vector_halo, Mpi.C28_frame, Mpi.C28_timing_independent, Mpi.C28_run_equals_serial, Mpi.C28_donor_run, Mpi.C29_no_deadlock, Mpi.C29_no_deadlock_synchronous, Mpi.C29_terminates, Mpi.C29_completes, Mpi.C29_gather_from_owner, Mpi.C29_gather_total, Mpi.C29_set_then_gather, Mpi.C29_can_complete, C30_constant_rhs, C30_trapez_uses_previous_rhs, C31_exact_for_linear, C31_time_derivatives_exact_partial, C31_drying_cell_velocity_reversed, C31_interpolation_exact, C31_interpolation_mass_flux, C31_velocity_of_state, VP.C31_fails_derivative_with_density, C33_implicit_is_convex, C33_no_overshoot, C33_stored_forcing, C33_run_stable, C33_explicit_step, C33_explicit_unstable, Prs.C34_mr_converged, Prs.C34_mr_l2_decreases, Prs.C34_mr_raises_iff, Prs.C34_gcrk_converged_partial, Prs.C34_cr_converged, Prs.C34_gcrk_l2_decreases, Prs.C34_gcrk_pointwise_fails, Prs.C34_mr_velocity_divergence, Prs.C34_gcrk_velocity_divergence_partial, Prs.C34_cr_velocity_divergence, Prs.C34_mr_fixed_point, Prs.C34_open_absorber_fails, C35_zero_tolerance_exact, C36_recorded_steps, C37_time_axis, C38_every_multiple_once, C38_linear_convex, C38_linear_exact, C38_half_interval_suffices, C38_quadratic_exact, C38_fails_long_step, C38_fails_quadratic_consecutive, C39_hyperslabs_tile, C39_file_names_injective, C40_announced_equals_sent, C41_constant, C41_linear, C41_divergence_sums_to_zero, C41_adjoint, C41_cyclic_halo, C41_laplacian_symmetric, C41_laplacian_negative, C42_momentum_any_stress, C42_momentum_conserved, C42_momentum_conserved_dns, C42_heat_conserved, C42_momentum_centred, C42_centred_density_fails, C42_rigid_motion, C42_translation, C42_rigid_motion_centred, C42_tdef_nonneg, C42_tdef_zero, C42_vip_div_exact, C42_isotropic_expansion, C43_depth_unforced, C43_momentum_conserved, C43_pressure_flux, C43_slope, VP.C43_program_mass_1d_partial, VP.C43_program_mass_2d_partial, VP.C43_program_momentum_1d_partial, VP.C43_program_momentum_2d_partial, VP.C43_program_lake_at_rest_1d_partial, VP.C43_program_lake_at_rest_2d_partial, VP.C43_program_depth_nonneg_1d_partial, VP.C43_program_depth_nonneg_2d_partial, VP.C43_assert_trapez, VP.C43_lake_at_rest_walls_2d_partial, VP.C43_program_uniform_current_1d_partial, VP.C43_program_uniform_current_2d_partial, Bsq.C44_implicit_solves, Bsq.C44_next_half_step, Bsq.C44_implicit_unique, Bsq.C44_stable_divisor, Bsq.C44_explicit, Bsq.C44_filter_linear, Bsq.C44_filter_bounds, PP.C44_run_filter, PP.C44_run_implicit, PP.C44_run_explicit, PP.C44_env_gradient, PP.C44_run_implicit_start, PP.C44_run_explicit_start, C45_isset_combine, C45_opts_string_determines_partial, C45_opts_string_not_injective, C45_most_significant, Threads.C47_flux_faces, Threads.C47_flux_faces_1d, Threads.C47_scale_faces, Threads.C47_scale_once, Threads.C47_multiply_once, Threads.C47_extend_range, C48_fails_aux, C49_khn_loses_field, C49_khn_loses_field_2d, C49_khn_loses_field_3d, C50_fails_fct_right_wall, C50_walls_conserve_2d_partial, C50_walls_conserve_3d_partial, C50_box_conserves_2d_partial, C50_box_conserves_3d_partial, Threads.C51_threads_sgs_2d_partial, Threads.C51_threads_sgs_2d_cyclic, Threads.C51_fails_compact_smg, C52_energy_identity, C52_dissipative, C53_smg_viscosity_fails, C53_uniform_deformation, C53_mixing_length_3d, C53_mixing_length_2d_fails, C54_order_of_accuracy_1d, C54_order_of_accuracy_3d, C54_order_of_accuracy_2d, C55_infinite_gauge_is_the_limit_2d, C55_infinite_gauge_is_the_limit_3d, C55_infinite_gauge_is_the_limit_1d, C56_second_order_1d, C56_second_order_2d, C56_second_order_3d, C57_third_order_1d, C57_third_order_2d, C57_third_order_3d, C57_fails_div3dt_linear2_2d, C58_fails_fct_right_wall, C58_walls_are_mirrors_2d_partial, C58_walls_are_mirrors_3d_partial, C59_reversed_axis_1d_partial, C59_reversed_axis_2d_partial, C59_renamed_axes_2d_partial, C59_reversed_axis_3d_partial, C59_renamed_axes_3d_partial, C59_reversed_axis_walls_2d_partial, C59_renamed_axes_walls_2d_partial, C59_reversed_axis_walls_3d_partial, C59_renamed_axes_walls_3d_partial, C60_sclr_values, C60_pres_values_partial, C60_nrml_values_partial, C60_alng_values_partial, C60_sclr_no_stale, C60_sclr_idempotent, C60_nrml_no_stale, C60_alng_no_stale, C60_advector_no_stale, C60_pres_no_stale_partial, C60_sgs_vctr_edge_values, C60_ground_tnsr_extrapolates, C60_fails_sgs_div, C60_fails_pres_open_left, C60_ground_tnsr_ignores_viscosity, VP.C61_box_budget_2d_partial, VP.C61_box_budget_3d_partial, VP.C61_fails_wall_impermeable, VP.C61_fails_box_total, VP.C61_budget_1d_partial, VP.C61_budget_2d_partial, VP.C61_budget_3d_partial, VP.C61_constant_source_1d_partial, VP.C61_constant_source_2d_partial, VP.C61_constant_source_3d_partial, VP.C61_linear_damping_1d_partial, VP.C61_cyclic_is_periodic_1d_partial, VP.C61_cyclic_is_periodic_2d_partial, VP.C61_cyclic_is_periodic_3d_partial, VP.C61_totals_1d_partial, VP.C61_totals_2d_partial, VP.C61_totals_3d_partial, VP.C61_rest_1d_partial, VP.C61_rest_2d_partial, VP.C61_rest_3d_partial, VP.C61_nonneg_1d_partial, VP.C61_nonneg_2d_partial, VP.C61_nonneg_3d_partial, VP.C61_nonneg_nofct_2d_partial, VP.C61_nonneg_nofct_3d_partial, VP.C61_rest_walls_2d_partial, VP.C61_rest_walls_3d_partial, VP.C61_uniform_flow_1d_partial, VP.C61_uniform_flow_2d_partial, VP.C61_uniform_flow_3d_partial, PP.C62_box_budget_2d_partial, PP.C62_box_budget_3d_partial, PP.C62_box_total_2d_partial, PP.C62_box_total_3d_partial, PP.C62_velocity_nondivergent, PP.C62_advector_nondivergent_partial, PP.C62_advector_nondivergent_cyclic, PP.C62_advector_fixed_dt_cyclic, PP.C62_totals_cyclic, PP.C62_rest_cyclic_2d, PP.C62_rest_cyclic_3d, PP.C62_fails_open_nonuniform_G, PP.C62_momentum_equation, PP.C62_initial_pressure, PP.C63_box_heat_impl_2d_partial, PP.C63_box_heat_impl_3d_partial, PP.C63_box_tracers_impl_2d_partial, PP.C63_box_tracers_impl_3d_partial, PP.C63_box_heat_2d_partial, PP.C63_box_adiabatic_2d_partial, PP.C63_box_heat_3d_partial, PP.C63_box_adiabatic_3d_partial, PP.C63_hydrostatic_expl_2d_partial, PP.C63_hydrostatic_expl_3d_partial, PP.C63_hydrostatic_impl_2d_partial, PP.C63_hydrostatic_impl_3d_partial, PP.C63_expl_velocity_nondivergent, PP.C63_impl_velocity_nondivergent_partial, PP.C63_impl_advector_nondivergent_partial, C63_no_flow_2d_partial, C63_no_flow_3d_partial, C63_no_flow_div3_2d_partial, C63_no_flow_div3_3d_partial, PP.C64_box_budget_2d_partial, PP.C64_box_budget_3d_partial, PP.C64_velocity_nondivergent, PP.C64_advector_nondivergent_partial, PP.C64_momentum_equation, PP.C64_momentum_budget_cyclic, PP.C64_momentum_constant_cyclic, PP.C64_totals_cyclic, PP.C64_advector_nondivergent_cyclic, PP.C64_dns_momentum_constant, PP.C64_smg_momentum_constant, Threads.C65_threads_prs_2d_partial, Threads.C65_threads_decide_alike_partial, Threads.C65_threads_complete_partial, Threads.C65_fails_forcing_trapez, Threads.C65_fails_forcing_euler_b, VP.C66_scheme_1d_partial, VP.C66_scheme_2d_partial, VP.C66_scheme_3d_partial, PP.C67_semi_implicit_2d_partial, PP.C67_semi_implicit_3d_partial, PP.C67_determined_by_potential, Mpi.C68_same_as_one_thread, Mpi.C68_schedule_independent, Mpi.C68_call_fills_halos, Mpi.C68_run_equals_serial, Mpi.C68_no_deadlock, Mpi.C68_terminates, Mpi.C68_completes, Mpi.C68_can_complete, Mpi.C68_buffers_wide_halo_fails, Backend.C69_threads_run_whole_domain, Backend.C69_openmp_latest_partial, Backend.C69_openmp_roomy_grids_partial, Backend.C69_boundary_owner, Backend.C69_fails_reductions_3d, Backend.C69_fails_reductions_3d_overrun, Heat.C70_heat_budget, Heat.C70_weak_form, Heat.C70_viscosity, Heat.C70_viscosity_sign, Heat.C70_variance_decreases, Heat.C70_no_heating_of_warmest, Heat.C70_uniform_temperature, Heat.C70_no_stale, Heat.At.C70_fl_agrees, Heat.At.C70_at_rest_stable, Drag.C71_boussinesq_viscosity, Drag.C71_boussinesq_momentum, Drag.C71_boussinesq_energy, Drag.C71_drag_law, Drag.C71_momentum_budget, Drag.C71_free_slip, Drag.C71_energy, Drag.C71_anisotropy, Drag.C71_drag_opposes_wind, Drag.C71_energy_decreases, Drag.C71_fails_viscosity_from_flow, Mon.C72_in_bounds, Mon.C72_in_bounds_var, Mon.C72_shows_progress, Mon.C72_fails_interpolated

**propext, Quot.sound** (50 theorems): C01_fails_3d_ctor_checks_wrong_dimension, C02_read_write_distinct, C03_advance_composes, C03_exact_step_count, C03_start_hook_once, C06_adapt_exit_within_limit, C17_corr_does_not_alias_unco, C17_next_reads_previous, C17_advector_preserved, C17_tmp_allocated, C17_corr_does_not_alias_unco_nd, C17_next_reads_previous_nd, C21_needs_halo_le_period, C22_open_edge_cells_nondivergent_2d, C22_open_open_rim_nondivergent_2d, Barrier.C25_fails_after_2_pow_32, Mpi.C28_fails_narrow, C30_euler_a, C30_euler_b, C30_trapez, C30_norhs_untouched, C31_extrapolated, C32_stash_previous, C32_stash_second_previous, C32_trials_keep_history, C35_divergence_check_2d, C35_divergence_check_3d, C35_dfl_skips, C36_split_irrelevant, C38_linear_records, C38_quadratic_records, C43_lake_at_rest, Bsq.C44_initial_rhs, C46_pi2_bijective, C46_pi3_bijective, C46_arrvec_wrap, C49_self_advec_is_donor_partial, C60_sclr_keeps_domain, C60_pres_keeps_domain, C60_alng_keeps_inner_faces, C60_nrml_keeps_faces, C60_flux_keeps_inner_faces, C60_sgs_keeps_inner_faces, C60_sgs_div_keeps_domain_partial, C60_flux_edge_values, Mpi.C68_buffers_suffice, Backend.C69_memory_matches_subdomains, Backend.C69_reductions_see_subdomains_only, Backend.C69_thread_count, Heat.At.C70_fails_at_rest

**propext** (16 theorems): C02_fails_for_mask_beyond_equations, Barrier.C25_threshold_matches, Barrier.C25_3d_threshold_mismatch_deadlock, Barrier.C25_3d_deadlock_permanent, C36_fails_window_beyond_freq, VP.C43_fails_assert_euler, C46_pi2_addresses, C46_pi3_addresses, C46_arrvec_wrap_pow2, C46_arrvec_wrap_fails_below_minus_size, C48_xdmf_dims_partial, Mpi.C68_messages_cover_whole_range, Backend.C69_fails_openmp_second_solver, Backend.C69_fails_openmp_second_solver_larger, Backend.C69_fails_openmp_3d_evaluation_order, Backend.C69_fails_no_threads

**does not depend on any axioms** (8 theorems): C01_fails_mpi_ctor_checks_global_size, C03_start_hook_repeats_after_advance_zero, C24_fails_even_longitudes, C36_fails_after_advance_zero, C37_fails_before_outstart, C37_fails_two_advances, C40_fails_window_or_second_advance, Mpi.C68_buffers_freed_once
