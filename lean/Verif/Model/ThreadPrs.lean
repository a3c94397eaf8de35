import Verif.Model.ThreadProg2
/-!
# A two-dimensional incompressible solver as a multi-threaded program

Models `solver_common::solve` (solvers/detail/solver_common.hpp:270-358) as run by the threads of a solver derived from `mpdata_rhs_vip_prs`: hooks of solvers/mpdata_rhs.hpp, solvers/mpdata_rhs_vip.hpp,
solvers/detail/mpdata_rhs_vip_common.hpp, mpdata_rhs_vip_prs_common.hpp with the pressure solvers mpdata_rhs_vip_prs_mr.hpp and mpdata_rhs_vip_prs_gcrk.hpp, and the advection operator of `Verif.Model.ThreadProg2`.

As there, right-hand sides are arbitrary functions of what they read, so all formulae and any arithmetic are covered, and consecutive statements with no barrier between them form one phase. New here: the number of
passes of the pressure solver depends on the data. Every thread takes this decision itself, from scalars of its own (members of its solver object: `beta`, `tmp_den`, `converged`, ...). Such a scalar is represented by
one copy for every column the thread works on.

Simplifications: constant time step (no repeated `calc_gc`); no `div_3rd` (`calc_ndt_gc` does nothing); scheme `mixed` is not modelled; the partial results of `max`/`min` are kept per column instead of per thread
(that extrema do not depend on the splitting is C27); `panic` is not requested; no MPI.
-/
namespace Mpdata
namespace Threads

variable {V : Type}

/-- scalars every thread keeps for itself: `tmp_den[v]`, `beta`, results of `max`, `min`, `converged`, `alpha[l]`, mean pressure, largest divergence -/
inductive Sc | den (v : Nat) | beta | mx | mn | conv | alpha (l : Nat) | mean | dvg
deriving DecidableEq

/-- arrays: state (two time levels of each equation), `rhs`, `vip_rhs`, `stash`, arrays of the advection operator (`wrk`; its `psi` is not used), `Phi`, `err`, `tmp_uvw`, `lap_tmp`, `lap_err`, `p_err`, `lap_p_err`,
velocities saved by the boundary conditions, `stat_field`, `sumtmp`, `xtmtmp`, copies of scalars -/
inductive Ap
  | psi (e : Nat) (b : Bool) | rhs (e : Nat) | vrhs (d : Bool) | stash (l : Nat) (d : Bool) | wrk (a : A2) | phi | err | uvw (d : Bool) | lapt (d : Bool) | laperr | perr (v : Nat) | lperr (v : Nat)
  | edge (d : Bool) | stat | sumtmp | xtm | sc (k : Sc)
deriving DecidableEq

/-- a program of the threads: phases, and decisions each thread takes for itself; `fail`: an exception is thrown -/
inductive PProg (V : Type)
  | done
  | fail
  | ph (ss : List (S Ap Int V)) (p : PProg V)
  | br (c : (Sc → V) → Bool) (p q : PProg V)

/-- executions by `T` threads on `N` columns; `none`: an exception was thrown. A branch is taken only if all threads decide for it: if they disagree, some wait at barriers the others never reach, and there is no execution -/
inductive PExec (N T : Nat) : PProg V → (Ap × Int × Int → V) → Option (Ap × Int × Int → V) → Prop
  | done (m) : PExec N T .done m (some m)
  | fail (m) : PExec N T .fail m none
  | ph (ss p m m' r) : PhaseExec (progOf (ss.map fun s => s.toStmt N T)) m m' → PExec N T p m' r → PExec N T (.ph ss p) m r
  | yes (c p q m r) : (∀ t : Fin T, ∀ x, (slabOf N T t).Mem x → c (fun k => m (.sc k, x, 0)) = true) → PExec N T p m r → PExec N T (.br c p q) m r
  | no (c p q m r) : (∀ t : Fin T, ∀ x, (slabOf N T t).Mem x → c (fun k => m (.sc k, x, 0)) = false) → PExec N T q m r → PExec N T (.br c p q) m r

/-- the points a run can reach: rest of the program and memory -/
inductive PReach (N T : Nat) : PProg V → (Ap × Int × Int → V) → PProg V → (Ap × Int × Int → V) → Prop
  | refl (p m) : PReach N T p m p m
  | ph (ss p m m' p' m'') : PhaseExec (progOf (ss.map fun s => s.toStmt N T)) m m' → PReach N T p m' p' m'' → PReach N T (.ph ss p) m p' m''
  | yes (c p q m p' m'') : (∀ t : Fin T, ∀ x, (slabOf N T t).Mem x → c (fun k => m (.sc k, x, 0)) = true) → PReach N T p m p' m'' → PReach N T (.br c p q) m p' m''
  | no (c p q m p' m'') : (∀ t : Fin T, ∀ x, (slabOf N T t).Mem x → c (fun k => m (.sc k, x, 0)) = false) → PReach N T q m p' m'' → PReach N T (.br c p q) m p' m''

/-- schemes of `mpdata_rhs` (mpdata_rhs.hpp:153-173) -/
inductive RSch | eulerA | eulerB | trapez
deriving DecidableEq

/-- pressure schemes: minimal residual, generalised conjugate residual with `k` inner iterations (`cr` is `k = 1`) -/
inductive Slv | mr | gcrk (k : Nat)

/-- parameters that shape the program -/
structure POpts extends TOpts where
  sch : RSch
  slv : Slv
  /-- number of equations -/
  nEq : Nat
  /-- equations without `hint_norhs` -/
  hasRhs : Nat → Bool
  /-- equations with a non-zero `hint_scale` -/
  scaled : Nat → Bool
  /-- order in which equations are advected (delayed ones last) -/
  order : List Nat
  /-- `vip_i`, `vip_j` -/
  vip : Bool → Nat
  /-- equations of which `update_rhs` of the user reads values in neighbouring columns -/
  nbr : Nat → Bool
  /-- divergence of the advector is checked (no `dfl`) -/
  chk : Bool
  /-- limit of passes of the pressure solver (10000 in the code) -/
  cap : Nat

/-- right-hand sides of one step, arbitrary functions of what statements read: `F` by label and array assigned, `G` those of scalars (of the thread's scalars, `sumtmp` and `xtmtmp`), `adv` those of advection, `gcf` those of the exchange of the advector;
tests on scalars; time level of each equation at the beginning of the step, entry of `stash` that receives the velocity -/
structure FP (V : Type) where
  F : String → Ap → View Ap Int V → Int → Int → V
  G : String → Sc → (Sc → Option V) → (Int → Option V) → (Int → Option V) → V
  nz : V → Bool
  cv : V → Bool
  big : V → Bool
  adv : Nat → F2 V
  gcf : F2 V
  lvl : Nat → Bool
  sv : Nat

variable (f : FP V) (o : POpts) (N M : Nat)

/-! ## Building blocks -/

/-- `a(ijk) = ...` on the thread's columns: reads the thread's column of any array (the array assigned at the point itself only), and the arrays `nb` anywhere -/
def pt (nm : String) (a : Ap) (nb : Ap → Prop) : S Ap Int V :=
  ⟨a, .ext 0 0, rows 0 (M - 1), fun x y a' x' y' => nb a' ∨ (x' = x ∧ (a' = a → y' = y)), f.F nm a⟩

/-- partial result of a reduction for each column (sharedmem.hpp:119-129, 204, 228) -/
def pt0 (nm : String) (a : Ap) : S Ap Int V := ⟨a, .ext 0 0, [0], fun x y a' x' y' => x' = x ∧ (a' = a → y' = y), f.F nm a⟩

/-- a scalar computed by every thread from its scalars and the partial results -/
def scal (nm : String) (k : Sc) : S Ap Int V :=
  ⟨.sc k, .ext 0 0, [0], fun x y a' x' y' => a' = .sumtmp ∨ a' = .xtm ∨ ((∃ j, a' = .sc j) ∧ x' = x ∧ y' = y),
    fun v x y => f.G nm k (fun j => v (.sc j) x y) (fun c => v .sumtmp c 0) (fun c => v .xtm c 0)⟩

/-- statement of a boundary condition of dimension 0 (`r`: right, last thread; otherwise left, first thread) on columns `[lo, hi]`; it reads anything but the other locations it writes -/
def xbc0 (nm : String) (a : Ap) (r : Bool) (lo hi : Int) (ys : List Int) : S Ap Int V :=
  ⟨a, if r then .right lo hi else .left lo hi, ys, fun x y a' x' y' => (x' = x ∧ y' = y) ∨ ¬ (a' = a ∧ (lo ≤ x' ∧ x' ≤ hi) ∧ y' ∈ ys), f.F nm a⟩

/-- statements of the boundary conditions of dimension 1 on the thread's columns; they read anything but the other locations in the rows they write -/
def xbc1 (nm : String) (a : Ap) (d : Dom) (ys : List Int) : S Ap Int V := ⟨a, d, ys, fun x y a' x' y' => (x' = x ∧ y' = y) ∨ ¬ (a' = a ∧ y' ∈ ys), f.F nm a⟩

/-- `xchng_pres`, `xchng_sclr` (solver_2d.hpp:204-220, 40-56) with extent `e`: barrier; right, barrier; left, barrier; dimension 1, barrier -/
def xpres (nm : String) (a : Ap) (e : Nat) : List (List (S Ap Int V)) :=
  [[xbc0 f nm a true N (N - 1 + o.halo) (rows (-e) (M - 1 + e))], [xbc0 f nm a false (-o.halo) (-1) (rows (-e) (M - 1 + e))], [xbc1 f nm a (.extR e e) (haloRows o.toTOpts M)]]

/-- first and last row -/
def rimRows : List Int := (rows 0 0 ++ rows (M - 1) (M - 1)).dedup

/-- `set_edges`, `save_edges` (solver_2d.hpp:222-253): edge columns of the first component, edge rows of the second one -/
def edges (nm : String) (v : Bool → Ap) : List (List (S Ap Int V)) :=
  [[xbc0 f nm (v false) true (N - 1) (N - 1) (rows 0 (M - 1))], [xbc0 f nm (v false) false 0 0 (rows 0 (M - 1))], [xbc1 f nm (v true) (.ext 0 0) (rimRows M)]]

/-- the two components -/
def both {α : Type} (g : Bool → α) : List α := [g false, g true]

/-- phases, then the rest -/
def PProg.phs (ps : List (List (S Ap Int V))) (p : PProg V) : PProg V := ps.foldr .ph p

/-- arrays read in neighbouring columns: none, one, `lap_tmp` -/
def nb0 : Ap → Prop := fun _ => False
def nb1 (a : Ap) : Ap → Prop := fun a' => a' = a
def nbL : Ap → Prop := fun a' => ∃ d, a' = .lapt d

/-- first part of `lap` (mpdata_rhs_vip_prs_common.hpp:50-82), before the divergence is evaluated; `pre`: statements since the last barrier -/
def lap (pre : List (S Ap Int V)) (a : Ap) (ini : Bool) (k : PProg V) : PProg V :=
  .ph pre <| .phs (xpres f o N M "pres" a 0) <|
  .ph (both (fun d => pt f M "grad" (.lapt d) (nb1 a)) ++ if ini then both (fun d => pt f M "sub" (.lapt d) nb0) else []) <|
  .phs (edges f N M "edge" .lapt) <|
  .ph (both (fun d => pt f M "mulG" (.lapt d) nb0) ++ both (fun d => pt f M "norm" (.lapt d) nb0)) <|
  .phs (xpres f o N M "pres" (.lapt false) 0) <| .phs (xpres f o N M "pres" (.lapt true) 0) <| k

/-- `sum` (sharedmem.hpp:115-138): partial sums, barrier, total, barrier -/
def sumTo (pre : List (S Ap Int V)) (nm : String) (k : Sc) (p : PProg V) : PProg V := .ph (pre ++ [pt0 f nm .sumtmp]) <| .ph [scal f nm k] <| p

/-- update of pressure and residual, then `max` and `min` of the residual and the test of convergence (mpdata_rhs_vip_prs_mr.hpp:47-55, mpdata_rhs_vip_prs_gcrk.hpp:51-59) -/
def relaxStep (nm : String) (p : PProg V) : PProg V :=
  .ph ([pt f M nm .phi nb0, pt f M nm .err nb0] ++ [pt0 f "max" .xtm]) <| .ph [scal f "max" .mx] <| .ph [pt0 f "min" .xtm] <| .ph [scal f "min" .mn, scal f "test" .conv] <| p

/-! ## Pressure solvers -/

/-- `pressure_solver_loop_body` of the minimal-residual scheme (mpdata_rhs_vip_prs_mr.hpp:40-56) -/
def mrBody (pre : List (S Ap Int V)) (k : PProg V) : PProg V :=
  lap f o N M pre .err false <| sumTo f [pt f M "div" .laperr nbL] "lap2" (.den 0) <|
  .br (fun s => f.nz (s (.den 0))) (sumTo f [] "errlap" .beta (relaxStep f M "relax" k)) (relaxStep f M "relax" k)

/-- the pseudo-time loop (mpdata_rhs_vip_prs_common.hpp:116-126): the pass beyond the limit ends with an exception -/
def mrLoop (k : PProg V) : Nat → List (S Ap Int V) → PProg V
  | 0, pre => mrBody f o N M pre .fail
  | c + 1, pre => mrBody f o N M pre (.br (fun s => f.cv (s .conv)) k (mrLoop k c []))

/-- the sums for `alpha[l] ... alpha[l + j - 1]` (mpdata_rhs_vip_prs_gcrk.hpp:63-67) -/
def alphas : Nat → Nat → List (S Ap Int V) → (List (S Ap Int V) → PProg V) → PProg V
  | 0, _, pre, k => k pre
  | j + 1, l, pre, k =>
    .br (fun s => f.nz (s (.den l))) (sumTo f pre (toString l) (.alpha l) (alphas j (l + 1) [] k)) (alphas j (l + 1) pre k)

/-- new search directions (mpdata_rhs_vip_prs_gcrk.hpp:69-90): entry `w` of `p_err` and `lap_p_err` (in the last inner iteration the term `l = 0` is part of the first statement, so the statement for it leaves the array as it is) -/
def newDirs (v w : Nat) : List (S Ap Int V) :=
  [pt f M "dir0" (.perr w) nb0, pt f M "dir0" (.lperr w) nb0] ++
    (List.range (v + 1)).flatMap fun l => [pt f M (toString l) (.perr w) nb0, pt f M (toString l) (.lperr w) nb0]

/-- inner iterations `v, v + 1, ...` (`j` of them; mpdata_rhs_vip_prs_gcrk.hpp:47-91) of `kI` -/
def gcrIters (kI : Nat) : Nat → Nat → List (S Ap Int V) → (List (S Ap Int V) → PProg V) → PProg V
  | 0, _, pre, k => k pre
  | j + 1, v, pre, k =>
    let tail := relaxStep f M (toString v) <| lap f o N M [] .err false <| alphas f (v + 1) 0 [pt f M "div" .laperr nbL] fun pre =>
      gcrIters kI j (v + 1) (pre ++ newDirs f M v (if v + 1 < kI then v + 1 else 0)) k
    sumTo f pre (toString v) (.den v) <| .br (fun s => f.nz (s (.den v))) (sumTo f [] "errlap" .beta tail) tail

/-- the pseudo-time loop with the conjugate-residual scheme -/
def gcrLoop (kI : Nat) (k : List (S Ap Int V) → PProg V) : Nat → List (S Ap Int V) → PProg V
  | 0, pre => gcrIters f o N M kI kI 0 pre fun _ => .fail
  | c + 1, pre => gcrIters f o N M kI kI 0 pre fun pre => .br (fun s => f.cv (s .conv)) (k pre) (gcrLoop kI k c pre)

/-- `pressure_solver_update` (mpdata_rhs_vip_prs_common.hpp:101-131) with `pressure_solver_loop_init` (mpdata_rhs_vip_prs_gcrk.hpp:39-43) -/
def prsUpdate (pre : List (S Ap Int V)) (k : List (S Ap Int V) → PProg V) : PProg V :=
  let fin (pre : List (S Ap Int V)) : PProg V := .ph pre <| .phs (xpres f o N M "pres" .phi 0) <| k (both fun d => pt f M "grad" (.uvw d) (nb1 .phi))
  let ini : List (S Ap Int V) := [pt f M "div0" .err nbL, scal f "reset" .conv]
  lap f o N M (pre ++ both fun d => pt f M "save" (.uvw d) nb0) .phi true <|
  match o.slv with
  | .mr => mrLoop f o N M (fin []) o.cap ini
  | .gcrk kI => lap f o N M (ini ++ [pt f M "dirI" (.perr 0) nb0]) (.perr 0) false <| gcrLoop f o N M kI fin o.cap [pt f M "div" (.lperr 0) nbL]

/-! ## Hooks -/

/-- velocities at time levels `l` -/
def vps (l : Nat → Bool) (d : Bool) : Ap := .psi (o.vip d) (l (o.vip d))

/-- time level of an equation after advection -/
def lvlPost (e : Nat) : Bool := if o.n_iters % 2 = 1 then !f.lvl e else f.lvl e

/-- `vip_rhs_impl_fnlz` (mpdata_rhs_vip_prs_common.hpp:171-189); without an implicit absorber the statements of `add_relax` and `normalize_vip` leave the velocities as they are -/
def fnlzT (pre : List (S Ap Int V)) (k : List (S Ap Int V) → PProg V) : PProg V :=
  let v := vps o (lvlPost f o)
  prsUpdate f o N M (pre ++ both (fun d => pt f M "neg" (.vrhs d) nb0) ++ both (fun d => pt f M "addrelax" (v d) nb0)) fun q =>
  .ph (q ++ both (fun d => pt f M "prsapply" (v d) nb0) ++ both (fun d => pt f M "norm" (v d) nb0)) <| .phs (edges f N M "edge" v) <|
  k (both fun d => pt f M "forces" (.vrhs d) nb0)

/-- arrays of the advection operator among those of the solver, for equation `e` -/
def embA (e : Nat) : A2 → Ap
  | .psi b => .psi e b
  | a => .wrk a

/-- a statement of the advection operator for equation `e` -/
def S.emb (e : Nat) (s : S A2 Int V) : S Ap Int V :=
  ⟨embA e s.dst, s.dom, s.ys, fun x y a' x' y' => ∃ a, embA e a = a' ∧ s.rd x y a x' y', fun v => s.f (fun a => v (embA e a))⟩

/-- Courant number arrays -/
def gcA (d : Bool) : Ap := .wrk (.gc d)

/-- `xchng_vctr_nrml` with extent `halo - 1` (solver_2d.hpp:171-202) of the advector: dimension 1 first, in the same phase as the first fill of dimension 0 -/
def nrmlE : List (List (S Ap Int V)) :=
  let ex := o.halo - 1
  [[⟨gcA false, .extR (ex + 1) ex, haloRows o.toTOpts M, fun _ _ a' _ y' => a' = gcA false ∧ y' ∉ haloRows o.toTOpts M, f.F "nrmlY" (gcA false)⟩,
    ⟨gcA true, .right N (N - 1 + o.halo), rows (-1 - ex) (M - 1 + ex), fun _ _ a' x' _ => a' = gcA true ∧ ¬ (N ≤ x' ∧ x' ≤ N - 1 + o.halo), f.F "nrmlR" (gcA true)⟩],
   [xbc0 f "nrmlL" (gcA true) false (-o.halo) (-1) (rows (-1 - ex) (M - 1 + ex))]]

/-- `calc_gc` (mpdata_rhs_vip_common.hpp:278-290) with `extrapolate_in_time` and `interpolate_in_space` (mpdata_rhs_vip.hpp:127-149): threads interpolate on overlapping ranges `im^ex`, `i^ex` -/
def calcGcT (pre : List (S Ap Int V)) (k : PProg V) : PProg V :=
  let ex := o.halo - 1
  .ph (pre ++ both fun d => pt f M "extrp" (.stash 0 d) nb0) <|
  .phs (xpres f o N M "pres" (.stash 0 false) ex) <| .phs (xpres f o N M "pres" (.stash 0 true) ex) <|
  .ph [⟨gcA false, .ext (1 + ex) ex, rows (-ex) (M - 1 + ex), fun _ _ a' _ _ => a' = .stash 0 false, f.F "intrp" (gcA false)⟩,
       ⟨gcA true, .ext ex ex, rows (-1 - ex) (M - 1 + ex), fun _ _ a' _ _ => a' = .stash 0 true, f.F "intrp" (gcA true)⟩] <|
  .phs ((alng2 f.gcf o.toTOpts N M .gc).map fun ss => ss.map (S.emb 0)) <| .phs (nrmlE f o N M) <| k

/-- `update_rhs` (mpdata_rhs.hpp:53-75 and the override of the user): zero, fill halos, add forces -/
def updRhsT (l : Nat → Bool) (pre : List (S Ap Int V)) (k : List (S Ap Int V) → PProg V) : PProg V :=
  let eqs := (List.range o.nEq).filter o.hasRhs
  .ph (pre ++ eqs.map fun e => pt f M "zero" (.rhs e) nb0) <|
  .phs ((List.range o.nEq).flatMap fun e => xpres f o N M "sclr" (.psi e (l e)) o.halo) <|
  k (eqs.map fun e => pt f M "force" (.rhs e) (fun a => ∃ e', o.nbr e' = true ∧ a = .psi e' (l e')))

/-- `apply_rhs` (mpdata_rhs.hpp:77-90) -/
def appRhsT (nm : String) (l : Nat → Bool) : List (S Ap Int V) := ((List.range o.nEq).filter o.hasRhs).map fun e => pt f M nm (.psi e (l e)) nb0

/-- `hook_ante_step` of `mpdata_rhs` (mpdata_rhs.hpp:147-173) -/
def rhsAnte (pre : List (S Ap Int V)) (k : List (S Ap Int V) → PProg V) : PProg V :=
  match o.sch with
  | .eulerA => updRhsT f o N M f.lvl pre k
  | .eulerB => updRhsT f o N M f.lvl pre fun q => k (q ++ appRhsT f o M "applyA" f.lvl)
  | .trapez => k (pre ++ appRhsT f o M "applyA" f.lvl)

/-- `hook_post_step` of `mpdata_rhs` (mpdata_rhs.hpp:175-195) -/
def rhsPost (pre : List (S Ap Int V)) (k : List (S Ap Int V) → PProg V) : PProg V :=
  match o.sch with
  | .eulerA => k (pre ++ appRhsT f o M "applyP" (lvlPost f o))
  | .eulerB => k pre
  | .trapez => updRhsT f o N M (lvlPost f o) pre fun q => k (q ++ appRhsT f o M "applyP" (lvlPost f o))

/-- `hook_ante_step` (mpdata_rhs_vip_common.hpp:327-341); without an explicit absorber its statement leaves the forces as they are -/
def anteT (k : List (S Ap Int V) → PProg V) : PProg V :=
  .ph (both (fun d => pt f M "stash" (.stash f.sv d) nb0) ++ both fun d => pt f M "explab" (.vrhs d) nb0) <|
  rhsAnte f o N M [] fun q => k (q ++ both (fun d => pt f M "vapply" (vps o f.lvl d) nb0) ++ both fun d => pt f M "vzero" (.vrhs d) nb0)

/-- `solve_loop_body` (solver_common.hpp:127-136) for equations in turn: scale, exchange and advect, barrier, scale back -/
def advT : List Nat → List (S Ap Int V) → (List (S Ap Int V) → PProg V) → PProg V
  | [], pre, k => k pre
  | e :: es, pre, k =>
    .ph (pre ++ if o.scaled e then [pt f M "scale" (.psi e (f.lvl e)) nb0] else []) <| .phs ((step2 (f.adv e) o.toTOpts N M (f.lvl e)).map fun ss => ss.map (S.emb e)) <|
    advT es (if o.scaled e then [pt f M "unscale" (.psi e (lvlPost f o e)) nb0] else []) k

/-- one time step (solver_common.hpp:295-354) -/
def stepT (pre : List (S Ap Int V)) (k : List (S Ap Int V) → PProg V) : PProg V :=
  .ph pre <| calcGcT f o N M [] <| anteT f o N M fun q => advT f o N M o.order q fun q => rhsPost f o N M q fun q => fnlzT f o N M q k

/-- `hook_ante_loop` (mpdata_rhs_vip_prs_common.hpp:141-169, 84-96, mpdata_rhs_vip_common.hpp:258-276, 182-196, mpdata_rhs.hpp:127-145, solver_2d.hpp:279-293, solver_common.hpp:191-211) -/
def anteLoopT (k : List (S Ap Int V) → PProg V) : PProg V :=
  let v := vps o f.lvl
  .phs (edges f N M "saveedge" .edge) <| .ph [pt f M "zero" .phi nb0] <| .phs (xpres f o N M "pres" .phi 0) <|
  prsUpdate f o N M [] fun q => .ph q <| .phs (xpres f o N M "pres" .phi 0) <|
  .ph (both (fun d => pt f M "grad" (.uvw d) (nb1 .phi)) ++ both fun d => pt f M "prsapply" (v d) nb0) <| .phs (edges f N M "edge" v) <|
  .ph (both fun d => (⟨gcA d, .left (-o.halo) (N - 1 + o.halo), rows (-o.halo) (M - 1 + o.halo), fun _ _ _ _ _ => False, f.F "zero" (gcA d)⟩ : S Ap Int V)) <|
  .ph (both fun d => pt f M "zero" (.stash f.sv d) nb0) <|
  .phs ((alng2 f.gcf o.toTOpts N M .gc).map fun ss => ss.map (S.emb 0)) <|
  (fun p => if o.chk then .ph ([pt f M "div" .stat (fun a => ∃ d, a = gcA d)] ++ [pt0 f "max" .xtm]) <| .ph [scal f "div" .dvg] <| .br (fun s => f.big (s .dvg)) .fail p else p) <|
  (fun k' => if o.sch = .trapez then updRhsT f o N M f.lvl [] k' else k' []) fun q =>
  sumTo f (q ++ both (fun d => pt f M "init" (.vrhs d) nb0) ++ [pt f M "ini" .phi nb0]) "mean" .mean <|
  .ph [pt f M "mean" .phi nb0] <| .phs (xpres f o N M "pres" .phi 0) <|
  k (both (fun d => pt f M "grad" (.uvw d) (nb1 .phi)) ++ both fun d => pt f M "first" (.vrhs d) nb0)

/-- `solve` for one step per element of the list, after `hook_ante_loop` with the first right-hand sides -/
def stepsT : List (FP V) → List (S Ap Int V) → PProg V
  | [], pre => .ph pre .done
  | f :: fs, pre => stepT f o N M pre (stepsT fs)

/-- a whole run: `hook_ante_loop` and time steps -/
def runT (f0 : FP V) (fs : List (FP V)) : PProg V := anteLoopT f0 o N M (stepsT o N M fs)

end Threads
end Mpdata
