import Verif.Model.ThreadProg2
/-!
# The subgrid-stress hook as a multi-threaded program (two dimensions)

Models `vip_rhs_expl_calc` of solvers/detail/mpdata_rhs_vip_prs_sgs_common.hpp:95-175 with `multiply_sgs_visc` of mpdata_rhs_vip_prs_sgs_dns.hpp:26-43 and
mpdata_rhs_vip_prs_sgs_smg.hpp:31-58, and the exchanges of solver_2d.hpp it calls, as sequences of array statements separated by barriers. As in
`Verif.Model.ThreadProg`, right-hand sides are arbitrary functions of what they read. Staggered values at `+h` are stored under the lower index.
Not modelled: smgani (same statements as smg, with two viscosities), `parent_t::vip_rhs_expl_calc`, MPI.
-/
namespace Mpdata
namespace Threads

variable {V : Type}

/-- arrays of the hook: velocities, their derivatives (`drv d c`: derivative of component `c` in direction `d`, or of the stress), the two work arrays of
the Padé scheme, independent components of the tensor, eddy viscosity, forces, surface stress, velocity divergence.
(`tau 0, 1, 2` are `xx, yy, xy` for compact and `xx, xy, yy` for other differencing.) -/
inductive As | vip (d : Bool) | drv (d c : Bool) | wrk (b : Bool) | tau (k : Fin 3) | km | rhs (d : Bool) | tsrf | vdiv
deriving DecidableEq

/-- `stress_diff_t` (mpdata_rhs_vip_prs_sgs_common.hpp:21-26) -/
inductive SDiff | normal | pade | compact
deriving DecidableEq

/-- options that shape the sequence of statements; `smg`: Smagorinsky viscosity, otherwise constant (dns); `rigid`: rigid walls at both ends of the
split dimension, otherwise cyclic -/
structure SOpts where
  diff : SDiff
  smg : Bool
  rigid : Bool
  halo : Nat

/-- the right-hand sides: any functions of what they read -/
structure FS (V : Type) where
  fillX : As → Bool → View As Int V → Int → Int → V
  fillY : As → View As Int V → Int → Int → V
  vgrad : Bool → Bool → View As Int V → Int → Int → V
  copyW : View As Int V → Int → Int → V
  padeW : Bool → Bool → View As Int V → Int → Int → V
  padeA : View As Int V → Int → Int → V
  copyD : View As Int V → Int → Int → V
  deform : Fin 3 → View As Int V → Int → Int → V
  km : View As Int V → Int → Int → V
  mul : Fin 3 → View As Int V → Int → Int → V
  sdiv : Bool → Bool → View As Int V → Int → Int → V
  srhs : Bool → View As Int V → Int → Int → V
  drag : View As Int V → Int → Int → V
  vipDiv : View As Int V → Int → Int → V
  deformC : Fin 3 → View As Int V → Int → Int → V
  kmC : View As Int V → Int → Int → V
  mulC : Fin 3 → View As Int V → Int → Int → V
  srhsC : Bool → View As Int V → Int → Int → V

variable (F : FS V) (o : SOpts) (N M : Nat)

/-! ## Exchanges -/

/-- a fill by the boundary condition of dimension 0 (right: last thread, columns `[lo, hi]`); it reads anything but the locations it writes and the divergence right of the domain
(only gndsky_2d.hpp:50-60 reads the divergence to fill another array, in the thread's own columns; the left fills of the divergence itself read columns inside, cyclic_2d.hpp:46-50, rigid_2d.hpp:80-85) -/
def sbc0 (a : As) (r : Bool) (lo hi : Int) (ys : List Int) : S As Int V :=
  ⟨a, if r then .right lo hi else .left lo hi, ys, fun _ _ a' x' y' => ¬ (a' = a ∧ (lo ≤ x' ∧ x' ≤ hi) ∧ y' ∈ ys) ∧ ¬ (a' = .vdiv ∧ (N : Int) ≤ x'), F.fillX a r⟩

/-- the fills by the boundary conditions of dimension 1, executed by every thread on its columns; they read anything but the rows they write and the divergence
right of the domain -/
def sbc1 (a : As) (d : Dom) (ys : List Int) : S As Int V := ⟨a, d, ys, fun _ _ a' x' y' => ¬ (a' = a ∧ y' ∈ ys) ∧ ¬ (a' = .vdiv ∧ (N : Int) ≤ x'), F.fillY a⟩

/-- halo rows of a scalar -/
def shaloRows : List Int := rows (-o.halo) (-1) ++ rows M (M - 1 + o.halo)
/-- halo rows of values staggered in the second dimension -/
def shaloFaces : List Int := rows (-o.halo) (-1) ++ rows (M - 1) (M - 2 + o.halo)

/-- `xchng_sclr` (solver_2d.hpp:40-56) with extent `e`: barrier; right, barrier; left, barrier; dimension 1; barrier -/
def sxchng (a : As) (e : Nat) : List (List (S As Int V)) :=
  [[sbc0 F N a true N (N - 1 + o.halo) (rows (-e) (M - 1 + e))], [sbc0 F N a false (-o.halo) (-1) (rows (-e) (M - 1 + e))],
   [sbc1 F N a (.extR e e) (shaloRows o M)]]

/-- columns written and read by the right `fill_halos_sgs_div`: cyclic (cyclic_2d.hpp:142-145) copies columns `1 ... halo` to the halo; rigid
(rigid_2d.hpp:177-181) writes index `edge + h`, i.e. the edge column itself, from the two columns before it -/
def divR : Rng × Rng := if o.rigid then (⟨N - 1, N - 1⟩, ⟨N - 3, N - 2⟩) else (⟨N, N - 1 + o.halo⟩, ⟨1, o.halo⟩)

/-- `xchng_sgs_div` (solver_2d.hpp:103-117): dimension 1 first, in the same phase as the first (right) fill of dimension 0 -/
def sxdiv : List (List (S As Int V)) :=
  [[⟨.vdiv, .ext 0 0, shaloFaces o M, fun x _ a' x' y' => a' = .vdiv ∧ x' = x ∧ y' ∉ shaloFaces o M, F.fillY .vdiv⟩,
    ⟨.vdiv, .right (divR o N).1.first (divR o N).1.last, rows (-1) (M - 1),
      fun _ y a' x' y' => a' = .vdiv ∧ (divR o N).2.Mem x' ∧ y' = y, F.fillX .vdiv true⟩],
   [sbc0 F N .vdiv false (-o.halo) (-1) (rows (-1) (M - 1))]]

/-- `xchng_sgs_tnsr_diag` (solver_2d.hpp:135-150) -/
def sxdiag : List (List (S As Int V)) :=
  [[sbc0 F N (.tau 0) true (N - 1) (N - 2 + o.halo) (rows 0 (M - 1))], [sbc0 F N (.tau 0) false (-o.halo) (-1) (rows 0 (M - 1))],
   [sbc1 F N (.tau 1) (.ext 0 0) (shaloFaces o M)]]

/-- `xchng_sgs_tnsr_offdiag` (solver_2d.hpp:152-169): `range_ijkm[0]` starts one column to the left of every thread's slab -/
def sxoff : List (List (S As Int V)) :=
  [[sbc0 F N (.tau 2) true (N - 1) (N - 2 + o.halo) (rows (-1) (M - 1))], [sbc0 F N (.tau 2) false (-o.halo) (-1) (rows (-1) (M - 1))],
   [sbc1 F N (.tau 2) (.ext 1 0) (shaloFaces o M)]]

/-! ## Normal and Padé differencing -/

/-- a statement on the thread's own points reading `others` anywhere and `owns` at the point itself -/
def own (a : As) (others owns : As → Prop) (f : View As Int V → Int → Int → V) : S As Int V :=
  ⟨a, .ext 0 0, rows 0 (M - 1), fun x y a' x' y' => others a' ∨ (owns a' ∧ x' = x ∧ y' = y), f⟩

/-- `calc_vgrad` (stress_formulae.hpp:20-34) -/
def svgrads : List (S As Int V) :=
  [own M (.drv false false) (fun a => ∃ c, a = .vip c) (fun _ => False) (F.vgrad false false),
   own M (.drv false true) (fun a => ∃ c, a = .vip c) (fun _ => False) (F.vgrad false true),
   own M (.drv true false) (fun a => ∃ c, a = .vip c) (fun _ => False) (F.vgrad true false),
   own M (.drv true true) (fun a => ∃ c, a = .vip c) (fun _ => False) (F.vgrad true true)]

/-- `wrk[0](ijk) = drv[d](ijk)` (sgs_common.hpp:82) -/
def scopyW (d c : Bool) : S As Int V := own M (.wrk false) (fun _ => False) (fun a => a = .drv d c) F.copyW
/-- `pade_dispatch(wrk, ijk, d)` (sgs_common.hpp:86): `wrk[1]` from `wrk[0]` -/
def spadeW (d c : Bool) : S As Int V := own M (.wrk true) (fun a => a = .wrk false) (fun _ => False) (F.padeW d c)
/-- `wrk[0](ijk) += drv[d](ijk) - 0.25 wrk[1](ijk)` (sgs_common.hpp:89) -/
def spadeA (d c : Bool) : S As Int V := own M (.wrk false) (fun _ => False) (fun a => a = .wrk false ∨ a = .drv d c ∨ a = .wrk true) F.padeA
/-- `drv[d](ijk) = wrk[0](ijk)` (sgs_common.hpp:91) -/
def scopyD (d c : Bool) : S As Int V := own M (.drv d c) (fun _ => False) (fun a => a = .wrk false) F.copyD

/-- one of the three rounds of `pade_deriv` (sgs_common.hpp:85-89) up to the barrier before the accumulation -/
def spadeRound (d c : Bool) : List (List (S As Int V)) := sxchng F o N M (.wrk false) 0 ++ [[spadeW F M d c]]

/-- `pade_deriv` (sgs_common.hpp:80-95), preceded in its first phase by the statements `pre` -/
def spadeDeriv (pre : List (S As Int V)) (d c : Bool) : List (List (S As Int V)) :=
  [pre ++ [scopyW F M d c]] ++ spadeRound F o N M d c ++ [[spadeA F M d c]] ++ spadeRound F o N M d c ++ [[spadeA F M d c]] ++
  spadeRound F o N M d c ++ [[spadeA F M d c, scopyD F M d c]]

/-- the derivatives, optionally corrected (sgs_common.hpp:139-148), followed in the last phase by the statements `post` -/
def sderivs (pre post : List (S As Int V)) : List (List (S As Int V)) :=
  if o.diff = .pade then
    spadeDeriv F o N M pre false false ++ spadeDeriv F o N M [] false true ++ spadeDeriv F o N M [] true false ++ spadeDeriv F o N M [] true true ++ [post]
  else [pre ++ post]

/-- components of the derivative tensor entering component `k` of the deformation (stress_formulae.hpp:59-69) -/
def sdeform (k : Fin 3) : S As Int V := own M (.tau k) (fun _ => False) (fun a => ∃ d c, a = .drv d c) (F.deform k)

/-- `multiply_sgs_visc`, not compact: dns (mpdata_rhs_vip_prs_sgs_dns.hpp:36-41) or smg (mpdata_rhs_vip_prs_sgs_smg.hpp:49-56) -/
def svisc : List (S As Int V) :=
  (if o.smg then [own M .km (fun _ => False) (fun a => ∃ k, a = .tau k) F.km] else []) ++
  [own M (.tau 0) (fun _ => False) (fun a => a = .tau 0 ∨ a = .km) (F.mul 0), own M (.tau 1) (fun _ => False) (fun a => a = .tau 1 ∨ a = .km) (F.mul 1),
   own M (.tau 2) (fun _ => False) (fun a => a = .tau 2 ∨ a = .km) (F.mul 2)]

/-- `calc_stress_div` (stress_formulae.hpp:87-101) -/
def ssdivs : List (S As Int V) :=
  [own M (.drv false false) (fun a => ∃ k, a = .tau k) (fun _ => False) (F.sdiv false false),
   own M (.drv false true) (fun a => ∃ k, a = .tau k) (fun _ => False) (F.sdiv false true),
   own M (.drv true false) (fun a => ∃ k, a = .tau k) (fun _ => False) (F.sdiv true false),
   own M (.drv true true) (fun a => ∃ k, a = .tau k) (fun _ => False) (F.sdiv true true)]

/-- `calc_stress_rhs` (stress_formulae.hpp:121-128): `rhs += ...` -/
def ssrhs : List (S As Int V) :=
  [own M (.rhs false) (fun _ => False) (fun a => a = .rhs false ∨ ∃ d c, a = .drv d c) (F.srhs false),
   own M (.rhs true) (fun _ => False) (fun a => a = .rhs true ∨ ∃ d c, a = .drv d c) (F.srhs true)]

/-- the hook without compact differencing (sgs_common.hpp:137-174) -/
def sgsPlain : List (List (S As Int V)) :=
  sderivs F o N M (svgrads F M) ([sdeform F M 0, sdeform F M 1, sdeform F M 2] ++ svisc F o M) ++
  sxchng F o N M (.tau 0) 0 ++ sxchng F o N M (.tau 1) 0 ++ sxchng F o N M (.tau 2) 0 ++
  sderivs F o N M (ssdivs F M) (ssrhs F M)

/-! ## Compact differencing -/

/-- `calc_drag_cmpct` (stress_formulae.hpp:177-193, on `ijkm[0]`, which starts one column left of the slab) and `calc_vip_div_cmpct` (225-236) -/
def sdrag : List (S As Int V) :=
  [⟨.tsrf, .ext 1 0, rows 0 0, fun _ _ a' _ _ => ∃ c, a' = .vip c, F.drag⟩, ⟨.vdiv, .ext 0 0, rows 0 (M - 1), fun _ _ a' _ _ => ∃ c, a' = .vip c, F.vipDiv⟩]

/-- `calc_deform_cmpct` (stress_formulae.hpp:254-291) on `ijk`, `ijkm` -/
def sdeformC : List (S As Int V) :=
  [⟨.tau 0, .ext 1 0, rows 0 (M - 1), fun x _ a' x' _ => (∃ c, a' = .vip c) ∨ (a' = .vdiv ∧ (x' = x ∨ x' = x + 1)), F.deformC 0⟩,
   ⟨.tau 1, .ext 0 0, rows (-1) (M - 1), fun x _ a' x' _ => (∃ c, a' = .vip c) ∨ (a' = .vdiv ∧ x' = x), F.deformC 1⟩,
   ⟨.tau 2, .ext 1 0, rows (-1) (M - 1), fun _ _ a' _ _ => ∃ c, a' = .vip c, F.deformC 2⟩]

/-- `k_m(ijk) = ... calc_tdef_sq_cmpct(tau, ijk)` (mpdata_rhs_vip_prs_sgs_smg.hpp:37): tensor components around the point (stress_formulae.hpp:367-395) -/
def skmC : S As Int V :=
  ⟨.km, .ext 0 0, rows 0 (M - 1), fun x y a' x' y' => ∃ k, a' = .tau k ∧ (x' = x ∨ x' = x - 1) ∧ (y' = y ∨ y' = y - 1), F.kmC⟩

/-- one component of `multiply_tnsr_cmpct` on `ijkm_sep` (stress_formulae.hpp:549-569, 571-592): the component itself and, with smg, the viscosity at the
points around it -/
def smulC (k : Fin 3) : S As Int V :=
  ⟨.tau k, .face 0, rows (-1) (M - 1), fun x y a' x' y' => (a' = .tau k ∧ x' = x ∧ y' = y) ∨
    (o.smg = true ∧ a' = .km ∧ (x' = x ∨ x' = x + 1) ∧ (y' = y ∨ y' = y + 1)), F.mulC k⟩

/-- `multiply_sgs_visc`, compact, before its exchanges: dns (mpdata_rhs_vip_prs_sgs_dns.hpp:28-30), smg (mpdata_rhs_vip_prs_sgs_smg.hpp:35-43); no barrier -/
def sviscC : List (S As Int V) := (if o.smg then [skmC F M] else []) ++ [smulC F o M 0, smulC F o M 1, smulC F o M 2]

/-- `calc_stress_rhs_cmpct` (stress_formulae.hpp:754-790): `rhs += ...` -/
def ssrhsC : List (S As Int V) :=
  [own M (.rhs false) (fun a => ∃ k, a = .tau k) (fun a => a = .rhs false) (F.srhsC false),
   own M (.rhs true) (fun a => ∃ k, a = .tau k) (fun a => a = .rhs true) (F.srhsC true)]

/-- the hook with compact differencing (sgs_common.hpp:104-135) -/
def sgsCompact : List (List (S As Int V)) :=
  [sdrag F M] ++ sxdiv F o N M ++ [sdeformC F M] ++ sxdiag F o N M ++ sxoff F o N M ++ [sviscC F o M] ++ sxdiag F o N M ++ sxoff F o N M ++ [ssrhsC F M]

/-- `vip_rhs_expl_calc` (sgs_common.hpp:95-175) -/
def sgsProg : List (List (S As Int V)) :=
  sxchng F o N M (.vip false) 1 ++ sxchng F o N M (.vip true) 1 ++ if o.diff = .compact then sgsCompact F o N M else sgsPlain F o N M

end Threads
end Mpdata
