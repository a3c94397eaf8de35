import Verif.Model.PrsProg
/-! # Solvers that advect their own velocities, without a pressure term, with cyclic, rigid or open boundaries
`mpdata_rhs_vip` on its own (e.g. shallow water): the exchanges are those of the incompressible solver, but nothing prescribes the velocities on the boundaries, `set_edges` being called by
`mpdata_rhs_vip_prs_common.hpp` only. -/
namespace Mpdata
namespace VP
variable {K : Type} [Field K] [LinearOrder K] {n : Nat}

/-- 2-D and 3-D: exchanges of `interpolate_in_space` and `extrapolate_in_time` (mpdata_rhs_vip.hpp:125-148, 236-262); advection as configured by `a`. Simplification: the two sides of a dimension have
the same kind of boundary. -/
def solverB [NeZero n] (u : User K (Idx n) n) (N : Fin n → Nat) (kind : Fin n → BcKind) (halo : Int) (a : CfgN n K) : Cfg K (Idx n) n (MemN n K) :=
  { solverN u halo a with
    xchngP := xchngPres (PP.bnd N kind halo) (List.finRange n) (halo - 1)
    fillGC := fun v => xchngNrml (PP.bnd N kind halo) (halo - 1) (PP.alngCyc (PP.bnd N kind halo) v) }

end VP
end Mpdata
