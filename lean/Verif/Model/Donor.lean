import Verif.Model.Opts
/-! # Donor-cell (upwind) kernel
Models `formulae/common.hpp` (sign parts, G factor), `formulae/kahan_sum.hpp` and
`formulae/donorcell_formulae.hpp`. Reals are an arbitrary linearly ordered field `K`
(simplification: exact arithmetic instead of IEEE floating point; division by zero, which
yields inf/nan in C++, yields 0 in the model - theorems carry hypotheses that exclude it where it matters).

Arakawa-C indexing (formulae/arakawa_c.hpp:19-39): for an array of face values,
`a(i+h)` is storage index `i` and `a(i-h)` is storage index `i-1`. -/
namespace Mpdata
variable {K : Type} [Field K] [LinearOrder K]

/-- `negpart` (formulae/common.hpp:86-104) -/
def negpart (o : OptsT) (x : K) : K := if isset o oNpa then (x - |x|) / 2 else min 0 x

/-- `pospart` (formulae/common.hpp:106-124) -/
def pospart (o : OptsT) (x : K) : K := if isset o oNpa then (x + |x|) / 2 else max 0 x

/-- `formulae::G` in 1-D (formulae/common.hpp:126-134, 156-167) -/
def gFac1 (o : OptsT) (G : Int → K) (i : Int) : K := if isset o oNug then G i else 1

/-- `formulae::G<opts, d>` in 2-D (formulae/common.hpp:136-144, 169-182) -/
def gFac2 (o : OptsT) (d : Nat) (G : Int → Int → K) (i j : Int) : K :=
  if isset o oNug then G (pi2 d i j).1 (pi2 d i j).2 else 1

/-- `formulae::G<opts, d>` in 3-D (formulae/common.hpp:146-154, 184-197) -/
def gFac3 (o : OptsT) (d : Nat) (G : Int → Int → Int → K) (i j k : Int) : K :=
  if isset o oNug then G (pi3 d i j k).1 (pi3 d i j k).2.1 (pi3 d i j k).2.2 else 1

/-- `donorcell::F` (formulae/donorcell_formulae.hpp:25-34) -/
def donorF (o : OptsT) (psiL psiR GC : K) : K := pospart o GC * psiL + negpart o GC * psiR

/-- `make_flux` in 1-D (formulae/donorcell_formulae.hpp:36-48): flux at face `i+1/2` -/
def makeFlux1 (o : OptsT) (psi GC : Int → K) (i : Int) : K := donorF o (psi i) (psi (i + 1)) (GC i)

/-- `make_flux<d>` in 2-D (formulae/donorcell_formulae.hpp:50-63) -/
def makeFlux2 (o : OptsT) (d : Nat) (psi GC : Int → Int → K) (i j : Int) : K :=
  donorF o (psi (pi2 d i j).1 (pi2 d i j).2) (psi (pi2 d (i + 1) j).1 (pi2 d (i + 1) j).2)
    (GC (pi2 d i j).1 (pi2 d i j).2)

/-- `make_flux<d>` in 3-D (formulae/donorcell_formulae.hpp:65-79) -/
def makeFlux3 (o : OptsT) (d : Nat) (psi GC : Int → Int → Int → K) (i j k : Int) : K :=
  let p := pi3 d i j k
  let q := pi3 d (i + 1) j k
  donorF o (psi p.1 p.2.1 p.2.2) (psi q.1 q.2.1 q.2.2) (GC p.1 p.2.1 p.2.2)

/-- `kahan_add` (formulae/kahan_sum.hpp:20-27): state `(c, sum)` -/
def kahanAdd (s : K × K) (input : K) : K × K :=
  let y := input - s.1
  let t := s.2 + y
  ((t - s.2) - y, t)

/-- a Kahan-summed list: `kahan_zro` (kahan_sum.hpp:13-18) then `kahan_add` of each term -/
def kahanSum (xs : List K) : K := (xs.foldl kahanAdd (0, 0)).2

/-- `donorcell_sum` in 1-D (formulae/donorcell_formulae.hpp:81-103): `flx1` at `i+h`, `flx2` at `i-h` -/
def donorSum1 (o : OptsT) (psiOld flx1 flx2 g : K) : K :=
  if isset o oKhn then kahanSum [psiOld, -flx1 / g, flx2 / g]
  else psiOld + (-flx1 + flx2) / g

/-- `donorcell_sum` in 2-D (formulae/donorcell_formulae.hpp:105-132) -/
def donorSum2 (o : OptsT) (psiOld flx1 flx2 flx3 flx4 g : K) : K :=
  if isset o oKhn then kahanSum [psiOld, -flx1 / g, flx2 / g, -flx3 / g, flx4 / g]
  else psiOld + ((-flx1 + flx2) + (-flx3 + flx4)) / g

/-- `donorcell_sum` in 3-D (formulae/donorcell_formulae.hpp:134-165) -/
def donorSum3 (o : OptsT) (psiOld flx1 flx2 flx3 flx4 flx5 flx6 g : K) : K :=
  if isset o oKhn then kahanSum [psiOld, -flx1 / g, flx2 / g, -flx3 / g, flx4 / g, -flx5 / g, flx6 / g]
  else psiOld + ((-flx1 + flx2) + (-flx3 + flx4) + (-flx5 + flx6)) / g

/-- the donor-cell call of `advop` in 1-D on a given flux (solvers/detail/mpdata_osc_1d.hpp:112-120) -/
def donorStep1 (o : OptsT) (psi flx G : Int → K) (i : Int) : K :=
  donorSum1 o (psi i) (flx i) (flx (i - 1)) (gFac1 o G i)

/-- the donor-cell call of `advop` in 2-D (solvers/detail/mpdata_osc_2d.hpp:159-170) -/
def donorStep2 (o : OptsT) (psi flx0 flx1 G : Int → Int → K) (i j : Int) : K :=
  donorSum2 o (psi i j) (flx0 i j) (flx0 (i - 1) j) (flx1 i j) (flx1 i (j - 1)) (gFac2 o 0 G i j)

/-- the donor-cell call of `advop` in 3-D (solvers/detail/mpdata_osc_3d.hpp:176-189) -/
def donorStep3 (o : OptsT) (psi flx0 flx1 flx2 G : Int → Int → Int → K) (i j k : Int) : K :=
  donorSum3 o (psi i j k) (flx0 i j k) (flx0 (i - 1) j k) (flx1 i j k) (flx1 i (j - 1) k)
    (flx2 i j k) (flx2 i j (k - 1)) (gFac3 o 0 G i j k)

/-- `self_advec_donorcell` update of one cell (mpdata_osc_1d.hpp:137-165): `donorcell_sum` is called with the
*same* array as `psi_new` and `psi_old`. In the Kahan branch `kahan_zro` zeroes `psi_new` first, so the
`psi_old` added afterwards is already 0. -/
def selfAdvec1 (o : OptsT) (psiOld flx1 flx2 g : K) : K :=
  if isset o oKhn then kahanSum [0, -flx1 / g, flx2 / g]
  else psiOld + (-flx1 + flx2) / g

/-- the same in 2-D (mpdata_osc_2d.hpp:188-221) -/
def selfAdvec2 (o : OptsT) (psiOld flx1 flx2 flx3 flx4 g : K) : K :=
  if isset o oKhn then kahanSum [0, -flx1 / g, flx2 / g, -flx3 / g, flx4 / g]
  else psiOld + ((-flx1 + flx2) + (-flx3 + flx4)) / g

/-- the same in 3-D (mpdata_osc_3d.hpp:207-245) -/
def selfAdvec3 (o : OptsT) (psiOld flx1 flx2 flx3 flx4 flx5 flx6 g : K) : K :=
  if isset o oKhn then kahanSum [0, -flx1 / g, flx2 / g, -flx3 / g, flx4 / g, -flx5 / g, flx6 / g]
  else psiOld + ((-flx1 + flx2) + (-flx3 + flx4) + (-flx5 + flx6)) / g

end Mpdata
