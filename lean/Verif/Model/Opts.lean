import Verif.Basic
/-! # Option masks, vector indexing and index permutations
Models `libmpdata++/opts.hpp`, `arrvec_t::operator[]` of `libmpdata++/blitz.hpp` and
`libmpdata++/formulae/idxperm.hpp`. -/
namespace Mpdata

/-- `opts_t` (opts.hpp:15, `unsigned long`): a bit mask. Simplification: unbounded `Nat`. -/
abbrev OptsT := Nat

/-- `opts::bit` (opts.hpp:18-21). -/
def bit (x : Nat) : OptsT := 1 <<< x

/-- `opts::isset` (opts.hpp:23-26). -/
def isset (x y : OptsT) : Bool := (x &&& y) != 0

/-- `opts::most_significant` (opts.hpp:29-32): `int(log(x)/log(2)) + 1`, 0 for `x = 0`.
Simplification: the floating-point logarithm quotient is replaced by the exact base-2 logarithm. -/
def mostSignificant (x : OptsT) : Nat := if x = 0 then 0 else Nat.log2 x + 1

/-- option flags (opts.hpp:34-49) -/
def oFct : OptsT := bit 0
def oAbs : OptsT := bit 1
def oTot : OptsT := bit 2
def oPfc : OptsT := bit 3
def oNpa : OptsT := bit 4
def oIga : OptsT := bit 5
def oNug : OptsT := bit 6
def oDfl : OptsT := bit 7
def oKhn : OptsT := bit 8
def oDiv2 : OptsT := bit 9
def oDiv3 : OptsT := bit 10
def oDiv3dt : OptsT := bit 11
def oFot : OptsT := bit 12

/-- `opt_order` with the names of `opt2name` (opts.hpp:51-64, 69); note that `div_3rd_dt` is in neither. -/
def optOrder : List (Nat × List Char) :=
  [(6, "nug".toList), (5, "iga".toList), (1, "abs".toList), (7, "dfl".toList),
   (9, "div_2nd".toList), (2, "tot".toList), (10, "div_3rd".toList), (12, "fot".toList),
   (0, "fct".toList), (3, "pfc".toList), (4, "npa".toList), (8, "khn".toList)]

/-- the accumulation loop of `opts_string` (opts.hpp:68-76): `ret += '|' + name`. -/
def optsStringAcc (opts : OptsT) : List (Nat × List Char) → List Char
  | [] => []
  | (b, name) :: rest =>
    (if isset opts (bit b) then '|' :: name else []) ++ optsStringAcc opts rest

/-- `opts_string` (opts.hpp:66-78): `ret.substr(1)`, or "0" when nothing is set.
The string is a list of characters. -/
def optsString (opts : OptsT) : List Char :=
  let ret := optsStringAcc opts optOrder
  if ret.length > 0 then ret.drop 1 else ['0']

/-- `arrvec_t::operator[]` (blitz.hpp:89-101): `at((i + size()) % size())`; the sum of an `int`
and a `size_t` is computed in `size_t`, i.e. modulo 2^64. -/
def arrvecIdx (size : Nat) (i : Int) : Nat := ((i + size) % (2 ^ 64 : Int)).toNat % size

/-- `idxperm::pi<d>(a0, a1)` in 2-D (idxperm.hpp:19-23, 32-36). -/
def pi2 (d : Nat) (a0 a1 : Int) : Int × Int :=
  if d = 0 then (a0, a1) else (a1, a0)

/-- `idxperm::pi<d>(a0, a1, a2)` in 3-D (idxperm.hpp:42-49, 64-71). -/
def pi3 (d : Nat) (a0 a1 a2 : Int) : Int × Int × Int :=
  if d = 0 then (a0, a1, a2) else if d = 1 then (a2, a0, a1) else (a1, a2, a0)

/-- `formulae::mpdata::halo` (formulae/mpdata/formulae_mpdata_common.hpp:50-59). -/
def mpdataHalo (o : OptsT) : Nat :=
  if isset o oTot || isset o oDfl || isset o oDiv2 || isset o oDiv3 || isset o oDiv3dt then 2 else 1

/-- halo width of the MPDATA solvers: `max(minhalo, halo(opts))` with `fct_min_halo = 2`
(solvers/detail/mpdata_common.hpp:21-25, solvers/detail/mpdata_fct_common.hpp:17-23) -/
def solverHalo (o : OptsT) : Nat := max (mpdataHalo o) (if isset o oFct then 2 else 1)

/-- configurations whose stencils the halo exchanges of the program cover: either at most two passes, or
flux-corrected, or not in divergence form -/
def HaloCovered (o : OptsT) (n : Nat) : Prop :=
  n ≤ 2 ∨ isset o oFct = true ∨ (isset o oDiv2 = false ∧ isset o oDiv3 = false)

end Mpdata
