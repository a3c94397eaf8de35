import Verif.Basic
import Verif.Model.Range
import Mathlib.Algebra.Order.Floor.Defs
import Mathlib.Data.Nat.Digits.Defs
/-!
# Output: when records are made, the time axis, hyperslabs, names, plot announcements, XDMF dimensions
(`output/detail/output_common.hpp`, `output/hdf5.hpp`, `output/gnuplot.hpp`, `output/detail/xdmf_writer.hpp`)
-/
set_option linter.unusedSectionVars false
namespace Mpdata

/-! ## Fixed time step -/

/-- output parameters `outfreq`, `outstart`, `outwindow` (output_common.hpp:174-178) -/
structure OutPar where
  freq : Nat
  start : Nat
  window : Nat

/-- number of `record_all()` calls in `hook_post_step` at a given timestep (output_common.hpp:156-163);
`Int.tmod` is the truncating C++ `%` -/
def recCount (p : OutPar) (timestep : Nat) : Nat :=
  ((List.range p.window).filter fun t : Nat =>
    decide (((timestep : Int) - t).tmod p.freq = 0) && decide (((timestep : Int) - t) ≥ p.start)).length

/-- the records made by the steps `s+1, ..., s+nt` -/
def recSteps (p : OutPar) (s nt : Nat) : List Nat :=
  (List.range nt).flatMap fun i => List.replicate (recCount p (s + 1 + i)) (s + 1 + i)

/-- one `advance(nt)` as seen by the output: `hook_ante_loop` records step 0 whenever `timestep == 0`
(solver_common.hpp:277-286, output_common.hpp:47-65), then the steps. State: timestep and the list of recorded timesteps. -/
def outAdvance (p : OutPar) (st : Nat × List Nat) (nt : Nat) : Nat × List Nat :=
  (st.1 + nt, (if st.1 = 0 then st.2 ++ [0] else st.2) ++ recSteps p st.1 nt)

/-- a sequence of `advance` calls on a fresh solver -/
def outRun (p : OutPar) (calls : List Nat) : Nat × List Nat := calls.foldl (outAdvance p) (0, [])

/-! ## HDF5 time axis -/

/-- `nt_out` (hdf5.hpp:203-205): `int` arithmetic, `/` truncating -/
def ntOut (p : OutPar) (nt : Nat) : Int :=
  (((nt : Int) - p.start).tdiv p.freq + 1) * p.window + (if p.start = 0 then 0 else 1)
    - max 0 ((p.window : Int) - (nt % p.freq : Nat) - 1)

/-- the `k`-th entry of the `T` coordinate in units of `dt` (hdf5.hpp:210-216).
`coord(Range(1, nt_out-1)) = ... firstIndex() ...` is evaluated by Blitz++ with the indices of the sub-array counted from 0. -/
def tAxis (p : OutPar) (k : Nat) : Nat :=
  if p.start = 0 then k / p.window * p.freq + k % p.window
  else if k = 0 then 0
  else (k - 1) / p.window * p.freq + (k - 1) % p.window + p.start

/-! ## Gnuplot announcements (1-D) -/

/-- the values of `t` for which plot elements are announced (gnuplot.hpp:101-103): `for (t = 0; t <= nt; t += outfreq)`, skipping `0 < t < outstart` -/
def gnuplotAnnounced (p : OutPar) (nt : Nat) : List Nat :=
  ((List.range (nt / p.freq + 1)).map (· * p.freq)).filter fun t => ! (decide (t > 0) && decide (t < p.start))

/-! ## HDF5 hyperslabs with several processes -/

/-- offset and length, along the first dimension, of the part of a data set that a process writes -/
structure Hyperslab where
  off : Int
  len : Int

/-- indices of the data set selected by a hyperslab -/
def Hyperslab.Has (h : Hyperslab) (x : Int) : Prop := h.off ≤ x ∧ x < h.off + h.len

instance (h : Hyperslab) (x : Int) : Decidable (h.Has x) := inferInstanceAs (Decidable (_ ∧ _))

/-- cell data: `shape[0]`, `offst[0]` (hdf5.hpp:126, 137) for the process with sub-domain `r` -/
def cellSlab (r : Rng) : Hyperslab := ⟨r.first, r.last - r.first + 1⟩

/-- coordinates: `cshape[0]`, `offst[0]` (hdf5.hpp:127, 134-135, 137) -/
def coordSlab (rank size : Nat) (r : Rng) : Hyperslab :=
  ⟨r.first, (r.last - r.first + 1) + (if rank = size - 1 then 1 else 0)⟩

/-- data with halo: `shape_h[0]`, `offst_h[0]` (hdf5.hpp:129-132, 138) -/
def haloSlab (rank size : Nat) (halo : Int) (r : Rng) : Hyperslab :=
  ⟨if rank = 0 then 0 else r.first + halo,
   if rank = 0 ∨ rank = size - 1 then r.last - r.first + 1 + halo else r.last - r.first + 1⟩

/-- `offst_mem_h[0]` (hdf5.hpp:139-140): offset within the process's own array, whose index 0 is grid point `first - halo` -/
def haloMemOff (rank : Nat) (halo : Int) : Int := if rank > 0 then halo else 0

/-- grid point written at data-set index `x` by a process, through the memory offset -/
def haloPoint (rank size : Nat) (halo : Int) (r : Rng) (x : Int) : Int :=
  (r.first - halo) + haloMemOff rank halo + (x - (haloSlab rank size halo r).off)

/-- digits (most significant first) in the file name `base_name()` (hdf5.hpp:237-242): decimal, padded with zeros to width 10 -/
def nameDigits (timestep : Nat) : List Nat :=
  let d := (Nat.digits 10 timestep).reverse
  List.replicate (10 - d.length) 0 ++ d

/-! ## XDMF -/

/-- `make_attribute` (xdmf_writer.hpp:104-111): declared dimension for an argument `d`, per direction -/
def xdmfMakeAttr (d : Int) : Int := d - 1
/-- `setup` (xdmf_writer.hpp:115-132): topology and coordinates are declared with `dimensions + 1` -/
def xdmfCoordDim (n : Int) : Int := n + 1
/-- `setup` (xdmf_writer.hpp:127-130): output variables -/
def xdmfVarDim (n : Int) : Int := xdmfMakeAttr (n + 1)
/-- `add_const_attribute` (xdmf_writer.hpp:144-153): the G-factor -/
def xdmfConstDim (n : Int) : Int := xdmfMakeAttr (n + 1)
/-- `add_attribute` (xdmf_writer.hpp:135-142) called by `record_aux` with the grid size (hdf5_xdmf.hpp:85-93) -/
def xdmfAuxDim (n : Int) : Int := xdmfMakeAttr n
/-- dimension of the data set written for a variable, the G-factor or an auxiliary variable (hdf5.hpp:104, 117, 226, 273-278, 360-365) -/
def hdfCellDim (n : Int) : Int := n
/-- dimension of the coordinate data sets (hdf5.hpp:112, 121, 187) -/
def hdfCoordDim (n : Int) : Int := n + 1

/-! ## Variable time step -/

variable {K : Type} [Field K] [LinearOrder K] [FloorRing K]

/-- state of the record machinery (output_common.hpp:31-38): `do_record_cnt`, `record_time`, `intrp_times`, `intrp_vars` of one variable at one point, and the
list of records made, each with its nominal time and value -/
structure VOut (K : Type) where
  cnt : Nat
  recTime : K
  times : Nat → K
  vars : Nat → K
  log : List (K × K)

/-- `hook_ante_step` (output_common.hpp:72-102), `ord` = `out_intrp_ord`; `y` is the current value -/
def voAnte (ord : Nat) (freq time dt y : K) (s : VOut K) : VOut K :=
  let nextIdx := ⌊(time + dt) / freq⌋
  let currIdx := ⌊time / freq⌋
  let s := { s with cnt := if s.cnt > 0 then s.cnt - 1 else 0 }
  if nextIdx > currIdx ∨ s.cnt > 0 then
    let s := if s.cnt = 0 then { s with cnt := ord, recTime := nextIdx * freq } else s
    let ix := ord - s.cnt
    { s with times := fun j => if j = ix then time else s.times j, vars := fun j => if j = ix then y else s.vars j }
  else s

/-- linear interpolation (output_common.hpp:118-127) -/
def intrp1 (t0 t1 t y0 y1 : K) : K := y0 * ((t1 - t) / (t1 - t0)) + (t - t0) / (t1 - t0) * y1

/-- quadratic interpolation (output_common.hpp:129-143) -/
def intrp2 (t0 t1 t2 t y0 y1 y2 : K) : K :=
  y0 + (y1 - y0) / (t1 - t0) * (t - t0)
    + ((y2 - y1) / ((t2 - t1) * (t2 - t0)) - (y1 - y0) / ((t1 - t0) * (t2 - t0))) * (t - t0) * (t - t1)

/-- `hook_post_step` with var_dt (output_common.hpp:104-155): `time` and `y` are those after the step -/
def voPost (ord : Nat) (time y : K) (s : VOut K) : VOut K :=
  if s.cnt = 1 then
    let v := if ord = 1 then intrp1 (s.times 0) time s.recTime (s.vars 0) y
             else intrp2 (s.times 0) (s.times 1) time s.recTime (s.vars 0) (s.vars 1) y
    { s with vars := fun j => if j = 0 then v else s.vars j, log := s.log ++ [(s.recTime, v)] }
  else s

/-- state after `n` steps: `t k` is the time at the beginning of step `k`, `y k` the value then; `hook_ante_loop` records the initial state (output_common.hpp:51-63) -/
def voRun (ord : Nat) (freq : K) (t y : Nat → K) (times0 vars0 : Nat → K) : Nat → VOut K
  | 0 => ⟨0, t 0, times0, fun j => if j = 0 then y 0 else vars0 j, [(t 0, y 0)]⟩
  | k + 1 => voPost ord (t (k + 1)) (y (k + 1)) (voAnte ord freq (t k) (t (k + 1) - t k) (y k) (voRun ord freq t y times0 vars0 k))

end Mpdata
