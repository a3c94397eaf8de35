import Verif.Props.HaloDiv3Stages
/-! # C20 with the third-order divergence form, FCT and three passes beside a non-cyclic boundary: unset corner values are read

The tables below are values of the arrays of the model after each stage of one step; each table is checked by the kernel against the stage
that produces it (`Holds`), so nothing rests on how they were obtained. -/
namespace Mpdata

/-- infinite gauge, flux-corrected, divergence form of third order -/
def ocOpts : OptsT := oIga ||| oFct ||| oDiv2 ||| oDiv3

/-- an open channel: open boundaries in dimension 0, cyclic in dimension 1, 4×4 cells -/
def ocB : Bnd 2 := ⟨fun d => if d = 0 then .opened else .cyclic, fun d => if d = 0 then .opened else .cyclic, fun _ => ⟨0, 3⟩, solverHalo ocOpts, 0⟩

/-- three passes in the channel -/
def ocCfg : CfgN 2 ℚ :=
  { o := ocOpts, nIters := 3, filter := false, eps := 1, F := formulae2 ocOpts .exact .noextrp 1, box := fun _ => ⟨0, 3⟩
    st := ⟨fun _ => 1, fun _ _ => 0, fun _ _ => 0⟩
    fillS := xchngSclr ocB [0, 1] (solverHalo ocOpts) false
    fillA := xchngAlng ocB
    fillN := xchngNrml ocB }

/-- one filled cell, uniform flow along the channel with Courant number 1/2, and `junk` in the temporary arrays -/
def ocMem (junk : ℚ) : MemN 2 ℚ :=
  demoMemN (fun x => if x 0 = 0 ∧ x 1 = 0 then 1 else 0) (prepGC ocCfg (solverHalo ocOpts) (fun d _ => if d = 0 then 0 else 1/2)) junk

/-! ## Leftover value 0 -/

def ocAT0 : List (List (Int × Nat)) :=
  [[(0, 1), (0, 1), (0, 1), (0, 1), (0, 1), (0, 1), (0, 1), (0, 1), (0, 1), (0, 1)],
   [(0, 1), (0, 1), (0, 1), (1, 2), (0, 1), (0, 1), (-1, 2), (0, 1), (0, 1), (0, 1)],
   [(0, 1), (0, 1), (0, 1), (1, 2), (0, 1), (0, 1), (-1, 2), (0, 1), (0, 1), (0, 1)],
   [(0, 1), (0, 1), (0, 1), (0, 1), (0, 1), (0, 1), (0, 1), (0, 1), (0, 1), (0, 1)],
   [(0, 1), (0, 1), (0, 1), (0, 1), (0, 1), (0, 1), (0, 1), (0, 1), (0, 1), (0, 1)],
   [(0, 1), (0, 1), (0, 1), (0, 1), (0, 1), (0, 1), (0, 1), (0, 1), (0, 1), (0, 1)],
   [(0, 1), (0, 1), (0, 1), (-1, 2), (0, 1), (0, 1), (1, 2), (0, 1), (0, 1), (0, 1)],
   [(0, 1), (0, 1), (0, 1), (-1, 2), (0, 1), (0, 1), (1, 2), (0, 1), (0, 1), (0, 1)],
   [(0, 1), (0, 1), (0, 1), (0, 1), (0, 1), (0, 1), (0, 1), (0, 1), (0, 1), (0, 1)],
   [(0, 1), (0, 1), (0, 1), (0, 1), (0, 1), (0, 1), (0, 1), (0, 1), (0, 1), (0, 1)]]

def ocAT1 : List (List (Int × Nat)) :=
  [[(1, 2), (1, 2), (1, 2), (1, 2), (1, 2), (1, 2), (1, 2), (1, 2), (1, 2), (1, 2)],
   [(1, 2), (0, 1), (0, 1), (0, 1), (0, 1), (0, 1), (0, 1), (0, 1), (1, 2), (1, 2)],
   [(1, 2), (0, 1), (0, 1), (0, 1), (0, 1), (0, 1), (0, 1), (0, 1), (1, 2), (1, 2)],
   [(1, 2), (1, 2), (1, 2), (1, 2), (1, 2), (1, 2), (1, 2), (1, 2), (1, 2), (1, 2)],
   [(1, 2), (1, 2), (1, 2), (1, 2), (1, 2), (1, 2), (1, 2), (1, 2), (1, 2), (1, 2)],
   [(1, 2), (1, 2), (1, 2), (1, 2), (1, 2), (1, 2), (1, 2), (1, 2), (1, 2), (1, 2)],
   [(1, 2), (1, 2), (1, 2), (1, 2), (1, 2), (1, 2), (1, 2), (1, 2), (1, 2), (1, 2)],
   [(1, 2), (0, 1), (0, 1), (0, 1), (0, 1), (0, 1), (0, 1), (0, 1), (1, 2), (1, 2)],
   [(1, 2), (0, 1), (0, 1), (0, 1), (0, 1), (0, 1), (0, 1), (0, 1), (1, 2), (1, 2)],
   [(1, 2), (1, 2), (1, 2), (1, 2), (1, 2), (1, 2), (1, 2), (1, 2), (1, 2), (1, 2)]]

def ocA0 : MemN 2 ℚ := sGC ocAT0 ocAT1 (ocMem 0)

theorem ocA0_eq : ocA0 = (ocMem 0) := sGC_eq (by decide +kernel) (by decide +kernel)

def ocAT2 : List (List (Int × Nat)) :=
  [[(0, 1), (0, 1), (0, 1), (0, 1), (0, 1), (0, 1), (0, 1), (0, 1), (0, 1), (0, 1)],
   [(0, 1), (0, 1), (0, 1), (1, 1), (0, 1), (0, 1), (0, 1), (0, 1), (0, 1), (0, 1)],
   [(0, 1), (0, 1), (0, 1), (1, 1), (0, 1), (0, 1), (0, 1), (0, 1), (0, 1), (0, 1)],
   [(0, 1), (0, 1), (0, 1), (1, 1), (0, 1), (0, 1), (0, 1), (0, 1), (0, 1), (0, 1)],
   [(0, 1), (0, 1), (0, 1), (0, 1), (0, 1), (0, 1), (0, 1), (0, 1), (0, 1), (0, 1)],
   [(0, 1), (0, 1), (0, 1), (0, 1), (0, 1), (0, 1), (0, 1), (0, 1), (0, 1), (0, 1)],
   [(0, 1), (0, 1), (0, 1), (0, 1), (0, 1), (0, 1), (0, 1), (0, 1), (0, 1), (0, 1)],
   [(0, 1), (0, 1), (0, 1), (0, 1), (0, 1), (0, 1), (0, 1), (0, 1), (0, 1), (0, 1)],
   [(0, 1), (0, 1), (0, 1), (0, 1), (0, 1), (0, 1), (0, 1), (0, 1), (0, 1), (0, 1)],
   [(0, 1), (0, 1), (0, 1), (0, 1), (0, 1), (0, 1), (0, 1), (0, 1), (0, 1), (0, 1)]]

def ocA1 : MemN 2 ℚ := sPsi ocAT2 (gFill ocCfg ocA0)

theorem ocA1_eq : ocA1 = gFill ocCfg ocA0 := sPsi_eq (by decide +kernel)

def ocAT3 : List (List (Int × Nat)) :=
  [[(0, 1), (0, 1), (0, 1), (0, 1), (0, 1), (0, 1), (0, 1), (0, 1), (0, 1), (0, 1)],
   [(0, 1), (0, 1), (0, 1), (0, 1), (0, 1), (0, 1), (0, 1), (0, 1), (0, 1), (0, 1)],
   [(0, 1), (0, 1), (0, 1), (0, 1), (0, 1), (0, 1), (0, 1), (0, 1), (0, 1), (0, 1)],
   [(0, 1), (0, 1), (0, 1), (0, 1), (0, 1), (0, 1), (0, 1), (0, 1), (0, 1), (0, 1)],
   [(0, 1), (0, 1), (0, 1), (0, 1), (0, 1), (0, 1), (0, 1), (0, 1), (0, 1), (0, 1)],
   [(0, 1), (0, 1), (0, 1), (0, 1), (0, 1), (0, 1), (0, 1), (0, 1), (0, 1), (0, 1)],
   [(0, 1), (0, 1), (0, 1), (0, 1), (0, 1), (0, 1), (0, 1), (0, 1), (0, 1), (0, 1)],
   [(0, 1), (0, 1), (0, 1), (0, 1), (0, 1), (0, 1), (0, 1), (0, 1), (0, 1), (0, 1)],
   [(0, 1), (0, 1), (0, 1), (0, 1), (0, 1), (0, 1), (0, 1), (0, 1), (0, 1), (0, 1)],
   [(0, 1), (0, 1), (0, 1), (0, 1), (0, 1), (0, 1), (0, 1), (0, 1), (0, 1), (0, 1)]]

def ocAT4 : List (List (Int × Nat)) :=
  [[(0, 1), (0, 1), (0, 1), (0, 1), (0, 1), (0, 1), (0, 1), (0, 1), (0, 1), (0, 1)],
   [(0, 1), (0, 1), (0, 1), (0, 1), (0, 1), (0, 1), (0, 1), (0, 1), (0, 1), (0, 1)],
   [(0, 1), (0, 1), (1, 1), (1, 1), (1, 1), (0, 1), (0, 1), (0, 1), (0, 1), (0, 1)],
   [(0, 1), (0, 1), (1, 1), (1, 1), (1, 1), (0, 1), (0, 1), (0, 1), (0, 1), (0, 1)],
   [(0, 1), (0, 1), (0, 1), (1, 1), (0, 1), (0, 1), (0, 1), (0, 1), (0, 1), (0, 1)],
   [(0, 1), (0, 1), (0, 1), (0, 1), (0, 1), (0, 1), (0, 1), (0, 1), (0, 1), (0, 1)],
   [(0, 1), (0, 1), (0, 1), (0, 1), (0, 1), (0, 1), (0, 1), (0, 1), (0, 1), (0, 1)],
   [(0, 1), (0, 1), (0, 1), (0, 1), (0, 1), (0, 1), (0, 1), (0, 1), (0, 1), (0, 1)],
   [(0, 1), (0, 1), (0, 1), (0, 1), (0, 1), (0, 1), (0, 1), (0, 1), (0, 1), (0, 1)],
   [(0, 1), (0, 1), (0, 1), (0, 1), (0, 1), (0, 1), (0, 1), (0, 1), (0, 1), (0, 1)]]

def ocA2 : MemN 2 ℚ := sMnMx ocAT3 ocAT4 (fctInitN ocCfg ocA1)

theorem ocA2_eq : ocA2 = fctInitN ocCfg ocA1 := sMnMx_eq (by decide +kernel) (by decide +kernel)

def ocAT5 : List (List (Int × Nat)) :=
  [[(0, 1), (0, 1), (0, 1), (0, 1), (0, 1), (0, 1), (0, 1), (0, 1), (0, 1), (0, 1)],
   [(0, 1), (0, 1), (0, 1), (0, 1), (0, 1), (0, 1), (0, 1), (0, 1), (0, 1), (0, 1)],
   [(0, 1), (0, 1), (0, 1), (1, 2), (0, 1), (0, 1), (0, 1), (0, 1), (0, 1), (0, 1)],
   [(0, 1), (0, 1), (0, 1), (0, 1), (0, 1), (0, 1), (0, 1), (0, 1), (0, 1), (0, 1)],
   [(0, 1), (0, 1), (0, 1), (0, 1), (0, 1), (0, 1), (0, 1), (0, 1), (0, 1), (0, 1)],
   [(0, 1), (0, 1), (0, 1), (0, 1), (0, 1), (0, 1), (0, 1), (0, 1), (0, 1), (0, 1)],
   [(0, 1), (0, 1), (0, 1), (0, 1), (0, 1), (0, 1), (0, 1), (0, 1), (0, 1), (0, 1)],
   [(0, 1), (0, 1), (0, 1), (0, 1), (0, 1), (0, 1), (0, 1), (0, 1), (0, 1), (0, 1)],
   [(0, 1), (0, 1), (0, 1), (0, 1), (0, 1), (0, 1), (0, 1), (0, 1), (0, 1), (0, 1)],
   [(0, 1), (0, 1), (0, 1), (0, 1), (0, 1), (0, 1), (0, 1), (0, 1), (0, 1), (0, 1)]]

def ocAT6 : List (List (Int × Nat)) :=
  [[(0, 1), (0, 1), (0, 1), (0, 1), (0, 1), (0, 1), (0, 1), (0, 1), (0, 1), (0, 1)],
   [(0, 1), (0, 1), (0, 1), (0, 1), (0, 1), (0, 1), (0, 1), (0, 1), (0, 1), (0, 1)],
   [(0, 1), (0, 1), (0, 1), (0, 1), (0, 1), (0, 1), (0, 1), (0, 1), (0, 1), (0, 1)],
   [(0, 1), (0, 1), (0, 1), (1, 2), (0, 1), (0, 1), (0, 1), (0, 1), (0, 1), (0, 1)],
   [(0, 1), (0, 1), (0, 1), (0, 1), (0, 1), (0, 1), (0, 1), (0, 1), (0, 1), (0, 1)],
   [(0, 1), (0, 1), (0, 1), (0, 1), (0, 1), (0, 1), (0, 1), (0, 1), (0, 1), (0, 1)],
   [(0, 1), (0, 1), (0, 1), (0, 1), (0, 1), (0, 1), (0, 1), (0, 1), (0, 1), (0, 1)],
   [(0, 1), (0, 1), (0, 1), (0, 1), (0, 1), (0, 1), (0, 1), (0, 1), (0, 1), (0, 1)],
   [(0, 1), (0, 1), (0, 1), (0, 1), (0, 1), (0, 1), (0, 1), (0, 1), (0, 1), (0, 1)],
   [(0, 1), (0, 1), (0, 1), (0, 1), (0, 1), (0, 1), (0, 1), (0, 1), (0, 1), (0, 1)]]

def ocA3 : MemN 2 ℚ := sFlux ocAT5 ocAT6 (gFlux ocCfg ocA2)

theorem ocA3_eq : ocA3 = gFlux ocCfg ocA2 := sFlux_eq (by decide +kernel) (by decide +kernel)

def ocAT7 : List (List (Int × Nat)) :=
  [[(0, 1), (0, 1), (0, 1), (0, 1), (0, 1), (0, 1), (0, 1), (0, 1), (0, 1), (0, 1)],
   [(0, 1), (0, 1), (0, 1), (0, 1), (0, 1), (0, 1), (0, 1), (0, 1), (0, 1), (0, 1)],
   [(0, 1), (0, 1), (0, 1), (0, 1), (0, 1), (0, 1), (0, 1), (0, 1), (0, 1), (0, 1)],
   [(0, 1), (0, 1), (0, 1), (1, 1), (1, 2), (0, 1), (0, 1), (0, 1), (0, 1), (0, 1)],
   [(0, 1), (0, 1), (0, 1), (0, 1), (0, 1), (0, 1), (0, 1), (0, 1), (0, 1), (0, 1)],
   [(0, 1), (0, 1), (0, 1), (0, 1), (0, 1), (0, 1), (0, 1), (0, 1), (0, 1), (0, 1)],
   [(0, 1), (0, 1), (0, 1), (0, 1), (0, 1), (0, 1), (0, 1), (0, 1), (0, 1), (0, 1)],
   [(0, 1), (0, 1), (0, 1), (0, 1), (0, 1), (0, 1), (0, 1), (0, 1), (0, 1), (0, 1)],
   [(0, 1), (0, 1), (0, 1), (0, 1), (0, 1), (0, 1), (0, 1), (0, 1), (0, 1), (0, 1)],
   [(0, 1), (0, 1), (0, 1), (0, 1), (0, 1), (0, 1), (0, 1), (0, 1), (0, 1), (0, 1)]]

def ocA4 : MemN 2 ℚ := sPsiN ocAT7 (gDon0 ocCfg ocA3)

theorem ocA4_eq : ocA4 = gDon0 ocCfg ocA3 := sPsiN_eq (by decide +kernel)

def ocAT8 : List (List (Int × Nat)) :=
  [[(0, 1), (0, 1), (0, 1), (0, 1), (0, 1), (0, 1), (0, 1), (0, 1), (0, 1), (0, 1)],
   [(0, 1), (1, 2), (0, 1), (1, 1), (1, 2), (0, 1), (0, 1), (1, 2), (0, 1), (0, 1)],
   [(0, 1), (1, 2), (0, 1), (1, 1), (1, 2), (0, 1), (0, 1), (1, 2), (0, 1), (0, 1)],
   [(0, 1), (1, 2), (0, 1), (1, 1), (1, 2), (0, 1), (0, 1), (1, 2), (0, 1), (0, 1)],
   [(0, 1), (0, 1), (0, 1), (0, 1), (0, 1), (0, 1), (0, 1), (0, 1), (0, 1), (0, 1)],
   [(0, 1), (0, 1), (0, 1), (0, 1), (0, 1), (0, 1), (0, 1), (0, 1), (0, 1), (0, 1)],
   [(0, 1), (0, 1), (0, 1), (0, 1), (0, 1), (0, 1), (0, 1), (0, 1), (0, 1), (0, 1)],
   [(0, 1), (0, 1), (0, 1), (0, 1), (0, 1), (0, 1), (0, 1), (0, 1), (0, 1), (0, 1)],
   [(0, 1), (0, 1), (0, 1), (0, 1), (0, 1), (0, 1), (0, 1), (0, 1), (0, 1), (0, 1)],
   [(0, 1), (0, 1), (0, 1), (0, 1), (0, 1), (0, 1), (0, 1), (0, 1), (0, 1), (0, 1)]]

def ocA5 : MemN 2 ℚ := sPsi ocAT8 (gSwap ocCfg ocA4)

theorem ocA5_eq : ocA5 = gSwap ocCfg ocA4 := sPsi_eq (by decide +kernel)

def ocAT9 : List (List (Int × Nat)) :=
  [[(0, 1), (0, 1), (0, 1), (0, 1), (0, 1), (0, 1), (0, 1), (0, 1), (0, 1), (0, 1)],
   [(0, 1), (0, 1), (0, 1), (0, 1), (0, 1), (0, 1), (0, 1), (0, 1), (0, 1), (0, 1)],
   [(0, 1), (0, 1), (0, 1), (37, 768), (0, 1), (0, 1), (37, 768), (0, 1), (0, 1), (0, 1)],
   [(0, 1), (0, 1), (0, 1), (-1, 32), (0, 1), (0, 1), (0, 1), (0, 1), (0, 1), (0, 1)],
   [(0, 1), (0, 1), (0, 1), (0, 1), (0, 1), (0, 1), (0, 1), (0, 1), (0, 1), (0, 1)],
   [(0, 1), (0, 1), (0, 1), (0, 1), (0, 1), (0, 1), (0, 1), (0, 1), (0, 1), (0, 1)],
   [(0, 1), (0, 1), (0, 1), (0, 1), (0, 1), (0, 1), (0, 1), (0, 1), (0, 1), (0, 1)],
   [(0, 1), (0, 1), (0, 1), (0, 1), (0, 1), (0, 1), (0, 1), (0, 1), (0, 1), (0, 1)],
   [(0, 1), (0, 1), (0, 1), (0, 1), (0, 1), (0, 1), (0, 1), (0, 1), (0, 1), (0, 1)],
   [(0, 1), (0, 1), (0, 1), (0, 1), (0, 1), (0, 1), (0, 1), (0, 1), (0, 1), (0, 1)]]

def ocAT10 : List (List (Int × Nat)) :=
  [[(0, 1), (0, 1), (0, 1), (0, 1), (0, 1), (0, 1), (0, 1), (0, 1), (0, 1), (0, 1)],
   [(0, 1), (0, 1), (0, 1), (0, 1), (0, 1), (0, 1), (0, 1), (0, 1), (0, 1), (0, 1)],
   [(0, 1), (0, 1), (0, 1), (0, 1), (0, 1), (0, 1), (0, 1), (0, 1), (0, 1), (0, 1)],
   [(0, 1), (0, 1), (31, 384), (15, 256), (-1, 16), (0, 1), (31, 768), (0, 1), (0, 1), (0, 1)],
   [(0, 1), (0, 1), (0, 1), (0, 1), (0, 1), (0, 1), (0, 1), (0, 1), (0, 1), (0, 1)],
   [(0, 1), (0, 1), (0, 1), (0, 1), (0, 1), (0, 1), (0, 1), (0, 1), (0, 1), (0, 1)],
   [(0, 1), (0, 1), (0, 1), (0, 1), (0, 1), (0, 1), (0, 1), (0, 1), (0, 1), (0, 1)],
   [(0, 1), (0, 1), (0, 1), (0, 1), (0, 1), (0, 1), (0, 1), (0, 1), (0, 1), (0, 1)],
   [(0, 1), (0, 1), (0, 1), (0, 1), (0, 1), (0, 1), (0, 1), (0, 1), (0, 1), (0, 1)],
   [(0, 1), (0, 1), (0, 1), (0, 1), (0, 1), (0, 1), (0, 1), (0, 1), (0, 1), (0, 1)]]

def ocA6 : MemN 2 ℚ := sTmp0 ocAT9 ocAT10 (gVel ocCfg 1 ocA5)

theorem ocA6_eq : ocA6 = gVel ocCfg 1 ocA5 := sTmp0_eq (by decide +kernel) (by decide +kernel)

def ocAT11 : List (List (Int × Nat)) :=
  [[(0, 1), (0, 1), (0, 1), (0, 1), (0, 1), (0, 1), (0, 1), (0, 1), (0, 1), (0, 1)],
   [(0, 1), (0, 1), (0, 1), (7, 256), (-31, 256), (1, 16), (0, 1), (0, 1), (0, 1), (0, 1)],
   [(0, 1), (0, 1), (0, 1), (37, 768), (0, 1), (0, 1), (37, 768), (0, 1), (0, 1), (0, 1)],
   [(0, 1), (0, 1), (0, 1), (-1, 32), (0, 1), (0, 1), (0, 1), (0, 1), (0, 1), (0, 1)],
   [(0, 1), (0, 1), (0, 1), (0, 1), (0, 1), (0, 1), (0, 1), (0, 1), (0, 1), (0, 1)],
   [(0, 1), (0, 1), (0, 1), (0, 1), (0, 1), (0, 1), (0, 1), (0, 1), (0, 1), (0, 1)],
   [(0, 1), (0, 1), (0, 1), (0, 1), (0, 1), (0, 1), (0, 1), (0, 1), (0, 1), (0, 1)],
   [(0, 1), (0, 1), (0, 1), (0, 1), (0, 1), (0, 1), (0, 1), (0, 1), (0, 1), (0, 1)],
   [(0, 1), (0, 1), (0, 1), (0, 1), (0, 1), (0, 1), (0, 1), (0, 1), (0, 1), (0, 1)],
   [(0, 1), (0, 1), (0, 1), (0, 1), (0, 1), (0, 1), (0, 1), (0, 1), (0, 1), (0, 1)]]

def ocAT12 : List (List (Int × Nat)) :=
  [[(0, 1), (0, 1), (0, 1), (0, 1), (0, 1), (0, 1), (0, 1), (0, 1), (0, 1), (0, 1)],
   [(0, 1), (0, 1), (0, 1), (0, 1), (0, 1), (0, 1), (0, 1), (0, 1), (0, 1), (0, 1)],
   [(0, 1), (0, 1), (0, 1), (0, 1), (0, 1), (0, 1), (0, 1), (0, 1), (0, 1), (0, 1)],
   [(0, 1), (-1, 16), (0, 1), (15, 256), (-1, 16), (0, 1), (15, 256), (-1, 16), (0, 1), (0, 1)],
   [(0, 1), (0, 1), (0, 1), (0, 1), (0, 1), (0, 1), (0, 1), (0, 1), (0, 1), (0, 1)],
   [(0, 1), (0, 1), (0, 1), (0, 1), (0, 1), (0, 1), (0, 1), (0, 1), (0, 1), (0, 1)],
   [(0, 1), (0, 1), (0, 1), (0, 1), (0, 1), (0, 1), (0, 1), (0, 1), (0, 1), (0, 1)],
   [(0, 1), (0, 1), (0, 1), (0, 1), (0, 1), (0, 1), (0, 1), (0, 1), (0, 1), (0, 1)],
   [(0, 1), (0, 1), (0, 1), (0, 1), (0, 1), (0, 1), (0, 1), (0, 1), (0, 1), (0, 1)],
   [(0, 1), (0, 1), (0, 1), (0, 1), (0, 1), (0, 1), (0, 1), (0, 1), (0, 1), (0, 1)]]

def ocA7 : MemN 2 ℚ := sTmp0 ocAT11 ocAT12 (gFilA ocCfg 1 ocA6)

theorem ocA7_eq : ocA7 = gFilA ocCfg 1 ocA6 := sTmp0_eq (by decide +kernel) (by decide +kernel)

def ocA8 : MemN 2 ℚ := sTmp0 ocAT11 ocAT12 (gFilN ocCfg 1 ocA7)

theorem ocA8_eq : ocA8 = gFilN ocCfg 1 ocA7 := sTmp0_eq (by decide +kernel) (by decide +kernel)

def ocAT13 : List (List (Int × Nat)) :=
  [[(0, 1), (0, 1), (0, 1), (0, 1), (0, 1), (0, 1), (0, 1), (0, 1), (0, 1), (0, 1)],
   [(0, 1), (0, 1), (0, 1), (0, 1), (0, 1), (0, 1), (0, 1), (0, 1), (0, 1), (0, 1)],
   [(0, 1), (0, 1), (1, 1), (0, 1), (1, 2), (8, 17), (1, 2), (0, 1), (0, 1), (0, 1)],
   [(0, 1), (0, 1), (1, 1), (0, 1), (128, 287), (1, 2), (384, 805), (0, 1), (0, 1), (0, 1)],
   [(0, 1), (0, 1), (0, 1), (1, 1), (1, 2), (0, 1), (0, 1), (1, 2), (0, 1), (0, 1)],
   [(0, 1), (0, 1), (0, 1), (0, 1), (0, 1), (0, 1), (0, 1), (0, 1), (0, 1), (0, 1)],
   [(0, 1), (0, 1), (0, 1), (0, 1), (0, 1), (0, 1), (0, 1), (0, 1), (0, 1), (0, 1)],
   [(0, 1), (0, 1), (0, 1), (0, 1), (0, 1), (0, 1), (0, 1), (0, 1), (0, 1), (0, 1)],
   [(0, 1), (0, 1), (0, 1), (0, 1), (0, 1), (0, 1), (0, 1), (0, 1), (0, 1), (0, 1)],
   [(0, 1), (0, 1), (0, 1), (0, 1), (0, 1), (0, 1), (0, 1), (0, 1), (0, 1), (0, 1)]]

def ocAT14 : List (List (Int × Nat)) :=
  [[(0, 1), (0, 1), (0, 1), (0, 1), (0, 1), (0, 1), (0, 1), (0, 1), (0, 1), (0, 1)],
   [(0, 1), (0, 1), (0, 1), (0, 1), (0, 1), (0, 1), (0, 1), (0, 1), (0, 1), (0, 1)],
   [(0, 1), (0, 1), (0, 1), (768, 805), (128, 287), (0, 1), (0, 1), (1, 2), (0, 1), (0, 1)],
   [(0, 1), (0, 1), (0, 1), (256, 271), (1, 2), (0, 1), (0, 1), (1, 2), (0, 1), (0, 1)],
   [(0, 1), (0, 1), (0, 1), (0, 1), (0, 1), (0, 1), (0, 1), (0, 1), (0, 1), (0, 1)],
   [(0, 1), (0, 1), (0, 1), (0, 1), (0, 1), (0, 1), (0, 1), (0, 1), (0, 1), (0, 1)],
   [(0, 1), (0, 1), (0, 1), (0, 1), (0, 1), (0, 1), (0, 1), (0, 1), (0, 1), (0, 1)],
   [(0, 1), (0, 1), (0, 1), (0, 1), (0, 1), (0, 1), (0, 1), (0, 1), (0, 1), (0, 1)],
   [(0, 1), (0, 1), (0, 1), (0, 1), (0, 1), (0, 1), (0, 1), (0, 1), (0, 1), (0, 1)],
   [(0, 1), (0, 1), (0, 1), (0, 1), (0, 1), (0, 1), (0, 1), (0, 1), (0, 1), (0, 1)]]

def ocA9 : MemN 2 ℚ := sBeta ocAT13 ocAT14 (gBeta ocCfg 1 ocA8)

theorem ocA9_eq : ocA9 = gBeta ocCfg 1 ocA8 := sBeta_eq (by decide +kernel) (by decide +kernel)

def ocAT15 : List (List (Int × Nat)) :=
  [[(0, 1), (0, 1), (0, 1), (0, 1), (0, 1), (0, 1), (0, 1), (0, 1), (0, 1), (0, 1)],
   [(0, 1), (0, 1), (0, 1), (0, 1), (0, 1), (0, 1), (0, 1), (0, 1), (0, 1), (0, 1)],
   [(0, 1), (0, 1), (0, 1), (0, 1), (0, 1), (0, 1), (0, 1), (0, 1), (0, 1), (0, 1)],
   [(0, 1), (0, 1), (0, 1), (15, 574), (0, 1), (0, 1), (0, 1), (0, 1), (0, 1), (0, 1)],
   [(0, 1), (0, 1), (0, 1), (0, 1), (0, 1), (0, 1), (0, 1), (0, 1), (0, 1), (0, 1)],
   [(0, 1), (0, 1), (0, 1), (0, 1), (0, 1), (0, 1), (0, 1), (0, 1), (0, 1), (0, 1)],
   [(0, 1), (0, 1), (0, 1), (0, 1), (0, 1), (0, 1), (0, 1), (0, 1), (0, 1), (0, 1)],
   [(0, 1), (0, 1), (0, 1), (0, 1), (0, 1), (0, 1), (0, 1), (0, 1), (0, 1), (0, 1)],
   [(0, 1), (0, 1), (0, 1), (0, 1), (0, 1), (0, 1), (0, 1), (0, 1), (0, 1), (0, 1)],
   [(0, 1), (0, 1), (0, 1), (0, 1), (0, 1), (0, 1), (0, 1), (0, 1), (0, 1), (0, 1)]]

def ocA10 : MemN 2 ℚ := sMono ocAT3 ocAT15 (gMono ocCfg 1 ocA9)

theorem ocA10_eq : ocA10 = gMono ocCfg 1 ocA9 := sMono_eq (by decide +kernel) (by decide +kernel)

def ocAT16 : List (List (Int × Nat)) :=
  [[(0, 1), (0, 1), (0, 1), (0, 1), (0, 1), (0, 1), (0, 1), (0, 1), (0, 1), (0, 1)],
   [(0, 1), (0, 1), (0, 1), (1, 1), (0, 1), (0, 1), (0, 1), (0, 1), (0, 1), (0, 1)],
   [(0, 1), (0, 1), (0, 1), (1, 1), (0, 1), (0, 1), (0, 1), (0, 1), (0, 1), (0, 1)],
   [(0, 1), (0, 1), (0, 1), (559, 574), (151, 287), (0, 1), (0, 1), (0, 1), (0, 1), (0, 1)],
   [(0, 1), (0, 1), (0, 1), (0, 1), (0, 1), (0, 1), (0, 1), (0, 1), (0, 1), (0, 1)],
   [(0, 1), (0, 1), (0, 1), (0, 1), (0, 1), (0, 1), (0, 1), (0, 1), (0, 1), (0, 1)],
   [(0, 1), (0, 1), (0, 1), (0, 1), (0, 1), (0, 1), (0, 1), (0, 1), (0, 1), (0, 1)],
   [(0, 1), (0, 1), (0, 1), (0, 1), (0, 1), (0, 1), (0, 1), (0, 1), (0, 1), (0, 1)],
   [(0, 1), (0, 1), (0, 1), (0, 1), (0, 1), (0, 1), (0, 1), (0, 1), (0, 1), (0, 1)],
   [(0, 1), (0, 1), (0, 1), (0, 1), (0, 1), (0, 1), (0, 1), (0, 1), (0, 1), (0, 1)]]

def ocA11 : MemN 2 ℚ := sPsiN ocAT16 (gDon ocCfg ocA10)

theorem ocA11_eq : ocA11 = gDon ocCfg ocA10 := sPsiN_eq (by decide +kernel)

def ocAT17 : List (List (Int × Nat)) :=
  [[(0, 1), (0, 1), (0, 1), (0, 1), (0, 1), (0, 1), (0, 1), (0, 1), (0, 1), (0, 1)],
   [(0, 1), (151, 287), (0, 1), (559, 574), (151, 287), (0, 1), (0, 1), (151, 287), (0, 1), (0, 1)],
   [(0, 1), (151, 287), (0, 1), (559, 574), (151, 287), (0, 1), (0, 1), (151, 287), (0, 1), (0, 1)],
   [(0, 1), (151, 287), (0, 1), (559, 574), (151, 287), (0, 1), (0, 1), (151, 287), (0, 1), (0, 1)],
   [(0, 1), (0, 1), (0, 1), (0, 1), (0, 1), (0, 1), (0, 1), (0, 1), (0, 1), (0, 1)],
   [(0, 1), (0, 1), (0, 1), (0, 1), (0, 1), (0, 1), (0, 1), (0, 1), (0, 1), (0, 1)],
   [(0, 1), (0, 1), (0, 1), (0, 1), (0, 1), (0, 1), (0, 1), (0, 1), (0, 1), (0, 1)],
   [(0, 1), (0, 1), (0, 1), (0, 1), (0, 1), (0, 1), (0, 1), (0, 1), (0, 1), (0, 1)],
   [(0, 1), (0, 1), (0, 1), (0, 1), (0, 1), (0, 1), (0, 1), (0, 1), (0, 1), (0, 1)],
   [(0, 1), (0, 1), (0, 1), (0, 1), (0, 1), (0, 1), (0, 1), (0, 1), (0, 1), (0, 1)]]

def ocA12 : MemN 2 ℚ := sPsi ocAT17 (gSwap ocCfg ocA11)

theorem ocA12_eq : ocA12 = gSwap ocCfg ocA11 := sPsi_eq (by decide +kernel)

def ocAT18 : List (List (Int × Nat)) :=
  [[(0, 1), (0, 1), (0, 1), (0, 1), (0, 1), (0, 1), (0, 1), (0, 1), (0, 1), (0, 1)],
   [(0, 1), (0, 1), (0, 1), (0, 1), (0, 1), (0, 1), (0, 1), (0, 1), (0, 1), (0, 1)],
   [(0, 1), (0, 1), (0, 1), (45089459231, 6240319045632), (4681, 1763328), (0, 1), (8911265, 49526341632), (0, 1), (0, 1), (0, 1)],
   [(0, 1), (0, 1), (0, 1), (-4902907013, 260013293568), (0, 1), (0, 1), (0, 1), (0, 1), (0, 1), (0, 1)],
   [(0, 1), (0, 1), (0, 1), (0, 1), (0, 1), (0, 1), (0, 1), (0, 1), (0, 1), (0, 1)],
   [(0, 1), (0, 1), (0, 1), (0, 1), (0, 1), (0, 1), (0, 1), (0, 1), (0, 1), (0, 1)],
   [(0, 1), (0, 1), (0, 1), (0, 1), (0, 1), (0, 1), (0, 1), (0, 1), (0, 1), (0, 1)],
   [(0, 1), (0, 1), (0, 1), (0, 1), (0, 1), (0, 1), (0, 1), (0, 1), (0, 1), (0, 1)],
   [(0, 1), (0, 1), (0, 1), (0, 1), (0, 1), (0, 1), (0, 1), (0, 1), (0, 1), (0, 1)],
   [(0, 1), (0, 1), (0, 1), (0, 1), (0, 1), (0, 1), (0, 1), (0, 1), (0, 1), (0, 1)]]

def ocAT19 : List (List (Int × Nat)) :=
  [[(0, 1), (0, 1), (0, 1), (0, 1), (0, 1), (0, 1), (0, 1), (0, 1), (0, 1), (0, 1)],
   [(0, 1), (0, 1), (0, 1), (0, 1), (0, 1), (0, 1), (0, 1), (0, 1), (0, 1), (0, 1)],
   [(0, 1), (0, 1), (0, 1), (0, 1), (0, 1), (0, 1), (0, 1), (0, 1), (0, 1), (0, 1)],
   [(0, 1), (0, 1), (-34099, 7053312), (-79387813, 77040975872), (-36081009, 2407530496), (0, 1), (332833747, 16508780544), (0, 1), (0, 1), (0, 1)],
   [(0, 1), (0, 1), (0, 1), (0, 1), (0, 1), (0, 1), (0, 1), (0, 1), (0, 1), (0, 1)],
   [(0, 1), (0, 1), (0, 1), (0, 1), (0, 1), (0, 1), (0, 1), (0, 1), (0, 1), (0, 1)],
   [(0, 1), (0, 1), (0, 1), (0, 1), (0, 1), (0, 1), (0, 1), (0, 1), (0, 1), (0, 1)],
   [(0, 1), (0, 1), (0, 1), (0, 1), (0, 1), (0, 1), (0, 1), (0, 1), (0, 1), (0, 1)],
   [(0, 1), (0, 1), (0, 1), (0, 1), (0, 1), (0, 1), (0, 1), (0, 1), (0, 1), (0, 1)],
   [(0, 1), (0, 1), (0, 1), (0, 1), (0, 1), (0, 1), (0, 1), (0, 1), (0, 1), (0, 1)]]

def ocA13 : MemN 2 ℚ := sTmp1 ocAT18 ocAT19 (gVel ocCfg 2 ocA12)

theorem ocA13_eq : ocA13 = gVel ocCfg 2 ocA12 := sTmp1_eq (by decide +kernel) (by decide +kernel)

def ocAT20 : List (List (Int × Nat)) :=
  [[(0, 1), (0, 1), (0, 1), (0, 1), (0, 1), (0, 1), (0, 1), (0, 1), (0, 1), (0, 1)],
   [(0, 1), (0, 1), (0, 1), (-41366727055, 2080106348544), (-1075204475, 77040975872), (36081009, 2407530496), (0, 1), (0, 1), (0, 1), (0, 1)],
   [(0, 1), (0, 1), (0, 1), (45089459231, 6240319045632), (4681, 1763328), (0, 1), (8911265, 49526341632), (0, 1), (0, 1), (0, 1)],
   [(0, 1), (0, 1), (0, 1), (-4902907013, 260013293568), (0, 1), (0, 1), (0, 1), (0, 1), (0, 1), (0, 1)],
   [(0, 1), (0, 1), (0, 1), (0, 1), (0, 1), (0, 1), (0, 1), (0, 1), (0, 1), (0, 1)],
   [(0, 1), (0, 1), (0, 1), (0, 1), (0, 1), (0, 1), (0, 1), (0, 1), (0, 1), (0, 1)],
   [(0, 1), (0, 1), (0, 1), (0, 1), (0, 1), (0, 1), (0, 1), (0, 1), (0, 1), (0, 1)],
   [(0, 1), (0, 1), (0, 1), (0, 1), (0, 1), (0, 1), (0, 1), (0, 1), (0, 1), (0, 1)],
   [(0, 1), (0, 1), (0, 1), (0, 1), (0, 1), (0, 1), (0, 1), (0, 1), (0, 1), (0, 1)],
   [(0, 1), (0, 1), (0, 1), (0, 1), (0, 1), (0, 1), (0, 1), (0, 1), (0, 1), (0, 1)]]

def ocAT21 : List (List (Int × Nat)) :=
  [[(0, 1), (0, 1), (0, 1), (0, 1), (0, 1), (0, 1), (0, 1), (0, 1), (0, 1), (0, 1)],
   [(0, 1), (0, 1), (0, 1), (0, 1), (0, 1), (0, 1), (0, 1), (0, 1), (0, 1), (0, 1)],
   [(0, 1), (0, 1), (0, 1), (0, 1), (0, 1), (0, 1), (0, 1), (0, 1), (0, 1), (0, 1)],
   [(0, 1), (-36081009, 2407530496), (0, 1), (-79387813, 77040975872), (-36081009, 2407530496), (0, 1), (-79387813, 77040975872), (-36081009, 2407530496), (0, 1), (0, 1)],
   [(0, 1), (0, 1), (0, 1), (0, 1), (0, 1), (0, 1), (0, 1), (0, 1), (0, 1), (0, 1)],
   [(0, 1), (0, 1), (0, 1), (0, 1), (0, 1), (0, 1), (0, 1), (0, 1), (0, 1), (0, 1)],
   [(0, 1), (0, 1), (0, 1), (0, 1), (0, 1), (0, 1), (0, 1), (0, 1), (0, 1), (0, 1)],
   [(0, 1), (0, 1), (0, 1), (0, 1), (0, 1), (0, 1), (0, 1), (0, 1), (0, 1), (0, 1)],
   [(0, 1), (0, 1), (0, 1), (0, 1), (0, 1), (0, 1), (0, 1), (0, 1), (0, 1), (0, 1)],
   [(0, 1), (0, 1), (0, 1), (0, 1), (0, 1), (0, 1), (0, 1), (0, 1), (0, 1), (0, 1)]]

def ocA14 : MemN 2 ℚ := sTmp1 ocAT20 ocAT21 (gFilA ocCfg 2 ocA13)

theorem ocA14_eq : ocA14 = gFilA ocCfg 2 ocA13 := sTmp1_eq (by decide +kernel) (by decide +kernel)

def ocAT22 : List (List (Int × Nat)) :=
  [[(0, 1), (0, 1), (0, 1), (0, 1), (0, 1), (0, 1), (0, 1), (0, 1), (0, 1), (0, 1)],
   [(0, 1), (0, 1), (0, 1), (-41366727055, 2080106348544), (-1075204475, 77040975872), (36081009, 2407530496), (0, 1), (0, 1), (0, 1), (0, 1)],
   [(0, 1), (4681, 1763328), (0, 1), (45089459231, 6240319045632), (4681, 1763328), (0, 1), (8911265, 49526341632), (4681, 1763328), (0, 1), (0, 1)],
   [(0, 1), (0, 1), (0, 1), (-4902907013, 260013293568), (0, 1), (0, 1), (0, 1), (0, 1), (0, 1), (0, 1)],
   [(0, 1), (0, 1), (0, 1), (0, 1), (0, 1), (0, 1), (0, 1), (0, 1), (0, 1), (0, 1)],
   [(0, 1), (0, 1), (0, 1), (0, 1), (0, 1), (0, 1), (0, 1), (0, 1), (0, 1), (0, 1)],
   [(0, 1), (0, 1), (0, 1), (0, 1), (0, 1), (0, 1), (0, 1), (0, 1), (0, 1), (0, 1)],
   [(0, 1), (0, 1), (0, 1), (0, 1), (0, 1), (0, 1), (0, 1), (0, 1), (0, 1), (0, 1)],
   [(0, 1), (0, 1), (0, 1), (0, 1), (0, 1), (0, 1), (0, 1), (0, 1), (0, 1), (0, 1)],
   [(0, 1), (0, 1), (0, 1), (0, 1), (0, 1), (0, 1), (0, 1), (0, 1), (0, 1), (0, 1)]]

def ocA15 : MemN 2 ℚ := sTmp1 ocAT22 ocAT21 (gFilN ocCfg 2 ocA14)

theorem ocA15_eq : ocA15 = gFilN ocCfg 2 ocA14 := sTmp1_eq (by decide +kernel) (by decide +kernel)

def ocAT23 : List (List (Int × Nat)) :=
  [[(0, 1), (0, 1), (0, 1), (0, 1), (0, 1), (0, 1), (0, 1), (0, 1), (0, 1), (0, 1)],
   [(0, 1), (0, 1), (0, 1), (0, 1), (0, 1), (0, 1), (0, 1), (0, 1), (0, 1), (0, 1)],
   [(0, 1), (0, 1), (1, 1), (15, 574), (136, 287), (1266679808, 2443611505), (151, 287), (0, 1), (0, 1), (0, 1)],
   [(0, 1), (0, 1), (1, 1), (40768634880, 1602377171507), (3422552064, 7350007891), (151, 287), (364803784704, 694208030875), (0, 1), (0, 1), (0, 1)],
   [(0, 1), (0, 1), (0, 1), (1, 1), (151, 287), (0, 1), (0, 1), (151, 287), (0, 1), (0, 1)],
   [(0, 1), (0, 1), (0, 1), (0, 1), (0, 1), (0, 1), (0, 1), (0, 1), (0, 1), (0, 1)],
   [(0, 1), (0, 1), (0, 1), (0, 1), (0, 1), (0, 1), (0, 1), (0, 1), (0, 1), (0, 1)],
   [(0, 1), (0, 1), (0, 1), (0, 1), (0, 1), (0, 1), (0, 1), (0, 1), (0, 1), (0, 1)],
   [(0, 1), (0, 1), (0, 1), (0, 1), (0, 1), (0, 1), (0, 1), (0, 1), (0, 1), (0, 1)],
   [(0, 1), (0, 1), (0, 1), (0, 1), (0, 1), (0, 1), (0, 1), (0, 1), (0, 1), (0, 1)]]

def ocAT24 : List (List (Int × Nat)) :=
  [[(0, 1), (0, 1), (0, 1), (0, 1), (0, 1), (0, 1), (0, 1), (0, 1), (0, 1), (0, 1)],
   [(0, 1), (0, 1), (0, 1), (0, 1), (0, 1), (0, 1), (0, 1), (0, 1), (0, 1), (0, 1)],
   [(0, 1), (0, 1), (0, 1), (1519311126528, 1602377171507), (121601261568, 234962089073), (0, 1), (0, 1), (927744, 1768009), (0, 1), (0, 1)],
   [(0, 1), (0, 1), (0, 1), (559, 574), (40533753856, 77120363685), (0, 1), (0, 1), (40533753856, 77120363685), (0, 1), (0, 1)],
   [(0, 1), (0, 1), (0, 1), (0, 1), (0, 1), (0, 1), (0, 1), (0, 1), (0, 1), (0, 1)],
   [(0, 1), (0, 1), (0, 1), (0, 1), (0, 1), (0, 1), (0, 1), (0, 1), (0, 1), (0, 1)],
   [(0, 1), (0, 1), (0, 1), (0, 1), (0, 1), (0, 1), (0, 1), (0, 1), (0, 1), (0, 1)],
   [(0, 1), (0, 1), (0, 1), (0, 1), (0, 1), (0, 1), (0, 1), (0, 1), (0, 1), (0, 1)],
   [(0, 1), (0, 1), (0, 1), (0, 1), (0, 1), (0, 1), (0, 1), (0, 1), (0, 1), (0, 1)],
   [(0, 1), (0, 1), (0, 1), (0, 1), (0, 1), (0, 1), (0, 1), (0, 1), (0, 1), (0, 1)]]

def ocA16 : MemN 2 ℚ := sBeta ocAT23 ocAT24 (gBeta ocCfg 2 ocA15)

theorem ocA16_eq : ocA16 = gBeta ocCfg 2 ocA15 := sBeta_eq (by decide +kernel) (by decide +kernel)

def ocAT25 : List (List (Int × Nat)) :=
  [[(0, 1), (0, 1), (0, 1), (0, 1), (0, 1), (0, 1), (0, 1), (0, 1), (0, 1), (0, 1)],
   [(0, 1), (0, 1), (0, 1), (0, 1), (0, 1), (0, 1), (0, 1), (0, 1), (0, 1), (0, 1)],
   [(0, 1), (0, 1), (0, 1), (676341888465, 3679057985780072), (2607579136, 2109452264717), (0, 1), (0, 1), (0, 1), (0, 1), (0, 1)],
   [(0, 1), (0, 1), (0, 1), (0, 1), (0, 1), (0, 1), (0, 1), (0, 1), (0, 1), (0, 1)],
   [(0, 1), (0, 1), (0, 1), (0, 1), (0, 1), (0, 1), (0, 1), (0, 1), (0, 1), (0, 1)],
   [(0, 1), (0, 1), (0, 1), (0, 1), (0, 1), (0, 1), (0, 1), (0, 1), (0, 1), (0, 1)],
   [(0, 1), (0, 1), (0, 1), (0, 1), (0, 1), (0, 1), (0, 1), (0, 1), (0, 1), (0, 1)],
   [(0, 1), (0, 1), (0, 1), (0, 1), (0, 1), (0, 1), (0, 1), (0, 1), (0, 1), (0, 1)],
   [(0, 1), (0, 1), (0, 1), (0, 1), (0, 1), (0, 1), (0, 1), (0, 1), (0, 1), (0, 1)],
   [(0, 1), (0, 1), (0, 1), (0, 1), (0, 1), (0, 1), (0, 1), (0, 1), (0, 1), (0, 1)]]

def ocAT26 : List (List (Int × Nat)) :=
  [[(0, 1), (0, 1), (0, 1), (0, 1), (0, 1), (0, 1), (0, 1), (0, 1), (0, 1), (0, 1)],
   [(0, 1), (0, 1), (0, 1), (0, 1), (0, 1), (0, 1), (0, 1), (0, 1), (0, 1), (0, 1)],
   [(0, 1), (0, 1), (0, 1), (0, 1), (0, 1), (0, 1), (0, 1), (0, 1), (0, 1), (0, 1)],
   [(0, 1), (0, 1), (0, 1), (-96456192795, 3679057985780072), (0, 1), (0, 1), (-107888037867, 199237704861125), (0, 1), (0, 1), (0, 1)],
   [(0, 1), (0, 1), (0, 1), (0, 1), (0, 1), (0, 1), (0, 1), (0, 1), (0, 1), (0, 1)],
   [(0, 1), (0, 1), (0, 1), (0, 1), (0, 1), (0, 1), (0, 1), (0, 1), (0, 1), (0, 1)],
   [(0, 1), (0, 1), (0, 1), (0, 1), (0, 1), (0, 1), (0, 1), (0, 1), (0, 1), (0, 1)],
   [(0, 1), (0, 1), (0, 1), (0, 1), (0, 1), (0, 1), (0, 1), (0, 1), (0, 1), (0, 1)],
   [(0, 1), (0, 1), (0, 1), (0, 1), (0, 1), (0, 1), (0, 1), (0, 1), (0, 1), (0, 1)],
   [(0, 1), (0, 1), (0, 1), (0, 1), (0, 1), (0, 1), (0, 1), (0, 1), (0, 1), (0, 1)]]

def ocA17 : MemN 2 ℚ := sMono ocAT25 ocAT26 (gMono ocCfg 2 ocA16)

theorem ocA17_eq : ocA17 = gMono ocCfg 2 ocA16 := sMono_eq (by decide +kernel) (by decide +kernel)

theorem ocA_value : (advanceN ocCfg (ocMem 0)).psi ![0, 3] = mkRat 107888037867 199237704861125 := by
  rw [stages_eq ocCfg _ rfl rfl (by decide) (by decide), gPass, gPass]
  rw [← ocA0_eq, ← ocA1_eq, ← ocA2_eq, ← ocA3_eq, ← ocA4_eq, ← ocA5_eq, ← ocA6_eq, ← ocA7_eq, ← ocA8_eq, ← ocA9_eq, ← ocA10_eq, ← ocA11_eq, ← ocA12_eq, ← ocA13_eq, ← ocA14_eq, ← ocA15_eq, ← ocA16_eq, ← ocA17_eq]
  decide +kernel

/-! ## Leftover value 1 -/

def ocBT0 : List (List (Int × Nat)) :=
  [[(0, 1), (0, 1), (0, 1), (0, 1), (0, 1), (0, 1), (0, 1), (0, 1), (0, 1), (0, 1)],
   [(0, 1), (0, 1), (0, 1), (1, 2), (0, 1), (0, 1), (-1, 2), (0, 1), (0, 1), (0, 1)],
   [(0, 1), (0, 1), (0, 1), (1, 2), (0, 1), (0, 1), (-1, 2), (0, 1), (0, 1), (0, 1)],
   [(0, 1), (0, 1), (0, 1), (0, 1), (0, 1), (0, 1), (0, 1), (0, 1), (0, 1), (0, 1)],
   [(0, 1), (0, 1), (0, 1), (0, 1), (0, 1), (0, 1), (0, 1), (0, 1), (0, 1), (0, 1)],
   [(0, 1), (0, 1), (0, 1), (0, 1), (0, 1), (0, 1), (0, 1), (0, 1), (0, 1), (0, 1)],
   [(0, 1), (0, 1), (0, 1), (-1, 2), (0, 1), (0, 1), (1, 2), (0, 1), (0, 1), (0, 1)],
   [(0, 1), (0, 1), (0, 1), (-1, 2), (0, 1), (0, 1), (1, 2), (0, 1), (0, 1), (0, 1)],
   [(0, 1), (0, 1), (0, 1), (0, 1), (0, 1), (0, 1), (0, 1), (0, 1), (0, 1), (0, 1)],
   [(0, 1), (0, 1), (0, 1), (0, 1), (0, 1), (0, 1), (0, 1), (0, 1), (0, 1), (0, 1)]]

def ocBT1 : List (List (Int × Nat)) :=
  [[(1, 2), (1, 2), (1, 2), (1, 2), (1, 2), (1, 2), (1, 2), (1, 2), (1, 2), (1, 2)],
   [(1, 2), (0, 1), (0, 1), (0, 1), (0, 1), (0, 1), (0, 1), (0, 1), (1, 2), (1, 2)],
   [(1, 2), (0, 1), (0, 1), (0, 1), (0, 1), (0, 1), (0, 1), (0, 1), (1, 2), (1, 2)],
   [(1, 2), (1, 2), (1, 2), (1, 2), (1, 2), (1, 2), (1, 2), (1, 2), (1, 2), (1, 2)],
   [(1, 2), (1, 2), (1, 2), (1, 2), (1, 2), (1, 2), (1, 2), (1, 2), (1, 2), (1, 2)],
   [(1, 2), (1, 2), (1, 2), (1, 2), (1, 2), (1, 2), (1, 2), (1, 2), (1, 2), (1, 2)],
   [(1, 2), (1, 2), (1, 2), (1, 2), (1, 2), (1, 2), (1, 2), (1, 2), (1, 2), (1, 2)],
   [(1, 2), (0, 1), (0, 1), (0, 1), (0, 1), (0, 1), (0, 1), (0, 1), (1, 2), (1, 2)],
   [(1, 2), (0, 1), (0, 1), (0, 1), (0, 1), (0, 1), (0, 1), (0, 1), (1, 2), (1, 2)],
   [(1, 2), (1, 2), (1, 2), (1, 2), (1, 2), (1, 2), (1, 2), (1, 2), (1, 2), (1, 2)]]

def ocB0 : MemN 2 ℚ := sGC ocBT0 ocBT1 (ocMem 1)

theorem ocB0_eq : ocB0 = (ocMem 1) := sGC_eq (by decide +kernel) (by decide +kernel)

def ocBT2 : List (List (Int × Nat)) :=
  [[(0, 1), (0, 1), (0, 1), (0, 1), (0, 1), (0, 1), (0, 1), (0, 1), (0, 1), (0, 1)],
   [(0, 1), (0, 1), (0, 1), (1, 1), (0, 1), (0, 1), (0, 1), (0, 1), (0, 1), (0, 1)],
   [(0, 1), (0, 1), (0, 1), (1, 1), (0, 1), (0, 1), (0, 1), (0, 1), (0, 1), (0, 1)],
   [(0, 1), (0, 1), (0, 1), (1, 1), (0, 1), (0, 1), (0, 1), (0, 1), (0, 1), (0, 1)],
   [(0, 1), (0, 1), (0, 1), (0, 1), (0, 1), (0, 1), (0, 1), (0, 1), (0, 1), (0, 1)],
   [(0, 1), (0, 1), (0, 1), (0, 1), (0, 1), (0, 1), (0, 1), (0, 1), (0, 1), (0, 1)],
   [(0, 1), (0, 1), (0, 1), (0, 1), (0, 1), (0, 1), (0, 1), (0, 1), (0, 1), (0, 1)],
   [(0, 1), (0, 1), (0, 1), (0, 1), (0, 1), (0, 1), (0, 1), (0, 1), (0, 1), (0, 1)],
   [(0, 1), (0, 1), (0, 1), (0, 1), (0, 1), (0, 1), (0, 1), (0, 1), (0, 1), (0, 1)],
   [(0, 1), (0, 1), (0, 1), (0, 1), (0, 1), (0, 1), (0, 1), (0, 1), (0, 1), (0, 1)]]

def ocB1 : MemN 2 ℚ := sPsi ocBT2 (gFill ocCfg ocB0)

theorem ocB1_eq : ocB1 = gFill ocCfg ocB0 := sPsi_eq (by decide +kernel)

def ocBT3 : List (List (Int × Nat)) :=
  [[(1, 1), (1, 1), (1, 1), (1, 1), (1, 1), (1, 1), (1, 1), (1, 1), (1, 1), (1, 1)],
   [(1, 1), (1, 1), (1, 1), (1, 1), (1, 1), (1, 1), (1, 1), (1, 1), (1, 1), (1, 1)],
   [(1, 1), (1, 1), (0, 1), (0, 1), (0, 1), (0, 1), (0, 1), (0, 1), (1, 1), (1, 1)],
   [(1, 1), (1, 1), (0, 1), (0, 1), (0, 1), (0, 1), (0, 1), (0, 1), (1, 1), (1, 1)],
   [(1, 1), (1, 1), (0, 1), (0, 1), (0, 1), (0, 1), (0, 1), (0, 1), (1, 1), (1, 1)],
   [(1, 1), (1, 1), (0, 1), (0, 1), (0, 1), (0, 1), (0, 1), (0, 1), (1, 1), (1, 1)],
   [(1, 1), (1, 1), (0, 1), (0, 1), (0, 1), (0, 1), (0, 1), (0, 1), (1, 1), (1, 1)],
   [(1, 1), (1, 1), (0, 1), (0, 1), (0, 1), (0, 1), (0, 1), (0, 1), (1, 1), (1, 1)],
   [(1, 1), (1, 1), (1, 1), (1, 1), (1, 1), (1, 1), (1, 1), (1, 1), (1, 1), (1, 1)],
   [(1, 1), (1, 1), (1, 1), (1, 1), (1, 1), (1, 1), (1, 1), (1, 1), (1, 1), (1, 1)]]

def ocBT4 : List (List (Int × Nat)) :=
  [[(1, 1), (1, 1), (1, 1), (1, 1), (1, 1), (1, 1), (1, 1), (1, 1), (1, 1), (1, 1)],
   [(1, 1), (1, 1), (1, 1), (1, 1), (1, 1), (1, 1), (1, 1), (1, 1), (1, 1), (1, 1)],
   [(1, 1), (1, 1), (1, 1), (1, 1), (1, 1), (0, 1), (0, 1), (0, 1), (1, 1), (1, 1)],
   [(1, 1), (1, 1), (1, 1), (1, 1), (1, 1), (0, 1), (0, 1), (0, 1), (1, 1), (1, 1)],
   [(1, 1), (1, 1), (0, 1), (1, 1), (0, 1), (0, 1), (0, 1), (0, 1), (1, 1), (1, 1)],
   [(1, 1), (1, 1), (0, 1), (0, 1), (0, 1), (0, 1), (0, 1), (0, 1), (1, 1), (1, 1)],
   [(1, 1), (1, 1), (0, 1), (0, 1), (0, 1), (0, 1), (0, 1), (0, 1), (1, 1), (1, 1)],
   [(1, 1), (1, 1), (0, 1), (0, 1), (0, 1), (0, 1), (0, 1), (0, 1), (1, 1), (1, 1)],
   [(1, 1), (1, 1), (1, 1), (1, 1), (1, 1), (1, 1), (1, 1), (1, 1), (1, 1), (1, 1)],
   [(1, 1), (1, 1), (1, 1), (1, 1), (1, 1), (1, 1), (1, 1), (1, 1), (1, 1), (1, 1)]]

def ocB2 : MemN 2 ℚ := sMnMx ocBT3 ocBT4 (fctInitN ocCfg ocB1)

theorem ocB2_eq : ocB2 = fctInitN ocCfg ocB1 := sMnMx_eq (by decide +kernel) (by decide +kernel)

def ocBT5 : List (List (Int × Nat)) :=
  [[(1, 1), (1, 1), (1, 1), (1, 1), (1, 1), (1, 1), (1, 1), (1, 1), (1, 1), (1, 1)],
   [(1, 1), (1, 1), (1, 1), (1, 1), (1, 1), (1, 1), (1, 1), (1, 1), (1, 1), (1, 1)],
   [(1, 1), (1, 1), (1, 1), (1, 2), (0, 1), (0, 1), (0, 1), (1, 1), (1, 1), (1, 1)],
   [(1, 1), (1, 1), (1, 1), (0, 1), (0, 1), (0, 1), (0, 1), (1, 1), (1, 1), (1, 1)],
   [(1, 1), (1, 1), (1, 1), (0, 1), (0, 1), (0, 1), (0, 1), (1, 1), (1, 1), (1, 1)],
   [(1, 1), (1, 1), (1, 1), (0, 1), (0, 1), (0, 1), (0, 1), (1, 1), (1, 1), (1, 1)],
   [(1, 1), (1, 1), (1, 1), (0, 1), (0, 1), (0, 1), (0, 1), (1, 1), (1, 1), (1, 1)],
   [(1, 1), (1, 1), (1, 1), (1, 1), (1, 1), (1, 1), (1, 1), (1, 1), (1, 1), (1, 1)],
   [(1, 1), (1, 1), (1, 1), (1, 1), (1, 1), (1, 1), (1, 1), (1, 1), (1, 1), (1, 1)],
   [(1, 1), (1, 1), (1, 1), (1, 1), (1, 1), (1, 1), (1, 1), (1, 1), (1, 1), (1, 1)]]

def ocBT6 : List (List (Int × Nat)) :=
  [[(1, 1), (1, 1), (1, 1), (1, 1), (1, 1), (1, 1), (1, 1), (1, 1), (1, 1), (1, 1)],
   [(1, 1), (1, 1), (1, 1), (1, 1), (1, 1), (1, 1), (1, 1), (1, 1), (1, 1), (1, 1)],
   [(1, 1), (1, 1), (1, 1), (1, 1), (1, 1), (1, 1), (1, 1), (1, 1), (1, 1), (1, 1)],
   [(1, 1), (1, 1), (0, 1), (1, 2), (0, 1), (0, 1), (0, 1), (1, 1), (1, 1), (1, 1)],
   [(1, 1), (1, 1), (0, 1), (0, 1), (0, 1), (0, 1), (0, 1), (1, 1), (1, 1), (1, 1)],
   [(1, 1), (1, 1), (0, 1), (0, 1), (0, 1), (0, 1), (0, 1), (1, 1), (1, 1), (1, 1)],
   [(1, 1), (1, 1), (0, 1), (0, 1), (0, 1), (0, 1), (0, 1), (1, 1), (1, 1), (1, 1)],
   [(1, 1), (1, 1), (1, 1), (1, 1), (1, 1), (1, 1), (1, 1), (1, 1), (1, 1), (1, 1)],
   [(1, 1), (1, 1), (1, 1), (1, 1), (1, 1), (1, 1), (1, 1), (1, 1), (1, 1), (1, 1)],
   [(1, 1), (1, 1), (1, 1), (1, 1), (1, 1), (1, 1), (1, 1), (1, 1), (1, 1), (1, 1)]]

def ocB3 : MemN 2 ℚ := sFlux ocBT5 ocBT6 (gFlux ocCfg ocB2)

theorem ocB3_eq : ocB3 = gFlux ocCfg ocB2 := sFlux_eq (by decide +kernel) (by decide +kernel)

def ocBT7 : List (List (Int × Nat)) :=
  [[(1, 1), (1, 1), (1, 1), (1, 1), (1, 1), (1, 1), (1, 1), (1, 1), (1, 1), (1, 1)],
   [(1, 1), (1, 1), (1, 1), (1, 1), (1, 1), (1, 1), (1, 1), (1, 1), (1, 1), (1, 1)],
   [(1, 1), (1, 1), (1, 1), (1, 1), (1, 1), (1, 1), (1, 1), (1, 1), (1, 1), (1, 1)],
   [(1, 1), (1, 1), (1, 1), (1, 1), (1, 2), (0, 1), (0, 1), (1, 1), (1, 1), (1, 1)],
   [(1, 1), (1, 1), (1, 1), (0, 1), (0, 1), (0, 1), (0, 1), (1, 1), (1, 1), (1, 1)],
   [(1, 1), (1, 1), (1, 1), (0, 1), (0, 1), (0, 1), (0, 1), (1, 1), (1, 1), (1, 1)],
   [(1, 1), (1, 1), (1, 1), (0, 1), (0, 1), (0, 1), (0, 1), (1, 1), (1, 1), (1, 1)],
   [(1, 1), (1, 1), (1, 1), (1, 1), (1, 1), (1, 1), (1, 1), (1, 1), (1, 1), (1, 1)],
   [(1, 1), (1, 1), (1, 1), (1, 1), (1, 1), (1, 1), (1, 1), (1, 1), (1, 1), (1, 1)],
   [(1, 1), (1, 1), (1, 1), (1, 1), (1, 1), (1, 1), (1, 1), (1, 1), (1, 1), (1, 1)]]

def ocB4 : MemN 2 ℚ := sPsiN ocBT7 (gDon0 ocCfg ocB3)

theorem ocB4_eq : ocB4 = gDon0 ocCfg ocB3 := sPsiN_eq (by decide +kernel)

def ocBT8 : List (List (Int × Nat)) :=
  [[(1, 1), (1, 1), (1, 1), (1, 1), (1, 1), (1, 1), (1, 1), (1, 1), (1, 1), (1, 1)],
   [(1, 1), (1, 2), (0, 1), (1, 1), (1, 2), (0, 1), (0, 1), (1, 2), (0, 1), (1, 1)],
   [(1, 1), (1, 2), (0, 1), (1, 1), (1, 2), (0, 1), (0, 1), (1, 2), (0, 1), (1, 1)],
   [(1, 1), (1, 2), (0, 1), (1, 1), (1, 2), (0, 1), (0, 1), (1, 2), (0, 1), (1, 1)],
   [(1, 1), (0, 1), (0, 1), (0, 1), (0, 1), (0, 1), (0, 1), (0, 1), (0, 1), (1, 1)],
   [(1, 1), (0, 1), (0, 1), (0, 1), (0, 1), (0, 1), (0, 1), (0, 1), (0, 1), (1, 1)],
   [(1, 1), (0, 1), (0, 1), (0, 1), (0, 1), (0, 1), (0, 1), (0, 1), (0, 1), (1, 1)],
   [(1, 1), (0, 1), (0, 1), (0, 1), (0, 1), (0, 1), (0, 1), (0, 1), (0, 1), (1, 1)],
   [(1, 1), (0, 1), (0, 1), (0, 1), (0, 1), (0, 1), (0, 1), (0, 1), (0, 1), (1, 1)],
   [(1, 1), (1, 1), (1, 1), (1, 1), (1, 1), (1, 1), (1, 1), (1, 1), (1, 1), (1, 1)]]

def ocB5 : MemN 2 ℚ := sPsi ocBT8 (gSwap ocCfg ocB4)

theorem ocB5_eq : ocB5 = gSwap ocCfg ocB4 := sPsi_eq (by decide +kernel)

def ocBT9 : List (List (Int × Nat)) :=
  [[(1, 1), (1, 1), (1, 1), (1, 1), (1, 1), (1, 1), (1, 1), (1, 1), (1, 1), (1, 1)],
   [(1, 1), (1, 1), (1, 1), (1, 1), (1, 1), (1, 1), (1, 1), (1, 1), (1, 1), (1, 1)],
   [(1, 1), (1, 1), (1, 1), (37, 768), (0, 1), (0, 1), (37, 768), (1, 1), (1, 1), (1, 1)],
   [(1, 1), (1, 1), (1, 1), (-1, 32), (0, 1), (0, 1), (0, 1), (1, 1), (1, 1), (1, 1)],
   [(1, 1), (1, 1), (1, 1), (0, 1), (0, 1), (0, 1), (0, 1), (1, 1), (1, 1), (1, 1)],
   [(1, 1), (1, 1), (1, 1), (0, 1), (0, 1), (0, 1), (0, 1), (1, 1), (1, 1), (1, 1)],
   [(1, 1), (1, 1), (1, 1), (0, 1), (0, 1), (0, 1), (0, 1), (1, 1), (1, 1), (1, 1)],
   [(1, 1), (1, 1), (1, 1), (1, 1), (1, 1), (1, 1), (1, 1), (1, 1), (1, 1), (1, 1)],
   [(1, 1), (1, 1), (1, 1), (1, 1), (1, 1), (1, 1), (1, 1), (1, 1), (1, 1), (1, 1)],
   [(1, 1), (1, 1), (1, 1), (1, 1), (1, 1), (1, 1), (1, 1), (1, 1), (1, 1), (1, 1)]]

def ocBT10 : List (List (Int × Nat)) :=
  [[(1, 1), (1, 1), (1, 1), (1, 1), (1, 1), (1, 1), (1, 1), (1, 1), (1, 1), (1, 1)],
   [(1, 1), (1, 1), (1, 1), (1, 1), (1, 1), (1, 1), (1, 1), (1, 1), (1, 1), (1, 1)],
   [(1, 1), (1, 1), (1, 1), (1, 1), (1, 1), (1, 1), (1, 1), (1, 1), (1, 1), (1, 1)],
   [(1, 1), (1, 1), (31, 384), (15, 256), (-1, 16), (0, 1), (31, 768), (1, 1), (1, 1), (1, 1)],
   [(1, 1), (1, 1), (0, 1), (0, 1), (0, 1), (0, 1), (0, 1), (1, 1), (1, 1), (1, 1)],
   [(1, 1), (1, 1), (0, 1), (0, 1), (0, 1), (0, 1), (0, 1), (1, 1), (1, 1), (1, 1)],
   [(1, 1), (1, 1), (0, 1), (0, 1), (0, 1), (0, 1), (0, 1), (1, 1), (1, 1), (1, 1)],
   [(1, 1), (1, 1), (1, 1), (1, 1), (1, 1), (1, 1), (1, 1), (1, 1), (1, 1), (1, 1)],
   [(1, 1), (1, 1), (1, 1), (1, 1), (1, 1), (1, 1), (1, 1), (1, 1), (1, 1), (1, 1)],
   [(1, 1), (1, 1), (1, 1), (1, 1), (1, 1), (1, 1), (1, 1), (1, 1), (1, 1), (1, 1)]]

def ocB6 : MemN 2 ℚ := sTmp0 ocBT9 ocBT10 (gVel ocCfg 1 ocB5)

theorem ocB6_eq : ocB6 = gVel ocCfg 1 ocB5 := sTmp0_eq (by decide +kernel) (by decide +kernel)

def ocBT11 : List (List (Int × Nat)) :=
  [[(1, 1), (1, 1), (1, 1), (1, 1), (1, 1), (1, 1), (1, 1), (1, 1), (1, 1), (1, 1)],
   [(1, 1), (1, 1), (1, 1), (7, 256), (-31, 256), (1, 16), (0, 1), (1, 1), (1, 1), (1, 1)],
   [(1, 1), (1, 1), (1, 1), (37, 768), (0, 1), (0, 1), (37, 768), (1, 1), (1, 1), (1, 1)],
   [(1, 1), (1, 1), (1, 1), (-1, 32), (0, 1), (0, 1), (0, 1), (1, 1), (1, 1), (1, 1)],
   [(1, 1), (1, 1), (1, 1), (0, 1), (0, 1), (0, 1), (0, 1), (1, 1), (1, 1), (1, 1)],
   [(1, 1), (1, 1), (1, 1), (0, 1), (0, 1), (0, 1), (0, 1), (1, 1), (1, 1), (1, 1)],
   [(1, 1), (1, 1), (1, 1), (0, 1), (0, 1), (0, 1), (0, 1), (1, 1), (1, 1), (1, 1)],
   [(1, 1), (1, 1), (1, 1), (0, 1), (0, 1), (0, 1), (0, 1), (1, 1), (1, 1), (1, 1)],
   [(1, 1), (1, 1), (1, 1), (1, 1), (1, 1), (1, 1), (1, 1), (1, 1), (1, 1), (1, 1)],
   [(1, 1), (1, 1), (1, 1), (1, 1), (1, 1), (1, 1), (1, 1), (1, 1), (1, 1), (1, 1)]]

def ocBT12 : List (List (Int × Nat)) :=
  [[(1, 1), (1, 1), (1, 1), (1, 1), (1, 1), (1, 1), (1, 1), (1, 1), (1, 1), (1, 1)],
   [(1, 1), (1, 1), (1, 1), (1, 1), (1, 1), (1, 1), (1, 1), (1, 1), (1, 1), (1, 1)],
   [(1, 1), (1, 1), (1, 1), (1, 1), (1, 1), (1, 1), (1, 1), (1, 1), (1, 1), (1, 1)],
   [(1, 1), (-1, 16), (0, 1), (15, 256), (-1, 16), (0, 1), (15, 256), (-1, 16), (1, 1), (1, 1)],
   [(1, 1), (0, 1), (0, 1), (0, 1), (0, 1), (0, 1), (0, 1), (0, 1), (1, 1), (1, 1)],
   [(1, 1), (0, 1), (0, 1), (0, 1), (0, 1), (0, 1), (0, 1), (0, 1), (1, 1), (1, 1)],
   [(1, 1), (0, 1), (0, 1), (0, 1), (0, 1), (0, 1), (0, 1), (0, 1), (1, 1), (1, 1)],
   [(1, 1), (1, 1), (1, 1), (1, 1), (1, 1), (1, 1), (1, 1), (1, 1), (1, 1), (1, 1)],
   [(1, 1), (1, 1), (1, 1), (1, 1), (1, 1), (1, 1), (1, 1), (1, 1), (1, 1), (1, 1)],
   [(1, 1), (1, 1), (1, 1), (1, 1), (1, 1), (1, 1), (1, 1), (1, 1), (1, 1), (1, 1)]]

def ocB7 : MemN 2 ℚ := sTmp0 ocBT11 ocBT12 (gFilA ocCfg 1 ocB6)

theorem ocB7_eq : ocB7 = gFilA ocCfg 1 ocB6 := sTmp0_eq (by decide +kernel) (by decide +kernel)

def ocBT13 : List (List (Int × Nat)) :=
  [[(1, 1), (1, 1), (1, 1), (1, 1), (1, 1), (1, 1), (1, 1), (1, 1), (1, 1), (1, 1)],
   [(1, 1), (1, 1), (1, 1), (7, 256), (-31, 256), (1, 16), (0, 1), (1, 1), (1, 1), (1, 1)],
   [(1, 1), (0, 1), (0, 1), (37, 768), (0, 1), (0, 1), (37, 768), (0, 1), (0, 1), (1, 1)],
   [(1, 1), (0, 1), (0, 1), (-1, 32), (0, 1), (0, 1), (0, 1), (0, 1), (0, 1), (1, 1)],
   [(1, 1), (0, 1), (0, 1), (0, 1), (0, 1), (0, 1), (0, 1), (0, 1), (0, 1), (1, 1)],
   [(1, 1), (0, 1), (0, 1), (0, 1), (0, 1), (0, 1), (0, 1), (0, 1), (0, 1), (1, 1)],
   [(1, 1), (0, 1), (0, 1), (0, 1), (0, 1), (0, 1), (0, 1), (0, 1), (0, 1), (1, 1)],
   [(1, 1), (1, 1), (1, 1), (0, 1), (0, 1), (0, 1), (0, 1), (1, 1), (1, 1), (1, 1)],
   [(1, 1), (1, 1), (1, 1), (1, 1), (1, 1), (1, 1), (1, 1), (1, 1), (1, 1), (1, 1)],
   [(1, 1), (1, 1), (1, 1), (1, 1), (1, 1), (1, 1), (1, 1), (1, 1), (1, 1), (1, 1)]]

def ocBT14 : List (List (Int × Nat)) :=
  [[(1, 1), (1, 1), (1, 1), (1, 1), (1, 1), (1, 1), (1, 1), (1, 1), (1, 1), (1, 1)],
   [(1, 1), (1, 1), (0, 1), (0, 1), (0, 1), (0, 1), (0, 1), (1, 1), (1, 1), (1, 1)],
   [(1, 1), (1, 1), (0, 1), (0, 1), (0, 1), (0, 1), (0, 1), (1, 1), (1, 1), (1, 1)],
   [(1, 1), (-1, 16), (0, 1), (15, 256), (-1, 16), (0, 1), (15, 256), (-1, 16), (1, 1), (1, 1)],
   [(1, 1), (0, 1), (0, 1), (0, 1), (0, 1), (0, 1), (0, 1), (0, 1), (1, 1), (1, 1)],
   [(1, 1), (0, 1), (0, 1), (0, 1), (0, 1), (0, 1), (0, 1), (0, 1), (1, 1), (1, 1)],
   [(1, 1), (0, 1), (0, 1), (0, 1), (0, 1), (0, 1), (0, 1), (0, 1), (1, 1), (1, 1)],
   [(1, 1), (1, 1), (0, 1), (0, 1), (0, 1), (0, 1), (0, 1), (1, 1), (1, 1), (1, 1)],
   [(1, 1), (1, 1), (0, 1), (0, 1), (0, 1), (0, 1), (0, 1), (1, 1), (1, 1), (1, 1)],
   [(1, 1), (1, 1), (1, 1), (1, 1), (1, 1), (1, 1), (1, 1), (1, 1), (1, 1), (1, 1)]]

def ocB8 : MemN 2 ℚ := sTmp0 ocBT13 ocBT14 (gFilN ocCfg 1 ocB7)

theorem ocB8_eq : ocB8 = gFilN ocCfg 1 ocB7 := sTmp0_eq (by decide +kernel) (by decide +kernel)

def ocBT15 : List (List (Int × Nat)) :=
  [[(1, 1), (1, 1), (1, 1), (1, 1), (1, 1), (1, 1), (1, 1), (1, 1), (1, 1), (1, 1)],
   [(1, 1), (1, 1), (1, 1), (1, 1), (1, 1), (1, 1), (1, 1), (1, 1), (1, 1), (1, 1)],
   [(1, 1), (1, 1), (1, 3), (0, 1), (1, 2), (8, 17), (1, 2), (0, 1), (1, 1), (1, 1)],
   [(1, 1), (1, 1), (1, 1), (0, 1), (128, 287), (1, 2), (384, 805), (0, 1), (1, 1), (1, 1)],
   [(1, 1), (1, 1), (0, 1), (1, 1), (1, 2), (0, 1), (0, 1), (1, 2), (1, 1), (1, 1)],
   [(1, 1), (1, 1), (0, 1), (0, 1), (0, 1), (0, 1), (0, 1), (0, 1), (1, 1), (1, 1)],
   [(1, 1), (1, 1), (0, 1), (0, 1), (0, 1), (0, 1), (0, 1), (0, 1), (1, 1), (1, 1)],
   [(1, 1), (1, 1), (0, 1), (0, 1), (0, 1), (0, 1), (0, 1), (0, 1), (1, 1), (1, 1)],
   [(1, 1), (1, 1), (1, 1), (1, 1), (1, 1), (1, 1), (1, 1), (1, 1), (1, 1), (1, 1)],
   [(1, 1), (1, 1), (1, 1), (1, 1), (1, 1), (1, 1), (1, 1), (1, 1), (1, 1), (1, 1)]]

def ocBT16 : List (List (Int × Nat)) :=
  [[(1, 1), (1, 1), (1, 1), (1, 1), (1, 1), (1, 1), (1, 1), (1, 1), (1, 1), (1, 1)],
   [(1, 1), (1, 1), (1, 1), (1, 1), (1, 1), (1, 1), (1, 1), (1, 1), (1, 1), (1, 1)],
   [(1, 1), (1, 1), (0, 1), (768, 805), (128, 287), (0, 1), (0, 1), (1, 4), (1, 1), (1, 1)],
   [(1, 1), (1, 1), (0, 1), (256, 271), (1, 2), (0, 1), (0, 1), (1, 2), (1, 1), (1, 1)],
   [(1, 1), (1, 1), (0, 1), (0, 1), (0, 1), (0, 1), (0, 1), (0, 1), (1, 1), (1, 1)],
   [(1, 1), (1, 1), (0, 1), (0, 1), (0, 1), (0, 1), (0, 1), (0, 1), (1, 1), (1, 1)],
   [(1, 1), (1, 1), (0, 1), (0, 1), (0, 1), (0, 1), (0, 1), (0, 1), (1, 1), (1, 1)],
   [(1, 1), (1, 1), (0, 1), (0, 1), (0, 1), (0, 1), (0, 1), (0, 1), (1, 1), (1, 1)],
   [(1, 1), (1, 1), (1, 1), (1, 1), (1, 1), (1, 1), (1, 1), (1, 1), (1, 1), (1, 1)],
   [(1, 1), (1, 1), (1, 1), (1, 1), (1, 1), (1, 1), (1, 1), (1, 1), (1, 1), (1, 1)]]

def ocB9 : MemN 2 ℚ := sBeta ocBT15 ocBT16 (gBeta ocCfg 1 ocB8)

theorem ocB9_eq : ocB9 = gBeta ocCfg 1 ocB8 := sBeta_eq (by decide +kernel) (by decide +kernel)

def ocBT17 : List (List (Int × Nat)) :=
  [[(1, 1), (1, 1), (1, 1), (1, 1), (1, 1), (1, 1), (1, 1), (1, 1), (1, 1), (1, 1)],
   [(1, 1), (1, 1), (1, 1), (1, 1), (1, 1), (1, 1), (1, 1), (1, 1), (1, 1), (1, 1)],
   [(1, 1), (1, 1), (1, 1), (0, 1), (0, 1), (0, 1), (0, 1), (1, 1), (1, 1), (1, 1)],
   [(1, 1), (1, 1), (1, 1), (0, 1), (0, 1), (0, 1), (0, 1), (1, 1), (1, 1), (1, 1)],
   [(1, 1), (1, 1), (1, 1), (0, 1), (0, 1), (0, 1), (0, 1), (1, 1), (1, 1), (1, 1)],
   [(1, 1), (1, 1), (1, 1), (0, 1), (0, 1), (0, 1), (0, 1), (1, 1), (1, 1), (1, 1)],
   [(1, 1), (1, 1), (1, 1), (0, 1), (0, 1), (0, 1), (0, 1), (1, 1), (1, 1), (1, 1)],
   [(1, 1), (1, 1), (1, 1), (1, 1), (1, 1), (1, 1), (1, 1), (1, 1), (1, 1), (1, 1)],
   [(1, 1), (1, 1), (1, 1), (1, 1), (1, 1), (1, 1), (1, 1), (1, 1), (1, 1), (1, 1)],
   [(1, 1), (1, 1), (1, 1), (1, 1), (1, 1), (1, 1), (1, 1), (1, 1), (1, 1), (1, 1)]]

def ocBT18 : List (List (Int × Nat)) :=
  [[(1, 1), (1, 1), (1, 1), (1, 1), (1, 1), (1, 1), (1, 1), (1, 1), (1, 1), (1, 1)],
   [(1, 1), (1, 1), (1, 1), (1, 1), (1, 1), (1, 1), (1, 1), (1, 1), (1, 1), (1, 1)],
   [(1, 1), (1, 1), (1, 1), (1, 1), (1, 1), (1, 1), (1, 1), (1, 1), (1, 1), (1, 1)],
   [(1, 1), (1, 1), (0, 1), (15, 574), (0, 1), (0, 1), (0, 1), (1, 1), (1, 1), (1, 1)],
   [(1, 1), (1, 1), (0, 1), (0, 1), (0, 1), (0, 1), (0, 1), (1, 1), (1, 1), (1, 1)],
   [(1, 1), (1, 1), (0, 1), (0, 1), (0, 1), (0, 1), (0, 1), (1, 1), (1, 1), (1, 1)],
   [(1, 1), (1, 1), (0, 1), (0, 1), (0, 1), (0, 1), (0, 1), (1, 1), (1, 1), (1, 1)],
   [(1, 1), (1, 1), (1, 1), (1, 1), (1, 1), (1, 1), (1, 1), (1, 1), (1, 1), (1, 1)],
   [(1, 1), (1, 1), (1, 1), (1, 1), (1, 1), (1, 1), (1, 1), (1, 1), (1, 1), (1, 1)],
   [(1, 1), (1, 1), (1, 1), (1, 1), (1, 1), (1, 1), (1, 1), (1, 1), (1, 1), (1, 1)]]

def ocB10 : MemN 2 ℚ := sMono ocBT17 ocBT18 (gMono ocCfg 1 ocB9)

theorem ocB10_eq : ocB10 = gMono ocCfg 1 ocB9 := sMono_eq (by decide +kernel) (by decide +kernel)

def ocBT19 : List (List (Int × Nat)) :=
  [[(0, 1), (0, 1), (0, 1), (0, 1), (0, 1), (0, 1), (0, 1), (0, 1), (0, 1), (0, 1)],
   [(0, 1), (0, 1), (0, 1), (1, 1), (0, 1), (0, 1), (0, 1), (0, 1), (0, 1), (0, 1)],
   [(0, 1), (0, 1), (0, 1), (1, 1), (0, 1), (0, 1), (0, 1), (0, 1), (0, 1), (0, 1)],
   [(0, 1), (0, 1), (0, 1), (559, 574), (151, 287), (0, 1), (0, 1), (0, 1), (0, 1), (0, 1)],
   [(0, 1), (0, 1), (0, 1), (0, 1), (0, 1), (0, 1), (0, 1), (0, 1), (0, 1), (0, 1)],
   [(0, 1), (0, 1), (0, 1), (0, 1), (0, 1), (0, 1), (0, 1), (0, 1), (0, 1), (0, 1)],
   [(0, 1), (0, 1), (0, 1), (0, 1), (0, 1), (0, 1), (0, 1), (0, 1), (0, 1), (0, 1)],
   [(0, 1), (0, 1), (0, 1), (0, 1), (0, 1), (0, 1), (0, 1), (0, 1), (0, 1), (0, 1)],
   [(0, 1), (0, 1), (0, 1), (0, 1), (0, 1), (0, 1), (0, 1), (0, 1), (0, 1), (0, 1)],
   [(0, 1), (0, 1), (0, 1), (0, 1), (0, 1), (0, 1), (0, 1), (0, 1), (0, 1), (0, 1)]]

def ocB11 : MemN 2 ℚ := sPsiN ocBT19 (gDon ocCfg ocB10)

theorem ocB11_eq : ocB11 = gDon ocCfg ocB10 := sPsiN_eq (by decide +kernel)

def ocBT20 : List (List (Int × Nat)) :=
  [[(0, 1), (0, 1), (0, 1), (0, 1), (0, 1), (0, 1), (0, 1), (0, 1), (0, 1), (0, 1)],
   [(0, 1), (151, 287), (0, 1), (559, 574), (151, 287), (0, 1), (0, 1), (151, 287), (0, 1), (0, 1)],
   [(0, 1), (151, 287), (0, 1), (559, 574), (151, 287), (0, 1), (0, 1), (151, 287), (0, 1), (0, 1)],
   [(0, 1), (151, 287), (0, 1), (559, 574), (151, 287), (0, 1), (0, 1), (151, 287), (0, 1), (0, 1)],
   [(0, 1), (0, 1), (0, 1), (0, 1), (0, 1), (0, 1), (0, 1), (0, 1), (0, 1), (0, 1)],
   [(0, 1), (0, 1), (0, 1), (0, 1), (0, 1), (0, 1), (0, 1), (0, 1), (0, 1), (0, 1)],
   [(0, 1), (0, 1), (0, 1), (0, 1), (0, 1), (0, 1), (0, 1), (0, 1), (0, 1), (0, 1)],
   [(0, 1), (0, 1), (0, 1), (0, 1), (0, 1), (0, 1), (0, 1), (0, 1), (0, 1), (0, 1)],
   [(0, 1), (0, 1), (0, 1), (0, 1), (0, 1), (0, 1), (0, 1), (0, 1), (0, 1), (0, 1)],
   [(0, 1), (0, 1), (0, 1), (0, 1), (0, 1), (0, 1), (0, 1), (0, 1), (0, 1), (0, 1)]]

def ocB12 : MemN 2 ℚ := sPsi ocBT20 (gSwap ocCfg ocB11)

theorem ocB12_eq : ocB12 = gSwap ocCfg ocB11 := sPsi_eq (by decide +kernel)

def ocBT21 : List (List (Int × Nat)) :=
  [[(1, 1), (1, 1), (1, 1), (1, 1), (1, 1), (1, 1), (1, 1), (1, 1), (1, 1), (1, 1)],
   [(1, 1), (1, 1), (1, 1), (1, 1), (1, 1), (1, 1), (1, 1), (1, 1), (1, 1), (1, 1)],
   [(1, 1), (1, 1), (1, 1), (45089459231, 6240319045632), (4681, 1763328), (0, 1), (51651815, 346684391424), (1, 1), (1, 1), (1, 1)],
   [(1, 1), (1, 1), (1, 1), (-4902907013, 260013293568), (0, 1), (0, 1), (0, 1), (1, 1), (1, 1), (1, 1)],
   [(1, 1), (1, 1), (1, 1), (0, 1), (0, 1), (0, 1), (0, 1), (1, 1), (1, 1), (1, 1)],
   [(1, 1), (1, 1), (1, 1), (0, 1), (0, 1), (0, 1), (0, 1), (1, 1), (1, 1), (1, 1)],
   [(1, 1), (1, 1), (1, 1), (0, 1), (0, 1), (0, 1), (0, 1), (1, 1), (1, 1), (1, 1)],
   [(1, 1), (1, 1), (1, 1), (1, 1), (1, 1), (1, 1), (1, 1), (1, 1), (1, 1), (1, 1)],
   [(1, 1), (1, 1), (1, 1), (1, 1), (1, 1), (1, 1), (1, 1), (1, 1), (1, 1), (1, 1)],
   [(1, 1), (1, 1), (1, 1), (1, 1), (1, 1), (1, 1), (1, 1), (1, 1), (1, 1), (1, 1)]]

def ocBT22 : List (List (Int × Nat)) :=
  [[(1, 1), (1, 1), (1, 1), (1, 1), (1, 1), (1, 1), (1, 1), (1, 1), (1, 1), (1, 1)],
   [(1, 1), (1, 1), (1, 1), (1, 1), (1, 1), (1, 1), (1, 1), (1, 1), (1, 1), (1, 1)],
   [(1, 1), (1, 1), (1, 1), (1, 1), (1, 1), (1, 1), (1, 1), (1, 1), (1, 1), (1, 1)],
   [(1, 1), (1, 1), (-34099, 7053312), (-79387813, 77040975872), (-36081009, 2407530496), (0, 1), (2333411909, 115561463808), (1, 1), (1, 1), (1, 1)],
   [(1, 1), (1, 1), (0, 1), (0, 1), (0, 1), (0, 1), (0, 1), (1, 1), (1, 1), (1, 1)],
   [(1, 1), (1, 1), (0, 1), (0, 1), (0, 1), (0, 1), (0, 1), (1, 1), (1, 1), (1, 1)],
   [(1, 1), (1, 1), (0, 1), (0, 1), (0, 1), (0, 1), (0, 1), (1, 1), (1, 1), (1, 1)],
   [(1, 1), (1, 1), (1, 1), (1, 1), (1, 1), (1, 1), (1, 1), (1, 1), (1, 1), (1, 1)],
   [(1, 1), (1, 1), (1, 1), (1, 1), (1, 1), (1, 1), (1, 1), (1, 1), (1, 1), (1, 1)],
   [(1, 1), (1, 1), (1, 1), (1, 1), (1, 1), (1, 1), (1, 1), (1, 1), (1, 1), (1, 1)]]

def ocB13 : MemN 2 ℚ := sTmp1 ocBT21 ocBT22 (gVel ocCfg 2 ocB12)

theorem ocB13_eq : ocB13 = gVel ocCfg 2 ocB12 := sTmp1_eq (by decide +kernel) (by decide +kernel)

def ocBT23 : List (List (Int × Nat)) :=
  [[(1, 1), (1, 1), (1, 1), (1, 1), (1, 1), (1, 1), (1, 1), (1, 1), (1, 1), (1, 1)],
   [(1, 1), (1, 1), (1, 1), (-41366727055, 2080106348544), (-1075204475, 77040975872), (36081009, 2407530496), (0, 1), (1, 1), (1, 1), (1, 1)],
   [(1, 1), (1, 1), (1, 1), (45089459231, 6240319045632), (4681, 1763328), (0, 1), (51651815, 346684391424), (1, 1), (1, 1), (1, 1)],
   [(1, 1), (1, 1), (1, 1), (-4902907013, 260013293568), (0, 1), (0, 1), (0, 1), (1, 1), (1, 1), (1, 1)],
   [(1, 1), (1, 1), (1, 1), (0, 1), (0, 1), (0, 1), (0, 1), (1, 1), (1, 1), (1, 1)],
   [(1, 1), (1, 1), (1, 1), (0, 1), (0, 1), (0, 1), (0, 1), (1, 1), (1, 1), (1, 1)],
   [(1, 1), (1, 1), (1, 1), (0, 1), (0, 1), (0, 1), (0, 1), (1, 1), (1, 1), (1, 1)],
   [(1, 1), (1, 1), (1, 1), (0, 1), (0, 1), (0, 1), (0, 1), (1, 1), (1, 1), (1, 1)],
   [(1, 1), (1, 1), (1, 1), (1, 1), (1, 1), (1, 1), (1, 1), (1, 1), (1, 1), (1, 1)],
   [(1, 1), (1, 1), (1, 1), (1, 1), (1, 1), (1, 1), (1, 1), (1, 1), (1, 1), (1, 1)]]

def ocBT24 : List (List (Int × Nat)) :=
  [[(1, 1), (1, 1), (1, 1), (1, 1), (1, 1), (1, 1), (1, 1), (1, 1), (1, 1), (1, 1)],
   [(1, 1), (1, 1), (1, 1), (1, 1), (1, 1), (1, 1), (1, 1), (1, 1), (1, 1), (1, 1)],
   [(1, 1), (1, 1), (1, 1), (1, 1), (1, 1), (1, 1), (1, 1), (1, 1), (1, 1), (1, 1)],
   [(1, 1), (-36081009, 2407530496), (0, 1), (-79387813, 77040975872), (-36081009, 2407530496), (0, 1), (-79387813, 77040975872), (-36081009, 2407530496), (1, 1), (1, 1)],
   [(1, 1), (0, 1), (0, 1), (0, 1), (0, 1), (0, 1), (0, 1), (0, 1), (1, 1), (1, 1)],
   [(1, 1), (0, 1), (0, 1), (0, 1), (0, 1), (0, 1), (0, 1), (0, 1), (1, 1), (1, 1)],
   [(1, 1), (0, 1), (0, 1), (0, 1), (0, 1), (0, 1), (0, 1), (0, 1), (1, 1), (1, 1)],
   [(1, 1), (1, 1), (1, 1), (1, 1), (1, 1), (1, 1), (1, 1), (1, 1), (1, 1), (1, 1)],
   [(1, 1), (1, 1), (1, 1), (1, 1), (1, 1), (1, 1), (1, 1), (1, 1), (1, 1), (1, 1)],
   [(1, 1), (1, 1), (1, 1), (1, 1), (1, 1), (1, 1), (1, 1), (1, 1), (1, 1), (1, 1)]]

def ocB14 : MemN 2 ℚ := sTmp1 ocBT23 ocBT24 (gFilA ocCfg 2 ocB13)

theorem ocB14_eq : ocB14 = gFilA ocCfg 2 ocB13 := sTmp1_eq (by decide +kernel) (by decide +kernel)

def ocBT25 : List (List (Int × Nat)) :=
  [[(1, 1), (1, 1), (1, 1), (1, 1), (1, 1), (1, 1), (1, 1), (1, 1), (1, 1), (1, 1)],
   [(1, 1), (1, 1), (1, 1), (-41366727055, 2080106348544), (-1075204475, 77040975872), (36081009, 2407530496), (0, 1), (1, 1), (1, 1), (1, 1)],
   [(1, 1), (4681, 1763328), (0, 1), (45089459231, 6240319045632), (4681, 1763328), (0, 1), (51651815, 346684391424), (4681, 1763328), (0, 1), (1, 1)],
   [(1, 1), (0, 1), (0, 1), (-4902907013, 260013293568), (0, 1), (0, 1), (0, 1), (0, 1), (0, 1), (1, 1)],
   [(1, 1), (0, 1), (0, 1), (0, 1), (0, 1), (0, 1), (0, 1), (0, 1), (0, 1), (1, 1)],
   [(1, 1), (0, 1), (0, 1), (0, 1), (0, 1), (0, 1), (0, 1), (0, 1), (0, 1), (1, 1)],
   [(1, 1), (0, 1), (0, 1), (0, 1), (0, 1), (0, 1), (0, 1), (0, 1), (0, 1), (1, 1)],
   [(1, 1), (1, 1), (1, 1), (0, 1), (0, 1), (0, 1), (0, 1), (1, 1), (1, 1), (1, 1)],
   [(1, 1), (1, 1), (1, 1), (1, 1), (1, 1), (1, 1), (1, 1), (1, 1), (1, 1), (1, 1)],
   [(1, 1), (1, 1), (1, 1), (1, 1), (1, 1), (1, 1), (1, 1), (1, 1), (1, 1), (1, 1)]]

def ocBT26 : List (List (Int × Nat)) :=
  [[(1, 1), (1, 1), (1, 1), (1, 1), (1, 1), (1, 1), (1, 1), (1, 1), (1, 1), (1, 1)],
   [(1, 1), (1, 1), (0, 1), (0, 1), (0, 1), (0, 1), (0, 1), (1, 1), (1, 1), (1, 1)],
   [(1, 1), (1, 1), (0, 1), (0, 1), (0, 1), (0, 1), (0, 1), (1, 1), (1, 1), (1, 1)],
   [(1, 1), (-36081009, 2407530496), (0, 1), (-79387813, 77040975872), (-36081009, 2407530496), (0, 1), (-79387813, 77040975872), (-36081009, 2407530496), (1, 1), (1, 1)],
   [(1, 1), (0, 1), (0, 1), (0, 1), (0, 1), (0, 1), (0, 1), (0, 1), (1, 1), (1, 1)],
   [(1, 1), (0, 1), (0, 1), (0, 1), (0, 1), (0, 1), (0, 1), (0, 1), (1, 1), (1, 1)],
   [(1, 1), (0, 1), (0, 1), (0, 1), (0, 1), (0, 1), (0, 1), (0, 1), (1, 1), (1, 1)],
   [(1, 1), (1, 1), (0, 1), (0, 1), (0, 1), (0, 1), (0, 1), (1, 1), (1, 1), (1, 1)],
   [(1, 1), (1, 1), (0, 1), (0, 1), (0, 1), (0, 1), (0, 1), (1, 1), (1, 1), (1, 1)],
   [(1, 1), (1, 1), (1, 1), (1, 1), (1, 1), (1, 1), (1, 1), (1, 1), (1, 1), (1, 1)]]

def ocB15 : MemN 2 ℚ := sTmp1 ocBT25 ocBT26 (gFilN ocCfg 2 ocB14)

theorem ocB15_eq : ocB15 = gFilN ocCfg 2 ocB14 := sTmp1_eq (by decide +kernel) (by decide +kernel)

def ocBT27 : List (List (Int × Nat)) :=
  [[(1, 1), (1, 1), (1, 1), (1, 1), (1, 1), (1, 1), (1, 1), (1, 1), (1, 1), (1, 1)],
   [(1, 1), (1, 1), (1, 1), (1, 1), (1, 1), (1, 1), (1, 1), (1, 1), (1, 1), (1, 1)],
   [(1, 1), (1, 1), (1, 3), (15, 574), (136, 287), (1266679808, 2443611505), (151, 287), (0, 1), (1, 1), (1, 1)],
   [(1, 1), (1, 1), (1, 1), (40768634880, 1602377171507), (3422552064, 7350007891), (151, 287), (364803784704, 694186576795), (0, 1), (1, 1), (1, 1)],
   [(1, 1), (1, 1), (0, 1), (1, 1), (151, 287), (0, 1), (0, 1), (151, 287), (1, 1), (1, 1)],
   [(1, 1), (1, 1), (0, 1), (0, 1), (0, 1), (0, 1), (0, 1), (0, 1), (1, 1), (1, 1)],
   [(1, 1), (1, 1), (0, 1), (0, 1), (0, 1), (0, 1), (0, 1), (0, 1), (1, 1), (1, 1)],
   [(1, 1), (1, 1), (0, 1), (0, 1), (0, 1), (0, 1), (0, 1), (0, 1), (1, 1), (1, 1)],
   [(1, 1), (1, 1), (1, 1), (1, 1), (1, 1), (1, 1), (1, 1), (1, 1), (1, 1), (1, 1)],
   [(1, 1), (1, 1), (1, 1), (1, 1), (1, 1), (1, 1), (1, 1), (1, 1), (1, 1), (1, 1)]]

def ocBT28 : List (List (Int × Nat)) :=
  [[(1, 1), (1, 1), (1, 1), (1, 1), (1, 1), (1, 1), (1, 1), (1, 1), (1, 1), (1, 1)],
   [(1, 1), (1, 1), (1, 1), (1, 1), (1, 1), (1, 1), (1, 1), (1, 1), (1, 1), (1, 1)],
   [(1, 1), (1, 1), (0, 1), (1519311126528, 1602377171507), (121601261568, 234962089073), (0, 1), (0, 1), (927744, 3531337), (1, 1), (1, 1)],
   [(1, 1), (1, 1), (0, 1), (559, 574), (40533753856, 77120363685), (0, 1), (0, 1), (40533753856, 77120363685), (1, 1), (1, 1)],
   [(1, 1), (1, 1), (0, 1), (0, 1), (0, 1), (0, 1), (0, 1), (0, 1), (1, 1), (1, 1)],
   [(1, 1), (1, 1), (0, 1), (0, 1), (0, 1), (0, 1), (0, 1), (0, 1), (1, 1), (1, 1)],
   [(1, 1), (1, 1), (0, 1), (0, 1), (0, 1), (0, 1), (0, 1), (0, 1), (1, 1), (1, 1)],
   [(1, 1), (1, 1), (0, 1), (0, 1), (0, 1), (0, 1), (0, 1), (0, 1), (1, 1), (1, 1)],
   [(1, 1), (1, 1), (1, 1), (1, 1), (1, 1), (1, 1), (1, 1), (1, 1), (1, 1), (1, 1)],
   [(1, 1), (1, 1), (1, 1), (1, 1), (1, 1), (1, 1), (1, 1), (1, 1), (1, 1), (1, 1)]]

def ocB16 : MemN 2 ℚ := sBeta ocBT27 ocBT28 (gBeta ocCfg 2 ocB15)

theorem ocB16_eq : ocB16 = gBeta ocCfg 2 ocB15 := sBeta_eq (by decide +kernel) (by decide +kernel)

def ocBT29 : List (List (Int × Nat)) :=
  [[(1, 1), (1, 1), (1, 1), (1, 1), (1, 1), (1, 1), (1, 1), (1, 1), (1, 1), (1, 1)],
   [(1, 1), (1, 1), (1, 1), (1, 1), (1, 1), (1, 1), (1, 1), (1, 1), (1, 1), (1, 1)],
   [(1, 1), (1, 1), (1, 1), (676341888465, 3679057985780072), (2607579136, 2109452264717), (0, 1), (0, 1), (1, 1), (1, 1), (1, 1)],
   [(1, 1), (1, 1), (1, 1), (0, 1), (0, 1), (0, 1), (0, 1), (1, 1), (1, 1), (1, 1)],
   [(1, 1), (1, 1), (1, 1), (0, 1), (0, 1), (0, 1), (0, 1), (1, 1), (1, 1), (1, 1)],
   [(1, 1), (1, 1), (1, 1), (0, 1), (0, 1), (0, 1), (0, 1), (1, 1), (1, 1), (1, 1)],
   [(1, 1), (1, 1), (1, 1), (0, 1), (0, 1), (0, 1), (0, 1), (1, 1), (1, 1), (1, 1)],
   [(1, 1), (1, 1), (1, 1), (1, 1), (1, 1), (1, 1), (1, 1), (1, 1), (1, 1), (1, 1)],
   [(1, 1), (1, 1), (1, 1), (1, 1), (1, 1), (1, 1), (1, 1), (1, 1), (1, 1), (1, 1)],
   [(1, 1), (1, 1), (1, 1), (1, 1), (1, 1), (1, 1), (1, 1), (1, 1), (1, 1), (1, 1)]]

def ocBT30 : List (List (Int × Nat)) :=
  [[(1, 1), (1, 1), (1, 1), (1, 1), (1, 1), (1, 1), (1, 1), (1, 1), (1, 1), (1, 1)],
   [(1, 1), (1, 1), (1, 1), (1, 1), (1, 1), (1, 1), (1, 1), (1, 1), (1, 1), (1, 1)],
   [(1, 1), (1, 1), (1, 1), (1, 1), (1, 1), (1, 1), (1, 1), (1, 1), (1, 1), (1, 1)],
   [(1, 1), (1, 1), (0, 1), (-96456192795, 3679057985780072), (0, 1), (0, 1), (-107888037867, 199231547540165), (1, 1), (1, 1), (1, 1)],
   [(1, 1), (1, 1), (0, 1), (0, 1), (0, 1), (0, 1), (0, 1), (1, 1), (1, 1), (1, 1)],
   [(1, 1), (1, 1), (0, 1), (0, 1), (0, 1), (0, 1), (0, 1), (1, 1), (1, 1), (1, 1)],
   [(1, 1), (1, 1), (0, 1), (0, 1), (0, 1), (0, 1), (0, 1), (1, 1), (1, 1), (1, 1)],
   [(1, 1), (1, 1), (1, 1), (1, 1), (1, 1), (1, 1), (1, 1), (1, 1), (1, 1), (1, 1)],
   [(1, 1), (1, 1), (1, 1), (1, 1), (1, 1), (1, 1), (1, 1), (1, 1), (1, 1), (1, 1)],
   [(1, 1), (1, 1), (1, 1), (1, 1), (1, 1), (1, 1), (1, 1), (1, 1), (1, 1), (1, 1)]]

def ocB17 : MemN 2 ℚ := sMono ocBT29 ocBT30 (gMono ocCfg 2 ocB16)

theorem ocB17_eq : ocB17 = gMono ocCfg 2 ocB16 := sMono_eq (by decide +kernel) (by decide +kernel)

theorem ocB_value : (advanceN ocCfg (ocMem 1)).psi ![0, 3] = mkRat 107888037867 199231547540165 := by
  rw [stages_eq ocCfg _ rfl rfl (by decide) (by decide), gPass, gPass]
  rw [← ocB0_eq, ← ocB1_eq, ← ocB2_eq, ← ocB3_eq, ← ocB4_eq, ← ocB5_eq, ← ocB6_eq, ← ocB7_eq, ← ocB8_eq, ← ocB9_eq, ← ocB10_eq, ← ocB11_eq, ← ocB12_eq, ← ocB13_eq, ← ocB14_eq, ← ocB15_eq, ← ocB16_eq, ← ocB17_eq]
  decide +kernel

/-- C20 is false for `iga | fct | div_2nd | div_3rd` with three passes when a boundary is not cyclic: in a channel with open sides and uniform flow along it, with every
hypothesis of `C20_halo_suffices_all_bconds_2d_partial` but the one on options, one step from the same field (0 or 1 in each cell) and the same Courant numbers gives
different results for different leftovers in the temporary arrays. The exchange of the corrective velocity across its own direction fills only the faces within the
domain along its direction, so at the corners it stays unset, and the third-order formula of the third pass reads it there. -/
theorem C20_fails_div3_three_passes :
    BcSolver ocCfg ocB [0, 1] ∧ Wide ocB ∧ PolarTwo ocB ∧ ocCfg.F = formulae2 ocCfg.o .exact .noextrp 1 ∧ isset ocCfg.o oFct = true ∧ ocCfg.nIters = 3 ∧
    (∀ x, (ocMem 0).psi x = (ocMem 1).psi x) ∧ (∀ d x, (ocMem 0).GC d x = (ocMem 1).GC d x) ∧
    InDomain ocCfg.box ![0, 3] ∧ (advanceN ocCfg (ocMem 0)).psi ![0, 3] ≠ (advanceN ocCfg (ocMem 1)).psi ![0, 3] := by
  refine ⟨⟨rfl, rfl, by decide, fun _ => rfl, fun _ _ => rfl, fun _ _ => rfl⟩, ⟨by decide, by decide, ?_⟩, ?_, rfl, by decide, rfl, fun _ => rfl, fun _ _ => rfl, ?_, ?_⟩
  · intro d h
    exact absurd h ((by decide : ∀ d : Fin 2, ¬ (ocB.kl d = .polar ∨ ocB.kr d = .polar)) d)
  · intro d h
    exact absurd h ((by decide : ∀ d : Fin 2, ¬ (ocB.kl d = .polar ∨ ocB.kr d = .polar)) d)
  · intro d
    match d with
    | 0 => decide
    | 1 => decide
  · rw [ocA_value, ocB_value]
    decide +kernel

end Mpdata
