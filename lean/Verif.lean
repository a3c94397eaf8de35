import Verif.Props.Decomp
import Verif.Props.Opts
import Verif.Props.Barrier
import Verif.Props.Solver
import Verif.Props.Donor
import Verif.Props.Halo1
import Verif.Props.Fct1
import Verif.Props.Conserve1
import Verif.Props.Positive1
import Verif.Props.Symmetry1
import Verif.Props.VarDt
import Verif.Props.VarDtN
import Verif.Props.Scale1
import Verif.Props.Bcond
import Verif.Props.Rhs
import Verif.Props.Vip
import Verif.Props.Output
import Verif.Props.Threads
import Verif.Props.ThreadsRace
import Verif.Props.Reduce
import Verif.Props.Mpi
import Verif.Spec.PrsTol
import Verif.Props.Prs
import Verif.Props.Nabla
import Verif.Props.Stress
import Verif.Props.ShallowWater
import Verif.Props.Boussinesq
import Verif.Props.HaloN
import Verif.Props.ConserveN
import Verif.Props.FctN
import Verif.Props.ConstN
import Verif.Props.PositiveN
import Verif.Props.SymmetryN
import Verif.Props.Order1
import Verif.Spec.Taylor
import Verif.Spec.Accuracy1
import Verif.Lemmas.Jet
import Verif.Lemmas.Series1
import Verif.Lemmas.Accuracy1
import Verif.Lemmas.AccCore1
import Verif.Lemmas.AccStep1
import Verif.Props.Accuracy1
import Verif.Props.OrderN
import Verif.Props.Order3
import Verif.Props.Gauge
import Verif.Lemmas.Refl
import Verif.Lemmas.Refl2
import Verif.Lemmas.Refl3
import Verif.Model.RigidN
import Verif.Spec.Mirror
import Verif.Lemmas.MirrorN
import Verif.Lemmas.WallN
import Verif.Lemmas.Trap
import Verif.Lemmas.WallExt
import Verif.Props.WallN
import Verif.Props.WallFail
import Verif.Lemmas.FctProg
import Verif.Model.BcKinds
import Verif.Props.FctBc
import Verif.Lemmas.Tr3
import Verif.Lemmas.Refl1
import Verif.Spec.Axes
import Verif.Lemmas.AxesN
import Verif.Props.AxesN
import Verif.Props.Axes1
import Verif.Lemmas.ThreadsExcl
import Verif.Model.ThreadSgs
import Verif.Props.ThreadSgs
import Verif.Props.ThreadSgsRace
import Verif.Props.ThreadSgsCyc
import Verif.Lemmas.Hx
import Verif.Lemmas.Gx
import Verif.Lemmas.Vel2
import Verif.Lemmas.Vel3
import Verif.Lemmas.Shift23
import Verif.Lemmas.AccGrid
import Verif.Lemmas.AccStepN
import Verif.Spec.AccuracyN
import Verif.Lemmas.AccSampN
import Verif.Lemmas.AccRefN
import Verif.Props.AccuracyN
import Verif.Model.Fills
import Verif.Spec.Fills
import Verif.Props.Fills
import Verif.Spec.FillValues
import Verif.Props.FillValues
import Verif.Props.HaloBc
import Verif.Props.HaloDiv3Stages
import Verif.Props.HaloDiv3
import Verif.Lemmas.ThreadsErase
import Verif.Lemmas.ThreadsOwn
import Verif.Model.ThreadProg3
import Verif.Lemmas.ThreadGood3
import Verif.Props.Threads3
import Verif.Props.ThreadsRace3
import Verif.Model.VipProg
import Verif.Spec.VipProg
import Verif.Lemmas.VipSim
import Verif.Lemmas.VipLink
import Verif.Lemmas.VipTotal
import Verif.Lemmas.VipRest
import Verif.Model.SwProg
import Verif.Props.VipRun
import Verif.Props.VipSign
import Verif.Props.PrsRun
import Verif.Props.SwRun
import Verif.Spec.VipBudget
import Verif.Lemmas.VipBudget
import Verif.Props.VipBudget
import Verif.Lemmas.Still
import Verif.Lemmas.Still3
import Verif.Props.Still
import Verif.Lemmas.PrsStill
import Verif.Model.BsqProg
import Verif.Lemmas.BsqRun
import Verif.Props.BsqRun
import Verif.Props.BsqFilter
import Verif.Props.BsqStart
import Verif.Lemmas.BoxRun
import Verif.Props.BoxRun
import Verif.Model.VipBox
import Verif.Props.VipBox
import Verif.Props.VipStill
import Verif.Lemmas.VipUniform
import Verif.Props.VipUniform
import Verif.Props.BoxBsq
import Verif.Props.Applied
import Verif.Props.PrsStep
import Verif.Model.SgsProg
import Verif.Lemmas.SgsRun
import Verif.Props.SgsRun
import Verif.Model.ThreadPrs
import Verif.Lemmas.ThreadPrs
import Verif.Props.ThreadPrs
import Verif.Spec.VipScheme
import Verif.Lemmas.VipScheme
import Verif.Props.VipScheme
import Verif.Spec.PrsScheme
import Verif.Lemmas.PrsScheme
import Verif.Props.PrsScheme
import Verif.Model.MpiThreads
import Verif.Lemmas.MpiThreads
import Verif.Props.MpiThreads
import Verif.Model.Backends
import Verif.Spec.Backends
import Verif.Lemmas.Backends
import Verif.Props.Backends
import Verif.Model.SgsHeat
import Verif.Spec.SgsHeat
import Verif.Lemmas.SgsHeat
import Verif.Props.SgsHeat
import Verif.Model.SgsDrag
import Verif.Spec.SgsDrag
import Verif.Lemmas.SgsDrag
import Verif.Props.SgsDrag
import Verif.Lemmas.SgsBsq
import Verif.Props.SgsBsq
import Verif.Model.Monitor
import Verif.Props.Monitor
import Verif.Props.PositiveDiv
