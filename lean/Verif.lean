import Verif.Lemmas.Boundaries
import Verif.Lemmas.BoundariesAll
import Verif.Lemmas.Checked
import Verif.Lemmas.CheckedApprox
import Verif.Lemmas.ComputeDt
import Verif.Lemmas.Config
import Verif.Lemmas.Copy
import Verif.Lemmas.DriverMpi
import Verif.Lemmas.EmfSymmetry
import Verif.Lemmas.Exchange
import Verif.Lemmas.ExchangeStep
import Verif.Lemmas.Halo
import Verif.Lemmas.HaloStage
import Verif.Lemmas.HaloWindow
import Verif.Lemmas.Hdf5
import Verif.Lemmas.Hdf5Upscale
import Verif.Lemmas.HighProgram
import Verif.Lemmas.HydroFinal
import Verif.Lemmas.HydroFlux
import Verif.Lemmas.HydroMpi
import Verif.Lemmas.HydroProgram
import Verif.Lemmas.HydroState
import Verif.Lemmas.HydroStep
import Verif.Lemmas.HydroWhole
import Verif.Lemmas.Index
import Verif.Lemmas.Init
import Verif.Lemmas.InitHigh
import Verif.Lemmas.InitHydro
import Verif.Lemmas.InitMhd
import Verif.Lemmas.Kernel
import Verif.Lemmas.KernelAtomic
import Verif.Lemmas.KernelFix
import Verif.Lemmas.KernelSeq
import Verif.Lemmas.MDRange
import Verif.Lemmas.MhdAtomic
import Verif.Lemmas.MhdEmf
import Verif.Lemmas.MhdFlux
import Verif.Lemmas.MhdForm
import Verif.Lemmas.MhdHalf
import Verif.Lemmas.MhdLocal
import Verif.Lemmas.MhdLocal2
import Verif.Lemmas.MhdMpi
import Verif.Lemmas.MhdProgram
import Verif.Lemmas.MhdRamp
import Verif.Lemmas.MhdSame2
import Verif.Lemmas.MhdSpeed
import Verif.Lemmas.MhdState
import Verif.Lemmas.MhdStep
import Verif.Lemmas.MhdUpdate
import Verif.Lemmas.MhdVersion2
import Verif.Lemmas.MhdWave
import Verif.Lemmas.MhdWhole
import Verif.Lemmas.MhdWitness
import Verif.Lemmas.Mirror
import Verif.Lemmas.MirrorBox
import Verif.Lemmas.MirrorStep
import Verif.Lemmas.MoodConvex
import Verif.Lemmas.MoodEffects
import Verif.Lemmas.MoodGeometry
import Verif.Lemmas.MoodKernels
import Verif.Lemmas.MoodMatrix
import Verif.Lemmas.MoodMonomials
import Verif.Lemmas.MoodPeriodic
import Verif.Lemmas.MoodStage
import Verif.Lemmas.MoodUniform
import Verif.Lemmas.MoodUnisolvence
import Verif.Lemmas.MoodWhole
import Verif.Lemmas.Mpi
import Verif.Lemmas.OtherDt
import Verif.Lemmas.RealOps
import Verif.Lemmas.Restart
import Verif.Lemmas.Riemann
import Verif.Lemmas.RiemannApprox
import Verif.Lemmas.RiemannHllc
import Verif.Lemmas.RiemannMhd
import Verif.Lemmas.RiemannMhdAligned
import Verif.Lemmas.RiemannMhdChecked
import Verif.Lemmas.RiemannMhdEmf
import Verif.Lemmas.RiemannMhdMirror
import Verif.Lemmas.RiemannMore
import Verif.Lemmas.SdmAverage
import Verif.Lemmas.SdmBalance
import Verif.Lemmas.SdmDivergence
import Verif.Lemmas.SdmFaces
import Verif.Lemmas.SdmFixed
import Verif.Lemmas.SdmFixedMpi
import Verif.Lemmas.SdmFlux
import Verif.Lemmas.SdmGeometry
import Verif.Lemmas.SdmGhosts
import Verif.Lemmas.SdmHalo
import Verif.Lemmas.SdmKernels
import Verif.Lemmas.SdmLimiter
import Verif.Lemmas.SdmLoops
import Verif.Lemmas.SdmMpiProgram
import Verif.Lemmas.SdmMpiStep
import Verif.Lemmas.SdmPoints
import Verif.Lemmas.SdmPositivity
import Verif.Lemmas.SdmPositivityReal
import Verif.Lemmas.SdmReal
import Verif.Lemmas.SdmSlopes
import Verif.Lemmas.SdmUniform
import Verif.Lemmas.SdmViscous
import Verif.Lemmas.SdmWalls
import Verif.Lemmas.SdmWhole
import Verif.Lemmas.SdmWindow
import Verif.Lemmas.Setup
import Verif.Lemmas.TimeLoop
import Verif.Lemmas.Vtk
import Verif.Lemmas.Walls
import Verif.Lemmas.Wedge
import Verif.Lemmas.WedgeGas
import Verif.Model.Boundaries
import Verif.Model.ComputeDt
import Verif.Model.Config
import Verif.Model.Euler
import Verif.Model.Factory
import Verif.Model.Halo
import Verif.Model.Hdf5
import Verif.Model.Hdf5Upscale
import Verif.Model.HighProgram
import Verif.Model.HydroMpi
import Verif.Model.HydroMuscl
import Verif.Model.HydroParams
import Verif.Model.HydroProgram
import Verif.Model.Index
import Verif.Model.InitHigh
import Verif.Model.InitHydro
import Verif.Model.InitMhd
import Verif.Model.JetMpi
import Verif.Model.Kernel
import Verif.Model.MhdMpi
import Verif.Model.MhdMuscl
import Verif.Model.MhdProgram
import Verif.Model.MoodMatrix
import Verif.Model.MoodPoly
import Verif.Model.MoodQuad
import Verif.Model.MoodStencil
import Verif.Model.MoodStep
import Verif.Model.Mpi
import Verif.Model.Ops
import Verif.Model.OtherDt
import Verif.Model.Params
import Verif.Model.Restart
import Verif.Model.Riemann
import Verif.Model.RiemannMhd
import Verif.Model.SdmFixed
import Verif.Model.SdmGeometry
import Verif.Model.SdmLimiter
import Verif.Model.SdmMpi
import Verif.Model.SdmPositivity
import Verif.Model.SdmStep
import Verif.Model.SdmViscous
import Verif.Model.TimeLoop
import Verif.Model.Trig
import Verif.Model.Vtk
import Verif.Model.Wedge
import Verif.Model.WedgeStep
import Verif.Model.Xdmf
import Verif.Props.C01_C02_Index
import Verif.Props.C03_C04_Schedules
import Verif.Props.C05_C08_Ghosts
import Verif.Props.C09_ThinDomains
import Verif.Props.C100_InitField
import Verif.Props.C101_InitPlasma
import Verif.Props.C102_InitHydro
import Verif.Props.C103_Decomposition
import Verif.Props.C104_Vortices
import Verif.Props.C105_Riemann2d
import Verif.Props.C106_Hydrostatic
import Verif.Props.C107_Disk
import Verif.Props.C108_LinearWave
import Verif.Props.C109_SdmPositivity
import Verif.Props.C10_C12_Mpi
import Verif.Props.C110_Vtk
import Verif.Props.C111_VtkNames
import Verif.Props.C112_Hdf5
import Verif.Props.C115_Upscale
import Verif.Props.C116_Restart
import Verif.Props.C117_HydroProgram
import Verif.Props.C118_HydroRestart
import Verif.Props.C119_C120_HydroMpi
import Verif.Props.C121_Xdmf
import Verif.Props.C122_C123_MhdProgram
import Verif.Props.C124_C126_Symmetry
import Verif.Props.C127_Wedge
import Verif.Props.C128_Jet
import Verif.Props.C129_InitSdm
import Verif.Props.C130_InitMood
import Verif.Props.C131_SdmProgram
import Verif.Props.C132_MoodProgram
import Verif.Props.C133_C135_MhdVersion2
import Verif.Props.C136_MhdVersion2Scheme
import Verif.Props.C137_C138_MhdMpi
import Verif.Props.C139_C140_SdmMpi
import Verif.Props.C13_C16_TimeLoop
import Verif.Props.C141_JetMpi
import Verif.Props.C141_JetSerial
import Verif.Props.C142_SdmFixed
import Verif.Props.C143_SdmLimiterBorder
import Verif.Props.C144_C145_SdmFixedProgram
import Verif.Props.C146_C147_SdmPositivityStep
import Verif.Props.C148_WedgeStages
import Verif.Props.C149_JetSame
import Verif.Props.C150_WedgeSame
import Verif.Props.C17_C21_Config
import Verif.Props.C22_C26_HydroStep
import Verif.Props.C25_C49_Differences
import Verif.Props.C27_C29_Riemann
import Verif.Props.C30_C33_Cell
import Verif.Props.C32_C59_Dt
import Verif.Props.C33_GravityStep
import Verif.Props.C34_C36_MhdStep
import Verif.Props.C34_C49_MhdDifferences
import Verif.Props.C37_C63_MhdRiemann
import Verif.Props.C39_C68_Euler
import Verif.Props.C40_C41_Monomials
import Verif.Props.C42_C71_Reconstruction
import Verif.Props.C43_C44_MoodFluxes
import Verif.Props.C43_C75_MoodWitness
import Verif.Props.C45_C73_MoodStep
import Verif.Props.C47_Quadrature
import Verif.Props.C48_Matrix
import Verif.Props.C50_C51_Setup
import Verif.Props.C60_Hancock
import Verif.Props.C69_C93_Dt
import Verif.Props.C70_Powers
import Verif.Props.C72_PseudoInverse
import Verif.Props.C74_C75_MoodBalance
import Verif.Props.C74_C75_MoodLowerSides
import Verif.Props.C77_MoodMpi
import Verif.Props.C80_Precision
import Verif.Props.C81_C84_SdmGeometry
import Verif.Props.C85_C89_SdmStep
import Verif.Props.C90_SdmViscous
import Verif.Props.C91_SdmLimiter
import Verif.Props.C94_Fan
import Verif.Props.C95_C97_MhdScheme
import Verif.Props.C98_Edge
import Verif.Props.C99_MoodConsistency
import Verif.Spec.Boundary
import Verif.Spec.Checked
import Verif.Spec.CheckedTrig
import Verif.Spec.Config
import Verif.Spec.Disk
import Verif.Spec.Euler
import Verif.Spec.Euler2
import Verif.Spec.Fan
import Verif.Spec.Hancock
import Verif.Spec.Hdf5
import Verif.Spec.Hdf5Upscale
import Verif.Spec.HighProgram
import Verif.Spec.HydroMpi
import Verif.Spec.HydroProgram
import Verif.Spec.HydroStep
import Verif.Spec.Init
import Verif.Spec.InitHigh
import Verif.Spec.InitHydro
import Verif.Spec.InitPlasma
import Verif.Spec.Kernel
import Verif.Spec.Lapack
import Verif.Spec.Mhd
import Verif.Spec.MhdMpi
import Verif.Spec.MhdProgram
import Verif.Spec.MhdScheme
import Verif.Spec.MhdStep
import Verif.Spec.MhdWave
import Verif.Spec.Mood
import Verif.Spec.Restart
import Verif.Spec.Riemann2d
import Verif.Spec.Sdm
import Verif.Spec.SdmLimiter
import Verif.Spec.SdmMpi
import Verif.Spec.SdmPositivity
import Verif.Spec.SdmStep
import Verif.Spec.SdmViscous
import Verif.Spec.Setup
import Verif.Spec.Special
import Verif.Spec.Symmetry
import Verif.Spec.TimeLoop
import Verif.Spec.Vtk
import Verif.Spec.Waves
