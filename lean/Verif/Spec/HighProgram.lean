import Verif.Model.HighProgram
import Verif.Spec.HydroProgram
import Verif.Spec.InitHigh
import Verif.Lemmas.MoodUniform
import Verif.Lemmas.SdmReal
import Verif.Props.C69_C93_Dt

/-! What a user sees of a run of the SDM or MOOD program: the files. -/

namespace Verif.Spec

open Sdm Mood Start

/-- Content of a file: entry `v` of cell `c`. -/
abbrev FileData := Cell → ℕ → ℝ

/-- The parameters of an SDM run make sense. -/
structure _root_.Verif.SdmConf.Ok (C : SdmConf ℝ) (B : Sides) : Prop where
  scheme : ExactScheme C.M
  box : Sdm.Setup C.M C.P B
  solver : HasSolver C.M.d3 C.S

/-- The same parameters with another order of the loops over the cells. -/
def _root_.Verif.SdmConf.ordered (C : SdmConf ℝ) (lay : Layout) : SdmConf ℝ := { C with M := { C.M with lay := lay } }

/-- Values at the solution points shown by a file of the SDM program. -/
def sdmVals (C : SdmConf ℝ) (d : FileData) : Vals ℝ := fun c p iv => d c (DofMap C.M.d3 C.M.N p iv)

/-- Two SDM files show the same: number, time and every variable at every solution point. -/
def SameSdmFile (C : SdmConf ℝ) (x y : Snapshot FileData ℝ) : Prop :=
  x.number = y.number ∧ x.time = y.time ∧ SameInside C.M.d3 C.M.N C.P (sdmVals C x.data) (sdmVals C y.data)

/-- The density is positive at every solution point. -/
def SdmDense (C : SdmConf ℝ) (m : Addr → ℝ) : Prop :=
  ∀ c p, Inside C.M.d3 C.P c → IsSolPt C.M.d3 C.M.N p → 0 < valsOf C.M m sU c p 0

/-- A file shows the gas `G` at every solution point. -/
def SdmFileShows (C : SdmConf ℝ) (D : Domain ℝ) (G : ℝ → ℝ → ℝ → PointGas) (x : Snapshot FileData ℝ) : Prop :=
  ∀ b p v, Inside C.M.d3 C.P b → IsSolPt C.M.d3 C.M.N p → v < hydroVars C.M.d3 →
    sdmVals C x.data b p v = Mood.comp ((G (D.xmin + (b.i + C.P.nx * D.i_mpi - C.P.ghostWidth + C.M.sp p.x) * C.S.dx)
      (D.ymin + (b.j + C.P.ny * D.j_mpi - C.P.ghostWidth + C.M.sp p.y) * C.S.dy)
      (D.zmin + (b.k + C.P.nz * D.k_mpi - C.P.ghostWidth + C.M.sp p.z) * C.S.dz)).conserved C.S.gamma0) v

/-- Total of variable `iv` in an SDM file. -/
noncomputable def sdmTotal (C : SdmConf ℝ) (x : Snapshot FileData ℝ) (iv : ℕ) : ℝ :=
  content C.M.d3 C.M.N C.P (sdmVals C x.data) iv

/-- The parameters of a MOOD run make sense. -/
structure _root_.Verif.MoodConf.Ok (C : MoodConf ℝ) (B : Sides) : Prop where
  box : MoodSetup C.M C.P B
  valid : ValidMood C.M C.S

/-- The same parameters with another order of the loops over the cells. -/
def _root_.Verif.MoodConf.ordered (C : MoodConf ℝ) (lay : Layout) : MoodConf ℝ := { C with lay := lay }

/-- Two contents agree in the interior cells. -/
def SameCells (C : MoodConf ℝ) (d d' : FileData) : Prop :=
  ∀ c v, Inside C.M.d3 C.P c → v < hydroVars C.M.d3 → d c v = d' c v

/-- Two MOOD files show the same: number, time and every variable of every interior cell. -/
def SameMoodFile (C : MoodConf ℝ) (x y : Snapshot FileData ℝ) : Prop :=
  x.number = y.number ∧ x.time = y.time ∧ SameCells C x.data y.data

/-- A file shows the gas `G` at the centres of the interior cells. -/
def MoodFileShows (C : MoodConf ℝ) (D : Domain ℝ) (G : ℝ → ℝ → ℝ → PointGas) (x : Snapshot FileData ℝ) : Prop :=
  ∀ b v, Inside C.M.d3 C.P b → v < hydroVars C.M.d3 →
    x.data b v = Mood.comp ((G (D.xmin + (b.i + C.P.nx * D.i_mpi - C.P.ghostWidth + 1 / 2) * C.S.dx)
      (D.ymin + (b.j + C.P.ny * D.j_mpi - C.P.ghostWidth + 1 / 2) * C.S.dy)
      (D.zmin + (b.k + C.P.nz * D.k_mpi - C.P.ghostWidth + 1 / 2) * C.S.dz)).conserved C.S.gamma0) v

/-- A content is the same gas `u` in every interior cell. -/
def UniformCells (C : MoodConf ℝ) (u : HState ℝ) (d : FileData) : Prop :=
  ∀ c v, Inside C.M.d3 C.P c → v < hydroVars C.M.d3 → d c v = u.get v

end Verif.Spec
