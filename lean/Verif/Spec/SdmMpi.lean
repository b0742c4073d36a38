import Verif.Model.SdmMpi
import Verif.Spec.HighProgram
import Verif.Spec.HydroMpi

/-! What a user sees of a parallel run of the SDM program. -/

namespace Verif.Spec

open Sdm Start

/-- The same run in one process, on the whole domain. -/
def _root_.Verif.SdmConf.whole (C : SdmConf ℝ) (T : Ranks) : SdmConf ℝ := { C with P := Spec.whole T C.P }

/-- `a`, on the rank of block `q`, is that block's part of `b`: every variable at every solution point. -/
def SdmPart (C : SdmConf ℝ) (q : Cell) (a b : Vals ℝ) : Prop :=
  ∀ c p v, Inside C.M.d3 C.P c → IsSolPt C.M.d3 C.M.N p → v < hydroVars C.M.d3 → a c p v = b (inDomain C.P q c) p v

/-- `x`, written by the rank of block `q`, is that block's part of the file `y` of the whole domain. -/
def SdmPartFile (C : SdmConf ℝ) (q : Cell) (x y : Snapshot FileData ℝ) : Prop :=
  x.number = y.number ∧ x.time = y.time ∧ SdmPart C q (sdmVals C x.data) (sdmVals C y.data)

/-- The ranks' memories hold their parts of the solution in the memory of the whole. -/
def SdmParts (C : SdmConf ℝ) (T : Ranks) (s : Nat → Addr → ℝ) (m : Addr → ℝ) : Prop :=
  ∀ q, Block T.mx T.my T.mz q → SdmPart C q (valsOf C.M (s (owner T.my T.mz q)) sU) (valsOf C.M m sU)

/-- The same with the ghost cells. -/
def SdmPartsGhost (C : SdmConf ℝ) (T : Ranks) (s : Nat → Addr → ℝ) (m : Addr → ℝ) : Prop :=
  ∀ q, Block T.mx T.my T.mz q → ∀ c p v, C.P.box C.M.d3 c → IsSolPt C.M.d3 C.M.N p → v < hydroVars C.M.d3 →
    valsOf C.M (s (owner T.my T.mz q)) sU c p v = valsOf C.M m sU (inDomain C.P q c) p v

/-- The initial condition is a function of the position: no random numbers. -/
def SdmDeterministic : SdmProblem ℝ → Prop
  | .kelvinHelmholtz p _ => p.p_rand = false
  | _ => True

/-- Every rank has somewhere gas of positive density. -/
def SdmSomeGas (C : SdmConf ℝ) (T : Ranks) (m : Addr → ℝ) : Prop :=
  ∀ q, Block T.mx T.my T.mz q → ∃ c p, Inside C.M.d3 C.P c ∧ IsSolPt C.M.d3 C.M.N p ∧
    0 < valsOf C.M m sU (inDomain C.P q c) p 0

end Verif.Spec
