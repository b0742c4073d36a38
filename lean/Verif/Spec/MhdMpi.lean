import Verif.Model.MhdMpi
import Verif.Spec.HydroMpi
import Verif.Spec.MhdProgram
import Verif.Props.C103_Decomposition

/-! What a user sees of a parallel MHD run: every rank's part of every file. -/

namespace Verif.Spec

/-- The same run in one process, on the whole domain. -/
def _root_.Verif.MhdConf.whole (C : MhdConf ℝ) (T : Ranks) : MhdConf ℝ := { C with P := Spec.whole T C.P }

/-- `x`, written by the rank of block `p`, is that block's part of the file `y` of the whole domain: number, time and all
eight variables. -/
def MhdPartFile (d3 : Bool) (P : Grid) (p : Cell) (x y : Snapshot (Cell → Nat → ℝ) ℝ) : Prop :=
  x.number = y.number ∧ x.time = y.time ∧
  ∀ i j k v, i < P.nx.toNat → j < P.ny.toNat → k < depth d3 P → v < 8 →
    x.data (cell d3 P i j k) v = y.data (inDomain P p (cell d3 P i j k)) v

/-- The ranks' arrays `U` hold, in the interior, their parts of array `U` of the whole. -/
def MhdParts (d3 : Bool) (T : Ranks) (P : Grid) (U : Nat) (M : Nat → Addr → ℝ) (G : Addr → ℝ) : Prop :=
  ∀ p, Block T.mx T.my T.mz p → ∀ c, P.box d3 c → P.inner d3 c → ∀ v, v < 8 →
    M (owner T.my T.mz p) (c.at U v) = G ((inDomain P p c).at U v)

/-- The same with ghost cells. -/
def MhdPartsGhost (d3 : Bool) (T : Ranks) (P : Grid) (U : Nat) (M : Nat → Addr → ℝ) (G : Addr → ℝ) : Prop :=
  ∀ p, Block T.mx T.my T.mz p → ∀ c, P.box d3 c → ∀ v, v < 8 →
    M (owner T.my T.mz p) (c.at U v) = G ((inDomain P p c).at U v)

/-- The initial condition is a function of the position: no random numbers, and not the field loop, which reads ghost cells
not yet filled and the numbers of cells of the process (C103). -/
def MhdDeterministic (Q : MhdProblem ℝ) : Prop := ¬ RandomMhd Q ∧ ¬ IsFieldLoop Q

end Verif.Spec
