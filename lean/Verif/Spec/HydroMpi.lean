import Verif.Model.HydroMpi
import Verif.Spec.HydroProgram
import Verif.Props.C10_C12_Mpi

/-! What a user sees of a parallel run: every rank's part of every file. -/

namespace Verif.Spec

/-- The ranks fit the dimension. -/
structure RanksOk (d3 : Bool) (T : Ranks) : Prop where
  mx : 1 ≤ T.mx
  my : 1 ≤ T.my
  mz : 1 ≤ T.mz
  flat : d3 = false → T.mz = 1

/-- The grid of the whole domain. -/
abbrev whole (T : Ranks) (P : Grid) : Grid := globalGrid T.mx T.my T.mz P

/-- The same run in one process, on the whole domain. -/
def _root_.Verif.HydroConf.whole (C : HydroConf ℝ) (T : Ranks) : HydroConf ℝ := { C with P := Spec.whole T C.P }

/-- `x`, written by the rank of block `p`, is that block's part of the file `y` of the whole domain. -/
def PartFile (d3 : Bool) (P : Grid) (p : Cell) (x y : Snapshot (Cell → Nat → ℝ) ℝ) : Prop :=
  x.number = y.number ∧ x.time = y.time ∧
  ∀ i j k v, i < P.nx.toNat → j < P.ny.toNat → k < depth d3 P → v < hydroVars d3 →
    x.data (cell d3 P i j k) v = y.data (inDomain P p (cell d3 P i j k)) v

/-- The initial condition is a function of the position: no random numbers. -/
def Deterministic : HydroProblem ℝ → Prop
  | .kelvinHelmholtz p _ => p.p_rand = false
  | _ => True

/-- The ranks' arrays hold their parts of the arrays of the whole: `U` in the interior, gravity everywhere. -/
structure Parts (C : HydroConf ℝ) (T : Ranks) (U : Nat) (M : Nat → Addr → ℝ) (G : Addr → ℝ) : Prop where
  data : ∀ p, Block T.mx T.my T.mz p → ∀ c, C.P.box C.d3 c → C.P.inner C.d3 c → ∀ v, v < hydroVars C.d3 →
    M (owner T.my T.mz p) (c.at U v) = G ((inDomain C.P p c).at U v)
  grav : C.grav = true → ∀ p, Block T.mx T.my T.mz p → ∀ c, C.P.box C.d3 c → ∀ v, v < (if C.d3 then 3 else 2) →
    M (owner T.my T.mz p) (c.at aG v) = G ((inDomain C.P p c).at aG v)

/-- The domain seen by a single process. -/
def alone (D : Domain ℝ) : Domain ℝ := { D with i_mpi := 0, j_mpi := 0, k_mpi := 0 }

end Verif.Spec
