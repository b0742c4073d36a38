import Verif.Model.HydroProgram
import Verif.Spec.HydroStep
import Verif.Spec.Euler
import Verif.Props.C32_C59_Dt

/-! What a user sees of a run: the files. -/

namespace Verif.Spec

variable {α : Type}

/-- The parameters make sense. -/
structure _root_.Verif.HydroConf.Ok (C : HydroConf ℝ) (B : Sides) : Prop where
  box : BoxSetup C.d3 (hydroVars C.d3) 2 C.P B
  valid : ValidHydro C.d3 C.S
  gas : GasParams C.S
  spacings : Spacings C.d3 C.S
  impl : C.impl = 0 ∨ C.impl = 1
  bot : C.bot ≤ 0

/-- The same parameters with `i` steps taken off the limit. -/
def _root_.Verif.HydroConf.less (C : HydroConf ℝ) (i : Int) : HydroConf ℝ :=
  { C with ctl := { C.ctl with nStepmax := C.ctl.nStepmax - i } }

/-- Two files show the same: number, time and every variable of every cell. -/
def SameFile (d3 : Bool) (P : Grid) (x y : Snapshot (Cell → Nat → α) α) : Prop :=
  x.number = y.number ∧ x.time = y.time ∧
  ∀ i j k v, i < P.nx.toNat → j < P.ny.toNat → k < depth d3 P → v < hydroVars d3 →
    x.data (cell d3 P i j k) v = y.data (cell d3 P i j k) v

/-- Two lists of files show the same. -/
def SameFiles (d3 : Bool) (P : Grid) : List (Snapshot (Cell → Nat → α) α) →
    List (Snapshot (Cell → Nat → α) α) → Prop :=
  List.Forall₂ (SameFile d3 P)

/-- Numbers `n, n+1, …` and times that never decrease and stay between `t0` and `t1`. -/
def InOrder {D : Type} (n : Int) (t0 t1 : ℝ) (l : List (Snapshot D ℝ)) : Prop :=
  (∀ i (h : i < l.length), l[i].number = n + i) ∧
  (l.map Snapshot.time).Pairwise (· ≤ ·) ∧ ∀ x ∈ l, t0 ≤ x.time ∧ x.time ≤ t1

/-- Total of variable `v` in a file. -/
def fileTotal (d3 : Bool) (P : Grid) (x : Snapshot (Cell → Nat → ℝ) ℝ) (v : Nat) : ℝ :=
  interiorSum d3 P fun c => x.data c v

/-- All cells hold the state `q`. -/
def UniformFile (d3 : Bool) (P : Grid) (q : Nat → ℝ) (x : Snapshot (Cell → Nat → ℝ) ℝ) : Prop :=
  ∀ i j k v, i < P.nx.toNat → j < P.ny.toNat → k < depth d3 P → v < hydroVars d3 →
    x.data (cell d3 P i j k) v = q v

end Verif.Spec
