import Verif.Model.MhdProgram
import Verif.Spec.HydroProgram
import Verif.Spec.Mhd
import Verif.Spec.MhdStep

/-! What a user sees of an MHD run: the files. -/

namespace Verif.Spec

/-- The parameters make sense. -/
structure _root_.Verif.MhdConf.Ok (C : MhdConf ℝ) (B : Sides) : Prop where
  box : BoxSetup C.d3 8 3 C.P B
  /-- implementation version 0 or 1, or 2, with settings it supports -/
  valid : ((C.impl = 0 ∨ C.impl = 1) ∧ ValidMhd C.d3 C.S) ∨ (C.impl = 2 ∧ ValidMhd2 C.S)

/-- Positive floors, spacings and CFL number, `γ > 1`. -/
structure _root_.Verif.MhdConf.Gas (C : MhdConf ℝ) : Prop where
  params : MhdParams C.S
  spacings : Spacings C.d3 C.S.toSettings
  cfl : 0 < C.S.cfl

/-- The same parameters with `i` steps taken off the limit. -/
def _root_.Verif.MhdConf.less (C : MhdConf ℝ) (i : Int) : MhdConf ℝ :=
  { C with ctl := { C.ctl with nStepmax := C.ctl.nStepmax - i } }

/-- Two files show the same: number, time and all eight variables of every cell. -/
def SameMhdFile (d3 : Bool) (P : Grid) (x y : Snapshot (Cell → Nat → ℝ) ℝ) : Prop :=
  x.number = y.number ∧ x.time = y.time ∧
  ∀ i j k v, i < P.nx.toNat → j < P.ny.toNat → k < depth d3 P → v < 8 →
    x.data (cell d3 P i j k) v = y.data (cell d3 P i j k) v

/-- Two lists of files show the same. -/
def SameMhdFiles (d3 : Bool) (P : Grid) : List (Snapshot (Cell → Nat → ℝ) ℝ) →
    List (Snapshot (Cell → Nat → ℝ) ℝ) → Prop :=
  List.Forall₂ (SameMhdFile d3 P)

/-- Divergence of the magnetic field of a file in cell `(i,j,k)` of a periodic domain: variables 5, 6, 7 are the fields
through the lower faces. -/
noncomputable def fileDiv (d3 : Bool) (S : MSettings ℝ) (P : Grid) (x : Snapshot (Cell → Nat → ℝ) ℝ)
    (i j k : Nat) : ℝ :=
  (x.data (cell d3 P ((i + 1) % P.nx.toNat) j k) 5 - x.data (cell d3 P i j k) 5) / S.dx +
  (x.data (cell d3 P i ((j + 1) % P.ny.toNat) k) 6 - x.data (cell d3 P i j k) 6) / S.dy +
  (if d3 then (x.data (cell d3 P i j ((k + 1) % P.nz.toNat)) 7 - x.data (cell d3 P i j k) 7) / S.dz else 0)

/-- The same for a cell whose upper neighbours are cells of the domain, whatever the boundaries. -/
noncomputable def fileDivInside (d3 : Bool) (S : MSettings ℝ) (P : Grid) (x : Snapshot (Cell → Nat → ℝ) ℝ)
    (i j k : Nat) : ℝ :=
  (x.data (cell d3 P (i + 1) j k) 5 - x.data (cell d3 P i j k) 5) / S.dx +
  (x.data (cell d3 P i (j + 1) k) 6 - x.data (cell d3 P i j k) 6) / S.dy +
  (if d3 then (x.data (cell d3 P i j (k + 1)) 7 - x.data (cell d3 P i j k) 7) / S.dz else 0)

/-- All cells hold the conserved variables `q`. -/
def UniformMhdFile (d3 : Bool) (P : Grid) (q : MState ℝ) (x : Snapshot (Cell → Nat → ℝ) ℝ) : Prop :=
  ∀ i j k, i < P.nx.toNat → j < P.ny.toNat → k < depth d3 P →
    x.data (cell d3 P i j k) 0 = q.d ∧ x.data (cell d3 P i j k) 1 = q.p ∧
    x.data (cell d3 P i j k) 2 = q.u ∧ x.data (cell d3 P i j k) 3 = q.v ∧ x.data (cell d3 P i j k) 4 = q.w ∧
    x.data (cell d3 P i j k) 5 = q.a ∧ x.data (cell d3 P i j k) 6 = q.b ∧ x.data (cell d3 P i j k) 7 = q.c

end Verif.Spec
