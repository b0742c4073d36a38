import Verif.Model.MhdMuscl
import Verif.Spec.HydroStep

/-! Specification vocabulary for MHD steps: discrete divergence of the magnetic field, sequences of
steps. -/

namespace Verif.Spec

/-- Settings for which the MHD step computes everything it uses: one of the solvers HLLD, HLL, LLF;
in 2D slope type 1 or 2; in 3D no rotation (rotating frames make the scheme depend on the
position). -/
structure ValidMhd (d3 : Bool) (S : MSettings ℝ) : Prop where
  riemann : S.riemann = .hlld ∨ S.riemann = .hll ∨ S.riemann = .llf
  slope : d3 = false → S.slope_type = 1 ∨ S.slope_type = 2
  norot : d3 = true → S.Omega0 ≤ 0

/-- Settings for which implementation version 2 of the MHD step computes everything it uses: one of the
solvers HLLD, HLL, LLF and slope type 1 or 2. -/
structure ValidMhd2 (S : MSettings ℝ) : Prop where
  riemann : S.riemann = .hlld ∨ S.riemann = .hll ∨ S.riemann = .llf
  slope : S.slope_type = 1 ∨ S.slope_type = 2

/-- Discrete divergence of the magnetic field in a cell: component `5`, `6`, `7` of cell `(i,j,k)` of
array `U` is the field through the lower face in direction `x`, `y`, `z`.  `cx`, `cy`, `cz` are the
cells whose lower faces are the upper faces of cell `c`. -/
noncomputable def divergence (d3 : Bool) (S : MSettings ℝ) (m : Addr → ℝ) (U : Nat)
    (c cx cy cz : Cell) : ℝ :=
  (m ⟨U, cx.i, cx.j, cx.k, 5⟩ - m ⟨U, c.i, c.j, c.k, 5⟩) / S.dx +
  (m ⟨U, cy.i, cy.j, cy.k, 6⟩ - m ⟨U, c.i, c.j, c.k, 6⟩) / S.dy +
  (if d3 then (m ⟨U, cz.i, cz.j, cz.k, 7⟩ - m ⟨U, c.i, c.j, c.k, 7⟩) / S.dz else 0)

/-- Divergence in cell number `(i,j,k)`. -/
noncomputable def divB (d3 : Bool) (S : MSettings ℝ) (P : Grid) (m : Addr → ℝ) (U i j k : Nat) : ℝ :=
  divergence d3 S m U (cell d3 P i j k) (cell d3 P (i + 1) j k) (cell d3 P i (j + 1) k)
    (cell d3 P i j (k + 1))

/-- Divergence in cell number `(i,j,k)` of a periodic domain: the upper neighbour of the last cell
is the first one. -/
noncomputable def divBPeriodic (d3 : Bool) (S : MSettings ℝ) (P : Grid) (m : Addr → ℝ)
    (U i j k : Nat) : ℝ :=
  divergence d3 S m U (cell d3 P i j k) (cell d3 P ((i + 1) % P.nx.toNat) j k)
    (cell d3 P i ((j + 1) % P.ny.toNat) k) (cell d3 P i j ((k + 1) % P.nz.toNat))

/-- Steps number `it`, `it + 1`, … with the time steps and contents of uninitialised variables in the
list, each under some schedule. -/
inductive MhdSteps {α : Type} [ROps α] (d3 : Bool) (S : MSettings α) (P : Grid) (xmin : α) (impl : Int) :
    Nat → List (α × MJunk α) → (Addr → α) → (Addr → α) → Prop
  | nil (it : Nat) (m : Addr → α) : MhdSteps d3 S P xmin impl it [] m m
  | cons {it : Nat} {dt : α} {J : MJunk α} {l : List (α × MJunk α)} {m m1 m2 : Addr → α} :
      Runs (mhd_unsplit d3 S P J xmin impl dt it) m m1 →
      MhdSteps d3 S P xmin impl (it + 1) l m1 m2 →
      MhdSteps d3 S P xmin impl it ((dt, J) :: l) m m2

end Verif.Spec
