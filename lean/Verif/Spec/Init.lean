import Verif.Model.InitMhd
import Verif.Spec.MhdStep

/-! Specification vocabulary for the initial conditions. -/

namespace Verif.Spec

/-- Freshly allocated arrays (Kokkos views are set to zero when allocated). -/
def Fresh {α : Type} [ROps α] (m : Addr → α) : Prop := ∀ a, m a = ROps.lit 0

/-- The field loop, a disc of the given radius around the origin, does not touch the first column and
row of cell centres of the domain, nor the ones just beyond its upper borders. -/
structure LoopInside (S : MSettings ℝ) (P : Grid) (D : Domain ℝ) (p : FieldLoopParams ℝ) : Prop where
  serial : D.i_mpi = 0 ∧ D.j_mpi = 0
  xlo : p.radius ≤ |D.xmin + S.dx / 2|
  xhi : p.radius ≤ |D.xmin + S.dx / 2 + P.nx * S.dx|
  ylo : p.radius ≤ |D.ymin + S.dy / 2|
  yhi : p.radius ≤ |D.ymin + S.dy / 2 + P.ny * S.dy|

/-- The parameters of the wave were computed from the extent of the grid. -/
structure WaveFits (S : MSettings ℝ) (P : Grid) (p : WaveParams ℝ) : Prop where
  dx : 0 < S.dx
  dy : 0 < S.dy
  dz : 0 < S.dz
  made : ∃ gamma0 amplitude type,
    WaveParams.make (P.nx * S.dx) (P.ny * S.dy) (P.nz * S.dz) gamma0 amplitude type = some p

/-- Problems whose magnetic field has no divergence: all but the implosion with different fields
inside and outside, a field loop that leaves the domain, and a wave made for another domain. -/
def Solenoidal (d3 : Bool) (S : MSettings ℝ) (P : Grid) (D : Domain ℝ) : MhdProblem ℝ → Prop
  | .implode p => p.Bx_in = p.Bx_out ∧ p.By_in = p.By_out ∧ (d3 = true → p.Bz_in = p.Bz_out)
  | .fieldLoop p => LoopInside S P D p
  | .wave p => d3 = true → WaveFits S P p
  | _ => True

end Verif.Spec
