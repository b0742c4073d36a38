import Verif.Model.ComputeDt
import Verif.Model.MhdMuscl
import Verif.Model.SdmStep

/-!
# Time step of the MHD, MOOD and spectral difference solvers

`compute_dt_local` of `SolverMHDMuscl`, `SolverHydroMood`, `SolverHydroSDM` and their reduction functors.
`bot`: the value every accumulator of a reduction starts with.  For MHD it is the identity of
`Kokkos::Max`, the lowest finite number; the MOOD and SDM functors have an `init` of their own, which sets
`std::numeric_limits<real_t>::min()`, the smallest positive normal number, or `-CUDART_INF` on a GPU
(`src/mood/MoodDtFunctor.h:177-190`, `src/sdm/SDM_Dt_Functor.h:247-260`).

`pow` of `<cmath>` is a parameter; the theorems are about the real power.
-/

namespace Verif

open ROps

variable {α : Type} [ROps α]

/-! ### MHD -/

/-- Contribution of an interior cell in `ComputeDtFunctor2D_MHD` (`src/muscl/MHDRunFunctors2D.h:49-73`) and
`ComputeDtFunctor3D_MHD` (`src/muscl/MHDRunFunctors3D.h:51-77`). -/
def cflRateMhd (d3 : Bool) (S : MSettings α) (q : MState α) : α :=
  let fastInfoSpeed := find_speed_info_dirs S q
  let vx := fastInfoSpeed.1
  let vy := fastInfoSpeed.2.1
  let vz := fastInfoSpeed.2.2
  if d3 then vx / S.dx + vy / S.dy + vz / S.dz else vx / S.dx + vy / S.dy

/-- `operator()` of the two functors. -/
def mhdDtItem (d3 : Bool) (S : MSettings α) (P : Grid) (m : Addr → α) (t : Nat) (invDt : α) : α :=
  let c := P.cellOf t
  if P.inner d3 c then
    fmax invDt (cflRateMhd d3 S ((get_state aQ c).value m))
  else invDt

/-- `SolverMHDMuscl<dim>::compute_dt_local` (`src/muscl/SolverMHDMuscl.h:722-741`): possible results.  It is
called within a step after `convertToPrimitives` (`src/muscl/SolverMHDMuscl.cpp:391-395`, `483-487`) and
reads the array `Q`. -/
def MhdComputeDtLocal (bot : α) (d3 : Bool) (S : MSettings α) (P : Grid) (m : Addr → α) (dt : α) : Prop :=
  ∃ invDt, MaxReduces bot (P.isize.toNat * P.jsize.toNat * (if d3 then P.ksize.toNat else 1))
    (mhdDtItem d3 S P m) invDt ∧ dt = S.cfl / invDt

/-! ### MOOD -/

namespace Mood

/-- `operator()` of `ComputeDtFunctor2d` (`src/mood/MoodDtFunctor.h:192-231`) and `ComputeDtFunctor3d`
(`src/mood/MoodDtFunctor.h:291-335`); `computePrimitives` and the formula for one cell are those of the
MUSCL solver. -/
def dtItem (lay : Layout) (d3 : Bool) (S : Settings α) (P : Grid) (U : Nat) (m : Addr → α) (t : Nat)
    (invDt : α) : α :=
  let c := cellAt lay d3 P t
  if P.inner d3 c then fmax invDt (cflRate d3 S ((loadState d3 U c).value m)) else invDt

/-- `SolverHydroMood<dim,degree>::compute_dt_local` (`src/mood/SolverHydroMood.h:760-791`): possible
results. -/
def ComputeDtLocal (pow : α → α → α) (bot : α) (lay : Layout) (d3 : Bool) (degree : ℕ) (ssprk3 : Bool)
    (S : Settings α) (P : Grid) (iteration : Nat) (m : Addr → α) (dt : α) : Prop :=
  let U := if iteration % 2 = 0 then aU else aU2
  ∃ invDt, MaxReduces bot (P.isize * P.jsize * (if d3 then P.ksize else 1)).toNat
      (dtItem lay d3 S P U m) invDt ∧
    let dt0 := S.cfl / invDt
    dt = if degree ≥ 2 ∧ ssprk3 = true then pow dt0 ((lit degree + lit 1) / lit 3) else dt0

end Mood

/-! ### Spectral difference -/

namespace Sdm

/-- Contribution of a solution point (`src/sdm/SDM_Dt_Functor.h:297-312`, `446-465`); `dx` is the cell size
divided by `N` (`:275-276`, `423-425`). -/
def cflRate (d3 : Bool) (N : ℕ) (S : Settings α) (u : HState α) : α :=
  let q := if d3 then Euler3.convert_to_primitive u S.gamma0 else Euler2.convert_to_primitive u S.gamma0
  let c := if d3 then Euler3.compute_speed_of_sound q S.gamma0 else Euler2.compute_speed_of_sound q S.gamma0
  let dx := S.dx / lit N
  let dy := S.dy / lit N
  let dz := S.dz / lit N
  let vx := c + fabs q.u
  let vy := c + fabs q.v
  let vz := c + fabs q.w
  if d3 then vx / dx + vy / dy + vz / dz else vx / dx + vy / dy

/-- `operator()` of `ComputeDt_Functor_2d` (`src/sdm/SDM_Dt_Functor.h:268-320`) and `ComputeDt_Functor_3d`
(`src/sdm/SDM_Dt_Functor.h:410-473`). -/
def dtItem (M : Scheme α) (S : Settings α) (P : Grid) (m : Addr → α) (t : Nat) (invDt : α) : α :=
  let c := Mood.cellAt M.lay M.d3 P t
  if P.inner M.d3 c then
    (cellPts M.d3 M.N).foldl
      (fun invDt p => fmax invDt (cflRate M.d3 M.N S ((loadAt M.d3 (M.sol sU c p)).value m))) invDt
  else invDt

/-- `SolverHydroSDM<dim,N>::compute_dt_local` (`src/sdm/SolverHydroSDM.h:864-889`): possible results. -/
def ComputeDtLocal (pow : α → α → α) (bot : α) (M : Scheme α) (rescale ssprk3 ssprk54 : Bool)
    (S : Settings α) (P : Grid) (m : Addr → α) (dt : α) : Prop :=
  ∃ invDt, MaxReduces bot (P.isize * P.jsize * (if M.d3 then P.ksize else 1)).toNat
      (dtItem M S P m) invDt ∧
    let dt0 := S.cfl / invDt
    dt = if rescale = true ∧ M.N ≥ 2 ∧ (ssprk3 = true ∨ ssprk54 = true) then
      pow dt0 ((lit M.N + lit 1) / lit 3) else dt0

end Sdm

end Verif
