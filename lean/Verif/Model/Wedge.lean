import Verif.Model.SdmStep
import Verif.Model.HydroParams
import Verif.Model.InitMhd

/-!
# Problems with boundary conditions of their own: wedge and jet

`src/shared/problems/WedgeParams.h`, `src/shared/problems/JetParams.h`,
`src/shared/BoundariesFunctorsWedge.h` (high order finite volume solver, "MOOD"),
`src/sdm/SDM_Boundaries_Functors_Wedge.h`, `src/sdm/SDM_Boundaries_Functors_Jet.h` (spectral difference
solver, "SDM"), the initial conditions of the two problems, and the calls in `SolverHydroMood.h` and
`SolverHydroSDM.h`.

Simplifications: the functors store the constant states variable by variable (`ID`, `IP` = `IE`, `IU`, `IV`,
in 3D `IW`), here in a loop over all `nbvar` variables, which are the same ones for these solvers
(`nbvar` = 4 in 2D, 5 in 3D).  Integer products are exact.  The MPI build is modelled only by the position of
the process in the coordinates.
-/

namespace Verif.Special

open Verif Sdm ROps TOps

/-- `tan` of `<cmath>`, in addition to the functions of `TOps`.  No laws. -/
class WOps (α : Type) extends TOps α where
  tan : α → α

/-- Exact real functions. -/
noncomputable instance : WOps ℝ where
  toTOps := inferInstance
  tan := Real.tan

/-- IEEE double precision. -/
instance : WOps Float where
  toTOps := inferInstance
  tan := Float.tan

/-! ### Parameters -/

/-- `WedgeParams` (`src/shared/problems/WedgeParams.h:19-34`): front position, slope, displacement, and the
conserved variables behind (`1`) and ahead (`2`) of the shock. -/
structure WedgeParams (α : Type) where
  x_f : α
  slope_f : α
  delta_x : α
  behind : HState α
  ahead : HState α

/-- Conserved variables of a gas (`src/shared/problems/WedgeParams.h:57-61`, `:71-75`,
`src/shared/problems/JetParams.h:63-67`, `:79-83`). -/
def conserved {α : Type} [ROps α] (gamma0 rho p u v w : α) : HState α :=
  ⟨rho, p / (gamma0 - lit 1) + lit (1 / 2) * rho * (u * u + v * v + w * w), rho * u, rho * v, rho * w⟩

/-- The constructor `WedgeParams(configMap, t)` (`src/shared/problems/WedgeParams.h:36-77`). -/
def WedgeParams.make {α : Type} [WOps α] (c : ConfigReader α) (t : α) : WedgeParams α :=
  let gamma0 := c.getFloat "hydro" "gamma0" (lit (14 / 10))
  let angle_f := c.getFloat "wedge" "front_angle" (pi / lit 3)
  let shock_speed := c.getFloat "wedge" "shock_speed" (lit 10) / cos (pi / lit 2 - angle_f)
  { x_f := c.getFloat "wedge" "front_x" (lit (1 / 10))
    slope_f := WOps.tan angle_f
    delta_x := shock_speed * t
    behind := conserved gamma0 (c.getFloat "wedge" "rho1" (lit 8)) (c.getFloat "wedge" "p1" (lit (1165 / 10)))
      (c.getFloat "wedge" "u1" (lit (825 / 100) * cos (angle_f - pi / lit 2)))
      (c.getFloat "wedge" "v1" (lit (825 / 100) * sin (angle_f - pi / lit 2)))
      (c.getFloat "wedge" "w1" (lit 0))
    ahead := conserved gamma0 (c.getFloat "wedge" "rho2" (lit (14 / 10))) (c.getFloat "wedge" "p2" (lit 1))
      (c.getFloat "wedge" "u2" (lit 0)) (c.getFloat "wedge" "v2" (lit 0)) (c.getFloat "wedge" "w2" (lit 0)) }

/-- `JetParams` (`src/shared/problems/JetParams.h:23-50`): states of the jet (`1`) and of the gas around it
(`2`), position and width. -/
structure JetParams (α : Type) where
  jet : HState α
  bulk : HState α
  pos_jet : α
  width_jet : α

/-- The constructor `JetParams(configMap)` (`src/shared/problems/JetParams.h:52-85`). -/
def JetParams.make {α : Type} [ROps α] (c : ConfigReader α) : JetParams α :=
  let gamma0 := c.getFloat "hydro" "gamma0" (lit (5 / 3))
  { jet := conserved gamma0 (c.getFloat "jet" "rho_jet" (lit 5)) (c.getFloat "jet" "p_jet" (lit (4127 / 10000)))
      (c.getFloat "jet" "u_jet" (lit 800)) (c.getFloat "jet" "v_jet" (lit 0)) (c.getFloat "jet" "w_jet" (lit 0))
    bulk := conserved gamma0 (c.getFloat "jet" "rho_bulk" (lit (1 / 2)))
      (c.getFloat "jet" "p_bulk" (lit (4127 / 10000))) (c.getFloat "jet" "u_bulk" (lit 0))
      (c.getFloat "jet" "v_bulk" (lit 0)) (c.getFloat "jet" "w_bulk" (lit 0))
    pos_jet := c.getFloat "jet" "pos_jet" (lit 0)
    width_jet := c.getFloat "jet" "width_jet" (lit (1 / 10)) }

/-! ### Filling a cell -/

/-- Where a value comes from: a number, a value of another cell, or that value times a sign. -/
inductive Fill (α : Type)
  | value (x : α)
  | copy (c : Cell) (p : Pt)
  | scaled (c : Cell) (p : Pt) (s : ℚ)

variable {α : Type} [ROps α]

/-- The loops over the points and variables of one cell (e.g.
`src/sdm/SDM_Boundaries_Functors_Wedge.h:118-128`); `ad` is the location of a variable at a point. -/
def fillCell (pts : List Pt) (nv : ℕ) (ad : Cell → Pt → ℕ → Addr) (src : Pt → ℕ → Fill α) (c : Cell) :
    K Addr α Unit :=
  forEach (pts ×ˢ List.range nv) fun x =>
    match src x.1 x.2 with
    | .value v => K.store (ad c x.1 x.2) v
    | .copy c' p => do
      let y ← K.load (ad c' p x.2)
      K.store (ad c x.1 x.2) y
    | .scaled c' p s => do
      let y ← K.load (ad c' p x.2)
      K.store (ad c x.1 x.2) (y * lit s)

/-- `sign`, which is set to -1 at `IV` and stays so (`src/shared/BoundariesFunctorsWedge.h:126-133`,
`src/sdm/SDM_Boundaries_Functors_Wedge.h:196-205`). -/
def wallSign (iv : ℕ) : ℚ := if IV ≤ iv then -1 else 1

/-! ### MOOD -/

/-- The values of a state are per cell, not per point. -/
def onePt : Pt := ⟨0, 0, 0⟩

/-- `x = xmin + dx/2 + (i-ghostWidth)*dx` (`src/shared/BoundariesFunctorsWedge.h:109`, `:151`,
`src/mood/MoodInitFunctors.h:783`, `:834`). -/
def xMood (S : Settings α) (P : Grid) (D : Domain α) (i : Int) : α :=
  D.xmin + S.dx / lit 2 + lit ((i - P.ghostWidth : Int) : ℚ) * S.dx
/-- The same for `y` (`src/shared/BoundariesFunctorsWedge.h:152`, `src/mood/MoodInitFunctors.h:784`, `:835`). -/
def yMood (S : Settings α) (P : Grid) (D : Domain α) (j : Int) : α :=
  D.ymin + S.dy / lit 2 + lit ((j - P.ghostWidth : Int) : ℚ) * S.dy

/-- `MakeBoundariesFunctor2D_wedge<faceId>::operator()` inside the guards
(`src/shared/BoundariesFunctorsWedge.h:62-175`). -/
def moodWedgeSource (w : WedgeParams α) (S : Settings α) (P : Grid) (D : Domain α) (face : Face) (c : Cell)
    (p : Pt) (iv : ℕ) : Fill α :=
  match face with
  | .xmin => .value (Mood.comp w.behind iv)
  | .xmax => .copy { c with i := P.nx + P.ghostWidth - 1 } p
  | .ymin =>
    if ltb (xMood S P D c.i) w.x_f then .value (Mood.comp w.behind iv)
    else .scaled { c with j := 2 * P.ghostWidth - 1 - c.j } p (wallSign iv)
  | .ymax =>
    if ltb (xMood S P D c.i) (w.x_f + yMood S P D c.j / w.slope_f + w.delta_x) then
      .value (Mood.comp w.behind iv)
    else .copy { c with j := P.ny + P.ghostWidth - 1 } p
  | _ => .copy c p

/-- `make_boundaries` of the 2D solver for the problem "wedge" (`src/mood/SolverHydroMood.h:1434-1463`):
one `parallel_for` per face, decoding and guards as in the other boundary functors
(`src/shared/BoundariesFunctorsWedge.h:67-70`, `:85-89`, `:106-112`, `:147-154`). -/
def moodWedgeBoundaries (w : WedgeParams α) (S : Settings α) (P : Grid) (D : Domain α) (U : ℕ) :
    List (Launch Addr α) :=
  [Face.xmin, .xmax, .ymin, .ymax].map fun f => faceLaunch false P f fun c =>
    fillCell [onePt] P.nbvar (fun c _ iv => c.at U iv) (moodWedgeSource w S P D f c) c

/-- `InitWedgeFunctor` (`src/mood/MoodInitFunctors.h:760-857`) and its launch
(`src/mood/SolverHydroMood.h:1624-1632`). -/
def moodWedgeInit (lay : Layout) (d3 : Bool) (w : WedgeParams α) (S : Settings α) (P : Grid) (D : Domain α)
    (U : ℕ) : Launch Addr α :=
  Mood.rangeCells lay d3 P fun c =>
    fillCell [onePt] P.nbvar (fun c _ iv => c.at U iv) (fun _ iv =>
      .value (Mood.comp (if gtb (yMood S P D c.j) (w.slope_f * (xMood S P D c.i - w.x_f)) then w.behind
        else w.ahead) iv)) c

/-! ### SDM -/

/-- `x = xmin + (i + nx*i_mpi - ghostWidth)*dx; x += solution_pts_1d(idx)*dx`
(`src/sdm/SDM_Boundaries_Functors_Wedge.h:180-181`, `:236`, `:239`, `src/sdm/init/InitWedgeFunctor.h:107`,
`:110`). -/
def xSdm (M : Scheme α) (S : Settings α) (P : Grid) (D : Domain α) (i : Int) (idx : ℕ) : α :=
  D.xmin + lit ((i + P.nx * D.i_mpi - P.ghostWidth : Int) : ℚ) * S.dx + M.sp idx * S.dx
/-- The same for `y` (`src/sdm/SDM_Boundaries_Functors_Wedge.h:237`, `:240`,
`src/sdm/SDM_Boundaries_Functors_Jet.h:131-132`, `:345`, `:348`). -/
def ySdm (M : Scheme α) (S : Settings α) (P : Grid) (D : Domain α) (j : Int) (idy : ℕ) : α :=
  D.ymin + lit ((j + P.ny * D.j_mpi - P.ghostWidth : Int) : ℚ) * S.dy + M.sp idy * S.dy
/-- The same for `z` (`src/sdm/SDM_Boundaries_Functors_Jet.h:346`, `:349`). -/
def zSdm (M : Scheme α) (S : Settings α) (P : Grid) (D : Domain α) (k : Int) (idz : ℕ) : α :=
  D.zmin + lit ((k + P.nz * D.k_mpi - P.ghostWidth : Int) : ℚ) * S.dz + M.sp idz * S.dz

/-- `MakeBoundariesFunctor_SDM_Wedge<2,N,faceId>::operator()` inside the guards
(`src/sdm/SDM_Boundaries_Functors_Wedge.h:107-273`). -/
def sdmWedgeSource (M : Scheme α) (w : WedgeParams α) (S : Settings α) (P : Grid) (D : Domain α) (face : Face)
    (c : Cell) (p : Pt) (iv : ℕ) : Fill α :=
  match face with
  | .xmin => .value (Mood.comp w.behind iv)
  | .xmax => .copy { c with i := P.nx + P.ghostWidth - 1 } { p with x := M.N - 1 - p.x }
  | .ymin =>
    if ltb (xSdm M S P D c.i p.x) w.x_f then .value (Mood.comp w.behind iv)
    else .scaled { c with j := 2 * P.ghostWidth - 1 - c.j } { p with y := M.N - 1 - p.y } (wallSign iv)
  | .ymax =>
    if ltb (xSdm M S P D c.i p.x) (w.x_f + ySdm M S P D c.j p.y / w.slope_f + w.delta_x) then
      .value (Mood.comp w.behind iv)
    else .value (Mood.comp w.ahead iv)
  | _ => .copy c p

/-- `MakeBoundariesFunctor_SDM_Jet<dim,N,faceId>::operator()` inside the guards
(`src/sdm/SDM_Boundaries_Functors_Jet.h:115-247`, `:325-562`). -/
def jetSource (M : Scheme α) (J : JetParams α) (S : Settings α) (P : Grid) (D : Domain α) (face : Face)
    (c : Cell) (p : Pt) (iv : ℕ) : Fill α :=
  match face with
  | .xmin =>
    let y := ySdm M S P D c.j p.y
    let z := zSdm M S P D c.k p.z
    let inside :=
      if M.d3 then
        let radius2 := (y - J.pos_jet) * (y - J.pos_jet) + (z - J.pos_jet) * (z - J.pos_jet)
        ltb radius2 (lit (1 / 4) * J.width_jet * J.width_jet)
      else gtb y (J.pos_jet - lit (1 / 2) * J.width_jet) && ltb y (J.pos_jet + lit (1 / 2) * J.width_jet)
    .value (Mood.comp (if inside then J.jet else J.bulk) iv)
  | .xmax => .copy { c with i := P.nx + P.ghostWidth - 1 } (if M.d3 then p else { p with x := M.N - 1 - p.x })
  | .ymin => .copy { c with j := P.ghostWidth } p
  | .ymax => .copy { c with j := P.ny + P.ghostWidth - 1 } p
  | .zmin => .copy { c with k := P.ghostWidth } p
  | .zmax => .copy { c with k := P.nz + P.ghostWidth - 1 } p

/-- `make_boundaries_sdm_serial` for the problem "wedge" in 2D (`src/sdm/SolverHydroSDM.h:1650-1660`, `:1575-1590`). -/
def sdmWedgeBoundaries (M : Scheme α) (w : WedgeParams α) (S : Settings α) (P : Grid) (D : Domain α) (U : ℕ) :
    List (Launch Addr α) :=
  [Face.xmin, .xmax, .ymin, .ymax].map fun f => faceLaunch M.d3 P f fun c =>
    fillCell (cellPts M.d3 M.N) P.nbvar (M.sol U) (sdmWedgeSource M w S P D f c) c

/-- `make_boundaries_sdm_serial` for the problem "jet" (`src/sdm/SolverHydroSDM.h:1661-1676`, `:1597-1612`). -/
def jetBoundaries (M : Scheme α) (J : JetParams α) (S : Settings α) (P : Grid) (D : Domain α) (U : ℕ) :
    List (Launch Addr α) :=
  ([Face.xmin, .xmax, .ymin, .ymax] ++ if M.d3 then [Face.zmin, .zmax] else []).map fun f =>
    faceLaunch M.d3 P f fun c =>
      fillCell (cellPts M.d3 M.N) P.nbvar (M.sol U) (jetSource M J S P D f c) c

/-- `InitWedgeFunctor` (`src/sdm/init/InitWedgeFunctor.h:49-220`, `src/sdm/SolverHydroSDM.h:1978-1985`). -/
def sdmWedgeInit (M : Scheme α) (w : WedgeParams α) (S : Settings α) (P : Grid) (D : Domain α) (U : ℕ) :
    Launch Addr α :=
  M.cells P fun c =>
    fillCell (cellPts M.d3 M.N) P.nbvar (M.sol U) (fun p iv =>
      .value (Mood.comp (if gtb (ySdm M S P D c.j p.y) (w.slope_f * (xSdm M S P D c.i p.x - w.x_f)) then w.behind
        else w.ahead) iv)) c

/-- `InitJetFunctor` (`src/sdm/init/InitJetFunctor.h:66-133`, `src/sdm/SolverHydroSDM.h:1995-2002`): the gas around
the jet everywhere. -/
def jetInit (M : Scheme α) (J : JetParams α) (P : Grid) (U : ℕ) : Launch Addr α :=
  M.cells P fun c =>
    fillCell (cellPts M.d3 M.N) P.nbvar (M.sol U) (fun _ iv => .value (Mood.comp J.bulk iv)) c

end Verif.Special
