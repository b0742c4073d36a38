import Verif.Model.SdmLimiter

/-!
# Positivity preservation in the spectral difference solver

`Apply_positivity_Functor_v2` (`src/sdm/SDM_Positivity_preserving.h:929-1783`) and the calls in
`src/sdm/SolverHydroSDM.h:992-1022`.  It is off by default (`sdm/positivity_enabled`).  The first version
of the functor in the same file is not called and not modelled.

Simplifications
* As in `Verif.Model.SdmStep`, nested loops are one loop over the list of index tuples in the same order.
* `std::numeric_limits<real_t>::max()` is a parameter `big`.
* The variables of a line are loaded one after the other and then interpolated; the functor interpolates
  each variable before it loads the next.
-/

namespace Verif.Sdm

open Verif ROps

variable {α : Type} [ROps α]

/-- Directions of the dimension in the order of the sweeps. -/
def cellDirs (d3 : Bool) : List Dir := if d3 then [.x, .y, .z] else [.x, .y]

/-- The lines of points of a cell in the order of the sweeps
(`src/sdm/SDM_Positivity_preserving.h:1005-1047`, `1339-1412`). -/
def cellLines (d3 : Bool) (N : ℕ) : List (Dir × Pt) :=
  (cellDirs d3).flatMap fun d => (lines d3 N d).map fun p => (d, p)

/-- `rho_min < rho ? rho_min : rho` (`src/sdm/SDM_Positivity_preserving.h:1022`). -/
def keepMin (a b : α) : α := if ltb a b then a else b

/-- One line of the search for the least density (`src/sdm/SDM_Positivity_preserving.h:1006-1025`). -/
def minLine (M : Scheme α) (A : ℕ) (c : Cell) (x : Dir × Pt) (acc : α) : K Addr α α := do
  let sol ← loadVals M.N fun k => M.sol A c (x.2.set x.1 k) ID
  pure ((List.range (M.N + 1)).foldl (fun r j => keepMin r (sol2fluxVector M.N M.sp M.fp sol j)) acc)

/-- `theta1` (`src/sdm/SDM_Positivity_preserving.h:1049-1052`, `1414-1417`). -/
def theta1 (S : Settings α) (rhoAve rhoMin : α) : α :=
  let ratio := (rhoAve - S.smallr) / (rhoAve - rhoMin) + lit (1 / 10000000000000)
  if ltb ratio (lit 1) then ratio else lit 1

/-- `theta * (val - ave) + ave` (`src/sdm/SDM_Positivity_preserving.h:1069`, `1274`). -/
def pullTo (theta ave val : α) : α := theta * (val - ave) + ave

/-- The new densities (`src/sdm/SDM_Positivity_preserving.h:1055-1077`, `1420-1445`). -/
def densityStep (M : Scheme α) (A : ℕ) (c : Cell) (th rhoAve : α) : K Addr α Unit :=
  if ltb th (lit 1) then
    forEach (cellPts M.d3 M.N) fun p => do
      let rho ← K.load (M.sol A c p ID)
      K.store (M.sol A c p ID) (pullTo th rhoAve rho)
  else pure ()

/-- Load the lines of `nv` variables (`src/sdm/SDM_Positivity_preserving.h:1107-1121`, `1477-1495`). -/
def loadLines (n nv : ℕ) (addr : ℕ → ℕ → Addr) : K Addr α (ℕ → ℕ → α) :=
  match nv with
  | 0 => pure fun _ _ => lit 0
  | nv + 1 => do
    let f ← loadLines n nv addr
    let x ← loadVals n (addr nv)
    pure fun iv => if iv = nv then x else f iv

/-- `a.u * b.u + a.v * b.v (+ a.w * b.w)`. -/
def mdot (d3 : Bool) (a b : HState α) : α :=
  if d3 then a.u * b.u + a.v * b.v + a.w * b.w else a.u * b.u + a.v * b.v

/-- `pressure` (`src/sdm/SDM_Positivity_preserving.h:1130`, `1504-1505`). -/
def fluxPressure (d3 : Bool) (gamma0 : α) (q : HState α) : α :=
  (gamma0 - lit 1) * (q.p - lit (1/2) * mdot d3 q q / q.d)

/-- `eps2` (`src/sdm/SDM_Positivity_preserving.h:1090`, `1457`). -/
def eps2 : α := lit (1 / 10000000000000)

/-- `-1.0e-12 < t and t < 1.0 + 1.0e-12` (`src/sdm/SDM_Positivity_preserving.h:1158`). -/
def rootOk (t : α) : Bool :=
  gtb t (lit (-1 / 1000000000000)) && ltb t (lit 1 + lit (1 / 1000000000000))

/-- The root that is taken (`src/sdm/SDM_Positivity_preserving.h:1148-1163`). -/
def pickRoot (a1 b1 c1 : α) : α :=
  let b := b1 / a1
  let c := c1 / a1
  let D := sqrt (fabs (b * b - lit 4 * c))
  let t1 := lit (1/2) * (-b - D)
  let t2 := lit (1/2) * (-b + D)
  if rootOk t1 then t1 else if rootOk t2 then t2 else lit 0

/-- `t = t < 1.0 ? t : 1.0; t = t > 0.0 ? t : 0.0; if (fabs(1.0 - t) < 1.0e-14) t = 0.0;`
(`src/sdm/SDM_Positivity_preserving.h:1165-1172`). -/
def clampRoot (t : α) : α :=
  let t := if ltb t (lit 1) then t else lit 1
  let t := if gtb t (lit 0) then t else lit 0
  if ltb (fabs (lit 1 - t)) (lit (1 / 100000000000000)) then lit 0 else t

/-- `t` for the state `q` at a flux point (`src/sdm/SDM_Positivity_preserving.h:1134-1172`, `1509-1549`). -/
def pressureRoot (d3 : Bool) (gamma0 : α) (ave q : HState α) : α :=
  let drho := q.d - ave.d
  let dE := q.p - ave.p
  let dm : HState α := ⟨drho, dE, q.u - ave.u, q.v - ave.v, q.w - ave.w⟩
  let a1 := lit 2 * drho * dE - mdot d3 dm dm
  let b1 := lit 2 * drho * (ave.p - eps2 / (gamma0 - lit 1)) + lit 2 * ave.d * dE -
    lit 2 * mdot d3 ave dm
  let c1 := lit 2 * ave.d * ave.p - mdot d3 ave ave - lit 2 * eps2 * ave.d / (gamma0 - lit 1)
  clampRoot (pickRoot a1 b1 c1)

/-- What one flux point does to `theta2` (`src/sdm/SDM_Positivity_preserving.h:1132-1176`, `1507-1553`). -/
def shrink (d3 : Bool) (gamma0 : α) (ave : HState α) (theta : α) (q : HState α) : α :=
  if ltb (fluxPressure d3 gamma0 q) (lit (1 / 1000000000000)) then
    keepMin theta (pressureRoot d3 gamma0 ave q)
  else theta

/-- State at flux point `j` of a line (`src/sdm/SDM_Positivity_preserving.h:1126-1129`, `1499-1503`). -/
def lineState (M : Scheme α) (f : ℕ → ℕ → α) (j : ℕ) : HState α :=
  Mood.ofComps M.d3 fun iv => sol2fluxVector M.N M.sp M.fp (f iv) j

/-- One line of the search for `theta2` (`src/sdm/SDM_Positivity_preserving.h:1103-1180`,
`1471-1557`). -/
def pressLine (M : Scheme α) (S : Settings α) (ave : HState α) (A : ℕ) (c : Cell) (x : Dir × Pt)
    (theta : α) : K Addr α α := do
  let f ← loadLines M.N (hydroVars M.d3) fun iv k => M.sol A c (x.2.set x.1 k) iv
  pure ((List.range (M.N + 1)).foldl (fun th j => shrink M.d3 S.gamma0 ave th (lineState M f j)) theta)

/-- The new values of all variables (`src/sdm/SDM_Positivity_preserving.h:1262-1292`, `1737-1774`). -/
def blendStep (M : Scheme α) (A : ℕ) (c : Cell) (th : α) (ave : HState α) : K Addr α Unit :=
  if ltb th (lit 1) then
    forEach (cellPts M.d3 M.N ×ˢ List.range (hydroVars M.d3)) fun x => do
      let v ← K.load (M.sol A c x.1 x.2)
      K.store (M.sol A c x.1 x.2) (pullTo th (Mood.comp ave x.2) v)
  else pure ()

/-- Work item of `Apply_positivity_Functor_v2` (`src/sdm/SDM_Positivity_preserving.h:972-1295`,
`1304-1776`). -/
def posBody (M : Scheme α) (S : Settings α) (big : α) (A : ℕ) (c : Cell) : K Addr α Unit := do
  let ave ← loadAt M.d3 fun iv => c.at sAvg iv
  let rhoMin ← foldK (cellLines M.d3 M.N) (minLine M A c) big
  densityStep M A c (theta1 S ave.d rhoMin) ave.d
  let theta2 ← foldK (cellLines M.d3 M.N) (pressLine M S ave A c) (lit 1)
  blendStep M A c theta2 ave

/-- `Apply_positivity_Functor_v2::apply` (`src/sdm/SDM_Positivity_preserving.h:955-963`): all cells,
including the ghost cells. -/
def positivity (M : Scheme α) (S : Settings α) (P : Grid) (big : α) (A : ℕ) : Launch Addr α :=
  M.cells P (posBody M S big A)

/-- `apply_pre_step_computation` followed by `apply_positivity_preserving` with the positivity preservation
enabled and the limiter disabled (`src/sdm/SolverHydroSDM.h:992-1022`). -/
def preserving (M : Scheme α) (S : Settings α) (P : Grid) (pi big : α) (A : ℕ) : List (Launch Addr α) :=
  [averageU M S P pi A, positivity M S P big A]

end Verif.Sdm
