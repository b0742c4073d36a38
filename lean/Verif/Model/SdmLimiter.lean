import Verif.Model.SdmStep

/-!
# Limiting in the spectral difference solver

`src/sdm/SDM_Limiter_Functors.h` and the calls in `src/sdm/SolverHydroSDM.h:992-1066`.  The limiter is off by
default (`sdm/limiter_enabled`).

Simplifications
* As in `Verif.Model.SdmStep`, nested loops are one loop over the list of index tuples in the same order, and
  states are loaded one after the other; the limiter functor interleaves the loads of the differences.
* The differences and slopes of the directions are computed one direction after the other.
* `M_PI` and the solution points are parameters.
* `MinMax_Conservative_Variables_Functor` is not modelled; its only call is commented out.
-/

namespace Verif.Sdm

open Verif ROps

variable {α : Type} [ROps α]

/-! ### Arrays -/

/-- `Uaverage` (`src/sdm/SolverHydroSDM.h:647-659`). -/
def sAvg : ℕ := 10

/-- `Ugradx`, `Ugrady`, `Ugradz` (`src/sdm/SolverHydroSDM.h:618-637`). -/
def sGrad : Dir → ℕ
  | .x => 11
  | .y => 12
  | .z => 13

/-- `Uaverage` and the gradients of the dimension. -/
def meanArray (d3 : Bool) (A : ℕ) : Prop :=
  A = sAvg ∨ A = sGrad .x ∨ A = sGrad .y ∨ (d3 = true ∧ A = sGrad .z)

/-- All entries allocated when the limiter is enabled: one value per cell and variable in `Uaverage` and the
gradients. -/
def limDom (d3 : Bool) (N : ℕ) (P : Grid) (ti : Mood.TimeInt) (a : Addr) : Prop :=
  sdmDom d3 N P ti a ∨ (P.box d3 a.cell ∧ meanArray d3 a.arr ∧ a.v < P.nbvar)

/-- All entries allocated when only the positivity preservation is enabled
(`src/sdm/SolverHydroSDM.h:618-659`). -/
def avgDom (d3 : Bool) (N : ℕ) (P : Grid) (ti : Mood.TimeInt) (a : Addr) : Prop :=
  sdmDom d3 N P ti a ∨ (P.box d3 a.cell ∧ a.arr = sAvg ∧ a.v < P.nbvar)

/-! ### Sums -/

/-- `for (...) acc = body(i, acc)` over the index tuples in `L`. -/
def foldK {A V ι σ : Type} (L : List ι) (body : ι → σ → K A V σ) (acc : σ) : K A V σ :=
  match L with
  | [] => pure acc
  | i :: L => do
    let a ← body i acc
    foldK L body a

/-- `sqrt(x - x*x)` at solution point `k` (e.g. `src/sdm/SDM_Limiter_Functors.h:90-96`). -/
def quadWeight (sp : ℕ → α) (k : ℕ) : α := sqrt (sp k - sp k * sp k)

/-- `v * wx * wy`, `v * wx * wy * wz` (`src/sdm/SDM_Limiter_Functors.h:98`, `161`). -/
def weigh (d3 : Bool) (sp : ℕ → α) (p : Pt) (v : α) : α :=
  let t := v * quadWeight sp p.x * quadWeight sp p.y
  if d3 then t * quadWeight sp p.z else t

/-- `(M_PI/N)*(M_PI/N)`, `(M_PI/N)*(M_PI/N)*(M_PI/N)` (`src/sdm/SDM_Limiter_Functors.h:104`, `168`). -/
def quadScale (d3 : Bool) (pi : α) (N : ℕ) : α :=
  if d3 then (pi / lit N) * (pi / lit N) * (pi / lit N) else (pi / lit N) * (pi / lit N)

/-- `tmp > smallr ? tmp : smallr` for the density (`src/sdm/SDM_Limiter_Functors.h:106-110`, `170-174`). -/
def floorAverage (S : Settings α) (iv : ℕ) (x : α) : α :=
  if iv = ID then (if gtb x S.smallr then x else S.smallr) else x

/-- `Average_Conservative_Variables_Functor` (`src/sdm/SDM_Limiter_Functors.h:68-114`, `124-178`). -/
def averageU (M : Scheme α) (S : Settings α) (P : Grid) (pi : α) (A : ℕ) : Launch Addr α :=
  M.cells P fun c => forEach (List.range P.nbvar) fun iv => do
    let tmp ← foldK (cellPts M.d3 M.N) (fun p acc => do
      let u ← K.load (M.sol A c p iv)
      pure (acc + weigh M.d3 M.sp p u)) (lit 0)
    K.store (c.at sAvg iv) (floorAverage S iv (tmp * quadScale M.d3 pi M.N))

/-- The lines of points in direction `d` in the order of the loops of `Average_Gradient_Functor`: as `lines`,
but in direction `z` the outer loop is over `idx` (`src/sdm/SDM_Limiter_Functors.h:465`, `526`, `610-617`,
`676-683`, `743-750`). -/
def gradLines (d3 : Bool) (N : ℕ) (d : Dir) : List Pt :=
  match d with
  | .z => (List.range N).flatMap fun x => (List.range N).map fun y => ⟨x, y, 0⟩
  | d => lines d3 N d

/-- `grad_val` (`src/sdm/SDM_Limiter_Functors.h:486-490`). -/
def gradVal (N : ℕ) (sp : ℕ → α) (sol : ℕ → α) (k : ℕ) : α :=
  sumIf N (fun _ => true) fun i => sol i * sol2sol_derivative N sp i k

/-- `Average_Gradient_Functor<dim,N,dir>` (`src/sdm/SDM_Limiter_Functors.h:440-573`, `583-796`). -/
def averageGrad (M : Scheme α) (P : Grid) (pi : α) (A : ℕ) (d : Dir) : Launch Addr α :=
  M.cells P fun c => forEach (List.range P.nbvar) fun iv => do
    let tmp ← foldK (gradLines M.d3 M.N d) (fun p acc => do
      let sol ← loadVals M.N fun k => M.sol A c (p.set d k) iv
      pure ((List.range M.N).foldl
        (fun s k => s + weigh M.d3 M.sp (p.set d k) (gradVal M.N M.sp sol k)) acc)) (lit 0)
    K.store (c.at (sGrad d) iv) (tmp * quadScale M.d3 pi M.N)

/-! ### Limiter -/

/-- `Apply_limiter_Functor::minmod` (`src/sdm/SDM_Limiter_Functors.h:872-887`). -/
def minmodTvb (a b c mdx2 : α) : α :=
  let aa := fabs a
  if ltb aa mdx2 then a
  else if gtb (a * b) (lit 0) && gtb (b * c) (lit 0) then
    (if gtb a (lit 0) then lit 1 else lit (-1)) * fmin aa (fmin (fabs b) (fabs c))
  else lit 0

/-- `euler.cons_to_charac` of the dimension. -/
def toCharac (d3 : Bool) (d : Dir) (data q : HState α) (c gamma0 : α) : HState α :=
  if d3 then Euler3.cons_to_charac d data q c gamma0 else Euler2.cons_to_charac d data q c gamma0

/-- `euler.charac_to_cons` of the dimension. -/
def ofCharac (d3 : Bool) (d : Dir) (data q : HState α) (c gamma0 : α) : HState α :=
  if d3 then Euler3.charac_to_cons d data q c gamma0 else Euler2.charac_to_cons d data q c gamma0

/-- `c`: `euler.compute_speed_of_sound` applied to the averages of the conservative variables
(`src/sdm/SDM_Limiter_Functors.h:935`, `1072`). -/
def limiterSpeed (d3 : Bool) (ave : HState α) (gamma0 : α) : α :=
  if d3 then Euler3.compute_speed_of_sound ave gamma0 else Euler2.compute_speed_of_sound ave gamma0

/-- The slopes of one direction before limiting, `DuX` after `cons_to_charac`; `dx = 1`
(`src/sdm/SDM_Limiter_Functors.h:941`, `952`). -/
def rawSlope (d3 : Bool) (S : Settings α) (d : Dir) (ave g : HState α) : HState α :=
  toCharac d3 d (Mood.ofComps d3 fun iv => Mood.comp g iv * lit 1) ave (limiterSpeed d3 ave S.gamma0)
    S.gamma0

/-- `DuX_new`: the limited slopes in characteristic variables (`src/sdm/SDM_Limiter_Functors.h:942-943`,
`953-954`, `968`; `beta = 1`). -/
def newSlope (d3 : Bool) (S : Settings α) (mdx2 : α) (d : Dir) (ave g lo hi : HState α) : HState α :=
  let c := limiterSpeed d3 ave S.gamma0
  let du := rawSlope d3 S d ave g
  let dl := toCharac d3 d (Mood.ofComps d3 fun iv => Mood.comp ave iv - Mood.comp lo iv) ave c S.gamma0
  let dr := toCharac d3 d (Mood.ofComps d3 fun iv => Mood.comp hi iv - Mood.comp ave iv) ave c S.gamma0
  Mood.ofComps d3 fun iv =>
    minmodTvb (Mood.comp du iv) (lit 1 * Mood.comp dl iv) (lit 1 * Mood.comp dr iv) mdx2

/-- `change_x`, `change_y`, `change_z` (`src/sdm/SDM_Limiter_Functors.h:969`, `972`, `974-975`). -/
def slopeChange (nbvar : ℕ) (new old : HState α) : α :=
  (List.range nbvar).foldl (fun s iv => s + fabs (Mood.comp new iv - Mood.comp old iv)) (lit 0) / lit nbvar

/-- The limited slopes of the conservative variables (`src/sdm/SDM_Limiter_Functors.h:983-990`). -/
def consSlope (d3 : Bool) (S : Settings α) (mdx2 : α) (d : Dir) (ave g lo hi : HState α) : HState α :=
  ofCharac d3 d (Mood.ofComps d3 fun iv => Mood.comp (newSlope d3 S mdx2 d ave g lo hi) iv / lit 1) ave
    (limiterSpeed d3 ave S.gamma0) S.gamma0

/-- `Uave[ivar] + rx*DuX_new[ivar] + ry*DuY_new[ivar] (+ rz*DuZ_new[ivar])`
(`src/sdm/SDM_Limiter_Functors.h:992-1008`, `1143-1164`). -/
def linearValue (d3 : Bool) (sp : ℕ → α) (p : Pt) (ave sx sy sz : α) : α :=
  let t := ave + (sp p.x - lit (1/2)) * sx + (sp p.y - lit (1/2)) * sy
  if d3 then t + (sp p.z - lit (1/2)) * sz else t

/-- Is the cell away from the border of the array? (`src/sdm/SDM_Limiter_Functors.h:924-925`,
`1061-1062`). -/
def offBorder (d3 : Bool) (P : Grid) (c : Cell) : Bool :=
  !(c.i == 0 || c.i == P.isize - 1 || c.j == 0 || c.j == P.jsize - 1 ||
    (d3 && (c.k == 0 || c.k == P.ksize - 1)))

/-- What the third direction adds in 3D: `Ugradz` and the averages of the neighbours
(`src/sdm/SDM_Limiter_Functors.h:1086-1088`). -/
def zLoads (M : Scheme α) (ave : HState α) (c : Cell) : K Addr α (HState α × HState α × HState α) :=
  if M.d3 then do
    let gz ← loadAt M.d3 fun iv => c.at (sGrad .z) iv
    let zl ← loadAt M.d3 fun iv => (c.down .z).at sAvg iv
    let zr ← loadAt M.d3 fun iv => (c.up .z).at sAvg iv
    pure (gz, zl, zr)
  else pure (ave, ave, ave)

/-- The new values of all points of the cell (`src/sdm/SDM_Limiter_Functors.h:992-1014`, `1143-1172`). -/
def putLine (M : Scheme α) (P : Grid) (A : ℕ) (c : Cell) (ave sx sy sz : HState α) : K Addr α Unit :=
  forEach (List.range P.nbvar ×ˢ cellPts M.d3 M.N) fun x =>
    K.store (M.sol A c x.2 x.1) (linearValue M.d3 M.sp x.2 (Mood.comp ave x.1) (Mood.comp sx x.1)
      (Mood.comp sy x.1) (Mood.comp sz x.1))

/-- `change_x + change_y (+ change_z) > 1.0e-10` (`src/sdm/SDM_Limiter_Functors.h:980`, `1129`). -/
def limiterTest (M : Scheme α) (S : Settings α) (P : Grid) (mdx2 : α)
    (ave gx xl xr gy yl yr gz zl zr : HState α) : Bool :=
  let change (d : Dir) (g lo hi : HState α) : α :=
    slopeChange P.nbvar (newSlope M.d3 S mdx2 d ave g lo hi) (rawSlope M.d3 S d ave g)
  gtb (if M.d3 then change .x gx xl xr + change .y gy yl yr + change .z gz zl zr
      else change .x gx xl xr + change .y gy yl yr) (lit (1 / 10000000000))

/-- Work item of `Apply_limiter_Functor` away from the border (`src/sdm/SDM_Limiter_Functors.h:927-1016`,
`1064-1174`). -/
def limitBody (M : Scheme α) (S : Settings α) (P : Grid) (mdx2 : α) (A : ℕ) (c : Cell) : K Addr α Unit := do
  let ave ← loadAt M.d3 fun iv => c.at sAvg iv
  let gx ← loadAt M.d3 fun iv => c.at (sGrad .x) iv
  let xl ← loadAt M.d3 fun iv => (c.down .x).at sAvg iv
  let xr ← loadAt M.d3 fun iv => (c.up .x).at sAvg iv
  let gy ← loadAt M.d3 fun iv => c.at (sGrad .y) iv
  let yl ← loadAt M.d3 fun iv => (c.down .y).at sAvg iv
  let yr ← loadAt M.d3 fun iv => (c.up .y).at sAvg iv
  let z ← zLoads M ave c
  if limiterTest M S P mdx2 ave gx xl xr gy yl yr z.1 z.2.1 z.2.2 then
    putLine M P A c ave (consSlope M.d3 S mdx2 .x ave gx xl xr) (consSlope M.d3 S mdx2 .y ave gy yl yr)
      (consSlope M.d3 S mdx2 .z ave z.1 z.2.1 z.2.2)
  else pure ()

/-- `Apply_limiter_Functor` (`src/sdm/SDM_Limiter_Functors.h:898-1018`, `1028-1176`). -/
def limiter (M : Scheme α) (S : Settings α) (P : Grid) (mdx2 : α) (A : ℕ) : Launch Addr α :=
  M.cells P fun c => if offBorder M.d3 P c then limitBody M S P mdx2 A c else pure ()

/-- `apply_pre_step_computation` followed by `apply_limiting` with the limiter enabled
(`src/sdm/SolverHydroSDM.h:992-1007`, `1028-1067`); `Mdx2 = M_TVB`. -/
def limiting (M : Scheme α) (S : Settings α) (P : Grid) (pi mdx2 : α) (A : ℕ) : List (Launch Addr α) :=
  [averageU M S P pi A, averageGrad M P pi A .x, averageGrad M P pi A .y] ++
    (if M.d3 then [averageGrad M P pi A .z] else []) ++ [limiter M S P mdx2 A]

end Verif.Sdm
