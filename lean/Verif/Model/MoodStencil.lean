import Verif.Model.MoodPoly

/-! Model of the stencils of the MOOD solver (`src/mood/Stencil.h`, `src/mood/Stencil.cpp`,
`src/mood/StencilUtils.h`). -/

namespace Verif.Mood

/-- `enum STENCIL_ID` without the end marker `STENCIL_TOTAL_NUMBER`
(`src/mood/Stencil.h:78-93`) -/
inductive StencilId where
  | d2deg1 | d2deg2 | d2deg3 | d2deg3v2 | d2deg4 | d2deg5
  | d3deg1 | d3deg2 | d3deg3 | d3deg4 | d3deg5 | d3deg5v2
  deriving DecidableEq, Repr

open StencilId

/-- all stencils, in the order of the enumeration -/
def StencilId.all : List StencilId :=
  [d2deg1, d2deg2, d2deg3, d2deg3v2, d2deg4, d2deg5,
   d3deg1, d3deg2, d3deg3, d3deg4, d3deg5, d3deg5v2]

/-- `is3dStencil` (`src/mood/Stencil.h:330`) -/
def StencilId.is3d : StencilId → Bool
  | d2deg1 | d2deg2 | d2deg3 | d2deg3v2 | d2deg4 | d2deg5 => false
  | d3deg1 | d3deg2 | d3deg3 | d3deg4 | d3deg5 | d3deg5v2 => true

/-- `STENCIL_MAPP[(dim-2)*5 + degree-1]` (`src/mood/Stencil.h:110-114`), the stencil of
`SolverHydroMood<dim,degree>` (`src/mood/SolverHydroMood.h:80`) -/
def stencilMapp (dim degree : ℕ) : Option StencilId :=
  [d2deg1, d2deg2, d2deg3, d2deg4, d2deg5, d3deg1, d3deg2, d3deg3, d3deg4,
    d3deg5][(dim - 2) * 5 + degree - 1]?

/-- `select_stencil(dim, degree)` (`src/mood/Stencil.cpp:806-875`); `none` is
`STENCIL_TOTAL_NUMBER` -/
def select_stencil (dim degree : ℤ) : Option StencilId :=
  if dim = 2 then
    if degree = 1 then some d2deg1
    else if degree = 2 then some d2deg2
    else if degree = 3 then some d2deg3
    else if degree = 4 then some d2deg4
    else if degree = 5 then some d2deg5
    else none
  else if dim = 3 then
    if degree = 1 then some d3deg1
    else if degree = 2 then some d3deg2
    else if degree = 3 then some d3deg3
    else if degree = 4 then some d3deg4
    else if degree = 5 then some d3deg5
    else none
  else none

/-- the table `STENCIL_SIZE` (`src/mood/Stencil.h:123-136`) -/
def STENCIL_SIZE : StencilId → ℕ
  | d2deg1 => 5 | d2deg2 => 9 | d2deg3 => 13 | d2deg3v2 => 16 | d2deg4 => 25 | d2deg5 => 36
  | d3deg1 => 7 | d3deg2 => 27 | d3deg3 => 33 | d3deg4 => 63 | d3deg5 => 88 | d3deg5v2 => 131

/-- `get_stencil_size` (`src/mood/Stencil.h:145-179`), the size of the offsets array -/
def get_stencil_size : StencilId → ℕ
  | d2deg1 => 5 | d2deg2 => 9 | d2deg3 => 13 | d2deg3v2 => 16 | d2deg4 => 25 | d2deg5 => 36
  | d3deg1 => 7 | d3deg2 => 27 | d3deg3 => 33 | d3deg4 => 63 | d3deg5 => 88 | d3deg5v2 => 131

/-- the table `STENCIL_DEGREE` (`src/mood/Stencil.h:188-201`) -/
def STENCIL_DEGREE : StencilId → ℕ
  | d2deg1 => 1 | d2deg2 => 2 | d2deg3 => 3 | d2deg3v2 => 3 | d2deg4 => 4 | d2deg5 => 5
  | d3deg1 => 1 | d3deg2 => 2 | d3deg3 => 3 | d3deg4 => 4 | d3deg5 => 5 | d3deg5v2 => 5

/-- `get_stencil_degree` (`src/mood/Stencil.h:210-244`) -/
def get_stencil_degree : StencilId → ℕ
  | d2deg1 => 1 | d2deg2 => 2 | d2deg3 => 3 | d2deg3v2 => 3 | d2deg4 => 4 | d2deg5 => 5
  | d3deg1 => 1 | d3deg2 => 2 | d3deg3 => 3 | d3deg4 => 4 | d3deg5 => 5 | d3deg5v2 => 5

/-- `get_stencil_ghostwidth` (`src/mood/Stencil.h:254-288`) -/
def get_stencil_ghostwidth : StencilId → ℕ
  | d2deg1 => 2 | d2deg2 => 2 | d2deg3 => 3 | d2deg3v2 => 3 | d2deg4 => 3 | d2deg5 => 4
  | d3deg1 => 2 | d3deg2 => 2 | d3deg3 => 3 | d3deg4 => 3 | d3deg5 => 4 | d3deg5v2 => 4

/-- the loop range `lo <= i <= hi` -/
def intRange (lo hi : ℤ) : List ℤ := (List.range (hi - lo + 1).toNat).map (fun t => lo + t)

/-- the double loop over `j` then `i` in `[lo, hi]` (e.g. `src/mood/Stencil.cpp:57-66`) -/
def square (lo hi : ℤ) : List Offset :=
  (intRange lo hi).flatMap fun j => (intRange lo hi).map fun i => ⟨i, j, 0⟩

/-- the triple loop over `k`, `j`, `i` in `[lo, hi]` (e.g. `src/mood/Stencil.cpp:225-237`) -/
def cube (lo hi : ℤ) : List Offset :=
  (intRange lo hi).flatMap fun k =>
    (intRange lo hi).flatMap fun j => (intRange lo hi).map fun i => ⟨i, j, k⟩

/-- `Stencil::init_stencil()` (`src/mood/Stencil.cpp:16-802`): the offsets in the order in which
they are stored -/
def init_stencil : StencilId → List Offset
  -- Stencil.cpp:24-47
  | d2deg1 => [⟨0, 0, 0⟩, ⟨1, 0, 0⟩, ⟨0, 1, 0⟩, ⟨-1, 0, 0⟩, ⟨0, -1, 0⟩]
  -- Stencil.cpp:51-68
  | d2deg2 => square (-1) 1
  -- Stencil.cpp:72-110
  | d2deg3 => square (-1) 1 ++ [⟨2, 0, 0⟩, ⟨0, 2, 0⟩, ⟨-2, 0, 0⟩, ⟨0, -2, 0⟩]
  -- Stencil.cpp:114-131
  | d2deg3v2 => square (-2) 1
  -- Stencil.cpp:135-152
  | d2deg4 => square (-2) 2
  -- Stencil.cpp:156-173
  | d2deg5 => square (-3) 2
  -- Stencil.cpp:184-215
  | d3deg1 => [⟨0, 0, 0⟩, ⟨1, 0, 0⟩, ⟨0, 1, 0⟩, ⟨-1, 0, 0⟩, ⟨0, -1, 0⟩, ⟨0, 0, 1⟩, ⟨0, 0, -1⟩]
  -- Stencil.cpp:219-239
  | d3deg2 => cube (-1) 1
  -- Stencil.cpp:243-290
  | d3deg3 => cube (-1) 1 ++
      [⟨2, 0, 0⟩, ⟨-2, 0, 0⟩, ⟨0, 2, 0⟩, ⟨0, -2, 0⟩, ⟨0, 0, 2⟩, ⟨0, 0, -2⟩]
  -- Stencil.cpp:294-468
  | d3deg4 => cube (-1) 1 ++
      [⟨2, 0, 0⟩, ⟨2, -1, 0⟩, ⟨2, 1, 0⟩, ⟨2, 0, -1⟩, ⟨2, 0, 1⟩,
       ⟨-2, 0, 0⟩, ⟨-2, -1, 0⟩, ⟨-2, 1, 0⟩, ⟨-2, 0, -1⟩, ⟨-2, 0, 1⟩,
       ⟨0, 2, 0⟩, ⟨-1, 2, 0⟩, ⟨1, 2, 0⟩, ⟨0, 2, -1⟩, ⟨0, 2, 1⟩,
       ⟨0, -2, 0⟩, ⟨-1, -2, 0⟩, ⟨1, -2, 0⟩, ⟨0, -2, -1⟩, ⟨0, -2, 1⟩,
       ⟨0, 0, 2⟩, ⟨-1, 0, 2⟩, ⟨1, 0, 2⟩, ⟨0, -1, 2⟩, ⟨0, 1, 2⟩,
       ⟨0, 0, -2⟩, ⟨-1, 0, -2⟩, ⟨1, 0, -2⟩, ⟨0, -1, -2⟩, ⟨0, 1, -2⟩]
  -- Stencil.cpp:590-736
  | d3deg5 => cube (-2) 1 ++
      [⟨2, -1, -1⟩, ⟨2, -1, 0⟩, ⟨2, 0, -1⟩, ⟨2, 0, 0⟩,
       ⟨-3, -1, -1⟩, ⟨-3, -1, 0⟩, ⟨-3, 0, -1⟩, ⟨-3, 0, 0⟩,
       ⟨-1, 2, -1⟩, ⟨-1, 2, 0⟩, ⟨0, 2, -1⟩, ⟨0, 2, 0⟩,
       ⟨-1, -3, -1⟩, ⟨-1, -3, 0⟩, ⟨0, -3, -1⟩, ⟨0, -3, 0⟩,
       ⟨-1, -1, 2⟩, ⟨-1, 0, 2⟩, ⟨0, -1, 2⟩, ⟨0, 0, 2⟩,
       ⟨-1, -1, -3⟩, ⟨-1, 0, -3⟩, ⟨0, -1, -3⟩, ⟨0, 0, -3⟩]
  -- Stencil.cpp:740-797
  | d3deg5v2 => cube (-2) 2 ++
      [⟨3, 0, 0⟩, ⟨-3, 0, 0⟩, ⟨0, 3, 0⟩, ⟨0, -3, 0⟩, ⟨0, 0, 3⟩, ⟨0, 0, -3⟩]

/-- the array `offsets_h` after construction (`src/mood/Stencil.h:321-338`): `get_stencil_size`
entries, of which `init_stencil` writes the first ones; a Kokkos view is zero-initialised -/
def stencilOffsets (id : StencilId) : List Offset :=
  init_stencil id
    ++ List.replicate (get_stencil_size id - (init_stencil id).length) (⟨0, 0, 0⟩ : Offset)

/-- `make_stencil_names()` (`src/mood/StencilUtils.h:56-77`) -/
def stencil_name : StencilId → String
  | d2deg1 => "STENCIL_2D_DEGREE1"
  | d2deg2 => "STENCIL_2D_DEGREE2"
  | d2deg3 => "STENCIL_2D_DEGREE3"
  | d2deg3v2 => "STENCIL_2D_DEGREE3_V2"
  | d2deg4 => "STENCIL_2D_DEGREE4"
  | d2deg5 => "STENCIL_2D_DEGREE5"
  | d3deg1 => "STENCIL_3D_DEGREE1"
  | d3deg2 => "STENCIL_3D_DEGREE2"
  | d3deg3 => "STENCIL_3D_DEGREE3"
  | d3deg4 => "STENCIL_3D_DEGREE4"
  | d3deg5 => "STENCIL_3D_DEGREE5"
  | d3deg5v2 => "STENCIL_3D_DEGREE5_V2"

/-- `make_valid_solver_names()` (`src/mood/StencilUtils.h:81-102`) -/
def solver_name : StencilId → String
  | d2deg1 => "Hydro_Mood_2D_degree1"
  | d2deg2 => "Hydro_Mood_2D_degree2"
  | d2deg3 => "Hydro_Mood_2D_degree3"
  | d2deg3v2 => "Hydro_Mood_2D_degree3_V2"
  | d2deg4 => "Hydro_Mood_2D_degree4"
  | d2deg5 => "Hydro_Mood_2D_degree5"
  | d3deg1 => "Hydro_Mood_3D_degree1"
  | d3deg2 => "Hydro_Mood_3D_degree2"
  | d3deg3 => "Hydro_Mood_3D_degree3"
  | d3deg4 => "Hydro_Mood_3D_degree4"
  | d3deg5 => "Hydro_Mood_3D_degree5"
  | d3deg5v2 => "Hydro_Mood_3D_degree5_V2"

/-- `get_stencilId_from_solver_name(name, solver_names)` (`src/mood/StencilUtils.h:32-51`) and
`StencilUtils::get_stencilId_from_string(name)` (`src/mood/StencilUtils.cpp:39-58`): the first
entry of the name table that equals the name; `none` is `STENCIL_TOTAL_NUMBER` -/
def stencilIdFromName (names : StencilId → String) (name : String) : Option StencilId :=
  StencilId.all.find? (fun id => name == names id)

end Verif.Mood
