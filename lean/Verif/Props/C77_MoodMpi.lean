import Verif.Props.C10_C12_Mpi
import Verif.Model.MoodStep

/-!
# C77: the MOOD solver on several processes

`SolverHydroMood::make_boundaries` (`src/mood/SolverHydroMood.h:1429-1530`) launches the boundary functors on
each process and has no MPI branch, and `boundary_type_*` are those of the whole domain on every process
(`src/shared/HydroParams.cpp:145-156`; only `neighborsBC`, lines 326-353, which this solver does not look at, tells
inner borders apart).  So where C10 demands the cells of the neighbour, ghost cells get the process's own cells.
-/

namespace Verif

open Spec ROps

/-- The memories of the `mx × my` processes hold the windows of the state `G` of the whole domain. -/
def Windows2 (P : Grid) (U : Nat) (mx my : Int) (G : Addr → ℝ) (M : Nat → Addr → ℝ) : Prop :=
  ∀ qx qy i j v, 0 ≤ qx → qx < mx → 0 ≤ qy → qy < my → P.ghostWidth ≤ i → i < P.nx + P.ghostWidth →
    P.ghostWidth ≤ j → j < P.ny + P.ghostWidth → v < P.nbvar →
    M (qx * my + qy).toNat ⟨U, i, j, 0, v⟩ = G ⟨U, qx * P.nx + i, qy * P.ny + j, 0, v⟩

/-- Same in 3D. -/
def Windows3 (P : Grid) (U : Nat) (mx my mz : Int) (G : Addr → ℝ) (M : Nat → Addr → ℝ) : Prop :=
  ∀ qx qy qz i j k v, 0 ≤ qx → qx < mx → 0 ≤ qy → qy < my → 0 ≤ qz → qz < mz →
    P.ghostWidth ≤ i → i < P.nx + P.ghostWidth → P.ghostWidth ≤ j → j < P.ny + P.ghostWidth →
    P.ghostWidth ≤ k → k < P.nz + P.ghostWidth → v < P.nbvar →
    M ((qx * my + qy) * mz + qz).toNat ⟨U, i, j, k, v⟩
      = G ⟨U, qx * P.nx + i, qy * P.ny + j, qz * P.nz + k, v⟩

theorem windows3_exist (P : Grid) (U : Nat) {mx my mz : Int} (hx : 0 < mx) (hy : 0 < my) (hz : 0 < mz)
    (G : Addr → ℝ) : ∃ M, Windows3 P U mx my mz G M := by
  refine ⟨fun r a => G ⟨U, (cartCoords my mz r).i * P.nx + a.i, (cartCoords my mz r).j * P.ny + a.j,
    (cartCoords my mz r).k * P.nz + a.k, a.v⟩, ?_⟩
  intro qx qy qz i j k v a b c d e f _ _ _ _ _ _ _
  have h := cartCoords_cartRank (mx := mx) (my := my) (mz := mz) hx hy hz ⟨qx, qy, qz⟩
  unfold cartRank at h
  simp only [Int.emod_eq_of_lt a b, Int.emod_eq_of_lt c d, Int.emod_eq_of_lt e f] at h
  simp only [h]

theorem windows2_exist (P : Grid) (U : Nat) {mx my : Int} (hx : 0 < mx) (hy : 0 < my)
    (G : Addr → ℝ) : ∃ M, Windows2 P U mx my G M := by
  refine ⟨fun r a => G ⟨U, (cartCoords my 1 r).i * P.nx + a.i, (cartCoords my 1 r).j * P.ny + a.j, 0, a.v⟩, ?_⟩
  intro qx qy i j v a b c d _ _ _ _ _
  have h := cartCoords_cartRank (mx := mx) (my := my) (mz := 1) hx hy one_pos ⟨qx, qy, 0⟩
  unfold cartRank at h
  simp only [Int.emod_eq_of_lt a b, Int.emod_eq_of_lt c d, Int.emod_one, mul_one, add_zero] at h
  simp only [h]

theorem source_of_min {n g : Int} (lo hi : BC) (hg : 1 ≤ g) (hn : g ≤ n) :
    g ≤ source n g lo hi (g - 1) ∧ source n g lo hi (g - 1) < n + g := by
  unfold source
  cases lo <;> simp <;> omega

/-- **C77** is false (2D): whatever the sizes, the boundary conditions and the number of processes, at the border
to a process with a lower coordinate in direction `x`, ghost cells do not get the values of that process; there is
a state of the whole domain for which the ghost cell holds density 0 while the neighbour's cell holds 1. -/
theorem C77_mood_mpi_wrong_2d {P : Grid} {U : Nat} {xlo xhi ylo yhi : BC} (h : Setup2 P xlo xhi ylo yhi)
    (hn : 0 < P.nbvar) {mx my px py : Int} (hx : 1 ≤ px) (hx' : px < mx) (hy : 0 ≤ py) (hy' : py < my) :
    ∃ G : Addr → ℝ, (∃ M, Windows2 P U mx my G M) ∧ ∀ M M' : Nat → Addr → ℝ, Windows2 P U mx my G M →
      (∀ r, Runs (hydroBoundaries false P U) (M r) (M' r)) →
      M' (px * my + py).toNat ⟨U, P.ghostWidth - 1, P.ghostWidth, 0, ID⟩ = 0 ∧
      M ((px - 1) * my + py).toNat ⟨U, P.nx + P.ghostWidth - 1, P.ghostWidth, 0, ID⟩ = 1 := by
  have hg := h.g
  have hnx := h.nx
  have hny := h.ny
  refine ⟨fun a => if a.i = px * P.nx + P.ghostWidth - 1 then 1 else 0,
    windows2_exist P U (by omega) (by omega) _, fun M M' hM hr => ⟨?_, ?_⟩⟩
  · obtain ⟨m', y, f⟩ := C05_ghost_fill_2d_hydro U h (M (px * my + py).toNat)
    obtain rfl := y.unique (hr _)
    have e := f.cells (P.ghostWidth - 1) P.ghostWidth ID (by omega) (by omega) (by omega) (by omega) hn
    have hs := source_of_min xlo xhi hg hnx
    have hs' : source P.ny P.ghostWidth ylo yhi P.ghostWidth = P.ghostWidth :=
      source_interior le_rfl (by omega)
    rw [hs', cross_interior le_rfl (by omega),
      hM px py _ P.ghostWidth ID (by omega) hx' hy hy' hs.1 hs.2 le_rfl (by omega) hn] at e
    simp only [] at e
    rw [if_neg (by omega)] at e
    rw [e]
    unfold cross
    split_ifs <;> simp
  · rw [hM (px - 1) py (P.nx + P.ghostWidth - 1) P.ghostWidth ID (by omega) (by omega) hy hy' (by omega)
      (by omega) le_rfl (by omega) hn]
    simp only []
    rw [if_pos (by ring)]

/-- **C77** is false (3D). -/
theorem C77_mood_mpi_wrong_3d {P : Grid} {U : Nat} {xlo xhi ylo yhi zlo zhi : BC}
    (h : Setup3 P xlo xhi ylo yhi zlo zhi) (hn : 0 < P.nbvar) {mx my mz px py pz : Int} (hx : 1 ≤ px)
    (hx' : px < mx) (hy : 0 ≤ py) (hy' : py < my) (hz : 0 ≤ pz) (hz' : pz < mz) :
    ∃ G : Addr → ℝ, (∃ M, Windows3 P U mx my mz G M) ∧ ∀ M M' : Nat → Addr → ℝ, Windows3 P U mx my mz G M →
      (∀ r, Runs (hydroBoundaries true P U) (M r) (M' r)) →
      M' ((px * my + py) * mz + pz).toNat ⟨U, P.ghostWidth - 1, P.ghostWidth, P.ghostWidth, ID⟩ = 0 ∧
      M (((px - 1) * my + py) * mz + pz).toNat
        ⟨U, P.nx + P.ghostWidth - 1, P.ghostWidth, P.ghostWidth, ID⟩ = 1 := by
  have hg := h.g
  have hnx := h.nx
  have hny := h.ny
  have hnz := h.nz
  refine ⟨fun a => if a.i = px * P.nx + P.ghostWidth - 1 then 1 else 0,
    windows3_exist P U (by omega) (by omega) (by omega) _, fun M M' hM hr => ⟨?_, ?_⟩⟩
  · obtain ⟨m', y, f⟩ := C06_ghost_fill_3d_hydro U h (M ((px * my + py) * mz + pz).toNat)
    obtain rfl := y.unique (hr _)
    have e := f.cells (P.ghostWidth - 1) P.ghostWidth P.ghostWidth ID (by omega) (by omega) (by omega) (by omega)
      (by omega) (by omega) hn
    have hs := source_of_min xlo xhi hg hnx
    have hs' : source P.ny P.ghostWidth ylo yhi P.ghostWidth = P.ghostWidth :=
      source_interior le_rfl (by omega)
    have hs'' : source P.nz P.ghostWidth zlo zhi P.ghostWidth = P.ghostWidth :=
      source_interior le_rfl (by omega)
    rw [hs', hs'', cross_interior le_rfl (by omega), cross_interior le_rfl (by omega),
      hM px py pz _ P.ghostWidth P.ghostWidth ID (by omega) hx' hy hy' hz hz' hs.1 hs.2 le_rfl (by omega) le_rfl
        (by omega) hn] at e
    simp only [] at e
    rw [if_neg (by omega)] at e
    rw [e]
    unfold cross
    split_ifs <;> simp
  · rw [hM (px - 1) py pz (P.nx + P.ghostWidth - 1) P.ghostWidth P.ghostWidth ID (by omega) (by omega) hy hy' hz
      hz' (by omega) (by omega) le_rfl (by omega) le_rfl (by omega) hn]
    simp only []
    rw [if_pos (by ring)]

/-- The hypotheses of `C77_mood_mpi_wrong_2d` and `_3d` hold for two processes on a box of 4 by 3 by 3 cells each, and
every process's boundary launches do run to an end. -/
example (U : Nat) : ∃ P : Grid, Setup3 P .absorbing .reflecting .periodic .periodic .absorbing .reflecting ∧
    0 < P.nbvar ∧ ∀ M : Nat → Addr → ℝ, ∃ M' : Nat → Addr → ℝ,
      ∀ r, Runs (hydroBoundaries true P U) (M r) (M' r) := by
  have h : Setup3 ⟨4, 3, 3, 2, 5, 2, 1, 3, 3, 2, 1⟩ .absorbing .reflecting .periodic .periodic .absorbing
      .reflecting := ⟨⟨by norm_num, by norm_num, by norm_num, rfl, rfl, rfl, rfl⟩, by norm_num, rfl, rfl⟩
  refine ⟨_, h, by norm_num, fun M => ?_⟩
  choose M' y _ using fun r => C06_ghost_fill_3d_hydro U h (M r)
  exact ⟨M', fun r => (y r).run⟩

end Verif
