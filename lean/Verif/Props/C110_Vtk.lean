import Verif.Lemmas.Vtk
import Mathlib.Tactic.NormNum
import Mathlib.Tactic.IntervalCases

/-!
# C110: VTK files

A reader of the written file sees, in every cell of the (sub-)domain and for every variable, the number the solver
holds in that cell: offsets, lengths, order of the cells and extents fit together, in both modes and with or without MPI,
as long as the products of extents fit in an `int`.
-/

namespace Verif.Vtk

variable {α : Type}

/-- The array with its ghost cells has less than 2^31 cells (needed except in 2D with MPI). -/
def CellsFit (d3 mpi : Bool) (P : Grid) : Prop :=
  d3 = true ∨ mpi = false → P.isize * P.jsize * (if d3 then P.ksize else 1) ≤ 2147483647

/-- The inner cells times the number of the last variable (and the inner cells alone) are less than 2^31. -/
def DataFit (d3 : Bool) (P : Grid) (nbvar : Nat) : Prop :=
  P.nx * P.ny * depth d3 P ≤ 2147483647 ∧ ((nbvar : Int) - 1) * P.nx * P.ny * depth d3 P ≤ 2147483647

/-- First cell of the sub-domain in the numbering of the whole domain. -/
def origin (mpi : Bool) (P : Grid) (d3 : Bool) (pos : Cell) : Cell :=
  if mpi then ⟨pos.i * P.nx, pos.j * P.ny, if d3 then pos.k * P.nz else 0⟩ else ⟨0, 0, 0⟩

private theorem nbCells_some {d3 mpi : Bool} {P : Grid} (hP : Sound d3 P) (hc : CellsFit d3 mpi P) :
    nbCells d3 mpi P = some (P.isize * P.jsize * (if d3 then P.ksize else 1)).toNat := by
  have h1 := hP.nx; have h2 := hP.ny; have h4 := hP.ghost
  have hI : 1 ≤ P.isize := by simp only [Grid.isize, Grid.imax, Grid.imin]; omega
  have hJ : 1 ≤ P.jsize := by simp only [Grid.jsize, Grid.jmax, Grid.jmin]; omega
  have hIJ : 0 ≤ P.isize * P.jsize := Int.mul_nonneg (by omega) (by omega)
  cases d3
  · simp only [nbCells, Bool.false_eq_true, if_false, mul_one]
    cases mpi
    · have h : P.isize * P.jsize * 1 ≤ 2147483647 := hc (Or.inr rfl)
      rw [mul_one] at h
      rw [if_neg (by simp), int32_some hIJ h]; rfl
    · rfl
  · have h3 := hP.nz rfl
    have hK : 1 ≤ P.ksize := by simp only [Grid.ksize, Grid.kmax, Grid.kmin]; omega
    have h : P.isize * P.jsize * P.ksize ≤ 2147483647 := hc (Or.inl rfl)
    have h' : P.isize * P.jsize ≤ P.isize * P.jsize * P.ksize := by nlinarith
    simp only [nbCells, if_true]
    rw [int32_some hIJ (by omega), mulInts_three (by omega) (by omega) hK h]; rfl

private theorem ascii_eq {d3 : Bool} {P : Grid} (hP : Sound d3 P) (U : Cell → Nat → α) (v : Nat) :
    asciiData d3 P (P.isize * P.jsize * (if d3 then P.ksize else 1)).toNat U v =
      (innerCells d3 P).map fun c => U c v := by
  have h1 := hP.nx; have h2 := hP.ny; have h4 := hP.ghost
  cases d3
  · simp only [Bool.false_eq_true, if_false, mul_one]
    exact asciiData_two P (by omega) (by omega) h4 U v
  · have h3 := hP.nz rfl
    exact asciiData_three P (by omega) (by omega) (by omega) h4 U v

private theorem offset_some {C : Codec α} {d3 : Bool} {P : Grid} {nbvar : Nat} (hs : C.size ≤ 8) (hP : Sound d3 P)
    (hd : DataFit d3 P nbvar) {v : Nat} (hv : v < nbvar) :
    offsetOf C d3 P v = some (v * (8 + (P.nx * P.ny * depth d3 P).toNat * C.size)) := by
  have h1 := hP.nx; have h2 := hP.ny
  have hz : 1 ≤ depth d3 P := by
    unfold depth; cases d3
    · simp
    · simpa using hP.nz rfl
  have hm : mulInts ((v : Int) :: extents d3 P) = some ((v : Int) * (P.nx * P.ny * depth d3 P)) := by
    have hle : (v : Int) * P.nx * P.ny * depth d3 P ≤ 2147483647 := by
      refine le_trans ?_ hd.2
      have : (v : Int) ≤ (nbvar : Int) - 1 := by omega
      have h3 : 0 ≤ P.nx * P.ny * depth d3 P := by positivity
      nlinarith [mul_le_mul_of_nonneg_right this h3]
    cases d3
    · simp only [extents, depth, Bool.false_eq_true, if_false, mul_one] at hle ⊢
      rw [mulInts_three (by omega) (by omega) h2 hle, mul_assoc]
    · have h3 := hP.nz rfl
      simp only [extents, depth, if_true] at hle ⊢
      rw [mulInts_four (by omega) (by omega) h2 h3 hle]; congr 1; ring
  obtain ⟨N, hN⟩ : ∃ N : Nat, P.nx * P.ny * depth d3 P = N :=
    ⟨(P.nx * P.ny * depth d3 P).toNat, by rw [Int.toNat_of_nonneg (by positivity)]⟩
  have hN1 : 1 ≤ N := by
    have : (1 : Int) ≤ P.nx * P.ny * depth d3 P := by
      have : 1 ≤ P.nx * P.ny := by nlinarith
      nlinarith
    omega
  have hvN : (v : Int) * N ≤ 2147483647 := by
    rw [← hN]
    refine le_trans ?_ hd.2
    have h0 : (v : Int) ≤ (nbvar : Int) - 1 := by omega
    have h3 : 0 ≤ P.nx * P.ny * depth d3 P := by positivity
    nlinarith [mul_le_mul_of_nonneg_right h0 h3]
  have hv31 : v * N ≤ 2147483647 := by exact_mod_cast hvN
  have hvv : v ≤ v * N := by nlinarith
  have hlt : v * N * C.size + v * 8 < 2 ^ 64 := by
    have : v * N * C.size ≤ 2147483647 * 8 := Nat.mul_le_mul hv31 hs
    omega
  rw [offsetOf, hm, hN]
  show some _ = some _
  congr 1
  rw [Int.toNat_natCast,
    show ((v : Int) * N * C.size + v * 8) = ((v * N * C.size + v * 8 : Nat) : Int) by push_cast; ring,
    Int.emod_eq_of_lt (by omega) (by exact_mod_cast hlt), Int.toNat_natCast]
  ring

private theorem words_some {C : Codec α} {d3 : Bool} {P : Grid} {nbvar : Nat} (hs : C.size ≤ 8) (hP : Sound d3 P)
    (hd : DataFit d3 P nbvar) :
    nbOfWords C d3 P = some ((P.nx * P.ny * depth d3 P).toNat * C.size) ∧
      (P.nx * P.ny * depth d3 P).toNat * C.size < 2 ^ 64 := by
  have h1 := hP.nx; have h2 := hP.ny
  have hz : 1 ≤ depth d3 P := by
    unfold depth; cases d3
    · simp
    · simpa using hP.nz rfl
  have hm : mulInts (extents d3 P) = some (P.nx * P.ny * depth d3 P) := by
    have hle := hd.1
    cases d3
    · simp only [extents, depth, Bool.false_eq_true, if_false, mul_one] at hle ⊢
      exact mulInts_two (by positivity) hle
    · have h3 := hP.nz rfl
      simp only [extents, depth, if_true] at hle ⊢
      exact mulInts_three (by omega) (by omega) h3 hle
  obtain ⟨N, hN⟩ : ∃ N : Nat, P.nx * P.ny * depth d3 P = N :=
    ⟨(P.nx * P.ny * depth d3 P).toNat, by rw [Int.toNat_of_nonneg (by positivity)]⟩
  have hN31 : N ≤ 2147483647 := by have := hd.1; rw [hN] at this; exact_mod_cast this
  have hlt : N * C.size < 2 ^ 64 := by
    have : N * C.size ≤ 2147483647 * 8 := Nat.mul_le_mul hN31 hs
    omega
  refine ⟨?_, by rw [hN]; exact hlt⟩
  rw [nbOfWords, hm, hN]
  show some _ = some _
  congr 1
  rw [Int.toNat_natCast, show ((N : Int) * C.size) = ((N * C.size : Nat) : Int) by push_cast; ring,
    Int.emod_eq_of_lt (by omega) (by exact_mod_cast hlt), Int.toNat_natCast]

private theorem extent_facts {d3 mpi : Bool} {P : Grid} (hP : Sound d3 P) (pos : Cell) :
    let e := extentOf d3 mpi P pos
    let o := origin mpi P d3 pos
    e.x0 = o.i ∧ e.y0 = o.j ∧ e.z0 = o.k ∧ layers e.x0 e.x1 = P.nx ∧ layers e.y0 e.y1 = P.ny ∧
      layers e.z0 e.z1 = depth d3 P := by
  have h1 := hP.nx; have h2 := hP.ny
  have h3 : d3 = true → 1 ≤ P.nz := hP.nz
  cases d3 <;> cases mpi <;>
    simp only [extentOf, origin, depth, layers, if_true, if_false, Bool.false_eq_true, true_and] <;>
    refine ⟨?_, ?_, ?_⟩ <;> (try simp only) <;> (try split_ifs) <;> (try have := h3 rfl) <;> omega

/-- **C110.**  The written file shows the data of the solver.  For every grid, number of variables (with
different names), place of the sub-domain, ASCII or binary: writing is defined, and a reader finds exactly the
inner cells, under their place in the whole domain, and in each of them, for each variable, the value `Uhost` has
there. -/
theorem C110_file {D : Decoder α} {C : Codec α} (hD : Decodes D C) {d3 : Bool} (mpi ascii : Bool) {P : Grid}
    (hP : Sound d3 P) (pos : Cell) {nbvar : Nat} {names : Nat → String}
    (inj : ∀ u < nbvar, ∀ v < nbvar, names u = names v → u = v) (hc : CellsFit d3 mpi P)
    (hd : DataFit d3 P nbvar) (U : Cell → Nat → α) :
    ∃ f, imageFile C d3 mpi ascii P pos nbvar names U = some f ∧ f.whole = f.piece ∧
      (∀ v < nbvar, ∀ x y z, 0 ≤ x → x < P.nx → 0 ≤ y → y < P.ny → 0 ≤ z → z < depth d3 P →
        f.value D (names v) ((origin mpi P d3 pos).i + x) ((origin mpi P d3 pos).j + y)
          ((origin mpi P d3 pos).k + z) =
          some (U ⟨P.ghostWidth + x, P.ghostWidth + y, if d3 then P.ghostWidth + z else 0⟩ v)) ∧
      ∀ n x y z w, f.value D n x y z = some w → (∃ v < nbvar, n = names v) ∧
        0 ≤ x - (origin mpi P d3 pos).i ∧ x - (origin mpi P d3 pos).i < P.nx ∧
        0 ≤ y - (origin mpi P d3 pos).j ∧ y - (origin mpi P d3 pos).j < P.ny ∧
        0 ≤ z - (origin mpi P d3 pos).k ∧ z - (origin mpi P d3 pos).k < depth d3 P := by
  have h1 := hP.nx; have h2 := hP.ny
  have hz1 : 1 ≤ depth d3 P := by
    unfold depth; cases d3
    · simp
    · simpa using hP.nz rfl
  obtain ⟨ex, ey, ez, lx, ly, lz⟩ := extent_facts (mpi := mpi) hP pos
  obtain ⟨hw, h64⟩ := words_some hD.size_le hP hd
  have hlen : (innerCells d3 P).length = (P.nx * P.ny * depth d3 P).toNat := by
    rw [length_innerCells]
    obtain ⟨a, ha⟩ : ∃ a : Nat, P.nx = a := ⟨P.nx.toNat, by omega⟩
    obtain ⟨b, hb⟩ : ∃ b : Nat, P.ny = b := ⟨P.ny.toNat, by omega⟩
    obtain ⟨c, hc⟩ : ∃ c : Nat, depth d3 P = c := ⟨(depth d3 P).toNat, by omega⟩
    rw [show (if d3 = true then P.nz else 1) = depth d3 P from rfl, ha, hb, hc,
      show ((a : Int) * b * c) = ((c * (b * a) : Nat) : Int) by push_cast; ring]
    rfl
  have hcount : (extentOf d3 mpi P pos).count = (P.nx * P.ny * depth d3 P).toNat := by
    rw [Extent.count, lx, ly, lz]
  have hpos : ∀ x y z, 0 ≤ x → x < P.nx → 0 ≤ y → y < P.ny → 0 ≤ z → z < depth d3 P →
      (extentOf d3 mpi P pos).has ((origin mpi P d3 pos).i + x) ((origin mpi P d3 pos).j + y)
        ((origin mpi P d3 pos).k + z) ∧
      (extentOf d3 mpi P pos).position ((origin mpi P d3 pos).i + x) ((origin mpi P d3 pos).j + y)
        ((origin mpi P d3 pos).k + z) < (P.nx * P.ny * depth d3 P).toNat ∧
      (innerCells d3 P)[(extentOf d3 mpi P pos).position ((origin mpi P d3 pos).i + x)
        ((origin mpi P d3 pos).j + y) ((origin mpi P d3 pos).k + z)]? =
        some ⟨P.ghostWidth + x, P.ghostWidth + y, if d3 then P.ghostWidth + z else 0⟩ := by
    intro x y z hx0 hx1 hy0 hy1 hz0 hz1
    have hhas : (extentOf d3 mpi P pos).has ((origin mpi P d3 pos).i + x) ((origin mpi P d3 pos).j + y)
        ((origin mpi P d3 pos).k + z) := by
      refine ⟨?_, ?_, ?_⟩
      · rw [lx, ex]; constructor <;> omega
      · rw [ly, ey]; constructor <;> omega
      · rw [lz, ez]; constructor <;> omega
    have hp : (extentOf d3 mpi P pos).position ((origin mpi P d3 pos).i + x) ((origin mpi P d3 pos).j + y)
        ((origin mpi P d3 pos).k + z) =
        z.toNat * (P.ny.toNat * P.nx.toNat) + (y.toNat * P.nx.toNat + x.toNat) := by
      rw [Extent.position, lx, ly, ex, ey, ez]
      obtain ⟨a, ha⟩ : ∃ a : Nat, P.nx = a := ⟨P.nx.toNat, by omega⟩
      obtain ⟨b, hb⟩ : ∃ b : Nat, P.ny = b := ⟨P.ny.toNat, by omega⟩
      obtain ⟨x', rfl⟩ : ∃ x' : Nat, x = x' := ⟨x.toNat, by omega⟩
      obtain ⟨y', rfl⟩ : ∃ y' : Nat, y = y' := ⟨y.toNat, by omega⟩
      obtain ⟨z', rfl⟩ : ∃ z' : Nat, z = z' := ⟨z.toNat, by omega⟩
      rw [ha, hb]
      simp only [add_sub_cancel_left, Int.toNat_natCast]
      rw [show ((x' : Int) + a * (y' + b * z')) = ((z' * (b * a) + (y' * a + x') : Nat) : Int) by
        push_cast; ring]
      rfl
    have hg := getElem?_innerCells d3 P (x := x.toNat) (y := y.toNat) (z := z.toNat)
      (by rw [Int.toNat_of_nonneg hx0]; exact hx1) (by rw [Int.toNat_of_nonneg hy0]; exact hy1)
      (by rw [Int.toNat_of_nonneg hz0]; exact hz1)
    rw [Int.toNat_of_nonneg hx0, Int.toNat_of_nonneg hy0, Int.toNat_of_nonneg hz0] at hg
    rw [hp]
    refine ⟨hhas, ?_, hg⟩
    rw [← hlen]
    exact (List.getElem?_eq_some_iff.1 hg).1
  have hnone : ∀ (f : ImageFile α), f.piece = extentOf d3 mpi P pos → (∃ pay : Nat → Payload α,
      f.arrays = (List.range nbvar).map fun v => (names v, pay v)) →
      ∀ n x y z w, f.value D n x y z = some w → (∃ v < nbvar, n = names v) ∧
        0 ≤ x - (origin mpi P d3 pos).i ∧ x - (origin mpi P d3 pos).i < P.nx ∧
        0 ≤ y - (origin mpi P d3 pos).j ∧ y - (origin mpi P d3 pos).j < P.ny ∧
        0 ≤ z - (origin mpi P d3 pos).k ∧ z - (origin mpi P d3 pos).k < depth d3 P := by
    rintro f hf ⟨pay, hpay⟩ n x y z w h
    rw [ImageFile.value] at h
    split_ifs at h with hh
    refine ⟨?_, ?_⟩
    · split at h
      · cases h
      · rename_i l hl
        rw [hpay] at hl
        obtain ⟨v, hv, e⟩ := lookup_arrays_mem names pay _ n hl
        exact ⟨v, List.mem_range.1 hv, e⟩
      · rename_i l hl
        rw [hpay] at hl
        obtain ⟨v, hv, e⟩ := lookup_arrays_mem names pay _ n hl
        exact ⟨v, List.mem_range.1 hv, e⟩
    · rw [hf] at hh
      obtain ⟨hx, hy, hz⟩ := hh
      rw [lx, ex] at hx; rw [ly, ey] at hy; rw [lz, ez] at hz
      omega
  have inj' : ∀ u ∈ List.range nbvar, ∀ v ∈ List.range nbvar, names u = names v → u = v := fun u hu v hv =>
    inj u (List.mem_range.1 hu) v (List.mem_range.1 hv)
  rw [imageFile, nbCells_some hP hc]
  simp only [Option.bind_eq_bind, Option.bind_some]
  cases ascii
  · rw [if_neg (by simp), mapM_some _ _ (fun v => (names v,
      Payload.appended (v * (8 + (P.nx * P.ny * depth d3 P).toNat * C.size)))) (fun v hv => by
        rw [offset_some hD.size_le hP hd (List.mem_range.1 hv)]; rfl), hw]
    refine ⟨_, rfl, rfl, ?_, hnone _ rfl ⟨_, rfl⟩⟩
    intro v hv x y z hx0 hx1 hy0 hy1 hz0 hz1
    obtain ⟨a, b, c⟩ := hpos x y z hx0 hx1 hy0 hy1 hz0 hz1
    simp only [ImageFile.value]
    rw [if_pos a, lookup_arrays names _ _ inj' v (List.mem_range.2 hv)]
    simp only [hcount]
    rw [readRaw_rawData hD d3 P nbvar U _ hlen h64 hv b, c]
    rfl
  · rw [if_pos rfl]
    refine ⟨_, rfl, rfl, ?_, hnone _ rfl ⟨_, rfl⟩⟩
    intro v hv x y z hx0 hx1 hy0 hy1 hz0 hz1
    obtain ⟨a, b, c⟩ := hpos x y z hx0 hx1 hy0 hy1 hz0 hz1
    simp only [ImageFile.value]
    rw [if_pos a, lookup_arrays names _ _ inj' v (List.mem_range.2 hv)]
    simp only [ascii_eq hP]
    rw [if_pos (by rw [List.length_map, hlen, hcount]), List.getElem?_map, c]
    rfl

/-- **C110.**  Ghost cells leave no trace in the file. -/
theorem C110_ghosts (C : Codec α) {d3 : Bool} (mpi ascii : Bool) {P : Grid} (hP : Sound d3 P) (pos : Cell)
    (nbvar : Nat) (names : Nat → String) (hc : CellsFit d3 mpi P) (U W : Cell → Nat → α)
    (h : ∀ v < nbvar, ∀ x y z, 0 ≤ x → x < P.nx → 0 ≤ y → y < P.ny → 0 ≤ z → z < depth d3 P →
      U ⟨P.ghostWidth + x, P.ghostWidth + y, if d3 then P.ghostWidth + z else 0⟩ v =
        W ⟨P.ghostWidth + x, P.ghostWidth + y, if d3 then P.ghostWidth + z else 0⟩ v) :
    imageFile C d3 mpi ascii P pos nbvar names U = imageFile C d3 mpi ascii P pos nbvar names W := by
  have hcell : ∀ v < nbvar, ∀ c ∈ innerCells d3 P, U c v = W c v := by
    intro v hv c hcm
    simp only [innerCells, List.mem_flatMap, List.mem_map, upTo, List.mem_range] at hcm
    obtain ⟨k, hk, j, ⟨n, hn, rfl⟩, i, ⟨m, hm, rfl⟩, rfl⟩ := hcm
    have hi : (P.imax - P.ghostWidth - (P.imin + P.ghostWidth) + 1) = P.nx := by
      simp only [Grid.imin, Grid.imax]; ring
    have hj : (P.jmax - P.ghostWidth - (P.jmin + P.ghostWidth) + 1) = P.ny := by
      simp only [Grid.jmin, Grid.jmax]; ring
    have hkk : (P.kmax - P.ghostWidth - (P.kmin + P.ghostWidth) + 1) = P.nz := by
      simp only [Grid.kmin, Grid.kmax]; ring
    rw [hj] at hn; rw [hi] at hm
    cases d3
    · simp only [Bool.false_eq_true, if_false, List.mem_singleton] at hk
      subst hk
      have := h v hv m n 0 (by omega) (by omega) (by omega) (by omega) le_rfl (by simp [depth])
      simpa [Grid.imin, Grid.jmin] using this
    · simp only [if_true, List.mem_map, List.mem_range] at hk
      obtain ⟨l, hl, rfl⟩ := hk
      rw [hkk] at hl
      have := h v hv m n l (by omega) (by omega) (by omega) (by omega) (by omega) (by simp [depth]; omega)
      simpa [Grid.imin, Grid.jmin, Grid.kmin] using this
  rw [imageFile, imageFile, nbCells_some hP hc]
  simp only [Option.bind_eq_bind, Option.bind_some, ascii_eq hP]
  have hr : ∀ words, rawData C d3 P nbvar words U = rawData C d3 P nbvar words W := by
    intro words
    apply List.flatMap_congr
    intro v hv
    congr 1
    apply List.flatMap_congr
    intro c hcm
    rw [hcell v (List.mem_range.1 hv) c hcm]
  have ha : ((List.range nbvar).map fun v => (names v, Payload.ascii ((innerCells d3 P).map fun c => U c v))) =
      (List.range nbvar).map fun v => (names v, Payload.ascii ((innerCells d3 P).map fun c => W c v)) := by
    apply List.map_congr_left
    intro v hv
    congr 2
    apply List.map_congr_left
    intro c hcm
    exact hcell v (List.mem_range.1 hv) c hcm
  simp only [hr, ha]

/-- **C110, violated for large grids.**  In binary mode the position of an array is a product of `int`s: it overflows as soon as
the number of the last variable times the number of cells reaches 2^31, although the cells themselves are far fewer and the
file would be ordinary. -/
theorem C110_overflow (C : Codec α) {P : Grid} (hP : Sound true P) (mpi : Bool) (pos : Cell) {nbvar : Nat}
    (names : Nat → String) (U : Cell → Nat → α) (hn : 1 ≤ nbvar)
    (h : 2147483647 < ((nbvar : Int) - 1) * P.nx * P.ny * P.nz) :
    imageFile C true mpi false P pos nbvar names U = none := by
  have h1 := hP.nx; have h2 := hP.ny; have h3 := hP.nz rfl
  have ho : offsetOf C true P (nbvar - 1) = none := by
    rw [offsetOf]
    simp only [extents, if_true]
    have e : (((nbvar - 1 : Nat) : Int)) = (nbvar : Int) - 1 := by omega
    rw [e]
    have hm : mulInts [(nbvar : Int) - 1, P.nx, P.ny, P.nz] = none := by
      show (int32 (((nbvar : Int) - 1) * P.nx)).bind (fun x => (int32 (x * P.ny)).bind fun x =>
        (int32 (x * P.nz)).bind fun x => some x) = none
      cases ha : int32 (((nbvar : Int) - 1) * P.nx) with
      | none => rfl
      | some a =>
        have ea : a = ((nbvar : Int) - 1) * P.nx := by
          simp only [int32] at ha; split_ifs at ha; exact (Option.some.inj ha).symm
        show (int32 (a * P.ny)).bind (fun x => (int32 (x * P.nz)).bind fun x => some x) = none
        cases hb : int32 (a * P.ny) with
        | none => rfl
        | some b =>
          have eb : b = a * P.ny := by
            simp only [int32] at hb; split_ifs at hb; exact (Option.some.inj hb).symm
          show (int32 (b * P.nz)).bind (fun x => some x) = none
          rw [eb, ea, int32_none h]; rfl
    rw [hm]; rfl
  rw [imageFile]
  cases nbCells true mpi P with
  | none => rfl
  | some n =>
    simp only [Option.bind_eq_bind, Option.bind_some]
    rw [if_neg (by simp), mapM_none _ _ (nbvar - 1) (List.mem_range.2 (by omega)) (by rw [ho]; rfl)]
    rfl

/-- An MHD run on 700³ cells: every array has less than 2^31 numbers, the file cannot be written. -/
theorem C110_overflow_mhd (C : Codec α) (names : Nat → String) (U : Cell → Nat → α) :
    let P : Grid := ⟨700, 700, 700, 3, 8, 1, 1, 1, 1, 1, 1⟩
    Sound true P ∧ CellsFit true false P ∧ P.nx * P.ny * P.nz ≤ 2147483647 ∧
      imageFile C true false false P ⟨0, 0, 0⟩ 8 names U = none := by
  refine ⟨⟨by norm_num, by norm_num, fun _ => by norm_num, by norm_num⟩, fun _ => by
    norm_num [Grid.isize, Grid.jsize, Grid.ksize, Grid.imax, Grid.jmax, Grid.kmax, Grid.imin, Grid.jmin, Grid.kmin],
    by norm_num, ?_⟩
  exact C110_overflow C ⟨by norm_num, by norm_num, fun _ => by norm_num, by norm_num⟩ false _ names U (by norm_num)
    (by norm_num)

/-- Numbers of one byte and words of eight: a codec with a decoder. -/
def byteCodec : Codec UInt8 where
  size := 1
  word n := (List.range 8).map fun i => UInt8.ofNat (n / 256 ^ i)
  real x := [x]

def byteDecoder : Decoder UInt8 where
  size := 1
  word l := ((List.range 8).map fun i => (l.getD i 0).toNat * 256 ^ i).sum
  real l := l.getD 0 0

private theorem digits_sum (n : Nat) (k : Nat) :
    ((List.range k).map fun i => n / 256 ^ i % 256 * 256 ^ i).sum = n % 256 ^ k := by
  induction k with
  | zero => simp [Nat.mod_one]
  | succ k ih =>
    rw [List.range_succ, List.map_append, List.sum_append, ih, Nat.mod_pow_succ]
    simp [mul_comm]

theorem byteDecodes : Decodes byteDecoder byteCodec where
  size := rfl
  size_pos := by decide
  size_le := by decide
  word_length n := by simp [byteCodec]
  real_length x := rfl
  word n h := by
    have h8 := digits_sum n 8
    rw [Nat.mod_eq_of_lt (by rw [show (256 : Nat) ^ 8 = 2 ^ 64 by norm_num]; exact h)] at h8
    refine Eq.trans (congrArg List.sum (List.map_congr_left fun i hi => ?_)) h8
    simp only [byteCodec]
    rw [List.getD_eq_getElem?_getD, List.getElem?_map, List.getElem?_range (List.mem_range.1 hi)]
    simp
  real x := rfl

/-- The hypotheses of `C110_file` hold for a 3 × 2 × 2 grid with five variables. -/
example : Decodes byteDecoder byteCodec ∧ Sound true ⟨3, 2, 2, 2, 5, 1, 1, 1, 1, 1, 1⟩ ∧
    CellsFit true true ⟨3, 2, 2, 2, 5, 1, 1, 1, 1, 1, 1⟩ ∧ DataFit true ⟨3, 2, 2, 2, 5, 1, 1, 1, 1, 1, 1⟩ 5 ∧
    ∀ u < 5, ∀ v < 5, (fun n => ["rho", "energy", "rho_vx", "rho_vy", "rho_vz"].getD n "") u =
      (fun n => ["rho", "energy", "rho_vx", "rho_vy", "rho_vz"].getD n "") v → u = v :=
  ⟨byteDecodes, ⟨by norm_num, by norm_num, fun _ => by norm_num, by norm_num⟩, fun _ => by
      norm_num [Grid.isize, Grid.jsize, Grid.ksize, Grid.imax, Grid.jmax, Grid.kmax, Grid.imin, Grid.jmin, Grid.kmin],
    by norm_num [DataFit, depth], by intro u hu v hv; interval_cases u <;> interval_cases v <;> simp⟩

end Verif.Vtk
