import Verif.Lemmas.BoundariesAll

/-!
# C05–C08: the serial ghost fill

`source` and `cross` (in `Verif.Spec.Boundary`) say where a ghost cell takes its value from and
whether its sign changes; `YieldsAll` says: no out-of-bounds access, no data race, terminates, and
ends in the same memory for every schedule.
-/

namespace Verif

open Spec

variable {α : Type} [ROps α]

/-- A 2D problem with ghost width `g ≥ 1`, at least `g` interior cells per direction, and one of the
three boundary conditions on each side. -/
structure Setup2 (P : Grid) (xlo xhi ylo yhi : BC) : Prop where
  g : 1 ≤ P.ghostWidth
  nx : P.ghostWidth ≤ P.nx
  ny : P.ghostWidth ≤ P.ny
  xmin : P.boundary_type_xmin = xlo.code
  xmax : P.boundary_type_xmax = xhi.code
  ymin : P.boundary_type_ymin = ylo.code
  ymax : P.boundary_type_ymax = yhi.code

/-- Same in 3D. -/
structure Setup3 (P : Grid) (xlo xhi ylo yhi zlo zhi : BC) : Prop
    extends Setup2 P xlo xhi ylo yhi where
  nz : P.ghostWidth ≤ P.nz
  zmin : P.boundary_type_zmin = zlo.code
  zmax : P.boundary_type_zmax = zhi.code

/-- `m'` is `m` with the ghost cells of the 2D array `U` filled as prescribed. -/
structure Filled2 (mhd : Bool) (P : Grid) (U : Nat) (xlo xhi ylo yhi : BC) (m m' : Addr → α) :
    Prop where
  /-- every cell, ghost cells and corners included -/
  cells : ∀ i j v, 0 ≤ i → i < P.nx + 2 * P.ghostWidth → 0 ≤ j → j < P.ny + 2 * P.ghostWidth →
    v < P.nbvar →
    m' ⟨U, i, j, 0, v⟩ =
      cross P.ny P.ghostWidth ylo yhi (normalTo 1 mhd v) j
        (cross P.nx P.ghostWidth xlo xhi (normalTo 0 mhd v) i
          (m ⟨U, source P.nx P.ghostWidth xlo xhi i, source P.ny P.ghostWidth ylo yhi j, 0, v⟩))
  /-- interior cells are unchanged -/
  interior : ∀ i j v, P.ghostWidth ≤ i → i < P.nx + P.ghostWidth → P.ghostWidth ≤ j →
    j < P.ny + P.ghostWidth → m' ⟨U, i, j, 0, v⟩ = m ⟨U, i, j, 0, v⟩
  /-- nothing else is touched -/
  other : ∀ a : Addr, a.arr ≠ U → m' a = m a

/-- Same in 3D. -/
structure Filled3 (mhd : Bool) (P : Grid) (U : Nat) (xlo xhi ylo yhi zlo zhi : BC)
    (m m' : Addr → α) : Prop where
  cells : ∀ i j k v, 0 ≤ i → i < P.nx + 2 * P.ghostWidth → 0 ≤ j → j < P.ny + 2 * P.ghostWidth →
    0 ≤ k → k < P.nz + 2 * P.ghostWidth → v < P.nbvar →
    m' ⟨U, i, j, k, v⟩ =
      cross P.nz P.ghostWidth zlo zhi (normalTo 2 mhd v) k
        (cross P.ny P.ghostWidth ylo yhi (normalTo 1 mhd v) j
          (cross P.nx P.ghostWidth xlo xhi (normalTo 0 mhd v) i
            (m ⟨U, source P.nx P.ghostWidth xlo xhi i, source P.ny P.ghostWidth ylo yhi j,
              source P.nz P.ghostWidth zlo zhi k, v⟩)))
  interior : ∀ i j k v, P.ghostWidth ≤ i → i < P.nx + P.ghostWidth → P.ghostWidth ≤ j →
    j < P.ny + P.ghostWidth → P.ghostWidth ≤ k → k < P.nz + P.ghostWidth →
    m' ⟨U, i, j, k, v⟩ = m ⟨U, i, j, k, v⟩
  other : ∀ a : Addr, a.arr ≠ U → m' a = m a

private theorem filled2 (mhd : Bool) {P : Grid} (U : Nat) {xlo xhi ylo yhi : BC}
    (h : Setup2 P xlo xhi ylo yhi) (m : Addr → α) :
    ∃ m', YieldsAll (P.alloc2 U) (makeBoundariesSerial2D mhd P U) m m' ∧
      Filled2 mhd P U xlo xhi ylo yhi m m' ∧ ∀ a, ¬ P.alloc2 U a → m' a = m a := by
  have hi := P.isize_eq
  have hj := P.jsize_eq
  have hg := h.g
  obtain ⟨m', h1, h2, h3⟩ := fill2 mhd P U ⟨by have := h.g; omega, h.nx, h.ny⟩
    h.xmin h.xmax h.ymin h.ymax m
  have hc : ∀ i j v, 0 ≤ i → i < P.nx + 2 * P.ghostWidth → 0 ≤ j →
      j < P.ny + 2 * P.ghostWidth → v < P.nbvar → m' ⟨U, i, j, 0, v⟩ = _ := fun i j v a b c d e =>
    h2 ⟨i, j, 0⟩ v ⟨a, by simp only; omega, c, by simp only; omega, rfl⟩ e
  refine ⟨m', h1, ⟨hc, ?_, ?_⟩, h3⟩
  · intro i j v a b c d
    by_cases hv : v < P.nbvar
    · rw [hc i j v (by omega) (by omega) (by omega) (by omega) hv]
      simp only [Cell.at]
      rw [source_interior a b, source_interior c d, cross_interior a b, cross_interior c d]
    · exact h3 _ (fun e => hv e.2.2.2.2.2.2)
  · exact fun a ha => h3 a (fun e => ha e.1)

private theorem filled3 (mhd : Bool) {P : Grid} (U : Nat) {xlo xhi ylo yhi zlo zhi : BC}
    (h : Setup3 P xlo xhi ylo yhi zlo zhi) (m : Addr → α) :
    ∃ m', YieldsAll (P.alloc3 U) (makeBoundariesSerial3D mhd P U) m m' ∧
      Filled3 mhd P U xlo xhi ylo yhi zlo zhi m m' ∧ ∀ a, ¬ P.alloc3 U a → m' a = m a := by
  have hi := P.isize_eq
  have hj := P.jsize_eq
  have hk := P.ksize_eq
  have hg := h.g
  obtain ⟨m', h1, h2, h3⟩ := fill3 mhd P U ⟨⟨by have := h.g; omega, h.nx, h.ny⟩, h.nz⟩
    h.xmin h.xmax h.ymin h.ymax h.zmin h.zmax m
  have hc : ∀ i j k v, 0 ≤ i → i < P.nx + 2 * P.ghostWidth → 0 ≤ j →
      j < P.ny + 2 * P.ghostWidth → 0 ≤ k → k < P.nz + 2 * P.ghostWidth → v < P.nbvar →
      m' ⟨U, i, j, k, v⟩ = _ := fun i j k v a b c d e f e' =>
    h2 ⟨i, j, k⟩ v ⟨a, by simp only; omega, c, by simp only; omega, e, by simp only; omega⟩ e'
  refine ⟨m', h1, ⟨hc, ?_, ?_⟩, h3⟩
  · intro i j k v a b c d e f
    by_cases hv : v < P.nbvar
    · rw [hc i j k v (by omega) (by omega) (by omega) (by omega) (by omega) (by omega) hv]
      simp only [Cell.at]
      rw [source_interior a b, source_interior c d, source_interior e f, cross_interior a b,
        cross_interior c d, cross_interior e f]
    · exact h3 _ (fun e => hv e.2.2.2.2.2.2.2)
  · exact fun a ha => h3 a (fun e => ha e.1)

/-- **C05** -/
theorem C05_ghost_fill_2d_hydro {P : Grid} (U : Nat) {xlo xhi ylo yhi : BC}
    (h : Setup2 P xlo xhi ylo yhi) (m : Addr → α) :
    ∃ m', YieldsAll (P.alloc2 U) (makeBoundariesSerial2D false P U) m m' ∧
      Filled2 false P U xlo xhi ylo yhi m m' := by
  obtain ⟨m', h1, h2, -⟩ := filled2 false U h m; exact ⟨m', h1, h2⟩

/-- **C06** -/
theorem C06_ghost_fill_3d_hydro {P : Grid} (U : Nat) {xlo xhi ylo yhi zlo zhi : BC}
    (h : Setup3 P xlo xhi ylo yhi zlo zhi) (m : Addr → α) :
    ∃ m', YieldsAll (P.alloc3 U) (makeBoundariesSerial3D false P U) m m' ∧
      Filled3 false P U xlo xhi ylo yhi zlo zhi m m' := by
  obtain ⟨m', h1, h2, -⟩ := filled3 false U h m; exact ⟨m', h1, h2⟩

/-- **C07** (2D) -/
theorem C07_ghost_fill_2d_mhd {P : Grid} (U : Nat) {xlo xhi ylo yhi : BC}
    (h : Setup2 P xlo xhi ylo yhi) (m : Addr → α) :
    ∃ m', YieldsAll (P.alloc2 U) (makeBoundariesSerial2D true P U) m m' ∧
      Filled2 true P U xlo xhi ylo yhi m m' := by
  obtain ⟨m', h1, h2, -⟩ := filled2 true U h m; exact ⟨m', h1, h2⟩

/-- **C07** (3D) -/
theorem C07_ghost_fill_3d_mhd {P : Grid} (U : Nat) {xlo xhi ylo yhi zlo zhi : BC}
    (h : Setup3 P xlo xhi ylo yhi zlo zhi) (m : Addr → α) :
    ∃ m', YieldsAll (P.alloc3 U) (makeBoundariesSerial3D true P U) m m' ∧
      Filled3 true P U xlo xhi ylo yhi zlo zhi m m' := by
  obtain ⟨m', h1, h2, -⟩ := filled3 true U h m; exact ⟨m', h1, h2⟩

/-- Over exact numbers, what `cross` does: keep the value, except that a normal component behind a
reflecting wall is negated. -/
theorem C05_cross_real (n g : Int) (lo hi : BC) (normal : Bool) (c : Int) (x : ℝ) :
    cross n g lo hi normal c x =
      if behindWall n g lo hi c = true ∧ normal = true then -x else x := by
  unfold cross
  by_cases h : isGhost n g c = true
  · rw [if_pos h]
    by_cases h' : behindWall n g lo hi c = true ∧ normal = true
    · rw [if_pos h', if_pos (by simp [h'])]; simp [ROps.lit]
    · rw [if_neg h', if_neg (by simpa using h')]; simp [ROps.lit]
  · rw [if_neg h, if_neg]
    rintro ⟨h', -⟩
    apply h
    simp only [behindWall, isGhost, Bool.or_eq_true, Bool.and_eq_true] at h' ⊢
    tauto

/-- **C08** (2D): any end state of a fill is left exactly as it is by a second fill. -/
theorem C08_fill_twice_2d (mhd : Bool) {P : Grid} (U : Nat) {xlo xhi ylo yhi : BC}
    (h : Setup2 P xlo xhi ylo yhi) {m m' : Addr → α}
    (hrun : Runs (makeBoundariesSerial2D mhd P U) m m') :
    YieldsAll (P.alloc2 U) (makeBoundariesSerial2D mhd P U) m' m' := by
  have hg := h.g
  have hi := P.isize_eq
  have hj := P.jsize_eq
  obtain ⟨m1, y1, f1, o1⟩ := filled2 mhd U h m
  obtain rfl := y1.unique hrun
  obtain ⟨m2, y2, f2, o2⟩ := filled2 mhd U h m'
  have : m2 = m' := by
    funext a
    by_cases ha : P.alloc2 U a
    · obtain ⟨arr, i, j, k, v⟩ := a
      obtain ⟨ha, a1, a2, a3, a4, a5, a6⟩ := ha
      simp only at ha a1 a2 a3 a4 a5 a6
      subst ha a5
      have sx := source_range (lo := xlo) (hi := xhi) (show 0 < P.ghostWidth by omega) h.nx a1
        (by omega)
      have sy := source_range (lo := ylo) (hi := yhi) (show 0 < P.ghostWidth by omega) h.ny a3
        (by omega)
      rw [f2.cells i j v a1 (by omega) a3 (by omega) a6,
        f1.cells i j v a1 (by omega) a3 (by omega) a6, f1.interior _ _ v sx.1 sx.2 sy.1 sy.2]
    · rw [o2 a ha]
  rw [this] at y2; exact y2

/-- **C08** (3D) -/
theorem C08_fill_twice_3d (mhd : Bool) {P : Grid} (U : Nat) {xlo xhi ylo yhi zlo zhi : BC}
    (h : Setup3 P xlo xhi ylo yhi zlo zhi) {m m' : Addr → α}
    (hrun : Runs (makeBoundariesSerial3D mhd P U) m m') :
    YieldsAll (P.alloc3 U) (makeBoundariesSerial3D mhd P U) m' m' := by
  have hg := h.g
  have hi := P.isize_eq
  have hj := P.jsize_eq
  have hk := P.ksize_eq
  obtain ⟨m1, y1, f1, o1⟩ := filled3 mhd U h m
  obtain rfl := y1.unique hrun
  obtain ⟨m2, y2, f2, o2⟩ := filled3 mhd U h m'
  have : m2 = m' := by
    funext a
    by_cases ha : P.alloc3 U a
    · obtain ⟨arr, i, j, k, v⟩ := a
      obtain ⟨ha, a1, a2, a3, a4, a5, a6, a7⟩ := ha
      simp only at ha a1 a2 a3 a4 a5 a6 a7
      subst ha
      have sx := source_range (lo := xlo) (hi := xhi) (show 0 < P.ghostWidth by omega) h.nx a1
        (by omega)
      have sy := source_range (lo := ylo) (hi := yhi) (show 0 < P.ghostWidth by omega) h.ny a3
        (by omega)
      have sz := source_range (lo := zlo) (hi := zhi) (show 0 < P.ghostWidth by omega) h.nz a5
        (by omega)
      rw [f2.cells i j k v a1 (by omega) a3 (by omega) a5 (by omega) a7,
        f1.cells i j k v a1 (by omega) a3 (by omega) a5 (by omega) a7,
        f1.interior _ _ _ v sx.1 sx.2 sy.1 sy.2 sz.1 sz.2]
    · rw [o2 a ha]
  rw [this] at y2; exact y2

/-! Non-vacuity: a 3 × 5 × 4 grid, ghost width 2, mixed boundary conditions. -/

private def exGrid : Grid := ⟨3, 5, 4, 2, 5, 1, 2, 3, 3, 2, 1⟩

example : Setup3 exGrid .reflecting .absorbing .periodic .periodic .absorbing .reflecting where
  g := by decide
  nx := by decide
  ny := by decide
  nz := by decide
  xmin := rfl
  xmax := rfl
  ymin := rfl
  ymax := rfl
  zmin := rfl
  zmax := rfl

/-- In that grid corner cell (0,0,0) takes minus the x velocity of cell (3,5,2). -/
example : source 3 2 .reflecting .absorbing 0 = 3 ∧ source 5 2 .periodic .periodic 0 = 5 ∧
    source 4 2 .absorbing .reflecting 0 = 2 ∧
    behindWall 3 2 .reflecting .absorbing 0 = true := by decide

/-- The hypothesis of C08 is met: the fill always has an end state. -/
example (m : Addr → ℚ) : ∃ m', Runs (makeBoundariesSerial3D true exGrid 7) m m' := by
  obtain ⟨m', h, -⟩ := C07_ghost_fill_3d_mhd (P := exGrid) (xlo := .reflecting) (xhi := .absorbing)
    (ylo := .periodic) (yhi := .periodic) (zlo := .absorbing) (zhi := .reflecting) 7
    ⟨⟨by decide, by decide, by decide, rfl, rfl, rfl, rfl⟩, by decide, rfl, rfl⟩ m
  exact ⟨m', h.run⟩

end Verif
