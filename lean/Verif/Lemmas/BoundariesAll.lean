import Verif.Lemmas.Boundaries

/-! Helper lemmas: the composite of all faces. -/

namespace Verif

open K Function Spec

variable {α : Type} [ROps α]

theorem isNormalX_eq (mhd : Bool) (v : Nat) : isNormalX mhd v = normalTo 0 mhd v := by
  simp [isNormalX, normalTo, IU, IA, beq_eq_decide]
theorem isNormalY_eq (mhd : Bool) (v : Nat) : isNormalY mhd v = normalTo 1 mhd v := by
  simp [isNormalY, normalTo, IV, IB, beq_eq_decide]
theorem isNormalZ_eq (mhd : Bool) (v : Nat) : isNormalZ mhd v = normalTo 2 mhd v := by
  simp [isNormalZ, normalTo, IW, IC, beq_eq_decide]

/-- The lower face as in the specification. -/
theorem low_spec {n g c : Int} {lo hi : BC} {nrm : Bool} (h : c < g) :
    (lowSource g n lo.code c nrm).1 = source n g lo hi c ∧
    (lowSource g n lo.code c nrm).2 = (if behindWall n g lo hi c && nrm then -1 else 1) ∨
    ¬ (0 ≤ n) := by
  by_cases hn : 0 ≤ n
  · left
    have h' : ¬ (n + g ≤ c) := by omega
    cases lo <;> simp [lowSource, source, behindWall, BC.code, BC_DIRICHLET, BC_NEUMANN, h, h'] <;>
      omega
  · exact .inr hn

theorem high_spec {n g c : Int} {lo hi : BC} {nrm : Bool} (hn : 0 ≤ n) (h : n + g ≤ c) :
    (highSource g n hi.code c nrm).1 = source n g lo hi c ∧
    (highSource g n hi.code c nrm).2 = (if behindWall n g lo hi c && nrm then -1 else 1) := by
  have h' : ¬ c < g := by omega
  cases hi <;> simp [highSource, source, behindWall, BC.code, BC_DIRICHLET, BC_NEUMANN, h, h'] <;>
    omega

theorem source_range {n g c : Int} {lo hi : BC} (hg : 0 < g) (hn : g ≤ n) (h0 : 0 ≤ c)
    (h1 : c < n + 2 * g) : g ≤ source n g lo hi c ∧ source n g lo hi c < n + g := by
  unfold source
  split
  · cases lo <;> simp only <;> omega
  · split
    · cases hi <;> simp only <;> omega
    · omega

theorem source_interior {n g c : Int} {lo hi : BC} (h0 : g ≤ c) (h1 : c < n + g) :
    source n g lo hi c = c := by
  unfold source
  rw [if_neg (by omega), if_neg (by omega)]

theorem cross_interior {n g c : Int} {lo hi : BC} {nrm : Bool} {x : α} (h0 : g ≤ c)
    (h1 : c < n + g) : cross n g lo hi nrm c x = x := by
  have h2 : ¬ c < g := by omega
  have h3 : ¬ n + g ≤ c := by omega
  simp [cross, isGhost, h2, h3]

/-- Effect of the two faces of the x axis. -/
theorem xdir {cells : Cell → Prop} {mhd : Bool} {P : Grid} {U : Nat} {lo hi : BC}
    (hlo : P.boundary_type_xmin = lo.code) (hhi : P.boundary_type_xmax = hi.code)
    (hg : 0 < P.ghostWidth) (hn : P.ghostWidth ≤ P.nx)
    (hc : ∀ c, cells c → 0 ≤ c.i ∧ c.i < P.nx + 2 * P.ghostWidth) (m : Addr → α) :
    (∀ c v, cells c → v < P.nbvar →
      faceFx mhd P U cells .xmax (faceFx mhd P U cells .xmin m) (c.at U v) =
        cross P.nx P.ghostWidth lo hi (normalTo 0 mhd v) c.i
          (m (({ c with i := source P.nx P.ghostWidth lo hi c.i } : Cell).at U v))) ∧
    (∀ a : Addr, ¬ (a.arr = U ∧ cells a.cell ∧ a.v < P.nbvar) →
      faceFx mhd P U cells .xmax (faceFx mhd P U cells .xmin m) a = m a) := by
  constructor
  · intro c v h hv
    obtain ⟨h0, h1⟩ := hc c h
    have hs := source_range (lo := lo) (hi := hi) hg hn h0 h1
    simp only [faceFx, hlo, hhi, isNormalX_eq]
    by_cases hl : c.i < P.ghostWidth
    · have hh : ¬ P.nx + P.ghostWidth ≤ c.i := by omega
      obtain ⟨e1, e2⟩ | e := low_spec (n := P.nx) (lo := lo) (hi := hi)
        (nrm := normalTo 0 mhd v) hl
      swap
      · omega
      rw [faceEffect, if_neg (fun e => hh e.2.1.2), faceEffect, if_pos ⟨rfl, ⟨h, hl⟩, hv⟩]
      simp only [Cell.at, Addr.cell]
      rw [e1, e2]
      simp [cross, isGhost, hl, hh]
    · by_cases hh : P.nx + P.ghostWidth ≤ c.i
      · obtain ⟨e1, e2⟩ := high_spec (lo := lo) (hi := hi) (nrm := normalTo 0 mhd v)
          (show 0 ≤ P.nx by omega) hh
        rw [faceEffect, if_pos ⟨rfl, ⟨h, hh⟩, hv⟩, faceEffect, if_neg]
        · simp only [Cell.at, Addr.cell]
          rw [e1, e2]
          simp [cross, isGhost, hl, hh]
        · rintro ⟨-, ⟨-, e⟩, -⟩
          simp only [Cell.at, Addr.cell] at e
          rw [e1] at e; omega
      · rw [faceEffect, if_neg (fun e => hh e.2.1.2), faceEffect, if_neg (fun e => hl e.2.1.2),
          source_interior (by omega) (by omega), cross_interior (by omega) (by omega)]
  · intro a h
    simp only [faceFx]
    rw [faceEffect, if_neg (fun e => h ⟨e.1, e.2.1.1, e.2.2⟩), faceEffect,
      if_neg (fun e => h ⟨e.1, e.2.1.1, e.2.2⟩)]

/-- Effect of the two faces of the y axis. -/
theorem ydir {cells : Cell → Prop} {mhd : Bool} {P : Grid} {U : Nat} {lo hi : BC}
    (hlo : P.boundary_type_ymin = lo.code) (hhi : P.boundary_type_ymax = hi.code)
    (hg : 0 < P.ghostWidth) (hn : P.ghostWidth ≤ P.ny)
    (hc : ∀ c, cells c → 0 ≤ c.j ∧ c.j < P.ny + 2 * P.ghostWidth) (m : Addr → α) :
    (∀ c v, cells c → v < P.nbvar →
      faceFx mhd P U cells .ymax (faceFx mhd P U cells .ymin m) (c.at U v) =
        cross P.ny P.ghostWidth lo hi (normalTo 1 mhd v) c.j
          (m (({ c with j := source P.ny P.ghostWidth lo hi c.j } : Cell).at U v))) ∧
    (∀ a : Addr, ¬ (a.arr = U ∧ cells a.cell ∧ a.v < P.nbvar) →
      faceFx mhd P U cells .ymax (faceFx mhd P U cells .ymin m) a = m a) := by
  constructor
  · intro c v h hv
    obtain ⟨h0, h1⟩ := hc c h
    have hs := source_range (lo := lo) (hi := hi) hg hn h0 h1
    simp only [faceFx, hlo, hhi, isNormalY_eq]
    by_cases hl : c.j < P.ghostWidth
    · have hh : ¬ P.ny + P.ghostWidth ≤ c.j := by omega
      obtain ⟨e1, e2⟩ | e := low_spec (n := P.ny) (lo := lo) (hi := hi)
        (nrm := normalTo 1 mhd v) hl
      swap
      · omega
      rw [faceEffect, if_neg (fun e => hh e.2.1.2), faceEffect, if_pos ⟨rfl, ⟨h, hl⟩, hv⟩]
      simp only [Cell.at, Addr.cell]
      rw [e1, e2]
      simp [cross, isGhost, hl, hh]
    · by_cases hh : P.ny + P.ghostWidth ≤ c.j
      · obtain ⟨e1, e2⟩ := high_spec (lo := lo) (hi := hi) (nrm := normalTo 1 mhd v)
          (show 0 ≤ P.ny by omega) hh
        rw [faceEffect, if_pos ⟨rfl, ⟨h, hh⟩, hv⟩, faceEffect, if_neg]
        · simp only [Cell.at, Addr.cell]
          rw [e1, e2]
          simp [cross, isGhost, hl, hh]
        · rintro ⟨-, ⟨-, e⟩, -⟩
          simp only [Cell.at, Addr.cell] at e
          rw [e1] at e; omega
      · rw [faceEffect, if_neg (fun e => hh e.2.1.2), faceEffect, if_neg (fun e => hl e.2.1.2),
          source_interior (by omega) (by omega), cross_interior (by omega) (by omega)]
  · intro a h
    simp only [faceFx]
    rw [faceEffect, if_neg (fun e => h ⟨e.1, e.2.1.1, e.2.2⟩), faceEffect,
      if_neg (fun e => h ⟨e.1, e.2.1.1, e.2.2⟩)]

/-- Effect of the two faces of the z axis. -/
theorem zdir {cells : Cell → Prop} {mhd : Bool} {P : Grid} {U : Nat} {lo hi : BC}
    (hlo : P.boundary_type_zmin = lo.code) (hhi : P.boundary_type_zmax = hi.code)
    (hg : 0 < P.ghostWidth) (hn : P.ghostWidth ≤ P.nz)
    (hc : ∀ c, cells c → 0 ≤ c.k ∧ c.k < P.nz + 2 * P.ghostWidth) (m : Addr → α) :
    (∀ c v, cells c → v < P.nbvar →
      faceFx mhd P U cells .zmax (faceFx mhd P U cells .zmin m) (c.at U v) =
        cross P.nz P.ghostWidth lo hi (normalTo 2 mhd v) c.k
          (m (({ c with k := source P.nz P.ghostWidth lo hi c.k } : Cell).at U v))) ∧
    (∀ a : Addr, ¬ (a.arr = U ∧ cells a.cell ∧ a.v < P.nbvar) →
      faceFx mhd P U cells .zmax (faceFx mhd P U cells .zmin m) a = m a) := by
  constructor
  · intro c v h hv
    obtain ⟨h0, h1⟩ := hc c h
    have hs := source_range (lo := lo) (hi := hi) hg hn h0 h1
    simp only [faceFx, hlo, hhi, isNormalZ_eq]
    by_cases hl : c.k < P.ghostWidth
    · have hh : ¬ P.nz + P.ghostWidth ≤ c.k := by omega
      obtain ⟨e1, e2⟩ | e := low_spec (n := P.nz) (lo := lo) (hi := hi)
        (nrm := normalTo 2 mhd v) hl
      swap
      · omega
      rw [faceEffect, if_neg (fun e => hh e.2.1.2), faceEffect, if_pos ⟨rfl, ⟨h, hl⟩, hv⟩]
      simp only [Cell.at, Addr.cell]
      rw [e1, e2]
      simp [cross, isGhost, hl, hh]
    · by_cases hh : P.nz + P.ghostWidth ≤ c.k
      · obtain ⟨e1, e2⟩ := high_spec (lo := lo) (hi := hi) (nrm := normalTo 2 mhd v)
          (show 0 ≤ P.nz by omega) hh
        rw [faceEffect, if_pos ⟨rfl, ⟨h, hh⟩, hv⟩, faceEffect, if_neg]
        · simp only [Cell.at, Addr.cell]
          rw [e1, e2]
          simp [cross, isGhost, hl, hh]
        · rintro ⟨-, ⟨-, e⟩, -⟩
          simp only [Cell.at, Addr.cell] at e
          rw [e1] at e; omega
      · rw [faceEffect, if_neg (fun e => hh e.2.1.2), faceEffect, if_neg (fun e => hl e.2.1.2),
          source_interior (by omega) (by omega), cross_interior (by omega) (by omega)]
  · intro a h
    simp only [faceFx]
    rw [faceEffect, if_neg (fun e => h ⟨e.1, e.2.1.1, e.2.2⟩), faceEffect,
      if_neg (fun e => h ⟨e.1, e.2.1.1, e.2.2⟩)]

/-! ### All faces -/

theorem cell2_iff (P : Grid) (U : Nat) (a : Addr) :
    P.alloc2 U a ↔ (a.arr = U ∧ P.cell2 a.cell ∧ a.v < P.nbvar) := by
  simp only [Grid.alloc2, Grid.cell2, Addr.cell]; tauto

theorem cell3_iff (P : Grid) (U : Nat) (a : Addr) :
    P.alloc3 U a ↔ (a.arr = U ∧ P.cell3 a.cell ∧ a.v < P.nbvar) := by
  simp only [Grid.alloc3, Grid.cell3, Addr.cell]; tauto

theorem fill2 (mhd : Bool) (P : Grid) (U : Nat) (hw : P.Wide2) {xlo xhi ylo yhi : BC}
    (hxlo : P.boundary_type_xmin = xlo.code) (hxhi : P.boundary_type_xmax = xhi.code)
    (hylo : P.boundary_type_ymin = ylo.code) (hyhi : P.boundary_type_ymax = yhi.code)
    (m : Addr → α) :
    ∃ m', YieldsAll (P.alloc2 U) (makeBoundariesSerial2D mhd P U) m m' ∧
      (∀ c v, P.cell2 c → v < P.nbvar → m' (c.at U v) =
        cross P.ny P.ghostWidth ylo yhi (normalTo 1 mhd v) c.j
          (cross P.nx P.ghostWidth xlo xhi (normalTo 0 mhd v) c.i
            (m ((⟨source P.nx P.ghostWidth xlo xhi c.i, source P.ny P.ghostWidth ylo yhi c.j,
              c.k⟩ : Cell).at U v)))) ∧
      (∀ a, ¬ P.alloc2 U a → m' a = m a) := by
  have hi := P.isize_eq
  have hj := P.jsize_eq
  have hcx : ∀ c, P.cell2 c → 0 ≤ c.i ∧ c.i < P.nx + 2 * P.ghostWidth := by
    rintro c ⟨a, b, -⟩; omega
  have hcy : ∀ c, P.cell2 c → 0 ≤ c.j ∧ c.j < P.ny + 2 * P.ghostWidth := by
    rintro c ⟨-, -, a, b, -⟩; omega
  obtain ⟨x1, x2⟩ := xdir (mhd := mhd) (U := U) hxlo hxhi hw.g hw.x hcx m
  obtain ⟨y1, y2⟩ := ydir (mhd := mhd) (U := U) hylo hyhi hw.g hw.y hcy
    (faceFx mhd P U P.cell2 .xmax (faceFx mhd P U P.cell2 .xmin m))
  refine ⟨_, .cons (xmin2_yields mhd P U hw m) (.cons (xmax2_yields mhd P U hw _)
    (.cons (ymin2_yields mhd P U hw _) (.cons (ymax2_yields mhd P U hw _) (.nil _)))), ?_, ?_⟩
  · intro c v hc hv
    rw [y1 c v hc hv, x1 _ v _ hv]
    have := source_range (lo := ylo) (hi := yhi) hw.g hw.y (hcy c hc).1 (hcy c hc).2
    have hg := hw.g
    obtain ⟨a, b, d, e, f⟩ := hc
    exact ⟨a, b, by simp only; omega, by simp only; omega, f⟩
  · intro a ha
    rw [cell2_iff] at ha
    rw [y2 a ha, x2 a ha]

theorem fill3 (mhd : Bool) (P : Grid) (U : Nat) (hw : P.Wide3) {xlo xhi ylo yhi zlo zhi : BC}
    (hxlo : P.boundary_type_xmin = xlo.code) (hxhi : P.boundary_type_xmax = xhi.code)
    (hylo : P.boundary_type_ymin = ylo.code) (hyhi : P.boundary_type_ymax = yhi.code)
    (hzlo : P.boundary_type_zmin = zlo.code) (hzhi : P.boundary_type_zmax = zhi.code)
    (m : Addr → α) :
    ∃ m', YieldsAll (P.alloc3 U) (makeBoundariesSerial3D mhd P U) m m' ∧
      (∀ c v, P.cell3 c → v < P.nbvar → m' (c.at U v) =
        cross P.nz P.ghostWidth zlo zhi (normalTo 2 mhd v) c.k
        (cross P.ny P.ghostWidth ylo yhi (normalTo 1 mhd v) c.j
          (cross P.nx P.ghostWidth xlo xhi (normalTo 0 mhd v) c.i
            (m ((⟨source P.nx P.ghostWidth xlo xhi c.i, source P.ny P.ghostWidth ylo yhi c.j,
              source P.nz P.ghostWidth zlo zhi c.k⟩ : Cell).at U v))))) ∧
      (∀ a, ¬ P.alloc3 U a → m' a = m a) := by
  have hi := P.isize_eq
  have hj := P.jsize_eq
  have hk := P.ksize_eq
  have hcx : ∀ c, P.cell3 c → 0 ≤ c.i ∧ c.i < P.nx + 2 * P.ghostWidth := by
    rintro c ⟨a, b, -⟩; omega
  have hcy : ∀ c, P.cell3 c → 0 ≤ c.j ∧ c.j < P.ny + 2 * P.ghostWidth := by
    rintro c ⟨-, -, a, b, -⟩; omega
  have hcz : ∀ c, P.cell3 c → 0 ≤ c.k ∧ c.k < P.nz + 2 * P.ghostWidth := by
    rintro c ⟨-, -, -, -, a, b⟩; omega
  obtain ⟨x1, x2⟩ := xdir (mhd := mhd) (U := U) hxlo hxhi hw.g hw.x hcx m
  obtain ⟨y1, y2⟩ := ydir (mhd := mhd) (U := U) hylo hyhi hw.g hw.y hcy
    (faceFx mhd P U P.cell3 .xmax (faceFx mhd P U P.cell3 .xmin m))
  obtain ⟨z1, z2⟩ := zdir (mhd := mhd) (U := U) hzlo hzhi hw.g hw.z hcz
    (faceFx mhd P U P.cell3 .ymax (faceFx mhd P U P.cell3 .ymin
      (faceFx mhd P U P.cell3 .xmax (faceFx mhd P U P.cell3 .xmin m))))
  refine ⟨_, .cons (xmin3_yields mhd P U hw m) (.cons (xmax3_yields mhd P U hw _)
    (.cons (ymin3_yields mhd P U hw _) (.cons (ymax3_yields mhd P U hw _)
    (.cons (zmin3_yields mhd P U hw _) (.cons (zmax3_yields mhd P U hw _) (.nil _)))))), ?_, ?_⟩
  · intro c v hc hv
    have sy := source_range (lo := ylo) (hi := yhi) hw.g hw.y (hcy c hc).1 (hcy c hc).2
    have sz := source_range (lo := zlo) (hi := zhi) hw.g hw.z (hcz c hc).1 (hcz c hc).2
    have hg := hw.g
    rw [z1 c v hc hv]
    obtain ⟨a, b, d, e, f, f'⟩ := hc
    rw [y1 _ v _ hv, x1 _ v _ hv]
    · exact ⟨a, b, by simp only; omega, by simp only; omega, by simp only; omega,
        by simp only; omega⟩
    · exact ⟨a, b, d, e, by simp only; omega, by simp only; omega⟩
  · intro a ha
    rw [cell3_iff] at ha
    rw [z2 a ha, y2 a ha, x2 a ha]

end Verif
