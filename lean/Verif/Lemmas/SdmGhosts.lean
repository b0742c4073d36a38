import Verif.Lemmas.SdmFaces

/-! Helper lemmas: the ghost fill of the spectral difference solver. -/

namespace Verif.Sdm

open Verif K Function Spec

variable {α : Type} [ROps α]

/-- The ghost cells of a face. -/
def region (d3 : Bool) (P : Grid) (face : Face) (c : Cell) : Prop :=
  P.box d3 c ∧ if isLow face then coord (dirOf face) c < P.ghostWidth
    else interior P (dirOf face) + P.ghostWidth ≤ coord (dirOf face) c

/-- No negative extents. -/
structure PosAll (d3 : Bool) (P : Grid) : Prop where
  g : 0 < P.ghostWidth
  n : ∀ d, d3 = true ∨ d ≠ .z → 0 ≤ interior P d

theorem size_eq (P : Grid) (d : Dir) : size P d = interior P d + 2 * P.ghostWidth := by
  cases d
  · exact P.isize_eq
  · exact P.jsize_eq
  · exact P.ksize_eq

theorem box_cell2 (P : Grid) : P.box false = P.cell2 := by
  funext c; simp [Grid.box, Grid.cell2]
theorem box_cell3 (P : Grid) : P.box true = P.cell3 := by
  funext c; simp [Grid.box, Grid.cell3]

theorem faceDec {d3 : Bool} {P : Grid} (h : PosAll d3 P) (face : Face)
    (hf : d3 = true ∨ dirOf face ≠ .z) :
    ∃ dec, FaceDec (α := α) (faceItems d3 P)
      (fun act t => if d3 then faceBody3 P face act t else faceBody2 P face act t) (region d3 P face)
      dec := by
  cases d3
  · have hp : P.Pos2 := ⟨h.g, h.n .x (.inr (by decide)), h.n .y (.inr (by decide))⟩
    unfold region
    rw [box_cell2]
    cases face
    · exact xmin2_dec P hp
    · exact xmax2_dec P hp
    · exact ymin2_dec P hp
    · exact ymax2_dec P hp
    · simp [dirOf] at hf
    · simp [dirOf] at hf
  · have hp : P.Pos3 := ⟨⟨h.g, h.n .x (.inr (by decide)), h.n .y (.inr (by decide))⟩, h.n .z (.inl rfl)⟩
    unfold region
    rw [box_cell3]
    cases face
    · exact xmin3_dec P hp
    · exact xmax3_dec P hp
    · exact ymin3_dec P hp
    · exact ymax3_dec P hp
    · exact zmin3_dec P hp
    · exact zmax3_dec P hp

@[simp] theorem coord_setCoord (d : Dir) (c : Cell) (x : Int) : coord d (setCoord d c x) = x := by
  cases d <;> rfl
@[simp] theorem setCoord_coord (d : Dir) (c : Cell) : setCoord d c (coord d c) = c := by cases d <;> rfl
@[simp] theorem setCoord_setCoord (d : Dir) (c : Cell) (x y : Int) :
    setCoord d (setCoord d c x) y = setCoord d c y := by cases d <;> rfl

theorem box_setCoord {d3 : Bool} {P : Grid} {d : Dir} (hd : d3 = true ∨ d ≠ .z) {c : Cell}
    (h : P.box d3 c) {x : Int} (h0 : 0 ≤ x) (h1 : x < size P d) : P.box d3 (setCoord d c x) := by
  obtain ⟨a1, a2, a3, a4, a5⟩ := h
  cases d
  · exact ⟨h0, h1, a3, a4, a5⟩
  · exact ⟨a1, a2, h0, h1, a5⟩
  · refine ⟨a1, a2, a3, a4, ?_⟩
    cases d3
    · simp at hd
    · exact ⟨h0, h1⟩

/-- The value a ghost cell receives. -/
def ghostVal (M : Scheme α) (P : Grid) (U : ℕ) (face : Face) (m : Addr → α) (c : Cell) (p : Pt)
    (iv : ℕ) : α :=
  let d := dirOf face
  let s := ghostSource P face (coord d c) (isNormal d iv)
  if boundaryType P face = BC_DIRICHLET then
    m (M.sol U (setCoord d c s.1) (p.set d (M.N - 1 - p.get d)) iv) * ROps.lit s.2
  else m (M.sol U (setCoord d c s.1) p iv)

/-- The sources of a face lie in the array and outside the layer that is filled. -/
theorem ghostSource_ok {d3 : Bool} {P : Grid} {face : Face} (h : PosAll d3 P)
    (hf : d3 = true ∨ dirOf face ≠ .z)
    (hok : Fits (boundaryType P face) (interior P (dirOf face)) P.ghostWidth) {c : Cell}
    (hc : region d3 P face c) (nrm : Bool) :
    P.box d3 (setCoord (dirOf face) c (ghostSource P face (coord (dirOf face) c) nrm).1) ∧
    ¬ region d3 P face (setCoord (dirOf face) c (ghostSource P face (coord (dirOf face) c) nrm).1) := by
  obtain ⟨hb, hr⟩ := hc
  have hcc := box_coord hf hb
  have hs := size_eq P (dirOf face)
  have hn := h.n _ hf
  have hg := h.g
  unfold ghostSource region
  rw [coord_setCoord]
  cases hl : isLow face
  · simp only [hl, Bool.false_eq_true, if_false] at hr ⊢
    have := highSource_range (nrm := nrm) hg hn hok hr (by omega)
    refine ⟨box_setCoord hf hb (by omega) (by omega), fun h => ?_⟩
    omega
  · simp only [hl, if_true] at hr ⊢
    have := lowSource_range (nrm := nrm) hg hn hok (by omega) hr
    refine ⟨box_setCoord hf hb (by omega) (by omega), fun h => ?_⟩
    omega

theorem fillGhost_exec {M : Scheme α} {P : Grid} {U : ℕ} {face : Face} (h : PosAll M.d3 P)
    (hf : M.d3 = true ∨ dirOf face ≠ .z)
    (hok : Fits (boundaryType P face) (interior P (dirOf face)) P.ghostWidth) {c : Cell}
    (hc : region M.d3 P face c) :
    (fillGhost M P U face c).FP
      (fun a => ∃ c' p iv, P.box M.d3 c' ∧ ¬ region M.d3 P face c' ∧ IsSolPt M.d3 M.N p ∧ iv < P.nbvar ∧
        a = M.sol U c' p iv)
      (fun a => ∃ p iv, IsSolPt M.d3 M.N p ∧ iv < P.nbvar ∧ a = M.sol U c p iv) (fun _ => False) ∧
    ∀ (m : Addr → α) p iv, IsSolPt M.d3 M.N p → iv < P.nbvar →
      (fillGhost M P U face c).exec m (M.sol U c p iv) = ghostVal M P U face m c p iv := by
  let blk : Pt × ℕ → K Addr α Unit := fun x =>
    if boundaryType P face = BC_DIRICHLET then
      (K.load (M.sol U (setCoord (dirOf face) c
        (ghostSource P face (coord (dirOf face) c) (isNormal (dirOf face) x.2)).1)
        (x.1.set (dirOf face) (M.N - 1 - x.1.get (dirOf face))) x.2)).bind fun y =>
      K.store (M.sol U c x.1 x.2)
        (y * ROps.lit (ghostSource P face (coord (dirOf face) c) (isNormal (dirOf face) x.2)).2)
    else
      (K.load (M.sol U (setCoord (dirOf face) c
        (ghostSource P face (coord (dirOf face) c) (isNormal (dirOf face) x.2)).1) x.1 x.2)).bind fun y =>
      K.store (M.sol U c x.1 x.2) y
  have hfill : fillGhost M P U face c = forEach (cellPts M.d3 M.N ×ˢ List.range P.nbvar) blk := rfl
  have hfp : ∀ x ∈ cellPts M.d3 M.N ×ˢ List.range P.nbvar, (blk x).FP
      (fun a => ∃ c' p iv, P.box M.d3 c' ∧ ¬ region M.d3 P face c' ∧ IsSolPt M.d3 M.N p ∧ iv < P.nbvar ∧
        a = M.sol U c' p iv) (fun a => a = M.sol U c x.1 x.2) fun _ => False := by
    rintro ⟨p, iv⟩ hx
    simp only [List.mem_product, mem_cellPts, List.mem_range] at hx
    have hk := hx.1.get_lt hf
    have hs := ghostSource_ok h hf hok hc (isNormal (dirOf face) iv)
    simp only [blk]
    split_ifs
    · exact FP.bind (FP.load ⟨_, _, _, hs.1, hs.2, hx.1.set hf (by omega), hx.2, rfl⟩) fun _ =>
        FP.store rfl
    · exact FP.bind (FP.load ⟨_, _, _, hs.1, hs.2, hx.1, hx.2, rfl⟩) fun _ => FP.store rfl
  rw [hfill]
  refine ⟨forEach_fp fun x hx => (hfp x hx).mono (fun _ h => h) ?_ fun _ h => h, ?_⟩
  · rintro a rfl
    obtain ⟨h1, h2⟩ := List.mem_product.1 hx
    exact ⟨x.1, x.2, mem_cellPts.1 h1, List.mem_range.1 h2, rfl⟩
  · intro m p iv hp hv
    rw [forEach_exec (i := (p, iv)) (nodup_prod (nodup_cellPts _ _) List.nodup_range) hfp ?_ m
      (by simp [List.mem_product, mem_cellPts, hp, hv]) rfl]
    · simp only [blk, ghostVal]
      split_ifs
      · rw [(Reads.load _ m).exec_bind]; exact Function.update_self _ _ _
      · rw [(Reads.load _ m).exec_bind]; exact Function.update_self _ _ _
    · rintro ⟨p, iv⟩ hi ⟨p', iv'⟩ hj hij a rfl
      simp only [List.mem_product, mem_cellPts, List.mem_range] at hi hj
      refine ⟨?_, fun e => hij ?_⟩
      · rintro ⟨c', p', iv', _, h2, h3, _, e⟩
        exact h2 ((sol_inj hi.1 h3 e).2.1 ▸ hc)
      · obtain ⟨-, -, h3, h4⟩ := sol_inj hi.1 hj.1 e
        exact Prod.ext h3 h4

theorem makeBoundary_yields {M : Scheme α} {P : Grid} {U : ℕ} {face : Face} (h : PosAll M.d3 P)
    (hf : M.d3 = true ∨ dirOf face ≠ .z)
    (hok : Fits (boundaryType P face) (interior P (dirOf face)) P.ghostWidth) {ti : Mood.TimeInt}
    (hU : solArray ti U) (m : Addr → α) :
    ∃ m', (makeBoundary M P U face).Yields (sdmDom M.d3 M.N P ti) m m' ∧
      (∀ c p iv, region M.d3 P face c → IsSolPt M.d3 M.N p → iv < P.nbvar →
        m' (M.sol U c p iv) = ghostVal M P U face m c p iv) ∧
      (∀ a, ¬ (a.arr = U ∧ region M.d3 P face a.cell) → m' a = m a) := by
  classical
  obtain ⟨dec, hdec⟩ := faceDec (α := α) h face hf
  let m' : Addr → α := fun a => if a.arr = U ∧ region M.d3 P face a.cell then
    (fillGhost M P U face a.cell).exec m a else m a
  refine ⟨m', ?_, ?_, fun a ha => if_neg ha⟩
  · refine Launch.yields_of_footprint _ _
      (fun t a => region M.d3 P face (dec t) ∧ ∃ c' p iv, P.box M.d3 c' ∧ ¬ region M.d3 P face c' ∧
        IsSolPt M.d3 M.N p ∧ iv < P.nbvar ∧ a = M.sol U c' p iv)
      (fun t a => region M.d3 P face (dec t) ∧
        ∃ p iv, IsSolPt M.d3 M.N p ∧ iv < P.nbvar ∧ a = M.sol U (dec t) p iv) m m' ?_ ?_ ?_ ?_ ?_ ?_ ?_
    · intro t _
      by_cases hr : region M.d3 P face (dec t)
      · show (if M.d3 then faceBody3 P face (fillGhost M P U face) t
          else faceBody2 P face (fillGhost M P U face) t : K Addr α Unit).FP _ _ _
        have := hdec.yes (fillGhost M P U face) t hr
        rw [this]
        exact (fillGhost_exec h hf hok hr).1.mono (fun a ha => ⟨hr, ha⟩) (fun a ha => ⟨hr, ha⟩)
          fun _ h => h
      · show (if M.d3 then faceBody3 P face (fillGhost M P U face) t
          else faceBody2 P face (fillGhost M P U face) t : K Addr α Unit).FP _ _ _
        have := hdec.no (fillGhost M P U face) t hr
        rw [this]
        exact FP.ret
    · rintro t a _ ⟨_, c', p, iv, h1, _, h3, h4, rfl⟩
      exact sol_dom hU h1 h3 h4
    · rintro t a _ ⟨h1, p, iv, h3, h4, rfl⟩
      exact sol_dom hU h1.1 h3 h4
    · rintro s t a _ _ hst ⟨h1, p, iv, h2, _, rfl⟩ ⟨h1', p', iv', h2', _, e⟩
      exact hst (hdec.inj s t h1 h1' (sol_inj h2 h2' e).2.1)
    · rintro s t a _ _ hst ⟨h1, p, iv, h2, _, rfl⟩ ⟨_, c', p', iv', _, h1', h2', _, e⟩
      exact h1' ((sol_inj h2 h2' e).2.1 ▸ h1)
    · rintro t a _ ⟨hr, p, iv, h2, h3, rfl⟩
      show m' _ = (if M.d3 then faceBody3 P face (fillGhost M P U face) t
          else faceBody2 P face (fillGhost M P U face) t : K Addr α Unit).exec m _
      have := hdec.yes (fillGhost M P U face) t hr
      rw [this]
      exact if_pos ⟨rfl, hr⟩
    · intro a ha
      simp only [m']
      split_ifs with hh
      · refine exec_frame (fillGhost_exec h hf hok hh.2).1 m ?_ fun e => e
        rintro ⟨p, iv, h2, h3, e⟩
        obtain ⟨t, ht, et⟩ := hdec.surj _ hh.2
        exact ha t ht ⟨et ▸ hh.2, p, iv, h2, h3, et.symm ▸ e⟩
      · rfl
  · intro c p iv hr hp hv
    show m' _ = _
    simp only [m']
    rw [if_pos ⟨rfl, hr⟩]
    exact (fillGhost_exec h hf hok hr).2 m p iv hp hv

/-! ### One axis -/

def lowFace : Dir → Face
  | .x => .xmin
  | .y => .ymin
  | .z => .zmin
def highFace : Dir → Face
  | .x => .xmax
  | .y => .ymax
  | .z => .zmax

@[simp] theorem dirOf_low (d : Dir) : dirOf (lowFace d) = d := by cases d <;> rfl
@[simp] theorem dirOf_high (d : Dir) : dirOf (highFace d) = d := by cases d <;> rfl
@[simp] theorem isLow_low (d : Dir) : isLow (lowFace d) = true := by cases d <;> rfl
@[simp] theorem isLow_high (d : Dir) : isLow (highFace d) = false := by cases d <;> rfl

theorem axis_yields {M : Scheme α} {P : Grid} {U : ℕ} {d : Dir} (hd : M.d3 = true ∨ d ≠ .z)
    (hg : 0 < P.ghostWidth) (hn : ∀ d, M.d3 = true ∨ d ≠ .z → P.ghostWidth ≤ interior P d) {lo hi : BC}
    (hlo : boundaryType P (lowFace d) = lo.code) (hhi : boundaryType P (highFace d) = hi.code)
    {ti : Mood.TimeInt} (hU : solArray ti U) (m : Addr → α) :
    ∃ m', YieldsAll (sdmDom M.d3 M.N P ti)
        [makeBoundary M P U (lowFace d), makeBoundary M P U (highFace d)] m m' ∧
      (∀ c p iv, P.box M.d3 c → IsSolPt M.d3 M.N p → iv < P.nbvar →
        m' (M.sol U c p iv) = crossPt (interior P d) P.ghostWidth lo hi (isNormal d iv) (coord d c)
          (m (M.sol U (setCoord d c (source (interior P d) P.ghostWidth lo hi (coord d c)))
            (p.set d (crossIdx M.N (interior P d) P.ghostWidth lo hi (coord d c) (p.get d))) iv))) ∧
      (∀ a, a.arr ≠ U → m' a = m a) := by
  have hpos : PosAll M.d3 P := ⟨hg, fun d hd => by have := hn d hd; omega⟩
  have hnd := hn d hd
  obtain ⟨m1, y1, e1, f1⟩ := makeBoundary_yields (face := lowFace d) hpos (by simpa using hd)
    (.inr (.inr (by simpa using hnd))) hU m
  obtain ⟨m2, y2, e2, f2⟩ := makeBoundary_yields (face := highFace d) hpos (by simpa using hd)
    (.inr (.inr (by simpa using hnd))) hU m1
  refine ⟨m2, .cons y1 (.cons y2 (.nil _)), ?_, fun a ha => ?_⟩
  · intro c p iv hc hp hv
    have hcc := box_coord hd hc
    have hs := size_eq P d
    by_cases hl : coord d c < P.ghostWidth
    · have hh : ¬ interior P d + P.ghostWidth ≤ coord d c := by omega
      have r1 : region M.d3 P (lowFace d) c := ⟨hc, by simpa using hl⟩
      have r2 : ¬ region M.d3 P (highFace d) c := fun h => hh (by simpa using h.2)
      rw [f2 (M.sol U c p iv) fun h => r2 h.2, e1 c p iv r1 hp hv]
      obtain ⟨q1, q2⟩ | q := low_spec (n := interior P d) (lo := lo) (hi := hi)
        (nrm := isNormal d iv) hl
      swap
      · omega
      simp only [ghostVal, dirOf_low, ghostSource, isLow_low, if_true, hlo, q1, q2]
      cases lo
      · simp [BC.code, BC_DIRICHLET, crossPt, crossIdx, behindWall, hl]
      · simp [BC.code, BC_DIRICHLET, crossPt, crossIdx, behindWall, hl, hh]
      · simp [BC.code, BC_DIRICHLET, crossPt, crossIdx, behindWall, hl, hh]
    · by_cases hh : interior P d + P.ghostWidth ≤ coord d c
      · have r2 : region M.d3 P (highFace d) c := ⟨hc, by simpa using hh⟩
        obtain ⟨q1, q2⟩ := high_spec (lo := lo) (hi := hi) (nrm := isNormal d iv)
          (show 0 ≤ interior P d by omega) hh
        have hsrc := source_range (lo := lo) (hi := hi) hg hnd hcc.1 (by omega)
        have hm : ∀ p' : Pt, m1 (M.sol U (setCoord d c
            (source (interior P d) P.ghostWidth lo hi (coord d c))) p' iv) =
            m (M.sol U (setCoord d c (source (interior P d) P.ghostWidth lo hi (coord d c))) p' iv) := by
          intro p'
          refine f1 _ fun h => ?_
          have h2 : coord d (setCoord d c (source (interior P d) P.ghostWidth lo hi (coord d c)))
              < P.ghostWidth := by
            have h3 := h.2.2
            rw [isLow_low, if_pos rfl, dirOf_low] at h3
            exact h3
          rw [coord_setCoord] at h2
          omega
        rw [e2 c p iv r2 hp hv]
        simp only [ghostVal, dirOf_high, ghostSource, isLow_high, Bool.false_eq_true, if_false, hhi, q1,
          q2, hm]
        cases hi
        · simp [BC.code, BC_DIRICHLET, crossPt, crossIdx, behindWall, hh]
        · simp [BC.code, BC_DIRICHLET, crossPt, crossIdx, behindWall, hl, hh]
        · simp [BC.code, BC_DIRICHLET, crossPt, crossIdx, behindWall, hl, hh]
      · have r1 : ¬ region M.d3 P (lowFace d) c := fun h => hl (by simpa using h.2)
        have r2 : ¬ region M.d3 P (highFace d) c := fun h => hh (by simpa using h.2)
        rw [f2 (M.sol U c p iv) fun h => r2 h.2, f1 (M.sol U c p iv) fun h => r1 h.2, source_interior (by omega) (by omega)]
        simp [crossPt, crossIdx, behindWall, hl, hh]
  · rw [f2 a fun h => ha h.1, f1 a fun h => ha h.1]

end Verif.Sdm
