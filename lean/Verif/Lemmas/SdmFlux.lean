import Verif.Lemmas.SdmKernels

/-! Helper lemmas: fluxes at flux points, update. -/

namespace Verif.Sdm

open Verif K Function ROps

variable {α : Type} [ROps α]

/-! ### Update -/

omit [ROps α] in
theorem comp_ofComps [ROps α] (d3 : Bool) (f : ℕ → α) {iv : ℕ} (h : iv < hydroVars d3) :
    Mood.comp (Mood.ofComps d3 f) iv = f iv := by
  cases d3 <;> simp only [hydroVars, Bool.false_eq_true, if_false, if_true] at h
  · rcases (by omega : iv = 0 ∨ iv = 1 ∨ iv = 2 ∨ iv = 3) with rfl | rfl | rfl | rfl <;> rfl
  · rcases (by omega : iv = 0 ∨ iv = 1 ∨ iv = 2 ∨ iv = 3 ∨ iv = 4) with rfl | rfl | rfl | rfl | rfl <;>
      rfl

theorem comp_stateAt (d3 : Bool) (m : Addr → α) (addr : ℕ → Addr) {iv : ℕ} (h : iv < hydroVars d3) :
    Mood.comp (stateAt d3 m addr) iv = m (addr iv) := comp_ofComps d3 _ h

theorem updateRK_yields {M : Scheme α} {P : Grid} (h : Ready M P) {ti : Mood.TimeInt} {out A0 A1 : ℕ}
    (ho : solArray ti out) (h0 : solArray ti A0) (h1 : solArray ti A1) (dt c0 c1 c2 : α)
    (m : Addr → α) :
    ∃ m', (updateRK M P dt out A0 A1 c0 c1 c2).Yields (sdmDom M.d3 M.N P ti) m m' ∧
      (∀ c p iv, P.box M.d3 c → P.inner M.d3 c → IsSolPt M.d3 M.N p → iv < hydroVars M.d3 →
        m' (M.sol out c p iv) = combine c0 c1 c2 dt (m (M.sol A0 c p iv)) (m (M.sol A1 c p iv))
          (m (M.sol sDiv c p iv))) ∧
      (∀ c p iv, P.box M.d3 c → ¬ P.inner M.d3 c → IsSolPt M.d3 M.N p → iv < hydroVars M.d3 →
        m' (M.sol out c p iv) = m (M.sol out c p iv)) ∧
      (∀ a, a.arr ≠ out → m' a = m a) := by
  have hD : solArray ti sDiv := .inr (.inl rfl)
  let body : Cell → Pt → K Addr α Unit := fun c p =>
    if P.inner M.d3 c then
      (loadAt M.d3 (M.sol A0 c p)).bind fun q0 => (loadAt M.d3 (M.sol A1 c p)).bind fun q1 =>
      (loadAt M.d3 (M.sol sDiv c p)).bind fun q2 => storeAt M.d3 (M.sol out c p)
          (Mood.ofComps M.d3 fun iv =>
            combine c0 c1 c2 dt (Mood.comp q0 iv) (Mood.comp q1 iv) (Mood.comp q2 iv))
    else .ret ()
  have hskip : ∀ L : List Pt, ∀ c, ¬ P.inner M.d3 c → forEach L (body c) = .ret () := by
    intro L c hc
    induction L with
    | nil => rfl
    | cons p L ih =>
      show (body c p).bind (fun _ => forEach L (body c)) = _
      rw [ih]; simp only [body, if_neg hc]; rfl
  have hlaunch : updateRK M P dt out A0 A1 c0 c1 c2 =
      M.cells P fun c => forEach (cellPts M.d3 M.N) (body c) := by
    unfold updateRK
    congr 1
    funext c
    by_cases hc : P.inner M.d3 c
    · rw [if_pos hc]
      simp only [body, if_pos hc]
      rfl
    · rw [if_neg hc, hskip _ _ hc]; rfl
  rw [hlaunch]
  refine Exists.elim (blocks_yields (M := M) (P := P) (L := cellPts M.d3 M.N) (blk := body)
    (dom := sdmDom M.d3 M.N P ti) (out := out)
    (R := fun c p a => ∃ A iv, solArray ti A ∧ iv < hydroVars M.d3 ∧ a = M.sol A c p iv)
    (W := fun c p a => P.inner M.d3 c ∧ ∃ iv, iv < hydroVars M.d3 ∧ a = M.sol out c p iv) h.ne
    (nodup_cellPts _ _) m ?_ ?_ ?_ ?_) ?_
  · intro c p _ _
    simp only [body]
    split_ifs with hc
    · refine FP.bind (loadAt_fp fun iv hv => ⟨_, iv, h0, hv, rfl⟩) fun _ =>
        FP.bind (loadAt_fp fun iv hv => ⟨_, iv, h1, hv, rfl⟩) fun _ =>
        FP.bind (loadAt_fp fun iv hv => ⟨_, iv, hD, hv, rfl⟩) fun _ =>
        storeAt_fp fun iv hv => ⟨hc, iv, hv, rfl⟩
    · exact FP.ret
  · rintro c p a hc hp ⟨A, iv, hA, hv, rfl⟩
    exact ⟨sol_dom hA hc (mem_cellPts.1 hp) (h.nv ▸ hv), fun _ => rfl⟩
  · rintro c p a hc hp ⟨-, iv, hv, rfl⟩
    exact ⟨sol_dom ho hc (mem_cellPts.1 hp) (h.nv ▸ hv), rfl, rfl⟩
  · rintro c - p hp p' hp' hne a ⟨-, iv, hv, rfl⟩
    refine ⟨?_, ?_⟩
    · rintro ⟨A, iv', _, _, e⟩
      exact hne (sol_inj (mem_cellPts.1 hp) (mem_cellPts.1 hp') e).2.2.1
    · rintro ⟨-, iv', _, e⟩
      exact hne (sol_inj (mem_cellPts.1 hp) (mem_cellPts.1 hp') e).2.2.1
  · rintro m' ⟨y, e1, e2⟩
    refine ⟨m', y, fun c p iv hc hi hp hv => ?_, fun c p iv hc hi hp hv => ?_, fun a ha => ?_⟩
    · rw [e1 c p _ hc (mem_cellPts.2 hp) ⟨hi, iv, hv, rfl⟩]
      simp only [body, if_pos hi]
      rw [(loadAt_reads _ _ m).exec_bind, (loadAt_reads _ _ m).exec_bind,
        (loadAt_reads _ _ m).exec_bind]
      rw [storeAt_exec (fun j k _ _ e => (sol_inj hp hp e).2.2.2) _ m hv, comp_ofComps _ _ hv,
        comp_stateAt _ _ _ hv, comp_stateAt _ _ _ hv, comp_stateAt _ _ _ hv]
    · refine e2 _ ?_
      rintro c' p' hc' hp' ⟨hi', iv', _, e⟩
      have := (sol_inj hp (mem_cellPts.1 hp') e).2.1
      exact hi (this ▸ hi')
    · refine e2 a ?_
      rintro c' p' _ _ ⟨_, iv', _, e⟩
      exact ha (by rw [e]; rfl)

/-! ### Fluxes -/

/-- Flux at flux point `p` of cell `c`, computed from the states `q` at flux points. -/
def fluxFrom (M : Scheme α) (S : Settings α) (P : Grid) (junk : Cell → Pt → HState α) (d : Dir)
    (q : Cell → Pt → HState α) (c : Cell) (p : Pt) : HState α :=
  if p.get d = 0 then
    if 0 < coord d c then
      riemannFlux M.d3 S (junk c (p.set d 0)) d (q (c.down d) (p.set d M.N)) (q c p)
    else q c p
  else if p.get d = M.N then
    if coord d c + 1 < size P d then
      riemannFlux M.d3 S (junk (c.up d) (p.set d 0)) d (q c p) (q (c.up d) (p.set d 0))
    else q c p
  else eulerFluxOf M.d3 S d (q c p)

@[simp] theorem up_down (d : Dir) (c : Cell) : (c.up d).down d = c := by
  cases d <;> simp [Cell.up, Cell.down]
@[simp] theorem down_up (d : Dir) (c : Cell) : (c.down d).up d = c := by
  cases d <;> simp [Cell.up, Cell.down]
@[simp] theorem coord_up (d : Dir) (c : Cell) : coord d (c.up d) = coord d c + 1 := by cases d <;> rfl
@[simp] theorem coord_down (d : Dir) (c : Cell) : coord d (c.down d) = coord d c - 1 := by
  cases d <;> rfl

theorem box_coord {d3 : Bool} {P : Grid} {c : Cell} {d : Dir} (hd : d3 = true ∨ d ≠ .z)
    (h : P.box d3 c) : 0 ≤ coord d c ∧ coord d c < size P d := by
  obtain ⟨h1, h2, h3, h4, h5⟩ := h
  cases d
  · exact ⟨h1, h2⟩
  · exact ⟨h3, h4⟩
  · cases d3
    · simp at hd
    · exact h5

theorem box_down {d3 : Bool} {P : Grid} {c : Cell} {d : Dir} (hd : d3 = true ∨ d ≠ .z)
    (h : P.box d3 c) (h0 : 0 < coord d c) : P.box d3 (c.down d) := by
  obtain ⟨h1, h2, h3, h4, h5⟩ := h
  cases d <;> cases d3 <;> simp [coord, Cell.down, Grid.box] at * <;> omega

theorem box_up {d3 : Bool} {P : Grid} {c : Cell} {d : Dir} (hd : d3 = true ∨ d ≠ .z)
    (h : P.box d3 c) (h0 : coord d c + 1 < size P d) : P.box d3 (c.up d) := by
  obtain ⟨h1, h2, h3, h4, h5⟩ := h
  cases d <;> cases d3 <;> simp [coord, size, Cell.up, Grid.box] at * <;> omega

/-- Work item of the flux functor: the part inside the cell. -/
def inPart (M : Scheme α) (S : Settings α) (d : Dir) (c : Cell) (x : Pt × ℕ) : K Addr α Unit :=
  (loadAt M.d3 (M.flx d c (x.1.set d x.2))).bind fun q =>
    storeAt M.d3 (M.flx d c (x.1.set d x.2)) (eulerFluxOf M.d3 S d q)

/-- The part at the lower face. -/
def facePart (M : Scheme α) (S : Settings α) (junk : Cell → Pt → HState α) (d : Dir) (c : Cell)
    (p : Pt) : K Addr α Unit :=
  (loadAt M.d3 (M.flx d (c.down d) (p.set d M.N))).bind fun qL =>
    (loadAt M.d3 (M.flx d c (p.set d 0))).bind fun qR =>
    (storeAt M.d3 (M.flx d (c.down d) (p.set d M.N)) (riemannFlux M.d3 S (junk c p) d qL qR)).bind
      fun _ => storeAt M.d3 (M.flx d c (p.set d 0)) (riemannFlux M.d3 S (junk c p) d qL qR)

/-- What the part inside touches. -/
def InLoc (M : Scheme α) (d : Dir) (c : Cell) (x : Pt × ℕ) (a : Addr) : Prop :=
  ∃ iv, iv < hydroVars M.d3 ∧ a = M.flx d c (x.1.set d x.2) iv

/-- What the part at the face touches. -/
def FaceLoc (M : Scheme α) (d : Dir) (c : Cell) (p : Pt) (a : Addr) : Prop :=
  ∃ iv, iv < hydroVars M.d3 ∧ (a = M.flx d (c.down d) (p.set d M.N) iv ∨ a = M.flx d c (p.set d 0) iv)

theorem inPart_fp (M : Scheme α) (S : Settings α) (d : Dir) (c : Cell) (x : Pt × ℕ) :
    (inPart M S d c x).FP (InLoc M d c x) (InLoc M d c x) fun _ => False :=
  FP.bind (loadAt_fp fun iv hv => ⟨iv, hv, rfl⟩) fun _ => storeAt_fp fun iv hv => ⟨iv, hv, rfl⟩

theorem facePart_fp (M : Scheme α) (S : Settings α) (junk : Cell → Pt → HState α) (d : Dir) (c : Cell)
    (p : Pt) : (facePart M S junk d c p).FP (FaceLoc M d c p) (FaceLoc M d c p) fun _ => False :=
  FP.bind (loadAt_fp fun iv hv => ⟨iv, hv, .inl rfl⟩) fun _ =>
    FP.bind (loadAt_fp fun iv hv => ⟨iv, hv, .inr rfl⟩) fun _ =>
    FP.bind (storeAt_fp fun iv hv => ⟨iv, hv, .inl rfl⟩) fun _ =>
    storeAt_fp fun iv hv => ⟨iv, hv, .inr rfl⟩

theorem inPart_exec {M : Scheme α} {S : Settings α} {d : Dir} (hd : M.d3 = true ∨ d ≠ .z) {c : Cell}
    {x : Pt × ℕ} (hx : IsFluxPt M.d3 M.N d (x.1.set d x.2)) (m : Addr → α) {iv : ℕ}
    (hv : iv < hydroVars M.d3) :
    (inPart M S d c x).exec m (M.flx d c (x.1.set d x.2) iv) =
      Mood.comp (eulerFluxOf M.d3 S d (stateAt M.d3 m (M.flx d c (x.1.set d x.2)))) iv := by
  unfold inPart
  rw [(loadAt_reads _ _ m).exec_bind,
    storeAt_exec (fun j k _ _ e => (flx_inj hd hx hx e).2.2) _ m hv]

theorem facePart_exec {M : Scheme α} {S : Settings α} {junk : Cell → Pt → HState α} {d : Dir}
    (hd : M.d3 = true ∨ d ≠ .z) (hN : 0 < M.N) {c : Cell} {p : Pt} (hp : IsSolPt M.d3 M.N p)
    (m : Addr → α) {iv : ℕ} (hv : iv < hydroVars M.d3) :
    (facePart M S junk d c p).exec m (M.flx d (c.down d) (p.set d M.N) iv) =
      Mood.comp (riemannFlux M.d3 S (junk c p) d
        (stateAt M.d3 m (M.flx d (c.down d) (p.set d M.N)))
        (stateAt M.d3 m (M.flx d c (p.set d 0)))) iv ∧
    (facePart M S junk d c p).exec m (M.flx d c (p.set d 0) iv) =
      Mood.comp (riemannFlux M.d3 S (junk c p) d
        (stateAt M.d3 m (M.flx d (c.down d) (p.set d M.N)))
        (stateAt M.d3 m (M.flx d c (p.set d 0)))) iv := by
  have hL : IsFluxPt M.d3 M.N d (p.set d M.N) := hp.flux hd (by omega)
  have hR : IsFluxPt M.d3 M.N d (p.set d 0) := hp.flux hd (by omega)
  have hne : ∀ iv iv', M.flx d (c.down d) (p.set d M.N) iv ≠ M.flx d c (p.set d 0) iv' := by
    intro iv iv' e
    have := congrArg (Pt.get d) (flx_inj hd hL hR e).2.1
    simp only [Pt.get_set] at this; omega
  unfold facePart
  rw [(loadAt_reads _ _ m).exec_bind, (loadAt_reads _ _ m).exec_bind, exec_bind]
  refine ⟨?_, ?_⟩
  · rw [exec_frame (storeAt_fp (R := fun _ => False) (C := fun _ => False)
      (W := fun a => ∃ iv', a = M.flx d c (p.set d 0) iv') fun iv hv => ⟨iv, rfl⟩) _
      (fun ⟨iv', e⟩ => hne _ _ e) fun e => e]
    exact storeAt_exec (fun j k _ _ e => (flx_inj hd hL hL e).2.2) _ m hv
  · exact storeAt_exec (fun j k _ _ e => (flx_inj hd hR hR e).2.2) _ _ hv

/-- The lines inside a cell. -/
def inList (M : Scheme α) (d : Dir) : List (Pt × ℕ) := lines M.d3 M.N d ×ˢ List.range' 1 (M.N - 1)

theorem mem_inList {M : Scheme α} {d : Dir} (hd : M.d3 = true ∨ d ≠ .z) {x : Pt × ℕ} :
    x ∈ inList M d ↔ (IsSolPt M.d3 M.N x.1 ∧ x.1.get d = 0) ∧ 1 ≤ x.2 ∧ x.2 < M.N := by
  unfold inList
  obtain ⟨p, a⟩ := x
  rw [List.mem_product, mem_lines hd, List.mem_range'_1]
  refine and_congr_right fun _ => ?_
  constructor <;> rintro ⟨h1, h2⟩ <;> constructor <;> omega

theorem stateAt_congr {d3 : Bool} {m m' : Addr → α} {addr : ℕ → Addr}
    (h : ∀ iv, iv < hydroVars d3 → m (addr iv) = m' (addr iv)) : stateAt d3 m addr = stateAt d3 m' addr := by
  unfold stateAt Mood.ofComps
  cases d3 <;> simp only [Bool.false_eq_true, if_false, if_true] <;> congr 1 <;> exact h _ (by decide)

theorem computeFlux_yields {M : Scheme α} {S : Settings α} {P : Grid} (h : Ready M P) (hN : 0 < M.N)
    {d : Dir} (hd : M.d3 = true ∨ d ≠ .z) (ti : Mood.TimeInt) (junk : Cell → Pt → HState α)
    (m : Addr → α) :
    ∃ m', (computeFlux M S P junk d).Yields (sdmDom M.d3 M.N P ti) m m' ∧
      (∀ c p iv, P.box M.d3 c → IsFluxPt M.d3 M.N d p → iv < hydroVars M.d3 →
        m' (M.flx d c p iv) = Mood.comp (fluxFrom M S P junk d
          (fun c p => stateAt M.d3 m (M.flx d c p)) c p) iv) ∧
      (∀ a, a.arr ≠ sF → m' a = m a) := by
  classical
  let atEnd : Addr → Prop := fun a => ∃ c p iv, IsFluxPt M.d3 M.N d p ∧ p.get d = M.N ∧
    a = M.flx d c p iv
  let own : Addr → Cell := fun a => if atEnd a then a.cell.up d else a.cell
  have own_end : ∀ c p iv, IsFluxPt M.d3 M.N d p → p.get d = M.N →
      own (M.flx d c p iv) = c.up d := fun c p iv h1 h2 => if_pos ⟨c, p, iv, h1, h2, rfl⟩
  have own_in : ∀ c p iv, IsFluxPt M.d3 M.N d p → p.get d ≠ M.N → own (M.flx d c p iv) = c := by
    intro c p iv h1 h2
    refine if_neg ?_
    rintro ⟨c', p', iv', h3, h4, e⟩
    rw [(flx_inj hd h1 h3 e).2.1] at h2
    exact h2 h4
  let body : Cell → K Addr α Unit := fun c => (forEach (inList M d) (inPart M S d c)).bind fun _ =>
    if 0 < coord d c ∧ coord d c < size P d then forEach (lines M.d3 M.N d) (facePart M S junk d c)
    else .ret ()
  have hlaunch : computeFlux M S P junk d = M.cells P body := rfl
  rw [hlaunch]
  have y := cells_yields (M := M) (P := P) (body := body) (dom := sdmDom M.d3 M.N P ti)
    (out := fun A => A = sF) own h.ne m (fun c hc => by
    refine FP.bind (forEach_fp fun x hx => (inPart_fp M S d c x).mono ?_ ?_ fun _ h => h) fun _ => ?_
    · rintro a ⟨iv, hv, rfl⟩
      rw [mem_inList hd] at hx
      have hf : IsFluxPt M.d3 M.N d (x.1.set d x.2) := hx.1.1.flux hd (by omega)
      exact ⟨flx_dom hd hc hf (h.nv ▸ hv), fun _ => own_in _ _ _ hf (by rw [Pt.get_set]; omega)⟩
    · rintro a ⟨iv, hv, rfl⟩
      rw [mem_inList hd] at hx
      have hf : IsFluxPt M.d3 M.N d (x.1.set d x.2) := hx.1.1.flux hd (by omega)
      exact ⟨flx_dom hd hc hf (h.nv ▸ hv), rfl, own_in _ _ _ hf (by rw [Pt.get_set]; omega)⟩
    · split_ifs with hcond
      · have key : ∀ p ∈ lines M.d3 M.N d, ∀ a, FaceLoc M d c p a →
            sdmDom M.d3 M.N P ti a ∧ a.arr = sF ∧ own a = c := by
          rintro p hp a ⟨iv, hv, e⟩
          have hs := ((mem_lines hd).1 hp).1
          have hL : IsFluxPt M.d3 M.N d (p.set d M.N) := hs.flux hd (by omega)
          have hR : IsFluxPt M.d3 M.N d (p.set d 0) := hs.flux hd (by omega)
          rcases e with rfl | rfl
          · exact ⟨flx_dom hd (box_down hd hc hcond.1) hL (h.nv ▸ hv), rfl, by
              rw [own_end _ _ _ hL (Pt.get_set _ _ _), down_up]⟩
          · exact ⟨flx_dom hd hc hR (h.nv ▸ hv), rfl,
              own_in _ _ _ hR (by rw [Pt.get_set]; omega)⟩
        exact forEach_fp fun p hp => (facePart_fp M S junk d c p).mono
          (fun a ha => ⟨(key p hp a ha).1, fun _ => (key p hp a ha).2.2⟩) (fun a ha => key p hp a ha)
          fun _ h => h
      · exact FP.ret)
  refine ⟨_, y, ?_, ?_⟩
  · -- what the two phases of a work item do
    have in_frame : ∀ c a, (∀ x ∈ inList M d, ¬ InLoc M d c x a) →
        (forEach (inList M d) (inPart M S d c)).exec m a = m a := fun c a ha =>
      forEach_frame (fun x _ => inPart_fp M S d c x) m ha
    have notIn : ∀ c c' p iv, IsFluxPt M.d3 M.N d p → p.get d = 0 ∨ p.get d = M.N →
        ∀ x ∈ inList M d, ¬ InLoc M d c x (M.flx d c' p iv) := by
      rintro c c' p iv hp h0 x hx ⟨iv', _, e⟩
      rw [mem_inList hd] at hx
      have e2 := congrArg (Pt.get d) (flx_inj hd hp (hx.1.1.flux hd (by omega)) e).2.1
      rw [Pt.get_set] at e2
      omega
    have st_in : ∀ c c' p, IsFluxPt M.d3 M.N d p → p.get d = 0 ∨ p.get d = M.N →
        stateAt M.d3 ((forEach (inList M d) (inPart M S d c)).exec m) (M.flx d c' p) =
          stateAt M.d3 m (M.flx d c' p) := fun c c' p hp h0 =>
      stateAt_congr fun iv _ => in_frame c _ (notIn c c' p iv hp h0)
    have face_ex : ∀ c p a (m1 : Addr → α), p ∈ lines M.d3 M.N d → FaceLoc M d c p a →
        (forEach (lines M.d3 M.N d) (facePart M S junk d c)).exec m1 a =
          (facePart M S junk d c p).exec m1 a := by
      intro c p a m1 hp ha
      refine forEach_exec (nodup_lines _ _ _) (fun p _ => facePart_fp M S junk d c p) ?_ m1 hp ha
      intro p hp p' hp' hne a ⟨iv, _, e⟩
      rw [mem_lines hd] at hp hp'
      have : ¬ FaceLoc M d c p' a := by
        rintro ⟨iv', _, e'⟩
        rcases e with rfl | rfl <;> rcases e' with e' | e'
        · exact hne (line_eq hp.2 hp'.2
            (flx_inj hd (hp.1.flux hd (by omega)) (hp'.1.flux hd (by omega)) e').2.1).1
        · exact hne (line_eq hp.2 hp'.2
            (flx_inj hd (hp.1.flux hd (by omega)) (hp'.1.flux hd (by omega)) e').2.1).1
        · exact hne (line_eq hp.2 hp'.2
            (flx_inj hd (hp.1.flux hd (by omega)) (hp'.1.flux hd (by omega)) e').2.1).1
        · exact hne (line_eq hp.2 hp'.2
            (flx_inj hd (hp.1.flux hd (by omega)) (hp'.1.flux hd (by omega)) e').2.1).1
      exact ⟨this, this⟩
    intro c p iv hc hp hv
    have hl := hp.line hd hN
    have hsol := ((mem_lines hd).1 hl).1
    have hle := hp.get_lt hd
    have hcc := box_coord hd hc
    unfold fluxFrom
    by_cases h0 : p.get d = 0
    · -- lower end
      have e0 : p.set d 0 = p := by rw [← h0, Pt.set_get]
      rw [if_pos h0, own_in c p iv hp (by omega), if_pos hc]
      simp only [body]
      rw [exec_bind]
      by_cases hlow : 0 < coord d c
      · rw [if_pos ⟨hlow, hcc.2⟩, if_pos hlow]
        have hL : IsFluxPt M.d3 M.N d (p.set d M.N) := by
          have := hsol.flux hd (a := M.N) (by omega); rwa [Pt.set_set] at this
        have ex := (facePart_exec (S := S) (junk := junk) hd hN (c := c) hsol
          ((forEach (inList M d) (inPart M S d c)).exec m) hv).2
        rw [st_in _ _ _ (by rw [Pt.set_set]; exact hL) (.inr (Pt.get_set _ _ _)),
          st_in _ _ _ (by rw [Pt.set_set, e0]; exact hp) (.inl (Pt.get_set _ _ _))] at ex
        rw [← face_ex c (p.set d 0) _ _ hl ⟨iv, hv, .inr rfl⟩] at ex
        simp only [Pt.set_set, e0] at ex ⊢
        exact ex
      · rw [if_neg fun hh => hlow hh.1, if_neg hlow, comp_stateAt _ _ _ hv]
        exact in_frame c _ (notIn c c p iv hp (.inl h0))
    · rw [if_neg h0]
      by_cases hNe : p.get d = M.N
      · -- upper end
        have eN : p.set d M.N = p := by rw [← hNe, Pt.set_get]
        rw [if_pos hNe, own_end c p iv hp hNe]
        by_cases hup : coord d c + 1 < size P d
        · rw [if_pos hup, if_pos (box_up hd hc hup)]
          simp only [body]
          rw [exec_bind, if_pos (show 0 < coord d (c.up d) ∧ coord d (c.up d) < size P d by
            rw [coord_up]; omega)]
          have ex := (facePart_exec (S := S) (junk := junk) hd hN (c := c.up d) hsol
            ((forEach (inList M d) (inPart M S d (c.up d))).exec m) hv).1
          rw [st_in _ _ _ (by rw [Pt.set_set, eN]; exact hp) (.inr (Pt.get_set _ _ _)),
            st_in _ _ _ (hsol.flux hd (by omega)) (.inl (Pt.get_set _ _ _))] at ex
          rw [← face_ex (c.up d) (p.set d 0) _ _ hl ⟨iv, hv, .inl rfl⟩] at ex
          simp only [Pt.set_set, eN, up_down] at ex ⊢
          exact ex
        · rw [if_neg hup, comp_stateAt _ _ _ hv]
          split_ifs with hb
          · exact absurd (box_coord hd hb).2 (by rw [coord_up]; omega)
          · rfl
      · -- inside
        rw [if_neg hNe, own_in c p iv hp hNe, if_pos hc]
        simp only [body]
        rw [exec_bind]
        have hx : (p.set d 0, p.get d) ∈ inList M d := (mem_inList hd).2
          ⟨⟨hsol, Pt.get_set _ _ _⟩, by omega, by omega⟩
        have e1 : (forEach (inList M d) (inPart M S d c)).exec m (M.flx d c p iv) =
            Mood.comp (eulerFluxOf M.d3 S d (stateAt M.d3 m (M.flx d c p))) iv := by
          have e2 : M.flx d c p iv = M.flx d c ((p.set d 0).set d (p.get d)) iv := by simp
          rw [forEach_exec (L := inList M d) (R := InLoc M d c) (W := InLoc M d c)
            (nodup_prod (nodup_lines _ _ _) List.nodup_range') (fun x _ => inPart_fp M S d c x) ?_ m hx
            ⟨iv, hv, e2⟩]
          · have := inPart_exec (S := S) hd (c := c) (x := (p.set d 0, p.get d))
              (by simpa using hp) m hv
            simpa using this
          · intro x hx x' hx' hne a ⟨iv1, _, ea⟩
            rw [mem_inList hd] at hx hx'
            have : ¬ InLoc M d c x' a := by
              rintro ⟨iv2, _, eb⟩
              have e3 := (flx_inj hd (hx.1.1.flux hd (by omega)) (hx'.1.1.flux hd (by omega))
                (ea.symm.trans eb)).2.1
              have e4 := line_eq hx.1.2 hx'.1.2 e3
              exact hne (Prod.ext e4.1 e4.2)
            exact ⟨this, this⟩
        rw [← e1]
        split_ifs with hcond
        · refine forEach_frame (fun p _ => facePart_fp M S junk d c p) _ ?_
          rintro p' hp' ⟨iv', _, e⟩
          rw [mem_lines hd] at hp'
          rcases e with e | e
          · have e2 := congrArg (Pt.get d) (flx_inj hd hp (hp'.1.flux hd (by omega)) e).2.1
            rw [Pt.get_set] at e2; omega
          · have e2 := congrArg (Pt.get d) (flx_inj hd hp (hp'.1.flux hd (by omega)) e).2.1
            rw [Pt.get_set] at e2; omega
        · rfl
  · intro a ha
    split_ifs with hb
    · refine exec_frame (FP.bind (R := fun _ => True) (W := fun a => a.arr = sF) (C := fun _ => False)
        (forEach_fp fun x _ => (inPart_fp M S d _ x).mono (fun _ _ => trivial) ?_ fun _ h => h)
        fun _ => ?_) m ha fun e => e
      · rintro b ⟨iv, _, rfl⟩; rfl
      · split_ifs
        · refine forEach_fp fun p _ => (facePart_fp M S junk d _ p).mono (fun _ _ => trivial) ?_
            fun _ h => h
          rintro b ⟨iv, _, rfl | rfl⟩ <;> rfl
        · exact FP.ret
    · rfl

end Verif.Sdm
