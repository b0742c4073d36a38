import Verif.Model.SdmMpi
import Verif.Lemmas.SdmWhole
import Verif.Lemmas.HaloWindow
import Verif.Lemmas.HydroMpi

/-! Helper lemmas: the halo exchange of the spectral difference solver. -/

namespace Verif.Sdm

open Verif K Function Spec

variable {α : Type} [ROps α]

/-- The axis of a direction. -/
def axOf : Dir → Ax
  | .x => .x | .y => .y | .z => .z

theorem get_axOf (d : Dir) (c : Cell) : (axOf d).get c = coord d c := by cases d <;> rfl
theorem set_axOf (d : Dir) (c : Cell) (x : Int) : (axOf d).set c x = setCoord d c x := by cases d <;> rfl
theorem lo_axOf (d : Dir) : (axOf d).lo = lowFace d := by cases d <;> rfl
theorem hi_axOf (d : Dir) : (axOf d).hi = highFace d := by cases d <;> rfl
theorem n_axOf (P : Grid) (d : Dir) : (axOf d).n P = interior P d := by cases d <;> rfl
theorem in_axOf {d3 : Bool} {d : Dir} (h : d3 = true ∨ d ≠ .z) : (axOf d).In d3 := by
  intro e
  rcases h with h | h
  · exact h
  · cases d <;> first | exact absurd rfl h | cases e

theorem cells_box (d3 : Bool) (P : Grid) (c : Cell) : P.cells d3 c ↔ P.box d3 c := by
  cases d3
  · rw [box_cell2]; exact Iff.rfl
  · rw [box_cell3]; exact Iff.rfl

/-- Allocated entries with MPI: the arrays and the border buffers. -/
def mpiDom (M : Scheme α) (P : Grid) (ti : Mood.TimeInt) (a : Addr) : Prop :=
  sdmDom M.d3 M.N P ti a ∨ haloAlloc M.d3 (dofGrid M P) sU a

omit [ROps α] in
theorem mpiDom_halo [ROps α] {M : Scheme α} {P : Grid} {ti : Mood.TimeInt} {U : ℕ} (hU : solArray ti U) {a : Addr}
    (h : haloAlloc M.d3 (dofGrid M P) U a) : mpiDom M P ti a := by
  rcases h with ⟨h1, h2, h3⟩ | h
  · exact .inl ⟨(cells_box M.d3 P a.cell).1 h2, .inl ⟨h1 ▸ hU, h3⟩⟩
  · exact .inr (.inr h)

theorem solArray_notBuf {ti : Mood.TimeInt} {U : ℕ} (hU : solArray ti U) : NotBuf U := by
  have h : U ≤ 6 := by
    rcases hU with rfl | rfl | ⟨i, _, h2, rfl⟩
    · decide
    · decide
    · unfold sRK; cases ti <;> simp only [rkArrays] at h2 <;> omega
  intro f
  unfold bufSend bufRecv
  cases f <;> simp only [Face.idx] <;> omega

section
variable {M : Scheme α} {P : Grid}

/-- Copy from the neighbour, or boundary condition? -/
def isCopy (T : Ranks) (P : Grid) (r : ℕ) (face : Face) : Prop :=
  neighborsBC P T.mx T.my T.mz (cartCoords T.my T.mz r) face = BC_COPY ∨
    neighborsBC P T.mx T.my T.mz (cartCoords T.my T.mz r) face = BC_PERIODIC

theorem back_yields {T : Ranks} {U : ℕ} {d : Dir} (hd : M.d3 = true ∨ d ≠ .z) (hg : 0 < P.ghostWidth)
    (hn : ∀ d, M.d3 = true ∨ d ≠ .z → P.ghostWidth ≤ interior P d) {ti : Mood.TimeInt} (hU : solArray ti U)
    {f : Face} (hf : f = lowFace d ∨ f = highFace d) (r : ℕ) (m : Addr → α) :
    ∃ m', (haloBack M T P U r f).Yields (mpiDom M P ti) m m' ∧
      (∀ c p iv, region M.d3 P f c → IsSolPt M.d3 M.N p → iv < P.nbvar →
        (isCopy T P r f → m' (M.sol U c p iv) = m (M.sol (bufRecv f)
          (setCoord d c (coord d c - if isLow f then 0 else interior P d + P.ghostWidth)) p iv)) ∧
        (¬ isCopy T P r f → m' (M.sol U c p iv) = ghostVal M P U f m c p iv)) ∧
      (∀ a, ¬ (a.arr = U ∧ region M.d3 P f a.cell) → m' a = m a) := by
  have hnd := hn d hd
  have hdf : dirOf f = d := by rcases hf with rfl | rfl <;> simp
  have ha := in_axOf hd
  have hface : (axOf d).isFace f := by
    rcases hf with rfl | rfl
    · exact .inl (lo_axOf d).symm
    · exact .inr (hi_axOf d).symm
  have hx : 0 < P.nx := lt_of_lt_of_le hg (hn .x (.inr (by decide)))
  have hy : 0 < P.ny := lt_of_lt_of_le hg (hn .y (.inr (by decide)))
  have hz : M.d3 = true → 0 < P.nz := fun h => lt_of_lt_of_le hg (hn .z (.inl h))
  have hoff : recvOff (dofGrid M P) (axOf d) f = if isLow f then 0 else interior P d + P.ghostWidth := by
    rcases hf with rfl | rfl <;> cases d <;> rfl
  by_cases hc : isCopy T P r f
  · refine ⟨bufFx M.d3 (dofGrid M P) (axOf d) (bufRecv f) U 0 (recvOff (dofGrid M P) (axOf d) f) m, ?_, ?_, ?_⟩
    · unfold haloBack
      simp only
      have hc' := hc
      unfold isCopy at hc'
      rw [if_pos hc']
      exact (fromBuf_yields (P := dofGrid M P) ha hface hg (by rw [n_axOf]; exact hnd) hx hy hz
        (solArray_notBuf hU) m).mono fun a h => mpiDom_halo hU h
    · intro c p iv hr hp hv
      refine ⟨fun _ => ?_, fun h => absurd hc h⟩
      have hcr := box_coord hd hr.1
      have hs := size_eq P d
      have hr2 := hr.2
      rw [hdf] at hr2
      have hin : (dofGrid M P).cells M.d3 ((axOf d).set c ((axOf d).get c - recvOff (dofGrid M P) (axOf d) f)) := by
        refine (cells_box M.d3 P _).2 ?_
        rw [set_axOf, get_axOf, hoff]
        refine box_setCoord hd hr.1 ?_ ?_ <;> cases hl : isLow f <;> simp only [hl, Bool.false_eq_true, if_false, if_true] at hr2 ⊢ <;> omega
      have hlt : (axOf d).get c - recvOff (dofGrid M P) (axOf d) f < (dofGrid M P).ghostWidth := by
        show _ < P.ghostWidth
        rw [get_axOf, hoff]
        cases hl : isLow f <;> simp only [hl, Bool.false_eq_true, if_false, if_true] at hr2 ⊢ <;> omega
      refine (bufFx_in hin hlt (dofMap_lt hp hv)).trans ?_
      rw [add_zero, set_axOf, get_axOf, hoff]
      rfl
    · rintro ⟨arr, i, j, k, v⟩ hnot
      by_cases hA : arr = U
      · subst hA
        refine bufFx_out (c := ⟨i, j, k⟩) (v := v) ?_
        by_contra hcon
        push Not at hcon
        obtain ⟨h1, h2⟩ := hcon
        refine hnot ⟨rfl, ?_⟩
        have h1r := Grid.cells_range ha h1
        rw [Ax.get_set] at h1r
        have h2' : (axOf d).get ⟨i, j, k⟩ - recvOff (dofGrid M P) (axOf d) f < P.ghostWidth := h2
        have hb := (cells_box M.d3 P _).1 h1
        rw [set_axOf, get_axOf] at hb
        rw [get_axOf] at h1r h2'
        rw [hoff] at h1r h2' hb
        have hs := size_eq P d
        have hbox : P.box M.d3 ⟨i, j, k⟩ := by
          have := box_setCoord (x := coord d ⟨i, j, k⟩) hd hb ?_ ?_
          · rw [setCoord_setCoord, setCoord_coord] at this; exact this
          all_goals cases hl : isLow f <;> simp only [hl, Bool.false_eq_true, if_false, if_true] at h1r h2' <;> omega
        refine ⟨hbox, ?_⟩
        rw [hdf]
        show if isLow f then coord d ⟨i, j, k⟩ < _ else _ ≤ coord d ⟨i, j, k⟩
        cases hl : isLow f <;> simp only [hl, Bool.false_eq_true, if_false, if_true] at h1r h2' ⊢ <;> omega
      · exact bufFx_other hA
  · obtain ⟨m', y, e, fr⟩ := makeBoundary_yields (face := f) (M := M) (U := U) (ti := ti)
      (⟨hg, fun d hd => by have := hn d hd; omega⟩ : PosAll M.d3 P) (by rw [hdf]; exact hd)
      (.inr (.inr (by rw [hdf]; exact hnd))) hU m
    refine ⟨m', ?_, fun c p iv hr hp hv => ⟨fun h => absurd h hc, fun _ => e c p iv hr hp hv⟩, fr⟩
    unfold haloBack
    simp only
    have hc' := hc
    unfold isCopy at hc'
    rw [if_neg hc']
    exact y.mono fun a h => .inl h

/-- `haloDirection` as a list of rank-indexed statements. -/
def haloOps (M : Scheme α) (T : Ranks) (P : Grid) (U : ℕ) (lo hi : Face) : List (Nat → MpiOp α) :=
  let Q := dofGrid M P
  [ fun _ => .kernels [copyToBuf M.d3 T.lay Q U lo, copyToBuf M.d3 T.lay Q U hi],
    fun r => .sendrecv
      { dst := neighborRank T.mx T.my T.mz r lo, sbuf := bufSend lo, sshape := Q.bufShape M.d3 lo, stag := haloTag lo,
        src := neighborRank T.mx T.my T.mz r hi, rbuf := bufRecv hi, rshape := Q.bufShape M.d3 hi, rtag := haloTag hi },
    fun r => .sendrecv
      { dst := neighborRank T.mx T.my T.mz r hi, sbuf := bufSend hi, sshape := Q.bufShape M.d3 hi, stag := haloTag hi,
        src := neighborRank T.mx T.my T.mz r lo, rbuf := bufRecv lo, rshape := Q.bufShape M.d3 lo, rtag := haloTag lo },
    fun r => .kernels [haloBack M T P U r lo, haloBack M T P U r hi],
    fun _ => .barrier ]

theorem haloDirection_eq (M : Scheme α) (T : Ranks) (P : Grid) (U : ℕ) (lo hi : Face) (r : ℕ) :
    haloDirection M T P U lo hi r = (haloOps M T P U lo hi).map fun f => f r := rfl

/-- Value a cell gets from one direction of the exchange: `X s i a` is the value of point `a` on the line in the cell at
`i`, in the own array (`s = 0`), the lower (`-1`) or upper (`1`) neighbour's. -/
def haloPt (N : ℕ) (n g m : Int) (lo hi : BC) (nrm : Bool) (p i : Int) (a : ℕ) (X : Int → Int → ℕ → α) : α :=
  if i < g then
    if p = 0 ∧ lo ≠ .periodic then crossPt n g lo hi nrm i (X 0 (source n g lo hi i) (crossIdx N n g lo hi i a))
    else X (-1) (i + n) a
  else if n + g ≤ i then
    if p = m - 1 ∧ hi ≠ .periodic then crossPt n g lo hi nrm i (X 0 (source n g lo hi i) (crossIdx N n g lo hi i a))
    else X 1 (i - n) a
  else X 0 i a

theorem halo_stage {T : Ranks} (hmx : 0 < T.mx) (hmy : 0 < T.my) (hmz : 0 < T.mz) {U : ℕ} {d : Dir}
    (hd : M.d3 = true ∨ d ≠ .z) (hg : 0 < P.ghostWidth)
    (hn : ∀ d, M.d3 = true ∨ d ≠ .z → P.ghostWidth ≤ interior P d) {lo hi : BC}
    (hlo : boundaryType P (lowFace d) = lo.code) (hhi : boundaryType P (highFace d) = hi.code)
    {ti : Mood.TimeInt} (hU : solArray ti U) (m : Nat → Addr → α) :
    ∃ m', LockSeq T.num (fun _ => mpiDom M P ti) (haloOps M T P U (lowFace d) (highFace d)) m m' ∧
      (∀ r, r < T.num → ∀ c p iv, P.box M.d3 c → IsSolPt M.d3 M.N p → iv < P.nbvar →
        m' r (M.sol U c p iv) = haloPt M.N (interior P d) P.ghostWidth ((axOf d).m T.mx T.my T.mz) lo hi (isNormal d iv)
          (coord d (cartCoords T.my T.mz r)) (coord d c) (p.get d)
          (fun s i a => m (if s = 0 then r else if s = -1 then neighborRank T.mx T.my T.mz r (lowFace d)
            else neighborRank T.mx T.my T.mz r (highFace d)) (M.sol U (setCoord d c i) (p.set d a) iv))) ∧
      (∀ r A c v, A ≠ U → NotBuf A → m' r (Cell.at c A v) = m r (Cell.at c A v)) := by
  classical
  have hnd := hn d hd
  have ha := in_axOf hd
  have hU' := solArray_notBuf hU
  have hx : 0 < P.nx := lt_of_lt_of_le hg (hn .x (.inr (by decide)))
  have hy : 0 < P.ny := lt_of_lt_of_le hg (hn .y (.inr (by decide)))
  have hz : M.d3 = true → 0 < P.nz := fun h => lt_of_lt_of_le hg (hn .z (.inl h))
  have flo : (axOf d).isFace (lowFace d) := .inl (lo_axOf d).symm
  have fhi : (axOf d).isFace (highFace d) := .inr (hi_axOf d).symm
  have sLo : sendOff (dofGrid M P) (axOf d) (lowFace d) = P.ghostWidth := by cases d <;> rfl
  have sHi : sendOff (dofGrid M P) (axOf d) (highFace d) = interior P d := by cases d <;> rfl
  have d1 : bufSend (lowFace d) ≠ bufSend (highFace d) := by cases d <;> decide
  have d2 : bufRecv (lowFace d) ≠ bufRecv (highFace d) := by cases d <;> decide
  have d3' : ∀ f f', bufSend f ≠ bufRecv f' := by intro f f'; cases f <;> cases f' <;> decide
  have ul := hU' (lowFace d)
  have uh := hU' (highFace d)
  let m1 : Nat → Addr → α := fun r => bufFx M.d3 (dofGrid M P) (axOf d) U (bufSend (highFace d)) (sendOff (dofGrid M P) (axOf d) (highFace d)) 0
    (bufFx M.d3 (dofGrid M P) (axOf d) U (bufSend (lowFace d)) (sendOff (dofGrid M P) (axOf d) (lowFace d)) 0 (m r))
  let m2 : Nat → Addr → α := fun r => unpackMsg (bufRecv (highFace d)) (packMsg (bufSend (lowFace d))
    ((dofGrid M P).bufShape M.d3 (lowFace d)) (m1 (neighborRank T.mx T.my T.mz r (highFace d)))) (m1 r)
  let m3 : Nat → Addr → α := fun r => unpackMsg (bufRecv (lowFace d)) (packMsg (bufSend (highFace d))
    ((dofGrid M P).bufShape M.d3 (highFace d)) (m2 (neighborRank T.mx T.my T.mz r (lowFace d)))) (m2 r)
  have b1 := fun r => back_yields (M := M) (P := P) (T := T) hd hg hn hU (.inl rfl : lowFace d = lowFace d ∨ _) r (m3 r)
  choose m4 y4 e4 f4 using b1
  have b2 := fun r => back_yields (M := M) (P := P) (T := T) hd hg hn hU (.inr rfl : highFace d = lowFace d ∨ _) r (m4 r)
  choose m5 y5 e5 f5 using b2
  have nlo := fun r hr => neighbor_lo hmx hmy hmz (axOf d) r hr
  have nhi := fun r hr => neighbor_hi hmx hmy hmz (axOf d) r hr
  have nlh := fun r hr => neighbor_lo_hi hmx hmy hmz (axOf d) r hr
  have nhl := fun r hr => neighbor_hi_lo hmx hmy hmz (axOf d) r hr
  rw [lo_axOf] at nlo
  rw [hi_axOf] at nhi
  rw [lo_axOf, hi_axOf] at nlh nhl
  refine ⟨m5, .cons (M' := m1) (.kernels (fun _ => _) (fun r _ => rfl) ?_)
    (.cons (M' := m2) (.sendrecv (fun r => _) (fun r _ => rfl) ?_ ?_ ?_ ?_ (fun r _ => rfl))
    (.cons (M' := m3) (.sendrecv (fun r => _) (fun r _ => rfl) ?_ ?_ ?_ ?_ (fun r _ => rfl))
    (.cons (M' := m5) (.kernels (fun r => _) (fun r _ => rfl) ?_)
    (.cons (M' := m5) (.barrier (fun r _ => rfl) (fun _ _ => rfl)) (.nil _))))), ?_, ?_⟩
  · intro r _
    exact .cons ((toBuf_yields (P := dofGrid M P) ha flo hg (by rw [n_axOf]; exact hnd) hx hy hz hU' _).mono
        fun a h => mpiDom_halo hU h)
      (.cons ((toBuf_yields (P := dofGrid M P) ha fhi hg (by rw [n_axOf]; exact hnd) hx hy hz hU' _).mono
        fun a h => mpiDom_halo hU h) (.nil _))
  · intro r hr; exact ⟨(nlo r hr).1, nlh r hr⟩
  · intro r hr; exact ⟨(nhi r hr).1, nhl r hr⟩
  · intro r hr; cases d <;> rfl
  · intro r hr; cases d <;> rfl
  · intro r hr; exact ⟨(nhi r hr).1, nhl r hr⟩
  · intro r hr; exact ⟨(nlo r hr).1, nlh r hr⟩
  · intro r hr; cases d <;> rfl
  · intro r hr; cases d <;> rfl
  · intro r hr; exact .cons (y4 r) (.cons (y5 r) (.nil _))
  · intro r hr c p iv hc hp hv
    have hcc := box_coord hd hc
    have hs := size_eq P d
    have hdv := fun {p : Pt} (hp : IsSolPt M.d3 M.N p) => dofMap_lt (iv := iv) hp hv
    have m1U : ∀ (r : Nat) (a : Addr), a.arr = U → m1 r a = m r a := fun r a e =>
      (bufFx_other (by rw [e]; exact uh.1)).trans (bufFx_other (by rw [e]; exact ul.1))
    have m1lo : ∀ r c v, P.box M.d3 c → coord d c < P.ghostWidth → v < nbDof M.d3 M.N P.nbvar →
        m1 r (c.at (bufSend (lowFace d)) v) = m r ((setCoord d c (coord d c + P.ghostWidth)).at U v) := by
      intro r c v h1 h2 h3
      refine (bufFx_other d1).trans ((bufFx_in (P := dofGrid M P) ?_ ?_ h3).trans ?_)
      · rw [sub_zero, Ax.set_get]; exact (cells_box M.d3 P c).2 h1
      · rw [sub_zero, get_axOf]; exact h2
      · rw [sLo, sub_zero, set_axOf, get_axOf]
    have m1hi : ∀ r c v, P.box M.d3 c → coord d c < P.ghostWidth → v < nbDof M.d3 M.N P.nbvar →
        m1 r (c.at (bufSend (highFace d)) v) = m r ((setCoord d c (coord d c + interior P d)).at U v) := by
      intro r c v h1 h2 h3
      refine (bufFx_in (P := dofGrid M P) ?_ ?_ h3).trans ?_
      · rw [sub_zero, Ax.set_get]; exact (cells_box M.d3 P c).2 h1
      · rw [sub_zero, get_axOf]; exact h2
      · rw [sHi, sub_zero, set_axOf, get_axOf]; exact bufFx_other ul.1
    have m3U : ∀ (r : Nat) (a : Addr), a.arr = U → m3 r a = m r a := by
      intro r a e
      show unpackMsg _ _ (unpackMsg _ _ (m1 r)) _ = _
      unfold unpackMsg
      rw [if_neg (fun e' => ul.2 (e.symm.trans e'.1)), if_neg (fun e' => uh.2 (e.symm.trans e'.1)), m1U r a e]
    have m3hi : ∀ r c v, P.box M.d3 c → coord d c < P.ghostWidth → v < nbDof M.d3 M.N P.nbvar →
        m3 r (c.at (bufRecv (highFace d)) v)
          = m (neighborRank T.mx T.my T.mz r (highFace d)) ((setCoord d c (coord d c + P.ghostWidth)).at U v) := by
      intro r c v h1 h2 h3
      show unpackMsg _ _ (unpackMsg _ _ (m1 r)) _ = _
      unfold unpackMsg
      rw [if_neg (fun e => d2 e.1.symm), if_pos ⟨rfl, (bufShape_mem (P := dofGrid M P) ha flo (by rw [n_axOf]; show 0 ≤ interior P d; omega) hg).2
        ⟨(cells_box M.d3 P c).2 h1, by rw [get_axOf]; exact h2, h3⟩⟩]
      exact m1lo _ _ _ h1 h2 h3
    have m3lo : ∀ r c v, P.box M.d3 c → coord d c < P.ghostWidth → v < nbDof M.d3 M.N P.nbvar →
        m3 r (c.at (bufRecv (lowFace d)) v)
          = m (neighborRank T.mx T.my T.mz r (lowFace d)) ((setCoord d c (coord d c + interior P d)).at U v) := by
      intro r c v h1 h2 h3
      show unpackMsg _ _ _ _ = _
      unfold unpackMsg
      rw [if_pos ⟨rfl, (bufShape_mem (P := dofGrid M P) ha fhi (by rw [n_axOf]; show 0 ≤ interior P d; omega) hg).2
        ⟨(cells_box M.d3 P c).2 h1, by rw [get_axOf]; exact h2, h3⟩⟩]
      show unpackMsg _ _ (m1 _) _ = _
      unfold unpackMsg
      rw [if_neg (fun e => d3' _ _ e.1)]
      exact m1hi _ _ _ h1 h2 h3
    have cLo : isCopy T P r (lowFace d) ↔ ¬ (coord d (cartCoords T.my T.mz r) = 0 ∧ lo ≠ .periodic) := by
      have e : neighborsBC P T.mx T.my T.mz (cartCoords T.my T.mz r) (lowFace d)
          = if coord d (cartCoords T.my T.mz r) = 0 then lo.code else BC_COPY := by
        rw [← hlo]; cases d <;> rfl
      unfold isCopy
      rw [e]
      split_ifs with h <;> cases lo <;> simp [BC.code, BC_COPY, BC_PERIODIC, h]
    have cHi : isCopy T P r (highFace d) ↔
        ¬ (coord d (cartCoords T.my T.mz r) = (axOf d).m T.mx T.my T.mz - 1 ∧ hi ≠ .periodic) := by
      have e : neighborsBC P T.mx T.my T.mz (cartCoords T.my T.mz r) (highFace d)
          = if coord d (cartCoords T.my T.mz r) = (axOf d).m T.mx T.my T.mz - 1 then hi.code else BC_COPY := by
        rw [← hhi]; cases d <;> rfl
      unfold isCopy
      rw [e]
      split_ifs with h <;> cases hi <;> simp [BC.code, BC_COPY, BC_PERIODIC, h]
    have e0 : p.set d (p.get d) = p := by cases d <;> rfl
    unfold haloPt
    by_cases hl : coord d c < P.ghostWidth
    · have hh : ¬ interior P d + P.ghostWidth ≤ coord d c := by omega
      have r1 : region M.d3 P (lowFace d) c := ⟨hc, by simpa using hl⟩
      have r2 : ¬ region M.d3 P (highFace d) c := fun h => hh (by simpa using h.2)
      rw [if_pos hl, f5 r (M.sol U c p iv) fun h => r2 h.2]
      by_cases hcp : isCopy T P r (lowFace d)
      · rw [(e4 r c p iv r1 hp hv).1 hcp, if_neg (cLo.1 hcp)]
        simp only [isLow_low, if_true, sub_zero, setCoord_coord, e0]
        exact m3lo r c _ hc hl (hdv hp)
      · rw [(e4 r c p iv r1 hp hv).2 hcp, if_pos (not_not.1 fun e => hcp (cLo.2 e))]
        obtain ⟨q1, q2⟩ | q := low_spec (n := interior P d) (lo := lo) (hi := hi)
          (nrm := isNormal d iv) hl
        swap
        · omega
        have hm : ∀ c' p', m3 r (M.sol U c' p' iv) = m r (M.sol U c' p' iv) := fun c' p' => m3U r _ rfl
        simp only [ghostVal, dirOf_low, ghostSource, isLow_low, if_true, hlo, q1, q2, hm]
        cases lo
        · simp [BC.code, BC_DIRICHLET, crossPt, crossIdx, behindWall, hl]
        · simp [BC.code, BC_DIRICHLET, crossPt, crossIdx, behindWall, hl, hh, e0]
        · simp [BC.code, BC_DIRICHLET, crossPt, crossIdx, behindWall, hl, hh, e0]
    · rw [if_neg hl]
      by_cases hh : interior P d + P.ghostWidth ≤ coord d c
      · have r2 : region M.d3 P (highFace d) c := ⟨hc, by simpa using hh⟩
        rw [if_pos hh]
        by_cases hcp : isCopy T P r (highFace d)
        · rw [(e5 r c p iv r2 hp hv).1 hcp, if_neg (cHi.1 hcp)]
          simp only [isLow_high, Bool.false_eq_true, if_false, e0]
          rw [f4 r (M.sol (bufRecv (highFace d)) _ p iv) fun h => uh.2 h.1.symm]
          have hcb : P.box M.d3 (setCoord d c (coord d c - (interior P d + P.ghostWidth))) :=
            box_setCoord hd hc (by omega) (by omega)
          refine (m3hi r _ _ hcb (by rw [coord_setCoord]; omega) (hdv hp)).trans ?_
          rw [setCoord_setCoord, coord_setCoord,
            show coord d c - (interior P d + P.ghostWidth) + P.ghostWidth = coord d c - interior P d by omega]
          simp [Scheme.sol]
        · rw [(e5 r c p iv r2 hp hv).2 hcp, if_pos (not_not.1 fun e => hcp (cHi.2 e))]
          obtain ⟨q1, q2⟩ := high_spec (lo := lo) (hi := hi) (nrm := isNormal d iv)
            (show 0 ≤ interior P d by omega) hh
          have hsrc := source_range (lo := lo) (hi := hi) hg hnd hcc.1 (by omega)
          have hm : ∀ p' : Pt, m4 r (M.sol U (setCoord d c
              (source (interior P d) P.ghostWidth lo hi (coord d c))) p' iv) =
              m r (M.sol U (setCoord d c (source (interior P d) P.ghostWidth lo hi (coord d c))) p' iv) := by
            intro p'
            refine (f4 r _ fun h => ?_).trans (m3U r _ rfl)
            have h2 : coord d (setCoord d c (source (interior P d) P.ghostWidth lo hi (coord d c)))
                < P.ghostWidth := by
              have h3 := h.2.2
              rw [isLow_low, if_pos rfl, dirOf_low] at h3
              exact h3
            rw [coord_setCoord] at h2
            omega
          simp only [ghostVal, dirOf_high, ghostSource, isLow_high, Bool.false_eq_true, if_false, hhi, q1,
            q2, hm]
          cases hi
          · simp [BC.code, BC_DIRICHLET, crossPt, crossIdx, behindWall, hh]
          · simp [BC.code, BC_DIRICHLET, crossPt, crossIdx, behindWall, hl, hh, e0]
          · simp [BC.code, BC_DIRICHLET, crossPt, crossIdx, behindWall, hl, hh, e0]
      · have r1 : ¬ region M.d3 P (lowFace d) c := fun h => hl (by simpa using h.2)
        have r2 : ¬ region M.d3 P (highFace d) c := fun h => hh (by simpa using h.2)
        rw [if_neg hh, f5 r (M.sol U c p iv) fun h => r2 h.2, f4 r (M.sol U c p iv) fun h => r1 h.2, m3U r _ rfl]
        simp only [if_true, setCoord_coord, e0]
  · intro r A c v hA hB
    rw [f5 r _ fun h => hA h.1, f4 r _ fun h => hA h.1]
    show unpackMsg _ _ (unpackMsg _ _ (m1 r)) _ = _
    unfold unpackMsg
    rw [if_neg (fun e => (hB (lowFace d)).2 e.1), if_neg (fun e => (hB (highFace d)).2 e.1)]
    exact (bufFx_other (hB (highFace d)).1).trans (bufFx_other (hB (lowFace d)).1)

end

end Verif.Sdm
