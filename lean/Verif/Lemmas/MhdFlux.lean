import Verif.Lemmas.MhdLocal
import Verif.Lemmas.MhdAtomic
import Verif.Lemmas.HydroFlux
import Verif.Spec.MhdStep

/-! Helper lemmas: MHD steps over the reals - both implementations, conservation form, periodic
domains. -/

namespace Verif

open K Function ROps Spec

variable {d3 : Bool} {S : MSettings ℝ} {P : Grid} {J : MJunk ℝ} {impl : Int} {B : Sides}
  {xmin dt : ℝ} {it : Nat}

theorem Spec.ValidMhd.defined (h : ValidMhd d3 S) : MhdDefined d3 S where
  slope := fun e => by
    have := h.slope e
    simpa [eqb, lit] using this
  norot := fun e => by
    have := h.norot e
    simpa [gtb, ltb, lit] using this
  riem := h.riemann

theorem mhd_bufs {α : Type} [ROps α] (S : MSettings α) (J : MJunk α) (xmin dt : α) :
    mhd_unsplit d3 S P J xmin impl dt it =
      mhd_unsplit_impl d3 S P J xmin impl dt (bufIn it) (bufOut it) := by
  unfold mhd_unsplit bufIn bufOut; split_ifs <;> rfl

theorem mhdOk_of (h : BoxSetup d3 8 3 P B) (himpl : impl = 0 ∨ impl = 1) :
    MhdOk d3 P impl (bufIn it) (bufOut it) where
  gw := h.gw
  nv := h.nv
  bufs := by unfold bufIn bufOut; split_ifs <;> simp
  impl01 := himpl

/-- A step over the reals. -/
theorem mhd_whole (h : BoxSetup d3 8 3 P B) (himpl : impl = 0 ∨ impl = 1) (m : Addr → ℝ) :
    ∃ m1 m', YieldsAll (mhdDom d3 P impl) (mhd_unsplit d3 S P J xmin impl dt it) m m' ∧
      FilledMem d3 true P B (bufIn it) m m1 ∧ mfield m' (bufIn it) = mfield m1 (bufIn it) ∧
      (∀ c, P.box d3 c → P.inner d3 c →
        mfield m' (bufOut it) c = mstepOf d3 S P J xmin dt (mfield m1 (bufIn it)) c) := by
  have hok := mhdOk_of (it := it) h himpl
  rw [mhd_bufs]
  rcases himpl with rfl | rfl
  · obtain ⟨m1, m', y, f, i, n, -⟩ := mhd_step0 (S := S) (J := J) (xmin := xmin) (dt := dt) hok h m
    exact ⟨m1, m', y, f, i, n⟩
  · obtain ⟨m1, m', y, f, i, n, -⟩ := mhd_step1 (S := S) (J := J) (xmin := xmin) (dt := dt) hok h m
    exact ⟨m1, m', y, f, i, n⟩

theorem mcell_box {nv : Nat} {w : Int} (h : BoxSetup d3 nv w P B) (hw : 0 ≤ w) {i j k : Nat}
    (hi : i < P.nx.toNat) (hj : j < P.ny.toNat) (hk : k < depth d3 P) :
    P.box d3 (cell d3 P i j k) ∧ P.inner d3 (cell d3 P i j k) := by
  have hg := h.gw
  rw [box_iff, inner_iff]
  unfold cell depth at *
  cases d3
  · simp only [Bool.false_eq_true, if_false] at hk ⊢
    refine ⟨⟨by omega, by omega, by omega, by omega, trivial⟩, fun h => h.elim,
      by omega, by omega, by omega, by omega⟩
  · simp only [if_true] at hk ⊢
    refine ⟨⟨by omega, by omega, by omega, by omega, by omega, by omega⟩, fun _ => ⟨by omega, by omega⟩,
      by omega, by omega, by omega, by omega⟩

/-! ### Conservation form -/

/-- What flows through the lower face in direction `d`, per variable. -/
noncomputable def effFlux (d3 : Bool) (S : MSettings ℝ) (dt : ℝ) (F : Cell → Dir → MState ℝ)
    (E : Cell → EmfDir → ℝ) (v : Nat) (d : Dir) (c : Cell) : ℝ :=
  let t := dtOver S.toSettings dt d
  match v, d with
  | 5, .x => 0
  | 5, .y => -(E c .z * t)
  | 5, .z => E c .y * t
  | 6, .x => E c .z * t
  | 6, .y => 0
  | 6, .z => -(E c .x * t)
  | 7, .x => if d3 then -(E c .y * t) else ((F c d).swap d).c * t
  | 7, .y => if d3 then E c .x * t else ((F c d).swap d).c * t
  | 7, .z => 0
  | v, d => ((F c d).swap d).get v * t

theorem upd_get (F : Cell → Dir → MState ℝ) (E : Cell → EmfDir → ℝ) (c : Cell) (u : MState ℝ)
    {v : Nat} (hv : v < 8) :
    (emfUpd d3 S dt E c (fluxUpd d3 S dt F c (dirs d3) u)).get v = u.get v +
      (effFlux d3 S dt F E v .x c - effFlux d3 S dt F E v .x (c.up .x)) +
      (effFlux d3 S dt F E v .y c - effFlux d3 S dt F E v .y (c.up .y)) +
      (if d3 then effFlux d3 S dt F E v .z c - effFlux d3 S dt F E v .z (c.up .z) else 0) := by
  have : v = 0 ∨ v = 1 ∨ v = 2 ∨ v = 3 ∨ v = 4 ∨ v = 5 ∨ v = 6 ∨ v = 7 := by omega
  cases d3 <;> rcases this with rfl | rfl | rfl | rfl | rfl | rfl | rfl | rfl <;>
    simp only [emfUpd, fluxUpd, dirs, addFlux, effFlux, MState.get, Bool.false_eq_true, if_false,
      if_true] <;> rops <;> ring

variable (d3 S P J xmin dt) in
/-- The fluxes of a step. -/
noncomputable def stepFlow (U : Cell → MState ℝ) (v : Nat) (d : Dir) (c : Cell) : ℝ :=
  effFlux d3 S dt (mfluxOf d3 S J (traceOf d3 S P J xmin dt U))
    (emfOf d3 S (traceOf d3 S P J xmin dt U)) v d c

theorem mstep_get (U : Cell → MState ℝ) (c : Cell) {v : Nat} (hv : v < 8) :
    (mstepOf d3 S P J xmin dt U c).get v = (U c).get v +
      (stepFlow d3 S P J xmin dt U v .x c - stepFlow d3 S P J xmin dt U v .x (c.up .x)) +
      (stepFlow d3 S P J xmin dt U v .y c - stepFlow d3 S P J xmin dt U v .y (c.up .y)) +
      (if d3 then stepFlow d3 S P J xmin dt U v .z c - stepFlow d3 S P J xmin dt U v .z (c.up .z)
        else 0) := upd_get _ _ _ _ hv

/-! ### Periodic domains -/

theorem effFlux_same {F : Cell → Dir → MState ℝ} {E : Cell → EmfDir → ℝ} {v : Nat} {d : Dir}
    {c c' : Cell} (hd : d ∈ dirs d3) (hF : F c d = F c' d) (hE : ∀ e ∈ emfDirs d3, E c e = E c' e) :
    effFlux d3 S dt F E v d c = effFlux d3 S dt F E v d c' := by
  have hz := hE .z (by simp [emfDirs_mem])
  cases d3
  · cases d <;> simp [dirs] at hd <;> unfold effFlux <;> split <;>
      simp_all only [Bool.false_eq_true, if_false] <;> simp_all
  · have hx := hE .x (by simp [emfDirs_mem])
    have hy := hE .y (by simp [emfDirs_mem])
    unfold effFlux
    split <;> simp_all only [if_true]

section periodic

variable (h : BoxSetup d3 8 3 P (Sides.all .periodic)) {U : Nat} {m m1 : Addr → ℝ}
  (f : FilledMem d3 true P (Sides.all .periodic) U m m1)
include h f

/-- Cells whose index is at most the number of cells have all neighbours up to distance 2. -/
theorem around_box {i j k : Nat} (hi : i ≤ P.nx.toNat) (hj : j ≤ P.ny.toNat)
    (hk : d3 = true → k ≤ P.nz.toNat) {c' : Cell} (hw : Within d3 (-2) 2 (cell d3 P i j k) c') :
    P.box d3 c' := by
  have hg := h.gw
  have hnx := h.nx
  have hny := h.ny
  rw [box_iff]
  cases d3
  · simp only [Within, cell, Bool.false_eq_true, if_false] at hw ⊢
    omega
  · have := hk rfl
    have hnz := h.nz rfl
    simp only [Within, cell, if_true] at hw ⊢
    omega

theorem surround_x {j k : Nat} (hj : j ≤ P.ny.toNat) (hk : d3 = true → k ≤ P.nz.toNat) {c' : Cell}
    (hw : Within d3 (-2) 2 (cell d3 P 0 j k) c') :
    mfield m1 U c' = mfield m1 U (c'.move (P.nx, 0, 0)) := by
  have hb := around_box h f (Nat.zero_le _) hj hk hw
  refine mfield_ext fun v hv => (f.periodic_x h hb ?_ (h.nv ▸ hv)).symm
  have hg := h.gw
  cases d3 <;> simp only [Within, cell] at hw <;> omega

theorem surround_y {i k : Nat} (hi : i ≤ P.nx.toNat) (hk : d3 = true → k ≤ P.nz.toNat) {c' : Cell}
    (hw : Within d3 (-2) 2 (cell d3 P i 0 k) c') :
    mfield m1 U c' = mfield m1 U (c'.move (0, P.ny, 0)) := by
  have hb := around_box h f hi (Nat.zero_le _) hk hw
  refine mfield_ext fun v hv => (f.periodic_y h hb ?_ (h.nv ▸ hv)).symm
  have hg := h.gw
  cases d3 <;> simp only [Within, cell] at hw <;> omega

theorem surround_z (h3 : d3 = true) {i j : Nat} (hi : i ≤ P.nx.toNat) (hj : j ≤ P.ny.toNat)
    {c' : Cell} (hw : Within d3 (-2) 2 (cell d3 P i j 0) c') :
    mfield m1 U c' = mfield m1 U (c'.move (0, 0, P.nz)) := by
  have hb := around_box h f hi hj (fun _ => Nat.zero_le _) hw
  subst h3
  refine mfield_ext fun v hv => (f.periodic_z h hb ?_ (h.nv ▸ hv)).symm
  have hg := h.gw
  simp only [Within, cell, if_true] at hw
  omega

end periodic

theorem move_x {j k : Nat} (hn : 0 ≤ P.nx) :
    (cell d3 P 0 j k).move (P.nx, 0, 0) = cell d3 P P.nx.toNat j k := by
  simp only [cell, Cell.move, Cell.shift, Cell.mk.injEq]
  omega

theorem move_y {i k : Nat} (hn : 0 ≤ P.ny) :
    (cell d3 P i 0 k).move (0, P.ny, 0) = cell d3 P i P.ny.toNat k := by
  simp only [cell, Cell.move, Cell.shift, Cell.mk.injEq]
  omega

theorem move_z {i j : Nat} (hn : 0 ≤ P.nz) :
    (cell true P i j 0).move (0, 0, P.nz) = cell true P i j P.nz.toNat := by
  simp only [cell, Cell.move, Cell.shift, Cell.mk.injEq, if_true]
  omega

/-! ### The ghost fill depends on the interior only -/

theorem source_rangeM {n g : Int} (lo hi : BC) {c : Int} (h1 : 1 ≤ n) (h2 : g ≤ n) (h3 : 0 ≤ c)
    (h4 : c < n + 2 * g) : g ≤ source n g lo hi c ∧ source n g lo hi c < n + g := by
  unfold source
  split_ifs
  · cases lo <;> simp only <;> omega
  · cases hi <;> simp only <;> omega
  · omega

theorem srcCell_inner {nv : Nat} {w : Int} (h : BoxSetup d3 nv w P B) (hw : 1 ≤ w) {c : Cell}
    (hb : P.box d3 c) : P.box d3 (srcCell d3 P B c) ∧ P.inner d3 (srcCell d3 P B c) := by
  have hg := h.gw
  have hnx := h.nx
  have hny := h.ny
  rw [box_iff] at *
  rw [inner_iff]
  have kx := source_rangeM B.xlo B.xhi (by omega) h.nx hb.1 hb.2.1
  have ky := source_rangeM B.ylo B.yhi (by omega) h.ny hb.2.2.1 hb.2.2.2.1
  cases d3
  · have := hb.2.2.2.2
    simp only [srcCell, Bool.false_eq_true, if_false] at this ⊢
    exact ⟨⟨by omega, by omega, by omega, by omega, this⟩, fun e => e.elim, by omega, by omega,
      by omega, by omega⟩
  · have hz := h.nz rfl
    have := hb.2.2.2.2
    simp only [if_true] at this
    have kz := source_rangeM B.zlo B.zhi (by omega) hz this.1 this.2
    simp only [srcCell, if_true]
    exact ⟨⟨by omega, by omega, by omega, by omega, by omega, by omega⟩,
      fun _ => ⟨by omega, by omega⟩, by omega, by omega, by omega, by omega⟩

/-- Two memories agree on the interior of array `U`. -/
def AgreeIn (d3 : Bool) (P : Grid) (U : Nat) (m m' : Addr → ℝ) : Prop :=
  ∀ i j k v, i < P.nx.toNat → j < P.ny.toNat → k < depth d3 P → v < 8 →
    m ((cell d3 P i j k).at U v) = m' ((cell d3 P i j k).at U v)

theorem inner_cell {c : Cell} (hb : P.box d3 c) (hi : P.inner d3 c) : ∃ i j k, i < P.nx.toNat ∧
    j < P.ny.toNat ∧ k < depth d3 P ∧ c = cell d3 P i j k := by
  rw [box_iff] at hb
  rw [inner_iff] at hi
  refine ⟨(c.i - P.ghostWidth).toNat, (c.j - P.ghostWidth).toNat,
    if d3 then (c.k - P.ghostWidth).toNat else 0, by omega, by omega, ?_, ?_⟩
  · cases d3
    · simp [depth]
    · have := hi.1 rfl
      simp only [depth, if_true]; omega
  · obtain ⟨ci, cj, ck⟩ := c
    cases d3
    · have := hb.2.2.2.2
      simp only [cell, Bool.false_eq_true, if_false, Cell.mk.injEq] at *
      omega
    · have := hi.1 rfl
      simp only [cell, if_true, Cell.mk.injEq] at *
      omega

theorem filled_agree (h : BoxSetup d3 8 3 P B) {U : Nat} {m m' f f' : Addr → ℝ}
    (ha : AgreeIn d3 P U m m') (F : FilledMem d3 true P B U m f) (F' : FilledMem d3 true P B U m' f')
    {c : Cell} (hb : P.box d3 c) : mfield f U c = mfield f' U c := by
  refine mfield_ext fun v hv => ?_
  rw [F.cells c v hb (h.nv ▸ hv), F'.cells c v hb (h.nv ▸ hv)]
  obtain ⟨b1, b2⟩ := srcCell_inner h (by decide) hb
  obtain ⟨i, j, k, hi, hj, hk, e⟩ := inner_cell b1 b2
  rw [e, ha i j k v hi hj hk hv]

/-- The neighbourhood used by the update of an interior cell is in the box. -/
theorem inner_within (h : BoxSetup d3 8 3 P B) {c c' : Cell} (hb : P.box d3 c) (hi : P.inner d3 c)
    (hw : Within d3 (-2) 3 c c') : P.box d3 c' := by
  have hg := h.gw
  rw [box_iff] at *
  rw [inner_iff] at hi
  cases d3
  · simp only [Within, Bool.false_eq_true, if_false] at hw hb ⊢
    omega
  · have := hi.1 rfl
    simp only [Within, if_true] at hw hb ⊢
    omega

/-- Steps of any implementations from memories with equal interiors have equal interiors. -/
theorem step_agree (h : BoxSetup d3 8 3 P B) {impl' : Int} (hi : impl = 0 ∨ impl = 1)
    (hi' : impl' = 0 ∨ impl' = 1) {J' : MJunk ℝ}
    (hJ : J = J' ∨ ValidMhd d3 S) {m m' x x' : Addr → ℝ} (ha : AgreeIn d3 P (bufIn it) m m')
    (r : Runs (mhd_unsplit d3 S P J xmin impl dt it) m x)
    (r' : Runs (mhd_unsplit d3 S P J' xmin impl' dt it) m' x') :
    AgreeIn d3 P (bufOut it) x x' := by
  obtain ⟨f, y, Y, F, -, N⟩ := mhd_whole (S := S) (J := J) (xmin := xmin) (dt := dt) (it := it) h hi m
  obtain ⟨f', y', Y', F', -, N'⟩ := mhd_whole (S := S) (J := J') (xmin := xmin) (dt := dt) (it := it)
    h hi' m'
  obtain rfl := Y.unique r
  obtain rfl := Y'.unique r'
  intro i j k v h1 h2 h3 hv
  obtain ⟨b1, b2⟩ := mcell_box h (by decide) h1 h2 h3
  rw [← mfield_get x _ _ hv, ← mfield_get x' _ _ hv, N _ b1 b2, N' _ b1 b2]
  have e : mstepOf d3 S P J xmin dt (mfield f (bufIn it)) (cell d3 P i j k) =
      mstepOf d3 S P J xmin dt (mfield f' (bufIn it)) (cell d3 P i j k) :=
    mstepOf_congr fun c' hw => filled_agree h ha F F' (inner_within h b1 b2 hw)
  rw [e]
  rcases hJ with rfl | hv
  · rfl
  · rw [mstepOf_junk hv.defined P J' xmin]

theorem bufOut_eq (it : Nat) : bufOut it = bufIn (it + 1) := by
  unfold bufIn bufOut
  rcases Nat.mod_two_eq_zero_or_one it with e | e <;> simp [Nat.add_mod, e]

/-! ### Change of the face field -/

/-- Change of the field through the lower face in direction `d`. -/
noncomputable def faceInc (d3 : Bool) (S : MSettings ℝ) (dt : ℝ) (E : Cell → EmfDir → ℝ) (d : Dir)
    (c : Cell) : ℝ :=
  match d with
  | .x => (E (c.up .y) .z - E c .z) * (dt / S.dy) -
      (if d3 then (E (c.up .z) .y - E c .y) * (dt / S.dz) else 0)
  | .y => -((E (c.up .x) .z - E c .z) * (dt / S.dx)) +
      (if d3 then (E (c.up .z) .x - E c .x) * (dt / S.dz) else 0)
  | .z => (E (c.up .x) .y - E c .y) * (dt / S.dx) - (E (c.up .y) .x - E c .x) * (dt / S.dy)

/-- A change of the field by a discrete curl is free of divergence. -/
theorem faceInc_div (E : Cell → EmfDir → ℝ) (c : Cell) :
    (faceInc d3 S dt E .x (c.up .x) - faceInc d3 S dt E .x c) / S.dx +
    (faceInc d3 S dt E .y (c.up .y) - faceInc d3 S dt E .y c) / S.dy +
    (if d3 then (faceInc d3 S dt E .z (c.up .z) - faceInc d3 S dt E .z c) / S.dz else 0) = 0 := by
  have e1 : (c.up .y).up .x = (c.up .x).up .y := rfl
  have e2 : (c.up .z).up .x = (c.up .x).up .z := rfl
  have e3 : (c.up .z).up .y = (c.up .y).up .z := rfl
  simp only [faceInc, e1, e2, e3]
  cases d3
  · simp only [Bool.false_eq_true, if_false]; ring
  · simp only [if_true]; ring

theorem mstep_face (U : Cell → MState ℝ) (c : Cell) :
    (mstepOf d3 S P J xmin dt U c).get 5 = (U c).get 5 +
      faceInc d3 S dt (emfOf d3 S (traceOf d3 S P J xmin dt U)) .x c ∧
    (mstepOf d3 S P J xmin dt U c).get 6 = (U c).get 6 +
      faceInc d3 S dt (emfOf d3 S (traceOf d3 S P J xmin dt U)) .y c ∧
    (d3 = true → (mstepOf d3 S P J xmin dt U c).get 7 = (U c).get 7 +
      faceInc d3 S dt (emfOf d3 S (traceOf d3 S P J xmin dt U)) .z c) := by
  rw [mstep_get _ _ (by decide), mstep_get _ _ (by decide), mstep_get _ _ (by decide)]
  cases d3
  · refine ⟨?_, ?_, fun e => by cases e⟩ <;>
    simp only [stepFlow, effFlux, faceInc, dtOver, Bool.false_eq_true, if_false] <;> ring
  · refine ⟨?_, ?_, fun _ => ?_⟩ <;>
    simp only [stepFlow, effFlux, faceInc, dtOver, if_true] <;> ring

/-- Effect of a step on the face field of interior cells. -/
theorem face_change (h : BoxSetup d3 8 3 P B) {m m1 m' : Addr → ℝ}
    (f : FilledMem d3 true P B (bufIn it) m m1)
    (R : ∀ c, P.box d3 c → P.inner d3 c →
        mfield m' (bufOut it) c = mstepOf d3 S P J xmin dt (mfield m1 (bufIn it)) c)
    {d : Dir} (hd : d ∈ dirs d3) {i j k : Nat} (hi : i < P.nx.toNat) (hj : j < P.ny.toNat)
    (hk : k < depth d3 P) :
    m' ((cell d3 P i j k).at (bufOut it) d.bvar) = m ((cell d3 P i j k).at (bufIn it) d.bvar) +
      faceInc d3 S dt (emfOf d3 S (traceOf d3 S P J xmin dt (mfield m1 (bufIn it)))) d
        (cell d3 P i j k) := by
  obtain ⟨b1, b2⟩ := mcell_box h (by decide) hi hj hk
  have e := mstep_face (d3 := d3) (S := S) (P := P) (J := J) (xmin := xmin) (dt := dt)
    (mfield m1 (bufIn it)) (cell d3 P i j k)
  have hv : d.bvar < 8 := by cases d <;> decide
  rw [← f.interior b1 b2 (h.nv ▸ hv), ← mfield_get m' _ _ hv, ← mfield_get m1 _ _ hv, R _ b1 b2]
  cases d with
  | x => exact e.1
  | y => exact e.2.1
  | z => exact e.2.2 (dirs_mem.1 hd rfl)

theorem cell_up_x (i j k : Nat) : cell d3 P (i + 1) j k = (cell d3 P i j k).up .x := by
  simp [cell, Cell.up]; omega
theorem cell_up_y (i j k : Nat) : cell d3 P i (j + 1) k = (cell d3 P i j k).up .y := by
  simp [cell, Cell.up]; omega
theorem cell_up_z (i j k : Nat) : cell true P i j (k + 1) = (cell true P i j k).up .z := by
  simp [cell, Cell.up]; omega

end Verif
