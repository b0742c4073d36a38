import Verif.Spec.HydroMpi
import Verif.Lemmas.HydroProgram
import Verif.Props.C10_C12_Mpi

/-! Helper lemmas: a parallel run and a serial run side by side. -/

namespace Verif

open Spec ROps

/-! ### Jobs -/

section job
variable {α : Type} [ROps α]

theorem Lock.mono {N : Nat} {dom dom' : Nat → Addr → Prop} {op : Nat → Option (MpiOp α)} {M M' : Nat → Addr → α}
    (hd : ∀ r a, dom r a → dom' r a) (h : Lock N dom op M M') : Lock N dom' op M M' := by
  cases h with
  | kernels Ls h hy => exact .kernels Ls h fun r hr => (hy r hr).mono (hd r)
  | sendrecv a h h1 h2 h3 h4 h5 => exact .sendrecv a h h1 h2 h3 h4 h5
  | barrier h hm => exact .barrier h hm

theorem LockSeq.mono {N : Nat} {dom dom' : Nat → Addr → Prop} {L : List (Nat → MpiOp α)} {M M' : Nat → Addr → α}
    (hd : ∀ r a, dom r a → dom' r a) (h : LockSeq N dom L M M') : LockSeq N dom' L M M' := by
  induction h with
  | nil M => exact .nil M
  | cons h1 _ ih => exact .cons (h1.mono hd) ih

/-- What the loops may not touch and no message is received into stays. -/
theorem LockSeq.frame {N : Nat} {dom : Nat → Addr → Prop} {L : List (Nat → MpiOp α)} {M M' : Nat → Addr → α}
    (h : LockSeq N dom L M M') {a : Addr} (hd : ∀ r, ¬ dom r a)
    (hL : ∀ f ∈ L, ∀ r x, f r = .sendrecv x → a.arr ≠ x.rbuf) : ∀ r, r < N → M' r a = M r a := by
  induction h with
  | nil M => exact fun _ _ => rfl
  | @cons f L M M1 M2 h1 _ ih =>
    intro r hr
    rw [ih (fun g hg => hL g (List.mem_cons_of_mem _ hg)) r hr]
    cases h1 with
    | kernels Ls h hy => exact (hy r hr).frame (hd r)
    | sendrecv b h h1 h2 h3 h4 hm =>
      rw [hm r hr]
      unfold unpackMsg
      refine if_neg fun e => hL f (List.mem_cons_self ..) r (b r) ?_ e.1
      simpa using h r hr
    | barrier h hm => rw [hm r hr]

/-- One statement of loops. -/
theorem LockSeq.loops {N : Nat} {dom : Nat → Addr → Prop} {Ls : Nat → List (Launch Addr α)} {M M' : Nat → Addr → α}
    (h : ∀ r, r < N → YieldsAll (dom r) (Ls r) (M r) (M' r)) :
    LockSeq N dom [fun r => MpiOp.kernels (Ls r)] M M' :=
  .cons (.kernels Ls (fun _ _ => rfl) h) (.nil _)

theorem Spec.JobOK.no_hang {N : Nat} {prog : Nat → List (MpiOp α)} {dom : Addr → Prop} {M : Nat → Addr → α}
    {Q : (Nat → Addr → α) → Prop} (h : JobOK N prog dom M Q) : ¬ JobHangs N prog M := by
  rintro ⟨b, s, hs, hd, hn⟩
  rcases h.progress b s hs with h' | ⟨s', h'⟩
  · exact hd h'
  · exact hn s' h'

theorem Spec.JobOK.exists_run {N : Nat} {prog : Nat → List (MpiOp α)} {dom : Addr → Prop} {M : Nat → Addr → α}
    {Q : (Nat → Addr → α) → Prop} (h : JobOK N prog dom M Q) : ∃ M', JobRuns N prog M M' := by
  have key : ∀ s, Relation.ReflTransGen (Net.Step N prog (fun _ _ => True)) (Net.start M) s →
      Acc (fun s' s => Net.Step N prog (fun _ _ => True) s s') s → ∃ M', JobRuns N prog M M' := by
    intro s hs ha
    induction ha with
    | intro s _ ih =>
      rcases h.progress (fun _ _ => True) s hs with hd | ⟨s', h'⟩
      · exact ⟨_, fun _ _ => True, s, hs, hd, rfl⟩
      · exact ih s' h' (hs.tail h')
  exact key _ .refl (h.terminates fun _ _ => True)

theorem Spec.JobOK.of_run {N : Nat} {prog : Nat → List (MpiOp α)} {dom : Addr → Prop} {M M' : Nat → Addr → α}
    {Q : (Nat → Addr → α) → Prop} (h : JobOK N prog dom M Q) (r : JobRuns N prog M M') : Q M' := by
  obtain ⟨b, s, hs, hd, rfl⟩ := r
  exact h.result b s hs hd

theorem step_congr {N : Nat} {prog prog' : Nat → List (MpiOp α)} (e : ∀ r, r < N → prog' r = prog r)
    {b : Nat → Nat → Prop} {s s' : Net α} (h : Net.Step N prog b s s') : Net.Step N prog' b s s' := by
  cases h with
  | kernels hr hop hrun => exact .kernels hr (by rw [e _ hr]; exact hop) hrun
  | enter hr hop hp => exact .enter hr (by rw [e _ hr]; exact hop) hp
  | recv hr hop hp hc hs => exact .recv hr (by rw [e _ hr]; exact hop) hp hc hs
  | sendDone hr hop hp hb => exact .sendDone hr (by rw [e _ hr]; exact hop) hp hb
  | complete hr hp => exact .complete hr hp
  | barrier hr hop hall =>
    refine .barrier hr (by rw [e _ hr]; exact hop) fun q hq => ?_
    rw [e _ hr, e _ hq]
    exact hall q hq

theorem reach_congr {N : Nat} {prog prog' : Nat → List (MpiOp α)} (e : ∀ r, r < N → prog' r = prog r)
    {b : Nat → Nat → Prop} {s s' : Net α} (h : Relation.ReflTransGen (Net.Step N prog b) s s') :
    Relation.ReflTransGen (Net.Step N prog' b) s s' := by
  induction h with
  | refl => exact .refl
  | tail _ h ih => exact ih.tail (step_congr e h)

theorem done_congr {N : Nat} {prog prog' : Nat → List (MpiOp α)} (e : ∀ r, r < N → prog' r = prog r)
    {s : Net α} (h : Net.Done N prog s) : Net.Done N prog' s :=
  fun r hr => by rw [e r hr]; exact h r hr

/-- Only the programs of the ranks count. -/
theorem Spec.JobOK.congr {N : Nat} {prog prog' : Nat → List (MpiOp α)} {dom : Addr → Prop} {M : Nat → Addr → α}
    {Q : (Nat → Addr → α) → Prop} (h : JobOK N prog dom M Q) (e : ∀ r, r < N → prog' r = prog r) :
    JobOK N prog' dom M Q := by
  have e' : ∀ r, r < N → prog r = prog' r := fun r hr => (e r hr).symm
  refine ⟨?_, ?_, ?_, ?_⟩
  · intro b s hs r hr Ls hL
    exact h.loops b s (reach_congr e' hs) r hr Ls (by rw [e' r hr]; exact hL)
  · intro b s hs
    rcases h.progress b s (reach_congr e' hs) with h' | ⟨s', h'⟩
    · exact Or.inl (done_congr e h')
    · exact Or.inr ⟨s', step_congr e h'⟩
  · intro b
    refine Subrelation.accessible ?_ (h.terminates b)
    intro s' s hs
    exact step_congr e' hs
  · intro b s hs hd
    exact h.result b s (reach_congr e' hs) (done_congr e' hd)

/-- What holds at the end may be weakened. -/
theorem Spec.JobOK.imp {N : Nat} {prog : Nat → List (MpiOp α)} {dom : Addr → Prop} {M : Nat → Addr → α}
    {Q Q' : (Nat → Addr → α) → Prop} (h : JobOK N prog dom M Q) (hQ : ∀ R, Q R → Q' R) :
    JobOK N prog dom M Q' :=
  ⟨h.loops, h.progress, h.terminates, fun b s hs hd => hQ _ (h.result b s hs hd)⟩

end job

/-! ### Positions -/

section pos
variable {P : Grid} {T : Ranks} {d3 : Bool} {B : Sides}

theorem whole_setup {nv : Nat} {w : Int} (hw : 1 ≤ w) (hT : RanksOk d3 T) (h : BoxSetup d3 nv w P B) :
    BoxSetup d3 nv w (whole T P) B := by
  have hg1 : 1 ≤ P.ghostWidth := by have := h.gw; omega
  exact ⟨h.gw, h.nv, scale_le hT.mx hg1 h.nx, scale_le hT.my hg1 h.ny, fun e => scale_le hT.mz hg1 (h.nz e),
      h.xmin, h.xmax, h.ymin, h.ymax, h.zmin, h.zmax⟩

theorem owner_lt (hT : RanksOk d3 T) {p : Cell} (hp : Block T.mx T.my T.mz p) : owner T.my T.mz p < T.num :=
  (C11_blocks hT.mx hT.my hT.mz).1 p hp

theorem owner_surj (hT : RanksOk d3 T) {r : Nat} (hr : r < T.num) :
    ∃ p, Block T.mx T.my T.mz p ∧ owner T.my T.mz p = r :=
  (C11_blocks hT.mx hT.my hT.mz).2.2 r hr

theorem owner_coords {p : Cell} (hp : Block T.mx T.my T.mz p) : cartCoords T.my T.mz (owner T.my T.mz p) = p :=
  (coords_of_pos hp.x0 hp.x1 hp.y0 hp.y1 hp.z0 hp.z1).2

theorem block_k (hT : RanksOk d3 T) (hd : d3 = false) {p : Cell} (hp : Block T.mx T.my T.mz p) : p.k = 0 := by
  have := hT.flat hd; have := hp.z0; have := hp.z1; omega

theorem inDomain_shift (P : Grid) (p : Cell) :
    inDomain P p = shiftBy (p.i * P.nx) (p.j * P.ny) (p.k * P.nz) := by
  funext c; simp only [inDomain, shiftBy, Cell.mk.injEq]; exact ⟨add_comm _ _, add_comm _ _, add_comm _ _⟩

theorem inDomain_translation (P : Grid) (p : Cell) : Translation (inDomain P p) := by
  rw [inDomain_shift]; exact shiftBy_translation _ _ _

theorem piece_le {p n m : Int} (hn : 0 ≤ n) (h0 : 0 ≤ p) (h1 : p < m) : 0 ≤ p * n ∧ p * n + n ≤ m * n :=
  ⟨mul_nonneg h0 hn, by nlinarith⟩

/-- The box of a rank lies in the whole box. -/
theorem whole_box {nv : Nat} {w : Int} (hT : RanksOk d3 T) (h : BoxSetup d3 nv w P B) {p c : Cell}
    (hp : Block T.mx T.my T.mz p) (hb : P.box d3 c) (hw : 0 ≤ w := by decide) :
    (whole T P).box d3 (inDomain P p c) := by
  rw [box_iff] at hb ⊢
  have hg := h.gw
  have ax := piece_le (by have := h.nx; omega) hp.x0 hp.x1 (n := P.nx)
  have ay := piece_le (by have := h.ny; omega) hp.y0 hp.y1 (n := P.ny)
  cases d3
  · have hk := block_k hT rfl hp
    simp only [Bool.false_eq_true, if_false, whole, globalGrid, inDomain, hk, zero_mul] at hb ⊢
    omega
  · have az := piece_le (by have := h.nz rfl; omega) hp.z0 hp.z1 (n := P.nz)
    simp only [if_true, whole, globalGrid, inDomain] at hb ⊢
    omega

/-- Interior cells of a rank are interior cells of the whole. -/
theorem whole_inner {nv : Nat} {w : Int} (hT : RanksOk d3 T) (h : BoxSetup d3 nv w P B) {p c : Cell}
    (hp : Block T.mx T.my T.mz p) (hb : P.box d3 c) (hi : P.inner d3 c) (hw : 0 ≤ w := by decide) :
    (whole T P).inner d3 (inDomain P p c) := by
  have hg := h.gw
  have hc := (interior_iff (by omega)).1 ⟨hb, hi⟩
  refine ((interior_iff (P := whole T P) (by show 0 ≤ P.ghostWidth; omega)).2 ?_).2
  have ax := piece_le (by have := h.nx; omega) hp.x0 hp.x1 (n := P.nx)
  have ay := piece_le (by have := h.ny; omega) hp.y0 hp.y1 (n := P.ny)
  cases d3
  · have hk := block_k hT rfl hp
    simp only [Bool.false_eq_true, if_false, whole, globalGrid, inDomain, hk, zero_mul] at hc ⊢
    omega
  · have az := piece_le (by have := h.nz rfl; omega) hp.z0 hp.z1 (n := P.nz)
    simp only [if_true, whole, globalGrid, inDomain] at hc ⊢
    omega

end pos

/-! ### The exchange -/

section halo
variable {α : Type} [ROps α] {P : Grid} {T : Ranks} {d3 : Bool} {B : Sides}

/-- Statements of `make_boundaries` with MPI, aligned. -/
def haloLine (d3 mhd : Bool) (T : Ranks) (P : Grid) (U : Nat) : List (Nat → MpiOp α) :=
  if d3 then haloOps true T.lay mhd P U T.mx T.my T.mz .xmin .xmax ++
      haloOps true T.lay mhd P U T.mx T.my T.mz .ymin .ymax ++ haloOps true T.lay mhd P U T.mx T.my T.mz .zmin .zmax
  else haloOps false T.lay mhd P U T.mx T.my 1 .xmin .xmax ++ haloOps false T.lay mhd P U T.mx T.my 1 .ymin .ymax

theorem haloLine_prog (d3 : Bool) (T : Ranks) (P : Grid) (U r : Nat) :
    ((haloLine d3 false T P U).map fun f => f r) = (hydroBoundariesMpi (α := α) d3 T P U r) := by
  cases d3 <;> rfl

theorem haloOps_rbuf {lay : Layout} {mhd : Bool} {U : Nat} {mx my mz : Int} {lo hi : Face}
    {f : Nat → MpiOp α} (hf : f ∈ haloOps d3 lay mhd P U mx my mz lo hi) {r : Nat} {x : SendRecv}
    (e : f r = .sendrecv x) : 30 ≤ x.rbuf := by
  simp only [haloOps, List.mem_cons, List.not_mem_nil, or_false] at hf
  rcases hf with rfl | rfl | rfl | rfl | rfl
  · cases e
  · cases e; simp [bufRecv]
  · cases e; simp [bufRecv]
  · cases e
  · cases e

theorem haloLine_rbuf {mhd : Bool} {U : Nat} {f : Nat → MpiOp α} (hf : f ∈ haloLine d3 mhd T P U) {r : Nat} {x : SendRecv}
    (e : f r = .sendrecv x) : 30 ≤ x.rbuf := by
  unfold haloLine at hf
  split_ifs at hf
  · rcases List.mem_append.1 hf with hf | hf
    · rcases List.mem_append.1 hf with hf | hf <;> exact haloOps_rbuf hf e
    · exact haloOps_rbuf hf e
  · rcases List.mem_append.1 hf with hf | hf <;> exact haloOps_rbuf hf e

/-- The exchange, in 2D and 3D: every rank gets its part of what the serial fill makes of the whole. -/
theorem halo_line {nv : Nat} {w : Int} {mhd : Bool} (hone : ∀ x : α, x * lit 1 = x) (hT : RanksOk d3 T)
    (h : BoxSetup d3 nv w P B) (hw : 1 ≤ w) {U : Nat} (hU : U < 20) (G : Addr → α) (M : Nat → Addr → α)
    (hM : ∀ p, Block T.mx T.my T.mz p → ∀ c, P.box d3 c → P.inner d3 c → ∀ v, v < P.nbvar →
      M (owner T.my T.mz p) (c.at U v) = G ((inDomain P p c).at U v)) {G' : Addr → α}
    (hG : Runs (if d3 then makeBoundariesSerial3D mhd (whole T P) U else makeBoundariesSerial2D mhd (whole T P) U) G G') :
    ∃ M', LockSeq T.num (fun _ => haloAlloc d3 P U) (haloLine d3 mhd T P U) M M' ∧
      (∀ p, Block T.mx T.my T.mz p → ∀ c, P.box d3 c → ∀ v, v < P.nbvar →
        M' (owner T.my T.mz p) (c.at U v) = G' ((inDomain P p c).at U v)) ∧
      ∀ r, r < T.num → ∀ a, a.arr ≠ U → a.arr < 20 → M' r a = M r a := by
  have hn : NotBuf U := fun f => ⟨by simp only [bufSend]; omega, by simp only [bufRecv]; omega⟩
  have hg := h.gw
  have fr : ∀ M', LockSeq T.num (fun _ => haloAlloc d3 P U) (haloLine d3 mhd T P U) M M' →
      ∀ r, r < T.num → ∀ a, a.arr ≠ U → a.arr < 20 → M' r a = M r a := by
    intro M' l r hr a h1 h2
    refine l.frame (fun _ hd => ?_) (fun f hf r x e => ?_) r hr
    · rcases hd with ⟨e, -⟩ | ⟨ax, f, -, -, e | e, -⟩
      · exact h1 e
      · rw [e] at h2; simp only [bufSend] at h2; omega
      · rw [e] at h2; simp only [bufRecv] at h2; omega
    · have := haloLine_rbuf hf e; omega
  cases d3
  · have hz : T.mz = 1 := hT.flat rfl
    obtain ⟨G1, R, y, l, ww⟩ := halo_lock_2d (xlo := B.xlo) (xhi := B.xhi) (ylo := B.ylo) (yhi := B.yhi) hone T.lay mhd hn
      ⟨by omega, h.nx, h.ny, h.xmin, h.xmax, h.ymin, h.ymax⟩
      hT.mx hT.my G M (by
        intro px py i j v a1 a2 a3 a4 b1 b2 b3 b4 hv
        obtain ⟨q1, q2⟩ := (interior_iff (d3 := false) (c := ⟨i, j, 0⟩) (P := P) (by omega)).2 ⟨b1, b2, b3, b4, rfl⟩
        have := hM ⟨px, py, 0⟩ ⟨a1, a2, a3, a4, le_rfl, by rw [hz]; exact Int.one_pos⟩ ⟨i, j, 0⟩ q1 q2 v hv
        simpa [owner, hz, inDomain, Cell.at] using this)
    have eG : whole T P = globalGrid T.mx T.my 1 P := by rw [whole, hz]
    rw [eG] at hG
    obtain rfl := y.unique hG
    have eN : (T.mx * T.my * 1).toNat = T.num := by rw [Ranks.num, hz]
    rw [eN] at l
    refine ⟨R, l, ?_, fr R l⟩
    intro p hp c hc v hv
    rw [box_iff] at hc
    simp only [Bool.false_eq_true, if_false] at hc
    have := ww p.i p.j c.i c.j v hp.x0 hp.x1 hp.y0 hp.y1 hc.1 hc.2.1 hc.2.2.1 hc.2.2.2.1 hv
    have hk := block_k hT rfl hp
    simpa [owner, hz, inDomain, Cell.at, hk, hc.2.2.2.2] using this
  · obtain ⟨G1, R, y, l, ww⟩ := halo_lock_3d (xlo := B.xlo) (xhi := B.xhi) (ylo := B.ylo) (yhi := B.yhi) (zlo := B.zlo)
      (zhi := B.zhi) hone T.lay mhd hn
      ⟨⟨by omega, h.nx, h.ny, h.xmin, h.xmax, h.ymin, h.ymax⟩, h.nz rfl, h.zmin rfl, h.zmax rfl⟩
      hT.mx hT.my hT.mz G M (by
        intro px py pz i j k v a1 a2 a3 a4 a5 a6 b1 b2 b3 b4 b5 b6 hv
        obtain ⟨q1, q2⟩ := (interior_iff (d3 := true) (c := ⟨i, j, k⟩) (P := P) (by omega)).2
          ⟨b1, b2, b3, b4, b5, b6⟩
        exact hM ⟨px, py, pz⟩ ⟨a1, a2, a3, a4, a5, a6⟩ ⟨i, j, k⟩ q1 q2 v hv)
    obtain rfl := y.unique hG
    refine ⟨R, l, ?_, fr R l⟩
    intro p hp c hc v hv
    rw [box_iff] at hc
    simp only [if_true] at hc
    exact ww p.i p.j p.k c.i c.j c.k v hp.x0 hp.x1 hp.y0 hp.y1 hp.z0 hp.z1 hc.1 hc.2.1 hc.2.2.1 hc.2.2.2.1
      hc.2.2.2.2.1 hc.2.2.2.2.2 hv

end halo

/-! ### One step -/

section step
variable {C : HydroConf ℝ} {B : Sides} {T : Ranks}

theorem whole_ok (hT : RanksOk C.d3 T) (hC : C.Ok B) : (C.whole T).Ok B :=
  ⟨whole_setup (by decide) hT hC.box, hC.valid, hC.gas, hC.spacings, hC.impl, hC.bot⟩

theorem field_congr {d3 : Bool} {m m' : Addr → ℝ} {A : Nat} {c c' : Cell}
    (h : ∀ v, v < hydroVars d3 → m (c.at A v) = m' (c'.at A v)) : field d3 m A c = field d3 m' A c' := by
  rw [field_eq_stateOf, field_eq_stateOf]
  exact stateOf_congr h

theorem gfield_congr {d3 : Bool} {m m' : Addr → ℝ} {c c' : Cell}
    (h : ∀ v, v < (if d3 then 3 else 2) → m (c.at aG v) = m' (c'.at aG v)) : gfield d3 m c = gfield d3 m' c' := by
  unfold gfield
  cases d3
  · simp only [Bool.false_eq_true, if_false] at h
    simp [h 0 (by decide), h 1 (by decide)]
  · simp only [if_true] at h
    simp [h 0 (by decide), h 1 (by decide), h 2 (by decide)]

theorem bufIn_lt (it : Nat) : bufIn it < 2 := by unfold bufIn; split_ifs <;> simp [aU, aU2]

theorem godunovMpi_eq {d3 : Bool} {S : Settings ℝ} {P : Grid} {J : Junk ℝ} {impl : Int} {grav : Bool} {dt : ℝ}
    {it r : Nat} : godunovMpi d3 T S P J impl grav dt it r =
      hydroBoundariesMpi d3 T P (bufIn it) r ++ [.kernels (afterFill d3 S P J impl grav dt (bufIn it) (bufOut it))] := by
  unfold godunovMpi bufIn bufOut; split_ifs <;> rfl

/-- Entries a rank may touch in a step. -/
def stepDom (C : HydroConf ℝ) (U : Nat) (a : Addr) : Prop :=
  hydroDom C.d3 C.P C.impl C.grav a ∨ haloAlloc C.d3 C.P U a

/-- One step of all ranks is one step of the whole. -/
theorem mpi_step (hT : RanksOk C.d3 T) (hC : C.Ok B) {J : Nat → Junk ℝ} {J0 : Junk ℝ} {dt : ℝ} {it : ℕ}
    {M : Nat → Addr → ℝ} {G G' : Addr → ℝ} (h : Parts C T (bufIn it) M G)
    (r : Runs (godunov_unsplit C.d3 C.S (Spec.whole T C.P) J0 C.impl C.grav dt it) G G') :
    JobOK T.num (fun r => godunovMpi C.d3 T C.S C.P (J r) C.impl C.grav dt it r) (stepDom C (bufIn it)) M
      (fun R => Parts C T (bufOut it) R G') := by
  have hB := hC.box
  have hW := whole_setup (T := T) (by decide) hT hB
  obtain ⟨G2, y2, f2⟩ := fill_mem C.d3 false hW (by decide) (bufIn it) G
  obtain ⟨G3, y3, R3⟩ := core (S := C.S) (J := J0) (grav := C.grav) (dt := dt) (hydroOk_of (it := it) hW hC.impl) G2
  have hr : G' = G3 := by
    rw [godunov_bufs, godunov_eq] at r
    have y : YieldsAll (hydroDom C.d3 (Spec.whole T C.P) C.impl C.grav)
        (hydroBoundaries C.d3 (Spec.whole T C.P) (bufIn it) ++
          afterFill C.d3 C.S (Spec.whole T C.P) J0 C.impl C.grav dt (bufIn it) (bufOut it)) G G3 := by
      refine YieldsAll.append (y2.mono ?_) y3
      rintro a ⟨h1, h2, h3⟩
      have := (hydroOk_of (it := it) hW hC.impl).dom_in (grav := C.grav) h2 a.v (hW.nv ▸ h3)
      rw [← h1] at this
      exact this
    exact y.unique r
  subst hr
  have hlt := bufIn_lt it
  obtain ⟨M2, l2, w2, fr2⟩ := halo_line (α := ℝ) (U := bufIn it) (mhd := false) (fun x => by rops; simp) hT hB (by decide) (by omega) G M
    (fun p hp c hb hi v hv => h.data p hp c hb hi v (hB.nv ▸ hv)) (G' := G2) y2.run
  have hok := hydroOk_of (it := it) hB hC.impl
  choose M3 y4 R4 using fun r => core (S := C.S) (J := J r) (grav := C.grav) (dt := dt) hok (M2 r)
  have l : LockSeq T.num (fun _ => stepDom C (bufIn it))
      (haloLine C.d3 false T C.P (bufIn it) ++
        [fun r => MpiOp.kernels (afterFill C.d3 C.S C.P (J r) C.impl C.grav dt (bufIn it) (bufOut it))]) M M3 :=
    (l2.mono fun _ _ h => Or.inr h).append (.loops fun r _ => (y4 r).mono fun _ h => Or.inl h)
  refine (LockSeq.job l (Q := fun R => Parts C T (bufOut it) R G') ?_).congr ?_
  swap
  · intro r _
    rw [godunovMpi_eq, List.map_append, haloLine_prog]
    rfl
  intro X hX
  have hne : bufIn it ≠ aG := by simp only [aG]; omega
  have hG2 : ∀ a, a.arr = aG → G2 a = G a := fun a ha => f2.frame a fun e => hne (e.1.symm.trans ha)
  have hgM : C.grav = true → ∀ p, Block T.mx T.my T.mz p → ∀ c, C.P.box C.d3 c → ∀ v, v < (if C.d3 then 3 else 2) →
      M2 (owner T.my T.mz p) (c.at aG v) = G2 ((inDomain C.P p c).at aG v) := by
    intro hg p hp c hb v hv
    rw [fr2 _ (owner_lt hT hp) _ (fun e => hne e.symm) (by simp [aG]), hG2 _ rfl]
    exact h.grav hg p hp c hb v hv
  refine ⟨?_, ?_⟩
  · intro p hp c hb hi v hv
    rw [hX _ (owner_lt hT hp), ← field_get C.d3 (M3 _) (bufOut it) c hv, ← field_get C.d3 G' (bufOut it) _ hv,
      (R4 _).inner c hb hi, R3.inner _ (whole_box hT hB hp hb) (whole_inner hT hB hp hb hi)]
    congr 1
    refine (stepCell_shift hC.valid hB.gw (inDomain_translation C.P p) (fun c hc => ?_) (fun hg c hc => ?_) hb hi).symm
    · exact (field_congr fun v hv => w2 p hp c hc v (hB.nv ▸ hv)).symm
    · exact (gfield_congr fun v hv => hgM hg p hp c hc v hv).symm
  · intro hg p hp c hb v hv
    rw [hX _ (owner_lt hT hp), (R4 _).gravity _ rfl, R3.gravity _ rfl]
    exact hgM hg p hp c hb v hv

/-! ### The set-up -/

theorem values_part (d3 : Bool) (S : Settings ℝ) (P : Grid) (D : Domain ℝ) {Q : HydroProblem ℝ} (hQ : Deterministic Q)
    {p : Cell} (hp : Block T.mx T.my T.mz p) (c : Cell) :
    hydroValues d3 S P (D.ofRank T (owner T.my T.mz p)) Q c =
      hydroValues d3 S (Spec.whole T P) (alone D) Q (inDomain P p c) ∧
    hydroGravity d3 S P (D.ofRank T (owner T.my T.mz p)) Q c =
      hydroGravity d3 S (Spec.whole T P) (alone D) Q (inDomain P p c) := by
  have ho := owner_coords hp
  have ex : xAt S P (D.ofRank T (owner T.my T.mz p)) c.i = xAt S (Spec.whole T P) (alone D) (inDomain P p c).i := by
    unfold xAt Domain.ofRank alone
    rw [ho]
    simp only [inDomain, globalGrid]
    rw [show c.i + P.nx * p.i - P.ghostWidth = p.i * P.nx + c.i + T.mx * P.nx * 0 - P.ghostWidth by ring]
  have ey : yAt S P (D.ofRank T (owner T.my T.mz p)) c.j = yAt S (Spec.whole T P) (alone D) (inDomain P p c).j := by
    unfold yAt Domain.ofRank alone
    rw [ho]
    simp only [inDomain, globalGrid]
    rw [show c.j + P.ny * p.j - P.ghostWidth = p.j * P.ny + c.j + T.my * P.ny * 0 - P.ghostWidth by ring]
  have ez : zAt S P (D.ofRank T (owner T.my T.mz p)) c.k = zAt S (Spec.whole T P) (alone D) (inDomain P p c).k := by
    unfold zAt Domain.ofRank alone
    rw [ho]
    simp only [inDomain, globalGrid]
    rw [show c.k + P.nz * p.k - P.ghostWidth = p.k * P.nz + c.k + T.mz * P.nz * 0 - P.ghostWidth by ring]
  cases Q with
  | implode q => exact ⟨by simp only [hydroValues, implodeHydro, ex, ey, ez]; rfl, rfl⟩
  | blast q => exact ⟨by simp only [hydroValues, blastHydro, ex, ey, ez], rfl⟩
  | kelvinHelmholtz q rnd =>
    have hq : q.p_rand = false := hQ
    refine ⟨?_, rfl⟩
    cases d3 with
    | false =>
      change khHydro2 S P _ q rnd c = khHydro2 S _ _ q rnd _
      simp only [khHydro2, ex, ey, hq]; rfl
    | true =>
      change khHydro3 S P _ q rnd c = khHydro3 S _ _ q rnd _
      simp only [khHydro3, ex, ey, ez, hq]; rfl
  | gresho q => exact ⟨by simp only [hydroValues, greshoHydro, ex, ey], rfl⟩
  | fourQuadrant n xt yt => exact ⟨by simp only [hydroValues, fourQuadrant, ex, ey], rfl⟩
  | isentropicVortex q => exact ⟨by simp only [hydroValues, isentropicVortex, ex, ey], rfl⟩
  | rayleighTaylor q => exact ⟨by simp only [hydroValues, rayleighTaylor, ex, ey, ez]; rfl, rfl⟩
  | risingBubble q => exact ⟨by simp only [hydroValues, risingBubble, ex, ey, ez], rfl⟩
  | disk q g =>
    exact ⟨by simp only [hydroValues, diskHydro, diskPos, ex, ey, ez]; rfl,
      by simp only [hydroGravity, diskPos, ex, ey, ez]⟩

/-- The set-up of all ranks is the set-up of the whole. -/
theorem mpi_setup (hT : RanksOk C.d3 T) (hC : C.Ok B) {D : Domain ℝ} {Q : HydroProblem ℝ} (hQ : Deterministic Q)
    (hG : HasGravity Q → C.grav = true) {G : Addr → ℝ}
    (r : Runs (hydroSetup C.d3 C.S (Spec.whole T C.P) (alone D) Q) (fun _ => lit 0) G) :
    JobOK T.num (hydroSetupMpi C.d3 T C.S C.P D Q) (stepDom C aU) (fun _ _ => lit 0)
      (fun R => Parts C T aU R G) := by
  have hB := hC.box
  have hW := whole_setup (T := T) (by decide) hT hB
  have hokW : HydroOk C.d3 (Spec.whole T C.P) C.impl aU aU2 := ⟨hW.gw, hW.nv, Or.inl ⟨rfl, rfl⟩, hC.impl⟩
  have hok : HydroOk C.d3 C.P C.impl aU aU2 := ⟨hB.gw, hB.nv, Or.inl ⟨rfl, rfl⟩, hC.impl⟩
  -- the whole
  obtain ⟨G1, y1, e1, g1, -⟩ := hydro_init (S := C.S) (D := alone D) (impl := C.impl) hW.nv hG (fun _ => lit 0)
  obtain ⟨G2, y2, f2⟩ := fill_mem C.d3 false hW (by decide) aU G1
  have y3 := deepCopy_yields (grav := C.grav) hokW G2
  have hr : G = setArr C.d3 G2 aU2 ((Spec.whole T C.P).box C.d3) (field C.d3 G2 aU) := by
    have y : YieldsAll (hydroDom C.d3 (Spec.whole T C.P) C.impl C.grav)
        (hydroSetup C.d3 C.S (Spec.whole T C.P) (alone D) Q) (fun _ => lit 0)
        (setArr C.d3 G2 aU2 ((Spec.whole T C.P).box C.d3) (field C.d3 G2 aU)) := by
      refine .cons y1 (YieldsAll.append (y2.mono ?_) (.cons y3 (.nil _)))
      rintro a ⟨h1, h2, h3⟩
      have := hokW.dom_in (grav := C.grav) h2 a.v (hW.nv ▸ h3)
      rw [← h1] at this
      exact this
    exact y.unique r
  -- the ranks
  choose M1 z1 d1 k1 q1 using fun r => hydro_init (S := C.S) (D := D.ofRank T r) (impl := C.impl) hB.nv hG
    (fun _ => lit 0)
  have hp1 : ∀ p, Block T.mx T.my T.mz p → ∀ c, C.P.box C.d3 c → ∀ v,
      M1 (owner T.my T.mz p) (c.at aU v) = G1 ((inDomain C.P p c).at aU v) ∧
      M1 (owner T.my T.mz p) (c.at aG v) = G1 ((inDomain C.P p c).at aG v) := by
    intro p hp c hb v
    obtain ⟨a1, a2⟩ := values_part C.d3 C.S C.P D hQ hp c
    rw [d1 _ c v hb, k1 _ c v hb, e1 _ v (whole_box hT hB hp hb), g1 _ v (whole_box hT hB hp hb), a1, a2]
    exact ⟨rfl, rfl⟩
  obtain ⟨M2, l2, w2, fr2⟩ := halo_line (α := ℝ) (U := aU) (mhd := false) (fun x => by rops; simp) hT hB (by decide) (by decide) G1 M1
    (fun p hp c hb hi v _ => (hp1 p hp c hb v).1) (G' := G2) y2.run
  have z3 := fun r => deepCopy_yields (grav := C.grav) hok (M2 r)
  have l : LockSeq T.num (fun _ => stepDom C aU)
      ([fun r => MpiOp.kernels [hydroInitLoop C.d3 C.S C.P (D.ofRank T r) aU Q]] ++ haloLine C.d3 false T C.P aU ++
        [fun _ => MpiOp.kernels [deepCopy C.d3 C.P aU2 aU]]) (fun _ _ => lit 0)
      (fun r => setArr C.d3 (M2 r) aU2 (C.P.box C.d3) (field C.d3 (M2 r) aU)) :=
    ((LockSeq.loops (dom := fun _ => stepDom C aU)
        (fun r _ => .cons ((z1 r).mono fun _ h => Or.inl h) (.nil _))).append
      (l2.mono fun _ _ h => Or.inr h)).append
        (.loops fun r _ => .cons ((z3 r).mono fun _ h => Or.inl h) (.nil _))
  refine (LockSeq.job l (Q := fun R => Parts C T aU R G) ?_).congr ?_
  swap
  · intro r _
    rw [hydroSetupMpi, List.map_append, List.map_append, haloLine_prog]
    rfl
  intro X hX
  refine ⟨?_, ?_⟩
  · intro p hp c hb hi v hv
    rw [hX _ (owner_lt hT hp), hr]
    beta_reduce
    rw [setArr_ne (Or.inl (by simp [aU, aU2])), setArr_ne (Or.inl (by simp [aU, aU2]))]
    exact w2 p hp c hb v (hB.nv ▸ hv)
  · intro _ p hp c hb v hv
    rw [hX _ (owner_lt hT hp), hr]
    beta_reduce
    rw [setArr_ne (Or.inl (by simp [aG, aU2])), setArr_ne (Or.inl (by simp [aG, aU2])),
      fr2 _ (owner_lt hT hp) _ (by simp [aG, aU]) (by simp [aG]), f2.frame _ (fun e => by simp [aG, aU] at e)]
    exact (hp1 p hp c hb v).2

/-! ### The loop -/

/-- The parallel run `s` and the serial run `z` are at the same point. -/
structure Beside (C : HydroConf ℝ) (T : Ranks) (s : Nat → HydroState ℝ) (z : HydroState ℝ) : Prop where
  t : ∀ r, r < T.num → (s r).t = z.t
  it : ∀ r, r < T.num → (s r).iteration = z.iteration
  saved : ∀ r, r < T.num → (s r).timesSaved = z.timesSaved
  parts : Parts C T (bufIn z.iteration) (fun r => (s r).m) z.m
  files : ∀ p, Block T.mx T.my T.mz p →
    List.Forall₂ (PartFile C.d3 C.P p) (s (owner T.my T.mz p)).files z.files

variable {s s' : Nat → HydroState ℝ} {z z' : HydroState ℝ}

theorem Beside.finished (h : Beside C T s z) {r : Nat} (hr : r < T.num) :
    C.ctl.finished (s r).ctl = (C.whole T).ctl.finished z.ctl := by
  simp only [Sim.finished, HydroState.ctl, h.t r hr, h.it r hr]; rfl

theorem Beside.shouldSave (h : Beside C T s z) {r : Nat} (hr : r < T.num) :
    C.ctl.shouldSave (s r).ctl = (C.whole T).ctl.shouldSave z.ctl := by
  simp only [Sim.shouldSave, HydroState.ctl, h.t r hr, h.saved r hr]; rfl

/-- Only the states of the ranks count. -/
theorem Beside.congr (h : Beside C T s z) (hT : RanksOk C.d3 T) (e : ∀ r, r < T.num → s' r = s r) : Beside C T s' z := by
  refine ⟨fun r hr => by rw [e r hr, h.t r hr], fun r hr => by rw [e r hr, h.it r hr],
    fun r hr => by rw [e r hr, h.saved r hr], ⟨?_, ?_⟩, ?_⟩
  · intro p hp
    have := e _ (owner_lt hT hp)
    simp only [this]
    exact h.parts.data p hp
  · intro hg p hp
    have := e _ (owner_lt hT hp)
    simp only [this]
    exact h.parts.grav hg p hp
  · intro p hp
    rw [e _ (owner_lt hT hp)]
    exact h.files p hp

theorem Beside.save (h : Beside C T s z) (hT : RanksOk C.d3 T) (hC : C.Ok B) :
    Beside C T (fun r => (s r).save) z.save := by
  refine ⟨h.t, h.it, fun r hr => ?_, h.parts, ?_⟩
  · simp only [HydroState.save, h.saved r hr]
  · intro p hp
    have ho := owner_lt hT hp
    simp only [save_file]
    refine List.rel_append (h.files p hp) (.cons ⟨h.saved _ ho, h.t _ ho, ?_⟩ .nil)
    intro i j k v h1 h2 h3 h4
    obtain ⟨b1, b2⟩ := cell_box hC.box h1 h2 h3
    simp only [h.it _ ho]
    exact h.parts.data p hp _ b1 b2 v h4

theorem Beside.saveIf (h : Beside C T s z) (hT : RanksOk C.d3 T) (hC : C.Ok B) :
    Beside C T (fun r => C.saveIf (s r)) ((C.whole T).saveIf z) := by
  unfold HydroConf.saveIf
  have e : (C.whole T).ctl.nOutput = C.ctl.nOutput := rfl
  rw [e]
  split_ifs
  · exact h.save hT hC
  · exact h

theorem num_pos {d3 : Bool} (hT : RanksOk d3 T) : 0 < T.num := by
  have h1 := hT.mx; have h2 := hT.my; have h3 := hT.mz
  have : 0 < T.mx * T.my * T.mz := by positivity
  unfold Ranks.num; omega

/-- All ranks compute the time step of the serial run. -/
theorem mpi_dt (hT : RanksOk C.d3 T) (hC : C.Ok B) (hcfl : 0 ≤ C.S.cfl) (h : Beside C T s z)
    (r : C.MpiSetDt T.num s s') (q : (C.whole T).SetDt z z') :
    Beside C T s' z' ∧ ∀ r, r < T.num → (s' r).dt = z'.dt := by
  obtain ⟨L, D, hL, hD, e⟩ := r
  obtain ⟨d, hd, rfl⟩ := q
  refine ⟨⟨fun r hr => by rw [e r hr, h.t r hr], fun r hr => by rw [e r hr, h.it r hr],
    fun r hr => by rw [e r hr, h.saved r hr], ⟨?_, ?_⟩, ?_⟩, ?_⟩
  · intro p hp
    simp only [e _ (owner_lt hT hp)]
    exact h.parts.data p hp
  · intro hg p hp
    simp only [e _ (owner_lt hT hp)]
    exact h.parts.grav hg p hp
  · intro p hp
    rw [e _ (owner_lt hT hp)]
    exact h.files p hp
  · have key := C12_equals_serial (it := z.iteration) (t := z.t) (tEnd := C.ctl.tEnd) (grav := C.grav)
      (M := fun r => (s r).m) (G := z.m) hC.box hC.gas hC.spacings hcfl hC.bot hT.mx hT.my hT.mz hT.flat
      (fun p hp c hb hi => ⟨fun v hv => h.parts.data p hp c hb hi v hv,
        fun hg v hv => h.parts.grav hg p hp c hb v hv⟩)
      (dt := fun r => some (C.ctl.computeDt z.t (D r))) ⟨L, D, ?_, hD, fun r hr => rfl⟩
      (dtS := C.ctl.computeDt z.t d) ⟨d, hd, rfl⟩
    · intro r hr
      have := key r hr
      simp only [Option.some.injEq] at this
      rw [e r hr]
      simp only [h.t r hr]
      rw [this]; rfl
    · intro r hr
      have := hL r hr
      rw [h.it r hr] at this
      exact this

theorem mpi_before (hT : RanksOk C.d3 T) (hC : C.Ok B) (hcfl : 0 ≤ C.S.cfl) (h : Beside C T s z)
    (r : C.MpiBefore T.num s s')
    (q : (C.whole T).SetDt (if (C.whole T).ctl.enableOutput && (C.whole T).ctl.shouldSave z.ctl then z.save else z) z') :
    Beside C T s' z' ∧ ∀ r, r < T.num → (s' r).dt = z'.dt := by
  refine mpi_dt hT hC hcfl ?_ r q
  have ee : (C.whole T).ctl.enableOutput = C.ctl.enableOutput := rfl
  by_cases hs : ((C.whole T).ctl.enableOutput && (C.whole T).ctl.shouldSave z.ctl) = true
  · rw [if_pos hs]
    refine (h.save hT hC).congr hT fun r hr => if_pos ?_
    rw [h.shouldSave hr, ← ee]; exact hs
  · rw [if_neg hs]
    refine h.congr hT fun r hr => if_neg ?_
    rw [h.shouldSave hr, ← ee]; exact hs

/-- The job of a step. -/
theorem mpi_job (hT : RanksOk C.d3 T) (hC : C.Ok B) (h : Beside C T s z) (hd : ∀ r, r < T.num → (s r).dt = z.dt)
    {J : Nat → Junk ℝ} {J0 : Junk ℝ} {G' : Addr → ℝ}
    (r : Runs (godunov_unsplit C.d3 C.S (Spec.whole T C.P) J0 C.impl C.grav z.dt z.iteration) z.m G') :
    JobOK T.num (C.mpiStep T J s) (stepDom C (bufIn z.iteration)) (fun r => (s r).m)
      (fun R => Parts C T (bufOut z.iteration) R G') := by
  refine (mpi_step hT hC (J := J) h.parts r).congr fun r hr => ?_
  rw [HydroConf.mpiStep, hd r hr, h.it r hr]

theorem mpi_next (hT : RanksOk C.d3 T) (hC : C.Ok B) (hcfl : 0 ≤ C.S.cfl) (h : Beside C T s z)
    (r : C.MpiNext T s s') (q : (C.whole T).Next z z') : Beside C T s' z' := by
  obtain ⟨s2, h2, J, M', hj, e⟩ := r
  obtain ⟨z2, k2, J0, m', hr, rfl⟩ := q
  obtain ⟨b, hd⟩ := mpi_before hT hC hcfl h h2 k2
  have P' := (mpi_job hT hC b hd (J := J) hr).of_run hj
  refine ⟨fun r hr => by rw [e r hr]; simp only [b.t r hr, hd r hr],
    fun r hr => by rw [e r hr]; simp only [b.it r hr],
    fun r hr => by rw [e r hr]; exact b.saved r hr, ⟨?_, ?_⟩, ?_⟩
  · intro p hp
    simp only [e _ (owner_lt hT hp), ← bufOut_eq]
    exact P'.data p hp
  · intro hg p hp
    simp only [e _ (owner_lt hT hp)]
    exact P'.grav hg p hp
  · intro p hp
    rw [e _ (owner_lt hT hp)]
    exact b.files p hp

theorem allReduce_exists {N : Nat} (hN : 0 < N) (x : Nat → ℝ) : ∃ y, AllReduce mpiMin N x y := by
  obtain ⟨n, rfl⟩ : ∃ n, N = n + 1 := ⟨N - 1, by omega⟩
  have : ∃ K : CombineTree, K.ranks = List.range (n + 1) := by
    clear hN
    induction n with
    | zero => exact ⟨.rank 0, rfl⟩
    | succ n ih =>
      obtain ⟨K, hK⟩ := ih
      exact ⟨.join K (.rank (n + 1)), by rw [CombineTree.ranks, hK, List.range_succ (n := n + 1)]; rfl⟩
  obtain ⟨K, hK⟩ := this
  exact ⟨fun _ => K.value mpiMin x, fun r _ => ⟨K, by rw [hK], rfl⟩⟩

theorem mpiSetDt_exists (hT : RanksOk C.d3 T) (s : Nat → HydroState ℝ) : ∃ s', C.MpiSetDt T.num s s' := by
  choose L hL using fun r => computeDt_exists C.bot C.d3 C.S C.P C.grav (s r).iteration (s r).m
  obtain ⟨D, hD⟩ := allReduce_exists (num_pos hT) L
  exact ⟨_, L, D, fun r _ => hL r, hD, fun _ _ => rfl⟩

theorem mpi_loop (hT : RanksOk C.d3 T) (hC : C.Ok B) (hcfl : 0 ≤ C.S.cfl) (hn : C.ctl.nlog ≠ 0)
    (h : Beside C T s z) (hl : (C.whole T).Loop z (some z')) :
    (∃ s', C.MpiLoop T s (some s')) ∧ ∀ x, C.MpiLoop T s x → ∃ s', x = some s' ∧ Beside C T s' z' := by
  have h0 := num_pos hT
  generalize hx : some z' = x at hl
  induction hl generalizing s with
  | done hf =>
    cases hx
    refine ⟨⟨s, .done fun r hr => by rw [h.finished hr]; exact hf⟩, fun x hx => ?_⟩
    have no : ∀ r, r < T.num → ¬ C.ctl.finished (s r).ctl = false := fun r hr e => by
      rw [h.finished hr, hf] at e; cases e
    cases hx with
    | done => exact ⟨s, rfl, h⟩
    | ub hr e => exact absurd e (no _ hr)
    | mixed _ hr _ e => exact absurd e (no _ hr)
    | hang e => exact absurd (e 0 h0) (no 0 h0)
    | step e => exact absurd (e 0 h0) (no 0 h0)
  | ub => cases hx
  | @step z z1 x hf _ hs hl ih =>
    have go : ∀ r, r < T.num → C.ctl.finished (s r).ctl = false := fun r hr => by rw [h.finished hr]; exact hf
    have no : ∀ r, r < T.num → ¬ C.ctl.finished (s r).ctl = true := fun r hr e => by rw [go r hr] at e; cases e
    constructor
    · obtain ⟨s2, h2⟩ := mpiSetDt_exists (C := C) hT
        (fun r => if C.ctl.enableOutput && C.ctl.shouldSave (s r).ctl then (s r).save else s r)
      have hs' := hs
      obtain ⟨z2, k2, J0, m', hr, rfl⟩ := hs'
      obtain ⟨b, hd⟩ := mpi_before hT hC hcfl h h2 k2
      obtain ⟨M', hM'⟩ := (mpi_job hT hC b hd (J := fun _ => junk0) hr).exists_run
      have nx : C.MpiNext T s (fun r => { s2 r with
          m := M' r, iteration := (s2 r).iteration + 1, t := (s2 r).t + (s2 r).dt }) :=
        ⟨s2, h2, _, M', hM', fun _ _ => rfl⟩
      obtain ⟨⟨s', l⟩, -⟩ := ih (mpi_next hT hC hcfl h nx hs) hx
      exact ⟨s', .step go hn nx l⟩
    · intro x hx'
      cases hx' with
      | done e => exact absurd (e 0 h0) (no 0 h0)
      | ub _ _ e => exact absurd e hn
      | mixed hr _ e => exact absurd e (no _ hr)
      | hang _ h2 hh =>
        obtain ⟨z2, k2, J0, m', hr, rfl⟩ := hs
        obtain ⟨b, hd⟩ := mpi_before hT hC hcfl h h2 k2
        exact absurd hh (mpi_job hT hC b hd hr).no_hang
      | step _ _ nx l => exact (ih (mpi_next hT hC hcfl h nx hs) hx).2 _ l

end step

end Verif
