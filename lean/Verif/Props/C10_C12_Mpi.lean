import Verif.Lemmas.HaloWindow
import Verif.Props.C05_C08_Ghosts
import Verif.Props.C32_C59_Dt

/-!
# C10–C12: runs on several processes

Rank `(px*my + py)*mz + pz` owns block `(px,py,pz)` of `mx × my × mz` equal blocks of `nx × ny × nz` cells.
`globalGrid` describes the whole domain.  Every statement about an execution holds for every
interleaving of the ranks, every buffering behaviour of the MPI library, and every schedule of the threads.
-/

namespace Verif

open Spec ROps

variable {α : Type} [ROps α]

/-- The whole domain of a job with `mx × my × mz` ranks whose local parameters are `P`. -/
def Spec.globalGrid (mx my mz : Int) (P : Grid) : Grid :=
  { P with nx := mx * P.nx, ny := my * P.ny, nz := mz * P.nz }

/-- What a job of `N` ranks that starts with memories `M` guarantees. -/
structure Spec.JobOK (N : Nat) (prog : Nat → List (MpiOp α)) (dom : Addr → Prop) (M : Nat → Addr → α)
    (Q : (Nat → Addr → α) → Prop) : Prop where
  /-- whenever a rank is about to run loops: they stay in bounds, have no data race, terminate, and
  have one possible result -/
  loops : ∀ buffered s, Relation.ReflTransGen (Net.Step N prog buffered) (Net.start M) s →
    ∀ r, r < N → ∀ Ls, (prog r)[(s.rank r).pc]? = some (.kernels Ls) →
      ∃ m', YieldsAll dom Ls (s.rank r).mem m'
  /-- no deadlock: a state in which nothing can happen is the end of the job -/
  progress : ∀ buffered s, Relation.ReflTransGen (Net.Step N prog buffered) (Net.start M) s →
    Net.Done N prog s ∨ ∃ s', Net.Step N prog buffered s s'
  /-- there is no infinite execution -/
  terminates : ∀ buffered, Acc (fun s' s => Net.Step N prog buffered s s') (Net.start M)
  /-- at the end -/
  result : ∀ buffered s, Relation.ReflTransGen (Net.Step N prog buffered) (Net.start M) s →
    Net.Done N prog s → Q (fun r => (s.rank r).mem)

/-- An aligned program is a good job. -/
theorem LockSeq.job {N : Nat} {dom : Addr → Prop} {L : List (Nat → MpiOp α)} {M M' : Nat → Addr → α}
    (h : LockSeq N (fun _ => dom) L M M') {Q : (Nat → Addr → α) → Prop}
    (hQ : ∀ X : Nat → Addr → α, (∀ r, r < N → X r = M' r) → Q X) :
    JobOK N (fun r => L.map fun f => f r) dom M Q := by
  obtain ⟨T, t0, t1, hL⟩ := h.lockstep
  subst t0
  refine ⟨?_, ?_, ?_, ?_⟩
  · intro b s hs r hr Ls hop
    have hI := Inv.reach hL hs
    have hlt := pc_lt hL hr hop
    have hmem : (s.rank r).mem = T (s.rank r).pc r := by
      obtain ⟨_, h | ⟨sd, rd, x, _, hx, _⟩⟩ := hI.local_ r hr
      · exact h.2
      · rw [hop] at hx; cases hx
    rw [hmem]
    cases hL.lock _ hlt with
    | kernels Ls' h' hy =>
      have e := h' r hr
      rw [hop] at e
      cases e
      exact ⟨_, hy r hr⟩
    | sendrecv a h' =>
      have e := h' r hr
      rw [hop] at e
      cases e
    | barrier h' =>
      have e := h' r hr
      rw [hop] at e
      cases e
  · intro b s hs
    by_cases hd : Net.Done N (fun r => L.map fun f => f r) s
    · exact Or.inl hd
    · exact Or.inr ((Inv.reach hL hs).progress hL hd)
  · intro b
    exact Inv.terminates hL _ Inv.start
  · intro b s hs hd
    exact hQ _ (fun r hr => by rw [(Inv.reach hL hs).final hL hd r hr, t1])

theorem Setup2.wide {P : Grid} {xlo xhi ylo yhi : BC} (h : Setup2 P xlo xhi ylo yhi) : P.WideD false :=
  ⟨by have := h.g; omega, fun a ha => by
    cases a
    · exact h.nx
    · exact h.ny
    · exact absurd (ha rfl) Bool.false_ne_true⟩

theorem Setup3.wide {P : Grid} {xlo xhi ylo yhi zlo zhi : BC} (h : Setup3 P xlo xhi ylo yhi zlo zhi) :
    P.WideD true :=
  ⟨by have := h.g; omega, fun a _ => by
    cases a
    · exact h.nx
    · exact h.ny
    · exact h.nz⟩

theorem scale_le {m n g : Int} (hm : 1 ≤ m) (hg : 1 ≤ g) (h : g ≤ n) : g ≤ m * n := by nlinarith

/-- The exchange of C10 (2D), statement by statement. -/
theorem halo_lock_2d (hone : ∀ x : α, x * lit 1 = x) (lay : Layout) (mhd : Bool) {P : Grid} {U : Nat}
    (hU : NotBuf U) {xlo xhi ylo yhi : BC} (h : Setup2 P xlo xhi ylo yhi) {mx my : Int}
    (hmx : 1 ≤ mx) (hmy : 1 ≤ my) (G : Addr → α) (M : Nat → Addr → α)
    (hM : ∀ px py i j v, 0 ≤ px → px < mx → 0 ≤ py → py < my → P.ghostWidth ≤ i →
      i < P.nx + P.ghostWidth → P.ghostWidth ≤ j → j < P.ny + P.ghostWidth → v < P.nbvar →
      M (px * my + py).toNat ⟨U, i, j, 0, v⟩ = G ⟨U, px * P.nx + i, py * P.ny + j, 0, v⟩) :
    ∃ G' R, YieldsAll ((globalGrid mx my 1 P).alloc2 U)
        (makeBoundariesSerial2D mhd (globalGrid mx my 1 P) U) G G' ∧
      LockSeq (mx * my * 1).toNat (fun _ => haloAlloc false P U)
        (haloOps false lay mhd P U mx my 1 .xmin .xmax ++ haloOps false lay mhd P U mx my 1 .ymin .ymax) M R ∧
      ∀ px py i j v, 0 ≤ px → px < mx → 0 ≤ py → py < my → 0 ≤ i →
          i < P.nx + 2 * P.ghostWidth → 0 ≤ j → j < P.ny + 2 * P.ghostWidth → v < P.nbvar →
          R (px * my + py).toNat ⟨U, i, j, 0, v⟩ = G' ⟨U, px * P.nx + i, py * P.ny + j, 0, v⟩ := by
  have hw := h.wide
  have hg := h.g
  have hNe : mx * my * 1 = mx * my := mul_one _
  have hbx : Ax.x.In false := fun e => by cases e
  have hby : Ax.y.In false := fun e => by cases e
  have hcells : ∀ {c : Cell}, P.cells false c ↔ P.cell2 c := Iff.rfl
  have ei := P.isize_eq
  have ej := P.jsize_eq
  -- x
  obtain ⟨M1, s1, r1⟩ := stage_window hone lay mhd hw hU (mx := mx) (my := my) (mz := 1) (by omega)
    (by omega) (by omega) hbx h.xmin h.xmax
    (fun c => P.ghostWidth ≤ c.j ∧ c.j < P.ny + P.ghostWidth) (fun c i hc => hc)
    (fun c v => G (c.at U v)) M (by
      intro r hr c v hc hv hs h0 h1
      have c0 := cartCoords_range (by omega) (by omega) (by omega) hr .x
      have c1 := cartCoords_range (by omega) (by omega) (by omega) hr .y
      have er := cartRank_cartCoords (by omega) (by omega) (by omega) hr
      simp only [Ax.get, Ax.m, Ax.n] at c0 c1 h0 h1
      have hk := (hcells.1 hc).2.2.2.2
      have hk0 : (cartCoords my 1 r).k = 0 := Int.emod_one _
      have := hM (cartCoords my 1 r).i (cartCoords my 1 r).j c.i c.j v c0.1 c0.2 c1.1 c1.2 h0 h1
        hs.1 hs.2 hv
      simp only [cartRank, Int.emod_eq_of_lt c0.1 c0.2, Int.emod_eq_of_lt c1.1 c1.2, mul_one,
        Int.emod_one, add_zero] at er
      rw [er] at this
      show M r ⟨U, c.i, c.j, c.k, v⟩ = G ⟨U, (cartCoords my 1 r).i * P.nx + c.i,
        (cartCoords my 1 r).j * P.ny + c.j, (cartCoords my 1 r).k * P.nz + c.k, v⟩
      rw [hk, hk0, this, zero_mul, zero_add])
  -- y
  obtain ⟨M2, s2, r2⟩ := stage_window hone lay mhd hw hU (mx := mx) (my := my) (mz := 1) (by omega)
    (by omega) (by omega) hby h.ymin h.ymax (fun _ => True) (fun c i hc => hc)
    (fun C v => cross (mx * P.nx) P.ghostWidth xlo xhi (normalTo 0 mhd v) C.i
      (G ((⟨source (mx * P.nx) P.ghostWidth xlo xhi C.i, C.j, C.k⟩ : Cell).at U v))) M1 (by
      intro r hr c v hc hv _ h0 h1
      exact r1 r hr c v hc hv ⟨h0, h1⟩)
  obtain ⟨G', g1, g2, -⟩ := fill2 mhd (globalGrid mx my 1 P) U
    ⟨by show 0 < P.ghostWidth; omega, scale_le hmx hg h.nx, scale_le hmy hg h.ny⟩
    (xlo := xlo) (xhi := xhi) (ylo := ylo) (yhi := yhi) h.xmin h.xmax h.ymin h.ymax G
  refine ⟨G', M2, g1, s1.append s2, ?_⟩
  intro px py i j v hpx0 hpx1 hpy0 hpy1 hi0 hi1 hj0 hj1 hv
  obtain ⟨q1, q2⟩ := coords_of_pos (mz := 1) (pz := 0) hpx0 hpx1 hpy0 hpy1 le_rfl (by omega)
  simp only [mul_one, add_zero] at q1 q2
  have e := r2 (px * my + py).toNat (by rw [hNe]; exact q1) ⟨i, j, 0⟩ v
    ⟨hi0, by simp only; omega, hj0, by simp only; omega, rfl⟩ hv trivial
  refine e.trans ?_
  have eg := g2 ⟨px * P.nx + i, py * P.ny + j, 0⟩ v ?_ hv
  · refine Eq.trans ?_ eg.symm
    simp only [globCell, q2, Ax.get, Ax.set, Ax.m, Ax.n, Ax.nrm, Ax.num, globalGrid, zero_mul,
      zero_add]
  · have hnx : 0 < P.nx := by have := h.nx; omega
    have hny : 0 < P.ny := by have := h.ny; omega
    have a1 : px * P.nx + P.nx ≤ mx * P.nx := by nlinarith
    have a2 : py * P.ny + P.ny ≤ my * P.ny := by nlinarith
    have a3 : 0 ≤ px * P.nx := by positivity
    have a4 : 0 ≤ py * P.ny := by positivity
    have ei' := (globalGrid mx my 1 P).isize_eq
    have ej' := (globalGrid mx my 1 P).jsize_eq
    simp only [globalGrid] at ei' ej'
    refine ⟨?_, ?_, ?_, ?_, rfl⟩ <;> simp only [globalGrid] <;> omega

/-- **C10** (2D): the exchange among `mx × my` ranks, started from local arrays whose interior cells
are those of a global array `G`, ends with each rank holding exactly its window, ghost cells and
corners included, of what the serial fill makes of `G`. -/
theorem C10_mpi_fill_2d (hone : ∀ x : α, x * lit 1 = x) (lay : Layout) (mhd : Bool) {P : Grid} {U : Nat}
    (hU : NotBuf U) {xlo xhi ylo yhi : BC} (h : Setup2 P xlo xhi ylo yhi) {mx my : Int}
    (hmx : 1 ≤ mx) (hmy : 1 ≤ my) (G : Addr → α) (M : Nat → Addr → α)
    (hM : ∀ px py i j v, 0 ≤ px → px < mx → 0 ≤ py → py < my → P.ghostWidth ≤ i →
      i < P.nx + P.ghostWidth → P.ghostWidth ≤ j → j < P.ny + P.ghostWidth → v < P.nbvar →
      M (px * my + py).toNat ⟨U, i, j, 0, v⟩ = G ⟨U, px * P.nx + i, py * P.ny + j, 0, v⟩) :
    ∃ G', YieldsAll ((globalGrid mx my 1 P).alloc2 U)
        (makeBoundariesSerial2D mhd (globalGrid mx my 1 P) U) G G' ∧
      JobOK (mx * my).toNat (makeBoundariesMpi2D lay mhd P U mx my) (haloAlloc false P U) M
        (fun R => ∀ px py i j v, 0 ≤ px → px < mx → 0 ≤ py → py < my → 0 ≤ i →
          i < P.nx + 2 * P.ghostWidth → 0 ≤ j → j < P.ny + 2 * P.ghostWidth → v < P.nbvar →
          R (px * my + py).toNat ⟨U, i, j, 0, v⟩ = G' ⟨U, px * P.nx + i, py * P.ny + j, 0, v⟩) := by
  obtain ⟨G', R, g, l, w⟩ := halo_lock_2d hone lay mhd hU h hmx hmy G M hM
  refine ⟨G', g, ?_⟩
  have job := LockSeq.job l (Q := fun R => ∀ px py i j v, 0 ≤ px → px < mx → 0 ≤ py →
    py < my → 0 ≤ i → i < P.nx + 2 * P.ghostWidth → 0 ≤ j → j < P.ny + 2 * P.ghostWidth →
    v < P.nbvar → R (px * my + py).toNat ⟨U, i, j, 0, v⟩
      = G' ⟨U, px * P.nx + i, py * P.ny + j, 0, v⟩) (by
    intro X hX px py i j v hpx0 hpx1 hpy0 hpy1 hi0 hi1 hj0 hj1 hv
    obtain ⟨q1, -⟩ := coords_of_pos (mz := 1) (pz := 0) hpx0 hpx1 hpy0 hpy1 le_rfl (by omega)
    simp only [mul_one, add_zero] at q1
    rw [hX _ (by rw [mul_one]; exact q1)]
    exact w px py i j v hpx0 hpx1 hpy0 hpy1 hi0 hi1 hj0 hj1 hv)
  rw [mul_one] at job
  exact job

/-- The exchange of C10 (3D), statement by statement. -/
theorem halo_lock_3d (hone : ∀ x : α, x * lit 1 = x) (lay : Layout) (mhd : Bool) {P : Grid} {U : Nat}
    (hU : NotBuf U) {xlo xhi ylo yhi zlo zhi : BC} (h : Setup3 P xlo xhi ylo yhi zlo zhi)
    {mx my mz : Int} (hmx : 1 ≤ mx) (hmy : 1 ≤ my) (hmz : 1 ≤ mz) (G : Addr → α) (M : Nat → Addr → α)
    (hM : ∀ px py pz i j k v, 0 ≤ px → px < mx → 0 ≤ py → py < my → 0 ≤ pz → pz < mz →
      P.ghostWidth ≤ i → i < P.nx + P.ghostWidth → P.ghostWidth ≤ j → j < P.ny + P.ghostWidth →
      P.ghostWidth ≤ k → k < P.nz + P.ghostWidth → v < P.nbvar →
      M ((px * my + py) * mz + pz).toNat ⟨U, i, j, k, v⟩
        = G ⟨U, px * P.nx + i, py * P.ny + j, pz * P.nz + k, v⟩) :
    ∃ G' R, YieldsAll ((globalGrid mx my mz P).alloc3 U)
        (makeBoundariesSerial3D mhd (globalGrid mx my mz P) U) G G' ∧
      LockSeq (mx * my * mz).toNat (fun _ => haloAlloc true P U)
        (haloOps true lay mhd P U mx my mz .xmin .xmax ++ haloOps true lay mhd P U mx my mz .ymin .ymax ++
          haloOps true lay mhd P U mx my mz .zmin .zmax) M R ∧
      ∀ px py pz i j k v, 0 ≤ px → px < mx → 0 ≤ py → py < my → 0 ≤ pz → pz < mz →
          0 ≤ i → i < P.nx + 2 * P.ghostWidth → 0 ≤ j → j < P.ny + 2 * P.ghostWidth →
          0 ≤ k → k < P.nz + 2 * P.ghostWidth → v < P.nbvar →
          R ((px * my + py) * mz + pz).toNat ⟨U, i, j, k, v⟩
            = G' ⟨U, px * P.nx + i, py * P.ny + j, pz * P.nz + k, v⟩ := by
  have hw := h.wide
  have hg := h.g
  have hbx : Ax.x.In true := fun _ => rfl
  have hby : Ax.y.In true := fun _ => rfl
  have hbz : Ax.z.In true := fun _ => rfl
  have ei := P.isize_eq
  have ej := P.jsize_eq
  have ek := P.ksize_eq
  obtain ⟨M1, s1, r1⟩ := stage_window hone lay mhd hw hU (mx := mx) (my := my) (mz := mz) (by omega)
    (by omega) (by omega) hbx h.xmin h.xmax
    (fun c => (P.ghostWidth ≤ c.j ∧ c.j < P.ny + P.ghostWidth) ∧
      P.ghostWidth ≤ c.k ∧ c.k < P.nz + P.ghostWidth) (fun c i hc => hc)
    (fun c v => G (c.at U v)) M (by
      intro r hr c v hc hv hs h0 h1
      have c0 := cartCoords_range (by omega) (by omega) (by omega) hr .x
      have c1 := cartCoords_range (by omega) (by omega) (by omega) hr .y
      have c2 := cartCoords_range (by omega) (by omega) (by omega) hr .z
      have er := cartRank_cartCoords (by omega) (by omega) (by omega) hr
      simp only [Ax.get, Ax.m, Ax.n] at c0 c1 c2 h0 h1
      have := hM (cartCoords my mz r).i (cartCoords my mz r).j (cartCoords my mz r).k c.i c.j c.k v
        c0.1 c0.2 c1.1 c1.2 c2.1 c2.2 h0 h1 hs.1.1 hs.1.2 hs.2.1 hs.2.2 hv
      simp only [cartRank, Int.emod_eq_of_lt c0.1 c0.2, Int.emod_eq_of_lt c1.1 c1.2,
        Int.emod_eq_of_lt c2.1 c2.2] at er
      rw [er] at this
      exact this)
  obtain ⟨M2, s2, r2⟩ := stage_window hone lay mhd hw hU (mx := mx) (my := my) (mz := mz) (by omega)
    (by omega) (by omega) hby h.ymin h.ymax
    (fun c => P.ghostWidth ≤ c.k ∧ c.k < P.nz + P.ghostWidth) (fun c i hc => hc)
    (fun C v => cross (mx * P.nx) P.ghostWidth xlo xhi (normalTo 0 mhd v) C.i
      (G ((⟨source (mx * P.nx) P.ghostWidth xlo xhi C.i, C.j, C.k⟩ : Cell).at U v))) M1 (by
      intro r hr c v hc hv hs h0 h1
      exact r1 r hr c v hc hv ⟨⟨h0, h1⟩, hs⟩)
  obtain ⟨M3, s3, r3⟩ := stage_window hone lay mhd hw hU (mx := mx) (my := my) (mz := mz) (by omega)
    (by omega) (by omega) hbz h.zmin h.zmax (fun _ => True) (fun c i hc => hc)
    (fun C v => cross (my * P.ny) P.ghostWidth ylo yhi (normalTo 1 mhd v) C.j
      (cross (mx * P.nx) P.ghostWidth xlo xhi (normalTo 0 mhd v) C.i
      (G ((⟨source (mx * P.nx) P.ghostWidth xlo xhi C.i,
        source (my * P.ny) P.ghostWidth ylo yhi C.j, C.k⟩ : Cell).at U v)))) M2 (by
      intro r hr c v hc hv _ h0 h1
      exact r2 r hr c v hc hv ⟨h0, h1⟩)
  obtain ⟨G', g1, g2, -⟩ := fill3 mhd (globalGrid mx my mz P) U
    ⟨⟨by show 0 < P.ghostWidth; omega, scale_le hmx hg h.nx, scale_le hmy hg h.ny⟩,
      scale_le hmz hg h.nz⟩
    (xlo := xlo) (xhi := xhi) (ylo := ylo) (yhi := yhi) (zlo := zlo) (zhi := zhi)
    h.xmin h.xmax h.ymin h.ymax h.zmin h.zmax G
  refine ⟨G', M3, g1, (s1.append s2).append s3, ?_⟩
  intro px py pz i j k v hpx0 hpx1 hpy0 hpy1 hpz0 hpz1 hi0 hi1 hj0 hj1 hk0 hk1 hv
  obtain ⟨q1, q2⟩ := coords_of_pos hpx0 hpx1 hpy0 hpy1 hpz0 hpz1
  have e := r3 _ q1 ⟨i, j, k⟩ v
    ⟨hi0, by simp only; omega, hj0, by simp only; omega, hk0, by simp only; omega⟩ hv trivial
  refine e.trans ?_
  have eg := g2 ⟨px * P.nx + i, py * P.ny + j, pz * P.nz + k⟩ v ?_ hv
  · refine Eq.trans ?_ eg.symm
    simp only [globCell, q2, Ax.get, Ax.set, Ax.m, Ax.n, Ax.nrm, Ax.num, globalGrid]
  · have hnx : 0 < P.nx := by have := h.nx; omega
    have hny : 0 < P.ny := by have := h.ny; omega
    have hnz : 0 < P.nz := by have := h.nz; omega
    have a1 : px * P.nx + P.nx ≤ mx * P.nx := by nlinarith
    have a2 : py * P.ny + P.ny ≤ my * P.ny := by nlinarith
    have a5 : pz * P.nz + P.nz ≤ mz * P.nz := by nlinarith
    have a3 : 0 ≤ px * P.nx := by positivity
    have a4 : 0 ≤ py * P.ny := by positivity
    have a6 : 0 ≤ pz * P.nz := by positivity
    have ei' := (globalGrid mx my mz P).isize_eq
    have ej' := (globalGrid mx my mz P).jsize_eq
    have ek' := (globalGrid mx my mz P).ksize_eq
    simp only [globalGrid] at ei' ej' ek'
    refine ⟨?_, ?_, ?_, ?_, ?_, ?_⟩ <;> simp only [globalGrid] <;> omega

/-- **C10** (3D). -/
theorem C10_mpi_fill_3d (hone : ∀ x : α, x * lit 1 = x) (lay : Layout) (mhd : Bool) {P : Grid} {U : Nat}
    (hU : NotBuf U) {xlo xhi ylo yhi zlo zhi : BC} (h : Setup3 P xlo xhi ylo yhi zlo zhi)
    {mx my mz : Int} (hmx : 1 ≤ mx) (hmy : 1 ≤ my) (hmz : 1 ≤ mz) (G : Addr → α) (M : Nat → Addr → α)
    (hM : ∀ px py pz i j k v, 0 ≤ px → px < mx → 0 ≤ py → py < my → 0 ≤ pz → pz < mz →
      P.ghostWidth ≤ i → i < P.nx + P.ghostWidth → P.ghostWidth ≤ j → j < P.ny + P.ghostWidth →
      P.ghostWidth ≤ k → k < P.nz + P.ghostWidth → v < P.nbvar →
      M ((px * my + py) * mz + pz).toNat ⟨U, i, j, k, v⟩
        = G ⟨U, px * P.nx + i, py * P.ny + j, pz * P.nz + k, v⟩) :
    ∃ G', YieldsAll ((globalGrid mx my mz P).alloc3 U)
        (makeBoundariesSerial3D mhd (globalGrid mx my mz P) U) G G' ∧
      JobOK (mx * my * mz).toNat (makeBoundariesMpi3D lay mhd P U mx my mz) (haloAlloc true P U) M
        (fun R => ∀ px py pz i j k v, 0 ≤ px → px < mx → 0 ≤ py → py < my → 0 ≤ pz → pz < mz →
          0 ≤ i → i < P.nx + 2 * P.ghostWidth → 0 ≤ j → j < P.ny + 2 * P.ghostWidth →
          0 ≤ k → k < P.nz + 2 * P.ghostWidth → v < P.nbvar →
          R ((px * my + py) * mz + pz).toNat ⟨U, i, j, k, v⟩
            = G' ⟨U, px * P.nx + i, py * P.ny + j, pz * P.nz + k, v⟩) := by
  obtain ⟨G', R, g, l, w⟩ := halo_lock_3d hone lay mhd hU h hmx hmy hmz G M hM
  refine ⟨G', g, LockSeq.job l ?_⟩
  intro X hX px py pz i j k v hpx0 hpx1 hpy0 hpy1 hpz0 hpz1 hi0 hi1 hj0 hj1 hk0 hk1 hv
  rw [hX _ (coords_of_pos hpx0 hpx1 hpy0 hpy1 hpz0 hpz1).1]
  exact w px py pz i j k v hpx0 hpx1 hpy0 hpy1 hpz0 hpz1 hi0 hi1 hj0 hj1 hk0 hk1 hv

/-- Hypotheses of C10 met by 2×3 ranks of 4×3 cells with two ghost layers, reflecting below and
absorbing above in x, periodic in y, with data that differ from cell to cell. -/
example : ∃ (P : Grid) (G : Addr → ℚ) (M : Nat → Addr → ℚ), Setup2 P .reflecting .absorbing .periodic .periodic ∧
    NotBuf aU ∧ (∀ x : ℚ, x * lit 1 = x) ∧
    (∀ px py i j v, 0 ≤ px → px < 2 → 0 ≤ py → py < 3 → P.ghostWidth ≤ i →
      i < P.nx + P.ghostWidth → P.ghostWidth ≤ j → j < P.ny + P.ghostWidth → v < P.nbvar →
      M (px * 3 + py).toNat ⟨aU, i, j, 0, v⟩ = G ⟨aU, px * P.nx + i, py * P.ny + j, 0, v⟩) ∧
    G ⟨aU, 3, 4, 0, 1⟩ ≠ G ⟨aU, 4, 4, 0, 1⟩ := by
  refine ⟨⟨4, 3, 1, 2, 4, 1, 2, 3, 3, 1, 1⟩, fun a => a.i + 100 * a.j + 10000 * a.v,
    fun r a => ((r : Int) / 3 * 4 + a.i : Int) + 100 * ((r : Int) % 3 * 3 + a.j : Int) + 10000 * a.v,
    ⟨by norm_num, by norm_num, by norm_num, rfl, rfl, rfl, rfl⟩, ?_, ?_, ?_, ?_⟩
  · intro f; cases f <;> decide
  · intro x; simp [lit]
  · intro px py i j v a b c d _ _ _ _ _
    have e : ((px * 3 + py).toNat : Int) = px * 3 + py := Int.toNat_of_nonneg (by omega)
    have e1 : (px * 3 + py) / 3 = px := by omega
    have e2 : (px * 3 + py) % 3 = py := by omega
    simp only [e, e1, e2]
  · norm_num

/-! ### C11 -/

/-- The opposite face. -/
def Spec.opposite : Face → Face
  | .xmin => .xmax | .xmax => .xmin | .ymin => .ymax | .ymax => .ymin | .zmin => .zmax | .zmax => .zmin

/-- Block next to block `(px,py,pz)` across a face, in a periodic arrangement of `mx × my × mz` blocks. -/
def Spec.nextBlock (mx my mz : Int) (p : Cell) : Face → Cell
  | .xmin => { p with i := (p.i - 1) % mx }
  | .xmax => { p with i := (p.i + 1) % mx }
  | .ymin => { p with j := (p.j - 1) % my }
  | .ymax => { p with j := (p.j + 1) % my }
  | .zmin => { p with k := (p.k - 1) % mz }
  | .zmax => { p with k := (p.k + 1) % mz }

/-- Rank that owns block `p`. -/
def Spec.owner (my mz : Int) (p : Cell) : Nat := ((p.i * my + p.j) * mz + p.k).toNat

/-- `p` is one of the blocks. -/
structure Spec.Block (mx my mz : Int) (p : Cell) : Prop where
  x0 : 0 ≤ p.i
  x1 : p.i < mx
  y0 : 0 ≤ p.j
  y1 : p.j < my
  z0 : 0 ≤ p.k
  z1 : p.k < mz

/-- Every rank owns exactly one block. -/
theorem C11_blocks {mx my mz : Int} (hx : 1 ≤ mx) (hy : 1 ≤ my) (hz : 1 ≤ mz) :
    (∀ p, Block mx my mz p → owner my mz p < (mx * my * mz).toNat) ∧
    (∀ p q, Block mx my mz p → Block mx my mz q → owner my mz p = owner my mz q → p = q) ∧
    (∀ r, r < (mx * my * mz).toNat → ∃ p, Block mx my mz p ∧ owner my mz p = r) := by
  refine ⟨fun p h => (coords_of_pos h.x0 h.x1 h.y0 h.y1 h.z0 h.z1).1, ?_, ?_⟩
  · intro p q hp hq e
    have e1 := (coords_of_pos hp.x0 hp.x1 hp.y0 hp.y1 hp.z0 hp.z1).2
    have e2 := (coords_of_pos hq.x0 hq.x1 hq.y0 hq.y1 hq.z0 hq.z1).2
    unfold owner at e
    rw [e, e2] at e1
    cases p; cases q; exact e1.symm
  · intro r hr
    have c0 := cartCoords_range (by omega) (by omega) (by omega) hr .x
    have c1 := cartCoords_range (by omega) (by omega) (by omega) hr .y
    have c2 := cartCoords_range (by omega) (by omega) (by omega) hr .z
    have er := cartRank_cartCoords (by omega) (by omega) (by omega) hr
    simp only [Ax.get, Ax.m] at c0 c1 c2
    refine ⟨cartCoords my mz r, ⟨c0.1, c0.2, c1.1, c1.2, c2.1, c2.2⟩, ?_⟩
    simp only [cartRank, Int.emod_eq_of_lt c0.1 c0.2, Int.emod_eq_of_lt c1.1 c1.2,
      Int.emod_eq_of_lt c2.1 c2.2] at er
    exact er

/-- **C11**: the neighbour rank across a face is the owner of the next block. -/
theorem C11_neighbour {mx my mz : Int} {p : Cell} (h : Block mx my mz p) (f : Face) :
    neighborRank mx my mz (owner my mz p) f = owner my mz (nextBlock mx my mz p f) := by
  have e := (coords_of_pos h.x0 h.x1 h.y0 h.y1 h.z0 h.z1).2
  obtain ⟨a, b, c, d, e', f'⟩ := h
  unfold neighborRank owner
  rw [e]
  cases f <;> simp only [cartRank, nextBlock, Int.emod_eq_of_lt a b, Int.emod_eq_of_lt c d,
    Int.emod_eq_of_lt e' f']

/-- **C11**: neighbours are mutual, in every direction, whatever the number of ranks (one and two
included). -/
theorem C11_symmetric {mx my mz : Int} (hx : 1 ≤ mx) (hy : 1 ≤ my) (hz : 1 ≤ mz) {r : Nat}
    (hr : r < (mx * my * mz).toNat) (f : Face) :
    neighborRank mx my mz r f < (mx * my * mz).toNat ∧
    neighborRank mx my mz (neighborRank mx my mz r f) (opposite f) = r := by
  have hx' : 0 < mx := by omega
  have hy' : 0 < my := by omega
  have hz' : 0 < mz := by omega
  cases f
  · exact ⟨(neighbor_lo hx' hy' hz' .x r hr).1, neighbor_lo_hi hx' hy' hz' .x r hr⟩
  · exact ⟨(neighbor_hi hx' hy' hz' .x r hr).1, neighbor_hi_lo hx' hy' hz' .x r hr⟩
  · exact ⟨(neighbor_lo hx' hy' hz' .y r hr).1, neighbor_lo_hi hx' hy' hz' .y r hr⟩
  · exact ⟨(neighbor_hi hx' hy' hz' .y r hr).1, neighbor_hi_lo hx' hy' hz' .y r hr⟩
  · exact ⟨(neighbor_lo hx' hy' hz' .z r hr).1, neighbor_lo_hi hx' hy' hz' .z r hr⟩
  · exact ⟨(neighbor_hi hx' hy' hz' .z r hr).1, neighbor_hi_lo hx' hy' hz' .z r hr⟩

/-- Every send of statement `k` has exactly one partner: statement `k` of the destination receives from
this rank and from no other, with the same tag and extents; what leaves towards face `f` comes
from the send buffer of `f` and arrives in the receive buffer of the opposite face.  Every receive, too,
has its send. -/
structure Spec.Matched (N : Nat) (nbr : Nat → Face → Nat) (prog : Nat → List (MpiOp α)) : Prop where
  send : ∀ r, r < N → ∀ (k : Nat) (x : SendRecv), (prog r)[k]? = some (.sendrecv x) →
    ∃ (f : Face) (y : SendRecv), x.dst = nbr r f ∧ x.sbuf = bufSend f ∧ x.dst < N ∧
      (prog x.dst)[k]? = some (.sendrecv y) ∧ y.src = r ∧ y.rbuf = bufRecv (opposite f) ∧
      y.rtag = x.stag ∧ y.rshape = x.sshape
  recv : ∀ r, r < N → ∀ (k : Nat) (y : SendRecv), (prog r)[k]? = some (.sendrecv y) →
    ∃ (f : Face) (x : SendRecv), y.src = nbr r f ∧ y.rbuf = bufRecv f ∧ y.src < N ∧
      (prog y.src)[k]? = some (.sendrecv x) ∧ x.dst = r ∧ x.sbuf = bufSend (opposite f) ∧
      x.stag = y.rtag ∧ x.sshape = y.rshape
  unique : ∀ r r', r < N → r' < N → ∀ (k : Nat) (x x' : SendRecv), (prog r)[k]? = some (.sendrecv x) →
    (prog r')[k]? = some (.sendrecv x') → x.dst = x'.dst → r = r'

private theorem halo_two {d3 : Bool} {lay : Layout} {mhd : Bool} {P : Grid} {U : Nat} {mx my mz : Int}
    {a : Ax} {r k : Nat} {x : SendRecv}
    (h : (haloDirection (α := α) d3 lay mhd P U mx my mz a.lo a.hi r)[k]? = some (.sendrecv x)) :
    (k = 1 ∧ x = ⟨neighborRank mx my mz r a.lo, bufSend a.lo, P.bufShape d3 a.lo, haloTag a.lo,
      neighborRank mx my mz r a.hi, bufRecv a.hi, P.bufShape d3 a.hi, haloTag a.hi⟩) ∨
    (k = 2 ∧ x = ⟨neighborRank mx my mz r a.hi, bufSend a.hi, P.bufShape d3 a.hi, haloTag a.hi,
      neighborRank mx my mz r a.lo, bufRecv a.lo, P.bufShape d3 a.lo, haloTag a.lo⟩) := by
  unfold haloDirection at h
  match k, h with
  | 0, h => cases h
  | 1, h => left; cases h; exact ⟨rfl, rfl⟩
  | 2, h => right; cases h; exact ⟨rfl, rfl⟩
  | 3, h => cases h
  | 4, h => cases h
  | k + 5, h => simp at h

private theorem halo_matched {d3 : Bool} {lay : Layout} {mhd : Bool} {P : Grid} {U : Nat} {mx my mz : Int}
    (hx : 1 ≤ mx) (hy : 1 ≤ my) (hz : 1 ≤ mz) (a : Ax) :
    Matched (mx * my * mz).toNat (neighborRank mx my mz)
      (haloDirection (α := α) d3 lay mhd P U mx my mz a.lo a.hi) := by
  have hx' : 0 < mx := by omega
  have hy' : 0 < my := by omega
  have hz' : 0 < mz := by omega
  have olo : opposite a.lo = a.hi := by cases a <;> rfl
  have ohi : opposite a.hi = a.lo := by cases a <;> rfl
  have tag : haloTag a.lo = haloTag a.hi := by cases a <;> rfl
  have shp : P.bufShape d3 a.lo = P.bufShape d3 a.hi := by cases a <;> rfl
  refine ⟨?_, ?_, ?_⟩
  · intro r hr k x h
    have nl := (neighbor_lo hx' hy' hz' a r hr).1
    have nh := (neighbor_hi hx' hy' hz' a r hr).1
    have b1 := neighbor_lo_hi hx' hy' hz' a r hr
    have b2 := neighbor_hi_lo hx' hy' hz' a r hr
    rcases halo_two h with ⟨rfl, rfl⟩ | ⟨rfl, rfl⟩
    · exact ⟨a.lo, _, rfl, rfl, nl, rfl, b1, by rw [olo], tag.symm, shp.symm⟩
    · exact ⟨a.hi, _, rfl, rfl, nh, rfl, b2, by rw [ohi], tag, shp⟩
  · intro r hr k x h
    have nl := (neighbor_lo hx' hy' hz' a r hr).1
    have nh := (neighbor_hi hx' hy' hz' a r hr).1
    have b1 := neighbor_lo_hi hx' hy' hz' a r hr
    have b2 := neighbor_hi_lo hx' hy' hz' a r hr
    rcases halo_two h with ⟨rfl, rfl⟩ | ⟨rfl, rfl⟩
    · exact ⟨a.hi, _, rfl, rfl, nh, rfl, b2, by rw [ohi], tag, shp⟩
    · exact ⟨a.lo, _, rfl, rfl, nl, rfl, b1, by rw [olo], tag.symm, shp.symm⟩
  · intro r r' hr hr' k x x' h h' e
    rcases halo_two h with ⟨rfl, rfl⟩ | ⟨rfl, rfl⟩ <;> rcases halo_two h' with ⟨h1, rfl⟩ | ⟨h1, rfl⟩
    · simp only at e
      rw [← neighbor_lo_hi hx' hy' hz' a r hr, e, neighbor_lo_hi hx' hy' hz' a r' hr']
    · cases h1
    · cases h1
    · simp only at e
      rw [← neighbor_hi_lo hx' hy' hz' a r hr, e, neighbor_hi_lo hx' hy' hz' a r' hr']

private theorem Matched.append {N : Nat} {nbr : Nat → Face → Nat} {p q : Nat → List (MpiOp α)}
    (hp : Matched N nbr p) (hq : Matched N nbr q) (n : Nat) (hn : ∀ r, (p r).length = n) :
    Matched N nbr (fun r => p r ++ q r) := by
  have key : ∀ r k, (p r ++ q r)[k]? = if k < n then (p r)[k]? else (q r)[k - n]? := by
    intro r k
    rw [List.getElem?_append, hn r]
  refine ⟨?_, ?_, ?_⟩
  · intro r hr k x h
    simp only [key, hn] at h ⊢
    by_cases hk : k < n
    · simp only [if_pos hk] at h ⊢; exact hp.send r hr k x h
    · simp only [if_neg hk] at h ⊢; exact hq.send r hr _ x h
  · intro r hr k x h
    simp only [key, hn] at h ⊢
    by_cases hk : k < n
    · simp only [if_pos hk] at h ⊢; exact hp.recv r hr k x h
    · simp only [if_neg hk] at h ⊢; exact hq.recv r hr _ x h
  · intro r r' hr hr' k x x' h h'
    simp only [key, hn] at h h'
    by_cases hk : k < n
    · rw [if_pos hk] at h h'; exact hp.unique r r' hr hr' k x x' h h'
    · rw [if_neg hk] at h h'; exact hq.unique r r' hr hr' _ x x' h h'

/-- **C11** (2D): sends and receives match. -/
theorem C11_matching_2d (lay : Layout) (mhd : Bool) (P : Grid) (U : Nat) {mx my : Int} (hx : 1 ≤ mx)
    (hy : 1 ≤ my) :
    Matched (mx * my).toNat (neighborRank mx my 1) (makeBoundariesMpi2D (α := α) lay mhd P U mx my) := by
  have e : mx * my * 1 = mx * my := mul_one _
  rw [← e]
  exact Matched.append (halo_matched hx hy le_rfl .x) (halo_matched hx hy le_rfl .y) 5 (fun _ => rfl)

/-- **C11** (3D): sends and receives match. -/
theorem C11_matching_3d (lay : Layout) (mhd : Bool) (P : Grid) (U : Nat) {mx my mz : Int} (hx : 1 ≤ mx)
    (hy : 1 ≤ my) (hz : 1 ≤ mz) :
    Matched (mx * my * mz).toNat (neighborRank mx my mz)
      (makeBoundariesMpi3D (α := α) lay mhd P U mx my mz) :=
  Matched.append (Matched.append (halo_matched hx hy hz .x) (halo_matched hx hy hz .y) 5 (fun _ => rfl))
    (halo_matched hx hy hz .z) 10 (fun _ => rfl)

/-- The statements that send or receive: two per direction. -/
example : ((makeBoundariesMpi2D (α := ℚ) .left false ⟨4, 3, 1, 2, 4, 1, 2, 3, 3, 1, 1⟩ aU 2 3 0)[6]?).isSome := by
  decide

/-- **C11**: no deadlock, no infinite execution and only valid memory accesses, for any data. -/
theorem C11_no_deadlock_2d (lay : Layout) (mhd : Bool) {P : Grid} {U : Nat}
    (hU : NotBuf U) {xlo xhi ylo yhi : BC} (h : Setup2 P xlo xhi ylo yhi) {mx my : Int}
    (hmx : 1 ≤ mx) (hmy : 1 ≤ my) (M : Nat → Addr → α) :
    JobOK (mx * my).toNat (makeBoundariesMpi2D lay mhd P U mx my) (haloAlloc false P U) M
      (fun _ => True) := by
  obtain ⟨M1, s1, -⟩ := halo_stage lay mhd h.wide hU (mx := mx) (my := my) (mz := 1) (by omega)
    (by omega) (by omega) (a := .x) (fun e => by cases e) h.xmin h.xmax M
  obtain ⟨M2, s2, -⟩ := halo_stage lay mhd h.wide hU (mx := mx) (my := my) (mz := 1) (by omega)
    (by omega) (by omega) (a := .y) (fun e => by cases e) h.ymin h.ymax M1
  have job := LockSeq.job (s1.append s2) (Q := fun _ => True) (fun _ _ => trivial)
  rw [mul_one] at job
  exact job

/-- **C11** (3D). -/
theorem C11_no_deadlock_3d (lay : Layout) (mhd : Bool) {P : Grid} {U : Nat}
    (hU : NotBuf U) {xlo xhi ylo yhi zlo zhi : BC} (h : Setup3 P xlo xhi ylo yhi zlo zhi)
    {mx my mz : Int} (hmx : 1 ≤ mx) (hmy : 1 ≤ my) (hmz : 1 ≤ mz) (M : Nat → Addr → α) :
    JobOK (mx * my * mz).toNat (makeBoundariesMpi3D lay mhd P U mx my mz) (haloAlloc true P U) M
      (fun _ => True) := by
  obtain ⟨M1, s1, -⟩ := halo_stage lay mhd h.wide hU (mx := mx) (my := my) (mz := mz) (by omega)
    (by omega) (by omega) (a := .x) (fun _ => rfl) h.xmin h.xmax M
  obtain ⟨M2, s2, -⟩ := halo_stage lay mhd h.wide hU (mx := mx) (my := my) (mz := mz) (by omega)
    (by omega) (by omega) (a := .y) (fun _ => rfl) h.ymin h.ymax M1
  obtain ⟨M3, s3, -⟩ := halo_stage lay mhd h.wide hU (mx := mx) (my := my) (mz := mz) (by omega)
    (by omega) (by omega) (a := .z) (fun _ => rfl) h.zmin h.zmax M2
  exact LockSeq.job ((s1.append s2).append s3) (fun _ _ => trivial)

/-! ### C12 -/

section dt
variable {d3 : Bool} {S : Settings ℝ} {P : Grid} {B : Sides} {bot : ℝ} {it : Nat}

/-- A reduction with the minimum. -/
theorem allReduce_min {N : Nat} {x y : Nat → ℝ} (h : AllReduce mpiMin N x y) (r : Nat) (hr : r < N) :
    (∀ s, s < N → y r ≤ x s) ∧ ∃ s, s < N ∧ y r = x s := by
  obtain ⟨T, hp, e⟩ := h r hr
  have key : ∀ T : CombineTree, (∀ s ∈ T.ranks, T.value mpiMin x ≤ x s) ∧
      ∃ s ∈ T.ranks, T.value mpiMin x = x s := by
    intro T
    induction T with
    | rank r => simp [CombineTree.ranks, CombineTree.value]
    | join a b iha ihb =>
      obtain ⟨a1, sa, a2, a3⟩ := iha
      obtain ⟨b1, sb, b2, b3⟩ := ihb
      have em : CombineTree.value mpiMin x (.join a b) = min (a.value mpiMin x) (b.value mpiMin x) := by
        simp only [CombineTree.value, mpiMin, ltb, decide_eq_true_eq]
        split_ifs with hlt
        · exact (min_eq_right hlt.le).symm
        · exact (min_eq_left (not_lt.1 hlt)).symm
      rw [em]
      refine ⟨?_, ?_⟩
      · intro s hs
        rcases List.mem_append.1 hs with hs | hs
        · exact (min_le_left _ _).trans (a1 s hs)
        · exact (min_le_right _ _).trans (b1 s hs)
      · rcases min_choice (a.value mpiMin x) (b.value mpiMin x) with e | e
        · exact ⟨sa, List.mem_append_left _ a2, by rw [e, a3]⟩
        · exact ⟨sb, List.mem_append_right _ b2, by rw [e, b3]⟩
  obtain ⟨k1, s, k2, k3⟩ := key T
  rw [← e]
  exact ⟨fun s hs => k1 s (hp.mem_iff.2 (List.mem_range.2 hs)), s,
    List.mem_range.1 (hp.mem_iff.1 k2), k3⟩

theorem rateAt_pos (hS : GasParams S) (hs : Spacings d3 S) (grav : Bool) (U : Nat) (m : Addr → ℝ)
    (c : Cell) : 0 < rateAt d3 S grav U m c := by
  cases grav
  · simp only [rateAt, Bool.false_eq_true, if_false, cflRate_eq]
    exact signalRate_pos hs (C31_physical d3 hS _).2.2.2.2.1 _
  · exact rateAt_gravity_pos hS hs U c

/-- Cells `m` and `m'` agree up to a shift in the arrays read by the time step computation. -/
theorem rateAt_congr {grav : Bool} {U : Nat} {m m' : Addr → ℝ} {c c' : Cell}
    (hU : ∀ v, v < hydroVars d3 → m (c.at U v) = m' (c'.at U v))
    (hG : grav = true → ∀ v, v < (if d3 then 3 else 2) → m (c.at aG v) = m' (c'.at aG v)) :
    rateAt d3 S grav U m c = rateAt d3 S grav U m' c' := by
  have e : field d3 m U c = field d3 m' U c' := by
    unfold field
    cases d3
    · simp only [hydroVars] at hU
      simp [hU 0 (by decide), hU 1 (by decide), hU 2 (by decide), hU 3 (by decide)]
    · simp only [hydroVars] at hU
      simp [hU 0 (by decide), hU 1 (by decide), hU 2 (by decide), hU 3 (by decide), hU 4 (by decide)]
  unfold rateAt
  rw [e]
  cases grav
  · rfl
  · have e' : gfield d3 m c = gfield d3 m' c' := by
      unfold gfield
      cases d3
      · have := hG rfl
        simp only [Bool.false_eq_true, if_false] at this
        simp [this 0 (by decide), this 1 (by decide)]
      · have := hG rfl
        simp only [if_true] at this
        simp [this 0 (by decide), this 1 (by decide), this 2 (by decide)]
    rw [e']

theorem interior_iff (hg : 0 ≤ P.ghostWidth) {c : Cell} : (P.box d3 c ∧ P.inner d3 c) ↔
    (P.ghostWidth ≤ c.i ∧ c.i < P.nx + P.ghostWidth ∧ P.ghostWidth ≤ c.j ∧ c.j < P.ny + P.ghostWidth ∧
      if d3 then P.ghostWidth ≤ c.k ∧ c.k < P.nz + P.ghostWidth else c.k = 0) := by
  rw [box_iff, inner_iff]
  cases d3
  · simp only [Bool.false_eq_true, if_false, false_implies, true_and]; omega
  · simp only [if_true, forall_true_left]; omega

/-- Position in the whole domain of cell `c` of block `p`. -/
def Spec.inDomain (P : Grid) (p c : Cell) : Cell := ⟨p.i * P.nx + c.i, p.j * P.ny + c.j, p.k * P.nz + c.k⟩

theorem split_index {n m g x : Int} (hn : 0 < n) (h0 : g ≤ x) (h1 : x < m * n + g) :
    ∃ p i, 0 ≤ p ∧ p < m ∧ g ≤ i ∧ i < n + g ∧ p * n + i = x := by
  have e := Int.mul_ediv_add_emod (x - g) n
  have a := Int.emod_nonneg (x - g) hn.ne'
  have b := Int.emod_lt_of_pos (x - g) hn
  refine ⟨(x - g) / n, g + (x - g) % n, Int.ediv_nonneg (by omega) hn.le,
    Int.ediv_lt_of_lt_mul hn (by omega), by omega, by omega, ?_⟩
  rw [mul_comm]; omega

theorem join_index {n m g p i : Int} (hn : 0 < n) (hp0 : 0 ≤ p) (hp1 : p < m) (h0 : g ≤ i)
    (h1 : i < n + g) : g ≤ p * n + i ∧ p * n + i < m * n + g := by
  have : 0 ≤ p * n := mul_nonneg hp0 hn.le
  have : (p + 1) * n ≤ m * n := by nlinarith
  have : (p + 1) * n = p * n + n := by ring
  omega

/-- **C12**: all ranks use the same time step: the smallest local one, limited by the end time. -/
theorem C12_same_step {N : Nat} (hN : 0 < N) {grav : Bool} {t tEnd : ℝ} {M : Nat → Addr → ℝ}
    {dt : Nat → Option ℝ} (h : ComputeDtMpi .double bot N d3 S P grav it t tEnd M dt) :
    (∀ r s, r < N → s < N → dt r = dt s) ∧
    ∃ L : Nat → ℝ, (∀ r, r < N → ComputeDtLocal bot d3 S P grav it (M r) (L r)) ∧
      ∃ s, s < N ∧ (∀ r, r < N → L s ≤ L r) ∧ ∀ r, r < N → dt r = some (min (L s) (tEnd - t)) := by
  obtain ⟨L, D, hL, hD, hdt⟩ := h
  obtain ⟨h1, s, hs, h2⟩ := allReduce_min hD 0 hN
  have hall : ∀ r, r < N → dt r = some (min (L s) (tEnd - t)) := by
    intro r hr
    obtain ⟨k1, s', hs', k2⟩ := allReduce_min hD r hr
    have e : D r = L s := le_antisymm (k1 s hs) (by rw [← h2, k2]; exact h1 s' hs')
    rw [hdt r hr, e]
    simp only [readDouble, MpiReal.size, if_true, Option.map_some, gtb, ltb, decide_eq_true_eq]
    split_ifs with hlt
    · rw [min_eq_right (by linarith)]
    · rw [min_eq_left (by linarith)]
  exact ⟨fun r s' hr hs' => by rw [hall r hr, hall s' hs'], L, hL, s, hs,
    fun r hr => h2 ▸ h1 r hr, hall⟩

/-- **C12**: the time step of the job is the one a single process would use for the whole domain. -/
theorem C12_equals_serial (h : BoxSetup d3 (hydroVars d3) 2 P B) (hS : GasParams S)
    (hs : Spacings d3 S) (hcfl : 0 ≤ S.cfl) (hbot : bot ≤ 0) {mx my mz : Int} (hmx : 1 ≤ mx)
    (hmy : 1 ≤ my) (hmz : 1 ≤ mz) (hz : d3 = false → mz = 1) {grav : Bool} {t tEnd : ℝ}
    {M : Nat → Addr → ℝ} {G : Addr → ℝ}
    (hM : ∀ p, Block mx my mz p → ∀ c, P.box d3 c → P.inner d3 c →
      (∀ v, v < hydroVars d3 →
        M (owner my mz p) (c.at (bufIn it) v) = G ((inDomain P p c).at (bufIn it) v)) ∧
      (grav = true → ∀ v, v < (if d3 then 3 else 2) →
        M (owner my mz p) (c.at aG v) = G ((inDomain P p c).at aG v)))
    {dt : Nat → Option ℝ} (hd : ComputeDtMpi .double bot (mx * my * mz).toNat d3 S P grav it t tEnd M dt)
    {dtS : ℝ} (hser : ComputeDtSerial bot d3 S (globalGrid mx my mz P) grav it t tEnd G dtS) :
    ∀ r, r < (mx * my * mz).toNat → dt r = some dtS := by
  have hg0 : 0 ≤ P.ghostWidth := by have := h.gw; omega
  have hg1 : 1 ≤ P.ghostWidth := by have := h.gw; omega
  have hnx : 0 < P.nx := by have := h.nx; omega
  have hny : 0 < P.ny := by have := h.ny; omega
  have hG : BoxSetup d3 (hydroVars d3) 2 (globalGrid mx my mz P) B :=
    ⟨h.gw, h.nv, scale_le hmx hg1 h.nx, scale_le hmy hg1 h.ny, fun e => scale_le hmz hg1 (h.nz e),
      h.xmin, h.xmax, h.ymin, h.ymax, h.zmin, h.zmax⟩
  have hN : 0 < (mx * my * mz).toNat := by
    have : 0 < mx * my * mz := by positivity
    omega
  obtain ⟨-, L, hL, s, hsN, hmin, hall⟩ := C12_same_step hN hd
  obtain ⟨LS, hLS, hdtS⟩ := hser
  obtain ⟨-, hown, hsurj⟩ := C11_blocks hmx hmy hmz
  -- local cells as cells of the domain
  have rate : ∀ p, Block mx my mz p → ∀ c, P.box d3 c → P.inner d3 c →
      rateAt d3 S grav (bufIn it) (M (owner my mz p)) c
        = rateAt d3 S grav (bufIn it) G (inDomain P p c) := by
    intro p hp c hb hi
    obtain ⟨k1, k2⟩ := hM p hp c hb hi
    exact rateAt_congr k1 k2
  have up : ∀ p, Block mx my mz p → ∀ c, P.box d3 c → P.inner d3 c →
      (globalGrid mx my mz P).box d3 (inDomain P p c) ∧
        (globalGrid mx my mz P).inner d3 (inDomain P p c) := by
    intro p hp c hb hi
    have hc := (interior_iff hg0).1 ⟨hb, hi⟩
    apply (interior_iff (P := globalGrid mx my mz P) hg0).2
    have jx := join_index hnx hp.x0 hp.x1 hc.1 hc.2.1
    have jy := join_index hny hp.y0 hp.y1 hc.2.2.1 hc.2.2.2.1
    refine ⟨jx.1, jx.2, jy.1, jy.2, ?_⟩
    cases d3
    · simp only [Bool.false_eq_true, if_false] at hc ⊢
      have := hz rfl
      have : p.k = 0 := by have := hp.z0; have := hp.z1; omega
      simp only [inDomain, this, hc.2.2.2.2, zero_mul, add_zero]
    · simp only [if_true] at hc ⊢
      have hnz : 0 < P.nz := by have := h.nz rfl; omega
      exact join_index hnz hp.z0 hp.z1 hc.2.2.2.2.1 hc.2.2.2.2.2
  have down : ∀ C, (globalGrid mx my mz P).box d3 C → (globalGrid mx my mz P).inner d3 C →
      ∃ p c, Block mx my mz p ∧ P.box d3 c ∧ P.inner d3 c ∧ inDomain P p c = C := by
    intro C hb hi
    have hC := (interior_iff (P := globalGrid mx my mz P) hg0).1 ⟨hb, hi⟩
    obtain ⟨px, i, a1, a2, a3, a4, a5⟩ := split_index hnx hC.1 hC.2.1
    obtain ⟨py, j, b1, b2, b3, b4, b5⟩ := split_index hny hC.2.2.1 hC.2.2.2.1
    cases d3
    · simp only [Bool.false_eq_true, if_false] at hC
      have e := hz rfl
      obtain ⟨q1, q2⟩ := (interior_iff (d3 := false) (c := ⟨i, j, 0⟩) hg0).2 ⟨a3, a4, b3, b4, rfl⟩
      refine ⟨⟨px, py, 0⟩, ⟨i, j, 0⟩, ⟨a1, a2, b1, b2, le_rfl, by simp only; omega⟩, q1, q2, ?_⟩
      ext
      · exact a5
      · exact b5
      · simp only [inDomain, zero_mul, add_zero]; exact hC.2.2.2.2.symm
    · simp only [if_true] at hC
      have hnz : 0 < P.nz := by have := h.nz rfl; omega
      obtain ⟨pz, k, c1, c2, c3, c4, c5⟩ := split_index hnz hC.2.2.2.2.1 hC.2.2.2.2.2
      obtain ⟨q1, q2⟩ := (interior_iff (d3 := true) (c := ⟨i, j, k⟩) hg0).2
        ⟨a3, a4, b3, b4, c3, c4⟩
      refine ⟨⟨px, py, pz⟩, ⟨i, j, k⟩, ⟨a1, a2, b1, b2, c1, c2⟩, q1, q2, ?_⟩
      ext
      · exact a5
      · exact b5
      · exact c5
  have key : L s = LS := by
    obtain ⟨MG, eG, hMG, g1, C, gb, gi, g2⟩ :=
      computeDt_spec hG hbot (fun c _ _ => rateAt_pos hS hs grav (bufIn it) G c) hLS
    have loc : ∀ r, r < (mx * my * mz).toNat → _ := fun r hr =>
      computeDt_spec h hbot (fun c _ _ => rateAt_pos hS hs grav (bufIn it) (M r) c) (hL r hr)
    obtain ⟨Ms, es, hMs, s1, cs, sb, si, s2⟩ := loc s hsN
    rcases hcfl.eq_or_lt with h0 | hpos
    · rw [es, eG, ← h0, zero_div, zero_div]
    obtain ⟨ps, hps, eps⟩ := hsurj s hsN
    have hle : Ms ≤ MG := by
      rw [← s2, ← eps, rate ps hps cs sb si]
      obtain ⟨u1, u2⟩ := up ps hps cs sb si
      exact g1 _ u1 u2
    have hge : MG ≤ Ms := by
      obtain ⟨p, c, hp, cb, ci, rfl⟩ := down C gb gi
      have hrN := (coords_of_pos hp.x0 hp.x1 hp.y0 hp.y1 hp.z0 hp.z1).1
      obtain ⟨Mr, er, hMr, r1, -⟩ := loc (owner my mz p) hrN
      have l1 : MG ≤ Mr := by
        rw [← g2, ← rate p hp c cb ci]
        exact r1 c cb ci
      have l2 := hmin (owner my mz p) hrN
      rw [es, er, div_le_div_iff_of_pos_left hpos hMs hMr] at l2
      exact l1.trans l2
    rw [es, eG, le_antisymm hle hge]
  intro r hr
  rw [hall r hr, key, hdtS]
  simp only [gtb, ltb, decide_eq_true_eq]
  split_ifs with hlt
  · rw [min_eq_right (by linarith)]
  · rw [min_eq_left (by linarith)]

/-- **C12**, negative: in a build with `real_t = float` the time step is undefined on every rank, because the
reduction is told to handle a `float` while the variables are `double`. -/
theorem C12_float_build {N : Nat} {grav : Bool} {t tEnd : ℝ} {M : Nat → Addr → ℝ}
    {dt : Nat → Option ℝ} (h : ComputeDtMpi .float bot N d3 S P grav it t tEnd M dt) :
    ∀ r, r < N → dt r = none := by
  obtain ⟨L, D, -, -, hdt⟩ := h
  intro r hr
  rw [hdt r hr]
  simp [readDouble, MpiReal.size]

/-- Both computations have results, so C12 is not about nothing. -/
example (N : Nat) (grav : Bool) (t tEnd : ℝ) (M : Nat → Addr → ℝ) :
    ∀ ty, ∃ dt, ComputeDtMpi ty bot (N + 1) d3 S P grav it t tEnd M dt := by
  intro ty
  choose L hL using fun r => computeDt_exists bot d3 S P grav it (M r)
  have : ∃ T : CombineTree, T.ranks.Perm (List.range (N + 1)) := by
    induction N with
    | zero => exact ⟨.rank 0, List.Perm.refl _⟩
    | succ n ih =>
      obtain ⟨T, hT⟩ := ih
      refine ⟨.join T (.rank (n + 1)), ?_⟩
      rw [List.range_succ]
      exact List.Perm.append hT (List.Perm.refl _)
  obtain ⟨T, hT⟩ := this
  exact ⟨_, L, fun _ => T.value mpiMin L, fun r _ => hL r, fun r _ => ⟨T, hT, rfl⟩, fun r _ => rfl⟩

end dt

end Verif
