import Verif.Lemmas.Halo

/-! Helper lemmas: effect of one direction of the halo exchange; Cartesian topology. -/

namespace Verif

open K Function Spec

variable {α : Type} [ROps α]

/-! ### Lockstep sequences -/

/-- A sequence of aligned statements takes the ranks' memories `M` to `M'`. -/
inductive LockSeq (N : Nat) (dom : Nat → Addr → Prop) :
    List (Nat → MpiOp α) → (Nat → Addr → α) → (Nat → Addr → α) → Prop
  | nil (M) : LockSeq N dom [] M M
  | cons {f L M M' M''} : Lock N dom (fun r => some (f r)) M M' → LockSeq N dom L M' M'' →
      LockSeq N dom (f :: L) M M''

theorem LockSeq.append {N : Nat} {dom : Nat → Addr → Prop} {L L' : List (Nat → MpiOp α)}
    {M M' M'' : Nat → Addr → α} (h : LockSeq N dom L M M') (h' : LockSeq N dom L' M' M'') :
    LockSeq N dom (L ++ L') M M'' := by
  induction h with
  | nil M => exact h'
  | cons h1 _ ih => exact .cons h1 (ih h')

theorem LockSeq.lockstep {N : Nat} {dom : Nat → Addr → Prop} {L : List (Nat → MpiOp α)}
    {M M' : Nat → Addr → α} (h : LockSeq N dom L M M') :
    ∃ T : Nat → Nat → Addr → α, T 0 = M ∧ T L.length = M' ∧
      Lockstep N dom (fun r => L.map fun f => f r) L.length T := by
  induction h with
  | nil M => exact ⟨fun _ => M, rfl, rfl, ⟨fun r _ => rfl, fun k hk => by simp at hk⟩⟩
  | @cons f L M M1 M2 h1 _ ih =>
    obtain ⟨T, t0, t1, hT⟩ := ih
    refine ⟨fun k => match k with | 0 => M | k + 1 => T k, rfl, t1, ⟨fun r _ => by simp, ?_⟩⟩
    intro k hk
    cases k with
    | zero =>
      simp only [List.map_cons, List.getElem?_cons_zero, t0]
      exact h1
    | succ k =>
      simp only [List.map_cons, List.getElem?_cons_succ]
      exact hT.lock k (by simpa using hk)

/-! ### Topology -/

/-- Number of ranks in direction `a`. -/
def Ax.m (mx my mz : Int) : Ax → Int
  | .x => mx | .y => my | .z => mz

section topo
variable {mx my mz : Int} (hx : 0 < mx) (hy : 0 < my) (hz : 0 < mz)
include hx hy hz

theorem cartRank_lt (c : Cell) : cartRank mx my mz c < (mx * my * mz).toNat := by
  have h1 := Int.emod_nonneg c.i hx.ne'
  have h2 := Int.emod_lt_of_pos c.i hx
  have h3 := Int.emod_nonneg c.j hy.ne'
  have h4 := Int.emod_lt_of_pos c.j hy
  have h5 := Int.emod_nonneg c.k hz.ne'
  have h6 := Int.emod_lt_of_pos c.k hz
  unfold cartRank
  generalize c.i % mx = a at *
  generalize c.j % my = b at *
  generalize c.k % mz = d at *
  have e1 : a * my + b + 1 ≤ mx * my := by nlinarith
  have e2 : (a * my + b) * mz + d < mx * my * mz := by nlinarith
  have e3 : 0 ≤ (a * my + b) * mz + d := by positivity
  omega

theorem cartCoords_cartRank (c : Cell) :
    cartCoords my mz (cartRank mx my mz c) = ⟨c.i % mx, c.j % my, c.k % mz⟩ := by
  have h1 := Int.emod_nonneg c.i hx.ne'
  have h3 := Int.emod_nonneg c.j hy.ne'
  have h4 := Int.emod_lt_of_pos c.j hy
  have h5 := Int.emod_nonneg c.k hz.ne'
  have h6 := Int.emod_lt_of_pos c.k hz
  unfold cartCoords cartRank
  generalize c.i % mx = a at *
  generalize c.j % my = b at *
  generalize c.k % mz = d at *
  have e3 : 0 ≤ (a * my + b) * mz + d := by positivity
  rw [Int.toNat_of_nonneg e3]
  have e4 : ((a * my + b) * mz + d) / mz = a * my + b := by
    rw [add_comm, Int.add_mul_ediv_right _ _ hz.ne', Int.ediv_eq_zero_of_lt h5 h6, zero_add]
  have e5 : (a * my + b) / my = a := by
    rw [add_comm, Int.add_mul_ediv_right _ _ hy.ne', Int.ediv_eq_zero_of_lt h3 h4, zero_add]
  ext
  · show ((a * my + b) * mz + d) / (my * mz) = a
    rw [mul_comm my mz, ← Int.ediv_ediv_of_nonneg hz.le, e4, e5]
  · show ((a * my + b) * mz + d) / mz % my = b
    rw [e4, add_comm, Int.add_mul_emod_self_right, Int.emod_eq_of_lt h3 h4]
  · show ((a * my + b) * mz + d) % mz = d
    rw [add_comm, Int.add_mul_emod_self_right, Int.emod_eq_of_lt h5 h6]

theorem cartCoords_range {r : Nat} (hr : r < (mx * my * mz).toNat) (a : Ax) :
    0 ≤ a.get (cartCoords my mz r) ∧ a.get (cartCoords my mz r) < a.m mx my mz := by
  have h0 : (0 : Int) ≤ r := by omega
  have h1 : (r : Int) < mx * (my * mz) := by rw [← mul_assoc]; omega
  cases a
  · exact ⟨Int.ediv_nonneg h0 (by positivity), Int.ediv_lt_of_lt_mul (by positivity) h1⟩
  · exact ⟨Int.emod_nonneg _ hy.ne', Int.emod_lt_of_pos _ hy⟩
  · exact ⟨Int.emod_nonneg _ hz.ne', Int.emod_lt_of_pos _ hz⟩

theorem cartRank_cartCoords {r : Nat} (hr : r < (mx * my * mz).toNat) :
    cartRank mx my mz (cartCoords my mz r) = r := by
  have a := cartCoords_range hx hy hz hr .x
  have b := cartCoords_range hx hy hz hr .y
  have c := cartCoords_range hx hy hz hr .z
  simp only [Ax.get, Ax.m] at a b c
  unfold cartRank
  rw [Int.emod_eq_of_lt a.1 a.2, Int.emod_eq_of_lt b.1 b.2, Int.emod_eq_of_lt c.1 c.2]
  unfold cartCoords
  simp only
  have e1 := Int.mul_ediv_add_emod (r : Int) mz
  have e2 := Int.mul_ediv_add_emod ((r : Int) / mz) my
  rw [mul_comm my mz, ← Int.ediv_ediv_of_nonneg hz.le, mul_comm ((r : Int) / mz / my) my, e2,
    mul_comm, e1]
  omega

/-- Position of the neighbours. -/
theorem neighbor_lo (a : Ax) (r : Nat) (hr : r < (mx * my * mz).toNat) :
    neighborRank mx my mz r a.lo < (mx * my * mz).toNat ∧
    cartCoords my mz (neighborRank mx my mz r a.lo)
      = a.set (cartCoords my mz r) ((a.get (cartCoords my mz r) - 1) % a.m mx my mz) := by
  have h1 := cartCoords_range hx hy hz hr .x
  have h2 := cartCoords_range hx hy hz hr .y
  have h3 := cartCoords_range hx hy hz hr .z
  simp only [Ax.get, Ax.m] at h1 h2 h3
  refine ⟨cartRank_lt hx hy hz _, ?_⟩
  cases a <;> simp only [neighborRank, Ax.lo, cartCoords_cartRank hx hy hz, Ax.set, Ax.get, Ax.m,
    Cell.mk.injEq, true_and, and_true] <;>
  refine ⟨?_, ?_⟩ <;> apply Int.emod_eq_of_lt <;> omega

theorem neighbor_hi (a : Ax) (r : Nat) (hr : r < (mx * my * mz).toNat) :
    neighborRank mx my mz r a.hi < (mx * my * mz).toNat ∧
    cartCoords my mz (neighborRank mx my mz r a.hi)
      = a.set (cartCoords my mz r) ((a.get (cartCoords my mz r) + 1) % a.m mx my mz) := by
  have h1 := cartCoords_range hx hy hz hr .x
  have h2 := cartCoords_range hx hy hz hr .y
  have h3 := cartCoords_range hx hy hz hr .z
  simp only [Ax.get, Ax.m] at h1 h2 h3
  refine ⟨cartRank_lt hx hy hz _, ?_⟩
  cases a <;> simp only [neighborRank, Ax.hi, cartCoords_cartRank hx hy hz, Ax.set, Ax.get, Ax.m,
    Cell.mk.injEq, true_and, and_true] <;>
  refine ⟨?_, ?_⟩ <;> apply Int.emod_eq_of_lt <;> omega

theorem coords_inj {r s : Nat} (hr : r < (mx * my * mz).toNat) (hs : s < (mx * my * mz).toNat)
    (h : cartCoords my mz r = cartCoords my mz s) : r = s := by
  rw [← cartRank_cartCoords hx hy hz hr, ← cartRank_cartCoords hx hy hz hs, h]

theorem neighbor_lo_hi (a : Ax) (r : Nat) (hr : r < (mx * my * mz).toNat) :
    neighborRank mx my mz (neighborRank mx my mz r a.lo) a.hi = r := by
  obtain ⟨l1, l2⟩ := neighbor_lo hx hy hz a r hr
  obtain ⟨u1, u2⟩ := neighbor_hi hx hy hz a _ l1
  apply coords_inj hx hy hz u1 hr
  rw [u2, l2, Ax.get_set, Ax.set_set, Int.emod_add_emod, show ∀ x : Int, x - 1 + 1 = x by intro x; omega]
  obtain ⟨e1, e2⟩ := cartCoords_range hx hy hz hr a
  rw [Int.emod_eq_of_lt e1 e2, Ax.set_get]

theorem neighbor_hi_lo (a : Ax) (r : Nat) (hr : r < (mx * my * mz).toNat) :
    neighborRank mx my mz (neighborRank mx my mz r a.hi) a.lo = r := by
  obtain ⟨l1, l2⟩ := neighbor_hi hx hy hz a r hr
  obtain ⟨u1, u2⟩ := neighbor_lo hx hy hz a _ l1
  apply coords_inj hx hy hz u1 hr
  rw [u2, l2, Ax.get_set, Ax.set_set, ← Int.emod_sub_emod, Int.emod_emod, Int.emod_sub_emod,
    show ∀ x : Int, x + 1 - 1 = x by intro x; omega]
  obtain ⟨e1, e2⟩ := cartCoords_range hx hy hz hr a
  rw [Int.emod_eq_of_lt e1 e2, Ax.set_get]

end topo

/-! ### One direction -/

/-- `haloDirection` as a list of rank-indexed statements. -/
def haloOps (d3 : Bool) (lay : Layout) (mhd : Bool) (P : Grid) (U : Nat) (mx my mz : Int)
    (lo hi : Face) : List (Nat → MpiOp α) :=
  [ fun _ => .kernels [copyToBuf d3 lay P U lo, copyToBuf d3 lay P U hi],
    fun r => .sendrecv
      { dst := neighborRank mx my mz r lo, sbuf := bufSend lo, sshape := P.bufShape d3 lo,
        stag := haloTag lo,
        src := neighborRank mx my mz r hi, rbuf := bufRecv hi, rshape := P.bufShape d3 hi,
        rtag := haloTag hi },
    fun r => .sendrecv
      { dst := neighborRank mx my mz r hi, sbuf := bufSend hi, sshape := P.bufShape d3 hi,
        stag := haloTag hi,
        src := neighborRank mx my mz r lo, rbuf := bufRecv lo, rshape := P.bufShape d3 lo,
        rtag := haloTag lo },
    fun r => .kernels
      [haloBack d3 lay mhd P U mx my mz r lo, haloBack d3 lay mhd P U mx my mz r hi],
    fun _ => .barrier ]

theorem haloDirection_eq (d3 : Bool) (lay : Layout) (mhd : Bool) (P : Grid) (U : Nat) (mx my mz : Int)
    (lo hi : Face) (r : Nat) :
    haloDirection d3 lay mhd P U mx my mz lo hi r
      = (haloOps (α := α) d3 lay mhd P U mx my mz lo hi).map fun f => f r := rfl

/-- Sizes large enough. -/
def Grid.WideD (d3 : Bool) (P : Grid) : Prop :=
  0 < P.ghostWidth ∧ ∀ a : Ax, a.In d3 → P.ghostWidth ≤ a.n P

theorem mkLo_yields {d3 : Bool} (mhd : Bool) {P : Grid} (hw : P.WideD d3) (U : Nat) {a : Ax}
    (ha : a.In d3) (m : Addr → α) :
    (if d3 then makeBoundary3D mhd P U a.lo else makeBoundary2D mhd P U a.lo).Yields
      (haloAlloc d3 P U) m (faceFx mhd P U (P.cells d3) a.lo m) := by
  obtain ⟨hg, hn⟩ := hw
  have w2 : P.Wide2 := ⟨hg, hn .x (fun h => by cases h), hn .y (fun h => by cases h)⟩
  cases d3
  · have hd : ∀ x, P.alloc2 U x → haloAlloc false P U x :=
      fun x hx => Or.inl ((cell2_iff P U x).1 hx)
    cases a
    · exact (xmin2_yields mhd P U w2 m).mono hd
    · exact (ymin2_yields mhd P U w2 m).mono hd
    · exact absurd (ha rfl) Bool.false_ne_true
  · have w3 : P.Wide3 := ⟨w2, hn .z (fun _ => rfl)⟩
    have hd : ∀ x, P.alloc3 U x → haloAlloc true P U x :=
      fun x hx => Or.inl ((cell3_iff P U x).1 hx)
    cases a
    · exact (xmin3_yields mhd P U w3 m).mono hd
    · exact (ymin3_yields mhd P U w3 m).mono hd
    · exact (zmin3_yields mhd P U w3 m).mono hd

theorem mkHi_yields {d3 : Bool} (mhd : Bool) {P : Grid} (hw : P.WideD d3) (U : Nat) {a : Ax}
    (ha : a.In d3) (m : Addr → α) :
    (if d3 then makeBoundary3D mhd P U a.hi else makeBoundary2D mhd P U a.hi).Yields
      (haloAlloc d3 P U) m (faceFx mhd P U (P.cells d3) a.hi m) := by
  obtain ⟨hg, hn⟩ := hw
  have w2 : P.Wide2 := ⟨hg, hn .x (fun h => by cases h), hn .y (fun h => by cases h)⟩
  cases d3
  · have hd : ∀ x, P.alloc2 U x → haloAlloc false P U x :=
      fun x hx => Or.inl ((cell2_iff P U x).1 hx)
    cases a
    · exact (xmax2_yields mhd P U w2 m).mono hd
    · exact (ymax2_yields mhd P U w2 m).mono hd
    · exact absurd (ha rfl) Bool.false_ne_true
  · have w3 : P.Wide3 := ⟨w2, hn .z (fun _ => rfl)⟩
    have hd : ∀ x, P.alloc3 U x → haloAlloc true P U x :=
      fun x hx => Or.inl ((cell3_iff P U x).1 hx)
    cases a
    · exact (xmax3_yields mhd P U w3 m).mono hd
    · exact (ymax3_yields mhd P U w3 m).mono hd
    · exact (zmax3_yields mhd P U w3 m).mono hd

/-- Variables with a sign change at a wall normal to the axis. -/
def Ax.nrm (a : Ax) (mhd : Bool) (v : Nat) : Bool := normalTo a.num mhd v

theorem faceFx_lo (mhd : Bool) (P : Grid) (U : Nat) (cells : Cell → Prop) (a : Ax) (m : Addr → α) :
    faceFx mhd P U cells a.lo m =
      faceEffect U P.nbvar (fun c => cells c ∧ a.get c < P.ghostWidth)
        (fun c v => a.set c (lowSource P.ghostWidth (a.n P) (a.btlo P) (a.get c) (a.nrm mhd v)).1)
        (fun c v => (lowSource P.ghostWidth (a.n P) (a.btlo P) (a.get c) (a.nrm mhd v)).2) m := by
  cases a <;> simp only [faceFx, Ax.lo, Ax.nrm, Ax.num, isNormalX_eq, isNormalY_eq, isNormalZ_eq] <;>
    rfl

theorem faceFx_hi (mhd : Bool) (P : Grid) (U : Nat) (cells : Cell → Prop) (a : Ax) (m : Addr → α) :
    faceFx mhd P U cells a.hi m =
      faceEffect U P.nbvar (fun c => cells c ∧ a.n P + P.ghostWidth ≤ a.get c)
        (fun c v => a.set c (highSource P.ghostWidth (a.n P) (a.bthi P) (a.get c) (a.nrm mhd v)).1)
        (fun c v => (highSource P.ghostWidth (a.n P) (a.bthi P) (a.get c) (a.nrm mhd v)).2) m := by
  cases a <;> simp only [faceFx, Ax.hi, Ax.nrm, Ax.num, isNormalX_eq, isNormalY_eq, isNormalZ_eq] <;>
    rfl

open Classical in
/-- Effect of the statement that fills the lower ghost layer. -/
noncomputable def backLo (d3 : Bool) (mhd : Bool) (P : Grid) (U : Nat) (a : Ax) (copy : Prop)
    (m : Addr → α) : Addr → α :=
  if copy then bufFx d3 P a (bufRecv a.lo) U 0 (recvOff P a a.lo) m
  else faceFx mhd P U (P.cells d3) a.lo m

open Classical in
/-- Effect of the statement that fills the upper ghost layer. -/
noncomputable def backHi (d3 : Bool) (mhd : Bool) (P : Grid) (U : Nat) (a : Ax) (copy : Prop)
    (m : Addr → α) : Addr → α :=
  if copy then bufFx d3 P a (bufRecv a.hi) U 0 (recvOff P a a.hi) m
  else faceFx mhd P U (P.cells d3) a.hi m

/-- Values taken by the ghost layers of the rank at position `p` of `m` along an axis, from the values `X`
before: `X 0` own, `X (-1)` of the lower neighbour, `X 1` of the upper neighbour. -/
def haloSpec (n g m : Int) (lo hi : BC) (nrm : Bool) (p i : Int) (X : Int → Int → α) : α :=
  if i < g then
    if p = 0 ∧ lo ≠ .periodic then cross n g lo hi nrm i (X 0 (source n g lo hi i))
    else X (-1) (i + n)
  else if n + g ≤ i then
    if p = m - 1 ∧ hi ≠ .periodic then cross n g lo hi nrm i (X 0 (source n g lo hi i))
    else X 1 (i - n)
  else X 0 i

theorem cross_ghost {n g c : Int} {lo hi : BC} {nrm : Bool} {x : α} (h : isGhost n g c = true) :
    cross n g lo hi nrm c x = x * ROps.lit (if behindWall n g lo hi c && nrm then -1 else 1) :=
  if_pos h

theorem bufFx_other {d3 : Bool} {P : Grid} {ax : Ax} {A B : Nat} {oS oD : Int} {m : Addr → α} {a : Addr}
    (h : a.arr ≠ B) : bufFx d3 P ax A B oS oD m a = m a := by
  unfold bufFx; rw [if_neg (fun e => h e.1)]

theorem bufFx_out {d3 : Bool} {P : Grid} {ax : Ax} {A B : Nat} {oS oD : Int} {m : Addr → α} {c : Cell}
    {v : Nat} (h : ¬ P.cells d3 (ax.set c (ax.get c - oD)) ∨ ¬ ax.get c - oD < P.ghostWidth) :
    bufFx d3 P ax A B oS oD m (c.at B v) = m (c.at B v) := by
  unfold bufFx
  rw [if_neg]
  rintro ⟨-, h1, h2, -⟩
  rcases h with h | h
  · exact h h1
  · exact h h2

theorem bufFx_in {d3 : Bool} {P : Grid} {ax : Ax} {A B : Nat} {oS oD : Int} {m : Addr → α} {c : Cell}
    {v : Nat} (h : P.cells d3 (ax.set c (ax.get c - oD))) (h' : ax.get c - oD < P.ghostWidth)
    (hv : v < P.nbvar) :
    bufFx d3 P ax A B oS oD m (c.at B v) = m ((ax.set c (ax.get c - oD + oS)).at A v) := by
  unfold bufFx
  rw [if_pos ⟨rfl, h, h', hv⟩]
  rfl

theorem faceEffect_other {U nv : Nat} {region : Cell → Prop} {src : Cell → Nat → Cell}
    {sg : Cell → Nat → ℚ} {m : Addr → α} {a : Addr} (h : a.arr ≠ U) :
    faceEffect U nv region src sg m a = m a := by
  unfold faceEffect; rw [if_neg (fun e => h e.1)]

theorem faceEffect_out {U nv : Nat} {region : Cell → Prop} {src : Cell → Nat → Cell}
    {sg : Cell → Nat → ℚ} {m : Addr → α} {c : Cell} {v : Nat} (h : ¬ region c) :
    faceEffect U nv region src sg m (c.at U v) = m (c.at U v) := by
  unfold faceEffect; rw [if_neg (fun e => h e.2.1)]

theorem faceEffect_in {U nv : Nat} {region : Cell → Prop} {src : Cell → Nat → Cell}
    {sg : Cell → Nat → ℚ} {m : Addr → α} {c : Cell} {v : Nat} (h : region c) (hv : v < nv) :
    faceEffect U nv region src sg m (c.at U v) = m ((src c v).at U v) * ROps.lit (sg c v) := by
  unfold faceEffect; rw [if_pos ⟨rfl, h, hv⟩]; rfl

/-- One direction of the exchange: every rank's ghost layers along the axis receive the values of
`haloSpec`; nothing else in the array changes. -/
theorem halo_stage {d3 : Bool} (lay : Layout) (mhd : Bool) {P : Grid} (hw : P.WideD d3) {U : Nat}
    (hU : NotBuf U) {mx my mz : Int} (hmx : 0 < mx) (hmy : 0 < my) (hmz : 0 < mz) {a : Ax}
    (ha : a.In d3) {lo hi : BC} (hlo : a.btlo P = lo.code) (hhi : a.bthi P = hi.code)
    (M : Nat → Addr → α) :
    ∃ M', LockSeq (mx * my * mz).toNat (fun _ => haloAlloc d3 P U)
        (haloOps d3 lay mhd P U mx my mz a.lo a.hi) M M' ∧
      ∀ r, r < (mx * my * mz).toNat → ∀ c v, P.cells d3 c → v < P.nbvar →
        M' r (c.at U v) =
          haloSpec (a.n P) P.ghostWidth (a.m mx my mz) lo hi (a.nrm mhd v)
            (a.get (cartCoords my mz r)) (a.get c)
            (fun s i => M (if s = 0 then r else if s = -1 then neighborRank mx my mz r a.lo
              else neighborRank mx my mz r a.hi) ((a.set c i).at U v)) := by
  classical
  have hg := hw.1
  have hgn := hw.2 a ha
  have hx : 0 < P.nx := lt_of_lt_of_le hg (hw.2 .x (fun h => by cases h))
  have hy : 0 < P.ny := lt_of_lt_of_le hg (hw.2 .y (fun h => by cases h))
  have hz : d3 = true → 0 < P.nz := fun h => lt_of_lt_of_le hg (hw.2 .z (fun _ => h))
  have flo : a.isFace a.lo := Or.inl rfl
  have fhi : a.isFace a.hi := Or.inr rfl
  have hne : a.hi ≠ a.lo := by cases a <;> simp [Ax.lo, Ax.hi]
  have sLo : sendOff P a a.lo = P.ghostWidth := if_pos rfl
  have sHi : sendOff P a a.hi = a.n P := if_neg hne
  have rLo : recvOff P a a.lo = 0 := if_pos rfl
  have rHi : recvOff P a a.hi = a.n P + P.ghostWidth := if_neg hne
  have d1 : bufSend a.lo ≠ bufSend a.hi := by cases a <;> decide
  have d2 : bufRecv a.lo ≠ bufRecv a.hi := by cases a <;> decide
  have d3' : ∀ f f', bufSend f ≠ bufRecv f' := by
    intro f f'; cases f <;> cases f' <;> decide
  have ul := hU a.lo
  have uh := hU a.hi
  let copyLo : Nat → Prop := fun r => neighborsBC P mx my mz (cartCoords my mz r) a.lo = BC_COPY ∨
    neighborsBC P mx my mz (cartCoords my mz r) a.lo = BC_PERIODIC
  let copyHi : Nat → Prop := fun r => neighborsBC P mx my mz (cartCoords my mz r) a.hi = BC_COPY ∨
    neighborsBC P mx my mz (cartCoords my mz r) a.hi = BC_PERIODIC
  let M1 : Nat → Addr → α := fun r => bufFx d3 P a U (bufSend a.hi) (sendOff P a a.hi) 0
    (bufFx d3 P a U (bufSend a.lo) (sendOff P a a.lo) 0 (M r))
  let M2 : Nat → Addr → α := fun r => unpackMsg (bufRecv a.hi) (packMsg (bufSend a.lo)
    (P.bufShape d3 a.lo) (M1 (neighborRank mx my mz r a.hi))) (M1 r)
  let M3 : Nat → Addr → α := fun r => unpackMsg (bufRecv a.lo) (packMsg (bufSend a.hi)
    (P.bufShape d3 a.hi) (M2 (neighborRank mx my mz r a.lo))) (M2 r)
  let M4 : Nat → Addr → α := fun r => backHi d3 mhd P U a (copyHi r) (backLo d3 mhd P U a (copyLo r) (M3 r))
  refine ⟨M4, .cons (M' := M1) (.kernels (fun _ => _) (fun r _ => rfl) ?_)
    (.cons (M' := M2) (.sendrecv (fun r => _) (fun r _ => rfl) ?_ ?_ ?_ ?_ (fun r _ => rfl))
    (.cons (M' := M3) (.sendrecv (fun r => _) (fun r _ => rfl) ?_ ?_ ?_ ?_ (fun r _ => rfl))
    (.cons (M' := M4) (.kernels (fun r => _) (fun r _ => rfl) ?_)
    (.cons (M' := M4) (.barrier (fun r _ => rfl) (fun _ _ => rfl)) (.nil _))))), ?_⟩
  · intro r _
    exact .cons (toBuf_yields ha flo hg hgn hx hy hz hU _)
      (.cons (toBuf_yields ha fhi hg hgn hx hy hz hU _) (.nil _))
  · intro r hr
    exact ⟨(neighbor_lo hmx hmy hmz a r hr).1, neighbor_lo_hi hmx hmy hmz a r hr⟩
  · intro r hr
    exact ⟨(neighbor_hi hmx hmy hmz a r hr).1, neighbor_hi_lo hmx hmy hmz a r hr⟩
  · intro r hr; cases a <;> rfl
  · intro r hr; cases a <;> rfl
  · intro r hr
    exact ⟨(neighbor_hi hmx hmy hmz a r hr).1, neighbor_hi_lo hmx hmy hmz a r hr⟩
  · intro r hr
    exact ⟨(neighbor_lo hmx hmy hmz a r hr).1, neighbor_lo_hi hmx hmy hmz a r hr⟩
  · intro r hr; cases a <;> rfl
  · intro r hr; cases a <;> rfl
  · intro r hr
    refine .cons (m' := backLo d3 mhd P U a (copyLo r) (M3 r)) ?_ (.cons ?_ (.nil _))
    · unfold haloBack backLo
      simp only
      by_cases h : copyLo r
      · rw [if_pos h, if_pos h]; exact fromBuf_yields ha flo hg hgn hx hy hz hU _
      · rw [if_neg h, if_neg h]; exact mkLo_yields mhd hw U ha _
    · show Launch.Yields _ _ _ (backHi d3 mhd P U a (copyHi r) _)
      unfold haloBack backHi
      simp only
      by_cases h : copyHi r
      · rw [if_pos h, if_pos h]; exact fromBuf_yields ha fhi hg hgn hx hy hz hU _
      · rw [if_neg h, if_neg h]; exact mkHi_yields mhd hw U ha _
  · intro r hr c v hc hv
    have hcr := Grid.cells_range ha hc
    -- the sent layers
    have m1U : ∀ (r : Nat) (c : Cell) (v : Nat), M1 r (c.at U v) = M r (c.at U v) := fun r c v =>
      (bufFx_other uh.1).trans (bufFx_other ul.1)
    have m1lo : ∀ r c v, P.cells d3 c → a.get c < P.ghostWidth → v < P.nbvar →
        M1 r (c.at (bufSend a.lo) v) = M r ((a.set c (a.get c + P.ghostWidth)).at U v) := by
      intro r c v h1 h2 h3
      show bufFx d3 P a U (bufSend a.hi) _ 0 _ _ = _
      rw [bufFx_other d1, bufFx_in (by rw [sub_zero, Ax.set_get]; exact h1) (by omega) h3, sLo, sub_zero]
    have m1hi : ∀ r c v, P.cells d3 c → a.get c < P.ghostWidth → v < P.nbvar →
        M1 r (c.at (bufSend a.hi) v) = M r ((a.set c (a.get c + a.n P)).at U v) := by
      intro r c v h1 h2 h3
      show bufFx d3 P a U (bufSend a.hi) _ 0 _ _ = _
      rw [bufFx_in (by rw [sub_zero, Ax.set_get]; exact h1) (by omega) h3, sHi, sub_zero,
        bufFx_other ul.1]
    have m3U : ∀ (r : Nat) (c : Cell) (v : Nat), M3 r (c.at U v) = M r (c.at U v) := by
      intro r c v
      show unpackMsg _ _ (unpackMsg _ _ (M1 r)) _ = _
      unfold unpackMsg
      rw [if_neg (fun e => ul.2 e.1), if_neg (fun e => uh.2 e.1), m1U]
    have m3hi : ∀ r c v, P.cells d3 c → a.get c < P.ghostWidth → v < P.nbvar →
        M3 r (c.at (bufRecv a.hi) v)
          = M (neighborRank mx my mz r a.hi) ((a.set c (a.get c + P.ghostWidth)).at U v) := by
      intro r c v h1 h2 h3
      show unpackMsg _ _ (unpackMsg _ _ (M1 r)) _ = _
      unfold unpackMsg
      rw [if_neg (fun e => d2 e.1.symm), if_pos ⟨rfl, (bufShape_mem ha flo (by omega) hg).2 ⟨h1, h2, h3⟩⟩]
      exact m1lo _ _ _ h1 h2 h3
    have m3lo : ∀ r c v, P.cells d3 c → a.get c < P.ghostWidth → v < P.nbvar →
        M3 r (c.at (bufRecv a.lo) v)
          = M (neighborRank mx my mz r a.lo) ((a.set c (a.get c + a.n P)).at U v) := by
      intro r c v h1 h2 h3
      show unpackMsg _ _ _ _ = _
      unfold unpackMsg
      rw [if_pos ⟨rfl, (bufShape_mem ha fhi (by omega) hg).2 ⟨h1, h2, h3⟩⟩]
      show unpackMsg _ _ (M1 _) _ = _
      unfold unpackMsg
      rw [if_neg (fun e => d3' _ _ e.1)]
      exact m1hi _ _ _ h1 h2 h3
    -- after the lower face
    have bLo : ∀ c v, P.cells d3 c → v < P.nbvar → P.ghostWidth ≤ a.get c →
        backLo d3 mhd P U a (copyLo r) (M3 r) (c.at U v) = M r (c.at U v) := by
      intro c v h1 h2 h3
      unfold backLo
      split_ifs
      · rw [bufFx_out (Or.inr (by rw [rLo]; omega)), m3U]
      · rw [faceFx_lo, faceEffect_out (fun h => by omega), m3U]
    have bLoBuf : ∀ (c : Cell) (v : Nat), backLo d3 mhd P U a (copyLo r) (M3 r) (c.at (bufRecv a.hi) v)
        = M3 r (c.at (bufRecv a.hi) v) := by
      intro c v
      unfold backLo
      split_ifs
      · exact bufFx_other uh.2.symm
      · rw [faceFx_lo]; exact faceEffect_other uh.2.symm
    have cLo : copyLo r ↔ ¬ (a.get (cartCoords my mz r) = 0 ∧ lo ≠ .periodic) := by
      have e : neighborsBC P mx my mz (cartCoords my mz r) a.lo
          = if a.get (cartCoords my mz r) = 0 then lo.code else BC_COPY := by
        rw [← hlo]; cases a <;> rfl
      show (_ ∨ _) ↔ _
      rw [e]
      split_ifs with h <;> cases lo <;> simp [BC.code, BC_COPY, BC_PERIODIC, h]
    have cHi : copyHi r ↔ ¬ (a.get (cartCoords my mz r) = a.m mx my mz - 1 ∧ hi ≠ .periodic) := by
      have e : neighborsBC P mx my mz (cartCoords my mz r) a.hi
          = if a.get (cartCoords my mz r) = a.m mx my mz - 1 then hi.code else BC_COPY := by
        rw [← hhi]; cases a <;> rfl
      show (_ ∨ _) ↔ _
      rw [e]
      split_ifs with h <;> cases hi <;> simp [BC.code, BC_COPY, BC_PERIODIC, h]
    show backHi d3 mhd P U a (copyHi r) _ _ = _
    unfold haloSpec
    by_cases h1 : a.get c < P.ghostWidth
    · rw [if_pos h1]
      have t : backHi d3 mhd P U a (copyHi r) (backLo d3 mhd P U a (copyLo r) (M3 r)) (c.at U v)
          = backLo d3 mhd P U a (copyLo r) (M3 r) (c.at U v) := by
        unfold backHi
        split_ifs
        · refine bufFx_out (Or.inl ?_)
          intro h
          have := Grid.cells_range ha h
          rw [Ax.get_set, rHi] at this
          omega
        · rw [faceFx_hi, faceEffect_out (fun h => by omega)]
      rw [t]
      unfold backLo
      by_cases h2 : copyLo r
      · rw [if_pos h2, if_neg (cLo.1 h2),
          bufFx_in (by rw [rLo, sub_zero, Ax.set_get]; exact hc) (by rw [rLo]; omega) hv, rLo, sub_zero,
          add_zero, Ax.set_get, m3lo _ _ _ hc h1 hv]
        simp
      · rw [if_neg h2, if_pos (not_not.1 (fun e => h2 (cLo.2 e))), faceFx_lo,
          faceEffect_in ⟨hc, h1⟩ hv, hlo, m3U]
        rcases low_spec (n := a.n P) (lo := lo) (hi := hi) (nrm := a.nrm mhd v) h1 with ⟨e1, e2⟩ | e
        · rw [e1, e2]
          rw [cross_ghost (by simp [isGhost, h1])]
          simp only [if_true]
        · omega
    · rw [if_neg h1]
      by_cases h3 : a.n P + P.ghostWidth ≤ a.get c
      · rw [if_pos h3]
        unfold backHi
        have hc0 : P.cells d3 (a.set c (a.get c - (a.n P + P.ghostWidth))) :=
          Grid.cells_set ha hc (by omega) (by omega)
        by_cases h2 : copyHi r
        · rw [if_pos h2, if_neg (cHi.1 h2),
            bufFx_in (by rw [rHi]; exact hc0) (by rw [rHi]; omega) hv, rHi, add_zero, bLoBuf,
            m3hi _ _ _ hc0 (by rw [Ax.get_set]; omega) hv, Ax.get_set, Ax.set_set,
            show a.get c - (a.n P + P.ghostWidth) + P.ghostWidth = a.get c - a.n P by omega]
          simp
        · obtain ⟨e1, e2⟩ := high_spec (g := P.ghostWidth) (n := a.n P) (lo := lo) (hi := hi)
            (nrm := a.nrm mhd v) (by omega) h3
          obtain ⟨q1, q2⟩ := source_range (lo := lo) (hi := hi) hg hgn hcr.1 hcr.2
          rw [if_neg h2, if_pos (not_not.1 (fun e => h2 (cHi.2 e))), faceFx_hi,
            faceEffect_in ⟨hc, h3⟩ hv, hhi, e1, e2,
            bLo _ _ (Grid.cells_set ha hc (by omega) (by omega)) hv (by rw [Ax.get_set]; exact q1)]
          rw [cross_ghost (by simp [isGhost, h3])]
          simp only [if_true]
      · rw [if_neg h3]
        have t : backHi d3 mhd P U a (copyHi r) (backLo d3 mhd P U a (copyLo r) (M3 r)) (c.at U v)
            = backLo d3 mhd P U a (copyLo r) (M3 r) (c.at U v) := by
          unfold backHi
          split_ifs
          · refine bufFx_out (Or.inl ?_)
            intro h
            have := Grid.cells_range ha h
            rw [Ax.get_set, rHi] at this
            omega
          · rw [faceFx_hi, faceEffect_out (fun h => by omega)]
        rw [t, bLo c v hc hv (by omega)]
        simp only [if_true, Ax.set_get]

end Verif
