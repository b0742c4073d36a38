import Verif.Lemmas.HaloStage

/-! Helper lemmas: local arrays as windows of the global array. -/

namespace Verif

open K Function Spec

variable {α : Type} [ROps α]

/-- One axis: the exchange gives every position the value the global ghost fill gives to its global
position. -/
theorem halo1D (hone : ∀ x : α, x * ROps.lit 1 = x) {n g m : Int} (hg : 0 < g) (hn : g ≤ n) {lo hi : BC}
    {nrm : Bool} {p i : Int} (hp0 : 0 ≤ p) (hp1 : p < m) (hi0 : 0 ≤ i) (hi1 : i < n + 2 * g)
    (Y : Int → α) (X : Int → Int → α)
    (hX : ∀ s i', g ≤ i' → i' < n + g → X s i' = Y (((p + s) % m) * n + i')) :
    haloSpec n g m lo hi nrm p i X
      = cross (m * n) g lo hi nrm (p * n + i) (Y (source (m * n) g lo hi (p * n + i))) := by
  have hp1' : p + 1 ≤ m := hp1
  have hmn : (p + 1) * n ≤ m * n := by nlinarith
  have hpn : 0 ≤ p * n := mul_nonneg hp0 (by omega)
  have hpg : p ≠ 0 → g ≤ p * n := by
    intro h
    have : 1 ≤ p := by omega
    nlinarith
  have hx0 : (p + 0) % m = p := by rw [add_zero]; exact Int.emod_eq_of_lt hp0 hp1
  have e0 : (p + 1) * n = p * n + n := by ring
  unfold haloSpec
  by_cases h1 : i < g
  · rw [if_pos h1]
    by_cases h2 : p = 0
    · subst h2
      simp only [zero_mul, zero_add] at *
      by_cases h3 : lo = .periodic
      · subst h3
        rw [if_neg (by simp), hX _ _ (by omega) (by omega)]
        have e1 : (0 + -1 : Int) % m = m - 1 := by
          rw [zero_add, show (-1 : Int) = m - 1 + -1 * m by ring, Int.add_mul_emod_self_right]
          exact Int.emod_eq_of_lt (by omega) (by omega)
        rw [zero_add] at e1
        rw [e1, cross_ghost (by simp [isGhost, h1])]
        have e2 : behindWall (m * n) g .periodic hi i = false := by
          have : ¬ m * n + g ≤ i := by omega
          simp [behindWall, this]
        rw [e2]
        simp only [Bool.false_and, Bool.false_eq_true, if_false, hone, source, if_pos h1]
        congr 1; ring
      · rw [if_pos ⟨trivial, h3⟩]
        have hs := source_range (lo := lo) (hi := hi) hg hn hi0 hi1
        rw [hX _ _ hs.1 hs.2]
        simp only [add_zero, Int.zero_emod, zero_mul, zero_add]
        have e1 : source (m * n) g lo hi i = source n g lo hi i := by
          unfold source
          rw [if_pos h1, if_pos h1]
          cases lo <;> simp at h3 ⊢
        rw [e1]
        have h4 : ¬ m * n + g ≤ i := by omega
        have h5 : ¬ n + g ≤ i := by omega
        rw [cross_ghost (by simp [isGhost, h1]), cross_ghost (by simp [isGhost, h1])]
        simp [behindWall, h1, h4, h5]
    · rw [if_neg (fun h => h2 h.1), hX _ _ (by omega) (by omega)]
      have e1 : (p + -1) % m = p - 1 := by
        rw [← sub_eq_add_neg]; exact Int.emod_eq_of_lt (by omega) (by omega)
      have := hpg h2
      rw [e1, cross_interior (by omega) (by omega), source_interior (by omega) (by omega)]
      congr 1; ring
  · rw [if_neg h1]
    by_cases h2 : n + g ≤ i
    · rw [if_pos h2]
      by_cases h3 : p = m - 1
      · have e3 : p * n + n = m * n := by rw [h3]; ring
        have h4 : ¬ p * n + i < g := by omega
        have h5 : m * n + g ≤ p * n + i := by omega
        by_cases h6 : hi = .periodic
        · subst h6
          rw [if_neg (by simp), hX _ _ (by omega) (by omega)]
          have e1 : (p + 1) % m = 0 := by
            rw [h3, sub_add_cancel, Int.emod_self]
          rw [e1, cross_ghost (by simp [isGhost, h5])]
          have e2 : behindWall (m * n) g lo .periodic (p * n + i) = false := by
            simp [behindWall, h4]
          rw [e2]
          simp only [Bool.false_and, Bool.false_eq_true, if_false, hone, source, if_neg h4, if_pos h5]
          congr 1; rw [zero_mul, zero_add, ← e3]; ring
        · rw [if_pos ⟨h3, h6⟩]
          have hs := source_range (lo := lo) (hi := hi) hg hn hi0 hi1
          rw [hX _ _ hs.1 hs.2, hx0]
          have e1 : source (m * n) g lo hi (p * n + i) = p * n + source n g lo hi i := by
            unfold source
            rw [if_neg h4, if_pos h5, if_neg h1, if_pos h2, ← e3]
            cases hi <;> simp at h6 ⊢ <;> ring
          rw [e1, cross_ghost (n := n) (by simp [isGhost, h2]),
            cross_ghost (n := m * n) (by simp [isGhost, h5])]
          simp [behindWall, h1, h2, h4, h5]
      · rw [if_neg (fun h => h3 h.1), hX _ _ (by omega) (by omega)]
        have e1 : (p + 1) % m = p + 1 := Int.emod_eq_of_lt (by omega) (by omega)
        have : (p + 2) * n ≤ m * n := by nlinarith [show p + 2 ≤ m by omega]
        have e4 : (p + 2) * n = p * n + n + n := by ring
        rw [e1, cross_interior (by omega) (by omega), source_interior (by omega) (by omega)]
        congr 1; ring
    · rw [if_neg h2, hX _ _ (by omega) (by omega), hx0,
        cross_interior (by omega) (by omega), source_interior (by omega) (by omega)]

/-- Global position of cell `c` of rank `r`. -/
def globCell (P : Grid) (my mz : Int) (r : Nat) (c : Cell) : Cell :=
  ⟨(cartCoords my mz r).i * P.nx + c.i, (cartCoords my mz r).j * P.ny + c.j,
    (cartCoords my mz r).k * P.nz + c.k⟩

theorem get_globCell (P : Grid) (my mz : Int) (r : Nat) (c : Cell) (a : Ax) :
    a.get (globCell P my mz r c) = a.get (cartCoords my mz r) * a.n P + a.get c := by
  cases a <;> rfl

/-- One direction of the exchange on windows of a global function. -/
theorem stage_window (hone : ∀ x : α, x * ROps.lit 1 = x) {d3 : Bool} (lay : Layout) (mhd : Bool)
    {P : Grid} (hw : P.WideD d3) {U : Nat}
    (hU : NotBuf U) {mx my mz : Int} (hmx : 0 < mx) (hmy : 0 < my) (hmz : 0 < mz) {a : Ax}
    (ha : a.In d3) {lo hi : BC} (hlo : a.btlo P = lo.code) (hhi : a.bthi P = hi.code)
    (S : Cell → Prop) (hS : ∀ c i, S c → S (a.set c i)) (F : Cell → Nat → α)
    (M : Nat → Addr → α)
    (hF : ∀ r, r < (mx * my * mz).toNat → ∀ c v, P.cells d3 c → v < P.nbvar → S c →
      P.ghostWidth ≤ a.get c → a.get c < a.n P + P.ghostWidth →
      M r (c.at U v) = F (globCell P my mz r c) v) :
    ∃ M', LockSeq (mx * my * mz).toNat (fun _ => haloAlloc d3 P U)
        (haloOps d3 lay mhd P U mx my mz a.lo a.hi) M M' ∧
      ∀ r, r < (mx * my * mz).toNat → ∀ c v, P.cells d3 c → v < P.nbvar → S c →
        M' r (c.at U v) =
          cross (a.m mx my mz * a.n P) P.ghostWidth lo hi (a.nrm mhd v) (a.get (globCell P my mz r c))
            (F (a.set (globCell P my mz r c) (source (a.m mx my mz * a.n P) P.ghostWidth lo hi
              (a.get (globCell P my mz r c)))) v) := by
  obtain ⟨M', h1, h2⟩ := halo_stage lay mhd hw hU hmx hmy hmz ha hlo hhi M
  refine ⟨M', h1, ?_⟩
  intro r hr c v hc hv hs
  obtain ⟨p0, p1⟩ := cartCoords_range hmx hmy hmz hr a
  obtain ⟨c0, c1⟩ := Grid.cells_range ha hc
  rw [h2 r hr c v hc hv, get_globCell]
  -- the neighbour at offset `s` of the three
  refine Eq.trans ?_ (halo1D hone (lo := lo) (hi := hi) (nrm := a.nrm mhd v) hw.1 (hw.2 a ha) p0 p1 c0 c1
    (fun I => F (a.set (globCell P my mz r c) I) v)
    (fun s i => if s = 0 ∨ s = -1 ∨ s = 1 then
        M (if s = 0 then r else if s = -1 then neighborRank mx my mz r a.lo
          else neighborRank mx my mz r a.hi) ((a.set c i).at U v)
      else F (a.set (globCell P my mz r c)
        (((a.get (cartCoords my mz r) + s) % a.m mx my mz) * a.n P + i)) v) ?_)
  · unfold haloSpec
    simp
  · intro s i' hi0 hi1
    have hg := hw.1
    by_cases hs3 : s = 0 ∨ s = -1 ∨ s = 1
    · rw [if_pos hs3]
      have key : ∀ q, q < (mx * my * mz).toNat →
          cartCoords my mz q = a.set (cartCoords my mz r)
            ((a.get (cartCoords my mz r) + s) % a.m mx my mz) →
          M q ((a.set c i').at U v) = F (a.set (globCell P my mz r c)
            (((a.get (cartCoords my mz r) + s) % a.m mx my mz) * a.n P + i')) v := by
        intro q hq hqc
        rw [hF q hq _ v (Grid.cells_set ha hc (by omega) (by omega)) hv (hS _ _ hs)
          (by rw [Ax.get_set]; exact hi0) (by rw [Ax.get_set]; exact hi1)]
        congr 1
        simp only [globCell, hqc]
        cases a <;> rfl
      rcases hs3 with rfl | rfl | rfl
      · rw [if_pos rfl]
        refine key r hr ?_
        rw [add_zero, Int.emod_eq_of_lt p0 p1, Ax.set_get]
      · rw [if_neg (by decide), if_pos rfl]
        obtain ⟨k1, k2⟩ := neighbor_lo hmx hmy hmz a r hr
        exact key _ k1 (by rw [k2, sub_eq_add_neg])
      · rw [if_neg (by decide), if_neg (by decide)]
        obtain ⟨k1, k2⟩ := neighbor_hi hmx hmy hmz a r hr
        exact key _ k1 k2
    · rw [if_neg hs3]

/-- Position `(px,py,pz)` as a rank. -/
theorem coords_of_pos {mx my mz px py pz : Int} (hx0 : 0 ≤ px) (hx1 : px < mx) (hy0 : 0 ≤ py)
    (hy1 : py < my) (hz0 : 0 ≤ pz) (hz1 : pz < mz) :
    ((px * my + py) * mz + pz).toNat < (mx * my * mz).toNat ∧
    cartCoords my mz ((px * my + py) * mz + pz).toNat = ⟨px, py, pz⟩ := by
  have h1 := cartRank_lt (mx := mx) (my := my) (mz := mz) (by omega) (by omega) (by omega) ⟨px, py, pz⟩
  have h2 := cartCoords_cartRank (mx := mx) (my := my) (mz := mz) (by omega) (by omega) (by omega)
    ⟨px, py, pz⟩
  simp only [cartRank, Int.emod_eq_of_lt hx0 hx1, Int.emod_eq_of_lt hy0 hy1,
    Int.emod_eq_of_lt hz0 hz1] at h1 h2
  exact ⟨h1, h2⟩

end Verif
