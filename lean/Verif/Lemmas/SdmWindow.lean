import Verif.Lemmas.SdmHalo

/-! Helper lemmas: the ranks' arrays of the spectral difference solver as windows of one array. -/

namespace Verif.Sdm

open Verif K Function Spec

variable {α : Type} [ROps α]

theorem crossIdx_lt {N : ℕ} {n g c : Int} {lo hi : BC} {a : ℕ} (h : a < N) : crossIdx N n g lo hi c a < N := by
  unfold crossIdx; split_ifs <;> omega

/-- One axis: the exchange gives every position the value the ghost fill of the whole gives to its position there. -/
theorem haloPt_whole {N : ℕ} {n g m : Int} (hg : 0 < g) (hn : g ≤ n) {lo hi : BC}
    {nrm : Bool} {p i : Int} {a : ℕ} (ha : a < N) (hp0 : 0 ≤ p) (hp1 : p < m) (hi0 : 0 ≤ i) (hi1 : i < n + 2 * g)
    (Y : Int → ℕ → α) (X : Int → Int → ℕ → α)
    (hX : ∀ s i' a, g ≤ i' → i' < n + g → a < N → s = 0 ∨ s = -1 ∨ s = 1 → X s i' a = Y (((p + s) % m) * n + i') a) :
    haloPt N n g m lo hi nrm p i a X
      = crossPt (m * n) g lo hi nrm (p * n + i)
          (Y (source (m * n) g lo hi (p * n + i)) (crossIdx N (m * n) g lo hi (p * n + i) a)) := by
  have hp1' : p + 1 ≤ m := hp1
  have hmn : (p + 1) * n ≤ m * n := by nlinarith
  have hpn : 0 ≤ p * n := mul_nonneg hp0 (by omega)
  have hpg : p ≠ 0 → g ≤ p * n := by
    intro h
    have : 1 ≤ p := by omega
    nlinarith
  have hx0 : (p + 0) % m = p := by rw [add_zero]; exact Int.emod_eq_of_lt hp0 hp1
  have e0 : (p + 1) * n = p * n + n := by ring
  -- no wall on the way
  have plain : ∀ j b, behindWall (m * n) g lo hi j = false →
      crossPt (m * n) g lo hi nrm j (Y (source (m * n) g lo hi j) (crossIdx N (m * n) g lo hi j b))
        = Y (source (m * n) g lo hi j) b := by
    intro j b h
    simp [crossPt, crossIdx, h]
  have inside : ∀ j, g ≤ j → j < m * n + g → behindWall (m * n) g lo hi j = false := by
    intro j h1 h2
    have h3 : ¬ j < g := by omega
    have h4 : ¬ m * n + g ≤ j := by omega
    simp [behindWall, h3, h4]
  unfold haloPt
  by_cases h1 : i < g
  · rw [if_pos h1]
    by_cases h2 : p = 0
    · subst h2
      simp only [zero_mul, zero_add] at *
      have h4 : ¬ m * n + g ≤ i := by omega
      have h5 : ¬ n + g ≤ i := by omega
      by_cases h3 : lo = .periodic
      · subst h3
        rw [if_neg (by simp), hX _ _ _ (by omega) (by omega) ha (.inr (.inl rfl)),
          plain i a (by simp [behindWall, h4])]
        have e1 : (-1 : Int) % m = m - 1 := by
          rw [show (-1 : Int) = m - 1 + -1 * m by ring, Int.add_mul_emod_self_right]
          exact Int.emod_eq_of_lt (by omega) (by omega)
        rw [e1]
        simp only [source, if_pos h1]
        congr 1; ring
      · rw [if_pos ⟨trivial, h3⟩]
        have hs := source_range (lo := lo) (hi := hi) hg hn hi0 hi1
        rw [hX _ _ _ hs.1 hs.2 (crossIdx_lt ha) (.inl rfl)]
        simp only [Int.zero_emod, zero_mul, zero_add]
        have e1 : source (m * n) g lo hi i = source n g lo hi i := by
          unfold source
          rw [if_pos h1, if_pos h1]
          cases lo <;> simp at h3 ⊢
        rw [e1]
        simp [crossPt, crossIdx, behindWall, h1, h4, h5]
    · rw [if_neg (fun h => h2 h.1), hX _ _ _ (by omega) (by omega) ha (.inr (.inl rfl))]
      have e1 : (p + -1) % m = p - 1 := by
        rw [← sub_eq_add_neg]; exact Int.emod_eq_of_lt (by omega) (by omega)
      have := hpg h2
      rw [e1, plain _ _ (inside _ (by omega) (by omega)), source_interior (by omega) (by omega)]
      congr 1; ring
  · rw [if_neg h1]
    by_cases h2 : n + g ≤ i
    · rw [if_pos h2]
      by_cases h3 : p = m - 1
      · have e3 : p * n + n = m * n := by rw [h3]; ring
        have h4 : ¬ p * n + i < g := by omega
        have h5 : m * n + g ≤ p * n + i := by omega
        by_cases h6 : hi = .periodic
        · subst h6
          rw [if_neg (by simp), hX _ _ _ (by omega) (by omega) ha (.inr (.inr rfl)),
            plain _ a (by simp [behindWall, h4])]
          have e1 : (p + 1) % m = 0 := by
            rw [h3, sub_add_cancel, Int.emod_self]
          rw [e1]
          simp only [source, if_neg h4, if_pos h5]
          congr 1; rw [zero_mul, zero_add, ← e3]; ring
        · rw [if_pos ⟨h3, h6⟩]
          have hs := source_range (lo := lo) (hi := hi) hg hn hi0 hi1
          rw [hX _ _ _ hs.1 hs.2 (crossIdx_lt ha) (.inl rfl), hx0]
          have e1 : source (m * n) g lo hi (p * n + i) = p * n + source n g lo hi i := by
            unfold source
            rw [if_neg h4, if_pos h5, if_neg h1, if_pos h2, ← e3]
            cases hi <;> simp at h6 ⊢ <;> ring
          rw [e1]
          simp [crossPt, crossIdx, behindWall, h1, h2, h4, h5]
      · rw [if_neg (fun h => h3 h.1), hX _ _ _ (by omega) (by omega) ha (.inr (.inr rfl))]
        have e1 : (p + 1) % m = p + 1 := Int.emod_eq_of_lt (by omega) (by omega)
        have : (p + 2) * n ≤ m * n := by nlinarith [show p + 2 ≤ m by omega]
        have e4 : (p + 2) * n = p * n + n + n := by ring
        rw [e1, plain _ _ (inside _ (by omega) (by omega)), source_interior (by omega) (by omega)]
        congr 1; ring
    · rw [if_neg h2, hX _ _ _ (by omega) (by omega) ha (.inl rfl), hx0,
        plain _ _ (inside _ (by omega) (by omega)), source_interior (by omega) (by omega)]

section
variable {M : Scheme α} {P : Grid} {B : Sides} {T : Ranks}

theorem interior_whole (T : Ranks) (P : Grid) (d : Dir) :
    interior (whole T P) d = (axOf d).m T.mx T.my T.mz * interior P d := by cases d <;> rfl

theorem coord_globCell (P : Grid) (my mz : Int) (r : Nat) (c : Cell) (d : Dir) :
    coord d (globCell P my mz r c) = coord d (cartCoords my mz r) * interior P d + coord d c := by cases d <;> rfl

/-- One direction of the exchange on windows. -/
theorem stage_window (hT : RanksOk M.d3 T) (h : Setup M P B) {U : ℕ} {d : Dir} (hd : M.d3 = true ∨ d ≠ .z)
    {ti : Mood.TimeInt} (hU : solArray ti U) (S : Cell → Prop) (hS : ∀ c i, S c → S (setCoord d c i)) (F : Vals α)
    (m : Nat → Addr → α)
    (hF : ∀ r, r < T.num → ∀ c p iv, P.box M.d3 c → IsSolPt M.d3 M.N p → iv < hydroVars M.d3 → S c →
      P.ghostWidth ≤ coord d c → coord d c < interior P d + P.ghostWidth →
      valsOf M (m r) U c p iv = F (globCell P T.my T.mz r c) p iv) :
    ∃ m', LockSeq T.num (fun _ => mpiDom M P ti) (haloOps M T P U (lowFace d) (highFace d)) m m' ∧
      (∀ r, r < T.num → ∀ c p iv, P.box M.d3 c → IsSolPt M.d3 M.N p → iv < hydroVars M.d3 → S c →
        valsOf M (m' r) U c p iv = extendAlong M.N (whole T P) B d F (globCell P T.my T.mz r c) p iv) ∧
      (∀ r A c v, A ≠ U → NotBuf A → m' r (Cell.at c A v) = m r (Cell.at c A v)) := by
  have hg := h.gw
  have hmx := hT.mx
  have hmy := hT.my
  have hmz := hT.mz
  obtain ⟨m', l, e, f⟩ := halo_stage (M := M) (P := P) (T := T) (by omega) (by omega) (by omega) hd (by omega) h.wide
    (h.low hd) (h.high hd) hU m
  refine ⟨m', l, ?_, f⟩
  intro r hr c p iv hc hp hv hs
  have hr' : r < (T.mx * T.my * T.mz).toNat := hr
  obtain ⟨p0, p1⟩ := cartCoords_range (by omega) (by omega) (by omega) hr' (axOf d)
  rw [get_axOf] at p0 p1
  have hcc := box_coord hd hc
  have hsz := size_eq P d
  have hpl := hp.get_lt hd
  show m' r (M.sol U c p iv) = _
  rw [e r hr c p iv hc hp (h.nv ▸ hv)]
  refine (haloPt_whole (by omega) (h.wide d hd) hpl p0 p1 hcc.1 (by omega)
    (fun I a => F (setCoord d (globCell P T.my T.mz r c) I) (p.set d a) iv) _ ?_).trans ?_
  · intro s i' a hi0 hi1 ha hs3
    have key : ∀ q, q < (T.mx * T.my * T.mz).toNat →
        cartCoords T.my T.mz q = setCoord d (cartCoords T.my T.mz r)
          ((coord d (cartCoords T.my T.mz r) + s) % (axOf d).m T.mx T.my T.mz) →
        m q (M.sol U (setCoord d c i') (p.set d a) iv) = F (setCoord d (globCell P T.my T.mz r c)
          (((coord d (cartCoords T.my T.mz r) + s) % (axOf d).m T.mx T.my T.mz) * interior P d + i')) (p.set d a) iv := by
      intro q hq hqc
      refine (hF q hq (setCoord d c i') (p.set d a) iv (box_setCoord hd hc (by omega) (by omega)) (hp.set hd ha) hv (hS _ _ hs)
        (by rw [coord_setCoord]; exact hi0) (by rw [coord_setCoord]; exact hi1)).trans ?_
      congr 1
      simp only [globCell, hqc]
      cases d <;> rfl
    rcases hs3 with rfl | rfl | rfl
    · simp only [if_true]
      refine key r hr' ?_
      rw [add_zero, Int.emod_eq_of_lt p0 p1, setCoord_coord]
    · rw [if_neg (by decide), if_pos rfl]
      obtain ⟨k1, k2⟩ := neighbor_lo (by omega) (by omega) (by omega) (axOf d) r hr'
      rw [lo_axOf] at k1 k2
      rw [set_axOf, get_axOf] at k2
      exact key _ k1 (by rw [k2, sub_eq_add_neg])
    · rw [if_neg (by decide), if_neg (by decide)]
      obtain ⟨k1, k2⟩ := neighbor_hi (by omega) (by omega) (by omega) (axOf d) r hr'
      rw [hi_axOf] at k1 k2
      rw [set_axOf, get_axOf] at k2
      exact key _ k1 k2
  · unfold extendAlong
    rw [interior_whole, coord_globCell, isNormal_eq]
    rfl

/-- Statements of `make_boundaries` with MPI, aligned. -/
def haloLine (M : Scheme α) (T : Ranks) (P : Grid) (U : ℕ) : List (Nat → MpiOp α) :=
  haloOps M T P U .xmin .xmax ++ haloOps M T P U .ymin .ymax ++
    if M.d3 then haloOps M T P U .zmin .zmax else []

theorem haloLine_prog (M : Scheme α) (T : Ranks) (P : Grid) (U r : ℕ) :
    ((haloLine M T P U).map fun f => f r) = makeBoundariesMpi M T P U r := by
  unfold haloLine makeBoundariesMpi
  rw [List.map_append, List.map_append]
  cases M.d3 <;> rfl

/-- Every rank's array `A` holds its part of `u` in the interior. -/
def HoldsAll (M : Scheme α) (T : Ranks) (P : Grid) (m : Nat → Addr → α) (A : ℕ) (u : Vals α) : Prop :=
  ∀ p, Block T.mx T.my T.mz p → Holds M P (m (owner T.my T.mz p)) A (fun c => u (inDomain P p c))

theorem globCell_owner {p : Cell} (hp : Block T.mx T.my T.mz p) (P : Grid) (c : Cell) :
    globCell P T.my T.mz (owner T.my T.mz p) c = inDomain P p c := by
  unfold globCell
  rw [owner_coords hp]
  rfl

/-- The exchange: every rank gets its part of what the ghost fill makes of the whole. -/
theorem halo_line (hT : RanksOk M.d3 T) (h : Setup M P B) {U : ℕ} {ti : Mood.TimeInt} (hU : solArray ti U)
    {m : Nat → Addr → α} {u : Vals α} (hu : HoldsAll M T P m U u) :
    ∃ m', LockSeq T.num (fun _ => mpiDom M P ti) (haloLine M T P U) m m' ∧
      (∀ q, Block T.mx T.my T.mz q → ∀ c p iv, P.box M.d3 c → IsSolPt M.d3 M.N p → iv < hydroVars M.d3 →
        valsOf M (m' (owner T.my T.mz q)) U c p iv =
          extended M.d3 M.N (whole T P) B u (inDomain P q c) p iv) ∧
      (∀ r A c v, A ≠ U → NotBuf A → m' r (Cell.at c A v) = m r (Cell.at c A v)) := by
  have hdx : M.d3 = true ∨ Dir.x ≠ .z := .inr (by decide)
  have hdy : M.d3 = true ∨ Dir.y ≠ .z := .inr (by decide)
  obtain ⟨m1, l1, e1, f1⟩ := stage_window hT h hdx hU
    (fun c => (P.ghostWidth ≤ coord .y c ∧ coord .y c < interior P .y + P.ghostWidth) ∧
      (M.d3 = true → P.ghostWidth ≤ coord .z c ∧ coord .z c < interior P .z + P.ghostWidth))
    (fun c i hc => hc) u m (by
      intro r hr c p iv hc hp hv hs h1 h2
      obtain ⟨q, hq, rfl⟩ := owner_surj hT hr
      rw [globCell_owner hq]
      refine hu q hq c p iv hc (inner_of_coord fun d hd => ?_) hp hv
      cases d
      · exact ⟨h1, h2⟩
      · exact hs.1
      · rcases hd with hd | hd
        · exact hs.2 hd
        · exact absurd rfl hd)
  obtain ⟨m2, l2, e2, f2⟩ := stage_window hT h hdy hU
    (fun c => (M.d3 = true → P.ghostWidth ≤ coord .z c ∧ coord .z c < interior P .z + P.ghostWidth))
    (fun c i hc => hc) (extendAlong M.N (whole T P) B .x u) m1 (by
      intro r hr c p iv hc hp hv hs h1 h2
      exact e1 r hr c p iv hc hp hv ⟨⟨h1, h2⟩, hs⟩)
  cases h3 : M.d3 with
  | false =>
    refine ⟨m2, ?_, ?_, fun r A c v h1 h2 => (f2 r A c v h1 h2).trans (f1 r A c v h1 h2)⟩
    · unfold haloLine
      rw [h3]
      simp only [Bool.false_eq_true, if_false, List.append_nil]
      exact l1.append l2
    · intro q hq c p iv hc hp hv
      rw [← h3] at hc hp hv
      rw [e2 _ (owner_lt hT hq) c p iv hc hp hv (fun e => by rw [h3] at e; cases e), globCell_owner hq]
      rfl
  | true =>
    obtain ⟨m3, l3, e3, f3⟩ := stage_window (d := .z) hT h (.inl h3) hU (fun _ => True) (fun _ _ _ => trivial)
      (extendAlong M.N (whole T P) B .y (extendAlong M.N (whole T P) B .x u)) m2 (by
        intro r hr c p iv hc hp hv hs h1 h2
        exact e2 r hr c p iv hc hp hv fun _ => ⟨h1, h2⟩)
    refine ⟨m3, ?_, ?_, fun r A c v h1 h2 =>
      (f3 r A c v h1 h2).trans ((f2 r A c v h1 h2).trans (f1 r A c v h1 h2))⟩
    · unfold haloLine
      rw [h3]
      exact (l1.append l2).append l3
    · intro q hq c p iv hc hp hv
      rw [← h3] at hc hp hv
      rw [e3 _ (owner_lt hT hq) c p iv hc hp hv trivial, globCell_owner hq]
      rfl

end

end Verif.Sdm
