import Verif.Lemmas.Mirror
import Verif.Lemmas.HydroWhole

/-! Helper lemmas: ghost cells seen in a mirror; walls; the whole step seen in a mirror. -/

namespace Verif

open Spec Sdm ROps

/-! ### One axis -/

/-- Sign a value gets on its way to position `c`. -/
def csgn (n g : Int) (lo hi : BC) (b : Bool) (c : Int) : ℝ :=
  if (isGhost n g c && (behindWall n g lo hi c && b)) = true then -1 else 1

/-- `-1` for true. -/
def bsgn : Bool → ℝ
  | true => -1
  | false => 1

theorem cross_eq (n g : Int) (lo hi : BC) (b : Bool) (c : Int) (x : ℝ) :
    cross n g lo hi b c x = x * csgn n g lo hi b c := by
  unfold cross csgn
  rcases Bool.eq_false_or_eq_true (isGhost n g c) with h | h <;> simp only [h]
  · rcases Bool.eq_false_or_eq_true (behindWall n g lo hi c && b) with h' | h' <;>
      simp [h', rops_lit, rops_mul]
  · simp

section axis
variable {n g c : Int} {lo hi : BC} {b : Bool}

theorem source_low (hg : 0 ≤ g) (hn : g ≤ n) (h0 : 0 ≤ c) (hc : c < 2 * g) :
    source n g .reflecting hi (2 * g - 1 - c) = source n g .reflecting hi c := by
  unfold source; dsimp only; split_ifs <;> omega

theorem source_high (hg : 0 ≤ g) (hn : g ≤ n) (h0 : n ≤ c) (hc : c < n + 2 * g) :
    source n g lo .reflecting (2 * (n + g) - 1 - c) = source n g lo .reflecting c := by
  unfold source; dsimp only; split_ifs <;> omega

theorem csgn_low (hg : 0 ≤ g) (hn : g ≤ n) (h0 : 0 ≤ c) (hc : c < 2 * g) :
    csgn n g .reflecting hi b (2 * g - 1 - c) = csgn n g .reflecting hi b c * bsgn b := by
  unfold csgn isGhost behindWall
  cases b
  · simp [bsgn]
  · by_cases h : c < g
    · have h1 : ¬ (2 * g - 1 - c < g) := by omega
      have h2 : ¬ (n + g ≤ 2 * g - 1 - c) := by omega
      simp [h, h1, h2, bsgn]
    · have h1 : 2 * g - 1 - c < g := by omega
      have h2 : ¬ (n + g ≤ c) := by omega
      simp [h, h1, h2, bsgn]

theorem csgn_high (hg : 0 ≤ g) (hn : g ≤ n) (h0 : n ≤ c) (hc : c < n + 2 * g) :
    csgn n g lo .reflecting b (2 * (n + g) - 1 - c) = csgn n g lo .reflecting b c * bsgn b := by
  unfold csgn isGhost behindWall
  cases b
  · simp [bsgn]
  · by_cases h : n + g ≤ c
    · have h1 : ¬ (2 * (n + g) - 1 - c < g) := by omega
      have h2 : ¬ (n + g ≤ 2 * (n + g) - 1 - c) := by omega
      have h3 : ¬ (c < g) := by omega
      simp [h, h1, h2, bsgn]
    · have h1 : ¬ (c < g) := by omega
      have h2 : n + g ≤ 2 * (n + g) - 1 - c := by omega
      simp [h, h1, h2, bsgn]

theorem source_flip (hg : 0 ≤ g) (hn : g ≤ n) :
    source n g hi lo (n + 2 * g - 1 - c) = n + 2 * g - 1 - source n g lo hi c := by
  unfold source
  by_cases h1 : c < g
  · by_cases h2 : n + 2 * g - 1 - c < g
    · omega
    · rw [if_neg h2, if_pos (by omega), if_pos h1]
      cases lo <;> dsimp only <;> omega
  · by_cases h2 : n + g ≤ c
    · rw [if_pos (by omega), if_neg h1, if_pos h2]
      cases hi <;> dsimp only <;> omega
    · rw [if_neg (by omega), if_neg (by omega), if_neg h1, if_neg h2]

theorem csgn_flip (hg : 0 ≤ g) (hn : g ≤ n) :
    csgn n g hi lo b (n + 2 * g - 1 - c) = csgn n g lo hi b c := by
  unfold csgn isGhost behindWall
  have e1 : decide (n + 2 * g - 1 - c < g) = decide (n + g ≤ c) := by
    apply decide_eq_decide.2; omega
  have e2 : decide (n + g ≤ n + 2 * g - 1 - c) = decide (c < g) := by
    apply decide_eq_decide.2; omega
  rw [e1, e2]
  congr 2
  rw [Bool.or_comm (decide (n + g ≤ c)) (decide (c < g)), Bool.or_comm (decide (n + g ≤ c) && hi == BC.reflecting)]

end axis

/-! ### Ghost cells -/

/-- All signs of a ghost value. -/
def csgnAll (d3 : Bool) (P : Grid) (B : Sides) (c : Cell) (v : ℕ) : ℝ :=
  csgn P.nx P.ghostWidth B.xlo B.xhi (normalTo 0 false v) c.i *
  csgn P.ny P.ghostWidth B.ylo B.yhi (normalTo 1 false v) c.j *
  (if d3 then csgn P.nz P.ghostWidth B.zlo B.zhi (normalTo 2 false v) c.k else 1)

theorem crossAll_eq (d3 : Bool) (P : Grid) (B : Sides) (c : Cell) (v : ℕ) (x : ℝ) :
    crossAll d3 false P B c v x = x * csgnAll d3 P B c v := by
  unfold crossAll csgnAll
  cases d3 <;> simp only [cross_eq, Bool.false_eq_true, if_false, if_true] <;> ring

theorem field_mirror {d3 : Bool} {a : Dir} (ha : a.ok d3) {m m' : Addr → ℝ} {A A' : ℕ} {c c' : Cell}
    (h : ∀ v < hydroVars d3, m' (c'.at A' v) = m (c.at A v) * bsgn (normalTo (axis a) false v)) :
    field d3 m' A' c' = mirrorAlong a (field d3 m A c) := by
  have h0 := h 0 (by cases d3 <;> decide)
  have h1 := h 1 (by cases d3 <;> decide)
  have h2 := h 2 (by cases d3 <;> decide)
  have h3 := h 3 (by cases d3 <;> decide)
  unfold field
  cases d3
  · cases a
    · simp [normalTo, axis, bsgn] at h0 h1 h2 h3
      simp [mirrorAlong, h0, h1, h2, h3]
    · simp [normalTo, axis, bsgn] at h0 h1 h2 h3
      simp [mirrorAlong, h0, h1, h2, h3]
    · exact absurd rfl (ha.resolve_left (by decide))
  · have h4 := h 4 (by decide)
    cases a <;> simp [normalTo, axis, bsgn] at h0 h1 h2 h3 h4 <;> simp [mirrorAlong, h0, h1, h2, h3, h4]

/-- Number of cells along an axis. -/
def Grid.along (P : Grid) : Dir → Int
  | .x => P.nx
  | .y => P.ny
  | .z => P.nz

/-- Coordinate along an axis. -/
def Cell.coord (c : Cell) : Dir → Int
  | .x => c.i
  | .y => c.j
  | .z => c.k

/-- Mirror at the wall position `s / 2` along axis `a`. -/
def reflectAt (a : Dir) (s : Int) (c : Cell) : Cell :=
  match a with
  | .x => { c with i := s - c.i }
  | .y => { c with j := s - c.j }
  | .z => { c with k := s - c.k }

theorem reflectAt_reflection (a : Dir) (s : Int) : Reflection a (reflectAt a s) := by
  constructor
  · intro c; cases a <;> simp [reflectAt, Cell.up, Cell.down] <;> ring
  · intro c; cases a <;> simp [reflectAt, Cell.up, Cell.down] <;> ring
  · intro e c h; cases a <;> cases e <;> first | exact absurd rfl h | rfl
  · intro e c h; cases a <;> cases e <;> first | exact absurd rfl h | rfl

theorem mirrored_eq (P : Grid) (a : Dir) (c : Cell) :
    mirrored P a c = reflectAt a (P.along a + 2 * P.ghostWidth - 1) c := by cases a <;> rfl

section
variable {d3 : Bool} {nv : ℕ} {w : Int} {P : Grid} {B : Sides} {U : ℕ} {m m1 : Addr → ℝ} {a : Dir}

/-- Next to a lower reflecting side the filled array is its own mirror image. -/
theorem FilledMem.wall_low (h : BoxSetup d3 (hydroVars d3) w P B) (hw : 0 ≤ w)
    (f : FilledMem d3 false P B U m m1) (ha : a.ok d3) (hB : lowBC B a = .reflecting) {c : Cell}
    (hb : P.box d3 c) (hc : c.coord a < 2 * P.ghostWidth) :
    field d3 m1 U (reflectAt a (2 * P.ghostWidth - 1) c) = mirrorAlong a (field d3 m1 U c) := by
  refine field_mirror ha fun v hv => ?_
  have hb' := box_iff.1 hb
  have hg : 0 ≤ P.ghostWidth := le_trans hw h.gw
  have hv' : v < P.nbvar := h.nv ▸ hv
  have hnx := h.nx
  have hny := h.ny
  cases a
  · have hb2 : P.box d3 (reflectAt .x (2 * P.ghostWidth - 1) c) := by
      rw [box_iff]; simp only [reflectAt]; simp only [Cell.coord] at hc
      exact ⟨by omega, by omega, hb'.2.2.1, hb'.2.2.2.1, hb'.2.2.2.2⟩
    rw [f.cells _ _ hb2 hv', f.cells _ _ hb hv', crossAll_eq, crossAll_eq]
    simp only [srcCell, csgnAll, reflectAt]
    simp only [lowBC, Cell.coord] at hB hc
    rw [hB, source_low hg hnx hb'.1 hc, csgn_low hg hnx hb'.1 hc]
    simp only [axis]; ring
  · have hb2 : P.box d3 (reflectAt .y (2 * P.ghostWidth - 1) c) := by
      rw [box_iff]; simp only [reflectAt]; simp only [Cell.coord] at hc
      exact ⟨hb'.1, hb'.2.1, by omega, by omega, hb'.2.2.2.2⟩
    rw [f.cells _ _ hb2 hv', f.cells _ _ hb hv', crossAll_eq, crossAll_eq]
    simp only [srcCell, csgnAll, reflectAt]
    simp only [lowBC, Cell.coord] at hB hc
    rw [hB, source_low hg hny hb'.2.2.1 hc, csgn_low hg hny hb'.2.2.1 hc]
    simp only [axis]; ring
  · have h3 : d3 = true := ha.resolve_right (by simp)
    subst h3
    simp only [if_true] at hb'
    have hnz := h.nz rfl
    have hb2 : P.box true (reflectAt .z (2 * P.ghostWidth - 1) c) := by
      rw [box_iff]; simp only [reflectAt]; simp only [Cell.coord] at hc
      exact ⟨hb'.1, hb'.2.1, hb'.2.2.1, hb'.2.2.2.1, by simp only [if_true]; omega⟩
    rw [f.cells _ _ hb2 hv', f.cells _ _ hb hv', crossAll_eq, crossAll_eq]
    simp only [srcCell, csgnAll, reflectAt, if_true]
    simp only [lowBC, Cell.coord] at hB hc
    rw [hB, source_low hg hnz hb'.2.2.2.2.1 hc, csgn_low hg hnz hb'.2.2.2.2.1 hc]
    simp only [axis]; ring

/-- Next to an upper reflecting side the filled array is its own mirror image. -/
theorem FilledMem.wall_high (h : BoxSetup d3 (hydroVars d3) w P B) (hw : 0 ≤ w)
    (f : FilledMem d3 false P B U m m1) (ha : a.ok d3) (hB : highBC B a = .reflecting) {c : Cell}
    (hb : P.box d3 c) (hc : P.along a ≤ c.coord a) :
    field d3 m1 U (reflectAt a (2 * (P.along a + P.ghostWidth) - 1) c) = mirrorAlong a (field d3 m1 U c) := by
  refine field_mirror ha fun v hv => ?_
  have hb' := box_iff.1 hb
  have hg : 0 ≤ P.ghostWidth := le_trans hw h.gw
  have hv' : v < P.nbvar := h.nv ▸ hv
  have hnx := h.nx
  have hny := h.ny
  cases a
  · simp only [Grid.along] at hc ⊢
    have hb2 : P.box d3 (reflectAt .x (2 * (P.nx + P.ghostWidth) - 1) c) := by
      rw [box_iff]; simp only [reflectAt]; simp only [Cell.coord] at hc
      exact ⟨by omega, by omega, hb'.2.2.1, hb'.2.2.2.1, hb'.2.2.2.2⟩
    rw [f.cells _ _ hb2 hv', f.cells _ _ hb hv', crossAll_eq, crossAll_eq]
    simp only [srcCell, csgnAll, reflectAt]
    simp only [highBC, Cell.coord] at hB hc
    rw [hB, source_high hg hnx hc (by omega), csgn_high hg hnx hc (by omega)]
    simp only [axis]; ring
  · simp only [Grid.along] at hc ⊢
    have hb2 : P.box d3 (reflectAt .y (2 * (P.ny + P.ghostWidth) - 1) c) := by
      rw [box_iff]; simp only [reflectAt]; simp only [Cell.coord] at hc
      exact ⟨hb'.1, hb'.2.1, by omega, by omega, hb'.2.2.2.2⟩
    rw [f.cells _ _ hb2 hv', f.cells _ _ hb hv', crossAll_eq, crossAll_eq]
    simp only [srcCell, csgnAll, reflectAt]
    simp only [highBC, Cell.coord] at hB hc
    rw [hB, source_high hg hny hc (by omega), csgn_high hg hny hc (by omega)]
    simp only [axis]; ring
  · have h3 : d3 = true := ha.resolve_right (by simp)
    subst h3
    simp only [if_true] at hb'
    have hnz := h.nz rfl
    simp only [Grid.along] at hc ⊢
    have hb2 : P.box true (reflectAt .z (2 * (P.nz + P.ghostWidth) - 1) c) := by
      rw [box_iff]; simp only [reflectAt]; simp only [Cell.coord] at hc
      exact ⟨hb'.1, hb'.2.1, hb'.2.2.1, hb'.2.2.2.1, by simp only [if_true]; omega⟩
    rw [f.cells _ _ hb2 hv', f.cells _ _ hb hv', crossAll_eq, crossAll_eq]
    simp only [srcCell, csgnAll, reflectAt, if_true]
    simp only [highBC, Cell.coord] at hB hc
    rw [hB, source_high hg hnz hc (by omega), csgn_high hg hnz hc (by omega)]
    simp only [axis]; ring

end

end Verif
