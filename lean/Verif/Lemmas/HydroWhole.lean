import Verif.Lemmas.HydroFinal
import Verif.Lemmas.RealOps
import Verif.Spec.HydroStep
import Mathlib.Tactic.Ring
import Mathlib.Tactic.Linarith

/-! Helper lemmas: ghost fill followed by the hydro loops. -/

namespace Verif

open K Function ROps Spec

section anyα
variable {α : Type} [ROps α]

/-- Where the value of a cell comes from. -/
def srcCell (d3 : Bool) (P : Grid) (B : Sides) (c : Cell) : Cell where
  i := source P.nx P.ghostWidth B.xlo B.xhi c.i
  j := source P.ny P.ghostWidth B.ylo B.yhi c.j
  k := if d3 then source P.nz P.ghostWidth B.zlo B.zhi c.k else c.k

/-- What happens to the value. -/
def crossAll (d3 mhd : Bool) (P : Grid) (B : Sides) (c : Cell) (v : Nat) (x : α) : α :=
  let y := cross P.ny P.ghostWidth B.ylo B.yhi (normalTo 1 mhd v) c.j
    (cross P.nx P.ghostWidth B.xlo B.xhi (normalTo 0 mhd v) c.i x)
  if d3 then cross P.nz P.ghostWidth B.zlo B.zhi (normalTo 2 mhd v) c.k y else y

/-- Memory after the ghost fill. -/
structure FilledMem (d3 mhd : Bool) (P : Grid) (B : Sides) (U : Nat) (m m1 : Addr → α) : Prop where
  cells : ∀ c v, P.box d3 c → v < P.nbvar →
    m1 (c.at U v) = crossAll d3 mhd P B c v (m ((srcCell d3 P B c).at U v))
  frame : ∀ a, ¬ (a.arr = U ∧ P.box d3 a.cell ∧ a.v < P.nbvar) → m1 a = m a

theorem fill_mem (d3 mhd : Bool) {nv : Nat} {w : Int} {P : Grid} {B : Sides}
    (h : BoxSetup d3 nv w P B) (hw : 1 ≤ w) (U : Nat) (m : Addr → α) :
    ∃ m1, YieldsAll (fun a => a.arr = U ∧ P.box d3 a.cell ∧ a.v < P.nbvar)
      (if d3 then makeBoundariesSerial3D mhd P U else makeBoundariesSerial2D mhd P U) m m1 ∧
      FilledMem d3 mhd P B U m m1 := by
  have hg := h.gw
  cases d3
  · obtain ⟨m1, y, hc, hf⟩ := fill2 mhd P U ⟨by omega, h.nx, h.ny⟩ h.xmin h.xmax h.ymin h.ymax m
    refine ⟨m1, ?_, ⟨?_, ?_⟩⟩
    · refine y.mono ?_
      rintro a ⟨h1, h2, h3, h4, h5, h6, h7⟩
      exact ⟨h1, ⟨h2, h3, h4, h5, by simpa [Addr.cell] using h6⟩, h7⟩
    · rintro c v ⟨h1, h2, h3, h4, h5⟩ hv
      exact hc c v ⟨h1, h2, h3, h4, by simpa using h5⟩ hv
    · intro a ha
      refine hf a fun ⟨h1, h2, h3, h4, h5, h6, h7⟩ => ha ⟨h1, ⟨h2, h3, h4, h5, by simpa [Addr.cell] using h6⟩, h7⟩
  · obtain ⟨m1, y, hc, hf⟩ := fill3 mhd P U ⟨⟨by omega, h.nx, h.ny⟩, h.nz rfl⟩ h.xmin h.xmax
      h.ymin h.ymax (h.zmin rfl) (h.zmax rfl) m
    refine ⟨m1, ?_, ⟨?_, ?_⟩⟩
    · refine y.mono ?_
      rintro a ⟨h1, h2, h3, h4, h5, h6, h7, h8⟩
      exact ⟨h1, ⟨h2, h3, h4, h5, by simpa using ⟨h6, h7⟩⟩, h8⟩
    · rintro c v ⟨h1, h2, h3, h4, h5⟩ hv
      exact hc c v ⟨h1, h2, h3, h4, by simpa using h5⟩ hv
    · intro a ha
      refine hf a fun ⟨h1, h2, h3, h4, h5, h6, h7, h8⟩ =>
        ha ⟨h1, ⟨h2, h3, h4, h5, by simpa using ⟨h6, h7⟩⟩, h8⟩

theorem box_iff {d3 : Bool} {P : Grid} {c : Cell} : P.box d3 c ↔
    0 ≤ c.i ∧ c.i < P.nx + 2 * P.ghostWidth ∧ 0 ≤ c.j ∧ c.j < P.ny + 2 * P.ghostWidth ∧
      (if d3 then 0 ≤ c.k ∧ c.k < P.nz + 2 * P.ghostWidth else c.k = 0) := by
  unfold Grid.box
  rw [P.isize_eq, P.jsize_eq, P.ksize_eq]

theorem inner_iff {d3 : Bool} {P : Grid} {c : Cell} : P.inner d3 c ↔
    (d3 = true → c.k ≥ P.ghostWidth ∧ c.k < P.nz + P.ghostWidth) ∧
    c.j ≥ P.ghostWidth ∧ c.j < P.ny + P.ghostWidth ∧
    c.i ≥ P.ghostWidth ∧ c.i < P.nx + P.ghostWidth := by
  unfold Grid.inner
  rw [P.isize_eq, P.jsize_eq, P.ksize_eq]
  constructor
  · rintro ⟨h1, h2, h3, h4, h5⟩
    exact ⟨fun h => by have := h1 h; omega, by omega, by omega, by omega, by omega⟩
  · rintro ⟨h1, h2, h3, h4, h5⟩
    exact ⟨fun h => by have := h1 h; omega, by omega, by omega, by omega, by omega⟩

theorem faces_iff {d3 : Bool} {P : Grid} {c : Cell} : P.faces d3 c ↔
    (d3 = true → c.k ≥ P.ghostWidth ∧ c.k ≤ P.nz + P.ghostWidth) ∧
    c.j ≥ P.ghostWidth ∧ c.j ≤ P.ny + P.ghostWidth ∧
    c.i ≥ P.ghostWidth ∧ c.i ≤ P.nx + P.ghostWidth := by
  unfold Grid.faces
  rw [P.isize_eq, P.jsize_eq, P.ksize_eq]
  constructor
  · rintro ⟨h1, h2, h3, h4, h5⟩
    exact ⟨fun h => by have := h1 h; omega, by omega, by omega, by omega, by omega⟩
  · rintro ⟨h1, h2, h3, h4, h5⟩
    exact ⟨fun h => by have := h1 h; omega, by omega, by omega, by omega, by omega⟩

theorem source_inner {n g : Int} {lo hi : BC} {c : Int} (h1 : g ≤ c) (h2 : c < n + g) :
    source n g lo hi c = c := by
  unfold source; rw [if_neg (by omega), if_neg (by omega)]

theorem cross_inner {n g : Int} {lo hi : BC} {b : Bool} {c : Int} (h1 : g ≤ c) (h2 : c < n + g)
    (x : α) : cross n g lo hi b c x = x := by
  unfold cross isGhost; rw [if_neg]; simp; omega

/-- Interior cells are not changed by the fill. -/
theorem FilledMem.interior {d3 mhd : Bool} {P : Grid} {B : Sides} {U : Nat} {m m1 : Addr → α}
    (h : FilledMem d3 mhd P B U m m1) {c : Cell} (hb : P.box d3 c)
    (hi : P.inner d3 c) {v : Nat} (hv : v < P.nbvar) : m1 (c.at U v) = m (c.at U v) := by
  obtain ⟨h1, h2, h3, h4, h5⟩ := inner_iff.1 hi
  rw [h.cells c v hb hv]
  unfold crossAll srcCell
  simp only
  rw [source_inner h4 h5, source_inner h2 h3, cross_inner h4 h5, cross_inner h2 h3]
  cases d3
  · rfl
  · simp only [if_true]
    rw [source_inner (h1 rfl).1 (h1 rfl).2, cross_inner (h1 rfl).1 (h1 rfl).2]

variable {d3 : Bool} {S : Settings α} {P : Grid} {J : Junk α} {impl : Int} {grav : Bool}
  {dt : α} {it : Nat} {B : Sides}

theorem godunov_bufs : godunov_unsplit d3 S P J impl grav dt it =
    godunov_unsplit_impl d3 S P J impl grav dt (bufIn it) (bufOut it) := by
  unfold godunov_unsplit bufIn bufOut; split_ifs <;> rfl

theorem hydroOk_of (h : BoxSetup d3 (hydroVars d3) 2 P B) (himpl : impl = 0 ∨ impl = 1) :
    HydroOk d3 P impl (bufIn it) (bufOut it) := by
  refine ⟨h.gw, h.nv, ?_, himpl⟩
  unfold bufIn bufOut
  split_ifs <;> simp

/-- The whole step: well defined under all schedules, and its result. -/
theorem step_whole (h : BoxSetup d3 (hydroVars d3) 2 P B) (himpl : impl = 0 ∨ impl = 1)
    (m : Addr → α) : ∃ m1 m', FilledMem d3 false P B (bufIn it) m m1 ∧
      YieldsAll (hydroDom d3 P impl grav) (godunov_unsplit d3 S P J impl grav dt it) m m' ∧
      StepResult d3 S P J impl grav dt (bufIn it) (bufOut it) m1 m' := by
  have hok := hydroOk_of (it := it) h himpl
  obtain ⟨m1, y1, f1⟩ := fill_mem d3 false h (by decide) (bufIn it) m
  obtain ⟨m', y', r⟩ := core (S := S) (J := J) (grav := grav) (dt := dt) hok m1
  refine ⟨m1, m', f1, ?_, r⟩
  rw [godunov_bufs, godunov_eq]
  refine YieldsAll.append (y1.mono ?_) y'
  rintro a ⟨h1, h2, h3⟩
  have := hok.dom_in (grav := grav) h2 a.v (h.nv ▸ h3)
  rw [← h1] at this
  exact this

theorem bufIn_ne_bufOut (it : Nat) : bufIn it ≠ bufOut it := by
  unfold bufIn bufOut; split_ifs <;> simp [aU, aU2]

theorem cell_box (h : BoxSetup d3 (hydroVars d3) 2 P B) {i j k : Nat} (hi : i < P.nx.toNat)
    (hj : j < P.ny.toNat) (hk : k < depth d3 P) :
    P.box d3 (cell d3 P i j k) ∧ P.inner d3 (cell d3 P i j k) := by
  have hg := h.gw
  rw [box_iff, inner_iff]
  unfold cell depth at *
  cases d3
  · simp only [Bool.false_eq_true, if_false] at hk ⊢
    refine ⟨⟨by omega, by omega, by omega, by omega, trivial⟩, fun h => h.elim,
      by omega, by omega, by omega, by omega⟩
  · simp only [if_true] at hk ⊢
    refine ⟨⟨by omega, by omega, by omega, by omega, by omega, by omega⟩, fun _ => ⟨by omega, by omega⟩,
      by omega, by omega, by omega, by omega⟩

/-- Entry of a field. -/
theorem field_get (d3 : Bool) (m : Addr → α) (A : Nat) (c : Cell) {v : Nat}
    (hv : v < hydroVars d3) : (field d3 m A c).get v = m (c.at A v) := by
  cases d3
  · have : v = 0 ∨ v = 1 ∨ v = 2 ∨ v = 3 := by simp [hydroVars] at hv; omega
    rcases this with rfl | rfl | rfl | rfl <;> rfl
  · have : v = 0 ∨ v = 1 ∨ v = 2 ∨ v = 3 ∨ v = 4 := by simp [hydroVars] at hv; omega
    rcases this with rfl | rfl | rfl | rfl | rfl <;> rfl

theorem field_ext {d3 : Bool} {m m' : Addr → α} {A A' : Nat} {c c' : Cell}
    (h : ∀ v, v < hydroVars d3 → m (c.at A v) = m' (c'.at A' v)) :
    field d3 m A c = field d3 m' A' c' := by
  cases d3
  · simp only [field, h 0 (by decide), h 1 (by decide), h 2 (by decide), h 3 (by decide)]; rfl
  · simp only [field, h 0 (by decide), h 1 (by decide), h 2 (by decide), h 3 (by decide),
      h 4 (by decide)]

end anyα

/-! ### Sums over the interior -/

open Finset

theorem interiorSum_congr {d3 : Bool} {P : Grid} {f g : Cell → ℝ}
    (h : ∀ i j k, i < P.nx.toNat → j < P.ny.toNat → k < depth d3 P →
      f (cell d3 P i j k) = g (cell d3 P i j k)) : interiorSum d3 P f = interiorSum d3 P g := by
  unfold interiorSum
  refine sum_congr rfl fun i hi => sum_congr rfl fun j hj => sum_congr rfl fun k hk => ?_
  exact h i j k (mem_range.1 hi) (mem_range.1 hj) (mem_range.1 hk)

theorem interiorSum_add (d3 : Bool) (P : Grid) (f g : Cell → ℝ) :
    interiorSum d3 P (fun c => f c + g c) = interiorSum d3 P f + interiorSum d3 P g := by
  simp only [interiorSum, sum_add_distrib]

theorem telescope_x (d3 : Bool) (P : Grid) (F : Cell → ℝ) :
    interiorSum d3 P (fun c => F c - F (c.up .x)) =
      ∑ j ∈ range P.ny.toNat, ∑ k ∈ range (depth d3 P),
        (F (cell d3 P 0 j k) - F (cell d3 P P.nx.toNat j k)) := by
  unfold interiorSum
  have e : ∀ i j k, (cell d3 P i j k).up .x = cell d3 P (i + 1) j k := by
    intro i j k; simp [cell, Cell.up]; omega
  simp only [e, sum_sub_distrib]
  rw [← sum_sub_distrib, sum_range_sub' (fun i => ∑ j ∈ range P.ny.toNat,
    ∑ k ∈ range (depth d3 P), F (cell d3 P i j k))]

theorem telescope_y (d3 : Bool) (P : Grid) (F : Cell → ℝ) :
    interiorSum d3 P (fun c => F c - F (c.up .y)) =
      ∑ i ∈ range P.nx.toNat, ∑ k ∈ range (depth d3 P),
        (F (cell d3 P i 0 k) - F (cell d3 P i P.ny.toNat k)) := by
  unfold interiorSum
  have e : ∀ i j k, (cell d3 P i j k).up .y = cell d3 P i (j + 1) k := by
    intro i j k; simp [cell, Cell.up]; omega
  simp only [e]
  refine sum_congr rfl fun i _ => ?_
  simp only [sum_sub_distrib]
  rw [← sum_sub_distrib, sum_range_sub' (fun j => ∑ k ∈ range (depth d3 P), F (cell d3 P i j k))]

theorem telescope_z (P : Grid) (F : Cell → ℝ) :
    interiorSum true P (fun c => F c - F (c.up .z)) =
      ∑ i ∈ range P.nx.toNat, ∑ j ∈ range P.ny.toNat,
        (F (cell true P i j 0) - F (cell true P i j P.nz.toNat)) := by
  unfold interiorSum
  have e : ∀ i j k, (cell true P i j k).up .z = cell true P i j (k + 1) := by
    intro i j k; simp [cell, Cell.up]; omega
  simp only [e]
  refine sum_congr rfl fun i _ => sum_congr rfl fun j _ => ?_
  simp only [depth, if_true]
  rw [sum_range_sub' (fun k => F (cell true P i j k))]

/-- Component of an updated cell. -/
theorem updCell_get (d3 : Bool) (F : Dir → Cell → HState ℝ) (u : HState ℝ) (c : Cell) {v : Nat}
    (hv : v < hydroVars d3) : (updCell d3 F u c).get v = u.get v +
      ((F .x c).get v - (F .x (c.up .x)).get v) + ((F .y c).get v - (F .y (c.up .y)).get v) +
      (if d3 then (F .z c).get v - (F .z (c.up .z)).get v else 0) := by
  cases d3
  · have : v = 0 ∨ v = 1 ∨ v = 2 ∨ v = 3 := by simp [hydroVars] at hv; omega
    rcases this with rfl | rfl | rfl | rfl <;>
      simp only [updCell, HState.plusMinus, HState.get, Bool.false_eq_true, if_false] <;> rops <;>
      ring
  · have : v = 0 ∨ v = 1 ∨ v = 2 ∨ v = 3 ∨ v = 4 := by simp [hydroVars] at hv; omega
    rcases this with rfl | rfl | rfl | rfl | rfl <;>
      simp only [updCell, HState.plusMinus, HState.get, if_true] <;> rops <;> ring

theorem interiorSum_updCell (d3 : Bool) (P : Grid) (F : Dir → Cell → HState ℝ) (u : Cell → HState ℝ)
    {v : Nat} (hv : v < hydroVars d3) :
    interiorSum d3 P (fun c => (updCell d3 F (u c) c).get v) =
      interiorSum d3 P (fun c => (u c).get v) +
        netInflow d3 P (fun c => (F .x c).get v) (fun c => (F .y c).get v)
          (fun c => (F .z c).get v) := by
  simp only [updCell_get d3 F _ _ hv, netInflow]
  rw [← telescope_x d3 P fun c => (F .x c).get v, ← telescope_y d3 P fun c => (F .y c).get v]
  cases d3
  · simp only [Bool.false_eq_true, if_false, add_zero]
    rw [interiorSum_add, interiorSum_add]; ring
  · simp only [if_true]
    rw [← telescope_z P fun c => (F .z c).get v, interiorSum_add, interiorSum_add, interiorSum_add]; ring

/-- `cross` over the reals. -/
theorem cross_real (n g : Int) (lo hi : BC) (normal : Bool) (c : Int) (x : ℝ) :
    cross n g lo hi normal c x =
      if behindWall n g lo hi c = true ∧ normal = true then -x else x := by
  unfold cross
  by_cases h : isGhost n g c = true
  · rw [if_pos h]
    by_cases h' : behindWall n g lo hi c = true ∧ normal = true
    · rw [if_pos h', if_pos (by simp [h'])]; simp [ROps.lit]
    · rw [if_neg h', if_neg (by simpa using h')]; simp [ROps.lit]
  · rw [if_neg h, if_neg]
    rintro ⟨h', -⟩
    apply h
    simp only [behindWall, isGhost, Bool.or_eq_true, Bool.and_eq_true] at h' ⊢
    tauto

/-- No sign change unless a side is reflecting. -/
theorem cross_real_id {n g : Int} {lo hi : BC} (h1 : lo ≠ .reflecting) (h2 : hi ≠ .reflecting)
    (normal : Bool) (c : Int) (x : ℝ) : cross n g lo hi normal c x = x := by
  rw [cross_real, if_neg]
  simp [behindWall, h1, h2]

theorem crossAll_real_id {d3 mhd : Bool} {P : Grid} {B : Sides}
    (hx : B.xlo ≠ .reflecting ∧ B.xhi ≠ .reflecting) (hy : B.ylo ≠ .reflecting ∧ B.yhi ≠ .reflecting)
    (hz : d3 = true → B.zlo ≠ .reflecting ∧ B.zhi ≠ .reflecting) (c : Cell) (v : Nat) (x : ℝ) :
    crossAll d3 mhd P B c v x = x := by
  unfold crossAll
  simp only [cross_real_id hx.1 hx.2, cross_real_id hy.1 hy.2]
  cases d3
  · rfl
  · simp only [if_true, cross_real_id (hz rfl).1 (hz rfl).2]

end Verif
