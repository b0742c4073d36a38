import Verif.Lemmas.Copy
import Verif.Lemmas.Index
import Verif.Model.Boundaries
import Verif.Spec.Boundary
import Mathlib.Tactic.SplitIfs
import Mathlib.Tactic.Positivity
import Mathlib.Tactic.GCongr

/-! Helper lemmas for the ghost fill. -/

set_option linter.unusedSimpArgs false

namespace Verif

open K Function Spec

variable {α : Type} [ROps α]

theorem Cell.at_inj {c c' : Cell} {U v w : Nat} (h : c.at U v = c'.at U w) : c = c' ∧ v = w := by
  cases c; cases c'; simp only [Cell.at, Addr.mk.injEq] at h; simp [h]

open Classical in
/-- Effect of filling one face. -/
noncomputable def faceEffect (U nv : Nat) (region : Cell → Prop) (src : Cell → Nat → Cell)
    (sg : Cell → Nat → ℚ) (m : Addr → α) (a : Addr) : α :=
  if a.arr = U ∧ region a.cell ∧ a.v < nv then
    m ((src a.cell a.v).at U a.v) * ROps.lit (sg a.cell a.v)
  else m a

theorem face_yields (L : Launch Addr α) (dom : Addr → Prop) (U nv : Nat)
    (region : Cell → Prop) (dec : Nat → Cell) (src : Cell → Nat → Cell) (sg : Cell → Nat → ℚ)
    (hbody : ∀ t, region (dec t) → L.body t =
      copyVars nv (fun v => (src (dec t) v).at U v) (fun v => (dec t).at U v)
        (fun v x => x * ROps.lit (sg (dec t) v)))
    (hbody' : ∀ t, ¬ region (dec t) → L.body t = .ret ())
    (hinj : ∀ s t, region (dec s) → region (dec t) → dec s = dec t → s = t)
    (hsurj : ∀ c, region c → ∃ t, t < L.n ∧ dec t = c)
    (hsrc : ∀ c v, region c → ¬ region (src c v))
    (hdom : ∀ c v, region c → v < nv → dom (c.at U v) ∧ dom ((src c v).at U v))
    (m : Addr → α) :
    L.Yields dom m (faceEffect U nv region src sg m) := by
  classical
  refine copy_yields L dom nv (fun t => region (dec t)) (fun t v => (src (dec t) v).at U v)
    (fun t v => (dec t).at U v) (fun t v x => x * ROps.lit (sg (dec t) v))
    (fun t _ h => hbody t h) (fun t _ h => hbody' t h) ?_ ?_ ?_ ?_ m _ ?_ ?_
  · intro s t v w _ _ hs ht _ _ e
    obtain ⟨h1, h2⟩ := Cell.at_inj e
    exact ⟨hinj s t hs ht h1, h2⟩
  · intro s t v w _ _ hs ht _ _ e
    obtain ⟨h1, -⟩ := Cell.at_inj e
    exact hsrc _ v hs (h1 ▸ ht)
  · intro t v _ hg hv; exact (hdom _ v hg hv).2
  · intro t v _ hg hv; exact (hdom _ v hg hv).1
  · intro t v _ hg hv
    have : ((dec t).at U v).cell = dec t := rfl
    simp only [faceEffect]
    rw [if_pos ⟨rfl, by rw [this]; exact hg, hv⟩]
    rfl
  · intro a ha
    simp only [faceEffect]
    rw [if_neg]
    rintro ⟨h1, h2, h3⟩
    obtain ⟨t, ht, hd⟩ := hsurj _ h2
    refine ha t a.v ht (hd ▸ h2) h3 ?_
    rw [hd]; cases a; simp only at h1; subst h1; rfl

/-- The sources of a ghost layer of width `g` lie outside that layer and inside the array. -/
def Fits (bt n g : Int) : Prop := bt = BC_DIRICHLET ∨ bt = BC_NEUMANN ∨ g ≤ n

theorem lowSource_range {g n bt c : Int} {nrm : Bool} (hg : 0 < g) (hn : 0 ≤ n)
    (hok : Fits bt n g) (h0 : 0 ≤ c) (h1 : c < g) :
    g ≤ (lowSource g n bt c nrm).1 ∧ (lowSource g n bt c nrm).1 < n + 2 * g := by
  unfold Fits at hok
  unfold lowSource; split_ifs <;> simp only <;> omega

theorem highSource_range {g n bt c : Int} {nrm : Bool} (hg : 0 < g) (hn : 0 ≤ n)
    (hok : Fits bt n g) (h0 : n + g ≤ c) (h1 : c < n + 2 * g) :
    0 ≤ (highSource g n bt c nrm).1 ∧ (highSource g n bt c nrm).1 < n + g := by
  unfold Fits at hok
  unfold highSource; split_ifs <;> simp only <;> omega

/-! ### Decoding of the work item index -/

theorem dec2_inj {g : Int} {s t : Nat}
    (h1 : (s : Int).tdiv g = (t : Int).tdiv g)
    (h2 : (s : Int) - (s : Int).tdiv g * g = (t : Int) - (t : Int).tdiv g * g) : s = t := by
  rw [h1] at h2; omega

theorem dec2_surj {g i j : Int} (hi : 0 ≤ i) (hi' : i < g) (hj : 0 ≤ j) :
    ((j * g + i).toNat : Int).tdiv g = j ∧
    ((j * g + i).toNat : Int) - ((j * g + i).toNat : Int).tdiv g * g = i := by
  have h0 : 0 ≤ j * g + i := by nlinarith
  have e : ((j * g + i).toNat : Int) = j * g + i := Int.toNat_of_nonneg h0
  rw [e, tdiv_nonneg_eq h0, div_unique hi hi']
  exact ⟨rfl, by ring⟩

/-- Decoding `k = t/(q*p)`, `j = (t - k*q*p)/d`, `i = t - j*d - k*q*p` with `q*p = n*d`. -/
theorem dec3_inj {a b d : Int} {s t : Nat}
    (h1 : (s : Int).tdiv (a * b) = (t : Int).tdiv (a * b))
    (h2 : ((s : Int) - (s : Int).tdiv (a * b) * a * b).tdiv d
      = ((t : Int) - (t : Int).tdiv (a * b) * a * b).tdiv d)
    (h3 : (s : Int) - ((s : Int) - (s : Int).tdiv (a * b) * a * b).tdiv d * d
        - (s : Int).tdiv (a * b) * a * b
      = (t : Int) - ((t : Int) - (t : Int).tdiv (a * b) * a * b).tdiv d * d
        - (t : Int).tdiv (a * b) * a * b) : s = t := by
  rw [h1] at h2 h3; rw [h2] at h3; omega

theorem dec3_surj {i j k d n a b : Int} (hab : a * b = n * d) (hi : 0 ≤ i) (hi' : i < d)
    (hj : 0 ≤ j) (hj' : j < n) (hk : 0 ≤ k) :
    let t := k * (n * d) + j * d + i
    let T := (t.toNat : Int)
    T.tdiv (a * b) = k ∧ (T - T.tdiv (a * b) * a * b).tdiv d = j ∧
    T - (T - T.tdiv (a * b) * a * b).tdiv d * d - T.tdiv (a * b) * a * b = i := by
  intro t T
  have hd : 0 < d := lt_of_le_of_lt hi hi'
  have hnd : 0 ≤ n * d := mul_nonneg (by omega) hd.le
  have h0 : 0 ≤ t := by
    have h1 : 0 ≤ k * (n * d) := mul_nonneg hk hnd
    have h2 : 0 ≤ j * d := mul_nonneg hj hd.le
    simp only [t]; omega
  have e : T = t := Int.toNat_of_nonneg h0
  obtain ⟨u1, u2⟩ := radix3_unique (a := k) hj hj' hi hi'
  have hk' : T.tdiv (a * b) = k := by rw [e, tdiv_nonneg_eq h0, hab]; exact u1
  have hr : 0 ≤ t - k * (n * d) := by
    have h2 : 0 ≤ j * d := mul_nonneg hj hd.le
    simp only [t]; omega
  have hkab : k * a * b = k * (n * d) := by rw [mul_assoc, hab]
  have hj2 : (T - T.tdiv (a * b) * a * b).tdiv d = j := by
    rw [hk', e, hkab, tdiv_nonneg_eq hr]; exact u2
  refine ⟨hk', hj2, ?_⟩
  rw [hj2, hk', hkab, e]; simp only [t]; ring

/-! ### The ten faces -/

structure Grid.Pos2 (P : Grid) : Prop where
  g : 0 < P.ghostWidth
  x : 0 ≤ P.nx
  y : 0 ≤ P.ny

structure Grid.Pos3 (P : Grid) : Prop extends P.Pos2 where
  z : 0 ≤ P.nz

/-- Standing assumptions: the interior is at least as wide as the ghost layer. -/
structure Grid.Wide2 (P : Grid) : Prop where
  g : 0 < P.ghostWidth
  x : P.ghostWidth ≤ P.nx
  y : P.ghostWidth ≤ P.ny

structure Grid.Wide3 (P : Grid) : Prop extends P.Wide2 where
  z : P.ghostWidth ≤ P.nz

theorem Grid.Wide2.pos {P : Grid} (h : P.Wide2) : P.Pos2 :=
  ⟨h.g, by have := h.g; have := h.x; omega, by have := h.g; have := h.y; omega⟩
theorem Grid.Wide3.pos {P : Grid} (h : P.Wide3) : P.Pos3 :=
  ⟨h.toWide2.pos, by have := h.g; have := h.z; omega⟩

theorem Grid.isize_eq (P : Grid) : P.isize = P.nx + 2 * P.ghostWidth := by
  simp only [Grid.isize, Grid.imax, Grid.imin]; ring
theorem Grid.jsize_eq (P : Grid) : P.jsize = P.ny + 2 * P.ghostWidth := by
  simp only [Grid.jsize, Grid.jmax, Grid.jmin]; ring
theorem Grid.ksize_eq (P : Grid) : P.ksize = P.nz + 2 * P.ghostWidth := by
  simp only [Grid.ksize, Grid.kmax, Grid.kmin]; ring

/-- Cells of a 2D / 3D array. -/
def Grid.cell2 (P : Grid) (c : Cell) : Prop :=
  0 ≤ c.i ∧ c.i < P.isize ∧ 0 ≤ c.j ∧ c.j < P.jsize ∧ c.k = 0
def Grid.cell3 (P : Grid) (c : Cell) : Prop :=
  0 ≤ c.i ∧ c.i < P.isize ∧ 0 ≤ c.j ∧ c.j < P.jsize ∧ 0 ≤ c.k ∧ c.k < P.ksize

/-- Effect of one face on all cells of the array (`cells`). -/
noncomputable def faceFx (mhd : Bool) (P : Grid) (U : Nat) (cells : Cell → Prop) (face : Face)
    (m : Addr → α) : Addr → α :=
  let g := P.ghostWidth
  match face with
  | .xmin => faceEffect U P.nbvar (fun c => cells c ∧ c.i < g)
      (fun c v => { c with i := (lowSource g P.nx P.boundary_type_xmin c.i (isNormalX mhd v)).1 })
      (fun c v => (lowSource g P.nx P.boundary_type_xmin c.i (isNormalX mhd v)).2) m
  | .xmax => faceEffect U P.nbvar (fun c => cells c ∧ P.nx + g ≤ c.i)
      (fun c v => { c with i := (highSource g P.nx P.boundary_type_xmax c.i (isNormalX mhd v)).1 })
      (fun c v => (highSource g P.nx P.boundary_type_xmax c.i (isNormalX mhd v)).2) m
  | .ymin => faceEffect U P.nbvar (fun c => cells c ∧ c.j < g)
      (fun c v => { c with j := (lowSource g P.ny P.boundary_type_ymin c.j (isNormalY mhd v)).1 })
      (fun c v => (lowSource g P.ny P.boundary_type_ymin c.j (isNormalY mhd v)).2) m
  | .ymax => faceEffect U P.nbvar (fun c => cells c ∧ P.ny + g ≤ c.j)
      (fun c v => { c with j := (highSource g P.ny P.boundary_type_ymax c.j (isNormalY mhd v)).1 })
      (fun c v => (highSource g P.ny P.boundary_type_ymax c.j (isNormalY mhd v)).2) m
  | .zmin => faceEffect U P.nbvar (fun c => cells c ∧ c.k < g)
      (fun c v => { c with k := (lowSource g P.nz P.boundary_type_zmin c.k (isNormalZ mhd v)).1 })
      (fun c v => (lowSource g P.nz P.boundary_type_zmin c.k (isNormalZ mhd v)).2) m
  | .zmax => faceEffect U P.nbvar (fun c => cells c ∧ P.nz + g ≤ c.k)
      (fun c v => { c with k := (highSource g P.nz P.boundary_type_zmax c.k (isNormalZ mhd v)).1 })
      (fun c v => (highSource g P.nz P.boundary_type_zmax c.k (isNormalZ mhd v)).2) m

theorem bound3 {i j k d n K : Int} (hi' : i < d) (hj' : j < n) (hk' : k < K)
    (hd : 0 ≤ d) (hn : 0 ≤ n) : k * (n * d) + j * d + i < K * (n * d) := by
  have h1 : j * d + d ≤ n * d := by nlinarith
  have h2 : 0 ≤ n * d := mul_nonneg hn hd
  have h3 : k * (n * d) + n * d ≤ K * (n * d) := by nlinarith
  omega

theorem xmin2_yields' (mhd : Bool) (P : Grid) (U : Nat) (hw : P.Pos2)
    (hok : Fits P.boundary_type_xmin P.nx P.ghostWidth) (m : Addr → α) :
    (makeBoundary2D mhd P U .xmin).Yields (P.alloc2 U) m
      (faceFx mhd P U P.cell2 .xmin m) := by
  obtain ⟨hg, hx, hy⟩ := hw
  have hi := P.isize_eq
  have hj := P.jsize_eq
  have reg : ∀ t : Nat, (P.cell2 ⟨((t : Int) - (t : Int).tdiv P.ghostWidth * P.ghostWidth), (t : Int).tdiv P.ghostWidth, 0⟩ ∧ ((t : Int) - (t : Int).tdiv P.ghostWidth * P.ghostWidth) < P.ghostWidth) ↔
      ((t : Int).tdiv P.ghostWidth ≥ P.jmin ∧ (t : Int).tdiv P.ghostWidth ≤ P.jmax ∧ ((t : Int) - (t : Int).tdiv P.ghostWidth * P.ghostWidth) ≥ 0 ∧ ((t : Int) - (t : Int).tdiv P.ghostWidth * P.ghostWidth) < P.ghostWidth) := by
    intro t
    simp only [Grid.cell2, Grid.imax, Grid.jmax, Grid.imin, Grid.jmin, hi, hj, and_true]
    generalize (t : Int).tdiv P.ghostWidth * P.ghostWidth = z
    omega
  simp only [faceFx]
  refine face_yields _ _ U P.nbvar _ (fun t => ⟨((t : Int) - (t : Int).tdiv P.ghostWidth * P.ghostWidth), (t : Int).tdiv P.ghostWidth, 0⟩) _ _ ?_ ?_ ?_ ?_ ?_ ?_ m
  · intro t ht
    simp only [makeBoundary2D, makeBoundary2DBody]
    rw [if_pos ((reg t).1 ht)]; rfl
  · intro t ht
    simp only [makeBoundary2D, makeBoundary2DBody]
    rw [if_neg (fun h => ht ((reg t).2 h))]; rfl
  · intro s t _ _ e
    simp only [Cell.mk.injEq] at e
    exact dec2_inj (g := P.ghostWidth) (by omega) (by omega)
  · rintro ⟨i, j, k⟩ ⟨⟨a, b, c, d, e⟩, f⟩
    simp only at a b c d e f
    obtain ⟨u1, u2⟩ := dec2_surj (g := P.ghostWidth) (i := i) (j := j)
      (by omega) (by omega) (by omega)
    refine ⟨(j * P.ghostWidth + (i)).toNat, ?_, ?_⟩
    · simp only [makeBoundary2D]
      have h1 : 0 ≤ j * P.ghostWidth + (i) := by nlinarith
      have h2 : P.jsize ≤ max P.isize P.jsize := by simp
      have h3 : j * P.ghostWidth + (i) < P.ghostWidth * max P.isize P.jsize := by
        nlinarith
      omega
    · rw [u2, u1, e]
  · rintro c v ⟨⟨a, b, c1, d, -⟩, f⟩ ⟨-, h⟩
    have := lowSource_range (bt := P.boundary_type_xmin) (nrm := isNormalX mhd v) hg hx hok a f
    simp only at h; omega
  · rintro c v ⟨⟨a, b, c1, d, e⟩, f⟩ hv
    have := lowSource_range (bt := P.boundary_type_xmin) (nrm := isNormalX mhd v) hg hx hok a f
    refine ⟨⟨rfl, a, b, c1, d, e, hv⟩, ?_⟩
    refine ⟨rfl, ?_, ?_, ?_, ?_, e, hv⟩ <;> simp only [Cell.at] <;> omega

theorem xmax2_yields' (mhd : Bool) (P : Grid) (U : Nat) (hw : P.Pos2)
    (hok : Fits P.boundary_type_xmax P.nx P.ghostWidth) (m : Addr → α) :
    (makeBoundary2D mhd P U .xmax).Yields (P.alloc2 U) m
      (faceFx mhd P U P.cell2 .xmax m) := by
  obtain ⟨hg, hx, hy⟩ := hw
  have hi := P.isize_eq
  have hj := P.jsize_eq
  have reg : ∀ t : Nat, (P.cell2 ⟨((t : Int) - (t : Int).tdiv P.ghostWidth * P.ghostWidth + (P.nx + P.ghostWidth)), (t : Int).tdiv P.ghostWidth, 0⟩ ∧ P.nx + P.ghostWidth ≤ ((t : Int) - (t : Int).tdiv P.ghostWidth * P.ghostWidth + (P.nx + P.ghostWidth))) ↔
      ((t : Int).tdiv P.ghostWidth ≥ P.jmin ∧ (t : Int).tdiv P.ghostWidth ≤ P.jmax ∧ ((t : Int) - (t : Int).tdiv P.ghostWidth * P.ghostWidth + (P.nx + P.ghostWidth)) ≥ P.nx + P.ghostWidth ∧ ((t : Int) - (t : Int).tdiv P.ghostWidth * P.ghostWidth + (P.nx + P.ghostWidth)) ≤ P.nx + 2 * P.ghostWidth - 1) := by
    intro t
    simp only [Grid.cell2, Grid.imax, Grid.jmax, Grid.imin, Grid.jmin, hi, hj, and_true]
    generalize (t : Int).tdiv P.ghostWidth * P.ghostWidth = z
    omega
  simp only [faceFx]
  refine face_yields _ _ U P.nbvar _ (fun t => ⟨((t : Int) - (t : Int).tdiv P.ghostWidth * P.ghostWidth + (P.nx + P.ghostWidth)), (t : Int).tdiv P.ghostWidth, 0⟩) _ _ ?_ ?_ ?_ ?_ ?_ ?_ m
  · intro t ht
    simp only [makeBoundary2D, makeBoundary2DBody]
    rw [if_pos ((reg t).1 ht)]; rfl
  · intro t ht
    simp only [makeBoundary2D, makeBoundary2DBody]
    rw [if_neg (fun h => ht ((reg t).2 h))]; rfl
  · intro s t _ _ e
    simp only [Cell.mk.injEq] at e
    exact dec2_inj (g := P.ghostWidth) (by omega) (by omega)
  · rintro ⟨i, j, k⟩ ⟨⟨a, b, c, d, e⟩, f⟩
    simp only at a b c d e f
    obtain ⟨u1, u2⟩ := dec2_surj (g := P.ghostWidth) (i := i - (P.nx + P.ghostWidth)) (j := j)
      (by omega) (by omega) (by omega)
    refine ⟨(j * P.ghostWidth + (i - (P.nx + P.ghostWidth))).toNat, ?_, ?_⟩
    · simp only [makeBoundary2D]
      have h1 : 0 ≤ j * P.ghostWidth + (i - (P.nx + P.ghostWidth)) := by nlinarith
      have h2 : P.jsize ≤ max P.isize P.jsize := by simp
      have h3 : j * P.ghostWidth + (i - (P.nx + P.ghostWidth)) < P.ghostWidth * max P.isize P.jsize := by
        nlinarith
      omega
    · rw [u2, u1, e]; simp only [Cell.mk.injEq, and_true, true_and]; omega
  · rintro c v ⟨⟨a, b, c1, d, -⟩, f⟩ ⟨-, h⟩
    have := highSource_range (bt := P.boundary_type_xmax) (nrm := isNormalX mhd v) hg hx hok f (by omega)
    simp only at h; omega
  · rintro c v ⟨⟨a, b, c1, d, e⟩, f⟩ hv
    have := highSource_range (bt := P.boundary_type_xmax) (nrm := isNormalX mhd v) hg hx hok f (by omega)
    refine ⟨⟨rfl, a, b, c1, d, e, hv⟩, ?_⟩
    refine ⟨rfl, ?_, ?_, ?_, ?_, e, hv⟩ <;> simp only [Cell.at] <;> omega

theorem ymin2_yields' (mhd : Bool) (P : Grid) (U : Nat) (hw : P.Pos2)
    (hok : Fits P.boundary_type_ymin P.ny P.ghostWidth) (m : Addr → α) :
    (makeBoundary2D mhd P U .ymin).Yields (P.alloc2 U) m
      (faceFx mhd P U P.cell2 .ymin m) := by
  obtain ⟨hg, hx, hy⟩ := hw
  have hi := P.isize_eq
  have hj := P.jsize_eq
  have reg : ∀ t : Nat, (P.cell2 ⟨(t : Int).tdiv P.ghostWidth, ((t : Int) - (t : Int).tdiv P.ghostWidth * P.ghostWidth), 0⟩ ∧ ((t : Int) - (t : Int).tdiv P.ghostWidth * P.ghostWidth) < P.ghostWidth) ↔
      ((t : Int).tdiv P.ghostWidth ≥ P.imin ∧ (t : Int).tdiv P.ghostWidth ≤ P.imax ∧ ((t : Int) - (t : Int).tdiv P.ghostWidth * P.ghostWidth) ≥ 0 ∧ ((t : Int) - (t : Int).tdiv P.ghostWidth * P.ghostWidth) < P.ghostWidth) := by
    intro t
    simp only [Grid.cell2, Grid.imax, Grid.jmax, Grid.imin, Grid.jmin, hi, hj, and_true]
    generalize (t : Int).tdiv P.ghostWidth * P.ghostWidth = z
    omega
  simp only [faceFx]
  refine face_yields _ _ U P.nbvar _ (fun t => ⟨(t : Int).tdiv P.ghostWidth, ((t : Int) - (t : Int).tdiv P.ghostWidth * P.ghostWidth), 0⟩) _ _ ?_ ?_ ?_ ?_ ?_ ?_ m
  · intro t ht
    simp only [makeBoundary2D, makeBoundary2DBody]
    rw [if_pos ((reg t).1 ht)]; rfl
  · intro t ht
    simp only [makeBoundary2D, makeBoundary2DBody]
    rw [if_neg (fun h => ht ((reg t).2 h))]; rfl
  · intro s t _ _ e
    simp only [Cell.mk.injEq] at e
    exact dec2_inj (g := P.ghostWidth) (by omega) (by omega)
  · rintro ⟨i, j, k⟩ ⟨⟨a, b, c, d, e⟩, f⟩
    simp only at a b c d e f
    obtain ⟨u1, u2⟩ := dec2_surj (g := P.ghostWidth) (i := j) (j := i)
      (by omega) (by omega) (by omega)
    refine ⟨(i * P.ghostWidth + (j)).toNat, ?_, ?_⟩
    · simp only [makeBoundary2D]
      have h1 : 0 ≤ i * P.ghostWidth + (j) := by nlinarith
      have h2 : P.isize ≤ max P.isize P.jsize := by simp
      have h3 : i * P.ghostWidth + (j) < P.ghostWidth * max P.isize P.jsize := by
        nlinarith
      omega
    · rw [u2, u1, e]
  · rintro c v ⟨⟨a, b, c1, d, -⟩, f⟩ ⟨-, h⟩
    have := lowSource_range (bt := P.boundary_type_ymin) (nrm := isNormalY mhd v) hg hy hok c1 f
    simp only at h; omega
  · rintro c v ⟨⟨a, b, c1, d, e⟩, f⟩ hv
    have := lowSource_range (bt := P.boundary_type_ymin) (nrm := isNormalY mhd v) hg hy hok c1 f
    refine ⟨⟨rfl, a, b, c1, d, e, hv⟩, ?_⟩
    refine ⟨rfl, ?_, ?_, ?_, ?_, e, hv⟩ <;> simp only [Cell.at] <;> omega

theorem ymax2_yields' (mhd : Bool) (P : Grid) (U : Nat) (hw : P.Pos2)
    (hok : Fits P.boundary_type_ymax P.ny P.ghostWidth) (m : Addr → α) :
    (makeBoundary2D mhd P U .ymax).Yields (P.alloc2 U) m
      (faceFx mhd P U P.cell2 .ymax m) := by
  obtain ⟨hg, hx, hy⟩ := hw
  have hi := P.isize_eq
  have hj := P.jsize_eq
  have reg : ∀ t : Nat, (P.cell2 ⟨(t : Int).tdiv P.ghostWidth, ((t : Int) - (t : Int).tdiv P.ghostWidth * P.ghostWidth + (P.ny + P.ghostWidth)), 0⟩ ∧ P.ny + P.ghostWidth ≤ ((t : Int) - (t : Int).tdiv P.ghostWidth * P.ghostWidth + (P.ny + P.ghostWidth))) ↔
      ((t : Int).tdiv P.ghostWidth ≥ P.imin ∧ (t : Int).tdiv P.ghostWidth ≤ P.imax ∧ ((t : Int) - (t : Int).tdiv P.ghostWidth * P.ghostWidth + (P.ny + P.ghostWidth)) ≥ P.ny + P.ghostWidth ∧ ((t : Int) - (t : Int).tdiv P.ghostWidth * P.ghostWidth + (P.ny + P.ghostWidth)) ≤ P.ny + 2 * P.ghostWidth - 1) := by
    intro t
    simp only [Grid.cell2, Grid.imax, Grid.jmax, Grid.imin, Grid.jmin, hi, hj, and_true]
    generalize (t : Int).tdiv P.ghostWidth * P.ghostWidth = z
    omega
  simp only [faceFx]
  refine face_yields _ _ U P.nbvar _ (fun t => ⟨(t : Int).tdiv P.ghostWidth, ((t : Int) - (t : Int).tdiv P.ghostWidth * P.ghostWidth + (P.ny + P.ghostWidth)), 0⟩) _ _ ?_ ?_ ?_ ?_ ?_ ?_ m
  · intro t ht
    simp only [makeBoundary2D, makeBoundary2DBody]
    rw [if_pos ((reg t).1 ht)]; rfl
  · intro t ht
    simp only [makeBoundary2D, makeBoundary2DBody]
    rw [if_neg (fun h => ht ((reg t).2 h))]; rfl
  · intro s t _ _ e
    simp only [Cell.mk.injEq] at e
    exact dec2_inj (g := P.ghostWidth) (by omega) (by omega)
  · rintro ⟨i, j, k⟩ ⟨⟨a, b, c, d, e⟩, f⟩
    simp only at a b c d e f
    obtain ⟨u1, u2⟩ := dec2_surj (g := P.ghostWidth) (i := j - (P.ny + P.ghostWidth)) (j := i)
      (by omega) (by omega) (by omega)
    refine ⟨(i * P.ghostWidth + (j - (P.ny + P.ghostWidth))).toNat, ?_, ?_⟩
    · simp only [makeBoundary2D]
      have h1 : 0 ≤ i * P.ghostWidth + (j - (P.ny + P.ghostWidth)) := by nlinarith
      have h2 : P.isize ≤ max P.isize P.jsize := by simp
      have h3 : i * P.ghostWidth + (j - (P.ny + P.ghostWidth)) < P.ghostWidth * max P.isize P.jsize := by
        nlinarith
      omega
    · rw [u2, u1, e]; simp only [Cell.mk.injEq, and_true, true_and]; omega
  · rintro c v ⟨⟨a, b, c1, d, -⟩, f⟩ ⟨-, h⟩
    have := highSource_range (bt := P.boundary_type_ymax) (nrm := isNormalY mhd v) hg hy hok f (by omega)
    simp only at h; omega
  · rintro c v ⟨⟨a, b, c1, d, e⟩, f⟩ hv
    have := highSource_range (bt := P.boundary_type_ymax) (nrm := isNormalY mhd v) hg hy hok f (by omega)
    refine ⟨⟨rfl, a, b, c1, d, e, hv⟩, ?_⟩
    refine ⟨rfl, ?_, ?_, ?_, ?_, e, hv⟩ <;> simp only [Cell.at] <;> omega

theorem xmin3_yields' (mhd : Bool) (P : Grid) (U : Nat) (hw : P.Pos3)
    (hok : Fits P.boundary_type_xmin P.nx P.ghostWidth) (m : Addr → α) :
    (makeBoundary3D mhd P U .xmin).Yields (P.alloc3 U) m
      (faceFx mhd P U P.cell3 .xmin m) := by
  obtain ⟨⟨hg, hx, hy⟩, hz⟩ := hw
  have hi := P.isize_eq
  have hj := P.jsize_eq
  have hk := P.ksize_eq
  have reg : ∀ t : Nat, (P.cell3 ⟨((t : Int) - ((t : Int) - (t : Int).tdiv (P.ghostWidth * P.jsize) * P.ghostWidth * P.jsize).tdiv P.ghostWidth * P.ghostWidth - (t : Int).tdiv (P.ghostWidth * P.jsize) * P.ghostWidth * P.jsize), ((t : Int) - (t : Int).tdiv (P.ghostWidth * P.jsize) * P.ghostWidth * P.jsize).tdiv P.ghostWidth, (t : Int).tdiv (P.ghostWidth * P.jsize)⟩ ∧ ((t : Int) - ((t : Int) - (t : Int).tdiv (P.ghostWidth * P.jsize) * P.ghostWidth * P.jsize).tdiv P.ghostWidth * P.ghostWidth - (t : Int).tdiv (P.ghostWidth * P.jsize) * P.ghostWidth * P.jsize) < P.ghostWidth) ↔
      ((t : Int).tdiv (P.ghostWidth * P.jsize) ≥ P.kmin ∧ (t : Int).tdiv (P.ghostWidth * P.jsize) ≤ P.kmax ∧ ((t : Int) - (t : Int).tdiv (P.ghostWidth * P.jsize) * P.ghostWidth * P.jsize).tdiv P.ghostWidth ≥ P.jmin ∧ ((t : Int) - (t : Int).tdiv (P.ghostWidth * P.jsize) * P.ghostWidth * P.jsize).tdiv P.ghostWidth ≤ P.jmax ∧ ((t : Int) - ((t : Int) - (t : Int).tdiv (P.ghostWidth * P.jsize) * P.ghostWidth * P.jsize).tdiv P.ghostWidth * P.ghostWidth - (t : Int).tdiv (P.ghostWidth * P.jsize) * P.ghostWidth * P.jsize) ≥ 0 ∧ ((t : Int) - ((t : Int) - (t : Int).tdiv (P.ghostWidth * P.jsize) * P.ghostWidth * P.jsize).tdiv P.ghostWidth * P.ghostWidth - (t : Int).tdiv (P.ghostWidth * P.jsize) * P.ghostWidth * P.jsize) < P.ghostWidth) := by
    intro t
    simp only [Grid.cell3, Grid.imax, Grid.jmax, Grid.kmax, Grid.imin, Grid.jmin, Grid.kmin]
    rw [hk]
    generalize ((t : Int) - ((t : Int) - (t : Int).tdiv (P.ghostWidth * P.jsize) * P.ghostWidth * P.jsize).tdiv P.ghostWidth * P.ghostWidth - (t : Int).tdiv (P.ghostWidth * P.jsize) * P.ghostWidth * P.jsize) = zi
    generalize ((t : Int) - (t : Int).tdiv (P.ghostWidth * P.jsize) * P.ghostWidth * P.jsize).tdiv P.ghostWidth = zj
    generalize (t : Int).tdiv (P.ghostWidth * P.jsize) = zk
    omega
  simp only [faceFx]
  refine face_yields _ _ U P.nbvar _ (fun t => ⟨((t : Int) - ((t : Int) - (t : Int).tdiv (P.ghostWidth * P.jsize) * P.ghostWidth * P.jsize).tdiv P.ghostWidth * P.ghostWidth - (t : Int).tdiv (P.ghostWidth * P.jsize) * P.ghostWidth * P.jsize), ((t : Int) - (t : Int).tdiv (P.ghostWidth * P.jsize) * P.ghostWidth * P.jsize).tdiv P.ghostWidth, (t : Int).tdiv (P.ghostWidth * P.jsize)⟩) _ _ ?_ ?_ ?_ ?_ ?_ ?_ m
  · intro t ht
    simp only [makeBoundary3D, makeBoundary3DBody]
    rw [if_pos ((reg t).1 ht)]; rfl
  · intro t ht
    simp only [makeBoundary3D, makeBoundary3DBody]
    rw [if_neg (fun h => ht ((reg t).2 h))]; rfl
  · intro s t _ _ e
    simp only [Cell.mk.injEq] at e
    exact dec3_inj (a := P.ghostWidth) (b := P.jsize) (d := P.ghostWidth) (by omega) (by omega) (by omega)
  · rintro ⟨i, j, k⟩ ⟨⟨a, b, c, d, e, e'⟩, f⟩
    simp only at a b c d e e' f
    obtain ⟨u1, u2, u3⟩ := dec3_surj (a := P.ghostWidth) (b := P.jsize) (d := P.ghostWidth) (n := P.jsize)
      (i := i) (j := j) (k := k) (by ring)
      (by omega) (by omega) (by omega) (by omega) (by omega)
    refine ⟨((k) * (P.jsize * P.ghostWidth) + (j) * P.ghostWidth + (i)).toNat, ?_, ?_⟩
    · simp only [makeBoundary3D]
      have hb := bound3 (i := i) (j := j) (k := k) (d := P.ghostWidth) (n := P.jsize)
        (K := P.ksize) (by omega) (by omega) (by omega) (by omega) (by omega)
      have h1 : P.isize ≤ max (max P.isize P.jsize) P.ksize := by simp
      have h2 : P.jsize ≤ max (max P.isize P.jsize) P.ksize := by simp
      have h3 : P.ksize ≤ max (max P.isize P.jsize) P.ksize := by simp
      have i0 : 0 ≤ P.isize := by omega
      have j0 : 0 ≤ P.jsize := by omega
      have k0 : 0 ≤ P.ksize := by omega
      generalize max (max P.isize P.jsize) P.ksize = M at *
      have hM : 0 ≤ M := by omega
      have h4 : P.ksize * (P.jsize * P.ghostWidth) ≤ P.ghostWidth * M * M := by
        calc P.ksize * (P.jsize * P.ghostWidth) = P.ghostWidth * (P.jsize * P.ksize) := by ring
          _ ≤ P.ghostWidth * (M * M) := by gcongr
          _ = _ := by ring
      have h5 : 0 < P.ghostWidth * M * M := by
        have : 0 < M := by omega
        positivity
      omega
    · rw [u3, u2, u1]
  · rintro c v ⟨⟨a, b, c1, d, e, e'⟩, f⟩ ⟨-, h⟩
    have := lowSource_range (bt := P.boundary_type_xmin) (nrm := isNormalX mhd v) hg hx hok a f
    simp only at h; omega
  · rintro c v ⟨⟨a, b, c1, d, e, e'⟩, f⟩ hv
    have := lowSource_range (bt := P.boundary_type_xmin) (nrm := isNormalX mhd v) hg hx hok a f
    refine ⟨⟨rfl, a, b, c1, d, e, e', hv⟩, ?_⟩
    refine ⟨rfl, ?_, ?_, ?_, ?_, ?_, ?_, hv⟩ <;> simp only [Cell.at] <;> omega

theorem xmax3_yields' (mhd : Bool) (P : Grid) (U : Nat) (hw : P.Pos3)
    (hok : Fits P.boundary_type_xmax P.nx P.ghostWidth) (m : Addr → α) :
    (makeBoundary3D mhd P U .xmax).Yields (P.alloc3 U) m
      (faceFx mhd P U P.cell3 .xmax m) := by
  obtain ⟨⟨hg, hx, hy⟩, hz⟩ := hw
  have hi := P.isize_eq
  have hj := P.jsize_eq
  have hk := P.ksize_eq
  have reg : ∀ t : Nat, (P.cell3 ⟨(((t : Int) - ((t : Int) - (t : Int).tdiv (P.ghostWidth * P.jsize) * P.ghostWidth * P.jsize).tdiv P.ghostWidth * P.ghostWidth - (t : Int).tdiv (P.ghostWidth * P.jsize) * P.ghostWidth * P.jsize) + (P.nx + P.ghostWidth)), ((t : Int) - (t : Int).tdiv (P.ghostWidth * P.jsize) * P.ghostWidth * P.jsize).tdiv P.ghostWidth, (t : Int).tdiv (P.ghostWidth * P.jsize)⟩ ∧ P.nx + P.ghostWidth ≤ (((t : Int) - ((t : Int) - (t : Int).tdiv (P.ghostWidth * P.jsize) * P.ghostWidth * P.jsize).tdiv P.ghostWidth * P.ghostWidth - (t : Int).tdiv (P.ghostWidth * P.jsize) * P.ghostWidth * P.jsize) + (P.nx + P.ghostWidth))) ↔
      ((t : Int).tdiv (P.ghostWidth * P.jsize) ≥ P.kmin ∧ (t : Int).tdiv (P.ghostWidth * P.jsize) ≤ P.kmax ∧ ((t : Int) - (t : Int).tdiv (P.ghostWidth * P.jsize) * P.ghostWidth * P.jsize).tdiv P.ghostWidth ≥ P.jmin ∧ ((t : Int) - (t : Int).tdiv (P.ghostWidth * P.jsize) * P.ghostWidth * P.jsize).tdiv P.ghostWidth ≤ P.jmax ∧ (((t : Int) - ((t : Int) - (t : Int).tdiv (P.ghostWidth * P.jsize) * P.ghostWidth * P.jsize).tdiv P.ghostWidth * P.ghostWidth - (t : Int).tdiv (P.ghostWidth * P.jsize) * P.ghostWidth * P.jsize) + (P.nx + P.ghostWidth)) ≥ P.nx + P.ghostWidth ∧ (((t : Int) - ((t : Int) - (t : Int).tdiv (P.ghostWidth * P.jsize) * P.ghostWidth * P.jsize).tdiv P.ghostWidth * P.ghostWidth - (t : Int).tdiv (P.ghostWidth * P.jsize) * P.ghostWidth * P.jsize) + (P.nx + P.ghostWidth)) ≤ P.nx + 2 * P.ghostWidth - 1) := by
    intro t
    simp only [Grid.cell3, Grid.imax, Grid.jmax, Grid.kmax, Grid.imin, Grid.jmin, Grid.kmin]
    rw [hk]
    generalize ((t : Int) - ((t : Int) - (t : Int).tdiv (P.ghostWidth * P.jsize) * P.ghostWidth * P.jsize).tdiv P.ghostWidth * P.ghostWidth - (t : Int).tdiv (P.ghostWidth * P.jsize) * P.ghostWidth * P.jsize) = zi
    generalize ((t : Int) - (t : Int).tdiv (P.ghostWidth * P.jsize) * P.ghostWidth * P.jsize).tdiv P.ghostWidth = zj
    generalize (t : Int).tdiv (P.ghostWidth * P.jsize) = zk
    omega
  simp only [faceFx]
  refine face_yields _ _ U P.nbvar _ (fun t => ⟨(((t : Int) - ((t : Int) - (t : Int).tdiv (P.ghostWidth * P.jsize) * P.ghostWidth * P.jsize).tdiv P.ghostWidth * P.ghostWidth - (t : Int).tdiv (P.ghostWidth * P.jsize) * P.ghostWidth * P.jsize) + (P.nx + P.ghostWidth)), ((t : Int) - (t : Int).tdiv (P.ghostWidth * P.jsize) * P.ghostWidth * P.jsize).tdiv P.ghostWidth, (t : Int).tdiv (P.ghostWidth * P.jsize)⟩) _ _ ?_ ?_ ?_ ?_ ?_ ?_ m
  · intro t ht
    simp only [makeBoundary3D, makeBoundary3DBody]
    rw [if_pos ((reg t).1 ht)]; rfl
  · intro t ht
    simp only [makeBoundary3D, makeBoundary3DBody]
    rw [if_neg (fun h => ht ((reg t).2 h))]; rfl
  · intro s t _ _ e
    simp only [Cell.mk.injEq] at e
    exact dec3_inj (a := P.ghostWidth) (b := P.jsize) (d := P.ghostWidth) (by omega) (by omega) (by omega)
  · rintro ⟨i, j, k⟩ ⟨⟨a, b, c, d, e, e'⟩, f⟩
    simp only at a b c d e e' f
    obtain ⟨u1, u2, u3⟩ := dec3_surj (a := P.ghostWidth) (b := P.jsize) (d := P.ghostWidth) (n := P.jsize)
      (i := i - (P.nx + P.ghostWidth)) (j := j) (k := k) (by ring)
      (by omega) (by omega) (by omega) (by omega) (by omega)
    refine ⟨((k) * (P.jsize * P.ghostWidth) + (j) * P.ghostWidth + (i - (P.nx + P.ghostWidth))).toNat, ?_, ?_⟩
    · simp only [makeBoundary3D]
      have hb := bound3 (i := i - (P.nx + P.ghostWidth)) (j := j) (k := k) (d := P.ghostWidth) (n := P.jsize)
        (K := P.ksize) (by omega) (by omega) (by omega) (by omega) (by omega)
      have h1 : P.isize ≤ max (max P.isize P.jsize) P.ksize := by simp
      have h2 : P.jsize ≤ max (max P.isize P.jsize) P.ksize := by simp
      have h3 : P.ksize ≤ max (max P.isize P.jsize) P.ksize := by simp
      have i0 : 0 ≤ P.isize := by omega
      have j0 : 0 ≤ P.jsize := by omega
      have k0 : 0 ≤ P.ksize := by omega
      generalize max (max P.isize P.jsize) P.ksize = M at *
      have hM : 0 ≤ M := by omega
      have h4 : P.ksize * (P.jsize * P.ghostWidth) ≤ P.ghostWidth * M * M := by
        calc P.ksize * (P.jsize * P.ghostWidth) = P.ghostWidth * (P.jsize * P.ksize) := by ring
          _ ≤ P.ghostWidth * (M * M) := by gcongr
          _ = _ := by ring
      have h5 : 0 < P.ghostWidth * M * M := by
        have : 0 < M := by omega
        positivity
      omega
    · rw [u3, u2, u1]; simp only [Cell.mk.injEq, and_true, true_and]; omega
  · rintro c v ⟨⟨a, b, c1, d, e, e'⟩, f⟩ ⟨-, h⟩
    have := highSource_range (bt := P.boundary_type_xmax) (nrm := isNormalX mhd v) hg hx hok f (by omega)
    simp only at h; omega
  · rintro c v ⟨⟨a, b, c1, d, e, e'⟩, f⟩ hv
    have := highSource_range (bt := P.boundary_type_xmax) (nrm := isNormalX mhd v) hg hx hok f (by omega)
    refine ⟨⟨rfl, a, b, c1, d, e, e', hv⟩, ?_⟩
    refine ⟨rfl, ?_, ?_, ?_, ?_, ?_, ?_, hv⟩ <;> simp only [Cell.at] <;> omega

theorem ymin3_yields' (mhd : Bool) (P : Grid) (U : Nat) (hw : P.Pos3)
    (hok : Fits P.boundary_type_ymin P.ny P.ghostWidth) (m : Addr → α) :
    (makeBoundary3D mhd P U .ymin).Yields (P.alloc3 U) m
      (faceFx mhd P U P.cell3 .ymin m) := by
  obtain ⟨⟨hg, hx, hy⟩, hz⟩ := hw
  have hi := P.isize_eq
  have hj := P.jsize_eq
  have hk := P.ksize_eq
  have reg : ∀ t : Nat, (P.cell3 ⟨((t : Int) - ((t : Int) - (t : Int).tdiv (P.isize * P.ghostWidth) * P.isize * P.ghostWidth).tdiv P.isize * P.isize - (t : Int).tdiv (P.isize * P.ghostWidth) * P.isize * P.ghostWidth), ((t : Int) - (t : Int).tdiv (P.isize * P.ghostWidth) * P.isize * P.ghostWidth).tdiv P.isize, (t : Int).tdiv (P.isize * P.ghostWidth)⟩ ∧ ((t : Int) - (t : Int).tdiv (P.isize * P.ghostWidth) * P.isize * P.ghostWidth).tdiv P.isize < P.ghostWidth) ↔
      ((t : Int).tdiv (P.isize * P.ghostWidth) ≥ P.kmin ∧ (t : Int).tdiv (P.isize * P.ghostWidth) ≤ P.kmax ∧ ((t : Int) - (t : Int).tdiv (P.isize * P.ghostWidth) * P.isize * P.ghostWidth).tdiv P.isize ≥ 0 ∧ ((t : Int) - (t : Int).tdiv (P.isize * P.ghostWidth) * P.isize * P.ghostWidth).tdiv P.isize < P.ghostWidth ∧ ((t : Int) - ((t : Int) - (t : Int).tdiv (P.isize * P.ghostWidth) * P.isize * P.ghostWidth).tdiv P.isize * P.isize - (t : Int).tdiv (P.isize * P.ghostWidth) * P.isize * P.ghostWidth) ≥ P.imin ∧ ((t : Int) - ((t : Int) - (t : Int).tdiv (P.isize * P.ghostWidth) * P.isize * P.ghostWidth).tdiv P.isize * P.isize - (t : Int).tdiv (P.isize * P.ghostWidth) * P.isize * P.ghostWidth) ≤ P.imax) := by
    intro t
    simp only [Grid.cell3, Grid.imax, Grid.jmax, Grid.kmax, Grid.imin, Grid.jmin, Grid.kmin]
    rw [hk]
    generalize ((t : Int) - ((t : Int) - (t : Int).tdiv (P.isize * P.ghostWidth) * P.isize * P.ghostWidth).tdiv P.isize * P.isize - (t : Int).tdiv (P.isize * P.ghostWidth) * P.isize * P.ghostWidth) = zi
    generalize ((t : Int) - (t : Int).tdiv (P.isize * P.ghostWidth) * P.isize * P.ghostWidth).tdiv P.isize = zj
    generalize (t : Int).tdiv (P.isize * P.ghostWidth) = zk
    omega
  simp only [faceFx]
  refine face_yields _ _ U P.nbvar _ (fun t => ⟨((t : Int) - ((t : Int) - (t : Int).tdiv (P.isize * P.ghostWidth) * P.isize * P.ghostWidth).tdiv P.isize * P.isize - (t : Int).tdiv (P.isize * P.ghostWidth) * P.isize * P.ghostWidth), ((t : Int) - (t : Int).tdiv (P.isize * P.ghostWidth) * P.isize * P.ghostWidth).tdiv P.isize, (t : Int).tdiv (P.isize * P.ghostWidth)⟩) _ _ ?_ ?_ ?_ ?_ ?_ ?_ m
  · intro t ht
    simp only [makeBoundary3D, makeBoundary3DBody]
    rw [if_pos ((reg t).1 ht)]; rfl
  · intro t ht
    simp only [makeBoundary3D, makeBoundary3DBody]
    rw [if_neg (fun h => ht ((reg t).2 h))]; rfl
  · intro s t _ _ e
    simp only [Cell.mk.injEq] at e
    exact dec3_inj (a := P.isize) (b := P.ghostWidth) (d := P.isize) (by omega) (by omega) (by omega)
  · rintro ⟨i, j, k⟩ ⟨⟨a, b, c, d, e, e'⟩, f⟩
    simp only at a b c d e e' f
    obtain ⟨u1, u2, u3⟩ := dec3_surj (a := P.isize) (b := P.ghostWidth) (d := P.isize) (n := P.ghostWidth)
      (i := i) (j := j) (k := k) (by ring)
      (by omega) (by omega) (by omega) (by omega) (by omega)
    refine ⟨((k) * (P.ghostWidth * P.isize) + (j) * P.isize + (i)).toNat, ?_, ?_⟩
    · simp only [makeBoundary3D]
      have hb := bound3 (i := i) (j := j) (k := k) (d := P.isize) (n := P.ghostWidth)
        (K := P.ksize) (by omega) (by omega) (by omega) (by omega) (by omega)
      have h1 : P.isize ≤ max (max P.isize P.jsize) P.ksize := by simp
      have h2 : P.jsize ≤ max (max P.isize P.jsize) P.ksize := by simp
      have h3 : P.ksize ≤ max (max P.isize P.jsize) P.ksize := by simp
      have i0 : 0 ≤ P.isize := by omega
      have j0 : 0 ≤ P.jsize := by omega
      have k0 : 0 ≤ P.ksize := by omega
      generalize max (max P.isize P.jsize) P.ksize = M at *
      have hM : 0 ≤ M := by omega
      have h4 : P.ksize * (P.ghostWidth * P.isize) ≤ P.ghostWidth * M * M := by
        calc P.ksize * (P.ghostWidth * P.isize) = P.ghostWidth * (P.isize * P.ksize) := by ring
          _ ≤ P.ghostWidth * (M * M) := by gcongr
          _ = _ := by ring
      have h5 : 0 < P.ghostWidth * M * M := by
        have : 0 < M := by omega
        positivity
      omega
    · rw [u3, u2, u1]
  · rintro c v ⟨⟨a, b, c1, d, e, e'⟩, f⟩ ⟨-, h⟩
    have := lowSource_range (bt := P.boundary_type_ymin) (nrm := isNormalY mhd v) hg hy hok c1 f
    simp only at h; omega
  · rintro c v ⟨⟨a, b, c1, d, e, e'⟩, f⟩ hv
    have := lowSource_range (bt := P.boundary_type_ymin) (nrm := isNormalY mhd v) hg hy hok c1 f
    refine ⟨⟨rfl, a, b, c1, d, e, e', hv⟩, ?_⟩
    refine ⟨rfl, ?_, ?_, ?_, ?_, ?_, ?_, hv⟩ <;> simp only [Cell.at] <;> omega

theorem ymax3_yields' (mhd : Bool) (P : Grid) (U : Nat) (hw : P.Pos3)
    (hok : Fits P.boundary_type_ymax P.ny P.ghostWidth) (m : Addr → α) :
    (makeBoundary3D mhd P U .ymax).Yields (P.alloc3 U) m
      (faceFx mhd P U P.cell3 .ymax m) := by
  obtain ⟨⟨hg, hx, hy⟩, hz⟩ := hw
  have hi := P.isize_eq
  have hj := P.jsize_eq
  have hk := P.ksize_eq
  have reg : ∀ t : Nat, (P.cell3 ⟨((t : Int) - ((t : Int) - (t : Int).tdiv (P.isize * P.ghostWidth) * P.isize * P.ghostWidth).tdiv P.isize * P.isize - (t : Int).tdiv (P.isize * P.ghostWidth) * P.isize * P.ghostWidth), (((t : Int) - (t : Int).tdiv (P.isize * P.ghostWidth) * P.isize * P.ghostWidth).tdiv P.isize + (P.ny + P.ghostWidth)), (t : Int).tdiv (P.isize * P.ghostWidth)⟩ ∧ P.ny + P.ghostWidth ≤ (((t : Int) - (t : Int).tdiv (P.isize * P.ghostWidth) * P.isize * P.ghostWidth).tdiv P.isize + (P.ny + P.ghostWidth))) ↔
      ((t : Int).tdiv (P.isize * P.ghostWidth) ≥ P.kmin ∧ (t : Int).tdiv (P.isize * P.ghostWidth) ≤ P.kmax ∧ (((t : Int) - (t : Int).tdiv (P.isize * P.ghostWidth) * P.isize * P.ghostWidth).tdiv P.isize + (P.ny + P.ghostWidth)) ≥ P.ny + P.ghostWidth ∧ (((t : Int) - (t : Int).tdiv (P.isize * P.ghostWidth) * P.isize * P.ghostWidth).tdiv P.isize + (P.ny + P.ghostWidth)) ≤ P.ny + 2 * P.ghostWidth - 1 ∧ ((t : Int) - ((t : Int) - (t : Int).tdiv (P.isize * P.ghostWidth) * P.isize * P.ghostWidth).tdiv P.isize * P.isize - (t : Int).tdiv (P.isize * P.ghostWidth) * P.isize * P.ghostWidth) ≥ P.imin ∧ ((t : Int) - ((t : Int) - (t : Int).tdiv (P.isize * P.ghostWidth) * P.isize * P.ghostWidth).tdiv P.isize * P.isize - (t : Int).tdiv (P.isize * P.ghostWidth) * P.isize * P.ghostWidth) ≤ P.imax) := by
    intro t
    simp only [Grid.cell3, Grid.imax, Grid.jmax, Grid.kmax, Grid.imin, Grid.jmin, Grid.kmin]
    rw [hk]
    generalize ((t : Int) - ((t : Int) - (t : Int).tdiv (P.isize * P.ghostWidth) * P.isize * P.ghostWidth).tdiv P.isize * P.isize - (t : Int).tdiv (P.isize * P.ghostWidth) * P.isize * P.ghostWidth) = zi
    generalize ((t : Int) - (t : Int).tdiv (P.isize * P.ghostWidth) * P.isize * P.ghostWidth).tdiv P.isize = zj
    generalize (t : Int).tdiv (P.isize * P.ghostWidth) = zk
    omega
  simp only [faceFx]
  refine face_yields _ _ U P.nbvar _ (fun t => ⟨((t : Int) - ((t : Int) - (t : Int).tdiv (P.isize * P.ghostWidth) * P.isize * P.ghostWidth).tdiv P.isize * P.isize - (t : Int).tdiv (P.isize * P.ghostWidth) * P.isize * P.ghostWidth), (((t : Int) - (t : Int).tdiv (P.isize * P.ghostWidth) * P.isize * P.ghostWidth).tdiv P.isize + (P.ny + P.ghostWidth)), (t : Int).tdiv (P.isize * P.ghostWidth)⟩) _ _ ?_ ?_ ?_ ?_ ?_ ?_ m
  · intro t ht
    simp only [makeBoundary3D, makeBoundary3DBody]
    rw [if_pos ((reg t).1 ht)]; rfl
  · intro t ht
    simp only [makeBoundary3D, makeBoundary3DBody]
    rw [if_neg (fun h => ht ((reg t).2 h))]; rfl
  · intro s t _ _ e
    simp only [Cell.mk.injEq] at e
    exact dec3_inj (a := P.isize) (b := P.ghostWidth) (d := P.isize) (by omega) (by omega) (by omega)
  · rintro ⟨i, j, k⟩ ⟨⟨a, b, c, d, e, e'⟩, f⟩
    simp only at a b c d e e' f
    obtain ⟨u1, u2, u3⟩ := dec3_surj (a := P.isize) (b := P.ghostWidth) (d := P.isize) (n := P.ghostWidth)
      (i := i) (j := j - (P.ny + P.ghostWidth)) (k := k) (by ring)
      (by omega) (by omega) (by omega) (by omega) (by omega)
    refine ⟨((k) * (P.ghostWidth * P.isize) + (j - (P.ny + P.ghostWidth)) * P.isize + (i)).toNat, ?_, ?_⟩
    · simp only [makeBoundary3D]
      have hb := bound3 (i := i) (j := j - (P.ny + P.ghostWidth)) (k := k) (d := P.isize) (n := P.ghostWidth)
        (K := P.ksize) (by omega) (by omega) (by omega) (by omega) (by omega)
      have h1 : P.isize ≤ max (max P.isize P.jsize) P.ksize := by simp
      have h2 : P.jsize ≤ max (max P.isize P.jsize) P.ksize := by simp
      have h3 : P.ksize ≤ max (max P.isize P.jsize) P.ksize := by simp
      have i0 : 0 ≤ P.isize := by omega
      have j0 : 0 ≤ P.jsize := by omega
      have k0 : 0 ≤ P.ksize := by omega
      generalize max (max P.isize P.jsize) P.ksize = M at *
      have hM : 0 ≤ M := by omega
      have h4 : P.ksize * (P.ghostWidth * P.isize) ≤ P.ghostWidth * M * M := by
        calc P.ksize * (P.ghostWidth * P.isize) = P.ghostWidth * (P.isize * P.ksize) := by ring
          _ ≤ P.ghostWidth * (M * M) := by gcongr
          _ = _ := by ring
      have h5 : 0 < P.ghostWidth * M * M := by
        have : 0 < M := by omega
        positivity
      omega
    · rw [u3, u2, u1]; simp only [Cell.mk.injEq, and_true, true_and]; omega
  · rintro c v ⟨⟨a, b, c1, d, e, e'⟩, f⟩ ⟨-, h⟩
    have := highSource_range (bt := P.boundary_type_ymax) (nrm := isNormalY mhd v) hg hy hok f (by omega)
    simp only at h; omega
  · rintro c v ⟨⟨a, b, c1, d, e, e'⟩, f⟩ hv
    have := highSource_range (bt := P.boundary_type_ymax) (nrm := isNormalY mhd v) hg hy hok f (by omega)
    refine ⟨⟨rfl, a, b, c1, d, e, e', hv⟩, ?_⟩
    refine ⟨rfl, ?_, ?_, ?_, ?_, ?_, ?_, hv⟩ <;> simp only [Cell.at] <;> omega

theorem zmin3_yields' (mhd : Bool) (P : Grid) (U : Nat) (hw : P.Pos3)
    (hok : Fits P.boundary_type_zmin P.nz P.ghostWidth) (m : Addr → α) :
    (makeBoundary3D mhd P U .zmin).Yields (P.alloc3 U) m
      (faceFx mhd P U P.cell3 .zmin m) := by
  obtain ⟨⟨hg, hx, hy⟩, hz⟩ := hw
  have hi := P.isize_eq
  have hj := P.jsize_eq
  have hk := P.ksize_eq
  have reg : ∀ t : Nat, (P.cell3 ⟨((t : Int) - ((t : Int) - (t : Int).tdiv (P.isize * P.jsize) * P.isize * P.jsize).tdiv P.isize * P.isize - (t : Int).tdiv (P.isize * P.jsize) * P.isize * P.jsize), ((t : Int) - (t : Int).tdiv (P.isize * P.jsize) * P.isize * P.jsize).tdiv P.isize, (t : Int).tdiv (P.isize * P.jsize)⟩ ∧ (t : Int).tdiv (P.isize * P.jsize) < P.ghostWidth) ↔
      ((t : Int).tdiv (P.isize * P.jsize) ≥ 0 ∧ (t : Int).tdiv (P.isize * P.jsize) < P.ghostWidth ∧ ((t : Int) - (t : Int).tdiv (P.isize * P.jsize) * P.isize * P.jsize).tdiv P.isize ≥ P.jmin ∧ ((t : Int) - (t : Int).tdiv (P.isize * P.jsize) * P.isize * P.jsize).tdiv P.isize ≤ P.jmax ∧ ((t : Int) - ((t : Int) - (t : Int).tdiv (P.isize * P.jsize) * P.isize * P.jsize).tdiv P.isize * P.isize - (t : Int).tdiv (P.isize * P.jsize) * P.isize * P.jsize) ≥ P.imin ∧ ((t : Int) - ((t : Int) - (t : Int).tdiv (P.isize * P.jsize) * P.isize * P.jsize).tdiv P.isize * P.isize - (t : Int).tdiv (P.isize * P.jsize) * P.isize * P.jsize) ≤ P.imax) := by
    intro t
    simp only [Grid.cell3, Grid.imax, Grid.jmax, Grid.kmax, Grid.imin, Grid.jmin, Grid.kmin]
    rw [hk]
    generalize ((t : Int) - ((t : Int) - (t : Int).tdiv (P.isize * P.jsize) * P.isize * P.jsize).tdiv P.isize * P.isize - (t : Int).tdiv (P.isize * P.jsize) * P.isize * P.jsize) = zi
    generalize ((t : Int) - (t : Int).tdiv (P.isize * P.jsize) * P.isize * P.jsize).tdiv P.isize = zj
    generalize (t : Int).tdiv (P.isize * P.jsize) = zk
    omega
  simp only [faceFx]
  refine face_yields _ _ U P.nbvar _ (fun t => ⟨((t : Int) - ((t : Int) - (t : Int).tdiv (P.isize * P.jsize) * P.isize * P.jsize).tdiv P.isize * P.isize - (t : Int).tdiv (P.isize * P.jsize) * P.isize * P.jsize), ((t : Int) - (t : Int).tdiv (P.isize * P.jsize) * P.isize * P.jsize).tdiv P.isize, (t : Int).tdiv (P.isize * P.jsize)⟩) _ _ ?_ ?_ ?_ ?_ ?_ ?_ m
  · intro t ht
    simp only [makeBoundary3D, makeBoundary3DBody]
    rw [if_pos ((reg t).1 ht)]; rfl
  · intro t ht
    simp only [makeBoundary3D, makeBoundary3DBody]
    rw [if_neg (fun h => ht ((reg t).2 h))]; rfl
  · intro s t _ _ e
    simp only [Cell.mk.injEq] at e
    exact dec3_inj (a := P.isize) (b := P.jsize) (d := P.isize) (by omega) (by omega) (by omega)
  · rintro ⟨i, j, k⟩ ⟨⟨a, b, c, d, e, e'⟩, f⟩
    simp only at a b c d e e' f
    obtain ⟨u1, u2, u3⟩ := dec3_surj (a := P.isize) (b := P.jsize) (d := P.isize) (n := P.jsize)
      (i := i) (j := j) (k := k) (by ring)
      (by omega) (by omega) (by omega) (by omega) (by omega)
    refine ⟨((k) * (P.jsize * P.isize) + (j) * P.isize + (i)).toNat, ?_, ?_⟩
    · simp only [makeBoundary3D]
      have hb := bound3 (i := i) (j := j) (k := k) (d := P.isize) (n := P.jsize)
        (K := P.ghostWidth) (by omega) (by omega) (by omega) (by omega) (by omega)
      have h1 : P.isize ≤ max (max P.isize P.jsize) P.ksize := by simp
      have h2 : P.jsize ≤ max (max P.isize P.jsize) P.ksize := by simp
      have h3 : P.ksize ≤ max (max P.isize P.jsize) P.ksize := by simp
      have i0 : 0 ≤ P.isize := by omega
      have j0 : 0 ≤ P.jsize := by omega
      have k0 : 0 ≤ P.ksize := by omega
      generalize max (max P.isize P.jsize) P.ksize = M at *
      have hM : 0 ≤ M := by omega
      have h4 : P.ghostWidth * (P.jsize * P.isize) ≤ P.ghostWidth * M * M := by
        calc P.ghostWidth * (P.jsize * P.isize) ≤ P.ghostWidth * (M * M) := by gcongr
          _ = _ := by ring
      have h5 : 0 < P.ghostWidth * M * M := by
        have : 0 < M := by omega
        positivity
      omega
    · rw [u3, u2, u1]
  · rintro c v ⟨⟨a, b, c1, d, e, e'⟩, f⟩ ⟨-, h⟩
    have := lowSource_range (bt := P.boundary_type_zmin) (nrm := isNormalZ mhd v) hg hz hok e f
    simp only at h; omega
  · rintro c v ⟨⟨a, b, c1, d, e, e'⟩, f⟩ hv
    have := lowSource_range (bt := P.boundary_type_zmin) (nrm := isNormalZ mhd v) hg hz hok e f
    refine ⟨⟨rfl, a, b, c1, d, e, e', hv⟩, ?_⟩
    refine ⟨rfl, ?_, ?_, ?_, ?_, ?_, ?_, hv⟩ <;> simp only [Cell.at] <;> omega

theorem zmax3_yields' (mhd : Bool) (P : Grid) (U : Nat) (hw : P.Pos3)
    (hok : Fits P.boundary_type_zmax P.nz P.ghostWidth) (m : Addr → α) :
    (makeBoundary3D mhd P U .zmax).Yields (P.alloc3 U) m
      (faceFx mhd P U P.cell3 .zmax m) := by
  obtain ⟨⟨hg, hx, hy⟩, hz⟩ := hw
  have hi := P.isize_eq
  have hj := P.jsize_eq
  have hk := P.ksize_eq
  have reg : ∀ t : Nat, (P.cell3 ⟨((t : Int) - ((t : Int) - (t : Int).tdiv (P.isize * P.jsize) * P.isize * P.jsize).tdiv P.isize * P.isize - (t : Int).tdiv (P.isize * P.jsize) * P.isize * P.jsize), ((t : Int) - (t : Int).tdiv (P.isize * P.jsize) * P.isize * P.jsize).tdiv P.isize, ((t : Int).tdiv (P.isize * P.jsize) + (P.nz + P.ghostWidth))⟩ ∧ P.nz + P.ghostWidth ≤ ((t : Int).tdiv (P.isize * P.jsize) + (P.nz + P.ghostWidth))) ↔
      (((t : Int).tdiv (P.isize * P.jsize) + (P.nz + P.ghostWidth)) ≥ P.nz + P.ghostWidth ∧ ((t : Int).tdiv (P.isize * P.jsize) + (P.nz + P.ghostWidth)) ≤ P.nz + 2 * P.ghostWidth - 1 ∧ ((t : Int) - (t : Int).tdiv (P.isize * P.jsize) * P.isize * P.jsize).tdiv P.isize ≥ P.jmin ∧ ((t : Int) - (t : Int).tdiv (P.isize * P.jsize) * P.isize * P.jsize).tdiv P.isize ≤ P.jmax ∧ ((t : Int) - ((t : Int) - (t : Int).tdiv (P.isize * P.jsize) * P.isize * P.jsize).tdiv P.isize * P.isize - (t : Int).tdiv (P.isize * P.jsize) * P.isize * P.jsize) ≥ P.imin ∧ ((t : Int) - ((t : Int) - (t : Int).tdiv (P.isize * P.jsize) * P.isize * P.jsize).tdiv P.isize * P.isize - (t : Int).tdiv (P.isize * P.jsize) * P.isize * P.jsize) ≤ P.imax) := by
    intro t
    simp only [Grid.cell3, Grid.imax, Grid.jmax, Grid.kmax, Grid.imin, Grid.jmin, Grid.kmin]
    rw [hk]
    generalize ((t : Int) - ((t : Int) - (t : Int).tdiv (P.isize * P.jsize) * P.isize * P.jsize).tdiv P.isize * P.isize - (t : Int).tdiv (P.isize * P.jsize) * P.isize * P.jsize) = zi
    generalize ((t : Int) - (t : Int).tdiv (P.isize * P.jsize) * P.isize * P.jsize).tdiv P.isize = zj
    generalize (t : Int).tdiv (P.isize * P.jsize) = zk
    omega
  simp only [faceFx]
  refine face_yields _ _ U P.nbvar _ (fun t => ⟨((t : Int) - ((t : Int) - (t : Int).tdiv (P.isize * P.jsize) * P.isize * P.jsize).tdiv P.isize * P.isize - (t : Int).tdiv (P.isize * P.jsize) * P.isize * P.jsize), ((t : Int) - (t : Int).tdiv (P.isize * P.jsize) * P.isize * P.jsize).tdiv P.isize, ((t : Int).tdiv (P.isize * P.jsize) + (P.nz + P.ghostWidth))⟩) _ _ ?_ ?_ ?_ ?_ ?_ ?_ m
  · intro t ht
    simp only [makeBoundary3D, makeBoundary3DBody]
    rw [if_pos ((reg t).1 ht)]; rfl
  · intro t ht
    simp only [makeBoundary3D, makeBoundary3DBody]
    rw [if_neg (fun h => ht ((reg t).2 h))]; rfl
  · intro s t _ _ e
    simp only [Cell.mk.injEq] at e
    exact dec3_inj (a := P.isize) (b := P.jsize) (d := P.isize) (by omega) (by omega) (by omega)
  · rintro ⟨i, j, k⟩ ⟨⟨a, b, c, d, e, e'⟩, f⟩
    simp only at a b c d e e' f
    obtain ⟨u1, u2, u3⟩ := dec3_surj (a := P.isize) (b := P.jsize) (d := P.isize) (n := P.jsize)
      (i := i) (j := j) (k := k - (P.nz + P.ghostWidth)) (by ring)
      (by omega) (by omega) (by omega) (by omega) (by omega)
    refine ⟨((k - (P.nz + P.ghostWidth)) * (P.jsize * P.isize) + (j) * P.isize + (i)).toNat, ?_, ?_⟩
    · simp only [makeBoundary3D]
      have hb := bound3 (i := i) (j := j) (k := k - (P.nz + P.ghostWidth)) (d := P.isize) (n := P.jsize)
        (K := P.ghostWidth) (by omega) (by omega) (by omega) (by omega) (by omega)
      have h1 : P.isize ≤ max (max P.isize P.jsize) P.ksize := by simp
      have h2 : P.jsize ≤ max (max P.isize P.jsize) P.ksize := by simp
      have h3 : P.ksize ≤ max (max P.isize P.jsize) P.ksize := by simp
      have i0 : 0 ≤ P.isize := by omega
      have j0 : 0 ≤ P.jsize := by omega
      have k0 : 0 ≤ P.ksize := by omega
      generalize max (max P.isize P.jsize) P.ksize = M at *
      have hM : 0 ≤ M := by omega
      have h4 : P.ghostWidth * (P.jsize * P.isize) ≤ P.ghostWidth * M * M := by
        calc P.ghostWidth * (P.jsize * P.isize) ≤ P.ghostWidth * (M * M) := by gcongr
          _ = _ := by ring
      have h5 : 0 < P.ghostWidth * M * M := by
        have : 0 < M := by omega
        positivity
      omega
    · rw [u3, u2, u1]; simp only [Cell.mk.injEq, and_true, true_and]; omega
  · rintro c v ⟨⟨a, b, c1, d, e, e'⟩, f⟩ ⟨-, h⟩
    have := highSource_range (bt := P.boundary_type_zmax) (nrm := isNormalZ mhd v) hg hz hok f (by omega)
    simp only at h; omega
  · rintro c v ⟨⟨a, b, c1, d, e, e'⟩, f⟩ hv
    have := highSource_range (bt := P.boundary_type_zmax) (nrm := isNormalZ mhd v) hg hz hok f (by omega)
    refine ⟨⟨rfl, a, b, c1, d, e, e', hv⟩, ?_⟩
    refine ⟨rfl, ?_, ?_, ?_, ?_, ?_, ?_, hv⟩ <;> simp only [Cell.at] <;> omega

theorem xmin2_yields (mhd : Bool) (P : Grid) (U : Nat) (hw : P.Wide2) (m : Addr → α) :
    (makeBoundary2D mhd P U .xmin).Yields (P.alloc2 U) m
      (faceFx mhd P U P.cell2 .xmin m) :=
  xmin2_yields' mhd P U hw.pos (.inr (.inr hw.x)) m

theorem xmax2_yields (mhd : Bool) (P : Grid) (U : Nat) (hw : P.Wide2) (m : Addr → α) :
    (makeBoundary2D mhd P U .xmax).Yields (P.alloc2 U) m
      (faceFx mhd P U P.cell2 .xmax m) :=
  xmax2_yields' mhd P U hw.pos (.inr (.inr hw.x)) m

theorem ymin2_yields (mhd : Bool) (P : Grid) (U : Nat) (hw : P.Wide2) (m : Addr → α) :
    (makeBoundary2D mhd P U .ymin).Yields (P.alloc2 U) m
      (faceFx mhd P U P.cell2 .ymin m) :=
  ymin2_yields' mhd P U hw.pos (.inr (.inr hw.y)) m

theorem ymax2_yields (mhd : Bool) (P : Grid) (U : Nat) (hw : P.Wide2) (m : Addr → α) :
    (makeBoundary2D mhd P U .ymax).Yields (P.alloc2 U) m
      (faceFx mhd P U P.cell2 .ymax m) :=
  ymax2_yields' mhd P U hw.pos (.inr (.inr hw.y)) m

theorem xmin3_yields (mhd : Bool) (P : Grid) (U : Nat) (hw : P.Wide3) (m : Addr → α) :
    (makeBoundary3D mhd P U .xmin).Yields (P.alloc3 U) m
      (faceFx mhd P U P.cell3 .xmin m) :=
  xmin3_yields' mhd P U hw.pos (.inr (.inr hw.x)) m

theorem xmax3_yields (mhd : Bool) (P : Grid) (U : Nat) (hw : P.Wide3) (m : Addr → α) :
    (makeBoundary3D mhd P U .xmax).Yields (P.alloc3 U) m
      (faceFx mhd P U P.cell3 .xmax m) :=
  xmax3_yields' mhd P U hw.pos (.inr (.inr hw.x)) m

theorem ymin3_yields (mhd : Bool) (P : Grid) (U : Nat) (hw : P.Wide3) (m : Addr → α) :
    (makeBoundary3D mhd P U .ymin).Yields (P.alloc3 U) m
      (faceFx mhd P U P.cell3 .ymin m) :=
  ymin3_yields' mhd P U hw.pos (.inr (.inr hw.y)) m

theorem ymax3_yields (mhd : Bool) (P : Grid) (U : Nat) (hw : P.Wide3) (m : Addr → α) :
    (makeBoundary3D mhd P U .ymax).Yields (P.alloc3 U) m
      (faceFx mhd P U P.cell3 .ymax m) :=
  ymax3_yields' mhd P U hw.pos (.inr (.inr hw.y)) m

theorem zmin3_yields (mhd : Bool) (P : Grid) (U : Nat) (hw : P.Wide3) (m : Addr → α) :
    (makeBoundary3D mhd P U .zmin).Yields (P.alloc3 U) m
      (faceFx mhd P U P.cell3 .zmin m) :=
  zmin3_yields' mhd P U hw.pos (.inr (.inr hw.z)) m

theorem zmax3_yields (mhd : Bool) (P : Grid) (U : Nat) (hw : P.Wide3) (m : Addr → α) :
    (makeBoundary3D mhd P U .zmax).Yields (P.alloc3 U) m
      (faceFx mhd P U P.cell3 .zmax m) :=
  zmax3_yields' mhd P U hw.pos (.inr (.inr hw.z)) m

end Verif
