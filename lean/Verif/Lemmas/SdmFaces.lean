import Verif.Lemmas.SdmDivergence
import Verif.Lemmas.BoundariesAll

/-! Helper lemmas: which ghost cells the work items of the boundary functors of the spectral difference
solver visit.  The decoding is that of the other solvers. -/

set_option linter.unusedSimpArgs false

namespace Verif.Sdm

open Verif K Function Spec

variable {α : Type} [ROps α]

/-- The work items with indices below `n` visit the cells of `region`, each once. -/
structure FaceDec (n : ℕ) (body : (Cell → K Addr α Unit) → ℕ → K Addr α Unit) (region : Cell → Prop)
    (dec : ℕ → Cell) : Prop where
  yes : ∀ act t, region (dec t) → body act t = act (dec t)
  no : ∀ act t, ¬ region (dec t) → body act t = .ret ()
  inj : ∀ s t, region (dec s) → region (dec t) → dec s = dec t → s = t
  surj : ∀ c, region c → ∃ t, t < n ∧ dec t = c

/-- Number of work items. -/
def faceItems (d3 : Bool) (P : Grid) : ℕ :=
  (if d3 then P.ghostWidth * max (max P.isize P.jsize) P.ksize * max (max P.isize P.jsize) P.ksize
    else P.ghostWidth * max P.isize P.jsize).toNat

theorem xmin2_dec (P : Grid) (hw : P.Pos2) : ∃ dec,
    FaceDec (α := α) (faceItems false P) (fun act t => faceBody2 P .xmin act t)
      (fun c => P.cell2 c ∧ c.i < P.ghostWidth) dec := by
  obtain ⟨hg, hx, hy⟩ := hw
  have hi := P.isize_eq
  have hj := P.jsize_eq
  have reg : ∀ t : Nat, (P.cell2 ⟨((t : Int) - (t : Int).tdiv P.ghostWidth * P.ghostWidth), (t : Int).tdiv P.ghostWidth, 0⟩ ∧ ((t : Int) - (t : Int).tdiv P.ghostWidth * P.ghostWidth) < P.ghostWidth) ↔
      ((t : Int).tdiv P.ghostWidth ≥ P.jmin ∧ (t : Int).tdiv P.ghostWidth ≤ P.jmax ∧ ((t : Int) - (t : Int).tdiv P.ghostWidth * P.ghostWidth) ≥ 0 ∧ ((t : Int) - (t : Int).tdiv P.ghostWidth * P.ghostWidth) < P.ghostWidth) := by
    intro t
    simp only [Grid.cell2, Grid.imax, Grid.jmax, Grid.imin, Grid.jmin, hi, hj, and_true]
    generalize (t : Int).tdiv P.ghostWidth * P.ghostWidth = z
    omega
  refine ⟨(fun t => ⟨((t : Int) - (t : Int).tdiv P.ghostWidth * P.ghostWidth), (t : Int).tdiv P.ghostWidth, 0⟩), ?_, ?_, ?_, ?_⟩
  · intro act t ht
    simp only [faceBody2]
    rw [if_pos ((reg t).1 ht)]
  · intro act t ht
    simp only [faceBody2]
    rw [if_neg (fun h => ht ((reg t).2 h))]; rfl
  · intro s t _ _ e
    simp only [Cell.mk.injEq] at e
    exact dec2_inj (g := P.ghostWidth) (by omega) (by omega)
  · rintro ⟨i, j, k⟩ ⟨⟨a, b, c, d, e⟩, f⟩
    simp only at a b c d e f
    obtain ⟨u1, u2⟩ := dec2_surj (g := P.ghostWidth) (i := i) (j := j)
      (by omega) (by omega) (by omega)
    refine ⟨(j * P.ghostWidth + (i)).toNat, ?_, ?_⟩
    · simp only [faceItems, if_true, Bool.false_eq_true, if_false]
      have h1 : 0 ≤ j * P.ghostWidth + (i) := by nlinarith
      have h2 : P.jsize ≤ max P.isize P.jsize := by simp
      have h3 : j * P.ghostWidth + (i) < P.ghostWidth * max P.isize P.jsize := by
        nlinarith
      omega
    · rw [u2, u1, e]

theorem xmax2_dec (P : Grid) (hw : P.Pos2) : ∃ dec,
    FaceDec (α := α) (faceItems false P) (fun act t => faceBody2 P .xmax act t)
      (fun c => P.cell2 c ∧ P.nx + P.ghostWidth ≤ c.i) dec := by
  obtain ⟨hg, hx, hy⟩ := hw
  have hi := P.isize_eq
  have hj := P.jsize_eq
  have reg : ∀ t : Nat, (P.cell2 ⟨((t : Int) - (t : Int).tdiv P.ghostWidth * P.ghostWidth + (P.nx + P.ghostWidth)), (t : Int).tdiv P.ghostWidth, 0⟩ ∧ P.nx + P.ghostWidth ≤ ((t : Int) - (t : Int).tdiv P.ghostWidth * P.ghostWidth + (P.nx + P.ghostWidth))) ↔
      ((t : Int).tdiv P.ghostWidth ≥ P.jmin ∧ (t : Int).tdiv P.ghostWidth ≤ P.jmax ∧ ((t : Int) - (t : Int).tdiv P.ghostWidth * P.ghostWidth + (P.nx + P.ghostWidth)) ≥ P.nx + P.ghostWidth ∧ ((t : Int) - (t : Int).tdiv P.ghostWidth * P.ghostWidth + (P.nx + P.ghostWidth)) ≤ P.nx + 2 * P.ghostWidth - 1) := by
    intro t
    simp only [Grid.cell2, Grid.imax, Grid.jmax, Grid.imin, Grid.jmin, hi, hj, and_true]
    generalize (t : Int).tdiv P.ghostWidth * P.ghostWidth = z
    omega
  refine ⟨(fun t => ⟨((t : Int) - (t : Int).tdiv P.ghostWidth * P.ghostWidth + (P.nx + P.ghostWidth)), (t : Int).tdiv P.ghostWidth, 0⟩), ?_, ?_, ?_, ?_⟩
  · intro act t ht
    simp only [faceBody2]
    rw [if_pos ((reg t).1 ht)]
  · intro act t ht
    simp only [faceBody2]
    rw [if_neg (fun h => ht ((reg t).2 h))]; rfl
  · intro s t _ _ e
    simp only [Cell.mk.injEq] at e
    exact dec2_inj (g := P.ghostWidth) (by omega) (by omega)
  · rintro ⟨i, j, k⟩ ⟨⟨a, b, c, d, e⟩, f⟩
    simp only at a b c d e f
    obtain ⟨u1, u2⟩ := dec2_surj (g := P.ghostWidth) (i := i - (P.nx + P.ghostWidth)) (j := j)
      (by omega) (by omega) (by omega)
    refine ⟨(j * P.ghostWidth + (i - (P.nx + P.ghostWidth))).toNat, ?_, ?_⟩
    · simp only [faceItems, if_true, Bool.false_eq_true, if_false]
      have h1 : 0 ≤ j * P.ghostWidth + (i - (P.nx + P.ghostWidth)) := by nlinarith
      have h2 : P.jsize ≤ max P.isize P.jsize := by simp
      have h3 : j * P.ghostWidth + (i - (P.nx + P.ghostWidth)) < P.ghostWidth * max P.isize P.jsize := by
        nlinarith
      omega
    · rw [u2, u1, e]; simp only [Cell.mk.injEq, and_true, true_and]; omega

theorem ymin2_dec (P : Grid) (hw : P.Pos2) : ∃ dec,
    FaceDec (α := α) (faceItems false P) (fun act t => faceBody2 P .ymin act t)
      (fun c => P.cell2 c ∧ c.j < P.ghostWidth) dec := by
  obtain ⟨hg, hx, hy⟩ := hw
  have hi := P.isize_eq
  have hj := P.jsize_eq
  have reg : ∀ t : Nat, (P.cell2 ⟨(t : Int).tdiv P.ghostWidth, ((t : Int) - (t : Int).tdiv P.ghostWidth * P.ghostWidth), 0⟩ ∧ ((t : Int) - (t : Int).tdiv P.ghostWidth * P.ghostWidth) < P.ghostWidth) ↔
      ((t : Int).tdiv P.ghostWidth ≥ P.imin ∧ (t : Int).tdiv P.ghostWidth ≤ P.imax ∧ ((t : Int) - (t : Int).tdiv P.ghostWidth * P.ghostWidth) ≥ 0 ∧ ((t : Int) - (t : Int).tdiv P.ghostWidth * P.ghostWidth) < P.ghostWidth) := by
    intro t
    simp only [Grid.cell2, Grid.imax, Grid.jmax, Grid.imin, Grid.jmin, hi, hj, and_true]
    generalize (t : Int).tdiv P.ghostWidth * P.ghostWidth = z
    omega
  refine ⟨(fun t => ⟨(t : Int).tdiv P.ghostWidth, ((t : Int) - (t : Int).tdiv P.ghostWidth * P.ghostWidth), 0⟩), ?_, ?_, ?_, ?_⟩
  · intro act t ht
    simp only [faceBody2]
    rw [if_pos ((reg t).1 ht)]
  · intro act t ht
    simp only [faceBody2]
    rw [if_neg (fun h => ht ((reg t).2 h))]; rfl
  · intro s t _ _ e
    simp only [Cell.mk.injEq] at e
    exact dec2_inj (g := P.ghostWidth) (by omega) (by omega)
  · rintro ⟨i, j, k⟩ ⟨⟨a, b, c, d, e⟩, f⟩
    simp only at a b c d e f
    obtain ⟨u1, u2⟩ := dec2_surj (g := P.ghostWidth) (i := j) (j := i)
      (by omega) (by omega) (by omega)
    refine ⟨(i * P.ghostWidth + (j)).toNat, ?_, ?_⟩
    · simp only [faceItems, if_true, Bool.false_eq_true, if_false]
      have h1 : 0 ≤ i * P.ghostWidth + (j) := by nlinarith
      have h2 : P.isize ≤ max P.isize P.jsize := by simp
      have h3 : i * P.ghostWidth + (j) < P.ghostWidth * max P.isize P.jsize := by
        nlinarith
      omega
    · rw [u2, u1, e]

theorem ymax2_dec (P : Grid) (hw : P.Pos2) : ∃ dec,
    FaceDec (α := α) (faceItems false P) (fun act t => faceBody2 P .ymax act t)
      (fun c => P.cell2 c ∧ P.ny + P.ghostWidth ≤ c.j) dec := by
  obtain ⟨hg, hx, hy⟩ := hw
  have hi := P.isize_eq
  have hj := P.jsize_eq
  have reg : ∀ t : Nat, (P.cell2 ⟨(t : Int).tdiv P.ghostWidth, ((t : Int) - (t : Int).tdiv P.ghostWidth * P.ghostWidth + (P.ny + P.ghostWidth)), 0⟩ ∧ P.ny + P.ghostWidth ≤ ((t : Int) - (t : Int).tdiv P.ghostWidth * P.ghostWidth + (P.ny + P.ghostWidth))) ↔
      ((t : Int).tdiv P.ghostWidth ≥ P.imin ∧ (t : Int).tdiv P.ghostWidth ≤ P.imax ∧ ((t : Int) - (t : Int).tdiv P.ghostWidth * P.ghostWidth + (P.ny + P.ghostWidth)) ≥ P.ny + P.ghostWidth ∧ ((t : Int) - (t : Int).tdiv P.ghostWidth * P.ghostWidth + (P.ny + P.ghostWidth)) ≤ P.ny + 2 * P.ghostWidth - 1) := by
    intro t
    simp only [Grid.cell2, Grid.imax, Grid.jmax, Grid.imin, Grid.jmin, hi, hj, and_true]
    generalize (t : Int).tdiv P.ghostWidth * P.ghostWidth = z
    omega
  refine ⟨(fun t => ⟨(t : Int).tdiv P.ghostWidth, ((t : Int) - (t : Int).tdiv P.ghostWidth * P.ghostWidth + (P.ny + P.ghostWidth)), 0⟩), ?_, ?_, ?_, ?_⟩
  · intro act t ht
    simp only [faceBody2]
    rw [if_pos ((reg t).1 ht)]
  · intro act t ht
    simp only [faceBody2]
    rw [if_neg (fun h => ht ((reg t).2 h))]; rfl
  · intro s t _ _ e
    simp only [Cell.mk.injEq] at e
    exact dec2_inj (g := P.ghostWidth) (by omega) (by omega)
  · rintro ⟨i, j, k⟩ ⟨⟨a, b, c, d, e⟩, f⟩
    simp only at a b c d e f
    obtain ⟨u1, u2⟩ := dec2_surj (g := P.ghostWidth) (i := j - (P.ny + P.ghostWidth)) (j := i)
      (by omega) (by omega) (by omega)
    refine ⟨(i * P.ghostWidth + (j - (P.ny + P.ghostWidth))).toNat, ?_, ?_⟩
    · simp only [faceItems, if_true, Bool.false_eq_true, if_false]
      have h1 : 0 ≤ i * P.ghostWidth + (j - (P.ny + P.ghostWidth)) := by nlinarith
      have h2 : P.isize ≤ max P.isize P.jsize := by simp
      have h3 : i * P.ghostWidth + (j - (P.ny + P.ghostWidth)) < P.ghostWidth * max P.isize P.jsize := by
        nlinarith
      omega
    · rw [u2, u1, e]; simp only [Cell.mk.injEq, and_true, true_and]; omega

theorem xmin3_dec (P : Grid) (hw : P.Pos3) : ∃ dec,
    FaceDec (α := α) (faceItems true P) (fun act t => faceBody3 P .xmin act t)
      (fun c => P.cell3 c ∧ c.i < P.ghostWidth) dec := by
  obtain ⟨⟨hg, hx, hy⟩, hz⟩ := hw
  have hi := P.isize_eq
  have hj := P.jsize_eq
  have hk := P.ksize_eq
  have reg : ∀ t : Nat, (P.cell3 ⟨((t : Int) - ((t : Int) - (t : Int).tdiv (P.ghostWidth * P.jsize) * P.ghostWidth * P.jsize).tdiv P.ghostWidth * P.ghostWidth - (t : Int).tdiv (P.ghostWidth * P.jsize) * P.ghostWidth * P.jsize), ((t : Int) - (t : Int).tdiv (P.ghostWidth * P.jsize) * P.ghostWidth * P.jsize).tdiv P.ghostWidth, (t : Int).tdiv (P.ghostWidth * P.jsize)⟩ ∧ ((t : Int) - ((t : Int) - (t : Int).tdiv (P.ghostWidth * P.jsize) * P.ghostWidth * P.jsize).tdiv P.ghostWidth * P.ghostWidth - (t : Int).tdiv (P.ghostWidth * P.jsize) * P.ghostWidth * P.jsize) < P.ghostWidth) ↔
      ((t : Int).tdiv (P.ghostWidth * P.jsize) ≥ P.kmin ∧ (t : Int).tdiv (P.ghostWidth * P.jsize) ≤ P.kmax ∧ ((t : Int) - (t : Int).tdiv (P.ghostWidth * P.jsize) * P.ghostWidth * P.jsize).tdiv P.ghostWidth ≥ P.jmin ∧ ((t : Int) - (t : Int).tdiv (P.ghostWidth * P.jsize) * P.ghostWidth * P.jsize).tdiv P.ghostWidth ≤ P.jmax ∧ ((t : Int) - ((t : Int) - (t : Int).tdiv (P.ghostWidth * P.jsize) * P.ghostWidth * P.jsize).tdiv P.ghostWidth * P.ghostWidth - (t : Int).tdiv (P.ghostWidth * P.jsize) * P.ghostWidth * P.jsize) ≥ 0 ∧ ((t : Int) - ((t : Int) - (t : Int).tdiv (P.ghostWidth * P.jsize) * P.ghostWidth * P.jsize).tdiv P.ghostWidth * P.ghostWidth - (t : Int).tdiv (P.ghostWidth * P.jsize) * P.ghostWidth * P.jsize) < P.ghostWidth) := by
    intro t
    simp only [Grid.cell3, Grid.imax, Grid.jmax, Grid.kmax, Grid.imin, Grid.jmin, Grid.kmin]
    rw [hk]
    generalize ((t : Int) - ((t : Int) - (t : Int).tdiv (P.ghostWidth * P.jsize) * P.ghostWidth * P.jsize).tdiv P.ghostWidth * P.ghostWidth - (t : Int).tdiv (P.ghostWidth * P.jsize) * P.ghostWidth * P.jsize) = zi
    generalize ((t : Int) - (t : Int).tdiv (P.ghostWidth * P.jsize) * P.ghostWidth * P.jsize).tdiv P.ghostWidth = zj
    generalize (t : Int).tdiv (P.ghostWidth * P.jsize) = zk
    omega
  refine ⟨(fun t => ⟨((t : Int) - ((t : Int) - (t : Int).tdiv (P.ghostWidth * P.jsize) * P.ghostWidth * P.jsize).tdiv P.ghostWidth * P.ghostWidth - (t : Int).tdiv (P.ghostWidth * P.jsize) * P.ghostWidth * P.jsize), ((t : Int) - (t : Int).tdiv (P.ghostWidth * P.jsize) * P.ghostWidth * P.jsize).tdiv P.ghostWidth, (t : Int).tdiv (P.ghostWidth * P.jsize)⟩), ?_, ?_, ?_, ?_⟩
  · intro act t ht
    simp only [faceBody3]
    rw [if_pos ((reg t).1 ht)]
  · intro act t ht
    simp only [faceBody3]
    rw [if_neg (fun h => ht ((reg t).2 h))]; rfl
  · intro s t _ _ e
    simp only [Cell.mk.injEq] at e
    exact dec3_inj (a := P.ghostWidth) (b := P.jsize) (d := P.ghostWidth) (by omega) (by omega) (by omega)
  · rintro ⟨i, j, k⟩ ⟨⟨a, b, c, d, e, e'⟩, f⟩
    simp only at a b c d e e' f
    obtain ⟨u1, u2, u3⟩ := dec3_surj (a := P.ghostWidth) (b := P.jsize) (d := P.ghostWidth) (n := P.jsize)
      (i := i) (j := j) (k := k) (by ring)
      (by omega) (by omega) (by omega) (by omega) (by omega)
    refine ⟨((k) * (P.jsize * P.ghostWidth) + (j) * P.ghostWidth + (i)).toNat, ?_, ?_⟩
    · simp only [faceItems, if_true, Bool.false_eq_true, if_false]
      have hb := bound3 (i := i) (j := j) (k := k) (d := P.ghostWidth) (n := P.jsize)
        (K := P.ksize) (by omega) (by omega) (by omega) (by omega) (by omega)
      have h1 : P.isize ≤ max (max P.isize P.jsize) P.ksize := by simp
      have h2 : P.jsize ≤ max (max P.isize P.jsize) P.ksize := by simp
      have h3 : P.ksize ≤ max (max P.isize P.jsize) P.ksize := by simp
      have i0 : 0 ≤ P.isize := by omega
      have j0 : 0 ≤ P.jsize := by omega
      have k0 : 0 ≤ P.ksize := by omega
      generalize max (max P.isize P.jsize) P.ksize = M at *
      have hM : 0 ≤ M := by omega
      have h4 : P.ksize * (P.jsize * P.ghostWidth) ≤ P.ghostWidth * M * M := by
        calc P.ksize * (P.jsize * P.ghostWidth) = P.ghostWidth * (P.jsize * P.ksize) := by ring
          _ ≤ P.ghostWidth * (M * M) := by gcongr
          _ = _ := by ring
      have h5 : 0 < P.ghostWidth * M * M := by
        have : 0 < M := by omega
        positivity
      omega
    · rw [u3, u2, u1]

theorem xmax3_dec (P : Grid) (hw : P.Pos3) : ∃ dec,
    FaceDec (α := α) (faceItems true P) (fun act t => faceBody3 P .xmax act t)
      (fun c => P.cell3 c ∧ P.nx + P.ghostWidth ≤ c.i) dec := by
  obtain ⟨⟨hg, hx, hy⟩, hz⟩ := hw
  have hi := P.isize_eq
  have hj := P.jsize_eq
  have hk := P.ksize_eq
  have reg : ∀ t : Nat, (P.cell3 ⟨(((t : Int) - ((t : Int) - (t : Int).tdiv (P.ghostWidth * P.jsize) * P.ghostWidth * P.jsize).tdiv P.ghostWidth * P.ghostWidth - (t : Int).tdiv (P.ghostWidth * P.jsize) * P.ghostWidth * P.jsize) + (P.nx + P.ghostWidth)), ((t : Int) - (t : Int).tdiv (P.ghostWidth * P.jsize) * P.ghostWidth * P.jsize).tdiv P.ghostWidth, (t : Int).tdiv (P.ghostWidth * P.jsize)⟩ ∧ P.nx + P.ghostWidth ≤ (((t : Int) - ((t : Int) - (t : Int).tdiv (P.ghostWidth * P.jsize) * P.ghostWidth * P.jsize).tdiv P.ghostWidth * P.ghostWidth - (t : Int).tdiv (P.ghostWidth * P.jsize) * P.ghostWidth * P.jsize) + (P.nx + P.ghostWidth))) ↔
      ((t : Int).tdiv (P.ghostWidth * P.jsize) ≥ P.kmin ∧ (t : Int).tdiv (P.ghostWidth * P.jsize) ≤ P.kmax ∧ ((t : Int) - (t : Int).tdiv (P.ghostWidth * P.jsize) * P.ghostWidth * P.jsize).tdiv P.ghostWidth ≥ P.jmin ∧ ((t : Int) - (t : Int).tdiv (P.ghostWidth * P.jsize) * P.ghostWidth * P.jsize).tdiv P.ghostWidth ≤ P.jmax ∧ (((t : Int) - ((t : Int) - (t : Int).tdiv (P.ghostWidth * P.jsize) * P.ghostWidth * P.jsize).tdiv P.ghostWidth * P.ghostWidth - (t : Int).tdiv (P.ghostWidth * P.jsize) * P.ghostWidth * P.jsize) + (P.nx + P.ghostWidth)) ≥ P.nx + P.ghostWidth ∧ (((t : Int) - ((t : Int) - (t : Int).tdiv (P.ghostWidth * P.jsize) * P.ghostWidth * P.jsize).tdiv P.ghostWidth * P.ghostWidth - (t : Int).tdiv (P.ghostWidth * P.jsize) * P.ghostWidth * P.jsize) + (P.nx + P.ghostWidth)) ≤ P.nx + 2 * P.ghostWidth - 1) := by
    intro t
    simp only [Grid.cell3, Grid.imax, Grid.jmax, Grid.kmax, Grid.imin, Grid.jmin, Grid.kmin]
    rw [hk]
    generalize ((t : Int) - ((t : Int) - (t : Int).tdiv (P.ghostWidth * P.jsize) * P.ghostWidth * P.jsize).tdiv P.ghostWidth * P.ghostWidth - (t : Int).tdiv (P.ghostWidth * P.jsize) * P.ghostWidth * P.jsize) = zi
    generalize ((t : Int) - (t : Int).tdiv (P.ghostWidth * P.jsize) * P.ghostWidth * P.jsize).tdiv P.ghostWidth = zj
    generalize (t : Int).tdiv (P.ghostWidth * P.jsize) = zk
    omega
  refine ⟨(fun t => ⟨(((t : Int) - ((t : Int) - (t : Int).tdiv (P.ghostWidth * P.jsize) * P.ghostWidth * P.jsize).tdiv P.ghostWidth * P.ghostWidth - (t : Int).tdiv (P.ghostWidth * P.jsize) * P.ghostWidth * P.jsize) + (P.nx + P.ghostWidth)), ((t : Int) - (t : Int).tdiv (P.ghostWidth * P.jsize) * P.ghostWidth * P.jsize).tdiv P.ghostWidth, (t : Int).tdiv (P.ghostWidth * P.jsize)⟩), ?_, ?_, ?_, ?_⟩
  · intro act t ht
    simp only [faceBody3]
    rw [if_pos ((reg t).1 ht)]
  · intro act t ht
    simp only [faceBody3]
    rw [if_neg (fun h => ht ((reg t).2 h))]; rfl
  · intro s t _ _ e
    simp only [Cell.mk.injEq] at e
    exact dec3_inj (a := P.ghostWidth) (b := P.jsize) (d := P.ghostWidth) (by omega) (by omega) (by omega)
  · rintro ⟨i, j, k⟩ ⟨⟨a, b, c, d, e, e'⟩, f⟩
    simp only at a b c d e e' f
    obtain ⟨u1, u2, u3⟩ := dec3_surj (a := P.ghostWidth) (b := P.jsize) (d := P.ghostWidth) (n := P.jsize)
      (i := i - (P.nx + P.ghostWidth)) (j := j) (k := k) (by ring)
      (by omega) (by omega) (by omega) (by omega) (by omega)
    refine ⟨((k) * (P.jsize * P.ghostWidth) + (j) * P.ghostWidth + (i - (P.nx + P.ghostWidth))).toNat, ?_, ?_⟩
    · simp only [faceItems, if_true, Bool.false_eq_true, if_false]
      have hb := bound3 (i := i - (P.nx + P.ghostWidth)) (j := j) (k := k) (d := P.ghostWidth) (n := P.jsize)
        (K := P.ksize) (by omega) (by omega) (by omega) (by omega) (by omega)
      have h1 : P.isize ≤ max (max P.isize P.jsize) P.ksize := by simp
      have h2 : P.jsize ≤ max (max P.isize P.jsize) P.ksize := by simp
      have h3 : P.ksize ≤ max (max P.isize P.jsize) P.ksize := by simp
      have i0 : 0 ≤ P.isize := by omega
      have j0 : 0 ≤ P.jsize := by omega
      have k0 : 0 ≤ P.ksize := by omega
      generalize max (max P.isize P.jsize) P.ksize = M at *
      have hM : 0 ≤ M := by omega
      have h4 : P.ksize * (P.jsize * P.ghostWidth) ≤ P.ghostWidth * M * M := by
        calc P.ksize * (P.jsize * P.ghostWidth) = P.ghostWidth * (P.jsize * P.ksize) := by ring
          _ ≤ P.ghostWidth * (M * M) := by gcongr
          _ = _ := by ring
      have h5 : 0 < P.ghostWidth * M * M := by
        have : 0 < M := by omega
        positivity
      omega
    · rw [u3, u2, u1]; simp only [Cell.mk.injEq, and_true, true_and]; omega

theorem ymin3_dec (P : Grid) (hw : P.Pos3) : ∃ dec,
    FaceDec (α := α) (faceItems true P) (fun act t => faceBody3 P .ymin act t)
      (fun c => P.cell3 c ∧ c.j < P.ghostWidth) dec := by
  obtain ⟨⟨hg, hx, hy⟩, hz⟩ := hw
  have hi := P.isize_eq
  have hj := P.jsize_eq
  have hk := P.ksize_eq
  have reg : ∀ t : Nat, (P.cell3 ⟨((t : Int) - ((t : Int) - (t : Int).tdiv (P.isize * P.ghostWidth) * P.isize * P.ghostWidth).tdiv P.isize * P.isize - (t : Int).tdiv (P.isize * P.ghostWidth) * P.isize * P.ghostWidth), ((t : Int) - (t : Int).tdiv (P.isize * P.ghostWidth) * P.isize * P.ghostWidth).tdiv P.isize, (t : Int).tdiv (P.isize * P.ghostWidth)⟩ ∧ ((t : Int) - (t : Int).tdiv (P.isize * P.ghostWidth) * P.isize * P.ghostWidth).tdiv P.isize < P.ghostWidth) ↔
      ((t : Int).tdiv (P.isize * P.ghostWidth) ≥ P.kmin ∧ (t : Int).tdiv (P.isize * P.ghostWidth) ≤ P.kmax ∧ ((t : Int) - (t : Int).tdiv (P.isize * P.ghostWidth) * P.isize * P.ghostWidth).tdiv P.isize ≥ 0 ∧ ((t : Int) - (t : Int).tdiv (P.isize * P.ghostWidth) * P.isize * P.ghostWidth).tdiv P.isize < P.ghostWidth ∧ ((t : Int) - ((t : Int) - (t : Int).tdiv (P.isize * P.ghostWidth) * P.isize * P.ghostWidth).tdiv P.isize * P.isize - (t : Int).tdiv (P.isize * P.ghostWidth) * P.isize * P.ghostWidth) ≥ P.imin ∧ ((t : Int) - ((t : Int) - (t : Int).tdiv (P.isize * P.ghostWidth) * P.isize * P.ghostWidth).tdiv P.isize * P.isize - (t : Int).tdiv (P.isize * P.ghostWidth) * P.isize * P.ghostWidth) ≤ P.imax) := by
    intro t
    simp only [Grid.cell3, Grid.imax, Grid.jmax, Grid.kmax, Grid.imin, Grid.jmin, Grid.kmin]
    rw [hk]
    generalize ((t : Int) - ((t : Int) - (t : Int).tdiv (P.isize * P.ghostWidth) * P.isize * P.ghostWidth).tdiv P.isize * P.isize - (t : Int).tdiv (P.isize * P.ghostWidth) * P.isize * P.ghostWidth) = zi
    generalize ((t : Int) - (t : Int).tdiv (P.isize * P.ghostWidth) * P.isize * P.ghostWidth).tdiv P.isize = zj
    generalize (t : Int).tdiv (P.isize * P.ghostWidth) = zk
    omega
  refine ⟨(fun t => ⟨((t : Int) - ((t : Int) - (t : Int).tdiv (P.isize * P.ghostWidth) * P.isize * P.ghostWidth).tdiv P.isize * P.isize - (t : Int).tdiv (P.isize * P.ghostWidth) * P.isize * P.ghostWidth), ((t : Int) - (t : Int).tdiv (P.isize * P.ghostWidth) * P.isize * P.ghostWidth).tdiv P.isize, (t : Int).tdiv (P.isize * P.ghostWidth)⟩), ?_, ?_, ?_, ?_⟩
  · intro act t ht
    simp only [faceBody3]
    rw [if_pos ((reg t).1 ht)]
  · intro act t ht
    simp only [faceBody3]
    rw [if_neg (fun h => ht ((reg t).2 h))]; rfl
  · intro s t _ _ e
    simp only [Cell.mk.injEq] at e
    exact dec3_inj (a := P.isize) (b := P.ghostWidth) (d := P.isize) (by omega) (by omega) (by omega)
  · rintro ⟨i, j, k⟩ ⟨⟨a, b, c, d, e, e'⟩, f⟩
    simp only at a b c d e e' f
    obtain ⟨u1, u2, u3⟩ := dec3_surj (a := P.isize) (b := P.ghostWidth) (d := P.isize) (n := P.ghostWidth)
      (i := i) (j := j) (k := k) (by ring)
      (by omega) (by omega) (by omega) (by omega) (by omega)
    refine ⟨((k) * (P.ghostWidth * P.isize) + (j) * P.isize + (i)).toNat, ?_, ?_⟩
    · simp only [faceItems, if_true, Bool.false_eq_true, if_false]
      have hb := bound3 (i := i) (j := j) (k := k) (d := P.isize) (n := P.ghostWidth)
        (K := P.ksize) (by omega) (by omega) (by omega) (by omega) (by omega)
      have h1 : P.isize ≤ max (max P.isize P.jsize) P.ksize := by simp
      have h2 : P.jsize ≤ max (max P.isize P.jsize) P.ksize := by simp
      have h3 : P.ksize ≤ max (max P.isize P.jsize) P.ksize := by simp
      have i0 : 0 ≤ P.isize := by omega
      have j0 : 0 ≤ P.jsize := by omega
      have k0 : 0 ≤ P.ksize := by omega
      generalize max (max P.isize P.jsize) P.ksize = M at *
      have hM : 0 ≤ M := by omega
      have h4 : P.ksize * (P.ghostWidth * P.isize) ≤ P.ghostWidth * M * M := by
        calc P.ksize * (P.ghostWidth * P.isize) = P.ghostWidth * (P.isize * P.ksize) := by ring
          _ ≤ P.ghostWidth * (M * M) := by gcongr
          _ = _ := by ring
      have h5 : 0 < P.ghostWidth * M * M := by
        have : 0 < M := by omega
        positivity
      omega
    · rw [u3, u2, u1]

theorem ymax3_dec (P : Grid) (hw : P.Pos3) : ∃ dec,
    FaceDec (α := α) (faceItems true P) (fun act t => faceBody3 P .ymax act t)
      (fun c => P.cell3 c ∧ P.ny + P.ghostWidth ≤ c.j) dec := by
  obtain ⟨⟨hg, hx, hy⟩, hz⟩ := hw
  have hi := P.isize_eq
  have hj := P.jsize_eq
  have hk := P.ksize_eq
  have reg : ∀ t : Nat, (P.cell3 ⟨((t : Int) - ((t : Int) - (t : Int).tdiv (P.isize * P.ghostWidth) * P.isize * P.ghostWidth).tdiv P.isize * P.isize - (t : Int).tdiv (P.isize * P.ghostWidth) * P.isize * P.ghostWidth), (((t : Int) - (t : Int).tdiv (P.isize * P.ghostWidth) * P.isize * P.ghostWidth).tdiv P.isize + (P.ny + P.ghostWidth)), (t : Int).tdiv (P.isize * P.ghostWidth)⟩ ∧ P.ny + P.ghostWidth ≤ (((t : Int) - (t : Int).tdiv (P.isize * P.ghostWidth) * P.isize * P.ghostWidth).tdiv P.isize + (P.ny + P.ghostWidth))) ↔
      ((t : Int).tdiv (P.isize * P.ghostWidth) ≥ P.kmin ∧ (t : Int).tdiv (P.isize * P.ghostWidth) ≤ P.kmax ∧ (((t : Int) - (t : Int).tdiv (P.isize * P.ghostWidth) * P.isize * P.ghostWidth).tdiv P.isize + (P.ny + P.ghostWidth)) ≥ P.ny + P.ghostWidth ∧ (((t : Int) - (t : Int).tdiv (P.isize * P.ghostWidth) * P.isize * P.ghostWidth).tdiv P.isize + (P.ny + P.ghostWidth)) ≤ P.ny + 2 * P.ghostWidth - 1 ∧ ((t : Int) - ((t : Int) - (t : Int).tdiv (P.isize * P.ghostWidth) * P.isize * P.ghostWidth).tdiv P.isize * P.isize - (t : Int).tdiv (P.isize * P.ghostWidth) * P.isize * P.ghostWidth) ≥ P.imin ∧ ((t : Int) - ((t : Int) - (t : Int).tdiv (P.isize * P.ghostWidth) * P.isize * P.ghostWidth).tdiv P.isize * P.isize - (t : Int).tdiv (P.isize * P.ghostWidth) * P.isize * P.ghostWidth) ≤ P.imax) := by
    intro t
    simp only [Grid.cell3, Grid.imax, Grid.jmax, Grid.kmax, Grid.imin, Grid.jmin, Grid.kmin]
    rw [hk]
    generalize ((t : Int) - ((t : Int) - (t : Int).tdiv (P.isize * P.ghostWidth) * P.isize * P.ghostWidth).tdiv P.isize * P.isize - (t : Int).tdiv (P.isize * P.ghostWidth) * P.isize * P.ghostWidth) = zi
    generalize ((t : Int) - (t : Int).tdiv (P.isize * P.ghostWidth) * P.isize * P.ghostWidth).tdiv P.isize = zj
    generalize (t : Int).tdiv (P.isize * P.ghostWidth) = zk
    omega
  refine ⟨(fun t => ⟨((t : Int) - ((t : Int) - (t : Int).tdiv (P.isize * P.ghostWidth) * P.isize * P.ghostWidth).tdiv P.isize * P.isize - (t : Int).tdiv (P.isize * P.ghostWidth) * P.isize * P.ghostWidth), (((t : Int) - (t : Int).tdiv (P.isize * P.ghostWidth) * P.isize * P.ghostWidth).tdiv P.isize + (P.ny + P.ghostWidth)), (t : Int).tdiv (P.isize * P.ghostWidth)⟩), ?_, ?_, ?_, ?_⟩
  · intro act t ht
    simp only [faceBody3]
    rw [if_pos ((reg t).1 ht)]
  · intro act t ht
    simp only [faceBody3]
    rw [if_neg (fun h => ht ((reg t).2 h))]; rfl
  · intro s t _ _ e
    simp only [Cell.mk.injEq] at e
    exact dec3_inj (a := P.isize) (b := P.ghostWidth) (d := P.isize) (by omega) (by omega) (by omega)
  · rintro ⟨i, j, k⟩ ⟨⟨a, b, c, d, e, e'⟩, f⟩
    simp only at a b c d e e' f
    obtain ⟨u1, u2, u3⟩ := dec3_surj (a := P.isize) (b := P.ghostWidth) (d := P.isize) (n := P.ghostWidth)
      (i := i) (j := j - (P.ny + P.ghostWidth)) (k := k) (by ring)
      (by omega) (by omega) (by omega) (by omega) (by omega)
    refine ⟨((k) * (P.ghostWidth * P.isize) + (j - (P.ny + P.ghostWidth)) * P.isize + (i)).toNat, ?_, ?_⟩
    · simp only [faceItems, if_true, Bool.false_eq_true, if_false]
      have hb := bound3 (i := i) (j := j - (P.ny + P.ghostWidth)) (k := k) (d := P.isize) (n := P.ghostWidth)
        (K := P.ksize) (by omega) (by omega) (by omega) (by omega) (by omega)
      have h1 : P.isize ≤ max (max P.isize P.jsize) P.ksize := by simp
      have h2 : P.jsize ≤ max (max P.isize P.jsize) P.ksize := by simp
      have h3 : P.ksize ≤ max (max P.isize P.jsize) P.ksize := by simp
      have i0 : 0 ≤ P.isize := by omega
      have j0 : 0 ≤ P.jsize := by omega
      have k0 : 0 ≤ P.ksize := by omega
      generalize max (max P.isize P.jsize) P.ksize = M at *
      have hM : 0 ≤ M := by omega
      have h4 : P.ksize * (P.ghostWidth * P.isize) ≤ P.ghostWidth * M * M := by
        calc P.ksize * (P.ghostWidth * P.isize) = P.ghostWidth * (P.isize * P.ksize) := by ring
          _ ≤ P.ghostWidth * (M * M) := by gcongr
          _ = _ := by ring
      have h5 : 0 < P.ghostWidth * M * M := by
        have : 0 < M := by omega
        positivity
      omega
    · rw [u3, u2, u1]; simp only [Cell.mk.injEq, and_true, true_and]; omega

theorem zmin3_dec (P : Grid) (hw : P.Pos3) : ∃ dec,
    FaceDec (α := α) (faceItems true P) (fun act t => faceBody3 P .zmin act t)
      (fun c => P.cell3 c ∧ c.k < P.ghostWidth) dec := by
  obtain ⟨⟨hg, hx, hy⟩, hz⟩ := hw
  have hi := P.isize_eq
  have hj := P.jsize_eq
  have hk := P.ksize_eq
  have reg : ∀ t : Nat, (P.cell3 ⟨((t : Int) - ((t : Int) - (t : Int).tdiv (P.isize * P.jsize) * P.isize * P.jsize).tdiv P.isize * P.isize - (t : Int).tdiv (P.isize * P.jsize) * P.isize * P.jsize), ((t : Int) - (t : Int).tdiv (P.isize * P.jsize) * P.isize * P.jsize).tdiv P.isize, (t : Int).tdiv (P.isize * P.jsize)⟩ ∧ (t : Int).tdiv (P.isize * P.jsize) < P.ghostWidth) ↔
      ((t : Int).tdiv (P.isize * P.jsize) ≥ 0 ∧ (t : Int).tdiv (P.isize * P.jsize) < P.ghostWidth ∧ ((t : Int) - (t : Int).tdiv (P.isize * P.jsize) * P.isize * P.jsize).tdiv P.isize ≥ P.jmin ∧ ((t : Int) - (t : Int).tdiv (P.isize * P.jsize) * P.isize * P.jsize).tdiv P.isize ≤ P.jmax ∧ ((t : Int) - ((t : Int) - (t : Int).tdiv (P.isize * P.jsize) * P.isize * P.jsize).tdiv P.isize * P.isize - (t : Int).tdiv (P.isize * P.jsize) * P.isize * P.jsize) ≥ P.imin ∧ ((t : Int) - ((t : Int) - (t : Int).tdiv (P.isize * P.jsize) * P.isize * P.jsize).tdiv P.isize * P.isize - (t : Int).tdiv (P.isize * P.jsize) * P.isize * P.jsize) ≤ P.imax) := by
    intro t
    simp only [Grid.cell3, Grid.imax, Grid.jmax, Grid.kmax, Grid.imin, Grid.jmin, Grid.kmin]
    rw [hk]
    generalize ((t : Int) - ((t : Int) - (t : Int).tdiv (P.isize * P.jsize) * P.isize * P.jsize).tdiv P.isize * P.isize - (t : Int).tdiv (P.isize * P.jsize) * P.isize * P.jsize) = zi
    generalize ((t : Int) - (t : Int).tdiv (P.isize * P.jsize) * P.isize * P.jsize).tdiv P.isize = zj
    generalize (t : Int).tdiv (P.isize * P.jsize) = zk
    omega
  refine ⟨(fun t => ⟨((t : Int) - ((t : Int) - (t : Int).tdiv (P.isize * P.jsize) * P.isize * P.jsize).tdiv P.isize * P.isize - (t : Int).tdiv (P.isize * P.jsize) * P.isize * P.jsize), ((t : Int) - (t : Int).tdiv (P.isize * P.jsize) * P.isize * P.jsize).tdiv P.isize, (t : Int).tdiv (P.isize * P.jsize)⟩), ?_, ?_, ?_, ?_⟩
  · intro act t ht
    simp only [faceBody3]
    rw [if_pos ((reg t).1 ht)]
  · intro act t ht
    simp only [faceBody3]
    rw [if_neg (fun h => ht ((reg t).2 h))]; rfl
  · intro s t _ _ e
    simp only [Cell.mk.injEq] at e
    exact dec3_inj (a := P.isize) (b := P.jsize) (d := P.isize) (by omega) (by omega) (by omega)
  · rintro ⟨i, j, k⟩ ⟨⟨a, b, c, d, e, e'⟩, f⟩
    simp only at a b c d e e' f
    obtain ⟨u1, u2, u3⟩ := dec3_surj (a := P.isize) (b := P.jsize) (d := P.isize) (n := P.jsize)
      (i := i) (j := j) (k := k) (by ring)
      (by omega) (by omega) (by omega) (by omega) (by omega)
    refine ⟨((k) * (P.jsize * P.isize) + (j) * P.isize + (i)).toNat, ?_, ?_⟩
    · simp only [faceItems, if_true, Bool.false_eq_true, if_false]
      have hb := bound3 (i := i) (j := j) (k := k) (d := P.isize) (n := P.jsize)
        (K := P.ghostWidth) (by omega) (by omega) (by omega) (by omega) (by omega)
      have h1 : P.isize ≤ max (max P.isize P.jsize) P.ksize := by simp
      have h2 : P.jsize ≤ max (max P.isize P.jsize) P.ksize := by simp
      have h3 : P.ksize ≤ max (max P.isize P.jsize) P.ksize := by simp
      have i0 : 0 ≤ P.isize := by omega
      have j0 : 0 ≤ P.jsize := by omega
      have k0 : 0 ≤ P.ksize := by omega
      generalize max (max P.isize P.jsize) P.ksize = M at *
      have hM : 0 ≤ M := by omega
      have h4 : P.ghostWidth * (P.jsize * P.isize) ≤ P.ghostWidth * M * M := by
        calc P.ghostWidth * (P.jsize * P.isize) ≤ P.ghostWidth * (M * M) := by gcongr
          _ = _ := by ring
      have h5 : 0 < P.ghostWidth * M * M := by
        have : 0 < M := by omega
        positivity
      omega
    · rw [u3, u2, u1]

theorem zmax3_dec (P : Grid) (hw : P.Pos3) : ∃ dec,
    FaceDec (α := α) (faceItems true P) (fun act t => faceBody3 P .zmax act t)
      (fun c => P.cell3 c ∧ P.nz + P.ghostWidth ≤ c.k) dec := by
  obtain ⟨⟨hg, hx, hy⟩, hz⟩ := hw
  have hi := P.isize_eq
  have hj := P.jsize_eq
  have hk := P.ksize_eq
  have reg : ∀ t : Nat, (P.cell3 ⟨((t : Int) - ((t : Int) - (t : Int).tdiv (P.isize * P.jsize) * P.isize * P.jsize).tdiv P.isize * P.isize - (t : Int).tdiv (P.isize * P.jsize) * P.isize * P.jsize), ((t : Int) - (t : Int).tdiv (P.isize * P.jsize) * P.isize * P.jsize).tdiv P.isize, ((t : Int).tdiv (P.isize * P.jsize) + (P.nz + P.ghostWidth))⟩ ∧ P.nz + P.ghostWidth ≤ ((t : Int).tdiv (P.isize * P.jsize) + (P.nz + P.ghostWidth))) ↔
      (((t : Int).tdiv (P.isize * P.jsize) + (P.nz + P.ghostWidth)) ≥ P.nz + P.ghostWidth ∧ ((t : Int).tdiv (P.isize * P.jsize) + (P.nz + P.ghostWidth)) ≤ P.nz + 2 * P.ghostWidth - 1 ∧ ((t : Int) - (t : Int).tdiv (P.isize * P.jsize) * P.isize * P.jsize).tdiv P.isize ≥ P.jmin ∧ ((t : Int) - (t : Int).tdiv (P.isize * P.jsize) * P.isize * P.jsize).tdiv P.isize ≤ P.jmax ∧ ((t : Int) - ((t : Int) - (t : Int).tdiv (P.isize * P.jsize) * P.isize * P.jsize).tdiv P.isize * P.isize - (t : Int).tdiv (P.isize * P.jsize) * P.isize * P.jsize) ≥ P.imin ∧ ((t : Int) - ((t : Int) - (t : Int).tdiv (P.isize * P.jsize) * P.isize * P.jsize).tdiv P.isize * P.isize - (t : Int).tdiv (P.isize * P.jsize) * P.isize * P.jsize) ≤ P.imax) := by
    intro t
    simp only [Grid.cell3, Grid.imax, Grid.jmax, Grid.kmax, Grid.imin, Grid.jmin, Grid.kmin]
    rw [hk]
    generalize ((t : Int) - ((t : Int) - (t : Int).tdiv (P.isize * P.jsize) * P.isize * P.jsize).tdiv P.isize * P.isize - (t : Int).tdiv (P.isize * P.jsize) * P.isize * P.jsize) = zi
    generalize ((t : Int) - (t : Int).tdiv (P.isize * P.jsize) * P.isize * P.jsize).tdiv P.isize = zj
    generalize (t : Int).tdiv (P.isize * P.jsize) = zk
    omega
  refine ⟨(fun t => ⟨((t : Int) - ((t : Int) - (t : Int).tdiv (P.isize * P.jsize) * P.isize * P.jsize).tdiv P.isize * P.isize - (t : Int).tdiv (P.isize * P.jsize) * P.isize * P.jsize), ((t : Int) - (t : Int).tdiv (P.isize * P.jsize) * P.isize * P.jsize).tdiv P.isize, ((t : Int).tdiv (P.isize * P.jsize) + (P.nz + P.ghostWidth))⟩), ?_, ?_, ?_, ?_⟩
  · intro act t ht
    simp only [faceBody3]
    rw [if_pos ((reg t).1 ht)]
  · intro act t ht
    simp only [faceBody3]
    rw [if_neg (fun h => ht ((reg t).2 h))]; rfl
  · intro s t _ _ e
    simp only [Cell.mk.injEq] at e
    exact dec3_inj (a := P.isize) (b := P.jsize) (d := P.isize) (by omega) (by omega) (by omega)
  · rintro ⟨i, j, k⟩ ⟨⟨a, b, c, d, e, e'⟩, f⟩
    simp only at a b c d e e' f
    obtain ⟨u1, u2, u3⟩ := dec3_surj (a := P.isize) (b := P.jsize) (d := P.isize) (n := P.jsize)
      (i := i) (j := j) (k := k - (P.nz + P.ghostWidth)) (by ring)
      (by omega) (by omega) (by omega) (by omega) (by omega)
    refine ⟨((k - (P.nz + P.ghostWidth)) * (P.jsize * P.isize) + (j) * P.isize + (i)).toNat, ?_, ?_⟩
    · simp only [faceItems, if_true, Bool.false_eq_true, if_false]
      have hb := bound3 (i := i) (j := j) (k := k - (P.nz + P.ghostWidth)) (d := P.isize) (n := P.jsize)
        (K := P.ghostWidth) (by omega) (by omega) (by omega) (by omega) (by omega)
      have h1 : P.isize ≤ max (max P.isize P.jsize) P.ksize := by simp
      have h2 : P.jsize ≤ max (max P.isize P.jsize) P.ksize := by simp
      have h3 : P.ksize ≤ max (max P.isize P.jsize) P.ksize := by simp
      have i0 : 0 ≤ P.isize := by omega
      have j0 : 0 ≤ P.jsize := by omega
      have k0 : 0 ≤ P.ksize := by omega
      generalize max (max P.isize P.jsize) P.ksize = M at *
      have hM : 0 ≤ M := by omega
      have h4 : P.ghostWidth * (P.jsize * P.isize) ≤ P.ghostWidth * M * M := by
        calc P.ghostWidth * (P.jsize * P.isize) ≤ P.ghostWidth * (M * M) := by gcongr
          _ = _ := by ring
      have h5 : 0 < P.ghostWidth * M * M := by
        have : 0 < M := by omega
        positivity
      omega
    · rw [u3, u2, u1]; simp only [Cell.mk.injEq, and_true, true_and]; omega

end Verif.Sdm
