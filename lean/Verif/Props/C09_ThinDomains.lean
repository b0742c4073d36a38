import Verif.Lemmas.BoundariesAll
import Verif.Lemmas.KernelSeq
import Mathlib.Tactic.NormNum

/-!
# C09: domains thinner than the ghost layer

The ghost fill is **not** well defined when `nx < ghostWidth` (the theorems C05–C08 exclude this).
-/

namespace Verif

open Function

section
variable {α : Type} [ROps α]

private theorem xmin_body (mhd : Bool) (P : Grid) (U : Nat) (t : Nat) :
    (makeBoundary2D mhd P U .xmin : Launch Addr α).body t =
      (if (t : Int).tdiv P.ghostWidth ≥ P.jmin ∧ (t : Int).tdiv P.ghostWidth ≤ P.jmax ∧
          (t : Int) - (t : Int).tdiv P.ghostWidth * P.ghostWidth ≥ 0 ∧
          (t : Int) - (t : Int).tdiv P.ghostWidth * P.ghostWidth < P.ghostWidth then
        copyVars P.nbvar
          (fun v => ⟨U, (lowSource P.ghostWidth P.nx P.boundary_type_xmin
            ((t : Int) - (t : Int).tdiv P.ghostWidth * P.ghostWidth) (isNormalX mhd v)).1,
            (t : Int).tdiv P.ghostWidth, 0, v⟩)
          (fun v => ⟨U, (t : Int) - (t : Int).tdiv P.ghostWidth * P.ghostWidth,
            (t : Int).tdiv P.ghostWidth, 0, v⟩)
          (fun v x => x * ROps.lit (lowSource P.ghostWidth P.nx P.boundary_type_xmin
            ((t : Int) - (t : Int).tdiv P.ghostWidth * P.ghostWidth) (isNormalX mhd v)).2)
      else .ret ()) := rfl

/-- Work item `t < ghostWidth` handles cell `(t, 0)`. -/
private theorem xmin_body_small (mhd : Bool) (P : Grid) (U : Nat) (t : Nat)
    (ht : (t : Int) < P.ghostWidth) (hper : P.boundary_type_xmin = BC_PERIODIC)
    (hy : 0 ≤ P.ny) :
    (makeBoundary2D mhd P U .xmin : Launch Addr α).body t =
      copyVars P.nbvar (fun v => ⟨U, P.nx + t, 0, 0, v⟩) (fun v => ⟨U, t, 0, 0, v⟩)
        (fun _ x => x * ROps.lit 1) := by
  have h0 : (t : Int).tdiv P.ghostWidth = 0 := by
    rw [tdiv_nonneg_eq (by omega)]; exact Int.ediv_eq_zero_of_lt (by omega) ht
  rw [xmin_body, h0, if_pos]
  · simp [lowSource, hper, BC_PERIODIC, BC_DIRICHLET, BC_NEUMANN]
  · simp only [Grid.jmin, Grid.jmax]; omega

private theorem xmin_size (mhd : Bool) (P : Grid) (U : Nat) (t : Nat)
    (ht : (t : Int) < P.ghostWidth) (hx : 0 ≤ P.nx) :
    t < (makeBoundary2D mhd P U .xmin : Launch Addr α).n := by
  simp only [makeBoundary2D]
  have h1 : P.isize ≤ max P.isize P.jsize := by simp
  have h2 := P.isize_eq
  have h3 : P.ghostWidth * 1 ≤ P.ghostWidth * max P.isize P.jsize :=
    Int.mul_le_mul_of_nonneg_left (by omega) (by omega)
  omega

/-- Only work item 0 writes cell `(0,0)`. -/
private theorem xmin_frame (mhd : Bool) (P : Grid) (U : Nat) (t : Nat) (ht : t ≠ 0)
    (m : Addr → α) (v : Nat) :
    ((makeBoundary2D mhd P U .xmin : Launch Addr α).body t).exec m ⟨U, 0, 0, 0, v⟩ =
      m ⟨U, 0, 0, 0, v⟩ := by
  rw [xmin_body]
  split
  · refine K.exec_frame (copyVars_fp _ _ _ _) m ?_ (fun h => h)
    rintro ⟨w, -, e⟩
    simp only [Addr.mk.injEq] at e
    obtain ⟨-, e1, e2, -⟩ := e
    rw [← e2] at e1; omega
  · rfl

private theorem fold_frame (mhd : Bool) (P : Grid) (U : Nat)
    (l : List (Fin (makeBoundary2D mhd P U .xmin : Launch Addr α).n))
    (hl : ∀ t ∈ l, (t : Nat) ≠ 0) (m : Addr → α) (v : Nat) :
    l.foldl (fun m (t : Fin (makeBoundary2D mhd P U .xmin : Launch Addr α).n) =>
      ((makeBoundary2D mhd P U .xmin : Launch Addr α).body t).exec m) m
      ⟨U, 0, 0, 0, v⟩ = m ⟨U, 0, 0, 0, v⟩ := by
  induction l generalizing m with
  | nil => rfl
  | cons s l ih =>
    rw [List.foldl_cons, ih (fun t ht => hl t (List.mem_cons_of_mem _ ht)),
      xmin_frame _ _ _ _ (hl s (List.mem_cons_self ..))]

/-- **C09** (data race): with a periodic left side and `0 < nx < ghostWidth`, the fill of that side
has a data race, whatever the data. -/
theorem C09_periodic_race (mhd : Bool) (P : Grid) (U : Nat) (hx : 0 < P.nx)
    (hthin : P.nx < P.ghostWidth) (hy : 0 ≤ P.ny) (hv : 0 < P.nbvar)
    (hper : P.boundary_type_xmin = BC_PERIODIC) (m : Addr → α) :
    ¬ (makeBoundary2D mhd P U .xmin).RaceFree m := by
  intro hr
  obtain ⟨n, hn⟩ : ∃ n : Nat, (n : Int) = P.nx := ⟨P.nx.toNat, by omega⟩
  obtain ⟨nv, hnv⟩ : ∃ k, P.nbvar = k + 1 := ⟨P.nbvar - 1, by omega⟩
  have head : ∀ (k : Nat) (S D : Nat → Addr) (f : Nat → α → α), ∃ q : α → K Addr α Unit,
      copyVars (k + 1) S D f = .read (S 0) (fun x => .write (D 0) (f 0 x) (q x)) := by
    intro k S D f
    induction k with
    | zero => exact ⟨fun _ => .ret (), rfl⟩
    | succ k ih =>
      obtain ⟨q, hq⟩ := ih
      refine ⟨fun x => (q x).bind (fun _ => (K.load (S (k+1))).bind
        fun x => K.store (D (k+1)) (f (k+1) x)), ?_⟩
      unfold copyVars at hq ⊢
      rw [forVars_succ, hq]; rfl
  have b0 := xmin_body_small (α := α) mhd P U 0 (by omega) hper hy
  have bn := xmin_body_small (α := α) mhd P U n (by omega) hper hy
  obtain ⟨q0, e0⟩ := head nv (fun v => ⟨U, P.nx + (0 : Nat), 0, 0, v⟩)
    (fun v => ⟨U, (0 : Nat), 0, 0, v⟩) (fun _ x => x * ROps.lit 1)
  obtain ⟨qn, en⟩ := head nv (fun v => ⟨U, P.nx + n, 0, 0, v⟩)
    (fun v => ⟨U, n, 0, 0, v⟩) (fun _ x => x * ROps.lit 1)
  rw [hnv, e0] at b0
  rw [hnv, en] at bn
  let t0 : Fin (makeBoundary2D mhd P U .xmin : Launch Addr α).n :=
    ⟨0, xmin_size mhd P U 0 (by omega) (by omega)⟩
  let tn : Fin (makeBoundary2D mhd P U .xmin : Launch Addr α).n :=
    ⟨n, xmin_size mhd P U n (by omega) (by omega)⟩
  have hne : t0 ≠ tn := by
    intro e; have := congrArg Fin.val e; simp only [t0, tn] at this; omega
  refine hr _ _ t0 tn (.read, ⟨U, P.nx + (0 : Nat), 0, 0, 0⟩) (.write, ⟨U, n, 0, 0, 0⟩)
    (Relation.ReflTransGen.single (Step.read tn bn)) hne ?_ ?_ ?_
  · rw [update_of_ne hne]
    have : (makeBoundary2D mhd P U .xmin : Launch Addr α).body t0 = _ := b0
    rw [this]; rfl
  · rw [update_self]; rfl
  · refine ⟨?_, by simp, by simp⟩
    simp [hn]

/-- **C09** (two schedules, two results): in the same situation, if the two data values involved
differ, then the loop can end in two different memories. -/
theorem C09_periodic_two_results (mhd : Bool) (P : Grid) (U : Nat) (hx : 0 < P.nx)
    (hthin : P.nx < P.ghostWidth) (hy : 0 ≤ P.ny) (hv : 0 < P.nbvar)
    (hper : P.boundary_type_xmin = BC_PERIODIC) (m : Addr → ℝ)
    (hdata : m ⟨U, P.nx, 0, 0, ID⟩ ≠ m ⟨U, 2 * P.nx, 0, 0, ID⟩) :
    ∃ m₁ m₂, (makeBoundary2D mhd P U .xmin).Run m m₁ ∧ (makeBoundary2D mhd P U .xmin).Run m m₂ ∧
      m₁ ⟨U, 0, 0, 0, ID⟩ = m ⟨U, P.nx, 0, 0, ID⟩ ∧
      m₂ ⟨U, 0, 0, 0, ID⟩ = m ⟨U, 2 * P.nx, 0, 0, ID⟩ ∧ m₁ ≠ m₂ := by
  obtain ⟨n, hn⟩ : ∃ n : Nat, (n : Int) = P.nx := ⟨P.nx.toNat, by omega⟩
  have b0 := xmin_body_small (α := ℝ) mhd P U 0 (by omega) hper hy
  have bn := xmin_body_small (α := ℝ) mhd P U n (by omega) hper hy
  let L : Launch Addr ℝ := makeBoundary2D mhd P U .xmin
  let t0 : Fin L.n := ⟨0, xmin_size mhd P U 0 (by omega) (by omega)⟩
  let tn : Fin L.n := ⟨n, xmin_size mhd P U n (by omega) (by omega)⟩
  have hne : tn ≠ t0 := by
    intro e; have := congrArg Fin.val e; simp only [t0, tn] at this; omega
  have ex : ∀ (k : Nat) (m : Addr → ℝ), 
      (copyVars P.nbvar (fun v => (⟨U, P.nx + k, 0, 0, v⟩ : Addr))
        (fun v => ⟨U, k, 0, 0, v⟩) (fun _ x => x * ROps.lit 1)).exec m ⟨U, k, 0, 0, 0⟩ =
      m ⟨U, P.nx + k, 0, 0, 0⟩ := by
    intro k m
    have := copyVars_exec P.nbvar (fun v => (⟨U, P.nx + k, 0, 0, v⟩ : Addr))
        (fun v => ⟨U, k, 0, 0, v⟩) (fun _ (x : ℝ) => x * ROps.lit 1)
        (by intro v w _ _ e; simpa using e)
        (by intro v w _ _ e; simp only [Addr.mk.injEq] at e; omega) m 0 hv
    rw [this]; simp [ROps.lit]
  have nd := List.nodup_finRange L.n
  let l0 := (List.finRange L.n).erase t0
  let ln := l0.erase tn
  have hl0 : ∀ t ∈ l0, (t : Nat) ≠ 0 := by
    intro t ht e
    exact (nd.mem_erase_iff.1 ht).1 (Fin.ext e)
  have hln : ∀ t ∈ ln, (t : Nat) ≠ 0 := fun t ht => hl0 t (List.mem_of_mem_erase ht)
  have r1 := L.run_list (t0 :: l0) (List.nodup_cons.2 ⟨fun h => hl0 _ h rfl, nd.erase _⟩)
    (by intro t
        by_cases e : t = t0
        · simp [e]
        · exact List.mem_cons_of_mem _ (nd.mem_erase_iff.2 ⟨e, List.mem_finRange t⟩)) m
  have r2 := L.run_list (tn :: t0 :: ln)
    (List.nodup_cons.2 ⟨by
      rw [List.mem_cons]; rintro (h | h)
      · exact hne h
      · exact (((nd.erase _).mem_erase_iff).1 h).1 rfl,
      List.nodup_cons.2 ⟨fun h => hln _ h rfl, (nd.erase _).erase _⟩⟩)
    (by intro t
        by_cases e : t = t0
        · simp [e]
        · by_cases e' : t = tn
          · simp [e']
          · exact List.mem_cons_of_mem _ (List.mem_cons_of_mem _
              ((nd.erase _).mem_erase_iff.2 ⟨e', nd.mem_erase_iff.2 ⟨e, List.mem_finRange t⟩⟩))) m
  have v1 : (t0 :: l0).foldl (fun m (t : Fin L.n) => (L.body t).exec m) m ⟨U, 0, 0, 0, ID⟩ =
      m ⟨U, P.nx, 0, 0, ID⟩ := by
    rw [List.foldl_cons, fold_frame mhd P U l0 hl0]
    have e : L.body t0 = _ := b0
    rw [e]
    have := ex 0 m
    simpa [ID] using this
  have v2 : (tn :: t0 :: ln).foldl (fun m (t : Fin L.n) => (L.body t).exec m) m ⟨U, 0, 0, 0, ID⟩ =
      m ⟨U, 2 * P.nx, 0, 0, ID⟩ := by
    rw [List.foldl_cons, List.foldl_cons, fold_frame mhd P U ln hln]
    have e : L.body t0 = _ := b0
    have e' : L.body tn = _ := bn
    rw [e, e']
    have h1 := ex 0 ((copyVars P.nbvar (fun v => (⟨U, P.nx + n, 0, 0, v⟩ : Addr))
        (fun v => ⟨U, n, 0, 0, v⟩) (fun _ x => x * ROps.lit 1)).exec m)
    have h2 := ex n m
    simp only [Nat.cast_zero, add_zero] at h1 ⊢
    rw [ID, h1, ← hn, two_mul]
    rw [hn] at h2 ⊢
    exact h2
  exact ⟨_, _, r1, r2, v1, v2, fun e => hdata (by rw [← v1, ← v2, e])⟩

/-- **C09** (reflecting): with `nx < ghostWidth` and reflecting left and right sides, the completed
fill leaves in ghost cell `(0, j)` a value read from the *old* content of cell `(2*ghostWidth-1, j)`,
which is itself a ghost cell. -/
theorem C09_reflecting_stale (P : Grid) (U : Nat) (hg : 0 < P.ghostWidth) (hx : 0 < P.nx)
    (hthin : P.nx < P.ghostWidth) (hy : P.ghostWidth ≤ P.ny) (hv : 0 < P.nbvar)
    (hlo : P.boundary_type_xmin = BC_DIRICHLET) (hhi : P.boundary_type_xmax = BC_DIRICHLET)
    (m m' : Addr → ℝ) (hrun : Runs (makeBoundariesSerial2D false P U) m m') (j : Int)
    (hj : P.ghostWidth ≤ j) (hj' : j < P.ny + P.ghostWidth) :
    m' ⟨U, 0, j, 0, ID⟩ = m ⟨U, 2 * P.ghostWidth - 1, j, 0, ID⟩ ∧
      P.nx + P.ghostWidth ≤ 2 * P.ghostWidth - 1 := by
  refine ⟨?_, by omega⟩
  have hi := P.isize_eq
  have hjs := P.jsize_eq
  have pos : P.Pos2 := ⟨hg, by omega, by omega⟩
  have y : YieldsAll (P.alloc2 U) (makeBoundariesSerial2D false P U) m _ :=
    .cons (xmin2_yields' false P U pos (.inl hlo) m)
      (.cons (xmax2_yields' false P U pos (.inl hhi) _)
      (.cons (ymin2_yields' false P U pos (.inr (.inr hy)) _)
      (.cons (ymax2_yields' false P U pos (.inr (.inr hy)) _) (.nil _))))
  rw [y.unique hrun]
  have c0 : P.cell2 ⟨0, j, 0⟩ := ⟨le_refl _, by simp only; omega, by simp only; omega,
    by simp only; omega, rfl⟩
  simp only [faceFx]
  rw [faceEffect, if_neg (by rintro ⟨-, ⟨-, h⟩, -⟩; simp only [Addr.cell] at h; omega),
    faceEffect, if_neg (by rintro ⟨-, ⟨-, h⟩, -⟩; simp only [Addr.cell] at h; omega),
    faceEffect, if_neg (by rintro ⟨-, ⟨-, h⟩, -⟩; simp only [Addr.cell] at h; omega),
    faceEffect, if_pos ⟨rfl, ⟨c0, by simp only [Addr.cell]; omega⟩, hv⟩]
  simp [lowSource, hlo, Addr.cell, Cell.at, isNormalX, ID, IU, ROps.lit]

end

/-! Non-vacuity: `nx = 1`, ghost width 2 (as a 2D hydro run with `nx` left at its default 1), and a run with
reflecting sides exists. -/

example : (⟨1, 4, 1, 2, 4, 3, 3, 3, 3, 3, 3⟩ : Grid).nx < 2 ∧
    (fun a : Addr => (a.i : ℝ)) ⟨0, 1, 0, 0, ID⟩ ≠ (fun a : Addr => (a.i : ℝ)) ⟨0, 2 * 1, 0, 0, ID⟩ := by
  norm_num

example (m : Addr → ℝ) :
    ∃ m', Runs (makeBoundariesSerial2D false ⟨1, 4, 1, 2, 4, 1, 1, 3, 3, 3, 3⟩ 0) m m' :=
  let P : Grid := ⟨1, 4, 1, 2, 4, 1, 1, 3, 3, 3, 3⟩
  have pos : P.Pos2 := ⟨by decide, by decide, by decide⟩
  ⟨_, (YieldsAll.cons (xmin2_yields' false P 0 pos (.inl rfl) m)
      (.cons (xmax2_yields' false P 0 pos (.inl rfl) _)
      (.cons (ymin2_yields' false P 0 pos (.inr (.inr (by decide))) _)
      (.cons (ymax2_yields' false P 0 pos (.inr (.inr (by decide))) _) (.nil _))))).run⟩

end Verif
