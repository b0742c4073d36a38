import Verif.Model.Xdmf
import Verif.Props.C112_Hdf5
import Verif.Props.C119_C120_HydroMpi

/-!
# C121: the index of the HDF5 files
-/

namespace Verif.Hdf5

variable {α : Type}

/-! ### Specification -/

/-- The entry `g` describes the file `F`: an attribute for every dataset of the file, in this order, under the dataset's name, and
with the extents of the dataset. -/
def Describes (g : XdmfGrid) (F : File α) : Prop :=
  g.attributes.map (fun a => (a.1, a.2.2)) = F.sets.map (fun s => (s.1, s.1)) ∧
  ∀ s ∈ F.sets, s.2.dims.map (fun n : Nat => (n : Int)) = g.dims

/-! ### Extents -/

theorem Run.indexDims_target {R : Run} (hR : R.Well) (r : Nat) :
    (R.target r).dims.map (fun n : Nat => (n : Int)) = R.indexDims := by
  have h1 := hR.grid.nx
  have h2 := hR.grid.ny
  have h4 := hR.grid.ghost
  have e1 : max R.P.nx 0 = R.P.nx := max_eq_left (by omega)
  have e2 : max R.P.ny 0 = R.P.ny := max_eq_left (by omega)
  have e4 : max R.P.ghostWidth 0 = R.P.ghostWidth := max_eq_left h4
  have e5 : max (R.P.nx + 2 * R.P.ghostWidth) 0 = R.P.nx + 2 * R.P.ghostWidth := max_eq_left (by omega)
  have e6 : max (R.P.ny + 2 * R.P.ghostWidth) 0 = R.P.ny + 2 * R.P.ghostWidth := max_eq_left (by omega)
  have e3 : R.d3 = true → max R.P.nz 0 = R.P.nz ∧
      max (R.P.nz + 2 * R.P.ghostWidth) 0 = R.P.nz + 2 * R.P.ghostWidth := fun h => by
    have := hR.grid.nz h
    exact ⟨max_eq_left (by omega), max_eq_left (by omega)⟩
  unfold Run.indexDims Run.target Run.assembled Run.stacked Run.rev
  cases hre : R.reassemble <;> cases hd : R.d3 <;> cases hg : R.ghosts <;>
    simp [Ghosts.whole, Ghosts.chunk, e1, e2, e4, e5, e6, e3, hd] <;>
    first | ring | (refine ⟨?_, ?_⟩ <;> ring) | skip

theorem writeField_dims {R : Run} {order : List Nat} {U : Nat → Cell → Nat → α} {junk : Nat → α} {fill : α} {v : Nat}
    {ds : Dataset α} (h : R.writeField order U junk fill v = some ds) : ds.dims = (R.target 0).dims := by
  have key : ∀ (l : List Nat) (d0 : Dataset α), (l.foldlM (fun ds r => do
      let buf ← R.copyOut (U r) v junk
      h5Write R.memory (R.target r) buf ds) d0) = some ds → ds.dims = d0.dims := by
    intro l
    induction l with
    | nil => intro d0 h; cases h; rfl
    | cons r l ih =>
      intro d0 h
      rw [List.foldlM_cons] at h
      obtain ⟨d1, h1, h2⟩ := Option.bind_eq_some_iff.1 h
      rw [ih d1 h2]
      obtain ⟨buf, -, h3⟩ := Option.bind_eq_some_iff.1 h1
      unfold h5Write at h3
      split_ifs at h3
      cases h3
      rfl
  exact key order _ h

theorem mapM_fields {β γ : Type} {f : β → Option γ} {l : List β} {l' : List γ} (h : l.mapM f = some l') :
    List.Forall₂ (fun a b => f a = some b) l l' := by
  induction l generalizing l' with
  | nil => rw [List.mapM_nil] at h; cases h; exact .nil
  | cons a l ih =>
    rw [List.mapM_cons] at h
    obtain ⟨b, h1, h2⟩ := Option.bind_eq_some_iff.1 h
    obtain ⟨bs, h3, h4⟩ := Option.bind_eq_some_iff.1 h2
    cases h4
    exact .cons h1 (ih h3)

/-- **C121**: the entry of a step in the index describes the file written for that step, and refers to it by its name without
the directory. -/
theorem C121_entries {R : Run} (hR : R.Well) {order : List Nat} {U : Nat → Cell → Nat → α} {junk : Nat → α} {fill : α}
    {step : Nat} {time : α} {F : File α} (h : R.save order U junk fill step time = some F) (dir pre debug : String) :
    Describes (R.indexGrid pre step) F ∧
    ∀ a ∈ (R.indexGrid pre step).attributes, dir ++ "/" ++ a.2.1 = fileName dir pre debug step := by
  obtain ⟨sets, h1, h2⟩ := Option.bind_eq_some_iff.1 h
  cases h2
  have hf := mapM_fields h1
  have hl : ∀ (l : List Nat) (t : List (String × Dataset α)), List.Forall₂ (fun v s => (do
      let ds ← R.writeField order U junk fill v
      return (fieldName v, ds)) = some s) l t →
      l.map (fun v => (fieldName v, fieldName v)) = t.map (fun s => (s.1, s.1)) ∧
      ∀ s ∈ t, s.2.dims = (R.target 0).dims := by
    intro l t h
    induction h with
    | nil => exact ⟨rfl, fun s hs => by simp at hs⟩
    | cons h0 _ ih =>
      obtain ⟨ds, h3, h4⟩ := Option.bind_eq_some_iff.1 h0
      cases h4
      refine ⟨by rw [List.map_cons, List.map_cons, ih.1], fun s hs => ?_⟩
      rcases List.mem_cons.1 hs with rfl | hs
      · exact writeField_dims h3
      · exact ih.2 s hs
  obtain ⟨a1, a2⟩ := hl _ _ hf
  refine ⟨⟨?_, fun s hs => ?_⟩, ?_⟩
  · rw [← a1]
    simp only [Run.indexGrid, List.map_map]
    rfl
  · rw [a2 s hs, R.indexDims_target hR]; rfl
  · intro a ha
    simp only [Run.indexGrid, List.mem_map] at ha
    obtain ⟨v, -, rfl⟩ := ha
    simp [indexRef, fileName, String.append_assoc]

/-! ### Which steps are listed -/

/-- Numbers of the files so far. -/
private structure Numbered {β : Type} (n : Int) (s : HydroState β) : Prop where
  saved : s.timesSaved = n + s.files.length
  numbers : s.files.map Snapshot.number = (List.range s.files.length).map fun i : Nat => n + (i : Int)

private theorem Numbered.save {β : Type} {n : Int} {s : HydroState β} (h : Numbered n s) : Numbered n s.save := by
  refine ⟨?_, ?_⟩
  · simp [HydroState.save, h.saved]; omega
  · simp only [HydroState.save, HydroState.file, List.map_append, h.numbers, List.length_append, List.map_cons,
      List.map_nil, List.length_cons, List.length_nil, h.saved]
    rw [List.range_succ, List.map_append]
    rfl

private theorem Numbered.saveIf {C : HydroConf α} [ROps α] {n : Int} {s : HydroState α} (h : Numbered n s) :
    Numbered n (C.saveIf s) := by
  unfold HydroConf.saveIf; split_ifs
  · exact h.save
  · exact h

private theorem numbered_loop [ROps α] {C : HydroConf α} {n : Int} {s : HydroState α} {x : Option (HydroState α)}
    (hl : C.Loop s x) (h : Numbered n s) : ∀ s', x = some s' → Numbered n s' := by
  induction hl with
  | done => rintro s' ⟨⟩; exact h
  | ub => rintro s' ⟨⟩
  | step _ _ hn _ ih =>
    refine ih ?_
    obtain ⟨s2, ⟨d, -, rfl⟩, J, m', -, rfl⟩ := hn
    split_ifs
    · exact ⟨h.save.saved, h.save.numbers⟩
    · exact ⟨h.saved, h.numbers⟩

private theorem numbered_start [ROps α] {C : HydroConf α} {setup : List (Launch Addr α)} {m0 : Addr → α} {t0 : α}
    {n : Int} {s : HydroState α} (h : C.Start setup m0 t0 n s) : Numbered n s := by
  obtain ⟨m1, s1, -, ⟨d, -, rfl⟩, rfl⟩ := h
  exact Numbered.saveIf ⟨by simp, rfl⟩

private theorem numbered_mpi [ROps α] {C : HydroConf α} {T : Ranks} {n : Int} {s : Nat → HydroState α}
    {x : Option (Nat → HydroState α)} (hl : C.MpiLoop T s x) (h : ∀ r, r < T.num → Numbered n (s r)) :
    ∀ s', x = some s' → ∀ r, r < T.num → Numbered n (s' r) := by
  induction hl with
  | done => rintro s' ⟨⟩; exact h
  | ub => rintro s' ⟨⟩
  | mixed => rintro s' ⟨⟩
  | hang => rintro s' ⟨⟩
  | step _ _ hn _ ih =>
    refine ih fun r hr => ?_
    obtain ⟨s2, ⟨L, E, -, -, e2⟩, J, M', -, e⟩ := hn
    rw [e r hr, e2 r hr]
    beta_reduce
    dsimp only
    split_ifs
    · exact ⟨(h r hr).save.saved, (h r hr).save.numbers⟩
    · exact ⟨(h r hr).saved, (h r hr).numbers⟩

private theorem steps_of {n : Int} {s : HydroState α} (hn : 0 ≤ n) (h : Numbered n s) (R : Run) (pre : String) :
    (R.finalIndex pre s.timesSaved).map XdmfGrid.time =
      (List.range n.toNat).map (fun i : Nat => (i : Int)) ++ s.files.map Snapshot.number := by
  obtain ⟨k, rfl⟩ : ∃ k : Nat, n = k := ⟨n.toNat, by omega⟩
  rw [h.numbers, Run.finalIndex, Run.index, List.map_map, h.saved]
  unfold indexSteps Vtk.upTo
  rw [if_neg (by simp), show ((k : Int) + s.files.length - 1 - 0 + 1).toNat = k + s.files.length by omega,
    List.range_add]
  simp only [List.map_append, List.map_map, Int.toNat_natCast]
  congr 1
  · refine List.map_congr_left fun i _ => ?_
    simp [Run.indexGrid]
  · refine List.map_congr_left fun i _ => ?_
    simp [Run.indexGrid]

/-- **C121**: the index written at the end of the hydro program lists the files of the run: each of them, in order, once,
and nothing else – on one process and on every rank of many. -/
theorem C121_complete {β : Type} [TOps β] (R : Run) (pre : String) {C : HydroConf β} {D : Domain β} {Q : HydroProblem β} :
    (∀ s, C.Main D Q (some s) →
      (R.finalIndex pre s.timesSaved).map XdmfGrid.time = s.files.map Snapshot.number) ∧
    ∀ T s, C.MpiMain T D Q (some s) → ∀ r, r < T.num →
      (R.finalIndex pre (s r).timesSaved).map XdmfGrid.time = (s r).files.map Snapshot.number := by
  refine ⟨?_, ?_⟩
  · rintro s ⟨s0, x, h1, h2, e⟩
    obtain ⟨s1, rfl, rfl⟩ := Option.map_eq_some_iff.1 e.symm
    exact steps_of (le_refl 0) ((numbered_loop h2 (numbered_start h1) s1 rfl).saveIf) R pre
  · intro T s hs r hr
    generalize hx : some s = y at hs
    cases hs with
    | hang => cases hx
    | @run M1 s1 x h1 h2 h3 =>
      obtain ⟨s', rfl, rfl⟩ := Option.map_eq_some_iff.1 hx.symm
      refine steps_of (le_refl 0) (Numbered.saveIf (numbered_mpi h3 (n := 0) ?_ s' rfl r hr)) R pre
      intro r hr
      obtain ⟨L, E, -, -, e⟩ := h2
      rw [e r hr]
      exact Numbered.saveIf ⟨by simp, rfl⟩

/-- **C121**, the code: after a restart from file number `n` the index lists the numbers below `n` as well, of which this run
wrote no file. -/
theorem C121_restarted [ROps α] (R : Run) (pre : String) {C : HydroConf α} {m : Addr → α} {n : Int} {t : α} (hn : 0 ≤ n)
    {s : HydroState α} (h : C.Restarted m n t (some s)) :
    (R.finalIndex pre s.timesSaved).map XdmfGrid.time =
      (List.range n.toNat).map (fun i : Nat => (i : Int)) ++ s.files.map Snapshot.number ∧
    ∀ x ∈ s.files, n ≤ x.number := by
  obtain ⟨s0, x, h1, h2, e⟩ := h
  obtain ⟨s1, rfl, rfl⟩ := Option.map_eq_some_iff.1 e.symm
  have hN : Numbered n (C.saveIf s1) := (numbered_loop h2 (numbered_start h1) s1 rfl).saveIf
  refine ⟨steps_of hn hN R pre, fun x hx => ?_⟩
  have := List.mem_map_of_mem (f := Snapshot.number) hx
  rw [hN.numbers] at this
  obtain ⟨i, -, hi⟩ := List.mem_map.1 this
  omega

/-- **C121**, the code: with `singleStep` the index lists the step asked for and the next one. -/
theorem C121_single (R : Run) (pre : String) (n : Nat) :
    (R.index pre n true).map XdmfGrid.time = [(n : Int), n + 1] := by
  rw [Run.index, List.map_map]
  unfold indexSteps Vtk.upTo
  rw [if_pos rfl, show ((n : Int) + 1 - n + 1).toNat = 2 by omega]
  simp [Run.indexGrid, List.range_succ]

/-- **C121**, the code: the times in the index are the numbers of the files, not their times. -/
theorem C121_times {β : Type} [TOps β] (R : Run) (pre : String) {C : HydroConf β} {D : Domain β} {Q : HydroProblem β}
    {s : HydroState β} (h : C.Main D Q (some s)) :
    (R.finalIndex pre s.timesSaved).map XdmfGrid.time = (List.range s.files.length).map fun i : Nat => (i : Int) := by
  obtain ⟨s0, x, h1, h2, e⟩ := h
  obtain ⟨s1, rfl, rfl⟩ := Option.map_eq_some_iff.1 e.symm
  have hN : Numbered 0 (C.saveIf s1) := (numbered_loop h2 (numbered_start h1) s1 rfl).saveIf
  rw [steps_of (le_refl 0) hN R pre, hN.numbers]
  simp

/-! ### The hypotheses can be met -/

example : (pair .outer).Well ∧
    ∃ F, (pair .outer).save [1, 0] (fun r _ _ => r) (fun _ => 7) 7 3 0 = some F :=
  ⟨pair_well _, _, rfl⟩

example : ∃ s, (exampleConf true .periodic).Main ⟨0, 1, 0, 1, 0, 1, 0, 0, 0⟩
    (.blast ⟨1/10, 1/2, 1/2, 1/2, 1, 10, 1, 1/10⟩) (some s) ∧
    ((cube 16 .none 2).finalIndex "out" s.timesSaved).map XdmfGrid.time = s.files.map Snapshot.number := by
  obtain ⟨⟨s, hs⟩, -⟩ := C117_same_files (D := ⟨0, 1, 0, 1, 0, 1, 0, 0, 0⟩)
    (Q := .blast ⟨1/10, 1/2, 1/2, 1/2, 1, 10, 1, 1/10⟩) (exampleConf_ok true .periodic) (by simp [exampleConf])
    (fun h => h.elim)
  exact ⟨s, hs, (C121_complete _ _).1 s hs⟩

end Verif.Hdf5
