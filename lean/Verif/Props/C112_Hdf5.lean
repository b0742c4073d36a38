import Verif.Lemmas.Hdf5
import Verif.Spec.Hdf5
import Mathlib.Tactic.NormNum

/-!
# C112–C114: HDF5 files, and reading them back
-/

namespace Verif.Hdf5

variable {α : Type}

theorem save_agree {R : Run} (hR : R.Well) (hF : R.Fits) (hre : R.reassemble = true) {order : List Nat}
    (ho : ∀ r ∈ order, r < R.procs) (U : Nat → Cell → Nat → α) (junk : Nat → α) (fill : α) (step : Int) (time : α)
    (G : Nat → List Nat → α)
    (hG : ∀ v ∈ R.fields, ∀ r ∈ order, ∀ a ∈ indices R.memory.count,
      U r (R.cellAt (shift R.memory.start a)) v = G v (shift (R.assembled r).start a)) :
    ∃ (F : File α) (D : Nat → Dataset α), R.save order U junk fill step time = some F ∧ F.step = step ∧ F.time = time ∧
      ∀ v ∈ R.fields, F.sets.lookup (fieldName v) = some (D v) ∧ (D v).dims = (R.assembled 0).dims ∧
        ∀ r ∈ order, ∀ a ∈ indices R.memory.count,
          (D v).data (shift (R.assembled r).start a) = G v (shift (R.assembled r).start a) := by
  classical
  have h := fun v (hv : v ∈ R.fields) => Run.writeField_agree hR hF hre ho U junk fill hv (G v) (hG v hv)
  let D : Nat → Dataset α := fun v => if hv : v ∈ R.fields then (h v hv).choose else ⟨[], fun _ => fill⟩
  have hD : ∀ v (hv : v ∈ R.fields), D v = (h v hv).choose := fun v hv => dif_pos hv
  refine ⟨⟨R.fields.map fun v => (fieldName v, D v), step, time⟩, D, ?_, rfl, rfl, fun v hv => ⟨?_, ?_, ?_⟩⟩
  · unfold Run.save
    rw [Vtk.mapM_some R.fields _ (fun v => (fieldName v, D v)) (fun v hv => by
      rw [(h v hv).choose_spec.1, hD v hv]; rfl)]
    rfl
  · exact Vtk.lookup_arrays fieldName D R.fields
      (fun u hu w hw e => fieldName_injective (fields_lt hu) (fields_lt hw) e) v hv
  · rw [hD v hv]; exact (h v hv).choose_spec.2.1
  · rw [hD v hv]; exact (h v hv).choose_spec.2.2

theorem value_eq {R : Run} {F : File α} {v : Nat} {ds : Dataset α}
    (hl : F.sets.lookup (fieldName v) = some ds) {X Y Z x y z : Nat} (hd : ds.dims = R.rev X Y Z) (hx : x < X) (hy : y < Y)
    (hz : R.d3 = true → z < Z) : F.value R.d3 (fieldName v) x y z = some (ds.data (R.rev x y z)) := by
  unfold File.value
  rw [hl]
  simp only
  rw [show (if R.d3 = true then [z, y, x] else [y, x]) = R.rev x y z from rfl, hd]
  refine if_pos ⟨R.length_rev .., ?_⟩
  unfold Run.rev
  cases h : R.d3
  · simp [hx, hy]
  · simp [hx, hy, hz h]

theorem rank_lt {R : Run} (hR : R.Well) (c : Cell) : cartRank R.mx R.my R.mz c < R.procs := by
  have hx : (0 : Int) < R.mx := by have := hR.mx; omega
  have hy : (0 : Int) < R.my := by have := hR.my; omega
  have hz : (0 : Int) < R.mz := by have := hR.mz; omega
  have := cartRank_lt hx hy hz c
  rwa [show ((R.mx : Int) * R.my * R.mz) = (R.procs : Nat) by unfold Run.procs; push_cast; ring,
    Int.toNat_natCast] at this

theorem place_rank {R : Run} (hR : R.Well) {x y z : Nat} (h1 : x < R.mx) (h2 : y < R.my) (h3 : z < R.mz) :
    R.place (cartRank R.mx R.my R.mz ⟨x, y, z⟩) = (x, y, z) := by
  have hmz : (if R.d3 then (R.mz : Int) else 1) = R.mz := by
    cases hd : R.d3
    · rw [hR.flat hd]; simp
    · simp
  have hx : (0 : Int) < R.mx := by have := hR.mx; omega
  have hy : (0 : Int) < R.my := by have := hR.my; omega
  have hz : (0 : Int) < R.mz := by have := hR.mz; omega
  unfold Run.place
  rw [hmz, cartCoords_cartRank hx hy hz]
  simp only
  rw [Int.emod_eq_of_lt (by omega) (by omega), Int.emod_eq_of_lt (by omega) (by omega),
    Int.emod_eq_of_lt (by omega) (by omega)]
  rfl

theorem rank_place {R : Run} (hR : R.Well) {r : Nat} (hr : r < R.procs) :
    cartRank R.mx R.my R.mz ⟨(R.place r).1, (R.place r).2.1, (R.place r).2.2⟩ = r := by
  have hmz : (if R.d3 then (R.mz : Int) else 1) = R.mz := by
    cases hd : R.d3
    · rw [hR.flat hd]; simp
    · simp
  have hx : (0 : Int) < R.mx := by have := hR.mx; omega
  have hy : (0 : Int) < R.my := by have := hR.my; omega
  have hz : (0 : Int) < R.mz := by have := hR.mz; omega
  have hr' : r < ((R.mx : Int) * R.my * R.mz).toNat := by
    rw [show ((R.mx : Int) * R.my * R.mz) = (R.procs : Nat) by unfold Run.procs; push_cast; ring]; exact hr
  have a := cartCoords_range hx hy hz hr' .x
  have b := cartCoords_range hx hy hz hr' .y
  have c := cartCoords_range hx hy hz hr' .z
  simp only [Ax.get, Ax.m] at a b c
  have e := cartRank_cartCoords hx hy hz hr'
  unfold Run.place
  rw [hmz]
  simp only
  rw [Int.toNat_of_nonneg a.1, Int.toNat_of_nonneg b.1, Int.toNat_of_nonneg c.1]
  exact e

/-- Element of a global array at a multi-index. -/
private def atIndex (_ : Run) (f : Nat → Nat → Nat → α) (fill : α) : List Nat → α
  | [z, y, x] => f x y z
  | [y, x] => f x y 0
  | _ => fill

private theorem atIndex_rev (R : Run) (f : Nat → Nat → Nat → α) (fill : α) (x y z : Nat) :
    atIndex R f fill (R.rev x y z) = f x y (if R.d3 then z else 0) := by
  unfold Run.rev; split_ifs <;> rfl

/-- The number an inner cell of the whole domain has, given the arrays of all ranks. -/
def owned (R : Run) (U : Nat → Cell → Nat → α) (v x y z : Nat) : α :=
  U (cartRank R.mx R.my R.mz ⟨(x / R.P.nx.toNat : Nat), (y / R.P.ny.toNat : Nat), (z / R.P.nz.toNat : Nat)⟩)
    ⟨R.P.ghostWidth + (x % R.P.nx.toNat : Nat), R.P.ghostWidth + (y % R.P.ny.toNat : Nat),
      if R.d3 then R.P.ghostWidth + (z % R.P.nz.toNat : Nat) else 0⟩ v

/-- A cell of the whole domain (`z = 0` in 2D). -/
def Global (R : Run) (x y z : Nat) : Prop :=
  x < R.mx * R.P.nx.toNat ∧ y < R.my * R.P.ny.toNat ∧ if R.d3 then z < R.mz * R.P.nz.toNat else z = 0

private theorem owned_window {R : Run} (hR : R.Well) (hg : R.ghosts = .none) (U : Nat → Cell → Nat → α)
    (fill : α) (v : Nat) {r : Nat} (hr : r < R.procs) {a : List Nat} (ha : a ∈ indices R.memory.count) :
    U r (R.cellAt (shift R.memory.start a)) v = atIndex R (owned R U v) fill (shift (R.assembled r).start a) := by
  have hgr := hR.grid
  have hgw := hgr.ghost
  have ha' := ha
  unfold Run.memory at ha'
  simp only [hg, Ghosts.chunk] at ha'
  obtain ⟨x, y, z, rfl, hx, hy, hz, hz0⟩ := Run.mem_rev ha'
  obtain ⟨p1, p2, p3⟩ := R.place_lt hR hr
  have hm : R.memory.start = R.rev R.P.ghostWidth.toNat R.P.ghostWidth.toNat R.P.ghostWidth.toNat := by
    unfold Run.memory; rw [hg]
  rw [hm, R.assembled_start, R.shift_rev, R.shift_rev, R.cellAt_rev, atIndex_rev, hg]
  simp only [Ghosts.first, owned]
  have dv : ∀ {p n t : Nat}, t < n → (p * n + t) / n = p ∧ (p * n + t) % n = t := by
    intro p n t h
    rw [mul_comm]
    exact ⟨by rw [Nat.mul_add_div (by omega), Nat.div_eq_of_lt h, add_zero], by
      rw [Nat.mul_add_mod, Nat.mod_eq_of_lt h]⟩
  rw [(dv hx).1, (dv hx).2, (dv hy).1, (dv hy).2]
  have hcz : ((if R.d3 = true then (R.place r).2.2 * R.P.nz.toNat + z else 0) / R.P.nz.toNat) = (R.place r).2.2 := by
    cases hd : R.d3
    · rw [hR.flat hd] at p3
      simp; omega
    · simp only [if_true]; exact (dv (hz hd)).1
  rw [hcz, rank_place hR hr]
  congr 1
  ext
  · simp only; push_cast; omega
  · simp only; push_cast; omega
  · cases hd : R.d3
    · simp
    · simp only [if_true]
      rw [(dv (hz hd)).2]; push_cast; omega

private theorem dims_none {R : Run} (hg : R.ghosts = .none) : (R.assembled 0).dims =
    R.rev (R.mx * R.P.nx.toNat) (R.my * R.P.ny.toNat) (R.mz * R.P.nz.toNat) := by
  rw [R.assembled_dims, hg]; rfl

/-- Every cell of the whole domain is in the box of its owner. -/
private theorem owner_box {R : Run} (hR : R.Well) (hg : R.ghosts = .none) {x y z : Nat} (h : Global R x y z) :
    ∃ r < R.procs, ∃ a ∈ indices R.memory.count, R.rev x y z = shift (R.assembled r).start a := by
  obtain ⟨hx, hy, hz⟩ := h
  have nx := hR.grid.nx; have ny := hR.grid.ny
  have b1 : x / R.P.nx.toNat < R.mx := Nat.div_lt_of_lt_mul (by rw [mul_comm]; exact hx)
  have b2 : y / R.P.ny.toNat < R.my := Nat.div_lt_of_lt_mul (by rw [mul_comm]; exact hy)
  have b3 : (if R.d3 then z / R.P.nz.toNat else 0) < R.mz := by
    cases hd : R.d3
    · have := hR.mz; simp; omega
    · rw [hd] at hz; simp only [if_true] at hz ⊢
      exact Nat.div_lt_of_lt_mul (by rw [mul_comm]; exact hz)
  refine ⟨cartRank R.mx R.my R.mz ⟨(x / R.P.nx.toNat : Nat), (y / R.P.ny.toNat : Nat),
    ((if R.d3 then z / R.P.nz.toNat else 0 : Nat) : Nat)⟩, rank_lt hR _,
    R.rev (x % R.P.nx.toNat) (y % R.P.ny.toNat) (z % R.P.nz.toNat), ?_, ?_⟩
  · unfold Run.memory
    simp only [hg, Ghosts.chunk]
    exact R.rev_mem (Nat.mod_lt _ (by omega)) (Nat.mod_lt _ (by omega))
      fun hd => Nat.mod_lt _ (by have := hR.grid.nz hd; omega)
  · rw [R.assembled_start, place_rank hR b1 b2 b3, R.shift_rev, hg]
    simp only [Ghosts.first]
    have e1 := Nat.div_add_mod' x R.P.nx.toNat
    have e2 := Nat.div_add_mod' y R.P.ny.toNat
    have e3 := Nat.div_add_mod' z R.P.nz.toNat
    unfold Run.rev
    cases hd : R.d3
    · simp only [Bool.false_eq_true, if_false]; rw [e1, e2]
    · simp only [if_true]; rw [e1, e2, e3]

/-- **C112.**  The file holds the whole domain.  Without ghost cells and with assembled pieces, for every decomposition,
memory layout and order of the ranks' stores: saving succeeds, each field has the extents of the whole domain, and each of its elements is
the number its owner has in that cell. -/
theorem C112_content {R : Run} (hR : R.Well) (hF : R.Fits) (hre : R.reassemble = true) (hg : R.ghosts = .none)
    {order : List Nat} (ho : order.Perm (List.range R.procs)) (U : Nat → Cell → Nat → α) (junk : Nat → α) (fill : α)
    (step : Int) (time : α) :
    ∃ F, R.save order U junk fill step time = some F ∧ F.step = step ∧ F.time = time ∧ ∀ v ∈ R.fields,
      F.extent (fieldName v) = some (if R.d3 then [R.mx * R.P.nx.toNat, R.my * R.P.ny.toNat, R.mz * R.P.nz.toNat]
        else [R.mx * R.P.nx.toNat, R.my * R.P.ny.toNat]) ∧
      ∀ x y z, Global R x y z → F.value R.d3 (fieldName v) x y z = some (owned R U v x y z) := by
  have hor : ∀ r ∈ order, r < R.procs := fun r hr => List.mem_range.1 (ho.mem_iff.1 hr)
  obtain ⟨F, D, h1, h2, h3, h4⟩ := save_agree hR hF hre hor U junk fill step time
    (fun v => atIndex R (owned R U v) fill) (fun v _ r hr a ha => owned_window hR hg U fill v (hor r hr) ha)
  refine ⟨F, h1, h2, h3, fun v hv => ?_⟩
  obtain ⟨l1, l2, l3⟩ := h4 v hv
  rw [dims_none hg] at l2
  refine ⟨?_, fun x y z h => ?_⟩
  · rw [File.extent, l1, Option.map_some, l2]
    unfold Run.rev
    split_ifs <;> rfl
  · obtain ⟨hx, hy, hz⟩ := id h
    rw [value_eq l1 l2 hx hy (fun hd => by rw [hd] at hz; exact hz)]
    obtain ⟨r, hr, a, ha, e⟩ := owner_box hR hg h
    rw [e, l3 r (ho.mem_iff.2 (List.mem_range.2 hr)) a ha, ← e, atIndex_rev]
    cases hd : R.d3
    · rw [hd] at hz
      simp only [Bool.false_eq_true, if_false] at hz ⊢
      rw [hz]
    · simp

/-- **C112.**  Two runs of the same problem on different numbers of processes write the same files. -/
theorem C112_decomposition {R S : Run} (hR : R.Well) (hS : S.Well) (fR : R.Fits) (fS : S.Fits)
    (rR : R.reassemble = true) (rS : S.reassemble = true) (gR : R.ghosts = .none) (gS : S.ghosts = .none)
    (hd : R.d3 = S.d3) (hm : R.mhd = S.mhd) (ex : R.mx * R.P.nx.toNat = S.mx * S.P.nx.toNat)
    (ey : R.my * R.P.ny.toNat = S.my * S.P.ny.toNat) (ez : R.d3 = true → R.mz * R.P.nz.toNat = S.mz * S.P.nz.toNat)
    {o o' : List Nat} (ho : o.Perm (List.range R.procs)) (ho' : o'.Perm (List.range S.procs))
    (U V : Nat → Cell → Nat → α)
    (same : ∀ v ∈ R.fields, ∀ x y z, Global R x y z → owned R U v x y z = owned S V v x y z)
    (junk junk' : Nat → α) (fill fill' : α) (step : Int) (time : α) :
    ∃ F G, R.save o U junk fill step time = some F ∧ S.save o' V junk' fill' step time = some G ∧ F.step = G.step ∧
      F.time = G.time ∧ ∀ v ∈ R.fields, v ∈ S.fields ∧ F.extent (fieldName v) = G.extent (fieldName v) ∧
        ∀ x y z, Global R x y z → F.value R.d3 (fieldName v) x y z = G.value S.d3 (fieldName v) x y z := by
  obtain ⟨F, a1, a2, a3, a4⟩ := C112_content hR fR rR gR ho U junk fill step time
  obtain ⟨G, b1, b2, b3, b4⟩ := C112_content hS fS rS gS ho' V junk' fill' step time
  have hf : R.fields = S.fields := by unfold Run.fields; rw [hd, hm]
  refine ⟨F, G, a1, b1, by rw [a2, b2], by rw [a3, b3], fun v hv => ?_⟩
  have hv' : v ∈ S.fields := hf ▸ hv
  refine ⟨hv', ?_, fun x y z h => ?_⟩
  · rw [(a4 v hv).1, (b4 v hv').1, ← hd, ex, ey]
    cases h : R.d3
    · rfl
    · rw [ez h]
  · have h' : Global S x y z := by
      obtain ⟨hx, hy, hz⟩ := h
      refine ⟨ex ▸ hx, ey ▸ hy, ?_⟩
      rw [← hd]
      cases h : R.d3
      · rw [h] at hz; exact hz
      · rw [h] at hz; simp only [if_true] at hz ⊢; exact ez h ▸ hz
    rw [(a4 v hv).2 x y z h, (b4 v hv').2 x y z h', same v hv x y z h]

/-- **C113.**  Restart.  A run `S` (any number of processes, layout and ghost width) that reads the file of a run `R` of the
same global size gets, on each of its ranks and in each inner cell, the numbers `R` had there, and `R`'s output number and time. -/
theorem C113_restart {R S : Run} (hR : R.Well) (hS : S.Well) (fR : R.Fits) (fS : S.Fits) (rR : R.reassemble = true)
    (gR : R.ghosts = .none) (gS : S.ghosts = .none) (hd : R.d3 = S.d3) (hm : R.mhd = S.mhd)
    (ex : R.mx * R.P.nx.toNat = S.mx * S.P.nx.toNat) (ey : R.my * R.P.ny.toNat = S.my * S.P.ny.toNat)
    (ez : R.d3 = true → R.mz * R.P.nz.toNat = S.mz * S.P.nz.toNat) {order : List Nat}
    (ho : order.Perm (List.range R.procs)) (U : Nat → Cell → Nat → α) (junk junk' : Nat → α) (fill : α) (step : Int)
    (time : α) (init : Cell → Nat → α) :
    ∃ F, R.save order U junk fill step time = some F ∧ ∀ px py pz, px < S.mx → py < S.my → pz < S.mz →
      ∃ L, S.load (cartRank S.mx S.my S.mz ⟨px, py, pz⟩) F junk' init = some L ∧ L.step = step ∧ L.time = time ∧
        ∀ v ∈ R.fields, ∀ x y z : Nat, x < S.P.nx → y < S.P.ny → (if R.d3 then (z : Int) < S.P.nz else z = 0) →
          L.U ⟨S.P.ghostWidth + x, S.P.ghostWidth + y, if R.d3 then S.P.ghostWidth + z else 0⟩ v =
            owned R U v (px * S.P.nx.toNat + x) (py * S.P.ny.toNat + y) (if R.d3 then pz * S.P.nz.toNat + z else 0) := by
  have hor : ∀ r ∈ order, r < R.procs := fun r hr => List.mem_range.1 (ho.mem_iff.1 hr)
  obtain ⟨F, D, h1, h2, h3, h4⟩ := save_agree hR fR rR hor U junk fill step time
    (fun v => atIndex R (owned R U v) fill) (fun v _ r hr a ha => owned_window hR gR U fill v (hor r hr) ha)
  have hf : R.fields = S.fields := by unfold Run.fields; rw [hd, hm]
  refine ⟨F, h1, fun px py pz hpx hpy hpz => ?_⟩
  have hdims : (R.assembled 0).dims = (S.assembled 0).dims := by
    rw [dims_none gR, dims_none gS]
    unfold Run.rev
    rw [← hd, ex, ey]
    cases h : R.d3
    · rfl
    · rw [ez h]
  obtain ⟨L, l1, l2, l3, l4⟩ := Run.load_eq hS fS (rank_lt hS ⟨px, py, pz⟩) F D (fun v hv => by
    obtain ⟨a, b, -⟩ := h4 v (hf ▸ hv)
    exact ⟨a, by rw [b, hdims]⟩) junk' init
  refine ⟨L, l1, by rw [l2, h2], by rw [l3, h3], fun v hv x y z hx hy hz => ?_⟩
  have hgw := hS.grid.ghost
  have e := l4 v (hf ▸ hv) (S.rev x y z) (by
    unfold Run.memory
    simp only [gS, Ghosts.chunk]
    refine S.rev_mem (by omega) (by omega) fun h => ?_
    rw [← hd] at h
    rw [h] at hz
    simp only [if_true] at hz
    omega)
  have hms : S.memory.start = S.rev S.P.ghostWidth.toNat S.P.ghostWidth.toNat S.P.ghostWidth.toNat := by
    unfold Run.memory; rw [gS]
  rw [hms, S.shift_rev, S.cellAt_rev, S.assembled_start, place_rank hS hpx hpy hpz, S.shift_rev, gS] at e
  simp only [Ghosts.first] at e
  have hcell : (⟨((S.P.ghostWidth.toNat + x : Nat) : Int), ((S.P.ghostWidth.toNat + y : Nat) : Int),
      if S.d3 then ((S.P.ghostWidth.toNat + z : Nat) : Int) else 0⟩ : Cell) =
      ⟨S.P.ghostWidth + x, S.P.ghostWidth + y, if R.d3 then S.P.ghostWidth + z else 0⟩ := by
    rw [← hd]
    ext
    · simp only; push_cast; omega
    · simp only; push_cast; omega
    · simp only
      split_ifs
      · push_cast; omega
      · rfl
  rw [hcell] at e
  rw [e]
  have inR : ∀ {m n m' n' p t : Nat}, m * n = m' * n' → p < m' → t < n' → p * n' + t < m * n := by
    intro m n m' n' p t he hp ht
    rw [he]
    calc p * n' + t < p * n' + n' := by omega
      _ = (p + 1) * n' := by ring
      _ ≤ m' * n' := Nat.mul_le_mul_right _ hp
  have hglob : Global R (px * S.P.nx.toNat + x) (py * S.P.ny.toNat + y)
      (if R.d3 then pz * S.P.nz.toNat + z else 0) := by
    refine ⟨inR ex hpx (by omega), inR ey hpy (by omega), ?_⟩
    cases h : R.d3
    · simp
    · rw [h] at hz
      simp only [if_true] at hz ⊢
      exact inR (ez h) hpz (by omega)
  have hrev : S.rev (px * S.P.nx.toNat + x) (py * S.P.ny.toNat + y) (pz * S.P.nz.toNat + z) =
      R.rev (px * S.P.nx.toNat + x) (py * S.P.ny.toNat + y) (if R.d3 then pz * S.P.nz.toNat + z else 0) := by
    unfold Run.rev
    rw [← hd]
    cases h : R.d3 <;> simp
  rw [hrev]
  obtain ⟨r, hr, a, ha, ea⟩ := owner_box hR gR hglob
  rw [ea, (h4 v hv).2.2 r (ho.mem_iff.2 (List.mem_range.2 hr)) a ha, ← ea, atIndex_rev]
  cases h : R.d3 <;> simp

/-- Allocated cells of a run's array. -/
def Allocated (R : Run) (c : Cell) : Prop :=
  0 ≤ c.i ∧ c.i < R.P.isize ∧ 0 ≤ c.j ∧ c.j < R.P.jsize ∧ if R.d3 then 0 ≤ c.k ∧ c.k < R.P.ksize else c.k = 0

/-- The place of cell `c` of rank `r` in the files with ghost cells. -/
def inFile (R : Run) (r : Nat) (c : Cell) : Nat × Nat × Nat :=
  (R.ghosts.first (R.place r).1 R.P.nx R.P.ghostWidth + c.i.toNat,
    R.ghosts.first (R.place r).2.1 R.P.ny R.P.ghostWidth + c.j.toNat,
    if R.d3 then R.ghosts.first (R.place r).2.2 R.P.nz R.P.ghostWidth + c.k.toNat else 0)

private theorem roundtrip {R : Run} (hR : R.Well) (hF : R.Fits) (hre : R.reassemble = true) (hg : R.ghosts ≠ .none)
    {order : List Nat} (ho : order.Perm (List.range R.procs)) (U : Nat → Cell → Nat → α) (junk junk' : Nat → α)
    (fill : α) (step : Int) (time : α) (init : Cell → Nat → α) (G : Nat → Nat × Nat × Nat → α)
    (hG : ∀ v ∈ R.fields, ∀ r < R.procs, ∀ c, Allocated R c → U r c v = G v (inFile R r c)) :
    ∃ F, R.save order U junk fill step time = some F ∧ ∀ r < R.procs, ∃ L, R.load r F junk' init = some L ∧
      L.step = step ∧ L.time = time ∧ ∀ v ∈ R.fields, ∀ c, Allocated R c → L.U c v = U r c v := by
  have hor : ∀ r ∈ order, r < R.procs := fun r hr => List.mem_range.1 (ho.mem_iff.1 hr)
  have hgw := hR.grid.ghost
  have hI : R.P.isize = R.P.nx + 2 * R.P.ghostWidth := by simp only [Grid.isize, Grid.imax, Grid.imin]; ring
  have hJ : R.P.jsize = R.P.ny + 2 * R.P.ghostWidth := by simp only [Grid.jsize, Grid.jmax, Grid.jmin]; ring
  have hK : R.P.ksize = R.P.nz + 2 * R.P.ghostWidth := by simp only [Grid.ksize, Grid.kmax, Grid.kmin]; ring
  have hch : ∀ n : Int, R.ghosts.chunk n R.P.ghostWidth = (n + 2 * R.P.ghostWidth).toNat := by
    intro n; cases h : R.ghosts
    · exact absurd h hg
    · rfl
    · rfl
  have hms : R.memory.start = R.rev 0 0 0 := by
    unfold Run.memory; cases h : R.ghosts
    · exact absurd h hg
    · rfl
    · rfl
  have hcount : R.memory.count = R.rev R.P.isize.toNat R.P.jsize.toNat R.P.ksize.toNat := by
    unfold Run.memory; simp only [hch]; rw [hI, hJ, hK]
  have cell : ∀ {x y z : Nat}, x < R.P.isize.toNat → y < R.P.jsize.toNat → (R.d3 = true → z < R.P.ksize.toNat) →
      Allocated R ⟨x, y, if R.d3 then (z : Int) else 0⟩ := by
    intro x y z hx hy hz
    refine ⟨by simp, by simp only; omega, by simp, by simp only; omega, ?_⟩
    cases h : R.d3
    · simp
    · have := hz h; simp only [if_true]; omega
  have place : ∀ r x y z, shift (R.assembled r).start (R.rev x y z) =
      R.rev (inFile R r ⟨x, y, if R.d3 then (z : Int) else 0⟩).1 (inFile R r ⟨x, y, if R.d3 then (z : Int) else 0⟩).2.1
        (inFile R r ⟨x, y, if R.d3 then (z : Int) else 0⟩).2.2 := by
    intro r x y z
    rw [R.assembled_start, R.shift_rev]
    simp only [inFile, Int.toNat_natCast]
    unfold Run.rev
    cases h : R.d3 <;> simp
  have agree : ∀ v ∈ R.fields, ∀ r < R.procs, ∀ a ∈ indices R.memory.count,
      U r (R.cellAt (shift R.memory.start a)) v =
        atIndex R (fun x y z => G v (x, y, z)) fill (shift (R.assembled r).start a) := by
    intro v hv r hr a ha
    rw [hcount] at ha
    obtain ⟨x, y, z, rfl, hx, hy, hz, hz0⟩ := Run.mem_rev ha
    rw [hms, R.shift_rev, R.cellAt_rev, place, atIndex_rev, zero_add, zero_add, zero_add,
      hG v hv r hr _ (cell hx hy hz)]
    congr 1
    simp only [inFile]
    cases h : R.d3 <;> simp
  obtain ⟨F, D, h1, h2, h3, h4⟩ := save_agree hR hF hre hor U junk fill step time
    (fun v => atIndex R (fun x y z => G v (x, y, z)) fill) (fun v hv r hr a ha => agree v hv r (hor r hr) a ha)
  refine ⟨F, h1, fun r hr => ?_⟩
  obtain ⟨L, l1, l2, l3, l4⟩ := Run.load_eq hR hF hr F D (fun v hv => ⟨(h4 v hv).1, (h4 v hv).2.1⟩) junk' init
  refine ⟨L, l1, by rw [l2, h2], by rw [l3, h3], fun v hv c hc => ?_⟩
  obtain ⟨i, j, k⟩ := c
  obtain ⟨c1, c2, c3, c4, c5⟩ := hc
  simp only at c1 c2 c3 c4 c5
  have hm : R.rev i.toNat j.toNat k.toNat ∈ indices R.memory.count := by
    rw [hcount]
    refine R.rev_mem (by omega) (by omega) fun h => ?_
    rw [h] at c5; simp only [if_true] at c5; omega
  have e := l4 v hv _ hm
  rw [(h4 v hv).2.2 r (ho.mem_iff.2 (List.mem_range.2 hr)) _ hm, ← agree v hv r hr _ hm, hms, R.shift_rev,
    R.cellAt_rev, zero_add, zero_add, zero_add] at e
  have hcell : (⟨(i.toNat : Int), (j.toNat : Int), if R.d3 then (k.toNat : Int) else 0⟩ : Cell) = ⟨i, j, k⟩ := by
    ext
    · simp only; omega
    · simp only; omega
    · simp only
      cases h : R.d3
      · rw [h] at c5; simpa using c5.symm
      · rw [h] at c5; simp only [if_true] at c5 ⊢; omega
  rw [hcell] at e
  exact e

/-- **C113.**  With the ghost cells of all sub-domains in the file, every rank gets its whole array back. -/
theorem C113_all {R : Run} (hR : R.Well) (hF : R.Fits) (hre : R.reassemble = true) (hg : R.ghosts = .all)
    {order : List Nat} (ho : order.Perm (List.range R.procs)) (U : Nat → Cell → Nat → α) (junk junk' : Nat → α)
    (fill : α) (step : Int) (time : α) (init : Cell → Nat → α) :
    ∃ F, R.save order U junk fill step time = some F ∧ ∀ r < R.procs, ∃ L, R.load r F junk' init = some L ∧
      L.step = step ∧ L.time = time ∧ ∀ v ∈ R.fields, ∀ c, Allocated R c → L.U c v = U r c v := by
  have hgw := hR.grid.ghost
  have hI : R.P.isize = R.P.nx + 2 * R.P.ghostWidth := by simp only [Grid.isize, Grid.imax, Grid.imin]; ring
  have hJ : R.P.jsize = R.P.ny + 2 * R.P.ghostWidth := by simp only [Grid.jsize, Grid.jmax, Grid.jmin]; ring
  have hK : R.P.ksize = R.P.nz + 2 * R.P.ghostWidth := by simp only [Grid.ksize, Grid.kmax, Grid.kmin]; ring
  refine roundtrip hR hF hre (by rw [hg]; simp) ho U junk junk' fill step time init
    (fun v t => U (cartRank R.mx R.my R.mz ⟨(t.1 / R.P.isize.toNat : Nat), (t.2.1 / R.P.jsize.toNat : Nat),
      (if R.d3 then t.2.2 / R.P.ksize.toNat else 0 : Nat)⟩)
      ⟨(t.1 % R.P.isize.toNat : Nat), (t.2.1 % R.P.jsize.toNat : Nat),
        (if R.d3 then t.2.2 % R.P.ksize.toNat else 0 : Nat)⟩ v) ?_
  intro v hv r hr c hc
  obtain ⟨i, j, k⟩ := c
  obtain ⟨c1, c2, c3, c4, c5⟩ := hc
  simp only at c1 c2 c3 c4 c5
  obtain ⟨p1, p2, p3⟩ := R.place_lt hR hr
  have dv : ∀ {p n t : Nat}, t < n → (p * n + t) / n = p ∧ (p * n + t) % n = t := by
    intro p n t h
    rw [mul_comm]
    exact ⟨by rw [Nat.mul_add_div (by omega), Nat.div_eq_of_lt h, add_zero], by
      rw [Nat.mul_add_mod, Nat.mod_eq_of_lt h]⟩
  simp only [inFile, hg, Ghosts.first, ← hI, ← hJ, ← hK]
  have d1 := dv (p := (R.place r).1) (show i.toNat < R.P.isize.toNat by omega)
  have d2 := dv (p := (R.place r).2.1) (show j.toNat < R.P.jsize.toNat by omega)
  rw [d1.1, d1.2, d2.1, d2.2]
  cases hd : R.d3
  · rw [hd] at c5
    rw [hR.flat hd] at p3
    have hz : (R.place r).2.2 = 0 := by omega
    have hrank := rank_place hR hr
    rw [hz] at hrank
    simp only [Bool.false_eq_true, if_false] at c5 ⊢
    rw [hrank]
    congr 1
    ext
    · simp only; omega
    · simp only; omega
    · simpa using c5
  · rw [hd] at c5
    simp only [if_true] at c5 ⊢
    have d3 := dv (p := (R.place r).2.2) (show k.toNat < R.P.ksize.toNat by omega)
    rw [d3.1, d3.2, rank_place hR hr]
    congr 1
    ext
    · simp only; omega
    · simp only; omega
    · simp only; omega

/-- **C113.**  With the outer ghost cells in the file, whole arrays come back if overlapping cells hold the same numbers on
all ranks, in particular always on a single process (`C113_single`). -/
theorem C113_outer {R : Run} (hR : R.Well) (hF : R.Fits) (hre : R.reassemble = true) (hg : R.ghosts = .outer)
    {order : List Nat} (ho : order.Perm (List.range R.procs)) (U : Nat → Cell → Nat → α) (junk junk' : Nat → α)
    (fill : α) (step : Int) (time : α) (init : Cell → Nat → α)
    (same : ∀ v ∈ R.fields, ∀ r < R.procs, ∀ q < R.procs, ∀ c d, Allocated R c → Allocated R d →
      inFile R r c = inFile R q d → U r c v = U q d v) :
    ∃ F, R.save order U junk fill step time = some F ∧ ∀ r < R.procs, ∃ L, R.load r F junk' init = some L ∧
      L.step = step ∧ L.time = time ∧ ∀ v ∈ R.fields, ∀ c, Allocated R c → L.U c v = U r c v := by
  classical
  refine roundtrip hR hF hre (by rw [hg]; simp) ho U junk junk' fill step time init
    (fun v t => if h : ∃ r, r < R.procs ∧ ∃ c, Allocated R c ∧ inFile R r c = t then
      U h.choose h.choose_spec.2.choose v else fill) ?_
  intro v hv r hr c hc
  have hex : ∃ q, q < R.procs ∧ ∃ d, Allocated R d ∧ inFile R q d = inFile R r c := ⟨r, hr, c, hc, rfl⟩
  simp only [dif_pos hex]
  exact same v hv r hr _ hex.choose_spec.1 c _ hc hex.choose_spec.2.choose_spec.1 hex.choose_spec.2.choose_spec.2.symm

/-- **C113.**  One process, outer ghost cells: the whole array comes back. -/
theorem C113_single {R : Run} (hR : R.Well) (hF : R.Fits) (hre : R.reassemble = true) (hg : R.ghosts = .outer)
    (h1 : R.mx = 1) (h2 : R.my = 1) (h3 : R.mz = 1) (U : Nat → Cell → Nat → α) (junk junk' : Nat → α)
    (fill : α) (step : Int) (time : α) (init : Cell → Nat → α) :
    ∃ F, R.save [0] U junk fill step time = some F ∧ ∃ L, R.load 0 F junk' init = some L ∧
      L.step = step ∧ L.time = time ∧ ∀ v ∈ R.fields, ∀ c, Allocated R c → L.U c v = U 0 c v := by
  have hp : R.procs = 1 := by unfold Run.procs; rw [h1, h2, h3]
  obtain ⟨F, a, b⟩ := C113_outer hR hF hre hg (order := [0]) (by rw [hp]; exact List.Perm.refl _) U junk junk' fill
    step time init (by
      intro v hv r hr q hq c d hc hd e
      rw [hp] at hr hq
      have er : r = 0 := by omega
      have eq : q = 0 := by omega
      subst er eq
      obtain ⟨i, j, k⟩ := c
      obtain ⟨i', j', k'⟩ := d
      obtain ⟨c1, c2, c3, c4, c5⟩ := hc
      obtain ⟨d1, d2, d3, d4, d5⟩ := hd
      simp only at c1 c2 c3 c4 c5 d1 d2 d3 d4 d5
      simp only [inFile, Prod.mk.injEq] at e
      obtain ⟨e1, e2, e3⟩ := e
      have hk : k = k' := by
        cases h : R.d3
        · rw [h] at c5 d5; simp only [Bool.false_eq_true, if_false] at c5 d5; rw [c5, d5]
        · rw [h] at c5 d5 e3; simp only [if_true] at c5 d5 e3; omega
      rw [hk, show i = i' by omega, show j = j' by omega])
  exact ⟨F, a, b 0 (by omega)⟩

/-! ## Limits -/

private theorem writeField_dims {R : Run} {order : List Nat} {U : Nat → Cell → Nat → α} {junk : Nat → α} {fill : α} {v : Nat}
    {ds : Dataset α} (h : R.writeField order U junk fill v = some ds) : ds.dims = (R.target 0).dims := by
  have gen : ∀ (l : List Nat) (d0 d1 : Dataset α), l.foldlM (fun ds r => do
      let buf ← R.copyOut (U r) v junk
      h5Write R.memory (R.target r) buf ds) d0 = some d1 → d1.dims = d0.dims := by
    intro l
    induction l with
    | nil => intro d0 d1 h; simp at h; rw [h]
    | cons r l ih =>
      intro d0 d1 h
      rw [List.foldlM_cons] at h
      cases hb : R.copyOut (U r) v junk with
      | none => rw [hb] at h; exact absurd h (by simp)
      | some buf =>
        rw [hb] at h
        simp only [Option.bind_eq_bind, Option.bind_some] at h
        cases hw : h5Write R.memory (R.target r) buf d0 with
        | none => rw [hw] at h; exact absurd h (by simp)
        | some d2 =>
          rw [hw] at h
          rw [ih d2 d1 h]
          unfold h5Write at hw
          split_ifs at hw
          simp only [Option.some.injEq] at hw
          rw [← hw]
  exact gen order _ _ h

private theorem save_dims {R : Run} {order : List Nat} {U : Nat → Cell → Nat → α} {junk : Nat → α} {fill : α} {step : Int}
    {time : α} {F : File α} (h : R.save order U junk fill step time = some F) :
    ∃ ds, F.sets.lookup (fieldName ID) = some ds ∧ ds.dims = (R.target 0).dims := by
  unfold Run.save at h
  rw [show R.fields = ID :: ([IE, IU, IV] ++ (if R.d3 && !R.mhd then [IW] else []) ++
    (if R.mhd then [IW, IA, IB, IC] else [])) from rfl, List.mapM_cons] at h
  cases hw : R.writeField order U junk fill ID with
  | none => rw [hw] at h; exact absurd h (by simp)
  | some ds =>
    rw [hw] at h
    simp only [Option.bind_eq_bind, Option.bind_some, Option.pure_def, Option.bind_assoc] at h
    obtain ⟨rest, -, hr⟩ := Option.bind_eq_some_iff.1 h
    simp only [Option.some.injEq] at hr
    refine ⟨ds, ?_, writeField_dims hw⟩
    rw [← hr]
    simp

/-- **C114.**  Files whose extents are not those the reader expects cannot be read: the configuration of the reader
decides where it looks, not the file. -/
theorem C114_mismatch {R S : Run} {order : List Nat} {U : Nat → Cell → Nat → α} {junk : Nat → α} {fill : α} {step : Int}
    {time : α} {F : File α} (h : R.save order U junk fill step time = some F)
    (hd : (R.target 0).dims ≠ (S.assembled 0).dims) (r : Nat) (junk' : Nat → α) (init : Cell → Nat → α) :
    S.load r F junk' init = none := by
  obtain ⟨ds, h1, h2⟩ := save_dims h
  have hr : h5Read S.memory (S.assembled r) ds junk' = none := by
    unfold h5Read
    refine if_neg fun hc => hd ?_
    rw [← h2, ← hc.2.2.1]; rfl
  unfold Run.load
  cases Vtk.mulInts S.factors with
  | none => rfl
  | some n =>
    rw [show S.fields = ID :: ([IE, IU, IV] ++ (if S.d3 && !S.mhd then [IW] else []) ++
      (if S.mhd then [IW, IA, IB, IC] else [])) from rfl, List.foldlM_cons]
    simp only [Run.readField, h1, Option.bind_eq_bind, Option.bind_some, hr, Option.bind_none]

/-- **C114.**  With `output/reassembleInFile=no` a run with several sub-domains along x (or y in 3D) writes files from which
it cannot restart. -/
theorem C114_stacked {R : Run} (hR : R.Well) (hre : R.reassemble = false) (hm : 1 < R.mx ∨ R.d3 = true ∧ 1 < R.my)
    {order : List Nat} {U : Nat → Cell → Nat → α} {junk : Nat → α} {fill : α} {step : Int}
    {time : α} {F : File α} (h : R.save order U junk fill step time = some F) (r : Nat) (junk' : Nat → α)
    (init : Cell → Nat → α) : R.load r F junk' init = none := by
  refine C114_mismatch h (fun e => ?_) r junk' init
  have hx := hR.grid.nx; have hy := hR.grid.ny; have hgw := hR.grid.ghost
  have key : ∀ (m : Nat) (n : Int), 1 ≤ n → 1 < m → R.ghosts.chunk n R.P.ghostWidth ≠ R.ghosts.whole m n R.P.ghostWidth := by
    intro m n hn hm
    cases hgg : R.ghosts
    · simp only [Ghosts.chunk, Ghosts.whole]
      have : 1 ≤ n.toNat := by omega
      nlinarith
    · simp only [Ghosts.chunk, Ghosts.whole]
      have : 1 ≤ n.toNat := by omega
      have : (n + 2 * R.P.ghostWidth).toNat = n.toNat + 2 * R.P.ghostWidth.toNat := by omega
      nlinarith
    · simp only [Ghosts.chunk, Ghosts.whole]
      have : 1 ≤ (n + 2 * R.P.ghostWidth).toNat := by omega
      nlinarith
  unfold Run.target at e
  rw [hre] at e
  simp only [Bool.false_eq_true, if_false] at e
  rw [R.assembled_dims] at e
  simp only [Run.stacked, Run.rev] at e
  rcases hm with hm | ⟨hd, hm⟩
  · cases hd : R.d3
    · rw [hd] at e; simp at e; exact key _ _ hx hm e.2
    · rw [hd] at e; simp at e; exact key _ _ hx hm e.2.2
  · rw [hd] at e; simp at e; exact key _ _ hy hm e.2.1

/-- **C114.**  A file with ghost cells cannot be read by a run configured without them, and the other way round. -/
theorem C114_ghosts {R S : Run} (hR : R.Well) (hS : S.Well) (hre : R.reassemble = true) (hd : R.d3 = S.d3)
    (hgw : 1 ≤ R.P.ghostWidth) (hgw' : 1 ≤ S.P.ghostWidth) (ex : R.mx * R.P.nx.toNat = S.mx * S.P.nx.toNat)
    (hg : R.ghosts = .none ∧ S.ghosts ≠ .none ∨ R.ghosts ≠ .none ∧ S.ghosts = .none)
    {order : List Nat} {U : Nat → Cell → Nat → α} {junk : Nat → α} {fill : α} {step : Int}
    {time : α} {F : File α} (h : R.save order U junk fill step time = some F) (r : Nat) (junk' : Nat → α)
    (init : Cell → Nat → α) : S.load r F junk' init = none := by
  refine C114_mismatch h (fun e => ?_) r junk' init
  have big : ∀ (T : Run), T.Well → 1 ≤ T.P.ghostWidth → T.ghosts ≠ .none →
      T.mx * T.P.nx.toNat < T.ghosts.whole T.mx T.P.nx T.P.ghostWidth := by
    intro T hT h1 h2
    have := hT.mx; have := hT.grid.nx
    cases hgg : T.ghosts
    · exact absurd hgg h2
    · simp only [Ghosts.whole]; omega
    · simp only [Ghosts.whole]
      have : T.P.nx.toNat + 2 ≤ (T.P.nx + 2 * T.P.ghostWidth).toNat := by omega
      nlinarith
  unfold Run.target at e
  rw [hre] at e
  simp only [if_true] at e
  rw [R.assembled_dims, S.assembled_dims] at e
  have e1 : R.ghosts.whole R.mx R.P.nx R.P.ghostWidth = S.ghosts.whole S.mx S.P.nx S.P.ghostWidth := by
    unfold Run.rev at e
    rw [← hd] at e
    cases h3 : R.d3
    · rw [h3] at e; simp at e; exact e.2
    · rw [h3] at e; simp at e; exact e.2.2
  rcases hg with ⟨a, b⟩ | ⟨a, b⟩
  · have := big S hS hgw' b
    rw [← e1, a] at this; simp only [Ghosts.whole] at this; omega
  · have := big R hR hgw a
    rw [e1, b] at this; simp only [Ghosts.whole] at this; omega

/-- **C114.**  Large `LayoutLeft` arrays: as soon as `isize*jsize*ksize*nvar` exceeds an `int` for a field, nothing is known of what is written. -/
theorem C114_overflow {R : Run} (hP : Vtk.Sound R.d3 R.P) (hl : R.layout = .left) (ht : R.total ≤ 2147483647) {v : Nat}
    (hv : v ∈ R.fields) (hbig : 2147483647 < R.total * v) {order : List Nat} (ho : order ≠ []) (U : Nat → Cell → Nat → α)
    (junk : Nat → α) (fill : α) (step : Int) (time : α) : R.save order U junk fill step time = none := by
  have hcopy : ∀ r, R.copyOut (U r) v junk = none := by
    intro r
    unfold Run.copyOut
    rw [hl]
    simp only
    have hf := Run.factors_some hP ht
    have hn : Vtk.mulInts (R.factors ++ [(v : Int)]) = none := by
      have hne := R.factors_ne
      cases hfl : R.factors with
      | nil => exact absurd hfl hne
      | cons x xs =>
        rw [hfl] at hf
        simp only [List.cons_append, Vtk.mulInts] at hf ⊢
        rw [List.foldlM_append, hf]
        show (int32 (R.total * v)).bind (fun x => some x) = _
        have : int32 (R.total * v) = none := by unfold int32 isInt32; simp; omega
        rw [this]; rfl
    rw [hn]; rfl
  have hw : R.writeField order U junk fill v = none := by
    cases order with
    | nil => exact absurd rfl ho
    | cons r rs =>
      unfold Run.writeField
      rw [List.foldlM_cons, hcopy r]; rfl
  unfold Run.save
  rw [Vtk.mapM_none R.fields _ v hv (by rw [hw]; rfl)]
  rfl

private theorem save_last {R : Run} (hR : R.Well) (hF : R.Fits) (hre : R.reassemble = true) {order : List Nat} {r : Nat}
    (ho : ∀ q ∈ order ++ [r], q < R.procs) (U : Nat → Cell → Nat → α) (junk : Nat → α) (fill : α) (step : Int) (time : α) :
    ∃ (F : File α) (D : Nat → Dataset α), R.save (order ++ [r]) U junk fill step time = some F ∧
      ∀ v ∈ R.fields, F.sets.lookup (fieldName v) = some (D v) ∧ (D v).dims = (R.assembled 0).dims ∧
        ∀ a ∈ indices R.memory.count,
          (D v).data (shift (R.assembled r).start a) = U r (R.cellAt (shift R.memory.start a)) v := by
  classical
  have h := fun v (hv : v ∈ R.fields) => Run.writeField_last hR hF hre ho U junk fill hv
  let D : Nat → Dataset α := fun v => if hv : v ∈ R.fields then (h v hv).choose else ⟨[], fun _ => fill⟩
  have hD : ∀ v (hv : v ∈ R.fields), D v = (h v hv).choose := fun v hv => dif_pos hv
  refine ⟨⟨R.fields.map fun v => (fieldName v, D v), step, time⟩, D, ?_, fun v hv => ⟨?_, ?_, ?_⟩⟩
  · unfold Run.save
    rw [Vtk.mapM_some R.fields _ (fun v => (fieldName v, D v)) (fun v hv => by
      rw [(h v hv).choose_spec.1, hD v hv]; rfl)]
    rfl
  · exact Vtk.lookup_arrays fieldName D R.fields
      (fun u hu w hw e => fieldName_injective (fields_lt hu) (fields_lt hw) e) v hv
  · rw [hD v hv]; exact (h v hv).choose_spec.2.1
  · rw [hD v hv]; exact (h v hv).choose_spec.2.2

/-- **C114.**  With ghost cells in the file, the last rank to write wins: whoever reads an element of its box gets its number. -/
theorem C114_last {R : Run} (hR : R.Well) (hF : R.Fits) (hre : R.reassemble = true) (hg : R.ghosts ≠ .none)
    {order : List Nat} {r : Nat} (ho : ∀ q ∈ order ++ [r], q < R.procs) (U : Nat → Cell → Nat → α) (junk junk' : Nat → α)
    (fill : α) (step : Int) (time : α) (init : Cell → Nat → α) :
    ∃ F, R.save (order ++ [r]) U junk fill step time = some F ∧ ∀ q < R.procs, ∃ L, R.load q F junk' init = some L ∧
      ∀ v ∈ R.fields, ∀ c d, Allocated R c → Allocated R d → inFile R q c = inFile R r d → L.U c v = U r d v := by
  have hgw := hR.grid.ghost
  have hI : R.P.isize = R.P.nx + 2 * R.P.ghostWidth := by simp only [Grid.isize, Grid.imax, Grid.imin]; ring
  have hJ : R.P.jsize = R.P.ny + 2 * R.P.ghostWidth := by simp only [Grid.jsize, Grid.jmax, Grid.jmin]; ring
  have hK : R.P.ksize = R.P.nz + 2 * R.P.ghostWidth := by simp only [Grid.ksize, Grid.kmax, Grid.kmin]; ring
  have hch : ∀ n : Int, R.ghosts.chunk n R.P.ghostWidth = (n + 2 * R.P.ghostWidth).toNat := by
    intro n; cases h : R.ghosts
    · exact absurd h hg
    · rfl
    · rfl
  have hms : R.memory.start = R.rev 0 0 0 := by
    unfold Run.memory; cases h : R.ghosts
    · exact absurd h hg
    · rfl
    · rfl
  have hcount : R.memory.count = R.rev R.P.isize.toNat R.P.jsize.toNat R.P.ksize.toNat := by
    unfold Run.memory; simp only [hch]; rw [hI, hJ, hK]
  have box : ∀ q c, Allocated R c → R.rev c.i.toNat c.j.toNat c.k.toNat ∈ indices R.memory.count ∧
      R.cellAt (shift R.memory.start (R.rev c.i.toNat c.j.toNat c.k.toNat)) = c ∧
      shift (R.assembled q).start (R.rev c.i.toNat c.j.toNat c.k.toNat) =
        R.rev (inFile R q c).1 (inFile R q c).2.1 (inFile R q c).2.2 := by
    rintro q ⟨i, j, k⟩ ⟨c1, c2, c3, c4, c5⟩
    simp only at c1 c2 c3 c4 c5 ⊢
    refine ⟨?_, ?_, ?_⟩
    · rw [hcount]
      refine R.rev_mem (by omega) (by omega) fun h => ?_
      rw [h] at c5; simp only [if_true] at c5; omega
    · rw [hms, R.shift_rev, R.cellAt_rev, zero_add, zero_add, zero_add]
      ext
      · simp only; omega
      · simp only; omega
      · simp only
        cases h : R.d3
        · rw [h] at c5; simpa using c5.symm
        · rw [h] at c5; simp only [if_true] at c5 ⊢; omega
    · rw [R.assembled_start, R.shift_rev]
      simp only [inFile]
      unfold Run.rev
      cases h : R.d3 <;> simp
  obtain ⟨F, D, h1, h4⟩ := save_last hR hF hre ho U junk fill step time
  refine ⟨F, h1, fun q hq => ?_⟩
  obtain ⟨L, l1, -, -, l4⟩ := Run.load_eq hR hF hq F D (fun v hv => ⟨(h4 v hv).1, (h4 v hv).2.1⟩) junk' init
  refine ⟨L, l1, fun v hv c d hc hd e => ?_⟩
  obtain ⟨a1, a2, a3⟩ := box q c hc
  obtain ⟨b1, b2, b3⟩ := box r d hd
  have x := l4 v hv _ a1
  have y := (h4 v hv).2.2 _ b1
  rw [a2, a3, e] at x
  rw [b2, b3] at y
  rw [x, y]

/-- Two processes side by side. -/
def pair (g : Ghosts) : Run where
  d3 := false
  mhd := false
  layout := .right
  ghosts := g
  reassemble := true
  P := { nx := 2, ny := 2, nz := 1, ghostWidth := 2, nbvar := 4, boundary_type_xmin := 1, boundary_type_xmax := 1,
         boundary_type_ymin := 1, boundary_type_ymax := 1, boundary_type_zmin := 1, boundary_type_zmax := 1 }
  mx := 2
  my := 1
  mz := 1

theorem pair_well (g : Ghosts) : (pair g).Well :=
  ⟨⟨by simp [pair], by simp [pair], by simp [pair], by simp [pair]⟩, by simp [pair], by simp [pair], by simp [pair],
    by simp [pair]⟩

theorem pair_fits (g : Ghosts) : (pair g).Fits :=
  ⟨by simp [pair, Run.total, Grid.isize, Grid.imax, Grid.imin, Grid.jsize, Grid.jmax, Grid.jmin], by simp [pair]⟩

/-- **C114.**  With outer ghost cells in the file and several processes the boxes of neighbours overlap over inner cells:
on two processes side by side, each with its own number everywhere, the second process reads back its own
number for an inner cell if it wrote last, and the first process's number otherwise. -/
theorem C114_race : ∃ F G, (pair .outer).save [0, 1] (fun r _ _ => r) (fun _ => 7) 7 0 0 = some F ∧
    (pair .outer).save [1, 0] (fun r _ _ => r) (fun _ => 7) 7 0 0 = some G ∧
    ∃ L M, (pair .outer).load 1 F (fun _ => 7) (fun _ _ => 7) = some L ∧
      (pair .outer).load 1 G (fun _ => 7) (fun _ _ => 7) = some M ∧ L.U ⟨2, 2, 0⟩ ID = 1 ∧ M.U ⟨2, 2, 0⟩ ID = 0 := by
  have hp : (pair .outer).procs = 2 := rfl
  obtain ⟨F, f1, f2⟩ := C114_last (pair_well .outer) (pair_fits .outer) rfl (by simp [pair]) (order := [0]) (r := 1)
    (by simp [hp]) (fun r _ _ => r) (fun _ => 7) (fun _ => 7) 7 0 0 (fun _ _ => 7)
  obtain ⟨G, g1, g2⟩ := C114_last (pair_well .outer) (pair_fits .outer) rfl (by simp [pair]) (order := [1]) (r := 0)
    (by simp [hp]) (fun r _ _ => r) (fun _ => 7) (fun _ => 7) 7 0 0 (fun _ _ => 7)
  obtain ⟨L, l1, l2⟩ := f2 1 (by rw [hp]; omega)
  obtain ⟨M, m1, m2⟩ := g2 1 (by rw [hp]; omega)
  have al : ∀ i : Int, 0 ≤ i → i < 6 → Allocated (pair .outer) ⟨i, 2, 0⟩ := by
    intro i h0 h1
    simp [Allocated, pair, Grid.isize, Grid.imax, Grid.imin, Grid.jsize, Grid.jmax, Grid.jmin]
    omega
  refine ⟨F, G, f1, g1, L, M, l1, m1, ?_, ?_⟩
  · exact l2 ID (by simp [Run.fields]) ⟨2, 2, 0⟩ ⟨2, 2, 0⟩ (al 2 (by omega) (by omega)) (al 2 (by omega) (by omega)) rfl
  · exact m2 ID (by simp [Run.fields]) ⟨2, 2, 0⟩ ⟨4, 2, 0⟩ (al 2 (by omega) (by omega)) (al 4 (by omega) (by omega)) rfl

/-! ## The hypotheses are satisfiable -/

example : (pair .none).Well ∧ (pair .none).Fits ∧ (pair .none).reassemble = true ∧
    [1, 0].Perm (List.range (pair .none).procs) :=
  ⟨pair_well _, pair_fits _, rfl, List.Perm.swap 0 1 []⟩

/-- A 3D MHD run that fits, and one that does not. -/
def cube (n : Int) (g : Ghosts) (m : Nat) : Run where
  d3 := true
  mhd := true
  layout := .left
  ghosts := g
  reassemble := true
  P := { nx := n, ny := n, nz := n, ghostWidth := 3, nbvar := 8, boundary_type_xmin := 1, boundary_type_xmax := 1,
         boundary_type_ymin := 1, boundary_type_ymax := 1, boundary_type_zmin := 1, boundary_type_zmax := 1 }
  mx := m
  my := m
  mz := m

/-- One process with 32³ cells restarts from a file of 8 processes with 16³ cells. -/
example : (cube 16 .none 2).Well ∧ (cube 16 .none 2).Fits ∧ (cube 32 .none 1).Well ∧ (cube 32 .none 1).Fits ∧
    (cube 16 .none 2).mx * (cube 16 .none 2).P.nx.toNat = (cube 32 .none 1).mx * (cube 32 .none 1).P.nx.toNat := by
  refine ⟨⟨⟨?_, ?_, ?_, ?_⟩, ?_, ?_, ?_, ?_⟩, ⟨?_, ?_⟩, ⟨⟨?_, ?_, ?_, ?_⟩, ?_, ?_, ?_, ?_⟩, ⟨?_, ?_⟩, ?_⟩ <;>
    simp [cube, Run.total, Run.fields, Grid.isize, Grid.imax, Grid.imin, Grid.jsize, Grid.jmax, Grid.jmin, Grid.ksize,
      Grid.kmax, Grid.kmin, ID, IE, IU, IV, IW, IA, IB, IC]

/-- 680³ cells per process. -/
example : Vtk.Sound (cube 680 .none 1).d3 (cube 680 .none 1).P ∧ (cube 680 .none 1).total ≤ 2147483647 ∧
    IC ∈ (cube 680 .none 1).fields ∧ 2147483647 < (cube 680 .none 1).total * IC := by
  refine ⟨⟨?_, ?_, ?_, ?_⟩, ?_, ?_, ?_⟩ <;>
    simp [cube, Run.total, Run.fields, Grid.isize, Grid.imax, Grid.imin, Grid.jsize, Grid.jmax, Grid.jmin, Grid.ksize,
      Grid.kmax, Grid.kmin, ID, IE, IU, IV, IW, IA, IB, IC]

/-- Agreement on the overlap is possible with numbers that are not all equal: each cell holds its place in the file. -/
example : ∀ v ∈ (pair .outer).fields, ∀ r < (pair .outer).procs, ∀ q < (pair .outer).procs, ∀ c d,
    Allocated (pair .outer) c → Allocated (pair .outer) d → inFile (pair .outer) r c = inFile (pair .outer) q d →
    (fun r c _ => inFile (pair .outer) r c : Nat → Cell → Nat → _) r c v =
      (fun r c _ => inFile (pair .outer) r c : Nat → Cell → Nat → _) q d v :=
  fun _ _ _ _ _ _ _ _ _ _ h => h

private theorem stacked_inside {R : Run} (hR : R.Well) {r : Nat} (hr : r < R.procs) : (R.stacked r).inside = true := by
  rw [inside_iff]
  unfold Run.stacked Run.memory
  refine ⟨R.length_rev .., R.length_rev .., ?_⟩
  simp only
  rw [R.shift_rev]
  have key : ∀ c, r * c + c ≤ c * R.procs := fun c => by
    calc r * c + c = c * (r + 1) := by ring
      _ ≤ _ := Nat.mul_le_mul_left c hr
  refine R.le_rev (by omega) ?_ fun hd => key _
  cases hd : R.d3
  · simp only [Bool.false_eq_true, if_false]
    have hp : R.procs = R.mx * R.my := by unfold Run.procs; rw [hR.flat hd, mul_one]
    rw [← hp]; exact key _
  · simp

/-- Number of entries in one direction that a rank contributes to a file. -/
def pieceSize (R : Run) (n : Int) : Nat :=
  if R.ghosts = .none then n.toNat else (n + 2 * R.P.ghostWidth).toNat

/-- Entry `x` of a piece is entry `x` of the array, or the inner cell number `x`. -/
def pieceCell (R : Run) (x : Nat) : Int := if R.ghosts = .none then R.P.ghostWidth + x else x

private theorem chunk_pieceSize (R : Run) (n : Int) : R.ghosts.chunk n R.P.ghostWidth = pieceSize R n := by
  unfold pieceSize
  cases R.ghosts <;> rfl

/-- **C112.**  With `output/reassembleInFile=no` the file holds the pieces of the ranks one after the other along the
last direction, in the order of the ranks, each complete, whatever the order of the stores. -/
theorem C112_pieces {R : Run} (hR : R.Well) (hF : R.Fits) (hre : R.reassemble = false)
    {order : List Nat} (ho : order.Perm (List.range R.procs)) (U : Nat → Cell → Nat → α) (junk : Nat → α) (fill : α)
    (step : Int) (time : α) :
    ∃ F, R.save order U junk fill step time = some F ∧ F.step = step ∧ F.time = time ∧ ∀ v ∈ R.fields,
      F.extent (fieldName v) = some (if R.d3
        then [pieceSize R R.P.nx, pieceSize R R.P.ny, R.procs * pieceSize R R.P.nz]
        else [pieceSize R R.P.nx, R.procs * pieceSize R R.P.ny]) ∧
      ∀ r < R.procs, ∀ x < pieceSize R R.P.nx, ∀ y < pieceSize R R.P.ny,
        (R.d3 = false → F.value false (fieldName v) x (r * pieceSize R R.P.ny + y) 0 =
          some (U r ⟨pieceCell R x, pieceCell R y, 0⟩ v)) ∧
        (R.d3 = true → ∀ z < pieceSize R R.P.nz, F.value true (fieldName v) x y (r * pieceSize R R.P.nz + z) =
          some (U r ⟨pieceCell R x, pieceCell R y, pieceCell R z⟩ v)) := by
  classical
  have hgw := hR.grid.ghost
  have hor : ∀ r ∈ order, r < R.procs := fun r hr => List.mem_range.1 (ho.mem_iff.1 hr)
  have ht : ∀ r, R.target r = R.stacked r := fun r => by unfold Run.target; rw [hre]; rfl
  have hst : ∀ r, (R.stacked r).start =
      R.rev 0 (if R.d3 then 0 else r * pieceSize R R.P.ny) (r * pieceSize R R.P.nz) := fun r => by
    unfold Run.stacked; simp only [chunk_pieceSize]
  have hcount : R.memory.count = R.rev (pieceSize R R.P.nx) (pieceSize R R.P.ny) (pieceSize R R.P.nz) := by
    unfold Run.memory; simp only [chunk_pieceSize]
  have hcell : ∀ x y z, R.cellAt (shift R.memory.start (R.rev x y z)) =
      ⟨pieceCell R x, pieceCell R y, if R.d3 then pieceCell R z else 0⟩ := by
    intro x y z
    obtain ⟨s, es, hs⟩ := R.memory_start
    rw [es, R.shift_rev, R.cellAt_rev]
    have e : ∀ t : Nat, ((s + t : Nat) : Int) = pieceCell R t := by
      intro t
      unfold pieceCell
      rcases hs with ⟨h1, h2⟩ | ⟨h1, h2⟩
      · rw [if_neg h2, h1]; simp
      · rw [if_pos h2, h1]; push_cast; omega
    rw [e, e, e]
  have dv : ∀ {p n t : Nat}, t < n → (p * n + t) / n = p ∧ (p * n + t) % n = t := by
    intro p n t h
    rw [mul_comm]
    exact ⟨by rw [Nat.mul_add_div (by omega), Nat.div_eq_of_lt h, add_zero], by
      rw [Nat.mul_add_mod, Nat.mod_eq_of_lt h]⟩
  let W : Nat → Nat → Nat → Nat → α := fun v x y z =>
    if R.d3 then U (z / pieceSize R R.P.nz) ⟨pieceCell R x, pieceCell R y, pieceCell R (z % pieceSize R R.P.nz)⟩ v
    else U (y / pieceSize R R.P.ny) ⟨pieceCell R x, pieceCell R (y % pieceSize R R.P.ny), 0⟩ v
  have hW : ∀ v r x y z, x < pieceSize R R.P.nx → y < pieceSize R R.P.ny → (R.d3 = true → z < pieceSize R R.P.nz) →
      atIndex R (W v) fill (shift (R.stacked r).start (R.rev x y z)) =
        U r ⟨pieceCell R x, pieceCell R y, if R.d3 then pieceCell R z else 0⟩ v := by
    intro v r x y z hx hy hz
    rw [hst, R.shift_rev, atIndex_rev]
    simp only [W]
    cases hd : R.d3
    · simp only [Bool.false_eq_true, if_false, Nat.zero_add]
      rw [(dv hy).1, (dv hy).2]
    · simp only [if_true, Nat.zero_add]
      rw [(dv (hz hd)).1, (dv (hz hd)).2]
  have h := fun v (hv : v ∈ R.fields) => Run.writeField_target hR hF
    (fun r hr => by rw [ht]; exact stacked_inside hR hr) hor U junk fill hv (atIndex R (W v) fill)
    (fun r hr a ha => by
      rw [hcount] at ha
      obtain ⟨x, y, z, rfl, hx, hy, hz, -⟩ := Run.mem_rev ha
      rw [hcell, ht, hW v r x y z hx hy hz])
  let D : Nat → Dataset α := fun v => if hv : v ∈ R.fields then (h v hv).choose else ⟨[], fun _ => fill⟩
  have hD : ∀ v (hv : v ∈ R.fields), D v = (h v hv).choose := fun v hv => dif_pos hv
  refine ⟨⟨R.fields.map fun v => (fieldName v, D v), step, time⟩, ?_, rfl, rfl, fun v hv => ?_⟩
  · unfold Run.save
    rw [Vtk.mapM_some R.fields _ (fun v => (fieldName v, D v)) (fun v hv => by
      rw [(h v hv).choose_spec.1, hD v hv]; rfl)]
    rfl
  have l1 := Vtk.lookup_arrays fieldName D R.fields
      (fun u hu w hw e => fieldName_injective (fields_lt hu) (fields_lt hw) e) v hv
  have l2 := (h v hv).choose_spec.2.1
  have l3 := (h v hv).choose_spec.2.2
  rw [← hD v hv] at l2 l3
  have hdims : (R.stacked 0).dims = R.rev (pieceSize R R.P.nx)
      (if R.d3 then pieceSize R R.P.ny else R.procs * pieceSize R R.P.ny) (R.procs * pieceSize R R.P.nz) := by
    unfold Run.stacked
    simp only [chunk_pieceSize]
    have e1 : pieceSize R R.P.nz * (R.mx * R.my * R.mz) = R.procs * pieceSize R R.P.nz := mul_comm _ _
    rw [e1]
    cases hd : R.d3
    · have hp : R.procs = R.mx * R.my := by unfold Run.procs; rw [hR.flat hd, mul_one]
      simp only [Bool.false_eq_true, if_false]
      rw [hp, mul_comm (pieceSize R R.P.ny)]
    · rfl
  rw [ht, hdims] at l2
  have room : ∀ r < R.procs, ∀ c, ∀ t < c, r * c + t < R.procs * c := by
    intro r hr c t htc
    calc r * c + t < r * c + c := by omega
      _ = (r + 1) * c := by ring
      _ ≤ _ := Nat.mul_le_mul_right c hr
  refine ⟨?_, fun r hr x hx y hy => ⟨fun hd => ?_, fun hd z hz => ?_⟩⟩
  · rw [File.extent, l1, Option.map_some, l2]
    unfold Run.rev
    cases hd : R.d3 <;> rfl
  · have e : R.rev x (r * pieceSize R R.P.ny + y) 0 = shift (R.target r).start (R.rev x y 0) := by
      rw [ht, hst, R.shift_rev]; unfold Run.rev; rw [hd]; simp
    have := value_eq (F := ⟨R.fields.map fun v => (fieldName v, D v), step, time⟩) l1 l2 (x := x)
      (y := r * pieceSize R R.P.ny + y) (z := 0) hx (by rw [hd]; exact room r hr _ y hy) (fun h => by rw [hd] at h; cases h)
    rw [hd] at this
    rw [this, e, l3 r (ho.mem_iff.2 (List.mem_range.2 hr)) _ (by
      rw [hcount]; exact R.rev_mem hx hy (fun h => by rw [hd] at h; cases h)), ht,
      hW v r x y 0 hx hy (fun h => by rw [hd] at h; cases h), hd]
    rfl
  · have e : R.rev x y (r * pieceSize R R.P.nz + z) = shift (R.target r).start (R.rev x y z) := by
      rw [ht, hst, R.shift_rev]; unfold Run.rev; rw [hd]; simp
    have := value_eq (F := ⟨R.fields.map fun v => (fieldName v, D v), step, time⟩) l1 l2 (x := x)
      (y := y) (z := r * pieceSize R R.P.nz + z) hx (by rw [hd]; exact hy) (fun _ => room r hr _ z hz)
    rw [hd] at this
    rw [this, e, l3 r (ho.mem_iff.2 (List.mem_range.2 hr)) _ (by
      rw [hcount]; exact R.rev_mem hx hy (fun _ => hz)), ht, hW v r x y z hx hy (fun _ => hz), hd]
    rfl

/-- Two ranks, pieces stacked. -/
example : ({ pair .none with reassemble := false }).Well ∧ ({ pair .none with reassemble := false }).Fits ∧
    [1, 0].Perm (List.range ({ pair .none with reassemble := false }).procs) :=
  ⟨⟨(pair_well .none).grid, (pair_well .none).mx, (pair_well .none).my, (pair_well .none).mz, (pair_well .none).flat⟩,
    ⟨(pair_fits .none).1, (pair_fits .none).2⟩, List.Perm.swap 0 1 []⟩

/-- A stacked file is written (so that `C114_stacked` is about something). -/
example : ∃ F, ({ pair .none with reassemble := false }).save [0, 1] (fun r _ _ => r) (fun _ => 7) 7 0 0 = some F := by
  refine ⟨_, rfl⟩

end Verif.Hdf5
