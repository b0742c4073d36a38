import Verif.Lemmas.Hdf5
import Verif.Model.Hdf5Upscale
import Verif.Spec.Hdf5Upscale
import Verif.Lemmas.RealOps

/-!
# Lemmas for the restart from half the resolution
-/

namespace Verif.Hdf5

variable {α : Type}

/-- A read changes nothing outside the box. -/
theorem h5Read_other {mem file : Space} (hc : mem.count = file.count) {ds : Dataset α} {buf b : Nat → α}
    (h : h5Read mem file ds buf = some b) {n : Nat} (hn : ∀ a ∈ indices mem.count, n ≠ lin mem.dims (shift mem.start a)) :
    b n = buf n := by
  unfold h5Read at h
  split_ifs at h
  simp only [Option.some.injEq] at h
  rw [← h, zip_selected hc.symm, List.map_map]
  have : ∀ (l : List (Nat × α)) (f : Nat → α), (∀ p ∈ l, p.1 ≠ n) → scatter f l n = f n := by
    intro l
    induction l with
    | nil => intro f _; rfl
    | cons p ps ih =>
      intro f hp
      rw [show scatter f (p :: ps) = scatter (Function.update f p.1 p.2) ps from rfl,
        ih _ (fun q hq => hp q (List.mem_cons_of_mem _ hq)), Function.update_of_ne (hp p List.mem_cons_self).symm]
  refine this _ _ fun p hp => ?_
  obtain ⟨a, ha, rfl⟩ := List.mem_map.1 hp
  exact (hn a ha).symm

section
variable [ROps α]

/-- Reading at half resolution: every field is computed from a buffer that holds the box of the rank, and what
was in memory elsewhere. -/
theorem Run.loadHalf_eq {R : Run} (hH : R.half.Well) (hf : Vtk.mulInts R.factors = some R.total)
    (hin : ∀ v ∈ R.fields, R.halfInside v R.total = true) {r : Nat} (hr : r < R.half.procs) (F : File α)
    (D : Nat → Dataset α)
    (hD : ∀ v ∈ R.fields, F.sets.lookup (fieldName v) = some (D v) ∧ (D v).dims = (R.half.assembled 0).dims)
    (junk : Nat → α) (init : Cell → Nat → α) :
    ∃ (L : Loaded α) (b : Nat → Nat → α), R.loadHalf r F junk init = some L ∧ L.step = F.step ∧ L.time = F.time ∧
      (∀ v ∈ R.fields, (∀ a ∈ indices R.half.memory.count, b v (lin R.half.memory.dims (shift R.half.memory.start a)) =
        (D v).data (shift (R.half.assembled r).start a)) ∧
        (∀ n, (∀ a ∈ indices R.half.memory.count, n ≠ lin R.half.memory.dims (shift R.half.memory.start a)) →
          b v n = junk n)) ∧
      ∀ v ∈ R.fields, ∀ c, R.has c = true → L.U c v = R.halfValue (b v) v c := by
  have gen : ∀ (l : List Nat), (∀ v ∈ l, v ∈ R.fields) → ∀ st : (Nat → α) × (Cell → Nat → α),
      (∀ n, (∀ a ∈ indices R.half.memory.count, n ≠ lin R.half.memory.dims (shift R.half.memory.start a)) →
        st.1 n = junk n) →
      ∃ (st' : (Nat → α) × (Cell → Nat → α)) (b : Nat → Nat → α), l.foldlM (R.readHalf r F) st = some st' ∧
        (∀ v ∈ l, (∀ a ∈ indices R.half.memory.count, b v (lin R.half.memory.dims (shift R.half.memory.start a)) =
          (D v).data (shift (R.half.assembled r).start a)) ∧
          (∀ n, (∀ a ∈ indices R.half.memory.count, n ≠ lin R.half.memory.dims (shift R.half.memory.start a)) →
            b v n = junk n)) ∧
        (∀ v ∈ l, ∀ c, R.has c = true → st'.2 c v = R.halfValue (b v) v c) ∧
        ∀ v, v ∉ l → ∀ c, st'.2 c v = st.2 c v := by
    intro l
    induction l with
    | nil => intro _ st _; exact ⟨st, fun _ => junk, rfl, by simp, by simp, fun _ _ _ => rfl⟩
    | cons v vs ih =>
      intro hl st hst
      have hv := hl v List.mem_cons_self
      obtain ⟨e1, e2⟩ := hD v hv
      obtain ⟨b, hb, hbv⟩ := h5Read_eq (R.half.memory_inside hH) (R.half.assembled_inside hH hr)
        (rfl : R.half.memory.count = (R.half.assembled r).count) (ds := D v) (by rw [e2]; rfl) st.1
      have hbo : ∀ n, (∀ a ∈ indices R.half.memory.count,
          n ≠ lin R.half.memory.dims (shift R.half.memory.start a)) → b n = junk n := by
        intro n hn
        rw [h5Read_other (mem := R.half.memory) (file := R.half.assembled r) rfl hb hn, hst n hn]
      let U' : Cell → Nat → α := fun c w => if w = v ∧ R.has c then R.halfValue b v c else st.2 c w
      have hU : R.copyHalf b v st.2 = some U' := by
        unfold Run.copyHalf
        rw [hf]
        simp only [Option.bind_eq_bind, Option.bind_some]
        rw [if_pos (hin v hv)]
        rfl
      obtain ⟨st', bs, h1, h2, h3, h4⟩ := ih (fun q hq => hl q (List.mem_cons_of_mem _ hq)) (b, U') hbo
      have hstep : R.readHalf r F st v = some (b, U') := by
        unfold Run.readHalf
        rw [e1]
        show (h5Read _ _ (D v) st.1).bind _ = _
        rw [hb]
        show (R.copyHalf b v st.2).bind _ = _
        rw [hU]; rfl
      refine ⟨st', fun w => if w ∈ vs then bs w else b, ?_, ?_, ?_, ?_⟩
      · rw [List.foldlM_cons, hstep]; exact h1
      · intro w hw
        by_cases hm : w ∈ vs
        · simp only [if_pos hm]; exact h2 w hm
        · simp only [if_neg hm]
          rcases List.mem_cons.1 hw with rfl | hw
          · exact ⟨hbv, hbo⟩
          · exact absurd hw hm
      · intro w hw c hc
        by_cases hm : w ∈ vs
        · simp only [if_pos hm]; exact h3 w hm c hc
        · simp only [if_neg hm]
          rcases List.mem_cons.1 hw with rfl | hw
          · rw [h4 w hm c]
            show (if w = w ∧ R.has c = true then _ else _) = _
            rw [if_pos ⟨rfl, hc⟩]
          · exact absurd hw hm
      · intro w hw c
        rw [h4 w (fun h => hw (List.mem_cons_of_mem _ h)) c]
        show (if w = v ∧ R.has c = true then _ else _) = _
        rw [if_neg (fun h => hw (by rw [h.1]; exact List.mem_cons_self))]
  obtain ⟨st', b, h1, h2, h3, -⟩ := gen R.fields (fun _ h => h) (junk, init) (fun _ _ => rfl)
  refine ⟨⟨st'.2, F.step, F.time⟩, b, ?_, rfl, rfl, h2, h3⟩
  unfold Run.loadHalf
  rw [hf]
  show (R.fields.foldlM (R.readHalf r F) (junk, init)).bind _ = _
  rw [h1]; rfl

end

/-- Even extents and a ghost layer. -/
structure Run.Twice (R : Run) : Prop where
  well : R.Well
  nx : R.P.nx % 2 = 0
  ny : R.P.ny % 2 = 0
  nz : R.d3 = true → R.P.nz % 2 = 0
  ghost : 1 ≤ R.P.ghostWidth

theorem Run.half_nx {R : Run} (h : R.Twice) : R.half.P.nx = R.P.nx / 2 ∧ 1 ≤ R.P.nx / 2 ∧ 2 * (R.P.nx / 2) = R.P.nx := by
  have a := h.well.grid.nx; have b := h.nx
  refine ⟨?_, by omega, by omega⟩
  show R.P.nx.tdiv 2 = _
  exact Int.tdiv_eq_ediv_of_nonneg (by omega)

theorem Run.half_ny {R : Run} (h : R.Twice) : R.half.P.ny = R.P.ny / 2 ∧ 1 ≤ R.P.ny / 2 ∧ 2 * (R.P.ny / 2) = R.P.ny := by
  have a := h.well.grid.ny; have b := h.ny
  refine ⟨?_, by omega, by omega⟩
  show R.P.ny.tdiv 2 = _
  exact Int.tdiv_eq_ediv_of_nonneg (by omega)

theorem Run.half_nz {R : Run} (h : R.Twice) (hd : R.d3 = true) :
    R.half.P.nz = R.P.nz / 2 ∧ 1 ≤ R.P.nz / 2 ∧ 2 * (R.P.nz / 2) = R.P.nz := by
  have a := h.well.grid.nz hd; have b := h.nz hd
  refine ⟨?_, by omega, by omega⟩
  show R.P.nz.tdiv 2 = _
  exact Int.tdiv_eq_ediv_of_nonneg (by omega)

theorem Run.half_well {R : Run} (h : R.Twice) : R.half.Well where
  grid := ⟨by rw [(half_nx h).1]; exact (half_nx h).2.1, by rw [(half_ny h).1]; exact (half_ny h).2.1,
    fun hd => by rw [(half_nz h hd).1]; exact (half_nz h hd).2.1, h.well.grid.ghost⟩
  mx := h.well.mx
  my := h.well.my
  mz := h.well.mz
  flat := h.well.flat

/-- Coarse cells of a rank's buffer, relative to its first inner cell. -/
def Run.HalfCell (R : Run) (x y z : Int) : Prop :=
  -R.P.ghostWidth ≤ x ∧ x < R.P.nx / 2 + R.P.ghostWidth ∧ -R.P.ghostWidth ≤ y ∧ y < R.P.ny / 2 + R.P.ghostWidth ∧
    if R.d3 then -R.P.ghostWidth ≤ z ∧ z < R.P.nz / 2 + R.P.ghostWidth else z = 0

/-- Fine cells of a rank, relative to its first inner cell. -/
def Run.FineCell (R : Run) (x y z : Int) : Prop :=
  -R.P.ghostWidth ≤ x ∧ x < R.P.nx + R.P.ghostWidth ∧ -R.P.ghostWidth ≤ y ∧ y < R.P.ny + R.P.ghostWidth ∧
    if R.d3 then -R.P.ghostWidth ≤ z ∧ z < R.P.nz + R.P.ghostWidth else z = 0

/-- The cell of the array at a relative position. -/
def Run.localCell (R : Run) (x y z : Int) : Cell :=
  ⟨R.P.ghostWidth + x, R.P.ghostWidth + y, if R.d3 then R.P.ghostWidth + z else 0⟩

/-- Element of the buffer. -/
def Run.halfAt (R : Run) (x y z : Int) : Int :=
  R.halfIndex (R.P.ghostWidth + x) (R.P.ghostWidth + y) (R.P.ghostWidth + z)

theorem Run.halfAt_lin {R : Run} (h : R.Twice) {x y z : Int} (hc : R.HalfCell x y z) :
    R.halfAt x y z = (lin R.half.sizes (R.rev (R.P.ghostWidth + x).toNat (R.P.ghostWidth + y).toNat
      (R.P.ghostWidth + z).toNat) : Nat) ∧
    R.rev (R.P.ghostWidth + x).toNat (R.P.ghostWidth + y).toNat (R.P.ghostWidth + z).toNat ∈ indices R.half.sizes := by
  obtain ⟨h1, h2, h3, h4, h5⟩ := hc
  have hgw := h.ghost
  obtain ⟨x1, x2, x3⟩ := half_nx h
  obtain ⟨y1, y2, y3⟩ := half_ny h
  have eI : R.half.P.isize = R.P.nx / 2 + 2 * R.P.ghostWidth := by
    simp only [Grid.isize, Grid.imax, Grid.imin, x1]; show _ - 1 + 2 * R.P.ghostWidth - 0 + 1 = _; ring
  have eJ : R.half.P.jsize = R.P.ny / 2 + 2 * R.P.ghostWidth := by
    simp only [Grid.jsize, Grid.jmax, Grid.jmin, y1]; show _ - 1 + 2 * R.P.ghostWidth - 0 + 1 = _; ring
  have eK : R.d3 = true → R.half.P.ksize = R.P.nz / 2 + 2 * R.P.ghostWidth := by
    intro hd
    simp only [Grid.ksize, Grid.kmax, Grid.kmin, (half_nz h hd).1]
    show _ - 1 + 2 * R.P.ghostWidth - 0 + 1 = _; ring
  have hmem : R.half.rev (R.P.ghostWidth + x).toNat (R.P.ghostWidth + y).toNat (R.P.ghostWidth + z).toNat ∈
      indices R.half.sizes := by
    refine Run.rev_mem (by omega) (by omega) fun hd => ?_
    rw [eK hd]
    rw [show R.d3 = true from hd] at h5
    simp only [if_true] at h5
    omega
  refine ⟨?_, hmem⟩
  have hl := (Run.lin_sizes (R.half_well h).grid (mem_indices.1 hmem)).1
  rw [Run.cellAt_rev] at hl
  rw [show lin R.half.sizes (R.rev _ _ _) = lin R.half.sizes (R.half.rev _ _ _) from rfl, ← hl]
  have tx : R.P.nx.tdiv 2 = R.P.nx / 2 := x1
  have ty : R.P.ny.tdiv 2 = R.P.ny / 2 := y1
  simp only [Run.halfAt, Run.halfIndex, tx, ty, eI, eJ]
  rw [Int.toNat_of_nonneg (by omega), Int.toNat_of_nonneg (by omega)]
  show _ = _ + _ * _ + if R.d3 = true then _ * (if R.d3 = true then _ else 0) else 0
  cases hd : R.d3
  · simp
  · rw [hd] at h5
    simp only [if_true] at h5 ⊢
    rw [Int.toNat_of_nonneg (by omega)]

theorem Run.half_total {R : Run} (h : R.Twice) : (R.half.sizes.prod : Int) ≤ R.total := by
  have hgw := h.ghost
  obtain ⟨x1, x2, x3⟩ := half_nx h
  obtain ⟨y1, y2, y3⟩ := half_ny h
  have eI : R.half.P.isize = R.P.nx / 2 + 2 * R.P.ghostWidth := by
    simp only [Grid.isize, Grid.imax, Grid.imin, x1]; show _ - 1 + 2 * R.P.ghostWidth - 0 + 1 = _; ring
  have eJ : R.half.P.jsize = R.P.ny / 2 + 2 * R.P.ghostWidth := by
    simp only [Grid.jsize, Grid.jmax, Grid.jmin, y1]; show _ - 1 + 2 * R.P.ghostWidth - 0 + 1 = _; ring
  have fI : R.P.isize = R.P.nx + 2 * R.P.ghostWidth := by simp only [Grid.isize, Grid.imax, Grid.imin]; ring
  have fJ : R.P.jsize = R.P.ny + 2 * R.P.ghostWidth := by simp only [Grid.jsize, Grid.jmax, Grid.jmin]; ring
  obtain ⟨I, hI⟩ : ∃ I : Nat, R.half.P.isize = I := ⟨R.half.P.isize.toNat, by omega⟩
  obtain ⟨J, hJ⟩ : ∃ J : Nat, R.half.P.jsize = J := ⟨R.half.P.jsize.toNat, by omega⟩
  have hIJ : (I : Int) * J ≤ R.P.isize * R.P.jsize := by
    apply mul_le_mul <;> omega
  unfold Run.sizes Run.rev Run.total
  show ((if R.d3 = true then _ else _ : List Nat).prod : Int) ≤ _
  cases hd : R.d3
  · simp only [Bool.false_eq_true, if_false, List.prod_cons, List.prod_nil, hI, hJ, Int.toNat_natCast, mul_one]
    push_cast
    linarith
  · obtain ⟨z1, z2, z3⟩ := half_nz h hd
    have eK : R.half.P.ksize = R.P.nz / 2 + 2 * R.P.ghostWidth := by
      simp only [Grid.ksize, Grid.kmax, Grid.kmin, z1]
      show _ - 1 + 2 * R.P.ghostWidth - 0 + 1 = _; ring
    have fK : R.P.ksize = R.P.nz + 2 * R.P.ghostWidth := by simp only [Grid.ksize, Grid.kmax, Grid.kmin]; ring
    obtain ⟨K, hK⟩ : ∃ K : Nat, R.half.P.ksize = K := ⟨R.half.P.ksize.toNat, by omega⟩
    simp only [if_true, List.prod_cons, List.prod_nil, hI, hJ, hK, Int.toNat_natCast, mul_one]
    push_cast
    calc (K : Int) * (J * I) = (I * J) * K := by ring
      _ ≤ R.P.isize * R.P.jsize * R.P.ksize := by
        apply mul_le_mul hIJ <;> first | omega | positivity | skip
        have : 0 ≤ R.P.isize := by omega
        have : 0 ≤ R.P.jsize := by omega
        positivity

theorem lin_lt_prod {R : Run} (h : R.Twice) {x y z : Int} (hc : R.HalfCell x y z) :
    0 ≤ R.halfAt x y z ∧ R.halfAt x y z < R.total := by
  obtain ⟨a, b⟩ := Run.halfAt_lin h hc
  have c := lin_lt (mem_indices.1 b)
  have d := R.half_total h
  rw [a]
  omega

/-- What a fine cell is computed from, in relative positions. -/
theorem Run.halfReads_eq {R : Run} (h : R.Twice) {x y z : Int} (hc : R.FineCell x y z) (v : Nat) :
    R.halfReads v (R.localCell x y z) = (R.halfAt (x / 2) (y / 2) (if R.d3 then z / 2 else 0),
      if v = IA then if x % 2 = 1 then some (R.halfAt (x / 2 + 1) (y / 2) (if R.d3 then z / 2 else 0)) else none
      else if v = IB then if y % 2 = 1 then some (R.halfAt (x / 2) (y / 2 + 1) (if R.d3 then z / 2 else 0)) else none
      else if v = IC ∧ R.d3 then
        if z % 2 = 1 then some (R.halfAt (x / 2) (y / 2) (z / 2 + 1)) else none
      else none) := by
  obtain ⟨h1, h2, h3, h4, h5⟩ := hc
  have hgw := h.ghost
  have low : ∀ t : Int, -R.P.ghostWidth ≤ t → (R.P.ghostWidth + t + R.P.ghostWidth).tdiv 2 = R.P.ghostWidth + t / 2 := by
    intro t ht
    rw [Int.tdiv_eq_ediv_of_nonneg (by omega)]
    omega
  have odd : ∀ t : Int, (R.P.ghostWidth + t + R.P.ghostWidth - 2 * (R.P.ghostWidth + t / 2) = 0) ↔ ¬ t % 2 = 1 := by
    intro t; omega
  cases hd : R.d3
  · have hi : ∀ i j k k', R.halfIndex i j k = R.halfIndex i j k' := by
      intro i j k k'; simp [Run.halfIndex, hd]
    simp only [Run.halfReads, Run.localCell, hd, Run.halfAt, low x h1, low y h3, Bool.false_eq_true, if_false, and_false,
      odd x, odd y, ite_not]
    congr 1
    · exact hi _ _ _ _
    · split_ifs <;> first | rfl | (congr 1; rw [← add_assoc]; exact hi _ _ _ _)
  · rw [hd] at h5
    simp only [if_true] at h5
    simp only [Run.halfReads, Run.localCell, hd, Run.halfAt, low x h1, low y h3, low z h5.1, if_true, and_true,
      odd x, odd y, odd z, ite_not]
    simp only [add_assoc]

theorem Run.half_cells {R : Run} (h : R.Twice) {x y z : Int} (hc : R.FineCell x y z) :
    R.HalfCell (x / 2) (y / 2) (if R.d3 then z / 2 else 0) ∧
    (x % 2 = 1 → R.HalfCell (x / 2 + 1) (y / 2) (if R.d3 then z / 2 else 0)) ∧
    (y % 2 = 1 → R.HalfCell (x / 2) (y / 2 + 1) (if R.d3 then z / 2 else 0)) ∧
    (R.d3 = true → z % 2 = 1 → R.HalfCell (x / 2) (y / 2) (z / 2 + 1)) := by
  obtain ⟨h1, h2, h3, h4, h5⟩ := hc
  have hgw := h.ghost
  obtain ⟨-, x2, x3⟩ := half_nx h
  obtain ⟨-, y2, y3⟩ := half_ny h
  cases hd : R.d3
  · refine ⟨⟨by omega, by omega, by omega, by omega, by simp [hd]⟩,
      fun e => ⟨by omega, by omega, by omega, by omega, by simp [hd]⟩,
      fun e => ⟨by omega, by omega, by omega, by omega, by simp [hd]⟩, by simp⟩
  · rw [hd] at h5
    simp only [if_true] at h5
    obtain ⟨-, z2, z3⟩ := half_nz h hd
    refine ⟨⟨by omega, by omega, by omega, by omega, ?_⟩, fun e => ⟨by omega, by omega, by omega, by omega, ?_⟩,
      fun e => ⟨by omega, by omega, by omega, by omega, ?_⟩, fun _ e => ⟨by omega, by omega, by omega, by omega, ?_⟩⟩ <;>
    · simp only [hd, if_true]; omega

theorem Run.has_fine {R : Run} {c : Cell} (hc : R.has c = true) :
    ∃ x y z, c = R.localCell x y z ∧ R.FineCell x y z := by
  unfold Run.has at hc
  simp only [decide_eq_true_eq] at hc
  obtain ⟨c1, c2, c3, c4, c5⟩ := hc
  have hI : R.P.isize = R.P.nx + 2 * R.P.ghostWidth := by simp only [Grid.isize, Grid.imax, Grid.imin]; ring
  have hJ : R.P.jsize = R.P.ny + 2 * R.P.ghostWidth := by simp only [Grid.jsize, Grid.jmax, Grid.jmin]; ring
  have hK : R.P.ksize = R.P.nz + 2 * R.P.ghostWidth := by simp only [Grid.ksize, Grid.kmax, Grid.kmin]; ring
  refine ⟨c.i - R.P.ghostWidth, c.j - R.P.ghostWidth, if R.d3 then c.k - R.P.ghostWidth else 0, ?_,
    by omega, by omega, by omega, by omega, ?_⟩
  · ext
    · simp [Run.localCell]
    · simp [Run.localCell]
    · cases hd : R.d3
      · rw [hd] at c5; simpa [Run.localCell, hd] using c5
      · simp [Run.localCell, hd]
  · cases hd : R.d3
    · simp
    · rw [hd] at c5; simp only [if_true] at c5 ⊢; omega

theorem Run.fine_has {R : Run} {x y z : Int} (hc : R.FineCell x y z) : R.has (R.localCell x y z) = true := by
  obtain ⟨h1, h2, h3, h4, h5⟩ := hc
  have hI : R.P.isize = R.P.nx + 2 * R.P.ghostWidth := by simp only [Grid.isize, Grid.imax, Grid.imin]; ring
  have hJ : R.P.jsize = R.P.ny + 2 * R.P.ghostWidth := by simp only [Grid.jsize, Grid.jmax, Grid.jmin]; ring
  have hK : R.P.ksize = R.P.nz + 2 * R.P.ghostWidth := by simp only [Grid.ksize, Grid.kmax, Grid.kmin]; ring
  unfold Run.has Run.localCell
  simp only [decide_eq_true_eq]
  refine ⟨by omega, by omega, by omega, by omega, ?_⟩
  cases hd : R.d3
  · simp
  · rw [hd] at h5; simp only [if_true] at h5 ⊢; omega

theorem Run.halfInside_eq {R : Run} (h : R.Twice) (v : Nat) : R.halfInside v R.total = true := by
  unfold Run.halfInside
  rw [List.all_eq_true]
  intro idx hidx
  obtain ⟨-, hh, -⟩ := Run.lin_sizes h.well.grid (mem_indices.1 hidx)
  obtain ⟨x, y, z, e, hc⟩ := Run.has_fine hh
  obtain ⟨a, b, c, d⟩ := Run.half_cells h hc
  simp only [e, Run.halfReads_eq h hc v, Bool.and_eq_true, decide_eq_true_eq]
  refine ⟨lin_lt_prod h a, ?_⟩
  generalize (if R.d3 = true then z / 2 else 0) = k at b c
  split_ifs with g1 g2 g3 g4 g5 g6
  · exact decide_eq_true (lin_lt_prod h (b g2))
  · rfl
  · exact decide_eq_true (lin_lt_prod h (c g4))
  · rfl
  · exact decide_eq_true (lin_lt_prod h (d g5.2 g6))
  · rfl
  · rfl

/-- The value of a fine cell when the buffer holds `B`. -/
theorem Run.halfValue_eq {R : Run} (h : R.Twice) {x y z : Int} (hc : R.FineCell x y z) {v : Nat} {data : Nat → ℝ}
    {B : Cell → ℝ} (hB : ∀ x y z, R.HalfCell x y z → data (R.halfAt x y z).toNat = B ⟨x, y, z⟩) :
    R.halfValue data v (R.localCell x y z) = refined R.d3 v B ⟨x, y, z⟩ := by
  obtain ⟨a, b, c, d⟩ := Run.half_cells h hc
  have h5 := hc.2.2.2.2
  have hp : (⟨x / 2, y / 2, if R.d3 then z / 2 else 0⟩ : Cell) = parent R.d3 ⟨x, y, z⟩ := rfl
  unfold Run.halfValue
  rw [Run.halfReads_eq h hc v]
  unfold refined
  by_cases v1 : v = IA
  · simp only [v1, if_true, show (IA = 5) from rfl]
    unfold refinedFace between
    by_cases e : x % 2 = 1
    · simp only [e, if_true, decide_true]
      rw [hB _ _ _ a, hB _ _ _ (b e), hp]
      rops
      rfl
    · simp only [e, if_false, decide_false, Bool.false_eq_true]
      rw [hB _ _ _ a, hp]
  by_cases v2 : v = IB
  · simp only [v2, if_true, if_false, show (IB = 6) from rfl,
      show ¬ ((6 : Nat) = 5) by decide, show ¬ ((6 : Nat) = IA) by decide]
    unfold refinedFace between
    by_cases e : y % 2 = 1
    · simp only [e, if_true, decide_true]
      rw [hB _ _ _ a, hB _ _ _ (c e), hp]
      rops
      rfl
    · simp only [e, if_false, decide_false, Bool.false_eq_true]
      rw [hB _ _ _ a, hp]
  by_cases v3 : v = IC
  · simp only [v3, if_true, show ¬ (IC = IA) by decide, show ¬ (IC = IB) by decide, if_false,
      show (IC = 7) from rfl, show ¬ ((7 : Nat) = 5) by decide, show ¬ ((7 : Nat) = 6) by decide,
      show ¬ ((7 : Nat) = IA) by decide, show ¬ ((7 : Nat) = IB) by decide, true_and]
    unfold refinedFace between
    cases hd : R.d3
    · simp only [Bool.false_eq_true, if_false, Bool.false_and]
      rw [hd] at a
      simp only [Bool.false_eq_true, if_false] at a
      rw [hB _ _ _ a]
      rfl
    · rw [hd] at a
      simp only [if_true] at a
      simp only [if_true, Bool.true_and]
      by_cases e : z % 2 = 1
      · simp only [e, if_true, decide_true]
        rw [hB _ _ _ a, hB _ _ _ (d hd e)]
        rops
        rfl
      · simp only [e, if_false, decide_false, Bool.false_eq_true]
        rw [hB _ _ _ a]
        rfl
  · have w1 : ¬ v = 5 := v1
    have w2 : ¬ v = 6 := v2
    have w3 : ¬ v = 7 := v3
    simp only [v1, v2, v3, w1, w2, w3, if_false, false_and]
    rw [hB _ _ _ a, hp]
    rfl

end Verif.Hdf5
