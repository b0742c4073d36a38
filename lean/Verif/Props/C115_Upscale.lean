import Verif.Props.C112_Hdf5
import Verif.Lemmas.Hdf5Upscale
import Mathlib.Algebra.BigOperators.Intervals
import Mathlib.Tactic.Linarith
import Mathlib.Tactic.FieldSimp

/-!
# C115: restart from a file of half the resolution
-/

namespace Verif.Hdf5

/-- The file holds the fields `W` of a coarse run, with a ghost layer of width `g` around the whole domain (`g = 0`: none). -/
structure Holds (d3 : Bool) (fields : List Nat) (F : File ℝ) (g : Nat) (X Y Z : Nat) (W : Nat → Cell → ℝ) : Prop where
  extent : ∀ v ∈ fields, F.extent (fieldName v) =
    some (if d3 then [X + 2 * g, Y + 2 * g, Z + 2 * g] else [X + 2 * g, Y + 2 * g])
  value : ∀ v ∈ fields, ∀ x y z, x < X + 2 * g → y < Y + 2 * g → (if d3 then z < Z + 2 * g else z = 0) →
    F.value d3 (fieldName v) x y z =
      some (W v ⟨(x : Int) - g, (y : Int) - g, if d3 then (z : Int) - g else 0⟩)

private theorem holds_sets {R : Run} {F : File ℝ} {g X Y Z : Nat} {W : Nat → Cell → ℝ}
    (h : Holds R.d3 R.fields F g X Y Z W) : ∃ D : Nat → Dataset ℝ, ∀ v ∈ R.fields,
      F.sets.lookup (fieldName v) = some (D v) ∧ (D v).dims = R.rev (X + 2 * g) (Y + 2 * g) (Z + 2 * g) ∧
      ∀ x y z : Nat, x < X + 2 * g → y < Y + 2 * g → (R.d3 = true → z < Z + 2 * g) →
        (D v).data (R.rev x y z) = W v ⟨(x : Int) - g, (y : Int) - g, if R.d3 then (z : Int) - g else 0⟩ := by
  classical
  have one : ∀ v ∈ R.fields, ∃ ds, F.sets.lookup (fieldName v) = some ds ∧
      ds.dims = R.rev (X + 2 * g) (Y + 2 * g) (Z + 2 * g) ∧ ∀ x y z : Nat, x < X + 2 * g → y < Y + 2 * g →
        (R.d3 = true → z < Z + 2 * g) →
        ds.data (R.rev x y z) = W v ⟨(x : Int) - g, (y : Int) - g, if R.d3 then (z : Int) - g else 0⟩ := by
    intro v hv
    have he := h.extent v hv
    unfold File.extent at he
    cases hl : F.sets.lookup (fieldName v) with
    | none => rw [hl] at he; simp at he
    | some ds =>
      rw [hl] at he
      simp only [Option.map_some, Option.some.injEq] at he
      have hd : ds.dims = R.rev (X + 2 * g) (Y + 2 * g) (Z + 2 * g) := by
        rw [← List.reverse_reverse ds.dims, he]
        unfold Run.rev; split_ifs <;> rfl
      refine ⟨ds, rfl, hd, fun x y z hx hy hz => ?_⟩
      have hv' := value_eq hl hd hx hy hz
      cases h3 : R.d3
      · have e := h.value v hv x y 0 hx hy (by simp [h3])
        have hv'' := value_eq (z := 0) hl hd hx hy (fun h => by rw [h3] at h; simp at h)
        rw [hv''] at e
        have hr : R.rev x y 0 = R.rev x y z := by unfold Run.rev; simp [h3]
        rw [hr] at e
        simpa [h3] using e
      · have e := h.value v hv x y z hx hy (by rw [h3]; simpa using hz h3)
        rw [hv'] at e
        simpa [h3] using e
  refine ⟨fun v => if hv : v ∈ R.fields then (one v hv).choose else ⟨[], fun _ => 0⟩, fun v hv => ?_⟩
  simp only [dif_pos hv]
  exact (one v hv).choose_spec

/-- The position of a cell of rank `(px, py, pz)` in the whole domain. -/
def globalCell (R : Run) (px py pz : Nat) (x y z : Int) : Cell :=
  ⟨px * R.P.nx + x, py * R.P.ny + y, if R.d3 then pz * R.P.nz + z else 0⟩

private theorem refined_shift {R : Run} (h : R.Twice) (px py pz : Nat) (v : Nat) (W : Cell → ℝ) {x y z : Int}
    (hz : R.d3 = false → z = 0) :
    refined R.d3 v (fun c => W ⟨px * (R.P.nx / 2) + c.i, py * (R.P.ny / 2) + c.j,
      if R.d3 then pz * (R.P.nz / 2) + c.k else 0⟩) ⟨x, y, z⟩ = refined R.d3 v W (globalCell R px py pz x y z) := by
  obtain ⟨-, -, x3⟩ := Run.half_nx h
  obtain ⟨-, -, y3⟩ := Run.half_ny h
  have key : ∀ (p : Nat) (n t : Int), 2 * (n / 2) = n → (p * n + t) / 2 = p * (n / 2) + t / 2 ∧ (p * n + t) % 2 = t % 2 := by
    intro p n t hn
    have : (p : Int) * n = 2 * (p * (n / 2)) := by rw [← hn]; ring_nf; rw [Int.mul_ediv_cancel _ (by norm_num)]
    rw [this]; omega
  obtain ⟨a1, a2⟩ := key px R.P.nx x x3
  obtain ⟨b1, b2⟩ := key py R.P.ny y y3
  unfold refined refinedFace refinedCell between parent nextCell globalCell
  cases hd : R.d3
  · simp only [a1, a2, b1, b2, Bool.false_eq_true, if_false, Bool.false_and, add_assoc]
  · obtain ⟨-, -, z3⟩ := Run.half_nz h hd
    obtain ⟨c1, c2⟩ := key pz R.P.nz z z3
    simp only [a1, a2, b1, b2, c1, c2, if_true, Bool.true_and, add_assoc]

private theorem load_refined {R : Run} (h : R.Twice) (hF : R.Fits) {F : File ℝ} {g : Nat} {W : Nat → Cell → ℝ}
    (hg : (R.ghosts = .outer ∧ (g : Int) = R.P.ghostWidth) ∨ (R.ghosts = .none ∧ g = 0))
    (hW : Holds R.d3 R.fields F g (R.mx * (R.P.nx / 2).toNat) (R.my * (R.P.ny / 2).toNat) (R.mz * (R.P.nz / 2).toNat) W)
    (junk : Nat → ℝ) (init : Cell → Nat → ℝ) {px py pz : Nat} (hpx : px < R.mx) (hpy : py < R.my) (hpz : pz < R.mz) :
    ∃ (L : Loaded ℝ) (b : Nat → Nat → ℝ),
      R.loadHalf (cartRank R.mx R.my R.mz ⟨px, py, pz⟩) F junk init = some L ∧ L.step = F.step ∧
      L.time = F.time ∧
      (∀ v ∈ R.fields, ∀ x y z, R.HalfCell x y z →
        ((g : Int) = R.P.ghostWidth ∨ (0 ≤ x ∧ x < R.P.nx / 2 ∧ 0 ≤ y ∧ y < R.P.ny / 2 ∧
          (R.d3 = true → 0 ≤ z ∧ z < R.P.nz / 2))) →
        b v (R.halfAt x y z).toNat = W v ⟨px * (R.P.nx / 2) + x, py * (R.P.ny / 2) + y,
          if R.d3 then pz * (R.P.nz / 2) + z else 0⟩) ∧
      (∀ v ∈ R.fields, ∀ x y z, R.HalfCell x y z → R.ghosts = .none →
        ¬ (0 ≤ x ∧ x < R.P.nx / 2 ∧ 0 ≤ y ∧ y < R.P.ny / 2 ∧ (R.d3 = true → 0 ≤ z ∧ z < R.P.nz / 2)) →
        b v (R.halfAt x y z).toNat = junk (R.halfAt x y z).toNat) ∧
      ∀ v ∈ R.fields, ∀ c, R.has c = true → L.U c v = R.halfValue (b v) v c := by
  have hH := R.half_well h
  have hgw := h.ghost
  obtain ⟨D, hD⟩ := holds_sets hW
  obtain ⟨x1, x2, x3⟩ := Run.half_nx h
  obtain ⟨y1, y2, y3⟩ := Run.half_ny h
  have gg : R.half.ghosts = R.ghosts := rfl
  have gw' : R.half.P.ghostWidth = R.P.ghostWidth := rfl
  have zz : R.d3 = true → R.half.P.nz = R.P.nz / 2 := fun hd => (Run.half_nz h hd).1
  have rv : ∀ a b c c', (R.d3 = true → c = c') → R.half.rev a b c = R.rev a b c' := by
    intro a b c c' hc
    show (if R.d3 = true then _ else _) = _
    unfold Run.rev
    cases hd : R.d3
    · rfl
    · rw [hc hd]
  have hdims : (R.half.assembled 0).dims = R.rev (R.mx * (R.P.nx / 2).toNat + 2 * g) (R.my * (R.P.ny / 2).toNat + 2 * g)
      (R.mz * (R.P.nz / 2).toNat + 2 * g) := by
    rw [Run.assembled_dims, gg, x1, y1, gw']
    rcases hg with ⟨g1, g2⟩ | ⟨g1, g2⟩
    · rw [g1]
      simp only [Ghosts.whole]
      rw [← g2, Int.toNat_natCast]
      exact rv _ _ _ _ fun hd => by rw [zz hd]; rfl
    · rw [g1, g2]
      simp only [Ghosts.whole]
      exact rv _ _ _ _ fun hd => by rw [zz hd]; rfl
  have hp : cartRank R.mx R.my R.mz ⟨px, py, pz⟩ < R.half.procs := rank_lt h.well _
  obtain ⟨L, b, l1, l2, l3, l4, l5⟩ := Run.loadHalf_eq hH (Run.factors_some h.well.grid hF.cells)
    (fun v _ => Run.halfInside_eq h v) hp F D (fun v hv => ⟨(hD v hv).1, by rw [(hD v hv).2.1, hdims]⟩) junk init
  have hplace : R.half.place (cartRank R.mx R.my R.mz ⟨px, py, pz⟩) = (px, py, pz) := place_rank hH hpx hpy hpz
  -- first element of the box in the file
  have hst : (R.half.assembled (cartRank R.mx R.my R.mz ⟨px, py, pz⟩)).start =
      R.rev (px * (R.P.nx / 2).toNat) (py * (R.P.ny / 2).toNat) (pz * (R.P.nz / 2).toNat) := by
    rw [Run.assembled_start, hplace, gg, x1, y1, gw']
    rcases hg with ⟨g1, g2⟩ | ⟨g1, g2⟩ <;>
    · rw [g1]
      exact rv _ _ _ _ fun hd => by rw [zz hd]; rfl
  have bound : ∀ {m n p : Nat} {t : Int} {s : Int}, p < m → 0 ≤ t → t < s → s = n + 2 * g → p * n + t.toNat < m * n + 2 * g := by
    intro m n p t s hp h0 h1 hs
    have ht : t.toNat < n + 2 * g := by omega
    calc p * n + t.toNat < p * n + (n + 2 * g) := Nat.add_lt_add_left ht _
      _ = (p + 1) * n + 2 * g := by ring
      _ ≤ m * n + 2 * g := Nat.add_le_add_right (Nat.mul_le_mul_right n hp) _
  refine ⟨L, b, l1, l2, l3, ?_, ?_, l5⟩
  · intro v hv x y z hc hin
    obtain ⟨e1, e2⟩ := Run.halfAt_lin h hc
    obtain ⟨h1, h2, h3, h4, h5⟩ := hc
    obtain ⟨-, -, hd⟩ := hD v hv
    rw [e1, Int.toNat_natCast]
    -- index of the element in the box
    obtain ⟨s, hs0, hms, hcnt⟩ : ∃ s : Nat, s + g = R.P.ghostWidth ∧ R.half.memory.start = R.rev s s s ∧
        R.half.memory.count = R.rev ((R.P.nx / 2).toNat + 2 * g) ((R.P.ny / 2).toNat + 2 * g)
          ((R.P.nz / 2).toNat + 2 * g) := by
      rcases hg with ⟨g1, g2⟩ | ⟨g1, g2⟩
      · refine ⟨0, by omega, ?_, ?_⟩
        · unfold Run.memory; rw [gg, g1]; rfl
        · unfold Run.memory
          simp only [gg, g1, Ghosts.chunk, x1, y1, gw']
          rw [show (R.P.nx / 2 + 2 * R.P.ghostWidth).toNat = (R.P.nx / 2).toNat + 2 * g by omega,
            show (R.P.ny / 2 + 2 * R.P.ghostWidth).toNat = (R.P.ny / 2).toNat + 2 * g by omega]
          exact rv _ _ _ _ fun hd => by
            rw [zz hd]; have := (Run.half_nz h hd).2.1; omega
      · refine ⟨R.P.ghostWidth.toNat, by omega, ?_, ?_⟩
        · unfold Run.memory; rw [gg, g1]; rfl
        · unfold Run.memory
          simp only [gg, g1, Ghosts.chunk, x1, y1, g2]
          exact rv _ _ _ _ fun hd => by rw [zz hd]; omega
    have hx : 0 ≤ R.P.ghostWidth + x - s ∧ R.P.ghostWidth + x - s < R.P.nx / 2 + 2 * g := by
      rcases hin with e | e <;> omega
    have hy : 0 ≤ R.P.ghostWidth + y - s ∧ R.P.ghostWidth + y - s < R.P.ny / 2 + 2 * g := by
      rcases hin with e | e <;> omega
    have hz : R.d3 = true → 0 ≤ R.P.ghostWidth + z - s ∧ R.P.ghostWidth + z - s < R.P.nz / 2 + 2 * g := by
      intro h3
      rw [h3] at h5
      simp only [if_true] at h5
      rcases hin with e | e
      · omega
      · have := e.2.2.2.2 h3; omega
    have hm : R.rev (R.P.ghostWidth + x - s).toNat (R.P.ghostWidth + y - s).toNat (R.P.ghostWidth + z - s).toNat ∈
        indices R.half.memory.count := by
      rw [hcnt]
      refine Run.rev_mem (by omega) (by omega) fun h3 => ?_
      have := hz h3
      omega
    have e := (l4 v hv).1 _ hm
    rw [hms, hst, R.shift_rev, R.shift_rev, show R.half.memory.dims = R.half.sizes from rfl] at e
    rw [show s + (R.P.ghostWidth + x - s).toNat = (R.P.ghostWidth + x).toNat by omega,
      show s + (R.P.ghostWidth + y - s).toNat = (R.P.ghostWidth + y).toNat by omega] at e
    have ez : R.rev (R.P.ghostWidth + x).toNat (R.P.ghostWidth + y).toNat (s + (R.P.ghostWidth + z - s).toNat) =
        R.rev (R.P.ghostWidth + x).toNat (R.P.ghostWidth + y).toNat (R.P.ghostWidth + z).toNat := by
      unfold Run.rev
      cases h3 : R.d3
      · rfl
      · have := hz h3
        simp only [if_true]
        rw [show s + (R.P.ghostWidth + z - s).toNat = (R.P.ghostWidth + z).toNat by omega]
    rw [ez] at e
    rw [e, hd _ _ _ (bound hpx hx.1 hx.2 (by omega)) (bound hpy hy.1 hy.2 (by omega))
      (fun h3 => bound hpz (hz h3).1 (hz h3).2 (by have := (Run.half_nz h h3).2.1; omega))]
    congr 1
    ext
    · simp only; push_cast; rw [Int.toNat_of_nonneg (by omega), Int.toNat_of_nonneg hx.1]; omega
    · simp only; push_cast; rw [Int.toNat_of_nonneg (by omega), Int.toNat_of_nonneg hy.1]; omega
    · simp only
      cases h3 : R.d3
      · rfl
      · have hz' := hz h3
        have := (Run.half_nz h h3).2.1
        simp only [if_true]; push_cast; rw [Int.toNat_of_nonneg (by omega), Int.toNat_of_nonneg hz'.1]; omega
  · intro v hv x y z hc hgn hout
    obtain ⟨e1, e2⟩ := Run.halfAt_lin h hc
    obtain ⟨h1, h2, h3, h4, h5⟩ := hc
    refine (l4 v hv).2 _ fun a ha hne => hout ?_
    have hms : R.half.memory.start = R.rev R.P.ghostWidth.toNat R.P.ghostWidth.toNat R.P.ghostWidth.toNat := by
      unfold Run.memory; rw [gg, hgn]; rfl
    have hcnt : R.half.memory.count = R.rev (R.P.nx / 2).toNat (R.P.ny / 2).toNat (R.P.nz / 2).toNat := by
      unfold Run.memory
      simp only [gg, hgn, Ghosts.chunk, x1, y1]
      exact rv _ _ _ _ fun hd => by rw [zz hd]
    have hin' := Space.bound (R.half.memory_inside hH) ha
    rw [e1, Int.toNat_natCast] at hne
    have heq := lin_injective (mem_indices.1 e2) hin' hne
    rw [hcnt] at ha
    obtain ⟨x', y', z', rfl, hx, hy, hz, -⟩ := Run.mem_rev ha
    rw [hms, R.shift_rev] at heq
    unfold Run.rev at heq
    cases h3 : R.d3
    · rw [h3] at heq
      simp at heq
      refine ⟨by omega, by omega, by omega, by omega, by simp⟩
    · rw [h3] at heq h5
      simp at heq h5
      have := hz h3
      have := (Run.half_nz h h3).2.1
      refine ⟨by omega, by omega, by omega, by omega, fun _ => by omega⟩

/-- **C115.**  Restart with `restart_upscale` from a file with outer ghost cells: on every rank, in every cell (ghost cells
included), cell averages are those of the coarse cell the fine cell lies in, and face averages of the magnetic field are
coarse ones or the mean of two. -/
theorem C115_refined {R : Run} (h : R.Twice) (hF : R.Fits) (hg : R.ghosts = .outer) {F : File ℝ} {W : Nat → Cell → ℝ}
    (hW : Holds R.d3 R.fields F R.P.ghostWidth.toNat (R.mx * (R.P.nx / 2).toNat) (R.my * (R.P.ny / 2).toNat)
      (R.mz * (R.P.nz / 2).toNat) W)
    (junk : Nat → ℝ) (init : Cell → Nat → ℝ) {px py pz : Nat} (hpx : px < R.mx) (hpy : py < R.my) (hpz : pz < R.mz) :
    ∃ L, R.loadHalf (cartRank R.mx R.my R.mz ⟨px, py, pz⟩) F junk init = some L ∧ L.step = F.step ∧ L.time = F.time ∧
      ∀ v ∈ R.fields, ∀ x y z, R.FineCell x y z →
        L.U (R.localCell x y z) v = refined R.d3 v (W v) (globalCell R px py pz x y z) := by
  have hgw := h.ghost
  obtain ⟨L, b, l1, l2, l3, l4, -, l5⟩ := load_refined h hF (Or.inl ⟨hg, by omega⟩) hW junk init hpx hpy hpz
  refine ⟨L, l1, l2, l3, fun v hv x y z hc => ?_⟩
  rw [l5 v hv _ (Run.fine_has hc), Run.halfValue_eq h hc (B := fun c => W v ⟨px * (R.P.nx / 2) + c.i,
    py * (R.P.ny / 2) + c.j, if R.d3 then pz * (R.P.nz / 2) + c.k else 0⟩)
    (fun x y z hc => l4 v hv x y z hc (Or.inl (by omega)))]
  exact refined_shift h px py pz v (W v) fun hd => by have := hc.2.2.2.2; rw [hd] at this; simpa using this

/-- Refinement keeps the divergence. -/
private theorem div_refined (d3 : Bool) {dx dy dz : ℝ} (hx : dx ≠ 0) (hy : dy ≠ 0) (hz : dz ≠ 0) (A B C : Cell → ℝ) (c : Cell) :
    divOf d3 (dx / 2) (dy / 2) (dz / 2) (refined d3 5 A) (refined d3 6 B) (refined d3 7 C) c =
      divOf d3 dx dy dz A B C (parent d3 c) := by
  obtain ⟨i, j, k⟩ := c
  have one : ∀ (t : Int), (t % 2 = 1 ∧ (t + 1) % 2 = 0 ∧ (t + 1) / 2 = t / 2 + 1) ∨
      (t % 2 = 0 ∧ (t + 1) % 2 = 1 ∧ (t + 1) / 2 = t / 2) := by intro t; omega
  unfold divOf refined refinedFace between nextCell parent
  cases d3
  · rcases one i with ⟨i1, i2, i3⟩ | ⟨i1, i2, i3⟩ <;> rcases one j with ⟨j1, j2, j3⟩ | ⟨j1, j2, j3⟩ <;>
    · simp [i1, i2, i3, j1, j2, j3]
      field_simp
      ring
  · rcases one i with ⟨i1, i2, i3⟩ | ⟨i1, i2, i3⟩ <;> rcases one j with ⟨j1, j2, j3⟩ | ⟨j1, j2, j3⟩ <;>
      rcases one k with ⟨k1, k2, k3⟩ | ⟨k1, k2, k3⟩ <;>
    · simp [i1, i2, i3, j1, j2, j3, k1, k2, k3]
      field_simp
      ring

/-- **C115.**  The magnetic field of the restarted run has in each cell (all but the outermost layer of the array) the divergence the
coarse field has in the coarse cell around it; in particular it is divergence free if the coarse one is. -/
theorem C115_divergence {R : Run} (h : R.Twice) (hF : R.Fits) (hg : R.ghosts = .outer) (hm : R.mhd = true) {F : File ℝ}
    {W : Nat → Cell → ℝ}
    (hW : Holds R.d3 R.fields F R.P.ghostWidth.toNat (R.mx * (R.P.nx / 2).toNat) (R.my * (R.P.ny / 2).toNat)
      (R.mz * (R.P.nz / 2).toNat) W)
    (junk : Nat → ℝ) (init : Cell → Nat → ℝ) {px py pz : Nat} (hpx : px < R.mx) (hpy : py < R.my) (hpz : pz < R.mz)
    {dx dy dz : ℝ} (hx : dx ≠ 0) (hy : dy ≠ 0) (hz : dz ≠ 0) :
    ∃ L, R.loadHalf (cartRank R.mx R.my R.mz ⟨px, py, pz⟩) F junk init = some L ∧
      ∀ x y z, R.FineCell x y z → R.FineCell (x + 1) y z → R.FineCell x (y + 1) z →
        (R.d3 = true → R.FineCell x y (z + 1)) →
        divOf R.d3 (dx / 2) (dy / 2) (dz / 2) (fun c => L.U c IA) (fun c => L.U c IB) (fun c => L.U c IC)
            (R.localCell x y z) =
          divOf R.d3 dx dy dz (W IA) (W IB) (W IC) (parent R.d3 (globalCell R px py pz x y z)) := by
  obtain ⟨L, l1, -, -, l2⟩ := C115_refined h hF hg hW junk init hpx hpy hpz
  refine ⟨L, l1, fun x y z c0 cx cy cz => ?_⟩
  have fA : IA ∈ R.fields := by simp [Run.fields, hm]
  have fB : IB ∈ R.fields := by simp [Run.fields, hm]
  have fC : IC ∈ R.fields := by simp [Run.fields, hm]
  rw [← div_refined R.d3 hx hy hz]
  have nx : nextCell 0 (R.localCell x y z) = R.localCell (x + 1) y z := by
    simp [nextCell, Run.localCell, add_assoc]
  have ny : nextCell 1 (R.localCell x y z) = R.localCell x (y + 1) z := by
    simp [nextCell, Run.localCell, add_assoc]
  have gx : globalCell R px py pz (x + 1) y z = nextCell 0 (globalCell R px py pz x y z) := by
    simp [nextCell, globalCell, add_assoc]
  have gy : globalCell R px py pz x (y + 1) z = nextCell 1 (globalCell R px py pz x y z) := by
    simp [nextCell, globalCell, add_assoc]
  unfold divOf
  beta_reduce
  rw [nx, ny, l2 IA fA _ _ _ c0, l2 IB fB _ _ _ c0, l2 IA fA _ _ _ cx, l2 IB fB _ _ _ cy, gx, gy]
  show _ + (if R.d3 = true then _ else _) = _ + (if R.d3 = true then _ else _)
  congr 1
  cases hd : R.d3
  · rfl
  · have nz : nextCell 2 (R.localCell x y z) = R.localCell x y (z + 1) := by
      simp [nextCell, Run.localCell, hd, add_assoc]
    have gz : globalCell R px py pz x y (z + 1) = nextCell 2 (globalCell R px py pz x y z) := by
      simp [nextCell, globalCell, hd, add_assoc]
    simp only [if_true]
    rw [nz, l2 IC fC _ _ _ c0, l2 IC fC _ _ _ (cz hd), gz, hd]
    rfl

private theorem sum_half (n : Nat) (f : Nat → ℝ) :
    ∑ x ∈ Finset.range (2 * n), f (x / 2) = 2 * ∑ x ∈ Finset.range n, f x := by
  induction n with
  | zero => simp
  | succ n ih =>
    rw [show 2 * (n + 1) = 2 * n + 1 + 1 by ring, Finset.sum_range_succ, Finset.sum_range_succ, ih, Finset.sum_range_succ,
      show (2 * n) / 2 = n by omega, show (2 * n + 1) / 2 = n by omega]
    ring

/-- **C115.**  The totals of the cell averages (mass, momentum, energy) over the whole domain are kept: the sum over the fine inner cells is
4 (in 3D 8) times the sum over the coarse ones, whose volume is 4 (8) times as large. -/
theorem C115_total (d3 : Bool) (v : Nat) (hv : v < 5) (W : Cell → ℝ) (X Y Z : Nat) :
    (∑ x ∈ Finset.range (2 * X), ∑ y ∈ Finset.range (2 * Y), ∑ z ∈ Finset.range (if d3 then 2 * Z else 1),
        refined d3 v W ⟨x, y, z⟩) = (if d3 then 8 else 4) *
      ∑ x ∈ Finset.range X, ∑ y ∈ Finset.range Y, ∑ z ∈ Finset.range (if d3 then Z else 1), W ⟨x, y, z⟩ := by
  have e : ∀ c, refined d3 v W c = W (parent d3 c) := by
    intro c
    unfold refined
    rw [if_neg (by omega), if_neg (by omega), if_neg (by omega)]
    rfl
  simp only [e]
  cases d3
  · have := sum_half X fun x => ∑ y ∈ Finset.range (2 * Y), W ⟨x, (y / 2 : Nat), 0⟩
    simp only [parent, Bool.false_eq_true, if_false, Finset.range_one, Finset.sum_singleton]
    push_cast at this ⊢
    rw [this, show (4 : ℝ) = 2 * 2 by norm_num, mul_assoc]
    congr 1
    rw [Finset.mul_sum (Finset.range X) _ (2 : ℝ)]
    refine Finset.sum_congr rfl fun x _ => ?_
    have := sum_half Y fun y => W ⟨x, y, 0⟩
    push_cast at this
    exact this
  · have := sum_half X fun x => ∑ y ∈ Finset.range (2 * Y), ∑ z ∈ Finset.range (2 * Z), W ⟨x, (y / 2 : Nat), (z / 2 : Nat)⟩
    simp only [parent, if_true]
    push_cast at this ⊢
    rw [this, show (8 : ℝ) = 2 * 4 by norm_num, mul_assoc]
    congr 1
    rw [Finset.mul_sum (Finset.range X) _ (4 : ℝ)]
    refine Finset.sum_congr rfl fun x _ => ?_
    have := sum_half Y fun y => ∑ z ∈ Finset.range (2 * Z), W ⟨x, y, (z / 2 : Nat)⟩
    push_cast at this
    rw [this, show (4 : ℝ) = 2 * 2 by norm_num, mul_assoc]
    congr 1
    rw [Finset.mul_sum (Finset.range Y) _ (2 : ℝ)]
    refine Finset.sum_congr rfl fun y _ => ?_
    have := sum_half Z fun z => W ⟨x, y, z⟩
    push_cast at this
    exact this

/-- **C115.**  Without ghost cells in the file (nothing checks this) the last faces of every rank are computed from memory nobody wrote:
whatever value is wanted there, some content of fresh memory gives it. -/
theorem C115_noghost {R : Run} (h : R.Twice) (hF : R.Fits) (hg : R.ghosts = .none) (hm : R.mhd = true) {F : File ℝ}
    {W : Nat → Cell → ℝ}
    (hW : Holds R.d3 R.fields F 0 (R.mx * (R.P.nx / 2).toNat) (R.my * (R.P.ny / 2).toNat) (R.mz * (R.P.nz / 2).toNat) W)
    (init : Cell → Nat → ℝ) {px py pz : Nat} (hpx : px < R.mx) (hpy : py < R.my) (hpz : pz < R.mz) (want : ℝ) :
    ∃ junk L, R.loadHalf (cartRank R.mx R.my R.mz ⟨px, py, pz⟩) F junk init = some L ∧
      L.U (R.localCell (R.P.nx - 1) 0 0) IA = want := by
  obtain ⟨x1, x2, x3⟩ := Run.half_nx h
  obtain ⟨y1, y2, y3⟩ := Run.half_ny h
  have hgw := h.ghost
  have fA : IA ∈ R.fields := by simp [Run.fields, hm]
  have hz0 : (if R.d3 = true then (0 : Int) / 2 else 0) = 0 := by split_ifs <;> rfl
  let w0 := W IA ⟨px * (R.P.nx / 2) + (R.P.nx / 2 - 1), py * (R.P.ny / 2) + 0,
    if R.d3 then pz * (R.P.nz / 2) + 0 else 0⟩
  obtain ⟨L, b, l1, -, -, l4, l5, l6⟩ := load_refined h hF (Or.inr ⟨hg, rfl⟩) hW (fun _ => 2 * want - w0) init hpx hpy hpz
  refine ⟨_, L, l1, ?_⟩
  have hz : R.d3 = true → 1 ≤ R.P.nz / 2 := fun hd => (Run.half_nz h hd).2.1
  have fine : R.FineCell (R.P.nx - 1) 0 0 := by
    refine ⟨by omega, by omega, by omega, by omega, ?_⟩
    cases hd : R.d3
    · simp
    · have := hz hd; simp only [if_true]; omega
  have half : ∀ x, -R.P.ghostWidth ≤ x → x < R.P.nx / 2 + R.P.ghostWidth → R.HalfCell x 0 0 := by
    intro x a c
    refine ⟨a, c, by omega, by omega, ?_⟩
    cases hd : R.d3
    · simp
    · have := hz hd; simp only [if_true]; omega
  have e1 := l4 IA fA (R.P.nx / 2 - 1) 0 0 (half _ (by omega) (by omega))
    (Or.inr ⟨by omega, by omega, by omega, by omega, fun hd => ⟨by omega, by have := hz hd; omega⟩⟩)
  have e2 := l5 IA fA (R.P.nx / 2) 0 0 (half _ (by omega) (by omega)) hg (fun hh => by omega)
  rw [l6 IA fA _ (Run.fine_has fine)]
  unfold Run.halfValue
  rw [Run.halfReads_eq h fine IA]
  rw [hz0]
  simp only [if_true, show ((R.P.nx - 1) % 2 = 1) by omega, show (R.P.nx - 1) / 2 = R.P.nx / 2 - 1 by omega,
    Int.zero_ediv, sub_add_cancel]
  rw [e1, e2]
  rops
  simp only [w0]
  ring

/-- Internal energy of an MHD cell: total minus kinetic minus magnetic energy of the mean of opposite faces. -/
noncomputable def internal (U : Cell → Nat → ℝ) (c : Cell) : ℝ :=
  U c 1 - (U c 2 ^ 2 + U c 3 ^ 2 + U c 4 ^ 2) / (2 * U c 0) -
    (((U c 5 + U (nextCell 0 c) 5) / 2) ^ 2 + ((U c 6 + U (nextCell 1 c) 6) / 2) ^ 2 +
      ((U c 7 + U (nextCell 2 c) 7) / 2) ^ 2) / 2

/-- **C115.**  The energy is copied while the magnetic energy changes: a coarse state with positive internal energy everywhere
can be refined to one with a negative one. -/
theorem C115_pressure : ∃ W : Nat → Cell → ℝ, (∀ c, 0 < W 0 c ∧ 0 < internal (fun c v => W v c) c) ∧
    (∀ c, divOf true 1 1 1 (W 5) (W 6) (W 7) c = 0) ∧
    ∃ c, internal (fun c v => refined true v (W v) c) c < 0 := by
  refine ⟨fun v c => if v = 0 then 1 else if v = 1 then (((c.i : ℝ) + 1 / 2) ^ 2 + ((c.j : ℝ) + 1 / 2) ^ 2) / 2 + 1 / 10
    else if v = 5 then (c.i : ℝ) else if v = 6 then -(c.j : ℝ) else 0, ?_, ?_, ⟨1, 1, 0⟩, ?_⟩
  · intro c
    refine ⟨by simp, ?_⟩
    simp [internal, nextCell]
    ring_nf
    norm_num
  · intro c
    simp [divOf, nextCell]
  · norm_num [internal, nextCell, refined, refinedFace, refinedCell, between, parent]

/-- **C115.**  The file a coarse run on one process writes with its ghost cells is such a file: it holds the coarse state. -/
theorem C115_source {Q : Run} (hQ : Q.Well) (hF : Q.Fits) (hre : Q.reassemble = true) (hg : Q.ghosts = .outer)
    (h1 : Q.mx = 1) (h2 : Q.my = 1) (h3 : Q.mz = 1) (U : Cell → Nat → ℝ) (junk : Nat → ℝ) (fill : ℝ) (step : Int) (time : ℝ) :
    ∃ F, Q.save [0] (fun _ => U) junk fill step time = some F ∧ F.step = step ∧ F.time = time ∧
      Holds Q.d3 Q.fields F Q.P.ghostWidth.toNat Q.P.nx.toNat Q.P.ny.toNat Q.P.nz.toNat
        (fun v c => U ⟨Q.P.ghostWidth + c.i, Q.P.ghostWidth + c.j, if Q.d3 then Q.P.ghostWidth + c.k else 0⟩ v) := by
  have hgw := hQ.grid.ghost
  have hnx := hQ.grid.nx
  have hny := hQ.grid.ny
  have hp : Q.procs = 1 := by unfold Run.procs; rw [h1, h2, h3]
  have hpl : Q.place 0 = (0, 0, 0) := by
    obtain ⟨a, b, c⟩ := Q.place_lt hQ (r := 0) (by omega)
    ext <;> simp only <;> omega
  have hst : (Q.assembled 0).start = Q.rev 0 0 0 := by
    rw [Q.assembled_start, hpl, hg]
    simp [Ghosts.first]
  have hms : Q.memory.start = Q.rev 0 0 0 := by unfold Run.memory; rw [hg]
  have hdims : (Q.assembled 0).dims = Q.rev (Q.P.nx.toNat + 2 * Q.P.ghostWidth.toNat) (Q.P.ny.toNat + 2 * Q.P.ghostWidth.toNat)
      (Q.P.nz.toNat + 2 * Q.P.ghostWidth.toNat) := by
    rw [Q.assembled_dims, hg, h1, h2, h3]
    simp [Ghosts.whole]
  obtain ⟨F, D, f1, f2, f3, f4⟩ := save_agree hQ hF hre (order := [0]) (by simp [hp]) (fun _ => U) junk fill step time
    (fun v idx => U (Q.cellAt idx) v) (by
      intro v _ r hr a _
      simp only [List.mem_singleton] at hr
      rw [hr, hst, hms])
  refine ⟨F, f1, f2, f3, fun v hv => ?_, fun v hv x y z hx hy hz => ?_⟩
  · obtain ⟨a, b, -⟩ := f4 v hv
    rw [File.extent, a, Option.map_some, b, hdims]
    unfold Run.rev
    split_ifs <;> rfl
  · obtain ⟨a, b, c⟩ := f4 v hv
    rw [hdims] at b
    have hz' : Q.d3 = true → z < Q.P.nz.toNat + 2 * Q.P.ghostWidth.toNat := fun hd => by
      rw [hd] at hz; simpa using hz
    rw [value_eq a b hx hy hz']
    have hm : Q.rev x y z ∈ indices Q.memory.count := by
      unfold Run.memory
      simp only [hg, Ghosts.chunk]
      exact Run.rev_mem (by omega) (by omega) fun hd => by have := hz' hd; have := hQ.grid.nz hd; omega
    have e := c 0 (by simp) _ hm
    rw [hst, Q.shift_rev, zero_add, zero_add, zero_add, Q.cellAt_rev] at e
    rw [e]
    congr 2
    ext
    · simp only; omega
    · simp only; omega
    · simp only
      split_ifs
      · omega
      · rfl

/-! ## The hypotheses are satisfiable -/

/-- Eight processes with 16³ cells each start from a file of one process with 16³ cells. -/
example : (cube 16 .outer 2).Twice ∧ (cube 16 .outer 2).Fits ∧ (cube 16 .outer 2).mhd = true ∧
    ∃ (F : File ℝ) (W : Nat → Cell → ℝ), Holds (cube 16 .outer 2).d3 (cube 16 .outer 2).fields F (cube 16 .outer 2).P.ghostWidth.toNat
      ((cube 16 .outer 2).mx * ((cube 16 .outer 2).P.nx / 2).toNat) ((cube 16 .outer 2).my * ((cube 16 .outer 2).P.ny / 2).toNat)
      ((cube 16 .outer 2).mz * ((cube 16 .outer 2).P.nz / 2).toNat) W := by
  refine ⟨⟨⟨⟨?_, ?_, ?_, ?_⟩, ?_, ?_, ?_, ?_⟩, ?_, ?_, ?_, ?_⟩, ⟨?_, ?_⟩, rfl, ?_⟩
  case refine_15 =>
    obtain ⟨F, -, -, -, h⟩ := C115_source (Q := cube 16 .outer 1)
      ⟨⟨by simp [cube], by simp [cube], by simp [cube], by simp [cube]⟩, by simp [cube], by simp [cube], by simp [cube],
        by simp [cube]⟩
      ⟨by simp [cube, Run.total, Grid.isize, Grid.imax, Grid.imin, Grid.jsize, Grid.jmax, Grid.jmin, Grid.ksize,
          Grid.kmax, Grid.kmin],
        by simp [cube, Run.total, Run.fields, Grid.isize, Grid.imax, Grid.imin, Grid.jsize, Grid.jmax, Grid.jmin, Grid.ksize,
          Grid.kmax, Grid.kmin, ID, IE, IU, IV, IW, IA, IB, IC]⟩ rfl rfl rfl rfl rfl
      (fun c v => c.i + v) (fun _ => 0) 0 0 0
    exact ⟨F, _, h⟩
  all_goals
    simp [cube, Run.total, Run.fields, Grid.isize, Grid.imax, Grid.imin, Grid.jsize, Grid.jmax, Grid.jmin, Grid.ksize,
      Grid.kmax, Grid.kmin, ID, IE, IU, IV, IW, IA, IB, IC]

end Verif.Hdf5
