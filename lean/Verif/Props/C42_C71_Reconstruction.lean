import Mathlib.LinearAlgebra.Matrix.ToLin
import Mathlib.LinearAlgebra.Basis.VectorSpace
import Verif.Lemmas.MoodUnisolvence
import Verif.Props.C40_C41_Monomials

/-! C42: geometric terms and what the reconstruction of the MOOD solver reproduces;
C46: stencils; C71: the least squares problem of every stencil has a unique solution. -/

namespace Verif.Mood

open Verif ROps Spec

/-! ## C42: geometric terms -/

/-- C42: the geometric terms are the means of the monomials over the cells (2D). -/
theorem C42_moment_2D (dx dy : ℝ) (hx : dx ≠ 0) (hy : dy ≠ 0) (i j : ℤ) (n m : ℕ) :
    eval_moment2 dx dy i j n m = cellMean2 dx dy i j (fun x y => x ^ n * y ^ m) := by
  have h := cellMean2_poly hx hy i j (fun _ v => if v = 0 then n else m) 1 (fun _ => 1)
  simp only [Finset.sum_range_one, one_mul, if_true, one_ne_zero, if_false] at h
  rw [h, eval_moment2_real hx hy]

/-- C42: the geometric terms are the means of the monomials over the cells (3D). -/
theorem C42_moment_3D (dx dy dz : ℝ) (hx : dx ≠ 0) (hy : dy ≠ 0) (hz : dz ≠ 0) (i j k : ℤ)
    (n m l : ℕ) :
    eval_moment3 dx dy dz i j k n m l
      = cellMean3 dx dy dz i j k (fun x y z => x ^ n * y ^ m * z ^ l) := by
  have h := cellMean3_poly hx hy hz i j k
    (fun _ v => if v = 0 then n else if v = 1 then m else l) 1 (fun _ => 1)
  norm_num at h
  rw [h, eval_moment3_real hx hy hz]

/-- C42: the entries of the geometry matrix are the differences of the mean over the neighbour and
the mean over the cell itself (2D). -/
theorem C42_geometry_2D (dx dy dz : ℝ) (hx : dx ≠ 0) (hy : dy ≠ 0) (mm : ℕ → ℕ → ℕ) (o : Offset)
    (j : ℕ) :
    geometryEntry false dx dy dz mm o j
      = cellMean2 dx dy o.x o.y (fun x y => x ^ mm (j + 1) 0 * y ^ mm (j + 1) 1)
        - cellMean2 dx dy 0 0 (fun x y => x ^ mm (j + 1) 0 * y ^ mm (j + 1) 1) := by
  rw [← C42_moment_2D dx dy hx hy, ← C42_moment_2D dx dy hx hy]
  rfl

/-- C42: the same in 3D. -/
theorem C42_geometry_3D (dx dy dz : ℝ) (hx : dx ≠ 0) (hy : dy ≠ 0) (hz : dz ≠ 0)
    (mm : ℕ → ℕ → ℕ) (o : Offset) (j : ℕ) :
    geometryEntry true dx dy dz mm o j
      = cellMean3 dx dy dz o.x o.y o.z
          (fun x y z => x ^ mm (j + 1) 0 * y ^ mm (j + 1) 1 * z ^ mm (j + 1) 2)
        - cellMean3 dx dy dz 0 0 0
          (fun x y z => x ^ mm (j + 1) 0 * y ^ mm (j + 1) 1 * z ^ mm (j + 1) 2) := by
  rw [← C42_moment_3D dx dy dz hx hy hz, ← C42_moment_3D dx dy dz hx hy hz]
  rfl

example : eval_moment2 (2 : ℝ) 3 1 0 1 0 = cellMean2 2 3 1 0 (fun x y => x ^ 1 * y ^ 0) :=
  C42_moment_2D 2 3 (by norm_num) (by norm_num) 1 0 1 0

/-! ## C42: the reconstruction -/

/-- `pi` is a left inverse of the geometry matrix of the stencil points `nbr` -/
def IsLeftInverse (d3 : Bool) (dx dy dz : ℝ) (mm : ℕ → ℕ → ℕ) (nc : ℕ) (nbr : List Offset)
    (pi : ℕ → ℕ → ℝ) : Prop :=
  ∀ r < nc, ∀ c < nc,
    ∑ ik ∈ Finset.range nbr.length,
      pi r ik * geometryEntry d3 dx dy dz mm (nbr.getD ik ⟨0, 0, 0⟩) c = if r = c then 1 else 0

/-- coefficients the code finds in a cell, for the cell values `u` (`u ⟨0,0,0⟩` is the cell's own
value) -/
noncomputable def recon (nc : ℕ) (pi : ℕ → ℕ → ℝ) (offsets : List Offset) (u : Offset → ℝ) :
    ℕ → ℝ :=
  reconCoefs nc pi (u ⟨0, 0, 0⟩) ((nonCentre offsets).map fun o => u o - u ⟨0, 0, 0⟩)

theorem recon_coef (d3 : Bool) {dx dy dz : ℝ} {mm : ℕ → ℕ → ℕ} {nc : ℕ} {pi : ℕ → ℕ → ℝ}
    {offsets : List Offset}
    (hpi : IsLeftInverse d3 dx dy dz mm nc (nonCentre offsets) pi) (p : ℕ → ℝ) (u : Offset → ℝ)
    (hu : ∀ o, u o - u ⟨0, 0, 0⟩
      = ∑ c ∈ Finset.range nc, geometryEntry d3 dx dy dz mm o c * p (c + 1))
    (r : ℕ) (hr : r < nc) : recon nc pi offsets u (r + 1) = p (r + 1) := by
  refine reconCoefs_leftInverse nc (nonCentre offsets).length pi
    (fun ik c => geometryEntry d3 dx dy dz mm ((nonCentre offsets).getD ik ⟨0, 0, 0⟩) c) p _ _
    (by simp) hpi ?_ r hr
  intro ik hik
  rw [← hu]
  simp [List.getD_eq_getElem?_getD, hik]

/-- shift of the constant coefficient of the 2D reconstruction -/
noncomputable def shift2 (dx dy : ℝ) (mm : ℕ → ℕ → ℕ) (nc : ℕ) (p : ℕ → ℝ) : ℝ :=
  ∑ k ∈ Finset.range nc,
    p (k + 1) * cellMean2 dx dy 0 0 (fun x y => x ^ mm (k + 1) 0 * y ^ mm (k + 1) 1)

/-- shift of the constant coefficient of the 3D reconstruction -/
noncomputable def shift3 (dx dy dz : ℝ) (mm : ℕ → ℕ → ℕ) (nc : ℕ) (p : ℕ → ℝ) : ℝ :=
  ∑ k ∈ Finset.range nc,
    p (k + 1) * cellMean3 dx dy dz 0 0 0
      (fun x y z => x ^ mm (k + 1) 0 * y ^ mm (k + 1) 1 * z ^ mm (k + 1) 2)

/-- C42 (2D): if the values of the stencil cells are the cell means of a polynomial `p`, the
polynomial the code evaluates is `p` plus the constant `Σ p_k mean(monomial_k)` (the sum is over
the non-constant monomials, the mean over the cell). -/
theorem C42_reconstruction_2D (dx dy dz : ℝ) (hx : dx ≠ 0) (hy : dy ≠ 0) (mm : ℕ → ℕ → ℕ)
    (h0 : mm 0 0 = 0 ∧ mm 0 1 = 0) (nc : ℕ) (pi : ℕ → ℕ → ℝ) (offsets : List Offset)
    (hpi : IsLeftInverse false dx dy dz mm nc (nonCentre offsets) pi) (p : ℕ → ℝ) (x y : ℝ) :
    eval2 mm (nc + 1) x y
        (recon nc pi offsets
          (fun o => cellMean2 dx dy o.x o.y (fun x y => eval2 mm (nc + 1) x y p)))
      = eval2 mm (nc + 1) x y p + shift2 dx dy mm nc p := by
  have hmean : ∀ i j : ℤ, cellMean2 dx dy i j (fun x y => eval2 mm (nc + 1) x y p)
      = p 0 + ∑ k ∈ Finset.range nc,
          p (k + 1) * (mom dx i (mm (k + 1) 0) * mom dy j (mm (k + 1) 1)) := by
    intro i j
    simp only [eval2_real]
    rw [cellMean2_poly hx hy, Finset.sum_range_succ', h0.1, h0.2, mom_zero_exp, mom_zero_exp]
    ring
  have hu : ∀ o : Offset,
      cellMean2 dx dy o.x o.y (fun x y => eval2 mm (nc + 1) x y p)
        - cellMean2 dx dy 0 0 (fun x y => eval2 mm (nc + 1) x y p)
      = ∑ c ∈ Finset.range nc, geometryEntry false dx dy dz mm o c * p (c + 1) := by
    intro o
    rw [hmean, hmean, add_sub_add_left_eq_sub, ← Finset.sum_sub_distrib]
    refine Finset.sum_congr rfl fun k _ => ?_
    show _ = (eval_moment2 dx dy o.x o.y _ _ - eval_moment2 dx dy 0 0 _ _) * _
    rw [eval_moment2_real hx hy, eval_moment2_real hx hy]
    ring
  rw [eval2_real, eval2_real, Finset.sum_range_succ', Finset.sum_range_succ', h0.1, h0.2]
  have hc : ∀ k ∈ Finset.range nc,
      recon nc pi offsets
          (fun o => cellMean2 dx dy o.x o.y (fun x y => eval2 mm (nc + 1) x y p)) (k + 1)
        * x ^ mm (k + 1) 0 * y ^ mm (k + 1) 1
      = p (k + 1) * x ^ mm (k + 1) 0 * y ^ mm (k + 1) 1 := by
    intro k hk
    rw [recon_coef false hpi p _ hu k (Finset.mem_range.1 hk)]
  rw [Finset.sum_congr rfl hc]
  have h00 : recon nc pi offsets
      (fun o => cellMean2 dx dy o.x o.y (fun x y => eval2 mm (nc + 1) x y p)) 0
      = p 0 + shift2 dx dy mm nc p := by
    show cellMean2 dx dy 0 0 _ = _
    rw [hmean]
    unfold shift2
    congr 1
    refine Finset.sum_congr rfl fun k _ => ?_
    rw [← C42_moment_2D dx dy hx hy, eval_moment2_real hx hy]
  rw [h00]
  ring

/-- C42 (3D): the same statement in three dimensions. -/
theorem C42_reconstruction_3D (dx dy dz : ℝ) (hx : dx ≠ 0) (hy : dy ≠ 0) (hz : dz ≠ 0)
    (mm : ℕ → ℕ → ℕ) (h0 : mm 0 0 = 0 ∧ mm 0 1 = 0 ∧ mm 0 2 = 0) (nc : ℕ) (pi : ℕ → ℕ → ℝ)
    (offsets : List Offset)
    (hpi : IsLeftInverse true dx dy dz mm nc (nonCentre offsets) pi) (p : ℕ → ℝ) (x y z : ℝ) :
    eval3 mm (nc + 1) x y z
        (recon nc pi offsets
          (fun o => cellMean3 dx dy dz o.x o.y o.z (fun x y z => eval3 mm (nc + 1) x y z p)))
      = eval3 mm (nc + 1) x y z p + shift3 dx dy dz mm nc p := by
  have hmean : ∀ i j l : ℤ, cellMean3 dx dy dz i j l (fun x y z => eval3 mm (nc + 1) x y z p)
      = p 0 + ∑ k ∈ Finset.range nc,
          p (k + 1)
            * (mom dx i (mm (k + 1) 0) * mom dy j (mm (k + 1) 1) * mom dz l (mm (k + 1) 2)) := by
    intro i j l
    simp only [eval3_real]
    rw [cellMean3_poly hx hy hz, Finset.sum_range_succ', h0.1, h0.2.1, h0.2.2, mom_zero_exp,
      mom_zero_exp, mom_zero_exp]
    ring
  have hu : ∀ o : Offset,
      cellMean3 dx dy dz o.x o.y o.z (fun x y z => eval3 mm (nc + 1) x y z p)
        - cellMean3 dx dy dz 0 0 0 (fun x y z => eval3 mm (nc + 1) x y z p)
      = ∑ c ∈ Finset.range nc, geometryEntry true dx dy dz mm o c * p (c + 1) := by
    intro o
    rw [hmean, hmean, add_sub_add_left_eq_sub, ← Finset.sum_sub_distrib]
    refine Finset.sum_congr rfl fun k _ => ?_
    show _ = (eval_moment3 dx dy dz o.x o.y o.z _ _ _ - eval_moment3 dx dy dz 0 0 0 _ _ _) * _
    rw [eval_moment3_real hx hy hz, eval_moment3_real hx hy hz]
    ring
  rw [eval3_real, eval3_real, Finset.sum_range_succ', Finset.sum_range_succ', h0.1, h0.2.1,
    h0.2.2]
  have hc : ∀ k ∈ Finset.range nc,
      recon nc pi offsets
          (fun o => cellMean3 dx dy dz o.x o.y o.z (fun x y z => eval3 mm (nc + 1) x y z p)) (k + 1)
        * x ^ mm (k + 1) 0 * y ^ mm (k + 1) 1 * z ^ mm (k + 1) 2
      = p (k + 1) * x ^ mm (k + 1) 0 * y ^ mm (k + 1) 1 * z ^ mm (k + 1) 2 := by
    intro k hk
    rw [recon_coef true hpi p _ hu k (Finset.mem_range.1 hk)]
  rw [Finset.sum_congr rfl hc]
  have h00 : recon nc pi offsets
      (fun o => cellMean3 dx dy dz o.x o.y o.z (fun x y z => eval3 mm (nc + 1) x y z p)) 0
      = p 0 + shift3 dx dy dz mm nc p := by
    show cellMean3 dx dy dz 0 0 0 _ = _
    rw [hmean]
    unfold shift3
    congr 1
    refine Finset.sum_congr rfl fun k _ => ?_
    rw [← C42_moment_3D dx dy dz hx hy hz, eval_moment3_real hx hy hz]
  rw [h00]
  ring

/-- C42 (2D): the mean over the cell of the polynomial with the reconstructed coefficients `c` is
not the cell value `c 0` but `c 0` plus the means of the other terms. -/
theorem C42_own_mean_2D (dx dy : ℝ) (hx : dx ≠ 0) (hy : dy ≠ 0) (mm : ℕ → ℕ → ℕ)
    (h0 : mm 0 0 = 0 ∧ mm 0 1 = 0) (nc : ℕ) (pi : ℕ → ℕ → ℝ) (offsets : List Offset)
    (u : Offset → ℝ) :
    cellMean2 dx dy 0 0 (fun x y => eval2 mm (nc + 1) x y (recon nc pi offsets u))
      = u ⟨0, 0, 0⟩ + shift2 dx dy mm nc (recon nc pi offsets u) := by
  simp only [eval2_real]
  rw [cellMean2_poly hx hy, Finset.sum_range_succ', h0.1, h0.2, mom_zero_exp, mom_zero_exp]
  unfold shift2
  simp only [← C42_moment_2D dx dy hx hy, eval_moment2_real hx hy]
  show _ + u ⟨0, 0, 0⟩ * (1 * 1) = _
  ring

/-- C42 (3D): the same statement in three dimensions. -/
theorem C42_own_mean_3D (dx dy dz : ℝ) (hx : dx ≠ 0) (hy : dy ≠ 0) (hz : dz ≠ 0)
    (mm : ℕ → ℕ → ℕ) (h0 : mm 0 0 = 0 ∧ mm 0 1 = 0 ∧ mm 0 2 = 0) (nc : ℕ) (pi : ℕ → ℕ → ℝ)
    (offsets : List Offset) (u : Offset → ℝ) :
    cellMean3 dx dy dz 0 0 0 (fun x y z => eval3 mm (nc + 1) x y z (recon nc pi offsets u))
      = u ⟨0, 0, 0⟩ + shift3 dx dy dz mm nc (recon nc pi offsets u) := by
  simp only [eval3_real]
  rw [cellMean3_poly hx hy hz, Finset.sum_range_succ', h0.1, h0.2.1, h0.2.2, mom_zero_exp,
    mom_zero_exp, mom_zero_exp]
  unfold shift3
  simp only [← C42_moment_3D dx dy dz hx hy hz, eval_moment3_real hx hy hz]
  show _ + u ⟨0, 0, 0⟩ * (1 * 1 * 1) = _
  ring

/-- C42: no shift if every non-constant monomial has an odd exponent, in particular for degree 1:
there the cell mean is reproduced and linear data are reconstructed exactly. -/
theorem C42_no_shift (dx dy dz : ℝ) (hx : dx ≠ 0) (hy : dy ≠ 0) (hz : dz ≠ 0)
    (mm : ℕ → ℕ → ℕ) (nc : ℕ) (p : ℕ → ℝ) :
    ((∀ k < nc, mm (k + 1) 0 % 2 = 1 ∨ mm (k + 1) 1 % 2 = 1) → shift2 dx dy mm nc p = 0) ∧
    ((∀ k < nc, mm (k + 1) 0 % 2 = 1 ∨ mm (k + 1) 1 % 2 = 1 ∨ mm (k + 1) 2 % 2 = 1) →
      shift3 dx dy dz mm nc p = 0) := by
  constructor
  · intro h
    unfold shift2
    refine Finset.sum_eq_zero fun k hk => ?_
    rw [← C42_moment_2D dx dy hx hy, eval_moment2_real hx hy]
    rcases h k (Finset.mem_range.1 hk) with h | h
    · rw [mom_odd dx h]; ring
    · rw [mom_odd dy h]; ring
  · intro h
    unfold shift3
    refine Finset.sum_eq_zero fun k hk => ?_
    rw [← C42_moment_3D dx dy dz hx hy hz, eval_moment3_real hx hy hz]
    rcases h k (Finset.mem_range.1 hk) with h | h | h
    · rw [mom_odd dx h]; ring
    · rw [mom_odd dy h]; ring
    · rw [mom_odd dz h]; ring

/-! ## C46: stencils -/

/-- C46: for every stencil except the 3D one of degree 4 the number of stored offsets is the size of
the array and of the compile-time table, the offsets are distinct, the centre is one of them (so
there are `size - 1` others, as the right-hand side and the geometry matrix are sized), and 2D
stencils stay in the plane. -/
theorem C46_stencil (id : StencilId) (h : id ≠ .d3deg4) :
    (init_stencil id).length = get_stencil_size id ∧
    STENCIL_SIZE id = get_stencil_size id ∧
    STENCIL_DEGREE id = get_stencil_degree id ∧
    (stencilOffsets id).Nodup ∧
    ⟨0, 0, 0⟩ ∈ stencilOffsets id ∧
    (nonCentre (stencilOffsets id)).length = STENCIL_SIZE id - 1 ∧
    (id.is3d = false → ∀ o ∈ stencilOffsets id, o.z = 0) := by
  cases id
  case d3deg4 => exact absurd rfl h
  all_goals decide +kernel

/-- C46 is false for the 3D stencil of degree 4: only 57 offsets are stored in the array of 63, the
last six entries repeat the centre.  The right-hand side of the least squares problem (62 entries,
`src/mood/MoodPolynomialReconstructionFunctors.h:163`) gets 56 values, the other six are read
uninitialised. -/
theorem C46_degree4_3D_fails :
    (init_stencil .d3deg4).length = 57 ∧ get_stencil_size .d3deg4 = 63 ∧
    ¬ (stencilOffsets .d3deg4).Nodup ∧
    (nonCentre (stencilOffsets .d3deg4)).length = 56 ∧ STENCIL_SIZE .d3deg4 - 1 = 62 := by
  decide +kernel

/-- all offsets are within one less than the ghost width -/
theorem stencil_reach (id : StencilId) : ∀ o ∈ stencilOffsets id,
    -((get_stencil_ghostwidth id : ℤ) - 1) ≤ o.x ∧ o.x ≤ (get_stencil_ghostwidth id : ℤ) - 1 ∧
    -((get_stencil_ghostwidth id : ℤ) - 1) ≤ o.y ∧ o.y ≤ (get_stencil_ghostwidth id : ℤ) - 1 ∧
    -((get_stencil_ghostwidth id : ℤ) - 1) ≤ o.z ∧ o.z ≤ (get_stencil_ghostwidth id : ℤ) - 1 := by
  cases id <;> decide +kernel

/-- C46: with the ghost width chosen for the stencil, every stencil point of every cell at most one
cell away from the domain (the cells whose polynomial the flux computation uses) is inside the
array, whatever the array size. -/
theorem C46_in_bounds (id : StencilId) (isize jsize ksize i j k : ℤ)
    (hi : (get_stencil_ghostwidth id : ℤ) - 1 ≤ i ∧ i < isize - get_stencil_ghostwidth id + 1)
    (hj : (get_stencil_ghostwidth id : ℤ) - 1 ≤ j ∧ j < jsize - get_stencil_ghostwidth id + 1)
    (hk : (get_stencil_ghostwidth id : ℤ) - 1 ≤ k ∧ k < ksize - get_stencil_ghostwidth id + 1) :
    ∀ o ∈ stencilOffsets id,
      (0 ≤ i + o.x ∧ i + o.x < isize) ∧ (0 ≤ j + o.y ∧ j + o.y < jsize) ∧
      (0 ≤ k + o.z ∧ k + o.z < ksize) := by
  intro o ho
  have := stencil_reach id o ho
  omega

example : ∀ o ∈ stencilOffsets .d2deg4, (0 ≤ 2 + o.x ∧ 2 + o.x < 16) ∧ (0 ≤ 13 + o.y ∧ 13 + o.y < 16)
    ∧ (0 ≤ 2 + o.z ∧ 2 + o.z < 6) :=
  C46_in_bounds .d2deg4 16 16 6 2 13 2 (by decide) (by decide) (by decide)

/-- C46: the stencil selected by name is the one with this name, for both name tables; an unknown
name selects none; and the run-time and compile-time selection by dimension and degree agree. -/
theorem C46_names :
    (∀ id, stencilIdFromName solver_name (solver_name id) = some id) ∧
    (∀ id, stencilIdFromName stencil_name (stencil_name id) = some id) ∧
    (∀ name id, stencilIdFromName solver_name name = some id → name = solver_name id) ∧
    (∀ dim degree : ℕ, (dim = 2 ∨ dim = 3) → 1 ≤ degree → degree ≤ 5 →
      ∃ id, select_stencil dim degree = some id ∧ stencilMapp dim degree = some id ∧
        STENCIL_DEGREE id = degree ∧ id.is3d = decide (dim = 3)) := by
  refine ⟨fun id => by cases id <;> decide +kernel, fun id => by cases id <;> decide +kernel, ?_, ?_⟩
  · intro name id h
    unfold stencilIdFromName at h
    simpa using List.find?_some h
  · intro dim degree hd h1 h5
    rcases hd with rfl | rfl <;> interval_cases degree <;>
      exact ⟨_, rfl, rfl, rfl, rfl⟩

/-! ## C71: solvability -/

/-- the dimension of a stencil -/
def StencilId.dim (id : StencilId) : ℕ := if id.is3d then 3 else 2

/-- check that the nodes of all differences of total order at most the degree belong to the
stencil -/
def nodesOk (id : StencilId) : Bool :=
  (List.range 6).all fun a => (List.range 6).all fun b => (List.range 6).all fun c =>
    !decide (a + b + c ≤ STENCIL_DEGREE id) || (!id.is3d && !decide (c = 0)) ||
      (List.range (a + 1)).all fun t => (List.range (b + 1)).all fun u =>
        (List.range (c + 1)).all fun v =>
          (stencilOffsets id).contains ⟨lo a + (t : ℕ), lo b + (u : ℕ), lo c + (v : ℕ)⟩

theorem nodesOk_all (id : StencilId) : nodesOk id = true := by
  cases id <;> decide +kernel

/-- the nodes of all differences of total order at most the degree belong to the stencil -/
theorem stencil_nodes (id : StencilId) (a b c : ℕ) (ha : a < 6) (hb : b < 6) (hc : c < 6)
    (hs : a + b + c ≤ STENCIL_DEGREE id) (h2 : id.is3d = false → c = 0) (t u v : ℕ)
    (ht : t < a + 1) (hu : u < b + 1) (hv : v < c + 1) :
    (⟨lo a + (t : ℕ), lo b + (u : ℕ), lo c + (v : ℕ)⟩ : Offset) ∈ stencilOffsets id := by
  have h := nodesOk_all id
  unfold nodesOk at h
  have h := List.all_eq_true.1 h a (List.mem_range.2 ha)
  have h := List.all_eq_true.1 h b (List.mem_range.2 hb)
  have h := List.all_eq_true.1 h c (List.mem_range.2 hc)
  have h1 : (!decide (a + b + c ≤ STENCIL_DEGREE id)) = false := by simp [hs]
  have h3 : (!id.is3d && !decide (c = 0)) = false := by
    cases h3 : id.is3d
    · simp [h2 h3]
    · simp
  rw [h1, h3, Bool.false_or, Bool.false_or] at h
  have h := List.all_eq_true.1 h t (List.mem_range.2 ht)
  have h := List.all_eq_true.1 h u (List.mem_range.2 hu)
  have h := List.all_eq_true.1 h v (List.mem_range.2 hv)
  simpa using h

theorem stencil_plane (id : StencilId) (h : id.is3d = false) : ∀ o ∈ stencilOffsets id, o.z = 0 := by
  revert h
  cases id <;> decide +kernel

/-- what property C40 gives about the exponents read from the table -/
theorem table_facts {dim degree fuel : ℕ} (hd : dim = 2 ∨ dim = 3)
    {data : ℕ → Option (List ℕ)} (hdata : init_map dim degree fuel = some data)
    (hf : (degree + dim).choose degree < fuel) :
    (∀ k < (degree + dim).choose degree,
      monomExp data k 0 + monomExp data k 1 + monomExp data k 2 ≤ degree) ∧
    (dim = 2 → ∀ k, k < (degree + dim).choose degree → monomExp data k 2 = 0) ∧
    (∀ k < (degree + dim).choose degree, ∀ k' < (degree + dim).choose degree,
      monomExp data k 0 = monomExp data k' 0 → monomExp data k 1 = monomExp data k' 1 →
      monomExp data k 2 = monomExp data k' 2 → k = k') ∧
    (monomExp data 0 0 = 0 ∧ monomExp data 0 1 = 0 ∧ monomExp data 0 2 = 0) := by
  obtain ⟨data', h', hrow, hbeyond, huniq, -, hzero⟩ := C40_table dim degree fuel hd hf
  obtain rfl : data' = data := Option.some.inj (h'.symm.trans hdata)
  refine ⟨?_, ?_, ?_, ?_⟩
  · intro k hk
    obtain ⟨r, hr, hlen, hsum⟩ := hrow k hk
    rcases hd with rfl | rfl
    · match r, hlen with
      | [a, b], _ => simp [monomExp, hr] at hsum ⊢; omega
    · match r, hlen with
      | [a, b, c], _ => simp [monomExp, hr] at hsum ⊢; omega
  · rintro rfl k hk
    obtain ⟨r, hr, hlen, -⟩ := hrow k hk
    match r, hlen with
    | [a, b], _ => simp [monomExp, hr]
  · intro k hk k' hk' h0 h1 h2
    obtain ⟨r, hr, hlen, hsum⟩ := hrow k hk
    obtain ⟨r', hr', hlen', hsum'⟩ := hrow k' hk'
    have : r = r' := by
      rcases hd with rfl | rfl
      · match r, hlen, r', hlen' with
        | [a, b], _, [a', b'], _ => simp [monomExp, hr, hr'] at h0 h1 ⊢; exact ⟨h0, h1⟩
      · match r, hlen, r', hlen' with
        | [a, b, c], _, [a', b', c'], _ =>
          simp [monomExp, hr, hr'] at h0 h1 h2 ⊢; exact ⟨h0, h1, h2⟩
    subst this
    exact (huniq r hlen hsum).unique hr hr'
  · rcases hd with rfl | rfl <;> simp [monomExp, hzero, List.replicate]

theorem degree_le (id : StencilId) : STENCIL_DEGREE id ≤ 5 := by cases id <;> decide

theorem dim_cases (id : StencilId) : id.dim = 2 ∨ id.dim = 3 := by cases id <;> decide

/-- C71: for every stencil and all cell sizes the least squares problem has a unique solution: only
the zero vector of coefficients is mapped to zero by the geometry matrix. -/
theorem C71_unique (id : StencilId) (dx dy dz : ℝ) (hx : dx ≠ 0) (hy : dy ≠ 0) (hz : dz ≠ 0)
    (fuel : ℕ) (hf : (STENCIL_DEGREE id + id.dim).choose (STENCIL_DEGREE id) < fuel)
    (data : ℕ → Option (List ℕ)) (hdata : init_map id.dim (STENCIL_DEGREE id) fuel = some data)
    (c : ℕ → ℝ)
    (H : ∀ o ∈ nonCentre (stencilOffsets id),
      ∑ j ∈ Finset.range ((STENCIL_DEGREE id + id.dim).choose (STENCIL_DEGREE id) - 1),
        geometryEntry id.is3d dx dy dz (monomExp data) o j * c j = 0) :
    ∀ j < (STENCIL_DEGREE id + id.dim).choose (STENCIL_DEGREE id) - 1, c j = 0 := by
  obtain ⟨hdeg, hplane, hinj, hzero⟩ := table_facts (dim_cases id) hdata hf
  set N := (STENCIL_DEGREE id + id.dim).choose (STENCIL_DEGREE id) with hN
  have hNpos : 0 < N := Nat.choose_pos (by omega)
  set mm := monomExp data with hmm
  -- the third factor plays no role in 2D
  let dz' : ℝ := dz
  let m3 : Offset → ℕ → ℝ := fun o k =>
    mom dx o.x (mm k 0) * mom dy o.y (mm k 1) * mom dz o.z (mm k 2)
  have hentry : ∀ o ∈ stencilOffsets id, ∀ j < N - 1, geometryEntry id.is3d dx dy dz mm o j
      = m3 o (j + 1) - m3 ⟨0, 0, 0⟩ (j + 1) := by
    intro o ho j hj
    cases h3 : id.is3d with
    | false =>
      have hz0 := stencil_plane id h3 o ho
      have hdim : id.dim = 2 := by simp [StencilId.dim, h3]
      show eval_moment2 dx dy o.x o.y _ _ - eval_moment2 dx dy 0 0 _ _ = _
      rw [eval_moment2_real hx hy, eval_moment2_real hx hy]
      simp only [m3, hplane hdim (j + 1) (by omega), mom_zero_exp, mul_one]
    | true =>
      show eval_moment3 dx dy dz o.x o.y o.z _ _ _ - eval_moment3 dx dy dz 0 0 0 _ _ _ = _
      rw [eval_moment3_real hx hy hz, eval_moment3_real hx hy hz]
  -- coefficients with the constant term
  let c' : ℕ → ℝ := fun k =>
    if k = 0 then -∑ j ∈ Finset.range (N - 1), m3 ⟨0, 0, 0⟩ (j + 1) * c j else c (k - 1)
  have hall : ∀ k < N, c' k = 0 := by
    refine unisolvent hx hy hz N (STENCIL_DEGREE id) (degree_le id) (fun k => mm k 0)
      (fun k => mm k 1) (fun k => mm k 2) hinj hdeg (fun o => o ∈ stencilOffsets id) ?_ c' ?_
    · intro k hk t ht u hu v hv
      have hs := hdeg k hk
      have h5 := degree_le id
      refine stencil_nodes id _ _ _ (by omega) (by omega) (by omega) hs ?_ t u v (by omega)
        (by omega) (by omega)
      intro h3
      exact hplane (by simp [StencilId.dim, h3]) k hk
    · intro o ho
      have hsum : ∑ j ∈ Finset.range (N - 1), geometryEntry id.is3d dx dy dz mm o j * c j = 0 := by
        by_cases hc : o = ⟨0, 0, 0⟩
        · refine Finset.sum_eq_zero fun j hj => ?_
          rw [hentry o ho j (Finset.mem_range.1 hj), hc]; ring
        · refine H o ?_
          unfold nonCentre
          rw [List.mem_filter]
          refine ⟨ho, ?_⟩
          simp only [ne_eq, decide_not, Bool.or_eq_true, decide_eq_true_eq]
          by_contra hcon
          simp at hcon
          exact hc (by cases o; simp_all)
      rw [Finset.sum_congr rfl (fun j hj => by
        rw [hentry o ho j (Finset.mem_range.1 hj)])] at hsum
      have hsplit : N = (N - 1) + 1 := by omega
      rw [hsplit, Finset.sum_range_succ']
      have e0 : mom dx o.x (mm 0 0) * mom dy o.y (mm 0 1) * mom dz o.z (mm 0 2) = 1 := by
        rw [hzero.1, hzero.2.1, hzero.2.2, mom_zero_exp, mom_zero_exp, mom_zero_exp]; ring
      rw [e0]
      simp only [c', if_true, Nat.add_sub_cancel, Nat.succ_ne_zero, if_false]
      rw [mul_one, ← sub_eq_add_neg, ← Finset.sum_sub_distrib]
      rw [← hsum]
      refine Finset.sum_congr rfl fun j _ => ?_
      show c j * m3 o (j + 1) - _ = _
      ring
  intro j hj
  have := hall (j + 1) (by omega)
  simpa [c'] using this

/-- a matrix with trivial kernel has a left inverse -/
theorem exists_leftInverse (nr nc : ℕ) (G : ℕ → ℕ → ℝ)
    (h : ∀ c : ℕ → ℝ, (∀ i < nr, ∑ j ∈ Finset.range nc, G i j * c j = 0) → ∀ j < nc, c j = 0) :
    ∃ pi : ℕ → ℕ → ℝ, ∀ r < nc, ∀ c < nc,
      ∑ ik ∈ Finset.range nr, pi r ik * G ik c = if r = c then 1 else 0 := by
  let A : Matrix (Fin nr) (Fin nc) ℝ := Matrix.of fun i j => G i j
  have hker : LinearMap.ker A.mulVecLin = ⊥ := by
    rw [LinearMap.ker_eq_bot']
    intro v hv
    have := h (fun j => if hj : j < nc then v ⟨j, hj⟩ else 0) (by
      intro i hi
      have e := congrFun hv ⟨i, hi⟩
      rw [Finset.sum_range]
      simpa [A, Matrix.mulVec, dotProduct] using e)
    funext j
    simpa using this j j.2
  obtain ⟨g, hg⟩ := LinearMap.exists_leftInverse_of_injective A.mulVecLin hker
  refine ⟨fun r ik => if hr : r < nc then
    (if hik : ik < nr then g (Pi.single ⟨ik, hik⟩ 1) ⟨r, hr⟩ else 0) else 0, ?_⟩
  intro r hr c hc
  have e := congrFun (LinearMap.congr_fun hg (Pi.single ⟨c, hc⟩ 1)) ⟨r, hr⟩
  have hcol : A.mulVecLin (Pi.single ⟨c, hc⟩ 1) = ∑ i : Fin nr, G i c • Pi.single i (1 : ℝ) := by
    funext i
    simp [A, Matrix.mulVec_single, Pi.single_apply]
  rw [LinearMap.comp_apply, hcol, map_sum] at e
  simp only [map_smul, LinearMap.id_apply, Finset.sum_apply, Pi.smul_apply, smul_eq_mul] at e
  rw [Finset.sum_range]
  simp only [hr, Fin.is_lt, dif_pos]
  rw [Finset.sum_congr rfl (fun i _ => mul_comm _ _), e]
  simp [Pi.single_apply]

/-- C71: a left inverse of the geometry matrix exists for every stencil and all cell sizes (so the
hypothesis of `C42_reconstruction_2D` and `C42_reconstruction_3D` can be met; `C72` shows that the
matrix computed by the solver is one). -/
theorem C71_exists_left_inverse (id : StencilId) (dx dy dz : ℝ) (hx : dx ≠ 0) (hy : dy ≠ 0)
    (hz : dz ≠ 0) (fuel : ℕ)
    (hf : (STENCIL_DEGREE id + id.dim).choose (STENCIL_DEGREE id) < fuel)
    (data : ℕ → Option (List ℕ)) (hdata : init_map id.dim (STENCIL_DEGREE id) fuel = some data) :
    ∃ pi, IsLeftInverse id.is3d dx dy dz (monomExp data)
      ((STENCIL_DEGREE id + id.dim).choose (STENCIL_DEGREE id) - 1)
      (nonCentre (stencilOffsets id)) pi := by
  refine exists_leftInverse _ _ (fun ik c => geometryEntry id.is3d dx dy dz (monomExp data)
    ((nonCentre (stencilOffsets id)).getD ik ⟨0, 0, 0⟩) c) ?_
  intro c hc
  refine C71_unique id dx dy dz hx hy hz fuel hf data hdata c ?_
  intro o ho
  obtain ⟨i, hi, rfl⟩ := List.getElem_of_mem ho
  have := hc i hi
  simpa [List.getD_eq_getElem?_getD, hi] using this

/-! ## C42: exactness for degree 1, failure above -/

/-- C42: for the degree 1 stencils the reconstruction of every cell has the cell value as its mean,
and data that are the cell means of a linear function are reconstructed exactly. -/
theorem C42_degree_one (dx dy dz : ℝ) (hx : dx ≠ 0) (hy : dy ≠ 0) (hz : dz ≠ 0)
    (fuel : ℕ) (hf : 4 < fuel) :
    (∀ data, init_map 2 1 fuel = some data → ∀ pi (u : Offset → ℝ),
      cellMean2 dx dy 0 0
        (fun x y => eval2 (monomExp data) 3 x y (recon 2 pi (stencilOffsets .d2deg1) u))
        = u ⟨0, 0, 0⟩) ∧
    (∀ data, init_map 3 1 fuel = some data → ∀ pi (u : Offset → ℝ),
      cellMean3 dx dy dz 0 0 0
        (fun x y z => eval3 (monomExp data) 4 x y z (recon 3 pi (stencilOffsets .d3deg1) u))
        = u ⟨0, 0, 0⟩) ∧
    (∀ data, init_map 2 1 fuel = some data → ∀ pi,
      IsLeftInverse false dx dy dz (monomExp data) 2 (nonCentre (stencilOffsets .d2deg1)) pi →
      ∀ (p : ℕ → ℝ) (x y : ℝ),
        eval2 (monomExp data) 3 x y (recon 2 pi (stencilOffsets .d2deg1)
          (fun o => cellMean2 dx dy o.x o.y (fun x y => eval2 (monomExp data) 3 x y p)))
        = eval2 (monomExp data) 3 x y p) := by
  have odd2 : ∀ data, init_map 2 1 fuel = some data → ∀ k < 2,
      monomExp data (k + 1) 0 % 2 = 1 ∨ monomExp data (k + 1) 1 % 2 = 1 := by
    intro data hdata k hk
    obtain ⟨h1, h2, h3, h4⟩ := table_facts (Or.inl rfl) hdata (by
      show Nat.choose 3 1 < fuel
      norm_num; omega)
    have a := h1 (k + 1) (by show k + 1 < Nat.choose 3 1; norm_num; omega)
    have b := h2 rfl (k + 1) (by show k + 1 < Nat.choose 3 1; norm_num; omega)
    by_contra hcon
    push Not at hcon
    have := h3 (k + 1) (by show k + 1 < Nat.choose 3 1; norm_num; omega) 0
      (by show 0 < Nat.choose 3 1; norm_num) (by omega) (by omega) (by omega)
    omega
  have odd3 : ∀ data, init_map 3 1 fuel = some data → ∀ k < 3,
      monomExp data (k + 1) 0 % 2 = 1 ∨ monomExp data (k + 1) 1 % 2 = 1
        ∨ monomExp data (k + 1) 2 % 2 = 1 := by
    intro data hdata k hk
    obtain ⟨h1, h2, h3, h4⟩ := table_facts (Or.inr rfl) hdata (by
      show Nat.choose 4 1 < fuel
      norm_num; omega)
    have a := h1 (k + 1) (by show k + 1 < Nat.choose 4 1; norm_num; omega)
    by_contra hcon
    push Not at hcon
    have := h3 (k + 1) (by show k + 1 < Nat.choose 4 1; norm_num; omega) 0
      (by show 0 < Nat.choose 4 1; norm_num) (by omega) (by omega) (by omega)
    omega
  have zero2 : ∀ data, init_map 2 1 fuel = some data →
      monomExp data 0 0 = 0 ∧ monomExp data 0 1 = 0 := by
    intro data hdata
    have := (table_facts (Or.inl rfl) hdata (by
      show Nat.choose 3 1 < fuel
      norm_num; omega)).2.2.2
    exact ⟨this.1, this.2.1⟩
  refine ⟨?_, ?_, ?_⟩
  · intro data hdata pi u
    rw [C42_own_mean_2D dx dy hx hy _ (zero2 data hdata) 2,
      (C42_no_shift dx dy dz hx hy hz _ 2 _).1 (odd2 data hdata), add_zero]
  · intro data hdata pi u
    have := (table_facts (Or.inr rfl) hdata (by
      show Nat.choose 4 1 < fuel
      norm_num; omega)).2.2.2
    rw [C42_own_mean_3D dx dy dz hx hy hz _ this 3,
      (C42_no_shift dx dy dz hx hy hz _ 3 _).2 (odd3 data hdata), add_zero]
  · intro data hdata pi hpi p x y
    rw [C42_reconstruction_2D dx dy dz hx hy _ (zero2 data hdata) 2 pi _ hpi p x y,
      (C42_no_shift dx dy dz hx hy hz _ 2 _).1 (odd2 data hdata), add_zero]

/-- C42 is false for degree 2 and above.  For every 2D stencil of degree at least 2 and every left
inverse of its geometry matrix, the reconstruction of data that are the cell means of `x²` is `x²`
plus `dx²/12`: its mean over the cell is not the cell value, and quadratic data are not
reconstructed exactly. -/
theorem C42_fails_2D (id : StencilId) (h2 : id.is3d = false) (hdeg : 2 ≤ STENCIL_DEGREE id)
    (dx dy dz : ℝ) (hx : dx ≠ 0) (hy : dy ≠ 0)
    (fuel : ℕ) (hf : (STENCIL_DEGREE id + 2).choose (STENCIL_DEGREE id) < fuel)
    (data : ℕ → Option (List ℕ)) (hdata : init_map 2 (STENCIL_DEGREE id) fuel = some data)
    (pi : ℕ → ℕ → ℝ) (nc : ℕ) (hnc : nc + 1 = (STENCIL_DEGREE id + 2).choose (STENCIL_DEGREE id))
    (hpi : IsLeftInverse false dx dy dz (monomExp data) nc (nonCentre (stencilOffsets id)) pi) :
    let u : Offset → ℝ := fun o => cellMean2 dx dy o.x o.y (fun x _ => x ^ 2)
    let P : ℝ → ℝ → ℝ := fun x y =>
      eval2 (monomExp data) (nc + 1) x y (recon nc pi (stencilOffsets id) u)
    (∀ x y, P x y = x ^ 2 + dx ^ 2 / 12) ∧
    cellMean2 dx dy 0 0 P = u ⟨0, 0, 0⟩ + dx ^ 2 / 12 ∧
    cellMean2 dx dy 0 0 P ≠ u ⟨0, 0, 0⟩ := by
  intro u P
  obtain ⟨data', hd', -, -, huniq, -⟩ := C40_table 2 (STENCIL_DEGREE id) fuel (Or.inl rfl) hf
  obtain rfl : data' = data := Option.some.inj (hd'.symm.trans hdata)
  obtain ⟨-, -, hinj, hzero⟩ := table_facts (Or.inl rfl) hdata hf
  -- the row of x²
  obtain ⟨k, hk, -⟩ := huniq [2, 0] rfl (by simpa using hdeg)
  have hk0 : k < nc + 1 := by
    rw [hnc]
    obtain ⟨data'', h'', -, hbeyond, -⟩ := C40_table 2 (STENCIL_DEGREE id) fuel (Or.inl rfl) hf
    obtain rfl : data'' = data' := Option.some.inj (h''.symm.trans hdata)
    by_contra hcon
    rw [hbeyond k (by omega)] at hk
    cases hk
  have e0 : monomExp data' k 0 = 2 := by simp [monomExp, hk]
  have e1 : monomExp data' k 1 = 0 := by simp [monomExp, hk]
  obtain ⟨k', rfl⟩ : ∃ k', k = k' + 1 := by
    refine Nat.exists_eq_succ_of_ne_zero ?_
    rintro rfl
    rw [hzero.1] at e0
    cases e0
  let p : ℕ → ℝ := fun j => if j = k' + 1 then 1 else 0
  have hp : ∀ x y : ℝ, eval2 (monomExp data') (nc + 1) x y p = x ^ 2 := by
    intro x y
    rw [eval2_real, Finset.sum_eq_single (k' + 1)]
    · simp [p, e0, e1]
    · intro j _ hj; simp [p, hj]
    · intro h; exact absurd (Finset.mem_range.2 hk0) h
  have hmom : cellMean2 dx dy 0 0 (fun x y => x ^ 2 * y ^ 0) = dx ^ 2 / 12 := by
    rw [← C42_moment_2D dx dy hx hy, eval_moment2_real hx hy, mom_zero_exp]
    unfold mom
    norm_num
    ring
  have hshift : shift2 dx dy (monomExp data') nc p = dx ^ 2 / 12 := by
    unfold shift2
    rw [Finset.sum_eq_single k']
    · simp only [p, if_true, e0, e1, one_mul]
      exact hmom
    · intro j _ hj; simp [p, hj]
    · intro h; exact absurd (Finset.mem_range.2 (by omega)) h
  have hP : ∀ x y, P x y = x ^ 2 + dx ^ 2 / 12 := by
    intro x y
    have := C42_reconstruction_2D dx dy dz hx hy (monomExp data') ⟨hzero.1, hzero.2.1⟩ nc pi
      (stencilOffsets id) hpi p x y
    rw [hshift] at this
    simp only [hp] at this
    exact this
  have hpoly := cellMean2_poly hx hy 0 0 (fun k v => if k = 0 ∧ v = 0 then 2 else 0) 2
    (fun k => if k = 0 then 1 else dx ^ 2 / 12)
  have hmean : cellMean2 dx dy 0 0 P = u ⟨0, 0, 0⟩ + dx ^ 2 / 12 := by
    have h1 : cellMean2 dx dy 0 0 P = dx ^ 2 / 12 + dx ^ 2 / 12 := by
      have : P = fun x y => x ^ 2 + dx ^ 2 / 12 := by funext x y; exact hP x y
      rw [this]
      simp [Finset.sum_range_succ, mom_zero_exp] at hpoly
      rw [hpoly]
      unfold mom
      norm_num
      ring
    have h3 : u ⟨0, 0, 0⟩ = dx ^ 2 / 12 := by
      show cellMean2 dx dy 0 0 (fun x _ => x ^ 2) = _
      rw [← hmom]
      simp
    rw [h1, h3]
  refine ⟨hP, hmean, ?_⟩
  rw [hmean]
  have : 0 < dx ^ 2 / 12 := by positivity
  linarith

/-- the hypotheses of `C42_fails_2D` are met for the 3×3 stencil -/
example : ∃ data pi, init_map 2 2 10 = some data ∧
    IsLeftInverse false 1 1 1 (monomExp data) 5 (nonCentre (stencilOffsets .d2deg2)) pi := by
  obtain ⟨data, hdata, -⟩ := C40_table 2 2 10 (Or.inl rfl) (by decide)
  obtain ⟨pi, hpi⟩ := C71_exists_left_inverse .d2deg2 1 1 1 one_ne_zero one_ne_zero one_ne_zero 10
    (by decide) data hdata
  exact ⟨data, pi, hdata, hpi⟩

end Verif.Mood
