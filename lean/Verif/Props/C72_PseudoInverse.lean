import Mathlib.Analysis.InnerProductSpace.GramSchmidtOrtho
import Mathlib.LinearAlgebra.Matrix.Block
import Mathlib.LinearAlgebra.Matrix.DotProduct
import Mathlib.LinearAlgebra.Matrix.NonsingularInverse
import Mathlib.LinearAlgebra.Matrix.ToLinearEquiv
import Verif.Props.C42_C71_Reconstruction
import Verif.Props.C48_Matrix
import Verif.Spec.Lapack

/-! C72: the pseudo-inverse used in the MOOD reconstruction. -/

namespace Verif.Mood

open Verif ROps Mat Matrix InnerProductSpace

/-! ## linear algebra -/

theorem upperOf_triangular (n : ℕ) (R : Mat ℝ) : (upperOf n R).IsUpperTriangular := by
  intro i j hij
  exact if_neg (not_le.2 hij)

theorem upper_det {n : ℕ} {R : Mat ℝ} :
    (upperOf n R).det = ∏ i : Fin n, R.data (i * n + i) := by
  rw [det_of_isUpperTriangular (upperOf_triangular n R)]
  exact Finset.prod_congr rfl fun i _ => if_pos le_rfl

/-- two triangular solves give a left inverse that satisfies the normal equations -/
theorem pinv_algebra {m n : ℕ} {A Q : Matrix (Fin m) (Fin n) ℝ} {U : Matrix (Fin n) (Fin n) ℝ}
    (hQ : Qᵀ * Q = 1) (hA : A = Q * U) (hU : IsUnit U.det) {X P : Matrix (Fin n) (Fin m) ℝ}
    (hX : Uᵀ * X = Aᵀ) (hP : U * P = X) : P * A = 1 ∧ Aᵀ * A * P = Aᵀ := by
  have hU' : IsUnit Uᵀ.det := by rwa [det_transpose]
  have hAA : Aᵀ * A = Uᵀ * U := by
    rw [hA, transpose_mul, Matrix.mul_assoc, ← Matrix.mul_assoc Qᵀ, hQ, Matrix.one_mul]
  constructor
  · have h : Uᵀ * (U * (P * A)) = Uᵀ * (U * 1) := by
      rw [← Matrix.mul_assoc U, hP, ← Matrix.mul_assoc, hX, hAA, Matrix.mul_one]
    have h1 := congrArg (fun M => (Uᵀ)⁻¹ * M) h
    simp only [nonsing_inv_mul_cancel_left _ _ hU'] at h1
    have h2 := congrArg (fun M => U⁻¹ * M) h1
    simpa only [nonsing_inv_mul_cancel_left _ _ hU] using h2
  · rw [hAA, Matrix.mul_assoc, hP, hX]

/-- a solution of the normal equations minimises the residual -/
theorem least_squares {m n : ℕ} {A : Matrix (Fin m) (Fin n) ℝ} {P : Matrix (Fin n) (Fin m) ℝ}
    (h : Aᵀ * A * P = Aᵀ) (b : Fin m → ℝ) (x : Fin n → ℝ) :
    ∑ i, ((A *ᵥ (P *ᵥ b)) i - b i) ^ 2 ≤ ∑ i, ((A *ᵥ x) i - b i) ^ 2 := by
  set y := P *ᵥ b
  have horth : (A *ᵥ (x - y)) ⬝ᵥ (A *ᵥ y - b) = 0 := by
    rw [← vecMul_transpose, ← dotProduct_mulVec, mulVec_sub, mulVec_mulVec, mulVec_mulVec, h,
      sub_self, dotProduct_zero]
  have e : ∀ i, (A *ᵥ x) i - b i = (A *ᵥ (x - y)) i + ((A *ᵥ y) i - b i) := by
    intro i
    rw [mulVec_sub, Pi.sub_apply]
    ring
  have expand : ∑ i, ((A *ᵥ x) i - b i) ^ 2
      = ∑ i, ((A *ᵥ (x - y)) i) ^ 2 + 2 * ((A *ᵥ (x - y)) ⬝ᵥ (A *ᵥ y - b))
        + ∑ i, ((A *ᵥ y) i - b i) ^ 2 := by
    rw [dotProduct, Finset.mul_sum, ← Finset.sum_add_distrib, ← Finset.sum_add_distrib]
    refine Finset.sum_congr rfl fun i _ => ?_
    rw [e i, Pi.sub_apply]
    ring
  rw [expand, horth]
  have : 0 ≤ ∑ i, ((A *ᵥ (x - y)) i) ^ 2 := Finset.sum_nonneg fun i _ => sq_nonneg _
  linarith

/-! ## the program -/

/-- the matrix with the entries `f` -/
theorem matOf_eq {A : Mat ℝ} {m n : ℕ} {f : ℕ → ℕ → ℝ} (h : IsMatrix A m n f) :
    matOf m n A = Matrix.of fun (i : Fin m) (j : Fin n) => f i j := by
  funext i j
  exact h.data i.2 j.2

/-- C72: with correct LAPACK and BLAS routines, for a matrix with at least as many rows as columns
whose only kernel vector is zero, `compute_pseudo_inverse` yields an `n × m` matrix that is a left
inverse, and that maps every right-hand side to the least squares solution.  The output argument may
be a fresh matrix or one that already has the right sizes or another number of elements. -/
theorem C72_pseudo_inverse {L : Lapack ℝ} (hL : L.Correct) {A A_PI : Mat ℝ} {m n : ℕ}
    {f : ℕ → ℕ → ℝ} (h : IsMatrix A m n f) (hnm : n ≤ m)
    (hker : ∀ c : ℕ → ℝ, (∀ i < m, ∑ j ∈ Finset.range n, f i j * c j = 0) → ∀ j < n, c j = 0)
    (hlen : A_PI.len = A_PI.m * A_PI.n)
    (hout : (A_PI.m ≠ m ∧ A_PI.n ≠ m) ∨ A_PI.m * A_PI.n ≠ n * m ∨ (A_PI.m = n ∧ A_PI.n = m)) :
    ∃ B g, compute_pseudo_inverse L A A_PI = some B ∧ IsMatrix B n m g ∧
      (∀ r < n, ∀ c < n, ∑ k ∈ Finset.range m, g r k * f k c = if r = c then 1 else 0) ∧
      (∀ b x : ℕ → ℝ,
        ∑ i ∈ Finset.range m,
            (∑ j ∈ Finset.range n, f i j * (∑ k ∈ Finset.range m, g j k * b k) - b i) ^ 2
          ≤ ∑ i ∈ Finset.range m, (∑ j ∈ Finset.range n, f i j * x j - b i) ^ 2) := by
  obtain ⟨R0, eR, hR0⟩ := C48_copy h
  obtain ⟨T0, eT, hT0⟩ := C48_transpose hR0
  obtain ⟨q1, q2, q3, Q, hQ, hAQ⟩ := hL.qr m n R0 hR0.rows hR0.cols hR0.len hnm
  set R := L.dgeqrf R0 with hR
  obtain ⟨t1, t2, t3, hX⟩ := hL.trsm true n m R T0 (q1 ▸ hnm) q2 (q1.symm ▸ q3) hT0.rows hT0.cols
    hT0.len
  set X := L.dtrsm true n m R T0 with hXdef
  obtain ⟨p1, p2, p3, hP⟩ := hL.trsm false n m R X (q1 ▸ hnm) q2 (q1.symm ▸ q3) t1 t2 t3
  set P := L.dtrsm false n m R X with hPdef
  -- the diagonal of R has no zero
  have hA : matOf m n R0 = Matrix.of fun (i : Fin m) (j : Fin n) => f i j := matOf_eq hR0
  have hdet : (upperOf n R).det ≠ 0 := by
    intro h0
    obtain ⟨v, hv, hv0⟩ := exists_mulVec_eq_zero_iff.2 h0
    apply hv
    have hAv : (matOf m n R0) *ᵥ v = 0 := by
      rw [hAQ, ← mulVec_mulVec, hv0, mulVec_zero]
    have := hker (fun j => if hj : j < n then v ⟨j, hj⟩ else 0) fun i hi => by
      have e := congrFun hAv ⟨i, hi⟩
      rw [hA] at e
      rw [Finset.sum_range]
      simpa [Matrix.mulVec, dotProduct] using e
    funext j
    simpa using this j j.2
  have hdiag : ∀ i < n, R.data (i * n + i) ≠ 0 := by
    intro i hi
    have := hdet
    rw [upper_det, Finset.prod_ne_zero_iff] at this
    exact this ⟨i, hi⟩ (Finset.mem_univ _)
  have hX' := hX hdiag
  have hP' := hP hdiag
  simp only [if_true, Bool.false_eq_true, if_false] at hX' hP'
  have hT : matOf n m T0 = (matOf m n R0)ᵀ := by
    rw [hA, matOf_eq hT0]
    rfl
  rw [hT] at hX'
  obtain ⟨hleft, hnormal⟩ := pinv_algebra hQ hAQ (isUnit_iff_ne_zero.2 hdet) hX' hP'
  -- the assignment
  have hPm : IsMatrix P n m (fun i j => P.data (i * m + j)) :=
    .of_data p1 p2 p3 fun _ _ _ _ => rfl
  obtain ⟨B, eB, hB⟩ : ∃ B, (if A_PI.m ≠ A.m ∧ A_PI.n ≠ A.m then allocate A.m A.m else A_PI).assign
      P = some B ∧ IsMatrix B n m (fun i j => P.data (i * m + j)) := by
    rw [h.rows]
    by_cases hc : A_PI.m ≠ m ∧ A_PI.n ≠ m
    · rw [if_pos hc]
      refine C48_assign hPm rfl ?_
      show m * m ≠ n * m ∨ (m = n ∧ m = m)
      by_cases hmn : m = n
      · exact Or.inr ⟨hmn, rfl⟩
      · refine Or.inl fun e => hmn ?_
        rcases Nat.eq_zero_or_pos m with h0 | h0
        · omega
        · exact Nat.eq_of_mul_eq_mul_right h0 e
    · rw [if_neg hc]
      refine C48_assign hPm hlen ?_
      tauto
  refine ⟨B, _, ?_, hB, ?_, ?_⟩
  · unfold compute_pseudo_inverse
    simp only [eR, eT, h.rows, h.cols, Option.bind_eq_bind, Option.bind_some]
    rw [h.rows] at eB
    exact eB
  · intro r hr c hc
    have e := congrFun (congrFun hleft ⟨r, hr⟩) ⟨c, hc⟩
    rw [hA, Matrix.mul_apply, Matrix.one_apply] at e
    rw [Finset.sum_range]
    simpa [matOf] using e
  · intro b x
    have e := least_squares hnormal (fun i => b i) (fun j => x j)
    rw [hA] at e
    simp only [Finset.sum_range]
    simpa [Matrix.mulVec, dotProduct, matOf] using e

/-! ## the contract can be met -/

/-- every matrix with at least as many rows as columns has a QR factorisation -/
theorem exists_qr {m n : ℕ} (hnm : n ≤ m) (A : Matrix (Fin m) (Fin n) ℝ) :
    ∃ (Q : Matrix (Fin m) (Fin n) ℝ) (U : Matrix (Fin n) (Fin n) ℝ),
      Qᵀ * Q = 1 ∧ (∀ i j, j < i → U i j = 0) ∧ A = Q * U := by
  let f : Fin m → EuclideanSpace ℝ (Fin m) := fun j =>
    if hj : (j : ℕ) < n then WithLp.toLp 2 (fun i => A i ⟨j, hj⟩) else 0
  let b := gramSchmidtOrthonormalBasis (𝕜 := ℝ) (by simp) f
  let c : Fin n → Fin m := Fin.castLE hnm
  refine ⟨Matrix.of fun i k => b (c k) i, Matrix.of fun k j => inner ℝ (b (c k)) (f (c j)), ?_, ?_, ?_⟩
  · ext k l
    have e := orthonormal_iff_ite.1 b.orthonormal (c k) (c l)
    rw [PiLp.inner_apply] at e
    simp only [Matrix.mul_apply, Matrix.transpose_apply, Matrix.one_apply, Matrix.of_apply]
    rw [show (∑ i, b (c k) i * b (c l) i) = _ from
      (Finset.sum_congr rfl fun i _ => by simp [mul_comm]).trans e]
    congr 1
    exact propext ⟨fun h => Fin.castLE_injective hnm h, fun h => by rw [h]⟩
  · intro i j hij
    exact gramSchmidtOrthonormalBasis_inv_triangular _ f (by exact hij)
  · ext i j
    have e := b.sum_repr' (f (c j))
    have e2 := congrArg (fun v : EuclideanSpace ℝ (Fin m) => v i) e
    simp only [WithLp.ofLp_sum, Finset.sum_apply, PiLp.smul_apply, smul_eq_mul] at e2
    have hf : (f (c j)) i = A i j := by
      simp [f, c]
    rw [hf] at e2
    rw [← e2, Matrix.mul_apply]
    -- terms beyond column n vanish
    symm
    refine Finset.sum_of_injOn c ((Fin.castLE_injective hnm).injOn) (by simp) ?_ ?_
    · intro k _ hk
      have hlt : c j < k := by
        by_contra hle
        apply hk
        have hkn : (k : ℕ) < n := lt_of_le_of_lt (not_lt.1 hle) j.2
        exact ⟨⟨k, hkn⟩, by simp, rfl⟩
      rw [gramSchmidtOrthonormalBasis_inv_triangular _ f hlt, zero_mul]
    · intro k _
      exact mul_comm _ _

/-- an array holding a matrix -/
noncomputable def store2 (M m n : ℕ) (U : Matrix (Fin m) (Fin n) ℝ) : Mat ℝ where
  m := M
  n := n
  len := M * n
  data p := if h : p / n < m ∧ p % n < n then U ⟨p / n, h.1⟩ ⟨p % n, h.2⟩ else 0

theorem store2_data (M m n : ℕ) (U : Matrix (Fin m) (Fin n) ℝ) (i : Fin m) (j : Fin n) :
    (store2 M m n U).data (i * n + j) = U i j := by
  have hn : 0 < n := lt_of_le_of_lt (Nat.zero_le _) j.2
  have h1 : ((i : ℕ) * n + j) / n = i := by
    rw [mul_comm, Nat.mul_add_div hn, Nat.div_eq_of_lt j.2, add_zero]
  have h2 : ((i : ℕ) * n + j) % n = j := by
    rw [mul_comm, Nat.mul_add_mod, Nat.mod_eq_of_lt j.2]
  simp [store2, h1, h2]

/-- C72: routines that meet the contract exist (the hypothesis `Lapack.Correct` is not empty). -/
theorem C72_contract : ∃ L : Lapack ℝ, L.Correct := by
  classical
  have hqr : ∀ A : Mat ℝ, ∃ R : Mat ℝ, A.n ≤ A.m → R.m = A.m ∧ R.n = A.n ∧ R.len = A.m * A.n ∧
      ∃ Q : Matrix (Fin A.m) (Fin A.n) ℝ, Q.transpose * Q = 1 ∧
        matOf A.m A.n A = Q * upperOf A.n R := by
    intro A
    by_cases hnm : A.n ≤ A.m
    · obtain ⟨Q, U, hQ, hU, hA⟩ := exists_qr hnm (matOf A.m A.n A)
      refine ⟨store2 A.m A.n A.n U, fun _ => ⟨rfl, rfl, rfl, Q, hQ, ?_⟩⟩
      have : upperOf A.n (store2 A.m A.n A.n U) = U := by
        ext i j
        rw [upperOf, Matrix.of_apply]
        split
        · exact store2_data A.m A.n A.n U i j
        · rename_i h
          exact (hU i j (not_le.1 h)).symm
      rw [this]
      exact hA
    · exact ⟨A, fun h => absurd h hnm⟩
  choose qr hqr using hqr
  refine ⟨⟨qr, fun trans n m R B => store2 n n m
    ((if trans then (upperOf n R).transpose else upperOf n R)⁻¹ * matOf n m B)⟩, ?_, ?_⟩
  · rintro m n A rfl rfl hlen hnm
    exact hqr A hnm
  · rintro trans n m R B - - - - - -
    refine ⟨rfl, rfl, rfl, fun hd => ?_⟩
    have hdet : IsUnit (upperOf n R).det := by
      rw [upper_det, isUnit_iff_ne_zero, Finset.prod_ne_zero_iff]
      exact fun i _ => hd i i.2
    have hst : ∀ W : Matrix (Fin n) (Fin m) ℝ, matOf n m (store2 n n m W) = W := by
      intro W
      ext i j
      exact store2_data n n m W i j
    simp only [hst]
    cases trans
    · simp only [Bool.false_eq_true, if_false]
      exact mul_nonsing_inv_cancel_left _ _ hdet
    · simp only [if_true]
      exact mul_nonsing_inv_cancel_left _ _ (by rwa [det_transpose])

/-- C72 is false for an output argument of the sizes of the input: the result keeps the sizes
`(m, n)` although the pseudo-inverse has sizes `(n, m)`. -/
theorem C72_shape_fails {L : Lapack ℝ} (hL : L.Correct) {A A_PI : Mat ℝ} {m n : ℕ}
    {f : ℕ → ℕ → ℝ} (h : IsMatrix A m n f) (hnm : n < m) (hm : A_PI.m = m) (hn : A_PI.n = n)
    (hlen : A_PI.len = A_PI.m * A_PI.n) :
    ∃ B, compute_pseudo_inverse L A A_PI = some B ∧ B.m = m ∧ B.n = n ∧
      ∀ g, ¬ IsMatrix B n m g := by
  obtain ⟨R0, eR, hR0⟩ := C48_copy h
  obtain ⟨T0, eT, hT0⟩ := C48_transpose hR0
  obtain ⟨q1, q2, q3, -⟩ := hL.qr m n R0 hR0.rows hR0.cols hR0.len hnm.le
  obtain ⟨t1, t2, t3, -⟩ := hL.trsm true n m (L.dgeqrf R0) T0 (q1 ▸ hnm.le) q2 (q1.symm ▸ q3)
    hT0.rows hT0.cols hT0.len
  obtain ⟨p1, p2, p3, -⟩ := hL.trsm false n m (L.dgeqrf R0) _ (q1 ▸ hnm.le) q2 (q1.symm ▸ q3)
    t1 t2 t3
  obtain ⟨B, eB, hBm, hBn, hB⟩ := C48_assign_fails (T := A_PI)
    (.of_data (f := fun i j => (L.dtrsm false n m (L.dgeqrf R0)
      (L.dtrsm true n m (L.dgeqrf R0) T0)).data (i * m + j)) p1 p2 p3 fun _ _ _ _ => rfl)
    hlen (by rw [hm, hn, mul_comm]) (Or.inl (by omega))
  refine ⟨B, ?_, hBm.trans hm, hBn.trans hn, hB⟩
  unfold compute_pseudo_inverse
  simp only [eR, eT, h.rows, h.cols, Option.bind_eq_bind, Option.bind_some]
  rw [if_neg (by simp [hm])]
  exact eB

/-! ## the matrix of the solver -/

/-- C72: `fill_geometry_matrix` writes within the matrix and row `i` belongs to the `i`-th stencil
point other than the centre; further rows stay zero. -/
theorem C72_fill (d3 : Bool) (offsets : List Offset) (hplane : d3 = false → ∀ o ∈ offsets, o.z = 0)
    (mm : ℕ → ℕ → ℕ) (dx dy dz : ℝ) (rows cols : ℕ) (hrows : (nonCentre offsets).length ≤ rows) :
    ∃ B, fill_geometry_matrix d3 (allocate rows cols) offsets mm dx dy dz = some B ∧
      IsMatrix B rows cols (fun i j => if i < (nonCentre offsets).length
        then geometryEntry d3 dx dy dz mm ((nonCentre offsets).getD i ⟨0, 0, 0⟩) j else 0) := by
  have key : ∀ (os : List Offset) (pre : List Offset) (A : Mat ℝ),
      (d3 = false → ∀ o ∈ os, o.z = 0) →
      (pre ++ nonCentre os).length ≤ rows →
      IsMatrix A rows cols (fun i j => if i < pre.length
        then geometryEntry d3 dx dy dz mm (pre.getD i ⟨0, 0, 0⟩) j else 0) →
      ∃ B k, os.foldlM (fun (s : Mat ℝ × ℕ) o =>
          if o.x ≠ 0 ∨ o.y ≠ 0 ∨ (d3 = true ∧ o.z ≠ 0) then do
            let mat ← forLoop cols (fun j mat =>
              mat.set s.2 j (geometryEntry d3 dx dy dz mm o j)) s.1
            some (mat, s.2 + 1)
          else some s) (A, pre.length) = some (B, k) ∧
        IsMatrix B rows cols (fun i j => if i < (pre ++ nonCentre os).length
          then geometryEntry d3 dx dy dz mm ((pre ++ nonCentre os).getD i ⟨0, 0, 0⟩) j else 0) := by
    intro os
    induction os with
    | nil =>
      intro pre A _ _ hA
      exact ⟨A, pre.length, rfl, by simpa [nonCentre] using hA⟩
    | cons o os ih =>
      intro pre A hpl hlen hA
      have hpl' : d3 = false → ∀ o ∈ os, o.z = 0 := fun h o ho => hpl h o (List.mem_cons_of_mem _ ho)
      rw [List.foldlM_cons]
      have hiff : (o.x ≠ 0 ∨ o.y ≠ 0 ∨ (d3 = true ∧ o.z ≠ 0)) ↔ (o.x ≠ 0 ∨ o.y ≠ 0 ∨ o.z ≠ 0) := by
        cases d3
        · have := hpl rfl o (by simp)
          simp [this]
        · simp
      by_cases hc : o.x ≠ 0 ∨ o.y ≠ 0 ∨ o.z ≠ 0
      · rw [if_pos (hiff.2 hc)]
        have hnc : nonCentre (o :: os) = o :: nonCentre os := by
          simp [nonCentre, hc]
        rw [hnc] at hlen ⊢
        have hlt : pre.length < rows := by simp at hlen; omega
        obtain ⟨B, e, hs, h1, h2⟩ := fill1 (N := cols) (fun j => pre.length * cols + j)
          (fun j _ => geometryEntry d3 dx dy dz mm o j) A
          (body := fun j mat => mat.set pre.length j (geometryEntry d3 dx dy dz mm o j))
          (fun j hj => hA.len ▸ pos_lt hlt hj) (fun j hj j' hj' e => by omega)
          (fun j hj s hs => by simp only [Mat.set, hs.2.1, hA.cols])
        have hB : IsMatrix B rows cols (fun i j => if i < (pre ++ [o]).length
            then geometryEntry d3 dx dy dz mm ((pre ++ [o]).getD i ⟨0, 0, 0⟩) j else 0) := by
          refine .of_data (hs.1.trans hA.rows) (hs.2.1.trans hA.cols) (hs.2.2.trans hA.len) ?_
          intro i hi j hj
          by_cases hip : i = pre.length
          · subst hip
            rw [h1 j hj, if_pos (by simp)]
            simp
          · rw [h2 _ fun j' hj' e => hip (pos_inj hj' hj e).1.symm, hA.data hi hj]
            by_cases hlt' : i < pre.length
            · rw [if_pos hlt', if_pos (by simp; omega)]
              simp [List.getD_eq_getElem?_getD, List.getElem?_append_left hlt']
            · rw [if_neg hlt', if_neg (by simp; omega)]
        obtain ⟨C, k, e', hC⟩ := ih (pre ++ [o]) B hpl' (by simpa using hlen) hB
        refine ⟨C, k, ?_, by simpa using hC⟩
        rw [e]
        simpa using e'
      · rw [if_neg (fun h => hc (hiff.1 h))]
        have hnc : nonCentre (o :: os) = nonCentre os := by
          simp [nonCentre, hc]
        rw [hnc] at hlen ⊢
        exact ih pre A hpl' hlen hA
  obtain ⟨B, k, e, hB⟩ := key offsets [] (allocate rows cols) hplane (by simpa using hrows)
    ((C48_allocate rows cols).congr fun _ _ _ _ => by simp [lit])
  refine ⟨B, ?_, by simpa using hB⟩
  unfold fill_geometry_matrix
  have : (allocate rows cols : Mat ℝ).n = cols := rfl
  rw [this]
  simp only [List.length_nil] at e
  rw [e]
  rfl

theorem stencil_rows (id : StencilId) :
    (nonCentre (stencilOffsets id)).length ≤ STENCIL_SIZE id - 1 ∧
    (STENCIL_DEGREE id + id.dim).choose (STENCIL_DEGREE id) - 1 ≤ STENCIL_SIZE id - 1 := by
  cases id <;> decide +kernel

/-- C72: for every stencil and all cell sizes, `init_mood` (fill the geometry matrix, compute its
pseudo-inverse into a fresh matrix) runs without leaving the arrays and yields a left inverse of the
geometry matrix; so the exactness statements of C42 apply to the matrix the solver uses. -/
theorem C72_init_mood {L : Lapack ℝ} (hL : L.Correct) (id : StencilId) (dx dy dz : ℝ)
    (hx : dx ≠ 0) (hy : dy ≠ 0) (hz : dz ≠ 0) (fuel : ℕ)
    (hf : (STENCIL_DEGREE id + id.dim).choose (STENCIL_DEGREE id) < fuel)
    (data : ℕ → Option (List ℕ)) (hdata : init_map id.dim (STENCIL_DEGREE id) fuel = some data) :
    ∃ G B pi,
      fill_geometry_matrix id.is3d (allocate (STENCIL_SIZE id - 1)
        ((STENCIL_DEGREE id + id.dim).choose (STENCIL_DEGREE id) - 1)) (stencilOffsets id)
        (monomExp data) dx dy dz = some G ∧
      compute_pseudo_inverse L G Mat.empty = some B ∧
      IsMatrix B ((STENCIL_DEGREE id + id.dim).choose (STENCIL_DEGREE id) - 1)
        (STENCIL_SIZE id - 1) pi ∧
      IsLeftInverse id.is3d dx dy dz (monomExp data)
        ((STENCIL_DEGREE id + id.dim).choose (STENCIL_DEGREE id) - 1)
        (nonCentre (stencilOffsets id)) pi := by
  obtain ⟨hr, hc⟩ := stencil_rows id
  obtain ⟨G, eG, hG⟩ := C72_fill id.is3d (stencilOffsets id) (stencil_plane id) (monomExp data)
    dx dy dz (STENCIL_SIZE id - 1)
    ((STENCIL_DEGREE id + id.dim).choose (STENCIL_DEGREE id) - 1) hr
  set nc := (STENCIL_DEGREE id + id.dim).choose (STENCIL_DEGREE id) - 1 with hnc
  have hpos : 0 < STENCIL_SIZE id - 1 := by cases id <;> decide
  obtain ⟨B, pi, eB, hB, hleft, -⟩ := C72_pseudo_inverse hL (A_PI := Mat.empty) hG hc (by
      intro c H
      refine C71_unique id dx dy dz hx hy hz fuel hf data hdata c ?_
      intro o ho
      obtain ⟨i, hi, rfl⟩ := List.getElem_of_mem ho
      have := H i (by omega)
      simpa [List.getD_eq_getElem?_getD, hi] using this) rfl
    (Or.inl ⟨by show 0 ≠ _; omega, by show 0 ≠ _; omega⟩)
  refine ⟨G, B, pi, eG, eB, hB, ?_⟩
  intro r hr' c hc'
  rw [← hleft r hr' c hc']
  symm
  rw [← Finset.sum_subset (Finset.range_subset_range.2 hr)]
  · refine Finset.sum_congr rfl fun k hk => ?_
    rw [if_pos (Finset.mem_range.1 hk)]
  · intro k _ hk
    rw [if_neg (fun h => hk (Finset.mem_range.2 h)), mul_zero]

/-- the hypotheses are met: a correct LAPACK exists, and the table of the 3×3 stencil of degree 2 -/
example : (∃ L : Lapack ℝ, L.Correct) ∧ ∃ data, init_map 2 2 7 = some data :=
  ⟨C72_contract, let ⟨d, hd, _⟩ := C40_table 2 2 7 (Or.inl rfl) (by decide); ⟨d, hd⟩⟩

end Verif.Mood
