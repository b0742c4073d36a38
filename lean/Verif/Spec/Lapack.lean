import Mathlib.Data.Matrix.Mul
import Mathlib.Data.Real.Basic
import Verif.Model.MoodMatrix

/-! What is assumed about the LAPACK and BLAS routines called by `src/mood/Matrix.cpp`, in exact
arithmetic (from the documentation of `dgeqrf` and `dtrsm`). -/

namespace Verif.Mood

/-- the first `m` rows of the array, seen as a mathematical matrix with `n` columns -/
def matOf (m n : ℕ) (A : Mat ℝ) : Matrix (Fin m) (Fin n) ℝ :=
  Matrix.of fun i j => A.data (i * n + j)

/-- the upper triangle of the first `n` rows; what is stored below is ignored -/
def upperOf (n : ℕ) (R : Mat ℝ) : Matrix (Fin n) (Fin n) ℝ :=
  Matrix.of fun i j => if i ≤ j then R.data (i * n + j) else 0

/-- the contract of the external routines -/
structure Lapack.Correct (L : Lapack ℝ) : Prop where
  /-- `dgeqrf` keeps the size of the array and leaves in the upper triangle the factor `R` of a
  factorisation `A = Q R` in which the columns of `Q` are orthonormal -/
  qr : ∀ (m n : ℕ) (A : Mat ℝ), A.m = m → A.n = n → A.len = m * n → n ≤ m →
    (L.dgeqrf A).m = m ∧ (L.dgeqrf A).n = n ∧ (L.dgeqrf A).len = m * n ∧
    ∃ Q : Matrix (Fin m) (Fin n) ℝ, Q.transpose * Q = 1 ∧
      matOf m n A = Q * upperOf n (L.dgeqrf A)
  /-- `dtrsm` keeps the size of the array and replaces `B` by the solution `X` of `R X = B` or
  `Rᵀ X = B` with the upper triangle of `R`, if no element of its diagonal vanishes -/
  trsm : ∀ (trans : Bool) (n m : ℕ) (R B : Mat ℝ), n ≤ R.m → R.n = n → R.len = R.m * n →
    B.m = n → B.n = m → B.len = n * m →
    (L.dtrsm trans n m R B).m = n ∧ (L.dtrsm trans n m R B).n = m ∧
    (L.dtrsm trans n m R B).len = n * m ∧
    ((∀ i < n, R.data (i * n + i) ≠ 0) →
      (if trans then (upperOf n R).transpose else upperOf n R)
        * matOf n m (L.dtrsm trans n m R B) = matOf n m B)

end Verif.Mood
