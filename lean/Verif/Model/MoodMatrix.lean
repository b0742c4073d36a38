import Verif.Model.MoodStencil

/-! Model of the dense matrices of the MOOD solver (`src/mood/Matrix.h`, `src/mood/Matrix.cpp`) and
of `fill_geometry_matrix` (`src/mood/mood_utils.h`).

* Every access to the data array is checked against the allocated length; an access outside is the
  outcome `none`.
* Sizes are natural numbers; the products `m*n` do not overflow.
* LAPACK and BLAS are not modelled: they are parameters (`Lapack`), and theorems state what is
  assumed about them.
* `print` and the error message of `mult` have no effect on the state. -/

namespace Verif.Mood

open Verif ROps

/-- `class Matrix` (`src/mood/Matrix.h:22-272`): sizes and data array; `len` is the allocated length
(0 for the null pointer) -/
structure Mat (α : Type) where
  m : ℕ
  n : ℕ
  len : ℕ
  data : ℕ → α

/-- `for (int i = 0; i < n; i++) f(i)` -/
def forLoop {σ : Type} (n : ℕ) (f : ℕ → σ → Option σ) (s : σ) : Option σ :=
  (List.range n).foldlM (fun s i => f i s) s

namespace Mat

variable {α : Type}

/-- the array element `_data[p]`, read -/
def load (A : Mat α) (p : ℕ) : Option α := if p < A.len then some (A.data p) else none

/-- the array element `_data[p]`, written -/
def store (A : Mat α) (p : ℕ) (v : α) : Option (Mat α) :=
  if p < A.len then some { A with data := Function.update A.data p v } else none

/-- `(*this)(i, j)` read (`src/mood/Matrix.h:74-83`) -/
def get (A : Mat α) (i j : ℕ) : Option α := A.load (i * A.n + j)

/-- `(*this)(i, j) = v` (`src/mood/Matrix.h:74-78`) -/
def set (A : Mat α) (i j : ℕ) (v : α) : Option (Mat α) := A.store (i * A.n + j) v

variable [ROps α]

/-- `Matrix()` (`src/mood/Matrix.h:27-31`) -/
def empty : Mat α := ⟨0, 0, 0, fun _ => lit 0⟩

/-- `allocate(m_, n_)` (`src/mood/Matrix.h:192-206`): also what `Matrix(m_, n_)` does
(`src/mood/Matrix.h:34-40`) -/
def allocate (m n : ℕ) : Mat α := ⟨m, n, m * n, fun _ => lit 0⟩

/-- the copy constructor (`src/mood/Matrix.h:43-50`) -/
def copy (src : Mat α) : Option (Mat α) :=
  forLoop src.m (fun i => forLoop src.n fun j this => do this.set i j (← src.get i j))
    (allocate src.m src.n)

/-- the constructor from an array of `rows` times `cols` (`src/mood/Matrix.h:53-61`) -/
def ofArray (rows cols : ℕ) (a : ℕ → ℕ → α) : Option (Mat α) :=
  forLoop rows (fun i => forLoop cols fun j this => this.set i j (a i j)) (allocate rows cols)

/-- `operator=(source)` for a source other than `this` (`src/mood/Matrix.h:97-112`); `std::copy` of
`source.m * source.n` elements -/
def assign (this source : Mat α) : Option (Mat α) :=
  let this := if this.m * this.n ≠ source.m * source.n then allocate source.m source.n else this
  forLoop (source.m * source.n) (fun p this => do this.store p (← source.load p)) this

/-- `compute_minor(mat, d)` for a matrix `mat` other than `this` (`src/mood/Matrix.h:115-127`) -/
def compute_minor (mat : Mat α) (d : ℕ) : Option (Mat α) := do
  let this ← forLoop d (fun i this => this.set i i (lit 1)) (allocate mat.m mat.n)
  forLoop (mat.m - d) (fun i => forLoop (mat.n - d) fun j this => do
    this.set (d + i) (d + j) (← mat.get (d + i) (d + j))) this

/-- `reset()` (`src/mood/Matrix.h:239-243`), also the `memset` in `mult` (`151`) -/
def reset (A : Mat α) : Option (Mat α) :=
  forLoop (A.m * A.n) (fun p this => this.store p (lit 0)) A

/-- an operand of `mult`: another matrix, or the matrix on which `mult` is called -/
inductive Operand (α : Type)
  | self
  | other (A : Mat α)

/-- the operand as it is at some point of the execution (`this` changes while `mult` runs) -/
def Operand.now (o : Operand α) (this : Mat α) : Mat α :=
  match o with
  | .self => this
  | .other A => A

/-- `mult(a, b)` (`src/mood/Matrix.h:137-158`).  The sizes `a.m`, `b.n`, `a.n` in the loops are read
anew in the code; with distinct operands they do not change, and when an operand is `this` its sizes
are those after `allocate`. -/
def mult (this : Mat α) (a b : Operand α) : Option (Mat α) :=
  if (a.now this).n ≠ (b.now this).m then some this
  else do
    let this := if (a.now this).m ≠ this.m ∨ (b.now this).n ≠ this.n
      then allocate (a.now this).m (b.now this).n else this
    let this ← reset this
    forLoop (a.now this).m (fun i => forLoop (b.now this).n fun j => forLoop (a.now this).n
      fun k s => do
        let x ← (a.now s).get i k
        let y ← (b.now s).get k j
        let old ← s.get i j
        s.set i j (old + x * y)) this

/-- `transpose()` (`src/mood/Matrix.h:161-189`) -/
def transpose (A : Mat α) : Option (Mat α) :=
  if A.m = A.n then
    forLoop A.m (fun i => forLoop i fun j this => do
      let t ← this.get i j
      let s ← this.set i j (← this.get j i)
      s.set j i t) A
  else do
    let s ← forLoop A.m (fun i => forLoop A.n fun j this => do
      this.store (j * A.m + i) (← A.load (i * A.n + j))) A
    some { s with m := A.n, n := A.m }

end Mat

/-- the external routines called by `src/mood/Matrix.cpp` -/
structure Lapack (α : Type) where
  /-- the matrix after `LAPACKE_dgeqrf(LAPACK_ROW_MAJOR, m, n, data, n, tau)` -/
  dgeqrf : Mat α → Mat α
  /-- the matrix `B` after `cblas_dtrsm(CblasRowMajor, CblasLeft, CblasUpper, trans, CblasNonUnit,
  n, m, 1.0, R, ldr, B, ldb)` with `R` of order `n` and `B` of `n` rows and `m` columns -/
  dtrsm : (trans : Bool) → (n m : ℕ) → (R : Mat α) → (B : Mat α) → Mat α

section
variable {α : Type} [ROps α]

/-- `compute_pseudo_inverse(A, A_PI)` (`src/mood/Matrix.cpp:36-94`), with `compute_qr`
(`src/mood/Matrix.cpp:13-29`); `A_PI` is another matrix than `A` -/
def compute_pseudo_inverse (L : Lapack α) (A A_PI : Mat α) : Option (Mat α) := do
  let m := A.m
  let n := A.n
  let A_PI := if A_PI.m ≠ m ∧ A_PI.n ≠ m then Mat.allocate m m else A_PI
  let R ← A.copy
  let R := L.dgeqrf R
  let AT ← A.copy
  let AT ← AT.transpose
  let AT := L.dtrsm true n m R AT
  let AT := L.dtrsm false n m R AT
  A_PI.assign AT

/-- `fill_geometry_matrix<dim,degree>` (`src/mood/mood_utils.h:26-105`): the counter `i` is the
second component of the state -/
def fill_geometry_matrix (d3 : Bool) (mat : Mat α) (offsets : List Offset) (mm : ℕ → ℕ → ℕ)
    (dx dy dz : α) : Option (Mat α) := do
  let s ← offsets.foldlM (fun (s : Mat α × ℕ) o =>
    if o.x ≠ 0 ∨ o.y ≠ 0 ∨ (d3 = true ∧ o.z ≠ 0) then do
      let mat ← forLoop mat.n (fun j mat =>
        mat.set s.2 j (geometryEntry d3 dx dy dz mm o j)) s.1
      some (mat, s.2 + 1)
    else some s) (mat, 0)
  some s.1

end

end Verif.Mood
