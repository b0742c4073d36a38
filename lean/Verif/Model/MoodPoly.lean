import Mathlib.Data.Rat.Defs
import Mathlib.Data.Real.Basic
import Mathlib.Logic.Function.Basic
import Verif.Model.Ops

/-! Model of the polynomial machinery of the MOOD solver: binomial coefficients, the table of
monomials, polynomial evaluation, the geometric terms and the reconstruction of one cell.

Simplifications:
* `pow(x, e)` of the C library with an integer exponent is repeated multiplication (`ipow`);
* a Kokkos view that is only filled once is a function of its indices;
* integer template arguments are natural numbers (all uses in the code are non-negative). -/

namespace Verif.Mood

open Verif ROps

/-! ## `src/mood/Binomial.h` -/

/-- `Binomial<n,k>::value` (`src/mood/Binomial.h:13-35`): the template recursion with its
specialisations `<0,0>`, `<n,0>` and `<n,n>`.  `none` is the instantiation that does not compile
(for `k > n` the recursion never reaches a specialisation). -/
def binomialT : ℕ → ℕ → Option ℕ
  | _, 0 => some 1
  | 0, _ + 1 => none
  | n + 1, k + 1 =>
      if n = k then some 1
      else do
        let a ← binomialT n k
        let b ← binomialT n (k + 1)
        pure (a + b)

/-- Result of an `int` computation: `none` when the value does not fit 32 bits (signed overflow,
undefined behaviour). -/
def int32 (v : ℤ) : Option ℤ := if -2 ^ 31 ≤ v ∧ v < 2 ^ 31 then some v else none

/-- the loop of `binom` (`src/mood/Binomial.h:66-70`): iterations `i, i+1, ..., i+todo-1` -/
def binomLoop (n : ℤ) : (i : ℕ) → (todo : ℕ) → (res : ℤ) → Option ℤ
  | _, 0, res => some res
  | i, todo + 1, res => do
      let r ← int32 (res * (n - i))
      binomLoop n (i + 1) todo (Int.tdiv r (i + 1))

/-- `binom(int n, int k)` (`src/mood/Binomial.h:47-73`) -/
def binom (n k : ℤ) : Option ℤ :=
  if n < k then some 0
  else if k = 0 ∨ n = 1 then some 1
  else if n = 2 ∧ k = 1 then some 2
  else if n = 2 ∧ k = 2 then some 1
  else if n = k then some 1
  else
    let k := if k > n - k then n - k else k
    binomLoop n 0 k.toNat 1

/-- `get_number_of_coefficients<2>(order)` and `<3>` (`src/mood/polynomials_utils.cpp:11-26`) -/
def get_number_of_coefficients (dim order : ℕ) : ℕ :=
  if dim = 2 then (order + 1) * (order + 2) / 2
  else (order + 1) * (order + 2) * (order + 3) / 6

/-! ## `src/mood/monomials_ordering.h`, `src/mood/MonomialMap.h` -/

/-- the search loop of `mono_next_grlex` (`src/mood/monomials_ordering.h:67-75`): the first
`j = dim, dim-1, ..., 1` with `0 < e[dim-j]`, or 0 -/
def findNonzero (dim : ℕ) (e : ℕ → ℕ) : ℕ → ℕ
  | 0 => 0
  | j + 1 => if 0 < e (dim - (j + 1)) then j + 1 else findNonzero dim e j

/-- `mono_next_grlex<dim>(e)` (`src/mood/monomials_ordering.h:55-108`); entries of `e` beyond
`dim` are not part of the array -/
def mono_next_grlex (dim : ℕ) (e : ℕ → ℕ) : ℕ → ℕ :=
  let i := findNonzero dim e dim
  if i = 0 then Function.update e 0 1
  else if i = 1 then
    let e := Function.update e 0 (e 0 + e (dim - 1) + 1)
    Function.update e (dim - 1) 0
  else
    let t := e (dim - i)
    let e := Function.update e (dim - i) 0
    let e := Function.update e (dim - i + 1) (e (dim - i + 1) + 1)
    Function.update e 0 (e 0 + t - 1)

/-- the `dim` entries of an exponent vector -/
def row (dim : ℕ) (e : ℕ → ℕ) : List ℕ := (List.range dim).map e

/-- the loop of `MonomialMap::init_map` (`src/mood/MonomialMap.h:78-107`).  `data i = none`: row
`i` was not written.  The outcome `none` means that the loop has not ended after `fuel` turns, or
that it writes outside the `ncoefs` rows of the table. -/
def init_map_loop (dim degree ncoefs : ℕ) :
    (fuel : ℕ) → (e : ℕ → ℕ) → (index : ℕ) → (data : ℕ → Option (List ℕ)) →
      Option (ℕ → Option (List ℕ))
  | 0, _, _, _ => none
  | fuel + 1, e, index, data =>
      if (row dim e).sum ≤ degree then
        if index < ncoefs then
          init_map_loop dim degree ncoefs fuel (mono_next_grlex dim e) (index + 1)
            (Function.update data index (some (row dim e)))
        else none
      else some data

/-- `MonomialMap<dim,degree>::init_map()` (`src/mood/MonomialMap.h:64-109`), with the table size
`ncoefs = binomial<degree+dim,degree>()` (`src/mood/MonomialMap.h:25-29`) -/
def init_map (dim degree fuel : ℕ) : Option (ℕ → Option (List ℕ)) := do
  let ncoefs ← binomialT (degree + dim) degree
  init_map_loop dim degree ncoefs fuel (fun _ => 0) 0 (fun _ => none)

/-- reading the table, `data_h(i, j)`; a row that was never written reads 0, the initial value of a
Kokkos view (property C40 shows that every row is written) -/
def monomExp (data : ℕ → Option (List ℕ)) (i j : ℕ) : ℕ := ((data i).getD []).getD j 0

/-! ## `src/mood/Polynomial.h` -/

section
variable {α : Type} [ROps α]

/-- `power(base, exponent)` (`src/mood/Polynomial.h:21-29`) -/
def power (base : α) (exponent : ℕ) : α :=
  if h : exponent = 0 then lit 1
  else if exponent % 2 = 1 then
    base * power base (exponent / 2) * power base (exponent / 2)
  else power base (exponent / 2) * power base (exponent / 2)
termination_by exponent
decreasing_by all_goals omega

/-- `mypow(base, exponent)` (`src/mood/Polynomial.h:34-62`) -/
def mypow (base : α) (exponent : ℕ) : α :=
  if exponent = 0 then lit 1
  else if exponent = 1 then base
  else if exponent = 2 then base * base
  else if exponent = 3 then power base 3
  else if exponent = 4 then power base 4
  else if exponent = 5 then power base 5
  else if exponent = 6 then power base 6
  else if exponent = 7 then power base 7
  else if exponent = 8 then power base 8
  else if exponent = 9 then power base 9
  else lit 0

/-- the C library's `pow` at an integer exponent, as repeated multiplication -/
def ipow (x : α) : ℕ → α
  | 0 => lit 1
  | n + 1 => ipow x n * x

/-- `PolynomialEvaluator::eval(x, y, coefs)` (`src/mood/Polynomial.h:102-125`, and the same sum
for a point at 157-172).  `mm i j`: exponent of variable `j` in monomial `i`. -/
def eval2 (mm : ℕ → ℕ → ℕ) (ncoefs : ℕ) (x y : α) (coefs : ℕ → α) : α :=
  (List.range ncoefs).foldl
    (fun result i => result + coefs i * ipow x (mm i 0) * ipow y (mm i 1)) (lit 0)

/-- `PolynomialEvaluator::eval(x, y, z, coefs)` (`src/mood/Polynomial.h:127-149`, and the same sum
for a point at 174-189) -/
def eval3 (mm : ℕ → ℕ → ℕ) (ncoefs : ℕ) (x y z : α) (coefs : ℕ → α) : α :=
  (List.range ncoefs).foldl
    (fun result i =>
      result + coefs i * ipow x (mm i 0) * ipow y (mm i 1) * ipow z (mm i 2)) (lit 0)

/-- `polynomial_setCoefs<ncoefs,degree>` (`src/mood/Polynomial.h:209-231` for two exponents,
`244-270` for three): sets the coefficients of all monomials whose exponents are `e` -/
def polynomial_setCoefs (dim ncoefs : ℕ) (mm : ℕ → ℕ → ℕ) (e : ℕ → ℕ) (value : α)
    (coefs : ℕ → α) : ℕ → α :=
  (List.range ncoefs).foldl
    (fun coefs i =>
      if (List.range dim).all (fun j => mm i j == e j) then Function.update coefs i value
      else coefs) coefs

/-! ## `src/mood/GeometricTerms.cpp` -/

/-- `i` as a real number -/
def ofInt (i : ℤ) : α := lit i

/-- `GeometricTerms::eval_moment(i, j, n, m)` (`src/mood/GeometricTerms.cpp:35-42`) -/
def eval_moment2 (dx dy : α) (i j : ℤ) (n m : ℕ) : α :=
  lit 1 / dx / dy * ipow dx (n + 1) / ofInt (n + 1)
      * (ipow (ofInt i + lit (1 / 2)) (n + 1) - ipow (ofInt i - lit (1 / 2)) (n + 1))
      * ipow dy (m + 1) / ofInt (m + 1)
      * (ipow (ofInt j + lit (1 / 2)) (m + 1) - ipow (ofInt j - lit (1 / 2)) (m + 1))

/-- `GeometricTerms::eval_moment(i, j, k, n, m, l)` (`src/mood/GeometricTerms.cpp:46-55`) -/
def eval_moment3 (dx dy dz : α) (i j k : ℤ) (n m l : ℕ) : α :=
  lit 1 / dx / dy / dz * ipow dx (n + 1) / ofInt (n + 1)
      * (ipow (ofInt i + lit (1 / 2)) (n + 1) - ipow (ofInt i - lit (1 / 2)) (n + 1))
      * ipow dy (m + 1) / ofInt (m + 1)
      * (ipow (ofInt j + lit (1 / 2)) (m + 1) - ipow (ofInt j - lit (1 / 2)) (m + 1))
      * ipow dz (l + 1) / ofInt (l + 1)
      * (ipow (ofInt k + lit (1 / 2)) (l + 1) - ipow (ofInt k - lit (1 / 2)) (l + 1))

/-- `GeometricTerms::eval_hat(i, j, n, m)` (`src/mood/GeometricTerms.cpp:59-65`) -/
def eval_hat2 (dx dy : α) (i j : ℤ) (n m : ℕ) : α :=
  eval_moment2 dx dy i j n m - eval_moment2 dx dy 0 0 n m

/-- `GeometricTerms::eval_hat(i, j, k, n, m, l)` (`src/mood/GeometricTerms.cpp:69-75`) -/
def eval_hat3 (dx dy dz : α) (i j k : ℤ) (n m l : ℕ) : α :=
  eval_moment3 dx dy dz i j k n m l - eval_moment3 dx dy dz 0 0 0 n m l

/-! ## `src/mood/mood_utils.h`, reconstruction of one cell -/

/-- a stencil offset (third component 0 in 2D) -/
structure Offset where
  x : ℤ
  y : ℤ
  z : ℤ
  deriving DecidableEq, Repr

/-- the stencil points other than the centre, in stencil order: the counter `i` of
`fill_geometry_matrix` (`src/mood/mood_utils.h:46-53`, `75-83`) and the counter `irhs` of the
reconstruction (`src/mood/MoodPolynomialReconstructionFunctors.h:108-118`, `173-184`) both run over
this list -/
def nonCentre (offsets : List Offset) : List Offset :=
  offsets.filter (fun o => o.x ≠ 0 ∨ o.y ≠ 0 ∨ o.z ≠ 0)

/-- the entry `mat(i, j)` written by `fill_geometry_matrix<dim,degree>`
(`src/mood/mood_utils.h:26-105`) for the stencil point `o` of row `i` -/
def geometryEntry (d3 : Bool) (dx dy dz : α) (mm : ℕ → ℕ → ℕ) (o : Offset) (j : ℕ) : α :=
  if d3 then eval_hat3 dx dy dz o.x o.y o.z (mm (j + 1) 0) (mm (j + 1) 1) (mm (j + 1) 2)
  else eval_hat2 dx dy o.x o.y (mm (j + 1) 0) (mm (j + 1) 1)

/-- the coefficients of one cell and one variable
(`src/mood/MoodPolynomialReconstructionFunctors.h:120-131`, `186-197`): `pi` is the pseudo-inverse
with `nc` rows and `rhs.length` columns, `uc` the value of the cell. -/
def reconCoefs (nc : ℕ) (pi : ℕ → ℕ → α) (uc : α) (rhs : List α) : ℕ → α
  | 0 => uc
  | icoef + 1 =>
      if icoef < nc then
        (List.range rhs.length).foldl
          (fun tmp ik => tmp + pi icoef ik * rhs.getD ik (lit 0)) (lit 0)
      else lit 0

end

end Verif.Mood
