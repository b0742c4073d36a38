import Mathlib.Algebra.BigOperators.Intervals
import Verif.Lemmas.MoodGeometry
import Verif.Lemmas.MoodMatrix

/-! C48: the matrix class of the MOOD solver. -/

namespace Verif.Mood

open Verif ROps Mat

/-- the object `A` is an `m × n` matrix with entries `f`: it has these sizes and exactly the memory
it needs, and reading entry `(i, j)` gives `f i j` -/
structure IsMatrix {α : Type} (A : Mat α) (m n : ℕ) (f : ℕ → ℕ → α) : Prop where
  rows : A.m = m
  cols : A.n = n
  len : A.len = m * n
  entry : ∀ i < m, ∀ j < n, A.get i j = some (f i j)

namespace IsMatrix
variable {α : Type} {A : Mat α} {m n : ℕ} {f : ℕ → ℕ → α}

theorem data (h : IsMatrix A m n f) {i j : ℕ} (hi : i < m) (hj : j < n) :
    A.data (i * n + j) = f i j := by
  have e := h.entry i hi j hj
  rw [Mat.get, h.cols, load_eq (h.len ▸ pos_lt hi hj)] at e
  exact Option.some.inj e

theorem of_data (hm : A.m = m) (hn : A.n = n) (hl : A.len = m * n)
    (h : ∀ i < m, ∀ j < n, A.data (i * n + j) = f i j) : IsMatrix A m n f :=
  ⟨hm, hn, hl, fun i hi j hj => by
    rw [Mat.get, hn, load_eq (hl ▸ pos_lt hi hj), h i hi j hj]⟩

theorem load (h : IsMatrix A m n f) {i j : ℕ} (hi : i < m) (hj : j < n) :
    A.load (i * n + j) = some (f i j) := by
  rw [load_eq (h.len ▸ pos_lt hi hj), h.data hi hj]

theorem congr (h : IsMatrix A m n f) {g : ℕ → ℕ → α} (e : ∀ i < m, ∀ j < n, f i j = g i j) :
    IsMatrix A m n g :=
  ⟨h.rows, h.cols, h.len, fun i hi j hj => by rw [h.entry i hi j hj, e i hi j hj]⟩

/-- the entries are determined -/
theorem unique (h : IsMatrix A m n f) {g : ℕ → ℕ → α} (h' : IsMatrix A m n g) :
    ∀ i < m, ∀ j < n, f i j = g i j := fun i hi j hj =>
  Option.some.inj ((h.entry i hi j hj).symm.trans (h'.entry i hi j hj))

end IsMatrix

theorem isMatrix_self {α : Type} (A : Mat α) (h : A.len = A.m * A.n) :
    IsMatrix A A.m A.n (fun i j => A.data (i * A.n + j)) :=
  .of_data rfl rfl h fun _ _ _ _ => rfl

variable {α : Type} [ROps α]

/-- C48: the constructor with sizes gives the zero matrix. -/
theorem C48_allocate (m n : ℕ) : IsMatrix (allocate m n : Mat α) m n (fun _ _ => lit 0) :=
  .of_data rfl rfl rfl fun _ _ _ _ => rfl

/-- C48: the copy constructor gives an equal matrix. -/
theorem C48_copy {A : Mat α} {m n : ℕ} {f : ℕ → ℕ → α} (h : IsMatrix A m n f) :
    ∃ B, A.copy = some B ∧ IsMatrix B m n f := by
  obtain ⟨rfl, rfl, hl, -⟩ := id h
  obtain ⟨B, e, hs, h1, -⟩ := fill2 (M := A.m) (N := A.n) (fun i j => i * A.n + j)
    (fun i j _ => f i j) (allocate A.m A.n)
    (body := fun i j this => do this.set i j (← A.get i j))
    (fun i hi j hj => pos_lt hi hj)
    (fun i _ j hj i' _ j' hj' e => pos_inj hj hj' e)
    (fun i hi j hj s hs => by
      simp only [h.entry i hi j hj, Mat.set, hs.2.1]
      rfl)
  exact ⟨B, e, .of_data hs.1 hs.2.1 hs.2.2 h1⟩

/-- C48: the constructor from an array stores the array. -/
theorem C48_ofArray (rows cols : ℕ) (a : ℕ → ℕ → α) :
    ∃ B, ofArray rows cols a = some B ∧ IsMatrix B rows cols a := by
  obtain ⟨B, e, hs, h1, -⟩ := fill2 (M := rows) (N := cols) (fun i j => i * cols + j)
    (fun i j _ => a i j) (allocate rows cols)
    (body := fun i j this => this.set i j (a i j))
    (fun i hi j hj => pos_lt hi hj)
    (fun i _ j hj i' _ j' hj' e => pos_inj hj hj' e)
    (fun i hi j hj s hs => by
      simp only [Mat.set, hs.2.1]
      rfl)
  exact ⟨B, e, .of_data hs.1 hs.2.1 hs.2.2 h1⟩

/-- what the copy loop of `operator=` does -/
theorem assign_loop {T S : Mat α} {m n : ℕ} {f : ℕ → ℕ → α} (h : IsMatrix S m n f)
    (hT : T.len = m * n) :
    ∃ B, forLoop (S.m * S.n) (fun p this => do this.store p (← S.load p)) T = some B ∧
      SameShape T B ∧ ∀ i < m, ∀ j < n, B.data (i * n + j) = f i j := by
  obtain ⟨rfl, rfl, hl, -⟩ := id h
  obtain ⟨B, e, hs, h1, -⟩ := fill1 (N := S.m * S.n) id (fun p _ => S.data p) T
    (body := fun p this => do this.store p (← S.load p))
    (fun p hp => hT ▸ hp) (fun _ _ _ _ e => e)
    (fun p hp s _ => by
      rw [load_eq (hl ▸ hp)]; rfl)
  refine ⟨B, e, hs, fun i hi j hj => ?_⟩
  exact (h1 _ (pos_lt hi hj)).trans (h.data hi hj)

/-- C48: assignment makes the target equal to the source if the numbers of elements differ or the
sizes are the same. -/
theorem C48_assign {T S : Mat α} {m n : ℕ} {f : ℕ → ℕ → α} (h : IsMatrix S m n f)
    (hT : T.len = T.m * T.n) (hc : T.m * T.n ≠ m * n ∨ (T.m = m ∧ T.n = n)) :
    ∃ B, T.assign S = some B ∧ IsMatrix B m n f := by
  unfold Mat.assign
  by_cases hne : T.m * T.n ≠ S.m * S.n
  · simp only [if_pos hne]
    obtain ⟨B, e, hs, h1⟩ := assign_loop (T := allocate S.m S.n) h
      (by rw [← h.rows, ← h.cols]; rfl)
    refine ⟨B, e, .of_data (hs.1.trans h.rows) (hs.2.1.trans h.cols) ?_ h1⟩
    rw [hs.2.2, ← h.rows, ← h.cols]; rfl
  · have heq : T.m * T.n = m * n := by rw [← h.rows, ← h.cols]; exact not_not.1 hne
    rcases hc with hc | ⟨rfl, rfl⟩
    · exact absurd heq hc
    · simp only [if_neg hne]
      obtain ⟨B, e, hs, h1⟩ := assign_loop (T := T) h hT
      exact ⟨B, e, .of_data hs.1 hs.2.1 (hs.2.2.trans hT) h1⟩

/-- C48 is false for assignment in the remaining case: equal numbers of elements, different sizes.
The target keeps its own sizes, so it is not the source, whatever the entries. -/
theorem C48_assign_fails {T S : Mat α} {m n : ℕ} {f : ℕ → ℕ → α} (h : IsMatrix S m n f)
    (hT : T.len = T.m * T.n) (hc : T.m * T.n = m * n) (hne : T.m ≠ m ∨ T.n ≠ n) :
    ∃ B, T.assign S = some B ∧ B.m = T.m ∧ B.n = T.n ∧ ∀ g, ¬ IsMatrix B m n g := by
  unfold Mat.assign
  rw [if_neg (by rw [h.rows, h.cols]; exact not_not.2 hc)]
  obtain ⟨B, e, hs, -⟩ := assign_loop (T := T) h (hT.trans hc)
  refine ⟨B, e, hs.1, hs.2.1, fun g hg => ?_⟩
  rcases hne with hne | hne
  · exact hne (hs.1.symm.trans hg.rows)
  · exact hne (hs.2.1.symm.trans hg.cols)

/-- the hypotheses of `C48_assign_fails` are met: a 3×2 matrix assigned to a 2×3 matrix -/
example : IsMatrix (allocate 3 2 : Mat ℚ) 3 2 (fun _ _ => lit 0) ∧
    (allocate 2 3 : Mat ℚ).len = (allocate 2 3 : Mat ℚ).m * (allocate 2 3 : Mat ℚ).n ∧
    (allocate 2 3 : Mat ℚ).m * (allocate 2 3 : Mat ℚ).n = 3 * 2 ∧ (allocate 2 3 : Mat ℚ).m ≠ 3 :=
  ⟨C48_allocate 3 2, rfl, rfl, by decide⟩

/-- C48: `reset` gives the zero matrix of the same sizes. -/
theorem C48_reset {A : Mat α} {m n : ℕ} {f : ℕ → ℕ → α} (h : IsMatrix A m n f) :
    ∃ B, A.reset = some B ∧ IsMatrix B m n (fun _ _ => lit 0) := by
  obtain ⟨rfl, rfl, hl, -⟩ := id h
  obtain ⟨B, e, hs, h1, -⟩ := fill1 (N := A.m * A.n) id (fun _ _ => (lit 0 : α)) A
    (body := fun p this => this.store p (lit 0))
    (fun p hp => hl ▸ hp) (fun _ _ _ _ e => e) (fun p hp s _ => rfl)
  exact ⟨B, e, .of_data hs.1 hs.2.1 (hs.2.2.trans hl) fun i hi j hj => h1 _ (pos_lt hi hj)⟩

/-- C48: `compute_minor` gives the matrix with the identity in the first `d` rows and columns and
the entries of the source behind. -/
theorem C48_minor {A : Mat α} {m n : ℕ} {f : ℕ → ℕ → α} (h : IsMatrix A m n f) (d : ℕ)
    (hm : d ≤ m) (hn : d ≤ n) :
    ∃ B, A.compute_minor d = some B ∧ IsMatrix B m n (fun i j =>
      if d ≤ i ∧ d ≤ j then f i j else if i = j then lit 1 else lit 0) := by
  obtain ⟨rfl, rfl, hl, -⟩ := id h
  obtain ⟨B, e, hs, h1, h2⟩ := fill1 (N := d) (fun i => i * A.n + i) (fun _ _ => (lit 1 : α))
    (allocate A.m A.n) (body := fun i this => this.set i i (lit 1))
    (fun i hi => pos_lt (by omega) (by omega))
    (fun i hi j hj e => (pos_inj (by omega) (by omega) e).1)
    (fun i hi s hs => by simp only [Mat.set, hs.2.1]; rfl)
  obtain ⟨C, e', hs', h1', h2'⟩ := fill2 (M := A.m - d) (N := A.n - d)
    (fun i j => (d + i) * A.n + (d + j)) (fun i j _ => f (d + i) (d + j)) B
    (body := fun i j this => do this.set (d + i) (d + j) (← A.get (d + i) (d + j)))
    (fun i hi j hj => by rw [hs.2.2]; exact pos_lt (by omega) (by omega))
    (fun i hi j hj i' hi' j' hj' e => by
      have := pos_inj (n := A.n) (by omega) (by omega) e
      omega)
    (fun i hi j hj s hs' => by
      simp only [h.entry (d + i) (by omega) (d + j) (by omega), Mat.set, hs'.2.1, hs.2.1]
      rfl)
  refine ⟨C, ?_, .of_data (hs'.1.trans hs.1) (hs'.2.1.trans hs.2.1) (hs'.2.2.trans hs.2.2) ?_⟩
  · unfold Mat.compute_minor
    rw [e]
    exact e'
  · intro i hi j hj
    by_cases hd : d ≤ i ∧ d ≤ j
    · rw [if_pos hd]
      have := h1' (i - d) (by omega) (j - d) (by omega)
      rwa [show d + (i - d) = i by omega, show d + (j - d) = j by omega] at this
    · rw [if_neg hd, h2' _ fun i' hi' j' hj' e => by
        have := pos_inj (n := A.n) (by omega) hj e
        omega]
      by_cases hij : i = j
      · subst hij
        rw [if_pos rfl, h1 i (by omega)]
      · rw [if_neg hij, h2 _ fun i' hi' e => by
          have := pos_inj (n := A.n) (by omega) hj e
          omega]
        rfl

example : IsMatrix (allocate 4 3 : Mat ℚ) 4 3 (fun _ _ => lit 0) ∧ 2 ≤ 4 ∧ 2 ≤ 3 :=
  ⟨C48_allocate 4 3, by omega, by omega⟩

/-! ## product -/

/-- the innermost loop of `mult` for operands other than `this` -/
theorem mult_inner {A B s : Mat α} {m l n : ℕ} {f g : ℕ → ℕ → α} (hA : IsMatrix A m l f)
    (hB : IsMatrix B l n g) {i j : ℕ} (hi : i < m) (hj : j < n) (hn : s.n = n)
    (hl : s.len = m * n) :
    forLoop l (fun k s => do
        let x ← A.get i k
        let y ← B.get k j
        let old ← s.get i j
        s.set i j (old + x * y)) s
      = s.store (i * n + j) ((List.range l).foldl (fun acc k => acc + f i k * g k j)
          (s.data (i * n + j))) := by
  have key := forLoop_spec (n := l) (s := s) (f := fun k s => do
        let x ← A.get i k
        let y ← B.get k j
        let old ← s.get i j
        s.set i j (old + x * y))
    (fun k s' => s.store (i * n + j) ((List.range k).foldl (fun acc k => acc + f i k * g k j)
          (s.data (i * n + j))) = some s') ?_ ?_
  · obtain ⟨s', e, h⟩ := key
    rw [e, h]
  · rw [store_eq (hl ▸ pos_lt hi hj)]
    simp
  · rintro k hk s' h
    rw [store_eq (hl ▸ pos_lt hi hj)] at h
    obtain rfl := Option.some.inj h
    refine ⟨_, ?_, (store_eq (hl ▸ pos_lt hi hj)).trans rfl⟩
    have hlt : i * n + j < s.len := hl ▸ pos_lt hi hj
    subst hn
    rw [hA.entry i hi k hk, hB.entry k hk j hj]
    simp only [Option.bind_eq_bind, Option.bind_some, Mat.get, Mat.set]
    rw [load_eq (by exact hlt)]
    simp only [Option.bind_some, Function.update_self]
    rw [store_eq (by exact hlt)]
    simp [List.range_succ]

/-- `mult` in any arithmetic: entry `(i, j)` is the sum taken in order of `k` -/
theorem mult_entries {T A B : Mat α} {m l n : ℕ} {f g : ℕ → ℕ → α} (hT : T.len = T.m * T.n)
    (hA : IsMatrix A m l f) (hB : IsMatrix B l n g) :
    ∃ C, T.mult (.other A) (.other B) = some C ∧ IsMatrix C m n (fun i j =>
      (List.range l).foldl (fun acc k => acc + f i k * g k j) (lit 0)) := by
  unfold Mat.mult
  rw [if_neg (by simp only [Operand.now, hA.cols, hB.rows]; simp)]
  generalize hU : (if ((Operand.other A).now T).m ≠ T.m ∨ ((Operand.other B).now T).n ≠ T.n
    then allocate ((Operand.other A).now T).m ((Operand.other B).now T).n else T) = U
  have hUs : U.m = m ∧ U.n = n ∧ U.len = m * n := by
    rw [← hU, ← hA.rows, ← hB.cols]
    split
    · exact ⟨rfl, rfl, rfl⟩
    · rename_i hc
      simp only [Operand.now] at hc
      have : A.m = T.m ∧ B.n = T.n := by
        constructor <;> by_contra hc' <;> simp_all
      rw [this.1, this.2]
      exact ⟨rfl, rfl, hT⟩
  obtain ⟨V, hV, hVz⟩ := C48_reset (IsMatrix.of_data (f := fun i j => U.data (i * n + j))
    hUs.1 hUs.2.1 hUs.2.2 fun _ _ _ _ => rfl)
  obtain ⟨C, e, hs, h1, -⟩ := fill2 (M := m) (N := n) (fun i j => i * n + j)
    (fun i j old => (List.range l).foldl (fun acc k => acc + f i k * g k j) old) V
    (body := fun i j => forLoop l fun k s => do
        let x ← A.get i k
        let y ← B.get k j
        let old ← s.get i j
        s.set i j (old + x * y))
    (fun i hi j hj => hVz.len ▸ pos_lt hi hj)
    (fun i _ j hj i' _ j' hj' e => pos_inj hj hj' e)
    (fun i hi j hj s hs => mult_inner hA hB hi hj (hs.2.1.trans hVz.cols) (hs.2.2.trans hVz.len))
  refine ⟨C, ?_, .of_data (hs.1.trans hVz.rows) (hs.2.1.trans hVz.cols) (hs.2.2.trans hVz.len) ?_⟩
  · simp only [Operand.now]
    rw [hV, hA.rows, hB.cols, hA.cols]
    exact e
  · intro i hi j hj
    rw [h1 i hi j hj, hVz.data hi hj]

/-- C48: `mult` computes the matrix product, whatever the target was before (operands other than
the target, exact arithmetic). -/
theorem C48_mult {T A B : Mat ℝ} {m l n : ℕ} {f g : ℕ → ℕ → ℝ} (hT : T.len = T.m * T.n)
    (hA : IsMatrix A m l f) (hB : IsMatrix B l n g) :
    ∃ C, T.mult (.other A) (.other B) = some C ∧
      IsMatrix C m n (fun i j => ∑ k ∈ Finset.range l, f i k * g k j) := by
  obtain ⟨C, e, h⟩ := mult_entries hT hA hB
  refine ⟨C, e, h.congr fun i _ j _ => ?_⟩
  rw [foldl_add_real, lit_real]
  simp

/-- C48: sizes that do not match leave the target as it was. -/
theorem C48_mult_mismatch {T A B : Mat α} (h : A.n ≠ B.m) :
    T.mult (.other A) (.other B) = some T := by
  unfold Mat.mult
  exact if_pos h

example : (allocate 2 3 : Mat ℚ).n ≠ (allocate 2 3 : Mat ℚ).m := by decide

/-- C48 is false when the target is also the left operand: `a.mult(a, b)` with square matrices sets
`a` to zero. -/
theorem C48_mult_self_fails {A B : Mat ℝ} {n : ℕ} {f g : ℕ → ℕ → ℝ} (hA : IsMatrix A n n f)
    (hB : IsMatrix B n n g) :
    ∃ C, A.mult .self (.other B) = some C ∧ IsMatrix C n n (fun _ _ => 0) := by
  unfold Mat.mult
  rw [if_neg (by simp only [Operand.now, hA.cols, hB.rows]; simp)]
  simp only
  rw [if_neg (by simp only [Operand.now, hB.cols, hA.cols]; simp)]
  simp only [Operand.now]
  obtain ⟨V, hV, hVz⟩ := C48_reset hA
  have hVz : IsMatrix V n n (fun _ _ => 0) := hVz.congr fun _ _ _ _ => by simp [lit]
  rw [hV]
  -- every turn writes 0 over 0
  have key := forLoop_spec (n := V.m) (s := V) (f := fun i => forLoop B.n fun j => forLoop V.n
      fun k (s : Mat ℝ) => do
        let x ← s.get i k
        let y ← B.get k j
        let old ← s.get i j
        s.set i j (old + x * y)) (fun _ s => IsMatrix s n n (fun _ _ => 0)) hVz ?_
  · exact key
  · intro i hi s hs
    refine forLoop_spec (fun _ s => IsMatrix s n n (fun _ _ => 0)) hs ?_
    intro j hj s hs
    refine forLoop_spec (fun _ s => IsMatrix s n n (fun _ _ => 0)) hs ?_
    intro k hk s hs
    have hi' : i < n := hVz.rows ▸ hi
    have hj' : j < n := hB.cols ▸ hj
    have hk' : k < n := hVz.cols ▸ hk
    have hlt : i * n + j < s.len := hs.len ▸ pos_lt hi' hj'
    refine ⟨{ s with data := Function.update s.data (i * n + j) 0 }, ?_, ?_⟩
    · rw [hs.entry i hi' k hk', hB.entry k hk' j hj', hs.entry i hi' j hj']
      simp only [Option.bind_eq_bind, Option.bind_some, Mat.set, hs.cols]
      rw [store_eq hlt]
      simp [hs.cols]
    · refine .of_data hs.rows hs.cols hs.len fun a ha b hb => ?_
      by_cases e : a * n + b = i * n + j
      · simp [e]
      · simp only
        rw [Function.update_of_ne e]
        exact hs.data ha hb

/-! ## transposition -/

omit [ROps α] in
/-- C48: `transpose` gives the transposed matrix (both branches: in place for square matrices, with
a copy otherwise). -/
theorem C48_transpose {A : Mat α} {m n : ℕ} {f : ℕ → ℕ → α} (h : IsMatrix A m n f) :
    ∃ B, A.transpose = some B ∧ IsMatrix B n m (fun i j => f j i) := by
  unfold Mat.transpose
  by_cases hmn : A.m = A.n
  · rw [if_pos hmn]
    obtain rfl : m = n := h.rows.symm.trans (hmn.trans h.cols)
    have key := forLoop_spec (n := A.m) (s := A) (f := fun i => forLoop i fun j this => do
        let t ← this.get i j
        let s ← this.set i j (← this.get j i)
        s.set j i t)
      (fun r s => IsMatrix s m m (fun a b => if a < r ∧ b < r then f b a else f a b)) ?_ ?_
    · obtain ⟨B, e, hB⟩ := key
      refine ⟨B, e, hB.congr fun i hi j hj => ?_⟩
      rw [if_pos ⟨h.rows.symm ▸ hi, h.rows.symm ▸ hj⟩]
    · exact h.congr fun i hi j hj => by simp
    · intro i hi s hs
      have hi : i < m := h.rows ▸ hi
      have inner := forLoop_spec (n := i) (s := s) (f := fun j this => do
          let t ← this.get i j
          let s ← this.set i j (← this.get j i)
          s.set j i t)
        (fun c s => IsMatrix s m m (fun a b =>
          if (a < i ∧ b < i) ∨ (a = i ∧ b < c) ∨ (b = i ∧ a < c) then f b a else f a b)) ?_ ?_
      · obtain ⟨B, e, hB⟩ := inner
        refine ⟨B, e, hB.congr fun a ha b hb => ?_⟩
        by_cases hab : a = i ∧ b = i
        · obtain ⟨rfl, rfl⟩ := hab
          simp
        · congr 1
          exact propext ⟨fun _ => by omega, fun _ => by omega⟩
      · refine hs.congr fun a ha b hb => ?_
        congr 1
        exact propext ⟨fun _ => by omega, fun _ => by omega⟩
      · intro c hc s hs
        have hc' : c < m := by omega
        have hne : i * m + c ≠ c * m + i := fun e => by
          have := pos_inj hc' hi e; omega
        have h1 : i * m + c < s.len := hs.len ▸ pos_lt hi hc'
        have h2 : c * m + i < s.len := hs.len ▸ pos_lt hc' hi
        have e1 := hs.entry i hi c hc'
        have e2 := hs.entry c hc' i hi
        rw [if_neg (by omega)] at e1 e2
        refine ⟨{ s with
            data := Function.update (Function.update s.data (i * m + c) (f c i)) (c * m + i)
              (f i c) }, ?_, ?_⟩
        · simp only [e1, e2, Option.bind_eq_bind, Option.bind_some, Mat.set, hs.cols]
          rw [store_eq h1]
          simp only [Option.bind_some]
          rw [hs.cols, store_eq (by exact h2)]
        · refine .of_data hs.rows hs.cols hs.len fun a ha b hb => ?_
          simp only
          by_cases e : a * m + b = c * m + i
          · obtain ⟨rfl, rfl⟩ := pos_inj hb hi e
            rw [Function.update_self, if_pos (by omega)]
          · rw [Function.update_of_ne e]
            by_cases e' : a * m + b = i * m + c
            · obtain ⟨rfl, rfl⟩ := pos_inj hb hc' e'
              rw [Function.update_self, if_pos (by omega)]
            · rw [Function.update_of_ne e', hs.data ha hb]
              have n1 : ¬ (a = c ∧ b = i) := fun ⟨h1, h2⟩ => e (by rw [h1, h2])
              have n2 : ¬ (a = i ∧ b = c) := fun ⟨h1, h2⟩ => e' (by rw [h1, h2])
              congr 1
              exact propext ⟨fun _ => by omega, fun _ => by omega⟩
  · rw [if_neg hmn]
    obtain ⟨rfl, rfl, hl, -⟩ := id h
    obtain ⟨B, e, hs, h1, -⟩ := fill2 (M := A.m) (N := A.n) (fun i j => j * A.m + i)
      (fun i j _ => f i j) A
      (body := fun i j this => do this.store (j * A.m + i) (← A.load (i * A.n + j)))
      (fun i hi j hj => by rw [hl, mul_comm A.m]; exact pos_lt hj hi)
      (fun i hi j hj i' hi' j' hj' e => (pos_inj hi hi' e).symm)
      (fun i hi j hj s hs => by rw [h.load hi hj]; rfl)
    refine ⟨{ B with m := A.n, n := A.m }, ?_, .of_data rfl rfl ?_ ?_⟩
    · rw [e]; rfl
    · exact hs.2.2.trans (hl.trans (mul_comm _ _))
    · intro i hi j hj
      exact h1 j hj i hi

omit [ROps α] in
/-- C48: transposing twice gives the original matrix. -/
theorem C48_transpose_transpose {A : Mat α} {m n : ℕ} {f : ℕ → ℕ → α} (h : IsMatrix A m n f) :
    ∃ B, (A.transpose >>= Mat.transpose) = some B ∧ IsMatrix B m n f := by
  obtain ⟨B, e, hB⟩ := C48_transpose h
  obtain ⟨C, e', hC⟩ := C48_transpose hB
  exact ⟨C, by rw [e]; exact e', hC⟩

/-- the hypothesis is met by a non-square matrix with distinct entries -/
example : ∃ A : Mat ℚ, IsMatrix A 2 3 (fun i j => lit (10 * i + j)) :=
  let ⟨A, _, h⟩ := C48_ofArray 2 3 (fun i j => lit (10 * i + j)); ⟨A, h⟩

end Verif.Mood
