import Verif.Spec.Vtk
import Mathlib.Tactic.Ring
import Mathlib.Tactic.Linarith
import Mathlib.Tactic.Positivity
import Mathlib.Data.List.Basic
import Mathlib.Data.List.Range
import Mathlib.Algebra.Order.Ring.Int

/-! # Lists of blocks and the loops of the VTK writers -/

namespace Verif.Vtk

variable {α β γ : Type}

theorem length_blocks (l : List β) (f : β → List γ) (c : Nat) (h : ∀ b, (f b).length = c) :
    (l.flatMap f).length = l.length * c := by
  induction l with
  | nil => simp
  | cons x xs ih => simp [h, ih]; ring

theorem drop_blocks (l : List β) (f : β → List γ) (c : Nat) (h : ∀ b, (f b).length = c) (a : Nat) :
    (l.flatMap f).drop (a * c) = (l.drop a).flatMap f := by
  induction l generalizing a with
  | nil => simp
  | cons x xs ih =>
    cases a with
    | zero => simp
    | succ a =>
      have e : (a + 1) * c = (f x).length + a * c := by rw [h]; ring
      rw [List.flatMap_cons, e, ← List.drop_drop, List.drop_left, ih]
      rfl

theorem getElem?_blocks (l : List β) (f : β → List γ) (c : Nat) (h : ∀ b, (f b).length = c)
    {a b : Nat} (hb : b < c) : (l.flatMap f)[a * c + b]? = l[a]?.bind fun x => (f x)[b]? := by
  induction l generalizing a with
  | nil => simp
  | cons x xs ih =>
    cases a with
    | zero =>
      rw [List.flatMap_cons, List.getElem?_append_left (by rw [h]; omega)]
      simp
    | succ a =>
      have e : (a + 1) * c + b = (f x).length + (a * c + b) := by rw [h]; ring
      rw [List.flatMap_cons, e, List.getElem?_append_right (by omega), Nat.add_sub_cancel_left, ih]
      simp

theorem length_upTo (a b : Int) : (upTo a b).length = (b - a + 1).toNat := by simp [upTo]

theorem getElem?_upTo {a b : Int} {n : Nat} (h : n < (b - a + 1).toNat) :
    (upTo a b)[n]? = some (a + n) := by
  simp only [upTo, List.getElem?_map, List.getElem?_range h, Option.map_some]

/-- Cells of the loops, by number. -/
theorem length_innerCells (d3 : Bool) (P : Grid) :
    (innerCells d3 P).length =
      (if d3 then P.nz else 1).toNat * (P.ny.toNat * P.nx.toNat) := by
  have hi : ∀ (j k : Int), ((upTo (P.imin + P.ghostWidth) (P.imax - P.ghostWidth)).map
      fun i => (⟨i, j, k⟩ : Cell)).length = P.nx.toNat := fun j k => by
    rw [List.length_map, length_upTo]; congr 1; simp only [Grid.imin, Grid.imax]; ring
  have hj : ∀ k : Int, ((upTo (P.jmin + P.ghostWidth) (P.jmax - P.ghostWidth)).flatMap fun j =>
      (upTo (P.imin + P.ghostWidth) (P.imax - P.ghostWidth)).map fun i => (⟨i, j, k⟩ : Cell)).length =
      P.ny.toNat * P.nx.toNat := fun k => by
    rw [length_blocks _ _ _ (fun j => hi j k), length_upTo]; congr 2; simp only [Grid.jmin, Grid.jmax]; ring
  rw [innerCells, length_blocks _ _ _ hj]
  congr 1
  cases d3
  · rfl
  · simp only [if_true]; rw [length_upTo]; congr 1; simp only [Grid.kmin, Grid.kmax]; ring

theorem getElem?_innerCells (d3 : Bool) (P : Grid) {x y z : Nat} (hx : (x : Int) < P.nx)
    (hy : (y : Int) < P.ny) (hz : (z : Int) < if d3 then P.nz else 1) :
    (innerCells d3 P)[z * (P.ny.toNat * P.nx.toNat) + (y * P.nx.toNat + x)]? =
      some ⟨P.ghostWidth + x, P.ghostWidth + y, if d3 then P.ghostWidth + z else 0⟩ := by
  have ei : (P.imax - P.ghostWidth) - (P.imin + P.ghostWidth) + 1 = P.nx := by
    simp only [Grid.imin, Grid.imax]; ring
  have ej : (P.jmax - P.ghostWidth) - (P.jmin + P.ghostWidth) + 1 = P.ny := by
    simp only [Grid.jmin, Grid.jmax]; ring
  have ek : (P.kmax - P.ghostWidth) - (P.kmin + P.ghostWidth) + 1 = P.nz := by
    simp only [Grid.kmin, Grid.kmax]; ring
  have hi : ∀ (j k : Int), ((upTo (P.imin + P.ghostWidth) (P.imax - P.ghostWidth)).map
      fun i => (⟨i, j, k⟩ : Cell)).length = P.nx.toNat := fun j k => by
    rw [List.length_map, length_upTo, ei]
  have hj : ∀ k : Int, ((upTo (P.jmin + P.ghostWidth) (P.jmax - P.ghostWidth)).flatMap fun j =>
      (upTo (P.imin + P.ghostWidth) (P.imax - P.ghostWidth)).map fun i => (⟨i, j, k⟩ : Cell)).length =
      P.ny.toNat * P.nx.toNat := fun k => by
    rw [length_blocks _ _ _ (fun j => hi j k), length_upTo, ej]
  have hxn : x < P.nx.toNat := by omega
  have hyn : y < P.ny.toNat := by omega
  have hyx : y * P.nx.toNat + x < P.ny.toNat * P.nx.toNat := by
    calc y * P.nx.toNat + x < y * P.nx.toNat + P.nx.toNat := by omega
      _ = (y + 1) * P.nx.toNat := by ring
      _ ≤ P.ny.toNat * P.nx.toNat := Nat.mul_le_mul_right _ (by omega)
  have hk : (if d3 then upTo (P.kmin + P.ghostWidth) (P.kmax - P.ghostWidth) else [0])[z]? =
      some (if d3 then P.ghostWidth + z else 0) := by
    cases d3
    · simp only [Bool.false_eq_true, if_false] at hz ⊢
      have : z = 0 := by omega
      subst this; rfl
    · simp only [if_true] at hz ⊢
      rw [getElem?_upTo (by rw [ek]; omega)]
      simp [Grid.kmin]
  rw [innerCells, getElem?_blocks _ _ _ hj hyx, hk, Option.bind_some,
    getElem?_blocks _ _ _ (fun j => hi j _) hxn, getElem?_upTo (by rw [ej]; exact hyn), Option.bind_some,
    List.getElem?_map, getElem?_upTo (by rw [ei]; exact hxn)]
  simp [Grid.imin, Grid.jmin]

/-! ## The ASCII loop visits the same cells in the same order -/

theorem range_blocks (m n : Nat) :
    List.range (m * n) = (List.range m).flatMap fun a => (List.range n).map fun b => a * n + b := by
  induction m with
  | zero => simp
  | succ m ih =>
    rw [Nat.succ_mul, List.range_add, ih, List.range_succ, List.flatMap_append]
    simp

theorem range_guard (n : Nat) {a b : Int} (ha : 0 ≤ a) (hb : b < n) (g : Int → List γ) :
    ((List.range n).flatMap fun m : Nat => if a ≤ (m : Int) ∧ (m : Int) ≤ b then g m else []) =
      (upTo a b).flatMap g := by
  by_cases hab : b < a
  · have e : (b - a + 1).toNat = 0 := by omega
    rw [upTo, e]
    simp only [List.range_zero, List.map_nil, List.flatMap_nil, List.flatMap_eq_nil_iff]
    intro m _
    rw [if_neg (by omega)]
  · obtain ⟨a', rfl⟩ : ∃ a' : Nat, a = a' := ⟨a.toNat, by omega⟩
    obtain ⟨r, hr⟩ : ∃ r, n = a' + ((b - a' + 1).toNat + r) := ⟨n - (a' + (b - a' + 1).toNat), by omega⟩
    rw [hr, List.range_add, List.range_add, List.map_append, List.flatMap_append, List.flatMap_append]
    have h1 : ((List.range a').flatMap fun m : Nat =>
        if (a' : Int) ≤ (m : Int) ∧ (m : Int) ≤ b then g m else []) = [] := by
      rw [List.flatMap_eq_nil_iff]
      intro m hm
      rw [List.mem_range] at hm
      rw [if_neg (by omega)]
    have h3 : ((((List.range r).map fun x => (b - a' + 1).toNat + x).map fun x => a' + x).flatMap fun m : Nat =>
        if (a' : Int) ≤ (m : Int) ∧ (m : Int) ≤ b then g m else []) = [] := by
      rw [List.flatMap_eq_nil_iff]
      intro m hm
      simp only [List.mem_map, List.mem_range] at hm
      obtain ⟨_, ⟨x, _, rfl⟩, rfl⟩ := hm
      rw [if_neg (by push_cast; omega)]
    rw [h1, h3, List.nil_append, List.append_nil, upTo, List.flatMap_map, List.flatMap_map]
    apply List.flatMap_congr
    intro m hm
    rw [List.mem_range] at hm
    rw [if_pos (by push_cast; omega)]
    push_cast
    rfl

theorem tdiv_block {a b c : Int} (ha : 0 ≤ a) (hb : 0 ≤ b) (hc : b < c) : (a * c + b).tdiv c = a := by
  rw [Int.tdiv_eq_ediv_of_nonneg (by nlinarith), Int.add_comm, Int.add_mul_ediv_right _ _ (by omega),
    Int.ediv_eq_zero_of_lt hb hc, zero_add]

theorem row_guard (I : Nat) {a b : Int} (ha : 0 ≤ a) (hb : b < I) (p : Prop) [Decidable p] (h : Int → α) :
    ((List.range I).flatMap fun i : Nat =>
      (if p ∧ (a ≤ (i : Int) ∧ (i : Int) ≤ b) then some (h i) else none).toList) =
      if p then (upTo a b).map h else [] := by
  by_cases hp : p
  · rw [if_pos hp]
    have e : (upTo a b).map h = (upTo a b).flatMap fun i => [h i] := by
      generalize upTo a b = l
      induction l with
      | nil => rfl
      | cons x xs ih => simp [ih]
    rw [e, ← range_guard I ha hb]
    apply List.flatMap_congr
    intro i _
    by_cases hi : a ≤ (i : Int) ∧ (i : Int) ≤ b
    · rw [if_pos ⟨hp, hi⟩, if_pos hi]; rfl
    · rw [if_neg (fun x => hi x.2), if_neg hi]; rfl
  · rw [if_neg hp, List.flatMap_eq_nil_iff]
    intro i _
    rw [if_neg (fun x => hp x.1)]; rfl

theorem flatMap_if_nil (p : Prop) [Decidable p] (l : List β) (f : β → List γ) :
    (if p then l.flatMap f else []) = l.flatMap fun x => if p then f x else [] := by
  by_cases hp : p
  · simp [hp]
  · simp [hp]

theorem asciiData_two (P : Grid) (hx : 0 ≤ P.nx) (hy : 0 ≤ P.ny) (hg : 0 ≤ P.ghostWidth)
    (U : Cell → Nat → α) (v : Nat) :
    asciiData false P (P.isize * P.jsize).toNat U v = (innerCells false P).map fun c => U c v := by
  have hI : 0 ≤ P.isize := by simp only [Grid.isize, Grid.imax, Grid.imin]; omega
  have hJ : 0 ≤ P.jsize := by simp only [Grid.jsize, Grid.jmax, Grid.jmin]; omega
  obtain ⟨I, hI⟩ : ∃ I : Nat, P.isize = I := ⟨P.isize.toNat, by omega⟩
  obtain ⟨J, hJ⟩ : ∃ J : Nat, P.jsize = J := ⟨P.jsize.toNat, by omega⟩
  have e : (P.isize * P.jsize).toNat = J * I := by rw [hI, hJ]; rw [mul_comm]; norm_cast
  rw [asciiData, e, range_blocks, List.filterMap_eq_flatMap_toList, List.flatMap_assoc, innerCells]
  simp only [Bool.false_eq_true, if_false, List.flatMap_cons, List.flatMap_nil, List.append_nil,
    List.map_flatMap, List.map_map, List.flatMap_map]
  rw [← range_guard J (by simp only [Grid.jmin]; omega) (by
    simp only [Grid.jsize, Grid.jmax, Grid.jmin] at hJ ⊢; omega)]
  apply List.flatMap_congr
  intro j hj
  rw [List.mem_range] at hj
  rw [← row_guard I (by simp only [Grid.imin]; omega) (by
    simp only [Grid.isize, Grid.imax, Grid.imin] at hI ⊢; omega)]
  apply List.flatMap_congr
  intro i hi
  rw [List.mem_range] at hi
  have hc : cellOf false P ((j * I + i : Nat) : Int) = ⟨i, j, 0⟩ := by
    simp only [cellOf, Bool.false_eq_true, if_false, hI]
    push_cast
    rw [tdiv_block (by omega) (by omega) (by omega)]
    simp
  simp only [hc, notGhost, Bool.false_eq_true, if_false, Bool.true_and, decide_eq_true_eq, ge_iff_le,
    and_assoc, Function.comp]

theorem asciiData_three (P : Grid) (hx : 0 ≤ P.nx) (hy : 0 ≤ P.ny) (hz : 0 ≤ P.nz) (hg : 0 ≤ P.ghostWidth)
    (U : Cell → Nat → α) (v : Nat) :
    asciiData true P (P.isize * P.jsize * P.ksize).toNat U v = (innerCells true P).map fun c => U c v := by
  have hI : 0 ≤ P.isize := by simp only [Grid.isize, Grid.imax, Grid.imin]; omega
  have hJ : 0 ≤ P.jsize := by simp only [Grid.jsize, Grid.jmax, Grid.jmin]; omega
  have hK : 0 ≤ P.ksize := by simp only [Grid.ksize, Grid.kmax, Grid.kmin]; omega
  obtain ⟨I, hI⟩ : ∃ I : Nat, P.isize = I := ⟨P.isize.toNat, by omega⟩
  obtain ⟨J, hJ⟩ : ∃ J : Nat, P.jsize = J := ⟨P.jsize.toNat, by omega⟩
  obtain ⟨K, hK⟩ : ∃ K : Nat, P.ksize = K := ⟨P.ksize.toNat, by omega⟩
  have e : (P.isize * P.jsize * P.ksize).toNat = K * (J * I) := by
    rw [hI, hJ, hK, show ((I : Int) * J * K) = ((K * (J * I) : Nat) : Int) by push_cast; ring]; rfl
  rw [asciiData, e, range_blocks, List.filterMap_eq_flatMap_toList, List.flatMap_assoc, innerCells]
  simp only [if_true, List.map_flatMap, List.map_map, List.flatMap_map]
  rw [← range_guard K (by simp only [Grid.kmin]; omega) (by
    simp only [Grid.ksize, Grid.kmax, Grid.kmin] at hK ⊢; omega)]
  apply List.flatMap_congr
  intro k hk
  rw [List.mem_range] at hk
  rw [range_blocks, List.flatMap_assoc, flatMap_if_nil,
    ← range_guard J (by simp only [Grid.jmin]; omega) (by
      simp only [Grid.jsize, Grid.jmax, Grid.jmin] at hJ ⊢; omega)]
  apply List.flatMap_congr
  intro j hj
  rw [List.mem_range] at hj
  rw [← ite_and, ← row_guard I (by simp only [Grid.imin]; omega) (by
    simp only [Grid.isize, Grid.imax, Grid.imin] at hI ⊢; omega), List.flatMap_map]
  apply List.flatMap_congr
  intro i hi
  rw [List.mem_range] at hi
  have hji : j * I + i < J * I := by nlinarith
  have hc : cellOf true P ((k * (J * I) + (j * I + i) : Nat) : Int) = ⟨i, j, k⟩ := by
    have h1 : (((k * (J * I) + (j * I + i) : Nat) : Int)).tdiv ((I : Int) * J) = k := by
      rw [show ((k * (J * I) + (j * I + i) : Nat) : Int) = (k : Int) * ((I : Int) * J) + ((j * I + i : Nat) : Int) by
        push_cast; ring]
      exact tdiv_block (by omega) (by omega) (by
        have h : ((j * I + i : Nat) : Int) < ((J * I : Nat) : Int) := by exact_mod_cast hji
        push_cast at h ⊢; linarith)
    have h2 : (((k * (J * I) + (j * I + i) : Nat) : Int) - (k : Int) * ((I : Int) * J)).tdiv (I : Int) = j := by
      rw [show ((k * (J * I) + (j * I + i) : Nat) : Int) - (k : Int) * ((I : Int) * J) = (j : Int) * I + i by
        push_cast; ring]
      exact tdiv_block (by omega) (by omega) (by omega)
    simp only [cellOf, if_true, hI, hJ, h1, h2]
    ext
    · simp only; push_cast; ring
    · rfl
    · rfl
  simp only [hc, notGhost, if_true, Bool.and_eq_true, decide_eq_true_eq, ge_iff_le,
    and_assoc, Function.comp]
  congr 2
  rw [eq_iff_iff]
  tauto

/-! ## Machine integers -/

theorem int32_some {x : Int} (h0 : 0 ≤ x) (h : x ≤ 2147483647) : int32 x = some x := by
  simp only [int32, isInt32, decide_eq_true_eq]
  rw [if_pos (by omega)]

theorem int32_none {x : Int} (h : 2147483647 < x) : int32 x = none := by
  simp only [int32, isInt32, decide_eq_true_eq]
  rw [if_neg (by omega)]

/-- Prefixes of a product of positive factors are not larger. -/
theorem mulInts_two {a b : Int} (h0 : 0 ≤ a * b) (h : a * b ≤ 2147483647) : mulInts [a, b] = some (a * b) := by
  show (int32 (a * b)).bind (fun x => some x) = _
  rw [int32_some h0 h]; rfl

theorem mulInts_three {a b c : Int} (ha : 0 ≤ a) (hb : 0 ≤ b) (hc : 1 ≤ c) (h : a * b * c ≤ 2147483647) :
    mulInts [a, b, c] = some (a * b * c) := by
  have h1 : 0 ≤ a * b := Int.mul_nonneg ha hb
  have h2 : a * b ≤ a * b * c := by nlinarith
  show (int32 (a * b)).bind (fun x => (int32 (x * c)).bind fun x => some x) = _
  rw [int32_some h1 (by omega)]
  show (int32 (a * b * c)).bind (fun x => some x) = _
  rw [int32_some (by omega) h]; rfl

theorem mulInts_four {a b c d : Int} (ha : 0 ≤ a) (hb : 0 ≤ b) (hc : 1 ≤ c) (hd : 1 ≤ d)
    (h : a * b * c * d ≤ 2147483647) : mulInts [a, b, c, d] = some (a * b * c * d) := by
  have h1 : 0 ≤ a * b := Int.mul_nonneg ha hb
  have h2 : a * b ≤ a * b * c := by nlinarith
  have h3 : a * b * c ≤ a * b * c * d := by nlinarith
  show (int32 (a * b)).bind (fun x => (int32 (x * c)).bind fun x => (int32 (x * d)).bind fun x => some x) = _
  rw [int32_some h1 (by omega)]
  show (int32 (a * b * c)).bind (fun x => (int32 (x * d)).bind fun x => some x) = _
  rw [int32_some (by omega) (by omega)]
  show (int32 (a * b * c * d)).bind (fun x => some x) = _
  rw [int32_some (by omega) h]; rfl

/-! ## Lists of arrays -/

theorem mapM_some (l : List β) (f : β → Option γ) (g : β → γ) (h : ∀ x ∈ l, f x = some (g x)) :
    l.mapM f = some (l.map g) := by
  induction l with
  | nil => rfl
  | cons x xs ih =>
    rw [List.mapM_cons, h x (by simp), ih (fun y hy => h y (by simp [hy]))]
    rfl

theorem mapM_none (l : List β) (f : β → Option γ) (x : β) (hx : x ∈ l) (h : f x = none) : l.mapM f = none := by
  induction l with
  | nil => simp at hx
  | cons y ys ih =>
    rw [List.mapM_cons]
    cases hy : f y with
    | none => rfl
    | some z =>
      rcases List.mem_cons.1 hx with rfl | hx
      · rw [h] at hy; cases hy
      · rw [ih hx]; rfl

theorem lookup_arrays (names : Nat → String) (pay : Nat → γ) (l : List Nat)
    (inj : ∀ u ∈ l, ∀ v ∈ l, names u = names v → u = v) (v : Nat) (hv : v ∈ l) :
    (l.map fun v => (names v, pay v)).lookup (names v) = some (pay v) := by
  induction l with
  | nil => simp at hv
  | cons x xs ih =>
    rw [List.map_cons, List.lookup_cons]
    by_cases e : names v = names x
    · have : v = x := inj v hv x (by simp) e
      subst this; simp
    · have hb : (names v == names x) = false := by simpa using e
      rw [hb]
      have hv' : v ∈ xs := by
        rcases List.mem_cons.1 hv with rfl | h
        · exact absurd rfl e
        · exact h
      exact ih (fun a ha b hb => inj a (by simp [ha]) b (by simp [hb])) hv'

theorem lookup_arrays_mem (names : Nat → String) (pay : Nat → γ) (l : List Nat) (n : String) {x : γ}
    (h : (l.map fun v => (names v, pay v)).lookup n = some x) : ∃ v ∈ l, n = names v := by
  induction l with
  | nil => simp at h
  | cons y ys ih =>
    rw [List.map_cons, List.lookup_cons] at h
    by_cases e : n = names y
    · exact ⟨y, by simp, e⟩
    · have hb : (n == names y) = false := by simpa using e
      rw [hb] at h
      obtain ⟨v, hv, e⟩ := ih h
      exact ⟨v, by simp [hv], e⟩

/-- Reading an array back from the appended data. -/
theorem readRaw_rawData {D : Decoder α} {C : Codec α} (h : Decodes D C) (d3 : Bool) (P : Grid) (nbvar : Nat)
    (U : Cell → Nat → α) (count : Nat) (hc : (innerCells d3 P).length = count) (h64 : count * C.size < 2 ^ 64)
    {v n : Nat} (hv : v < nbvar) (hn : n < count) :
    readRaw D count (rawData C d3 P nbvar (count * C.size) U) (v * (8 + count * C.size)) n =
      (innerCells d3 P)[n]?.map fun c => U c v := by
  have hb : ∀ u, ((innerCells d3 P).flatMap fun c => C.real (U c u)).length = count * C.size := fun u => by
    rw [length_blocks _ _ C.size (fun c => h.real_length _), hc]
  have hblock : ∀ u, (C.word (count * C.size) ++ (innerCells d3 P).flatMap fun c => C.real (U c u)).length =
      8 + count * C.size := fun u => by rw [List.length_append, h.word_length, hb]
  have hd : (rawData C d3 P nbvar (count * C.size) U).drop (v * (8 + count * C.size)) =
      (C.word (count * C.size) ++ (innerCells d3 P).flatMap fun c => C.real (U c v)) ++
        ((List.range nbvar).drop (v + 1)).flatMap fun v =>
          C.word (count * C.size) ++ (innerCells d3 P).flatMap fun c => C.real (U c v) := by
    rw [rawData, drop_blocks _ _ _ hblock, List.drop_eq_getElem_cons (by simpa using hv), List.flatMap_cons]
    simp
  have hw : ((rawData C d3 P nbvar (count * C.size) U).drop (v * (8 + count * C.size))).take 8 =
      C.word (count * C.size) := by
    rw [hd, List.append_assoc, List.take_append_of_le_length (by rw [h.word_length])]
    exact List.take_of_length_le (by rw [h.word_length])
  have hlen : n < (innerCells d3 P).length := by omega
  have hval : ((((rawData C d3 P nbvar (count * C.size) U).drop (v * (8 + count * C.size))).drop 8).drop
      (n * C.size)).take C.size = C.real (U (innerCells d3 P)[n] v) := by
    have h8 : ∀ l : List UInt8, (C.word (count * C.size) ++ l).drop 8 = l := fun l => by
      rw [← h.word_length (count * C.size), List.drop_left]
    rw [hd, List.append_assoc, h8, List.drop_append_of_le_length (by
        rw [hb]; exact Nat.mul_le_mul_right _ (by omega)),
      drop_blocks _ _ _ (fun c => h.real_length _), List.drop_eq_getElem_cons hlen, List.flatMap_cons,
      List.append_assoc, List.take_append_of_le_length (by rw [h.real_length])]
    exact List.take_of_length_le (by rw [h.real_length])
  rw [readRaw]
  simp only [hw, h.word _ h64, h.size]
  rw [if_pos ⟨trivial, by rw [hd, List.length_append, hblock]; omega⟩, hval, h.real, List.getElem?_eq_getElem hlen]
  rfl

end Verif.Vtk
