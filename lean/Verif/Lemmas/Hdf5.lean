import Verif.Model.Hdf5
import Verif.Lemmas.Vtk
import Verif.Lemmas.HaloStage
import Mathlib.Data.List.Forall2
import Mathlib.Tactic.Linarith
import Mathlib.Tactic.Ring
import Mathlib.Tactic.Positivity
import Mathlib.Tactic.IntervalCases

/-!
# Lemmas on dataspaces and on the transfer between arrays and files
-/

namespace Verif.Hdf5

variable {α : Type}

/-! ## Multi-indices -/

theorem mem_indices {a c : List Nat} : a ∈ indices c ↔ List.Forall₂ (· < ·) a c := by
  induction c generalizing a with
  | nil => simp [indices]
  | cons c cs ih =>
    simp only [indices, List.mem_flatMap, List.mem_range, List.mem_map]
    constructor
    · rintro ⟨x, hx, as, has, rfl⟩
      exact List.Forall₂.cons hx (ih.1 has)
    · intro h
      cases h with
      | cons h1 h2 => exact ⟨_, h1, _, ih.2 h2, rfl⟩

theorem lin_lt {a d : List Nat} (h : List.Forall₂ (· < ·) a d) : lin d a < d.prod := by
  induction h with
  | nil => simp [lin]
  | cons h1 h2 ih =>
    rw [lin, List.prod_cons]
    calc _ < _ * _ + _ := Nat.add_lt_add_left ih _
      _ = (_ + 1) * _ := by ring
      _ ≤ _ := Nat.mul_le_mul_right _ h1

theorem lin_injective {a b d : List Nat} (ha : List.Forall₂ (· < ·) a d) (hb : List.Forall₂ (· < ·) b d)
    (h : lin d a = lin d b) : a = b := by
  induction ha generalizing b with
  | nil => cases hb; rfl
  | @cons x y xs ys h1 h2 ih =>
    cases hb with
    | @cons x' _ xs' _ h1' h2' =>
      rw [lin, lin] at h
      have l1 := lin_lt h2
      have l2 := lin_lt h2'
      have e : x = x' := by
        have e1 : (x * ys.prod + lin ys xs) / ys.prod = x := by
          rw [mul_comm, Nat.mul_add_div (by omega), Nat.div_eq_of_lt l1, add_zero]
        have e2 : (x' * ys.prod + lin ys xs') / ys.prod = x' := by
          rw [mul_comm, Nat.mul_add_div (by omega), Nat.div_eq_of_lt l2, add_zero]
        rw [← e1, h, e2]
      subst e
      rw [ih h2' (by omega)]

/-- The box of a space lies inside its extents. -/
theorem forall₂_shift {s c d a : List Nat} (hs : s.length = d.length)
    (h : List.Forall₂ (· ≤ ·) (shift s c) d) (ha : List.Forall₂ (· < ·) a c) (hc : c.length = d.length) :
    List.Forall₂ (· < ·) (shift s a) d := by
  induction ha generalizing s d with
  | nil =>
    have : d = [] := List.length_eq_zero_iff.1 hc.symm
    subst this
    have : s = [] := List.length_eq_zero_iff.1 hs
    subst this
    exact List.Forall₂.nil
  | cons h1 h2 ih =>
    cases d with
    | nil => simp at hc
    | cons d ds =>
      cases s with
      | nil => simp at hs
      | cons s ss =>
        simp only [shift, List.zipWith_cons_cons, List.forall₂_cons] at h ⊢
        exact ⟨by omega, ih (by simpa using hs) h.2 (by simpa using hc)⟩

theorem inside_iff {S : Space} : S.inside = true ↔ S.start.length = S.dims.length ∧ S.count.length = S.dims.length ∧
    List.Forall₂ (· ≤ ·) (shift S.start S.count) S.dims := by
  have key : ∀ {e d : List Nat}, e.length = d.length →
      ((List.zipWith (fun e d => decide (e ≤ d)) e d).all id = true ↔ List.Forall₂ (· ≤ ·) e d) := by
    intro e
    induction e with
    | nil => intro d h; cases d <;> simp_all
    | cons x xs ih =>
      intro d h
      cases d with
      | nil => simp at h
      | cons y ys =>
        simp only [List.zipWith_cons_cons, List.all_cons, id, Bool.and_eq_true, decide_eq_true_eq, List.forall₂_cons]
        rw [ih (by simpa using h)]
  unfold Space.inside
  simp only [Bool.and_eq_true, decide_eq_true_eq, and_assoc]
  constructor
  · rintro ⟨a, b, c⟩
    exact ⟨a, b, (key (by simp [shift, a, b])).1 c⟩
  · rintro ⟨a, b, c⟩
    exact ⟨a, b, (key (by simp [shift, a, b])).2 c⟩

theorem Space.bound {S : Space} (h : S.inside = true) {a : List Nat} (ha : a ∈ indices S.count) :
    List.Forall₂ (· < ·) (shift S.start a) S.dims := by
  obtain ⟨h1, h2, h3⟩ := inside_iff.1 h
  exact forall₂_shift h1 h3 (mem_indices.1 ha) h2

theorem shift_injective {s a b : List Nat} (ha : a.length = s.length) (hb : b.length = s.length)
    (h : shift s a = shift s b) : a = b := by
  induction s generalizing a b with
  | nil =>
    have e1 : a = [] := List.length_eq_zero_iff.1 ha
    have e2 : b = [] := List.length_eq_zero_iff.1 hb
    rw [e1, e2]
  | cons s ss ih =>
    cases a with
    | nil => simp at ha
    | cons x xs =>
      cases b with
      | nil => simp at hb
      | cons y ys =>
        simp only [shift, List.zipWith_cons_cons, List.cons.injEq] at h
        obtain ⟨h1, h2⟩ := h
        rw [ih (by simpa using ha) (by simpa using hb) h2, show x = y by omega]

/-! ## Stores -/

section
variable {β : Type} [DecidableEq β]

theorem scatter_eq (f : β → α) (l : List (β × α)) (g : β → α) (h : ∀ p ∈ l, p.2 = g p.1) (k : β) :
    scatter f l k = if k ∈ l.map Prod.fst then g k else f k := by
  induction l generalizing f with
  | nil => simp [scatter]
  | cons p ps ih =>
    rw [show scatter f (p :: ps) = scatter (Function.update f p.1 p.2) ps from rfl,
      ih _ (fun q hq => h q (List.mem_cons_of_mem _ hq))]
    have hp := h p List.mem_cons_self
    by_cases hk : k ∈ ps.map Prod.fst
    · rw [if_pos hk, if_pos (by rw [List.map_cons]; exact List.mem_cons_of_mem _ hk)]
    · rw [if_neg hk]
      by_cases e : k = p.1
      · subst e
        rw [Function.update_self, if_pos (by simp), hp]
      · rw [Function.update_of_ne e, if_neg (by rw [List.map_cons, List.mem_cons]; tauto)]

theorem scatter_mem (f : β → α) (l : List (β × α)) (h : ∀ p ∈ l, ∀ q ∈ l, p.1 = q.1 → p.2 = q.2) {p : β × α}
    (hp : p ∈ l) : scatter f l p.1 = p.2 := by
  classical
  let g : β → α := fun k => if hk : ∃ q ∈ l, q.1 = k then hk.choose.2 else f k
  have this : ∀ q ∈ l, q.2 = g q.1 := by
    intro q hq
    have hex : ∃ q' ∈ l, q'.1 = q.1 := ⟨q, hq, rfl⟩
    simp only [g, dif_pos hex]
    exact h q hq _ hex.choose_spec.1 hex.choose_spec.2.symm
  rw [scatter_eq f l g this, if_pos (List.mem_map_of_mem hp), ← this p hp]
end

theorem zip_selected {S T : Space} (h : S.count = T.count) :
    S.selected.zip T.selected = (indices T.count).map fun a => (shift S.start a, shift T.start a) := by
  rw [Space.selected, Space.selected, h, List.zip_map']

theorem length_selected {S T : Space} (h : S.count = T.count) : S.selected.length = T.selected.length := by
  simp [Space.selected, h]

/-- What a write does: the elements of the box get the values in memory, the others stay. -/
theorem h5Write_eq {mem file : Space} (hm : mem.inside = true) (hf : file.inside = true) (hc : mem.count = file.count)
    {ds : Dataset α} (hd : file.dims = ds.dims) (buf : Nat → α) (G : List Nat → α)
    (hG : ∀ a ∈ indices file.count, buf (lin mem.dims (shift mem.start a)) = G (shift file.start a)) :
    ∃ ds', h5Write mem file buf ds = some ds' ∧ ds'.dims = ds.dims ∧ ∀ k, ds'.data k =
      if k ∈ (indices file.count).map (shift file.start) then G k else ds.data k := by
  refine ⟨_, if_pos ⟨hm, hf, hd, length_selected hc⟩, rfl, fun k => ?_⟩
  simp only
  rw [zip_selected hc.symm, List.map_map]
  refine (scatter_eq _ _ G ?_ k).trans ?_
  rotate_left
  · rw [List.map_map, hc]
    by_cases hk : k ∈ (indices file.count).map (shift file.start)
    · rw [if_pos hk]; exact if_pos hk
    · rw [if_neg hk]; exact if_neg hk
  · intro p hp
    obtain ⟨a, ha, rfl⟩ := List.mem_map.1 hp
    rw [hc] at ha
    exact hG a ha

/-- What a read does. -/
theorem h5Read_eq {mem file : Space} (hm : mem.inside = true) (hf : file.inside = true) (hc : mem.count = file.count)
    {ds : Dataset α} (hd : file.dims = ds.dims) (buf : Nat → α) :
    ∃ b, h5Read mem file ds buf = some b ∧
      ∀ a ∈ indices file.count, b (lin mem.dims (shift mem.start a)) = ds.data (shift file.start a) := by
  refine ⟨_, if_pos ⟨hm, hf, hd, length_selected hc⟩, fun a ha => ?_⟩
  rw [zip_selected hc.symm, List.map_map]
  have hl : ∀ b ∈ indices mem.count, b.length = mem.start.length := by
    intro b hb
    rw [(mem_indices.1 hb).length_eq]
    obtain ⟨h1, h2, -⟩ := inside_iff.1 hm
    rw [h1, h2]
  rw [← hc] at ha
  exact scatter_mem (p := (lin mem.dims (shift mem.start a), ds.data (shift file.start a))) _ _ (by
    intro p hp q hq e
    obtain ⟨x, hx, rfl⟩ := List.mem_map.1 hp
    obtain ⟨y, hy, rfl⟩ := List.mem_map.1 hq
    have := shift_injective (hl x hx) (hl y hy) (lin_injective (Space.bound hm hx) (Space.bound hm hy) e)
    rw [this]) (List.mem_map.2 ⟨a, ha, rfl⟩)

/-! ## Arrays and their image in memory -/

/-- Cells of the array, as an `int`. -/
def Run.total (R : Run) : Int := R.P.isize * R.P.jsize * (if R.d3 then R.P.ksize else 1)

/-- All products the code forms fit in an `int`. -/
structure Run.Fits (R : Run) : Prop where
  cells : R.total ≤ 2147483647
  left : R.layout = .left → ∀ v ∈ R.fields, R.total * v ≤ 2147483647

theorem mulInts_snoc {l : List Int} (hl : l ≠ []) {p v : Int} (h : Vtk.mulInts l = some p) (h0 : 0 ≤ p * v)
    (h1 : p * v ≤ 2147483647) : Vtk.mulInts (l ++ [v]) = some (p * v) := by
  cases l with
  | nil => exact absurd rfl hl
  | cons x xs =>
    simp only [List.cons_append, Vtk.mulInts] at h ⊢
    rw [List.foldlM_append, h]
    show (int32 (p * v)).bind (fun x => some x) = _
    rw [Vtk.int32_some h0 h1]; rfl

theorem Run.factors_some {R : Run} (hP : Vtk.Sound R.d3 R.P) (h : R.total ≤ 2147483647) :
    Vtk.mulInts R.factors = some R.total := by
  obtain ⟨h1, h2, h3, h4⟩ := hP
  have hI : 1 ≤ R.P.isize := by simp only [Grid.isize, Grid.imax, Grid.imin]; omega
  have hJ : 1 ≤ R.P.jsize := by simp only [Grid.jsize, Grid.jmax, Grid.jmin]; omega
  unfold Run.factors Run.total at *
  cases hd : R.d3
  · rw [hd] at h
    simp only [Bool.false_eq_true, if_false, mul_one] at h ⊢
    exact Vtk.mulInts_two (by positivity) h
  · rw [hd] at h
    have hK : 1 ≤ R.P.ksize := by have := h3 hd; simp only [Grid.ksize, Grid.kmax, Grid.kmin]; omega
    simp only [if_true] at h ⊢
    exact Vtk.mulInts_three (by omega) (by omega) hK h

theorem Run.factors_ne (R : Run) : R.factors ≠ [] := by
  unfold Run.factors; split_ifs <;> simp

/-- A multi-index inside the array is a cell. -/
theorem Run.sizes_cases {R : Run} {idx : List Nat} (h : List.Forall₂ (· < ·) idx R.sizes) :
    (R.d3 = true ∧ ∃ k j i, idx = [k, j, i] ∧ k < R.P.ksize.toNat ∧ j < R.P.jsize.toNat ∧ i < R.P.isize.toNat) ∨
    (R.d3 = false ∧ ∃ j i, idx = [j, i] ∧ j < R.P.jsize.toNat ∧ i < R.P.isize.toNat) := by
  unfold Run.sizes Run.rev at h
  cases hd : R.d3
  · rw [hd] at h
    simp only [Bool.false_eq_true, if_false] at h
    right
    rcases h with _ | ⟨h1, h2⟩
    rcases h2 with _ | ⟨h2, h3⟩
    cases h3
    exact ⟨rfl, _, _, rfl, h1, h2⟩
  · rw [hd] at h
    simp only [if_true] at h
    left
    rcases h with _ | ⟨h1, h2⟩
    rcases h2 with _ | ⟨h2, h3⟩
    rcases h3 with _ | ⟨h3, h4⟩
    cases h4
    exact ⟨rfl, _, _, _, rfl, h1, h2, h3⟩

theorem Run.lin_sizes {R : Run} (hP : Vtk.Sound R.d3 R.P) {idx : List Nat} (h : List.Forall₂ (· < ·) idx R.sizes) :
    ((R.cellAt idx).i + R.P.isize * (R.cellAt idx).j +
      (if R.d3 then R.P.isize * R.P.jsize * (R.cellAt idx).k else 0)) = (lin R.sizes idx : Nat) ∧
    R.has (R.cellAt idx) = true ∧ (R.sizes.prod : Int) = R.total := by
  obtain ⟨h1, h2, h3, h4⟩ := hP
  have hI : 1 ≤ R.P.isize := by simp only [Grid.isize, Grid.imax, Grid.imin]; omega
  have hJ : 1 ≤ R.P.jsize := by simp only [Grid.jsize, Grid.jmax, Grid.jmin]; omega
  obtain ⟨I, eI⟩ : ∃ I : Nat, R.P.isize = I := ⟨R.P.isize.toNat, by omega⟩
  obtain ⟨J, eJ⟩ : ∃ J : Nat, R.P.jsize = J := ⟨R.P.jsize.toNat, by omega⟩
  rcases R.sizes_cases h with ⟨hd, k, j, i, rfl, hk, hj, hi⟩ | ⟨hd, j, i, rfl, hj, hi⟩
  · have hK : 1 ≤ R.P.ksize := by have := h3 hd; simp only [Grid.ksize, Grid.kmax, Grid.kmin]; omega
    obtain ⟨K, eK⟩ : ∃ K : Nat, R.P.ksize = K := ⟨R.P.ksize.toNat, by omega⟩
    rw [eK] at hk; rw [eJ] at hj; rw [eI] at hi
    simp only [Int.toNat_natCast] at hk hj hi
    refine ⟨?_, ?_, ?_⟩
    · simp only [Run.cellAt, hd, if_true, Run.sizes, Run.rev, lin, List.prod_cons, List.prod_nil, eI, eJ, eK,
        Int.toNat_natCast]
      push_cast; ring
    · simp only [Run.has, Run.cellAt, hd, if_true, eI, eJ, eK, decide_eq_true_eq]
      omega
    · simp only [Run.total, Run.sizes, Run.rev, hd, if_true, List.prod_cons, List.prod_nil, eI, eJ, eK,
        Int.toNat_natCast]
      push_cast; ring
  · rw [eJ] at hj; rw [eI] at hi
    simp only [Int.toNat_natCast] at hj hi
    refine ⟨?_, ?_, ?_⟩
    · simp only [Run.cellAt, hd, Bool.false_eq_true, if_false, Run.sizes, Run.rev, lin, List.prod_cons, List.prod_nil,
        eI, eJ, Int.toNat_natCast]
      push_cast; ring
    · simp only [Run.has, Run.cellAt, hd, Bool.false_eq_true, if_false, eI, eJ, decide_eq_true_eq]
      exact ⟨by omega, by omega, by omega, by omega, by simp⟩
    · simp only [Run.total, Run.sizes, Run.rev, hd, Bool.false_eq_true, if_false, List.prod_cons, List.prod_nil, eI, eJ,
        Int.toNat_natCast]
      push_cast; ring

private theorem divmod3 {I J K i j k v : Nat} (hi : i < I) (hj : j < J) (hk : k < K) :
    let a := I * J * K * v + (k * (J * (I * 1)) + (j * (I * 1) + (i * 1 + 0)))
    a % I = i ∧ a / I % J = j ∧ a / (I * J) % K = k ∧ a / (I * J * K) = v := by
  intro a
  have hI : 0 < I := by omega
  have hJ : 0 < J := by omega
  have hK : 0 < K := by omega
  have e0 : a = i + I * (j + J * (k + K * v)) := by simp only [a]; ring
  have e1 : a % I = i := by rw [e0, Nat.add_mul_mod_self_left, Nat.mod_eq_of_lt hi]
  have e2 : a / I = j + J * (k + K * v) := by
    rw [e0, Nat.add_mul_div_left _ _ hI, Nat.div_eq_of_lt hi, zero_add]
  have e3 : a / (I * J) = k + K * v := by
    rw [← Nat.div_div_eq_div_mul, e2, Nat.add_mul_div_left _ _ hJ, Nat.div_eq_of_lt hj, zero_add]
  have e4 : a / (I * J * K) = v := by
    rw [← Nat.div_div_eq_div_mul, e3, Nat.add_mul_div_left _ _ hK, Nat.div_eq_of_lt hk, zero_add]
  refine ⟨e1, ?_, ?_, e4⟩
  · rw [e2, Nat.add_mul_mod_self_left, Nat.mod_eq_of_lt hj]
  · rw [e3, Nat.add_mul_mod_self_left, Nat.mod_eq_of_lt hk]

/-- What the writer hands to the library: the array, row-major with x fastest. -/
theorem Run.copyOut_eq {R : Run} (hP : Vtk.Sound R.d3 R.P) (hF : R.Fits) (U : Cell → Nat → α) {v : Nat}
    (hv : v ∈ R.fields) (junk : Nat → α) :
    ∃ b, R.copyOut U v junk = some b ∧ ∀ idx, List.Forall₂ (· < ·) idx R.sizes →
      b (lin R.sizes idx) = U (R.cellAt idx) v := by
  unfold Run.copyOut
  cases hl : R.layout
  · have hf := Run.factors_some hP hF.cells
    have h0 : 0 ≤ R.total := by
      obtain ⟨h1, h2, h3, h4⟩ := hP
      have hI : 1 ≤ R.P.isize := by simp only [Grid.isize, Grid.imax, Grid.imin]; omega
      have hJ : 1 ≤ R.P.jsize := by simp only [Grid.jsize, Grid.jmax, Grid.jmin]; omega
      unfold Run.total
      split_ifs with hd
      · have hK : 1 ≤ R.P.ksize := by have := h3 hd; simp only [Grid.ksize, Grid.kmax, Grid.kmin]; omega
        positivity
      · positivity
    have hs := mulInts_snoc R.factors_ne hf (v := (v : Int)) (by positivity) (hF.left hl v hv)
    refine ⟨fun n => R.leftMemory U ((R.total * v).toNat + n), ?_, fun idx hidx => ?_⟩
    · simp only [hs]; rfl
    · obtain ⟨-, -, e3⟩ := R.lin_sizes hP hidx
      simp only [← e3]
      rw [show ((R.sizes.prod : Int) * (v : Int)).toNat = R.sizes.prod * v by
        rw [← Int.natCast_mul]; rfl]
      rcases R.sizes_cases hidx with ⟨hd, k, j, i, rfl, hk, hj, hi⟩ | ⟨hd, j, i, rfl, hj, hi⟩
      · have key := divmod3 (v := v) hi hj hk
        have ep : R.sizes.prod * v + lin R.sizes [k, j, i] = R.P.isize.toNat * R.P.jsize.toNat * R.P.ksize.toNat * v +
            (k * (R.P.jsize.toNat * (R.P.isize.toNat * 1)) + (j * (R.P.isize.toNat * 1) + (i * 1 + 0))) := by
          simp only [Run.sizes, Run.rev, hd, if_true, lin, List.prod_cons, List.prod_nil]; ring
        rw [ep]
        simp only [Run.leftMemory, hd, if_true, Run.cellAt]
        rw [key.1, key.2.1, key.2.2.1, key.2.2.2]
      · have key := divmod3 (v := v) hi hj (show 0 < 1 by norm_num)
        have ep : R.sizes.prod * v + lin R.sizes [j, i] = R.P.isize.toNat * R.P.jsize.toNat * 1 * v +
            (0 * (R.P.jsize.toNat * (R.P.isize.toNat * 1)) + (j * (R.P.isize.toNat * 1) + (i * 1 + 0))) := by
          simp only [Run.sizes, Run.rev, hd, Bool.false_eq_true, if_false, lin, List.prod_cons, List.prod_nil]; ring
        rw [ep]
        simp only [Run.leftMemory, hd, Bool.false_eq_true, if_false, Run.cellAt]
        rw [key.1, key.2.1, key.2.2.1, key.2.2.2]; rfl
  · simp only [Run.factors_some hP hF.cells]
    refine ⟨_, rfl, fun idx hidx => ?_⟩
    have hkey : ∀ x ∈ indices R.sizes, ((R.cellAt x).i + R.P.isize * (R.cellAt x).j +
        (if R.d3 then R.P.isize * R.P.jsize * (R.cellAt x).k else 0)).toNat = lin R.sizes x := by
      intro x hx
      rw [(R.lin_sizes hP (mem_indices.1 hx)).1]; rfl
    have hmap : ((indices R.sizes).map fun idx =>
        (((R.cellAt idx).i + R.P.isize * (R.cellAt idx).j +
        (if R.d3 then R.P.isize * R.P.jsize * (R.cellAt idx).k else 0)).toNat, U (R.cellAt idx) v)) =
        (indices R.sizes).map fun idx => (lin R.sizes idx, U (R.cellAt idx) v) := by
      apply List.map_congr_left
      intro x hx
      rw [hkey x hx]
    simp only [hmap]
    exact scatter_mem (p := (lin R.sizes idx, U (R.cellAt idx) v)) _ _ (by
      intro p hp q hq e
      obtain ⟨x, hx, rfl⟩ := List.mem_map.1 hp
      obtain ⟨y, hy, rfl⟩ := List.mem_map.1 hq
      rw [lin_injective (mem_indices.1 hx) (mem_indices.1 hy) e]) (List.mem_map.2 ⟨idx, mem_indices.2 hidx, rfl⟩)

/-- What the reader does with its buffer. -/
theorem Run.copyIn_eq {R : Run} (hP : Vtk.Sound R.d3 R.P) (hF : R.Fits) (data : Nat → α) {v : Nat} (hv : v ∈ R.fields)
    (U : Cell → Nat → α) :
    ∃ U', R.copyIn data v U = some U' ∧ ∀ idx, List.Forall₂ (· < ·) idx R.sizes → ∀ w,
      U' (R.cellAt idx) w = if w = v then data (lin R.sizes idx) else U (R.cellAt idx) w := by
  unfold Run.copyIn
  cases hl : R.layout
  · have hf := Run.factors_some hP hF.cells
    have h0 : 0 ≤ R.total := by
      obtain ⟨h1, h2, h3, h4⟩ := hP
      have hI : 1 ≤ R.P.isize := by simp only [Grid.isize, Grid.imax, Grid.imin]; omega
      have hJ : 1 ≤ R.P.jsize := by simp only [Grid.jsize, Grid.jmax, Grid.jmin]; omega
      unfold Run.total
      split_ifs with hd
      · have hK : 1 ≤ R.P.ksize := by have := h3 hd; simp only [Grid.ksize, Grid.kmax, Grid.kmin]; omega
        positivity
      · positivity
    have hs := mulInts_snoc R.factors_ne hf (v := (v : Int)) (by positivity) (hF.left hl v hv)
    simp only [hs, hf]
    refine ⟨_, rfl, fun idx hidx w => ?_⟩
    obtain ⟨e1, e2, e3⟩ := R.lin_sizes hP hidx
    simp only [e1, e2, true_and]
    have hlt : ((lin R.sizes idx : Nat) : Int) < R.total := by
      rw [← e3]; exact_mod_cast lin_lt hidx
    have hnn : (0 : Int) ≤ (lin R.sizes idx : Nat) := by positivity
    by_cases hw : w = v
    · subst hw
      rw [if_pos ⟨by omega, by omega⟩, if_pos rfl]
      congr 1
      omega
    · rw [if_neg hw]
      refine if_neg ?_
      rintro ⟨ha, hb⟩
      rcases Nat.lt_or_gt_of_ne hw with hlt' | hlt'
      · have : R.total * (w + 1 : Int) ≤ R.total * v := mul_le_mul_of_nonneg_left (by omega) h0
        rw [mul_add, mul_one] at this
        omega
      · have : R.total * (v + 1 : Int) ≤ R.total * w := mul_le_mul_of_nonneg_left (by omega) h0
        rw [mul_add, mul_one] at this
        omega
  · refine ⟨_, rfl, fun idx hidx w => ?_⟩
    obtain ⟨e1, e2, -⟩ := R.lin_sizes hP hidx
    simp only [e1, e2, and_true, Int.toNat_natCast]

/-! ## Boxes -/

/-- A run with at least one cell and one process. -/
structure Run.Well (R : Run) : Prop where
  grid : Vtk.Sound R.d3 R.P
  mx : 1 ≤ R.mx
  my : 1 ≤ R.my
  mz : 1 ≤ R.mz
  flat : R.d3 = false → R.mz = 1

def Run.procs (R : Run) : Nat := R.mx * R.my * R.mz

theorem Run.shift_rev (R : Run) (a b c x y z : Nat) :
    shift (R.rev a b c) (R.rev x y z) = R.rev (a + x) (b + y) (c + z) := by
  unfold Run.rev shift; split_ifs <;> rfl

theorem Run.cellAt_rev (R : Run) (x y z : Nat) : R.cellAt (R.rev x y z) = ⟨x, y, if R.d3 then (z : Int) else 0⟩ := by
  unfold Run.rev Run.cellAt
  cases h : R.d3 <;> simp

theorem Run.mem_rev {R : Run} {a : List Nat} {X Y Z : Nat} (h : a ∈ indices (R.rev X Y Z)) :
    ∃ x y z, a = R.rev x y z ∧ x < X ∧ y < Y ∧ (R.d3 = true → z < Z) ∧ (R.d3 = false → z = 0) := by
  have h := mem_indices.1 h
  unfold Run.rev at h
  cases hd : R.d3
  · rw [hd] at h
    simp only [Bool.false_eq_true, if_false] at h
    rcases h with _ | ⟨h1, h2⟩
    rcases h2 with _ | ⟨h2, h3⟩
    cases h3
    refine ⟨_, _, 0, ?_, h2, h1, by simp, by simp⟩
    simp [Run.rev, hd]
  · rw [hd] at h
    simp only [if_true] at h
    rcases h with _ | ⟨h1, h2⟩
    rcases h2 with _ | ⟨h2, h3⟩
    rcases h3 with _ | ⟨h3, h4⟩
    cases h4
    refine ⟨_, _, _, ?_, h3, h2, fun _ => h1, by simp⟩
    simp [Run.rev, hd]

theorem Run.rev_mem {R : Run} {x y z X Y Z : Nat} (hx : x < X) (hy : y < Y) (hz : R.d3 = true → z < Z) :
    R.rev x y z ∈ indices (R.rev X Y Z) := by
  rw [mem_indices]
  unfold Run.rev
  cases hd : R.d3
  · simp [hx, hy]
  · simp [hx, hy, hz hd]

theorem Run.le_rev {R : Run} {x y z X Y Z : Nat} (hx : x ≤ X) (hy : y ≤ Y) (hz : R.d3 = true → z ≤ Z) :
    List.Forall₂ (· ≤ ·) (R.rev x y z) (R.rev X Y Z) := by
  unfold Run.rev
  cases hd : R.d3
  · simp [hx, hy]
  · simp [hx, hy, hz hd]

theorem Run.length_rev (R : Run) (x y z X Y Z : Nat) : (R.rev x y z).length = (R.rev X Y Z).length := by
  unfold Run.rev; split_ifs <;> rfl

theorem Run.memory_start (R : Run) : ∃ s, R.memory.start = R.rev s s s ∧
    (s = 0 ∧ R.ghosts ≠ .none ∨ s = R.P.ghostWidth.toNat ∧ R.ghosts = .none) := by
  unfold Run.memory
  cases R.ghosts
  · exact ⟨_, rfl, Or.inr ⟨rfl, rfl⟩⟩
  · exact ⟨0, rfl, Or.inl ⟨rfl, by simp⟩⟩
  · exact ⟨0, rfl, Or.inl ⟨rfl, by simp⟩⟩

theorem Run.memory_inside {R : Run} (hR : R.Well) : R.memory.inside = true := by
  obtain ⟨⟨h1, h2, h3, h4⟩, -, -, -, -⟩ := hR
  obtain ⟨s, es, hs⟩ := R.memory_start
  rw [inside_iff, es]
  refine ⟨R.length_rev .., R.length_rev .., ?_⟩
  unfold Run.memory Run.sizes
  simp only
  rw [R.shift_rev]
  have e : ∀ n : Int, 1 ≤ n → s + R.ghosts.chunk n R.P.ghostWidth ≤ (n + 2 * R.P.ghostWidth).toNat := by
    intro n hn
    cases hg : R.ghosts <;> simp only [hg, ne_eq, not_true_eq_false, and_false, or_false, false_or, and_true,
      reduceCtorEq, not_false_eq_true] at hs <;> simp only [Ghosts.chunk] <;> omega
  have hi : R.P.isize = R.P.nx + 2 * R.P.ghostWidth := by simp only [Grid.isize, Grid.imax, Grid.imin]; ring
  have hj : R.P.jsize = R.P.ny + 2 * R.P.ghostWidth := by simp only [Grid.jsize, Grid.jmax, Grid.jmin]; ring
  have hk : R.P.ksize = R.P.nz + 2 * R.P.ghostWidth := by simp only [Grid.ksize, Grid.kmax, Grid.kmin]; ring
  rw [hi, hj, hk]
  exact R.le_rev (e _ h1) (e _ h2) fun hd => e _ (h3 hd)

theorem first_chunk (g : Ghosts) {p m : Nat} (hp : p < m) {n gw : Int} (hn : 1 ≤ n) (hg : 0 ≤ gw) :
    g.first p n gw + g.chunk n gw ≤ g.whole m n gw := by
  cases g
  · simp only [Ghosts.first, Ghosts.chunk, Ghosts.whole]
    calc p * n.toNat + n.toNat = (p + 1) * n.toNat := by ring
      _ ≤ m * n.toNat := Nat.mul_le_mul_right _ hp
  · simp only [Ghosts.first, Ghosts.chunk, Ghosts.whole]
    have : (p + 1) * n.toNat ≤ m * n.toNat := Nat.mul_le_mul_right _ hp
    rw [Nat.succ_mul] at this
    omega
  · simp only [Ghosts.first, Ghosts.chunk, Ghosts.whole]
    calc p * (n + 2 * gw).toNat + (n + 2 * gw).toNat = (p + 1) * (n + 2 * gw).toNat := by ring
      _ ≤ m * (n + 2 * gw).toNat := Nat.mul_le_mul_right _ hp

/-- Place of a rank in the process grid. -/
def Run.place (R : Run) (r : Nat) : Nat × Nat × Nat :=
  let c := cartCoords R.my (if R.d3 then R.mz else 1) r
  (c.i.toNat, c.j.toNat, c.k.toNat)

theorem Run.place_lt {R : Run} (hR : R.Well) {r : Nat} (hr : r < R.procs) :
    (R.place r).1 < R.mx ∧ (R.place r).2.1 < R.my ∧ (R.place r).2.2 < R.mz := by
  have hmz : (if R.d3 then (R.mz : Int) else 1) = R.mz := by
    cases hd : R.d3
    · rw [hR.flat hd]; simp
    · simp
  have hx : (0 : Int) < R.mx := by have := hR.mx; omega
  have hy : (0 : Int) < R.my := by have := hR.my; omega
  have hz : (0 : Int) < R.mz := by have := hR.mz; omega
  have hr' : r < ((R.mx : Int) * R.my * R.mz).toNat := by
    rw [show ((R.mx : Int) * R.my * R.mz) = (R.procs : Nat) by unfold Run.procs; push_cast; ring]; exact hr
  have a := cartCoords_range hx hy hz hr' .x
  have b := cartCoords_range hx hy hz hr' .y
  have c := cartCoords_range hx hy hz hr' .z
  simp only [Ax.get, Ax.m] at a b c
  unfold Run.place
  rw [hmz]
  refine ⟨?_, ?_, ?_⟩ <;> simp only <;> omega

theorem Run.assembled_start (R : Run) (r : Nat) : (R.assembled r).start =
    R.rev (R.ghosts.first (R.place r).1 R.P.nx R.P.ghostWidth) (R.ghosts.first (R.place r).2.1 R.P.ny R.P.ghostWidth)
      (R.ghosts.first (R.place r).2.2 R.P.nz R.P.ghostWidth) := rfl

theorem Run.assembled_dims (R : Run) (r : Nat) : (R.assembled r).dims =
    R.rev (R.ghosts.whole R.mx R.P.nx R.P.ghostWidth) (R.ghosts.whole R.my R.P.ny R.P.ghostWidth)
      (R.ghosts.whole R.mz R.P.nz R.P.ghostWidth) := rfl

theorem Run.assembled_inside {R : Run} (hR : R.Well) {r : Nat} (hr : r < R.procs) :
    (R.assembled r).inside = true := by
  obtain ⟨a, b, c⟩ := R.place_lt hR hr
  rw [inside_iff, R.assembled_start, R.assembled_dims]
  refine ⟨R.length_rev .., R.length_rev .., ?_⟩
  unfold Run.assembled Run.memory
  simp only
  rw [R.shift_rev]
  exact R.le_rev (first_chunk _ a hR.grid.nx hR.grid.ghost) (first_chunk _ b hR.grid.ny hR.grid.ghost)
    fun hd => first_chunk _ c (hR.grid.nz hd) hR.grid.ghost

/-! ## All ranks -/

theorem Run.target_count (R : Run) (r : Nat) : R.memory.count = (R.target r).count := by
  unfold Run.target; split_ifs <;> rfl

theorem Run.target_dims (R : Run) (r : Nat) : (R.target r).dims = (R.target 0).dims := by
  unfold Run.target; split_ifs <;> rfl

/-- If the arrays of all ranks agree with one global array, so does the file, for every order of the stores. -/
theorem Run.writeField_target {R : Run} (hR : R.Well) (hF : R.Fits)
    (hin : ∀ r < R.procs, (R.target r).inside = true) {order : List Nat} (ho : ∀ r ∈ order, r < R.procs) (U : Nat → Cell → Nat → α) (junk : Nat → α) (fill : α) {v : Nat}
    (hv : v ∈ R.fields) (G : List Nat → α)
    (hG : ∀ r ∈ order, ∀ a ∈ indices R.memory.count,
      U r (R.cellAt (shift R.memory.start a)) v = G (shift (R.target r).start a)) :
    ∃ ds, R.writeField order U junk fill v = some ds ∧ ds.dims = (R.target 0).dims ∧
      ∀ r ∈ order, ∀ a ∈ indices R.memory.count,
        ds.data (shift (R.target r).start a) = G (shift (R.target r).start a) := by
  unfold Run.writeField
  have gen : ∀ (order : List Nat) (ds0 : Dataset α), ds0.dims = (R.target 0).dims → (∀ r ∈ order, r < R.procs) →
      (∀ r ∈ order, ∀ a ∈ indices R.memory.count,
        U r (R.cellAt (shift R.memory.start a)) v = G (shift (R.target r).start a)) →
      ∃ ds, order.foldlM (fun ds r => do
          let buf ← R.copyOut (U r) v junk
          h5Write R.memory (R.target r) buf ds) ds0 = some ds ∧ ds.dims = (R.target 0).dims ∧
        (∀ k, ds0.data k = G k → ds.data k = G k) ∧
        ∀ r ∈ order, ∀ a ∈ indices R.memory.count,
          ds.data (shift (R.target r).start a) = G (shift (R.target r).start a) := by
    intro order
    induction order with
    | nil => intro ds0 hd _ _; exact ⟨ds0, rfl, hd, fun _ h => h, by simp⟩
    | cons r rs ih =>
      intro ds0 hd ho hG
      obtain ⟨b, hb, hbv⟩ := Run.copyOut_eq hR.grid hF (U r) hv junk
      obtain ⟨ds1, h1, h2, h3⟩ := h5Write_eq (R.memory_inside hR) (hin r (ho r List.mem_cons_self))
        (R.target_count r) (ds := ds0) (by rw [hd, R.target_dims r]) b G (by
          intro a ha
          rw [← R.target_count r] at ha
          have hb' := Space.bound (R.memory_inside hR) (a := a) ha
          rw [show R.memory.dims = R.sizes from rfl] at hb' ⊢
          rw [hbv _ hb']
          exact hG r List.mem_cons_self a ha)
      obtain ⟨ds, h4, h5, h6, h7⟩ := ih ds1 (by rw [h2, hd]) (fun q hq => ho q (List.mem_cons_of_mem _ hq))
        (fun q hq => hG q (List.mem_cons_of_mem _ hq))
      refine ⟨ds, ?_, h5, fun k hk => h6 k ?_, fun q hq a ha => ?_⟩
      · rw [List.foldlM_cons, hb]
        show (h5Write _ _ b ds0).bind _ = _
        rw [h1]
        exact h4
      · rw [h3 k]; split_ifs
        · rfl
        · exact hk
      · rcases List.mem_cons.1 hq with rfl | hq
        · refine h6 _ ?_
          rw [h3, ← R.target_count q]
          exact if_pos (List.mem_map_of_mem (f := shift (R.target q).start) ha)
        · exact h7 q hq a ha
  obtain ⟨ds, h1, h2, -, h4⟩ := gen order ⟨(R.target 0).dims, fun _ => fill⟩ rfl ho hG
  exact ⟨ds, h1, h2, h4⟩

theorem Run.writeField_agree {R : Run} (hR : R.Well) (hF : R.Fits) (hre : R.reassemble = true) {order : List Nat}
    (ho : ∀ r ∈ order, r < R.procs) (U : Nat → Cell → Nat → α) (junk : Nat → α) (fill : α) {v : Nat}
    (hv : v ∈ R.fields) (G : List Nat → α)
    (hG : ∀ r ∈ order, ∀ a ∈ indices R.memory.count,
      U r (R.cellAt (shift R.memory.start a)) v = G (shift (R.assembled r).start a)) :
    ∃ ds, R.writeField order U junk fill v = some ds ∧ ds.dims = (R.assembled 0).dims ∧
      ∀ r ∈ order, ∀ a ∈ indices R.memory.count,
        ds.data (shift (R.assembled r).start a) = G (shift (R.assembled r).start a) := by
  have ht : ∀ r, R.target r = R.assembled r := fun r => by unfold Run.target; rw [if_pos hre]
  have h := Run.writeField_target hR hF (fun r hr => by rw [ht]; exact R.assembled_inside hR hr) ho U junk fill hv G
    (fun r hr a ha => by rw [ht]; exact hG r hr a ha)
  simpa only [ht] using h

/-- The rank that stores last has its values in the file. -/
theorem Run.writeField_last {R : Run} (hR : R.Well) (hF : R.Fits) (hre : R.reassemble = true) {order : List Nat}
    {r : Nat} (ho : ∀ q ∈ order ++ [r], q < R.procs) (U : Nat → Cell → Nat → α) (junk : Nat → α) (fill : α) {v : Nat}
    (hv : v ∈ R.fields) :
    ∃ ds, R.writeField (order ++ [r]) U junk fill v = some ds ∧ ds.dims = (R.assembled 0).dims ∧
      ∀ a ∈ indices R.memory.count,
        ds.data (shift (R.assembled r).start a) = U r (R.cellAt (shift R.memory.start a)) v := by
  have ht : ∀ r, R.target r = R.assembled r := fun r => by unfold Run.target; rw [if_pos hre]
  have hsome : ∀ (order : List Nat) (ds0 : Dataset α), ds0.dims = (R.assembled 0).dims →
      (∀ r ∈ order, r < R.procs) → ∃ ds, order.foldlM (fun ds r => do
          let buf ← R.copyOut (U r) v junk
          h5Write R.memory (R.assembled r) buf ds) ds0 = some ds ∧ ds.dims = (R.assembled 0).dims := by
    intro order
    induction order with
    | nil => intro ds0 hd _; exact ⟨ds0, rfl, hd⟩
    | cons q qs ih =>
      intro ds0 hd ho
      obtain ⟨b, hb, -⟩ := Run.copyOut_eq hR.grid hF (U q) hv junk
      have : ∃ ds1, h5Write R.memory (R.assembled q) b ds0 = some ds1 ∧ ds1.dims = ds0.dims :=
        ⟨_, if_pos ⟨R.memory_inside hR, R.assembled_inside hR (ho q List.mem_cons_self), by rw [hd]; rfl,
          length_selected rfl⟩, rfl⟩
      obtain ⟨ds1, h1, h2⟩ := this
      obtain ⟨ds, h3, h4⟩ := ih ds1 (by rw [h2, hd]) fun q' hq => ho q' (List.mem_cons_of_mem _ hq)
      refine ⟨ds, ?_, h4⟩
      rw [List.foldlM_cons, hb]
      show (h5Write _ _ b ds0).bind _ = _
      rw [h1]
      exact h3
  unfold Run.writeField
  simp only [ht]
  obtain ⟨ds0, h1, h2⟩ := hsome order ⟨(R.assembled 0).dims, fun _ => fill⟩ rfl
    fun q hq => ho q (List.mem_append_left _ hq)
  obtain ⟨b, hb, hbv⟩ := Run.copyOut_eq hR.grid hF (U r) hv junk
  have hr := R.assembled_inside hR (ho r (by simp))
  classical
  let G : List Nat → α := fun k => if h : ∃ a ∈ indices R.memory.count, shift (R.assembled r).start a = k
    then b (lin R.memory.dims (shift R.memory.start h.choose)) else fill
  have hlen : ∀ a ∈ indices R.memory.count, a.length = (R.assembled r).start.length := by
    intro a ha
    rw [(mem_indices.1 ha).length_eq]
    obtain ⟨e1, e2, -⟩ := inside_iff.1 hr
    rw [e1, ← e2]; rfl
  have hG : ∀ a ∈ indices R.memory.count, b (lin R.memory.dims (shift R.memory.start a)) =
      G (shift (R.assembled r).start a) := by
    intro a ha
    have hex : ∃ a' ∈ indices R.memory.count, shift (R.assembled r).start a' = shift (R.assembled r).start a :=
      ⟨a, ha, rfl⟩
    simp only [G, dif_pos hex]
    rw [shift_injective (hlen _ hex.choose_spec.1) (hlen _ ha) hex.choose_spec.2]
  obtain ⟨ds, h3, h4, h5⟩ := h5Write_eq (R.memory_inside hR) hr (rfl : R.memory.count = (R.assembled r).count)
    (ds := ds0) (by rw [h2]; rfl) b G hG
  refine ⟨ds, ?_, by rw [h4, h2], fun a ha => ?_⟩
  · rw [List.foldlM_append, h1]
    show (do
      let buf ← R.copyOut (U r) v junk
      h5Write R.memory (R.assembled r) buf ds0) >>= (fun x => some x) = _
    rw [hb]
    show (h5Write _ _ b ds0).bind _ = _
    rw [h3]; rfl
  · rw [h5]
    refine (if_pos (List.mem_map_of_mem (f := shift (R.assembled r).start) ha)).trans ?_
    rw [← hG a ha]
    exact hbv _ (Space.bound (R.memory_inside hR) ha)

theorem fields_lt {R : Run} {v : Nat} (h : v ∈ R.fields) : v < 8 := by
  unfold Run.fields at h
  simp only [List.mem_append, List.mem_cons, List.not_mem_nil, or_false] at h
  rcases h with (h | h) | h
  · rcases h with rfl | rfl | rfl | rfl <;> decide
  · split_ifs at h
    · simp only [List.mem_cons, List.not_mem_nil, or_false] at h; subst h; decide
    · simp at h
  · split_ifs at h
    · simp only [List.mem_cons, List.not_mem_nil, or_false] at h
      rcases h with rfl | rfl | rfl | rfl <;> decide
    · simp at h

theorem fieldName_injective {u v : Nat} (hu : u < 8) (hv : v < 8) (h : fieldName u = fieldName v) : u = v := by
  interval_cases u <;> interval_cases v <;> simp_all [fieldName]

/-- Reading gives the box of the rank. -/
theorem Run.load_eq {R : Run} (hR : R.Well) (hF : R.Fits) {r : Nat} (hr : r < R.procs) (F : File α) (D : Nat → Dataset α)
    (hD : ∀ v ∈ R.fields, F.sets.lookup (fieldName v) = some (D v) ∧ (D v).dims = (R.assembled 0).dims)
    (junk : Nat → α) (init : Cell → Nat → α) :
    ∃ L, R.load r F junk init = some L ∧ L.step = F.step ∧ L.time = F.time ∧
      ∀ v ∈ R.fields, ∀ a ∈ indices R.memory.count,
        L.U (R.cellAt (shift R.memory.start a)) v = (D v).data (shift (R.assembled r).start a) := by
  have gen : ∀ (l : List Nat), (∀ v ∈ l, v ∈ R.fields) → ∀ st : (Nat → α) × (Cell → Nat → α),
      ∃ st', l.foldlM (R.readField r F) st = some st' ∧
        (∀ v ∈ R.fields, ∀ a ∈ indices R.memory.count,
          st.2 (R.cellAt (shift R.memory.start a)) v = (D v).data (shift (R.assembled r).start a) →
          st'.2 (R.cellAt (shift R.memory.start a)) v = (D v).data (shift (R.assembled r).start a)) ∧
        ∀ v ∈ l, ∀ a ∈ indices R.memory.count,
          st'.2 (R.cellAt (shift R.memory.start a)) v = (D v).data (shift (R.assembled r).start a) := by
    intro l
    induction l with
    | nil => intro _ st; exact ⟨st, rfl, fun _ _ _ _ h => h, by simp⟩
    | cons v vs ih =>
      intro hl st
      have hv := hl v List.mem_cons_self
      obtain ⟨e1, e2⟩ := hD v hv
      obtain ⟨b, hb, hbv⟩ := h5Read_eq (R.memory_inside hR) (R.assembled_inside hR hr)
        (rfl : R.memory.count = (R.assembled r).count) (ds := D v) (by rw [e2]; rfl) st.1
      obtain ⟨U', hU, hUv⟩ := Run.copyIn_eq hR.grid hF b hv st.2
      obtain ⟨st', h1, h2, h3⟩ := ih (fun q hq => hl q (List.mem_cons_of_mem _ hq)) (b, U')
      have hstep : R.readField r F st v = some (b, U') := by
        unfold Run.readField
        rw [e1]
        show (h5Read _ _ (D v) st.1).bind _ = _
        rw [hb]
        show (R.copyIn b v st.2).bind _ = _
        rw [hU]; rfl
      have hset : ∀ a ∈ indices R.memory.count, U' (R.cellAt (shift R.memory.start a)) v =
          (D v).data (shift (R.assembled r).start a) := by
        intro a ha
        have hb' := Space.bound (R.memory_inside hR) (a := a) ha
        rw [hUv _ hb', if_pos rfl]
        exact hbv a ha
      refine ⟨st', ?_, fun w hw a ha hh => h2 w hw a ha ?_, fun w hw a ha => ?_⟩
      · rw [List.foldlM_cons, hstep]; exact h1
      · have hb' := Space.bound (R.memory_inside hR) (a := a) ha
        by_cases e : w = v
        · subst e; exact hset a ha
        · show U' _ w = _
          rw [hUv _ hb', if_neg e]
          exact hh
      · rcases List.mem_cons.1 hw with rfl | hw
        · exact h2 w hv a ha (hset a ha)
        · exact h3 w hw a ha
  obtain ⟨st', h1, -, h3⟩ := gen R.fields (fun _ h => h) (junk, init)
  refine ⟨⟨st'.2, F.step, F.time⟩, ?_, rfl, rfl, h3⟩
  unfold Run.load
  rw [Run.factors_some hR.grid hF.cells]
  show (R.fields.foldlM (R.readField r F) (junk, init)).bind _ = _
  rw [h1]; rfl

end Verif.Hdf5
