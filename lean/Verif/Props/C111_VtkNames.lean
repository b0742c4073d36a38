import Verif.Props.C110_Vtk
import Verif.Lemmas.HaloStage

/-!
# C111: names of the VTK files, and the file that joins the pieces
-/

namespace Verif.Vtk

private theorem toList_padded (w n : Nat) :
    (padded w n).toList = List.replicate (w - (toString n).length) '0' ++ Nat.toDigits 10 n := by
  rw [padded, String.toList_ofList, Nat.toString_eq_ofList_toDigits, String.toList_ofList]

private theorem padded_value (w n : Nat) : Nat.ofDigitChars 10 (padded w n).toList 0 = n := by
  rw [toList_padded, Nat.ofDigitChars_append, Nat.ofDigitChars_replicate_zero, Nat.mul_zero]
  exact Nat.ofDigitChars_toDigits (by norm_num) (by norm_num)

private theorem padded_clean (w n : Nat) : '_' ∉ (padded w n).toList := by
  rw [toList_padded, List.mem_append]
  rintro (h | h)
  · exact absurd (List.eq_of_mem_replicate h) (by decide)
  · exact Nat.underscore_not_in_toDigits h

private theorem padded_injective {w n m : Nat} (h : padded w n = padded w m) : n = m := by
  rw [← padded_value w n, h, padded_value]

private theorem split_mark {l r l' r' : List Char} (hl : '_' ∉ l) (hl' : '_' ∉ l')
    (h : l ++ '_' :: r = l' ++ '_' :: r') : l = l' ∧ r = r' := by
  induction l generalizing l' with
  | nil =>
    cases l' with
    | nil => simpa using h
    | cons a t =>
      simp only [List.nil_append, List.cons_append, List.cons.injEq] at h
      exact absurd (h.1 ▸ List.mem_cons_self) hl'
  | cons a t ih =>
    cases l' with
    | nil =>
      simp only [List.nil_append, List.cons_append, List.cons.injEq] at h
      exact absurd (h.1 ▸ List.mem_cons_self) hl
    | cons b t' =>
      simp only [List.cons_append, List.cons.injEq] at h
      obtain ⟨rfl, h⟩ := h
      obtain ⟨rfl, hr⟩ := ih (fun hh => hl (List.mem_cons_of_mem _ hh)) (fun hh => hl' (List.mem_cons_of_mem _ hh)) h
      exact ⟨rfl, hr⟩

private theorem tail_mpi {step step' rank rank' : Nat} {pre : String}
    (h : pre ++ "_time" ++ padded 7 step ++ "_mpi" ++ padded 5 rank ++ ".vti" =
      pre ++ "_time" ++ padded 7 step' ++ "_mpi" ++ padded 5 rank' ++ ".vti") : step = step' ∧ rank = rank' := by
  have h' := congrArg String.toList h
  simp only [String.toList_append, List.append_assoc] at h'
  have h2 := List.append_cancel_left (List.append_cancel_left h')
  have e : ∀ l : List Char, "_mpi".toList ++ l = '_' :: ('m' :: 'p' :: 'i' :: l) := fun l => by simp
  rw [e, e] at h2
  obtain ⟨h3, h4⟩ := split_mark (padded_clean 7 step) (padded_clean 7 step') h2
  simp only [List.cons.injEq, true_and] at h4
  exact ⟨padded_injective (String.toList_inj.1 h3), padded_injective (String.toList_inj.1 (List.append_cancel_right h4))⟩

/-- **C111.**  No output overwrites another: in one directory, with one prefix and debug name, different steps (and ranks) have
different file names, however large they are. -/
theorem C111_names (dir pre debug : String) :
    (∀ step step', fileName dir pre debug step = fileName dir pre debug step' → step = step') ∧
    (∀ step step' rank rank', fileNameMpi dir pre debug step rank = fileNameMpi dir pre debug step' rank' →
      step = step' ∧ rank = rank') ∧
    ∀ step step', headerName dir pre step = headerName dir pre step' → step = step' := by
  refine ⟨fun step step' h => ?_, fun step step' rank rank' h => ?_, fun step step' h => ?_⟩
  · unfold fileName at h
    split_ifs at h <;>
    · have h' := congrArg String.toList h
      simp only [String.toList_append] at h'
      exact padded_injective (String.toList_inj.1 (List.append_cancel_left (List.append_cancel_right h')))
  · unfold fileNameMpi at h
    split_ifs at h
    · exact tail_mpi (pre := dir ++ "/" ++ pre) h
    · exact tail_mpi (pre := dir ++ "/" ++ pre ++ "_" ++ debug) h
  · unfold headerName at h
    have h' := congrArg String.toList h
    simp only [String.toList_append] at h'
    exact padded_injective (String.toList_inj.1 (List.append_cancel_left (List.append_cancel_right h')))

private theorem along_eq (p n : Int) : (if p = 0 then ((0 : Int), n) else (p * n, p * n + n)) = (p * n, p * n + n) := by
  split_ifs with h
  · subst h; simp
  · rfl

private theorem window {m n x : Int} (hn : 1 ≤ n) (h0 : 0 ≤ x) (h1 : x < m * n) (p : Int) (hp : 0 ≤ p ∧ p < m) :
    (p * n ≤ x ∧ x < p * n + n) ↔ p = x / n % m := by
  have hd0 : 0 ≤ x / n := Int.ediv_nonneg h0 (by omega)
  have hd1 : x / n < m := Int.ediv_lt_of_lt_mul (by omega) h1
  rw [Int.emod_eq_of_lt hd0 hd1]
  constructor
  · rintro ⟨a, b⟩
    have h2 : p ≤ x / n := (Int.le_ediv_iff_mul_le (by omega)).2 a
    have h3 : x / n < p + 1 := Int.ediv_lt_of_lt_mul (by omega) (by linarith)
    omega
  · rintro rfl
    have := Int.mul_ediv_add_emod x n
    have h2 := Int.emod_nonneg x (show n ≠ 0 by omega)
    have h3 := Int.emod_lt_of_pos x (show 0 < n by omega)
    rw [mul_comm] at this
    constructor <;> omega

private theorem layers_add {a n : Int} (hn : 1 ≤ n) : layers a (a + n) = n := by
  unfold layers; rw [if_neg (by omega)]; omega

/-- **C111.**  The pieces of the parallel header tile the domain: for `mx × my × mz` sub-domains every cell of the whole extent lies in
the piece of exactly one rank, and pieces contain no other cells. -/
theorem C111_tiles {d3 : Bool} {P : Grid} (hP : Sound d3 P) {mx my mz : Int} (hx : 1 ≤ mx) (hy : 1 ≤ my) (hz : 1 ≤ mz)
    (h2 : d3 = false → mz = 1) (pre : String) (step : Nat) (x y z : Int) :
    let F := pvtiHeader d3 P mx my mz (mx * my * mz).toNat pre step
    F.pieces.length = (mx * my * mz).toNat ∧
    (F.whole.has x y z → ∃! r : Nat, ∃ p, F.pieces[r]? = some p ∧ p.1.has x y z) ∧
    ∀ (r : Nat) (p : Extent × String), F.pieces[r]? = some p → p.1.has x y z → F.whole.has x y z := by
  have hnx := hP.nx; have hny := hP.ny
  intro F
  have hlen : F.pieces.length = (mx * my * mz).toNat := by simp [F, pvtiHeader]
  have hpiece : ∀ (r : Nat) (p : Extent × String), F.pieces[r]? = some p → r < (mx * my * mz).toNat ∧
      (p.1.has x y z ↔
        ((cartCoords my mz r).i * P.nx ≤ x ∧ x < (cartCoords my mz r).i * P.nx + P.nx) ∧
        ((cartCoords my mz r).j * P.ny ≤ y ∧ y < (cartCoords my mz r).j * P.ny + P.ny) ∧
        (cartCoords my mz r).k * depth d3 P ≤ z ∧ z < (cartCoords my mz r).k * depth d3 P + depth d3 P) := by
    intro r p hp
    have hr : r < (mx * my * mz).toNat := by rw [← hlen]; exact (List.getElem?_eq_some_iff.1 hp).1
    refine ⟨hr, ?_⟩
    simp only [F, pvtiHeader, List.getElem?_map, List.getElem?_range hr, Option.map_some, Option.some.injEq] at hp
    subst hp
    cases d3
    · have hmz := h2 rfl
      subst hmz
      simp only [Bool.false_eq_true, if_false, along_eq, Extent.has, layers_add hnx, layers_add hny, depth,
        cartCoords, Int.emod_one, zero_mul, zero_add]
      rw [show layers 0 1 = 1 from rfl]
    · have hnz := hP.nz rfl
      simp only [if_true, along_eq, Extent.has, layers_add hnx, layers_add hny, layers_add hnz, depth]
  have hwhole : F.whole.has x y z ↔ (0 ≤ x ∧ x < mx * P.nx) ∧ (0 ≤ y ∧ y < my * P.ny) ∧
      0 ≤ z ∧ z < mz * depth d3 P := by
    have hxx : layers 0 (mx * P.nx) = mx * P.nx := by
      have := layers_add (a := 0) (show 1 ≤ mx * P.nx by nlinarith); rwa [zero_add] at this
    have hyy : layers 0 (my * P.ny) = my * P.ny := by
      have := layers_add (a := 0) (show 1 ≤ my * P.ny by nlinarith); rwa [zero_add] at this
    cases d3
    · have hmz := h2 rfl
      subst hmz
      simp only [F, pvtiHeader, Extent.has, hxx, hyy, Bool.false_eq_true, if_false, zero_add, depth, mul_one,
        zero_mul]
      rw [show layers 0 0 = 1 from rfl]
    · have hnz := hP.nz rfl
      have hzz : layers 0 (mz * P.nz) = mz * P.nz := by
        have := layers_add (a := 0) (show 1 ≤ mz * P.nz by nlinarith); rwa [zero_add] at this
      simp only [F, pvtiHeader, Extent.has, hxx, hyy, hzz, if_true, zero_add, depth]
  have hdep : 1 ≤ depth d3 P := by
    unfold depth; cases d3
    · simp
    · simpa using hP.nz rfl
  have hmx : 0 < mx := by omega
  have hmy : 0 < my := by omega
  have hmz : 0 < mz := by omega
  refine ⟨hlen, fun hw => ?_, fun r p hp hh => ?_⟩
  · obtain ⟨⟨x0, x1⟩, ⟨y0, y1⟩, z0, z1⟩ := hwhole.1 hw
    have key : ∀ r, r < (mx * my * mz).toNat →
        ((((cartCoords my mz r).i * P.nx ≤ x ∧ x < (cartCoords my mz r).i * P.nx + P.nx) ∧
        ((cartCoords my mz r).j * P.ny ≤ y ∧ y < (cartCoords my mz r).j * P.ny + P.ny) ∧
        (cartCoords my mz r).k * depth d3 P ≤ z ∧ z < (cartCoords my mz r).k * depth d3 P + depth d3 P) ↔
        cartCoords my mz r = ⟨x / P.nx % mx, y / P.ny % my, z / depth d3 P % mz⟩) := by
      intro r hr
      have a := cartCoords_range hmx hmy hmz hr .x
      have b := cartCoords_range hmx hmy hmz hr .y
      have c := cartCoords_range hmx hmy hmz hr .z
      simp only [Ax.get, Ax.m] at a b c
      rw [window hnx x0 x1 _ a, window hny y0 y1 _ b, window hdep z0 z1 _ c, Cell.ext_iff]
    refine ⟨cartRank mx my mz ⟨x / P.nx, y / P.ny, z / depth d3 P⟩, ?_, ?_⟩
    · have hr := cartRank_lt hmx hmy hmz ⟨x / P.nx, y / P.ny, z / depth d3 P⟩
      have hr' := hr
      rw [← hlen] at hr'
      refine ⟨_, List.getElem?_eq_getElem hr', ?_⟩
      rw [(hpiece _ _ (List.getElem?_eq_getElem hr')).2, key _ hr, cartCoords_cartRank hmx hmy hmz]
    · rintro r ⟨p, hp, hh⟩
      obtain ⟨hr, hiff⟩ := hpiece r p hp
      have e := (key r hr).1 (hiff.1 hh)
      rw [← cartRank_cartCoords hmx hmy hmz hr, e]
      simp only [cartRank, Int.emod_emod_of_dvd _ (dvd_refl _)]
  · obtain ⟨hr, hiff⟩ := hpiece r p hp
    obtain ⟨⟨x0, x1⟩, ⟨y0, y1⟩, z0, z1⟩ := hiff.1 hh
    have a := cartCoords_range hmx hmy hmz hr .x
    have b := cartCoords_range hmx hmy hmz hr .y
    have c := cartCoords_range hmx hmy hmz hr .z
    simp only [Ax.get, Ax.m] at a b c
    rw [hwhole]
    have up : ∀ {p m n t : Int}, 0 ≤ p ∧ p < m → 1 ≤ n → p * n ≤ t → t < p * n + n → 0 ≤ t ∧ t < m * n := by
      intro p m n t hp hn h1 h2
      constructor
      · have : 0 ≤ p * n := mul_nonneg hp.1 (by omega)
        omega
      · nlinarith
    exact ⟨up a hnx x0 x1, up b hny y0 y1, up c hdep z0 z1⟩

/-- **C111.**  In 3D each entry of the header has the extent and the name of the file its rank writes. -/
theorem C111_pieces (P : Grid) (mx my mz : Int) {nProcs r : Nat} (hr : r < nProcs) (dir pre : String) (step : Nat) :
    ∃ s, (pvtiHeader true P mx my mz nProcs pre step).pieces[r]? =
        some (extentOf true true P (cartCoords my mz r), s) ∧
      dir ++ "/" ++ s = fileNameMpi dir pre "" step r := by
  refine ⟨pre ++ "_time" ++ padded 7 step ++ "_mpi" ++ padded 5 r ++ ".vti", ?_, ?_⟩
  · simp only [pvtiHeader, List.getElem?_map, List.getElem?_range hr, Option.map_some, if_true, along_eq, extentOf]
  · simp only [fileNameMpi, if_true, String.append_assoc]

/-- **C111, violated in 2D.**  Every entry gives the piece a z range of `0 1`, the whole extent and the file itself say
`0 0`. -/
theorem C111_flat (P : Grid) (mx my : Int) {nProcs r : Nat} (hr : r < nProcs) (pre : String) (step : Nat) :
    ∃ p, (pvtiHeader false P mx my 1 nProcs pre step).pieces[r]? = some p ∧
      (p.1.z0 = 0 ∧ p.1.z1 = 1) ∧
      (pvtiHeader false P mx my 1 nProcs pre step).whole.z1 = 0 ∧
      (extentOf false true P (cartCoords my 1 r)).z1 = 0 ∧
      p.1 ≠ extentOf false true P (cartCoords my 1 r) := by
  refine ⟨_, by simp only [pvtiHeader, List.getElem?_map, List.getElem?_range hr, Option.map_some]; rfl, ⟨rfl, rfl⟩,
    by simp [pvtiHeader], by simp [extentOf], fun h => ?_⟩
  have := congrArg Extent.z1 h
  simp [extentOf] at this

private theorem length_padded {w n : Nat} (hw : 0 < w) (h : n < 10 ^ w) : (padded w n).length = w := by
  rw [← String.length_toList, toList_padded, List.length_append, List.length_replicate,
    Nat.toString_eq_ofList_toDigits, String.length_ofList]
  have := (Nat.length_toDigits_le_iff (b := 10) (n := n) (k := w) (by norm_num) hw).2 h
  omega

/-- **C111, violated with a debug name.**  The header then names files nobody wrote. -/
theorem C111_debug (d3 : Bool) (P : Grid) (mx my mz : Int) {nProcs : Nat} (dir pre debug : String) (step : Nat)
    (hd : debug ≠ "") (r r' : Nat) (hr : r < 100000) (hr' : r' < 100000) (p : Extent × String)
    (hp : (pvtiHeader d3 P mx my mz nProcs pre step).pieces[r]? = some p) :
    dir ++ "/" ++ p.2 ≠ fileNameMpi dir pre debug step r' := by
  intro h
  have hn : r < nProcs := by
    have := (List.getElem?_eq_some_iff.1 hp).1
    simpa [pvtiHeader] using this
  simp only [pvtiHeader, List.getElem?_map, List.getElem?_range hn, Option.map_some, Option.some.injEq] at hp
  subst hp
  rw [fileNameMpi, if_neg hd] at h
  have := congrArg String.length h
  simp only [String.length_append, length_padded (w := 5) (by norm_num) hr, length_padded (w := 5) (by norm_num) hr',
    show "_".length = 1 from rfl] at this
  omega

/-- The hypotheses hold for a 3 × 2 × 2 grid on 2 × 3 × 2 processes. -/
example : Sound true ⟨3, 2, 2, 2, 5, 1, 1, 1, 1, 1, 1⟩ ∧
    (pvtiHeader true ⟨3, 2, 2, 2, 5, 1, 1, 1, 1, 1, 1⟩ 2 3 2 12 "run" 7).whole.has 5 4 3 :=
  ⟨⟨by norm_num, by norm_num, fun _ => by norm_num, by norm_num⟩, by
    norm_num [pvtiHeader, Extent.has, layers]⟩

end Verif.Vtk
