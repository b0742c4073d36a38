import Verif.Lemmas.Index
import Mathlib.Tactic.NormNum

/-!
# C01, C02: linear index ↔ cell coordinates
-/

namespace Verif

/-- **C01, 2D.** For every extent and both layouts: index → coordinates → index is the identity;
indices `0 .. Nx*Ny-1` give coordinates inside the array; every cell of the array comes from exactly one
index of that range. -/
theorem C01_index_coord_2d (lay : Layout) (Nx Ny : Int) (hx : 0 < Nx) (hy : 0 < Ny) :
    (∀ t, 0 ≤ t → t < Nx * Ny →
      0 ≤ (index2coord2 lay t Nx Ny).1 ∧ (index2coord2 lay t Nx Ny).1 < Nx ∧
      0 ≤ (index2coord2 lay t Nx Ny).2 ∧ (index2coord2 lay t Nx Ny).2 < Ny ∧
      coord2index2 lay (index2coord2 lay t Nx Ny).1 (index2coord2 lay t Nx Ny).2 Nx Ny = t) ∧
    (∀ i j, 0 ≤ i → i < Nx → 0 ≤ j → j < Ny →
      0 ≤ coord2index2 lay i j Nx Ny ∧ coord2index2 lay i j Nx Ny < Nx * Ny ∧
      index2coord2 lay (coord2index2 lay i j Nx Ny) Nx Ny = (i, j) ∧
      ∃! t, (0 ≤ t ∧ t < Nx * Ny) ∧ index2coord2 lay t Nx Ny = (i, j)) := by
  refine ⟨fun t h0 h1 => ?_, fun i j hi hi' hj hj' => ?_⟩
  · obtain ⟨a, b, c, d⟩ := index2coord2_range (lay := lay) hx hy h0 h1
    exact ⟨a, b, c, d, coord2index2_index2coord2 t Nx Ny⟩
  · have hr := coord2index2_range (lay := lay) hi hi' hj hj'
    have he := index2coord2_coord2index2 (lay := lay) hi hi' hj hj'
    refine ⟨hr.1, hr.2, he, coord2index2 lay i j Nx Ny, ⟨hr, he⟩, ?_⟩
    rintro t ⟨-, ht⟩
    have := coord2index2_index2coord2 (lay := lay) t Nx Ny
    rw [ht] at this
    exact this.symm

/-- **C01, 3D.** -/
theorem C01_index_coord_3d (lay : Layout) (Nx Ny Nz : Int) (hx : 0 < Nx) (hy : 0 < Ny)
    (hz : 0 < Nz) :
    (∀ t, 0 ≤ t → t < Nx * Ny * Nz →
      0 ≤ (index2coord3 lay t Nx Ny Nz).1 ∧ (index2coord3 lay t Nx Ny Nz).1 < Nx ∧
      0 ≤ (index2coord3 lay t Nx Ny Nz).2.1 ∧ (index2coord3 lay t Nx Ny Nz).2.1 < Ny ∧
      0 ≤ (index2coord3 lay t Nx Ny Nz).2.2 ∧ (index2coord3 lay t Nx Ny Nz).2.2 < Nz ∧
      coord2index3 lay (index2coord3 lay t Nx Ny Nz).1 (index2coord3 lay t Nx Ny Nz).2.1
        (index2coord3 lay t Nx Ny Nz).2.2 Nx Ny Nz = t) ∧
    (∀ i j k, 0 ≤ i → i < Nx → 0 ≤ j → j < Ny → 0 ≤ k → k < Nz →
      0 ≤ coord2index3 lay i j k Nx Ny Nz ∧ coord2index3 lay i j k Nx Ny Nz < Nx * Ny * Nz ∧
      index2coord3 lay (coord2index3 lay i j k Nx Ny Nz) Nx Ny Nz = (i, j, k) ∧
      ∃! t, (0 ≤ t ∧ t < Nx * Ny * Nz) ∧ index2coord3 lay t Nx Ny Nz = (i, j, k)) := by
  refine ⟨fun t h0 h1 => ?_, fun i j k hi hi' hj hj' hk hk' => ?_⟩
  · obtain ⟨a, b, c, d, e, f⟩ := index2coord3_range (lay := lay) hx hy hz h0 h1
    exact ⟨a, b, c, d, e, f, coord2index3_index2coord3 t Nx Ny Nz⟩
  · have hr := coord2index3_range (lay := lay) hi hi' hj hj' hk hk'
    have he := index2coord3_coord2index3 (lay := lay) hi hi' hj hj' hk hk'
    refine ⟨hr.1, hr.2, he, coord2index3 lay i j k Nx Ny Nz, ⟨hr, he⟩, ?_⟩
    rintro t ⟨-, ht⟩
    have := coord2index3_index2coord3 (lay := lay) t Nx Ny Nz
    rw [ht] at this
    exact this.symm

/-- Non-vacuity: a non-square array; the two layouts number its cells differently. -/
example : index2coord2 .left 8 7 5 = (1, 1) ∧ index2coord2 .right 8 7 5 = (1, 3) ∧
    coord2index3 .left 6 4 2 7 5 3 = 7 * 5 * 3 - 1 ∧ index2coord3 .right 50 7 5 3 = (3, 1, 2) := by
  decide

theorem int32_of {x : Int} (h0 : 0 ≤ x) (h1 : x ≤ 2147483647) : int32 x = some x := by
  have : isInt32 x = true := by simp only [isInt32, decide_eq_true_eq]; omega
  simp [int32, this]

/-- **C02, 2D.** If the number of cells fits in a C `int`, the conversions of any valid index and of any
valid coordinates involve no overflow and no division by zero (and give the mathematical result). -/
theorem C02_no_overflow_2d (lay : Layout) (Nx Ny : Int) (hx : 0 < Nx) (hy : 0 < Ny)
    (hN : Nx * Ny ≤ 2147483647) :
    (∀ t, 0 ≤ t → t < Nx * Ny →
      index2coord2C lay t Nx Ny = some (index2coord2 lay t Nx Ny)) ∧
    (∀ i j, 0 ≤ i → i < Nx → 0 ≤ j → j < Ny →
      coord2index2C lay i j Nx Ny = some (coord2index2 lay i j Nx Ny)) := by
  have hNx : Nx ≤ Nx * Ny := by nlinarith
  have hNy : Ny ≤ Nx * Ny := by nlinarith
  refine ⟨fun t h0 h1 => ?_, fun i j hi hi' hj hj' => ?_⟩
  · obtain ⟨a, b, c, d⟩ := index2coord2_range (lay := lay) hx hy h0 h1
    cases lay
    · simp only [index2coord2] at a b c d
      have e : 0 ≤ t.tdiv Nx * Nx := mul_nonneg c hx.le
      have d1 : divC t Nx = some (t.tdiv Nx) := by simp [divC, hx.ne']
      simp only [index2coord2C, d1, index2coord2, Option.bind_eq_bind, Option.bind_some,
        int32_of c (by omega : t.tdiv Nx ≤ 2147483647),
        int32_of e (by omega : t.tdiv Nx * Nx ≤ 2147483647),
        int32_of a (by omega : t - t.tdiv Nx * Nx ≤ 2147483647)]
      rfl
    · simp only [index2coord2] at a b c d
      have e : 0 ≤ t.tdiv Ny * Ny := mul_nonneg a hy.le
      have d1 : divC t Ny = some (t.tdiv Ny) := by simp [divC, hy.ne']
      simp only [index2coord2C, d1, index2coord2, Option.bind_eq_bind, Option.bind_some,
        int32_of a (by omega : t.tdiv Ny ≤ 2147483647),
        int32_of e (by omega : t.tdiv Ny * Ny ≤ 2147483647),
        int32_of c (by omega : t - t.tdiv Ny * Ny ≤ 2147483647)]
      rfl
  · have hr := coord2index2_range (lay := lay) hi hi' hj hj'
    cases lay
    · simp only [coord2index2] at hr
      have h1 : 0 ≤ Nx * j := mul_nonneg hx.le hj
      simp only [coord2index2C, coord2index2, Option.bind_eq_bind, Option.bind_some,
        int32_of h1 (by omega : Nx * j ≤ 2147483647),
        int32_of hr.1 (by omega : i + Nx * j ≤ 2147483647)]
    · simp only [coord2index2] at hr
      have h1 : 0 ≤ Ny * i := mul_nonneg hy.le hi
      simp only [coord2index2C, coord2index2, Option.bind_eq_bind, Option.bind_some,
        int32_of h1 (by omega : Ny * i ≤ 2147483647),
        int32_of hr.1 (by omega : j + Ny * i ≤ 2147483647)]

/-- **C02, 3D.** -/
theorem C02_no_overflow_3d (lay : Layout) (Nx Ny Nz : Int) (hx : 0 < Nx) (hy : 0 < Ny)
    (hz : 0 < Nz) (hN : Nx * Ny * Nz ≤ 2147483647) :
    (∀ t, 0 ≤ t → t < Nx * Ny * Nz →
      index2coord3C lay t Nx Ny Nz = some (index2coord3 lay t Nx Ny Nz)) ∧
    (∀ i j k, 0 ≤ i → i < Nx → 0 ≤ j → j < Ny → 0 ≤ k → k < Nz →
      coord2index3C lay i j k Nx Ny Nz = some (coord2index3 lay i j k Nx Ny Nz)) := by
  have hxy : 0 < Nx * Ny := mul_pos hx hy
  have hyz : 0 < Ny * Nz := mul_pos hy hz
  have hNxy : Nx * Ny ≤ Nx * Ny * Nz := by nlinarith
  have hNyz : Ny * Nz ≤ Nx * Ny * Nz := by
    rw [mul_assoc]; nlinarith
  have hNx : Nx ≤ Nx * Ny := by nlinarith
  have hNy : Ny ≤ Nx * Ny := by nlinarith
  have hNz : Nz ≤ Ny * Nz := by nlinarith
  refine ⟨fun t h0 h1 => ?_, fun i j k hi hi' hj hj' hk hk' => ?_⟩
  · obtain ⟨a, b, c, d, e, f⟩ := index2coord3_range (lay := lay) hx hy hz h0 h1
    cases lay
    · simp only [index2coord3] at a b c d e f
      have d1 : divC t (Nx * Ny) = some (t.tdiv (Nx * Ny)) := by simp [divC, hx.ne', hy.ne']
      have d2 : divC (t - t.tdiv (Nx * Ny) * (Nx * Ny)) Nx
          = some ((t - t.tdiv (Nx * Ny) * (Nx * Ny)).tdiv Nx) := by simp [divC, hx.ne']
      have g1 : 0 ≤ t.tdiv (Nx * Ny) * (Nx * Ny) := mul_nonneg e hxy.le
      have g2 : 0 ≤ (t - t.tdiv (Nx * Ny) * (Nx * Ny)).tdiv Nx * Nx := mul_nonneg c hx.le
      simp only [index2coord3C, index2coord3, Option.bind_eq_bind, Option.bind_some,
        int32_of hxy.le (by omega : Nx * Ny ≤ 2147483647), d1,
        int32_of e (by omega), int32_of g1 (by omega), d2, int32_of c (by omega),
        int32_of g2 (by omega), int32_of a (by omega)]
      rfl
    · simp only [index2coord3] at a b c d e f
      have d1 : divC t (Ny * Nz) = some (t.tdiv (Ny * Nz)) := by simp [divC, hy.ne', hz.ne']
      have d2 : divC (t - t.tdiv (Ny * Nz) * (Ny * Nz)) Nz
          = some ((t - t.tdiv (Ny * Nz) * (Ny * Nz)).tdiv Nz) := by simp [divC, hz.ne']
      have g1 : 0 ≤ t.tdiv (Ny * Nz) * (Ny * Nz) := mul_nonneg a hyz.le
      have g2 : 0 ≤ (t - t.tdiv (Ny * Nz) * (Ny * Nz)).tdiv Nz * Nz := mul_nonneg c hz.le
      simp only [index2coord3C, index2coord3, Option.bind_eq_bind, Option.bind_some,
        int32_of hyz.le (by omega : Ny * Nz ≤ 2147483647), d1,
        int32_of a (by omega), int32_of g1 (by omega), d2, int32_of c (by omega),
        int32_of g2 (by omega), int32_of e (by omega)]
      rfl
  · have hr := coord2index3_range (lay := lay) hi hi' hj hj' hk hk'
    cases lay
    · simp only [coord2index3] at hr
      have h1 : 0 ≤ Nx * j := mul_nonneg hx.le hj
      have h2 : 0 ≤ Nx * Ny * k := mul_nonneg hxy.le hk
      simp only [coord2index3C, coord2index3, Option.bind_eq_bind, Option.bind_some,
        int32_of h1 (by omega), int32_of (by omega : 0 ≤ i + Nx * j) (by omega),
        int32_of hxy.le (by omega), int32_of h2 (by omega), int32_of hr.1 (by omega)]
    · simp only [coord2index3] at hr
      have h1 : 0 ≤ Nz * j := mul_nonneg hz.le hj
      have h2 : 0 ≤ Nz * Ny * i := mul_nonneg (mul_nonneg hz.le hy.le) hi
      have h3 : 0 ≤ Nz * Ny := mul_nonneg hz.le hy.le
      have h4 : Nz * Ny ≤ 2147483647 := by rw [mul_comm]; omega
      simp only [coord2index3C, coord2index3, Option.bind_eq_bind, Option.bind_some,
        int32_of h1 (by omega), int32_of (by omega : 0 ≤ k + Nz * j) (by omega),
        int32_of h3 h4, int32_of h2 (by omega), int32_of hr.1 (by omega)]

/-- Non-vacuity: the hypotheses hold e.g. for a 1000³ grid. -/
example : (1000 : Int) * 1000 * 1000 ≤ 2147483647 := by norm_num

/-- **C02, the limit is real.** As soon as the cell count exceeds 2³¹ the index of the last cell
overflows, in both layouts. -/
theorem C02_overflow_beyond (lay : Layout) (Nx Ny : Int)
    (hN : 2147483648 < Nx * Ny) :
    coord2index2C lay (Nx - 1) (Ny - 1) Nx Ny = none := by
  have key : ∀ a b : Int, 2147483647 < b → (do let x ← int32 a; int32 (b - a + x)) = none := by
    intro a b hb
    unfold int32
    split
    · have : isInt32 b = false := by simp only [isInt32, decide_eq_false_iff_not]; omega
      have e : b - a + a = b := by ring
      simp [e, this]
    · rfl
  cases lay
  · have := key (Nx * (Ny - 1)) (Nx * Ny - 1) (by omega)
    rw [show Nx * Ny - 1 - Nx * (Ny - 1) = Nx - 1 by ring] at this
    exact this
  · have := key (Ny * (Nx - 1)) (Nx * Ny - 1) (by omega)
    rw [show Nx * Ny - 1 - Ny * (Nx - 1) = Ny - 1 by ring] at this
    exact this

/-- Non-vacuity of the overflow statement. -/
example : coord2index2C .right 49999 49999 50000 50000 = none :=
  C02_overflow_beyond .right 50000 50000 (by norm_num)

/-- **C02, 3D overflow.** E.g. on a 1300³ grid both conversions of the last cell overflow, although
the index itself fits in the `int64_t` that carries it. -/
theorem C02_overflow_3d_witness :
    (∀ lay, coord2index3C lay 1299 1299 1299 1300 1300 1300 = none) ∧
    (∀ lay, index2coord3C lay (1300 * 1300 * 1300 - 1) 1300 1300 1300 = none) := by
  constructor <;> intro lay <;> cases lay <;> decide

/-- **C02, the bound is sharp**: if the number of cells exceeds `2^31`, the conversion of the last cell
overflows. -/
theorem C02_overflow (lay : Layout) (Nx Ny Nz : Int) :
    (0 < Nx → 0 < Ny → 2147483648 < Nx * Ny → coord2index2C lay (Nx - 1) (Ny - 1) Nx Ny = none) ∧
    (0 < Nx → 0 < Ny → 0 < Nz → 2147483648 < Nx * Ny * Nz →
      coord2index3C lay (Nx - 1) (Ny - 1) (Nz - 1) Nx Ny Nz = none) := by
  have hnone : ∀ x : Int, 2147483647 < x → int32 x = none := by
    intro x hx
    have : isInt32 x = false := by simp only [isInt32, decide_eq_false_iff_not]; omega
    simp [int32, this]
  have hsome : ∀ x y : Int, int32 x = some y → y = x := by
    intro x y h
    unfold int32 at h
    split_ifs at h
    exact (Option.some.inj h).symm
  constructor
  · intro hx hy h
    cases lay
    · simp only [coord2index2C, Option.bind_eq_bind]
      cases h1 : int32 (Nx * (Ny - 1)) with
      | none => rfl
      | some y =>
        rw [Option.bind_some, hsome _ _ h1]
        apply hnone
        linarith [mul_sub Nx Ny 1]
    · simp only [coord2index2C, Option.bind_eq_bind]
      cases h1 : int32 (Ny * (Nx - 1)) with
      | none => rfl
      | some y =>
        rw [Option.bind_some, hsome _ _ h1]
        apply hnone
        linarith [mul_sub Ny Nx 1, mul_comm Nx Ny]
  · intro hx hy hz h
    cases lay
    · simp only [coord2index3C, Option.bind_eq_bind]
      cases h1 : int32 (Nx * (Ny - 1)) with
      | none => rfl
      | some a =>
        rw [Option.bind_some, hsome _ _ h1]
        cases h2 : int32 (Nx - 1 + Nx * (Ny - 1)) with
        | none => rfl
        | some b =>
          rw [Option.bind_some, hsome _ _ h2]
          cases h3 : int32 (Nx * Ny) with
          | none => rfl
          | some c =>
            rw [Option.bind_some, hsome _ _ h3]
            cases h4 : int32 (Nx * Ny * (Nz - 1)) with
            | none => rfl
            | some d =>
              rw [Option.bind_some, hsome _ _ h4]
              apply hnone
              linarith [mul_sub Nx Ny 1, mul_sub (Nx * Ny) Nz 1]
    · simp only [coord2index3C, Option.bind_eq_bind]
      cases h1 : int32 (Nz * (Ny - 1)) with
      | none => rfl
      | some a =>
        rw [Option.bind_some, hsome _ _ h1]
        cases h2 : int32 (Nz - 1 + Nz * (Ny - 1)) with
        | none => rfl
        | some b =>
          rw [Option.bind_some, hsome _ _ h2]
          cases h3 : int32 (Nz * Ny) with
          | none => rfl
          | some c =>
            rw [Option.bind_some, hsome _ _ h3]
            cases h4 : int32 (Nz * Ny * (Nx - 1)) with
            | none => rfl
            | some d =>
              rw [Option.bind_some, hsome _ _ h4]
              apply hnone
              nlinarith [mul_sub Nz Ny 1, mul_sub (Nz * Ny) Nx 1, mul_comm Nx (Nz * Ny)]

end Verif
