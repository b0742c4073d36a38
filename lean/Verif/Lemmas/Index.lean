import Verif.Model.Index
import Mathlib.Tactic.Ring
import Mathlib.Tactic.Linarith

/-! Helper lemmas on index maps. -/

namespace Verif

theorem tdiv_nonneg_eq {a b : Int} (ha : 0 ≤ a) : a.tdiv b = a / b :=
  Int.tdiv_eq_ediv_of_nonneg ha

/-- One step of the mixed-radix decomposition. -/
theorem divmod_spec {a b n : Int} (ha : 0 ≤ a) (hb : 0 < b) (hn : a < n * b) :
    0 ≤ a / b ∧ a / b < n ∧ 0 ≤ a - a / b * b ∧ a - a / b * b < b := by
  have h1 := Int.emod_nonneg a (ne_of_gt hb)
  have h2 := Int.emod_lt_of_pos a hb
  have h3 : a - a / b * b = a % b := by
    have := Int.mul_ediv_add_emod a b; linarith [mul_comm b (a / b)]
  refine ⟨Int.ediv_nonneg ha hb.le, Int.ediv_lt_of_lt_mul hb hn, ?_, ?_⟩ <;> rw [h3] <;> assumption

theorem div_unique {q r b : Int} (hr : 0 ≤ r) (hrb : r < b) : (q * b + r) / b = q := by
  have hb : 0 < b := lt_of_le_of_lt hr hrb
  rw [add_comm, Int.add_mul_ediv_right _ _ (ne_of_gt hb), Int.ediv_eq_zero_of_lt hr hrb, zero_add]

theorem index2coord2_range {lay : Layout} {t Nx Ny : Int} (hx : 0 < Nx) (hy : 0 < Ny)
    (h0 : 0 ≤ t) (h1 : t < Nx * Ny) :
    0 ≤ (index2coord2 lay t Nx Ny).1 ∧ (index2coord2 lay t Nx Ny).1 < Nx ∧
    0 ≤ (index2coord2 lay t Nx Ny).2 ∧ (index2coord2 lay t Nx Ny).2 < Ny := by
  cases lay
  · simp only [index2coord2, tdiv_nonneg_eq h0]
    obtain ⟨a, b, c, d⟩ := divmod_spec h0 hx (n := Ny) (by linarith [mul_comm Nx Ny])
    exact ⟨c, d, a, b⟩
  · simp only [index2coord2, tdiv_nonneg_eq h0]
    obtain ⟨a, b, c, d⟩ := divmod_spec h0 hy (n := Nx) h1
    exact ⟨a, b, c, d⟩

theorem coord2index2_range {lay : Layout} {i j Nx Ny : Int} (hi : 0 ≤ i) (hi' : i < Nx)
    (hj : 0 ≤ j) (hj' : j < Ny) :
    0 ≤ coord2index2 lay i j Nx Ny ∧ coord2index2 lay i j Nx Ny < Nx * Ny := by
  cases lay <;> simp only [coord2index2] <;> constructor <;> nlinarith

theorem coord2index2_index2coord2 {lay : Layout} (t Nx Ny : Int) :
    coord2index2 lay (index2coord2 lay t Nx Ny).1 (index2coord2 lay t Nx Ny).2 Nx Ny = t := by
  cases lay <;> simp only [coord2index2, index2coord2] <;> ring

theorem index2coord2_coord2index2 {lay : Layout} {i j Nx Ny : Int} (hi : 0 ≤ i) (hi' : i < Nx)
    (hj : 0 ≤ j) (hj' : j < Ny) :
    index2coord2 lay (coord2index2 lay i j Nx Ny) Nx Ny = (i, j) := by
  have h := (coord2index2_range (lay := lay) hi hi' hj hj').1
  cases lay
  · simp only [coord2index2] at h
    simp only [coord2index2, index2coord2, tdiv_nonneg_eq h]
    have : (i + Nx * j) / Nx = j := by
      rw [show i + Nx * j = j * Nx + i by ring]; exact div_unique hi hi'
    rw [this]; simp only [Prod.mk.injEq, and_true]; ring
  · simp only [coord2index2] at h
    simp only [coord2index2, index2coord2, tdiv_nonneg_eq h]
    have : (j + Ny * i) / Ny = i := by
      rw [show j + Ny * i = i * Ny + j by ring]; exact div_unique hj hj'
    rw [this]; simp only [Prod.mk.injEq, true_and]; ring

/-- Three-digit mixed radix decomposition `t = (a*n + b)*p + c`. -/
theorem radix3 {t m n p : Int} (hn : 0 < n) (hp : 0 < p) (h0 : 0 ≤ t)
    (h1 : t < m * (n * p)) :
    let a := t / (n * p)
    let b := (t - a * (n * p)) / p
    let c := t - b * p - a * (n * p)
    0 ≤ t - a * (n * p) ∧ t - a * (n * p) < n * p ∧
    0 ≤ a ∧ a < m ∧ 0 ≤ b ∧ b < n ∧ 0 ≤ c ∧ c < p := by
  intro a b c
  have hnp : 0 < n * p := mul_pos hn hp
  obtain ⟨a1, a2, a3, a4⟩ := divmod_spec h0 hnp h1
  obtain ⟨b1, b2, b3, b4⟩ := divmod_spec a3 hp a4
  refine ⟨a3, a4, a1, a2, b1, b2, ?_, ?_⟩
  · have : c = t - a * (n * p) - b * p := by simp only [c]; ring
    rw [this]; exact b3
  · have : c = t - a * (n * p) - b * p := by simp only [c]; ring
    rw [this]; exact b4

theorem radix3_unique {a b c n p : Int} (hb : 0 ≤ b) (hb' : b < n)
    (hc : 0 ≤ c) (hc' : c < p) :
    (a * (n * p) + b * p + c) / (n * p) = a ∧
    (a * (n * p) + b * p + c - a * (n * p)) / p = b := by
  constructor
  · rw [add_assoc]; apply div_unique <;> nlinarith
  · rw [show a * (n * p) + b * p + c - a * (n * p) = b * p + c by ring]
    exact div_unique hc hc'

theorem index2coord3_range {lay : Layout} {t Nx Ny Nz : Int} (hx : 0 < Nx) (hy : 0 < Ny)
    (hz : 0 < Nz) (h0 : 0 ≤ t) (h1 : t < Nx * Ny * Nz) :
    0 ≤ (index2coord3 lay t Nx Ny Nz).1 ∧ (index2coord3 lay t Nx Ny Nz).1 < Nx ∧
    0 ≤ (index2coord3 lay t Nx Ny Nz).2.1 ∧ (index2coord3 lay t Nx Ny Nz).2.1 < Ny ∧
    0 ≤ (index2coord3 lay t Nx Ny Nz).2.2 ∧ (index2coord3 lay t Nx Ny Nz).2.2 < Nz := by
  cases lay
  · obtain ⟨r0, r1, a0, a1, b0, b1, c0, c1⟩ := radix3 (t := t) (m := Nz) hy hx h0
      (by calc t < _ := h1
          _ = _ := by ring)
    have r0' : 0 ≤ t - t / (Nx * Ny) * (Nx * Ny) := by rw [mul_comm Nx Ny]; exact r0
    simp only [index2coord3, tdiv_nonneg_eq h0, tdiv_nonneg_eq r0']
    rw [mul_comm Nx Ny]
    exact ⟨c0, c1, b0, b1, a0, a1⟩
  · obtain ⟨r0, r1, a0, a1, b0, b1, c0, c1⟩ := radix3 (t := t) (m := Nx) hy hz h0
      (by calc t < _ := h1
          _ = _ := by ring)
    simp only [index2coord3, tdiv_nonneg_eq h0, tdiv_nonneg_eq r0]
    exact ⟨a0, a1, b0, b1, c0, c1⟩

theorem coord2index3_range {lay : Layout} {i j k Nx Ny Nz : Int} (hi : 0 ≤ i) (hi' : i < Nx)
    (hj : 0 ≤ j) (hj' : j < Ny) (hk : 0 ≤ k) (hk' : k < Nz) :
    0 ≤ coord2index3 lay i j k Nx Ny Nz ∧ coord2index3 lay i j k Nx Ny Nz < Nx * Ny * Nz := by
  cases lay <;> simp only [coord2index3]
  · have h1 : 0 ≤ Nx * j := by nlinarith
    have h2 : 0 ≤ Nx * Ny * k := mul_nonneg (mul_nonneg (by omega) (by omega)) hk
    have h3 : i + Nx * j < Nx * Ny := by nlinarith
    have h4 : Nx * Ny * k + Nx * Ny ≤ Nx * Ny * Nz := by
      have : 0 ≤ Nx * Ny := mul_nonneg (by omega) (by omega)
      nlinarith
    constructor <;> linarith
  · have h1 : 0 ≤ Nz * j := by nlinarith
    have h2 : 0 ≤ Nz * Ny * i := mul_nonneg (mul_nonneg (by omega) (by omega)) hi
    have h3 : k + Nz * j < Nz * Ny := by nlinarith
    have h4 : Nz * Ny * i + Nz * Ny ≤ Nx * Ny * Nz := by
      have : 0 ≤ Nz * Ny := mul_nonneg (by omega) (by omega)
      nlinarith
    constructor <;> linarith

theorem coord2index3_index2coord3 {lay : Layout} (t Nx Ny Nz : Int) :
    coord2index3 lay (index2coord3 lay t Nx Ny Nz).1 (index2coord3 lay t Nx Ny Nz).2.1
      (index2coord3 lay t Nx Ny Nz).2.2 Nx Ny Nz = t := by
  cases lay <;> simp only [coord2index3, index2coord3] <;> ring

theorem index2coord3_coord2index3 {lay : Layout} {i j k Nx Ny Nz : Int} (hi : 0 ≤ i)
    (hi' : i < Nx) (hj : 0 ≤ j) (hj' : j < Ny) (hk : 0 ≤ k) (hk' : k < Nz) :
    index2coord3 lay (coord2index3 lay i j k Nx Ny Nz) Nx Ny Nz = (i, j, k) := by
  have h := (coord2index3_range (lay := lay) hi hi' hj hj' hk hk').1
  cases lay
  · simp only [coord2index3] at h
    have e : i + Nx * j + Nx * Ny * k = k * (Ny * Nx) + j * Nx + i := by ring
    obtain ⟨u1, u2⟩ := radix3_unique (a := k) hj hj' hi hi'
    have hr : 0 ≤ k * (Ny * Nx) + j * Nx + i - k * (Ny * Nx) := by
      have : 0 ≤ j * Nx := mul_nonneg hj (by omega)
      linarith
    rw [e] at h
    simp only [coord2index3, index2coord3]
    rw [e, mul_comm Nx Ny]
    simp only [tdiv_nonneg_eq h, u1, tdiv_nonneg_eq hr, u2, Prod.mk.injEq, and_true]
    ring
  · simp only [coord2index3] at h
    have e : k + Nz * j + Nz * Ny * i = i * (Ny * Nz) + j * Nz + k := by ring
    obtain ⟨u1, u2⟩ := radix3_unique (a := i) hj hj' hk hk'
    have hr : 0 ≤ i * (Ny * Nz) + j * Nz + k - i * (Ny * Nz) := by
      have : 0 ≤ j * Nz := mul_nonneg hj (by omega)
      linarith
    rw [e] at h
    simp only [coord2index3, index2coord3, e, tdiv_nonneg_eq h, u1,
      tdiv_nonneg_eq hr, u2, Prod.mk.injEq, true_and]
    ring

end Verif
