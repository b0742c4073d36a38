import Verif.Spec.Init
import Verif.Lemmas.InitMhd
import Verif.Lemmas.MhdFlux
import Verif.Props.C34_C36_MhdStep

/-! # C100: the magnetic field of the initial conditions is free of divergence -/

namespace Verif

open Spec ROps TOps

variable {d3 : Bool} {S : MSettings ℝ} {P : Grid} {D : Domain ℝ} {B : Sides}
  {m m' : Addr → ℝ} {Q : MhdProblem ℝ}

section helpers

theorem setup_cell {α : Type} [TOps α] {d3 : Bool} {S : MSettings α} {P : Grid} {D : Domain α}
    {B : Sides} {m m' : Addr → α} {Q : MhdProblem α}
    (h : BoxSetup d3 8 3 P B) (r : Runs (mhdSetup d3 S P D Q) m m') {i j k : Nat}
    (hi : i < P.nx.toNat) (hj : j < P.ny.toNat) (hk : k < depth d3 P) {v : Nat} (hv : v < 8) :
    m' ((cell d3 P i j k).at aU v) = initVal d3 S P D m Q (cell d3 P i j k) v := by
  obtain ⟨m1, m2, y, e, -, g, -, -⟩ := mhd_setup (S := S) (D := D) (impl := 0) h Q m
  obtain rfl := y.unique r
  obtain ⟨hb, hin⟩ := mcell_box h (by decide) hi hj hk
  rw [g _ rfl, e _ v hb hin hv]

/-- The divergence in terms of the values set. -/
theorem setup_div (h : BoxSetup d3 8 3 P B) (r : Runs (mhdSetup d3 S P D Q) m m') {i j k : Nat}
    (hi : i < P.nx.toNat) (hj : j < P.ny.toNat) (hk : d3 = true → k < P.nz.toNat) :
    divBPeriodic d3 S P m' aU i j k =
      (initVal d3 S P D m Q (cell d3 P ((i + 1) % P.nx.toNat) j k) IA -
        initVal d3 S P D m Q (cell d3 P i j k) IA) / S.dx +
      (initVal d3 S P D m Q (cell d3 P i ((j + 1) % P.ny.toNat) k) IB -
        initVal d3 S P D m Q (cell d3 P i j k) IB) / S.dy +
      (if d3 then (initVal d3 S P D m Q (cell d3 P i j ((k + 1) % P.nz.toNat)) IC -
        initVal d3 S P D m Q (cell d3 P i j k) IC) / S.dz else 0) := by
  have hx := Nat.mod_lt (i + 1) (show 0 < P.nx.toNat by omega)
  have hy := Nat.mod_lt (j + 1) (show 0 < P.ny.toNat by omega)
  have e : ∀ a b c', a < P.nx.toNat → b < P.ny.toNat → (d3 = true → c' < P.nz.toNat) → ∀ v, v < 8 →
      m' ⟨aU, (cell d3 P a b c').i, (cell d3 P a b c').j, (cell d3 P a b c').k, v⟩ =
        initVal d3 S P D m Q (cell d3 P a b c') v := by
    intro a b c' ha hb hc v hv
    have he : cell d3 P a b c' = cell d3 P a b (if d3 then c' else 0) := by cases d3 <;> rfl
    have := setup_cell h r ha hb (k := if d3 then c' else 0) (by
      unfold depth; cases d3
      · simp
      · simpa using hc rfl) hv
    rw [he]; exact this
  unfold divBPeriodic divergence
  rw [e _ _ _ hx hj hk 5 (by decide), e _ _ _ hi hj hk 5 (by decide),
    e _ _ _ hi hy hk 6 (by decide), e _ _ _ hi hj hk 6 (by decide)]
  cases d3
  · rfl
  · have hz := Nat.mod_lt (k + 1) (show 0 < P.nz.toNat by have := hk rfl; omega)
    rw [e _ _ _ hi hj (fun _ => hz) 7 (by decide), e _ _ _ hi hj hk 7 (by decide)]
    rfl

theorem div_zero_of_eq {X Y Z X' Y' Z' a b c : ℝ} {d3 : Bool} (h1 : X' = X) (h2 : Y' = Y)
    (h3 : d3 = true → Z' = Z) :
    (X' - X) / a + (Y' - Y) / b + (if d3 then (Z' - Z) / c else 0) = 0 := by
  subst h1 h2
  cases d3
  · simp
  · simp [h3 rfl]

theorem abs_le_hyp (x y : ℝ) : |x| ≤ Real.sqrt (x * x + y * y) := by
  rw [← Real.sqrt_sq_eq_abs]
  exact Real.sqrt_le_sqrt (by nlinarith [sq_nonneg y])

theorem loopPot_zero {p : FieldLoopParams ℝ} {c : Cell} {n : Nat} (hn : n < if d3 then 3 else 1)
    (h : p.radius ≤ |xPos S P D c.i| ∨ p.radius ≤ |yPos S P D c.j|) (x : ℝ) :
    lastOf (fieldLoopPotential d3 S P D p c) n x = 0 := by
  have hr : ¬ Real.sqrt (xPos S P D c.i * xPos S P D c.i + yPos S P D c.j * yPos S P D c.j) <
      p.radius := by
    rcases h with h | h
    · exact not_lt.2 (h.trans (abs_le_hyp _ _))
    · have := abs_le_hyp (yPos S P D c.j) (xPos S P D c.i)
      rw [add_comm] at this
      exact not_lt.2 (h.trans this)
  have hr' : ROps.ltb (ROps.sqrt (xPos S P D c.i * xPos S P D c.i +
      yPos S P D c.j * yPos S P D c.j)) p.radius = false := by
    simpa [ROps.ltb, ROps.sqrt] using hr
  unfold fieldLoopPotential
  simp only [hr', Bool.false_eq_true, if_false]
  cases d3
  · simp only [Bool.false_eq_true, if_false] at hn ⊢
    interval_cases n
    simp [lastOf, ROps.lit]
  · simp only [if_true] at hn ⊢
    interval_cases n <;> simp [lastOf, ROps.lit]

theorem mod_val {f : Nat → ℝ} {n i : Nat} (hi : i < n) (h : f 0 = f n) :
    f ((i + 1) % n) = f (i + 1) := by
  rcases Nat.lt_or_ge (i + 1) n with hl | hl
  · rw [Nat.mod_eq_of_lt hl]
  · obtain rfl : n = i + 1 := by omega
    rw [Nat.mod_self, h]

/-- A discrete curl in the plane has no divergence if it is periodic. -/
theorem curl_div2 {A : Nat → Nat → ℝ} {nx ny i j : Nat} {dx dy : ℝ} (hi : i < nx) (hj : j < ny)
    (hx : A 0 (j + 1) - A 0 j = A nx (j + 1) - A nx j)
    (hy : A (i + 1) 0 - A i 0 = A (i + 1) ny - A i ny) :
    ((A ((i + 1) % nx) (j + 1) - A ((i + 1) % nx) j) / dy - (A i (j + 1) - A i j) / dy) / dx +
      (-(A (i + 1) ((j + 1) % ny) - A i ((j + 1) % ny)) / dx - -(A (i + 1) j - A i j) / dx) / dy = 0 := by
  rw [mod_val (f := fun i => A i (j + 1) - A i j) hi hx,
    mod_val (f := fun j => A (i + 1) j - A i j) hj hy]
  ring

/-- A discrete curl in space has no divergence if it is periodic. -/
theorem curl_div3 {A : Nat → Nat → Nat → Nat → ℝ} {nx ny nz i j k : Nat} {dx dy dz : ℝ}
    (hi : i < nx) (hj : j < ny) (hk : k < nz)
    (hx : (A 0 (j + 1) k 2 - A 0 j k 2) / dy - (A 0 j (k + 1) 1 - A 0 j k 1) / dz =
      (A nx (j + 1) k 2 - A nx j k 2) / dy - (A nx j (k + 1) 1 - A nx j k 1) / dz)
    (hy : (A i 0 (k + 1) 0 - A i 0 k 0) / dz - (A (i + 1) 0 k 2 - A i 0 k 2) / dx =
      (A i ny (k + 1) 0 - A i ny k 0) / dz - (A (i + 1) ny k 2 - A i ny k 2) / dx)
    (hz : (A (i + 1) j 0 1 - A i j 0 1) / dx - (A i (j + 1) 0 0 - A i j 0 0) / dy =
      (A (i + 1) j nz 1 - A i j nz 1) / dx - (A i (j + 1) nz 0 - A i j nz 0) / dy) :
    (((A ((i + 1) % nx) (j + 1) k 2 - A ((i + 1) % nx) j k 2) / dy -
        (A ((i + 1) % nx) j (k + 1) 1 - A ((i + 1) % nx) j k 1) / dz) -
      ((A i (j + 1) k 2 - A i j k 2) / dy - (A i j (k + 1) 1 - A i j k 1) / dz)) / dx +
    (((A i ((j + 1) % ny) (k + 1) 0 - A i ((j + 1) % ny) k 0) / dz -
        (A (i + 1) ((j + 1) % ny) k 2 - A i ((j + 1) % ny) k 2) / dx) -
      ((A i j (k + 1) 0 - A i j k 0) / dz - (A (i + 1) j k 2 - A i j k 2) / dx)) / dy +
    (((A (i + 1) j ((k + 1) % nz) 1 - A i j ((k + 1) % nz) 1) / dx -
        (A i (j + 1) ((k + 1) % nz) 0 - A i j ((k + 1) % nz) 0) / dy) -
      ((A (i + 1) j k 1 - A i j k 1) / dx - (A i (j + 1) k 0 - A i j k 0) / dy)) / dz = 0 := by
  rw [mod_val (f := fun i => (A i (j + 1) k 2 - A i j k 2) / dy -
      (A i j (k + 1) 1 - A i j k 1) / dz) hi hx,
    mod_val (f := fun j => (A i j (k + 1) 0 - A i j k 0) / dz -
      (A (i + 1) j k 2 - A i j k 2) / dx) hj hy,
    mod_val (f := fun k => (A (i + 1) j k 1 - A i j k 1) / dx -
      (A i (j + 1) k 0 - A i j k 0) / dy) hk hz]
  ring

theorem xPos_cell {i j k : Nat} : xPos S P D (cell d3 P i j k).i =
    D.xmin + S.dx / 2 + (i + P.nx * D.i_mpi) * S.dx := by
  simp only [xPos, cell, ROps.lit]
  push_cast
  ring
theorem yPos_cell {i j k : Nat} : yPos S P D (cell d3 P i j k).j =
    D.ymin + S.dy / 2 + (j + P.ny * D.j_mpi) * S.dy := by
  simp only [yPos, cell, ROps.lit]
  push_cast
  ring
theorem zPos_cell {i j k : Nat} : zPos S P D (cell true P i j k).k =
    D.zmin + S.dz / 2 + (k + P.nz * D.k_mpi) * S.dz := by
  simp only [zPos, cell, ROps.lit, if_true]
  push_cast
  ring

/-- The wave length fits the domain. -/
theorem wave_fit {p : WaveParams ℝ} {Lx Ly Lz g a : ℝ} {t : Int} (hx : 0 < Lx) (hy : 0 < Ly)
    (hz : 0 < Lz) (h : WaveParams.make Lx Ly Lz g a t = some p) :
    p.k_par * (Lx * p.cos_a2 * p.cos_a3) = 2 * Real.pi ∧
    p.k_par * (Ly * p.cos_a2 * p.sin_a3) = 2 * Real.pi ∧
    p.k_par * (Lz * p.sin_a2) = 2 * Real.pi := by
  unfold WaveParams.make at h
  by_cases ht : t = 0 ∨ t = 1 ∨ t = 2 ∨ t = 3
  swap
  · rw [if_neg ht] at h; cases h
  rw [if_pos ht] at h
  obtain rfl := Option.some.inj h
  clear h
  set a3 := Real.arctan (Lx / Ly) with ha3
  set a2 := Real.arctan (1 / 2 * (Lx * Real.cos a3 + Ly * Real.sin a3) / Lz) with ha2
  have c3 : 0 < Real.cos a3 := Real.cos_arctan_pos _
  have c2 : 0 < Real.cos a2 := Real.cos_arctan_pos _
  have e3 : Ly * Real.sin a3 = Lx * Real.cos a3 := by
    have := Real.tan_arctan (Lx / Ly)
    rw [← ha3, Real.tan_eq_sin_div_cos] at this
    field_simp at this
    linarith
  have e2 : Lz * Real.sin a2 = Lx * Real.cos a3 * Real.cos a2 := by
    have := Real.tan_arctan (1 / 2 * (Lx * Real.cos a3 + Ly * Real.sin a3) / Lz)
    rw [← ha2, Real.tan_eq_sin_div_cos, e3] at this
    field_simp at this
    linarith
  have x2 : Ly * Real.cos a2 * Real.sin a3 = Lx * Real.cos a2 * Real.cos a3 := by
    linear_combination Real.cos a2 * e3
  have x3 : Lz * Real.sin a2 = Lx * Real.cos a2 * Real.cos a3 := by linear_combination e2
  have l0 : 0 < Lx * Real.cos a2 * Real.cos a3 := by positivity
  have hk : (4 * Real.arcsin 1 / (Lx * Real.cos a2 * Real.cos a3)) *
      (Lx * Real.cos a2 * Real.cos a3) = 2 * Real.pi := by
    rw [div_mul_cancel₀ _ l0.ne', Real.arcsin_one]; ring
  have hl : ∀ b1 b2 : Bool, (if b2 then (if b1 then Lx * Real.cos a2 * Real.cos a3 else
      fmin (Lx * Real.cos a2 * Real.cos a3) (Ly * Real.cos a2 * Real.sin a3)) else
      fmin (if b1 then Lx * Real.cos a2 * Real.cos a3 else
      fmin (Lx * Real.cos a2 * Real.cos a3) (Ly * Real.cos a2 * Real.sin a3)) (Lz * Real.sin a2)) =
      Lx * Real.cos a2 * Real.cos a3 := by
    intro b1 b2
    have hm : ∀ x : ℝ, fmin x x = x := fun x => min_self x
    rw [x2, x3, hm]
    cases b1 <;> cases b2 <;> simp [hm]
  simp only [ROps.lit, TOps.atan, TOps.sin, TOps.cos, TOps.asin]
  have e12 : ((1 / 2 : ℚ) : ℝ) = 1 / 2 := by norm_num
  have e4 : ((4 : ℚ) : ℝ) = 4 := by norm_num
  have e1 : ((1 : ℚ) : ℝ) = 1 := by norm_num
  rw [e12, e4, e1, ← ha3, ← ha2, hl, x2, x3]
  exact ⟨hk, hk, hk⟩

theorem curl2_cell (A : Cell → Nat → ℝ) (i j k : Nat) (x : ℝ) :
    lastOf (curlList2 S A (cell false P i j k)) IA x =
      (A (cell false P i (j + 1) k) 0 - A (cell false P i j k) 0) / S.dy ∧
    lastOf (curlList2 S A (cell false P i j k)) IB x =
      -(A (cell false P (i + 1) j k) 0 - A (cell false P i j k) 0) / S.dx := by
  rw [cell_up_x, cell_up_y]
  exact ⟨rfl, rfl⟩

theorem curl3_cell (A : Cell → Nat → ℝ) (i j k : Nat) (x : ℝ) :
    lastOf (curlList3 S A (cell true P i j k)) IA x =
      (A (cell true P i (j + 1) k) 2 - A (cell true P i j k) 2) / S.dy -
        (A (cell true P i j (k + 1)) 1 - A (cell true P i j k) 1) / S.dz ∧
    lastOf (curlList3 S A (cell true P i j k)) IB x =
      (A (cell true P i j (k + 1)) 0 - A (cell true P i j k) 0) / S.dz -
        (A (cell true P (i + 1) j k) 2 - A (cell true P i j k) 2) / S.dx ∧
    lastOf (curlList3 S A (cell true P i j k)) IC x =
      (A (cell true P (i + 1) j k) 1 - A (cell true P i j k) 1) / S.dx -
        (A (cell true P i (j + 1) k) 0 - A (cell true P i j k) 0) / S.dy := by
  rw [cell_up_x, cell_up_y, cell_up_z]
  exact ⟨rfl, rfl, rfl⟩

theorem loop_val {p : FieldLoopParams ℝ} {c : Cell} (hin : P.inner d3 c) {v : Nat}
    (hv : v = IA ∨ v = IB ∨ v = IC) : initVal d3 S P D m (.fieldLoop p) c v =
      lastOf (if d3 then curlList3 S (fun c n => lastOf (fieldLoopPotential d3 S P D p c) n
          (m (c.at mPot n))) c else curlList2 S (fun c n => lastOf (fieldLoopPotential d3 S P D p c) n
          (m (c.at mPot n))) c) v 0 := by
  have h1 : v ≠ IP := by rcases hv with rfl | rfl | rfl <;> decide
  unfold initVal
  simp only [if_neg h1, if_pos hin]
  rw [lastOf_append]
  cases d3 <;> rcases hv with rfl | rfl | rfl <;> rfl

/-- Field values from a vector potential. -/
theorem fieldLoop_div {p : FieldLoopParams ℝ} (hp : LoopInside S P D p) (h : BoxSetup d3 8 3 P B)
    (r : Runs (mhdSetup d3 S P D (.fieldLoop p)) m m') {i j k : Nat}
    (hi : i < P.nx.toNat) (hj : j < P.ny.toNat) (hk : d3 = true → k < P.nz.toNat) :
    divBPeriodic d3 S P m' aU i j k = 0 := by
  have hnx : ((P.nx.toNat : ℤ) : ℝ) = P.nx := by
    have : ((P.nx.toNat : ℕ) : ℤ) = P.nx := Int.toNat_of_nonneg (by omega)
    rw [this]
  have hny : ((P.ny.toNat : ℤ) : ℝ) = P.ny := by
    have : ((P.ny.toNat : ℕ) : ℤ) = P.ny := Int.toNat_of_nonneg (by omega)
    rw [this]
  push_cast at hnx hny
  set A : Nat → Nat → Nat → Nat → ℝ := fun i j k n =>
    lastOf (fieldLoopPotential d3 S P D p (cell d3 P i j k)) n (m ((cell d3 P i j k).at mPot n)) with hA
  have zx0 : ∀ j k n, n < (if d3 then 3 else 1) → A 0 j k n = 0 := by
    intro j k n hn
    refine loopPot_zero hn (Or.inl ?_) _
    rw [xPos_cell, hp.serial.1]; simpa using hp.xlo
  have zx1 : ∀ j k n, n < (if d3 then 3 else 1) → A P.nx.toNat j k n = 0 := by
    intro j k n hn
    refine loopPot_zero hn (Or.inl ?_) _
    rw [xPos_cell, hp.serial.1, hnx]; simpa using hp.xhi
  have zy0 : ∀ i k n, n < (if d3 then 3 else 1) → A i 0 k n = 0 := by
    intro i k n hn
    refine loopPot_zero hn (Or.inr ?_) _
    rw [yPos_cell, hp.serial.2]; simpa using hp.ylo
  have zy1 : ∀ i k n, n < (if d3 then 3 else 1) → A i P.ny.toNat k n = 0 := by
    intro i k n hn
    refine loopPot_zero hn (Or.inr ?_) _
    rw [yPos_cell, hp.serial.2, hny]; simpa using hp.yhi
  have hin : ∀ {a b c' : Nat}, a < P.nx.toNat → b < P.ny.toNat → (d3 = true → c' < P.nz.toNat) →
      P.inner d3 (cell d3 P a b c') := by
    intro a b c' ha hb hc
    have he : cell d3 P a b c' = cell d3 P a b (if d3 then c' else 0) := by cases d3 <;> rfl
    rw [he]
    exact (mcell_box h (by decide) ha hb (k := if d3 then c' else 0) (by
      unfold depth; cases d3
      · simp
      · simpa using hc rfl)).2
  have mx := Nat.mod_lt (i + 1) (show 0 < P.nx.toNat by omega)
  have my := Nat.mod_lt (j + 1) (show 0 < P.ny.toNat by omega)
  rw [setup_div h r hi hj hk, loop_val (hin mx hj hk) (by simp), loop_val (hin hi hj hk) (by simp),
    loop_val (hin hi my hk) (by simp), loop_val (hin hi hj hk) (by simp)]
  cases d3
  · have := curl_div2 (A := fun i j => A i j k 0) (dx := S.dx) (dy := S.dy) hi hj
      (by simp [zx0, zx1]) (by simp [zy0, zy1])
    simp only [Bool.false_eq_true, if_false, (curl2_cell _ _ _ _ _).1, (curl2_cell _ _ _ _ _).2,
      add_zero]
    exact this
  · have mz := Nat.mod_lt (k + 1) (show 0 < P.nz.toNat by have := hk rfl; omega)
    rw [if_pos rfl, loop_val (hin hi hj fun _ => mz) (by simp), loop_val (hin hi hj hk) (by simp)]
    have := curl_div3 (A := A) (dx := S.dx) (dy := S.dy) (dz := S.dz) hi hj (hk rfl)
      (by simp [zx0, zx1]) (by simp [zy0, zy1])
      (by
        have e0 : ∀ i j k n, n < 2 → A i j k n = 0 := by
          intro i j k n hn
          simp only [hA, fieldLoopPotential, if_true]
          rw [lastOf_append]
          split_ifs <;> interval_cases n <;> simp [lastOf, ROps.lit]
        rw [e0 _ _ _ 1 (by decide), e0 _ _ _ 1 (by decide), e0 _ _ _ 1 (by decide),
          e0 _ _ _ 1 (by decide), e0 _ _ _ 0 (by decide), e0 _ _ _ 0 (by decide),
          e0 _ _ _ 0 (by decide), e0 _ _ _ 0 (by decide)])
    simp only [if_true, (curl3_cell _ _ _ _ _).1, (curl3_cell _ _ _ _ _).2.1,
      (curl3_cell _ _ _ _ _).2.2]
    exact this

theorem wave_div {p : WaveParams ℝ} (hp : WaveFits S P p) (h : BoxSetup true 8 3 P B)
    (r : Runs (mhdSetup true S P D (.wave p)) m m') {i j k : Nat}
    (hi : i < P.nx.toNat) (hj : j < P.ny.toNat) (hk : k < P.nz.toNat) :
    divBPeriodic true S P m' aU i j k = 0 := by
  obtain ⟨hdx, hdy, hdz, g, a, t, hmk⟩ := hp
  have hn : ∀ {n : Int} {i : Nat}, i < n.toNat → ((n.toNat : ℕ) : ℝ) = n ∧ (0:ℝ) < n := by
    intro n i hi
    have : ((n.toNat : ℕ) : ℤ) = n := Int.toNat_of_nonneg (by omega)
    constructor
    · exact_mod_cast congrArg (Int.cast : ℤ → ℝ) this
    · have : 0 < n := by omega
      exact_mod_cast this
  obtain ⟨hnx, px⟩ := hn hi
  obtain ⟨hny, py⟩ := hn hj
  obtain ⟨hnz, pz⟩ := hn hk
  obtain ⟨kx, ky, kz⟩ := wave_fit (mul_pos px hdx) (mul_pos py hdy) (mul_pos pz hdz) hmk
  set A : Nat → Nat → Nat → Nat → ℝ := fun i j k n =>
    lastOf (wavePotential S P D p (cell true P i j k)) n (m ((cell true P i j k).at mPot n)) with hA
  have shift : ∀ x1 x2 x3 y1 y2 y3 : ℝ, p.k_par * ((y1 - x1) * p.cos_a2 * p.cos_a3 +
      (y2 - x2) * p.cos_a2 * p.sin_a3 + (y3 - x3) * p.sin_a2) = 2 * Real.pi →
      wavePot p y1 y2 y3 =
      ((wavePot p x1 x2 x3).1 + p.bz0 * ((y1 - x1) * p.cos_a2 * p.cos_a3 +
        (y2 - x2) * p.cos_a2 * p.sin_a3 + (y3 - x3) * p.sin_a2),
       (wavePot p x1 x2 x3).2 - p.by0 * ((y1 - x1) * p.cos_a2 * p.cos_a3 +
        (y2 - x2) * p.cos_a2 * p.sin_a3 + (y3 - x3) * p.sin_a2) +
        p.bx0 * (-(y1 - x1) * p.sin_a3 + (y2 - x2) * p.cos_a3)) := by
    intro x1 x2 x3 y1 y2 y3 hk
    have hc : Real.cos (p.k_par * (y1 * p.cos_a2 * p.cos_a3 + y2 * p.cos_a2 * p.sin_a3 + y3 * p.sin_a2)) =
        Real.cos (p.k_par * (x1 * p.cos_a2 * p.cos_a3 + x2 * p.cos_a2 * p.sin_a3 + x3 * p.sin_a2)) := by
      rw [← Real.cos_add_two_pi (p.k_par * (x1 * p.cos_a2 * p.cos_a3 + x2 * p.cos_a2 * p.sin_a3 +
        x3 * p.sin_a2)), ← hk]
      congr 1; ring
    simp only [wavePot, TOps.cos, hc]
    exact Prod.ext (by dsimp only; ring) (by dsimp only; ring)
  have pot : ∀ c c' : Cell, ∀ X Y Z : ℝ, xPos S P D c'.i = xPos S P D c.i + X →
      yPos S P D c'.j = yPos S P D c.j + Y → zPos S P D c'.k = zPos S P D c.k + Z →
      p.k_par * (X * p.cos_a2 * p.cos_a3 + Y * p.cos_a2 * p.sin_a3 + Z * p.sin_a2) = 2 * Real.pi →
      ∀ n, n < 3 → ∀ x y, lastOf (wavePotential S P D p c') n x =
        lastOf (wavePotential S P D p c) n y +
        lastOf [(0, -(p.bz0 * (X * p.cos_a2 * p.cos_a3 + Y * p.cos_a2 * p.sin_a3 + Z * p.sin_a2)) *
            p.sin_a3 - (-p.by0 * (X * p.cos_a2 * p.cos_a3 + Y * p.cos_a2 * p.sin_a3 + Z * p.sin_a2) +
              p.bx0 * (-X * p.sin_a3 + Y * p.cos_a3)) * p.sin_a2 * p.cos_a3),
          (1, (p.bz0 * (X * p.cos_a2 * p.cos_a3 + Y * p.cos_a2 * p.sin_a3 + Z * p.sin_a2)) *
            p.cos_a3 - (-p.by0 * (X * p.cos_a2 * p.cos_a3 + Y * p.cos_a2 * p.sin_a3 + Z * p.sin_a2) +
              p.bx0 * (-X * p.sin_a3 + Y * p.cos_a3)) * p.sin_a2 * p.sin_a3),
          (2, (-p.by0 * (X * p.cos_a2 * p.cos_a3 + Y * p.cos_a2 * p.sin_a3 + Z * p.sin_a2) +
              p.bx0 * (-X * p.sin_a3 + Y * p.cos_a3)) * p.cos_a2)] n 0 := by
    intro c c' X Y Z hX hY hZ hk n hn x y
    have sh : ∀ x1 x2 x3 : ℝ, wavePot p (x1 + X) (x2 + Y) (x3 + Z) = _ := fun x1 x2 x3 =>
      shift x1 x2 x3 (x1 + X) (x2 + Y) (x3 + Z) (by
        rw [add_sub_cancel_left, add_sub_cancel_left, add_sub_cancel_left]; exact hk)
    simp only [add_sub_cancel_left] at sh
    unfold wavePotential
    simp only [hX, hY, hZ]
    have q : ∀ a b d : ℝ, a + b - d = a - d + b := fun a b d => by ring
    simp only [q, sh]
    interval_cases n <;> simp only [lastOf, List.foldl] <;> simp <;> ring
  have val : ∀ {i j k : Nat}, i < P.nx.toNat → j < P.ny.toNat → k < P.nz.toNat → ∀ v,
      v = IA ∨ v = IB ∨ v = IC → initVal true S P D m (.wave p) (cell true P i j k) v =
      lastOf (curlList3 S (fun c n => lastOf (wavePotential S P D p c) n (m (c.at mPot n)))
        (cell true P i j k)) v (m ((cell true P i j k).at aU v)) := by
    intro i j k _ _ _ v hv
    unfold initVal
    simp only [if_true, if_pos hv]
  have mx := Nat.mod_lt (i + 1) (show 0 < P.nx.toNat by omega)
  have my := Nat.mod_lt (j + 1) (show 0 < P.ny.toNat by omega)
  have mz := Nat.mod_lt (k + 1) (show 0 < P.nz.toNat by omega)
  have hX : ∀ j k n, n < 3 → A P.nx.toNat j k n = A 0 j k n + _ := fun j k n hn =>
    pot (cell true P 0 j k) (cell true P P.nx.toNat j k) (P.nx * S.dx) 0 0
      (by rw [xPos_cell, xPos_cell, hnx]; push_cast; ring)
      (by rw [yPos_cell, yPos_cell]; ring) (by rw [zPos_cell, zPos_cell]; ring)
      (by rw [← kx]; ring) n hn _ _
  have hY : ∀ i k n, n < 3 → A i P.ny.toNat k n = A i 0 k n + _ := fun i k n hn =>
    pot (cell true P i 0 k) (cell true P i P.ny.toNat k) 0 (P.ny * S.dy) 0
      (by rw [xPos_cell, xPos_cell]; ring)
      (by rw [yPos_cell, yPos_cell, hny]; push_cast; ring) (by rw [zPos_cell, zPos_cell]; ring)
      (by rw [← ky]; ring) n hn _ _
  have hZ : ∀ i j n, n < 3 → A i j P.nz.toNat n = A i j 0 n + _ := fun i j n hn =>
    pot (cell true P i j 0) (cell true P i j P.nz.toNat) 0 0 (P.nz * S.dz)
      (by rw [xPos_cell, xPos_cell]; ring)
      (by rw [yPos_cell, yPos_cell]; ring) (by rw [zPos_cell, zPos_cell, hnz]; push_cast; ring)
      (by rw [← kz]; ring) n hn _ _
  have := curl_div3 (A := A) (dx := S.dx) (dy := S.dy) (dz := S.dz) hi hj hk
    (by rw [hX _ _ 2 (by decide), hX _ _ 2 (by decide), hX _ _ 1 (by decide), hX _ _ 1 (by decide)]
        rw [add_sub_add_right_eq_sub, add_sub_add_right_eq_sub])
    (by rw [hY _ _ 0 (by decide), hY _ _ 0 (by decide), hY _ _ 2 (by decide), hY _ _ 2 (by decide)]
        rw [add_sub_add_right_eq_sub, add_sub_add_right_eq_sub])
    (by rw [hZ _ _ 1 (by decide), hZ _ _ 1 (by decide), hZ _ _ 0 (by decide), hZ _ _ 0 (by decide)]
        rw [add_sub_add_right_eq_sub, add_sub_add_right_eq_sub])
  rw [setup_div h r hi hj fun _ => hk, val mx hj hk _ (by simp), val hi hj hk _ (by simp),
    val hi my hk _ (by simp), val hi hj hk _ (by simp), if_pos rfl, val hi hj mz _ (by simp),
    val hi hj hk _ (by simp), (curl3_cell _ _ _ _ _).1, (curl3_cell _ _ _ _ _).1,
    (curl3_cell _ _ _ _ _).2.1, (curl3_cell _ _ _ _ _).2.1,
    (curl3_cell _ _ _ _ _).2.2, (curl3_cell _ _ _ _ _).2.2]
  exact this

end helpers

/-- **C100**: after the set-up of a run the discrete divergence of the magnetic field is zero in every
cell. -/
theorem C100_divB_start (h : BoxSetup d3 8 3 P B) (hf : Fresh m) (hs : Solenoidal d3 S P D Q)
    (r : Runs (mhdSetup d3 S P D Q) m m') {i j k : Nat}
    (hi : i < P.nx.toNat) (hj : j < P.ny.toNat) (hk : d3 = true → k < P.nz.toNat) :
    divBPeriodic d3 S P m' aU i j k = 0 := by
  cases Q with
  | blast p =>
    have e : ∀ c v, v = IA ∨ v = IB ∨ v = IC →
        initVal d3 S P D m (.blast p) c v = lit (1/2) := by
      intro c v hv
      unfold initVal blastMhd
      rcases hv with rfl | rfl | rfl <;> dsimp only <;> split_ifs <;> rfl
    rw [setup_div h r hi hj hk, e _ _ (by simp), e _ _ (by simp), e _ _ (by simp), e _ _ (by simp),
      e _ _ (by simp), e _ _ (by simp)]
    simp
  | implode p =>
    obtain ⟨h1, h2, h3⟩ := hs
    have e1 : ∀ c, initVal d3 S P D m (.implode p) c IA = p.Bx_out := by
      intro c
      unfold initVal implode3 implode2
      dsimp only
      split_ifs <;> first | rfl | exact h1
    have e2 : ∀ c, initVal d3 S P D m (.implode p) c IB = p.By_out := by
      intro c
      unfold initVal implode3 implode2
      dsimp only
      split_ifs <;> first | rfl | exact h2
    have e3 : d3 = true → ∀ c, initVal d3 S P D m (.implode p) c IC = p.Bz_out := by
      rintro rfl c
      unfold initVal implode3 implode2
      dsimp only
      rw [if_pos rfl]
      split_ifs <;> first | rfl | exact h3 rfl
    rw [setup_div h r hi hj hk]
    exact div_zero_of_eq (by rw [e1, e1]) (by rw [e2, e2]) (fun h => by rw [e3 h, e3 h])
  | orszagTang kt =>
    rw [setup_div h r hi hj hk]
    cases d3
    · exact div_zero_of_eq rfl rfl (by simp)
    · exact div_zero_of_eq rfl rfl (fun _ => rfl)
  | kelvinHelmholtz p rnd =>
    have f : ∀ a, m a = 0 := fun a => by simpa [ROps.lit] using hf a
    have e : ∀ c c' v, v = IA ∨ v = IB ∨ v = IC →
        initVal d3 S P D m (.kelvinHelmholtz p rnd) c v =
          initVal d3 S P D m (.kelvinHelmholtz p rnd) c' v := by
      intro c c' v hv
      show lastOf (if d3 then kelvinHelmholtz3 S P D p rnd c else kelvinHelmholtz2 S P D p rnd c) v _ =
        lastOf (if d3 then kelvinHelmholtz3 S P D p rnd c' else kelvinHelmholtz2 S P D p rnd c') v _
      rw [f, f]
      unfold kelvinHelmholtz2 kelvinHelmholtz3
      rcases hv with rfl | rfl | rfl <;> dsimp only <;> cases d3 <;> cases p.p_rand <;>
        cases p.p_sine_rob <;> cases p.p_sine <;> rfl
    rw [setup_div h r hi hj hk]
    exact div_zero_of_eq (e _ _ _ (by simp)) (e _ _ _ (by simp)) fun _ => e _ _ _ (by simp)
  | rotor p =>
    have e1 : ∀ c, initVal d3 S P D m (.rotor p) c IA = p.b0 := by
      intro c
      unfold initVal rotor2 rotor3
      dsimp only
      split_ifs <;> rfl
    have e2 : ∀ c v, v = IB ∨ v = IC → initVal d3 S P D m (.rotor p) c v = lit 0 := by
      intro c v hv
      unfold initVal rotor2 rotor3
      rcases hv with rfl | rfl <;> dsimp only <;> split_ifs <;> rfl
    rw [setup_div h r hi hj hk]
    exact div_zero_of_eq (by rw [e1, e1]) (by rw [e2 _ _ (by simp), e2 _ _ (by simp)])
      fun _ => by rw [e2 _ _ (by simp), e2 _ _ (by simp)]
  | fieldLoop p => exact fieldLoop_div hs h r hi hj hk
  | wave p =>
    cases d3
    · have f : ∀ a, m a = 0 := fun a => by simpa [ROps.lit] using hf a
      rw [setup_div h r hi hj hk]
      refine div_zero_of_eq ?_ ?_ (by simp)
      · show m _ = m _
        rw [f, f]
      · show m _ = m _
        rw [f, f]
    · exact wave_div (hs rfl) h r hi hj (hk rfl)

/-- **C100**: the set-up of a run — initial condition, ghost cells, second copy, primitive variables —
accesses only allocated entries, is free of data races, terminates and gives one result whatever the
schedule, in any arithmetic. -/
theorem C100_setup {α : Type} [TOps α] {d3 : Bool} {S : MSettings α} {P : Grid} {D : Domain α}
    {B : Sides} {impl : Int} (h : BoxSetup d3 8 3 P B) (Q : MhdProblem α) (m : Addr → α) :
    ∃ m', YieldsAll (mhdInitDom d3 P impl) (mhdSetup d3 S P D Q) m m' := by
  obtain ⟨-, m2, y, -⟩ := mhd_setup (S := S) (D := D) h Q m
  exact ⟨m2, y⟩

example (Q : MhdProblem ℝ) (m : Addr → ℝ) (D : Domain ℝ) :
    ∃ m', YieldsAll (mhdInitDom true (mhdBox .absorbing) 1) (mhdSetup true mhdSettings
      (mhdBox .absorbing) D Q) m m' := C100_setup (mhdBox_setup _ _) Q m

/-- **C100**: it then stays zero in a periodic box, through all steps. -/
theorem C100_divB_run {impl : Int} {xmin : ℝ} {m0 : Addr → ℝ}
    (h : BoxSetup d3 8 3 P (Sides.all .periodic)) (hv : ValidMhd d3 S) (himpl : impl = 0 ∨ impl = 1)
    (hf : Fresh m) (hs : Solenoidal d3 S P D Q) (r0 : Runs (mhdSetup d3 S P D Q) m m0)
    {l : List (ℝ × MJunk ℝ)} (r : MhdSteps d3 S P xmin impl 0 l m0 m') {i j k : Nat}
    (hi : i < P.nx.toNat) (hj : j < P.ny.toNat) (hk : d3 = true → k < P.nz.toNat) :
    divBPeriodic d3 S P m' (bufIn l.length) i j k = 0 := by
  have e := divB_periodic_run h hv himpl r hi hj hk
  rw [Nat.zero_add] at e
  rw [e]
  exact C100_divB_start h hf hs r0 hi hj hk

/-- The hypotheses are met by an advected field loop in a box around the origin. -/
example (p : FieldLoopParams ℝ) (hp : p.radius = 1) : Solenoidal false { mhdSettings with dx := 1, dy := 1 }
    (mhdBox .periodic) ⟨-2, 2, -3/2, 3/2, 0, 1, 0, 0, 0⟩ (.fieldLoop p) := by
  have e : p.radius = 1 := hp
  refine ⟨⟨rfl, rfl⟩, ?_, ?_, ?_, ?_⟩ <;> rw [e] <;>
    simp only [mhdBox, le_abs] <;> norm_num

/-- They are met by a wave made for the box. -/
example : ∃ p, Solenoidal true { mhdSettings with dx := 1, dy := 1, dz := 2 } (mhdBox .periodic)
    ⟨0, 4, 0, 3, 0, 6, 0, 0, 0⟩ (.wave p) := by
  obtain ⟨p, hp⟩ : ∃ p, WaveParams.make (((mhdBox .periodic).nx : ℝ) * 1)
      (((mhdBox .periodic).ny : ℝ) * 1) (((mhdBox .periodic).nz : ℝ) * 2) (5/3) 1 2 = some p := by
    unfold WaveParams.make
    rw [if_pos (by decide)]
    exact ⟨_, rfl⟩
  exact ⟨p, fun _ => ⟨one_pos, one_pos, two_pos, 5/3, 1, 2, hp⟩⟩

/-- A whole run in the default problem. -/
example (J : MJunk ℝ) (D : Domain ℝ) : ∃ m0 m' : Addr → ℝ,
    Runs (mhdSetup true mhdSettings (mhdBox .periodic) D (.orszagTang 1)) (fun _ => 0) m0 ∧
    MhdSteps true mhdSettings (mhdBox .periodic) 0 1 0 [(1 / 10, J), (1 / 20, J)] m0 m' ∧
    ∀ i < 4, ∀ j < 3, ∀ k < 3,
      divBPeriodic true mhdSettings (mhdBox .periodic) m' (bufIn 2) i j k = 0 := by
  obtain ⟨m0, y⟩ := C100_setup (S := mhdSettings) (D := D) (mhdBox_setup true .periodic)
    (impl := 1) (.orszagTang 1) (fun _ => (0:ℝ))
  obtain ⟨m', r⟩ := mhdSteps_exist (S := mhdSettings) (xmin := 0) (mhdBox_setup true .periodic)
    (Or.inr rfl) [(1 / 10, J), (1 / 20, J)] 0 m0
  exact ⟨m0, m', y.run, r, fun i hi j hj k hk => C100_divB_run (mhdBox_setup true .periodic)
    (mhdSettings_valid true) (Or.inr rfl) (fun _ => by simp [ROps.lit])
    (Q := .orszagTang 1) (D := D) trivial y.run r hi hj fun _ => hk⟩

/-! ### Where it is not -/

/-- **C100**: an implosion with different fields inside and outside starts with a divergence: in a cell
of the inner region whose upper neighbours belong to the outer one (2D). -/
theorem C100_implode_jump {p : ImplodeParams ℝ} (h : BoxSetup false 8 3 P B) (hsh : p.shape ≠ 1)
    (r : Runs (mhdSetup false S P D (.implode p)) m m') {i j k : Nat}
    (hi : i + 1 < P.nx.toNat) (hj : j + 1 < P.ny.toNat)
    (h0 : xPos S P D (cell false P i j k).i + yPos S P D (cell false P i j k).j ≤
      (D.xmin + D.xmax) / 2 + D.ymin)
    (hx : (D.xmin + D.xmax) / 2 + D.ymin <
      xPos S P D (cell false P (i + 1) j k).i + yPos S P D (cell false P (i + 1) j k).j)
    (hy : (D.xmin + D.xmax) / 2 + D.ymin <
      xPos S P D (cell false P i (j + 1) k).i + yPos S P D (cell false P i (j + 1) k).j) :
    divBPeriodic false S P m' aU i j k =
      (p.Bx_out - p.Bx_in) / S.dx + (p.By_out - p.By_in) / S.dy := by
  have vin : ∀ c : Cell, xPos S P D c.i + yPos S P D c.j ≤ (D.xmin + D.xmax) / 2 + D.ymin →
      initVal false S P D m (.implode p) c IA = p.Bx_in ∧
      initVal false S P D m (.implode p) c IB = p.By_in := by
    intro c hc
    have : gtb (xPos S P D c.i + yPos S P D c.j) ((D.xmin + D.xmax) / lit 2 + D.ymin) = false := by
      simpa [ROps.gtb, ROps.ltb, ROps.lit] using hc
    unfold initVal implode2
    simp only [if_neg hsh, this]
    exact ⟨rfl, rfl⟩
  have vout : ∀ c : Cell, (D.xmin + D.xmax) / 2 + D.ymin < xPos S P D c.i + yPos S P D c.j →
      initVal false S P D m (.implode p) c IA = p.Bx_out ∧
      initVal false S P D m (.implode p) c IB = p.By_out := by
    intro c hc
    have : gtb (xPos S P D c.i + yPos S P D c.j) ((D.xmin + D.xmax) / lit 2 + D.ymin) = true := by
      simpa [ROps.gtb, ROps.ltb, ROps.lit] using hc
    unfold initVal implode2
    simp only [if_neg hsh, this]
    exact ⟨rfl, rfl⟩
  rw [setup_div h r (by omega) (by omega) (by simp), Nat.mod_eq_of_lt hi, Nat.mod_eq_of_lt hj,
    (vin _ h0).1, (vin _ h0).2, (vout _ hx).1, (vout _ hy).2]
  simp

/-- Such a cell in a box of 4 times 3 cells of size 1. -/
example : let D : Domain ℝ := ⟨0, 4, 0, 3, 0, 1, 0, 0, 0⟩
    let X := fun i j => xPos mhdSettings (mhdBox .absorbing) D (cell false (mhdBox .absorbing) i j 0).i +
      yPos mhdSettings (mhdBox .absorbing) D (cell false (mhdBox .absorbing) i j 0).j
    X 1 0 ≤ (D.xmin + D.xmax) / 2 + D.ymin ∧ (D.xmin + D.xmax) / 2 + D.ymin < X 2 0 ∧
      (D.xmin + D.xmax) / 2 + D.ymin < X 1 1 := by
  simp only [xPos_cell, yPos_cell]
  norm_num [mhdSettings, exampleMhd, exampleSettings]

/-- **C100**: with the default parameters (a loop of radius 1 around the origin, domain the unit
square) the loop is cut by the boundary of the domain: the field of a periodic run starts with a
divergence. -/
theorem C100_loop_cut {p : FieldLoopParams ℝ} {n : Nat} (h : BoxSetup false 8 3 P B)
    (hx : P.nx = n) (hy : P.ny = n) (hdx : S.dx = 1 / n) (hdy : S.dy = 1 / n)
    (hD : D.xmin = 0 ∧ D.ymin = 0 ∧ D.i_mpi = 0 ∧ D.j_mpi = 0) (hr : p.radius = 1)
    (ha : p.amplitude = 1) (r : Runs (mhdSetup false S P D (.fieldLoop p)) m m') :
    divBPeriodic false S P m' aU (n - 1) 0 0 = -(n * (Real.sqrt 10 - Real.sqrt 2) / 2) := by
  obtain ⟨hx0, hy0, hm1, hm2⟩ := hD
  have hn : 3 ≤ n := by
    have h1 := h.gw
    have h2 := h.nx
    rw [hx] at h2
    omega
  have hn' : (3:ℝ) ≤ n := by exact_mod_cast hn
  have hn0 : (0:ℝ) < n := by linarith
  set A : Nat → Nat → ℝ := fun i j =>
    lastOf (fieldLoopPotential false S P D p (cell false P i j 0)) 0 (m ((cell false P i j 0).at mPot 0))
    with hA
  have hval : ∀ (i j : Nat) (ρ : ℝ), 0 ≤ ρ → (2 * i + 1) ^ 2 + (2 * j + 1) ^ 2 = ρ ^ 2 →
      ρ < 2 * n → A i j = 1 - ρ / (2 * n) := by
    intro i j ρ h0 h1 h2
    have hrr : Real.sqrt (xPos S P D (cell false P i j 0).i * xPos S P D (cell false P i j 0).i +
        yPos S P D (cell false P i j 0).j * yPos S P D (cell false P i j 0).j) = ρ / (2 * n) := by
      rw [xPos_cell, yPos_cell, hdx, hdy, hx0, hy0, hm1, hm2]
      have hq : (0 + 1 / (n:ℝ) / 2 + (i + P.nx * ((0:ℤ):ℝ)) * (1 / n)) *
          (0 + 1 / (n:ℝ) / 2 + (i + P.nx * ((0:ℤ):ℝ)) * (1 / n)) +
          (0 + 1 / (n:ℝ) / 2 + (j + P.ny * ((0:ℤ):ℝ)) * (1 / n)) *
          (0 + 1 / (n:ℝ) / 2 + (j + P.ny * ((0:ℤ):ℝ)) * (1 / n)) = (ρ / (2 * n)) ^ 2 := by
        rw [div_pow, ← h1, Int.cast_zero]
        field_simp
        ring
      rw [hq, Real.sqrt_sq (by positivity)]
    have hl : ltb (Real.sqrt (xPos S P D (cell false P i j 0).i * xPos S P D (cell false P i j 0).i +
        yPos S P D (cell false P i j 0).j * yPos S P D (cell false P i j 0).j)) p.radius = true := by
      rw [hrr, hr]
      simp only [ROps.ltb, decide_eq_true_eq]
      rw [div_lt_one (by linarith)]
      exact h2
    have : A i j = if ltb (Real.sqrt (xPos S P D (cell false P i j 0).i *
        xPos S P D (cell false P i j 0).i + yPos S P D (cell false P i j 0).j *
        yPos S P D (cell false P i j 0).j)) p.radius then p.amplitude * (p.radius -
        Real.sqrt (xPos S P D (cell false P i j 0).i * xPos S P D (cell false P i j 0).i +
        yPos S P D (cell false P i j 0).j * yPos S P D (cell false P i j 0).j)) else lit 0 := rfl
    rw [this, if_pos hl, hrr, ha, hr, one_mul]
  have hz : ∀ j, A n j = 0 := by
    intro j
    refine loopPot_zero (d3 := false) (by decide) (Or.inl ?_) _
    rw [xPos_cell, hx0, hdx, hm1, hr, le_abs]
    left
    have : (0:ℝ) + 1 / n / 2 + (n + P.nx * ((0:ℤ):ℝ)) * (1 / n) = 1 / (2 * n) + 1 := by
      rw [Int.cast_zero]; field_simp; ring
    rw [this]
    have : (0:ℝ) < 1 / (2 * n) := by positivity
    linarith
  have s2 : Real.sqrt 2 < 2 := by
    rw [Real.sqrt_lt' (by norm_num)]; norm_num
  have s10 : Real.sqrt 10 < 4 := by
    rw [Real.sqrt_lt' (by norm_num)]; norm_num
  have e00 := hval 0 0 (Real.sqrt 2) (Real.sqrt_nonneg _)
    (by rw [Real.sq_sqrt (by norm_num)]; norm_num) (by linarith)
  have e01 := hval 0 1 (Real.sqrt 10) (Real.sqrt_nonneg _)
    (by rw [Real.sq_sqrt (by norm_num)]; norm_num) (by linarith)
  have nx : P.nx.toNat = n := by rw [hx]; rfl
  have ny : P.ny.toNat = n := by rw [hy]; rfl
  have hin : ∀ {a b : Nat}, a < n → b < n → P.inner false (cell false P a b 0) := fun ha hb =>
    (mcell_box h (by decide) (nx ▸ ha) (ny ▸ hb) (k := 0) (by simp [depth])).2
  have h1 : n - 1 < n := by omega
  have h2 : n - 1 + 1 = n := by omega
  rw [setup_div h r (by omega) (by omega) (by simp), nx, ny, h2, Nat.mod_self,
    Nat.mod_eq_of_lt (show 0 + 1 < n by omega), loop_val (hin (by omega) (by omega)) (by simp),
    loop_val (hin h1 (by omega)) (by simp), loop_val (hin h1 (by omega)) (by simp),
    loop_val (hin h1 (by omega)) (by simp)]
  simp only [Bool.false_eq_true, if_false, (curl2_cell _ _ _ _ _).1, (curl2_cell _ _ _ _ _).2, h2]
  have key : (((A 0 1 - A 0 0) / S.dy - (A (n - 1) 1 - A (n - 1) 0) / S.dy) / S.dx +
      (-(A n 1 - A (n - 1) 1) / S.dx - -(A n 0 - A (n - 1) 0) / S.dx) / S.dy + 0) =
      -(n * (Real.sqrt 10 - Real.sqrt 2) / 2) := by
    rw [hz, hz, e00, e01, hdx, hdy]
    field_simp
    ring
  exact key

/-- **C100**: and the divergence is still there at the end of the run. -/
theorem C100_loop_cut_run {p : FieldLoopParams ℝ} {n : Nat} {impl : Int} {xmin : ℝ} {m0 : Addr → ℝ}
    (h : BoxSetup false 8 3 P (Sides.all .periodic)) (hv : ValidMhd false S)
    (himpl : impl = 0 ∨ impl = 1)
    (hx : P.nx = n) (hy : P.ny = n) (hdx : S.dx = 1 / n) (hdy : S.dy = 1 / n)
    (hD : D.xmin = 0 ∧ D.ymin = 0 ∧ D.i_mpi = 0 ∧ D.j_mpi = 0) (hr : p.radius = 1)
    (ha : p.amplitude = 1) (r0 : Runs (mhdSetup false S P D (.fieldLoop p)) m m0)
    {l : List (ℝ × MJunk ℝ)} (r : MhdSteps false S P xmin impl 0 l m0 m') :
    divBPeriodic false S P m' (bufIn l.length) (n - 1) 0 0 < 0 := by
  have hn : 3 ≤ n := by
    have h1 := h.gw
    have h2 := h.nx
    rw [hx] at h2
    omega
  have nx : P.nx.toNat = n := by rw [hx]; rfl
  have ny : P.ny.toNat = n := by rw [hy]; rfl
  have e := divB_periodic_run h hv himpl r (i := n - 1) (j := 0) (k := 0) (by omega) (by omega) (by simp)
  rw [Nat.zero_add] at e
  have e0 : divBPeriodic false S P m0 (bufIn 0) (n - 1) 0 0 = _ :=
    C100_loop_cut h hx hy hdx hdy hD hr ha r0
  rw [e, e0]
  have : Real.sqrt 2 < Real.sqrt 10 := Real.sqrt_lt_sqrt (by norm_num) (by norm_num)
  have hn' : (0:ℝ) < n := by exact_mod_cast (by omega : 0 < n)
  have := mul_pos hn' (sub_pos.2 this)
  linarith

/-- A box where this happens. -/
example : BoxSetup false 8 3 ⟨4, 4, 1, 3, 8, 3, 3, 3, 3, 3, 3⟩ (Sides.all .periodic) := by
  constructor <;> first | (intro h; cases h) | rfl | simp

end Verif
