import Verif.Lemmas.MhdWave
import Verif.Props.C100_InitField
import Mathlib.Analysis.SpecialFunctions.Trigonometric.Bounds

/-!
# C108: the linear wave of the MHD solver

`WaveParams` and `InitWaveFunctor3D_MHD` (`src/shared/problems/WaveParams.h`,
`src/muscl/MHDInitFunctors3D.h:1034-1308`).
-/

namespace Verif

open Spec ROps TOps

/-- The gas the wave travels through: density 1, pressure `p`, field `(1, √2, 1/2)`, velocity `V` along the wave
vector; conservative variables. -/
noncomputable def waveBase (γ p V : ℝ) : MState ℝ := mhdConserved γ ⟨1, p, V, 0, 0, 1, √2, 1 / 2⟩

/-- The disturbance the program adds for a wave of type `t`. -/
def waveShape (t : Int) : MState ℝ :=
  ⟨(waveRev t 0 : ℚ), (waveRev t 4 : ℚ), (waveRev t 1 : ℚ), (waveRev t 2 : ℚ), (waveRev t 3 : ℚ), 0,
    (waveRev t 5 : ℚ), (waveRev t 6 : ℚ)⟩

/-- Speed of a wave of type `t`: fast, Alfvén, slow and contact wave. -/
noncomputable def waveSpeed (t : Int) : ℝ := if t = 0 then -2 else if t = 1 then -1 else if t = 2 then -1 / 2 else 1

theorem sqrt2_bounds : 141421356 / 100000000 < √(2 : ℝ) ∧ √(2 : ℝ) < 141421357 / 100000000 ∧ √(2 : ℝ) ^ 2 = 2 := by
  refine ⟨Real.lt_sqrt_of_sq_lt (by norm_num), ?_, Real.sq_sqrt (by norm_num)⟩
  rw [Real.sqrt_lt' (by norm_num)]
  norm_num

theorem isWave_iff {γ ε s p V : ℝ} (hγ : γ - 1 ≠ 0) (t : Int) :
    IsWave γ ε s (waveBase γ p V) (waveShape t) ↔
      let D := waveD γ p V 1 √2 (1 / 2) (waveShape t)
      let δ := waveShape t
      |D.d - s * δ.d| ≤ ε ∧ |D.p - s * δ.p| ≤ ε ∧ |D.u - s * δ.u| ≤ ε ∧ |D.v - s * δ.v| ≤ ε ∧
        |D.w - s * δ.w| ≤ ε ∧ |D.a - s * δ.a| ≤ ε ∧ |D.b - s * δ.b| ≤ ε ∧ |D.c - s * δ.c| ≤ ε := by
  have f := fluxDeriv_wave hγ p V 1 √2 (1 / 2) (δ := waveShape t) rfl
  constructor
  · rintro ⟨D, g, h⟩
    have e : D = waveD γ p V 1 √2 (1 / 2) (waveShape t) := by
      have h1 := g.d.unique f.d
      have h2 := g.p.unique f.p
      have h3 := g.u.unique f.u
      have h4 := g.v.unique f.v
      have h5 := g.w.unique f.w
      have h6 := g.a.unique f.a
      have h7 := g.b.unique f.b
      have h8 := g.c.unique f.c
      cases D
      simp only at h1 h2 h3 h4 h5 h6 h7 h8
      rw [h1, h2, h3, h4, h5, h6, h7, h8]
    rw [e] at h
    exact h
  · exact fun h => ⟨_, f, h⟩

/-- **C108**: with `gamma0 = 5/3` the disturbance of each type is a wave of the linearised MHD equations, to the
precision of the constants in the source. -/
theorem C108_eigenvector {t : Int} (ht : t = 0 ∨ t = 1 ∨ t = 2 ∨ t = 3) :
    IsWave (5 / 3) 1e-6 (waveSpeed t) (waveBase (5 / 3) (3 / 5) (if t = 3 then 1 else 0)) (waveShape t) := by
  rw [isWave_iff (by norm_num)]
  obtain ⟨l, u, q⟩ := sqrt2_bounds
  rcases ht with rfl | rfl | rfl | rfl <;>
    simp (decide := true) only [waveD, waveDp, waveShape, waveRev, waveSpeed, if_true, if_false, q] <;>
    generalize √(2 : ℝ) = r at l u <;> norm_num [abs_le] <;>
    (repeat' apply And.intro) <;> linarith

/-- **C108**: whatever `gamma0` and the pressure, the contact wave is one exactly. -/
theorem C108_contact {γ : ℝ} (hγ : γ ≠ 1) (p : ℝ) : IsWave γ 0 1 (waveBase γ p 1) (waveShape 3) := by
  rw [isWave_iff (sub_ne_zero.2 hγ)]
  simp (decide := true) only [waveD, waveDp, waveShape, waveRev, if_true, if_false]
  norm_num

/-- **C108**: whatever the pressure, and for every `gamma0` up to 10, the Alfvén wave is one. -/
theorem C108_alfven {γ : ℝ} (hγ : 1 < γ) (hγ' : γ ≤ 10) (p : ℝ) :
    IsWave γ 1e-6 (-1) (waveBase γ p 0) (waveShape 1) := by
  rw [isWave_iff (sub_pos.2 hγ).ne']
  obtain ⟨l, u, -⟩ := sqrt2_bounds
  simp (decide := true) only [waveD, waveDp, waveShape, waveRev, if_true, if_false]
  generalize √(2 : ℝ) = r at l u
  norm_num [abs_le]
  have h1 : r * (3333333 / 10000000) - 942809 / 2000000 ≤ 1 / 10000000 := by linarith
  have h2 : -(1 / 10000000) ≤ r * (3333333 / 10000000) - 942809 / 2000000 := by linarith
  refine ⟨⟨?_, ?_⟩, ?_, ?_⟩ <;> first | linarith | nlinarith

/-- **C108** is false for other values of `gamma0` (with the pressure `1 / gamma0` of the program, or any
other): the disturbances of type 0 and 2 are waves, of whatever speed, only when `gamma0` is 5/3. -/
theorem C108_gamma {γ p s ε : ℝ} (hγ : 1 < γ) (hε : 0 ≤ ε) (hγ' : γ ≤ 10) {t : Int} (ht : t = 0 ∨ t = 2)
    (h : IsWave γ ε s (waveBase γ p 0) (waveShape t)) : |γ - 5 / 3| ≤ 10 * ε + 1e-5 := by
  rw [isWave_iff (sub_pos.2 hγ).ne'] at h
  obtain ⟨h1, -, h2, -⟩ := h
  obtain ⟨l, u, -⟩ := sqrt2_bounds
  rw [abs_le] at h1 h2 ⊢
  rcases ht with rfl | rfl <;>
    simp (decide := true) only [waveD, waveDp, waveShape, waveRev, if_true, if_false] at h1 h2 <;>
    generalize √(2 : ℝ) = r at l u h2 <;> norm_num at h1 h2 ⊢
  · constructor <;> nlinarith
  · constructor <;> nlinarith

section state

/-- The frame of the wave. -/
def waveFrame (p : WaveParams ℝ) : Dir → Dir → ℝ
  | .x => Dir.pick (p.cos_a2 * p.cos_a3) (p.cos_a2 * p.sin_a3) p.sin_a2
  | .y => Dir.pick (-p.sin_a3) p.cos_a3 0
  | .z => Dir.pick (-p.sin_a2 * p.cos_a3) (-p.sin_a2 * p.sin_a3) p.cos_a2

structure WaveMade (g a : ℝ) (t : Int) (p : WaveParams ℝ) : Prop where
  s2 : p.sin_a2 ^ 2 + p.cos_a2 ^ 2 = 1
  s3 : p.sin_a3 ^ 2 + p.cos_a3 ^ 2 = 1
  amp : p.wave_amplitude = a
  V0 : p.wave_V0 = if t = 3 then 1 else 0
  rev : ∀ n, p.rev n = (waveRev t n : ℝ)
  d0 : p.d0 = 1
  p0 : p.p0 = 1 / g
  dby : p.dby = a * (waveRev t 5 : ℝ)
  dbz : p.dbz = a * (waveRev t 6 : ℝ)
  bx0 : p.bx0 = 1
  by0 : p.by0 = √2
  bz0 : p.bz0 = 1 / 2

theorem wave_made {p : WaveParams ℝ} {Lx Ly Lz g a : ℝ} {t : Int}
    (h : WaveParams.make Lx Ly Lz g a t = some p) : WaveMade g a t p := by
  unfold WaveParams.make at h
  by_cases ht : t = 0 ∨ t = 1 ∨ t = 2 ∨ t = 3
  swap
  · rw [if_neg ht] at h; cases h
  rw [if_pos ht] at h
  obtain rfl := Option.some.inj h
  constructor <;> simp only [TOps.sin, TOps.cos, Real.sin_sq_add_cos_sq] <;> rops
  all_goals first | rfl | (intro n; rfl) | (split_ifs <;> norm_num) | norm_num

theorem waveFrame_frame {p : WaveParams ℝ} {g a : ℝ} {t : Int} (h : WaveMade g a t p) : Frame (waveFrame p) := by
  have h2 := h.s2
  have h3 := h.s3
  constructor
  · intro a
    cases a <;> simp only [sum3, waveFrame, Dir.pick]
    · linear_combination p.cos_a2 ^ 2 * h3 + h2
    · linear_combination h3
    · linear_combination p.sin_a2 ^ 2 * h3 + h2
  · intro a b hab
    cases a <;> cases b <;> first | exact (hab rfl).elim | skip
    all_goals simp only [sum3, waveFrame, Dir.pick]
    · ring
    · linear_combination -p.cos_a2 * p.sin_a2 * h3
    · ring
    · ring
    · linear_combination -p.cos_a2 * p.sin_a2 * h3
    · ring
  · intro a
    cases a <;> simp only [waveFrame, next, Dir.pick]
    · ring
    · ring
    · linear_combination -p.cos_a2 * h3

/-- The slope of the sampled wave. -/
noncomputable def chord (k n h : ℝ) : ℝ := 2 * Real.sin (k * n * h / 2) / (k * h)

theorem chord_near {k n h H : ℝ} (hk : k ≠ 0) (hh : h ≠ 0) (hn : |n| ≤ 1) (hH : |h| ≤ H) :
    |chord k n h - n| ≤ (k * H) ^ 2 / 24 := by
  have e : chord k n h - n = 2 / (k * h) * -(k * n * h / 2 - Real.sin (k * n * h / 2)) := by
    unfold chord; field_simp; ring
  rw [e, abs_mul, abs_neg, abs_div]
  have b := Real.abs_sub_sin_le (k * n * h / 2)
  have hkh : 0 < |k * h| := abs_pos.2 (mul_ne_zero hk hh)
  have e2 : |k * n * h / 2| = |k * h| * |n| / 2 := by
    rw [abs_div, show k * n * h = k * h * n by ring, abs_mul, abs_two]
  rw [e2] at b
  have hn3 : |n| ^ 3 ≤ 1 := pow_le_one₀ (abs_nonneg n) hn
  have hsq : |k * h| ^ 2 ≤ (k * H) ^ 2 := by
    rw [sq_abs, mul_pow, mul_pow]
    exact mul_le_mul_of_nonneg_left (by rw [← sq_abs h]; exact pow_le_pow_left₀ (abs_nonneg _) hH 2) (sq_nonneg k)
  calc |2| / |k * h| * |k * n * h / 2 - Real.sin (k * n * h / 2)|
      ≤ |2| / |k * h| * ((|k * h| * |n| / 2) ^ 3 / 6) := by gcongr
    _ = |k * h| ^ 2 * |n| ^ 3 / 24 := by rw [abs_two]; field_simp; ring
    _ ≤ |k * h| ^ 2 * 1 / 24 := by gcongr
    _ ≤ (k * H) ^ 2 / 24 := by rw [mul_one]; gcongr

/-- Differences of the potential. -/
theorem pot_chord {p : WaveParams ℝ} (hk : p.k_par ≠ 0) {h : ℝ} (hh : h ≠ 0) (x1 x2 x3 u1 u2 u3 : ℝ) :
    let n := u1 * (p.cos_a2 * p.cos_a3) + u2 * (p.cos_a2 * p.sin_a3) + u3 * p.sin_a2
    let s := Real.sin (p.k_par * (p.cos_a2 * p.cos_a3 * (x1 + h / 2 * u1) +
      p.cos_a2 * p.sin_a3 * (x2 + h / 2 * u2) + p.sin_a2 * (x3 + h / 2 * u3)))
    (wavePot p (x1 + h * u1) (x2 + h * u2) (x3 + h * u3)).1 =
      (wavePot p x1 x2 x3).1 + h * (p.bz0 * n + p.dbz * s * chord p.k_par n h) ∧
    (wavePot p (x1 + h * u1) (x2 + h * u2) (x3 + h * u3)).2 = (wavePot p x1 x2 x3).2 +
      h * (-p.by0 * n - p.dby * s * chord p.k_par n h + p.bx0 * (-u1 * p.sin_a3 + u2 * p.cos_a3)) := by
  intro n s
  have key : Real.cos (p.k_par * ((x1 + h * u1) * p.cos_a2 * p.cos_a3 + (x2 + h * u2) * p.cos_a2 * p.sin_a3 +
        (x3 + h * u3) * p.sin_a2)) =
      Real.cos (p.k_par * (x1 * p.cos_a2 * p.cos_a3 + x2 * p.cos_a2 * p.sin_a3 + x3 * p.sin_a2)) -
      s * (p.k_par * h * chord p.k_par n h) := by
    have e : p.k_par * h * chord p.k_par n h = 2 * Real.sin (p.k_par * n * h / 2) := by
      unfold chord; field_simp
    have := Real.cos_sub_cos (p.k_par * ((x1 + h * u1) * p.cos_a2 * p.cos_a3 +
      (x2 + h * u2) * p.cos_a2 * p.sin_a3 + (x3 + h * u3) * p.sin_a2))
      (p.k_par * (x1 * p.cos_a2 * p.cos_a3 + x2 * p.cos_a2 * p.sin_a3 + x3 * p.sin_a2))
    rw [e, eq_sub_iff_add_eq, ← sub_eq_zero, add_sub_right_comm, this]
    have e1 : (p.k_par * ((x1 + h * u1) * p.cos_a2 * p.cos_a3 +
      (x2 + h * u2) * p.cos_a2 * p.sin_a3 + (x3 + h * u3) * p.sin_a2) +
      p.k_par * (x1 * p.cos_a2 * p.cos_a3 + x2 * p.cos_a2 * p.sin_a3 + x3 * p.sin_a2)) / 2 =
      p.k_par * (p.cos_a2 * p.cos_a3 * (x1 + h / 2 * u1) +
      p.cos_a2 * p.sin_a3 * (x2 + h / 2 * u2) + p.sin_a2 * (x3 + h / 2 * u3)) := by ring
    have e2 : (p.k_par * ((x1 + h * u1) * p.cos_a2 * p.cos_a3 +
      (x2 + h * u2) * p.cos_a2 * p.sin_a3 + (x3 + h * u3) * p.sin_a2) -
      p.k_par * (x1 * p.cos_a2 * p.cos_a3 + x2 * p.cos_a2 * p.sin_a3 + x3 * p.sin_a2)) / 2 =
      p.k_par * n * h / 2 := by simp only [n]; ring
    rw [e1, e2]
    ring
  simp only [wavePot, TOps.cos, key]
  constructor
  · simp only [n]; field_simp; ring
  · simp only [n]; field_simp; ring

/-- Bound on the error of the field. -/
theorem wave_err {a s r5 r6 α β α' β' x y K : ℝ} (hs : |s| ≤ 1) (hα : |α| ≤ 1) (hβ : |β| ≤ 1) (hα' : |α'| ≤ 1)
    (hβ' : |β'| ≤ 1) (hx : |x| ≤ K / 24) (hy : |y| ≤ K / 24) :
    |a * s * (r5 * (α * x + β * y) + r6 * (α' * x + β' * y))| ≤ |a| * (|r5| + |r6|) * K / 12 := by
  have two : ∀ {α β : ℝ}, |α| ≤ 1 → |β| ≤ 1 → |α * x + β * y| ≤ K / 12 := by
    intro α β hα hβ
    refine (abs_add_le _ _).trans ?_
    rw [abs_mul, abs_mul]
    have h1 := mul_le_mul hα hx (abs_nonneg _) zero_le_one
    have h2 := mul_le_mul hβ hy (abs_nonneg _) zero_le_one
    linarith
  have hK : 0 ≤ K / 12 := (abs_nonneg _).trans (two hα hβ)
  rw [abs_mul, abs_mul]
  have hr : |r5 * (α * x + β * y) + r6 * (α' * x + β' * y)| ≤ (|r5| + |r6|) * (K / 12) := by
    refine (abs_add_le _ _).trans ?_
    rw [abs_mul, abs_mul, add_mul]
    exact add_le_add (mul_le_mul_of_nonneg_left (two hα hβ) (abs_nonneg _))
      (mul_le_mul_of_nonneg_left (two hα' hβ') (abs_nonneg _))
  calc _ ≤ |a| * 1 * ((|r5| + |r6|) * (K / 12)) := by gcongr
    _ = _ := by ring

variable {S : MSettings ℝ} {P : Grid} {B : Sides} {D : Domain ℝ} {m m' : Addr → ℝ}

theorem wave_pots (p : WaveParams ℝ) (c : Cell) (x : ℝ) :
    let X := xPos S P D c.i
    let Y := yPos S P D c.j
    let Z := zPos S P D c.k
    lastOf (wavePotential S P D p c) 0 x = -(wavePot p X (Y - S.dy / 2) (Z - S.dz / 2)).1 * p.sin_a3 -
      (wavePot p X (Y - S.dy / 2) (Z - S.dz / 2)).2 * p.sin_a2 * p.cos_a3 ∧
    lastOf (wavePotential S P D p c) 1 x = (wavePot p (X - S.dx / 2) Y (Z - S.dz / 2)).1 * p.cos_a3 -
      (wavePot p (X - S.dx / 2) Y (Z - S.dz / 2)).2 * p.sin_a2 * p.sin_a3 ∧
    lastOf (wavePotential S P D p c) 2 x = (wavePot p (X - S.dx / 2) (Y - S.dy / 2) Z).2 * p.cos_a2 := by
  have e : (lit 2 : ℝ) = 2 := by rops
  simp (decide := true) only [wavePotential, lastOf, List.foldl, if_true, if_false, e]

/-- **C108**: after the set-up of the wave problem the conservative variables are those of a plane wave of the given
amplitude, with one period along each edge of the box. -/
theorem C108_plane_wave (h : BoxSetup true 8 3 P B) (hx : S.dx ≠ 0) (hy : S.dy ≠ 0) (hz : S.dz ≠ 0)
    {p : WaveParams ℝ} {L : Dir → ℝ} {g a : ℝ} {t : Int} (hL : ∀ b, 0 < L b)
    (hp : WaveParams.make (L .x) (L .y) (L .z) g a t = some p) (r : Runs (mhdSetup true S P D (.wave p)) m m') :
    ∃ e k, Frame e ∧ (∀ b, k * (e .x b * L b) = 2 * Real.pi) ∧
      PlaneWave S P D m' aU e k a (waveBase S.gamma0 (1 / g) (if t = 3 then 1 else 0)) (waveShape t) := by
  have w := wave_made hp
  obtain ⟨kx, ky, kz⟩ := wave_fit (hL .x) (hL .y) (hL .z) hp
  have hk : p.k_par ≠ 0 := by
    rintro e
    rw [e, zero_mul] at kx
    exact absurd kx (by positivity)
  have le1 : ∀ {x y : ℝ}, x ^ 2 + y ^ 2 = 1 → |x| ≤ 1 ∧ |y| ≤ 1 := fun {x y} hxy =>
    ⟨abs_le_one_iff_mul_self_le_one.2 (by nlinarith [sq_nonneg y]),
      abs_le_one_iff_mul_self_le_one.2 (by nlinarith [sq_nonneg x])⟩
  obtain ⟨bs2, bc2⟩ := le1 w.s2
  obtain ⟨bs3, bc3⟩ := le1 w.s3
  have mul1 : ∀ {x y : ℝ}, |x| ≤ 1 → |y| ≤ 1 → |x * y| ≤ 1 := fun {x y} h1 h2 => by
    rw [abs_mul]; exact mul_le_one₀ h1 (abs_nonneg _) h2
  have neg1 : ∀ {x : ℝ}, |x| ≤ 1 → |-x| ≤ 1 := fun {x} h1 => by rwa [abs_neg]
  have zero1 : |(0 : ℝ)| ≤ 1 := by norm_num
  refine ⟨waveFrame p, p.k_par, waveFrame_frame w, fun b => ?_, ?_⟩
  · cases b <;> simp only [waveFrame, Dir.pick]
    · rw [← kx]; ring
    · rw [← ky]; ring
    · rw [← kz]; ring
  intro i j l hi hj hl phase x q
  have hd : l < depth true P := by simpa [depth] using hl
  have val := fun v hv => setup_cell h r hi hj hd (v := v) hv
  have inn := (mcell_box h (by decide) hi hj hd).2
  have hX : ∀ i j l, xPos S P D (cell true P i j l).i = centre D.xmin S.dx P.nx D.i_mpi i := fun i j l => by
    rw [xPos_cell]; unfold centre; push_cast; ring
  have hY : ∀ i j l, yPos S P D (cell true P i j l).j = centre D.ymin S.dy P.ny D.j_mpi j := fun i j l => by
    rw [yPos_cell]; unfold centre; push_cast; ring
  have hZ : ∀ i j l, zPos S P D (cell true P i j l).k = centre D.zmin S.dz P.nz D.k_mpi l := fun i j l => by
    rw [zPos_cell]; unfold centre; push_cast; ring
  have up : ∀ (xm dx : ℝ) n d (i : Nat), centre xm dx n d (i + 1) = centre xm dx n d i + dx := fun _ _ _ _ _ => by
    unfold centre; push_cast; ring
  have flow : ∀ v, v < 5 → m' ((cell true P i j l).at aU v) = lastOf (waveList S P D p (cell true P i j l)) v
      (m ((cell true P i j l).at aU v)) := by
    intro v hv
    rw [val v (by omega)]
    have : ¬ (v = IA ∨ v = IB ∨ v = IC) := by simp only [IA, IB, IC]; omega
    simp only [initVal, if_true, if_neg this]
    rw [waveFlow_eq, if_pos inn, stores_at]
  have field : ∀ v, v = IA ∨ v = IB ∨ v = IC → m' ((cell true P i j l).at aU v) =
      lastOf (curlList3 S (fun c n => lastOf (wavePotential S P D p c) n (m (c.at mPot n)))
        (cell true P i j l)) v (m ((cell true P i j l).at aU v)) := by
    intro v hv
    rw [val v (by rcases hv with rfl | rfl | rfl <;> decide)]
    simp only [initVal, if_true, if_pos hv]
  have h2 := w.s2
  have h3 := w.s3
  have eX : p.cos_a2 * (x .x * p.cos_a3 + x .y * p.sin_a3) + x .z * p.sin_a2 =
      sum3 fun b => waveFrame p .x b * x b := by
    simp only [sum3, waveFrame, Dir.pick]; ring
  have ph : ∀ R : ℝ, a * sin (p.k_par * (p.cos_a2 * (centre D.xmin S.dx P.nx D.i_mpi i * p.cos_a3 +
      centre D.ymin S.dy P.ny D.j_mpi j * p.sin_a3) + centre D.zmin S.dz P.nz D.k_mpi l * p.sin_a2)) * R =
      phase x * R := fun R => by
    show a * Real.sin (p.k_par * (p.cos_a2 * (x .x * p.cos_a3 + x .y * p.sin_a3) + x .z * p.sin_a2)) * R = _
    rw [eX]
  have l1 : (lit (1 / 2) : ℝ) = 1 / 2 := by rops
  have l2 : (lit 1 : ℝ) = 1 := by rops
  have hV : ((if t = 3 then 1 else 0 : ℝ)) = p.wave_V0 := w.V0.symm
  refine ⟨?_, ?_, ?_, ?_⟩
  · show m' ((cell true P i j l).at aU ID) = _
    rw [flow ID (by decide)]
    simp (decide := true) only [waveList, lastOf, List.foldl, if_true, if_false, hX, hY, hZ, w.amp, w.rev, w.d0, ph]
    rfl
  · show m' ((cell true P i j l).at aU IE) = _
    rw [flow IE (by decide)]
    simp (decide := true) only [waveList, lastOf, List.foldl, if_true, if_false, hX, hY, hZ, w.amp, w.rev, w.d0, ph,
      l1, l2, w.p0, w.bx0, w.by0, w.bz0, waveBase, waveShape, mhdConserved, mhdEnergy, fieldSq, hV]
    ring
  · intro b
    cases b
    · show m' ((cell true P i j l).at aU IU) = _
      rw [flow IU (by decide)]
      simp (decide := true) only [waveList, lastOf, List.foldl, if_true, if_false, hX, hY, hZ, w.amp, w.rev, w.d0,
        ph, hV, sum3, waveFrame, Dir.pick, vel, waveBase, waveShape, mhdConserved]
      ring
    · show m' ((cell true P i j l).at aU IV) = _
      rw [flow IV (by decide)]
      simp (decide := true) only [waveList, lastOf, List.foldl, if_true, if_false, hX, hY, hZ, w.amp, w.rev, w.d0,
        ph, hV, sum3, waveFrame, Dir.pick, vel, waveBase, waveShape, mhdConserved]
      ring
    · show m' ((cell true P i j l).at aU IW) = _
      rw [flow IW (by decide)]
      simp (decide := true) only [waveList, lastOf, List.foldl, if_true, if_false, hX, hY, hZ, w.amp, w.rev, w.d0,
        ph, hV, sum3, waveFrame, Dir.pick, vel, waveBase, waveShape, mhdConserved]
      ring
  · intro b H hH
    have nx := chord_near (H := H) hk hx (mul1 bc2 bc3) (hH .x)
    have ny := chord_near (H := H) hk hy (mul1 bc2 bs3) (hH .y)
    have nz := chord_near (H := H) hk hz bs2 (hH .z)
    set X := centre D.xmin S.dx P.nx D.i_mpi i with eXc
    set Y := centre D.ymin S.dy P.ny D.j_mpi j with eYc
    set Z := centre D.zmin S.dz P.nz D.k_mpi l with eZc
    have sh : ∀ y d : ℝ, y + d - d / 2 = y - d / 2 + d := fun _ _ => by ring
    have s1 : ∀ T : ℝ, |Real.sin T| ≤ 1 := Real.abs_sin_le_one
    have px := fun x1 x2 x3 => pot_chord hk hx x1 x2 x3 1 0 0
    have py := fun x1 x2 x3 => pot_chord hk hy x1 x2 x3 0 1 0
    have pz := fun x1 x2 x3 => pot_chord hk hz x1 x2 x3 0 0 1
    simp only [mul_zero, add_zero, zero_mul, zero_add, mul_one, one_mul, neg_zero] at px py pz
    have q1 : ∀ h u v c : ℝ, h ≠ 0 → ((u + h * v) * c - u * c) / h = v * c := fun h u v c hh => by
      field_simp; ring
    have q2 : ∀ h u v u' v' c s c' : ℝ, h ≠ 0 →
        ((u + h * v) * c - (u' + h * v') * s * c' - (u * c - u' * s * c')) / h = v * c - v' * s * c' :=
      fun h u v u' v' c s c' hh => by field_simp; ring
    have q0 : ∀ h u v u' v' c s c' : ℝ, h ≠ 0 →
        (-(u + h * v) * c - (u' + h * v') * s * c' - (-u * c - u' * s * c')) / h = -v * c - v' * s * c' :=
      fun h u v u' v' c s c' hh => by field_simp; ring
    cases b
    · have hv : mag q .x = m' ((cell true P i j l).at aU IA) := rfl
      rw [hv, field IA (by decide), (curl3_cell _ _ _ _ _).1]
      simp only [wave_pots, hX, hY, hZ, up, ← eXc, ← eYc, ← eZc, sh, (py _ _ _).2, (pz _ _ _).1, (pz _ _ _).2,
        sub_add_cancel, q1 _ _ _ _ hy, q2 _ _ _ _ _ _ _ _ hz]
      simp (decide := true) only [phase, sum3, waveFrame, Dir.pick, mag, cellSize, x, Spec.midpoint, ← eXc, ← eYc,
        ← eZc, if_true, if_false, waveBase, waveShape, mhdConserved, w.bx0, w.by0, w.bz0, w.dby, w.dbz]
      generalize hT : Real.sin (p.k_par * (p.cos_a2 * p.cos_a3 * (X - S.dx / 2) + p.cos_a2 * p.sin_a3 * Y +
        p.sin_a2 * Z)) = T
      refine le_of_eq_of_le (congrArg abs ?_) (wave_err (s := T) (a := a) (hT ▸ s1 _) (neg1 bc2)
        (neg1 (mul1 bs2 bs3)) zero1 (neg1 bc3) ny nz)
      linear_combination -(√2 + a * T * (waveRev t 5 : ℝ)) * p.sin_a3 * h2
    · have hv : mag q .y = m' ((cell true P i j l).at aU IB) := rfl
      rw [hv, field IB (by decide), (curl3_cell _ _ _ _ _).2.1]
      simp only [wave_pots, hX, hY, hZ, up, ← eXc, ← eYc, ← eZc, sh, (px _ _ _).2, (pz _ _ _).1, (pz _ _ _).2,
        sub_add_cancel, q1 _ _ _ _ hx, q0 _ _ _ _ _ _ _ _ hz]
      simp (decide := true) only [phase, sum3, waveFrame, Dir.pick, mag, cellSize, x, Spec.midpoint, ← eXc, ← eYc,
        ← eZc, if_true, if_false, waveBase, waveShape, mhdConserved, w.bx0, w.by0, w.bz0, w.dby, w.dbz]
      generalize hT : Real.sin (p.k_par * (p.cos_a2 * p.cos_a3 * X + p.cos_a2 * p.sin_a3 * (Y - S.dy / 2) +
        p.sin_a2 * Z)) = T
      refine le_of_eq_of_le (congrArg abs ?_) (wave_err (s := T) (a := a) (hT ▸ s1 _) bc2
        (mul1 bs2 bc3) zero1 (neg1 bs3) nx nz)
      linear_combination (√2 + a * T * (waveRev t 5 : ℝ)) * p.cos_a3 * h2
    · have hv : mag q .z = m' ((cell true P i j l).at aU IC) := rfl
      rw [hv, field IC (by decide), (curl3_cell _ _ _ _ _).2.2]
      simp only [wave_pots, hX, hY, hZ, up, ← eXc, ← eYc, ← eZc, sh, (px _ _ _).1, (px _ _ _).2, (py _ _ _).1, (py _ _ _).2,
        sub_add_cancel, q2 _ _ _ _ _ _ _ _ hx, q0 _ _ _ _ _ _ _ _ hy]
      simp (decide := true) only [phase, sum3, waveFrame, Dir.pick, mag, cellSize, x, Spec.midpoint, ← eXc, ← eYc,
        ← eZc, if_true, if_false, waveBase, waveShape, mhdConserved, w.bx0, w.by0, w.bz0, w.dby, w.dbz]
      generalize hT : Real.sin (p.k_par * (p.cos_a2 * p.cos_a3 * X + p.cos_a2 * p.sin_a3 * Y +
        p.sin_a2 * (Z - S.dz / 2))) = T
      refine le_of_eq_of_le (congrArg abs ?_) (wave_err (s := T) (a := a) (hT ▸ s1 _) (mul1 bs2 bs3)
        (neg1 (mul1 bs2 bc3)) bc3 bs3 nx ny)
      linear_combination (p.cos_a2 / 2 + p.sin_a2 + a * T * (waveRev t 6 : ℝ) * p.cos_a2) * h3

/-- The hypotheses of `C108_plane_wave` hold: the parameters are accepted for types 0 to 3, and the set-up runs. -/
example (D : Domain ℝ) (m : Addr → ℝ) (t : Int) (ht : t = 0 ∨ t = 1 ∨ t = 2 ∨ t = 3) :
    ∃ (p : WaveParams ℝ) (m' : Addr → ℝ) (e : Dir → Dir → ℝ) (k : ℝ), WaveParams.make 4 3 3 2 1 t = some p ∧
      Runs (mhdSetup true mhdSettings (mhdBox .periodic) D (.wave p)) m m' ∧
      PlaneWave mhdSettings (mhdBox .periodic) D m' aU e k 1
        (waveBase mhdSettings.gamma0 (1 / 2) (if t = 3 then 1 else 0)) (waveShape t) := by
  obtain ⟨p, hp⟩ : ∃ p : WaveParams ℝ, WaveParams.make 4 3 3 2 1 t = some p := by
    unfold WaveParams.make
    rw [if_pos ht]
    exact ⟨_, rfl⟩
  obtain ⟨m1, m2, y, -⟩ := mhd_setup (S := mhdSettings) (D := D) (impl := 0) (mhdBox_setup true .periodic)
    (.wave p) m
  obtain ⟨e, k, -, -, h⟩ := C108_plane_wave (mhdBox_setup true .periodic) (S := mhdSettings)
    (by norm_num [mhdSettings, exampleMhd, exampleSettings]) (by norm_num [mhdSettings, exampleMhd, exampleSettings])
    (by norm_num [mhdSettings, exampleMhd, exampleSettings]) (L := Dir.pick 4 3 3)
    (by intro b; cases b <;> norm_num [Dir.pick]) hp y.run
  exact ⟨p, m2, e, k, hp, y.run, h⟩

/-- **C108** is false when `gamma0` is not given: the solver takes 7/5 (`src/shared/HydroParams.cpp:158`), `WaveParams`
1.66667 (`src/shared/problems/WaveParams.h:45`), and the fast and slow disturbances are not waves. -/
theorem C108_default_wrong (p s : ℝ) {t : Int} (ht : t = 0 ∨ t = 2) :
    ¬ IsWave (7 / 5) (1 / 100) s (waveBase (7 / 5) p 0) (waveShape t) := by
  intro h
  have := C108_gamma (by norm_num) (by norm_num) (by norm_num) ht h
  rw [abs_le] at this
  norm_num at this

end state

end Verif
