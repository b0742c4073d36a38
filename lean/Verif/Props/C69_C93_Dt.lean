import Verif.Lemmas.OtherDt
import Verif.Props.C32_C59_Dt
import Verif.Props.C34_C36_MhdStep
import Verif.Props.C39_C68_Euler
import Verif.Props.C45_C73_MoodStep
import Verif.Props.C85_C89_SdmStep

/-!
# C69, C76, C92, C93: time steps of the MHD, MOOD and spectral difference solvers

`MhdComputeDtLocal`, `Mood.ComputeDtLocal`, `Sdm.ComputeDtLocal`: `compute_dt_local` of the three solvers can
return `dt`.  `bot`: the value every thread's maximum starts with (for MHD the lowest number, otherwise the
smallest positive normal number or `-inf`).  `Inside d3 P c`: `c` is an interior cell.
-/

namespace Verif

open Spec ROps

/-! ### C93 conversion to primitive variables in MHD -/

/-- The interior cells hold the magnetised gas `Q`: the conserved variables are those of `Q c`, the field of `Q c`
is the mean of the field on opposite faces; in 2D the third component is stored at the centre. -/
structure Spec.HoldsMhd (d3 : Bool) (P : Grid) (S : MSettings ℝ) (U : Nat) (m : Addr → ℝ)
    (Q : Cell → MState ℝ) : Prop where
  floor : ∀ c, Inside d3 P c → S.smallr ≤ (Q c).d ∧ (Q c).d * S.smallp ≤ (Q c).p
  gas : ∀ c, Inside d3 P c → m (c.at U 0) = (Q c).d ∧ m (c.at U 1) = mhdEnergy S.gamma0 (Q c) ∧
    m (c.at U 2) = (Q c).d * (Q c).u ∧ m (c.at U 3) = (Q c).d * (Q c).v ∧
    m (c.at U 4) = (Q c).d * (Q c).w
  a : ∀ c, Inside d3 P c → (m (c.at U 5) + m ((c.up .x).at U 5)) / 2 = (Q c).a
  b : ∀ c, Inside d3 P c → (m (c.at U 6) + m ((c.up .y).at U 6)) / 2 = (Q c).b
  c3 : ∀ c, Inside d3 P c → d3 = true → (m (c.at U 7) + m ((c.up .z).at U 7)) / 2 = (Q c).c
  c2 : ∀ c, Inside d3 P c → d3 = false → m (c.at U 7) = (Q c).c

variable {d3 : Bool} {P : Grid} {B : Sides} {bot dt : ℝ} {m m' : Addr → ℝ}

section mhd

variable {S : MSettings ℝ} {Q : Cell → MState ℝ} {it : Nat}

theorem inside_convertible (hg : 3 ≤ P.ghostWidth) {c : Cell} (hc : Inside d3 P c) :
    P.convertible d3 c := by
  have h1 := hc.2
  unfold Grid.inner at h1
  unfold Grid.convertible
  refine ⟨fun h => ?_, ?_⟩
  · have := h1.1 h; omega
  · omega

/-- What the conversion of the code makes of a gas: in 2D the third component of the field is halved, and the
difference of magnetic energy becomes pressure. -/
noncomputable def convertedMhd (d3 : Bool) (γ : ℝ) (q : MState ℝ) : MState ℝ :=
  if d3 then q else { q with c := q.c / 2, p := q.p + (γ - 1) * (3 / 8 * q.c ^ 2) }

theorem convert_gas (h : BoxSetup d3 8 3 P B) (hS : MhdParams S) (hiso : S.cIso ≤ 0)
    (hQ : HoldsMhd d3 P S (bufIn it) m Q)
    (r : (convertToPrimitivesMhd d3 S P (bufIn it) aQ).Run m m') {c : Cell} (hc : Inside d3 P c) :
    mfield m' aQ c = convertedMhd d3 S.gamma0 (Q c) := by
  have ok : MhdOk d3 P 0 (bufIn it) (bufOut it) := mhdOk_of h (.inl rfl)
  obtain ⟨m2, y, e, -⟩ := mhd_convert (S := S) ok.toMhdBuf m
  obtain rfl := y.unique _ r
  rw [e c hc.1 (inside_convertible h.gw hc)]
  obtain ⟨f1, f2⟩ := hQ.floor c hc
  obtain ⟨g0, g1, g2, g3, g4⟩ := hQ.gas c hc
  have ha := hQ.a c hc
  have hb := hQ.b c hc
  have hd : 0 < (Q c).d := lt_of_lt_of_le hS.smallr f1
  have hd' := hd.ne'
  have hγ : S.gamma0 - 1 ≠ 0 := by have := hS.gamma; linarith
  have ha' : 1 / 2 * (m (c.at (bufIn it) 5) + m ((c.up .x).at (bufIn it) 5)) = (Q c).a := by
    rw [← ha]; ring
  have hb' : 1 / 2 * (m (c.at (bufIn it) 6) + m ((c.up .y).at (bufIn it) 6)) = (Q c).b := by
    rw [← hb]; ring
  unfold primOf constoprim_mhd convertedMhd
  rops
  rw [if_neg (not_lt.2 hiso)]
  simp only [mfield, g0, g1, g2, g3, g4, max_eq_left f1, mul_div_cancel_left₀ _ hd']
  cases d3
  · have hcc := hQ.c2 c hc rfl
    have hp : (Q c).d * S.smallp ≤ (Q c).p + (S.gamma0 - 1) * (3 / 8 * (Q c).c ^ 2) := by
      have : 0 < S.gamma0 - 1 := by have := hS.gamma; linarith
      have : 0 ≤ (S.gamma0 - 1) * (3 / 8 * (Q c).c ^ 2) := by positivity
      linarith
    simp only [Bool.false_eq_true, if_false, ha', hb', hcc]
    have e : (S.gamma0 - 1) * (Q c).d * ((mhdEnergy S.gamma0 (Q c) - 1 / 2 * ((Q c).a * (Q c).a +
        (Q c).b * (Q c).b + 1 / 2 * ((Q c).c + 0) * (1 / 2 * ((Q c).c + 0)))) / (Q c).d -
        1 / 2 * ((Q c).u * (Q c).u + (Q c).v * (Q c).v + (Q c).w * (Q c).w)) =
        (Q c).p + (S.gamma0 - 1) * (3 / 8 * (Q c).c ^ 2) := by
      unfold mhdEnergy fieldSq
      field_simp
      ring
    ext <;> simp only []
    · rw [e, max_eq_left hp]
    · ring
  · have hcc := hQ.c3 c hc rfl
    have hc' : 1 / 2 * (m (c.at (bufIn it) 7) + m ((c.up .z).at (bufIn it) 7)) = (Q c).c := by
      rw [← hcc]; ring
    simp only [if_true, ha', hb', hc']
    have e : (S.gamma0 - 1) * (Q c).d * ((mhdEnergy S.gamma0 (Q c) - 1 / 2 * ((Q c).a * (Q c).a +
        (Q c).b * (Q c).b + (Q c).c * (Q c).c)) / (Q c).d -
        1 / 2 * ((Q c).u * (Q c).u + (Q c).v * (Q c).v + (Q c).w * (Q c).w)) = (Q c).p := by
      unfold mhdEnergy fieldSq
      field_simp
      ring
    ext <;> simp only []
    rw [e, max_eq_left f2]

/-- **C93**: in 3D `convertToPrimitives` recovers the gas in every interior cell; in 2D it does so if the gas has no
field component out of the plane. -/
theorem C93_conversion (h : BoxSetup d3 8 3 P B) (hS : MhdParams S) (hiso : S.cIso ≤ 0)
    (hQ : HoldsMhd d3 P S (bufIn it) m Q)
    (r : (convertToPrimitivesMhd d3 S P (bufIn it) aQ).Run m m') {c : Cell} (hc : Inside d3 P c)
    (hz : d3 = true ∨ (Q c).c = 0) (v : ℕ) (hv : v < 8) : m' (c.at aQ v) = (Q c).get v := by
  have e := convert_gas h hS hiso hQ r hc
  have e2 : convertedMhd d3 S.gamma0 (Q c) = Q c := by
    unfold convertedMhd
    rcases hz with rfl | hz
    · rfl
    · cases d3
      · simp only [Bool.false_eq_true, if_false, hz]
        ext <;> simp [hz]
      · rfl
  rw [← mfield_get m' aQ c hv, e, e2]

/-- **C93 fails in 2D with a field out of the plane**: the primitive field is half the field, and the pressure too
large by `3/8 (γ-1) Bz²`. -/
theorem C93_conversion_2d (h : BoxSetup false 8 3 P B) (hS : MhdParams S) (hiso : S.cIso ≤ 0)
    (hQ : HoldsMhd false P S (bufIn it) m Q)
    (r : (convertToPrimitivesMhd false S P (bufIn it) aQ).Run m m') {c : Cell} (hc : Inside false P c)
    (hz : (Q c).c ≠ 0) :
    m' (c.at aQ 7) = (Q c).c / 2 ∧ m' (c.at aQ 7) ≠ (Q c).c ∧
    m' (c.at aQ 1) = (Q c).p + (S.gamma0 - 1) * (3 / 8 * (Q c).c ^ 2) ∧ (Q c).p < m' (c.at aQ 1) := by
  have e := convert_gas h hS hiso hQ r hc
  have e7 : m' (c.at aQ 7) = (Q c).c / 2 := congrArg MState.c e
  have e1 : m' (c.at aQ 1) = (Q c).p + (S.gamma0 - 1) * (3 / 8 * (Q c).c ^ 2) := congrArg MState.p e
  refine ⟨e7, ?_, e1, ?_⟩
  · rw [e7]
    intro h
    exact hz (by linarith)
  · rw [e1]
    have : 0 < S.gamma0 - 1 := by have := hS.gamma; linarith
    have : 0 < (S.gamma0 - 1) * (3 / 8 * (Q c).c ^ 2) := by positivity
    linarith

/-! ### C92 the MHD time step -/

/-- Signal rate of a magnetised gas: sum over directions of (|velocity| + fast speed) / spacing. -/
noncomputable def Spec.mhdSignalRate (d3 : Bool) (S : MSettings ℝ) (cf : Dir → ℝ) (q : MState ℝ) : ℝ :=
  (|q.u| + cf .x) / S.dx + (|q.v| + cf .y) / S.dy + (if d3 then (|q.w| + cf .z) / S.dz else 0)

/-- `cf d` is the fast speed along direction `d`. -/
def Spec.FastSpeeds (d3 : Bool) (γ : ℝ) (q : MState ℝ) (cf : Dir → ℝ) : Prop :=
  ∀ d, d3 = true ∨ d ≠ .z → FastWave γ q (q.getB d) (cf d)

theorem cflRateMhd_eq (hg : 0 < S.gamma0) {q : MState ℝ} (hq : Physical q) {cf : Dir → ℝ}
    (hc : FastSpeeds d3 S.gamma0 q cf) : cflRateMhd d3 S q = mhdSignalRate d3 S cf q := by
  have hs : 0 < soundSq S.gamma0 q := div_pos (mul_pos hg hq.p) hq.d
  obtain ⟨⟨-, x⟩, ⟨-, y⟩, ⟨-, z⟩⟩ := C38_fast hg q hq
  have ex := fastWave_unique hs x (hc .x (.inr (by decide)))
  have ey := fastWave_unique hs y (hc .y (.inr (by decide)))
  unfold cflRateMhd mhdSignalRate find_speed_info_dirs
  unfold find_speed_fast_x at ex
  unfold find_speed_fast_y at ey
  simp only [ex, ey]
  cases d3
  · simp only [Bool.false_eq_true, if_false]
    rops
    ring
  · have ez := fastWave_unique hs z (hc .z (.inl rfl))
    unfold find_speed_fast_z at ez
    simp only [ez, if_true]
    rops
    ring

theorem mhdSignalRate_pos (hs : Spacings d3 S.toSettings) {q : MState ℝ} {cf : Dir → ℝ}
    (hc : FastSpeeds d3 S.gamma0 q cf) : 0 < mhdSignalRate d3 S cf q := by
  have h1 := hs.dx
  have h2 := hs.dy
  have x := (hc .x (.inr (by decide))).pos
  have y := (hc .y (.inr (by decide))).pos
  have hz : 0 ≤ (if d3 then (|q.w| + cf .z) / S.dz else 0) := by
    cases d3
    · simp
    · have := hs.dz rfl
      have z := (hc .z (.inl rfl)).pos
      simp only [if_true]; positivity
  unfold mhdSignalRate
  have : 0 < (|q.u| + cf .x) / S.dx + (|q.v| + cf .y) / S.dy := by positivity
  linarith

theorem exists_inside {nv : ℕ} {w : Int} (h : BoxSetup d3 nv w P B) (hw : 0 < w) :
    ∃ c, Inside d3 P c := by
  have hg := h.gw
  have hnx := h.nx
  have hny := h.ny
  refine ⟨_, mcell_box h hw.le (i := 0) (j := 0) (k := 0) (by omega) (by omega) ?_⟩
  unfold depth
  cases d3
  · simp
  · have := h.nz rfl; simp; omega

/-- **C92**: the interior holds a gas `Q`, `convertToPrimitives` runs, then `compute_dt_local`.  In 3D, and in 2D
without field out of the plane, `dt·((|u|+cx)/dx + (|v|+cy)/dy (+ (|w|+cz)/dz))` is at most `cfl` in every cell
and equal to it in some cell; `cx`, `cy`, `cz` are the speeds of the fast magnetosonic wave. -/
theorem C92_cfl (h : BoxSetup d3 8 3 P B) (hS : MhdParams S) (hiso : S.cIso ≤ 0)
    (hs : Spacings d3 S.toSettings) (hcfl : 0 ≤ S.cfl) (hbot : bot ≤ 0)
    (hQ : HoldsMhd d3 P S (bufIn it) m Q) (hz : d3 = true ∨ ∀ c, Inside d3 P c → (Q c).c = 0)
    {cf : Cell → Dir → ℝ} (hcf : ∀ c, Inside d3 P c → FastSpeeds d3 S.gamma0 (Q c) (cf c))
    (r : (convertToPrimitivesMhd d3 S P (bufIn it) aQ).Run m m')
    (rdt : MhdComputeDtLocal bot d3 S P m' dt) :
    (∀ c, Inside d3 P c → dt * mhdSignalRate d3 S (cf c) (Q c) ≤ S.cfl) ∧
    ∃ c, Inside d3 P c ∧ dt * mhdSignalRate d3 S (cf c) (Q c) = S.cfl := by
  have hg : 0 < S.gamma0 := by have := hS.gamma; linarith
  have rate : ∀ c, Inside d3 P c →
      cflRateMhd d3 S (mfield m' aQ c) = mhdSignalRate d3 S (cf c) (Q c) := by
    intro c hc
    have e : mfield m' aQ c = Q c := by
      have key := C93_conversion h hS hiso hQ r hc (hz.imp id fun k => k c hc)
      ext
      · exact key 0 (by decide)
      · exact key 1 (by decide)
      · exact key 2 (by decide)
      · exact key 3 (by decide)
      · exact key 4 (by decide)
      · exact key 5 (by decide)
      · exact key 6 (by decide)
      · exact key 7 (by decide)
    obtain ⟨f1, f2⟩ := hQ.floor c hc
    have hd : 0 < (Q c).d := lt_of_lt_of_le hS.smallr f1
    rw [e, cflRateMhd_eq hg ⟨hd, lt_of_lt_of_le (mul_pos hd hS.smallp) f2⟩ (hcf c hc)]
  obtain ⟨M, ⟨h1, h2⟩, rfl⟩ := mhdDt_greatest rdt
  obtain ⟨c0, hc0⟩ := exists_inside h (by decide)
  have hle : ∀ c, Inside d3 P c → mhdSignalRate d3 S (cf c) (Q c) ≤ M := fun c hc =>
    h2 (.inr ⟨c, hc, (rate c hc).symm⟩)
  have hM : 0 < M := lt_of_lt_of_le (mhdSignalRate_pos hs (hcf c0 hc0)) (hle c0 hc0)
  refine ⟨fun c hc => ?_, ?_⟩
  · rw [div_mul_eq_mul_div, div_le_iff₀ hM]
    exact mul_le_mul_of_nonneg_left (hle c hc) hcfl
  · rcases h1 with h1 | ⟨c, hc, h1⟩
    · linarith
    · exact ⟨c, hc, by rw [← rate c hc, ← h1, div_mul_cancel₀ _ hM.ne']⟩

/-- **C92**: the time step depends on the state only, not on threads and their order. -/
theorem C92_unique {dt' : ℝ} (r : MhdComputeDtLocal bot d3 S P m dt)
    (r' : MhdComputeDtLocal bot d3 S P m dt') : dt = dt' := by
  obtain ⟨M, h, rfl⟩ := mhdDt_greatest r
  obtain ⟨M', h', rfl⟩ := mhdDt_greatest r'
  rw [h.unique h']

/-- **C92 fails in 2D with a field out of the plane**: for a gas at rest with the same state everywhere, field
`(0, 0, Bz)`, `Bz ≠ 0` and `γ < 2`, the time step exceeds the CFL limit. -/
theorem C92_exceeds_2d (h : BoxSetup false 8 3 P B) (hS : MhdParams S) (hiso : S.cIso ≤ 0)
    (hγ : S.gamma0 < 2) (hs : Spacings false S.toSettings) (hcfl : 0 < S.cfl) (hbot : bot ≤ 0)
    {d p bz : ℝ} (hbz : bz ≠ 0) (hQ : HoldsMhd false P S (bufIn it) m fun _ => ⟨d, p, 0, 0, 0, 0, 0, bz⟩)
    {cf : Dir → ℝ} (hcf : FastSpeeds false S.gamma0 ⟨d, p, 0, 0, 0, 0, 0, bz⟩ cf)
    (r : (convertToPrimitivesMhd false S P (bufIn it) aQ).Run m m')
    (rdt : MhdComputeDtLocal bot false S P m' dt) :
    S.cfl < dt * mhdSignalRate false S cf ⟨d, p, 0, 0, 0, 0, 0, bz⟩ := by
  have hg1 := hS.gamma
  have hg : 0 < S.gamma0 := by linarith
  obtain ⟨c0, hc0⟩ := exists_inside h (by decide)
  obtain ⟨f1, f2⟩ := hQ.floor c0 hc0
  have hd : 0 < d := lt_of_lt_of_le hS.smallr f1
  have hp : 0 < p := lt_of_lt_of_le (mul_pos hd hS.smallp) f2
  have hdx := hs.dx
  have hdy := hs.dy
  set q : MState ℝ := convertedMhd false S.gamma0 ⟨d, p, 0, 0, 0, 0, 0, bz⟩ with hq
  have eq : q = ⟨d, p + (S.gamma0 - 1) * (3 / 8 * bz ^ 2), 0, 0, 0, 0, 0, bz / 2⟩ := by
    rw [hq]; rfl
  have hb2 : 0 < bz ^ 2 := by positivity
  have across : ∀ (s : MState ℝ), s.a = 0 → s.b = 0 → 0 < s.d → 0 < s.p →
      fastSpeed S s 0 = Real.sqrt (S.gamma0 * s.p / s.d + s.c ^ 2 / s.d) := by
    intro s ha hb hd hp
    rw [fastSpeed_real]
    congr 1
    have hn : 0 ≤ 1 / 2 * ((s.a * s.a + s.b * s.b + s.c * s.c) / s.d + S.gamma0 * s.p / s.d) := by
      have := mul_self_nonneg s.a
      have := mul_self_nonneg s.b
      have := mul_self_nonneg s.c
      positivity
    unfold fastSq fastDisc
    simp only [mul_zero, zero_div, sub_zero]
    rw [Real.sqrt_mul_self hn, ha, hb]
    ring
  -- the rate the code computes
  have hqd : q.d = d := by rw [eq]
  have hqp : 0 < q.p := by
    rw [eq]
    have : 0 < S.gamma0 - 1 := by linarith
    positivity
  have rate : cflRateMhd false S q = fastSpeed S q 0 / S.dx + fastSpeed S q 0 / S.dy := by
    unfold cflRateMhd find_speed_info_dirs
    simp only [Bool.false_eq_true, if_false, eq]
    rops
    simp
  have hlt : fastSpeed S q 0 < fastSpeed S ⟨d, p, 0, 0, 0, 0, 0, bz⟩ 0 := by
    rw [across q (by rw [eq]) (by rw [eq]) (by rw [hqd]; exact hd) hqp,
      across ⟨d, p, 0, 0, 0, 0, 0, bz⟩ rfl rfl hd hp, eq]
    apply Real.sqrt_lt_sqrt
    · have : 0 < S.gamma0 - 1 := by linarith
      positivity
    · simp only []
      rw [← add_div, ← add_div, div_lt_div_iff_of_pos_right hd]
      nlinarith [mul_pos (mul_pos hg hb2) (sub_pos.2 hγ), mul_pos hb2 (sub_pos.2 hγ)]
  have hF : Physical (⟨d, p, 0, 0, 0, 0, 0, bz⟩ : MState ℝ) := ⟨hd, hp⟩
  have erate := cflRateMhd_eq (d3 := false) hg hF hcf
  have etrue : cflRateMhd false S (⟨d, p, 0, 0, 0, 0, 0, bz⟩ : MState ℝ) =
      fastSpeed S ⟨d, p, 0, 0, 0, 0, 0, bz⟩ 0 / S.dx + fastSpeed S ⟨d, p, 0, 0, 0, 0, 0, bz⟩ 0 / S.dy := by
    unfold cflRateMhd find_speed_info_dirs
    simp only [Bool.false_eq_true, if_false]
    rops
    simp
  rw [← erate, etrue]
  have hpos : 0 < fastSpeed S q 0 := by
    refine fastSpeed_pos ⟨by rw [hqd]; exact hd, hqp⟩ hg ?_
    unfold fieldSq
    have := sq_nonneg q.a
    have := sq_nonneg q.b
    have := sq_nonneg q.c
    nlinarith
  obtain ⟨M, ⟨h1, h2⟩, rfl⟩ := mhdDt_greatest rdt
  have all : ∀ c, Inside false P c → mfield m' aQ c = q := fun c hc => convert_gas h hS hiso hQ r hc
  have hr : 0 < cflRateMhd false S q := by rw [rate]; positivity
  have hM : M = cflRateMhd false S q := by
    have k := h2 (.inr ⟨c0, hc0, rfl⟩)
    rw [all c0 hc0] at k
    rcases h1 with h1 | ⟨c, hc, h1⟩
    · linarith
    · rw [h1, all c hc]
  rw [hM, rate, div_mul_eq_mul_div, lt_div_iff₀ (by positivity)]
  refine mul_lt_mul_of_pos_left ?_ hcfl
  have a1 := div_lt_div_of_pos_right hlt hdx
  have a2 := div_lt_div_of_pos_right hlt hdy
  linarith

end mhd

/-! ### C76 the time step of the MOOD solver -/

section mood

variable {S : Settings ℝ} {w : Int} {it degree : ℕ} {ssprk3 : Bool} {lay : Layout}
  {Q : Nat → Nat → Nat → HState ℝ}

/-- The set of signal rates in the interior. -/
def Spec.rates (d3 : Bool) (S : Settings ℝ) (P : Grid) (Q : Nat → Nat → Nat → HState ℝ) : Set ℝ :=
  {x | ∃ i j k, i < P.nx.toNat ∧ j < P.ny.toNat ∧ k < depth d3 P ∧
    x = signalRate d3 S (soundSpeed S.gamma0 (Q i j k)) (Q i j k)}

theorem nonempty_of_box {nv : ℕ} (h : BoxSetup d3 nv w P B) (hw : 0 < w) : Mood.Nonempty3 d3 P := by
  have hg := h.gw
  have hx := h.nx
  have hy := h.ny
  refine ⟨?_, ?_, fun h3 => ?_⟩
  · simp only [Grid.isize, Grid.imax, Grid.imin]; omega
  · simp only [Grid.jsize, Grid.jmax, Grid.jmin]; omega
  · have := h.nz h3; simp only [Grid.ksize, Grid.kmax, Grid.kmin]; omega

theorem inside_cell {c : Cell} (hc : Inside d3 P c) :
    ∃ i j k, i < P.nx.toNat ∧ j < P.ny.toNat ∧ k < depth d3 P ∧ c = cell d3 P i j k := by
  have hb2 := box_iff.1 hc.1
  have hi2 := inner_iff.1 hc.2
  refine ⟨(c.i - P.ghostWidth).toNat, (c.j - P.ghostWidth).toNat,
    if d3 then (c.k - P.ghostWidth).toNat else 0, by omega, by omega, ?_, ?_⟩
  · unfold depth
    cases d3
    · simp
    · simp only [if_true, forall_true_left] at hi2 ⊢; omega
  · unfold cell
    cases d3
    · simp only [Bool.false_eq_true, if_false] at hb2 ⊢
      ext <;> simp only <;> omega
    · simp only [if_true, forall_true_left] at hi2 ⊢
      ext <;> simp only <;> omega

/-- **C76**: with the largest signal rate `M` (or the start value `bot` of the maximum, if that is larger), `dt` is
`cfl/M`, raised to the power `(degree+1)/3` if `degree ≥ 2` and the integrator is ssprk3. -/
theorem C76_dt {nv : ℕ} (h : BoxSetup d3 nv w P B) (hw : 0 < w) (hS : GasParams S)
    (hQ : Holds d3 P S (bufIn it) m Q)
    (r : Mood.ComputeDtLocal (fun x y => x ^ y) bot lay d3 degree ssprk3 S P it m dt) :
    ∃ M, IsGreatest (insert bot (rates d3 S P Q)) M ∧
      dt = if 2 ≤ degree ∧ ssprk3 = true then (S.cfl / M) ^ (((degree : ℝ) + 1) / 3) else S.cfl / M := by
  obtain ⟨M, hM, e⟩ := moodDt_greatest (nonempty_of_box h hw) r
  refine ⟨M, ?_, e⟩
  convert hM using 2
  ext x
  have key : ∀ {i j k : ℕ}, i < P.nx.toNat → j < P.ny.toNat → k < depth d3 P →
      cflRate d3 S (field d3 m (bufIn it) (cell d3 P i j k)) =
        signalRate d3 S (soundSpeed S.gamma0 (Q i j k)) (Q i j k) := by
    intro i j k a1 a2 a3
    rw [cflRate_eq, hQ.primitives hS a1 a2 a3]
  constructor
  · rintro ⟨i, j, k, a1, a2, a3, rfl⟩
    exact ⟨_, mcell_box h hw.le a1 a2 a3, (key a1 a2 a3).symm⟩
  · rintro ⟨c, hc, rfl⟩
    obtain ⟨i, j, k, a1, a2, a3, rfl⟩ := inside_cell hc
    exact ⟨i, j, k, a1, a2, a3, key a1 a2 a3⟩

theorem rates_pos (hS : GasParams S) (hs : Spacings d3 S) {U : Nat} (hQ : Holds d3 P S U m Q) {x : ℝ}
    (hx : x ∈ rates d3 S P Q) : 0 < x := by
  obtain ⟨i, j, k, a1, a2, a3, rfl⟩ := hx
  obtain ⟨f, -, -⟩ := hQ i j k a1 a2 a3
  have hd : 0 < (Q i j k).d := lt_of_lt_of_le hS.smallr f.d
  have hp : 0 < (Q i j k).p := lt_of_lt_of_le (mul_pos hd hS.smallp) f.p
  have hg := hS.gamma
  refine signalRate_pos hs ?_ _
  unfold soundSpeed
  exact Real.sqrt_pos.2 (by positivity)

theorem greatest_pos {X : Set ℝ} (hX : X.Nonempty) (hpos : ∀ x ∈ X, 0 < x) {M : ℝ}
    (h : IsGreatest (insert bot X) M) : 0 < M := by
  obtain ⟨x, hx⟩ := hX
  exact lt_of_lt_of_le (hpos x hx) (h.2 (.inr hx))

theorem rates_nonempty {nv : ℕ} (h : BoxSetup d3 nv w P B) (hw : 0 < w) (S : Settings ℝ)
    (Q : Nat → Nat → Nat → HState ℝ) : (rates d3 S P Q).Nonempty := by
  obtain ⟨c, hc⟩ := exists_inside h hw
  obtain ⟨i, j, k, a1, a2, a3, rfl⟩ := inside_cell hc
  exact ⟨_, i, j, k, a1, a2, a3, rfl⟩

/-- **C76**: unless the time step is rescaled it honours the CFL condition in every cell, with equality in one
(if the maximum is not below the start value). -/
theorem C76_cfl {nv : ℕ} (h : BoxSetup d3 nv w P B) (hw : 0 < w) (hS : GasParams S) (hs : Spacings d3 S)
    (hcfl : 0 ≤ S.cfl) (hQ : Holds d3 P S (bufIn it) m Q) (hno : ¬ (2 ≤ degree ∧ ssprk3 = true))
    (r : Mood.ComputeDtLocal (fun x y => x ^ y) bot lay d3 degree ssprk3 S P it m dt) :
    (∀ x ∈ rates d3 S P Q, dt * x ≤ S.cfl) ∧
    ((∃ x ∈ rates d3 S P Q, bot ≤ x) → ∃ x ∈ rates d3 S P Q, dt * x = S.cfl) := by
  obtain ⟨M, hM, e⟩ := C76_dt h hw hS hQ r
  rw [if_neg hno] at e
  have hpos := greatest_pos (rates_nonempty h hw S Q) (fun x hx => rates_pos hS hs hQ hx) hM
  refine ⟨fun x hx => ?_, fun ⟨y, hy, hb⟩ => ?_⟩
  · rw [e, div_mul_eq_mul_div, div_le_iff₀ hpos]
    exact mul_le_mul_of_nonneg_left (hM.2 (.inr hx)) hcfl
  · rcases hM.1 with h1 | h1
    · have := hM.2 (.inr hy)
      refine ⟨y, hy, ?_⟩
      rw [e, show y = M by linarith, div_mul_cancel₀ _ hpos.ne']
    · exact ⟨M, h1, by rw [e, div_mul_cancel₀ _ hpos.ne']⟩

/-- **C76, rescaled time step**: the CFL condition holds if there is a cell with signal rate at least `cfl`, that is,
if the time step is at most one unit of time. -/
theorem C76_rescaled {nv : ℕ} (h : BoxSetup d3 nv w P B) (hw : 0 < w) (hS : GasParams S) (hs : Spacings d3 S)
    (hcfl : 0 < S.cfl) (hQ : Holds d3 P S (bufIn it) m Q) (hdeg : 2 ≤ degree)
    (hbig : ∃ x ∈ rates d3 S P Q, S.cfl ≤ x)
    (r : Mood.ComputeDtLocal (fun x y => x ^ y) bot lay d3 degree true S P it m dt) :
    ∀ x ∈ rates d3 S P Q, dt * x ≤ S.cfl := by
  obtain ⟨M, hM, e⟩ := C76_dt h hw hS hQ r
  rw [if_pos ⟨hdeg, rfl⟩] at e
  have hpos := greatest_pos (rates_nonempty h hw S Q) (fun x hx => rates_pos hS hs hQ hx) hM
  intro x hx
  obtain ⟨y, hy, hyc⟩ := hbig
  have hMc : S.cfl ≤ M := hyc.trans (hM.2 (.inr hy))
  have hdt : 0 ≤ dt := by rw [e]; positivity
  have e1 := pow_rate hcfl hpos degree
  rw [← e] at e1
  have : (S.cfl / M) ^ (((degree : ℝ) - 2) / 3) ≤ 1 := by
    refine Real.rpow_le_one (by positivity) ((div_le_one hpos).2 hMc) ?_
    have : (2 : ℝ) ≤ degree := by exact_mod_cast hdeg
    linarith
  calc dt * x ≤ dt * M := mul_le_mul_of_nonneg_left (hM.2 (.inr hx)) hdt
    _ = S.cfl * (S.cfl / M) ^ (((degree : ℝ) - 2) / 3) := e1
    _ ≤ S.cfl * 1 := mul_le_mul_of_nonneg_left this hcfl.le
    _ = S.cfl := mul_one _

/-- **C76 fails for a rescaled time step above one unit of time**: if all signal rates are below `cfl` and
`degree ≥ 3`, the time step exceeds the CFL limit in some cell, by the factor `(cfl/x)^((degree-2)/3)`. -/
theorem C76_rescaled_exceeds {nv : ℕ} (h : BoxSetup d3 nv w P B) (hw : 0 < w) (hS : GasParams S)
    (hs : Spacings d3 S) (hcfl : 0 < S.cfl) (hQ : Holds d3 P S (bufIn it) m Q) (hdeg : 3 ≤ degree)
    (hsmall : ∀ x ∈ rates d3 S P Q, x < S.cfl) (hbot : ∃ x ∈ rates d3 S P Q, bot ≤ x)
    (r : Mood.ComputeDtLocal (fun x y => x ^ y) bot lay d3 degree true S P it m dt) :
    ∃ x ∈ rates d3 S P Q, dt * x = S.cfl * (S.cfl / x) ^ (((degree : ℝ) - 2) / 3) ∧ S.cfl < dt * x := by
  obtain ⟨M, hM, e⟩ := C76_dt h hw hS hQ r
  rw [if_pos ⟨by omega, rfl⟩] at e
  have hpos := greatest_pos (rates_nonempty h hw S Q) (fun x hx => rates_pos hS hs hQ hx) hM
  obtain ⟨y, hy, hb⟩ := hbot
  have hMr : M ∈ rates d3 S P Q := by
    rcases hM.1 with h1 | h1
    · have := hM.2 (.inr hy)
      rwa [show M = y by linarith]
    · exact h1
  have e1 := pow_rate hcfl hpos degree
  rw [← e] at e1
  refine ⟨M, hMr, e1, ?_⟩
  rw [e1]
  have : 1 < (S.cfl / M) ^ (((degree : ℝ) - 2) / 3) := by
    refine Real.one_lt_rpow ((one_lt_div hpos).2 (hsmall M hMr)) ?_
    have : (3 : ℝ) ≤ degree := by exact_mod_cast hdeg
    linarith
  nlinarith

/-- **C76**: the time step depends on the state only. -/
theorem C76_unique (hp : Mood.Nonempty3 d3 P) {dt' : ℝ}
    (r : Mood.ComputeDtLocal (fun x y => x ^ y) bot lay d3 degree ssprk3 S P it m dt)
    (r' : Mood.ComputeDtLocal (fun x y => x ^ y) bot lay d3 degree ssprk3 S P it m dt') : dt = dt' := by
  obtain ⟨M, h, rfl⟩ := moodDt_greatest hp r
  obtain ⟨M', h', rfl⟩ := moodDt_greatest hp r'
  rw [h.unique h']

end mood

/-! ### C69 the time step of the spectral difference solver -/

section sdm

open Sdm

variable {S : Settings ℝ} {M : Scheme ℝ} {rescale ssprk3 ssprk54 : Bool} {Q : Cell → Pt → HState ℝ}

/-- The solution points of the interior cells hold the gas `Q`, above the floors of the conversion. -/
structure Spec.HoldsSdm (M : Scheme ℝ) (P : Grid) (γ : ℝ) (m : Addr → ℝ) (Q : Cell → Pt → HState ℝ) :
    Prop where
  d : ∀ c p, Inside M.d3 P c → IsSolPt M.d3 M.N p → 1 / 100000000 ≤ (Q c p).d
  p : ∀ c p, Inside M.d3 P c → IsSolPt M.d3 M.N p → 1 / 10000000 * (Q c p).d ≤ (Q c p).p
  w : ∀ c p, Inside M.d3 P c → IsSolPt M.d3 M.N p → M.d3 = false → (Q c p).w = 0
  vals : ∀ c p iv, Inside M.d3 P c → IsSolPt M.d3 M.N p → iv < hydroVars M.d3 →
    valsOf M m sU c p iv = (conserved M.d3 γ (Q c p)).get iv

/-- The set of rates `((|u|+s)/dx + (|v|+s)/dy (+ (|w|+s)/dz))·N` over all points, where `s` is a function of the
state at the point; `dx/N` is the mean distance of the points. -/
def Spec.pointRates (M : Scheme ℝ) (S : Settings ℝ) (P : Grid) (s : HState ℝ → ℝ)
    (Q : Cell → Pt → HState ℝ) : Set ℝ :=
  {x | ∃ c p, Inside M.d3 P c ∧ IsSolPt M.d3 M.N p ∧ x = M.N * signalRate M.d3 S (s (Q c p)) (Q c p)}

theorem cflRate_sdm (hγ : 1 < S.gamma0) (hQ : HoldsSdm M P S.gamma0 m Q) {c : Cell} {p : Pt}
    (hc : Inside M.d3 P c) (hp : IsSolPt M.d3 M.N p) :
    Sdm.cflRate M.d3 M.N S (stateAt M.d3 m (M.sol sU c p)) =
      M.N * signalRate M.d3 S (S.gamma0 * (Q c p).p / (Q c p).d) (Q c p) := by
  have hd := hQ.d c p hc hp
  have hpp := hQ.p c p hc hp
  have hw := hQ.w c p hc hp
  have hv := hQ.vals c p
  have hN : (M.N : ℝ) ≠ 0 := by
    have : 0 < M.N := by have := hp.1; omega
    exact_mod_cast this.ne'
  generalize M.d3 = d3 at *
  have g : ∀ iv, iv < hydroVars d3 → m (M.sol sU c p iv) = (conserved d3 S.gamma0 (Q c p)).get iv :=
    fun iv h => hv iv hc hp h
  have g0 := g 0 (by cases d3 <;> decide)
  have g1 := g 1 (by cases d3 <;> decide)
  have g2 := g 2 (by cases d3 <;> decide)
  have g3 := g 3 (by cases d3 <;> decide)
  cases d3
  · have e : stateAt false m (M.sol sU c p) = conserved false S.gamma0 (Q c p) := by
      simp only [HState.get, stateAt, Mood.ofComps, conserved, ID, IP, IU, IV, IW] at g0 g1 g2 g3 ⊢
      ext <;> simp_all [lit]
    obtain ⟨k, -⟩ := C67_primitive_2d (Q c p) hγ hd hpp
    unfold Sdm.cflRate
    simp only [e, Bool.false_eq_true, if_false, k, Euler2.compute_speed_of_sound]
    unfold signalRate
    rops
    simp only [Bool.false_eq_true, if_false, add_zero, Rat.cast_natCast]
    field_simp
    ring
  · have g4 := g 4 (by decide)
    have e : stateAt true m (M.sol sU c p) = conserved true S.gamma0 (Q c p) := by
      simp only [HState.get, stateAt, Mood.ofComps, conserved, ID, IP, IU, IV, IW] at g0 g1 g2 g3 g4 ⊢
      ext <;> simp_all
    obtain ⟨k, -⟩ := C67_primitive_3d (Q c p) hγ (by linarith) hpp
    unfold Sdm.cflRate
    simp only [e, if_true, k, Euler3.compute_speed_of_sound]
    unfold signalRate
    rops
    simp only [if_true, Rat.cast_natCast]
    field_simp
    ring

/-- **C69**: the time step is `cfl` over the largest rate formed with the *square* of the sound speed, raised to
the power `(N+1)/3` if rescaling is on. -/
theorem C69_dt (h : Setup M P B) (hγ : 1 < S.gamma0) (hQ : HoldsSdm M P S.gamma0 m Q)
    (r : Sdm.ComputeDtLocal (fun x y => x ^ y) bot M rescale ssprk3 ssprk54 S P m dt) :
    ∃ X, IsGreatest (insert bot (pointRates M S P (fun q => soundSpeed S.gamma0 q ^ 2) Q)) X ∧
      dt = if rescale = true ∧ 2 ≤ M.N ∧ (ssprk3 = true ∨ ssprk54 = true) then
        (S.cfl / X) ^ (((M.N : ℝ) + 1) / 3) else S.cfl / X := by
  obtain ⟨X, hX, e⟩ := sdmDt_greatest (nonempty_of_box h (by decide)) r
  refine ⟨X, ?_, e⟩
  have key : ∀ {c : Cell} {p : Pt}, Inside M.d3 P c → IsSolPt M.d3 M.N p →
      Sdm.cflRate M.d3 M.N S (stateAt M.d3 m (M.sol sU c p)) =
        M.N * signalRate M.d3 S (soundSpeed S.gamma0 (Q c p) ^ 2) (Q c p) := by
    intro c p hc hp
    rw [cflRate_sdm hγ hQ hc hp]
    have hd := hQ.d c p hc hp
    have hpp := hQ.p c p hc hp
    unfold soundSpeed
    rw [Real.sq_sqrt]
    have : 0 < (Q c p).d := by linarith
    have : 0 < (Q c p).p := by nlinarith
    positivity
  convert hX using 2
  ext x
  constructor
  · rintro ⟨c, p, hc, hp, rfl⟩
    exact ⟨c, p, hc, hp, (key hc hp).symm⟩
  · rintro ⟨c, p, hc, hp, rfl⟩
    exact ⟨c, p, hc, hp, key hc hp⟩

theorem pointRates_pos (hγ : 1 < S.gamma0) (hs : Spacings M.d3 S) (hQ : HoldsSdm M P S.gamma0 m Q) {x : ℝ}
    (hx : x ∈ pointRates M S P (fun q => soundSpeed S.gamma0 q ^ 2) Q) : 0 < x := by
  obtain ⟨c, p, hc, hp, rfl⟩ := hx
  have hd := hQ.d c p hc hp
  have hpp := hQ.p c p hc hp
  have h1 : 0 < (Q c p).d := by linarith
  have h2 : 0 < (Q c p).p := by nlinarith
  have hN : (0 : ℝ) < M.N := by
    have : 0 < M.N := by have := hp.1; omega
    exact_mod_cast this
  refine mul_pos hN (signalRate_pos hs ?_ _)
  have : 0 < soundSpeed S.gamma0 (Q c p) := by
    unfold soundSpeed
    exact Real.sqrt_pos.2 (by positivity)
  positivity

theorem pointRates_nonempty (h : Setup M P B) (hN : 0 < M.N) (s : HState ℝ → ℝ) :
    (pointRates M S P s Q).Nonempty := by
  obtain ⟨c, hc⟩ := exists_inside h (by decide)
  exact ⟨_, c, ⟨0, 0, 0⟩, hc, ⟨hN, hN, by split <;> simp [hN]⟩, rfl⟩

/-- **C69**: without rescaling, and if the sound speed is at least one (in the units of the run) everywhere, the
time step honours the CFL condition at every solution point. -/
theorem C69_cfl_partial (h : Setup M P B) (hN : 0 < M.N) (hγ : 1 < S.gamma0) (hs : Spacings M.d3 S)
    (hcfl : 0 ≤ S.cfl) (hQ : HoldsSdm M P S.gamma0 m Q)
    (hfast : ∀ c p, Inside M.d3 P c → IsSolPt M.d3 M.N p → 1 ≤ soundSpeed S.gamma0 (Q c p))
    (r : Sdm.ComputeDtLocal (fun x y => x ^ y) bot M false ssprk3 ssprk54 S P m dt) :
    ∀ x ∈ pointRates M S P (soundSpeed S.gamma0) Q, dt * x ≤ S.cfl := by
  obtain ⟨X, hX, e⟩ := C69_dt h hγ hQ r
  rw [if_neg (by simp)] at e
  have hpos := greatest_pos (pointRates_nonempty h hN _) (fun x hx => pointRates_pos hγ hs hQ hx) hX
  rintro x ⟨c, p, hc, hp, rfl⟩
  have hle := hX.2 (.inr ⟨c, p, hc, hp, rfl⟩)
  have hf := hfast c p hc hp
  have hmono : signalRate M.d3 S (soundSpeed S.gamma0 (Q c p)) (Q c p) ≤
      signalRate M.d3 S (soundSpeed S.gamma0 (Q c p) ^ 2) (Q c p) := by
    have hx := hs.dx
    have hy := hs.dy
    have hsq : soundSpeed S.gamma0 (Q c p) ≤ soundSpeed S.gamma0 (Q c p) ^ 2 := by nlinarith
    unfold signalRate
    have a1 := div_le_div_of_nonneg_right (add_le_add_right hsq |(Q c p).u|) hx.le
    have a2 := div_le_div_of_nonneg_right (add_le_add_right hsq |(Q c p).v|) hy.le
    have a3 : (if M.d3 then (|(Q c p).w| + soundSpeed S.gamma0 (Q c p)) / S.dz else 0) ≤
        (if M.d3 then (|(Q c p).w| + soundSpeed S.gamma0 (Q c p) ^ 2) / S.dz else 0) := by
      split
      · rename_i h3
        exact div_le_div_of_nonneg_right (add_le_add_right hsq |(Q c p).w|) (hs.dz h3).le
      · exact le_refl _
    linarith
  rw [e, div_mul_eq_mul_div, div_le_iff₀ hpos]
  refine mul_le_mul_of_nonneg_left ?_ hcfl
  exact (mul_le_mul_of_nonneg_left hmono (Nat.cast_nonneg _)).trans hle

/-- **C69 fails for slow sound**: in a gas at rest, the same everywhere, with sound speed `a`, the time step is
`1/a` times the CFL limit. -/
theorem C69_exceeds (h : Setup M P B) (hN : 0 < M.N) (hγ : 1 < S.gamma0) (hs : Spacings M.d3 S)
    {d p : ℝ} (hQ : HoldsSdm M P S.gamma0 m fun _ _ => ⟨d, p, 0, 0, 0⟩)
    (hbot : bot ≤ M.N * signalRate M.d3 S (soundSpeed S.gamma0 ⟨d, p, 0, 0, 0⟩ ^ 2) ⟨d, p, 0, 0, 0⟩)
    (r : Sdm.ComputeDtLocal (fun x y => x ^ y) bot M false ssprk3 ssprk54 S P m dt) :
    let a := soundSpeed S.gamma0 ⟨d, p, 0, 0, 0⟩
    0 < a ∧ dt * (M.N * signalRate M.d3 S a ⟨d, p, 0, 0, 0⟩) = S.cfl / a := by
  intro a
  obtain ⟨X, hX, e⟩ := C69_dt h hγ hQ r
  rw [if_neg (by simp)] at e
  have hpos := greatest_pos (pointRates_nonempty h hN _) (fun x hx => pointRates_pos hγ hs hQ hx) hX
  obtain ⟨c, hc⟩ := exists_inside h (by decide)
  have hp0 : IsSolPt M.d3 M.N ⟨0, 0, 0⟩ := ⟨hN, hN, by split <;> simp [hN]⟩
  have hd := hQ.d c _ hc hp0
  have hpp := hQ.p c _ hc hp0
  simp only [] at hd hpp
  have h1 : 0 < d := by linarith
  have h2 : 0 < p := by nlinarith
  have ha : 0 < a := by
    show 0 < Real.sqrt _
    exact Real.sqrt_pos.2 (by simp only []; positivity)
  have eX : X = M.N * signalRate M.d3 S (a ^ 2) ⟨d, p, 0, 0, 0⟩ := by
    have hle := hX.2 (.inr ⟨c, ⟨0, 0, 0⟩, hc, hp0, rfl⟩)
    rcases hX.1 with h1 | ⟨_, _, _, _, h1⟩
    · exact le_antisymm (h1 ▸ hbot) hle
    · exact h1
  have es : signalRate M.d3 S (a ^ 2) ⟨d, p, 0, 0, 0⟩ = a * signalRate M.d3 S a ⟨d, p, 0, 0, 0⟩ := by
    unfold signalRate
    simp only [abs_zero, zero_add]
    split <;> ring
  refine ⟨ha, ?_⟩
  rw [e, eX, es]
  have hsr : 0 < signalRate M.d3 S a ⟨d, p, 0, 0, 0⟩ := signalRate_pos hs ha _
  have hNr : (0 : ℝ) < M.N := by exact_mod_cast hN
  field_simp

/-- **C69, rescaled time step**: `dt` times the largest rate is `cfl·(cfl/rate)^((N-2)/3)`, which exceeds `cfl` if
`N ≥ 3` and the time step before rescaling is above one unit of time. -/
theorem C69_rescaled (h : Setup M P B) (hN : 3 ≤ M.N) (hγ : 1 < S.gamma0) (hs : Spacings M.d3 S)
    (hcfl : 0 < S.cfl) (hQ : HoldsSdm M P S.gamma0 m Q) (hti : ssprk3 = true ∨ ssprk54 = true)
    (hsmall : ∀ x ∈ pointRates M S P (fun q => soundSpeed S.gamma0 q ^ 2) Q, x < S.cfl)
    (hbot : ∃ x ∈ pointRates M S P (fun q => soundSpeed S.gamma0 q ^ 2) Q, bot ≤ x)
    (r : Sdm.ComputeDtLocal (fun x y => x ^ y) bot M true ssprk3 ssprk54 S P m dt) :
    ∃ x ∈ pointRates M S P (fun q => soundSpeed S.gamma0 q ^ 2) Q,
      dt * x = S.cfl * (S.cfl / x) ^ (((M.N : ℝ) - 2) / 3) ∧ S.cfl < dt * x := by
  obtain ⟨X, hX, e⟩ := C69_dt h hγ hQ r
  rw [if_pos ⟨rfl, by omega, hti⟩] at e
  have hpos := greatest_pos (pointRates_nonempty h (by omega) _)
    (fun x hx => pointRates_pos hγ hs hQ hx) hX
  obtain ⟨y, hy, hb⟩ := hbot
  have hMr : X ∈ pointRates M S P (fun q => soundSpeed S.gamma0 q ^ 2) Q := by
    rcases hX.1 with h1 | h1
    · have := hX.2 (.inr hy)
      rwa [show X = y by linarith]
    · exact h1
  have e1 := pow_rate hcfl hpos M.N
  rw [← e] at e1
  refine ⟨X, hMr, e1, ?_⟩
  rw [e1]
  have : 1 < (S.cfl / X) ^ (((M.N : ℝ) - 2) / 3) := by
    refine Real.one_lt_rpow ((one_lt_div hpos).2 (hsmall X hMr)) ?_
    have : (3 : ℝ) ≤ M.N := by exact_mod_cast hN
    linarith
  nlinarith

/-- **C69**: the time step depends on the state only. -/
theorem C69_unique (h : Setup M P B) {dt' : ℝ}
    (r : Sdm.ComputeDtLocal (fun x y => x ^ y) bot M rescale ssprk3 ssprk54 S P m dt)
    (r' : Sdm.ComputeDtLocal (fun x y => x ^ y) bot M rescale ssprk3 ssprk54 S P m dt') : dt = dt' := by
  obtain ⟨X, k, rfl⟩ := sdmDt_greatest (nonempty_of_box h (by decide)) r
  obtain ⟨X', k', rfl⟩ := sdmDt_greatest (nonempty_of_box h (by decide)) r'
  rw [k.unique k']

end sdm

/-! ### Hypotheses are met -/

/-- Memory with the same magnetised gas in every cell. -/
noncomputable def uniformMhd (γ : ℝ) (q : MState ℝ) : Addr → ℝ := fun a => (mhdConserved γ q).get a.v

theorem uniformMhd_holds {d3 : Bool} {P : Grid} {S : MSettings ℝ} {U : Nat} {q : MState ℝ}
    (h1 : S.smallr ≤ q.d) (h2 : q.d * S.smallp ≤ q.p) :
    HoldsMhd d3 P S U (uniformMhd S.gamma0 q) fun _ => q where
  floor _ _ := ⟨h1, h2⟩
  gas _ _ := ⟨rfl, rfl, rfl, rfl, rfl⟩
  a _ _ := by simp [uniformMhd, Cell.at, MState.get, mhdConserved]
  b _ _ := by simp [uniformMhd, Cell.at, MState.get, mhdConserved]
  c3 _ _ _ := by simp [uniformMhd, Cell.at, MState.get, mhdConserved]
  c2 _ _ _ := rfl

theorem fastSpeeds_exist {d3 : Bool} {S : MSettings ℝ} (hg : 0 < S.gamma0) {q : MState ℝ}
    (hq : Physical q) : ∃ cf, FastSpeeds d3 S.gamma0 q cf := by
  obtain ⟨⟨-, x⟩, ⟨-, y⟩, ⟨-, z⟩⟩ := C38_fast hg q hq
  refine ⟨fun d => match d with
    | .x => find_speed_fast_x S q
    | .y => find_speed_fast_y S q
    | .z => find_speed_fast_z S q, fun d _ => ?_⟩
  cases d
  · exact x
  · exact y
  · exact z

theorem mhdDt_exists (bot : ℝ) (d3 : Bool) (S : MSettings ℝ) (P : Grid) (m : Addr → ℝ) :
    ∃ dt, MhdComputeDtLocal bot d3 S P m dt :=
  ⟨_, _, ⟨.thread (List.range _), List.Perm.refl _, rfl⟩, rfl⟩

/-- Settings with `γ = 5/3`. -/
noncomputable def mhdGas : MSettings ℝ := { mhdSettings with gamma0 := 5 / 3 }

theorem mhdGas_params : MhdParams mhdGas ∧ mhdGas.cIso ≤ 0 ∧ mhdGas.gamma0 < 2 ∧ 0 < mhdGas.cfl ∧
    ∀ d3, Spacings d3 mhdGas.toSettings := by
  refine ⟨?_, ?_, ?_, ?_, fun d3 => ?_⟩
  · constructor <;> norm_num [mhdGas, mhdSettings, exampleMhd, exampleSettings]
  · simp [mhdGas, mhdSettings, exampleMhd]
  · norm_num [mhdGas]
  · norm_num [mhdGas, mhdSettings, exampleMhd, exampleSettings]
  · constructor <;> norm_num [mhdGas, mhdSettings, exampleMhd, exampleSettings]

/-- A moving gas in a box in 3D with a field in all directions: conversion and time step happen, and the bound
holds. -/
example : ∃ m m' dt cf, (convertToPrimitivesMhd true mhdGas (mhdBox .periodic) (bufIn 0) aQ).Run m m' ∧
    MhdComputeDtLocal (-1) true mhdGas (mhdBox .periodic) m' dt ∧
    HoldsMhd true (mhdBox .periodic) mhdGas (bufIn 0) m (fun _ => ⟨1, 2, 3, -1, 2, 1, -2, 4⟩) ∧
    dt * mhdSignalRate true mhdGas cf ⟨1, 2, 3, -1, 2, 1, -2, 4⟩ ≤ mhdGas.cfl := by
  obtain ⟨p1, p2, -, p4, p5⟩ := mhdGas_params
  have hQ : HoldsMhd true (mhdBox .periodic) mhdGas (bufIn 0)
      (uniformMhd mhdGas.gamma0 ⟨1, 2, 3, -1, 2, 1, -2, 4⟩) (fun _ => ⟨1, 2, 3, -1, 2, 1, -2, 4⟩) :=
    uniformMhd_holds (by norm_num [mhdGas, mhdSettings, exampleMhd, exampleSettings])
      (by norm_num [mhdGas, mhdSettings, exampleMhd, exampleSettings])
  obtain ⟨m', y, -⟩ := mhd_convert (S := mhdGas)
    (mhdOk_of (it := 0) (impl := 0) (mhdBox_setup true .periodic) (.inl rfl)).toMhdBuf
    (uniformMhd mhdGas.gamma0 ⟨1, 2, 3, -1, 2, 1, -2, 4⟩)
  obtain ⟨dt, hdt⟩ := mhdDt_exists (-1) true mhdGas (mhdBox .periodic) m'
  obtain ⟨cf, hcf⟩ := fastSpeeds_exist (d3 := true) (S := mhdGas) (by have := p1.gamma; linarith)
    (q := ⟨1, 2, 3, -1, 2, 1, -2, 4⟩) ⟨by norm_num, by norm_num⟩
  obtain ⟨c, hc⟩ := exists_inside (mhdBox_setup true .periodic) (by decide)
  exact ⟨_, m', dt, cf, y.run, hdt, hQ,
    (C92_cfl (mhdBox_setup true .periodic) p1 p2 (p5 true) p4.le (by norm_num) hQ (.inl rfl)
      (cf := fun _ => cf) (fun _ _ => hcf) y.run hdt).1 c hc⟩

/-- The situation of `C92_exceeds_2d` occurs. -/
example : ∃ m m' dt cf, (convertToPrimitivesMhd false mhdGas (mhdBox .periodic) (bufIn 0) aQ).Run m m' ∧
    MhdComputeDtLocal (-1) false mhdGas (mhdBox .periodic) m' dt ∧
    FastSpeeds false mhdGas.gamma0 ⟨1, 1, 0, 0, 0, 0, 0, 2⟩ cf ∧
    mhdGas.cfl < dt * mhdSignalRate false mhdGas cf ⟨1, 1, 0, 0, 0, 0, 0, 2⟩ := by
  obtain ⟨p1, p2, p3, p4, p5⟩ := mhdGas_params
  have hQ : HoldsMhd false (mhdBox .periodic) mhdGas (bufIn 0)
      (uniformMhd mhdGas.gamma0 ⟨1, 1, 0, 0, 0, 0, 0, 2⟩) (fun _ => ⟨1, 1, 0, 0, 0, 0, 0, 2⟩) :=
    uniformMhd_holds (by norm_num [mhdGas, mhdSettings, exampleMhd, exampleSettings])
      (by norm_num [mhdGas, mhdSettings, exampleMhd, exampleSettings])
  obtain ⟨m', y, -⟩ := mhd_convert (S := mhdGas)
    (mhdOk_of (it := 0) (impl := 0) (mhdBox_setup false .periodic) (.inl rfl)).toMhdBuf
    (uniformMhd mhdGas.gamma0 ⟨1, 1, 0, 0, 0, 0, 0, 2⟩)
  obtain ⟨dt, hdt⟩ := mhdDt_exists (-1) false mhdGas (mhdBox .periodic) m'
  obtain ⟨cf, hcf⟩ := fastSpeeds_exist (d3 := false) (S := mhdGas) (by have := p1.gamma; linarith)
    (q := ⟨1, 1, 0, 0, 0, 0, 0, 2⟩) ⟨by norm_num, by norm_num⟩
  exact ⟨_, m', dt, cf, y.run, hdt, hcf,
    C92_exceeds_2d (mhdBox_setup false .periodic) p1 p2 p3 (p5 false) p4 (by norm_num) (by norm_num) hQ
      hcf y.run hdt⟩

/-- Settings with cells of size 100. -/
noncomputable def wideSettings : Settings ℝ := { exampleSettings with dx := 100, dy := 100, dz := 100 }

theorem sound_wide : soundSpeed wideSettings.gamma0 ⟨1, 1, 0, 0, 0⟩ ≤ 2 := by
  unfold soundSpeed wideSettings exampleSettings
  rw [Real.sqrt_le_left (by norm_num)]
  norm_num

/-- The situation of `C76_rescaled_exceeds` occurs: gas at rest on a coarse grid. -/
example : ∃ (m : Addr → ℝ) (dt x : ℝ), Mood.ComputeDtLocal (fun x y => x ^ y) (1 / 10 ^ 100) .left false 3
      true wideSettings (exampleBox false .periodic) 0 m dt ∧
    x ∈ rates false wideSettings (exampleBox false .periodic) (fun _ _ _ => ⟨1, 1, 0, 0, 0⟩) ∧
    wideSettings.cfl < dt * x := by
  have hS : GasParams wideSettings := by
    constructor <;> norm_num [wideSettings, exampleSettings]
  have hs : Spacings false wideSettings := by
    constructor <;> norm_num [wideSettings]
  have hQ : Holds false (exampleBox false .periodic) wideSettings (bufIn 0)
      (fun a => (conserved false wideSettings.gamma0 ⟨1, 1, 0, 0, 0⟩).get a.v)
      (fun _ _ _ => ⟨1, 1, 0, 0, 0⟩) := by
    intro i j k _ _ _
    exact ⟨⟨by norm_num [wideSettings, exampleSettings], by norm_num [wideSettings, exampleSettings]⟩,
      fun _ => rfl, fun v _ => rfl⟩
  obtain ⟨dt, hdt⟩ : ∃ dt, Mood.ComputeDtLocal (fun x y => x ^ y) (1 / 10 ^ 100) .left false 3 true
      wideSettings (exampleBox false .periodic) 0
      (fun a => (conserved false wideSettings.gamma0 ⟨1, 1, 0, 0, 0⟩).get a.v) dt :=
    ⟨_, _, ⟨.thread (List.range _), List.Perm.refl _, rfl⟩, rfl⟩
  have hge : 1 ≤ soundSpeed wideSettings.gamma0 ⟨1, 1, 0, 0, 0⟩ := by
    unfold soundSpeed wideSettings exampleSettings
    rw [Real.le_sqrt' (by norm_num)]
    norm_num
  obtain ⟨x, hx, -, hlt⟩ := C76_rescaled_exceeds (exampleBox_setup false .periodic) (by decide) hS hs
    (by norm_num [wideSettings, exampleSettings]) hQ (le_refl 3) (by
      rintro x ⟨_, _, _, _, _, _, rfl⟩
      have := sound_wide
      simp only [signalRate, abs_zero, zero_add, Bool.false_eq_true, if_false, add_zero]
      simp only [wideSettings, exampleSettings] at this ⊢
      linarith) ⟨_, ⟨0, 0, 0, by decide, by decide, by decide, rfl⟩, by
      simp only [signalRate, abs_zero, zero_add, Bool.false_eq_true, if_false, add_zero]
      simp only [wideSettings, exampleSettings] at hge ⊢
      norm_num at hge ⊢
      linarith⟩ hdt
  exact ⟨_, dt, x, hdt, hx, hlt⟩

/-- The situation of `C69_exceeds` occurs: in a gas at rest with sound speed `7/50` the time step is more than
seven times the CFL limit. -/
example : ∃ (m : Addr → ℝ) (dt : ℝ), Sdm.ComputeDtLocal (fun x y => x ^ y) (1 / 10 ^ 100)
      (Sdm.exampleScheme false) false true false exampleSettings (Sdm.channel false) m dt ∧
    7 * exampleSettings.cfl < dt * (3 * signalRate false exampleSettings (7 / 50) ⟨1, 7 / 500, 0, 0, 0⟩) := by
  have ha : soundSpeed exampleSettings.gamma0 ⟨1, 7 / 500, 0, 0, 0⟩ = 7 / 50 := by
    unfold soundSpeed exampleSettings
    rw [show ((7 / 5 : ℝ) * (7 / 500) / 1) = (7 / 50) ^ 2 by norm_num, Real.sqrt_sq (by norm_num)]
  have hQ : HoldsSdm (Sdm.exampleScheme false) (Sdm.channel false) exampleSettings.gamma0
      (fun a => (conserved false exampleSettings.gamma0 ⟨1, 7 / 500, 0, 0, 0⟩).get (a.v / 9))
      (fun _ _ => ⟨1, 7 / 500, 0, 0, 0⟩) := by
    refine ⟨fun _ _ _ _ => by norm_num, fun _ _ _ _ => by norm_num, fun _ _ _ _ _ => rfl, ?_⟩
    intro c p iv _ hp _
    have h1 : p.x < 3 := hp.1
    have h2 : p.y < 3 := hp.2.1
    show HState.get _ ((p.x + 3 * p.y + 3 * 3 * iv) / 9) = _
    rw [show (p.x + 3 * p.y + 3 * 3 * iv) / 9 = iv by omega]
    rfl
  obtain ⟨dt, hdt⟩ : ∃ dt, Sdm.ComputeDtLocal (fun x y => x ^ y) (1 / 10 ^ 100) (Sdm.exampleScheme false) false
      true false exampleSettings (Sdm.channel false)
      (fun a => (conserved false exampleSettings.gamma0 ⟨1, 7 / 500, 0, 0, 0⟩).get (a.v / 9)) dt :=
    ⟨_, _, ⟨.thread (List.range _), List.Perm.refl _, rfl⟩, rfl⟩
  have hs : Spacings false exampleSettings := by constructor <;> norm_num [exampleSettings]
  have key := C69_exceeds (Sdm.channel_setup false) (by decide) (by norm_num [exampleSettings]) hs hQ (by
    rw [ha]
    norm_num [signalRate, exampleSettings, Sdm.exampleScheme]) hdt
  rw [ha] at key
  refine ⟨_, dt, hdt, ?_⟩
  have e := key.2
  rw [show ((Sdm.exampleScheme false).N : ℝ) = 3 by norm_num [Sdm.exampleScheme],
    show (Sdm.exampleScheme false).d3 = false from rfl] at e
  rw [e]
  norm_num [exampleSettings]

end Verif
