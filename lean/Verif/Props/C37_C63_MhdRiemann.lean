import Verif.Lemmas.RiemannMhdEmf
import Verif.Lemmas.RiemannMhdAligned
import Verif.Lemmas.RiemannMhdMirror
import Verif.Lemmas.MhdEmf
import Verif.Props.C27_C29_Riemann

/-!
# C29 (MHD), C37, C38, C61–C63: the MHD Riemann solvers

`Spec.mhdFlux` is the flux of the equations of ideal MHD, `Spec.CReal` checked arithmetic (a
division by zero or the root of a negative number is `undef`), `Spec.thermal` replaces the pressure
by the isothermal one if `cIso > 0` (the code never sets `cIso`, so `thermal S q = q` in every run).
-/

namespace Verif

open Spec CReal

variable {S : MSettings ℝ}

/-- A concrete parameter set (used by the examples). -/
noncomputable def exampleMhd : MSettings ℝ :=
  { toSettings := { exampleSettings with gamma0 := 2, riemann := .hlld }, cIso := 0, Omega0 := 0 }

theorem exampleMhd_params : MhdParams exampleMhd := by
  constructor <;> norm_num [exampleMhd, exampleSettings]

/-! ### C29 solver selection (MHD) -/

/-- **C29, MHD**: a flux is computed exactly for the solvers hlld, hll, llf; for approx and hllc it
stays unassigned. -/
theorem C29_mhd {α : Type} [ROps α] (S : MSettings α) (ql qr : MState α) :
    ((riemann_mhd S ql qr).isSome ↔ S.riemann = .hlld ∨ S.riemann = .hll ∨ S.riemann = .llf) ∧
    (S.riemann = .hlld → riemann_mhd S ql qr = some (riemann_mhd_hlld S ql qr)) ∧
    (S.riemann = .hll → riemann_mhd S ql qr = some (riemann_mhd_hll S ql qr)) ∧
    (S.riemann = .llf → riemann_mhd S ql qr = some (riemann_mhd_llf S ql qr)) ∧
    (S.riemann = .approx ∨ S.riemann = .hllc → riemann_mhd S ql qr = none) := by
  unfold riemann_mhd
  cases h : S.riemann <;> simp

/-! ### C38 the fast speed -/

theorem fastWave_unique {γ : ℝ} {q : MState ℝ} {bn c c' : ℝ} (hs : 0 < soundSq γ q)
    (h : FastWave γ q bn c) (h' : FastWave γ q bn c') : c = c' := by
  have e : c ^ 2 = c' ^ 2 := by
    by_contra hne
    have r := h.root
    have r' := h'.root
    unfold Magnetosonic at r r'
    have e1 : (c ^ 2 - c' ^ 2) * (c ^ 2 + c' ^ 2 - (soundSq γ q + fieldSq q / q.d)) = 0 := by
      linear_combination r - r'
    have e2 : c ^ 2 + c' ^ 2 = soundSq γ q + fieldSq q / q.d := by
      rcases mul_eq_zero.1 e1 with h | h
      · exact absurd (sub_eq_zero.1 h) hne
      · linarith
    have e3 : c ^ 2 * c' ^ 2 = soundSq γ q * (bn ^ 2 / q.d) := by
      have : soundSq γ q + fieldSq q / q.d = c ^ 2 + c' ^ 2 := e2.symm
      rw [this] at r
      linarith [r]
    have k1 := h.sound
    have k2 := h'.alfven
    have k3 := h.alfven
    have k4 := h'.sound
    have p' : 0 < c' ^ 2 := lt_of_lt_of_le hs k4
    have p : 0 < c ^ 2 := lt_of_lt_of_le hs k1
    have q1 : c ^ 2 = soundSq γ q := by
      apply le_antisymm _ k1
      by_contra hlt
      push Not at hlt
      have := mul_lt_mul_of_pos_right hlt p'
      have := mul_le_mul_of_nonneg_left k2 hs.le
      linarith
    have q2 : c' ^ 2 = soundSq γ q := by
      apply le_antisymm _ k4
      by_contra hlt
      push Not at hlt
      have := mul_lt_mul_of_pos_right hlt p
      have := mul_le_mul_of_nonneg_left k3 hs.le
      nlinarith
    exact hne (q1.trans q2.symm)
  have := h.pos
  have := h'.pos
  nlinarith [sq_nonneg (c - c'), sq_nonneg (c + c')]

/-- **C38**: `find_speed_fast` in the three directions evaluates only defined operations and returns the
fast magnetosonic speed: its square is a root of the dispersion relation, at least the square of the
sound speed and of the Alfven speed along the direction. -/
theorem C38_fast (hg : 0 < S.gamma0) (q : MState ℝ) (hq : Physical q) :
    (find_speed_fast_x (okMS S) (okM q) = ok (find_speed_fast_x S q) ∧
      FastWave S.gamma0 q q.a (find_speed_fast_x S q)) ∧
    (find_speed_fast_y (okMS S) (okM q) = ok (find_speed_fast_y S q) ∧
      FastWave S.gamma0 q q.b (find_speed_fast_y S q)) ∧
    (find_speed_fast_z (okMS S) (okM q) = ok (find_speed_fast_z S q) ∧
      FastWave S.gamma0 q q.c (find_speed_fast_z S q)) := by
  have key : ∀ bn : ℝ, bn ^ 2 ≤ fieldSq q →
      fastSpeed (okMS S) (okM q) (ok bn) = ok (fastSpeed S q bn) ∧
      FastWave S.gamma0 q bn (fastSpeed S q bn) := by
    intro bn hb
    have h1 := fastSq_ge (S := S) hq.d hb
    have h2 : 0 ≤ (fieldSq q - bn ^ 2) / q.d := div_nonneg (by linarith) hq.d.le
    have e := fastSpeed_sq (S := S) hq hg hb
    exact ⟨ck_fast hq hg hb, fastSpeed_pos hq hg hb, by rw [e]; exact fastSq_root hq.d hb,
      by rw [e]; linarith, by rw [e]; exact fastSq_ge_alfven hq.d hb, by rw [e]; exact fastSq_le hq hg⟩
  exact ⟨key q.a (fieldSq_a q), key q.b (fieldSq_b q), key q.c (fieldSq_c q)⟩

/-- **C38**: the signal speeds used by the time step (`find_speed_info<NDIM>`) are defined and are the
fast speed plus the modulus of the velocity. -/
theorem C38_info (hg : 0 < S.gamma0) (q : MState ℝ) (hq : Physical q) :
    find_speed_info_dirs (okMS S) (okM q) =
      (ok (find_speed_fast_x S q + |q.u|), ok (find_speed_fast_y S q + |q.v|),
        ok (find_speed_fast_z S q + |q.w|)) := by
  have h1 : fastSpeed (okMS S) (okM q) (okM q).a = _ := ck_fast hq hg (fieldSq_a q)
  have h2 : fastSpeed (okMS S) (okM q) (okM q).b = _ := ck_fast hq hg (fieldSq_b q)
  have h3 : fastSpeed (okMS S) (okM q) (okM q).c = _ := ck_fast hq hg (fieldSq_c q)
  unfold find_speed_info_dirs
  rw [h1, h2, h3]
  rfl

/-- **C38**: `find_speed_alfven` is defined and its square is the square of the Alfven speed. -/
theorem C38_alfven {d a : ℝ} (hd : 0 < d) :
    find_speed_alfven (ok d) (ok a) = ok (find_speed_alfven d a) ∧
    find_speed_alfven d a ^ 2 = a ^ 2 / d := by
  have h : 0 ≤ a * a / d := div_nonneg (mul_self_nonneg a) hd.le
  have hd' := hd.ne'
  unfold find_speed_alfven
  constructor
  · ck [hd', h]; rops
  · rops; rw [Real.sq_sqrt h]; ring

/-- **C38**: the alternative routine `fast_mhd_speed` computes the same number. -/
theorem C38_alternative (q : MState ℝ) (hq : Physical q) :
    fast_mhd_speed_dir S q q.a = find_speed_fast_x S q ∧
    fast_mhd_speed_dir S q q.b = find_speed_fast_y S q ∧
    fast_mhd_speed_dir S q q.c = find_speed_fast_z S q :=
  ⟨fast_mhd_speed_eq hq.d (fieldSq_a q), fast_mhd_speed_eq hq.d (fieldSq_b q),
    fast_mhd_speed_eq hq.d (fieldSq_c q)⟩

/-- A state where sound, Alfven and fast speeds all differ. -/
example : Physical ⟨1, 1, 3, -1, 2, 1, 2, 3⟩ ∧ 0 < exampleMhd.gamma0 ∧
    soundSq 2 ⟨1, 1, 3, -1, 2, 1, 2, 3⟩ = 2 ∧ fieldSq ⟨1, 1, 3, -1, 2, 1, 2, 3⟩ = 14 := by
  refine ⟨⟨one_pos, one_pos⟩, ?_, ?_, ?_⟩ <;> norm_num [exampleMhd, soundSq, fieldSq]

/-! ### C37 consistency -/

/-- **C37, LLF**. -/
theorem C37_llf (hS : MhdParams S) (q : MState ℝ) (hq : Physical q) :
    riemann_mhd_llf (okMS S) (okM q) (okM q) = okM (mhdFlux S.gamma0 (thermal S q)) := by
  rw [ck_mhd_llf hS.gamma hq hq, llf_consistent hS.gamma.ne']

/-- **C37, HLL**. -/
theorem C37_hll (hS : MhdParams S) (q : MState ℝ) (hq : Physical q) :
    riemann_mhd_hll (okMS S) (okM q) (okM q) = okM (mhdFlux S.gamma0 (thermal S q)) := by
  rw [ck_mhd_hll hS.gamma hq hq, hll_consistent hS.gamma hq]

/-- **C37, HLLD**: unless the field is exactly along the normal and the Alfven speed is at least the
sound speed. -/
theorem C37_hlld (hS : MhdParams S) (q : MState ℝ) (hq : Physical q)
    (h : q.b ≠ 0 ∨ q.c ≠ 0 ∨ q.a ^ 2 / q.d < soundSq S.gamma0 (thermal S q)) :
    riemann_mhd_hlld (okMS S) (okM q) (okM q) = okM (mhdFlux S.gamma0 (thermal S q)) :=
  ck_hlld_same hS.gamma hq h

/-- **C37 fails for HLLD in the remaining case**: identical states with the field exactly along the
normal, Alfven speed at least the sound speed, and motion slower than the Alfven speed.  The energy flux and
the transverse induction flux are the result of `0/0` (`estar = 0`; the guard tests
`estar/a² ≈ 1`, not `estar ≈ 0`). -/
theorem C37_hlld_aligned (hS : MhdParams S) (hi : S.cIso = 0) (q : MState ℝ) (hq : Physical q)
    (hb : q.b = 0) (hc : q.c = 0) (ha : soundSq S.gamma0 q ≤ q.a ^ 2 / q.d)
    (hu : q.u ^ 2 < q.a ^ 2 / q.d) :
    (riemann_mhd_hlld (okMS S) (okM q) (okM q)).p = undef ∧
    (riemann_mhd_hlld (okMS S) (okM q) (okM q)).b = undef :=
  hlld_aligned hS.gamma hi hq hb hc ha hu

/-- **C37, edge solver**: four identical states give the electric field of the state, for all three
edge directions. -/
theorem C37_emf (hS : MhdParams S) (e : EmfDir) (q : MState ℝ) (hq : Physical q) :
    compute_emf (okMS S) e (okM q) (okM q) (okM q) (okM q) = ok (electric e q) := by
  rw [ck_compute_emf hS.gamma hS.smallc e hq hq hq hq,
    compute_emf_consistent (by have := hS.gamma; linarith) hS.smallc e hq]

/-- **C37**: whatever solver is selected, if it computes a flux then for identical states (with a
transverse field, say) this is the MHD flux. -/
theorem C37_dispatch (hS : MhdParams S) (q : MState ℝ) (hq : Physical q)
    (h : q.b ≠ 0 ∨ q.c ≠ 0 ∨ q.a ^ 2 / q.d < soundSq S.gamma0 (thermal S q)) (f : MState CReal)
    (hf : riemann_mhd (okMS S) (okM q) (okM q) = some f) :
    f = okM (mhdFlux S.gamma0 (thermal S q)) := by
  have h1 := C37_llf hS q hq
  have h2 := C37_hll hS q hq
  have h3 := C37_hlld hS q hq h
  unfold riemann_mhd at hf
  split at hf <;> simp_all

/-- Without an isothermal equation of state `thermal` is the identity. -/
theorem thermal_adiabatic (hi : S.cIso = 0) (q : MState ℝ) : thermal S q = q := by
  unfold thermal; rw [hi, if_neg (lt_irrefl _)]

/-- The premises hold for a state with all components different; its flux is not trivial. -/
example : MhdParams exampleMhd ∧ Physical ⟨1, 1, 3, -1, 2, 1, 2, 3⟩ ∧
    ((2 : ℝ) ≠ 0 ∨ (3 : ℝ) ≠ 0 ∨ (1 : ℝ) ^ 2 / 1 < soundSq exampleMhd.gamma0 ⟨1, 1, 3, -1, 2, 1, 2, 3⟩) ∧
    (mhdFlux 2 ⟨1, 1, 3, -1, 2, 1, 2, 3⟩).p = 62 ∧
    electric .z ⟨1, 1, 3, -1, 2, 1, 2, 3⟩ = 7 := by
  refine ⟨exampleMhd_params, ⟨one_pos, one_pos⟩, Or.inl (by norm_num), ?_, ?_⟩ <;>
    norm_num [mhdFlux, mhdEnergy, fieldSq, vDotB, electric]

/-- The premises of `C37_hlld_aligned` hold for a gas at rest in a uniform field along `x`. -/
example : Physical ⟨1, 1 / 2, 0, 0, 0, 2, 0, 0⟩ ∧ exampleMhd.cIso = 0 ∧
    soundSq exampleMhd.gamma0 ⟨1, 1 / 2, 0, 0, 0, 2, 0, 0⟩ ≤ 2 ^ 2 / 1 ∧ (0 : ℝ) ^ 2 < 2 ^ 2 / 1 := by
  refine ⟨⟨one_pos, by norm_num⟩, rfl, ?_, by norm_num⟩
  norm_num [soundSq, exampleMhd]

/-! ### C61 no undefined operation -/

/-- **C61, LLF**. -/
theorem C61_llf (hS : MhdParams S) (ql qr : MState ℝ) (hl : Physical ql) (hr : Physical qr) :
    riemann_mhd_llf (okMS S) (okM ql) (okM qr) = okM (riemann_mhd_llf S ql qr) :=
  ck_mhd_llf hS.gamma hl hr

/-- **C61, HLL**. -/
theorem C61_hll (hS : MhdParams S) (ql qr : MState ℝ) (hl : Physical ql) (hr : Physical qr) :
    riemann_mhd_hll (okMS S) (okM ql) (okM qr) = okM (riemann_mhd_hll S ql qr) :=
  ck_mhd_hll hS.gamma hl hr

/-- **C61, HLLD**: the two numbers `estar` (computed from the outer states `tl`, `tr` with the common
normal field) are the only denominators that can vanish; the contact lies strictly between the outer
waves. -/
theorem C61_hlld (hS : MhdParams S) (ql qr : MState ℝ) (hl : Physical ql) (hr : Physical qr) :
    let a := 1 / 2 * (ql.a + qr.a)
    let tl : MState ℝ := { thermal S ql with a := a }
    let tr : MState ℝ := { thermal S qr with a := a }
    let l := hlldOuter S a tl.p tl
    let r := hlldOuter S a tr.p tr
    let W := hlldWaves (find_speed_fast_x S tl) (find_speed_fast_x S tr) l r
    ql.d * (W.sl - ql.u) * (W.sl - W.ustar) - a * a ≠ 0 →
    qr.d * (W.sr - qr.u) * (W.sr - W.ustar) - a * a ≠ 0 →
    riemann_mhd_hlld (okMS S) (okM ql) (okM qr) = okM (riemann_mhd_hlld S ql qr) ∧
      W.sl < W.ustar ∧ W.ustar < W.sr := by
  intro a tl tr l r W e1 e2
  have h1 : tl = { ql with a := a, p := isoPressure S ql.d ql.p } := by
    simp only [tl]; rw [isoPressure_real, thermal_eq]
  have h2 : tr = { qr with a := a, p := isoPressure S qr.d qr.p } := by
    simp only [tr]; rw [isoPressure_real, thermal_eq]
  have k1 : l.r = ql.d ∧ l.u = ql.u := by simp only [l, h1, hlldOuter, and_self]
  have k2 : r.r = qr.d ∧ r.u = qr.u := by simp only [r, h2, hlldOuter, and_self]
  refine ck_mhd_hlld (W := W) hS.gamma hl hr rfl h1 h2 rfl rfl rfl ?_ ?_
  · unfold hlldEstar; rw [k1.1, k1.2]; exact e1
  · unfold hlldEstar; rw [k2.1, k2.2]; exact e2

/-- **C61, HLLD without normal field**: always defined. -/
theorem C61_hlld_perp (hS : MhdParams S) (ql qr : MState ℝ) (hl : Physical ql) (hr : Physical qr)
    (ha : ql.a + qr.a = 0) :
    riemann_mhd_hlld (okMS S) (okM ql) (okM qr) = okM (riemann_mhd_hlld S ql qr) := by
  have ha0 : 1 / 2 * (ql.a + qr.a) = 0 := by rw [ha]; ring
  have t1 : ({ thermal S ql with a := (0 : ℝ) } : MState ℝ) =
      { ql with a := 0, p := isoPressure S ql.d ql.p } := by
    rw [isoPressure_real, thermal_eq]
  have t2 : ({ thermal S qr with a := (0 : ℝ) } : MState ℝ) =
      { qr with a := 0, p := isoPressure S qr.d qr.p } := by
    rw [isoPressure_real, thermal_eq]
  have key := C61_hlld hS ql qr hl hr
  dsimp only at key
  rw [ha0] at key
  have ord := hlldWaves_order hS.gamma hl hr t1 t2 rfl rfl rfl
  generalize hlldWaves (find_speed_fast_x S ({ thermal S ql with a := (0 : ℝ) } : MState ℝ))
    (find_speed_fast_x S ({ thermal S qr with a := (0 : ℝ) } : MState ℝ)) _ _ = W at key ord
  have u1 : (thermal S ql).u = ql.u := by rw [thermal_eq]
  have u2 : (thermal S qr).u = qr.u := by rw [thermal_eq]
  have d1 : (thermal S ql).d = ql.d := by rw [thermal_eq]
  have d2 : (thermal S qr).d = qr.d := by rw [thermal_eq]
  simp only [hlldOuter, u1, u2, d1, d2] at ord
  obtain ⟨o1, o2, o3, o4⟩ := ord
  refine (key ?_ ?_).1
  · rw [mul_zero, sub_zero]
    have h1 : ql.d * (W.sl - ql.u) ≠ 0 := by linarith
    exact mul_ne_zero h1 (by linarith)
  · rw [mul_zero, sub_zero]
    exact mul_ne_zero o1.ne' (by linarith)

/-- **C61, edge solver**: for all physical states at the four corners, all directions. -/
theorem C61_emf (hS : MhdParams S) (e : EmfDir) (rt rb lt lb : MState ℝ) (h1 : Physical rt)
    (h2 : Physical rb) (h3 : Physical lt) (h4 : Physical lb) :
    compute_emf (okMS S) e (okM rt) (okM rb) (okM lt) (okM lb) = ok (compute_emf S e rt rb lt lb) :=
  ck_compute_emf hS.gamma hS.smallc e h1 h2 h3 h4

/-- The premises of C61 hold for two quite different states. -/
example : MhdParams exampleMhd ∧ Physical ⟨1, 1, 3, -1, 2, 1, 2, 3⟩ ∧
    Physical ⟨1 / 10, 5, -30, 0, 2, -4, 2, 0⟩ :=
  ⟨exampleMhd_params, ⟨one_pos, one_pos⟩, ⟨by norm_num, by norm_num⟩⟩

/-! ### C62 mirror symmetry -/

/-- **C62, LLF**: for all states. -/
theorem C62_llf (ql qr : MState ℝ) :
    riemann_mhd_llf S (mmirror qr) (mmirror ql) = mmirrorFlux (riemann_mhd_llf S ql qr) :=
  llf_mirror ql qr

/-- **C62, HLL**: for all states. -/
theorem C62_hll (ql qr : MState ℝ) :
    riemann_mhd_hll S (mmirror qr) (mmirror ql) = mmirrorFlux (riemann_mhd_hll S ql qr) :=
  hll_mirror ql qr

/-- **C62, HLLD**: for all states for which the five wave speeds the solver computes are in order and
none of them is exactly zero. -/
theorem C62_hlld (ql qr : MState ℝ) (hn : ∀ s ∈ hlldFan S ql qr, s ≠ 0)
    (ho : (hlldFan S ql qr).Pairwise (· ≤ ·)) :
    riemann_mhd_hlld S (mmirror qr) (mmirror ql) = mmirrorFlux (riemann_mhd_hlld S ql qr) :=
  hlld_mirror ql qr hn ho

theorem mmirror_mmirror (q : MState ℝ) : mmirror (mmirror q) = q := by
  unfold mmirror; simp

/-- **C62, wall**: between a state and its mirror image no mass, energy, transverse momentum or
transverse field flows (LLF and HLL). -/
theorem C62_wall (q f : MState ℝ)
    (hf : f = riemann_mhd_llf S q (mmirror q) ∨ f = riemann_mhd_hll S q (mmirror q)) :
    f.d = 0 ∧ f.p = 0 ∧ f.v = 0 ∧ f.w = 0 ∧ f.b = 0 ∧ f.c = 0 := by
  have key : ∀ g : MState ℝ, g = mmirrorFlux g →
      g.d = 0 ∧ g.p = 0 ∧ g.v = 0 ∧ g.w = 0 ∧ g.b = 0 ∧ g.c = 0 := by
    intro g hg
    have h1 := congrArg MState.d hg
    have h2 := congrArg MState.p hg
    have h3 := congrArg MState.v hg
    have h4 := congrArg MState.w hg
    have h5 := congrArg MState.b hg
    have h6 := congrArg MState.c hg
    simp only [mmirrorFlux] at h1 h2 h3 h4 h5 h6
    refine ⟨?_, ?_, ?_, ?_, ?_, ?_⟩ <;> linarith
  rcases hf with rfl | rfl <;> apply key
  · rw [← C62_llf, mmirror_mmirror]
  · rw [← C62_hll, mmirror_mmirror]

/-! ### C63 upwinding -/

/-- **C63, HLL**: if both states move to the right at least as fast as the larger fast speed, the
flux is that of the left state; the mirror image holds too. -/
theorem C63_hll (hS : MhdParams S) (ql qr : MState ℝ) (hl : Physical ql) (ha : ql.a = qr.a) :
    (max (find_speed_fast_x S ql) (find_speed_fast_x S qr) ≤ min ql.u qr.u →
      riemann_mhd_hll S ql qr = mhdFlux S.gamma0 (thermal S ql)) ∧
    (max ql.u qr.u ≤ -max (find_speed_fast_x S ql) (find_speed_fast_x S qr) →
      riemann_mhd_hll S ql qr = mhdFlux S.gamma0 (thermal S qr)) := by
  have hc : 0 < max (find_speed_fast_x S ql) (find_speed_fast_x S qr) :=
    lt_max_of_lt_left (fastSpeed_pos hl (by have := hS.gamma; linarith) (fieldSq_a ql))
  exact ⟨fun h => hll_upwind_left hS.gamma.ne' ql qr ha hc (by linarith),
    fun h => hll_upwind_right hS.gamma.ne' ql qr ha hc (by linarith)⟩

/-- **C63, HLLD**: if all waves of the fan move to the right the flux is that of the left state, if all
move to the left that of the right state. -/
theorem C63_hlld (hS : MhdParams S) (ql qr : MState ℝ) (ha : ql.a = qr.a) :
    ((∀ s ∈ hlldFan S ql qr, 0 < s) → riemann_mhd_hlld S ql qr = mhdFlux S.gamma0 (thermal S ql)) ∧
    ((∀ s ∈ hlldFan S ql qr, s < 0) → riemann_mhd_hlld S ql qr = mhdFlux S.gamma0 (thermal S qr)) :=
  ⟨hlld_upwind_left hS.gamma.ne' ql qr ha, hlld_upwind_right hS.gamma.ne' ql qr ha⟩

/-- **C63, edge solver**: `ll`, `ul`, `lr`, `ur`: the states of the cells to the lower left, upper
left, lower right and upper right of an edge along `z`; each component of the field is common to two
of them (the average is taken).  If all four move to the upper right at least with the fast speeds,
the electric field is that of the lower left state, and so on for the four quadrants. -/
theorem C63_emf (ll ul lr ur : MState ℝ) (cx cy : ℝ) :
    let bottom := 1 / 2 * (ll.a + lr.a)
    let top := 1 / 2 * (ul.a + ur.a)
    let left := 1 / 2 * (ll.b + ul.b)
    let right := 1 / 2 * (lr.b + ur.b)
    let around : List (MState ℝ) := [{ thermal S ll with a := bottom, b := left },
      { thermal S ul with a := top, b := left }, { thermal S lr with a := bottom, b := right },
      { thermal S ur with a := top, b := right }]
    let E := compute_emf S .z ll ul lr ur
    (∀ q ∈ around, find_speed_fast_x S q ≤ cx ∧ find_speed_fast_y S q ≤ cy) →
    ((∀ q ∈ around, cx ≤ q.u ∧ cy ≤ q.v) → E = ll.u * left - ll.v * bottom) ∧
    ((∀ q ∈ around, q.u < -cx ∧ cy ≤ q.v) → E = lr.u * right - lr.v * bottom) ∧
    ((∀ q ∈ around, cx ≤ q.u ∧ q.v < -cy) → E = ul.u * left - ul.v * top) ∧
    ((∀ q ∈ around, q.u < -cx ∧ q.v < -cy) → E = ur.u * right - ur.v * top) := by
  intro bottom top left right around E hc
  have key : E = mag_riemann2d_hlld S { thermal S ll with a := bottom, b := left }
      { thermal S lr with a := bottom, b := right } { thermal S ul with a := top, b := left }
      { thermal S ur with a := top, b := right } (ll.u * left - ll.v * bottom)
      (lr.u * right - lr.v * bottom) (ul.u * left - ul.v * top) (ur.u * right - ur.v * top) := by
    simp only [E, compute_emf, MState.turn, isoPressure_real]
    rw [thermal_eq S ll, thermal_eq S lr, thermal_eq S ul, thermal_eq S ur]
    rops
    rfl
  rw [key]
  exact ⟨fun h => mag_upwind _ _ _ _ (fun q hq => ⟨(hc q hq).1, (h q hq).1⟩)
      (fun q hq => ⟨(hc q hq).2, (h q hq).2⟩),
    fun h => mag_upwind_ul _ _ _ _ (fun q hq => ⟨(hc q hq).1, (h q hq).1⟩)
      (fun q hq => ⟨(hc q hq).2, (h q hq).2⟩),
    fun h => mag_upwind_lr _ _ _ _ (fun q hq => ⟨(hc q hq).1, (h q hq).1⟩)
      (fun q hq => ⟨(hc q hq).2, (h q hq).2⟩),
    fun h => mag_upwind_ll _ _ _ _ (fun q hq => ⟨(hc q hq).1, (h q hq).1⟩)
      (fun q hq => ⟨(hc q hq).2, (h q hq).2⟩)⟩

/-- **C63, edge solver**: edges along `x` and `y` are edges along `z` after a cyclic renaming of the
directions. -/
theorem C63_emf_rotate (q1 q2 q3 q4 : MState ℝ) :
    let toX := fun q : MState ℝ => ({ q with
      u := q.v, v := q.w, w := q.u, a := q.b, b := q.c, c := q.a } : MState ℝ)
    let toY := fun q : MState ℝ => ({ q with
      u := q.w, v := q.u, w := q.v, a := q.c, b := q.a, c := q.b } : MState ℝ)
    compute_emf S .x q1 q2 q3 q4 = compute_emf S .z (toX q1) (toX q2) (toX q3) (toX q4) ∧
    compute_emf S .y q1 q2 q3 q4 = compute_emf S .z (toY q1) (toY q2) (toY q3) (toY q4) :=
  ⟨rfl, rfl⟩

/-- The fast speed is at most `c` if the sum of the squares of the sound speed and the Alfven speed
is at most `c²`. -/
theorem fast_bound {q : MState ℝ} {b c : ℝ} (hq : Physical q) (hg : 0 < S.gamma0) (hc : 0 ≤ c)
    (h : soundSq S.gamma0 q + fieldSq q / q.d ≤ c ^ 2) : fastSpeed S q b ≤ c := by
  rw [fastSpeed_real]
  exact Real.sqrt_le_iff.2 ⟨hc, (fastSq_le hq hg).trans h⟩

/-- The premises of `C63_emf` hold for four different states moving with velocity (-10,10). -/
example : compute_emf exampleMhd .z ⟨1, 1, -10, 10, 0, 1, 2, 0⟩ ⟨2, 1, -10, 10, 0, 1, 3, 0⟩
    ⟨2, 3, -10, 10, 0, 1, 1, 1⟩ ⟨1, 1, -10, 10, 0, 1, 0, 2⟩ = -10 * (1 / 2) - 10 * 1 := by
  have h := (C63_emf (S := exampleMhd) ⟨1, 1, -10, 10, 0, 1, 2, 0⟩ ⟨2, 1, -10, 10, 0, 1, 3, 0⟩
    ⟨2, 3, -10, 10, 0, 1, 1, 1⟩ ⟨1, 1, -10, 10, 0, 1, 0, 2⟩ 9 9 ?_).2.1 ?_
  · rw [h]; norm_num
  · intro q hq
    simp only [thermal, exampleMhd, lt_irrefl, if_false, List.mem_cons, List.not_mem_nil,
      or_false] at hq
    rcases hq with rfl | rfl | rfl | rfl <;>
      exact ⟨fast_bound ⟨by norm_num, by norm_num⟩ (by norm_num [exampleMhd]) (by norm_num)
        (by norm_num [soundSq, fieldSq, exampleMhd]), fast_bound ⟨by norm_num, by norm_num⟩
        (by norm_num [exampleMhd]) (by norm_num) (by norm_num [soundSq, fieldSq, exampleMhd])⟩
  · intro q hq
    simp only [thermal, exampleMhd, lt_irrefl, if_false, List.mem_cons, List.not_mem_nil,
      or_false] at hq
    rcases hq with rfl | rfl | rfl | rfl <;> norm_num

/-- The wave speeds for two identical states: `u ∓ c_fast`, `u ∓ c_Alfven`, `u`. -/
theorem hlldFan_same (hS : MhdParams S) (hi : S.cIso = 0) (q : MState ℝ) (hq : Physical q) :
    hlldFan S q q = [q.u - find_speed_fast_x S q, q.u - |q.a| / Real.sqrt q.d, q.u,
      q.u + |q.a| / Real.sqrt q.d, q.u + find_speed_fast_x S q] := by
  have g0 : 0 < S.gamma0 := by have := hS.gamma; linarith
  have hf : 0 < find_speed_fast_x S q := fastSpeed_pos hq g0 (fieldSq_a q)
  have hiso : isoPressure S q.d q.p = q.p := by
    unfold isoPressure; rops; rw [hi]; simp
  unfold hlldFan
  simp only [half_add_self, hiso]
  have e : (⟨q.d, q.p, q.u, q.v, q.w, q.a, q.b, q.c⟩ : MState ℝ) = q := rfl
  rw [e, hlldWaves_same _ hq.d hf]
  unfold fanSpeeds
  have c : ∀ s : ℝ, s ≠ q.u → (hlldStar q.a s q.u (hlldOuter S q.a q.p q).ptot
      (hlldOuter S q.a q.p q)).calfven = |q.a| / Real.sqrt q.d := by
    intro s hs
    have h0 : s - q.u ≠ 0 := sub_ne_zero.2 hs
    unfold hlldStar hlldOuter
    rops
    rw [mul_div_cancel_right₀ _ h0]
  have u : (hlldOuter S q.a q.p q).u = q.u := rfl
  simp only [u]
  rw [c _ (by linarith), c _ (by linarith)]

/-- The premises of C62 and C63 hold for a state moving with fast speed 2, Alfven speed 1 and velocity
3 (and its negative): all speeds positive (negative) and in order. -/
example : Physical ⟨1, 2, 3, -1, 2, 1, 0, 0⟩ ∧
    hlldFan exampleMhd ⟨1, 2, 3, -1, 2, 1, 0, 0⟩ ⟨1, 2, 3, -1, 2, 1, 0, 0⟩ = [1, 2, 3, 4, 5] := by
  have hq : Physical ⟨1, 2, 3, -1, 2, 1, 0, 0⟩ := ⟨one_pos, two_pos⟩
  refine ⟨hq, ?_⟩
  rw [hlldFan_same exampleMhd_params rfl _ hq]
  have hf : find_speed_fast_x exampleMhd ⟨1, 2, 3, -1, 2, 1, 0, 0⟩ = 2 := by
    unfold find_speed_fast_x
    rw [fastSpeed_real]
    have h1 : fastDisc exampleMhd ⟨1, 2, 3, -1, 2, 1, 0, 0⟩ 1 = (3 / 2) ^ 2 := by
      unfold fastDisc; norm_num [exampleMhd]
    have h2 : fastSq exampleMhd ⟨1, 2, 3, -1, 2, 1, 0, 0⟩ 1 = 2 ^ 2 := by
      unfold fastSq
      rw [h1, Real.sqrt_sq (by norm_num)]; norm_num [exampleMhd]
    rw [h2, Real.sqrt_sq (by norm_num)]
  rw [hf]
  norm_num

end Verif
