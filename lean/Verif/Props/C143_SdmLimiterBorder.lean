import Mathlib.Analysis.Real.Pi.Bounds
import Verif.Props.C142_SdmFixed

/-!
# C143: the limiter of the spectral difference solver and the borders of the array

The limiter leaves out the outermost cells of the array, which are the ghost cells, one layer in this solver
(`src/shared/HydroParams.cpp:80`, `:92`).  They are filled before the cells inside are limited and not again before the fluxes
are computed, so the fluxes at the sides of the array see limited gas on one side and the original on the other.
-/

namespace Verif.Sdm

open Verif Spec ROps Polynomial Finset

/-- All sides periodic. -/
def AllPeriodic (d3 : Bool) (B : Sides) : Prop :=
  ∀ d, d3 = true ∨ d ≠ .z → lowBC B d = .periodic ∧ highBC B d = .periodic

theorem extendAlong_periodic {N : ℕ} {P : Grid} {B : Sides} {d : Dir} (h : lowBC B d = .periodic ∧ highBC B d = .periodic)
    {f : Pt → ℕ → ℝ} {u : Vals ℝ} (hu : ∀ c p iv, u c p iv = f p iv) (c : Cell) (p : Pt) (iv : ℕ) :
    extendAlong N P B d u c p iv = f p iv := by
  have hb : behindWall (interior P d) P.ghostWidth .periodic .periodic (coord d c) = false := by
    unfold behindWall
    simp
  unfold extendAlong crossPt crossIdx
  rw [h.1, h.2, hb, hu]
  simp only [Bool.false_eq_true, if_false]
  cases d <;> rfl

theorem extended_periodic {d3 : Bool} {N : ℕ} {P : Grid} {B : Sides} (h : AllPeriodic d3 B) (f : Pt → ℕ → ℝ) (c : Cell) (p : Pt)
    (iv : ℕ) : extended d3 N P B (fun _ => f) c p iv = f p iv := by
  have hx := extendAlong_periodic (N := N) (P := P) (h .x (.inr (by decide))) (f := f) (u := fun _ => f) fun _ _ _ => rfl
  have hy := extendAlong_periodic (N := N) (P := P) (h .y (.inr (by decide))) hx
  unfold extended
  by_cases h3 : d3 = true
  · rw [if_pos h3]
    exact extendAlong_periodic (h .z (.inl h3)) hy c p iv
  · rw [if_neg h3]
    exact hy c p iv

section
variable {M : Scheme ℝ} {S : Settings ℝ} {P : Grid} {B : Sides} {F : Fixes ℝ} {ti : Mood.TimeInt} {A : ℕ} {m m' : Addr → ℝ}

/-- State at the right end of a cell with a ramp. -/
theorem pointState_ramp (hN : 2 ≤ M.N) (ho : Orders M.N) {r ρ s E : ℝ} (hr : r ≤ ρ + s / 2) {u : Vals ℝ} {b : Cell} {p : Pt}
    (hu : ∀ k iv, u b (p.set .x k) iv = ramp M.N ρ s E (p.set .x k) iv) :
    pointState M.d3 M.N r .x u b (p.set .x M.N) = still (ρ + s / 2) E := by
  have h0 : 0 < M.N := by omega
  have e : ∀ iv, lineValue M.N (fun k => u b ((p.set .x M.N).set .x k) iv) (fluxPts M.N ((p.set .x M.N).get .x)) =
      if iv = 0 then ρ + s / 2 else if iv = 1 then E else 0 := by
    intro iv
    rw [show (fun k => u b ((p.set .x M.N).set .x k) iv) = fun k => ramp M.N ρ s E (p.set .x k) iv from funext fun k => hu k iv]
    rw [show (p.set .x M.N).get .x = M.N from rfl, fluxPts_last ho]
    by_cases h : iv = 0
    · subst h
      simp only [ramp, if_true]
      rw [show (fun k => ρ + s * (solPts M.N (p.set .x k).x - 1 / 2)) = fun k => ρ + s * (solPts M.N k - 1 / 2) from rfl,
        lineValue_linear (by omega)]
      ring
    · simp only [ramp, if_neg h, lineValue_const h0]
  unfold pointState
  simp only [e]
  unfold still
  ext <;> simp [hr]

/-- Mean over a line of a step of forward Euler in a cell with the state `q`, as all its neighbours but the left, which ends in `g`. -/
theorem side_enters (hM : ExactScheme M) (hG : GasParams S) (hr : HasSolver M.d3 S) {q g : HState ℝ} (hq : Settled M.d3 S q)
    (hg : Settled M.d3 S g) {u : Vals ℝ} {b : Cell} {p : Pt} (h0 : ∀ p iv, iv < 5 → u b p iv = part q iv)
    (hup : ∀ d p iv, M.d3 = true ∨ d ≠ .z → iv < 5 → u (b.up d) p iv = part q iv)
    (hdn : ∀ d p iv, M.d3 = true ∨ d ≠ .z → d ≠ .x → iv < 5 → u (b.down d) p iv = part q iv)
    (hl : pointState M.d3 M.N S.smallr .x u (b.down .x) (p.set .x M.N) = g) (dt : ℝ) (iv : ℕ) :
    (lineMean M.N fun k => part q iv - dt * divergenceOf M.d3 M.N S (eulerFluxOf M.d3 S) (riemannFlux M.d3 S HState.zero)
      u b (p.set .x k) iv) = part q iv + dt / S.dx * (part (Sdm.faceFlux M.d3 S .x g q) iv - part (gasFlux M.d3 S.gamma0 .x q) iv) := by
  have hN := hM.orders.1
  have fl : ∀ k, part (pointFlux M.N (eulerFluxOf M.d3 S .x) (riemannFlux M.d3 S HState.zero .x) .x
      (pointState M.d3 M.N S.smallr .x u) b (p.set .x k)) iv =
      if k = 0 then part (Sdm.faceFlux M.d3 S .x g q) iv else part (gasFlux M.d3 S.gamma0 .x q) iv := by
    intro k
    have s0 : ∀ p, pointState M.d3 M.N S.smallr .x u b p = q := fun p =>
      pointState_line (q := q) hN hq.floors.d hq.phys.w fun _ _ hv => h0 _ _ hv
    have s2 : ∀ p, pointState M.d3 M.N S.smallr .x u (b.up .x) p = q := fun p =>
      pointState_line (q := q) hN hq.floors.d hq.phys.w fun _ _ hv => hup .x _ _ (.inr (by decide)) hv
    unfold pointFlux
    simp only [s0, s2]
    rw [show ((p.set .x k).set .x M.N) = p.set .x M.N from rfl, hl, riemannFlux_eq hG.gamma hg.phys hq.phys,
      riemannFlux_eq hG.gamma hq.phys hq.phys, faceFlux_self hG hr (.inr (by decide)) hq.floors,
      eulerFluxOf_eq (.inr (by decide)) hG.gamma hq.phys, ite_self]
    show part (if k = 0 then _ else _) iv = _
    by_cases hk : k = 0
    · rw [if_pos hk, if_pos hk]
    · rw [if_neg hk, if_neg hk]
  have sl : ∀ k, divergenceOf M.d3 M.N S (eulerFluxOf M.d3 S) (riemannFlux M.d3 S HState.zero) u b (p.set .x k) iv =
      lineSlope M.N (fun k => if k = 0 then part (Sdm.faceFlux M.d3 S .x g q) iv
        else part (gasFlux M.d3 S.gamma0 .x q) iv) (solPts M.N k) / S.dx := by
    intro k
    have sy := slope_local (u := u) (b := b) (d := .y) hM hG hr hq (.inr (by decide)) h0
      (fun p iv => hdn .y p iv (.inr (by decide)) (by decide)) (fun p iv => hup .y p iv (.inr (by decide))) (p.set .x k) iv
    have sz : (if M.d3 then slopeOf M.d3 M.N S (eulerFluxOf M.d3 S) (riemannFlux M.d3 S HState.zero) u .z b (p.set .x k) iv
        else 0) = 0 := by
      by_cases h3 : M.d3 = true
      · rw [if_pos h3]
        exact slope_local (u := u) (b := b) (d := .z) hM hG hr hq (.inl h3) h0
          (fun p iv => hdn .z p iv (.inl h3) (by decide)) (fun p iv => hup .z p iv (.inl h3)) _ iv
      · exact if_neg h3
    unfold divergenceOf
    rw [sy, sz, add_zero, add_zero]
    unfold slopeOf
    rw [show (fun j => part (pointFlux M.N (eulerFluxOf M.d3 S .x) (riemannFlux M.d3 S HState.zero .x) .x
      (pointState M.d3 M.N S.smallr .x u) b ((p.set .x k).set .x j)) iv) = _ from funext fun j => fl j]
    rfl
  simp only [sl]
  rw [show (fun k => part q iv - dt * (lineSlope M.N (fun k => if k = 0 then
      part (Sdm.faceFlux M.d3 S .x g q) iv else part (gasFlux M.d3 S.gamma0 .x q) iv)
        (solPts M.N k) / S.dx)) = fun k => part q iv * (fun _ => (1 : ℝ)) k + (-dt / S.dx) *
      (fun k => lineSlope M.N (fun k => if k = 0 then part (Sdm.faceFlux M.d3 S .x g q) iv
        else part (gasFlux M.d3 S.gamma0 .x q) iv) (solPts M.N k)) k from funext fun k => by ring]
  rw [lineMean_lin, lineMean_slope hM.orders, lineMean_const hN, lineMean_const hN, if_pos rfl, if_neg (by omega)]
  ring

/-- Mass flux of `llf` between gases at rest. -/
theorem llf_rest (hG : GasParams S) (hllf : S.riemann = .llf) (a b E E' : ℝ) : ∃ cm : ℝ, 0 < cm ∧
    part (Sdm.faceFlux M.d3 S .x (still a E) (still b E')) 0 = 1 / 2 * cm * (a - b) := by
  have k : ∀ ql qr : HState ℝ, ∃ cm : ℝ, 0 < cm ∧ (riemann_llf M.d3 S ql qr).d = 1 / 2 * (ql.d * ql.u + qr.d * qr.u - cm * (qr.d - ql.d)) := by
    intro ql qr
    refine ⟨fmax (fabs ql.u + ROps.sqrt (S.gamma0 * fmax ql.p (fmax ql.d S.smallr * S.smallp) / fmax ql.d S.smallr))
      (fabs qr.u + ROps.sqrt (S.gamma0 * fmax qr.p (fmax qr.d S.smallr * S.smallp) / fmax qr.d S.smallr)), ?_, ?_⟩
    · have h1 : 0 < max ql.d S.smallr := lt_max_of_lt_right hG.smallr
      have h2 : 0 < max ql.p (max ql.d S.smallr * S.smallp) := lt_max_of_lt_right (mul_pos h1 hG.smallp)
      have := hG.gamma
      refine lt_max_of_lt_left (add_pos_of_nonneg_of_pos (abs_nonneg _) (Real.sqrt_pos.2 ?_))
      exact div_pos (mul_pos (by linarith) h2) h1
    · have : (lit (1 / 2) : ℝ) = 1 / 2 := by rops
      rw [← this]
      rfl
  obtain ⟨cm, h0, e⟩ := k (Sdm.primOf M.d3 S.gamma0 (still a E)) (Sdm.primOf M.d3 S.gamma0 (still b E'))
  refine ⟨cm, h0, ?_⟩
  have : part (Sdm.faceFlux M.d3 S .x (still a E) (still b E')) 0 =
      (riemann_llf M.d3 S (Sdm.primOf M.d3 S.gamma0 (still a E)) (Sdm.primOf M.d3 S.gamma0 (still b E'))).d := by
    unfold Sdm.faceFlux riemann_hydro
    cases M.d3 <;> simp only [hllf, if_true, Bool.false_eq_true, if_false] <;> rfl
  rw [this, e]
  simp only [Sdm.primOf, still]
  ring

/-- The gas after the limiter has acted on a ramp in every cell. -/
noncomputable def flattened (M : Scheme ℝ) (P : Grid) (ρ s E : ℝ) : Vals ℝ := fun c p iv =>
  if offBorder M.d3 P c = true then part (still (excess M.N ^ dims M.d3 * ρ) (excess M.N ^ dims M.d3 * E)) iv
  else ramp M.N ρ s E p iv

/-- A run of forward Euler with the limiter and the solver `llf`, and a ramp of density it acts on. -/
structure LimitedRamp (M : Scheme ℝ) (S : Settings ℝ) (F : Fixes ℝ) (T ρ s E : ℝ) : Prop where
  scheme : ExactScheme M
  order : 2 ≤ M.N
  gas : GasParams S
  llf : S.riemann = .llf
  dx : 0 < S.dx
  pi : F.pi = Real.pi
  limiter : F.limiter = some T
  positivity : F.positivity = false
  steep : T ≤ s
  slope : 1 / 1000000000 ≤ s
  low : Settled M.d3 S (still (excess M.N ^ dims M.d3 * ρ) (excess M.N ^ dims M.d3 * E))
  high : Settled M.d3 S (still (ρ + s / 2) E)
  dens : S.smallr ≤ ρ
  differ : ρ + s / 2 ≠ excess M.N ^ dims M.d3 * ρ

variable {T ρ s E : ℝ}

theorem LimitedRamp.solver (H : LimitedRamp M S F T ρ s E) : HasSolver M.d3 S := by
  constructor <;> simp [H.llf]

/-- A stage of forward Euler after the ghost cells are filled. -/
theorem filled_step (H : LimitedRamp M S F T ρ s E) (h : Setup M P B) (junk : Dir → Cell → Pt → HState ℝ) (dt : ℝ) (n : Addr → ℝ)
    (hu : ∀ c p iv, P.box M.d3 c → IsSolPt M.d3 M.N p → iv < hydroVars M.d3 → valsOf M n sU c p iv = ramp M.N ρ s E p iv) :
    ∃ m', YieldsAll (fixDom F M.d3 M.N P .forward_euler)
      (fixedDivergence M S P junk F sU ++ [updateRK M P dt sU sU sU (lit 1) (lit 0) (lit (-1))]) n m' ∧
      ∀ c p iv, P.box M.d3 c → P.inner M.d3 c → IsSolPt M.d3 M.N p → iv < hydroVars M.d3 →
        valsOf M m' sU c p iv = flattened M P ρ s E c p iv - dt *
          divergenceOf M.d3 M.N S (eulerFluxOf M.d3 S) (riemannFlux M.d3 S HState.zero) (flattened M P ρ s E) c p iv := by
  have hU : solArray .forward_euler sU := sU_sol _
  have hM := H.scheme
  obtain ⟨m0, m1, m2, y, yp, f0, e2, f2, -⟩ := fixed_yields (S := S) h.ready hM.orders.1 F hU (by decide) junk n
  obtain ⟨m3, y3, e3, -⟩ := Sdm.update_yields h hU hU hU dt (lit 1) (lit 0) (lit (-1)) m2
  have u0 : ∀ c p iv, P.box M.d3 c → IsSolPt M.d3 M.N p → iv < hydroVars M.d3 → valsOf M m0 sU c p iv = ramp M.N ρ s E p iv :=
    fun c p iv hc hp hv => (f0 _ (by show sU ≠ sDiv; decide)).trans (hu c p iv hc hp hv)
  have r := yp.run
  rw [prepare_some H.limiter, H.positivity, H.pi] at r
  simp only [Bool.false_eq_true, if_false, List.append_nil] at r
  have hs := H.slope
  have hg := H.gas.gamma
  have hr0 : 0 < ρ := lt_of_lt_of_le H.gas.smallr H.dens
  have u1 : ∀ c p iv, P.box M.d3 c → IsSolPt M.d3 M.N p → iv < hydroVars M.d3 →
      valsOf M m1 sU c p iv = flattened M P ρ s E c p iv := by
    intro c p iv hc hp hv
    unfold flattened
    by_cases ho : offBorder M.d3 P c = true
    · rw [if_pos ho]
      exact limited_ramp hM H.order h hU r (by linarith) H.dens hr0 H.steep hs u0 hc ho hp hv
    · rw [if_neg ho, limited_value hM h hU r hc hp hv, limitVals, Bool.eq_false_iff.2 ho]
      exact u0 c p iv hc hp hv
  refine ⟨m3, y.append (y3.mono fun _ => sdm_fix), fun c p iv hc hi hp hv => ?_⟩
  have a1 := e3 c p iv hc hi hp hv
  have a2 : valsOf M m2 sU c p iv = flattened M P ρ s E c p iv :=
    (f2 _ (by show sU ≠ sDiv; decide) (by show sU ≠ sF; decide)).trans (u1 c p iv hc hp hv)
  have a3 : valsOf M m2 sDiv c p iv = _ :=
    (e2 c p iv hc hp hv).trans ((divAll_congr u1 iv hc hp).trans (divAll_eq hM h H.solver _ hi hp hv))
  rw [a1]
  beta_reduce
  rw [a2, a3]
  unfold combine
  rops
  norm_num
  ring

/-- A cell whose neighbours are all in the interior. -/
def Deep (d3 : Bool) (P : Grid) (c : Cell) : Prop :=
  Inside d3 P c ∧ ∀ d, d3 = true ∨ d ≠ .z → Inside d3 P (c.up d) ∧ Inside d3 P (c.down d)

/-- A cell in the first column, whose other neighbours are all in the interior. -/
def FirstColumn (d3 : Bool) (P : Grid) (c : Cell) : Prop :=
  Inside d3 P c ∧ c.i = P.ghostWidth ∧
    ∀ d, d3 = true ∨ d ≠ .z → Inside d3 P (c.up d) ∧ (d ≠ .x → Inside d3 P (c.down d))

theorem flattened_inner (h : Setup M P B) {c : Cell} (hc : Inside M.d3 P c) (p : Pt) (iv : ℕ) : flattened M P ρ s E c p iv =
    part (still (excess M.N ^ dims M.d3 * ρ) (excess M.N ^ dims M.d3 * E)) iv :=
  if_pos (offBorder_inner h.gw hc.2)

theorem deep_value (H : LimitedRamp M S F T ρ s E) (h : Setup M P B) {c : Cell} (hc : Deep M.d3 P c) (dt : ℝ) (p : Pt) (iv : ℕ) :
    flattened M P ρ s E c p iv - dt *
      divergenceOf M.d3 M.N S (eulerFluxOf M.d3 S) (riemannFlux M.d3 S HState.zero) (flattened M P ρ s E) c p iv =
    part (still (excess M.N ^ dims M.d3 * ρ) (excess M.N ^ dims M.d3 * E)) iv := by
  have sl : ∀ d, M.d3 = true ∨ d ≠ .z →
      slopeOf M.d3 M.N S (eulerFluxOf M.d3 S) (riemannFlux M.d3 S HState.zero) (flattened M P ρ s E) d c p iv = 0 := fun d hd =>
    slope_local H.scheme H.gas H.solver H.low hd (fun p iv _ => flattened_inner h hc.1 p iv)
      (fun p iv _ => flattened_inner h (hc.2 d hd).2 p iv) (fun p iv _ => flattened_inner h (hc.2 d hd).1 p iv) p iv
  rw [flattened_inner h hc.1]
  unfold divergenceOf
  rw [sl .x (.inr (by decide)), sl .y (.inr (by decide))]
  by_cases h3 : M.d3 = true
  · rw [if_pos h3, sl .z (.inl h3)]; ring
  · rw [if_neg h3]; ring

theorem column_value (H : LimitedRamp M S F T ρ s E) (h : Setup M P B) (hgw : P.ghostWidth = 1) {c : Cell}
    (hc : FirstColumn M.d3 P c) {dt : ℝ} (hdt : 0 < dt) {u : Vals ℝ}
    (hu : ∀ p, IsSolPt M.d3 M.N p → u c p 0 = flattened M P ρ s E c p 0 - dt *
      divergenceOf M.d3 M.N S (eulerFluxOf M.d3 S) (riemannFlux M.d3 S HState.zero) (flattened M P ρ s E) c p 0)
    {p : Pt} (hp : IsSolPt M.d3 M.N p) : ∃ k, k < M.N ∧ u c (p.set .x k) 0 ≠ excess M.N ^ dims M.d3 * ρ := by
  by_contra hne
  push Not at hne
  set κ := excess M.N ^ dims M.d3
  have hl : pointState M.d3 M.N S.smallr .x (flattened M P ρ s E) (c.down .x) (p.set .x M.N) = still (ρ + s / 2) E := by
    refine pointState_ramp H.order H.scheme.orders H.high.floors.d fun k iv => if_neg ?_
    have h0 : (c.down .x).i = 0 := by show c.i - 1 = 0; have := hc.2.1; omega
    unfold offBorder
    simp [h0]
  have e := side_enters (p := p) H.scheme H.gas H.solver H.low H.high (u := flattened M P ρ s E) (b := c)
    (fun p iv _ => flattened_inner h hc.1 p iv) (fun d p iv hd _ => flattened_inner h (hc.2.2 d hd).1 p iv)
    (fun d p iv hd hx _ => flattened_inner h ((hc.2.2 d hd).2 hx) p iv) hl dt 0
  obtain ⟨cm, hcm, ef⟩ := llf_rest (M := M) H.gas H.llf (ρ + s / 2) (κ * ρ) E (κ * E)
  have eg : part (gasFlux M.d3 S.gamma0 .x (still (κ * ρ) (κ * E))) 0 = 0 := by
    simp [gasFlux, fluxAlong, part, Sdm.primOf, Dir.pick, still]
  have ep : part (still (κ * ρ) (κ * E)) 0 = κ * ρ := rfl
  rw [lineMean_congr (g := fun _ => κ * ρ) fun k hk => ?_, lineMean_const H.scheme.orders.1, ef, eg, ep, sub_zero] at e
  · have hpos : 0 < dt / S.dx := div_pos hdt H.dx
    have z : dt / S.dx * (1 / 2 * cm * (ρ + s / 2 - κ * ρ)) = 0 := by linarith
    have : ρ + s / 2 - κ * ρ ≠ 0 := sub_ne_zero.2 H.differ
    have h1 : dt / S.dx * (1 / 2 * cm) ≠ 0 := by positivity
    exact (mul_ne_zero h1 this) (by linarith)
  · have := hu (p.set .x k) (solPt_set (d := .x) (.inr (by decide)) hp hk)
    rw [flattened_inner h hc.1, hne k hk] at this
    exact this.symm

/-- **C143** (violated): shifts along periodic axes are not respected.  Let every cell hold the same ramp of density, gas at rest, all
sides periodic: the same in every cell.  After one step with the limiter, every cell whose neighbours are all inside holds flat gas, but
every cell of the first column has, on each line of points, one whose density differs from that. -/
theorem C143_sides (H : LimitedRamp M S F T ρ s E) (h : Setup M P B) (hgw : P.ghostWidth = 1) (hB : AllPeriodic M.d3 B)
    {junk : ℕ → Dir → Cell → Pt → HState ℝ} {dt : ℝ} (hdt : 0 < dt) (r : Runs (fixedStep M S P junk F .forward_euler dt) m m')
    (hu : SameInside M.d3 M.N P (valsOf M m sU) (fun _ => ramp M.N ρ s E)) :
    (∀ c p iv, Deep M.d3 P c → IsSolPt M.d3 M.N p → iv < hydroVars M.d3 → valsOf M m' sU c p iv =
      part (still (excess M.N ^ dims M.d3 * ρ) (excess M.N ^ dims M.d3 * E)) iv) ∧
    ∀ c p, FirstColumn M.d3 P c → IsSolPt M.d3 M.N p →
      ∃ k, k < M.N ∧ valsOf M m' sU c (p.set .x k) 0 ≠ excess M.N ^ dims M.d3 * ρ := by
  obtain ⟨n, y, e, -⟩ := boundaries_yields h (sU_sol .forward_euler) m
  obtain ⟨m2, y2, e2⟩ := filled_step H h (junk 0) dt n fun c p iv hc hp hv =>
    (e c p iv hc hp hv).trans ((extended_congr h hu hc hp hv).trans (extended_periodic hB _ c p iv))
  have yy : YieldsAll (fixDom F M.d3 M.N P .forward_euler) (fixedStep M S P junk F .forward_euler dt) m m2 :=
    (y.mono fun _ => sdm_fix).append y2
  obtain rfl := yy.unique r
  have h0 : 0 < hydroVars M.d3 := by cases M.d3 <;> decide
  exact ⟨fun c p iv hc hp hv => (e2 c p iv hc.1.1 hc.1.2 hp hv).trans (deep_value H h hc dt p iv),
    fun c p hc hp => column_value H h hgw hc hdt (fun p hp => e2 c p 0 hc.1.1 hc.1.2 hp h0) hp⟩

/-- A cell of the first column of a block that has a block on its left is deep in the domain. -/
theorem column_deep {R : Ranks} (hR : RanksOk M.d3 R) (h : Setup M P B) (hgw : P.ghostWidth = 1) {q c : Cell}
    (hq : Block R.mx R.my R.mz q) (h1 : 1 ≤ q.i) (hc : FirstColumn M.d3 P c) : Deep M.d3 (whole R P) (inDomain P q c) := by
  have ins : ∀ {c}, Inside M.d3 P c → Inside M.d3 (whole R P) (inDomain P q c) := fun hc =>
    ⟨whole_box hR h hq hc.1, whole_inner hR h hq hc.1 hc.2⟩
  have τ := inDomain_translation P q
  refine ⟨ins hc.1, fun d hd => ⟨?_, ?_⟩⟩
  · rw [← τ.up]
    exact ins (hc.2.2 d hd).1
  · by_cases hx : d = .x
    · subst hx
      have k := (interior_iff (P := whole R P) (d3 := M.d3) (by show 0 ≤ P.ghostWidth; omega)).1 (ins hc.1)
      refine (interior_iff (P := whole R P) (d3 := M.d3) (by show 0 ≤ P.ghostWidth; omega)).2 ⟨?_, ?_, k.2.2⟩
      · show P.ghostWidth ≤ q.i * P.nx + c.i - 1
        have := hc.2.1
        have hn := h.nx
        have : 1 ≤ q.i * P.nx := by nlinarith
        omega
      · have := k.2.1
        exact lt_trans (show q.i * P.nx + c.i - 1 < q.i * P.nx + c.i by omega) this
    · rw [← τ.down]
      exact ins ((hc.2.2 d hd).2 hx)

/-- **C143** (violated): with the limiter the result depends on the number of processes.  From the same data, a ramp in every cell, the
step on several MPI processes ends, never hangs, and on every process with another on its left every line of points of a cell in its
first column has one whose density differs from that of the serial program. -/
theorem C143_processes {R : Ranks} (hR : RanksOk M.d3 R) (H : LimitedRamp M S F T ρ s E) (h : Setup M P B) (hgw : P.ghostWidth = 1)
    (hB : AllPeriodic M.d3 B) (junk : ℕ → ℕ → Dir → Cell → Pt → HState ℝ) {j0 : ℕ → Dir → Cell → Pt → HState ℝ} {dt : ℝ} (hdt : 0 < dt)
    (r : Runs (fixedStep M S (whole R P) j0 F .forward_euler dt) m m')
    (hu : SameInside M.d3 M.N (whole R P) (valsOf M m sU) (fun _ => ramp M.N ρ s E)) {x : Nat → Addr → ℝ}
    (hx : ∀ q, Block R.mx R.my R.mz q →
      SameInside M.d3 M.N P (valsOf M (x (owner R.my R.mz q)) sU) (fun c => valsOf M m sU (inDomain P q c))) :
    JobOK R.num (fun r => fixedStepMpi M R S P (junk r) F .forward_euler dt r) (fixMpiDom F M P .forward_euler) x fun X =>
      ∀ q, Block R.mx R.my R.mz q → 1 ≤ q.i → ∀ c p, FirstColumn M.d3 P c → IsSolPt M.d3 M.N p →
        ∃ k, k < M.N ∧ valsOf M (X (owner R.my R.mz q)) sU c (p.set .x k) 0 ≠ valsOf M m' sU (inDomain P q c) (p.set .x k) 0 := by
  have hU : solArray .forward_euler sU := sU_sol _
  have h0 : 0 < hydroVars M.d3 := by cases M.d3 <;> decide
  have hall : HoldsAll M R P x sU (fun _ => ramp M.N ρ s E) := fun q hq c p iv hc hi hp hv =>
    (hx q hq c p iv hc hi hp hv).trans (hu _ p iv (whole_box hR h hq hc) (whole_inner hR h hq hc hi) hp hv)
  obtain ⟨n, l, e, -⟩ := halo_line hR h hU hall
  -- ranks without a block do not exist; their memory is immaterial
  have own : ∀ r, r < R.num → ∃ q, Block R.mx R.my R.mz q ∧ owner R.my R.mz q = r := fun r hr => owner_surj hR hr
  have st : ∀ r, r < R.num → ∃ m2, YieldsAll (fixDom F M.d3 M.N P .forward_euler)
      (fixedDivergence M S P (junk r 0) F sU ++ [updateRK M P dt sU sU sU (lit 1) (lit 0) (lit (-1))]) (n r) m2 ∧
      ∀ c p iv, P.box M.d3 c → P.inner M.d3 c → IsSolPt M.d3 M.N p → iv < hydroVars M.d3 →
        valsOf M m2 sU c p iv = flattened M P ρ s E c p iv - dt *
          divergenceOf M.d3 M.N S (eulerFluxOf M.d3 S) (riemannFlux M.d3 S HState.zero) (flattened M P ρ s E) c p iv := by
    intro r hr
    obtain ⟨q, hq, rfl⟩ := own r hr
    exact filled_step H h _ dt _ fun c p iv hc hp hv => (e q hq c p iv hc hp hv).trans (extended_periodic hB _ _ p iv)
  choose! m2 y2 e2 using st
  have ser := (C143_sides H (setup_whole hR h) hgw hB hdt r hu).1
  have ls : LockSeq R.num (fun _ => fixMpiDom F M P .forward_euler) (haloLine M R P sU ++ [fun r => .kernels
      (fixedDivergence M S P (junk r 0) F sU ++ [updateRK M P dt sU sU sU (lit 1) (lit 0) (lit (-1))])]) x m2 :=
    (l.mono fun _ _ ha => .inr ha).append (.loops fun r hr => (y2 r hr).mono fun _ ha => .inl ha)
  refine (LockSeq.job ls ?_).congr ?_
  · intro X hX q hq hi c p hc hp
    have ho := owner_lt hR hq
    obtain ⟨k, hk, ne⟩ := column_value H h hgw hc hdt (u := valsOf M (m2 (owner R.my R.mz q)) sU)
      (fun p hp => e2 _ ho c p 0 hc.1.1 hc.1.2 hp h0) hp
    refine ⟨k, hk, ?_⟩
    rw [hX _ ho, ser _ _ 0 (column_deep hR h hgw hq hi hc) (solPt_set (.inr (by decide)) hp hk) h0]
    exact ne
  · intro r _
    simp only [List.map_append, haloLine_prog, List.map_cons, List.map_nil]
    rfl

end

/-! ### The hypotheses can be met -/

/-- A box with all sides periodic. -/
def torus (d3 : Bool) : Grid := ⟨3, 3, 3, 1, hydroVars d3, 3, 3, 3, 3, 3, 3⟩

theorem torus_setup (d3 : Bool) : Setup (exampleScheme d3) (torus d3) (Sides.all .periodic) := by
  constructor <;> intros <;> first | rfl | (simp [torus])

noncomputable def llfSettings : Settings ℝ := { hllcSettings with riemann := .llf }

/-- Limiter on, threshold 1/2. -/
noncomputable def limiterOn : Fixes ℝ := ⟨some (1 / 2), false, Real.pi, 10 ^ 100⟩

theorem limiterOn_ramp (d3 : Bool) : LimitedRamp (exampleScheme d3) llfSettings limiterOn (1 / 2) 2 1 1 := by
  have hN : (exampleScheme d3).N = 3 := rfl
  have h3 : (exampleScheme d3).d3 = d3 := rfl
  have g := Real.pi_lt_d2
  have b1 : 1 < excess 3 ^ dims d3 := one_lt_excess_pow d3 (by decide)
  have b2 : excess 3 ^ dims d3 < 6 / 5 := by
    have e3 : excess 3 = Real.pi / 3 := by
      unfold excess
      rw [show Real.pi / (2 * (3 : ℕ)) = Real.pi / 6 by norm_num, Real.sin_pi_div_six]
      ring
    rw [e3]
    have h1 : Real.pi / 3 < 105 / 100 := by linarith
    have h0 : 0 ≤ Real.pi / 3 := by positivity
    calc (Real.pi / 3) ^ dims d3 ≤ (105 / 100) ^ dims d3 := pow_le_pow_left₀ h0 h1.le _
      _ < 6 / 5 := by cases d3 <;> norm_num [dims]
  have set : ∀ a e : ℝ, 1 ≤ a → a ≤ 3 → 1 ≤ e → Settled d3 llfSettings (still a e) := by
    intro a e h1 h2 h3
    refine ⟨⟨?_, ?_, fun _ => rfl⟩, ⟨?_, ?_⟩⟩ <;>
      simp only [Sdm.primOf, still, llfSettings, hllcSettings, exampleSettings] <;> norm_num <;> linarith
  refine ⟨exampleScheme_exact d3, by rw [hN]; decide, ?_, rfl, ?_, rfl, rfl, rfl, by norm_num, by norm_num, ?_, ?_, ?_, ?_⟩
  · constructor <;> norm_num [llfSettings, hllcSettings, exampleSettings]
  · norm_num [llfSettings, hllcSettings, exampleSettings]
  · rw [hN, h3]
    exact set _ _ (by linarith) (by linarith) (by linarith)
  · exact set _ _ (by norm_num) (by norm_num) (by norm_num)
  · norm_num [llfSettings, hllcSettings, exampleSettings]
  · rw [hN, h3]
    intro h
    linarith

/-- A ramp of density from 3/2 to 5/2 in every cell of a periodic box of order three, on two processes and on one. -/
example (d3 : Bool) : ∃ m', Runs (fixedStep (exampleScheme d3) llfSettings (whole ⟨2, 1, 1, .right⟩ (torus d3))
      (fun _ _ _ _ => HState.zero) limiterOn .forward_euler (1 / 100)) (rampMem (exampleScheme d3)) m' ∧
    JobOK 2 (fun r => fixedStepMpi (exampleScheme d3) ⟨2, 1, 1, .right⟩ llfSettings (torus d3) (fun _ _ _ _ => HState.zero)
        limiterOn .forward_euler (1 / 100) r) (fixMpiDom limiterOn (exampleScheme d3) (torus d3) .forward_euler)
      (fun _ => rampMem (exampleScheme d3)) fun X =>
        ∃ k, k < 3 ∧ valsOf (exampleScheme d3) (X 1) sU ⟨1, 2, if d3 then 2 else 0⟩ ⟨k, 0, 0⟩ 0 ≠
          valsOf (exampleScheme d3) m' sU ⟨4, 2, if d3 then 2 else 0⟩ ⟨k, 0, 0⟩ 0 := by
  have hR : RanksOk d3 ⟨2, 1, 1, .right⟩ := ⟨by decide, by decide, by decide, fun _ => rfl⟩
  have hB : AllPeriodic d3 (Sides.all .periodic) := fun d _ => by cases d <;> exact ⟨rfl, rfl⟩
  obtain ⟨m', y⟩ := C142_safe (S := llfSettings) (setup_whole hR (torus_setup d3)) (exampleScheme_exact d3).orders.1 limiterOn
    (fun _ _ _ _ => HState.zero) .forward_euler (1 / 100) (rampMem (exampleScheme d3))
  refine ⟨m', y.run, ?_⟩
  have := C143_processes (M := exampleScheme d3) hR (limiterOn_ramp d3) (torus_setup d3) rfl hB (fun _ _ _ _ _ => HState.zero)
    (by norm_num) y.run (fun c p iv _ _ hp _ => rampMem_vals _ hp) (x := fun _ => rampMem (exampleScheme d3))
    (fun q _ c p iv _ _ hp _ => (rampMem_vals _ hp).trans (rampMem_vals _ hp).symm)
  refine JobOK.imp this fun X hX => ?_
  have := hX ⟨1, 0, 0⟩ ⟨by decide, by decide, by decide, by decide, by decide, by decide⟩ (by decide)
    ⟨1, 2, if d3 then 2 else 0⟩ ⟨0, 0, 0⟩ ?_ ⟨by show 0 < 3; decide, by show 0 < 3; decide, by cases d3 <;> decide⟩
  · cases d3 <;> exact this
  · refine ⟨?_, rfl, fun d hd => ?_⟩
    · cases d3 <;> exact ⟨by decide, by decide⟩
    · cases d3
      · cases d
        · exact ⟨⟨by decide, by decide⟩, fun h => absurd rfl h⟩
        · exact ⟨⟨by decide, by decide⟩, fun _ => ⟨by decide, by decide⟩⟩
        · exact absurd rfl (hd.resolve_left (by decide))
      · cases d
        · exact ⟨⟨by decide, by decide⟩, fun h => absurd rfl h⟩
        · exact ⟨⟨by decide, by decide⟩, fun _ => ⟨by decide, by decide⟩⟩
        · exact ⟨⟨by decide, by decide⟩, fun _ => ⟨by decide, by decide⟩⟩

end Verif.Sdm
