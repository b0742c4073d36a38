import Verif.Spec.Symmetry
import Verif.Props.C27_C29_Riemann
import Verif.Lemmas.HydroFlux
import Verif.Lemmas.RealOps

/-! Helper lemmas: the hydro step seen in a mirror. -/

namespace Verif

open Spec Sdm ROps

/-! ### Riemann solvers and the velocity along the face -/

/-- The first velocity component along the face reversed. -/
def flipV (q : HState ℝ) : HState ℝ := { q with v := -q.v }
/-- The second velocity component along the face reversed. -/
def flipW (q : HState ℝ) : HState ℝ := { q with w := -q.w }

theorem llfCons_flipV (d3 : Bool) (S : Settings ℝ) (q : HState ℝ) :
    llfCons d3 S (flipV q) = flipV (llfCons d3 S q) := by
  cases d3 <;> simp [llfCons, flipV, rops_mul, rops_neg, rops_add]

theorem llfCons_flipW (S : Settings ℝ) (q : HState ℝ) :
    llfCons true S (flipW q) = flipW (llfCons true S q) := by
  simp [llfCons, flipW, rops_mul, rops_neg, rops_add]

theorem riemann_llf_flipV (d3 : Bool) (S : Settings ℝ) (ql qr : HState ℝ) :
    riemann_llf d3 S (flipV ql) (flipV qr) = flipV (riemann_llf d3 S ql qr) := by
  unfold riemann_llf
  simp only [llfCons_flipV]
  cases d3 <;> simp [llfFlux, flipV] <;> rops <;> ring

theorem riemann_llf_flipW (S : Settings ℝ) (ql qr : HState ℝ) :
    riemann_llf true S (flipW ql) (flipW qr) = flipW (riemann_llf true S ql qr) := by
  unfold riemann_llf
  simp only [llfCons_flipW]
  simp [llfFlux, flipW]; rops; ring

theorem riemann_hll_flipV (d3 : Bool) (S : Settings ℝ) (ql qr : HState ℝ) :
    riemann_hll d3 S (flipV ql) (flipV qr) = flipV (riemann_hll d3 S ql qr) := by
  unfold riemann_hll
  simp only [llfCons_flipV]
  cases d3 <;> simp [hllFlux, flipV] <;> rops <;> ring

theorem hllcEtot_flipV (d3 : Bool) (S : Settings ℝ) (r p : ℝ) (q : HState ℝ) :
    hllcEtot d3 S r p (flipV q) = hllcEtot d3 S r p q := by
  cases d3 <;> simp [hllcEtot, flipV, rops_mul, rops_neg, rops_add]

theorem hllcEtot_flipW (S : Settings ℝ) (r p : ℝ) (q : HState ℝ) :
    hllcEtot true S r p (flipW q) = hllcEtot true S r p q := by
  simp [hllcEtot, flipW, rops_mul, rops_neg, rops_add]

theorem riemann_hllc_flipV (d3 : Bool) (S : Settings ℝ) (ql qr : HState ℝ) :
    riemann_hllc d3 S (flipV ql) (flipV qr) = flipV (riemann_hllc d3 S ql qr) := by
  unfold riemann_hllc
  simp only [hllcEtot_flipV]
  simp only [flipV]
  congr 1
  rops
  split_ifs <;> ring

theorem riemann_hllc_flipW (S : Settings ℝ) (ql qr : HState ℝ) :
    riemann_hllc true S (flipW ql) (flipW qr) = flipW (riemann_hllc true S ql qr) := by
  unfold riemann_hllc
  simp only [hllcEtot_flipW]
  simp only [flipW]
  congr 1
  rops
  simp only [if_true]
  split_ifs <;> ring

/-- Reversing a velocity component along the face does so in the flux, whatever the solver (but the approximate
one, for which see C28). -/
theorem riemann_flipV (d3 : Bool) (S : Settings ℝ) (hS : S.riemann ≠ .approx) (ql qr : HState ℝ) :
    riemann_hydro d3 S (flipV ql) (flipV qr) = (riemann_hydro d3 S ql qr).map flipV := by
  unfold riemann_hydro
  cases d3 <;> cases h : S.riemann <;>
    simp [riemann_llf_flipV, riemann_hll_flipV, riemann_hllc_flipV] <;> exact absurd h hS

theorem riemann_flipW (S : Settings ℝ) (hS : S.riemann ≠ .approx) (ql qr : HState ℝ) :
    riemann_hydro true S (flipW ql) (flipW qr) = (riemann_hydro true S ql qr).map flipW := by
  unfold riemann_hydro
  cases h : S.riemann <;>
    simp [riemann_llf_flipW, riemann_hllc_flipW] <;> exact absurd h hS

theorem riemann_mirror (d3 : Bool) {S : Settings ℝ} (hG : GasParams S) (hS : S.riemann ≠ .approx)
    (ql qr : HState ℝ) :
    riemann_hydro d3 S (mirror qr) (mirror ql) = (riemann_hydro d3 S ql qr).map mirrorFlux := by
  unfold riemann_hydro
  cases d3 <;> cases h : S.riemann <;>
    simp [C28_llf _ hG, C28_hll _ hG, C28_hllc _ hG] <;> exact absurd h hS

/-! ### Local formulas -/

theorem mirrorAlong_swap' (d : Dir) (r : HState ℝ) : (mirrorAlong d r).swap d = mirror (r.swap d) := by
  cases d <;> rfl

/-- Multiple of a state. -/
def HState.times (s : ℝ) (q : HState ℝ) : HState ℝ := ⟨s * q.d, s * q.p, s * q.u, s * q.v, s * q.w⟩

/-- Sign of a derivative along `e` in a mirror perpendicular to `a`. -/
def turn (a e : Dir) : ℝ := if e = a then -1 else 1

theorem prim_mirror {d3 : Bool} {a : Dir} (ha : a.ok d3) (S : Settings ℝ) (u : HState ℝ) :
    (computePrimitives d3 S (mirrorAlong a u)).1 = mirrorAlong a (computePrimitives d3 S u).1 := by
  unfold computePrimitives
  cases d3
  · cases a
    · simp [mirrorAlong]; rops; simp [neg_div]
    · simp [mirrorAlong]; rops; simp [neg_div]
    · exact absurd rfl (ha.resolve_left (by decide))
  · cases a <;> simp [mirrorAlong] <;> rops <;> simp [neg_div]

theorem slopeScalar_nonneg {S : Settings ℝ} (q p m : ℝ) :
    0 ≤ (if S.slope_type * (q - m) * (S.slope_type * (p - q)) ≤ 0 then 0
      else min |S.slope_type * (q - m)| |S.slope_type * (p - q)|) := by
  split_ifs
  · exact le_refl _
  · exact le_min (abs_nonneg _) (abs_nonneg _)

theorem slopeScalar_eq (S : Settings ℝ) (q p m : ℝ) : slopeScalar S q p m =
    (if 0 ≤ 1 / 2 * (p - m) then 1 else -1) *
      min (if S.slope_type * (q - m) * (S.slope_type * (p - q)) ≤ 0 then 0
        else min |S.slope_type * (q - m)| |S.slope_type * (p - q)|) |1 / 2 * (p - m)| := by
  unfold slopeScalar; rops

theorem slopeScalar_neg (S : Settings ℝ) (q p m : ℝ) :
    slopeScalar S (-q) (-p) (-m) = -slopeScalar S q p m := by
  rw [slopeScalar_eq, slopeScalar_eq]
  have hn := slopeScalar_nonneg (S := S) q p m
  have e1 : S.slope_type * (-q - -m) = -(S.slope_type * (q - m)) := by ring
  have e2 : S.slope_type * (-p - -q) = -(S.slope_type * (p - q)) := by ring
  have e3 : (1 : ℝ) / 2 * (-p - -m) = -(1 / 2 * (p - m)) := by ring
  rw [e1, e2, e3, neg_mul_neg, abs_neg, abs_neg, abs_neg]
  generalize (if S.slope_type * (q - m) * (S.slope_type * (p - q)) ≤ 0 then (0 : ℝ)
      else min |S.slope_type * (q - m)| |S.slope_type * (p - q)|) = D at hn
  generalize (1 : ℝ) / 2 * (p - m) = c
  rcases lt_trichotomy c 0 with h | h | h
  · rw [if_pos (by linarith), if_neg (by linarith)]; ring
  · subst h; simp [hn]
  · rw [if_neg (by linarith), if_pos (by linarith)]; ring

theorem slopeScalar_rev (S : Settings ℝ) (q p m : ℝ) :
    slopeScalar S q m p = -slopeScalar S q p m := by
  rw [slopeScalar_eq, slopeScalar_eq]
  have hn := slopeScalar_nonneg (S := S) q p m
  have e1 : S.slope_type * (q - p) = -(S.slope_type * (p - q)) := by ring
  have e2 : S.slope_type * (m - q) = -(S.slope_type * (q - m)) := by ring
  have e3 : (1 : ℝ) / 2 * (m - p) = -(1 / 2 * (p - m)) := by ring
  rw [e1, e2, e3, neg_mul_neg, abs_neg, abs_neg, abs_neg, mul_comm (S.slope_type * (p - q)),
    min_comm |S.slope_type * (p - q)|]
  generalize (if S.slope_type * (q - m) * (S.slope_type * (p - q)) ≤ 0 then (0 : ℝ)
      else min |S.slope_type * (q - m)| |S.slope_type * (p - q)|) = D at hn
  generalize (1 : ℝ) / 2 * (p - m) = c
  rcases lt_trichotomy c 0 with h | h | h
  · rw [if_pos (by linarith), if_neg (by linarith)]; ring
  · subst h; simp [hn]
  · rw [if_neg (by linarith), if_pos (by linarith)]; ring

theorem slopes_mirror {d3 : Bool} {S : Settings ℝ} (hv : ValidHydro d3 S) {a : Dir} (ha : a.ok d3)
    (q : HState ℝ) (p m p' m' : Dir → HState ℝ) (j j' : Dir → HState ℝ) {e : Dir}
    (hp : p' e = mirrorAlong a (if e = a then m e else p e))
    (hm : m' e = mirrorAlong a (if e = a then p e else m e)) :
    (slopes d3 S (mirrorAlong a q) p' m').getD j' e =
      ((mirrorAlong a ((slopes d3 S q p m).getD j e)).times (turn a e)) := by
  rw [hv.slopes _ _ _ j' (fun _ => HState.zero), hv.slopes _ _ _ j (fun _ => HState.zero)]
  have h1 := hv.slope
  simp only [rops_eqb] at h1
  unfold Verif.slopes
  by_cases h0 : S.slope_type = 0
  · have : eqb S.slope_type (lit 0) = true := by rw [rops_eqb]; simpa [rops_lit] using h0
    rw [if_pos this, if_pos this]
    cases a <;> simp [HState.zero, mirrorAlong, HState.times, rops_lit]
  · have e0 : ¬ eqb S.slope_type (lit 0) = true := by rw [rops_eqb]; simpa [rops_lit] using h0
    have e1 : (eqb S.slope_type (lit 1) || eqb S.slope_type (lit 2)) = true := by
      rw [Bool.or_eq_true, rops_eqb, rops_eqb]
      rcases h1 with h1 | h1 | h1
      · exact absurd (by simpa [rops_lit] using h1) h0
      · exact Or.inl h1
      · exact Or.inr h1
    rw [if_neg e0, if_neg e0, if_pos e1, if_pos e1]
    simp only [Option.getD_some, hp, hm]
    have key : ∀ q p m : ℝ, slopeScalar S q p m = 1 * slopeScalar S q p m := fun _ _ _ => (one_mul _).symm
    by_cases hea : e = a
    · subst hea
      simp only [if_true, turn]
      cases d3
      · cases e
        · ext <;> simp only [mirrorAlong, HState.times, Bool.false_eq_true, if_false, rops_lit] <;>
            first
              | (rw [slopeScalar_neg, slopeScalar_rev]; ring)
              | (rw [slopeScalar_rev]; ring)
              | simp
        · ext <;> simp only [mirrorAlong, HState.times, Bool.false_eq_true, if_false, rops_lit] <;>
            first
              | (rw [slopeScalar_neg, slopeScalar_rev]; ring)
              | (rw [slopeScalar_rev]; ring)
              | simp
        · exact absurd rfl (ha.resolve_left (by decide))
      · cases e <;> ext <;> simp only [mirrorAlong, HState.times, if_true] <;>
            first
              | (rw [slopeScalar_neg, slopeScalar_rev]; ring)
              | (rw [slopeScalar_rev]; ring)
    · simp only [if_neg hea, turn]
      cases d3
      · cases a
        · ext <;> simp only [mirrorAlong, HState.times, Bool.false_eq_true, if_false, rops_lit] <;>
            first
              | (rw [slopeScalar_neg]; ring)
              | exact key _ _ _
              | simp
        · ext <;> simp only [mirrorAlong, HState.times, Bool.false_eq_true, if_false, rops_lit] <;>
            first
              | (rw [slopeScalar_neg]; ring)
              | exact key _ _ _
              | simp
        · exact absurd rfl (ha.resolve_left (by decide))
      · cases a <;> ext <;> simp only [mirrorAlong, HState.times, if_true] <;>
            first
              | (rw [slopeScalar_neg]; ring)
              | exact key _ _ _

theorem traceSource_mirror {d3 : Bool} {a : Dir} (ha : a.ok d3) (S : Settings ℝ) (q : HState ℝ)
    (dq dq' : Dir → HState ℝ) (h : ∀ e, e.ok d3 → dq' e = (mirrorAlong a (dq e)).times (turn a e)) :
    traceSource d3 S (mirrorAlong a q) dq' = mirrorAlong a (traceSource d3 S q dq) := by
  have hx := h .x (Or.inr (by decide))
  have hy := h .y (Or.inr (by decide))
  unfold traceSource
  cases d3
  · simp only [Bool.false_eq_true, if_false, hx, hy]
    cases a
    · simp only [mirrorAlong, HState.times, turn]; rops
      ext <;> simp <;> ring
    · simp only [mirrorAlong, HState.times, turn]; rops
      ext <;> simp <;> ring
    · exact absurd rfl (ha.resolve_left (by decide))
  · have hz := h .z (Or.inl rfl)
    simp only [if_true, hx, hy, hz]
    cases a <;> simp only [mirrorAlong, HState.times, turn] <;> rops <;> ext <;> simp <;> ring

/-- A face seen from the other side. -/
def across (a e : Dir) (b : Bool) : Bool := if e = a then !b else b

theorem trace_mirror {d3 : Bool} {a : Dir} (ha : a.ok d3) (S : Settings ℝ) (q : HState ℝ)
    (dq dq' : Dir → HState ℝ) (h : ∀ e, e.ok d3 → dq' e = (mirrorAlong a (dq e)).times (turn a e))
    (dtd : Dir → ℝ) {e : Dir} (he : e.ok d3) (b : Bool) :
    traceAlongDir d3 S (mirrorAlong a q) dq' dtd e (across a e b) =
      mirrorAlong a (traceAlongDir d3 S q dq dtd e b) := by
  unfold traceAlongDir
  rw [traceSource_mirror ha S q dq dq' h, h e he]
  generalize traceSource d3 S q dq = s
  unfold across turn
  by_cases hea : e = a
  · subst hea
    cases d3
    · cases e
      · cases b <;> simp [mirrorAlong, HState.times] <;> rops <;> ring_nf <;> simp
      · cases b <;> simp [mirrorAlong, HState.times] <;> rops <;> ring_nf <;> simp
      · exact absurd rfl (ha.resolve_left (by decide))
    · cases e <;> cases b <;> simp [mirrorAlong, HState.times] <;> rops <;> ring_nf <;> simp
  · simp only [if_neg hea]
    cases d3
    · cases a
      · cases b <;> simp [mirrorAlong, HState.times] <;> rops <;> ring_nf <;> simp
      · cases b <;> simp [mirrorAlong, HState.times] <;> rops <;> ring_nf <;> simp
      · exact absurd rfl (ha.resolve_left (by decide))
    · cases a <;> cases b <;> simp [mirrorAlong, HState.times] <;> rops <;> ring_nf <;> simp

theorem scale_times (d3 : Bool) (q : HState ℝ) (a : Dir) (ha : a.ok d3) (s dtd : ℝ) :
    ((mirrorAlong a q).times s).scale d3 dtd = (mirrorAlong a (q.scale d3 dtd)).times s := by
  cases d3
  · cases a
    · simp [mirrorAlong, HState.times, HState.scale] <;> rops <;> simp <;> ring_nf <;> simp
    · simp [mirrorAlong, HState.times, HState.scale] <;> rops <;> simp <;> ring_nf <;> simp
    · exact absurd rfl (ha.resolve_left (by decide))
  · cases a <;> simp [mirrorAlong, HState.times, HState.scale] <;> rops <;> (try simp) <;> ring_nf <;> (try simp)

/-- The flux through a face seen in the mirror. -/
theorem faceFlux_mirror {d3 : Bool} {S : Settings ℝ} (hv : ValidHydro d3 S) (hG : GasParams S)
    (hS : S.riemann ≠ .approx) {a e : Dir} (ha : a.ok d3) (he : e.ok d3) (j j' : HState ℝ) (dtd : ℝ)
    (ql qr : HState ℝ) :
    faceFlux d3 S j' dtd e (mirrorAlong a (if e = a then qr else ql)) (mirrorAlong a (if e = a then ql else qr)) =
      (mirrorAlong a (faceFlux d3 S j dtd e ql qr)).times (turn a e) := by
  rw [hv.faceFlux j' HState.zero, hv.faceFlux j HState.zero]
  unfold faceFlux
  rw [← scale_times _ _ _ ha]
  congr 1
  obtain ⟨f, hf⟩ : ∃ f, riemann_hydro d3 S (ql.swap e) (qr.swap e) = some f := by
    have h1 := hv.hlld
    have h2 := hv.hll
    unfold riemann_hydro
    cases d3 <;> cases hh : S.riemann <;> simp_all
  rw [hf, Option.getD_some]
  by_cases hea : e = a
  · subst hea
    simp only [if_true, turn]
    rw [mirrorAlong_swap', mirrorAlong_swap', riemann_mirror d3 hG hS, hf]
    cases e <;> simp [mirrorFlux, HState.swap, HState.times, mirrorAlong]
  · simp only [if_neg hea, turn]
    have hV : riemann_hydro d3 S (flipV (ql.swap e)) (flipV (qr.swap e)) = some (flipV f) := by
      rw [riemann_flipV d3 S hS, hf]; rfl
    have hW : d3 = true → riemann_hydro d3 S (flipW (ql.swap e)) (flipW (qr.swap e)) = some (flipW f) := by
      rintro rfl
      rw [riemann_flipW S hS, hf]; rfl
    cases e <;> cases a
    · exact absurd rfl hea
    · rw [show (mirrorAlong .y ql).swap .x = flipV (ql.swap .x) from rfl,
        show (mirrorAlong .y qr).swap .x = flipV (qr.swap .x) from rfl, hV]
      simp [flipV, HState.swap, HState.times, mirrorAlong]
    · rw [show (mirrorAlong .z ql).swap .x = flipW (ql.swap .x) from rfl,
        show (mirrorAlong .z qr).swap .x = flipW (qr.swap .x) from rfl, hW (ha.resolve_right (by simp))]
      simp [flipW, HState.swap, HState.times, mirrorAlong]
    · rw [show (mirrorAlong .x ql).swap .y = flipV (ql.swap .y) from rfl,
        show (mirrorAlong .x qr).swap .y = flipV (qr.swap .y) from rfl, hV]
      simp [flipV, HState.swap, HState.times, mirrorAlong]
    · exact absurd rfl hea
    · rw [show (mirrorAlong .z ql).swap .y = flipW (ql.swap .y) from rfl,
        show (mirrorAlong .z qr).swap .y = flipW (qr.swap .y) from rfl, hW (ha.resolve_right (by simp))]
      simp [flipW, HState.swap, HState.times, mirrorAlong]
    · rw [show (mirrorAlong .x ql).swap .z = flipW (ql.swap .z) from rfl,
        show (mirrorAlong .x qr).swap .z = flipW (qr.swap .z) from rfl, hW (he.resolve_right (by simp))]
      simp [flipW, HState.swap, HState.times, mirrorAlong]
    · rw [show (mirrorAlong .y ql).swap .z = flipV (ql.swap .z) from rfl,
        show (mirrorAlong .y qr).swap .z = flipV (qr.swap .z) from rfl, hV]
      simp [flipV, HState.swap, HState.times, mirrorAlong]
    · exact absurd rfl hea

theorem pred_mirror {d3 : Bool} {a : Dir} (ha : a.ok d3) (b : Bool) (dt : ℝ) (g q : HState ℝ) :
    pred d3 b dt (mirrorAlong a g) (mirrorAlong a q) = mirrorAlong a (pred d3 b dt g q) := by
  unfold pred addGravity
  cases b
  · rfl
  · cases d3
    · cases a
      · simp [mirrorAlong]; rops; ring
      · simp [mirrorAlong]; rops; ring
      · exact absurd rfl (ha.resolve_left (by decide))
    · cases a <;> simp [mirrorAlong] <;> rops <;> ring

/-! ### Fluxes of a grid function -/

/-- A map of cells that turns around the direction `a` and keeps the others. -/
structure Reflection (a : Dir) (τ : Cell → Cell) : Prop where
  up_along : ∀ c, τ (c.up a) = (τ c).down a
  down_along : ∀ c, τ (c.down a) = (τ c).up a
  up : ∀ e c, e ≠ a → τ (c.up e) = (τ c).up e
  down : ∀ e c, e ≠ a → τ (c.down e) = (τ c).down e

theorem up_down (c : Cell) (d : Dir) : (c.up d).down d = c := by cases d <;> simp [Cell.up, Cell.down]
theorem down_up (c : Cell) (d : Dir) : (c.down d).up d = c := by cases d <;> simp [Cell.up, Cell.down]

section
variable {d3 : Bool} {S : Settings ℝ} {a : Dir} {τ : Cell → Cell}

theorem slopesAt_mirror (hv : ValidHydro d3 S) (ha : a.ok d3) (hτ : Reflection a τ)
    {q q' : Cell → HState ℝ} {c : Cell} (hq : ∀ c', near d3 c c' → q' (τ c') = mirrorAlong a (q c'))
    (j j' : Dir → HState ℝ) {e : Dir} (he : e.ok d3) :
    slopesAt d3 S j' q' (τ c) e = (mirrorAlong a (slopesAt d3 S j q c e)).times (turn a e) := by
  unfold slopesAt
  rw [hq c (Or.inl rfl)]
  have hu : q' (τ (c.up e)) = mirrorAlong a (q (c.up e)) := hq _ (Or.inr ⟨e, he, Or.inl rfl⟩)
  have hd : q' (τ (c.down e)) = mirrorAlong a (q (c.down e)) := hq _ (Or.inr ⟨e, he, Or.inr rfl⟩)
  have U : ∀ (q : Cell → HState ℝ) (c : Cell), upF d3 q c e = q (c.up e) := by
    intro q c
    cases e
    · rfl
    · rfl
    · have : d3 = true := he.resolve_right (by simp)
      subst this; rfl
  have D : ∀ (q : Cell → HState ℝ) (c : Cell), downF d3 q c e = q (c.down e) := by
    intro q c
    cases e
    · rfl
    · rfl
    · have : d3 = true := he.resolve_right (by simp)
      subst this; rfl
  apply slopes_mirror hv ha
  · rw [U, U, D]
    split_ifs with h
    · subst h; rw [← hτ.down_along, hd]
    · rw [← hτ.up _ _ h, hu]
  · rw [D, U, D]
    split_ifs with h
    · subst h; rw [← hτ.up_along, hu]
    · rw [← hτ.down _ _ h, hd]

/-- The cell whose lower face is the mirror image of the lower face of `c`. -/
def faceImage (a e : Dir) (τ : Cell → Cell) (c : Cell) : Cell := if e = a then (τ c).up a else τ c

theorem fluxOf_mirror (hv : ValidHydro d3 S) (hG : GasParams S) (hS : S.riemann ≠ .approx) (ha : a.ok d3)
    {e : Dir} (he : e.ok d3) (j j' : HState ℝ) {gl gr : Bool} (hb : e = a → gl = gr) (dt : ℝ)
    {qL qR gL gR : HState ℝ} {dqL dqR dqL' dqR' : Dir → HState ℝ}
    (hL : ∀ d, d.ok d3 → dqL' d = (mirrorAlong a (dqL d)).times (turn a d))
    (hR : ∀ d, d.ok d3 → dqR' d = (mirrorAlong a (dqR d)).times (turn a d)) :
    (if e = a then fluxOf d3 S j' gl gr dt e (mirrorAlong a qR) dqR' (mirrorAlong a gR) (mirrorAlong a qL) dqL'
        (mirrorAlong a gL)
      else fluxOf d3 S j' gl gr dt e (mirrorAlong a qL) dqL' (mirrorAlong a gL) (mirrorAlong a qR) dqR'
        (mirrorAlong a gR)) =
      (mirrorAlong a (fluxOf d3 S j gl gr dt e qL dqL gL qR dqR gR)).times (turn a e) := by
  unfold fluxOf
  rw [← faceFlux_mirror hv hG hS ha he j j']
  have tL := fun b => trace_mirror ha S qL dqL dqL' hL (dtOver S dt) he b
  have tR := fun b => trace_mirror ha S qR dqR dqR' hR (dtOver S dt) he b
  unfold across at tL tR
  split_ifs with h
  · simp only [if_pos h] at tL tR
    rw [hb h]
    rw [← pred_mirror ha, ← pred_mirror ha, ← tL true, ← tR false]
    rfl
  · simp only [if_neg h] at tL tR
    rw [← pred_mirror ha, ← pred_mirror ha, ← tL true, ← tR false]

theorem flux_image (hv : ValidHydro d3 S) (hG : GasParams S) (hS : S.riemann ≠ .approx) (ha : a.ok d3)
    (hτ : Reflection a τ) {gl gr : Bool} {dt : ℝ} (j j' : HState ℝ) {q q' g g' : Cell → HState ℝ}
    {s s' : Cell → Dir → HState ℝ} {c : Cell} {e : Dir} (he : e.ok d3) (hb : e = a → gl = gr)
    (hq : ∀ c0, c0 = c ∨ c0 = c.down e → q' (τ c0) = mirrorAlong a (q c0))
    (hs : ∀ c0, c0 = c ∨ c0 = c.down e → ∀ d, d.ok d3 →
      s' (τ c0) d = (mirrorAlong a (s c0 d)).times (turn a d))
    (hg : gl = true ∨ gr = true → ∀ c0, c0 = c ∨ c0 = c.down e → g' (τ c0) = mirrorAlong a (g c0)) :
    fluxOf d3 S j' gl gr dt e (q' ((faceImage a e τ c).down e)) (s' ((faceImage a e τ c).down e))
      (g' ((faceImage a e τ c).down e)) (q' (faceImage a e τ c)) (s' (faceImage a e τ c))
      (g' (faceImage a e τ c)) =
      (mirrorAlong a (fluxOf d3 S j gl gr dt e (q (c.down e)) (s (c.down e)) (g (c.down e)) (q c) (s c)
        (g c))).times (turn a e) := by
  have dn : (faceImage a e τ c).down e = if e = a then τ c else τ (c.down e) := by
    unfold faceImage
    split_ifs with h
    · subst h; rw [up_down]
    · exact (hτ.down _ _ h).symm
  have here : faceImage a e τ c = if e = a then τ (c.down e) else τ c := by
    unfold faceImage
    split_ifs with h
    · subst h; exact (hτ.down_along _).symm
    · rfl
  have pr : ∀ (b : Bool), (b = true → gl = true ∨ gr = true) → ∀ c0, c0 = c ∨ c0 = c.down e → ∀ q : HState ℝ,
      pred d3 b dt (g' (τ c0)) q = pred d3 b dt (mirrorAlong a (g c0)) q := by
    intro b hb c0 h0 q
    cases b
    · rfl
    · rw [hg (hb rfl) c0 h0]
  rw [← fluxOf_mirror hv hG hS ha he j j' hb dt (hs _ (Or.inr rfl)) (hs _ (Or.inl rfl)), dn, here]
  split_ifs with h
  · unfold fluxOf
    rw [pr gl Or.inl _ (Or.inl rfl), pr gr Or.inr _ (Or.inr rfl), hq _ (Or.inl rfl), hq _ (Or.inr rfl)]
  · unfold fluxOf
    rw [pr gl Or.inl _ (Or.inr rfl), pr gr Or.inr _ (Or.inl rfl), hq _ (Or.inl rfl), hq _ (Or.inr rfl)]

theorem stepFlux_mirror (hv : ValidHydro d3 S) (hG : GasParams S) (hS : S.riemann ≠ .approx) (ha : a.ok d3)
    (hτ : Reflection a τ) {impl : Int} {grav : Bool} {dt : ℝ} {J J' : Junk ℝ}
    {u u' g g' : Cell → HState ℝ} {c : Cell} {e : Dir} (he : e.ok d3)
    (hz : grav = true → impl = 0 ∨ a ≠ .z)
    (hu : ∀ c', near d3 c c' ∨ near d3 (c.down e) c' → u' (τ c') = mirrorAlong a (u c'))
    (hg : grav = true → ∀ c0, c0 = c ∨ c0 = c.down e → g' (τ c0) = mirrorAlong a (g c0)) :
    stepFlux d3 S J' impl grav dt u' g' e (faceImage a e τ c) =
      (mirrorAlong a (stepFlux d3 S J impl grav dt u g e c)).times (turn a e) := by
  have hq : ∀ c', near d3 c c' ∨ near d3 (c.down e) c' →
      primAt d3 S u' (τ c') = mirrorAlong a (primAt d3 S u c') := fun c' hc' => by
    unfold primAt; rw [hu c' hc', prim_mirror ha]
  have hq' : ∀ c0, c0 = c ∨ c0 = c.down e → primAt d3 S u' (τ c0) = mirrorAlong a (primAt d3 S u c0) := by
    rintro c0 (rfl | rfl)
    · exact hq _ (Or.inl (Or.inl rfl))
    · exact hq _ (Or.inr (Or.inl rfl))
  have hsl : ∀ (j j' : Dir → HState ℝ) c0, c0 = c ∨ c0 = c.down e → ∀ d, d.ok d3 →
      slopesAt d3 S j' (primAt d3 S u') (τ c0) d =
        (mirrorAlong a (slopesAt d3 S j (primAt d3 S u) c0 d)).times (turn a d) := by
    rintro j j' c0 (rfl | rfl) d hd
    · exact slopesAt_mirror hv ha hτ (fun c' hc' => hq c' (Or.inl hc')) j j' hd
    · exact slopesAt_mirror hv ha hτ (fun c' hc' => hq c' (Or.inr hc')) j j' hd
  unfold stepFlux
  split_ifs with hi
  · unfold fluxAt
    rw [hv.slopesAt _ (fun _ => HState.zero), hv.slopesAt (J'.slope _ 0) (fun _ => HState.zero),
      hv.slopesAt (J.slope _ e.tag) (fun _ => HState.zero), hv.slopesAt (J.slope _ 0) (fun _ => HState.zero)]
    exact flux_image hv hG hS ha hτ _ _ he (fun _ => rfl) hq' (hsl _ _)
      (fun h => hg (by simpa using h))
  · unfold fluxAtSplit
    refine flux_image hv hG hS ha hτ _ _ he (fun h => ?_) hq' (fun c0 h0 d hd => ?_)
      (fun h => hg (by simp at h; tauto))
    · subst h
      by_cases hgr : grav = true
      · have := (hz hgr).resolve_left hi
        cases e <;> simp_all
      · simp [Bool.not_eq_true _ ▸ hgr]
    · unfold slopes1 storedAt
      have := hsl (if d3 then J.slope c0 0 else fun _ => HState.zero)
        (if d3 then J'.slope (τ c0) 0 else fun _ => HState.zero) c0 h0 d hd
      cases d
      · exact this
      · exact this
      · have h3 : d3 = true := hd.resolve_right (by simp)
        subst h3
        exact this

end

end Verif
