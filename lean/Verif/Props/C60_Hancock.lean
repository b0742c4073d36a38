import Verif.Spec.Hancock
import Verif.Props.C22_C26_HydroStep
import Verif.Props.C30_C33_Cell

/-!
# C60: a hydro step is one step of the MUSCL-Hancock scheme

The specification (`Spec/Hancock.lean`) is written without reference to the code.
-/

namespace Verif

open Spec ROps

/-- A model state as a gas. -/
def HState.gas (q : HState ℝ) : Gas := ⟨q.d, q.p, Dir.pick q.u q.v q.w⟩

/-- A conservative model state. -/
def HState.cons (q : HState ℝ) : Cons := ⟨q.d, q.p, Dir.pick q.u q.v q.w⟩

variable {d3 : Bool} {S : Settings ℝ} {dt : ℝ} {Φ : HState ℝ → HState ℝ → HState ℝ}

theorem axes_mem {d : Dir} : d ∈ axes d3 ↔ d.ok d3 := by
  cases d3 <;> cases d <;> simp [axes, Dir.ok]

theorem step_up (d : Dir) (c : Cell) : step d 1 c = c.up d := by cases d <;> rfl
theorem step_down (d : Dir) (c : Cell) : step d (-1) c = c.down d := by
  cases d <;> simp [step, Cell.down, Int.sub_eq_add_neg]

theorem toGas_eq (hr : 0 < S.smallr) (u : HState ℝ) (hw : d3 = false → u.w = 0) :
    (schemeOf d3 S Φ).toGas u.cons = (computePrimitives d3 S u).1.gas := by
  have h2 : 0 < max u.d S.smallr := lt_of_lt_of_le hr (le_max_right _ _)
  simp only [Scheme.toGas, schemeOf, HState.cons, HState.gas, computePrimitives, Gas.mk.injEq]
  rops
  set r := max u.d S.smallr
  have h0 : r ≠ 0 := h2.ne'
  refine ⟨trivial, ?_, ?_⟩
  · congr 1
    cases d3 <;> simp [sumAxes, axes, Dir.pick] <;> field_simp <;> ring
  · funext d
    cases d3
    · cases d <;> simp [Dir.pick, hw rfl]
    · cases d <;> simp [Dir.pick]

theorem limited_eq (a q b : ℝ) (hs : S.slope_type = 1 ∨ S.slope_type = 2) :
    (schemeOf d3 S Φ).limited a q b = slopeScalar S q b a := by
  have hp : 0 ≤ S.slope_type := by rcases hs with h | h <;> rw [h] <;> norm_num
  rw [slopeScalar_real a q b hs]
  simp only [Scheme.limited, schemeOf, sub_nonneg]
  split_ifs
  · rw [min_eq_left (by positivity), mul_zero]
  · rw [min_eq_left (by positivity), mul_zero]
  · rw [mul_min_of_nonneg _ _ hp]
  · rw [mul_min_of_nonneg _ _ hp]

theorem limited_zero (a q b : ℝ) (hs : S.slope_type = 0) :
    (schemeOf d3 S Φ).limited a q b = 0 := by
  simp only [Scheme.limited, schemeOf, hs, zero_mul, min_self]
  rw [min_eq_left (by positivity)]; simp

theorem slope_eq (hs : S.slope_type = 0 ∨ S.slope_type = 1 ∨ S.slope_type = 2)
    (junk : Dir → HState ℝ) (q : Cell → HState ℝ) (hw : d3 = false → ∀ c, (q c).w = 0)
    {d : Dir} (hd : d.ok d3) (c : Cell) :
    (schemeOf d3 S Φ).slope (fun c => (q c).gas) d c = (slopesAt d3 S junk q c d).gas := by
  have hm : d ∈ axes (schemeOf d3 S Φ).d3 := axes_mem.2 hd
  rw [Scheme.slope, if_pos hm]
  simp only [step_up, step_down, slopesAt, slopes]
  have e0 : ∀ x : ℝ, (schemeOf d3 S Φ).limited x x x = 0 := fun x => by simp [Scheme.limited]
  rcases hs with hs | hs | hs
  · simp only [limited_zero _ _ _ hs]
    rw [if_pos (by simp [ROps.eqb, hs, ROps.lit])]
    simp only [Option.getD_some, HState.gas, HState.zero, Gas.mk.injEq]
    refine ⟨by simp [ROps.lit], by simp [ROps.lit], ?_⟩
    funext e; cases e <;> simp [Dir.pick, ROps.lit]
  all_goals
    rw [if_neg (by simp [ROps.eqb, hs, ROps.lit]), if_pos (by simp [ROps.eqb, hs, ROps.lit])]
    have hs' : S.slope_type = 1 ∨ S.slope_type = 2 := by simp [hs]
    have hup : upF d3 q c d = q (c.up d) := by
      cases d3 <;> cases d <;> simp_all [upF, Dir.pick, Dir.ok]
    have hdn : downF d3 q c d = q (c.down d) := by
      cases d3 <;> cases d <;> simp_all [downF, Dir.pick, Dir.ok]
    simp only [Option.getD_some, hup, hdn, HState.gas, Gas.mk.injEq, limited_eq _ _ _ hs']
    refine ⟨trivial, trivial, ?_⟩
    funext e
    cases e
    · rfl
    · rfl
    · cases d3
      · simp only [Dir.pick, hw rfl, Bool.false_eq_true, if_false]
        have := e0 0
        rw [limited_eq _ _ _ hs'] at this
        simp [this, ROps.lit]
      · rfl

theorem slope_off (q : Cell → Gas) (c : Cell) :
    (schemeOf false S Φ).slope q .z c = ⟨0, 0, fun _ => 0⟩ := by
  rw [Scheme.slope, if_neg]; simp [schemeOf, axes]

theorem face_eq_iso {h : ℝ} (hx : S.dx = h) (hy : S.dy = h) (hz : d3 = true → S.dz = h)
    (hs : S.slope_type = 0 ∨ S.slope_type = 1 ∨ S.slope_type = 2)
    (junk : Dir → HState ℝ) (q : Cell → HState ℝ) (hw : d3 = false → ∀ c, (q c).w = 0)
    {d : Dir} (hd : d.ok d3) (c : Cell) (grav upper : Bool) (g : Cell → HState ℝ)
    (g' : Cell → Dir → ℝ) (hg : ∀ c, g' c = if grav then Dir.pick (g c).u (g c).v (g c).w
      else fun _ => 0) (hgw : d3 = false → (g c).w = 0) :
    (schemeOf d3 S Φ).faceState dt (fun c => (q c).gas) g' d (if upper then 1/2 else -1/2) c =
      (pred d3 grav dt (g c) (traceAlongDir d3 S (q c) (slopesAt d3 S junk q c) (dtOver S dt) d
        upper)).gas := by
  have hdt : dtOver S dt d = dt / h := by
    cases d
    · simp [dtOver, hx]
    · simp [dtOver, hy]
    · rcases hd with hd | hd
      · simp [dtOver, hz hd]
      · exact absurd rfl hd
  have ex := slope_eq (Φ := Φ) hs junk q hw (d := .x) (Or.inr (by decide)) c
  have ey := slope_eq (Φ := Φ) hs junk q hw (d := .y) (Or.inr (by decide)) c
  have ed := slope_eq (Φ := Φ) hs junk q hw hd c
  cases d3
  · have hzz := slope_off (S := S) (Φ := Φ) (fun c => (q c).gas) c
    have hw' := hw rfl c
    have hgw' := hgw rfl
    have vz : ∀ e : Dir, e.ok false → (slopesAt false S junk q c e).w = 0 := by
      intro e he
      have h1 : ((slopesAt false S junk q c e).gas).vel .z = 0 := by
        rw [← slope_eq (Φ := Φ) hs junk q hw he c]
        simp only [Scheme.slope]
        split_ifs
        · simp [Scheme.limited, HState.gas, Dir.pick, hw rfl]
        · rfl
      exact h1
    have hdw := vz d hd
    have hxw := vz .x (Or.inr (by decide))
    have hyw := vz .y (Or.inr (by decide))
    simp only [Scheme.faceState, Scheme.rate, ed, hg, sumAxes, axes]
    generalize slopesAt false S junk q c = dq at *
    simp only [schemeOf, Bool.false_eq_true, if_false, List.map_cons, List.map_nil,
      List.sum_cons, List.sum_nil] at ex ey hzz ⊢
    simp only [ex, ey]
    have hv : (fun e => (q c).gas.vel e + (if upper = true then 1 / 2 else -1 / 2) *
        (dq d).gas.vel e + dt / 2 * (-((q c).gas.vel .x * ((dq .x).gas.vel e / Dir.pick S.dx S.dy S.dz .x) +
          ((q c).gas.vel .y * ((dq .y).gas.vel e / Dir.pick S.dx S.dy S.dz .y) + 0)) -
          (({ d3 := false, γ := S.gamma0, θ := S.slope_type, rhoMin := S.smallr,
              tempMin := S.smallp, h := Dir.pick S.dx S.dy S.dz, riemann := Φ } : Scheme).slope
              (fun c => (q c).gas) e c).p / Dir.pick S.dx S.dy S.dz e / (q c).gas.rho) +
          dt / 2 * (if grav then Dir.pick (g c).u (g c).v (g c).w else fun _ => 0) e) =
        (pred false grav dt (g c) (traceAlongDir false S (q c) dq (dtOver S dt) d upper)).gas.vel := by
      funext e
      cases e <;> simp only [ex, ey, hzz] <;> cases grav <;>
      simp only [pred, addGravity, traceAlongDir, traceSource, Bool.false_eq_true, if_false, if_true,
        HState.gas, hdt, Dir.pick] <;>
      rops <;>
      cases upper <;> simp only [Bool.false_eq_true, if_false, if_true, hw', hgw', hdw, hxw, hyw, hx, hy] <;>
      ring1
    rw [hv]
    clear hv
    cases grav <;>
    simp only [pred, addGravity, traceAlongDir, traceSource, Bool.false_eq_true, if_false, if_true,
      HState.gas, Gas.mk.injEq, hdt] <;>
    rops <;>
    cases upper <;> simp only [Bool.false_eq_true, if_false, if_true, Dir.pick, hx, hy] <;>
    refine ⟨?_, ?_, trivial⟩ <;> first | ring1 | (congr 1; ring1)
  · have ez := slope_eq (Φ := Φ) hs junk q hw (d := .z) (Or.inl rfl) c
    simp only [Scheme.faceState, Scheme.rate, ed, hg, sumAxes, axes]
    generalize slopesAt true S junk q c = dq at *
    simp only [schemeOf, if_true, List.map_cons, List.map_nil,
      List.sum_cons, List.sum_nil] at ex ey ez ⊢
    simp only [ex, ey, ez]
    have hv : (fun e => (q c).gas.vel e + (if upper = true then 1 / 2 else -1 / 2) *
        (dq d).gas.vel e + dt / 2 * (-((q c).gas.vel .x * ((dq .x).gas.vel e / Dir.pick S.dx S.dy S.dz .x) +
          ((q c).gas.vel .y * ((dq .y).gas.vel e / Dir.pick S.dx S.dy S.dz .y) +
          ((q c).gas.vel .z * ((dq .z).gas.vel e / Dir.pick S.dx S.dy S.dz .z) + 0))) -
          (({ d3 := true, γ := S.gamma0, θ := S.slope_type, rhoMin := S.smallr,
              tempMin := S.smallp, h := Dir.pick S.dx S.dy S.dz, riemann := Φ } : Scheme).slope
              (fun c => (q c).gas) e c).p / Dir.pick S.dx S.dy S.dz e / (q c).gas.rho) +
          dt / 2 * (if grav then Dir.pick (g c).u (g c).v (g c).w else fun _ => 0) e) =
        (pred true grav dt (g c) (traceAlongDir true S (q c) dq (dtOver S dt) d upper)).gas.vel := by
      funext e
      cases e <;> simp only [ex, ey, ez] <;> cases grav <;>
      simp only [pred, addGravity, traceAlongDir, traceSource, Bool.false_eq_true, if_false, if_true,
        HState.gas, hdt, Dir.pick] <;>
      rops <;>
      cases upper <;> simp only [Bool.false_eq_true, if_false, if_true, hx, hy, hz rfl] <;>
      ring1
    rw [hv]
    clear hv
    cases grav <;>
    simp only [pred, addGravity, traceAlongDir, traceSource, Bool.false_eq_true, if_false, if_true,
      HState.gas, Gas.mk.injEq, hdt] <;>
    rops <;>
    cases upper <;> simp only [Bool.false_eq_true, if_false, if_true, Dir.pick, hx, hy, hz rfl] <;>
    refine ⟨?_, ?_, trivial⟩ <;> first | ring1 | (congr 1; ring1)

theorem slopesAt_zero (hs : S.slope_type = 0) (junk : Dir → HState ℝ) (q : Cell → HState ℝ)
    (c : Cell) : slopesAt d3 S junk q c = fun _ => ⟨0, 0, 0, 0, 0⟩ := by
  unfold slopesAt slopes
  rw [if_pos (by simp [ROps.eqb, hs, ROps.lit])]
  simp [HState.zero, ROps.lit]

theorem slope_zero (hs : S.slope_type = 0) (q : Cell → Gas) (d : Dir) (c : Cell) :
    (schemeOf d3 S Φ).slope q d c = ⟨0, 0, fun _ => 0⟩ := by
  unfold Scheme.slope
  simp only [limited_zero _ _ _ hs, ite_self]

theorem face_eq_first (hs : S.slope_type = 0)
    (junk : Dir → HState ℝ) (q : Cell → HState ℝ) (hw : d3 = false → ∀ c, (q c).w = 0)
    {d : Dir} (c : Cell) (grav upper : Bool) (g : Cell → HState ℝ)
    (g' : Cell → Dir → ℝ) (hg : ∀ c, g' c = if grav then Dir.pick (g c).u (g c).v (g c).w
      else fun _ => 0) (hgw : d3 = false → (g c).w = 0) :
    (schemeOf d3 S Φ).faceState dt (fun c => (q c).gas) g' d (if upper then 1/2 else -1/2) c =
      (pred d3 grav dt (g c) (traceAlongDir d3 S (q c) (slopesAt d3 S junk q c) (dtOver S dt) d
        upper)).gas := by
  rw [slopesAt_zero hs]
  simp only [Scheme.faceState, Scheme.rate, slope_zero hs, hg, HState.gas, sumAxes]
  have hm : ((axes d3).map fun _ : Dir => (0 : ℝ)).sum = 0 := by cases d3 <;> simp [axes]
  have e : (schemeOf d3 S Φ).d3 = d3 := rfl
  have e' : (schemeOf d3 S Φ).rhoMin = S.smallr := rfl
  simp only [zero_div, mul_zero, e, e', hm]
  cases d3
  · have hw' := hw rfl c
    have hgw' := hgw rfl
    cases grav <;> cases upper <;>
      simp only [pred, addGravity, traceAlongDir, traceSource, Bool.false_eq_true, if_false,
        if_true, Gas.mk.injEq] <;> rops <;>
      refine ⟨by simp, by simp, ?_⟩ <;> funext e <;> cases e <;>
      simp only [Dir.pick, hw', hgw'] <;> ring1
  · cases grav <;> cases upper <;>
      simp only [pred, addGravity, traceAlongDir, traceSource, Bool.false_eq_true, if_false,
        if_true, Gas.mk.injEq] <;> rops <;>
      refine ⟨by simp, by simp, ?_⟩ <;> funext e <;> cases e <;>
      simp only [Dir.pick] <;> ring1

theorem face_eq (hiso : S.slope_type = 0 ∨ (S.dy = S.dx ∧ (d3 = true → S.dz = S.dx)))
    (hs : S.slope_type = 0 ∨ S.slope_type = 1 ∨ S.slope_type = 2)
    (junk : Dir → HState ℝ) (q : Cell → HState ℝ) (hw : d3 = false → ∀ c, (q c).w = 0)
    {d : Dir} (hd : d.ok d3) (c : Cell) (grav upper : Bool) (g : Cell → HState ℝ)
    (g' : Cell → Dir → ℝ) (hg : ∀ c, g' c = if grav then Dir.pick (g c).u (g c).v (g c).w
      else fun _ => 0) (hgw : d3 = false → (g c).w = 0) :
    (schemeOf d3 S Φ).faceState dt (fun c => (q c).gas) g' d (if upper then 1/2 else -1/2) c =
      (pred d3 grav dt (g c) (traceAlongDir d3 S (q c) (slopesAt d3 S junk q c) (dtOver S dt) d
        upper)).gas := by
  rcases hiso with h0 | ⟨h1, h2⟩
  · exact face_eq_first h0 junk q hw c grav upper g g' hg hgw
  · exact face_eq_iso rfl h1 h2 hs junk q hw hd c grav upper g g' hg hgw

/-- The flux of the model is the flux of the scheme times `dt/h`. -/
theorem flux_eq (hiso : S.slope_type = 0 ∨ (S.dy = S.dx ∧ (d3 = true → S.dz = S.dx)))
    (hs : S.slope_type = 0 ∨ S.slope_type = 1 ∨ S.slope_type = 2)
    (hΦ : ∀ a b, riemann_hydro d3 S a b = some (Φ a b))
    (J : Junk ℝ) (q : Cell → HState ℝ) (hw : d3 = false → ∀ c, (q c).w = 0)
    {d : Dir} (hd : d.ok d3) (c : Cell) (grav : Bool) (g : Cell → HState ℝ)
    (g' : Cell → Dir → ℝ) (hg : ∀ c, g' c = if grav then Dir.pick (g c).u (g c).v (g c).w
      else fun _ => 0) (hgw : d3 = false → ∀ c, (g c).w = 0) :
    (fluxAt d3 S J grav dt q g d c).d =
      dt / (schemeOf d3 S Φ).h d * ((schemeOf d3 S Φ).flux dt (fun c => (q c).gas) g' d c).mass ∧
    (fluxAt d3 S J grav dt q g d c).p =
      dt / (schemeOf d3 S Φ).h d * ((schemeOf d3 S Φ).flux dt (fun c => (q c).gas) g' d c).energy ∧
    (fluxAt d3 S J grav dt q g d c).u =
      dt / (schemeOf d3 S Φ).h d * ((schemeOf d3 S Φ).flux dt (fun c => (q c).gas) g' d c).mom .x ∧
    (fluxAt d3 S J grav dt q g d c).v =
      dt / (schemeOf d3 S Φ).h d * ((schemeOf d3 S Φ).flux dt (fun c => (q c).gas) g' d c).mom .y ∧
    (d3 = true → (fluxAt d3 S J grav dt q g d c).w =
      dt / (schemeOf d3 S Φ).h d * ((schemeOf d3 S Φ).flux dt (fun c => (q c).gas) g' d c).mom .z) := by
  have hdt : dtOver S dt d = dt / (schemeOf d3 S Φ).h d := by cases d <;> rfl
  have eL := face_eq (dt := dt) (Φ := Φ) hiso hs (J.slope c d.tag) q hw hd (c.down d) grav true g g' hg
    (fun e => hgw e _)
  have eR := face_eq (dt := dt) (Φ := Φ) hiso hs (J.slope c 0) q hw hd c grav false g g' hg
    (fun e => hgw e _)
  simp only [if_true, Bool.false_eq_true, if_false] at eL eR
  simp only [Scheme.flux, step_down, eL, eR, fluxAt, fluxOf]
  generalize pred d3 grav dt (g (c.down d)) _ = ql
  generalize pred d3 grav dt (g c) _ = qr
  simp only [faceFlux, hΦ, Option.getD_some, hdt, HState.scale]
  have eR : (schemeOf d3 S Φ).riemann = Φ := rfl
  rw [eR]
  generalize (schemeOf d3 S Φ).h d = h
  have key : ∀ a : HState ℝ, (⟨a.gas.rho, a.gas.p, a.gas.vel d, a.gas.vel (Scheme.other1 d),
      a.gas.vel (Scheme.other2 d)⟩ : HState ℝ) = a.swap d := by
    intro a; cases d <;> rfl
  rw [key, key]
  generalize Φ (ql.swap d) (qr.swap d) = f
  cases d <;> simp [HState.swap, Scheme.other1, rops_mul] <;>
    (try (refine ⟨?_, ?_, ?_, ?_, ?_⟩)) <;> intros <;> (try subst_vars) <;> simp [mul_comm]

theorem consAt_eq (m : Addr → ℝ) (A : Nat) (c : Cell) :
    consAt d3 m A c = (field d3 m A c).cons := by
  cases d3 <;> simp [consAt, HState.cons, field, ROps.lit, ID, IE, IU, IV, IW]

/-- **C60**: on square cells, or on any cells with slope type 0, a step of the code (either
implementation, any supported Riemann solver `Φ`, slope type 0, 1 or 2, with or without gravity,
any boundary condition) computes in every interior cell the update of the MUSCL-Hancock scheme, applied to the grid function found in the input buffer
(ghost cells included) after the step.  Left out: the 3D implementation 1 with gravity, which
differs (see C25); in 2D with gravity, cells whose new density falls below the floor. -/
theorem C60_hancock {P : Grid} {B : Sides} {J : Junk ℝ} {impl : Int} {grav : Bool} {it : Nat}
    {m m' : Addr → ℝ} (hb : BoxSetup d3 (hydroVars d3) 2 P B) (hr : 0 < S.smallr)
    
    (hiso : S.slope_type = 0 ∨ (S.dy = S.dx ∧ (d3 = true → S.dz = S.dx)))
    (hs : S.slope_type = 0 ∨ S.slope_type = 1 ∨ S.slope_type = 2)
    (hΦ : ∀ a b, riemann_hydro d3 S a b = some (Φ a b))
    (himpl : impl = 0 ∨ impl = 1) (hex : ¬ (d3 = true ∧ impl = 1 ∧ grav = true))
    (r : Runs (godunov_unsplit d3 S P J impl grav dt it) m m') {i j k : Nat}
    (hi : i < P.nx.toNat) (hj : j < P.ny.toNat) (hk : k < depth d3 P)
    (hfl : grav = true → d3 = false → S.smallr ≤ m' ((cell d3 P i j k).at (bufOut it) ID)) :
    let new := consAt d3 m' (bufOut it) (cell d3 P i j k)
    let scheme := (schemeOf d3 S Φ).advance dt (consAt d3 m' (bufIn it)) (accel d3 grav m')
      (cell d3 P i j k)
    new.mass = scheme.mass ∧ new.energy = scheme.energy ∧
      ∀ d ∈ axes d3, new.mom d = scheme.mom d := by
  have hv : ValidHydro d3 S := by
    refine ⟨?_, ?_, ?_⟩
    · simpa [ROps.eqb, ROps.lit] using hs
    · intro e
      have := hΦ HState.zero HState.zero
      cases d3 <;> simp [riemann_hydro, e] at this
    · rintro rfl e
      have := hΦ HState.zero HState.zero
      simp [riemann_hydro, e] at this
  obtain ⟨m1, m2, f, y, R⟩ := step_whole (S := S) (J := J) (grav := grav) (dt := dt) (it := it)
    hb himpl m
  obtain rfl := y.unique r
  obtain ⟨b1, b2⟩ := cell_box hb hi hj hk
  set c := cell d3 P i j k
  have ein : field d3 m' (bufIn it) = field d3 m1 (bufIn it) := by
    funext c; simp only [field]
    rw [R.input _ rfl, R.input _ rfl, R.input _ rfl, R.input _ rfl, R.input _ rfl]
  have eg : gfield d3 m' = gfield d3 m1 := by
    funext c; simp only [gfield]
    rw [R.gravity _ rfl, R.gravity _ rfl, R.gravity _ rfl]
  have enew := R.inner c b1 b2
  rw [← ein, ← eg] at enew
  set u := field d3 m' (bufIn it)
  set g := gfield d3 m'
  have hacc : ∀ c, accel d3 grav m' c = if grav then Dir.pick (g c).u (g c).v (g c).w
      else fun _ => 0 := by
    intro c; unfold accel
    cases grav
    · rfl
    · cases d3 <;> simp [g, gfield, ROps.lit]
  have hgw : d3 = false → ∀ c, (g c).w = 0 := by
    rintro rfl c; simp [g, gfield, ROps.lit]
  have huw : d3 = false → ∀ c, (u c).w = 0 := by
    rintro rfl c; simp [u, field, ROps.lit]
  have hqw : d3 = false → ∀ c, (primAt d3 S u c).w = 0 := by
    rintro rfl c; simp [primAt, computePrimitives, ROps.lit]
  -- implementation 1 has the fluxes of implementation 0
  have eflux : stepCell d3 S grav dt (stepFlux d3 S J impl grav dt u g) u g c =
      stepCell d3 S grav dt (fluxAt d3 S J grav dt (primAt d3 S u) g) u g c := by
    refine stepCell_ext (fun d c hd => ?_) u g c
    have h0 : stepFlux d3 S J 0 grav dt u g d c = fluxAt d3 S J grav dt (primAt d3 S u) g d c := by
      simp [stepFlux]
    rcases himpl with rfl | rfl
    · exact h0
    · rw [stepFlux_agree hv ?_ J J u g hd c, h0]
      rintro rfl rfl
      rcases hd with hd | hd
      · exact hex ⟨hd, rfl, rfl⟩
      · exact hd rfl
  rw [eflux] at enew
  have egas : (fun c => (schemeOf d3 S Φ).toGas (consAt d3 m' (bufIn it) c)) =
      fun c => (primAt d3 S u c).gas := by
    funext c
    rw [consAt_eq, toGas_eq hr _ (fun e => huw e c)]; rfl
  have F := fun (d : Dir) (c : Cell) (hd : d.ok d3) =>
    flux_eq (dt := dt) hiso hs hΦ J (primAt d3 S u) hqw hd c grav g
      (accel d3 grav m') hacc hgw
  have fx := fun c => F .x c (Or.inr (by decide))
  have fy := fun c => F .y c (Or.inr (by decide))
  have e1 : consAt d3 m' (bufOut it) c = (stepCell d3 S grav dt
      (fluxAt d3 S J grav dt (primAt d3 S u) g) u g c).cons := by
    rw [consAt_eq, enew]
  have ed : m' (c.at (bufOut it) ID) = (stepCell d3 S grav dt
      (fluxAt d3 S J grav dt (primAt d3 S u) g) u g c).d := by
    rw [← enew]; rfl
  rw [ed] at hfl
  simp only [e1, Scheme.advance, Scheme.update, egas, hacc c, Scheme.kin, axes_mem]
  have hcons : ∀ c, consAt d3 m' (bufIn it) c = (u c).cons := fun c => consAt_eq m' _ c
  simp only [hcons]
  generalize fluxAt d3 S J grav dt (primAt d3 S u) g = G at *
  generalize (schemeOf d3 S Φ).flux dt (fun c => (primAt d3 S u c).gas) (accel d3 grav m') = H
    at *
  clear_value u g
  have up : ∀ d, step d 1 c = c.up d := fun d => step_up d c
  cases d3
  · simp only [schemeOf, Dir.pick] at fx fy
    obtain ⟨a1, a2, a3, a4, -⟩ := fx c
    obtain ⟨b1, b2, b3, b4, -⟩ := fx (c.up .x)
    obtain ⟨c1, c2, c3, c4, -⟩ := fy c
    obtain ⟨d1, d2, d3, d4, -⟩ := fy (c.up .y)
    have hok : ∀ (A : Dir → Prop), (∀ d, d.ok false → A d) ↔ A .x ∧ A .y := fun A =>
      ⟨fun k => ⟨k .x (Or.inr (by decide)), k .y (Or.inr (by decide))⟩, fun k d hd => by
        cases d
        · exact k.1
        · exact k.2
        · simp [Dir.ok] at hd⟩
    rw [hok]
    simp only [stepCell, updCell, HState.plusMinus, HState.cons, sumAxes, axes, schemeOf,
      List.map_cons, List.map_nil, List.sum_cons, List.sum_nil, Bool.false_eq_true, if_false,
      Dir.pick, up] at hfl ⊢
    cases grav
    · simp only [Bool.false_eq_true, if_false, a1, a2, a3, a4, b1, b2, b3, b4, c1, c2, c3, c4,
        d1, d2, d3, d4]
      rops
      exact ⟨by ring, by ring, by ring, by ring⟩
    · simp only [if_true, gravitySource, Bool.false_eq_true, if_false, forall_true_left, Dir.pick,
        a1, a2, a3, a4, b1, b2, b3, b4, c1, c2, c3, c4, d1, d2, d3, d4] at hfl ⊢
      rops
      rw [max_eq_right hfl]
      have e1 : (u c).d + (dt / S.dx * ((H .x c).mass - (H .x (c.up .x)).mass) +
          (dt / S.dy * ((H .y c).mass - (H .y (c.up .y)).mass) + 0)) =
          (u c).d + dt / S.dx * (H .x c).mass - dt / S.dx * (H .x (c.up .x)).mass +
            dt / S.dy * (H .y c).mass - dt / S.dy * (H .y (c.up .y)).mass := by ring
      rw [e1]
      generalize (u c).d + dt / S.dx * (H .x c).mass - dt / S.dx * (H .x (c.up .x)).mass +
            dt / S.dy * (H .y c).mass - dt / S.dy * (H .y (c.up .y)).mass = D
      exact ⟨rfl, by ring, by ring, by ring⟩
  · have fz := fun c => F .z c (Or.inl rfl)
    simp only [schemeOf, Dir.pick] at fx fy fz
    obtain ⟨a1, a2, a3, a4, a5⟩ := fx c
    obtain ⟨b1, b2, b3, b4, b5⟩ := fx (c.up .x)
    obtain ⟨c1, c2, c3, c4, c5⟩ := fy c
    obtain ⟨d1, d2, d3, d4, d5⟩ := fy (c.up .y)
    obtain ⟨k1, k2, k3, k4, k5⟩ := fz c
    obtain ⟨l1, l2, l3, l4, l5⟩ := fz (c.up .z)
    replace a5 := a5 trivial
    replace b5 := b5 trivial
    replace c5 := c5 trivial
    replace d5 := d5 trivial
    replace k5 := k5 trivial
    replace l5 := l5 trivial
    have hok : ∀ (A : Dir → Prop), (∀ d, d.ok true → A d) ↔ A .x ∧ A .y ∧ A .z := fun A =>
      ⟨fun k => ⟨k .x (Or.inl rfl), k .y (Or.inl rfl), k .z (Or.inl rfl)⟩, fun k d hd => by
        cases d
        · exact k.1
        · exact k.2.1
        · exact k.2.2⟩
    rw [hok]
    simp only [stepCell, updCell, HState.plusMinus, HState.cons, sumAxes, axes, schemeOf,
      List.map_cons, List.map_nil, List.sum_cons, List.sum_nil, if_true, Dir.pick, up]
    cases grav
    · simp only [Bool.false_eq_true, if_false, a1, a2, a3, a4, a5, b1, b2, b3, b4, b5, c1, c2, c3,
        c4, c5, d1, d2, d3, d4, d5, k1, k2, k3, k4, k5, l1, l2, l3, l4, l5]
      rops
      exact ⟨by ring, by ring, by ring, by ring, by ring⟩
    · simp only [if_true, gravitySource, Dir.pick, a1, a2, a3, a4, a5, b1, b2, b3, b4, b5, c1, c2, c3,
        c4, c5, d1, d2, d3, d4, d5, k1, k2, k3, k4, k5, l1, l2, l3, l4, l5]
      rops
      have e1 : (u c).d + (dt / S.dx * ((H .x c).mass - (H .x (c.up .x)).mass) +
          (dt / S.dy * ((H .y c).mass - (H .y (c.up .y)).mass) +
          (dt / S.dz * ((H .z c).mass - (H .z (c.up .z)).mass) + 0))) =
          (u c).d + dt / S.dx * (H .x c).mass - dt / S.dx * (H .x (c.up .x)).mass +
            dt / S.dy * (H .y c).mass - dt / S.dy * (H .y (c.up .y)).mass +
            dt / S.dz * (H .z c).mass - dt / S.dz * (H .z (c.up .z)).mass := by ring
      rw [e1]
      generalize (u c).d + dt / S.dx * (H .x c).mass - dt / S.dx * (H .x (c.up .x)).mass +
            dt / S.dy * (H .y c).mass - dt / S.dy * (H .y (c.up .y)).mass +
            dt / S.dz * (H .z c).mass - dt / S.dz * (H .z (c.up .z)).mass = D
      exact ⟨rfl, by ring, by ring, by ring, by ring⟩

/-- The hypotheses are met by a concrete run in two and three dimensions, e.g. 3D, reflecting
walls. -/
example (J : Junk ℝ) (m : Addr → ℝ) : ∃ m',
    Runs (godunov_unsplit true exampleSettings (exampleBox true .reflecting) J 1 false (1 / 10) 0)
      m m' ∧
    (consAt true m' (bufOut 0) (cell true (exampleBox true .reflecting) 2 1 0)).mass =
      ((schemeOf true exampleSettings (riemann_approx true exampleSettings)).advance (1 / 10)
        (consAt true m' (bufIn 0)) (accel true false m')
        (cell true (exampleBox true .reflecting) 2 1 0)).mass := by
  obtain ⟨m', y⟩ := C58_hydro_step (S := exampleSettings) (exampleBox_setup true .reflecting) J 1
    (Or.inr rfl) false (1 / 10) 0 m
  exact ⟨m', y.run, (C60_hancock (exampleBox_setup true .reflecting)
    (by norm_num [exampleSettings]) (Or.inr ⟨rfl, fun _ => rfl⟩) (Or.inr (Or.inl rfl)) (fun _ _ => rfl)
    (Or.inr rfl) (by simp) y.run (by decide) (by decide) (by decide) (by simp)).1⟩
example (J : Junk ℝ) (m : Addr → ℝ) : ∃ m',
    Runs (godunov_unsplit false exampleSettings (exampleBox false .periodic) J 0 false (1 / 10) 0)
      m m' ∧
    (consAt false m' (bufOut 0) (cell false (exampleBox false .periodic) 0 0 0)).energy =
      ((schemeOf false exampleSettings (riemann_approx false exampleSettings)).advance (1 / 10)
        (consAt false m' (bufIn 0)) (accel false false m')
        (cell false (exampleBox false .periodic) 0 0 0)).energy := by
  obtain ⟨m', y⟩ := C58_hydro_step (S := exampleSettings) (exampleBox_setup false .periodic) J 0
    (Or.inl rfl) false (1 / 10) 0 m
  exact ⟨m', y.run, (C60_hancock (exampleBox_setup false .periodic)
    (by norm_num [exampleSettings]) (Or.inr ⟨rfl, fun _ => rfl⟩) (Or.inr (Or.inl rfl)) (fun _ _ => rfl)
    (Or.inl rfl) (by simp) y.run (by decide) (by decide) (by decide) (by simp)).2.1⟩

end Verif
