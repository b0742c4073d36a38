import Verif.Props.C95_C97_MhdScheme
import Verif.Props.C133_C135_MhdVersion2

/-!
# C136: what a version 2 step computes in 3D

Specification: `Spec/MhdScheme.lean`, `advanceVariant`.
-/

namespace Verif

open Spec ROps

/-- The scheme of version 2 in 3D: the smallest pressure of reconstructed states is proportional to the
density. -/
noncomputable def mscheme2Of (S : MSettings ℝ) : MhdScheme :=
  { mschemeOf true S with pMin := fun rho => S.smallp * rho }

variable {S : MSettings ℝ} {P : Grid} {J : MJunk ℝ} {xmin dt : ℝ} {U Q : Cell → MState ℝ} {c : Cell}

/-- The data of version 2 in the form of the predictor of the other versions, with slopes of the face
fields as the scheme has them. -/
noncomputable def pred2v (S : MSettings ℝ) (J : MJunk ℝ) (dt : ℝ) (U Q : Cell → MState ℝ) (c : Cell) :
    Predicted ℝ where
  q := halfOf true S J dt U Q c
  dq := fun t => (slopesOf S J U Q t c).map2 (fun _ y => lit (1/2) * y) (slopesOf S J U Q t c)
  face := fun t up => faceOf true S dt U Q t (if up then step t 1 c else c)
  dface := fun t s up =>
    (mschemeOf true S).slope (fun x => mag (U x) t) s (if up then step t 1 c else c) / 2

theorem face2v (t : Dir) (c : Cell) :
    faceOf true S dt U Q t c = (mschemeOf true S).faceHalf U Q dt t c := by
  have hm : ∀ d, d ∈ axes (mschemeOf true S).d3 := fun d => axes_mem.2 (Or.inl rfl)
  have hh : (mschemeOf true S).h = Dir.pick S.dx S.dy S.dz := rfl
  cases t <;>
  · simp only [faceOf, srcOf, MhdScheme.faceHalf, MhdScheme.curl, MhdScheme.cross, next, hm, hh,
      MState.getB, elecOf, elecAvg, dtOver, Dir.pick, vel, mag,
      if_true, Bool.false_eq_true, if_false, Cell.up, Cell.down, step, Int.sub_eq_add_neg]
    rops
    ring

theorem half2v (hs : S.slope_type = 1 ∨ S.slope_type = 2) (U Q : Cell → MState ℝ) (c : Cell) :
    HalfState (mschemeOf true S) U Q dt c (pred2v S J dt U Q c) := by
  have hok : ∀ d : Dir, d.ok true := fun d => Or.inl rfl
  have hsl : ∀ f : Cell → ℝ, ∀ d c, (mschemeOf true S).slope f d c =
      slopeScalar S.toSettings (f c) (f (c.up d)) (f (c.down d)) := fun f d c => mslope_eq hs f (hok d) c
  have he : (ROps.eqb S.slope_type (lit 1) || ROps.eqb S.slope_type (lit 2)) = true := by
    rcases hs with h | h <;> simp [ROps.eqb, ROps.lit, h]
  have hm : ∀ d, d ∈ axes (mschemeOf true S).d3 := fun d => axes_mem.2 (hok d)
  have hh : (mschemeOf true S).h = Dir.pick S.dx S.dy S.dz := rfl
  have hγ : (mschemeOf true S).γ = S.gamma0 := rfl
  constructor
  · simp only [pred2v, halfOf, updatedPrim3, slopesOf, slopeAlong, he, MhdScheme.rate, mkState, sum3,
      MhdScheme.deriv, hsl, hh, hγ, vel, mag, Dir.pick, dtOver, mslope, MState.map2, MState.setB, if_true]
    rops
    ring
  · simp only [pred2v, halfOf, updatedPrim3, slopesOf, slopeAlong, he, MhdScheme.rate, mkState, sum3,
      MhdScheme.deriv, hsl, hh, hγ, vel, mag, Dir.pick, dtOver, mslope, MState.map2, MState.setB, if_true]
    rops
    ring
  · intro i
    cases i <;>
    · simp only [pred2v, halfOf, updatedPrim3, slopesOf, slopeAlong, he, MhdScheme.rate, mkState, sum3,
        MhdScheme.deriv, MhdScheme.derivField, hsl, hh, hγ, vel, mag, Dir.pick, dtOver, mslope,
        MState.map2, MState.setB, hm, if_true, if_false, reduceCtorEq, step_up, MState.getB]
      rops
      ring
  · intro i
    cases i <;>
    · simp only [pred2v, halfOf, updatedPrim3, slopesOf, slopeAlong, he, MhdScheme.rate, mkState, sum3,
        MhdScheme.deriv, MhdScheme.derivField, hsl, hh, hγ, vel, mag, Dir.pick, dtOver, mslope,
        MState.map2, MState.setB, hm, if_true, if_false, reduceCtorEq, step_up, MState.getB]
      rops
      ring
  · intro t _
    cases t <;>
    · simp only [pred2v, slopesOf, slopeAlong, he, hsl, mslope, MState.map2, MState.setB, if_true]
      rops
      ring
  · intro t _
    cases t <;>
    · simp only [pred2v, slopesOf, slopeAlong, he, hsl, mslope, MState.map2, MState.setB, if_true]
      rops
      ring
  · intro t _ i
    cases t <;> cases i <;>
    · simp only [pred2v, slopesOf, slopeAlong, he, hsl, mslope, MState.map2, MState.setB, if_true, vel]
      rops
      ring
  · intro t _ i hi
    cases t <;> cases i <;> first
      | exact absurd rfl hi
      | (simp only [pred2v, slopesOf, slopeAlong, he, hsl, mslope, MState.map2, MState.setB, if_true, mag]
         rops
         ring)
  · exact fun t _ up => face2v t _
  · exact fun t _ s _ _ up => rfl

/-- The floors of version 2. -/
theorem floor2v {q : MState ℝ} {σ : Dir → ℝ} (h : mfloor true S q = (mschemeOf true S).state U Q dt σ c)
    (hp : q.p = (mschemeOf true S).at' U Q dt (·.p) σ c) :
    mfloor false S q = (mscheme2Of S).state U Q dt σ c := by
  have h0 : (mfloor true S q).d = ((mschemeOf true S).state U Q dt σ c).d := congrArg MState.d h
  have h1 : (mfloor false S q).d = ((mschemeOf true S).state U Q dt σ c).d := h0
  have h2 := fun i => congrArg (vel · i) h
  have h3 := fun i => congrArg (mag · i) h
  simp only [mfloor_vel, mfloor_mag] at h2 h3
  unfold MhdScheme.state
  refine mkState_ext h1 ?_ (fun i => ?_) (fun i => ?_)
  · have e : (mfloor false S q).p = max (S.smallp * (mfloor false S q).d) q.p := by
      simp only [mfloor]; rops; rfl
    rw [e, hp, h1]
    rfl
  · rw [mfloor_vel, h2]; cases i <;> rfl
  · rw [mfloor_mag, h3]; cases i <;> rfl

/-- States at faces. -/
theorem face_state2v (hs : S.slope_type = 1 ∨ S.slope_type = 2) (d : Dir) (up : Bool) :
    faceState2 S d up (halfOf true S J dt U Q c) (slopesOf S J U Q d c)
      (faceOf true S dt U Q d (if up then step d 1 c else c)) =
      (mscheme2Of S).state U Q dt (MhdScheme.offset d (sgn up)) c := by
  have H := half2v (J := J) (dt := dt) hs U Q c
  refine floor2v (half_face H (Or.inl rfl) up) ?_
  have hm : d ∈ axes (mschemeOf true S).d3 := axes_mem.2 (Or.inl rfl)
  have hq : (halfOf true S J dt U Q c).p = _ := H.p
  have hdq : lit (1/2) * (slopesOf S J U Q d c).p = _ := H.dp d hm
  rw [MhdScheme.at', sum3_offset, setB_p]
  simp only [MState.map2, plusIf, hq, hdq]
  cases up <;> simp [sgn] <;> ring

theorem floor_with {X Y : MState ℝ} (h1 : X.d = Y.d) (h2 : X.p = Y.p) (h3 : ∀ i, vel X i = vel Y i) :
    mfloor false S X = { mfloor false S Y with a := X.a, b := X.b, c := X.c } := by
  have hu : X.u = Y.u := h3 .x
  have hv : X.v = Y.v := h3 .y
  have hw : X.w = Y.w := h3 .z
  simp only [mfloor, h1, h2, hu, hv, hw]

/-- States at edges. -/
theorem edge_state2v (hs : S.slope_type = 1 ∨ S.slope_type = 2) (e : Dir) (k : Corner) {σ : Dir → ℝ}
    (h1 : σ e.emf.first = sgn k.right) (h2 : σ e.emf.second = sgn k.top)
    (h3 : ∀ t, t ≠ e.emf.first → t ≠ e.emf.second → σ t = 0) :
    edge2Of true S J dt U Q e.emf k c = (mscheme2Of S).edgeVariant U Q dt e σ c := by
  have H := half2v (J := J) (dt := dt) hs U Q c
  have G := half_edge_of H (e := e.emf) (by cases e <;> decide) k h1 h2 h3
  have hm : ∀ d, d ∈ axes (mschemeOf true S).d3 := fun d => axes_mem.2 (Or.inl rfl)
  have hp : ((pred2v S J dt U Q c).q.p + k.comb ((pred2v S J dt U Q c).dq e.emf.first).p
      ((pred2v S J dt U Q c).dq e.emf.second).p) = (mschemeOf true S).at' U Q dt (·.p) σ c := by
    rw [H.p, H.dp _ (hm _), H.dp _ (hm _), corner_comb, MhdScheme.at']
    congr 1
    cases e <;> simp only [Dir.emf, EmfDir.first, EmfDir.second] at h1 h2 h3 ⊢
    · rw [← h1, ← h2]
      have := h3 .x (by decide) (by decide)
      simp only [sum3, this]; ring
    · rw [← h1, ← h2]
      have := h3 .y (by decide) (by decide)
      simp only [sum3, this]; ring
    · rw [← h1, ← h2]
      have := h3 .z (by decide) (by decide)
      simp only [sum3, this]; ring
  simp only [edgeState] at G
  have F := floor2v G (by rw [setB_p, setB_p]; exact hp)
  have hc2 : ∀ x y : ℝ, lit (1/2) * (signed k.right x + signed k.top y) =
      k.comb (lit (1/2) * x) (lit (1/2) * y) := by
    intro x y
    cases k <;> simp only [signed, Corner.comb, Corner.right, Corner.top] <;> rops <;> push_cast <;> ring
  have hpl : ∀ (b : Bool) (x y : ℝ), x + lit (1/2) * signed b y = plusIf b x (y / 2) := by
    intro b x y
    cases b <;> simp only [signed, plusIf] <;> rops <;> push_cast <;> ring
  have hsl : ∀ f : Cell → ℝ, ∀ d c, (mschemeOf true S).slope f d c =
      slopeScalar S.toSettings (f c) (f (c.up d)) (f (c.down d)) :=
    fun f d c => mslope_eq hs f (Or.inl rfl) c
  rw [edge2Of, edgeState2, floor_with (Y := (((pred2v S J dt U Q c).q.map2 (fun x y => x + y)
    (((pred2v S J dt U Q c).dq e.emf.first).map2 (fun x y => k.comb x y)
      ((pred2v S J dt U Q c).dq e.emf.second))).setB e.emf.first
    (plusIf k.top ((pred2v S J dt U Q c).face e.emf.first k.right)
      ((pred2v S J dt U Q c).dface e.emf.first e.emf.second k.right))).setB e.emf.second
    (plusIf k.right ((pred2v S J dt U Q c).face e.emf.second k.top)
      ((pred2v S J dt U Q c).dface e.emf.second e.emf.first k.top))) (by
      rw [setB_d, setB_d]; simp only [hc2]; rfl) (by
      rw [setB_p, setB_p]; simp only [hc2]; rfl) (fun i => by
      rw [setB_vel, setB_vel]; cases i <;> simp only [vel, hc2] <;> rfl), F]
  have hsg : ∀ (b : Bool) (x y : Cell), (if sgn b < 0 then x else y) = if b then y else x := by
    intro b x y
    have hneg : ¬ (1 : ℝ) < 0 := by norm_num
    cases b <;> simp [sgn, hneg]
  have hup : ∀ (d : Dir) (b : Bool), c.upIf d b = if b then step d 1 c else c := by
    intro d b; cases b <;> simp [Cell.upIf, step_up]
  have hf2 : ∀ t c, (mscheme2Of S).faceHalf U Q dt t c = faceOf true S dt U Q t c :=
    fun t c => (face2v t c).symm
  have hs2 : ∀ f t c, (mscheme2Of S).slope f t c = slopeScalar S.toSettings (f c) (f (c.up t)) (f (c.down t)) :=
    fun f t c => hsl f t c
  have fa := congrArg MState.a F
  have fb := congrArg MState.b F
  have fc := congrArg MState.c F
  simp only [MhdScheme.edgeVariant]
  generalize (mscheme2Of S).state U Q dt σ c = st at fa fb fc ⊢
  obtain ⟨d, p, u, v, w, a, b, c'⟩ := st
  have hc : (ROps.eqb S.slope_type (lit 1) || ROps.eqb S.slope_type (lit 2)) = true := by
    rcases hs with h | h <;> simp [ROps.eqb, ROps.lit, h]
  cases e <;> simp only [mfloor, MState.setB, Dir.emf, EmfDir.first, EmfDir.second, MState.map2, pred2v,
      hsl, mag] at fa fb fc h1 h2 h3
  · simp only [Dir.emf, EmfDir.first, EmfDir.second, reduceCtorEq, if_true, if_false, hpl, hc2, limOf, hup,
      MState.getB, MState.mk.injEq, true_and]
    refine ⟨fa, ?_, fc⟩
    rw [slope_peak, h1, h2, hf2, hsg, hs2]
    simp only [slopesOf, slopeAlong, hc, if_true, mslope, MState.map2, MState.setB, MState.getB, mag, step_up]
    cases k <;> simp [Corner.comb, Corner.right, Corner.top, sgn, plusIf] <;> rops <;> ring
  · simp only [Dir.emf, EmfDir.first, EmfDir.second, reduceCtorEq, if_true, if_false, hpl, hc2, limOf, hup,
      MState.getB, MState.mk.injEq, true_and]
    refine ⟨?_, ?_, fc⟩
    · rw [slope_peak, h1, hf2, hsg]
      simp [plusIf]
    · rw [← fb, h1, h2, hs2, hs2]
      simp only [slopesOf, slopeAlong, hc, if_true, mslope, MState.map2, MState.setB, mag]
      cases k <;> simp [Corner.comb, Corner.right, Corner.top, sgn] <;> rops <;> ring
  · simp only [Dir.emf, EmfDir.first, EmfDir.second, reduceCtorEq, if_true, if_false, hpl, hc2, limOf, hup,
      MState.getB, MState.mk.injEq, true_and]
    exact ⟨fa, fb, fc⟩

/-- Fluxes. -/
theorem flux2v (hv : ValidMhd2 S) (d : Dir) (U Q : Cell → MState ℝ) (c : Cell) :
    (flux2Of true S J dt U Q c d).swap d = (mscheme2Of S).flux U Q dt d c := by
  have e1 := face_state2v (J := J) (dt := dt) (U := U) (Q := Q) (c := c.down d) hv.slope d true
  have e2 := face_state2v (J := J) (dt := dt) (U := U) (Q := Q) (c := c) hv.slope d false
  have hd : step d 1 (c.down d) = c := by cases d <;> simp [step, Cell.down]
  simp only [hd, if_true, Bool.false_eq_true, if_false] at e1 e2
  rw [MhdScheme.flux, flux2Of, e1, e2]
  simp only [rotated_swap, step_down, sgn, if_true, Bool.false_eq_true, if_false]
  have hex : ∀ l r : MState ℝ, ∃ F, riemann_mhd S l r = some F := by
    intro l r; rcases hv.riemann with h | h | h <;> simp [riemann_mhd, h]
  obtain ⟨F, hF⟩ := hex (((mscheme2Of S).state U Q dt (MhdScheme.offset d 1) (c.down d)).swap d)
    (((mscheme2Of S).state U Q dt (MhdScheme.offset d (-1)) c).swap d)
  have hr : (mscheme2Of S).riemann = fun l r => (riemann_mhd S l r).getD l := rfl
  rw [hr]
  simp only [hF]; rfl

/-- Electric field. -/
theorem emf2v (hs : S.slope_type = 1 ∨ S.slope_type = 2) (e : Dir) (U Q : Cell → MState ℝ) (c : Cell) :
    emf2Of true S J dt U Q c e.emf = (mscheme2Of S).emfVariant U Q dt e c := by
  have E := fun c k σ => edge_state2v (J := J) (dt := dt) (U := U) (Q := Q) (c := c) hs e k (σ := σ)
  have hd : ∀ (c : Cell) (d e : Dir), (c.down d).down e = (c.down e).down d := by
    intro c d e; cases d <;> cases e <;> rfl
  have hedge : ∀ d, (mscheme2Of S).edge d = compute_emf S d.emf := fun _ => rfl
  simp only [MhdScheme.emfVariant, next, step_down, hedge]
  cases e
  · simp only [Dir.emf] at E ⊢
    simp only [emf2Of, reduceCtorEq, if_false, EmfDir.first, EmfDir.second]
    refine compute_emf_congr ?_ ?_ ?_ ?_
    · rw [hd]
      exact E _ .RT _ (by simp [EmfDir.first, sgn, Corner.right])
        (by simp [EmfDir.second, sgn, Corner.top])
        (fun t h1 h2 => by cases t <;> simp_all [EmfDir.first, EmfDir.second])
    · exact E _ .RB _ (by simp [EmfDir.first, sgn, Corner.right])
        (by simp [EmfDir.second, sgn, Corner.top])
        (fun t h1 h2 => by cases t <;> simp_all [EmfDir.first, EmfDir.second])
    · exact E _ .LT _ (by simp [EmfDir.first, sgn, Corner.right])
        (by simp [EmfDir.second, sgn, Corner.top])
        (fun t h1 h2 => by cases t <;> simp_all [EmfDir.first, EmfDir.second])
    · exact E _ .LB _ (by simp [EmfDir.first, sgn, Corner.right])
        (by simp [EmfDir.second, sgn, Corner.top])
        (fun t h1 h2 => by cases t <;> simp_all [EmfDir.first, EmfDir.second])
  · simp only [Dir.emf] at E ⊢
    simp only [emf2Of, if_true, EmfDir.first, EmfDir.second]
    refine compute_emf_congr ?_ ?_ ?_ ?_
    · exact E _ .RT _ (by simp [EmfDir.first, sgn, Corner.right])
        (by simp [EmfDir.second, sgn, Corner.top])
        (fun t h1 h2 => by cases t <;> simp_all [EmfDir.first, EmfDir.second])
    · exact E _ .LT _ (by simp [EmfDir.first, sgn, Corner.right])
        (by simp [EmfDir.second, sgn, Corner.top])
        (fun t h1 h2 => by cases t <;> simp_all [EmfDir.first, EmfDir.second])
    · exact E _ .RB _ (by simp [EmfDir.first, sgn, Corner.right])
        (by simp [EmfDir.second, sgn, Corner.top])
        (fun t h1 h2 => by cases t <;> simp_all [EmfDir.first, EmfDir.second])
    · exact E _ .LB _ (by simp [EmfDir.first, sgn, Corner.right])
        (by simp [EmfDir.second, sgn, Corner.top])
        (fun t h1 h2 => by cases t <;> simp_all [EmfDir.first, EmfDir.second])
  · simp only [Dir.emf] at E ⊢
    simp only [emf2Of, reduceCtorEq, if_false, EmfDir.first, EmfDir.second]
    refine compute_emf_congr ?_ ?_ ?_ ?_
    · rw [hd]
      exact E _ .RT _ (by simp [EmfDir.first, sgn, Corner.right])
        (by simp [EmfDir.second, sgn, Corner.top])
        (fun t h1 h2 => by cases t <;> simp_all [EmfDir.first, EmfDir.second])
    · exact E _ .RB _ (by simp [EmfDir.first, sgn, Corner.right])
        (by simp [EmfDir.second, sgn, Corner.top])
        (fun t h1 h2 => by cases t <;> simp_all [EmfDir.first, EmfDir.second])
    · exact E _ .LT _ (by simp [EmfDir.first, sgn, Corner.right])
        (by simp [EmfDir.second, sgn, Corner.top])
        (fun t h1 h2 => by cases t <;> simp_all [EmfDir.first, EmfDir.second])
    · exact E _ .LB _ (by simp [EmfDir.first, sgn, Corner.right])
        (by simp [EmfDir.second, sgn, Corner.top])
        (fun t h1 h2 => by cases t <;> simp_all [EmfDir.first, EmfDir.second])

variable {B : Sides} {m m' : Addr → ℝ} {it : Nat}

/-- **C136**: in 3D a version 2 step is, in every interior cell and for all states, boundary conditions
and time steps, one step of the variant `advanceVariant` of the scheme, applied to the input buffer with
its ghost cells: density, energy and momentum change by the fluxes of the MUSCL-Hancock scheme with the
pressure floor `smallp * rho`; the field along the edges `z` is that of the scheme; only the states at the
edges along `x` and `y` differ, in two components of the magnetic field. -/
theorem C136_scheme (h : BoxSetup true 8 3 P B) (hv : ValidMhd2 S) (hr : 0 < S.smallr) (hi : S.cIso ≤ 0)
    (r : Runs (mhd_unsplit true S P J xmin 2 dt it) m m') {i j k : Nat}
    (hx : i < P.nx.toNat) (hy : j < P.ny.toNat) (hz : k < P.nz.toNat) :
    stateAt m' (bufOut it) (cell true P i j k) =
      (mscheme2Of S).advanceVariant (stateAt m' (bufIn it)) dt (cell true P i j k) := by
  obtain ⟨m1, x, y, f, e, R⟩ := mhd_whole2 (S := S) (J := J) (xmin := xmin) (dt := dt) (it := it) h m
  obtain rfl := y.unique r
  have hc := mcell_box h (by decide) hx hy (k := k) (by simpa [depth] using hz)
  have hprim : (mscheme2Of S).prim (mfield m1 (bufIn it)) = primOf true S (mfield m1 (bufIn it)) :=
    funext fun c => mprim_eq (d3 := true) hr hi _ c
  rw [stateAt_eq, stateAt_eq, e, R _ hc.1 hc.2, MhdScheme.advanceVariant, hprim, mstep2Of]
  exact update_eq (d3 := true) (fun d _ c => flux2v hv d _ _ c) (fun e _ c => emf2v hv.slope e _ _ c) _ _

/-- In the states on either side of the faces of cell `c` the pressure is above the floors of all versions. -/
def FacesAboveFloors (S : MSettings ℝ) (dt : ℝ) (U : Cell → MState ℝ) (c : Cell) : Prop :=
  let M := mschemeOf true S
  let ok := fun (σ : Dir → ℝ) (c' : Cell) =>
    S.smallp ≤ M.at' U (M.prim U) dt (·.p) σ c' ∧
    S.smallp * max S.smallr (M.at' U (M.prim U) dt (·.d) σ c') ≤ M.at' U (M.prim U) dt (·.p) σ c'
  ∀ d, ∀ f ∈ [c, step d 1 c], ok (MhdScheme.offset d 1) (step d (-1) f) ∧ ok (MhdScheme.offset d (-1)) f

theorem flux_above {U : Cell → MState ℝ} (ha : FacesAboveFloors S dt U c) (d : Dir) {f : Cell}
    (hf : f ∈ [c, step d 1 c]) : (mscheme2Of S).flux U ((mschemeOf true S).prim U) dt d f =
      (mschemeOf true S).flux U ((mschemeOf true S).prim U) dt d f := by
  obtain ⟨h1, h2⟩ := ha d f hf
  have hst : ∀ {σ : Dir → ℝ} {c : Cell},
      (S.smallp ≤ (mschemeOf true S).at' U ((mschemeOf true S).prim U) dt (·.p) σ c ∧
      S.smallp * max S.smallr ((mschemeOf true S).at' U ((mschemeOf true S).prim U) dt (·.d) σ c) ≤
        (mschemeOf true S).at' U ((mschemeOf true S).prim U) dt (·.p) σ c) →
      (mscheme2Of S).state U ((mschemeOf true S).prim U) dt σ c =
        (mschemeOf true S).state U ((mschemeOf true S).prim U) dt σ c := by
    intro σ c h
    have h1 : ((mscheme2Of S).state U ((mschemeOf true S).prim U) dt σ c).p =
        ((mschemeOf true S).state U ((mschemeOf true S).prim U) dt σ c).p :=
      (max_eq_right h.2).trans (max_eq_right h.1).symm
    exact mkState_ext rfl h1 (fun i => by cases i <;> rfl) (fun i => by cases i <;> rfl)
  rw [MhdScheme.flux, MhdScheme.flux, hst h1, hst h2]
  rfl

/-- Density, energy and momentum depend on the fluxes only. -/
theorem update_same {M M' : MhdScheme} {U : Cell → MState ℝ} {F F' : Dir → Cell → MState ℝ}
    {E E' : Dir → Cell → ℝ} (hb : ∀ g : MState ℝ → ℝ,
      M.balance dt (fun d x => g (F d x)) c = M'.balance dt (fun d x => g (F' d x)) c) {v : Nat}
    (hv : v < 5) : (M.update U dt F E c).get v = (M'.update U dt F' E' c).get v := by
  have h3 := hb (·.d)
  have h4 := hb (·.p)
  have h5 := fun i => hb (vel · i)
  simp only [MhdScheme.update, h3, h4, h5]
  obtain rfl | rfl | rfl | rfl | rfl : v = 0 ∨ v = 1 ∨ v = 2 ∨ v = 3 ∨ v = 4 := by omega
  all_goals rfl

/-- **C136**: in 3D, from the same memory and with the same time step, versions 0, 1 and 2 give a cell
the same density, energy and momentum, unless a pressure floor is active at one of its faces. -/
theorem C136_same_gas {impl : Int} {J' : MJunk ℝ} {m0 m2 : Addr → ℝ} (h : BoxSetup true 8 3 P B)
    (hv : ValidMhd true S) (hv2 : ValidMhd2 S) (hr : 0 < S.smallr) (hi : S.cIso ≤ 0)
    (himpl : impl = 0 ∨ impl = 1) (r0 : Runs (mhd_unsplit true S P J xmin impl dt it) m m0)
    (r2 : Runs (mhd_unsplit true S P J' xmin 2 dt it) m m2) {i j k v : Nat}
    (hx : i < P.nx.toNat) (hy : j < P.ny.toNat) (hz : k < P.nz.toNat) (hvar : v < 5)
    (ha : FacesAboveFloors S dt (stateAt m2 (bufIn it)) (cell true P i j k)) :
    m2 ((cell true P i j k).at (bufOut it) v) = m0 ((cell true P i j k).at (bufOut it) v) := by
  have e2 := C136_scheme h hv2 hr hi r2 hx hy hz
  obtain ⟨f0, x0, y0, F0, -, R0⟩ := mhd_whole (S := S) (J := J) (xmin := xmin) (dt := dt) (it := it) h
    himpl m
  obtain ⟨f2, x2, y2, F2, G2, -⟩ := mhd_whole2 (S := S) (J := J') (xmin := xmin) (dt := dt) (it := it) h m
  obtain rfl := y0.unique r0
  obtain rfl := y2.unique r2
  obtain ⟨b1, b2⟩ := mcell_box h (by decide) hx hy (k := k) (by simpa [depth] using hz)
  have e0 := R0 _ b1 b2
  rw [mstepOf_congr fun c' hw => filled_agree h (fun _ _ _ _ _ _ _ _ => rfl) F0 F2
    (inner_within h b1 b2 hw), mstep_advance hv hv2.slope hr hi, ← G2, ← stateAt_eq] at e0
  rw [stateAt_eq] at e2
  have hp : (mscheme2Of S).prim (stateAt m2 (bufIn it)) = (mschemeOf true S).prim (stateAt m2 (bufIn it)) :=
    rfl
  rw [MhdScheme.advanceVariant, hp] at e2
  rw [MhdScheme.advance] at e0
  rw [← mfield_get m2 _ _ (by omega : v < 8), ← mfield_get m0 _ _ (by omega : v < 8), e2, ← stateAt_eq, e0]
  have hF := fun d => flux_above ha d (f := cell true P i j k) (by simp)
  have hF' := fun d => flux_above ha d (f := step d 1 (cell true P i j k)) (by simp)
  have hb : ∀ g : MState ℝ → ℝ, (mscheme2Of S).balance dt (fun d x => g ((mscheme2Of S).flux
      (stateAt m2 (bufIn it)) ((mschemeOf true S).prim (stateAt m2 (bufIn it))) dt d x)) (cell true P i j k) =
      (mschemeOf true S).balance dt (fun d x => g ((mschemeOf true S).flux
      (stateAt m2 (bufIn it)) ((mschemeOf true S).prim (stateAt m2 (bufIn it))) dt d x))
      (cell true P i j k) := by
    intro g
    simp only [MhdScheme.balance, hF, hF']
    rfl
  exact update_same hb hvar

/-- Hypotheses met: the state of C135, whose field depends on `z`. -/
example (c : Cell) : FacesAboveFloors spotSettings (1 / 100) (fun c => rampState c.k) c := by
  have hr : (0 : ℝ) < spotSettings.smallr := by norm_num [spotSettings, exampleMhd, exampleSettings]
  have hc : spotSettings.cIso ≤ 0 := by norm_num [spotSettings, exampleMhd, exampleSettings]
  have hq : (mschemeOf true spotSettings).prim (fun c => rampState c.k) = fun c => rampPrim c.k :=
    funext fun c => (mprim_eq hr hc _ c).trans (ramp_prim c)
  have e1 : ∀ σ c, (mschemeOf true spotSettings).at' (fun c => rampState c.k) (fun c => rampPrim c.k)
      (1 / 100) (·.p) σ c = 1 := by
    intro σ c
    simp only [MhdScheme.at', MhdScheme.rate, MhdScheme.deriv, rampPrim, mkState, sum3, vel, mag,
      slope_fixed]
    norm_num
  have e2 : ∀ σ c, (mschemeOf true spotSettings).at' (fun c => rampState c.k) (fun c => rampPrim c.k)
      (1 / 100) (·.d) σ c = 1 := by
    intro σ c
    simp only [MhdScheme.at', MhdScheme.rate, MhdScheme.deriv, rampPrim, mkState, sum3, vel, mag,
      slope_fixed]
    norm_num
  intro d f _
  rw [hq]
  simp only [e1, e2]
  norm_num [spotSettings, exampleMhd, exampleSettings]

/-- Hypotheses met: runs from every memory. -/
example (J : MJunk ℝ) (m : Addr → ℝ) : ∃ m',
    Runs (mhd_unsplit true mhdSettings (mhdBox .reflecting) J 0 2 (1 / 10) 3) m m' ∧
    stateAt m' (bufOut 3) (cell true (mhdBox .reflecting) 0 1 2) =
      (mscheme2Of mhdSettings).advanceVariant (stateAt m' (bufIn 3)) (1 / 10)
        (cell true (mhdBox .reflecting) 0 1 2) := by
  obtain ⟨m', y⟩ := C133_step (S := mhdSettings) (mhdBox_setup true .reflecting) J 0 (1 / 10) 3 m
  exact ⟨m', y.run, C136_scheme (mhdBox_setup true .reflecting) ⟨Or.inl rfl, Or.inl rfl⟩
    (by norm_num [mhdSettings, exampleMhd, exampleSettings]) (by norm_num [mhdSettings, exampleMhd, exampleSettings]) y.run
    (by decide) (by decide) (by decide)⟩

end Verif
