import Verif.Lemmas.MhdWitness
import Verif.Props.C34_C36_MhdStep

/-!
# C34, C49: where the MHD step goes wrong

Concrete runs showing what the hypotheses of C34 (interior upper neighbours or periodic boundaries)
and C49 (supported solver and slope type) exclude.
-/

namespace Verif

open Spec ROps

/-- **C34 fails in the last column next to an absorbing boundary**: there is a state (constant density,
pressure and velocity, some magnetic field) for which one step changes the divergence of the field in a
cell of the last column from 0 to something else.  The upper `x` face of that cell is the lower face
of a ghost cell, which after every ghost fill holds a copy of the lower face of the cell itself. -/
theorem C34_absorbing_fails (J : MJunk ℝ) (impl : Int) (himpl : impl = 0 ∨ impl = 1) :
    ∃ (S : MSettings ℝ) (P : Grid) (m m' : Addr → ℝ), ValidMhd false S ∧
      BoxSetup false 8 3 P (Sides.all .absorbing) ∧ P.nx = 6 ∧
      Runs (mhd_unsplit false S P J 0 impl (1 / 100) 0) m m' ∧
      let c := cell false P 5 3 0
      divergence false S m (bufIn 0) c c (cell false P 5 4 0) c = 0 ∧
      divergence false S m' (bufOut 0) c c (cell false P 5 4 0) c ≠ 0 := by
  obtain ⟨m1, m', y, f, -, R⟩ := mhd_whole (S := spotSettings) (J := J) (xmin := 0) (dt := 1 / 100)
    (it := 0) spotBox_setup himpl spotMem
  refine ⟨spotSettings, spotBox, spotMem, m', ⟨Or.inl rfl, fun _ => Or.inl rfl, fun _ => le_rfl⟩,
    spotBox_setup, rfl, y.run, ?_⟩
  set T := traceOf false spotSettings spotBox J 0 (1 / 100) (mfield m1 (bufIn 0)) with hT
  have em : ∀ i j : Int, 2 ≤ i ∧ i ≤ 9 ∧ 2 ≤ j ∧ j ≤ 9 →
      emfOf false spotSettings T ⟨i, j, 0⟩ .z =
        10 * spotB (1 / 100) (i - 1) j - 10 * spotA (1 / 100) i (j - 1) := by
    intro i j h
    refine spot_emf (c := ⟨i, j, 0⟩) fun c' hw => spot_trace_at J 0 f ?_
    simp only [Within, Bool.false_eq_true, if_false] at hw
    omega
  have fc := fun d hd i j hi hj => face_change spotBox_setup f R (d := d) hd (i := i) (j := j)
    (k := 0) hi hj (by decide)
  rw [← hT] at fc
  have e1 := fc .y (by simp [dirs]) 5 3 (by decide) (by decide)
  have e2 := fc .y (by simp [dirs]) 5 4 (by decide) (by decide)
  have c1 : cell false spotBox 5 3 0 = ⟨8, 6, 0⟩ := rfl
  have c2 : cell false spotBox 5 4 0 = ⟨8, 7, 0⟩ := rfl
  rw [c1] at e1 ⊢
  rw [c2] at e2 ⊢
  simp only [Dir.bvar, IB, Cell.at, faceInc, Cell.up, Bool.false_eq_true, if_false] at e1 e2
  rw [em _ _ (by omega), em _ _ (by omega)] at e1 e2
  simp only [divergence, Bool.false_eq_true, if_false]
  rw [e1, e2]
  constructor
  · norm_num [spotMem, spotState, spot, MState.get]
  · norm_num [spotMem, spotState, spot, MState.get, spotA, spotB, spotSettings, exampleMhd,
      exampleSettings]

/-- **C49 / C29 fail for the solvers `approx` and `hllc`** (not part of the MHD dispatch): whatever
the settings, the state and the (positive) time step, the new density contains uninitialised
fluxes. -/
theorem C49_mhd_solver (d3 : Bool) (S : MSettings ℝ) (hS : S.riemann = .approx ∨ S.riemann = .hllc)
    (hdx : S.dx ≠ 0) (xmin dt : ℝ) (hdt : dt ≠ 0) (b : BC) (impl : Int)
    (himpl : impl = 0 ∨ impl = 1) (it : Nat) (m : Addr → ℝ) :
    ∃ (J J' : MJunk ℝ) (m1 m2 : Addr → ℝ),
      Runs (mhd_unsplit d3 S (mhdBox b) J xmin impl dt it) m m1 ∧
      Runs (mhd_unsplit d3 S (mhdBox b) J' xmin impl dt it) m m2 ∧
      m1 ((cell d3 (mhdBox b) 0 0 0).at (bufOut it) 0) ≠
        m2 ((cell d3 (mhdBox b) 0 0 0).at (bufOut it) 0) := by
  have hb := mhdBox_setup d3 b
  set P := mhdBox b with hP
  set c := cell d3 P 0 0 0 with hc
  set J : MJunk ℝ := ⟨fun _ _ => ⟨0, 0, 0, 0, 0, 0, 0, 0⟩, fun _ _ => ⟨0, 0, 0, 0, 0, 0, 0, 0⟩⟩ with hJ
  set J' : MJunk ℝ := ⟨fun _ _ => ⟨0, 0, 0, 0, 0, 0, 0, 0⟩, fun c' d => if c' = c ∧ d = .x then
    ⟨1, 0, 0, 0, 0, 0, 0, 0⟩ else ⟨0, 0, 0, 0, 0, 0, 0, 0⟩⟩ with hJ'
  obtain ⟨f1, m1, y1, F1, -, R1⟩ := mhd_whole (S := S) (J := J) (xmin := xmin) (dt := dt) (it := it)
    hb himpl m
  obtain ⟨f2, m2, y2, F2, -, R2⟩ := mhd_whole (S := S) (J := J') (xmin := xmin) (dt := dt) (it := it)
    hb himpl m
  refine ⟨J, J', m1, m2, y1.run, y2.run, ?_⟩
  obtain ⟨b1, b2⟩ := mcell_box hb (by decide) (i := 0) (j := 0) (k := 0) (by simp [hP, mhdBox])
    (by simp [hP, mhdBox]) (by cases d3 <;> simp [hP, mhdBox, depth])
  have hn : ∀ q r, riemann_mhd S q r = none := by
    intro q r; unfold riemann_mhd; rcases hS with h | h <;> simp [h]
  have fl : ∀ (J : MJunk ℝ) U d c, stepFlow d3 S P J xmin dt U 0 d c =
      (J.flux c d).d * dtOver S.toSettings dt d := by
    intro J U d c
    unfold stepFlow effFlux mfluxOf
    simp only [hn, Option.getD_none]
    cases d <;> rfl
  rw [← mfield_get m1 _ _ (by decide : 0 < 8), ← mfield_get m2 _ _ (by decide : 0 < 8), R1 c b1 b2,
    R2 c b1 b2, mstep_get _ _ (by decide), mstep_get _ _ (by decide)]
  have e1 : (mfield f1 (bufIn it) c).get 0 = (mfield f2 (bufIn it) c).get 0 := by
    rw [mfield_get _ _ _ (by decide), mfield_get _ _ _ (by decide),
      F1.interior b1 b2 (hb.nv ▸ by decide), F2.interior b1 b2 (hb.nv ▸ by decide)]
  have ux : c.up .x ≠ c := by simp [hc, Cell.up, Cell.ext_iff]
  have q0 : ∀ c' d, (J.flux c' d).d = 0 := by intro c' d; rfl
  have q1 : ∀ c' d, (J'.flux c' d).d = if c' = c ∧ d = .x then 1 else 0 := by
    intro c' d
    simp only [hJ']
    split_ifs <;> rfl
  simp only [fl, q0, q1, ux, e1]
  have ht : dt / S.dx ≠ 0 := div_ne_zero hdt hdx
  simpa [dtOver] using ht

/-- Gas at rest except for a motion along `z`, no field. -/
noncomputable def restState (w : ℝ) : MState ℝ := ⟨1, 1, 0, 0, w, 0, 0, 0⟩

/-- The flux of `z` momentum between two such states. -/
theorem llf_shear (S : MSettings ℝ) (wl wr : ℝ) :
    (riemann_mhd_llf S (restState wl) (restState wr)).w =
      1 / 2 * (max (find_speed_info S (restState wl)) (find_speed_info S (restState wr)) *
        (wl - wr)) := by
  have e : (1 / 2 * ((0 : ℝ) + 0)) = 0 := by norm_num
  simp only [riemann_mhd_llf, MState.map4, find_mhd_flux, restState]
  rops
  rw [e]
  ring_nf

/-- Settings with the given slope type. -/
noncomputable def restSettings (s : ℝ) : MSettings ℝ :=
  { exampleMhd with
    slope_type := s
    riemann := .llf }

theorem rest_prim2 (s : ℝ) (c : Cell) : primOf false (restSettings s) (fun _ => restState 0) c = restState 0 := by
  unfold primOf constoprim_mhd restSettings exampleMhd exampleSettings restState
  rops
  norm_num

/-- Uninitialised slopes of `w`. -/
noncomputable def shearJunk (x : Cell → Dir → ℝ) : MJunk ℝ :=
  ⟨fun c d => ⟨0, 0, 0, 0, x c d, 0, 0, 0⟩, fun _ _ => ⟨0, 0, 0, 0, 0, 0, 0, 0⟩⟩

theorem rest_face (s : ℝ) (h1 : s ≠ 1) (h2 : s ≠ 2) (P : Grid) (x : Cell → Dir → ℝ) (xmin dt : ℝ)
    (c : Cell) (d : Dir) (up : Bool) (hd : d ≠ .z) :
    faceState false (restSettings s) (traceOf false (restSettings s) P (shearJunk x) xmin dt
      (fun _ => restState 0) c) d up = restState (if up then x c d / 2 else -(x c d / 2)) := by
  have hs : (eqb (restSettings s).slope_type (lit 1) || eqb (restSettings s).slope_type (lit 2)) =
      false := by
    simp [eqb, lit, restSettings, h1, h2]
  have hq : primOf false (restSettings s) (fun _ => restState 0) = fun _ => restState 0 :=
    funext (rest_prim2 s)
  simp only [traceOf, predOf, pred2Of, Bool.false_eq_true, if_false, hq, predict2,
    slope_unsplit_hydro_2d, hs, Option.getD_none, faceSlope2, slope_const]
  cases d <;> cases up <;> first
    | exact absurd rfl hd
    | (simp only [faceState, mfloor, MState.map2, MState.setB, shearJunk, restState, MState.bvec,
        restSettings, exampleMhd, exampleSettings]
       rops
       norm_num
       try ring)

/-- **C49 fails for every slope type other than 1 and 2 in 2D MHD** (both implementations): gas at rest
with constant density and pressure and no field; uninitialised slopes set it into motion. -/
theorem C49_mhd_slope_type (s : ℝ) (h1 : s ≠ 1) (h2 : s ≠ 2) (xmin dt : ℝ) (hdt : dt ≠ 0) (impl : Int)
    (himpl : impl = 0 ∨ impl = 1) (it : Nat) :
    ∃ (S : MSettings ℝ) (P : Grid) (J J' : MJunk ℝ) (m m1 m2 : Addr → ℝ),
      S.slope_type = s ∧ S.riemann = .llf ∧ BoxSetup false 8 3 P (Sides.all .periodic) ∧
      Runs (mhd_unsplit false S P J xmin impl dt it) m m1 ∧
      Runs (mhd_unsplit false S P J' xmin impl dt it) m m2 ∧
      m1 ((cell false P 1 0 0).at (bufOut it) 4) = 0 ∧
      m2 ((cell false P 1 0 0).at (bufOut it) 4) ≠ 0 := by
  have hb := mhdBox_setup false .periodic
  set P := mhdBox .periodic with hP
  set c := cell false P 1 0 0 with hc
  set x0 : Cell → Dir → ℝ := fun _ _ => 0 with hx0
  set x1 : Cell → Dir → ℝ := fun c' d => if c' = cell false P 0 0 0 ∧ d = .x then 1 else 0 with hx1
  set m : Addr → ℝ := fun a => (restState 0).get a.v with hm
  set S := restSettings s with hS
  obtain ⟨f1, m1, y1, F1, -, R1⟩ := mhd_whole (S := S) (J := shearJunk x0) (xmin := xmin) (dt := dt)
    (it := it) hb himpl m
  obtain ⟨f2, m2, y2, F2, -, R2⟩ := mhd_whole (S := S) (J := shearJunk x1) (xmin := xmin) (dt := dt)
    (it := it) hb himpl m
  refine ⟨S, P, _, _, m, m1, m2, rfl, rfl, hb, y1.run, y2.run, ?_⟩
  obtain ⟨b1, b2⟩ := mcell_box hb (by decide) (i := 1) (j := 0) (k := 0) (by decide) (by decide)
    (by decide)
  have uni : ∀ {f : Addr → ℝ}, FilledMem false true P (Sides.all .periodic) (bufIn it) m f →
      ∀ c', P.box false c' → mfield f (bufIn it) c' = restState 0 := by
    intro f F c' hc'
    refine MState.ext_get fun v hv => ?_
    rw [mfield_get _ _ _ hv]
    exact F.uniform hb (by decide) ⟨by decide, by decide⟩ ⟨by decide, by decide⟩ (fun h => by cases h)
      (hb.nv ▸ hv) (fun c _ _ => rfl) (by decide) (fun h => by cases h) hc'
  have key : ∀ {f m' : Addr → ℝ} {x : Cell → Dir → ℝ},
      FilledMem false true P (Sides.all .periodic) (bufIn it) m f →
      (∀ c, P.box false c → P.inner false c →
        mfield m' (bufOut it) c = mstepOf false S P (shearJunk x) xmin dt (mfield f (bufIn it)) c) →
      m' (c.at (bufOut it) 4) =
        (stepFlow false S P (shearJunk x) xmin dt (fun _ => restState 0) 4 .x c -
          stepFlow false S P (shearJunk x) xmin dt (fun _ => restState 0) 4 .x (c.up .x)) +
        (stepFlow false S P (shearJunk x) xmin dt (fun _ => restState 0) 4 .y c -
          stepFlow false S P (shearJunk x) xmin dt (fun _ => restState 0) 4 .y (c.up .y)) := by
    intro f m' x F R
    rw [← mfield_get m' _ _ (by decide : 4 < 8), R c b1 b2,
      mstepOf_congr (U' := fun _ => restState 0)
        (fun c' hw => uni F c' (inner_within hb b1 b2 hw)), mstep_get _ _ (by decide)]
    simp only [restState, MState.get, Bool.false_eq_true, if_false]
    ring
  have fl : ∀ (x : Cell → Dir → ℝ) d c', d ≠ .z →
      stepFlow false S P (shearJunk x) xmin dt (fun _ => restState 0) 4 d c' =
      1 / 2 * (max (find_speed_info S (restState (x (c'.down d) d / 2)))
        (find_speed_info S (restState (-(x c' d / 2)))) * (x (c'.down d) d / 2 + x c' d / 2)) * dt := by
    intro x d c' hd
    have hr : ∀ q r, riemann_mhd S q r = some (riemann_mhd_llf S q r) := fun q r => rfl
    unfold stepFlow effFlux mfluxOf
    simp only [hr, Option.getD_some]
    rw [hS, rest_face s h1 h2 _ _ _ _ _ _ _ hd, rest_face s h1 h2 _ _ _ _ _ _ _ hd]
    have hsw : ∀ w, (restState w).swap d = restState w := by
      intro w; cases d <;> first | rfl | exact absurd rfl hd
    have hg : ∀ q : MState ℝ, (q.swap d).get 4 = q.w := by
      intro q; cases d <;> first | rfl | exact absurd rfl hd
    have ht : dtOver (restSettings s).toSettings dt d = dt := by
      cases d <;> simp [dtOver, restSettings, exampleMhd, exampleSettings]
    simp only [if_true, Bool.false_eq_true, if_false, hsw]
    have := llf_shear (restSettings s) (x (c'.down d) d / 2) (-(x c' d / 2))
    rw [sub_neg_eq_add] at this
    cases d <;> simp only [hg, ht, this] <;> exact absurd rfl hd
  rw [key F1 R1, key F2 R2]
  simp only [fl _ .x _ (by decide), fl _ .y _ (by decide)]
  constructor
  · simp [hx0]
  · have a1 : x1 (c.down .x) .x = 1 := if_pos ⟨rfl, rfl⟩
    have a2 : x1 c .x = 0 := if_neg (by simp [hc, cell, Cell.ext_iff])
    have a3 : x1 ((c.up .x).down .x) .x = 0 :=
      if_neg (by simp [hc, cell, Cell.up, Cell.down])
    have a4 : x1 (c.up .x) .x = 0 := if_neg (by simp [hc, cell, Cell.up]; try omega)
    have a5 : ∀ c', x1 c' .y = 0 := fun c' => if_neg (by simp)
    simp only [a1, a2, a3, a4, a5]
    have hp : 0 < find_speed_info S (restState (1 / 2)) := by
      have := fastSpeed_pos (S := S) (q := restState (1 / 2)) (bn := 0) ⟨one_pos, one_pos⟩
        (by norm_num [hS, restSettings, exampleMhd]) (by simp [fieldSq, restState])
      simp only [find_speed_info]
      rops
      have h0 : |(restState (1 / 2)).u| = 0 := by simp [restState]
      rw [h0, add_zero]; exact this
    have hm : 0 < max (find_speed_info S (restState (1 / 2)))
        (find_speed_info S (restState (-(0 / 2)))) := lt_max_of_lt_left hp
    have : max (find_speed_info S (restState (1 / 2)))
        (find_speed_info S (restState (-(0 / 2)))) * dt ≠ 0 := mul_ne_zero hm.ne' hdt
    intro h
    apply this
    linarith

end Verif
