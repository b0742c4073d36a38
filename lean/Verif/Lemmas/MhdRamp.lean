import Verif.Lemmas.MhdWitness
import Verif.Lemmas.MhdLocal2

/-! Helper lemmas for a 3D run in which implementation versions 0 and 2 differ: constant density,
pressure and velocity `(10,0,10)`, and a field along `x` that depends on `z`. -/

namespace Verif

open K Function ROps Spec

/-- The field along `x`. -/
def ramp (k : Int) : ℝ := if k ≤ 5 then -1 else if k = 6 then 0 else 1

/-- State of the cells with index `k`. -/
noncomputable def rampState (k : Int) : MState ℝ := ⟨1, 101 + ramp k ^ 2 / 2, 10, 0, 10, ramp k, 0, 0⟩
/-- Its primitive variables. -/
noncomputable def rampPrim (k : Int) : MState ℝ := ⟨1, 1, 10, 0, 10, ramp k, 0, 0⟩

/-- The limited slope of the field. -/
def rampSlope (k : Int) : ℝ := if k = 6 then 1 else 0
/-- The field after half a time step. -/
noncomputable def rampHalf (t : ℝ) (k : Int) : ℝ := ramp k - 5 / 2 * t * (ramp (k + 1) - ramp (k - 1))

theorem ramp_prim (c : Cell) :
    primOf true spotSettings (fun c => rampState c.k) c = rampPrim c.k := by
  unfold primOf constoprim_mhd rampState rampPrim spotSettings exampleMhd exampleSettings
  simp only [Cell.up]
  rops
  norm_num
  ring_nf
  norm_num

theorem ramp_slope {S : Settings ℝ} (hS : S.slope_type = 1) (k : Int) :
    slopeScalar S (ramp k) (ramp (k + 1)) (ramp (k - 1)) = rampSlope k := by
  by_cases h6 : k = 6
  · subst h6
    unfold slopeScalar rampSlope ramp
    rops
    norm_num [hS]
  · have e : rampSlope k = 0 := if_neg h6
    rw [e]
    by_cases h5 : k ≤ 5
    · have e1 : ramp (k - 1) = ramp k := by
        unfold ramp; rw [if_pos h5, if_pos (show k - 1 ≤ 5 by omega)]
      rw [e1]
      exact slope_left _ _ _
    · have e1 : ramp (k + 1) = ramp k := by
        unfold ramp
        rw [if_neg h5, if_neg h6, if_neg (show ¬ k + 1 ≤ 5 by omega), if_neg (show ¬ k + 1 = 6 by omega)]
      rw [e1]
      exact slope_right _ _ _

theorem ramp_flat (k : Int) : ramp k * rampSlope k = 0 := by
  unfold ramp rampSlope
  by_cases h6 : k = 6
  · subst h6; norm_num
  · rw [if_neg (t := (1 : ℝ)) h6, mul_zero]

theorem ramp_dt (d : Dir) : dtOver spotSettings.toSettings (1 / 100 : ℝ) d = 1 / 100 := by
  cases d <;> simp [dtOver, spotSettings, exampleMhd, exampleSettings]

theorem ramp_elec (d : Dir) (c : Cell) : elecOf (fun c => rampState c.k) (fun c => rampPrim c.k) d c =
    if d = .y then 5 * (ramp (c.k - 1) + ramp c.k) else 0 := by
  cases d <;> simp only [elecOf, elecAvg, rampState, rampPrim, Cell.down, reduceCtorEq, if_true, if_false]
    <;> rops <;> ring

/-- The state at an edge along `y`. -/
noncomputable def rampEdge (a : ℝ) : MState ℝ := ⟨1, 1, 10, 0, 10, a, 0, 0⟩

theorem ramp_floor (d3 : Bool) (a : ℝ) : mfloor d3 spotSettings (rampEdge a) = rampEdge a := by
  cases d3 <;> simp only [mfloor, rampEdge, spotSettings, exampleMhd, exampleSettings] <;> rops <;> norm_num

/-- Version 0. -/
theorem ramp_edge0 (P : Grid) (J : MJunk ℝ) (xmin : ℝ) (c : Cell) (k : Corner) :
    edgeState true spotSettings (traceOf true spotSettings P J xmin (1 / 100) (fun c => rampState c.k) c)
      .y k = rampEdge (plusIf k.top (rampHalf (1 / 100) c.k) (1 / 2 * rampSlope c.k)) := by
  have hq : primOf true spotSettings (fun c => rampState c.k) = fun c => rampPrim c.k := funext ramp_prim
  have hs : (eqb spotSettings.slope_type (lit 1) || eqb spotSettings.slope_type (lit 2)) = true := by
    simp [eqb, lit, spotSettings]
  have hr : gtb spotSettings.Omega0 (lit 0) = false := by simp [gtb, ltb, lit, spotSettings]
  have s1 := ramp_slope (S := spotSettings.toSettings) rfl c.k
  have s2 := ramp_slope (S := { spotSettings.toSettings with slope_type := fmin spotSettings.slope_type (lit 2) })
    (by simp [fmin, lit, spotSettings]) c.k
  have fl := ramp_flat c.k
  simp only [traceOf, predOf, if_true, pred3Of, hq, predict3, hr, Bool.false_eq_true, if_false, ramp_elec,
    reduceCtorEq, ramp_dt]
  rw [← ramp_floor true]
  unfold edgeState
  refine congrArg (mfloor true spotSettings) ?_
  cases k <;>
  · simp only [EmfDir.first, EmfDir.second, Corner.right, Corner.top, Corner.comb,
      slope_unsplit_hydro_3d, hs, if_true, reduceCtorEq, if_false, mslope, MState.map2, MState.setB,
      MState.getB, rampPrim, rampState, Cell.up, Cell.down, slope_const, dbOf, faceSlope3, s1, s2,
      Cell.upIf, Bool.false_eq_true, plusIf, rampEdge, rampHalf, MState.mk.injEq]
    rops
    norm_num
    refine ⟨?_, ?_⟩ <;> first | exact mul_eq_zero.1 fl | ring

/-- The slope of the face field along `z` that version 2 uses is zero. -/
theorem limOf_z (S : MSettings ℝ) (U : Cell → MState ℝ) (d : Dir) (c : Cell) : limOf S U d .z c = 0 := by
  unfold limOf
  rw [if_pos rfl]
  exact slope_peak _ _ _

/-- Version 2. -/
theorem ramp_edge2 (J : MJunk ℝ) (c : Cell) (k : Corner) :
    edge2Of true spotSettings J (1 / 100) (fun c => rampState c.k)
      (primOf true spotSettings (fun c => rampState c.k)) .y k c = rampEdge (rampHalf (1 / 100) c.k) := by
  have hq : primOf true spotSettings (fun c => rampState c.k) = fun c => rampPrim c.k := funext ramp_prim
  have hs : (eqb spotSettings.slope_type (lit 1) || eqb spotSettings.slope_type (lit 2)) = true := by
    simp [eqb, lit, spotSettings]
  have s1 := ramp_slope (S := spotSettings.toSettings) rfl c.k
  have fl := ramp_flat c.k
  rw [← ramp_floor false, hq]
  unfold edge2Of edgeState2
  refine congrArg (mfloor false spotSettings) ?_
  simp only [EmfDir.first, EmfDir.second, limOf_z, faceOf, srcOf, ramp_elec, ramp_dt, if_true,
    reduceCtorEq, if_false]
  cases k <;>
  · simp only [halfOf, slopesOf, slopeAlong, hs, updatedPrim3, limOf, ramp_dt, Corner.right, Corner.top, if_true, reduceCtorEq, if_false, mslope, MState.map2, MState.setB,
      MState.getB, rampPrim, rampState, Cell.up, Cell.down, slope_const, s1, signed,
      Cell.upIf, Bool.false_eq_true, rampEdge, rampHalf, MState.mk.injEq]
    rops
    norm_num
    refine ⟨?_, ?_⟩ <;> first | exact mul_eq_zero.1 fl | ring

theorem ramp_range (k : Int) : |ramp k| ≤ 1 := by
  unfold ramp; split_ifs <;> simp

theorem rampHalf_range (k : Int) : |rampHalf (1 / 100) k| ≤ 3 / 2 := by
  have h1 := abs_le.1 (ramp_range (k + 1))
  have h2 := abs_le.1 (ramp_range (k - 1))
  have h3 := abs_le.1 (ramp_range k)
  rw [abs_le]; unfold rampHalf; constructor <;> linarith

theorem rampSlope_range (k : Int) : |rampSlope k| ≤ 1 := by
  unfold rampSlope; split_ifs <;> simp

theorem rampTop_range (up : Bool) (k : Int) :
    |plusIf up (rampHalf (1 / 100) k) (1 / 2 * rampSlope k)| ≤ 2 := by
  have h1 := abs_le.1 (rampHalf_range k)
  have h2 := abs_le.1 (rampSlope_range k)
  rw [abs_le]
  cases up <;> simp only [plusIf, Bool.false_eq_true, if_false, if_true] <;> rops <;> constructor <;> linarith

theorem ramp_slow {b : ℝ} (hb : |b| ≤ 2) (n : ℝ) :
    fastSpeed spotSettings ⟨1, 1, 10, 10, 0, 0, b, 0⟩ n ≤ 10 :=
  spot_slow (by simp) hb n

/-- The electric field along `y` for such states. -/
theorem ramp_emf {a1 a2 : ℝ} (h1 : |a1| ≤ 2) (h2 : |a2| ≤ 2) :
    compute_emf spotSettings .y (rampEdge a1) (rampEdge a1) (rampEdge a2) (rampEdge a2) = 10 * a1 := by
  rw [(C63_emf_rotate _ _ _ _).2]
  have key := (C63_emf (S := spotSettings) ⟨1, 1, 10, 10, 0, 0, a1, 0⟩ ⟨1, 1, 10, 10, 0, 0, a1, 0⟩
    ⟨1, 1, 10, 10, 0, 0, a2, 0⟩ ⟨1, 1, 10, 10, 0, 0, a2, 0⟩ 10 10 ?_).1 ?_
  · refine Eq.trans ?_ (key.trans ?_)
    · rfl
    · ring
  · intro q hq
    simp only [thermal, spotSettings, exampleMhd, lt_irrefl, if_false, List.mem_cons,
      List.not_mem_nil, or_false] at hq
    have e : (1 / 2 * ((0 : ℝ) + 0)) = 0 := by norm_num
    rw [e] at hq
    rcases hq with rfl | rfl | rfl | rfl <;>
      exact ⟨ramp_slow (half_abs (by assumption) (by assumption)) _,
        ramp_slow (half_abs (by assumption) (by assumption)) _⟩
  · intro q hq
    simp only [thermal, spotSettings, exampleMhd, lt_irrefl, if_false, List.mem_cons,
      List.not_mem_nil, or_false] at hq
    rcases hq with rfl | rfl | rfl | rfl <;> exact ⟨le_rfl, le_rfl⟩

theorem ramp_emf0 (P : Grid) (J : MJunk ℝ) (xmin : ℝ) (c : Cell) :
    emfOf true spotSettings (traceOf true spotSettings P J xmin (1 / 100) (fun c => rampState c.k)) c .y =
      10 * (rampHalf (1 / 100) (c.k - 1) + 1 / 2 * rampSlope (c.k - 1)) := by
  simp only [emfOf]
  rw [ramp_edge0, ramp_edge0, ramp_edge0, ramp_edge0]
  exact ramp_emf (rampTop_range true _) (rampTop_range false _)

theorem ramp_emf2 (J : MJunk ℝ) (c : Cell) :
    emf2Of true spotSettings J (1 / 100) (fun c => rampState c.k)
      (primOf true spotSettings (fun c => rampState c.k)) c .y = 10 * rampHalf (1 / 100) (c.k - 1) := by
  simp only [emf2Of, if_true, EmfDir.first, EmfDir.second]
  rw [ramp_edge2, ramp_edge2, ramp_edge2, ramp_edge2]
  have h := fun k => (rampHalf_range k).trans (show (3 / 2 : ℝ) ≤ 2 by norm_num)
  exact ramp_emf (h _) (h _)

/-- The box of the run. -/
def rampBox : Grid := ⟨3, 3, 6, 3, 8, 2, 2, 2, 2, 2, 2⟩

theorem rampBox_setup : BoxSetup true 8 3 rampBox (Sides.all .absorbing) := by
  constructor <;> intros <;> first | rfl | (simp [rampBox])

/-- The initial memory. -/
noncomputable def rampMem (a : Addr) : ℝ := (rampState a.k).get a.v

theorem ramp_filled {U : Nat} {m1 : Addr → ℝ}
    (f : FilledMem true true rampBox (Sides.all .absorbing) U rampMem m1) {c : Cell}
    (hb : rampBox.box true c) : mfield m1 U c = rampState c.k := by
  refine MState.ext_get fun v hv => ?_
  rw [mfield_get _ _ _ hv, f.cells c v hb hv,
    crossAll_real_id ⟨by decide, by decide⟩ ⟨by decide, by decide⟩ (fun _ => ⟨by decide, by decide⟩)]
  rw [box_iff] at hb
  simp only [rampBox, if_true] at hb
  have hs : rampState (srcCell true rampBox (Sides.all .absorbing) c).k = rampState c.k := by
    have h1 : ((srcCell true rampBox (Sides.all .absorbing) c).k ≤ 5) ↔ c.k ≤ 5 := by
      simp only [srcCell, source, rampBox, Sides.all, if_true]; split_ifs <;> omega
    have h2 : ((srcCell true rampBox (Sides.all .absorbing) c).k = 6) ↔ c.k = 6 := by
      simp only [srcCell, source, rampBox, Sides.all, if_true]; split_ifs <;> omega
    simp only [rampState, ramp, h1, h2]
  exact congrArg (fun q => MState.get q v) hs

end Verif
