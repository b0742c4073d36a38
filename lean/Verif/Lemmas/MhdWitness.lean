import Verif.Lemmas.MhdFlux
import Verif.Lemmas.MhdEmf
import Verif.Props.C37_C63_MhdRiemann

/-! Helper lemmas for the concrete MHD runs: a flow with constant velocity carrying a field in one
face. -/

namespace Verif

open K Function ROps Spec

/-- Settings used by the examples. -/
noncomputable def spotSettings : MSettings ℝ :=
  { exampleMhd with
    slope_type := 1
    riemann := .hlld
    Omega0 := 0 }

/-- The field through the lower `y` faces: 1 in one place, 0 elsewhere. -/
def spot (i j : Int) : ℝ := if i = 7 ∧ j = 6 then 1 else 0

/-- State of cell `(i,j)`: density 1, pressure 1, velocity `(10,10,0)`. -/
noncomputable def spotState (i j : Int) : MState ℝ where
  d := 1
  p := 101 + ((spot i j + spot i (j + 1)) / 2) ^ 2 / 2
  u := 10
  v := 10
  w := 0
  a := 0
  b := spot i j
  c := 0

/-- Its primitive variables. -/
noncomputable def spotPrim (i j : Int) : MState ℝ where
  d := 1
  p := 1
  u := 10
  v := 10
  w := 0
  a := 0
  b := (spot i j + spot i (j + 1)) / 2
  c := 0

theorem spot_prim (c : Cell) :
    primOf false spotSettings (fun c => spotState c.i c.j) c = spotPrim c.i c.j := by
  unfold primOf constoprim_mhd spotState spotPrim spotSettings exampleMhd exampleSettings
  simp only [Cell.up]
  rops
  norm_num
  ring_nf
  norm_num

theorem slope_const (S : Settings ℝ) (x : ℝ) : slopeScalar S x x x = 0 := by
  unfold slopeScalar; rops; simp

theorem slope_left (S : Settings ℝ) (x y : ℝ) : slopeScalar S x y x = 0 := by
  unfold slopeScalar; rops; simp

theorem slope_right (S : Settings ℝ) (x y : ℝ) : slopeScalar S x x y = 0 := by
  unfold slopeScalar; rops; simp

theorem slope_peak (S : Settings ℝ) (x y : ℝ) : slopeScalar S x y y = 0 := by
  have h : S.slope_type * (x - y) * (S.slope_type * (y - x)) ≤ 0 := by
    nlinarith [sq_nonneg (S.slope_type * (x - y))]
  unfold slopeScalar; rops; simp [h]

theorem spot_slope (S : Settings ℝ) (i j : Int) :
    slopeScalar S (spot i j) (spot (i + 1) j) (spot (i - 1) j) = 0 := by
  unfold spot
  by_cases h : i = 7
  · rw [if_neg (t := (1:ℝ)) (c := i + 1 = 7 ∧ j = 6) (by omega),
      if_neg (t := (1:ℝ)) (c := i - 1 = 7 ∧ j = 6) (by omega)]
    exact slope_peak _ _ _
  · rw [if_neg (t := (1:ℝ)) (c := i = 7 ∧ j = 6) (by omega)]
    by_cases h' : i = 6
    · rw [if_neg (t := (1:ℝ)) (c := i - 1 = 7 ∧ j = 6) (by omega)]
      exact slope_left _ _ _
    · rw [if_neg (t := (1:ℝ)) (c := i + 1 = 7 ∧ j = 6) (by omega)]
      exact slope_right _ _ _

theorem spotB_slope (S : Settings ℝ) (i j : Int) :
    slopeScalar S (spotPrim i j).b (spotPrim (i + 1) j).b (spotPrim (i - 1) j).b = 0 := by
  simp only [spotPrim, spot]
  by_cases h : i = 7
  · have e : ∀ j, ¬ (i + 1 = 7 ∧ j = (6 : Int)) := by omega
    have e' : ∀ j, ¬ (i - 1 = 7 ∧ j = (6 : Int)) := by omega
    simp only [e, e', if_false]
    exact slope_peak _ _ _
  · have e : ∀ j, ¬ (i = 7 ∧ j = (6 : Int)) := by omega
    simp only [e, if_false]
    by_cases h' : i = 6
    · have e' : ∀ j, ¬ (i - 1 = 7 ∧ j = (6 : Int)) := by omega
      simp only [e', if_false]
      exact slope_left _ _ _
    · have e' : ∀ j, ¬ (i + 1 = 7 ∧ j = (6 : Int)) := by omega
      simp only [e', if_false]
      exact slope_right _ _ _

/-- Predicted field through the lower `y` face of `(i,j)`. -/
noncomputable def spotB (t : ℝ) (i j : Int) : ℝ :=
  spot i j - 5 / 2 * t * (spot (i + 1) j - spot (i - 1) j)
/-- Predicted field through the lower `x` face of `(i,j)`. -/
noncomputable def spotA (t : ℝ) (i j : Int) : ℝ :=
  5 / 2 * t * (spot (i - 1) (j + 1) + spot i (j + 1) - spot (i - 1) j - spot i j)

/-- What matters of the predicted states. -/
structure SpotTrace (t : ℝ) (i j : Int) (T : Predicted ℝ) : Prop where
  q : T.q.d = 1 ∧ T.q.p = 1 ∧ T.q.u = 10 ∧ T.q.v = 10 ∧ T.q.w = 0 ∧ T.q.c = 0
  dq : ∀ d, d ≠ Dir.z → (T.dq d).d = 0 ∧ (T.dq d).p = 0 ∧ (T.dq d).u = 0 ∧ (T.dq d).v = 0 ∧
    (T.dq d).w = 0 ∧ (T.dq d).c = 0
  ax : T.face .x false = spotA t i j
  ax' : T.face .x true = spotA t (i + 1) j
  by' : T.face .y false = spotB t i j
  by'' : T.face .y true = spotB t i (j + 1)
  dface : ∀ up, T.dface .x .y up = 0 ∧ T.dface .y .x up = 0

theorem spot_trace (t : ℝ) (junk : Dir → MState ℝ) (i j : Int) :
    SpotTrace t i j (predict2 spotSettings junk (fun di dj => spotPrim (i + di) (j + dj))
      (fun di dj => (spotState (i + di) (j + dj)).bvec) t t) := by
  have hs : (eqb spotSettings.slope_type (lit 1) || eqb spotSettings.slope_type (lit 2)) = true := by
    simp [eqb, lit, spotSettings]
  unfold predict2 slope_unsplit_hydro_2d
  simp only [hs, if_true, Option.getD_some]
  have b1 := spotB_slope spotSettings.toSettings i j
  have f1 := spot_slope spotSettings.toSettings i j
  have f2 := spot_slope spotSettings.toSettings i (j + 1)
  rw [sub_eq_add_neg] at b1 f1 f2
  simp only [spotPrim] at b1
  constructor
  · simp only [mslope, MState.map2, Dir.pick, spotPrim, add_zero, slope_const, b1]
    rops
    simp
  · intro d hd
    cases d
    · simp only [mslope, MState.map2, Dir.pick, spotPrim, add_zero, slope_const]
      rops; simp
    · simp only [mslope, MState.map2, Dir.pick, spotPrim, add_zero, slope_const]
      rops; simp
    · exact absurd rfl hd
  · simp only [spotPrim, spotState, MState.bvec, spotA, add_zero, sub_self, zero_sub]
    rops
    ring_nf
  · simp only [spotPrim, spotState, MState.bvec, spotA, add_zero, sub_self, zero_sub]
    rops
    ring_nf
  · simp only [spotPrim, spotState, MState.bvec, spotB, add_zero, sub_self, zero_sub]
    rops
    ring_nf
  · simp only [spotPrim, spotState, MState.bvec, spotB, add_zero, sub_self, zero_sub]
    rops
    ring_nf
  · intro up
    cases up <;> simp only [spotState, MState.bvec, faceSlope2, add_zero, slope_const, f1, f2] <;>
      rops <;> simp

theorem spot_edge {t : ℝ} {i j : Int} {T : Predicted ℝ} (h : SpotTrace t i j T) (k : Corner) :
    edgeState false spotSettings T .z k = ⟨1, 1, 10, 10, 0,
      if k.right then spotA t (i + 1) j else spotA t i j,
      if k.top then spotB t i (j + 1) else spotB t i j, 0⟩ := by
  obtain ⟨⟨q1, q2, q3, q4, q5, q6⟩, dq, ax, ax', b1, b2, df⟩ := h
  obtain ⟨x1, x2, x3, x4, x5, x6⟩ := dq .x (by decide)
  obtain ⟨y1, y2, y3, y4, y5, y6⟩ := dq .y (by decide)
  have f1 := df false
  have f2 := df true
  cases k <;>
  · simp only [edgeState, mfloor, EmfDir.first, EmfDir.second, MState.map2, MState.setB, Corner.comb,
      Corner.right, Corner.top, plusIf, q1, q2, q3, q4, q5, q6, x1, x2, x3, x4, x5, x6, y1, y2, y3, y4,
      y5, y6, ax, ax', b1, b2, f1, f2, spotSettings, exampleMhd, exampleSettings]
    rops
    norm_num

theorem spot_range (i j : Int) : 0 ≤ spot i j ∧ spot i j ≤ 1 := by
  unfold spot; split_ifs <;> norm_num

theorem spotA_range (i j : Int) : |spotA (1 / 100) i j| ≤ 1 := by
  have h1 := spot_range (i - 1) (j + 1)
  have h2 := spot_range i (j + 1)
  have h3 := spot_range (i - 1) j
  have h4 := spot_range i j
  rw [abs_le]; unfold spotA; constructor <;> linarith

theorem spotB_range (i j : Int) : |spotB (1 / 100) i j| ≤ 2 := by
  have h2 := spot_range (i + 1) j
  have h3 := spot_range (i - 1) j
  have h4 := spot_range i j
  rw [abs_le]; unfold spotB; constructor <;> linarith

theorem half_abs {x y c : ℝ} (hx : |x| ≤ c) (hy : |y| ≤ c) : |1 / 2 * (x + y)| ≤ c := by
  rw [abs_le] at *; constructor <;> linarith

theorem spot_slow {a b : ℝ} (ha : |a| ≤ 1) (hb : |b| ≤ 2) (n : ℝ) :
    fastSpeed spotSettings ⟨1, 1, 10, 10, 0, a, b, 0⟩ n ≤ 10 := by
  refine fast_bound ⟨one_pos, one_pos⟩ (by norm_num [spotSettings, exampleMhd]) (by norm_num) ?_
  have h1 : a ^ 2 ≤ 1 ^ 2 := sq_le_sq' (abs_le.1 ha).1 (abs_le.1 ha).2
  have h2 : b ^ 2 ≤ 2 ^ 2 := sq_le_sq' (abs_le.1 hb).1 (abs_le.1 hb).2
  simp only [soundSq, fieldSq, spotSettings, exampleMhd]
  norm_num
  norm_num at h2
  linarith

theorem spot_emf {T : Cell → Predicted ℝ} {c : Cell}
    (h : ∀ c', Within false (-1) 0 c c' → SpotTrace (1 / 100) c'.i c'.j (T c')) :
    emfOf false spotSettings T c .z =
      10 * spotB (1 / 100) (c.i - 1) c.j - 10 * spotA (1 / 100) c.i (c.j - 1) := by
  have e1 := spot_edge (h ((c.down .x).down .y) (by within)) .RT
  have e2 := spot_edge (h (c.down .x) (by within)) .RB
  have e3 := spot_edge (h (c.down .y) (by within)) .LT
  have e4 := spot_edge (h c (by within)) .LB
  simp only [emfOf]
  rw [e1, e2, e3, e4]
  simp only [Cell.down, Corner.right, Corner.top, if_true, if_false, Bool.false_eq_true, sub_add_cancel]
  have key := (C63_emf (S := spotSettings) ⟨1, 1, 10, 10, 0, spotA (1 / 100) c.i (c.j - 1),
    spotB (1 / 100) (c.i - 1) c.j, 0⟩ ⟨1, 1, 10, 10, 0, spotA (1 / 100) c.i c.j,
    spotB (1 / 100) (c.i - 1) c.j, 0⟩ ⟨1, 1, 10, 10, 0, spotA (1 / 100) c.i (c.j - 1),
    spotB (1 / 100) c.i c.j, 0⟩ ⟨1, 1, 10, 10, 0, spotA (1 / 100) c.i c.j,
    spotB (1 / 100) c.i c.j, 0⟩ 10 10 ?_).1 ?_
  · rw [key]; ring
  · intro q hq
    simp only [thermal, spotSettings, exampleMhd, lt_irrefl, if_false, List.mem_cons,
      List.not_mem_nil, or_false] at hq
    rcases hq with rfl | rfl | rfl | rfl <;>
      exact ⟨spot_slow (half_abs (spotA_range _ _) (spotA_range _ _))
        (half_abs (spotB_range _ _) (spotB_range _ _)) _,
        spot_slow (half_abs (spotA_range _ _) (spotA_range _ _))
        (half_abs (spotB_range _ _) (spotB_range _ _)) _⟩
  · intro q hq
    simp only [thermal, spotSettings, exampleMhd, lt_irrefl, if_false, List.mem_cons,
      List.not_mem_nil, or_false] at hq
    rcases hq with rfl | rfl | rfl | rfl <;> exact ⟨le_rfl, le_rfl⟩

/-- The box of the run. -/
def spotBox : Grid := ⟨6, 6, 3, 3, 8, 2, 2, 2, 2, 2, 2⟩

theorem spotBox_setup : BoxSetup false 8 3 spotBox (Sides.all .absorbing) := by
  constructor <;> intros <;> first | rfl | (simp [spotBox])

/-- The initial memory. -/
noncomputable def spotMem (a : Addr) : ℝ := (spotState a.i a.j).get a.v

theorem spot_filled {U : Nat} {m1 : Addr → ℝ}
    (f : FilledMem false true spotBox (Sides.all .absorbing) U spotMem m1) {c : Cell}
    (hb : spotBox.box false c) : mfield m1 U c = spotState c.i c.j := by
  refine MState.ext_get fun v hv => ?_
  rw [mfield_get _ _ _ hv, f.cells c v hb hv,
    crossAll_real_id ⟨by decide, by decide⟩ ⟨by decide, by decide⟩ (fun h => by cases h)]
  rw [box_iff] at hb
  simp only [spotBox] at hb
  have hs : spotState (srcCell false spotBox (Sides.all .absorbing) c).i
      (srcCell false spotBox (Sides.all .absorbing) c).j = spotState c.i c.j := by
    have h1 : ((srcCell false spotBox (Sides.all .absorbing) c).i = 7) ↔ c.i = 7 := by
      simp only [srcCell, source, spotBox, Sides.all]; split_ifs <;> omega
    have h2 : ((srcCell false spotBox (Sides.all .absorbing) c).j = 6) ↔ c.j = 6 := by
      simp only [srcCell, source, spotBox, Sides.all]; split_ifs <;> omega
    have h3 : ((srcCell false spotBox (Sides.all .absorbing) c).j + 1 = 6) ↔ c.j + 1 = 6 := by
      simp only [srcCell, source, spotBox, Sides.all]; split_ifs <;> omega
    simp only [spotState, spot, h1, h2, h3]
  exact congrArg (fun q => MState.get q v) hs

theorem spot_trace_at {m1 : Addr → ℝ} {U : Nat} (J : MJunk ℝ) (xmin : ℝ)
    (f : FilledMem false true spotBox (Sides.all .absorbing) U spotMem m1) {c : Cell}
    (h : 1 ≤ c.i ∧ c.i ≤ 9 ∧ 1 ≤ c.j ∧ c.j ≤ 9 ∧ c.k = 0) :
    SpotTrace (1 / 100) c.i c.j
      (traceOf false spotSettings spotBox J xmin (1 / 100) (mfield m1 U) c) := by
  rw [traceOf_congr (U' := fun c => spotState c.i c.j)]
  · have e := spot_trace (1 / 100) (J.slope c) c.i c.j
    have hq : primOf false spotSettings (fun c => spotState c.i c.j) =
        fun c => spotPrim c.i c.j := funext spot_prim
    simp only [traceOf, predOf, pred2Of, Bool.false_eq_true, if_false, hq]
    have d1 : dtOver spotSettings.toSettings (1 / 100 : ℝ) .x = 1 / 100 := by
      simp [dtOver, spotSettings, exampleMhd, exampleSettings]
    have d2 : dtOver spotSettings.toSettings (1 / 100 : ℝ) .y = 1 / 100 := by
      simp [dtOver, spotSettings, exampleMhd, exampleSettings]
    rw [d1, d2]
    exact e
  · intro c' hw
    refine spot_filled f ?_
    rw [box_iff]
    simp only [Within, Bool.false_eq_true, if_false] at hw
    simp only [spotBox, Bool.false_eq_true, if_false]
    omega

end Verif
