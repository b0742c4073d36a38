import Verif.Lemmas.MhdVersion2

/-! Helper lemmas: in 2D, implementation version 2 computes what version 0 computes. -/

namespace Verif

open K Function ROps Spec

variable {S : MSettings ℝ} {P : Grid} {J : MJunk ℝ} {xmin dt : ℝ} {U Q : Cell → MState ℝ}

theorem Cell.shift_00 (c : Cell) : c.shift 0 0 0 = c := by simp [Cell.shift]
theorem Cell.shift_10 (c : Cell) : c.shift 1 0 0 = c.up .x := by simp [Cell.shift, Cell.up]
theorem Cell.shift_01 (c : Cell) : c.shift 0 1 0 = c.up .y := by simp [Cell.shift, Cell.up]
theorem Cell.shift_11 (c : Cell) : c.shift 1 1 0 = (c.up .x).up .y := by simp [Cell.shift, Cell.up]
theorem Cell.shift_m0 (c : Cell) : c.shift (-1) 0 0 = c.down .x := by
  simp [Cell.shift, Cell.down, sub_eq_add_neg]
theorem Cell.shift_0m (c : Cell) : c.shift 0 (-1) 0 = c.down .y := by
  simp [Cell.shift, Cell.down, sub_eq_add_neg]
theorem Cell.shift_mm (c : Cell) : c.shift (-1) (-1) 0 = (c.down .x).down .y := by
  simp [Cell.shift, Cell.down, sub_eq_add_neg]
theorem Cell.shift_1m (c : Cell) : c.shift 1 (-1) 0 = (c.up .x).down .y := by
  simp [Cell.shift, Cell.down, Cell.up, sub_eq_add_neg]
theorem Cell.shift_m1 (c : Cell) : c.shift (-1) 1 0 = (c.up .y).down .x := by
  simp [Cell.shift, Cell.down, Cell.up, sub_eq_add_neg]
theorem Cell.upx_downx (c : Cell) : (c.up .x).down .x = c := Cell.down_up _ c
theorem Cell.upy_downy (c : Cell) : (c.up .y).down .y = c := Cell.down_up _ c
theorem Cell.swap_xy (c : Cell) : (c.up .y).up .x = (c.up .x).up .y := rfl
theorem Cell.swap_yx (c : Cell) : (c.up .y).down .x = (c.down .x).up .y := rfl
theorem Cell.swap_xy' (c : Cell) : (c.up .x).down .y = (c.down .y).up .x := rfl

/-- The predictor of the 2D code in terms of the quantities of version 2. -/
theorem pred2_parts (hs : (eqb S.slope_type (lit 1) || eqb S.slope_type (lit 2)) = true) (c : Cell) :
    (pred2Of S (J.slope c) dt U Q c).q = halfOf false S J dt U Q c ∧
    (∀ up, (pred2Of S (J.slope c) dt U Q c).face .x up = faceOf false S dt U Q .x (c.upIf .x up) ∧
      (pred2Of S (J.slope c) dt U Q c).face .y up = faceOf false S dt U Q .y (c.upIf .y up) ∧
      (pred2Of S (J.slope c) dt U Q c).dface .x .y up = 1 / 2 * limOf S U .x .y (c.upIf .x up) ∧
      (pred2Of S (J.slope c) dt U Q c).dface .y .x up = 1 / 2 * limOf S U .y .x (c.upIf .y up)) ∧
    (∀ d, d ≠ .z → (pred2Of S (J.slope c) dt U Q c).dq d =
      (mslope S (Q c) (Q (c.up d)) (Q (c.down d))).map2 (fun x _ => x * (1 / 2))
        (mslope S (Q c) (Q (c.up d)) (Q (c.down d)))) := by
  unfold pred2Of predict2 slope_unsplit_hydro_2d
  simp only [hs, if_true, Option.getD_some, show (0:Int) - 1 = -1 from rfl,
    show (1:Int) - 1 = 0 from rfl, Cell.shift_00, Cell.shift_10, Cell.shift_01, Cell.shift_11,
    Cell.shift_m0, Cell.shift_0m, Cell.shift_mm, Cell.shift_1m, Cell.shift_m1, Dir.pick]
  refine ⟨?_, ?_, ?_⟩
  · simp only [halfOf, updatedPrim2, slopesOf, slopeAlong, hs, if_true, MState.setB, MState.map2,
      MState.getB, MState.bvec, Bool.false_eq_true, if_false, MState.mk.injEq]
    rops
    refine ⟨?_, ?_, ?_, ?_, ?_, ?_, ?_, ?_⟩ <;> ring
  · intro up
    refine ⟨?_, ?_, ?_, ?_⟩ <;> cases up <;>
    simp only [faceOf, srcOf, limOf, elecOf, elecAvg, faceSlope2, MState.getB, MState.bvec, Cell.upIf,
      Bool.false_eq_true, if_false, if_true, reduceCtorEq, Cell.upx_downx, Cell.upy_downy,
      Cell.swap_xy, Cell.swap_yx, Cell.swap_xy'] <;> rops
  · intro d hd
    cases d
    · simp only [MState.map2]; rops
    · simp only [MState.map2]; rops
    · exact (hd rfl).elim

theorem slopesOf_eq (hs : (eqb S.slope_type (lit 1) || eqb S.slope_type (lit 2)) = true) (d : Dir)
    (c : Cell) : slopesOf S J U Q d c = (mslope S (Q c) (Q (c.up d)) (Q (c.down d))).setB d
      ((U (c.up d)).getB d - (U c).getB d) := by
  simp only [slopesOf, slopeAlong, hs, if_true]

theorem faceState_same (hs : (eqb S.slope_type (lit 1) || eqb S.slope_type (lit 2)) = true) (c : Cell)
    {d : Dir} (hd : d ∈ dirs false) (up : Bool) :
    faceState false S (predOf false S P J xmin dt U Q c) d up =
      faceState2 S d up (halfOf false S J dt U Q c) (slopesOf S J U Q d c)
        (faceOf false S dt U Q d (c.upIf d up)) := by
  obtain ⟨p1, p2, p3⟩ := pred2_parts (J := J) (dt := dt) (U := U) (Q := Q) hs c
  simp only [faceState, faceState2, predOf, Bool.false_eq_true, if_false, p1]
  rw [slopesOf_eq hs]
  cases d <;> simp [dirs] at hd
  · rw [(p2 up).1, p3 _ (by decide)]
    congr 1
    cases up <;> simp only [MState.map2, MState.setB, plusIf, MState.mk.injEq, Bool.false_eq_true,
      if_false, if_true] <;> rops <;> refine ⟨?_, ?_, ?_, ?_, ?_, ?_, ?_, ?_⟩ <;> first | trivial | ring
  · rw [(p2 up).2.1, p3 _ (by decide)]
    congr 1
    cases up <;> simp only [MState.map2, MState.setB, plusIf, MState.mk.injEq, Bool.false_eq_true,
      if_false, if_true] <;> rops <;> refine ⟨?_, ?_, ?_, ?_, ?_, ?_, ?_, ?_⟩ <;> first | trivial | ring

theorem edgeState_same (hs : (eqb S.slope_type (lit 1) || eqb S.slope_type (lit 2)) = true) (c : Cell)
    (k : Corner) :
    edgeState false S (predOf false S P J xmin dt U Q c) .z k = edge2Of false S J dt U Q .z k c := by
  obtain ⟨p1, p2, p3⟩ := pred2_parts (J := J) (dt := dt) (U := U) (Q := Q) hs c
  simp only [edgeState, edge2Of, edgeState2, predOf, Bool.false_eq_true, if_false, p1, EmfDir.first,
    EmfDir.second]
  rw [slopesOf_eq hs, slopesOf_eq hs, (p2 k.right).1, (p2 k.right).2.2.1, (p2 k.top).2.1,
    (p2 k.top).2.2.2, p3 _ (by decide), p3 _ (by decide)]
  congr 1
  cases k <;> simp only [MState.map2, MState.setB, plusIf, signed, Corner.comb, Corner.right, Corner.top,
    MState.mk.injEq, Bool.false_eq_true, if_false, if_true, reduceCtorEq] <;> rops <;>
    refine ⟨?_, ?_, ?_, ?_, ?_, ?_, ?_, ?_⟩ <;> ring

/-- In 2D both versions compute the same update. -/
theorem mstep_same (hs : (eqb S.slope_type (lit 1) || eqb S.slope_type (lit 2)) = true) (c : Cell) :
    mstep2Of false S J dt U c = mstepOf false S P J xmin dt U c := by
  have f : ∀ c, ∀ d ∈ dirs false, flux2Of false S J dt U (primOf false S U) c d =
      mfluxOf false S J (traceOf false S P J xmin dt U) c d := fun c d hd => by
    unfold flux2Of mfluxOf traceOf
    rw [faceState_same hs _ hd, faceState_same hs _ hd]
    simp only [Cell.upIf, if_true, Bool.false_eq_true, if_false, Cell.up_down]
  have e : ∀ c, emf2Of false S J dt U (primOf false S U) c .z =
      emfOf false S (traceOf false S P J xmin dt U) c .z := fun c => by
    simp only [emf2Of, emfOf, traceOf, edgeState_same hs, reduceCtorEq, if_false, EmfDir.first,
      EmfDir.second]
  unfold mstep2Of mstepOf
  rw [fluxUpd_congr (dirs false) (U c) (fun d hd => f _ d hd) (fun d hd => f _ d hd)]
  refine emfUpd_congr _ fun d hd c' _ => ?_
  simp only [emfDirs, Bool.false_eq_true, if_false, List.mem_singleton] at hd
  subst hd
  exact e c'

end Verif
