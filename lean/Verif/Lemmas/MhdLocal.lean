import Verif.Lemmas.MhdWhole

/-! Helper lemmas: on which cells the MHD scheme depends, invariance under translations, and
independence of uninitialised variables. -/

namespace Verif

open K Function ROps Spec

variable {α : Type} [ROps α]

/-- The settings leave no variable of the MHD step unassigned and make no use of positions. -/
structure MhdDefined (d3 : Bool) (S : MSettings α) : Prop where
  slope : d3 = false → (eqb S.slope_type (lit 1) || eqb S.slope_type (lit 2)) = true
  norot : d3 = true → gtb S.Omega0 (lit 0) = false
  riem : S.riemann = .hlld ∨ S.riemann = .hll ∨ S.riemann = .llf

/-- Offsets between `lo` and `hi`. -/
def Within (d3 : Bool) (lo hi : Int) (c c' : Cell) : Prop :=
  lo ≤ c'.i - c.i ∧ c'.i - c.i ≤ hi ∧ lo ≤ c'.j - c.j ∧ c'.j - c.j ≤ hi ∧
  if d3 then lo ≤ c'.k - c.k ∧ c'.k - c.k ≤ hi else c'.k = c.k

/-- Unfold offsets. -/
macro "within" : tactic => `(tactic|
  (simp only [Within, Near, Cell.up, Cell.down, Cell.shift, Cell.upIf, if_true, Bool.false_eq_true,
      if_false, and_true] at *
   try omega))

section

variable {d3 : Bool} {S : MSettings α} {P : Grid} {J : MJunk α} {xmin dt : α}

theorem primOf_congr' {U U' : Cell → MState α} {c : Cell}
    (hU : ∀ c', Within d3 0 1 c c' → U c' = U' c') : primOf d3 S U c = primOf d3 S U' c := by
  cases d3
  · simp only [primOf, Bool.false_eq_true, if_false]
    rw [hU c (by within), hU (c.up .x) (by within), hU (c.up .y) (by within)]
  · simp only [primOf, if_true]
    rw [hU c (by within), hU (c.up .x) (by within), hU (c.up .y) (by within),
      hU (c.up .z) (by within)]

theorem traceOf_congr {U U' : Cell → MState α} {c : Cell}
    (hU : ∀ c', Within d3 (-1) 2 c c' → U c' = U' c') :
    traceOf d3 S P J xmin dt U c = traceOf d3 S P J xmin dt U' c := by
  refine predOf_congr (fun c' hn => primOf_congr' fun c'' hw => hU _ ?_) (fun c' hn => hU _ ?_) <;>
  · cases d3 <;> within

theorem mfluxOf_congr {T T' : Cell → Predicted α} {c : Cell} {d : Dir} (hd : d ∈ dirs d3)
    (hT : ∀ c', Within d3 (-1) 0 c c' → T c' = T' c') :
    mfluxOf d3 S J T c d = mfluxOf d3 S J T' c d := by
  unfold mfluxOf
  rw [hT c (by cases d3 <;> within),
    hT (c.down d) (by cases d3 <;> cases d <;> simp [dirs] at hd <;> within)]

theorem emfOf_congr {T T' : Cell → Predicted α} {c : Cell} {e : EmfDir} (he : e ∈ emfDirs d3)
    (hT : ∀ c', Within d3 (-1) 0 c c' → T c' = T' c') :
    emfOf d3 S T c e = emfOf d3 S T' c e := by
  have h : ∀ c', Within d3 (-1) 0 c c' → T c' = T' c' := hT
  cases d3
  · cases e <;> simp [emfDirs] at he
    simp only [emfOf]
    rw [h c (by within), h (c.down .x) (by within), h (c.down .y) (by within),
      h ((c.down .x).down .y) (by within)]
  · cases e <;> simp only [emfOf]
    · rw [h c (by within), h (c.down .y) (by within), h (c.down .z) (by within),
        h ((c.down .y).down .z) (by within)]
    · rw [h c (by within), h (c.down .x) (by within), h (c.down .z) (by within),
        h ((c.down .x).down .z) (by within)]
    · rw [h c (by within), h (c.down .x) (by within), h (c.down .y) (by within),
        h ((c.down .x).down .y) (by within)]

theorem dirs_mem {d : Dir} : d ∈ dirs d3 ↔ (d = .z → d3 = true) := by
  cases d3 <;> cases d <;> simp [dirs]

theorem emfDirs_mem {e : EmfDir} : e ∈ emfDirs d3 ↔ (e = .z ∨ d3 = true) := by
  cases d3 <;> cases e <;> simp [emfDirs]

theorem fluxUpd_congr {F F' : Cell → Dir → MState α} {c : Cell} (l : List Dir) (u : MState α)
    (h0 : ∀ d ∈ l, F c d = F' c d) (h1 : ∀ d ∈ l, F (c.up d) d = F' (c.up d) d) :
    fluxUpd d3 S dt F c l u = fluxUpd d3 S dt F' c l u := by
  induction l generalizing u with
  | nil => rfl
  | cons d l ih =>
    simp only [fluxUpd]
    rw [h0 d (by simp), h1 d (by simp)]
    exact ih _ (fun d hd => h0 d (by simp [hd])) (fun d hd => h1 d (by simp [hd]))

theorem emfUpd_congr {E E' : Cell → EmfDir → α} {c : Cell} (u : MState α)
    (h : ∀ e ∈ emfDirs d3, ∀ c', Within d3 0 1 c c' → E c' e = E' c' e) :
    emfUpd d3 S dt E c u = emfUpd d3 S dt E' c u := by
  cases d3
  · simp only [emfUpd, Bool.false_eq_true, if_false]
    rw [h .z (by simp [emfDirs]) c (by within), h .z (by simp [emfDirs]) (c.up .x) (by within),
      h .z (by simp [emfDirs]) (c.up .y) (by within)]
  · simp only [emfUpd, if_true]
    rw [h .z (by simp [emfDirs]) c (by within), h .z (by simp [emfDirs]) (c.up .x) (by within),
      h .z (by simp [emfDirs]) (c.up .y) (by within), h .y (by simp [emfDirs]) c (by within),
      h .y (by simp [emfDirs]) (c.up .x) (by within), h .y (by simp [emfDirs]) (c.up .z) (by within),
      h .x (by simp [emfDirs]) c (by within), h .x (by simp [emfDirs]) (c.up .y) (by within),
      h .x (by simp [emfDirs]) (c.up .z) (by within)]

/-- The update of a cell uses the states at offsets `-2..3`. -/
theorem mstepOf_congr {U U' : Cell → MState α} {c : Cell}
    (hU : ∀ c', Within d3 (-2) 3 c c' → U c' = U' c') :
    mstepOf d3 S P J xmin dt U c = mstepOf d3 S P J xmin dt U' c := by
  have t : ∀ c', Within d3 (-1) 1 c c' →
      traceOf d3 S P J xmin dt U c' = traceOf d3 S P J xmin dt U' c' := fun c' h1 =>
    traceOf_congr fun c'' h2 => hU _ (by cases d3 <;> within)
  unfold mstepOf
  rw [hU c (by cases d3 <;> within)]
  rw [fluxUpd_congr (dirs d3) (U' c)
    (fun d hd => mfluxOf_congr hd fun c' h1 => t c' (by cases d3 <;> within))
    (fun d hd => mfluxOf_congr hd fun c' h1 => t c' (by
      cases d3 <;> cases d <;> simp [dirs] at hd <;> within))]
  exact emfUpd_congr _ fun e he c' h1 => emfOf_congr he fun c'' h2 => t c'' (by
    cases d3 <;> within)

/-! ### Uninitialised variables and positions -/

theorem predict2_junk {J1 J2 : Dir → MState α}
    (hs : (eqb S.slope_type (lit 1) || eqb S.slope_type (lit 2)) = true)
    (q : Int → Int → MState α) (b : Int → Int → BVec α) (x y : α) :
    predict2 S J1 q b x y = predict2 S J2 q b x y := by
  unfold predict2 slope_unsplit_hydro_2d
  simp only [hs, if_true, Option.getD_some]

theorem predict3_xPos (hr : gtb S.Omega0 (lit 0) = false) (q : MState α) (dq : Dir → MState α)
    (bf : Dir → Bool → α) (dbf : Dir → Dir → Bool → α) (Ex Ey Ez : Bool → Bool → α)
    (a b c x y : α) :
    predict3 S q dq bf dbf Ex Ey Ez a b c x = predict3 S q dq bf dbf Ex Ey Ez a b c y := by
  unfold predict3
  simp only [hr, Bool.false_eq_true, if_false]

theorem predOf_junk (hv : MhdDefined d3 S) (P' : Grid) (J' : MJunk α) (xmin' : α)
    (U Q : Cell → MState α) (c : Cell) :
    predOf d3 S P J xmin dt U Q c = predOf d3 S P' J' xmin' dt U Q c := by
  cases d3
  · simp only [predOf, Bool.false_eq_true, if_false, pred2Of]
    exact predict2_junk (hv.slope rfl) _ _ _ _
  · simp only [predOf, if_true, pred3Of]
    exact predict3_xPos (hv.norot rfl) _ _ _ _ _ _ _ _ _ _ _ _

theorem traceOf_junk (hv : MhdDefined d3 S) (P' : Grid) (J' : MJunk α) (xmin' : α)
    (U : Cell → MState α) : traceOf d3 S P J xmin dt U = traceOf d3 S P' J' xmin' dt U := by
  funext c; exact predOf_junk hv _ _ _ _ _ _

theorem mfluxOf_junk (hv : S.riemann = .hlld ∨ S.riemann = .hll ∨ S.riemann = .llf)
    (J' : MJunk α) (T : Cell → Predicted α) : mfluxOf d3 S J T = mfluxOf d3 S J' T := by
  funext c d
  unfold mfluxOf riemann_mhd
  rcases hv with h | h | h <;> simp only [h, Option.getD_some]

theorem mstepOf_junk (hv : MhdDefined d3 S) (P' : Grid) (J' : MJunk α) (xmin' : α)
    (U : Cell → MState α) (c : Cell) :
    mstepOf d3 S P J xmin dt U c = mstepOf d3 S P' J' xmin' dt U c := by
  unfold mstepOf
  rw [traceOf_junk hv P' J' xmin', mfluxOf_junk hv.riem J']

/-! ### Translations -/

variable (t : Int × Int × Int)

/-- Translation of cells. -/
def Cell.move (t : Int × Int × Int) (c : Cell) : Cell := c.shift t.1 t.2.1 t.2.2

theorem Cell.move_up (d : Dir) (c : Cell) : (c.up d).move t = (c.move t).up d := by
  cases d <;> simp only [Cell.up, Cell.move, Cell.shift, Cell.mk.injEq, true_and, and_true] <;> ring

theorem Cell.move_down (d : Dir) (c : Cell) : (c.down d).move t = (c.move t).down d := by
  cases d <;> simp only [Cell.down, Cell.move, Cell.shift, Cell.mk.injEq, true_and, and_true] <;>
    ring

theorem Cell.move_upIf (d : Dir) (b : Bool) (c : Cell) :
    (c.upIf d b).move t = (c.move t).upIf d b := by
  cases b
  · rfl
  · simp only [Cell.upIf, if_true, Cell.move_up]

theorem Cell.move_shift (i j k : Int) (c : Cell) :
    (c.shift i j k).move t = (c.move t).shift i j k := by
  simp only [Cell.move, Cell.shift, Cell.mk.injEq]
  refine ⟨?_, ?_, ?_⟩ <;> ring

theorem primOf_move (U : Cell → MState α) (c : Cell) :
    primOf d3 S (fun x => U (x.move t)) c = primOf d3 S U (c.move t) := by
  simp only [primOf, Cell.move_up]

theorem elecOf_move (U Q : Cell → MState α) (d : Dir) (c : Cell) :
    elecOf (fun x => U (x.move t)) (fun x => Q (x.move t)) d c = elecOf U Q d (c.move t) := by
  cases d <;> simp only [elecOf, elecAvg, Cell.move_down]

theorem dbOf_move (U : Cell → MState α) (d e : Dir) (c : Cell) :
    dbOf S (fun x => U (x.move t)) d e c = dbOf S U d e (c.move t) := by
  simp only [dbOf, Cell.move_down, Cell.move_up]

theorem predOf_move (hv : MhdDefined d3 S) (U Q : Cell → MState α) (c : Cell) :
    predOf d3 S P J xmin dt (fun x => U (x.move t)) (fun x => Q (x.move t)) c =
      predOf d3 S P J xmin dt U Q (c.move t) := by
  cases d3
  · simp only [predOf, Bool.false_eq_true, if_false, pred2Of, Cell.move_shift]
    exact predict2_junk (hv.slope rfl) _ _ _ _
  · simp only [predOf, if_true, pred3Of, Cell.move_up, Cell.move_down, Cell.move_upIf, elecOf_move,
      dbOf_move]
    exact predict3_xPos (hv.norot rfl) _ _ _ _ _ _ _ _ _ _ _ _

theorem traceOf_move (hv : MhdDefined d3 S) (U : Cell → MState α) (c : Cell) :
    traceOf d3 S P J xmin dt (fun x => U (x.move t)) c =
      traceOf d3 S P J xmin dt U (c.move t) := by
  unfold traceOf
  rw [← predOf_move t hv]
  congr 1
  funext x
  exact primOf_move t U x

theorem emfOf_move (T : Cell → Predicted α) (c : Cell) (e : EmfDir) :
    emfOf d3 S (fun x => T (x.move t)) c e = emfOf d3 S T (c.move t) e := by
  cases e <;> simp only [emfOf, Cell.move_down]

theorem mfluxOf_move (hv : MhdDefined d3 S) (T : Cell → Predicted α) (c : Cell) (d : Dir) :
    mfluxOf d3 S J (fun x => T (x.move t)) c d = mfluxOf d3 S J T (c.move t) d := by
  unfold mfluxOf riemann_mhd
  rcases hv.riem with h | h | h <;> simp only [h, Option.getD_some, Cell.move_down]

/-- Equal surroundings give equal electric fields. -/
theorem emf_same (hv : MhdDefined d3 S) {U : Cell → MState α} {c : Cell} {e : EmfDir}
    (he : e ∈ emfDirs d3) (hU : ∀ c', Within d3 (-2) 2 c c' → U c' = U (c'.move t)) :
    emfOf d3 S (traceOf d3 S P J xmin dt U) c e =
      emfOf d3 S (traceOf d3 S P J xmin dt U) (c.move t) e := by
  rw [← emfOf_move t]
  refine emfOf_congr he fun c' h1 => ?_
  rw [← traceOf_move t hv]
  exact traceOf_congr fun c'' h2 => hU _ (by cases d3 <;> within)

/-- Equal surroundings give equal fluxes. -/
theorem mflux_same (hv : MhdDefined d3 S) {U : Cell → MState α} {c : Cell} {d : Dir}
    (hd : d ∈ dirs d3) (hU : ∀ c', Within d3 (-2) 2 c c' → U c' = U (c'.move t)) :
    mfluxOf d3 S J (traceOf d3 S P J xmin dt U) c d =
      mfluxOf d3 S J (traceOf d3 S P J xmin dt U) (c.move t) d := by
  rw [← mfluxOf_move t hv]
  refine mfluxOf_congr hd fun c' h1 => ?_
  rw [← traceOf_move t hv]
  exact traceOf_congr fun c'' h2 => hU _ (by cases d3 <;> within)

end

end Verif
