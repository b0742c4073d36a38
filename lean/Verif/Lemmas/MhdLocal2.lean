import Verif.Lemmas.MhdVersion2
import Verif.Lemmas.MhdForm

/-! Helper lemmas: on which cells implementation version 2 of the MHD step depends, invariance under
translations, independence of uninitialised variables. -/

namespace Verif

open K Function ROps Spec

section

variable {α : Type} [ROps α] {d3 : Bool} {S : MSettings α} {J : MJunk α} {dt : α}
  {U U' Q Q' : Cell → MState α} {c : Cell}

/-- Equal states in all cells around `c`. -/
def Close (d3 : Bool) (U U' Q Q' : Cell → MState α) (c : Cell) : Prop :=
  ∀ c', Near d3 1 c c' → Q c' = Q' c' ∧ U c' = U' c'

theorem Close.slopes (h : Close d3 U U' Q Q' c) {d : Dir} (hd : d ∈ dirs d3) :
    slopesOf S J U Q d c = slopesOf S J U' Q' d c :=
  slopesOf_congr (h _ (near_self c)).1 (h _ (near_up hd)).1 (h _ (near_down hd)).1
    (h _ (near_self c)).2 (h _ (near_up hd)).2

theorem Close.half (h : Close d3 U U' Q Q' c) :
    halfOf d3 S J dt U Q c = halfOf d3 S J dt U' Q' c := by
  unfold halfOf
  cases d3
  · simp only [Bool.false_eq_true, if_false]
    rw [h.slopes (d := .x) (by simp [dirs]), h.slopes (d := .y) (by simp [dirs]),
      (h _ (near_self c)).1, (h _ (near_self c)).2, (h (c.up .x) (near_up (by simp [dirs]))).2,
      (h (c.up .y) (near_up (by simp [dirs]))).2]
  · simp only [if_true]
    rw [h.slopes (d := .x) (by simp [dirs]), h.slopes (d := .y) (by simp [dirs]),
      h.slopes (d := .z) (by simp [dirs]),
      (h _ (near_self c)).1, (h _ (near_self c)).2, (h (c.up .x) (near_up (by simp [dirs]))).2,
      (h (c.up .y) (near_up (by simp [dirs]))).2, (h (c.up .z) (near_up (by simp [dirs]))).2]

theorem Close.elec (h : Close d3 U U' Q Q' c) {v e : Dir} (hv : d3 = false → v = .z)
    (he : e ∈ dirs d3) (hne : v ≠ e) :
    elecOf U Q v c = elecOf U' Q' v c ∧ elecOf U Q v (c.up e) = elecOf U' Q' v (c.up e) := by
  have q := fun c' hc' => (h c' hc').1
  have u := fun c' hc' => (h c' hc').2
  cases d3
  · obtain rfl := hv rfl
    cases e <;> simp [dirs] at he <;> unfold elecOf elecAvg <;> constructor <;> simp only <;>
    · rw [q _ ?_, q _ ?_, q _ ?_, q _ ?_, u _ ?_, u _ ?_, u _ ?_] <;> near
  · cases v <;> cases e <;> simp at hne <;> unfold elecOf elecAvg <;> constructor <;> simp only <;>
    · rw [q _ ?_, q _ ?_, q _ ?_, q _ ?_, u _ ?_, u _ ?_, u _ ?_] <;> near

theorem Close.src (h : Close d3 U U' Q Q' c) {d : Dir} (hd : d ∈ dirs d3) :
    srcOf d3 S dt U Q d c = srcOf d3 S dt U' Q' d c := by
  unfold srcOf
  have x : Dir.x ∈ dirs d3 := by simp [dirs_mem]
  have y : Dir.y ∈ dirs d3 := by simp [dirs_mem]
  cases d3
  · cases d <;> simp [dirs] at hd <;> simp only [Bool.false_eq_true, if_false]
    · rw [(h.elec (v := .z) (fun _ => rfl) y (by decide)).1, (h.elec (v := .z) (fun _ => rfl) y (by decide)).2]
    · rw [(h.elec (v := .z) (fun _ => rfl) x (by decide)).1, (h.elec (v := .z) (fun _ => rfl) x (by decide)).2]
  · have z : Dir.z ∈ dirs true := by simp [dirs_mem]
    have n : ∀ v : Dir, true = false → v = .z := fun _ e => by cases e
    simp only [if_true, (h.elec (n .z) x (by decide)).1, (h.elec (n .z) x (by decide)).2,
      (h.elec (n .z) y (by decide)).2, (h.elec (n .y) x (by decide)).1, (h.elec (n .y) x (by decide)).2,
      (h.elec (n .y) z (by decide)).2, (h.elec (n .x) y (by decide)).1, (h.elec (n .x) y (by decide)).2,
      (h.elec (n .x) z (by decide)).2]

theorem Close.face (h : Close d3 U U' Q Q' c) {d : Dir} (hd : d ∈ dirs d3) :
    faceOf d3 S dt U Q d c = faceOf d3 S dt U' Q' d c := by
  unfold faceOf
  rw [h.src hd, (h _ (near_self c)).2]

theorem Close.lim (h : Close d3 U U' Q Q' c) {d t : Dir} (ht : t ∈ dirs d3) :
    limOf S U d t c = limOf S U' d t c := by
  unfold limOf
  rw [(h _ (near_self c)).2, (h _ (near_up ht)).2]
  by_cases hz : t = .z
  · subst hz
    rw [if_pos rfl, (h _ (near_up ht)).2]
  · rw [if_neg hz, (h _ (near_down ht)).2]

theorem flux2_close {d : Dir} (hd : d ∈ dirs d3) (h : Close d3 U U' Q Q' c)
    (h' : Close d3 U U' Q Q' (c.down d)) :
    flux2Of d3 S J dt U Q c d = flux2Of d3 S J dt U' Q' c d := by
  unfold flux2Of
  rw [h.half, h.slopes hd, h.face hd, h'.half, h'.slopes hd]

theorem edge2_close {e : EmfDir} {k : Corner} (h1 : e.first ∈ dirs d3) (h2 : e.second ∈ dirs d3)
    (h : Close d3 U U' Q Q' c) (hf : Close d3 U U' Q Q' (c.upIf e.first k.right))
    (hs : Close d3 U U' Q Q' (c.upIf e.second k.top)) :
    edge2Of d3 S J dt U Q e k c = edge2Of d3 S J dt U' Q' e k c := by
  unfold edge2Of
  rw [h.half, h.slopes h1, h.slopes h2, hf.face h1, hf.lim h2, hs.face h2, hs.lim h1]

theorem edge_dirs {e : EmfDir} (he : e ∈ emfDirs d3) : e.first ∈ dirs d3 ∧ e.second ∈ dirs d3 := by
  cases d3 <;> cases e <;> simp [emfDirs] at he <;> simp [dirs, EmfDir.first, EmfDir.second]

theorem emf2_close {e : EmfDir} (he : e ∈ emfDirs d3)
    (h : ∀ c', Within d3 (-1) 0 c c' → Close d3 U U' Q Q' c') :
    emf2Of d3 S J dt U Q c e = emf2Of d3 S J dt U' Q' c e := by
  obtain ⟨h1, h2⟩ := edge_dirs he
  have w : ∀ a b, a ∈ dirs d3 → b ∈ dirs d3 → a ≠ b →
      Within d3 (-1) 0 c c ∧ Within d3 (-1) 0 c (c.down a) ∧ Within d3 (-1) 0 c (c.down b) ∧
      Within d3 (-1) 0 c ((c.down a).down b) := by
    intro a b ha hb hab
    cases d3 <;> cases a <;> cases b <;> simp [dirs] at ha hb hab <;> within
  have hne : e.first ≠ e.second := by cases e <;> decide
  obtain ⟨w0, wf, ws, wfs⟩ := w _ _ h1 h2 hne
  have sw : ((c.down e.first).down e.second).up e.first = c.down e.second := by
    cases e <;> simp [EmfDir.first, EmfDir.second, Cell.up, Cell.down]
  have a1 := edge2_close (S := S) (J := J) (dt := dt) (k := .RT) h1 h2 (h _ wfs)
    (by simp only [Cell.upIf, Corner.right, if_true, sw]; exact h _ ws)
    (by simp only [Cell.upIf, Corner.top, if_true, Cell.up_down]; exact h _ wf)
  have a2 := edge2_close (S := S) (J := J) (dt := dt) (k := .RB) h1 h2 (h _ wf)
    (by simp only [Cell.upIf, Corner.right, if_true, Cell.up_down]; exact h _ w0)
    (by simp only [Cell.upIf, Corner.top, Bool.false_eq_true, if_false]; exact h _ wf)
  have a3 := edge2_close (S := S) (J := J) (dt := dt) (k := .LT) h1 h2 (h _ ws)
    (by simp only [Cell.upIf, Corner.right, Bool.false_eq_true, if_false]; exact h _ ws)
    (by simp only [Cell.upIf, Corner.top, if_true, Cell.up_down]; exact h _ w0)
  have a4 := edge2_close (S := S) (J := J) (dt := dt) (k := .LB) h1 h2 (h _ w0)
    (by simp only [Cell.upIf, Corner.right, Bool.false_eq_true, if_false]; exact h _ w0)
    (by simp only [Cell.upIf, Corner.top, Bool.false_eq_true, if_false]; exact h _ w0)
  unfold emf2Of
  simp only [a1, a2, a3, a4]

theorem close_prim (hU : ∀ c', Within d3 (-1) 2 c c' → U c' = U' c') :
    Close d3 U U' (primOf d3 S U) (primOf d3 S U') c := fun c' hn =>
  ⟨primOf_congr' fun c'' hw => hU _ (by cases d3 <;> within), hU _ (by cases d3 <;> within)⟩

/-- The update of a cell uses the states at offsets `-2..3`. -/
theorem mstep2Of_congr (hU : ∀ c', Within d3 (-2) 3 c c' → U c' = U' c') :
    mstep2Of d3 S J dt U c = mstep2Of d3 S J dt U' c := by
  have t : ∀ c', Within d3 (-1) 1 c c' → Close d3 U U' (primOf d3 S U) (primOf d3 S U') c' :=
    fun c' h1 => close_prim fun c'' h2 => hU _ (by cases d3 <;> within)
  unfold mstep2Of
  rw [hU c (by cases d3 <;> within)]
  rw [fluxUpd_congr (dirs d3) (U' c)
    (fun d hd => flux2_close hd (t _ (by cases d3 <;> within))
      (t _ (by cases d3 <;> cases d <;> simp [dirs] at hd <;> within)))
    (fun d hd => flux2_close hd
      (t _ (by cases d3 <;> cases d <;> simp [dirs] at hd <;> within))
      (t _ (by rw [Cell.down_up]; cases d3 <;> within)))]
  exact emfUpd_congr _ fun e he c' h1 => emf2_close he fun c'' h2 => t c'' (by
    cases d3 <;> within)

/-! ### Uninitialised variables -/

variable (hs : (eqb S.slope_type (lit 1) || eqb S.slope_type (lit 2)) = true)
  (hr : S.riemann = .hlld ∨ S.riemann = .hll ∨ S.riemann = .llf)
include hs

theorem slopesOf_junk (J' : MJunk α) : slopesOf S J U Q = slopesOf S J' U Q := by
  funext d c
  simp only [slopesOf, slopeAlong, hs, if_true]

theorem halfOf_junk (J' : MJunk α) : halfOf d3 S J dt U Q = halfOf d3 S J' dt U Q := by
  funext c
  unfold halfOf
  rw [slopesOf_junk hs J']

theorem emf2Of_junk (J' : MJunk α) : emf2Of d3 S J dt U Q = emf2Of d3 S J' dt U Q := by
  have : ∀ e k c, edge2Of d3 S J dt U Q e k c = edge2Of d3 S J' dt U Q e k c := by
    intro e k c
    unfold edge2Of
    rw [halfOf_junk hs J', slopesOf_junk hs J']
  funext c e
  unfold emf2Of
  simp only [this]

include hr in
theorem flux2Of_junk (J' : MJunk α) : flux2Of d3 S J dt U Q = flux2Of d3 S J' dt U Q := by
  funext c d
  unfold flux2Of
  rw [halfOf_junk hs J', slopesOf_junk hs J']
  unfold riemann_mhd
  rcases hr with h | h | h <;> simp only [h, Option.getD_some]

include hr in
theorem mstep2Of_junk (J' : MJunk α) : mstep2Of d3 S J dt U c = mstep2Of d3 S J' dt U c := by
  unfold mstep2Of
  rw [emf2Of_junk hs J', flux2Of_junk hs hr J']

/-! ### Translations -/

variable (t : Int × Int × Int)

theorem slopesOf_move (d : Dir) (c : Cell) :
    slopesOf S J (fun x => U (x.move t)) (fun x => Q (x.move t)) d c =
      slopesOf S J U Q d (c.move t) := by
  simp only [slopesOf, slopeAlong, hs, if_true, Cell.move_up, Cell.move_down]

theorem halfOf_move (c : Cell) :
    halfOf d3 S J dt (fun x => U (x.move t)) (fun x => Q (x.move t)) c =
      halfOf d3 S J dt U Q (c.move t) := by
  unfold halfOf
  simp only [slopesOf_move hs, Cell.move_up]

omit hs in
theorem faceOf_move (d : Dir) (c : Cell) :
    faceOf d3 S dt (fun x => U (x.move t)) (fun x => Q (x.move t)) d c =
      faceOf d3 S dt U Q d (c.move t) := by
  unfold faceOf srcOf
  simp only [elecOf_move, Cell.move_up]

omit hs in
theorem limOf_move (d e : Dir) (c : Cell) :
    limOf S (fun x => U (x.move t)) d e c = limOf S U d e (c.move t) := by
  unfold limOf
  simp only [Cell.move_up, Cell.move_down, apply_ite (Cell.move t)]

include hr in
theorem flux2Of_move (c : Cell) (d : Dir) :
    flux2Of d3 S J dt (fun x => U (x.move t)) (fun x => Q (x.move t)) c d =
      flux2Of d3 S J dt U Q (c.move t) d := by
  unfold flux2Of riemann_mhd
  rcases hr with h | h | h <;>
    simp only [h, Option.getD_some, halfOf_move hs, slopesOf_move hs, faceOf_move, Cell.move_down]

theorem emf2Of_move (c : Cell) (e : EmfDir) :
    emf2Of d3 S J dt (fun x => U (x.move t)) (fun x => Q (x.move t)) c e =
      emf2Of d3 S J dt U Q (c.move t) e := by
  unfold emf2Of edge2Of
  simp only [halfOf_move hs, slopesOf_move hs, faceOf_move, limOf_move, Cell.move_down, Cell.move_upIf]

end

section real

variable {d3 : Bool} {S : MSettings ℝ} {P : Grid} {J : MJunk ℝ} {dt : ℝ} {U : Cell → MState ℝ}

theorem sameFlow2 (hs : (eqb S.slope_type (lit 1) || eqb S.slope_type (lit 2)) = true)
    (hr : S.riemann = .hlld ∨ S.riemann = .hll ∨ S.riemann = .llf) :
    SameFlow d3 U (flux2Of d3 S J dt U (primOf d3 S U)) (emf2Of d3 S J dt U (primOf d3 S U)) := by
  intro t c hU
  have hp : (fun x => primOf d3 S U (x.move t)) = primOf d3 S (fun x => U (x.move t)) :=
    funext fun x => (primOf_move t U x).symm
  have cl : ∀ c', Within d3 (-1) 0 c c' → Close d3 U (fun x => U (x.move t)) (primOf d3 S U)
      (primOf d3 S (fun x => U (x.move t))) c' := fun c' h1 =>
    close_prim fun c'' h2 => hU _ (by cases d3 <;> within)
  refine ⟨fun d hd => ?_, fun e he => ?_⟩
  · rw [← flux2Of_move hs hr t, hp]
    exact flux2_close hd (cl _ (by cases d3 <;> within))
      (cl _ (by cases d3 <;> cases d <;> simp [dirs] at hd <;> within))
  · rw [← emf2Of_move hs t, hp]
    exact emf2_close he cl

variable {B : Sides} {it : Nat} {xmin : ℝ} {m m' : Addr → ℝ}

theorem Spec.ValidMhd2.slopes (h : ValidMhd2 S) :
    (eqb S.slope_type (lit 1) || eqb S.slope_type (lit 2)) = true := by
  have := h.slope
  simpa [eqb, lit] using this

/-- A step of version 2. -/
theorem mhd_whole2 (h : BoxSetup d3 8 3 P B) (m : Addr → ℝ) :
    ∃ m1 m', YieldsAll (mhdDom d3 P 2) (mhd_unsplit d3 S P J xmin 2 dt it) m m' ∧
      FilledMem d3 true P B (bufIn it) m m1 ∧ mfield m' (bufIn it) = mfield m1 (bufIn it) ∧
      (∀ c, P.box d3 c → P.inner d3 c →
        mfield m' (bufOut it) c = mstep2Of d3 S J dt (mfield m1 (bufIn it)) c) := by
  rw [mhd_bufs]
  exact mhd_step2 ⟨h.gw, h.nv, by unfold bufIn bufOut; split_ifs <;> simp⟩ h m

/-- Version 2 has the form of a step. -/
theorem mhd_form2 (h : BoxSetup d3 8 3 P B) (r : Runs (mhd_unsplit d3 S P J xmin 2 dt it) m m') :
    ∃ F E m1, StepForm d3 S P B dt it F E m m1 m' ∧
      (ValidMhd2 S → SameFlow d3 (mfield m1 (bufIn it)) F E) := by
  obtain ⟨m1, x, y, f, -, R⟩ := mhd_whole2 (S := S) (J := J) (xmin := xmin) (dt := dt) (it := it) h m
  obtain rfl := y.unique r
  exact ⟨_, _, m1, ⟨f, R⟩, fun hv => sameFlow2 hv.slopes hv.riemann⟩

/-- Steps of version 2 from memories with equal interiors have equal interiors. -/
theorem step_agree2 (h : BoxSetup d3 8 3 P B) (hv : ValidMhd2 S) {J' : MJunk ℝ} {m m' x x' : Addr → ℝ}
    (ha : AgreeIn d3 P (bufIn it) m m') (r : Runs (mhd_unsplit d3 S P J xmin 2 dt it) m x)
    (r' : Runs (mhd_unsplit d3 S P J' xmin 2 dt it) m' x') : AgreeIn d3 P (bufOut it) x x' := by
  obtain ⟨f, y, Y, F, -, N⟩ := mhd_whole2 (S := S) (J := J) (xmin := xmin) (dt := dt) (it := it) h m
  obtain ⟨f', y', Y', F', -, N'⟩ := mhd_whole2 (S := S) (J := J') (xmin := xmin) (dt := dt) (it := it) h m'
  obtain rfl := Y.unique r
  obtain rfl := Y'.unique r'
  intro i j k v h1 h2 h3 hv8
  obtain ⟨b1, b2⟩ := mcell_box h (by decide) h1 h2 h3
  rw [← mfield_get x _ _ hv8, ← mfield_get x' _ _ hv8, N _ b1 b2, N' _ b1 b2,
    mstep2Of_junk hv.slopes hv.riemann J']
  rw [mstep2Of_congr fun c' hw => filled_agree h ha F F' (inner_within h b1 b2 hw)]

end real

end Verif
