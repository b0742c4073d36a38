import Verif.Spec.MhdScheme
import Verif.Props.C60_Hancock
import Verif.Props.C37_C63_MhdRiemann
import Verif.Props.C34_C36_MhdStep

/-!
# C95, C96, C97: an MHD step is one step of the MUSCL-Hancock scheme with constrained transport

The specification (`Spec/MhdScheme.lean`) is written without reference to the code.
-/

namespace Verif

open Spec ROps

/-- Edge direction of an axis. -/
def Dir.emf : Dir → EmfDir
  | .x => .x
  | .y => .y
  | .z => .z

/-- The scheme with the constants and Riemann solvers of a run.  In 2D the code halves the field along
`z`. -/
noncomputable def mschemeOf (d3 : Bool) (S : MSettings ℝ) : MhdScheme where
  d3 := d3
  γ := S.gamma0
  θ := S.slope_type
  rhoMin := S.smallr
  tempMin := S.smallp
  pMin := fun rho => if d3 then S.smallp else S.smallp * rho
  h := Dir.pick S.dx S.dy S.dz
  zWeight := 1 / 2
  riemann := fun l r => (riemann_mhd S l r).getD l
  edge := fun d => compute_emf S d.emf

variable {d3 : Bool} {S : MSettings ℝ} {P : Grid} {J : MJunk ℝ} {xmin dt : ℝ}

theorem mprim_eq (hr : 0 < S.smallr) (hi : S.cIso ≤ 0) (U : Cell → MState ℝ) (c : Cell) :
    (mschemeOf d3 S).prim U c = primOf d3 S U c := by
  have h2 : 0 < max (U c).d S.smallr := lt_of_lt_of_le hr (le_max_right _ _)
  have hg : ROps.gtb S.cIso (lit 0) = false := by
    simpa [ROps.gtb, ROps.lit, ROps.ltb] using hi
  simp only [MhdScheme.prim, primOf, constoprim_mhd, hg, mkState, MhdScheme.cellField, sum3, vel, mag,
    step_up, Bool.false_eq_true, if_false]
  rops
  cases d3
  · simp [mschemeOf, axes]
    set r := max (U c).d S.smallr
    have h0 : r ≠ 0 := h2.ne'
    refine ⟨?_, by ring, by ring⟩
    congr 1
    field_simp
    ring
  · simp [mschemeOf, axes]
    set r := max (U c).d S.smallr
    have h0 : r ≠ 0 := h2.ne'
    refine ⟨?_, by ring, by ring, by ring⟩
    congr 1
    field_simp
    ring

theorem mlimited_eq (a q b : ℝ) (hs : S.slope_type = 1 ∨ S.slope_type = 2) :
    (mschemeOf d3 S).limited a q b = slopeScalar S.toSettings q b a := by
  have hp : 0 ≤ S.slope_type := by rcases hs with h | h <;> rw [h] <;> norm_num
  rw [slopeScalar_real a q b hs]
  simp only [MhdScheme.limited, mschemeOf, sub_nonneg]
  split_ifs
  · rw [min_eq_left (by positivity), mul_zero]
  · rw [min_eq_left (by positivity), mul_zero]
  · rw [mul_min_of_nonneg _ _ hp]
  · rw [mul_min_of_nonneg _ _ hp]

theorem mslope_eq (hs : S.slope_type = 1 ∨ S.slope_type = 2) (f : Cell → ℝ) {d : Dir} (hd : d.ok d3)
    (c : Cell) : (mschemeOf d3 S).slope f d c =
      slopeScalar S.toSettings (f c) (f (c.up d)) (f (c.down d)) := by
  have hm : d ∈ axes (mschemeOf d3 S).d3 := axes_mem.2 hd
  rw [MhdScheme.slope, if_pos hm, step_up, step_down, mlimited_eq _ _ _ hs]

theorem mslope_off (f : Cell → ℝ) {d : Dir} (hd : ¬ d.ok d3) (c : Cell) :
    (mschemeOf d3 S).slope f d c = 0 := by
  have hm : d ∉ axes (mschemeOf d3 S).d3 := fun h => hd (axes_mem.1 h)
  rw [MhdScheme.slope, if_neg hm]

/-- What the predictor has to deliver. -/
structure HalfState (M : MhdScheme) (U Q : Cell → MState ℝ) (dt : ℝ) (c : Cell) (T : Predicted ℝ) :
    Prop where
  d : T.q.d = (Q c).d + dt / 2 * (M.rate U Q c).d
  p : T.q.p = (Q c).p + dt / 2 * (M.rate U Q c).p
  v : ∀ i, vel T.q i = vel (Q c) i + dt / 2 * vel (M.rate U Q c) i
  b : ∀ i, mag T.q i = mag (Q c) i + dt / 2 * mag (M.rate U Q c) i
  dd : ∀ t ∈ axes M.d3, (T.dq t).d = M.slope (fun x => (Q x).d) t c / 2
  dp : ∀ t ∈ axes M.d3, (T.dq t).p = M.slope (fun x => (Q x).p) t c / 2
  dv : ∀ t ∈ axes M.d3, ∀ i, vel (T.dq t) i = M.slope (fun x => vel (Q x) i) t c / 2
  db : ∀ t ∈ axes M.d3, ∀ i, i ≠ t → mag (T.dq t) i = M.slope (fun x => mag (Q x) i) t c / 2
  face : ∀ t ∈ axes M.d3, ∀ up, T.face t up = M.faceHalf U Q dt t (if up then step t 1 c else c)
  dface : ∀ t ∈ axes M.d3, ∀ s ∈ axes M.d3, s ≠ t → ∀ up, T.dface t s up =
    M.slope (fun x => mag (U x) t) s (if up then step t 1 c else c) / 2

theorem face3 (xPos : ℝ) (U Q : Cell → MState ℝ) (c : Cell) (t : Dir) (up : Bool) :
    (pred3Of S xPos dt U Q c).face t up =
      (mschemeOf true S).faceHalf U Q dt t (if up then step t 1 c else c) := by
  have hm : ∀ d, d ∈ axes (mschemeOf true S).d3 := fun d => axes_mem.2 (Or.inl rfl)
  have hh : (mschemeOf true S).h = Dir.pick S.dx S.dy S.dz := rfl
  cases t <;> cases up <;>
  · simp only [pred3Of, predict3, MhdScheme.faceHalf, MhdScheme.curl, MhdScheme.cross, next, hm, hh,
      Cell.upIf, MState.getB, elecOf, elecAvg, dtOver, Dir.pick, vel, mag,
      if_true, Bool.false_eq_true, if_false, Cell.up, Cell.down, step, Int.sub_eq_add_neg]
    rops
    ring

theorem face2 (junk : Dir → MState ℝ) (U Q : Cell → MState ℝ) (c : Cell) (t : Dir)
    (ht : t ∈ axes (mschemeOf false S).d3) (up : Bool) :
    (pred2Of S junk dt U Q c).face t up =
      (mschemeOf false S).faceHalf U Q dt t (if up then step t 1 c else c) := by
  have hmx : Dir.x ∈ axes (mschemeOf false S).d3 := axes_mem.2 (Or.inr (by decide))
  have hmy : Dir.y ∈ axes (mschemeOf false S).d3 := axes_mem.2 (Or.inr (by decide))
  have hmz : Dir.z ∉ axes (mschemeOf false S).d3 := fun h => by
    rcases axes_mem.1 h with h | h
    · cases h
    · exact h rfl
  have hh : (mschemeOf false S).h = Dir.pick S.dx S.dy S.dz := rfl
  have z0 : ∀ x : Int, x + 0 = x := fun x => by omega
  cases t <;> first
    | exact absurd ht hmz
    | (cases up <;>
       · simp only [pred2Of, predict2, MhdScheme.faceHalf, MhdScheme.curl, MhdScheme.cross, next, hmx,
          hmy, hmz, hh, dtOver, Dir.pick, vel, mag, if_true, Bool.false_eq_true, if_false, Cell.shift,
          MState.bvec, step, z0, Int.sub_eq_add_neg, add_zero, zero_add, Int.add_assoc,
          Int.add_right_neg, Int.reduceAdd, Int.reduceNeg]
         rops
         ring)

theorem half3 (hs : S.slope_type = 1 ∨ S.slope_type = 2) (hrot : S.Omega0 ≤ 0) (xPos : ℝ)
    (U Q : Cell → MState ℝ) (c : Cell) :
    HalfState (mschemeOf true S) U Q dt c (pred3Of S xPos dt U Q c) := by
  have hg : ROps.gtb S.Omega0 (lit 0) = false := by
    simpa [ROps.gtb, ROps.lit, ROps.ltb] using hrot
  have hok : ∀ d : Dir, d.ok true := fun d => Or.inl rfl
  have hsl : ∀ f : Cell → ℝ, ∀ d c, (mschemeOf true S).slope f d c =
      slopeScalar S.toSettings (f c) (f (c.up d)) (f (c.down d)) := fun f d c => mslope_eq hs f (hok d) c
  have he : (ROps.eqb S.slope_type (lit 1) || ROps.eqb S.slope_type (lit 2)) = true := by
    rcases hs with h | h <;> simp [ROps.eqb, ROps.lit, h]
  have hm : ∀ d, d ∈ axes (mschemeOf true S).d3 := fun d => axes_mem.2 (hok d)
  have hst : ROps.fmin S.slope_type (lit 2) = S.slope_type := by
    rcases hs with h | h <;> simp [ROps.fmin, ROps.lit, h]
  have hh : (mschemeOf true S).h = Dir.pick S.dx S.dy S.dz := rfl
  have hγ : (mschemeOf true S).γ = S.gamma0 := rfl
  constructor
  · simp only [pred3Of, predict3, hg, slope_unsplit_hydro_3d, he, MhdScheme.rate, mkState, sum3,
      MhdScheme.deriv, hsl, hh, hγ, vel, mag, Dir.pick, dtOver, mslope, MState.map2]
    simp
    rops
    ring
  · simp only [pred3Of, predict3, hg, slope_unsplit_hydro_3d, he, MhdScheme.rate, mkState, sum3,
      MhdScheme.deriv, hsl, hh, hγ, vel, mag, Dir.pick, dtOver, mslope, MState.map2]
    simp
    rops
    ring
  · intro i
    cases i <;>
    · simp only [pred3Of, predict3, hg, slope_unsplit_hydro_3d, he, MhdScheme.rate, mkState, sum3,
        MhdScheme.deriv, MhdScheme.derivField, hsl, hh, hγ, vel, mag, Dir.pick, dtOver, mslope,
        MState.map2, hm, if_true, step_up, Cell.upIf, MState.getB]
      simp
      rops
      ring
  · intro i
    cases i <;>
    · simp only [pred3Of, predict3, hg, slope_unsplit_hydro_3d, he, MhdScheme.rate, mkState, sum3,
        MhdScheme.deriv, MhdScheme.derivField, hsl, hh, hγ, vel, mag, Dir.pick, dtOver, mslope,
        MState.map2, hm, if_true, step_up, Cell.upIf, MState.getB]
      simp
      rops
      ring
  · intro t _
    cases t <;>
    · simp only [pred3Of, predict3, slope_unsplit_hydro_3d, he, hsl, mslope, MState.map2]
      simp
      rops
      ring
  · intro t _
    cases t <;>
    · simp only [pred3Of, predict3, slope_unsplit_hydro_3d, he, hsl, mslope, MState.map2]
      simp
      rops
      ring
  · intro t _ i
    cases t <;> cases i <;>
    · simp only [pred3Of, predict3, slope_unsplit_hydro_3d, he, hsl, mslope, MState.map2, vel]
      simp
      rops
      ring
  · intro t _ i hi
    cases t <;> cases i <;> first
      | exact absurd rfl hi
      | (simp only [pred3Of, predict3, slope_unsplit_hydro_3d, he, hsl, mslope, MState.map2, mag]
         simp
         rops
         ring)
  · exact fun t _ up => face3 xPos U Q c t up
  · intro t _ s _ hts up
    cases t <;> cases s <;> first
      | exact absurd rfl hts
      | (cases up <;>
         · simp only [pred3Of, predict3, dbOf, faceSlope3, hst, hsl, step_up, Cell.upIf, MState.getB, mag,
            if_true, Bool.false_eq_true, if_false, reduceCtorEq]
           rops
           ring)

theorem half2 (hs : S.slope_type = 1 ∨ S.slope_type = 2) (junk : Dir → MState ℝ)
    (U Q : Cell → MState ℝ) (c : Cell) :
    HalfState (mschemeOf false S) U Q dt c (pred2Of S junk dt U Q c) := by
  have hx : (Dir.x).ok false := Or.inr (by decide)
  have hy : (Dir.y).ok false := Or.inr (by decide)
  have hz : ¬ (Dir.z).ok false := by rintro (h | h) <;> simp at h
  have slx : ∀ f : Cell → ℝ, ∀ c, (mschemeOf false S).slope f .x c =
      slopeScalar S.toSettings (f c) (f (c.up .x)) (f (c.down .x)) := fun f c => mslope_eq hs f hx c
  have sly : ∀ f : Cell → ℝ, ∀ c, (mschemeOf false S).slope f .y c =
      slopeScalar S.toSettings (f c) (f (c.up .y)) (f (c.down .y)) := fun f c => mslope_eq hs f hy c
  have slz : ∀ f : Cell → ℝ, ∀ c, (mschemeOf false S).slope f .z c = 0 := fun f c => mslope_off f hz c
  have he : (ROps.eqb S.slope_type (lit 1) || ROps.eqb S.slope_type (lit 2)) = true := by
    rcases hs with h | h <;> simp [ROps.eqb, ROps.lit, h]
  have hmx : Dir.x ∈ axes (mschemeOf false S).d3 := axes_mem.2 hx
  have hmy : Dir.y ∈ axes (mschemeOf false S).d3 := axes_mem.2 hy
  have hmz : Dir.z ∉ axes (mschemeOf false S).d3 := fun h => hz (axes_mem.1 h)
  have hh : (mschemeOf false S).h = Dir.pick S.dx S.dy S.dz := rfl
  have hγ : (mschemeOf false S).γ = S.gamma0 := rfl
  have z0 : ∀ x : Int, x + 0 = x := fun x => by omega
  constructor
  · simp only [pred2Of, predict2, slope_unsplit_hydro_2d, he, MhdScheme.rate, mkState, sum3,
      MhdScheme.deriv, slx, sly, slz, hh, hγ, vel, mag, Dir.pick, dtOver, mslope, MState.map2,
      if_true, Option.getD_some, Cell.shift, Cell.up, Cell.down, z0, Int.sub_eq_add_neg]
    rops
    ring
  · simp only [pred2Of, predict2, slope_unsplit_hydro_2d, he, MhdScheme.rate, mkState, sum3,
      MhdScheme.deriv, slx, sly, slz, hh, hγ, vel, mag, Dir.pick, dtOver, mslope, MState.map2,
      if_true, Option.getD_some, Cell.shift, Cell.up, Cell.down, z0, Int.sub_eq_add_neg]
    rops
    ring
  · intro i
    cases i <;>
    · simp only [pred2Of, predict2, slope_unsplit_hydro_2d, he, MhdScheme.rate, mkState, sum3,
        MhdScheme.deriv, MhdScheme.derivField, slx, sly, slz, hh, hγ, vel, mag, Dir.pick, dtOver, mslope,
        MState.map2, hmx, hmy, hmz, if_true, if_false, reduceCtorEq, step, MState.bvec,
        Option.getD_some, Cell.shift, Cell.up, Cell.down, z0, Int.sub_eq_add_neg]
      rops
      ring
  · intro i
    cases i <;>
    · simp only [pred2Of, predict2, slope_unsplit_hydro_2d, he, MhdScheme.rate, mkState, sum3,
        MhdScheme.deriv, MhdScheme.derivField, slx, sly, slz, hh, hγ, vel, mag, Dir.pick, dtOver, mslope,
        MState.map2, hmx, hmy, hmz, if_true, if_false, reduceCtorEq, step, MState.bvec,
        Option.getD_some, Cell.shift, Cell.up, Cell.down, z0, Int.sub_eq_add_neg]
      rops
      ring
  · intro t ht
    cases t <;> first
      | exact absurd ht hmz
      | (simp only [pred2Of, predict2, slope_unsplit_hydro_2d, he, slx, sly, mslope, MState.map2, Dir.pick,
          if_true, Option.getD_some, Cell.shift, Cell.up, Cell.down, z0, Int.sub_eq_add_neg]
         rops
         ring)
  · intro t ht
    cases t <;> first
      | exact absurd ht hmz
      | (simp only [pred2Of, predict2, slope_unsplit_hydro_2d, he, slx, sly, mslope, MState.map2, Dir.pick,
          if_true, Option.getD_some, Cell.shift, Cell.up, Cell.down, z0, Int.sub_eq_add_neg]
         rops
         ring)
  · intro t ht i
    cases t <;> first
      | exact absurd ht hmz
      | (cases i <;>
         · simp only [pred2Of, predict2, slope_unsplit_hydro_2d, he, slx, sly, mslope, MState.map2,
            Dir.pick, vel, if_true, Option.getD_some, Cell.shift, Cell.up, Cell.down, z0,
            Int.sub_eq_add_neg]
           rops
           ring)
  · intro t ht i _
    cases t <;> first
      | exact absurd ht hmz
      | (cases i <;>
         · simp only [pred2Of, predict2, slope_unsplit_hydro_2d, he, slx, sly, mslope, MState.map2,
            Dir.pick, mag, if_true, Option.getD_some, Cell.shift, Cell.up, Cell.down, z0,
            Int.sub_eq_add_neg]
           rops
           ring)
  · exact fun t ht up => face2 junk U Q c t ht up
  · intro t ht s hs' hts up
    cases t <;> cases s <;> first
      | exact absurd rfl hts
      | exact absurd ht hmz
      | exact absurd hs' hmz
      | (cases up <;>
         · simp only [pred2Of, predict2, faceSlope2, slx, sly, mag, step, MState.bvec, Cell.shift, Cell.up,
            Cell.down, z0, Int.sub_eq_add_neg, if_true, Bool.false_eq_true, if_false, reduceCtorEq]
           rops
           ring)

/-! ### States at faces and edges -/

variable {M : MhdScheme} {U Q : Cell → MState ℝ} {c : Cell} {T : Predicted ℝ} {q : MState ℝ}

theorem setB_mkState (d : Dir) (x : ℝ) (q : MState ℝ) :
    q.setB d x = mkState q.d q.p (vel q) (fun e => if e = d then x else mag q e) := by
  cases d <;> simp [MState.setB, mkState, vel, mag]

theorem mkState_ext {q : MState ℝ} {r p : ℝ} {v b : Dir → ℝ} (h1 : q.d = r) (h2 : q.p = p)
    (h3 : ∀ i, vel q i = v i) (h4 : ∀ i, mag q i = b i) : q = mkState r p v b := by
  obtain ⟨d, p, u, v, w, a, b, c⟩ := q
  simp only [mkState, MState.mk.injEq]
  exact ⟨h1, h2, h3 .x, h3 .y, h3 .z, h4 .x, h4 .y, h4 .z⟩

theorem mfloor_vel (d3 : Bool) (S : MSettings ℝ) (q : MState ℝ) (i : Dir) :
    vel (mfloor d3 S q) i = vel q i := by cases i <;> rfl
theorem mfloor_mag (d3 : Bool) (S : MSettings ℝ) (q : MState ℝ) (i : Dir) :
    mag (mfloor d3 S q) i = mag q i := by cases i <;> rfl
theorem map2_vel (f : ℝ → ℝ → ℝ) (q r : MState ℝ) (i : Dir) :
    vel (q.map2 f r) i = f (vel q i) (vel r i) := by cases i <;> rfl
theorem map2_mag (f : ℝ → ℝ → ℝ) (q r : MState ℝ) (i : Dir) :
    mag (q.map2 f r) i = f (mag q i) (mag r i) := by cases i <;> rfl
theorem setB_vel (d : Dir) (x : ℝ) (q : MState ℝ) (i : Dir) : vel (q.setB d x) i = vel q i := by
  cases d <;> cases i <;> rfl
theorem setB_mag (d : Dir) (x : ℝ) (q : MState ℝ) (i : Dir) :
    mag (q.setB d x) i = if i = d then x else mag q i := by
  cases d <;> cases i <;> rfl
theorem setB_d (d : Dir) (x : ℝ) (q : MState ℝ) : (q.setB d x).d = q.d := by cases d <;> rfl
theorem setB_p (d : Dir) (x : ℝ) (q : MState ℝ) : (q.setB d x).p = q.p := by cases d <;> rfl

theorem sum3_offset (d : Dir) (s : ℝ) (f : Dir → ℝ) :
    sum3 (fun t => MhdScheme.offset d s t / 2 * f t) = s / 2 * f d := by
  cases d <;> simp [sum3, MhdScheme.offset]

/-- Sign of a side. -/
def sgn (up : Bool) : ℝ := if up then 1 else -1

theorem half_face (h : HalfState (mschemeOf d3 S) U Q dt c T) {d : Dir} (hd : d.ok d3) (up : Bool) :
    faceState d3 S T d up = (mschemeOf d3 S).state U Q dt (MhdScheme.offset d (sgn up)) c := by
  have hm : d ∈ axes (mschemeOf d3 S).d3 := axes_mem.2 hd
  have hat : ∀ f : MState ℝ → ℝ, (mschemeOf d3 S).at' U Q dt f (MhdScheme.offset d (sgn up)) c =
      f (Q c) + dt / 2 * f ((mschemeOf d3 S).rate U Q c) +
        sgn up / 2 * (mschemeOf d3 S).slope (fun x => f (Q x)) d c := fun f => by
    rw [MhdScheme.at', sum3_offset]
  have hsg : ∀ a s : ℝ, (if up = true then a + s / 2 else a - s / 2) = a + sgn up / 2 * s := by
    intro a s; cases up <;> simp [sgn] <;> ring
  have hrho : (faceState d3 S T d up).d = max S.smallr
      ((mschemeOf d3 S).at' U Q dt (·.d) (MhdScheme.offset d (sgn up)) c) := by
    rw [hat, ← hsg, ← h.d, ← h.dd d hm]
    simp only [faceState, mfloor, setB_d, MState.map2]
    rops
  unfold MhdScheme.state
  refine mkState_ext hrho ?_ (fun i => ?_) (fun i => ?_)
  · have hr : (mschemeOf d3 S).rhoMin = S.smallr := rfl
    rw [hr, ← hrho, hat, ← hsg, ← h.p, ← h.dp d hm]
    simp only [faceState, mfloor, setB_d, setB_p, MState.map2, mschemeOf]
    rops
    cases d3 <;> rfl
  · rw [hat, ← hsg, ← h.v, ← h.dv d hm]
    simp only [faceState, mfloor_vel, setB_vel, map2_vel]
  · simp only [faceState, mfloor_mag, setB_mag, map2_mag, MhdScheme.fieldAt]
    by_cases hi : i = d
    · subst hi
      have h0 : MhdScheme.offset i (sgn up) i ≠ 0 := by
        cases up <;> simp [MhdScheme.offset, sgn]
      rw [if_pos rfl, if_neg h0, h.face i hm]
      have hsum : (sum3 fun t => if t = i then 0 else MhdScheme.offset i (sgn up) t / 2 *
          (mschemeOf d3 S).slope (fun x => mag (U x) i) t
            (if MhdScheme.offset i (sgn up) i < 0 then c else step i 1 c)) = 0 := by
        cases i <;> simp [sum3, MhdScheme.offset]
      rw [hsum, add_zero]
      have hneg : ¬ (1 : ℝ) < 0 := by norm_num
      cases up <;> simp [MhdScheme.offset, sgn, hneg]
    · have h0 : MhdScheme.offset d (sgn up) i = 0 := by simp [MhdScheme.offset, hi]
      rw [if_neg hi, if_pos h0, hat, ← hsg, ← h.b, ← h.db d hm i hi]

theorem corner_comb (k : Corner) (a x y : ℝ) :
    a + k.comb (x / 2) (y / 2) = a + (sgn k.right / 2 * x + sgn k.top / 2 * y) := by
  cases k <;> simp [Corner.comb, Corner.right, Corner.top, sgn] <;> rops <;> ring

/-- The edges of a problem. -/
theorem edge_axes {e : EmfDir} (he : e ∈ emfDirs d3) : e.first.ok d3 ∧ e.second.ok d3 := by
  cases d3
  · simp only [emfDirs, Bool.false_eq_true, if_false, List.mem_singleton] at he
    subst he
    exact ⟨Or.inr (by decide), Or.inr (by decide)⟩
  · exact ⟨Or.inl rfl, Or.inl rfl⟩

theorem half_edge (h : HalfState (mschemeOf d3 S) U Q dt c T) {e : EmfDir} (he : e ∈ emfDirs d3)
    (k : Corner) :
    edgeState d3 S T e k = (mschemeOf d3 S).state U Q dt
      (fun t => if t = e.first then sgn k.right else if t = e.second then sgn k.top else 0) c := by
  have hf : e.first ∈ axes (mschemeOf d3 S).d3 := axes_mem.2 (edge_axes he).1
  have hs : e.second ∈ axes (mschemeOf d3 S).d3 := axes_mem.2 (edge_axes he).2
  have hne : e.second ≠ e.first := by cases e <;> simp [EmfDir.first, EmfDir.second]
  have hsum : ∀ g : Dir → ℝ, (sum3 fun t => (if t = e.first then sgn k.right else if t = e.second then
      sgn k.top else 0) / 2 * g t) = sgn k.right / 2 * g e.first + sgn k.top / 2 * g e.second := by
    intro g; cases e <;> simp [sum3, EmfDir.first, EmfDir.second] <;> ring
  set σ : Dir → ℝ := fun t => if t = e.first then sgn k.right else if t = e.second then sgn k.top else 0
    with hσ
  have hat : ∀ f : MState ℝ → ℝ, (mschemeOf d3 S).at' U Q dt f σ c =
      f (Q c) + dt / 2 * f ((mschemeOf d3 S).rate U Q c) +
        (sgn k.right / 2 * (mschemeOf d3 S).slope (fun x => f (Q x)) e.first c +
        sgn k.top / 2 * (mschemeOf d3 S).slope (fun x => f (Q x)) e.second c) := fun f => by
    rw [MhdScheme.at']
    exact congrArg _ (hsum fun t => (mschemeOf d3 S).slope (fun x => f (Q x)) t c)
  have hrho : (edgeState d3 S T e k).d = max S.smallr ((mschemeOf d3 S).at' U Q dt (·.d) σ c) := by
    rw [hat, ← corner_comb, ← h.d, ← h.dd _ hf, ← h.dd _ hs]
    simp only [edgeState, mfloor, setB_d, MState.map2]
    rops
  have hs1 : ∀ b : Bool, sgn b ≠ 0 := fun b => by cases b <;> simp [sgn]
  have hs2 : ∀ (b : Bool) (x y : Cell), (if sgn b < 0 then x else y) = if b then y else x := by
    intro b x y
    have hneg : ¬ (1 : ℝ) < 0 := by norm_num
    cases b <;> simp [sgn, hneg]
  have hp : ∀ (b : Bool) (x y : ℝ), plusIf b x (y / 2) = x + sgn b / 2 * y := by
    intro b x y; cases b <;> simp [plusIf, sgn] <;> ring
  unfold MhdScheme.state
  refine mkState_ext hrho ?_ (fun i => ?_) (fun i => ?_)
  · have hr : (mschemeOf d3 S).rhoMin = S.smallr := rfl
    rw [hr, ← hrho, hat, ← corner_comb, ← h.p, ← h.dp _ hf, ← h.dp _ hs]
    simp only [edgeState, mfloor, setB_d, setB_p, MState.map2, mschemeOf]
    rops
    cases d3 <;> rfl
  · rw [hat, ← corner_comb, ← h.v, ← h.dv _ hf, ← h.dv _ hs]
    simp only [edgeState, mfloor_vel, setB_vel, map2_vel]
  · simp only [edgeState, mfloor_mag, setB_mag, map2_mag, MhdScheme.fieldAt]
    by_cases h2 : i = e.second
    · subst h2
      have e1 : σ e.second = sgn k.top := by simp [hσ, hne]
      rw [if_pos rfl, e1, if_neg (hs1 _), hs2, h.face _ hs, h.dface _ hs _ hf hne.symm, hp]
      congr 1
      cases e <;> simp [sum3, hσ, EmfDir.first, EmfDir.second]
    · by_cases h1 : i = e.first
      · subst h1
        have e1 : σ e.first = sgn k.right := by simp [hσ]
        rw [if_neg h2, if_pos rfl, e1, if_neg (hs1 _), hs2, h.face _ hf, h.dface _ hf _ hs hne, hp]
        congr 1
        cases e <;> simp [sum3, hσ, EmfDir.first, EmfDir.second]
      · have e1 : σ i = 0 := by simp [hσ, h1, h2]
        rw [if_neg h2, if_neg h1, if_pos e1, hat, ← corner_comb, ← h.b, ← h.db _ hf i h1,
          ← h.db _ hs i h2]

/-! ### Fluxes, electric field, update -/

theorem rotated_swap (d : Dir) (q : MState ℝ) : rotated d q = q.swap d := by
  cases d <;> simp [rotated, exchange, MState.swap, mkState, vel, mag]

theorem half_pred (hv : ValidMhd d3 S) (hs : S.slope_type = 1 ∨ S.slope_type = 2)
    (U Q : Cell → MState ℝ) (c : Cell) :
    HalfState (mschemeOf d3 S) U Q dt c (predOf d3 S P J xmin dt U Q c) := by
  cases d3
  · simp only [predOf, Bool.false_eq_true, if_false]
    exact half2 hs _ U Q c
  · simp only [predOf, if_true]
    exact half3 hs (hv.norot rfl) _ U Q c

theorem riemann_some (hv : ValidMhd d3 S) (l r : MState ℝ) : ∃ F, riemann_mhd S l r = some F := by
  rcases hv.riemann with h | h | h <;> simp [riemann_mhd, h]

theorem mflux_eq (hv : ValidMhd d3 S) (hs : S.slope_type = 1 ∨ S.slope_type = 2) {d : Dir}
    (hd : d.ok d3) (U Q : Cell → MState ℝ) (c : Cell) :
    (mfluxOf d3 S J (predOf d3 S P J xmin dt U Q) c d).swap d = (mschemeOf d3 S).flux U Q dt d c := by
  have e1 := half_face (half_pred (P := P) (J := J) (xmin := xmin) (dt := dt) hv hs U Q (c.down d)) hd
    true
  have e2 := half_face (half_pred (P := P) (J := J) (xmin := xmin) (dt := dt) hv hs U Q c) hd false
  rw [MhdScheme.flux, mfluxOf, e1, e2]
  simp only [rotated_swap, step_down, sgn, if_true, Bool.false_eq_true, if_false]
  obtain ⟨F, hF⟩ := riemann_some hv
    (((mschemeOf d3 S).state U Q dt (MhdScheme.offset d 1) (c.down d)).swap d)
    (((mschemeOf d3 S).state U Q dt (MhdScheme.offset d (-1)) c).swap d)
  simp only [mschemeOf] at hF ⊢
  rw [hF]; rfl

theorem half_edge_of (h : HalfState (mschemeOf d3 S) U Q dt c T) {e : EmfDir} (he : e ∈ emfDirs d3)
    (k : Corner) {σ : Dir → ℝ} (h1 : σ e.first = sgn k.right) (h2 : σ e.second = sgn k.top)
    (h3 : ∀ t, t ≠ e.first → t ≠ e.second → σ t = 0) :
    edgeState d3 S T e k = (mschemeOf d3 S).state U Q dt σ c := by
  rw [half_edge h he k]
  congr 1
  funext t
  by_cases ht : t = e.first
  · rw [if_pos ht, ht, h1]
  · by_cases ht' : t = e.second
    · rw [if_neg ht, if_pos ht', ht', h2]
    · rw [if_neg ht, if_neg ht', h3 t ht ht']

theorem compute_emf_congr {e : EmfDir} {a b c d a' b' c' d' : MState ℝ} (h1 : a = a') (h2 : b = b')
    (h3 : c = c') (h4 : d = d') : compute_emf S e a b c d = compute_emf S e a' b' c' d' := by
  rw [h1, h2, h3, h4]

theorem emf_eq (hv : ValidMhd d3 S) (hs : S.slope_type = 1 ∨ S.slope_type = 2) {e : Dir}
    (he : e.emf ∈ emfDirs d3) (U Q : Cell → MState ℝ) (c : Cell) :
    emfOf d3 S (predOf d3 S P J xmin dt U Q) c e.emf = (mschemeOf d3 S).emf U Q dt e c := by
  have E := fun c k σ => half_edge_of
    (half_pred (P := P) (J := J) (xmin := xmin) (dt := dt) hv hs U Q c) he k (σ := σ)
  have hd : ∀ (c : Cell) (d e : Dir), (c.down d).down e = (c.down e).down d := by
    intro c d e; cases d <;> cases e <;> rfl
  have hedge : ∀ d, (mschemeOf d3 S).edge d = compute_emf S d.emf := fun _ => rfl
  simp only [MhdScheme.emf, next, step_down, hedge]
  cases e
  · simp only [Dir.emf] at E ⊢
    simp only [emfOf]
    refine compute_emf_congr ?_ ?_ ?_ ?_
    · rw [hd]
      exact E _ .RT _ (by simp [EmfDir.first, sgn, Corner.right])
        (by simp [EmfDir.second, sgn, Corner.top])
        (fun t h1 h2 => by cases t <;> simp_all [EmfDir.first, EmfDir.second])
    · exact E _ .RB _ (by simp [EmfDir.first, sgn, Corner.right])
        (by simp [EmfDir.second, sgn, Corner.top])
        (fun t h1 h2 => by cases t <;> simp_all [EmfDir.first, EmfDir.second])
    · exact E _ .LT _ (by simp [EmfDir.first, sgn, Corner.right])
        (by simp [EmfDir.second, sgn, Corner.top])
        (fun t h1 h2 => by cases t <;> simp_all [EmfDir.first, EmfDir.second])
    · exact E _ .LB _ (by simp [EmfDir.first, sgn, Corner.right])
        (by simp [EmfDir.second, sgn, Corner.top])
        (fun t h1 h2 => by cases t <;> simp_all [EmfDir.first, EmfDir.second])
  · simp only [Dir.emf] at E ⊢
    simp only [emfOf]
    refine compute_emf_congr ?_ ?_ ?_ ?_
    · exact E _ .RT _ (by simp [EmfDir.first, sgn, Corner.right])
        (by simp [EmfDir.second, sgn, Corner.top])
        (fun t h1 h2 => by cases t <;> simp_all [EmfDir.first, EmfDir.second])
    · exact E _ .LT _ (by simp [EmfDir.first, sgn, Corner.right])
        (by simp [EmfDir.second, sgn, Corner.top])
        (fun t h1 h2 => by cases t <;> simp_all [EmfDir.first, EmfDir.second])
    · exact E _ .RB _ (by simp [EmfDir.first, sgn, Corner.right])
        (by simp [EmfDir.second, sgn, Corner.top])
        (fun t h1 h2 => by cases t <;> simp_all [EmfDir.first, EmfDir.second])
    · exact E _ .LB _ (by simp [EmfDir.first, sgn, Corner.right])
        (by simp [EmfDir.second, sgn, Corner.top])
        (fun t h1 h2 => by cases t <;> simp_all [EmfDir.first, EmfDir.second])
  · simp only [Dir.emf] at E ⊢
    simp only [emfOf]
    refine compute_emf_congr ?_ ?_ ?_ ?_
    · rw [hd]
      exact E _ .RT _ (by simp [EmfDir.first, sgn, Corner.right])
        (by simp [EmfDir.second, sgn, Corner.top])
        (fun t h1 h2 => by cases t <;> simp_all [EmfDir.first, EmfDir.second])
    · exact E _ .RB _ (by simp [EmfDir.first, sgn, Corner.right])
        (by simp [EmfDir.second, sgn, Corner.top])
        (fun t h1 h2 => by cases t <;> simp_all [EmfDir.first, EmfDir.second])
    · exact E _ .LT _ (by simp [EmfDir.first, sgn, Corner.right])
        (by simp [EmfDir.second, sgn, Corner.top])
        (fun t h1 h2 => by cases t <;> simp_all [EmfDir.first, EmfDir.second])
    · exact E _ .LB _ (by simp [EmfDir.first, sgn, Corner.right])
        (by simp [EmfDir.second, sgn, Corner.top])
        (fun t h1 h2 => by cases t <;> simp_all [EmfDir.first, EmfDir.second])

/-- Updates by equal fluxes and electric fields. -/
theorem update_eq {F : Cell → Dir → MState ℝ} {F' : Dir → Cell → MState ℝ} {E : Cell → EmfDir → ℝ}
    {E' : Dir → Cell → ℝ} (hF : ∀ d, d.ok d3 → ∀ c, (F c d).swap d = F' d c)
    (hE : ∀ e : Dir, e.emf ∈ emfDirs d3 → ∀ c, E c e.emf = E' e c) (U : Cell → MState ℝ) (c : Cell) :
    emfUpd d3 S dt E c (fluxUpd d3 S dt F c (dirs d3) (U c)) = (mschemeOf d3 S).update U dt F' E' c := by
  rw [MhdScheme.update]
  cases d3
  · have fx := hF .x (Or.inr (by decide))
    have fy := hF .y (Or.inr (by decide))
    have ez : ∀ c, E c .z = E' .z c := hE .z (by decide)
    refine mkState_ext ?_ ?_ (fun i => ?_) (fun i => ?_)
    · simp only [emfUpd, dirs, fluxUpd, addFlux, fx, fy, Bool.false_eq_true, if_false,
        MhdScheme.balance, mschemeOf, axes, List.map_cons, List.map_nil, List.sum_cons, List.sum_nil,
        dtOver, Dir.pick, step_up]
      rops
      ring
    · simp only [emfUpd, dirs, fluxUpd, addFlux, fx, fy, Bool.false_eq_true, if_false,
        MhdScheme.balance, mschemeOf, axes, List.map_cons, List.map_nil, List.sum_cons, List.sum_nil,
        dtOver, Dir.pick, step_up]
      rops
      ring
    · cases i <;>
      · simp only [emfUpd, dirs, fluxUpd, addFlux, fx, fy, Bool.false_eq_true, if_false, vel,
          MhdScheme.balance, mschemeOf, axes, List.map_cons, List.map_nil, List.sum_cons, List.sum_nil,
          dtOver, Dir.pick, step_up]
        rops
        ring
    · cases i <;>
      · simp only [emfUpd, dirs, fluxUpd, addFlux, fx, fy, ez, Bool.false_eq_true, if_false, mag,
          MhdScheme.balance, MhdScheme.curl, mschemeOf, axes, List.map_cons, List.map_nil, List.sum_cons,
          List.sum_nil, dtOver, Dir.pick, step_up, next, List.mem_cons, List.not_mem_nil, or_false,
          false_or, reduceCtorEq, if_true]
        rops
        ring
  · have fx := hF .x (Or.inl rfl)
    have fy := hF .y (Or.inl rfl)
    have fz := hF .z (Or.inl rfl)
    have ex : ∀ c, E c .x = E' .x c := hE .x (by decide)
    have ey : ∀ c, E c .y = E' .y c := hE .y (by decide)
    have ez : ∀ c, E c .z = E' .z c := hE .z (by decide)
    refine mkState_ext ?_ ?_ (fun i => ?_) (fun i => ?_)
    · simp only [emfUpd, dirs, fluxUpd, addFlux, fx, fy, fz, if_true,
        MhdScheme.balance, mschemeOf, axes, List.map_cons, List.map_nil, List.sum_cons, List.sum_nil,
        dtOver, Dir.pick, step_up]
      rops
      ring
    · simp only [emfUpd, dirs, fluxUpd, addFlux, fx, fy, fz, if_true,
        MhdScheme.balance, mschemeOf, axes, List.map_cons, List.map_nil, List.sum_cons, List.sum_nil,
        dtOver, Dir.pick, step_up]
      rops
      ring
    · cases i <;>
      · simp only [emfUpd, dirs, fluxUpd, addFlux, fx, fy, fz, if_true, vel,
          MhdScheme.balance, mschemeOf, axes, List.map_cons, List.map_nil, List.sum_cons, List.sum_nil,
          dtOver, Dir.pick, step_up]
        rops
        ring
    · cases i <;>
      · simp only [emfUpd, dirs, fluxUpd, addFlux, ex, ey, ez, if_true, mag,
          MhdScheme.curl, mschemeOf, axes, dtOver, Dir.pick, step_up, next, List.mem_cons,
          List.not_mem_nil, or_false, false_or, or_true, true_or, reduceCtorEq]
        rops
        ring

/-- The formula of the model is the scheme. -/
theorem mstep_advance (hv : ValidMhd d3 S) (hs : S.slope_type = 1 ∨ S.slope_type = 2)
    (hr : 0 < S.smallr) (hi : S.cIso ≤ 0) (U : Cell → MState ℝ) (c : Cell) :
    mstepOf d3 S P J xmin dt U c = (mschemeOf d3 S).advance U dt c := by
  have hprim : (mschemeOf d3 S).prim U = primOf d3 S U := funext fun c => mprim_eq hr hi U c
  rw [MhdScheme.advance, hprim, mstepOf]
  exact update_eq (fun d hd c => mflux_eq hv hs hd U _ c) (fun e he c => emf_eq hv hs he U _ c) U c

theorem stateAt_eq (m : Addr → ℝ) (A : Nat) : stateAt m A = mfield m A := rfl

variable {B : Sides} {m m' : Addr → ℝ} {impl : Int} {it : Nat}

/-! ### C97 -/

/-- **C97**: an MHD step (either implementation, 2D or 3D, slope type 1 or 2, adiabatic, any boundary
conditions) is exactly one step of the specified scheme in every interior cell, applied to the input array
(with its ghost cells filled). -/
theorem C97_scheme (h : BoxSetup d3 8 3 P B) (hv : ValidMhd d3 S)
    (hs : S.slope_type = 1 ∨ S.slope_type = 2) (hr : 0 < S.smallr) (hi : S.cIso ≤ 0)
    (himpl : impl = 0 ∨ impl = 1) (r : Runs (mhd_unsplit d3 S P J xmin impl dt it) m m') {i j k : Nat}
    (hx : i < P.nx.toNat) (hy : j < P.ny.toNat) (hz : k < depth d3 P) :
    stateAt m' (bufOut it) (cell d3 P i j k) =
      (mschemeOf d3 S).advance (stateAt m' (bufIn it)) dt (cell d3 P i j k) := by
  obtain ⟨m1, x, y, f, e, R⟩ := mhd_whole (S := S) (J := J) (xmin := xmin) (dt := dt) (it := it) h
    himpl m
  obtain rfl := y.unique r
  have hc := mcell_box h (by decide) hx hy hz
  rw [stateAt_eq, stateAt_eq, e, R _ hc.1 hc.2, mstep_advance hv hs hr hi]

/-! ### C95 -/

theorem limited_const (M : MhdScheme) (x : ℝ) : M.limited x x x = 0 := by simp [MhdScheme.limited]

theorem slope_fixed (M : MhdScheme) (x : ℝ) (d : Dir) (c : Cell) : M.slope (fun _ => x) d c = 0 := by
  simp only [MhdScheme.slope, limited_const, ite_self]

theorem rate_fixed (M : MhdScheme) (u q : MState ℝ) (c : Cell) :
    M.rate (fun _ => u) (fun _ => q) c = mkState 0 0 (fun _ => 0) (fun _ => 0) := by
  simp [MhdScheme.rate, MhdScheme.derivField, MhdScheme.deriv, slope_fixed, sum3, mkState]

theorem curl_fixed (M : MhdScheme) (x : Dir → ℝ) (d : Dir) (c : Cell) : M.curl (fun e _ => x e) d c = 0 := by
  simp [MhdScheme.curl]

theorem state_fixed (hq : RegularGas d3 S q) {u : MState ℝ} (hu : ∀ d, d.ok d3 → mag u d = mag q d)
    {σ : Dir → ℝ} (hσ : d3 = false → σ .z = 0) (c : Cell) :
    (mschemeOf d3 S).state (fun _ => u) (fun _ => q) dt σ c = q := by
  have hat : ∀ f : MState ℝ → ℝ, f (mkState 0 0 (fun _ => 0) (fun _ => 0)) = 0 →
      (mschemeOf d3 S).at' (fun _ => u) (fun _ => q) dt f σ c = f q := by
    intro f hf
    simp [MhdScheme.at', rate_fixed, hf, slope_fixed, sum3]
  have hd : (mschemeOf d3 S).at' (fun _ => u) (fun _ => q) dt (·.d) σ c = q.d := hat _ rfl
  have hp : (mschemeOf d3 S).at' (fun _ => u) (fun _ => q) dt (·.p) σ c = q.p := hat _ rfl
  have hv : ∀ i, (mschemeOf d3 S).at' (fun _ => u) (fun _ => q) dt (vel · i) σ c = vel q i :=
    fun i => hat _ (by cases i <;> rfl)
  have hb : ∀ i, (mschemeOf d3 S).fieldAt (fun _ => u) (fun _ => q) dt i σ c = mag q i := by
    intro i
    unfold MhdScheme.fieldAt
    by_cases h0 : σ i = 0
    · rw [if_pos h0]; exact hat _ (by cases i <;> rfl)
    · rw [if_neg h0]
      have hok : i.ok d3 := by
        cases d3
        · right; rintro rfl; exact h0 (hσ rfl)
        · exact Or.inl rfl
      have hc : MhdScheme.cross (fun _ => u) (fun _ => q) = fun e _ => MhdScheme.cross (fun _ => u)
          (fun _ => q) e ⟨0, 0, 0⟩ := rfl
      simp only [MhdScheme.faceHalf, slope_fixed, mul_zero, ite_self, sum3, add_zero]
      rw [hc, curl_fixed, mul_zero, add_zero, hu i hok]
  symm
  have e1 : max S.smallr q.d = q.d := max_eq_right hq.d
  unfold MhdScheme.state
  refine mkState_ext ?_ ?_ (fun i => (hv i).symm) (fun i => (hb i).symm)
  · rw [hd]; exact e1.symm
  · rw [hd, hp]
    have : (mschemeOf d3 S).rhoMin = S.smallr := rfl
    rw [this, e1]
    symm
    refine max_eq_right ?_
    cases d3
    · simpa [mschemeOf, mul_comm] using hq.p
    · simpa [mschemeOf] using hq.p3 rfl

theorem prim_fixed (hγ : 1 < S.gamma0) (hr : 0 < S.smallr) (hq : RegularGas d3 S q) :
    (mschemeOf d3 S).prim (fun _ => mhdConserved S.gamma0 q) = fun _ => q := by
  funext c
  have h0 : 0 < q.d := lt_of_lt_of_le hr hq.d
  have e1 : max q.d S.smallr = q.d := max_eq_left hq.d
  have h1 : S.gamma0 - 1 ≠ 0 := by linarith
  have hf : ∀ d, (mschemeOf d3 S).cellField (fun _ => mhdConserved S.gamma0 q) c d = mag q d := by
    intro d
    cases d3
    · cases d <;> simp [MhdScheme.cellField, mschemeOf, axes, mag, mhdConserved, hq.planar rfl]
    · cases d <;> simp [MhdScheme.cellField, mschemeOf, axes, mag, mhdConserved]
  have hd : (mhdConserved S.gamma0 q).d = q.d := rfl
  have hm : (mschemeOf d3 S).rhoMin = S.smallr := rfl
  have hv : ∀ d, vel (mhdConserved S.gamma0 q) d / q.d = vel q d := by
    intro d; cases d <;> simp only [vel, mhdConserved] <;> field_simp
  have hp : ((mschemeOf d3 S).γ - 1) * ((mhdConserved S.gamma0 q).p - q.d * sum3 (fun d => vel q d ^ 2) / 2 -
      sum3 (fun d => mag q d ^ 2) / 2) = q.p := by
    simp only [mschemeOf, mhdConserved, mhdEnergy, fieldSq, sum3, vel, mag]
    field_simp
    ring
  unfold MhdScheme.prim
  simp only [hd, hm, e1, hv, hf, hp]
  symm
  refine mkState_ext rfl ?_ (fun _ => rfl) (fun i => (hf i).symm)
  exact (max_eq_left hq.p).symm

theorem rotated_physical {q : MState ℝ} (h : Physical q) (d : Dir) : Physical (q.swap d) := by
  cases d <;> exact ⟨h.d, h.p⟩

theorem riemann_same (hγ : 1 < S.gamma0) (hi : S.cIso ≤ 0) (hv : ValidMhd d3 S) {q : MState ℝ}
    (hq : Physical q) : riemann_mhd S q q = some (mhdFlux S.gamma0 q) := by
  have ht : thermal S q = q := if_neg (not_lt.2 hi)
  rcases hv.riemann with h | h | h
  · simp [riemann_mhd, h, hlld_consistent hγ hq, ht]
  · simp [riemann_mhd, h, hll_consistent hγ hq, ht]
  · simp [riemann_mhd, h, llf_consistent hγ.ne', ht]

theorem fluxAlong_eq (γ : ℝ) (d : Dir) (q : MState ℝ) :
    (mhdFlux γ (q.swap d)).swap d = mhdFluxAlong γ d q := by
  cases d <;>
  · unfold mhdFluxAlong
    refine mkState_ext ?_ ?_ (fun i => ?_) (fun i => ?_)
    · simp only [MState.swap, mhdFlux, vel]
    · simp only [MState.swap, mhdFlux, vel, mag, mhdEnergy, fieldSq, vDotB, sum3]; ring
    · cases i <;> simp [MState.swap, mhdFlux, vel, mag, fieldSq, sum3] <;> ring
    · cases i <;> simp [MState.swap, mhdFlux, vel, mag]

theorem near2_of {c c' : Cell} (h : Within d3 (-2) 2 c c') : Near2 d3 c c' := by
  unfold Near2
  cases d3
  · simp only [Within, Bool.false_eq_true, if_false] at h ⊢
    simp only [abs_le]; omega
  · simp only [Within, if_true] at h ⊢
    simp only [abs_le]; omega

theorem gas_physical (hS : MhdParams S) (hq : RegularGas d3 S q) : Physical q := by
  have h0 : 0 < q.d := lt_of_lt_of_le hS.smallr hq.d
  exact ⟨h0, lt_of_lt_of_le (mul_pos h0 hS.smallp) hq.p⟩

theorem trace_near {U U' : Cell → MState ℝ} {c c' : Cell} (hc : Within d3 (-1) 0 c c')
    (hU : ∀ x, Near2 d3 c x → U x = U' x) :
    traceOf d3 S P J xmin dt U c' = traceOf d3 S P J xmin dt U' c' := by
  refine traceOf_congr fun x hx => hU x (near2_of ?_)
  cases d3
  · simp only [Within, Bool.false_eq_true, if_false] at *; omega
  · simp only [Within, if_true] at *; omega

theorem flux_uniform (hS : MhdParams S) (hi : S.cIso ≤ 0) (hv : ValidMhd d3 S)
    (hs : S.slope_type = 1 ∨ S.slope_type = 2) (hq : RegularGas d3 S q) {U : Cell → MState ℝ} {c : Cell}
    (hU : ∀ c', Near2 d3 c c' → U c' = mhdConserved S.gamma0 q) {d : Dir} (hd : d.ok d3) :
    (mschemeOf d3 S).flux U ((mschemeOf d3 S).prim U) dt d c = mhdFluxAlong S.gamma0 d q := by
  have hp : ∀ V, (mschemeOf d3 S).prim V = primOf d3 S V := fun V => funext fun c =>
    mprim_eq hS.smallr hi V c
  have e : ∀ V, (mschemeOf d3 S).flux V ((mschemeOf d3 S).prim V) dt d c =
      (mfluxOf d3 S ⟨fun _ _ => q, fun _ _ => q⟩ (traceOf d3 S (mhdBox .periodic)
        ⟨fun _ _ => q, fun _ _ => q⟩ 0 dt V) c d).swap d := fun V => by
    rw [hp]; exact (mflux_eq hv hs hd V _ c).symm
  rw [e U, mfluxOf_congr (by cases d3 <;> cases d <;> simp_all [dirs, Dir.ok])
    (fun c' hc => trace_near hc hU), ← e, prim_fixed hS.gamma hS.smallr hq]
  have hu : ∀ t : Dir, t.ok d3 → mag (mhdConserved S.gamma0 q) t = mag q t := fun t _ => by
    cases t <;> rfl
  have hσ : ∀ s : ℝ, d3 = false → MhdScheme.offset d s .z = 0 := by
    intro s h0; subst h0
    have : d ≠ .z := by rcases hd with h | h; exact absurd h (by decide); exact h
    simp [MhdScheme.offset, this.symm]
  unfold MhdScheme.flux
  rw [state_fixed hq hu (hσ _), state_fixed hq hu (hσ _)]
  simp only [rotated_swap]
  show ((riemann_mhd S (q.swap d) (q.swap d)).getD (q.swap d)).swap d = _
  rw [riemann_same hS.gamma hi hv (rotated_physical (gas_physical hS hq) d), Option.getD_some,
    fluxAlong_eq]

theorem emf_uniform (hS : MhdParams S) (hi : S.cIso ≤ 0) (hv : ValidMhd d3 S)
    (hs : S.slope_type = 1 ∨ S.slope_type = 2) (hq : RegularGas d3 S q) {U : Cell → MState ℝ} {c : Cell}
    (hU : ∀ c', Near2 d3 c c' → U c' = mhdConserved S.gamma0 q) {e : Dir} (he : e.emf ∈ emfDirs d3) :
    (mschemeOf d3 S).emf U ((mschemeOf d3 S).prim U) dt e c = crossAlong e q := by
  have hp : ∀ V, (mschemeOf d3 S).prim V = primOf d3 S V := fun V => funext fun c =>
    mprim_eq hS.smallr hi V c
  have E : ∀ V, (mschemeOf d3 S).emf V ((mschemeOf d3 S).prim V) dt e c =
      emfOf d3 S (traceOf d3 S (mhdBox .periodic)
        ⟨fun _ _ => q, fun _ _ => q⟩ 0 dt V) c e.emf := fun V => by
    rw [hp]; exact (emf_eq hv hs he V _ c).symm
  rw [E U, emfOf_congr he (fun c' hc => trace_near hc hU), ← E, prim_fixed hS.gamma hS.smallr hq]
  have hu : ∀ t : Dir, t.ok d3 → mag (mhdConserved S.gamma0 q) t = mag q t := fun t _ => by
    cases t <;> rfl
  have hσ : ∀ x y : ℝ, d3 = false →
      (fun t : Dir => if t = next e then x else if t = next (next e) then y else 0) .z = 0 := by
    intro x y h0; subst h0
    cases e <;> simp [emfDirs, Dir.emf, next] at he ⊢
  unfold MhdScheme.emf
  simp only []
  rw [state_fixed hq hu (hσ _ _), state_fixed hq hu (hσ _ _), state_fixed hq hu (hσ _ _),
    state_fixed hq hu (hσ _ _)]
  show compute_emf S e.emf q q q q = _
  rw [compute_emf_consistent (by have := hS.gamma; linarith) hS.smallc e.emf (gas_physical hS hq)]
  cases e <;> rfl

theorem mag_advance (M : MhdScheme) (U : Cell → MState ℝ) (dt : ℝ) (c : Cell) (t : Dir) :
    mag (M.advance U dt c) t = mag (U c) t + if t ∈ axes M.d3 then
      dt * M.curl (M.emf U (M.prim U) dt) t c
      else M.balance dt (fun d x => mag (M.flux U (M.prim U) dt d x) t) c := by
  cases t <;> rfl

/-- **C95**: an MHD step is in conservation form with consistent fluxes.  There are fluxes `F d` through
faces and fields `E e` on edges such that in every interior cell density, energy and momentum (and the
field along `z` in 2D) change by flux differences, the face fields by the curl of `E`, and wherever the
gas around a face or an edge is uniform, `F d` is the flux of ideal MHD along `d` and `E e` is
`v × B`. -/
theorem C95_consistent (h : BoxSetup d3 8 3 P B) (hS : MhdParams S) (hi : S.cIso ≤ 0)
    (hv : ValidMhd d3 S) (hs : S.slope_type = 1 ∨ S.slope_type = 2) (himpl : impl = 0 ∨ impl = 1)
    (r : Runs (mhd_unsplit d3 S P J xmin impl dt it) m m') :
    ∃ (F : Dir → Cell → MState ℝ) (E : Dir → Cell → ℝ),
      (∀ i j k : Nat, i < P.nx.toNat → j < P.ny.toNat → k < depth d3 P →
        let c := cell d3 P i j k
        let old := stateAt m' (bufIn it) c
        let new := stateAt m' (bufOut it) c
        new.d = old.d + (mschemeOf d3 S).balance dt (fun d x => (F d x).d) c ∧
        new.p = old.p + (mschemeOf d3 S).balance dt (fun d x => (F d x).p) c ∧
        (∀ t, vel new t = vel old t + (mschemeOf d3 S).balance dt (fun d x => vel (F d x) t) c) ∧
        (∀ t ∈ axes d3, mag new t = mag old t + dt * (mschemeOf d3 S).curl E t c) ∧
        (d3 = false → mag new .z =
          mag old .z + (mschemeOf d3 S).balance dt (fun d x => mag (F d x) .z) c)) ∧
      (∀ (c : Cell) (q : MState ℝ), RegularGas d3 S q →
        (∀ c', Near2 d3 c c' → stateAt m' (bufIn it) c' = mhdConserved S.gamma0 q) →
        (∀ d ∈ axes d3, F d c = mhdFluxAlong S.gamma0 d q) ∧
        (∀ e, (d3 = false → e = .z) → E e c = crossAlong e q)) := by
  refine ⟨(mschemeOf d3 S).flux (stateAt m' (bufIn it)) ((mschemeOf d3 S).prim (stateAt m' (bufIn it))) dt,
    (mschemeOf d3 S).emf (stateAt m' (bufIn it)) ((mschemeOf d3 S).prim (stateAt m' (bufIn it))) dt,
    ?_, ?_⟩
  · intro i j k hx hy hz
    have e := C97_scheme h hv hs hS.smallr hi himpl r hx hy hz
    have hd3 : (mschemeOf d3 S).d3 = d3 := rfl
    simp only
    rw [e]
    refine ⟨rfl, rfl, fun t => by cases t <;> rfl, fun t ht => ?_, fun h0 => ?_⟩
    · have hm : t ∈ axes (mschemeOf d3 S).d3 := ht
      rw [mag_advance, if_pos hm]
    · subst h0
      have hm : Dir.z ∉ axes (mschemeOf false S).d3 := by simp [mschemeOf, axes]
      rw [mag_advance, if_neg hm]
  · intro c q hq hU
    refine ⟨fun d hd => flux_uniform hS hi hv hs hq hU (axes_mem.1 hd), fun e he => ?_⟩
    refine emf_uniform hS hi hv hs hq hU ?_
    cases d3
    · rw [he rfl]; decide
    · cases e <;> decide

/-- **C95**: uniform flow with a uniform field is preserved exactly by a step, whatever the time step (sides
periodic or absorbing). -/
theorem C95_uniform (h : BoxSetup d3 8 3 P B) (hS : MhdParams S) (hi : S.cIso ≤ 0)
    (hv : ValidMhd d3 S) (hs : S.slope_type = 1 ∨ S.slope_type = 2) (himpl : impl = 0 ∨ impl = 1)
    (hx : B.xlo ≠ .reflecting ∧ B.xhi ≠ .reflecting) (hy : B.ylo ≠ .reflecting ∧ B.yhi ≠ .reflecting)
    (hz : d3 = true → B.zlo ≠ .reflecting ∧ B.zhi ≠ .reflecting) {q : MState ℝ}
    (hq : RegularGas d3 S q)
    (hu : ∀ i j k : Nat, i < P.nx.toNat → j < P.ny.toNat → k < depth d3 P →
      stateAt m (bufIn it) (cell d3 P i j k) = mhdConserved S.gamma0 q)
    (r : Runs (mhd_unsplit d3 S P J xmin impl dt it) m m') {i j k : Nat}
    (hi' : i < P.nx.toNat) (hj : j < P.ny.toNat) (hk : k < depth d3 P) :
    stateAt m' (bufOut it) (cell d3 P i j k) = mhdConserved S.gamma0 q := by
  obtain ⟨m1, x, y, f, e, R⟩ := mhd_whole (S := S) (J := J) (xmin := xmin) (dt := dt) (it := it) h
    himpl m
  obtain rfl := y.unique r
  have hc := mcell_box h (by decide) hi' hj hk
  have hg := h.gw
  have hnx := h.nx
  have hny := h.ny
  have fill : ∀ c, P.box d3 c → mfield m1 (bufIn it) c = mhdConserved S.gamma0 q := by
    intro c hb
    have key : ∀ v, v < 8 → m1 (c.at (bufIn it) v) = (mhdConserved S.gamma0 q).get v := by
      intro v hv8
      refine f.uniform h (by decide) hx hy hz (h.nv ▸ hv8) ?_ ⟨by omega, by omega⟩
        (fun h0 => by have := h.nz h0; omega) hb
      intro c hb hin
      obtain ⟨i, j, k, hi, hj, hk, rfl⟩ := inner_cell hb hin
      rw [← hu i j k hi hj hk, stateAt_eq, mfield_get _ _ _ hv8]
    unfold mfield
    rw [key 0 (by decide), key 1 (by decide), key 2 (by decide), key 3 (by decide), key 4 (by decide),
      key 5 (by decide), key 6 (by decide), key 7 (by decide)]
    rfl
  rw [stateAt_eq, R _ hc.1 hc.2, mstepOf_congr (U' := fun _ => mhdConserved S.gamma0 q)
    (fun c' hw => fill c' (inner_within h hc.1 hc.2 hw)), mstep_advance hv hs hS.smallr hi]
  have hF : ∀ d, d.ok d3 → ∀ c, (mschemeOf d3 S).flux (fun _ => mhdConserved S.gamma0 q)
      ((mschemeOf d3 S).prim fun _ => mhdConserved S.gamma0 q) dt d c = mhdFluxAlong S.gamma0 d q :=
    fun d hd c => flux_uniform hS hi hv hs hq (fun _ _ => rfl) hd
  have hE : ∀ e : Dir, e.emf ∈ emfDirs d3 → ∀ c, (mschemeOf d3 S).emf (fun _ => mhdConserved S.gamma0 q)
      ((mschemeOf d3 S).prim fun _ => mhdConserved S.gamma0 q) dt e c = crossAlong e q :=
    fun e he c => emf_uniform hS hi hv hs hq (fun _ _ => rfl) he
  have hbal : ∀ g : MState ℝ → ℝ, (mschemeOf d3 S).balance dt (fun d x => g ((mschemeOf d3 S).flux
      (fun _ => mhdConserved S.gamma0 q) ((mschemeOf d3 S).prim fun _ => mhdConserved S.gamma0 q) dt d x))
      (cell d3 P i j k) = 0 := by
    intro g
    unfold MhdScheme.balance
    apply List.sum_eq_zero
    intro t ht
    obtain ⟨d, hd, rfl⟩ := List.mem_map.1 ht
    have hd := axes_mem.1 hd
    simp only [hF d hd, sub_self, mul_zero]
  have hcurl : ∀ t, t ∈ axes (mschemeOf d3 S).d3 → (mschemeOf d3 S).curl ((mschemeOf d3 S).emf
      (fun _ => mhdConserved S.gamma0 q) ((mschemeOf d3 S).prim fun _ => mhdConserved S.gamma0 q) dt) t
      (cell d3 P i j k) = 0 := by
    intro t ht
    cases d3
    · have ez := hE .z (by decide)
      cases t
      · simp [MhdScheme.curl, next, mschemeOf, axes] at ez ⊢
        left; rw [ez, ez, sub_self]
      · simp [MhdScheme.curl, next, mschemeOf, axes] at ez ⊢
        left; rw [ez, ez, sub_self]
      · simp [mschemeOf, axes] at ht
    · have ez := fun e => hE e (by cases e <;> decide)
      simp only [MhdScheme.curl, ez, sub_self, zero_div, ite_self]
  unfold MhdScheme.advance MhdScheme.update
  simp only [hbal, add_zero]
  symm
  have hb2 := fun i => hbal (vel · i)
  have hb3 := fun i => hbal (mag · i)
  refine mkState_ext rfl rfl (fun i => ?_) (fun i => ?_)
  · rw [hb2 i, add_zero]
  rw [hb3 i]
  split_ifs with hm
  · rw [hcurl i hm, mul_zero, add_zero]
  · rw [add_zero]

/-- Hypotheses met: oblique field, motion in all directions, 3D, HLLD. -/
example : RegularGas true mhdSettings ⟨2, 3, 1, -1, 1 / 2, 1, 2, -1⟩ where
  d := by norm_num [mhdSettings, exampleMhd, exampleSettings]
  p := by norm_num [mhdSettings, exampleMhd, exampleSettings]
  p3 := by norm_num [mhdSettings, exampleMhd, exampleSettings]
  planar := fun h => by cases h
  hlld := fun _ d _ => by
    right
    cases d
    · exact ⟨.y, by decide, by norm_num [mag]⟩
    · exact ⟨.x, by decide, by norm_num [mag]⟩
    · exact ⟨.x, by decide, by norm_num [mag]⟩

/-- A run to which C95 and C97 apply. -/
example (J : MJunk ℝ) (m : Addr → ℝ) : ∃ m',
    Runs (mhd_unsplit true mhdSettings (mhdBox .reflecting) J 0 1 (1 / 10) 0) m m' ∧
    stateAt m' (bufOut 0) (cell true (mhdBox .reflecting) 1 2 0) =
      (mschemeOf true mhdSettings).advance (stateAt m' (bufIn 0)) (1 / 10)
        (cell true (mhdBox .reflecting) 1 2 0) := by
  obtain ⟨_, m', y, -⟩ := mhd_whole (S := mhdSettings) (J := J) (xmin := 0) (dt := 1 / 10) (it := 0)
    (mhdBox_setup true .reflecting) (Or.inr rfl) m
  exact ⟨m', y.run, C97_scheme (mhdBox_setup true .reflecting) (mhdSettings_valid true) (Or.inl rfl)
    (by norm_num [mhdSettings, exampleMhd, exampleSettings]) le_rfl (Or.inr rfl) y.run (by decide)
    (by decide) (by decide)⟩

/-! ### C96 -/

theorem face_pred (U Q : Cell → MState ℝ) (c : Cell) {t : Dir} (ht : t.ok d3) (up : Bool) :
    (predOf d3 S P J xmin dt U Q c).face t up =
      (mschemeOf d3 S).faceHalf U Q dt t (if up then step t 1 c else c) := by
  cases d3
  · simp only [predOf, Bool.false_eq_true, if_false]
    exact face2 _ U Q c t (axes_mem.2 ht) up
  · simp only [predOf, if_true]
    exact face3 _ U Q c t up

theorem faceState_normal (T : Predicted ℝ) (d : Dir) (up : Bool) :
    mag (faceState d3 S T d up) d = T.face d up := by
  simp only [faceState, mfloor_mag, setB_mag, if_true]

theorem trace_runs {U Uout : Nat} (h : MhdOk d3 P impl U Uout) (m : Addr → ℝ) :
    ∃ m', YieldsAll (mhdDom d3 P impl) (mhdTrace d3 S P J xmin dt U) m m' ∧
      Traced d3 S P (predOf d3 S P J xmin dt (mfield m U) (mfield m aQ)) m' ∧
      ∀ a, a.arr < 40 → m' a = m a := by
  cases d3
  · obtain ⟨m', y, hT, hf⟩ := mhd_trace2 (S := S) (J := J) (dt := dt) h m
    exact ⟨m', .cons y (.nil _), hT, fun a ha => hf a (Or.inl ha)⟩
  · obtain ⟨m', y, hT, hf⟩ := mhd_trace3 (S := S) (xmin := xmin) (dt := dt) h m
    exact ⟨m', y, hT, hf⟩

/-- **C96**: the field that the half time step predicts on the faces is single-valued: the two cells on
either side of a face store the same normal field. -/
theorem C96_continuous (h : BoxSetup d3 8 3 P B) (himpl : impl = 0 ∨ impl = 1)
    (r : Runs (mhdTrace d3 S P J xmin dt (bufIn it)) m m') {d : Dir} (hd : d ∈ axes d3) {c : Cell}
    (hc : P.box d3 c ∧ P.traced d3 c) (hu : P.box d3 (step d 1 c) ∧ P.traced d3 (step d 1 c)) :
    mag (stateAt m' (mQm d) c) d = mag (stateAt m' (mQp d) (step d 1 c)) d := by
  obtain ⟨x, y, T, -⟩ := trace_runs (S := S) (J := J) (xmin := xmin) (dt := dt)
    (mhdOk_of (it := it) h himpl) m
  obtain rfl := y.unique r
  have hd' : d ∈ dirs d3 := hd
  rw [stateAt_eq, stateAt_eq, T.qm c hc.1 hc.2 d hd', T.qp _ hu.1 hu.2 d hd', faceState_normal,
    faceState_normal, face_pred _ _ _ (axes_mem.1 hd), face_pred _ _ _ (axes_mem.1 hd)]
  rfl

/-- **C96**: the half time step does not change the divergence of the magnetic field: computed from the
predicted face fields it equals the divergence of the stored field, in every cell in which the prediction
is made (whatever the primitive variables). -/
theorem C96_divergence (h : BoxSetup d3 8 3 P B) (himpl : impl = 0 ∨ impl = 1)
    (r : Runs (mhdTrace d3 S P J xmin dt (bufIn it)) m m') {c : Cell} (hc : P.box d3 c)
    (ht : P.traced d3 c) :
    ((axes d3).map fun d => (mag (stateAt m' (mQm d) c) d - mag (stateAt m' (mQp d) c) d) /
        (mschemeOf d3 S).h d).sum =
    ((axes d3).map fun d => (mag (stateAt m (bufIn it) (step d 1 c)) d - mag (stateAt m (bufIn it) c) d) /
        (mschemeOf d3 S).h d).sum := by
  obtain ⟨x, y, T, -⟩ := trace_runs (S := S) (J := J) (xmin := xmin) (dt := dt)
    (mhdOk_of (it := it) h himpl) m
  obtain rfl := y.unique r
  have e : ∀ d ∈ axes d3, mag (stateAt m' (mQm d) c) d - mag (stateAt m' (mQp d) c) d =
      (mschemeOf d3 S).faceHalf (stateAt m (bufIn it)) (mfield m aQ) dt d (step d 1 c) -
      (mschemeOf d3 S).faceHalf (stateAt m (bufIn it)) (mfield m aQ) dt d c := by
    intro d hd
    have hd' : d ∈ dirs d3 := hd
    rw [stateAt_eq, stateAt_eq, T.qm c hc ht d hd', T.qp _ hc ht d hd', faceState_normal,
      faceState_normal, face_pred _ _ _ (axes_mem.1 hd), face_pred _ _ _ (axes_mem.1 hd)]
    rfl
  have e2 : ((axes d3).map fun d => (mag (stateAt m' (mQm d) c) d - mag (stateAt m' (mQp d) c) d) /
      (mschemeOf d3 S).h d) = (axes d3).map fun d =>
      ((mschemeOf d3 S).faceHalf (stateAt m (bufIn it)) (mfield m aQ) dt d (step d 1 c) -
      (mschemeOf d3 S).faceHalf (stateAt m (bufIn it)) (mfield m aQ) dt d c) / (mschemeOf d3 S).h d :=
    List.map_congr_left fun d hd => by rw [e d hd]
  rw [e2]
  clear e2 e
  generalize stateAt m (bufIn it) = U
  generalize mfield m aQ = Q
  have hG : ∀ G : Dir → Cell → ℝ, ((axes d3).map fun d =>
      ((mschemeOf d3 S).curl G d (step d 1 c) - (mschemeOf d3 S).curl G d c) /
        (mschemeOf d3 S).h d).sum = 0 := by
    intro G
    cases d3
    · simp [axes, MhdScheme.curl, mschemeOf, next, step, Dir.pick]
      ring
    · simp [axes, MhdScheme.curl, mschemeOf, next, step, Dir.pick]
      ring
  have key := hG (MhdScheme.cross U Q)
  simp only [MhdScheme.faceHalf]
  cases d3
  · simp only [axes, Bool.false_eq_true, if_false, List.map_cons, List.map_nil, List.sum_cons,
      List.sum_nil] at key ⊢
    linear_combination dt / 2 * key
  · simp only [axes, if_true, List.map_cons, List.map_nil, List.sum_cons, List.sum_nil] at key ⊢
    linear_combination dt / 2 * key

/-- Cells where the prediction is made: all interior cells and one layer around them. -/
example : (mhdBox .periodic).box true ⟨2, 3, 4⟩ ∧ (mhdBox .periodic).traced true ⟨2, 3, 4⟩ := by
  decide

end Verif
