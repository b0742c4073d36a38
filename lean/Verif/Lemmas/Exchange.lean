import Verif.Lemmas.MirrorStep
import Verif.Lemmas.RiemannApprox

/-! Helper lemmas: the hydro step with two axes exchanged. -/

namespace Verif

open Spec Sdm ROps

/-! ### Riemann solvers and the velocity along the face -/

/-- The velocity components along the face exchanged. -/
def swapVW (q : HState ℝ) : HState ℝ := { q with v := q.w, w := q.v }

theorem llfCons_swapVW (S : Settings ℝ) (q : HState ℝ) :
    llfCons true S (swapVW q) = swapVW (llfCons true S q) := by
  simp only [llfCons, swapVW, if_true]; rops
  ext <;> simp only <;> ring

theorem riemann_llf_swapVW (S : Settings ℝ) (ql qr : HState ℝ) :
    riemann_llf true S (swapVW ql) (swapVW qr) = swapVW (riemann_llf true S ql qr) := by
  unfold riemann_llf
  simp only [llfCons_swapVW]
  simp [llfFlux, swapVW]

theorem hllcEtot_swapVW (S : Settings ℝ) (r p : ℝ) (q : HState ℝ) :
    hllcEtot true S r p (swapVW q) = hllcEtot true S r p q := by
  simp only [hllcEtot, swapVW, if_true]; rops; ring

theorem riemann_hllc_swapVW (S : Settings ℝ) (ql qr : HState ℝ) :
    riemann_hllc true S (swapVW ql) (swapVW qr) = swapVW (riemann_hllc true S ql qr) := by
  unfold riemann_hllc
  simp only [hllcEtot_swapVW]
  rfl

theorem cmpflx_swapVW (S : Settings ℝ) (q : HState ℝ) :
    cmpflx true S (swapVW q) = swapVW (cmpflx true S q) := by
  simp only [cmpflx, swapVW, if_true]; rops
  ext <;> simp only <;> ring

theorem riemann_approx_swapVW (S : Settings ℝ) (ql qr : HState ℝ) :
    riemann_approx true S (swapVW ql) (swapVW qr) = swapVW (riemann_approx true S ql qr) := by
  unfold riemann_approx
  rw [← cmpflx_swapVW]
  rfl

theorem riemann_swapVW (S : Settings ℝ) (ql qr : HState ℝ) :
    riemann_hydro true S (swapVW ql) (swapVW qr) = (riemann_hydro true S ql qr).map swapVW := by
  unfold riemann_hydro
  cases h : S.riemann <;> simp [riemann_llf_swapVW, riemann_hllc_swapVW, riemann_approx_swapVW]

theorem approxLoop_congr {S S' : Settings ℝ} (h6 : S'.gamma6 = S.gamma6) (hp : S'.smallpp = S.smallpp)
    (cl cr pl pr ul ur : ℝ) : ∀ n p c, approxLoop S' cl cr pl pr ul ur n p c = approxLoop S cl cr pl pr ul ur n p c := by
  intro n
  induction n with
  | zero => intro p c; rfl
  | succ n ih =>
    intro p c
    simp only [approxLoop, approxNewton, h6, hp, ih]

theorem approxStar_congr {S S' : Settings ℝ} (h0 : S'.gamma0 = S.gamma0) (h6 : S'.gamma6 = S.gamma6)
    (hp : S'.smallpp = S.smallpp) (rl ul pl rr ur pr : ℝ) :
    approxStar S' rl ul pl rr ur pr = approxStar S rl ul pl rr ur pr := by
  simp only [approxStar, approxLoop_congr h6 hp, h0, h6]

/-- The Riemann solvers do not look at the cell sizes. -/
theorem riemann_settings (d3 : Bool) (t : Dir) (S : Settings ℝ) (ql qr : HState ℝ) :
    riemann_hydro d3 (exchangeSettings t S) ql qr = riemann_hydro d3 S ql qr := by
  have ha : riemann_approx d3 (exchangeSettings t S) ql qr = riemann_approx d3 S ql qr := by
    have e1 : (exchangeSettings t S).gamma0 = S.gamma0 := by cases t <;> rfl
    have e2 : (exchangeSettings t S).gamma6 = S.gamma6 := by cases t <;> rfl
    have e3 : (exchangeSettings t S).smallpp = S.smallpp := by cases t <;> rfl
    have e4 : (exchangeSettings t S).smallr = S.smallr := by cases t <;> rfl
    have e5 : (exchangeSettings t S).smallp = S.smallp := by cases t <;> rfl
    have e6 : (exchangeSettings t S).smallc = S.smallc := by cases t <;> rfl
    have hs : approxSample (exchangeSettings t S) = approxSample S := by
      funext a b c d e f g
      unfold approxSample
      simp only [e1, e4, e6]
    have hc : cmpflx d3 (exchangeSettings t S) = cmpflx d3 S := by
      funext q
      unfold cmpflx
      simp only [e1]
    unfold riemann_approx
    simp only [approxStar_congr e1 e2 e3, hs, hc, e4, e5]
  unfold riemann_hydro
  rw [show (exchangeSettings t S).riemann = S.riemann by cases t <;> rfl]
  cases d3 <;> cases h : S.riemann <;> simp only [Bool.false_eq_true, if_false, if_true] <;>
    first
      | exact congrArg some ha
      | (cases t <;> rfl)
      | rfl

/-! ### Local formulas -/

/-- State with the velocity components exchanged. -/
def exchangeState (t : Dir) (q : HState ℝ) : HState ℝ :=
  match t with
  | .z => { q with u := q.v, v := q.u }
  | .y => { q with u := q.w, w := q.u }
  | .x => { q with v := q.w, w := q.v }

variable {d3 : Bool} {t : Dir} {S : Settings ℝ}

theorem ValidHydro.exchange (hv : ValidHydro d3 S) (t : Dir) : ValidHydro d3 (exchangeSettings t S) := by
  cases t <;> exact ⟨hv.slope, hv.hlld, hv.hll⟩

theorem exchanged_ok (ht : CanExchange d3 t) {e : Dir} (he : e.ok d3) : (exchanged t e).ok d3 := by
  rcases ht with rfl | rfl
  · exact Or.inl rfl
  · cases e
    · exact Or.inr (by decide)
    · exact Or.inr (by decide)
    · exact he

theorem exchanged_exchanged (t e : Dir) : exchanged t (exchanged t e) = e := by cases t <;> cases e <;> rfl

theorem prim_exchange (ht : CanExchange d3 t) (u : HState ℝ) :
    (computePrimitives d3 (exchangeSettings t S) (exchangeState t u)).1 =
      exchangeState t (computePrimitives d3 S u).1 := by
  unfold computePrimitives
  cases d3
  · obtain rfl := ht.resolve_left (by decide)
    simp only [exchangeSettings, exchangeState, Bool.false_eq_true, if_false]; rops
    ext <;> simp only <;> ring_nf
  · cases t <;> simp only [exchangeSettings, exchangeState, if_true] <;> rops <;>
      ext <;> simp only <;> ring_nf

theorem slopes_exchange (hv : ValidHydro d3 S) (ht : CanExchange d3 t) (q : HState ℝ)
    (p m p' m' : Dir → HState ℝ) (j j' : Dir → HState ℝ) {e : Dir}
    (hp : p' (exchanged t e) = exchangeState t (p e)) (hm : m' (exchanged t e) = exchangeState t (m e)) :
    (slopes d3 (exchangeSettings t S) (exchangeState t q) p' m').getD j' (exchanged t e) =
      exchangeState t ((slopes d3 S q p m).getD j e) := by
  rw [(hv.exchange t).slopes _ _ _ j' (fun _ => HState.zero), hv.slopes _ _ _ j (fun _ => HState.zero)]
  have e1 : (exchangeSettings t S).slope_type = S.slope_type := by cases t <;> rfl
  have e2 : ∀ a b c, slopeScalar (exchangeSettings t S) a b c = slopeScalar S a b c := by
    intro a b c; unfold slopeScalar; rw [e1]
  unfold Verif.slopes
  rw [e1]
  by_cases h1 : eqb S.slope_type (lit 0) = true
  · rw [if_pos h1, if_pos h1]
    cases t <;> rfl
  · rw [if_neg h1, if_neg h1]
    by_cases h2 : (eqb S.slope_type (lit 1) || eqb S.slope_type (lit 2)) = true
    · rw [if_pos h2, if_pos h2]
      simp only [Option.getD_some, hp, hm, e2]
      cases d3
      · obtain rfl := ht.resolve_left (by decide)
        simp only [exchangeState, Bool.false_eq_true, if_false]
      · cases t <;> simp only [exchangeState, if_true]
    · rw [if_neg h2, if_neg h2]
      cases t <;> rfl

theorem traceSource_exchange (ht : CanExchange d3 t) (q : HState ℝ) (dq dq' : Dir → HState ℝ)
    (h : ∀ e, e.ok d3 → dq' (exchanged t e) = exchangeState t (dq e)) :
    traceSource d3 (exchangeSettings t S) (exchangeState t q) dq' = exchangeState t (traceSource d3 S q dq) := by
  have hx := h .x (Or.inr (by decide))
  have hy := h .y (Or.inr (by decide))
  unfold traceSource
  cases d3
  · obtain rfl := ht.resolve_left (by decide)
    simp only [exchanged] at hx hy
    simp only [exchangeSettings, exchangeState, Bool.false_eq_true, if_false, hx, hy]; rops
    ext <;> simp only <;> ring
  · have hz := h .z (Or.inl rfl)
    cases t <;> simp only [exchanged] at hx hy hz <;>
      simp only [exchangeSettings, exchangeState, if_true, hx, hy, hz] <;> rops <;>
      ext <;> simp only <;> ring

theorem trace_exchange (ht : CanExchange d3 t) (q : HState ℝ) (dq dq' : Dir → HState ℝ)
    (h : ∀ e, e.ok d3 → dq' (exchanged t e) = exchangeState t (dq e)) (dt : ℝ) {e : Dir} (he : e.ok d3) (b : Bool) :
    traceAlongDir d3 (exchangeSettings t S) (exchangeState t q) dq' (dtOver (exchangeSettings t S) dt)
        (exchanged t e) b =
      exchangeState t (traceAlongDir d3 S q dq (dtOver S dt) e b) := by
  unfold traceAlongDir
  rw [traceSource_exchange ht q dq dq' h, h e he]
  have ed : dtOver (exchangeSettings t S) dt (exchanged t e) = dtOver S dt e := by
    cases t <;> cases e <;> rfl
  rw [ed]
  generalize traceSource d3 S q dq = s
  cases d3
  · obtain rfl := ht.resolve_left (by decide)
    cases b <;> simp [exchangeState, exchangeSettings]
  · cases t <;> cases b <;> simp [exchangeState, exchangeSettings]

theorem pred_exchange (ht : CanExchange d3 t) (b : Bool) (dt : ℝ) (g q : HState ℝ) :
    pred d3 b dt (exchangeState t g) (exchangeState t q) = exchangeState t (pred d3 b dt g q) := by
  unfold pred addGravity
  cases b
  · rfl
  · cases d3
    · obtain rfl := ht.resolve_left (by decide)
      simp [exchangeState]
    · cases t <;> simp [exchangeState]

theorem faceFlux_exchange (hv : ValidHydro d3 S) (ht : CanExchange d3 t) {e : Dir} (he : e.ok d3)
    (j j' : HState ℝ) (dt : ℝ) (ql qr : HState ℝ) :
    faceFlux d3 (exchangeSettings t S) j' dt (exchanged t e) (exchangeState t ql) (exchangeState t qr) =
      exchangeState t (faceFlux d3 S j dt e ql qr) := by
  rw [(hv.exchange t).faceFlux j' HState.zero, hv.faceFlux j HState.zero]
  unfold faceFlux
  rw [riemann_settings]
  obtain ⟨f, hf⟩ : ∃ f, riemann_hydro d3 S (ql.swap e) (qr.swap e) = some f := by
    have h1 := hv.hlld
    have h2 := hv.hll
    unfold riemann_hydro
    cases d3 <;> cases hh : S.riemann <;> simp_all
  have hW : d3 = true → riemann_hydro d3 S (swapVW (ql.swap e)) (swapVW (qr.swap e)) = some (swapVW f) := by
    rintro rfl
    rw [riemann_swapVW S, hf]; rfl
  rw [hf, Option.getD_some]
  cases d3
  · obtain rfl := ht.resolve_left (by decide)
    cases e
    · rw [show (exchangeState .z ql).swap (exchanged .z .x) = ql.swap .x from rfl,
        show (exchangeState .z qr).swap (exchanged .z .x) = qr.swap .x from rfl, hf]
      simp [exchangeState, exchanged, HState.swap, HState.scale]
    · rw [show (exchangeState .z ql).swap (exchanged .z .y) = ql.swap .y from rfl,
        show (exchangeState .z qr).swap (exchanged .z .y) = qr.swap .y from rfl, hf]
      simp [exchangeState, exchanged, HState.swap, HState.scale]
    · exact absurd rfl (he.resolve_left (by decide))
  · have hW := hW rfl
    cases t <;> cases e
    · change (((riemann_hydro true S (swapVW (ql.swap .x)) (swapVW (qr.swap .x))).getD _).swap .x).scale _ _ = _
      rw [hW]; rfl
    · change (((riemann_hydro true S (swapVW (ql.swap .y)) (swapVW (qr.swap .y))).getD _).swap .z).scale _ _ = _
      rw [hW]; rfl
    · change (((riemann_hydro true S (swapVW (ql.swap .z)) (swapVW (qr.swap .z))).getD _).swap .y).scale _ _ = _
      rw [hW]; rfl
    · change (((riemann_hydro true S (ql.swap .x) (qr.swap .x)).getD _).swap .z).scale _ _ = _
      rw [hf]; rfl
    · change (((riemann_hydro true S (swapVW (ql.swap .y)) (swapVW (qr.swap .y))).getD _).swap .y).scale _ _ = _
      rw [hW]; rfl
    · change (((riemann_hydro true S (ql.swap .z) (qr.swap .z)).getD _).swap .x).scale _ _ = _
      rw [hf]; rfl
    · change (((riemann_hydro true S (ql.swap .x) (qr.swap .x)).getD _).swap .y).scale _ _ = _
      rw [hf]; rfl
    · change (((riemann_hydro true S (ql.swap .y) (qr.swap .y)).getD _).swap .x).scale _ _ = _
      rw [hf]; rfl
    · change (((riemann_hydro true S (swapVW (ql.swap .z)) (swapVW (qr.swap .z))).getD _).swap .z).scale _ _ = _
      rw [hW]; rfl

end Verif
