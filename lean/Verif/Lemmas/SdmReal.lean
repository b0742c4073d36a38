import Verif.Lemmas.SdmWhole
import Verif.Lemmas.SdmPoints
import Verif.Props.C27_C29_Riemann
import Verif.Props.C39_C68_Euler
import Verif.Props.C81_C84_SdmGeometry

/-! Helper lemmas: the divergence of the fluxes over the reals. -/

namespace Verif.Sdm

open Verif Spec Polynomial Finset

theorem sol2flux_line (N : ℕ) (u : ℕ → ℝ) (j : ℕ) :
    sol2fluxVector N (solPts N) (fluxPts N) u j = lineValue N u (fluxPts N j) := by
  rw [sol2fluxVector_eq, lineValue, Lagrange.interpolate_apply, eval_finsetSum]
  simp

theorem flux2sol_line {N : ℕ} (hN : Orders N) (f : ℕ → ℝ) (r : ℝ) {j : ℕ} (hj : j < N) :
    flux2solDerivativeVector N (solPts N) (fluxPts N) f r j = lineSlope N f (solPts N j) * r := by
  rw [flux2solDerivativeVector_eq _ _ _ _ _ _ fun k hk => solPts_ne_fluxPts hN hj hk, lineSlope,
    Lagrange.interpolate_apply, derivative_sum, eval_finsetSum]
  simp

theorem part_eq_comp (q : HState ℝ) {d3 : Bool} {iv : ℕ} (hv : iv < hydroVars d3) :
    Mood.comp q iv = part q iv := by
  have : iv < 5 := by cases d3 <;> simp [hydroVars] at hv <;> omega
  interval_cases iv <;> rfl

section
variable {M : Scheme ℝ} {P : Grid} {B : Sides} {S : Settings ℝ}

theorem interpState_eq (hM : ExactScheme M) (d : Dir) (u : Vals ℝ) (c : Cell) (p : Pt) :
    interpState M S d u c p = pointState M.d3 M.N S.smallr d u c p := by
  unfold interpState pointState Mood.ofComps floorDensity
  rw [hM.sp, hM.fp]
  simp only [sol2flux_line]
  cases M.d3 <;> simp [ID, IP, IU, IV, IW] <;> rops <;> simp

theorem riemannFlux_junk (h : HasSolver M.d3 S) (d : Dir) (j j' ql qr : HState ℝ) :
    riemannFlux M.d3 S j d ql qr = riemannFlux M.d3 S j' d ql qr := by
  unfold riemannFlux
  congr 1
  have : (riemann_hydro M.d3 S ((primitive M.d3 ql S.gamma0).swap d)
      ((primitive M.d3 qr S.gamma0).swap d)).isSome := by
    cases h3 : M.d3
    · exact (C29_hydro2d S _ _).2 h.hlld
    · exact (C29_hydro3d S _ _).2 ⟨h.hlld, h.hll h3⟩
  obtain ⟨f, hf⟩ := Option.isSome_iff_exists.1 this
  rw [hf]; rfl

theorem fluxFrom_eq (hs : Setup M P B) (hr : HasSolver M.d3 S) {d : Dir} (hd : M.d3 = true ∨ d ≠ .z)
    {junk : Cell → Pt → HState ℝ} {q : Cell → Pt → HState ℝ} {c : Cell} (hc : P.inner M.d3 c) (p : Pt) :
    fluxFrom M S P junk d q c p =
      pointFlux M.N (eulerFluxOf M.d3 S d) (riemannFlux M.d3 S HState.zero d) d q c p := by
  have h1 := inner_coord hd hc
  have h2 := size_eq P d
  have h3 := hs.gw
  unfold fluxFrom pointFlux
  rw [if_pos (show 0 < coord d c by omega), if_pos (show coord d c + 1 < size P d by omega)]
  split_ifs with e1 e2
  · rw [riemannFlux_junk hr d _ HState.zero, ← e1, Pt.set_get]
  · rw [riemannFlux_junk hr d _ HState.zero, ← e2, Pt.set_get]
  · rfl

theorem rescale_eq (S : Settings ℝ) (d : Dir) : rescale S d = 1 / width S d := by
  cases d <;> unfold rescale width <;> rops

theorem divAlong_eq (hM : ExactScheme M) (hs : Setup M P B) (hr : HasSolver M.d3 S) {d : Dir}
    (hd : M.d3 = true ∨ d ≠ .z) {junk : Dir → Cell → Pt → HState ℝ} (u : Vals ℝ) {c : Cell}
    (hc : P.inner M.d3 c) {p : Pt} (hp : IsSolPt M.d3 M.N p) {iv : ℕ} (hv : iv < hydroVars M.d3) :
    divAlong M S P junk u d c p iv =
      slopeOf M.d3 M.N S (eulerFluxOf M.d3 S) (riemannFlux M.d3 S HState.zero) u d c p iv := by
  have e : interpState M S d u = pointState M.d3 M.N S.smallr d u := by
    funext c p; exact interpState_eq hM d u c p
  unfold divAlong slopeOf
  rw [e, hM.sp, hM.fp, flux2sol_line hM.orders _ _ (hp.get_lt hd), rescale_eq, mul_one_div]
  congr 2
  funext k
  rw [fluxFrom_eq hs hr hd hc, part_eq_comp _ hv]

theorem rhs_eq (hM : ExactScheme M) (hs : Setup M P B) (hr : HasSolver M.d3 S)
    {junk : Dir → Cell → Pt → HState ℝ} (u : Vals ℝ) :
    SameInside M.d3 M.N P (rhs M S P B junk u)
      (divergenceOf M.d3 M.N S (eulerFluxOf M.d3 S) (riemannFlux M.d3 S HState.zero)
        (extended M.d3 M.N P B u)) := by
  intro c p iv _ hc hp hv
  unfold rhs divAll divergenceOf
  simp only
  rw [divAlong_eq hM hs hr (.inr (by decide)) _ hc hp hv, divAlong_eq hM hs hr (.inr (by decide)) _ hc hp hv]
  cases h3 : M.d3
  · simp only [Bool.false_eq_true, if_false]; rops; ring
  · simp only [if_true]
    rw [← h3, divAlong_eq hM hs hr (.inl h3) _ hc hp hv, h3]
    rops; ring

end

/-! ### The fluxes of the model are those of the gas -/

theorem conserved_primOf {d3 : Bool} {γ : ℝ} {q : HState ℝ} (hγ : 1 < γ) (hd : q.d ≠ 0)
    (hw : d3 = false → q.w = 0) : conserved d3 γ (primOf d3 γ q) = q := by
  have hg : γ - 1 ≠ 0 := by linarith
  cases d3
  · ext <;> simp only [conserved, primOf, energy, Bool.false_eq_true, if_false]
    · field_simp; ring
    · field_simp
    · field_simp
    · exact (hw rfl).symm
  · ext <;> simp only [conserved, primOf, energy, if_true] <;> field_simp <;> ring

theorem Physical.pos {d3 : Bool} {γ : ℝ} {q : HState ℝ} (h : Physical d3 γ q) : 0 < q.d :=
  lt_of_lt_of_le (by norm_num) h.d

theorem primitive_eq {d3 : Bool} {γ : ℝ} {q : HState ℝ} (hγ : 1 < γ) (h : Physical d3 γ q) :
    primitive d3 q γ = primOf d3 γ q ∧ pressure d3 q γ = (primOf d3 γ q).p := by
  have e := conserved_primOf hγ h.pos.ne' h.w
  unfold primitive pressure
  cases d3
  · have := C67_primitive_2d (primOf false γ q) hγ h.d h.p
    rw [e] at this
    simpa [primOf] using this
  · have := C67_primitive_3d (primOf true γ q) hγ h.pos h.p
    rw [e] at this
    simpa using this

theorem eulerFluxOf_eq {d3 : Bool} {S : Settings ℝ} {d : Dir} (hd : d3 = true ∨ d ≠ .z) {q : HState ℝ}
    (hγ : 1 < S.gamma0) (h : Physical d3 S.gamma0 q) : eulerFluxOf d3 S d q = gasFlux d3 S.gamma0 d q := by
  have e := conserved_primOf hγ h.pos.ne' h.w
  have e2 := (primitive_eq hγ h).2
  unfold eulerFluxOf gasFlux
  rw [e2]
  cases d3
  · have := C67_flux_2d (γ := S.gamma0) d (hd.resolve_left (by decide)) (primOf false S.gamma0 q) h.pos.ne'
    rw [e] at this
    simpa using this
  · have := C67_flux_3d (γ := S.gamma0) d (primOf true S.gamma0 q) h.pos.ne'
    rw [e] at this
    simpa using this

theorem riemannFlux_eq {d3 : Bool} {S : Settings ℝ} {d : Dir} {ql qr : HState ℝ}
    (hγ : 1 < S.gamma0) (hl : Physical d3 S.gamma0 ql) (hr : Physical d3 S.gamma0 qr) :
    riemannFlux d3 S HState.zero d ql qr = faceFlux d3 S d ql qr := by
  unfold riemannFlux faceFlux
  rw [(primitive_eq hγ hl).1, (primitive_eq hγ hr).1]

end Verif.Sdm
