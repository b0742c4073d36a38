import Verif.Lemmas.SdmFlux
import Verif.Spec.SdmStep

/-! Helper lemmas: the divergence of the fluxes. -/

namespace Verif.Sdm

open Verif K Function ROps

variable {α : Type} [ROps α]

/-- Interpolated state. -/
def interpState (M : Scheme α) (S : Settings α) (d : Dir) (u : Vals α) (c : Cell) (p : Pt) : HState α :=
  Mood.ofComps M.d3 fun iv => floorDensity S iv
    (sol2fluxVector M.N M.sp M.fp (fun k => u c (p.set d k) iv) (p.get d))

/-- Contribution of one direction. -/
def divAlong (M : Scheme α) (S : Settings α) (P : Grid) (junk : Dir → Cell → Pt → HState α) (u : Vals α)
    (d : Dir) : Vals α := fun c p iv =>
  flux2solDerivativeVector M.N M.sp M.fp
    (fun k => Mood.comp (fluxFrom M S P (junk d) d (interpState M S d u) c (p.set d k)) iv)
    (rescale S d) (p.get d)

/-- What `Uaux` ends up with. -/
def divAll (M : Scheme α) (S : Settings α) (P : Grid) (junk : Dir → Cell → Pt → HState α) (u : Vals α) :
    Vals α := fun c p iv =>
  let a := lit 0 + divAlong M S P junk u .x c p iv + divAlong M S P junk u .y c p iv
  if M.d3 then a + divAlong M S P junk u .z c p iv else a

theorem flux2solDerivativeVector_congr {N : ℕ} {sp fp : ℕ → α} {f g : ℕ → α} {r : α} {j : ℕ}
    (h : ∀ k, k < N + 1 → f k = g k) :
    flux2solDerivativeVector N sp fp f r j = flux2solDerivativeVector N sp fp g r j := by
  unfold flux2solDerivativeVector
  congr 1
  exact sumIf_congr fun k hk => by rw [h k hk]

theorem fluxFrom_congr {M : Scheme α} {S : Settings α} {P : Grid} {junk : Cell → Pt → HState α} {d : Dir}
    (hd : M.d3 = true ∨ d ≠ .z) (hN : 0 < M.N) {q q' : Cell → Pt → HState α} {c : Cell} {p : Pt}
    (h : ∀ c p, P.box M.d3 c → IsFluxPt M.d3 M.N d p → q c p = q' c p) (hc : P.box M.d3 c)
    (hp : IsFluxPt M.d3 M.N d p) :
    fluxFrom M S P junk d q c p = fluxFrom M S P junk d q' c p := by
  have hs := hp.sol hd hN
  have h0 : IsFluxPt M.d3 M.N d (p.set d 0) := by
    have := hs.flux hd (a := 0) (by omega); rwa [Pt.set_set] at this
  have h1 : IsFluxPt M.d3 M.N d (p.set d M.N) := by
    have := hs.flux hd (a := M.N) (by omega); rwa [Pt.set_set] at this
  unfold fluxFrom
  split_ifs with e1 e2 e3 e4
  · rw [h _ _ (box_down hd hc e2) h1, h _ _ hc hp]
  · exact h _ _ hc hp
  · rw [h _ _ hc hp, h _ _ (box_up hd hc e4) h0]
  · exact h _ _ hc hp
  · rw [h _ _ hc hp]

theorem divergenceAlong_yields {M : Scheme α} {S : Settings α} {P : Grid} (h : Ready M P) (hN : 0 < M.N)
    {d : Dir} (hd : M.d3 = true ∨ d ≠ .z) {ti : Mood.TimeInt} {A : ℕ} (hA : solArray ti A)
    (junk : Dir → Cell → Pt → HState α) (m : Addr → α) :
    ∃ m', YieldsAll (sdmDom M.d3 M.N P ti) (divergenceAlong M S P junk A d) m m' ∧
      (∀ c p iv, P.box M.d3 c → IsSolPt M.d3 M.N p → iv < hydroVars M.d3 →
        m' (M.sol sDiv c p iv) = m (M.sol sDiv c p iv) +
          divAlong M S P junk (valsOf M m A) d c p iv) ∧
      (∀ a, a.arr ≠ sDiv → a.arr ≠ sF → m' a = m a) := by
  obtain ⟨m1, y1, f1⟩ := eraseFluxes_yields h ti m
  obtain ⟨m2, y2, e2, f2⟩ := interpolate_yields (S := S) h hN hd hA m1
  obtain ⟨m3, y3, e3, f3⟩ := computeFlux_yields (S := S) h hN hd ti (junk d) m2
  obtain ⟨m4, y4, e4, f4⟩ := accumulate_yields (S := S) h hd ti m3
  have hsol : sDiv ≠ sF := by decide
  refine ⟨m4, ?_, ?_, ?_⟩
  · unfold divergenceAlong
    have : ¬ (M.d3 = false ∧ d = .z) := by
      rintro ⟨h1, h2⟩
      rcases hd with hd | hd
      · rw [h1] at hd; cases hd
      · exact hd h2
    rw [if_neg this]
    exact .cons y1 (.cons y2 (.cons y3 (.cons y4 (.nil _))))
  · intro c p iv hc hp hv
    rw [e4 c p iv hc hp (h.nv ▸ hv), f3 _ hsol, f2 _ hsol, f1 _ hsol]
    congr 1
    unfold divAlong
    refine flux2solDerivativeVector_congr fun k hk => ?_
    rw [e3 c _ iv hc (hp.flux hd hk) hv]
    congr 1
    refine fluxFrom_congr hd hN (fun c p hc hp => ?_) hc (hp.flux hd hk)
    unfold interpState stateAt valsOf
    have : ∀ iv, iv < hydroVars M.d3 → m2 (M.flx d c p iv) = floorDensity S iv
        (sol2fluxVector M.N M.sp M.fp (fun k => m (M.sol A c (p.set d k) iv)) (p.get d)) := by
      intro iv hv
      rw [e2 c p iv hc hp (h.nv ▸ hv)]
      simp only [f1 _ (show (M.sol A c _ iv).arr ≠ sF from hA.ne)]
    have key : ∀ f g : ℕ → α, (∀ iv, iv < hydroVars M.d3 → f iv = g iv) →
        Mood.ofComps M.d3 f = Mood.ofComps M.d3 g := by
      intro f g hfg
      unfold Mood.ofComps
      cases h3 : M.d3 <;> rw [h3] at hfg <;> simp only [Bool.false_eq_true, if_false, if_true] <;>
        congr 1 <;> exact hfg _ (by decide)
    exact key _ _ this
  · intro a h1 h2
    rw [f4 a h1, f3 a h2, f2 a h2, f1 a h2]

theorem divergence_yields {M : Scheme α} {S : Settings α} {P : Grid} (h : Ready M P) (hN : 0 < M.N)
    {ti : Mood.TimeInt} {A : ℕ} (hA : solArray ti A) (hAd : A ≠ sDiv)
    (junk : Dir → Cell → Pt → HState α) (m : Addr → α) :
    ∃ m', YieldsAll (sdmDom M.d3 M.N P ti) (divergence M S P junk A) m m' ∧
      (∀ c p iv, P.box M.d3 c → IsSolPt M.d3 M.N p → iv < hydroVars M.d3 →
        m' (M.sol sDiv c p iv) = divAll M S P junk (valsOf M m A) c p iv) ∧
      (∀ a, a.arr ≠ sDiv → a.arr ≠ sF → m' a = m a) := by
  obtain ⟨m0, y0, e0, f0⟩ := eraseSol_yields h (ti := ti) (A := sDiv) (.inr (.inl rfl)) m
  obtain ⟨m1, y1, e1, f1⟩ := divergenceAlong_yields (S := S) h hN (d := .x) (.inr (by decide)) hA junk m0
  obtain ⟨m2, y2, e2, f2⟩ := divergenceAlong_yields (S := S) h hN (d := .y) (.inr (by decide)) hA junk m1
  have hs : ∀ (μ : Addr → α), (∀ a, a.arr ≠ sDiv → a.arr ≠ sF → μ a = m a) →
      valsOf M μ A = valsOf M m A := by
    intro μ hμ
    funext c p iv
    exact hμ _ hAd hA.ne
  have g1 : ∀ a, a.arr ≠ sDiv → a.arr ≠ sF → m1 a = m a := fun a h1 h2 => by rw [f1 a h1 h2, f0 a h1]
  have g2 : ∀ a, a.arr ≠ sDiv → a.arr ≠ sF → m2 a = m a := fun a h1 h2 => by rw [f2 a h1 h2, g1 a h1 h2]
  rw [hs m0 fun a h1 _ => f0 a h1] at e1
  rw [hs m1 g1] at e2
  cases h3 : M.d3
  · obtain ⟨m3, y3, f3⟩ := eraseFluxes_yields h ti m2
    rw [h3] at e0 e1 e2 y0 y1 y2 y3
    refine ⟨m3, ?_, ?_, fun a h1 h2 => by rw [f3 a h2, g2 a h1 h2]⟩
    · refine .cons y0 (YieldsAll.append (YieldsAll.append y1 y2) ?_)
      unfold divergenceAlong
      rw [if_pos ⟨h3, rfl⟩]
      exact .cons y3 (.nil _)
    · intro c p iv hc hp hv
      rw [f3 _ (show sDiv ≠ sF by decide), e2 c p iv hc hp hv, e1 c p iv hc hp hv, e0 c p iv hc hp hv]
      simp only [divAll, h3, Bool.false_eq_true, if_false]
  · obtain ⟨m3, y3, e3, f3⟩ := divergenceAlong_yields (S := S) h hN (d := .z) (.inl h3) hA junk m2
    rw [hs m2 g2] at e3
    rw [h3] at e0 e1 e2 e3 y0 y1 y2 y3
    refine ⟨m3, ?_, ?_, fun a h1 h2 => by rw [f3 a h1 h2, g2 a h1 h2]⟩
    · exact .cons y0 (YieldsAll.append (YieldsAll.append y1 y2) y3)
    · intro c p iv hc hp hv
      rw [e3 c p iv hc hp hv, e2 c p iv hc hp hv, e1 c p iv hc hp hv, e0 c p iv hc hp hv]
      simp only [divAll, h3, if_true]

end Verif.Sdm
