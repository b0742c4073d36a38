import Verif.Model.SdmFixed
import Verif.Lemmas.SdmMpiStep
import Verif.Lemmas.SdmPositivity

/-! Lemmas on the step with limiter and positivity preservation. -/

namespace Verif.Sdm

open Verif Spec ROps

variable {α : Type} [ROps α] {M : Scheme α} {S : Settings α} {P : Grid} {B : Sides} {F : Fixes α}

/-- Entries of a rank: those of the options and the buffers of the exchange. -/
def fixMpiDom (F : Fixes α) (M : Scheme α) (P : Grid) (ti : Mood.TimeInt) (a : Addr) : Prop :=
  fixDom F M.d3 M.N P ti a ∨ mpiDom M P ti a

theorem sdm_fix {F : Fixes α} {d3 : Bool} {N : ℕ} {ti : Mood.TimeInt} {a : Addr} (h : sdmDom d3 N P ti a) :
    fixDom F d3 N P ti a := .inl h

theorem avg_fix {d3 : Bool} {N : ℕ} {ti : Mood.TimeInt} {a : Addr} (hF : (F.limiter.isSome || F.positivity) = true)
    (h : avgDom d3 N P ti a) : fixDom F d3 N P ti a :=
  h.imp id fun h => ⟨h.1, h.2.2, .inl ⟨hF, h.2.1⟩⟩

theorem lim_fix {d3 : Bool} {N : ℕ} {ti : Mood.TimeInt} {a : Addr} (hF : F.limiter.isSome = true)
    (h : limDom d3 N P ti a) : fixDom F d3 N P ti a :=
  h.imp id fun h => ⟨h.1, h.2.2, .inr ⟨hF, h.2.1⟩⟩

/-- Which loops `prepare` launches. -/
theorem prepare_some {T : α} (hF : F.limiter = some T) (A : ℕ) : prepare M S P F A =
    limiting M S P F.pi T A ++ if F.positivity then [positivity M S P F.big A] else [] := by
  unfold prepare applyLimiting limiting
  rw [hF]
  simp

theorem prepare_none (hF : F.limiter = none) (A : ℕ) : prepare M S P F A =
    if F.positivity then preserving M S P F.pi F.big A else [] := by
  unfold prepare applyLimiting preserving
  rw [hF]
  cases F.positivity <;> rfl

theorem prepare_yields (h : Ready M P) (F : Fixes α) {ti : Mood.TimeInt} {A : ℕ} (hA : solArray ti A) (m : Addr → α) :
    ∃ m', YieldsAll (fixDom F M.d3 M.N P ti) (prepare M S P F A) m m' ∧
      ∀ a, a.arr ≠ A → ¬ meanArray M.d3 a.arr → m' a = m a := by
  cases hl : F.limiter with
  | some T =>
    have hF : F.limiter.isSome = true := by rw [hl]; rfl
    rw [prepare_some hl]
    obtain ⟨m1, y1, -, -, -, f1⟩ := limiting_yields (S := S) h hA F.pi T m
    replace y1 := y1.mono fun a ha => lim_fix (F := F) hF ha
    by_cases hp : F.positivity = true
    · obtain ⟨m2, y2, -, f2⟩ := positivity_yields (S := S) (ti := ti) h hA F.big m1
      rw [if_pos hp]
      refine ⟨m2, y1.append (.cons (y2.mono fun a ha => avg_fix (by rw [hF]; rfl) ha) (.nil _)), fun a h1 h2 => ?_⟩
      rw [f2 a h1, f1 a h1 h2]
    · rw [if_neg hp, List.append_nil]
      exact ⟨m1, y1, f1⟩
  | none =>
    rw [prepare_none hl]
    by_cases hp : F.positivity = true
    · obtain ⟨m1, y1, -, -, f1⟩ := preserving_yields (S := S) (ti := ti) h hA F.pi F.big m
      rw [if_pos hp]
      exact ⟨m1, y1.mono fun a ha => avg_fix (by rw [hp, Bool.or_true]) ha, fun a h1 h2 => f1 a h1 fun e => h2 (.inl e)⟩
    · rw [if_neg hp]
      exact ⟨m, .nil _, fun _ _ _ => rfl⟩

theorem divisions_yields (h : Ready M P) (hN : 0 < M.N) {ti : Mood.TimeInt} {A : ℕ} (hA : solArray ti A) (hAd : A ≠ sDiv)
    (junk : Dir → Cell → Pt → HState α) (m : Addr → α)
    (hz : ∀ c p iv, P.box M.d3 c → IsSolPt M.d3 M.N p → iv < hydroVars M.d3 → m (M.sol sDiv c p iv) = lit 0) :
    ∃ m', YieldsAll (sdmDom M.d3 M.N P ti) (divergenceAlong M S P junk A .x ++ divergenceAlong M S P junk A .y ++
        divergenceAlong M S P junk A .z) m m' ∧
      (∀ c p iv, P.box M.d3 c → IsSolPt M.d3 M.N p → iv < hydroVars M.d3 →
        m' (M.sol sDiv c p iv) = divAll M S P junk (valsOf M m A) c p iv) ∧
      (∀ a, a.arr ≠ sDiv → a.arr ≠ sF → m' a = m a) := by
  obtain ⟨m1, y1, e1, f1⟩ := divergenceAlong_yields (S := S) h hN (d := .x) (.inr (by decide)) hA junk m
  obtain ⟨m2, y2, e2, f2⟩ := divergenceAlong_yields (S := S) h hN (d := .y) (.inr (by decide)) hA junk m1
  have hs : ∀ (μ : Addr → α), (∀ a, a.arr ≠ sDiv → a.arr ≠ sF → μ a = m a) → valsOf M μ A = valsOf M m A := by
    intro μ hμ
    funext c p iv
    exact hμ _ hAd hA.ne
  have g2 : ∀ a, a.arr ≠ sDiv → a.arr ≠ sF → m2 a = m a := fun a h1 h2 => by rw [f2 a h1 h2, f1 a h1 h2]
  rw [hs m1 f1] at e2
  cases h3 : M.d3
  · obtain ⟨m3, y3, f3⟩ := eraseFluxes_yields h ti m2
    rw [h3] at hz e1 e2 y1 y2 y3
    refine ⟨m3, ?_, ?_, fun a h1 h2 => by rw [f3 a h2, g2 a h1 h2]⟩
    · refine YieldsAll.append (YieldsAll.append y1 y2) ?_
      unfold divergenceAlong
      rw [if_pos ⟨h3, rfl⟩]
      exact .cons y3 (.nil _)
    · intro c p iv hc hp hv
      rw [f3 _ (show sDiv ≠ sF by decide), e2 c p iv hc hp hv, e1 c p iv hc hp hv, hz c p iv hc hp hv]
      simp only [divAll, h3, Bool.false_eq_true, if_false]
  · obtain ⟨m3, y3, e3, f3⟩ := divergenceAlong_yields (S := S) h hN (d := .z) (.inl h3) hA junk m2
    rw [hs m2 g2] at e3
    rw [h3] at hz e1 e2 e3 y1 y2 y3
    refine ⟨m3, ?_, ?_, fun a h1 h2 => by rw [f3 a h1 h2, g2 a h1 h2]⟩
    · exact YieldsAll.append (YieldsAll.append y1 y2) y3
    · intro c p iv hc hp hv
      rw [e3 c p iv hc hp hv, e2 c p iv hc hp hv, e1 c p iv hc hp hv, hz c p iv hc hp hv]
      simp only [divAll, h3, if_true]

theorem solArray_notMean {ti : Mood.TimeInt} {A : ℕ} (hA : solArray ti A) {d3 : Bool} : ¬ meanArray d3 A := by
  have := hA.small
  rintro (e | e | e | ⟨-, e⟩) <;> simp only [sAvg, sGrad] at e <;> omega

/-- The divergence: erase, prepare (`m0` to `m1`), divergence of the prepared values. -/
theorem fixed_yields (h : Ready M P) (hN : 0 < M.N) (F : Fixes α) {ti : Mood.TimeInt} {A : ℕ} (hA : solArray ti A)
    (hAd : A ≠ sDiv) (junk : Dir → Cell → Pt → HState α) (m : Addr → α) :
    ∃ m0 m1 m', YieldsAll (fixDom F M.d3 M.N P ti) (fixedDivergence M S P junk F A) m m' ∧
      YieldsAll (fixDom F M.d3 M.N P ti) (prepare M S P F A) m0 m1 ∧ (∀ a, a.arr ≠ sDiv → m0 a = m a) ∧
      (∀ c p iv, P.box M.d3 c → IsSolPt M.d3 M.N p → iv < hydroVars M.d3 →
        m' (M.sol sDiv c p iv) = divAll M S P junk (valsOf M m1 A) c p iv) ∧
      (∀ a, a.arr ≠ sDiv → a.arr ≠ sF → m' a = m1 a) ∧ (∀ a, a.arr ≠ A → ¬ meanArray M.d3 a.arr → m1 a = m0 a) := by
  have hD : solArray ti sDiv := .inr (.inl rfl)
  obtain ⟨m0, y0, e0, f0⟩ := eraseSol_yields h (ti := ti) (A := sDiv) hD m
  obtain ⟨m1, y1, f1⟩ := prepare_yields (S := S) h F hA m0
  obtain ⟨m2, y2, e2, f2⟩ := divisions_yields (S := S) h hN hA hAd junk m1 fun c p iv hc hp hv => by
    rw [f1 _ (Ne.symm hAd) (solArray_notMean hD), e0 c p iv hc hp hv]
  exact ⟨m0, m1, m2, .cons (y0.mono fun a => sdm_fix) (y1.append (y2.mono fun a => sdm_fix)), y1, f0, e2, f2, f1⟩

/-- Ghost fill and divergence with all that is known of them. -/
theorem fixedStage_yields (h : Setup M P B) (hN : 0 < M.N) (F : Fixes α) {ti : Mood.TimeInt} {A : ℕ} (hA : solArray ti A)
    (hAd : A ≠ sDiv) (junk : Dir → Cell → Pt → HState α) (m : Addr → α) :
    ∃ m0 m1 m', YieldsAll (fixDom F M.d3 M.N P ti) (makeBoundaries M P A ++ fixedDivergence M S P junk F A) m m' ∧
      YieldsAll (fixDom F M.d3 M.N P ti) (prepare M S P F A) m0 m1 ∧
      (∀ c p iv, P.box M.d3 c → IsSolPt M.d3 M.N p → iv < hydroVars M.d3 →
        valsOf M m0 A c p iv = extended M.d3 M.N P B (valsOf M m A) c p iv) ∧
      (∀ c p iv, P.box M.d3 c → IsSolPt M.d3 M.N p → iv < hydroVars M.d3 →
        valsOf M m' sDiv c p iv = divAll M S P junk (valsOf M m1 A) c p iv) ∧
      valsOf M m' A = valsOf M m1 A ∧
      (∀ A', A' ≠ A → A' ≠ sDiv → A' ≠ sF → ¬ meanArray M.d3 A' → valsOf M m' A' = valsOf M m A') := by
  obtain ⟨n, y, e, f⟩ := boundaries_yields h hA m
  obtain ⟨m0, m1, m', y1, y2, f0, e2, f2, f1⟩ := fixed_yields (S := S) h.ready hN F hA hAd junk n
  refine ⟨m0, m1, m', (y.mono fun a => sdm_fix).append y1, y2, fun c p iv hc hp hv => ?_, e2, ?_, fun A' h1 h2 h3 h4 => ?_⟩
  · exact (f0 _ hAd).trans (e c p iv hc hp hv)
  · funext c p iv
    exact f2 _ hAd hA.ne
  · funext c p iv
    exact (f2 (M.sol A' c p iv) h2 h3).trans ((f1 _ h1 h4).trans ((f0 _ h2).trans (f _ h1)))

end Verif.Sdm
