import Verif.Model.InitHigh
import Verif.Lemmas.WedgeGas
import Verif.Lemmas.RealOps

/-! Helper lemmas: initial conditions of the high order solvers. -/

namespace Verif.Start

open Verif Sdm Special K Function Spec

variable {α : Type} [TOps α]
variable {d3 : Bool} {P : Grid} {U : ℕ} {pts : List Pt} {ad : Cell → Pt → ℕ → Addr} {dom : Addr → Prop}

theorem fillState_exec (hp : Places d3 P U pts ad dom) (val : Pt → Option (HState α)) (c : Cell) :
    (fillState pts P.nbvar ad val c).FP (fun _ => False)
      (fun a => ∃ p iv, p ∈ pts ∧ iv < P.nbvar ∧ a = ad c p iv) (fun _ => False) ∧
    ∀ (m : Addr → α) p iv, p ∈ pts → iv < P.nbvar →
      (fillState pts P.nbvar ad val c).exec m (ad c p iv) =
        (val p).elim (m (ad c p iv)) fun s => Mood.comp s iv := by
  have hfp : ∀ x ∈ pts ×ˢ List.range P.nbvar, ((match val x.1 with
    | none => K.ret ()
    | some s => K.store (ad c x.1 x.2) (Mood.comp s x.2)) : K Addr α Unit).FP
      (fun _ => False) (fun a => a = ad c x.1 x.2) fun _ => False := by
    rintro ⟨p, iv⟩ hx
    dsimp only
    cases val p with
    | none => exact FP.ret
    | some s => exact FP.store rfl
  refine ⟨forEach_fp fun x hx => (hfp x hx).mono (fun _ h => h) ?_ fun _ h => h, ?_⟩
  · rintro a rfl
    obtain ⟨h1, h2⟩ := List.mem_product.1 hx
    exact ⟨x.1, x.2, h1, List.mem_range.1 h2, rfl⟩
  · intro m p iv h1 h2
    refine (forEach_exec (i := (p, iv)) (nodup_prod hp.nodup List.nodup_range) hfp ?_ m
      (by simp [List.mem_product, h1, h2]) rfl).trans ?_
    rotate_left
    · cases val p with
      | none => rfl
      | some s => exact Function.update_self _ _ _
    · rintro ⟨p, iv⟩ hi ⟨p', iv'⟩ hj hij a rfl
      simp only [List.mem_product, List.mem_range] at hi hj
      refine ⟨fun e => e, fun e => hij ?_⟩
      obtain ⟨-, h3, h4⟩ := hp.inj _ _ _ _ _ _ hi.1 hj.1 e
      exact Prod.ext h3 h4

/-- All cells. -/
theorem state_fill {lay : Layout} (hp : Places d3 P U pts ad dom) (hne : Mood.Nonempty3 d3 P)
    (val : Cell → Pt → Option (HState α)) (m : Addr → α) :
    ∃ m', (Mood.rangeCells lay d3 P fun c => fillState pts P.nbvar ad (val c) c).Yields dom m m' ∧
      (∀ c p iv, P.box d3 c → p ∈ pts → iv < P.nbvar →
        m' (ad c p iv) = (val c p).elim (m (ad c p iv)) fun s => Mood.comp s iv) ∧
      (∀ a, a.arr ≠ U → m' a = m a) := by
  let M : Scheme α := ⟨lay, d3, 0, fun _ => ROps.lit 0, fun _ => ROps.lit 0⟩
  have hex := fun c => fillState_exec hp (val c) c
  have := cells_yields (M := M) (body := fun c => fillState pts P.nbvar ad (val c) c)
    (dom := dom) (out := fun A => A = U) Addr.cell hne m ?_
  · refine ⟨_, this, ?_, ?_⟩
    · intro c p iv hc h1 h2
      simp only [hp.cell]
      rw [if_pos hc]
      exact (hex c).2 m p iv h1 h2
    · intro a ha
      show (if _ then _ else _) = _
      split_ifs
      · refine exec_frame (hex _).1 m ?_ fun e => e
        rintro ⟨p, iv, _, _, e⟩
        exact ha (e ▸ hp.arr _ _ _)
      · rfl
  · intro c hc
    refine (hex c).1.mono ?_ ?_ fun _ h => h
    · rintro a h
      exact absurd h (fun e => e)
    · rintro a ⟨p, iv, h1, h2, rfl⟩
      exact ⟨hp.dom _ _ _ hc h1 h2, hp.arr _ _ _, hp.cell _ _ _⟩

end Verif.Start
