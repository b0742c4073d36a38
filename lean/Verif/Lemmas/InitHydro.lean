import Verif.Spec.InitHydro
import Verif.Lemmas.InitMhd
import Verif.Lemmas.HydroFlux

/-! Helper lemmas: memory after the initial conditions of the hydro solver. -/

namespace Verif

open K Spec ROps TOps
open Function (update_apply update_self update_of_ne)

section anyα

variable {α : Type} [TOps α] {d3 : Bool} {S : Settings α} {P : Grid} {D : Domain α} {impl : Int}
  {grav : Bool} {Q : HydroProblem α} {B : Sides}

theorem hydroValues_below (c : Cell) : Below (hydroVars d3) (hydroValues d3 S P D Q c) := by
  cases Q <;> simp only [hydroValues]
  case implode p =>
    unfold implodeHydro
    cases d3
    · simp only [Bool.false_eq_true, if_false]; below
    · simp only [if_true]; below
  case blast p =>
    unfold blastHydro
    cases d3
    · simp only [Bool.false_eq_true, if_false]; below
    · simp only [if_true]; below
  case kelvinHelmholtz p rnd =>
    cases d3
    · simp only [Bool.false_eq_true, if_false]; unfold khHydro2; dsimp only; below
    · simp only [if_true]; unfold khHydro3; dsimp only; below
  case gresho p =>
    unfold greshoHydro
    cases d3
    · simp only [Bool.false_eq_true, if_false]; below
    · simp only [if_true]; below
  case fourQuadrant n xt yt =>
    unfold fourQuadrant
    cases d3
    · dsimp only; below
    · dsimp only; below
  case isentropicVortex p =>
    unfold isentropicVortex
    cases d3
    · dsimp only; below
    · dsimp only; below
  case rayleighTaylor p =>
    unfold rayleighTaylor
    cases d3
    · simp only [Bool.false_eq_true, if_false]; below
    · simp only [if_true]; below
  case risingBubble p =>
    unfold risingBubble
    cases d3
    · simp only [Bool.false_eq_true, if_false]; below
    · simp only [if_true]; below
  case disk p g =>
    unfold diskHydro
    cases d3
    · simp only [Bool.false_eq_true, if_false]; below
    · simp only [if_true]; below

theorem gravityList_below {x y z : α} : Below (if d3 then 3 else 2) (gravityList d3 x y z) := by
  unfold gravityList
  cases d3
  · simp only [Bool.false_eq_true, if_false]; below
  · simp only [if_true]; below

theorem hydroGravity_below (c : Cell) :
    Below (if d3 then 3 else 2) (hydroGravity d3 S P D Q c) := by
  cases Q <;> first | exact Below.nil | exact gravityList_below

theorem hydroGravity_nil (h : ¬ HasGravity Q) (c : Cell) : hydroGravity d3 S P D Q c = [] := by
  cases Q <;> first | rfl | exact (h trivial).elim

/-- The loop of the initial condition. -/
theorem hydro_init (hn : P.nbvar = hydroVars d3) (hG : HasGravity Q → grav = true) (m : Addr → α) :
    ∃ m', (hydroInitLoop d3 S P D aU Q).Yields (hydroDom d3 P impl grav) m m' ∧
      (∀ c v, P.box d3 c → m' (c.at aU v) = lastOf (hydroValues d3 S P D Q c) v (m (c.at aU v))) ∧
      (∀ c v, P.box d3 c → m' (c.at aG v) = lastOf (hydroGravity d3 S P D Q c) v (m (c.at aG v))) ∧
      (∀ a, a.arr ≠ aU → a.arr ≠ aG → m' a = m a) := by
  have hne : aU ≠ aG := by decide
  have hfp : ∀ c, P.box d3 c → ((stores aU c (hydroValues d3 S P D Q c)).bind fun _ =>
      stores aG c (hydroGravity d3 S P D Q c)).FP
      (fun a => hydroDom d3 P impl grav a ∧ (a.arr = aU ∨ a.arr = aG → a.cell = c))
      (fun a => hydroDom d3 P impl grav a ∧ (a.arr = aU ∨ a.arr = aG) ∧ a.cell = c)
      (fun _ => False) := by
    intro c hc
    refine FP.bind (stores_FP fun p hp => ⟨⟨hc, Or.inl ⟨?_, ?_⟩⟩, Or.inl rfl, rfl⟩) fun _ =>
      stores_FP fun p hp => ⟨⟨hc, Or.inr ⟨hG ?_, rfl, hydroGravity_below c p hp⟩⟩, Or.inr rfl, rfl⟩
    · simp [hydroArray]
    · rw [hn]; exact hydroValues_below c p hp
    · by_contra hno
      rw [hydroGravity_nil hno] at hp
      simp at hp
  refine ⟨_, mdrange_yields_of (out := fun a => a.arr = aU ∨ a.arr = aG) hfp m, ?_, ?_, ?_⟩
  · intro c v hc
    have hc' : P.box d3 (c.at aU v).cell := hc
    simp only [mdEffect]
    rw [if_pos hc', exec_bind, stores_other _ _ _ _ (by exact hne)]
    exact stores_at aU c _ m v
  · intro c v hc
    have hc' : P.box d3 (c.at aG v).cell := hc
    simp only [mdEffect]
    rw [if_pos hc', exec_bind]
    have := stores_at aG c (hydroGravity d3 S P D Q c)
      ((stores aU c (hydroValues d3 S P D Q c)).exec m) v
    rw [stores_other _ _ _ _ (show (c.at aG v).arr ≠ aU from hne.symm)] at this
    exact this
  · intro a h1 h2
    simp only [mdEffect]
    split_ifs with hb
    · rw [exec_bind, stores_other _ _ _ _ h2, stores_other _ _ _ _ h1]
    · rfl

/-- The whole set-up. -/
theorem hydro_setup (h : BoxSetup d3 (hydroVars d3) 2 P B) (himpl : impl = 0 ∨ impl = 1)
    (hG : HasGravity Q → grav = true) (m : Addr → α) :
    ∃ m', YieldsAll (hydroDom d3 P impl grav) (hydroSetup d3 S P D Q) m m' ∧
      (∀ c v A, A = aU ∨ A = aU2 → P.box d3 c → P.inner d3 c → v < hydroVars d3 →
        m' (c.at A v) = lastOf (hydroValues d3 S P D Q c) v (m (c.at aU v))) ∧
      (∀ c v, P.box d3 c → m' (c.at aG v) = lastOf (hydroGravity d3 S P D Q c) v (m (c.at aG v))) := by
  have hok : HydroOk d3 P impl aU aU2 := ⟨h.gw, h.nv, Or.inl ⟨rfl, rfl⟩, himpl⟩
  obtain ⟨m0, y0, e0, g0, -⟩ := hydro_init (S := S) (D := D) (impl := impl) h.nv hG m
  obtain ⟨m1, y1, f1⟩ := fill_mem d3 false h (by decide) aU m0
  have y2 := deepCopy_yields (grav := grav) hok m1
  have hU : ∀ c v, P.box d3 c → P.inner d3 c → v < hydroVars d3 →
      m1 (Cell.at c aU v) = lastOf (hydroValues d3 S P D Q c) v (m (c.at aU v)) := by
    intro c v hb hi hv
    rw [f1.interior hb hi (h.nv ▸ hv), e0 c v hb]
  refine ⟨_, .cons y0 (YieldsAll.append (y1.mono ?_) (.cons y2 (.nil _))), ?_, ?_⟩
  · rintro a ⟨h1, h2, h3⟩
    have := hok.dom_in (grav := grav) h2 a.v (h.nv ▸ h3)
    rw [← h1] at this
    exact this
  · rintro c v A (rfl | rfl) hb hi hv
    · rw [setArr_ne (Or.inl (by simp [aU, aU2])), hU c v hb hi hv]
    · unfold setArr
      rw [if_pos ⟨rfl, hb, hv⟩]
      simp only [Cell.at_cell, Cell.at_v]
      rw [field_get d3 m1 aU c hv, hU c v hb hi hv]
  · intro c v hb
    rw [setArr_ne (Or.inl (by simp [aG, aU2])), f1.frame _ (fun e => by simp [aG, aU] at e), g0 c v hb]

/-- The same for any run. -/
theorem hydro_setup_run (h : BoxSetup d3 (hydroVars d3) 2 P B) {m m' : Addr → α}
    (r : Runs (hydroSetup d3 S P D Q) m m') :
      (∀ c v A, A = aU ∨ A = aU2 → P.box d3 c → P.inner d3 c → v < hydroVars d3 →
        m' (c.at A v) = lastOf (hydroValues d3 S P D Q c) v (m (c.at aU v))) ∧
      (∀ c v, P.box d3 c → m' (c.at aG v) = lastOf (hydroGravity d3 S P D Q c) v (m (c.at aG v))) := by
  obtain ⟨m2, y, e, g⟩ := hydro_setup (S := S) (D := D) (Q := Q) (impl := 0) (grav := true) h (Or.inl rfl)
    (fun _ => rfl) m
  obtain rfl := y.unique r
  exact ⟨e, g⟩

end anyα

end Verif
