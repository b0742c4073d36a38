import Verif.Model.Factory
import Verif.Lemmas.RealOps

/-! Lemmas on the parameter set-up and the factory. -/

namespace Verif

open ROps

theorem bind_ok {ε X Y : Type} {x : Except ε X} {f : X → Except ε Y} {y : Y}
    (h : (x >>= f) = .ok y) : ∃ a, x = .ok a ∧ f a = .ok y := by
  cases x with
  | error e => exact absurd h (by intro h; cases h)
  | ok a => exact ⟨a, rfl, h⟩

theorem checked_ok {x y : Int} (h : checked x = .ok y) : y = x ∧ isInt32 x = true := by
  unfold checked int32 at h
  by_cases hx : isInt32 x = true
  · simp only [hx, if_true] at h
    cases h
    exact ⟨rfl, hx⟩
  · simp only [hx, Bool.false_eq_true, if_false] at h
    cases h

theorem checked_eq {x : Int} (h : -2147483648 ≤ x ∧ x ≤ 2147483647) : checked x = .ok x := by
  unfold checked int32 isInt32
  simp only [h, and_self, decide_true, if_true]

variable {α : Type} [ROps α]

/-- What a successful `init` has computed. -/
theorem init_ok {p q : HydroParams α} (h : p.init = .ok q) :
    (p.implementationVersion = 0 ∨ p.implementationVersion = 1 ∨ p.implementationVersion = 2) ∧
    q = { p with
      imin := 0, jmin := 0, kmin := 0
      imax := p.nx - 1 + 2 * p.ghostWidth
      jmax := p.ny - 1 + 2 * p.ghostWidth
      kmax := p.nz - 1 + 2 * p.ghostWidth
      isize := p.nx - 1 + 2 * p.ghostWidth - 0 + 1
      jsize := p.ny - 1 + 2 * p.ghostWidth - 0 + 1
      ksize := p.nz - 1 + 2 * p.ghostWidth - 0 + 1
      dx := (p.xmax - p.xmin) / ofInt p.nx
      dy := (p.ymax - p.ymin) / ofInt p.ny
      dz := (p.zmax - p.zmin) / ofInt p.nz
      smallp := p.smallc * p.smallc / p.gamma0
      smallpp := p.smallr * (p.smallc * p.smallc / p.gamma0)
      gamma6 := (p.gamma0 + lit 1) / (lit 2 * p.gamma0) } := by
  unfold HydroParams.init at h
  obtain ⟨a1, h1, h⟩ := bind_ok h
  obtain ⟨rfl, -⟩ := checked_ok h1
  obtain ⟨a2, h2, h⟩ := bind_ok h
  obtain ⟨rfl, -⟩ := checked_ok h2
  obtain ⟨a3, h3, h⟩ := bind_ok h
  obtain ⟨rfl, -⟩ := checked_ok h3
  obtain ⟨a1, h1, h⟩ := bind_ok h
  obtain ⟨rfl, -⟩ := checked_ok h1
  obtain ⟨a2, h2, h⟩ := bind_ok h
  obtain ⟨rfl, -⟩ := checked_ok h2
  obtain ⟨a3, h3, h⟩ := bind_ok h
  obtain ⟨rfl, -⟩ := checked_ok h3
  obtain ⟨a1, h1, h⟩ := bind_ok h
  obtain ⟨rfl, -⟩ := checked_ok h1
  obtain ⟨a2, h2, h⟩ := bind_ok h
  obtain ⟨rfl, -⟩ := checked_ok h2
  obtain ⟨a3, h3, h⟩ := bind_ok h
  obtain ⟨rfl, -⟩ := checked_ok h3
  obtain ⟨a1, h1, h⟩ := bind_ok h
  obtain ⟨rfl, -⟩ := checked_ok h1
  obtain ⟨a2, h2, h⟩ := bind_ok h
  obtain ⟨rfl, -⟩ := checked_ok h2
  obtain ⟨a1, h1, h⟩ := bind_ok h
  obtain ⟨rfl, -⟩ := checked_ok h1
  obtain ⟨a2, h2, h⟩ := bind_ok h
  obtain ⟨rfl, -⟩ := checked_ok h2
  obtain ⟨a1, h1, h⟩ := bind_ok h
  obtain ⟨rfl, -⟩ := checked_ok h1
  obtain ⟨a2, h2, h⟩ := bind_ok h
  obtain ⟨rfl, -⟩ := checked_ok h2
  by_cases hv : p.implementationVersion ≠ 0 ∧ p.implementationVersion ≠ 1 ∧
      p.implementationVersion ≠ 2
  · rw [if_pos hv] at h; cases h
  · rw [if_neg hv] at h
    cases h
    exact ⟨by omega, rfl⟩

end Verif
