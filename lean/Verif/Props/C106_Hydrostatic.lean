import Verif.Props.C102_InitHydro
import Verif.Spec.Kernel
import Verif.Lemmas.MDRange

/-! # C106: gravity and hydrostatic balance in the Rayleigh-Taylor and rising bubble problems -/

namespace Verif

open Spec ROps TOps

variable {d3 : Bool} {S : Settings ℝ} {P : Grid} {D : Domain ℝ} {B : Sides}
  {m m' : Addr → ℝ} {Q : HydroProblem ℝ}

namespace Spec

/-- Pressure of an ideal gas with the given density of mass, energy and momentum. -/
noncomputable def pressureOf (d3 : Bool) (gamma : ℝ) (s : HState ℝ) : ℝ :=
  (gamma - 1) * (s.p - (s.u ^ 2 + s.v ^ 2 + (if d3 then s.w ^ 2 else 0)) / (2 * s.d))

/-- Gravity potential difference `g . (b - a)`, with the gravity held by the memory at interior cell
`(i,j,k)`. -/
def work (d3 : Bool) (P : Grid) (m : Addr → ℝ) (i j k : Nat) (x y z : ℝ) : ℝ :=
  let c := cell d3 P i j k
  m ⟨aG, c.i, c.j, c.k, 0⟩ * x + m ⟨aG, c.i, c.j, c.k, 1⟩ * y +
    (if d3 then m ⟨aG, c.i, c.j, c.k, 2⟩ * z else 0)

end Spec

section helpers

theorem pressure_rest {s : HState ℝ} {g : PointGas} {gamma : ℝ} (hg : gamma ≠ 1)
    (h : SameState d3 s (g.conserved gamma)) (h0 : g.u = 0 ∧ g.v = 0 ∧ g.w = 0) :
    s.d = g.rho ∧ pressureOf d3 gamma s = g.p := by
  obtain ⟨h1, h2, h3, h4, h5⟩ := h
  refine ⟨h1, ?_⟩
  have hg' : gamma - 1 ≠ 0 := sub_ne_zero.2 hg
  unfold pressureOf
  rw [h2, h3, h4]
  cases d3
  · simp only [PointGas.conserved, h0, Bool.false_eq_true, if_false]; field_simp; simp
  · simp only [if_true]
    rw [h5 rfl]
    simp only [PointGas.conserved, h0]; field_simp; simp

/-- Stored gravity. -/
theorem gravity_at {gx gy gz : ℝ} (h : BoxSetup d3 (hydroVars d3) 2 P B)
    (r : Runs (hydroSetup d3 S P D Q) m m')
    (hQ : ∀ c, hydroGravity d3 S P D Q c = gravityList d3 gx gy gz) {c : Cell} (hc : P.box d3 c) :
    m' (c.at aG 0) = gx ∧ m' (c.at aG 1) = gy ∧ (d3 = true → m' (c.at aG 2) = gz) := by
  have g := (hydro_setup_run h r).2 c
  refine ⟨?_, ?_, fun hd => ?_⟩
  · rw [g 0 hc, hQ]; cases d3 <;> rfl
  · rw [g 1 hc, hQ]; cases d3 <;> rfl
  · subst hd; rw [g 2 hc, hQ]; rfl

theorem balance {gx gy gz : ℝ} {rho : ℝ → ℝ → ℝ → ℝ} {G : ℝ → ℝ → ℝ → PointGas}
    (h : BoxSetup d3 (hydroVars d3) 2 P B) (hg : S.gamma0 ≠ 1)
    (hs : Samples d3 S P D m' G)
    (hG : ∀ x y z, G x y z = restGas (rho x y z) gx gy (if d3 then gz else 0) x y z)
    (hm : ∀ c, P.box d3 c →
      m' (c.at aG 0) = gx ∧ m' (c.at aG 1) = gy ∧ (d3 = true → m' (c.at aG 2) = gz))
    {A i j k i' j' k' : Nat} (hA : A = aU ∨ A = aU2) (hi : i < P.nx.toNat) (hj : j < P.ny.toNat)
    (hk : k < depth d3 P) (hi' : i' < P.nx.toNat) (hj' : j' < P.ny.toNat) (hk' : k' < depth d3 P)
    {x y z x' y' z' : ℝ} {s s' : HState ℝ}
    (hx : x = centre D.xmin S.dx P.nx D.i_mpi i) (hy : y = centre D.ymin S.dy P.ny D.j_mpi j)
    (hz : z = centre D.zmin S.dz P.nz D.k_mpi k) (hx' : x' = centre D.xmin S.dx P.nx D.i_mpi i')
    (hy' : y' = centre D.ymin S.dy P.ny D.j_mpi j') (hz' : z' = centre D.zmin S.dz P.nz D.k_mpi k')
    (hS : s = initialAt d3 P m' A i j k) (hS' : s' = initialAt d3 P m' A i' j' k') :
    pressureOf d3 S.gamma0 s' - pressureOf d3 S.gamma0 s =
        (s.d + s'.d) / 2 * work d3 P m' i j k (x' - x) (y' - y) (z' - z) +
        (s'.d - s.d) * work d3 P m' i j k ((x + x') / 2) ((y + y') / 2) ((z + z') / 2) := by
  have a := hs A hA i j k hi hj hk
  have b := hs A hA i' j' k' hi' hj' hk'
  rw [← hS, ← hx, ← hy, ← hz, hG] at a
  rw [← hS', ← hx', ← hy', ← hz', hG] at b
  obtain ⟨a1, a2⟩ := pressure_rest hg a ⟨rfl, rfl, rfl⟩
  obtain ⟨b1, b2⟩ := pressure_rest hg b ⟨rfl, rfl, rfl⟩
  obtain ⟨e1, e2, e3⟩ := hm _ (cell_box h hi hj hk).1
  rw [a1, a2, b1, b2]
  have f1 : m' ⟨aG, (cell d3 P i j k).i, (cell d3 P i j k).j, (cell d3 P i j k).k, 0⟩ = gx := e1
  have f2 : m' ⟨aG, (cell d3 P i j k).i, (cell d3 P i j k).j, (cell d3 P i j k).k, 1⟩ = gy := e2
  have f3 : d3 = true →
    m' ⟨aG, (cell d3 P i j k).i, (cell d3 P i j k).j, (cell d3 P i j k).k, 2⟩ = gz := e3
  simp only [restGas, work, f1, f2]
  cases d3
  · simp only [Bool.false_eq_true, if_false]; ring
  · simp only [if_true, f3]; ring

end helpers

/-- **C106**: the gravity field is uniform, in all cells including the border, for both problems. -/
theorem C106_gravity {p : RayleighTaylorParams ℝ} {b : RisingBubbleParams ℝ}
    (h : BoxSetup d3 (hydroVars d3) 2 P B) {c : Cell} (hc : P.box d3 c) :
    (Runs (hydroSetup d3 S P D (.rayleighTaylor p)) m m' →
      m' (c.at aG 0) = p.gx ∧ m' (c.at aG 1) = p.gy ∧ (d3 = true → m' (c.at aG 2) = p.gz)) ∧
    (Runs (hydroSetup d3 S P D (.risingBubble b)) m m' →
      m' (c.at aG 0) = b.gx ∧ m' (c.at aG 1) = b.gy ∧ (d3 = true → m' (c.at aG 2) = b.gz)) :=
  ⟨fun r => gravity_at h r (fun _ => rfl) hc, fun r => gravity_at h r (fun _ => rfl) hc⟩

/-- **C106**: difference of the pressures of any two cells of the Rayleigh-Taylor problem at rest: the weight
of gas of the mean density between them, plus a jump that vanishes if the densities are the same or the
point between the cells has potential zero. -/
theorem C106_rayleighTaylor {p : RayleighTaylorParams ℝ} (h : BoxSetup d3 (hydroVars d3) 2 P B)
    (r : Runs (hydroSetup d3 S P D (.rayleighTaylor p)) m m') (ha : p.amplitude = 0)
    (hg : S.gamma0 ≠ 1) {A i j k i' j' k' : Nat} (hA : A = aU ∨ A = aU2) (hi : i < P.nx.toNat)
    (hj : j < P.ny.toNat) (hk : k < depth d3 P) (hi' : i' < P.nx.toNat) (hj' : j' < P.ny.toNat)
    (hk' : k' < depth d3 P) {x y z x' y' z' : ℝ} {s s' : HState ℝ}
    (hx : x = centre D.xmin S.dx P.nx D.i_mpi i) (hy : y = centre D.ymin S.dy P.ny D.j_mpi j)
    (hz : z = centre D.zmin S.dz P.nz D.k_mpi k) (hx' : x' = centre D.xmin S.dx P.nx D.i_mpi i')
    (hy' : y' = centre D.ymin S.dy P.ny D.j_mpi j') (hz' : z' = centre D.zmin S.dz P.nz D.k_mpi k')
    (hS : s = initialAt d3 P m' A i j k) (hS' : s' = initialAt d3 P m' A i' j' k') :
    pressureOf d3 S.gamma0 s' - pressureOf d3 S.gamma0 s =
        (s.d + s'.d) / 2 * work d3 P m' i j k (x' - x) (y' - y) (z' - z) +
        (s'.d - s.d) * work d3 P m' i j k ((x + x') / 2) ((y + y') / 2) ((z + z') / 2) :=
  balance (gx := p.gx) (gy := p.gy) (gz := p.gz) (rho := fun _ y z => if (if d3 then (D.zmin + D.zmax) / 2 < z else (D.ymin + D.ymax) / 2 < y)
      then p.d1 else p.d0) h hg (C102_rayleighTaylor h r ha)
    (fun x y z => by cases d3 <;> rfl) (fun c hc => gravity_at h r (fun _ => rfl) hc) hA hi hj hk hi' hj' hk'
    hx hy hz hx' hy' hz' hS hS'

/-- **C106**: the same for the rising bubble. -/
theorem C106_bubble {p : RisingBubbleParams ℝ} (h : BoxSetup d3 (hydroVars d3) 2 P B)
    (r : Runs (hydroSetup d3 S P D (.risingBubble p)) m m')
    (hg : S.gamma0 ≠ 1) {A i j k i' j' k' : Nat} (hA : A = aU ∨ A = aU2) (hi : i < P.nx.toNat)
    (hj : j < P.ny.toNat) (hk : k < depth d3 P) (hi' : i' < P.nx.toNat) (hj' : j' < P.ny.toNat)
    (hk' : k' < depth d3 P) {x y z x' y' z' : ℝ} {s s' : HState ℝ}
    (hx : x = centre D.xmin S.dx P.nx D.i_mpi i) (hy : y = centre D.ymin S.dy P.ny D.j_mpi j)
    (hz : z = centre D.zmin S.dz P.nz D.k_mpi k) (hx' : x' = centre D.xmin S.dx P.nx D.i_mpi i')
    (hy' : y' = centre D.ymin S.dy P.ny D.j_mpi j') (hz' : z' = centre D.zmin S.dz P.nz D.k_mpi k')
    (hS : s = initialAt d3 P m' A i j k) (hS' : s' = initialAt d3 P m' A i' j' k') :
    pressureOf d3 S.gamma0 s' - pressureOf d3 S.gamma0 s =
        (s.d + s'.d) / 2 * work d3 P m' i j k (x' - x) (y' - y) (z' - z) +
        (s'.d - s.d) * work d3 P m' i j k ((x + x') / 2) ((y + y') / 2) ((z + z') / 2) :=
  balance (gx := p.gx) (gy := p.gy) (gz := p.gz) (rho := fun x y z => if √((x - p.x0) ^ 2 + (y - p.y0) ^ 2 + (if d3 then (z - p.z0) ^ 2 else 0)) < p.R
      then p.din else p.dout) h hg (C102_bubble h r)
    (fun x y z => rfl) (fun c hc => gravity_at h r (fun _ => rfl) hc) hA hi hj hk hi' hj' hk'
    hx hy hz hx' hy' hz' hS hS'

/-- The interface of the Rayleigh-Taylor problem is out of balance if it is not at potential zero: here the
domain is `[0,2]` along `y` with `g = -1`, and the pressure falls by 5/2 between two cells whose weight
accounts for a fall of 3/2 only. -/
theorem C106_interface_wrong (m : Addr → ℝ) : ∃ (P : Grid) (B : Sides) (D : Domain ℝ)
    (p : RayleighTaylorParams ℝ) (m' : Addr → ℝ), BoxSetup false 4 2 P B ∧ p.amplitude = 0 ∧
    Runs (hydroSetup false exampleSettings P D (.rayleighTaylor p)) m m' ∧
    pressureOf false (7/5) (initialAt false P m' aU 0 1 0) - pressureOf false (7/5) (initialAt false P m' aU 0 0 0) ≠
      ((initialAt false P m' aU 0 0 0).d + (initialAt false P m' aU 0 1 0).d) / 2 * work false P m' 0 0 0 0 1 0 := by
  obtain ⟨m', r⟩ := example_run false .reflecting (⟨0, 3, 0, 2, 0, 1, 0, 0, 0⟩ : Domain ℝ)
    (.rayleighTaylor ⟨0, 1, 2, 0, -1, 0⟩) m
  have h := exampleBox_setup false .reflecting
  refine ⟨_, _, _, _, m', h, rfl, r, ?_⟩
  have hx0 : (0 : Nat) < (exampleBox false .reflecting).nx.toNat := by decide
  have hy0 : (0 : Nat) < (exampleBox false .reflecting).ny.toNat := by decide
  have hy1 : (1 : Nat) < (exampleBox false .reflecting).ny.toNat := by decide
  have hz0 : (0 : Nat) < depth false (exampleBox false .reflecting) := by decide
  have key := C106_rayleighTaylor (S := exampleSettings) h r rfl (by norm_num [exampleSettings]) (Or.inl rfl)
    hx0 hy0 hz0 hx0 hy1 hz0 rfl rfl rfl rfl rfl rfl rfl rfl
  have a := (C102_rayleighTaylor h r rfl aU (Or.inl rfl) 0 0 0 hx0 hy0 hz0).1
  have b := (C102_rayleighTaylor h r rfl aU (Or.inl rfl) 0 1 0 hx0 hy1 hz0).1
  obtain ⟨e1, e2, -⟩ := (C106_gravity (p := ⟨0, 1, 2, 0, -1, 0⟩) (b := ⟨0, 0, 0, 0, 0, 0, 0, 0, 0⟩) h
    (cell_box h hx0 hy0 hz0).1).1 r
  have f1 : m' ⟨aG, (cell false (exampleBox false .reflecting) 0 0 0).i,
    (cell false (exampleBox false .reflecting) 0 0 0).j, (cell false (exampleBox false .reflecting) 0 0 0).k, 0⟩ = 0 := e1
  have f2 : m' ⟨aG, (cell false (exampleBox false .reflecting) 0 0 0).i,
    (cell false (exampleBox false .reflecting) 0 0 0).j, (cell false (exampleBox false .reflecting) 0 0 0).k, 1⟩ = -1 := e2
  have ea : (initialAt false (exampleBox false .reflecting) m' aU 0 0 0).d = 1 := by
    rw [a]
    norm_num [PointGas.conserved, layeredGas, restGas, centre, exampleSettings, exampleBox]
  have eb : (initialAt false (exampleBox false .reflecting) m' aU 0 1 0).d = 2 := by
    rw [b]
    norm_num [PointGas.conserved, layeredGas, restGas, centre, exampleSettings, exampleBox]
  rw [show (7 / 5 : ℝ) = exampleSettings.gamma0 from by norm_num [exampleSettings], key, ea, eb]
  simp only [work, f1, f2, centre]
  norm_num [exampleSettings, exampleBox]

theorem stores_may {α : Type} (U : Nat) (c : Cell) {l : List (Nat × α)} {v : Nat} {x : α}
    (h : (v, x) ∈ l) : (stores U c l).May .write (c.at U v) := by
  induction l with
  | nil => cases h
  | cons a l ih =>
    rcases List.mem_cons.1 h with rfl | h
    · exact .writeHere _ _ _
    · exact .write _ _ _ _ _ (ih h)

theorem may_bind {A V X Y : Type} {p : K A V X} {f : X → K A V Y} {κ : K.Kind} {a : A}
    (h : ∀ x, (f x).May κ a) [Nonempty V] : (p.bind f).May κ a := by
  induction p with
  | ret x => exact h x
  | read b k ih => exact .read _ _ (Classical.arbitrary V) _ _ (ih _)
  | write b v k ih => exact .write _ _ _ _ _ ih
  | add b v k ih => exact .add _ _ _ _ _ ih

/-- **C106**: these problems and the disk need `gravity` to be enabled in the parameter file: otherwise the
field is not allocated and every work item writes out of bounds. -/
theorem C106_unallocated {α : Type} [TOps α] {d3 : Bool} {S : Settings α} {P : Grid} {D : Domain α}
    {impl : Int} {Q : HydroProblem α} (hQ : HasGravity Q) {c : Cell} (hc : P.box d3 c) :
    ∃ t, t < (hydroInitLoop d3 S P D aU Q).n ∧ ∃ a,
      ((hydroInitLoop d3 S P D aU Q).body t).May .write a ∧ a.cell = c ∧ ¬ hydroDom d3 P impl false a := by
  obtain ⟨t, ht, hct⟩ := Grid.cellOf_surj hc
  refine ⟨t, ht, c.at aG 0, ?_, rfl, ?_⟩
  · have : ∃ x, (0, x) ∈ hydroGravity d3 S P D Q c := by
      cases Q <;> first | exact hQ.elim | exact ⟨_, by simp [hydroGravity, gravityList]; rfl⟩
    obtain ⟨x, hx⟩ := this
    have : Nonempty α := ⟨x⟩
    show ((mdrange d3 P _).body t).May _ _
    unfold mdrange
    simp only [hct]
    exact may_bind fun _ => stores_may aG c hx
  · rintro ⟨-, h | h⟩
    · have h1 : hydroArray d3 impl 9 := h.1
      have : ∀ d, aF impl d ≤ 5 := by intro d; cases d <;> simp only [aF] <;> (try split_ifs) <;> decide
      have h2 := this .x
      have h3 := this .y
      have h4 := this .z
      simp only [hydroArray, aU, aU2, aQ, aS] at h1
      omega
    · simp at h

end Verif
