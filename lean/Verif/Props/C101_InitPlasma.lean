import Verif.Spec.InitPlasma
import Verif.Props.C100_InitField
import Verif.Props.C102_InitHydro

/-! # C101: the MHD solver starts from the documented state of the chosen problem -/

namespace Verif

open Spec ROps TOps

section helpers

variable {d3 : Bool} {S : MSettings ℝ} {P : Grid} {D : Domain ℝ} {B : Sides} {Q : MhdProblem ℝ}
  {m m' : Addr → ℝ}

/-- The values set by the initial condition, as states. -/
noncomputable def initState (d3 : Bool) (S : MSettings ℝ) (P : Grid) (D : Domain ℝ) (m : Addr → ℝ)
    (Q : MhdProblem ℝ) (c : Cell) : MState ℝ :=
  ⟨initVal d3 S P D m Q c 0, initVal d3 S P D m Q c 1, initVal d3 S P D m Q c 2, initVal d3 S P D m Q c 3,
    initVal d3 S P D m Q c 4, initVal d3 S P D m Q c 5, initVal d3 S P D m Q c 6, initVal d3 S P D m Q c 7⟩

theorem init_prim (h : BoxSetup d3 8 3 P B) (r : Runs (mhdSetup d3 S P D Q) m m') {i j k : Nat}
    (hi : i + 1 < P.nx.toNat) (hj : j + 1 < P.ny.toNat) (hk : d3 = true → k + 1 < P.nz.toNat)
    (hk0 : d3 = false → k = 0) :
    mfield m' aQ (cell d3 P i j k) = primOf d3 S (initState d3 S P D m Q) (cell d3 P i j k) := by
  obtain ⟨m1, m2, y, e, -, -, -, q⟩ := mhd_setup (S := S) (D := D) (impl := 0) h Q m
  obtain rfl := y.unique r
  have hkd : k < depth d3 P := by
    cases d3
    · rw [hk0 rfl]; simp [depth]
    · have := hk rfl
      simp only [depth, if_true]; omega
  have val : ∀ c, P.box d3 c → P.inner d3 c → mfield m1 aU c = initState d3 S P D m Q c := by
    intro c hb hin
    simp only [mfield, initState]
    rw [e c 0 hb hin (by decide), e c 1 hb hin (by decide), e c 2 hb hin (by decide),
      e c 3 hb hin (by decide), e c 4 hb hin (by decide), e c 5 hb hin (by decide),
      e c 6 hb hin (by decide), e c 7 hb hin (by decide)]
  obtain ⟨hb, hin⟩ := mcell_box h (by decide) (by omega : i < P.nx.toNat) (by omega : j < P.ny.toNat) hkd
  have hc : P.convertible d3 (cell d3 P i j k) := by
    have hg := h.gw
    cases d3 <;> guards <;> omega
  rw [q _ hb hc]
  have v0 := val _ hb hin
  obtain ⟨bx, nx⟩ := mcell_box h (by decide) hi (by omega : j < P.ny.toNat) hkd
  obtain ⟨by_, ny⟩ := mcell_box h (by decide) (by omega : i < P.nx.toNat) hj hkd
  have vx := val _ bx nx
  have vy := val _ by_ ny
  rw [cell_up_x] at vx
  rw [cell_up_y] at vy
  cases d3
  · simp only [primOf, v0, vx, vy, Bool.false_eq_true, if_false]
  · obtain ⟨bz, nz⟩ := mcell_box h (by decide) (by omega : i < P.nx.toNat) (by omega : j < P.ny.toNat)
      (show k + 1 < depth true P from hk rfl)
    have vz := val _ bz nz
    rw [cell_up_z] at vz
    simp only [primOf, v0, vx, vy, vz, if_true]

/-- Conversion of a state above the floors. -/
theorem prim_plasma {u : MState ℝ} {na nb nc : ℝ} {g : Plasma} (hs : 0 < S.smallr) (hg : S.gamma0 ≠ 1)
    (hc : S.cIso ≤ 0) (hd : S.smallr ≤ g.rho) (hp : g.rho * S.smallp ≤ g.p)
    (e : u.d = g.rho ∧ u.p = g.p / (S.gamma0 - 1) + g.rho * (g.u ^ 2 + g.v ^ 2 + g.w ^ 2) / 2 +
      (g.bx ^ 2 + g.by' ^ 2 + g.bz ^ 2) / 2 ∧ u.u = g.rho * g.u ∧ u.v = g.rho * g.v ∧ u.w = g.rho * g.w ∧
      (u.a + na) / 2 = g.bx ∧ (u.b + nb) / 2 = g.by' ∧ (u.c + nc) / 2 = g.bz) :
    (constoprim_mhd S u na nb nc).1 = ⟨g.rho, g.p, g.u, g.v, g.w, g.bx, g.by', g.bz⟩ := by
  obtain ⟨e0, e1, e2, e3, e4, e5, e6, e7⟩ := e
  have h0 : 0 < g.rho := lt_of_lt_of_le hs hd
  have h1 : S.gamma0 - 1 ≠ 0 := sub_ne_zero.2 hg
  have hm : fmax u.d S.smallr = g.rho := by
    rw [e0]; rops; exact max_eq_left hd
  have ha : (lit (1/2) : ℝ) * (u.a + na) = g.bx := by rw [← e5]; rops; ring
  have hb : (lit (1/2) : ℝ) * (u.b + nb) = g.by' := by rw [← e6]; rops; ring
  have hz : (lit (1/2) : ℝ) * (u.c + nc) = g.bz := by rw [← e7]; rops; ring
  have hu : u.u / g.rho = g.u := by rw [e2]; field_simp
  have hv : u.v / g.rho = g.v := by rw [e3]; field_simp
  have hw : u.w / g.rho = g.w := by rw [e4]; field_simp
  have hiso : ¬ (gtb S.cIso (lit 0) = true) := by
    rw [show gtb S.cIso (lit 0) = decide ((lit 0 : ℝ) < S.cIso) from rfl, decide_eq_true_eq]
    rops
    exact not_lt.2 hc
  unfold constoprim_mhd
  simp only [hm, ha, hb, hz, hu, hv, hw, if_neg hiso]
  have hpp : (S.gamma0 - lit 1) * g.rho * ((u.p - lit (1/2) * (g.bx * g.bx + g.by' * g.by' + g.bz * g.bz)) / g.rho -
      lit (1/2) * (g.u * g.u + g.v * g.v + g.w * g.w)) = g.p := by
    rw [e1]; rops; field_simp; ring
  rw [hpp]
  have : fmax g.p (g.rho * S.smallp) = g.p := by rops; exact max_eq_left hp
  rw [this]

/-- It is enough to look at the values the functors store. -/
theorem plasma_of (h : BoxSetup d3 8 3 P B) (r : Runs (mhdSetup d3 S P D Q) m m')
    {G : ℝ → ℝ → ℝ → Plasma} (hG : Unfloored S G)
    (H : ∀ (c : Cell) (z : ℝ), (d3 = true → z = zPos S P D c.k) → P.inner d3 c →
      P.inner d3 (c.up .x) → P.inner d3 (c.up .y) → (d3 = true → P.inner d3 (c.up .z)) →
      let g := G (xPos S P D c.i) (yPos S P D c.j) z
      let V := initVal d3 S P D m Q
      V c ID = g.rho ∧ V c IP = g.p / (S.gamma0 - 1) + g.rho * (g.u ^ 2 + g.v ^ 2 + g.w ^ 2) / 2 +
        (g.bx ^ 2 + g.by' ^ 2 + g.bz ^ 2) / 2 ∧ V c IU = g.rho * g.u ∧ V c IV = g.rho * g.v ∧
        V c IW = g.rho * g.w ∧ (V c IA + V (c.up .x) IA) / 2 = g.bx ∧ (V c IB + V (c.up .y) IB) / 2 = g.by' ∧
        (V c IC + (if d3 then V (c.up .z) IC else 0)) / 2 = g.bz) :
    PlasmaSamples d3 S P D m' G := by
  intro i j k hi hj hk hk0
  have e := init_prim h r hi hj hk hk0
  have hkd : k < depth d3 P := by
    cases d3
    · rw [hk0 rfl]; simp [depth]
    · have := hk rfl
      simp only [depth, if_true]; omega
  have i0 := (mcell_box h (by decide) (by omega : i < P.nx.toNat) (by omega : j < P.ny.toNat) hkd).2
  have ix := (mcell_box h (by decide) hi (by omega : j < P.ny.toNat) hkd).2
  have iy := (mcell_box h (by decide) (by omega : i < P.nx.toNat) hj hkd).2
  rw [cell_up_x] at ix
  rw [cell_up_y] at iy
  have iz : d3 = true → P.inner d3 ((cell d3 P i j k).up .z) := by
    rintro rfl
    have := (mcell_box h (by decide) (by omega : i < P.nx.toNat) (by omega : j < P.ny.toNat)
      (show k + 1 < depth true P from hk rfl)).2
    rwa [cell_up_z] at this
  have key := H (cell d3 P i j k) (centre D.zmin S.dz P.nz D.k_mpi k) (by
    intro hd; simp only [cell, hd, if_true]; exact (zAt_centre (S := S.toSettings) k).symm) i0 ix iy iz
  have ex : xPos S P D (cell d3 P i j k).i = centre D.xmin S.dx P.nx D.i_mpi i :=
    xAt_centre (S := S.toSettings) i
  have ey : yPos S P D (cell d3 P i j k).j = centre D.ymin S.dy P.ny D.j_mpi j :=
    yAt_centre (S := S.toSettings) j
  rw [ex, ey] at key
  obtain ⟨hs, hg, hc, hf⟩ := hG
  obtain ⟨f1, f2⟩ := hf (centre D.xmin S.dx P.nx D.i_mpi i) (centre D.ymin S.dy P.ny D.j_mpi j)
    (centre D.zmin S.dz P.nz D.k_mpi k)
  have e' := e.trans (prim_plasma hs hg hc f1 f2 (by
    have z0 : (if d3 then (initState d3 S P D m Q ((cell d3 P i j k).up .z)).c else lit 0) =
        if d3 then initVal d3 S P D m Q ((cell d3 P i j k).up .z) IC else 0 := by
      cases d3
      · simp only [Bool.false_eq_true, if_false]; rops
      · rfl
    rw [z0]
    exact key))
  simp only [mfield, MState.mk.injEq] at e'
  exact e'

end helpers

section problems

variable {d3 : Bool} {S : MSettings ℝ} {P : Grid} {D : Domain ℝ} {B : Sides} {m m' : Addr → ℝ}

/-- Last value of each variable in a list of all eight (energy at the end). -/
theorem last_e {a b c e f g k q x : ℝ} :
    let l := [(ID, a), (IU, b), (IV, c), (IW, e), (IA, f), (IB, g), (IC, k), (IP, q)]
    lastOf l ID x = a ∧ lastOf l IP x = q ∧ lastOf l IU x = b ∧ lastOf l IV x = c ∧ lastOf l IW x = e ∧
      lastOf l IA x = f ∧ lastOf l IB x = g ∧ lastOf l IC x = k := by
  refine ⟨rfl, rfl, rfl, rfl, rfl, rfl, rfl, rfl⟩

/-- The same with the energy in second place. -/
theorem last_p {a b c e f g k q x : ℝ} :
    let l := [(ID, a), (IP, q), (IU, b), (IV, c), (IW, e), (IA, f), (IB, g), (IC, k)]
    lastOf l ID x = a ∧ lastOf l IP x = q ∧ lastOf l IU x = b ∧ lastOf l IV x = c ∧ lastOf l IW x = e ∧
      lastOf l IA x = f ∧ lastOf l IB x = g ∧ lastOf l IC x = k := by
  refine ⟨rfl, rfl, rfl, rfl, rfl, rfl, rfl, rfl⟩

/-- Problems that store a uniform field: values of each cell. -/
theorem plasma_uniform {Q : MhdProblem ℝ} (h : BoxSetup d3 8 3 P B) (r : Runs (mhdSetup d3 S P D Q) m m')
    {G : ℝ → ℝ → ℝ → Plasma} (hG : Unfloored S G) {b1 b2 b3 : ℝ}
    (hb : ∀ x y z, (G x y z).bx = b1 ∧ (G x y z).by' = b2 ∧ (G x y z).bz = if d3 then b3 else b3 / 2)
    (H : ∀ (c : Cell) (z : ℝ), (d3 = true → z = zPos S P D c.k) →
      let g := G (xPos S P D c.i) (yPos S P D c.j) z
      let V := initVal d3 S P D m Q
      V c ID = g.rho ∧ V c IP = g.p / (S.gamma0 - 1) + g.rho * (g.u ^ 2 + g.v ^ 2 + g.w ^ 2) / 2 +
        (g.bx ^ 2 + g.by' ^ 2 + g.bz ^ 2) / 2 ∧ V c IU = g.rho * g.u ∧ V c IV = g.rho * g.v ∧
        V c IW = g.rho * g.w ∧ V c IA = b1 ∧ V c IB = b2 ∧ V c IC = b3) :
    PlasmaSamples d3 S P D m' G := by
  refine plasma_of h r hG fun c z hz _ _ _ _ => ?_
  obtain ⟨h1, h2, h3, h4, h5, h6, h7, h8⟩ := H c z hz
  obtain ⟨f1, f2, f3⟩ := hb (xPos S P D c.i) (yPos S P D c.j) z
  have up : ∀ d, initVal d3 S P D m Q (c.up d) IA = b1 ∧ initVal d3 S P D m Q (c.up d) IB = b2 ∧
      initVal d3 S P D m Q (c.up d) IC = b3 := fun d =>
    (H (c.up d) (zPos S P D (c.up d).k) fun _ => rfl).2.2.2.2.2
  refine ⟨h1, h2, h3, h4, h5, ?_, ?_, ?_⟩
  · rw [h6, (up .x).1, f1]; ring
  · rw [h7, (up .y).2.1, f2]; ring
  · rw [h8, (up .z).2.2, f3]
    cases d3
    · simp
    · simp only [if_true]; ring

/-- What the blast is: in 2D the third component of the field is halved, and the pressure raised. -/
noncomputable def blastSeen (d3 : Bool) (gamma : ℝ) (p : BlastParams ℝ) (x y z : ℝ) : Plasma :=
  let g := blastPlasma d3 p x y z
  { g with
    p := if d3 then g.p else g.p + 3 / 32 * (gamma - 1)
    bz := if d3 then g.bz else g.bz / 2 }

/-- **C101**: the blast as the solver sees it.  In 3D it is the documented one. -/
theorem C101_blast {p : BlastParams ℝ} (h : BoxSetup d3 8 3 P B)
    (r : Runs (mhdSetup d3 S P D (.blast p)) m m') (hr : 0 ≤ p.blast_radius)
    (hG : Unfloored S (blastSeen d3 S.gamma0 p)) :
    PlasmaSamples d3 S P D m' (blastSeen d3 S.gamma0 p) := by
  have hg : S.gamma0 - 1 ≠ 0 := sub_ne_zero.2 hG.2.1
  refine plasma_uniform (b1 := 1 / 2) (b2 := 1 / 2) (b3 := 1 / 2) h r hG (fun x y z => ⟨rfl, rfl, ?_⟩)
    fun c z hz => ?_
  · cases d3 <;> simp [blastSeen, blastPlasma]
  · have key : ltb (if d3 = true then
          (xPos S P D c.i - p.blast_center_x) * (xPos S P D c.i - p.blast_center_x) +
            (yPos S P D c.j - p.blast_center_y) * (yPos S P D c.j - p.blast_center_y) +
            (zPos S P D c.k - p.blast_center_z) * (zPos S P D c.k - p.blast_center_z)
        else (xPos S P D c.i - p.blast_center_x) * (xPos S P D c.i - p.blast_center_x) +
            (yPos S P D c.j - p.blast_center_y) * (yPos S P D c.j - p.blast_center_y))
          (p.blast_radius * p.blast_radius) = true ↔
        √((xPos S P D c.i - p.blast_center_x) ^ 2 + (yPos S P D c.j - p.blast_center_y) ^ 2 +
          (if d3 then (z - p.blast_center_z) ^ 2 else 0)) < p.blast_radius := by
      rw [sqrt_lt_iff_sq (by split_ifs <;> positivity) hr]
      rw [show ∀ a b : ℝ, ltb a b = decide (a < b) from fun _ _ => rfl, decide_eq_true_iff]
      cases d3
      · simp only [Bool.false_eq_true, if_false, sq, add_zero]
      · simp only [if_true, sq, hz rfl]
    simp only [initVal, blastMhd, blastSeen, blastPlasma, blastGas]
    by_cases h2 : √((xPos S P D c.i - p.blast_center_x) ^ 2 + (yPos S P D c.j - p.blast_center_y) ^ 2 +
        (if d3 then (z - p.blast_center_z) ^ 2 else 0)) < p.blast_radius
    · rw [if_pos (key.2 h2), if_pos h2]
      obtain ⟨l1, l2, l3, l4, l5, l6, l7, l8⟩ := last_e (a := p.blast_density_in) (b := lit 0) (c := lit 0)
        (e := lit 0) (f := lit (1/2)) (g := lit (1/2)) (k := lit (1/2)) (x := 0)
        (q := p.blast_pressure_in / (S.gamma0 - lit 1) +
          lit (1/2) * (sqr (lit (1/2)) + sqr (lit (1/2)) + sqr (lit (1/2))))
      refine ⟨l1, l2.trans ?_, l3.trans ?_, l4.trans ?_, l5.trans ?_, l6.trans ?_, l7.trans ?_, l8.trans ?_⟩ <;>
        (try simp only [sqr]) <;> rops <;> (try cases d3) <;> simp <;> (try field_simp) <;> (try ring)
    · rw [if_neg (fun h1 => h2 (key.1 h1)), if_neg h2]
      obtain ⟨l1, l2, l3, l4, l5, l6, l7, l8⟩ := last_e (a := p.blast_density_out) (b := lit 0) (c := lit 0)
        (e := lit 0) (f := lit (1/2)) (g := lit (1/2)) (k := lit (1/2)) (x := 0)
        (q := p.blast_pressure_out / (S.gamma0 - lit 1) +
          lit (1/2) * (sqr (lit (1/2)) + sqr (lit (1/2)) + sqr (lit (1/2))))
      refine ⟨l1, l2.trans ?_, l3.trans ?_, l4.trans ?_, l5.trans ?_, l6.trans ?_, l7.trans ?_, l8.trans ?_⟩ <;>
        (try simp only [sqr]) <;> rops <;> (try cases d3) <;> simp <;> (try field_simp) <;> (try ring)

/-- **C101**: the 3D blast. -/
theorem C101_blast3 {p : BlastParams ℝ} (h : BoxSetup true 8 3 P B)
    (r : Runs (mhdSetup true S P D (.blast p)) m m') (hr : 0 ≤ p.blast_radius)
    (hG : Unfloored S (blastPlasma true p)) : PlasmaSamples true S P D m' (blastPlasma true p) := by
  have e : blastSeen true S.gamma0 p = blastPlasma true p := rfl
  rw [← e] at hG ⊢
  exact C101_blast h r hr hG

/-- **C101** is false for the 2D blast: the solver starts from a higher pressure and a weaker field in every cell. -/
theorem C101_blast2_wrong {p : BlastParams ℝ} (h : BoxSetup false 8 3 P B)
    (r : Runs (mhdSetup false S P D (.blast p)) m m') (hr : 0 ≤ p.blast_radius)
    (hG : Unfloored S (blastSeen false S.gamma0 p)) {i j : Nat} (hi : i + 1 < P.nx.toNat)
    (hj : j + 1 < P.ny.toNat) :
    m' ⟨aQ, P.ghostWidth + i, P.ghostWidth + j, 0, 1⟩ = (blastGas false p (centre D.xmin S.dx P.nx D.i_mpi i)
      (centre D.ymin S.dy P.ny D.j_mpi j) 0).p + 3 / 32 * (S.gamma0 - 1) ∧
    m' ⟨aQ, P.ghostWidth + i, P.ghostWidth + j, 0, 7⟩ = 1 / 4 ∧
    ¬ PlasmaSamples false S P D m' (blastPlasma false p) := by
  have key := C101_blast h r hr hG i j 0 hi hj (fun h => by cases h) (fun _ => rfl)
  have h7 : m' ⟨aQ, P.ghostWidth + i, P.ghostWidth + j, 0, 7⟩ = 1 / 4 := by
    refine key.2.2.2.2.2.2.2.trans ?_
    norm_num [blastSeen, blastPlasma]
  refine ⟨key.2.1, h7, fun hp => ?_⟩
  have h7' : m' ⟨aQ, P.ghostWidth + i, P.ghostWidth + j, 0, 7⟩ = 1 / 2 :=
    (hp i j 0 hi hj (fun h => by cases h) (fun _ => rfl)).2.2.2.2.2.2.2
  rw [h7] at h7'
  norm_num at h7'

/-- **C101**: the vortex of Orszag and Tang. -/
theorem C101_orszagTang {kt : ℝ} (h : BoxSetup d3 8 3 P B)
    (r : Runs (mhdSetup d3 S P D (.orszagTang kt)) m m') (hG : Unfloored S (otPlasma d3 S.gamma0 kt D)) :
    PlasmaSamples d3 S P D m' (otPlasma d3 S.gamma0 kt D) := by
  have hg : S.gamma0 - 1 ≠ 0 := sub_ne_zero.2 hG.2.1
  have hg0 : S.gamma0 ≠ 0 := by
    intro e
    have := (hG.2.2.2 0 0 0).1
    have h0 := hG.1
    simp only [otPlasma, e] at this
    norm_num at this
    linarith
  have hpi := Real.pi_pos
  have hs : √(4 * Real.pi) ≠ 0 := (Real.sqrt_pos.2 (by positivity)).ne'
  have h4 : (2 : ℝ) * (2 * Real.pi) = 4 * Real.pi := by ring
  refine plasma_of h r hG fun c z hz _ _ _ _ => ?_
  cases d3
  · simp (decide := true) only [initVal, otEnergy, orszagTang2, lastOf, List.foldl, otPlasma, twopi, sqr,
      if_false, if_true, Cell.up]
    simp only [TOps.sin, TOps.pi, TOps.asin]
    rops
    rw [Real.arcsin_one, h4, show yPos S P D c.j * (2 * Real.pi) = 2 * Real.pi * yPos S P D c.j by ring,
      show xPos S P D c.i * (2 * Real.pi) = 2 * Real.pi * xPos S P D c.i by ring,
      show 2 * xPos S P D c.i * (2 * Real.pi) = 4 * Real.pi * xPos S P D c.i by ring,
      show (2 : ℝ) * (4 * (Real.pi / 2)) = 4 * Real.pi by ring]
    generalize √(4 * Real.pi) = w at *
    generalize Real.sin (2 * Real.pi * yPos S P D c.j) = s1
    generalize Real.sin (2 * Real.pi * xPos S P D c.i) = s2
    generalize Real.sin (4 * Real.pi * xPos S P D c.i) = s3
    refine ⟨?_, ?_, ?_, ?_, ?_, ?_, ?_, ?_⟩ <;> first | trivial | (field_simp; ring) | field_simp | ring
  · simp (decide := true) only [initVal, otEnergy, orszagTang3, lastOf, List.foldl, otPlasma, twopi, sqr,
      if_false, if_true, Cell.up, hz rfl]
    simp only [TOps.sin, TOps.cos, TOps.pi]
    rops
    rw [show yPos S P D c.j * (2 * Real.pi) = 2 * Real.pi * yPos S P D c.j by ring,
      show xPos S P D c.i * (2 * Real.pi) = 2 * Real.pi * xPos S P D c.i by ring,
      show 2 * xPos S P D c.i * (2 * Real.pi) = 4 * Real.pi * xPos S P D c.i by ring,
      show (2 : ℝ) * (2 * Real.pi) * kt = 2 * Real.pi * (2 * kt) by ring]
    generalize √(4 * Real.pi) = w at *
    generalize Real.sin (2 * Real.pi * yPos S P D c.j) = s1
    generalize Real.sin (2 * Real.pi * xPos S P D c.i) = s2
    generalize Real.sin (4 * Real.pi * xPos S P D c.i) = s3
    generalize Real.cos (2 * Real.pi * (2 * kt) * (zPos S P D c.k - D.zmin) / (D.zmax - D.zmin)) = s4
    refine ⟨?_, ?_, ?_, ?_, ?_, ?_, ?_, ?_⟩ <;> first | trivial | (field_simp; ring) | field_simp | ring

/-- **C101**: shear layers with a smooth transition; the third component of the momentum, which is not set in
2D, is zero in fresh memory. -/
theorem C101_shear {p : KHParams ℝ} {rnd : Cell → Nat → ℝ} (h : BoxSetup d3 8 3 P B) (hm : Fresh m)
    (r : Runs (mhdSetup d3 S P D (.kelvinHelmholtz p rnd)) m m') (h1 : p.p_rand = false)
    (h2 : p.p_sine_rob = true) (hG : Unfloored S (shearPlasma d3 p)) :
    PlasmaSamples d3 S P D m' (shearPlasma d3 p) := by
  have f : ∀ a, m a = lit 0 := hm
  refine plasma_uniform (b1 := 1 / 2) (b2 := 0) (b3 := 0) h r hG (fun x y z => ⟨rfl, rfl, ?_⟩)
    fun c z hz => ?_
  · cases d3 <;> simp [shearPlasma]
  cases d3
  · simp (decide := true) only [initVal, kelvinHelmholtz2, h1, h2, lastOf, List.foldl, shearPlasma, shearGas2, layers,
      if_false, if_true, f]
    simp only [TOps.exp, TOps.sin, TOps.pi]
    rops
    push_cast
    refine ⟨?_, ?_, ?_, ?_, ?_, ?_, ?_, ?_⟩ <;> first | trivial | ring
  · simp (decide := true) only [initVal, kelvinHelmholtz3, h1, h2, lastOf, List.foldl, shearPlasma, shearGas3, layers,
      if_false, if_true, hz rfl]
    simp only [TOps.exp, TOps.sin, TOps.pi]
    rops
    push_cast
    refine ⟨?_, ?_, ?_, ?_, ?_, ?_, ?_, ?_⟩ <;> first | trivial | ring

/-- **C101**: shear layers with a sharp transition and a sinusoidal perturbation. -/
theorem C101_sharp {p : KHParams ℝ} {rnd : Cell → Nat → ℝ} (h : BoxSetup d3 8 3 P B) (hm : Fresh m)
    (r : Runs (mhdSetup d3 S P D (.kelvinHelmholtz p rnd)) m m') (h1 : p.p_rand = false)
    (h2 : p.p_sine_rob = false) (h3 : p.p_sine = true)
    {G : ℝ → ℝ → ℝ → Plasma} (eG : G = fun x y z => ⟨if d3 then sharpGas p z 0 0 (p.w0 * Real.sin (p.mode * Real.pi * x))
      else sharpGas p y 0 (p.w0 * Real.sin (p.mode * Real.pi * x)) 0, 1 / 2, 0, 0⟩) (hG : Unfloored S G) :
    PlasmaSamples d3 S P D m' G := by
  subst eG
  have f : ∀ a, m a = lit 0 := hm
  have key : ∀ y : ℝ, (geb y (lit (1/4)) && leb y (lit (3/4))) = true ↔ 1 / 4 ≤ y ∧ y ≤ 3 / 4 := by
    intro y
    rw [Bool.and_eq_true, show geb y (lit (1/4)) = decide ((lit (1/4) : ℝ) ≤ y) from rfl,
      show leb y (lit (3/4)) = decide (y ≤ (lit (3/4) : ℝ)) from rfl, decide_eq_true_eq, decide_eq_true_eq]
    rops
  refine plasma_uniform (b1 := 1 / 2) (b2 := 0) (b3 := 0) h r hG (fun x y z => ⟨rfl, rfl, ?_⟩)
    fun c z hz => ?_
  · cases d3 <;> simp
  cases d3
  · simp (decide := true) only [initVal, kelvinHelmholtz2, h1, h2, h3, lastOf, List.foldl, sharpGas,
      if_false, if_true, f, key]
    by_cases hy : 1 / 4 ≤ yPos S P D c.j ∧ yPos S P D c.j ≤ 3 / 4
    · simp only [if_pos hy, TOps.sin, TOps.pi]
      rops
      push_cast
      refine ⟨?_, ?_, ?_, ?_, ?_, ?_, ?_, ?_⟩ <;> first | trivial | ring
    · simp only [if_neg hy, TOps.sin, TOps.pi]
      rops
      push_cast
      refine ⟨?_, ?_, ?_, ?_, ?_, ?_, ?_, ?_⟩ <;> first | trivial | ring
  · simp (decide := true) only [initVal, kelvinHelmholtz3, h1, h2, h3, lastOf, List.foldl, sharpGas,
      if_false, if_true, key, hz rfl]
    by_cases hy : 1 / 4 ≤ zPos S P D c.k ∧ zPos S P D c.k ≤ 3 / 4
    · simp only [if_pos hy, TOps.sin, TOps.pi]
      rops
      push_cast
      refine ⟨?_, ?_, ?_, ?_, ?_, ?_, ?_, ?_⟩ <;> first | trivial | ring
    · simp only [if_neg hy, TOps.sin, TOps.pi]
      rops
      push_cast
      refine ⟨?_, ?_, ?_, ?_, ?_, ?_, ?_, ?_⟩ <;> first | trivial | ring

/-- Factor by which the code scales the documented velocity of the rotor: in 2D the taper is not cut off at 1
within the disc, in 3D the velocity is stored as momentum. -/
noncomputable def rotorScale (d3 : Bool) (D : Domain ℝ) (p : RotorParams ℝ) (x y z : ℝ) : ℝ :=
  let r := √((x - (D.xmin + D.xmax) / 2) ^ 2 + (y - (D.ymin + D.ymax) / 2) ^ 2)
  if d3 then 1 / (rotorPlasma D p x y z).rho else if r ≤ p.r0 then (p.r1 - r) / (p.r1 - p.r0) else 1

/-- **C101**: density, pressure and field of the rotor are the documented ones; the velocity is scaled. -/
theorem C101_rotor {p : RotorParams ℝ} (h : BoxSetup d3 8 3 P B)
    (r : Runs (mhdSetup d3 S P D (.rotor p)) m m') {G : ℝ → ℝ → ℝ → Plasma}
    (eG : G = fun x y z => { rotorPlasma D p x y z with
      u := rotorScale d3 D p x y z * (rotorPlasma D p x y z).u
      v := rotorScale d3 D p x y z * (rotorPlasma D p x y z).v }) (hG : Unfloored S G) :
    PlasmaSamples d3 S P D m' G := by
  have hr : ∀ x y z, (rotorPlasma D p x y z).rho ≠ 0 := by
    intro x y z
    have := (hG.2.2.2 x y z).1
    rw [eG] at this
    exact (lt_of_lt_of_le hG.1 this).ne'
  subst eG
  have hle : ∀ a b : ℝ, leb a b = decide (a ≤ b) := fun _ _ => rfl
  refine plasma_uniform (b1 := p.b0) (b2 := 0) (b3 := 0) h r hG (fun x y z => ⟨rfl, rfl, ?_⟩)
    fun c z hz => ?_
  · cases d3 <;> simp [rotorPlasma]
  have hd := hr (xPos S P D c.i) (yPos S P D c.j) z
  obtain ⟨a, ha⟩ : ∃ a, a = xPos S P D c.i - (D.xmin + D.xmax) / 2 := ⟨_, rfl⟩
  obtain ⟨b, hb⟩ : ∃ b, b = yPos S P D c.j - (D.ymin + D.ymax) / 2 := ⟨_, rfl⟩
  obtain ⟨w, hw⟩ : ∃ w, w = √(a ^ 2 + b ^ 2) := ⟨_, rfl⟩
  have ea : xPos S P D c.i - (D.xmax + D.xmin) / lit 2 = a := by rw [ha]; rops; ring
  have eb : yPos S P D c.j - (D.ymax + D.ymin) / lit 2 = b := by rw [hb]; rops; ring
  have ew : sqrt (a * a + b * b) = w := by rw [hw]; rops; rw [← sq, ← sq]
  cases d3
  · simp (decide := true) only [initVal, rotor2, rotorScale, rotorPlasma, if_false, if_true, ea, eb, ew, ← ha, ← hb,
      ← hw, hle, decide_eq_true_eq] at hd ⊢
    by_cases h0 : w ≤ p.r0
    · simp (decide := true) only [if_pos h0, lastOf, List.foldl, if_true, if_false] at hd ⊢
      rops
      refine ⟨?_, ?_, ?_, ?_, ?_, ?_, ?_, ?_⟩ <;> first | trivial | ring1
    · by_cases h1 : w ≤ p.r1
      · simp (decide := true) only [if_neg h0, if_pos h1, lastOf, List.foldl, if_true, if_false] at hd ⊢
        rops
        generalize (p.r1 - w) / (p.r1 - p.r0) = f at *
        rw [div_eq_mul_inv _ w, div_eq_mul_inv _ w, div_eq_mul_inv _ w, div_eq_mul_inv _ w]
        generalize w⁻¹ = q
        generalize 1 + 9 * f = d at *
        refine ⟨?_, ?_, ?_, ?_, ?_, ?_, ?_, ?_⟩ <;> first | trivial | ring1 | (field_simp; ring1)
      · simp (decide := true) only [if_neg h0, if_neg h1, lastOf, List.foldl, if_true, if_false] at hd ⊢
        rops
        refine ⟨?_, ?_, ?_, ?_, ?_, ?_, ?_, ?_⟩ <;> first | trivial | ring1
  · simp (decide := true) only [initVal, rotor3, rotorScale, rotorPlasma, if_false, if_true, ea, eb, ew, ← ha, ← hb,
      ← hw, hle, decide_eq_true_eq] at hd ⊢
    by_cases h0 : w ≤ p.r0
    · simp (decide := true) only [if_pos h0, lastOf, List.foldl, if_true, if_false] at hd ⊢
      rops
      refine ⟨?_, ?_, ?_, ?_, ?_, ?_, ?_, ?_⟩ <;> first | trivial | ring1
    · by_cases h1 : w ≤ p.r1
      · simp (decide := true) only [if_neg h0, if_pos h1, lastOf, List.foldl, if_true, if_false] at hd ⊢
        rops
        generalize (p.r1 - w) / (p.r1 - p.r0) = f at *
        generalize he : 1 + 9 * f = d at *
        generalize -f * p.u0 * b / w = u
        generalize f * p.u0 * a / w = v
        refine ⟨?_, ?_, ?_, ?_, ?_, ?_, ?_, ?_⟩ <;> first | trivial | ring1 | (field_simp; ring1) | field_simp
      · simp (decide := true) only [if_neg h0, if_neg h1, lastOf, List.foldl, if_true, if_false] at hd ⊢
        rops
        refine ⟨?_, ?_, ?_, ?_, ?_, ?_, ?_, ?_⟩ <;> first | trivial | ring1

/-- **C101** is false for the rotor: at a cell off the horizontal axis strictly within the dense disc the velocity
differs from the documented one, in 2D and in 3D. -/
theorem C101_rotor_wrong {p : RotorParams ℝ} (h : BoxSetup d3 8 3 P B)
    (r : Runs (mhdSetup d3 S P D (.rotor p)) m m') {G : ℝ → ℝ → ℝ → Plasma}
    (eG : G = fun x y z => { rotorPlasma D p x y z with
      u := rotorScale d3 D p x y z * (rotorPlasma D p x y z).u
      v := rotorScale d3 D p x y z * (rotorPlasma D p x y z).v }) (hG : Unfloored S G)
    (hu : p.u0 ≠ 0) (h0 : 0 < p.r0) (h1 : p.r0 < p.r1) {i j k : Nat} {x y : ℝ}
    (hx : x = centre D.xmin S.dx P.nx D.i_mpi i - (D.xmin + D.xmax) / 2)
    (hy : y = centre D.ymin S.dy P.ny D.j_mpi j - (D.ymin + D.ymax) / 2) (hr : √(x ^ 2 + y ^ 2) < p.r0)
    (hy0 : y ≠ 0) (hi : i + 1 < P.nx.toNat) (hj : j + 1 < P.ny.toNat) (hk : d3 = true → k + 1 < P.nz.toNat)
    (hk0 : d3 = false → k = 0) : ¬ PlasmaSamples d3 S P D m' (rotorPlasma D p) := by
  intro hp
  have e1 := (hp i j k hi hj hk hk0).2.2.1
  have e2 := (C101_rotor h r eG hG i j k hi hj hk hk0).2.2.1
  rw [e1] at e2
  subst eG
  simp only [rotorScale, rotorPlasma, ← hx, ← hy, if_pos hr.le] at e2
  have hne : -p.u0 * y / p.r0 ≠ 0 := by
    refine div_ne_zero (mul_ne_zero (neg_ne_zero.2 hu) hy0) h0.ne'
  have : (if d3 = true then (1 : ℝ) / 10 else (p.r1 - √(x ^ 2 + y ^ 2)) / (p.r1 - p.r0)) = 1 := by
    refine mul_right_cancel₀ hne ?_
    rw [← e2, one_mul]
  cases d3
  · simp only [Bool.false_eq_true, if_false] at this
    rw [div_eq_one_iff_eq (by linarith)] at this
    linarith
  · norm_num at this

/-- **C101**: the implosion with a uniform field: the velocity is divided by the density, and the pressure raised
by the difference of the kinetic energies. -/
theorem C101_implode {p : ImplodeParams ℝ} (h : BoxSetup d3 8 3 P B)
    (r : Runs (mhdSetup d3 S P D (.implode p)) m m')
    (hB : p.Bx_in = p.Bx_out ∧ p.By_in = p.By_out ∧ p.Bz_in = p.Bz_out) {G : ℝ → ℝ → ℝ → Plasma}
    (eG : G = fun x y z =>
      let g := implodePlasma d3 D p x y z
      { g with
        u := g.u / g.rho
        v := g.v / g.rho
        w := g.w / g.rho
        p := g.p + (S.gamma0 - 1) / 2 * (g.rho - 1 / g.rho) * (g.u ^ 2 + g.v ^ 2 + g.w ^ 2) })
    (hG : Unfloored S G) : PlasmaSamples d3 S P D m' G := by
  obtain ⟨hb1, hb2, hb3⟩ := hB
  have hg : S.gamma0 - 1 ≠ 0 := sub_ne_zero.2 hG.2.1
  have hr : ∀ x y z, (implodePlasma d3 D p x y z).rho ≠ 0 := by
    intro x y z
    have := (hG.2.2.2 x y z).1
    rw [eG] at this
    exact (lt_of_lt_of_le hG.1 this).ne'
  subst eG
  refine plasma_uniform (b1 := p.Bx_in) (b2 := p.By_in) (b3 := if d3 then p.Bz_in else 0) h r hG
    (fun x y z => ⟨rfl, rfl, ?_⟩) fun c z hz => ?_
  · cases d3 <;> simp [implodePlasma]
  have hd := hr (xPos S P D c.i) (yPos S P D c.j) z
  have hlt : ∀ a b : ℝ, ltb a b = decide (a < b) := fun _ _ => rfl
  have hgt : ∀ a b : ℝ, gtb a b = decide (b < a) := fun _ _ => rfl
  cases d3
  · have key : ((if p.shape = 1 then gtb (xPos S P D c.i + yPos S P D c.j) (lit (1/2)) &&
          ltb (xPos S P D c.i + yPos S P D c.j) (lit (5/2))
        else gtb (xPos S P D c.i + yPos S P D c.j) ((D.xmin + D.xmax) / lit 2 + D.ymin)) = true) ↔
        (if p.shape = 1 then 1 / 2 < xPos S P D c.i + yPos S P D c.j + 0 ∧
          xPos S P D c.i + yPos S P D c.j + 0 < 5 / 2
        else (D.xmin + D.xmax) / 2 + D.ymin + 0 < xPos S P D c.i + yPos S P D c.j + 0) := by
      by_cases hs : p.shape = 1
      · simp only [if_pos hs, hlt, hgt, Bool.and_eq_true, decide_eq_true_eq, add_zero]; rops
      · simp only [if_neg hs, hgt, decide_eq_true_eq, add_zero]; rops
    simp (decide := true) only [initVal, implode2, implodePlasma, if_false, key] at hd ⊢
    by_cases hc : (if p.shape = 1 then 1 / 2 < xPos S P D c.i + yPos S P D c.j + 0 ∧
          xPos S P D c.i + yPos S P D c.j + 0 < 5 / 2
        else (D.xmin + D.xmax) / 2 + D.ymin + 0 < xPos S P D c.i + yPos S P D c.j + 0)
    · simp (decide := true) only [if_pos hc, lastOf, List.foldl, if_true, if_false] at hd ⊢
      rops
      rw [hb1, hb2]
      refine ⟨?_, ?_, ?_, ?_, ?_, ?_, ?_, ?_⟩ <;> first | trivial | (field_simp; ring) | field_simp | simp
    · simp (decide := true) only [if_neg hc, lastOf, List.foldl, if_true, if_false] at hd ⊢
      rops
      refine ⟨?_, ?_, ?_, ?_, ?_, ?_, ?_, ?_⟩ <;> first | trivial | (field_simp; ring) | field_simp | simp
  · have key : ((if p.shape = 1 then gtb (xPos S P D c.i + yPos S P D c.j + zPos S P D c.k) (lit (1/2)) &&
          ltb (xPos S P D c.i + yPos S P D c.j + zPos S P D c.k) (lit (5/2))
        else gtb (xPos S P D c.i + yPos S P D c.j + zPos S P D c.k)
          ((D.xmin + D.xmax) / lit 2 + D.ymin + D.zmin)) = true) ↔
        (if p.shape = 1 then 1 / 2 < xPos S P D c.i + yPos S P D c.j + zPos S P D c.k ∧
          xPos S P D c.i + yPos S P D c.j + zPos S P D c.k < 5 / 2
        else (D.xmin + D.xmax) / 2 + D.ymin + D.zmin <
          xPos S P D c.i + yPos S P D c.j + zPos S P D c.k) := by
      by_cases hs : p.shape = 1
      · simp only [if_pos hs, hlt, hgt, Bool.and_eq_true, decide_eq_true_eq]; rops
      · simp only [if_neg hs, hgt, decide_eq_true_eq]; rops
    rw [hz rfl] at hd ⊢
    simp (decide := true) only [initVal, implode3, implodePlasma, if_true, key] at hd ⊢
    by_cases hc : (if p.shape = 1 then 1 / 2 < xPos S P D c.i + yPos S P D c.j + zPos S P D c.k ∧
          xPos S P D c.i + yPos S P D c.j + zPos S P D c.k < 5 / 2
        else (D.xmin + D.xmax) / 2 + D.ymin + D.zmin <
          xPos S P D c.i + yPos S P D c.j + zPos S P D c.k)
    · simp (decide := true) only [if_pos hc, lastOf, List.foldl, if_true, if_false] at hd ⊢
      rops
      rw [hb1, hb2, hb3]
      refine ⟨?_, ?_, ?_, ?_, ?_, ?_, ?_, ?_⟩ <;> first | trivial | (field_simp; ring) | field_simp | simp
    · simp (decide := true) only [if_neg hc, lastOf, List.foldl, if_true, if_false] at hd ⊢
      rops
      refine ⟨?_, ?_, ?_, ?_, ?_, ?_⟩ <;> first | trivial | (field_simp; ring) | field_simp | simp

theorem xPos_succ (i : Int) : xPos S P D (i + 1) = xPos S P D i + S.dx := by
  unfold xPos; rops; push_cast; ring
theorem yPos_succ (i : Int) : yPos S P D (i + 1) = yPos S P D i + S.dy := by
  unfold yPos; rops; push_cast; ring

theorem loop_ltb {x y : ℝ} {R : ℝ} : (ltb (sqrt (x * x + y * y)) R = true) ↔ √(x ^ 2 + y ^ 2) < R := by
  rw [show ∀ a b : ℝ, ltb a b = decide (a < b) from fun _ _ => rfl, decide_eq_true_eq]
  rops
  rw [← sq, ← sq]

theorem pot_at {p : FieldLoopParams ℝ} (c : Cell) (x : ℝ) :
    lastOf (fieldLoopPotential d3 S P D p c) (potZ d3) x = loopPotential p (xPos S P D c.i) (yPos S P D c.j) := by
  have e : sqrt (xPos S P D c.i * xPos S P D c.i + yPos S P D c.j * yPos S P D c.j) =
      √(xPos S P D c.i ^ 2 + yPos S P D c.j ^ 2) := by rops; rw [← sq, ← sq]
  unfold loopPotential fieldLoopPotential
  by_cases h : √(xPos S P D c.i ^ 2 + yPos S P D c.j ^ 2) < p.radius
  · rw [if_pos h]
    simp only [if_pos (loop_ltb.2 h)]
    simp only [e]
    cases d3 <;> rfl
  · rw [if_neg h]
    simp only [if_neg (fun h1 => h (loop_ltb.1 h1))]
    cases d3
    · show (lit 0 : ℝ) = 0
      rops
    · show (lit 0 : ℝ) = 0
      rops

theorem pot_zero {p : FieldLoopParams ℝ} (c : Cell) (x : ℝ) :
    lastOf (fieldLoopPotential true S P D p c) 0 x = 0 ∧ lastOf (fieldLoopPotential true S P D p c) 1 x = 0 := by
  have h0 : (lit 0 : ℝ) = 0 := by rops
  unfold fieldLoopPotential
  rcases ite_eq_or_eq (ltb (sqrt (xPos S P D c.i * xPos S P D c.i + yPos S P D c.j * yPos S P D c.j)) p.radius = true)
    [(2, p.amplitude * (p.radius - sqrt (xPos S P D c.i * xPos S P D c.i + yPos S P D c.j * yPos S P D c.j)))] []
    with e | e <;> simp only [e, if_true] <;> exact ⟨h0, h0⟩

/-- Vertical velocity of the field loop in the code. -/
noncomputable def loopRise (d3 : Bool) (P : Grid) (p : FieldLoopParams ℝ) : ℝ :=
  if d3 then p.vflow else p.vflow * P.nz / √(P.nx ^ 2 + P.ny ^ 2 + P.nz ^ 2 : ℝ)

/-- **C101**: the field loop; in 2D the pressure is too low by the kinetic energy of the vertical motion. -/
theorem C101_fieldLoop {p : FieldLoopParams ℝ} (h : BoxSetup d3 8 3 P B)
    (r : Runs (mhdSetup d3 S P D (.fieldLoop p)) m m') {G : ℝ → ℝ → ℝ → Plasma}
    (eG : G = fun x y z =>
      let g := loopPlasma S.dx S.dy (loopRise d3 P p) p x y z
      { g with p := if d3 then g.p else g.p - (S.gamma0 - 1) / 2 * g.rho * g.w ^ 2 })
    (hG : Unfloored S G) : PlasmaSamples d3 S P D m' G := by
  have hg : S.gamma0 - 1 ≠ 0 := sub_ne_zero.2 hG.2.1
  have hr : ∀ x y, (if √(x ^ 2 + y ^ 2) < p.radius then p.density_in else 1) ≠ 0 := by
    intro x y
    have := (hG.2.2.2 x y 0).1
    rw [eG] at this
    exact (lt_of_lt_of_le hG.1 this).ne'
  have hiso : ¬ (gtb S.cIso (lit 0) = true) := by
    rw [show gtb S.cIso (lit 0) = decide ((lit 0 : ℝ) < S.cIso) from rfl, decide_eq_true_eq]
    rops
    exact not_lt.2 hG.2.2.1
  subst eG
  have h5 : √(5 : ℝ) * √5 = 5 := Real.mul_self_sqrt (by norm_num)
  have p5 : 0 < √(5 : ℝ) := Real.sqrt_pos.2 (by norm_num)
  have hcos : (lit 2 / sqrt (lit 5) : ℝ) = 2 / √5 := by rops
  have hsin : (sqrt (lit 1 - 2 / √5 * (2 / √5)) : ℝ) = 1 / √5 := by
    rops
    rw [show (1 : ℝ) - 2 / √5 * (2 / √5) = (1 / √5) ^ 2 by
      field_simp
      nlinarith [h5], Real.sqrt_sq (by positivity)]
  refine plasma_of h r hG fun c z hz ic ix iy iz => ?_
  have hd := hr (xPos S P D c.i) (yPos S P D c.j)
  have er : (if ltb (sqrt (xPos S P D c.i * xPos S P D c.i + yPos S P D c.j * yPos S P D c.j)) p.radius = true
      then p.density_in else lit 1) =
      if √(xPos S P D c.i ^ 2 + yPos S P D c.j ^ 2) < p.radius then p.density_in else 1 := by
    rw [show (lit 1 : ℝ) = 1 by rops]
    simp only [loop_ltb]
  cases d3
  · have hA : ∀ (c : Cell) (x : ℝ), lastOf (fieldLoopPotential false S P D p c) 0 x =
        loopPotential p (xPos S P D c.i) (yPos S P D c.j) := fun c x => pot_at (d3 := false) c x
    have hsq : sqrt (lit 1 * lit ((P.nx * P.nx + P.ny * P.ny + P.nz * P.nz : Int) : ℚ)) =
        √(P.nx ^ 2 + P.ny ^ 2 + P.nz ^ 2 : ℝ) := by
      rops; push_cast; rw [one_mul, sq, sq, sq]
    simp (decide := true) only [initVal, loopEnergy, if_neg hiso, if_pos ic, if_pos ix, if_pos iy, curlList2, hA,
      if_true, if_false]
    simp (decide := true) only [fieldLoopFlow, lastOf, List.foldl, List.cons_append, List.nil_append, loopPlasma, loopRise, if_false, if_true,
      Cell.up, xPos_succ, yPos_succ, hcos, hsin, er, hsq, sqr]
    generalize (if √(xPos S P D c.i ^ 2 + yPos S P D c.j ^ 2) < p.radius then p.density_in else (1 : ℝ)) = d at *
    generalize √(P.nx ^ 2 + P.ny ^ 2 + P.nz ^ 2 : ℝ) = w
    generalize √(5 : ℝ) = w5 at *
    rops
    have k2 : ∀ R : ℝ, (1 - (S.gamma0 - 1) / 2 * d * R ^ 2) / (S.gamma0 - 1) =
        1 / (S.gamma0 - 1) - d * R ^ 2 / 2 := by intro R; field_simp
    have k1 : 1 / 2 * (d * p.vflow * (2 / w5) * (d * p.vflow * (2 / w5)) +
        d * p.vflow * (1 / w5) * (d * p.vflow * (1 / w5))) / d =
        d * ((p.vflow * 2 / w5) ^ 2 + (p.vflow / w5) ^ 2) / 2 := by field_simp
    refine ⟨?_, ?_, ?_, ?_, ?_, ?_, ?_, ?_⟩ <;> first | trivial | ring1 | (rw [k2, k1]; ring1) | (push_cast; ring1)
  · have hA : ∀ (c : Cell) (x : ℝ), lastOf (fieldLoopPotential true S P D p c) 2 x =
        loopPotential p (xPos S P D c.i) (yPos S P D c.j) := fun c x => pot_at (d3 := true) c x
    have h0 := fun (c : Cell) (x : ℝ) => (pot_zero (S := S) (P := P) (D := D) (p := p) c x).1
    have h1 := fun (c : Cell) (x : ℝ) => (pot_zero (S := S) (P := P) (D := D) (p := p) c x).2
    have iz := iz rfl
    simp (decide := true) only [initVal, loopEnergy, if_neg hiso, if_pos ic, if_pos ix, if_pos iy, if_pos iz, curlList3,
      hA, h0, h1, if_true, if_false]
    simp (decide := true) only [fieldLoopFlow, lastOf, List.foldl, List.cons_append, List.nil_append, loopPlasma, loopRise, if_false,
      if_true, Cell.up, xPos_succ, yPos_succ, hcos, hsin, er, sqr]
    generalize (if √(xPos S P D c.i ^ 2 + yPos S P D c.j ^ 2) < p.radius then p.density_in else (1 : ℝ)) = d at *
    generalize √(5 : ℝ) = w5 at *
    rops
    have k1 : 1 / 2 * (d * p.vflow * (2 / w5) * (d * p.vflow * (2 / w5)) +
        d * p.vflow * (1 / w5) * (d * p.vflow * (1 / w5)) + d * p.vflow * (d * p.vflow)) / d =
        d * ((p.vflow * 2 / w5) ^ 2 + (p.vflow / w5) ^ 2 + p.vflow ^ 2) / 2 := by field_simp
    refine ⟨?_, ?_, ?_, ?_, ?_, ?_, ?_, ?_⟩ <;> first | trivial | ring1 | (rw [k1]; ring1)

/-- **C101** is false for the field loop in 2D: the energy lacks the flow along `z`, so the pressure is below the
documented 1 in every cell. -/
theorem C101_fieldLoop2_wrong {p : FieldLoopParams ℝ} (h : BoxSetup false 8 3 P B)
    (r : Runs (mhdSetup false S P D (.fieldLoop p)) m m') {G : ℝ → ℝ → ℝ → Plasma}
    (eG : G = fun x y z =>
      let g := loopPlasma S.dx S.dy (loopRise false P p) p x y z
      { g with p := g.p - (S.gamma0 - 1) / 2 * g.rho * g.w ^ 2 })
    (hG : Unfloored S G) (hg : 1 < S.gamma0) (hv : p.vflow ≠ 0) (hn : P.nz ≠ 0) {i j : Nat}
    (hi : i + 1 < P.nx.toNat) (hj : j + 1 < P.ny.toNat) :
    m' ⟨aQ, P.ghostWidth + i, P.ghostWidth + j, 0, 1⟩ < 1 ∧
    ¬ PlasmaSamples false S P D m' (loopPlasma S.dx S.dy (loopRise false P p) p) := by
  have hlt : m' ⟨aQ, P.ghostWidth + i, P.ghostWidth + j, 0, 1⟩ < 1 := by
    refine lt_of_eq_of_lt
      (C101_fieldLoop h r (by rw [eG]; rfl) hG i j 0 hi hj (fun h => by cases h) (fun _ => rfl)).2.1 ?_
    have hr := lt_of_lt_of_le hG.1 (hG.2.2.2 (centre D.xmin S.dx P.nx D.i_mpi i)
      (centre D.ymin S.dy P.ny D.j_mpi j) (centre D.zmin S.dz P.nz D.k_mpi (0 : Nat))).1
    subst eG
    simp only [loopPlasma, loopRise, Bool.false_eq_true, if_false] at hr ⊢
    have hn' : (P.nz : ℝ) ≠ 0 := by exact_mod_cast hn
    have hw : 0 < √(P.nx ^ 2 + P.ny ^ 2 + P.nz ^ 2 : ℝ) := by
      refine Real.sqrt_pos.2 ?_
      have := pow_pos (abs_pos.2 hn') 2
      rw [sq_abs] at this
      nlinarith [sq_nonneg (P.nx : ℝ), sq_nonneg (P.ny : ℝ)]
    have hq : 0 < (p.vflow * P.nz / √(P.nx ^ 2 + P.ny ^ 2 + P.nz ^ 2 : ℝ)) ^ 2 :=
      sq_pos_of_ne_zero (div_ne_zero (mul_ne_zero hv hn') hw.ne')
    have : 0 < (S.gamma0 - 1) / 2 := by linarith
    have := mul_pos (mul_pos this hr) hq
    linarith
  refine ⟨hlt, fun hp => ?_⟩
  have h1 : m' ⟨aQ, P.ghostWidth + i, P.ghostWidth + j, 0, 1⟩ = 1 :=
    (hp i j 0 hi hj (fun h => by cases h) (fun _ => rfl)).2.1
  exact hlt.ne h1

/-- **C101**: between gases at rest the implosion is the documented one. -/
theorem C101_implode_rest {p : ImplodeParams ℝ} (h : BoxSetup d3 8 3 P B)
    (r : Runs (mhdSetup d3 S P D (.implode p)) m m')
    (hB : p.Bx_in = p.Bx_out ∧ p.By_in = p.By_out ∧ p.Bz_in = p.Bz_out)
    (hi : p.u_in = 0 ∧ p.v_in = 0 ∧ p.w_in = 0) (ho : p.u_out = 0 ∧ p.v_out = 0 ∧ p.w_out = 0)
    (hG : Unfloored S (implodePlasma d3 D p)) : PlasmaSamples d3 S P D m' (implodePlasma d3 D p) := by
  refine C101_implode h r hB ?_ hG
  obtain ⟨i1, i2, i3⟩ := hi
  obtain ⟨o1, o2, o3⟩ := ho
  have key : ∀ x y z, (implodePlasma d3 D p x y z).u = 0 ∧ (implodePlasma d3 D p x y z).v = 0 ∧
      (implodePlasma d3 D p x y z).w = 0 := by
    intro x y z
    simp only [implodePlasma, i1, i2, i3, o1, o2, o3, ite_self]
    split_ifs <;> simp
  funext x y z
  obtain ⟨k1, k2, k3⟩ := key x y z
  have e : ∀ g : Plasma, g.u = 0 → g.v = 0 → g.w = 0 → g =
      { g with
        u := g.u / g.rho
        v := g.v / g.rho
        w := g.w / g.rho
        p := g.p + (S.gamma0 - 1) / 2 * (g.rho - 1 / g.rho) * (g.u ^ 2 + g.v ^ 2 + g.w ^ 2) } := by
    rintro ⟨⟨a, b, c, d, e⟩, f, g, h⟩ h1 h2 h3
    simp only at h1 h2 h3
    subst h1 h2 h3
    norm_num
  exact e _ k1 k2 k3

/-- **C101** is false for gases in motion: where the density is not 1, the velocity is not the one asked for. -/
theorem C101_implode_wrong {p : ImplodeParams ℝ} (h : BoxSetup d3 8 3 P B)
    (r : Runs (mhdSetup d3 S P D (.implode p)) m m')
    (hB : p.Bx_in = p.Bx_out ∧ p.By_in = p.By_out ∧ p.Bz_in = p.Bz_out) {G : ℝ → ℝ → ℝ → Plasma}
    (eG : G = fun x y z =>
      let g := implodePlasma d3 D p x y z
      { g with
        u := g.u / g.rho
        v := g.v / g.rho
        w := g.w / g.rho
        p := g.p + (S.gamma0 - 1) / 2 * (g.rho - 1 / g.rho) * (g.u ^ 2 + g.v ^ 2 + g.w ^ 2) })
    (hG : Unfloored S G) {i j k : Nat} (hi : i + 1 < P.nx.toNat) (hj : j + 1 < P.ny.toNat)
    (hk : d3 = true → k + 1 < P.nz.toNat) (hk0 : d3 = false → k = 0) {x y z : ℝ}
    (hx : x = centre D.xmin S.dx P.nx D.i_mpi i) (hy : y = centre D.ymin S.dy P.ny D.j_mpi j)
    (hz : z = centre D.zmin S.dz P.nz D.k_mpi k) (hu : (implodePlasma d3 D p x y z).u ≠ 0)
    (hd : (implodePlasma d3 D p x y z).rho ≠ 1) : ¬ PlasmaSamples d3 S P D m' (implodePlasma d3 D p) := by
  intro hp
  have e1 := (hp i j k hi hj hk hk0).2.2.1
  have e2 := (C101_implode h r hB eG hG i j k hi hj hk hk0).2.2.1
  have hr : (implodePlasma d3 D p x y z).rho ≠ 0 := by
    have := (hG.2.2.2 x y z).1
    rw [eG] at this
    exact (lt_of_lt_of_le hG.1 this).ne'
  rw [e1] at e2
  subst eG
  simp only [← hx, ← hy, ← hz] at e2
  rw [eq_div_iff hr] at e2
  exact hd (mul_left_cancel₀ hu (by rw [e2, mul_one]))

/-- Conversion of an empty cell. -/
theorem prim_empty {na nb nc : ℝ} {u : MState ℝ} (hs : 0 < S.smallr) (hd : u.d = 0) (hu : u.u = 0) (hv : u.v = 0)
    (hw : u.w = 0) :
    (constoprim_mhd S u na nb nc).1.d = S.smallr ∧ (constoprim_mhd S u na nb nc).1.u = 0 ∧
      (constoprim_mhd S u na nb nc).1.v = 0 ∧ (constoprim_mhd S u na nb nc).1.w = 0 := by
  unfold constoprim_mhd
  simp only [hd, hu, hv, hw]
  rops
  simp only [max_eq_right hs.le, zero_div, zero_mul, max_eq_left hs.le]
  split_ifs <;> simp

/-- **C101** is false for shear layers with no kind of perturbation selected, and for the linear waves in 2D:
nothing is set up, and the solver starts from gas of the lowest density at rest. -/
theorem C101_nothing {Q : MhdProblem ℝ} (h : BoxSetup d3 8 3 P B) (hm : Fresh m)
    (r : Runs (mhdSetup d3 S P D Q) m m') (hs : 0 < S.smallr)
    (hQ : (∃ p rnd, Q = .kelvinHelmholtz p rnd ∧ p.p_rand = false ∧ p.p_sine_rob = false ∧ p.p_sine = false) ∨
      d3 = false ∧ ∃ p, Q = .wave p)
    {i j k : Nat} (hi : i + 1 < P.nx.toNat) (hj : j + 1 < P.ny.toNat)
    (hk : d3 = true → k + 1 < P.nz.toNat) (hk0 : d3 = false → k = 0) :
    let q := fun v => m' ⟨aQ, (cell d3 P i j k).i, (cell d3 P i j k).j, (cell d3 P i j k).k, v⟩
    q 0 = S.smallr ∧ q 2 = 0 ∧ q 3 = 0 ∧ q 4 = 0 := by
  have f : ∀ a, m a = lit 0 := hm
  have z : ∀ c v, initVal d3 S P D m Q c v = 0 := by
    intro c v
    rcases hQ with ⟨p, rnd, rfl, h1, h2, h3⟩ | ⟨rfl, p, rfl⟩
    · cases d3 <;> simp (decide := true) only [initVal, kelvinHelmholtz2, kelvinHelmholtz3, h1, h2, h3, if_false,
        if_true, lastOf, List.foldl, f] <;> rops
    · simp (decide := true) only [initVal, if_false, f]
      rops
  have e := init_prim h r hi hj hk hk0
  obtain ⟨k0, k2, k3, k4⟩ := prim_empty (S := S) (na := (initState d3 S P D m Q ((cell d3 P i j k).up .x)).a)
    (nb := (initState d3 S P D m Q ((cell d3 P i j k).up .y)).b)
    (nc := if d3 then (initState d3 S P D m Q ((cell d3 P i j k).up .z)).c else lit 0)
    (u := initState d3 S P D m Q (cell d3 P i j k)) hs (z _ _) (z _ _) (z _ _) (z _ _)
  exact ⟨(congrArg MState.d e).trans k0, (congrArg MState.u e).trans k2, (congrArg MState.v e).trans k3,
    (congrArg MState.w e).trans k4⟩

/-- **C101** is false for randomly perturbed shear layers in 3D: there is no field. -/
theorem C101_random3 {p : KHParams ℝ} {rnd : Cell → Nat → ℝ} (h : BoxSetup true 8 3 P B) (hm : Fresh m)
    (r : Runs (mhdSetup true S P D (.kelvinHelmholtz p rnd)) m m') (hp : p.p_rand = true)
    {i j k : Nat} (hi : i + 1 < P.nx.toNat) (hj : j + 1 < P.ny.toNat) (hk : k + 1 < P.nz.toNat) :
    let q := fun v => m' ⟨aQ, (cell true P i j k).i, (cell true P i j k).j, (cell true P i j k).k, v⟩
    q 5 = 0 ∧ q 6 = 0 ∧ q 7 = 0 := by
  have f : ∀ a, m a = lit 0 := hm
  have z : ∀ c, initVal true S P D m (.kelvinHelmholtz p rnd) c 5 = 0 ∧
      initVal true S P D m (.kelvinHelmholtz p rnd) c 6 = 0 ∧
      initVal true S P D m (.kelvinHelmholtz p rnd) c 7 = 0 := by
    intro c
    simp (decide := true) only [initVal, kelvinHelmholtz3, hp, if_false, if_true, lastOf, List.foldl, f]
    rops
    trivial
  have e := init_prim h r hi hj (fun _ => hk) (fun h => by cases h)
  have b : ∀ {u : MState ℝ} {na nb nc : ℝ}, (constoprim_mhd S u na nb nc).1.a = (u.a + na) / 2 ∧
      (constoprim_mhd S u na nb nc).1.b = (u.b + nb) / 2 ∧
      (constoprim_mhd S u na nb nc).1.c = (u.c + nc) / 2 := by
    intro u na nb nc
    unfold constoprim_mhd
    rops
    split_ifs <;> refine ⟨?_, ?_, ?_⟩ <;> ring
  refine ⟨(congrArg MState.a e).trans ?_, (congrArg MState.b e).trans ?_, (congrArg MState.c e).trans ?_⟩
  · rw [primOf, b.1]; simp only [initState, (z _).1]; norm_num
  · rw [primOf, b.2.1]; simp only [initState, (z _).2.1]; norm_num
  · rw [primOf, b.2.2]; simp only [initState, (z _).2.2, if_true]; norm_num

end problems

/-! ### Examples -/

theorem plasma_run (d3 : Bool) (b : BC) (D : Domain ℝ) (Q : MhdProblem ℝ) (m : Addr → ℝ) :
    ∃ m', Runs (mhdSetup d3 mhdSettings (mhdBox b) D Q) m m' := by
  obtain ⟨m1, m2, y, -⟩ := mhd_setup (S := mhdSettings) (D := D) (impl := 0) (mhdBox_setup d3 b) Q m
  exact ⟨m2, y.run⟩

theorem plasma_floor {G : ℝ → ℝ → ℝ → Plasma} (h : ∀ x y z, 1 / 8 ≤ (G x y z).rho ∧ (G x y z).rho ≤ 10 ∧
    1 / 10 ≤ (G x y z).p) : Unfloored mhdSettings G := by
  refine ⟨by norm_num [mhdSettings, exampleMhd, exampleSettings], by norm_num [mhdSettings, exampleMhd],
    by norm_num [mhdSettings, exampleMhd], fun x y z => ?_⟩
  obtain ⟨h1, h2, h3⟩ := h x y z
  have e1 : mhdSettings.smallr = 1 / 10 ^ 8 := rfl
  have e2 : mhdSettings.smallp = 1 / 10 ^ 6 := rfl
  rw [e1, e2]
  constructor
  · linarith
  · linarith

theorem mhd_gamma : mhdSettings.gamma0 = 2 := rfl

example (m : Addr → ℝ) (D : Domain ℝ) : ∃ m',
    Runs (mhdSetup true mhdSettings (mhdBox .periodic) D (.blast ⟨1/4, 1/2, 1/2, 1/2, 2, 1, 10, 1/10⟩)) m m' ∧
    PlasmaSamples true mhdSettings (mhdBox .periodic) D m'
      (blastPlasma true ⟨1/4, 1/2, 1/2, 1/2, 2, 1, 10, 1/10⟩) := by
  obtain ⟨m', r⟩ := plasma_run true .periodic D (.blast ⟨1/4, 1/2, 1/2, 1/2, 2, 1, 10, 1/10⟩) m
  refine ⟨m', r, C101_blast3 (mhdBox_setup true .periodic) r (by norm_num) (plasma_floor fun x y z => ?_)⟩
  simp only [blastPlasma, blastGas]
  split_ifs <;> norm_num

example (m : Addr → ℝ) (D : Domain ℝ) : ∃ m',
    Runs (mhdSetup false mhdSettings (mhdBox .periodic) D (.blast ⟨1/4, 1/2, 1/2, 1/2, 2, 1, 10, 1/10⟩)) m m' ∧
    ¬ PlasmaSamples false mhdSettings (mhdBox .periodic) D m'
      (blastPlasma false ⟨1/4, 1/2, 1/2, 1/2, 2, 1, 10, 1/10⟩) := by
  obtain ⟨m', r⟩ := plasma_run false .periodic D (.blast ⟨1/4, 1/2, 1/2, 1/2, 2, 1, 10, 1/10⟩) m
  refine ⟨m', r, (C101_blast2_wrong (mhdBox_setup false .periodic) r (by norm_num) (plasma_floor fun x y z => ?_)
    (i := 0) (j := 0) (by decide) (by decide)).2.2⟩
  simp only [blastSeen, blastPlasma, blastGas, mhd_gamma]
  split_ifs <;> norm_num

example (d3 : Bool) (m : Addr → ℝ) (D : Domain ℝ) : ∃ m',
    Runs (mhdSetup d3 mhdSettings (mhdBox .periodic) D (.orszagTang 1)) m m' ∧
    PlasmaSamples d3 mhdSettings (mhdBox .periodic) D m' (otPlasma d3 2 1 D) := by
  obtain ⟨m', r⟩ := plasma_run d3 .periodic D (.orszagTang 1) m
  refine ⟨m', r, C101_orszagTang (mhdBox_setup d3 .periodic) r (plasma_floor fun x y z => ?_)⟩
  have h3 := Real.two_le_pi
  have h4 := Real.pi_le_four
  simp only [otPlasma, mhd_gamma]
  refine ⟨?_, ?_, ?_⟩
  · rw [le_div_iff₀ (by linarith)]; linarith
  · rw [div_le_iff₀ (by linarith)]; linarith
  · rw [le_div_iff₀ (by linarith)]; linarith

theorem layers_mem (d h : ℝ) : 0 ≤ layers d h ∧ layers d h ≤ 2 := by
  unfold layers
  have e1 := Real.exp_pos (2 * (h - 1 / 4) / d)
  have e2 := Real.exp_pos (2 * (3 / 4 - h) / d)
  have a1 : 1 / (1 + Real.exp (2 * (h - 1 / 4) / d)) ≤ 1 := by
    rw [div_le_one (by linarith)]; linarith
  have a2 : 1 / (1 + Real.exp (2 * (3 / 4 - h) / d)) ≤ 1 := by
    rw [div_le_one (by linarith)]; linarith
  constructor
  · positivity
  · linarith

example (d3 : Bool) (D : Domain ℝ) (rnd : Cell → Nat → ℝ) : ∃ m',
    Runs (mhdSetup d3 mhdSettings (mhdBox .periodic) D
      (.kelvinHelmholtz ⟨1, 2, 5/2, false, true, false, 1/2, -1/2, 1/10, 2, 1/10, 1/20⟩ rnd)) (fun _ => 0) m' ∧
    PlasmaSamples d3 mhdSettings (mhdBox .periodic) D m'
      (shearPlasma d3 ⟨1, 2, 5/2, false, true, false, 1/2, -1/2, 1/10, 2, 1/10, 1/20⟩) := by
  obtain ⟨m', r⟩ := plasma_run d3 .periodic D
    (.kelvinHelmholtz ⟨1, 2, 5/2, false, true, false, 1/2, -1/2, 1/10, 2, 1/10, 1/20⟩ rnd) (fun _ => 0)
  refine ⟨m', r, C101_shear (mhdBox_setup d3 .periodic) (fun a => by rops) r rfl rfl (plasma_floor fun x y z => ?_)⟩
  have h1 := layers_mem (1 / 20) y
  have h2 := layers_mem (1 / 20) z
  cases d3 <;> simp only [shearPlasma, shearGas2, shearGas3, if_true, Bool.false_eq_true, if_false] <;>
    refine ⟨?_, ?_, ?_⟩ <;> linarith

example (d3 : Bool) (D : Domain ℝ) (rnd : Cell → Nat → ℝ) : ∃ m',
    Runs (mhdSetup d3 mhdSettings (mhdBox .periodic) D
      (.kelvinHelmholtz ⟨1, 2, 5/2, true, false, false, 1/2, -1/2, 1/10, 2, 1/10, 1/20⟩ rnd)) (fun _ => 0) m' ∧
    m' ⟨aQ, 3, 3, if d3 then 3 else 0, 5⟩ = 1 / 2 := by
  obtain ⟨m', r⟩ := plasma_run d3 .periodic D
    (.kelvinHelmholtz ⟨1, 2, 5/2, true, false, false, 1/2, -1/2, 1/10, 2, 1/10, 1/20⟩ rnd) (fun _ => 0)
  have key := C101_sharp (mhdBox_setup d3 .periodic) (fun a => by rops) r rfl rfl rfl rfl
    (plasma_floor fun x y z => by
      cases d3 <;> simp only [sharpGas, if_true, Bool.false_eq_true, if_false] <;> split_ifs <;> norm_num)
    0 0 0 (by decide) (by decide) (fun _ => by decide) (fun _ => rfl)
  refine ⟨m', r, ?_⟩
  have := key.2.2.2.2.2.1
  cases d3 <;> exact this

example (d3 : Bool) (m : Addr → ℝ) : ∃ m',
    Runs (mhdSetup d3 mhdSettings (mhdBox .periodic) ⟨0, 4, 0, 3, 0, 3, 0, 0, 0⟩ (.rotor ⟨2, 3, 2, 1, 1⟩)) m m' ∧
    ¬ PlasmaSamples d3 mhdSettings (mhdBox .periodic) ⟨0, 4, 0, 3, 0, 3, 0, 0, 0⟩ m'
      (rotorPlasma ⟨0, 4, 0, 3, 0, 3, 0, 0, 0⟩ ⟨2, 3, 2, 1, 1⟩) := by
  obtain ⟨m', r⟩ := plasma_run d3 .periodic ⟨0, 4, 0, 3, 0, 3, 0, 0, 0⟩ (.rotor ⟨2, 3, 2, 1, 1⟩) m
  refine ⟨m', r, C101_rotor_wrong (mhdBox_setup d3 .periodic) r rfl (plasma_floor fun x y z => ?_) (by norm_num)
    (by norm_num) (by norm_num) (i := 1) (j := 0) (k := 0) rfl rfl ?_ ?_ (by decide) (by decide) (fun _ => by decide)
    (fun _ => rfl)⟩
  · simp only [rotorPlasma]
    split_ifs with h1 h2
    · norm_num
    · push Not at h1
      refine ⟨?_, ?_, by norm_num⟩
      · rw [show (3 : ℝ) - 2 = 1 by norm_num, div_one]; linarith
      · rw [show (3 : ℝ) - 2 = 1 by norm_num, div_one]; linarith
    · norm_num
  · rw [Real.sqrt_lt' (by norm_num)]
    norm_num [centre, mhdSettings, exampleMhd, exampleSettings, mhdBox]
  · norm_num [centre, mhdSettings, exampleMhd, exampleSettings, mhdBox]

example (d3 : Bool) (m : Addr → ℝ) (D : Domain ℝ) : ∃ m',
    Runs (mhdSetup d3 mhdSettings (mhdBox .reflecting) D
      (.implode ⟨1, 1, 0, 0, 0, 1, 0, 0, 1/8, 7/50, 0, 0, 0, 1, 0, 0, 0⟩)) m m' ∧
    PlasmaSamples d3 mhdSettings (mhdBox .reflecting) D m'
      (implodePlasma d3 D ⟨1, 1, 0, 0, 0, 1, 0, 0, 1/8, 7/50, 0, 0, 0, 1, 0, 0, 0⟩) := by
  obtain ⟨m', r⟩ := plasma_run d3 .reflecting D
    (.implode ⟨1, 1, 0, 0, 0, 1, 0, 0, 1/8, 7/50, 0, 0, 0, 1, 0, 0, 0⟩) m
  refine ⟨m', r, C101_implode_rest (mhdBox_setup d3 .reflecting) r ⟨rfl, rfl, rfl⟩ ⟨rfl, rfl, rfl⟩ ⟨rfl, rfl, rfl⟩
    (plasma_floor fun x y z => ?_)⟩
  simp only [implodePlasma]
  split_ifs <;> norm_num

example (m : Addr → ℝ) (D : Domain ℝ) : ∃ m',
    Runs (mhdSetup true mhdSettings (mhdBox .reflecting) D
      (.implode ⟨2, 1, 1, 0, 0, 1, 0, 0, 2, 1, 1, 0, 0, 1, 0, 0, 0⟩)) m m' ∧
    ¬ PlasmaSamples true mhdSettings (mhdBox .reflecting) D m'
      (implodePlasma true D ⟨2, 1, 1, 0, 0, 1, 0, 0, 2, 1, 1, 0, 0, 1, 0, 0, 0⟩) := by
  obtain ⟨m', r⟩ := plasma_run true .reflecting D
    (.implode ⟨2, 1, 1, 0, 0, 1, 0, 0, 2, 1, 1, 0, 0, 1, 0, 0, 0⟩) m
  refine ⟨m', r, C101_implode_wrong (mhdBox_setup true .reflecting) r ⟨rfl, rfl, rfl⟩ rfl
    (plasma_floor fun x y z => ?_) (i := 0) (j := 0) (k := 0) (by decide) (by decide) (fun _ => by decide)
    (fun _ => rfl) rfl rfl rfl ?_ ?_⟩
  · simp only [implodePlasma, mhd_gamma]
    split_ifs <;> norm_num
  · simp only [implodePlasma]
    split_ifs <;> norm_num
  · simp only [implodePlasma]
    split_ifs <;> norm_num

example (d3 : Bool) (m : Addr → ℝ) (D : Domain ℝ) : ∃ m',
    Runs (mhdSetup d3 mhdSettings (mhdBox .periodic) D (.fieldLoop ⟨1, 1, 1/1000, 1⟩)) m m' ∧
    m' ⟨aQ, 3, 3, if d3 then 3 else 0, 2⟩ = 2 / √5 := by
  obtain ⟨m', r⟩ := plasma_run d3 .periodic D (.fieldLoop ⟨1, 1, 1/1000, 1⟩) m
  have key := C101_fieldLoop (mhdBox_setup d3 .periodic) r rfl (plasma_floor fun x y z => ?_)
    0 0 0 (by decide) (by decide) (fun _ => by decide) (fun _ => rfl)
  · refine ⟨m', r, ?_⟩
    have := key.2.2.1
    simp only [loopPlasma, one_mul] at this
    cases d3 <;> exact this
  · simp only [loopPlasma, ite_self, mhd_gamma]
    refine ⟨by norm_num, by norm_num, ?_⟩
    cases d3
    · simp only [Bool.false_eq_true, if_false, loopRise]
      have e : √(((mhdBox .periodic).nx : ℝ) ^ 2 + ((mhdBox .periodic).ny : ℝ) ^ 2 +
          ((mhdBox .periodic).nz : ℝ) ^ 2) ^ 2 = 34 := by
        rw [Real.sq_sqrt (by positivity)]
        norm_num [mhdBox]
      rw [div_pow, e]
      norm_num [mhdBox]
    · simp only [if_true]; norm_num

example (D : Domain ℝ) (p : WaveParams ℝ) : ∃ m',
    Runs (mhdSetup false mhdSettings (mhdBox .periodic) D (.wave p)) (fun _ => 0) m' ∧
    m' ⟨aQ, 3, 3, 0, 0⟩ = 1 / 10 ^ 8 := by
  obtain ⟨m', r⟩ := plasma_run false .periodic D (.wave p) (fun _ => 0)
  exact ⟨m', r, (C101_nothing (mhdBox_setup false .periodic) (fun a => by rops) r
    (by norm_num [mhdSettings, exampleMhd, exampleSettings]) (Or.inr ⟨rfl, p, rfl⟩) (i := 0) (j := 0) (k := 0)
    (by decide) (by decide) (fun h => by cases h) (fun _ => rfl)).1⟩

example (D : Domain ℝ) (rnd : Cell → Nat → ℝ) : ∃ m',
    Runs (mhdSetup true mhdSettings (mhdBox .periodic) D
      (.kelvinHelmholtz ⟨1, 2, 5/2, false, false, true, 1/2, -1/2, 1/10, 2, 1/10, 1/20⟩ rnd)) (fun _ => 0) m' ∧
    m' ⟨aQ, 3, 3, 3, 5⟩ = 0 := by
  obtain ⟨m', r⟩ := plasma_run true .periodic D
    (.kelvinHelmholtz ⟨1, 2, 5/2, false, false, true, 1/2, -1/2, 1/10, 2, 1/10, 1/20⟩ rnd) (fun _ => 0)
  exact ⟨m', r, (C101_random3 (mhdBox_setup true .periodic) (fun a => by rops) r rfl (i := 0) (j := 0) (k := 0)
    (by decide) (by decide) (by decide)).1⟩

end Verif
