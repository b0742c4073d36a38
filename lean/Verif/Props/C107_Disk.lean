import Verif.Props.C106_Hydrostatic
import Verif.Spec.Disk
import Verif.Spec.CheckedTrig
import Mathlib.Analysis.SpecialFunctions.Pow.Deriv
import Mathlib.Analysis.SpecialFunctions.ExpDeriv
import Mathlib.Analysis.SpecialFunctions.Sqrt

/-! # C107: the disk around a point mass -/

namespace Verif

open Spec ROps TOps

variable {d3 : Bool} {S : Settings ℝ} {P : Grid} {D : Domain ℝ} {B : Sides}
  {m m' : Addr → ℝ} {p : DiskParams ℝ} {g : PointSourceGravity ℝ}

section helpers

theorem cs2_eq (hR : 0 < p.radius) (hi : 0 < p.radius_inner) (r : ℝ) :
    p.radial_speed_of_sound r * p.radial_speed_of_sound r = diskCs2 p r := by
  unfold DiskParams.radial_speed_of_sound diskCs2
  simp only [show ∀ a b : ℝ, ltb a b = decide (a < b) from fun _ _ => rfl, decide_eq_true_eq]
  have key : ∀ a : ℝ, 0 < a → p.ref_sound_speed / sqrt (a / p.radius) *
      (p.ref_sound_speed / sqrt (a / p.radius)) = p.ref_sound_speed ^ 2 * p.radius / a := by
    intro a ha
    rops
    rw [div_mul_div_comm, Real.mul_self_sqrt (by positivity)]
    field_simp
  split_ifs with h
  · rw [max_eq_right h.le]; exact key _ hi
  · rw [max_eq_left (not_lt.1 h)]; exact key _ (lt_of_lt_of_le hi (not_lt.1 h))

theorem disk_state (h : BoxSetup d3 (hydroVars d3) 2 P B)
    (r : Runs (hydroSetup d3 S P D (.disk p g)) m m') (hR : 0 < p.radius) (hin : 0 < p.radius_inner)
    {A i j k : Nat} (hA : A = aU ∨ A = aU2)
    (hi : i < P.nx.toNat) (hj : j < P.ny.toNat) (hk : k < depth d3 P) {x y z R : ℝ}
    (hx : x = centre D.xmin S.dx P.nx D.i_mpi i - p.xc) (hy : y = centre D.ymin S.dy P.ny D.j_mpi j - p.yc)
    (hz : z = if d3 then centre D.zmin S.dz P.nz D.k_mpi k - p.zc else 0) (hr : R = √(x ^ 2 + y ^ 2)) :
    ∃ rho, 1 / 1000000 ≤ rho ∧ SameState d3 (initialAt d3 P m' A i j k)
      ⟨rho, diskCs2 p R * rho / (S.gamma0 - 1) + rho * diskOmega2 p g R z * (R ^ 2 + g.eps ^ 2) / 2,
        -(y * (√(R ^ 2 + g.eps ^ 2) / R)) * √(max (diskOmega2 p g R z) 0) * rho,
        x * (√(R ^ 2 + g.eps ^ 2) / R) * √(max (diskOmega2 p g R z) 0) * rho, 0⟩ ∧
      (R ≤ p.radius → |z| ≤ p.radius / 2 → g.eps = 0 → rho = max (diskRho p g R z) (1 / 1000000)) := by
  have ex : xAt S P D (cell d3 P i j k).i - p.xc = x := by rw [hx]; exact congrArg (· - p.xc) (xAt_centre i)
  have ey : yAt S P D (cell d3 P i j k).j - p.yc = y := by rw [hy]; exact congrArg (· - p.yc) (yAt_centre j)
  have ez : (if d3 then zAt S P D (cell d3 P i j k).k - p.zc else lit 0) = z := by
    rw [hz]
    cases d3
    · simp only [Bool.false_eq_true, if_false]; rops
    · simp only [if_true, cell]; exact congrArg (· - p.zc) (zAt_centre k)
  have hR0 : 0 ≤ R := hr ▸ Real.sqrt_nonneg _
  have hR2 : x * x + y * y = R ^ 2 := by
    rw [hr, Real.sq_sqrt (add_nonneg (sq_nonneg x) (sq_nonneg y))]; ring
  have hsR : √(R ^ 2) = R := Real.sqrt_sq hR0
  have hom : (if R < p.radius_inner then g.GM / (√(R ^ 2 + g.eps ^ 2) * √(R ^ 2 + g.eps ^ 2) * √(R ^ 2 + g.eps ^ 2)) -
        5 / 2 * (p.radial_speed_of_sound R / √(R ^ 2 + g.eps ^ 2)) * (p.radial_speed_of_sound R / √(R ^ 2 + g.eps ^ 2))
      else g.GM / (√(R ^ 2 + g.eps ^ 2) * √(R ^ 2 + g.eps ^ 2) * √(R ^ 2 + g.eps ^ 2 + z ^ 2)) -
        7 / 2 * (p.radial_speed_of_sound R / √(R ^ 2 + g.eps ^ 2)) *
          (p.radial_speed_of_sound R / √(R ^ 2 + g.eps ^ 2))) = diskOmega2 p g R z := by
    have e : √(R ^ 2 + g.eps ^ 2) * √(R ^ 2 + g.eps ^ 2) = R ^ 2 + g.eps ^ 2 :=
      Real.mul_self_sqrt (add_nonneg (sq_nonneg R) (sq_nonneg g.eps))
    have e3 : √(R ^ 2 + g.eps ^ 2) ^ 3 = √(R ^ 2 + g.eps ^ 2) * √(R ^ 2 + g.eps ^ 2) * √(R ^ 2 + g.eps ^ 2) := by ring
    have f : ∀ a c s : ℝ, a * (c / s) * (c / s) = a * (c * c) / (s * s) := by intro a c s; ring
    unfold diskOmega2
    rw [f, f, cs2_eq hR hin, e3, e]
  have hv : ∃ rho, 1 / 1000000 ≤ rho ∧
      hydroValues d3 S P D (.disk p g) (cell d3 P i j k) =
        [(ID, rho), (IU, -(y * (√(R ^ 2 + g.eps ^ 2) / R)) * √(max (diskOmega2 p g R z) 0) * rho),
         (IV, x * (√(R ^ 2 + g.eps ^ 2) / R) * √(max (diskOmega2 p g R z) 0) * rho)] ++
        (if d3 then [(IW, (0 : ℝ))] else []) ++
        [(IP, p.radial_speed_of_sound R * p.radial_speed_of_sound R * rho / (S.gamma0 - 1) +
          1 / 2 * rho * diskOmega2 p g R z * (R ^ 2 + g.eps ^ 2))] ∧
      (R ≤ p.radius → |z| ≤ p.radius / 2 → g.eps = 0 → rho = max (diskRho p g R z) (1 / 1000000)) := by
    simp only [hydroValues, diskHydro, diskPos, ex, ey, ez, TOps.pow, TOps.exp,
      show ∀ a b : ℝ, gtb a b = decide (b < a) from fun _ _ => rfl,
      show ∀ a b : ℝ, geb a b = decide (b ≤ a) from fun _ _ => rfl, decide_eq_true_eq, Bool.or_eq_true,
      cs2_eq hR hin]
    rops
    have hom' : (if p.radius_inner ≤ R then g.GM / (√(R ^ 2 + g.eps ^ 2) * √(R ^ 2 + g.eps ^ 2) *
          √(R ^ 2 + g.eps ^ 2 + z ^ 2)) - 7 / 2 * (p.radial_speed_of_sound R / √(R ^ 2 + g.eps ^ 2)) *
            (p.radial_speed_of_sound R / √(R ^ 2 + g.eps ^ 2))
        else g.GM / (√(R ^ 2 + g.eps ^ 2) * √(R ^ 2 + g.eps ^ 2) * √(R ^ 2 + g.eps ^ 2)) -
          5 / 2 * (p.radial_speed_of_sound R / √(R ^ 2 + g.eps ^ 2)) *
            (p.radial_speed_of_sound R / √(R ^ 2 + g.eps ^ 2))) = diskOmega2 p g R z := by
      rw [← hom]
      by_cases hc : R < p.radius_inner
      · rw [if_pos hc, if_neg (not_le.2 hc)]
      · rw [if_neg hc, if_pos (not_lt.1 hc)]
    simp only [hR2, hsR, neg_mul, ← sq g.eps, ← sq z]
    simp only [hom']
    refine ⟨_, ?_, rfl, ?_⟩
    · exact le_max_right _ _
    · intro h1 h2 h3
      rw [if_neg, h3]
      · unfold diskRho
        rw [show R ^ 2 + (0 : ℝ) ^ 2 = R ^ 2 by ring, hsR]
        norm_num
      · rintro (e | e)
        · exact absurd h1 (not_le.2 e)
        · exact absurd h2 (not_le.2 (by linarith))
  obtain ⟨rho, h1, h2, h3⟩ := hv
  refine ⟨rho, h1, same_of h r hA hi hj hk ?_, h3⟩
  rw [h2, cs2_eq hR hin]
  cases d3
  · exact vars_duvp ⟨rfl, by ring, rfl, rfl⟩
  · exact vars_duvwp ⟨rfl, by ring, rfl, rfl, rfl⟩

/-- Derivative of a density profile `a (r/R)^(-5/2) exp (h r)` times a squared speed of sound. -/
theorem profile_deriv {a R r A A' hh hh' : ℝ} {f : ℝ → ℝ} {hf : ℝ → ℝ} (hR : 0 < R) (hr : 0 < r)
    (hA : HasDerivAt f A' r) (eA : f r = A) (hH : HasDerivAt hf hh' r) (eH : hf r = hh) :
    HasDerivAt (fun r => f r * (a * (r / R) ^ (-5 / 2 : ℝ) * Real.exp (hf r)))
      ((A' + A * (-5 / 2) / r + A * hh') * (a * (r / R) ^ (-5 / 2 : ℝ) * Real.exp hh)) r := by
  have h0 : r / R ≠ 0 := (div_pos hr hR).ne'
  have d1 : HasDerivAt (fun r : ℝ => (r / R) ^ (-5 / 2 : ℝ)) ((-5 / 2) * (r / R) ^ (-5 / 2 : ℝ) / r) r := by
    have c := (Real.hasDerivAt_rpow_const (x := r / R) (p := -5 / 2) (Or.inl h0)).comp r
      ((hasDerivAt_id r).div_const R)
    refine c.congr_deriv ?_
    rw [Real.rpow_sub_one h0]
    field_simp
  refine (hA.mul ((d1.const_mul a).mul hH.exp)).congr_deriv ?_
  simp only [Pi.mul_apply]
  rw [eA, eH]
  ring

theorem inv_dist_deriv {r z : ℝ} (hr : 0 < r) :
    HasDerivAt (fun r => 1 / √(r ^ 2 + z ^ 2)) (-r / √(r ^ 2 + z ^ 2) ^ 3) r := by
  have hp : 0 < r ^ 2 + z ^ 2 := by positivity
  have hs := Real.sqrt_pos.2 hp
  have d : HasDerivAt (fun r => √(r ^ 2 + z ^ 2)) (2 * r / (2 * √(r ^ 2 + z ^ 2))) r := by
    have := HasDerivAt.sqrt ((hasDerivAt_pow 2 r).add_const (z ^ 2)) hp.ne'
    refine this.congr_deriv ?_
    norm_num
  refine ((hasDerivAt_const r (1 : ℝ)).div d hs.ne').congr_deriv ?_
  field_simp
  ring

theorem exponent_deriv {r z : ℝ} (hr : 0 < r) :
    HasDerivAt (fun r => 1 / √(r ^ 2 + z ^ 2) - 1 / r) (-r / √(r ^ 2 + z ^ 2) ^ 3 + 1 / r ^ 2) r := by
  have d : HasDerivAt (fun r : ℝ => 1 / r) (-1 / r ^ 2) r := by
    refine ((hasDerivAt_const r (1 : ℝ)).div (hasDerivAt_id r) hr.ne').congr_deriv ?_
    simp
  refine ((inv_dist_deriv hr).sub d).congr_deriv ?_
  ring

end helpers

/-- **C107**: velocity and pressure of the disk.  Away from its axis, the gas rotates about the axis; its
pressure is the density times the square of the speed of sound where the rotation balances gravity, and
less than that where the sound is too fast for a rotation to balance gravity. -/
theorem C107_pressure (h : BoxSetup d3 (hydroVars d3) 2 P B)
    (r : Runs (hydroSetup d3 S P D (.disk p g)) m m') (hg : S.gamma0 ≠ 1) (hR : 0 < p.radius)
    (hin : 0 < p.radius_inner) {A i j k : Nat} (hA : A = aU ∨ A = aU2)
    (hi : i < P.nx.toNat) (hj : j < P.ny.toNat) (hk : k < depth d3 P) {x y z R : ℝ} {s : HState ℝ}
    (hx : x = centre D.xmin S.dx P.nx D.i_mpi i - p.xc) (hy : y = centre D.ymin S.dy P.ny D.j_mpi j - p.yc)
    (hz : z = if d3 then centre D.zmin S.dz P.nz D.k_mpi k - p.zc else 0) (hr : R = √(x ^ 2 + y ^ 2))
    (hr0 : R ≠ 0) (hs : s = initialAt d3 P m' A i j k) :
    0 < s.d ∧ x * s.u + y * s.v = 0 ∧ 0 ≤ x * s.v - y * s.u ∧ (d3 = true → s.w = 0) ∧
      s.u ^ 2 + s.v ^ 2 = s.d ^ 2 * max (diskOmega2 p g R z) 0 * (R ^ 2 + g.eps ^ 2) ∧
      pressureOf d3 S.gamma0 s = diskCs2 p R * s.d +
        (S.gamma0 - 1) * s.d * min (diskOmega2 p g R z) 0 * (R ^ 2 + g.eps ^ 2) / 2 := by
  obtain ⟨rho, h1, ⟨a0, a1, a2, a3, a4⟩, -⟩ := disk_state h r hR hin hA hi hj hk hx hy hz hr
  rw [← hs] at a0 a1 a2 a3 a4
  simp only at a0 a1 a2 a3 a4
  have hrho : 0 < rho := by linarith
  have hR2 : x ^ 2 + y ^ 2 = R ^ 2 := by
    rw [hr, Real.sq_sqrt (add_nonneg (sq_nonneg x) (sq_nonneg y))]
  have hg' : S.gamma0 - 1 ≠ 0 := sub_ne_zero.2 hg
  have hRp : 0 < R := lt_of_le_of_ne (hr ▸ Real.sqrt_nonneg _) (Ne.symm hr0)
  have eq2 : √(R ^ 2 + g.eps ^ 2) ^ 2 = R ^ 2 + g.eps ^ 2 :=
    Real.sq_sqrt (add_nonneg (sq_nonneg R) (sq_nonneg g.eps))
  have om2 : √(max (diskOmega2 p g R z) 0) ^ 2 = max (diskOmega2 p g R z) 0 :=
    Real.sq_sqrt (le_max_right _ _)
  have n1 := Real.sqrt_nonneg (R ^ 2 + g.eps ^ 2)
  have n2 := Real.sqrt_nonneg (max (diskOmega2 p g R z) 0)
  have hmm : min (diskOmega2 p g R z) 0 = diskOmega2 p g R z - max (diskOmega2 p g R z) 0 := by
    rcases le_total (diskOmega2 p g R z) 0 with c | c
    · rw [min_eq_left c, max_eq_right c]; ring
    · rw [min_eq_right c, max_eq_left c]; ring
  generalize √(R ^ 2 + g.eps ^ 2) = q at *
  generalize √(max (diskOmega2 p g R z) 0) = om at *
  have kin : s.u ^ 2 + s.v ^ 2 = s.d ^ 2 * max (diskOmega2 p g R z) 0 * (R ^ 2 + g.eps ^ 2) := by
    rw [a2, a3, a0, ← om2, ← eq2]
    field_simp
    linear_combination (q ^ 2 * om ^ 2) * hR2
  refine ⟨by rw [a0]; exact hrho, by rw [a2, a3]; ring, ?_, a4, kin, ?_⟩
  · rw [a2, a3]
    have : x * (x * (q / R) * om * rho) - y * (-(y * (q / R)) * om * rho) = R * q * om * rho := by
      field_simp
      linear_combination (q * om) * hR2
    rw [this]
    positivity
  · unfold pressureOf
    have : s.u ^ 2 + s.v ^ 2 + (if d3 then s.w ^ 2 else 0) = s.u ^ 2 + s.v ^ 2 := by
      cases d3
      · simp
      · simp only [if_true]; rw [a4 rfl]; ring
    rw [this, kin, hmm, a1, a0]
    field_simp
    ring

/-- **C107**: without softening, the disk is `diskGas`, within its radius and height, where the rotation can
balance gravity and the density is not too low. -/
theorem C107_gas (h : BoxSetup d3 (hydroVars d3) 2 P B)
    (r : Runs (hydroSetup d3 S P D (.disk p g)) m m') (hR : 0 < p.radius)
    (hin : 0 < p.radius_inner) (he : g.eps = 0) {A i j k : Nat} (hA : A = aU ∨ A = aU2)
    (hi : i < P.nx.toNat) (hj : j < P.ny.toNat) (hk : k < depth d3 P) {x y z R : ℝ}
    (hx : x = centre D.xmin S.dx P.nx D.i_mpi i - p.xc) (hy : y = centre D.ymin S.dy P.ny D.j_mpi j - p.yc)
    (hz : z = if d3 then centre D.zmin S.dz P.nz D.k_mpi k - p.zc else 0) (hr : R = √(x ^ 2 + y ^ 2))
    (hr0 : R ≠ 0) (hr1 : R ≤ p.radius) (hz1 : |z| ≤ p.radius / 2) (ho : 0 ≤ diskOmega2 p g R z)
    (hd : 1 / 1000000 ≤ diskRho p g R z) :
    SameState d3 (initialAt d3 P m' A i j k) ((diskGas p g x y z).conserved S.gamma0) := by
  obtain ⟨rho, -, ⟨a0, a1, a2, a3, a4⟩, e⟩ := disk_state h r hR hin hA hi hj hk hx hy hz hr
  have e := e hr1 hz1 he
  rw [max_eq_left hd] at e
  subst e
  have hR2 : x ^ 2 + y ^ 2 = R ^ 2 := by
    rw [hr, Real.sq_sqrt (add_nonneg (sq_nonneg x) (sq_nonneg y))]
  have hRp : 0 < R := lt_of_le_of_ne (hr ▸ Real.sqrt_nonneg _) (Ne.symm hr0)
  have q : √(R ^ 2 + g.eps ^ 2) / R = 1 := by
    rw [he, show R ^ 2 + (0 : ℝ) ^ 2 = R ^ 2 by ring, Real.sqrt_sq hRp.le, div_self hr0]
  rw [q, max_eq_left ho] at a2 a3
  have om := Real.sq_sqrt ho
  simp only at a0 a1 a2 a3 a4
  refine ⟨?_, ?_, ?_, ?_, fun hd => (a4 hd).trans ?_⟩
  · rw [a0]; simp only [diskGas, PointGas.conserved, ← hr]
  · rw [a1]; simp only [diskGas, PointGas.conserved, ← hr, diskP, he, ← hR2]
    generalize √(diskOmega2 p g R z) = o at om
    rw [← om]
    ring
  · rw [a2]; simp only [diskGas, PointGas.conserved, ← hr]; ring
  · rw [a3]; simp only [diskGas, PointGas.conserved, ← hr]; ring
  · simp [diskGas, PointGas.conserved]

/-- **C107**: this gas is in equilibrium: its pressure balances the attraction `GM / distance ^ 2` of the central
mass and the centrifugal force, along and across the axis. -/
theorem C107_equilibrium (hR : 0 < p.radius) (hin : 0 < p.radius_inner) (hc : p.ref_sound_speed ≠ 0)
    (he : g.eps = 0) {r z : ℝ} (hr : 0 < r) (hne : r ≠ p.radius_inner) :
    HasDerivAt (fun r => diskP p g r z)
      (diskRho p g r z * (r * diskOmega2 p g r z - g.GM * r / √(r ^ 2 + z ^ 2) ^ 3)) r ∧
    HasDerivAt (fun z => diskP p g r z) (diskRho p g r z * (-g.GM * z / √(r ^ 2 + z ^ 2) ^ 3)) z := by
  have hp : 0 < r ^ 2 + z ^ 2 := by positivity
  have hs := Real.sqrt_pos.2 hp
  have hs2 := Real.sq_sqrt hp.le
  have hK : p.ref_sound_speed ^ 2 * p.radius ≠ 0 := by positivity
  have hrs : √(r ^ 2) = r := Real.sqrt_sq hr.le
  constructor
  · rcases lt_or_gt_of_ne hne with c | c
    · have ev : ∀ᶠ r' in nhds r, diskP p g r' z = p.ref_sound_speed ^ 2 * p.radius / p.radius_inner *
          (p.ref_density * (r' / p.radius) ^ (-5 / 2 : ℝ) * Real.exp
            (g.GM / (p.ref_sound_speed ^ 2 * p.radius / p.radius_inner) * (1 / √(r' ^ 2 + z ^ 2) - 1 / r'))) := by
        filter_upwards [Iio_mem_nhds c] with r' h'
        unfold diskP diskRho diskCs2
        rw [max_eq_right (le_of_lt h')]
      refine HasDerivAt.congr_of_eventuallyEq ?_ ev
      refine (profile_deriv hR hr (hasDerivAt_const r _) rfl
        ((exponent_deriv (z := z) hr).const_mul _) rfl).congr_deriv ?_
      unfold diskRho diskOmega2 diskCs2
      rw [if_pos c, max_eq_right c.le, he, show r ^ 2 + (0 : ℝ) ^ 2 = r ^ 2 by ring, hrs]
      generalize Real.exp (g.GM / (p.ref_sound_speed ^ 2 * p.radius / p.radius_inner) *
        (1 / √(r ^ 2 + z ^ 2) - 1 / r)) = E
      generalize (r / p.radius) ^ (-5 / 2 : ℝ) = F
      field_simp
      ring
    · have ev : ∀ᶠ r' in nhds r, diskP p g r' z = p.ref_sound_speed ^ 2 * p.radius / r' *
          (p.ref_density * (r' / p.radius) ^ (-5 / 2 : ℝ) * Real.exp
            (g.GM / (p.ref_sound_speed ^ 2 * p.radius / r') * (1 / √(r' ^ 2 + z ^ 2) - 1 / r'))) := by
        filter_upwards [Ioi_mem_nhds c] with r' h'
        unfold diskP diskRho diskCs2
        rw [max_eq_left (le_of_lt h')]
      refine HasDerivAt.congr_of_eventuallyEq ?_ ev
      have hk : HasDerivAt (fun r' : ℝ => p.ref_sound_speed ^ 2 * p.radius / r')
          (-(p.ref_sound_speed ^ 2 * p.radius) / r ^ 2) r := by
        refine ((hasDerivAt_const r (p.ref_sound_speed ^ 2 * p.radius)).div (hasDerivAt_id r) hr.ne').congr_deriv ?_
        simp
      have hq : HasDerivAt (fun r' : ℝ => g.GM / (p.ref_sound_speed ^ 2 * p.radius / r') *
          (1 / √(r' ^ 2 + z ^ 2) - 1 / r')) (g.GM / (p.ref_sound_speed ^ 2 * p.radius) *
            (1 / √(r ^ 2 + z ^ 2) - 1 / r) + g.GM / (p.ref_sound_speed ^ 2 * p.radius / r) *
            (-r / √(r ^ 2 + z ^ 2) ^ 3 + 1 / r ^ 2)) r := by
        have d1 : HasDerivAt (fun r' : ℝ => g.GM / (p.ref_sound_speed ^ 2 * p.radius / r'))
            (g.GM / (p.ref_sound_speed ^ 2 * p.radius)) r := by
          refine ((hasDerivAt_id r).const_mul (g.GM / (p.ref_sound_speed ^ 2 * p.radius))).congr_deriv ?_
            |>.congr_of_eventuallyEq ?_
          · ring
          · filter_upwards with r'
            simp only [id]
            rw [div_div_eq_mul_div]; ring
        exact d1.mul (exponent_deriv (z := z) hr)
      refine (profile_deriv hR hr hk rfl hq rfl).congr_deriv ?_
      unfold diskRho diskOmega2 diskCs2
      rw [if_neg (not_lt.2 c.le), max_eq_left c.le, he, show r ^ 2 + (0 : ℝ) ^ 2 = r ^ 2 by ring]
      generalize Real.exp (g.GM / (p.ref_sound_speed ^ 2 * p.radius / r) *
        (1 / √(r ^ 2 + z ^ 2) - 1 / r)) = E
      generalize (r / p.radius) ^ (-5 / 2 : ℝ) = F
      field_simp
      ring
  · have d : HasDerivAt (fun z => 1 / √(r ^ 2 + z ^ 2)) (-z / √(r ^ 2 + z ^ 2) ^ 3) z := by
      have d0 : HasDerivAt (fun z => √(r ^ 2 + z ^ 2)) (2 * z / (2 * √(r ^ 2 + z ^ 2))) z := by
        refine (HasDerivAt.sqrt ((hasDerivAt_pow 2 z).const_add (r ^ 2)) hp.ne').congr_deriv ?_
        norm_num
      refine ((hasDerivAt_const z (1 : ℝ)).div d0 hs.ne').congr_deriv ?_
      field_simp
      ring
    have h2 : diskCs2 p r ≠ 0 := by
      unfold diskCs2
      exact div_ne_zero hK (lt_of_lt_of_le hr (le_max_left _ _)).ne'
    refine ((((d.sub_const (1 / r)).const_mul (g.GM / diskCs2 p r)).exp.const_mul
      (p.ref_density * (r / p.radius) ^ (-5 / 2 : ℝ))).const_mul (diskCs2 p r)).congr_deriv ?_
    unfold diskRho
    field_simp

/-- **C107**: the gravity field is the attraction of a mass at the position given for the source *plus* that of
the centre of the disk. -/
theorem C107_gravity (h : BoxSetup d3 (hydroVars d3) 2 P B)
    (r : Runs (hydroSetup d3 S P D (.disk p g)) m m')
    {i j k : Nat} (hi : i < P.nx.toNat) (hj : j < P.ny.toNat) (hk : k < depth d3 P) {c : Cell}
    (hc : c = cell d3 P i j k) {f : ℝ × ℝ × ℝ}
    (hf : f = pull g.GM g.eps (p.xc + g.xs) (p.yc + g.ys) (if d3 then p.zc + g.zs else g.zs)
      (centre D.xmin S.dx P.nx D.i_mpi i) (centre D.ymin S.dy P.ny D.j_mpi j)
      (if d3 then centre D.zmin S.dz P.nz D.k_mpi k else 0)) :
    m' (c.at aG 0) = f.1 ∧ m' (c.at aG 1) = f.2.1 ∧ (d3 = true → m' (c.at aG 2) = f.2.2) := by
  have hb : P.box d3 c := hc ▸ (cell_box h hi hj hk).1
  have q := (hydro_setup_run h r).2 c
  have ex : xAt S P D c.i = centre D.xmin S.dx P.nx D.i_mpi i := by rw [hc]; exact xAt_centre i
  have ey : yAt S P D c.j = centre D.ymin S.dy P.ny D.j_mpi j := by rw [hc]; exact yAt_centre j
  have ez : d3 = true → zAt S P D c.k = centre D.zmin S.dz P.nz D.k_mpi k := by
    intro hd; rw [hc]; simp only [cell, hd, if_true]; exact zAt_centre k
  have key : hydroGravity d3 S P D (.disk p g) c = gravityList d3 f.1 f.2.1 f.2.2 := by
    simp only [hydroGravity, diskPos, ex, ey, PointSourceGravity.eval, hf, pull]
    cases d3
    · simp only [Bool.false_eq_true, if_false]
      rops
      have e : (centre D.xmin S.dx P.nx D.i_mpi i - p.xc - g.xs) * (centre D.xmin S.dx P.nx D.i_mpi i - p.xc - g.xs) +
          (centre D.ymin S.dy P.ny D.j_mpi j - p.yc - g.ys) * (centre D.ymin S.dy P.ny D.j_mpi j - p.yc - g.ys) +
          (0 - g.zs) * (0 - g.zs) + g.eps * g.eps =
          (centre D.xmin S.dx P.nx D.i_mpi i - (p.xc + g.xs)) ^ 2 +
            (centre D.ymin S.dy P.ny D.j_mpi j - (p.yc + g.ys)) ^ 2 + (0 - g.zs) ^ 2 + g.eps ^ 2 := by ring
      rw [e]
      unfold gravityList
      simp only [Bool.false_eq_true, if_false, List.append_nil, List.cons.injEq, Prod.mk.injEq, true_and, and_true]
      constructor <;> ring
    · rw [ez rfl]
      simp only [if_true]
      rops
      have e : (centre D.xmin S.dx P.nx D.i_mpi i - p.xc - g.xs) * (centre D.xmin S.dx P.nx D.i_mpi i - p.xc - g.xs) +
          (centre D.ymin S.dy P.ny D.j_mpi j - p.yc - g.ys) * (centre D.ymin S.dy P.ny D.j_mpi j - p.yc - g.ys) +
          (centre D.zmin S.dz P.nz D.k_mpi k - p.zc - g.zs) * (centre D.zmin S.dz P.nz D.k_mpi k - p.zc - g.zs) +
          g.eps * g.eps =
          (centre D.xmin S.dx P.nx D.i_mpi i - (p.xc + g.xs)) ^ 2 +
            (centre D.ymin S.dy P.ny D.j_mpi j - (p.yc + g.ys)) ^ 2 +
            (centre D.zmin S.dz P.nz D.k_mpi k - (p.zc + g.zs)) ^ 2 + g.eps ^ 2 := by ring
      rw [e]
      unfold gravityList
      simp only [if_true, List.cons_append, List.nil_append, List.cons.injEq, Prod.mk.injEq, true_and, and_true]
      refine ⟨?_, ?_, ?_⟩ <;> ring
  refine ⟨?_, ?_, fun hd => ?_⟩
  · rw [q 0 hb, key]; cases d3 <;> rfl
  · rw [q 1 hb, key]; cases d3 <;> rfl
  · subst hd; rw [q 2 hb, key]; rfl

/-- **C107**: hence the disk is attracted to its centre if the source is left at the origin (its default). -/
theorem C107_centred (h : BoxSetup d3 (hydroVars d3) 2 P B)
    (r : Runs (hydroSetup d3 S P D (.disk p g)) m m') (h0 : g.xs = 0 ∧ g.ys = 0 ∧ g.zs = 0)
    (he : g.eps = 0) {i j k : Nat} (hi : i < P.nx.toNat) (hj : j < P.ny.toNat) (hk : k < depth d3 P)
    {x y z R : ℝ} (hx : x = centre D.xmin S.dx P.nx D.i_mpi i - p.xc)
    (hy : y = centre D.ymin S.dy P.ny D.j_mpi j - p.yc)
    (hz : z = if d3 then centre D.zmin S.dz P.nz D.k_mpi k - p.zc else 0) (hr : R = √(x ^ 2 + y ^ 2))
    {c : Cell} (hc : c = cell d3 P i j k) :
    m' (c.at aG 0) = -g.GM * x / √(R ^ 2 + z ^ 2) ^ 3 ∧ m' (c.at aG 1) = -g.GM * y / √(R ^ 2 + z ^ 2) ^ 3 ∧
      (d3 = true → m' (c.at aG 2) = -g.GM * z / √(R ^ 2 + z ^ 2) ^ 3) := by
  have hR2 : R ^ 2 = x ^ 2 + y ^ 2 := by
    rw [hr, Real.sq_sqrt (add_nonneg (sq_nonneg x) (sq_nonneg y))]
  obtain ⟨e1, e2, e3⟩ := C107_gravity h r hi hj hk hc rfl
  obtain ⟨z1, z2, z3⟩ := h0
  rw [hR2]
  cases d3
  · simp only [pull, z1, z2, z3, he, add_zero, Bool.false_eq_true, if_false] at e1 e2 hz
    rw [e1, e2, ← hx, ← hy, hz]
    refine ⟨?_, ?_, fun h => by cases h⟩
    · rw [show p.xc - centre D.xmin S.dx P.nx D.i_mpi i = -x by rw [hx]; ring]; ring_nf
    · rw [show p.yc - centre D.ymin S.dy P.ny D.j_mpi j = -y by rw [hy]; ring]; ring_nf
  · have e3 := e3 rfl
    simp only [pull, z1, z2, z3, he, add_zero, if_true] at e1 e2 e3 hz
    rw [e1, e2, e3, ← hx, ← hy, ← hz]
    refine ⟨?_, ?_, fun _ => ?_⟩
    · rw [show p.xc - centre D.xmin S.dx P.nx D.i_mpi i = -x by rw [hx]; ring]; ring_nf
    · rw [show p.yc - centre D.ymin S.dy P.ny D.j_mpi j = -y by rw [hy]; ring]; ring_nf
    · rw [show p.zc - centre D.zmin S.dz P.nz D.k_mpi k = -z by rw [hz]; ring]; ring_nf

/-- **C107**: if instead the source is put at the centre of the disk, cells between that centre and twice its
position are pulled away from the centre. -/
theorem C107_offset_wrong (h : BoxSetup d3 (hydroVars d3) 2 P B)
    (r : Runs (hydroSetup d3 S P D (.disk p g)) m m') (hs : g.xs = p.xc) (hG : 0 < g.GM)
    {i j k : Nat} (hi : i < P.nx.toNat) (hj : j < P.ny.toNat) (hk : k < depth d3 P) {x : ℝ}
    (hx : x = centre D.xmin S.dx P.nx D.i_mpi i) (h1 : p.xc < x) (h2 : x < 2 * p.xc) :
    0 < (x - p.xc) * m' ((cell d3 P i j k).at aG 0) := by
  rw [(C107_gravity h r hi hj hk rfl rfl).1]
  simp only [pull]
  rw [← hx, hs]
  refine mul_pos (by linarith) (mul_pos (div_pos hG (pow_pos (Real.sqrt_pos.2 ?_) 3)) (by linarith))
  have : 0 < (x - (p.xc + p.xc)) ^ 2 := by
    have : x - (p.xc + p.xc) ≠ 0 := by linarith
    positivity
  positivity

theorem ck_div_zero (a : CReal) : a / CReal.ok 0 = CReal.undef := by
  cases a with
  | none => rfl
  | some x => show (if (0 : ℝ) = 0 then none else some (x / 0)) = _; rw [if_pos rfl]; rfl

theorem ck_mul_undef (a : CReal) : a * CReal.undef = CReal.undef := by cases a <;> rfl
theorem ck_undef_mul (a : CReal) : CReal.undef * a = CReal.undef := by cases a <;> rfl

/-- **C107**: the momentum stored at a cell centred on the axis is the result of a division by zero. -/
theorem C107_axis_wrong {d3 : Bool} {S : Settings CReal} {P : Grid} {D : Domain CReal}
    {p : DiskParams CReal} {g : PointSourceGravity CReal} {c : Cell}
    (hx : xAt S P D c.i - p.xc = CReal.ok 0) (hy : yAt S P D c.j - p.yc = CReal.ok 0) :
    (IU, CReal.undef) ∈ hydroValues d3 S P D (.disk p g) c ∧
      (IV, CReal.undef) ∈ hydroValues d3 S P D (.disk p g) c := by
  have e : sqrt (CReal.ok 0 * CReal.ok 0 + CReal.ok 0 * CReal.ok 0) = CReal.ok 0 := by
    rw [ck_mul, ck_add, ck_sqrt (by norm_num)]
    norm_num
  simp only [hydroValues, diskHydro, diskPos, hx, hy, e, ck_div_zero, ck_mul_undef,
    show -CReal.undef = CReal.undef from rfl, ck_undef_mul]
  constructor
  · exact List.mem_append_left _ (List.mem_append_left _ (List.mem_cons_of_mem _ (List.mem_cons.2 (Or.inl rfl))))
  · exact List.mem_append_left _ (List.mem_append_left _
      (List.mem_cons_of_mem _ (List.mem_cons_of_mem _ (List.mem_cons.2 (Or.inl rfl)))))

/-- A disk of radius 2 centred on the corner of a cell, around a mass 1. -/
example (m : Addr → ℝ) : ∃ m', Runs (hydroSetup true exampleSettings (exampleBox true .absorbing)
      ⟨0, 3, 0, 2, 0, 2, 0, 0, 0⟩ (.disk ⟨2, 1/5, 1, 1, 1, 1, 100, 1/100, 1/10⟩ ⟨0, 0, 0, 1, 0⟩)) m m' ∧
    0 < (initialAt true (exampleBox true .absorbing) m' aU 0 0 0).d := by
  obtain ⟨m', r⟩ := example_run true .absorbing (⟨0, 3, 0, 2, 0, 2, 0, 0, 0⟩ : Domain ℝ)
    (.disk ⟨2, 1/5, 1, 1, 1, 1, 100, 1/100, 1/10⟩ ⟨0, 0, 0, 1, 0⟩) m
  refine ⟨m', r, (C107_pressure (S := exampleSettings) (exampleBox_setup true .absorbing) r
    (by norm_num [exampleSettings]) (by norm_num) (by norm_num) (Or.inl rfl) (by decide) (by decide) (by decide)
    rfl rfl rfl rfl ?_ rfl).1⟩
  refine (Real.sqrt_pos.2 ?_).ne'
  norm_num [centre, exampleSettings, exampleBox]

/-- The hypotheses of the equilibrium, of `C107_gas` and of `C107_offset_wrong` hold for ordinary parameters. -/
example : ∃ (p : DiskParams ℝ) (g : PointSourceGravity ℝ), 0 < p.radius ∧ 0 < p.radius_inner ∧
    p.ref_sound_speed ≠ 0 ∧ g.eps = 0 ∧ (1 : ℝ) ≠ p.radius_inner ∧ 0 ≤ diskOmega2 p g 1 0 ∧
    1 / 1000000 ≤ diskRho p g 1 0 := by
  refine ⟨⟨1, 1/5, 1, 1, 1, 1, 100, 1/100, 1/10⟩, ⟨0, 0, 0, 1, 0⟩, by norm_num, by norm_num, by norm_num, rfl,
    by norm_num, ?_, ?_⟩
  · unfold diskOmega2 diskCs2
    norm_num
  · unfold diskRho diskCs2
    norm_num

/-- A cell centred on the axis. -/
example : xAt (okSettings exampleSettings) (exampleBox false .absorbing)
      (⟨.ok 0, .ok 3, .ok 0, .ok 2, .ok 0, .ok 2, 0, 0, 0⟩ : Domain CReal) 3 - CReal.ok (3 / 2) = CReal.ok 0 := by
  unfold xAt
  rw [show (okSettings exampleSettings).dx = CReal.ok 1 by simp [okSettings, exampleSettings], ck_lit, ck_lit,
    ck_div (by norm_num), ck_add, ck_mul, ck_add, ck_sub]
  norm_num [exampleBox]

end Verif
