import Verif.Lemmas.RiemannMhdEmf

/-! Helper lemmas: symmetries of the two-dimensional Riemann solver for the electromotive force. -/

namespace Verif

open ROps Spec

variable {S : MSettings ℝ}

/-- The last stage of `mag_riemann2d_hlld`, with the Alfven speeds as parameters. -/
noncomputable def emfCombine (SL SR SB ST SAL SAR SAB SAT : ℝ) (LL RL LR RR : EmfStar ℝ)
    (aLL aRL aLR aRR bLL bRL bLR bRR ELL ERL ELR ERR : ℝ) : ℝ :=
  if 0 ≤ SB then
    if 0 ≤ SL then ELL else if 0 ≤ SR then
      (SAR * LL.Ex - SAL * RL.Ex + SAR * SAL * (bRL - bLL)) / (SAR - SAL) else ERL
  else if 0 ≤ ST then
    if 0 ≤ SL then (SAT * LL.Ey - SAB * LR.Ey - SAT * SAB * (aLR - aLL)) / (SAT - SAB)
    else if 0 ≤ SR then
      (SAL * SAB * RR.E - SAL * SAT * RL.E - SAR * SAB * LR.E + SAR * SAT * LL.E) /
        (SAR - SAL) / (SAT - SAB) - SAT * SAB / (SAT - SAB) *
          ((SAR * RR.A - SAL * LR.A) / (SAR - SAL) - (SAR * RL.A - SAL * LL.A) / (SAR - SAL))
      + SAR * SAL / (SAR - SAL) *
          ((SAT * RR.B - SAB * RL.B) / (SAT - SAB) - (SAT * LR.B - SAB * LL.B) / (SAT - SAB))
    else (SAT * RL.Ey - SAB * RR.Ey - SAT * SAB * (aRR - aRL)) / (SAT - SAB)
  else
    if 0 ≤ SL then ELR else if 0 ≤ SR then
      (SAR * LR.Ex - SAL * RR.Ex + SAR * SAL * (bRR - bLR)) / (SAR - SAL) else ERR

theorem FMAX4_eq (a b c d : ℝ) : FMAX4 a b c d = max (max a b) (max c d) := by
  unfold FMAX4
  simp only [pickMax_real]
  rw [max_comm d, max_comm c, max_comm b, max_assoc (max a b)]

theorem FMIN4_eq (a b c d : ℝ) : FMIN4 a b c d = min (min a b) (min c d) := by
  unfold FMIN4
  simp only [pickMin_real]
  rw [min_comm d, min_comm c, min_comm b, min_assoc (min a b)]

theorem FMAX5_eq (a b c d e : ℝ) : FMAX5 a b c d e = max (max (max a b) (max c d)) e := by
  unfold FMAX5
  rw [pickMax_real, FMAX4_eq, max_comm]

/-- `smallc` and the Alfven speeds on one side. -/
noncomputable def alfvenMax (S : MSettings ℝ) (f1 r1 f2 r2 f3 r3 f4 r4 : ℝ) : ℝ :=
  max (max (max (|f1| / Real.sqrt r1) (|f2| / Real.sqrt r2))
    (max (|f3| / Real.sqrt r3) (|f4| / Real.sqrt r4))) S.smallc

theorem alfvenMax_comm (f1 r1 f2 r2 f3 r3 f4 r4 : ℝ) :
    alfvenMax S f1 r1 f2 r2 f3 r3 f4 r4 = alfvenMax S f3 r3 f4 r4 f1 r1 f2 r2 := by
  unfold alfvenMax
  rw [max_comm (max (|f1| / Real.sqrt r1) (|f2| / Real.sqrt r2))]

theorem alfvenMax_neg (f1 r1 f2 r2 f3 r3 f4 r4 : ℝ) :
    alfvenMax S (-f1) r1 (-f2) r2 (-f3) r3 (-f4) r4 = alfvenMax S f1 r1 f2 r2 f3 r3 f4 r4 := by
  simp only [alfvenMax, abs_neg]

/-- The fast speeds are not negative. -/
theorem fast_nonneg (q : MState ℝ) (b : ℝ) : 0 ≤ fastSpeed S q b := Real.sqrt_nonneg _

theorem edge_waves_order (LL RL LR RR : MState ℝ) :
    (emfWaves S LL RL LR RR).SL ≤ (emfWaves S LL RL LR RR).SR ∧
    (emfWaves S LL RL LR RR).SB ≤ (emfWaves S LL RL LR RR).ST := by
  unfold emfWaves
  simp only
  rops
  have h1 : 0 ≤ FMAX4 (find_speed_fast_x S LL) (find_speed_fast_x S LR) (find_speed_fast_x S RL)
      (find_speed_fast_x S RR) := le_trans (fast_nonneg LL LL.a) (FMAX4_ge _ _ _ _).1
  have h2 : 0 ≤ FMAX4 (find_speed_fast_y S LL) (find_speed_fast_y S LR) (find_speed_fast_y S RL)
      (find_speed_fast_y S RR) := le_trans (fast_nonneg LL LL.b) (FMAX4_ge _ _ _ _).1
  have h3 := (FMIN4_le LL.u LR.u RL.u RR.u).1
  have h4 := (FMAX4_ge LL.u LR.u RL.u RR.u).1
  have h5 := (FMIN4_le LL.v LR.v RL.v RR.v).1
  have h6 := (FMAX4_ge LL.v LR.v RL.v RR.v).1
  constructor <;> linarith

theorem edge_mag_combine (LL RL LR RR : MState ℝ) (ELL ERL ELR ERR : ℝ) :
    mag_riemann2d_hlld S LL RL LR RR ELL ERL ELR ERR =
      let W := emfWaves S LL RL LR RR
      let sLL := emfStar LL W.SL W.ustar W.SB W.vstar
      let sLR := emfStar LR W.SL W.ustar W.ST W.vstar
      let sRL := emfStar RL W.SR W.ustar W.SB W.vstar
      let sRR := emfStar RR W.SR W.ustar W.ST W.vstar
      emfCombine W.SL W.SR W.SB W.ST
        (min (W.ustar - alfvenMax S LR.a sLR.rx sLR.A sLR.r LL.a sLL.rx sLL.A sLL.r) 0)
        (max (W.ustar + alfvenMax S RR.a sRR.rx sRR.A sRR.r RL.a sRL.rx sRL.A sRL.r) 0)
        (min (W.vstar - alfvenMax S LL.b sLL.ry sLL.B sLL.r RL.b sRL.ry sRL.B sRL.r) 0)
        (max (W.vstar + alfvenMax S LR.b sLR.ry sLR.B sLR.r RR.b sRR.ry sRR.B sRR.r) 0)
        sLL sRL sLR sRR LL.a RL.a LR.a RR.a LL.b RL.b LR.b RR.b ELL ERL ELR ERR := by
  have ho := edge_waves_order (S := S) LL RL LR RR
  unfold mag_riemann2d_hlld
  simp only [FMAX5_eq, signPos_real, ind, alfvenMax]
  rops
  unfold emfCombine
  generalize emfWaves S LL RL LR RR = W at *
  obtain ⟨o1, o2⟩ := ho
  by_cases p1 : 0 ≤ W.SB <;> by_cases p2 : 0 ≤ W.ST <;> by_cases p3 : 0 ≤ W.SL <;>
    by_cases p4 : 0 ≤ W.SR <;> first
    | exact absurd (le_trans p1 o2) p2
    | exact absurd (le_trans p3 o1) p4
    | simp [p1, p2, p3, p4]

/-! ### Exchange of the two axes -/

/-- Exchange the first two axes. -/
def MState.flip (q : MState ℝ) : MState ℝ := ⟨q.d, q.p, q.v, q.u, q.w, q.b, q.a, q.c⟩

theorem speeds_flip (q : MState ℝ) : find_speed_fast_x S q.flip = find_speed_fast_y S q ∧
    find_speed_fast_y S q.flip = find_speed_fast_x S q := by
  have e : q.b * q.b + q.a * q.a + q.c * q.c = q.a * q.a + q.b * q.b + q.c * q.c := by ring
  constructor
  · simp only [find_speed_fast_x, find_speed_fast_y, fastSpeed, MState.flip]
    rops
    rw [e]
  · simp only [find_speed_fast_x, find_speed_fast_y, fastSpeed, MState.flip]
    rops
    rw [e]

/-- The waves seen with the axes exchanged. -/
def EmfWaves.flip (W : EmfWaves ℝ) : EmfWaves ℝ := ⟨W.SB, W.ST, W.SL, W.SR, W.vstar, W.ustar⟩

theorem edge_waves_flip (LL RL LR RR : MState ℝ) :
    emfWaves S LL.flip LR.flip RL.flip RR.flip = (emfWaves S LL RL LR RR).flip := by
  unfold emfWaves EmfWaves.flip
  simp only [speeds_flip, FMAX4_eq, FMIN4_eq]
  have m1 : ∀ a b c d : ℝ, max (max a c) (max b d) = max (max a b) (max c d) := fun a b c d => by
    rw [max_max_max_comm]
  have m2 : ∀ a b c d : ℝ, min (min a c) (min b d) = min (min a b) (min c d) := fun a b c d => by
    rw [min_min_min_comm]
  simp only [MState.flip]
  rw [m1 (find_speed_fast_y S LL), m1 (find_speed_fast_x S LL), m1 LL.v, m1 LL.u, m2 LL.v, m2 LL.u]
  rops
  simp only [EmfWaves.mk.injEq, true_and]
  constructor
  · congr 1 <;> ring
  · congr 1 <;> ring

/-- Star values with the axes exchanged. -/
def EmfStar.flip (s : EmfStar ℝ) : EmfStar ℝ := ⟨s.ry, s.A, s.rx, s.B, s.r, -s.Ey, -s.Ex, -s.E⟩

theorem edge_star_flip (q : MState ℝ) (sx us sy vs : ℝ) :
    emfStar q.flip sy vs sx us = (emfStar q sx us sy vs).flip := by
  unfold emfStar EmfStar.flip MState.flip
  rops
  simp only [EmfStar.mk.injEq, true_and]
  refine ⟨by ring, by ring, by ring, by ring⟩

theorem edge_combine_flip {SL SR SB ST : ℝ} (SAL SAR SAB SAT : ℝ) (LL RL LR RR : EmfStar ℝ)
    (aLL aRL aLR aRR bLL bRL bLR bRR ELL ERL ELR ERR : ℝ) (h1 : SL ≤ SR) (h2 : SB ≤ ST) :
    emfCombine SB ST SL SR SAB SAT SAL SAR LL.flip LR.flip RL.flip RR.flip bLL bLR bRL bRR aLL aLR aRL aRR
      (-ELL) (-ELR) (-ERL) (-ERR) =
    -emfCombine SL SR SB ST SAL SAR SAB SAT LL RL LR RR aLL aRL aLR aRR bLL bRL bLR bRR ELL ERL ELR ERR := by
  unfold emfCombine EmfStar.flip
  by_cases p1 : 0 ≤ SB <;> by_cases p2 : 0 ≤ ST <;> by_cases p3 : 0 ≤ SL <;>
    by_cases p4 : 0 ≤ SR <;> first
    | exact absurd (le_trans p1 h2) p2
    | exact absurd (le_trans p3 h1) p4
    | (simp only [p1, p2, p3, p4, if_true, if_false]; done)
    | (simp only [p1, p2, p3, p4, if_true, if_false]; ring)

theorem edge_mag_flip (LL RL LR RR : MState ℝ) (ELL ERL ELR ERR : ℝ) :
    mag_riemann2d_hlld S LL.flip LR.flip RL.flip RR.flip (-ELL) (-ELR) (-ERL) (-ERR) =
      -mag_riemann2d_hlld S LL RL LR RR ELL ERL ELR ERR := by
  have ho := edge_waves_order (S := S) LL RL LR RR
  rw [edge_mag_combine, edge_mag_combine]
  simp only [edge_waves_flip]
  generalize emfWaves S LL RL LR RR = W at *
  simp only [EmfWaves.flip, edge_star_flip]
  rw [← edge_combine_flip _ _ _ _ _ _ _ _ _ _ _ _ _ _ _ _ _ _ _ _ ho.1 ho.2]
  simp only [EmfStar.flip, MState.flip]
  generalize emfStar LL W.SL W.ustar W.SB W.vstar = sLL
  generalize emfStar LR W.SL W.ustar W.ST W.vstar = sLR
  generalize emfStar RL W.SR W.ustar W.SB W.vstar = sRL
  generalize emfStar RR W.SR W.ustar W.ST W.vstar = sRR
  rw [alfvenMax_comm RL.b, alfvenMax_comm RR.b, alfvenMax_comm LL.a, alfvenMax_comm RL.a]

/-! ### Mirror -/

/-- Waves in the mirror. -/
noncomputable def EmfWaves.mirror (W : EmfWaves ℝ) : EmfWaves ℝ :=
  ⟨-W.SR, -W.SL, W.SB, W.ST, -W.ustar, W.vstar⟩

theorem speeds_mirror (q : MState ℝ) : find_speed_fast_x S (mmirror q) = find_speed_fast_x S q ∧
    find_speed_fast_y S (mmirror q) = find_speed_fast_y S q := by
  constructor
  · simp only [find_speed_fast_x, fastSpeed, mmirror]
    rops
    simp only [neg_mul_neg, mul_neg, neg_mul, neg_neg]
  · simp only [find_speed_fast_y, fastSpeed, mmirror]
    rops
    simp only [neg_mul_neg]

theorem edge_waves_mirror (LL RL LR RR : MState ℝ) :
    emfWaves S (mmirror RL) (mmirror LL) (mmirror RR) (mmirror LR) =
      (emfWaves S LL RL LR RR).mirror := by
  unfold emfWaves EmfWaves.mirror
  simp only [speeds_mirror, FMAX4_eq, FMIN4_eq]
  have m1 : ∀ a b c d : ℝ, max (max c d) (max a b) = max (max a b) (max c d) := fun a b c d => max_comm _ _
  have m2 : ∀ a b c d : ℝ, min (min c d) (min a b) = min (min a b) (min c d) := fun a b c d => min_comm _ _
  simp only [mmirror, min_neg_neg, max_neg_neg, neg_mul_neg]
  rw [m1 (find_speed_fast_y S LL), m1 (find_speed_fast_x S LL), m1 LL.v, m1 LL.u, m2 LL.v, m2 LL.u]
  rops
  generalize max (max (find_speed_fast_x S LL) (find_speed_fast_x S LR))
    (max (find_speed_fast_x S RL) (find_speed_fast_x S RR)) = cx
  generalize max (max (find_speed_fast_y S LL) (find_speed_fast_y S LR))
    (max (find_speed_fast_y S RL) (find_speed_fast_y S RR)) = cy
  generalize min (min LL.u LR.u) (min RL.u RR.u) = x1
  generalize max (max LL.u LR.u) (max RL.u RR.u) = x2
  generalize min (min LL.v LR.v) (min RL.v RR.v) = x3
  generalize max (max LL.v LR.v) (max RL.v RR.v) = x4
  simp only [EmfWaves.mk.injEq, true_and]
  refine ⟨by ring, by ring, ?_, ?_⟩
  · rw [← neg_div]
    congr 1 <;> ring
  · congr 1 <;> ring

/-- Star values in the mirror. -/
noncomputable def EmfStar.mirror (s : EmfStar ℝ) : EmfStar ℝ :=
  ⟨s.rx, s.B, s.ry, -s.A, s.r, -s.Ex, -s.Ey, -s.E⟩

theorem edge_star_mirror (q : MState ℝ) (sx us sy vs : ℝ) :
    emfStar (mmirror q) (-sx) (-us) sy vs = (emfStar q sx us sy vs).mirror := by
  have e1 : ∀ k : ℝ, k * (-sx - -q.u) / (-sx - -us) = k * (sx - q.u) / (sx - us) := by
    intro k
    rw [show k * (-sx - -q.u) = -(k * (sx - q.u)) by ring, show -sx - -us = -(sx - us) by ring,
      neg_div_neg_eq]
  unfold emfStar EmfStar.mirror mmirror
  rops
  simp only [e1, EmfStar.mk.injEq, true_and]
  refine ⟨by ring, by ring, by ring, by ring⟩

theorem edge_combine_mirror {SL SR SB ST : ℝ} (SAL SAR SAB SAT : ℝ) (LL RL LR RR : EmfStar ℝ)
    (aLL aRL aLR aRR bLL bRL bLR bRR ELL ERL ELR ERR : ℝ) (h1 : SL ≤ SR) (n1 : SL ≠ 0) (n2 : SR ≠ 0) :
    emfCombine (-SR) (-SL) SB ST (-SAR) (-SAL) SAB SAT RL.mirror LL.mirror RR.mirror LR.mirror
      (-aRL) (-aLL) (-aRR) (-aLR) bRL bLL bRR bLR (-ERL) (-ELL) (-ERR) (-ELR) =
    -emfCombine SL SR SB ST SAL SAR SAB SAT LL RL LR RR aLL aRL aLR aRR bLL bRL bLR bRR ELL ERL ELR ERR := by
  have q1 : (0 ≤ -SR) = ¬ (0 ≤ SR) := by
    simp only [eq_iff_iff, not_le]
    exact ⟨fun h => lt_of_le_of_ne (by linarith) n2, fun h => by linarith⟩
  have q2 : (0 ≤ -SL) = ¬ (0 ≤ SL) := by
    simp only [eq_iff_iff, not_le]
    exact ⟨fun h => lt_of_le_of_ne (by linarith) n1, fun h => by linarith⟩
  have d1 : -SAL - -SAR = SAR - SAL := by ring
  unfold emfCombine EmfStar.mirror
  simp only [q1, q2, d1]
  by_cases p1 : 0 ≤ SB <;> by_cases p2 : 0 ≤ ST <;> by_cases p3 : 0 ≤ SL <;>
    by_cases p4 : 0 ≤ SR <;> first
    | exact absurd (le_trans p3 h1) p4
    | (simp only [p1, p2, p3, p4, if_true, if_false, not_true, not_false_iff]; done)
    | (simp only [p1, p2, p3, p4, if_true, if_false, not_true, not_false_iff]; ring)

theorem edge_mag_mirror (LL RL LR RR : MState ℝ) (ELL ERL ELR ERR : ℝ)
    (n1 : (emfWaves S LL RL LR RR).SL ≠ 0) (n2 : (emfWaves S LL RL LR RR).SR ≠ 0) :
    mag_riemann2d_hlld S (mmirror RL) (mmirror LL) (mmirror RR) (mmirror LR) (-ERL) (-ELL) (-ERR) (-ELR) =
      -mag_riemann2d_hlld S LL RL LR RR ELL ERL ELR ERR := by
  have ho := edge_waves_order (S := S) LL RL LR RR
  rw [edge_mag_combine, edge_mag_combine]
  simp only [edge_waves_mirror]
  generalize emfWaves S LL RL LR RR = W at *
  simp only [EmfWaves.mirror, edge_star_mirror]
  rw [← edge_combine_mirror _ _ _ _ _ _ _ _ _ _ _ _ _ _ _ _ _ _ _ _ ho.1 n1 n2]
  simp only [EmfStar.mirror, mmirror, alfvenMax_neg]
  generalize emfStar LL W.SL W.ustar W.SB W.vstar = sLL
  generalize emfStar LR W.SL W.ustar W.ST W.vstar = sLR
  generalize emfStar RL W.SR W.ustar W.SB W.vstar = sRL
  generalize emfStar RR W.SR W.ustar W.ST W.vstar = sRR
  have t1 : ∀ u k : ℝ, min (-u - k) 0 = -max (u + k) 0 := by
    intro u k
    rw [← min_neg_neg]; congr 1 <;> ring
  have t2 : ∀ u k : ℝ, max (-u + k) 0 = -min (u - k) 0 := by
    intro u k
    rw [← max_neg_neg]; congr 1 <;> ring
  rw [t1, t2, alfvenMax_comm RL.b, alfvenMax_comm RR.b]

end Verif
