import Verif.Lemmas.EmfSymmetry
import Verif.Props.C95_C97_MhdScheme

/-!
**C98**: the solver for the electric field on an edge respects the symmetries of the equations and is
diffusive.

An edge along axis `e` has four cells around it.  With `f = next e` and `s = next f` the arguments of the
solver are the states of the cell on the lower side in both directions (`ll`), lower in `f` and upper in
`s` (`lu`), upper in `f` and lower in `s` (`ul`), upper in both (`uu`).  The result is the component along
`e` of velocity times field.
-/

namespace Verif

open ROps Spec

namespace Spec

/-- Exchange two axes. -/
def swapAxes (f s : Dir) (q : MState ℝ) : MState ℝ :=
  let σ := fun d => if d = f then s else if d = s then f else d
  mkState q.d q.p (fun d => vel q (σ d)) (fun d => mag q (σ d))

/-- Reverse one axis. -/
def reverseAxis (f : Dir) (q : MState ℝ) : MState ℝ :=
  mkState q.d q.p (fun d => if d = f then -vel q d else vel q d)
    (fun d => if d = f then -mag q d else mag q d)

/-- Reverse the magnetic field. -/
def reverseField (q : MState ℝ) : MState ℝ := mkState q.d q.p (vel q) (fun d => -mag q d)

/-- Sum of the gas pressure and the magnetic pressure. -/
noncomputable def totalPressure (q : MState ℝ) : ℝ := q.p + fieldSq q / 2

end Spec

variable {S : MSettings ℝ}

/-! ### Helpers -/

/-- The state of one of the four cells with the averaged field of its faces. -/
noncomputable def edgeCorner (S : MSettings ℝ) (q : MState ℝ) (a b : ℝ) : MState ℝ :=
  ⟨q.d, isoPressure S q.d q.p, q.u, q.v, q.w, a, b, q.c⟩

/-- `compute_emf` of states already turned. -/
noncomputable def edgeEmf (S : MSettings ℝ) (rt rb lt lb : MState ℝ) : ℝ :=
  let bottom := 1 / 2 * (rt.a + lt.a)
  let top := 1 / 2 * (rb.a + lb.a)
  let left := 1 / 2 * (rt.b + rb.b)
  let right := 1 / 2 * (lt.b + lb.b)
  mag_riemann2d_hlld S (edgeCorner S rt bottom left) (edgeCorner S lt bottom right)
    (edgeCorner S rb top left) (edgeCorner S lb top right)
    (rt.u * left - rt.v * bottom) (lt.u * right - lt.v * bottom)
    (rb.u * left - rb.v * top) (lb.u * right - lb.v * top)

theorem compute_emf_eq (e : EmfDir) (rt rb lt lb : MState ℝ) :
    compute_emf S e rt rb lt lb = edgeEmf S (rt.turn e) (rb.turn e) (lt.turn e) (lb.turn e) := by
  unfold compute_emf edgeEmf edgeCorner
  rops

/-- Outer wave speeds along the first and the second axis. -/
noncomputable def edgeWaves (S : MSettings ℝ) (rt rb lt lb : MState ℝ) : EmfWaves ℝ :=
  let bottom := 1 / 2 * (rt.a + lt.a)
  let top := 1 / 2 * (rb.a + lb.a)
  let left := 1 / 2 * (rt.b + rb.b)
  let right := 1 / 2 * (lt.b + lb.b)
  emfWaves S (edgeCorner S rt bottom left) (edgeCorner S lt bottom right)
    (edgeCorner S rb top left) (edgeCorner S lb top right)

theorem edgeEmf_flip (rt rb lt lb : MState ℝ) :
    edgeEmf S rt.flip lt.flip rb.flip lb.flip = -edgeEmf S rt rb lt lb := by
  unfold edgeEmf
  rw [← edge_mag_flip]
  simp only [edgeCorner, MState.flip, neg_sub]

theorem edgeEmf_mirror (rt rb lt lb : MState ℝ) (n1 : (edgeWaves S rt rb lt lb).SL ≠ 0)
    (n2 : (edgeWaves S rt rb lt lb).SR ≠ 0) :
    edgeEmf S (mmirror lt) (mmirror lb) (mmirror rt) (mmirror rb) = -edgeEmf S rt rb lt lb := by
  unfold edgeEmf
  rw [← edge_mag_mirror _ _ _ _ _ _ _ _ n1 n2]
  have e1 : ∀ x y : ℝ, 1 / 2 * (-y + -x) = -(1 / 2 * (x + y)) := fun x y => by ring
  have e2 : ∀ x y z w : ℝ, -x * y - z * -w = -(x * y - z * w) := fun x y z w => by ring
  simp only [edgeCorner, mmirror, e1, e2]

theorem edgeWaves_flip (rt rb lt lb : MState ℝ) :
    edgeWaves S rt.flip lt.flip rb.flip lb.flip = (edgeWaves S rt rb lt lb).flip := by
  unfold edgeWaves
  rw [← edge_waves_flip]
  simp only [edgeCorner, MState.flip]

/-- Reverse the second axis. -/
def MState.mirror2 (q : MState ℝ) : MState ℝ := (mmirror q.flip).flip

theorem edgeEmf_mirror2 (rt rb lt lb : MState ℝ) (n1 : (edgeWaves S rt rb lt lb).SB ≠ 0)
    (n2 : (edgeWaves S rt rb lt lb).ST ≠ 0) :
    edgeEmf S rb.mirror2 rt.mirror2 lb.mirror2 lt.mirror2 = -edgeEmf S rt rb lt lb := by
  unfold MState.mirror2
  rw [edgeEmf_flip, edgeEmf_mirror, edgeEmf_flip, neg_neg]
  · rw [edgeWaves_flip]; exact n1
  · rw [edgeWaves_flip]; exact n2

/-- Reverse the third axis. -/
def MState.mirror3 (q : MState ℝ) : MState ℝ := ⟨q.d, q.p, q.u, q.v, -q.w, q.a, q.b, -q.c⟩

theorem edgeEmf_mirror3 (rt rb lt lb : MState ℝ) :
    edgeEmf S rt.mirror3 rb.mirror3 lt.mirror3 lb.mirror3 = edgeEmf S rt rb lt lb := by
  unfold edgeEmf
  have w : ∀ q1 q2 q3 q4 : MState ℝ,
      emfWaves S q1.mirror3 q2.mirror3 q3.mirror3 q4.mirror3 = emfWaves S q1 q2 q3 q4 := by
    intro q1 q2 q3 q4
    unfold emfWaves find_speed_fast_x find_speed_fast_y fastSpeed MState.mirror3
    rops
    simp only [neg_mul_neg]
  have c : ∀ (q : MState ℝ) (a b : ℝ), edgeCorner S q.mirror3 a b = (edgeCorner S q a b).mirror3 :=
    fun _ _ _ => rfl
  simp only [c]
  rw [edge_mag_combine, edge_mag_combine]
  simp only [w]
  rfl

theorem edgeEmf_reverse (rt rb lt lb : MState ℝ) :
    let N := fun q : MState ℝ => MState.mk q.d q.p q.u q.v q.w (-q.a) (-q.b) (-q.c)
    edgeEmf S (N rt) (N rb) (N lt) (N lb) = -edgeEmf S rt rb lt lb := by
  intro N
  have w : ∀ q1 q2 q3 q4 : MState ℝ, emfWaves S (N q1) (N q2) (N q3) (N q4) = emfWaves S q1 q2 q3 q4 := by
    intro q1 q2 q3 q4
    unfold emfWaves find_speed_fast_x find_speed_fast_y fastSpeed
    rops
    simp only [N, neg_mul, mul_neg, neg_neg]
  have s : ∀ (q : MState ℝ) (sx us sy vs : ℝ), emfStar (N q) sx us sy vs =
      (let z := emfStar q sx us sy vs; EmfStar.mk z.rx (-z.B) z.ry (-z.A) z.r (-z.Ex) (-z.Ey) (-z.E)) := by
    intro q sx us sy vs
    unfold emfStar
    rops
    simp only [N, EmfStar.mk.injEq, true_and]
    refine ⟨by ring, by ring, by ring, by ring, by ring⟩
  have c : ∀ (q : MState ℝ) (a b : ℝ), edgeCorner S (N q) (-a) (-b) = N (edgeCorner S q a b) :=
    fun _ _ _ => rfl
  have h : ∀ x y : ℝ, 1 / 2 * (-x + -y) = -(1 / 2 * (x + y)) := fun x y => by ring
  unfold edgeEmf
  simp only [show ∀ q, (N q).a = -q.a from fun _ => rfl, show ∀ q, (N q).b = -q.b from fun _ => rfl,
    show ∀ q, (N q).u = q.u from fun _ => rfl, show ∀ q, (N q).v = q.v from fun _ => rfl, h, c]
  rw [edge_mag_combine, edge_mag_combine]
  simp only [w, s, show ∀ q, (N q).a = -q.a from fun _ => rfl,
    show ∀ q, (N q).b = -q.b from fun _ => rfl, alfvenMax_neg]
  unfold emfCombine
  split_ifs <;> ring

/-- The solver for gas at rest with equal total pressures. -/
theorem edgeEmf_rest (hg : 1 < S.gamma0) (hc : 0 < S.smallc) {rt rb lt lb : MState ℝ}
    (hq : ∀ q ∈ [rt, rb, lt, lb], Physical q ∧ q.u = 0 ∧ q.v = 0) {P : ℝ} (hi : S.cIso ≤ 0)
    (ha1 : rt.a = lt.a) (ha2 : rb.a = lb.a) (hb1 : rt.b = rb.b) (hb2 : lt.b = lb.b)
    (hp : ∀ q ∈ [rt, rb, lt, lb], totalPressure q = P) :
    ∃ kA kB : ℝ, 0 < kA ∧ 0 < kB ∧
      edgeEmf S rt rb lt lb = kA * (rb.a - rt.a) - kB * (lt.b - rt.b) := by
  simp only [List.mem_cons, List.not_mem_nil, or_false, forall_eq_or_imp, forall_eq] at hq hp
  obtain ⟨⟨p1, u1, v1⟩, ⟨p2, u2, v2⟩, ⟨p3, u3, v3⟩, ⟨p4, u4, v4⟩⟩ := hq
  obtain ⟨t1, t2, t3, t4⟩ := hp
  have iso : ∀ q : MState ℝ, isoPressure S q.d q.p = q.p := by
    intro q
    unfold isoPressure
    rops
    rw [if_neg (by linarith)]
  have h2 : ∀ x : ℝ, 1 / 2 * (x + x) = x := fun x => by ring
  have c1 : edgeCorner S rt (1 / 2 * (rt.a + lt.a)) (1 / 2 * (rt.b + rb.b)) = rt := by
    rw [edgeCorner, iso, ← ha1, ← hb1, h2, h2]
  have c2 : edgeCorner S lt (1 / 2 * (rt.a + lt.a)) (1 / 2 * (lt.b + lb.b)) = lt := by
    rw [edgeCorner, iso, ha1, ← hb2, h2, h2]
  have c3 : edgeCorner S rb (1 / 2 * (rb.a + lb.a)) (1 / 2 * (rt.b + rb.b)) = rb := by
    rw [edgeCorner, iso, ← ha2, hb1, h2, h2]
  have c4 : edgeCorner S lb (1 / 2 * (rb.a + lb.a)) (1 / 2 * (lt.b + lb.b)) = lb := by
    rw [edgeCorner, iso, ha2, hb2, h2, h2]
  unfold edgeEmf
  simp only [c1, c2, c3, c4]
  rw [edge_mag_combine]
  obtain ⟨W, hW⟩ : ∃ W, W = emfWaves S rt lt rb lb := ⟨_, rfl⟩
  have g0 : 0 < S.gamma0 := by linarith
  have hax : ∀ q : MState ℝ, q.a ^ 2 ≤ fieldSq q := fun q => by
    unfold fieldSq; nlinarith [sq_nonneg q.b, sq_nonneg q.c]
  have hbx : ∀ q : MState ℝ, q.b ^ 2 ≤ fieldSq q := fun q => by
    unfold fieldSq; nlinarith [sq_nonneg q.a, sq_nonneg q.c]
  have pt : ∀ q : MState ℝ, q.p + 1 / 2 * (q.a * q.a + q.b * q.b + q.c * q.c) = totalPressure q :=
    fun q => by unfold totalPressure fieldSq; ring
  have wu : W.ustar = 0 := by
    rw [hW]
    unfold emfWaves
    rops
    simp only [pt, t1, t2, t3, t4, u1, u2, u3, u4]
    ring
  have wv : W.vstar = 0 := by
    rw [hW]
    unfold emfWaves
    rops
    simp only [pt, t1, t2, t3, t4, v1, v2, v3, v4]
    ring
  have fx : 0 < FMAX4 (find_speed_fast_x S rt) (find_speed_fast_x S rb) (find_speed_fast_x S lt)
      (find_speed_fast_x S lb) := lt_of_lt_of_le (fastSpeed_pos p1 g0 (hax rt)) (FMAX4_ge _ _ _ _).1
  have fy : 0 < FMAX4 (find_speed_fast_y S rt) (find_speed_fast_y S rb) (find_speed_fast_y S lt)
      (find_speed_fast_y S lb) := lt_of_lt_of_le (fastSpeed_pos p1 g0 (hbx rt)) (FMAX4_ge _ _ _ _).1
  have s1 : W.SL < 0 := by
    rw [hW]; unfold emfWaves; rops
    simp only [u1, u2, u3, u4, FMIN4_eq, min_self]
    linarith
  have s2 : 0 < W.SR := by
    rw [hW]; unfold emfWaves; rops
    simp only [u1, u2, u3, u4, FMAX4_eq (0 : ℝ), max_self]
    linarith
  have s3 : W.SB < 0 := by
    rw [hW]; unfold emfWaves; rops
    simp only [v1, v2, v3, v4, FMIN4_eq, min_self]
    linarith
  have s4 : 0 < W.ST := by
    rw [hW]; unfold emfWaves; rops
    simp only [v1, v2, v3, v4, FMAX4_eq (0 : ℝ), max_self]
    linarith
  simp only [← hW]
  have st : ∀ (q : MState ℝ) (sx sy : ℝ), q.u = 0 → q.v = 0 → sx ≠ 0 → sy ≠ 0 →
      (emfStar q sx W.ustar sy W.vstar).A = q.a ∧ (emfStar q sx W.ustar sy W.vstar).B = q.b ∧
      (emfStar q sx W.ustar sy W.vstar).E = 0 := by
    intro q sx sy hu hv hx hy
    unfold emfStar
    rops
    simp only [wu, wv, hu, hv, sub_zero]
    refine ⟨?_, ?_, by ring⟩ <;> field_simp
  obtain ⟨A1, B1, E1⟩ := st rt _ _ u1 v1 s1.ne s3.ne
  obtain ⟨A2, B2, E2⟩ := st rb _ _ u2 v2 s1.ne s4.ne'
  obtain ⟨A3, B3, E3⟩ := st lt _ _ u3 v3 s2.ne' s3.ne
  obtain ⟨A4, B4, E4⟩ := st lb _ _ u4 v4 s2.ne' s4.ne'
  unfold emfCombine
  rw [if_neg (not_le.2 s3), if_pos s4.le, if_neg (not_le.2 s1), if_pos s2.le]
  rw [A1, A2, A3, A4, B1, B2, B3, B4, E1, E2, E3, E4, wu, wv]
  have al : ∀ f1 r1 f2 r2 f3 r3 f4 r4, 0 < alfvenMax S f1 r1 f2 r2 f3 r3 f4 r4 := fun _ _ _ _ _ _ _ _ =>
    lt_of_lt_of_le hc (le_max_right _ _)
  have m1 : ∀ k : ℝ, 0 < k → min (0 - k) 0 = -k := fun k hk => by rw [min_eq_left] <;> linarith
  have m2 : ∀ k : ℝ, 0 < k → max (0 + k) 0 = k := fun k hk => by rw [max_eq_left] <;> linarith
  rw [m1 _ (al _ _ _ _ _ _ _ _), m2 _ (al _ _ _ _ _ _ _ _), m1 _ (al _ _ _ _ _ _ _ _),
    m2 _ (al _ _ _ _ _ _ _ _)]
  have q1 := al rb.a (emfStar rb W.SL W.ustar W.ST W.vstar).rx rb.a (emfStar rb W.SL W.ustar W.ST W.vstar).r
    rt.a (emfStar rt W.SL W.ustar W.SB W.vstar).rx rt.a (emfStar rt W.SL W.ustar W.SB W.vstar).r
  have q2 := al lb.a (emfStar lb W.SR W.ustar W.ST W.vstar).rx lb.a (emfStar lb W.SR W.ustar W.ST W.vstar).r
    lt.a (emfStar lt W.SR W.ustar W.SB W.vstar).rx lt.a (emfStar lt W.SR W.ustar W.SB W.vstar).r
  have q3 := al rt.b (emfStar rt W.SL W.ustar W.SB W.vstar).ry rt.b (emfStar rt W.SL W.ustar W.SB W.vstar).r
    lt.b (emfStar lt W.SR W.ustar W.SB W.vstar).ry lt.b (emfStar lt W.SR W.ustar W.SB W.vstar).r
  have q4 := al rb.b (emfStar rb W.SL W.ustar W.ST W.vstar).ry rb.b (emfStar rb W.SL W.ustar W.ST W.vstar).r
    lb.b (emfStar lb W.SR W.ustar W.ST W.vstar).ry lb.b (emfStar lb W.SR W.ustar W.ST W.vstar).r
  rw [wu, wv] at q1 q2 q3 q4
  generalize alfvenMax S rb.a _ rb.a _ rt.a _ rt.a _ = x1 at *
  generalize alfvenMax S lb.a _ lb.a _ lt.a _ lt.a _ = x2 at *
  generalize alfvenMax S rt.b _ rt.b _ lt.b _ lt.b _ = x3 at *
  generalize alfvenMax S rb.b _ rb.b _ lb.b _ lb.b _ = x4 at *
  refine ⟨x4 * x3 / (x4 + x3), x2 * x1 / (x2 + x1), by positivity, by positivity, ?_⟩
  rw [← ha1, ← ha2, ← hb1, ← hb2]
  have n1 : x2 + x1 ≠ 0 := by positivity
  have n2 : x4 + x3 ≠ 0 := by positivity
  rw [show x2 - -x1 = x2 + x1 by ring, show x4 - -x3 = x4 + x3 by ring]
  field_simp
  ring

/-! ### Properties -/

/-- **C98, exchange of the axes**: seen with the two axes across the edge exchanged the electric field
changes its sign. -/
theorem C98_exchange (e : Dir) (ll lu ul uu : MState ℝ) :
    let T := swapAxes (next e) (next (next e))
    compute_emf S e.emf (T ll) (T ul) (T lu) (T uu) = -compute_emf S e.emf ll lu ul uu := by
  intro T
  have t : ∀ q : MState ℝ, (T q).turn e.emf = (q.turn e.emf).flip := by
    intro q
    cases e <;> rfl
  rw [compute_emf_eq, compute_emf_eq, t, t, t, t, edgeEmf_flip]

/-- The speeds of the outer waves around an edge, as computed by the code: along the next axis and along
the one after it. -/
noncomputable def edgeFan (S : MSettings ℝ) (e : Dir) (ll lu ul uu : MState ℝ) : List ℝ :=
  let W := edgeWaves S (ll.turn e.emf) (lu.turn e.emf) (ul.turn e.emf) (uu.turn e.emf)
  [W.SL, W.SR, W.SB, W.ST]

/-- **C98, reflection**: reversing one of the axes across the edge (and exchanging the cells) changes the
sign of the electric field along the edge; no outer wave may be at rest exactly. -/
theorem C98_reflect (e : Dir) (ll lu ul uu : MState ℝ)
    (hn : ∀ s ∈ edgeFan S e ll lu ul uu, s ≠ 0) :
    let F := reverseAxis (next e)
    let G := reverseAxis (next (next e))
    compute_emf S e.emf (F ul) (F uu) (F ll) (F lu) = -compute_emf S e.emf ll lu ul uu ∧
    compute_emf S e.emf (G lu) (G ll) (G uu) (G ul) = -compute_emf S e.emf ll lu ul uu := by
  intro F G
  have t : ∀ q : MState ℝ, (F q).turn e.emf = mmirror (q.turn e.emf) := by
    intro q
    cases e <;> rfl
  have t' : ∀ q : MState ℝ, (G q).turn e.emf = (q.turn e.emf).mirror2 := by
    intro q
    cases e <;> rfl
  simp only [edgeFan, List.mem_cons, List.not_mem_nil, or_false, forall_eq_or_imp, forall_eq] at hn
  obtain ⟨n1, n2, n3, n4⟩ := hn
  simp only [compute_emf_eq, t, t']
  exact ⟨edgeEmf_mirror _ _ _ _ n1 n2, edgeEmf_mirror2 _ _ _ _ n3 n4⟩

/-- **C98, reflection along the edge**: reversing the axis along the edge does not change the result. -/
theorem C98_along (e : Dir) (ll lu ul uu : MState ℝ) :
    let R := reverseAxis e
    compute_emf S e.emf (R ll) (R lu) (R ul) (R uu) = compute_emf S e.emf ll lu ul uu := by
  intro R
  have t : ∀ q : MState ℝ, (R q).turn e.emf = (q.turn e.emf).mirror3 := by
    intro q
    cases e <;> rfl
  simp only [compute_emf_eq, t, edgeEmf_mirror3]

/-- **C98, polarity**: reversing the magnetic field reverses the electric field. -/
theorem C98_polarity (e : Dir) (ll lu ul uu : MState ℝ) :
    let N := reverseField
    compute_emf S e.emf (N ll) (N lu) (N ul) (N uu) = -compute_emf S e.emf ll lu ul uu := by
  intro N
  have t : ∀ q : MState ℝ, (N q).turn e.emf = (let r := q.turn e.emf
      MState.mk r.d r.p r.u r.v r.w (-r.a) (-r.b) (-r.c)) := by
    intro q
    cases e <;> rfl
  simp only [compute_emf_eq, t]
  exact edgeEmf_reverse _ _ _ _

/-- **C98, diffusion**: in gas at rest across the edge, with the same total pressure in the four cells and
each field component continuous across the faces it is orthogonal to, the electric field is that of a
positive resistivity: minus the current along the edge, with positive weights of its two parts. -/
theorem C98_diffusion (hS : MhdParams S) (hi : S.cIso ≤ 0) (e : Dir) {ll lu ul uu : MState ℝ} {P : ℝ}
    (hq : ∀ q ∈ [ll, lu, ul, uu], Physical q ∧ totalPressure q = P ∧ ∀ d, d ≠ e → vel q d = 0)
    (hf : mag ll (next e) = mag ul (next e) ∧ mag lu (next e) = mag uu (next e))
    (hs : mag ll (next (next e)) = mag lu (next (next e)) ∧
      mag ul (next (next e)) = mag uu (next (next e))) :
    ∃ k k' : ℝ, 0 < k ∧ 0 < k' ∧ compute_emf S e.emf ll lu ul uu =
      -(k * (mag ul (next (next e)) - mag ll (next (next e))) - k' * (mag lu (next e) - mag ll (next e))) := by
  have hh : ∀ q ∈ [ll, lu, ul, uu], (Physical (q.turn e.emf) ∧ (q.turn e.emf).u = 0 ∧
      (q.turn e.emf).v = 0) ∧ totalPressure (q.turn e.emf) = P := by
    intro q hm
    obtain ⟨h1, h2, h3⟩ := hq q hm
    refine ⟨⟨turn_physical h1 _, ?_, ?_⟩, ?_⟩
    · have := h3 (next e) (by cases e <;> decide)
      cases e <;> exact this
    · have := h3 (next (next e)) (by cases e <;> decide)
      cases e <;> exact this
    · rw [← h2]
      cases e <;> simp only [totalPressure, fieldSq, Dir.emf, MState.turn] <;> ring
  have fe : ∀ q : MState ℝ, (q.turn e.emf).a = mag q (next e) := fun q => by cases e <;> rfl
  have se : ∀ q : MState ℝ, (q.turn e.emf).b = mag q (next (next e)) := fun q => by cases e <;> rfl
  obtain ⟨kA, kB, hA, hB, hE⟩ := edgeEmf_rest (S := S) hS.gamma hS.smallc (rt := ll.turn e.emf)
    (rb := lu.turn e.emf) (lt := ul.turn e.emf) (lb := uu.turn e.emf) (P := P)
    (by
      intro q hm
      simp only [List.mem_cons, List.not_mem_nil, or_false] at hm
      rcases hm with rfl | rfl | rfl | rfl
      · exact (hh ll (by simp)).1
      · exact (hh lu (by simp)).1
      · exact (hh ul (by simp)).1
      · exact (hh uu (by simp)).1) hi
    (by rw [fe, fe]; exact hf.1) (by rw [fe, fe]; exact hf.2) (by rw [se, se]; exact hs.1)
    (by rw [se, se]; exact hs.2)
    (by
      intro q hm
      simp only [List.mem_cons, List.not_mem_nil, or_false] at hm
      rcases hm with rfl | rfl | rfl | rfl
      · exact (hh ll (by simp)).2
      · exact (hh lu (by simp)).2
      · exact (hh ul (by simp)).2
      · exact (hh uu (by simp)).2)
  refine ⟨kB, kA, hB, hA, ?_⟩
  rw [compute_emf_eq, hE, fe, fe, se, se]
  ring

/-- The premises of `C98_diffusion` hold for a current sheet with balanced pressure. -/
example : ∃ k k' : ℝ, 0 < k ∧ 0 < k' ∧ compute_emf exampleMhd .z ⟨1, 3, 0, 0, 5, 1, 2, 0⟩
    ⟨2, 3 / 2, 0, 0, 0, 2, 2, 0⟩ ⟨1, 9 / 2, 0, 0, 0, 1, 1, 0⟩ ⟨1, 3, 0, 0, 1, 2, 1, 0⟩ =
      -(k * (1 - 2) - k' * (2 - 1)) := by
  refine C98_diffusion (S := exampleMhd) (P := 11 / 2) ?_ ?_ .z ?_ ?_ ?_
  · constructor <;> norm_num [exampleMhd, exampleSettings]
  · norm_num [exampleMhd]
  · intro q hm
    simp only [List.mem_cons, List.not_mem_nil, or_false] at hm
    rcases hm with rfl | rfl | rfl | rfl
    all_goals
      refine ⟨⟨by norm_num, by norm_num⟩, by norm_num [totalPressure, fieldSq], ?_⟩
      intro d hd
      cases d <;> simp_all [vel]
  · exact ⟨rfl, rfl⟩
  · exact ⟨rfl, rfl⟩

/-- The premises of `C98_reflect` hold for gas at rest. -/
example (hS : MhdParams S) (q : MState ℝ) (hq : Physical q) (hu : q.u = 0) (hv : q.v = 0) :
    ∀ s ∈ edgeFan S .z q q q q, s ≠ 0 := by
  have k : Physical (edgeCorner S q (1 / 2 * (q.a + q.a)) (1 / 2 * (q.b + q.b))) :=
    ⟨hq.d, isoPressure_pos hq.d hq.p⟩
  have g : 0 < S.gamma0 := by have := hS.gamma; linarith
  have h1 := fastSpeed_pos (bn := 1 / 2 * (q.a + q.a)) k g (by
    simp only [fieldSq, edgeCorner]; nlinarith [sq_nonneg (1 / 2 * (q.b + q.b)), sq_nonneg q.c])
  have h2 := fastSpeed_pos (bn := 1 / 2 * (q.b + q.b)) k g (by
    simp only [fieldSq, edgeCorner]; nlinarith [sq_nonneg (1 / 2 * (q.a + q.a)), sq_nonneg q.c])
  intro s hs
  simp only [edgeFan, edgeWaves, emfWaves, Dir.emf, MState.turn, List.mem_cons, List.not_mem_nil,
    or_false, FMAX4_eq, FMIN4_eq, max_self, min_self, find_speed_fast_x, find_speed_fast_y] at hs
  have eu : (edgeCorner S q (1 / 2 * (q.a + q.a)) (1 / 2 * (q.b + q.b))).u = 0 := hu
  have ev : (edgeCorner S q (1 / 2 * (q.a + q.a)) (1 / 2 * (q.b + q.b))).v = 0 := hv
  rw [eu, ev] at hs
  rcases hs with rfl | rfl | rfl | rfl
  · rw [zero_sub, neg_ne_zero]; exact h1.ne'
  · rw [zero_add]; exact h1.ne'
  · rw [zero_sub, neg_ne_zero]; exact h2.ne'
  · rw [zero_add]; exact h2.ne'

end Verif
