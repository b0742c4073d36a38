import Verif.Spec.SdmViscous
import Verif.Lemmas.SdmReal

/-! Helper lemmas: velocity gradients of the spectral difference solver. -/

namespace Verif.Sdm

open Verif K Function ROps

variable {α : Type} [ROps α]

theorem loadQuot_reads (n : ℕ) (num den : ℕ → Addr) (m : Addr → α) :
    Reads (loadQuot n num den) m fun k => if k < n then m (num k) / m (den k) else lit 0 := by
  induction n with
  | zero => simp only [Nat.not_lt_zero, if_false]; exact Reads.ret _ _
  | succ n ih =>
    have := ih.bind (f := fun f => (K.load (num n)).bind fun x => (K.load (den n)).bind fun y =>
      (.ret fun k => if k = n then x / y else f k : K Addr α (ℕ → α)))
      ((Reads.load (num n) m).bind ((Reads.load (den n) m).bind (Reads.ret _ m)))
    have e : (fun k => if k < n + 1 then m (num k) / m (den k) else (lit 0 : α)) =
        fun k => if k = n then m (num n) / m (den n) else
          if k < n then m (num k) / m (den k) else lit 0 := by
      funext k
      by_cases h : k = n
      · subst h; simp
      · have : (k < n + 1) ↔ k < n := by omega
        simp [h, this]
    rw [e]; exact this

theorem loadQuot_fp {R W C : Addr → Prop} {n : ℕ} {num den : ℕ → Addr} (h : ∀ k, k < n → R (num k))
    (h' : ∀ k, k < n → R (den k)) : (loadQuot n num den : K Addr α _).FP R W C := by
  induction n with
  | zero => trivial
  | succ n ih =>
    exact FP.bind (ih (fun k hk => h k (by omega)) fun k hk => h' k (by omega)) fun f =>
      FP.bind (FP.load (h n (by omega))) fun x => FP.bind (FP.load (h' n (by omega))) fun y => FP.ret

theorem velDims_lt (d3 : Bool) {i : ℕ} (h : i < velDims d3) : 2 + i < hydroVars d3 ∧ i < hydroVars d3 := by
  cases d3 <;> simp [velDims, hydroVars] at h ⊢ <;> omega

theorem sdm_visc {d3 : Bool} {N : ℕ} {P : Grid} {ti : Mood.TimeInt} {a : Addr} (h : sdmDom d3 N P ti a) :
    viscDom d3 N P ti a := .inl h

theorem vgrad_dom {M : Scheme α} {P : Grid} {ti : Mood.TimeInt} {d : Dir} (hd : M.d3 = true ∨ d ≠ .z)
    {c : Cell} {p : Pt} {iv : ℕ} (hc : P.box M.d3 c) (hp : IsSolPt M.d3 M.N p) (hv : iv < velDims M.d3) :
    viscDom M.d3 M.N P ti (M.sol (sVGrad d) c p iv) :=
  .inr ⟨hc, .inl ⟨d, hd, rfl, dofMap_lt hp hv⟩⟩

theorem velocities_yields {M : Scheme α} {P : Grid} (h : Ready M P) (hN : 0 < M.N)
    {d : Dir} (hd : M.d3 = true ∨ d ≠ .z) {ti : Mood.TimeInt} {A : ℕ} (hA : solArray ti A)
    (m : Addr → α) :
    ∃ m', (velocities M P d A sF).Yields (viscDom M.d3 M.N P ti) m m' ∧
      (∀ c p i, P.box M.d3 c → IsFluxPt M.d3 M.N d p → i < velDims M.d3 →
        m' (M.flx d c p i) = sol2fluxVector M.N M.sp M.fp
          (fun k => m (M.sol A c (p.set d k) (2 + i)) / m (M.sol A c (p.set d k) 0)) (p.get d)) ∧
      (∀ a, a.arr ≠ sF → m' a = m a) := by
  refine Exists.elim (blocks_yields (M := M) (P := P)
    (L := lines M.d3 M.N d ×ˢ List.range (velDims M.d3))
    (blk := fun c x => (loadQuot M.N (fun k => M.sol A c (x.1.set d k) (IU + x.2)) fun k =>
      M.sol A c (x.1.set d k) ID).bind fun sol =>
      storeVals (M.N + 1) (fun k => M.flx d c (x.1.set d k) x.2) fun k =>
        sol2fluxVector M.N M.sp M.fp sol k)
    (dom := viscDom M.d3 M.N P ti) (out := sF)
    (R := fun c x a => ∃ k iv, k < M.N ∧ iv < P.nbvar ∧ a = M.sol A c (x.1.set d k) iv)
    (W := fun c x a => ∃ k, k < M.N + 1 ∧ a = M.flx d c (x.1.set d k) x.2) h.ne
    (nodup_prod (nodup_lines _ _ _) List.nodup_range) m ?_ ?_ ?_ ?_) ?_
  · rintro c ⟨p, i⟩ - hi
    simp only [List.mem_product, List.mem_range] at hi
    have h2 := velDims_lt _ hi.2
    rw [← h.nv] at h2
    exact FP.bind (loadQuot_fp (fun k hk => ⟨k, _, hk, h2.1, rfl⟩)
      fun k hk => ⟨k, _, hk, by show 0 < _; omega, rfl⟩) fun _ =>
      storeVals_fp fun k hk => ⟨k, hk, rfl⟩
  · rintro c ⟨p, i⟩ a hc hi ⟨k, iv, hk, hv, rfl⟩
    simp only [List.mem_product, mem_lines hd, List.mem_range] at hi
    exact ⟨.inl (sol_dom hA hc (hi.1.1.set hd hk) hv), fun e => absurd e hA.ne⟩
  · rintro c ⟨p, i⟩ a hc hi ⟨k, hk, rfl⟩
    simp only [List.mem_product, mem_lines hd, List.mem_range] at hi
    exact ⟨.inl (flx_dom hd hc (hi.1.1.flux hd hk) (h.nv ▸ (velDims_lt _ hi.2).2)), rfl, rfl⟩
  · rintro c - ⟨p, iv⟩ hi ⟨p', iv'⟩ hj hij a ⟨k, hk, rfl⟩
    simp only [List.mem_product, mem_lines hd, List.mem_range] at hi hj
    refine ⟨?_, ?_⟩
    · rintro ⟨k', _, hk', _, e⟩
      exact hA.ne (congrArg Addr.arr e).symm
    · rintro ⟨k', hk', e⟩
      obtain ⟨-, h3, h4⟩ := flx_inj hd (hi.1.1.flux hd hk) (hj.1.1.flux hd hk') e
      apply hij
      exact Prod.ext (line_eq hi.1.2 hj.1.2 h3).1 h4
  · rintro m' ⟨y, h1, h2⟩
    refine ⟨m', y, fun c p iv hc hp hv => ?_, fun a ha => ?_⟩
    · have hl := hp.line hd hN
      have hk := hp.get_lt hd
      have e : M.flx d c p iv = M.flx d c ((p.set d 0).set d (p.get d)) iv := by simp
      rw [h1 c (p.set d 0, iv) _ hc (by simp [List.mem_product, hl, hv]) ⟨p.get d, hk, e⟩]
      rw [(loadQuot_reads _ _ _ m).exec_bind, e]
      rw [storeVals_exec (addr := fun k => M.flx d c ((p.set d 0).set d k) iv) ?_ _ m hk]
      · simp only [Pt.set_set]
        exact sumIf_congr fun k hk => by simp only [if_pos hk]; rfl
      · intro j k hj hk e
        have h0 := ((mem_lines hd).1 hl).1
        exact (line_eq (Pt.get_set _ _ _) (Pt.get_set _ _ _)
          (flx_inj hd (h0.flux hd hj) (h0.flux hd hk) e).2.1).2
    · exact h2 a fun c i _ _ ⟨k, _, e⟩ => ha (by rw [e]; rfl)

/-- One line of points of the slope functor. -/
def slopeBlock (M : Scheme α) (S : Settings α) (d : Dir) (G : ℕ) (c : Cell) (x : Pt × ℕ) : K Addr α Unit :=
  (loadVals (M.N + 1) fun k => M.flx d c (x.1.set d k) x.2).bind fun flux =>
    if M.d3 = false ∧ d = .x then
      storeVals M.N (fun k => M.sol G c (x.1.set d k) x.2)
        (flux2solDerivativeVector M.N M.sp M.fp flux (rescale S d))
    else
      addVals M.N (fun k => M.sol G c (x.1.set d k) x.2)
        (flux2solDerivativeVector M.N M.sp M.fp flux (rescale S d))

theorem sVGrad_ne (d : Dir) : sVGrad d ≠ sF := by cases d <;> decide

theorem velocitySlopes_yields {M : Scheme α} {S : Settings α} {P : Grid} (h : Ready M P) {d : Dir}
    (hd : M.d3 = true ∨ d ≠ .z) (ti : Mood.TimeInt) (m : Addr → α) :
    ∃ m', (velocitySlopes M S P d (sVGrad d)).Yields (viscDom M.d3 M.N P ti) m m' ∧
      (∀ c p i, P.box M.d3 c → IsSolPt M.d3 M.N p → i < velDims M.d3 →
        m' (M.sol (sVGrad d) c p i) =
          if M.d3 = false ∧ d = .x then
            flux2solDerivativeVector M.N M.sp M.fp (fun k => m (M.flx d c (p.set d k) i)) (rescale S d)
              (p.get d)
          else m (M.sol (sVGrad d) c p i) +
            flux2solDerivativeVector M.N M.sp M.fp (fun k => m (M.flx d c (p.set d k) i)) (rescale S d)
              (p.get d)) ∧
      (∀ a, a.arr ≠ sVGrad d → m' a = m a) := by
  refine Exists.elim (blocks_yields (M := M) (P := P)
    (L := lines M.d3 M.N d ×ˢ List.range (velDims M.d3)) (blk := slopeBlock M S d (sVGrad d))
    (dom := viscDom M.d3 M.N P ti) (out := sVGrad d)
    (R := fun c x a => (∃ k, k < M.N + 1 ∧ a = M.flx d c (x.1.set d k) x.2) ∨
      ∃ k, k < M.N ∧ a = M.sol (sVGrad d) c (x.1.set d k) x.2)
    (W := fun c x a => ∃ k, k < M.N ∧ a = M.sol (sVGrad d) c (x.1.set d k) x.2) h.ne
    (nodup_prod (nodup_lines _ _ _) List.nodup_range) m ?_ ?_ ?_ ?_) ?_
  · intro c i _ _
    refine FP.bind (loadVals_fp fun k hk => .inl ⟨k, hk, rfl⟩) fun _ => ?_
    split_ifs
    · exact storeVals_fp fun k hk => ⟨k, hk, rfl⟩
    · exact addVals_fp fun k hk => ⟨.inr ⟨k, hk, rfl⟩, ⟨k, hk, rfl⟩⟩
  · rintro c ⟨p, iv⟩ a hc hi ha
    simp only [List.mem_product, mem_lines hd, List.mem_range] at hi
    rcases ha with ⟨k, hk, rfl⟩ | ⟨k, hk, rfl⟩
    · exact ⟨.inl (flx_dom hd hc (hi.1.1.flux hd hk) (h.nv ▸ (velDims_lt _ hi.2).2)), fun _ => rfl⟩
    · exact ⟨vgrad_dom hd hc (hi.1.1.set hd hk) hi.2, fun _ => rfl⟩
  · rintro c ⟨p, iv⟩ a hc hi ⟨k, hk, rfl⟩
    simp only [List.mem_product, mem_lines hd, List.mem_range] at hi
    exact ⟨vgrad_dom hd hc (hi.1.1.set hd hk) hi.2, rfl, rfl⟩
  · rintro c - ⟨p, iv⟩ hi ⟨p', iv'⟩ hj hij a ⟨k, hk, rfl⟩
    simp only [List.mem_product, mem_lines hd, List.mem_range] at hi hj
    have key : ∀ k', k' < M.N →
        M.sol (sVGrad d) c (p.set d k) iv ≠ M.sol (sVGrad d) c (p'.set d k') iv' := by
      intro k' hk' e
      obtain ⟨-, -, h3, h4⟩ := sol_inj (hi.1.1.set hd hk) (hj.1.1.set hd hk') e
      apply hij
      exact Prod.ext (line_eq hi.1.2 hj.1.2 h3).1 h4
    refine ⟨?_, ?_⟩
    · rintro (⟨k', hk', e⟩ | ⟨k', hk', e⟩)
      · exact sVGrad_ne d (congrArg Addr.arr e)
      · exact key k' hk' e
    · rintro ⟨k', hk', e⟩
      exact key k' hk' e
  · rintro m' ⟨y, h1, h2⟩
    refine ⟨m', y, fun c p iv hc hp hv => ?_, fun a ha => ?_⟩
    · have hl := hp.line hd
      have hk := hp.get_lt hd
      have e : M.sol (sVGrad d) c p iv = M.sol (sVGrad d) c ((p.set d 0).set d (p.get d)) iv := by simp
      have hinj : ∀ j k, j < M.N → k < M.N → M.sol (sVGrad d) c ((p.set d 0).set d j) iv =
          M.sol (sVGrad d) c ((p.set d 0).set d k) iv → j = k := by
        intro j k hj hk e
        have h0 := ((mem_lines hd).1 hl).1
        exact (line_eq (Pt.get_set _ _ _) (Pt.get_set _ _ _)
          (sol_inj (h0.set hd hj) (h0.set hd hk) e).2.2.1).2
      rw [h1 c (p.set d 0, iv) _ hc (by simp [List.mem_product, hl, hv]) ⟨p.get d, hk, e⟩]
      unfold slopeBlock
      rw [(loadVals_reads _ _ m).exec_bind]
      split_ifs
      · rw [e, storeVals_exec (addr := fun k => M.sol (sVGrad d) c ((p.set d 0).set d k) iv) hinj _ m hk]
        simp only [Pt.set_set]
        unfold flux2solDerivativeVector
        congr 1
        exact sumIf_congr fun k hk => by simp only [if_pos hk]
      · rw [e, addVals_exec (addr := fun k => M.sol (sVGrad d) c ((p.set d 0).set d k) iv) hinj _ m hk]
        simp only [Pt.set_set]
        congr 1
        unfold flux2solDerivativeVector
        congr 1
        exact sumIf_congr fun k hk => by simp only [if_pos hk]
    · exact h2 a fun c i _ _ ⟨k, _, e⟩ => ha (by rw [e]; rfl)

/-! ### Averaging at borders -/

/-- What the averaging at one line touches. -/
def EdgeLoc (M : Scheme α) (d : Dir) (c : Cell) (p : Pt) (a : Addr) : Prop :=
  a = M.flx d (c.down d) (p.set d M.N) 0 ∨ a = M.flx d c (p.set d 0) 0

/-- The work at one line. -/
def edgePart (M : Scheme α) (d : Dir) (n : ℕ) (list : ℕ → ℕ) (c : Cell) (p : Pt) : K Addr α Unit :=
  forEach (List.range n) fun iv => averageOne M d sF c p (averagedVar list iv)

theorem averageOne_fp (M : Scheme α) (d : Dir) (c : Cell) (p : Pt) :
    (averageOne M d sF c p 0).FP (EdgeLoc M d c p) (EdgeLoc M d c p) fun _ => False :=
  FP.bind (FP.load (.inl rfl)) fun _ => FP.bind (FP.load (.inr rfl)) fun _ =>
    FP.bind (FP.store (.inl rfl)) fun _ => FP.store (.inr rfl)

theorem edgePart_fp (M : Scheme α) (d : Dir) (n : ℕ) (list : ℕ → ℕ) (c : Cell) (p : Pt) :
    (edgePart M d n list c p).FP (EdgeLoc M d c p) (EdgeLoc M d c p) fun _ => False :=
  forEach_fp fun _ _ => averageOne_fp M d c p

theorem edge_ne {M : Scheme α} {d : Dir} (hd : M.d3 = true ∨ d ≠ .z) (hN : 0 < M.N) {c c' : Cell} {p : Pt}
    (hp : IsSolPt M.d3 M.N p) : M.flx d c' (p.set d M.N) 0 ≠ M.flx d c (p.set d 0) 0 := by
  intro e
  have := congrArg (Pt.get d) (flx_inj hd (hp.flux hd (by omega)) (hp.flux hd (by omega)) e).2.1
  simp only [Pt.get_set] at this; omega

theorem edgePart_exec {M : Scheme ℝ} {d : Dir} (hd : M.d3 = true ∨ d ≠ .z) (hN : 0 < M.N) {n : ℕ}
    (hn : 0 < n) (list : ℕ → ℕ) {c : Cell} {p : Pt} (hp : IsSolPt M.d3 M.N p) (m : Addr → ℝ) {a : Addr}
    (ha : EdgeLoc M d c p a) : (edgePart M d n list c p).exec m a =
      (m (M.flx d (c.down d) (p.set d M.N) 0) + m (M.flx d c (p.set d 0) 0)) / 2 := by
  have hne := edge_ne (c := c) (c' := c.down d) hd hN hp
  have one : ∀ (m : Addr → ℝ) (a : Addr), EdgeLoc M d c p a →
      (averageOne M d sF c p 0).exec m a =
      (m (M.flx d (c.down d) (p.set d M.N) 0) + m (M.flx d c (p.set d 0) 0)) / 2 := by
    intro m a ha
    have e : (averageOne M d sF c p 0).exec m = Function.update (Function.update m
        (M.flx d (c.down d) (p.set d M.N) 0)
          (lit (1 / 2) * (m (M.flx d (c.down d) (p.set d M.N) 0) + m (M.flx d c (p.set d 0) 0))))
        (M.flx d c (p.set d 0) 0)
          (lit (1 / 2) * (m (M.flx d (c.down d) (p.set d M.N) 0) + m (M.flx d c (p.set d 0) 0))) := rfl
    have e2 : (lit (1 / 2) : ℝ) = 1 / 2 := by rops
    rw [e, e2]
    rcases ha with rfl | rfl
    · rw [Function.update_of_ne hne, Function.update_self]; ring
    · rw [Function.update_self]; ring
  have many : ∀ (L : List ℕ) (m : Addr → ℝ) (a : Addr), L ≠ [] → EdgeLoc M d c p a →
      (forEach L fun iv => averageOne M d sF c p (averagedVar list iv)).exec m a =
      (m (M.flx d (c.down d) (p.set d M.N) 0) + m (M.flx d c (p.set d 0) 0)) / 2 := by
    intro L
    induction L with
    | nil => intro _ _ h; exact absurd rfl h
    | cons x L ih =>
      intro m a _ ha
      rw [forEach_cons_exec]
      by_cases hL : L = []
      · subst hL; exact one m a ha
      · rw [ih _ _ hL ha]
        show ((averageOne M d sF c p 0).exec m _ + (averageOne M d sF c p 0).exec m _) / 2 = _
        rw [one m _ (.inl rfl), one m _ (.inr rfl)]; ring
  exact many _ m a (by simp; omega) ha

theorem averageBorders_yields {M : Scheme ℝ} {P : Grid} (h : Ready M P) (hN : 0 < M.N) {d : Dir}
    (hd : M.d3 = true ∨ d ≠ .z) (ti : Mood.TimeInt) {n : ℕ} (hn : 0 < n) (list : ℕ → ℕ) (m : Addr → ℝ) :
    ∃ m', (averageBorders M P d sF n list).Yields (viscDom M.d3 M.N P ti) m m' ∧
      (∀ c p, P.box M.d3 c → IsFluxPt M.d3 M.N d p → 0 < coord d c → coord d c + 1 < size P d →
        m' (M.flx d c p 0) =
          if p.get d = 0 then (m (M.flx d (c.down d) (p.set d M.N) 0) + m (M.flx d c p 0)) / 2
          else if p.get d = M.N then (m (M.flx d c p 0) + m (M.flx d (c.up d) (p.set d 0) 0)) / 2
          else m (M.flx d c p 0)) ∧
      (∀ c p i, IsFluxPt M.d3 M.N d p → i ≠ 0 → m' (M.flx d c p i) = m (M.flx d c p i)) ∧
      (∀ a, a.arr ≠ sF → m' a = m a) := by
  classical
  have hnv : 0 < P.nbvar := by rw [h.nv]; cases M.d3 <;> decide
  let atEnd : Addr → Prop := fun a => ∃ c p iv, IsFluxPt M.d3 M.N d p ∧ p.get d = M.N ∧
    a = M.flx d c p iv
  let own : Addr → Cell := fun a => if atEnd a then a.cell.up d else a.cell
  have own_end : ∀ c p iv, IsFluxPt M.d3 M.N d p → p.get d = M.N →
      own (M.flx d c p iv) = c.up d := fun c p iv h1 h2 => if_pos ⟨c, p, iv, h1, h2, rfl⟩
  have own_in : ∀ c p iv, IsFluxPt M.d3 M.N d p → p.get d ≠ M.N → own (M.flx d c p iv) = c := by
    intro c p iv h1 h2
    refine if_neg ?_
    rintro ⟨c', p', iv', h3, h4, e⟩
    rw [(flx_inj hd h1 h3 e).2.1] at h2
    exact h2 h4
  let body : Cell → K Addr ℝ Unit := fun c =>
    if 0 < coord d c ∧ coord d c < size P d then forEach (lines M.d3 M.N d) (edgePart M d n list c)
    else .ret ()
  have hlaunch : averageBorders M P d sF n list = M.cells P body := rfl
  rw [hlaunch]
  have y := cells_yields (M := M) (P := P) (body := body) (dom := viscDom M.d3 M.N P ti)
    (out := fun A => A = sF) own h.ne m (fun c hc => by
    simp only [body]
    split_ifs with hcond
    · have key : ∀ p ∈ lines M.d3 M.N d, ∀ a, EdgeLoc M d c p a →
          viscDom M.d3 M.N P ti a ∧ a.arr = sF ∧ own a = c := by
        rintro p hp a e
        have hs := ((mem_lines hd).1 hp).1
        have hL : IsFluxPt M.d3 M.N d (p.set d M.N) := hs.flux hd (by omega)
        have hR : IsFluxPt M.d3 M.N d (p.set d 0) := hs.flux hd (by omega)
        rcases e with rfl | rfl
        · exact ⟨.inl (flx_dom hd (box_down hd hc hcond.1) hL hnv), rfl, by
            rw [own_end _ _ _ hL (Pt.get_set _ _ _), down_up]⟩
        · exact ⟨.inl (flx_dom hd hc hR hnv), rfl, own_in _ _ _ hR (by rw [Pt.get_set]; omega)⟩
      exact forEach_fp fun p hp => (edgePart_fp M d n list c p).mono
        (fun a ha => ⟨(key p hp a ha).1, fun _ => (key p hp a ha).2.2⟩) (fun a ha => key p hp a ha)
        fun _ h => h
    · exact FP.ret)
  have edge_ex : ∀ c p a, p ∈ lines M.d3 M.N d → EdgeLoc M d c p a →
      (forEach (lines M.d3 M.N d) (edgePart M d n list c)).exec m a =
        (edgePart M d n list c p).exec m a := by
    intro c p a hp ha
    refine forEach_exec (nodup_lines _ _ _) (fun p _ => edgePart_fp M d n list c p) ?_ m hp ha
    intro p hp p' hp' hne a e
    rw [mem_lines hd] at hp hp'
    have : ¬ EdgeLoc M d c p' a := by
      intro e'
      rcases e with rfl | rfl <;> rcases e' with e' | e' <;>
        exact hne (line_eq hp.2 hp'.2
          (flx_inj hd (hp.1.flux hd (by omega)) (hp'.1.flux hd (by omega)) e').2.1).1
    exact ⟨this, this⟩
  refine ⟨_, y, fun c p hc hp h0 h1 => ?_, fun c p i hp hi => ?_, fun a ha => ?_⟩
  · have hl := hp.line hd hN
    have hsol := ((mem_lines hd).1 hl).1
    have hle := hp.get_lt hd
    by_cases hz : p.get d = 0
    · have e0 : p.set d 0 = p := by rw [← hz, Pt.set_get]
      rw [if_pos hz, own_in c p 0 hp (by omega), if_pos hc]
      simp only [body]
      rw [if_pos ⟨h0, by omega⟩]
      have hloc : EdgeLoc M d c (p.set d 0) (M.flx d c p 0) := .inr (by simp [e0])
      rw [edge_ex c _ _ hl hloc, edgePart_exec hd hN hn list hsol m hloc]
      simp only [Pt.set_set, e0]
    · rw [if_neg hz]
      by_cases hNe : p.get d = M.N
      · have eN : p.set d M.N = p := by rw [← hNe, Pt.set_get]
        rw [if_pos hNe, own_end c p 0 hp hNe, if_pos (box_up hd hc h1)]
        simp only [body]
        rw [if_pos (show 0 < coord d (c.up d) ∧ coord d (c.up d) < size P d by rw [coord_up]; omega)]
        have hloc : EdgeLoc M d (c.up d) (p.set d 0) (M.flx d c p 0) := .inl (by simp [eN])
        rw [edge_ex _ _ _ hl hloc, edgePart_exec hd hN hn list hsol m hloc]
        simp only [Pt.set_set, eN, up_down]
      · rw [if_neg hNe, own_in c p 0 hp hNe, if_pos hc]
        simp only [body]
        rw [if_pos ⟨h0, by omega⟩]
        refine forEach_frame (fun p _ => edgePart_fp M d n list c p) m ?_
        rintro p' hp' e
        rw [mem_lines hd] at hp'
        rcases e with e | e
        · have e2 := congrArg (Pt.get d) (flx_inj hd hp (hp'.1.flux hd (by omega)) e).2.1
          rw [Pt.get_set] at e2; omega
        · have e2 := congrArg (Pt.get d) (flx_inj hd hp (hp'.1.flux hd (by omega)) e).2.1
          rw [Pt.get_set] at e2; omega
  · split_ifs with hb
    · simp only [body]
      split_ifs with hcond
      · refine forEach_frame (fun p _ => edgePart_fp M d n list _ p) m ?_
        rintro p' hp' e
        rw [mem_lines hd] at hp'
        rcases e with e | e <;>
          exact hi (flx_inj hd hp (hp'.1.flux hd (by omega)) e).2.2
      · rfl
    · rfl
  · split_ifs with hb
    · simp only [body]
      split_ifs with hcond
      · refine forEach_frame (fun p _ => edgePart_fp M d n list _ p) m ?_
        rintro p' hp' (e | e) <;> exact ha (by rw [e]; rfl)
      · rfl
    · rfl

/-! ### Launches of a sequence -/

theorem YieldsAll.mem {A V : Type} [DecidableEq A] [Add V] {dom : A → Prop} {Ls : List (Launch A V)}
    {m m' : A → V} (h : YieldsAll dom Ls m m') {L : Launch A V} (hL : L ∈ Ls) :
    ∃ m1 m2, L.Yields dom m1 m2 := by
  induction h with
  | nil => cases hL
  | cons y _ ih =>
    rcases List.mem_cons.1 hL with rfl | h
    · exact ⟨_, _, y⟩
    · exact ih h

theorem forEach_next {A V ι : Type} {i : ι} {L : List ι} {body : ι → K A V Unit} {x : Kind × A}
    (h : (body i).next = some x) : (forEach (i :: L) body).next = some x := by
  show ((body i).bind fun _ => forEach L body).next = _
  cases hb : body i with
  | ret => rw [hb] at h; cases h
  | read a k => rw [hb] at h; exact h
  | write a v k => rw [hb] at h; exact h
  | add a v k => rw [hb] at h; exact h

theorem lines_ne {d3 : Bool} {N : ℕ} {d : Dir} (hd : d3 = true ∨ d ≠ .z) (hN : 0 < N) :
    ∃ p L, lines d3 N d = p :: L := by
  have : (Pt.mk 0 0 0) ∈ lines d3 N d := by
    rw [mem_lines hd]
    cases d <;> cases d3 <;> simp [IsSolPt, Pt.get, hN]
  exact List.exists_cons_of_ne_nil (List.ne_nil_of_mem this)

theorem loadVals_next {α : Type} [ROps α] {β : Type} (n : ℕ) (addr : ℕ → Addr) (k : (ℕ → α) → K Addr α β) :
    ((loadVals (n + 1) addr).bind k).next = some (.read, addr 0) := by
  induction n generalizing k with
  | zero => rfl
  | succ n ih =>
    have e : ∀ {X Y Z : Type} (p : K Addr α X) (f : X → K Addr α Y) (g : Y → K Addr α Z),
        (p.bind f).bind g = p.bind fun x => (f x).bind g := by
      intro X Y Z p f g
      induction p with
      | ret => rfl
      | read a k ih => simp only [K.bind]; congr 1; funext v; exact ih v
      | write a v k ih => simp only [K.bind]; congr 1
      | add a v k ih => simp only [K.bind]; congr 1
    show (((loadVals (n + 1) addr).bind _).bind k).next = _
    rw [e]
    exact ih _

end Verif.Sdm
