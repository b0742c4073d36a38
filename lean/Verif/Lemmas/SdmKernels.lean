import Verif.Lemmas.SdmLoops
import Verif.Props.C81_C84_SdmGeometry
import Mathlib.Data.List.Nodup
import Mathlib.Data.List.ProdSigma

/-! Helper lemmas: what the loops of the spectral difference solver do. -/

namespace Verif.Sdm

open Verif K Function ROps

variable {α : Type} [ROps α]

/-! ### Points and lines -/

@[simp] theorem Pt.get_set (d : Dir) (p : Pt) (a : ℕ) : (p.set d a).get d = a := by cases d <;> rfl
@[simp] theorem Pt.set_set (d : Dir) (p : Pt) (a b : ℕ) : (p.set d a).set d b = p.set d b := by
  cases d <;> rfl
@[simp] theorem Pt.set_get (d : Dir) (p : Pt) : p.set d (p.get d) = p := by cases d <;> rfl

theorem mem_cellPts {d3 : Bool} {N : ℕ} {p : Pt} : p ∈ cellPts d3 N ↔ IsSolPt d3 N p := by
  obtain ⟨x, y, z⟩ := p
  cases d3 <;> simp [cellPts, IsSolPt] <;> tauto

theorem nodup_cellPts (d3 : Bool) (N : ℕ) : (cellPts d3 N).Nodup := by
  unfold cellPts
  refine List.nodup_flatMap.2 ⟨fun z _ => List.nodup_flatMap.2 ⟨fun y _ => ?_, ?_⟩, ?_⟩
  · exact List.nodup_range.map fun a b h => by simpa using h
  · refine List.nodup_range.pairwise_of_forall_ne fun a _ b _ hab => ?_
    intro p h1 h2
    simp only [List.mem_map] at h1 h2
    obtain ⟨_, _, rfl⟩ := h1
    obtain ⟨_, _, e⟩ := h2
    simp only [Pt.mk.injEq] at e
    exact hab e.2.1.symm
  · refine List.nodup_range.pairwise_of_forall_ne fun a _ b _ hab => ?_
    intro p h1 h2
    simp only [List.mem_flatMap, List.mem_map] at h1 h2
    obtain ⟨_, _, _, _, rfl⟩ := h1
    obtain ⟨_, _, _, _, e⟩ := h2
    simp only [Pt.mk.injEq] at e
    exact hab e.2.2.symm

theorem mem_lines {d3 : Bool} {N : ℕ} {d : Dir} (hd : d3 = true ∨ d ≠ .z) {p : Pt} :
    p ∈ lines d3 N d ↔ IsSolPt d3 N p ∧ p.get d = 0 := by
  obtain ⟨x, y, z⟩ := p
  cases d3 <;> cases d <;> simp [lines, IsSolPt, Pt.get] at hd ⊢
  all_goals
    constructor
    · rintro h; refine ⟨?_, ?_⟩ <;> omega
    · rintro h; omega

theorem nodup_lines (d3 : Bool) (N : ℕ) (d : Dir) : (lines d3 N d).Nodup := by
  have go : ∀ (n : ℕ) (f : ℕ → ℕ → Pt), (∀ a b a' b', f a b = f a' b' → a = a' ∧ b = b') →
      ((List.range n).flatMap fun a => (List.range N).map fun b => f a b).Nodup := by
    intro n f hf
    refine List.nodup_flatMap.2 ⟨fun a _ => ?_, ?_⟩
    · exact List.nodup_range.map fun b b' h => (hf _ _ _ _ h).2
    · refine List.nodup_range.pairwise_of_forall_ne fun a _ b _ hab => ?_
      intro p h1 h2
      simp only [List.mem_map] at h1 h2
      obtain ⟨_, _, rfl⟩ := h1
      obtain ⟨_, _, e⟩ := h2
      exact hab (hf _ _ _ _ e).1.symm
  cases d <;> refine go _ _ fun a b a' b' h => ?_ <;> simp only [Pt.mk.injEq] at h <;> tauto

theorem nodup_prod {ι κ : Type} {L : List ι} {L' : List κ} (h : L.Nodup) (h' : L'.Nodup) :
    (L ×ˢ L').Nodup := h.product h'

theorem IsSolPt.set {d3 : Bool} {N : ℕ} {d : Dir} (hd : d3 = true ∨ d ≠ .z) {p : Pt}
    (h : IsSolPt d3 N p) {a : ℕ} (ha : a < N) : IsSolPt d3 N (p.set d a) := by
  obtain ⟨h1, h2, h3⟩ := h
  cases d3 <;> cases d <;> simp [IsSolPt, Pt.set] at hd h3 ⊢ <;> omega

theorem IsSolPt.get_lt {d3 : Bool} {N : ℕ} {d : Dir} (hd : d3 = true ∨ d ≠ .z) {p : Pt}
    (h : IsSolPt d3 N p) : p.get d < N := by
  obtain ⟨h1, h2, h3⟩ := h
  cases d3 <;> cases d <;> simp [Pt.get] at hd h3 ⊢ <;> omega

theorem IsSolPt.flux {d3 : Bool} {N : ℕ} {d : Dir} (hd : d3 = true ∨ d ≠ .z) {p : Pt}
    (h : IsSolPt d3 N p) {a : ℕ} (ha : a < N + 1) : IsFluxPt d3 N d (p.set d a) := by
  obtain ⟨h1, h2, h3⟩ := h
  cases d3 <;> cases d <;> simp [IsFluxPt, fluxExtent, Pt.set] at hd h3 ⊢ <;> omega

theorem IsFluxPt.get_lt {d3 : Bool} {N : ℕ} {d : Dir} (hd : d3 = true ∨ d ≠ .z) {p : Pt}
    (h : IsFluxPt d3 N d p) : p.get d < N + 1 := by
  obtain ⟨h1, h2, h3⟩ := h
  cases d3 <;> cases d <;> simp [fluxExtent, Pt.get] at hd h1 h2 h3 ⊢ <;> omega

theorem IsFluxPt.sol {d3 : Bool} {N : ℕ} {d : Dir} (hd : d3 = true ∨ d ≠ .z) {p : Pt}
    (h : IsFluxPt d3 N d p) {a : ℕ} (ha : a < N) : IsSolPt d3 N (p.set d a) := by
  obtain ⟨h1, h2, h3⟩ := h
  cases d3 <;> cases d <;> simp [IsSolPt, fluxExtent, Pt.set] at hd h1 h2 h3 ⊢ <;> omega

theorem IsFluxPt.line {d3 : Bool} {N : ℕ} {d : Dir} (hd : d3 = true ∨ d ≠ .z) (hN : 0 < N) {p : Pt}
    (h : IsFluxPt d3 N d p) : p.set d 0 ∈ lines d3 N d :=
  (mem_lines hd).2 ⟨h.sol hd hN, Pt.get_set _ _ _⟩

theorem IsSolPt.line {d3 : Bool} {N : ℕ} {d : Dir} (hd : d3 = true ∨ d ≠ .z) {p : Pt}
    (h : IsSolPt d3 N p) : p.set d 0 ∈ lines d3 N d :=
  (mem_lines hd).2 ⟨h.set hd (by have := h.1; omega), Pt.get_set _ _ _⟩

theorem line_eq {d : Dir} {p p' : Pt} (h : p.get d = 0) (h' : p'.get d = 0) {a a' : ℕ}
    (e : p.set d a = p'.set d a') : p = p' ∧ a = a' := by
  have e1 := congrArg (Pt.get d) e
  simp only [Pt.get_set] at e1
  have e2 := congrArg (fun q => Pt.set d q 0) e
  simp only [Pt.set_set] at e2
  rw [← h, Pt.set_get] at e2
  rw [h, ← h', Pt.set_get] at e2
  exact ⟨e2, e1⟩

/-! ### Locations -/

theorem sol_inj {M : Scheme α} {A A' : ℕ} {c c' : Cell} {p p' : Pt} {iv iv' : ℕ}
    (hp : IsSolPt M.d3 M.N p) (hp' : IsSolPt M.d3 M.N p')
    (h : M.sol A c p iv = M.sol A' c' p' iv') : A = A' ∧ c = c' ∧ p = p' ∧ iv = iv' := by
  simp only [Scheme.sol, Cell.at, Addr.mk.injEq] at h
  obtain ⟨h1, h2, h3, h4, h5⟩ := h
  obtain ⟨h6, h7⟩ := dofMap_injective hp hp' h5
  exact ⟨h1, Cell.ext h2 h3 h4, h6, h7⟩

theorem flx_inj {M : Scheme α} {d : Dir} (hd : M.d3 = true ∨ d ≠ .z) {c c' : Cell} {p p' : Pt}
    {iv iv' : ℕ} (hp : IsFluxPt M.d3 M.N d p) (hp' : IsFluxPt M.d3 M.N d p')
    (h : M.flx d c p iv = M.flx d c' p' iv') : c = c' ∧ p = p' ∧ iv = iv' := by
  simp only [Scheme.flx, Cell.at, Addr.mk.injEq] at h
  obtain ⟨_, h2, h3, h4, h5⟩ := h
  obtain ⟨h6, h7⟩ := dofMapFlux_injective hd hp hp' h5
  exact ⟨Cell.ext h2 h3 h4, h6, h7⟩

theorem solArray.ne {ti : Mood.TimeInt} {A : ℕ} (h : solArray ti A) : A ≠ sF := by
  rcases h with h | h | ⟨i, h1, _, h⟩ <;> subst h <;> simp [sU, sDiv, sF, sRK]
  omega

theorem sol_dom {M : Scheme α} {P : Grid} {ti : Mood.TimeInt} {A : ℕ} {c : Cell} {p : Pt} {iv : ℕ}
    (hA : solArray ti A) (hc : P.box M.d3 c) (hp : IsSolPt M.d3 M.N p) (hv : iv < P.nbvar) :
    sdmDom M.d3 M.N P ti (M.sol A c p iv) := ⟨hc, .inl ⟨hA, dofMap_lt hp hv⟩⟩

theorem flx_dom {M : Scheme α} {P : Grid} {ti : Mood.TimeInt} {d : Dir} (hd : M.d3 = true ∨ d ≠ .z)
    {c : Cell} {p : Pt} {iv : ℕ} (hc : P.box M.d3 c) (hp : IsFluxPt M.d3 M.N d p) (hv : iv < P.nbvar) :
    sdmDom M.d3 M.N P ti (M.flx d c p iv) := ⟨hc, .inr ⟨rfl, dofMapFlux_lt hd hp hv⟩⟩

/-! ### Loops made of blocks -/

/-- A loop over all cells whose work items consist of independent blocks in their own cell. -/
theorem blocks_yields {ι : Type} {M : Scheme α} {P : Grid} {L : List ι} {blk : Cell → ι → K Addr α Unit}
    {dom : Addr → Prop} {out : ℕ} {R W : Cell → ι → Addr → Prop} (hp : Mood.Nonempty3 M.d3 P)
    (hnd : L.Nodup) (m : Addr → α)
    (hfp : ∀ c i, P.box M.d3 c → i ∈ L → (blk c i).FP (R c i) (W c i) fun _ => False)
    (hR : ∀ c i a, P.box M.d3 c → i ∈ L → R c i a → dom a ∧ (a.arr = out → a.cell = c))
    (hW : ∀ c i a, P.box M.d3 c → i ∈ L → W c i a → dom a ∧ a.arr = out ∧ a.cell = c)
    (hd : ∀ c, P.box M.d3 c → ∀ i ∈ L, ∀ j ∈ L, i ≠ j → ∀ a, W c i a → ¬ R c j a ∧ ¬ W c j a) :
    ∃ m', (M.cells P fun c => forEach L (blk c)).Yields dom m m' ∧
      (∀ c i a, P.box M.d3 c → i ∈ L → W c i a → m' a = (blk c i).exec m a) ∧
      (∀ a, (∀ c i, P.box M.d3 c → i ∈ L → ¬ W c i a) → m' a = m a) := by
  classical
  have y := cells_yields (M := M) (P := P) (body := fun c => forEach L (blk c)) (dom := dom)
    (out := fun A => A = out) Addr.cell hp m fun c hc => forEach_fp fun i hi =>
      (hfp c i hc hi).mono (fun a h => hR c i a hc hi h) (fun a h => hW c i a hc hi h) fun _ h => h
  refine ⟨_, y, fun c i a hc hi ha => ?_, fun a ha => ?_⟩
  · have e := (hW c i a hc hi ha).2.2
    rw [e, if_pos hc]
    exact forEach_exec hnd (fun i hi => hfp c i hc hi) (hd c hc) m hi ha
  · split_ifs with hb
    · exact forEach_frame (fun i hi => hfp _ i hb hi) m fun i hi => ha _ i hb hi
    · rfl

/-- The standing assumptions: arrays that are not empty, the number of variables of the dimension. -/
structure Ready (M : Scheme α) (P : Grid) : Prop where
  ne : Mood.Nonempty3 M.d3 P
  nv : P.nbvar = hydroVars M.d3

theorem eraseSol_yields {M : Scheme α} {P : Grid} (h : Ready M P) {ti : Mood.TimeInt} {A : ℕ}
    (hA : solArray ti A) (m : Addr → α) :
    ∃ m', (eraseSol M P A).Yields (sdmDom M.d3 M.N P ti) m m' ∧
      (∀ c p iv, P.box M.d3 c → IsSolPt M.d3 M.N p → iv < hydroVars M.d3 →
        m' (M.sol A c p iv) = lit 0) ∧
      (∀ a, a.arr ≠ A → m' a = m a) := by
  refine Exists.elim (blocks_yields (M := M) (P := P)
    (L := cellPts M.d3 M.N ×ˢ List.range (hydroVars M.d3))
    (blk := fun c x => K.store (M.sol A c x.1 x.2) (lit 0)) (dom := sdmDom M.d3 M.N P ti) (out := A)
    (R := fun _ _ _ => False) (W := fun c x a => a = M.sol A c x.1 x.2) h.ne
    (nodup_prod (nodup_cellPts _ _) List.nodup_range) m (fun c i _ _ => FP.store rfl)
    (fun _ _ _ _ _ h => h.elim) ?_ ?_) ?_
  · rintro c ⟨p, iv⟩ a hc hi rfl
    simp only [List.mem_product, mem_cellPts, List.mem_range] at hi
    exact ⟨sol_dom hA hc hi.1 (h.nv ▸ hi.2), rfl, rfl⟩
  · rintro c - ⟨p, iv⟩ hi ⟨p', iv'⟩ hj hij a rfl
    simp only [List.mem_product, mem_cellPts, List.mem_range] at hi hj
    refine ⟨fun h => h, fun e => hij ?_⟩
    obtain ⟨-, -, h3, h4⟩ := sol_inj hi.1 hj.1 e
    exact Prod.ext h3 h4
  · rintro m' ⟨y, h1, h2⟩
    refine ⟨m', y, fun c p iv hc hp hv => ?_, fun a ha => ?_⟩
    · rw [h1 c (p, iv) _ hc (by simp [List.mem_product, mem_cellPts, hp, hv]) rfl]
      exact Function.update_self _ _ _
    · exact h2 a fun c i _ _ e => ha (by rw [e]; rfl)

theorem eraseFluxes_yields {M : Scheme α} {P : Grid} (h : Ready M P) (ti : Mood.TimeInt)
    (m : Addr → α) :
    ∃ m', (eraseFluxes M P).Yields (sdmDom M.d3 M.N P ti) m m' ∧ (∀ a, a.arr ≠ sF → m' a = m a) := by
  have hd : M.d3 = true ∨ Dir.x ≠ .z := .inr (by decide)
  have hmem : ∀ p ∈ erasePts M.d3 M.N, IsFluxPt M.d3 M.N .x p := by
    rintro ⟨x, y, z⟩ hp
    cases h3 : M.d3 <;> simp [erasePts, h3] at hp <;> simp [IsFluxPt, fluxExtent] <;> omega
  have hnd : (erasePts M.d3 M.N).Nodup := by
    unfold erasePts
    refine List.nodup_flatMap.2 ⟨fun z _ => List.nodup_flatMap.2 ⟨fun y _ => ?_, ?_⟩, ?_⟩
    · exact List.nodup_range.map fun a b h => by simpa using h
    · refine List.nodup_range.pairwise_of_forall_ne fun a _ b _ hab => ?_
      intro p h1 h2
      simp only [List.mem_map] at h1 h2
      obtain ⟨_, _, rfl⟩ := h1
      obtain ⟨_, _, e⟩ := h2
      simp only [Pt.mk.injEq] at e
      exact hab e.2.1.symm
    · refine List.nodup_range.pairwise_of_forall_ne fun a _ b _ hab => ?_
      intro p h1 h2
      simp only [List.mem_flatMap, List.mem_map] at h1 h2
      obtain ⟨_, _, _, _, rfl⟩ := h1
      obtain ⟨_, _, _, _, e⟩ := h2
      simp only [Pt.mk.injEq] at e
      exact hab e.2.2.symm
  refine Exists.elim (blocks_yields (M := M) (P := P)
    (L := erasePts M.d3 M.N ×ˢ List.range (hydroVars M.d3))
    (blk := fun c x => K.store (M.flx .x c x.1 x.2) (lit 0)) (dom := sdmDom M.d3 M.N P ti) (out := sF)
    (R := fun _ _ _ => False) (W := fun c x a => a = M.flx .x c x.1 x.2) h.ne
    (nodup_prod hnd List.nodup_range) m (fun c i _ _ => FP.store rfl)
    (fun _ _ _ _ _ h => h.elim) ?_ ?_) ?_
  · rintro c ⟨p, iv⟩ a hc hi rfl
    simp only [List.mem_product, List.mem_range] at hi
    exact ⟨flx_dom hd hc (hmem _ hi.1) (h.nv ▸ hi.2), rfl, rfl⟩
  · rintro c - ⟨p, iv⟩ hi ⟨p', iv'⟩ hj hij a rfl
    simp only [List.mem_product, List.mem_range] at hi hj
    refine ⟨fun h => h, fun e => hij ?_⟩
    obtain ⟨-, h3, h4⟩ := flx_inj hd (hmem _ hi.1) (hmem _ hj.1) e
    exact Prod.ext h3 h4
  · rintro m' ⟨y, h1, h2⟩
    exact ⟨m', y, fun a ha => h2 a fun c i _ _ e => ha (by rw [e]; rfl)⟩

omit [ROps α] in
theorem sumIf_congr [ROps α] {n : ℕ} {c : ℕ → Bool} {f g : ℕ → α} (h : ∀ k, k < n → f k = g k) :
    sumIf n c f = sumIf n c g := by
  unfold sumIf
  have : ∀ (l : List ℕ) (s : α), (∀ k ∈ l, k < n) →
      l.foldl (fun s k => if c k then s + f k else s) s =
      l.foldl (fun s k => if c k then s + g k else s) s := by
    intro l
    induction l with
    | nil => intros; rfl
    | cons k l ih =>
      intro s hl
      rw [List.foldl_cons, List.foldl_cons, h k (hl k (by simp)), ih _ fun j hj => hl j (by simp [hj])]
  exact this _ _ fun k hk => List.mem_range.1 hk

theorem interpolate_yields {M : Scheme α} {S : Settings α} {P : Grid} (h : Ready M P) (hN : 0 < M.N)
    {d : Dir} (hd : M.d3 = true ∨ d ≠ .z) {ti : Mood.TimeInt} {A : ℕ} (hA : solArray ti A)
    (m : Addr → α) :
    ∃ m', (interpolate M S P d A).Yields (sdmDom M.d3 M.N P ti) m m' ∧
      (∀ c p iv, P.box M.d3 c → IsFluxPt M.d3 M.N d p → iv < P.nbvar →
        m' (M.flx d c p iv) = floorDensity S iv (sol2fluxVector M.N M.sp M.fp
          (fun k => m (M.sol A c (p.set d k) iv)) (p.get d))) ∧
      (∀ a, a.arr ≠ sF → m' a = m a) := by
  refine Exists.elim (blocks_yields (M := M) (P := P)
    (L := lines M.d3 M.N d ×ˢ List.range P.nbvar)
    (blk := fun c x => (loadVals M.N fun k => M.sol A c (x.1.set d k) x.2).bind fun sol =>
      storeVals (M.N + 1) (fun k => M.flx d c (x.1.set d k) x.2) fun k =>
        floorDensity S x.2 (sol2fluxVector M.N M.sp M.fp sol k))
    (dom := sdmDom M.d3 M.N P ti) (out := sF)
    (R := fun c x a => ∃ k, k < M.N ∧ a = M.sol A c (x.1.set d k) x.2)
    (W := fun c x a => ∃ k, k < M.N + 1 ∧ a = M.flx d c (x.1.set d k) x.2) h.ne
    (nodup_prod (nodup_lines _ _ _) List.nodup_range) m
    (fun c i _ _ => FP.bind (loadVals_fp fun k hk => ⟨k, hk, rfl⟩) fun _ =>
      storeVals_fp fun k hk => ⟨k, hk, rfl⟩) ?_ ?_ ?_) ?_
  · rintro c ⟨p, iv⟩ a hc hi ⟨k, hk, rfl⟩
    simp only [List.mem_product, mem_lines hd, List.mem_range] at hi
    exact ⟨sol_dom hA hc (hi.1.1.set hd hk) hi.2, fun e => absurd e hA.ne⟩
  · rintro c ⟨p, iv⟩ a hc hi ⟨k, hk, rfl⟩
    simp only [List.mem_product, mem_lines hd, List.mem_range] at hi
    exact ⟨flx_dom hd hc (hi.1.1.flux hd hk) hi.2, rfl, rfl⟩
  · rintro c - ⟨p, iv⟩ hi ⟨p', iv'⟩ hj hij a ⟨k, hk, rfl⟩
    simp only [List.mem_product, mem_lines hd, List.mem_range] at hi hj
    refine ⟨?_, ?_⟩
    · rintro ⟨k', hk', e⟩
      exact hA.ne (congrArg Addr.arr e).symm
    · rintro ⟨k', hk', e⟩
      obtain ⟨-, h3, h4⟩ := flx_inj hd (hi.1.1.flux hd hk) (hj.1.1.flux hd hk') e
      apply hij
      exact Prod.ext (line_eq hi.1.2 hj.1.2 h3).1 h4
  · rintro m' ⟨y, h1, h2⟩
    refine ⟨m', y, fun c p iv hc hp hv => ?_, fun a ha => ?_⟩
    · have hl := hp.line hd hN
      have hk := hp.get_lt hd
      have e : M.flx d c p iv = M.flx d c ((p.set d 0).set d (p.get d)) iv := by simp
      rw [h1 c (p.set d 0, iv) _ hc (by simp [List.mem_product, hl, hv]) ⟨p.get d, hk, e⟩]
      rw [(loadVals_reads _ _ m).exec_bind, e]
      rw [storeVals_exec (addr := fun k => M.flx d c ((p.set d 0).set d k) iv) ?_ _ m hk]
      · simp only [Pt.set_set]
        congr 1
        exact sumIf_congr fun k hk => by simp only [if_pos hk]
      · intro j k hj hk e
        have h0 := ((mem_lines hd).1 hl).1
        exact (line_eq (Pt.get_set _ _ _) (Pt.get_set _ _ _)
          (flx_inj hd (h0.flux hd hj) (h0.flux hd hk) e).2.1).2
    · exact h2 a fun c i _ _ ⟨k, _, e⟩ => ha (by rw [e]; rfl)

theorem accumulate_yields {M : Scheme α} {S : Settings α} {P : Grid} (h : Ready M P) {d : Dir}
    (hd : M.d3 = true ∨ d ≠ .z) (ti : Mood.TimeInt) (m : Addr → α) :
    ∃ m', (accumulate M S P d).Yields (sdmDom M.d3 M.N P ti) m m' ∧
      (∀ c p iv, P.box M.d3 c → IsSolPt M.d3 M.N p → iv < P.nbvar →
        m' (M.sol sDiv c p iv) = m (M.sol sDiv c p iv) +
          flux2solDerivativeVector M.N M.sp M.fp (fun k => m (M.flx d c (p.set d k) iv)) (rescale S d)
            (p.get d)) ∧
      (∀ a, a.arr ≠ sDiv → m' a = m a) := by
  have hA : solArray ti sDiv := .inr (.inl rfl)
  refine Exists.elim (blocks_yields (M := M) (P := P)
    (L := lines M.d3 M.N d ×ˢ List.range P.nbvar)
    (blk := fun c x => (loadVals (M.N + 1) fun k => M.flx d c (x.1.set d k) x.2).bind fun flux =>
      addVals M.N (fun k => M.sol sDiv c (x.1.set d k) x.2)
        (flux2solDerivativeVector M.N M.sp M.fp flux (rescale S d)))
    (dom := sdmDom M.d3 M.N P ti) (out := sDiv)
    (R := fun c x a => (∃ k, k < M.N + 1 ∧ a = M.flx d c (x.1.set d k) x.2) ∨
      ∃ k, k < M.N ∧ a = M.sol sDiv c (x.1.set d k) x.2)
    (W := fun c x a => ∃ k, k < M.N ∧ a = M.sol sDiv c (x.1.set d k) x.2) h.ne
    (nodup_prod (nodup_lines _ _ _) List.nodup_range) m
    (fun c i _ _ => FP.bind (loadVals_fp fun k hk => .inl ⟨k, hk, rfl⟩) fun _ =>
      addVals_fp fun k hk => ⟨.inr ⟨k, hk, rfl⟩, ⟨k, hk, rfl⟩⟩) ?_ ?_ ?_) ?_
  · rintro c ⟨p, iv⟩ a hc hi ha
    simp only [List.mem_product, mem_lines hd, List.mem_range] at hi
    rcases ha with ⟨k, hk, rfl⟩ | ⟨k, hk, rfl⟩
    · exact ⟨flx_dom hd hc (hi.1.1.flux hd hk) hi.2, fun _ => rfl⟩
    · exact ⟨sol_dom hA hc (hi.1.1.set hd hk) hi.2, fun _ => rfl⟩
  · rintro c ⟨p, iv⟩ a hc hi ⟨k, hk, rfl⟩
    simp only [List.mem_product, mem_lines hd, List.mem_range] at hi
    exact ⟨sol_dom hA hc (hi.1.1.set hd hk) hi.2, rfl, rfl⟩
  · rintro c - ⟨p, iv⟩ hi ⟨p', iv'⟩ hj hij a ⟨k, hk, rfl⟩
    simp only [List.mem_product, mem_lines hd, List.mem_range] at hi hj
    have key : ∀ k', k' < M.N → M.sol sDiv c (p.set d k) iv ≠ M.sol sDiv c (p'.set d k') iv' := by
      intro k' hk' e
      obtain ⟨-, -, h3, h4⟩ := sol_inj (hi.1.1.set hd hk) (hj.1.1.set hd hk') e
      apply hij
      exact Prod.ext (line_eq hi.1.2 hj.1.2 h3).1 h4
    refine ⟨?_, ?_⟩
    · rintro (⟨k', hk', e⟩ | ⟨k', hk', e⟩)
      · exact hA.ne (congrArg Addr.arr e)
      · exact key k' hk' e
    · rintro ⟨k', hk', e⟩
      exact key k' hk' e
  · rintro m' ⟨y, h1, h2⟩
    refine ⟨m', y, fun c p iv hc hp hv => ?_, fun a ha => ?_⟩
    · have hl := hp.line hd
      have hk := hp.get_lt hd
      have e : M.sol sDiv c p iv = M.sol sDiv c ((p.set d 0).set d (p.get d)) iv := by simp
      rw [h1 c (p.set d 0, iv) _ hc (by simp [List.mem_product, hl, hv]) ⟨p.get d, hk, e⟩]
      rw [(loadVals_reads _ _ m).exec_bind, e]
      rw [addVals_exec (addr := fun k => M.sol sDiv c ((p.set d 0).set d k) iv) ?_ _ m hk]
      · simp only [Pt.set_set]
        congr 1
        unfold flux2solDerivativeVector
        congr 1
        exact sumIf_congr fun k hk => by simp only [if_pos hk]
      · intro j k hj hk e
        have h0 := ((mem_lines hd).1 hl).1
        exact (line_eq (Pt.get_set _ _ _) (Pt.get_set _ _ _)
          (sol_inj (h0.set hd hj) (h0.set hd hk) e).2.2.1).2
    · exact h2 a fun c i _ _ ⟨k, _, e⟩ => ha (by rw [e]; rfl)

end Verif.Sdm
