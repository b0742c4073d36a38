import Verif.Lemmas.MhdWhole
import Verif.Lemmas.KernelAtomic
import Mathlib.Tactic.Ring
import Mathlib.Algebra.BigOperators.Ring.Finset

/-! Helper lemmas: the MHD loops with atomic additions (implementation version 1), in exact
arithmetic. -/

namespace Verif

open K Function ROps Spec

/-- Work items that only load outside array `U` and add atomically to `U`. -/
structure Additive {X : Type} (U : Nat) (p : K Addr ℝ X) (m : Addr → ℝ) (x : X) (f : Addr → ℝ) :
    Prop where
  run : ∀ m'', (∀ a, a.arr ≠ U → m'' a = m a) →
    p.value m'' = x ∧ (∀ a, a.arr ≠ U → p.exec m'' a = m a) ∧ ∀ a, p.adds m'' a = f a

namespace Additive

variable {X Y : Type} {U : Nat} {m : Addr → ℝ}

theorem ret (x : X) : Additive U (.ret x) m x (fun _ => 0) :=
  ⟨fun _ h => ⟨rfl, h, fun _ => rfl⟩⟩

theorem adds_bind (p : K Addr ℝ X) (k : X → K Addr ℝ Y) (m : Addr → ℝ) (a : Addr) :
    (p.bind k).adds m a = p.adds m a + (k (p.value m)).adds (p.exec m) a := by
  induction p generalizing m with
  | ret x => simp [K.bind, K.adds, K.value, K.exec]
  | read b k ih => simp only [K.bind, K.adds, K.value, K.exec, ih]
  | write b v k ih => simp only [K.bind, K.adds, K.value, K.exec, ih]
  | add b v k ih => simp only [K.bind, K.adds, K.value, K.exec, ih, add_assoc]

theorem bind {p : K Addr ℝ X} {k : X → K Addr ℝ Y} {x : X} {y : Y} {f g : Addr → ℝ}
    (h : Additive U p m x f) (h' : Additive U (k x) m y g) :
    Additive U (p.bind k) m y (fun a => f a + g a) := by
  refine ⟨fun m'' hm => ?_⟩
  obtain ⟨h1, h2, h3⟩ := h.run m'' hm
  obtain ⟨h4, h5, h6⟩ := h'.run _ h2
  refine ⟨?_, ?_, ?_⟩
  · rw [value_bind, h1, h4]
  · intro a ha; rw [exec_bind, h1, h5 a ha]
  · intro a; rw [adds_bind, h3, h1, h6]

theorem congr {p : K Addr ℝ X} {x : X} {f g : Addr → ℝ} (h : Additive U p m x f) (e : ∀ a, f a = g a) :
    Additive U p m x g := by
  have : f = g := funext e
  rwa [← this]

theorem load {a : Addr} (ha : a.arr ≠ U) : Additive U (K.load a) m (m a) (fun _ => 0) :=
  ⟨fun _ h => ⟨h a ha, h, fun _ => rfl⟩⟩

theorem atomicAdd {a : Addr} {x : ℝ} (ha : a.arr = U) :
    Additive U (K.atomicAdd a x) m () (fun b => if b = a then x else 0) := by
  refine ⟨fun m'' h => ⟨rfl, fun b hb => ?_, fun b => ?_⟩⟩
  · have : b ≠ a := fun e => hb (e ▸ ha)
    simp [K.atomicAdd, K.exec, Function.update_of_ne this, h b hb]
  · simp [K.atomicAdd, K.adds]

theorem atomicIf {b : Prop} [Decidable b] {a : Addr} {x : ℝ} (ha : a.arr = U) :
    Additive U (atomicIf b a x) m () (fun a' => if b ∧ a' = a then x else 0) := by
  by_cases hb : b
  · simpa [Verif.atomicIf, hb] using atomicAdd ha
  · simpa [Verif.atomicIf, hb] using ret ()

/-- A load-only program. -/
theorem reads {p : K Addr ℝ X} {x : X} {R : Addr → Prop}
    (hFP : p.FP R (fun _ => False) (fun _ => False)) (hR : ∀ a, R a → a.arr ≠ U)
    (h : ∀ m'', (∀ a, a.arr ≠ U → m'' a = m a) → Reads p m'' x) :
    Additive U p m x (fun _ => 0) := by
  refine ⟨fun m'' hm => ⟨(h m'' hm).2, fun a ha => ?_, fun a => adds_zero hFP m'' (fun e => e)⟩⟩
  rw [(h m'' hm).1, hm a ha]

end Additive

/-! ### Sums over cells -/

section sums

variable {d3 : Bool} {P : Grid}

theorem sum_cellOf (g : Cell → ℝ) (c : Cell) :
    ∑ t ∈ Finset.range (P.isize.toNat * P.jsize.toNat * (if d3 then P.ksize.toNat else 1)),
      (if P.cellOf t = c then g (P.cellOf t) else 0) = if P.box d3 c then g c else 0 := by
  by_cases hb : P.box d3 c
  · obtain ⟨t, ht, rfl⟩ := Grid.cellOf_surj hb
    rw [Finset.sum_eq_single t, if_pos rfl, if_pos hb]
    · intro s _ hne
      rw [if_neg fun e => hne (Grid.cellOf_inj e)]
    · intro h
      exact absurd (Finset.mem_range.2 ht) h
  · rw [if_neg hb]
    refine Finset.sum_eq_zero fun t ht => ?_
    rw [if_neg]
    rintro rfl
    exact hb (Grid.cellOf_box (Finset.mem_range.1 ht))

theorem down_eq_iff {c c' : Cell} {d : Dir} : c'.down d = c ↔ c' = c.up d := by
  constructor
  · rintro rfl; rw [Cell.up_down]
  · rintro rfl; rw [Cell.down_up]

/-- Contribution of work items to their own cell. -/
theorem sum_own (b : Cell → Prop) [DecidablePred b] (x : Cell → ℝ) (c : Cell) :
    ∑ t ∈ Finset.range (P.isize.toNat * P.jsize.toNat * (if d3 then P.ksize.toNat else 1)),
      (if b (P.cellOf t) ∧ c = P.cellOf t then x (P.cellOf t) else 0) =
    if P.box d3 c ∧ b c then x c else 0 := by
  have := sum_cellOf (d3 := d3) (P := P) (fun c => if b c then x c else 0) c
  rw [ite_and, ← this]
  refine Finset.sum_congr rfl fun t _ => ?_
  by_cases h1 : b (P.cellOf t) <;> by_cases h2 : P.cellOf t = c <;> simp [h1, h2, eq_comm]
  exact fun e => (h2 e.symm).elim

/-- Contribution of work items to their lower neighbour. -/
theorem sum_low (b : Cell → Prop) [DecidablePred b] (x : Cell → ℝ) (c : Cell) (d : Dir) :
    ∑ t ∈ Finset.range (P.isize.toNat * P.jsize.toNat * (if d3 then P.ksize.toNat else 1)),
      (if b (P.cellOf t) ∧ c = (P.cellOf t).down d then x (P.cellOf t) else 0) =
    if P.box d3 (c.up d) ∧ b (c.up d) then x (c.up d) else 0 := by
  rw [← sum_own]
  refine Finset.sum_congr rfl fun t _ => ?_
  have : (c = (P.cellOf t).down d) ↔ (c.up d = P.cellOf t) := by
    rw [eq_comm, down_eq_iff, eq_comm]
  simp only [this]

end sums

/-! ### Fluxes -/

/-- Variables updated by fluxes. -/
def fluxVar (d3 : Bool) (v : Nat) : Prop := v < 5 ∨ (d3 = false ∧ v = 7)

instance (d3 : Bool) (v : Nat) : Decidable (fluxVar d3 v) := by unfold fluxVar; infer_instance

section loops

variable {d3 : Bool} {S : MSettings ℝ} {P : Grid} {J : MJunk ℝ} {impl : Int}
  {Uin Uout : Nat} {xmin dt : ℝ} {T : Cell → Predicted ℝ} {m : Addr → ℝ}

theorem Additive.atomicFlux {U : Nat} {sgn : ℝ → ℝ} {s : ℝ} {c : Cell} {f : MState ℝ} :
    Additive U (atomicFlux d3 sgn s U c f) m ()
      (fun a => if a.arr = U ∧ a.cell = c ∧ fluxVar d3 a.v then sgn (f.get a.v * s) else 0) := by
  have aa : ∀ v x, Additive U (K.atomicAdd (c.at U v) x) m ()
      (fun b => if b = c.at U v then x else 0) := fun v x => Additive.atomicAdd rfl
  have last : Additive U (if d3 then pure () else K.atomicAdd (c.at U IC) (sgn (f.c * s))) m ()
      (fun a => if d3 = false ∧ a = c.at U IC then sgn (f.c * s) else 0) := by
    cases d3
    · simpa using aa _ _
    · simpa using Additive.ret ()
  refine (Additive.bind (aa _ _) (Additive.bind (aa _ _) (Additive.bind (aa _ _)
    (Additive.bind (aa _ _) (Additive.bind (aa _ _) last))))).congr fun a => ?_
  obtain ⟨arr, i, j, k, v⟩ := a
  obtain ⟨ci, cj, ck⟩ := c
  simp only [Addr.cell, Cell.at, Addr.mk.injEq, Cell.mk.injEq, ID, IP, IU, IV, IW, IC, fluxVar]
  by_cases h : arr = U ∧ i = ci ∧ j = cj ∧ k = ck
  · obtain ⟨rfl, rfl, rfl, rfl⟩ := h
    simp only [true_and, and_self]
    by_cases hv : v < 8
    · cases d3 <;> interval_cases v <;> simp [MState.get]
    · have : v ≠ 7 := by omega
      have h5 : ¬ v < 5 := by omega
      rw [if_neg (by omega), if_neg (by omega), if_neg (by omega), if_neg (by omega),
        if_neg (by omega)]
      simp [this, h5]
  · have h' : ∀ q, ¬ (arr = U ∧ (i = ci ∧ j = cj ∧ k = ck) ∧ q) := fun q e => h ⟨e.1, e.2.1⟩
    have h'' : ∀ x, ¬ (arr = U ∧ i = ci ∧ j = cj ∧ k = ck ∧ v = x) :=
      fun x e => h ⟨e.1, e.2.1, e.2.2.1, e.2.2.2.1⟩
    simp only [h', h'', and_false, if_false, add_zero]

theorem Traced.agree {U : Nat} (hU : U < 40) (hT : Traced d3 S P T m) {m'' : Addr → ℝ}
    (h : ∀ a, a.arr ≠ U → m'' a = m a) : Traced d3 S P T m'' := by
  have e : ∀ A, 40 ≤ A → mfield m'' A = mfield m A := fun A hA => by
    funext c; exact mfield_ext fun v _ => h _ (by simp only [Cell.at_arr]; omega)
  refine ⟨fun c h1 h2 d hd => ?_, fun c h1 h2 d hd => ?_, fun c h1 h2 d hd k => ?_⟩
  · rw [e _ (mQm_range d).1]; exact hT.qm c h1 h2 d hd
  · rw [e _ (mQp_range d).1]; exact hT.qp c h1 h2 d hd
  · rw [e _ (mEdge_range d k).1]; exact hT.edge c h1 h2 d hd k

/-- Locations read by the update loops. -/
def AtomR (d3 : Bool) (P : Grid) (a : Addr) : Prop := mhdDom d3 P 1 a ∧ 40 ≤ a.arr
/-- Locations added to by the update loops. -/
def AtomC (d3 : Bool) (P : Grid) (U : Nat) (a : Addr) : Prop := mhdDom d3 P 1 a ∧ a.arr = U

theorem get_state_FP {A : Nat} {c : Cell} {R W C : Addr → Prop} (h : ∀ v, v < 8 → R (c.at A v)) :
    (get_state A c : K Addr ℝ _).FP R W C :=
  FP.bind (FP.load (h _ (by decide))) fun _ => FP.bind (FP.load (h _ (by decide))) fun _ =>
  FP.bind (FP.load (h _ (by decide))) fun _ => FP.bind (FP.load (h _ (by decide))) fun _ =>
  FP.bind (FP.load (h _ (by decide))) fun _ => FP.bind (FP.load (h _ (by decide))) fun _ =>
  FP.bind (FP.load (h _ (by decide))) fun _ => FP.bind (FP.load (h _ (by decide))) fun _ => trivial

theorem loadFlux_FP {W C : Addr → Prop} (h : MhdOk d3 P 1 Uin Uout) {c : Cell} {d : Dir}
    (hd : d ∈ dirs d3) (hc : P.box d3 c) (hf : P.faces d3 c) :
    (loadFlux S J c d).FP (AtomR d3 P) W C :=
  FP.bind (get_state_FP fun v hv => ⟨h.dom_qm hd (faces_down h.gw hf hc hd).1 v hv, (mQm_range d).1⟩)
    fun _ => FP.bind (get_state_FP fun v hv => ⟨h.dom_qp hd hc v hv, (mQp_range d).1⟩) fun _ => trivial

theorem loadEmf_FP {W C : Addr → Prop} (h : MhdOk d3 P 1 Uin Uout) {c : Cell} {e : EmfDir}
    (he : e ∈ emfDirs d3) (hc : P.box d3 c) (hf : P.faces d3 c) :
    (loadEmf S c e).FP (AtomR d3 P) W C := by
  have l : ∀ k c', P.box d3 c' → (get_state (mEdge e k) c' : K Addr ℝ _).FP (AtomR d3 P) W C :=
    fun k c' hc' => get_state_FP fun v hv => ⟨h.dom_edge he k hc' v hv, (mEdge_range e k).1⟩
  have b1 := fun d hd => (faces_down (d := d) h.gw hf hc hd).1
  have b2 := fun d d' hd hd' hne => (faces_down2 (d := d) (d' := d') h.gw hf hc hd hd' hne).1
  cases e <;> cases d3 <;> simp [emfDirs] at he <;>
  exact FP.bind (l _ _ (b2 _ _ (by decide) (by decide) (by decide))) fun _ =>
    FP.bind (l _ _ (b1 _ (by decide))) fun _ => FP.bind (l _ _ (b1 _ (by decide))) fun _ =>
    FP.bind (l _ _ hc) fun _ => trivial

theorem Additive.loadFlux (h : MhdOk d3 P 1 Uin Uout) (hT : Traced d3 S P T m) {c : Cell} {d : Dir}
    (hd : d ∈ dirs d3) (hc : P.box d3 c) (hf : P.faces d3 c) :
    Additive Uout (loadFlux S J c d) m (mfluxOf d3 S J T c d) (fun _ => 0) :=
  Additive.reads (loadFlux_FP h hd hc hf)
    (fun a ha => by have := h.out_lt; have := ha.2; omega)
    (fun _ hm => loadFlux_reads h.gw (hT.agree (by have := h.out_lt; omega) hm) hd hc hf)

theorem Additive.loadEmf (h : MhdOk d3 P 1 Uin Uout) (hT : Traced d3 S P T m) {c : Cell} {e : EmfDir}
    (he : e ∈ emfDirs d3) (hc : P.box d3 c) (hf : P.faces d3 c) :
    Additive Uout (loadEmf S c e) m (emfOf d3 S T c e) (fun _ => 0) :=
  Additive.reads (loadEmf_FP h he hc hf)
    (fun a ha => by have := h.out_lt; have := ha.2; omega)
    (fun _ hm => loadEmf_reads h.gw (hT.agree (by have := h.out_lt; omega) hm) he hc hf)

/-- A loop with such work items. -/
theorem additive_yields (h : MhdOk d3 P 1 Uin Uout) {body : Cell → K Addr ℝ Unit}
    (hFP : ∀ c, P.box d3 c → (body c).FP (AtomR d3 P) (fun _ => False) (AtomC d3 P Uout)) :
    (mdrange d3 P body).Yields (mhdDom d3 P 1) m (fun a => m a +
      ∑ t ∈ Finset.range (P.isize.toNat * P.jsize.toNat * (if d3 then P.ksize.toNat else 1)),
        (body (P.cellOf t)).adds m a) := by
  have ho := h.out_lt
  refine Launch.yields_of_footprint_atomic _ _ (fun _ => AtomR d3 P) (fun _ _ => False)
    (fun _ => AtomC d3 P Uout) _ _ (fun t ht => hFP _ (Grid.cellOf_box ht)) ?_ ?_ ?_ ?_ ?_ ?_ ?_
  · rintro t a _ (h | h | h)
    · exact h.1
    · exact h.elim
    · exact h.1
  · intro _ _ _ _ _ _ h; exact h.elim
  · intro _ _ _ _ _ _ h; exact h.elim
  · rintro _ _ a _ _ h1 h2
    have := h1.2; have := h2.2; omega
  · rintro _ _ a _ _ h1 h2; exact h2
  · intro _ _ _ h; exact h.elim
  · intro a _; rfl

theorem Additive.each {ι : Type} {U : Nat} {f : ι → K Addr ℝ Unit} {g : ι → Addr → ℝ} (l : List ι)
    (h : ∀ i ∈ l, Additive U (f i) m () (g i)) :
    Additive U (each f l) m () (fun a => (l.map fun i => g i a).sum) := by
  induction l with
  | nil => exact (Additive.ret ()).congr fun a => by simp
  | cons i l ih =>
    refine (Additive.bind (h i (by simp)) (ih fun j hj => h j (by simp [hj]))).congr fun a => ?_
    simp

theorem Additive.ite {b : Prop} [Decidable b] {U : Nat} {p : K Addr ℝ Unit} {f : Addr → ℝ}
    (h : Additive U p m () f) :
    Additive U (if b then p else pure ()) m () (fun a => if b then f a else 0) := by
  by_cases hb : b
  · simpa [hb] using h
  · simpa [hb] using Additive.ret ()

/-- Flux contribution. -/
noncomputable def fluxTerm (S : MSettings ℝ) (dt : ℝ) (F : Cell → Dir → MState ℝ) (v : Nat) (d : Dir)
    (c : Cell) : ℝ := ((F c d).swap d).get v * dtOver S.toSettings dt d

/-- Contributions of a work item of the flux loop. -/
noncomputable def fluxAdds (d3 : Bool) (S : MSettings ℝ) (P : Grid) (dt : ℝ) (F : Cell → Dir → MState ℝ) (c : Cell)
    (c' : Cell) (v : Nat) (d : Dir) : ℝ :=
  (if (P.faces d3 c ∧ P.ownOk d3 c ∧ fluxVar d3 v) ∧ c' = c then fluxTerm S dt F v d c
    else 0) +
  (if (P.faces d3 c ∧ P.lowerOk d3 d c ∧ fluxVar d3 v) ∧ c' = c.down d then
    -fluxTerm S dt F v d c else 0)

theorem flux_additive (h : MhdOk d3 P 1 Uin Uout) (hT : Traced d3 S P T m) {c : Cell}
    (hc : P.box d3 c) :
    Additive Uout (computeFluxesAndUpdateBody d3 S P J dt Uout c) m ()
      (fun a => if a.arr = Uout then
        ((dirs d3).map fun d => fluxAdds d3 S P dt (mfluxOf d3 S J T) c a.cell a.v d).sum else 0) := by
  by_cases hf : P.faces d3 c
  · rw [computeFluxesAndUpdateBody, if_pos hf]
    refine (Additive.each (dirs d3) fun d hd => Additive.bind (Additive.loadFlux h hT hd hc hf)
      (Additive.bind (Additive.ite Additive.atomicFlux)
        (Additive.ite Additive.atomicFlux))).congr fun a => ?_
    by_cases ha : a.arr = Uout
    · rw [if_pos ha]
      congr 1
      refine List.map_congr_left fun d _ => ?_
      simp only [ha, true_and, zero_add, fluxAdds, hf, fluxTerm]
      congr 1
      · by_cases h1 : P.ownOk d3 c <;> by_cases h2 : a.cell = c <;> by_cases h3 : fluxVar d3 a.v <;>
          simp [h1, h2, h3]
      · by_cases h1 : P.lowerOk d3 d c <;> by_cases h2 : a.cell = c.down d <;>
          by_cases h3 : fluxVar d3 a.v <;> simp [h1, h2, h3]
    · simp [ha]
  · rw [computeFluxesAndUpdateBody, if_neg hf]
    refine (Additive.ret ()).congr fun a => ?_
    simp [fluxAdds, hf]

theorem flux_FP (h : MhdOk d3 P 1 Uin Uout) {c : Cell} (hc : P.box d3 c) :
    (computeFluxesAndUpdateBody d3 S P J dt Uout c).FP (AtomR d3 P) (fun _ => False)
      (AtomC d3 P Uout) := by
  by_cases hf : P.faces d3 c
  · rw [computeFluxesAndUpdateBody, if_pos hf]
    have at' : ∀ (sgn : ℝ → ℝ) (s : ℝ) (c' : Cell) (f : MState ℝ), P.box d3 c' → (atomicFlux d3 sgn s Uout c' f).FP (AtomR d3 P)
        (fun _ => False) (AtomC d3 P Uout) := by
      intro sgn s c' f hc'
      have aa : ∀ v x, v < 8 → (K.atomicAdd (c'.at Uout v) x : K Addr ℝ Unit).FP (AtomR d3 P)
        (fun _ => False) (AtomC d3 P Uout) := fun v x hv => FP.atomicAdd ⟨h.dom_out hc' v hv, rfl⟩
      refine FP.bind (aa _ _ (by decide)) fun _ => FP.bind (aa _ _ (by decide)) fun _ =>
        FP.bind (aa _ _ (by decide)) fun _ => FP.bind (aa _ _ (by decide)) fun _ =>
        FP.bind (aa _ _ (by decide)) fun _ => ?_
      cases d3
      · exact aa _ _ (by decide)
      · trivial
    have all : ∀ l : List Dir, (∀ d ∈ l, d ∈ dirs d3) → (each (fun d => do
        let flux ← loadFlux S J c d
        let f := flux.swap d
        (if P.ownOk d3 c then
          atomicFlux d3 (fun x => x) (dtOver S.toSettings dt d) Uout c f
        else pure ())
        (if P.lowerOk d3 d c then
          atomicFlux d3 (fun x => -x) (dtOver S.toSettings dt d) Uout (c.down d) f
        else pure ())) l).FP (AtomR d3 P) (fun _ => False) (AtomC d3 P Uout) := by
      intro l hl
      induction l with
      | nil => trivial
      | cons d l ih =>
        have hd := hl d (by simp)
        refine FP.bind (FP.bind (loadFlux_FP h hd hc hf) fun _ => FP.bind ?_ fun _ => ?_)
          fun _ => ih fun d hd => hl d (by simp [hd])
        · split_ifs
          · exact at' _ _ _ _ hc
          · trivial
        · split_ifs
          · exact at' _ _ _ _ (faces_down h.gw hf hc hd).1
          · trivial
    exact all _ fun _ h => h
  · rw [computeFluxesAndUpdateBody, if_neg hf]; trivial

theorem additive_adds {U : Nat} {p : K Addr ℝ Unit} {f : Addr → ℝ} (h : Additive U p m () f)
    (a : Addr) : p.adds m a = f a := (h.run m fun _ _ => rfl).2.2 a

theorem own_iff (hg : 3 ≤ P.ghostWidth) {c : Cell} (hc : P.box d3 c) :
    (P.box d3 c ∧ P.faces d3 c ∧ P.ownOk d3 c) ↔ P.inner d3 c := by
  cases d3 <;> simp only [Grid.ownOk] <;> guards <;> constructor <;> intro h <;>
    simp at * <;> omega

theorem low_iff (hg : 3 ≤ P.ghostWidth) {c : Cell} (hc : P.box d3 c) {d : Dir} (hd : d ∈ dirs d3) :
    (P.box d3 (c.up d) ∧ P.faces d3 (c.up d) ∧ P.lowerOk d3 d (c.up d)) ↔ P.inner d3 c := by
  cases d3 <;> cases d <;> simp [dirs] at hd <;> simp only [Grid.lowerOk] <;> guards <;>
    constructor <;> intro h <;> simp at * <;> omega

/-- Flux loop of implementation version 1. -/
theorem mhd_fluxUpdate (h : MhdOk d3 P 1 Uin Uout) (hT : Traced d3 S P T m) :
    ∃ m', (computeFluxesAndUpdate d3 S P J dt Uout).Yields (mhdDom d3 P 1) m m' ∧
      (∀ c, P.box d3 c → P.inner d3 c → mfield m' Uout c =
        fluxUpd d3 S dt (mfluxOf d3 S J T) c (dirs d3) (mfield m Uout c)) ∧
      (∀ c, P.box d3 c → ¬ P.inner d3 c → mfield m' Uout c = mfield m Uout c) ∧
      (∀ a, a.arr ≠ Uout → m' a = m a) := by
  have key : ∀ c, P.box d3 c → ∀ v,
      ∑ t ∈ Finset.range (P.isize.toNat * P.jsize.toNat * (if d3 then P.ksize.toNat else 1)),
        (computeFluxesAndUpdateBody d3 S P J dt Uout (P.cellOf t)).adds m (c.at Uout v) =
      if P.inner d3 c ∧ fluxVar d3 v then ((dirs d3).map fun d =>
        fluxTerm S dt (mfluxOf d3 S J T) v d c -
          fluxTerm S dt (mfluxOf d3 S J T) v d (c.up d)).sum else 0 := by
    intro c hc v
    rw [Finset.sum_congr rfl fun t ht => additive_adds
      (flux_additive (J := J) (dt := dt) h hT (Grid.cellOf_box (Finset.mem_range.1 ht))) _]
    simp only [Cell.at_arr, if_true, Cell.at_cell, Cell.at_v]
    simp only [fluxAdds]
    have own := fun d => sum_own (d3 := d3) (P := P)
      (fun c => P.faces d3 c ∧ P.ownOk d3 c ∧ fluxVar d3 v)
      (fun c => fluxTerm S dt (mfluxOf d3 S J T) v d c) c
    have low := fun d => sum_low (d3 := d3) (P := P)
      (fun c => P.faces d3 c ∧ P.lowerOk d3 d c ∧ fluxVar d3 v)
      (fun c => -fluxTerm S dt (mfluxOf d3 S J T) v d c) c d
    have o := own_iff h.gw hc
    have l := fun d hd => low_iff (d := d) h.gw hc hd
    have o' : (P.box d3 c ∧ P.faces d3 c ∧ P.ownOk d3 c ∧ fluxVar d3 v) ↔
        (P.inner d3 c ∧ fluxVar d3 v) := by rw [← o]; tauto
    have l' : ∀ d ∈ dirs d3, (P.box d3 (c.up d) ∧ P.faces d3 (c.up d) ∧ P.lowerOk d3 d (c.up d) ∧
        fluxVar d3 v) ↔ (P.inner d3 c ∧ fluxVar d3 v) := fun d hd => by rw [← l d hd]; tauto
    cases d3
    · simp only [dirs, Bool.false_eq_true, if_false, List.map_cons, List.map_nil, List.sum_cons,
        List.sum_nil, add_zero, Finset.sum_add_distrib] at own low l' o' ⊢
      rw [own, own, low, low]
      simp only [o', l' _ (by decide : Dir.x ∈ [Dir.x, Dir.y]), l' _ (by decide : Dir.y ∈ [Dir.x, Dir.y])]
      split_ifs <;> ring
    · simp only [dirs, if_true, List.map_cons, List.map_nil, List.sum_cons,
        List.sum_nil, add_zero, Finset.sum_add_distrib] at own low l' o' ⊢
      rw [own, own, own, low, low, low]
      simp only [o', l' _ (by decide : Dir.x ∈ [Dir.x, Dir.y, Dir.z]),
        l' _ (by decide : Dir.y ∈ [Dir.x, Dir.y, Dir.z]), l' _ (by decide : Dir.z ∈ [Dir.x, Dir.y, Dir.z])]
      split_ifs <;> ring
  refine ⟨_, additive_yields h (fun c hc => flux_FP h hc), ?_, ?_, ?_⟩
  · intro c hc hi
    apply MState.ext_get
    intro v hv
    rw [mfield_get _ _ _ hv, key c hc v, ← mfield_get m _ _ hv]
    cases d3 <;> interval_cases v <;>
      simp [hi, fluxVar, fluxUpd, dirs, addFlux, MState.get, fluxTerm] <;> ring
  · intro c hc hi
    refine mfield_ext fun v hv => ?_
    rw [key c hc v, if_neg (fun e => hi e.1), add_zero]
  · intro a ha
    rw [Finset.sum_eq_zero, add_zero]
    intro t ht
    exact adds_zero (flux_FP h (Grid.cellOf_box (Finset.mem_range.1 ht))) m fun e => ha e.2

/-! ### Electric field -/

/-- Contribution to the own cell. -/
noncomputable def emfOwn (d3 : Bool) (S : MSettings ℝ) (dt : ℝ) (E : Cell → EmfDir → ℝ) (v : Nat)
    (c : Cell) : ℝ :=
  (if v = IA then -(E c .z * dtOver S.toSettings dt .y) else 0) +
  (if v = IB then E c .z * dtOver S.toSettings dt .x else 0) +
  if d3 then
    (if v = IA then E c .y * dtOver S.toSettings dt .z else 0) +
    (if v = IC then -(E c .y * dtOver S.toSettings dt .x) else 0) +
    (if v = IB then -(E c .x * dtOver S.toSettings dt .z) else 0) +
    (if v = IC then E c .x * dtOver S.toSettings dt .y else 0)
  else 0

/-- Contribution to the lower neighbour. -/
noncomputable def emfLow (d3 : Bool) (S : MSettings ℝ) (dt : ℝ) (E : Cell → EmfDir → ℝ) (v : Nat)
    (d : Dir) (c : Cell) : ℝ :=
  match d with
  | .x => (if v = IB then -(E c .z * dtOver S.toSettings dt .x) else 0) +
    (if d3 then if v = IC then E c .y * dtOver S.toSettings dt .x else 0 else 0)
  | .y => (if v = IA then E c .z * dtOver S.toSettings dt .y else 0) +
    (if d3 then if v = IC then -(E c .x * dtOver S.toSettings dt .y) else 0 else 0)
  | .z => (if v = IA then -(E c .y * dtOver S.toSettings dt .z) else 0) +
    (if v = IB then E c .x * dtOver S.toSettings dt .z else 0)

/-- Guard of the update of the own cell. -/
def emfOwnOk (d3 : Bool) (P : Grid) (c : Cell) : Prop := d3 = true → P.ownOk d3 c
/-- Guard of the update of the lower neighbour. -/
def emfLowOk (d3 : Bool) (P : Grid) (d : Dir) (c : Cell) : Prop := d3 = true → P.lowerOk d3 d c

instance (d3 : Bool) (P : Grid) (c : Cell) : Decidable (emfOwnOk d3 P c) := by
  unfold emfOwnOk; infer_instance
instance (d3 : Bool) (P : Grid) (d : Dir) (c : Cell) : Decidable (emfLowOk d3 P d c) := by
  unfold emfLowOk; infer_instance

/-- Contributions of a work item of the electric field loop. -/
noncomputable def emfAdds (d3 : Bool) (S : MSettings ℝ) (P : Grid) (dt : ℝ) (E : Cell → EmfDir → ℝ)
    (c c' : Cell) (v : Nat) : ℝ :=
  (if (P.faces d3 c ∧ emfOwnOk d3 P c) ∧ c' = c then emfOwn d3 S dt E v c else 0) +
  ((dirs d3).map fun d => if (P.faces d3 c ∧ emfLowOk d3 P d c) ∧ c' = c.down d then
    emfLow d3 S dt E v d c else 0).sum

theorem emf_additive (h : MhdOk d3 P 1 Uin Uout) (hT : Traced d3 S P T m) {c : Cell}
    (hc : P.box d3 c) :
    Additive Uout (computeEmfAndUpdateBody d3 S P dt Uout c) m ()
      (fun a => if a.arr = Uout then emfAdds d3 S P dt (emfOf d3 S T) c a.cell a.v else 0) := by
  by_cases hf : P.faces d3 c
  · rw [computeEmfAndUpdateBody, if_pos hf]
    have le := fun e he => Additive.loadEmf (e := e) h hT he hc hf
    have at' : ∀ (b : Prop) [Decidable b] (c' : Cell) (v : Nat) (x : ℝ),
        Additive Uout (Verif.atomicIf b (c'.at Uout v) x) m ()
          (fun a => if b ∧ a = c'.at Uout v then x else 0) :=
      fun b _ c' v x => Additive.atomicIf rfl
    cases d3
    · refine (Additive.bind (le _ (by decide)) (Additive.bind (at' _ _ _ _) (Additive.bind (at' _ _ _ _)
        (Additive.bind (at' _ _ _ _) (Additive.bind (at' _ _ _ _) (Additive.ret ())))))).congr
        fun a => ?_
      by_cases ha : a.arr = Uout
      · simp only [Addr.eq_iff, Cell.at_arr, Cell.at_cell, Cell.at_v, ha, true_and, if_true]
        simp only [emfAdds, emfOwn, emfLow, hf, true_and, dirs, List.map_cons, List.map_nil,
          List.sum_cons, List.sum_nil, Bool.false_eq_true, if_false, emfOwnOk, emfLowOk,
          false_imp_iff]
        generalize a.v = v
        have h56 : ¬ IA = IB := by decide
        by_cases h5 : v = IA
        · subst h5
          simp only [h56, and_true, and_false, if_false, if_true, add_zero, zero_add]
          split_ifs <;> ring
        · by_cases h6 : v = IB
          · subst h6
            simp only [h5, and_true, and_false, if_false, if_true, add_zero, zero_add]
            split_ifs <;> ring
          · simp only [h5, h6, and_false, if_false, add_zero, ite_self]
      · have : ∀ (c' : Cell) v, a ≠ c'.at Uout v := fun c' v e => ha (by rw [e]; rfl)
        simp [this, ha]
    · refine (Additive.bind (le _ (by decide)) (Additive.bind (at' _ _ _ _) (Additive.bind (at' _ _ _ _)
        (Additive.bind (at' _ _ _ _) (Additive.bind (at' _ _ _ _)
        (Additive.bind (le _ (by decide)) (Additive.bind (at' _ _ _ _) (Additive.bind (at' _ _ _ _)
        (Additive.bind (at' _ _ _ _) (Additive.bind (at' _ _ _ _)
        (Additive.bind (le _ (by decide)) (Additive.bind (at' _ _ _ _) (Additive.bind (at' _ _ _ _)
        (Additive.bind (at' _ _ _ _) (at' _ _ _ _))))))))))))))).congr
        fun a => ?_
      by_cases ha : a.arr = Uout
      · simp only [Addr.eq_iff, Cell.at_arr, Cell.at_cell, Cell.at_v, ha, true_and, if_true]
        simp only [emfAdds, emfOwn, emfLow, hf, true_and, dirs, List.map_cons, List.map_nil,
          List.sum_cons, List.sum_nil, if_true, emfOwnOk, emfLowOk, true_imp_iff]
        generalize a.v = v
        have h56 : ¬ IA = IB := by decide
        have h57 : ¬ IA = IC := by decide
        have h67 : ¬ IB = IC := by decide
        by_cases h5 : v = IA
        · subst h5
          simp only [h56, h57, and_true, and_false, if_false, if_true, add_zero, zero_add]
          split_ifs <;> ring
        · by_cases h6 : v = IB
          · subst h6
            simp only [h5, h67, and_true, and_false, if_false, if_true, add_zero, zero_add]
            split_ifs <;> ring
          · by_cases h7 : v = IC
            · subst h7
              simp only [h5, h6, and_true, and_false, if_false, if_true, add_zero, zero_add]
              split_ifs <;> ring
            · simp only [h5, h6, h7, and_false, if_false, add_zero, ite_self]
      · have : ∀ (c' : Cell) v, a ≠ c'.at Uout v := fun c' v e => ha (by rw [e]; rfl)
        simp [this, ha]
  · rw [computeEmfAndUpdateBody, if_neg hf]
    refine (Additive.ret ()).congr fun a => ?_
    simp [emfAdds, hf]

theorem emf_FP (h : MhdOk d3 P 1 Uin Uout) {c : Cell} (hc : P.box d3 c) :
    (computeEmfAndUpdateBody d3 S P dt Uout c).FP (AtomR d3 P) (fun _ => False)
      (AtomC d3 P Uout) := by
  by_cases hf : P.faces d3 c
  · rw [computeEmfAndUpdateBody, if_pos hf]
    have at' : ∀ (b : Prop) [Decidable b] (c' : Cell) (v : Nat) (x : ℝ), P.box d3 c' → v < 8 →
        (Verif.atomicIf b (c'.at Uout v) x : K Addr ℝ Unit).FP (AtomR d3 P)
          (fun _ => False) (AtomC d3 P Uout) := by
      intro b _ c' v x hc' hv
      unfold Verif.atomicIf
      split_ifs
      · exact FP.atomicAdd ⟨h.dom_out hc' v hv, rfl⟩
      · trivial
    have le := fun e he => loadEmf_FP (S := S) (e := e) (W := fun _ => False) (C := AtomC d3 P Uout)
      h he hc hf
    have bd := fun d hd => (faces_down (d := d) h.gw hf hc hd).1
    cases d3
    · exact FP.bind (le _ (by decide)) fun _ => FP.bind (at' _ _ _ _ hc (by decide)) fun _ =>
        FP.bind (at' _ _ _ _ hc (by decide)) fun _ =>
        FP.bind (at' _ _ _ _ (bd _ (by decide)) (by decide)) fun _ =>
        FP.bind (at' _ _ _ _ (bd _ (by decide)) (by decide)) fun _ => trivial
    · exact FP.bind (le _ (by decide)) fun _ => FP.bind (at' _ _ _ _ hc (by decide)) fun _ =>
        FP.bind (at' _ _ _ _ hc (by decide)) fun _ =>
        FP.bind (at' _ _ _ _ (bd _ (by decide)) (by decide)) fun _ =>
        FP.bind (at' _ _ _ _ (bd _ (by decide)) (by decide)) fun _ =>
        FP.bind (le _ (by decide)) fun _ => FP.bind (at' _ _ _ _ hc (by decide)) fun _ =>
        FP.bind (at' _ _ _ _ hc (by decide)) fun _ =>
        FP.bind (at' _ _ _ _ (bd _ (by decide)) (by decide)) fun _ =>
        FP.bind (at' _ _ _ _ (bd _ (by decide)) (by decide)) fun _ =>
        FP.bind (le _ (by decide)) fun _ => FP.bind (at' _ _ _ _ hc (by decide)) fun _ =>
        FP.bind (at' _ _ _ _ hc (by decide)) fun _ =>
        FP.bind (at' _ _ _ _ (bd _ (by decide)) (by decide)) fun _ =>
        at' _ _ _ _ (bd _ (by decide)) (by decide)
  · rw [computeEmfAndUpdateBody, if_neg hf]; trivial

/-- Electric field loop of implementation version 1. -/
theorem mhd_emfUpdate (h : MhdOk d3 P 1 Uin Uout) (hT : Traced d3 S P T m) :
    ∃ m', (computeEmfAndUpdate d3 S P dt Uout).Yields (mhdDom d3 P 1) m m' ∧
      (∀ c, P.box d3 c → P.inner d3 c → mfield m' Uout c =
        emfUpd d3 S dt (emfOf d3 S T) c (mfield m Uout c)) ∧
      (∀ c, P.box d3 c → ¬ P.inner d3 c → d3 = true → mfield m' Uout c = mfield m Uout c) ∧
      (∀ a, a.arr ≠ Uout → m' a = m a) := by
  have key : ∀ c, P.box d3 c → ∀ v,
      ∑ t ∈ Finset.range (P.isize.toNat * P.jsize.toNat * (if d3 then P.ksize.toNat else 1)),
        (computeEmfAndUpdateBody d3 S P dt Uout (P.cellOf t)).adds m (c.at Uout v) =
      (if P.box d3 c ∧ P.faces d3 c ∧ emfOwnOk d3 P c then emfOwn d3 S dt (emfOf d3 S T) v c else 0) +
      ((dirs d3).map fun d =>
        if P.box d3 (c.up d) ∧ P.faces d3 (c.up d) ∧ emfLowOk d3 P d (c.up d) then
          emfLow d3 S dt (emfOf d3 S T) v d (c.up d) else 0).sum := by
    intro c hc v
    rw [Finset.sum_congr rfl fun t ht => additive_adds
      (emf_additive (dt := dt) h hT (Grid.cellOf_box (Finset.mem_range.1 ht))) _]
    simp only [Cell.at_arr, if_true, Cell.at_cell, Cell.at_v]
    simp only [emfAdds]
    have own := sum_own (d3 := d3) (P := P) (fun c => P.faces d3 c ∧ emfOwnOk d3 P c)
      (fun c => emfOwn d3 S dt (emfOf d3 S T) v c) c
    have low := fun d => sum_low (d3 := d3) (P := P)
      (fun c => P.faces d3 c ∧ emfLowOk d3 P d c)
      (fun c => emfLow d3 S dt (emfOf d3 S T) v d c) c d
    rw [Finset.sum_add_distrib, own]
    congr 1
    cases d3
    · simp only [dirs, Bool.false_eq_true, if_false, List.map_cons, List.map_nil, List.sum_cons,
        List.sum_nil, add_zero, Finset.sum_add_distrib] at low ⊢
      rw [low, low]
    · simp only [dirs, if_true, List.map_cons, List.map_nil, List.sum_cons,
        List.sum_nil, add_zero, Finset.sum_add_distrib] at low ⊢
      rw [low, low, low]
  refine ⟨_, additive_yields h (fun c hc => emf_FP h hc), ?_, ?_, ?_⟩
  · intro c hc hi
    have o := (own_iff h.gw hc).2 hi
    have l := fun d hd => (low_iff (d := d) h.gw hc hd).2 hi
    apply MState.ext_get
    intro v hv
    rw [mfield_get _ _ _ hv, key c hc v, ← mfield_get m _ _ hv,
      if_pos ⟨o.1, o.2.1, fun _ => o.2.2⟩]
    have ll : ((dirs d3).map fun d =>
        if P.box d3 (c.up d) ∧ P.faces d3 (c.up d) ∧ emfLowOk d3 P d (c.up d) then
          emfLow d3 S dt (emfOf d3 S T) v d (c.up d) else 0) =
        (dirs d3).map fun d => emfLow d3 S dt (emfOf d3 S T) v d (c.up d) :=
      List.map_congr_left fun d hd => if_pos ⟨(l d hd).1, (l d hd).2.1, fun _ => (l d hd).2.2⟩
    rw [ll]
    cases d3 <;> interval_cases v <;>
      simp [emfUpd, dirs, MState.get, emfOwn, emfLow, IA, IB, IC] <;> ring
  · rintro c hc hi rfl
    refine mfield_ext fun v hv => ?_
    have o := fun e => hi ((own_iff h.gw hc).1 e)
    have l := fun d hd e => hi ((low_iff (d := d) h.gw hc hd).1 e)
    rw [key c hc v, if_neg (fun e => o ⟨e.1, e.2.1, e.2.2 rfl⟩), zero_add]
    have ll : ((dirs true).map fun d =>
        if P.box true (c.up d) ∧ P.faces true (c.up d) ∧ emfLowOk true P d (c.up d) then
          emfLow true S dt (emfOf true S T) v d (c.up d) else 0) =
        (dirs true).map fun d => 0 :=
      List.map_congr_left fun d hd => if_neg (fun e => l d hd ⟨e.1, e.2.1, e.2.2 rfl⟩)
    rw [ll]
    simp
  · intro a ha
    rw [Finset.sum_eq_zero, add_zero]
    intro t ht
    exact adds_zero (emf_FP h (Grid.cellOf_box (Finset.mem_range.1 ht))) m fun e => ha e.2

/-- A whole step of implementation version 1, in exact arithmetic. -/
theorem mhd_step1 {B : Sides} (h : MhdOk d3 P 1 Uin Uout) (hB : BoxSetup d3 8 3 P B)
    (m : Addr → ℝ) :
    ∃ m1 m', YieldsAll (mhdDom d3 P 1) (mhd_unsplit_impl d3 S P J xmin 1 dt Uin Uout) m m' ∧
      FilledMem d3 true P B Uin m m1 ∧ mfield m' Uin = mfield m1 Uin ∧
      (∀ c, P.box d3 c → P.inner d3 c →
        mfield m' Uout c = mstepOf d3 S P J xmin dt (mfield m1 Uin) c) ∧
      (∀ c, P.box d3 c → ¬ P.inner d3 c → d3 = true → mfield m' Uout c = mfield m1 Uin c) := by
  obtain ⟨m1, m2, y2, f1, o2, q2, g2⟩ := mhd_prepare (S := S) h.toMhdBuf hB m
  have hne := h.ne
  have hi := h.in_lt
  have ho := h.out_lt
  have u2 : mfield m2 Uin = mfield m1 Uin := by
    funext c
    exact mfield_ext fun v _ => g2 _ hne (by simp only [Cell.at_arr, aQ]; omega)
  obtain ⟨m3, y3, t3, g3⟩ := mhd_trace (S := S) (J := J) (xmin := xmin) (dt := dt) h q2 u2
  obtain ⟨m4, y4, i4, n4, g4⟩ := mhd_fluxUpdate (J := J) (dt := dt) h t3
  have t4 := t3.agree (by omega) g4
  obtain ⟨m5, y5, i5, n5, g5⟩ := mhd_emfUpdate (dt := dt) h t4
  have out3 : ∀ c, P.box d3 c → mfield m3 Uout c = mfield m1 Uin c := by
    intro c hc
    rw [← o2 c hc]
    exact mfield_ext fun v _ => g3 _ (by simp only [Cell.at_arr]; omega)
  refine ⟨m1, m5, y2.append ?_, f1, ?_, ?_, ?_⟩
  · rw [mhdAdvance, if_neg (by decide), if_pos rfl]
    exact y3.append (.cons y4 (.cons y5 (.nil _)))
  · funext c
    refine mfield_ext fun v _ => ?_
    rw [g5 _ hne, g4 _ hne, g3 _ (by simp only [Cell.at_arr]; omega),
      g2 _ hne (by simp only [Cell.at_arr, aQ]; omega)]
  · intro c hc hin
    rw [i5 c hc hin, i4 c hc hin, out3 c hc]
    rfl
  · intro c hc hin hd
    rw [n5 c hc hin hd, n4 c hc hin, out3 c hc]

end loops

end Verif
