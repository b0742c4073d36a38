import Verif.Model.SdmStep
import Verif.Spec.Sdm
import Verif.Lemmas.MoodKernels

/-! Helper lemmas: loops inside a work item, and loops over cells whose work items own locations of
neighbouring cells. -/

namespace Verif.Sdm

open Verif K Function ROps

variable {α : Type} [ROps α]

/-! ### `forEach` -/

section
variable {A V ι : Type}

theorem forEach_fp {R W C : A → Prop} {L : List ι} {body : ι → K A V Unit}
    (h : ∀ i ∈ L, (body i).FP R W C) : (forEach L body).FP R W C := by
  induction L with
  | nil => trivial
  | cons i L ih =>
    exact FP.bind (h i (by simp)) fun _ => ih fun j hj => h j (by simp [hj])

variable [DecidableEq A] [Add V]

theorem forEach_cons_exec (i : ι) (L : List ι) (body : ι → K A V Unit) (m : A → V) :
    (forEach (i :: L) body).exec m = (forEach L body).exec ((body i).exec m) := by
  show ((body i).bind fun _ => forEach L body).exec m = _
  rw [exec_bind]

theorem forEach_frame {W : ι → A → Prop} {L : List ι} {body : ι → K A V Unit} {R : ι → A → Prop}
    (h : ∀ i ∈ L, (body i).FP (R i) (W i) fun _ => False) (m : A → V) {a : A}
    (ha : ∀ i ∈ L, ¬ W i a) : (forEach L body).exec m a = m a := by
  induction L generalizing m with
  | nil => rfl
  | cons i L ih =>
    rw [forEach_cons_exec, ih (fun j hj => h j (by simp [hj])) _ fun j hj => ha j (by simp [hj])]
    exact exec_frame (h i (by simp)) m (ha i (by simp)) fun e => e

/-- Blocks that do not interfere act independently. -/
theorem forEach_exec {R W : ι → A → Prop} {L : List ι} {body : ι → K A V Unit} (hnd : L.Nodup)
    (h : ∀ i ∈ L, (body i).FP (R i) (W i) fun _ => False)
    (hd : ∀ i ∈ L, ∀ j ∈ L, i ≠ j → ∀ a, W i a → ¬ R j a ∧ ¬ W j a) (m : A → V) {i : ι} (hi : i ∈ L)
    {a : A} (ha : W i a) : (forEach L body).exec m a = (body i).exec m a := by
  induction L generalizing m with
  | nil => cases hi
  | cons x L ih =>
    rw [List.nodup_cons] at hnd
    rw [forEach_cons_exec]
    have hL : ∀ j ∈ L, (body j).FP (R j) (W j) fun _ => False := fun j hj => h j (by simp [hj])
    by_cases hix : i = x
    · subst hix
      refine forEach_frame hL _ fun j hj => ?_
      have : i ≠ j := fun e => hnd.1 (e ▸ hj)
      exact (hd i (by simp) j (by simp [hj]) this a ha).2
    · have hiL : i ∈ L := by
        rcases List.mem_cons.1 hi with e | e
        · exact absurd e hix
        · exact e
      rw [ih hnd.2 hL (fun i hi j hj => hd i (by simp [hi]) j (by simp [hj])) _ hiL]
      refine exec_congr (hL i hiL) (fun b hb => ?_) a (Or.inr ha)
      refine exec_frame (h x (by simp)) m (fun hw => ?_) fun e => e
      have := hd x (by simp) i (by simp [hiL]) (fun e => hix e.symm) b hw
      rcases hb with hb | hb
      · exact this.1 hb
      · exact this.2 hb

end

/-! ### Local arrays -/

theorem loadVals_reads (n : ℕ) (addr : ℕ → Addr) (m : Addr → α) :
    Reads (loadVals n addr) m fun k => if k < n then m (addr k) else lit 0 := by
  induction n with
  | zero => simp only [Nat.not_lt_zero, if_false]; exact Reads.ret _ _
  | succ n ih =>
    have := ih.bind (f := fun f => (K.load (addr n)).bind fun x =>
      (.ret fun k => if k = n then x else f k : K Addr α (ℕ → α)))
      ((Reads.load (addr n) m).bind (Reads.ret _ m))
    have e : (fun k => if k < n + 1 then m (addr k) else (lit 0 : α)) =
        fun k => if k = n then m (addr n) else if k < n then m (addr k) else lit 0 := by
      funext k
      by_cases h : k = n
      · subst h; simp
      · have : (k < n + 1) ↔ k < n := by omega
        simp [h, this]
    rw [e]; exact this

theorem loadVals_fp {R W C : Addr → Prop} {n : ℕ} {addr : ℕ → Addr} (h : ∀ k, k < n → R (addr k)) :
    (loadVals n addr : K Addr α _).FP R W C := by
  induction n with
  | zero => trivial
  | succ n ih =>
    exact FP.bind (ih fun k hk => h k (by omega)) fun f =>
      FP.bind (FP.load (h n (by omega))) fun x => FP.ret

/-- Stores to different locations that depend on what was there. -/
theorem forVars_upd {n : ℕ} {addr : ℕ → Addr} (hinj : ∀ j k, j < n → k < n → addr j = addr k → j = k)
    (body : ℕ → K Addr α Unit) (f : ℕ → α → α)
    (hb : ∀ k m, (body k).exec m = Function.update m (addr k) (f k (m (addr k)))) (m : Addr → α) :
    (∀ k, k < n → (forVars n body).exec m (addr k) = f k (m (addr k))) ∧
    (∀ a, (∀ k, k < n → a ≠ addr k) → (forVars n body).exec m a = m a) := by
  induction n with
  | zero => exact ⟨fun k hk => absurd hk (by omega), fun _ _ => rfl⟩
  | succ n ih =>
    obtain ⟨h1, h2⟩ := ih fun j k hj hk => hinj j k (by omega) (by omega)
    have e : (forVars (n + 1) body).exec m = (body n).exec ((forVars n body).exec m) := by
      rw [forVars_succ, exec_bind]
    rw [e, hb]
    refine ⟨fun k hk => ?_, fun a ha => ?_⟩
    · by_cases hkn : k = n
      · subst hkn
        rw [update_self, h2]
        intro j hj e
        have := hinj k j (by omega) (by omega) e
        omega
      · rw [update_of_ne fun e => hkn (hinj k n hk (by omega) e)]
        exact h1 k (by omega)
    · rw [update_of_ne (ha n (by omega))]
      exact h2 a fun k hk => ha k (by omega)

theorem storeVals_exec {n : ℕ} {addr : ℕ → Addr}
    (hinj : ∀ j k, j < n → k < n → addr j = addr k → j = k) (f : ℕ → α) (m : Addr → α) {k : ℕ}
    (hk : k < n) : (storeVals n addr f).exec m (addr k) = f k :=
  (forVars_upd hinj _ (fun k _ => f k) (fun _ _ => rfl) m).1 k hk

theorem storeVals_fp {R W C : Addr → Prop} {n : ℕ} {addr : ℕ → Addr} {f : ℕ → α}
    (h : ∀ k, k < n → W (addr k)) : (storeVals n addr f).FP R W C :=
  forVars_fp _ _ fun k hk => FP.store (h k hk)

theorem addVals_exec {n : ℕ} {addr : ℕ → Addr}
    (hinj : ∀ j k, j < n → k < n → addr j = addr k → j = k) (f : ℕ → α) (m : Addr → α) {k : ℕ}
    (hk : k < n) : (addVals n addr f).exec m (addr k) = m (addr k) + f k :=
  (forVars_upd hinj _ (fun k x => x + f k) (fun _ _ => rfl) m).1 k hk

theorem addVals_fp {R W C : Addr → Prop} {n : ℕ} {addr : ℕ → Addr} {f : ℕ → α}
    (h : ∀ k, k < n → R (addr k) ∧ W (addr k)) : (addVals n addr f).FP R W C :=
  forVars_fp _ _ fun k hk => FP.bind (FP.load (h k hk).1) fun _ => FP.store (h k hk).2

/-- The state stored at `addr`. -/
def stateAt (d3 : Bool) (m : Addr → α) (addr : ℕ → Addr) : HState α :=
  Mood.ofComps d3 fun iv => m (addr iv)

theorem loadAt_reads (d3 : Bool) (addr : ℕ → Addr) (m : Addr → α) :
    Reads (loadAt d3 addr) m (stateAt d3 m addr) := by
  cases d3 <;> exact ⟨rfl, rfl⟩

theorem loadAt_fp {R W C : Addr → Prop} {d3 : Bool} {addr : ℕ → Addr}
    (h : ∀ iv, iv < hydroVars d3 → R (addr iv)) : (loadAt d3 addr : K Addr α _).FP R W C := by
  cases d3
  · exact ⟨h _ (by decide), fun _ => ⟨h _ (by decide), fun _ => ⟨h _ (by decide), fun _ =>
      ⟨h _ (by decide), fun _ => trivial⟩⟩⟩⟩
  · exact ⟨h _ (by decide), fun _ => ⟨h _ (by decide), fun _ => ⟨h _ (by decide), fun _ =>
      ⟨h _ (by decide), fun _ => ⟨h _ (by decide), fun _ => trivial⟩⟩⟩⟩⟩

theorem storeAt_exec {d3 : Bool} {addr : ℕ → Addr}
    (hinj : ∀ j k, j < hydroVars d3 → k < hydroVars d3 → addr j = addr k → j = k) (q : HState α)
    (m : Addr → α) {iv : ℕ} (hv : iv < hydroVars d3) :
    (storeAt d3 addr q).exec m (addr iv) = Mood.comp q iv :=
  (forVars_upd hinj _ (fun k _ => Mood.comp q k) (fun _ _ => rfl) m).1 iv hv

theorem storeAt_fp {R W C : Addr → Prop} {d3 : Bool} {addr : ℕ → Addr} {q : HState α}
    (h : ∀ iv, iv < hydroVars d3 → W (addr iv)) : (storeAt d3 addr q).FP R W C :=
  forVars_fp _ _ fun k hk => FP.store (h k hk)

/-! ### Loops over cells -/

open Classical in
/-- Effect of a loop over all cells in which the work item of cell `own a` is the only one to touch the
location `a` of an output array. -/
theorem cells_yields {M : Scheme α} {P : Grid} {body : Cell → K Addr α Unit} {dom : Addr → Prop}
    {out : ℕ → Prop} (own : Addr → Cell) (hp : Mood.Nonempty3 M.d3 P) (m : Addr → α)
    (h : ∀ c, P.box M.d3 c → (body c).FP (fun a => dom a ∧ (out a.arr → own a = c))
      (fun a => dom a ∧ out a.arr ∧ own a = c) fun _ => False) :
    (M.cells P body).Yields dom m fun a =>
      if P.box M.d3 (own a) then (body (own a)).exec m a else m a := by
  obtain ⟨hbox, hinj, hsurj⟩ := Mood.cellAt_spec (lay := M.lay) hp
  refine Launch.yields_of_footprint _ dom
    (fun t a => dom a ∧ (out a.arr → own a = Mood.cellAt M.lay M.d3 P t))
    (fun t a => dom a ∧ out a.arr ∧ own a = Mood.cellAt M.lay M.d3 P t) m _ ?_ ?_ ?_ ?_ ?_ ?_ ?_
  · intro t ht; exact h _ (hbox t ht)
  · rintro t a _ ⟨h1, -⟩; exact h1
  · rintro t a _ ⟨h1, -⟩; exact h1
  · rintro s t a hs ht hst ⟨_, _, h1⟩ ⟨_, _, h2⟩
    exact hst (hinj s t hs ht (h1.symm.trans h2))
  · rintro s t a hs ht hst ⟨_, ho, h1⟩ ⟨_, h2⟩
    exact hst (hinj s t hs ht (h1.symm.trans (h2 ho)))
  · rintro t a ht ⟨_, _, h1⟩
    rw [if_pos (h1 ▸ hbox t ht), h1]
    rfl
  · intro a ha
    split_ifs with hb
    · refine exec_frame (h _ hb) m ?_ (fun e => e)
      rintro ⟨h1, h2, -⟩
      obtain ⟨t, ht, e⟩ := hsurj _ hb
      exact ha t ht ⟨h1, h2, e.symm⟩
    · rfl

end Verif.Sdm
