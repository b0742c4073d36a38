import Verif.Lemmas.Kernel
import Verif.Model.Params

/-! Helper lemmas for kernels that copy (and transform) single values. -/

namespace Verif

open K Function

variable {A V : Type}

/-- Work item copying `S v` to `D v` (through `f v`) for all variables `v < n`. -/
def copyVars (n : Nat) (S D : Nat → A) (f : Nat → V → V) : K A V Unit :=
  forVars n fun v => (load (S v)).bind fun x => store (D v) (f v x)

theorem forVars_fp {R W C : A → Prop} (n : Nat) (body : Nat → K A V Unit)
    (h : ∀ v, v < n → (body v).FP R W C) : (forVars n body).FP R W C := by
  induction n with
  | zero => trivial
  | succ n ih =>
    exact FP.bind (ih fun v hv => h v (Nat.lt_succ_of_lt hv)) fun _ => h n (Nat.lt_succ_self n)

theorem copyVars_fp (n : Nat) (S D : Nat → A) (f : Nat → V → V) :
    (copyVars n S D f).FP (fun a => ∃ v, v < n ∧ a = S v) (fun a => ∃ v, v < n ∧ a = D v)
      (fun _ => False) := by
  apply forVars_fp
  intro v hv
  exact FP.bind (FP.load ⟨v, hv, rfl⟩) fun x => FP.store ⟨v, hv, rfl⟩

theorem forVars_succ (n : Nat) (body : Nat → K A V Unit) :
    forVars (n + 1) body = (forVars n body).bind (fun _ => body n) := rfl

theorem copyVars_exec [DecidableEq A] [Add V] (n : Nat) (S D : Nat → A) (f : Nat → V → V)
    (hinj : ∀ v w, v < n → w < n → D v = D w → v = w)
    (hSD : ∀ v w, v < n → w < n → S v ≠ D w) (m : A → V) (v : Nat) (hv : v < n) :
    (copyVars n S D f).exec m (D v) = f v (m (S v)) := by
  induction n with
  | zero => omega
  | succ n ih =>
    have ih' := ih (fun v w hv hw => hinj v w (by omega) (by omega))
      (fun v w hv hw => hSD v w (by omega) (by omega))
    have e : (copyVars (n + 1) S D f).exec m
        = update ((copyVars n S D f).exec m) (D n)
            (f n ((copyVars n S D f).exec m (S n))) := by
      unfold copyVars
      rw [forVars_succ, exec_bind]
      rfl
    have hframe : (copyVars n S D f).exec m (S n) = m (S n) := by
      apply exec_frame (copyVars_fp n S D f)
      · rintro ⟨w, hw, hw'⟩
        exact hSD n w (by omega) (by omega) hw'
      · exact fun h => h
    rw [e, hframe]
    by_cases hvn : v = n
    · subst hvn; simp
    · have : D v ≠ D n := fun h => hvn (hinj v n hv (by omega) h)
      rw [update_of_ne this]
      exact ih' (by omega)

/-- A loop of copy work items. `g t` says whether item `t` does something. -/
theorem copy_yields [DecidableEq A] [Add V] (L : Launch A V) (dom : A → Prop) (nv : Nat)
    (g : Nat → Prop) (S D : Nat → Nat → A) (f : Nat → Nat → V → V)
    (hbody : ∀ t, t < L.n → g t → L.body t = copyVars nv (S t) (D t) (f t))
    (hbody' : ∀ t, t < L.n → ¬ g t → L.body t = .ret ())
    (hinj : ∀ s t v w, s < L.n → t < L.n → g s → g t → v < nv → w < nv →
      D s v = D t w → s = t ∧ v = w)
    (hSD : ∀ s t v w, s < L.n → t < L.n → g s → g t → v < nv → w < nv → S s v ≠ D t w)
    (hdomS : ∀ t v, t < L.n → g t → v < nv → dom (S t v))
    (hdomD : ∀ t v, t < L.n → g t → v < nv → dom (D t v))
    (m m' : A → V)
    (hm' : ∀ t v, t < L.n → g t → v < nv → m' (D t v) = f t v (m (S t v)))
    (hm'' : ∀ a, (∀ t v, t < L.n → g t → v < nv → a ≠ D t v) → m' a = m a) :
    L.Yields dom m m' := by
  classical
  refine L.yields_of_footprint dom (fun t a => g t ∧ ∃ v, v < nv ∧ a = S t v)
    (fun t a => g t ∧ ∃ v, v < nv ∧ a = D t v) m m' ?_ ?_ ?_ ?_ ?_ ?_ ?_
  · intro t ht
    by_cases hg : g t
    · rw [hbody t ht hg]
      exact (copyVars_fp nv _ _ _).mono (fun a h => ⟨hg, h⟩) (fun a h => ⟨hg, h⟩) (fun a h => h)
    · rw [hbody' t ht hg]; trivial
  · rintro t a ht ⟨hg, v, hv, rfl⟩; exact hdomS t v ht hg hv
  · rintro t a ht ⟨hg, v, hv, rfl⟩; exact hdomD t v ht hg hv
  · rintro s t a hs ht hst ⟨hg, v, hv, rfl⟩ ⟨hg', w, hw, e⟩
    exact hst (hinj s t v w hs ht hg hg' hv hw e).1
  · rintro s t a hs ht hst ⟨hg, v, hv, rfl⟩ ⟨hg', w, hw, e⟩
    exact hSD t s w v ht hs hg' hg hw hv e.symm
  · rintro t a ht ⟨hg, v, hv, rfl⟩
    rw [hm' t v ht hg hv, hbody t ht hg]
    symm
    apply copyVars_exec _ _ _ _ (fun v w hv hw e => (hinj t t v w ht ht hg hg hv hw e).2)
      (fun v w hv hw => hSD t t v w ht ht hg hg hv hw) m v hv
  · intro a ha
    apply hm''
    intro t v ht hg hv e
    exact ha t ht ⟨hg, v, hv, e⟩

end Verif
