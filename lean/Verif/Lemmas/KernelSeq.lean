import Verif.Lemmas.Kernel
import Mathlib.Data.List.FinRange

/-! Helper lemmas: schedules that run work items one after the other. -/

namespace Verif

open Function

variable {A V : Type} [DecidableEq A] [Add V]

theorem reach_one {ι : Type} [DecidableEq ι] (t : ι) (p : K A V Unit) (m : A → V)
    (T : ι → K A V Unit) (h : T t = p) :
    Reach (m, T) (p.exec m, update T t (.ret ())) := by
  induction p generalizing m T with
  | ret x =>
    have : update T t (.ret ()) = T := by rw [← h]; exact update_eq_self t T
    rw [this]; exact .refl
  | read a k ih =>
    have h2 := ih (m a) m (update T t (k (m a))) (by simp)
    rw [update_idem] at h2
    exact .head (Step.read t h) h2
  | write a v k ih =>
    have h2 := ih (update m a v) (update T t k) (by simp)
    rw [update_idem] at h2
    exact .head (Step.write t h) h2
  | add a v k ih =>
    have h2 := ih (update m a (m a + v)) (update T t k) (by simp)
    rw [update_idem] at h2
    exact .head (Step.add t h) h2

theorem reach_list {ι : Type} [DecidableEq ι] (l : List ι) (hl : l.Nodup) (m : A → V)
    (T : ι → K A V Unit) :
    Reach (m, T) (l.foldl (fun m t => (T t).exec m) m, fun t => if t ∈ l then .ret () else T t) := by
  induction l generalizing m T with
  | nil => simp only [List.foldl_nil, List.not_mem_nil, if_false]; exact .refl
  | cons s l ih =>
    obtain ⟨h1, h2⟩ := List.nodup_cons.1 hl
    have a := reach_one s (T s) m T rfl
    have b := ih h2 ((T s).exec m) (update T s (.ret ()))
    have e : l.foldl (fun m t => (update T s (.ret ()) t).exec m) ((T s).exec m) =
        l.foldl (fun m t => (T t).exec m) ((T s).exec m) := by
      apply List.foldl_ext
      intro m t ht
      rw [update_of_ne (fun e : t = s => h1 (e ▸ ht))]
    rw [e] at b
    have e2 : (fun t => if t ∈ l then K.ret () else update T s (.ret ()) t) =
        (fun t => if t ∈ s :: l then K.ret () else T t) := by
      funext t
      by_cases hts : t = s
      · subst hts; simp
      · simp [hts]
    rw [e2] at b
    exact a.trans b

/-- Running the work items one after the other in the order `l` is a possible execution. -/
theorem Launch.run_list (L : Launch A V) (l : List (Fin L.n)) (hl : l.Nodup) (hall : ∀ t, t ∈ l)
    (m : A → V) : L.Run m (l.foldl (fun m (t : Fin L.n) => (L.body t).exec m) m) := by
  refine ⟨_, reach_list l hl m _, ?_⟩
  intro t
  simp [hall t]

end Verif
