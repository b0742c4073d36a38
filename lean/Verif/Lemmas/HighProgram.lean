import Verif.Lemmas.MhdProgram
import Verif.Spec.HighProgram

/-! Lemmas about the time loop of the SDM and MOOD programs. -/

namespace Verif.Driver

open Spec ROps

variable {V V' : Driver ℝ} {init post init' post' : List (Launch Addr ℝ)}

theorem save_files (s : HydroState ℝ) : (V.save s).files = s.files ++ [V.file s] := rfl

theorem saveDue_eq (V : Driver ℝ) (s : HydroState ℝ) :
    (V.saveDue s).m = s.m ∧ (V.saveDue s).t = s.t ∧ (V.saveDue s).iteration = s.iteration := by
  unfold saveDue; split_ifs <;> exact ⟨rfl, rfl, rfl⟩

theorem saveIf_eq (V : Driver ℝ) (s : HydroState ℝ) :
    (V.saveIf s).m = s.m ∧ (V.saveIf s).t = s.t ∧ (V.saveIf s).iteration = s.iteration := by
  unfold saveIf; split_ifs <;> exact ⟨rfl, rfl, rfl⟩

/-! ### Runs end -/

/-- Every time step and every step has a result. -/
structure Total (V : Driver ℝ) : Prop where
  dt : ∀ it m, ∃ d, V.Dt it m d
  step : ∀ it dt m, ∃ m', V.Step it dt m m'

theorem next_exists (h : V.Total) (s : HydroState ℝ) : ∃ s', V.Next s s' := by
  obtain ⟨d, hd⟩ := h.dt s.iteration s.m
  obtain ⟨m', hm⟩ := h.step s.iteration (V.ctl.computeDt s.t d) s.m
  exact ⟨_, d, m', hd, hm, rfl⟩

theorem loop_ends (h : V.Total) (hn : V.every ≠ 0) (s : HydroState ℝ) : ∃ f, V.Loop s (some f) := by
  obtain ⟨n, hk⟩ : ∃ n : ℕ, V.ctl.nStepmax ≤ s.iteration + n := ⟨(V.ctl.nStepmax - s.iteration).toNat, by omega⟩
  induction n generalizing s with
  | zero =>
    refine ⟨s, .done ?_⟩
    have : (s.iteration : Int) ≥ V.ctl.nStepmax := by simpa using hk
    simp [Sim.finished, HydroState.ctl, this]
  | succ n ih =>
    by_cases hf : V.ctl.finished s.ctl = true
    · exact ⟨s, .done hf⟩
    · obtain ⟨s', h'⟩ := next_exists h s
      have hi : s'.iteration = s.iteration + 1 := by obtain ⟨_, _, _, _, rfl⟩ := h'; rfl
      obtain ⟨f, l⟩ := ih s' (by rw [hi]; push_cast at hk ⊢; omega)
      exact ⟨f, .step (by simpa using hf) hn h' l⟩

theorem main_exists (h : V.Total) (hn : V.every ≠ 0) {m1 m2 : Addr → ℝ} (r1 : Runs init (fun _ => lit 0) m1)
    (r2 : Runs post m1 m2) : ∃ s, V.Main init post (some s) := by
  obtain ⟨d, hd⟩ := h.dt 0 m1
  obtain ⟨f, l⟩ := loop_ends h hn (V.saveIf ⟨m2, V.ctl.tCurrent, V.ctl.computeDt V.ctl.tCurrent d, 0, 0, []⟩)
  exact ⟨V.saveIf f, _, some f, ⟨m1, d, m2, r1, hd, r2, rfl⟩, l, rfl⟩

/-! ### Two runs side by side -/

/-- Data `R` in common is kept and decides the time step; what the files show is `E`. -/
structure Twins (V V' : Driver ℝ) (R : ℕ → (Addr → ℝ) → (Addr → ℝ) → Prop) (E : FileData → FileData → Prop) :
    Prop where
  ctl : V'.ctl = V.ctl
  every : V'.every = V.every
  dt : ∀ {it m m' d d'}, R it m m' → V.Dt it m d → V'.Dt it m' d' → d = d'
  step : ∀ {it dt m m' n n'}, R it m m' → V.Step it dt m n → V'.Step it dt m' n' → R (it + 1) n n'
  shows : ∀ {it m m'}, R it m m' → E (fun c v => m (c.at (V.cur it) v)) (fun c v => m' (c.at (V'.cur it) v))

/-- Same number, same time, equivalent data. -/
def Alike (E : FileData → FileData → Prop) (x y : Snapshot FileData ℝ) : Prop :=
  x.number = y.number ∧ x.time = y.time ∧ E x.data y.data

/-- The states of two runs at the same moment. -/
structure Side (R : ℕ → (Addr → ℝ) → (Addr → ℝ) → Prop) (E : FileData → FileData → Prop) (s s' : HydroState ℝ) :
    Prop where
  t : s.t = s'.t
  it : s.iteration = s'.iteration
  saved : s.timesSaved = s'.timesSaved
  data : R s.iteration s.m s'.m
  files : List.Forall₂ (Alike E) s.files s'.files

variable {R : ℕ → (Addr → ℝ) → (Addr → ℝ) → Prop} {E : FileData → FileData → Prop} {s s' : HydroState ℝ}

theorem Side.save (T : Twins V V' R E) (h : Side R E s s') : Side R E (V.save s) (V'.save s') := by
  refine ⟨h.t, h.it, ?_, h.data, ?_⟩
  · simp only [Driver.save, h.saved]
  · refine List.rel_append h.files (.cons ⟨h.saved, h.t, ?_⟩ .nil)
    have := T.shows h.data
    simp only [Driver.file]
    rw [← h.it]
    exact this

theorem Side.saveIf (T : Twins V V' R E) (h : Side R E s s') : Side R E (V.saveIf s) (V'.saveIf s') := by
  unfold Driver.saveIf
  rw [T.ctl]
  split_ifs
  · exact h.save T
  · exact h

theorem Side.finished (T : Twins V V' R E) (h : Side R E s s') :
    V'.ctl.finished s'.ctl = V.ctl.finished s.ctl := by
  rw [T.ctl]
  simp only [Sim.finished, HydroState.ctl, h.t, h.it]
  rfl

theorem Side.saveDue (T : Twins V V' R E) (h : Side R E s s') : Side R E (V.saveDue s) (V'.saveDue s') := by
  unfold Driver.saveDue
  have e : V'.ctl.shouldSave s'.ctl = V.ctl.shouldSave s.ctl := by
    rw [T.ctl]
    simp only [Sim.shouldSave, HydroState.ctl, h.t, h.saved]
    rfl
  rw [e, T.ctl]
  split_ifs
  · exact h.save T
  · exact h

theorem Side.next (T : Twins V V' R E) (h : Side R E s s') {r r' : HydroState ℝ} (n : V.Next s r)
    (n' : V'.Next s' r') : Side R E r r' := by
  obtain ⟨d, m, hd, st, rfl⟩ := n
  obtain ⟨d', m', hd', st', rfl⟩ := n'
  have hs := h.saveDue T
  rw [← h.it] at hd' st'
  obtain rfl : d = d' := T.dt h.data hd hd'
  rw [← h.t, T.ctl] at st'
  refine ⟨?_, ?_, hs.saved, T.step h.data st st', hs.files⟩
  · simp only [h.t, T.ctl]
  · simp only [h.it]

theorem Side.loop (T : Twins V V' R E) (hn : V.every ≠ 0) (h : Side R E s s') {r r' : Option (HydroState ℝ)}
    (l : V.Loop s r) (l' : V'.Loop s' r') : ∃ f f', r = some f ∧ r' = some f' ∧ Side R E f f' := by
  induction l generalizing s' with
  | @done s hf =>
    cases l' with
    | done => exact ⟨_, _, rfl, rfl, h⟩
    | ub hf' => rw [h.finished T, hf] at hf'; cases hf'
    | step hf' => rw [h.finished T, hf] at hf'; cases hf'
  | ub _ h0 => exact (hn h0).elim
  | @step s s1 r hf _ n _ ih =>
    cases l' with
    | done hf' => rw [h.finished T, hf] at hf'; cases hf'
    | ub _ h0 => exact (hn (T.every ▸ h0)).elim
    | step _ _ n' l' => exact ih (h.next T n n') l'

theorem main_same (T : Twins V V' R E) (hn : V.every ≠ 0)
    (hstart : ∀ {m1 m2 m1' m2'}, Runs init (fun _ => lit 0) m1 → Runs post m1 m2 →
      Runs init' (fun _ => lit 0) m1' → Runs post' m1' m2' → R 0 m2 m2')
    {r r' : Option (HydroState ℝ)} (a : V.Main init post r) (b : V'.Main init' post' r') :
    ∃ s s', r = some s ∧ r' = some s' ∧ List.Forall₂ (Alike E) s.files s'.files ∧ s.t = s'.t ∧
      s.iteration = s'.iteration := by
  obtain ⟨s0, r0, ⟨m1, d, m2, r1, -, r2, rfl⟩, l, rfl⟩ := a
  obtain ⟨s0', r0', ⟨m1', d', m2', r1', -, r2', rfl⟩, l', rfl⟩ := b
  have h0 : Side R E ⟨m2, V.ctl.tCurrent, V.ctl.computeDt V.ctl.tCurrent d, 0, 0, []⟩
      ⟨m2', V'.ctl.tCurrent, V'.ctl.computeDt V'.ctl.tCurrent d', 0, 0, []⟩ :=
    ⟨by rw [T.ctl], rfl, rfl, hstart r1 r2 r1' r2', .nil⟩
  obtain ⟨f, f', rfl, rfl, h⟩ := (h0.saveIf T).loop T hn l l'
  have := h.saveIf T
  exact ⟨_, _, rfl, rfl, this.files, this.t, this.it⟩

/-! ### What all files have in common -/

theorem loop_files {I : ℕ → FileData → Prop}
    (hstep : ∀ it dt m m', V.Step it dt m m' → I it (fun c v => m (c.at (V.cur it) v)) →
      I (it + 1) (fun c v => m' (c.at (V.cur (it + 1)) v)))
    {s : HydroState ℝ} {r : Option (HydroState ℝ)} (hl : V.Loop s r)
    (h1 : I s.iteration (fun c v => s.m (c.at (V.cur s.iteration) v)))
    (h2 : ∀ x ∈ s.files, ∃ n ≤ s.iteration, I n x.data) :
    ∀ s', r = some s' → I s'.iteration (fun c v => s'.m (c.at (V.cur s'.iteration) v)) ∧
      ∀ x ∈ s'.files, ∃ n ≤ s'.iteration, I n x.data := by
  induction hl with
  | done => rintro s' ⟨⟩; exact ⟨h1, h2⟩
  | ub => rintro s' ⟨⟩
  | @step s s1 r _ _ hn _ ih =>
    obtain ⟨d, m', -, st, rfl⟩ := hn
    refine ih (hstep _ _ _ _ st h1) fun x hx => ?_
    change x ∈ (V.saveDue s).files at hx
    unfold Driver.saveDue at hx
    split_ifs at hx
    · rw [save_files, List.mem_append, List.mem_singleton] at hx
      rcases hx with hx | rfl
      · obtain ⟨n, hn, hi⟩ := h2 x hx
        exact ⟨n, Nat.le_succ_of_le hn, hi⟩
      · exact ⟨s.iteration, Nat.le_succ _, h1⟩
    · obtain ⟨n, hn, hi⟩ := h2 x hx
      exact ⟨n, Nat.le_succ_of_le hn, hi⟩

theorem loop_prefix {s : HydroState ℝ} {r : Option (HydroState ℝ)} (hl : V.Loop s r) :
    ∀ s', r = some s' → s.files <+: s'.files := by
  induction hl with
  | done => rintro s' ⟨⟩; exact List.prefix_refl _
  | ub => rintro s' ⟨⟩
  | @step s s1 r _ _ hn _ ih =>
    obtain ⟨d, m', -, -, rfl⟩ := hn
    intro s' e
    refine List.IsPrefix.trans ?_ (ih s' e)
    change s.files <+: (V.saveDue s).files
    unfold Driver.saveDue
    split_ifs
    · exact List.prefix_append _ _
    · exact List.prefix_refl _

/-- The first file holds what the constructor leaves. -/
theorem first_file {s : HydroState ℝ} (hm : V.Main init post (some s)) (ho : V.ctl.nOutput ≠ 0) :
    ∃ m1 m2, Runs init (fun _ => lit 0) m1 ∧ Runs post m1 m2 ∧
      s.files.head? = some ⟨0, V.ctl.tCurrent, fun c v => m2 (c.at (V.cur 0) v)⟩ := by
  obtain ⟨s0, r, ⟨m1, d, m2, r1, -, r2, rfl⟩, hl, e⟩ := hm
  obtain ⟨s1, rfl, rfl⟩ := Option.map_eq_some_iff.1 e.symm
  have e0 : ∀ y : HydroState ℝ, V.saveIf y = V.save y := fun y => if_pos ho
  refine ⟨m1, m2, r1, r2, ?_⟩
  obtain ⟨l, hl⟩ := loop_prefix hl s1 rfl
  rw [e0, save_files, ← hl, e0, save_files]
  rfl

/-- The last file is written at the end. -/
theorem last_file {s : HydroState ℝ} (hm : V.Main init post (some s)) (ho : V.ctl.nOutput ≠ 0) :
    s.files.getLast? = some ⟨s.timesSaved - 1, s.t, fun c v => s.m (c.at (V.cur s.iteration) v)⟩ := by
  obtain ⟨s0, r, -, -, e⟩ := hm
  obtain ⟨s1, rfl, rfl⟩ := Option.map_eq_some_iff.1 e.symm
  rw [show V.saveIf s1 = V.save s1 from if_pos ho, save_files, List.getLast?_concat]
  simp [Driver.save, Driver.file]

/-- Without output there are no files. -/
theorem no_files {s : HydroState ℝ} (hm : V.Main init post (some s)) (ho : V.ctl.nOutput = 0) : s.files = [] := by
  obtain ⟨s0, r, ⟨m1, d, m2, -, -, -, rfl⟩, hl, e⟩ := hm
  obtain ⟨s1, rfl, rfl⟩ := Option.map_eq_some_iff.1 e.symm
  have e0 : ∀ y : HydroState ℝ, V.saveIf y = y := fun y => if_neg (by simp [ho])
  have key : ∀ {s r}, V.Loop s r → s.files = [] → ∀ s', r = some s' → s'.files = [] := by
    intro s r hl
    induction hl with
    | done => rintro h s' ⟨⟩; exact h
    | ub => rintro h s' ⟨⟩
    | @step s s1 r _ _ hn _ ih =>
      intro h
      obtain ⟨d, m', -, -, rfl⟩ := hn
      refine ih ?_
      change (V.saveDue s).files = []
      unfold Driver.saveDue
      rw [if_neg (by simp [Sim.enableOutput, ho])]
      exact h
  rw [e0] at hl ⊢
  exact key hl rfl s1 rfl

/-- What holds of the first file and is kept by the steps holds of all files; `I` may count the steps. -/
theorem run_files {I : ℕ → FileData → Prop}
    (hstep : ∀ it dt m m', V.Step it dt m m' → I it (fun c v => m (c.at (V.cur it) v)) →
      I (it + 1) (fun c v => m' (c.at (V.cur (it + 1)) v)))
    {s : HydroState ℝ} (hm : V.Main init post (some s)) {x0 : Snapshot FileData ℝ}
    (hx0 : s.files.head? = some x0) (h0 : I 0 x0.data) : ∀ x ∈ s.files, ∃ n ≤ s.iteration, I n x.data := by
  by_cases ho : V.ctl.nOutput = 0
  · rw [no_files hm ho] at hx0; cases hx0
  obtain ⟨s0, r, ⟨m1, d, m2, -, -, -, rfl⟩, hl, e⟩ := hm
  obtain ⟨s1, rfl, rfl⟩ := Option.map_eq_some_iff.1 e.symm
  have e0 : ∀ y : HydroState ℝ, V.saveIf y = V.save y := fun y => if_pos ho
  have h0' : I 0 (fun c v => m2 (c.at (V.cur 0) v)) := by
    obtain ⟨l, hp⟩ := loop_prefix hl s1 rfl
    rw [e0, save_files, ← hp, e0, save_files] at hx0
    cases hx0
    exact h0
  obtain ⟨k1, k2⟩ := loop_files hstep hl (by rw [(saveIf_eq V _).1, (saveIf_eq V _).2.2]; exact h0') (by
    intro x hx
    rw [e0, save_files, List.nil_append, List.mem_singleton] at hx
    exact ⟨0, Nat.zero_le _, hx ▸ h0'⟩) s1 rfl
  intro x hx
  rw [(saveIf_eq V s1).2.2]
  rw [e0, save_files, List.mem_append, List.mem_singleton] at hx
  rcases hx with hx | rfl
  · exact k2 x hx
  · exact ⟨_, le_refl _, k1⟩

/-- What holds after the constructor and is kept by the steps holds at the top of every pass. -/
theorem visits_of {I : ℕ → (Addr → ℝ) → Prop}
    (hstart : ∀ {m1 m2}, Runs init (fun _ => lit 0) m1 → Runs post m1 m2 → I 0 m2)
    (hstep : ∀ {it dt m m'}, V.Step it dt m m' → I it m → I (it + 1) m') {s : HydroState ℝ}
    (h : V.Visits init post s) : I s.iteration s.m := by
  obtain ⟨s0, ⟨m1, d, m2, r1, -, r2, rfl⟩, hr⟩ := h
  induction hr with
  | refl => rw [(saveIf_eq V _).1, (saveIf_eq V _).2.2]; exact hstart r1 r2
  | tail _ _ hn ih =>
    obtain ⟨d, m', -, st, rfl⟩ := hn
    exact hstep st ih

/-! ### Order of the files -/

/-- The files so far are in order. -/
private structure Ordered (V : Driver ℝ) (t0 : ℝ) (s : HydroState ℝ) : Prop where
  saved : s.timesSaved = s.files.length
  order : InOrder 0 t0 V.ctl.tEnd s.files
  last : ∀ x ∈ s.files, x.time ≤ s.t
  first : t0 ≤ s.t
  fin : s.t ≤ V.ctl.tEnd

private theorem Ordered.save {t0 : ℝ} {s : HydroState ℝ} (h : Ordered V t0 s) : Ordered V t0 (V.save s) := by
  refine ⟨?_, ⟨?_, ?_, ?_⟩, ?_, h.first, h.fin⟩
  · rw [save_files]; simp [Driver.save, h.saved]
  · intro i hi
    simp only [save_files] at hi ⊢
    rw [List.getElem_append]
    split_ifs with hlt
    · exact h.order.1 i hlt
    · have : i = s.files.length := by simp at hi; omega
      subst this
      simp [Driver.file, h.saved]
  · rw [save_files, List.map_append, List.pairwise_append]
    refine ⟨h.order.2.1, by simp, ?_⟩
    intro a ha b hb
    simp only [List.map_cons, List.map_nil, List.mem_singleton] at hb
    obtain ⟨x, hx, rfl⟩ := List.mem_map.1 ha
    exact hb ▸ h.last x hx
  · intro x hx
    rw [save_files, List.mem_append, List.mem_singleton] at hx
    rcases hx with hx | rfl
    · exact h.order.2.2 x hx
    · exact ⟨h.first, h.fin⟩
  · intro x hx
    rw [save_files, List.mem_append, List.mem_singleton] at hx
    rcases hx with hx | rfl
    · exact h.last x hx
    · exact le_refl _

private theorem Ordered.saveIf {t0 : ℝ} {s : HydroState ℝ} (h : Ordered V t0 s) : Ordered V t0 (V.saveIf s) := by
  unfold Driver.saveIf; split_ifs
  · exact h.save
  · exact h

private theorem loop_ordered {s0 : HydroState ℝ}
    (hp : ∀ {s d}, V.Reaches s0 s → V.Dt s.iteration s.m d → 0 < d) {t0 : ℝ} {s : HydroState ℝ}
    {r : Option (HydroState ℝ)} (hl : V.Loop s r) (hv : V.Reaches s0 s) (h : Ordered V t0 s) :
    ∀ s', r = some s' → Ordered V t0 s' := by
  induction hl with
  | done => rintro s' ⟨⟩; exact h
  | ub => rintro s' ⟨⟩
  | @step s s1 r hf _ hn _ ih =>
    refine ih (.tail hv hf hn) ?_
    obtain ⟨d, m', hd, -, rfl⟩ := hn
    obtain ⟨-, e2, -⟩ := saveDue_eq V s
    have hO : Ordered V t0 (V.saveDue s) := by
      unfold Driver.saveDue
      split_ifs
      · exact h.save
      · exact h
    have hdp := hp hv hd
    have hb : s.t ≤ s.t + V.ctl.computeDt s.t d ∧ s.t + V.ctl.computeDt s.t d ≤ V.ctl.tEnd := by
      have := h.fin
      simp only [Sim.computeDt, ROps.ltb, decide_eq_true_eq]
      split_ifs <;> constructor <;> linarith
    refine ⟨hO.saved, hO.order, fun x hx => (hO.last x hx).trans ?_, h.first.trans hb.1, hb.2⟩
    rw [e2]; exact hb.1

/-- Files are in order if all time steps are positive. -/
theorem main_ordered (hp : ∀ {s d}, V.Visits init post s → V.Dt s.iteration s.m d → 0 < d)
    (ht : V.ctl.tCurrent ≤ V.ctl.tEnd) {s : HydroState ℝ} (hm : V.Main init post (some s)) :
    InOrder 0 V.ctl.tCurrent V.ctl.tEnd s.files := by
  obtain ⟨s0, r, hs, hl, e⟩ := hm
  obtain ⟨s1, rfl, rfl⟩ := Option.map_eq_some_iff.1 e.symm
  have h0 : Ordered V V.ctl.tCurrent s0 := by
    obtain ⟨m1, d, m2, -, -, -, rfl⟩ := hs
    exact Ordered.saveIf ⟨by simp, ⟨by simp, by simp, by simp⟩, by simp, le_refl _, ht⟩
  exact ((loop_ordered (fun hv hd => hp ⟨s0, hs, hv⟩ hd) hl .refl h0 s1 rfl).saveIf).order

end Verif.Driver
