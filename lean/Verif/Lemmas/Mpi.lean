import Verif.Model.Mpi
import Verif.Lemmas.Kernel
import Mathlib.Data.List.Range
import Mathlib.Algebra.BigOperators.Group.Finset.Basic
import Mathlib.Algebra.Order.BigOperators.Group.Finset
import Mathlib.Tactic.Linarith

/-!
# Jobs whose ranks run aligned programs

If at every position all ranks run loops, or all call `sendrecv` with matching arguments, or all call the
barrier, then the job cannot get stuck, always terminates, and ends in the state of the lockstep execution.
-/

namespace Verif

variable {V : Type} [Add V]

/-- All ranks' statements at one position, and their lockstep effect. -/
inductive Lock (N : Nat) (dom : Nat → Addr → Prop) (op : Nat → Option (MpiOp V))
    (M M' : Nat → Addr → V) : Prop
  | kernels (Ls : Nat → List (Launch Addr V)) (h : ∀ r, r < N → op r = some (.kernels (Ls r)))
      (hy : ∀ r, r < N → YieldsAll (dom r) (Ls r) (M r) (M' r))
  | sendrecv (a : Nat → SendRecv) (h : ∀ r, r < N → op r = some (.sendrecv (a r)))
      (hdst : ∀ r, r < N → (a r).dst < N ∧ (a (a r).dst).src = r)
      (hsrc : ∀ r, r < N → (a r).src < N ∧ (a (a r).src).dst = r)
      (htag : ∀ r, r < N → (a (a r).src).stag = (a r).rtag)
      (hshape : ∀ r, r < N → (a (a r).src).sshape = (a r).rshape)
      (hm : ∀ r, r < N → M' r = unpackMsg (a r).rbuf
        (packMsg (a (a r).src).sbuf (a (a r).src).sshape (M (a r).src)) (M r))
  | barrier (h : ∀ r, r < N → op r = some .barrier) (hm : ∀ r, r < N → M' r = M r)

/-- Lockstep execution of a job. -/
structure Lockstep (N : Nat) (dom : Nat → Addr → Prop) (prog : Nat → List (MpiOp V)) (n : Nat)
    (M : Nat → Nat → Addr → V) : Prop where
  len : ∀ r, r < N → (prog r).length = n
  lock : ∀ k, k < n → Lock N dom (fun r => (prog r)[k]?) (M k) (M (k + 1))

namespace RankState

/-- Number of statements whose send (if any) has been started. -/
def sc (s : RankState V) : Nat := s.pc + (match s.posted with | none => 0 | some _ => 1)
/-- Number of statements whose receive (if any) is complete. -/
def rc (s : RankState V) : Nat := s.pc + (match s.posted with | some (_, true) => 1 | _ => 0)

end RankState

/-- Message that statement `k` of rank `a` sends to `b` with tag `t`. -/
def msgAt (prog : Nat → List (MpiOp V)) (M : Nat → Nat → Addr → V) (a b : Nat) (t : Int)
    (k : Nat) : Option (Msg V) :=
  match (prog a)[k]? with
  | some (.sendrecv x) =>
    if x.dst = b ∧ x.stag = t then some (packMsg x.sbuf x.sshape (M k a)) else none
  | _ => none

/-- Messages sent by statements `lo .. hi-1`. -/
def msgs (prog : Nat → List (MpiOp V)) (M : Nat → Nat → Addr → V) (a b : Nat) (t : Int)
    (lo hi : Nat) : List (Msg V) :=
  (List.range' lo (hi - lo)).filterMap (msgAt prog M a b t)

theorem msgs_succ_hi {prog : Nat → List (MpiOp V)} {M : Nat → Nat → Addr → V} {a b : Nat} {t : Int}
    {lo hi : Nat} (h : lo ≤ hi) :
    msgs prog M a b t lo (hi + 1) = msgs prog M a b t lo hi ++ (msgAt prog M a b t hi).toList := by
  unfold msgs
  rw [show hi + 1 - lo = (hi - lo) + 1 by omega, List.range'_concat, List.filterMap_append,
    show lo + 1 * (hi - lo) = hi by omega]
  cases hm : msgAt prog M a b t hi <;> simp [hm]

theorem msgs_succ_lo {prog : Nat → List (MpiOp V)} {M : Nat → Nat → Addr → V} {a b : Nat} {t : Int}
    {lo hi : Nat} (h : lo < hi) :
    msgs prog M a b t lo hi = (msgAt prog M a b t lo).toList ++ msgs prog M a b t (lo + 1) hi := by
  unfold msgs
  rw [show hi - lo = (hi - (lo + 1)) + 1 by omega, List.range'_succ]
  cases hm : msgAt prog M a b t lo <;> simp [hm]

theorem msgs_empty {prog : Nat → List (MpiOp V)} {M : Nat → Nat → Addr → V} {a b : Nat} {t : Int}
    {lo hi : Nat} (h : hi ≤ lo) : msgs prog M a b t lo hi = [] := by
  unfold msgs
  rw [show hi - lo = 0 by omega]; rfl

/-- Extending the range by a statement that sends nothing here. -/
theorem msgs_hi_none {prog : Nat → List (MpiOp V)} {M : Nat → Nat → Addr → V} {a b : Nat} {t : Int}
    {lo hi : Nat} (h : msgAt prog M a b t hi = none) :
    msgs prog M a b t lo (hi + 1) = msgs prog M a b t lo hi := by
  by_cases hl : lo ≤ hi
  · rw [msgs_succ_hi hl, h]; simp
  · rw [msgs_empty (by omega), msgs_empty (by omega)]

theorem msgs_lo_none {prog : Nat → List (MpiOp V)} {M : Nat → Nat → Addr → V} {a b : Nat} {t : Int}
    {lo hi : Nat} (h : msgAt prog M a b t lo = none) :
    msgs prog M a b t (lo + 1) hi = msgs prog M a b t lo hi := by
  by_cases hl : lo < hi
  · rw [msgs_succ_lo hl, h]; simp
  · rw [msgs_empty (by omega), msgs_empty (by omega)]

/-- What holds in every reachable state of a job. -/
structure Inv (N : Nat) (prog : Nat → List (MpiOp V)) (n : Nat) (M : Nat → Nat → Addr → V)
    (s : Net V) : Prop where
  local_ : ∀ r, r < N → (s.rank r).pc ≤ n ∧
    (((s.rank r).posted = none ∧ (s.rank r).mem = M (s.rank r).pc r) ∨
     (∃ sd rd x, (s.rank r).posted = some (sd, rd) ∧ (prog r)[(s.rank r).pc]? = some (.sendrecv x) ∧
        (s.rank r).mem = M (if rd then (s.rank r).pc + 1 else (s.rank r).pc) r))
  chan : ∀ a b t, a < N → b < N → s.chan a b t = msgs prog M a b t (s.rank b).rc (s.rank a).sc
  order : ∀ a b k x, a < N → b < N → (prog a)[k]? = some (.sendrecv x) → x.dst = b →
    k < (s.rank b).rc → k < (s.rank a).sc

section
variable {N n : Nat} {dom : Nat → Addr → Prop} {prog : Nat → List (MpiOp V)}
  {M : Nat → Nat → Addr → V} {buffered : Nat → Nat → Prop}

theorem Inv.start : Inv N prog n M (Net.start (M 0)) := by
  refine ⟨fun r _ => ⟨Nat.zero_le _, Or.inl ⟨rfl, rfl⟩⟩, fun a b t _ _ => ?_, fun a b k x _ _ _ _ h => ?_⟩
  · simp [Net.start, RankState.rc, RankState.sc, msgs]
  · simp [Net.start, RankState.rc] at h

theorem pc_lt (hL : Lockstep N dom prog n M) {r k : Nat} (hr : r < N) {o}
    (h : (prog r)[k]? = some o) : k < n := by
  rw [← hL.len r hr]
  by_contra hc
  rw [List.getElem?_eq_none (by omega)] at h
  cases h

/-- A statement that is no `sendrecv` of one rank is none of any other rank. -/
theorem noSend (hL : Lockstep N dom prog n M) {r k : Nat} (hr : r < N) {o}
    (h : (prog r)[k]? = some o) (ho : ∀ x, o ≠ .sendrecv x) (a : Nat) (ha : a < N) :
    ∀ x, (prog a)[k]? ≠ some (.sendrecv x) := by
  intro x hx
  cases hL.lock k (pc_lt hL hr h) with
  | kernels Ls h' _ => rw [h' a ha] at hx; cases hx
  | sendrecv y h' =>
    rw [h' r hr] at h
    exact ho _ (Option.some.inj h).symm
  | barrier h' _ => rw [h' a ha] at hx; cases hx

theorem msgAt_none {a b : Nat} {t : Int} {k : Nat}
    (h : ∀ x, (prog a)[k]? ≠ some (.sendrecv x)) : msgAt prog M a b t k = none := by
  unfold msgAt
  split
  · rename_i x hx; exact absurd hx (h x)
  · rfl

/-- A statement without communication keeps the invariant. -/
theorem Inv.silent (hL : Lockstep N dom prog n M) {s : Net V} (hI : Inv N prog n M s) {r : Nat}
    (hr : r < N) {o} (hop : (prog r)[(s.rank r).pc]? = some o) (ho : ∀ x, o ≠ .sendrecv x)
    {m' : Addr → V} (hm : m' = M ((s.rank r).pc + 1) r) :
    Inv N prog n M (s.setRank r ⟨(s.rank r).pc + 1, m', none⟩) := by
  have hlt := pc_lt hL hr hop
  have hnone : (s.rank r).posted = none := by
    obtain ⟨_, h | ⟨sd, rd, x, _, hx, _⟩⟩ := hI.local_ r hr
    · exact h.1
    · rw [hop] at hx; exact absurd (Option.some.inj hx) (ho x)
  have hsc : (s.rank r).sc = (s.rank r).pc := by simp [RankState.sc, hnone]
  have hrc : (s.rank r).rc = (s.rank r).pc := by simp [RankState.rc, hnone]
  have hns := fun a ha => noSend hL hr hop ho a ha
  have e : ∀ q, ((s.setRank r ⟨(s.rank r).pc + 1, m', none⟩).rank q)
      = if q = r then ⟨(s.rank r).pc + 1, m', none⟩ else s.rank q := by
    intro q; by_cases h : q = r <;> simp [Net.setRank, Function.update_apply, h]
  have esc : ∀ q, ((s.setRank r ⟨(s.rank r).pc + 1, m', none⟩).rank q).sc
      = if q = r then (s.rank q).sc + 1 else (s.rank q).sc := by
    intro q; rw [e]; split_ifs with h
    · rw [h, hsc]; rfl
    · rfl
  have erc : ∀ q, ((s.setRank r ⟨(s.rank r).pc + 1, m', none⟩).rank q).rc
      = if q = r then (s.rank q).rc + 1 else (s.rank q).rc := by
    intro q; rw [e]; split_ifs with h
    · rw [h, hrc]; rfl
    · rfl
  refine ⟨?_, ?_, ?_⟩
  · intro q hq
    rw [e]
    split_ifs with h
    · subst h
      exact ⟨hlt, Or.inl ⟨rfl, hm⟩⟩
    · exact hI.local_ q hq
  · intro a b t ha hb
    rw [esc, erc]
    show s.chan a b t = _
    rw [hI.chan a b t ha hb]
    split_ifs with h1 h2 h2
    · subst h1; subst h2
      rw [hsc, hrc, msgs_lo_none (msgAt_none (hns _ ha)), msgs_hi_none (msgAt_none (hns _ ha))]
    · subst h1
      rw [hrc, msgs_lo_none (msgAt_none (hns _ ha))]
    · subst h2
      rw [hsc, msgs_hi_none (msgAt_none (hns _ ha))]
    · rfl
  · intro a b k x ha hb hx hd hk
    rw [erc] at hk
    rw [esc]
    have key : k < (s.rank b).rc → k < (s.rank a).sc := hI.order a b k x ha hb hx hd
    split_ifs at hk with h1
    · subst h1
      by_cases hk' : k = (s.rank b).pc
      · subst hk'; exact absurd hx (hns a ha x)
      · have := key (by omega)
        split_ifs <;> omega
    · have := key hk
      split_ifs <;> omega

/-- Changing the program state of a rank without changing its send and receive counts. -/
theorem Inv.quiet {s : Net V} (hI : Inv N prog n M s) {r : Nat} {y : RankState V}
    (hsc : y.sc = (s.rank r).sc) (hrc : y.rc = (s.rank r).rc)
    (hloc : y.pc ≤ n ∧ ((y.posted = none ∧ y.mem = M y.pc r) ∨
     (∃ sd rd x, y.posted = some (sd, rd) ∧ (prog r)[y.pc]? = some (.sendrecv x) ∧
        y.mem = M (if rd then y.pc + 1 else y.pc) r))) :
    Inv N prog n M (s.setRank r y) := by
  have e : ∀ q, ((s.setRank r y).rank q) = if q = r then y else s.rank q := by
    intro q; by_cases h : q = r <;> simp [Net.setRank, Function.update_apply, h]
  have esc : ∀ q, ((s.setRank r y).rank q).sc = (s.rank q).sc := by
    intro q; rw [e]; split_ifs with h
    · rw [h, hsc]
    · rfl
  have erc : ∀ q, ((s.setRank r y).rank q).rc = (s.rank q).rc := by
    intro q; rw [e]; split_ifs with h
    · rw [h, hrc]
    · rfl
  refine ⟨?_, ?_, ?_⟩
  · intro q hq
    rw [e]; split_ifs with h
    · subst h; exact hloc
    · exact hI.local_ q hq
  · intro a b t ha hb; rw [esc, erc]; exact hI.chan a b t ha hb
  · intro a b k x ha hb; rw [esc, erc]; exact hI.order a b k x ha hb

theorem Inv.step (hL : Lockstep N dom prog n M) {s s' : Net V} (hI : Inv N prog n M s)
    (hs : Net.Step N prog buffered s s') : Inv N prog n M s' := by
  cases hs with
  | @kernels r Ls m' hr hop hrun =>
    refine hI.silent hL hr hop (fun x h => by cases h) ?_
    have hlt := pc_lt hL hr hop
    have hmem : (s.rank r).mem = M (s.rank r).pc r := by
      obtain ⟨_, h | ⟨sd, rd, x, _, hx, _⟩⟩ := hI.local_ r hr
      · exact h.2
      · rw [hop] at hx; cases hx
    cases hL.lock _ hlt with
    | kernels Ls' h' hy =>
      have := h' r hr
      rw [hop] at this
      cases this
      rw [hmem] at hrun
      exact (hy r hr).unique hrun
    | sendrecv y h' => have := h' r hr; rw [hop] at this; cases this
    | barrier h' _ => have := h' r hr; rw [hop] at this; cases this
  | @enter r x hr hop hp =>
    have hlt := pc_lt hL hr hop
    have hmem : (s.rank r).mem = M (s.rank r).pc r := by
      obtain ⟨_, h | ⟨sd, rd, x, h, _, _⟩⟩ := hI.local_ r hr
      · exact h.2
      · rw [hp] at h; cases h
    have hsc : (s.rank r).sc = (s.rank r).pc := by simp [RankState.sc, hp]
    have hrc : (s.rank r).rc = (s.rank r).pc := by simp [RankState.rc, hp]
    set y : RankState V := { s.rank r with posted := some (false, false) } with hy
    have ysc : y.sc = (s.rank r).sc + 1 := by simp [hy, RankState.sc, hp]
    have yrc : y.rc = (s.rank r).rc := by simp [hy, RankState.rc, hp]
    have e : ∀ q, ((s.setRank r y).rank q) = if q = r then y else s.rank q := by
      intro q; by_cases h : q = r <;> simp [Net.setRank, Function.update_apply, h]
    have esc : ∀ q, ((s.setRank r y).rank q).sc
        = if q = r then (s.rank q).sc + 1 else (s.rank q).sc := by
      intro q; rw [e]; split_ifs with h
      · rw [h, ysc]
      · rfl
    have erc : ∀ q, ((s.setRank r y).rank q).rc = (s.rank q).rc := by
      intro q; rw [e]; split_ifs with h
      · rw [h, yrc]
      · rfl
    refine ⟨?_, ?_, ?_⟩
    · intro q hq
      show ((s.setRank r y).rank q).pc ≤ n ∧ _
      simp only [Net.setChan, e]
      split_ifs with h
      · subst h
        exact ⟨hlt.le, Or.inr ⟨false, false, x, rfl, hop, hmem⟩⟩
      · exact hI.local_ q hq
    · intro a b t ha hb
      show (if a = r ∧ b = x.dst ∧ t = x.stag then _ else s.chan a b t)
        = msgs prog M a b t ((s.setRank r y).rank b).rc ((s.setRank r y).rank a).sc
      rw [esc, erc]
      by_cases h1 : a = r
      · subst h1
        rw [if_pos (rfl : a = a), hsc]
        by_cases h2 : b = x.dst ∧ t = x.stag
        · obtain ⟨rfl, rfl⟩ := h2
          rw [if_pos ⟨rfl, rfl, rfl⟩, hI.chan a x.dst x.stag ha hb, hsc]
          have hle : (s.rank x.dst).rc ≤ (s.rank a).pc := by
            by_contra hc
            have := hI.order a x.dst (s.rank a).pc x ha hb hop rfl (by omega)
            omega
          rw [msgs_succ_hi hle]
          simp [msgAt, hop, hmem]
        · rw [if_neg (fun h => h2 h.2), hI.chan a b t ha hb, hsc, msgs_hi_none]
          simp only [msgAt, hop]
          rw [if_neg (fun h => h2 ⟨h.1.symm, h.2.symm⟩)]
      · rw [if_neg (fun h => h1 h.1), if_neg h1]
        exact hI.chan a b t ha hb
    · intro a b k z ha hb hz hd hk
      change k < ((s.setRank r y).rank b).rc at hk
      change k < ((s.setRank r y).rank a).sc
      rw [erc] at hk
      rw [esc]
      have := hI.order a b k z ha hb hz hd hk
      split_ifs <;> omega
  | @recv r x sent msg rest hr hop hp hc hshape =>
    have hlt := pc_lt hL hr hop
    have hmem : (s.rank r).mem = M (s.rank r).pc r := by
      obtain ⟨_, h | ⟨sd, rd, x, h, _, h'⟩⟩ := hI.local_ r hr
      · exact h.2
      · rw [hp] at h; cases h; simpa using h'
    cases hL.lock _ hlt with
    | kernels Ls' h' hy => have := h' r hr; rw [hop] at this; cases this
    | barrier h' _ => have := h' r hr; rw [hop] at this; cases this
    | sendrecv a h' hdst hsrc htag hsh hm =>
      have hxa : x = a r := by have := h' r hr; rw [hop] at this; cases this; rfl
      subst hxa
      have hsN := (hsrc r hr).1
      have hback := (hsrc r hr).2
      set k := (s.rank r).pc with hk
      have hsc : (s.rank r).sc = k + 1 := by simp [RankState.sc, hp, hk]
      have hrc : (s.rank r).rc = k := by simp [RankState.rc, hp, hk]
      have hch := hI.chan (a r).src r (a r).rtag hsN hr
      rw [hc, hrc] at hch
      have hlt' : k < (s.rank (a r).src).sc := by
        by_contra hcon
        rw [msgs_empty (by omega)] at hch
        cases hch
      have hmsg : msgAt prog M (a r).src r (a r).rtag k
          = some (packMsg (a (a r).src).sbuf (a (a r).src).sshape (M k (a r).src)) := by
        simp only [msgAt, h' _ hsN]
        rw [if_pos ⟨hback, htag r hr⟩]
      rw [msgs_succ_lo hlt', hmsg] at hch
      simp only [Option.toList_some, List.cons_append, List.nil_append, List.cons.injEq] at hch
      obtain ⟨rfl, rfl⟩ := hch
      set y : RankState V := { s.rank r with
        mem := unpackMsg (a r).rbuf
          (packMsg (a (a r).src).sbuf (a (a r).src).sshape (M k (a r).src)) (s.rank r).mem,
        posted := some (sent, true) } with hy
      have ysc : y.sc = (s.rank r).sc := by simp [hy, RankState.sc, hp]
      have yrc : y.rc = (s.rank r).rc + 1 := by simp [hy, RankState.rc, hp]
      have e : ∀ q, ((s.setRank r y).rank q) = if q = r then y else s.rank q := by
        intro q; by_cases h : q = r <;> simp [Net.setRank, Function.update_apply, h]
      have esc : ∀ q, ((s.setRank r y).rank q).sc = (s.rank q).sc := by
        intro q; rw [e]; split_ifs with h
        · rw [h, ysc]
        · rfl
      have erc : ∀ q, ((s.setRank r y).rank q).rc
          = if q = r then (s.rank q).rc + 1 else (s.rank q).rc := by
        intro q; rw [e]; split_ifs with h
        · rw [h, yrc]
        · rfl
      refine ⟨?_, ?_, ?_⟩
      · intro q hq
        show ((s.setRank r y).rank q).pc ≤ n ∧ _
        simp only [Net.setChan, e]
        split_ifs with h
        · subst h
          refine ⟨hlt.le, Or.inr ⟨sent, true, a q, rfl, hop, ?_⟩⟩
          show unpackMsg _ _ (s.rank q).mem = M (k + 1) q
          rw [hm q hr, hmem]
        · exact hI.local_ q hq
      · intro p b t hpN hb
        show (if p = (a r).src ∧ b = r ∧ t = (a r).rtag then _ else s.chan p b t)
          = msgs prog M p b t ((s.setRank r y).rank b).rc ((s.setRank r y).rank p).sc
        rw [esc, erc]
        by_cases h1 : b = r
        · subst h1
          rw [if_pos (rfl : b = b), hrc]
          by_cases h2 : p = (a b).src ∧ t = (a b).rtag
          · obtain ⟨rfl, rfl⟩ := h2
            rw [if_pos ⟨rfl, rfl, rfl⟩]
          · rw [if_neg (fun h => h2 ⟨h.1, h.2.2⟩), hI.chan p b t hpN hb, hrc, msgs_lo_none]
            simp only [msgAt, h' p hpN]
            rw [if_neg]
            rintro ⟨hd, ht⟩
            have e1 := (hdst p hpN).2
            rw [hd] at e1
            subst e1
            exact h2 ⟨rfl, by rw [← ht, htag b hr]⟩
        · rw [if_neg (fun h => h1 h.2.1), if_neg h1]
          exact hI.chan p b t hpN hb
      · intro p b j z hpN hb hz hd hj
        change j < ((s.setRank r y).rank b).rc at hj
        change j < ((s.setRank r y).rank p).sc
        rw [erc] at hj
        rw [esc]
        split_ifs at hj with h1
        · subst h1
          by_cases hjk : j = k
          · subst hjk
            have e0 := h' p hpN
            rw [hz] at e0
            cases e0
            have e1 := (hdst p hpN).2
            rw [hd] at e1
            subst e1
            exact hlt'
          · exact hI.order p b j z hpN hb hz hd (by omega)
        · exact hI.order p b j z hpN hb hz hd hj
  | @sendDone r x recvd hr hop hp hb =>
    obtain ⟨hle, h | ⟨sd, rd, z, h, hz, h'⟩⟩ := hI.local_ r hr
    · rw [hp] at h; cases h.1
    · rw [hp] at h; cases h
      refine hI.quiet ?_ ?_ ⟨hle, Or.inr ⟨true, recvd, z, rfl, hz, h'⟩⟩
      · simp [RankState.sc, hp]
      · cases recvd <;> simp [RankState.rc, hp]
  | @complete r hr hp =>
    obtain ⟨hle, h | ⟨sd, rd, z, h, hz, h'⟩⟩ := hI.local_ r hr
    · rw [hp] at h; cases h.1
    · rw [hp] at h; cases h
      have hlt := pc_lt hL hr hz
      refine hI.quiet ?_ ?_ ⟨hlt, Or.inl ⟨rfl, by simpa using h'⟩⟩
      · simp [RankState.sc, hp]
      · simp [RankState.rc, hp]
  | @barrier r hr hop hall =>
    refine hI.silent hL hr hop (fun x h => by cases h) ?_
    have hlt := pc_lt hL hr hop
    have hmem : (s.rank r).mem = M (s.rank r).pc r := by
      obtain ⟨_, h | ⟨sd, rd, x, _, hx, _⟩⟩ := hI.local_ r hr
      · exact h.2
      · rw [hop] at hx; cases hx
    cases hL.lock _ hlt with
    | kernels Ls' h' hy => have := h' r hr; rw [hop] at this; cases this
    | sendrecv y h' => have := h' r hr; rw [hop] at this; cases this
    | barrier h' hm => rw [hmem, hm r hr]

theorem Inv.reach (hL : Lockstep N dom prog n M) {s : Net V}
    (h : Relation.ReflTransGen (Net.Step N prog buffered) (Net.start (M 0)) s) :
    Inv N prog n M s := by
  induction h with
  | refl => exact Inv.start
  | tail _ hs ih => exact ih.step hL hs

/-! ### Progress -/

theorem barriers_mono (p : List (MpiOp V)) {i j : Nat} (h : i ≤ j) : barriers p i ≤ barriers p j := by
  unfold barriers
  apply List.Sublist.length_le
  apply List.Sublist.filter
  exact (List.take_prefix_take_left h).sublist

theorem barriers_succ (p : List (MpiOp V)) {i : Nat} (h : p[i]? = some .barrier) :
    barriers p (i + 1) = barriers p i + 1 := by
  unfold barriers
  rw [List.take_add_one, h]
  simp

theorem barriers_eq (hL : Lockstep N dom prog n M) {r q : Nat} (hr : r < N) (hq : q < N) {k : Nat}
    (hk : k ≤ n) : barriers (prog r) k = barriers (prog q) k := by
  induction k with
  | zero => rfl
  | succ k ih =>
    have := ih (by omega)
    unfold barriers at this ⊢
    rw [List.take_add_one, List.take_add_one, List.filter_append, List.filter_append, List.length_append,
      List.length_append, this]
    congr 1
    cases hL.lock k hk with
    | kernels Ls h' _ => simp [h' r hr, h' q hq]
    | sendrecv a h' => simp [h' r hr, h' q hq]
    | barrier h' _ => simp [h' r hr, h' q hq]

/-- A rank that has to receive statement `k`'s message can make progress, or its partner can. -/
theorem recv_progress (hL : Lockstep N dom prog n M) {s : Net V} (hI : Inv N prog n M s) {r k : Nat}
    (hr : r < N) (hpc : (s.rank r).pc = k) {sd : Bool} (hp : (s.rank r).posted = some (sd, false))
    {a : Nat → SendRecv} (h' : ∀ r, r < N → (prog r)[k]? = some (.sendrecv (a r)))
    (hsrc : ∀ r, r < N → (a r).src < N ∧ (a (a r).src).dst = r)
    (htag : ∀ r, r < N → (a (a r).src).stag = (a r).rtag)
    (hshape : ∀ r, r < N → (a (a r).src).sshape = (a r).rshape)
    (hmin : ∀ q, q < N → k ≤ (s.rank q).pc) : ∃ s', Net.Step N prog buffered s s' := by
  have hsN := (hsrc r hr).1
  have hpr : (prog r)[(s.rank r).pc]? = some (.sendrecv (a r)) := by rw [hpc]; exact h' r hr
  by_cases hsent : k < (s.rank (a r).src).sc
  · have hch := hI.chan (a r).src r (a r).rtag hsN hr
    have hrc : (s.rank r).rc = k := by simp [RankState.rc, hp, hpc]
    have hmsg : msgAt prog M (a r).src r (a r).rtag k
        = some (packMsg (a (a r).src).sbuf (a (a r).src).sshape (M k (a r).src)) := by
      simp only [msgAt, h' _ hsN]
      rw [if_pos ⟨(hsrc r hr).2, htag r hr⟩]
    rw [hrc, msgs_succ_lo hsent, hmsg] at hch
    exact ⟨_, Net.Step.recv hr hpr hp hch (hshape r hr)⟩
  · have hpk : (s.rank (a r).src).pc = k ∧ (s.rank (a r).src).posted = none := by
      have := hmin _ hsN
      unfold RankState.sc at hsent
      cases hq : (s.rank (a r).src).posted with
      | none => rw [hq] at hsent; simp only at hsent; exact ⟨by omega, rfl⟩
      | some z => rw [hq] at hsent; simp only at hsent; omega
    exact ⟨_, Net.Step.enter hsN (by rw [hpk.1]; exact h' _ hsN) hpk.2⟩

/-- No reachable state is stuck before all ranks have finished. -/
theorem Inv.progress (hL : Lockstep N dom prog n M) {s : Net V} (hI : Inv N prog n M s)
    (hnd : ¬ Net.Done N prog s) : ∃ s', Net.Step N prog buffered s s' := by
  classical
  have hex : ∃ k, ∃ r, r < N ∧ (s.rank r).pc = k ∧ k < n := by
    by_contra hc
    apply hnd
    intro r hr
    have hn : (s.rank r).pc = n := by
      have := (hI.local_ r hr).1
      by_contra hne
      exact hc ⟨_, r, hr, rfl, by omega⟩
    refine ⟨by rw [hn, hL.len r hr], ?_⟩
    obtain ⟨_, h | ⟨sd, rd, x, _, hx, _⟩⟩ := hI.local_ r hr
    · exact h.1
    · have := pc_lt hL hr hx; omega
  obtain ⟨r, hr, hpc, hlt⟩ := Nat.find_spec hex
  set k := Nat.find hex with hk
  have hmin : ∀ q, q < N → k ≤ (s.rank q).pc := by
    intro q hq
    by_contra hc
    exact Nat.find_min hex (m := (s.rank q).pc) (by omega) ⟨q, hq, rfl, by omega⟩
  cases hL.lock k hlt with
  | kernels Ls h' hy =>
    have hmem : (s.rank r).mem = M k r := by
      obtain ⟨_, h | ⟨sd, rd, x, _, hx, _⟩⟩ := hI.local_ r hr
      · rw [h.2, hpc]
      · rw [hpc, h' r hr] at hx; cases hx
    exact ⟨_, Net.Step.kernels hr (by rw [hpc]; exact h' r hr) (hmem ▸ (hy r hr).run)⟩
  | barrier h' hm =>
    refine ⟨_, Net.Step.barrier hr (by rw [hpc]; exact h' r hr) ?_⟩
    intro q hq
    rw [hpc]
    have hle := hmin q hq
    rcases Nat.eq_or_lt_of_le hle with he | hlt'
    · right
      rw [← he]
      exact ⟨barriers_eq hL hr hq hlt.le, h' q hq⟩
    · left
      have := barriers_mono (prog q) (show k + 1 ≤ (s.rank q).pc from hlt')
      rw [barriers_succ _ (h' q hq)] at this
      rw [barriers_eq hL hr hq hlt.le]; omega
  | sendrecv a h' hdst hsrc htag hsh hm =>
    have hpr : (prog r)[(s.rank r).pc]? = some (.sendrecv (a r)) := by rw [hpc]; exact h' r hr
    cases hp : (s.rank r).posted with
    | none => exact ⟨_, Net.Step.enter hr hpr hp⟩
    | some z =>
      obtain ⟨sd, rd⟩ := z
      cases rd with
      | false => exact recv_progress hL hI hr hpc hp h' hsrc htag hsh hmin
      | true =>
        cases sd with
        | true => exact ⟨_, Net.Step.complete hr hp⟩
        | false =>
          have hdN := (hdst r hr).1
          have hds := (hdst r hr).2
          by_cases hgot : k < (s.rank (a r).dst).rc
          · refine ⟨_, Net.Step.sendDone hr hpr hp (Or.inr ?_)⟩
            rw [hI.chan r _ _ hr hdN]
            apply msgs_empty
            have : (s.rank r).sc = k + 1 := by simp [RankState.sc, hp, hpc]
            omega
          · have hq := hmin _ hdN
            cases hpd : (s.rank (a r).dst).posted with
            | none =>
              have hpk : (s.rank (a r).dst).pc = k := by
                simp only [RankState.rc, hpd] at hgot; omega
              exact ⟨_, Net.Step.enter hdN (by rw [hpk]; exact h' _ hdN) hpd⟩
            | some z =>
              obtain ⟨sd', rd'⟩ := z
              cases rd' with
              | true => simp only [RankState.rc, hpd] at hgot; omega
              | false =>
                have hpk : (s.rank (a r).dst).pc = k := by
                  simp only [RankState.rc, hpd] at hgot; omega
                exact recv_progress hL hI hdN hpk hpd h' hsrc htag hsh hmin

/-! ### Termination -/

/-- Work done by a rank. -/
def RankState.work (s : RankState V) : Nat :=
  4 * s.pc + (match s.posted with
    | none => 0
    | some (a, b) => 1 + (if a then 1 else 0) + (if b then 1 else 0))

/-- Work done by the whole job. -/
def Net.work (N : Nat) (s : Net V) : Nat := ∑ r ∈ Finset.range N, (s.rank r).work

theorem work_setRank {s : Net V} {r : Nat} (hr : r < N) {y : RankState V}
    (h : y.work = (s.rank r).work + 1 ∨ ((s.rank r).work + 1 ≤ y.work)) :
    s.work N + 1 ≤ (s.setRank r y).work N := by
  have h' : (s.rank r).work + 1 ≤ y.work := by rcases h with h | h <;> omega
  unfold Net.work
  rw [← Finset.add_sum_erase _ _ (Finset.mem_range.2 hr),
    ← Finset.add_sum_erase (Finset.range N) (fun q => ((s.setRank r y).rank q).work)
      (Finset.mem_range.2 hr)]
  have e : ∑ q ∈ (Finset.range N).erase r, ((s.setRank r y).rank q).work
      = ∑ q ∈ (Finset.range N).erase r, (s.rank q).work := by
    apply Finset.sum_congr rfl
    intro q hq
    simp only [Net.setRank]
    rw [Function.update_of_ne (Finset.ne_of_mem_erase hq)]
  have e2 : ((s.setRank r y).rank r) = y := by simp [Net.setRank]
  rw [e, e2]; omega

theorem step_work (hL : Lockstep N dom prog n M) {s s' : Net V} (hI : Inv N prog n M s)
    (hs : Net.Step N prog buffered s s') : s.work N + 1 ≤ s'.work N := by
  cases hs with
  | @kernels r Ls m' hr hop hrun =>
    apply work_setRank hr
    have hnone : (s.rank r).posted = none := by
      obtain ⟨_, h | ⟨sd, rd, x, _, hx, _⟩⟩ := hI.local_ r hr
      · exact h.1
      · rw [hop] at hx; cases hx
    right; simp only [RankState.work, hnone]; omega
  | @enter r x hr hop hp =>
    show s.work N + 1 ≤ (s.setRank r _).work N
    apply work_setRank hr
    right; simp [RankState.work, hp]
  | @recv r x sent msg rest hr hop hp hc hshape =>
    show s.work N + 1 ≤ (s.setRank r _).work N
    apply work_setRank hr
    right; simp [RankState.work, hp] <;> omega
  | @sendDone r x recvd hr hop hp hb =>
    apply work_setRank hr
    right; simp [RankState.work, hp] <;> omega
  | @complete r hr hp =>
    apply work_setRank hr
    right; simp only [RankState.work, hp]; simp; omega
  | @barrier r hr hop hall =>
    apply work_setRank hr
    have hnone : (s.rank r).posted = none := by
      obtain ⟨_, h | ⟨sd, rd, x, _, hx, _⟩⟩ := hI.local_ r hr
      · exact h.1
      · rw [hop] at hx; cases hx
    right; simp only [RankState.work, hnone]; omega

theorem work_le (hL : Lockstep N dom prog n M) {s : Net V} (hI : Inv N prog n M s) :
    s.work N ≤ N * (4 * n) := by
  unfold Net.work
  have : ∀ r ∈ Finset.range N, (s.rank r).work ≤ 4 * n := by
    intro r hr
    have hr' := Finset.mem_range.1 hr
    obtain ⟨hle, h | ⟨sd, rd, x, h, hx, _⟩⟩ := hI.local_ r hr'
    · simp only [RankState.work, h.1]; omega
    · have := pc_lt hL hr' hx
      simp only [RankState.work, h]
      cases sd <;> cases rd <;> simp <;> omega
  calc _ ≤ ∑ _r ∈ Finset.range N, 4 * n := Finset.sum_le_sum this
    _ = _ := by simp

/-- From every reachable state, no execution is infinite. -/
theorem Inv.terminates (hL : Lockstep N dom prog n M) (s : Net V) (hI : Inv N prog n M s) :
    Acc (fun s' s => Net.Step N prog buffered s s') s := by
  induction hd : N * (4 * n) - s.work N using Nat.strong_induction_on generalizing s with
  | _ d ih =>
    constructor
    intro s' hs
    have h1 := step_work hL hI hs
    have hI' := hI.step hL hs
    have h2 := work_le hL hI'
    exact ih _ (by omega) s' hI' rfl

/-- Final states hold the lockstep result. -/
theorem Inv.final (hL : Lockstep N dom prog n M) {s : Net V} (hI : Inv N prog n M s)
    (hd : Net.Done N prog s) : ∀ r, r < N → (s.rank r).mem = M n r := by
  intro r hr
  obtain ⟨h1, h2⟩ := hd r hr
  obtain ⟨_, h | ⟨sd, rd, x, h, _, _⟩⟩ := hI.local_ r hr
  · rw [h.2, h1, hL.len r hr]
  · rw [h2] at h; cases h

end

end Verif
