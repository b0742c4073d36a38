import Verif.Lemmas.Init

/-! Helper lemmas: memory after the initial conditions of the MHD solvers. -/

namespace Verif

open K Spec ROps TOps
open Function (update_apply update_self update_of_ne)

variable {α : Type} [TOps α] {d3 : Bool} {S : MSettings α} {P : Grid} {D : Domain α} {impl : Int}

/-! ### Values -/

/-- Discrete curl of a potential, 2D. -/
def curlList2 (S : MSettings α) (A : Cell → Nat → α) (c : Cell) : List (Nat × α) :=
  [(IA, (A (c.up .y) 0 - A c 0) / S.dy), (IB, -(A (c.up .x) 0 - A c 0) / S.dx), (IC, lit 0)]

/-- Discrete curl of a potential, 3D. -/
def curlList3 (S : MSettings α) (A : Cell → Nat → α) (c : Cell) : List (Nat × α) :=
  [(IA, (A (c.up .y) 2 - A c 2) / S.dy - (A (c.up .z) 1 - A c 1) / S.dz),
    (IB, (A (c.up .z) 0 - A c 0) / S.dz - (A (c.up .x) 2 - A c 2) / S.dx),
    (IC, (A (c.up .x) 1 - A c 1) / S.dx - (A (c.up .y) 0 - A c 0) / S.dy)]

/-- Energy set by the Orszag-Tang functor. -/
def otEnergy (d3 : Bool) (S : MSettings α) (V : Cell → Nat → α) (c : Cell) : α :=
  (if d3 then S.gamma0 / (lit 4 * pi) else S.gamma0 / (lit 2 * (lit 4 * asin (lit 1)))) /
      (S.gamma0 - lit 1) +
    lit (1/2) * (sqr (V c IU) / V c ID + sqr (V c IV) / V c ID +
      lit (1/4) * sqr (V c IA + V (c.up .x) IA) + lit (1/4) * sqr (V c IB + V (c.up .y) IB))

/-- Energy set by the field loop functor. -/
def loopEnergy (d3 : Bool) (S : MSettings α) (V : Cell → Nat → α) (c : Cell) : α :=
  if gtb S.cIso (lit 0) then lit 0
  else if d3 then
    lit 1 / (S.gamma0 - lit 1) +
      lit (1/2) * (lit (1/4) * sqr (V c IA + V (c.up .x) IA) +
        lit (1/4) * sqr (V c IB + V (c.up .y) IB) + lit (1/4) * sqr (V c IC + V (c.up .z) IC)) +
      lit (1/2) * (V c IU * V c IU + V c IV * V c IV + V c IW * V c IW) / V c ID
  else
    lit 1 / (S.gamma0 - lit 1) +
      lit (1/2) * (lit (1/4) * sqr (V c IA + V (c.up .x) IA) +
        lit (1/4) * sqr (V c IB + V (c.up .y) IB)) +
      lit (1/2) * (V c IU * V c IU + V c IV * V c IV) / V c ID

/-! ### Footprints -/

theorem initDom_u (hn : P.nbvar = 8) {c : Cell} (hc : P.box d3 c) {v : Nat} (hv : v < 8) :
    mhdInitDom d3 P impl (c.at aU v) := by
  refine Or.inl ⟨hc, Or.inl ⟨?_, ?_⟩⟩
  · simp [mhdArray]
  · simpa [hn] using hv

theorem initDom_pot {c : Cell} (hc : P.box d3 c) {v : Nat} (hv : v < if d3 then 3 else 1) :
    mhdInitDom d3 P impl (c.at mPot v) := Or.inr ⟨hc, rfl, hv⟩

theorem inner_up_box (hg : 3 ≤ P.ghostWidth) {c : Cell} (h : P.inner d3 c) (hb : P.box d3 c) {d : Dir}
    (hd : d ∈ dirs d3) : P.box d3 (c.up d) := (inner_up hg h hb hd).1

theorem curl_exec2 (c : Cell) (m : Addr → α) (U : Nat) :
    (curlPot2 S U c).exec m = (stores U c (curlList2 S (fun c n => m (c.at mPot n)) c)).exec m := rfl

theorem curl_exec3 (c : Cell) (m : Addr → α) (U : Nat) :
    (curlPot S U c).exec m = (stores U c (curlList3 S (fun c n => m (c.at mPot n)) c)).exec m := rfl

theorem curl_FP2 {dom : Addr → Prop} {c : Cell} {U : Nat} (hU : U ≠ mPot)
    (h0 : ∀ v, v < 1 → dom (c.at mPot v)) (hy : ∀ v, v < 1 → dom ((c.up .y).at mPot v))
    (hx : ∀ v, v < 1 → dom ((c.up .x).at mPot v)) (hs : ∀ v, v < 8 → dom (c.at U v)) :
    (curlPot2 S U c).FP (fun a => dom a ∧ (a.arr = U → a.cell = c))
      (fun a => dom a ∧ a.arr = U ∧ a.cell = c) (fun _ => False) := by
  have e : ∀ c' : Cell, ∀ v, dom (c'.at mPot v) → dom (c'.at mPot v) ∧ ((c'.at mPot v).arr = U →
      (c'.at mPot v).cell = c) := fun c' v hd => ⟨hd, fun e => (hU e.symm).elim⟩
  refine FP.bind (FP.load (e _ _ (h0 _ (by decide)))) fun _ =>
    FP.bind (FP.load (e _ _ (hy _ (by decide)))) fun _ =>
    FP.bind (FP.load (e _ _ (hx _ (by decide)))) fun _ => stores_FP fun p hp => ⟨hs _ ?_, rfl, rfl⟩
  simp only [List.mem_cons, List.not_mem_nil, or_false] at hp
  rcases hp with rfl | rfl | rfl
  · exact (by decide : IA < 8)
  · exact (by decide : IB < 8)
  · exact (by decide : IC < 8)

theorem curl_FP3 {dom : Addr → Prop} {c : Cell} {U : Nat} (hU : U ≠ mPot)
    (h0 : ∀ v, v < 3 → dom (c.at mPot v)) (h1 : ∀ d v, v < 3 → dom ((c.up d).at mPot v))
    (hs : ∀ v, v < 8 → dom (c.at U v)) :
    (curlPot S U c).FP (fun a => dom a ∧ (a.arr = U → a.cell = c))
      (fun a => dom a ∧ a.arr = U ∧ a.cell = c) (fun _ => False) := by
  have e : ∀ c' : Cell, ∀ v, dom (c'.at mPot v) → dom (c'.at mPot v) ∧ ((c'.at mPot v).arr = U →
      (c'.at mPot v).cell = c) := fun c' v hd => ⟨hd, fun e => (hU e.symm).elim⟩
  refine FP.bind (FP.load (e _ _ (h0 _ (by decide)))) fun _ =>
    FP.bind (FP.load (e _ _ (h0 _ (by decide)))) fun _ =>
    FP.bind (FP.load (e _ _ (h0 _ (by decide)))) fun _ =>
    FP.bind (FP.load (e _ _ (h1 _ _ (by decide)))) fun _ =>
    FP.bind (FP.load (e _ _ (h1 _ _ (by decide)))) fun _ =>
    FP.bind (FP.load (e _ _ (h1 _ _ (by decide)))) fun _ =>
    FP.bind (FP.load (e _ _ (h1 _ _ (by decide)))) fun _ =>
    FP.bind (FP.load (e _ _ (h1 _ _ (by decide)))) fun _ =>
    FP.bind (FP.load (e _ _ (h1 _ _ (by decide)))) fun _ =>
    stores_FP fun p hp => ⟨hs _ ?_, rfl, rfl⟩
  simp only [List.mem_cons, List.not_mem_nil, or_false] at hp
  rcases hp with rfl | rfl | rfl
  · exact (by decide : IA < 8)
  · exact (by decide : IB < 8)
  · exact (by decide : IC < 8)

/-! ### One loop -/

/-- Values stored in the problems that take one loop. -/
def oneLoop (d3 : Bool) (S : MSettings α) (P : Grid) (D : Domain α) : MhdProblem α →
    Option (Cell → List (Nat × α))
  | .blast p => some (blastMhd d3 S P D p)
  | .implode p => some fun c => if d3 then implode3 S P D p c else implode2 S P D p c
  | .kelvinHelmholtz p rnd => some fun c =>
      if d3 then kelvinHelmholtz3 S P D p rnd c else kelvinHelmholtz2 S P D p rnd c
  | .rotor p => some fun c => if d3 then rotor3 S P D p c else rotor2 S P D p c
  | _ => none

/-- All variables are below eight. -/
def Below (n : Nat) (l : List (Nat × α)) : Prop := ∀ p ∈ l, p.1 < n

omit [TOps α] in
theorem Below.nil {n : Nat} : Below n ([] : List (Nat × α)) := fun _ h => by simp at h
omit [TOps α] in
theorem Below.cons {n v : Nat} {x : α} {l : List (Nat × α)} (h : v < n) (hl : Below n l) :
    Below n ((v, x) :: l) := by
  intro p hp
  rcases List.mem_cons.1 hp with rfl | hp
  · exact h
  · exact hl p hp
omit [TOps α] in
theorem Below.append {n : Nat} {l l' : List (Nat × α)} (h : Below n l) (hl : Below n l') :
    Below n (l ++ l') := by
  intro p hp
  rcases List.mem_append.1 hp with hp | hp
  · exact h p hp
  · exact hl p hp
omit [TOps α] in
theorem Below.ite {n : Nat} {b : Prop} [Decidable b] {l l' : List (Nat × α)} (h : Below n l)
    (hl : Below n l') : Below n (if b then l else l') := by
  split_ifs
  · exact h
  · exact hl

/-- Prove `Below` for a list of the model. -/
macro "below" : tactic => `(tactic|
  repeat' first
    | exact Below.nil
    | refine Below.cons (by decide) ?_
    | refine Below.ite ?_ ?_
    | refine Below.append ?_ ?_)

theorem oneLoop_below {Q : MhdProblem α} {f : Cell → List (Nat × α)}
    (h : oneLoop d3 S P D Q = some f) (c : Cell) : Below 8 (f c) := by
  cases Q with
  | blast p => obtain rfl := Option.some.inj h; unfold blastMhd; below
  | implode p =>
    obtain rfl := Option.some.inj h
    refine Below.ite ?_ ?_
    · unfold implode3; below
    · unfold implode2; below
  | kelvinHelmholtz p rnd =>
    obtain rfl := Option.some.inj h
    refine Below.ite ?_ ?_
    · unfold kelvinHelmholtz3; below
    · unfold kelvinHelmholtz2; below
  | rotor p =>
    obtain rfl := Option.some.inj h
    refine Below.ite ?_ ?_
    · unfold rotor3; below
    · unfold rotor2; below
  | orszagTang kt => cases h
  | fieldLoop p => cases h
  | wave p => cases h

theorem oneLoop_loops {Q : MhdProblem α} {f : Cell → List (Nat × α)}
    (h : oneLoop d3 S P D Q = some f) :
    mhdInitLoops d3 S P D aU Q = [mdrange d3 P fun c => stores aU c (f c)] := by
  cases Q <;> first | (obtain rfl := Option.some.inj h; rfl) | cases h

/-! ### Memory after the loops -/

/-- Value of variable `v` in interior cell `c` after the initial condition. -/
def initVal (d3 : Bool) (S : MSettings α) (P : Grid) (D : Domain α) (m : Addr → α) :
    MhdProblem α → Cell → Nat → α
  | .blast p, c, v => lastOf (blastMhd d3 S P D p c) v (m (c.at aU v))
  | .implode p, c, v =>
    lastOf (if d3 then implode3 S P D p c else implode2 S P D p c) v (m (c.at aU v))
  | .kelvinHelmholtz p rnd, c, v =>
    lastOf (if d3 then kelvinHelmholtz3 S P D p rnd c else kelvinHelmholtz2 S P D p rnd c) v
      (m (c.at aU v))
  | .rotor p, c, v => lastOf (if d3 then rotor3 S P D p c else rotor2 S P D p c) v (m (c.at aU v))
  | .orszagTang kt, c, v =>
    let V := fun (c : Cell) v =>
      lastOf (if d3 then orszagTang3 S P D kt c else orszagTang2 S P D c) v (m (c.at aU v))
    if v = IP then otEnergy d3 S V c else V c v
  | .fieldLoop p, c, v =>
    let A := fun (c : Cell) n => lastOf (fieldLoopPotential d3 S P D p c) n (m (c.at mPot n))
    let V := fun (c : Cell) v =>
      if P.inner d3 c then
        lastOf (fieldLoopFlow d3 S P D p c ++ if d3 then curlList3 S A c else curlList2 S A c) v
          (m (c.at aU v))
      else m (c.at aU v)
    if v = IP then loopEnergy d3 S V c else V c v
  | .wave p, c, v =>
    if d3 then
      let A := fun (c : Cell) n => lastOf (wavePotential S P D p c) n (m (c.at mPot n))
      if v = IA ∨ v = IB ∨ v = IC then lastOf (curlList3 S A c) v (m (c.at aU v))
      else (waveFlow S P D p aU c).exec m (c.at aU v)
    else m (c.at aU v)

omit [TOps α] in
theorem lastOf_append [TOps α] (l l' : List (Nat × α)) (v : Nat) (x : α) :
    lastOf (l ++ l') v x = lastOf l' v (lastOf l v x) := by
  unfold lastOf; rw [List.foldl_append]

theorem otEnergy_FP (hg : 3 ≤ P.ghostWidth) (hn : P.nbvar = 8) {c : Cell} (hc : P.box d3 c) :
    (orszagTangEnergy d3 S P aU c).FP
      (fun a => mhdInitDom d3 P impl a ∧ (a.arr = aU ∧ a.v = IP → a.cell = c))
      (fun a => mhdInitDom d3 P impl a ∧ (a.arr = aU ∧ a.v = IP) ∧ a.cell = c) (fun _ => False) := by
  unfold orszagTangEnergy
  simp only
  by_cases hG : c.i < P.isize - 1 ∧ c.j < P.jsize - 1
  · rw [if_pos hG]
    have hx : P.box d3 (c.up .x) := by
      cases d3 <;> guards <;> omega
    have hy : P.box d3 (c.up .y) := by
      cases d3 <;> guards <;> omega
    exact FP.bind (FP.load ⟨initDom_u hn hc (by decide), fun _ => rfl⟩) fun _ =>
      FP.bind (FP.load ⟨initDom_u hn hc (by decide), fun _ => rfl⟩) fun _ =>
      FP.bind (FP.load ⟨initDom_u hn hc (by decide), fun _ => rfl⟩) fun _ =>
      FP.bind (FP.load ⟨initDom_u hn hc (by decide), fun _ => rfl⟩) fun _ =>
      FP.bind (FP.load ⟨initDom_u hn hx (by decide), fun e => by cases e.2⟩) fun _ =>
      FP.bind (FP.load ⟨initDom_u hn hc (by decide), fun _ => rfl⟩) fun _ =>
      FP.bind (FP.load ⟨initDom_u hn hy (by decide), fun e => by cases e.2⟩) fun _ =>
      FP.store ⟨initDom_u hn hc (by decide), ⟨rfl, rfl⟩, rfl⟩
  · rw [if_neg hG]; exact FP.ret

theorem loopEnergy_FP (hg : 3 ≤ P.ghostWidth) (hn : P.nbvar = 8) {c : Cell} (hc : P.box d3 c) :
    (fieldLoopEnergy d3 S P aU c).FP
      (fun a => mhdInitDom d3 P impl a ∧ (a.arr = aU ∧ a.v = IP → a.cell = c))
      (fun a => mhdInitDom d3 P impl a ∧ (a.arr = aU ∧ a.v = IP) ∧ a.cell = c) (fun _ => False) := by
  unfold fieldLoopEnergy
  split_ifs with hG h1 h2
  · exact FP.store ⟨initDom_u hn hc (by decide), ⟨rfl, rfl⟩, rfl⟩
  · have hx := inner_up_box hg hG hc (d := .x) (by cases d3 <;> simp [dirs])
    have hy := inner_up_box hg hG hc (d := .y) (by cases d3 <;> simp [dirs])
    have hz := inner_up_box hg hG hc (d := .z) (by subst h2; simp [dirs])
    exact FP.bind (FP.load ⟨initDom_u hn hc (by decide), fun _ => rfl⟩) fun _ =>
      FP.bind (FP.load ⟨initDom_u hn hx (by decide), fun e => by cases e.2⟩) fun _ =>
      FP.bind (FP.load ⟨initDom_u hn hc (by decide), fun _ => rfl⟩) fun _ =>
      FP.bind (FP.load ⟨initDom_u hn hy (by decide), fun e => by cases e.2⟩) fun _ =>
      FP.bind (FP.load ⟨initDom_u hn hc (by decide), fun _ => rfl⟩) fun _ =>
      FP.bind (FP.load ⟨initDom_u hn hc (by decide), fun _ => rfl⟩) fun _ =>
      FP.bind (FP.load ⟨initDom_u hn hc (by decide), fun _ => rfl⟩) fun _ =>
      FP.bind (FP.load ⟨initDom_u hn hc (by decide), fun _ => rfl⟩) fun _ =>
      FP.bind (FP.load ⟨initDom_u hn hz (by decide), fun e => by cases e.2⟩) fun _ =>
      FP.bind (FP.load ⟨initDom_u hn hc (by decide), fun _ => rfl⟩) fun _ =>
      FP.store ⟨initDom_u hn hc (by decide), ⟨rfl, rfl⟩, rfl⟩
  · have hx := inner_up_box hg hG hc (d := .x) (by cases d3 <;> simp [dirs])
    have hy := inner_up_box hg hG hc (d := .y) (by cases d3 <;> simp [dirs])
    exact FP.bind (FP.load ⟨initDom_u hn hc (by decide), fun _ => rfl⟩) fun _ =>
      FP.bind (FP.load ⟨initDom_u hn hx (by decide), fun e => by cases e.2⟩) fun _ =>
      FP.bind (FP.load ⟨initDom_u hn hc (by decide), fun _ => rfl⟩) fun _ =>
      FP.bind (FP.load ⟨initDom_u hn hy (by decide), fun e => by cases e.2⟩) fun _ =>
      FP.bind (FP.load ⟨initDom_u hn hc (by decide), fun _ => rfl⟩) fun _ =>
      FP.bind (FP.load ⟨initDom_u hn hc (by decide), fun _ => rfl⟩) fun _ =>
      FP.bind (FP.load ⟨initDom_u hn hc (by decide), fun _ => rfl⟩) fun _ =>
      FP.store ⟨initDom_u hn hc (by decide), ⟨rfl, rfl⟩, rfl⟩
  · exact FP.ret

theorem otEnergy_exec (c : Cell) (m : Addr → α) : (orszagTangEnergy d3 S P aU c).exec m =
    if c.i < P.isize - 1 ∧ c.j < P.jsize - 1 then
      Function.update m (c.at aU IP) (otEnergy d3 S (fun c v => m (c.at aU v)) c) else m := by
  unfold orszagTangEnergy
  simp only
  by_cases hG : c.i < P.isize - 1 ∧ c.j < P.jsize - 1
  · rw [if_pos hG, if_pos hG]; rfl
  · rw [if_neg hG, if_neg hG]; rfl

theorem loopEnergy_exec (c : Cell) (m : Addr → α) : (fieldLoopEnergy d3 S P aU c).exec m =
    if P.inner d3 c then
      Function.update m (c.at aU IP) (loopEnergy d3 S (fun c v => m (c.at aU v)) c) else m := by
  unfold fieldLoopEnergy loopEnergy
  split_ifs <;> rfl

/-- Loops that read the potential and write the state. -/
theorem pot_loop {body : Cell → K Addr α Unit} {dom : Addr → Prop} {U : Nat}
    {f : (Addr → α) → Cell → List (Nat × α)}
    (hFP : ∀ c, P.box d3 c → (body c).FP (fun a => dom a ∧ (a.arr = U → a.cell = c))
      (fun a => dom a ∧ a.arr = U ∧ a.cell = c) (fun _ => False))
    (hx : ∀ c m, (body c).exec m = (stores U c (f m c)).exec m) (m : Addr → α) :
    ∃ m', (mdrange d3 P body).Yields dom m m' ∧
      (∀ c v, P.box d3 c → m' (c.at U v) = lastOf (f m c) v (m (c.at U v))) ∧
      (∀ a, a.arr ≠ U → m' a = m a) := by
  refine ⟨_, mdrange_yields_of (out := fun a => a.arr = U) hFP m, ?_, ?_⟩
  · intro c v hc
    have hc' : P.box d3 (c.at U v).cell := hc
    simp only [mdEffect]
    rw [if_pos hc']
    have : (c.at U v).cell = c := rfl
    rw [this, hx]
    exact stores_at U c _ m v
  · intro a ha
    simp only [mdEffect]
    split_ifs with hb
    · rw [hx]; exact stores_other U _ _ m ha
    · rfl

theorem fieldLoopInit_exec (c : Cell) (m : Addr → α) {p : FieldLoopParams α} :
    (fieldLoopInit d3 S P D p aU c).exec m =
    (stores aU c (if P.inner d3 c then fieldLoopFlow d3 S P D p c ++
      (if d3 then curlList3 S (fun c n => m (c.at mPot n)) c
        else curlList2 S (fun c n => m (c.at mPot n)) c) else [])).exec m := by
  unfold fieldLoopInit
  have app : ∀ l l' : List (Nat × α), (stores aU c (l ++ l')).exec m =
      (stores aU c l').exec ((stores aU c l).exec m) := by
    intro l l'
    funext a
    simp only [stores_exec, lastOf_append]
    split_ifs <;> rfl
  split_ifs with hi h3
  · rw [exec_bind]
    rw [app, curl_exec3]
    congr 2
  · rw [exec_bind]
    rw [app, curl_exec2]
    congr 2
  · rfl

theorem fieldLoopInit_FP (hg : 3 ≤ P.ghostWidth) (hn : P.nbvar = 8) {p : FieldLoopParams α} {c : Cell}
    (hc : P.box d3 c) : (fieldLoopInit d3 S P D p aU c).FP
      (fun a => mhdInitDom d3 P impl a ∧ (a.arr = aU → a.cell = c))
      (fun a => mhdInitDom d3 P impl a ∧ a.arr = aU ∧ a.cell = c) (fun _ => False) := by
  unfold fieldLoopInit
  by_cases hi : P.inner d3 c
  · rw [if_pos hi]
    refine FP.bind (stores_FP fun q hq => ⟨initDom_u hn hc ?_, rfl, rfl⟩) fun _ => ?_
    · have : Below 8 (fieldLoopFlow d3 S P D p c) := by unfold fieldLoopFlow; below
      exact this q hq
    · cases d3
      · refine curl_FP2 (by decide) (fun v hv => initDom_pot hc hv) (fun v hv => initDom_pot ?_ hv)
          (fun v hv => initDom_pot ?_ hv) (fun v hv => initDom_u hn hc hv)
        · exact inner_up_box hg hi hc (by simp [dirs])
        · exact inner_up_box hg hi hc (by simp [dirs])
      · refine curl_FP3 (by decide) (fun v hv => initDom_pot hc hv)
          (fun d v hv => initDom_pot ?_ hv) (fun v hv => initDom_u hn hc hv)
        exact inner_up_box hg hi hc (by cases d <;> simp [dirs])
  · rw [if_neg hi]; exact FP.ret

/-- The region in which the wave functor sets the field. -/
def Grid.waved (P : Grid) (c : Cell) : Prop :=
  c.i ≥ P.ghostWidth - 1 ∧ c.i < P.isize - P.ghostWidth + 1 ∧
      c.j ≥ P.ghostWidth - 1 ∧ c.j < P.jsize - P.ghostWidth + 1 ∧
      c.k ≥ P.ghostWidth - 1 ∧ c.k < P.ksize - P.ghostWidth + 1

instance (P : Grid) (c : Cell) : Decidable (P.waved c) := by unfold Grid.waved; infer_instance

theorem waveField_FP (hg : 3 ≤ P.ghostWidth) (hn : P.nbvar = 8) {c : Cell} (hc : P.box true c) :
    (waveField S P aU c).FP (fun a => mhdInitDom true P impl a ∧ (a.arr = aU → a.cell = c))
      (fun a => mhdInitDom true P impl a ∧ a.arr = aU ∧ a.cell = c) (fun _ => False) := by
  unfold waveField
  split_ifs with hG
  · refine curl_FP3 (by decide) (fun v hv => initDom_pot hc hv)
      (fun d v hv => initDom_pot ?_ hv) (fun v hv => initDom_u hn hc hv)
    cases d <;> guards <;> omega
  · exact FP.ret

theorem waveField_exec (c : Cell) (m : Addr → α) : (waveField S P aU c).exec m =
    (stores aU c (if P.waved c then curlList3 S (fun c n => m (c.at mPot n)) c else [])).exec m := by
  unfold waveField
  by_cases h : P.waved c
  · rw [if_pos (c := P.waved c) h]
    have h' := h
    unfold Grid.waved at h'
    rw [if_pos h']; exact curl_exec3 c m aU
  · rw [if_neg (c := P.waved c) h]
    have h' := h
    unfold Grid.waved at h'
    rw [if_neg h']; rfl

/-- Values stored by the last loop of the wave functor. -/
def waveList (S : MSettings α) (P : Grid) (D : Domain α) (p : WaveParams α) (c : Cell) :
    List (Nat × α) :=
  let x := xPos S P D c.i
  let y := yPos S P D c.j
  let z := zPos S P D c.k
  let X := p.cos_a2 * (x * p.cos_a3 + y * p.sin_a3) + z * p.sin_a2
  let sn := sin (p.k_par * X)
  let Mx := p.d0 * p.wave_V0 + p.wave_amplitude * sn * p.rev 1
  let My := p.wave_amplitude * sn * p.rev 2
  let Mz := p.wave_amplitude * sn * p.rev 3
  [(ID, p.d0 + p.wave_amplitude * sn * p.rev 0),
   (IU, Mx * p.cos_a2 * p.cos_a3 - My * p.sin_a3 - Mz * p.sin_a2 * p.cos_a3),
   (IV, Mx * p.cos_a2 * p.sin_a3 + My * p.cos_a3 - Mz * p.sin_a2 * p.sin_a3),
   (IW, Mx * p.sin_a2 + Mz * p.cos_a2),
   (IP, p.p0 / (S.gamma0 - lit 1) + lit (1/2) * p.d0 * p.wave_V0 * p.wave_V0 +
      lit (1/2) * (p.bx0 * p.bx0 + p.by0 * p.by0 + p.bz0 * p.bz0) +
      p.wave_amplitude * sn * p.rev 4)]

theorem waveFlow_eq (p : WaveParams α) (c : Cell) : waveFlow S P D p aU c =
    stores aU c (if P.inner true c then waveList S P D p c else []) := by
  unfold waveFlow
  split_ifs <;> rfl

theorem mdrange_nothing (m : Addr → α) {dom : Addr → Prop} :
    (mdrange d3 P fun _ => (.ret () : K Addr α Unit)).Yields dom m m := by
  have y := mdrange_yields_of (d3 := d3) (P := P) (dom := dom) (out := fun _ => True)
    (body := fun _ => (.ret () : K Addr α Unit)) (fun c _ => FP.ret) m
  have e : mdEffect d3 P (fun _ => (.ret () : K Addr α Unit)) m = m := by
    funext a; simp only [mdEffect]; split_ifs <;> rfl
  rwa [e] at y

/-- The loops of every initial condition stay within the arrays, do not race and give the interior
cells the values `initVal`; only the state array and the potential are written. -/
theorem mhd_init (hg : 3 ≤ P.ghostWidth) (hn : P.nbvar = 8) (Q : MhdProblem α) (m : Addr → α) :
    ∃ m0, YieldsAll (mhdInitDom d3 P impl) (mhdInitLoops d3 S P D aU Q) m m0 ∧
      (∀ c v, P.box d3 c → P.inner d3 c → m0 (c.at aU v) = initVal d3 S P D m Q c v) ∧
      (∀ a, a.arr ≠ aU → a.arr ≠ mPot → m0 a = m a) := by
  have one : ∀ f, oneLoop d3 S P D Q = some f →
      (∀ c v, lastOf (f c) v (m (c.at aU v)) = initVal d3 S P D m Q c v) →
      ∃ m0, YieldsAll (mhdInitDom d3 P impl) (mhdInitLoops d3 S P D aU Q) m m0 ∧
      (∀ c v, P.box d3 c → P.inner d3 c → m0 (c.at aU v) = initVal d3 S P D m Q c v) ∧
      (∀ a, a.arr ≠ aU → a.arr ≠ mPot → m0 a = m a) := by
    intro f hf hv
    obtain ⟨m0, y, e, g⟩ := stores_loop (d3 := d3) (P := P) (dom := mhdInitDom d3 P impl) (U := aU)
      (f := f) (fun c hc p hp => initDom_u hn hc (oneLoop_below hf c p hp)) m
    refine ⟨m0, ?_, fun c v hc _ => ?_, fun a ha _ => g a fun h => ha h.1⟩
    · rw [oneLoop_loops hf]; exact .cons y (.nil _)
    · rw [e c v hc, hv]
  cases Q with
  | blast p => exact one _ rfl fun _ _ => rfl
  | implode p => exact one _ rfl fun _ _ => rfl
  | kelvinHelmholtz p rnd => exact one _ rfl fun _ _ => rfl
  | rotor p => exact one _ rfl fun _ _ => rfl
  | orszagTang kt =>
    obtain ⟨m1, y1, e1, g1⟩ := stores_loop (d3 := d3) (P := P) (dom := mhdInitDom d3 P impl)
      (U := aU) (f := fun c => if d3 then orszagTang3 S P D kt c else orszagTang2 S P D c)
      (fun c hc p hp => initDom_u hn hc (by
        have : Below 8 (if d3 then orszagTang3 S P D kt c else orszagTang2 S P D c) := by
          unfold orszagTang3 orszagTang2; below
        exact this p hp)) m
    obtain ⟨m2, y2, e2, g2⟩ := energy_loop (d3 := d3) (P := P) (dom := mhdInitDom d3 P impl)
      (U := aU) (G := fun c => c.i < P.isize - 1 ∧ c.j < P.jsize - 1)
      (e := fun c m => otEnergy d3 S (fun c v => m (c.at aU v)) c)
      (body := fun c => orszagTangEnergy d3 S P aU c)
      (fun c hc => otEnergy_FP hg hn hc) (fun c m => otEnergy_exec c m) m1
    refine ⟨m2, .cons y1 (.cons y2 (.nil _)), ?_, ?_⟩
    · intro c v hc hi
      have hx := inner_up_box hg hi hc (d := .x) (by cases d3 <;> simp [dirs])
      have hy := inner_up_box hg hi hc (d := .y) (by cases d3 <;> simp [dirs])
      simp only [initVal]
      by_cases hv : v = IP
      · subst hv
        rw [if_pos rfl, e2 c hc, if_pos]
        · simp only [otEnergy, e1 c _ hc, e1 _ _ hx, e1 _ _ hy]
        · cases d3 <;> guards <;> omega
      · rw [if_neg hv, g2 _ (fun h => hv h.2), e1 c v hc]
    · intro a h1 h2
      rw [g2 a fun h => h1 h.1, g1 a fun h => h1 h.1]
  | fieldLoop p =>
    obtain ⟨m1, y1, e1, g1⟩ := stores_loop (d3 := d3) (P := P) (dom := mhdInitDom d3 P impl)
      (U := mPot) (f := fun c => fieldLoopPotential d3 S P D p c)
      (fun c hc q hq => initDom_pot hc (by
        have : Below (if d3 then 3 else 1) (fieldLoopPotential d3 S P D p c) := by
          unfold fieldLoopPotential
          cases d3
          · simp only [Bool.false_eq_true, if_false]; below
          · simp only [if_true]; below
        exact this q hq)) m
    obtain ⟨m2, y2, e2, g2⟩ := pot_loop (d3 := d3) (P := P) (dom := mhdInitDom d3 P impl)
      (U := aU) (body := fun c => fieldLoopInit d3 S P D p aU c)
      (f := fun m c => if P.inner d3 c then fieldLoopFlow d3 S P D p c ++
      (if d3 then curlList3 S (fun c n => m (c.at mPot n)) c
        else curlList2 S (fun c n => m (c.at mPot n)) c) else [])
      (fun c hc => fieldLoopInit_FP hg hn hc) (fun c m => fieldLoopInit_exec c m) m1
    obtain ⟨m3, y3, e3, g3⟩ := energy_loop (d3 := d3) (P := P) (dom := mhdInitDom d3 P impl)
      (U := aU) (G := fun c => P.inner d3 c)
      (e := fun c m => loopEnergy d3 S (fun c v => m (c.at aU v)) c)
      (body := fun c => fieldLoopEnergy d3 S P aU c)
      (fun c hc => loopEnergy_FP hg hn hc) (fun c m => loopEnergy_exec c m) m2
    have hU : ∀ c v, m1 (Cell.at c aU v) = m (c.at aU v) := fun c v =>
      g1 _ fun h => absurd h.1 (by simp [Cell.at, aU, mPot])
    have V : ∀ c v, P.box d3 c → m2 (Cell.at c aU v) = if P.inner d3 c then
        lastOf (fieldLoopFlow d3 S P D p c ++
          if d3 then curlList3 S (fun c n => lastOf (fieldLoopPotential d3 S P D p c) n
            (m (c.at mPot n))) c
          else curlList2 S (fun c n => lastOf (fieldLoopPotential d3 S P D p c) n
            (m (c.at mPot n))) c) v (m (c.at aU v)) else m (c.at aU v) := by
      intro c v hc
      rw [e2 c v hc, hU]
      by_cases hi : P.inner d3 c
      · rw [if_pos hi, if_pos hi]
        have hx := inner_up_box hg hi hc (d := .x) (by cases d3 <;> simp [dirs])
        have hy := inner_up_box hg hi hc (d := .y) (by cases d3 <;> simp [dirs])
        cases d3
        · simp only [Bool.false_eq_true, if_false, curlList2, e1 c _ hc, e1 _ _ hx, e1 _ _ hy]
        · have hz := inner_up_box hg hi hc (d := .z) (by simp [dirs])
          simp only [if_true, curlList3, e1 c _ hc, e1 _ _ hx, e1 _ _ hy, e1 _ _ hz]
      · rw [if_neg hi, if_neg hi]; rfl
    refine ⟨m3, .cons y1 (.cons y2 (.cons y3 (.nil _))), ?_, ?_⟩
    · intro c v hc hi
      have hx := inner_up_box hg hi hc (d := .x) (by cases d3 <;> simp [dirs])
      have hy := inner_up_box hg hi hc (d := .y) (by cases d3 <;> simp [dirs])
      simp only [initVal]
      by_cases hv : v = IP
      · subst hv
        rw [if_pos rfl, e3 c hc, if_pos hi]
        cases d3
        · simp only [loopEnergy, Bool.false_eq_true, if_false, V c _ hc, V _ _ hx, V _ _ hy]
        · have hz := inner_up_box hg hi hc (d := .z) (by simp [dirs])
          simp only [loopEnergy, if_true, V c _ hc, V _ _ hx, V _ _ hy, V _ _ hz]
      · rw [if_neg hv, g3 _ (fun h => hv h.2), V c v hc]
    · intro a h1 h2
      rw [g3 a fun h => h1 h.1, g2 a h1, g1 a fun h => h2 h.1]
  | wave p =>
    cases d3
    · refine ⟨m, .cons (mdrange_nothing m) (.nil _), fun c v _ _ => rfl, fun a _ _ => rfl⟩
    · obtain ⟨m1, y1, e1, g1⟩ := stores_loop (d3 := true) (P := P) (dom := mhdInitDom true P impl)
        (U := mPot) (f := fun c => wavePotential S P D p c)
        (fun c hc q hq => initDom_pot hc (by
          have : Below 3 (wavePotential S P D p c) := by unfold wavePotential; below
          exact this q hq)) m
      obtain ⟨m2, y2, e2, g2⟩ := pot_loop (d3 := true) (P := P) (dom := mhdInitDom true P impl)
        (U := aU) (body := fun c => waveField S P aU c)
        (f := fun m c => if P.waved c then curlList3 S (fun c n => m (c.at mPot n)) c else [])
        (fun c hc => waveField_FP hg hn hc) (fun c m => waveField_exec c m) m1
      obtain ⟨m3, y3, e3, g3⟩ := stores_loop (d3 := true) (P := P) (dom := mhdInitDom true P impl)
        (U := aU) (f := fun c => if P.inner true c then waveList S P D p c else [])
        (fun c hc q hq => initDom_u hn hc (by
          have : Below 8 (if P.inner true c then waveList S P D p c else []) := by
            unfold waveList; below
          exact this q hq)) m2
      have hU : ∀ c v, m1 (Cell.at c aU v) = m (c.at aU v) := fun c v =>
        g1 _ fun h => absurd h.1 (by simp [Cell.at, aU, mPot])
      refine ⟨m3, .cons y1 (.cons y2 (.cons ?_ (.nil _))), ?_, ?_⟩
      · have e : (mdrange true P fun c => waveFlow S P D p aU c) = mdrange true P fun c =>
            stores aU c (if P.inner true c then waveList S P D p c else []) :=
          congrArg _ (funext fun c => waveFlow_eq p c)
        rw [e]; exact y3
      · intro c v hc hi
        have hx := inner_up_box hg hi hc (d := .x) (by simp [dirs])
        have hy := inner_up_box hg hi hc (d := .y) (by simp [dirs])
        have hz := inner_up_box hg hi hc (d := .z) (by simp [dirs])
        have hw : P.waved c := by
          unfold Grid.waved; guards; omega
        rw [e3 c v hc, if_pos hi, e2 c v hc, if_pos hw, hU]
        simp only [initVal, if_true]
        by_cases hv : v = IA ∨ v = IB ∨ v = IC
        · rw [if_pos hv]
          have : ∀ x, lastOf (waveList S P D p c) v x = x := by
            intro x
            rcases hv with rfl | rfl | rfl <;> rfl
          rw [this]
          simp only [curlList3, e1 c _ hc, e1 _ _ hx, e1 _ _ hy, e1 _ _ hz]
        · rw [if_neg hv, waveFlow_eq, if_pos hi, stores_at]
          push Not at hv
          congr 1
          simp [curlList3, lastOf, hv.1.symm, hv.2.1.symm, hv.2.2.symm]
      · intro a h1 h2
        rw [g3 a fun h => h1 h.1, g2 a h1, g1 a fun h => h2 h.1]

/-- The whole set-up. -/
theorem mhd_setup {B : Sides} (h : BoxSetup d3 8 3 P B) (Q : MhdProblem α) (m : Addr → α) :
    ∃ m1 m2, YieldsAll (mhdInitDom d3 P impl) (mhdSetup d3 S P D Q) m m2 ∧
      (∀ c v, P.box d3 c → P.inner d3 c → v < 8 → m1 (c.at aU v) = initVal d3 S P D m Q c v) ∧
      (∃ m0, FilledMem d3 true P B aU m0 m1 ∧
        ∀ c v, P.box d3 c → P.inner d3 c → m0 (c.at aU v) = initVal d3 S P D m Q c v) ∧
      (∀ a, a.arr = aU → m2 a = m1 a) ∧
      (∀ c, P.box d3 c → mfield m2 aU2 c = mfield m1 aU c) ∧
      (∀ c, P.box d3 c → P.convertible d3 c → mfield m2 aQ c = primOf d3 S (mfield m1 aU) c) := by
  have hk : MhdBuf d3 P impl aU aU2 := ⟨h.gw, h.nv, Or.inl ⟨rfl, rfl⟩⟩
  obtain ⟨m0, y0, e0, g0⟩ := mhd_init (d3 := d3) (S := S) (D := D) (impl := impl) h.gw h.nv Q m
  obtain ⟨m1, m2, y2, f1, o2, q2, g2⟩ := mhd_prepare (S := S) hk h m0
  refine ⟨m1, m2, YieldsAll.append y0 (y2.mono fun a ha => Or.inl ha), ?_, ⟨m0, f1, e0⟩, ?_, o2, q2⟩
  · intro c v hc hi hv
    rw [f1.interior hc hi (h.nv ▸ hv), e0 c v hc hi]
  · intro a ha
    exact g2 a (by rw [ha]; decide) (by rw [ha]; decide)

end Verif
