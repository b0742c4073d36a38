import Verif.Spec.Config
import Mathlib.Data.List.TakeWhile
import Mathlib.Data.List.Induction

/-! Helper lemmas for parameter files. -/

namespace Verif.Config

open Spec.Config

theorem cstr_id {s : Str} (h : OnLine s) : cstr s = s := by
  unfold cstr
  rw [List.takeWhile_eq_self_iff]
  intro c hc
  simpa using (h c hc).2

theorem rstrip_blank {s : Str} (h : Blank s) : rstrip s = [] := by
  unfold rstrip
  rw [List.reverse_eq_nil_iff, List.dropWhile_eq_nil_iff]
  intro c hc; exact h c (by simpa using hc)

theorem rstrip_mid (p : Str) {c : Char} (q : Str) (hc : isspace c = false) :
    rstrip (p ++ c :: q) = p ++ c :: rstrip q := by
  unfold rstrip
  have : (p ++ c :: q).reverse = q.reverse ++ (c :: p.reverse) := by simp
  rw [this, List.dropWhile_append]
  split
  · rename_i h
    rw [List.isEmpty_iff] at h
    simp [h, hc]
  · simp

theorem rstrip_append_blank (p : Str) {q : Str} (h : Blank q) : rstrip (p ++ q) = rstrip p := by
  unfold rstrip
  rw [List.reverse_append, List.dropWhile_append]
  have : (q.reverse.dropWhile isspace) = [] := by
    rw [List.dropWhile_eq_nil_iff]; intro c hc; exact h c (by simpa using hc)
  rw [this]; simp

theorem rstrip_trimmed {s : Str} (h : Trimmed s) : rstrip s = s := by
  rcases List.eq_nil_or_concat s with rfl | ⟨p, c, rfl⟩
  · rfl
  · have hc : isspace c = false := h c (.inr (by simp))
    rw [List.concat_eq_append, rstrip_mid p [] hc]
    rfl

theorem rstrip_trimmed_append {s : Str} (hs : s ≠ []) (h : Trimmed s) (t : Str) :
    rstrip (s ++ t) = s ++ rstrip t := by
  rcases List.eq_nil_or_concat s with rfl | ⟨p, c, rfl⟩
  · exact absurd rfl hs
  · have hc : isspace c = false := h c (.inr (by simp))
    simp only [List.concat_eq_append, List.append_assoc, List.singleton_append]
    exact rstrip_mid p t hc

theorem lskip_blank_append {w : Str} (h : Blank w) (s : Str) : lskip (w ++ s) = lskip s := by
  unfold lskip
  rw [List.dropWhile_append]
  have : w.dropWhile isspace = [] := by rw [List.dropWhile_eq_nil_iff]; exact h
  rw [this]; simp

theorem lskip_cons {c : Char} (s : Str) (hc : isspace c = false) : lskip (c :: s) = c :: s := by
  simp [lskip, hc]

theorem lskip_trimmed_append {s : Str} (hs : s ≠ []) (h : Trimmed s) (t : Str) :
    lskip (s ++ t) = s ++ t := by
  cases s with
  | nil => exact absurd rfl hs
  | cons c s => exact lskip_cons _ (h c (.inl rfl))

/-- No comment starts inside `s` (`ws`: the character before `s` is white space). -/
def Clean : Bool → Str → Prop
  | _, [] => True
  | ws, x :: s => ¬ (ws = true ∧ x = ';') ∧ Clean (isspace x) s

theorem clean_of {s : Str} (h : ¬ HasComment s) : ∀ ws, (ws = true → s.head? ≠ some ';') → Clean ws s := by
  induction s with
  | nil => intro _ _; trivial
  | cons x s ih =>
    intro ws hws
    refine ⟨fun e => hws e.1 (by simp [e.2]), ih ?_ _ ?_⟩
    · rintro ⟨a, w, b, e, hw⟩
      exact h ⟨x :: a, w, b, by simp [e], hw⟩
    · intro hx e
      cases s with
      | nil => simp at e
      | cons y s =>
        simp only [List.head?_cons, Option.some.injEq] at e
        exact h ⟨[], x, s, by simp [e], hx⟩

theorem clean_false_of {s : Str} (h : ¬ HasComment s) : Clean false s :=
  clean_of h _ (by simp)

/-- Is the last character (or `ws`) white space? -/
def endsWs : Bool → Str → Bool
  | ws, [] => ws
  | _, x :: s => endsWs (isspace x) s

theorem find_clean {c : Char} {a : Str} (ws : Bool) (ha : c ∉ a) (hcl : Clean ws a) (b : Str) :
    findCharOrComment c ws (a ++ b) =
      (a ++ (findCharOrComment c (endsWs ws a) b).1, (findCharOrComment c (endsWs ws a) b).2) := by
  induction a generalizing ws with
  | nil => simp [endsWs]
  | cons x a ih =>
    have hx : x ≠ c := fun e => ha (by simp [e])
    have h1 : ¬ (x == c || (ws && x == ';')) = true := by
      simp only [Bool.or_eq_true, Bool.and_eq_true, beq_iff_eq, not_or]
      exact ⟨hx, hcl.1⟩
    rw [List.cons_append, findCharOrComment, if_neg h1]
    simp only
    rw [ih (isspace x) (fun e => ha (List.mem_cons_of_mem _ e)) hcl.2]
    rfl

theorem find_hit {c : Char} (ws : Bool) (b : Str) :
    findCharOrComment c ws (c :: b) = ([], c :: b) := by
  simp [findCharOrComment]

theorem clean_append_blank {s w : Str} (ws : Bool) (h : Clean ws s) (hw : Blank w) :
    Clean ws (s ++ w) := by
  induction s generalizing ws with
  | nil =>
    simp only [List.nil_append]
    clear h
    induction w generalizing ws with
    | nil => trivial
    | cons x w ih =>
      have hx := hw x (by simp)
      refine ⟨?_, ih (fun c hc => hw c (by simp [hc])) _⟩
      rintro ⟨-, rfl⟩
      simp [isspace] at hx
  | cons x s ih => exact ⟨h.1, ih _ h.2⟩

theorem endsWs_blank {s w : Str} (ws : Bool) (hw : Blank w) (hne : w ≠ []) :
    endsWs ws (s ++ w) = true := by
  induction s generalizing ws with
  | nil =>
    simp only [List.nil_append]
    induction w generalizing ws with
    | nil => exact absurd rfl hne
    | cons x w ih =>
      cases w with
      | nil => simp [endsWs, hw x (by simp)]
      | cons y w => exact ih (fun c hc => hw c (List.mem_cons_of_mem _ hc)) (by simp) (isspace x)
  | cons x s ih => exact ih _

/-! ### The lines of a well-formed file -/

theorem iniLine_blank (st : IniState) {ws : Str} (h : (Item.blank ws).WF) :
    iniLine st (Item.blank ws).render = { st with lineno := st.lineno + 1 } := by
  simp only [iniLine, Item.render, cstr_id h.1, rstrip_blank h.2]
  simp [lskip]

theorem iniLine_comment (st : IniState) {m : Char} {t : Str} (h : (Item.comment m t).WF) :
    iniLine st (Item.comment m t).render = { st with lineno := st.lineno + 1 } := by
  obtain ⟨hm, ht⟩ := h
  have hs : isspace m = false := by rcases hm with rfl | rfl <;> decide
  have hon : OnLine (m :: t) := by
    intro c hc
    rcases List.mem_cons.1 hc with rfl | hc
    · rcases hm with rfl | rfl <;> decide
    · exact ht c hc
  have e : rstrip (m :: t) = m :: rstrip t := rstrip_mid [] t hs
  simp only [iniLine, Item.render, cstr_id hon, e, lskip_cons _ hs]
  simp [hm]

theorem _root_.Verif.Spec.Config.OnLine.append {s t : Str} (h : OnLine s) (h' : OnLine t) : OnLine (s ++ t) := by
  intro c hc
  rcases List.mem_append.1 hc with hc | hc
  · exact h c hc
  · exact h' c hc

theorem _root_.Verif.Spec.Config.OnLine.cons {c : Char} {t : Str} (h : c ≠ '\n' ∧ c ≠ '\x00') (h' : OnLine t) :
    OnLine (c :: t) := by
  intro x hx
  rcases List.mem_cons.1 hx with rfl | hx
  · exact h
  · exact h' x hx

theorem iniLine_sect (st : IniState) {n r : Str} (h : (Item.sect n r).WF) :
    iniLine st (Item.sect n r).render =
      { st with lineno := st.lineno + 1, section_ := n, prevName := [] } := by
  obtain ⟨h1, h2, h3, h4, -, h5⟩ := h
  have hon : OnLine ('[' :: n ++ ']' :: r) :=
    OnLine.append (OnLine.cons (by decide) h1) (OnLine.cons (by decide) h2)
  have e : rstrip ('[' :: n ++ ']' :: r) = '[' :: n ++ ']' :: rstrip r :=
    rstrip_mid _ _ (by decide)
  have e2 : lskip ('[' :: n ++ ']' :: rstrip r) = '[' :: n ++ ']' :: rstrip r :=
    lskip_cons _ (by decide)
  simp only [iniLine, Item.render, cstr_id hon, e, e2]
  have hf := find_clean false h3 (clean_false_of h4) (']' :: rstrip r)
  rw [find_hit] at hf
  have ht : strncpy0 n MAX_SECTION = n := by
    unfold strncpy0 MAX_SECTION; exact List.take_of_length_le (by omega)
  simp [hf, ht]

theorem value_of {w2 v t : Str} (hw2 : Blank w2) (hv : Trimmed v) (hvc : ¬ HasComment v)
    (hon : OnLine v) 
    (ht : Blank t ∨ (v ≠ [] ∧ ∃ w text, t = w ++ ';' :: text ∧ w ≠ [] ∧ Blank w)) :
    rstrip (findCharOrComment '\x00' false (lskip (rstrip (w2 ++ v ++ t)))).1 = v := by
  have hnul : '\x00' ∉ v := fun e => (hon _ e).2 rfl
  by_cases hne : v = []
  · subst hne
    rcases ht with ht | ⟨h, -⟩
    · have : Blank (w2 ++ [] ++ t) := by
        intro c hc
        simp only [List.append_nil] at hc
        rcases List.mem_append.1 hc with hc | hc
        · exact hw2 c hc
        · exact ht c hc
      rw [rstrip_blank this]; rfl
    · exact absurd rfl h
  · have e1 : rstrip (w2 ++ v ++ t) = w2 ++ (v ++ rstrip t) := by
      rcases List.eq_nil_or_concat v with rfl | ⟨p, c, rfl⟩
      · exact absurd rfl hne
      · have hc : isspace c = false := hv c (.inr (by simp))
        simp only [List.concat_eq_append, List.append_assoc, List.singleton_append]
        rw [← List.append_assoc, rstrip_mid _ _ hc]
        simp
    rw [e1, lskip_blank_append hw2, lskip_trimmed_append hne hv]
    rcases ht with ht | ⟨-, w, text, rfl, hwne, hw⟩
    · rw [rstrip_blank ht, find_clean false hnul (clean_false_of hvc)]
      simp [findCharOrComment, rstrip_trimmed hv]
    · have e2 : rstrip (w ++ ';' :: text) = w ++ ';' :: rstrip text := rstrip_mid _ _ (by decide)
      have hnul2 : '\x00' ∉ v ++ w := by
        intro e
        rcases List.mem_append.1 e with e | e
        · exact hnul e
        · have := hw _ e; revert this; decide
      rw [e2, ← List.append_assoc, find_clean false hnul2
        (clean_append_blank _ (clean_false_of hvc) hw), endsWs_blank _ hw hwne]
      have : findCharOrComment '\x00' true (';' :: rstrip text) = ([], ';' :: rstrip text) := by
        simp [findCharOrComment]
      rw [this]
      simp only [List.append_nil]
      rw [rstrip_append_blank _ hw, rstrip_trimmed hv]

theorem iniLine_assign (st : IniState) {n w1 w2 v t : Str} (h : (Item.assign n w1 w2 v t).WF) :
    iniLine st (Item.assign n w1 w2 v t).render =
      { st with
        lineno := st.lineno + 1, prevName := n, values := setString st.values st.section_ n v } := by
  obtain ⟨o1, o2, o3, o4, o5, hne, htr, heq, hnc, hlen, h1, h2, h3, hb1, hb2, hv, hvc, ht⟩ := h
  have hon : OnLine (n ++ w1 ++ '=' :: (w2 ++ v ++ t)) :=
    (o1.append o2).append (OnLine.cons (by decide) ((o3.append o4).append o5))
  have e : rstrip (n ++ w1 ++ '=' :: (w2 ++ v ++ t)) = n ++ w1 ++ '=' :: rstrip (w2 ++ v ++ t) :=
    rstrip_mid _ _ (by decide)
  have e2 : lskip (n ++ w1 ++ '=' :: rstrip (w2 ++ v ++ t)) =
      n ++ w1 ++ '=' :: rstrip (w2 ++ v ++ t) := by
    rw [List.append_assoc]; exact lskip_trimmed_append hne htr _
  simp only [iniLine, Item.render, cstr_id hon, e, e2]
  rw [if_neg (by simp)]
  have heq' : '=' ∉ n ++ w1 := by
    intro e
    rcases List.mem_append.1 e with e | e
    · exact heq e
    · have := hb1 _ e; revert this; decide
  have hf := find_clean false heq' (clean_append_blank _ (clean_false_of hnc) hb1)
    ('=' :: rstrip (w2 ++ v ++ t))
  rw [find_hit] at hf
  have hrs : rstrip (n ++ w1) = n := by rw [rstrip_append_blank _ hb1, rstrip_trimmed htr]
  have htk : strncpy0 n MAX_NAME = n := by
    unfold strncpy0 MAX_NAME; exact List.take_of_length_le (by omega)
  have hval := value_of hb2 hv hvc o4 ht
  cases n with
  | nil => exact absurd rfl hne
  | cons c n =>
    simp only [List.head?_cons, ne_eq, Option.some.injEq] at h1 h2 h3
    simp only [List.cons_append] at hf hrs ⊢
    rw [if_neg (by simp [h1, h2]), if_neg h3, hf]
    simp only [List.append_nil]
    rw [hrs, htk, hval]

theorem iniLine_cont (st : IniState) {i v t : Str} (h : (Item.cont i v t).WF)
    (hp : st.prevName ≠ []) :
    iniLine st (Item.cont i v t).render =
      { st with
        lineno := st.lineno + 1, values := setString st.values st.section_ st.prevName v } := by
  obtain ⟨o1, o2, o3, hi, hbi, hne, htr, hbt⟩ := h
  have hon : OnLine (i ++ v ++ t) := (o1.append o2).append o3
  have e : rstrip (i ++ v ++ t) = i ++ v := by
    rw [rstrip_append_blank _ hbt]
    rcases List.eq_nil_or_concat v with rfl | ⟨p, c, rfl⟩
    · exact absurd rfl hne
    · have hc : isspace c = false := htr c (.inr (by simp))
      simp only [List.concat_eq_append]
      rw [← List.append_assoc, rstrip_mid _ [] hc]
      rfl
  have e2 : lskip (i ++ v) = v := by
    rw [lskip_blank_append hbi]
    have := lskip_trimmed_append hne htr []
    simpa using this
  have hil : 0 < i.length := List.length_pos_iff.2 hi
  simp only [iniLine, Item.render, cstr_id hon, e, e2]
  rw [if_pos ⟨hp, hne, by simp; omega⟩]

/-! ### Splitting into lines -/

theorem getlines_go (acc l : Str) (s : Str) (h : '\n' ∉ l) :
    getlines.go acc (l ++ '\n' :: s) = (acc.reverse ++ l) :: getlines.go [] s := by
  induction l generalizing acc with
  | nil => simp [getlines.go]
  | cons c l ih =>
    have hc : c ≠ '\n' := fun e => h (by simp [e])
    rw [List.cons_append, getlines.go, if_neg hc, ih _ (fun e => h (List.mem_cons_of_mem _ e))]
    simp

theorem getlines_join (ls : List Str) (h : ∀ l ∈ ls, '\n' ∉ l) :
    getlines ((ls.map (· ++ ['\n'])).flatten) = ls := by
  unfold getlines
  induction ls with
  | nil => rfl
  | cons l ls ih =>
    have := getlines_go [] l ((ls.map (· ++ ['\n'])).flatten) (h l (by simp))
    simp only [List.map_cons, List.flatten_cons, List.append_assoc, List.singleton_append]
    rw [this, ih (fun x hx => h x (by simp [hx]))]
    simp

theorem item_onLine {x : Item} (h : x.WF) : '\n' ∉ x.render := by
  intro e
  have key : ∀ s : Str, OnLine s → '\n' ∉ s := fun s hs e => (hs _ e).1 rfl
  cases x with
  | blank ws => exact key _ h.1 e
  | comment m t =>
    rcases List.mem_cons.1 e with e | e
    · rcases h.1 with h | h <;> · rw [h] at e; exact absurd e (by decide)
    · exact key _ h.2 e
  | sect n r =>
    obtain ⟨h1, h2, -⟩ := h
    exact key _ (OnLine.append (OnLine.cons (by decide) h1) (OnLine.cons (by decide) h2)) e
  | assign n w1 w2 v t =>
    obtain ⟨o1, o2, o3, o4, o5, -⟩ := h
    exact key _ ((o1.append o2).append (OnLine.cons (by decide) ((o3.append o4).append o5))) e
  | cont i v t =>
    obtain ⟨o1, o2, o3, -⟩ := h
    exact key _ ((o1.append o2).append o3) e

theorem wf_item {o : Bool} {items : List Item} (h : Spec.Config.WF o items) :
    ∀ x ∈ items, x.WF := by
  induction items generalizing o with
  | nil => simp
  | cons y l ih =>
    intro x hx
    cases y <;> (simp only [Spec.Config.WF] at h) <;>
      (rcases List.mem_cons.1 hx with rfl | hx)
    · exact h.1
    · exact ih h.2 x hx
    · exact h.1
    · exact ih h.2 x hx
    · exact h.1
    · exact ih h.2 x hx
    · exact h.1
    · exact ih h.2 x hx
    · exact h.2.1
    · exact ih h.2.2 x hx

/-- Apply a list of assignments. -/
def applyAll (v : Values) (l : List (Str × Str × Str)) : Values :=
  l.foldl (fun v x => setString v x.1 x.2.1 x.2.2) v

theorem parse_items (items : List Item) (st : IniState) (prev : Option Str)
    (hprev : st.prevName = prev.getD []) (hp : ∀ n, prev = some n → n ≠ [])
    (h : Spec.Config.WF prev.isSome items) :
    ((items.map Item.render).foldl iniLine st).values =
      applyAll st.values (meaning st.section_ prev items) ∧
    ((items.map Item.render).foldl iniLine st).error = st.error ∧
    ((items.map Item.render).foldl iniLine st).lineno = st.lineno + items.length := by
  induction items generalizing st prev with
  | nil => exact ⟨rfl, rfl, rfl⟩
  | cons x l ih =>
    simp only [List.map_cons, List.foldl_cons, List.length_cons]
    cases x with
    | blank ws =>
      rw [iniLine_blank st h.1]
      obtain ⟨a, b, c⟩ := ih { st with lineno := st.lineno + 1 } prev hprev hp h.2
      exact ⟨a, b, by rw [c]; simp only; omega⟩
    | comment m t =>
      rw [iniLine_comment st h.1]
      obtain ⟨a, b, c⟩ := ih { st with lineno := st.lineno + 1 } prev hprev hp h.2
      exact ⟨a, b, by rw [c]; simp only; omega⟩
    | sect n r =>
      rw [iniLine_sect st h.1]
      obtain ⟨a, b, c⟩ := ih { st with lineno := st.lineno + 1, section_ := n, prevName := [] } none
        rfl (by simp) h.2
      exact ⟨a, b, by rw [c]; simp only; omega⟩
    | assign n w1 w2 v t =>
      rw [iniLine_assign st h.1]
      obtain ⟨a, b, c⟩ := ih { st with lineno := st.lineno + 1, prevName := n, values := setString st.values st.section_ n v }
        (some n) rfl (by rintro _ ⟨⟩; exact h.1.2.2.2.2.2.1) h.2
      exact ⟨a, b, by rw [c]; simp only; omega⟩
    | cont i v t =>
      obtain ⟨ho, hx, hl⟩ := h
      obtain ⟨n, rfl⟩ := Option.isSome_iff_exists.1 ho
      have hpn : st.prevName = n := hprev
      rw [iniLine_cont st hx (by rw [hpn]; exact hp n rfl)]
      obtain ⟨a, b, c⟩ := ih { st with lineno := st.lineno + 1, values := setString st.values st.section_ st.prevName v }
        (some n) hprev hp hl
      refine ⟨?_, b, by rw [c]; simp only; omega⟩
      rw [a, hpn]; rfl

/-! ### Keys -/

theorem tolower_dot (c : Char) : tolower c = '.' ↔ c = '.' := by
  unfold tolower
  split
  · rename_i h
    constructor
    · intro e
      have h1 : 65 ≤ c.toNat := h.1
      have h2 : c.toNat ≤ 90 := h.2
      have hv : (c.toNat + 32).isValidChar := by left; omega
      have := congrArg Char.toNat e
      have hn : (Char.ofNat (c.toNat + 32)).toNat = c.toNat + 32 := by
        rw [Char.ofNat, dif_pos hv]; rfl
      rw [hn] at this
      have h3 : '.'.toNat = 46 := rfl
      omega
    · rintro rfl; exact absurd h.1 (by decide)
  · rfl

theorem map_split {s t n m : Str} (hs : '.' ∉ s) (ht : '.' ∉ t)
    (h : (s ++ '.' :: n).map tolower = (t ++ '.' :: m).map tolower) :
    s.map tolower = t.map tolower ∧ n.map tolower = m.map tolower := by
  induction s generalizing t with
  | nil =>
    cases t with
    | nil => simpa using h
    | cons c t =>
      simp only [List.nil_append, List.map_cons, List.cons_append, List.cons.injEq] at h
      have : tolower c = '.' := h.1.symm.trans (by decide)
      rw [tolower_dot] at this
      exact absurd (by simp [this]) ht
  | cons c s ih =>
    cases t with
    | nil =>
      simp only [List.nil_append, List.map_cons, List.cons_append, List.cons.injEq] at h
      have : tolower c = '.' := h.1.trans (by decide)
      rw [tolower_dot] at this
      exact absurd (by simp [this]) hs
    | cons d t =>
      simp only [List.map_cons, List.cons_append, List.cons.injEq] at h
      obtain ⟨a, b⟩ := ih (fun e => hs (List.mem_cons_of_mem _ e))
        (fun e => ht (List.mem_cons_of_mem _ e)) h.2
      exact ⟨by simp [h.1, a], b⟩

theorem makeKey_iff {s t n m : Str} (hs : '.' ∉ s) (ht : '.' ∉ t) :
    makeKey s n = makeKey t m ↔ SameCI s t ∧ SameCI n m := by
  constructor
  · exact map_split hs ht
  · rintro ⟨h1, h2⟩
    unfold SameCI at h1 h2
    simp [makeKey, h1, h2]

theorem applyAll_get (l : List (Str × Str × Str)) (v : Values) (sec name : Str)
    (hl : ∀ x ∈ l, '.' ∉ x.1) (hs : '.' ∉ sec) :
    applyAll v l (makeKey sec name) =
      (match lastValue l sec name with
        | some x => some x
        | none => v (makeKey sec name)) := by
  induction l using List.reverseRecOn with
  | nil => rfl
  | append_singleton l x ih =>
    have hx := makeKey_iff (n := x.2.1) (m := name) (hl x (by simp)) hs
    unfold applyAll at ih ⊢
    rw [List.foldl_append]
    simp only [List.foldl_cons, List.foldl_nil]
    rw [setString, lastValue, List.filter_append]
    by_cases h : SameCI x.1 sec ∧ SameCI x.2.1 name
    · rw [hx.2 h, Function.update_self]
      simp [h]
    · rw [Function.update_of_ne (fun e => h (hx.1 e.symm)),
        ih (fun y hy => hl y (by simp [hy]))]
      simp [h, lastValue]

/-! ### Serial and buffer parser -/

theorem cstr_snoc (l : Str) : cstr (l ++ ['\n']) = cstr l ∨ cstr (l ++ ['\n']) = cstr l ++ ['\n'] := by
  unfold cstr
  rw [List.takeWhile_append]
  split
  · right
    rename_i h
    rw [(List.takeWhile_prefix _).eq_of_length h]
    rfl
  · left; rfl

theorem iniLine_newline (st : IniState) (l : Str) : iniLine st (l ++ ['\n']) = iniLine st l := by
  have : rstrip (cstr (l ++ ['\n'])) = rstrip (cstr l) := by
    rcases cstr_snoc l with h | h
    · rw [h]
    · rw [h, rstrip_append_blank]
      intro c hc; simp at hc; subst hc; decide
  simp only [iniLine, this]

theorem getlines_long (acc s : Str) (h : acc ≠ []) :
    ∃ l ∈ getlines.go acc s, acc.length ≤ l.length := by
  induction s generalizing acc with
  | nil => exact ⟨acc.reverse, by simp [getlines.go, h], by simp⟩
  | cons c s ih =>
    rw [getlines.go]
    split
    · exact ⟨acc.reverse, by simp, by simp⟩
    · obtain ⟨l, hl, h2⟩ := ih (c :: acc) (by simp)
      exact ⟨l, hl, by simp at h2; omega⟩

theorem fgets_go (s acc : Str) (st : IniState) (hacc : acc.length < MAX_LINE - 1)
    (h : ∀ l ∈ getlines.go acc s, l.length < MAX_LINE - 1) :
    (fgetsLines.go acc.length acc s).foldl iniLine st = (getlines.go acc s).foldl iniLine st := by
  induction s generalizing acc st with
  | nil => rfl
  | cons c s ih =>
    rw [fgetsLines.go, getlines.go]
    by_cases hc : c = '\n'
    · rw [if_pos (.inl hc), if_pos hc]
      simp only [List.foldl_cons]
      have e : iniLine st (c :: acc).reverse = iniLine st acc.reverse := by
        rw [List.reverse_cons, hc, iniLine_newline]
      rw [e]
      refine ih [] _ (by decide) ?_
      intro l hl
      exact h l (by rw [getlines.go, if_pos hc]; exact List.mem_cons_of_mem _ hl)
    · have h' : ∀ l ∈ getlines.go (c :: acc) s, l.length < MAX_LINE - 1 := by
        intro l hl; exact h l (by rw [getlines.go, if_neg hc]; exact hl)
      obtain ⟨l, hl, h2⟩ := getlines_long (c :: acc) s (by simp)
      have h3 := h' l hl
      have h4 : (c :: acc).length < MAX_LINE - 1 := by omega
      rw [if_neg (by rintro (h | h); exact hc h; simp at h4; omega), if_neg hc]
      exact ih (c :: acc) st h4 h'

/-! ### Malformed lines -/

theorem trim_eq (s : Str) : trim s = lskip (rstrip s) := rfl

theorem lskip_length (s : Str) : (lskip s).length ≤ s.length := by
  unfold lskip
  exact (List.dropWhile_sublist _).length_le

theorem lskip_eq_or (s : Str) :
    (lskip s).length < s.length ↔ ∃ c, s.head? = some c ∧ isspace c = true := by
  cases s with
  | nil => simp [lskip]
  | cons c s =>
    by_cases hc : isspace c = true
    · have : lskip (c :: s) = lskip s := by simp [lskip, hc]
      rw [this]
      have := lskip_length s
      simp [hc]; omega
    · have : lskip (c :: s) = c :: s := by simp [lskip, hc]
      simp [this, hc]

theorem rstrip_head (s : Str) (h : rstrip s ≠ []) : (rstrip s).head? = s.head? := by
  induction s using List.reverseRecOn with
  | nil => rfl
  | append_singleton s x ih =>
    by_cases hx : isspace x = true
    · have e : rstrip (s ++ [x]) = rstrip s := rstrip_append_blank _ (by
        intro c hc; simp at hc; subst hc; exact hx)
      rw [e] at h ⊢
      rw [ih h]
      cases s with
      | nil => exact absurd rfl h
      | cons => rfl
    · have e : rstrip (s ++ [x]) = s ++ [x] := by
        rw [rstrip_mid s [] (by simpa using hx)]; rfl
      rw [e]

theorem indented_iff (s : Str) :
    Indented s ↔ (lskip (rstrip s) ≠ [] ∧ (lskip (rstrip s)).length < (rstrip s).length) := by
  unfold Indented
  rw [trim_eq, lskip_eq_or]
  by_cases h : lskip (rstrip s) = []
  · simp [h]
  · have hr : rstrip s ≠ [] := by
      intro e; rw [e] at h; exact h rfl
    rw [rstrip_head s hr]

theorem clean_not (ws : Bool) (s : Str) (h : Clean ws s) : ¬ HasComment s := by
  induction s generalizing ws with
  | nil => rintro ⟨a, w, b, e, -⟩; simp at e
  | cons x s ih =>
    rintro ⟨a, w, b, e, hw⟩
    cases a with
    | nil =>
      simp only [List.nil_append, List.cons.injEq] at e
      obtain ⟨rfl, rfl⟩ := e
      exact h.2.1 ⟨hw, rfl⟩
    | cons y a =>
      simp only [List.cons_append, List.cons.injEq] at e
      exact ih _ h.2 ⟨a, w, b, e.2, hw⟩

theorem find_spec (c : Char) (ws : Bool) (s : Str) :
    s = (findCharOrComment c ws s).1 ++ (findCharOrComment c ws s).2 ∧
    c ∉ (findCharOrComment c ws s).1 ∧ Clean ws (findCharOrComment c ws s).1 := by
  induction s generalizing ws with
  | nil => simp [findCharOrComment, Clean]
  | cons x s ih =>
    rw [findCharOrComment]
    split
    · exact ⟨rfl, by simp, trivial⟩
    · rename_i h
      simp only [Bool.or_eq_true, Bool.and_eq_true, beq_iff_eq, not_or] at h
      obtain ⟨a, b, d⟩ := ih (isspace x)
      refine ⟨by simp only [List.cons_append]; rw [← a], ?_, h.2, d⟩
      simp only [List.mem_cons, not_or]
      exact ⟨fun e => h.1 e.symm, b⟩

theorem find_iff (c : Char) (s : Str) :
    (∃ t, (findCharOrComment c false s).2 = c :: t) ↔ OccursBeforeComment c s := by
  constructor
  · rintro ⟨t, ht⟩
    obtain ⟨a, b, d⟩ := find_spec c false s
    rw [ht] at a
    exact ⟨_, t, a, b, clean_not _ _ d⟩
  · rintro ⟨a, b, rfl, h1, h2⟩
    rw [find_clean false h1 (clean_false_of h2), find_hit]
    exact ⟨b, rfl⟩

/-- What a malformed line does. -/
theorem iniLine_malformed (st : IniState) (raw : Str)
    (h : Malformed (st.prevName ≠ []) (cstr raw)) :
    iniLine st raw = IniState.fail { st with lineno := st.lineno + 1 } := by
  obtain ⟨h1, c, rest, hs, hc1, hc2, h2⟩ := h
  rw [indented_iff] at h1
  rw [trim_eq] at hs
  simp only [iniLine]
  rw [if_neg (by rintro ⟨a, b, d⟩; exact h1 ⟨a, b, d⟩), hs]
  simp only
  rw [if_neg (by simp [hc1, hc2])]
  rcases h2 with ⟨rfl, h2⟩ | ⟨hb, h2⟩
  · rw [if_pos rfl]
    split
    · rename_i t ht; exact absurd ((find_iff _ _).1 ⟨_, ht⟩) h2
    · rfl
  · rw [if_neg hb]
    split
    · rename_i t ht; exact absurd ((find_iff _ _).1 ⟨_, ht⟩) h2
    · rfl

theorem rstrip_ne_nil {c : Char} (s : Str) (hc : isspace c = false) : rstrip (c :: s) ≠ [] := by
  have := rstrip_mid [] s hc
  rw [List.nil_append] at this
  rw [this]; simp

theorem lskip_head {s rest : Str} {c : Char} (h : lskip s = c :: rest) : isspace c = false := by
  unfold lskip at h
  have := List.head_dropWhile_not (p := isspace) (l := s) (by rw [h]; simp)
  simpa [h] using this

/-- What any other line does to line number, error and `prevName`. -/
theorem iniLine_wellformed (st : IniState) (raw : Str)
    (h : ¬ Malformed (st.prevName ≠ []) (cstr raw)) :
    (iniLine st raw).error = st.error := by
  unfold Malformed at h
  rw [indented_iff, trim_eq] at h
  simp only [iniLine]
  split
  · rfl
  · rename_i hi
    split
    · rfl
    · rename_i c rest hs
      split
      · rfl
      · rename_i hcm
        push Not at hcm
        by_cases hb : c = '['
        · subst hb
          rw [if_pos rfl]
          have ho : OccursBeforeComment ']' rest := by
            by_contra hno
            exact h ⟨fun x => hi ⟨x.1, x.2.1, x.2.2⟩, _, _, hs, hcm.1, hcm.2, .inl ⟨rfl, hno⟩⟩
          obtain ⟨t, ht⟩ := (find_iff _ _).2 ho
          rw [ht]; rfl
        · rw [if_neg hb]
          have ho : OccursBeforeComment '=' (c :: rest) := by
            by_contra hno
            exact h ⟨fun x => hi ⟨x.1, x.2.1, x.2.2⟩, _, _, hs, hcm.1, hcm.2, .inr ⟨hb, hno⟩⟩
          obtain ⟨t, ht⟩ := (find_iff _ _).2 ho
          simp only [hs, ht]

theorem iniLine_lineno (st : IniState) (raw : Str) : (iniLine st raw).lineno = st.lineno + 1 := by
  simp only [iniLine]
  split
  · rfl
  · split
    · rfl
    · split
      · rfl
      · split
        · split <;> rfl
        · split <;> rfl

theorem iniLine_cont_after (st : IniState) (raw : Str) :
    (iniLine st raw).prevName ≠ [] ↔ ContAfter (st.prevName ≠ []) (cstr raw) := by
  unfold ContAfter
  rw [indented_iff, trim_eq]
  simp only [iniLine]
  split
  · rename_i hi
    exact iff_of_true hi.1 (.inl ⟨hi.1, hi.2.1, hi.2.2⟩)
  · rename_i hi
    have hi' : ¬ (st.prevName ≠ [] ∧ lskip (rstrip (cstr raw)) ≠ [] ∧
      (lskip (rstrip (cstr raw))).length < (rstrip (cstr raw)).length) := hi
    simp only [hi', false_or, not_false_eq_true, true_and]
    split
    · rename_i hs
      simp [hs]
    · rename_i c rest hs
      rw [hs]
      simp only [List.cons.injEq]
      split
      · rename_i hcm
        constructor
        · intro hp
          refine .inr ⟨hp, ?_, ?_⟩
          · rintro r ⟨rfl, rfl⟩; simp at hcm
          · rintro r; rintro ⟨⟩; simp at hcm
        · rintro (⟨c', r', ⟨rfl, rfl⟩, h1, h2, -⟩ | ⟨h, -⟩)
          · exact absurd hcm (by simp [h1, h2])
          · exact h
      · rename_i hcm
        push Not at hcm
        by_cases hb : c = '['
        · subst hb
          rw [if_pos rfl]
          by_cases ho : OccursBeforeComment ']' rest
          · obtain ⟨t, ht⟩ := (find_iff _ _).2 ho
            rw [ht]
            simp only [ne_eq, not_true_eq_false, false_iff, not_or]
            refine ⟨?_, ?_⟩
            · rintro ⟨c', r', ⟨rfl, rfl⟩, -, -, h, -⟩; exact h rfl
            · rintro ⟨-, h, -⟩; exact h rest (by simp) ho
          · split
            · rename_i t ht; exact absurd ((find_iff _ _).1 ⟨_, ht⟩) ho
            · constructor
              · intro hp
                refine .inr ⟨hp, ?_, ?_⟩
                · rintro r ⟨-, rfl⟩; exact ho
                · rintro r; rintro ⟨⟩
              · rintro (⟨c', r', ⟨rfl, rfl⟩, -, -, h, -⟩ | ⟨h, -⟩)
                · exact absurd rfl h
                · exact h
        · rw [if_neg hb]
          by_cases ho : OccursBeforeComment '=' (c :: rest)
          · obtain ⟨t, ht⟩ := (find_iff _ _).2 ho
            rw [ht]
            simp only
            obtain ⟨f1, f2, f3⟩ := find_spec '=' false (c :: rest)
            rw [ht] at f1
            by_cases he : c = '='
            · subst he
              have : (findCharOrComment '=' false ('=' :: rest)).1 = [] := by
                rw [find_hit]
              rw [this]
              simp [rstrip, strncpy0]
            · have hne : strncpy0 (rstrip (findCharOrComment '=' false (c :: rest)).1) MAX_NAME ≠ []
                  := by
                generalize (findCharOrComment '=' false (c :: rest)).1 = a at f1
                cases a with
                | nil => simp at f1; exact absurd f1.1 he
                | cons x a =>
                  simp only [List.cons_append, List.cons.injEq] at f1
                  have hx : isspace x = false := f1.1 ▸ lskip_head hs
                  have := rstrip_ne_nil a hx
                  cases h : rstrip (x :: a) with
                  | nil => exact absurd h this
                  | cons y b => simp [strncpy0, MAX_NAME]
              exact iff_of_true hne (.inl ⟨c, rest, ⟨rfl, rfl⟩, hcm.1, hcm.2, hb, he, ho⟩)
          · split
            · rename_i t ht; exact absurd ((find_iff _ _).1 ⟨_, ht⟩) ho
            · have he : c ≠ '=' := by
                rintro rfl
                exact ho ⟨[], rest, rfl, by simp, by rintro ⟨a, w, b, e, -⟩; simp at e⟩
              constructor
              · intro hp
                refine .inr ⟨hp, ?_, ?_⟩
                · rintro r ⟨h, -⟩; exact absurd h hb
                · rintro r h; simp only [List.cons.injEq] at h; exact absurd h.1 he
              · rintro (⟨c', r', ⟨rfl, rfl⟩, -, -, -, -, h⟩ | ⟨h, -⟩)
                · exact absurd h ho
                · exact h

theorem contOpen_fold (ls : List Str) (v : Values) :
    ((ls.foldl iniLine (.init v)).prevName ≠ []) = ContOpen (ls.map cstr) := by
  unfold ContOpen
  have : ∀ (st : IniState) (P : Prop), (st.prevName ≠ []) = P →
      ((ls.foldl iniLine st).prevName ≠ []) = (ls.map cstr).foldl ContAfter P := by
    induction ls with
    | nil => intro st P h; exact h
    | cons l ls ih =>
      intro st P h
      simp only [List.foldl_cons, List.map_cons]
      refine ih _ _ ?_
      rw [← h]
      exact propext (iniLine_cont_after st l)
  exact this _ _ (by simp [IniState.init])

theorem fold_lineno (ls : List Str) (st : IniState) :
    (ls.foldl iniLine st).lineno = st.lineno + ls.length := by
  induction ls generalizing st with
  | nil => rfl
  | cons l ls ih => rw [List.foldl_cons, ih, iniLine_lineno, List.length_cons]; omega

/-- Two states that differ only in error and line number keep doing so. -/
theorem fold_ignores (ls : List Str) (a b : IniState) (h1 : a.section_ = b.section_)
    (h2 : a.prevName = b.prevName) (h3 : a.values = b.values) :
    (ls.foldl iniLine a).values = (ls.foldl iniLine b).values := by
  induction ls generalizing a b with
  | nil => exact h3
  | cons l ls ih =>
    simp only [List.foldl_cons]
    have key : (iniLine a l).section_ = (iniLine b l).section_ ∧
        (iniLine a l).prevName = (iniLine b l).prevName ∧
        (iniLine a l).values = (iniLine b l).values := by
      simp only [iniLine, h1, h2, h3]
      split
      · exact ⟨rfl, rfl, rfl⟩
      · split
        · exact ⟨rfl, rfl, rfl⟩
        · split
          · exact ⟨rfl, rfl, rfl⟩
          · split
            · split <;> exact ⟨rfl, rfl, rfl⟩
            · split <;> exact ⟨rfl, rfl, rfl⟩
    exact ih _ _ key.1 key.2.1 key.2.2

/-! ### Integers -/

theorem digitVal_dec (d : Nat) (hd : d < 10) :
    digitVal 10 (Char.ofNat ('0'.toNat + d)) = some d := by
  have : d = 0 ∨ d = 1 ∨ d = 2 ∨ d = 3 ∨ d = 4 ∨ d = 5 ∨ d = 6 ∨ d = 7 ∨ d = 8 ∨ d = 9 := by omega
  rcases this with rfl | rfl | rfl | rfl | rfl | rfl | rfl | rfl | rfl | rfl <;> decide

theorem digits_append (b acc : Nat) (s : Str) (d : Nat) (c : Char) (hc : digitVal b c = some d)
    (hs : ∀ x ∈ s, (digitVal b x).isSome) :
    digits b acc (s ++ [c]) = digits b acc s * b + d := by
  induction s generalizing acc with
  | nil => simp [digits, hc]
  | cons x s ih =>
    obtain ⟨e, he⟩ := Option.isSome_iff_exists.1 (hs x (by simp))
    simp only [List.cons_append, digits, he]
    exact ih _ (fun y hy => hs y (by simp [hy]))

theorem decimal_spec (n : Nat) :
    digits 10 0 (decimal n) = n ∧ (∀ x ∈ decimal n, (digitVal 10 x).isSome) ∧
    (n ≠ 0 → ∃ d, 0 < d ∧ d < 10 ∧ (decimal n).head? = some (Char.ofNat ('0'.toNat + d))) := by
  induction n using Nat.strong_induction_on with
  | _ n ih =>
    rw [decimal]
    split
    · rename_i h
      have e := digitVal_dec n h
      refine ⟨by simp only [digits]; rw [e]; simp, ?_, fun h0 => ⟨n, by omega, h, rfl⟩⟩
      intro x hx
      simp only [List.mem_singleton] at hx; rw [hx, e]; rfl
    · rename_i h
      obtain ⟨a, b, c⟩ := ih (n / 10) (by omega)
      have e := digitVal_dec (n % 10) (by omega)
      refine ⟨?_, ?_, ?_⟩
      · rw [digits_append 10 0 _ _ _ e b, a]; omega
      · intro x hx
        rcases List.mem_append.1 hx with hx | hx
        · exact b x hx
        · simp only [List.mem_singleton] at hx; rw [hx, e]; rfl
      · intro _
        obtain ⟨d, h1, h2, h3⟩ := c (by omega)
        refine ⟨d, h1, h2, ?_⟩
        cases hd : decimal (n / 10) with
        | nil => rw [hd] at h3; simp at h3
        | cons x l => rw [hd] at h3; simpa using h3

theorem strtolMag_decimal (m : Nat) :
    ∃ c s, decimal m = c :: s ∧ isspace c = false ∧ c ≠ '-' ∧ c ≠ '+' ∧
      strtolMag (c :: s) = some m := by
  obtain ⟨a, b, hh⟩ := decimal_spec m
  by_cases h0 : m = 0
  · subst h0
    exact ⟨'0', [], by rw [decimal]; rfl, by decide, by decide, by decide, by decide⟩
  · obtain ⟨d, hd, hd', e⟩ := hh h0
    cases hm : decimal m with
    | nil => rw [hm] at e; simp at e
    | cons c s =>
      rw [hm] at e a b
      simp only [List.head?_cons, Option.some.injEq] at e
      have hz : isspace c = false ∧ c ≠ '-' ∧ c ≠ '+' ∧ c ≠ '0' := by
        have : d = 1 ∨ d = 2 ∨ d = 3 ∨ d = 4 ∨ d = 5 ∨ d = 6 ∨ d = 7 ∨ d = 8 ∨ d = 9 := by omega
        subst e
        rcases this with rfl | rfl | rfl | rfl | rfl | rfl | rfl | rfl | rfl <;> decide
      refine ⟨c, s, rfl, hz.1, hz.2.1, hz.2.2.1, ?_⟩
      have hs := b c (by simp)
      unfold strtolMag
      split
      · rename_i he; simp only [List.cons.injEq] at he; exact absurd he.1 hz.2.2.2
      · rename_i he; simp only [List.cons.injEq] at he; exact absurd he.1 hz.2.2.2
      · rename_i he; simp only [List.cons.injEq] at he; rw [← he.1, if_pos hs, a]
      · rename_i he; simp at he

theorem strtol0_showLong (n : Int) (h1 : LONG_MIN ≤ n) (h2 : n ≤ LONG_MAX) :
    strtol0 (showLong n) = some n := by
  obtain ⟨c, s, e, hsp, hm, hp, hr⟩ := strtolMag_decimal n.natAbs
  unfold strtol0 showLong
  by_cases hn : n < 0
  · rw [if_pos hn, e]
    have : lskip ('-' :: c :: s) = '-' :: c :: s := lskip_cons _ (by decide)
    rw [this]
    simp only [strtolSign, hr, if_true, Option.some.injEq]
    omega
  · rw [if_neg hn, e, lskip_cons _ hsp]
    have : strtolSign (c :: s) = (false, c :: s) := by
      unfold strtolSign
      split
      · rename_i he; simp only [List.cons.injEq] at he; exact absurd he.1 hm
      · rename_i he; simp only [List.cons.injEq] at he; exact absurd he.1 hp
      · rfl
    rw [this]
    simp only [hr, Option.some.injEq]
    simp
    omega

end Verif.Config
