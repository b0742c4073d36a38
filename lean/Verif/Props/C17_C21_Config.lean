import Verif.Lemmas.Config
import Mathlib.Tactic.NormNum

/-!
# C17–C21, C53: parameter files

The specification (`Verif.Spec.Config`) describes files as lists of lines (`Item`), their text (`render`) and
the assignments they make (`meaning`).
-/

namespace Verif

open Config Spec.Config

theorem meaning_dots {items : List Item} {sec : Str} {prev : Option Str} (o : Bool) (hs : '.' ∉ sec)
    (h : Spec.Config.WF o items) : ∀ x ∈ meaning sec prev items, '.' ∉ x.1 := by
  induction items generalizing sec prev o with
  | nil => simp [meaning]
  | cons x l ih =>
    cases x with
    | blank ws => exact ih o hs h.2
    | comment m t => exact ih o hs h.2
    | sect n r => exact ih false h.1.2.2.2.2.1 h.2
    | assign n w1 w2 v t =>
      intro y hy
      rcases List.mem_cons.1 hy with rfl | hy
      · exact hs
      · exact ih true hs h.2 y hy
    | cont i v t =>
      cases prev with
      | none => exact ih o hs h.2.2
      | some p =>
        intro y hy
        rcases List.mem_cons.1 hy with rfl | hy
        · exact hs
        · exact ih o hs h.2.2 y hy

/-- **C17**: for every well-formed parameter file, looking up `(sec, name)` – in any letter case – gives the
value of the last assignment to it in the file, and the default if there is none; no error is reported.
(The sections of the file and the section asked for contain no dot: see C19.) -/
theorem C17_last_assignment_wins (items : List Item) (h : Spec.Config.WF false items)
    (sec name dflt : Str) (hs : '.' ∉ sec) :
    getString (iniParseBuffer (render items)).values sec name dflt =
      (lastValue (meaning [] none items) sec name).getD dflt ∧
    (iniParseBuffer (render items)).error = 0 := by
  have hl : getlines (render items) = items.map Item.render := by
    have := getlines_join (items.map Item.render) (by
      intro l hl
      obtain ⟨x, hx, rfl⟩ := List.mem_map.1 hl
      exact item_onLine (wf_item h x hx))
    rw [List.map_map] at this
    exact this
  obtain ⟨a, b, -⟩ := parse_items items (.init fun _ => none) none rfl (by simp) h
  unfold iniParseBuffer
  rw [hl]
  refine ⟨?_, b⟩
  unfold getString
  rw [a, applyAll_get _ _ _ _ (meaning_dots false (by simp [IniState.init]) h) hs]
  have e : (IniState.init fun _ => none).section_ = [] := rfl
  rw [e]
  cases lastValue (meaning [] none items) sec name <;> rfl

/-- **C17** for the file reader used without MPI, when all lines are short (see C21). -/
theorem C17_last_assignment_wins_serial (items : List Item) (h : Spec.Config.WF false items)
    (hshort : ∀ x ∈ items, x.render.length < 199)
    (sec name dflt : Str) (hs : '.' ∉ sec) :
    getString (iniParseFile (render items)).values sec name dflt =
      (lastValue (meaning [] none items) sec name).getD dflt ∧
    (iniParseFile (render items)).error = 0 := by
  have hl : getlines (render items) = items.map Item.render := by
    have := getlines_join (items.map Item.render) (by
      intro l hl
      obtain ⟨x, hx, rfl⟩ := List.mem_map.1 hl
      exact item_onLine (wf_item h x hx))
    rw [List.map_map] at this
    exact this
  have e : iniParseFile (render items) = iniParseBuffer (render items) := by
    refine fgets_go (render items) [] _ (by decide) ?_
    intro l hl'
    have : l ∈ getlines (render items) := hl'
    rw [hl] at this
    obtain ⟨x, hx, rfl⟩ := List.mem_map.1 this
    exact hshort x hx
  rw [e]
  exact C17_last_assignment_wins items h sec name dflt hs

/-- A file with a comment, two sections, a repeated key in another letter case, a continuation line. -/
private def exItems : List Item :=
  [.comment '#' " test".toList,
   .sect "mesh".toList [],
   .assign "nx".toList " ".toList " ".toList "16".toList " ; cells".toList,
   .blank " ".toList,
   .sect "Run".toList " ; run".toList,
   .assign "tEnd".toList [] [] "1.0".toList [],
   .assign "NX".toList [] [] "7".toList [],
   .sect "MESH".toList [],
   .assign "Nx".toList [] [] "32".toList [],
   .cont "  ".toList "64".toList []]

private def onLineB (s : Str) : Bool := s.all fun c => c != '\n' && c != '\x00'
private theorem onLine_of {s : Str} (h : onLineB s = true) : OnLine s := by
  intro c hc
  simpa [onLineB] using List.all_eq_true.1 h c hc
private theorem blank_of {s : Str} (h : s.all isspace = true) : Blank s :=
  fun c hc => List.all_eq_true.1 h c hc
private theorem trimmed_of {s : Str}
    (h : (s.head?.toList ++ s.getLast?.toList).all (fun c => !isspace c) = true) : Trimmed s := by
  intro c hc
  have := List.all_eq_true.1 h c (by
    rcases hc with hc | hc <;> simp [hc])
  simpa using this
private theorem noComment_of {s : Str} (h : ';' ∉ s) : ¬ HasComment s := by
  rintro ⟨a, w, b, rfl, -⟩
  exact h (by simp)

private theorem exItems_wf : Spec.Config.WF false exItems := by
  refine ⟨⟨.inr rfl, onLine_of (by decide)⟩, ?_⟩
  refine ⟨⟨onLine_of (by decide), onLine_of (by decide), by decide, noComment_of (by decide),
    by decide, by decide⟩, ?_⟩
  refine ⟨⟨onLine_of (by decide), onLine_of (by decide), onLine_of (by decide),
    onLine_of (by decide), onLine_of (by decide), by decide, trimmed_of (by decide), by decide,
    noComment_of (by decide), by decide, by decide, by decide, by decide, blank_of (by decide),
    blank_of (by decide), trimmed_of (by decide), noComment_of (by decide),
    .inr ⟨by decide, [' '], " cells".toList, by decide, by decide, blank_of (by decide)⟩⟩, ?_⟩
  refine ⟨⟨onLine_of (by decide), blank_of (by decide)⟩, ?_⟩
  refine ⟨⟨onLine_of (by decide), onLine_of (by decide), by decide, noComment_of (by decide),
    by decide, by decide⟩, ?_⟩
  refine ⟨⟨onLine_of (by decide), onLine_of (by decide), onLine_of (by decide),
    onLine_of (by decide), onLine_of (by decide), by decide, trimmed_of (by decide), by decide,
    noComment_of (by decide), by decide, by decide, by decide, by decide, blank_of (by decide),
    blank_of (by decide), trimmed_of (by decide), noComment_of (by decide),
    .inl (blank_of (by decide))⟩, ?_⟩
  refine ⟨⟨onLine_of (by decide), onLine_of (by decide), onLine_of (by decide),
    onLine_of (by decide), onLine_of (by decide), by decide, trimmed_of (by decide), by decide,
    noComment_of (by decide), by decide, by decide, by decide, by decide, blank_of (by decide),
    blank_of (by decide), trimmed_of (by decide), noComment_of (by decide),
    .inl (blank_of (by decide))⟩, ?_⟩
  refine ⟨⟨onLine_of (by decide), onLine_of (by decide), by decide, noComment_of (by decide),
    by decide, by decide⟩, ?_⟩
  refine ⟨⟨onLine_of (by decide), onLine_of (by decide), onLine_of (by decide),
    onLine_of (by decide), onLine_of (by decide), by decide, trimmed_of (by decide), by decide,
    noComment_of (by decide), by decide, by decide, by decide, by decide, blank_of (by decide),
    blank_of (by decide), trimmed_of (by decide), noComment_of (by decide),
    .inl (blank_of (by decide))⟩, ?_⟩
  exact ⟨rfl, ⟨onLine_of (by decide), onLine_of (by decide), onLine_of (by decide), by decide,
    blank_of (by decide), by decide, trimmed_of (by decide), blank_of (by decide)⟩, trivial⟩

example : Spec.Config.WF false exItems ∧
    lastValue (meaning [] none exItems) "mesh".toList "nx".toList = some "64".toList ∧
    lastValue (meaning [] none exItems) "run".toList "nx".toList = some "7".toList ∧
    lastValue (meaning [] none exItems) "run".toList "ny".toList = none :=
  ⟨exItems_wf, by decide, by decide, by decide⟩

/-- **C18** (strings): set then get, in any letter case of section and name; and a set leaves every other key
as it was. -/
theorem C18_set_get_string (v : Values) (s n x d s' n' : Str) :
    (SameCI s s' → SameCI n n' → getString (setString v s n x) s' n' d = x) ∧
    ('.' ∉ s → '.' ∉ s' → ¬ (SameCI s s' ∧ SameCI n n') →
      getString (setString v s n x) s' n' d = getString v s' n' d) := by
  constructor
  · intro h1 h2
    have e : makeKey s' n' = makeKey s n := by
      unfold SameCI at h1 h2
      simp [makeKey, h1, h2]
    simp [getString, setString, e]
  · intro h1 h2 h
    have e : makeKey s' n' ≠ makeKey s n := fun e => h ((makeKey_iff h1 h2).1 e.symm)
    simp [getString, setString, Function.update_of_ne e]

/-- **C18** (booleans and integers): set then get returns the value, for both booleans and for every value of
a 64-bit integer, whatever was stored before and whatever the default. -/
theorem C18_set_get_typed (v : Values) (s n s' n' : Str) (h1 : SameCI s s') (h2 : SameCI n n') :
    (∀ b d, getBool (setBool v s n b) s' n' d = b) ∧
    (∀ i d : Int, -(2 ^ 63) ≤ i → i < 2 ^ 63 → getInteger (setInteger v s n i) s' n' d = i) := by
  constructor
  · intro b d
    unfold getBool setBool
    rw [(C18_set_get_string v s n _ [] s' n').1 h1 h2]
    cases b <;> rfl
  · intro i d l u
    unfold getInteger setInteger
    rw [(C18_set_get_string v s n _ [] s' n').1 h1 h2, strtol0_showLong i l (by unfold LONG_MAX; omega)]
    rfl

/-- **C18** (spellings): the value of a boolean parameter is `true` for 1/yes/true/on, `false` for
0/no/false/off (exactly these, lower case), the default for any other text or if it is missing. -/
theorem C18_bool_spellings (v : Values) (s n : Str) (d : Bool) :
    getBool v s n d =
      (if getString v s n [] ∈ ["1".toList, "yes".toList, "true".toList, "on".toList] then true
       else if getString v s n [] ∈ ["0".toList, "no".toList, "false".toList, "off".toList] then false
       else d) := by
  unfold getBool
  generalize getString v s n [] = x
  simp only [List.mem_cons, List.not_mem_nil, or_false]
  by_cases h0 : x = []
  · subst h0; rfl
  · rw [if_neg h0]
    by_cases h1 : x = "0".toList ∨ x = "no".toList ∨ x = "false".toList ∨ x = "off".toList
    · rw [if_pos h1]
      rcases h1 with rfl | rfl | rfl | rfl <;> rfl
    · rw [if_neg h1, if_neg h1]

example : SameCI "Mesh".toList "mESH".toList ∧
    getInteger (setInteger (fun _ => none) "Mesh".toList "nx".toList (-42)) "mesh".toList "NX".toList 5
      = -42 := by
  refine ⟨by decide, ?_⟩
  exact (C18_set_get_typed _ "Mesh".toList "nx".toList "mesh".toList "NX".toList
    (by decide) (by decide)).2 _ _ (by norm_num) (by norm_num)

/-- **C19**: two keys denote the same parameter (setting one changes what the other returns) exactly when their
lower-cased `section.name` texts agree; for sections without a dot, exactly when sections and names agree up
to letter case. -/
theorem C19_key_aliasing (s n s' n' : Str) :
    ((∀ v x d, getString (setString v s n x) s' n' d = x) ↔
      (s ++ ".".toList ++ n).map tolower = (s' ++ ".".toList ++ n').map tolower) ∧
    ('.' ∉ s → '.' ∉ s' →
      ((∀ v x d, getString (setString v s n x) s' n' d = x) ↔ SameCI s s' ∧ SameCI n n')) := by
  have key : (∀ v x d, getString (setString v s n x) s' n' d = x) ↔ makeKey s n = makeKey s' n' := by
    constructor
    · intro h
      by_contra hc
      have := h (fun _ => none) ['a'] []
      simp [getString, setString, Function.update_of_ne (Ne.symm hc)] at this
    · intro h v x d
      simp [getString, setString, h]
  refine ⟨?_, fun h1 h2 => key.trans (makeKey_iff h1 h2)⟩
  rw [key]
  simp [makeKey]

/-- **C19**, dots: `[a.b] c` and `[a] b.c` are the same parameter although the pairs differ. -/
theorem C19_dot_alias (v : Values) (x d : Str) :
    getString (setString v "a.b".toList "c".toList x) "a".toList "b.c".toList d = x ∧
    ¬ (SameCI "a.b".toList "a".toList ∧ SameCI "c".toList "b.c".toList) := by
  refine ⟨?_, by decide⟩
  exact (C19_key_aliasing _ _ _ _).1.2 (by decide) v x d

/-- A section line of any length: the section becomes the first 49 characters of the name. -/
theorem iniLine_sect_any (st : IniState) {n : Str} (h1 : OnLine n) (h3 : ']' ∉ n)
    (h4 : ¬ HasComment n) :
    iniLine st ('[' :: n ++ [']']) =
      { st with lineno := st.lineno + 1, section_ := n.take 49, prevName := [] } := by
  have hon : OnLine ('[' :: n ++ [']']) :=
    OnLine.append (OnLine.cons (by decide) h1) (OnLine.cons (by decide) (by intro c hc; cases hc))
  have e : rstrip ('[' :: n ++ [']']) = '[' :: n ++ ']' :: rstrip [] := rstrip_mid _ _ (by decide)
  have e2 : lskip ('[' :: n ++ ']' :: rstrip []) = '[' :: n ++ ']' :: rstrip [] :=
    lskip_cons _ (by decide)
  simp only [iniLine, cstr_id hon, e, e2]
  have hf := find_clean false h3 (clean_false_of h4) (']' :: rstrip [])
  rw [find_hit] at hf
  simp [hf, strncpy0, MAX_SECTION]

/-- **C19** (finding): only the first 49 characters of a section name count.  A parameter set in a section
with a longer name is found under the shortened name, not under the name written in the file. -/
theorem C19_long_section (n k v d : Str) (h1 : OnLine n) (h3 : ']' ∉ n) (h4 : ¬ HasComment n)
    (hdot : '.' ∉ n) (ha : (Item.assign k [] [] v []).WF) :
    let parsed := [('[' :: n ++ [']']), k ++ '=' :: v].foldl iniLine (.init fun _ => none)
    getString parsed.values (n.take 49) k d = v ∧
    (50 ≤ n.length → getString parsed.values n k d = d) := by
  have hs := iniLine_sect_any (.init fun _ => none) h1 h3 h4
  have hk := iniLine_assign (iniLine (.init fun _ => none) ('[' :: n ++ [']'])) ha
  simp only [Item.render, List.append_nil, List.nil_append] at hk
  simp only [List.foldl_cons, List.foldl_nil]
  rw [hk, hs]
  refine ⟨(C18_set_get_string _ _ _ _ _ _ _).1 rfl rfl, fun hl => ?_⟩
  rw [(C18_set_get_string _ _ _ _ _ _ _).2 (fun h => hdot (List.mem_of_mem_take h)) hdot]
  · rfl
  · rintro ⟨h, -⟩
    have := congrArg List.length h
    simp at this
    omega

/-- Non-vacuity: a section name of 60 characters. -/
example : OnLine (List.replicate 60 'a') ∧ ']' ∉ List.replicate 60 'a' ∧
    '.' ∉ List.replicate 60 'a' ∧ 50 ≤ (List.replicate 60 'a').length := by
  refine ⟨fun c hc => ?_, by decide, by decide, by decide⟩
  rw [List.eq_of_mem_replicate hc]; decide

/-- **C20**: parsing any text ends; it reports 0 exactly when no line is malformed, otherwise the number of the
first malformed line.  (`getlines` splits the text at line ends; a NUL ends a line early.) -/
theorem C20_first_bad_line (text : Str) :
    ((iniParseBuffer text).error = 0 ↔ ∀ k, ¬ BadLine (getlines text) k) ∧
    ((iniParseBuffer text).error ≠ 0 →
      ∃ k, (iniParseBuffer text).error = k + 1 ∧ BadLine (getlines text) k ∧
        ∀ j < k, ¬ BadLine (getlines text) j) := by
  unfold iniParseBuffer
  generalize getlines text = ls
  have main : ∀ ls : List Str,
      ((∀ k, ¬ BadLine ls k) → (ls.foldl iniLine (.init fun _ => none)).error = 0) ∧
      (∀ k, BadLine ls k → (∀ j < k, ¬ BadLine ls j) →
        (ls.foldl iniLine (.init fun _ => none)).error = k + 1) := by
    intro ls
    induction ls using List.reverseRecOn with
    | nil => exact ⟨fun _ => rfl, fun k h => by obtain ⟨l, h, -⟩ := h; simp at h⟩
    | append_singleton ls l ih =>
      have hlow : ∀ k, k < ls.length → (BadLine (ls ++ [l]) k ↔ BadLine ls k) := by
        intro k hk
        unfold BadLine
        rw [List.take_append_of_le_length (by omega), List.getElem?_append_left hk]
      have hln := fold_lineno ls (.init fun _ => none)
      have hst := contOpen_fold ls (fun _ => none)
      have e : (ls ++ [l]).foldl iniLine (.init fun _ => none) =
          iniLine (ls.foldl iniLine (.init fun _ => none)) l := by
        rw [List.foldl_append]; rfl
      rw [e]
      generalize ls.foldl iniLine (.init fun _ => none) = st at *
      have hlast : BadLine (ls ++ [l]) ls.length ↔ Malformed (st.prevName ≠ []) (cstr l) := by
        unfold BadLine
        rw [List.take_append_of_le_length le_rfl, List.take_length, hst]
        simp only [List.getElem?_concat_length, Option.some.injEq, exists_eq_left']
        rfl
      have hno : (∀ j < ls.length, ¬ BadLine (ls ++ [l]) j) → ∀ k, ¬ BadLine ls k := by
        intro h k hk
        by_cases hkl : k < ls.length
        · exact h k hkl ((hlow k hkl).2 hk)
        · obtain ⟨x, hx, -⟩ := hk
          rw [List.getElem?_eq_none (by omega)] at hx
          exact absurd hx (by simp)
      constructor
      · intro h
        have h1 := ih.1 (hno fun j _ => h j)
        have h2 := h ls.length
        rw [hlast] at h2
        rw [iniLine_wellformed _ _ h2, h1]
      · intro k hbad hbefore
        by_cases hkl : k < ls.length
        · have h1 := ih.2 k ((hlow k hkl).1 hbad) (by
            intro j hj hb
            exact hbefore j hj ((hlow j (by omega)).2 hb))
          by_cases hm : Malformed (st.prevName ≠ []) (cstr l)
          · rw [iniLine_malformed _ _ hm]
            simp [IniState.fail, h1]
          · rw [iniLine_wellformed _ _ hm, h1]
        · have hkl : k = ls.length := by
            obtain ⟨x, hx, -⟩ := hbad
            by_contra hne
            rw [List.getElem?_eq_none (by simp; omega)] at hx
            exact absurd hx (by simp)
          subst hkl
          have h1 := ih.1 (hno hbefore)
          rw [hlast] at hbad
          rw [iniLine_malformed _ _ hbad]
          simp [IniState.fail, h1, hln, IniState.init]
  obtain ⟨m1, m2⟩ := main ls
  have first : (¬ ∀ k, ¬ BadLine ls k) → ∃ k, BadLine ls k ∧ ∀ j < k, ¬ BadLine ls j := by
    classical
    intro hn
    push Not at hn
    exact ⟨Nat.find hn, Nat.find_spec hn, fun j hj hm => Nat.find_min hn hj hm⟩
  refine ⟨⟨fun h0 => ?_, m1⟩, fun h0 => ?_⟩
  · by_contra hn
    obtain ⟨k, h1, h2⟩ := first hn
    rw [m2 k h1 h2] at h0
    omega
  · obtain ⟨k, h1, h2⟩ := first (fun h => h0 (m1 h))
    exact ⟨k, m2 k h1 h2, h1, h2⟩

/-- **C20**, second half: a malformed line changes nothing else; the configuration is the one of the file
with that line left empty. -/
theorem C20_bad_lines_ignored (before after : List Str) (bad : Str)
    (hb : ∀ l ∈ before, '\n' ∉ l) (ha : ∀ l ∈ after, '\n' ∉ l) (hbad : '\n' ∉ bad)
    (h : BadLine (before ++ bad :: after) before.length) :
    (iniParseBuffer (((before ++ bad :: after).map (· ++ ['\n'])).flatten)).values =
    (iniParseBuffer (((before ++ [] :: after).map (· ++ ['\n'])).flatten)).values := by
  have h : Malformed (ContOpen (before.map cstr)) (cstr bad) := by
    obtain ⟨l, hl, h⟩ := h
    rw [List.take_append_of_le_length le_rfl, List.take_length] at h
    simp at hl
    subst hl
    exact h
  unfold iniParseBuffer
  rw [getlines_join, getlines_join]
  · rw [List.foldl_append, List.foldl_append, List.foldl_cons, List.foldl_cons]
    have hst := contOpen_fold before (fun _ => none)
    generalize before.foldl iniLine (.init fun _ => none) = st at *
    rw [← hst] at h
    apply fold_ignores <;>
      · rw [iniLine_malformed _ _ h]
        simp [iniLine, cstr, rstrip, lskip, IniState.fail]
  · intro l hl
    rcases List.mem_append.1 hl with hl | hl
    · exact hb l hl
    · rcases List.mem_cons.1 hl with rfl | hl
      · simp
      · exact ha l hl
  · intro l hl
    rcases List.mem_append.1 hl with hl | hl
    · exact hb l hl
    · rcases List.mem_cons.1 hl with rfl | hl
      · exact hbad
      · exact ha l hl

/-- Malformed lines exist: no `=`, and no `]`. -/
example : BadLine ["hello".toList, "[mesh".toList] 0 ∧ BadLine ["a=1".toList, "[mesh".toList] 1 := by
  have occ : ∀ (c : Char) (s : Str), c ∉ s → ¬ OccursBeforeComment c s := by
    rintro c s h ⟨a, b, rfl, -⟩; exact h (by simp)
  constructor
  · refine ⟨_, rfl, fun h => h.1, 'h', "ello".toList, by decide, by decide, by decide,
      .inr ⟨by decide, occ _ _ (by decide)⟩⟩
  · refine ⟨_, rfl, fun h => ?_, '[', "mesh".toList, by decide, by decide, by decide,
      .inl ⟨rfl, occ _ _ (by decide)⟩⟩
    obtain ⟨-, -, c, h1, h2⟩ := h
    have : c = '[' := by
      have e : ("[mesh".toList.takeWhile (· != '\x00')).head? = some '[' := by decide
      exact Option.some.inj (h1.symm.trans e)
    subst this
    exact absurd h2 (by decide)

example : (iniParseBuffer "[run]\nhello\n[mesh\nnx=1\n".toList).error = 2 ∧
    getString (iniParseBuffer "[run]\nhello\n[mesh\nnx=1\n".toList).values "run".toList "nx".toList []
      = "1".toList := by decide

/-- **C21**: for every text all of whose lines have fewer than 199 characters both parsers do exactly the same
(same configuration, same error). -/
theorem C21_parsers_agree (text : Str) (h : ∀ l ∈ getlines text, l.length < 199) :
    iniParseFile text = iniParseBuffer text :=
  fgets_go text [] _ (by decide) h

private theorem fgets_prefix (p s : Str) (n : Nat) (acc : Str) (hp : '\n' ∉ p) (hne : p ≠ [])
    (hn : n + p.length = MAX_LINE - 1) :
    fgetsLines.go n acc (p ++ s) = (acc.reverse ++ p) :: fgetsLines.go 0 [] s := by
  induction p generalizing n acc with
  | nil => exact absurd rfl hne
  | cons c p ih =>
    have hc : c ≠ '\n' := fun e => hp (by simp [e])
    rw [List.cons_append, fgetsLines.go]
    simp only [List.length_cons] at hn
    cases p with
    | nil =>
      rw [if_pos (.inr (by simpa using hn))]
      simp
    | cons d p =>
      simp only [List.length_cons] at hn ih
      rw [if_neg (by rintro (h | h); exact hc h; omega),
        ih (n + 1) (c :: acc) (fun e => hp (List.mem_cons_of_mem _ e)) (by simp) (by omega)]
      simp

private theorem fgets_xs (s acc : Str) (n : Nat) (hs : ∀ c ∈ s, c = 'x') (ha : ∀ c ∈ acc, c = 'x') :
    ∀ l ∈ fgetsLines.go n acc s, l ≠ [] ∧ ∀ c ∈ l, c = 'x' := by
  induction s generalizing n acc with
  | nil =>
    intro l hl
    rw [fgetsLines.go] at hl
    split at hl
    · simp at hl
    · simp only [List.mem_singleton] at hl
      subst hl
      exact ⟨by simpa using ‹¬ acc = []›, fun c hc => ha c (by simpa using hc)⟩
  | cons c s ih =>
    have hc : c = 'x' := hs c (by simp)
    have hs' : ∀ c ∈ s, c = 'x' := fun d hd => hs d (by simp [hd])
    have hca : ∀ d ∈ c :: acc, d = 'x' := by
      intro d hd
      rcases List.mem_cons.1 hd with rfl | hd
      · exact hc
      · exact ha d hd
    intro l hl
    rw [fgetsLines.go] at hl
    split at hl
    · rcases List.mem_cons.1 hl with rfl | hl
      · exact ⟨by simp, fun d hd => hca d (by simpa [or_comm] using hd)⟩
      · exact ih [] 0 hs' (by simp) l hl
    · exact ih (c :: acc) (n + 1) hs' hca l hl

private theorem xs_ignored (ls : List Str) (st : IniState)
    (h : ∀ l ∈ ls, l ≠ [] ∧ ∀ c ∈ l, c = 'x') : (ls.foldl iniLine st).values = st.values := by
  induction ls generalizing st with
  | nil => rfl
  | cons l ls ih =>
    rw [List.foldl_cons, ih _ (fun x hx => h x (by simp [hx]))]
    obtain ⟨hne, hx⟩ := h l (by simp)
    have hon : OnLine l := fun c hc => by rw [hx c hc]; decide
    have htr : Trimmed l := by
      intro c hc
      have : c = 'x' := by
        rcases hc with hc | hc
        · exact hx c (List.mem_of_mem_head? hc)
        · exact hx c (List.mem_of_mem_getLast? hc)
      rw [this]; decide
    cases l with
    | nil => exact absurd rfl hne
    | cons c l =>
      have hc : c = 'x' := hx c (by simp)
      have hlt : lskip (c :: l) = c :: l := lskip_cons _ (by rw [hc]; decide)
      rw [iniLine_malformed]
      · rfl
      · rw [cstr_id hon]
        refine ⟨?_, c, l, by rw [trim_eq, rstrip_trimmed htr, hlt], by rw [hc]; decide,
          by rw [hc]; decide, .inr ⟨by rw [hc]; decide, ?_⟩⟩
        · rintro ⟨-, hi⟩
          rw [indented_iff, rstrip_trimmed htr, hlt] at hi
          omega
        · rintro ⟨a, b, e, -⟩
          have := hx '=' (by rw [e]; simp)
          exact absurd this (by decide)

private theorem assign_xs (k : Nat) (st : IniState) (hs : st.section_ = []) :
    getString (iniLine st ("a=".toList ++ List.replicate k 'x')).values [] "a".toList [] =
      List.replicate k 'x' := by
  have hx : ∀ c ∈ List.replicate k 'x', c = 'x' := fun c hc => (List.mem_replicate.1 hc).2
  have hwf : (Item.assign "a".toList [] [] (List.replicate k 'x') []).WF := by
    refine ⟨onLine_of (by decide), onLine_of (by decide), onLine_of (by decide),
      fun c hc => by rw [hx c hc]; decide, onLine_of (by decide), by decide, trimmed_of (by decide),
      by decide, noComment_of (by decide), by decide, by decide, by decide, by decide,
      blank_of (by decide), blank_of (by decide), ?_, noComment_of ?_, .inl (blank_of (by decide))⟩
    · intro c hc
      have : c = 'x' := by
        rcases hc with hc | hc
        · exact hx c (List.mem_of_mem_head? hc)
        · exact hx c (List.mem_of_mem_getLast? hc)
      rw [this]; decide
    · intro h; exact absurd (hx _ h) (by decide)
  have e : "a=".toList ++ List.replicate k 'x' =
      (Item.assign "a".toList [] [] (List.replicate k 'x') []).render := by
    simp [Item.render]
  rw [e, iniLine_assign st hwf, hs]
  simp [getString, setString]

/-- **C21**, the limit: for the one-line file `a=xxx…` with `m ≥ 198` characters `x` the file reader keeps only the first 199 characters, the buffer reader the whole value. -/
theorem C21_parsers_differ (m : Nat) (hm : 198 ≤ m) :
    getString (iniParseFile ("a=".toList ++ List.replicate m 'x')).values [] "a".toList [] =
      List.replicate 197 'x' ∧
    getString (iniParseBuffer ("a=".toList ++ List.replicate m 'x')).values [] "a".toList [] =
      List.replicate m 'x' := by
  have hnl : ∀ k, '\n' ∉ "a=".toList ++ List.replicate k 'x' := by
    intro k h
    rcases List.mem_append.1 h with h | h
    · exact absurd h (by decide)
    · exact absurd (List.mem_replicate.1 h).2 (by decide)
  constructor
  · have e : "a=".toList ++ List.replicate m 'x' =
        ("a=".toList ++ List.replicate 197 'x') ++ List.replicate (m - 197) 'x' := by
      rw [List.append_assoc, List.replicate_append_replicate]
      rw [show 197 + (m - 197) = m by omega]
    unfold iniParseFile fgetsLines
    rw [e, fgets_prefix _ _ 0 [] (hnl 197) (by simp)
      (by rw [List.length_append, List.length_replicate]; rfl)]
    simp only [List.foldl_cons, List.reverse_nil, List.nil_append]
    have := xs_ignored (fgetsLines.go 0 [] (List.replicate (m - 197) 'x'))
      (iniLine (.init fun _ => none) ("a=".toList ++ List.replicate 197 'x'))
      (fgets_xs _ _ _ (fun c hc => (List.mem_replicate.1 hc).2) (by simp))
    rw [this]
    exact assign_xs 197 _ rfl
  · have hgo : ∀ (p acc : Str), '\n' ∉ p → (p ≠ [] ∨ acc ≠ []) →
        getlines.go acc p = [acc.reverse ++ p] := by
      intro p
      induction p with
      | nil => intro acc _ h; simp [getlines.go]; simpa using h
      | cons c p ih =>
        intro acc hp _
        have hc : c ≠ '\n' := fun e => hp (by simp [e])
        rw [getlines.go, if_neg hc, ih _ (fun e => hp (List.mem_cons_of_mem _ e)) (.inr (by simp))]
        simp
    unfold iniParseBuffer getlines
    rw [hgo _ [] (hnl m) (.inl (by simp))]
    simp only [List.reverse_nil, List.nil_append, List.foldl_cons, List.foldl_nil]
    exact assign_xs m _ rfl

/-! ### C53: where the parser departs from what a reader of the file expects -/

/-- **C53**: an indented comment line after an assignment replaces the value by the text of the comment, and
an empty value followed by a comment gets the comment as its value – for every comment text without white
space at its end. -/
theorem C53_comment_as_value (t : Str) (ht : OnLine t) (hr : Trimmed (';' :: t)) :
    getString (iniParseBuffer ("nx=1\n  ;".toList ++ t ++ "\n".toList)).values [] "nx".toList [] =
      ';' :: t ∧
    (¬ HasComment (';' :: t) →
      getString (iniParseBuffer ("nx= ;".toList ++ t ++ "\n".toList)).values [] "nx".toList [] =
      ';' :: t) := by
  have hon : OnLine (';' :: t) := OnLine.cons (by decide) ht
  constructor
  · have hwf : Spec.Config.WF false [Item.assign "nx".toList [] [] "1".toList [],
        Item.cont "  ".toList (';' :: t) []] :=
      ⟨⟨onLine_of (by decide), onLine_of (by decide), onLine_of (by decide),
        onLine_of (by decide), onLine_of (by decide), by decide, trimmed_of (by decide), by decide,
        noComment_of (by decide), by decide, by decide, by decide, by decide, blank_of (by decide),
        blank_of (by decide), trimmed_of (by decide), noComment_of (by decide),
        .inl (blank_of (by decide))⟩, rfl, ⟨onLine_of (by decide), hon, onLine_of (by decide),
        by decide, blank_of (by decide), by simp, hr, blank_of (by decide)⟩, trivial⟩
    have h := (C17_last_assignment_wins _ hwf [] "nx".toList [] (by simp)).1
    have e : render [Item.assign "nx".toList [] [] "1".toList [],
        Item.cont "  ".toList (';' :: t) []] = "nx=1\n  ;".toList ++ t ++ "\n".toList := by
      simp [render, Item.render]
    rw [e] at h
    rw [h]
    simp [meaning, lastValue, SameCI]
  · intro hc
    have hwf : Spec.Config.WF false [Item.assign "nx".toList [] " ".toList (';' :: t) []] :=
      ⟨⟨onLine_of (by decide), onLine_of (by decide), onLine_of (by decide), hon,
        onLine_of (by decide), by decide, trimmed_of (by decide), by decide,
        noComment_of (by decide), by decide, by decide, by decide, by decide, blank_of (by decide),
        blank_of (by decide), hr, hc, .inl (blank_of (by decide))⟩, trivial⟩
    have h := (C17_last_assignment_wins _ hwf [] "nx".toList [] (by simp)).1
    have e : render [Item.assign "nx".toList [] " ".toList (';' :: t) []] =
        "nx= ;".toList ++ t ++ "\n".toList := by
      simp [render, Item.render]
    rw [e] at h
    rw [h]
    simp [meaning, lastValue, SameCI]

example : getString (iniParseBuffer "nx=1\n  ;old\n".toList).values [] "nx".toList [] = ";old".toList :=
  (C53_comment_as_value "old".toList (onLine_of (by decide)) (trimmed_of (by decide))).1

end Verif
