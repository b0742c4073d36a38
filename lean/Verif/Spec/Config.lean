import Verif.Model.Config

/-!
# What a parameter file means (independent of the parser)

Only `isspace` and `tolower` (character classes) are shared with the model.
-/

namespace Verif.Spec.Config

open Verif.Config (Str isspace tolower)

/-- One logical line of a parameter file. -/
inductive Item
  /-- white space only -/
  | blank (ws : Str)
  /-- `;…` or `#…` in the first column -/
  | comment (mark : Char) (text : Str)
  /-- `[name]…` -/
  | sect (name rest : Str)
  /-- `name  =  value  ; comment` : `ws1`, `ws2` around the equal sign, `tail` after the value -/
  | assign (name ws1 ws2 value tail : Str)
  /-- an indented line continues the previous assignment: it gives a new value to the same name -/
  | cont (indent value tail : Str)

/-- The text of a line. -/
def Item.render : Item → Str
  | blank ws => ws
  | comment mark text => mark :: text
  | sect name rest => '[' :: name ++ ']' :: rest
  | assign name ws1 ws2 value tail => name ++ ws1 ++ '=' :: (ws2 ++ value ++ tail)
  | cont indent value tail => indent ++ value ++ tail

/-- The text of a file. -/
def render (items : List Item) : Str := (items.map fun x => x.render ++ ['\n']).flatten

/-- The assignments `(section, name, value)` a file makes, in order. -/
def meaning (sec : Str) (prev : Option Str) : List Item → List (Str × Str × Str)
  | [] => []
  | .blank _ :: l => meaning sec prev l
  | .comment _ _ :: l => meaning sec prev l
  | .sect name _ :: l => meaning name none l
  | .assign name _ _ value _ :: l => (sec, name, value) :: meaning sec (some name) l
  | .cont _ value _ :: l =>
    match prev with
    | some name => (sec, name, value) :: meaning sec prev l
    | none => meaning sec prev l

/-- Characters that can stand on a line. -/
def OnLine (s : Str) : Prop := ∀ c ∈ s, c ≠ '\n' ∧ c ≠ '\x00'
def Blank (s : Str) : Prop := ∀ c ∈ s, isspace c = true
/-- No white space at either end. -/
def Trimmed (s : Str) : Prop := ∀ c, (s.head? = some c ∨ s.getLast? = some c) → isspace c = false
/-- Somewhere a white space is followed by `;` – that starts a comment. -/
def HasComment (s : Str) : Prop := ∃ a w b, s = a ++ w :: ';' :: b ∧ isspace w = true

/-- Well-formed lines. -/
def Item.WF : Item → Prop
  | blank ws => OnLine ws ∧ Blank ws
  | comment mark text => (mark = ';' ∨ mark = '#') ∧ OnLine text
  | sect name rest => OnLine name ∧ OnLine rest ∧ ']' ∉ name ∧ ¬ HasComment name ∧ '.' ∉ name ∧
      name.length < 50
  | assign name ws1 ws2 value tail =>
      OnLine name ∧ OnLine ws1 ∧ OnLine ws2 ∧ OnLine value ∧ OnLine tail ∧
      name ≠ [] ∧ Trimmed name ∧ '=' ∉ name ∧ ¬ HasComment name ∧ name.length < 50 ∧
      name.head? ≠ some ';' ∧ name.head? ≠ some '#' ∧ name.head? ≠ some '[' ∧
      Blank ws1 ∧ Blank ws2 ∧ Trimmed value ∧ ¬ HasComment value ∧
      (Blank tail ∨ (value ≠ [] ∧ ∃ w text, tail = w ++ ';' :: text ∧ w ≠ [] ∧ Blank w))
  | cont indent value tail => OnLine indent ∧ OnLine value ∧ OnLine tail ∧
      indent ≠ [] ∧ Blank indent ∧ value ≠ [] ∧ Trimmed value ∧ Blank tail

/-- Well-formed files: continuation lines only after an assignment in the same section. -/
def WF : Bool → List Item → Prop
  | _, [] => True
  | o, .blank ws :: l => (Item.blank ws).WF ∧ WF o l
  | o, .comment m t :: l => (Item.comment m t).WF ∧ WF o l
  | _, .sect n r :: l => (Item.sect n r).WF ∧ WF false l
  | _, .assign n w1 w2 v t :: l => (Item.assign n w1 w2 v t).WF ∧ WF true l
  | o, .cont i v t :: l => o = true ∧ (Item.cont i v t).WF ∧ WF o l

/-- Equal up to letter case. -/
def SameCI (a b : Str) : Prop := a.map tolower = b.map tolower

instance (a b : Str) : Decidable (SameCI a b) := inferInstanceAs (Decidable (_ = _))

/-- Value of the last assignment to `(sec, name)`, if any. -/
def lastValue (l : List (Str × Str × Str)) (sec name : Str) : Option Str :=
  ((l.filter fun x => SameCI x.1 sec ∧ SameCI x.2.1 name).getLast?).map fun x => x.2.2

/-! ### Arbitrary lines -/

/-- Remove white space at the right end / at both ends. -/
def trimRight (s : Str) : Str := (s.reverse.dropWhile isspace).reverse
def trim (s : Str) : Str := (trimRight s).dropWhile isspace

/-- `c` occurs in `s` before any comment. -/
def OccursBeforeComment (c : Char) (s : Str) : Prop :=
  ∃ a b, s = a ++ c :: b ∧ c ∉ a ∧ ¬ HasComment a

/-- A line is indented if it is not blank and starts with white space. -/
def Indented (s : Str) : Prop := trim s ≠ [] ∧ ∃ c, s.head? = some c ∧ isspace c = true

/-- A malformed line; `cont` tells whether a continuation line is possible here. -/
def Malformed (cont : Prop) (s : Str) : Prop :=
  ¬ (cont ∧ Indented s) ∧
  ∃ c rest, trim s = c :: rest ∧ c ≠ ';' ∧ c ≠ '#' ∧
    ((c = '[' ∧ ¬ OccursBeforeComment ']' rest) ∨
     (c ≠ '[' ∧ ¬ OccursBeforeComment '=' (c :: rest)))

/-- Is a continuation possible after the line `s`, if `cont` tells whether it was before?  A section line
closes, an assignment with a non-empty name opens. -/
def ContAfter (cont : Prop) (s : Str) : Prop :=
  (cont ∧ Indented s) ∨
  (¬ (cont ∧ Indented s) ∧
    ((∃ c rest, trim s = c :: rest ∧ c ≠ ';' ∧ c ≠ '#' ∧ c ≠ '[' ∧ c ≠ '=' ∧
        OccursBeforeComment '=' (c :: rest)) ∨
     (cont ∧
      (∀ rest, trim s = '[' :: rest → ¬ OccursBeforeComment ']' rest) ∧
      (∀ rest, trim s ≠ '=' :: rest))))

/-- Is a continuation possible after these lines? -/
def ContOpen : List Str → Prop
  | ls => ls.foldl ContAfter False

/-- Line `k` of the file is malformed (a NUL character ends a line early). -/
def BadLine (ls : List Str) (k : Nat) : Prop :=
  ∃ l, ls[k]? = some l ∧
    Malformed (ContOpen ((ls.take k).map (·.takeWhile (· != '\x00')))) (l.takeWhile (· != '\x00'))

end Verif.Spec.Config
