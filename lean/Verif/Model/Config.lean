import Mathlib.Data.List.Basic
import Mathlib.Data.List.TakeDrop
import Mathlib.Logic.Function.Basic

/-!
# Parameter files

`src/utils/config/inih/ini.cpp`, `src/utils/config/inih/INIReader.cpp`, `src/utils/config/ConfigMap.cpp`.

Text is a list of characters, one per byte ("C" locale).  C strings are the characters before the first
`'\0'`.  Memory (fixed line buffer, `new`/`delete`) is not modelled except for the length limits that are
visible in the result.  `getFloat`/`setFloat` (decimal ↔ binary conversion) are not modelled.
-/

namespace Verif.Config

abbrev Str := List Char

/-- `isspace` in the "C" locale (used in `src/utils/config/inih/ini.cpp:30,39,53`). -/
def isspace (c : Char) : Bool :=
  c == ' ' || c == '\t' || c == '\n' || c == '\x0b' || c == '\x0c' || c == '\r'

/-- C string stored in a character array: what precedes the first NUL (`strlen`, `strcpy`). -/
def cstr (s : Str) : Str := s.takeWhile (· != '\x00')

/-- `rstrip` (`src/utils/config/inih/ini.cpp:25-33`). -/
def rstrip (s : Str) : Str := (s.reverse.dropWhile isspace).reverse

/-- `lskip` (`src/utils/config/inih/ini.cpp:35-42`). -/
def lskip (s : Str) : Str := s.dropWhile isspace

/-- `find_char_or_comment(s, c)` (`src/utils/config/inih/ini.cpp:44-57`), splitting the string at the
returned pointer; `ws` is `was_whitespace`.  For `c = '\0'` the end of the string plays the role of `c`. -/
def findCharOrComment (c : Char) : Bool → Str → Str × Str
  | _, [] => ([], [])
  | ws, x :: s =>
    if x == c || (ws && x == ';') then ([], x :: s)
    else
      let r := findCharOrComment c (isspace x) s
      (x :: r.1, r.2)

/-- `strncpy0(dest, src, size)` (`src/utils/config/inih/ini.cpp:59-69`). -/
def strncpy0 (src : Str) (size : Nat) : Str := src.take (size - 1)

/-- `MAX_SECTION`, `MAX_NAME`, `MAX_LINE` (`src/utils/config/inih/ini.cpp:21-23`). -/
def MAX_SECTION : Nat := 50
def MAX_NAME : Nat := 50
def MAX_LINE : Nat := 200

/-- `tolower` in the "C" locale. -/
def tolower (c : Char) : Char :=
  if 'A' ≤ c ∧ c ≤ 'Z' then Char.ofNat (c.toNat + 32) else c

/-- `INIReader::makeKey` (`src/utils/config/inih/INIReader.cpp:99-107`). -/
def makeKey (section_ name : Str) : Str := (section_ ++ '.' :: name).map tolower

/-- `INIReader::_values`, a `std::map<std::string,std::string>`. -/
abbrev Values := Str → Option Str

/-- `INIReader::valueHandler` (`src/utils/config/inih/INIReader.cpp:111-117`) and `setString`
(`:53-58`). -/
def setString (v : Values) (section_ name value : Str) : Values :=
  Function.update v (makeKey section_ name) (some value)

/-- `INIReader::getString` (`src/utils/config/inih/INIReader.cpp:43-49`). -/
def getString (v : Values) (section_ name dflt : Str) : Str :=
  (v (makeKey section_ name)).getD dflt

/-- Local variables of `ini_parse` and the map it fills. -/
structure IniState where
  section_ : Str
  prevName : Str
  values : Values
  lineno : Nat
  error : Nat

/-- Before the first line (`src/utils/config/inih/ini.cpp:82-91`). -/
def IniState.init (v : Values) : IniState := ⟨[], [], v, 0, 0⟩

/-- `if (!error) error = lineno;` -/
def IniState.fail (st : IniState) : IniState :=
  { st with error := if st.error = 0 then st.lineno else st.error }

/-- One iteration of the loop over lines (`src/utils/config/inih/ini.cpp:99-158`, identical code in
`ini_parse_buffer` `:194-261`); `raw` is the content of the character array `line`. -/
def iniLine (st : IniState) (raw : Str) : IniState :=
  let st := { st with lineno := st.lineno + 1 }
  let line := rstrip (cstr raw)
  let start := lskip line
  if st.prevName ≠ [] ∧ start ≠ [] ∧ start.length < line.length then
    { st with values := setString st.values st.section_ st.prevName start }
  else
    match start with
    | [] => st
    | c :: rest =>
      if c = ';' ∨ c = '#' then st
      else if c = '[' then
        let r := findCharOrComment ']' false rest
        match r.2 with
        | ']' :: _ => { st with section_ := strncpy0 r.1 MAX_SECTION, prevName := [] }
        | _ => st.fail
      else
        let r := findCharOrComment '=' false start
        match r.2 with
        | '=' :: after =>
          let name := rstrip r.1
          let value := rstrip (findCharOrComment '\x00' false (lskip after)).1
          { st with
            prevName := strncpy0 name MAX_NAME
            values := setString st.values st.section_ name value }
        | _ => st.fail

/-- `std::getline` until it fails: split at `'\n'`, no empty last line. -/
def getlines (s : Str) : List Str :=
  go [] s
where
  go (acc : Str) : Str → List Str
    | [] => if acc = [] then [] else [acc.reverse]
    | c :: s => if c = '\n' then acc.reverse :: go [] s else go (c :: acc) s

/-- `fgets(line, MAX_LINE, file)` until it fails: pieces of at most `MAX_LINE - 1` characters, a piece ends
after a newline. -/
def fgetsLines (s : Str) : List Str :=
  go 0 [] s
where
  go (n : Nat) (acc : Str) : Str → List Str
    | [] => if acc = [] then [] else [acc.reverse]
    | c :: s =>
      if c = '\n' ∨ n + 1 = MAX_LINE - 1 then (c :: acc).reverse :: go 0 [] s
      else go (n + 1) (c :: acc) s

/-- `ini_parse_buffer` (`src/utils/config/inih/ini.cpp:169-264`) on the bytes of the file, as done by
`broadcast_parameters` with MPI (`src/utils/config/ConfigMap.cpp:99-154`).  Assumes the C++ library's
`pubsetbuf` makes the stream read the given buffer (libstdc++). -/
def iniParseBuffer (text : Str) : IniState :=
  (getlines text).foldl iniLine (.init fun _ => none)

/-- `ini_parse` (`src/utils/config/inih/ini.cpp:75-164`) on an existing file with the given bytes. -/
def iniParseFile (text : Str) : IniState :=
  (fgetsLines text).foldl iniLine (.init fun _ => none)

/-! ### Typed access -/

/-- `ConfigMap::getBool` (`src/utils/config/ConfigMap.cpp:63-82`). -/
def getBool (v : Values) (section_ name : Str) (dflt : Bool) : Bool :=
  let s := getString v section_ name []
  let val := dflt
  let val := if s = "1".toList ∨ s = "yes".toList ∨ s = "true".toList ∨ s = "on".toList then true
    else val
  let val := if s = "0".toList ∨ s = "no".toList ∨ s = "false".toList ∨ s = "off".toList then false
    else val
  if s = [] then dflt else val

/-- `ConfigMap::setBool` (`src/utils/config/ConfigMap.cpp:86-95`). -/
def setBool (v : Values) (section_ name : Str) (b : Bool) : Values :=
  setString v section_ name (if b then "true".toList else "false".toList)

/-- Value of a digit in base `b`, if it is one. -/
def digitVal (b : Nat) (c : Char) : Option Nat :=
  let d :=
    if '0' ≤ c ∧ c ≤ '9' then some (c.toNat - '0'.toNat)
    else if 'a' ≤ c ∧ c ≤ 'z' then some (c.toNat - 'a'.toNat + 10)
    else if 'A' ≤ c ∧ c ≤ 'Z' then some (c.toNat - 'A'.toNat + 10)
    else none
  match d with
  | some d => if d < b then some d else none
  | none => none

/-- Longest prefix of digits, accumulated. -/
def digits (b : Nat) : Nat → Str → Nat
  | acc, [] => acc
  | acc, c :: s =>
    match digitVal b c with
    | some d => digits b (acc * b + d) s
    | none => acc

/-- Range of `long` (64 bit). -/
def LONG_MIN : Int := -(2 ^ 63)
def LONG_MAX : Int := 2 ^ 63 - 1

/-- Optional sign read by `strtol`. -/
def strtolSign : Str → Bool × Str
  | '-' :: s => (true, s)
  | '+' :: s => (false, s)
  | s => (false, s)

/-- Prefix (`0x`, `0` or none) and digits read by `strtol(…, 0)`; `none` if there is no digit. -/
def strtolMag (s : Str) : Option Nat :=
  match s with
  | '0' :: x :: c :: s' =>
    if (x = 'x' ∨ x = 'X') ∧ (digitVal 16 c).isSome then some (digits 16 0 (c :: s'))
    else some (digits 8 0 s)
  | '0' :: _ => some (digits 8 0 s)
  | c :: _ => if (digitVal 10 c).isSome then some (digits 10 0 s) else none
  | [] => none

/-- `strtol(value, &end, 0)`; `none` if nothing was converted (`end == value`).  Clamps on overflow.
C library function called at `src/utils/config/inih/INIReader.cpp:69`. -/
def strtol0 (s : Str) : Option Int :=
  match strtolMag (strtolSign (lskip s)).2 with
  | some n => some (max LONG_MIN (min LONG_MAX
      (if (strtolSign (lskip s)).1 then -(n : Int) else (n : Int))))
  | none => none

/-- `INIReader::getInteger` (`src/utils/config/inih/INIReader.cpp:62-71`). -/
def getInteger (v : Values) (section_ name : Str) (dflt : Int) : Int :=
  (strtol0 (getString v section_ name [])).getD dflt

/-- Decimal digits of a natural number (as written by `std::ostream <<`). -/
def decimal (n : Nat) : Str :=
  if h : n < 10 then [Char.ofNat ('0'.toNat + n)]
  else decimal (n / 10) ++ [Char.ofNat ('0'.toNat + n % 10)]
decreasing_by omega

/-- `ss << value` for a `long`. -/
def showLong (n : Int) : Str :=
  if n < 0 then '-' :: decimal n.natAbs else decimal n.natAbs

/-- `INIReader::setInteger` (`src/utils/config/inih/INIReader.cpp:75-82`). -/
def setInteger (v : Values) (section_ name : Str) (n : Int) : Values :=
  setString v section_ name (showLong n)

end Verif.Config
