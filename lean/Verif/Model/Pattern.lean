import Verif.Basic

/-!
# Strings of the C interface: name patterns, alias lists, caller buffers

Names are lists of characters (`std::string` contents). The regular expressions used by the code
are expanded by hand into the small matchers below (the standard `<regex>` library is not in /repo).
-/

set_option autoImplicit false

namespace Verif

/-- Contents of a `std::string` (fastestlapc.cpp:845-852). -/
abbrev Name := List Char

namespace Pattern

/-- `std::regex_replace(variable_name, std::regex("\\*"), ".*")`,
src/main/c/fastestlapc.cpp:845. -/
def replaceStars : Name → Name
  | [] => []
  | c :: cs => if c = '*' then '.' :: '*' :: replaceStars cs else c :: replaceStars cs

/-- Characters with a special meaning in an ECMAScript regular expression, other than `.` and `*`
(fastestlapc.cpp:846). -/
def isOtherMeta (c : Char) : Bool :=
  c ∈ ['\\', '^', '$', '+', '?', '(', ')', '[', ']', '{', '}', '|']

/-- Pieces of the regular expressions considered: a literal character, `.`, or `x*` for such an x
(fastestlapc.cpp:845-846). -/
inductive Atom where
  | lit (c : Char)
  | any
  | litStar (c : Char)
  | anyStar
  deriving DecidableEq, Repr

/-- Parsing of a regular expression without other metacharacters; `none` is a `regex_error` (a `*`
with nothing to repeat), src/main/c/fastestlapc.cpp:846. -/
def parse : Name → Option (List Atom)
  | [] => some []
  | '*' :: _ => none
  | c :: '*' :: cs => (parse cs).map fun r => (if c = '.' then .anyStar else .litStar c) :: r
  | c :: cs => (parse cs).map fun r => (if c = '.' then .any else .lit c) :: r

/-- `.` of an ECMAScript expression matches every character except line terminators
(fastestlapc.cpp:846-852). -/
def dot (c : Char) : Bool := c ≠ '\n' ∧ c ≠ '\r'

/-- `std::regex_match`: the whole name must match, src/main/c/fastestlapc.cpp:852. -/
def fullMatch : List Atom → Name → Bool
  | [], [] => true
  | [], _ :: _ => false
  | .lit _ :: _, [] => false
  | .lit c :: r, d :: s => c = d && fullMatch r s
  | .any :: _, [] => false
  | .any :: r, d :: s => dot d && fullMatch r s
  | .litStar _ :: r, [] => fullMatch r []
  | .litStar c :: r, d :: s => fullMatch r (d :: s) || (c = d && fullMatch (.litStar c :: r) s)
  | .anyStar :: r, [] => fullMatch r []
  | .anyStar :: r, d :: s => fullMatch r (d :: s) || (dot d && fullMatch (.anyStar :: r) s)
termination_by r s => (r.length, s.length)

/-- The set of names selected by the argument of `delete_variable`,
src/main/c/fastestlapc.cpp:844-852: `none` if building the expression throws. Expressions with
other metacharacters are left to the parameter `lib` (the standard library). -/
def selects (lib : Name → Option (Name → Bool)) (pattern : Name) : Option (Name → Bool) :=
  if pattern.any isOtherMeta then lib (replaceStars pattern)
  else (parse (replaceStars pattern)).map fullMatch

end Pattern

namespace Aliases

/-- `\s` (and `std::isspace` in the C locale) (fastestlapc.cpp:47-51). -/
def isSpace (c : Char) : Bool :=
  c = ' ' ∨ c = '\t' ∨ c = '\n' ∨ c = '\x0b' ∨ c = '\x0c' ∨ c = '\r'

/-- `(.*?);` from the current position: the text up to the first `;`, provided no line terminator
comes before it. Part of the expression at src/main/c/fastestlapc.cpp:960. -/
def upToSemicolon : Name → Option (Name × Name)
  | [] => none
  | c :: cs =>
    if c = ';' then some ([], cs)
    else if Pattern.dot c then (upToSemicolon cs).map fun r => (c :: r.1, r.2)
    else none

/-- `std::regex_search(.., "\\S(.*?);")`, src/main/c/fastestlapc.cpp:960-964: leftmost
non-blank character from which a `;` can be reached; returns the text without the `;` and what follows. -/
def search : Name → Option (Name × Name)
  | [] => none
  | c :: cs =>
    if isSpace c then search cs
    else match upToSemicolon cs with
      | some r => some (c :: r.1, r.2)
      | none => search cs

theorem upToSemicolon_length {s t r : Name} (h : upToSemicolon s = some (t, r)) :
    r.length < s.length := by
  induction s generalizing t with
  | nil => simp [upToSemicolon] at h
  | cons c cs ih =>
    simp only [upToSemicolon] at h
    split at h
    · simp at h; obtain ⟨_, rfl⟩ := h; simp
    · split at h
      · cases hu : upToSemicolon cs with
        | none => simp [hu] at h
        | some p =>
          obtain ⟨p1, p2⟩ := p
          simp only [hu, Option.map_some, Option.some.injEq, Prod.mk.injEq] at h
          obtain ⟨-, rfl⟩ := h
          have := ih hu
          simp only [List.length_cons]; omega
      · simp at h

theorem search_length {s t r : Name} (h : search s = some (t, r)) : r.length < s.length := by
  induction s with
  | nil => simp [search] at h
  | cons c cs ih =>
    simp only [search] at h
    split at h
    · have := ih h; simp only [List.length_cons]; omega
    · split at h
      · rename_i p hp
        have := upToSemicolon_length (t := p.1) (r := p.2) hp
        simp only [Option.some.injEq, Prod.mk.injEq] at h
        rw [← h.2]; simp only [List.length_cons]; omega
      · have := ih h; simp only [List.length_cons]; omega

/-- Split at every blank `' '` (fastestlapc.cpp:969). -/
def splitSpaces : Name → List Name
  | [] => [[]]
  | c :: cs =>
    if c = ' ' then [] :: splitSpaces cs
    else match splitSpaces cs with
      | [] => [[c]]
      | w :: ws => (c :: w) :: ws

/-- `std::regex_replace(rest, "^ +| +$|( ) +", "$1")`, src/main/c/fastestlapc.cpp:970: removes
leading and trailing blanks and reduces inner runs of blanks to one blank. Written as: the non-empty
words joined by one blank. -/
def squeeze (s : Name) : Name :=
  [' '].intercalate ((splitSpaces s).filter (fun w => w ≠ []))

/-- The loop unwrapping the alias list, src/main/c/fastestlapc.cpp:963-970. -/
def unwrap (s : Name) : List Name :=
  match _h : search s with
  | some (t, r) => t :: unwrap r
  | none => [squeeze s]
termination_by s.length
decreasing_by exact search_length _h

end Aliases

namespace Buffer

/-- `static_cast<size_t>(n)` of an `int` (fastestlapc.cpp:377, 728, 733). -/
def toSize (n : Int) : Nat := if 0 ≤ n then n.toNat else (2 ^ 64 + n).toNat

/-- `strcpy(dst, text.c_str())` into a buffer of `cap` bytes: the text and a terminator are written;
writing past the end is undefined behaviour. Returns the bytes written. (`text` without inner
null characters.) (fastestlapc.cpp:382, 640, 730, 735). -/
def strcpy (cap : Nat) (text : Name) : Res Name :=
  if text.length + 1 ≤ cap then .ok (text ++ ['\x00']) else .ub

/-- `print_variable_to_string` once the text has been produced, src/main/c/fastestlapc.cpp:375-380;
the caller provides `n_char` bytes. -/
def printToString (nChar : Int) (text : Name) : Res Name :=
  if toSize nChar < text.length then .throw else strcpy nChar.toNat text

/-- One name of `vehicle_type_get_names_generic`, src/main/c/fastestlapc.cpp:728-730 and again at
733-735, 739-741, 748-750: `name.size() > static_cast<size_t>(n_char) - 1` with unsigned wrap-around. -/
def copyName (nChar : Int) (name : Name) : Res Name :=
  let limit := if toSize nChar = 0 then 2 ^ 64 - 1 else toSize nChar - 1
  if name.length > limit then .throw else strcpy nChar.toNat name

/-- `variable_type` once the type name is known, src/main/c/fastestlapc.cpp:641: the length given by
the caller is not looked at. -/
def variableTypeCopy (strLenMax : Int) (type : Name) : Res Name := strcpy strLenMax.toNat type

end Buffer

end Verif
