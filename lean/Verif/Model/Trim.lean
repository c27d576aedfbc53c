import Verif.Model.Pattern
import Verif.Model.LapOptions

/-!
# The blanks around the prefix of a lap

`ltrim`, `rtrim` and `trim` of src/main/c/fastestlapc.cpp:46-56, used for the prefix of the options of a lap
(fastestlapc.cpp:1208), and `str.strip` of Python, used for the same text (fastest_lap.py:327). The standard `<regex>`
library is not in /repo: its search is expanded by hand, as in `Verif.Model.Pattern`. `^` and `$` stand for the ends of the
text only, as they do without the option `multiline`.
-/

set_option autoImplicit false

namespace Verif.Trim

open Aliases

/-- The lengths that `\\s+` tries at a position, the longest first, fastestlapc.cpp:47, 51. -/
def tries (t : Name) : List Nat := ((List.range (t.takeWhile isSpace).length).map (· + 1)).reverse

/-- A match of `^\\s+` where `t` is left, fastestlapc.cpp:47: `first` tells whether this is the beginning of the text. -/
def atBegin (first : Bool) (t : Name) : Option Nat := (tries t).find? fun _ => first

/-- A match of `\\s+$` where `t` is left, fastestlapc.cpp:51. -/
def atEnd (_first : Bool) (t : Name) : Option Nat := (tries t).find? fun n => (t.drop n).isEmpty

/-- `std::regex_replace(s, e, "")`, fastestlapc.cpp:47, 51: the leftmost match is left out, the search goes on after it, the
rest is copied. -/
def eraseAll (m : Bool → Name → Option Nat) (first : Bool) : Name → Name
  | [] => []
  | c :: t =>
    match m first (c :: t) with
    | some (n + 1) => eraseAll m false (t.drop n)
    | _ => c :: eraseAll m false t
termination_by t => t.length
decreasing_by all_goals simp

/-- `ltrim`, fastestlapc.cpp:46-48. -/
def ltrim (t : Name) : Name := eraseAll atBegin true t

/-- `rtrim`, fastestlapc.cpp:50-52. -/
def rtrim (t : Name) : Name := eraseAll atEnd true t

/-- `trim`, fastestlapc.cpp:54-56. -/
def trim (t : Name) : Name := ltrim (rtrim t)

/-- The characters that `str.strip` of Python takes for blanks, fastest_lap.py:327. -/
def pySpace (c : Char) : Bool :=
  (9 ≤ c.toNat ∧ c.toNat ≤ 13) ∨ (28 ≤ c.toNat ∧ c.toNat ≤ 32) ∨ c.toNat = 0x85 ∨ c.toNat = 0xa0 ∨ c.toNat = 0x1680 ∨
    (0x2000 ≤ c.toNat ∧ c.toNat ≤ 0x200a) ∨ c.toNat = 0x2028 ∨ c.toNat = 0x2029 ∨ c.toNat = 0x202f ∨ c.toNat = 0x205f ∨
    c.toNat = 0x3000

/-- `str.strip` of Python, fastest_lap.py:327: it looks for the first character that is not a blank, and then for the last. -/
def strip (t : Name) : Name := ((t.dropWhile pySpace).reverse.dropWhile pySpace).reverse

/-- The same on strings, fastestlapc.cpp:1208, fastest_lap.py:327. -/
def onText (f : Name → Name) (s : String) : String := String.ofList (f s.toList)

end Verif.Trim
