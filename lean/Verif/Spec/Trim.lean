import Verif.Model.Trim

/-!
# What it is to strip a text
-/

set_option autoImplicit false

namespace Verif.Trim

/-- `r` is what is left of `t` without the blanks at its ends. -/
structure Stripped (blank : Char → Bool) (t r : Name) : Prop where
  split : ∃ a b, t = a ++ r ++ b ∧ (∀ c ∈ a, blank c) ∧ ∀ c ∈ b, blank c
  first : ∀ c l, r = c :: l → blank c = false
  last : ∀ l c, r = l ++ [c] → blank c = false

/-- A text in which the blanks of Python are those of C. -/
def Usual (t : Name) : Prop := ∀ c ∈ t, pySpace c = true → c ∈ [' ', '\t', '\n', '\x0b', '\x0c', '\r']

end Verif.Trim
