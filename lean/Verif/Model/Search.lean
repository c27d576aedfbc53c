import Verif.Basic

/-!
# Standard-library searches used by the code

The algorithms are those of the C++ standard library (not in /repo); they are written out
rather than specified, and `Verif/Lemmas/Search.lean` proves the contract on sorted input.
-/

set_option autoImplicit false

namespace Verif

/-- Loop of `std::upper_bound` (halving search). `above m` says whether the element at
position `m` compares greater than the value looked for. Used at
src/core/foundation/model_parameter.h:60 and
src/core/applications/detail/optimal_laptime_control_variable.h:72. -/
def upperBoundLoop (above : Nat → Bool) (first len : Nat) : Nat :=
  if h : len = 0 then first
  else
    let half := len / 2
    if above (first + half) then upperBoundLoop above first half
    else upperBoundLoop above (first + half + 1) (len - half - 1)
termination_by len
decreasing_by all_goals omega

/-- `std::upper_bound(l.begin(), l.end(), ..)` as a distance from `begin()`. The loop only
looks at positions smaller than `l.length`, so the `none` case of `l[m]?` is never used
(`Verif.upperBoundLoop_congr`). Used at model_parameter.h:60, optimal_laptime_control_variable.h:72. -/
def upperBound {α : Type*} (l : List α) (above : α → Bool) : Nat :=
  upperBoundLoop (fun m => (l[m]?).any above) 0 l.length

/-- `std::is_sorted(.., comp)`: no element compares before its predecessor. Used at
src/core/foundation/model_parameter.h:29. -/
def isSorted {α : Type*} (comp : α → α → Bool) : List α → Bool
  | a :: b :: l => !comp b a && isSorted comp (b :: l)
  | _ => true

end Verif
