import Verif.Model.Python

/-!
# Printing a variable from Python

`print_variable_to_std_string` and `print_variable_to_string` of src/main/c/fastestlapc.cpp and `print_variable` of
src/main/python/fastest_lap.py. How a vehicle, a track, a vector and a scalar are written as text is a parameter (`Printer`:
the printing of xml documents and of vectors belongs to lion, that of numbers to the standard library).
-/

set_option autoImplicit false

namespace Verif.Python

open Verif.Registry

variable {Kart F1 Track K : Type}

/-- The texts written to the stream, fastestlapc.cpp:331-347. -/
structure Printer (Kart F1 Track K : Type) where
  kart : Kart → Name
  f1 : F1 → Name
  track : Track → Name
  vector : List K → Name
  scalar : K → Name

/-- `print_variable_to_std_string`, fastestlapc.cpp:326-354: the tables are looked at one after the other. -/
def printToStd (P : Printer Kart F1 Track K) (r : Reg Kart F1 Track K) (name : Name) : Res Name :=
  match r.kart name with
  | some k => .ok (P.kart k)
  | none =>
    match r.f1 name with
    | some c => .ok (P.f1 c)
    | none =>
      match r.track name with
      | some t => .ok (P.track t)
      | none =>
        match r.vector name with
        | some v => .ok (P.vector v)
        | none =>
          match r.scalar name with
          | some x => .ok (P.scalar x)
          | none => .throw

/-- The size of the buffer, `pow(2,20)`, fastest_lap.py:29. -/
@[irreducible] def printBuffer : Nat := 2 ^ 20

/-- `print_variable`, fastest_lap.py:26-33, with `print_variable_to_string`, fastestlapc.cpp:370-387: the text that is
printed, from a buffer of `2 ^ 20` characters. The text is `c_str()`, up to its first null character. -/
def printVariable (P : Printer Kart F1 Track K) (r : Reg Kart F1 Track K) (name : Name) : Py Name :=
  (ofC ((printToStd P r (cstr name)).bind fun t =>
    if Buffer.toSize (cInt printBuffer) < t.length then .throw else Buffer.strcpy printBuffer (cstr t))).bind fun b => .ret (cstr b)

end Verif.Python
