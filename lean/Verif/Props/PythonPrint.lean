import Verif.Spec.PythonPrint
import Verif.Lemmas.Python

/-!
# Properties of the printing of variables from Python
-/

set_option autoImplicit false

namespace Verif.Python

open Verif.Registry

variable {Kart F1 Track K : Type}

theorem printToStd_stored {P : Printer Kart F1 Track K} {r : Reg Kart F1 Track K} {n : Name} :
    (∀ v, stored r n = [v] → printToStd P r n = .ok (P.text v)) ∧ (stored r n = [] → printToStd P r n = .throw) := by
  unfold stored printToStd
  rcases r.kart n with _ | a <;> rcases r.f1 n with _ | b <;> rcases r.track n with _ | c <;>
    rcases r.scalar n with _ | d <;> rcases r.vector n with _ | e <;> simp [Printer.text]

theorem toSize_printBuffer : Buffer.toSize (cInt printBuffer) = printBuffer := by
  have h : (printBuffer : Int) = 1048576 := by unfold printBuffer; norm_num
  have hc : cInt (printBuffer : Int) = printBuffer := by
    unfold cInt
    rw [h]
    rw [Int.bmod_eq_of_le] <;> norm_num
  rw [hc, Buffer.toSize, if_pos (by omega)]
  simp

theorem printVariable_stored {P : Printer Kart F1 Track K} {r : Reg Kart F1 Track K} {n : Name} (hn : Plain n)
    {v : Value Kart F1 Track K} (h : stored r n = [v]) (hp : Plain (P.text v)) :
    printVariable P r n = (ofC (if printBuffer < (P.text v).length then .throw
      else Buffer.strcpy printBuffer (P.text v))).bind fun b => .ret (cstr b) := by
  unfold printVariable
  rw [cstr_plain hn, printToStd_stored.1 v h, Res.bind_ok, cstr_plain hp, toSize_printBuffer]

/-- C275, what holds: `print_variable` prints the whole text of the variable of that name, of whatever kind, if it has fewer
than `2 ^ 20` characters, and the process ends if the text is longer or if there is no such variable: the text is never
cut. What is missing: a text of `2 ^ 20` characters, see `C275_false`. -/
theorem C275_print_partial (P : Printer Kart F1 Track K) (r : Reg Kart F1 Track K) (n : Name) (hn : Plain n) :
    (∀ v, stored r n = [v] → Plain (P.text v) →
      ((P.text v).length < 2 ^ 20 → printVariable P r n = .ret (P.text v)) ∧
      (2 ^ 20 < (P.text v).length → printVariable P r n = .aborted)) ∧
    (stored r n = [] → printVariable P r n = .aborted) := by
  have hb : printBuffer = 2 ^ 20 := by unfold printBuffer; rfl
  rw [← hb]
  refine ⟨fun v hv hp => ⟨fun hl => ?_, fun hl => ?_⟩, fun h => ?_⟩
  · rw [printVariable_stored hn hv hp, if_neg (by omega), Buffer.strcpy, if_pos (by omega), ofC_ok, Py.bind_ret,
      cstr_terminated hp]
  · rw [printVariable_stored hn hv hp, if_pos hl]
    rfl
  · unfold printVariable
    rw [cstr_plain hn, printToStd_stored.2 h]
    rfl

/-- C275 is false for a text that fills the buffer: it is accepted, and the null character at its end is written behind
the buffer. -/
theorem C275_false (P : Printer Kart F1 Track K) (r : Reg Kart F1 Track K) (n : Name) (hn : Plain n)
    (v : Value Kart F1 Track K) (hv : stored r n = [v]) (hp : Plain (P.text v)) (hl : (P.text v).length = 2 ^ 20) :
    printVariable P r n = .undefined := by
  have hb : printBuffer = 2 ^ 20 := by unfold printBuffer; rfl
  rw [← hb] at hl
  rw [printVariable_stored hn hv hp, if_neg (by omega), Buffer.strcpy, if_neg (by omega)]
  rfl

/-! ## The theorems on a vector -/

/-- A printer that writes a star for each number of a vector. -/
def starPrinter : Printer Unit Unit Unit ℤ where
  kart _ := "kart".toList
  f1 _ := "f1".toList
  track _ := "track".toList
  vector v := List.replicate v.length '*'
  scalar _ := "number".toList

/-- Tables with a vector of `m` zeros. -/
def zeros (m : Nat) : Reg Unit Unit Unit ℤ :=
  { Reg.empty with vector := put (fun _ => none) "zeros".toList (List.replicate m 0) }

theorem zeros_stored (m : Nat) : stored (zeros m) "zeros".toList = [.vector (List.replicate m 0)] := by
  simp [stored, zeros, Reg.empty, put]

theorem stars_plain (m : Nat) : Plain (starPrinter.text (.vector (List.replicate m 0))) := by
  simp [Plain, Printer.text, starPrinter, List.mem_replicate]

/-- C275: three numbers. -/
example : printVariable starPrinter (zeros 3) "zeros".toList = .ret "***".toList :=
  (((C275_print_partial starPrinter (zeros 3) "zeros".toList (by unfold Plain; decide)).1 _ (zeros_stored 3) (stars_plain 3)).1
    (by simp [Printer.text, starPrinter]))

/-- C275: a name that does not exist. -/
example : printVariable starPrinter (zeros 3) "ones".toList = .aborted :=
  (C275_print_partial starPrinter (zeros 3) "ones".toList (by unfold Plain; decide)).2
    (by simp [stored, zeros, Reg.empty, put])

/-- C275: as many numbers as the buffer has characters. -/
example (m : Nat) (hm : m = 2 ^ 20) : printVariable starPrinter (zeros m) "zeros".toList = .undefined :=
  C275_false starPrinter _ "zeros".toList (by unfold Plain; decide) _ (zeros_stored _) (stars_plain _)
    (by simp only [Printer.text, starPrinter, List.length_replicate]; exact hm)

end Verif.Python
