import Verif.Model.PythonPrint
import Verif.Spec.Registry

/-!
# The text of a stored variable
-/

set_option autoImplicit false

namespace Verif.Python

open Verif.Registry

variable {Kart F1 Track K : Type}

/-- The text of a variable of any kind. -/
def Printer.text (P : Printer Kart F1 Track K) : Value Kart F1 Track K → Name
  | .kart k => P.kart k
  | .f1 c => P.f1 c
  | .track t => P.track t
  | .scalar x => P.scalar x
  | .vector v => P.vector v

end Verif.Python
