import Verif.Spec.Hnb

/-!
# How much the HNB emulator sends (C131)
-/

namespace Verif.Hnb.Spec
open Verif.Hnb

/-- A command of the user. -/
def isCommand : Op → Bool
  | .register | .deregister | .ueRegister _ | .reset _ | .channel _ _ => true
  | _ => false

/-- A message on RUA. -/
def isRua : Op → Bool
  | .recv ppid _ => decide (ppid = 19)
  | _ => false

/-- A command to open a channel in the CS domain. -/
def isCsChannel : Op → Bool
  | .channel isPs _ => !isPs
  | _ => false

end Verif.Hnb.Spec
