import Verif.Spec.AsnReader
import Verif.Gen.TextLit

/-!
# The reader on a text that is given in parts
-/

namespace Verif.AsnToStruct.Spec
open Verif.Gen

theorem readAll_append : ∀ {a b : List Token} {p : Place},
    readAll p (a ++ b) = ((readAll (readAll p a).1 b).1, (readAll p a).2 ++ (readAll (readAll p a).1 b).2)
  | [], b, p => rfl
  | x :: a, b, p => by
    rw [List.cons_append, readAll, readAll, readAll_append, List.append_assoc]

/-- The sets of a part that starts and ends between sets. -/
def readPart (protocol : Text) (ls : List Text) : Option (List (Text × List Row)) :=
  match readAll (.outside []) (ls.flatMap (tokens false [])) with
  | (.outside [], l) => some (l.filterMap fun (name, cls, l) =>
    if cls = protocol ++ text% "-PROTOCOL-IES" ∧ l ≠ [] then some (name, l) else none)
  | _ => none

theorem readPart_sound {protocol : Text} {a b : List Text} {l : List (Text × List Row)} (h : readPart protocol a = some l) :
    elementSets protocol (a ++ b) = l ++ elementSets protocol b := by
  unfold readPart at h
  split at h
  · rename_i l' hl
    cases h
    unfold elementSets objectSets
    rw [List.flatMap_append, readAll_append, hl, List.filterMap_append]
    rw [show "-PROTOCOL-IES".toList = text% "-PROTOCOL-IES" from String.toList_ofList]
  · cases h

end Verif.AsnToStruct.Spec
