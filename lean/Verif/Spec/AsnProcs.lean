import Verif.Gen.RanapProcs
import Verif.Spec.AsnConstants

/-!
# Reading the elementary procedures in a module of descriptions
-/

namespace Verif.AsnToStruct.Spec
open Verif.Ie Verif.Gen.Ranap

/-- What is written about a procedure. -/
structure Procedure where
  name : Text
  initiating : Option Text := none
  successful : Option Text := none
  unsuccessful : Option Text := none
  outcome : Option Text := none
  code : Option Text := none
  criticality : Option Text := none
  deriving DecidableEq

/-- `name class ::= {`, a line with a field, or `}`. -/
inductive ProcLine where
  | start (name cls : Text)
  | field2 (k1 k2 value : Text)
  | field1 (k value : Text)
  | close
  | other

/-- The tokens of a line. -/
def procLine (line : Text) : ProcLine :=
  match tokens false [] line with
  | [.word name, .word cls, .symbol ':', .symbol ':', .symbol '=', .symbol '{'] => .start name cls
  | [.word k1, .word k2, .word v] => .field2 k1 k2 v
  | [.word k, .word v] => .field1 k v
  | [.symbol '}'] => .close
  | _ => .other

/-- One line; and the procedure that ends with it. -/
def readProc (p : Option Procedure) (line : Text) : Option Procedure × List Procedure :=
  match procLine line, p with
  | .start name cls, _ => (if cls = "RANAP-ELEMENTARY-PROCEDURE".toList then some { name } else none, [])
  | .field2 k1 k2 v, some p =>
    (if k1 = "INITIATING".toList ∧ k2 = "MESSAGE".toList then some { p with initiating := some v }
     else if k1 = "SUCCESSFUL".toList ∧ k2 = "OUTCOME".toList then some { p with successful := some v }
     else if k1 = "UNSUCCESSFUL".toList ∧ k2 = "OUTCOME".toList then some { p with unsuccessful := some v }
     else if k1 = "PROCEDURE".toList ∧ k2 = "CODE".toList then some { p with code := some v }
     else some p, [])
  | .field1 k v, some p =>
    (if k = "OUTCOME".toList then some { p with outcome := some v }
     else if k = "CRITICALITY".toList then some { p with criticality := some v }
     else some p, [])
  | .close, some p => (none, if p.code = none then [] else [p])
  | _, p => (p, [])

/-- All procedures of a file. -/
def procedures : Option Procedure → List Text → List Procedure
  | _, [] => []
  | p, l :: ls => let a := readProc p l; a.2 ++ procedures a.1 ls

/-- The message with functions for this name, if there is one: its elements are in the object set with `IEs` or `-IEs` behind the
name. `messages` are the messages by the name of their object set. -/
def messageOf (messages : List (Text × MsgDef)) (name : Text) : Option MsgDef :=
  match messages.lookup (name ++ "IEs".toList) with
  | some m => some m
  | none => messages.lookup (name ++ "-IEs".toList)

/-- The entry of the table of procedures. -/
def procOf (codes : List (Text × Nat)) (messages : List (Text × MsgDef)) (p : Procedure) : Option Proc := do
  let code ← codes.lookup (← p.code)
  let crit ← criticality (← p.criticality)
  some { name := String.ofList p.name, code, crit, initiating := p.initiating.bind (messageOf messages),
         successful := p.successful.bind (messageOf messages), unsuccessful := p.unsuccessful.bind (messageOf messages),
         outcome := p.outcome.bind (messageOf messages) }

end Verif.AsnToStruct.Spec
