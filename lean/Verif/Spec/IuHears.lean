import Verif.Spec.IuSays

/-!
# What the user of the client hears (C133)
-/

namespace Verif.Iu.Spec
open Verif.Iu

/-- From one state to another, all calls of the user satisfy a predicate. -/
def AllHeard (Q : Out → Prop) (s s' : State) : Prop := ∃ d, s'.trace = s.trace ++ d ∧ ∀ o ∈ d, isTold o = true → Q o

/-- The octets of a message about a connection: N-DATA or N-DISCONNECT. -/
def About (c : ConnId) (d : Bytes) (op : Op) : Prop := op = .dataInd c d ∨ op = .disconnectInd c d

/-- The octets of a first message on a connection: N-CONNECT or N-DATA. -/
def Opens (c : ConnId) (d : Bytes) (op : Op) : Prop := (∃ a, op = .connectInd c a d) ∨ op = .dataInd c d

/-- The reason for a call of the user. NAS: octets that decode to an Initial UE Message or to a Direct Transfer with that NAS-PDU, on
the connection that the user is told. Events of a context: the message of the procedure on its connection, or the release timer of the
context. A lost link: N-DISCONNECT of the connection, N-NOTICE or N-PCSTATE. A new area: an Initial UE Message. -/
inductive Causes (env : Env) (op : Op) : Out → Prop where
  | initial {c d m ies ue ra sai} (ho : Opens c d op) (hd : env.decodeCo d = some m) (hm : m.dir = PR_initiatingMessage)
    (hp : m.proc = id_InitialUE_Message) (hb : m.body = .initialUe ies) : Causes env op (.recv ue c ies.nas ra sai)
  | newArea {c d m ies r area} (ho : Opens c d op) (hd : env.decodeCo d = some m) (hm : m.dir = PR_initiatingMessage)
    (hp : m.proc = id_InitialUE_Message) (hb : m.body = .initialUe ies) : Causes env op (.event none (.newArea r area))
  | transfer {c d m ies ue ra sai} (ho : About c d op) (hd : env.decodeCo d = some m) (hm : m.dir = PR_initiatingMessage)
    (hp : m.proc = id_DirectTransfer) (hb : m.body = .directTransfer ies) : Causes env op (.recv ue c ies.nas ra sai)
  | security {c d m ue} (ho : About c d op) (hd : env.decodeCo d = some m) (hm : m.dir = PR_successfulOutcome)
    (hp : m.proc = id_SecurityModeControl) : Causes env op (.event (some (ue, c)) .securityModeComplete)
  | release {c d m ue} (ho : About c d op) (hd : env.decodeCo d = some m) (hm : m.dir = PR_successfulOutcome)
    (hp : m.proc = id_Iu_Release) : Causes env op (.event (some (ue, c)) .iuRelease)
  | timer {ue c} (ho : op = .timer ue) : Causes env op (.event (some (ue, c)) .iuRelease)
  | rab {c d m ue item rest} (ho : About c d op) (hd : env.decodeCo d = some m) (hm : m.dir = PR_outcome)
    (hp : m.proc = id_RAB_Assignment) (hb : m.body = .rabAssResp (some (some item :: rest))) :
    Causes env op (.event (some (ue, c)) (.rabAssign item))
  | disconnected {ue c d} (ho : op = .disconnectInd c d) : Causes env op (.event (some (ue, c)) .linkInvalidated)
  | notice {ue c a cause} (ho : op = .noticeInd a cause) : Causes env op (.event (some (ue, c)) .linkInvalidated)
  | pcstate {ue c pc sp rem} (ho : op = .pcstateInd pc sp rem) : Causes env op (.event (some (ue, c)) .linkInvalidated)

end Verif.Iu.Spec
