import Verif.Model.IuClient

/-!
# How much the client sends and tells (C130)
-/

namespace Verif.Iu.Spec
open Verif.Iu

/-- A message that is sent: N-DATA.req or N-UNITDATA.req. -/
def isMessage : Out → Bool
  | .sap (.dataReq _ _) _ => true
  | .sap (.unitdataReq _ _) _ => true
  | _ => false

/-- A call of the user: NAS received, or an event. -/
def isTold : Out → Bool
  | .recv _ _ _ _ _ => true
  | .event _ _ => true
  | _ => false

/-- Number of messages sent so far. -/
def sent (s : State) : Nat := s.trace.countP isMessage

/-- Number of calls of the user so far. -/
def told (s : State) : Nat := s.trace.countP isTold

/-- Most messages that a call of the API sends: one, or one for each RNC that is paged. -/
def most (s : State) : Api → Nat
  | .freeUe _ => 0
  | .rabDeact _ _ => 0
  | .pageCs2 _ _ lai => s.rncs.countP fun r => r.areas.any fun e => laiEq e.lai lai
  | .pagePs2 _ _ rai => s.rncs.countP fun r => r.areas.any fun e => raiEq e rai
  | _ => 1

/-- A user who sends at most `k` messages each time they are called. -/
def Replies (env : Env) (k : Nat) : Prop :=
  ∀ s o s', runScript env (env.cb s o) s = .ok ((), s') → sent s' ≤ sent s + k

/-- What a user does who makes at most `k` calls of the API, none of which pages by LAI or RAI. -/
inductive Calls : Nat → Script → Prop where
  | done (k : Nat) : Calls k .done
  | call (k : Nat) (a : Api) (f : Int → Script) : (∀ s, most s a ≤ 1) → (∀ rc, Calls k (f rc)) → Calls (k + 1) (.call a f)

/-- What a primitive of SCCP or an expired timer may bring: any operation but a call of the API. -/
def FromOutside (op : Op) : Prop := ∀ a, op ≠ .api a

/-- An operation that brings at most one message. -/
def OneMessage : Op → Prop
  | .noticeInd _ _ => False
  | .pcstateInd _ _ _ => False
  | _ => True

/-- The octets are an Iu Release Request. -/
def ReleaseRequest (env : Env) (d : Bytes) : Prop :=
  ∃ m, env.decodeCo d = some m ∧ m.dir = PR_initiatingMessage ∧ m.proc = id_Iu_ReleaseRequest

/-- The octets are a RESET. -/
def Reset (env : Env) (d : Bytes) : Prop :=
  ∃ m, env.decodeCl d = some m ∧ m.dir = PR_initiatingMessage ∧ m.proc = id_Reset

/-- An Iu Release Request on a connection, or a RESET without one: the messages that ask for an answer. -/
def Asks (env : Env) : Op → Prop
  | .dataInd _ d => ReleaseRequest env d
  | .disconnectInd _ d => ReleaseRequest env d
  | .unitdataInd _ d => Reset env d
  | _ => False

/-- Number of contexts with their events on, at an RNC whose address satisfies a test. -/
def listening (s : State) (hit : SccpAddr → Bool) : Nat :=
  s.ues.countP fun u => u.notification && s.rncs.any fun r => decide (r.ptr = u.rnc) && hit r.addr

end Verif.Iu.Spec
