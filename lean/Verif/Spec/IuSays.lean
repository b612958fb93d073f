import Verif.Spec.Iu
import Verif.Spec.IuAmount

/-!
# What the client sends of its own accord (C132)
-/

namespace Verif.Iu.Spec
open Verif.Iu

/-- From one state to another, all messages that were sent satisfy a predicate. -/
def AllSent (P : Prim → Prop) (s s' : State) : Prop :=
  ∃ d, s'.trace = s.trace ++ d ∧ ∀ p rc, Out.sap p rc ∈ d → isMessage (.sap p rc) = true → P p

/-- All messages that the user sends when called satisfy a predicate. -/
def UserSends (env : Env) (P : Prim → Prop) : Prop :=
  ∀ s o s', runScript env (env.cb s o) s = .ok ((), s') → AllSent P s s'

/-- The answer that a primitive asks for: to an Iu Release Request, an Iu Release Command with the same cause on the same connection;
to a RESET, a RESET ACKNOWLEDGE with the same domain and RNC to the sender. -/
inductive OwnAnswer (env : Env) : Op → Prim → Prop where
  | data {c d m cause} (hd : env.decodeCo d = some m) (hm : m.dir = PR_initiatingMessage) (hp : m.proc = id_Iu_ReleaseRequest)
    (hb : m.body = .iuReleaseReq cause) : OwnAnswer env (.dataInd c d) (.dataReq c (.iuRelCmd cause))
  | disconnect {c d m cause} (hd : env.decodeCo d = some m) (hm : m.dir = PR_initiatingMessage) (hp : m.proc = id_Iu_ReleaseRequest)
    (hb : m.body = .iuReleaseReq cause) : OwnAnswer env (.disconnectInd c d) (.dataReq c (.iuRelCmd cause))
  | reset {a d m domain rnc} (hd : env.decodeCl d = some m) (hm : m.dir = PR_initiatingMessage) (hp : m.proc = id_Reset)
    (hb : m.body = .reset domain rnc) : OwnAnswer env (.unitdataInd a d) (.unitdataReq a (.resetAck domain rnc))

/-- What a call of the API asks to be sent in a state: its message on the connection of its context, or paging to an RNC that serves
the area. -/
inductive CallSays (s : State) : Api → Prim → Prop where
  | tx {u nas sapi} (hu : u ∈ s.ues) : CallSays s (.tx (some u.ptr) nas sapi) (.dataReq u.conn (.dt sapi nas))
  | release {u cause} (hu : u ∈ s.ues) : CallSays s (.txRelease u.ptr (some cause)) (.dataReq u.conn (.iuRelCmd cause))
  | releaseNormal {u} (hu : u ∈ s.ues) :
    CallSays s (.txRelease u.ptr none) (.dataReq u.conn (.iuRelCmd (.nAS CauseNAS_normal_release)))
  | releaseFree {u cause t} (hu : u ∈ s.ues) : CallSays s (.txReleaseFree u.ptr (some cause) t) (.dataReq u.conn (.iuRelCmd cause))
  | releaseFreeNormal {u t} (hu : u ∈ s.ues) :
    CallSays s (.txReleaseFree u.ptr none t) (.dataReq u.conn (.iuRelCmd (.nAS CauseNAS_normal_release)))
  | secModeBoth {u ik ck newKey} (hu : u ∈ s.ues) :
    CallSays s (.txSecModeCmd u.ptr ik ck true newKey) (.dataReq u.conn (.secModCmd ik (some ck) newKey))
  | secModeIntegrity {u ik ck newKey} (hu : u ∈ s.ues) :
    CallSays s (.txSecModeCmd u.ptr ik ck false newKey) (.dataReq u.conn (.secModCmd ik none newKey))
  | commonId {u imsi} (hu : u ∈ s.ues) : CallSays s (.txCommonId u.ptr imsi) (.dataReq u.conn (.commonId imsi))
  | rabAct {u msg} (hu : u ∈ s.ues) : CallSays s (.rabAct u.ptr msg) (.dataReq u.conn (.raw msg))
  | pageCs {r e imsi tmsi} (hr : r ∈ s.rncs) (he : e ∈ r.areas) (h0 : e.rac = 0) :
    CallSays s (.pageCs imsi tmsi e.lai.lac) (.unitdataReq r.addr (.paging imsi tmsi false 0))
  | pagePs {r e imsi tmsi} (hr : r ∈ s.rncs) (he : e ∈ r.areas) :
    CallSays s (.pagePs imsi tmsi e.lai.lac e.rac) (.unitdataReq r.addr (.paging imsi tmsi true 0))
  | pageCs2 {r imsi tmsi lai} (hr : r ∈ s.rncs) (he : ServesLai r lai) :
    CallSays s (.pageCs2 imsi tmsi lai) (.unitdataReq r.addr (.paging imsi tmsi false 0))
  | pagePs2 {r imsi tmsi rai} (hr : r ∈ s.rncs) (he : Serves r rai) :
    CallSays s (.pagePs2 imsi tmsi rai) (.unitdataReq r.addr (.paging imsi tmsi true 0))

/-- A user may make a call in a callback, for some results of the calls before. -/
inductive Makes : Script → Api → Prop where
  | now {a k} : Makes (.call a k) a
  | later {a b k rc} (h : Makes (k rc) b) : Makes (.call a k) b

end Verif.Iu.Spec
