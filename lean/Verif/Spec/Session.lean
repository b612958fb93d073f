import Verif.Spec.Hnb
import Verif.Model.Linked

/-!
# A location update, from the HNB emulator through a gateway to the user of the Iu client and back

Three processes and two links.  The emulator writes what is queued; a gateway passes RANAP messages on, unchanged and in
order, in both directions; the client belongs to a core network node that also serves others.  Who moves next is left
open.
-/

namespace Verif.Session
open Verif.Hnb.Spec Verif.Linked

/-- What is seen of a connection at the client: it is accepted, a NAS PDU is delivered, a message is sent, the user is told
an event, it is closed. -/
inductive Act where
  | accept
  | got (nas : Bytes)
  | send (m : Iu.TxMsg)
  | told (e : Iu.Event)
  | close
  deriving DecidableEq, Repr

/-- One entry of the history of the client, as far as it is about a connection. -/
def act (c : Iu.ConnId) : Iu.Out → Option Act
  | .sap (.connectResp c') _ => if c' = c then some .accept else none
  | .sap (.dataReq c' m) _ => if c' = c then some (.send m) else none
  | .sap (.disconnectReq c') _ => if c' = c then some .close else none
  | .sap (.unitdataReq _ _) _ => none
  | .recv _ c' nas _ _ => if c' = c then some (.got nas) else none
  | .event (some (_, c')) e => if c' = c then some (.told e) else none
  | .event none _ => none

/-- The history of a connection. -/
def acts (c : Iu.ConnId) (t : List Iu.Out) : List Act := t.filterMap (act c)

/-- The messages sent. -/
def sends (l : List Act) : List Iu.TxMsg := l.filterMap fun a => match a with | .send m => some m | _ => none

/-- Emulator, client, and how many messages the gateway has passed on: of those written by the emulator, and of those sent
by the client on the connection. -/
structure Sys where
  hnb : Hnb.State
  cn : Iu.State
  up : Nat
  down : Nat

/-- An operation of the client that is about other connections: a primitive on one of them, a connectionless message, an
expiring timer or an API call for contexts of others. -/
def Other (c : Iu.ConnId) (s : Iu.State) : Iu.Op → Prop
  | .connectInd c' _ _ => c' ≠ c
  | .disconnectInd c' _ => c' ≠ c
  | .dataInd c' _ => c' ≠ c
  | .unitdataInd _ _ => True
  | .timer p => ∃ u ∈ s.ues, u.ptr = p ∧ u.conn ≠ c
  | .api a => ∀ p ∈ Iu.Spec.args a, ∃ u ∈ s.ues, u.ptr = p ∧ u.conn ≠ c
  | _ => False

/-- The emulator moves. -/
def Sys.hnbMove (σ : Sys) (r : Res Hnb.State) (down : Nat) : Res Sys :=
  match r with
  | .ok e => .ok { σ with hnb := e, down := down }
  | .fault f => .fault f

/-- The client moves. -/
def Sys.cnMove (σ : Sys) (r : Res (Int × Iu.State)) (up : Nat) : Res Sys :=
  match r with
  | .ok (_, s) => .ok { σ with cn := s, up := up }
  | .fault f => .fault f

/-- Something happens: in this session (`true`) or beside it. -/
inductive Step (env : Iu.Env) (hnb : Hnb.Env) (c : Iu.ConnId) : Bool → Sys → Res Sys → Prop
  /-- the socket of the emulator takes a message -/
  | write {σ} (h : σ.hnb.queue ≠ []) : Step env hnb c true σ (σ.hnbMove (Hnb.step hnb σ.hnb .writable) σ.down)
  /-- the gateway passes the RANAP message of a RUA Connect on, in a connection request -/
  | connect {σ m ranap calling} (hm : σ.hnb.sent[σ.up]? = some m) (hr : InConnect m.data ranap) :
    Step env hnb c true σ (σ.cnMove (Iu.step (linked env) (.connectInd c calling ranap) σ.cn) (σ.up + 1))
  /-- ... of a RUA Direct Transfer, as data -/
  | data {σ m ranap} (hm : σ.hnb.sent[σ.up]? = some m) (hr : InTransfer m.data ranap) :
    Step env hnb c true σ (σ.cnMove (Iu.step (linked env) (.dataInd c ranap) σ.cn) (σ.up + 1))
  /-- the gateway passes a message of the client on, in a RUA Direct Transfer -/
  | down {σ m bs data} (hm : (sends (acts c σ.cn.trace))[σ.down]? = some m) (hg : Linked.gen m = .ok (some bs))
    (hd : InTransfer data bs) : Step env hnb c true σ (σ.hnbMove (Hnb.step hnb σ.hnb (.recv 19 data)) (σ.down + 1))
  /-- the client has something else to do, and survives it -/
  | other {σ op rc s} (ho : Other c σ.cn op) (hok : Iu.Spec.OpOk (linked env) σ.cn op)
    (h : Iu.step (linked env) op σ.cn = .ok (rc, s)) : Step env hnb c false σ (.ok { σ with cn := s })

/-- A schedule with so many moves in this session. -/
inductive Steps (env : Iu.Env) (hnb : Hnb.Env) (c : Iu.ConnId) : Nat → Sys → Sys → Prop
  | refl {σ} : Steps env hnb c 0 σ σ
  | move {n σ τ τ'} (h : Steps env hnb c n σ τ) (hs : Step env hnb c true τ (.ok τ')) : Steps env hnb c (n + 1) σ τ'
  | beside {n σ τ τ'} (h : Steps env hnb c n σ τ) (hs : Step env hnb c false τ (.ok τ')) : Steps env hnb c n σ τ'

/-- No message of this session is waiting anywhere. -/
def Quiet (c : Iu.ConnId) (σ : Sys) : Prop :=
  σ.hnb.queue = [] ∧ σ.hnb.sent.length ≤ σ.up ∧ (sends (acts c σ.cn.trace)).length ≤ σ.down

/-- What the core network sends in a location update. -/
structure Dialogue where
  sapi : Byte
  identityRequest : Bytes
  authenticationRequest : Bytes
  rand : Vector Byte 16
  ik : Bytes
  ck : Bytes
  sendCk : Bool
  newKey : Bool
  locationUpdatingAccept : Bytes
  mmInformation : Bytes

/-- The messages are what their names say; the emulator survives them; they fit into RUA messages. -/
structure Dialogue.Valid (d : Dialogue) (hnb : Hnb.Env) : Prop where
  identity : ∃ rest, Mm d.identityRequest 0x18 rest
  authentication : ∃ cksn ext, Mm d.authenticationRequest 0x12 (cksn :: (d.rand.toList ++ ext))
  accept : ∃ rest, Mm d.locationUpdatingAccept 0x02 rest
  acceptOk : ¬ FatalNas hnb d.locationUpdatingAccept
  information : ∃ rest, Mm d.mmInformation 0x32 rest
  informationOk : ¬ FatalNas hnb d.mmInformation
  ik : d.ik.length = 16
  ck : d.ck.length = 16
  short : d.identityRequest.length ≤ 977 ∧ d.authenticationRequest.length ≤ 977 ∧ d.locationUpdatingAccept.length ≤ 977 ∧
    d.mmInformation.length ≤ 977

/-- The user of the client, on this connection: asks for the identity, then authenticates (with the response of the emulator),
starts security, accepts, informs, and frees the context when told that the connection is released. -/
structure Serves (env : Iu.Env) (hnb : Hnb.Env) (c : Iu.ConnId) (d : Dialogue) : Prop where
  events : env.hasEventCb = true
  request : ∀ s p ra sai, env.cb s (.recv p c locationUpdatingRequest ra sai) =
    .call (.tx (some p) d.identityRequest d.sapi) fun _ => .done
  identity : ∀ s p ra sai, env.cb s (.recv p c identityResponse ra sai) =
    .call (.tx (some p) d.authenticationRequest d.sapi) fun _ => .done
  authentication : ∀ s p ra sai, env.cb s (.recv p c (authenticationResponse (hnb.sres d.rand.toList)) ra sai) =
    .call (.txSecModeCmd p d.ik d.ck d.sendCk d.newKey) fun _ => .done
  security : ∀ s p, env.cb s (.event (some (p, c)) .securityModeComplete) =
    .call (.tx (some p) d.locationUpdatingAccept d.sapi) fun _ => .call (.tx (some p) d.mmInformation d.sapi) fun _ => .done
  reallocation : ∀ s p ra sai, env.cb s (.recv p c tmsiReallocationComplete ra sai) = .done
  release : ∀ s p, env.cb s (.event (some (p, c)) .iuRelease) = .call (.freeUe (some p)) fun _ => .done

/-- The history of the connection when all is done.  Whether there is a TMSI Reallocation Complete depends on the Location
Updating Accept. -/
def transcript (hnb : Hnb.Env) (d : Dialogue) (reallocation : Bool) : List Act :=
  [.accept,
   .got locationUpdatingRequest, .send (.dt d.sapi d.identityRequest),
   .got identityResponse, .send (.dt d.sapi d.authenticationRequest),
   .got (authenticationResponse (hnb.sres d.rand.toList)), .send (.secModCmd d.ik (if d.sendCk then some d.ck else none) d.newKey),
   .told .securityModeComplete, .send (.dt d.sapi d.locationUpdatingAccept), .send (.dt d.sapi d.mmInformation)] ++
  (if reallocation then [.got tmsiReallocationComplete] else []) ++
  [.send (.iuRelCmd (.radioNetwork 40)), .told .iuRelease, .close]

end Verif.Session
