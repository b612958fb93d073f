import Verif.Spec.Linked
import Verif.Spec.Rua
import Verif.Model.Hnb

/-!
# What the HNB emulator is for

Messages from the gateway are read off their elements, as in `Spec/Linked.lean`; nothing here uses the receive
functions.  A reply is a message the core network side gets out of the RUA message.
-/

namespace Verif.Hnb.Spec
open Verif.Aper Verif.Ie Verif.Ie.Spec Verif.Rx.Spec Verif.Linked.Spec Verif.Factory.Spec

/-- The states the program can be in. -/
def Reach (env : Env) (s : State) : Prop := ∃ ops, run env init ops = .ok s

/-! ## Received messages -/

/-- The octets are a RUA message of this procedure (of whichever kind: initiating message or outcome), with these
elements, all of them known and valid. -/
def RuaMsg (data : Bytes) (code : Nat) (l : List Ie) : Prop :=
  ∃ (i crit : Nat) (pc : Int) (value : Bytes) (m : MsgDef),
    decode Gen.Rua.RUA_RUA_PDU data = some (.choice i (.seq [some (.int pc), some (.enum crit), some (.octets value)])) ∧
    pc.toNat = code ∧ Rua.Spec.message code = some m ∧ Carries m value l ∧ ∀ ie ∈ l, Valid m ie

/-- The octets are a RUA Direct Transfer with a connection oriented RANAP message of this direction and procedure, which
has these elements. -/
def Co (data : Bytes) (direction code : Nat) (l : List Ie) : Prop :=
  ∃ r, RuaMsg data 2 r ∧ CoMsg (octetsOf (elem Gen.Rua.directTransferIEs r 4)) direction code l

/-- ... a RUA Connectionless Transfer with these octets inside. -/
def Cl (data payload : Bytes) : Prop :=
  ∃ r, RuaMsg data 4 r ∧ payload = octetsOf (elem Gen.Rua.connectionlessTransferIEs r 4)

/-- The octets are a RUA Direct Transfer for this domain (0 CS, 1 PS) and context id (24 bits). -/
def On (data : Bytes) (domain : Nat) (ctx : Bits) : Prop :=
  ∃ r, RuaMsg data 2 r ∧ elem Gen.Rua.directTransferIEs r 7 = some (.enum domain) ∧
    elem Gen.Rua.directTransferIEs r 3 = some (.bits ctx)

/-- The octets are a RUA Connect with this RANAP message. -/
def InConnect (data ranap : Bytes) : Prop :=
  ∃ r, RuaMsg data 1 r ∧ elem Gen.Rua.connectIEs r 4 = some (.octets ranap)

/-- The octets are a RUA Direct Transfer with this RANAP message. -/
def InTransfer (data ranap : Bytes) : Prop :=
  ∃ r, RuaMsg data 2 r ∧ elem Gen.Rua.directTransferIEs r 4 = some (.octets ranap)

/-- The octets are an HNBAP message of this direction (1 initiating message, 2 successful outcome, 3 unsuccessful
outcome) and procedure. -/
def HnbapPdu (data : Bytes) (direction code : Nat) (value : Bytes) : Prop :=
  1 ≤ direction ∧ ∃ (crit : Nat) (pc : Int), pc.toNat = code ∧ decode Gen.Hnbap.HNBAP_HNBAP_PDU data =
    some (.choice (direction - 1) (.seq [some (.int pc), some (.enum crit), some (.octets value)]))

/-- A mobility management message (TS 24.008): protocol discriminator 5, message type without the sequence number, the
rest. -/
def Mm (nas : Bytes) (type : Nat) (rest : Bytes) : Prop :=
  ∃ pd t, nas = pd :: t :: rest ∧ pd.toNat % 16 = 5 ∧ t.toNat % 64 = type

/-- The NAS PDU of a Direct Transfer. -/
def nasOf (l : List Ie) : Bytes := octetsOf (elem Gen.Ranap.directTransferIEs l 16)

/-- The first permitted integrity protection algorithm of a Security Mode Command. -/
def firstAlgorithm (l : List Ie) : Option Int :=
  match elem Gen.Ranap.securityModeCommandIEs l 12 with
  | some (.seq (some (.list (.int a :: _)) :: _)) => some a
  | _ => none

/-! ## Replies -/

/-- What the emulator answers. -/
inductive Answer where
  /-- a Direct Transfer with this NAS PDU -/
  | nas (pdu : Bytes)
  | securityModeComplete (algorithm : Int)
  | iuReleaseComplete
  | iuReleaseRequest
  deriving DecidableEq

/-- The octets are the RANAP message for an answer. -/
def Answer.IsIn (a : Answer) (ranap : Bytes) : Prop :=
  match a with
  | .nas pdu => Says ranap 1 20 [(16, .octets pdu), (59, .enum 0)]
  | .securityModeComplete alg => Says ranap 2 6 [(6, .int alg), (5, .int 0)]
  | .iuReleaseComplete => Says ranap 2 1 []
  | .iuReleaseRequest => Says ranap 1 11 [(4, .choice 0 (.int 40))]

/-- A RUA Direct Transfer in the CS domain with this context id, which contains the answer. -/
def IsReply (m : Rua.Msg) (connId : BitVec 32) (a : Answer) : Prop :=
  m.ppid = 19 ∧ ∃ ranap, a.IsIn ranap ∧
    Rua.Spec.Understood m.data 2 [(7, .enum 0), (3, .bits (low24 connId)), (4, .octets ranap)]

/-- The answer is queued, for the latest CS channel; it is lost if there is none or 16 messages are waiting. -/
def Replied (s s' : State) (a : Answer) : Prop :=
  match s.chan with
  | none => s' = s
  | some c => if 16 ≤ s.queue.length then s' = s else ∃ m, IsReply m c.connId a ∧ s' = { s with queue := s.queue ++ [m] }

/-- Identity Response: IMEISV 0131960008274112 (TS 24.008 9.2.11, 10.5.1.4). -/
def identityResponse : Bytes := [0x05, 0x19, 0x09, 0x03, 0x31, 0x91, 0x06, 0x00, 0x28, 0x47, 0x11, 0xf2]

/-- Authentication Response (TS 24.008 9.2.3), send sequence number 2. -/
def authenticationResponse (sres : Vector Byte 4) : Bytes := [0x05, 0x94] ++ sres.toList

/-- TMSI Reallocation Complete (TS 24.008 9.2.18). -/
def tmsiReallocationComplete : Bytes := [0x05, 0x1b]

/-- Location Updating Request with the IMSI 262420123456789 (TS 24.008 9.2.15). -/
def locationUpdatingRequest : Bytes :=
  [0x05, 0x08, 0x70, 0x62, 0xf2, 0x30, 0xff, 0xf3, 0x57, 0x08, 0x29, 0x26, 0x24, 0x10, 0x32, 0x54, 0x76, 0x98,
   0x33, 0x03, 0x57, 0x18, 0xb2]

/-- Contents of the message element with a tag (0x17 mobile identity, 0x43 full name, 0x45 short name of the network). -/
def ie (env : Env) (rest : Bytes) (tag : Nat) : Option Bytes := (env.tlv rest).bind fun l => l.lookup tag

/-- A mobility management message and the answer it gets.  An MM Information is answered by a request for release; whether
a Location Updating Accept is answered depends on the short network name and, if there is no mobile identity, on chance. -/
inductive NasAsks (env : Env) (s : State) (nas : Bytes) : Answer → Prop
  | identity {rest} (hm : Mm nas 0x18 rest) : NasAsks env s nas (.nas identityResponse)
  | authentication {rest} (hm : Mm nas 0x12 rest) (hl : 17 ≤ rest.length) :
    NasAsks env s nas (.nas (authenticationResponse (env.sres ((rest.drop 1).take 16))))
  | information {rest} (hm : Mm nas 0x32 rest) : NasAsks env s nas .iuReleaseRequest
  | lu {rest b v} (hm : Mm nas 0x02 rest) (hi : ie env rest 0x17 ≠ none) (hn : ie env rest 0x45 = some (b :: v))
    (hb : b.toNat % 16 = 4) : NasAsks env s nas (.nas tmsiReallocationComplete)
  | chance {rest} (hm : Mm nas 0x02 rest) (ht : env.tlv rest ≠ none) (hi : ie env rest 0x17 = none)
    (hj : env.junk s rest = true) : NasAsks env s nas (.nas tmsiReallocationComplete)

/-- A message from the gateway and the answer it gets.  Iu Release Command and Iu Release Complete are not told apart. -/
inductive Asks (env : Env) (s : State) (data : Bytes) : Answer → Prop
  | nas {l a} (h : Co data 1 20 l) (ha : NasAsks env s (nasOf l) a) : Asks env s data a
  | security {l a} (h : Co data 1 6 l) (ha : firstAlgorithm l = some a) : Asks env s data (.securityModeComplete a)
  | release {direction l} (h : Co data direction 1 l) : Asks env s data .iuReleaseComplete

/-- The octets are any HNBAP message with the procedure code of this message, and have the elements `l` of this one, all
of them known and valid. -/
def Hnbap (data : Bytes) (code : Nat) (m : MsgDef) (l : List Ie) : Prop :=
  ∃ direction value, HnbapPdu data direction code value ∧ Carries m value l ∧ ∀ x ∈ l, Valid m x

/-- The digits shown for a BCD coded IMSI: the first 15. -/
def shown (imsi : Bytes) : Bytes := (Verif.Spec.Bcd.digitChars imsi).take 15

/-- A message from the gateway that is reported as paging, and the IMSI reported: a Paging; also a successful outcome with
the procedure code of Paging, which does not exist. -/
inductive Paged (data : Bytes) : Bytes → Prop
  | imsi {x l imsi} (h : Cl data x) (hm : ClMsg x 1 14 l)
    (hi : elem Gen.Ranap.pagingIEs l 23 = some (.choice 0 (.octets imsi))) : Paged data (shown imsi)
  | noImsi {x l} (h : Cl data x) (hm : ClMsg x 1 14 l)
    (hi : ¬ ∃ imsi, elem Gen.Ranap.pagingIEs l 23 = some (.choice 0 (.octets imsi))) : Paged data []
  | outcome {x crit value} (h : Cl data x) (hm : IsPdu x 2 14 crit value) : Paged data []

/-- One that is reported as acceptance of the registration, and the RNC-ID reported: whatever has its procedure code, e.g. a
Register Reject. -/
inductive Registered (data : Bytes) : BitVec 16 → Prop
  | rncId {l} {n : Int} (h : Hnbap data 1 Gen.Hnbap.hNBRegisterAcceptIEs l)
    (hn : elem Gen.Hnbap.hNBRegisterAcceptIEs l 14 = some (.int n)) : Registered data (BitVec.ofNat 16 n.toNat)
  | noRncId {l} (h : Hnbap data 1 Gen.Hnbap.hNBRegisterAcceptIEs l) (hn : ¬ Has l 14) : Registered data 0
  | wrong {direction value n} (h : HnbapPdu data direction 1 value) (hn : ¬ ∃ l, Hnbap data 1 Gen.Hnbap.hNBRegisterAcceptIEs l) :
    Registered data n

/-- One that is reported as acceptance of a UE with an IMSI, and the context id: whatever has its procedure code and its
elements. -/
inductive UeRegistered (data : Bytes) : Bytes → BitVec 32 → Prop
  | mk {l imsi b} (h : Hnbap data 3 Gen.Hnbap.uERegisterAcceptIEs l)
    (hi : elem Gen.Hnbap.uERegisterAcceptIEs l 5 = some (.choice 0 (.octets imsi)))
    (hc : elem Gen.Hnbap.uERegisterAcceptIEs l 4 = some (.bits b)) :
    UeRegistered data (shown imsi) (BitVec.ofNat 32 (Rua.Spec.contextOf b))

/-- An HNB Register Accept with this RNC-ID. -/
def RegisterAccept (data : Bytes) (rnc : Nat) : Prop :=
  ∃ value l, HnbapPdu data 2 1 value ∧ Carries Gen.Hnbap.hNBRegisterAcceptIEs value l ∧
    (∀ x ∈ l, Valid Gen.Hnbap.hNBRegisterAcceptIEs x) ∧ elem Gen.Hnbap.hNBRegisterAcceptIEs l 14 = some (.int rnc)

/-- A UE Register Accept for this IMSI (as digits), with this context id. -/
def UeRegisterAccept (data imsi : Bytes) (ctx : Nat) : Prop :=
  ∃ value l t b, HnbapPdu data 2 3 value ∧ Carries Gen.Hnbap.uERegisterAcceptIEs value l ∧
    (∀ x ∈ l, Valid Gen.Hnbap.uERegisterAcceptIEs x) ∧
    elem Gen.Hnbap.uERegisterAcceptIEs l 5 = some (.choice 0 (.octets t)) ∧ Verif.Spec.Bcd.Tbcd imsi t ∧
    elem Gen.Hnbap.uERegisterAcceptIEs l 4 = some (.bits b) ∧ Rua.Spec.contextOf b = ctx

/-- A RANAP Paging for this IMSI, in a RUA Connectionless Transfer. -/
def Paging (data imsi : Bytes) : Prop :=
  ∃ x l t, Cl data x ∧ ClMsg x 1 14 l ∧ elem Gen.Ranap.pagingIEs l 23 = some (.choice 0 (.octets t)) ∧
    Verif.Spec.Bcd.Tbcd imsi t

/-! ## HNBAP -/

/-- What the gateway makes of octets: an initiating message of this procedure, whose decode function succeeds and yields
exactly the wanted elements. -/
def HnbapUnderstood (bs : Bytes) (code : Nat) (m : MsgDef) (want : List (Nat × Val)) : Prop :=
  ∃ crit value, decode Gen.Hnbap.HNBAP_HNBAP_PDU bs =
      some (.choice 0 (.seq [some (.int code), some (.enum crit), some (.octets value)])) ∧
    ∀ μ : Mem Unit, (decodeIes m value μ).1.1 = 0 ∧ HoldsExactly m want (decodeIes m value μ).1.2

/-- A message for HNBAP (PPID 20) with these elements is queued, unless 16 are waiting. -/
def Queued (s s' : State) (code : Nat) (m : MsgDef) (want : List (Nat × Val)) : Prop :=
  if 16 ≤ s.queue.length then s' = s
  else ∃ bs, HnbapUnderstood bs code m want ∧ s' = { s with queue := s.queue ++ [⟨bs, 20⟩] }

/-! ## Commands -/

/-- Something is queued that has a property, unless 16 messages are waiting. -/
def Sends (s s' : State) (P : Rua.Msg → Prop) : Prop :=
  if 16 ≤ s.queue.length then s' = s else ∃ m, P m ∧ s' = { s with queue := s.queue ++ [m] }

/-- A RUA Connect for a connection in a domain, with an Initial UE Message (3 domain, 15 LAI, 58 SAI, 16 NAS PDU, 79 Iu
signalling connection id, 86 Global RNC-ID). -/
def Opens (isPs : Bool) (connId : BitVec 32) (nas : Bytes) (m : Rua.Msg) : Prop :=
  m.ppid = 19 ∧ ∃ ranap, Says ranap 1 19 [(3, .enum (psOrCs isPs)),
      (15, .seq [some (.octets [0x09, 0x01, 0x99]), some (.octets [0x42, 0x23]), none]),
      (58, .seq [some (.octets [0x09, 0x01, 0x99]), some (.octets [0x42, 0x23]), some (.octets [0x42, 0x23]), none]),
      (16, .octets nas), (79, .bits (low24 connId)), (86, .seq [some (.octets [0x09, 0x01, 0x99]), some (.int 23)])] ∧
    Rua.Spec.Understood m.data 1 [(7, .enum (psOrCs isPs)), (3, .bits (low24 connId)), (6, .enum 1), (4, .octets ranap)]

/-- Mobile identity with an IMSI of 15 digits (TS 24.008 10.5.1.4): length, first digit and type, the other digits. -/
def mobileIdentity (imsi : Bytes) : Bytes :=
  let d := fun k => Verif.Spec.Bcd.nibbleAt imsi k
  [8, BitVec.ofNat 8 (16 * d 0 + 9), BitVec.ofNat 8 (16 * d 2 + d 1), BitVec.ofNat 8 (16 * d 4 + d 3),
   BitVec.ofNat 8 (16 * d 6 + d 5), BitVec.ofNat 8 (16 * d 8 + d 7), BitVec.ofNat 8 (16 * d 10 + d 9),
   BitVec.ofNat 8 (16 * d 12 + d 11), BitVec.ofNat 8 (16 * d 14 + d 13)]

/-- The IMSI in the Location Updating Request: 262420123456789. -/
def fixedImsi : Bytes := [0x32, 0x36, 0x32, 0x34, 0x32, 0x30, 0x31, 0x32, 0x33, 0x34, 0x35, 0x36, 0x37, 0x38, 0x39]

/-- Elements of the HNB Register Request: identity "ATestHNB@", location (empty), PLMN 901-99, cell identity, LAC 0xc0fe,
RAC 0x42, SAC 0xabab. -/
def registerRequest : List (Nat × Val) :=
  [(3, .seq [some (.octets [0x41, 0x54, 0x65, 0x73, 0x74, 0x48, 0x4e, 0x42, 0x40]), none]), (8, .seq [none, none, none]),
   (9, .octets [0x09, 0xf1, 0x99]), (11, .bits ((octetsBits [0xad, 0xce, 0xaa, 0xb0]).take 28)), (6, .octets [0xc0, 0xfe]),
   (7, .octets [0x42]), (10, .octets [0xab, 0xab])]

/-- How many connections a history has asked for. -/
def channels (ops : List Op) : Nat := ops.countP fun op => match op with | .channel _ _ => true | _ => false

/-- The context id of the connection asked for after so many others: they are numbered from 42 on, modulo 65536. -/
def ctxAfter (n : Nat) : BitVec 32 := BitVec.ofNat 32 ((42 + n) % 65536)

/-- A RUA Connectionless Transfer with a RANAP Reset: cause "signalling transport resource failure", the domain. -/
def Resets (isPs : Bool) (m : Rua.Msg) : Prop :=
  m.ppid = 19 ∧ ∃ ranap, Says ranap 1 9 [(4, .choice 1 (.int 65)), (3, .enum (psOrCs isPs))] ∧
    Rua.Spec.Understood m.data 4 [(4, .octets ranap)]

/-! ## Everything that is sent -/

/-- A message is complete: the gateway can decode it. -/
def Complete (m : Rua.Msg) : Prop :=
  (m.ppid = 19 ∧ ∃ code want, Rua.Spec.Understood m.data code want) ∨
  (m.ppid = 20 ∧ ∃ code d want, HnbapUnderstood m.data code d want)

/-- What has been sent or waits to be sent, oldest first. -/
def out (s : State) : List Rua.Msg := s.sent ++ s.queue

/-! ## What kills the program -/

/-- NAS messages that do: a Location Updating Accept which is too short for a location area, or has a mobile identity but no
short network name; an MM Information with an empty network name. -/
def FatalNas (env : Env) (nas : Bytes) : Prop :=
  ∃ rest, (Mm nas 0x02 rest ∧ (rest.length < 5 ∨
      (ie env rest 0x17 ≠ none ∧ (ie env rest 0x45 = none ∨ ie env rest 0x45 = some [])))) ∨
    (Mm nas 0x32 rest ∧ (ie env rest 0x45 = some [] ∨ ie env rest 0x43 = some []))

/-- Messages that do: Security Mode Complete, Security Mode Reject, and, once there is a CS channel, fatal NAS messages;
a UE Register Accept (or anything with its procedure code and form) for an IMSI but without context id.  Commands that
do: registering a UE whose IMSI has not five to sixteen digits. -/
def Kills (env : Env) (s : State) : Op → Prop
  | .recv ppid data => s.up = true ∧
    ((ppid = 19 ∧ ∃ direction code l, Co data direction code l ∧
      ((code = 6 ∧ direction ≠ 1) ∨ (code = 20 ∧ s.chan ≠ none ∧ FatalNas env (nasOf l)))) ∨
     (ppid = 20 ∧ ∃ l imsi, Hnbap data 3 Gen.Hnbap.uERegisterAcceptIEs l ∧
      elem Gen.Hnbap.uERegisterAcceptIEs l 5 = some (.choice 0 (.octets imsi)) ∧ ¬ Has l 4))
  | .ueRegister imsi => imsi.length < 5 ∨ 16 < imsi.length
  | _ => False

end Verif.Hnb.Spec
