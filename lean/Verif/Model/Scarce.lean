import Verif.Model.Generate
import Verif.Model.Rua
import Verif.Model.FactoryMem

/-!
# Generating and decoding messages when something fails

The functions of `Model/Ie.lean`, `Model/Generate.lean` and `Model/Rua.lean` once more, where memory may run out and, with
`asn1_xer_print` (/repo/src/iu_helpers.c:43, set by the command `asn1 xer-print` of iu_client_vty.c:48-57), printing to the
standard output may fail.

What libasn1c does then (not in /repo): `ANY_fromType_aper` returns a negative number if it gets no memory for the value,
`ANY_to_type_aper` too; `asn_set_add`, of which `ASN_SEQUENCE_ADD` is made, doubles the size of the array when it is full (4
elements first), and adds nothing if that fails; `OCTET_STRING_fromBuf` leaves the string without a buffer, which is then
encoded as an empty string or not at all (both are considered: `lax`), and `BIT_STRING_fromBuf` likewise; `xer_fprint` returns
-1 if it cannot write.  `msgb_alloc` returns NULL.  Memory of the encoder itself, which is on the stack, does not run out.  What
is allocated is not part of this model (see `Model/FactoryMem.lean`).
-/

namespace Verif.Scarce
open Verif.Aper Verif.Ie Verif.Factory Verif.Generate

/-- What may fail: memory for an element (`CALLOC`, ranap_common.c:433), for its value (442), for the list of elements
(`ASN_SEQUENCE_ADD`, asn1tostruct.py:516, 533), for the value of the PDU (ranap_common.c:333), for the message buffer (300),
for a copy of the payload (rua_msg_factory.c:21), for an identity (ranap_msg_factory.c:426, 525, 543), for an algorithm (312,
340), the list of algorithms (314, 342) and a key (317, 344), for a decoded element (asn1tostruct.py:339, 365), for a part of an
element (ranap_msg_factory.c:585-921, iu_helpers.c:223-282), a list of parts (ranap_msg_factory.c:624-925) and a string in a part
(724, iu_helpers.c:272, 292); writing to the standard output (ranap_common.c:448-452, asn1tostruct.py:371). -/
inductive What where
  | element | value | list | pdu | buffer | copy | identity | algorithm | algorithms | key | decoded | part | parts | string | output
  deriving DecidableEq, Repr

/-- Whether the thing tried as the n-th succeeds (ranap_common.c:300, 433, 442). -/
abbrev World := Nat → What → Bool

/-- Something that depends on how often something was tried before (ranap_common.c:426-455). -/
abbrev S (α : Type) := StateM Nat α

/-- Trying something (e.g. ranap_common.c:433). -/
def attempt (w : World) (x : What) : S Bool := fun n => (w n x, n + 1)

/-- `ranap_new_ie` (ranap_common.c:426-455), `rua_new_ie` (rua_common.c:207-237), `hnbap_new_ie` (hnbap_common.c:219-249),
`sabp_new_ie` (sabp_common.c:181-210). -/
def newIeW (w : World) (debug : Bool) (d : IeDef) (f : Option Slot) : S (Option Ie) := do
  if !(← attempt w .element) then return none                                    -- ranap_common.c:433-436
  match newIe d.id d.crit d.ty f with
  | none => return none                                                          -- l.442-446
  | some ie =>
    if !(← attempt w .value) then return none                                    -- l.442-446
    if debug then
      if !(← attempt w .output) then return none                                 -- l.448-452
    return some ie

/-- `*_encode_*ies` (asn1tostruct.py:496-538), where the list has `count` elements and room for `size`.  The result of
`ASN_SEQUENCE_ADD` is not looked at: an element for which there is no room is left out. -/
def encodeRowsW (w : World) (debug : Bool) : List IeDef → Nat → BitVec 16 → List (Option Slot) → Nat → Nat → S (Option (List Ie))
  | [], _, _, _, _, _ => return some []
  | _ :: _, _, _, [], _, _ => return none
  | d :: ds, sh, mask, f :: fs, count, size =>
    if d.opt && !isPresent mask sh then encodeRowsW w debug ds (sh + 1) mask fs count size
    else do
      match ← newIeW w debug d f with
      | none => return none                                                      -- l.514, 531
      | some ie =>
        if count = size then
          if ← attempt w .list then
            let r ← encodeRowsW w debug ds (if d.opt then sh + 1 else sh) mask fs (count + 1) (if size = 0 then 4 else 2 * size)
            return r.map (ie :: ·)
          else encodeRowsW w debug ds (if d.opt then sh + 1 else sh) mask fs count size
        else
          let r ← encodeRowsW w debug ds (if d.opt then sh + 1 else sh) mask fs (count + 1) size
          return r.map (ie :: ·)

/-- `*_encode_*ies` from the first row on, into an empty list (asn1tostruct.py:471-538). -/
def encodeIesW (w : World) (debug : Bool) (m : MsgDef) (s : Struct) : S (Option (List Ie)) :=
  encodeRowsW w debug m.ies 0 s.mask s.fields 0 0

/-- `*_generate_*` with `_*_gen_msg` (ranap_common.c:298-342, and as `generate` of Model/Generate.lean). -/
def generateW (w : World) (p : Proto) (present code crit : Nat) (t : Ty) (v : Val) : S (Option Bytes) := do
  match encode t v with
  | none => return none                                                          -- ranap_common.c:333-337
  | some any =>
    if !(← attempt w .pdu) then return none                                      -- l.333-337
    if !(← attempt w .buffer) then return none                                   -- l.303-304
    return some (genPdu p.pdu p.room (pduVal present code crit any))

/-- Encoding a structure and generating the message, as all functions do that make a message (e.g.
ranap_msg_factory.c:70-87). -/
def messageW (w : World) (debug : Bool) (p : Proto) (present code crit : Nat) (m : MsgDef) (s : Struct) : S (Option Bytes) := do
  match ← encodeIesW w debug m s with
  | none => return none                                                          -- e.g. ranap_msg_factory.c:73
  | some l => generateW w p present code crit m.ty (container l)

/-- What a function of ranap_msg_factory.c does after filling its structure: the message, the structure, and for how many
identities memory is needed (ranap_msg_factory.c:50-577). -/
structure Plan where
  present : Nat
  code : Nat
  crit : Nat
  msg : MsgDef
  ies : Struct
  identities : Nat

/-- The functions of ranap_msg_factory.c up to the call of the encode function, as in `Model/Factory.lean`
(ranap_msg_factory.c:50-581, 950-977).  `none`: `ranap_new_msg_sec_mod_cmd2` (`secModCmd2W` below), `ranap_new_msg_rab_*` and
`ranap_new_msg_reset_resource` (Model/ScarceRab.lean). -/
def plan : Call → Option (Res Plan)
  | .reset2 domain cause rncId =>                                                -- l.50-88
    let m := Gen.Ranap.resetIEs
    let s := put m idCN_DomainIndicator (.enum domain) m.zero
    let s := match cause with | some c => put m idCause c.toVal s | none => s
    let s := match rncId with
      | some r => put m idGlobalRNC_ID r.toVal (setMask (present Gen.Ranap.resetIEs idGlobalRNC_ID) s)
      | none => s
    some (.ok ⟨1, 9, reject, m, s, 0⟩)
  | .resetAck domain rncId =>                                                    -- l.91-130
    let m := Gen.Ranap.resetAcknowledgeIEs
    let s := put m idCN_DomainIndicator (.enum domain) m.zero
    let s := match rncId with
      | some r => put m idGlobalRNC_ID r.toVal (setMask (present Gen.Ranap.resetAcknowledgeIEs idGlobalRNC_ID) s)
      | none => s
    some (.ok ⟨2, 9, reject, m, s, 0⟩)
  | .errorInd cause diag domain rncId =>                                         -- l.133-184
    let m := Gen.Ranap.errorIndicationIEs
    let s := m.zero
    let s := match cause with
      | some c => put m idCause c.toVal (orMask (present m idCause) s)
      | none => s
    let s := match diag with
      | some v => put m idCriticalityDiagnostics v (orMask (present m idCriticalityDiagnostics) s)
      | none => s
    let s := match domain with
      | some d => put m idCN_DomainIndicator (.enum d) (orMask (present m idCN_DomainIndicator) s)
      | none => s
    let s := match rncId with
      | some r => put m idGlobalRNC_ID r.toVal (setMask (present Gen.Ranap.resetAcknowledgeIEs idGlobalRNC_ID) s)
      | none => s
    some (.ok ⟨1, 22, ignore, m, s, 0⟩)
  | .initialUe _ _ none _ => some (.fault .nullDeref)                            -- l.204
  | .initialUe connId isPs (some r) nas =>                                       -- l.187-232
    let m := Gen.Ranap.initialUE_MessageIEs
    let s := put m idCN_DomainIndicator (.enum (if isPs then 1 else 0)) m.zero
    let s := put m idLAI (.seq [some (.octets r.plmn), some (.octets buf0), none]) s
    let s := put m idSAI (.seq [some (.octets r.plmn), some (.octets buf0), some (.octets buf0), none]) s
    let s := put m idNAS_PDU (.octets nas) s
    let s := put m idIuSigConId (.bits (u24Bits connId)) s
    let s := put m idGlobalRNC_ID r.toVal s
    some (.ok ⟨1, 19, ignore, m, s, 0⟩)
  | .dt sapi nas =>                                                              -- l.236-274
    let m := Gen.Ranap.directTransferIEs
    let s := setMask (present m idSAPI) m.zero
    let s := put m idSAPI (.enum (if sapi = 3 then 1 else 0)) s
    let s := put m idNAS_PDU (.octets nas) s
    some (.ok ⟨1, 20, ignore, m, s, 0⟩)
  | .secModCompl ipAlg encAlg =>                                                 -- l.379-412
    let m := Gen.Ranap.securityModeCompleteIEs
    let s := setMask (present m idChosenEncryptionAlgorithm) m.zero
    let s := put m idChosenIntegrityProtectionAlgorithm (.int ipAlg) s
    let s := put m idChosenEncryptionAlgorithm (.int encAlg) s
    some (.ok ⟨2, 6, reject, m, s, 0⟩)
  | .commonId imsi =>                                                            -- l.415-455
    let m := Gen.Ranap.commonID_IEs
    match imsi with
    | none => some (.ok ⟨1, 15, ignore, m, m.zero, 0⟩)
    | some imsi => some (match permanentId imsi with
      | .fault f => .fault f
      | .ok v => .ok ⟨1, 15, ignore, m, put m idPermanentNAS_UE_ID v m.zero, 1⟩)
  | .iuRelCmd none => some (.fault .nullDeref)                                   -- l.468
  | .iuRelCmd (some c) =>                                                        -- l.458-487
    let m := Gen.Ranap.iu_ReleaseCommandIEs
    some (.ok ⟨1, 1, reject, m, put m idCause c.toVal m.zero, 0⟩)
  | .iuRelCompl =>                                                               -- l.490-517
    some (.ok ⟨2, 1, reject, Gen.Ranap.iu_ReleaseCompleteIEs, Gen.Ranap.iu_ReleaseCompleteIEs.zero, 0⟩)
  | .pagingCmd none _ _ _ => some (.fault .nullDeref)                            -- l.537
  | .pagingCmd (some imsi) tmsi isPs cause =>                                    -- l.520-581
    let m := Gen.Ranap.pagingIEs
    some (match permanentId imsi with
    | .fault f => .fault f
    | .ok v =>
      let s := put m idCN_DomainIndicator (.enum (if isPs then 1 else 0)) m.zero
      let s := put m idPermanentNAS_UE_ID v s
      let s := match tmsi with
        | none => s
        | some t => put m idTemporaryUE_ID (.choice (if isPs then 1 else 0) (.octets (store32be t)))
            (orMask (present m idTemporaryUE_ID) s)
      let s := if cause ≠ 0 then
          put m idPagingCause (.enum cause.toNat) (orMask (present m idPagingCause) s)
        else s
      .ok ⟨1, 14, ignore, m, s, if tmsi.isSome then 2 else 1⟩)
  | .iuRelReq none => some (.fault .nullDeref)                                   -- l.960
  | .iuRelReq (some c) =>                                                        -- l.950-977
    let m := Gen.Ranap.iu_ReleaseRequestIEs
    some (.ok ⟨1, 11, ignore, m, put m idCause c.toVal m.zero, 0⟩)
  | .secModCmd2 .. => none
  | .rabAssignVoice .. => none
  | .rabAssignData .. => none
  | .rabRelReq .. => none
  | .resetResource .. => none

/-- Memory for identities, whose result is not looked at: the identity is written through a null pointer
(ranap_msg_factory.c:426-427, 525-537, 543-550). -/
def identitiesW (w : World) : Nat → S Bool
  | 0 => return true
  | k + 1 => do
    if ← attempt w .identity then identitiesW w k else return false

/-- Carrying out the plan. (E.g. ranap_msg_factory.c:425-455.) -/
def Plan.runW (w : World) (debug : Bool) (q : Plan) : S (Res (Option Bytes)) := do
  if ← identitiesW w q.identities then
    return .ok (← messageW w debug .ranap q.present q.code q.crit q.msg q.ies)
  else return .fault .nullDeref

/-- The loops of `ranap_new_msg_sec_mod_cmd2` (ranap_msg_factory.c:294-315, 321-343), as `algorithms`: the list, and how many
elements it has room for. -/
def algorithmsW (w : World) (mask : Byte) (alg1 alg2 : Int) : Nat → S (Res (Option (List Val × Nat)))
  | 0 => return .ok (some ([], 0))
  | n + 1 => do
    match ← algorithmsW w mask alg1 alg2 n with
    | .fault f => return .fault f
    | .ok none => return .ok none
    | .ok (some (l, size)) =>
      if mask &&& ((1 : Byte) <<< n) = 0 then return .ok (some (l, size))         -- l.296-297
      else if n = 1 ∨ n = 2 then
        if !(← attempt w .algorithm) then return .fault .nullDeref                -- l.313
        if l.length = size then                                                   -- l.314
          if ← attempt w .algorithms then
            return .ok (some (l ++ [.int (if n = 1 then alg1 else alg2)], if size = 0 then 4 else 2 * size))
          else return .ok (some (l, size))
        else return .ok (some (l ++ [.int (if n = 1 then alg1 else alg2)], size))
      else return .ok none                                                        -- l.305-307

/-- `BIT_STRING_fromBuf(.., 16*8)`, whose result is not looked at (ranap_msg_factory.c:317, 344). -/
def keyW (w : World) : Option Bytes → S (Res Bits)
  | none => return .ok []
  | some b => do
    if ← attempt w .key then return keyBits (some b) else return .ok []

/-- The structure of a Security Mode Command (ranap_msg_factory.c:292-347). -/
def secModIes (ia : List Val) (ik : Bits) (e : Option (List Val × Bits)) (status : Nat) : Struct :=
  let m := Gen.Ranap.securityModeCommandIEs
  let s := put m idIntegrityProtectionInformation (.seq [some (.list ia), some (.bits ik), none]) m.zero
  let s := match e with
    | none => s
    | some (ea, ck) => put m idEncryptionInformation (.seq [some (.list ea), some (.bits ck), none])
        (setMask (present m idEncryptionInformation) s)                           -- l.320
  put m idKeyStatus (.enum status) s                                              -- l.347

/-- `ranap_new_msg_sec_mod_cmd2` (ranap_msg_factory.c:283-372). -/
def secModCmd2W (w : World) (debug : Bool) (ik ck : Option Bytes) (status : Nat) (uia uea : Byte) : S (Res (Option Bytes)) := do
  match ← algorithmsW w uia 0 1 8 with
  | .fault f => return .fault f
  | .ok none => return .ok none
  | .ok (some (ia, _)) =>
    match ← keyW w ik with
    | .fault f => return .fault f
    | .ok ikBits =>
      match ck with
      | none => return .ok (← messageW w debug .ranap 1 6 reject Gen.Ranap.securityModeCommandIEs (secModIes ia ikBits none status))
      | some _ =>
        match ← algorithmsW w uea 1 2 8 with
        | .fault f => return .fault f
        | .ok none => return .ok none
        | .ok (some (ea, _)) =>
          match ← keyW w ck with
          | .fault f => return .fault f
          | .ok ckBits => return .ok (← messageW w debug .ranap 1 6 reject Gen.Ranap.securityModeCommandIEs
              (secModIes ia ikBits (some (ea, ckBits)) status))

/-- The common end of the functions of rua_msg_factory.c (e.g. l. 25-40): as `Rua.finish`. -/
def ruaFinishW (w : World) (debug : Bool) (code : Nat) (m : MsgDef) (s : Struct) : S (Res (Option Bytes)) := do
  match ← encodeIesW w debug m s with
  | none => return .ok none                                                      -- l.26-27
  | some l =>
    match ← generateW w .rua 1 code 0 m.ty (container l) with
    | none => return .fault .nullDeref                                           -- l.38
    | some bs => return .ok (some bs)

/-- `OCTET_STRING_fromBuf`, whose result is not looked at (e.g. rua_msg_factory.c:21): what the string is encoded as, if it
can be. -/
def copyW (w : World) (lax : Bool) (bs : Bytes) : S (Option Bytes) := do
  if ← attempt w .copy then return some bs else return if lax then some [] else none

/-- The end of the functions with a payload (e.g. rua_msg_factory.c:21-40).  If the payload cannot be encoded, the encode
function fails at it or earlier (l. 26-27). -/
def ruaPayloadW (w : World) (lax debug : Bool) (code : Nat) (m : MsgDef) (s : Struct) (p : Bytes) : S (Res (Option Bytes)) := do
  match ← copyW w lax p with
  | none => return .ok none
  | some p => ruaFinishW w debug code m (put m Rua.idRANAP_Message (.octets p) s)

/-- `rua_new_udt` (rua_msg_factory.c:13-41). -/
def newUdtW (w : World) (lax debug : Bool) (p : Bytes) : S (Res (Option Bytes)) :=
  let m := Gen.Rua.connectionlessTransferIEs
  ruaPayloadW w lax debug 4 m m.zero p                                           -- l.21

/-- `rua_new_conn` (rua_msg_factory.c:43-78). -/
def newConnW (w : World) (lax debug : Bool) (isPs : Bool) (ctx : BitVec 32) (p : Bytes) : S (Res (Option Bytes)) :=
  let m := Gen.Rua.connectIEs
  let s := put m Rua.idCN_DomainIndicator (Rua.domain isPs) m.zero               -- l.52-55
  let s := put m Rua.idContext_ID (.bits (u24Bits ctx)) s                        -- l.56
  let s := put m Rua.idEstablishment_Cause (.enum 1) s                           -- l.57
  ruaPayloadW w lax debug 1 m s p                                                -- l.58

/-- `rua_new_dt` (rua_msg_factory.c:80-114). -/
def newDtW (w : World) (lax debug : Bool) (isPs : Bool) (ctx : BitVec 32) (p : Bytes) : S (Res (Option Bytes)) :=
  let m := Gen.Rua.directTransferIEs
  let s := put m Rua.idCN_DomainIndicator (Rua.domain isPs) m.zero               -- l.89-92
  let s := put m Rua.idContext_ID (.bits (u24Bits ctx)) s                        -- l.93
  ruaPayloadW w lax debug 2 m s p                                                -- l.94

/-- `rua_new_disc` (rua_msg_factory.c:116-156). -/
def newDiscW (w : World) (lax debug : Bool) (isPs : Bool) (ctx : BitVec 32) (p : Option Bytes) : S (Res (Option Bytes)) :=
  let m := Gen.Rua.disconnectIEs
  let s := Rua.discBase isPs ctx
  match p with
  | none => ruaFinishW w debug 3 m s
  | some p =>
    if p.length = 0 then ruaFinishW w debug 3 m s                                -- l.133
    else ruaPayloadW w lax debug 3 m (orMask (present m Rua.idRANAP_Message) s) p  -- l.134-135

/-- The loop of `*_decode_*ies` (asn1tostruct.py:334-384): success, and the mask and the values of the structure.  The result
of `xer_fprint` is not looked at. -/
def decodeRowsW (w : World) (debug : Bool) (m : MsgDef) : List Ie → BitVec 16 → List (Option Val) →
    S (Bool × BitVec 16 × List (Option Val))
  | [], mask, fs => return (true, mask, fs)
  | ie :: rest, mask, fs =>
    match lookup ie.id m.ies 0 0 with
    | none => return (false, mask, fs)                                           -- l.375-379
    | some (k, sh, d) => do
      let mask := if d.opt then setPresent mask sh else mask                     -- l.359-361
      match decode d.ty ie.value with
      | none => return (false, mask, fs)                                         -- l.366-370
      | some v =>
        if !(← attempt w .decoded) then return (false, mask, fs)                 -- l.366-370
        if debug then
          let _ ← attempt w .output                                              -- l.371-372
        decodeRowsW w debug m rest mask (fs.set k (some v))

/-- `*_decode_*ies` (asn1tostruct.py:305-391): result 0 or -1, and mask and values. -/
def decodeIesW (w : World) (debug : Bool) (m : MsgDef) (any : Bytes) : S (Int × BitVec 16 × List (Option Val)) := do
  let zero : List (Option Val) := m.zero.fields.map fun _ => none
  match decode m.ty any with
  | none => return (-1, 0, zero)                                                 -- l.339-343
  | some v =>
    match elements v with
    | none => return (-1, 0, zero)
    | some l =>
      if !(← attempt w .decoded) then return (-1, 0, zero)                       -- l.339-343
      let (ok, r) ← decodeRowsW w debug m l 0 zero
      return (if ok then 0 else -1, r)

end Verif.Scarce
