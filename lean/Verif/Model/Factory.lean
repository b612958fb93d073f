import Verif.Model.Ie
import Verif.Model.Addr
import Verif.Model.Bcd
import Verif.Gen.RanapIes

/-!
# Generating RANAP messages

`/repo/src/ranap_msg_factory.c` and the `ranap_generate_*` functions of
`/repo/src/ranap_common.c`.

A result is `ok none` for NULL, `ok (some bs)` for a message buffer holding `bs` (`[]` if nothing
was put into it), `fault` for undefined behaviour.  Pointer arguments that may be NULL are options.
Memory allocation does not fail.  Heap allocations and logging are not modelled here.

Enumerated arguments (`RANAP_CN_DomainIndicator_t`, ...) are `long` in C; negative ones are not
modelled (they do not encode, just like those that are too large).
-/

namespace Verif.Factory
open Verif.Aper Verif.Ie Verif.Gen.Ranap Verif.Addr

/-! ## Generic part -/

/-- Octets available in a message buffer: `msgb_tailroom` after `ranap_msgb_alloc`
(ranap_common.c:293-296), 1024 + 512 less a headroom of 512. -/
def tailroom : Nat := 1024

/-- `_ranap_gen_msg` (ranap_common.c:298-317): if the encoder fails or runs out of space it returns
-1, and -1/8 = 0 octets are put into the message buffer, which is returned all the same.
`aper_encode_to_buffer` counts bits, whole octets are used; a PDU consists of whole octets
(`Verif.Wire.octs_pdu`). -/
def genPdu (t : Ty) (room : Nat) (v : Val) : Bytes :=
  match encode t v with
  | none => []
  | some bs => if bs.length ≤ room then bs else []

/-- The PDU: `pdu.present`, `procedureCode`, `criticality`, `value` (ranap_common.c:326-332, 353-359, 380-386, 407-413). -/
def pduVal (present code crit : Nat) (value : Bytes) : Val :=
  .choice (present - 1) (.seq [some (.int code), some (.enum crit), some (.octets value)])

/-- `ranap_encode_*ies` followed by `ranap_generate_initiating_message`, `..._successful_outcome`,
`..._unsuccessful_outcome` or `..._outcome` (ranap_common.c:319-423), which differ in `pdu.present`
(1, 2, 3, 4). -/
def generate (present code crit : Nat) (m : MsgDef) (s : Struct) : Option Bytes :=
  match encodeMsg m s with
  | none => none
  | some any => some (genPdu RANAP_RANAP_PDU tailroom (pduVal present code crit any))

/-- `ies.member = v`, the member being the one for element `id`. (E.g. ranap_msg_factory.c:60, 100.) -/
def put (m : MsgDef) (id : Nat) (v : Val) (s : Struct) : Struct :=
  { s with fields := s.fields.set (m.ies.findIdx (·.id == id)) (some ⟨v, none⟩) }

/-- The constant `<message>_<element>_PRESENT` (asn1tostruct.py:191-199). -/
def present (m : MsgDef) (id : Nat) : BitVec 16 :=
  (1 : BitVec 16) <<< ((m.ies.takeWhile (fun d => !(d.id == id))).filter (·.opt)).length

/-- `ies.presenceMask = mask`. (E.g. ranap_msg_factory.c:65, 811.) -/
def setMask (mask : BitVec 16) (s : Struct) : Struct := { s with mask := mask }

/-- `ies.presenceMask |= mask`. (E.g. ranap_msg_factory.c:146, 544.) -/
def orMask (mask : BitVec 16) (s : Struct) : Struct := { s with mask := s.mask ||| mask }

/-! ## Arguments -/

/-- `RANAP_Cause_t`; `present = 0` is `RANAP_Cause_PR_NOTHING`. -/
structure Cause where
  present : Nat
  value : Int
  deriving DecidableEq, Repr

/-- Without an alternative there is nothing to encode (the value is none of the type) (include/osmocom/ranap/RANAP_Cause.h:29-60). -/
def Cause.toVal (c : Cause) : Val := if c.present = 0 then .null else .choice (c.present - 1) (.int c.value)

/-- `RANAP_GlobalRNC_ID_t` (include/osmocom/ranap/RANAP_GlobalRNC-ID.h:24-30). -/
structure RncId where
  plmn : Bytes
  rncId : Int
  deriving DecidableEq, Repr

/-- Its value (include/osmocom/ranap/RANAP_GlobalRNC-ID.h:24-30). -/
def RncId.toVal (r : RncId) : Val := .seq [some (.octets r.plmn), some (.int r.rncId)]

/-- The bits of a BIT STRING: `buf` without the unused bits at the end (libasn1c `BIT_STRING_t`, external; set in iu_helpers.c:220-237). -/
def bitsOf (b : BitStr) : Bits := (octetsBits b.buf).take (8 * b.buf.length - b.unused)

/-- libasn1c `asn1_u24_to_bitstring` (external): the lower 24 bits, most significant octet first. -/
def u24Bits (n : BitVec 32) : Bits := octetsBits ((store32be n).drop 1)

/-! ### Protocol constants (RANAP_ProtocolIE-ID.h, RANAP_ProcedureCode.h) -/

/-- `RANAP_ProtocolIE_ID_id_CN_DomainIndicator` (include/osmocom/ranap/RANAP_ProtocolIE-ID.h:24). -/
def idCN_DomainIndicator : Nat := 3
/-- `RANAP_ProtocolIE_ID_id_Cause` (include/osmocom/ranap/RANAP_ProtocolIE-ID.h:25). -/
def idCause : Nat := 4
/-- `RANAP_ProtocolIE_ID_id_ChosenEncryptionAlgorithm` (include/osmocom/ranap/RANAP_ProtocolIE-ID.h:26). -/
def idChosenEncryptionAlgorithm : Nat := 5
/-- `RANAP_ProtocolIE_ID_id_ChosenIntegrityProtectionAlgorithm` (include/osmocom/ranap/RANAP_ProtocolIE-ID.h:27). -/
def idChosenIntegrityProtectionAlgorithm : Nat := 6
/-- `RANAP_ProtocolIE_ID_id_CriticalityDiagnostics` (include/osmocom/ranap/RANAP_ProtocolIE-ID.h:30). -/
def idCriticalityDiagnostics : Nat := 9
/-- `RANAP_ProtocolIE_ID_id_EncryptionInformation` (include/osmocom/ranap/RANAP_ProtocolIE-ID.h:32). -/
def idEncryptionInformation : Nat := 11
/-- `RANAP_ProtocolIE_ID_id_IntegrityProtectionInformation` (include/osmocom/ranap/RANAP_ProtocolIE-ID.h:33). -/
def idIntegrityProtectionInformation : Nat := 12
/-- `RANAP_ProtocolIE_ID_id_LAI` (include/osmocom/ranap/RANAP_ProtocolIE-ID.h:36). -/
def idLAI : Nat := 15
/-- `RANAP_ProtocolIE_ID_id_NAS_PDU` (include/osmocom/ranap/RANAP_ProtocolIE-ID.h:37). -/
def idNAS_PDU : Nat := 16
/-- `RANAP_ProtocolIE_ID_id_PagingCause` (include/osmocom/ranap/RANAP_ProtocolIE-ID.h:43). -/
def idPagingCause : Nat := 22
/-- `RANAP_ProtocolIE_ID_id_PermanentNAS_UE_ID` (include/osmocom/ranap/RANAP_ProtocolIE-ID.h:44). -/
def idPermanentNAS_UE_ID : Nat := 23
/-- `RANAP_ProtocolIE_ID_id_RAB_ReleaseItem` (include/osmocom/ranap/RANAP_ProtocolIE-ID.h:61). -/
def idRAB_ReleaseItem : Nat := 40
/-- `RANAP_ProtocolIE_ID_id_RAB_ReleaseList` (include/osmocom/ranap/RANAP_ProtocolIE-ID.h:62). -/
def idRAB_ReleaseList : Nat := 41
/-- `RANAP_ProtocolIE_ID_id_RAB_SetupOrModifyItem` (include/osmocom/ranap/RANAP_ProtocolIE-ID.h:74). -/
def idRAB_SetupOrModifyItem : Nat := 53
/-- `RANAP_ProtocolIE_ID_id_RAB_SetupOrModifyList` (include/osmocom/ranap/RANAP_ProtocolIE-ID.h:75). -/
def idRAB_SetupOrModifyList : Nat := 54
/-- `RANAP_ProtocolIE_ID_id_SAI` (include/osmocom/ranap/RANAP_ProtocolIE-ID.h:79). -/
def idSAI : Nat := 58
/-- `RANAP_ProtocolIE_ID_id_SAPI` (include/osmocom/ranap/RANAP_ProtocolIE-ID.h:80). -/
def idSAPI : Nat := 59
/-- `RANAP_ProtocolIE_ID_id_TemporaryUE_ID` (include/osmocom/ranap/RANAP_ProtocolIE-ID.h:85). -/
def idTemporaryUE_ID : Nat := 64
/-- `RANAP_ProtocolIE_ID_id_KeyStatus` (include/osmocom/ranap/RANAP_ProtocolIE-ID.h:94). -/
def idKeyStatus : Nat := 75
/-- `RANAP_ProtocolIE_ID_id_IuSigConIdList` (include/osmocom/ranap/RANAP_ProtocolIE-ID.h:96). -/
def idIuSigConIdList : Nat := 77
/-- `RANAP_ProtocolIE_ID_id_IuSigConIdItem` (include/osmocom/ranap/RANAP_ProtocolIE-ID.h:97). -/
def idIuSigConIdItem : Nat := 78
/-- `RANAP_ProtocolIE_ID_id_IuSigConId` (include/osmocom/ranap/RANAP_ProtocolIE-ID.h:98). -/
def idIuSigConId : Nat := 79
/-- `RANAP_ProtocolIE_ID_id_GlobalRNC_ID` (include/osmocom/ranap/RANAP_ProtocolIE-ID.h:105). -/
def idGlobalRNC_ID : Nat := 86
/-- `RANAP_ProtocolIE_ID_id_RAB_Parameter_ExtendedMaxBitrateList` (include/osmocom/ranap/RANAP_ProtocolIE-ID.h:194). -/
def idRAB_Parameter_ExtendedMaxBitrateList : Nat := 177

/-- `RANAP_Criticality_reject` (include/osmocom/ranap/RANAP_Criticality.h:23). -/
def reject : Nat := 0
/-- `RANAP_Criticality_ignore` (include/osmocom/ranap/RANAP_Criticality.h:24). -/
def ignore : Nat := 1

/-! ## Messages -/

/-- `ranap_new_msg_reset2` (ranap_msg_factory.c:50-88). -/
def reset2 (domain : Nat) (cause : Option Cause) (rncId : Option RncId) : Res (Option Bytes) :=
  let m := resetIEs
  let s := put m idCN_DomainIndicator (.enum domain) m.zero                       -- l.60
  let s := match cause with | some c => put m idCause c.toVal s | none => s       -- l.61-62
  let s := match rncId with                                                       -- l.64-70
    | some r => put m idGlobalRNC_ID r.toVal (setMask (present resetIEs idGlobalRNC_ID) s)
    | none => s
  .ok (generate 1 9 reject m s)                                                   -- l.73-87

/-- `ranap_new_msg_reset` (ranap_msg_factory.c:43-47). -/
def reset (domain : Nat) (cause : Option Cause) : Res (Option Bytes) := reset2 domain cause none

/-- `ranap_new_msg_reset_ack` (ranap_msg_factory.c:91-130). -/
def resetAck (domain : Nat) (rncId : Option RncId) : Res (Option Bytes) :=
  let m := resetAcknowledgeIEs
  let s := put m idCN_DomainIndicator (.enum domain) m.zero
  let s := match rncId with                                                       -- l.104-110
    | some r => put m idGlobalRNC_ID r.toVal (setMask (present resetAcknowledgeIEs idGlobalRNC_ID) s)
    | none => s
  .ok (generate 2 9 reject m s)

/-- `ranap_new_msg_error_ind` (ranap_msg_factory.c:133-184).  Line 161 assigns the constant of another
message instead of adding its own. -/
def errorInd (cause : Option Cause) (diag : Option Val) (domain : Option Nat) (rncId : Option RncId) :
    Res (Option Bytes) :=
  let m := errorIndicationIEs
  let s := m.zero
  let s := match cause with                                                       -- l.145-148
    | some c => put m idCause c.toVal (orMask (present m idCause) s)
    | none => s
  let s := match diag with                                                        -- l.150-153
    | some v => put m idCriticalityDiagnostics v (orMask (present m idCriticalityDiagnostics) s)
    | none => s
  let s := match domain with                                                      -- l.155-158
    | some d => put m idCN_DomainIndicator (.enum d) (orMask (present m idCN_DomainIndicator) s)
    | none => s
  let s := match rncId with                                                       -- l.160-166
    | some r => put m idGlobalRNC_ID r.toVal (setMask (present resetAcknowledgeIEs idGlobalRNC_ID) s)
    | none => s
  .ok (generate 1 22 ignore m s)

/-- The octets of `uint16_t buf0 = 0x2342` in memory (ranap_msg_factory.c:196), on a little-endian
host. -/
def buf0 : Bytes := [0x42, 0x23]

/-- `ranap_new_msg_initial_ue` (ranap_msg_factory.c:187-232). -/
def initialUe (connId : BitVec 32) (isPs : Bool) (rncId : Option RncId) (nas : Bytes) : Res (Option Bytes) :=
  let m := initialUE_MessageIEs
  match rncId with
  | none => .fault .nullDeref                                                     -- l.204
  | some r =>
    let s := put m idCN_DomainIndicator (.enum (if isPs then 1 else 0)) m.zero    -- l.199-202
    let s := put m idLAI (.seq [some (.octets r.plmn), some (.octets buf0), none]) s   -- l.204-205
    let s := put m idSAI (.seq [some (.octets r.plmn), some (.octets buf0), some (.octets buf0), none]) s  -- l.207-209
    let s := put m idNAS_PDU (.octets nas) s                                      -- l.211
    let s := put m idIuSigConId (.bits (u24Bits connId)) s                        -- l.212
    let s := put m idGlobalRNC_ID r.toVal s                                       -- l.213-214
    .ok (generate 1 19 ignore m s)

/-- `ranap_new_msg_dt` (ranap_msg_factory.c:236-274). -/
def dt (sapi : Byte) (nas : Bytes) : Res (Option Bytes) :=
  let m := directTransferIEs
  let s := setMask (present m idSAPI) m.zero                                      -- l.247
  let s := put m idSAPI (.enum (if sapi = 3 then 1 else 0)) s                     -- l.249-252
  let s := put m idNAS_PDU (.octets nas) s                                        -- l.255
  .ok (generate 1 20 ignore m s)

/-- The loops of `ranap_new_msg_sec_mod_cmd2` over the bits of a mask (ranap_msg_factory.c:294-315,
321-343): the algorithms in ascending order, or `none` if a bit is set that stands for no supported
algorithm.  `alg1` and `alg2` are the protocol values for bits 1 and 2. -/
def algorithms (mask : Byte) (alg1 alg2 : Int) : Nat → Option (List Val)
  | 0 => some []
  | n + 1 =>
    match algorithms mask alg1 alg2 n with
    | none => none
    | some l =>
      if mask &&& ((1 : Byte) <<< n) = 0 then some l
      else if n = 1 then some (l ++ [.int alg1])
      else if n = 2 then some (l ++ [.int alg2])
      else none

/-- `BIT_STRING_fromBuf(.., 16*8)` (ranap_msg_factory.c:317, 344): the object pointed to has 16 octets, a shorter one is
read beyond its end; NULL gives an error return that is ignored, i.e. an empty key. -/
def keyBits (k : Option Bytes) : Res Bits := match k with
  | none => .ok []
  | some b => if b.length < 16 then .fault .oobRead else .ok (octetsBits (b.take 16))

/-- `ranap_new_msg_sec_mod_cmd2` (ranap_msg_factory.c:283-372). -/
def secModCmd2 (ik : Option Bytes) (ck : Option Bytes) (status : Nat) (uia uea : Byte) : Res (Option Bytes) :=
  let m := securityModeCommandIEs
  match algorithms uia 0 1 8 with                                                 -- l.294-315
  | none => .ok none
  | some ia =>
    match keyBits ik with                                                         -- l.317
    | .fault f => .fault f
    | .ok ikBits =>
      let s := put m idIntegrityProtectionInformation (.seq [some (.list ia), some (.bits ikBits), none]) m.zero
      let fin (s : Struct) : Res (Option Bytes) :=
        .ok (generate 1 6 reject m (put m idKeyStatus (.enum status) s))          -- l.347-371
      match ck with
      | none => fin s
      | some _ =>                                                                 -- l.319-345
        match algorithms uea 1 2 8 with
        | none => .ok none
        | some ea =>
          match keyBits ck with                                                   -- l.344
          | .fault f => .fault f
          | .ok ckBits =>
            fin (put m idEncryptionInformation (.seq [some (.list ea), some (.bits ckBits), none])
              (setMask (present m idEncryptionInformation) s))

/-- `ranap_new_msg_sec_mod_cmd` (ranap_msg_factory.c:373-376). -/
def secModCmd (ik : Option Bytes) (ck : Option Bytes) (status : Nat) : Res (Option Bytes) :=
  secModCmd2 ik ck status 0x06 0x06

/-- `ranap_new_msg_sec_mod_compl` (ranap_msg_factory.c:379-412). -/
def secModCompl (ipAlg encAlg : Int) : Res (Option Bytes) :=
  let m := securityModeCompleteIEs
  let s := setMask (present m idChosenEncryptionAlgorithm) m.zero
  let s := put m idChosenIntegrityProtectionAlgorithm (.int ipAlg) s
  let s := put m idChosenEncryptionAlgorithm (.int encAlg) s
  .ok (generate 2 6 reject m s)

/-- The permanent identity (ranap_msg_factory.c:426-430, 537-540): a zeroed buffer of 16 octets filled
by `ranap_imsi_encode`. -/
def permanentId (imsi : Bytes) : Res Val :=
  match Bcd.imsiEncode (List.replicate 16 0) imsi with
  | .fault f => .fault f
  | .ok (buf, n) => .ok (.choice 0 (.octets (buf.take n)))

/-- `ranap_new_msg_common_id` (ranap_msg_factory.c:415-455). -/
def commonId (imsi : Option Bytes) : Res (Option Bytes) :=
  let m := commonID_IEs
  match imsi with
  | some imsi =>                                                                  -- l.425-430
    match permanentId imsi with
    | .fault f => .fault f
    | .ok v => .ok (generate 1 15 ignore m (put m idPermanentNAS_UE_ID v m.zero))
  | none => .ok (generate 1 15 ignore m m.zero)                                   -- l.432

/-- `ranap_new_msg_iu_rel_cmd` (ranap_msg_factory.c:458-487). -/
def iuRelCmd (cause : Option Cause) : Res (Option Bytes) :=
  let m := iu_ReleaseCommandIEs
  match cause with
  | none => .fault .nullDeref                                                     -- l.468
  | some c => .ok (generate 1 1 reject m (put m idCause c.toVal m.zero))

/-- `ranap_new_msg_iu_rel_compl` (ranap_msg_factory.c:490-517). -/
def iuRelCompl : Res (Option Bytes) :=
  .ok (generate 2 1 reject iu_ReleaseCompleteIEs iu_ReleaseCompleteIEs.zero)

/-- `ranap_new_msg_paging_cmd` (ranap_msg_factory.c:520-581). -/
def pagingCmd (imsi : Option Bytes) (tmsi : Option (BitVec 32)) (isPs : Bool) (cause : BitVec 32) :
    Res (Option Bytes) :=
  let m := pagingIEs
  match imsi with
  | none => .fault .nullDeref                                                     -- l.537
  | some imsi =>
    match permanentId imsi with                                                   -- l.537-540
    | .fault f => .fault f
    | .ok v =>
      let s := put m idCN_DomainIndicator (.enum (if isPs then 1 else 0)) m.zero  -- l.532-535
      let s := put m idPermanentNAS_UE_ID v s
      let s := match tmsi with                                                    -- l.542-552
        | none => s
        | some t => put m idTemporaryUE_ID (.choice (if isPs then 1 else 0) (.octets (store32be t)))
            (orMask (present m idTemporaryUE_ID) s)
      let s := if cause ≠ 0 then                                                  -- l.554-557
          put m idPagingCause (.enum cause.toNat) (orMask (present m idPagingCause) s)
        else s
      .ok (generate 1 14 ignore m s)

/-! ### RAB assignment -/

/-- `new_sdu_error_ratio` (ranap_msg_factory.c:583-591). -/
def sduErrorRatio (mantissa exponent : Int) : Val := .seq [some (.int mantissa), some (.int exponent), none]

/-- `new_format_info_pars` (ranap_msg_factory.c:594-600). -/
def formatInfoPars (size : Int) : Val := .seq [some (.int size), none, none]

/-- `new_sdu_par_item` (ranap_msg_factory.c:610-661), by profile: error ratio, residual bit error
ratio, delivery of erroneous SDUs (0 yes, 1 no, 2 no error detection), format information. -/
def sduParVoice0 : Val := .seq [some (sduErrorRatio 1 5), some (.seq [some (.int 1), some (.int 6), none]),
  some (.enum 0), some (.list [formatInfoPars 81, formatInfoPars 39]), none]
/-- `new_sdu_par_item(SDUPAR_P_VOICE1)` (ranap_msg_factory.c:629-639). -/
def sduParVoice1 : Val := .seq [none, some (.seq [some (.int 1), some (.int 3), none]),
  some (.enum 2), some (.list [formatInfoPars 103, formatInfoPars 0]), none]
/-- `new_sdu_par_item(SDUPAR_P_VOICE2)` (ranap_msg_factory.c:640-650). -/
def sduParVoice2 : Val := .seq [none, some (.seq [some (.int 5), some (.int 3), none]),
  some (.enum 2), some (.list [formatInfoPars 60, formatInfoPars 0]), none]
/-- `new_sdu_par_item(SDUPAR_P_DATA)` (ranap_msg_factory.c:651-657). -/
def sduParData : Val := .seq [some (sduErrorRatio 1 4), some (.seq [some (.int 1), some (.int 5), none]),
  some (.enum 1), none, none]

/-- `new_alloc_ret_prio` (ranap_msg_factory.c:663-687). -/
def allocRetPrio (level : Int) (capability vulnerability queueing : Bool) : Val :=
  .seq [some (.int level), some (.enum capability.toNat), some (.enum vulnerability.toNat),
    some (.enum queueing.toNat), none]

/-- `new_rab_par_voice` (ranap_msg_factory.c:690-718): conversational (0), symmetric bidirectional (0),
delivery order requested (0), no priority (15), speech (0). -/
def rabParVoice (guaranteed max : Int) : Val :=
  .seq [some (.enum 0), some (.enum 0), some (.list [.int max]), some (.list [.int guaranteed]), some (.enum 0),
    some (.int 244), some (.list [sduParVoice0, sduParVoice1, sduParVoice2]), some (.int 80), none,
    some (allocRetPrio 15 false true false), some (.enum 0), none, none]

/-- `new_rab_nas_sync_ind` (ranap_msg_factory.c:720-726): four bits. -/
def nasSyncInd (val : Nat) : Val := .bits ((octetsBits [BitVec.ofNat 8 (val / 10) <<< 4]).take 4)

/-- `new_rab_par_data` (ranap_msg_factory.c:728-763): background (3), asymmetric bidirectional (3);
the extension is a single element (`RANAP_ProtocolExtensionField_t` cast to an element). -/
def rabParData (dl ul : Int) : Val :=
  .seq [some (.enum 3), some (.enum 3), some (.list [.int dl, .int ul]), none, some (.enum 0),
    some (.int 8000), some (.list [sduParData]), none, none,
    some (allocRetPrio 15 false false false), none, none,
    some (.list [.seq [some (.int idRAB_Parameter_ExtendedMaxBitrateList), some (.enum ignore),
      some (.octets (match encode RANAP_RAB_Parameter_ExtendedMaxBitrateList (.list [.int 42000000]) with
        | some b => b
        | none => []))]])]

/-- `new_upi` (ranap_msg_factory.c:765-778): the versions are 16 bits in network byte order. -/
def upi (mode : Nat) (versions : BitVec 16) : Val :=
  .seq [some (.enum mode), some (.bits (octetsBits (store16be versions))), none]

/-- `assign_new_ra_id` (ranap_msg_factory.c:781-789). -/
def rabId (id : Byte) : Val := .bits (octetsBits [id])

/-- `RANAP_TransportLayerInformation_t` as built by `ranap_new_transp_info_*` (iu_helpers.c:247-296). -/
def transpVal (t : TranspInfo) : Val :=
  .seq [some (.bits (bitsOf t.addr)),
    some (match t.assoc with
      | .nothing => .null
      | .gtpTei b => .choice 0 (.octets b)
      | .bindingId b => .choice 1 (.octets b)), none]

/-- `ranap_new_ie_pair` (ranap_common.c:457-496). -/
def newIePair (id c1 : Nat) (t1 : Ty) (v1 : Val) (c2 : Nat) (t2 : Ty) (v2 : Val) : Option Val :=
  match encode t1 v1 with
  | none => none
  | some b1 => match encode t2 v2 with
    | none => none
    | some b2 => some (.seq [some (.int id), some (.enum c1), some (.octets b1), some (.enum c2), some (.octets b2)])

/-- The end of both functions (ranap_msg_factory.c:832-864, 912-946): `ASN_SEQUENCE_ADD` of a NULL pair
adds nothing. -/
def rabAssign (first second : Val) : Res (Option Bytes) :=
  let m := rAB_AssignmentRequestIEs
  let pair := newIePair idRAB_SetupOrModifyItem reject RANAP_RAB_SetupOrModifyItemFirst first
    ignore RANAP_RAB_SetupOrModifyItemSecond second
  let s := setMask (present m idRAB_SetupOrModifyList) m.zero
  .ok (generate 1 0 reject m (put m idRAB_SetupOrModifyList (.list [.list pair.toList]) s))

/-- `s_addr = htonl(ip)`: the octets in memory are those of the number, most significant first (ranap_msg_factory.c:823, 896). -/
def htonlAddr (ip : BitVec 32) : Vector Byte 4 :=
  #v[ip.extractLsb' 24 8, ip.extractLsb' 16 8, ip.extractLsb' 8 8, ip.extractLsb' 0 8]

/-- `ranap_new_msg_rab_assign_voice` (ranap_msg_factory.c:796-865). -/
def rabAssignVoice (rab : Byte) (rtpIp : BitVec 32) (rtpPort : BitVec 16) (x213 : Bool) : Res (Option Bytes) :=
  let addr := SockAddr.inet (htonlAddr rtpIp) rtpPort                             -- l.821-823
  rabAssign
    (.seq [some (rabId rab), some (nasSyncInd 60), some (rabParVoice 6700 12200), some (upi 1 1),
      (newTranspInfoRtp addr x213).map transpVal, none, none])                    -- l.814-824
    (.seq [none, none, none, none, none, none, none])

/-- `ranap_new_msg_rab_assign_data` (ranap_msg_factory.c:869-947). -/
def rabAssignData (rab : Byte) (gtpIp tei : BitVec 32) (x213 : Bool) : Res (Option Bytes) :=
  let addr := SockAddr.inet (htonlAddr gtpIp) 0                                   -- l.895-896, the port is not used
  rabAssign
    (.seq [some (rabId rab), none, some (rabParData 1600000 800000), some (upi 0 1),
      (newTranspInfoGtp addr tei x213).map transpVal, none, none])                -- l.887-897
    (.seq [some (.list [.enum 3]), some (.enum 1), some (.int 0), some (.int 0), none, none, none])  -- l.900-908

/-! ### Requests of the RNC, reset of resources -/

/-- `ranap_new_msg_iu_rel_req` (ranap_msg_factory.c:950-977). -/
def iuRelReq (cause : Option Cause) : Res (Option Bytes) :=
  let m := iu_ReleaseRequestIEs
  match cause with
  | none => .fault .nullDeref                                                     -- l.960
  | some c => .ok (generate 1 11 ignore m (put m idCause c.toVal m.zero))

/-- `ranap_new_msg_rab_rel_req` (ranap_msg_factory.c:980-1021). -/
def rabRelReq (rab : Byte) (cause : Option Cause) : Res (Option Bytes) :=
  let m := rAB_ReleaseRequestIEs
  let mi := rAB_ReleaseItemIEs
  match cause with
  | none => .fault .nullDeref                                                     -- l.994
  | some c =>
    let item := put mi idRAB_ReleaseItem (.seq [some (rabId rab), some c.toVal, none]) mi.zero   -- l.993-994
    match encodeIes mi item with                                                  -- l.997
    | none => .ok none
    | some l => .ok (generate 1 10 ignore m (put m idRAB_ReleaseList (container l) m.zero))

/-- `ranap_new_msg_reset_resource` (ranap_msg_factory.c:1024-1090).  Line 1064 uses the constant of another
message. -/
def resetResource (domain : Nat) (cause : Option Cause) (connIds : Option (List (BitVec 32)))
    (rncId : Option RncId) : Res (Option Bytes) :=
  let m := resetResourceIEs
  let mi := resetResourceItemIEs
  match connIds, cause with
  | none, _ => .fault .abort                                                      -- l.1037
  | _, none => .fault .abort                                                      -- l.1038
  | some [id], some c =>
    let s := put m idCN_DomainIndicator (.enum domain) m.zero                     -- l.1045
    let s := put m idCause c.toVal s                                              -- l.1048
    let item := put mi idIuSigConIdItem (.seq [some (.bits (u24Bits id)), none]) mi.zero   -- l.1055
    match encodeIes mi item with                                                  -- l.1058
    | none => .ok none
    | some l =>
      let s := put m idIuSigConIdList (container l) s
      let s := match rncId with                                                   -- l.1063-1069
        | some r => put m idGlobalRNC_ID r.toVal (setMask (present resetIEs idGlobalRNC_ID) s)
        | none => s
      .ok (generate 1 27 reject m s)
  | some _, some _ => .ok none                                                    -- l.1051-1054

end Verif.Factory
