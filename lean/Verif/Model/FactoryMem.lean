import Verif.Model.Factory

/-!
# Heap memory of the RANAP message generators

`/repo/src/ranap_msg_factory.c` once more, with the blocks that are allocated and freed.  The messages themselves are
those of `Model/Factory.lean` (`C81_same_result`).

What libasn1c does (not in /repo): `ANY_fromType_aper` allocates the buffer of the value if it succeeds, and nothing
otherwise; the first `ASN_SEQUENCE_ADD` to a list allocates its array, which grows by `realloc` and is counted as one
block; `ASN_SEQUENCE_ADD` of NULL does nothing; `ASN_STRUCT_FREE_CONTENTS_ONLY` frees everything a structure points to;
`asn_set_empty` frees the array of a list but, without a `free` function in it, not its elements;
`BIT_STRING_fromBuf(.., NULL, ..)` allocates nothing.  Allocation does not fail.
-/

namespace Verif.Factory
open Verif.Aper Verif.Ie Verif.Addr Verif.Gen.Ranap

/-- The heap: block numbers and the trace of allocations (CALLOC, malloc) and releases (FREEMEM, free). (E.g.
ranap_msg_factory.c:37, 656.) -/
abbrev Heap := Mem Unit

/-- Something done with the heap (ranap_msg_factory.c:1-1090). -/
abbrev M (α : Type) := StateM Heap α

/-- `CALLOC` of a block (e.g. ranap_msg_factory.c:37). -/
def calloc : M (List Nat) := fun μ => ([μ.next], ⟨μ.next + 1, μ.trace ++ [.alloc μ.next]⟩)

/-- `CALLOC` of a block if it is needed (e.g. ranap_msg_factory.c:542-543). -/
def callocIf (b : Bool) : M (List Nat) := if b then calloc else pure []

/-- Releasing blocks: `FREEMEM`, `ASN_STRUCT_FREE_CONTENTS_ONLY` (e.g. ranap_msg_factory.c:85, 656). -/
def release (bs : List Nat) : M Unit := fun μ => ((), ⟨μ.next, μ.trace ++ bs.map .free⟩)

/-- Parts of a structure made one after the other; the result is all blocks of the structure (e.g.
ranap_msg_factory.c:693-717). -/
def parts : List (M (List Nat)) → M (List Nat)
  | [] => pure []
  | c :: cs => do
    let a ← c
    let b ← parts cs
    pure (a ++ b)

/-- The generated encode functions: `*_new_ie` allocates the element and its value, or frees the element if the value
has no encoding (ranap_common.c:426-455); `ASN_SEQUENCE_ADD` adds it to the list `out` (asn1tostruct.py:496-538). -/
def encodeRowsM : List IeDef → Nat → BitVec 16 → List (Option Slot) → List Nat → M (Option (List Ie) × List Nat)
  | [], _, _, _, out => pure (some [], out)
  | _ :: _, _, _, [], out => pure (none, out)
  | d :: ds, sh, mask, f :: fs, out =>
    if d.opt && !isPresent mask sh then encodeRowsM ds (sh + 1) mask fs out
    else do
      let ie ← calloc
      match newIe d.id d.crit d.ty f with
      | none =>
        release ie
        pure (none, out)
      | some e =>
        let value ← calloc
        let array ← callocIf out.isEmpty
        let (r, out) ← encodeRowsM ds (if d.opt then sh + 1 else sh) mask fs (array ++ ie ++ value ++ out)
        match r with
        | none => pure (none, out)
        | some l => pure (some (e :: l), out)

/-- `ranap_encode_*ies(&out, &ies)`: the elements, or `none` for -1, and the blocks `out` then owns
(asn1tostruct.py:471-538). -/
def encodeM (m : MsgDef) (s : Struct) : M (Option (List Ie) × List Nat) := encodeRowsM m.ies 0 s.mask s.fields []

/-- `ranap_generate_*` (ranap_common.c:319-423) with `_ranap_gen_msg` (298-317): the value of the PDU, the message
buffer, release of the value.  The result is the message and its block. -/
def generateM (present code crit : Nat) (t : Ty) (v : Val) : M (Option (Bytes × List Nat)) :=
  match encode t v with
  | none => pure none
  | some any => do
    let value ← calloc
    let msg ← calloc
    release value
    pure (some (genPdu RANAP_RANAP_PDU tailroom (pduVal present code crit any), msg))

/-- The common end of the functions (e.g. ranap_msg_factory.c:350-371): encode, release what was attached to `ies`,
give up if the encoding failed (releasing `out` or not), generate, release `out`. -/
def finish (present code crit : Nat) (m : MsgDef) (s : Struct) (ies : List Nat) (releaseOut : Bool) :
    M (Option (Bytes × List Nat)) := do
  let (r, out) ← encodeM m s
  release ies
  match r with
  | none =>
    if releaseOut then release out
    pure none
  | some l =>
    let msg ← generateM present code crit m.ty (container l)
    release out
    pure msg

/-- The loops over the bits of a mask (ranap_msg_factory.c:294-315, 321-343): the blocks of the elements and of the
array, and whether every bit stood for an algorithm; otherwise the loop was left there. -/
def algorithmsM (mask : Byte) : List Nat → List Nat → List Nat → M (Bool × List Nat × List Nat)
  | [], els, array => pure (true, els, array)
  | i :: is, els, array =>
    if mask &&& ((1 : Byte) <<< i) = 0 then algorithmsM mask is els array
    else if i = 1 ∨ i = 2 then do
      let alg ← calloc
      let a ← callocIf array.isEmpty
      algorithmsM mask is (alg ++ els) (a ++ array)
    else pure (false, els, array)

/-- `BIT_STRING_fromBuf` (ranap_msg_factory.c:317, 344). -/
def keyM (k : Option Bytes) : M (List Nat) := callocIf k.isSome

/-- `ranap_new_msg_reset2` (ranap_msg_factory.c:50-88). -/
def reset2M (domain : Nat) (cause : Option Cause) (rncId : Option RncId) : M (Option (Bytes × List Nat)) :=
  let m := resetIEs
  let s := put m idCN_DomainIndicator (.enum domain) m.zero
  let s := match cause with | some c => put m idCause c.toVal s | none => s
  let s := match rncId with
    | some r => put m idGlobalRNC_ID r.toVal (setMask (present resetIEs idGlobalRNC_ID) s)
    | none => s
  finish 1 9 reject m s [] false

/-- `ranap_new_msg_reset_ack` (ranap_msg_factory.c:91-130). -/
def resetAckM (domain : Nat) (rncId : Option RncId) : M (Option (Bytes × List Nat)) :=
  let m := resetAcknowledgeIEs
  let s := put m idCN_DomainIndicator (.enum domain) m.zero
  let s := match rncId with
    | some r => put m idGlobalRNC_ID r.toVal (setMask (present resetAcknowledgeIEs idGlobalRNC_ID) s)
    | none => s
  finish 2 9 reject m s [] false

/-- `ranap_new_msg_error_ind` (ranap_msg_factory.c:133-184). -/
def errorIndM (cause : Option Cause) (diag : Option Val) (domain : Option Nat) (rncId : Option RncId) :
    M (Option (Bytes × List Nat)) :=
  let m := errorIndicationIEs
  let s := m.zero
  let s := match cause with
    | some c => put m idCause c.toVal (orMask (present m idCause) s)
    | none => s
  let s := match diag with
    | some v => put m idCriticalityDiagnostics v (orMask (present m idCriticalityDiagnostics) s)
    | none => s
  let s := match domain with
    | some d => put m idCN_DomainIndicator (.enum d) (orMask (present m idCN_DomainIndicator) s)
    | none => s
  let s := match rncId with
    | some r => put m idGlobalRNC_ID r.toVal (setMask (present resetAcknowledgeIEs idGlobalRNC_ID) s)
    | none => s
  finish 1 22 ignore m s [] false

/-- `ranap_new_msg_initial_ue` (ranap_msg_factory.c:187-232). -/
def initialUeM (connId : BitVec 32) (isPs : Bool) (r : RncId) (nas : Bytes) : M (Option (Bytes × List Nat)) :=
  let m := initialUE_MessageIEs
  let s := put m idCN_DomainIndicator (.enum (if isPs then 1 else 0)) m.zero
  let s := put m idLAI (.seq [some (.octets r.plmn), some (.octets buf0), none]) s
  let s := put m idSAI (.seq [some (.octets r.plmn), some (.octets buf0), some (.octets buf0), none]) s
  let s := put m idNAS_PDU (.octets nas) s
  let s := put m idIuSigConId (.bits (u24Bits connId)) s
  let s := put m idGlobalRNC_ID r.toVal s
  finish 1 19 ignore m s [] false

/-- `ranap_new_msg_dt` (ranap_msg_factory.c:236-274). -/
def dtM (sapi : Byte) (nas : Bytes) : M (Option (Bytes × List Nat)) :=
  let m := directTransferIEs
  let s := setMask (present m idSAPI) m.zero
  let s := put m idSAPI (.enum (if sapi = 3 then 1 else 0)) s
  let s := put m idNAS_PDU (.octets nas) s
  finish 1 20 ignore m s [] false

/-- `ranap_new_msg_sec_mod_cmd2` (ranap_msg_factory.c:283-372). -/
def secModCmd2M (ik : Option Bytes) (ck : Option Bytes) (status : Nat) (uia uea : Byte) :
    Res (M (Option (Bytes × List Nat))) :=
  let m := securityModeCommandIEs
  let iaM := algorithmsM uia [0, 1, 2, 3, 4, 5, 6, 7] [] []                       -- l.294-315
  let eaM := algorithmsM uea [0, 1, 2, 3, 4, 5, 6, 7] [] []                       -- l.321-343
  match algorithms uia 0 1 8 with
  | none => .ok do
    let _ ← iaM
    pure none                                                                     -- l.307
  | some ia => match keyBits ik with
    | .fault f => .fault f
    | .ok ikBits =>
      let s := put m idIntegrityProtectionInformation (.seq [some (.list ia), some (.bits ikBits), none]) m.zero
      match ck with
      | none => .ok do
        let (_, els, array) ← iaM
        let k ← keyM ik                                                           -- l.317
        finish 1 6 reject m (put m idKeyStatus (.enum status) s) (els ++ array ++ k) false  -- l.353
      | some _ => match algorithms uea 1 2 8 with
        | none => .ok do
          let (_, _, array) ← iaM
          let _ ← keyM ik
          let _ ← eaM
          release array                                                           -- l.334
          pure none
        | some ea => match keyBits ck with
          | .fault f => .fault f
          | .ok ckBits => .ok do
            let (_, els, array) ← iaM
            let k ← keyM ik
            let (_, els', array') ← eaM
            let k' ← keyM ck                                                      -- l.344
            finish 1 6 reject m (put m idKeyStatus (.enum status)
              (put m idEncryptionInformation (.seq [some (.list ea), some (.bits ckBits), none])
                (setMask (present m idEncryptionInformation) s)))
              ((els ++ array ++ k) ++ (els' ++ array' ++ k')) false               -- l.353-355

/-- `ranap_new_msg_sec_mod_compl` (ranap_msg_factory.c:379-412). -/
def secModComplM (ipAlg encAlg : Int) : M (Option (Bytes × List Nat)) :=
  let m := securityModeCompleteIEs
  let s := setMask (present m idChosenEncryptionAlgorithm) m.zero
  let s := put m idChosenIntegrityProtectionAlgorithm (.int ipAlg) s
  let s := put m idChosenEncryptionAlgorithm (.int encAlg) s
  finish 2 6 reject m s [] false

/-- `ranap_new_msg_common_id` (ranap_msg_factory.c:415-455). -/
def commonIdM (imsi : Option Bytes) : Res (M (Option (Bytes × List Nat))) :=
  let m := commonID_IEs
  match imsi with
  | some imsi => match permanentId imsi with
    | .fault f => .fault f
    | .ok v => .ok do
      let buf ← calloc                                                            -- l.426
      finish 1 15 ignore m (put m idPermanentNAS_UE_ID v m.zero) buf false        -- l.438
  | none => .ok (finish 1 15 ignore m m.zero [] false)

/-- `ranap_new_msg_iu_rel_cmd` (ranap_msg_factory.c:458-487). -/
def iuRelCmdM (c : Cause) : M (Option (Bytes × List Nat)) :=
  let m := iu_ReleaseCommandIEs
  finish 1 1 reject m (put m idCause c.toVal m.zero) [] false

/-- `ranap_new_msg_iu_rel_compl` (ranap_msg_factory.c:490-517). -/
def iuRelComplM : M (Option (Bytes × List Nat)) :=
  finish 2 1 reject iu_ReleaseCompleteIEs iu_ReleaseCompleteIEs.zero [] false

/-- `ranap_new_msg_paging_cmd` (ranap_msg_factory.c:520-581). -/
def pagingCmdM (imsi : Bytes) (tmsi : Option (BitVec 32)) (isPs : Bool) (cause : BitVec 32) :
    Res (M (Option (Bytes × List Nat))) :=
  let m := pagingIEs
  match permanentId imsi with
  | .fault f => .fault f
  | .ok v =>
    let s := put m idCN_DomainIndicator (.enum (if isPs then 1 else 0)) m.zero
    let s := put m idPermanentNAS_UE_ID v s
    let s := match tmsi with
      | none => s
      | some t => put m idTemporaryUE_ID (.choice (if isPs then 1 else 0) (.octets (store32be t)))
          (orMask (present m idTemporaryUE_ID) s)
    let s := if cause ≠ 0 then
        put m idPagingCause (.enum cause.toNat) (orMask (present m idPagingCause) s)
      else s
    .ok do
      let buf ← calloc                                                            -- l.525
      let tbuf ← callocIf tmsi.isSome             -- l.543
      finish 1 14 ignore m s (buf ++ tbuf) false                                  -- l.563-564

/-! ### RAB assignment -/

/-- `new_long` (ranap_msg_factory.c:35-40). -/
def newLongM : M (List Nat) := calloc

/-- `new_sdu_error_ratio` (ranap_msg_factory.c:583-591). -/
def sduErrorRatioM : M (List Nat) := calloc

/-- `new_format_info_pars` (ranap_msg_factory.c:594-600). -/
def formatInfoParsM : M (List Nat) := parts [calloc, newLongM]

/-- The array of a list, allocated by the first `ASN_SEQUENCE_ADD` (e.g. ranap_msg_factory.c:624). -/
def arrayM : M (List Nat) := calloc

/-- `new_sdu_par_item` for voice (ranap_msg_factory.c:610-650): item, format information list, error ratio
(SDUPAR_P_VOICE0 only), two entries. -/
def sduParVoiceM (ratio : Bool) : M (List Nat) :=
  parts [calloc, calloc, callocIf ratio, formatInfoParsM, arrayM, formatInfoParsM]

/-- `new_sdu_par_item(SDUPAR_P_DATA)` (ranap_msg_factory.c:610-616, 651-657): the format information list is freed. -/
def sduParDataM : M (List Nat) := do
  let sdui ← calloc
  let fmtip ← calloc
  let ratio ← sduErrorRatioM
  release fmtip
  pure (sdui ++ ratio)

/-- `new_rab_par_voice` (ranap_msg_factory.c:690-718). -/
def rabParVoiceM : M (List Nat) :=
  parts [calloc, newLongM, arrayM, calloc, newLongM, arrayM, sduParVoiceM true, arrayM, sduParVoiceM false,
    sduParVoiceM false, newLongM, calloc, newLongM]

/-- `new_rab_nas_sync_ind` (ranap_msg_factory.c:720-726). -/
def nasSyncIndM : M (List Nat) := parts [calloc, calloc]

/-- `new_rab_par_data` (ranap_msg_factory.c:728-763): the list of the extension is freed after it has been encoded. -/
def rabParDataM : M (List Nat) := do
  let rab ← parts [calloc, newLongM, arrayM, newLongM, sduParDataM, arrayM, calloc]
  let pxf ← calloc
  let mbrlist ← parts [calloc, calloc, arrayM]
  let value ← calloc
  release mbrlist
  let ext ← parts [calloc, arrayM]
  pure (rab ++ pxf ++ value ++ ext)

/-- `new_upi` (ranap_msg_factory.c:765-778). -/
def upiM : M (List Nat) := parts [calloc, calloc]

/-- `assign_new_ra_id` (ranap_msg_factory.c:781-789). -/
def rabIdM : M (List Nat) := calloc

/-- `ranap_new_transp_info_rtp`, `ranap_new_transp_info_gtp` (iu_helpers.c:247-296), for an IPv4 address: structure,
address, binding id or TEI. -/
def transpInfoM : M (List Nat) := parts [calloc, calloc, calloc]

/-- `ranap_new_ie_pair` (ranap_common.c:457-496). -/
def newIePairM (t1 : Ty) (v1 : Val) (t2 : Ty) (v2 : Val) : M (Option (List Nat)) := do
  let buff ← calloc
  match encode t1 v1 with
  | none =>
    release buff
    pure none
  | some _ =>
    let b1 ← calloc
    match encode t2 v2 with
    | none =>
      release (buff ++ b1)
      pure none
    | some _ =>
      let b2 ← calloc
      pure (some (buff ++ b1 ++ b2))

/-- The end of both functions (ranap_msg_factory.c:832-864, 912-946). -/
def rabAssignM (first second : Val) (firstM secondM : M (List Nat)) : M (Option (Bytes × List Nat)) := do
  let m := rAB_AssignmentRequestIEs
  let f ← firstM
  let s2 ← secondM
  let pair ← newIePairM RANAP_RAB_SetupOrModifyItemFirst first RANAP_RAB_SetupOrModifyItemSecond second
  release f                                                                       -- l.839, 920
  release s2                                                                      -- l.840, 921
  let cp ← calloc                                                                 -- l.842, 923
  let cpArray ← callocIf pair.isSome              -- l.844, 925
  let array ← arrayM                                                              -- l.845, 927
  let v := newIePair idRAB_SetupOrModifyItem reject RANAP_RAB_SetupOrModifyItemFirst first
    ignore RANAP_RAB_SetupOrModifyItemSecond second
  let s := setMask (present m idRAB_SetupOrModifyList) m.zero
  finish 1 0 reject m (put m idRAB_SetupOrModifyList (.list [.list v.toList]) s)
    ((match pair with | none => [] | some p => p) ++ cp ++ cpArray ++ array) false  -- l.851, 933

/-- `ranap_new_msg_rab_assign_voice` (ranap_msg_factory.c:796-865). -/
def rabAssignVoiceM (rab : Byte) (rtpIp : BitVec 32) (rtpPort : BitVec 16) (x213 : Bool) :
    M (Option (Bytes × List Nat)) :=
  let addr := SockAddr.inet (htonlAddr rtpIp) rtpPort
  rabAssignM
    (.seq [some (rabId rab), some (nasSyncInd 60), some (rabParVoice 6700 12200), some (upi 1 1),
      (newTranspInfoRtp addr x213).map transpVal, none, none])
    (.seq [none, none, none, none, none, none, none])
    (parts [rabIdM, nasSyncIndM, rabParVoiceM, upiM, transpInfoM])                -- l.816-824
    (pure [])

/-- `ranap_new_msg_rab_assign_data` (ranap_msg_factory.c:869-947). -/
def rabAssignDataM (rab : Byte) (gtpIp tei : BitVec 32) (x213 : Bool) : M (Option (Bytes × List Nat)) :=
  let addr := SockAddr.inet (htonlAddr gtpIp) 0
  rabAssignM
    (.seq [some (rabId rab), none, some (rabParData 1600000 800000), some (upi 0 1),
      (newTranspInfoGtp addr tei x213).map transpVal, none, none])
    (.seq [some (.list [.enum 3]), some (.enum 1), some (.int 0), some (.int 0), none, none, none])
    (parts [rabIdM, rabParDataM, upiM, transpInfoM])                              -- l.889-897
    (parts [calloc, newLongM, arrayM, calloc, newLongM, newLongM])                -- l.902-908

/-- `ranap_new_msg_iu_rel_req` (ranap_msg_factory.c:950-977). -/
def iuRelReqM (c : Cause) : M (Option (Bytes × List Nat)) :=
  let m := iu_ReleaseRequestIEs
  finish 1 11 ignore m (put m idCause c.toVal m.zero) [] true                     -- l.965

/-- `ranap_new_msg_rab_rel_req` (ranap_msg_factory.c:980-1021). -/
def rabRelReqM (rab : Byte) (c : Cause) : M (Option (Bytes × List Nat)) := do
  let m := rAB_ReleaseRequestIEs
  let mi := rAB_ReleaseItemIEs
  let id ← rabIdM                                                                 -- l.993
  let item := put mi idRAB_ReleaseItem (.seq [some (rabId rab), some c.toVal, none]) mi.zero
  let (r, list) ← encodeM mi item                                                 -- l.997
  match r with
  | none => pure none                                                             -- l.999
  | some l =>
    release id                                                                    -- l.1000
    finish 1 10 ignore m (put m idRAB_ReleaseList (container l) m.zero) list false  -- l.1006

/-- `ranap_new_msg_reset_resource` (ranap_msg_factory.c:1024-1090). -/
def resetResourceM (domain : Nat) (c : Cause) (connIds : List (BitVec 32)) (rncId : Option RncId) :
    M (Option (Bytes × List Nat)) :=
  let m := resetResourceIEs
  let mi := resetResourceItemIEs
  match connIds with
  | [id] => do
    let s := put m idCN_DomainIndicator (.enum domain) m.zero
    let s := put m idCause c.toVal s
    let item := put mi idIuSigConIdItem (.seq [some (.bits (u24Bits id)), none]) mi.zero
    let (r, list) ← encodeM mi item                                               -- l.1058
    match r with
    | none => pure none                                                           -- l.1060
    | some l =>
      let s := put m idIuSigConIdList (container l) s
      let s := match rncId with
        | some r => put m idGlobalRNC_ID r.toVal (setMask (present resetIEs idGlobalRNC_ID) s)
        | none => s
      finish 1 27 reject m s list false                                           -- l.1075
  | _ => pure none                                                                -- l.1053

/-! ### All of them -/

/-- A call of a message generator (ranap_msg_factory.c:50-1090).  `ranap_new_msg_reset` and `ranap_new_msg_sec_mod_cmd`
call the functions with a 2. -/
inductive Call where
  | reset2 (domain : Nat) (cause : Option Cause) (rncId : Option RncId)
  | resetAck (domain : Nat) (rncId : Option RncId)
  | errorInd (cause : Option Cause) (diag : Option Val) (domain : Option Nat) (rncId : Option RncId)
  | initialUe (connId : BitVec 32) (isPs : Bool) (rncId : Option RncId) (nas : Bytes)
  | dt (sapi : Byte) (nas : Bytes)
  | secModCmd2 (ik ck : Option Bytes) (status : Nat) (uia uea : Byte)
  | secModCompl (ipAlg encAlg : Int)
  | commonId (imsi : Option Bytes)
  | iuRelCmd (cause : Option Cause)
  | iuRelCompl
  | pagingCmd (imsi : Option Bytes) (tmsi : Option (BitVec 32)) (isPs : Bool) (cause : BitVec 32)
  | rabAssignVoice (rab : Byte) (rtpIp : BitVec 32) (rtpPort : BitVec 16) (x213 : Bool)
  | rabAssignData (rab : Byte) (gtpIp tei : BitVec 32) (x213 : Bool)
  | iuRelReq (cause : Option Cause)
  | rabRelReq (rab : Byte) (cause : Option Cause)
  | resetResource (domain : Nat) (cause : Option Cause) (connIds : Option (List (BitVec 32))) (rncId : Option RncId)

/-- The message returned, by `Model/Factory.lean` (ranap_msg_factory.c:50-1090). -/
def Call.result : Call → Res (Option Bytes)
  | .reset2 d c r => Factory.reset2 d c r
  | .resetAck d r => Factory.resetAck d r
  | .errorInd c v d r => Factory.errorInd c v d r
  | .initialUe i p r n => Factory.initialUe i p r n
  | .dt s n => Factory.dt s n
  | .secModCmd2 ik ck st a e => Factory.secModCmd2 ik ck st a e
  | .secModCompl i e => Factory.secModCompl i e
  | .commonId i => Factory.commonId i
  | .iuRelCmd c => Factory.iuRelCmd c
  | .iuRelCompl => Factory.iuRelCompl
  | .pagingCmd i t p c => Factory.pagingCmd i t p c
  | .rabAssignVoice r i p x => Factory.rabAssignVoice r i p x
  | .rabAssignData r i t x => Factory.rabAssignData r i t x
  | .iuRelReq c => Factory.iuRelReq c
  | .rabRelReq r c => Factory.rabRelReq r c
  | .resetResource d c i r => Factory.resetResource d c i r

/-- The call with its effects on the heap: the message and its block (ranap_msg_factory.c:50-1090). -/
def Call.run : Call → Res (M (Option (Bytes × List Nat)))
  | .reset2 d c r => .ok (reset2M d c r)
  | .resetAck d r => .ok (resetAckM d r)
  | .errorInd c v d r => .ok (errorIndM c v d r)
  | .initialUe i p (some r) n => .ok (initialUeM i p r n)
  | .initialUe _ _ none _ => .fault .nullDeref
  | .dt s n => .ok (dtM s n)
  | .secModCmd2 ik ck st a e => secModCmd2M ik ck st a e
  | .secModCompl i e => .ok (secModComplM i e)
  | .commonId i => commonIdM i
  | .iuRelCmd (some c) => .ok (iuRelCmdM c)
  | .iuRelCmd none => .fault .nullDeref
  | .iuRelCompl => .ok iuRelComplM
  | .pagingCmd (some i) t p c => pagingCmdM i t p c
  | .pagingCmd none _ _ _ => .fault .nullDeref
  | .rabAssignVoice r i p x => .ok (rabAssignVoiceM r i p x)
  | .rabAssignData r i t x => .ok (rabAssignDataM r i t x)
  | .iuRelReq (some c) => .ok (iuRelReqM c)
  | .iuRelReq none => .fault .nullDeref
  | .rabRelReq r (some c) => .ok (rabRelReqM r c)
  | .rabRelReq _ none => .fault .nullDeref
  | .resetResource d (some c) (some i) r => .ok (resetResourceM d c i r)
  | .resetResource _ _ none _ => .fault .abort
  | .resetResource _ none _ _ => .fault .abort

end Verif.Factory
