import Verif.Model.Scarce

/-!
# RAB messages and Reset Resource when memory runs out

The functions of ranap_msg_factory.c that are not in `Model/Scarce.lean`: those that put together elements of parts.  Most of
the memory for parts is used without looking whether there is any.

What libasn1c does (not in /repo), besides what is said in `Model/Scarce.lean`: `asn_set_add` adds nothing to a list that is
NULL, and no element that is NULL; `BIT_STRING_fromBuf` does nothing if the bit string is NULL; `ANY_fromType_aper` leaves the
value empty if it fails, and if there is nothing to encode.  An empty value is then encoded as such or not at all (`lax`).
-/

namespace Verif.Scarce
open Verif.Aper Verif.Ie Verif.Factory Verif.Addr

/-- Something that may fail, and may end the process (ranap_msg_factory.c:35-40). -/
abbrev P (α : Type) := ExceptT Fault S α

/-- Memory that is used without looking whether there is any (e.g. ranap_msg_factory.c:37-38). -/
def need (w : World) : P Unit := do
  if !(← attempt w .part) then throw .nullDeref

/-- `ASN_SEQUENCE_ADD`, whose result is not looked at (e.g. ranap_msg_factory.c:698): the list, and how many elements it has
room for. -/
def addW (w : World) (g : List Val × Nat) (v : Val) : S (List Val × Nat) := do
  if g.1.length = g.2 then
    if ← attempt w .parts then return (g.1 ++ [v], if g.2 = 0 then 4 else 2 * g.2) else return g
  else return (g.1 ++ [v], g.2)

/-- `CALLOC` of a list (ranap_msg_factory.c:613, 700, 759, 842, 902, 923). -/
def newListW (w : World) : S (Option (List Val × Nat)) := do
  if ← attempt w .part then return some ([], 0) else return none

/-- `ASN_SEQUENCE_ADD` to such a list (ranap_msg_factory.c:624, 701, 760, 844, 903, 925). -/
def addToW (w : World) (g : Option (List Val × Nat)) (v : Val) : S (Option (List Val × Nat)) :=
  match g with
  | none => return none
  | some g => do return some (← addW w g v)

/-- Such a list, as a component that may be absent (ranap_msg_factory.c:622, 700, 759, 902). -/
def asVal (g : Option (List Val × Nat)) : Option Val := g.map fun g => .list g.1

/-- `new_long` (ranap_msg_factory.c:35-40). -/
def longW (w : World) (v : Int) : P Val := do
  need w
  return .int v

/-- `new_sdu_error_ratio` (ranap_msg_factory.c:583-591). -/
def sduErrorRatioW (w : World) (mantissa exponent : Int) : P Val := do
  need w
  return sduErrorRatio mantissa exponent

/-- `new_format_info_pars` (ranap_msg_factory.c:594-600). -/
def formatInfoParsW (w : World) (size : Int) : P Val := do
  need w                                                                          -- l.597, used in l.598
  need w                                                                          -- l.598
  return formatInfoPars size

/-- `new_sdu_par_item` (ranap_msg_factory.c:610-661) for the speech profiles: the error ratio (of the first one only), the
residual bit error ratio, delivery of erroneous SDUs and the two formats. -/
def sduParVoiceW (w : World) (ratio : Option (Int × Int)) (residual : Int × Int) (erroneous : Nat) (size1 size2 : Int) : P Val := do
  need w                                                                          -- l.612, used in l.618-641
  let fmtip ← newListW w                                                          -- l.613
  let err ← match ratio with                                                      -- l.618
    | none => pure none
    | some r => do
      let v ← sduErrorRatioW w r.1 r.2
      pure (some v)
  let fmti ← formatInfoParsW w size1                                              -- l.623, 634, 645
  let fmtip ← addToW w fmtip fmti                                                 -- l.624, 635, 646
  let fmti ← formatInfoParsW w size2                                              -- l.625, 636, 647
  let fmtip ← addToW w fmtip fmti                                                 -- l.626, 637, 648
  return .seq [err, some (.seq [some (.int residual.1), some (.int residual.2), none]), some (.enum erroneous), asVal fmtip, none]

/-- `new_sdu_par_item(SDUPAR_P_DATA)` (ranap_msg_factory.c:612-613, 651-657). -/
def sduParDataW (w : World) : P Val := do
  need w                                                                          -- l.612, used in l.652
  let _ ← newListW w                                                              -- l.613, 656
  let err ← sduErrorRatioW w 1 4                                                  -- l.652
  return .seq [some err, some (.seq [some (.int 1), some (.int 5), none]), some (.enum 1), none, none]

/-- `new_alloc_ret_prio` (ranap_msg_factory.c:663-687). -/
def allocRetPrioW (w : World) (level : Int) (capability vulnerability queueing : Bool) : P Val := do
  need w
  return allocRetPrio level capability vulnerability queueing

/-- `new_rab_par_voice` (ranap_msg_factory.c:690-718). -/
def rabParVoiceW (w : World) (guaranteed max : Int) : P Val := do
  need w                                                                          -- l.693, used in l.696
  let v ← longW w max                                                             -- l.699
  let maxBitrate ← addW w ([], 0) v
  let g ← newListW w                                                              -- l.700
  let v ← longW w guaranteed                                                      -- l.701
  let g ← addToW w g v
  let sdui ← sduParVoiceW w (some (1, 5)) (1, 6) 0 81 39                          -- l.705-706
  let sdu ← addW w ([], 0) sdui
  let sdui ← sduParVoiceW w none (1, 3) 2 103 0                                   -- l.707-708
  let sdu ← addW w sdu sdui
  let sdui ← sduParVoiceW w none (5, 3) 2 60 0                                    -- l.709-710
  let sdu ← addW w sdu sdui
  let delay ← longW w 80                                                          -- l.712
  let prio ← allocRetPrioW w 15 false true false                                  -- l.713
  need w                                                                          -- l.715
  return .seq [some (.enum 0), some (.enum 0), some (.list maxBitrate.1), asVal g, some (.enum 0),
    some (.int 244), some (.list sdu.1), some delay, none, some prio, some (.enum 0), none, none]

/-- `new_rab_nas_sync_ind` (ranap_msg_factory.c:720-726). -/
def nasSyncIndW (w : World) (val : Nat) : S (Option Val) := do
  if ← attempt w .part then                                                       -- l.723
    if ← attempt w .string then return some (nasSyncInd val) else return some (.bits [])   -- l.724
  else return none

/-- The value of the extension (ranap_msg_factory.c:750-757): what `ANY_fromType_aper` makes of the list. -/
def extensionW (w : World) (lax : Bool) : P (Option Val) := do
  let mbrlist ← newListW w                                                        -- l.750
  need w                                                                          -- l.751-752
  let mbrlist ← addToW w mbrlist (.int 42000000)                                  -- l.753
  let empty : Option Val := if lax then some (.octets []) else none
  match mbrlist with                                                              -- l.755
  | none => return empty
  | some g =>
    match encode Gen.Ranap.RANAP_RAB_Parameter_ExtendedMaxBitrateList (.list g.1) with
    | none => return empty
    | some b => if ← attempt w .string then return some (.octets b) else return empty

/-- `new_rab_par_data` (ranap_msg_factory.c:728-763). -/
def rabParDataW (w : World) (lax : Bool) (dl ul : Int) : P Val := do
  need w                                                                          -- l.730, used in l.733
  let v ← longW w dl                                                              -- l.736
  let maxBitrate ← addW w ([], 0) v
  let v ← longW w ul                                                              -- l.737
  let maxBitrate ← addW w maxBitrate v
  let sdui ← sduParDataW w                                                        -- l.741
  let sdu ← addW w ([], 0) sdui                                                   -- l.742
  let prio ← allocRetPrioW w 15 false false false                                 -- l.744
  need w                                                                          -- l.746-747
  let value ← extensionW w lax                                                    -- l.750-757
  let ext ← newListW w                                                            -- l.759
  let ext ← addToW w ext (.seq [some (.int idRAB_Parameter_ExtendedMaxBitrateList), some (.enum ignore), value])   -- l.760
  return .seq [some (.enum 3), some (.enum 3), some (.list maxBitrate.1), none, some (.enum 0),
    some (.int 8000), some (.list sdu.1), none, none, some prio, none, none, asVal ext]

/-- `new_upi` (ranap_msg_factory.c:765-778). -/
def upiW (w : World) (mode : Nat) (versions : BitVec 16) : P Val := do
  need w                                                                          -- l.767, used in l.772
  need w                                                                          -- l.768, used in l.770
  return upi mode versions

/-- `assign_new_ra_id` (ranap_msg_factory.c:781-789). -/
def rabIdW (w : World) (id : Byte) : P Val := do
  need w
  return rabId id

/-- `OCTET_STRING_fromBuf`, whose result is not looked at (iu_helpers.c:272, 292). -/
def stringW (w : World) (b : Bytes) : S Bytes := do
  if ← attempt w .string then return b else return []

/-- `ranap_new_transp_layer_addr` (iu_helpers.c:197-245) into a structure that is there, or NULL (`tli`). -/
def transpLayerAddrW (w : World) (tli : Bool) (addr : SockAddr) (x213 : Bool) : P (Option BitStr) :=
  match newTranspLayerAddr addr x213 with
  | none => return none                                                           -- l.217
  | some a => do
    need w                                                                        -- l.223-226, 235-236
    if !tli then throw .nullDeref                                                 -- l.238
    return some a

/-- `ranap_new_transp_info_rtp` (iu_helpers.c:247-276). -/
def transpInfoRtpW (w : World) (addr : SockAddr) (x213 : Bool) : P (Option TranspInfo) :=
  match addr.port? with
  | none => return none                                                           -- l.261
  | some port => do
    let tli ← attempt w .part                                                     -- l.264
    match ← transpLayerAddrW w tli addr x213 with
    | none => return none                                                         -- l.267-268
    | some a =>
      let b ← stringW w (store16be port ++ [0, 0])                                -- l.272-273
      return some ⟨a, .bindingId b⟩

/-- `ranap_new_transp_info_gtp` (iu_helpers.c:278-296). -/
def transpInfoGtpW (w : World) (addr : SockAddr) (tei : BitVec 32) (x213 : Bool) : P (Option TranspInfo) := do
  let tli ← attempt w .part                                                       -- l.281
  match ← transpLayerAddrW w tli addr x213 with
  | none => return none                                                           -- l.287-288
  | some a =>
    let b ← stringW w (store32be tei)                                             -- l.292-293
    return some ⟨a, .gtpTei b⟩

/-- `ranap_new_ie_pair` (ranap_common.c:457-496). -/
def newIePairW (w : World) (debug : Bool) (id c1 : Nat) (t1 : Ty) (v1 : Val) (c2 : Nat) (t2 : Ty) (v2 : Val) : S (Option Val) := do
  if !(← attempt w .element) then return none                                     -- l.466-469
  match encode t1 v1 with
  | none => return none                                                           -- l.475-480
  | some b1 =>
    if !(← attempt w .value) then return none                                     -- l.475-480
    match encode t2 v2 with
    | none => return none                                                         -- l.482-487
    | some b2 =>
      if !(← attempt w .value) then return none                                   -- l.482-487
      if debug then
        if !(← attempt w .output) then return none                                -- l.489-493
      return some (.seq [some (.int id), some (.enum c1), some (.octets b1), some (.enum c2), some (.octets b2)])

/-- The end of both functions (ranap_msg_factory.c:832-864, 912-946). -/
def rabAssignW (w : World) (debug : Bool) (first second : Val) : S (Option Bytes) := do
  let m := Gen.Ranap.rAB_AssignmentRequestIEs
  let pair ← newIePairW w debug idRAB_SetupOrModifyItem reject Gen.Ranap.RANAP_RAB_SetupOrModifyItemFirst first
    ignore Gen.Ranap.RANAP_RAB_SetupOrModifyItemSecond second
  let c ← newListW w                                                              -- l.842, 923
  let c ← match pair with                                                         -- l.844, 925
    | none => pure c
    | some p => addToW w c p
  let l ← match c with                                                            -- l.845, 927
    | none => pure ([], 0)
    | some c => addW w ([], 0) (.list c.1)
  let s := setMask (present m idRAB_SetupOrModifyList) m.zero
  messageW w debug .ranap 1 0 reject m (put m idRAB_SetupOrModifyList (.list l.1) s)

/-- `ranap_new_msg_rab_assign_voice` (ranap_msg_factory.c:796-865). -/
def rabAssignVoiceW (w : World) (debug : Bool) (rab : Byte) (rtpIp : BitVec 32) (rtpPort : BitVec 16) (x213 : Bool) :
    P (Option Bytes) := do
  let id ← rabIdW w rab                                                           -- l.816
  let nas ← nasSyncIndW w 60                                                      -- l.817
  let par ← rabParVoiceW w 6700 12200                                             -- l.818
  let up ← upiW w 1 1                                                             -- l.819
  let t ← transpInfoRtpW w (.inet (htonlAddr rtpIp) rtpPort) x213                 -- l.821-824
  rabAssignW w debug (.seq [some id, nas, some par, some up, t.map transpVal, none, none])
    (.seq [none, none, none, none, none, none, none])

/-- `ranap_new_msg_rab_assign_data` (ranap_msg_factory.c:869-947). -/
def rabAssignDataW (w : World) (lax debug : Bool) (rab : Byte) (gtpIp tei : BitVec 32) (x213 : Bool) : P (Option Bytes) := do
  let id ← rabIdW w rab                                                           -- l.889
  let par ← rabParDataW w lax 1600000 800000                                      -- l.892
  let up ← upiW w 0 1                                                             -- l.893
  let t ← transpInfoGtpW w (.inet (htonlAddr gtpIp) 0) tei x213                   -- l.895-897
  let pdp ← newListW w                                                            -- l.902
  need w                                                                          -- l.903
  let pdp ← addToW w pdp (.enum 3)                                                -- l.903
  need w                                                                          -- l.904-905
  let dl ← longW w 0                                                              -- l.907
  let ul ← longW w 0                                                              -- l.908
  rabAssignW w debug (.seq [some id, none, some par, some up, t.map transpVal, none, none])
    (.seq [asVal pdp, some (.enum 1), some dl, some ul, none, none, none])

/-- `ranap_new_msg_rab_rel_req` (ranap_msg_factory.c:980-1021). -/
def rabRelReqW (w : World) (debug : Bool) (rab : Byte) (cause : Option Cause) : P (Option Bytes) := do
  let m := Gen.Ranap.rAB_ReleaseRequestIEs
  let mi := Gen.Ranap.rAB_ReleaseItemIEs
  let id ← rabIdW w rab                                                           -- l.993
  match cause with
  | none => throw .nullDeref                                                      -- l.994
  | some c =>
    match ← encodeIesW w debug mi (put mi idRAB_ReleaseItem (.seq [some id, some c.toVal, none]) mi.zero) with   -- l.997
    | none => return none
    | some l => messageW w debug .ranap 1 10 ignore m (put m idRAB_ReleaseList (container l) m.zero)

/-- `ranap_new_msg_reset_resource` (ranap_msg_factory.c:1024-1090). -/
def resetResourceW (w : World) (debug : Bool) (domain : Nat) (cause : Option Cause) (connIds : Option (List (BitVec 32)))
    (rncId : Option RncId) : P (Option Bytes) :=
  let m := Gen.Ranap.resetResourceIEs
  let mi := Gen.Ranap.resetResourceItemIEs
  match connIds, cause with
  | none, _ => throw .abort                                                       -- l.1037
  | _, none => throw .abort                                                       -- l.1038
  | some [id], some c => do
    let s := put m idCN_DomainIndicator (.enum domain) m.zero                     -- l.1045
    let s := put m idCause c.toVal s                                              -- l.1048
    match ← encodeIesW w debug mi (put mi idIuSigConIdItem (.seq [some (.bits (u24Bits id)), none]) mi.zero) with   -- l.1055-1058
    | none => return none
    | some l =>
      let s := put m idIuSigConIdList (container l) s
      let s := match rncId with                                                   -- l.1063-1069
        | some r => put m idGlobalRNC_ID r.toVal (setMask (present Gen.Ranap.resetIEs idGlobalRNC_ID) s)
        | none => s
      messageW w debug .ranap 1 27 reject m s
  | some _, some _ => return none                                                 -- l.1051-1054

/-- What a function returns (ranap_msg_factory.c:796-865). -/
def P.res {α : Type} (x : P α) : S (Res α) := do
  match ← x.run with
  | .ok a => return .ok a
  | .error f => return .fault f

/-- The functions of ranap_msg_factory.c that make a message (ranap_msg_factory.c:50-1090). -/
def callW (w : World) (lax debug : Bool) (c : Call) : S (Res (Option Bytes)) :=
  match c with
  | .secModCmd2 ik ck st uia uea => secModCmd2W w debug ik ck st uia uea
  | .rabAssignVoice rab ip port x => (rabAssignVoiceW w debug rab ip port x).res
  | .rabAssignData rab ip tei x => (rabAssignDataW w lax debug rab ip tei x).res
  | .rabRelReq rab cause => (rabRelReqW w debug rab cause).res
  | .resetResource d cause ids rnc => (resetResourceW w debug d cause ids rnc).res
  | c => match plan c with
    | some (.ok q) => q.runW w debug
    | some (.fault f) => return .fault f
    | none => return .ok none

end Verif.Scarce
