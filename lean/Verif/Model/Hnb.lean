import Verif.Model.Linked
import Verif.Model.Rua
import Verif.Model.Generate
import Verif.Model.Bcd

/-!
# The HNB emulator `hnb-test`

`/repo/tests/hnb-test.c`, `hnb-test-rua.c` and `hnb-test-ranap.c`: a home NodeB on top of the RANAP, RUA and HNBAP
libraries, driven by messages from the gateway and by console commands.

Left out: command line options, logging and those prints which only repeat what was received; the return values of
the handlers, which nobody looks at (`osmo_wqueue_bfd_cb` only knows -EBADF); memory (that of received messages is
`Model/HnbMem.lean`; the old channel when a new one is opened and messages that are not queued are never freed).
-/

namespace Verif.Hnb
open Verif.Aper Verif.Ie Verif.Rx Verif.Linked
open Verif.Factory (put u24Bits)
open Verif.Rua (Msg)

/-- `struct hnbtest_chan` (hnb-test.h:51-55) without the IMSI, which is never used. -/
structure Chan where
  isPs : Bool
  connId : BitVec 32
  deriving DecidableEq, Repr

/-- What the user is told (hnb-test.c:159, 186, 468). -/
inductive Print where
  /-- "HNB Register accept with RNC ID ..." -/
  | registered (rncId : BitVec 16)
  /-- "UE Register accept for IMSI ..., context ..." -/
  | ueRegistered (imsi : Bytes) (ctx : BitVec 32)
  /-- "Paging Request for ..." -/
  | paging (imsi : Bytes)
  deriving DecidableEq, Repr

/-- `struct hnb_test` (hnb-test.h:57-84) and `static uint16_t conn_id` (hnb-test.c:878). -/
structure State where
  /-- the socket is registered -/
  up : Bool
  /-- `wqueue.msg_queue`, oldest first -/
  queue : List Msg
  /-- what was given to `sctp_send`, oldest first -/
  sent : List Msg
  /-- `cs.chan` -/
  chan : Option Chan
  nextConn : BitVec 16
  rncId : BitVec 16
  ctxId : BitVec 32
  prints : List Print
  deriving DecidableEq, Repr

/-- hnb-test.c:74-77, 878, 961. -/
def init : State := ⟨true, [], [], none, 42, 0, 0, []⟩

/-- Libraries below: libosmocore's TLV parser and authentication, and indeterminate memory (hnb-test.c:257, 284, 354, 391). -/
structure Env where
  /-- `tlv_parse` with `gsm48_mm_att_tlvdef` (external): the elements found, with their tags; `none` if it returns 0
  or an error -/
  tlv : Bytes → Option (List (Nat × Bytes))
  /-- `osmo_auth_gen_vec2` with COMP128v1 and the fixed key (external): SRES for a challenge of 16 octets -/
  sres : Bytes → Vector Byte 4
  /-- whether `sent_tmsi` happens to be non-zero when it is read without having been written -/
  junk : State → Bytes → Bool

/-- Print a line (hnb-test.c:159, 186, 468). -/
def print (s : State) (p : Print) : State := { s with prints := s.prints ++ [p] }

/-- `osmo_wqueue_enqueue` (libosmocore, external) on the queue of 16 messages (hnb-test.c:961): a full queue refuses the
message, which nobody notices; NULL is dereferenced otherwise. -/
def enqueue (s : State) (m : Option Msg) : Res State :=
  if 16 ≤ s.queue.length then .ok s
  else match m with
    | none => .fault .nullDeref
    | some m => .ok { s with queue := s.queue ++ [m] }

/-- Queue what a function of the RUA library returns (hnb-test.c:243-244, 817-819, 888-890). -/
def enqueueRua (s : State) (r : Res Rua.Run) : Res State :=
  match r with
  | .fault f => .fault f
  | .ok r => enqueue s r.msg

/-- `hnb_test_tx_dt` (hnb-test.c:232-246). -/
def txDt (s : State) (txm : Res (Option Bytes)) : Res State :=
  match txm with
  | .fault f => .fault f
  | .ok txm => match s.chan with
    | none => .ok s                                                                  -- l.238-241
    | some c => enqueueRua s (Rua.newDt c.isPs c.connId txm)                         -- l.243-244

/-! ## Non-access stratum -/

/-- `gen_nas_id_resp` (hnb-test.c:194-207). -/
def idResp : Bytes := [0x05, 0x19, 0x09, 0x03, 0x31, 0x91, 0x06, 0x00, 0x28, 0x47, 0x11, 0xf2]

/-- `gen_nas_tmsi_realloc_compl` (hnb-test.c:209-217). -/
def tmsiReallCompl : Bytes := [0x05, 0x1b]

/-- `gen_nas_auth_resp` (hnb-test.c:219-230). -/
def authResp (sres : Vector Byte 4) : Bytes := [0x05, 0x80 ||| 0x14] ++ sres.toList

/-- `GSM48_IE_MOBILE_ID`, `GSM48_IE_NAME_LONG`, `GSM48_IE_NAME_SHORT` (libosmocore, external; used in hnb-test.c:290-318). -/
def ieMobileId : Nat := 0x17
def ieNameLong : Nat := 0x43
def ieNameShort : Nat := 0x45

/-- `hnb_test_nas_rx_lu_accept` (hnb-test.c:267-297), `data` from `gh->data` on: `none` is -1, `some none` leaves
`*sent_tmsi` as it is.  The location area identification is decoded without looking at the length (l.272-275); the type
of identity is read from the wrong element (l.291).  The octet after an empty value counts as outside of the object. -/
def luAccept (env : Env) (data : Bytes) : Res (Option (Option Bool)) :=
  if data.length < 5 then .fault .oobRead                                            -- l.275
  else match env.tlv data with
    | none => .ok none                                                               -- l.285-288
    | some tp => match tp.lookup ieMobileId with
      | none => .ok (some none)
      | some _ => match tp.lookup ieNameShort with                                   -- l.291
        | none => .fault .nullDeref
        | some [] => .fault .oobRead
        | some (b :: _) => .ok (some (some (b &&& 0x0f == 4)))                       -- l.292-294

/-- One of the names in `hnb_test_nas_rx_mm_info` (hnb-test.c:306-320): for an empty value the number of septets is
`(0 - 1) * 8 / 7`, 255 as `uint8_t`, which are read from behind the value.  Of what `gsm_7bit_decode_n` (libosmocore,
external) does with other values, nothing is modelled. -/
def mmName (tp : List (Nat × Bytes)) (tag : Nat) : Res Unit :=
  match tp.lookup tag with
  | some [] => .fault .oobRead
  | _ => .ok ()

/-- `hnb_test_nas_rx_mm_info` (hnb-test.c:299-321). -/
def mmInfo (env : Env) (data : Bytes) : Res Unit :=
  match env.tlv data with
  | none => .ok ()
  | some tp => match mmName tp ieNameShort with
    | .fault f => .fault f
    | .ok _ => mmName tp ieNameLong

/-- The cause in `hnb_test_tx_iu_release_req` (hnb-test.c:366-369): radio network, "release due to UE generated
signalling connection release" (include/osmocom/ranap/RANAP_CauseRadioNetwork.h:62). -/
def releaseCause : Factory.Cause := ⟨1, 40⟩

/-- `hnb_test_nas_rx_auth_req` (hnb-test.c:323-362): key sequence number, 16 octets of challenge. -/
def authReq (env : Env) (s : State) (data : Bytes) : Res State :=
  if data.length < 17 then .ok s                                                     -- l.330-333
  else txDt s (Factory.dt 0 (authResp (env.sres ((data.drop 1).take 16))))           -- l.353-361

/-- `hnb_test_nas_rx_mm` (hnb-test.c:378-423); `type` is the second octet, `data` what follows.  `gsm48_hdr_msg_type`
(libosmocore, external) takes the lower six bits. -/
def rxMm (env : Env) (s : State) (type : Byte) (data : Bytes) : Res State :=
  match s.chan with
  | none => .ok s                                                                    -- l.383-386
  | some c =>
    if c.isPs then .fault .abort                                                     -- l.388
    else
      let t := (type &&& 0x3f).toNat
      if t = 0x18 then txDt s (Factory.dt 0 idResp)                                  -- l.394-395
      else if t = 0x02 then                                                          -- l.397-403
        match luAccept env data with
        | .fault f => .fault f
        | .ok none => .ok s
        | .ok (some sent) =>
          let sent := match sent with
            | some b => b
            | none => env.junk s data
          if sent then txDt s (Factory.dt 0 tmsiReallCompl) else .ok s
      else if t = 0x32 then                                                          -- l.409-412
        match mmInfo env data with
        | .fault f => .fault f
        | .ok _ => txDt s (Factory.iuRelReq (some releaseCause))
      else if t = 0x12 then authReq env s data                                       -- l.414-415
      else .ok s                                                                     -- l.405-407, 417-420

/-- `hnb_test_nas_rx_dtap` (hnb-test.c:425-452). -/
def rxDtap (env : Env) (s : State) (nas : Bytes) : Res State :=
  match nas with
  | pd :: type :: data => if pd &&& 0x0f = 5 then rxMm env s type data else .ok s
  | _ => .ok s                                                                       -- l.434-438

/-! ## RANAP -/

/-- The permitted integrity protection algorithms (hnb-test-ranap.c:45). -/
def algorithms (s : Struct) : List Val := listOf (member Gen.Ranap.securityModeCommandIEs s 12)

/-- `hnb_test_rua_dt_handle_ranap` (hnb-test-ranap.c:17-59).  The direction is not looked at: the member of the union
that is read is that of the initiating message; if another one was filled, this is `wrongUnion`. -/
def handleCo (env : Env) (s : State) (m : Message) : Res State :=
  if m.procedureCode = 20 then                                                       -- l.30-39
    match m.msg with
    | none => .ok s
    | some (n, st) =>
      if n = Gen.Ranap.directTransferIEs.name then rxDtap env s (str (member Gen.Ranap.directTransferIEs st 16))
      else .fault .wrongUnion
  else if m.procedureCode = 6 then                                                   -- l.41-54
    match m.msg with
    | none => .ok s
    | some (n, st) =>
      if n = Gen.Ranap.securityModeCommandIEs.name then
        match algorithms st with
        | .int a :: _ => txDt s (Factory.secModCompl a 0)                            -- hnb-test.c:454-459
        | _ => .ok s
      else .fault .wrongUnion
  else if m.procedureCode = 1 then txDt s Factory.iuRelCompl                         -- l.55-57, hnb-test.c:373-376, 461-464
  else .ok s

/-- A `char[16]` filled by `ranap_bcd_decode`, printed as a string (hnb-test.c:170, 184-186, hnb-test-ranap.c:63, 72-78). -/
def imsiText (imsi : Bytes) : Res Bytes :=
  match Bcd.decode (List.replicate 16 0) 16 imsi with
  | .fault f => .fault f
  | .ok (buf, _) => .ok (buf.takeWhile (· ≠ 0))

/-- `hnb_test_rua_cl_handle_ranap` (hnb-test-ranap.c:61-89), `hnb_test_rx_paging` (hnb-test.c:466-470). -/
def handleCl (s : State) (m : Message) : Res State :=
  if m.procedureCode = 14 then
    match m.msg with
    | none => .ok (print s (.paging []))
    | some (n, st) =>
      if n = Gen.Ranap.pagingIEs.name then
        match member Gen.Ranap.pagingIEs st 23 with
        | some (.choice 0 (.octets imsi)) => match imsiText imsi with
          | .fault f => .fault f
          | .ok t => .ok (print s (.paging t))
        | _ => .ok (print s (.paging []))                                            -- l.76
      else .fault .wrongUnion
  else .ok s

/-! ## RUA and HNBAP -/

/-- `aper_decode` of a PDU of RUA or HNBAP, `choice.successfulOutcome`: the alternatives have the same layout, and the
code does not look at `present` (hnb-test.c:478-490, 513-539). -/
def decodePdu (t : Ty) (data : Bytes) : Option (Nat × Bytes) :=
  match decode t data with
  | some (.choice _ (.seq [some (.int pc), some (.enum _), some (.octets value)])) => some (pc.toNat, value)
  | _ => none

/-- A generated decode function (asn1tostruct.py:325-388): return code and structure. -/
def decodeStruct (m : MsgDef) (value : Bytes) : Int × Struct := (decodeIes m value (Mem.init (α := Unit))).1

/-- `hnb_test_rua_dt_handle` (hnb-test-rua.c:7-22). -/
def ruaDt (env : Env) (s : State) (value : Bytes) : Res State :=
  let (rc, ies) := decodeStruct Gen.Rua.directTransferIEs value
  if rc < 0 then .ok s
  else match handed (cnRxCo (str (member Gen.Rua.directTransferIEs ies 4)) Mem.init).2.trace with
    | none => .ok s
    | some m => handleCo env s m

/-- `hnb_test_rua_cl_handle` (hnb-test-rua.c:24-39). -/
def ruaCl (s : State) (value : Bytes) : Res State :=
  let (rc, ies) := decodeStruct Gen.Rua.connectionlessTransferIEs value
  if rc < 0 then .ok s
  else match handed (cnRxCl (str (member Gen.Rua.connectionlessTransferIEs ies 4)) Mem.init).2.trace with
    | none => .ok s
    | some m => handleCl s m

/-- `hnb_test_rua_rx` (hnb-test.c:508-566). -/
def ruaRx (env : Env) (s : State) (data : Bytes) : Res State :=
  match decodePdu Gen.Rua.RUA_RUA_PDU data with
  | none => .ok s
  | some (code, value) =>
    if code = 4 then ruaCl s value                                                   -- l.540-543
    else if code = 2 then ruaDt env s value                                          -- l.547-550
    else .ok s

/-- `hnb_test_rx_hnb_register_acc` (hnb-test.c:149-163): a decoding error is ignored. -/
def registerAcc (s : State) (value : Bytes) : State :=
  let (_, acc) := decodeStruct Gen.Hnbap.hNBRegisterAcceptIEs value
  let rnc := BitVec.ofNat 16 (num (member Gen.Hnbap.hNBRegisterAcceptIEs acc 14))
  print { s with rncId := rnc } (.registered rnc)

/-- libasn1c `asn1bitstr_to_u24` (external): anything but 24 bits violates its assertion. -/
def u24 (v : Option Val) : Res (BitVec 32) :=
  match v with
  | some (.bits b) => if b.length = 24 then .ok (BitVec.ofNat 32 (b.foldl (fun n x => 2 * n + x.toNat) 0)) else .fault .abort
  | _ => .fault .abort

/-- `hnb_test_rx_ue_register_acc` (hnb-test.c:165-192). -/
def ueRegisterAcc (s : State) (value : Bytes) : Res State :=
  let m := Gen.Hnbap.uERegisterAcceptIEs
  let (rc, acc) := decodeStruct m value
  if rc < 0 then .ok s                                                               -- l.173-175
  else match member m acc 5 with
    | some (.choice 0 (.octets imsi)) =>
      match u24 (member m acc 4) with                                                -- l.182
      | .fault f => .fault f
      | .ok ctx => match imsiText imsi with                                          -- l.184
        | .fault f => .fault f
        | .ok t => .ok { print s (.ueRegistered t ctx) with ctxId := ctx }           -- l.186-188
    | _ => .ok s                                                                     -- l.177-180

/-- `hnb_test_hnbap_rx` (hnb-test.c:472-504). -/
def hnbapRx (s : State) (data : Bytes) : Res State :=
  match decodePdu Gen.Hnbap.HNBAP_HNBAP_PDU data with
  | none => .ok s
  | some (code, value) =>
    if code = 1 then .ok (registerAcc s value)                                       -- l.491-494
    else if code = 3 then ueRegisterAcc s value                                      -- l.495-497
    else .ok s

/-- The end of `hnb_test_ue_register_tx`, `hnb_send_register_req` and `hnb_send_deregister_req` (hnb-test.c:134-146, 683-696,
712-724): the result of `hnbap_generate_initiating_message` is dereferenced. -/
def hnbapTx (s : State) (code : Nat) (t : Ty) (l : List Ie) : Res State :=
  match Generate.generate .hnbap 1 code 0 t (container l) with
  | none => .fault .nullDeref
  | some bs => enqueue s (some ⟨bs, 20⟩)

/-- The structure filled by `hnb_test_ue_register_tx` (hnb-test.c:122-131). -/
def ueRegisterReq (imsi : Bytes) : Struct :=
  let m := Gen.Hnbap.uERegisterRequestIEs
  let r := put m 5 (.choice 0 (.octets imsi)) m.zero                                 -- l.124-127
  let r := put m 12 (.enum 1) r                                                      -- l.129
  put m 13 (.seq [some (.enum 3), some (.enum 1), none]) r                           -- l.130-131

/-- `hnb_test_ue_register_tx` (hnb-test.c:113-147). -/
def ueRegisterTx (s : State) (imsi : Bytes) : Res State :=
  match Bcd.imsiEncode (List.replicate 16 0) imsi with                               -- l.126
  | .fault f => .fault f
  | .ok (buf, n) =>
    match encodeIes Gen.Hnbap.uERegisterRequestIEs (ueRegisterReq (buf.take n)) with
    | none => .fault .abort                                                          -- l.135
    | some l => hnbapTx s 3 Gen.Hnbap.HNBAP_UERegisterRequest l

/-- The structure filled by `hnb_send_register_req` (hnb-test.c:661-678). -/
def hnbRegisterReq : Struct :=
  let m := Gen.Hnbap.hNBRegisterRequestIEs
  let r := put m 6 (.octets [0xc0, 0xfe]) m.zero                                     -- l.669
  let r := put m 10 (.octets [0xab, 0xab]) r                                         -- l.670
  let r := put m 7 (.octets [0x42]) r                                                -- l.671
  let r := put m 11 (.bits ((octetsBits [0xad, 0xce, 0xaa, 0xb0]).take 28)) r        -- l.672
  let r := put m 3 (.seq [some (.octets [0x41, 0x54, 0x65, 0x73, 0x74, 0x48, 0x4e, 0x42, 0x40]), none]) r  -- l.674-675
  put m 9 (.octets [0x09, 0xf1, 0x99]) r                                             -- l.677-678

/-- `hnb_send_register_req` (hnb-test.c:650-697).  An encoding error, which is ignored, would leave part of the list; this
does not occur and is not modelled. -/
def registerTx (s : State) : Res State :=
  match encodeIes Gen.Hnbap.hNBRegisterRequestIEs hnbRegisterReq with
  | none => .fault .abort
  | some l => hnbapTx s 1 Gen.Hnbap.HNBAP_HNBRegisterRequest l

/-- `hnb_send_deregister_req` (hnb-test.c:699-725). -/
def deregisterTx (s : State) : Res State :=
  let m := Gen.Hnbap.hNBDe_RegisterIEs
  match encodeIes m (put m 1 (.choice 3 (.enum 2)) m.zero) with                      -- l.707-712
  | none => .fault .abort
  | some l => hnbapTx s 2 Gen.Hnbap.HNBAP_HNBDe_Register l

/-- The command "ranap reset (cs|ps)" (hnb-test.c:802-822): cause transmission network, "signalling transport resource
failure". -/
def resetTx (s : State) (isPs : Bool) : Res State :=
  match Factory.reset (if isPs then 1 else 0) (some ⟨2, 65⟩) with
  | .fault f => .fault f
  | .ok msg => enqueueRua s (Rua.newUdt msg)

/-- The Location Updating Request in `gen_initue_lu` (hnb-test.c:838-842). -/
def luReq : Bytes :=
  [0x05, 0x08, 0x70, 0x62, 0xf2, 0x30, 0xff, 0xf3, 0x57, 0x08, 0x29, 0x26, 0x24, 0x10, 0x32, 0x54, 0x76, 0x98,
   0x33, 0x03, 0x57, 0x18, 0xb2]

/-- `gen_initue_lu` (hnb-test.c:836-866). -/
def initueLu (isPs : Bool) (connId : BitVec 32) : Res (Option Bytes) :=
  Factory.initialUe connId isPs (some ⟨[0x09, 0x01, 0x99], 23⟩) luReq

/-- The command "channel (cs|ps) lu imsi IMSI" (hnb-test.c:868-900); the IMSI is not used (l.852). -/
def channel (s : State) (isPs : Bool) (_imsi : Bytes) : Res State :=
  let c : Chan := ⟨isPs, s.nextConn.setWidth 32⟩                                     -- l.880-884
  let s := { s with nextConn := s.nextConn + 1 }                                     -- l.885
  match initueLu isPs c.connId with
  | .fault f => .fault f
  | .ok msg => match enqueueRua s (Rua.newConn isPs c.connId msg) with               -- l.887-890
    | .fault f => .fault f
    | .ok s => .ok (if isPs then s else { s with chan := some c })                   -- l.895-896

/-! ## Events -/

/-- What happens to the program: messages and notifications from the gateway, room in the socket, the end of the
connection, console commands (hnb-test.c:568-648, 770-900). -/
inductive Op where
  | recv (ppid : Nat) (data : Bytes)
  | notification
  | closed
  | writable
  | register
  | deregister
  | ueRegister (imsi : Bytes)
  | reset (isPs : Bool)
  | channel (isPs : Bool) (imsi : Bytes)
  deriving DecidableEq, Repr

/-- `hnb_read_cb` (hnb-test.c:568-632), `osmo_wqueue_bfd_cb` (libosmocore, external) with `hnb_write_cb` (hnb-test.c:634-648),
and the commands (hnb-test.c:770-900). -/
def step (env : Env) (s : State) : Op → Res State
  | .recv ppid data =>
    if s.up then
      if ppid = 20 then hnbapRx s data                                               -- l.607-610
      else if ppid = 19 then ruaRx env s data                                        -- l.611-614
      else .ok s                                                                     -- l.615-626
    else .ok s
  | .notification => .ok s                                                           -- l.598-602
  | .closed => .ok { s with up := false }                                            -- l.581-593
  | .writable =>
    if s.up then match s.queue with
      | [] => .ok s
      | m :: q => .ok { s with queue := q, sent := s.sent ++ [m] }
    else .ok s
  | .register => registerTx s
  | .deregister => deregisterTx s
  | .ueRegister imsi => ueRegisterTx s imsi
  | .reset isPs => resetTx s isPs
  | .channel isPs imsi => channel s isPs imsi

/-- The main loop (hnb-test.c:1010-1014). -/
def run (env : Env) (s : State) : List Op → Res State
  | [] => .ok s
  | op :: ops => match step env s op with
    | .fault f => .fault f
    | .ok s => run env s ops

end Verif.Hnb
