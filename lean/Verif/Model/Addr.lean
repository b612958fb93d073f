import Verif.Basic

/-!
# Transport layer addresses and associations

`/repo/src/iu_helpers.c` lines 93-296, `/repo/src/ranap_common.c` lines 544-558.
-/

namespace Verif.Addr

/-- `struct osmo_sockaddr` (libosmocore), as far as used here: family, address
octets in memory (= network) order, port in host order (the code only uses it
through `ntohs(sin_port)`). `unspec` is the zeroed structure, `other` any family
besides `AF_INET`/`AF_INET6`. -/
inductive SockAddr where
  | unspec
  | inet (ip : Vector Byte 4) (port : BitVec 16)
  | inet6 (ip : Vector Byte 16) (port : BitVec 16)
  | other (family : Nat)
  deriving DecidableEq, Repr

/-- `BIT_STRING_t`: `buf`/`size` and `bits_unused` (libasn1c, external; used in iu_helpers.c:117-244). -/
structure BitStr where
  buf : Bytes
  unused : Nat
  deriving DecidableEq, Repr

/-- `memcpy` of `n` octets from `buf + off` (iu_helpers.c:170, 174, 182, 186). -/
def slice (buf : Bytes) (off n : Nat) : Res (Vector Byte n) :=
  if h : off + n ≤ buf.length then .ok (Vector.ofFn fun i => buf[off + i.val]'(by omega))
  else .fault .oobRead

/-- The `choice`/`present` of `RANAP_IuTransportAssociation_t`; both alternatives are
`OCTET_STRING_t`, i.e. have the same representation (include/osmocom/ranap/RANAP_IuTransportAssociation.h:24-48). -/
inductive TranspAssoc where
  | nothing
  | gtpTei (buf : Bytes)
  | bindingId (buf : Bytes)
  deriving DecidableEq, Repr

/-- The octet string found at `choice.bindingID`, whatever `present` says
(`iu_helpers.c:101` does not check it). -/
def TranspAssoc.bindingOctets : TranspAssoc → Bytes
  | .nothing => []
  | .gtpTei b => b
  | .bindingId b => b

/-- libasn1c `asn1bitstr_to_u32` (external; DESIGN.md section 3). -/
def asn1bitstrToU32 (buf : Bytes) : Res (BitVec 32) :=
  match buf with
  | a :: b :: c :: d :: _ => .ok (load32be a b c d)
  | _ => .fault .abort

/-- `EINVAL` (errno.h; iu_helpers.c:99) -/
def EINVAL : Int := 22

/-- `ranap_transp_assoc_decode`, `/repo/src/iu_helpers.c:94-114`.  `port0` is the
content of `*port` before the call; result: return value and `*port` after. -/
def transpAssocDecode (port0 : BitVec 16) (ta : Option TranspAssoc) : Res (Int × BitVec 16) :=
  match ta with
  | none => .ok (-EINVAL, port0)                                           -- l.98-99
  | some ta => do
    let result ← asn1bitstrToU32 ta.bindingOctets                          -- l.101
    if result &&& 0xFFFF ≠ 0 then .ok (-EINVAL, port0)                     -- l.105-106
    else
      let port := ((result >>> 16) &&& 0xFFFF).setWidth 16                 -- l.108
      if port = 0 then .ok (-EINVAL, port)                                 -- l.110-111
      else .ok (0, port)

/-- `ranap_transp_layer_addr_decode`, `/repo/src/iu_helpers.c:117-138`.  `ntop`
stands for `inet_ntop(AF_INET, ., addr, addr_len)` (external), `none` for its NULL
result.  Result `none` is -EINVAL. -/
def transpLayerAddrDecode (ntop : Vector Byte 4 → Option Bytes) (buf : Bytes) : Res (Option Bytes) :=
  if buf.length ≥ 7 ∧ buf[0]? = some 0x35 then do                           -- l.127
    let ip ← slice buf 3 4
    .ok (ntop ip)
  else if buf.length > 3 then do                                            -- l.129
    let ip ← slice buf 0 4
    .ok (ntop ip)
  else .ok none                                                             -- l.132

/-- Result of `ranap_transp_layer_addr_decode2`: return value, `*addr`, and
`*uses_x213_nsap` (`none`: NULL was passed). -/
structure Decode2 where
  rc : Int
  addr : SockAddr
  x213 : Option Bool
  deriving DecidableEq, Repr

/-- `ranap_transp_layer_addr_decode2`, `/repo/src/iu_helpers.c:141-195`.
`x213` is `*uses_x213_nsap` before the call. -/
def transpLayerAddrDecode2 (x213 : Option Bool) (buf : Bytes) : Res Decode2 :=
  let fail : Res Decode2 := .ok ⟨-EINVAL, .unspec, x213⟩
  let done (a : SockAddr) (x : Bool) : Res Decode2 := .ok ⟨0, a, x213.map fun _ => x⟩  -- l.191-194
  if (buf.length = 7 ∨ buf.length = 20) ∧ buf[0]? = some 0x35 then do       -- l.154
    let b1 ← bufRead buf 1
    let b2 ← bufRead buf 2
    let icp := load16be b1 b2                                               -- l.161
    if icp = 0x0000 then                                                    -- l.163
      if buf.length ≠ 20 then fail                                          -- l.167
      else do
        let ip ← slice buf 3 16                                             -- l.170
        done (.inet6 ip 0) true
    else if icp = 0x0001 then do                                            -- l.172
      let ip ← slice buf 3 4
      done (.inet ip 0) true
    else fail                                                               -- l.176
  else if buf.length = 4 then do                                            -- l.179
    let ip ← slice buf 0 4
    done (.inet ip 0) false
  else if buf.length = 16 then do                                           -- l.183
    let ip ← slice buf 0 16
    done (.inet6 ip 0) false
  else fail                                                                 -- l.188

/-- `ranap_new_transp_layer_addr`, `/repo/src/iu_helpers.c:197-245`; `none` is
-EINVAL.  The buffer is zeroed by CALLOC, so the DSP is zero padded. -/
def newTranspLayerAddr (addr : SockAddr) (useX213 : Bool) : Option BitStr :=
  let mk (ip : Bytes) (icp : BitVec 16) : Option BitStr :=
    if useX213 then                                                         -- l.220-232
      some ⟨[0x35] ++ store16be icp ++ ip ++ List.replicate (17 - ip.length) 0, 0⟩
    else some ⟨ip, 0⟩                                                       -- l.233-237
  match addr with
  | .inet ip _ => mk ip.toList 0x0001                                       -- l.206-210
  | .inet6 ip _ => mk ip.toList 0x0000                                      -- l.211-215
  | _ => none                                                               -- l.216

/-- `RANAP_TransportLayerInformation_t` (include/osmocom/ranap/RANAP_TransportLayerInformation.h:25-36). -/
structure TranspInfo where
  addr : BitStr
  assoc : TranspAssoc
  deriving DecidableEq, Repr

/-- The port of an address (`ntohs(sin_port)` / `ntohs(sin6_port)`). -/
def SockAddr.port? : SockAddr → Option (BitVec 16)
  | .inet _ p => some p
  | .inet6 _ p => some p
  | _ => none

/-- `ranap_new_transp_info_rtp`, `/repo/src/iu_helpers.c:247-276`. -/
def newTranspInfoRtp (addr : SockAddr) (useX213 : Bool) : Option TranspInfo :=
  match addr.port? with
  | none => none                                                            -- l.260
  | some port =>
    match newTranspLayerAddr addr useX213 with
    | none => none                                                          -- l.266
    | some tla => some ⟨tla, .bindingId (store16be port ++ [0, 0])⟩         -- l.255/258, 271-273

/-- `ranap_new_transp_info_gtp`, `/repo/src/iu_helpers.c:278-296`. -/
def newTranspInfoGtp (addr : SockAddr) (tei : BitVec 32) (useX213 : Bool) : Option TranspInfo :=
  match newTranspLayerAddr addr useX213 with
  | none => none
  | some tla => some ⟨tla, .gtpTei (store32be tei)⟩                         -- l.282, 291-293

/-- `ranap_ip_from_transp_layer_addr`, `/repo/src/ranap_common.c:544-558`.  `none` is
-1; otherwise the four octets of `*ip` as they lie in memory.  On a
little-endian host `htonl` (l.552) reverses them. -/
def ipFromTranspLayerAddr (buf : Bytes) : Res (Option (Vector Byte 4)) :=
  if buf.length = 4 then do                                                 -- l.549-550
    let v ← slice buf 0 4
    .ok (some v)
  else if buf.length = 7 ∧ buf.take 3 = [0x35, 0x00, 0x01] then do          -- l.551-552
    let v ← slice buf 3 4
    .ok (some #v[v[3], v[2], v[1], v[0]])
  else .ok none

end Verif.Addr
