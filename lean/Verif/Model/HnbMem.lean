import Verif.Model.Hnb

/-!
# The memory of the HNB emulator

What receiving does to the heap, with the allocations and releases of `Model/Ie.lean` and `Model/Dispatch.lean`.  What the
handlers do with the message is `Model/Hnb.lean`; the memory they use for replies is not part of this, nor is the buffer of the
received octets, which is always freed (hnb-test.c:628-631).  If the program is aborted on the way, nothing is said about its
memory.
-/

namespace Verif.Hnb
open Verif.Aper Verif.Ie Verif.Rx Verif.Linked

/-- `hnb_test_rua_dt_handle` (hnb-test-rua.c:8-23). -/
def ruaDtMem (value : Bytes) (μ : Mem Message) : Mem Message :=
  let m := Gen.Rua.directTransferIEs
  let ((rc, ies), μ) := decodeIes m value μ                                          -- l.13
  if rc < 0 then μ                                                                   -- l.14-17
  else
    let (_, μ) := cnRxCo (str (member m ies 4)) μ                                    -- l.19
    freeIes m ies μ                                                                  -- l.22

/-- `hnb_test_rua_cl_handle` (hnb-test-rua.c:25-40). -/
def ruaClMem (value : Bytes) (μ : Mem Message) : Mem Message :=
  let m := Gen.Rua.connectionlessTransferIEs
  let ((rc, ies), μ) := decodeIes m value μ                                          -- l.30
  if rc < 0 then μ                                                                   -- l.31-34
  else
    let (_, μ) := cnRxCl (str (member m ies 4)) μ                                    -- l.36
    freeIes m ies μ                                                                  -- l.39

/-- `hnb_test_rua_rx` (hnb-test.c:508-566): the contents of the decoded PDU are not freed. -/
def ruaRxMem (data : Bytes) (μ : Mem Message) : Mem Message :=
  match decodePdu Gen.Rua.RUA_RUA_PDU data with
  | none => μ                                                                        -- l.516-519
  | some (code, value) =>
    let (_, μ) := μ.alloc true                                                       -- l.514
    if code = 4 then ruaClMem value μ                                                -- l.540-543
    else if code = 2 then ruaDtMem value μ                                           -- l.547-550
    else μ

/-- `hnb_test_rx_hnb_register_acc` (hnb-test.c:149-163): freed in any case. -/
def registerAccMem (value : Bytes) (μ : Mem Message) : Mem Message :=
  let m := Gen.Hnbap.hNBRegisterAcceptIEs
  let ((_, acc), μ) := decodeIes m value μ                                           -- l.154
  freeIes m acc μ                                                                    -- l.161

/-- `hnb_test_rx_ue_register_acc` (hnb-test.c:165-192). -/
def ueRegisterAccMem (value : Bytes) (μ : Mem Message) : Mem Message :=
  let m := Gen.Hnbap.uERegisterAcceptIEs
  let ((rc, acc), μ) := decodeIes m value μ                                          -- l.172
  if rc < 0 then μ                                                                   -- l.173-175
  else match member m acc 5 with
    | some (.choice 0 _) => freeIes m acc μ                                          -- l.189
    | _ => μ                                                                         -- l.177-180

/-- `hnb_test_hnbap_rx` (hnb-test.c:472-504): the contents of the decoded PDU are not freed. -/
def hnbapRxMem (data : Bytes) (μ : Mem Message) : Mem Message :=
  match decodePdu Gen.Hnbap.HNBAP_HNBAP_PDU data with
  | none => μ                                                                        -- l.481-484
  | some (code, value) =>
    let (_, μ) := μ.alloc true                                                       -- l.479
    if code = 1 then registerAccMem value μ                                          -- l.491-494
    else if code = 3 then ueRegisterAccMem value μ                                   -- l.495-497
    else μ

/-- `hnb_read_cb` (hnb-test.c:568-632) for what one call of `sctp_recvmsg` returns. -/
def recvMem (ppid : Nat) (data : Bytes) (μ : Mem Message) : Mem Message :=
  if ppid = 20 then hnbapRxMem data μ                                                -- l.607-610
  else if ppid = 19 then ruaRxMem data μ                                             -- l.611-614
  else μ                                                                             -- l.615-626

/-- Any number of messages (hnb-test.c:568-632). -/
def recvAllMem : List (Nat × Bytes) → Mem Message → Mem Message
  | [], μ => μ
  | (ppid, data) :: l, μ => recvAllMem l (recvMem ppid data μ)

end Verif.Hnb
