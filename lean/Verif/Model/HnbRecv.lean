import Verif.Model.Hnb

/-!
# How a message of the gateway reaches the HNB emulator

`Hnb.step` takes what one call of `sctp_recvmsg` returns.  Here a message is what the gateway sent with one call.
-/

namespace Verif.Hnb

/-- `IUH_MSGB_SIZE` (hnb-test.h:23): the buffer given to `sctp_recvmsg` (hnb-test.c:572, 579-580). -/
def bufSize : Nat := 2048

/-- What the calls of `sctp_recvmsg` (lksctp, external; RFC 6458 section 3.1.4) return for one message: a message that does
not fit into the buffer is returned in parts by consecutive calls, and only the last part has the flag `MSG_EOR`. -/
def pieces (data : Bytes) : List Bytes :=
  if data.length ≤ bufSize then [data] else data.take bufSize :: pieces (data.drop bufSize)
termination_by data.length
decreasing_by
  rename_i h
  rw [List.length_drop]
  unfold bufSize at *
  omega

/-- A message arrives: `hnb_read_cb` (hnb-test.c:568-632) is called as long as there is something to be read.  It does not look
at `MSG_EOR` (l.598 is the only use of `flags`). -/
def arrive (env : Env) (s : State) (ppid : Nat) (data : Bytes) : Res State := run env s ((pieces data).map (.recv ppid))

end Verif.Hnb
