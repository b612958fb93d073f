import Verif.Spec.Hnb
import Verif.Spec.Leak

/-!
# What the HNB emulator keeps in memory
-/

namespace Verif.Hnb.Spec
open Verif.Aper Verif.Ie Verif.Ie.Spec Verif.Rx Verif.Rx.Spec

/-- These blocks are in use: the trace has allocated and not freed them, and no others, and nothing was freed that was not in
use.  The next block is a new one. -/
structure InUse (μ : Mem Message) (live : List Nat) : Prop where
  trace : ∃ l, replay [] μ.trace = some l ∧ List.Perm l live
  fresh : ∀ b ∈ live, b < μ.next

/-- Whatever is in use stays in use, and this many blocks more are in use afterwards. -/
def Leaves (f : Mem Message → Mem Message) (n : Nat) : Prop :=
  ∀ μ live, InUse μ live → ∃ new, InUse (f μ) (new ++ live) ∧ new.length = n

/-- The octets are a PDU of this protocol (RUA or HNBAP), of this procedure, with this inside. -/
def IsPduOf (t : Ty) (data : Bytes) (code : Nat) (value : Bytes) : Prop :=
  ∃ (i crit : Nat) (pc : Int), pc.toNat = code ∧
    decode t data = some (.choice i (.seq [some (.int pc), some (.enum crit), some (.octets value)]))

/-- What `ranap_cn_rx_co` leaves of a message (C97): of one with a bad element, everything that the elements in front of it own;
of another one, what elements own that a later one with the same id replaces; of everything else, nothing. -/
def CoLeft (data : Bytes) (n : Nat) : Prop :=
  (∃ p c crit m l good rest, Pdu cnCoMsg data p c crit m l ∧ SplitAtBad m l good rest ∧
    n = if rest = [] then replaced m good else owners m good) ∨
  ((∀ p c crit m l, ¬ Pdu cnCoMsg data p c crit m l) ∧ n = 0)

/-- What `ranap_cn_rx_cl` leaves of a message (C97). -/
def ClLeft (data : Bytes) (n : Nat) : Prop :=
  (∃ p c crit m l good rest, Pdu cnClMsg data p c crit m l ∧ SplitAtBad m l good rest ∧ n = replaced m good) ∨
  ((∀ p c crit m l, ¬ Pdu cnClMsg data p c crit m l) ∧ n = 0)

end Verif.Hnb.Spec
