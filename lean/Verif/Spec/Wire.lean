import Verif.Model.Ie

/-!
# The octets of a message

Tag-length-value picture of the messages of RANAP, RUA, HNBAP and SABP in aligned PER: everything
down to the information elements starts and ends on octet boundaries.
-/

namespace Verif.Wire
open Verif.Aper Verif.Ie

/-- Length of up to 16383 octets. -/
def lenOctets (n : Nat) : Bytes :=
  if n < 128 then [BitVec.ofNat 8 n] else [BitVec.ofNat 8 (128 + n / 256), BitVec.ofNat 8 (n % 256)]

/-- Two octets, most significant first. -/
def be16 (n : Nat) : Bytes := [BitVec.ofNat 8 (n / 256), BitVec.ofNat 8 (n % 256)]

/-- Criticality in the two most significant bits of an octet. -/
def critOctet (c : Nat) : Byte := BitVec.ofNat 8 (64 * c)

/-- An information element: id, criticality, length, value. -/
def ieOctets (ie : Ie) : Bytes := be16 ie.id ++ [critOctet ie.crit] ++ lenOctets ie.value.length ++ ie.value

/-- The elements of a message: extension octet, number of elements, the elements. -/
def containerOctets (l : List Ie) : Bytes := [0] ++ be16 l.length ++ l.flatMap ieOctets

/-- A message: direction (1 initiating message, 2 successful outcome, 3 unsuccessful outcome,
4 outcome), procedure code, criticality, length, elements. -/
def pduOctets (direction code crit : Nat) (value : Bytes) : Bytes :=
  [BitVec.ofNat 8 (32 * (direction - 1)), BitVec.ofNat 8 code, critOctet crit] ++ lenOctets value.length ++ value

end Verif.Wire
