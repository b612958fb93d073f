import Verif.Model.Addr

/-! # Specification of the transport layer address formats

TS 25.414 5.1.2 / X.213 annex A / RFC 1888 section 6. -/

namespace Verif.Spec.Addr
open Verif.Addr

/-- `Format octets address isX213`: the octet string denotes the address. -/
inductive Format : Bytes → SockAddr → Bool → Prop
  /-- four raw octets: IPv4 -/
  | raw4 (ip : Vector Byte 4) : Format ip.toList (.inet ip 0) false
  /-- sixteen raw octets: IPv6 -/
  | raw6 (ip : Vector Byte 16) : Format ip.toList (.inet6 ip 0) false
  /-- AFI 35, ICP 0001, four octets IPv4, and either nothing or 13 further octets -/
  | nsap4 (ip : Vector Byte 4) (pad : Bytes) (h : pad.length = 0 ∨ pad.length = 13) :
      Format ([0x35, 0x00, 0x01] ++ ip.toList ++ pad) (.inet ip 0) true
  /-- AFI 35, ICP 0000, sixteen octets IPv6 and one further octet -/
  | nsap6 (ip : Vector Byte 16) (pad : Byte) :
      Format ([0x35, 0x00, 0x00] ++ ip.toList ++ [pad]) (.inet6 ip 0) true

end Verif.Spec.Addr
