/-!
# Information elements as the ASN.1 specification lists them
-/

namespace Verif.Ie.Spec

/-- `{ ID … CRITICALITY … TYPE … PRESENCE … }`: name, id, criticality (0 reject, 1 ignore, 2 notify), and
whether the element may be absent (optional or conditional). -/
structure AsnIe where
  name : String
  id : Nat
  crit : Nat
  opt : Bool

/-- An object set: the elements of one message or list item. -/
structure AsnSet where
  name : String
  ies : List AsnIe

end Verif.Ie.Spec
