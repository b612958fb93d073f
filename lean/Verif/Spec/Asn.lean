import Verif.Model.Ie

/-!
# Types as the ASN.1 specifications define them

A type of the specification and the type of the C descriptor with its name; the forms of messages and lists in the
specifications; what it means that two types are coded alike.
-/

namespace Verif.Asn
open Verif.Aper

/-- A named type: as in the ASN.1 specification, and as in the C code. -/
structure NamedTy where
  name : String
  asn : Ty
  c : Ty

/-- The same octets for every value, and the same value for all octets. -/
def SameCoding (s t : Ty) : Prop := (∀ v, encode s v = encode t v) ∧ ∀ bs, decode s bs = decode t bs

/-- `ProtocolIE-Field`: id, criticality, value. -/
def field : Ty := .seq false (.cons false (.int ⟨0, 65535, false⟩) (.cons false (.enum 3 3 false) (.cons false .any .nil)))

/-- `ProtocolIE-Container`: up to 65535 fields. -/
def fields : Ty := .seqOf (some ⟨0, 65535, false⟩) field

/-- `ProtocolExtensionContainer`: 1 to 65535 fields. -/
def extensions : Ty := .seqOf (some ⟨1, 65535, false⟩) field

/-- Every message is `SEQUENCE { protocolIEs ProtocolIE-Container, protocolExtensions ProtocolExtensionContainer
OPTIONAL, ... }`. -/
def message : Ty := .seq true (.cons false fields (.cons true extensions .nil))

/-- A list of items (RABs, Iu signalling connection ids, ...) is `SEQUENCE (SIZE (1..max)) OF ProtocolIE-Container`, each
container with one field. -/
def itemList (max : Nat) : Ty := .seqOf (some ⟨1, max, false⟩) fields

/-- A field as a value. -/
def fieldVal (ie : Ie.Ie) : Val := .seq [some (.int ie.id), some (.enum ie.crit), some (.octets ie.value)]

/-- The value of a message of the specification. -/
def messageVal (ies : List Ie.Ie) (ext : Option (List Ie.Ie)) : Val :=
  .seq [some (.list (ies.map fieldVal)), ext.map fun l => .list (l.map fieldVal)]

/-- The value of a list of the specification. -/
def listVal (items : List (List Ie.Ie)) : Val := .list (items.map fun l => .list (l.map fieldVal))

end Verif.Asn
