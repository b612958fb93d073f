import Verif.Model.Aper

/-!
# Generated information element functions

`/repo/asn1/utils/asn1tostruct.py` generates, for each message, a structure (`presenceMask` and one
member per information element), an encode, a decode and a free function.  They differ between
messages only in the table of elements, so they are modelled once, over the tables of
`Verif/Gen/*Ies.lean`.

Memory is modelled by a trace of events.  A decoded value that owns heap memory (all of it: the
octets of strings, optional members, lists) is one block.
-/

namespace Verif.Ie
open Verif.Aper

/-- One row of an object set: `{ ID id CRITICALITY crit TYPE ty PRESENCE ... }`; `opt` unless the
presence is `mandatory` (asn1tostruct.py:141-160, 191). -/
structure IeDef where
  name : String
  id : Nat
  /-- 0 reject, 1 ignore, 2 notify -/
  crit : Nat
  ty : Ty
  opt : Bool

/-- A message: the container type and the rows in order. (`iesDefs` of asn1tostruct.py:183-231; the rows are transcribed in `Verif/Gen/*Ies.lean`.) -/
structure MsgDef where
  name : String
  ty : Ty
  ies : List IeDef

/-- `RANAP_IE_t`, `RUA_IE_t`, `HNBAP_IE_t`, `SABP_IE_t` (src/ranap/RANAP_IE.c:12-40). -/
structure Ie where
  id : Nat
  crit : Nat
  value : Bytes
  deriving DecidableEq, Repr

/-- A member of the structure: its value, and the heap block the value owns, if any (asn1tostruct.py:203-213). -/
structure Slot where
  val : Val
  block : Option Nat

/-- The structure of a message (asn1tostruct.py:201-231); `none` is zeroed memory. -/
structure Struct where
  mask : BitVec 16
  fields : List (Option Slot)

/-- The values in a structure (asn1tostruct.py:201-216). -/
def Struct.vals (s : Struct) : List (Option Val) := s.fields.map (·.map Slot.val)

/-- A zeroed structure (`memset` in the generated decoders, asn1tostruct.py:336). -/
def MsgDef.zero (m : MsgDef) : Struct := ⟨0, m.ies.map fun _ => none⟩

/-- The constant `..._PRESENT`, `(1 << shift)`, an `int` (asn1tostruct.py:191-199). -/
def presentConst (shift : Nat) : BitVec 32 := (1 : BitVec 32) <<< shift

/-- `presenceMask |= C` (`presenceMask` is a `uint16_t`). -/
def setPresent (mask : BitVec 16) (shift : Nat) : BitVec 16 :=
  (mask.setWidth 32 ||| presentConst shift).setWidth 16

/-- `(presenceMask & C) == C` (asn1tostruct.py:413-414, 508-509). -/
def isPresent (mask : BitVec 16) (shift : Nat) : Bool :=
  mask.setWidth 32 &&& presentConst shift == presentConst shift

/-- The `case` label for an id: index of the row, shift of its presence constant (only meaningful
for an optional one), and the row (asn1tostruct.py:339-352). -/
def lookup (id : Nat) : List IeDef → Nat → Nat → Option (Nat × Nat × IeDef)
  | [], _, _ => none
  | d :: ds, k, sh => if d.id = id then some (k, sh, d) else lookup id ds (k + 1) (if d.opt then sh + 1 else sh)

/-! ## Memory -/

mutual
/-- The decoded value owns heap memory: the buffer of a string, an optional member that is
present, the array of a non-empty list (asn1c's representation of the types). -/
def owns : Ty → Val → Bool
  | .bits _, _ => true
  | .octets _, _ => true
  | .any, _ => true
  | .oid, _ => true
  | .seq _ fs, .seq vs => ownsFields fs vs
  | .choice _ root adds, .choice i v => ownsAlt root i v || ownsAlt adds (i - root.length) v
  | .seqOf _ _, .list vs => !vs.isEmpty
  | _, _ => false
/-- Of the components of a SEQUENCE, e.g. include/osmocom/ranap/RANAP_TransportLayerInformation.h:25-36. -/
def ownsFields : Fields → List (Option Val) → Bool
  | .cons opt t fs, some v :: vs => opt || owns t v || ownsFields fs vs
  | .cons _ _ fs, none :: vs => ownsFields fs vs
  | _, _ => false
/-- Of the alternative of a CHOICE, e.g. include/osmocom/ranap/RANAP_RANAP-PDU.h:37-52. -/
def ownsAlt : Fields → Nat → Val → Bool
  | .nil, _, _ => false
  | .cons _ t _, 0, v => owns t v
  | .cons _ _ fs, i + 1, v => ownsAlt fs i v
end

/-- What a receive function does to memory and to its caller (malloc, free and the handler of ranap_common_cn.c:411-427). -/
inductive Ev (α : Type) where
  | alloc (b : Nat)
  | free (b : Nat)
  /-- the handler is called -/
  | call (a : α)
  /-- a free function of one message applied to the contents of another -/
  | bad

/-- Next block number and trace. (An abstraction of the heap; ranap_common_cn.c:379-427.) -/
structure Mem (α : Type) where
  next : Nat
  trace : List (Ev α)

/-- Before a call (ranap_common_cn.c:411). -/
def Mem.init {α : Type} : Mem α := ⟨0, []⟩

/-- Something happens (e.g. the call of the handler, ranap_common_cn.c:422). -/
def Mem.emit {α : Type} (μ : Mem α) (e : Ev α) : Mem α := { μ with trace := μ.trace ++ [e] }

/-- Allocation of a block, if there is anything to allocate. (By libasn1c, in `ANY_to_type_aper`, asn1tostruct.py:339, 365.) -/
def Mem.alloc {α : Type} (μ : Mem α) (c : Bool) : Option Nat × Mem α :=
  if c then (some μ.next, ⟨μ.next + 1, μ.trace ++ [.alloc μ.next]⟩) else (none, μ)

/-- Freeing what a value owns. (`ASN_STRUCT_FREE_CONTENTS_ONLY`, asn1tostruct.py:393-422.) -/
def Mem.free {α : Type} (μ : Mem α) : Option Nat → Mem α
  | none => μ
  | some b => μ.emit (.free b)

/-! ## Encoding -/

mutual
/-- The value of zeroed memory of a type; `none` if it has no encoding (CHOICE with
`present = NOTHING`). (`memset(&ies, 0, sizeof(ies))`, e.g. ranap_msg_factory.c:59.) -/
def zeroVal : Ty → Option Val
  | .null => some .null
  | .bool => some (.bool false)
  | .int _ => some (.int 0)
  | .enum .. => some (.enum 0)
  | .bits _ => some (.bits [])
  | .octets _ => some (.octets [])
  | .any => some (.octets [])
  | .seq _ fs => (zeroFields fs).map .seq
  | .choice .. => none
  | .seqOf .. => some (.list [])
  | .oid => none
/-- Of the components of a SEQUENCE (as `zeroVal`, e.g. ranap_msg_factory.c:59). -/
def zeroFields : Fields → Option (List (Option Val))
  | .nil => some []
  | .cons true _ fs => (zeroFields fs).map (none :: ·)
  | .cons false t fs =>
    match zeroVal t, zeroFields fs with
    | some v, some vs => some (some v :: vs)
    | _, _ => none
end

/-- `ranap_new_ie` and its siblings (ranap_common.c:426-455, rua_common.c, hnbap_common.c:219-249,
sabp_common.c:181-210); the XER print is off. -/
def newIe (id crit : Nat) (t : Ty) (f : Option Slot) : Option Ie :=
  match (match f with | some s => some s.val | none => zeroVal t) with
  | none => none
  | some v => match encode t v with
    | none => none
    | some b => some ⟨id, crit, b⟩

/-- `*_encode_*ies` (asn1tostruct.py:471-538): the elements in table order. -/
def encodeRows : List IeDef → Nat → BitVec 16 → List (Option Slot) → Option (List Ie)
  | [], _, _, _ => some []
  | _ :: _, _, _, [] => none
  | d :: ds, sh, mask, f :: fs =>
    if d.opt && !isPresent mask sh then encodeRows ds (sh + 1) mask fs
    else match newIe d.id d.crit d.ty f with
      | none => none
      | some ie => match encodeRows ds (if d.opt then sh + 1 else sh) mask fs with
        | none => none
        | some r => some (ie :: r)

/-- `*_encode_*ies` from the first row on (asn1tostruct.py:471-538). -/
def encodeIes (m : MsgDef) (s : Struct) : Option (List Ie) := encodeRows m.ies 0 s.mask s.fields

/-- An element as the value of the descriptor `asn_DEF_*_IE` (src/ranap/RANAP_IE.c:12-40). -/
def Ie.toVal (ie : Ie) : Val := .seq [some (.int ie.id), some (.enum ie.crit), some (.octets ie.value)]

/-- A list of elements as the value of the container. (E.g. src/ranap/RANAP_DirectTransfer.c:94-145.) -/
def container (l : List Ie) : Val := .seq [some (.list (l.map Ie.toVal))]

/-- The generated encode function followed by `ANY_fromType_aper` on the container (as in
ranap_generate_initiating_message, ranap_common.c:319-342). -/
def encodeMsg (m : MsgDef) (s : Struct) : Option Bytes :=
  match encodeIes m s with
  | none => none
  | some l => encode m.ty (container l)

/-! ## Decoding -/

/-- One element out of the decoded container (src/ranap/RANAP_IE.c:12-40). -/
def Ie.ofVal : Val → Option Ie
  | .seq [some (.int id), some (.enum crit), some (.octets value)] => some ⟨id.toNat, crit, value⟩
  | _ => none

/-- All or nothing (for `elements`; asn1tostruct.py:345). -/
def allSome {α : Type} : List (Option α) → Option (List α)
  | [] => some []
  | some a :: l => (allSome l).map (a :: ·)
  | none :: _ => none

/-- The elements in a decoded container (what the decoder of a container type returns is always of
this form, `Verif.Ie.elements_dec`) (`->list.array`, asn1tostruct.py:345-347). -/
def elements : Val → Option (List Ie)
  | .seq [some (.list vs)] => allSome (vs.map Ie.ofVal)
  | _ => none

/-- The loop of `*_decode_*ies` (asn1tostruct.py:334-384): success, and the structure. -/
def decodeRows {α : Type} (m : MsgDef) : List Ie → Struct → Mem α → (Bool × Struct) × Mem α
  | [], s, μ => ((true, s), μ)
  | ie :: rest, s, μ =>
    match lookup ie.id m.ies 0 0 with
    | none => ((false, s), μ)
    | some (k, sh, d) =>
      let s := if d.opt then { s with mask := setPresent s.mask sh } else s
      match decode d.ty ie.value with
      | none => ((false, s), μ)
      | some v =>
        let (b, μ) := μ.alloc (owns d.ty v)
        decodeRows m rest { s with fields := s.fields.set k (some ⟨v, b⟩) } μ

/-- `*_decode_*ies` (asn1tostruct.py:305-391): result 0 or -1, and the structure. -/
def decodeIes {α : Type} (m : MsgDef) (any : Bytes) (μ : Mem α) : (Int × Struct) × Mem α :=
  match decode m.ty any with
  | none => ((-1, m.zero), μ)
  | some v =>
    match elements v with
    | none => ((-1, m.zero), μ)
    | some l =>
      let (b, μ) := μ.alloc true
      let ((ok, s), μ) := decodeRows m l m.zero μ
      let μ := μ.free b
      ((if ok then 0 else -1, s), μ)

/-- `*_free_*ies` (asn1tostruct.py:393-422). -/
def freeRows {α : Type} : List IeDef → Nat → BitVec 16 → List (Option Slot) → Mem α → Mem α
  | d :: ds, sh, mask, f :: fs, μ =>
    let μ := if d.opt && !isPresent mask sh then μ
      else match f with
        | none => μ
        | some s => μ.free s.block
    freeRows ds (if d.opt then sh + 1 else sh) mask fs μ
  | _, _, _, _, μ => μ

/-- `*_free_*ies` from the first row on (asn1tostruct.py:393-422). -/
def freeIes {α : Type} (m : MsgDef) (s : Struct) (μ : Mem α) : Mem α := freeRows m.ies 0 s.mask s.fields μ

end Verif.Ie
