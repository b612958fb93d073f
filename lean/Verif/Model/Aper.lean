import Verif.Basic

/-!
# Aligned PER (X.691), as used through libasn1c

`aper_encode`, `aper_decode`, `ANY_fromType_aper` and `ANY_to_type_aper` are external
(libasn1c).  They interpret the type descriptors `asn_DEF_*` of
`/repo/src/{ranap,rua,hnbap,sabp}/*.c`, which `Verif/Gen/*Types.lean` transcribes.  This file is
the interpreter: X.691 ALIGNED for the constructs that occur in those descriptors.  It is validated
against the octets in `/repo/tests/test-ranap.ok` (`Verif/Props/Aper.lean`).

Not modelled: extension additions of SEQUENCE on the encoding side (the code never fills any in),
values outside the root of an extensible INTEGER on the encoding side, lists of 16384 or more
elements and bit strings of 16384 or more bits, and OBJECT IDENTIFIER: those do not encode.
-/

namespace Verif.Aper

/-- A bit sequence, first bit first (X.691 3.7.8; what `aper_encode_to_buffer` writes, ranap_common.c:306). -/
abbrev Bits := List Bool

/-! ## Types and values -/

/-- `asn_per_constraint_t` of an INTEGER, e.g. src/ranap/RANAP_Cause.c:10-14. -/
structure Range where
  lb : Int
  ub : Int
  ext : Bool
  deriving DecidableEq, Repr

/-- `asn_per_constraint_t` of a size, e.g. src/ranap/RANAP_LAC.c:134-138. -/
structure Size where
  lb : Nat
  ub : Nat
  ext : Bool
  deriving DecidableEq, Repr

mutual
/-- `asn_TYPE_descriptor_t`: the part that aligned PER depends on, e.g. src/ranap/RANAP_RANAP-PDU.c. -/
inductive Ty where
  | null
  | bool
  | int (r : Range)
  /-- number of values in the root, number of all values, extensible; a value is its index -/
  | enum (root total : Nat) (ext : Bool)
  | bits (s : Option Size)
  | octets (s : Option Size)
  /-- `ANY_t`: an open type whose contents are not interpreted -/
  | any
  | seq (ext : Bool) (fs : Fields)
  /-- root alternatives and extension alternatives -/
  | choice (ext : Bool) (root adds : Fields)
  | seqOf (s : Option Size) (t : Ty)
  /-- OBJECT IDENTIFIER, not modelled -/
  | oid
/-- Components of a SEQUENCE (optional or not), or alternatives of a CHOICE: `asn_TYPE_member_t[]`, e.g. src/ranap/RANAP_IE.c:12-40. -/
inductive Fields where
  | nil
  | cons (opt : Bool) (t : Ty) (rest : Fields)
end

/-- The decoded form: the C structures of the generated headers, e.g. include/osmocom/ranap/RANAP_RANAP-PDU.h:37-52. -/
inductive Val where
  | null
  | bool (b : Bool)
  | int (n : Int)
  | enum (n : Nat)
  | bits (b : Bits)
  | octets (b : Bytes)
  /-- one entry per component, `none` for an absent optional one (NULL pointer) -/
  | seq (fields : List (Option Val))
  /-- `present - 1` and the alternative -/
  | choice (i : Nat) (v : Val)
  | list (vs : List Val)

/-- Number of components / alternatives (`elements_count` of a descriptor, e.g. src/ranap/RANAP_IE.c:12-40). -/
def Fields.length : Fields → Nat
  | .nil => 0
  | .cons _ _ fs => fs.length + 1

/-- Number of optional components (`roms_count` of `asn_SEQUENCE_specifics_t`, e.g. src/ranap/RANAP_IE.c:12-40). -/
def Fields.numOpt : Fields → Nat
  | .nil => 0
  | .cons opt _ fs => fs.numOpt + if opt then 1 else 0

/-! ## Bits and octets -/

/-- The low `w` bits of `n`, most significant first (libasn1c, external; behind `aper_encode_to_buffer`, ranap_common.c:306). -/
def natBits : Nat → Nat → Bits
  | 0, _ => []
  | w + 1, n => n.testBit w :: natBits w n

/-- A bit sequence as a number, most significant first (libasn1c, external; behind `aper_decode`, ranap_common_cn.c:387). -/
def bitsNat (bs : Bits) : Nat := bs.foldl (fun a b => 2 * a + b.toNat) 0

/-- The bits of octets (libasn1c, external; behind `aper_decode`, ranap_common_cn.c:387). -/
def octetsBits : Bytes → Bits
  | [] => []
  | b :: bs => natBits 8 b.toNat ++ octetsBits bs

/-- The octets of a bit sequence, the last one padded with zeros (libasn1c, external; behind `aper_encode_to_buffer`, ranap_common.c:306). -/
def toOctets : Bits → Bytes
  | b7 :: b6 :: b5 :: b4 :: b3 :: b2 :: b1 :: b0 :: rest =>
    BitVec.ofNat 8 (bitsNat [b7, b6, b5, b4, b3, b2, b1, b0]) :: toOctets rest
  | [] => []
  | bs => [BitVec.ofNat 8 (bitsNat (bs ++ List.replicate (8 - bs.length) false))]

/-! ## Encoders and decoders

An encoder gets the number of bits already written (alignment is relative to the start of the
message or open type). -/

/-- Offset to bits: an encoder (libasn1c, external; behind `aper_encode_to_buffer`, ranap_common.c:306). -/
abbrev Enc := Nat → Option Bits

/-- Input of a decoder: bits consumed so far, bits left (libasn1c, external; behind `aper_decode`, ranap_common_cn.c:387). -/
structure In where
  off : Nat
  bits : Bits
  deriving DecidableEq, Repr

/-- A decoder (libasn1c, external; behind `aper_decode`, ranap_common_cn.c:387). -/
abbrev Dec := StateT In Option

/-- One encoder after the other (libasn1c, external; behind `aper_encode_to_buffer`, ranap_common.c:306). -/
def Enc.seq (e f : Enc) : Enc := fun off =>
  match e off with
  | none => none
  | some a =>
    match f (off + a.length) with
    | none => none
    | some b => some (a ++ b)

@[inherit_doc] infixr:65 " +++ " => Enc.seq

/-- Nothing (libasn1c, external; behind `aper_encode_to_buffer`, ranap_common.c:306). -/
def eNil : Enc := fun _ => some []
/-- Failure (libasn1c, external; behind `aper_encode_to_buffer`, ranap_common.c:306). -/
def eFail : Enc := fun _ => none
/-- Given bits (libasn1c, external; behind `aper_encode_to_buffer`, ranap_common.c:306). -/
def eRaw (bs : Bits) : Enc := fun _ => some bs
/-- `w` bits (libasn1c, external; behind `aper_encode_to_buffer`, ranap_common.c:306). -/
def eNat (w n : Nat) : Enc := fun _ => if n < 2 ^ w then some (natBits w n) else none
/-- Number of padding bits at an offset (X.691 10.2, libasn1c `aper_put_align`, external; behind ranap_common.c:306). -/
def padLen (off : Nat) : Nat := (8 - off % 8) % 8
/-- Alignment to an octet boundary (libasn1c `aper_put_align`, external; behind ranap_common.c:306). -/
def eAlign : Enc := fun off => some (List.replicate (padLen off) false)

/-- The first `n` elements and the rest, if there are that many (libasn1c, external; behind `aper_decode`, ranap_common_cn.c:387). -/
def splitN : Nat → Bits → Option (Bits × Bits)
  | 0, bs => some ([], bs)
  | _ + 1, [] => none
  | n + 1, b :: bs => match splitN n bs with
    | none => none
    | some (a, r) => some (b :: a, r)

/-- Read `n` bits (libasn1c, external; behind `aper_decode`, ranap_common_cn.c:387). -/
def dTake (n : Nat) : Dec Bits := fun i =>
  match splitN n i.bits with
  | none => none
  | some (a, r) => some (a, ⟨i.off + n, r⟩)
/-- Read `w` bits as a number (libasn1c, external; behind `aper_decode`, ranap_common_cn.c:387). -/
def dNat (w : Nat) : Dec Nat := fun i =>
  match dTake w i with
  | none => none
  | some (a, j) => some (bitsNat a, j)
/-- Skip padding (libasn1c `aper_get_align`, external; behind ranap_common_cn.c:387). -/
def dAlign : Dec Unit := fun i =>
  match dTake (padLen i.off) i with
  | none => none
  | some (_, j) => some ((), j)
/-- Failure (libasn1c, external; behind `aper_decode`, ranap_common_cn.c:387). -/
def dFail {α : Type} : Dec α := fun _ => none
/-- Read one bit (libasn1c, external; behind `aper_decode`, ranap_common_cn.c:387). -/
def dBit : Dec Bool := do return (← dNat 1) = 1
/-- Write one bit (libasn1c, external; behind `aper_encode_to_buffer`, ranap_common.c:306). -/
def eBit (b : Bool) : Enc := eNat 1 b.toNat

/-! ## Whole numbers and lengths (X.691 clause 10) -/

/-- Width of a bit field for `range` values (10.5.7.1). -/
def bitsFor (range : Nat) : Nat := Nat.log2 (range - 1) + 1
/-- Octets needed for `n` (10.3). -/
def octetsFor (n : Nat) : Nat := Nat.log2 n / 8 + 1

/-- Constrained whole number below `range` in at most two octets (10.5.7.1 - 10.5.7.3). -/
def eSmall (range n : Nat) : Enc :=
  if range ≤ n then eFail
  else if range = 1 then eNil
  else if range ≤ 255 then eNat (bitsFor range) n
  else if range = 256 then eAlign +++ eNat 8 n
  else eAlign +++ eNat 16 n
/-- Decoder to `eSmall` (10.5.7.1 - 10.5.7.3) (libasn1c, external; behind `aper_decode`, ranap_common_cn.c:387). -/
def dSmall (range : Nat) : Dec Nat :=
  if range = 1 then pure 0
  else if range ≤ 255 then dNat (bitsFor range)
  else if range = 256 then do dAlign; dNat 8
  else do dAlign; dNat 16

/-- Constrained whole number below `range` (10.5.7; 10.5.7.4 for more than 65536 values). -/
def eCons (range n : Nat) : Enc :=
  if range ≤ n then eFail
  else if range ≤ 65536 then eSmall range n
  else eSmall (octetsFor (range - 1)) (octetsFor n - 1) +++ eAlign +++ eNat (8 * octetsFor n) n
/-- Decoder to `eCons` (10.5.7) (libasn1c, external; behind `aper_decode`, ranap_common_cn.c:387). -/
def dCons (range : Nat) : Dec Nat :=
  if range ≤ 65536 then dSmall range
  else do
    let m ← dSmall (octetsFor (range - 1))
    dAlign
    dNat (8 * (m + 1))

/-- Normally small non-negative whole number (10.6), below 64. -/
def eNsn (n : Nat) : Enc := if n < 64 then eBit false +++ eNat 6 n else eFail
/-- Decoder to `eNsn` (10.6) (libasn1c, external; behind `aper_decode`, ranap_common_cn.c:387). -/
def dNsn : Dec Nat := do if ← dBit then dFail else dNat 6

/-- General length determinant below 16384 (10.9.3.5 - 10.9.3.7). -/
def eLen (n : Nat) : Enc :=
  eAlign +++ if n < 128 then eBit false +++ eNat 7 n
    else if n < 16384 then eBit true +++ eBit false +++ eNat 14 n
    else eFail
/-- Decoder to `eLen` (10.9.3.5 - 10.9.3.7) (libasn1c, external; behind `aper_decode`, ranap_common_cn.c:387). -/
def dLen : Dec Nat := do
  dAlign
  if ← dBit then
    if ← dBit then dFail else dNat 14
  else dNat 7

/-- Octets in fragments of at most 64K (10.9.3.8); the first argument bounds their number. -/
def eFrag : Nat → Bytes → Enc
  | 0, _ => eFail
  | k + 1, bs =>
    if bs.length < 16384 then eLen bs.length +++ eRaw (octetsBits bs)
    else
      let m := min 4 (bs.length / 16384)
      eAlign +++ eBit true +++ eBit true +++ eNat 6 m +++
        eRaw (octetsBits (bs.take (m * 16384))) +++ eFrag k (bs.drop (m * 16384))
/-- Read `n` octets (libasn1c, external; behind `aper_decode`, ranap_common_cn.c:387). -/
def dRawOctets (n : Nat) : Dec Bytes := do return toOctets (← dTake (8 * n))
/-- Decoder to `eFrag` (10.9.3.8) (libasn1c, external; behind `aper_decode`, ranap_common_cn.c:387). -/
def dFrag : Nat → Dec Bytes
  | 0 => dFail
  | k + 1 => do
    dAlign
    if ← dBit then
      if ← dBit then do
        let m ← dNat 6
        if m = 0 ∨ 4 < m then dFail
        else do
          let a ← dRawOctets (m * 16384)
          let b ← dFrag k
          return a ++ b
      else do dRawOctets (← dNat 14)
    else do dRawOctets (← dNat 7)

/-- Unconstrained octets (OCTET STRING without size constraint, open type contents) (libasn1c, external; behind `aper_encode_to_buffer`, ranap_common.c:306). -/
def eOctets (bs : Bytes) : Enc := eFrag (bs.length / 16384 + 1) bs
/-- Decoder to `eOctets` (libasn1c, external; behind `aper_decode`, ranap_common_cn.c:387). -/
def dOctets : Dec Bytes := fun i => dFrag (i.bits.length + 1) i

/-- Complete encoding of a value on its own (11.1): at least one octet. -/
def complete (e : Enc) : Option Bytes :=
  match e 0 with
  | none => none
  | some [] => some [0]
  | some bs => some (toOctets bs)

/-- Open type (11.2). -/
def eOpen (e : Enc) : Enc := fun off =>
  match complete e with
  | none => none
  | some bs => eOctets bs off
/-- Decoder to `eOpen` (11.2) (libasn1c, external; behind `aper_decode`, ranap_common_cn.c:387). -/
def dOpen {α : Type} (d : Dec α) : Dec α := fun i =>
  match dOctets i with
  | none => none
  | some (bs, j) =>
    match d ⟨0, octetsBits bs⟩ with
    | none => none
    | some (a, _) => some (a, j)

/-- Length within the root of a size constraint (10.9.4). -/
def eSize (s : Size) (n : Nat) : Enc :=
  if n < s.lb ∨ s.ub < n then eFail
  else if s.lb = s.ub then eNil
  else if s.ub < 65536 then eCons (s.ub - s.lb + 1) (n - s.lb)
  else eLen n
/-- Decoder to `eSize` (10.9.4) (libasn1c, external; behind `aper_decode`, ranap_common_cn.c:387). -/
def dSize (s : Size) : Dec Nat :=
  if s.lb = s.ub then pure s.lb
  else if s.ub < 65536 then do return (← dCons (s.ub - s.lb + 1)) + s.lb
  else dLen

/-- Contents after a length: aligned unless fixed and at most 16 bits (15.9, 15.10, 16.6, 16.7)
or empty. -/
def eBody (s : Size) (bs : Bits) : Enc :=
  if (s.lb = s.ub ∧ bs.length ≤ 16) ∨ bs = [] then eRaw bs else eAlign +++ eRaw bs
/-- Decoder to `eBody` (libasn1c, external; behind `aper_decode`, ranap_common_cn.c:387). -/
def dBody (s : Size) (len : Nat) : Dec Bits :=
  if (s.lb = s.ub ∧ len ≤ 16) ∨ len = 0 then dTake len else do dAlign; dTake len

/-- OCTET STRING (clause 16). -/
def eOctStr (s : Option Size) (bs : Bytes) : Enc :=
  match s with
  | none => eOctets bs
  | some s =>
    if s.ext then
      if s.lb ≤ bs.length ∧ bs.length ≤ s.ub then
        eBit false +++ eSize s bs.length +++ eBody s (octetsBits bs)
      else eBit true +++ eOctets bs
    else eSize s bs.length +++ eBody s (octetsBits bs)
/-- Decoder to `eOctStr` (clause 16) (libasn1c, external; behind `aper_decode`, ranap_common_cn.c:387). -/
def dOctStr (s : Option Size) : Dec Bytes :=
  match s with
  | none => dOctets
  | some s => do
    let out ← if s.ext then dBit else pure false
    if out then dOctets
    else do
      let n ← dSize s
      return toOctets (← dBody s (8 * n))

/-- BIT STRING (clause 15). -/
def eBitStr (s : Option Size) (bs : Bits) : Enc :=
  match s with
  | none => eLen bs.length +++ eRaw bs
  | some s =>
    if s.ext then
      if s.lb ≤ bs.length ∧ bs.length ≤ s.ub then eBit false +++ eSize s bs.length +++ eBody s bs
      else eBit true +++ eLen bs.length +++ eRaw bs
    else eSize s bs.length +++ eBody s bs
/-- Decoder to `eBitStr` (clause 15) (libasn1c, external; behind `aper_decode`, ranap_common_cn.c:387). -/
def dBitStr (s : Option Size) : Dec Bits :=
  match s with
  | none => do dTake (← dLen)
  | some s => do
    let out ← if s.ext then dBit else pure false
    if out then do dTake (← dLen)
    else do
      let n ← dSize s
      dBody s n

/-- Two's complement number (libasn1c, external; behind `aper_decode`, ranap_common_cn.c:387). -/
def bitsInt (bs : Bits) : Int :=
  match bs with
  | true :: _ => (bitsNat bs : Int) - 2 ^ bs.length
  | _ => bitsNat bs

/-- INTEGER (clause 12). -/
def eInt (r : Range) (n : Int) : Enc :=
  if n < r.lb ∨ r.ub < n then eFail
  else if r.ext then eBit false +++ eCons ((r.ub - r.lb).toNat + 1) (n - r.lb).toNat
  else eCons ((r.ub - r.lb).toNat + 1) (n - r.lb).toNat
/-- Decoder to `eInt` (clause 12) (libasn1c, external; behind `aper_decode`, ranap_common_cn.c:387). -/
def dInt (r : Range) : Dec Int := do
  let out ← if r.ext then dBit else pure false
  if out then do
    let n ← dLen
    return bitsInt (← dTake (8 * n))
  else do return r.lb + ((← dCons ((r.ub - r.lb).toNat + 1)) : Int)

/-- ENUMERATED (clause 13). -/
def eEnum (root total : Nat) (ext : Bool) (n : Nat) : Enc :=
  if ext then
    if n < root then eBit false +++ eCons root n
    else if n < total then eBit true +++ eNsn (n - root) else eFail
  else if n < root then eCons root n else eFail
/-- A value not known to the descriptor is an error. Decoder to `eEnum` (clause 13) (libasn1c, external; behind `aper_decode`, ranap_common_cn.c:387). -/
def dEnum (root total : Nat) (ext : Bool) : Dec Nat := do
  let out ← if ext then dBit else pure false
  let n ← if out then (· + root) <$> dNsn else dCons root
  if n < total then return n else dFail

/-- Number of elements of a SEQUENCE OF (clause 19). -/
def eCount (s : Option Size) (n : Nat) : Enc :=
  match s with
  | none => eLen n
  | some s =>
    if s.ext then
      if s.lb ≤ n ∧ n ≤ s.ub then eBit false +++ eSize s n else eBit true +++ eLen n
    else eSize s n
/-- Decoder to `eCount` (libasn1c, external; behind `aper_decode`, ranap_common_cn.c:387). -/
def dCount (s : Option Size) : Dec Nat :=
  match s with
  | none => dLen
  | some s => do
    let out ← if s.ext then dBit else pure false
    if out then dLen else dSize s

/-- Elements one after the other (libasn1c, external; behind `aper_encode_to_buffer`, ranap_common.c:306). -/
def eList (e : Val → Enc) : List Val → Enc
  | [] => eNil
  | v :: vs => e v +++ eList e vs
/-- Decoder to `eList` (libasn1c, external; behind `aper_decode`, ranap_common_cn.c:387). -/
def dList (d : Dec Val) : Nat → Dec (List Val)
  | 0 => pure []
  | n + 1 => do
    let v ← d
    let vs ← dList d n
    return v :: vs

/-- The optional bit map (18.2). -/
def optBits : Fields → List (Option Val) → Bits
  | .cons true _ fs, v :: vs => v.isSome :: optBits fs vs
  | .cons false _ fs, _ :: vs => optBits fs vs
  | _, _ => []

/-- Unknown extension additions are skipped (18.7 - 18.9): bit map length, bit map, open types. -/
def dSkipOpen : Nat → Dec Unit
  | 0 => pure ()
  | n + 1 => do
    let _ ← dOctets
    dSkipOpen n
/-- Extension additions of a SEQUENCE are skipped (18.8) (libasn1c, external; behind `aper_decode`, ranap_common_cn.c:387). -/
def dSkipExt : Dec Unit := do
  let n ← dNsn
  let bm ← dTake (n + 1)
  dSkipOpen (bm.filter id).length

mutual
/-- `aper_encoder` of a type (libasn1c, external; behind `aper_encode_to_buffer`, ranap_common.c:306). -/
def enc : Ty → Val → Enc
  | .null, .null => eNil
  | .bool, .bool b => eBit b
  | .int r, .int n => eInt r n
  | .enum root total ext, .enum n => eEnum root total ext n
  | .bits s, .bits b => eBitStr s b
  | .octets s, .octets b => eOctStr s b
  | .any, .octets b => eOctets b
  | .seq ext fs, .seq vs =>
    (if ext then eBit false else eNil) +++ eRaw (optBits fs vs) +++ encFields fs vs
  | .choice ext root adds, .choice i v =>
    if i < root.length then
      (if ext then eBit false else eNil) +++ eCons root.length i +++ encAlt root i v
    else if ext then
      eBit true +++ eNsn (i - root.length) +++ eOpen (encAlt adds (i - root.length) v)
    else eFail
  | .seqOf s t, .list vs => eCount s vs.length +++ eList (enc t) vs
  | _, _ => eFail
/-- The components that are present (libasn1c, external; behind `aper_encode_to_buffer`, ranap_common.c:306). -/
def encFields : Fields → List (Option Val) → Enc
  | .nil, [] => eNil
  | .cons _ t fs, some v :: vs => enc t v +++ encFields fs vs
  | .cons true _ fs, none :: vs => encFields fs vs
  | _, _ => eFail
/-- The chosen alternative (libasn1c, external; behind `aper_encode_to_buffer`, ranap_common.c:306). -/
def encAlt : Fields → Nat → Val → Enc
  | .cons _ t _, 0, v => enc t v
  | .cons _ _ fs, i + 1, v => encAlt fs i v
  | .nil, _, _ => eFail
end

mutual
/-- `aper_decoder` of a type (libasn1c, external; behind `aper_decode`, ranap_common_cn.c:387). -/
def dec : Ty → Dec Val
  | .null => pure .null
  | .bool => do return .bool (← dBit)
  | .int r => do return .int (← dInt r)
  | .enum root total ext => do return .enum (← dEnum root total ext)
  | .bits s => do return .bits (← dBitStr s)
  | .octets s => do return .octets (← dOctStr s)
  | .any => do return .octets (← dOctets)
  | .seq ext fs => do
    let out ← if ext then dBit else pure false
    let bm ← dTake fs.numOpt
    let vs ← decFields fs bm
    if out then do
      dSkipExt
      return .seq vs
    else return .seq vs
  | .choice ext root adds => do
    let out ← if ext then dBit else pure false
    if out then do
      let i ← dNsn
      return .choice (i + root.length) (← dOpen (decAlt adds i))
    else do
      let i ← dCons root.length
      return .choice i (← decAlt root i)
  | .seqOf s t => do
    let n ← dCount s
    return .list (← dList (dec t) n)
  | .oid => dFail
/-- The components, given the optional bit map (libasn1c, external; behind `aper_decode`, ranap_common_cn.c:387). -/
def decFields : Fields → Bits → Dec (List (Option Val))
  | .nil, _ => pure []
  | .cons false t fs, bm => do
    let v ← dec t
    let vs ← decFields fs bm
    return some v :: vs
  | .cons true t fs, true :: bm => do
    let v ← dec t
    let vs ← decFields fs bm
    return some v :: vs
  | .cons true _ fs, false :: bm => do
    let vs ← decFields fs bm
    return none :: vs
  | .cons true _ _, [] => dFail
/-- An alternative (libasn1c, external; behind `aper_decode`, ranap_common_cn.c:387). -/
def decAlt : Fields → Nat → Dec Val
  | .cons _ t _, 0 => dec t
  | .cons _ _ fs, i + 1 => decAlt fs i
  | .nil, _ => dFail
end

/-- `ANY_fromType_aper` / `aper_encode_to_buffer`: the octets of a value on its own. (Called in ranap_common.c:306, 332, 359, 386, 413, 441.) -/
def encode (t : Ty) (v : Val) : Option Bytes := complete (enc t v)

/-- `ANY_to_type_aper` / `aper_decode`: octets after the value are ignored. (Called in ranap_common_cn.c:387, 635, ranap_common_ran.c:300, ranap_common.c:572 and by the generated decoders, asn1tostruct.py:305-391.) -/
def decode (t : Ty) (bs : Bytes) : Option Val :=
  match dec t ⟨0, octetsBits bs⟩ with
  | none => none
  | some (v, _) => some v

end Verif.Aper
