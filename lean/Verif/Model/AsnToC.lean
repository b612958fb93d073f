import Verif.Model.AsnToStruct

/-!
# Names in the code the generator writes

`/repo/asn1/utils/asn1tostruct.py`, lines 44-103 and the names formed from line 183 on.  Names consist of ASCII characters (see
the expressions in `Model/AsnToStruct.lean`), so `upper`, `lower` and `swapcase` are those of ASCII.  `prefix` is the argument
of `-p` (`RANAP_` etc., /repo/src/Makefile.am:10-46), `fileprefix` the same for functions (the name of the protocol).

Left out: what depends on `ieofielist`, which is empty for the four modules of the project.
-/

namespace Verif.AsnToStruct

/-- `re.sub(pat, rep, word)` for a literal, not empty `pat` (external: Python's `re`; asn1tostruct.py:205, 240 and others): from
left to right, `skip` characters of a match are still to be left out. -/
def subFrom (pat rep : Text) : Nat → Text → Text
  | _, [] => []
  | skip + 1, _ :: t => subFrom pat rep skip t
  | 0, c :: t =>
    if pat.isPrefixOf (c :: t) then rep ++ subFrom pat rep (pat.length - 1) t else c :: subFrom pat rep 0 t

/-- `re.sub(pat, rep, word)` (asn1tostruct.py:205, 240 and others). -/
def sub (pat rep : Text) (w : Text) : Text := subFrom pat rep 0 w

/-- `re.sub('-', '_', word)` (asn1tostruct.py:102, 184 and others). -/
def underscore (w : Text) : Text := w.map fun c => if c = '-' then '_' else c

/-- `word.lower()` (external: Python; asn1tostruct.py:54, 185 and others). -/
def lowerCase (w : Text) : Text := w.map Char.toLower

/-- `word.upper()` (external: Python; asn1tostruct.py:102, 184 and others). -/
def upperCase (w : Text) : Text := w.map Char.toUpper

/-- `word.swapcase()` (external: Python; asn1tostruct.py:50). -/
def swapCase (w : Text) : Text := w.map fun c => if upper c then c.toLower else c.toUpper

/-- `lowerFirstCamelWord` (asn1tostruct.py:44-70).  `c.islower()` of the swapped word: capitals of the word. -/
def lowerFirstCamelWord (w : Text) : Text :=
  if swapCase w = lowerCase w then lowerCase w                                        -- l.56-57
  else
    let n := (w.takeWhile upper).length                                               -- l.59-64
    if n < 2 then lowerCase (w.take n) ++ w.drop n                                    -- l.65-66
    else lowerCase (w.take (n - 1)) ++ w.drop (n - 1)                                 -- l.67-68

/-- `getUniqueIENameForDefine` (asn1tostruct.py:82-103).  `none`: the assertion fails. -/
def uniqueName (ies : List Row) (ie : Row) : Option Text :=
  let others := ies.filter (· ≠ ie)                                                   -- l.88-90
  if others.any (·.id = ie.id) then none                                              -- l.93-95
  else
    let ret := if others.any (·.ty = ie.ty) then ie.id else ie.ty                     -- l.91-92, 97-100
    some (underscore (upperCase ret))                                                 -- l.102

/-- The name of a presence constant (asn1tostruct.py:195, 364, 413, 508); `none`: the assertion fails. -/
def macroName (pre key : Text) (ies : List Row) (ie : Row) : Option Text :=
  (uniqueName ies ie).map fun n => underscore (upperCase key) ++ "_".toList ++ pre ++ n ++ "_PRESENT".toList

/-- The presence constants that are defined, with the number of places the `1` is shifted; from a row on
(asn1tostruct.py:192-197). -/
def macrosFrom (pre key : Text) (ies : List Row) : List Row → Nat → Option (List (Text × Nat))
  | [], _ => some []
  | ie :: rest, shift => do
    let n ← macroName pre key ies ie
    if ie.presence = "optional".toList ∨ ie.presence = "conditional".toList then
      let ms ← macrosFrom pre key ies rest (shift + 1)
      some ((n, shift) :: ms)
    else macrosFrom pre key ies rest shift

/-- The presence constants of a message (asn1tostruct.py:186-197). -/
def macros (pre key : Text) (ies : List Row) : Option (List (Text × Nat)) := macrosFrom pre key ies ies 0

/-- The presence constant an encoder, decoder or free function uses for an element (asn1tostruct.py:363-364, 411-414,
504-509); `none`: it uses none. -/
def usedMacro (pre key : Text) (ies : List Row) (ie : Row) : Option Text :=
  if ie.presence ≠ "mandatory".toList then macroName pre key ies ie else none

/-- The member of an element in the structure of a message (asn1tostruct.py:205-207, 350-351, 417-418, 498-500). -/
def memberName (ie : Row) : Text := lowerFirstCamelWord (underscore (sub "id-".toList [] ie.id))

/-- The members of the structure of a message (asn1tostruct.py:201-216).  `presenceMask` only if there are presence
constants. -/
def memberNames (ies : List Row) : List Text :=
  (if ies.any fun ie => ie.presence = "optional".toList ∨ ie.presence = "conditional".toList then ["presenceMask".toList]
    else []) ++ ies.map memberName

/-- Name of the structure of a message (asn1tostruct.py:201, 218), without `_s` and `_t`. -/
def structName (pre key : Text) : Text := pre ++ underscore key

/-- Name of a message: a member of the union of all messages, and a parameter of its functions (asn1tostruct.py:233, 253, 265,
324, 403, 493). -/
def messageName (key : Text) : Text := lowerFirstCamelWord (underscore key)

/-- Name of the decode function of a message as it is declared (asn1tostruct.py:243, 250), without `fileprefix_decode_`. -/
def declaredName (key : Text) : Text := underscore (lowerCase key)

/-- Name of the functions of a message as they are defined (asn1tostruct.py:240, 263, 291-296, 306-322, 396-401, 475, 491),
without `fileprefix_decode_` etc. -/
def definedName (key : Text) : Text := underscore (lowerCase (sub "ies".toList [] key))

/-- `asn1cStruct` without the prefix, before `Item` is replaced (asn1tostruct.py:241, 307, 476). -/
def containerName (key : Text) : Text := underscore (sub "IEs".toList [] (sub "-IEs".toList [] key))

/-- The type of the container (asn1tostruct.py:242, 314, 478). -/
def containerType (pre key : Text) : Text := pre ++ sub "Item".toList "List".toList (containerName key)

/-- `word[:1].lower() + word[1:]` (asn1tostruct.py:310, 311, 479). -/
def lowerFirstChar (w : Text) : Text := lowerCase (w.take 1) ++ w.drop 1

/-- `firstlower` (asn1tostruct.py:315, 477). -/
def containerVar (key : Text) : Text :=
  sub "Item".toList "List".toList (sub "enb".toList "eNB".toList (lowerFirstCamelWord (containerName key)))

/-- Parameters and variables of a decode function (asn1tostruct.py:322-331, 347).  The pointer to the container is named after
the container without prefix (`asn1cStructfirstlower` is formed before the prefix is added, l.311). -/
def decoderNames (key : Text) : List Text :=
  [messageName key, "any_p".toList, lowerFirstChar (containerName key) ++ "_p".toList, "i".toList, "decoded".toList,
   "tempDecoded".toList, "rc".toList, "ie_p".toList]

/-- The variable in the `case` of an element (asn1tostruct.py:353, 362): `re.sub('-', '', ie[2])`. -/
def elementVar (pre : Text) (ie : Row) : Text :=
  lowerFirstCamelWord (pre ++ ie.ty.filter (· ≠ '-')) ++ "_p".toList

/-- Parameters and the variable of an encode function (asn1tostruct.py:491-495). -/
def encoderNames (key : Text) : List Text := [containerVar key, messageName key, "ie".toList]

end Verif.AsnToStruct
