import Verif.Basic
import Verif.Gen.Causes

/-!
# Cause strings

`ranap_cause_str` (/repo/src/ranap_common.c:251-290), `rua_cause_str` (/repo/src/rua_common.c:70-100) and
`hnbap_cause_str` (/repo/src/hnbap_common.c:81-111).  Each writes into a static buffer and returns it;
here the buffer before the call is an argument, the buffer after it the result.  Characters are those of
the tables, all ASCII.
-/

namespace Verif.CauseStr
open Verif.Gen.Causes

/-- A write of consecutive characters to the start of a buffer; `fault` beyond its end (C library, external; ranap_common.c:251-290). -/
def write (buf s : List Char) : Res (List Char) :=
  if s.length ≤ buf.length then .ok (s ++ buf.drop s.length) else .fault .oobWrite

/-- `snprintf(buf, size, ...)` for `size > 0`: at most `size - 1` characters and a NUL. -/
def snprintf (buf : List Char) (size : Nat) (s : List Char) : Res (List Char) := write buf (s.take (size - 1) ++ ['\x00'])

/-- `strcpy(buf, ...)` (C library, external; ranap_common.c:286). -/
def strcpy (buf s : List Char) : Res (List Char) := write buf (s ++ ['\x00'])

/-- The string in a buffer (C library, external; ranap_common.c:251-290). -/
def text (buf : List Char) : List Char := buf.takeWhile (· != '\x00')

/-- libosmocore `get_value_string` (external; the argument is a `uint32_t`): the first row with the
value, otherwise `unknown 0x%x`. -/
def valueString (t : Names) (v : Int) : List Char :=
  let n := (v % 4294967296).toNat
  match t.find? (·.1 == n) with
  | some r => r.2
  | none => "unknown 0x".toList ++ Nat.toDigits 16 n

/-- `%ld` (ranap_common.c:282). -/
def decimal (v : Int) : List Char := (if v < 0 then ['-'] else []) ++ Nat.toDigits 10 v.natAbs

/-- `name(%s)` (ranap_common.c:258-283). -/
def group (name : String) (s : List Char) : List Char := name.toList ++ '(' :: (s ++ [')'])

/-- A cause: `present`, and the number in the union (the members are `long`) (include/osmocom/ranap/RANAP_Cause.h:42-60, include/osmocom/rua/RUA_Cause.h:37-52,
include/osmocom/hnbap/HNBAP_Cause.h:37-52). -/
structure Cause where
  present : Nat
  value : Int
  deriving DecidableEq, Repr

/-- `ranap_cause_str` (ranap_common.c:251-290), `static char buf[128]`. -/
def ranapCauseStr (buf : List Char) (c : Cause) : Res (List Char) :=
  match c.present with
  | 1 => snprintf buf 128 (group "radio" (valueString ranapRadio c.value))
  | 2 => snprintf buf 128 (group "transmission" (valueString ranapTransm c.value))
  | 3 => snprintf buf 128 (group "nas" (valueString ranapNas c.value))
  | 4 => snprintf buf 128 (group "protocol" (valueString ranapProt c.value))
  | 5 => snprintf buf 128 (group "misc" (valueString ranapMisc c.value))
  | 6 => snprintf buf 128 (group "non-standard" (decimal c.value))
  | _ => strcpy buf "unknown".toList

/-- `rua_cause_str` (rua_common.c:70-100), `static char buf[32]`. -/
def ruaCauseStr (buf : List Char) (c : Cause) : Res (List Char) :=
  match c.present with
  | 1 => snprintf buf 32 (group "radio" (valueString ruaRadio c.value))
  | 2 => snprintf buf 32 (group "transport" (valueString ruaTransp c.value))
  | 3 => snprintf buf 32 (group "protocol" (valueString ruaProt c.value))
  | 4 => snprintf buf 32 (group "misc" (valueString ruaMisc c.value))
  | _ => strcpy buf "unknown".toList

/-- `hnbap_cause_str` (hnbap_common.c:81-111), `static char buf[32]`.  There is no default: for any other
`present` the buffer is returned as it is. -/
def hnbapCauseStr (buf : List Char) (c : Cause) : Res (List Char) :=
  match c.present with
  | 0 => snprintf buf 32 "NOTHING".toList
  | 1 => snprintf buf 32 (group "radio" (valueString hnbapRadio c.value))
  | 2 => snprintf buf 32 (group "transport" (valueString hnbapTransp c.value))
  | 3 => snprintf buf 32 (group "protocol" (valueString hnbapProt c.value))
  | 4 => snprintf buf 32 (group "misc" (valueString hnbapMisc c.value))
  | _ => .ok buf

end Verif.CauseStr
