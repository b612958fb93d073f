import Verif.Basic

/-!
# VTY configuration

`/repo/src/iu_client_vty.c`.  A line of configuration is split into words by libosmovty (external); a
command runs if the words of the line are those of the command.  Abbreviated keywords, which libosmovty
also accepts, are not modelled: they are never written.
-/

namespace Verif.Vty

/-- The settings: `*g_rab_assign_addr_enc` (`none` if the pointer is NULL; 0 is
`RANAP_NSAP_ADDR_ENC_X213`, 1 `RANAP_NSAP_ADDR_ENC_V4RAW`, include/osmocom/ranap/ranap_common.h:599-602), `asn_debug`
and `asn1_xer_print` (iu_helpers.c:38-43). -/
structure Settings where
  enc : Option Nat
  debug : Int
  xer : Int
  deriving DecidableEq, Repr

/-- `CMD_SUCCESS`, `CMD_WARNING`, and "unknown command" of libosmovty (external; iu_client_vty.c:45, 71). -/
inductive Rc where
  | success | warning | noMatch
  deriving DecidableEq, Repr

/-- Splitting a line at blanks (libosmovty `cmd_make_strvec`, external). It gets the command strings of iu_client_vty.c:36, 48, 61. -/
def wordsFrom : List Char → List Char → List (List Char)
  | [], cur => if cur = [] then [] else [cur]
  | c :: cs, cur =>
    if c = ' ' then (if cur = [] then wordsFrom cs [] else cur :: wordsFrom cs []) else wordsFrom cs (cur ++ [c])
/-- Words of a line (libosmovty, external; see iu_client_vty.c:36-79). -/
def words (l : List Char) : List (List Char) := wordsFrom l []

/-- `asn1 debug (1|0)` (iu_client_vty.c:36-46). -/
def cfgDebug (arg : Int) (s : Settings) : Rc × Settings := (.success, { s with debug := arg })

/-- `asn1 xer-print (1|0)` (iu_client_vty.c:48-58). -/
def cfgXer (arg : Int) (s : Settings) : Rc × Settings := (.success, { s with xer := arg })

/-- `iu rab-assign-addr-enc (x213|v4raw)` (iu_client_vty.c:61-79). -/
def cfgEnc (arg : List Char) (s : Settings) : Rc × Settings :=
  match s.enc with
  | none => (.warning, s)
  | some _ => (.success, { s with enc := some (if arg = "v4raw".toList then 1 else 0) })

/-- The commands installed by `ranap_iu_vty_init` (iu_client_vty.c:113-124). -/
def exec (line : List Char) (s : Settings) : Rc × Settings :=
  let w := words line
  if w = ["asn1".toList, "debug".toList, "1".toList] then cfgDebug 1 s
  else if w = ["asn1".toList, "debug".toList, "0".toList] then cfgDebug 0 s
  else if w = ["asn1".toList, "xer-print".toList, "1".toList] then cfgXer 1 s
  else if w = ["asn1".toList, "xer-print".toList, "0".toList] then cfgXer 0 s
  else if w = ["iu".toList, "rab-assign-addr-enc".toList, "x213".toList] then cfgEnc "x213".toList s
  else if w = ["iu".toList, "rab-assign-addr-enc".toList, "v4raw".toList] then cfgEnc "v4raw".toList s
  else (.noMatch, s)

/-- Executing lines one after the other (libosmovty, external; commands of iu_client_vty.c:36-79). -/
def execAll : List (List Char) → Settings → Settings
  | [], s => s
  | l :: ls, s => execAll ls (exec l s).2

/-- `ranap_iu_vty_config_write` (iu_client_vty.c:81-111): return code and lines written. -/
def configWrite (indent : List Char) (s : Settings) : Rc × List (List Char) :=
  match s.enc with
  | none => (.warning, ["%RAB Assignment Transport Layer Address encoding not available".toList])
  | some e =>
    if e = 0 ∨ e = 1 then
      (.success, (if e = 1 then [indent ++ "iu rab-assign-addr-enc v4raw".toList] else []) ++
        (if s.debug ≠ 0 then [indent ++ "asn1 debug 1".toList] else []) ++
        (if s.xer ≠ 0 then [indent ++ "asn1 xer-print 1".toList] else []))
    else (.warning, [])

end Verif.Vty
