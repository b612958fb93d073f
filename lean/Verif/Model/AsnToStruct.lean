/-!
# The generator of the information element functions

`/repo/asn1/utils/asn1tostruct.py`, lines 127-159: what it takes from the text of an ASN.1 module.  The functions it writes
from the result (lines 161-570) are `Model/Ie.lean`, with the results for the four modules of the project in
`Verif/Gen/*Ies.lean`.

Left out: `ieofielist` (lines 136-139), debug output, the length of the longest type name (layout of the output).

Regular expressions have the semantics of Python's `re`: leftmost match, repetitions take as much as they can and give back
one character at a time (backtracking), `findall` goes on behind the match.  All groups in these expressions are repetitions
of a set of characters.
-/

namespace Verif.AsnToStruct

/-- A text; as Python reads it, all line ends are `'\n'`. (asn1tostruct.py:128) -/
abbrev Text := List Char

/-! ## Sets of characters -/

/-- `\s` for Unicode text (external: Python's `re`; used in asn1tostruct.py:141-150). -/
def space (c : Char) : Bool :=
  let n := c.toNat
  (9 ≤ n && n ≤ 13) || (28 ≤ n && n ≤ 32) || n == 0x85 || n == 0xa0 || n == 0x1680 || (0x2000 ≤ n && n ≤ 0x200a) ||
  n == 0x2028 || n == 0x2029 || n == 0x202f || n == 0x205f || n == 0x3000

/-- `[A-Z]` (asn1tostruct.py:150). -/
def upper (c : Char) : Bool := 'A' ≤ c && c ≤ 'Z'

/-- `[A-Z0-9-]` (asn1tostruct.py:141). -/
def classChar (c : Char) : Bool := upper c || ('0' ≤ c && c ≤ '9') || c == '-'

/-- `[a-zA-Z0-9-]`, `[a-zA-Z0-9\-]` (asn1tostruct.py:141, 150). -/
def wordChar (c : Char) : Bool := ('a' ≤ c && c ≤ 'z') || classChar c

/-- `[a-zA-Z0-9-\ \t]` (asn1tostruct.py:149). -/
def innerChar (c : Char) : Bool := wordChar c || c == ' ' || c == '\t'

/-- `[\,\|\{\}\t\n\.{3}\ \-a-zA-Z0-9]` (asn1tostruct.py:141). -/
def bodyChar (c : Char) : Bool :=
  innerChar c || c == '\n' || c == ',' || c == '|' || c == '{' || c == '}' || c == '.'

/-- `[\|,]` (asn1tostruct.py:149). -/
def sepChar (c : Char) : Bool := c == '|' || c == ','

/-! ## Regular expressions -/

/-- Parts of a regular expression: a character of a set, `[..]*`, `[..]+`, `([..]+)` (asn1tostruct.py:141-150). -/
inductive Item where
  | one (p : Char → Bool)
  | star (p : Char → Bool)
  | plus (p : Char → Bool)
  | group (p : Char → Bool)

/-- Literal characters (asn1tostruct.py:141-150). -/
def lit (s : String) : List Item := s.toList.map fun c => .one (· == c)

/-- A repetition, with what follows it (external: Python's `re`; asn1tostruct.py:141-150): as many characters as possible;
if the rest does not match, one less. -/
def starM {α : Type} (p : Char → Bool) (k : Text → Option α) : Text → Option α
  | [] => k []
  | c :: t =>
    if p c then
      match starM p k t with
      | some r => some r
      | none => k (c :: t)
    else k (c :: t)

/-- The same for a group, which also gives the characters taken; `acc` are those taken already (external: Python's `re`;
asn1tostruct.py:141-150). -/
def groupM {α : Type} (p : Char → Bool) (k : Text → Text → Option α) (acc : Text) : Text → Option α
  | [] => k acc []
  | c :: t =>
    if p c then
      match groupM p k (acc ++ [c]) t with
      | some r => some r
      | none => k acc (c :: t)
    else k acc (c :: t)

/-- A match at the beginning of the text: the groups, and what is behind the match (external: Python's `re`;
asn1tostruct.py:141-150). -/
def matchAt : List Item → Text → Option (List Text × Text)
  | [], t => some ([], t)
  | .one _ :: _, [] => none
  | .one p :: k, c :: t => if p c then matchAt k t else none
  | .star p :: k, t => starM p (matchAt k) t
  | .plus _ :: _, [] => none
  | .plus p :: k, c :: t => if p c then starM p (matchAt k) t else none
  | .group _ :: _, [] => none
  | .group p :: k, c :: t =>
    if p c then groupM p (fun w r => (matchAt k r).map fun (ws, r) => (w :: ws, r)) [c] t else none

/-- `re.findall` (external: Python's `re`; asn1tostruct.py:141, 149, 150): the groups of the first match, then of the first one
behind it, and so on.  All expressions match at least one character, so the text itself is enough fuel. -/
def findFrom (re : List Item) : Text → Text → List (List Text)
  | [], _ => []
  | _ :: fuel, t => match matchAt re t with
    | some (groups, rest) => groups :: findFrom re fuel rest
    | none => findFrom re fuel (t.drop 1)

/-- `re.findall` (asn1tostruct.py:141, 149, 150). -/
def findAll (re : List Item) (t : Text) : List (List Text) := findFrom re t t

/-! ## The script -/

/-- `([a-zA-Z0-9-]+)\s+([A-Z0-9-]+)\s*::=\s*\{\s+([\,\|\{\}\t\n\.{3}\ \-a-zA-Z0-9]+)\s+}\n` (asn1tostruct.py:141). -/
def setRe : List Item :=
  [.group wordChar, .plus space, .group classChar, .star space] ++ (lit "::=" ++ ([.star space] ++ (lit "{" ++
    ([.plus space, .group bodyChar, .plus space] ++ lit "}\n"))))

/-- `\s*\{\s*([a-zA-Z0-9-\ \t]+)\s*\}\s*[\|,]*` (asn1tostruct.py:149). -/
def objRe : List Item :=
  [.star space] ++ (lit "{" ++ ([.star space, .group innerChar, .star space] ++ (lit "}" ++ [.star space, .star sepChar])))

/-- `ID\s*([a-zA-Z0-9\-]+)\s*CRITICALITY\s*([a-zA-Z0-9\-]+)\s+[A-Z]+\s+([a-zA-Z0-9\-]+)\s*PRESENCE\s*([a-zA-Z0-9\-]+)`
(asn1tostruct.py:150). -/
def ieRe : List Item :=
  lit "ID" ++ ([.star space, .group wordChar, .star space] ++ (lit "CRITICALITY" ++ ([.star space, .group wordChar, .plus space,
    .plus upper, .plus space, .group wordChar, .star space] ++ (lit "PRESENCE" ++ [.star space, .group wordChar]))))

/-- `line[:line.find('--')]` (asn1tostruct.py:131-132): the end of the line is cut off with the comment. -/
def cut : Text → Text
  | [] => []
  | c :: t => if c = '-' ∧ t.head? = some '-' then [] else c :: cut t

/-- The variable `lines` (asn1tostruct.py:129-134). -/
def source (lines : List Text) : Text := lines.flatMap fun l => (cut l).filter (· ≠ '\r')

/-- A row of a table, `k` in asn1tostruct.py:150-154. -/
structure Row where
  id : Text
  crit : Text
  ty : Text
  presence : Text
  deriving DecidableEq, Repr

/-- The four groups (asn1tostruct.py:150). -/
def toRow : List Text → Option Row
  | [a, b, c, d] => some ⟨a, b, c, d⟩
  | _ => none

/-- The loops over the text of an object set (asn1tostruct.py:149-154). -/
def rows (body : Text) : List Row :=
  (findAll objRe body).flatMap fun j => (findAll ieRe j.flatten).filterMap toRow

/-- `i[1].find('EXTENSION') >= 0` (asn1tostruct.py:145). -/
def isExtension : Text → Bool
  | [] => false
  | c :: t => "EXTENSION".toList.isPrefixOf (c :: t) || isExtension t

/-- `iesDefs[key] = value` for a `dict`: an old value is replaced in its place (external: Python; asn1tostruct.py:157). -/
def assign (d : List (Text × List Row)) (key : Text) (value : List Row) : List (Text × List Row) :=
  if d.any (·.1 = key) then d.map fun e => if e.1 = key then (key, value) else e else d ++ [(key, value)]

/-- One round of the loop over the object sets (asn1tostruct.py:142-159). -/
def addSet (d : List (Text × List Row)) : List Text → List (Text × List Row)
  | [name, cls, body] =>
    if isExtension cls then d                                                        -- l.145-146
    else if rows body = [] then d                                                    -- l.158-159
    else assign d name (rows body)                                                   -- l.156-157
  | _ => d

/-- `iesDefs` (asn1tostruct.py:127-159). -/
def iesDefs (lines : List Text) : List (Text × List Row) := (findAll setRe (source lines)).foldl addSet []

end Verif.AsnToStruct
