import Verif.Spec.AsnIes
import Verif.Spec.AsnTables

/-!
# Reading object sets as ASN.1 says

A reader for the text of the modules that knows nothing of the generator: the text is split into words and symbols, and line
ends and comments do not matter.
-/

namespace Verif.AsnToStruct.Spec
open Verif.Ie.Spec

/-- A word (letters, digits, hyphens) or another character. -/
inductive Token where
  | word (w : Text)
  | symbol (c : Char)

/-- The end of a word, given in reverse order. -/
def word (w : Text) : List Token := if w = [] then [] else [.word w.reverse]

/-- The tokens of a line.  A comment starts with two hyphens and ends with two hyphens or with the line.  `w` are the characters
of the word before, in reverse order. -/
def tokens (comment : Bool) (w : Text) : Text → List Token
  | '-' :: '-' :: t => word w ++ tokens (!comment) [] t
  | c :: t =>
    if comment then tokens true [] t
    else if c.isAlphanum || c == '-' then tokens false (c :: w) t
    else if c == ' ' || c == '\t' || c == '\n' || c == '\r' then word w ++ tokens false [] t
    else word w ++ .symbol c :: tokens false [] t
  | [] => word w

/-- Where the reader is. -/
inductive Place where
  /-- between object sets; the words since the last symbol, the last one first -/
  | outside (words : List Text)
  /-- behind `name class ::=` -/
  | assigned (name cls : Text)
  /-- in the braces of an object set with these elements -/
  | set (name cls : Text) (l : List Row)
  /-- in the braces of an element, with these words -/
  | element (name cls : Text) (l : List Row) (words : List Text)
  /-- behind the closing brace of an object set -/
  | closed (name cls : Text) (l : List Row)
  deriving DecidableEq

/-- `ID id CRITICALITY crit TYPE ty PRESENCE presence` -/
def row : List Text → List Row
  | [k1, id, k2, crit, k3, ty, k4, presence] =>
    if k1 = "ID".toList ∧ k2 = "CRITICALITY".toList ∧ k3 = "TYPE".toList ∧ k4 = "PRESENCE".toList then [⟨id, crit, ty, presence⟩]
    else []
  | _ => []

/-- Outside of object sets. -/
def readOutside (words : List Text) : Token → Place
  | .word w => .outside (w :: words)
  | .symbol ':' => .outside words
  | .symbol '=' => match words with
    | cls :: name :: _ => .assigned name cls
    | _ => .outside []
  | .symbol _ => .outside []

/-- One token; and the object set that ends before it.  (A closing brace with a bar behind it does not end the object set: in
`InitialUE-MessageIEs` there is one brace too many.) -/
def read : Place → Token → Place × List (Text × Text × List Row)
  | .outside words, x => (readOutside words x, [])
  | .assigned name cls, .symbol '{' => (.set name cls [], [])
  | .assigned _ _, x => (readOutside [] x, [])
  | .set name cls l, .symbol '{' => (.element name cls l [], [])
  | .set name cls l, .symbol '}' => (.closed name cls l, [])
  | .set name cls l, _ => (.set name cls l, [])
  | .element name cls l words, .word w => (.element name cls l (words ++ [w]), [])
  | .element name cls l words, .symbol '}' => (.set name cls (l ++ row words), [])
  | .element name cls l words, .symbol _ => (.element name cls l words, [])
  | .closed name cls l, .symbol '|' => (.set name cls l, [])
  | .closed name cls l, x => (readOutside [] x, [(name, cls, l)])

/-- A number of tokens. -/
def readAll (p : Place) : List Token → Place × List (Text × Text × List Row)
  | [] => (p, [])
  | x :: xs =>
    let a := read p x
    let b := readAll a.1 xs
    (b.1, a.2 ++ b.2)

/-- All object sets of a file: name, class and elements. -/
def objectSets (lines : List Text) : List (Text × Text × List Row) :=
  (readAll (.outside []) (lines.flatMap (tokens false []))).2

/-- The object sets of elements of messages and of list items: those of the class `<protocol>-PROTOCOL-IES` with at least one
element. -/
def elementSets (protocol : Text) (lines : List Text) : List (Text × List Row) :=
  (objectSets lines).filterMap fun (name, cls, l) =>
    if cls = protocol ++ "-PROTOCOL-IES".toList ∧ l ≠ [] then some (name, l) else none

/-- The entry of a specification for an element. -/
def asnIe (N : Names) (r : Row) : Option AsnIe := do
  let id ← N.number.lookup r.id
  let crit ← criticality r.crit
  some { name := String.ofList r.id, id, crit, opt := !decide (r.presence = "mandatory".toList) }

/-- The entry of a specification for an object set. -/
def asnSet (N : Names) (t : Text × List Row) : Option AsnSet := do
  let ies ← t.2.mapM (asnIe N)
  some { name := String.ofList t.1, ies }

end Verif.AsnToStruct.Spec
