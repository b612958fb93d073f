import Verif.Model.AsnToStruct

/-!
# Object sets as they are written in ASN.1
-/

namespace Verif.AsnToStruct.Spec

/-- Blanks, tabs and line ends. -/
def Gap (t : Text) : Prop := ∀ c ∈ t, c = ' ' ∨ c = '\t' ∨ c = '\n'

/-- A name or number: letters, digits and hyphens. -/
def IsWord (t : Text) : Prop := t ≠ [] ∧ ∀ c ∈ t, c.isAlphanum = true ∨ c = '-'

/-- A keyword: capital letters. -/
def IsKeyword (t : Text) : Prop := t ≠ [] ∧ ∀ c ∈ t, c.isUpper = true

/-- The name of a class: capital letters, digits and hyphens. -/
def IsClass (t : Text) : Prop := t ≠ [] ∧ ∀ c ∈ t, c.isUpper = true ∨ c.isDigit = true ∨ c = '-'

/-- `ID id CRITICALITY crit TYPE ty PRESENCE presence`, the words separated by blanks, tabs and line ends in any number. -/
def Defines (w : Text) (e : Row) : Prop :=
  IsWord e.id ∧ IsWord e.crit ∧ IsWord e.ty ∧ IsWord e.presence ∧
  ∃ s1 s2 s3 s4 s5 s6 s7 kw, (∀ s ∈ [s1, s2, s3, s4, s5, s6, s7], Gap s ∧ s ≠ []) ∧ IsKeyword kw ∧
    w = "ID".toList ++ (s1 ++ (e.id ++ (s2 ++ ("CRITICALITY".toList ++ (s3 ++ (e.crit ++ (s4 ++ (kw ++ (s5 ++ (e.ty ++ (s6 ++
      ("PRESENCE".toList ++ (s7 ++ e.presence)))))))))))))

/-- The text of an object set, with the elements it defines and how they are written: elements in braces, anything without
an opening brace between them.  If `torn`, there are also elements without a closing brace, which do not count: the brace went
with a comment (see `Line`). -/
inductive Body (torn : Prop) : List (Text × Row) → Text → Prop
  | none {g : Text} : '{' ∉ g → Body torn [] g
  | elem {g a w b t : Text} {e : Row} {l : List (Text × Row)} : '{' ∉ g → Gap a → Defines w e → Gap b → Body torn l t →
    Body torn ((w, e) :: l) (g ++ '{' :: (a ++ (w ++ (b ++ '}' :: t))))
  | open {g a w b t : Text} {e : Row} {l : List (Text × Row)} : torn → '{' ∉ g → Gap a → Defines w e → Gap b → Body torn l t →
    (∀ x y, t = x ++ '}' :: y → '{' ∈ x) → Body torn l (g ++ '{' :: (a ++ (w ++ (b ++ t))))

/-- What may stand in the text of an object set: words, gaps, braces, commas, bars and dots. -/
def BodyText (t : Text) : Prop :=
  t ≠ [] ∧ (∀ c, t.head? = some c → ¬ Gap [c]) ∧
  ∀ c ∈ t, c.isAlphanum = true ∨ c = '-' ∨ Gap [c] ∨ c = '{' ∨ c = '}' ∨ c = ',' ∨ c = '|' ∨ c = '.'

/-- `name CLASS ::= { ... }` with gaps inside of the braces; the line ends behind the closing brace. -/
def SetDef (torn : Prop) (name cls : Text) (l : List (Text × Row)) (t : Text) : Prop :=
  IsWord name ∧ IsClass cls ∧ ∃ s1 s2 s3 s4 s5 body, (∀ s ∈ [s1, s2, s3, s4, s5], Gap s) ∧ s1 ≠ [] ∧ s4 ≠ [] ∧ s5 ≠ [] ∧
    Body torn l body ∧ BodyText body ∧
    t = name ++ (s1 ++ (cls ++ (s2 ++ ("::=".toList ++ (s3 ++ ('{' :: (s4 ++ (body ++ (s5 ++ "}\n".toList)))))))))

/-- There is no object set: whenever a brace follows `::=`, a word stands between them. -/
def NoSet (t : Text) : Prop := ∀ a s b, t = a ++ ("::=".toList ++ (s ++ '{' :: b)) → ∃ c ∈ s, c.isAlphanum = true

/-- A closing brace belongs to a later assignment. -/
def NoBrace (t : Text) : Prop := ∀ a b, t = a ++ '}' :: b → ':' ∈ a

/-- The text of a module: object sets, with other text between them. -/
inductive Module (torn : Prop) : List (Text × Text × List (Text × Row)) → Text → Prop
  | rest {t : Text} : NoSet t → Module torn [] t
  | set {p d t name cls : Text} {l : List (Text × Row)} {m : List (Text × Text × List (Text × Row))} :
    NoSet p → (∀ c, p.getLast? = some c → ¬ IsWord [c]) → SetDef torn name cls l d → NoBrace t → Module torn m t →
    Module torn ((name, cls, l) :: m) (p ++ (d ++ t))

/-- The elements that are written on one line. -/
def oneLine (l : List (Text × Row)) : List Row := (l.filter fun x => '\n' ∉ x.1).map (·.2)

/-- The tables that are expected: for each object set that is not one of extensions its elements, if it has any. -/
def tables (elements : List (Text × Row) → List Row) (m : List (Text × Text × List (Text × Row))) : List (Text × List Row) :=
  m.filterMap fun (name, cls, l) =>
    if "EXTENSION".toList <:+: cls ∨ elements l = [] then none else some (name, elements l)

/-- A line without its comment (which takes the end of the line with it) and without carriage returns. -/
def Line (l t : Text) : Prop :=
  (¬ "--".toList <:+: l ∧ t = l.filter (· ≠ '\r')) ∨
  ∃ a b, l = a ++ ("--".toList ++ b) ∧ ¬ "--".toList <:+: a ++ ['-'] ∧ t = a.filter (· ≠ '\r')

/-- What ASN.1 says: a comment ends with the line or with a second pair of hyphens, and stands for white space. -/
inductive AsnLine : Text → Text → Prop
  | plain {l : Text} : ¬ "--".toList <:+: l → AsnLine l (l.filter (· ≠ '\r'))
  | toEnd {a b : Text} : ¬ "--".toList <:+: a ++ ['-'] → ¬ "--".toList <:+: b →
    AsnLine (a ++ ("--".toList ++ (b ++ ['\n']))) (a.filter (· ≠ '\r') ++ ['\n'])
  | inside {a b r t : Text} : ¬ "--".toList <:+: a ++ ['-'] → ¬ "--".toList <:+: b ++ ['-'] → AsnLine r t →
    AsnLine (a ++ ("--".toList ++ (b ++ ("--".toList ++ r)))) (a.filter (· ≠ '\r') ++ ' ' :: t)

/-- The text of a file of these lines, as ASN.1 says. -/
inductive AsnRead : List Text → Text → Prop
  | nil : AsnRead [] []
  | line {l t : Text} {ls : List Text} {ts : Text} : AsnLine l t → AsnRead ls ts → AsnRead (l :: ls) (t ++ ts)

/-- All elements. -/
def all (l : List (Text × Row)) : List Row := l.map (·.2)

/-- The lines of a file put together, as the generator does. -/
inductive Read : List Text → Text → Prop
  | nil : Read [] []
  | line {l t : Text} {ls : List Text} {ts : Text} : Line l t → Read ls ts → Read (l :: ls) (t ++ ts)

end Verif.AsnToStruct.Spec
