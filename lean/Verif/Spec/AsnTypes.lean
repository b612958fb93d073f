import Verif.Spec.AsnConstants
import Verif.Model.Aper
import Verif.Gen.TextLit

/-!
# Reading types as ASN.1 says

A reader for the modules of the protocols (X.680, X.681 and X.683, as far as they are used there): types, parameterized types,
information object classes and numbers, and what type each of them stands for.  It gives up (`none`) on what it does not know, so
that nothing is skipped unseen.  Object sets are left to `Spec/AsnReader.lean`.  It knows nothing of the C code.
-/

namespace Verif.AsnToStruct.Spec
open Verif.Aper Verif.Gen

/-- `lo..hi` or a single value, and whether an extension mark follows. -/
structure Bounds where
  lo : Text
  hi : Text
  ext : Bool

mutual
/-- A type as it is written. -/
inductive Expr where
  | null
  | bool
  | any
  | oid
  /-- named numbers, constraint -/
  | int (names : List (Text × Text)) (b : Option Bounds)
  /-- values in front of the extension mark, and behind it -/
  | enum (root : List Text) (adds : Option (List Text))
  | bits (s : Option Bounds)
  | octets (s : Option Bounds)
  /-- components in front of the extension mark, and behind it -/
  | seq (root : Comps) (adds : Option Comps)
  /-- alternatives in front of the extension mark, and behind it -/
  | choice (root : Comps) (adds : Option Comps)
  | seqOf (s : Option Bounds) (e : Expr)
  | ref (name : Text)
  /-- a parameterized type with its arguments -/
  | app (name : Text) (args : List Text)
  /-- `CLASS.&field` -/
  | field (cls name : Text)
/-- Components or alternatives. -/
inductive Comps where
  | nil
  | cons (name : Text) (e : Expr) (opt : Bool) (rest : Comps)
end

/-- The words up to the brace that closes the current one (`d` inner ones are open), and what follows. -/
def braces : Nat → List Token → Option (List Text × List Token)
  | _, [] => none
  | d, .word w :: t => (braces d t).map fun x => (w :: x.1, x.2)
  | d, .symbol c :: t =>
    if c = '{' then braces (d + 1) t
    else if c = '}' then match d with
      | 0 => some ([], t)
      | d + 1 => braces d t
    else braces d t

/-- What follows the parenthesis that closes the current one. -/
def parens : Nat → List Token → Option (List Token)
  | _, [] => none
  | d, .word _ :: t => parens d t
  | d, .symbol c :: t =>
    if c = '(' then parens (d + 1) t
    else if c = ')' then match d with
      | 0 => some t
      | d + 1 => parens d t
    else parens d t

/-- What follows the brace that closes an object or an object set.  (A closing brace with a bar behind it does not end it: in
`InitialUE-MessageIEs` there is one brace too many.) -/
def object : Nat → List Token → Option (List Token)
  | _, [] => none
  | d, .word _ :: t => object d t
  | d, .symbol c :: t =>
    if c = '{' then object (d + 1) t
    else if c = '}' then match d, t with
      | 0, .symbol '|' :: _ => object 0 t
      | 0, _ => some t
      | d + 1, _ => object d t
    else object d t

/-- The end of a constraint: `)` or `, ...)`. -/
def endBounds (lo hi : Text) : List Token → Option (Bounds × List Token)
  | .symbol ')' :: t => some (⟨lo, hi, false⟩, t)
  | .symbol ',' :: .symbol '.' :: .symbol '.' :: .symbol '.' :: .symbol ')' :: t => some (⟨lo, hi, true⟩, t)
  | _ => none

/-- `lo..hi)` or `n)`, with or without an extension mark. -/
def bounds : List Token → Option (Bounds × List Token)
  | .word lo :: .symbol '.' :: .symbol '.' :: .word hi :: t => endBounds lo hi t
  | .word n :: t => endBounds n n t
  | _ => none

/-- `(lo..hi)` or nothing. -/
def range : List Token → Option (Option Bounds × List Token)
  | .symbol '(' :: t => (bounds t).map fun x => (some x.1, x.2)
  | t => some (none, t)

/-- `(SIZE (...))`, `SIZE (...)`, or nothing. -/
def size : List Token → Option (Option Bounds × List Token)
  | .symbol '(' :: .word w :: .symbol '(' :: t =>
    if w = text% "SIZE" then match bounds t with
      | some (b, .symbol ')' :: r) => some (some b, r)
      | _ => none
    else none
  | .word w :: .symbol '(' :: t =>
    if w = text% "SIZE" then (bounds t).map fun x => (some x.1, x.2) else some (none, .word w :: .symbol '(' :: t)
  | t => some (none, t)

/-- The values of an enumeration, in front of the extension mark and behind it. -/
def enumeration : List Token → Option (List Text × Option (List Text) × List Token)
  | .symbol '}' :: t => some ([], none, t)
  | .symbol ',' :: t => enumeration t
  | .symbol '.' :: .symbol '.' :: .symbol '.' :: t => match enumeration t with
    | some (l, none, r) => some ([], some l, r)
    | _ => none
  | .word w :: t => (enumeration t).map fun x => (w :: x.1, x.2.1, x.2.2)
  | _ => none

/-- `name(number)`, and so on up to the closing brace. -/
def namedNumbers : List Token → Option (List (Text × Text) × List Token)
  | .symbol '}' :: t => some ([], t)
  | .symbol ',' :: t => namedNumbers t
  | .word w :: .symbol '(' :: .word n :: .symbol ')' :: t => (namedNumbers t).map fun x => ((w, n) :: x.1, x.2)
  | _ => none

/-- Named numbers in braces, or nothing. -/
def optNumbers : List Token → Option (List (Text × Text) × List Token)
  | .symbol '{' :: t => namedNumbers t
  | t => some ([], t)

/-- `OPTIONAL`, or nothing. -/
def optional : List Token → Bool × List Token
  | .word w :: t => if w = text% "OPTIONAL" then (true, t) else (false, .word w :: t)
  | t => (false, t)

/-- Behind a name: a field of a class, with the set it is restricted to; arguments; or nothing. -/
def reference (w : Text) : List Token → Option (Expr × List Token)
  | .symbol '.' :: .symbol '&' :: .word f :: .symbol '(' :: t => (parens 0 t).map fun r => (.field w f, r)
  | .symbol '{' :: t => (braces 0 t).map fun x => (.app w x.1, x.2)
  | t => some (.ref w, t)

/-- A word that must come next. -/
def expect (w : Text) : List Token → Option (List Token)
  | .word v :: t => if v = w then some t else none
  | _ => none

mutual
/-- A type (no deeper than the number given). -/
def type : Nat → List Token → Option (Expr × List Token)
  | n + 1, .word w :: t =>
    if w = text% "NULL" then some (.null, t)
    else if w = text% "BOOLEAN" then some (.bool, t)
    else if w = text% "ANY" then some (.any, t)
    else if w = text% "OBJECT" then (expect (text% "IDENTIFIER") t).map fun r => (.oid, r)
    else if w = text% "INTEGER" then (optNumbers t).bind fun x => (range x.2).map fun y => (.int x.1 y.1, y.2)
    else if w = text% "BIT" then (expect (text% "STRING") t).bind fun r => (optNumbers r).bind fun x => (size x.2).map fun y =>
      (.bits y.1, y.2)
    else if w = text% "OCTET" then (expect (text% "STRING") t).bind fun r => (size r).map fun y => (.octets y.1, y.2)
    else if w = text% "ENUMERATED" then match t with
      | .symbol '{' :: t => (enumeration t).map fun x => (.enum x.1 x.2.1, x.2.2)
      | _ => none
    else if w = text% "CHOICE" then match t with
      | .symbol '{' :: t => (components n t).map fun x => (.choice x.1 x.2.1, x.2.2)
      | _ => none
    else if w = text% "SEQUENCE" then match t with
      | .symbol '{' :: t => (components n t).map fun x => (.seq x.1 x.2.1, x.2.2)
      | _ => (size t).bind fun x => (expect (text% "OF") x.2).bind fun r => (type n r).map fun y => (.seqOf x.1 y.1, y.2)
    else reference w t
  | _, _ => none
/-- Components or alternatives, in front of the extension mark and behind it. -/
def components : Nat → List Token → Option (Comps × Option Comps × List Token)
  | n + 1, .word name :: t => (type n t).bind fun x =>
    let o := optional x.2
    (components n o.2).map fun y => (.cons name x.1 o.1 y.1, y.2.1, y.2.2)
  | n + 1, .symbol '.' :: .symbol '.' :: .symbol '.' :: t => match components n t with
    | some (l, none, r) => some (.nil, some l, r)
    | _ => none
  | n + 1, .symbol c :: t =>
    if c = '}' then some (.nil, none, t)
    else if c = ',' then components n t
    else none
  | _, _ => none
end

/-- The fields of a class that have a type, with that type. -/
def classFields : List Token → Option (List (Text × Text) × List Token)
  | .symbol '&' :: .word f :: .word ty :: t =>
    if ty = text% "OPTIONAL" then classFields t else (classFields t).map fun x => ((f, ty) :: x.1, x.2)
  | .symbol '&' :: .word _ :: t => classFields t
  | .symbol ',' :: t => classFields t
  | .symbol '}' :: t => some ([], t)
  | .word _ :: t => classFields t
  | _ => none

/-- `WITH SYNTAX { ... }` -/
def withSyntax (t : List Token) : Option (List Token) :=
  (expect (text% "WITH") t).bind fun r => (expect (text% "SYNTAX") r).bind fun
    | .symbol '{' :: r => (braces 0 r).map fun x => x.2
    | _ => none

/-- An assignment of a module. -/
inductive Assignment where
  | type (name : Text) (e : Expr)
  /-- with the names of the parameters -/
  | template (name : Text) (params : List Text) (e : Expr)
  | cls (name : Text) (fields : List (Text × Text))
  | number (name : Text) (n : Int)
  /-- an object or an object set -/
  | object (name : Text)

/-- `GOVERNOR : name, ...` -/
def paramNames : List Text → List Text
  | _ :: p :: l => p :: paramNames l
  | _ => []

/-- A number, maybe negative. -/
def integer : Text → Option Int
  | '-' :: t => (decimal t).map fun n => -(n : Int)
  | t => (decimal t).map fun n => (n : Int)

/-- The next assignment, if it has this form.  (In the middle of RANAP-PDU-Contents.asn there is a stray word in front of an
assignment: a word in front of `name ::=` which is neither the name of an object or object set nor of a number is skipped.) -/
def item : List Token → Option (List Assignment × List Token)
  | .word name :: .symbol ':' :: .symbol ':' :: .symbol '=' :: .word w :: t =>
    if w = text% "CLASS" then match t with
      | .symbol '{' :: t => (classFields t).bind fun x => (withSyntax x.2).map fun r => ([.cls name x.1], r)
      | _ => none
    else (type 1000 (.word w :: t)).map fun x => ([.type name x.1], x.2)
  | .word name :: .symbol '{' :: t => (braces 0 t).bind fun x => match x.2 with
    | .symbol ':' :: .symbol ':' :: .symbol '=' :: r => (type 1000 r).map fun y => ([.template name (paramNames x.1) y.1], y.2)
    | _ => none
  | .word name :: .word _ :: .symbol ':' :: .symbol ':' :: .symbol '=' :: .symbol '{' :: t =>
    (object 0 t).map fun r => ([.object name], r)
  | .word name :: .word w :: .symbol ':' :: .symbol ':' :: .symbol '=' :: .word v :: t =>
    match integer v with
    | some n => some ([.number name n], t)
    | none => some ([], .word w :: .symbol ':' :: .symbol ':' :: .symbol '=' :: .word v :: t)
  | _ => none

/-- Assignments up to `END` or the end of the text (no more than the number given). -/
def items : Nat → List Token → Option (List Assignment)
  | 0, _ => none
  | _ + 1, [] => some []
  | n + 1, .word w :: t =>
    if w = text% "END" then some [] else (item (.word w :: t)).bind fun x => (items n x.2).map fun l => x.1 ++ l
  | _ + 1, .symbol _ :: _ => none

/-- What follows this word. -/
def after (w : Text) : List Token → List Token
  | [] => []
  | .word v :: t => if v = w then t else after w t
  | .symbol _ :: t => after w t

/-- What follows the next semicolon. -/
def afterSemicolon : List Token → List Token
  | [] => []
  | .symbol ';' :: t => t
  | _ :: t => afterSemicolon t

/-- Without `IMPORTS ... ;` -/
def skipImports : List Token → List Token
  | .word w :: t => if w = text% "IMPORTS" then afterSemicolon t else .word w :: t
  | t => t

/-- The assignments of a module. -/
def moduleItems (t : List Token) : Option (List Assignment) := items 10000 (skipImports (after (text% "BEGIN") t))

/-- The assignments of all modules of a protocol; `more` is a part of another one. -/
def assignments (modules : List (List Text)) (more : List Text) : Option (List Assignment) :=
  (modules.mapM fun lines => moduleItems (lines.flatMap (tokens false []))).bind fun l =>
    (items 10000 (more.flatMap (tokens false []))).map fun m => l.flatten ++ m

/-! ## What the types stand for -/

/-- The number with this name. -/
def findNumber (name : Text) : List Assignment → Option Int
  | [] => none
  | .number n v :: l => if n = name then some v else findNumber name l
  | _ :: l => findNumber name l

/-- The type with this name, as it is written. -/
def findType (name : Text) : List Assignment → Option Expr
  | [] => none
  | .type n e :: l => if n = name then some e else findType name l
  | _ :: l => findType name l

/-- The parameterized type with this name: parameters, and the type as it is written. -/
def findTemplate (name : Text) : List Assignment → Option (List Text × Expr)
  | [] => none
  | .template n ps e :: l => if n = name then some (ps, e) else findTemplate name l
  | _ :: l => findTemplate name l

/-- The class with this name: the fields that have a type. -/
def findClass (name : Text) : List Assignment → Option (List (Text × Text))
  | [] => none
  | .cls n fs :: l => if n = name then some fs else findClass name l
  | _ :: l => findClass name l

/-- The entry for this name. -/
def find (name : Text) : List (Text × α) → Option α
  | [] => none
  | (n, a) :: l => if n = name then some a else find name l

/-- What a word stands for, where parameters stand for arguments. -/
def subst (σ : List (Text × Text)) (w : Text) : Text := match find w σ with
  | some a => a
  | none => w

/-- The number a word stands for. -/
def number (l : List Assignment) (σ : List (Text × Text)) (w : Text) : Option Int := match integer (subst σ w) with
  | some n => some n
  | none => findNumber (subst σ w) l

/-- A constraint on the value. -/
def valueRange (l : List Assignment) (σ : List (Text × Text)) (b : Bounds) : Option Range :=
  (number l σ b.lo).bind fun lo => (number l σ b.hi).map fun hi => ⟨lo, hi, b.ext⟩

/-- A constraint on the size. -/
def sizeRange (l : List Assignment) (σ : List (Text × Text)) : Option Bounds → Option (Option Size)
  | none => some none
  | some b => (number l σ b.lo).bind fun lo => (number l σ b.hi).bind fun hi =>
    if 0 ≤ lo ∧ 0 ≤ hi then some (some ⟨lo.toNat, hi.toNat, b.ext⟩) else none

mutual
/-- With these assignments, and arguments `σ` for parameters, this stands for that type.  Additions to a SEQUENCE behind the
extension mark are left out: `Model/Aper.lean` has none, a SEQUENCE is extensible or not.  A field of a class without a type of
its own is an open type. -/
inductive Means (l : List Assignment) : List (Text × Text) → Expr → Ty → Prop where
  | null : Means l σ .null .null
  | bool : Means l σ .bool .bool
  | any : Means l σ .any .any
  | oid : Means l σ .oid .oid
  | int : valueRange l σ b = some r → Means l σ (.int names (some b)) (.int r)
  | enum : Means l σ (.enum root none) (.enum root.length root.length false)
  | enumExt : Means l σ (.enum root (some adds)) (.enum root.length (root.length + adds.length) true)
  | bits : sizeRange l σ b = some s → Means l σ (.bits b) (.bits s)
  | octets : sizeRange l σ b = some s → Means l σ (.octets b) (.octets s)
  | seq : MeansAll l σ root fs → Means l σ (.seq root adds) (.seq adds.isSome fs)
  | choice : MeansAll l σ root r → Means l σ (.choice root none) (.choice false r .nil)
  | choiceExt : MeansAll l σ root r → MeansAll l σ adds a → Means l σ (.choice root (some adds)) (.choice true r a)
  | seqOf : sizeRange l σ b = some s → Means l σ e t → Means l σ (.seqOf b e) (.seqOf s t)
  | ref : findType name l = some e → Means l [] e t → Means l σ (.ref name) t
  | app : findTemplate name l = some (ps, e) → Means l (ps.zip (args.map (subst σ))) e t → Means l σ (.app name args) t
  | field : findClass cls l = some fs → find f fs = some ty → Means l [] (.ref ty) t → Means l σ (.field cls f) t
  | openType : findClass cls l = some fs → find f fs = none → Means l σ (.field cls f) .any
/-- The same for components and alternatives. -/
inductive MeansAll (l : List Assignment) : List (Text × Text) → Comps → Fields → Prop where
  | nil : MeansAll l σ .nil .nil
  | cons : Means l σ e t → MeansAll l σ rest fs → MeansAll l σ (.cons name e opt rest) (.cons opt t fs)
end

/-- The names of the types. -/
def typeNames : List Assignment → List Text
  | [] => []
  | .type name _ :: l => name :: typeNames l
  | _ :: l => typeNames l

/-- These are the types that these assignments define, in their order. -/
def TypesOf (l : List Assignment) (types : List (Text × Ty)) : Prop :=
  typeNames l = types.map (·.1) ∧ ∀ x ∈ types, Means l [] (.ref x.1) x.2

/-! ## Names of components, alternatives and values -/

/-- An identifier of ASN.1 in C. -/
def identifier (w : Text) : String := String.ofList (w.map fun c => if c = '-' then '_' else c)

/-- Names, numbered in their order. -/
def numbered (n : Nat) : List Text → List (String × Int)
  | [] => []
  | w :: l => (identifier w, (n : Int)) :: numbered (n + 1) l

/-- The names of components or alternatives. -/
def Comps.names : Comps → List Text
  | .nil => []
  | .cons name _ _ rest => name :: rest.names

/-- Those in front of the extension mark and behind it. -/
def allNames (root : List Text) : Option (List Text) → List Text
  | none => root
  | some adds => root ++ adds

/-- The names in a type, with their numbers: components and alternatives are counted from 0 in their order, the values of an
ENUMERATED too, named numbers of an INTEGER have the number in parentheses.  Messages, whose only components are their elements
and extensions, are left out. -/
def Expr.names : Expr → Option (List (String × Int))
  | .enum root adds => some (numbered 0 (allNames root adds))
  | .int (x :: l) _ => (x :: l).mapM fun x => (integer x.2).map fun n => (identifier x.1, n)
  | .seq root adds => match root with
    | .cons name _ _ _ => if name = text% "protocolIEs" ∨ name = text% "privateIEs" then none
      else some (numbered 0 (allNames root.names (adds.map Comps.names)))
    | .nil => some (numbered 0 (allNames [] (adds.map Comps.names)))
  | .choice root adds => some (numbered 0 (allNames root.names (adds.map Comps.names)))
  | _ => none

/-- The types with names in them. -/
def nameTable : List Assignment → List (String × List (String × Int))
  | [] => []
  | .type name e :: l => match e.names with
    | some ns => (String.ofList name, ns) :: nameTable l
    | none => nameTable l
  | _ :: l => nameTable l

end Verif.AsnToStruct.Spec
