import Verif.Model.AsnToStruct

/-!
# Names that can be told apart

For C118.  Two names of ASN.1 that differ in capitals only are different names there, but not in the generated code, which uses
names with all letters changed to capitals or to small letters.
-/

namespace Verif.AsnToStruct.Spec

/-- The name with small letters only. -/
def small (w : Text) : Text := w.map Char.toLower

/-- Two names differ in more than capitals. -/
def Differ (a b : Text) : Prop := small a ≠ small b

instance (a b : Text) : Decidable (Differ a b) := inferInstanceAs (Decidable (_ ≠ _))

/-- Words without underscore (no name of ASN.1 has one). -/
def Plain (w : Text) : Prop := '_' ∉ w

instance (w : Text) : Decidable (Plain w) := inferInstanceAs (Decidable (_ ∉ _))

/-- What the rows of a table must be like: identifiers are `id-` and a name in which `id-` does not occur again, none is
`id-presenceMask`, no two are the same up to capitals; types that are the same up to capitals are the same, and none begins
with `id-` up to capitals; the presence is one of the three of ASN.1. -/
structure Clear (ies : List Row) : Prop where
  ids : ∀ r ∈ ies, "id-".toList <+: r.id ∧ ¬ "id-".toList <:+: r.id.drop 3 ∧ Plain r.id ∧ Differ r.id "id-presenceMask".toList
  differ : ies.Pairwise fun a b => Differ a.id b.id
  types : ∀ r ∈ ies, Plain r.ty ∧ ¬ "id-".toList <+: small r.ty
  same : ∀ r ∈ ies, ∀ s ∈ ies, small r.ty = small s.ty → r.ty = s.ty
  presence : ∀ r ∈ ies, r.presence = "mandatory".toList ∨ r.presence = "optional".toList ∨ r.presence = "conditional".toList

instance (ies : List Row) : Decidable (Clear ies) :=
  decidable_of_iff
    ((∀ r ∈ ies, "id-".toList <+: r.id ∧ ¬ "id-".toList <:+: r.id.drop 3 ∧ Plain r.id ∧ Differ r.id "id-presenceMask".toList) ∧
     (ies.Pairwise fun a b => Differ a.id b.id) ∧
     (∀ r ∈ ies, Plain r.ty ∧ ¬ "id-".toList <+: small r.ty) ∧
     (∀ r ∈ ies, ∀ s ∈ ies, small r.ty = small s.ty → r.ty = s.ty) ∧
     (∀ r ∈ ies, r.presence = "mandatory".toList ∨ r.presence = "optional".toList ∨ r.presence = "conditional".toList))
    ⟨fun ⟨a, b, c, d, e⟩ => ⟨a, b, c, d, e⟩, fun ⟨a, b, c, d, e⟩ => ⟨a, b, c, d, e⟩⟩

/-- The keywords of C (ISO/IEC 9899:2011, 6.4.1) that do not begin with an underscore. -/
def keywords : List Text :=
  ["auto", "break", "case", "char", "const", "continue", "default", "do", "double", "else", "enum", "extern", "float", "for",
   "goto", "if", "inline", "int", "long", "register", "restrict", "return", "short", "signed", "sizeof", "static", "struct",
   "switch", "typedef", "union", "unsigned", "void", "volatile", "while"].map String.toList

/-- An identifier of C: letters, digits and underscores, beginning with a letter; not a keyword. -/
def Identifier (w : Text) : Prop :=
  (∃ c t, w = c :: t ∧ c.isAlpha) ∧ (∀ c ∈ w, c.isAlphanum ∨ c = '_') ∧ w ∉ keywords

instance (w : Text) : Decidable (Identifier w) :=
  decidable_of_iff ((w.head?.any Char.isAlpha) = true ∧ (∀ c ∈ w, c.isAlphanum ∨ c = '_') ∧ w ∉ keywords) <| by
    unfold Identifier
    cases w <;> simp

/-- The number of elements that are not mandatory among the first `k`. -/
def optionalBefore (ies : List Row) (k : Nat) : Nat := ((ies.take k).filter fun r => r.presence ≠ "mandatory".toList).length

end Verif.AsnToStruct.Spec
