import Verif.Proofs.TypesRua
import Verif.Proofs.TypesHnbap
import Verif.Proofs.TypesSabp
import Verif.Proofs.TypesRanap
import Verif.Proofs.FlatRua
import Verif.Proofs.FlatHnbap
import Verif.Proofs.FlatSabp
import Verif.Proofs.FlatRanap
import Verif.Props.AsnSpec
import Verif.Props.Asn

/-!
# C93, C119: the types of the specification and of the C code are what is written in the modules
-/

namespace Verif.Props
open Verif.AsnToStruct Verif.AsnToStruct.Spec Verif.Gen Verif.Gen.AsnTable Verif.Asn Verif.Aper

/-- A protocol: its name, the lines of its modules and of the definition of `IE`, the types by name, the entries of the tables
that C93 to C95 are about, the table of names, and the types of the elements. -/
structure TypeModule where
  protocol : Text
  modules : List (List Text)
  ie : List Text
  contents : List Text
  types : List (Text × Ty)
  named : List (Form × NamedTy)
  names : List (String × List (String × Int))
  elements : List (String × List (String × NamedTy))

/-- The four protocols. -/
noncomputable def typeModules : List TypeModule :=
  [⟨text% "RANAP", Text.ranapModules, Text.ranapIe, Text.ranap, Text.ranapTypes, ranapNamed, AsnNames.ranapAsn, Ranap.elements⟩,
   ⟨text% "RUA", Text.ruaModules, Text.ruaIe, Text.rua, Text.ruaTypes, ruaNamed, AsnNames.ruaAsn, Rua.elements⟩,
   ⟨text% "HNBAP", Text.hnbapModules, Text.hnbapIe, Text.hnbap, Text.hnbapTypes, hnbapNamed, AsnNames.hnbapAsn, Hnbap.elements⟩,
   ⟨text% "SABP", Text.sabpModules, Text.sabpIe, Text.sabp, Text.sabpTypes, sabpNamed, AsnNames.sabpAsn, Sabp.elements⟩]

/-- The only type of the specification for which there is none in the C code. -/
def unnamed : Text := "DirectTransferInformationList-RANAP-RelocInf".toList

theorem unnamed_eq : unnamed = text% "DirectTransferInformationList-RANAP-RelocInf" := String.toList_ofList

/-- **C93**, the specification: the types with which C93 to C95 compare those of the C code are the ones that an ASN.1 reader
finds in the text of the modules, each with its name, and all of them but one; and so are the names in them. -/
theorem C93_specification : ∀ p ∈ typeModules,
    ∃ l, assignments p.modules p.ie = some l ∧ TypesOf l p.types ∧
      (p.types.filter fun x => x.1 ≠ unnamed).map (fun x => (String.ofList x.1, x.2)) = p.named.map (fun t => (t.2.name, t.2.asn)) ∧
      nameTable l = p.names ++ [("IE", [("id", 0), ("criticality", 1), ("value", 2)])] := by
  rw [unnamed_eq]
  intro p hp
  simp only [typeModules, List.mem_cons, List.not_mem_nil, or_false] at hp
  rcases hp with rfl | rfl | rfl | rfl
  · exact ⟨_, Text.ranap_assignments, Text.ranap_defines, Text.ranap_named, Text.ranap_nameTable⟩
  · exact ⟨_, Text.rua_assignments, Text.rua_defines, Text.rua_named, Text.rua_nameTable⟩
  · exact ⟨_, Text.hnbap_assignments, Text.hnbap_defines, Text.hnbap_named, Text.hnbap_nameTable⟩
  · exact ⟨_, Text.sabp_assignments, Text.sabp_defines, Text.sabp_named, Text.sabp_nameTable⟩

/-- **C93**, the specification: the text leaves no choice. -/
theorem C93_specification_unique : ∀ p ∈ typeModules, ∀ l types, assignments p.modules p.ie = some l → TypesOf l types →
    types = p.types := by
  intro p hp l types hl h
  obtain ⟨l', hl', h', -⟩ := C93_specification p hp
  rw [hl] at hl'
  cases hl'
  exact typesOf_unique h h'

/-- The entries of one table. -/
def entries (f : Form) (p : TypeModule) : List NamedTy := (p.named.filter fun t => t.1 = f).map (·.2)

/-- **C93**, **C94**, **C95**, the tables: each entry of each protocol is in one of the four tables, which have no others. -/
theorem C93_all_types : same = typeModules.flatMap (entries .same) ∧ messages = typeModules.flatMap (entries .message) ∧
    lists = typeModules.flatMap (entries .list) ∧ others = typeModules.flatMap (entries .other) := by
  refine ⟨?_, ?_, ?_, ?_⟩ <;> kernel_rfl

theorem named_of_index {α β : Type} {el : List (String × List (String × α))} {idx : List (List Nat)} {named : List (β × α)}
    (h : el.map (fun s => s.2.map fun e => some e.2) = idx.map fun l => l.map fun i => named[i]?.map (·.2))
    {s : String × List (String × α)} (hs : s ∈ el) {e : String × α} (he : e ∈ s.2) : e.2 ∈ named.map (·.2) := by
  have h1 : s.2.map (fun e => some e.2) ∈ el.map (fun s => s.2.map fun e => some e.2) := List.mem_map.2 ⟨s, hs, rfl⟩
  rw [h] at h1
  obtain ⟨l, _, hl⟩ := List.mem_map.1 h1
  have h2 : some e.2 ∈ s.2.map (fun e => some e.2) := List.mem_map.2 ⟨e, he, rfl⟩
  rw [← hl] at h2
  obtain ⟨i, _, hi⟩ := List.mem_map.1 h2
  cases hn : named[i]? with
  | none => simp [hn] at hi
  | some x =>
    rw [hn] at hi
    simp only [Option.map_some, Option.some.injEq] at hi
    exact List.mem_map.2 ⟨x, List.mem_of_getElem? hn, hi⟩

/-- **C93**, the elements: those of `C93_elements` are the elements of the object sets in the text, in their order, each with
the type whose name stands there. -/
theorem C93_element_types : ∀ p ∈ typeModules,
    (elementSets p.protocol p.contents).map (fun s => (String.ofList s.1, (s.2.filter fun r => r.ty ≠ unnamed).map fun r =>
      (String.ofList r.id, String.ofList r.ty))) = p.elements.map (fun s => (s.1, s.2.map fun e => (e.1, e.2.name))) ∧
    ∀ s ∈ p.elements, ∀ e ∈ s.2, e.2 ∈ p.named.map (·.2) := by
  rw [unnamed_eq]
  intro p hp
  simp only [typeModules, List.mem_cons, List.not_mem_nil, or_false] at hp
  rcases hp with rfl | rfl | rfl | rfl
  · exact ⟨(congrArg _ Text.ranap_elementSets).trans Text.ranap_elementTypes,
      fun s hs e he => named_of_index Text.ranap_elementNamed hs he⟩
  · exact ⟨(congrArg _ Text.rua_elementSets).trans Text.rua_elementTypes,
      fun s hs e he => named_of_index Text.rua_elementNamed hs he⟩
  · exact ⟨(congrArg _ Text.hnbap_elementSets).trans Text.hnbap_elementTypes,
      fun s hs e he => named_of_index Text.hnbap_elementNamed hs he⟩
  · exact ⟨(congrArg _ Text.sabp_elementSets).trans Text.sabp_elementTypes,
      fun s hs e he => named_of_index Text.sabp_elementNamed hs he⟩

/-- Those are the elements of `C93_elements`. -/
example : specElements.map (·.2) = typeModules.map (·.elements) := rfl

/-- How many types the modules define, and how many assignments there are in all. -/
example : typeModules.map (fun p => (p.types.length, p.named.length)) = [(582, 581), (36, 36), (116, 116), (63, 63)] := by
  decide +kernel

/-- What the reader makes of a type: an extensible SEQUENCE with a number, an optional enumeration and, as an argument of a
parameterized type, the bounds of a list. -/
example :
    let text := [text% "A ::= SEQUENCE { -- a comment -- n INTEGER (-1..max), b B OPTIONAL, l L { {Objects}, 4 }, ... }\n",
      text% "B ::= ENUMERATED { x, y, ..., z } max INTEGER ::= 7 L { CLS : Set, INTEGER : n } ::= SEQUENCE (SIZE (1..n)) OF BIT STRING\n"]
    let tyB : Ty := .enum 2 3 true
    ∃ l, items 100 (text.flatMap (tokens false [])) = some l ∧ TypesOf l
      [(text% "A", .seq true (.cons false (.int ⟨-1, 7, false⟩) (.cons true tyB
          (.cons false (.seqOf (some ⟨1, 4, false⟩) (.bits none)) .nil)))), (text% "B", tyB)] :=
  ⟨_, rfl, typesOf_of_stages (order := [(text% "B", .enum 2 3 true), (text% "A", _)]) rfl rfl rfl⟩

/-- The reader does not skip what it does not know. -/
example : items 100 (tokens false [] (text% "A ::= SEQUENCE { s UTF8String (FROM (a)), n INTEGER (1 | 3) }")) = none := by
  kernel_rfl

/-! ## C119 -/

/-- A protocol: the lines of the modules the C code was generated from; the types of the C code by name; what the names in the
generated functions stand for; the elements and messages of C117. -/
structure FlatModule where
  modules : List (List Text)
  descriptors : List (Text × Ty)
  names : Names

/-- The four protocols. -/
noncomputable def flatModules : List FlatModule :=
  [⟨Text.ranapFlatModules, Text.ranapDescriptors, Text.ranapNames⟩, ⟨Text.ruaFlatModules, Text.ruaDescriptors, Text.ruaNames⟩,
   ⟨Text.hnbapFlatModules, Text.hnbapDescriptors, Text.hnbapNames⟩, ⟨Text.sabpFlatModules, Text.sabpDescriptors, Text.sabpNames⟩]

/-- **C119**: the types of the C code, by name and in their order, are those that an ASN.1 reader finds in the modules from which
it was generated: there are no others, and none is missing. -/
theorem C119_generated : ∀ p ∈ flatModules, ∃ l, assignments p.modules [] = some l ∧ TypesOf l p.descriptors := by
  intro p hp
  simp only [flatModules, List.mem_cons, List.not_mem_nil, or_false] at hp
  rcases hp with rfl | rfl | rfl | rfl
  · exact ⟨_, Text.ranap_flatAssignments, Text.ranap_flatDefines⟩
  · exact ⟨_, Text.rua_flatAssignments, Text.rua_flatDefines⟩
  · exact ⟨_, Text.hnbap_flatAssignments, Text.hnbap_flatDefines⟩
  · exact ⟨_, Text.sabp_flatAssignments, Text.sabp_flatDefines⟩

/-- **C119**: the text leaves no choice. -/
theorem C119_unique : ∀ p ∈ flatModules, ∀ l types, assignments p.modules [] = some l → TypesOf l types →
    types = p.descriptors := by
  intro p hp l types hl h
  obtain ⟨l', hl', h'⟩ := C119_generated p hp
  rw [hl] at hl'
  cases hl'
  exact typesOf_unique h h'

/-- A type that is defined as itself is none at all, whatever one supposes. -/
example (t : Ty) : ¬ TypesOf [.type (text% "A") (.ref (text% "A"))] [(text% "A", t)] := by
  intro h
  have key : ∀ {l σ e t}, Means l σ e t → l = [.type (text% "A") (.ref (text% "A"))] → e = .ref (text% "A") → False := by
    intro l σ e t h hl
    refine Means.rec (l := l) (motive_1 := fun _ e _ _ => e = .ref (text% "A") → False) (motive_2 := fun _ _ _ _ => True)
      ?_ ?_ ?_ ?_ ?_ ?_ ?_ ?_ ?_ ?_ ?_ ?_ ?_ ?_ ?_ ?_ ?_ ?_ ?_ h <;> intros <;> first | trivial | skip
    all_goals first | (rename_i he; cases he; done) | skip
    rename_i h1 _ ih he
    cases he
    subst hl
    simp only [findType, if_true, Option.some.injEq] at h1
    exact ih h1.symm
  exact key (h.2 _ List.mem_cons_self) rfl rfl

/-- **C119**, **C117**: the generated functions use the type whose name stands in the text: an element has the type with the name
given for it, and an object set the one with the name the generator forms from its name. -/
theorem C119_used : ∀ p ∈ flatModules, (∀ x ∈ p.names.type, x ∈ p.descriptors) ∧
    ∀ x ∈ p.names.container, ∃ name, (name, x.2) ∈ p.descriptors ∧ underscore name = containerType [] x.1 := by
  have key : ∀ (N : Names) (D : List (Text × Ty)), N.type.map (fun x => find x.1 D) = N.type.map (fun x => some x.2) →
      N.container.map (fun x => find (containerType [] x.1) (D.map fun d => (underscore d.1, d.2))) =
        N.container.map (fun x => some x.2) → (∀ x ∈ N.type, x ∈ D) ∧
      ∀ x ∈ N.container, ∃ name, (name, x.2) ∈ D ∧ underscore name = containerType [] x.1 := by
    intro N D h1 h2
    refine ⟨fun x hx => find_mem (map_eq_mem h1 hx), fun x hx => ?_⟩
    obtain ⟨d, hd, he⟩ := List.mem_map.1 (find_mem (map_eq_mem h2 hx))
    simp only [Prod.mk.injEq] at he
    exact ⟨d.1, by rw [← he.2]; exact hd, he.1⟩
  intro p hp
  simp only [flatModules, List.mem_cons, List.not_mem_nil, or_false] at hp
  rcases hp with rfl | rfl | rfl | rfl
  · exact key _ _ Text.ranap_typeNames Text.ranap_containerNames
  · exact key _ _ Text.rua_typeNames Text.rua_containerNames
  · exact key _ _ Text.hnbap_typeNames Text.hnbap_containerNames
  · exact key _ _ Text.sabp_typeNames Text.sabp_containerNames

/-- The names of C117. -/
example : specModules.map (·.2.2.1) = flatModules.map (·.names) := rfl

/-- How many types there are in the C code, how many names of types and of object sets. -/
example : flatModules.map (fun p => (p.descriptors.length, p.names.type.length, p.names.container.length)) =
    [(592, 130, 105), (36, 7, 5), (116, 23, 18), (63, 11, 16)] := by decide +kernel

end Verif.Props
