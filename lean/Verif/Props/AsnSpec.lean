import Verif.Proofs.ReadRua
import Verif.Proofs.ReadHnbap
import Verif.Proofs.ReadSabp
import Verif.Proofs.ReadRanap
import Verif.Proofs.AsnConstants
import Verif.Proofs.AsnProcs
import Verif.Props.AsnIes
import Verif.Props.AsnTables

/-!
# C45, C64, C117: the specifications are what is written in the modules
-/

namespace Verif.Props
open Verif.AsnToStruct Verif.AsnToStruct.Spec Verif.Gen Verif.Ie Verif.Ie.Spec

/-- The four modules: the protocol, the lines of the file, what its names stand for, the elements of the specification used in
C64, and the messages of the model. -/
noncomputable def specModules : List (Text × List Text × Names × List AsnSet × List MsgDef) :=
  [(text% "RANAP", Text.ranap, Text.ranapNames, Asn.ranap, Ranap.all), (text% "RUA", Text.rua, Text.ruaNames, Asn.rua, Rua.all),
   (text% "HNBAP", Text.hnbap, Text.hnbapNames, Asn.hnbap, Hnbap.all), (text% "SABP", Text.sabp, Text.sabpNames, Asn.sabp, Sabp.all)]

/-- **C64**: the specification. Its object sets and elements are exactly those an ASN.1 reader finds in the text of the four
modules; and the messages are exactly those the generator finds there. -/
theorem C64_specification : specs = specModules.map (·.2.2.2) ∧ ∀ s ∈ specModules,
    (elementSets s.1 s.2.1).mapM (asnSet s.2.2.1) = some s.2.2.2.1 ∧ (iesDefs s.2.1).mapM (message s.2.2.1) = some s.2.2.2.2 := by
  refine ⟨rfl, fun s hs => ?_⟩
  simp only [specModules, List.mem_cons, List.not_mem_nil, or_false] at hs
  rcases hs with rfl | rfl | rfl | rfl
  · exact ⟨(congrArg _ Text.ranap_elementSets).trans Text.ranap_specification,
      (congrArg _ Text.ranap_iesDefs).trans Text.ranap_messages⟩
  · exact ⟨(congrArg _ Text.rua_elementSets).trans Text.rua_specification,
      (congrArg _ Text.rua_iesDefs).trans Text.rua_messages⟩
  · exact ⟨(congrArg _ Text.hnbap_elementSets).trans Text.hnbap_specification,
      (congrArg _ Text.hnbap_iesDefs).trans Text.hnbap_messages⟩
  · exact ⟨(congrArg _ Text.sabp_elementSets).trans Text.sabp_specification,
      (congrArg _ Text.sabp_iesDefs).trans Text.sabp_messages⟩

/-- The reader finds sets the generator does not. -/
example : (elementSets (text% "SABP") Text.sabp).length = 18 ∧ (iesDefs Text.sabp).length = 16 := by
  rw [Text.sabp_elementSets, Text.sabp_iesDefs]
  exact ⟨by decide +kernel, by decide +kernel⟩

/-- **C117**: the numbers. The identifiers of elements stand for the numbers assigned to them in the module of constants of the
protocol. -/
theorem C117_numbers : ∀ p ∈ [(Text.ranapConstants, Text.ranapNames), (Text.ruaConstants, Text.ruaNames),
    (Text.hnbapConstants, Text.hnbapNames), (Text.sabpConstants, Text.sabpNames)],
    constants "ProtocolIE-ID".toList p.1 = p.2.number := by
  rw [show "ProtocolIE-ID".toList = text% "ProtocolIE-ID" from String.toList_ofList]
  intro p hp
  simp only [List.mem_cons, List.not_mem_nil, or_false] at hp
  rcases hp with rfl | rfl | rfl | rfl
  · exact Text.ranap_numbers
  · exact Text.rua_numbers
  · exact Text.hnbap_numbers
  · exact Text.sabp_numbers

/-- **C45**, **C68**: the procedures. The table of procedures, with codes, criticalities and messages, is what is written in the
module of descriptions; the messages are those of C117 for which the generator finds a set of elements. -/
theorem C45_procedures : (procedures none Text.ranapDescriptions).mapM (procOf (constants "ProcedureCode".toList
    Text.ranapConstants) (((iesDefs Text.ranap).map (·.1)).zip Ranap.all)) = some Ranap.procs := by
  rw [show "ProcedureCode".toList = text% "ProcedureCode" from String.toList_ofList, Text.ranap_iesDefs]
  exact Text.ranap_procs

/-- There are 47 procedures in the text. -/
example : (procedures none Text.ranapDescriptions).length = 47 := by decide +kernel

end Verif.Props
