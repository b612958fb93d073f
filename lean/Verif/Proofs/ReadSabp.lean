import Verif.Gen.TextSabp
import Verif.Gen.AsnIes
import Verif.Gen.TextNames
import Verif.Proofs.AsnReader
import Verif.Proofs.TextSabpAll

/-!
# The object sets in the SABP text
-/

namespace Verif.Gen.Text
open Verif.AsnToStruct Verif.AsnToStruct.Spec

theorem sabp0_sets : readPart (text% "SABP") sabp0 = some sabp0Tables := by decide +kernel

/-- The object sets of `sabp1`. -/
noncomputable def sabp1Sets : List (Text × List Row) := [
  (text% "Write-Replace-IEs", [
    ⟨text% "id-Message-Identifier", text% "reject", text% "Message-Identifier", text% "mandatory"⟩,
    ⟨text% "id-New-Serial-Number", text% "reject", text% "New-Serial-Number", text% "mandatory"⟩,
    ⟨text% "id-Old-Serial-Number", text% "ignore", text% "Old-Serial-Number", text% "optional"⟩,
    ⟨text% "id-Service-Areas-List", text% "reject", text% "Service-Areas-List", text% "mandatory"⟩,
    ⟨text% "id-Category", text% "ignore", text% "Category", text% "optional"⟩,
    ⟨text% "id-Repetition-Period", text% "reject", text% "Repetition-Period", text% "mandatory"⟩,
    ⟨text% "id-Number-of-Broadcasts-Requested", text% "reject", text% "Number-of-Broadcasts-Requested", text% "mandatory"⟩,
    ⟨text% "id-Data-Coding-Scheme", text% "reject", text% "Data-Coding-Scheme", text% "mandatory"⟩,
    ⟨text% "id-Broadcast-Message-Content", text% "reject", text% "Broadcast-Message-Content", text% "mandatory"⟩])]

theorem sabp1_sets : readPart (text% "SABP") sabp1 = some sabp1Sets := by decide +kernel

/-- The object sets of `sabp2`. -/
noncomputable def sabp2Sets : List (Text × List Row) := [
  (text% "Write-Replace-Complete-IEs", [
    ⟨text% "id-Message-Identifier", text% "reject", text% "Message-Identifier", text% "mandatory"⟩,
    ⟨text% "id-New-Serial-Number", text% "reject", text% "New-Serial-Number", text% "mandatory"⟩,
    ⟨text% "id-Number-of-Broadcasts-Completed-List", text% "reject", text% "Number-of-Broadcasts-Completed-List", text% "mandatory"⟩,
    ⟨text% "id-Criticality-Diagnostics", text% "ignore", text% "Criticality-Diagnostics", text% "optional"⟩]),
  (text% "Write-Replace-Failure-IEs", [
    ⟨text% "id-Message-Identifier", text% "reject", text% "Message-Identifier", text% "mandatory"⟩,
    ⟨text% "id-New-Serial-Number", text% "reject", text% "New-Serial-Number", text% "mandatory"⟩,
    ⟨text% "id-Failure-List", text% "reject", text% "Failure-List", text% "mandatory"⟩,
    ⟨text% "id-Number-of-Broadcasts-Completed-List", text% "ignore", text% "Number-of-Broadcasts-Completed-List", text% "optional"⟩,
    ⟨text% "id-Criticality-Diagnostics", text% "ignore", text% "Criticality-Diagnostics", text% "optional"⟩])]

theorem sabp2_sets : readPart (text% "SABP") sabp2 = some sabp2Sets := by decide +kernel

/-- The object sets of `sabp3`. -/
noncomputable def sabp3Sets : List (Text × List Row) := [
  (text% "Kill-IEs", [
    ⟨text% "id-Message-Identifier", text% "reject", text% "Message-Identifier", text% "mandatory"⟩,
    ⟨text% "id-Old-Serial-Number", text% "reject", text% "Old-Serial-Number", text% "mandatory"⟩,
    ⟨text% "id-Service-Areas-List", text% "reject", text% "Service-Areas-List", text% "mandatory"⟩]),
  (text% "Kill-Complete-IEs", [
    ⟨text% "id-Message-Identifier", text% "reject", text% "Message-Identifier", text% "mandatory"⟩,
    ⟨text% "id-Old-Serial-Number", text% "reject", text% "Old-Serial-Number", text% "mandatory"⟩,
    ⟨text% "id-Number-of-Broadcasts-Completed-List", text% "reject", text% "Number-of-Broadcasts-Completed-List", text% "mandatory"⟩,
    ⟨text% "id-Criticality-Diagnostics", text% "ignore", text% "Criticality-Diagnostics", text% "optional"⟩])]

theorem sabp3_sets : readPart (text% "SABP") sabp3 = some sabp3Sets := by decide +kernel

/-- The object sets of `sabp4`. -/
noncomputable def sabp4Sets : List (Text × List Row) := [
  (text% "Kill-Failure-IEs", [
    ⟨text% "id-Message-Identifier", text% "reject", text% "Message-Identifier", text% "mandatory"⟩,
    ⟨text% "id-Old-Serial-Number", text% "reject", text% "Old-Serial-Number", text% "mandatory"⟩,
    ⟨text% "id-Failure-List", text% "reject", text% "Failure-List", text% "mandatory"⟩,
    ⟨text% "id-Number-of-Broadcasts-Completed-List", text% "ignore", text% "Number-of-Broadcasts-Completed-List", text% "optional"⟩,
    ⟨text% "id-Criticality-Diagnostics", text% "ignore", text% "Criticality-Diagnostics", text% "optional"⟩]),
  (text% "Load-Query-IEs", [
    ⟨text% "id-Service-Areas-List", text% "reject", text% "Service-Areas-List", text% "mandatory"⟩]),
  (text% "Load-Query-Complete-IEs", [
    ⟨text% "id-Radio-Resource-Loading-List", text% "reject", text% "Radio-Resource-Loading-List", text% "mandatory"⟩,
    ⟨text% "id-Criticality-Diagnostics", text% "ignore", text% "Criticality-Diagnostics", text% "optional"⟩])]

theorem sabp4_sets : readPart (text% "SABP") sabp4 = some sabp4Sets := by decide +kernel

/-- The object sets of `sabp5`. -/
noncomputable def sabp5Sets : List (Text × List Row) := [
  (text% "Load-Query-Failure-IEs", [
    ⟨text% "id-Failure-List", text% "reject", text% "Failure-List", text% "mandatory"⟩,
    ⟨text% "id-Radio-Resource-Loading-List", text% "ignore", text% "Radio-Resource-Loading-List", text% "optional"⟩,
    ⟨text% "id-Criticality-Diagnostics", text% "ignore", text% "Criticality-Diagnostics", text% "optional"⟩]),
  (text% "Message-Status-Query-IEs", [
    ⟨text% "id-Message-Identifier", text% "reject", text% "Message-Identifier", text% "mandatory"⟩,
    ⟨text% "id-Old-Serial-Number", text% "reject", text% "Old-Serial-Number", text% "mandatory"⟩,
    ⟨text% "id-Service-Areas-List", text% "reject", text% "Service-Areas-List", text% "mandatory"⟩])]

theorem sabp5_sets : readPart (text% "SABP") sabp5 = some sabp5Sets := by decide +kernel

/-- The object sets of `sabp6`. -/
noncomputable def sabp6Sets : List (Text × List Row) := [
  (text% "Message-Status-Query-Complete-IEs", [
    ⟨text% "id-Message-Identifier", text% "reject", text% "Message-Identifier", text% "mandatory"⟩,
    ⟨text% "id-Old-Serial-Number", text% "reject", text% "Old-Serial-Number", text% "mandatory"⟩,
    ⟨text% "id-Number-of-Broadcasts-Completed-List", text% "reject", text% "Number-of-Broadcasts-Completed-List", text% "mandatory"⟩,
    ⟨text% "id-Criticality-Diagnostics", text% "ignore", text% "Criticality-Diagnostics", text% "optional"⟩]),
  (text% "Message-Status-Query-Failure-IEs", [
    ⟨text% "id-Message-Identifier", text% "reject", text% "Message-Identifier", text% "mandatory"⟩,
    ⟨text% "id-Failure-List", text% "reject", text% "Failure-List", text% "mandatory"⟩,
    ⟨text% "id-Old-Serial-Number", text% "reject", text% "Old-Serial-Number", text% "mandatory"⟩,
    ⟨text% "id-Number-of-Broadcasts-Completed-List", text% "ignore", text% "Number-of-Broadcasts-Completed-List", text% "optional"⟩,
    ⟨text% "id-Criticality-Diagnostics", text% "ignore", text% "Criticality-Diagnostics", text% "optional"⟩])]

theorem sabp6_sets : readPart (text% "SABP") sabp6 = some sabp6Sets := by decide +kernel

/-- The object sets of `sabp7`. -/
noncomputable def sabp7Sets : List (Text × List Row) := [
  (text% "Reset-IEs", [
    ⟨text% "id-Service-Areas-List", text% "reject", text% "Service-Areas-List", text% "mandatory"⟩]),
  (text% "Reset-Complete-IEs", [
    ⟨text% "id-Service-Areas-List", text% "reject", text% "Service-Areas-List", text% "mandatory"⟩,
    ⟨text% "id-Criticality-Diagnostics", text% "ignore", text% "Criticality-Diagnostics", text% "optional"⟩]),
  (text% "Reset-Failure-IEs", [
    ⟨text% "id-Failure-List", text% "reject", text% "Failure-List", text% "mandatory"⟩,
    ⟨text% "id-Service-Areas-List", text% "reject", text% "Service-Areas-List", text% "optional"⟩,
    ⟨text% "id-Criticality-Diagnostics", text% "ignore", text% "Criticality-Diagnostics", text% "optional"⟩])]

theorem sabp7_sets : readPart (text% "SABP") sabp7 = some sabp7Sets := by decide +kernel

/-- The object sets of `sabp8`. -/
noncomputable def sabp8Sets : List (Text × List Row) := [
  (text% "Restart-IEs", [
    ⟨text% "id-Service-Areas-List", text% "ignore", text% "Service-Areas-List", text% "mandatory"⟩,
    ⟨text% "id-Recovery-Indication", text% "ignore", text% "Recovery-Indication", text% "optional"⟩]),
  (text% "Failure-IEs", [
    ⟨text% "id-Service-Areas-List", text% "ignore", text% "Service-Areas-List", text% "mandatory"⟩]),
  (text% "Error-Indication-IEs", [
    ⟨text% "id-Message-Identifier", text% "ignore", text% "Message-Identifier", text% "optional"⟩,
    ⟨text% "id-Serial-Number", text% "ignore", text% "Serial-Number", text% "optional"⟩,
    ⟨text% "id-Cause", text% "ignore", text% "Cause", text% "optional"⟩,
    ⟨text% "id-Criticality-Diagnostics", text% "ignore", text% "Criticality-Diagnostics", text% "optional"⟩])]

theorem sabp8_sets : elementSets (text% "SABP") sabp8 = sabp8Sets := by decide +kernel

/-- All object sets. -/
noncomputable def sabpSets : List (Text × List Row) :=
  sabp0Tables ++ (sabp1Sets ++ (sabp2Sets ++ (sabp3Sets ++ (sabp4Sets ++ (sabp5Sets ++ (sabp6Sets ++ (sabp7Sets ++ (sabp8Sets))))))))

theorem sabp_elementSets : elementSets (text% "SABP") sabp = sabpSets := by
  unfold sabp sabpSets
  rw [readPart_sound sabp0_sets, readPart_sound sabp1_sets, readPart_sound sabp2_sets, readPart_sound sabp3_sets, readPart_sound sabp4_sets, readPart_sound sabp5_sets, readPart_sound sabp6_sets, readPart_sound sabp7_sets, sabp8_sets]

theorem sabp_specification : sabpSets.mapM (asnSet sabpNames) = some Asn.sabp := by kernel_rfl

end Verif.Gen.Text
