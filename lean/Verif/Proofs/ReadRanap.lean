import Verif.Gen.TextRanapA
import Verif.Gen.TextRanapB
import Verif.Gen.TextRanapC
import Verif.Gen.TextRanapD
import Verif.Gen.AsnIes
import Verif.Gen.TextNames
import Verif.Proofs.AsnReader
import Verif.Proofs.TextRanapAll

/-!
# The object sets in the RANAP text
-/

namespace Verif.Gen.Text
open Verif.AsnToStruct Verif.AsnToStruct.Spec

theorem ranap0_sets : readPart (text% "RANAP") ranap0 = some ranap0Tables := by decide +kernel

theorem ranap1_sets : readPart (text% "RANAP") ranap1 = some ranap1Tables := by decide +kernel

/-- The object sets of `ranap2`. -/
noncomputable def ranap2Sets : List (Text × List Row) := [
  (text% "RAB-ReleasedItem-IuRelComp-IEs", [
    ⟨text% "id-RAB-ReleasedItem-IuRelComp", text% "ignore", text% "RAB-ReleasedItem-IuRelComp", text% "mandatory"⟩]),
  (text% "RelocationRequiredIEs", [
    ⟨text% "id-RelocationType", text% "reject", text% "RelocationType", text% "mandatory"⟩,
    ⟨text% "id-Cause", text% "ignore", text% "Cause", text% "mandatory"⟩,
    ⟨text% "id-SourceID", text% "ignore", text% "SourceID", text% "mandatory"⟩,
    ⟨text% "id-TargetID", text% "reject", text% "TargetID", text% "mandatory"⟩,
    ⟨text% "id-ClassmarkInformation2", text% "reject", text% "ClassmarkInformation2", text% "conditional"⟩,
    ⟨text% "id-ClassmarkInformation3", text% "ignore", text% "ClassmarkInformation3", text% "conditional"⟩,
    ⟨text% "id-Source-ToTarget-TransparentContainer", text% "reject", text% "Source-ToTarget-TransparentContainer", text% "conditional"⟩,
    ⟨text% "id-OldBSS-ToNewBSS-Information", text% "ignore", text% "OldBSS-ToNewBSS-Information", text% "optional"⟩])]

theorem ranap2_sets : readPart (text% "RANAP") ranap2 = some ranap2Sets := by decide +kernel

/-- The object sets of `ranap3`. -/
noncomputable def ranap3Sets : List (Text × List Row) := [
  (text% "RelocationCommandIEs", [
    ⟨text% "id-Target-ToSource-TransparentContainer", text% "reject", text% "Target-ToSource-TransparentContainer", text% "optional"⟩,
    ⟨text% "id-L3-Information", text% "ignore", text% "L3-Information", text% "optional"⟩,
    ⟨text% "id-RAB-RelocationReleaseList", text% "ignore", text% "RAB-RelocationReleaseList", text% "optional"⟩,
    ⟨text% "id-RAB-DataForwardingList", text% "ignore", text% "RAB-DataForwardingList", text% "optional"⟩,
    ⟨text% "id-CriticalityDiagnostics", text% "ignore", text% "CriticalityDiagnostics", text% "optional"⟩]),
  (text% "RAB-RelocationReleaseItemIEs", [
    ⟨text% "id-RAB-RelocationReleaseItem", text% "ignore", text% "RAB-RelocationReleaseItem", text% "mandatory"⟩]),
  (text% "RAB-DataForwardingItemIEs", [
    ⟨text% "id-RAB-DataForwardingItem", text% "ignore", text% "RAB-DataForwardingItem", text% "mandatory"⟩])]

theorem ranap3_sets : readPart (text% "RANAP") ranap3 = some ranap3Sets := by decide +kernel

theorem ranap4_sets : readPart (text% "RANAP") ranap4 = some ranap4Tables := by decide +kernel

theorem ranap5_sets : readPart (text% "RANAP") ranap5 = some ranap5Tables := by decide +kernel

theorem ranap6_sets : readPart (text% "RANAP") ranap6 = some ranap6Tables := by decide +kernel

theorem ranap7_sets : readPart (text% "RANAP") ranap7 = some ranap7Tables := by decide +kernel

theorem ranap8_sets : readPart (text% "RANAP") ranap8 = some ranap8Tables := by decide +kernel

theorem ranap9_sets : readPart (text% "RANAP") ranap9 = some ranap9Tables := by decide +kernel

theorem ranap10_sets : readPart (text% "RANAP") ranap10 = some ranap10Tables := by decide +kernel

theorem ranap11_sets : readPart (text% "RANAP") ranap11 = some ranap11Tables := by decide +kernel

theorem ranap12_sets : readPart (text% "RANAP") ranap12 = some ranap12Tables := by decide +kernel

theorem ranap13_sets : readPart (text% "RANAP") ranap13 = some ranap13Tables := by decide +kernel

theorem ranap14_sets : readPart (text% "RANAP") ranap14 = some ranap14Tables := by decide +kernel

theorem ranap15_sets : readPart (text% "RANAP") ranap15 = some ranap15Tables := by decide +kernel

theorem ranap16_sets : readPart (text% "RANAP") ranap16 = some ranap16Tables := by decide +kernel

theorem ranap17_sets : readPart (text% "RANAP") ranap17 = some ranap17Tables := by decide +kernel

theorem ranap18_sets : readPart (text% "RANAP") ranap18 = some ranap18Tables := by decide +kernel

theorem ranap19_sets : readPart (text% "RANAP") ranap19 = some ranap19Tables := by decide +kernel

theorem ranap20_sets : readPart (text% "RANAP") ranap20 = some ranap20Tables := by decide +kernel

theorem ranap21_sets : readPart (text% "RANAP") ranap21 = some ranap21Tables := by decide +kernel

theorem ranap22_sets : readPart (text% "RANAP") ranap22 = some ranap22Tables := by decide +kernel

theorem ranap23_sets : readPart (text% "RANAP") ranap23 = some ranap23Tables := by decide +kernel

theorem ranap24_sets : readPart (text% "RANAP") ranap24 = some ranap24Tables := by decide +kernel

theorem ranap25_sets : readPart (text% "RANAP") ranap25 = some ranap25Tables := by decide +kernel

theorem ranap26_sets : readPart (text% "RANAP") ranap26 = some ranap26Tables := by decide +kernel

theorem ranap27_sets : readPart (text% "RANAP") ranap27 = some ranap27Tables := by decide +kernel

theorem ranap28_sets : readPart (text% "RANAP") ranap28 = some ranap28Tables := by decide +kernel

theorem ranap29_sets : readPart (text% "RANAP") ranap29 = some ranap29Tables := by decide +kernel

theorem ranap30_sets : readPart (text% "RANAP") ranap30 = some ranap30Tables := by decide +kernel

theorem ranap31_sets : readPart (text% "RANAP") ranap31 = some ranap31Tables := by decide +kernel

theorem ranap32_sets : readPart (text% "RANAP") ranap32 = some ranap32Tables := by decide +kernel

theorem ranap33_sets : readPart (text% "RANAP") ranap33 = some ranap33Tables := by decide +kernel

theorem ranap34_sets : readPart (text% "RANAP") ranap34 = some ranap34Tables := by decide +kernel

theorem ranap35_sets : readPart (text% "RANAP") ranap35 = some ranap35Tables := by decide +kernel

theorem ranap36_sets : readPart (text% "RANAP") ranap36 = some ranap36Tables := by decide +kernel

/-- The object sets of `ranap37`. -/
noncomputable def ranap37Sets : List (Text × List Row) := [
  (text% "RANAP-RelocationInformationIEs", [
    ⟨text% "id-DirectTransferInformationList-RANAP-RelocInf", text% "ignore", text% "DirectTransferInformationList-RANAP-RelocInf", text% "optional"⟩,
    ⟨text% "id-RAB-ContextList-RANAP-RelocInf", text% "ignore", text% "RAB-ContextList-RANAP-RelocInf", text% "optional"⟩]),
  (text% "DirectTransferInformationItemIEs-RANAP-RelocInf", [
    ⟨text% "id-DirectTransferInformationItem-RANAP-RelocInf", text% "ignore", text% "DirectTransferInformationItem-RANAP-RelocInf", text% "mandatory"⟩])]

theorem ranap37_sets : readPart (text% "RANAP") ranap37 = some ranap37Sets := by decide +kernel

theorem ranap38_sets : readPart (text% "RANAP") ranap38 = some ranap38Tables := by decide +kernel

theorem ranap39_sets : readPart (text% "RANAP") ranap39 = some ranap39Tables := by decide +kernel

theorem ranap40_sets : readPart (text% "RANAP") ranap40 = some ranap40Tables := by decide +kernel

theorem ranap41_sets : readPart (text% "RANAP") ranap41 = some ranap41Tables := by decide +kernel

theorem ranap42_sets : readPart (text% "RANAP") ranap42 = some ranap42Tables := by decide +kernel

theorem ranap43_sets : readPart (text% "RANAP") ranap43 = some ranap43Tables := by decide +kernel

theorem ranap44_sets : readPart (text% "RANAP") ranap44 = some ranap44Tables := by decide +kernel

theorem ranap45_sets : readPart (text% "RANAP") ranap45 = some ranap45Tables := by decide +kernel

theorem ranap46_sets : readPart (text% "RANAP") ranap46 = some ranap46Tables := by decide +kernel

/-- The object sets of `ranap47`. -/
noncomputable def ranap47Sets : List (Text × List Row) := [
  (text% "DirectInformationTransferIEs", [
    ⟨text% "id-InterSystemInformationTransferType", text% "ignore", text% "InterSystemInformationTransferType", text% "optional"⟩,
    ⟨text% "id-CN-DomainIndicator", text% "ignore", text% "CN-DomainIndicator", text% "mandatory"⟩,
    ⟨text% "id-GlobalRNC-ID", text% "ignore", text% "GlobalRNC-ID", text% "optional"⟩,
    ⟨text% "id-GlobalCN-ID", text% "ignore", text% "GlobalCN-ID", text% "optional"⟩]),
  (text% "UplinkInformationExchangeRequestIEs", [
    ⟨text% "id-InformationExchangeID", text% "reject", text% "InformationExchangeID", text% "mandatory"⟩,
    ⟨text% "id-InformationExchangeType", text% "reject", text% "InformationExchangeType", text% "mandatory"⟩,
    ⟨text% "id-InformationTransferType", text% "reject", text% "InformationTransferType", text% "conditional"⟩,
    ⟨text% "id-InformationRequestType", text% "reject", text% "InformationRequestType", text% "conditional"⟩,
    ⟨text% "id-CN-DomainIndicator", text% "reject", text% "CN-DomainIndicator", text% "mandatory"⟩,
    ⟨text% "id-GlobalRNC-ID", text% "reject", text% "GlobalRNC-ID", text% "mandatory"⟩])]

theorem ranap47_sets : readPart (text% "RANAP") ranap47 = some ranap47Sets := by decide +kernel

theorem ranap48_sets : readPart (text% "RANAP") ranap48 = some ranap48Tables := by decide +kernel

theorem ranap49_sets : readPart (text% "RANAP") ranap49 = some ranap49Tables := by decide +kernel

theorem ranap50_sets : readPart (text% "RANAP") ranap50 = some ranap50Tables := by decide +kernel

theorem ranap51_sets : readPart (text% "RANAP") ranap51 = some ranap51Tables := by decide +kernel

theorem ranap52_sets : readPart (text% "RANAP") ranap52 = some ranap52Tables := by decide +kernel

theorem ranap53_sets : readPart (text% "RANAP") ranap53 = some ranap53Tables := by decide +kernel

/-- The object sets of `ranap54`. -/
noncomputable def ranap54Sets : List (Text × List Row) := [
  (text% "MBMSUELinkingResponseIEs", [
    ⟨text% "id-UnsuccessfulLinkingList", text% "ignore", text% "UnsuccessfulLinking-IEs", text% "optional"⟩,
    ⟨text% "id-CriticalityDiagnostics", text% "ignore", text% "CriticalityDiagnostics", text% "optional"⟩]),
  (text% "MBMSRegistrationRequestIEs", [
    ⟨text% "id-MBMSRegistrationRequestType", text% "reject", text% "MBMSRegistrationRequestType", text% "mandatory"⟩,
    ⟨text% "id-TMGI", text% "reject", text% "TMGI", text% "mandatory"⟩,
    ⟨text% "id-IPMulticastAddress", text% "reject", text% "IPMulticastAddress", text% "conditional"⟩,
    ⟨text% "id-APN", text% "reject", text% "APN", text% "conditional"⟩,
    ⟨text% "id-GlobalRNC-ID", text% "reject", text% "GlobalRNC-ID", text% "optional"⟩])]

theorem ranap54_sets : readPart (text% "RANAP") ranap54 = some ranap54Sets := by decide +kernel

theorem ranap55_sets : readPart (text% "RANAP") ranap55 = some ranap55Tables := by decide +kernel

theorem ranap56_sets : readPart (text% "RANAP") ranap56 = some ranap56Tables := by decide +kernel

theorem ranap57_sets : readPart (text% "RANAP") ranap57 = some ranap57Tables := by decide +kernel

theorem ranap58_sets : readPart (text% "RANAP") ranap58 = some ranap58Tables := by decide +kernel

theorem ranap59_sets : elementSets (text% "RANAP") ranap59 = ranap59Tables := by decide +kernel

/-- All object sets. -/
noncomputable def ranapSets : List (Text × List Row) :=
  ranap0Tables ++ (ranap1Tables ++ (ranap2Sets ++ (ranap3Sets ++ (ranap4Tables ++ (ranap5Tables ++ (ranap6Tables ++ (ranap7Tables ++ (ranap8Tables ++ (ranap9Tables ++ (ranap10Tables ++ (ranap11Tables ++ (ranap12Tables ++ (ranap13Tables ++ (ranap14Tables ++ (ranap15Tables ++ (ranap16Tables ++ (ranap17Tables ++ (ranap18Tables ++ (ranap19Tables ++ (ranap20Tables ++ (ranap21Tables ++ (ranap22Tables ++ (ranap23Tables ++ (ranap24Tables ++ (ranap25Tables ++ (ranap26Tables ++ (ranap27Tables ++ (ranap28Tables ++ (ranap29Tables ++ (ranap30Tables ++ (ranap31Tables ++ (ranap32Tables ++ (ranap33Tables ++ (ranap34Tables ++ (ranap35Tables ++ (ranap36Tables ++ (ranap37Sets ++ (ranap38Tables ++ (ranap39Tables ++ (ranap40Tables ++ (ranap41Tables ++ (ranap42Tables ++ (ranap43Tables ++ (ranap44Tables ++ (ranap45Tables ++ (ranap46Tables ++ (ranap47Sets ++ (ranap48Tables ++ (ranap49Tables ++ (ranap50Tables ++ (ranap51Tables ++ (ranap52Tables ++ (ranap53Tables ++ (ranap54Sets ++ (ranap55Tables ++ (ranap56Tables ++ (ranap57Tables ++ (ranap58Tables ++ (ranap59Tables)))))))))))))))))))))))))))))))))))))))))))))))))))))))))))

theorem ranap_elementSets : elementSets (text% "RANAP") ranap = ranapSets := by
  unfold ranap ranapSets
  rw [readPart_sound ranap0_sets, readPart_sound ranap1_sets, readPart_sound ranap2_sets, readPart_sound ranap3_sets, readPart_sound ranap4_sets, readPart_sound ranap5_sets, readPart_sound ranap6_sets, readPart_sound ranap7_sets, readPart_sound ranap8_sets, readPart_sound ranap9_sets, readPart_sound ranap10_sets, readPart_sound ranap11_sets, readPart_sound ranap12_sets, readPart_sound ranap13_sets, readPart_sound ranap14_sets, readPart_sound ranap15_sets, readPart_sound ranap16_sets, readPart_sound ranap17_sets, readPart_sound ranap18_sets, readPart_sound ranap19_sets, readPart_sound ranap20_sets, readPart_sound ranap21_sets, readPart_sound ranap22_sets, readPart_sound ranap23_sets, readPart_sound ranap24_sets, readPart_sound ranap25_sets, readPart_sound ranap26_sets, readPart_sound ranap27_sets, readPart_sound ranap28_sets, readPart_sound ranap29_sets, readPart_sound ranap30_sets, readPart_sound ranap31_sets, readPart_sound ranap32_sets, readPart_sound ranap33_sets, readPart_sound ranap34_sets, readPart_sound ranap35_sets, readPart_sound ranap36_sets, readPart_sound ranap37_sets, readPart_sound ranap38_sets, readPart_sound ranap39_sets, readPart_sound ranap40_sets, readPart_sound ranap41_sets, readPart_sound ranap42_sets, readPart_sound ranap43_sets, readPart_sound ranap44_sets, readPart_sound ranap45_sets, readPart_sound ranap46_sets, readPart_sound ranap47_sets, readPart_sound ranap48_sets, readPart_sound ranap49_sets, readPart_sound ranap50_sets, readPart_sound ranap51_sets, readPart_sound ranap52_sets, readPart_sound ranap53_sets, readPart_sound ranap54_sets, readPart_sound ranap55_sets, readPart_sound ranap56_sets, readPart_sound ranap57_sets, readPart_sound ranap58_sets, ranap59_sets]

theorem ranap_specification : ranapSets.mapM (asnSet ranapNames) = some Asn.ranap := by kernel_rfl

end Verif.Gen.Text
