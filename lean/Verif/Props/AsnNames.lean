import Verif.Proofs.AsnToC
import Verif.Props.AsnTables
import Verif.Spec.Ie

/-!
# C118 In the generated code every element has a member and every optional element a presence constant of its own

The members of the structures, the presence constants and the names of types, functions and variables that
`asn1/utils/asn1tostruct.py` forms from the names in a module.
-/

namespace Verif.Props
open Verif.AsnToStruct Verif.AsnToStruct.Spec Verif.Gen Verif.Ie Verif.Ie.Spec

/-- What one would expect: elements with different identifiers have different members. -/
def C118_full : Prop :=
  ∀ ies : List AsnToStruct.Row, (ies.map (·.id)).Nodup → (∀ r ∈ ies, "id-".toList <+: r.id ∧ Plain r.id) → (memberNames ies).Nodup

/-- `id-` is taken out everywhere, not only at the beginning; so `id-Paid-Up` and `id-PaUp` have the same member. -/
theorem C118_violated : ¬ C118_full := by
  intro h
  have := h [⟨"id-Paid-Up".toList, "ignore".toList, "A".toList, "mandatory".toList⟩,
    ⟨"id-PaUp".toList, "ignore".toList, "B".toList, "mandatory".toList⟩] (by decide +kernel) (by decide +kernel)
  revert this
  decide +kernel

/-- The second way: names that differ in capitals only. -/
example : memberName ⟨"id-Cause".toList, [], [], []⟩ = memberName ⟨"id-cause".toList, [], [], []⟩ := by decide +kernel

/-- **C118, members.** In the structure of a message whose names can be told apart no two elements have the same member, and
none has the one for the presence mask. -/
theorem C118_members_partial {ies : List AsnToStruct.Row} (h : Clear ies) :
    (∀ (i j : Nat) (a b : AsnToStruct.Row), ies[i]? = some a → ies[j]? = some b → i ≠ j → memberName a ≠ memberName b) ∧
    (memberNames ies).Nodup := by
  refine ⟨fun i j a b hi hj hij he => ?_, members_nodup h⟩
  have hn := members_nodup h
  unfold memberNames at hn
  have hn := (List.nodup_append.1 hn).2.1
  obtain ⟨hi', rfl⟩ := List.getElem?_eq_some_iff.1 hi
  obtain ⟨hj', rfl⟩ := List.getElem?_eq_some_iff.1 hj
  apply hij
  apply (List.getElem_inj (h₀ := by simpa using hi') (h₁ := by simpa using hj') hn).1
  rw [List.getElem_map, List.getElem_map, he]

/-- **C118, presence constants.** For such a message the generator does not stop, all presence constants have different names,
and the one an encoder, decoder or free function uses for an element is defined, once: as the bit with the number of the
elements in front of it that are not mandatory.  For mandatory elements none is used. -/
theorem C118_constants_partial {ies : List AsnToStruct.Row} (h : Clear ies) (pre key : Text) :
    ∃ ms, macros pre key ies = some ms ∧ (ms.map (·.1)).Nodup ∧
      ∀ k r, ies[k]? = some r →
        (r.presence = "mandatory".toList → usedMacro pre key ies r = none) ∧
        (r.presence ≠ "mandatory".toList →
          ∃ n, usedMacro pre key ies r = some n ∧ ∀ b, (n, b) ∈ ms ↔ b = optionalBefore ies k) := by
  obtain ⟨ms, h1, h2, h3⟩ := macros_spec (pre := pre) (key := key) h
  refine ⟨ms, h1, h2, fun k r hk => ⟨fun hp => ?_, fun hp => ?_⟩⟩
  · unfold usedMacro
    rw [if_neg fun hh => hh hp]
  · unfold usedMacro
    rw [if_pos hp]
    exact h3 k r hk hp

/-- Without the condition: two rows with the same identifier stop the generator; a presence other than the three of ASN.1
uses a constant that is not defined. -/
example : macros [] [] [⟨"id-A".toList, [], "A".toList, "mandatory".toList⟩, ⟨"id-A".toList, [], "B".toList, "mandatory".toList⟩] =
      none ∧
    (let r : AsnToStruct.Row := ⟨"id-A".toList, [], "A".toList, "maybe".toList⟩
     macros "X_".toList "M".toList [r] = some [] ∧ usedMacro "X_".toList "M".toList [r] r = some "M_X_A_PRESENT".toList) := by
  decide +kernel

/-- The prefixes of the four modules (/repo/src/Makefile.am:10, 22, 34, 46), each with its module. -/
noncomputable def prefixed : List (Text × List Text × Names × List MsgDef) :=
  ["RUA_".toList, "HNBAP_".toList, "SABP_".toList, "RANAP_".toList].zip modules

theorem mem_prefixed {P : Text → List Text → Prop} (h1 : P "RUA_".toList Text.rua) (h2 : P "HNBAP_".toList Text.hnbap)
    (h3 : P "SABP_".toList Text.sabp) (h4 : P "RANAP_".toList Text.ranap) : ∀ q ∈ prefixed, P q.1 q.2.1 := by
  intro q hq
  simp only [prefixed, modules, List.zip_cons_cons, List.zip_nil_right, List.mem_cons, List.not_mem_nil, or_false] at hq
  rcases hq with rfl | rfl | rfl | rfl <;> assumption

/-- **C118, the four modules.** The names of all messages of the project can be told apart. -/
theorem C118_modules : ∀ q ∈ prefixed, ∀ t ∈ iesDefs q.2.1, Clear t.2 := by
  refine mem_prefixed (P := fun _ ls => ∀ t ∈ iesDefs ls, Clear t.2) ?_ ?_ ?_ ?_
  · rw [Text.rua_iesDefs]; decide +kernel
  · rw [Text.hnbap_iesDefs]; decide +kernel
  · rw [Text.sabp_iesDefs]; decide +kernel
  · rw [Text.ranap_iesDefs]; decide +kernel

theorem optional_count {N : Names} : ∀ {l : List AsnToStruct.Row} {ies : List IeDef} (k : Nat), l.mapM (element N) = some ies →
    ((l.take k).filter fun r => r.presence ≠ "mandatory".toList).length = ((ies.take k).filter (·.opt)).length
  | [], ies, k, h => by
    have h : some [] = some ies := h
    cases h
    rw [List.take_nil, List.take_nil]
    rfl
  | x :: l, ies, k, h => by
    rw [List.mapM_cons] at h
    obtain ⟨y, hy, h⟩ := Option.bind_eq_some_iff.1 h
    obtain ⟨ys, hys, h⟩ := Option.bind_eq_some_iff.1 h
    cases h
    cases k with
    | zero => rfl
    | succ k =>
      have hopt : y.opt = !decide (x.presence = "mandatory".toList) := by
        obtain ⟨id, -, hy⟩ := Option.bind_eq_some_iff.1 hy
        obtain ⟨crit, -, hy⟩ := Option.bind_eq_some_iff.1 hy
        obtain ⟨ty', -, hy⟩ := Option.bind_eq_some_iff.1 hy
        cases hy
        rfl
      have := optional_count k hys
      rw [List.take_succ_cons, List.take_succ_cons, List.filter_cons, List.filter_cons, hopt]
      by_cases hx : x.presence = "mandatory".toList
      · rw [if_neg (fun hh => (of_decide_eq_true hh : x.presence ≠ "mandatory".toList) hx), if_neg (by rw [decide_eq_true hx]; decide)]
        exact this
      · rw [if_pos (decide_eq_true hx), if_pos (by rw [decide_eq_false hx]; rfl), List.length_cons, List.length_cons, this]

/-- **C118, the bits.** The presence constant of an element in the text of a module is the bit of the element in the model of
the encoders and decoders (`bitOf`; C46, C50). -/
theorem C118_bits {q : Text × List Text × Names × List MsgDef} (hq : q ∈ prefixed) {i k : Nat} {t : Text × List AsnToStruct.Row}
    {r : AsnToStruct.Row} {m : MsgDef} (ht : (iesDefs q.2.1)[i]? = some t) (hr : t.2[k]? = some r) (hm : q.2.2.2[i]? = some m)
    (hp : r.presence ≠ "mandatory".toList) :
    ∃ ms n, macros q.1 t.1 t.2 = some ms ∧ usedMacro q.1 t.1 t.2 r = some n ∧ ∀ b, (n, b) ∈ ms ↔ b = bitOf m k := by
  obtain ⟨ms, h1, -, h3⟩ := C118_constants_partial (C118_modules q hq t (List.mem_of_getElem? ht)) q.1 t.1
  obtain ⟨n, h4, h5⟩ := (h3 k r hr).2 hp
  refine ⟨ms, n, h1, h4, ?_⟩
  have hb : optionalBefore t.2 k = bitOf m k := by
    have hmod : q.2 ∈ modules := (List.of_mem_zip hq).2
    obtain ⟨-, h⟩ := mapM_some (C117_messages q.2 hmod)
    obtain ⟨m', hm', hmt⟩ := h i t ht
    rw [hm] at hm'
    cases hm'
    obtain ⟨ty, -, hmt⟩ := Option.bind_eq_some_iff.1 hmt
    obtain ⟨ies, hies, hmt⟩ := Option.bind_eq_some_iff.1 hmt
    cases hmt
    exact optional_count k hies
  rw [← hb]
  exact h5

/-- The names of all presence constants of a module; `none` if the generator stops. -/
def macroNames (pre : Text) (ts : List (Text × List AsnToStruct.Row)) : Option (List Text) :=
  (ts.mapM fun t => macros pre t.1 t.2).map fun l => l.flatten.map (·.1)

/-- What the names of a module must be like for the code to be what it is taken for: no two presence constants, structures,
members of the union or functions have the same name, a decode function is declared with the name it is defined with, members
and parameters are identifiers of C, and in no function a variable has the name of another one or of a parameter, also not in
the inner block of an element. -/
structure Sound (pre : Text) (ts : List (Text × List AsnToStruct.Row)) : Prop where
  constants : ∃ l, macroNames pre ts = some l ∧ l.Nodup
  structures : (ts.map fun t => structName pre t.1).Nodup
  union : (ts.map fun t => messageName t.1).Nodup
  functions : (ts.map fun t => definedName t.1).Nodup
  declared : ∀ t ∈ ts, declaredName t.1 = definedName t.1
  members : ∀ t ∈ ts, ∀ n ∈ memberNames t.2, Identifier n
  decoder : ∀ t ∈ ts, (decoderNames t.1).Nodup ∧ (∀ n ∈ decoderNames t.1, Identifier n) ∧
    ∀ r ∈ t.2, elementVar pre r ∉ decoderNames t.1 ∧ Identifier (elementVar pre r)
  encoder : ∀ t ∈ ts, (encoderNames t.1).Nodup ∧ ∀ n ∈ encoderNames t.1, Identifier n

/-- The same as a check. -/
def sound (pre : Text) (ts : List (Text × List AsnToStruct.Row)) : Bool :=
  ((macroNames pre ts).any fun l => decide l.Nodup) && decide (ts.map fun t => structName pre t.1).Nodup &&
  decide (ts.map fun t => messageName t.1).Nodup && decide (ts.map fun t => definedName t.1).Nodup &&
  decide (∀ t ∈ ts, declaredName t.1 = definedName t.1) && decide (∀ t ∈ ts, ∀ n ∈ memberNames t.2, Identifier n) &&
  decide (∀ t ∈ ts, (decoderNames t.1).Nodup ∧ (∀ n ∈ decoderNames t.1, Identifier n) ∧
    ∀ r ∈ t.2, elementVar pre r ∉ decoderNames t.1 ∧ Identifier (elementVar pre r)) &&
  decide (∀ t ∈ ts, (encoderNames t.1).Nodup ∧ ∀ n ∈ encoderNames t.1, Identifier n)

theorem sound_spec {pre : Text} {ts : List (Text × List AsnToStruct.Row)} (h : sound pre ts = true) : Sound pre ts := by
  unfold sound at h
  simp only [Bool.and_eq_true, decide_eq_true_eq, Option.any_eq_true] at h
  obtain ⟨⟨⟨⟨⟨⟨⟨h1, h2⟩, h3⟩, h4⟩, h5⟩, h6⟩, h7⟩, h8⟩ := h
  exact ⟨h1, h2, h3, h4, h5, h6, h7, h8⟩

/-- **C118, the generated code of the four modules.** -/
theorem C118_sound : ∀ q ∈ prefixed, Sound q.1 (iesDefs q.2.1) := by
  refine mem_prefixed (P := fun pre ls => Sound pre (iesDefs ls)) ?_ ?_ ?_ ?_
  · rw [Text.rua_iesDefs]; exact sound_spec (by decide +kernel)
  · rw [Text.hnbap_iesDefs]; exact sound_spec (by decide +kernel)
  · rw [Text.sabp_iesDefs]; exact sound_spec (by decide +kernel)
  · rw [Text.ranap_iesDefs]; exact sound_spec (by decide +kernel)

/-- The presence constants that occur in the hand-written code (/repo/src/iu_client.c, ranap_msg_factory.c, rua_msg_factory.c):
prefix, message, identifier of the element, constant, and the member it is used with. -/
def usedConstants : List (Text × Text × Text × Text × Text) := [
  -- iu_client.c:467
  (text% "RANAP_", text% "InitialUE-MessageIEs", text% "id-RAC",
   text% "INITIALUE_MESSAGEIES_RANAP_RAC_PRESENT", text% "rac"),
  -- iu_client.c:512
  (text% "RANAP_", text% "DirectTransferIEs", text% "id-LAI",
   text% "DIRECTTRANSFERIES_RANAP_LAI_PRESENT", text% "lai"),
  -- iu_client.c:518
  (text% "RANAP_", text% "DirectTransferIEs", text% "id-RAC",
   text% "DIRECTTRANSFERIES_RANAP_RAC_PRESENT", text% "rac"),
  -- iu_client.c:521
  (text% "RANAP_", text% "DirectTransferIEs", text% "id-SAI",
   text% "DIRECTTRANSFERIES_RANAP_SAI_PRESENT", text% "sai"),
  -- ranap_msg_factory.c:247
  (text% "RANAP_", text% "DirectTransferIEs", text% "id-SAPI",
   text% "DIRECTTRANSFERIES_RANAP_SAPI_PRESENT", text% "sapi"),
  -- iu_client.c:541, 772, ranap_msg_factory.c:146
  (text% "RANAP_", text% "ErrorIndicationIEs", text% "id-Cause",
   text% "ERRORINDICATIONIES_RANAP_CAUSE_PRESENT", text% "cause"),
  -- ranap_msg_factory.c:151
  (text% "RANAP_", text% "ErrorIndicationIEs", text% "id-CriticalityDiagnostics",
   text% "ERRORINDICATIONIES_RANAP_CRITICALITYDIAGNOSTICS_PRESENT", text% "criticalityDiagnostics"),
  -- ranap_msg_factory.c:156
  (text% "RANAP_", text% "ErrorIndicationIEs", text% "id-CN-DomainIndicator",
   text% "ERRORINDICATIONIES_RANAP_CN_DOMAININDICATOR_PRESENT", text% "cN_DomainIndicator"),
  -- iu_client.c:627
  (text% "RANAP_", text% "RAB-AssignmentResponseIEs", text% "id-RAB-SetupOrModifiedList",
   text% "RAB_ASSIGNMENTRESPONSEIES_RANAP_RAB_SETUPORMODIFIEDLIST_PRESENT", text% "raB_SetupOrModifiedList"),
  -- ranap_msg_factory.c:811, 884
  (text% "RANAP_", text% "RAB-AssignmentRequestIEs", text% "id-RAB-SetupOrModifyList",
   text% "RAB_ASSIGNMENTREQUESTIES_RANAP_RAB_SETUPORMODIFYLIST_PRESENT", text% "raB_SetupOrModifyList"),
  -- iu_client.c:759, ranap_msg_factory.c:65, 1064
  (text% "RANAP_", text% "ResetIEs", text% "id-GlobalRNC-ID",
   text% "RESETIES_RANAP_GLOBALRNC_ID_PRESENT", text% "globalRNC_ID"),
  -- ranap_msg_factory.c:105, 161
  (text% "RANAP_", text% "ResetAcknowledgeIEs", text% "id-GlobalRNC-ID",
   text% "RESETACKNOWLEDGEIES_RANAP_GLOBALRNC_ID_PRESENT", text% "globalRNC_ID"),
  -- ranap_msg_factory.c:320
  (text% "RANAP_", text% "SecurityModeCommandIEs", text% "id-EncryptionInformation",
   text% "SECURITYMODECOMMANDIES_RANAP_ENCRYPTIONINFORMATION_PRESENT", text% "encryptionInformation"),
  -- ranap_msg_factory.c:391
  (text% "RANAP_", text% "SecurityModeCompleteIEs", text% "id-ChosenEncryptionAlgorithm",
   text% "SECURITYMODECOMPLETEIES_RANAP_CHOSENENCRYPTIONALGORITHM_PRESENT", text% "chosenEncryptionAlgorithm"),
  -- ranap_msg_factory.c:544
  (text% "RANAP_", text% "PagingIEs", text% "id-TemporaryUE-ID",
   text% "PAGINGIES_RANAP_TEMPORARYUE_ID_PRESENT", text% "temporaryUE_ID"),
  -- ranap_msg_factory.c:555
  (text% "RANAP_", text% "PagingIEs", text% "id-PagingCause",
   text% "PAGINGIES_RANAP_PAGINGCAUSE_PRESENT", text% "pagingCause"),
  -- rua_msg_factory.c:134
  (text% "RUA_", text% "DisconnectIEs", text% "id-RANAP-Message",
   text% "DISCONNECTIES_RUA_RANAP_MESSAGE_PRESENT", text% "ranaP_Message")]

/-- **C118, hand-written code.** Each presence constant in the hand-written code is that of the element which the model of this
code takes it for, and the member is the one of this element. -/
theorem C118_hand_written : ∀ u ∈ usedConstants, ∃ q ∈ prefixed, q.1 = u.1 ∧ ∃ ies, (u.2.1, ies) ∈ iesDefs q.2.1 ∧
    ∃ r ∈ ies, r.id = u.2.2.1 ∧ usedMacro q.1 u.2.1 ies r = some u.2.2.2.1 ∧ memberName r = u.2.2.2.2 := by
  have hr : (("RANAP_".toList, Text.ranap, Text.ranapNames, Ranap.all) : Text × List Text × Names × List MsgDef) ∈ prefixed := by
    simp only [prefixed, modules, List.zip_cons_cons, List.mem_cons]
    exact .inr (.inr (.inr (.inl trivial)))
  have hu : (("RUA_".toList, Text.rua, Text.ruaNames, Rua.all) : Text × List Text × Names × List MsgDef) ∈ prefixed := by
    simp only [prefixed, modules, List.zip_cons_cons, List.mem_cons]
    exact .inl trivial
  intro u huu
  have h : (u.1 = "RANAP_".toList ∧ ∃ t ∈ Text.ranapTables, t.1 = u.2.1 ∧ ∃ r ∈ t.2, r.id = u.2.2.1 ∧
        usedMacro "RANAP_".toList u.2.1 t.2 r = some u.2.2.2.1 ∧ memberName r = u.2.2.2.2) ∨
      (u.1 = "RUA_".toList ∧ ∃ t ∈ Text.ruaTables, t.1 = u.2.1 ∧ ∃ r ∈ t.2, r.id = u.2.2.1 ∧
        usedMacro "RUA_".toList u.2.1 t.2 r = some u.2.2.2.1 ∧ memberName r = u.2.2.2.2) := by
    revert u
    decide +kernel
  rcases h with ⟨h1, t, ht, h2, h3⟩ | ⟨h1, t, ht, h2, h3⟩
  · exact ⟨_, hr, h1.symm, t.2, by rw [Text.ranap_iesDefs, ← h2]; exact ht, h3⟩
  · exact ⟨_, hu, h1.symm, t.2, by rw [Text.rua_iesDefs, ← h2]; exact ht, h3⟩

/-- More members as the hand-written code has them. -/
example : memberName ⟨"id-NAS-PDU".toList, [], [], []⟩ = "nas_pdu".toList ∧
    memberName ⟨"id-IuSigConId".toList, [], [], []⟩ = "iuSigConId".toList ∧
    memberName ⟨"id-PermanentNAS-UE-ID".toList, [], [], []⟩ = "permanentNAS_UE_ID".toList ∧
    memberName ⟨"id-Establishment-Cause".toList, [], [], []⟩ = "establishment_Cause".toList := by decide +kernel

/-- A table that meets the conditions, with two optional elements of the same type: the constants are named after the
identifiers. -/
example : ∃ ies, Clear ies ∧ macros "X_".toList "M".toList ies =
    some [("M_X_ID_A_PRESENT".toList, 0), ("M_X_ID_B_PRESENT".toList, 1), ("M_X_U_PRESENT".toList, 2)] :=
  ⟨[⟨"id-A".toList, "ignore".toList, "T".toList, "optional".toList⟩,
    ⟨"id-C".toList, "reject".toList, "V".toList, "mandatory".toList⟩,
    ⟨"id-B".toList, "ignore".toList, "T".toList, "conditional".toList⟩,
    ⟨"id-D".toList, "ignore".toList, "U".toList, "optional".toList⟩], by decide +kernel, by decide +kernel⟩

end Verif.Props
