import Verif.Proofs.AsnToStruct

/-!
# C116 Every element written in the ASN.1 text gets into the generated functions

`iesDefs lines` is what the generator `asn1tostruct.py` takes from a file with these lines: the tables of elements from which
it writes structures, encoders and decoders.
-/

namespace Verif.Props
open Verif.AsnToStruct Verif.AsnToStruct.Spec

/-! ## Decidable forms of the hypotheses, for the examples -/

namespace AsnDemo

/-- `NoSet` by computation. -/
def noSet : Text → Bool
  | [] => true
  | c :: t => noSet t && (!("::=".toList.isPrefixOf (c :: t)) || !((c :: t).contains '{') ||
      (((c :: t).drop 3).takeWhile (· != '{')).any Char.isAlphanum)

theorem noSet_sound : ∀ {t : Text}, noSet t = true → NoSet t
  | [], _ => by
    intro a s b e
    simp at e
  | c :: t, h => by
    rw [noSet, Bool.and_eq_true] at h
    intro a s b e
    cases a with
    | cons d a => exact noSet_sound h.1 a s b (List.cons.inj e).2
    | nil =>
      have e : c :: t = "::=".toList ++ (s ++ '{' :: b) := e
      have h2 := h.2
      rw [e] at h2
      have h3 : (List.drop 3 ("::=".toList ++ (s ++ '{' :: b))) = s ++ '{' :: b := rfl
      rw [h3] at h2
      have hp : "::=".toList.isPrefixOf ("::=".toList ++ (s ++ '{' :: b)) = true :=
        List.isPrefixOf_iff_prefix.2 (List.prefix_append _ _)
      have hc : ("::=".toList ++ (s ++ '{' :: b)).contains '{' = true := by
        rw [List.contains_iff_mem]; simp
      rw [hp, hc] at h2
      simp only [Bool.not_true, Bool.false_or] at h2
      obtain ⟨x, hx, hxa⟩ := List.any_eq_true.1 h2
      refine ⟨x, ?_, hxa⟩
      have : ∀ {u : Text}, x ∈ (u ++ '{' :: b).takeWhile (· != '{') → x ∈ u := by
        intro u
        induction u with
        | nil => intro hx; simp at hx
        | cons d u ih =>
          intro hx
          rw [List.cons_append, List.takeWhile_cons] at hx
          split at hx
          · rcases List.mem_cons.1 hx with h | h
            · simp [h]
            · simp [ih h]
          · simp at hx
      exact this hx

/-- `NoBrace` by computation. -/
def noBrace (t : Text) : Bool := !t.contains '}' || (t.takeWhile (· != '}')).contains ':'

theorem noBrace_sound {t : Text} (h : noBrace t = true) : NoBrace t := by
  intro a b e
  rw [e] at h
  unfold noBrace at h
  have hc : (a ++ '}' :: b).contains '}' = true := by rw [List.contains_iff_mem]; simp
  rw [hc, Bool.not_true, Bool.false_or, List.contains_iff_mem] at h
  have : ∀ {u : Text}, ':' ∈ (u ++ '}' :: b).takeWhile (· != '}') → ':' ∈ u := by
    intro u
    induction u with
    | nil => intro hx; simp at hx
    | cons d u ih =>
      intro hx
      rw [List.cons_append, List.takeWhile_cons] at hx
      split at hx
      · rcases List.mem_cons.1 hx with h | h
        · rw [h]; exact List.mem_cons_self
        · simp [ih h]
      · simp at hx
  exact this h

theorem gap_of {t : Text} (h : t.all (fun c => c == ' ' || c == '\t' || c == '\n') = true) : Gap t := by
  intro c hc
  have := List.all_eq_true.1 h c hc
  simpa [or_assoc] using this

theorem word_of {t : Text} (h : (!t.isEmpty && t.all (fun c => c.isAlphanum || c == '-')) = true) : IsWord t := by
  rw [Bool.and_eq_true] at h
  refine ⟨by intro h0; rw [h0] at h; simp at h, fun c hc => ?_⟩
  simpa using List.all_eq_true.1 h.2 c hc

theorem class_of {t : Text} (h : (!t.isEmpty && t.all (fun c => c.isUpper || c.isDigit || c == '-')) = true) : IsClass t := by
  rw [Bool.and_eq_true] at h
  refine ⟨by intro h0; rw [h0] at h; simp at h, fun c hc => ?_⟩
  have := List.all_eq_true.1 h.2 c hc
  simpa [or_assoc] using this

theorem keyword_of {t : Text} (h : (!t.isEmpty && t.all Char.isUpper) = true) : IsKeyword t := by
  rw [Bool.and_eq_true] at h
  exact ⟨by intro h0; rw [h0] at h; simp at h, List.all_eq_true.1 h.2⟩

theorem bodyText_of {t : Text} (h0 : t ≠ []) (h1 : (t.head?.any fun c => c == ' ' || c == '\t' || c == '\n') = false)
    (h : t.all (fun c => c.isAlphanum || c == '-' || c == ' ' || c == '\t' || c == '\n' || c == '{' || c == '}' || c == ',' ||
      c == '|' || c == '.') = true) : BodyText t := by
  refine ⟨h0, fun c hc hg => ?_, fun c hc => ?_⟩
  · rw [hc] at h1
    rcases gap_mem.1 hg with rfl | rfl | rfl <;> simp at h1
  · have := List.all_eq_true.1 h c hc
    simp only [Bool.or_eq_true, beq_iff_eq] at this
    rw [gap_mem]
    rcases this with ((((((((h | h) | h) | h) | h) | h) | h) | h) | h) | h <;> simp [h]

/-- An element with these gaps. -/
theorem defines_of {s1 s2 s3 s4 s5 s6 s7 kw : Text} {e : Row}
    (hw : ([e.id, e.crit, e.ty, e.presence].all fun t => !t.isEmpty && t.all (fun c => c.isAlphanum || c == '-')) = true)
    (hs : ([s1, s2, s3, s4, s5, s6, s7].all fun t => !t.isEmpty && t.all (fun c => c == ' ' || c == '\t' || c == '\n')) = true)
    (hk : (!kw.isEmpty && kw.all Char.isUpper) = true) :
    Defines ("ID".toList ++ (s1 ++ (e.id ++ (s2 ++ ("CRITICALITY".toList ++ (s3 ++ (e.crit ++ (s4 ++ (kw ++ (s5 ++ (e.ty ++ (s6 ++
      ("PRESENCE".toList ++ (s7 ++ e.presence)))))))))))))) e := by
  have hw' := List.all_eq_true.1 hw
  have hs' := List.all_eq_true.1 hs
  refine ⟨word_of (hw' _ (by simp)), word_of (hw' _ (by simp)), word_of (hw' _ (by simp)), word_of (hw' _ (by simp)),
    s1, s2, s3, s4, s5, s6, s7, kw, fun s hm => ?_, keyword_of hk, rfl⟩
  have := hs' s hm
  rw [Bool.and_eq_true] at this
  exact ⟨gap_of this.2, by intro h0; rw [h0] at this; simp at this⟩

end AsnDemo
open AsnDemo

/-! ## C116 -/

/-- The full property: of every ASN.1 module whose sets have different names, every set that is not one of extensions gets a
table with all of its elements. -/
def C116_full : Prop :=
  ∀ (lines : List Text) (t : Text) (m : List (Text × Text × List (Text × Row))), AsnRead lines t → Module False m t →
    (m.map (·.1)).Nodup → iesDefs lines = tables all m

/-- What the generator reads is the text of the file without comments and carriage returns; with a comment the end of its line
is gone too. Every file can be read. -/
theorem C116_source (lines : List Text) : (∃ t, Read lines t) ∧ ∀ t, Read lines t → source lines = t :=
  ⟨read_total lines, fun _ h => source_read h⟩

/-- Of the text of a set the generator takes exactly the elements that are written on one line: their identifier, criticality,
type and presence, in the order of the text. Elements whose closing brace went with a comment are not found either. -/
theorem C116_set {l : List (Text × Row)} {t : Text} (h : Body True l t) : rows t = oneLine l := rows_body h

/-- Of a file it takes the sets that are not sets of extensions, each with the elements that are written on one line. -/
theorem C116_module {lines : List Text} {t : Text} {m : List (Text × Text × List (Text × Row))} (hr : Read lines t)
    (h : Module True m t) (hn : (m.map (·.1)).Nodup) : iesDefs lines = tables oneLine m := by
  unfold iesDefs
  rw [source_read hr]
  exact fold_module h [] (by simpa using hn)

/-- With all elements written on one line, and no comment that takes away the end of its line or a closing brace, the tables have everything.
Missing for the full property: elements over several lines, and comments behind a closing brace; for both it is false. -/
theorem C116_partial {lines : List Text} {t : Text} {m : List (Text × Text × List (Text × Row))} (hr : Read lines t)
    (h : Module False m t) (hn : (m.map (·.1)).Nodup) (hl : ∀ s ∈ m, ∀ x ∈ s.2.2, '\n' ∉ x.1) : iesDefs lines = tables all m := by
  rw [C116_module hr (module_mono h) hn]
  have he : ∀ s ∈ m, oneLine s.2.2 = all s.2.2 := by
    intro s hs
    unfold oneLine all
    rw [List.filter_eq_self.2]
    intro x hx
    simpa using hl s hs x hx
  clear h hn hl
  induction m with
  | nil => rfl
  | cons s m ih =>
    have h1 := he s (by simp)
    have h2 := ih fun x hx => he x (by simp [hx])
    obtain ⟨name, cls, l⟩ := s
    simp only at h1
    unfold tables at h2 ⊢
    rw [List.filterMap_cons, List.filterMap_cons, h2]
    simp only [h1]

namespace AsnDemo

/-- An element of RUA's Connect (RUA-PDU-Contents.asn:71). -/
def eContext : Row := ⟨"id-Context-ID".toList, "reject".toList, "Context-ID".toList, "mandatory".toList⟩
/-- As it is written there. -/
def tContext : Text := "ID id-Context-ID\t\t\tCRITICALITY reject\tTYPE Context-ID\t\t\t\tPRESENCE mandatory".toList
/-- An element of SABP's Write-Replace, written on two lines (SABP-PDU-Contents.asn:81-82). -/
def eNumber : Row := ⟨"id-Number-of-Broadcasts-Requested".toList, "reject".toList, "Number-of-Broadcasts-Requested".toList, "mandatory".toList⟩
/-- As it is written there. -/
def tNumber : Text :=
  "ID id-Number-of-Broadcasts-Requested\n CRITICALITY reject TYPE Number-of-Broadcasts-Requested PRESENCE mandatory".toList

theorem dContext : Defines tContext eContext := by
  have := defines_of (e := eContext) (s1 := [' ']) (s2 := "\t\t\t".toList) (s3 := [' ']) (s4 := ['\t']) (s5 := [' '])
    (s6 := "\t\t\t\t".toList) (s7 := [' ']) (kw := "TYPE".toList) (by decide +kernel) (by decide +kernel) (by decide +kernel)
  exact this

theorem dNumber : Defines tNumber eNumber := by
  have := defines_of (e := eNumber) (s1 := [' ']) (s2 := "\n ".toList) (s3 := [' ']) (s4 := [' ']) (s5 := [' '])
    (s6 := " ".toList) (s7 := [' ']) (kw := "TYPE".toList) (by decide +kernel) (by decide +kernel) (by decide +kernel)
  exact this

/-- A set of both. -/
def bothBody : Text := [] ++ '{' :: ([' '] ++ (tContext ++ ([' '] ++ '}' :: (" |\n\t".toList ++ '{' :: ([' '] ++ (tNumber ++ ([' '] ++
  '}' :: ",\n\t...".toList)))))))

theorem both : Body False [(tContext, eContext), (tNumber, eNumber)] bothBody :=
  .elem (by simp) (gap_of (by decide)) dContext (gap_of (by decide))
    (.elem (by decide) (gap_of (by decide)) dNumber (gap_of (by decide)) (.none (by decide)))

/-- A set with the first only. -/
def oneBody : Text := [] ++ '{' :: ([' '] ++ (tContext ++ ([' '] ++ '}' :: ",\n\t...".toList)))

theorem one : Body False [(tContext, eContext)] oneBody :=
  .elem (by simp) (gap_of (by decide)) dContext (gap_of (by decide)) (.none (by decide))

/-- The definition of a set with this text. -/
def setText (body : Text) : Text :=
  "ConnectIEs".toList ++ ([' '] ++ ("RUA-PROTOCOL-IES".toList ++ ([' '] ++ ("::=".toList ++ ([' '] ++ ('{' :: ("\n\t".toList ++
    (body ++ (['\n'] ++ "}\n".toList)))))))))

theorem setDef {l : List (Text × Row)} {body : Text} (hb : Body False l body) (ht : BodyText body) :
    SetDef False "ConnectIEs".toList "RUA-PROTOCOL-IES".toList l (setText body) := by
  refine ⟨word_of (by decide), class_of (by decide), [' '], [' '], [' '], "\n\t".toList, ['\n'], body, ?_, by simp, by decide,
    by simp, hb, ht, rfl⟩
  intro s hs
  simp only [List.mem_cons, List.not_mem_nil, or_false] at hs
  rcases hs with rfl | rfl | rfl | rfl | rfl <;> exact gap_of (by decide)

/-- Text that is no set, before it (RUA-PDU-Contents.asn:62-66). -/
def before : Text :=
  "Connect ::= SEQUENCE {\n\tprotocolIEs\t\tProtocolIE-Container       { {ConnectIEs} },\n\t...\n}\n\n".toList
/-- And behind it. -/
def behind : Text := "\nDirectTransfer ::= SEQUENCE {\n\t...\n}\n\nEND\n".toList

theorem demoModule {l : List (Text × Row)} {body : Text} (hb : Body False l body) (ht : BodyText body) :
    Module False [("ConnectIEs".toList, "RUA-PROTOCOL-IES".toList, l)] (before ++ (setText body ++ behind)) :=
  .set (noSet_sound (by decide +kernel)) (by
    intro c hc hw
    have : before.getLast? = some '\n' := by decide +kernel
    rw [this] at hc
    cases hc
    exact absurd (hw.2 '\n' (by simp)) (by decide)) (setDef hb ht) (noBrace_sound (by decide +kernel))
    (.rest (noSet_sound (by decide +kernel)))

theorem bothText : BodyText bothBody := bodyText_of (by simp [bothBody]) (by decide +kernel) (by decide +kernel)
theorem oneText : BodyText oneBody := bodyText_of (by simp [oneBody]) (by decide +kernel) (by decide +kernel)

/-- The set alone, with the element on two lines; this is the whole file. -/
theorem onlyModule : Module False [("ConnectIEs".toList, "RUA-PROTOCOL-IES".toList, [(tContext, eContext), (tNumber, eNumber)])]
    ([] ++ (setText bothBody ++ [])) :=
  .set (noSet_sound rfl) (by simp) (setDef both bothText) (noBrace_sound rfl) (.rest (noSet_sound rfl))

/-- The same with the first element only. -/
theorem oneModule : Module False [("ConnectIEs".toList, "RUA-PROTOCOL-IES".toList, [(tContext, eContext)])]
    ([] ++ (setText oneBody ++ [])) :=
  .set (noSet_sound rfl) (by simp) (setDef one oneText) (noBrace_sound rfl) (.rest (noSet_sound rfl))

/-- A text can be read as one line. -/
theorem readAll {t : Text} (h : (t.contains '\r' = false)) (h2 : ¬ "--".toList <:+: t) : AsnLine t t := by
  have h3 : t.filter (· ≠ '\r') = t := List.filter_eq_self.2 fun c hc => by
    have : '\r' ∉ t := fun hm => by rw [List.contains_iff_mem.2 hm] at h; cases h
    simpa using fun he : c = '\r' => this (he ▸ hc)
  have h4 := AsnLine.plain h2
  rwa [h3] at h4

/-- The same for what the generator does. -/
theorem readLine {t : Text} (h : (t.contains '\r' = false)) (h2 : ¬ "--".toList <:+: t) : Line t t := by
  refine .inl ⟨h2, (List.filter_eq_self.2 fun c hc => ?_).symm⟩
  have : '\r' ∉ t := fun hm => by rw [List.contains_iff_mem.2 hm] at h; cases h
  simpa using fun he : c = '\r' => this (he ▸ hc)

/-- The set without its last line. -/
def setStart (body : Text) : Text :=
  "ConnectIEs".toList ++ ([' '] ++ ("RUA-PROTOCOL-IES".toList ++ ([' '] ++ ("::=".toList ++ ([' '] ++ ('{' :: ("\n\t".toList ++
    (body ++ ['\n']))))))))

/-- The last line, with a comment. -/
def lastLine : Text := "}".toList ++ ("--".toList ++ (" end of ConnectIEs".toList ++ ['\n']))

end AsnDemo

/-- An element that is written on two lines is lost. -/
theorem C116_violated : ¬ C116_full := by
  intro h
  have hr : AsnRead [setText bothBody] (setText bothBody ++ []) :=
    .line (readAll (by decide +kernel) (by decide +kernel)) .nil
  have hr' : Read [setText bothBody] (setText bothBody ++ []) :=
    .line (readLine (by decide +kernel) (by decide +kernel)) .nil
  have h1 := h _ _ _ hr onlyModule (by simp)
  have h2 := C116_module hr' (module_mono onlyModule) (by simp)
  rw [h1] at h2
  exact absurd h2 (by decide +kernel)

/-- And a comment behind the closing brace of a set makes the whole set disappear, though all its elements are written on one
line. -/
theorem C116_comment : ∃ (lines : List Text) (t : Text) (m : List (Text × Text × List (Text × Row))), AsnRead lines t ∧
    Module False m t ∧ (m.map (·.1)).Nodup ∧ (∀ s ∈ m, ∀ x ∈ s.2.2, '\n' ∉ x.1) ∧ tables all m ≠ [] ∧ iesDefs lines = [] := by
  refine ⟨[setStart oneBody, lastLine], setText oneBody ++ [], _, ?_, oneModule, by simp, ?_, by decide +kernel,
    by decide +kernel⟩
  · have : setText oneBody ++ [] = setStart oneBody ++ ("}\n".toList ++ []) := by
      unfold setText setStart
      simp only [List.append_assoc, List.cons_append, List.append_nil]
    rw [this]
    exact .line (readAll (by decide +kernel) (by decide +kernel)) (.line
      (AsnLine.toEnd (a := "}".toList) (b := " end of ConnectIEs".toList) (by decide) (by decide +kernel)) .nil)
  · intro s hs x hx
    rw [List.mem_singleton.1 hs] at hx
    rw [List.mem_singleton.1 hx]
    decide +kernel

/-! ## Examples -/

/-- The set has two elements, one of them on two lines: the other one is found. -/
example : rows bothBody = [eContext] := (C116_set (body_mono both)).trans (by decide +kernel)

/-- Inside of a module with other text. -/
example : iesDefs [before, setText bothBody, behind] = [("ConnectIEs".toList, [eContext])] :=
  (C116_module (t := before ++ (setText bothBody ++ (behind ++ [])))
    (.line (readLine (by decide +kernel) (by decide +kernel)) (.line (readLine (by decide +kernel) (by decide +kernel))
      (.line (readLine (by decide +kernel) (by decide +kernel)) .nil)))
    (by rw [List.append_nil]; exact module_mono (demoModule both bothText)) (by simp)).trans (by decide +kernel)

example : iesDefs [before, setText oneBody, behind] = tables all [("ConnectIEs".toList, "RUA-PROTOCOL-IES".toList, [(tContext, eContext)])] :=
  C116_partial (t := before ++ (setText oneBody ++ (behind ++ [])))
    (.line (readLine (by decide +kernel) (by decide +kernel)) (.line (readLine (by decide +kernel) (by decide +kernel))
      (.line (readLine (by decide +kernel) (by decide +kernel)) .nil)))
    (by rw [List.append_nil]; exact demoModule one oneText) (by simp) (by
      intro s hs x hx
      rw [List.mem_singleton.1 hs] at hx
      rw [List.mem_singleton.1 hx]
      decide +kernel)

namespace AsnDemo

/-- An element of Relocation Required whose closing brace stands behind a comment (RANAP-PDU-Contents.asn:551-552). -/
def eClassmark : Row := ⟨"id-ClassmarkInformation3".toList, "ignore".toList, "ClassmarkInformation3".toList, "conditional".toList⟩
/-- As it is written there. -/
def tClassmark : Text :=
  "ID id-ClassmarkInformation3\t\t\tCRITICALITY ignore\tTYPE ClassmarkInformation3\t\t\tPRESENCE conditional".toList
/-- The lines of both elements, the second one as in RUA. -/
def tornLines : List Text := ["{ ".toList ++ (tClassmark ++ "\n".toList),
  "\t-- This IE shall be present if the Target ID IE contains a CGI IE --\t} |\n".toList,
  "\t{ ".toList ++ (tContext ++ " },\n".toList)]
/-- What is left of them. -/
def tornText : Text := [] ++ '{' :: ([' '] ++ (tClassmark ++ ("\n\t".toList ++ ("\t".toList ++ '{' :: ([' '] ++ (tContext ++ ([' '] ++
  '}' :: ",\n".toList)))))))

theorem dClassmark : Defines tClassmark eClassmark := by
  have := defines_of (e := eClassmark) (s1 := [' ']) (s2 := "\t\t\t".toList) (s3 := [' ']) (s4 := ['\t']) (s5 := [' '])
    (s6 := "\t\t\t".toList) (s7 := [' ']) (kw := "TYPE".toList) (by decide +kernel) (by decide +kernel) (by decide +kernel)
  exact this

theorem torn : Body True [(tContext, eContext)] tornText :=
  .open trivial (by simp) (gap_of (by decide)) dClassmark (gap_of (by decide))
    (.elem (by decide) (gap_of (by decide)) dContext (gap_of (by decide)) (.none (by decide))) (by
      intro x y h
      cases x with
      | nil => exact absurd (List.cons.inj h).1 (by decide)
      | cons c x =>
        cases x with
        | nil => exact absurd (List.cons.inj (List.cons.inj h).2).1 (by decide)
        | cons d x =>
          have : '{' = d := (List.cons.inj (List.cons.inj h).2).1
          simp [← this])

end AsnDemo

/-- Of the two elements only the second one is found: the closing brace of the first stands behind a comment. -/
example : source tornLines = tornText ∧ rows tornText = [eContext] :=
  ⟨by decide +kernel, (C116_set torn).trans (by decide +kernel)⟩

/-- The end of the line goes with the comment; the second line follows at once. -/
example : source ["{ ID id-Cause } -- why\n".toList, "}\r\n".toList] = "{ ID id-Cause } }\n".toList :=
  (C116_source _).2 _ (.line (t := "{ ID id-Cause } ".toList) (.inr ⟨"{ ID id-Cause } ".toList, " why\n".toList, by decide,
    by decide +kernel, by decide +kernel⟩) (.line (t := "}\n".toList) (.inl ⟨by decide +kernel, by decide +kernel⟩) .nil))

end Verif.Props
