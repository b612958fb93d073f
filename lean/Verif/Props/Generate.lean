import Verif.Model.Generate
import Verif.Proofs.Factory
import Verif.Props.Ie

/-!
# Encode functions and generate functions of all protocols (C79, C80)
-/

namespace Verif.Props
open Verif.Aper Verif.Ie Verif.Ie.Spec Verif.Wire Verif.Generate
open Verif.Factory (genPdu)
open Verif.Aper.Spec (fits)

/-! ## C79: exactly the valid structures are encoded -/

theorem encodeRows_isSome {ds : List IeDef} {sh : Nat} {mask : BitVec 16} {fs : List (Option Slot)}
    (hb : sh + (ds.filter (·.opt)).length ≤ 16) (hf : fs.length = ds.length) (hs : ∀ d ∈ ds, d.ty.sane = true) :
    (encodeRows ds sh mask fs).isSome = true ↔
      ∀ k d f, ds[k]? = some d → fs[k]? = some f →
        (d.opt = false ∨ mask.getLsbD (sh + ((ds.take k).filter (·.opt)).length) = true) →
        ∃ v, Factory.slotVal d f = some v ∧ fits d.ty v = true := by
  induction ds generalizing sh fs with
  | nil => simp [encodeRows]
  | cons d ds ih =>
    cases fs with
    | nil => simp at hf
    | cons f fs =>
      have hbit : d.opt = true → isPresent mask sh = mask.getLsbD sh := fun ho => by
        apply isPresent_eq
        rw [List.filter_cons, if_pos ho, List.length_cons] at hb
        omega
      have hlen : ∀ j, sh + (((d :: ds).take (j + 1)).filter (·.opt)).length =
          (if d.opt then sh + 1 else sh) + ((ds.take j).filter (·.opt)).length := by
        intro j
        rw [List.take_succ_cons, List.filter_cons]
        cases d.opt <;> simp; omega
      have hb' : (if d.opt then sh + 1 else sh) + (ds.filter (·.opt)).length ≤ 16 := by
        rw [List.filter_cons] at hb
        cases ho : d.opt <;> rw [ho] at hb <;> simp at hb ⊢ <;> omega
      have ih' := ih (sh := if d.opt then sh + 1 else sh) (fs := fs) hb' (by simpa using hf)
        fun e he => hs e (List.mem_cons_of_mem _ he)
      have split : (∀ k e g, (d :: ds)[k]? = some e → (f :: fs)[k]? = some g →
          (e.opt = false ∨ mask.getLsbD (sh + (((d :: ds).take k).filter (·.opt)).length) = true) →
          ∃ v, Factory.slotVal e g = some v ∧ fits e.ty v = true) ↔
          ((d.opt = false ∨ mask.getLsbD sh = true) → ∃ v, Factory.slotVal d f = some v ∧ fits d.ty v = true) ∧
          (encodeRows ds (if d.opt then sh + 1 else sh) mask fs).isSome = true := by
        rw [ih']
        constructor
        · intro h
          refine ⟨fun hi => h 0 d f rfl rfl (by simpa using hi), fun k e g hk hg hi => h (k + 1) e g (by simpa using hk)
            (by simpa using hg) ?_⟩
          rw [hlen]; exact hi
        · rintro ⟨h0, h1⟩ k e g hk hg hi
          cases k with
          | zero =>
            simp only [List.getElem?_cons_zero, Option.some.injEq] at hk hg
            subst hk hg
            exact h0 (by simpa using hi)
          | succ k =>
            rw [hlen] at hi
            exact h1 k e g (by simpa using hk) (by simpa using hg) hi
      rw [split]
      rw [encodeRows]
      by_cases hc : (d.opt && !isPresent mask sh) = true
      · rw [if_pos hc]
        simp only [Bool.and_eq_true, Bool.not_eq_true'] at hc
        have h0 : mask.getLsbD sh = false := by rw [← hbit hc.1]; exact hc.2
        rw [hc.1, h0]
        simp
      · rw [if_neg hc, Factory.newIe_slotVal]
        have hi : d.opt = false ∨ mask.getLsbD sh = true := by
          cases ho : d.opt with
          | false => exact Or.inl rfl
          | true =>
            right
            rw [← hbit ho]
            simpa [ho] using hc
        have h1 := encode_isSome (hs d List.mem_cons_self)
        cases hv : Factory.slotVal d f with
        | none => simp [hi]
        | some v =>
          have h2 := h1 v
          simp only [Option.some.injEq, exists_eq_left', hi, forall_const]
          rw [← h2]
          cases encode d.ty v with
          | none => simp
          | some b =>
            simp only [Option.isSome_some, true_and]
            cases encodeRows ds (if d.opt then sh + 1 else sh) mask fs <;> simp

/-- **C79.** The generated encode function of a message succeeds iff every mandatory element and every optional
element whose presence bit is set has a value of its type.  For all messages of the four protocols, all
structures. -/
theorem C79_encodes_iff {m : MsgDef} (hm : m ∈ tables) {s : Struct} (hs : s.fields.length = m.ies.length) :
    (encodeIes m s).isSome = true ↔
      ∀ k d, Row m k d → Included m s k d → ∃ v, valueOf s k d = some v ∧ fits d.ty v = true := by
  unfold encodeIes
  rw [encodeRows_isSome (by simpa using (good hm).bits) hs fun d hd => (Factory.row_facts hm hd).1]
  have hval : ∀ k d f, s.fields[k]? = some f → valueOf s k d = Factory.slotVal d f := by
    intro k d f hf
    unfold valueOf Struct.vals
    rw [List.getElem?_map, hf]
    cases f <;> rfl
  constructor
  · intro h k d hr hi
    have hk : k < s.fields.length := by
      rw [hs]
      exact (List.getElem?_eq_some_iff.1 hr).1
    have hf := List.getElem?_eq_getElem hk
    rw [hval k d _ hf]
    exact h k d _ hr hf (by simpa [Included, Spec.bit, bitOf] using hi)
  · intro h k d f hr hf hi
    rw [← hval k d f hf]
    exact h k d hr (by simpa [Included, Spec.bit, bitOf] using hi)

/-- **C79.** The elements then are these, in the order of the table: id and criticality of the table, the value
encoded. -/
theorem C79_elements {m : MsgDef} (hm : m ∈ tables) {s : Struct} {l : List Ie} (h : encodeIes m s = some l) :
    (∀ ie ∈ l, ∃ k d v, Row m k d ∧ Included m s k d ∧ ie.id = d.id ∧ ie.crit = d.crit ∧
      valueOf s k d = some v ∧ encode d.ty v = some ie.value) ∧
    (∀ k d, Row m k d → Included m s k d → ∃ ie ∈ l, ie.id = d.id) ∧
    (l.map (·.id)).Sublist (m.ies.map (·.id)) := by
  have e := encodeIes_spec (good hm) h
  exact ⟨e.sound, e.complete, e.order⟩

example : (dtStruct [0xaa, 0xbb, 0xcc] 0).fields.length = Gen.Ranap.directTransferIEs.ies.length := by decide
/-- a SAPI that does not exist -/
example : (encodeIes Gen.Ranap.directTransferIEs (dtStruct [0xaa] 0)).isSome = true ∧
    (encodeIes Gen.Ranap.directTransferIEs (dtStruct [0xaa] 2)).isSome = false := by decide +kernel

/-! ## C80: the generate functions -/

/-- The functions there are: three for each protocol, four for RANAP. -/
def HasDirection (p : Proto) (d : Nat) : Prop :=
  match p with
  | .ranap => 1 ≤ d ∧ d ≤ 4
  | _ => 1 ≤ d ∧ d ≤ 3

instance (p : Proto) (d : Nat) : Decidable (HasDirection p d) := by unfold HasDirection; cases p <;> infer_instance

/-- The roots of the PDU types. -/
private def rootOf : Proto → Fields
  | .ranap => Factory.ranapRoot
  | .rua => .cons false Gen.Rua.RUA_InitiatingMessage (.cons false Gen.Rua.RUA_SuccessfulOutcome
      (.cons false Gen.Rua.RUA_UnsuccessfulOutcome .nil))
  | .hnbap => .cons false Gen.Hnbap.HNBAP_InitiatingMessage (.cons false Gen.Hnbap.HNBAP_SuccessfulOutcome
      (.cons false Gen.Hnbap.HNBAP_UnsuccessfulOutcome .nil))
  | .sabp => .cons false Gen.Sabp.SABP_InitiatingMessage (.cons false Gen.Sabp.SABP_SuccessfulOutcome
      (.cons false Gen.Sabp.SABP_UnsuccessfulOutcome .nil))

private theorem pdu_root (p : Proto) : p.pdu = pduTy (rootOf p) := by cases p <;> rfl

private theorem pdu_sane (p : Proto) : (pduTy (rootOf p)).sane = true := by cases p <;> decide +kernel

theorem pdu_ok (p : Proto) : p.pdu.ok = true := by cases p <;> decide +kernel

private theorem pdu_alt (p : Proto) {d : Nat} (hd : HasDirection p d) :
    ((rootOf p).length = 3 ∨ (rootOf p).length = 4) ∧ d - 1 < (rootOf p).length ∧
    (∀ v, encAlt (rootOf p) (d - 1) v = enc (triple ⟨0, 255, false⟩) v) ∧
    (∀ v, Aper.Spec.fitsAlt (rootOf p) (d - 1) v = fits (triple ⟨0, 255, false⟩) v) := by
  cases p
  · have h : d = 1 ∨ d = 2 ∨ d = 3 ∨ d = 4 := by unfold HasDirection at hd; dsimp only at hd; omega
    rcases h with rfl | rfl | rfl | rfl <;>
      exact ⟨Or.inr rfl, by decide, fun _ => by rfl, fun _ => by simp [rootOf, Factory.ranapRoot, Aper.Spec.fitsAlt]; rfl⟩
  all_goals
    have h : d = 1 ∨ d = 2 ∨ d = 3 := by unfold HasDirection at hd; dsimp only at hd; omega
    rcases h with rfl | rfl | rfl <;>
      exact ⟨Or.inl rfl, by decide, fun _ => by rfl, fun _ => by simp [rootOf, Aper.Spec.fitsAlt]; rfl⟩

theorem pdu_encode (p : Proto) {d : Nat} (hd : HasDirection p d) {code crit : Nat} {value : Bytes} :
    (code < 256 ∧ crit < 3 → ∃ bs, encode p.pdu (Factory.pduVal d code crit value) = some bs ∧
      (value.length < 16384 → bs = pduOctets d code crit value) ∧ value.length ≤ bs.length) ∧
    (¬ (code < 256 ∧ crit < 3) → encode p.pdu (Factory.pduVal d code crit value) = none) := by
  obtain ⟨h1, h2, h3, h4⟩ := pdu_alt p hd
  rw [pdu_root]
  refine ⟨fun h => encode_pdu_room h1 h2 h3 h4 (pdu_sane p) h.1 h.2, fun h => ?_⟩
  have := encode_isSome (pdu_sane p) (Factory.pduVal d code crit value)
  have hf : fits (pduTy (rootOf p)) (Factory.pduVal d code crit value) = false := by
    unfold pduTy Factory.pduVal
    simp only [Aper.Spec.fits, if_pos h2, h4]
    simp [triple, Aper.Spec.fits, Aper.Spec.fitsFields]
    omega
  rw [hf] at this
  simpa using this

/-- **C80.** `*_generate_initiating_message`, `..._successful_outcome`, `..._unsuccessful_outcome` and
`ranap_generate_outcome`: NULL iff the value is none of its type; otherwise the complete message, if procedure code
and criticality exist and it has at most 1024 octets; otherwise an empty message.  For all protocols and types
(without ranges of more than 2^64 numbers, which C cannot represent). -/
theorem C80_generate (p : Proto) {d : Nat} (hd : HasDirection p d) (code crit : Nat) {t : Ty} (ht : t.sane = true)
    (v : Val) :
    (fits t v = false → generate p d code crit t v = none) ∧
    (fits t v = true → ∃ value, encode t v = some value ∧
      generate p d code crit t v = some (if code < 256 ∧ crit < 3 ∧ (pduOctets d code crit value).length ≤ 1024 then
        pduOctets d code crit value else [])) := by
  have hi := encode_isSome ht v
  unfold generate
  constructor
  · intro h
    rw [h] at hi
    have : encode t v = none := by simpa using hi
    rw [this]
  · intro h
    rw [h, Option.isSome_iff_exists] at hi
    obtain ⟨value, hv⟩ := hi
    refine ⟨value, hv, ?_⟩
    have hroom : p.room = 1024 := by cases p <;> rfl
    simp only [hv, genPdu, hroom]
    congr 1
    by_cases hc : code < 256 ∧ crit < 3
    · obtain ⟨bs, hb, h1, h2⟩ := (pdu_encode p hd (value := value)).1 hc
      have hl := Factory.pduOctets_length d code crit value
      rw [hb]
      by_cases hlt : value.length < 16384
      · rw [h1 hlt]
        simp [hc.1, hc.2]
      · rw [if_neg (by omega)]
        simp only
        rw [if_neg (by omega)]
    · rw [(pdu_encode p hd).2 hc, if_neg fun h => hc ⟨h.1, h.2.1⟩]

/-- **C80.** Every message the functions return with contents is decoded to the same kind of message, procedure code
and criticality, and its value to the value it was made of.  Missing: the empty messages of `C80_violated`. -/
theorem C80_decodes_partial (p : Proto) {d : Nat} {code crit : Nat} {t : Ty} (ht : t.ok = true)
    {v : Val} {bs : Bytes} (h : generate p d code crit t v = some bs) (hbs : bs ≠ []) :
    ∃ value, decode p.pdu bs = some (.choice (d - 1) (.seq [some (.int code), some (.enum crit), some (.octets value)])) ∧
      decode t value = some v := by
  unfold generate at h
  cases hv : encode t v with
  | none => rw [hv] at h; cases h
  | some value =>
    rw [hv] at h
    simp only [Option.some.injEq] at h
    refine ⟨value, ?_, decode_encode ht hv⟩
    unfold genPdu at h
    cases hb : encode p.pdu (Factory.pduVal d code crit value) with
    | none => rw [hb] at h; exact absurd h.symm hbs
    | some out =>
      rw [hb] at h
      simp only at h
      split at h
      · subst h
        exact decode_encode (pdu_ok p) hb
      · exact absurd h.symm hbs

/-- **C80.** A structure given to the encode function of its message and wrapped by a generate function comes back
from the decode functions: every included element with its value, no others.  For all messages of the four
protocols. -/
theorem C80_round_trip {α : Type} (p : Proto) {d : Nat} {code crit : Nat} {m : MsgDef} (hm : m ∈ tables) {s : Struct}
    {l : List Ie} (hl : encodeIes m s = some l) {bs : Bytes}
    (h : generate p d code crit m.ty (container l) = some bs) (hbs : bs ≠ []) (μ : Mem α) :
    ∃ value, decode p.pdu bs = some (.choice (d - 1) (.seq [some (.int code), some (.enum crit), some (.octets value)])) ∧
      (decodeIes m value μ).1.1 = 0 ∧
      (∀ k r, Row m k r → Included m s k r →
        ∃ v, valueOf s k r = some v ∧ (decodeIes m value μ).1.2.vals[k]? = some (some v)) ∧
      (∀ k r, Row m k r → ¬ Included m s k r → (decodeIes m value μ).1.2.vals[k]? = some none) := by
  have h' := h
  unfold generate at h'
  cases hv : encode m.ty (container l) with
  | none => rw [hv] at h'; cases h'
  | some value' =>
    obtain ⟨value, h1, h2⟩ := C80_decodes_partial p (good_ok (good hm)) h hbs
    have he : encodeMsg m s = some value' := by
      unfold encodeMsg
      rw [hl]
      exact hv
    have heq : value' = value := by
      rw [hv] at h'
      simp only [Option.some.injEq] at h'
      unfold genPdu at h'
      cases hb : encode p.pdu (Factory.pduVal d code crit value') with
      | none => rw [hb] at h'; exact absurd h'.symm hbs
      | some out =>
        rw [hb] at h'
        simp only at h'
        split at h'
        · subst h'
          have h3 := decode_encode (pdu_ok p) hb
          rw [h1] at h3
          unfold Factory.pduVal at h3
          simp only [Option.some.injEq, Val.choice.injEq, Val.seq.injEq, List.cons.injEq, Val.octets.injEq] at h3
          exact h3.2.2.2.1.symm
        · exact absurd h'.symm hbs
    subst heq
    obtain ⟨r0, r1, r2, -⟩ := C46_round_trip hm he μ
    exact ⟨value', h1, r0, r1, r2⟩

/-- **C80, full statement**: what is returned, if it is not NULL, is decoded to what it was made of. -/
def C80_full : Prop :=
  ∀ (p : Proto) (d code crit : Nat) (t : Ty) (v : Val) (bs : Bytes), HasDirection p d → t.sane = true → t.ok = true →
    generate p d code crit t v = some bs →
    ∃ value, decode p.pdu bs = some (.choice (d - 1) (.seq [some (.int code), some (.enum crit), some (.octets value)])) ∧
      decode t value = some v

/-- **C80**, not as expected of a function that returns NULL on failure: in each protocol a valid value with valid
procedure code and criticality whose message has more than 1024 octets gives an empty message. -/
theorem C80_empty (p : Proto) : ∃ (v : Val) (value : Bytes), fits (.octets none) v = true ∧
    encode (.octets none) v = some value ∧ generate p 1 0 0 (.octets none) v = some [] := by
  have hd : HasDirection p 1 := by cases p <;> decide
  have hf : fits (.octets none) (.octets (List.replicate 1024 0)) = true := by decide +kernel
  obtain ⟨value, h1, h2⟩ := (C80_generate p hd 0 0 (t := .octets none) (by decide) (.octets (List.replicate 1024 0))).2 hf
  refine ⟨_, value, hf, h1, ?_⟩
  rw [h2, if_neg]
  rintro ⟨-, -, h3⟩
  have hl := Factory.pduOctets_length 1 0 0 value
  have hv : value.length = 1026 := by
    have h4 : (encode (.octets none) (.octets (List.replicate 1024 0))).map List.length = some 1026 := by decide +kernel
    rw [h1] at h4
    simpa using h4
  omega

theorem C80_violated : ¬ C80_full := by
  intro h
  obtain ⟨v, value, -, -, h1⟩ := C80_empty .ranap
  obtain ⟨value', h2, -⟩ := h .ranap 1 0 0 _ v [] (by decide) (by decide) (by decide) h1
  have h3 : decode Proto.ranap.pdu [] = none := by with_unfolding_all rfl
  rw [h3] at h2
  cases h2

/-- All messages and all elements of the four protocols have such types. -/
example : tables.all (fun m => m.ty.sane && m.ty.ok && m.ies.all fun d => d.ty.sane && d.ty.ok) = true := by
  decide +kernel

/-- HNBAP, HNB De-Register with the cause "unspecified" of the radio network group: the structure, its one element, and the
message. -/
def hnbDeRegister : Struct := ⟨0, [some ⟨.choice 0 (.enum 10), none⟩, none]⟩

theorem hnbDeRegister_encodes :
    encodeIes Gen.Hnbap.hNBDe_RegisterIEs hnbDeRegister = some [⟨1, 1, [0x0a]⟩] := by decide +kernel

theorem hnbDeRegister_generates :
    generate .hnbap 1 2 1 Gen.Hnbap.hNBDe_RegisterIEs.ty (container [⟨1, 1, [0x0a]⟩]) =
      some [0x00, 0x02, 0x40, 0x08, 0x00, 0x00, 0x01, 0x00, 0x01, 0x40, 0x01, 0x0a] := by decide +kernel

/-- The hypotheses of `C80_generate` are met by RUA and SABP too: a value that fits and one that does not, a procedure code
that does not exist, and a message of 1025 octets. -/
example : generate .rua 3 1 0 (.int ⟨0, 255, false⟩) (.int 7) = some [0x40, 0x01, 0x00, 0x01, 0x07] ∧
    generate .rua 3 1 0 (.int ⟨0, 255, false⟩) (.int 256) = none ∧
    generate .sabp 2 256 0 (.int ⟨0, 255, false⟩) (.int 7) = some [] ∧
    HasDirection .rua 3 ∧ HasDirection .sabp 2 ∧ HasDirection .ranap 4 ∧ ¬ HasDirection .hnbap 4 := by decide +kernel

end Verif.Props
