import Verif.Proofs.IeTables
import Verif.Proofs.AperFits
import Verif.Spec.Wire

/-!
# The octets of containers and PDUs
-/

namespace Verif.Wire
open Verif.Aper Verif.Ie

/-- From an octet boundary, the encoder writes exactly these octets. -/
def Octs (e : Enc) (bs : Bytes) : Prop := ∀ off, off % 8 = 0 → e off = some (octetsBits bs)

theorem octetsBits_append (a b : Bytes) : octetsBits (a ++ b) = octetsBits a ++ octetsBits b := by
  induction a with
  | nil => rfl
  | cons x a ih => simp [octetsBits, ih]

theorem Octs.seq {e f : Enc} {a b : Bytes} (he : Octs e a) (hf : Octs f b) : Octs (e +++ f) (a ++ b) := by
  intro off h
  unfold Enc.seq
  rw [he off h]
  simp only
  rw [hf _ (by rw [octetsBits_length]; omega), octetsBits_append]

theorem octs_nil : Octs eNil [] := fun _ _ => rfl

theorem octs_raw (bs : Bytes) : Octs (eRaw (octetsBits bs)) bs := fun _ _ => rfl

theorem padLen_zero {off : Nat} (h : off % 8 = 0) : padLen off = 0 := by unfold padLen; omega

/-- Alignment does nothing on an octet boundary. -/
theorem align_seq {e : Enc} {bs : Bytes} (h : Octs e bs) : Octs (eAlign +++ e) bs := by
  intro off ho
  unfold Enc.seq eAlign
  simp only [padLen_zero ho, List.replicate_zero, List.length_nil, Nat.add_zero, h off ho, List.nil_append]

theorem natBits_add (a b n : Nat) : natBits (a + b) n = natBits a (n / 2 ^ b) ++ natBits b (n % 2 ^ b) := by
  induction a with
  | zero =>
    simp only [Nat.zero_add, natBits, List.nil_append]
    have : ∀ w, w ≤ b → natBits w n = natBits w (n % 2 ^ b) := by
      intro w
      induction w with
      | zero => intro _; rfl
      | succ w ih =>
        intro hw
        simp only [natBits]
        rw [ih (by omega), Nat.testBit_mod_two_pow]
        simp [show w < b by omega]
    exact this b (Nat.le_refl b)
  | succ a ih =>
    rw [show a + 1 + b = (a + b) + 1 by omega]
    simp only [natBits, List.cons_append, ih]
    rw [Nat.testBit_div_two_pow, Nat.add_comm a b]

theorem natBits_octet {n : Nat} (h : n < 256) : natBits 8 n = octetsBits [BitVec.ofNat 8 n] := by
  simp only [octetsBits, List.append_nil, BitVec.toNat_ofNat]
  rw [Nat.mod_eq_of_lt (by omega)]

theorem octs_nat8 {n : Nat} (h : n < 256) : Octs (eNat 8 n) [BitVec.ofNat 8 n] := by
  intro off _
  unfold eNat
  rw [if_pos (by omega), natBits_octet h]

theorem octs_nat16 {n : Nat} (h : n < 65536) : Octs (eNat 16 n) (be16 n) := by
  intro off _
  unfold eNat be16
  rw [if_pos (by omega), natBits_add 8 8 n, natBits_octet (by omega), natBits_octet (by omega)]
  rw [← octetsBits_append]
  rfl

/-- Bit fields that together fill an octet. -/
theorem bits_octs {e : Enc} {w n : Nat} {bits : Bits} (he : ∀ off, e off = some bits) (hb : bits = natBits w n) (hw : w = 8)
    (h : n < 256) : Octs e [BitVec.ofNat 8 n] := by
  intro off _
  rw [he off, hb, hw, natBits_octet h]

theorem eNat_some {w n : Nat} (h : n < 2 ^ w) (off : Nat) : eNat w n off = some (natBits w n) := by
  unfold eNat; rw [if_pos h]

theorem seq_apply {e f : Enc} {off : Nat} {a b : Bits} (he : e off = some a) (hf : f (off + a.length) = some b) :
    (e +++ f) off = some (a ++ b) := by
  unfold Enc.seq; simp [he, hf]

theorem octs_len {n : Nat} (h : n < 16384) : Octs (eLen n) (lenOctets n) := by
  unfold eLen lenOctets
  apply align_seq
  by_cases h1 : n < 128
  · rw [if_pos h1, if_pos h1]
    intro off _
    have h2 : (eBit false +++ eNat 7 n) off = some (natBits 1 0 ++ natBits 7 n) :=
      seq_apply (eNat_some (by decide) off) (eNat_some (by omega) _)
    have := natBits_add 1 7 n
    rw [show n / 2 ^ 7 = 0 by omega, show n % 2 ^ 7 = n by omega] at this
    rw [h2, ← this, natBits_octet (by omega)]
  · rw [if_neg h1, if_neg h1, if_pos h]
    intro off _
    have h2 : (eBit true +++ eBit false +++ eNat 14 n) off = some (natBits 1 1 ++ (natBits 1 0 ++ natBits 14 n)) :=
      seq_apply (eNat_some (by decide) off) (seq_apply (eNat_some (by decide) _) (eNat_some (by omega) _))
    have e1 := natBits_add 1 15 (32768 + n)
    have e2 := natBits_add 1 14 n
    rw [show (32768 + n) / 2 ^ 15 = 1 by omega, show (32768 + n) % 2 ^ 15 = n by omega] at e1
    rw [show n / 2 ^ 14 = 0 by omega, show n % 2 ^ 14 = n by omega] at e2
    rw [h2, ← e2, ← e1, natBits_add 8 8, natBits_octet (by omega), natBits_octet (by omega)]
    rw [show (32768 + n) / 2 ^ 8 = 128 + n / 256 by omega, show (32768 + n) % 2 ^ 8 = n % 256 by omega]
    rw [← octetsBits_append]
    rfl

theorem octs_octets {bs : Bytes} (h : bs.length < 16384) : Octs (eOctets bs) (lenOctets bs.length ++ bs) := by
  unfold eOctets
  rw [show bs.length / 16384 + 1 = 0 + 1 by omega]
  unfold eFrag
  rw [if_pos h]
  exact (octs_len h).seq (octs_raw bs)

/-- Octets after a partial octet: padding completes it. -/
theorem partial_octets {e : Enc} {bits : Bits} {x : Byte} {bs : Bytes} (he : ∀ off, e off = some bits)
    (hl : bits.length < 8) (h0 : bits ≠ []) (hx : bits ++ List.replicate (8 - bits.length) false = octetsBits [x])
    (f : Enc) (hf : Octs f bs) : Octs (e +++ eAlign +++ f) (x :: bs) := by
  intro off ho
  have hpos : bits.length ≠ 0 := fun h => h0 (List.length_eq_zero_iff.1 h)
  have hp : padLen (off + bits.length) = 8 - bits.length := by unfold padLen; omega
  have h1 : (eAlign +++ f) (off + bits.length) = some (List.replicate (8 - bits.length) false ++ octetsBits bs) := by
    refine seq_apply (by unfold eAlign; rw [hp]) (hf _ ?_)
    simp only [List.length_replicate]; omega
  rw [seq_apply (he off) h1, ← List.append_assoc, hx, ← octetsBits_append]
  rfl

theorem align_idem {e : Enc} : eAlign +++ (eAlign +++ e) = eAlign +++ e := by
  funext off
  unfold Enc.seq eAlign
  simp only [List.length_replicate]
  have : padLen (off + padLen off) = 0 := by unfold padLen; omega
  simp only [this, List.replicate_zero, Nat.add_zero, List.nil_append]
  cases e (off + padLen off) <;> rfl

theorem len_align (n : Nat) : eAlign +++ eLen n = eLen n := by
  unfold eLen; exact align_idem

theorem seq_assoc (e f g : Enc) : (e +++ f) +++ g = e +++ (f +++ g) := by
  funext off
  cases h : ((e +++ f) +++ g) off with
  | some bs => exact ((assoc_run e f g off bs).2 h).symm
  | none =>
    cases h' : (e +++ (f +++ g)) off with
    | none => rfl
    | some bs => rw [(assoc_run e f g off bs).1 h'] at h; cases h

theorem octets_align (bs : Bytes) : eAlign +++ eOctets bs = eOctets bs := by
  unfold eOctets eFrag
  split
  · rw [← seq_assoc, len_align]
  · exact align_idem

theorem octs_critVal {c : Nat} (hc : c < 3) {bs : Bytes} (h : bs.length < 16384) :
    Octs (eCons 3 c +++ eOctets bs) (critOctet c :: (lenOctets bs.length ++ bs)) := by
  rw [← octets_align]
  have he : ∀ off, eCons 3 c off = some (natBits 2 c) := by
    intro off
    unfold eCons eSmall
    rw [if_neg (by omega), if_pos (by decide), if_neg (by omega), if_neg (by decide), if_pos (by decide)]
    exact eNat_some (w := 2) (by omega) off
  refine partial_octets he (by rw [natBits_length]; decide) ?_ ?_ _ (octs_octets h)
  · intro h0
    have := natBits_length 2 c
    rw [h0] at this; simp at this
  · have : c = 0 ∨ c = 1 ∨ c = 2 := by omega
    rcases this with rfl | rfl | rfl <;> decide

/-- The body of a PDU and of an element: a number, a criticality, an open type. -/
def triple (r : Range) : Ty := .seq false (.cons false (.int r) (.cons false (.enum 3 3 false) (.cons false .any .nil)))

theorem seq_nil (e : Enc) : e +++ eNil = e := by
  funext off
  unfold Enc.seq eNil
  cases e off <;> simp

theorem nil_seq (e : Enc) : eNil +++ e = e := by
  funext off
  unfold Enc.seq eNil
  simp only [List.length_nil, Nat.add_zero, List.nil_append]
  cases e off <;> rfl

theorem triple_enc (r : Range) (n : Int) (c : Nat) (bs : Bytes) (hc : c < 3) :
    enc (triple r) (.seq [some (.int n), some (.enum c), some (.octets bs)]) =
      eInt r n +++ (eCons 3 c +++ eOctets bs) := by
  have h1 : eEnum 3 3 false c = eCons 3 c := by unfold eEnum; simp [hc]
  have h2 : eRaw [] = eNil := rfl
  simp only [triple, enc, encFields, optBits, h1, seq_nil, h2, nil_seq, if_neg Bool.false_ne_true]

theorem eInt_small {ub : Nat} {n : Nat} (h : n ≤ ub) : eInt ⟨0, ub, false⟩ (n : Int) = eCons (ub + 1) n := by
  unfold eInt
  rw [if_neg (by simp only; omega)]
  simp only [if_neg Bool.false_ne_true]
  congr 1 <;> omega

/-- Limits of a wire element. -/
def Ok (ie : Ie) : Prop := ie.id < 65536 ∧ ie.crit < 3 ∧ ie.value.length < 16384

theorem octs_ie {ie : Ie} (h : Ok ie) : Octs (enc (triple ⟨0, 65535, false⟩) ie.toVal) (ieOctets ie) := by
  obtain ⟨hi, hc, hv⟩ := h
  unfold Ie.toVal
  rw [triple_enc _ _ _ _ hc, show (65535 : Int) = ((65535 : Nat) : Int) from rfl, eInt_small (by omega)]
  have h1 : Octs (eCons (65535 + 1) ie.id) (be16 ie.id) := by
    unfold eCons eSmall
    rw [if_neg (by omega), if_pos (by decide), if_neg (by omega), if_neg (by decide), if_neg (by decide), if_neg (by decide)]
    exact align_seq (octs_nat16 hi)
  have := h1.seq (octs_critVal hc hv)
  unfold ieOctets
  simpa using this

theorem octs_list {l : List Ie} (h : ∀ ie ∈ l, Ok ie) :
    Octs (eList (enc (triple ⟨0, 65535, false⟩)) (l.map Ie.toVal)) (l.flatMap ieOctets) := by
  induction l with
  | nil => exact octs_nil
  | cons ie l ih =>
    simp only [List.map_cons, eList, List.flatMap_cons]
    exact (octs_ie (h ie List.mem_cons_self)).seq (ih fun x hx => h x (List.mem_cons_of_mem _ hx))

/-- The type of the elements of a message. -/
def containerTy : Ty := .seq true (.cons false (.seqOf (some ⟨0, 65535, false⟩) (triple ⟨0, 65535, false⟩)) .nil)

theorem complete_octs {e : Enc} {bs : Bytes} (h : Octs e bs) (hb : bs ≠ []) : complete e = some bs := by
  unfold complete
  rw [h 0 rfl]
  cases bs with
  | nil => exact absurd rfl hb
  | cons b bs =>
    have : octetsBits (b :: bs) ≠ [] := by
      intro h0
      have := octetsBits_length (b :: bs)
      rw [h0] at this
      simp at this
    cases hx : octetsBits (b :: bs) with
    | nil => exact absurd hx this
    | cons x xs => rw [← hx]; simp [toOctets_octetsBits]

theorem encode_containerTy {l : List Ie} (hn : l.length < 65536) (h : ∀ ie ∈ l, Ok ie) :
    encode containerTy (container l) = some (containerOctets l) := by
  unfold encode
  refine complete_octs ?_ (by simp [containerOctets])
  unfold containerTy container
  have h2 : eRaw [] = eNil := rfl
  simp only [enc, encFields, optBits, seq_nil, h2, nil_seq, if_true, List.length_map, eCount, eSize,
    if_neg Bool.false_ne_true]
  rw [if_neg (by omega), if_neg (by decide), if_pos (by decide)]
  unfold eCons eSmall
  rw [if_neg (by omega), if_pos (by decide), if_neg (by omega), if_neg (by decide), if_neg (by decide), if_neg (by decide)]
  rw [seq_assoc]
  have he : ∀ off, eBit false off = some [false] := fun off => rfl
  have := partial_octets (x := 0) he (by decide) (by decide) (by decide) _ ((octs_nat16 (n := l.length - 0) (by omega)).seq (octs_list h))
  unfold containerOctets
  simpa using this

/-- Every message has this type. -/
def isPlain : Ty → Bool
  | .seq true (.cons false (.seqOf (some ⟨0, 65535, false⟩) (.seq false (.cons false (.int ⟨0, 65535, false⟩)
      (.cons false (.enum 3 3 false) (.cons false .any .nil))))) .nil) => true
  | _ => false

theorem isPlain_sound {t : Ty} (h : isPlain t = true) : t = containerTy := by
  unfold isPlain at h
  split at h
  · rfl
  · cases h

theorem tables_plain : Spec.tables.all (fun m => isPlain m.ty) = true := by decide +kernel

theorem encode_container {m : MsgDef} (hm : m ∈ Spec.tables) {l : List Ie} (hn : l.length < 65536) (h : ∀ ie ∈ l, Ok ie) :
    encode m.ty (container l) = some (containerOctets l) := by
  rw [isPlain_sound (List.all_eq_true.1 tables_plain m hm)]
  exact encode_containerTy hn h

/-- The PDU type with `root` alternatives. -/
def pduTy (root : Fields) : Ty := .choice true root .nil

/-- The value of a PDU. -/
def pduVal (direction code crit : Nat) (value : Bytes) : Val :=
  .choice (direction - 1) (.seq [some (.int code), some (.enum crit), some (.octets value)])

theorem octs_pdu {root : Fields} {direction code crit : Nat} {value : Bytes}
    (hr : root.length = 3 ∨ root.length = 4) (hd : direction - 1 < root.length)
    (ha : ∀ v, encAlt root (direction - 1) v = enc (triple ⟨0, 255, false⟩) v)
    (hc : code < 256) (hk : crit < 3) (hv : value.length < 16384) :
    Octs (enc (pduTy root) (pduVal direction code crit value)) (pduOctets direction code crit value) := by
  unfold pduTy pduVal
  simp only [enc, if_pos hd, if_true, ha]
  rw [triple_enc _ _ _ _ hk, show (255 : Int) = ((255 : Nat) : Int) from rfl, eInt_small (by omega)]
  have he : ∀ off, (eBit false +++ eCons root.length (direction - 1)) off = some (false :: natBits 2 (direction - 1)) := by
    intro off
    refine seq_apply (a := [false]) rfl ?_
    unfold eCons eSmall
    rw [if_neg (by omega), if_pos (by omega), if_neg (by omega), if_neg (by omega), if_pos (by omega)]
    rcases hr with hr | hr
    · rw [hr]; exact eNat_some (w := 2) (by omega) _
    · rw [hr]; exact eNat_some (w := 2) (by omega) _
  have h8 : eCons (255 + 1) code = eAlign +++ eNat 8 code := by
    unfold eCons eSmall
    rw [if_neg (by omega), if_pos (by decide), if_neg (by omega), if_neg (by decide), if_neg (by decide), if_pos (by decide)]
  rw [h8, ← seq_assoc, seq_assoc eAlign]
  refine partial_octets (x := BitVec.ofNat 8 (32 * (direction - 1))) he ?_ (by simp) ?_ _
    ((octs_nat8 hc).seq (octs_critVal hk hv))
  · simp [natBits_length]
  · generalize direction - 1 = d at hd
    have : d = 0 ∨ d = 1 ∨ d = 2 ∨ d = 3 := by omega
    rcases this with rfl | rfl | rfl | rfl <;> decide

/-! ## Long values -/

/-- The encoder writes at least `n` bits. -/
def AtLeast (n : Nat) (e : Enc) : Prop := ∀ off out, e off = some out → n ≤ out.length

theorem AtLeast.left {n : Nat} {e : Enc} (h : AtLeast n e) (f : Enc) : AtLeast n (e +++ f) := by
  intro off out ho
  obtain ⟨a, b, ha, -, rfl⟩ := seq_some.1 ho
  have := h off a ha
  simp; omega

theorem AtLeast.right {n : Nat} {f : Enc} (h : AtLeast n f) (e : Enc) : AtLeast n (e +++ f) := by
  intro off out ho
  obtain ⟨a, b, -, hb, rfl⟩ := seq_some.1 ho
  have := h _ b hb
  simp; omega

theorem atLeast_octets (bs : Bytes) : AtLeast (8 * bs.length) (eOctets bs) := by
  have : ∀ k bs, AtLeast (8 * bs.length) (eFrag k bs) := by
    intro k
    induction k with
    | zero => intro bs off out h; simp [eFrag, eFail] at h
    | succ k ih =>
      intro bs off out h
      unfold eFrag at h
      split at h
      · obtain ⟨a, b, -, hb, rfl⟩ := seq_some.1 h
        simp only [eRaw, Option.some.injEq] at hb
        subst hb
        simp [octetsBits_length]
      · obtain ⟨a, b, -, hb, rfl⟩ := seq_some.1 h
        obtain ⟨a1, b1, -, hb1, rfl⟩ := seq_some.1 hb
        obtain ⟨a2, b2, -, hb2, rfl⟩ := seq_some.1 hb1
        obtain ⟨a3, b3, -, hb3, rfl⟩ := seq_some.1 hb2
        obtain ⟨a4, b4, ha4, hb4, rfl⟩ := seq_some.1 hb3
        simp only [eRaw, Option.some.injEq] at ha4
        subst ha4
        have := ih _ _ _ hb4
        simp only [List.length_drop] at this
        simp only [List.length_append, octetsBits_length, List.length_take]
        omega
  exact this _ bs

theorem atLeast_triple (r : Range) (n : Int) (c : Nat) (bs : Bytes) :
    AtLeast (8 * bs.length) (enc (triple r) (.seq [some (.int n), some (.enum c), some (.octets bs)])) := by
  have h2 : eRaw [] = eNil := rfl
  simp only [triple, enc, encFields, optBits, seq_nil, h2, nil_seq, if_neg Bool.false_ne_true]
  exact ((atLeast_octets bs).right _).right _

theorem atLeast_list {l : List Ie} {ie : Ie} (h : ie ∈ l) :
    AtLeast (8 * ie.value.length) (eList (enc (triple ⟨0, 65535, false⟩)) (l.map Ie.toVal)) := by
  induction l with
  | nil => cases h
  | cons x l ih =>
    simp only [List.map_cons, eList]
    rcases List.mem_cons.1 h with rfl | h
    · exact (atLeast_triple _ _ _ _).left _
    · exact (ih h).right _

theorem complete_atLeast {n : Nat} {e : Enc} (h : AtLeast (8 * n) e) {bs : Bytes} (hb : complete e = some bs) :
    n ≤ bs.length := by
  unfold complete at hb
  cases he : e 0 with
  | none => rw [he] at hb; cases hb
  | some out =>
    rw [he] at hb
    have := h 0 out he
    cases out with
    | nil =>
      simp only [List.length_nil] at this
      omega
    | cons b out =>
      simp only [Option.some.injEq] at hb
      subst hb
      have h2 := toOctets_length (b :: out)
      simp only [List.length_cons] at this h2 ⊢
      omega

theorem containerTy_sane : containerTy.sane = true := by decide

theorem encode_containerTy_any {l : List Ie} (hn : l.length < 65536) (h : ∀ ie ∈ l, ie.id < 65536 ∧ ie.crit < 3) :
    ∃ bs, encode containerTy (container l) = some bs ∧ ∀ ie ∈ l, ie.value.length ≤ bs.length := by
  have hf : Spec.fits containerTy (container l) = true := by
    have hl : (l.map Ie.toVal).all (Spec.fits (triple ⟨0, 65535, false⟩)) = true := by
      clear hn
      induction l with
      | nil => rfl
      | cons ie l ih =>
        have h1 := h ie List.mem_cons_self
        simp only [List.map_cons, List.all_cons, Bool.and_eq_true]
        refine ⟨?_, ih fun x hx => h x (List.mem_cons_of_mem _ hx)⟩
        simp [triple, Ie.toVal, Spec.fits, Spec.fitsFields]
        omega
    simp [containerTy, container, Spec.fits, Spec.fitsFields, hl, Spec.fitsLen]
    omega
  obtain ⟨bs, hb, -⟩ := encode_exists containerTy_sane hf
  refine ⟨bs, hb, fun ie hie => ?_⟩
  refine complete_atLeast ?_ hb
  unfold containerTy container
  have h2 : eRaw [] = eNil := rfl
  simp only [enc, encFields, optBits, seq_nil, h2, nil_seq, if_true]
  exact ((atLeast_list hie).right _).right _

theorem mem_flatMap_length {l : List Ie} {ie : Ie} (h : ie ∈ l) :
    ie.value.length + 4 ≤ (l.flatMap ieOctets).length := by
  induction l with
  | nil => cases h
  | cons x l ih =>
    simp only [List.flatMap_cons, List.length_append]
    rcases List.mem_cons.1 h with rfl | h
    · have : 1 ≤ (lenOctets ie.value.length).length := by unfold lenOctets; split <;> simp
      simp [ieOctets, be16]
      omega
    · have := ih h
      omega

/-- The exact encoding, as long as it fits into `room` octets; otherwise there are more than that. -/
theorem encode_container_room {m : MsgDef} (hm : m ∈ Spec.tables) {l : List Ie} (hn : l.length < 65536)
    (h : ∀ ie ∈ l, ie.id < 65536 ∧ ie.crit < 3) :
    ∃ bs, encode m.ty (container l) = some bs ∧
      ((containerOctets l).length < 16384 → bs = containerOctets l) ∧
      (16384 ≤ (containerOctets l).length → 16384 ≤ bs.length) := by
  rw [isPlain_sound (List.all_eq_true.1 tables_plain m hm)]
  by_cases hv : ∀ ie ∈ l, ie.value.length < 16384
  · refine ⟨_, encode_containerTy hn fun ie hie => ⟨(h ie hie).1, (h ie hie).2, hv ie hie⟩, fun _ => rfl, fun h => h⟩
  · obtain ⟨bs, hb, hbl⟩ := encode_containerTy_any hn h
    obtain ⟨ie, hie, hlen⟩ : ∃ ie ∈ l, ¬ ie.value.length < 16384 := by
      refine Classical.byContradiction fun hn => hv fun ie hie => ?_
      exact Classical.byContradiction fun h => hn ⟨ie, hie, h⟩
    have h1 := hbl ie hie
    have h2 := mem_flatMap_length hie
    refine ⟨bs, hb, fun hc => ?_, fun _ => by omega⟩
    simp only [containerOctets, be16, List.length_append, List.length_cons, List.length_nil] at hc
    omega

theorem encode_pdu_room {root : Fields} {direction code crit : Nat} {value : Bytes}
    (hr : root.length = 3 ∨ root.length = 4) (hd : direction - 1 < root.length)
    (ha : ∀ v, encAlt root (direction - 1) v = enc (triple ⟨0, 255, false⟩) v)
    (hf : ∀ v, Spec.fitsAlt root (direction - 1) v = Spec.fits (triple ⟨0, 255, false⟩) v)
    (hs : (pduTy root).sane = true)
    (hc : code < 256) (hk : crit < 3) :
    ∃ bs, encode (pduTy root) (pduVal direction code crit value) = some bs ∧
      (value.length < 16384 → bs = pduOctets direction code crit value) ∧ value.length ≤ bs.length := by
  have hfit : Spec.fits (pduTy root) (pduVal direction code crit value) = true := by
    unfold pduTy pduVal
    simp only [Spec.fits, if_pos hd, hf]
    simp [triple, Spec.fits, Spec.fitsFields]
    omega
  obtain ⟨bs, hb, -⟩ := encode_exists hs hfit
  refine ⟨bs, hb, fun hv => ?_, ?_⟩
  · have := complete_octs (octs_pdu hr hd ha hc hk hv) (by simp [pduOctets])
    unfold encode at hb
    rw [this] at hb
    exact (Option.some.inj hb).symm
  · refine complete_atLeast ?_ hb
    unfold pduTy pduVal
    simp only [enc, if_pos hd, if_true, ha]
    exact ((atLeast_triple _ _ _ _).right _).right _

end Verif.Wire
