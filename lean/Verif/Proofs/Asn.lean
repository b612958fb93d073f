import Verif.Spec.Asn
import Verif.Proofs.Wire
import Verif.Proofs.AperNeeds

/-!
# Messages and lists of the specifications, read by the types of the C code
-/

namespace Verif.Asn
open Verif.Aper Verif.Ie Verif.Wire

theorem fieldVal_toVal : fieldVal = Ie.toVal := rfl

theorem fields_ok : fields.ok = true := by decide

/-- Encoding a container begins with alignment. -/
theorem enc_fields (vs : List Val) : enc fields (.list vs) = eAlign +++ enc fields (.list vs) := by
  simp only [fields, enc, eCount, eSize, if_neg Bool.false_ne_true]
  by_cases h : vs.length < 0 ∨ 65535 < vs.length
  · rw [if_pos h]
    funext off
    simp [Enc.seq, eFail, eAlign]
  · rw [if_neg h, if_neg (by decide), if_pos (by decide)]
    have : eCons (65535 - 0 + 1) (vs.length - 0) = eAlign +++ eNat 16 vs.length := by
      unfold eCons eSmall
      rw [if_neg (by omega), if_pos (by decide), if_neg (by omega), if_neg (by decide), if_neg (by decide),
        if_neg (by decide)]
      rfl
    rw [this, seq_assoc, align_idem]

/-- So does decoding one. -/
theorem dec_fields (off : Nat) (pad : Bits) (hp : pad.length = padLen off) (bits : Bits) :
    dec fields ⟨off, pad ++ bits⟩ = dec fields ⟨off + pad.length, bits⟩ := by
  have h8 : (off + padLen off) % 8 = 0 := by unfold padLen; omega
  have ha : dAlign ⟨off, pad ++ bits⟩ = dAlign ⟨off + pad.length, bits⟩ := by
    unfold dAlign dTake
    dsimp only
    rw [← hp, splitN_append, show padLen (off + pad.length) = 0 by rw [hp]; exact padLen_zero h8]
    rfl
  have hc : dCount (some ⟨0, 65535, false⟩) ⟨off, pad ++ bits⟩ = dCount (some ⟨0, 65535, false⟩) ⟨off + pad.length, bits⟩ := by
    simp only [dCount, if_neg Bool.false_ne_true, dSize]
    rw [if_neg (by decide), if_pos (by decide)]
    have hd : dCons (65535 - 0 + 1) = (do dAlign; dNat 16) := by
      unfold dCons dSmall
      rw [if_pos (by decide), if_neg (by decide), if_neg (by decide), if_neg (by decide)]
    rw [hd]
    simp only [bind_apply, pure_apply, ha, Bool.false_eq_true, if_false]
  simp only [fields, dec, bind_apply, hc]

/-- A container after something that ends within an octet. -/
theorem fields_after {vs : List Val} {off : Nat} {out : Bits} (h : enc fields (.list vs) off = some out) :
    ∃ b, out = List.replicate (padLen off) false ++ b ∧ ∀ rest,
      dec fields ⟨off + padLen off, b ++ rest⟩ = some (.list vs, ⟨off + padLen off + b.length, rest⟩) := by
  rw [enc_fields] at h
  obtain ⟨a, b, ha, hb, rfl⟩ := seq_some.1 h
  cases ha
  rw [List.length_replicate] at hb
  exact ⟨b, rfl, fun rest => enc_dec fields _ fields_ok _ _ hb rest⟩

/-- What the C type reads: one bit, seven bits of padding, a container, and (if the first bit was set) what it takes for
extension additions. -/
theorem dec_container (x : Bool) (pad : Bits) (hp : pad.length = 7) (bits : Bits) :
    dec containerTy ⟨0, x :: (pad ++ bits)⟩ = match dec fields ⟨8, bits⟩ with
      | none => none
      | some (v, j) => if x then match dSkipExt j with
          | none => none
          | some (_, j) => some (.seq [some v], j)
        else some (.seq [some v], j) := by
  have h1 : dBit ⟨0, x :: (pad ++ bits)⟩ = some (x, ⟨1, pad ++ bits⟩) := by
    have := rt_bit x 0 [x] (by cases x <;> rfl) (pad ++ bits)
    simpa using this
  have h2 : dec fields ⟨1, pad ++ bits⟩ = dec fields ⟨8, bits⟩ := by
    have := dec_fields 1 pad (by rw [hp]; rfl) bits
    rw [hp] at this
    exact this
  have h3 : ∀ i, dTake 0 i = some ([], i) := fun _ => rfl
  have hf : containerTy = .seq true (.cons false fields .nil) := rfl
  rw [hf]
  simp only [dec, if_true, bind_apply, h1, Fields.numOpt, if_neg Bool.false_ne_true, Nat.add_zero, h3, decFields, h2]
  cases hd : dec fields ⟨8, bits⟩ with
  | none => rfl
  | some p =>
    obtain ⟨v, j⟩ := p
    simp only [pure_apply]
    cases x
    · rfl
    · simp only [if_true, bind_apply]
      cases dSkipExt j <;> rfl

theorem octetsBits_complete {e : Enc} {bs : Bytes} (h : complete e = some bs) :
    ∃ out, e 0 = some out ∧ ∃ pad, octetsBits bs = out ++ pad := by
  unfold complete at h
  split at h
  · cases h
  · next h0 => cases h; exact ⟨[], h0, _, rfl⟩
  · next out _ h0 => cases h; exact ⟨out, h0, octetsBits_toOctets out⟩

/-- A message of the specification, with or without extensions, read by the C type. -/
theorem message_read {ies : List Ie} {ext : Option (List Ie)} {bs : Bytes}
    (h : encode message (messageVal ies ext) = some bs) : decode containerTy bs = some (container ies) := by
  obtain ⟨out, h0, pad, hp⟩ := octetsBits_complete h
  unfold message messageVal at h0
  simp only [enc, if_true, encFields] at h0
  obtain ⟨a, o1, ha, h1, rfl⟩ := seq_some.1 h0
  cases (show some [false] = some a from ha)
  obtain ⟨a, o1, ha, h2, rfl⟩ := seq_some.1 h1
  have ha' : a = [ext.isSome] := by
    cases ha
    cases ext <;> rfl
  subst ha'
  obtain ⟨a, o1, ha, h3, rfl⟩ := seq_some.1 h2
  obtain ⟨b, rfl, hb⟩ := fields_after ha
  unfold decode
  rw [hp]
  have e1 : [false] ++ ([ext.isSome] ++ (List.replicate (padLen (0 + [false].length + [ext.isSome].length)) false ++ b ++ o1)) ++ pad
      = false :: ((ext.isSome :: List.replicate 6 false) ++ (b ++ (o1 ++ pad))) := by
    simp [padLen]
  have hb := hb (o1 ++ pad)
  rw [show 0 + [false].length + [ext.isSome].length + padLen (0 + [false].length + [ext.isSome].length) = 8 from rfl] at hb
  rw [e1, dec_container false _ (by simp), hb]
  rfl

/-- What the library sends is a message of the specification without extensions. -/
theorem message_sent (ies : List Ie) : encode containerTy (container ies) = encode message (messageVal ies none) := by
  have hf : containerTy = .seq true (.cons false fields .nil) := rfl
  have key : enc containerTy (container ies) 0 = enc message (messageVal ies none) 0 := by
    rw [hf]
    unfold message messageVal container
    simp only [enc, if_true, encFields, optBits, Option.map_none, seq_nil, fieldVal_toVal]
    rw [enc_fields]
    generalize enc fields (.list (ies.map Ie.toVal)) = e
    simp only [Enc.seq, eBit, eNat, eRaw, eAlign]
    simp only [padLen, natBits, List.length_cons, List.length_nil, Option.isSome_none]
    simp
    cases e 8 <;> simp
  unfold encode complete
  rw [key]

/-- The number of items in a list of the specification takes one octet. -/
theorem count_octet {max n : Nat} (hm : max = 256 ∨ max = 250) {out : Bits}
    (h : eCount (some ⟨1, max, false⟩) n 0 = some out) : 1 ≤ n ∧ n ≤ 256 ∧ out = natBits 8 (n - 1) := by
  simp only [eCount, if_neg Bool.false_ne_true, eSize] at h
  by_cases hn : n < 1 ∨ max < n
  · rw [if_pos hn] at h; cases h
  · rw [if_neg hn, if_neg (by omega), if_pos (by omega)] at h
    refine ⟨by omega, by omega, ?_⟩
    unfold eCons eSmall at h
    rw [if_neg (by omega), if_pos (by omega), if_neg (by omega), if_neg (by omega)] at h
    rcases hm with rfl | rfl
    · rw [if_neg (by decide), if_pos (by decide)] at h
      obtain ⟨a, b, ha, hb, rfl⟩ := seq_some.1 h
      cases (show some [] = some a from ha)
      unfold eNat at hb
      split at hb
      · cases hb; rfl
      · cases hb
    · rw [if_pos (by decide), show bitsFor (250 - 1 + 1) = 8 by decide] at h
      unfold eNat at h
      split at h
      · cases h; rfl
      · cases h

/-- A list of the specification, read by the C type: the first container, if anything. -/
theorem list_read {max : Nat} (hm : max = 256 ∨ max = 250) {l : List Ie} {ls : List (List Ie)} {bs : Bytes}
    (h : encode (itemList max) (listVal (l :: ls)) = some bs) :
    (ls.length < 128 → decode containerTy bs = some (container l)) ∧
    ∀ w, decode containerTy bs = some w → w = container l := by
  obtain ⟨out, h0, pad, hp⟩ := octetsBits_complete h
  unfold itemList listVal at h0
  simp only [enc, List.map_cons, eList] at h0
  obtain ⟨a, o1, ha, h2, rfl⟩ := seq_some.1 h0
  obtain ⟨h1, h256, rfl⟩ := count_octet hm ha
  simp only [List.length_cons, List.length_map, Nat.add_sub_cancel] at h1 h256 h2 hp
  obtain ⟨a, o2, ha', h3, rfl⟩ := seq_some.1 h2
  rw [natBits_length] at ha'
  obtain ⟨b, hab, hb⟩ := fields_after ha'
  have e1 : natBits 8 ls.length ++ (a ++ o2) ++ pad =
      ls.length.testBit 7 :: (natBits 7 ls.length ++ (b ++ (o2 ++ pad))) := by
    rw [hab]
    simp [padLen, natBits]
  have hb := hb (o2 ++ pad)
  rw [show 0 + 8 + padLen (0 + 8) = 8 from rfl] at hb
  unfold decode
  rw [hp, e1, dec_container _ _ (natBits_length _ _), hb]
  constructor
  · intro hl
    rw [show ls.length.testBit 7 = false from Nat.testBit_lt_two_pow (by omega)]
    rfl
  · intro w hw
    dsimp only at hw
    split at hw
    · cases hw
    · next v j hj =>
      split at hj
      · split at hj
        · cases hj
        · cases hj; cases hw; rfl
      · cases hj; cases hw; rfl

/-- A list of one container is coded as the C type does it. -/
theorem list_one {max : Nat} (hm : max = 256 ∨ max = 250) (l : List Ie) :
    encode (itemList max) (listVal [l]) = encode containerTy (container l) := by
  have hf : containerTy = .seq true (.cons false fields .nil) := rfl
  have key : enc (itemList max) (listVal [l]) 0 = enc containerTy (container l) 0 := by
    rw [hf]
    unfold itemList listVal container
    simp only [enc, if_true, encFields, optBits, seq_nil, fieldVal_toVal, List.map_cons, List.map_nil, eList,
      List.length_cons, List.length_nil]
    have hc : eCount (some ⟨1, max, false⟩) 1 0 = some (List.replicate 8 false) := by
      rcases hm with rfl | rfl <;> decide
    rw [enc_fields]
    generalize enc fields (.list (l.map Ie.toVal)) = e
    simp only [Enc.seq, hc, eBit, eNat, eRaw, eAlign]
    simp only [padLen, natBits, List.length_nil]
    simp
    cases e 8 <;> simp
  unfold encode complete
  rw [key]

end Verif.Asn

namespace Verif.Asn
open Verif.Aper Verif.Ie Verif.Wire

/-! ## A bare container, read as a message -/

theorem needs_field : Needs 26 (dec field) := by
  have h16 : Needs 16 (dCons (65535 + 1)) := by
    unfold dCons dSmall
    rw [if_pos (by decide), if_neg (by decide), if_neg (by decide), if_neg (by decide)]
    exact needs_bind (n := 0) (k := 16) needs_align fun _ => needs_nat 16
  have hi : Needs 16 (dec (.int ⟨0, 65535, false⟩)) := by
    simp only [dec, dInt, Bool.false_eq_true, if_false, pure_bind]
    refine needs_bind (n := 16) (k := 0) ?_ fun _ => needs_pure _
    exact needs_bind (n := 16) (k := 0) h16 fun _ => needs_pure _
  have hc : Needs 2 (dec (.enum 3 3 false)) := by
    simp only [dec, dEnum, Bool.false_eq_true, if_false, pure_bind]
    refine needs_bind (n := 2) (k := 0) ?_ fun _ => needs_pure _
    refine needs_bind (n := 2) (k := 0) ?_ fun n => ?_
    · unfold dCons dSmall
      rw [if_pos (by decide), if_neg (by decide), if_pos (by decide)]
      exact needs_nat 2
    · by_cases h : n < 3
      · rw [if_pos h]; exact needs_pure _
      · rw [if_neg h]; exact needs_fail 0
  have ha : Needs 8 (dec .any) := by
    simp only [dec]
    exact needs_bind (n := 8) (k := 0) (fun i v j h => needs_frag _ i v j h) fun _ => needs_pure _
  unfold field
  rw [dec]
  simp only [Bool.false_eq_true, if_false, pure_bind]
  refine needs_bind (n := 0) (k := 26) (needs_take 0) fun bm => ?_
  refine needs_bind (n := 26) (k := 0) ?_ fun _ => needs_pure _
  simp only [decFields]
  refine needs_bind (n := 16) (k := 10) hi fun _ => needs_bind (n := 10) (k := 0) ?_ fun _ => needs_pure _
  refine needs_bind (n := 2) (k := 8) hc fun _ => needs_bind (n := 8) (k := 0) ?_ fun _ => needs_pure _
  exact needs_bind (n := 8) (k := 0) ha fun _ => needs_bind (n := 0) (k := 0) (needs_pure _) fun _ => needs_pure _

theorem bitsNat_append (a b : Bits) : bitsNat (a ++ b) = bitsNat a * 2 ^ b.length + bitsNat b := by
  have key : ∀ (b : Bits) (x : Nat), b.foldl (fun a b => 2 * a + b.toNat) x = x * 2 ^ b.length + bitsNat b := by
    intro b
    induction b with
    | nil => intro x; simp [bitsNat]
    | cons c b ih =>
      intro x
      have h0 : bitsNat (c :: b) = b.foldl (fun a b => 2 * a + b.toNat) (2 * 0 + c.toNat) := rfl
      rw [List.foldl_cons, ih, h0, ih, List.length_cons, Nat.pow_succ]
      grind
  unfold bitsNat
  rw [List.foldl_append, key]
  rfl

/-- A list count of at least 256 needs more than 800 octets. -/
theorem fields_short {n : Nat} (h1 : 1 ≤ n) (h2 : n < 256) {r : Bits} (hr : r.length ≤ 6400) :
    dec fields ⟨8, natBits 8 n ++ r⟩ = none := by
  cases hd : dec fields ⟨8, natBits 8 n ++ r⟩ with
  | none => rfl
  | some p =>
    exfalso
    obtain ⟨v, j⟩ := p
    simp only [fields, dec, dCount, dSize, Bool.false_eq_true, if_false, pure_bind] at hd
    rw [if_neg (by decide), if_pos (by decide)] at hd
    have hc : dCons (65535 - 0 + 1) = (do dAlign; dNat 16) := by
      unfold dCons dSmall
      rw [if_pos (by decide), if_neg (by decide), if_neg (by decide), if_neg (by decide)]
    have ha : dAlign ⟨8, natBits 8 n ++ r⟩ = some ((), ⟨8, natBits 8 n ++ r⟩) := by
      simp [dAlign, dTake, padLen, splitN]
    rw [hc] at hd
    simp only [bind_apply, ha] at hd
    cases hn : dNat 16 ⟨8, natBits 8 n ++ r⟩ with
    | none => rw [hn] at hd; cases hd
    | some q =>
      obtain ⟨k, m⟩ := q
      rw [hn] at hd
      have hm := needs_nat 16 _ _ _ hn
      have hk : 256 ≤ k := by
        unfold dNat dTake at hn
        dsimp only at hn
        split at hn
        · cases hn
        · next a m' ha' =>
          split at ha'
          · cases ha'
          · next a' r' hs =>
            cases ha'
            cases hn
            have : ∀ (c : Nat) (x y u w : Bits), splitN (x.length + c) (x ++ y) = some (u, w) → ∃ z, u = x ++ z ∧ z.length = c := by
              intro c x y
              induction x with
              | nil =>
                intro u w h
                simp only [List.length_nil, Nat.zero_add, List.nil_append] at h
                refine ⟨u, rfl, ?_⟩
                clear hr
                induction c generalizing y u w with
                | zero => cases h; rfl
                | succ c ih =>
                  cases y with
                  | nil => cases h
                  | cons b y =>
                    unfold splitN at h
                    split at h
                    · cases h
                    · next u' w' h' => cases h; simp [ih _ _ _ h']
              | cons b x ih =>
                intro u w h
                rw [show (b :: x).length + c = (x.length + c) + 1 by simp; omega, List.cons_append] at h
                unfold splitN at h
                split at h
                · cases h
                · next u' w' h' =>
                  cases h
                  obtain ⟨z, rfl, hz⟩ := ih _ _ h'
                  exact ⟨z, rfl, hz⟩
            obtain ⟨z, rfl, hz⟩ := this 8 (natBits 8 n) r _ _ (by rw [natBits_length]; exact hs)
            rw [bitsNat_append, bitsNat_natBits (by omega), hz]
            omega
      dsimp only at hd
      rw [pure_apply] at hd
      dsimp only at hd
      cases hl : dList (dec field) (k + 0) m with
      | none => rw [hl] at hd; cases hd
      | some s =>
        obtain ⟨vs, e⟩ := s
        have := needs_list needs_field _ _ _ _ hl
        rw [List.length_append, natBits_length] at hm
        omega

/-- A bare container of fewer than 256 elements in at most 800 octets does not decode as a message. -/
theorem bare_rejected {l : List Ie} (hl : l.length < 256) {bs : Bytes}
    (h : encode fields (.list (l.map fieldVal)) = some bs) (hb : bs.length ≤ 800) : decode containerTy bs = none := by
  cases l with
  | nil =>
    have : bs = [0, 0] := by
      have h' : encode fields (.list ([].map fieldVal)) = some [0, 0] := by with_unfolding_all rfl
      rw [h'] at h
      exact (Option.some.inj h).symm
    subst this
    with_unfolding_all rfl
  | cons ie l =>
    obtain ⟨out, h0, pad, hp⟩ := octetsBits_complete h
    have hlen := octetsBits_length bs
    simp only [fields, enc, eCount, eSize, Bool.false_eq_true, if_false] at h0
    obtain ⟨a, o1, ha, h1, rfl⟩ := seq_some.1 h0
    rw [if_neg (by simp only [List.length_map]; omega), if_neg (by decide), if_pos (by decide)] at ha
    unfold eCons eSmall at ha
    rw [if_neg (by simp only [List.length_map]; omega), if_pos (by decide), if_neg (by simp only [List.length_map]; omega),
      if_neg (by decide), if_neg (by decide), if_neg (by decide)] at ha
    obtain ⟨x, y, hx, hy, rfl⟩ := seq_some.1 ha
    cases (show some [] = some x from hx)
    rw [List.length_map, Nat.sub_zero, eNat_some (by omega)] at hy
    cases hy
    have e16 : natBits 16 (ie :: l).length = false :: (List.replicate 7 false ++ natBits 8 (ie :: l).length) := by
      rw [show 16 = 8 + 8 from rfl, natBits_add, Nat.div_eq_of_lt hl, Nat.mod_eq_of_lt hl]
      rfl
    unfold decode
    rw [hp] at hlen
    rw [hp, e16]
    have e1 : [] ++ (false :: (List.replicate 7 false ++ natBits 8 (ie :: l).length)) ++ o1 ++ pad =
        false :: (List.replicate 7 false ++ (natBits 8 (ie :: l).length ++ (o1 ++ pad))) := by simp
    rw [e1, dec_container _ _ (by simp), fields_short (by simp) hl]
    simp only [List.length_append] at hlen ⊢
    omega

/-- A count of zero. -/
theorem fields_zero {off : Nat} (ho : off % 8 = 0) (r : Bits) :
    dec fields ⟨off, List.replicate 16 false ++ r⟩ = some (.list [], ⟨off + 16, r⟩) := by
  have he : enc fields (.list []) off = some (List.replicate 16 false) := by
    simp only [fields, enc, eCount, eSize, Bool.false_eq_true, if_false, List.length_nil, eList, seq_nil]
    rw [if_neg (by decide), if_neg (by decide), if_pos (by decide)]
    unfold eCons eSmall
    rw [if_neg (by decide), if_pos (by decide), if_neg (by decide), if_neg (by decide), if_neg (by decide), if_neg (by decide)]
    simp only [Enc.seq, eAlign, padLen_zero ho]
    rfl
  have := enc_dec fields _ fields_ok off _ he r
  simpa using this

/-- The library's encoding, read as a bare container: empty. -/
theorem bare_sent {l : List Ie} (hl : l.length < 256) {bs : Bytes} (h : encode containerTy (container l) = some bs) :
    decode fields bs = some (.list []) := by
  obtain ⟨out, h0, pad, hp⟩ := octetsBits_complete h
  have hf : containerTy = .seq true (.cons false fields .nil) := rfl
  rw [hf] at h0
  unfold container at h0
  simp only [enc, if_true, encFields, optBits, seq_nil] at h0
  obtain ⟨a, o1, ha, h1, rfl⟩ := seq_some.1 h0
  cases (show some [false] = some a from ha)
  obtain ⟨a, o2, ha, h2, rfl⟩ := seq_some.1 h1
  cases (show some [] = some a from ha)
  rw [enc_fields] at h2
  obtain ⟨a, o3, ha, h3, rfl⟩ := seq_some.1 h2
  cases (show some (List.replicate 7 false) = some a from ha)
  simp only [fields, enc] at h3
  obtain ⟨a, o4, ha, h4, rfl⟩ := seq_some.1 h3
  simp only [eCount, eSize, Bool.false_eq_true, if_false] at ha
  rw [if_neg (by simp only [List.length_map]; omega), if_neg (by decide), if_pos (by decide)] at ha
  unfold eCons eSmall at ha
  rw [if_neg (by simp only [List.length_map]; omega), if_pos (by decide), if_neg (by simp only [List.length_map]; omega),
    if_neg (by decide), if_neg (by decide), if_neg (by decide)] at ha
  obtain ⟨x, y, hx, hy, rfl⟩ := seq_some.1 ha
  cases (show some [] = some x from hx)
  rw [List.length_map, Nat.sub_zero, eNat_some (by omega)] at hy
  cases hy
  have e16 : natBits 16 l.length = List.replicate 8 false ++ natBits 8 l.length := by
    rw [show 16 = 8 + 8 from rfl, natBits_add, Nat.div_eq_of_lt hl, Nat.mod_eq_of_lt hl]
    rfl
  unfold decode
  rw [hp, e16]
  have e1 : [false] ++ ([] ++ (List.replicate 7 false ++ ([] ++ (List.replicate 8 false ++ natBits 8 l.length) ++ o4))) ++ pad =
      List.replicate 16 false ++ (natBits 8 l.length ++ o4 ++ pad) := by
    simp [List.replicate]
  rw [e1, fields_zero (by decide)]

/-! ## Private messages -/

/-- A private message with one element, whatever it is, read by the C type: no elements. -/
theorem private_read {t : Ty} {v : Val} {bs : Bytes}
    (h : encode (.seq true (.cons false (.seqOf (some ⟨1, 65535, false⟩) t) .nil)) (.seq [some (.list [v])]) = some bs) :
    decode containerTy bs = some (container []) := by
  obtain ⟨out, h0, pad, hp⟩ := octetsBits_complete h
  simp only [enc, if_true, encFields, optBits, seq_nil, eList] at h0
  obtain ⟨a, o1, ha, h1, rfl⟩ := seq_some.1 h0
  cases (show some [false] = some a from ha)
  obtain ⟨a, o2, ha, h2, rfl⟩ := seq_some.1 h1
  cases (show some [] = some a from ha)
  obtain ⟨a, o3, ha, h3, rfl⟩ := seq_some.1 h2
  have ha' : a = List.replicate 7 false ++ List.replicate 16 false := by
    have : eCount (some ⟨1, 65535, false⟩) [v].length (0 + [false].length + List.length ([] : Bits)) =
        some (List.replicate 7 false ++ List.replicate 16 false) := by
      simp only [List.length_singleton, List.length_nil]
      decide
    rw [this] at ha
    exact (Option.some.inj ha).symm
  subst ha'
  unfold decode
  rw [hp]
  have e1 : [false] ++ ([] ++ (List.replicate 7 false ++ List.replicate 16 false ++ o3)) ++ pad =
      false :: (List.replicate 7 false ++ (List.replicate 16 false ++ (o3 ++ pad))) := by
    simp
  rw [e1, dec_container _ _ (by simp), fields_zero (by decide)]
  rfl

end Verif.Asn
