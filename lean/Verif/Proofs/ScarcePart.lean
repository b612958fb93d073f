import Verif.Proofs.ScarceRab
import Verif.Proofs.AperFits
import Verif.Spec.Part

/-!
# What becomes of a RAB's parameters when memory runs out
-/

namespace Verif.Scarce
open Verif.Aper Verif.Ie Verif.Factory Verif.Addr Verif.Factory.Spec

/-! ## Parts -/

/-- Components, each of which is a part or absent. -/
inductive Fewer : List (Option Val) → List (Option Val) → Prop where
  | nil : Fewer [] []
  | absent {vs vs' : List (Option Val)} (o : Option Val) : Fewer vs vs' → Fewer (none :: vs) (o :: vs')
  | part {vs vs' : List (Option Val)} {v v' : Val} : Part v v' → Fewer vs vs' → Fewer (some v :: vs) (some v' :: vs')

theorem Fewer.refl (vs : List (Option Val)) : Fewer vs vs := by
  induction vs with
  | nil => exact .nil
  | cons o vs ih => cases o with
    | none => exact .absent _ ih
    | some v => exact .part (.same v) ih

theorem Fewer.toPart {vs vs' : List (Option Val)} (h : Fewer vs vs') : ∀ l, Part (.seq (l ++ vs)) (.seq (l ++ vs')) := by
  induction h with
  | nil => exact fun l => .same _
  | @absent vs vs' o h ih =>
    intro l
    have : Part (.seq (l ++ none :: vs)) (.seq (l ++ none :: vs')) := by
      have := ih (l ++ [none])
      rwa [List.append_assoc, List.append_assoc] at this
    cases o with
    | none => exact this
    | some v => exact this.trans (.absent l vs' v)
  | @part vs vs' v v' hv h ih =>
    intro l
    have : Part (.seq (l ++ some v :: vs)) (.seq (l ++ some v :: vs')) := by simpa using ih (l ++ [some v])
    exact this.trans (.component l vs' hv)

theorem Fewer.seq {vs vs' : List (Option Val)} (h : Fewer vs vs') : Part (.seq vs) (.seq vs') := h.toPart []

/-- Elements, some of which are left out, each of which is a part. -/
inductive Less : List Val → List Val → Prop where
  | nil : Less [] []
  | skip {vs vs' : List Val} (v : Val) : Less vs vs' → Less vs (v :: vs')
  | part {vs vs' : List Val} {v v' : Val} : Part v v' → Less vs vs' → Less (v :: vs) (v' :: vs')

theorem Less.toPart {vs vs' : List Val} (h : Less vs vs') : ∀ l, Part (.list (l ++ vs)) (.list (l ++ vs')) := by
  induction h with
  | nil => exact fun l => .same _
  | @skip vs vs' v h ih => exact fun l => (ih l).trans (.without l vs' v)
  | @part vs vs' v v' hv h ih =>
    intro l
    have : Part (.list (l ++ v :: vs)) (.list (l ++ v :: vs')) := by simpa using ih (l ++ [v])
    exact this.trans (.element l vs' hv)

theorem Less.list {vs vs' : List Val} (h : Less vs vs') : Part (.list vs) (.list vs') := h.toPart []

theorem Less.empty (vs : List Val) : Less [] vs := by
  induction vs with
  | nil => exact .nil
  | cons v vs ih => exact .skip v ih

theorem Less.snoc {vs vs' : List Val} {v v' : Val} (h : Less vs vs') (hv : Part v v') : Less (vs ++ [v]) (vs' ++ [v']) := by
  induction h with
  | nil => exact .part hv .nil
  | skip u h ih => exact .skip u ih
  | part hu h ih => exact .part hu ih

theorem Less.more {vs vs' : List Val} (h : Less vs vs') (v : Val) : Less vs (vs' ++ [v]) := by
  induction h with
  | nil => exact .skip v .nil
  | skip u h ih => exact .skip u ih
  | part hu h ih => exact .part hu ih

/-! ## A part takes no more room -/

theorem sumOf_append (f : Val → Nat) (l r : List Val) : sumOf f (l ++ r) = sumOf f l + sumOf f r := by
  induction l with
  | nil => simp [sumOf]
  | cons v l ih => simp only [List.cons_append, sumOf, ih]; omega

theorem maxFields_le (l : List (Option Val)) (r r' : List (Option Val)) (h : ∀ fs, maxFields fs r ≤ maxFields fs r') :
    ∀ fs, maxFields fs (l ++ r) ≤ maxFields fs (l ++ r') := by
  induction l with
  | nil => exact h
  | cons o l ih =>
    intro fs
    cases fs with
    | nil => cases o <;> simp [maxFields]
    | cons opt t fs =>
      have := ih fs
      cases o <;> simp only [List.cons_append, maxFields] <;> omega

theorem maxBits_part {v v' : Val} (h : Part v v') : ∀ t, maxBits t v ≤ maxBits t v' := by
  induction h with
  | same v => exact fun t => Nat.le_refl _
  | noBits b =>
    intro t
    cases t <;> simp [maxBits]
  | noOctets b =>
    intro t
    cases t <;> simp [maxBits, octBits] <;> omega
  | without l r v =>
    intro t
    cases t <;> simp only [maxBits, Nat.le_refl, sumOf_append, sumOf] <;> omega
  | element l r h ih =>
    intro t
    cases t with
    | seqOf s t =>
      have := ih t
      simp only [maxBits, sumOf_append, sumOf]
      omega
    | _ => simp [maxBits]
  | absent l r v =>
    intro t
    cases t with
    | seq e fs =>
      have := maxFields_le l (none :: r) (some v :: r) (by
        intro fs
        cases fs <;> simp [maxFields]) fs
      simp only [maxBits, List.length_append, List.length_cons]
      omega
    | _ => simp [maxBits]
  | @component l r v v' h ih =>
    intro t
    cases t with
    | seq e fs =>
      have := maxFields_le l (some v :: r) (some v' :: r) (by
        intro fs
        cases fs with
        | nil => simp [maxFields]
        | cons opt t fs =>
          have := ih t
          simp only [maxFields]
          omega) fs
      simp only [maxBits, List.length_append, List.length_cons]
      omega
    | _ => simp [maxBits]
  | trans h1 h2 ih1 ih2 => exact fun t => Nat.le_trans (ih1 t) (ih2 t)

/-! ## What the functions make -/

/-- A list with the elements of another, some of them left out. -/
def Lst (vs : List Val) (g : Option (List Val × Nat)) : Prop := ∀ g' ∈ g, Less g'.1 vs

theorem yields_newList (w : World) : Yields (liftM (newListW w) : P _) (Lst []) := by
  refine .lift fun n => ?_
  rcases newListW_cases w n with h | ⟨size, h⟩
  · rw [h]; nofun
  · rw [h]
    rintro _ ⟨⟩
    exact .nil

theorem less_add (w : World) {vs : List Val} {v v' : Val} {g : List Val × Nat} (h : Less g.1 vs) (hv : Part v v') (n : Nat) :
    Less (addW w g v n).1.1 (vs ++ [v']) := by
  rcases addW_cases w g v n with e | e
  · rw [e]; exact h.more v'
  · rw [e]; exact h.snoc hv

theorem yields_add (w : World) {vs : List Val} {v v' : Val} {g : List Val × Nat} (h : Less g.1 vs) (hv : Part v v') :
    Yields (liftM (addW w g v) : P _) fun g' => Less g'.1 (vs ++ [v']) :=
  .lift fun n => less_add w h hv n

theorem yields_addTo (w : World) {vs : List Val} {v v' : Val} {g : Option (List Val × Nat)} (h : Lst vs g) (hv : Part v v') :
    Yields (liftM (addToW w g v) : P _) (Lst (vs ++ [v'])) := by
  refine .lift fun n => ?_
  cases g with
  | none => nofun
  | some g =>
    rw [addToW_some]
    rintro _ ⟨⟩
    exact less_add w (h g rfl) hv n

theorem Fewer.asVal {vs : List Val} {g : Option (List Val × Nat)} (h : Lst vs g) {os os' : List (Option Val)} (ht : Fewer os os') :
    Fewer (asVal g :: os) (some (.list vs) :: os') := by
  cases g with
  | none => exact .absent _ ht
  | some g => exact .part (h g rfl).list ht

theorem Fewer.same {os os' : List (Option Val)} (o : Option Val) (ht : Fewer os os') : Fewer (o :: os) (o :: os') := by
  cases o with
  | none => exact .absent _ ht
  | some v => exact .part (.same v) ht

theorem yields_long (w : World) (v : Int) : Yields (longW w v) fun x => x = .int v := yields_of_need w rfl

theorem yields_format (w : World) (s : Int) : Yields (formatInfoParsW w s) fun v => v = formatInfoPars s :=
  (yields_need w).bind fun _ _ => yields_of_need w rfl

theorem yields_sduVoice (w : World) (ratio : Option (Int × Int)) (residual : Int × Int) (e : Nat) (s1 s2 : Int) :
    Yields (sduParVoiceW w ratio residual e s1 s2) fun v => Part v
      (.seq [ratio.map fun r => sduErrorRatio r.1 r.2, some (.seq [some (.int residual.1), some (.int residual.2), none]),
        some (.enum e), some (.list [formatInfoPars s1, formatInfoPars s2]), none]) := by
  refine (yields_need w).bind fun _ _ => (yields_newList w).bind ?_
  intro g hg
  have tail : ∀ err : Option Val, Yields (do
      let fmti ← formatInfoParsW w s1
      let fmtip ← addToW w g fmti
      let fmti ← formatInfoParsW w s2
      let fmtip ← addToW w fmtip fmti
      return Val.seq [err, some (.seq [some (.int residual.1), some (.int residual.2), none]), some (.enum e), asVal fmtip, none])
      fun v => Part v (.seq [err, some (.seq [some (.int residual.1), some (.int residual.2), none]),
        some (.enum e), some (.list [formatInfoPars s1, formatInfoPars s2]), none]) := by
    intro err
    refine (yields_format w s1).bind ?_
    rintro _ rfl
    refine (yields_addTo w hg (.same _)).bind fun g1 hg1 => (yields_format w s2).bind ?_
    rintro _ rfl
    refine (yields_addTo w hg1 (.same _)).bind fun g2 hg2 => .pure ?_
    exact Fewer.seq (.same _ (.same _ (.same _ (.asVal hg2 (.refl _)))))
  cases ratio with
  | none => exact tail none
  | some r =>
    dsimp only
    refine Yields.bind (Q := fun v => v = sduErrorRatio r.1 r.2) (yields_of_need w rfl) ?_
    rintro _ rfl
    exact tail (some _)

theorem yields_sduData (w : World) : Yields (sduParDataW w) fun v => v = sduParData := by
  refine (yields_need w).bind fun _ _ => (yields_newList w).bind fun _ _ =>
    Yields.bind (Q := fun v => v = sduErrorRatio 1 4) (yields_of_need w rfl) ?_
  rintro _ rfl
  exact .pure rfl

theorem yields_parVoice (w : World) (guaranteed max : Int) :
    Yields (rabParVoiceW w guaranteed max) fun v => Part v (rabParVoice guaranteed max) := by
  refine (yields_need w).bind fun _ _ => (yields_long w max).bind ?_
  rintro _ rfl
  refine (yields_add w (vs := []) .nil (.same _)).bind fun mb hmb => (yields_newList w).bind fun g hg =>
    (yields_long w guaranteed).bind ?_
  rintro _ rfl
  refine (yields_addTo w hg (.same _)).bind fun g hg => ?_
  refine (yields_sduVoice w (some (1, 5)) (1, 6) 0 81 39).bind fun f0 h0 => (yields_add w (vs := []) .nil h0).bind fun l hl => ?_
  refine (yields_sduVoice w none (1, 3) 2 103 0).bind fun f1 h1 => (yields_add w hl h1).bind fun l hl => ?_
  refine (yields_sduVoice w none (5, 3) 2 60 0).bind fun f2 h2 => (yields_add w hl h2).bind fun l hl => ?_
  refine (yields_long w 80).bind ?_
  rintro _ rfl
  refine Yields.bind (Q := fun v => v = allocRetPrio 15 false true false) (yields_of_need w rfl) ?_
  rintro _ rfl
  refine (yields_need w).bind fun _ _ => .pure ?_
  exact Fewer.seq (.same _ (.same _ (.part hmb.list (.asVal hg (.same _ (.same _ (.part hl.list (.refl _))))))))

/-- The value of the extension. -/
def extValue : Bytes := match encode Gen.Ranap.RANAP_RAB_Parameter_ExtendedMaxBitrateList (.list [.int 42000000]) with
  | some b => b
  | none => []

theorem encode_none_rates : encode Gen.Ranap.RANAP_RAB_Parameter_ExtendedMaxBitrateList (.list []) = none := by
  with_unfolding_all rfl

theorem yields_extension (w : World) (lax : Bool) :
    Yields (extensionW w lax) fun o => ∀ v ∈ o, Part v (.octets extValue) := by
  have hempty : ∀ v ∈ (if lax then some (.octets []) else none : Option Val), Part v (.octets extValue) := by
    cases lax
    · nofun
    · rintro _ ⟨⟩; exact .noOctets _
  refine (yields_newList w).bind fun g hg => (yields_need w).bind fun _ _ => (yields_addTo w hg (.same _)).bind fun g hg => ?_
  cases g with
  | none => exact .pure hempty
  | some g =>
    have h1 : g.1 = [] ∨ g.1 = [.int 42000000] := by
      have := hg g rfl
      generalize g.1 = l at this
      have hl : Less l [.int 42000000] := this
      cases hl with
      | skip v h => cases h; exact .inl rfl
      | part hv h =>
        cases h
        right
        have : ∀ {a b : Val}, Part a b → b = .int 42000000 → a = .int 42000000 := by
          intro a b h
          induction h with
          | same => exact id
          | trans h1 h2 i1 i2 => exact fun e => i1 (i2 e)
          | _ => nofun
        rw [this hv rfl]
    dsimp only
    rcases h1 with h1 | h1
    · rw [h1, encode_none_rates]
      exact .pure hempty
    · rw [h1]
      cases he : encode Gen.Ranap.RANAP_RAB_Parameter_ExtendedMaxBitrateList (.list [.int 42000000]) with
      | none => exact .pure hempty
      | some b =>
        refine Yields.bind (Q := fun _ => True) (.lift fun _ => trivial) fun ok _ => ?_
        cases ok with
        | false => exact .pure hempty
        | true =>
          refine .pure ?_
          rintro _ ⟨⟩
          have : extValue = b := by unfold extValue; rw [he]
          rw [this]
          exact .same _

theorem yields_parData (w : World) (lax : Bool) (dl ul : Int) :
    Yields (rabParDataW w lax dl ul) fun v => Part v (rabParData dl ul) := by
  refine (yields_need w).bind fun _ _ => (yields_long w dl).bind ?_
  rintro _ rfl
  refine (yields_add w (vs := []) .nil (.same _)).bind fun mb hmb => (yields_long w ul).bind ?_
  rintro _ rfl
  refine (yields_add w hmb (.same _)).bind fun mb hmb => (yields_sduData w).bind ?_
  rintro _ rfl
  refine (yields_add w (vs := []) .nil (.same _)).bind fun l hl => ?_
  refine Yields.bind (Q := fun v => v = allocRetPrio 15 false false false) (yields_of_need w rfl) ?_
  rintro _ rfl
  refine (yields_need w).bind fun _ _ => (yields_extension w lax).bind fun o ho => (yields_newList w).bind fun e he => ?_
  have hfield : Part (.seq [some (.int idRAB_Parameter_ExtendedMaxBitrateList), some (.enum ignore), o])
      (.seq [some (.int idRAB_Parameter_ExtendedMaxBitrateList), some (.enum ignore), some (.octets extValue)]) := by
    refine Fewer.seq (.same _ (.same _ ?_))
    cases o with
    | none => exact .absent _ .nil
    | some v => exact .part (ho v rfl) .nil
  refine (yields_addTo w he hfield).bind fun e he => .pure ?_
  exact Fewer.seq (.same _ (.same _ (.part hmb.list (.same _ (.same _ (.same _ (.part hl.list (.same _ (.same _ (.same _ (.same _
    (.same _ (.asVal he .nil)))))))))))))

theorem yields_upi (w : World) (mode : Nat) (versions : BitVec 16) : Yields (upiW w mode versions) fun v => v = upi mode versions :=
  (yields_need w).bind fun _ _ => yields_of_need w rfl

theorem yields_rabId (w : World) (id : Byte) : Yields (rabIdW w id) fun v => v = rabId id := yields_of_need w rfl

theorem yields_nas (w : World) (val : Nat) :
    Yields (liftM (nasSyncIndW w val) : P _) fun o => o = none ∨ o = some (.bits []) ∨ o = some (nasSyncInd val) := by
  refine .lift fun n => ?_
  unfold nasSyncIndW
  rw [attempt_bind]
  cases w n .part
  · exact .inl rfl
  · simp only [if_true]
    rw [attempt_bind]
    cases w (n + 1) .string
    · exact .inr (.inl rfl)
    · exact .inr (.inr rfl)

theorem yields_string (w : World) (b : Bytes) : Yields (liftM (stringW w b) : P _) fun b' => b' = [] ∨ b' = b := by
  refine .lift fun n => ?_
  unfold stringW
  rw [attempt_bind]
  cases w n .string
  · exact .inl rfl
  · exact .inr rfl

theorem yields_layer (w : World) (tli : Bool) (addr : SockAddr) (x213 : Bool) :
    Yields (transpLayerAddrW w tli addr x213) fun o => o = newTranspLayerAddr addr x213 := by
  unfold transpLayerAddrW
  cases newTranspLayerAddr addr x213 with
  | none => exact .pure rfl
  | some a =>
    refine (yields_need w).bind fun _ _ => ?_
    cases tli with
    | false => exact fun n => rfl
    | true => exact fun n => rfl

theorem yields_rtp (w : World) (ip : Vector Byte 4) (port : BitVec 16) (x213 : Bool) {a : BitStr}
    (ha : newTranspLayerAddr (.inet ip port) x213 = some a) :
    Yields (transpInfoRtpW w (.inet ip port) x213) fun o => o = some ⟨a, .bindingId []⟩ ∨
      o = some ⟨a, .bindingId (store16be port ++ [0, 0])⟩ := by
  unfold transpInfoRtpW
  dsimp only [SockAddr.port?]
  refine Yields.bind (Q := fun _ => True) (.lift fun _ => trivial) fun tli _ => (yields_layer w tli _ _).bind ?_
  rintro _ rfl
  rw [ha]
  refine (yields_string w _).bind ?_
  rintro b (rfl | rfl)
  · exact .pure (.inl rfl)
  · exact .pure (.inr rfl)

theorem yields_gtp (w : World) (ip : Vector Byte 4) (tei : BitVec 32) (x213 : Bool) {a : BitStr}
    (ha : newTranspLayerAddr (.inet ip 0) x213 = some a) :
    Yields (transpInfoGtpW w (.inet ip 0) tei x213) fun o => o = some ⟨a, .gtpTei []⟩ ∨ o = some ⟨a, .gtpTei (store32be tei)⟩ := by
  unfold transpInfoGtpW
  refine Yields.bind (Q := fun _ => True) (.lift fun _ => trivial) fun tli _ => (yields_layer w tli _ _).bind ?_
  rintro _ rfl
  rw [ha]
  refine (yields_string w _).bind ?_
  rintro b (rfl | rfl)
  · exact .pure (.inl rfl)
  · exact .pure (.inr rfl)

end Verif.Scarce
