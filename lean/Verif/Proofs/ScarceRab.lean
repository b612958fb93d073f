import Verif.Model.ScarceRab
import Verif.Proofs.Scarce

/-!
# Lemmas about functions that may end the process
-/

namespace Verif.Scarce
open Verif.Aper Verif.Ie Verif.Factory Verif.Addr

/-- Whatever was tried before, the result is `a`. -/
def Gives {α : Type} (x : P α) (a : α) : Prop := ∀ n, ∃ n', x n = (.ok a, n')

/-- ... for something that does not end the process. -/
def GivesS {α : Type} (x : S α) (a : α) : Prop := ∀ n, ∃ n', x n = (a, n')

theorem pbind_apply {α β : Type} (x : P α) (k : α → P β) (n : Nat) : (x >>= k) n =
    match x n with
    | (.ok a, n') => k a n'
    | (.error f, n') => (.error f, n') := by
  show (ExceptT.bind x k) n = _
  unfold ExceptT.bind ExceptT.mk
  show (StateT.bind x (ExceptT.bindCont k)) n = _
  unfold StateT.bind
  show (match x n with | (a, s') => ExceptT.bindCont k a s') = _
  rcases x n with ⟨_ | _, n'⟩ <;> rfl

theorem lift_apply {α : Type} (x : S α) (n : Nat) : (liftM x : P α) n = (.ok (x n).1, (x n).2) := rfl

theorem Gives.bind {α β : Type} {x : P α} {k : α → P β} {a : α} {b : β} (h1 : Gives x a) (h2 : Gives (k a) b) : Gives (x >>= k) b := by
  intro n
  obtain ⟨n1, e1⟩ := h1 n
  obtain ⟨n2, e2⟩ := h2 n1
  exact ⟨n2, by rw [pbind_apply, e1]; exact e2⟩

theorem Gives.pure {α : Type} (a : α) : Gives (pure a : P α) a := fun n => ⟨n, rfl⟩

theorem GivesS.lift {α : Type} {x : S α} {a : α} (h : GivesS x a) : Gives (liftM x : P α) a := by
  intro n
  obtain ⟨n1, e⟩ := h n
  exact ⟨n1, by rw [lift_apply, e]⟩

variable {w : World}

theorem gives_need (h : ∀ n, w n .part = true) : Gives (need w) () := by
  intro n
  refine ⟨n + 1, ?_⟩
  unfold need
  rw [pbind_apply, lift_apply]
  unfold attempt
  dsimp only
  rw [h n]
  rfl

theorem gives_newList (h : ∀ n, w n .part = true) : GivesS (newListW w) (some ([], 0)) := by
  intro n
  refine ⟨n + 1, ?_⟩
  unfold newListW
  rw [attempt_bind, h n]
  rfl

/-- Adding, with how much room there is afterwards. -/
theorem gives_add (h : ∀ n, w n .parts = true) (l : List Val) (size : Nat) (v : Val) :
    GivesS (addW w (l, size) v) (l ++ [v], if l.length = size then (if size = 0 then 4 else 2 * size) else size) := by
  intro n
  unfold addW
  by_cases hc : l.length = size
  · refine ⟨n + 1, ?_⟩
    simp only [if_pos hc]
    rw [attempt_bind, h n]
    rfl
  · refine ⟨n, ?_⟩
    simp only [if_neg hc]
    rfl

theorem gives_addTo (h : ∀ n, w n .parts = true) (l : List Val) (size : Nat) (v : Val) :
    GivesS (addToW w (some (l, size)) v)
      (some (l ++ [v], if l.length = size then (if size = 0 then 4 else 2 * size) else size)) := by
  intro n
  obtain ⟨n', e⟩ := gives_add h l size v n
  refine ⟨n', ?_⟩
  unfold addToW
  simp only [bind, StateT.bind]
  rw [e]
  rfl

theorem gives_long (h : ∀ n, w n .part = true) (v : Int) : Gives (longW w v) (.int v) := (gives_need h).bind (.pure _)

theorem gives_formatInfo (h : ∀ n, w n .part = true) (v : Int) : Gives (formatInfoParsW w v) (formatInfoPars v) :=
  (gives_need h).bind ((gives_need h).bind (.pure _))

theorem gives_sduVoice (h : ∀ n, w n .part = true) (hl : ∀ n, w n .parts = true) (ratio : Option (Int × Int)) (residual : Int × Int)
    (e : Nat) (s1 s2 : Int) : Gives (sduParVoiceW w ratio residual e s1 s2)
      (.seq [ratio.map fun r => sduErrorRatio r.1 r.2, some (.seq [some (.int residual.1), some (.int residual.2), none]),
        some (.enum e), some (.list [formatInfoPars s1, formatInfoPars s2]), none]) := by
  refine (gives_need h).bind ((gives_newList h).lift.bind ?_)
  have tail : ∀ err : Option Val, Gives (do
      let fmti ← formatInfoParsW w s1
      let fmtip ← addToW w (some ([], 0)) fmti
      let fmti ← formatInfoParsW w s2
      let fmtip ← addToW w fmtip fmti
      return Val.seq [err, some (.seq [some (.int residual.1), some (.int residual.2), none]), some (.enum e), asVal fmtip, none])
      (.seq [err, some (.seq [some (.int residual.1), some (.int residual.2), none]),
        some (.enum e), some (.list [formatInfoPars s1, formatInfoPars s2]), none]) := by
    intro err
    exact (gives_formatInfo h s1).bind ((gives_addTo hl _ _ _).lift.bind ((gives_formatInfo h s2).bind
      ((gives_addTo hl _ _ _).lift.bind (.pure _))))
  cases ratio with
  | none => exact tail none
  | some r => exact ((gives_need h).bind (.pure (sduErrorRatio r.1 r.2))).bind (tail _)

theorem gives_rabParVoice (h : ∀ n, w n .part = true) (hl : ∀ n, w n .parts = true) (g m : Int) :
    Gives (rabParVoiceW w g m) (rabParVoice g m) := by
  unfold rabParVoiceW
  refine (gives_need h).bind ((gives_long h m).bind ((gives_add hl _ _ _).lift.bind ((gives_newList h).lift.bind
    ((gives_long h g).bind ((gives_addTo hl _ _ _).lift.bind ((gives_sduVoice h hl _ _ _ _ _).bind
    ((gives_add hl _ _ _).lift.bind ((gives_sduVoice h hl _ _ _ _ _).bind ((gives_add hl _ _ _).lift.bind
    ((gives_sduVoice h hl _ _ _ _ _).bind ((gives_add hl _ _ _).lift.bind ((gives_long h 80).bind
    (((gives_need h).bind (.pure (allocRetPrio 15 false true false))).bind ((gives_need h).bind ?_))))))))))))))
  exact .pure _

theorem gives_nas (h : ∀ n, w n .part = true) (hs : ∀ n, w n .string = true) (v : Nat) :
    GivesS (nasSyncIndW w v) (some (nasSyncInd v)) := by
  intro n
  refine ⟨n + 2, ?_⟩
  unfold nasSyncIndW
  rw [attempt_bind, h n]
  simp only [if_true]
  rw [attempt_bind, hs (n + 1)]
  rfl

theorem gives_extension (h : ∀ n, w n .part = true) (hl : ∀ n, w n .parts = true) (hs : ∀ n, w n .string = true) (lax : Bool) :
    Gives (extensionW w lax) (some (.octets (match encode Gen.Ranap.RANAP_RAB_Parameter_ExtendedMaxBitrateList
      (.list [.int 42000000]) with
        | some b => b
        | none => []))) := by
  unfold extensionW
  refine (gives_newList h).lift.bind ((gives_need h).bind ((gives_addTo hl _ _ _).lift.bind ?_))
  have : ∃ b, encode Gen.Ranap.RANAP_RAB_Parameter_ExtendedMaxBitrateList (.list [.int 42000000]) = some b :=
    Option.isSome_iff_exists.1 (by decide +kernel)
  obtain ⟨b, hb⟩ := this
  simp only [List.nil_append, hb]
  intro n
  refine ⟨n + 1, ?_⟩
  rw [pbind_apply, lift_apply]
  unfold attempt
  dsimp only
  rw [hs n]
  rfl

theorem gives_sduData (h : ∀ n, w n .part = true) : Gives (sduParDataW w) sduParData := by
  unfold sduParDataW
  refine (gives_need h).bind ((gives_newList h).lift.bind (Gives.bind (a := sduErrorRatio 1 4) ?_ ?_))
  · exact (gives_need h).bind (.pure _)
  · exact .pure _

theorem gives_rabParData (h : ∀ n, w n .part = true) (hl : ∀ n, w n .parts = true) (hs : ∀ n, w n .string = true) (lax : Bool)
    (dl ul : Int) : Gives (rabParDataW w lax dl ul) (rabParData dl ul) := by
  unfold rabParDataW
  refine (gives_need h).bind ((gives_long h dl).bind ((gives_add hl _ _ _).lift.bind ((gives_long h ul).bind
    ((gives_add hl _ _ _).lift.bind ((gives_sduData h).bind ((gives_add hl _ _ _).lift.bind
    (((gives_need h).bind (.pure (allocRetPrio 15 false false false))).bind ((gives_need h).bind
    ((gives_extension h hl hs lax).bind ((gives_newList h).lift.bind ((gives_addTo hl _ _ _).lift.bind ?_)))))))))))
  exact .pure _

theorem gives_upi (h : ∀ n, w n .part = true) (m : Nat) (v : BitVec 16) : Gives (upiW w m v) (upi m v) :=
  (gives_need h).bind ((gives_need h).bind (.pure _))

theorem gives_rabId (h : ∀ n, w n .part = true) (id : Byte) : Gives (rabIdW w id) (rabId id) := (gives_need h).bind (.pure _)

theorem gives_string (hs : ∀ n, w n .string = true) (b : Bytes) : GivesS (stringW w b) b := by
  intro n
  refine ⟨n + 1, ?_⟩
  unfold stringW
  rw [attempt_bind, hs n]
  rfl

theorem gives_attempt {x : What} (h : ∀ n, w n x = true) : GivesS (attempt w x) true := fun n => ⟨n + 1, by
  unfold attempt; rw [h n]⟩

theorem gives_layerAddr (h : ∀ n, w n .part = true) (addr : SockAddr) (x213 : Bool) :
    Gives (transpLayerAddrW w true addr x213) (newTranspLayerAddr addr x213) := by
  unfold transpLayerAddrW
  cases newTranspLayerAddr addr x213 with
  | none => exact .pure _
  | some a => exact (gives_need h).bind (.pure _)

theorem gives_rtp (h : ∀ n, w n .part = true) (hs : ∀ n, w n .string = true) (addr : SockAddr) (x213 : Bool) :
    Gives (transpInfoRtpW w addr x213) (newTranspInfoRtp addr x213) := by
  unfold transpInfoRtpW newTranspInfoRtp
  cases addr.port? with
  | none => exact .pure _
  | some port =>
    refine (gives_attempt h).lift.bind ((gives_layerAddr h addr x213).bind ?_)
    cases newTranspLayerAddr addr x213 with
    | none => exact .pure _
    | some a => exact (gives_string hs _).lift.bind (.pure _)

theorem gives_gtp (h : ∀ n, w n .part = true) (hs : ∀ n, w n .string = true) (addr : SockAddr) (tei : BitVec 32) (x213 : Bool) :
    Gives (transpInfoGtpW w addr tei x213) (newTranspInfoGtp addr tei x213) := by
  unfold transpInfoGtpW newTranspInfoGtp
  refine (gives_attempt h).lift.bind ((gives_layerAddr h addr x213).bind ?_)
  cases newTranspLayerAddr addr x213 with
  | none => exact .pure _
  | some a => exact (gives_string hs _).lift.bind (.pure _)

theorem res_apply {α : Type} (x : P α) (n : Nat) : (x.res n).1 =
    match (x n).1 with
    | .ok a => .ok a
    | .error f => .fault f := by
  unfold P.res ExceptT.run
  simp only [bind, StateT.bind]
  rcases x n with ⟨_ | _, n'⟩ <;> rfl

/-- The parts of a RAB assignment for speech are made. -/
theorem voice_parts (h : ∀ n, w n .part = true) (hl : ∀ n, w n .parts = true) (hs : ∀ n, w n .string = true) (debug : Bool)
    (rab : Byte) (ip : BitVec 32) (port : BitVec 16) (x213 : Bool) (n : Nat) : ∃ n',
    ((rabAssignVoiceW w debug rab ip port x213).res n).1 = .ok (rabAssignW w debug
      (.seq [some (rabId rab), some (nasSyncInd 60), some (rabParVoice 6700 12200), some (upi 1 1),
        (newTranspInfoRtp (.inet (htonlAddr ip) port) x213).map transpVal, none, none])
      (.seq [none, none, none, none, none, none, none]) n').1 := by
  rw [res_apply]
  unfold rabAssignVoiceW
  obtain ⟨n1, e1⟩ := gives_rabId h rab n
  obtain ⟨n2, e2⟩ := (gives_nas h hs 60).lift n1
  obtain ⟨n3, e3⟩ := gives_rabParVoice h hl 6700 12200 n2
  obtain ⟨n4, e4⟩ := gives_upi h 1 1 n3
  obtain ⟨n5, e5⟩ := gives_rtp h hs (.inet (htonlAddr ip) port) x213 n4
  refine ⟨n5, ?_⟩
  rw [pbind_apply, e1]; dsimp only
  rw [pbind_apply, e2]; dsimp only
  rw [pbind_apply, e3]; dsimp only
  rw [pbind_apply, e4]; dsimp only
  rw [pbind_apply, e5]; dsimp only
  rw [lift_apply]

/-- ... for data. -/
theorem data_parts (h : ∀ n, w n .part = true) (hl : ∀ n, w n .parts = true) (hs : ∀ n, w n .string = true) (lax debug : Bool)
    (rab : Byte) (ip tei : BitVec 32) (x213 : Bool) (n : Nat) : ∃ n',
    ((rabAssignDataW w lax debug rab ip tei x213).res n).1 = .ok (rabAssignW w debug
      (.seq [some (rabId rab), none, some (rabParData 1600000 800000), some (upi 0 1),
        (newTranspInfoGtp (.inet (htonlAddr ip) 0) tei x213).map transpVal, none, none])
      (.seq [some (.list [.enum 3]), some (.enum 1), some (.int 0), some (.int 0), none, none, none]) n').1 := by
  rw [res_apply]
  unfold rabAssignDataW
  obtain ⟨n1, e1⟩ := gives_rabId h rab n
  obtain ⟨n3, e3⟩ := gives_rabParData h hl hs lax 1600000 800000 n1
  obtain ⟨n4, e4⟩ := gives_upi h 0 1 n3
  obtain ⟨n5, e5⟩ := gives_gtp h hs (.inet (htonlAddr ip) 0) tei x213 n4
  obtain ⟨n6, e6⟩ := (gives_newList h).lift n5
  obtain ⟨n7, e7⟩ := gives_need h n6
  obtain ⟨n8, e8⟩ := (gives_addTo hl [] 0 (.enum 3)).lift n7
  obtain ⟨n9, e9⟩ := gives_need h n8
  obtain ⟨n10, e10⟩ := gives_long h 0 n9
  obtain ⟨n11, e11⟩ := gives_long h 0 n10
  refine ⟨n11, ?_⟩
  rw [pbind_apply, e1]; dsimp only
  rw [pbind_apply, e3]; dsimp only
  rw [pbind_apply, e4]; dsimp only
  rw [pbind_apply, e5]; dsimp only
  rw [pbind_apply, e6]; dsimp only
  rw [pbind_apply, e7]; dsimp only
  rw [pbind_apply, e8]; dsimp only
  rw [pbind_apply, e9]; dsimp only
  rw [pbind_apply, e10]; dsimp only
  rw [pbind_apply, e11]; dsimp only
  rw [lift_apply]
  rfl

/-- A pair that is made is the right one. -/
theorem newIePairW_cases (w : World) (debug : Bool) (id c1 : Nat) (t1 : Ty) (v1 : Val) (c2 : Nat) (t2 : Ty) (v2 : Val) (n : Nat) :
    ((newIePairW w debug id c1 t1 v1 c2 t2 v2 n).1 = none ∨
      (newIePairW w debug id c1 t1 v1 c2 t2 v2 n).1 = newIePair id c1 t1 v1 c2 t2 v2) ∧
    ((∀ n, w n .element = true) → (∀ n, w n .value = true) → (debug = false ∨ ∀ n, w n .output = true) →
      (newIePairW w debug id c1 t1 v1 c2 t2 v2 n).1 = newIePair id c1 t1 v1 c2 t2 v2) := by
  unfold newIePairW newIePair
  rw [attempt_bind]
  cases h1 : w n .element with
  | false => exact ⟨.inl rfl, fun h => by rw [h] at h1; cases h1⟩
  | true =>
    simp only [Bool.not_true, Bool.false_eq_true, if_false]
    cases encode t1 v1 with
    | none => exact ⟨.inl rfl, fun _ _ _ => rfl⟩
    | some b1 =>
      dsimp only
      rw [attempt_bind]
      cases h2 : w (n + 1) .value with
      | false => exact ⟨.inl rfl, fun _ h => by rw [h] at h2; cases h2⟩
      | true =>
        simp only [Bool.not_true, Bool.false_eq_true, if_false]
        cases encode t2 v2 with
        | none => exact ⟨.inl rfl, fun _ _ _ => rfl⟩
        | some b2 =>
          dsimp only
          rw [attempt_bind]
          cases h3 : w (n + 1 + 1) .value with
          | false => exact ⟨.inl rfl, fun _ h => by rw [h] at h3; cases h3⟩
          | true =>
            simp only [Bool.not_true, Bool.false_eq_true, if_false]
            cases debug with
            | false => exact ⟨.inr rfl, fun _ _ _ => rfl⟩
            | true =>
              simp only [if_true]
              rw [attempt_bind]
              cases h4 : w (n + 1 + 1 + 1) .output with
              | false =>
                refine ⟨.inl rfl, fun _ _ h => ?_⟩
                rcases h with h | h
                · cases h
                · rw [h] at h4; cases h4
              | true => exact ⟨.inr rfl, fun _ _ _ => rfl⟩

/-- The structure of a RAB assignment request. -/
def rabStruct (l : List Val) : Struct :=
  put Gen.Ranap.rAB_AssignmentRequestIEs idRAB_SetupOrModifyList (.list l)
    (setMask (present Gen.Ranap.rAB_AssignmentRequestIEs idRAB_SetupOrModifyList) Gen.Ranap.rAB_AssignmentRequestIEs.zero)

theorem rabAssignW_eq (w : World) (debug : Bool) (first second : Val) (n : Nat) : rabAssignW w debug first second n =
    let x := newIePairW w debug idRAB_SetupOrModifyItem reject Gen.Ranap.RANAP_RAB_SetupOrModifyItemFirst first
      ignore Gen.Ranap.RANAP_RAB_SetupOrModifyItemSecond second n
    let c := newListW w x.2
    let d := match x.1 with
      | none => c
      | some p => addToW w c.1 p c.2
    let l := match d.1 with
      | none => (([], 0), d.2)
      | some g => addW w ([], 0) (.list g.1) d.2
    messageW w debug .ranap 1 0 reject Gen.Ranap.rAB_AssignmentRequestIEs (rabStruct l.1.1) l.2 := by
  unfold rabAssignW
  simp only [bind, StateT.bind]
  generalize newIePairW w debug idRAB_SetupOrModifyItem reject Gen.Ranap.RANAP_RAB_SetupOrModifyItemFirst first
    ignore Gen.Ranap.RANAP_RAB_SetupOrModifyItemSecond second n = x
  obtain ⟨pair, n1⟩ := x
  dsimp only
  generalize newListW w n1 = c
  obtain ⟨c, n2⟩ := c
  cases pair with
  | none => cases c <;> simp only [StateT.bind, bind, pure, StateT.pure] <;> rfl
  | some p =>
    dsimp only
    show ((StateT.bind (addToW w c p) _) n2) = _
    unfold StateT.bind
    simp only [bind]
    generalize addToW w c p n2 = d
    obtain ⟨d, n3⟩ := d
    cases d <;> rfl

theorem newListW_eq (w : World) (n : Nat) : newListW w n = (if w n .part = true then some ([], 0) else none, n + 1) := by
  unfold newListW
  rw [attempt_bind]
  cases w n .part <;> rfl

theorem addW_nil (w : World) (v : Val) (n : Nat) :
    addW w ([], 0) v n = (if w n .parts = true then ([v], 4) else ([], 0), n + 1) := by
  show (attempt w .parts >>= _) n = _
  rw [attempt_bind]
  cases w n .parts <;> rfl

theorem addToW_some (w : World) (g : List Val × Nat) (v : Val) (n : Nat) :
    addToW w (some g) v n = (some (addW w g v n).1, (addW w g v n).2) := rfl

/-- What the list has in it when the elements are encoded: nothing, or a container with nothing or the pair. -/
theorem rabAssignW_cases (w : World) (debug : Bool) (first second : Val) (n : Nat) : ∃ n' l,
    (rabAssignW w debug first second n).1 =
      (messageW w debug .ranap 1 0 reject Gen.Ranap.rAB_AssignmentRequestIEs (rabStruct l) n').1 ∧
    (l = [] ∨ l = [.list []] ∨ ∃ p, newIePair idRAB_SetupOrModifyItem reject Gen.Ranap.RANAP_RAB_SetupOrModifyItemFirst first
      ignore Gen.Ranap.RANAP_RAB_SetupOrModifyItemSecond second = some p ∧ l = [.list [p]]) ∧
    ((∀ n, w n .element = true) → (∀ n, w n .value = true) → (debug = false ∨ ∀ n, w n .output = true) →
      (∀ n, w n .part = true) → (∀ n, w n .parts = true) →
      l = [.list (newIePair idRAB_SetupOrModifyItem reject Gen.Ranap.RANAP_RAB_SetupOrModifyItemFirst first
        ignore Gen.Ranap.RANAP_RAB_SetupOrModifyItemSecond second).toList]) := by
  rw [rabAssignW_eq]
  obtain ⟨hp, hp'⟩ := newIePairW_cases w debug idRAB_SetupOrModifyItem reject Gen.Ranap.RANAP_RAB_SetupOrModifyItemFirst first
    ignore Gen.Ranap.RANAP_RAB_SetupOrModifyItemSecond second n
  generalize newIePairW w debug idRAB_SetupOrModifyItem reject Gen.Ranap.RANAP_RAB_SetupOrModifyItemFirst first
    ignore Gen.Ranap.RANAP_RAB_SetupOrModifyItemSecond second n = x at hp hp' ⊢
  generalize newIePair idRAB_SetupOrModifyItem reject Gen.Ranap.RANAP_RAB_SetupOrModifyItemFirst first
    ignore Gen.Ranap.RANAP_RAB_SetupOrModifyItemSecond second = y at hp hp' ⊢
  obtain ⟨pair, n1⟩ := x
  dsimp only at hp hp' ⊢
  rw [newListW_eq]
  by_cases h1 : w n1 .part = true
  · rw [if_pos h1]
    cases pair with
    | none =>
      dsimp only
      rw [addW_nil]
      by_cases h2 : w (n1 + 1) .parts = true
      · rw [if_pos h2]
        refine ⟨n1 + 1 + 1, [.list []], rfl, .inr (.inl rfl), fun a b c _ _ => ?_⟩
        rw [← hp' a b c]
        rfl
      · rw [if_neg h2]
        exact ⟨n1 + 1 + 1, [], rfl, .inl rfl, fun _ _ _ _ h => absurd (h _) h2⟩
    | some p =>
      have hy : y = some p := by
        rcases hp with h | h
        · cases h
        · exact h.symm
      subst hy
      dsimp only
      rw [addToW_some, addW_nil]
      dsimp only
      rw [addW_nil]
      by_cases h2 : w (n1 + 1) .parts = true
      · rw [if_pos h2]
        by_cases h3 : w (n1 + 1 + 1) .parts = true
        · rw [if_pos h3]
          exact ⟨n1 + 1 + 1 + 1, [.list [p]], rfl, .inr (.inr ⟨p, rfl, rfl⟩), fun _ _ _ _ _ => rfl⟩
        · rw [if_neg h3]
          exact ⟨n1 + 1 + 1 + 1, [], rfl, .inl rfl, fun _ _ _ _ h => absurd (h _) h3⟩
      · rw [if_neg h2]
        by_cases h3 : w (n1 + 1 + 1) .parts = true
        · rw [if_pos h3]
          exact ⟨n1 + 1 + 1 + 1, [.list []], rfl, .inr (.inl rfl), fun _ _ _ _ h => absurd (h _) h2⟩
        · rw [if_neg h3]
          exact ⟨n1 + 1 + 1 + 1, [], rfl, .inl rfl, fun _ _ _ _ h => absurd (h _) h3⟩
  · rw [if_neg h1]
    cases pair with
    | none => exact ⟨n1 + 1, [], rfl, .inl rfl, fun _ _ _ h => absurd (h _) h1⟩
    | some p => exact ⟨n1 + 1, [], rfl, .inl rfl, fun _ _ _ h => absurd (h _) h1⟩

/-! ## Whatever fails -/

/-- The process ends by a null pointer, or the result has a property. -/
def Yields {α : Type} (x : P α) (Q : α → Prop) : Prop := ∀ n, match (x n).1 with
  | .error f => f = .nullDeref
  | .ok a => Q a

theorem Yields.bind {α β : Type} {x : P α} {k : α → P β} {Q : α → Prop} {R : β → Prop} (h1 : Yields x Q)
    (h2 : ∀ a, Q a → Yields (k a) R) : Yields (x >>= k) R := by
  intro n
  rw [pbind_apply]
  have h := h1 n
  generalize x n = y at h ⊢
  obtain ⟨f | a, n'⟩ := y
  · exact h
  · exact h2 a h n'

theorem Yields.pure {α : Type} {a : α} {Q : α → Prop} (h : Q a) : Yields (pure a : P α) Q := fun _ => h

theorem Yields.lift {α : Type} {x : S α} {Q : α → Prop} (h : ∀ n, Q (x n).1) : Yields (liftM x : P α) Q := fun n => h n

theorem Yields.mono {α : Type} {x : P α} {Q R : α → Prop} (h : Yields x Q) (hr : ∀ a, Q a → R a) : Yields x R := by
  intro n
  have h' := h n
  generalize x n = y at h' ⊢
  obtain ⟨f | a, n'⟩ := y
  · exact h'
  · exact hr a h'

theorem yields_need (w : World) : Yields (need w) fun _ => True := by
  intro n
  unfold need
  rw [pbind_apply, lift_apply]
  unfold attempt
  dsimp only
  cases w n .part
  · exact rfl
  · trivial

theorem yields_of_need {α : Type} {a : α} {Q : α → Prop} (w : World) (h : Q a) : Yields (need w >>= fun _ => pure a) Q :=
  (yields_need w).bind fun _ _ => .pure h

/-- A list as it is, or with one more. -/
theorem addW_cases (w : World) (g : List Val × Nat) (v : Val) (n : Nat) : (addW w g v n).1.1 = g.1 ∨ (addW w g v n).1.1 = g.1 ++ [v] := by
  unfold addW
  by_cases h : g.1.length = g.2
  · simp only [if_pos h]
    rw [attempt_bind]
    cases w n .parts
    · exact .inl rfl
    · exact .inr rfl
  · simp only [if_neg h]
    exact .inr rfl

theorem newListW_cases (w : World) (n : Nat) : (newListW w n).1 = none ∨ ∃ size, (newListW w n).1 = some ([], size) := by
  rw [newListW_eq]
  cases w n .part
  · exact .inl rfl
  · exact .inr ⟨_, rfl⟩

theorem addToW_cases (w : World) (g : Option (List Val × Nat)) (v : Val) (n : Nat) :
    asVal (addToW w g v n).1 = asVal g ∨ ∃ g', g = some g' ∧ asVal (addToW w g v n).1 = some (.list (g'.1 ++ [v])) := by
  cases g with
  | none => exact .inl rfl
  | some g =>
    rw [addToW_some]
    rcases addW_cases w g v n with h | h
    · exact .inl (by simp only [asVal, Option.map_some, h])
    · exact .inr ⟨g, rfl, by simp only [asVal, Option.map_some, h]⟩

end Verif.Scarce
