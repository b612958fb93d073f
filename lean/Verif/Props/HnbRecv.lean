import Verif.Model.HnbRecv
import Verif.Props.HnbOut
import Verif.Props.Ends
import Verif.Props.Generate

/-!
# C114: each message of the gateway is handled as one message
-/

namespace Verif.Props
open Verif.Aper Verif.Hnb

variable {env : Hnb.Env}

/-- **C114 in full.** A message that arrives is handled as one message, whatever its size. -/
def C114_full : Prop := ∀ (env : Hnb.Env) (s : Hnb.State) (ppid : Nat) (data : Bytes), data ≠ [] →
  arrive env s ppid data = Hnb.step env s (.recv ppid data)

theorem pieces_small {data : Bytes} (h : data.length ≤ 2048) : pieces data = [data] := by
  rw [pieces, if_pos (show data.length ≤ bufSize from h)]

theorem pieces_large {data : Bytes} (h : 2048 < data.length) : pieces data = data.take 2048 :: pieces (data.drop 2048) := by
  rw [pieces, if_neg (show ¬ data.length ≤ bufSize from Nat.not_le.2 h)]; rfl

/-- Nothing is lost, added or put in another order: the pieces together are the message, and all of them fit. -/
theorem pieces_join (data : Bytes) : (pieces data).flatten = data ∧ ∀ p ∈ pieces data, p.length ≤ 2048 := by
  induction hn : data.length using Nat.strongRecOn generalizing data with
  | _ n ih =>
    by_cases h : data.length ≤ 2048
    · rw [pieces_small h]
      exact ⟨by simp, by simpa using h⟩
    · have h := Nat.not_le.1 h
      rw [pieces_large h]
      obtain ⟨h1, h2⟩ := ih (data.drop 2048).length (by rw [List.length_drop]; omega) (data.drop 2048) rfl
      refine ⟨by simp only [List.flatten_cons, h1, List.take_append_drop], fun p hp => ?_⟩
      rcases List.mem_cons.1 hp with rfl | hp
      · rw [List.length_take]; exact Nat.min_le_left _ _
      · exact h2 p hp

theorem run_one (s : Hnb.State) (op : Hnb.Op) : Hnb.run env s [op] = Hnb.step env s op := by
  unfold Hnb.run
  cases Hnb.step env s op <;> rfl

/-- **C114**, the part that holds: messages of up to 2048 octets. -/
theorem C114_partial (s : Hnb.State) (ppid : Nat) {data : Bytes} (h : data.length ≤ 2048) :
    arrive env s ppid data = Hnb.step env s (.recv ppid data) := by
  unfold arrive
  rw [pieces_small h, List.map_singleton, run_one]

theorem hnbapRx_cut {v : Val} {bs : Bytes} (h : encode Gen.Hnbap.HNBAP_HNBAP_PDU v = some bs) {k : Nat} (hk : k < bs.length)
    (s : Hnb.State) : Hnb.hnbapRx s (bs.take k) = .ok s := by
  have hd := (C99_sent (by simp [pduTypes]) h).1 k hk
  unfold Hnb.hnbapRx Hnb.decodePdu
  rw [hd]

theorem ruaRx_cut {v : Val} {bs : Bytes} (h : encode Gen.Rua.RUA_RUA_PDU v = some bs) {k : Nat} (hk : k < bs.length)
    (s : Hnb.State) : Hnb.ruaRx env s (bs.take k) = .ok s := by
  have hd := (C99_sent (by simp [pduTypes]) h).1 k hk
  unfold Hnb.ruaRx Hnb.decodePdu
  rw [hd]

/-- The octets are an encoded message of the protocol with this number: HNBAP 20, RUA 19. -/
def IsEncoded (ppid : Nat) (bs : Bytes) : Prop :=
  (ppid = 20 ∧ ∃ v, encode Gen.Hnbap.HNBAP_HNBAP_PDU v = some bs) ∨ (ppid = 19 ∧ ∃ v, encode Gen.Rua.RUA_RUA_PDU v = some bs)

/-- **C114**, longer messages: the first 2048 octets of a message of HNBAP or RUA have no effect, so the message is never
understood; what follows is taken for messages of its own. -/
theorem C114_longer (s : Hnb.State) {ppid : Nat} {bs : Bytes} (h : IsEncoded ppid bs) (hl : 2048 < bs.length) :
    arrive env s ppid bs = arrive env s ppid (bs.drop 2048) := by
  have key : Hnb.step env s (.recv ppid (bs.take 2048)) = .ok s := by
    unfold Hnb.step
    dsimp only
    split
    · rcases h with ⟨rfl, v, h⟩ | ⟨rfl, v, h⟩
      · rw [if_pos rfl]; exact hnbapRx_cut h hl s
      · rw [if_neg (by decide), if_pos rfl]; exact ruaRx_cut h hl s
    · rfl
  unfold arrive
  rw [pieces_large hl, List.map_cons, Hnb.run, key]

/-- An HNBAP PDU that the emulator ignores. -/
def ignoredPdu : Bytes := [0x20, 0x02, 0x00, 0x09, 0x00, 0x00, 0x01, 0x00, 0x0e, 0x40, 0x02, 0x00, 0x17]

theorem ignored_decode : ∃ value, Hnb.decodePdu Gen.Hnbap.HNBAP_HNBAP_PDU ignoredPdu = some (2, value) :=
  ⟨[0x00, 0x00, 0x01, 0x00, 0x0e, 0x40, 0x02, 0x00, 0x17], by decide +kernel⟩

/-- Also with octets behind it. -/
theorem ignored_step (more : Bytes) : Hnb.step env Hnb.init (.recv 20 (ignoredPdu ++ more)) = .ok Hnb.init := by
  obtain ⟨value, h⟩ := ignored_decode
  have : Hnb.decodePdu Gen.Hnbap.HNBAP_HNBAP_PDU (ignoredPdu ++ more) = some (2, value) := by
    unfold Hnb.decodePdu at h ⊢
    cases hd : decode Gen.Hnbap.HNBAP_HNBAP_PDU ignoredPdu with
    | none => rw [hd] at h; cases h
    | some v => rw [hd] at h; rw [decode_append hd]; exact h
  show Hnb.hnbapRx Hnb.init (ignoredPdu ++ more) = _
  unfold Hnb.hnbapRx
  rw [this]
  rfl

/-- **C114 does not hold**: if the message that is ignored has more octets behind it, among them, from octet 2049 on, those of an
HNB Register Accept, then the emulator reports that it has been registered. -/
theorem C114_violated : ¬ C114_full := by
  intro hf
  obtain ⟨fill, hfill⟩ : ∃ fill : Bytes, fill.length = 2035 := ⟨List.replicate 2035 0, List.length_replicate⟩
  have hl : (ignoredPdu ++ fill).length = 2048 := by rw [List.length_append, hfill]; rfl
  have h := hf ⟨fun _ => none, fun _ => ⟨#[0, 0, 0, 0], rfl⟩, fun _ _ => false⟩ Hnb.init 20 (ignoredPdu ++ fill ++ registerAccept)
    (by unfold ignoredPdu; simp)
  have hp : pieces (ignoredPdu ++ fill ++ registerAccept) = [ignoredPdu ++ fill, registerAccept] := by
    rw [pieces_large (by rw [List.length_append, hl]; decide), ← hl, List.take_left, List.drop_left, pieces_small (by decide)]
  unfold arrive at h
  rw [hp, List.map_cons, List.map_singleton, Hnb.run, ignored_step, List.append_assoc, ignored_step] at h
  dsimp only at h
  rw [run_one] at h
  revert h
  decide +kernel

/-- Messages that are longer than the buffer can be encoded. -/
example : ∃ bs, IsEncoded 20 bs ∧ 2048 < bs.length := by
  obtain ⟨bs, h, -, hl⟩ := (pdu_encode .hnbap (d := 1) (by unfold HasDirection; decide) (code := 1) (crit := 0)
    (value := List.replicate 3000 0)).1 (by decide)
  rw [List.length_replicate] at hl
  exact ⟨bs, .inl ⟨rfl, _, h⟩, by omega⟩

end Verif.Props
