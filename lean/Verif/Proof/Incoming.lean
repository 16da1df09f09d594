/-
The parsers of incoming packets, related to the specification `Spec.readIncoming`.
-/
import Verif.Spec.Incoming
import Verif.Props.Publish
import Verif.Props.Acks

namespace Mqtt
open Spec
set_option linter.unusedSimpArgs false

/-- What the application callback sees of a publish. -/
def PublishInfo.view (p : PublishInfo) : PubView :=
  ⟨p.qos, p.retain, p.dup, (p.pTopicName.getD []).take p.topicNameLength.toNat, (p.pPayload.getD []).take p.payloadLength⟩

theorem qosName_toFin (q : QoS) : qosName q.toFin = q := by cases q <;> rfl

theorem deser_publish {W : Nat} (t : UInt8) (body extra : List UInt8) (h : Nat) (ht : t.toNat / 16 = 3) (hW : body.length < W) :
    (readIncoming t body = none ∧
      mqttDeserializePublish W (some ⟨t, some (body ++ extra), body.length, h⟩) 0 = .ok (.badResponse, none)) ∨
    ∃ id p, readIncoming t body = some (.publish id p.view) ∧
      mqttDeserializePublish W (some ⟨t, some (body ++ extra), body.length, h⟩) 0 = .ok (.success, some (id, p)) ∧
      (p.qos ≠ .qos0 → id ≠ 0) := by
  have hspec := deserializePublish_spec (extra := extra) (hl := h) (id0 := 0) ht hW
  have hmq : mqttDeserializePublish W (some ⟨t, some (body ++ extra), body.length, h⟩) 0 =
      deserializePublish W ⟨t, some (body ++ extra), body.length, h⟩ 0 := by
    unfold mqttDeserializePublish
    simp [(isPublish_iff _).mpr ht]
  rw [hmq]
  unfold readIncoming
  rw [if_pos ht]
  cases hp : parsePublish t.toNat body with
  | none =>
    rw [hp] at hspec
    exact Or.inl ⟨rfl, hspec⟩
  | some s =>
    rw [hp] at hspec
    simp only at hspec ⊢
    by_cases hsh : body.length < (if s.qos.val = 0 then 3 else 5)
    · rw [if_pos hsh] at hspec
      rw [if_pos hsh]
      exact Or.inl ⟨rfl, hspec⟩
    · rw [if_neg hsh] at hspec
      rw [if_neg hsh]
      obtain ⟨id, q, e1, e2, e3, e4, e5, e6, e7, e8, e9, e10⟩ := hspec
      refine Or.inr ⟨id, q, ?_, e1, ?_⟩
      · obtain ⟨hb1, hb2, hb4, hb3⟩ := parsePublish_some t.toNat_lt hp
        have hpay : bytesOf q.pPayload q.payloadLength = s.payload := by
          rw [e9, e10]
          split
          · next h0 => simp [h0, bytesOf]
          · rw [hb1]
            have : publishBody s ++ extra = (str s.topic ++ (if s.qos.val = 0 then [] else be16 s.id)) ++
                (s.payload ++ extra) := by simp [publishBody]
            rw [this]
            have hl : (str s.topic ++ (if s.qos.val = 0 then [] else be16 s.id)).length =
                2 + s.topic.length + (if s.qos.val = 0 then 0 else 2) := by
              simp only [List.length_append, str_length]
              split <;> rfl
            rw [← hl]
            simp [bytesOf]
        have hid : UInt16.ofNat s.id = id := by
          split at e5
          · next h0 =>
            have : s.id = 0 := by
              unfold parsePublish at hp
              have h3 : t.toNat / 16 = 3 := ht
              simp only [h3, ne_eq, not_true, if_false, Option.bind_eq_bind] at hp
              cases hq : qosOfNat (t.toNat / 2 % 4) with
              | none => simp [hq] at hp
              | some qq =>
                cases hr : readStr body with
                | none => simp [hq, hr] at hp
                | some x =>
                  simp only [hq, hr, Option.bind_some] at hp
                  by_cases hz : qq.val = 0
                  · simp [hz] at hp; rw [← hp]
                  · simp only [hz, if_false] at hp
                    cases hr2 : read16 x.2 with
                    | none => simp [hr2] at hp
                    | some y =>
                      simp only [hr2, Option.bind_some] at hp
                      split at hp
                      · cases hp
                      · cases hp; exact absurd h0 hz
            rw [this, e5]; rfl
          · rw [← e5]; simp
        rw [hid, ← e2, qosName_toFin]
        unfold PublishInfo.view
        have ht1 : (q.pTopicName.getD []).take q.topicNameLength.toNat = s.topic := by
          rw [← e7]; cases q.pTopicName <;> simp [bytesOf]
        have ht2 : (q.pPayload.getD []).take q.payloadLength = s.payload := by
          rw [← hpay]; cases q.pPayload <;> simp [bytesOf]
        rw [ht1, ht2, e3, e4]
      · obtain ⟨hb1, hb2, hb4, hb3⟩ := parsePublish_some t.toNat_lt hp
        intro h0
        have h0' : s.qos.val ≠ 0 := by
          rw [← e2]
          intro hz
          apply h0
          revert hz
          cases q.qos <;> decide
        rw [if_neg h0'] at e5
        intro hz
        apply hb2 h0'
        rw [← e5, hz]; rfl

theorem ofNat_toNat16 (id : UInt16) : UInt16.ofNat id.toNat = id := by simp

theorem idOnly_be16 (n : Nat) (h : IsPacketId n) : idOnly (be16 n) = some (UInt16.ofNat n) := by
  obtain ⟨h1, h2⟩ := h
  have : be16 n = [UInt8.ofNat (n / 256), UInt8.ofNat (n % 256)] := by
    simp only [be16]
  rw [this]
  unfold idOnly
  have e1 : (UInt8.ofNat (n / 256)).toNat = n / 256 := by simp; omega
  have e2 : (UInt8.ofNat (n % 256)).toNat = n % 256 := by simp
  dsimp only
  rw [e1, e2, show 256 * (n / 256) + n % 256 = n by omega, if_neg (by omega)]

theorem idOnly_some {body : List UInt8} {id : UInt16} (h : idOnly body = some id) : body = be16 id.toNat ∧ id ≠ 0 := by
  unfold idOnly at h
  split at h
  · next a b =>
    split at h
    · cases h
    · next hz =>
      have ha := a.toNat_lt
      have hb := b.toNat_lt
      cases h
      have hn : (UInt16.ofNat (256 * a.toNat + b.toNat)).toNat = 256 * a.toNat + b.toNat := by simp; omega
      refine ⟨?_, ?_⟩
      · rw [hn, ← decode16_toNat]; exact decode16_be16 a b
      · intro h0; rw [h0] at hn; exact hz (by simpa using hn.symm)
  · cases h

theorem deser_id (t : UInt8) (body extra : List UInt8) (h : Nat) (ht : t = 0x40 ∨ t = 0x50 ∨ t = 0x62 ∨ t = 0x70 ∨ t = 0xB0) :
    (idOnly body = none ∧
      ∃ i, mqttDeserializeAck (some ⟨t, some (body ++ extra), body.length, h⟩) (some 0) none = .ok (.badResponse, some i, none)) ∨
    ∃ id, idOnly body = some id ∧ id ≠ 0 ∧
      mqttDeserializeAck (some ⟨t, some (body ++ extra), body.length, h⟩) (some 0) none = .ok (.success, some id, none) := by
  obtain ⟨st, id, h1, h2, h3, h4⟩ := C11_id_acks t body extra h 0 none ht
  rcases h2 with rfl | rfl
  · obtain ⟨n, hn, hb⟩ := h3.mp rfl
    have h5 := h4 rfl
    refine Or.inr ⟨id, ?_, ?_, h1⟩
    · have : IsPacketId id.toNat := by
        have := (be16_inj (a := id.toNat) (b := n) (x := []) (y := []) id.toNat_lt hn.2 (by simpa using h5.symm.trans hb)).1
        rw [this]; exact hn
      rw [h5, idOnly_be16 _ this]; simp
    · rintro rfl
      have := (be16_inj (a := 0) (b := n) (x := []) (y := []) (by decide) hn.2 (by simpa using h5.symm.trans hb)).1
      have := hn.1
      omega
  · refine Or.inl ⟨?_, id, h1⟩
    cases hi : idOnly body with
    | none => rfl
    | some x =>
      obtain ⟨hx, hx0⟩ := idOnly_some hi
      have := h3.mpr ⟨x.toNat, ⟨by have : x.toNat ≠ 0 := fun h => hx0 (UInt16.toNat.inj h); omega, x.toNat_lt⟩, hx⟩
      cases this

theorem deser_suback (body extra : List UInt8) (h : Nat) :
    (subackBody body = none ∧
      ∃ i, mqttDeserializeAck (some ⟨0x90, some (body ++ extra), body.length, h⟩) (some 0) none = .ok (.badResponse, some i, none)) ∨
    ∃ id r, subackBody body = some (id, r) ∧
      mqttDeserializeAck (some ⟨0x90, some (body ++ extra), body.length, h⟩) (some 0) none =
        .ok (if r then .serverRefused else .success, some id, none) := by
  obtain ⟨st, id, h1, h2, h3, h4, h5⟩ := C13_suback body extra h 0 none
  have key : ∀ n codes, IsPacketId n → codes ≠ [] → body = be16 n ++ codes → (∀ c ∈ codes, Granted c ∨ c = 0x80) →
      subackBody body = some (UInt16.ofNat n, decide ((0x80 : UInt8) ∈ codes)) := by
    rintro n codes ⟨hn1, hn2⟩ hc rfl hall
    have : be16 n ++ codes = UInt8.ofNat (n / 256) :: UInt8.ofNat (n % 256) :: codes := by
      simp only [be16, List.cons_append, List.nil_append]
    rw [this]
    unfold subackBody
    have e1 : (UInt8.ofNat (n / 256)).toNat = n / 256 := by simp; omega
    have e2 : (UInt8.ofNat (n % 256)).toNat = n % 256 := by simp
    dsimp only
    rw [e1, e2, show 256 * (n / 256) + n % 256 = n by omega, if_neg (by simp [hc]; omega)]
    rw [if_pos]
    simp only [List.all_eq_true, decide_eq_true_eq]
    intro c hcm
    rcases hall c hcm with (h | h | h) | h <;> simp [h]
  have hid : ∀ n codes, IsPacketId n → body = be16 n ++ codes → body.take 2 = be16 id.toNat → UInt16.ofNat n = id := by
    rintro n codes ⟨hn1, hn2⟩ rfl hb
    have h2 : (be16 n ++ codes).take 2 = be16 n := by simp [be16]
    rw [h2] at hb
    have := (be16_inj (a := n) (b := id.toNat) (x := []) (y := []) hn2 id.toNat_lt (by simpa using hb)).1
    rw [this]; simp
  rcases h4 with rfl | rfl | rfl
  · obtain ⟨n, codes, hn, hc, hb, hall⟩ := h2.mp rfl
    refine Or.inr ⟨id, false, ?_, h1⟩
    rw [key n codes hn hc hb (fun c hcm => Or.inl (hall c hcm)), hid n codes hn hb (h5 (Or.inl rfl))]
    have : (0x80 : UInt8) ∉ codes := fun hm => by
      rcases hall _ hm with h | h | h <;> exact absurd h (by decide)
    simp [this]
  · obtain ⟨n, codes, hn, hb, hall, hm⟩ := h3.mp rfl
    refine Or.inr ⟨id, true, ?_, h1⟩
    rw [key n codes hn (by rintro rfl; cases hm) hb hall, hid n codes hn hb (h5 (Or.inr rfl))]
    simp [hm]
  · refine Or.inl ⟨?_, id, h1⟩
    cases hs : subackBody body with
    | none => rfl
    | some x =>
      exfalso
      unfold subackBody at hs
      split at hs
      · next a b codes =>
        split at hs
        · cases hs
        · next hz =>
          simp only [not_or] at hz
          split at hs
          · next hall =>
            simp only [List.all_eq_true, decide_eq_true_eq] at hall
            have ha := a.toNat_lt
            have hb := b.toNat_lt
            have hb2 : a :: b :: codes = be16 (256 * a.toNat + b.toNat) ++ codes := by
              rw [← decode16_toNat, ← decode16_be16]; rfl
            have hpid : IsPacketId (256 * a.toNat + b.toNat) := ⟨by omega, by omega⟩
            by_cases hm : (0x80 : UInt8) ∈ codes
            · have := h3.mpr ⟨_, codes, hpid, hb2, fun c hc => by
                rcases hall c hc with h | h | h | h
                · exact Or.inl (Or.inl h)
                · exact Or.inl (Or.inr (Or.inl h))
                · exact Or.inl (Or.inr (Or.inr h))
                · exact Or.inr h, hm⟩
              cases this
            · have := h2.mpr ⟨_, codes, hpid, hz.2, hb2, fun c hc => by
                rcases hall c hc with h | h | h | h
                · exact Or.inl h
                · exact Or.inr (Or.inl h)
                · exact Or.inr (Or.inr h)
                · subst h; exact absurd hc hm⟩
              cases this
          · cases hs
      · cases hs

end Mqtt
