/-
C69: the functions that only read or write packets check their arguments.
-/
import Verif.Spec.Checks
import Verif.Props.Acks

namespace Mqtt
open Spec
set_option linter.unusedSimpArgs false

theorem noBuffer_cases (fb : Option FixedBuffer) : (noBuffer fb ∧ memoryOf fb = none) ∨ ∃ buf size, fb = some ⟨some buf, size⟩ := by
  match fb with
  | none => exact Or.inl ⟨fun x h => (by cases h), rfl⟩
  | some ⟨none, size⟩ => exact Or.inl ⟨fun x h => by cases h; rfl, rfl⟩
  | some ⟨some buf, size⟩ => exact Or.inr ⟨buf, size, rfl⟩

theorem noBuffer_some {buf : List UInt8} {size : Nat} : ¬ noBuffer (some ⟨some buf, size⟩) := fun h => (by cases h _ rfl)

theorem params_iff (wp : Bool) (p : Option PublishInfo) (id : UInt16) (fb : Option FixedBuffer) :
    (publishRefused wp p id fb → serializePublishParams wp p id fb = .badParameter) ∧
    (¬ publishRefused wp p id fb → serializePublishParams wp p id fb = .success) := by
  unfold publishRefused serializePublishParams
  match fb, p with
  | none, _ => simp [noBuffer]
  | some ⟨none, _⟩, none => simp
  | some ⟨none, _⟩, some x => simp [noBuffer]
  | some ⟨some b, _⟩, none => simp
  | some ⟨some b, _⟩, some x =>
    simp only [noBuffer_some, false_or, Option.some.injEq, forall_eq', reduceCtorEq, if_false]
    by_cases h1 : x.pTopicName = none <;> by_cases h2 : x.topicNameLength = 0 <;> by_cases h3 : x.qos = .qos0 <;> by_cases h4 : id = 0 <;>
      by_cases h5 : x.dup = true <;> by_cases h6 : 0 < x.payloadLength <;> by_cases h7 : x.pPayload = none <;> cases wp <;>
      simp [h1, h2, h3, h4, h5, h6, h7]

theorem Res.bind_ok_inv {α β : Type} {x : Res α} {f : α → Res β} {b : β} (h : (x >>= f) = .ok b) : ∃ a, x = .ok a ∧ f a = .ok b := by
  cases x with
  | ok a => exact ⟨a, rfl, h⟩
  | ub e => cases h

/-- **C69** MQTT_SerializePublish returns MQTTBadParameter exactly for the arguments of `publishRefused`, and then it leaves the buffer alone. -/
theorem C69_publish (W : Nat) (p : Option PublishInfo) (id : UInt16) (r : Nat) (fb : Option FixedBuffer) :
    (publishRefused true p id fb → serializePublish W p id r fb = .ok (.badParameter, memoryOf fb)) ∧
    (¬ publishRefused true p id fb → ∀ st m, serializePublish W p id r fb = .ok (st, m) → st ≠ .badParameter) := by
  obtain ⟨h1, h2⟩ := params_iff true p id fb
  constructor
  · intro h
    unfold serializePublish
    rw [h1 h]
    cases p <;> cases fb <;> rfl
  · intro h st m
    unfold serializePublish
    rw [h2 h]
    rcases noBuffer_cases fb with ⟨hn, _⟩ | ⟨buf, size, rfl⟩
    · exact absurd (Or.inl hn) h
    · cases p with
      | none => exact absurd (Or.inr (fun x hx => (by cases hx))) h
      | some x =>
        dsimp only
        split
        · intro he; cases he; simp
        · intro he
          obtain ⟨a, _, ha⟩ := Res.bind_ok_inv he
          cases ha; simp

/-- **C69** MQTT_SerializePublishHeader, likewise; it does not need the payload. -/
theorem C69_publish_header (W : Nat) (p : Option PublishInfo) (id : UInt16) (r : Nat) (fb : Option FixedBuffer) :
    (publishRefused false p id fb → serializePublishHeader W p id r fb = .ok (.badParameter, memoryOf fb, 0)) ∧
    (¬ publishRefused false p id fb → ∀ st m n, serializePublishHeader W p id r fb = .ok (st, m, n) → st ≠ .badParameter) := by
  obtain ⟨h1, h2⟩ := params_iff false p id fb
  constructor
  · intro h
    unfold serializePublishHeader
    rw [h1 h]
    cases p <;> cases fb <;> rfl
  · intro h st m n
    unfold serializePublishHeader
    rw [h2 h]
    rcases noBuffer_cases fb with ⟨hn, _⟩ | ⟨buf, size, rfl⟩
    · exact absurd (Or.inl hn) h
    · cases p with
      | none => exact absurd (Or.inr (fun x hx => (by cases hx))) h
      | some x =>
        dsimp only
        split
        · intro he; cases he; simp
        · intro he
          obtain ⟨a, _, ha⟩ := Res.bind_ok_inv he
          cases ha; simp

/-- **C69** MQTT_SerializeConnect. -/
theorem C69_connect (W : Nat) (ci : Option ConnectInfo) (will : Option PublishInfo) (r : Nat) (fb : Option FixedBuffer) :
    (connectRefused ci will fb → serializeConnect W ci will r fb = .ok (.badParameter, memoryOf fb)) ∧
    (¬ connectRefused ci will fb → ∀ st m, serializeConnect W ci will r fb = .ok (st, m) → st ≠ .badParameter) := by
  unfold connectRefused serializeConnect
  rcases noBuffer_cases fb with ⟨hn, hm⟩ | ⟨buf, size, rfl⟩
  · refine ⟨fun _ => ?_, fun h => absurd (Or.inl hn) h⟩
    rw [hm]
    match fb, ci with
    | none, none => rfl
    | none, some _ => rfl
    | some ⟨none, _⟩, none => rfl
    | some ⟨none, _⟩, some _ => rfl
    | some ⟨some b, s⟩, _ => exact absurd hn noBuffer_some
  · simp only [noBuffer_some, false_or]
    cases ci with
    | none => exact ⟨fun _ => rfl, fun h => absurd (Or.inl rfl) h⟩
    | some c =>
      dsimp only
      have hw : (∃ x, will = some x ∧ x.pTopicName = none) ↔ (will.any fun w => w.pTopicName.isNone) = true := by
        cases will <;> simp
      simp only [reduceCtorEq, false_or, hw]
      refine ⟨fun h => by rw [if_pos h]; rfl, fun h st m => ?_⟩
      rw [if_neg h]
      split
      · intro he; cases he; simp
      · intro he
        obtain ⟨a, _, ha⟩ := Res.bind_ok_inv he
        cases ha; simp

/-- **C69** MQTT_GetConnectPacketSize. -/
theorem C69_connect_size (ci : Option ConnectInfo) (will : Option PublishInfo) (out : Bool) :
    ((getConnectPacketSize ci will out).status = .badParameter ↔ connectSizeRefused ci will out) ∧
    ((getConnectPacketSize ci will out).status = .badParameter ∨ (getConnectPacketSize ci will out).status = .success) := by
  unfold connectSizeRefused getConnectPacketSize
  cases ci with
  | none => simp
  | some c =>
    have hw : (∃ x, will = some x ∧ 65535 < x.payloadLength) ↔ (will.any fun w => decide (w.payloadLength > 65535)) = true := by
      cases will <;> simp
    simp only [Option.some.injEq, forall_eq', hw]
    by_cases h1 : out = false
    · simp [h1]
    · by_cases h2 : c.clientIdentifierLength = 0 ∨ c.pClientIdentifier = none
      · simp only [h1, h2, if_true, if_false]; simp [h2.symm]
      · by_cases h3 : (will.any fun w => decide (w.payloadLength > 65535)) = true
        · simp only [h1, h2, h3, if_true, if_false]; simp
        · simp only [h1, h2, h3, if_false]
          have : ¬ (c.pClientIdentifier = none ∨ c.clientIdentifierLength = 0) := fun h => h2 h.symm
          simp [this]

/-- **C69** MQTT_SerializeSubscribe and MQTT_SerializeUnsubscribe. -/
theorem C69_filters (W : Nat) (ty : SubType) (subs : Option (List SubscribeInfo)) (id : UInt16) (r : Nat) (fb : Option FixedBuffer) :
    (filtersRefused subs id fb → serializeSubscription W ty subs id r fb = .ok (.badParameter, memoryOf fb)) ∧
    (¬ filtersRefused subs id fb → ∀ st m, serializeSubscription W ty subs id r fb = .ok (st, m) → st ≠ .badParameter) := by
  have hv : (filtersRefused subs id fb → validateSubscriptionSerializeParams W subs id r fb = .badParameter) ∧
      (¬ filtersRefused subs id fb → validateSubscriptionSerializeParams W subs id r fb = .noMemory ∨
        validateSubscriptionSerializeParams W subs id r fb = .success) := by
    unfold filtersRefused validateSubscriptionSerializeParams
    match fb, subs with
    | none, _ => simp [noBuffer]
    | some ⟨none, _⟩, none => simp
    | some ⟨none, _⟩, some x => simp [noBuffer]
    | some ⟨some b, _⟩, none => simp
    | some ⟨some b, size⟩, some l =>
      simp only [noBuffer_some, false_or, Option.some.injEq, forall_eq', reduceCtorEq, if_false]
      by_cases h1 : l = []
      · simp [h1]
      · have h1' : ¬ l.length = 0 := by simpa using h1
        by_cases h2 : id = 0
        · simp [h1, h2]
        · simp only [h1, h1', h2, if_false, or_self, false_implies, true_and, not_false_eq_true, true_implies]
          split <;> simp
  constructor
  · intro h
    unfold serializeSubscription
    rw [hv.1 h]
    cases subs <;> cases fb <;> rfl
  · intro h st m
    unfold serializeSubscription
    rcases noBuffer_cases fb with ⟨hn, _⟩ | ⟨buf, size, rfl⟩
    · exact absurd (Or.inl hn) h
    · cases subs with
      | none => exact absurd (Or.inr (Or.inl (fun x hx => (by cases hx)))) h
      | some l =>
        rcases hv.2 h with h' | h' <;> rw [h'] <;> dsimp only
        · intro he; cases he; simp
        · intro he
          obtain ⟨a, _, ha⟩ := Res.bind_ok_inv he
          obtain ⟨b, _, hb⟩ := Res.bind_ok_inv ha
          cases hb; simp

/-- **C69** MQTT_SerializeAck: the size of the buffer is checked first. -/
theorem C69_ack (t : UInt8) (id : UInt16) (fb : Option FixedBuffer) :
    (noBuffer fb → serializeAck fb t id = .ok (.badParameter, memoryOf fb)) ∧
    (∀ buf size, fb = some ⟨some buf, size⟩ → size < 4 → serializeAck fb t id = .ok (.noMemory, some buf)) ∧
    (∀ buf size, fb = some ⟨some buf, size⟩ → 4 ≤ size → ackRefused t id → serializeAck fb t id = .ok (.badParameter, some buf)) ∧
    (∀ buf size, fb = some ⟨some buf, size⟩ → 4 ≤ size → ¬ ackRefused t id →
      ∀ st m, serializeAck fb t id = .ok (st, m) → st = .success) := by
  refine ⟨fun h => ?_, ?_, ?_, ?_⟩
  · match fb with
    | none => rfl
    | some ⟨none, _⟩ => rfl
    | some ⟨some _, _⟩ => exact absurd h noBuffer_some
  · rintro buf size rfl h
    simp [serializeAck, h]
  · rintro buf size rfl h hr
    unfold serializeAck
    simp only [show ¬ size < 4 by omega, if_false]
    rcases hr with h | h
    · simp [h]
    · by_cases h0 : id = 0
      · simp [h0]
      · rw [if_neg h0]
        exact if_neg h
  · rintro buf size rfl h hr st m
    have h0 : id ≠ 0 := fun h => hr (Or.inl h)
    have h1 : t = ptPUBACK ∨ t = ptPUBREC ∨ t = ptPUBREL ∨ t = ptPUBCOMP := Classical.byContradiction fun h => hr (Or.inr h)
    unfold serializeAck
    simp only [show ¬ size < 4 by omega, if_false]
    rw [if_neg h0, if_pos h1]
    intro he
    obtain ⟨a, _, ha⟩ := Res.bind_ok_inv he
    obtain ⟨b, _, hb⟩ := Res.bind_ok_inv ha
    obtain ⟨c, _, hc⟩ := Res.bind_ok_inv hb
    obtain ⟨d, _, hd⟩ := Res.bind_ok_inv hc
    cases hd; rfl

/-- **C69** MQTT_DeserializePublish: no undefined behaviour for any packet whose bytes can be read. -/
theorem C69_deserialize_publish {W : Nat} (pk : Option PacketInfo) (id0 : UInt16) (hr : readable pk) (hW : ∀ x, pk = some x → x.remainingLength < W) :
    ∃ st res, mqttDeserializePublish W pk id0 = .ok (st, res) ∧ (st = .badParameter ↔ publishPacketRefused pk) ∧ (st ≠ .success → res = none) := by
  match pk, hr, hW with
  | none, _, _ => exact ⟨_, _, rfl, ⟨fun _ x hx => (by cases hx), fun _ => rfl⟩, fun _ => rfl⟩
  | some ⟨t, none, n, h⟩, _, _ =>
    refine ⟨.badParameter, none, ?_, ⟨fun _ x hx => by cases hx; exact Or.inr rfl, fun _ => rfl⟩, fun _ => rfl⟩
    simp [mqttDeserializePublish]
  | some ⟨t, some m, n, h⟩, hr, hW =>
    have hl : n ≤ m.length := hr _ _ rfl rfl
    by_cases ht : t.toNat / 16 = 3
    · have hm : m = m.take n ++ m.drop n := (List.take_append_drop n m).symm
      have hn : (m.take n).length = n := by simp [hl]
      obtain ⟨st, res, e1, e2, e3, _⟩ := C10_publish_parsing (W := W) t (m.take n) (m.drop n) h id0 ht (by rw [hn]; exact hW _ rfl)
      rw [← hm, hn] at e1
      refine ⟨st, res, e1, ⟨?_, fun hp => ?_⟩, ?_⟩
      · rintro rfl; rcases e2 with h | h <;> cases h
      · rcases hp _ rfl with h | h
        · exact absurd ht h
        · cases h
      · intro hs
        cases res with
        | none => rfl
        | some x => exact absurd (e3.mpr rfl) hs
    · refine ⟨.badParameter, none, ?_, ⟨fun _ x hx => by cases hx; exact Or.inl ht, fun _ => rfl⟩, fun _ => rfl⟩
      have htab : ∀ t : UInt8, t.toNat / 16 ≠ 3 → (t &&& 0xF0) ≠ ptPUBLISH := by decide +kernel
      simp [mqttDeserializePublish, htab t ht]

/-- **C69** MQTT_DeserializeAck: no undefined behaviour for any packet whose bytes can be read, whatever places for the results are missing; MQTTBadParameter exactly if
one is missing that the type of the packet needs, and then nothing is written. -/
theorem C69_deserialize_ack (pk : Option PacketInfo) (id : Option UInt16) (session : Option Bool) (hr : readable pk) :
    ∃ st id' session', mqttDeserializeAck pk id session = .ok (st, id', session') ∧ (st = .badParameter ↔ ackPacketRefused pk id session) ∧
      (st = .badParameter → id' = id ∧ session' = session) ∧ (id'.isSome = id.isSome) ∧ (session'.isSome = session.isSome) := by
  match pk, hr with
  | none, _ => exact ⟨_, _, _, rfl, ⟨fun _ x hx => (by cases hx), fun _ => rfl⟩, fun _ => ⟨rfl, rfl⟩, rfl, rfl⟩
  | some ⟨t, d, n, h⟩, hr =>
    by_cases hp : ackPacketRefused (some ⟨t, d, n, h⟩) id session
    · refine ⟨.badParameter, id, session, ?_, ⟨fun _ => hp, fun _ => rfl⟩, fun _ => ⟨rfl, rfl⟩, rfl, rfl⟩
      rcases hp _ rfl with ⟨h1, h2⟩ | ⟨h1, h2, h3⟩ | ⟨h1, h2⟩
      · dsimp only at h1
        subst h1; subst h2
        simp [mqttDeserializeAck, ptCONNACK]
      · dsimp only at h1 h2
        subst h3
        simp [mqttDeserializeAck, ptCONNACK, ptPINGRESP, h1, h2]
      · dsimp only at h1 h2
        subst h2
        simp only [mqttDeserializeAck, ptCONNACK, ptPINGRESP, h1, ne_eq, not_false_eq_true, and_true, if_true]
        split
        · rfl
        · split <;> rfl
    · have key : ∃ st id' session', mqttDeserializeAck (some ⟨t, d, n, h⟩) id session = .ok (st, id', session') ∧ st ≠ .badParameter ∧
          (id'.isSome = id.isSome) ∧ (session'.isSome = session.isSome) := by
        have hc : ¬ (t = 0x20 ∧ session = none ∨ t ≠ 0x20 ∧ t ≠ 0xD0 ∧ id = none ∨ t ≠ 0xD0 ∧ d = none) :=
          fun hh => hp fun x hx => by cases hx; exact hh
        by_cases t1 : t = 0xD0
        · subst t1
          refine ⟨deserializePingresp ⟨0xD0, d, n, h⟩, id, session, ?_, ?_, rfl, rfl⟩
          · simp [mqttDeserializeAck, ptCONNACK, ptPINGRESP, ptSUBACK]
          · unfold deserializePingresp
            split <;> simp
        · cases d with
          | none => exact absurd (Or.inr (Or.inr ⟨t1, rfl⟩)) hc
          | some m =>
            have hl : n ≤ m.length := hr _ _ rfl rfl
            have hm : m = m.take n ++ m.drop n := (List.take_append_drop n m).symm
            have hn : (m.take n).length = n := by simp [hl]
            by_cases t2 : t = 0x20
            · subst t2
              cases session with
              | none => exact absurd (Or.inl ⟨rfl, rfl⟩) hc
              | some sp0 =>
                obtain ⟨st, sp, e1, _, _, e2, _⟩ := C12_connack (m.take n) (m.drop n) h id sp0
                rw [← hm, hn] at e1
                exact ⟨st, id, some sp, e1, by rcases e2 with h | h | h <;> simp [h], rfl, rfl⟩
            · cases id with
              | none => exact absurd (Or.inr (Or.inl ⟨t2, t1, rfl⟩)) hc
              | some id0 =>
                by_cases t3 : t = 0x90
                · subst t3
                  obtain ⟨st, id', e1, _, _, e2, _⟩ := C13_suback (m.take n) (m.drop n) h id0 session
                  rw [← hm, hn] at e1
                  exact ⟨st, some id', session, e1, by rcases e2 with h | h | h <;> simp [h], rfl, rfl⟩
                · by_cases t4 : t = 0x40 ∨ t = 0x50 ∨ t = 0x62 ∨ t = 0x70 ∨ t = 0xB0
                  · obtain ⟨st, id', e1, e2, _⟩ := C11_id_acks t (m.take n) (m.drop n) h id0 session t4
                    rw [← hm, hn] at e1
                    exact ⟨st, some id', session, e1, by rcases e2 with h | h <;> simp [h], rfl, rfl⟩
                  · simp only [not_or] at t4
                    obtain ⟨a, b, c, e, f⟩ := t4
                    refine ⟨.badResponse, some id0, session, ?_, by simp, rfl, rfl⟩
                    unfold mqttDeserializeAck
                    simp [ptCONNACK, ptSUBACK, ptPINGRESP, ptUNSUBACK, ptPUBACK, ptPUBREC, ptPUBREL, ptPUBCOMP, t1, t2, t3, a, b, c, e, f]
      obtain ⟨st, id', s', e1, e2, e3, e4⟩ := key
      exact ⟨st, id', s', e1, ⟨fun h => absurd h e2, fun h => absurd h hp⟩, fun h => absurd h e2, e3, e4⟩

/-- **C69** MQTT_GetSubAckStatusCodes. -/
theorem C69_status_codes (pk : Option PacketInfo) (out : Bool) :
    (statusCodesRefused pk out → getSubAckStatusCodes pk out = (.badParameter, none)) ∧
    (¬ statusCodesRefused pk out → (getSubAckStatusCodes pk out).1 = .success) := by
  unfold statusCodesRefused getSubAckStatusCodes
  cases out with
  | false => cases pk <;> simp
  | true =>
    cases pk with
    | none => simp
    | some x =>
      obtain ⟨t, d, n, h⟩ := x
      by_cases h1 : t = 0x90
      · subst h1
        cases d with
        | none => simp [ptSUBACK]
        | some m => by_cases h2 : n < 3 <;> simp [ptSUBACK, h2]
      · simp [ptSUBACK, h1]

/-- **C69** MQTT_GetIncomingPacketTypeAndLength reports an error of the receive function as MQTTRecvFailed and its silence as MQTTNoDataAvailable when they concern the first
byte; one call of the receive function was made then.  Once there is a first byte it reports success or MQTTBadResponse. -/
theorem C69_read_header (rest : List OneRecv) (t : UInt8) :
    getIncomingPacketTypeAndLength (.fail :: rest) = (⟨.recvFailed, 0, 0, 0⟩, rest) ∧
    getIncomingPacketTypeAndLength (.none :: rest) = (⟨.noDataAvailable, 0, 0, 0⟩, rest) ∧
    ((getIncomingPacketTypeAndLength (.byte t :: rest)).1.status = .success ∨ (getIncomingPacketTypeAndLength (.byte t :: rest)).1.status = .badResponse) := by
  refine ⟨rfl, rfl, ?_⟩
  unfold getIncomingPacketTypeAndLength
  dsimp only
  split
  · split
    · exact Or.inr rfl
    · exact Or.inl rfl
  · exact Or.inr rfl

theorem processLoop_status (buf : List UInt8) (index rem mul n : Nat) (x : Status × Nat × Nat)
    (h : processRemainingLengthLoop buf index rem mul n = .ok x) : x.1 = .success ∨ x.1 = .badResponse ∨ x.1 = .needMoreBytes := by
  induction hk : index - n generalizing rem mul n with
  | zero =>
    unfold processRemainingLengthLoop at h
    split at h
    · cases h; simp
    · rw [dif_neg (by omega)] at h
      cases h; simp
  | succ k ih =>
    unfold processRemainingLengthLoop at h
    split at h
    · cases h; simp
    · by_cases hi : index > n + 1
      · rw [dif_pos hi] at h
        obtain ⟨b, _, h⟩ := Res.bind_ok_inv h
        dsimp only at h
        split at h
        · cases h; simp
        · split at h
          · exact ih _ _ (n + 1) h (by omega)
          · cases h; simp
      · rw [dif_neg hi] at h
        cases h; simp

/-- **C69** The remaining functions refuse missing pointers and empty lists, and answer otherwise. -/
theorem C69_missing (W : Nat) (ty : SubType) (set : Bool) (index : Nat) (buf : List UInt8) (b : UInt8) :
    (getPublishPacketSize W none).status = .badParameter ∧ (getSubscriptionPacketSize W ty none).status = .badParameter ∧
    (getSubscriptionPacketSize W ty (some [])).status = .badParameter ∧
    getDisconnectPacketSize false = (.badParameter, 0) ∧ getPingreqPacketSize false = (.badParameter, 0) ∧
    getDisconnectPacketSize true = (.success, disconnectPacket.length) ∧ getPingreqPacketSize true = (.success, pingreqPacket.length) ∧
    updateDuplicatePublishFlag none set = (.badParameter, none) ∧
    processIncomingPacketTypeAndLength none index = .ok ⟨.badParameter, 0, 0, 0⟩ ∧
    processIncomingPacketTypeAndLength (some buf) 0 = .ok ⟨.noDataAvailable, 0, 0, 0⟩ ∧
    (∀ r, processIncomingPacketTypeAndLength (some (b :: buf)) (index + 1) = .ok r → r.status ≠ .badParameter ∧ r.status ≠ .noDataAvailable) := by
  refine ⟨rfl, rfl, rfl, rfl, rfl, by decide +kernel, by decide +kernel, rfl, rfl, rfl, ?_⟩
  intro r h
  unfold processIncomingPacketTypeAndLength at h
  dsimp only at h
  rw [if_neg (by omega)] at h
  obtain ⟨t, _, h⟩ := Res.bind_ok_inv h
  split at h
  · obtain ⟨x, hx, h⟩ := Res.bind_ok_inv h
    obtain ⟨st, n, hd⟩ := x
    cases h
    unfold processRemainingLength at hx
    obtain ⟨⟨st', a, c⟩, hy, hz⟩ := Res.bind_ok_inv hx
    have := processLoop_status _ _ _ _ _ _ hy
    dsimp only at hz this
    rcases this with rfl | rfl | rfl <;> simp only [reduceCtorEq, if_true, if_false] at hz
    · split at hz <;> cases hz <;> simp
    · cases hz; simp
    · cases hz; simp
  · cases h
    simp

/-! ### Non-vacuity: both sides of every condition occur -/

example : publishRefused true (some ⟨.qos1, false, false, some [0x61], 1, none, 0⟩) 0 (some ⟨some [9, 9, 9, 9, 9, 9, 9], 7⟩) ∧
    ¬ publishRefused true (some ⟨.qos1, false, false, some [0x61], 1, none, 0⟩) 5 (some ⟨some [9, 9, 9, 9, 9, 9, 9], 7⟩) ∧
    serializePublish (2 ^ 32) (some ⟨.qos1, false, false, some [0x61], 1, none, 0⟩) 5 5 (some ⟨some [9, 9, 9, 9, 9, 9, 9], 7⟩) =
      .ok (.success, some [0x32, 5, 0, 1, 0x61, 0, 5]) ∧
    publishRefused true (some ⟨.qos1, false, false, some [0x61], 1, none, 2⟩) 5 (some ⟨some [9, 9], 2⟩) ∧
    ¬ publishRefused false (some ⟨.qos1, false, false, some [0x61], 1, none, 2⟩) 5 (some ⟨some [9, 9], 2⟩) := by
  refine ⟨Or.inr fun x hx => ?_, ?_, by decide +kernel, Or.inr fun x hx => ?_, ?_⟩
  · cases hx; simp
  · rintro (h | h)
    · exact noBuffer_some h
    · have := h _ rfl; simp at this
  · cases hx; simp
  · rintro (h | h)
    · exact noBuffer_some h
    · have := h _ rfl; simp at this

/-- A PUBACK without a place for the id, a CONNACK without one, a PINGRESP without a body. -/
example : ackPacketRefused (some ⟨0x40, some [1, 2], 2, 2⟩) none (some false) ∧ ¬ ackPacketRefused (some ⟨0x40, some [1, 2], 2, 2⟩) (some 0) none ∧
    mqttDeserializeAck (some ⟨0x40, some [1, 2], 2, 2⟩) none (some false) = .ok (.badParameter, none, some false) ∧
    ¬ ackPacketRefused (some ⟨0x20, some [1, 0], 2, 2⟩) none (some false) ∧
    mqttDeserializeAck (some ⟨0x20, some [1, 0], 2, 2⟩) none (some false) = .ok (.success, none, some true) ∧
    ¬ ackPacketRefused (some ⟨0xD0, none, 0, 2⟩) none none ∧ mqttDeserializeAck (some ⟨0xD0, none, 0, 2⟩) none none = .ok (.success, none, none) ∧
    readable (some ⟨0x40, some [1, 2], 2, 2⟩) := by
  refine ⟨fun x hx => by cases hx; simp, fun h => by have := h _ rfl; simp at this, by decide +kernel, fun h => by have := h _ rfl; simp at this,
    by decide +kernel, fun h => by have := h _ rfl; simp at this, by decide +kernel, ?_⟩
  intro x m hx hm
  cases hx; cases hm; decide

example : ¬ publishPacketRefused (some ⟨0x30, some [0, 1, 0x61], 3, 2⟩) ∧ publishPacketRefused (some ⟨0x40, some [0, 1, 0x61], 3, 2⟩) ∧
    readable (some ⟨0x30, some [0, 1, 0x61], 3, 2⟩) := by
  refine ⟨fun h => by have := h _ rfl; simp at this, fun x hx => by cases hx; simp, ?_⟩
  intro x m hx hm
  cases hx; cases hm; decide

end Mqtt
