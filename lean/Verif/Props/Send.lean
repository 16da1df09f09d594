/-
Sending: C27, C28, C31, C49, C50.

`FromInit g h w`: the world `w` was reached from an initialised context by the history `h` of API calls, each with any behaviour of the
transport, the clock and the callbacks.  `callIn g w e c` is one more call `c` with any behaviour `e` of the environment (the scripts in `e`
may be of any length; where they end the device crashes, so all crash points are included).  `callEvents g w e c` are the interactions with
the environment in that call, `wire` the bytes the transport accepted.
-/
import Verif.Proof.CallVec
import Verif.Proof.SendCount
import Verif.Props.Example

namespace Mqtt
open Spec
set_option linter.unusedSimpArgs false

/-! ### C50 -/

/-- **C50** No call in a history leads to undefined behaviour (an access outside of an object, a null dereference) or a failed assertion. -/
theorem C50_no_undefined_behaviour {g : Cfg} {h : List (ApiCall × ApiRet)} {w : World} (hh : FromInit g h w) (e : Env) (c : ApiCall)
    (hv : ValidCall g c) : ∀ er w', callIn g w e c ≠ .ub er w' := by
  intro er w' he
  obtain ⟨hg, hidx, s, hrep⟩ := hh.good
  rcases call_cases hg hidx hrep e hv with ⟨r, es, w1, h1, _⟩ | ⟨es, w1, h1, _⟩ <;> rw [h1] at he <;> cases he

/-- Non-vacuity of C50: a session with a QoS 2 publish in flight, and a call in it. -/
example : FromInit Ex.g (Ex.played Ex.session).1 (Ex.played Ex.session).2 ∧ ValidCall Ex.g (Ex.publishCall .qos1 8) ∧
    (Ex.played Ex.session).2.ctx.connectStatus = .connected :=
  ⟨Ex.session_fromInit, Ex.publishValid _ _, Ex.session_end.1⟩

/-- The restriction on `MQTT_CancelCallback` in C50 is needed: id 0 fails the assertion in `MQTT_RemoveStateRecord`. -/
theorem C50_cancel_zero : ∃ w', callIn Ex.g (Ex.played Ex.session).2 (Ex.env []) (.cancelCallback 0) = .ub .assertFailed w' := by
  refine ⟨{ (Ex.played Ex.session).2 with env := Ex.env [], trace := (Ex.played Ex.session).2.trace ++ [.pre] }, ?_⟩
  decide +kernel

/-! ### C27 -/

/-- **C27** The bytes the transport accepts in a call of `MQTT_Publish`, `MQTT_Subscribe`, `MQTT_Unsubscribe`, `MQTT_Ping` or `MQTT_Disconnect`
are at every moment a prefix of the packet (`pk`); they are all of it if the call reports success, and not if it reports
`MQTTSendFailed`. -/
theorem C27_sent_bytes_are_a_prefix {g : Cfg} {h : List (ApiCall × ApiRet)} {w : World} (hh : FromInit g h w) (e : Env) (c : ApiCall)
    (hv : ValidCall g c) {pk : List UInt8} (hp : callPacket c = some pk) :
    (∀ n, wire ((callEvents g w e c).take n) <+: pk) ∧
    (∀ w', callIn g w e c = .done (.status .success) w' → wire (callEvents g w e c) = pk) ∧
    (∀ w', callIn g w e c = .done (.status .sendFailed) w' → wire (callEvents g w e c) ≠ pk) := by
  obtain ⟨hg, hidx, s, hrep⟩ := hh.good
  have mono : ∀ (es : List Event) n, wire (es.take n) <+: wire es := by
    intro es n
    refine ⟨wire (es.drop n), ?_⟩
    rw [← wire_append, List.take_append_drop]
  rcases call_cases hg hidx hrep e hv with ⟨r, es, w1, h1, h2, hl, hd⟩ | ⟨es, w1, h1, h2, hl, hd⟩
  · have key : ∃ st, r = .status st := by
      cases hd <;> first | exact ⟨_, rfl⟩ | cases hp
    obtain ⟨st, rfl⟩ := key
    obtain ⟨k1, k2, k3⟩ := hd.wire hp
    rw [h1, h2]
    refine ⟨fun n => (mono _ _).trans k1, ?_, ?_⟩ <;> rintro w' ⟨⟩
    · exact k2 rfl
    · exact k3 rfl
  · rw [h1, h2]
    exact ⟨fun n => (mono _ _).trans (hd.wire hp hl), fun w' h => (by cases h), fun w' h => (by cases h)⟩

/-- **C27** for `MQTT_Connect`: at every moment what the transport accepted is a prefix of the CONNECT packet, or it starts with
the whole CONNECT packet (followed by the retransmissions of a resumed session, C38); a call that reports success has sent all of the CONNECT
packet, and nothing else unless the session was present. -/
theorem C27_connect {g : Cfg} {h : List (ApiCall × ApiRet)} {w : World} (hh : FromInit g h w) (e : Env) (ci : ConnectInfo)
    (will : Option PublishInfo) (t : UInt32) (sp0 : Bool) (hv : ValidCall g (.connect (some ci) will t (some sp0))) :
    let c := ApiCall.connect (some ci) will t (some sp0)
    let pk := connectPacket (ci.toSpec will)
    (∀ n, wire ((callEvents g w e c).take n) <+: pk ∨ pk <+: wire ((callEvents g w e c).take n)) ∧
    (∀ st w', callIn g w e c = .done (.connect st (some false)) w' → wire (callEvents g w e c) <+: pk) ∧
    (∀ sp w', callIn g w e c = .done (.connect .success sp) w' → pk <+: wire (callEvents g w e c)) := by
  intro c pk
  obtain ⟨hg, hidx, s, hrep⟩ := hh.good
  have mono : ∀ (es : List Event) n, wire (es.take n) <+: wire es := by
    intro es n
    refine ⟨wire (es.drop n), ?_⟩
    rw [← wire_append, List.take_append_drop]
  have both : ∀ es : List Event, (wire es <+: pk ∨ pk <+: wire es) → ∀ n, wire (es.take n) <+: pk ∨ pk <+: wire (es.take n) := by
    intro es h n
    rcases h with h | h
    · exact Or.inl ((mono es n).trans h)
    · exact List.prefix_or_prefix_of_prefix (mono es n) h
  rcases call_cases hg hidx hrep e hv with ⟨r, es, w1, h1, h2, hl, hd⟩ | ⟨es, w1, h1, h2, hl, hd⟩
  · cases hd with
    | connect hd =>
      rw [h1, h2]
      have hw := hd.wire
      refine ⟨both es ?_, ?_, ?_⟩
      · rcases hw with ⟨h, _⟩ | ⟨h, _⟩ | ⟨_, h⟩
        · exact Or.inl h
        · exact Or.inl (by rw [h]; exact List.prefix_refl _)
        · exact Or.inr h
      · rintro st w' ⟨⟩
        rcases hw with ⟨h, _⟩ | ⟨h, _⟩ | ⟨h, _⟩
        · exact h
        · rw [h]; exact List.prefix_refl _
        · cases h
      · rintro sp w' ⟨⟩
        rcases hw with ⟨_, _, h⟩ | ⟨h, _⟩ | ⟨_, h⟩
        · exact absurd rfl h
        · rw [h]; exact List.prefix_refl _
        · exact h
    | connectNull h3 => rcases h3 with h3 | h3 <;> cases h3
  · cases hd with
    | connect hd =>
      rw [h1, h2]
      exact ⟨both es hd.wire, fun st w' h => (by cases h), fun sp w' h => (by cases h)⟩

/-- **C27** for the vector sends themselves, whatever the partition of the packet into vectors: what the transport accepted is a prefix of
the packet; a count is reported exactly if no transport call failed, and then it is the number of bytes accepted. -/
theorem C27_any_partition (g : Cfg) (vec : List IoVec) (hvec : ∀ v ∈ vec, HasBytes v.iov_base v.iov_len) (hne : vec ≠ []) (w : World) :
    let o := sendMessageVector g vec w
    let es := newEvents w o
    wire es <+: vecContents vec ∧ (∀ n w', o = .done (some n) w' → (wire es).length = n ∧ hasFail es = false) ∧
    (∀ w', o = .done none w' → wire es ≠ vecContents vec ∧ hasFail es = true) := by
  obtain ⟨vecs, hr, hbs⟩ := VecBytes.of_contents hvec
  rw [← hbs]
  have h := sendMessageVector_spec g vec vecs hr hne w
  intro o es
  cases ho : sendMessageVector g vec w with
  | done r w' =>
    obtain ⟨es', n, hu, h1, h2, h3, h4, h5⟩ := wp_done h ho
    have he : es = es' := newEvents_done ho hu.trace
    have ho : o = .done r w' := ho
    rw [he, ho]
    refine ⟨by rw [h2]; exact List.take_prefix _ _, ?_, ?_⟩
    · rintro m w1 ⟨⟩
      rw [h4 m rfl, h2, h3]
      exact ⟨by rw [List.length_take]; omega, rfl⟩
    · rintro w1 ⟨⟩
      refine ⟨fun h => ?_, h3⟩
      have := congrArg List.length h
      rw [h2, List.length_take] at this
      have := h5 rfl
      omega
  | stuck w' =>
    obtain ⟨es', hu, h1⟩ := wp_stuck h ho
    have he : es = es' := newEvents_stuck ho hu.trace
    have ho : o = .stuck w' := ho
    rw [he, ho]
    exact ⟨h1, fun _ _ h => (by cases h), fun _ h => (by cases h)⟩
  | ub er w' => exact (wp_ub h ho).elim

/-- **C27** for the packets sent from a buffer. -/
theorem C27_buffer (g : Cfg) (bs : List UInt8) (w : World) :
    let o := sendBuffer g bs w
    let es := newEvents w o
    wire es <+: bs ∧ (∀ n w', o = .done (some n) w' → (wire es).length = n ∧ hasFail es = false) ∧
    (∀ w', o = .done none w' → wire es ≠ bs ∧ hasFail es = true) := by
  have h := sendBuffer_spec g bs w
  intro o es
  cases ho : sendBuffer g bs w with
  | done r w' =>
    obtain ⟨es', n, hu, h1, h2, h3, h4, h5⟩ := wp_done h ho
    have he : es = es' := newEvents_done ho hu.trace
    have ho : o = .done r w' := ho
    rw [he, ho]
    refine ⟨by rw [h2]; exact List.take_prefix _ _, ?_, ?_⟩
    · rintro m w1 ⟨⟩
      rw [h4 m rfl, h2, h3]
      exact ⟨by rw [List.length_take]; omega, rfl⟩
    · rintro w1 ⟨⟩
      refine ⟨fun h => ?_, h3⟩
      have := congrArg List.length h
      rw [h2, List.length_take] at this
      have := h5 rfl
      omega
  | stuck w' =>
    obtain ⟨es', hu, h1⟩ := wp_stuck h ho
    have he : es = es' := newEvents_stuck ho hu.trace
    have ho : o = .stuck w' := ho
    rw [he, ho]
    exact ⟨h1, fun _ _ h => (by cases h), fun _ h => (by cases h)⟩
  | ub er w' => exact (wp_ub h ho).elim

/-- Non-vacuity of C27: a publish sent three bytes at a time, and the same publish with a transport that stops after two calls. -/
example : callIn Ex.g (Ex.played Ex.session).2 (Ex.env []) (Ex.publishCall .qos1 8) =
      .done (.status .success) (callIn Ex.g (Ex.played Ex.session).2 (Ex.env []) (Ex.publishCall .qos1 8)).world ∧
    wire (callEvents Ex.g (Ex.played Ex.session).2 (Ex.env []) (Ex.publishCall .qos1 8)) = [0x32, 9, 0, 2, 97, 98, 0, 8, 1, 2, 3] ∧
    callPacket (Ex.publishCall .qos1 8) = some [0x32, 9, 0, 2, 97, 98, 0, 8, 1, 2, 3] ∧
    wire (callEvents Ex.g (Ex.played Ex.session).2 { Ex.env [] with sends := [.accept 3, .accept 1] } (Ex.publishCall .qos1 8)) = [0x32, 9, 0, 2] := by
  decide +kernel

/-- Non-vacuity of `C27_connect`. -/
example : wire (callEvents Ex.g Ex.w0 (Ex.env [0x20, 2, 1, 0]) Ex.connectCall) = connectPacket (Ex.ci.toSpec none) ∧
    callIn Ex.g Ex.w0 (Ex.env [0x20, 2, 1, 0]) Ex.connectCall =
      .done (.connect .success (some true)) (callIn Ex.g Ex.w0 (Ex.env [0x20, 2, 1, 0]) Ex.connectCall).world := by
  decide +kernel

/-! ### C28 -/

/-- **C28** A successful `MQTT_Publish` sends what `MQTT_SerializePublish` writes for the same arguments.  (A publish with DUP and QoS 0 is
left out: see `C28_dup_qos0`.) -/
theorem C28_publish {g : Cfg} {h : List (ApiCall × ApiRet)} {w w' : World} (hh : FromInit g h w) (e : Env) (p : PublishInfo) (id : UInt16)
    (hv : ValidCall g (.publish (some p) id)) (hd : ¬ (p.dup = true ∧ p.qos = .qos0))
    (hr : callIn g w e (.publish (some p) id) = .done (.status .success) w') :
    ∃ r s, getPublishPacketSize g.W (some p) = ⟨.success, r, s⟩ ∧ (wire (callEvents g w e (.publish (some p) id))).length = s ∧
      ∀ (buf : List UInt8) (size : Nat), size ≤ buf.length → s ≤ size →
        serializePublish g.W (some p) id r (some ⟨some buf, size⟩) =
          .ok (.success, some (wire (callEvents g w e (.publish (some p) id)) ++ buf.drop s)) := by
  have hp : callPacket (.publish (some p) id) = some (publishPacket (p.toSpec id)) := rfl
  have hw := (C27_sent_bytes_are_a_prefix hh e _ hv hp).2.1 w' hr
  obtain ⟨v1, v2⟩ := hv p rfl
  have hs : mqttPublish g (some p) id { w with env := e } = .done .success w' := by
    have : M.bind (mqttPublish g (some p) id) (fun st => M.pure (ApiRet.status st)) { w with env := e } = .done (.status .success) w' := hr
    unfold M.bind at this
    cases hm : mqttPublish g (some p) id { w with env := e } with
    | done st w1 => rw [hm] at this; cases this; rfl
    | stuck w1 => rw [hm] at this; cases this
    | ub er w1 => rw [hm] at this; cases this
  obtain ⟨a1, a2⟩ := mqttPublish_success hs
  have hl := publish_length (d := p.dup) hh.cfg.size v1 v2 a1 a2
  refine ⟨(getPublishPacketSize g.W (some p)).remainingLength, (getPublishPacketSize g.W (some p)).packetSize, by rw [← a2], ?_, ?_⟩
  · rw [hw]; exact hl.1
  · intro buf size hb hsz
    rw [serializePublish_eq hh.cfg.size v1 v2 hb (by rw [← a2]), hw, if_neg, if_neg (by omega)]
    rintro (h1 | h1 | h1)
    · exact hl.2.2.1 h1
    · exact hl.2.2.2 h1
    · exact hd h1

/-- The excluded case of C28: `MQTT_Publish` sends a QoS 0 publish with the DUP flag, which `MQTT_SerializePublish` rejects. -/
theorem C28_dup_qos0 : ∃ p : PublishInfo, ValidCall Ex.g (.publish (some p) 0) ∧
    wire (callEvents Ex.g (Ex.played Ex.session).2 (Ex.env []) (.publish (some p) 0)) = [0x38, 7, 0, 2, 97, 98, 1, 2, 3] ∧
    serializePublish Ex.g.W (some p) 0 7 (some ⟨some (List.replicate 9 0), 9⟩) = .ok (.badParameter, some (List.replicate 9 0)) := by
  refine ⟨{ Ex.pub .qos0 with dup := true }, ?_, by decide +kernel, by decide +kernel⟩
  intro c h
  cases h
  exact ⟨⟨fun _ => ⟨_, rfl, by decide⟩, fun _ => ⟨_, rfl, by simp [Ex.pub]⟩⟩, by simp [Ex.pub, Ex.g]⟩

/-- **C28** for `MQTT_Subscribe` and `MQTT_Unsubscribe`: any number of filters, any size of the vector groups. -/
theorem C28_subscription {g : Cfg} {h : List (ApiCall × ApiRet)} {w w' : World} (hh : FromInit g h w) (e : Env) (ty : SubType) (l : List SubscribeInfo)
    (id : UInt16) (c : ApiCall) (hc : c = match ty with | .subscribe => .subscribe (some l) id | .unsubscribe => .unsubscribe (some l) id)
    (hv : ValidCall g c) (hr : callIn g w e c = .done (.status .success) w') :
    ∃ r s, getSubscriptionPacketSize g.W ty (some l) = ⟨.success, r, s⟩ ∧ (wire (callEvents g w e c)).length = s ∧
      ∀ (buf : List UInt8) (size : Nat), size ≤ buf.length → s ≤ size →
        serializeSubscription g.W ty (some l) id r (some ⟨some buf, size⟩) =
          .ok (.success, some (wire (callEvents g w e c) ++ buf.drop s)) := by
  have key : callPacket c = some (subPacket ty id l) ∧ ValidSubs l ∧ 2 + filtersLen ty l < g.W ∧
      mqttSubUnsub g ty (some l) id { w with env := e } = .done .success w' := by
    subst hc
    have sub : ∀ ty, M.bind (mqttSubUnsub g ty (some l) id) (fun st => M.pure (ApiRet.status st)) { w with env := e } = .done (.status .success) w' →
        mqttSubUnsub g ty (some l) id { w with env := e } = .done .success w' := by
      intro ty this
      unfold M.bind at this
      cases hm : mqttSubUnsub g ty (some l) id { w with env := e } with
      | done st w1 => rw [hm] at this; cases this; rfl
      | stuck w1 => rw [hm] at this; cases this
      | ub er w1 => rw [hm] at this; cases this
    cases ty with
    | subscribe => exact ⟨rfl, (hv l rfl).1, (hv l rfl).2, sub _ hr⟩
    | unsubscribe => exact ⟨rfl, (hv l rfl).1, (hv l rfl).2, sub _ hr⟩
  obtain ⟨hp, v1, v2, hs⟩ := key
  have hw := (C27_sent_bytes_are_a_prefix hh e _ hv hp).2.1 w' hr
  obtain ⟨a1, a2⟩ := mqttSubUnsub_success hs
  have hid : id ≠ 0 := by
    intro h0
    unfold validateSubscribeUnsubscribeParams at a1
    simp only [h0, if_true] at a1
    split at a1 <;> cases a1
  have hx : getSubscriptionPacketSize g.W ty (some l) = ⟨.success, (getSubscriptionPacketSize g.W ty (some l)).remainingLength,
    (getSubscriptionPacketSize g.W ty (some l)).packetSize⟩ := by rw [← a2]
  refine ⟨_, _, hx, ?_, ?_⟩
  · rw [hw]
    exact (serializeSubscription_eq hh.cfg.size (id := id) (buf := []) (size := 0) v1 v2 (Nat.zero_le _) hx).2.2.1.symm
  · intro buf size hb hsz
    rw [(serializeSubscription_eq hh.cfg.size v1 v2 hb hx).1, if_neg hid, if_neg (by omega), hw]

/-- **C28** for `MQTT_Connect`: what it sends starts with what `MQTT_SerializeConnect` writes. -/
theorem C28_connect {g : Cfg} {h : List (ApiCall × ApiRet)} {w w' : World} (hh : FromInit g h w) (e : Env) (ci : ConnectInfo)
    (will : Option PublishInfo) (t : UInt32) (sp0 : Bool) (hv : ValidCall g (.connect (some ci) will t (some sp0))) {sp : Option Bool}
    (hr : callIn g w e (.connect (some ci) will t (some sp0)) = .done (.connect .success sp) w') :
    ∃ r s pk, getConnectPacketSize (some ci) will = ⟨.success, r, s⟩ ∧ pk.length = s ∧
      pk <+: wire (callEvents g w e (.connect (some ci) will t (some sp0))) ∧
      (sp = some false → pk = wire (callEvents g w e (.connect (some ci) will t (some sp0)))) ∧
      ∀ (buf : List UInt8) (size : Nat), size ≤ buf.length → s ≤ size →
        serializeConnect g.W (some ci) will r (some ⟨some buf, size⟩) = .ok (.success, some (pk ++ buf.drop s)) := by
  obtain ⟨hg, hidx, s, hrep⟩ := hh.good
  obtain ⟨_, c2, c3⟩ := C27_connect hh e ci will t sp0 hv
  have k3 := c3 sp w' hr
  have k2 : sp = some false → connectPacket (ci.toSpec will) = wire (callEvents g w e (.connect (some ci) will t (some sp0))) := by
    rintro rfl
    exact List.IsPrefix.eq_of_length_le k3 (c2 _ w' hr).length_le
  have hz : (getConnectPacketSize (some ci) will).status = .success ∧ (∀ x, will = some x → x.pTopicName ≠ none) := by
    rcases call_cases hg hidx hrep e hv with ⟨r, es, w1, h1, h2, hl, hd⟩ | ⟨es, w1, h1, h2, hl, hd⟩
    · rw [hr] at h1
      cases h1
      cases hd with
      | connect hd =>
        cases hd with
        | badSize h => exact absurd rfl h
        | already h1 h2 h3 h4 => split at h4 <;> cases h4
        | notAccepted h1 h2 h3 h4 h5 h6 h7 h8 h9 => exact absurd rfl h9
        | fresh h1 h2 h3 => exact ⟨h1, h3⟩
        | resumed h1 h2 h3 => exact ⟨h1, h3⟩
    · rw [hr] at h1; cases h1
  have hx : getConnectPacketSize (some ci) will = ⟨.success, (getConnectPacketSize (some ci) will).remainingLength,
    (getConnectPacketSize (some ci) will).packetSize⟩ := by rw [← hz.1]
  refine ⟨_, _, connectPacket (ci.toSpec will), hx, (getConnectPacketSize_ok hx (hv ci rfl) hz.2).2.2.2.2.1.symm, k3, k2, ?_⟩
  intro buf size hb hsz
  rw [serializeConnect_eq hh.cfg.size (hv ci rfl) hz.2 hb hx, if_neg (by omega)]

/-- Non-vacuity of C28: a SUBSCRIBE with three filters, sent in groups of at most four vectors and three bytes at a time. -/
example : let l : List SubscribeInfo := [⟨.qos1, some [97], 1⟩, ⟨.qos2, some [98, 99], 2⟩, ⟨.qos0, some [100], 1⟩]
    wire (callEvents Ex.g (Ex.played Ex.session).2 (Ex.env []) (.subscribe (some l) 5)) =
      [0x82, 15, 0, 5, 0, 1, 97, 1, 0, 2, 98, 99, 2, 0, 1, 100, 0] ∧
    callIn Ex.g (Ex.played Ex.session).2 (Ex.env []) (.subscribe (some l) 5) =
      .done (.status .success) (callIn Ex.g (Ex.played Ex.session).2 (Ex.env []) (.subscribe (some l) 5)).world := by
  decide +kernel

/-! ### C49 -/

/-- **C49** Whatever `MQTT_Publish` hands to the store callback, `MQTT_GetBytesInMQTTVec` gives the length and `MQTT_SerializeMQTTVec` the bytes of
the PUBLISH packet with the DUP flag set; the id is that of the publish, and the QoS is not 0. -/
theorem C49_stored_copy {g : Cfg} {h : List (ApiCall × ApiRet)} {w : World} (hh : FromInit g h w) (e : Env) (p : PublishInfo) (id : UInt16)
    (hv : ValidCall g (.publish (some p) id)) {i : UInt16} {vec : List IoVec} {ok : Bool}
    (hs : Event.store i vec ok ∈ callEvents g w e (.publish (some p) id)) :
    i = id ∧ p.qos ≠ .qos0 ∧
    let pk := publishPacket { p.toSpec id with dup := true }
    getBytesInMQTTVec g.W vec = pk.length ∧
    ∀ mem : List UInt8, pk.length ≤ mem.length → serializeMQTTVec mem vec = .ok (pk ++ mem.drop pk.length) := by
  obtain ⟨hg, hidx, s, hrep⟩ := hh.good
  have hst : StoresOk p id (callEvents g w e (.publish (some p) id)) := by
    rcases call_cases hg hidx hrep e hv with ⟨r, es, w1, h1, h2, hl, hd⟩ | ⟨es, w1, h1, h2, hl, hd⟩
    · rw [h2]; exact hd.stores
    · rw [h2]; exact hd.stores
  obtain ⟨h1, h2, h3⟩ := hst i vec ok hs
  obtain ⟨v1, v2⟩ := hv p rfl
  have hne : newEvents { w with env := e } (mqttPublish g (some p) id { w with env := e }) ≠ [] := by
    rw [← callIn_publish]
    intro h0
    unfold callEvents at hs
    rw [h0] at hs
    cases hs
  obtain ⟨a1, a2⟩ := mqttPublish_acts hne
  have hl := publish_length (d := true) hg.size v1 v2 a1 a2
  have hlt : (publishPacket { p.toSpec id with dup := true }).length < g.W := by
    have := hg.size
    have h4 := hl.2.1
    unfold maxRemaining at h4
    rw [hl.1]
    omega
  exact ⟨h1, h2, h3.getBytes hlt, fun mem hm => h3.serialize hm⟩

/-- Non-vacuity of C49: the store callback is called. -/
example : (callEvents Ex.g (Ex.played Ex.session).2 (Ex.env []) (Ex.publishCall .qos1 8)).any (fun e => match e with | .store 8 _ true => true | _ => false) = true := by
  decide +kernel

/-! ### C31 -/

/-- **C31** A send operation over vectors makes a bounded number of transport calls.  `es` are its interactions.  If the clock is a real clock
(32 bits of it are seen; it may wrap around) that advances at least a millisecond per transport call, there are at most
`MQTT_SEND_TIMEOUT_MS` + 1 calls; if every call takes at least a byte, there are at most as many as bytes and vectors together.  The operation returns
as long as the environment answers: it reads the clock at most twice per transport call and once more, and it does not wait for anything else. -/
theorem C31_vector_send_terminates (g : Cfg) (vec : List IoVec) (hvec : ∀ v ∈ vec, HasBytes v.iov_base v.iov_len) (hne : vec ≠ []) (w : World) :
    let o := sendMessageVector g vec w
    let es := newEvents w o
    clockReads es ≤ 2 * sendCalls es + 1 ∧
    (∀ gap now low, g.sendTimeoutMs.toNat + 1 + 2 * gap < 2 ^ 32 → realClock gap now low es → sendCalls es ≤ g.sendTimeoutMs.toNat + 1) ∧
    (progress es → sendCalls es ≤ (vecContents vec).length + vec.length) ∧
    (∀ N, sendCalls es ≤ N → N < w.env.sends.length → 2 * N + 1 < w.env.clock.length → ∃ r w', o = .done r w') := by
  obtain ⟨vecs, hr, hbs⟩ := VecBytes.of_contents hvec
  rw [← hbs]
  have hlen : vecs.length = vec.length := by
    clear hne hvec hbs
    induction vec generalizing vecs with
    | nil => cases hr; rfl
    | cons v vs ih =>
      unfold resolveVec at hr
      cases h1 : readMem v.iov_base v.iov_len with
      | ub e => rw [h1] at hr; cases hr
      | ok b =>
        rw [h1] at hr
        cases h2 : resolveVec vs with
        | ub e => rw [h2] at hr; cases hr
        | ok bs => rw [h2] at hr; cases hr; simp [ih bs h2]
  have h := sendMessageVector_count g vec vecs hr hne w
  intro o es
  cases ho : sendMessageVector g vec w with
  | done r w' =>
    obtain ⟨es', hu, hb⟩ := wp_done h ho
    have he : es = es' := newEvents_done ho hu.trace
    rw [he]
    exact ⟨hb.reads, hb.clock, by rw [← hlen]; exact hb.bytes, fun _ _ _ _ => ⟨r, w', ho⟩⟩
  | stuck w' =>
    obtain ⟨es', hu, hb, hor⟩ := wp_stuck h ho
    have he : es = es' := newEvents_stuck ho hu.trace
    rw [he]
    refine ⟨hb.reads, hb.clock, by rw [← hlen]; exact hb.bytes, ?_⟩
    intro N h1 h2 h3
    exfalso
    have h4 := hu.sends
    have h5 := hu.clock
    have h6 := hb.reads
    rcases hor with h7 | h7
    · rw [h7] at h4; simp at h4; omega
    · rw [h7] at h5; simp at h5; omega
  | ub er w' => exact (wp_ub h ho).elim

/-- **C31** for the packets sent from a buffer (acknowledgements, PINGREQ, DISCONNECT, retransmissions). -/
theorem C31_buffer_send_terminates (g : Cfg) (bytes : List UInt8) (w : World) :
    let o := sendBuffer g bytes w
    let es := newEvents w o
    clockReads es ≤ 2 * sendCalls es + 1 ∧
    (∀ gap now low, max 1 g.sendTimeoutMs.toNat + 2 * gap < 2 ^ 32 → realClock gap now low es → sendCalls es ≤ max 1 g.sendTimeoutMs.toNat) ∧
    (progress es → sendCalls es ≤ bytes.length) ∧
    (∀ N, sendCalls es ≤ N → N < w.env.sends.length → 2 * N + 1 < w.env.clock.length → ∃ r w', o = .done r w') := by
  have h := sendBuffer_count g bytes w
  intro o es
  cases ho : sendBuffer g bytes w with
  | done r w' =>
    obtain ⟨es', hu, hb⟩ := wp_done h ho
    have he : es = es' := newEvents_done ho hu.trace
    rw [he]
    exact ⟨hb.reads, hb.clock, hb.bytes, fun _ _ _ _ => ⟨r, w', ho⟩⟩
  | stuck w' =>
    obtain ⟨es', hu, hb, hor⟩ := wp_stuck h ho
    have he : es = es' := newEvents_stuck ho hu.trace
    rw [he]
    refine ⟨hb.reads, hb.clock, hb.bytes, ?_⟩
    intro N h1 h2 h3
    exfalso
    have h4 := hu.sends
    have h5 := hu.clock
    have h6 := hb.reads
    rcases hor with h7 | h7
    · rw [h7] at h4; simp at h4; omega
    · rw [h7] at h5; simp at h5; omega
  | ub er w' => exact (wp_ub h ho).elim

def Ex.stalled : World :=
  ⟨Ex.ctx true, { Ex.env [] with sends := List.replicate 9 (.accept 0), clock := (List.range 30).map fun k => UInt32.ofNat (4294967295 + k) }, []⟩

def Ex.stalledEvents : List Event :=
  [.time 4294967295, .sent [1, 2, 3] (some 0), .time 0, .sent [1, 2, 3] (some 0), .time 1, .sent [1, 2, 3] (some 0), .time 2]

/-- Non-vacuity of C31: a transport that never takes a byte, and a clock that wraps around.  With a timeout of 2 ms the vector send gives up
after 3 calls (`>`), the buffer send after 2 (`>=`). -/
example : newEvents Ex.stalled (sendMessageVector { Ex.g with sendTimeoutMs := 2 } [⟨some [1, 2], 2⟩, ⟨some [3], 1⟩] Ex.stalled) = Ex.stalledEvents ∧
    realClock 1 4294967294 0 Ex.stalledEvents ∧
    sendCalls (newEvents Ex.stalled (sendBuffer { Ex.g with sendTimeoutMs := 2 } [1, 2, 3] Ex.stalled)) = 2 :=
  ⟨by decide +kernel, ⟨4294967295, by omega, by omega, by decide, 4294967296, by omega, by omega, by decide, 4294967297, by omega, by omega, by decide,
    4294967298, by omega, by omega, by decide, trivial⟩, by decide +kernel⟩

end Mqtt
