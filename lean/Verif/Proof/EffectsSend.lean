/-
The sending half of core_mqtt.c outside of the packet builders: acknowledgements, pings and the keep-alive check.
-/
import Verif.Proof.EffectsRecv
import Verif.Proof.Senders
import Verif.Props.Buffers

namespace Mqtt
open Spec
set_option linter.unusedSimpArgs false

/-- Only send calls and clock readings; the bytes on the wire are a prefix of `bs`. -/
def SendX (bs : List UInt8) (es : List Event) : Prop := (∀ e ∈ es, isSendOrTime e = true) ∧ wire es <+: bs

theorem SendX.nil (bs : List UInt8) : SendX bs [] := ⟨by simp, List.nil_prefix⟩

theorem Tr.sends {V : Prop} {w : World} {m : M Status} {bs : List UInt8} (hm : wp m (SendsQ w bs) (SendsE w bs) (fun _ => False) w)
    (hc : w.ctx.connectStatus = .connected) :
    Tr V true m (fun st es h' w' => h' = true ∧ SendDelta w es w' ∧ SentResult bs st es) (SendX bs) w := by
  refine wp_mono hm ?_ ?_ (fun _ h => h.elim)
  · rintro st w' ⟨es, hd, hs⟩
    exact ⟨es, true, hd.fx hc, rfl, hd, hs⟩
  · rintro w' ⟨es, hd, hs⟩
    exact ⟨es, true, hd.fx hc, hd.kinds, hs⟩

theorem sendBuffer_sends (g : Cfg) (bs : List UInt8) (w : World) :
    wp (do
      let r ← sendBuffer g bs
      if r.all (fun n => decide (n < bs.length)) then pure Status.sendFailed else pure .success)
      (SendsQ w bs) (SendsE w bs) (fun _ => False) w := by
  rw [wp_bind]
  refine wp_mono (sendBuffer_spec g bs w) ?_ (fun _ h => h) (fun _ h => h)
  rintro r w' ⟨es, n, hd, hn, hw, hfl, hm, hm0⟩
  rw [wp_ite]
  constructor
  · intro hr
    refine ⟨es, hd, Or.inr ⟨rfl, by rw [hw]; exact List.take_prefix _ _, ?_⟩⟩
    rw [hw]
    refine take_ne ?_
    cases r with
    | none => exact hm0 rfl
    | some m =>
      have := hm m rfl
      subst this
      simpa using hr
  · intro hr
    cases r with
    | none => simp at hr
    | some m =>
      have := hm m rfl
      subst this
      have : ¬ m < bs.length := by simpa using hr
      refine ⟨es, hd, Or.inl ⟨rfl, by simpa using hfl, ?_⟩⟩
      rw [hw, List.take_of_length_le (by omega)]

/-- `sendIfConnected`: outcome. -/
def SentIf (w : World) (bs : List UInt8) (st : Status) (es : List Event) (w' : World) : Prop :=
  (w.ctx.connectStatus ≠ .connected ∧ es = [] ∧ w' = w ∧ st = notConnectedStatus w.ctx.connectStatus) ∨
  (w.ctx.connectStatus = .connected ∧ SendDelta w es w' ∧ SentResult bs st es)

theorem sendIfConnected_tr {V : Prop} (g : Cfg) (bs : List UInt8) (w : World) :
    Tr V true (sendIfConnected g bs)
      (fun st es h' w' => h' = true ∧ SentIf w bs st es w' ∧ (w.ctx.connectStatus = .connected → bs ≠ [] → ∃ r, Event.sent bs r ∈ es))
      (fun es => w.ctx.connectStatus = .connected ∧ SendX bs es) w := by
  unfold sendIfConnected
  refine Tr.getCtx (Tr.ite ?_ ?_)
  · intro hc
    exact Tr.pure ⟨rfl, Or.inl ⟨hc, rfl, rfl, rfl⟩, fun h => absurd h hc⟩
  · intro hc
    have hc : w.ctx.connectStatus = .connected := Classical.not_not.mp hc
    by_cases hb : bs = []
    · refine Tr.mono (Tr.sends (sendBuffer_sends g bs w) hc) ?_ (fun _ h => ⟨hc, h⟩)
      exact fun st es h' w' _ ⟨h1, h2, h3⟩ => ⟨h1, Or.inr ⟨hc, h2, h3⟩, fun _ h => absurd hb h⟩
    · have ho := sendBuffer_offers g bs w hb
      have ho2 : wp (do
          let r ← sendBuffer g bs
          if r.all (fun n => decide (n < bs.length)) then pure Status.sendFailed else pure .success)
          (fun _ w' => ∃ es r, w'.trace = w.trace ++ es ∧ Event.sent bs r ∈ es) (fun _ => True) (fun _ => True) w := by
        rw [wp_bind]
        refine wp_mono ho ?_ (fun _ h => h) (fun _ h => h)
        intro r w' h
        rw [wp_ite]
        exact ⟨fun _ => h, fun _ => h⟩
      refine wp_mono (wp_and (Tr.sends (V := V) (sendBuffer_sends g bs w) hc) ho2) ?_ ?_ (fun _ h => h.1)
      · rintro st w' ⟨⟨es, h', f, h1, h2, h3⟩, es2, r, ht, hm⟩
        have := List.append_cancel_left (f.trace.symm.trans ht)
        exact ⟨es, h', f, h1, Or.inr ⟨hc, h2, h3⟩, fun _ _ => ⟨r, by rw [this]; exact hm⟩⟩
      · rintro w' ⟨⟨es, h', f, h⟩, _⟩
        exact ⟨es, h', f, hc, h⟩

/-- The acknowledgement owed in a state. -/
def ackOf : PubState → Option AckType
  | .pubAckSend => some .puback
  | .pubRecSend => some .pubrec
  | .pubRelSend => some .pubrel
  | .pubCompSend => some .pubcomp
  | _ => none

/-- First byte of an acknowledgement. -/
def AckType.byte : AckType → UInt8
  | .puback => 0x40
  | .pubrec => 0x50
  | .pubrel => 0x62
  | .pubcomp => 0x70

/-- The acknowledgement packet. -/
def ackPacket (ty : AckType) (id : UInt16) : List UInt8 := idPacket ty.byte.toNat id.toNat

theorem ackOf_eq (s : PubState) :
    (getAckTypeToSend s = 0 ∧ ackOf s = none) ∨
    ∃ ty, ackOf s = some ty ∧ getAckTypeToSend s = ty.byte ∧ ty.byte ≠ 0 ∧ getAckFromPacketType ty.byte = .ok ty := by
  cases s <;> first | exact Or.inl ⟨rfl, rfl⟩ | exact Or.inr ⟨_, rfl, rfl, by decide, rfl⟩

theorem serializeAck_eq (ty : AckType) (id : UInt16) :
    serializeAck (some ⟨some [0, 0, 0, 0], 4⟩) ty.byte id =
      .ok (if id = 0 then (.badParameter, some [0, 0, 0, 0]) else (.success, some (ackPacket ty id))) := by
  have h := (C06_ack_buffer ty.byte id [0, 0, 0, 0] 4 (by simp)).2 (by omega)
  have ht : ty.byte = 0x40 ∨ ty.byte = 0x50 ∨ ty.byte = 0x62 ∨ ty.byte = 0x70 := by cases ty <;> decide
  by_cases hid : id = 0
  · rw [if_pos hid]
    exact h.1 (by simp [hid])
  · rw [if_neg hid]
    have hl : (idPacket ty.byte.toNat id.toNat).length = 4 := by
      have h2 : varInt 2 = [2] := by decide +kernel
      simp [idPacket, packet, be16_length, h2]
    obtain ⟨out, h1, h2, h3, _⟩ := h.2.2 (by simp [hid, ht]) (by omega)
    rw [h1]
    rw [hl, List.take_of_length_le (by simp at h2; omega)] at h3
    rw [h3]; rfl

/-- Send calls, clock readings and hooks. -/
def isAckEvent : Event → Bool
  | .sent .. | .time _ | .pre | .post => true
  | _ => false

def AckX (bs : List UInt8) (es : List Event) : Prop := (∀ e ∈ es, isAckEvent e = true) ∧ wire es <+: bs

theorem AckX.nil (bs : List UInt8) : AckX bs [] := ⟨by simp, List.nil_prefix⟩

theorem isAckEvent_of {e : Event} (h : isSendOrTime e = true) : isAckEvent e = true := by cases e <;> simp_all [isSendOrTime, isAckEvent]

theorem SendX.hooked {es : List Event} {b : List UInt8} (h : SendX b es) : AckX b (.pre :: es) := by
  refine ⟨?_, ?_⟩
  · intro e he
    rcases List.mem_cons.mp he with he | he
    · subst he; rfl
    · exact isAckEvent_of (h.1 e he)
  · have : wire (.pre :: es) = wire es := by simp [wire]
    rw [this]; exact h.2

/-- What sending an acknowledgement (or not) did. -/
structure AckDone (id : UInt16) (s : PubState) (w : World) (st : Status) (es : List Event) (w' : World) : Prop where
  kinds : ∀ e ∈ es, isAckEvent e = true
  ctx : ∃ t b T, w'.ctx = { w.ctx with lastPacketTxTime := t, connectStatus := afterFail (hasFail es) w.ctx.connectStatus,
                                       controlPacketSent := b, tables := T }
  cases :
    (ackOf s = none ∧ es = [] ∧ st = .success ∧ w' = w) ∨
    (∃ ty, ackOf s = some ty ∧ id = 0 ∧ es = [] ∧ st = .badParameter ∧ w' = w) ∨
    (∃ ty, ackOf s = some ty ∧ id ≠ 0 ∧ w.ctx.connectStatus ≠ .connected ∧ wire es = [] ∧ hasFail es = false ∧
      st = notConnectedStatus w.ctx.connectStatus ∧ w'.ctx.tables = w.ctx.tables) ∨
    (∃ ty, ackOf s = some ty ∧ id ≠ 0 ∧ w.ctx.connectStatus = .connected ∧ wire es <+: ackPacket ty id ∧ wire es ≠ ackPacket ty id ∧
      st = .sendFailed ∧ w'.ctx.tables = w.ctx.tables ∧ ∃ r, Event.sent (ackPacket ty id) r ∈ es) ∨
    (∃ ty, ackOf s = some ty ∧ id ≠ 0 ∧ w.ctx.connectStatus = .connected ∧ wire es = ackPacket ty id ∧ hasFail es = false ∧
      (∃ o, stateCall w.ctx.tables (.ack .send ty id) = .ok ((st, o), w'.ctx.tables)) ∧ ∀ s0, Represents w.ctx.tables s0 → st = (step s0 (.ack .send ty id)).1.1 ∧ Represents w'.ctx.tables (step s0 (.ack .send ty id)).2)

theorem wire_cons_of_noSent (e : Event) (es : List Event) (h : isSent e = false) : wire (e :: es) = wire es := by
  cases e <;> simp_all [isSent, wire]

theorem hasFail_cons_hook (e : Event) (es : List Event) (h : e = .pre ∨ e = .post) : hasFail (e :: es) = hasFail es := by
  rcases h with rfl | rfl <;> simp [hasFail, isFail]

/-- The bytes `sendPublishAcks` may send. -/
def ackBytes (s : PubState) (id : UInt16) : List UInt8 :=
  match ackOf s with
  | none => []
  | some ty => ackPacket ty id

theorem sendPublishAcks_tr {V : Prop} (g : Cfg) (id : UInt16) (s : PubState) (w : World) :
    Tr V false (sendPublishAcks g id s) (fun st es h' w' => h' = false ∧ AckDone id s w st es w') (AckX (ackBytes s id)) w := by
  unfold sendPublishAcks
  have same : ∃ t b T, w.ctx = { w.ctx with lastPacketTxTime := t, connectStatus := afterFail (hasFail []) w.ctx.connectStatus,
                                            controlPacketSent := b, tables := T } :=
    ⟨w.ctx.lastPacketTxTime, w.ctx.controlPacketSent, w.ctx.tables, by simp [hasFail, afterFail_false]⟩
  refine Tr.ite ?_ ?_
  · intro h0
    rcases ackOf_eq s with ⟨_, h⟩ | ⟨ty, _, h2, h3, _⟩
    · exact Tr.pure ⟨rfl, by simp, same, Or.inl ⟨h, rfl, rfl, rfl⟩⟩
    · exact absurd (h2.symm.trans h0) h3
  · intro h0
    rcases ackOf_eq s with ⟨h, _⟩ | ⟨ty, h1, h2, h3, h4⟩
    · exact absurd h h0
    · have hx : ackBytes s id = ackPacket ty id := by simp [ackBytes, h1]
      rw [hx]
      rw [h2]
      refine Tr.liftOk h4 (Tr.liftOk (serializeAck_eq ty id) ?_)
      by_cases hid : id = 0
      · simp only [if_pos hid]
        refine Tr.ite ?_ (fun h => absurd (by decide) h)
        intro _
        exact Tr.pure ⟨rfl, by simp, same, Or.inr (Or.inl ⟨ty, h1, hid, rfl, rfl, rfl⟩)⟩
      · simp only [if_neg hid]
        refine Tr.ite (fun h => absurd rfl h) ?_
        intro _
        refine Tr.preHook ?_
        refine Tr.bind (R' := fun st es h' w' => h' = true ∧ SentIf (w.add .pre) (ackPacket ty id) st es w' ∧
            (w.ctx.connectStatus = .connected → ackPacket ty id ≠ [] → ∃ r, Event.sent (ackPacket ty id) r ∈ es))
          (Tr.mono (sendIfConnected_tr g _ _) (fun _ _ _ _ _ h => h) (fun es hes => SendX.hooked hes.2)) ?_
        rintro st es h' w1 f1 ⟨rfl, hs, hoff⟩
        refine Tr.postHook ?_
        refine Tr.ite ?_ ?_
        · intro hst
          refine Tr.pure ⟨rfl, ?_, ?_, ?_⟩
          · intro e he
            simp only [List.mem_cons, List.mem_append, List.not_mem_nil, or_false] at he
            rcases he with rfl | he | rfl
            · rfl
            · rcases hs with ⟨_, rfl, _⟩ | ⟨_, hd, _⟩
              · cases he
              · exact isAckEvent_of (hd.kinds e he)
            · rfl
          · rcases hs with ⟨hc, rfl, rfl, _⟩ | ⟨hc, hd, _⟩
            · exact ⟨w.ctx.lastPacketTxTime, w.ctx.controlPacketSent, w.ctx.tables, by simp [hasFail, isFail, afterFail_false, World.add]⟩
            · obtain ⟨t, ht⟩ := hd.ctx
              refine ⟨t, w.ctx.controlPacketSent, w.ctx.tables, ?_⟩
              rw [hasFail_cons_hook _ _ (Or.inl rfl), hasFail_append]
              simp only [World.add, hasFail, List.any_cons, isFail, List.any_nil, Bool.or_false]
              rw [ht]; rfl
          · rcases hs with ⟨hc, rfl, rfl, hst2⟩ | ⟨hc, hd, hr⟩
            · exact Or.inr (Or.inr (Or.inl ⟨ty, h1, hid, hc, by simp [wire], by simp [hasFail, isFail], hst2, rfl⟩))
            · obtain ⟨t, ht⟩ := hd.ctx
              rcases hr with ⟨h, _⟩ | ⟨h, h5, h6⟩
              · exact absurd h hst
              · have hwire : wire (.pre :: (es ++ [.post])) = wire es := by
                  rw [wire_cons_of_noSent _ _ rfl, wire_append]; simp [wire]
                refine Or.inr (Or.inr (Or.inr (Or.inl ⟨ty, h1, hid, hc, by rw [hwire]; exact h5, by rw [hwire]; exact h6, h, ?_, ?_⟩)))
                · simp only [World.add]; rw [ht]; rfl
                · obtain ⟨r, hr⟩ := hoff hc (by simp [ackPacket, idPacket, packet])
                  exact ⟨r, List.mem_cons_of_mem _ (List.mem_append_left _ hr)⟩
        · intro hst
          have hst := Classical.not_not.mp hst
          subst hst
          rcases hs with ⟨hc, rfl, rfl, hst2⟩ | ⟨hc, hd, hr⟩
          · exfalso
            unfold notConnectedStatus at hst2
            split at hst2 <;> cases hst2
          · obtain ⟨t, ht⟩ := hd.ctx
            rcases hr with ⟨_, h5, h6⟩ | ⟨h, _⟩
            · have hwire : wire (.pre :: (es ++ [.post, .pre, .post])) = ackPacket ty id := by
                rw [wire_cons_of_noSent _ _ rfl, wire_append, h6]; simp [wire]
              have hfail : hasFail (.pre :: (es ++ [.post, .pre, .post])) = false := by
                rw [hasFail_cons_hook _ _ (Or.inl rfl), hasFail_append, h5]; simp [hasFail, isFail]
              refine Tr.modifyCtx rfl rfl rfl rfl rfl rfl (fun h => h) rfl ?_
              refine Tr.preHook ?_
              refine Tr.state (.ack .send ty id) trivial (fun _ _ => trivial) ?_
              rintro a w2 ⟨⟨t', hcall, rfl⟩, hrep⟩
              refine Tr.postHook ?_
              refine Tr.pure ⟨rfl, ?_, ?_, ?_⟩
              · intro e he
                simp only [List.mem_cons, List.mem_append, List.not_mem_nil, or_false] at he
                rcases he with rfl | he | rfl | rfl | rfl
                · rfl
                · exact isAckEvent_of (hd.kinds e he)
                all_goals rfl
              · refine ⟨t, true, t', ?_⟩
                rw [hfail, afterFail_false]
                simp only [World.add]
                rw [ht, h5, afterFail_false]; rfl
              · refine Or.inr (Or.inr (Or.inr (Or.inr ⟨ty, h1, hid, hc, hwire, hfail, ⟨a.2, ?_⟩, ?_⟩)))
                · refine Eq.trans ?_ hcall
                  show stateCall w.ctx.tables _ = stateCall w1.ctx.tables _
                  rw [ht]; rfl
                intro s0 hs0
                have := hrep s0 (by
                  show Represents w1.ctx.tables s0
                  rw [ht]; exact hs0)
                exact ⟨by rw [this.1], this.2.1⟩
            · cases h


theorem serializePingreq_eq : serializePingreq (some ⟨some [0, 0], 2⟩) = .ok (.success, some pingreqPacket) := by decide +kernel

/-- What sending a PINGREQ did. -/
structure PingDone (w : World) (st : Status) (es : List Event) (w' : World) : Prop where
  kinds : ∀ e ∈ es, isAckEvent e = true
  ctx : ∃ t p q, w'.ctx = { w.ctx with lastPacketTxTime := t, connectStatus := afterFail (hasFail es) w.ctx.connectStatus,
                                       pingReqSendTimeMs := p, waitingForPingResp := q }
  cases :
    (w.ctx.connectStatus ≠ .connected ∧ wire es = [] ∧ hasFail es = false ∧ st = notConnectedStatus w.ctx.connectStatus ∧ w'.ctx = w.ctx) ∨
    (w.ctx.connectStatus = .connected ∧ wire es <+: pingreqPacket ∧ wire es ≠ pingreqPacket ∧ st = .sendFailed ∧
      w'.ctx.waitingForPingResp = w.ctx.waitingForPingResp ∧ w'.ctx.pingReqSendTimeMs = w.ctx.pingReqSendTimeMs ∧
      ∃ r, Event.sent pingreqPacket r ∈ es) ∨
    (w.ctx.connectStatus = .connected ∧ wire es = pingreqPacket ∧ hasFail es = false ∧ st = .success ∧
      w'.ctx.waitingForPingResp = true ∧ w'.ctx.pingReqSendTimeMs = w'.ctx.lastPacketTxTime)

theorem wire_hooked (es : List Event) : wire (.pre :: (es ++ [.post])) = wire es := by
  rw [wire_cons_of_noSent _ _ rfl, wire_append]; simp [wire]

theorem hasFail_hooked (es : List Event) : hasFail (.pre :: (es ++ [.post])) = hasFail es := by
  rw [hasFail_cons_hook _ _ (Or.inl rfl), hasFail_append]; simp [hasFail, isFail]

theorem kinds_hooked {w w1 : World} {es : List Event} {bs : List UInt8} {st : Status} (hs : SentIf w bs st es w1) :
    ∀ e ∈ Event.pre :: (es ++ [.post]), isAckEvent e = true := by
  intro e he
  simp only [List.mem_cons, List.mem_append, List.not_mem_nil, or_false] at he
  rcases he with rfl | he | rfl
  · rfl
  · rcases hs with ⟨_, rfl, _⟩ | ⟨_, hd, _⟩
    · cases he
    · exact isAckEvent_of (hd.kinds e he)
  · rfl

theorem mqttPing_tr {V : Prop} (g : Cfg) (w : World) :
    Tr V false (mqttPing g) (fun st es h' w' => h' = false ∧ PingDone w st es w')
      (fun es => w.ctx.connectStatus = .connected ∧ AckX pingreqPacket es) w := by
  unfold mqttPing
  show Tr V false (if Status.success ≠ Status.success then _ else _) _ _ _
  refine Tr.ite (fun h => absurd rfl h) (fun _ => ?_)
  refine Tr.liftOk (a := ()) rfl (Tr.liftOk serializePingreq_eq ?_)
  refine Tr.ite (fun h => absurd rfl h) (fun _ => ?_)
  refine Tr.preHook ?_
  refine Tr.bind (R' := fun st es h' w' => h' = true ∧ SentIf (w.add .pre) pingreqPacket st es w' ∧
      (w.ctx.connectStatus = .connected → pingreqPacket ≠ [] → ∃ r, Event.sent pingreqPacket r ∈ es))
    (Tr.mono (sendIfConnected_tr g _ _) (fun _ _ _ _ _ h => h) (fun es hes => ⟨hes.1, SendX.hooked hes.2⟩)) ?_
  rintro st es h' w1 f1 ⟨rfl, hs, hoff⟩
  refine Tr.ite ?_ ?_
  · rintro rfl
    rcases hs with ⟨hc, rfl, rfl, hst2⟩ | ⟨hc, hd, hr⟩
    · exfalso
      unfold notConnectedStatus at hst2
      split at hst2 <;> cases hst2
    · have hk := kinds_hooked (Or.inr ⟨hc, hd, hr⟩)
      obtain ⟨t, ht⟩ := hd.ctx
      rcases hr with ⟨_, h5, h6⟩ | ⟨h, _⟩
      · refine Tr.modifyCtx rfl rfl rfl rfl rfl rfl (fun h => h) rfl ?_
        refine Tr.postHook (Tr.pure ⟨rfl, hk, ⟨t, t, true, ?_⟩, Or.inr (Or.inr ⟨hc, ?_, ?_, rfl, rfl, rfl⟩)⟩)
        · simp only [World.add, hasFail_hooked]
          rw [ht]; rfl
        · rw [wire_hooked]; exact h6
        · rw [hasFail_hooked]; exact h5
      · cases h
  · intro hst
    refine Tr.postHook (Tr.pure ⟨rfl, kinds_hooked hs, ?_, ?_⟩)
    · rcases hs with ⟨hc, rfl, rfl, _⟩ | ⟨hc, hd, _⟩
      · exact ⟨_, _, _, by simp [hasFail, isFail, afterFail_false, World.add]; rfl⟩
      · obtain ⟨t, ht⟩ := hd.ctx
        refine ⟨t, w.ctx.pingReqSendTimeMs, w.ctx.waitingForPingResp, ?_⟩
        rw [hasFail_hooked]
        simp only [World.add]
        rw [ht]; rfl
    · rw [wire_hooked, hasFail_hooked]
      rcases hs with ⟨hc, rfl, rfl, hst2⟩ | ⟨hc, hd, hr⟩
      · exact Or.inl ⟨hc, rfl, rfl, hst2, rfl⟩
      · obtain ⟨t, ht⟩ := hd.ctx
        rcases hr with ⟨h, _⟩ | ⟨h, h5, h6⟩
        · exact absurd h hst
        · refine Or.inr (Or.inl ⟨hc, h5, h6, h, ?_, ?_, ?_⟩)
          · simp only [World.add]; rw [ht]; rfl
          · simp only [World.add]; rw [ht]; rfl
          · obtain ⟨r, hr⟩ := hoff hc (by simp [pingreqPacket, packet])
            exact ⟨r, List.mem_cons_of_mem _ (List.mem_append_left _ hr)⟩

/-- The keep-alive limit in milliseconds: the announced interval, capped. -/
def txLimit (g : Cfg) (c : Ctx) : UInt32 :=
  if g.packetTxTimeoutMs < 1000 * c.keepAliveIntervalSec.toUInt32 then g.packetTxTimeoutMs else 1000 * c.keepAliveIntervalSec.toUInt32

/-- A ping is due. -/
def pingDue (g : Cfg) (now : UInt32) (c : Ctx) : Prop :=
  (txLimit g c ≠ 0 ∧ now - c.lastPacketTxTime ≥ txLimit g c) ∨ (now - c.lastPacketRxTime ≠ 0 ∧ now - c.lastPacketRxTime ≥ g.packetRxTimeoutMs)

/-- What the keep-alive check did at time `now`. -/
def KeepAliveDone (g : Cfg) (now : UInt32) (w : World) (st : Status) (es : List Event) (w' : World) : Prop :=
  (w.ctx.waitingForPingResp = true ∧ es = [.time now] ∧ w'.ctx = w.ctx ∧
    st = if now - w.ctx.pingReqSendTimeMs > g.pingrespTimeoutMs then .keepAliveTimeout else .success) ∨
  (w.ctx.waitingForPingResp = false ∧ ¬ pingDue g now w.ctx ∧ es = [.time now, .pre, .post] ∧ w'.ctx = w.ctx ∧ st = .success) ∨
  (w.ctx.waitingForPingResp = false ∧ pingDue g now w.ctx ∧ ∃ es', es = .time now :: .pre :: .post :: es' ∧
    ∃ w1, w1.ctx = w.ctx ∧ PingDone w1 st es' w')

def KeepX (es : List Event) : Prop := AckX pingreqPacket es

theorem AckX.cons {bs : List UInt8} {e : Event} {es : List Event} (he : isAckEvent e = true) (hn : isSent e = false) (h : AckX bs es) :
    AckX bs (e :: es) := by
  refine ⟨?_, by rw [wire_cons_of_noSent _ _ hn]; exact h.2⟩
  intro x hx
  rcases List.mem_cons.mp hx with h1 | h1
  · rw [h1]; exact he
  · exact h.1 x h1

theorem handleKeepAlive_tr {V : Prop} (g : Cfg) (w : World) :
    Tr V false (handleKeepAlive g) (fun st es h' w' => h' = false ∧ ∃ now, KeepAliveDone g now w st es w') KeepX w := by
  unfold handleKeepAlive
  refine Tr.getTime (AckX.nil _) ?_
  intro now rest _
  refine Tr.getCtx ?_
  show Tr V false (if w.ctx.waitingForPingResp = true then _ else _) _ _ _
  have ping : ¬ w.ctx.waitingForPingResp = true → pingDue g now w.ctx →
      Tr V false (mqttPing g) (fun a es h' w' => h' = false ∧ ∃ now', KeepAliveDone g now' w a (Event.time now :: .pre :: .post :: es) w')
        (fun es => KeepX (.time now :: .pre :: .post :: es)) (((timeWorld w now rest).add .pre).add .post) := by
    intro hw hd
    refine Tr.mono (mqttPing_tr g _) ?_ ?_
    · intro st es h' w' f ⟨h1, h2⟩
      exact ⟨h1, now, Or.inr (Or.inr ⟨by simpa using hw, hd, es, rfl, ((timeWorld w now rest).add .pre).add .post, rfl, h2⟩)⟩
    · exact fun es hes => AckX.cons rfl rfl (AckX.cons rfl rfl (AckX.cons rfl rfl hes.2))
  refine Tr.ite ?_ ?_
  · intro hw
    refine Tr.ite ?_ ?_
    · intro hc
      exact Tr.pure ⟨rfl, now, Or.inl ⟨hw, rfl, rfl, (if_pos hc).symm⟩⟩
    · intro hc
      exact Tr.pure ⟨rfl, now, Or.inl ⟨hw, rfl, rfl, (if_neg hc).symm⟩⟩
  · intro hw
    refine Tr.preHook (Tr.getCtx (Tr.postHook ?_))
    refine Tr.ite ?_ ?_
    · intro hd
      exact ping hw (Or.inl hd)
    · intro hd
      show Tr V false (if now - w.ctx.lastPacketRxTime ≠ 0 ∧ now - w.ctx.lastPacketRxTime ≥ g.packetRxTimeoutMs then _ else _) _ _ _
      refine Tr.ite ?_ ?_
      · intro hd2
        exact ping hw (Or.inr hd2)
      · intro hd2
        exact Tr.pure ⟨rfl, now, Or.inr (Or.inl ⟨by simpa using hw, fun h => h.elim hd hd2, rfl, rfl, rfl⟩)⟩

end Mqtt
