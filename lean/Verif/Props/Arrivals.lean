/-
C87: which incoming messages reach the application.
-/
import Verif.Spec.Arrivals
import Verif.Props.Releases
import Verif.Props.Receive

namespace Mqtt
open Spec

/-- What a receive call does that takes a packet. -/
theorem took_packet {g : Cfg} {h : List (ApiCall × ApiRet)} {w w' : World} (hh : FromInit g h w) {e : Env} {m : Bool} {r : ApiRet} {p : Raw}
    (hc : callIn g w e (loopCall m) = .done r w') (hp : p.Valid) (hfit : p.bytes.length ≤ w.ctx.bufSize) (ht : Takes g w e m p w') :
    ∃ s ping es1 w1 w2 rst, Represents w.ctx.tables s ∧ (ping = [] ∨ ping = pingreqPacket) ∧ wire (callEvents g w e (loopCall m)) = ping ++ wire es1 ∧
      callbacks (callEvents g w e (loopCall m)) = callbacks es1 ∧ r = .status rst ∧ w1.ctx.connectStatus = w.ctx.connectStatus ∧ w1.ctx.tables = w.ctx.tables ∧
      w'.ctx.tables = w2.ctx.tables ∧ Reacted (react w.ctx.retransmits m s p.first p.body) w1 rst es1 w2 := by
  obtain ⟨hg, hidx, s, hrep⟩ := hh.good
  have hv : ValidCall g (loopCall m) := by cases m <;> trivial
  unfold Takes at ht
  rcases call_cases hg hidx hrep e hv with ⟨r1, es, w1, h1, h2, _, hd⟩ | ⟨es, w1, h1, h2, _, hd⟩
  · rw [hc] at h1
    cases h1
    rw [h2] at ht ⊢
    obtain ⟨st, h3, ⟨h4, _⟩ | ⟨h4, ka, es1, w1, w2, rst, h5, h6, h7, h8, h9, h10, h11, hsub, h12⟩⟩ := did_front hd hp hfit ht
    · exfalso
      have ht' : w.ctx.buffered ++ received es = p.bytes ++ w'.ctx.buffered := ht
      rw [h4] at ht'
      have := congrArg List.length ht'
      rw [List.length_append (bs := _ ++ _)] at this
      have hne := List.length_pos_iff.mpr (Raw.bytes_ne_nil p)
      have he : (({ w with env := e } : World).ctx.buffered ++ received es).length = (w.ctx.buffered ++ received es).length := rfl
      omega
    · have hst : callerStatus rst = rst := if_neg (reacted_ne h12)
      exact ⟨s, wire ka, es1, w1, w2, rst, hrep, h6, h5, h7, by rw [h3, h8, hst], h9, h10, h11, h12⟩
  · rw [hc] at h1; cases h1

theorem inboxFull_iff {t : Tables} {s : InFlight} (h : Represents t s) : InboxFull t ↔ s.inc.length = s.inCap := by
  have h1 : (inFlight t.incoming).length = s.inc.length := by
    have := congrArg List.length h.2.entries
    rw [List.length_map] at this
    exact this
  unfold InboxFull
  rw [h1, h.2.size]

theorem react_publish {retx m : Bool} {s : InFlight} {t : Tables} (hrep : Represents t s) {p : Raw} {id : UInt16} {v : PubView}
    (hr : readIncoming p.first p.body = some (.publish id v)) :
    (Accepted t id v.qos ∧ (react retx m s p.first p.body).callbacks = [.app p.first p.body id .success (some v)] ∧
      (react retx m s p.first p.body).ack = publishAck v.qos id ∧
      (v.qos = .qos1 → (react retx m s p.first p.body).state.inc.phase id = some .sendPuback) ∧
      (v.qos = .qos2 → (react retx m s p.first p.body).state.inc.phase id = some .sendPubrec)) ∨
    (v.qos ≠ .qos0 ∧ Receiving t id ∧ (react retx m s p.first p.body).callbacks = [] ∧ (react retx m s p.first p.body).ack = publishAck v.qos id) ∨
    (v.qos ≠ .qos0 ∧ ¬ Receiving t id ∧ InboxFull t ∧
      react retx m s p.first p.body = ⟨if t.incoming = [] then .recvFailed else .noMemory, [], none, s, false⟩) := by
  have hreact : react retx m s p.first p.body = reactPublish s p.first p.body id v := by unfold react; rw [hr]
  rw [hreact, receiving_iff hrep, inboxFull_iff hrep]
  unfold reactPublish Accepted
  rw [receiving_iff hrep, inboxFull_iff hrep]
  have hz : t.incoming = [] ↔ s.inCap = 0 := by rw [← hrep.2.size]; exact List.length_eq_zero_iff.symm
  by_cases h0 : v.qos = .qos0
  · left
    rw [if_neg (fun h => h.2 h0)]
    simp [h0, step]
  · have hid := publish_id hr h0
    have hle := hrep.2.length_le
    by_cases hcap : s.inCap = 0
    · right; right
      have hnil : s.inc = [] := List.eq_nil_of_length_eq_zero (by omega)
      rw [if_pos ⟨hcap, h0⟩, if_pos (hz.mpr hcap)]
      refine ⟨h0, ?_, by rw [hnil, hcap]; rfl, rfl⟩
      rw [hnil]; exact fun h => h rfl
    · rw [if_neg (fun h => hcap h.1), if_neg (fun h => hcap (hz.mp h))]
      have hst : ∀ x, (step s (.publish .receive id v.qos)).1.1 = (s.inc.insert s.inCap id x).1 := by
        intro x
        cases hq : v.qos with
        | qos0 => exact absurd hq h0
        | _ => simp only [step, if_neg hid]; unfold Table.insert; split; rfl; split <;> rfl
      have hst := hst .sendPuback
      unfold Table.insert at hst
      by_cases hmem : id ∈ s.inc.map (·.1)
      · right; left
        rw [if_pos hmem] at hst
        refine ⟨h0, phase_mem.mp hmem, ?_⟩
        simp [hst]
      · rw [if_neg hmem] at hst
        have hph : ¬ (s.inc.phase id ≠ none) := fun h => hmem (phase_mem.mpr h)
        by_cases hfull : s.inc.length = s.inCap
        · right; right
          rw [if_pos hfull] at hst
          exact ⟨h0, hph, hfull, by simp [hst]⟩
        · left
          rw [if_neg hfull] at hst
          have hins : ∀ x, (s.inc.insert s.inCap id x).1 = .success := by
            intro x; unfold Table.insert; rw [if_neg hmem, if_neg hfull]
          refine ⟨Or.inr ⟨hph, hfull⟩, by simp [hst], by simp [hst], fun h1 => ?_, fun h1 => ?_⟩
          · rw [h1] at hst
            rw [h1]
            simp only [hst, if_true]
            simp only [step, if_neg hid]
            have := (inc_insert (i := id) (hins .sendPuback)).2
            rw [if_pos rfl] at this
            exact this
          · rw [h1] at hst
            rw [h1]
            simp only [hst, if_true]
            simp only [step, if_neg hid]
            have := (inc_insert (i := id) (hins .sendPubrec)).2
            rw [if_pos rfl] at this
            exact this

/-- **C87** A message is given to the application if it has QoS 0, or if it is new and a record for it is free; then exactly once, as it arrived. -/
theorem C87_presented {g : Cfg} {h : List (ApiCall × ApiRet)} {w w' : World} (hh : FromInit g h w) {e : Env} {m : Bool} {r : ApiRet} {p : Raw}
    (hc : callIn g w e (loopCall m) = .done r w') (hp : p.Valid) (hfit : p.bytes.length ≤ w.ctx.bufSize) (ht : Takes g w e m p w') {id : UInt16} {v : PubView}
    (hr : readIncoming p.first p.body = some (.publish id v)) :
    (Accepted w.ctx.tables id v.qos → callbacks (callEvents g w e (loopCall m)) = [.app p.first p.body id .success (some v)]) ∧
    (¬ Accepted w.ctx.tables id v.qos → callbacks (callEvents g w e (loopCall m)) = []) := by
  obtain ⟨s, ping, es1, w1, w2, rst, hrep, hpi, hw, hcb, rfl, hcs, _, ht2, hre⟩ := took_packet hh hc hp hfit ht
  rw [hcb, hre.calls]
  rcases react_publish (retx := w.ctx.retransmits) (m := m) hrep hr with ⟨h1, h2, _, _⟩ | ⟨h0, h1, h2, _⟩ | ⟨h0, h1, h2, h3⟩
  · exact ⟨fun _ => h2, fun h => absurd h1 h⟩
  · refine ⟨fun h => ?_, fun _ => h2⟩
    rcases h with h | ⟨h, _⟩
    · exact absurd h h0
    · exact absurd h1 h
  · refine ⟨fun h => ?_, fun _ => by rw [h3]⟩
    rcases h with h | ⟨_, h⟩
    · exact absurd h h0
    · exact absurd h2 h

theorem refused_state {g : Cfg} {h : List (ApiCall × ApiRet)} {w w' : World} (hh : FromInit g h w) {e : Env} {m : Bool} {r : ApiRet} {p : Raw}
    (hc : callIn g w e (loopCall m) = .done r w') (hp : p.Valid) (hfit : p.bytes.length ≤ w.ctx.bufSize) (ht : Takes g w e m p w') {id : UInt16} {v : PubView}
    (hr : readIncoming p.first p.body = some (.publish id v)) (hq : v.qos ≠ .qos0) (hn : ¬ Receiving w.ctx.tables id) (hf : InboxFull w.ctx.tables) :
    r = .status (if w.ctx.tables.incoming = [] then .recvFailed else .noMemory) ∧ callbacks (callEvents g w e (loopCall m)) = [] ∧
      (wire (callEvents g w e (loopCall m)) = [] ∨ wire (callEvents g w e (loopCall m)) = pingreqPacket) ∧
      ∃ s, Represents w.ctx.tables s ∧ Represents w'.ctx.tables s := by
  obtain ⟨s, ping, es1, w1, w2, rst, hrep, hpi, hw, hcb, rfl, hcs, _, ht2, hre⟩ := took_packet hh hc hp hfit ht
  have hR := react_publish (retx := w.ctx.retransmits) (m := m) hrep hr
  rcases hR with ⟨h1 | ⟨_, h1⟩, _⟩ | ⟨_, h1, _⟩ | ⟨_, _, _, h3⟩
  · exact absurd h1 hq
  · exact absurd hf h1
  · exact absurd h1 hn
  · rw [h3] at hre
    rcases hre.cases with ⟨_, k2, _, k3, k4⟩ | ⟨k, _⟩ | ⟨k, _⟩ | ⟨ty, i, k, _⟩
    · have hrep' : Represents w'.ctx.tables s := by rw [ht2]; exact k4
      exact ⟨by rw [k3], by rw [hcb, hre.calls], by rw [hw, k2, List.append_nil]; exact hpi, s, hrep, hrep'⟩
    · exact absurd rfl k
    · exact absurd rfl k
    · cases k

/-- **C87** A new message for which there is no free record is dropped: the application does not get it, it is not acknowledged, no record changes, and the call reports MQTTNoMemory
(MQTTRecvFailed if the context has no records for incoming messages at all). -/
theorem C87_refused {g : Cfg} {h : List (ApiCall × ApiRet)} {w w' : World} (hh : FromInit g h w) {e : Env} {m : Bool} {r : ApiRet} {p : Raw}
    (hc : callIn g w e (loopCall m) = .done r w') (hp : p.Valid) (hfit : p.bytes.length ≤ w.ctx.bufSize) (ht : Takes g w e m p w') {id : UInt16} {v : PubView}
    (hr : readIncoming p.first p.body = some (.publish id v)) (hq : v.qos ≠ .qos0) (hn : ¬ Receiving w.ctx.tables id) (hf : InboxFull w.ctx.tables) :
    r = .status (if w.ctx.tables.incoming = [] then .recvFailed else .noMemory) ∧ callbacks (callEvents g w e (loopCall m)) = [] ∧
      (wire (callEvents g w e (loopCall m)) = [] ∨ wire (callEvents g w e (loopCall m)) = pingreqPacket) ∧
      inFlight w'.ctx.tables.incoming = inFlight w.ctx.tables.incoming ∧ inFlight w'.ctx.tables.outgoing = inFlight w.ctx.tables.outgoing := by
  obtain ⟨h1, h2, h3, s, hrep, hrep'⟩ := refused_state hh hc hp hfit ht hr hq hn hf
  exact ⟨h1, h2, h3, hrep'.2.entries.trans hrep.2.entries.symm, hrep'.1.entries.trans hrep.1.entries.symm⟩

theorem length_le_of_nodup_subset {α : Type} [BEq α] [LawfulBEq α] : ∀ {l m : List α}, l.Nodup → (∀ x ∈ l, x ∈ m) → l.length ≤ m.length
  | [], _, _, _ => Nat.zero_le _
  | a :: l, m, hn, hs => by
    have ha := hs a List.mem_cons_self
    have hn' := List.nodup_cons.mp hn
    have ih : l.length ≤ (m.erase a).length := length_le_of_nodup_subset hn'.2 fun x hx =>
      (List.mem_erase_of_ne (fun he => hn'.1 (by rw [← he]; exact hx))).mpr (hs x (List.mem_cons_of_mem _ hx))
    rw [List.length_erase_of_mem ha] at ih
    have := List.length_pos_iff.mpr (List.ne_nil_of_mem ha)
    simp only [List.length_cons]
    omega

/-- **C87** The server alone can bring this about: if it leaves as many QoS 2 exchanges open (it does not send their PUBREL) as the application has provided records, then
every message with QoS 1 or 2 and another packet id is dropped: no callback, no acknowledgement, MQTTNoMemory. -/
theorem C87_blocked {g : Cfg} {h : List (ApiCall × ApiRet)} {w w' : World} (hh : FromInit g h w) {e : Env} {m : Bool} {r : ApiRet} {p : Raw}
    (hc : callIn g w e (loopCall m) = .done r w') (hp : p.Valid) (hfit : p.bytes.length ≤ w.ctx.bufSize) (ht : Takes g w e m p w') {id : UInt16} {v : PubView}
    (hr : readIncoming p.first p.body = some (.publish id v)) (hq : v.qos ≠ .qos0) {ids : List UInt16} (hnd : ids.Nodup) (hlen : ids.length = w.ctx.tables.incoming.length)
    (hne : ids ≠ []) (hop : ∀ i ∈ ids, i ≠ 0 ∧ ExchangeOpen g i w) (hid : id ∉ ids) :
    r = .status .noMemory ∧ callbacks (callEvents g w e (loopCall m)) = [] ∧
      (wire (callEvents g w e (loopCall m)) = [] ∨ wire (callEvents g w e (loopCall m)) = pingreqPacket) ∧
      ∀ i ∈ ids, ExchangeOpen g i w' := by
  obtain ⟨_, _, s, hrep⟩ := hh.good
  have hmem : ∀ i ∈ ids, i ∈ s.inc.map (·.1) := fun i hi => phase_mem.mpr (by
    rcases (exchangeOpen_iff (hop i hi).1 hh hrep).mp (hop i hi).2 with h | h <;> rw [h] <;> simp)
  have hle := length_le_of_nodup_subset hnd hmem
  rw [List.length_map, hlen, hrep.2.size] at hle
  have hfull : s.inc.length = s.inCap := Nat.le_antisymm hrep.2.length_le hle
  have hnot : ¬ Receiving w.ctx.tables id := by
    rw [receiving_iff hrep]
    intro h
    have hnd' : (id :: ids).Nodup := List.nodup_cons.mpr ⟨hid, hnd⟩
    have := length_le_of_nodup_subset hnd' (m := s.inc.map (·.1)) (by
      intro x hx
      rcases List.mem_cons.mp hx with rfl | hx
      · exact phase_mem.mpr h
      · exact hmem x hx)
    rw [List.length_map, List.length_cons, hlen, hrep.2.size] at this
    omega
  obtain ⟨h1, h2, h3, s', hrep0, hrep'⟩ := refused_state hh hc hp hfit ht hr hq hnot ((inboxFull_iff hrep).mpr hfull)
  have hin : w.ctx.tables.incoming ≠ [] := by
    intro h
    rw [h] at hlen
    exact hne (List.eq_nil_of_length_eq_zero hlen)
  rw [if_neg hin] at h1
  refine ⟨h1, h2, h3, fun i hi => ?_⟩
  have hv : ValidCall g (loopCall m) := by cases m <;> trivial
  have hh' := hh.snoc hv hc
  rw [exchangeOpen_iff (hop i hi).1 hh' hrep', ← represents_unique hrep hrep0]
  exact (exchangeOpen_iff (hop i hi).1 hh hrep).mp (hop i hi).2

/-- **C87** A message that repeats the packet id of one that is still being received is not given to the application; it is acknowledged again. -/
theorem C87_repeated {g : Cfg} {h : List (ApiCall × ApiRet)} {w w' : World} (hh : FromInit g h w) {e : Env} {m : Bool} {r : ApiRet} {p : Raw}
    (hc : callIn g w e (loopCall m) = .done r w') (hp : p.Valid) (hfit : p.bytes.length ≤ w.ctx.bufSize) (ht : Takes g w e m p w') {id : UInt16} {v : PubView}
    (hr : readIncoming p.first p.body = some (.publish id v)) (hq : v.qos ≠ .qos0) (hrc : Receiving w.ctx.tables id) (hcon : w.ctx.connectStatus = .connected) :
    callbacks (callEvents g w e (loopCall m)) = [] ∧ ∃ ping, (ping = [] ∨ ping = pingreqPacket) ∧
      (r ≠ .status .sendFailed ∧ wire (callEvents g w e (loopCall m)) = ping ++ idPacket (if v.qos = .qos1 then 0x40 else 0x50) id.toNat ∨
       (r = .status .sendFailed ∧ ∃ part, wire (callEvents g w e (loopCall m)) = ping ++ part ∧ part <+: idPacket (if v.qos = .qos1 then 0x40 else 0x50) id.toNat ∧
         part ≠ idPacket (if v.qos = .qos1 then 0x40 else 0x50) id.toNat)) := by
  refine ⟨(C87_presented hh hc hp hfit ht hr).2 (by rintro (h | ⟨h, _⟩); exact hq h; exact h hrc), ?_⟩
  obtain ⟨ping, h1, h2⟩ := C36_due hh e m hc hcon hp hfit ht hr ⟨hq, Or.inl hrc⟩
  have ha : ackWire (answerTo (.publish id v)) = idPacket (if v.qos = .qos1 then 0x40 else 0x50) id.toNat := by
    cases hv : v.qos with
    | qos0 => exact absurd hv hq
    | _ => simp [answerTo, hv, publishAck, ackWire, idPacket, ackByte]
  rw [ha] at h2
  refine ⟨ping, h1, ?_⟩
  rcases h2 with h | ⟨h, _, h'⟩
  · exact Or.inl h
  · exact Or.inr ⟨h, h'⟩

/-- **C87** What an accepted message does to the records: QoS 2 takes a record; QoS 1 takes one only if the call does not succeed in sending PUBACK; QoS 0 takes none. -/
theorem C87_takes {g : Cfg} {h : List (ApiCall × ApiRet)} {w w' : World} (hh : FromInit g h w) {e : Env} {m : Bool} {r : ApiRet} {p : Raw}
    (hc : callIn g w e (loopCall m) = .done r w') (hp : p.Valid) (hfit : p.bytes.length ≤ w.ctx.bufSize) (ht : Takes g w e m p w') {id : UInt16} {v : PubView}
    (hr : readIncoming p.first p.body = some (.publish id v)) (hq : v.qos ≠ .qos0) (ha : Accepted w.ctx.tables id v.qos) :
    (v.qos = .qos1 → (Receiving w'.ctx.tables id ↔ r ≠ .status .success)) ∧ (v.qos = .qos2 → Receiving w'.ctx.tables id) := by
  obtain ⟨s, ping, es1, w1, w2, rst, hrep, hpi, hw, hcb, rfl, hcs, _, ht2, hre⟩ := took_packet hh hc hp hfit ht
  have hid := publish_id hr hq
  rcases react_publish (retx := w.ctx.retransmits) (m := m) hrep hr with ⟨_, _, h3, h4, h5⟩ | ⟨_, h1, _⟩ | ⟨_, _, h1, _⟩
  · have keeps : ∀ {st : InFlight}, Represents w2.ctx.tables st → (Receiving w'.ctx.tables id ↔ st.inc.phase id ≠ none) := by
      intro st h
      rw [← ht2] at h
      exact receiving_iff h id
    have hnc : ∀ c, notConnectedStatus c ≠ .success := by intro c; cases c <;> decide
    constructor
    · intro hv
      have h4 := h4 hv
      rw [hv] at h3
      rcases hre.cases with ⟨k1, _⟩ | ⟨_, k1, k2, _, k3, k4⟩ | ⟨_, k1, k2, k2', k3, k4, _⟩ | ⟨ty, i, k0, k1, k2, _, k3, k4⟩
      · rw [h3] at k1; cases k1
      · rw [keeps k4, h4, k3]
        exact ⟨fun _ h => hnc _ (ApiRet.status.inj h), fun _ h => by cases h⟩
      · rw [keeps k4, h4, k3]
        simp
      · rw [h3] at k0
        cases k0
        have := (ackSend_inc (ty := .puback) (id := id) hid).2.1 h4
        rw [keeps k4, this]
        refine ⟨fun h => absurd rfl h, fun h => absurd ?_ h⟩
        rw [k3]
        generalize (react w.ctx.retransmits m s p.first p.body).state = q at h4
        simp [step, hid, forOutgoing, ackTable, h4, inAck]
    · intro hv
      have h5 := h5 hv
      rw [hv] at h3
      rcases hre.cases with ⟨k1, _⟩ | ⟨_, k1, k2, _, k3, k4⟩ | ⟨_, k1, k2, k2', k3, k4, _⟩ | ⟨ty, i, k0, k1, k2, _, k3, k4⟩
      · rw [h3] at k1; cases k1
      · rw [keeps k4, h5]; simp
      · rw [keeps k4, h5]; simp
      · rw [h3] at k0
        cases k0
        rw [keeps k4, (ackSend_inc (ty := .pubrec) (id := id) hid).2.2.1 (Or.inl h5)]; simp
  · rcases ha with h | ⟨h, _⟩
    · exact absurd h hq
    · exact absurd h1 h
  · rcases ha with h | ⟨_, h⟩
    · exact absurd h hq
    · exact absurd h1 h

/-! ### Examples -/

/-- The second of two QoS 2 messages arrives (packet id 10): the two records are in use. -/
def Ex.arr0 : Env := { Ex.env [0x34, 6, 0, 1, 97, 0, 10, 6] with recvs := [.deliver 100] }
def Ex.arr1 : World := (callIn Ex.g Ex.rel1 Ex.arr0 .receiveLoop).world
/-- A QoS 1 message with packet id 11, a QoS 2 message that repeats packet id 9. -/
def Ex.arrRaw : Raw := ⟨0x32, [0, 1, 97, 0, 11, 6]⟩
def Ex.arrDup : Raw := ⟨0x3C, [0, 1, 97, 0, 9, 6]⟩
def Ex.arrEnv (p : Raw) : Env := { Ex.env p.bytes with recvs := [.deliver 100] }
def Ex.notRel : Event → Bool
  | .app f _ _ _ _ => f != 0x62
  | _ => true
def Ex.arrView (q : QoS) (dup : Bool) : PubView := ⟨q, false, dup, [97], [6]⟩

theorem Ex.arr0_done : callIn Ex.g Ex.rel1 Ex.arr0 (loopCall false) = .done (.status .success) Ex.arr1 := Ex.ret_done (by decide +kernel)
theorem Ex.arr1_fromInit : FromInit Ex.g (((Ex.played Ex.session).1 ++ [(loopCall false, .status .success)]) ++ [(loopCall false, .status .success)]) Ex.arr1 :=
  Ex.rel1_fromInit.snoc (c := loopCall false) trivial Ex.arr0_done

/-- Non-vacuity of C87_presented and C87_takes: with one record free, the message is given to the application. -/
example : Ex.ret (callIn Ex.g Ex.rel1 (Ex.arrEnv Ex.arrRaw) (loopCall false)) = some (.status .success) ∧ Ex.arrRaw.Valid ∧ Ex.arrRaw.bytes.length ≤ Ex.rel1.ctx.bufSize ∧
    Takes Ex.g Ex.rel1 (Ex.arrEnv Ex.arrRaw) false Ex.arrRaw (callIn Ex.g Ex.rel1 (Ex.arrEnv Ex.arrRaw) (loopCall false)).world ∧
    readIncoming Ex.arrRaw.first Ex.arrRaw.body = some (.publish 11 (Ex.arrView .qos1 false)) ∧ Accepted Ex.rel1.ctx.tables 11 .qos1 := by
  refine ⟨by decide +kernel, by unfold Raw.Valid; decide +kernel, by decide +kernel, by unfold Takes; decide +kernel, by decide +kernel, Or.inr ⟨?_, by unfold InboxFull; decide +kernel⟩⟩
  unfold Receiving
  decide +kernel

/-- Non-vacuity of C87_refused and C87_blocked: the exchanges of messages 9 and 10 are open, the message 11 is dropped. -/
example : Ex.ret (callIn Ex.g Ex.arr1 (Ex.arrEnv Ex.arrRaw) (loopCall false)) = some (.status .noMemory) ∧ Ex.arrRaw.bytes.length ≤ Ex.arr1.ctx.bufSize ∧
    Takes Ex.g Ex.arr1 (Ex.arrEnv Ex.arrRaw) false Ex.arrRaw (callIn Ex.g Ex.arr1 (Ex.arrEnv Ex.arrRaw) (loopCall false)).world ∧
    InboxFull Ex.arr1.ctx.tables ∧ ¬ Receiving Ex.arr1.ctx.tables 11 ∧ [9, 10].length = Ex.arr1.ctx.tables.incoming.length ∧
    ExchangeOpen Ex.g 9 Ex.arr1 ∧ ExchangeOpen Ex.g 10 Ex.arr1 := by
  refine ⟨by decide +kernel, by decide +kernel, by unfold Takes; decide +kernel, by unfold InboxFull; decide +kernel, by unfold Receiving; decide +kernel, by decide +kernel, ?_, ?_⟩
  · refine .kept Ex.rel1_open (c := loopCall false) trivial Ex.arr0_done (by decide) ?_
    rintro ⟨_, body, st, h⟩
    have : (callEvents Ex.g Ex.rel1 Ex.arr0 (loopCall false)).all Ex.notRel = true := by decide +kernel
    exact absurd (List.all_eq_true.mp this _ h) (by simp [Ex.notRel])
  · refine .acknowledged Ex.rel1_fromInit Ex.arr0_done ?_
    unfold pubrecSent
    decide +kernel

/-- Non-vacuity of C87_repeated: message 9 again. -/
example : Ex.ret (callIn Ex.g Ex.arr1 (Ex.arrEnv Ex.arrDup) (loopCall false)) = some (.status .success) ∧ Ex.arrDup.Valid ∧ Ex.arrDup.bytes.length ≤ Ex.arr1.ctx.bufSize ∧
    Takes Ex.g Ex.arr1 (Ex.arrEnv Ex.arrDup) false Ex.arrDup (callIn Ex.g Ex.arr1 (Ex.arrEnv Ex.arrDup) (loopCall false)).world ∧
    readIncoming Ex.arrDup.first Ex.arrDup.body = some (.publish 9 (Ex.arrView .qos2 true)) ∧ Receiving Ex.arr1.ctx.tables 9 ∧ Ex.arr1.ctx.connectStatus = .connected := by
  refine ⟨by decide +kernel, by unfold Raw.Valid; decide +kernel, by decide +kernel, by unfold Takes; decide +kernel, by decide +kernel, by unfold Receiving; decide +kernel, by decide +kernel⟩

end Mqtt
