/-
What one receive call does at most, and what the server can make the client send: C72.
-/
import Verif.Props.Receive
import Verif.Props.KeepAlive

namespace Mqtt
open Spec

/-- A call of the application's callback. -/
def isAppCall : Event → Bool
  | .app .. => true
  | _ => false

/-- The number of packets handed to the application. -/
def handed (es : List Event) : Nat := es.countP isAppCall

theorem handed_append (a b : List Event) : handed (a ++ b) = handed a + handed b := List.countP_append

theorem handed_callbacks (es : List Event) : handed es = handed (callbacks es) := by
  unfold handed callbacks
  rw [List.countP_filter]
  congr 1
  funext e
  cases e <;> rfl

theorem react_one (retx m : Bool) (s : InFlight) (first : UInt8) (body : List UInt8) : handed (react retx m s first body).callbacks ≤ 1 := by
  unfold react
  split
  · simp [handed]
  · unfold reactPublish
    simp only
    repeat' split
    all_goals simp [handed, isAppCall]
  · unfold reactAck
    simp only
    repeat' split
    all_goals simp [handed, isAppCall]
  · split <;> simp [handed, isAppCall]
  · simp [handed, isAppCall]
  · simp [handed, isAppCall]

theorem handed_prefix {a b : List Event} (h : a <+: b) : handed a ≤ handed b := by
  obtain ⟨c, rfl⟩ := h
  rw [handed_append]
  omega

theorem idOnly_length {body : List UInt8} {id : UInt16} (h : idOnly body = some id) : body.length = 2 := by
  unfold idOnly at h
  split at h
  · rfl
  · cases h

theorem varInt_pos (n : Nat) : 1 ≤ (varInt n).length := by
  rw [varInt]
  split <;> simp

theorem idPacket_length (f i : Nat) : (idPacket f i).length = 4 := by
  unfold idPacket packet
  rw [List.length_cons, List.length_append, varInt_length (by simp [be16])]
  rfl

theorem pingreq_length : pingreqPacket.length = 2 := by decide +kernel

/-- An answer is not longer than the packet it answers. -/
theorem answer_small {p : Raw} {pkt : Packet} (h : readIncoming p.first p.body = some pkt) : (ackWire (answerTo pkt)).length ≤ p.bytes.length := by
  have hp : p.body.length + 2 ≤ p.bytes.length := by
    rw [Raw.bytes_eq]
    have := varInt_pos p.body.length
    simp only [List.length_cons, List.length_append]
    omega
  have key : answerTo pkt = none ∨ 2 ≤ p.body.length := by
    unfold readIncoming at h
    split at h
    · split at h
      · cases h
      · right
        split at h
        · split at h
          · cases h
          · omega
        · split at h
          · cases h
          · omega
    all_goals repeat' split at h
    all_goals first
      | (obtain ⟨id, h1, rfl⟩ := Option.map_eq_some_iff.mp h
         first
          | exact Or.inr (Nat.le_of_eq (idOnly_length h1).symm)
          | exact Or.inl rfl)
      | (cases h; exact Or.inl rfl)
      | cases h
  rcases key with h1 | h1
  · rw [h1]; simp [ackWire]
  · have : (ackWire (answerTo pkt)).length ≤ 4 := by
      unfold ackWire
      split
      · simp
      · rw [idPacket_length]; omega
    omega

/-- What a receive call that returned sent and left. -/
theorem loop_echo {g : Cfg} {s : InFlight} {w w' : World} {m : Bool} {r : ApiRet} {es : List Event} (hd : Did g s w (loopCall m) r es w') :
    (wire es).length + w'.ctx.buffered.length ≤ w.ctx.buffered.length + (received es).length + (if m = true then 2 else 0) ∧
    handed es ≤ 1 ∧ 2 * handed es + w'.ctx.buffered.length ≤ w.ctx.buffered.length + (received es).length := by
  obtain ⟨_, st, rfl, ⟨rfl, _, h1, _⟩ | ⟨x, ka, es2, rfl, h1, h2, h3, h4⟩⟩ := hd.turn
  · rw [h1]
    simp [wire, received, handed, isAppCall]
  · have hka : (wire ka).length ≤ if m = true then 2 else 0 := by
      by_cases hm : m = true
      · rw [if_pos hm]
        exact pingreq_length ▸ h2.2.length_le
      · rw [h3 fun h => hm h.1]
        simp [wire]
    have hc : handed ka = 0 := by rw [handed_callbacks, h2.quiet.2]; rfl
    have e3 : handed (.recvd (w.ctx.bufSize - w.ctx.index) (some x) :: (ka ++ es2)) = handed es2 := by
      show handed ([.recvd (w.ctx.bufSize - w.ctx.index) (some x)] ++ (ka ++ es2)) = _
      rw [handed_append, handed_append, hc]
      simp [handed, isAppCall]
    rw [wire_recvd, wire_append, received_got, received_append, h2.quiet.1, e3, List.nil_append, List.length_append, List.length_append]
    cases h4 with
    | stopped _ _ h6 _ =>
      rw [h6, List.length_append, show wire [] = [] from rfl, received_nil]
      simp only [handed, List.countP_nil, List.length_nil]
      omega
    | wait _ _ h6 _ =>
      rw [h6, List.length_append, show wire [] = [] from rfl, received_nil]
      simp only [handed, List.countP_nil, List.length_nil]
      omega
    | drop _ _ h5 _ h6 _ _ =>
      have hh : handed es2 = 0 := by rw [handed_callbacks, callbacks_of_recvX h5]; rfl
      rw [h6, hh, wire_of_noSent h5.noSent]
      simp
      omega
    | @packet _ _ es3 p rest _ _ _ more k1 k2 k3 k4 k5 k6 k7 k8 k9 =>
      obtain ⟨e1, e2⟩ := wire_more k7
      have hm : handed more = 0 := by rcases k7 with ⟨_, t, rfl⟩ | ⟨_, rfl⟩ <;> simp [handed, isAppCall]
      have hcb : handed es3 ≤ 1 := by rw [handed_callbacks, k6.calls]; exact react_one _ _ _ _ _
      have hlen := congrArg List.length k2
      rw [List.length_append, List.length_append] at hlen
      have h2b : 2 ≤ p.bytes.length := by
        rw [Raw.bytes_eq]
        have := varInt_pos p.body.length
        simp only [List.length_cons, List.length_append]
        omega
      rw [handed_append, hm, e1, e2, k8]
      rcases reacted_answer k6.x.2.2 with h | ⟨pkt, h5, h6⟩
      · rw [h]; simp only [List.length_nil]; omega
      · have a1 := h6.length_le
        have a2 := answer_small h5
        omega

/-! ### C72 -/

/-- **C72** A receive call, whatever its outcome, hands at most one packet to the application and sends at most a PINGREQ and one acknowledgement;
`MQTT_ReceiveLoop` at most an acknowledgement. -/
theorem C72_one {g : Cfg} {h0 : List (ApiCall × ApiRet)} {w : World} (hh : FromInit g h0 w) (e : Env) (m : Bool) :
    handed (callEvents g w e (loopCall m)) ≤ 1 ∧ (wire (callEvents g w e (loopCall m))).length ≤ if m = true then 6 else 4 := by
  obtain ⟨hg, hidx, s, hrep⟩ := hh.good
  have hv : ValidCall g (loopCall m) := by cases m <;> trivial
  have hans : Answers m w (callEvents g w e (loopCall m)) := by
    rcases call_cases hg hidx hrep e hv with ⟨r, es, w1, h1, h2, _, hd⟩ | ⟨es, w1, h1, h2, _, hd⟩
    · rw [h2]; exact hd.answers
    · rw [h2]; exact hd.answers
  constructor
  · rcases call_cases hg hidx hrep e hv with ⟨r, es, w1, h1, h2, _, hd⟩ | ⟨es, w1, h1, h2, _, hd⟩
    · rw [h2]; exact (loop_echo hd).2.1
    · rw [h2, handed_callbacks]
      rcases hd.fronted with h | ⟨p, rest, _, _, h⟩
      · rw [h]; simp [handed]
      · exact Nat.le_trans (handed_prefix h) (react_one _ _ _ _ _)
  · obtain ⟨ping, ack, h1, h2, h3, h4⟩ := hans
    have hp : ping.length ≤ if m = true then 2 else 0 := by
      by_cases hne : ping = []
      · rw [hne]; simp
      · rw [if_pos (h3 hne).1]
        exact pingreq_length ▸ h2.length_le
    have ha : ack.length ≤ 4 := by
      rcases h4 with h | ⟨p, pkt, rest, _, _, _, h⟩
      · rw [h]; simp
      · refine Nat.le_trans h.length_le ?_
        unfold ackWire
        split
        · simp
        · rw [idPacket_length]; omega
    rw [h1, List.length_append]
    split <;> simp_all <;> omega

/-- The calls of `MQTT_ProcessLoop` in a history. -/
def isProcessLoop : ApiCall → Bool
  | .processLoop => true
  | _ => false

/-- How many there are. -/
def processLoops (h : List (ApiCall × ApiRet)) : Nat := h.countP fun x => isProcessLoop x.1

/-- **C72** In any history of receive calls, the client sends at most as many bytes as it received, apart from one PINGREQ (two bytes) for each call of
`MQTT_ProcessLoop`, and hands over at most one packet for every two bytes. -/
theorem C72_echo {g : Cfg} {h0 h : List (ApiCall × ApiRet)} {w w' : World} (hh : FromInit g h0 w) (hs : Hist g w h w')
    (hl : ∀ x ∈ h, ∃ m, x.1 = loopCall m) {es : List Event} (hes : w'.trace = w.trace ++ es) :
    (wire es).length + w'.ctx.buffered.length ≤ w.ctx.buffered.length + (received es).length + 2 * processLoops h ∧
    2 * handed es + w'.ctx.buffered.length ≤ w.ctx.buffered.length + (received es).length ∧ handed es ≤ h.length := by
  obtain ⟨hg, hidx, s, hrep⟩ := hh.good
  have hi0 : Inv s.outCap s.inCap w.ctx := ⟨hidx, s, hrep, rfl, rfl⟩
  induction hs generalizing es with
  | start =>
    have : es = [] := by simpa using hes
    subst this
    simp [wire, handed, received]
  | @call w1 w2 h e c r hs hvc hc ih =>
    obtain ⟨m, hm⟩ := hl (c, r) (by simp)
    subst hm
    obtain ⟨i1, s1, i2, _⟩ := hs.inv hg hi0
    obtain ⟨es1, he1⟩ := hs.grows hg hi0
    obtain ⟨es2, hlk, hd⟩ := callIn_done hg hvc i1 i2 hc
    have hes' : es = es1 ++ es2 := by
      have h1 : w2.trace = w1.trace ++ es2 := hlk.trace
      rw [h1, he1, List.append_assoc] at hes
      exact (List.append_cancel_left hes).symm
    subst hes'
    obtain ⟨k1, k2, k3⟩ := ih (fun x hx => hl x (by simp [hx])) he1
    obtain ⟨j1, j2, j3⟩ := loop_echo hd
    have j1 : (wire es2).length + w2.ctx.buffered.length ≤ w1.ctx.buffered.length + (received es2).length + (if m = true then 2 else 0) := j1
    have j3 : 2 * handed es2 + w2.ctx.buffered.length ≤ w1.ctx.buffered.length + (received es2).length := j3
    have hpl : 2 * processLoops (h ++ [(loopCall m, r)]) = 2 * processLoops h + if m = true then 2 else 0 := by
      unfold processLoops
      rw [List.countP_append]
      cases m <;> simp [loopCall, isProcessLoop]
      omega
    rw [hpl, wire_append, received_append, handed_append, List.length_append, List.length_append, List.length_append, List.length_singleton]
    omega

/-- Non-vacuity: the bounds are reached.  After a QoS 2 publish, its duplicate and its PUBREL in three calls: two packets handed over, 12 bytes sent, 20 bytes received; and
a PUBREL of four bytes is answered by a PUBCOMP of four bytes. -/
example : let p2 : List (List UInt8) := [[0x34, 6, 0, 1, 97, 0, 9, 6], [0x3C, 6, 0, 1, 97, 0, 9, 6], [0x62, 2, 0, 9]]
    let es := (Ex.feed p2).2.trace.drop Ex.after.trace.length
    Hist Ex.g Ex.after (Ex.feed p2).1 (Ex.feed p2).2 ∧ (Ex.feed p2).1.length = 3 ∧ handed es = 2 ∧ (wire es).length = 12 ∧ (received es).length = 20 :=
  ⟨Ex.feed_hist (by decide +kernel), by decide +kernel, by decide +kernel, by decide +kernel, by decide +kernel⟩

/-- `MQTT_ProcessLoop` may send six bytes: a PUBREC stands in the buffer behind another packet when the keep-alive interval ends; the call finds no new data, sends a PINGREQ, and then handles the PUBREC. -/
def Ex.late : List (Env × ApiCall) :=
  [(Ex.env [0x20, 2, 0, 0], Ex.connectCall), (Ex.env [], Ex.publishCall .qos2 7),
   ({ Ex.env [0xD0, 0, 0x50, 2, 0, 7] with recvs := [.deliver 100] }, .processLoop)]

example : (Ex.played Ex.late).2.ctx.buffered = [0x50, 2, 0, 7] ∧
    wire (callEvents Ex.g (Ex.played Ex.late).2 (Ex.envAt 40000 []) .processLoop) = [0xC0, 0, 0x62, 2, 0, 7] ∧
    handed (callEvents Ex.g (Ex.played Ex.late).2 (Ex.envAt 40000 []) .processLoop) = 1 := by
  decide +kernel

end Mqtt
