/-
C94: what a receiving client sends and presents is a function of the packets it receives.
-/
import Verif.Proof.Conversation
import Verif.Proof.Broken
import Verif.Props.Receive

namespace Mqtt
open Spec

/-- **C94** Receive calls, none of which reports that something could not be sent: the packets `done` taken from the stream determine the callbacks and the
publishes in flight (`present`), and also what is sent: the answers to these packets, complete and in order (`answers`), with PINGREQs before, between
and after them (only `MQTT_ProcessLoop`), and nothing else. -/
theorem C94_answers {g : Cfg} {h0 h : List (ApiCall × ApiRet)} {w w' : World} (hh : FromInit g h0 w) {m : Bool} (hs : Hist g w h w')
    (hl : ∀ x ∈ h, x.1 = loopCall m) {es : List Event} (hes : w'.trace = w.trace ++ es) {s : InFlight} (hrep : Represents w.ctx.tables s)
    {pkts : List Raw} {tail : List UInt8} (hv : ∀ p ∈ pkts, p.Valid)
    (hf : (∀ p ∈ pkts, p.bytes.length ≤ w.ctx.bufSize) ∨ ∀ x ∈ h, x.2 ≠ .status .recvFailed)
    (hstream : w.ctx.buffered ++ received es ++ tail = pkts.flatMap Raw.bytes) (hok : ∀ x ∈ h, ∀ st ∈ cannotSend, x.2 ≠ .status st) :
    ∃ done todo s', pkts = done ++ todo ∧ w.ctx.buffered ++ received es = done.flatMap Raw.bytes ++ w'.ctx.buffered ∧
      Represents w'.ctx.tables s' ∧ present w.ctx.retransmits m w.ctx.bufSize s done = (callbacks es, s') ∧
      Pinged m (answers w.ctx.retransmits m w.ctx.bufSize s done) (wire es) := by
  obtain ⟨hg, hidx, _⟩ := hh.good
  obtain ⟨a, b, s', k1, k2, k3, k4, k5, _⟩ := hist_said hg hs hidx hrep hl hes hv hstream hf hok
  exact ⟨a, b, s', k1, k2, k3, k4, k5⟩

/-- **C94** for `MQTT_ReceiveLoop`: what is sent is exactly the answers, one after the other. -/
theorem C94_exact {g : Cfg} {h0 h : List (ApiCall × ApiRet)} {w w' : World} (hh : FromInit g h0 w) (hs : Hist g w h w')
    (hl : ∀ x ∈ h, x.1 = .receiveLoop) {es : List Event} (hes : w'.trace = w.trace ++ es) {s : InFlight} (hrep : Represents w.ctx.tables s)
    {pkts : List Raw} (hv : ∀ p ∈ pkts, p.Valid) (hf : (∀ p ∈ pkts, p.bytes.length ≤ w.ctx.bufSize) ∨ ∀ x ∈ h, x.2 ≠ .status .recvFailed)
    (hstream : w.ctx.buffered ++ received es = pkts.flatMap Raw.bytes) (hend : w'.ctx.buffered = [])
    (hok : ∀ x ∈ h, ∀ st ∈ cannotSend, x.2 ≠ .status st) :
    wire es = (answers w.ctx.retransmits false w.ctx.bufSize s pkts).flatten ∧
    ∃ s', Represents w'.ctx.tables s' ∧ present w.ctx.retransmits false w.ctx.bufSize s pkts = (callbacks es, s') := by
  obtain ⟨a, b, s', k1, k2, k3, k4, k5⟩ := C94_answers (m := false) hh hs hl hes hrep (tail := []) hv hf (by simpa using hstream) hok
  rw [hend, List.append_nil, hstream] at k2
  have e1 := same_packets hv (fun p hp => hv p (by rw [k1]; exact List.mem_append_left _ hp)) k2
  rw [← e1] at k4 k5
  exact ⟨Pinged.flat k5, s', k3, k4⟩

/-- **C94** Two clients with the same publishes in flight receive the same packets, which fit their network buffers.  The buffers may be of different
sizes, the transports may cut the stream and the answers into any pieces, and the numbers of calls may differ: the clients send the same bytes, make the same
callbacks and end with the same publishes in flight. -/
theorem C94_independent {g₁ g₂ : Cfg} {i₁ i₂ h₁ h₂ : List (ApiCall × ApiRet)} {w₁ w₁' w₂ w₂' : World} (hh₁ : FromInit g₁ i₁ w₁) (hh₂ : FromInit g₂ i₂ w₂)
    (hs₁ : Hist g₁ w₁ h₁ w₁') (hs₂ : Hist g₂ w₂ h₂ w₂') (hl₁ : ∀ x ∈ h₁, x.1 = .receiveLoop) (hl₂ : ∀ x ∈ h₂, x.1 = .receiveLoop)
    {es₁ es₂ : List Event} (hes₁ : w₁'.trace = w₁.trace ++ es₁) (hes₂ : w₂'.trace = w₂.trace ++ es₂) {s : InFlight}
    (hrep₁ : Represents w₁.ctx.tables s) (hrep₂ : Represents w₂.ctx.tables s) (hr : w₁.ctx.retransmits = w₂.ctx.retransmits)
    {pkts : List Raw} (hv : ∀ p ∈ pkts, p.Valid) (hf₁ : ∀ p ∈ pkts, p.bytes.length ≤ w₁.ctx.bufSize) (hf₂ : ∀ p ∈ pkts, p.bytes.length ≤ w₂.ctx.bufSize)
    (hstream₁ : w₁.ctx.buffered ++ received es₁ = pkts.flatMap Raw.bytes) (hstream₂ : w₂.ctx.buffered ++ received es₂ = pkts.flatMap Raw.bytes)
    (hend₁ : w₁'.ctx.buffered = []) (hend₂ : w₂'.ctx.buffered = [])
    (hok₁ : ∀ x ∈ h₁, ∀ st ∈ cannotSend, x.2 ≠ .status st) (hok₂ : ∀ x ∈ h₂, ∀ st ∈ cannotSend, x.2 ≠ .status st) :
    wire es₁ = wire es₂ ∧ callbacks es₁ = callbacks es₂ ∧ ∃ s', Represents w₁'.ctx.tables s' ∧ Represents w₂'.ctx.tables s' := by
  obtain ⟨k1, s', k2, k3⟩ := C94_exact hh₁ hs₁ hl₁ hes₁ hrep₁ hv (Or.inl hf₁) hstream₁ hend₁ hok₁
  obtain ⟨j1, s'', j2, j3⟩ := C94_exact hh₂ hs₂ hl₂ hes₂ hrep₂ hv (Or.inl hf₂) hstream₂ hend₂ hok₂
  obtain ⟨c1, c2⟩ := present_cap w₁.ctx.retransmits false hf₁ hf₂ s
  rw [c2] at k1
  rw [← hr] at j1 j3
  rw [c1, j3] at k3
  obtain ⟨e1, e2⟩ := Prod.mk.inj k3
  exact ⟨k1.trans j1.symm, e1.symm, s', k2, e2 ▸ j2⟩

/-- **C94** with a call that reports that it could not send, after calls that did not: the packets `done` were answered completely; the packet `p` that the last
call took was presented and recorded like any other, and a proper part of its answer (perhaps nothing) is the last that was sent.  What follows in the
stream has not been touched. -/
theorem C94_broken {g : Cfg} {h0 h : List (ApiCall × ApiRet)} {w w' : World} (hh : FromInit g h0 w) {st : Status}
    (hs : Hist g w (h ++ [(.receiveLoop, .status st)]) w') (hl : ∀ x ∈ h, x.1 = .receiveLoop) {es : List Event} (hes : w'.trace = w.trace ++ es)
    {s : InFlight} (hrep : Represents w.ctx.tables s) {pkts : List Raw} {tail : List UInt8} (hv : ∀ p ∈ pkts, p.Valid)
    (hf : (∀ p ∈ pkts, p.bytes.length ≤ w.ctx.bufSize) ∨ ∀ x ∈ h, x.2 ≠ .status .recvFailed)
    (hstream : w.ctx.buffered ++ received es ++ tail = pkts.flatMap Raw.bytes) (hok : ∀ x ∈ h, ∀ st ∈ cannotSend, x.2 ≠ .status st)
    (hst : st ∈ cannotSend) :
    ∃ done p todo cb s' part, pkts = done ++ p :: todo ∧ w.ctx.buffered ++ received es = done.flatMap Raw.bytes ++ p.bytes ++ w'.ctx.buffered ∧
      p.bytes.length ≤ w.ctx.bufSize ∧ present w.ctx.retransmits false w.ctx.bufSize s done = (cb, s') ∧
      let r := react w.ctx.retransmits false s' p.first p.body
      callbacks es = cb ++ r.callbacks ∧ Represents w'.ctx.tables r.state ∧
      wire es = (answers w.ctx.retransmits false w.ctx.bufSize s done).flatten ++ part ∧ part <+: ackWire r.ack ∧ part ≠ ackWire r.ack := by
  obtain ⟨hg, hidx, _⟩ := hh.good
  generalize hH : h ++ [((.receiveLoop : ApiCall), ApiRet.status st)] = H at hs
  cases hs with
  | start => exact absurd hH (by simp)
  | @call w1 _ h' e c r hs1 hvc hcall =>
    obtain ⟨rfl, e2⟩ := List.append_inj' hH rfl
    simp only [List.cons.injEq, Prod.mk.injEq, and_true] at e2
    obtain ⟨rfl, rfl⟩ := e2
    have hi0 : Inv s.outCap s.inCap w.ctx := ⟨hidx, s, hrep, rfl, rfl⟩
    obtain ⟨i1, s1, i2, _⟩ := hs1.inv hg hi0
    obtain ⟨es2, hlk, hd⟩ := callIn_done hg hvc i1 i2 hcall
    obtain ⟨es1, he1⟩ := hs1.grows hg hi0
    have hes' : es = es1 ++ es2 := by
      have h1 : w'.trace = w1.trace ++ es2 := hlk.trace
      rw [h1, he1, List.append_assoc] at hes
      exact (List.append_cancel_left hes).symm
    subst hes'
    rw [received_append] at hstream
    obtain ⟨a, b, s', k1, k2, k3, k4, k5, k6, k7, k8⟩ := hist_said (m := false) hg hs1 hidx hrep hl he1 (tail := received es2 ++ tail) hv
      (by rw [← hstream]; simp) hf hok
    have hrs : s' = s1 := represents_unique k3 i2
    subst hrs
    have hs2 : w1.ctx.buffered ++ received es2 ++ tail = b.flatMap Raw.bytes := by
      have : w.ctx.buffered ++ (received es1 ++ received es2) ++ tail = (w.ctx.buffered ++ received es1) ++ (received es2 ++ tail) := by simp
      rw [this, k2, k1, List.flatMap_append, List.append_assoc] at hstream
      have := List.append_cancel_left hstream
      rw [← this]; simp
    obtain ⟨p, b', j1, j2, j3, j4, j5, j6, j7⟩ := did_broken (w := { w1 with env := e }) hd (tail := tail) (pkts := b)
      (fun q hq => hv q (by rw [k1]; exact List.mem_append_right _ hq)) hs2 hst
    have hr : ({ w1 with env := e } : World).ctx.retransmits = w.ctx.retransmits := k8
    rw [hr] at j4 j5 j6 j7
    refine ⟨a, p, b', _, s', wire es2, by rw [k1, j1], ?_, by rw [← k7]; exact j3, k4, ?_, j4, ?_, j6, j7⟩
    · rw [received_append, ← List.append_assoc, k2, List.append_assoc, List.append_assoc]
      exact congrArg _ j2
    · rw [callbacks_append, j5]
    · rw [wire_append, Pinged.flat k5]

/-- **C94** The same for both receive functions: the packets `done` were answered completely, with whole PINGREQs in between.  What the last call could not
send is either a PINGREQ of the keep-alive check, then no packet was taken from the stream; or the answer to the packet `p`, which was presented and recorded like
any other.  A proper part of it (perhaps nothing) is the last that was sent. -/
theorem C94_broken_loop {g : Cfg} {h0 h : List (ApiCall × ApiRet)} {w w' : World} (hh : FromInit g h0 w) {st : Status} {m : Bool}
    (hs : Hist g w (h ++ [(loopCall m, .status st)]) w') (hl : ∀ x ∈ h, x.1 = loopCall m) {es : List Event} (hes : w'.trace = w.trace ++ es)
    {s : InFlight} (hrep : Represents w.ctx.tables s) {pkts : List Raw} {tail : List UInt8} (hv : ∀ p ∈ pkts, p.Valid)
    (hf : (∀ p ∈ pkts, p.bytes.length ≤ w.ctx.bufSize) ∨ ∀ x ∈ h, x.2 ≠ .status .recvFailed)
    (hstream : w.ctx.buffered ++ received es ++ tail = pkts.flatMap Raw.bytes) (hok : ∀ x ∈ h, ∀ st ∈ cannotSend, x.2 ≠ .status st)
    (hst : st ∈ cannotSend) :
    ∃ done todo cb s' out part, pkts = done ++ todo ∧ present w.ctx.retransmits m w.ctx.bufSize s done = (cb, s') ∧
      Pinged m (answers w.ctx.retransmits m w.ctx.bufSize s done) out ∧ wire es = out ++ part ∧
      ((m = true ∧ w.ctx.buffered ++ received es = done.flatMap Raw.bytes ++ w'.ctx.buffered ∧ callbacks es = cb ∧ Represents w'.ctx.tables s' ∧
          part <+: pingreqPacket ∧ part ≠ pingreqPacket) ∨
       ∃ p rest, todo = p :: rest ∧ w.ctx.buffered ++ received es = done.flatMap Raw.bytes ++ p.bytes ++ w'.ctx.buffered ∧ p.bytes.length ≤ w.ctx.bufSize ∧
        let r := react w.ctx.retransmits m s' p.first p.body
        callbacks es = cb ++ r.callbacks ∧ Represents w'.ctx.tables r.state ∧ part <+: ackWire r.ack ∧ part ≠ ackWire r.ack) := by
  obtain ⟨hg, hidx, _⟩ := hh.good
  generalize hH : h ++ [(loopCall m, ApiRet.status st)] = H at hs
  cases hs with
  | start => exact absurd hH (by simp)
  | @call w1 _ h' e c r hs1 hvc hcall =>
    obtain ⟨rfl, e2⟩ := List.append_inj' hH rfl
    simp only [List.cons.injEq, Prod.mk.injEq, and_true] at e2
    obtain ⟨rfl, rfl⟩ := e2
    have hi0 : Inv s.outCap s.inCap w.ctx := ⟨hidx, s, hrep, rfl, rfl⟩
    obtain ⟨i1, s1, i2, _⟩ := hs1.inv hg hi0
    obtain ⟨es2, hlk, hd⟩ := callIn_done hg hvc i1 i2 hcall
    obtain ⟨es1, he1⟩ := hs1.grows hg hi0
    have hes' : es = es1 ++ es2 := by
      have h1 : w'.trace = w1.trace ++ es2 := hlk.trace
      rw [h1, he1, List.append_assoc] at hes
      exact (List.append_cancel_left hes).symm
    subst hes'
    rw [received_append] at hstream
    obtain ⟨a, b, s', k1, k2, k3, k4, k5, k6, k7, k8⟩ := hist_said (m := m) hg hs1 hidx hrep hl he1 (tail := received es2 ++ tail) hv
      (by rw [← hstream]; simp) hf hok
    have hrs : s' = s1 := represents_unique k3 i2
    subst hrs
    have hs2 : w1.ctx.buffered ++ received es2 ++ tail = b.flatMap Raw.bytes := by
      have : w.ctx.buffered ++ (received es1 ++ received es2) ++ tail = (w.ctx.buffered ++ received es1) ++ (received es2 ++ tail) := by simp
      rw [this, k2, k1, List.flatMap_append, List.append_assoc] at hstream
      have := List.append_cancel_left hstream
      rw [← this]; simp
    have hr : ({ w1 with env := e } : World).ctx.retransmits = w.ctx.retransmits := k8
    obtain ⟨out, part, q1, q2, q3⟩ := did_broken' (w := { w1 with env := e }) hd (tail := tail) (pkts := b)
      (fun q hq => hv q (by rw [k1]; exact List.mem_append_right _ hq)) hs2 hst
    have hout : Pinged m (answers w.ctx.retransmits m w.ctx.bufSize s a) (wire es1 ++ out) := by
      have := Pinged.append k5 q1
      rwa [List.append_nil] at this
    refine ⟨a, b, _, s', wire es1 ++ out, part, k1, k4, hout, by rw [wire_append, q2, List.append_assoc], ?_⟩
    rcases q3 with ⟨j1, j2, j3, j4, j5⟩ | ⟨p, b', j1, j2, j3, j4, j5, j6, j7⟩
    · refine Or.inl ⟨j1, ?_, by rw [callbacks_append, j3, List.append_nil], by rw [j4]; exact k3, j5⟩
      rw [received_append, ← List.append_assoc, k2, List.append_assoc]
      exact congrArg _ j2
    · rw [hr] at j4 j5 j6 j7
      refine Or.inr ⟨p, b', j1, ?_, by rw [← k7]; exact j3, by rw [callbacks_append, j5], j4, j6, j7⟩
      rw [received_append, ← List.append_assoc, k2, List.append_assoc, List.append_assoc]
      exact congrArg _ j2

namespace Ex

/-- A QoS 2 publish, its duplicate, its PUBREL, a PUBCOMP and a QoS 0 publish. -/
def dialogue : List Raw :=
  [⟨0x34, [0, 1, 97, 0, 9, 6]⟩, ⟨0x3C, [0, 1, 97, 0, 9, 6]⟩, ⟨0x62, [0, 9]⟩, ⟨0x70, [0, 7]⟩, ⟨0x30, [0, 1, 97, 5]⟩]

/-- The same bytes one by one, and in two pieces. -/
def halves : List (List UInt8) := [(dialogue.flatMap Raw.bytes).take 11, (dialogue.flatMap Raw.bytes).drop 11, [], [], []]
def bytes : List (List UInt8) := (dialogue.flatMap Raw.bytes).map fun b => [b]

/-- The publishes in flight in `after`: one outgoing QoS 2 publish that waits for its PUBCOMP. -/
def inAfter : InFlight := ⟨2, 2, [(7, .awaitPubcomp)], []⟩

end Ex

/-- A stream to which C94 applies, cut in two ways: the hypotheses, and the answers that are sent. -/
example : Represents Ex.after.ctx.tables Ex.inAfter :=
  ⟨⟨by decide +kernel, by decide +kernel, by decide +kernel, by decide +kernel⟩,
   ⟨by decide +kernel, by decide +kernel, by decide +kernel, by decide +kernel⟩⟩

example : Hist Ex.g Ex.after (Ex.feed Ex.halves).1 (Ex.feed Ex.halves).2 ∧ Hist Ex.g Ex.after (Ex.feed Ex.bytes).1 (Ex.feed Ex.bytes).2 :=
  ⟨Ex.feed_hist (by decide +kernel), Ex.feed_hist (by decide +kernel)⟩

example : ∀ p ∈ Ex.dialogue, p.Valid := by
  intro p hp
  simp only [Ex.dialogue, List.mem_cons, List.not_mem_nil, or_false] at hp
  rcases hp with rfl | rfl | rfl | rfl | rfl <;> exact ⟨by decide +kernel, by decide⟩

example : (∀ c ∈ [Ex.halves, Ex.bytes], let w' := (Ex.feed c).2
      let es := w'.trace.drop Ex.after.trace.length
      w'.trace.take Ex.after.trace.length = Ex.after.trace ∧ Ex.after.ctx.buffered ++ received es = Ex.dialogue.flatMap Raw.bytes ∧ w'.ctx.buffered = [] ∧
      (∀ x ∈ (Ex.feed c).1, (x.1 matches .receiveLoop) = true ∧ ∀ st ∈ cannotSend, x.2 ≠ .status st) ∧
      wire es = [0x50, 2, 0, 9, 0x50, 2, 0, 9, 0x70, 2, 0, 9]) ∧
    (∀ p ∈ Ex.dialogue, p.bytes.length ≤ Ex.after.ctx.bufSize) ∧
    answers Ex.after.ctx.retransmits false Ex.after.ctx.bufSize Ex.inAfter Ex.dialogue = [[0x50, 2, 0, 9], [0x50, 2, 0, 9], [0x70, 2, 0, 9], [], []] := by
  decide +kernel

/-- The transport takes the first PUBREC and two bytes of the second one, and then fails. -/
def Ex.breakingAnswer : List (Env × ApiCall) :=
  [({ Ex.env ((Ex.dialogue.flatMap Raw.bytes).take 11) with recvs := List.replicate 40 (.deliver 100) }, .receiveLoop),
   ({ Ex.env ((Ex.dialogue.flatMap Raw.bytes).drop 11) with recvs := List.replicate 40 (.deliver 100), sends := [.accept 2, .fail] }, .receiveLoop)]

def Ex.brokenAnswer : List (ApiCall × ApiRet) × World := (Ex.play Ex.after Ex.breakingAnswer).getD ([], Ex.after)

example : Hist Ex.g Ex.after Ex.brokenAnswer.1 Ex.brokenAnswer.2 := by
  have hp : (Ex.play Ex.after Ex.breakingAnswer).isSome = true := by decide +kernel
  obtain ⟨⟨h, w'⟩, he⟩ := Option.isSome_iff_exists.mp hp
  rw [Ex.brokenAnswer, he]
  refine Ex.play_hist ?_ he
  intro x hx
  simp only [Ex.breakingAnswer, List.mem_cons, List.not_mem_nil, or_false] at hx
  rcases hx with rfl | rfl <;> trivial

example : let es := Ex.brokenAnswer.2.trace.drop Ex.after.trace.length
    Ex.brokenAnswer.2.trace.take Ex.after.trace.length = Ex.after.trace ∧
    Ex.brokenAnswer.1.map (fun x => x.2) = [.status .success, .status .sendFailed] ∧ (∀ x ∈ Ex.brokenAnswer.1, (x.1 matches .receiveLoop) = true) ∧
    Ex.after.ctx.buffered ++ received es = Ex.dialogue.flatMap Raw.bytes ∧ wire es = [0x50, 2, 0, 9] ++ [0x50, 2] ∧
    callbacks es = [.app 0x34 [0, 1, 97, 0, 9, 6] 9 .success (some ⟨.qos2, false, false, [97], [6]⟩)] ∧
    Ex.brokenAnswer.2.ctx.buffered = (Ex.dialogue.drop 2).flatMap Raw.bytes := by
  decide +kernel

/-- A PINGREQ becomes due, and the transport fails after its first byte. -/
def Ex.breakingPing : List (Env × ApiCall) :=
  [({ Ex.env [] with clock := (List.range 50).map fun i => UInt32.ofNat (100000 + i), sends := [.accept 1, .fail] }, .processLoop)]

example : ∃ x, Ex.play Ex.after Ex.breakingPing = some x ∧ Hist Ex.g Ex.after x.1 x.2 := by
  have hp : (Ex.play Ex.after Ex.breakingPing).isSome = true := by decide +kernel
  obtain ⟨⟨h, w'⟩, he⟩ := Option.isSome_iff_exists.mp hp
  refine ⟨_, he, Ex.play_hist ?_ he⟩
  intro x hx
  simp only [Ex.breakingPing, List.mem_cons, List.not_mem_nil, or_false] at hx
  rcases hx with rfl
  trivial

example : (Ex.play Ex.after Ex.breakingPing).map (fun x => (x.1.map (·.2), wire (x.2.trace.drop Ex.after.trace.length), x.2.ctx.buffered)) =
    some ([.status .sendFailed], [0xC0], []) := by
  decide +kernel

/-- For `MQTT_ProcessLoop`: a PINGREQ that became due goes out before the answer to the packet that arrives next. -/
example : Pinged true [[], [0x40, 2, 0, 9]] [0xC0, 0, 0x40, 2, 0, 9] := by
  have e : [0xC0, 0, 0x40, 2, 0, 9] = [] ++ (pingreqPacket ++ ([0x40, 2, 0, 9] ++ [])) := by decide +kernel
  rw [e]
  exact .packet (.ping rfl (.packet .nil))

/-- For `MQTT_ReceiveLoop` there is no such freedom. -/
example (l : List (List UInt8)) (out : List UInt8) : Pinged false l out ↔ out = l.flatten := by
  refine ⟨Pinged.flat, ?_⟩
  rintro rfl
  induction l with
  | nil => exact .nil
  | cons p l ih => exact .packet ih

end Mqtt
