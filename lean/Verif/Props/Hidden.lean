/-
C95: the contents of received messages influence nothing but what is presented to the application.
-/
import Verif.Proof.Hidden
import Verif.Props.Conversation

namespace Mqtt
open Spec

/-- **C95** Two clients with the same publishes in flight receive streams that differ only in the bytes of topic names and messages.  They send the same
bytes, end with the same publishes in flight, and make the same callbacks but for these bytes. -/
theorem C95_contents {g₁ g₂ : Cfg} {i₁ i₂ h₁ h₂ : List (ApiCall × ApiRet)} {w₁ w₁' w₂ w₂' : World} (hh₁ : FromInit g₁ i₁ w₁) (hh₂ : FromInit g₂ i₂ w₂)
    (hs₁ : Hist g₁ w₁ h₁ w₁') (hs₂ : Hist g₂ w₂ h₂ w₂') (hl₁ : ∀ x ∈ h₁, x.1 = .receiveLoop) (hl₂ : ∀ x ∈ h₂, x.1 = .receiveLoop)
    {es₁ es₂ : List Event} (hes₁ : w₁'.trace = w₁.trace ++ es₁) (hes₂ : w₂'.trace = w₂.trace ++ es₂) {s : InFlight}
    (hrep₁ : Represents w₁.ctx.tables s) (hrep₂ : Represents w₂.ctx.tables s) (hr : w₁.ctx.retransmits = w₂.ctx.retransmits)
    {p₁ p₂ : List Raw} (halike : p₁.map hideRaw = p₂.map hideRaw) (hv₁ : ∀ p ∈ p₁, p.Valid) (hv₂ : ∀ p ∈ p₂, p.Valid)
    (hf₁ : ∀ p ∈ p₁, p.bytes.length ≤ w₁.ctx.bufSize) (hf₂ : ∀ p ∈ p₂, p.bytes.length ≤ w₂.ctx.bufSize)
    (hstream₁ : w₁.ctx.buffered ++ received es₁ = p₁.flatMap Raw.bytes) (hstream₂ : w₂.ctx.buffered ++ received es₂ = p₂.flatMap Raw.bytes)
    (hend₁ : w₁'.ctx.buffered = []) (hend₂ : w₂'.ctx.buffered = [])
    (hok₁ : ∀ x ∈ h₁, ∀ st ∈ cannotSend, x.2 ≠ .status st) (hok₂ : ∀ x ∈ h₂, ∀ st ∈ cannotSend, x.2 ≠ .status st) :
    wire es₁ = wire es₂ ∧ (callbacks es₁).map hideEvent = (callbacks es₂).map hideEvent ∧
    ∃ s', Represents w₁'.ctx.tables s' ∧ Represents w₂'.ctx.tables s' := by
  obtain ⟨k1, s', k2, k3⟩ := C94_exact hh₁ hs₁ hl₁ hes₁ hrep₁ hv₁ (Or.inl hf₁) hstream₁ hend₁ hok₁
  obtain ⟨j1, s'', j2, j3⟩ := C94_exact hh₂ hs₂ hl₂ hes₂ hrep₂ hv₂ (Or.inl hf₂) hstream₂ hend₂ hok₂
  have len : ∀ {a b : List Raw} {n : Nat}, (∀ p ∈ a, p.bytes.length ≤ n) → a.map hideRaw = b.map hideRaw → ∀ p ∈ b, p.bytes.length ≤ n := by
    intro a b n ha hab p hp
    have : hideRaw p ∈ a.map hideRaw := by rw [hab]; exact List.mem_map_of_mem hp
    obtain ⟨q, hq, e⟩ := List.mem_map.mp this
    rw [← hideRaw_length, ← e, hideRaw_length]
    exact ha q hq
  obtain ⟨c1, c2⟩ := present_cap w₁.ctx.retransmits false hf₁ (len hf₂ halike.symm) s
  obtain ⟨a1, a2⟩ := present_hide w₁.ctx.retransmits false w₂.ctx.bufSize p₁ s
  obtain ⟨b1, b2⟩ := present_hide w₁.ctx.retransmits false w₂.ctx.bufSize p₂ s
  rw [← hr] at j1 j3
  rw [c1] at k3
  rw [c2] at k1
  rw [halike] at a1 a2
  rw [k3] at a1
  rw [j3, a1] at b1
  obtain ⟨e1, e2⟩ := Prod.mk.inj b1
  simp only at e1 e2
  exact ⟨by rw [k1, j1, ← a2, b2], e1, s', k2, e2 ▸ j2⟩

/-- **C95** For `MQTT_ProcessLoop`, with its PINGREQs, and also before the last packet is complete: whatever packets a client has taken from the
stream, the same packets with zeros in the place of topic names and messages lead to the same answers, the same publishes in flight and the same
callbacks but for these bytes. -/
theorem C95_process {g : Cfg} {h0 h : List (ApiCall × ApiRet)} {w w' : World} (hh : FromInit g h0 w) {m : Bool} (hs : Hist g w h w')
    (hl : ∀ x ∈ h, x.1 = loopCall m) {es : List Event} (hes : w'.trace = w.trace ++ es) {s : InFlight} (hrep : Represents w.ctx.tables s)
    {pkts : List Raw} {tail : List UInt8} (hv : ∀ p ∈ pkts, p.Valid)
    (hf : (∀ p ∈ pkts, p.bytes.length ≤ w.ctx.bufSize) ∨ ∀ x ∈ h, x.2 ≠ .status .recvFailed)
    (hstream : w.ctx.buffered ++ received es ++ tail = pkts.flatMap Raw.bytes) (hok : ∀ x ∈ h, ∀ st ∈ cannotSend, x.2 ≠ .status st) :
    ∃ done todo s', pkts = done ++ todo ∧ w.ctx.buffered ++ received es = done.flatMap Raw.bytes ++ w'.ctx.buffered ∧
      Represents w'.ctx.tables s' ∧
      present w.ctx.retransmits m w.ctx.bufSize s (done.map hideRaw) = ((callbacks es).map hideEvent, s') ∧
      Pinged m (answers w.ctx.retransmits m w.ctx.bufSize s (done.map hideRaw)) (wire es) := by
  obtain ⟨a, b, s', k1, k2, k3, k4, k5⟩ := C94_answers hh hs hl hes hrep hv hf hstream hok
  obtain ⟨e1, e2⟩ := present_hide w.ctx.retransmits m w.ctx.bufSize a s
  exact ⟨a, b, s', k1, k2, k3, by rw [e1, k4], by rw [e2]; exact k5⟩

namespace Ex

/-- Like `dialogue`, with other topic names and messages. -/
def otherWords : List Raw :=
  [⟨0x34, [0, 1, 98, 0, 9, 7]⟩, ⟨0x3C, [0, 1, 0x23, 0, 9, 0]⟩, ⟨0x62, [0, 9]⟩, ⟨0x70, [0, 7]⟩, ⟨0x30, [0, 1, 0, 255]⟩]

def otherPieces : List (List UInt8) := [(otherWords.flatMap Raw.bytes).take 20, (otherWords.flatMap Raw.bytes).drop 20, [], [], []]

end Ex

/-- Two such streams, and what happens. -/
example : Ex.dialogue.map hideRaw = Ex.otherWords.map hideRaw ∧ Ex.dialogue ≠ Ex.otherWords ∧
    Ex.dialogue.map hideRaw = [⟨0x34, [0, 1, 0, 0, 9, 0]⟩, ⟨0x3C, [0, 1, 0, 0, 9, 0]⟩, ⟨0x62, [0, 9]⟩, ⟨0x70, [0, 7]⟩, ⟨0x30, [0, 1, 0, 0]⟩] := by
  decide +kernel

example : Hist Ex.g Ex.after (Ex.feed Ex.otherPieces).1 (Ex.feed Ex.otherPieces).2 := Ex.feed_hist (by decide +kernel)

example : ∀ p ∈ Ex.otherWords, p.Valid := by
  intro p hp
  simp only [Ex.otherWords, List.mem_cons, List.not_mem_nil, or_false] at hp
  rcases hp with rfl | rfl | rfl | rfl | rfl <;> exact ⟨by decide +kernel, by decide⟩

example : let w' := (Ex.feed Ex.otherPieces).2
    let es := w'.trace.drop Ex.after.trace.length
    w'.trace.take Ex.after.trace.length = Ex.after.trace ∧ Ex.after.ctx.buffered ++ received es = Ex.otherWords.flatMap Raw.bytes ∧ w'.ctx.buffered = [] ∧
    (∀ x ∈ (Ex.feed Ex.otherPieces).1, (x.1 matches .receiveLoop) = true ∧ ∀ st ∈ cannotSend, x.2 ≠ .status st) ∧
    (∀ p ∈ Ex.otherWords, p.bytes.length ≤ Ex.after.ctx.bufSize) ∧
    wire es = [0x50, 2, 0, 9, 0x50, 2, 0, 9, 0x70, 2, 0, 9] ∧
    callbacks es = [.app 0x34 [0, 1, 98, 0, 9, 7] 9 .success (some ⟨.qos2, false, false, [98], [7]⟩), .app 0x62 [0, 9] 9 .success none,
      .app 0x70 [0, 7] 7 .success none, .app 0x30 [0, 1, 0, 255] 0 .success (some ⟨.qos0, false, false, [0], [255]⟩)] := by
  decide +kernel

/-- The length of a topic name is not among the bytes that may differ: with another one, other bytes are the packet identifier. -/
example : hideRaw ⟨0x32, [0, 1, 97, 0, 9, 6]⟩ ≠ hideRaw ⟨0x32, [0, 2, 97, 0, 9, 6]⟩ ∧
    (react true false ⟨2, 2, [], []⟩ 0x32 [0, 1, 97, 0, 9, 6]).ack ≠ (react true false ⟨2, 2, [], []⟩ 0x32 [0, 2, 97, 0, 9, 6]).ack := by
  decide +kernel

end Mqtt
