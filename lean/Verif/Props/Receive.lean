/-
Receiving: C32, C33, C34, C36.

`w.ctx.buffered` are the bytes received and not yet consumed, `received es` the bytes the transport delivered in the events `es`, `Raw` a packet of the
stream with its bytes `Raw.bytes` (Spec/Stream), `react` the reaction to one packet (Spec/Incoming), `present` the callbacks for a stream of packets
(Spec/Receiving).  `loopCall true` is `MQTT_ProcessLoop`, `loopCall false` is `MQTT_ReceiveLoop`.
-/
import Verif.Proof.CallAck
import Verif.Proof.Calm
import Verif.Props.Status

namespace Mqtt
open Spec
set_option linter.unusedSimpArgs false

/-! ### C32 -/

/-- **C32** Receive calls take the packets of the stream one after the other, however the transport cuts the stream into pieces: what has been received
is the packets `done` handled so far and the bytes still buffered, and the callbacks made are exactly those for `done`, in order.  (`Seen` allows that an
acknowledgement was not sent, because the connection was lost; `C32_exact` excludes that.) -/
theorem C32_stream {g : Cfg} {h0 h : List (ApiCall × ApiRet)} {w w' : World} (hh : FromInit g h0 w) {m : Bool} (hs : Hist g w h w')
    (hl : ∀ x ∈ h, x.1 = loopCall m) {es : List Event} (hes : w'.trace = w.trace ++ es) {s : InFlight} (hrep : Represents w.ctx.tables s)
    {pkts : List Raw} {tail : List UInt8} (hv : ∀ p ∈ pkts, p.Valid) (hf : ∀ p ∈ pkts, p.bytes.length ≤ w.ctx.bufSize)
    (hstream : w.ctx.buffered ++ received es ++ tail = pkts.flatMap Raw.bytes) :
    ∃ done todo s', pkts = done ++ todo ∧ w.ctx.buffered ++ received es = done.flatMap Raw.bytes ++ w'.ctx.buffered ∧
      Represents w'.ctx.tables s' ∧ Seen w.ctx.retransmits m w.ctx.bufSize s done (callbacks es) s' := by
  obtain ⟨hg, hidx, _⟩ := hh.good
  obtain ⟨a, b, s', k1, k2, k3, k4, _⟩ := hs.seen hg hidx hrep hl hes hv hstream (Or.inl hf)
  exact ⟨a, b, s', k1, k2, k3, k4⟩

/-- **C32** If no call reports that an acknowledgement could not be sent, the callbacks and the in-flight publishes are a function of the packets alone. -/
theorem C32_exact {g : Cfg} {h0 h : List (ApiCall × ApiRet)} {w w' : World} (hh : FromInit g h0 w) {m : Bool} (hs : Hist g w h w')
    (hl : ∀ x ∈ h, x.1 = loopCall m) {es : List Event} (hes : w'.trace = w.trace ++ es) {s : InFlight} (hrep : Represents w.ctx.tables s)
    {pkts : List Raw} {tail : List UInt8} (hv : ∀ p ∈ pkts, p.Valid) (hf : ∀ p ∈ pkts, p.bytes.length ≤ w.ctx.bufSize)
    (hstream : w.ctx.buffered ++ received es ++ tail = pkts.flatMap Raw.bytes) (hok : ∀ x ∈ h, ∀ st ∈ cannotSend, x.2 ≠ .status st) :
    ∃ done todo s', pkts = done ++ todo ∧ w.ctx.buffered ++ received es = done.flatMap Raw.bytes ++ w'.ctx.buffered ∧
      Represents w'.ctx.tables s' ∧ present w.ctx.retransmits m w.ctx.bufSize s done = (callbacks es, s') := by
  obtain ⟨hg, hidx, _⟩ := hh.good
  obtain ⟨a, b, s', k1, k2, k3, _, k5, _⟩ := hs.seen hg hidx hrep hl hes hv hstream (Or.inl hf)
  exact ⟨a, b, s', k1, k2, k3, k5 hok⟩

/-- Two stretches of packets with the same bytes are the same. -/
theorem same_packets {a b : List Raw} (ha : ∀ p ∈ a, p.Valid) (hb : ∀ p ∈ b, p.Valid) (h : a.flatMap Raw.bytes = b.flatMap Raw.bytes) : a = b := by
  induction a generalizing b with
  | nil => exact (flatMap_bytes_nil h.symm).symm
  | cons p ps ih =>
    obtain ⟨qs, rfl, h2⟩ := first_packet (rest := ps.flatMap Raw.bytes) (tail := []) (ha p List.mem_cons_self) hb (by simpa using h)
    rw [ih (fun q hq => ha q (List.mem_cons_of_mem _ hq)) (fun q hq => hb q (List.mem_cons_of_mem _ hq)) (by simpa using h2)]

/-- **C32** Two clients in the same situation that receive the same stream, cut into pieces in any two ways and by any two numbers of calls, make the same
callbacks and end with the same publishes in flight. -/
theorem C32_independent {g₁ g₂ : Cfg} {i₁ i₂ h₁ h₂ : List (ApiCall × ApiRet)} {w₁ w₁' w₂ w₂' : World} (hh₁ : FromInit g₁ i₁ w₁) (hh₂ : FromInit g₂ i₂ w₂)
    {m : Bool} (hs₁ : Hist g₁ w₁ h₁ w₁') (hs₂ : Hist g₂ w₂ h₂ w₂') (hl₁ : ∀ x ∈ h₁, x.1 = loopCall m) (hl₂ : ∀ x ∈ h₂, x.1 = loopCall m)
    {es₁ es₂ : List Event} (hes₁ : w₁'.trace = w₁.trace ++ es₁) (hes₂ : w₂'.trace = w₂.trace ++ es₂) {s : InFlight}
    (hrep₁ : Represents w₁.ctx.tables s) (hrep₂ : Represents w₂.ctx.tables s) (hr : w₁.ctx.retransmits = w₂.ctx.retransmits)
    (hb : w₁.ctx.bufSize = w₂.ctx.bufSize)
    {pkts : List Raw} (hv : ∀ p ∈ pkts, p.Valid) (hf : ∀ p ∈ pkts, p.bytes.length ≤ w₁.ctx.bufSize)
    (hstream₁ : w₁.ctx.buffered ++ received es₁ = pkts.flatMap Raw.bytes) (hstream₂ : w₂.ctx.buffered ++ received es₂ = pkts.flatMap Raw.bytes)
    (hend₁ : w₁'.ctx.buffered = []) (hend₂ : w₂'.ctx.buffered = [])
    (hok₁ : ∀ x ∈ h₁, ∀ st ∈ cannotSend, x.2 ≠ .status st) (hok₂ : ∀ x ∈ h₂, ∀ st ∈ cannotSend, x.2 ≠ .status st) :
    callbacks es₁ = callbacks es₂ ∧ ∃ s', Represents w₁'.ctx.tables s' ∧ Represents w₂'.ctx.tables s' := by
  obtain ⟨a, b, s', k1, k2, k3, k4⟩ := C32_exact hh₁ hs₁ hl₁ hes₁ hrep₁ (tail := []) hv hf (by simpa using hstream₁) hok₁
  obtain ⟨a', b', s'', j1, j2, j3, j4⟩ := C32_exact hh₂ hs₂ hl₂ hes₂ hrep₂ (tail := []) hv (by rw [← hb]; exact hf) (by simpa using hstream₂) hok₂
  rw [hend₁, List.append_nil, hstream₁] at k2
  rw [hend₂, List.append_nil, hstream₂] at j2
  have e1 := same_packets hv (fun p hp => hv p (by rw [k1]; exact List.mem_append_left _ hp)) k2
  have e2 := same_packets hv (fun p hp => hv p (by rw [j1]; exact List.mem_append_left _ hp)) j2
  rw [← e1] at k4
  rw [← e2, ← hr, ← hb, k4] at j4
  injection j4 with j5 j6
  exact ⟨j5, s', k3, by rw [j6]; exact j3⟩

/-- **C32** Repeated calls of `MQTT_ReceiveLoop` receive and handle the whole stream if the transport does not fail, delivers something whenever it
is asked for something (unless everything has been delivered), and there are enough calls: one for each byte and each packet at most. -/
theorem C32_complete {g : Cfg} {h0 h : List (ApiCall × ApiRet)} {w w' : World} (hh : FromInit g h0 w) (hs : Hist g w h w')
    (hl : ∀ x ∈ h, x.1 = .receiveLoop) {es : List Event} (hes : w'.trace = w.trace ++ es)
    {pkts : List Raw} {tail : List UInt8} (hv : ∀ p ∈ pkts, p.Valid) (hf : ∀ p ∈ pkts, p.bytes.length ≤ w.ctx.bufSize)
    (hstream : w.ctx.buffered ++ received es ++ tail = pkts.flatMap Raw.bytes) (hnf : hasFail es = false)
    (heager : ∀ x n y, es = x ++ .recvd n (some []) :: y → 1 ≤ n → w.ctx.buffered ++ received x = pkts.flatMap Raw.bytes)
    (hmany : (pkts.flatMap Raw.bytes).length + pkts.length ≤ h.length) :
    tail = [] ∧ w.ctx.buffered ++ received es = pkts.flatMap Raw.bytes ∧ w'.ctx.buffered = [] := by
  obtain ⟨hg, hidx, s, hrep⟩ := hh.good
  obtain ⟨a, b, k1, k2, k3⟩ := hs.advances hg hidx hrep hl hes hnf hv hstream hf heager
  have ht : tail = [] := List.eq_nil_of_length_eq_zero (by omega)
  have hb : b = [] := List.eq_nil_of_length_eq_zero (by omega)
  rw [ht, List.append_nil] at hstream
  refine ⟨ht, hstream, ?_⟩
  rw [hb, List.append_nil] at k1
  rw [hstream, k1] at k2
  exact List.self_eq_append_right.mp k2

/-- The event by which a QoS 0 publish is presented. -/
def presentedPublish (p : Raw) (v : PubView) : Event := .app p.first p.body 0 .success (some v)

theorem present_qos0 (retx m : Bool) (cap : Nat) (s : InFlight) (pkts : List (Raw × PubView))
    (hp : ∀ x ∈ pkts, readIncoming x.1.first x.1.body = some (.publish 0 x.2) ∧ x.2.qos = .qos0) (hf : ∀ x ∈ pkts, x.1.bytes.length ≤ cap) :
    present retx m cap s (pkts.map (·.1)) = (pkts.map fun x => presentedPublish x.1 x.2, s) := by
  induction pkts with
  | nil => rfl
  | cons x ps ih =>
    obtain ⟨h1, h2⟩ := hp x List.mem_cons_self
    have h3 := hf x List.mem_cons_self
    have hr : react retx m s x.1.first x.1.body = ⟨.success, [presentedPublish x.1 x.2], none, s, false⟩ := by
      unfold react
      rw [h1]
      simp only [reactPublish, h2, step]
      simp [publishAck, presentedPublish]
    simp only [List.map_cons, present]
    rw [if_neg (by omega), hr]
    simp only [acked]
    rw [ih (fun y hy => hp y (List.mem_cons_of_mem _ hy)) (fun y hy => hf y (List.mem_cons_of_mem _ hy))]
    rfl

/-- **C32** For a stream of QoS 0 publishes: the application sees exactly these publishes, in order, each once. -/
theorem C32_qos0 {g : Cfg} {h0 h : List (ApiCall × ApiRet)} {w w' : World} (hh : FromInit g h0 w) {m : Bool} (hs : Hist g w h w')
    (hl : ∀ x ∈ h, x.1 = loopCall m) {es : List Event} (hes : w'.trace = w.trace ++ es)
    {pkts : List (Raw × PubView)} (hv : ∀ x ∈ pkts, x.1.Valid) (hf : ∀ x ∈ pkts, x.1.bytes.length ≤ w.ctx.bufSize)
    (hp : ∀ x ∈ pkts, readIncoming x.1.first x.1.body = some (.publish 0 x.2) ∧ x.2.qos = .qos0)
    (hstream : w.ctx.buffered ++ received es = pkts.flatMap (·.1.bytes)) (hend : w'.ctx.buffered = [])
    (hok : ∀ x ∈ h, ∀ st ∈ cannotSend, x.2 ≠ .status st) :
    callbacks es = pkts.map fun x => presentedPublish x.1 x.2 := by
  obtain ⟨_, _, s, hrep⟩ := hh.good
  have hfm : (pkts.map (·.1)).flatMap Raw.bytes = pkts.flatMap (·.1.bytes) := by rw [List.flatMap_map]
  have hv' : ∀ p ∈ pkts.map (·.1), p.Valid := by
    intro p hp
    obtain ⟨x, hx, rfl⟩ := List.mem_map.mp hp
    exact hv x hx
  obtain ⟨a, b, s', k1, k2, k3, k4⟩ := C32_exact hh hs hl hes hrep (tail := []) hv'
    (by intro p hp; obtain ⟨x, hx, rfl⟩ := List.mem_map.mp hp; exact hf x hx) (by rw [hfm]; simpa using hstream) hok
  rw [hend, List.append_nil, hstream, ← hfm] at k2
  have e1 := same_packets hv' (fun p hp => hv' p (by rw [k1]; exact List.mem_append_left _ hp)) k2
  rw [← e1, present_qos0 _ _ _ _ _ hp hf] at k4
  injection k4 with k4 k5
  exact k4.symm

/-- **C32** A receive call that is interrupted has made only callbacks for the packet at the front of the stream, in order. -/
theorem C32_interrupted {g : Cfg} {h0 : List (ApiCall × ApiRet)} {w w' : World} (hh : FromInit g h0 w) {m : Bool} (e : Env)
    (hc : callIn g w e (loopCall m) = .stuck w') {s : InFlight} (hrep : Represents w.ctx.tables s) :
    callbacks (callEvents g w e (loopCall m)) = [] ∨
    ∃ p rest, Raw.Valid p ∧ w.ctx.buffered ++ received (callEvents g w e (loopCall m)) = p.bytes ++ rest ∧
      callbacks (callEvents g w e (loopCall m)) <+: (react w.ctx.retransmits m s p.first p.body).callbacks := by
  obtain ⟨hg, hidx, _⟩ := hh.good
  have hv : ValidCall g (loopCall m) := by cases m <;> trivial
  rcases call_cases (c := loopCall m) hg hidx hrep e hv with ⟨r, es, w1, h1, _, _, _⟩ | ⟨es, w1, _, h2, _, hd⟩
  · rw [hc] at h1; cases h1
  · rw [h2]
    exact hd.fronted

/-! ### C33 -/

/-- **C33** The number of buffered bytes never exceeds the size of the buffer, and the buffer keeps its size. -/
theorem C33_index {g : Cfg} {h0 h : List (ApiCall × ApiRet)} {w w' : World} (hh : FromInit g h0 w) (hs : Hist g w h w') :
    w'.ctx.index ≤ w'.ctx.bufSize ∧ w'.ctx.bufSize = w.ctx.bufSize := by
  refine ⟨(hh.append hs).good.2.1, ?_⟩
  obtain ⟨hg, hidx, s, hrep⟩ := hh.good
  have hi : Inv s.outCap s.inCap w.ctx := ⟨hidx, s, hrep, rfl, rfl⟩
  induction hs with
  | start => rfl
  | call hs hv hc ih =>
    obtain ⟨i1, s1, i2, _⟩ := hs.inv hg hi
    obtain ⟨es, hl, hd⟩ := callIn_done hg hv i1 i2 hc
    refine (Did.keeps ?_ hd).bufSize.trans ih
    exact i2

/-- **C33** Every receive request into the buffer, in any call, fits behind the position it is made for: the model's receive functions stop with
`.oobWrite` otherwise, and no call does.  A receive call asks first for exactly the free part of the buffer and gets at most that. -/
theorem C33_request {g : Cfg} {h0 : List (ApiCall × ApiRet)} {w : World} (hh : FromInit g h0 w) (e : Env) :
    (∀ c, ValidCall g c → ∀ er w', callIn g w e c ≠ .ub er w') ∧
    ∀ m, callEvents g w e (loopCall m) = [] ∨ (∃ es, callEvents g w e (loopCall m) = .recvd (w.ctx.bufSize - w.ctx.index) none :: es) ∨
      ∃ got es, callEvents g w e (loopCall m) = .recvd (w.ctx.bufSize - w.ctx.index) (some got) :: es ∧
        ∀ r w', callIn g w e (loopCall m) = .done r w' → w.ctx.index + got.length ≤ w.ctx.bufSize := by
  obtain ⟨hg, hidx, s, hrep⟩ := hh.good
  constructor
  · intro c hv er w' hc
    rcases call_cases hg hidx hrep e hv with ⟨r, es, w1, h1, _⟩ | ⟨es, w1, h1, _⟩
    all_goals (rw [hc] at h1; cases h1)
  · intro m
    have hv : ValidCall g (loopCall m) := by cases m <;> trivial
    rcases call_cases hg hidx hrep e hv with ⟨r, es, w1, h1, h2, _, hd⟩ | ⟨es, w1, h1, h2, _, hd⟩
    · rw [h2]
      obtain ⟨_, st, rfl, ⟨rfl, _⟩ | ⟨x, ka, es2, rfl, k1, _⟩⟩ := hd.turn
      · exact Or.inr (Or.inl ⟨_, rfl⟩)
      · exact Or.inr (Or.inr ⟨x, _, rfl, fun _ _ _ => k1⟩)
    · rw [h2]
      have hx : IterX m s w.ctx es := by
        cases m with
        | true => cases hd with | processLoop _ h => exact h
        | false => cases hd with | receiveLoop _ h => exact h
      rcases hx with rfl | ⟨x, ka, es2, rfl, _⟩
      · exact Or.inl rfl
      · exact Or.inr (Or.inr ⟨x, _, rfl, fun _ _ h => by rw [h] at h1; cases h1⟩)

/-- **C33** What a receive call leaves in the buffer: everything that is unread; that is all the bytes, or what remains after the packet at the front, or nothing
after a packet that does not fit was dropped. -/
theorem C33_unread {g : Cfg} {h0 : List (ApiCall × ApiRet)} {w w' : World} (hh : FromInit g h0 w) (e : Env) (m : Bool) {r : ApiRet}
    (hc : callIn g w e (loopCall m) = .done r w') :
    w'.ctx.buffered.length = w'.ctx.index ∧
    (w'.ctx.buffered = w.ctx.buffered ++ received (callEvents g w e (loopCall m)) ∨
     (∃ p, Raw.Valid p ∧ w.ctx.buffered ++ received (callEvents g w e (loopCall m)) = p.bytes ++ w'.ctx.buffered) ∨
     (w'.ctx.buffered = [] ∧ ∃ t hl n, readHeader (w.ctx.buffered ++ received (callEvents g w e (loopCall m))) = .known t hl n ∧ w.ctx.bufSize < hl + n)) := by
  obtain ⟨hg, hidx, s, hrep⟩ := hh.good
  have hv : ValidCall g (loopCall m) := by cases m <;> trivial
  have hi' : w'.ctx.index ≤ w'.ctx.bufSize := (C33_index hh (.call (.start w) hv hc)).1
  refine ⟨buffered_length hi', ?_⟩
  rcases call_cases hg hidx hrep e hv with ⟨r, es, w1, h1, h2, _, hd⟩ | ⟨es, w1, h1, h2, _, hd⟩
  · rw [hc] at h1
    cases h1
    rw [h2]
    obtain ⟨_, st, rfl, ⟨rfl, _, h3, _⟩ | ⟨x, ka, es2, rfl, k1, k2, k3, k4⟩⟩ := hd.turn
    · exact Or.inl (by simpa [received] using h3)
    · rw [received_got, received_append, k2.quiet.1, List.nil_append, ← List.append_assoc]
      cases k4 with
      | stopped _ _ h3 _ => exact Or.inl (by rw [h3]; simp [received])
      | wait _ _ h3 _ => exact Or.inl (by rw [h3]; simp [received])
      | drop h3 h4 _ _ h5 _ _ => exact Or.inr (Or.inr ⟨h5, _, _, _, readHeader_more h3 _, h4⟩)
      | packet h3 h4 _ _ _ h6 h7 h8 _ =>
        refine Or.inr (Or.inl ⟨_, h3, ?_⟩)
        rw [(wire_more h7).2, received_of_noRecv h6.noRecv, List.append_nil, h8]
        exact h4
  · rw [hc] at h1; cases h1

/-- **C33** The other calls (except for connecting and disconnecting) receive nothing and leave the buffered bytes as they are. -/
theorem C33_other {g : Cfg} {h0 : List (ApiCall × ApiRet)} {w w' : World} (hh : FromInit g h0 w) (e : Env) {c : ApiCall} (hv : ValidCall g c)
    (hp : plainCall c = true) (hl : ∀ m, c ≠ loopCall m) {r : ApiRet} (hc : callIn g w e c = .done r w') :
    w'.ctx.buffered = w.ctx.buffered ∧ ∀ x ∈ callEvents g w e c, isRecvd x = false := by
  obtain ⟨hg, hidx, s, hrep⟩ := hh.good
  rcases call_cases hg hidx hrep e hv with ⟨r, es, w1, h1, h2, _, hd⟩ | ⟨es, w1, h1, h2, _, hd⟩
  · rw [hc] at h1
    cases h1
    rw [h2]
    obtain ⟨k1, k2, k3⟩ := hd.buffer hp (hl true) (hl false)
    exact ⟨by unfold Ctx.buffered; rw [k1, k2], k3⟩
  · rw [hc] at h1; cases h1

/-! ### C34 -/

/-- **C34** A header announces a packet of `hl + n` bytes that does not fit the buffer: nothing is delivered and nothing sent but a ping, and the buffer is
empty afterwards.  If the call reports MQTTSuccess, exactly the bytes of that packet have been consumed (so the next byte received is the
first byte of the next packet).  It reports MQTTRecvFailed only if the transport failed or delivered nothing for the polling timeout.  (With
`MQTT_ProcessLoop` the keep-alive check may end the call before; then everything stays in the buffer.) -/
theorem C34_dropped {g : Cfg} {h0 : List (ApiCall × ApiRet)} {w w' : World} (hh : FromInit g h0 w) (e : Env) (m : Bool) {r : ApiRet}
    (hc : callIn g w e (loopCall m) = .done r w') {got : List UInt8} {es : List Event}
    (hes : callEvents g w e (loopCall m) = .recvd (w.ctx.bufSize - w.ctx.index) (some got) :: es) {t : UInt8} {hl n : Nat}
    (hhead : readHeader (w.ctx.buffered ++ got) = .known t hl n) (hbig : w.ctx.bufSize < hl + n) :
    callbacks es = [] ∧ wire es <+: pingreqPacket ∧ w'.ctx.tables = w.ctx.tables ∧
    ((w'.ctx.buffered = [] ∧
      (r = .status .success ∧ (w.ctx.buffered ++ got ++ received es).length = hl + n ∨
       r = .status .recvFailed ∧ (w.ctx.buffered ++ got ++ received es).length ≤ hl + n ∧ (hasFail es = true ∨ Starved g.recvPollingTimeoutMs es))) ∨
     (m = true ∧ got = [] ∧ r ≠ .status .success ∧ received es = [] ∧ w'.ctx.buffered = w.ctx.buffered)) := by
  obtain ⟨hg, hidx, s, hrep⟩ := hh.good
  have hv : ValidCall g (loopCall m) := by cases m <;> trivial
  rcases call_cases hg hidx hrep e hv with ⟨r, es', w1, h1, h2, _, hd⟩ | ⟨es', w1, h1, h2, _, hd⟩
  · rw [hc] at h1
    cases h1
    rw [hes] at h2
    subst h2
    obtain ⟨_, st, rfl, ⟨h3, _⟩ | ⟨x, ka, es2, h3, k1, k2, k3, k4⟩⟩ := hd.turn
    · cases h3
    · cases h3
      obtain ⟨q1, q2⟩ := k2.quiet
      rw [callbacks_append, wire_append, received_append, q1, q2]
      cases k4 with
      | stopped h3 h4 h5 h6 =>
        have hx : got = [] := Classical.byContradiction fun hx => h4.2 (k3 fun h => hx h.2)
        subst hx
        refine ⟨rfl, by simpa [wire] using k2.2, h6, Or.inr ⟨h4.1, rfl, by simpa using keepAliveErrors_ne h3, rfl, ?_⟩⟩
        rw [h5, List.append_nil]
      | wait h3 h4 h5 h6 =>
        have := (h3 _ _ _ hhead).1
        have hbs : ({ w with env := e } : World).ctx.bufSize = w.ctx.bufSize := rfl
        omega
      | drop h3 h4 h5 h6 h7 h8 h9 =>
        have h3' : readHeader (w.ctx.buffered ++ got) = _ := h3
        rw [hhead] at h3'
        cases h3'
        refine ⟨by rw [callbacks_of_recvX h5]; rfl, by rw [wire_of_noSent h5.noSent, List.append_nil]; exact k2.2, h8, Or.inl ⟨h7, ?_⟩⟩
        rcases h9 with ⟨rfl, h10, _⟩ | ⟨rfl, h10⟩
        · exact Or.inl ⟨rfl, by rw [List.length_append]; exact h10⟩
        · refine Or.inr ⟨rfl, by rw [List.length_append]; exact h6, ?_⟩
          rcases h10 with h10 | h10
          · exact Or.inl (by rw [hasFail_append, h10]; simp)
          · exact Or.inr (Starved.append_left h10 _)
      | packet h3 h4 h5 =>
        obtain ⟨hl', e1, e2⟩ := readHeader_packet (rest := _) h3
        rw [← h4] at e1
        have e1' : readHeader (w.ctx.buffered ++ got) = _ := e1
        rw [hhead] at e1'
        cases e1'
        have hbs : ({ w with env := e } : World).ctx.bufSize = w.ctx.bufSize := rfl
        omega
  · rw [hc] at h1; cases h1

/-- **C34** In a stream, packets that do not fit are dropped and all others handled as if they were not there, as long as no call reports MQTTRecvFailed:
the callbacks are those of `present`, which skips the packets of more than the buffer size. -/
theorem C34_stream {g : Cfg} {h0 h : List (ApiCall × ApiRet)} {w w' : World} (hh : FromInit g h0 w) {m : Bool} (hs : Hist g w h w')
    (hl : ∀ x ∈ h, x.1 = loopCall m) {es : List Event} (hes : w'.trace = w.trace ++ es) {s : InFlight} (hrep : Represents w.ctx.tables s)
    {pkts : List Raw} {tail : List UInt8} (hv : ∀ p ∈ pkts, p.Valid) (hf : ∀ x ∈ h, x.2 ≠ .status .recvFailed)
    (hstream : w.ctx.buffered ++ received es ++ tail = pkts.flatMap Raw.bytes) (hok : ∀ x ∈ h, ∀ st ∈ cannotSend, x.2 ≠ .status st) :
    ∃ done todo s', pkts = done ++ todo ∧ w.ctx.buffered ++ received es = done.flatMap Raw.bytes ++ w'.ctx.buffered ∧
      Represents w'.ctx.tables s' ∧ present w.ctx.retransmits m w.ctx.bufSize s done = (callbacks es, s') := by
  obtain ⟨hg, hidx, _⟩ := hh.good
  obtain ⟨a, b, s', k1, k2, k3, _, k5, _⟩ := hs.seen hg hidx hrep hl hes hv hstream (Or.inr hf)
  exact ⟨a, b, s', k1, k2, k3, k5 hok⟩

/-- The packets that do not fit play no role. -/
theorem present_filter (retx m : Bool) (cap : Nat) (s : InFlight) (pkts : List Raw) :
    present retx m cap s pkts = present retx m cap s (pkts.filter fun p => p.bytes.length ≤ cap) := by
  induction pkts generalizing s with
  | nil => rfl
  | cons p ps ih =>
    by_cases h : cap < p.bytes.length
    · rw [List.filter_cons_of_neg (by simp; omega)]
      simp only [present, if_pos h]
      exact ih s
    · rw [List.filter_cons_of_pos (by simp; omega)]
      simp only [present, if_neg h]
      rw [ih]

/-! ### C36 -/

/-- **C36** The receive calls send nothing but a ping (only `MQTT_ProcessLoop`, when no data arrived) followed by the acknowledgement that answers the packet at
the front of the stream: PUBACK for a QoS 1 publish, PUBREC for a QoS 2 publish, PUBREL for PUBREC, PUBCOMP for PUBREL, with the same
id, and nothing for other packets (`answerTo`).  Each may be cut off.  This holds for calls that return and calls that are interrupted. -/
theorem C36_only {g : Cfg} {h0 : List (ApiCall × ApiRet)} {w : World} (hh : FromInit g h0 w) (e : Env) (m : Bool) :
    ∃ ping ack, wire (callEvents g w e (loopCall m)) = ping ++ ack ∧ ping <+: pingreqPacket ∧
      (ping ≠ [] → m = true ∧ ∃ n es, callEvents g w e (loopCall m) = .recvd n (some []) :: es) ∧
      (ack = [] ∨ ∃ p pkt rest, Raw.Valid p ∧ w.ctx.buffered ++ received (callEvents g w e (loopCall m)) = p.bytes ++ rest ∧
        readIncoming p.first p.body = some pkt ∧ ack <+: ackWire (answerTo pkt)) := by
  obtain ⟨hg, hidx, s, hrep⟩ := hh.good
  have hv : ValidCall g (loopCall m) := by cases m <;> trivial
  rcases call_cases hg hidx hrep e hv with ⟨r, es, w1, h1, h2, _, hd⟩ | ⟨es, w1, h1, h2, _, hd⟩
  · rw [h2]; exact hd.answers
  · rw [h2]; exact hd.answers

/-- **C36** A call that handles a packet and returns MQTTSuccess has sent the whole answer. -/
theorem C36_whole {g : Cfg} {h0 : List (ApiCall × ApiRet)} {w w' : World} (hh : FromInit g h0 w) (e : Env) (m : Bool)
    (hc : callIn g w e (loopCall m) = .done (.status .success) w') {p : Raw} {pkt : Packet} {rest : List UInt8} (hp : p.Valid)
    (hf : p.bytes.length ≤ w.ctx.bufSize) (hb : w.ctx.buffered ++ received (callEvents g w e (loopCall m)) = p.bytes ++ rest)
    (hr : readIncoming p.first p.body = some pkt) :
    w'.ctx.buffered = rest ∧
    (wire (callEvents g w e (loopCall m)) = ackWire (answerTo pkt) ∨ wire (callEvents g w e (loopCall m)) = pingreqPacket ++ ackWire (answerTo pkt)) := by
  obtain ⟨hg, hidx, s, hrep⟩ := hh.good
  have hv : ValidCall g (loopCall m) := by cases m <;> trivial
  rcases call_cases hg hidx hrep e hv with ⟨r, es, w1, h1, h2, _, hd⟩ | ⟨es, w1, h1, h2, _, hd⟩
  · rw [hc] at h1
    cases h1
    rw [h2] at hb ⊢
    obtain ⟨st, h3, ⟨_, h4, _⟩ | ⟨h4, ka, es1, w1, w2, rst, h5, h6, h7, h8, h9, h10, h11, _, h12⟩⟩ := did_front hd hp hf hb
    · cases h3; exact absurd rfl h4
    · cases h3
      refine ⟨h4, ?_⟩
      have hs : rst = .success := by
        have := reacted_ne h12
        unfold callerStatus at h8
        rw [if_neg this] at h8
        exact h8.symm
      have hw : wire es1 = ackWire (answerTo pkt) := by
        rcases h12.cases with ⟨k1, k2, _, k3, _⟩ | ⟨_, k1, _, _, k2, _⟩ | ⟨_, _, _, _, k1, _⟩ | ⟨ty, id, k1, _, k2, _⟩
        · rw [k2, ← react_success hr (by rw [← k3]; exact hs), k1]; rfl
        · rw [hs] at k2
          unfold notConnectedStatus at k2
          split at k2 <;> cases k2
        · rw [hs] at k1; cases k1
        · rw [k2]
          rcases react_ack w.ctx.retransmits m s p.first p.body with h | ⟨pkt', h, h'⟩
          · rw [show ({ w with env := e } : World).ctx.retransmits = w.ctx.retransmits from rfl] at k1
            rw [h] at k1; cases k1
          · rw [hr] at h
            cases h
            exact congrArg ackWire h'
      rw [h5, hw]
      rcases h6 with h6 | h6
      · exact Or.inl (by rw [h6]; rfl)
      · exact Or.inr (by rw [h6])
  · rw [hc] at h1; cases h1

/-- **C36** When an answer is due (`answerDue`: there is a record of the publish or room for one; the acknowledgement is awaited) and the connection is
established, a call that handles the packet sends the whole answer, or it tries to, sends less and reports MQTTSendFailed.  A duplicate QoS 2 publish is answered
in the same way (it has a record). -/
theorem C36_due {g : Cfg} {h0 : List (ApiCall × ApiRet)} {w w' : World} (hh : FromInit g h0 w) (e : Env) (m : Bool) {r : ApiRet}
    (hc : callIn g w e (loopCall m) = .done r w') (hcon : w.ctx.connectStatus = .connected) {p : Raw} {pkt : Packet} (hp : p.Valid)
    (hf : p.bytes.length ≤ w.ctx.bufSize)
    (hb : w.ctx.buffered ++ received (callEvents g w e (loopCall m)) = p.bytes ++ w'.ctx.buffered)
    (hr : readIncoming p.first p.body = some pkt) (hdue : answerDue w.ctx.tables pkt) :
    ∃ ping, (ping = [] ∨ ping = pingreqPacket) ∧
      (r ≠ .status .sendFailed ∧ wire (callEvents g w e (loopCall m)) = ping ++ ackWire (answerTo pkt) ∨
       (r = .status .sendFailed ∧ (∃ a, Event.sent (ackWire (answerTo pkt)) a ∈ callEvents g w e (loopCall m)) ∧
         ∃ part, wire (callEvents g w e (loopCall m)) = ping ++ part ∧ part <+: ackWire (answerTo pkt) ∧ part ≠ ackWire (answerTo pkt))) := by
  obtain ⟨hg, hidx, s, hrep⟩ := hh.good
  have hv : ValidCall g (loopCall m) := by cases m <;> trivial
  rcases call_cases hg hidx hrep e hv with ⟨r, es, w1, h1, h2, _, hd⟩ | ⟨es, w1, h1, h2, _, hd⟩
  · rw [hc] at h1
    cases h1
    rw [h2] at hb ⊢
    obtain ⟨st, h3, ⟨h4, _⟩ | ⟨h4, ka, es1, w1, w2, rst, h5, h6, h7, h8, h9, h10, h11, hsub, h12⟩⟩ := did_front hd hp hf hb
    · exfalso
      have hb' : w.ctx.buffered ++ received es = p.bytes ++ w'.ctx.buffered := hb
      rw [h4] at hb'
      have := congrArg List.length hb'
      have hne := List.length_pos_iff.mpr (Raw.bytes_ne_nil p)
      rw [List.length_append (bs := _ ++ _)] at this
      have he : (({ w with env := e } : World).ctx.buffered ++ received es).length = (w.ctx.buffered ++ received es).length := rfl
      omega
    · refine ⟨wire ka, h6, ?_⟩
      have hack := react_due (retx := w.ctx.retransmits) (m := m) hrep hr hdue
      have hne : answerTo pkt ≠ none := by
        cases pkt with
        | publish id v => obtain ⟨h, _⟩ := hdue; cases hq : v.qos <;> simp_all [answerTo, publishAck]
        | ack ty id => cases ty <;> first | exact hdue.elim | simp [answerTo, nextAck]
        | _ => exact hdue.elim
      rw [h5]
      rcases h12.cases with ⟨k1, _⟩ | ⟨_, k1, _⟩ | ⟨_, _, k1, k1', k2, _, k3⟩ | ⟨ty, id, _, _, k2, _, k4, _⟩
      · exact absurd (hack.symm.trans k1) hne
      · exact absurd (h9.trans hcon) k1
      · obtain ⟨a, k3⟩ := k3
        rw [show (react ({ w with env := e } : World).ctx.retransmits m s p.first p.body).ack = answerTo pkt from hack] at k1 k1' k3
        refine Or.inr ⟨by rw [h3, h8, k2]; rfl, ⟨a, hsub _ k3⟩, wire es1, rfl, k1, k1'⟩
      · rw [show (react ({ w with env := e } : World).ctx.retransmits m s p.first p.body).ack = answerTo pkt from hack] at k2
        refine Or.inl ⟨fun hq => ?_, by rw [k2]⟩
        rw [h3, h8, k4] at hq
        exact step_calm _ _ (by rw [ApiRet.status.inj hq]; simp [cannotSend])
  · rw [hc] at h1; cases h1

/-! ### Examples -/

/-- One `MQTT_ReceiveLoop` for each piece of a stream; the transport delivers the whole piece. -/
def Ex.fed (pieces : List (List UInt8)) : List (Env × ApiCall) :=
  pieces.map fun b => ({ Ex.env b with recvs := List.replicate 40 (.deliver 100) }, .receiveLoop)

/-- A QoS 0 publish, a QoS 1 publish with id 9, and the PUBCOMP for the publish with id 7. -/
def Ex.stream : List Raw := [⟨0x30, [0, 1, 97, 5]⟩, ⟨0x32, [0, 1, 97, 0, 9, 6]⟩, ⟨0x70, [0, 7]⟩]

/-- What `MQTT_ReceiveLoop`s that receive the pieces do after the session of `Ex.after`. -/
def Ex.feed (pieces : List (List UInt8)) : List (ApiCall × ApiRet) × World := (Ex.play Ex.after (Ex.fed pieces)).getD ([], Ex.after)

theorem Ex.feed_hist {pieces : List (List UInt8)} (hp : (Ex.play Ex.after (Ex.fed pieces)).isSome = true) :
    Hist Ex.g Ex.after (Ex.feed pieces).1 (Ex.feed pieces).2 := by
  obtain ⟨⟨h, w'⟩, he⟩ := Option.isSome_iff_exists.mp hp
  rw [Ex.feed, he]
  refine Ex.play_hist ?_ he
  intro x hx
  obtain ⟨b, _, rfl⟩ := List.mem_map.mp hx
  trivial

/-- Two ways to cut the stream. -/
def Ex.cut1 : List (List UInt8) := [[0x30, 4, 0, 1, 97, 5, 0x32, 6, 0, 1, 97, 0, 9, 6, 0x70, 2, 0, 7], [], []]
def Ex.cut2 : List (List UInt8) := (Ex.stream.flatMap Raw.bytes).map fun b => [b]

/-- Non-vacuity of C32: the whole stream in one piece and byte by byte; both end with an empty buffer, without error, and the callbacks are those
of `present`. -/
example : Hist Ex.g Ex.after (Ex.feed Ex.cut1).1 (Ex.feed Ex.cut1).2 ∧ Hist Ex.g Ex.after (Ex.feed Ex.cut2).1 (Ex.feed Ex.cut2).2 :=
  ⟨Ex.feed_hist (by decide +kernel), Ex.feed_hist (by decide +kernel)⟩

example : Ex.after.ctx.buffered = [] ∧
    (∀ c ∈ [Ex.cut1, Ex.cut2], let w' := (Ex.feed c).2
      let es := w'.trace.drop Ex.after.trace.length
      w'.trace.take Ex.after.trace.length = Ex.after.trace ∧ received es = Ex.stream.flatMap Raw.bytes ∧ w'.ctx.buffered = [] ∧
      (∀ x ∈ (Ex.feed c).1, ∀ st ∈ cannotSend, x.2 ≠ .status st) ∧
      callbacks es = [.app 0x30 [0, 1, 97, 5] 0 .success (some ⟨.qos0, false, false, [97], [5]⟩),
        .app 0x32 [0, 1, 97, 0, 9, 6] 9 .success (some ⟨.qos1, false, false, [97], [6]⟩), .app 0x70 [0, 7] 7 .success none] ∧
      wire es = [0x40, 2, 0, 9]) ∧
    (∀ p ∈ Ex.stream, p.bytes.length ≤ Ex.after.ctx.bufSize) := by
  decide +kernel

example : ∀ p ∈ Ex.stream, p.Valid := by
  intro p hp
  simp only [Ex.stream, List.mem_cons, List.not_mem_nil, or_false] at hp
  rcases hp with rfl | rfl | rfl <;> exact ⟨by decide +kernel, by decide⟩

/-- Non-vacuity of C34: a publish of 203 bytes does not fit the buffer of 64 bytes; it is consumed by one call, and the PUBCOMP behind it is handled
by the next one. -/
def Ex.big : Raw := ⟨0x30, [0, 1, 97] ++ List.replicate 197 5⟩

example : Ex.big.bytes.length = 203 ∧ readHeader (Ex.big.bytes.take 3) = .known 0x30 3 200 := by
  decide +kernel

example : let e := { Ex.env (Ex.big.bytes ++ [0x70, 2, 0, 7]) with recvs := List.replicate 200 (.deliver 40) }
    let es := callEvents Ex.g Ex.after e .receiveLoop
    Ex.ret (callIn Ex.g Ex.after e .receiveLoop) = some (.status .success) ∧ received es = Ex.big.bytes ∧ callbacks es = [] ∧
    (callIn Ex.g Ex.after e .receiveLoop).world.ctx.buffered = [] ∧ Ex.after.ctx.bufSize = 64 ∧
    (callIn Ex.g Ex.after e .receiveLoop).world.env.input = [0x70, 2, 0, 7] := by
  decide +kernel

/-- The transport fails, or delivers nothing for the polling timeout. -/
example : let e := { Ex.env Ex.big.bytes with recvs := [.deliver 40, .deliver 40, .fail] }
    Ex.ret (callIn Ex.g Ex.after e .receiveLoop) = some (.status .recvFailed) ∧
    (callIn Ex.g Ex.after e .receiveLoop).world.ctx.buffered = [] := by
  decide +kernel

/-- Non-vacuity of C36: a QoS 2 publish and its duplicate are both answered by PUBREC; an acknowledgement that cannot be sent. -/
example : let p2 : List (List UInt8) := [[0x34, 6, 0, 1, 97, 0, 9, 6], [0x3C, 6, 0, 1, 97, 0, 9, 6], [0x62, 2, 0, 9]]
    let es := (Ex.feed p2).2.trace.drop Ex.after.trace.length
    Hist Ex.g Ex.after (Ex.feed p2).1 (Ex.feed p2).2 ∧ wire es = [0x50, 2, 0, 9, 0x50, 2, 0, 9, 0x70, 2, 0, 9] ∧
    callbacks es = [.app 0x34 [0, 1, 97, 0, 9, 6] 9 .success (some ⟨.qos2, false, false, [97], [6]⟩), .app 0x62 [0, 9] 9 .success none] :=
  ⟨Ex.feed_hist (by decide +kernel), by decide +kernel, by decide +kernel⟩

example : let e := { Ex.env [0x32, 6, 0, 1, 97, 0, 9, 6] with recvs := [.deliver 100], sends := [.accept 2, .fail] }
    let w' := (callIn Ex.g Ex.after e .receiveLoop).world
    Ex.ret (callIn Ex.g Ex.after e .receiveLoop) = some (.status .sendFailed) ∧ wire (callEvents Ex.g Ex.after e .receiveLoop) = [0x40, 2] ∧
    w'.ctx.buffered = [] ∧ Ex.after.ctx.connectStatus = .connected ∧ readIncoming 0x32 [0, 1, 97, 0, 9, 6] = some (.publish 9 ⟨.qos1, false, false, [97], [6]⟩) := by
  decide +kernel

example : answerDue Ex.after.ctx.tables (.publish 9 ⟨.qos1, false, false, [97], [6]⟩) := ⟨by simp, Or.inr (by decide +kernel)⟩

/-- A publish of 203 bytes; its payload ends with bytes that look like a publish with topic "b". -/
def Ex.nested : Raw := ⟨0x30, [0, 1, 97] ++ List.replicate 191 5 ++ [0x30, 4, 0, 1, 98, 7]⟩

/-- The transport delivers 197 bytes and then nothing for more than the polling timeout, later the rest. -/
def Ex.slow : List (Env × ApiCall) :=
  [({ Ex.env (Ex.nested.bytes.take 197) with recvs := [.deliver 64, .deliver 64, .deliver 64, .deliver 5] ++ List.replicate 40 (.deliver 0) }, .receiveLoop),
   ({ Ex.env (Ex.nested.bytes.drop 197) with recvs := [.deliver 64] }, .receiveLoop)]

/-- **C34** What `C34_stream` excludes by its hypothesis on MQTTRecvFailed happens: after a packet that does not fit has been dropped in part, because the
transport delivered nothing for the polling timeout, the connection is still reported as established and the rest of the packet is taken
for new packets.  Here the application is presented with a publish that the server never sent. -/
theorem C34_desync : ∃ h w', Ex.play Ex.after Ex.slow = some (h, w') ∧ Hist Ex.g Ex.after h w' ∧ h.map (·.2) = [.status .recvFailed, .status .success] ∧
    received (w'.trace.drop Ex.after.trace.length) = Ex.nested.bytes ∧ w'.ctx.connectStatus = .connected ∧
    callbacks (w'.trace.drop Ex.after.trace.length) = [.app 0x30 [0, 1, 98, 7] 0 .success (some ⟨.qos0, false, false, [98], [7]⟩)] := by
  obtain ⟨⟨h, w'⟩, he⟩ := Option.isSome_iff_exists.mp (show (Ex.play Ex.after Ex.slow).isSome = true by decide +kernel)
  have hx : h = ((Ex.play Ex.after Ex.slow).getD ([], Ex.after)).1 := by rw [he]; rfl
  have hy : w' = ((Ex.play Ex.after Ex.slow).getD ([], Ex.after)).2 := by rw [he]; rfl
  refine ⟨h, w', he, Ex.play_hist ?_ he, ?_⟩
  · intro x hx
    simp only [Ex.slow, List.mem_cons, List.not_mem_nil, or_false] at hx
    rcases hx with rfl | rfl <;> trivial
  · subst hx hy
    decide +kernel

end Mqtt
