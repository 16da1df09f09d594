/-
How the library uses the transport interface: C71.
-/
import Verif.Proof.Every
import Verif.Props.Receive

namespace Mqtt
open Spec

/-! ### The events of a call -/

/-- The transport's send functions are offered at least one byte. -/
def someSent : Event → Prop
  | .sent bs _ => bs ≠ []
  | _ => True

theorem someBytes.sent {e : Event} (h : someBytes e) : someSent e := by
  cases e <;> simp_all [someBytes, someSent]

theorem EvAt.mono {α : Type} {P Q : Event → Prop} {m : M α} {w : World} (h : EvAt P m w) (hpq : ∀ e, P e → Q e) : EvAt Q m w := by
  obtain ⟨es, h1, h2⟩ := h
  exact ⟨es, h1, fun e he => hpq e (h2 e he)⟩

theorem evAt_call {P : Event → Prop} {g : Cfg} {w : World} {e : Env} {c : ApiCall} (h : EvAt P (apiCall g c) { w with env := e }) :
    ∀ x ∈ callEvents g w e c, P x := by
  obtain ⟨es, h1, h2⟩ := h
  have : callEvents g w e c = es := by
    unfold callEvents newEvents callIn
    rw [h1]
    simp
  rw [this]
  exact h2

theorem evAt_fmap {α β : Type} {P : Event → Prop} {m : M α} {f : α → β} {w : World} (h : EvAt P m w) :
    EvAt P (do let a ← m; pure (f a)) w := evAt_bind h fun _ w' _ => evs_pure _ w'

theorem sent_receiveHeader (w : World) : EvAt someSent receiveHeader w := by
  unfold receiveHeader
  refine evAt_bind (evAt_same rfl) ?_
  intro c w1 hc
  cases hc
  refine evAt_bind ?_ ?_
  · unfold recvInto
    refine evAt_bind (evAt_same rfl) ?_
    intro c w1 hc
    cases hc
    split
    · refine evAt_bind (evAt_recv w fun _ => trivial) ?_
      intro r w2 _
      cases r with
      | none => exact evAt_same rfl
      | some bs => exact evAt_bind (evAt_same rfl) fun _ w3 _ => evAt_same rfl
    · exact evAt_same rfl
  · intro r w2 _
    cases r with
    | none => exact (evs_bind b1_markHooked (fun _ => evs_pure _) w2).mono fun _ h => h.sent
    | some k =>
      refine EvAt.mono (P := someBytes) (evs_ite (fun _ => evs_pure _) (fun _ => ?_) w2) fun _ h => h.sent
      evs [evs_pure _]

theorem sent_iteration (g : Cfg) (m : Bool) (w : World) : EvAt someSent (receiveSingleIteration g m) w := by
  rw [receiveSingleIteration_eq]
  exact evAt_bind (sent_receiveHeader w) fun a w' _ => (b1_receiveRest g m a w').mono fun _ h => h.sent

/-- A call that is not a receive call, or finds room in the buffer, asks the transport for at least one byte whenever it asks. -/
theorem call_someBytes (g : Cfg) (w : World) (e : Env) (c : ApiCall) (h : (∀ m, c ≠ loopCall m) ∨ w.ctx.index < w.ctx.bufSize) :
    ∀ x ∈ callEvents g w e c, someBytes x := by
  refine evAt_call ?_
  have room : c = .processLoop ∨ c = .receiveLoop → w.ctx.bufSize - w.ctx.index ≠ 0 := by
    intro hc
    rcases h with h | h
    · rcases hc with rfl | rfl
      · exact absurd rfl (h true)
      · exact absurd rfl (h false)
    · omega
  cases c <;> unfold apiCall
  · exact evAt_bind (b1_connect g _ _ _ _ _) fun _ w' _ => evs_pure _ w'
  · exact evAt_fmap (b1_sub g .subscribe _ _ _)
  · exact evAt_fmap (b1_sub g .unsubscribe _ _ _)
  · exact evAt_fmap (b1_publish g _ _ _)
  · exact evAt_fmap (b1_ping g _)
  · exact evAt_fmap (b1_disconnect g _)
  · refine evAt_fmap ?_
    unfold mqttProcessLoop
    refine evAt_bind (evs_modify _ _) ?_
    intro _ w1 h1
    cases h1
    exact b1_iteration g true (room (Or.inl rfl))
  · exact evAt_fmap (b1_iteration g false (room (Or.inr rfl)))
  · exact evAt_fmap (b1_cancel _ _)
  · exact evAt_fmap (b1_check _)
  · exact evAt_fmap (b1_getId _)

theorem call_someSent (g : Cfg) (w : World) (e : Env) (c : ApiCall) : ∀ x ∈ callEvents g w e c, someSent x := by
  by_cases h : ∀ m, c ≠ loopCall m
  · intro x hx
    exact (call_someBytes g w e c (Or.inl h) x hx).sent
  · obtain ⟨m, hm⟩ : ∃ m, c = loopCall m := Classical.byContradiction fun hn => h fun m hm => hn ⟨m, hm⟩
    subst hm
    refine evAt_call ?_
    cases m with
    | true =>
      refine evAt_fmap (m := mqttProcessLoop g) ?_
      unfold mqttProcessLoop
      exact evAt_bind (evs_modify _ _) fun _ w1 _ => sent_iteration g true w1
    | false => exact evAt_fmap (m := mqttReceiveLoop g) (sent_iteration g false _)

/-! ### C71 -/

/-- **C71** No call, whatever its outcome, offers the transport's `send` or `writev` zero bytes. -/
theorem C71_send {g : Cfg} {w : World} (e : Env) (c : ApiCall) {bs : List UInt8} {a : Option Nat} (h : Event.sent bs a ∈ callEvents g w e c) :
    bs ≠ [] := call_someSent g w e c _ h

/-- **C71** The transport's `recv` is asked for zero bytes only by a receive call that finds the network buffer full. -/
theorem C71_receive {g : Cfg} {h0 : List (ApiCall × ApiRet)} {w : World} (hh : FromInit g h0 w) (e : Env) (c : ApiCall) {a : Option (List UInt8)}
    (h : Event.recvd 0 a ∈ callEvents g w e c) : (∃ m, c = loopCall m) ∧ w.ctx.buffered.length = w.ctx.bufSize := by
  obtain ⟨_, hidx, _⟩ := hh.good
  have hn : ¬ ((∀ m, c ≠ loopCall m) ∨ w.ctx.index < w.ctx.bufSize) := fun hc => call_someBytes g w e c hc _ h rfl
  refine ⟨Classical.byContradiction fun hc => hn (Or.inl fun m hm => hc ⟨m, hm⟩), ?_⟩
  rw [buffered_length hidx]
  have : ¬ w.ctx.index < w.ctx.bufSize := fun hc => hn (Or.inr hc)
  omega

/-- What the first bytes of a stream of packets say, if there are enough of them. -/
theorem header_of_prefix {bs tail : List UInt8} {pkts : List Raw} (hv : ∀ q ∈ pkts, q.Valid) (hs : bs ++ tail = pkts.flatMap Raw.bytes)
    (hne : bs ≠ []) (hb : 5 ≤ bs.length ∨ ∀ q ∈ pkts, q.bytes.length ≤ bs.length) : ∃ t hl n, readHeader bs = .known t hl n := by
  cases pkts with
  | nil =>
    rw [List.flatMap_nil] at hs
    exact absurd (List.append_eq_nil_iff.mp hs).1 hne
  | cons q ps =>
    obtain ⟨h1, h2⟩ := hv q List.mem_cons_self
    have hl4 : (varInt q.body.length).length ≤ 4 := by
      rw [varInt_length h2]
      unfold remainingLengthEncodedSize
      repeat' split
      all_goals omega
    have hq : q.bytes = q.first :: varInt q.body.length ++ q.body := by rw [Raw.bytes_eq]; simp
    have hle : (q.first :: varInt q.body.length).length ≤ bs.length := by
      rw [List.length_cons]
      rcases hb with hb | hb
      · omega
      · have := hb q List.mem_cons_self
        rw [hq, List.length_append, List.length_cons] at this
        omega
    have hp : (q.first :: varInt q.body.length) <+: bs := by
      refine List.prefix_of_prefix_length_le (l₃ := bs ++ tail) ?_ (List.prefix_append _ _) hle
      rw [hs, List.flatMap_cons, hq, List.append_assoc]
      exact List.prefix_append _ _
    obtain ⟨rest, hr⟩ := hp
    exact ⟨q.first, _, _, by rw [← hr, List.cons_append]; exact readHeader_intro h1 h2 rest⟩

/-- A receive call that found room leaves room, unless the bytes in the buffer are not the start of packets. -/
theorem loop_room {g : Cfg} {s : InFlight} {w w' : World} {m : Bool} {r : ApiRet} {es : List Event} (hd : Did g s w (loopCall m) r es w')
    (hi : w.ctx.index < w.ctx.bufSize) (hi' : w'.ctx.index ≤ w'.ctx.bufSize) (hb : w'.ctx.bufSize = w.ctx.bufSize) :
    w'.ctx.index < w'.ctx.bufSize ∨ ∀ t hl n, readHeader w'.ctx.buffered ≠ .known t hl n := by
  have hl' := buffered_length hi'
  have hl := buffered_length (Nat.le_of_lt hi)
  obtain ⟨_, st, rfl, ⟨rfl, _, h1, _⟩ | ⟨x, ka, es2, rfl, h1, h2, h3, h4⟩⟩ := hd.turn
  · left; rw [h1] at hl'; omega
  · cases h4 with
    | stopped _ h5 h6 _ =>
      left
      have hx : x = [] := Classical.byContradiction fun hx => h5.2 (h3 fun h => hx h.2)
      rw [h6, hx, List.append_nil] at hl'
      omega
    | wait h5 _ h6 _ =>
      by_cases hf : w'.ctx.index < w'.ctx.bufSize
      · exact Or.inl hf
      · right
        intro t hl n hk
        rw [h6] at hk
        have := h5 t hl n hk
        rw [h6] at hl'
        omega
    | drop _ _ _ _ h6 _ _ => left; rw [h6] at hl'; simp at hl'; omega
    | @packet _ _ _ p rest _ _ _ _ _ h6 _ _ _ _ _ h7 _ =>
      left
      have h8 := congrArg List.length h6
      rw [List.length_append, List.length_append, hl, ← h7, hl'] at h8
      have h9 : p.bytes.length ≠ 0 := fun h => Raw.bytes_ne_nil p (List.eq_nil_of_length_eq_zero h)
      omega

/-- What a call leaves in the buffer of a stream of packets. -/
theorem step_room {g : Cfg} {s : InFlight} {w w' : World} {c : ApiCall} {r : ApiRet} {es : List Event} (hd : Did g s w c r es w') (hp : plainCall c = true)
    (hrep : Represents w.ctx.tables s) (hi : w.ctx.index < w.ctx.bufSize) (hi' : w'.ctx.index ≤ w'.ctx.bufSize) (hb : w'.ctx.bufSize = w.ctx.bufSize)
    {tail : List UInt8} {pkts : List Raw} (hv : ∀ q ∈ pkts, q.Valid) (hs : w.ctx.buffered ++ received es ++ tail = pkts.flatMap Raw.bytes)
    (hf : (∀ q ∈ pkts, q.bytes.length ≤ w.ctx.bufSize) ∨ 5 ≤ w.ctx.bufSize ∧ r ≠ .status .recvFailed) :
    w'.ctx.index < w'.ctx.bufSize ∧ ∃ b : List Raw, w'.ctx.buffered ++ tail = b.flatMap Raw.bytes ∧ ∀ q ∈ b, q ∈ pkts := by
  by_cases hm : ∃ m, c = loopCall m
  · obtain ⟨m, rfl⟩ := hm
    obtain ⟨a, b, _, k1, k2, _⟩ := hd.seen hrep hv hs (hf.imp_right And.right)
    have hs2 : w'.ctx.buffered ++ tail = b.flatMap Raw.bytes := by
      rw [k2, k1, List.flatMap_append, List.append_assoc] at hs
      exact List.append_cancel_left hs
    have hsub : ∀ q ∈ b, q ∈ pkts := fun q hq => by rw [k1]; exact List.mem_append_right _ hq
    refine ⟨?_, b, hs2, hsub⟩
    rcases loop_room hd hi hi' hb with h | h
    · exact h
    · refine Classical.byContradiction fun hn => ?_
      have hl := buffered_length hi'
      have hfull : w'.ctx.buffered.length = w.ctx.bufSize := by omega
      obtain ⟨t, hl2, n, hk⟩ := header_of_prefix (fun q hq => hv q (hsub q hq)) hs2 (by intro h0; rw [h0] at hfull; simp at hfull; omega)
        (by rw [hfull]; exact hf.elim (fun h => Or.inr fun q hq => h q (hsub q hq)) (fun h => Or.inl h.1))
      exact h t hl2 n hk
  · obtain ⟨k1, k2, k3⟩ := hd.buffer hp (fun h => hm ⟨true, h⟩) (fun h => hm ⟨false, h⟩)
    have hbuf : w'.ctx.buffered = w.ctx.buffered := by unfold Ctx.buffered; rw [k1, k2]
    refine ⟨by omega, pkts, ?_, fun q hq => hq⟩
    rw [hbuf, ← hs, received_of_noRecv k3, List.append_nil]

/-- Why: the buffer has room again after every call, and holds the beginning of the rest of the stream. -/
theorem stream_room {g : Cfg} {h0 h : List (ApiCall × ApiRet)} {w w' : World} (hh : FromInit g h0 w) (hs : Hist g w h w')
    (hp : ∀ x ∈ h, plainCall x.1 = true) (hroom : w.ctx.buffered.length < w.ctx.bufSize) {es : List Event} (hes : w'.trace = w.trace ++ es)
    {pkts : List Raw} {tail : List UInt8} (hv : ∀ p ∈ pkts, p.Valid) (hstream : w.ctx.buffered ++ received es ++ tail = pkts.flatMap Raw.bytes)
    (hf : (∀ p ∈ pkts, p.bytes.length ≤ w.ctx.bufSize) ∨ 5 ≤ w.ctx.bufSize ∧ ∀ x ∈ h, x.2 ≠ .status .recvFailed) :
    (∀ a, Event.recvd 0 a ∉ es) ∧ w'.ctx.index < w'.ctx.bufSize ∧ ∃ b : List Raw, w'.ctx.buffered ++ tail = b.flatMap Raw.bytes ∧ ∀ q ∈ b, q ∈ pkts := by
  obtain ⟨hg, hidx, s, hrep⟩ := hh.good
  have hi0 : Inv s.outCap s.inCap w.ctx := ⟨hidx, s, hrep, rfl, rfl⟩
  have hin : w.ctx.index < w.ctx.bufSize := by rw [← buffered_length hidx]; exact hroom
  induction hs generalizing es tail with
  | start =>
    have : es = [] := by simpa using hes
    subst this
    exact ⟨by simp, hin, pkts, by simpa [received] using hstream, fun q hq => hq⟩
  | @call w1 w2 h e c r hs hvc hc ih =>
    obtain ⟨i1, s1, i2, _⟩ := hs.inv hg hi0
    obtain ⟨es1, he1⟩ := hs.grows hg hi0
    rcases call_cases hg i1 i2 e hvc with ⟨r', es2, w', h1, h2, hl, hd⟩ | ⟨_, _, h1, _⟩
    rotate_left
    · rw [hc] at h1; cases h1
    rw [hc] at h1
    cases h1
    have hes' : es = es1 ++ es2 := by
      have h1 : w2.trace = w1.trace ++ es2 := hl.trace
      rw [h1, he1, List.append_assoc] at hes
      exact (List.append_cancel_left hes).symm
    subst hes'
    obtain ⟨k1, k2, b, k3, k4⟩ := ih (fun x hx => hp x (by simp [hx])) he1 (tail := received es2 ++ tail)
      (by rw [← hstream, received_append]; simp) (hf.imp_right fun h => ⟨h.1, fun x hx => h.2 x (by simp [hx])⟩)
    have hb1 : w1.ctx.bufSize = w.ctx.bufSize := (C33_index hh hs).2
    have hb2 := C33_index hh (.call hs hvc hc)
    have hsome := call_someBytes g w1 e c (Or.inr k2)
    rw [h2] at hsome
    obtain ⟨j1, j2⟩ := step_room hd (hp (c, r) (by simp)) i2 k2 hb2.1 (by rw [hb1]; exact hb2.2) (fun q hq => hv q (k4 q hq))
      (by rw [← k3, List.append_assoc]) (by
        rw [hb1]
        exact hf.imp (fun h q hq => h q (k4 q hq)) (fun h => ⟨h.1, h.2 (c, r) (by simp)⟩))
    obtain ⟨b', j3, j4⟩ := j2
    refine ⟨fun a ha => ?_, j1, b', j3, fun q hq => k4 q (j4 q hq)⟩
    rcases List.mem_append.mp ha with ha | ha
    · exact k1 a ha
    · exact hsome _ ha rfl

/-- **C71** While the bytes that arrive are packets, no call in any history of calls asks the transport for zero bytes, and neither will the next. -/
theorem C71_stream {g : Cfg} {h0 h : List (ApiCall × ApiRet)} {w w' : World} (hh : FromInit g h0 w) (hs : Hist g w h w')
    (hp : ∀ x ∈ h, plainCall x.1 = true) (hroom : w.ctx.buffered.length < w.ctx.bufSize) {es : List Event} (hes : w'.trace = w.trace ++ es)
    {pkts : List Raw} {tail : List UInt8} (hv : ∀ p ∈ pkts, p.Valid) (hstream : w.ctx.buffered ++ received es ++ tail = pkts.flatMap Raw.bytes)
    (hf : (∀ p ∈ pkts, p.bytes.length ≤ w.ctx.bufSize) ∨ 5 ≤ w.ctx.bufSize ∧ ∀ x ∈ h, x.2 ≠ .status .recvFailed) :
    (∀ a, Event.recvd 0 a ∉ es) ∧ ∀ e c a, Event.recvd 0 a ∉ callEvents g w' e c := by
  have key := stream_room hh hs hp hroom hes hv hstream hf
  exact ⟨key.1, fun e c a h => call_someBytes g w' e c (Or.inr key.2.1) _ h rfl⟩

/-- **C71** A buffer full of bytes that do not begin with a packet's fixed header stays as it is: each receive call asks the transport for zero bytes,
presents nothing and reports an error, whatever the server sends. -/
theorem C71_locked {g : Cfg} {h0 : List (ApiCall × ApiRet)} {w w' : World} (hh : FromInit g h0 w) (hfull : w.ctx.buffered.length = w.ctx.bufSize)
    (hne : w.ctx.buffered ≠ []) (hk : ∀ t hl n, readHeader w.ctx.buffered ≠ .known t hl n) (e : Env) (m : Bool) {r : ApiRet}
    (hc : callIn g w e (loopCall m) = .done r w') :
    w'.ctx.buffered = w.ctx.buffered ∧ r ≠ .status .success ∧ callbacks (callEvents g w e (loopCall m)) = [] ∧
    ∃ a es, callEvents g w e (loopCall m) = .recvd 0 a :: es := by
  obtain ⟨hg, hidx, s, hrep⟩ := hh.good
  have hv : ValidCall g (loopCall m) := by cases m <;> trivial
  rcases call_cases hg hidx hrep e hv with ⟨r, es, w1, h1, h2, _, hd⟩ | ⟨es, w1, h1, h2, _, hd⟩
  · rw [hc] at h1
    cases h1
    rw [h2]
    rw [buffered_length hidx] at hfull
    have h0 : w.ctx.bufSize - w.ctx.index = 0 := by omega
    obtain ⟨_, st, rfl, ⟨rfl, rfl, h3, _⟩ | ⟨x, ka, es2, rfl, k1, k2, k3, k4⟩⟩ := hd.turn
    · exact ⟨h3, by simp, rfl, _, _, by rw [h0]⟩
    · have k1 : w.ctx.index + x.length ≤ w.ctx.bufSize := k1
      have hx : x = [] := List.eq_nil_of_length_eq_zero (by omega)
      subst hx
      obtain ⟨_, q2⟩ := k2.quiet
      have e2 : callbacks (.recvd (w.ctx.bufSize - w.ctx.index) (some []) :: (ka ++ es2)) = callbacks es2 := by
        show callbacks ([.recvd (w.ctx.bufSize - w.ctx.index) (some [])] ++ (ka ++ es2)) = _
        rw [callbacks_append, callbacks_append, q2]; simp [callbacks, isCallback]
      rw [e2, h0]
      rw [List.append_nil] at k4
      cases k4 with
      | stopped h5 _ h6 _ => exact ⟨h6, fun h => keepAliveErrors_ne h5 (ApiRet.status.inj h), rfl, _, _, rfl⟩
      | wait _ h5 h6 _ =>
        refine ⟨h6, fun h => ?_, rfl, _, _, rfl⟩
        rw [ApiRet.status.inj h, if_neg hne] at h5
        split at h5 <;> cases h5
      | drop h5 => exact absurd h5 (hk _ _ _)
      | packet h5 h6 =>
        obtain ⟨hl, h7, _⟩ := readHeader_packet (rest := _) h5
        rw [← h6] at h7
        exact absurd h7 (hk _ _ _)
  · rw [hc] at h1; cases h1

/-- The transport delivers 64 zero bytes. -/
def Ex.junk : Env := { Ex.env (List.replicate 64 0) with recvs := [.deliver 64] }

/-- A stretch of PINGRESP packets that fills the buffer. -/
def Ex.pingresps : List Raw := List.replicate 32 ⟨0xD0, []⟩

/-- Non-vacuity of `C71_stream`: the transport delivers 32 PINGRESP packets at once, which fill the network buffer; the call that receives them handles
one of them, and the next call finds room for two bytes. -/
example : Ex.after.ctx.buffered.length < Ex.after.ctx.bufSize ∧ Hist Ex.g Ex.after (Ex.feed [Ex.pingresps.flatMap Raw.bytes, []]).1 (Ex.feed [Ex.pingresps.flatMap Raw.bytes, []]).2 ∧
    (∀ x ∈ (Ex.feed [Ex.pingresps.flatMap Raw.bytes, []]).1, plainCall x.1 = true) ∧
    (∃ es, (Ex.feed [Ex.pingresps.flatMap Raw.bytes, []]).2.trace = Ex.after.trace ++ es ∧ Ex.after.ctx.buffered ++ received es ++ [] = Ex.pingresps.flatMap Raw.bytes) ∧
    (∀ p ∈ Ex.pingresps, p.Valid ∧ p.bytes.length ≤ Ex.after.ctx.bufSize) ∧
    Event.recvd 64 (some (Ex.pingresps.flatMap Raw.bytes)) ∈ (Ex.feed [Ex.pingresps.flatMap Raw.bytes, []]).2.trace ∧
    Event.recvd 2 (some []) ∈ (Ex.feed [Ex.pingresps.flatMap Raw.bytes, []]).2.trace := by
  refine ⟨by decide +kernel, Ex.feed_hist (by decide +kernel), by decide +kernel,
    ⟨(Ex.feed [Ex.pingresps.flatMap Raw.bytes, []]).2.trace.drop Ex.after.trace.length, by decide +kernel, by decide +kernel⟩, ?_, by decide +kernel, by decide +kernel⟩
  intro p hp
  rw [List.eq_of_mem_replicate hp]
  exact ⟨⟨by decide, by decide⟩, by decide +kernel⟩

/-- The condition on the stream in `C71_stream` is needed, and `C71_locked` applies to reachable states: 64 bytes that are no packets fill the network buffer, each receive call from then on asks
the transport for zero bytes and reports the same malformed packet again. -/
theorem C71_malformed : FromInit Ex.g (Ex.played (Ex.session ++ [(Ex.junk, .receiveLoop)])).1 (Ex.played (Ex.session ++ [(Ex.junk, .receiveLoop)])).2 ∧
    (Ex.played (Ex.session ++ [(Ex.junk, .receiveLoop)])).2.ctx.buffered.length = (Ex.played (Ex.session ++ [(Ex.junk, .receiveLoop)])).2.ctx.bufSize ∧
    callEvents Ex.g (Ex.played (Ex.session ++ [(Ex.junk, .receiveLoop)])).2 (Ex.env [0xD0, 0]) .receiveLoop = [.recvd 0 (some [])] ∧
    readHeader (Ex.played (Ex.session ++ [(Ex.junk, .receiveLoop)])).2.ctx.buffered = .malformed ∧
    Ex.ret (callIn Ex.g (Ex.played (Ex.session ++ [(Ex.junk, .receiveLoop)])).2 (Ex.env [0xD0, 0]) .receiveLoop) = some (.status .badResponse) := by
  refine ⟨Ex.played_fromInit ?_ (by decide +kernel), by decide +kernel, by decide +kernel, by decide +kernel, by decide +kernel⟩
  intro x hx
  rcases List.mem_append.mp hx with hx | hx
  · exact Ex.sessionValid x hx
  · rw [List.mem_singleton.mp hx]
    trivial

/-- Non-vacuity of `C71_send`: a publish that the transport takes in pieces. -/
example : let e : Env := { Ex.env [] with sends := List.replicate 20 (.accept 3) }
    ((callEvents Ex.g Ex.after e (Ex.publishCall .qos1 8)).filter (fun x => match x with | .sent _ _ => true | _ => false)).length ≥ 2 := by
  decide +kernel

end Mqtt
