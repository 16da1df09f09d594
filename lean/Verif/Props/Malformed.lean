/-
C88: what happens when the server sends something that is no packet.
-/
import Verif.Props.Parts
import Verif.Props.Releases

namespace Mqtt
open Spec

theorem readVarInt_none {k : Nat} {l x : List UInt8} (h : readVarInt k l = none) (hl : k ≤ l.length) : readVarInt k (l ++ x) = none := by
  induction k generalizing l with
  | zero => rfl
  | succ k ih =>
    cases l with
    | nil => simp at hl
    | cons b rest =>
      simp only [readVarInt, List.cons_append] at h ⊢
      by_cases hb : b.toNat < 128
      · rw [if_pos hb] at h; cases h
      · rw [if_neg hb] at h ⊢
        have : readVarInt k rest = none := by
          cases hr : readVarInt k rest with
          | none => rfl
          | some y => rw [hr] at h; cases h
        rw [ih this (by simpa using hl)]

/-- No continuation makes a packet of a malformed beginning. -/
theorem malformed_more {bs : List UInt8} (h : readHeader bs = .malformed) (x : List UInt8) : readHeader (bs ++ x) = .malformed := by
  cases bs with
  | nil => cases h
  | cons first rest =>
    simp only [readHeader, List.cons_append] at h ⊢
    by_cases hf : ServerFirstByte first.toNat
    · rw [if_pos hf] at h ⊢
      cases hr : readVarInt 4 rest with
      | none =>
        rw [hr] at h
        by_cases hl : rest.length < 4
        · simp only [if_pos hl] at h; cases h
        · rw [readVarInt_none hr (by omega)]
          simp only
          rw [if_neg (by rw [List.length_append]; omega)]
      | some y =>
        obtain ⟨n, rest'⟩ := y
        rw [hr] at h
        simp only at h
        rw [readVarInt_append hr]
        simp only
        by_cases he : rest = varInt n ++ rest'
        · rw [if_pos he] at h; cases h
        · rw [if_neg]
          intro h'
          rw [← List.append_assoc] at h'
          exact he (List.append_cancel_right h')
    · rw [if_neg hf]

/-- **C88** A receive call that finds, at the front of the stream, bytes that begin no packet: it presents nothing, answers nothing, changes no record and consumes nothing.  It reports
MQTTBadResponse, unless the transport failed or (`MQTT_ProcessLoop`, if nothing arrived) the keep-alive check ended the call with its error. -/
theorem C88_call {g : Cfg} {h : List (ApiCall × ApiRet)} {w w' : World} (hh : FromInit g h w) {e : Env} {m : Bool} {r : ApiRet}
    (hc : callIn g w e (loopCall m) = .done r w') (hm : readHeader (w.ctx.buffered ++ received (callEvents g w e (loopCall m))) = .malformed) :
    callbacks (callEvents g w e (loopCall m)) = [] ∧ wire (callEvents g w e (loopCall m)) <+: pingreqPacket ∧ w'.ctx.tables = w.ctx.tables ∧
      w'.ctx.buffered = w.ctx.buffered ++ received (callEvents g w e (loopCall m)) ∧
      (r = .status .badResponse ∨ r = .status .recvFailed ∧ hasFail (callEvents g w e (loopCall m)) = true ∨
       m = true ∧ received (callEvents g w e (loopCall m)) = [] ∧ ∃ st ∈ keepAliveErrors, r = .status st) := by
  obtain ⟨hg, hidx, s, hrep⟩ := hh.good
  have hv : ValidCall g (loopCall m) := by cases m <;> trivial
  rcases call_cases hg hidx hrep e hv with ⟨r1, es, w1, h1, h2, _, hd⟩ | ⟨es, w1, h1, h2, _, hd⟩
  · rw [hc] at h1
    cases h1
    rw [h2] at hm ⊢
    obtain ⟨_, st, rfl, ⟨rfl, rfl, h3, h4⟩ | ⟨x, ka, es2, rfl, k1, k2, k3, k4⟩⟩ := hd.turn
    · exact ⟨rfl, List.nil_prefix, h4, by rw [h3]; simp [received], Or.inr (Or.inl ⟨rfl, rfl⟩)⟩
    · obtain ⟨q1, q2⟩ := k2.quiet
      have e1 : received (.recvd (w.ctx.bufSize - w.ctx.index) (some x) :: (ka ++ es2)) = x ++ received es2 := by
        rw [received_got, received_append, q1]; rfl
      have e2 : callbacks (.recvd (w.ctx.bufSize - w.ctx.index) (some x) :: (ka ++ es2)) = callbacks es2 := by
        show callbacks ([.recvd (w.ctx.bufSize - w.ctx.index) (some x)] ++ (ka ++ es2)) = _
        rw [callbacks_append, callbacks_append, q2]; simp [callbacks, isCallback]
      have e3 : wire (.recvd (w.ctx.bufSize - w.ctx.index) (some x) :: (ka ++ es2)) = wire ka ++ wire es2 := by
        rw [wire_recvd, wire_append]
      have hb0 : ({ w with env := e } : World).ctx = w.ctx := rfl
      rw [hb0] at k4 ⊢
      rw [e1] at hm ⊢
      rw [e2, e3]
      have no : ∀ {t hl n}, readHeader (w.ctx.buffered ++ x) ≠ .known t hl n := by
        intro t hl n hk
        have := readHeader_more hk (received es2)
        rw [List.append_assoc, hm] at this
        cases this
      cases k4 with
      | stopped h5 h6 h7 h8 =>
        have hx : x = [] := Classical.byContradiction fun hx => h6.2 (k3 fun h => hx h.2)
        subst hx
        exact ⟨rfl, by simpa [wire] using k2.2, h8, by simpa [received] using h7, Or.inr (Or.inr ⟨h6.1, rfl, st, h5, rfl⟩)⟩
      | wait h5 h6 h7 h8 =>
        refine ⟨rfl, by simpa [wire] using k2.2, h8, by simpa [received] using h7, Or.inl ?_⟩
        rw [received_nil, List.append_nil] at hm
        rw [h6, if_pos hm, if_neg]
        intro h; rw [h] at hm; cases hm
      | drop h5 => exact absurd h5 no
      | packet h5 h6 =>
        obtain ⟨hl, e4, _⟩ := readHeader_packet (rest := _) h5
        rw [← h6] at e4
        exact absurd e4 no
  · rw [hc] at h1; cases h1

/-- The calls other than the receive calls and `MQTT_Connect` receive nothing and present nothing. -/
theorem did_calm {g : Cfg} {s : InFlight} {w w' : World} {c : ApiCall} {r : ApiRet} {es : List Event} (h : Did g s w c r es w') (hc : ∀ m, c ≠ loopCall m)
    (hn : ∀ ci will t sp, c ≠ .connect ci will t sp) : received es = [] ∧ ∀ e ∈ es, isQuietEvent e = true := by
  cases h with
  | publish _ h =>
    rcases h.cases with ⟨_, rfl, _⟩ | ⟨_, _, rfl, _⟩ | ⟨_, _, _, _, rfl, _, _⟩ | ⟨_, zs, s1, st0, es0, w0, w1, h1, _, hsent, rfl, h2⟩
    · exact ⟨rfl, by simp⟩
    · exact ⟨rfl, by simp [isQuietEvent]⟩
    · exact ⟨rfl, by simp [isQuietEvent]⟩
    · refine ⟨?_, quiet_cons rfl (quiet_append hsent.quiet (by simp [isQuietEvent]))⟩
      show received ([.pre] ++ (es0 ++ [.post])) = []
      rw [received_append, received_append, hsent.kinds.2.1]; rfl
  | publishNull => exact ⟨rfl, by simp⟩
  | subscribe _ h => exact ⟨received_of_noRecv (noRecv_of_ack h.kinds), quiet_ack h.kinds⟩
  | subscribeNull => exact ⟨rfl, by simp⟩
  | unsubscribe _ h => exact ⟨received_of_noRecv (noRecv_of_ack h.kinds), quiet_ack h.kinds⟩
  | unsubscribeNull => exact ⟨rfl, by simp⟩
  | ping _ h => exact ⟨received_of_noRecv (noRecv_of_ack h.kinds), quiet_ack h.kinds⟩
  | disconnect h =>
    rcases h.cases with ⟨_, _, rfl, hc⟩ | ⟨_, _, rfl, h1, _, _, t, hc⟩
    · exact ⟨rfl, by simp [isQuietEvent]⟩
    · refine ⟨?_, quiet_cons rfl (quiet_append (quiet_send h1) (by simp [isQuietEvent]))⟩
      show received ([.pre] ++ (_ ++ [.post])) = []
      rw [received_append, received_append, received_of_kinds h1]; rfl
  | processLoop _ h => exact absurd rfl (hc true)
  | receiveLoop _ h => exact absurd rfl (hc false)
  | cancel _ h =>
    cases h with
    | none _ => exact ⟨rfl, by simp⟩
    | some _ h1 h2 => exact ⟨rfl, by simp [isQuietEvent]⟩
  | check h => exact ⟨rfl, by simp [isQuietEvent]⟩
  | getId h => exact ⟨rfl, by simp [isQuietEvent]⟩
  | connect h => exact absurd rfl (hn _ _ _ _)
  | connectNull => exact absurd rfl (hn _ _ _ _)

/-- **C88** Once the bytes buffered begin no packet, nothing is presented to the application any more, however long it goes on calling the library (until it disconnects or connects): every byte that
arrives stays buffered, and every receive call reports an error.  The client does not look for the next packet in the stream. -/
theorem C88_never {g : Cfg} {h0 h : List (ApiCall × ApiRet)} {w w' : World} (hh : FromInit g h0 w) (hm : readHeader w.ctx.buffered = .malformed) (hs : Hist g w h w')
    (hn : ∀ x ∈ h, x.1 ≠ .disconnect ∧ ∀ ci will t sp, x.1 ≠ .connect ci will t sp) {es : List Event} (hes : w'.trace = w.trace ++ es) :
    (∀ first body id st v, Event.app first body id st v ∉ es) ∧ w'.ctx.buffered = w.ctx.buffered ++ received es ∧
      (∀ x ∈ h, x.1 = .receiveLoop → x.2 = .status .badResponse ∨ x.2 = .status .recvFailed) ∧
      (∀ x ∈ h, x.1 = .processLoop → x.2 = .status .badResponse ∨ x.2 = .status .recvFailed ∨ ∃ st ∈ keepAliveErrors, x.2 = .status st) := by
  induction hs generalizing es with
  | start =>
    have : es = [] := by simpa using hes
    subst this
    exact ⟨by simp, by simp [received], by simp, by simp⟩
  | @call w1 w2 h e c r hr hv hc ih =>
    have hh1 := hh.append hr
    obtain ⟨hg, hidx, s, hrep⟩ := hh1.good
    obtain ⟨oc, ic, hi0⟩ := hh.inv
    obtain ⟨es1, he1⟩ := hr.grows hg hi0
    obtain ⟨k1, k2, k3, k4⟩ := ih (fun x hx => hn x (by simp [hx])) he1
    have hcn := hn (c, r) (by simp)
    have key : ∃ es2, w2.trace = w1.trace ++ es2 ∧ (∀ first body id st v, Event.app first body id st v ∉ es2) ∧ w2.ctx.buffered = w1.ctx.buffered ++ received es2 ∧
        (c = .receiveLoop → r = .status .badResponse ∨ r = .status .recvFailed) ∧
        (c = .processLoop → r = .status .badResponse ∨ r = .status .recvFailed ∨ ∃ st ∈ keepAliveErrors, r = .status st) := by
      rcases call_cases hg hidx hrep e hv with ⟨r1, es2, w3, e1, e2, e3, hd⟩ | ⟨es2, w3, e1, _⟩
      · rw [hc] at e1
        cases e1
        refine ⟨es2, e3.trace, ?_⟩
        by_cases hl : ∃ m, c = loopCall m
        · obtain ⟨m, rfl⟩ := hl
          have hmm : readHeader (w1.ctx.buffered ++ received es2) = .malformed := malformed_more (by rw [k2]; exact malformed_more hm _) _
          have hcall := C88_call hh1 hc (by rw [e2]; exact hmm)
          rw [e2] at hcall
          obtain ⟨a1, _, _, a4, a5⟩ := hcall
          refine ⟨?_, a4, ?_, ?_⟩
          · intro first body id st v hmem
            have : Event.app first body id st v ∈ callbacks es2 := List.mem_filter.mpr ⟨hmem, rfl⟩
            rw [a1] at this
            cases this
          · intro hcm
            rcases a5 with h | ⟨h, _⟩ | ⟨h, _⟩
            · exact Or.inl h
            · exact Or.inr h
            · subst h; cases hcm
          · intro _
            rcases a5 with h | ⟨h, _⟩ | ⟨_, _, h⟩
            · exact Or.inl h
            · exact Or.inr (Or.inl h)
            · exact Or.inr (Or.inr h)
        · have hl' : ∀ m, c ≠ loopCall m := fun m h => hl ⟨m, h⟩
          obtain ⟨b1, b2⟩ := did_calm hd hl' hcn.2
          have hbuf := C83_unchanged g w1 e c (p := .buffer) (by
            cases c with
            | connect => exact absurd rfl (hcn.2 _ _ _ _)
            | disconnect => exact absurd rfl hcn.1
            | processLoop => exact absurd rfl (hl' true)
            | receiveLoop => exact absurd rfl (hl' false)
            | _ => simp [changes])
          rw [hc] at hbuf
          refine ⟨?_, ?_, fun h => absurd h (hl' false), fun h => absurd h (hl' true)⟩
          · intro first body id st v hmem
            have := b2 _ hmem
            cases this
          · rw [b1, List.append_nil]
            unfold Ctx.buffered
            rw [show w2.ctx.index = _ from hbuf.1, show w2.ctx.netBuf = _ from hbuf.2]
      · rw [hc] at e1; cases e1
    obtain ⟨es2, f1, f2, f3, f4, f5⟩ := key
    have hes' : es = es1 ++ es2 := by
      rw [f1, he1, List.append_assoc] at hes
      exact (List.append_cancel_left hes).symm
    subst hes'
    refine ⟨?_, by rw [f3, k2, received_append, List.append_assoc], ?_, ?_⟩
    · intro first body id st v hmem
      rcases List.mem_append.mp hmem with h | h
      · exact k1 _ _ _ _ _ h
      · exact f2 _ _ _ _ _ h
    · intro x hx hxl
      rcases List.mem_append.mp hx with h | h
      · exact k3 x h hxl
      · rw [List.mem_singleton.mp h] at hxl ⊢; exact f4 hxl
    · intro x hx hxl
      rcases List.mem_append.mp hx with h | h
      · exact k4 x h hxl
      · rw [List.mem_singleton.mp h] at hxl ⊢; exact f5 hxl

/-- How far one receive call gets in a stream that ends in something that is no packet. -/
theorem did_seenJunk {g : Cfg} {s : InFlight} {w w' : World} {m : Bool} {r : ApiRet} {es : List Event} (h : Did g s w (loopCall m) r es w')
    (hrep : Represents w.ctx.tables s) {tail junk : List UInt8} {pkts : List Raw} (hv : ∀ q ∈ pkts, q.Valid) (hj : readHeader junk = .malformed)
    (hs : w.ctx.buffered ++ received es ++ tail = pkts.flatMap Raw.bytes ++ junk) (hf : ∀ q ∈ pkts, q.bytes.length ≤ w.ctx.bufSize) :
    ∃ a b s', pkts = a ++ b ∧ w.ctx.buffered ++ received es = a.flatMap Raw.bytes ++ w'.ctx.buffered ∧ Represents w'.ctx.tables s' ∧
      Seen w.ctx.retransmits m w.ctx.bufSize s a (callbacks es) s' ∧
      ((∀ st ∈ cannotSend, r ≠ .status st) → present w.ctx.retransmits m w.ctx.bufSize s a = (callbacks es, s')) := by
  cases pkts with
  | nil =>
    -- nothing but the malformed rest
    have hstay : w'.ctx.buffered = w.ctx.buffered ++ received es ∧ callbacks es = [] ∧ w'.ctx.tables = w.ctx.tables := by
      have no : ∀ {pre suf : List UInt8} {t hl n}, w.ctx.buffered ++ received es = pre ++ suf → readHeader pre ≠ .known t hl n := by
        intro pre suf t hl n he hk
        rw [he, List.append_assoc] at hs
        have := readHeader_more hk (suf ++ tail)
        rw [hs] at this
        simp only [List.flatMap_nil, List.nil_append] at this
        rw [hj] at this
        cases this
      obtain ⟨_, st, rfl, ⟨rfl, rfl, h1, h2⟩ | ⟨x, ka, es2, rfl, h1, h2, h3, h4⟩⟩ := h.turn
      · exact ⟨by simp [received, h1], rfl, h2⟩
      · obtain ⟨q1, q2⟩ := h2.quiet
        have e1 : received (.recvd (w.ctx.bufSize - w.ctx.index) (some x) :: (ka ++ es2)) = x ++ received es2 := by
          rw [received_got, received_append, q1]; rfl
        have e2 : callbacks (.recvd (w.ctx.bufSize - w.ctx.index) (some x) :: (ka ++ es2)) = callbacks es2 := by
          show callbacks ([.recvd (w.ctx.bufSize - w.ctx.index) (some x)] ++ (ka ++ es2)) = _
          rw [callbacks_append, callbacks_append, q2]; simp [callbacks, isCallback]
        have e3 : w.ctx.buffered ++ received (.recvd (w.ctx.bufSize - w.ctx.index) (some x) :: (ka ++ es2)) = (w.ctx.buffered ++ x) ++ received es2 := by
          rw [e1, List.append_assoc]
        rw [e3, e2]
        cases h4 with
        | stopped _ _ k3 k4 => exact ⟨by rw [k3]; simp [received], rfl, k4⟩
        | wait _ _ k3 k4 => exact ⟨by rw [k3]; simp [received], rfl, k4⟩
        | drop k1 => exact absurd k1 (no e3)
        | packet k1 k2 =>
          obtain ⟨hl, e4, _⟩ := readHeader_packet (rest := _) k1
          rw [← k2] at e4
          exact absurd e4 (no e3)
    obtain ⟨h1, h2, h3⟩ := hstay
    exact ⟨[], [], s, rfl, by rw [h1]; simp, by rw [h3]; exact hrep, by rw [h2]; exact .nil s, fun _ => by rw [h2]; rfl⟩
  | cons q ps =>
    have hq := hv q List.mem_cons_self
    have hqf := hf q List.mem_cons_self
    have hs : w.ctx.buffered ++ received es ++ tail = q.bytes ++ (ps.flatMap Raw.bytes ++ junk) := by rw [hs, List.flatMap_cons, List.append_assoc]
    by_cases hlen : q.bytes.length ≤ (w.ctx.buffered ++ received es).length
    · -- the packet has arrived completely
      obtain ⟨rest, hrest⟩ : ∃ rest, w.ctx.buffered ++ received es = q.bytes ++ rest := by
        have := congrArg (List.take q.bytes.length) hs
        rw [List.take_append_of_le_length hlen, List.take_left] at this
        refine ⟨(w.ctx.buffered ++ received es).drop q.bytes.length, ?_⟩
        rw [← this]
        exact (List.take_append_drop _ _).symm.trans (by rw [List.length_take, Nat.min_eq_left hlen])
      obtain ⟨st, rfl, ⟨h1, _, _, h2, h3, _⟩ | ⟨h1, ka, es1, w1, w2, rst, _, _, h2, h3, _, _, h4, _, h5⟩⟩ := did_front h hq hqf hrest
      · exact ⟨[], q :: ps, s, rfl, by rw [h1]; rfl, by rw [h3]; exact hrep, by rw [h2]; exact .nil s, fun _ => by rw [h2]; rfl⟩
      · have key : ∃ s', Represents w2.ctx.tables s' ∧ (s' = acked (react w.ctx.retransmits m s q.first q.body) ∨
            s' = (react w.ctx.retransmits m s q.first q.body).state ∧ callerStatus rst ∈ cannotSend) := by
          rcases h5.cases with ⟨e1, _, _, _, e2⟩ | ⟨_, e0, _, _, e1, e2⟩ | ⟨_, _, _, _, e1, e2, _⟩ | ⟨ty, id, e1, _, _, _, e2, e3⟩
          · exact ⟨_, e2, Or.inl (by unfold acked; rw [e1])⟩
          · refine ⟨_, e2, Or.inr ⟨rfl, ?_⟩⟩
            rw [e1]
            unfold notConnectedStatus
            split <;> simp [callerStatus, cannotSend]
          · exact ⟨_, e2, Or.inr ⟨rfl, by rw [e1]; simp [callerStatus, cannotSend]⟩⟩
          · exact ⟨_, e3, Or.inl (by unfold acked; rw [e1])⟩
        obtain ⟨s', k1, k2⟩ := key
        refine ⟨[q], ps, s', rfl, by rw [hrest, h1]; simp, by rw [h4]; exact k1, ?_, ?_⟩
        · have := Seen.taken (retx := w.ctx.retransmits) (manage := m) (s := s) hqf (Or.imp_right And.left k2) (.nil s')
          rw [List.append_nil] at this
          rw [h2, h5.calls]; exact this
        · intro hc
          rcases k2 with rfl | ⟨_, k2⟩
          · rw [present, if_neg (by omega), h2, h5.calls]
            simp [present]
          · exact absurd (by rw [h3]) (hc _ k2)
    · -- it has not
      obtain ⟨more, hmore⟩ : ∃ more, w.ctx.buffered ++ received es ++ more = q.bytes := by
        have := congrArg (List.take (w.ctx.buffered ++ received es).length) hs
        rw [List.take_left, List.take_append_of_le_length (by omega)] at this
        exact ⟨q.bytes.drop (w.ctx.buffered ++ received es).length, by conv => lhs; lhs; rw [this]
                                                                       exact List.take_append_drop _ _⟩
      obtain ⟨a, b, s', k1, k2, k3, k4, k5⟩ := h.seen hrep (tail := more) (pkts := [q]) (by simpa using hq) (by rw [hmore]; simp) (Or.inl (by simpa using hqf))
      cases a with
      | nil => exact ⟨[], q :: ps, s', rfl, k2, k3, k4, k5⟩
      | cons y ys =>
        exfalso
        obtain ⟨rfl, rfl, rfl⟩ : y = q ∧ ys = [] ∧ b = [] := by
          cases ys <;> cases b <;> simp_all
        have := congrArg List.length k2
        rw [List.flatMap_cons, List.flatMap_nil, List.append_nil, List.length_append (as := y.bytes)] at this
        omega

/-- **C88** A server that sends packets and then something that is no packet: what the application is given, however long it goes on receiving and however the stream was cut
into pieces, are packets sent before (as in C32); nothing of what follows is ever presented. -/
theorem C88_stream {g : Cfg} {h0 h : List (ApiCall × ApiRet)} {w w' : World} (hh : FromInit g h0 w) {m : Bool} (hs : Hist g w h w') (hl : ∀ x ∈ h, x.1 = loopCall m)
    {es : List Event} (hes : w'.trace = w.trace ++ es) {s : InFlight} (hrep : Represents w.ctx.tables s) {pkts : List Raw} {tail junk : List UInt8}
    (hv : ∀ p ∈ pkts, p.Valid) (hf : ∀ p ∈ pkts, p.bytes.length ≤ w.ctx.bufSize) (hj : readHeader junk = .malformed)
    (hstream : w.ctx.buffered ++ received es ++ tail = pkts.flatMap Raw.bytes ++ junk) :
    ∃ done todo s', pkts = done ++ todo ∧ w.ctx.buffered ++ received es = done.flatMap Raw.bytes ++ w'.ctx.buffered ∧ Represents w'.ctx.tables s' ∧
      Seen w.ctx.retransmits m w.ctx.bufSize s done (callbacks es) s' ∧
      ((∀ x ∈ h, ∀ st ∈ cannotSend, x.2 ≠ .status st) → present w.ctx.retransmits m w.ctx.bufSize s done = (callbacks es, s')) := by
  obtain ⟨hg, hidx, _⟩ := hh.good
  have hi0 : Inv s.outCap s.inCap w.ctx := ⟨hidx, s, hrep, rfl, rfl⟩
  have key : ∃ a b s', pkts = a ++ b ∧ w.ctx.buffered ++ received es = a.flatMap Raw.bytes ++ w'.ctx.buffered ∧ Represents w'.ctx.tables s' ∧
      Seen w.ctx.retransmits m w.ctx.bufSize s a (callbacks es) s' ∧
      ((∀ x ∈ h, ∀ st ∈ cannotSend, x.2 ≠ .status st) → present w.ctx.retransmits m w.ctx.bufSize s a = (callbacks es, s')) ∧
      w'.ctx.bufSize = w.ctx.bufSize ∧ w'.ctx.retransmits = w.ctx.retransmits := by
    induction hs generalizing es tail with
    | start =>
      have : es = [] := by simpa using hes
      subst this
      exact ⟨[], pkts, s, rfl, by simp [received], hrep, .nil s, fun _ => rfl, rfl, rfl⟩
    | @call w1 w2 h e c r hr hvc hc ih =>
      have hcl : c = loopCall m := hl (c, r) (by simp)
      subst hcl
      obtain ⟨i1, s1, i2, _⟩ := hr.inv hg hi0
      obtain ⟨es2, hlk, hd⟩ := callIn_done hg hvc i1 i2 hc
      obtain ⟨es1, he1⟩ := hr.grows hg hi0
      have hes' : es = es1 ++ es2 := by
        have h1 : w2.trace = w1.trace ++ es2 := hlk.trace
        rw [h1, he1, List.append_assoc] at hes
        exact (List.append_cancel_left hes).symm
      subst hes'
      rw [received_append] at hstream
      obtain ⟨a, b, s', k1, k2, k3, k4, k5, k7, k8⟩ := ih (fun x hx => hl x (by simp [hx])) (es := es1) he1 (tail := received es2 ++ tail) (by rw [← hstream]; simp)
      have hrs : s' = s1 := represents_unique k3 i2
      subst hrs
      have hs2 : w1.ctx.buffered ++ received es2 ++ tail = b.flatMap Raw.bytes ++ junk := by
        have : w.ctx.buffered ++ (received es1 ++ received es2) ++ tail = (w.ctx.buffered ++ received es1) ++ (received es2 ++ tail) := by simp
        rw [this, k2, k1, List.flatMap_append, List.append_assoc, List.append_assoc] at hstream
        have := List.append_cancel_left hstream
        rw [← this]; simp
      obtain ⟨a', b', s'', j1, j2, j3, j4, j5⟩ := did_seenJunk (w := { w1 with env := e }) hd i2 (tail := tail) (pkts := b)
        (fun q hq => hv q (by rw [k1]; exact List.mem_append_right _ hq)) hj hs2
        (fun q hq => by rw [show ({ w1 with env := e } : World).ctx.bufSize = w.ctx.bufSize from k7]; exact hf q (by rw [k1]; exact List.mem_append_right _ hq))
      have hkeep := hd.keeps (w := { w1 with env := e }) i2
      refine ⟨a ++ a', b', s'', by rw [k1, j1, List.append_assoc], ?_, j3, ?_, ?_, ?_, ?_⟩
      · rw [received_append, ← List.append_assoc, k2, List.append_assoc, List.flatMap_append, List.append_assoc]
        exact congrArg _ j2
      · rw [callbacks_append]
        rw [← k7, ← k8] at k4 ⊢
        exact Seen.append k4 j4
      · intro hall
        rw [present_append, k5 (fun x hx => hall x (by simp [hx])), callbacks_append]
        have := j5 (hall (loopCall m, r) (by simp))
        rw [← k7, ← k8]
        show (callbacks es1 ++ (present w1.ctx.retransmits m w1.ctx.bufSize s' a').1, (present w1.ctx.retransmits m w1.ctx.bufSize s' a').2) = _
        rw [show present w1.ctx.retransmits m w1.ctx.bufSize s' a' = (callbacks es2, s'') from this]
      · exact hkeep.bufSize.trans k7
      · exact hkeep.retransmits.trans k8
  obtain ⟨a, b, s', k1, k2, k3, k4, k5, _⟩ := key
  exact ⟨a, b, s', k1, k2, k3, k4, k5⟩

/-- A publish with QoS 0, a byte that begins no packet, and a PUBCOMP, delivered in pieces. -/
def Ex.spoilt : List (List UInt8) := [[0x30, 4, 0, 1, 97], [5, 0xF7], [], [0x70, 2, 0, 7], []]

def Ex.isReceive : ApiCall → Bool
  | .receiveLoop => true
  | _ => false

theorem Ex.isReceive_iff {c : ApiCall} (h : Ex.isReceive c = true) : c = loopCall false := by
  cases c <;> first | rfl | cases h

/-- Non-vacuity of `C88_stream` and `C88_call`: the publish is presented, the PUBCOMP behind the wrong byte never is, although it belongs to a publish in flight; the last three calls report
the malformed packet. -/
example : FromInit Ex.g (Ex.played Ex.session).1 Ex.after ∧ Hist Ex.g Ex.after (Ex.feed Ex.spoilt).1 (Ex.feed Ex.spoilt).2 ∧
    (∀ x ∈ (Ex.feed Ex.spoilt).1, x.1 = loopCall false) ∧ (∃ s, Represents Ex.after.ctx.tables s) ∧ (⟨0x30, [0, 1, 97, 5]⟩ : Raw).Valid ∧
    readHeader [0xF7, 0x70, 2, 0, 7] = .malformed ∧
    Ex.after.ctx.buffered ++ received ((Ex.feed Ex.spoilt).2.trace.drop Ex.after.trace.length) = [(⟨0x30, [0, 1, 97, 5]⟩ : Raw)].flatMap Raw.bytes ++ [0xF7, 0x70, 2, 0, 7] ∧
    callbacks ((Ex.feed Ex.spoilt).2.trace.drop Ex.after.trace.length) = [.app 0x30 [0, 1, 97, 5] 0 .success (some ⟨.qos0, false, false, [97], [5]⟩)] ∧
    (Ex.feed Ex.spoilt).1.map (·.2) = [.status .needMoreBytes, .status .success, .status .badResponse, .status .badResponse, .status .badResponse] ∧
    (Ex.feed Ex.spoilt).2.ctx.buffered = [0xF7, 0x70, 2, 0, 7] ∧ (Ex.feed Ex.spoilt).2.ctx.connectStatus = .connected :=
  ⟨Ex.after_fromInit, Ex.feed_hist (by decide +kernel), fun x hx => Ex.isReceive_iff ((by decide +kernel : ∀ x ∈ (Ex.feed Ex.spoilt).1, Ex.isReceive x.1 = true) x hx), Ex.after_fromInit.good.2.2, ⟨by decide +kernel, by decide⟩, by decide +kernel, by decide +kernel,
    by decide +kernel, by decide +kernel, by decide +kernel, by decide +kernel⟩

/-- Non-vacuity of `C88_never`: the client still publishes, but the receive loops report the malformed packet for good; the PUBACK is not seen. -/
def Ex.deaf : List (Env × ApiCall) := [(Ex.env [0xD0, 0], .receiveLoop), (Ex.env [], Ex.publishCall .qos1 8), (Ex.env [0x40, 2, 0, 8], .processLoop)]

example : let w := (Ex.feed Ex.spoilt).2
    readHeader w.ctx.buffered = .malformed ∧
    ∃ h w', Ex.play w Ex.deaf = some (h, w') ∧ h.map (·.2) = [.status .badResponse, .status .success, .status .badResponse] ∧
      (∀ x ∈ h, plainCall x.1 = true) ∧ w'.ctx.buffered = [0xF7, 0x70, 2, 0, 7, 0xD0, 0, 0x40, 2] := by
  refine ⟨by decide +kernel, ((Ex.play (Ex.feed Ex.spoilt).2 Ex.deaf).getD ([], Ex.after)).1, ((Ex.play (Ex.feed Ex.spoilt).2 Ex.deaf).getD ([], Ex.after)).2, ?_, by decide +kernel,
    by decide +kernel, by decide +kernel⟩
  obtain ⟨⟨h, w'⟩, he⟩ := Option.isSome_iff_exists.mp (show (Ex.play (Ex.feed Ex.spoilt).2 Ex.deaf).isSome = true by decide +kernel)
  rw [he]; rfl

end Mqtt
