/-
The calls other than `MQTT_Connect` and the messages from the server.
-/
import Verif.Proof.InboundTake
import Verif.Proof.BrokerRun

namespace Mqtt
open Spec
set_option linter.unusedSimpArgs false

theorem inUp_first {i : UInt16} {u : Raw} {x : UInt8} {l : List UInt8} (h : u.bytes = x :: l) (hx : x ≠ 0x40 ∧ x ≠ 0x50 ∧ x ≠ 0x70) : inUp i u = none := by
  have e : u.bytes = UInt8.ofNat u.first.toNat :: (varInt u.body.length ++ u.body) := rfl
  rw [e] at h
  injection h with h _
  have h : u.first = x := by rw [← h]; simp
  exact inUp_other (by rw [h]; exact hx.1) (by rw [h]; exact hx.2.1) (by rw [h]; exact hx.2.2)

theorem sub_inUp {ty : SubType} {id : UInt16} {l : List SubscribeInfo} {u : Raw} (h : u.bytes = subPacket ty id l) (i : UInt16) : inUp i u = none := by
  cases ty with
  | subscribe => exact inUp_first (x := 0x82) h (by decide)
  | unsubscribe => exact inUp_first (x := 0xA2) h (by decide)

theorem publish_inUp {s : Publish} {u : Raw} (h : u.bytes = publishPacket s) (i : UInt16) : inUp i u = none := by
  refine inUp_first (x := UInt8.ofNat (publishFirst s.dup s.qos s.retain)) h ?_
  have : ∀ (d : Bool) (q : Fin 3) (r : Bool), UInt8.ofNat (publishFirst d q r) ≠ 0x40 ∧ UInt8.ofNat (publishFirst d q r) ≠ 0x50 ∧ UInt8.ofNat (publishFirst d q r) ≠ 0x70 := by
    decide
  exact this _ _ _

theorem reserve_inc (s : InFlight) (id : UInt16) (q : QoS) : (step s (.reserve id q)).2.inc = s.inc := by
  simp only [step]
  repeat' split
  all_goals rfl

theorem noteSent_inc (s : InFlight) (p : PublishInfo) (id : UInt16) : (noteSent s p id).2.inc = s.inc := by
  unfold noteSent
  split
  · rfl
  · simp only [step]
    repeat' split
    all_goals rfl

theorem PubSent.quiet {p : PublishInfo} {id : UInt16} {zs : List UInt8} {w w' : World} {st : Status} {es : List Event} (h : PubSent p id zs w st es w') :
    ∀ e ∈ es, isQuietEvent e = true := by
  rcases h.2.2 with ⟨_, h1, _⟩ | ⟨_, _, rfl, _⟩ | ⟨_, _, snd, rfl, h1, _⟩
  · exact quiet_send h1
  · simp [isQuietEvent]
  · exact quiet_cons rfl (quiet_send h1)

section
variable {i : UInt16} {b : Bool} {n0 : Nat} {o0 R : List Publish} {w w' : World} {n n' : Net} {shelf : Shelf} {es : List Event}
  {g : Cfg} {s : InFlight} {st : Status}

theorem InReady.sub {ty : SubType} {l : List SubscribeInfo} {id : UInt16} (h : InReady i b n0 o0 R w.ctx n shelf) (hi : i ≠ 0)
    (hd : SubDone ty l id w st es w') (hn : NetRun true w.ctx.bufSize n es n') :
    InReady i b n0 o0 R w'.ctx { n' with isOpen := n'.isOpen && !(decide (st = .sendFailed)) } (es.foldl Shelf.note shelf) ∧ presented i es = [] := by
  refine ⟨?_, presented_quiet i (quiet_ack hd.kinds)⟩
  have hal : Alike w.ctx w'.ctx ∧ w'.ctx.tables = w.ctx.tables := by
    obtain ⟨t, h⟩ := hd.ctx
    rw [h]
    exact ⟨⟨rfl, rfl, rfl, afterFail_not _ _⟩, rfl⟩
  have ht : ∀ fl, Represents w.ctx.tables fl → ∃ fl', Represents w'.ctx.tables fl' ∧ fl'.inc.phase i = fl.inc.phase i :=
    fun fl hfl => ⟨fl, by rw [hal.2]; exact hfl, rfl⟩
  have hrc := received_of_noRecv (noRecv_of_ack hd.kinds)
  have hcb := callbacks_ack hd.kinds
  rcases hd.cases with ⟨_, rfl, _⟩ | ⟨_, _, rfl, _⟩ | ⟨h1, _, h2, _, h3⟩
  · exact h.nothing hi hal.1 ht hn hcb hrc rfl
  · exact h.nothing hi hal.1 ht hn hcb hrc rfl
  · obtain ⟨u, u1, u2, u3⟩ := sub_raw h2
    obtain ⟨h4, h5⟩ := sent_done h3
    have hu := sub_inUp u1 i
    rw [← u1] at h4 h5
    exact h.plain hi hal.1 ht hn hrc u2 hu h4 (fun h => by rw [h1] at h; cases h) (by rw [shelf_quiet hcb]; exact h.shelves) (fun _ hx => by simpa using h5 hx)

theorem InReady.ping (h : InReady i b n0 o0 R w.ctx n shelf) (hi : i ≠ 0) (hd : PingDone w st es w') (hn : NetRun true w.ctx.bufSize n es n') :
    InReady i b n0 o0 R w'.ctx { n' with isOpen := n'.isOpen && !(decide (st = .sendFailed)) } (es.foldl Shelf.note shelf) ∧ presented i es = [] := by
  refine ⟨?_, presented_quiet i (quiet_ack hd.kinds)⟩
  have hal : Alike w.ctx w'.ctx ∧ w'.ctx.tables = w.ctx.tables := by
    obtain ⟨t, p, q, h⟩ := hd.ctx
    rw [h]
    exact ⟨⟨rfl, rfl, rfl, afterFail_not _ _⟩, rfl⟩
  have ht : ∀ fl, Represents w.ctx.tables fl → ∃ fl', Represents w'.ctx.tables fl' ∧ fl'.inc.phase i = fl.inc.phase i :=
    fun fl hfl => ⟨fl, by rw [hal.2]; exact hfl, rfl⟩
  have hrc := received_of_noRecv (noRecv_of_ack hd.kinds)
  have hcb := callbacks_ack hd.kinds
  have hs : ∀ j x, es.foldl Shelf.note shelf j = some x → ∃ m, Copy j m x := by rw [shelf_quiet hcb]; exact h.shelves
  have hu : Small ⟨0xC0, []⟩ := by simp [Small]
  have hno : inUp i ⟨0xC0, []⟩ = none := inUp_other (by decide) (by decide) (by decide)
  rcases hd.cases with ⟨_, h1, _⟩ | ⟨h1, h2, h3, h4, _⟩ | ⟨h1, h2, _⟩
  · exact h.nothing hi hal.1 ht hn hcb hrc h1
  · exact h.plain hi hal.1 ht hn hrc hu hno (by rw [pingreq_raw]; exact h2) (fun h => by rw [h1] at h; cases h) hs (fun _ _ => by simpa using h4)
  · exact h.plain hi hal.1 ht hn hrc hu hno (by rw [pingreq_raw, h2]; exact List.prefix_refl _) (fun h => by rw [h1] at h; cases h) hs
      (fun _ h => absurd h2 (by rw [pingreq_raw] at h; exact h))

theorem InReady.publish {p : PublishInfo} {id : UInt16} (h : InReady i b n0 o0 R w.ctx n shelf) (hi : i ≠ 0) (hrep : Represents w.ctx.tables s)
    (hv : p.Valid) (hd : PublishDone p id s w st es w') (hn : NetRun true w.ctx.bufSize n es n') :
    InReady i b n0 o0 R w'.ctx { n' with isOpen := n'.isOpen && !(decide (st = .sendFailed)) } (es.foldl Shelf.note shelf) ∧ presented i es = [] := by
  have hal : Alike w.ctx w'.ctx := by
    obtain ⟨t, T, h⟩ := hd.ctx
    rw [h]
    exact ⟨rfl, rfl, rfl, afterFail_not _ _⟩
  have same : ∀ {s' : InFlight}, Represents w'.ctx.tables s' → s'.inc = s.inc → ∀ fl, Represents w.ctx.tables fl →
      ∃ fl', Represents w'.ctx.tables fl' ∧ fl'.inc.phase i = fl.inc.phase i := by
    intro s' h1 h2 fl h3
    cases represents_unique h3 hrep
    exact ⟨s', h1, by rw [h2]⟩
  rcases hd.cases with ⟨rfl, rfl, h1, _⟩ | ⟨_, rfl, rfl, h1⟩ | ⟨_, _, h1, h2, rfl, h3, _⟩ | ⟨hconn, zs, s1, st0, es0, w0, w1, hres, hw0, hps, rfl, hfin⟩
  · exact ⟨h.nothing hi hal (same (by rw [h1]; exact hrep) rfl) hn rfl rfl rfl, rfl⟩
  · exact ⟨h.nothing hi hal (same (by rw [h1]; exact hrep) rfl) hn rfl rfl rfl, rfl⟩
  · exact ⟨h.nothing hi hal (same h3 rfl) hn rfl rfl rfl, rfl⟩
  · have ha := hd.args (by simp)
    obtain ⟨hst, hrecv, _, hpart⟩ := hps.kinds
    have hw0r : w0.ctx.retransmits = w.ctx.retransmits := by rw [hw0]
    have hsh := hps.shelf shelf
    rw [hw0r] at hsh
    have hsf : (Event.pre :: (es0 ++ [.post])).foldl Shelf.note shelf = es0.foldl Shelf.note shelf := by
      rw [List.foldl_cons, List.foldl_append]; rfl
    have hrecv' : received (Event.pre :: (es0 ++ [.post])) = [] := by
      show received ([.pre] ++ (es0 ++ [.post])) = _
      rw [received_append, received_append, hrecv]; rfl
    refine ⟨?_, presented_quiet i (quiet_cons rfl (quiet_append hps.quiet (by simp [isQuietEvent])))⟩
    rw [hsf]
    obtain ⟨u, hu1, hu2, _⟩ := publish_raw hv ha p.dup
    have hue : u.bytes = publishPacket (p.toSpec id) := hu1
    have hw : wire (Event.pre :: (es0 ++ [.post])) <+: u.bytes := by rw [wire_hooked, hue]; exact hps.sent.1
    have hinc : s1.inc = s.inc := by
      rcases hres with ⟨_, rfl⟩ | ⟨_, _, rfl⟩
      · rfl
      · exact reserve_inc _ _ _
    have hfinal : ∃ s2, Represents w'.ctx.tables s2 ∧ s2.inc = s.inc := by
      rcases hfin with ⟨_, _, hr⟩ | ⟨_, _, hr⟩
      · exact ⟨_, hr, hinc⟩
      · exact ⟨_, hr, (noteSent_inc _ _ _).trans hinc⟩
    obtain ⟨s2, g1, g2⟩ := hfinal
    refine h.plain hi hal (same g1 g2) hn hrecv' hu2 (publish_inUp hu1 i) hw (fun h => by rw [hconn] at h; cases h) ?_ ?_
    · intro j x hx
      by_cases hj : j = id
      · subst hj
        rcases hsh.2 with h' | ⟨hq, h'⟩
        · rw [h'] at hx; exact h.shelves j x hx
        · rw [h'] at hx
          cases hx
          exact ⟨_, Copy.of_raw hv ha hq true⟩
      · rw [hsh.1 j (Or.inl hj)] at hx; exact h.shelves j x hx
    · rw [wire_hooked]
      intro f1 f2
      have := hpart f1 (by rw [← hue]; exact f2)
      rcases hfin with ⟨_, rfl, _⟩ | ⟨h, _⟩
      · simp [this]
      · rw [h] at this; cases this

theorem InReady.disconnect (h : InReady i b n0 o0 R w.ctx n shelf) (hi : i ≠ 0) (hd : DisconnectDone w st es w') (hn : NetRun true w.ctx.bufSize n es n') :
    InReady i b n0 o0 R w'.ctx { n' with isOpen := n'.isOpen && !true } (es.foldl Shelf.note shelf) ∧ presented i es = [] := by
  rcases hd.cases with ⟨h1, h2, rfl, h3⟩ | ⟨h1, snd, rfl, h2, h3, h4, t, h5⟩
  · exact ⟨h.nothing hi (by rw [h3]; exact ⟨rfl, rfl, rfl, Iff.rfl⟩) (fun fl hfl => ⟨fl, by rw [h3]; exact hfl, rfl⟩) hn rfl rfl rfl, rfl⟩
  · refine ⟨?_, presented_quiet i (quiet_cons rfl (quiet_append (quiet_send h2) (by simp [isQuietEvent])))⟩
    have hw : wire (.pre :: (snd ++ [.post])) <+: (Raw.bytes ⟨0xE0, []⟩) := by
      rw [wire_hooked, disconnect_raw]
      rcases h4 with ⟨_, _, h⟩ | ⟨_, h, _⟩
      · rw [h]; exact List.prefix_refl _
      · exact h
    have hrcv : received (.pre :: (snd ++ [.post])) = [] := by
      show received ([Event.pre] ++ (snd ++ [.post])) = []
      rw [received_append, received_append, received_of_kinds h2]; rfl
    have hcb : callbacks (.pre :: (snd ++ [.post])) = [] := by
      show callbacks ([Event.pre] ++ (snd ++ [.post])) = []
      rw [callbacks_append, callbacks_append, callbacks_send h2]; rfl
    obtain ⟨fl, k1, k2, k3, k4⟩ := (h.plain (ctx' := w.ctx) hi ⟨rfl, rfl, rfl, Iff.rfl⟩ (fun fl hfl => ⟨fl, hfl, rfl⟩) hn hrcv (u := ⟨0xE0, []⟩) (by simp [Small])
      (inUp_other (by decide) (by decide) (by decide)) hw (fun h => absurd h h1) (shelf' := (Event.pre :: (snd ++ [.post])).foldl Shelf.note shelf)
      (by rw [shelf_quiet hcb]; exact h.shelves) (closing := true) (fun _ _ => rfl))
    obtain ⟨us, part, ds, buf, q1, q2, q3⟩ := k4.ties
    refine ⟨fl, by rw [h5]; exact k1, by rw [h5]; exact Nat.zero_le _, ?_, ?_⟩
    · rw [h5]; show 4 ≤ (List.replicate _ 0).length; rw [List.length_replicate]; exact k3
    · rw [buffered_zero (c := w'.ctx) (by rw [h5]; rfl), h5]
      show InLink i (List.replicate w.ctx.bufSize (0 : UInt8)).length b n0 o0 R (decide (ConnStatus.notConnected ≠ .notConnected)) _ [] _ _
      rw [List.length_replicate]
      exact ⟨⟨us, part, ds, buf, q1, fun h => (by simp at h), fun ho => (by simp at ho)⟩, fun _ => rfl, k4.shelves⟩

theorem ping_inUp {x : List UInt8} (h : x = [] ∨ x = pingreqPacket) :
    ∃ vs : List Raw, x = vs.flatMap Raw.bytes ∧ (∀ v ∈ vs, Small v) ∧ ∀ i, vs.filterMap (inUp i) = [] := by
  rcases h with rfl | rfl
  · exact ⟨[], rfl, by simp, fun _ => rfl⟩
  · refine ⟨[⟨0xC0, []⟩], by rw [← pingreq_raw]; simp, by simp [Small], fun i => ?_⟩
    have : inUp i ⟨0xC0, []⟩ = none := inUp_other (by decide) (by decide) (by decide)
    simp [this]

theorem InReady.loop {m : Bool} (h : InReady i b n0 o0 R w.ctx n shelf) (hi : i ≠ 0)
    (hrep : Represents w.ctx.tables s) (hit : Iterated g m s w st es w')
    (hst : w'.ctx.connectStatus = .notConnected ↔ w.ctx.connectStatus = .notConnected) (hbs : w'.ctx.bufSize = w.ctx.bufSize)
    (hidx : w'.ctx.index ≤ w'.ctx.bufSize) (hidle : w.ctx.connectStatus = .notConnected → noSent es)
    (hn : NetRun true w.ctx.bufSize n es n') :
    InReady i b n0 o0 (R ++ presented i es) w'.ctx { n' with isOpen := n'.isOpen && !(decide (st = .sendFailed)) } (es.foldl Shelf.note shelf) := by
  obtain ⟨fl, h1, h2, h3, h4⟩ := h
  cases represents_unique h1 hrep
  have fin : ∀ {fl' : InFlight} {buf : List UInt8} {N : Net} {S : Shelf} {K : List Publish}, Represents w'.ctx.tables fl' → w'.ctx.buffered = buf →
      InLink i w.ctx.bufSize b n0 o0 K (decide (w.ctx.connectStatus ≠ .notConnected)) (fl'.inc.phase i) buf N S →
      InReady i b n0 o0 K w'.ctx N S := by
    intro fl' buf N S K e1 e2 e3
    refine ⟨fl', e1, hidx, by rw [hbs]; exact h3, ?_⟩
    rw [hbs, e2]
    have : decide (w'.ctx.connectStatus ≠ .notConnected) = decide (w.ctx.connectStatus ≠ .notConnected) := by simp only [ne_eq, hst]
    rw [this]
    exact e3
  have hidle' : ∀ {a x : List Event}, es = a ++ x → decide (w.ctx.connectStatus ≠ .notConnected) = false → wire x = [] := by
    intro a x he hc
    have := hidle (by simpa using hc)
    rw [he, noSent_append] at this
    exact wire_of_noSent this.2
  rcases hit.turnKeep with ⟨rfl, rfl, hb, ht⟩ | ⟨r, ka, es2, rfl, hlen, hka, hka0, hturn, hkw⟩
  · have e1 : presented i [Event.recvd (w.ctx.bufSize - w.ctx.index) none, .pre, .post] = [] := rfl
    rw [e1, List.append_nil]
    refine fin (by rw [ht]; exact hrep) hb ?_
    have := h4.received hn (by intro e he; simp at he; rcases he with rfl | rfl | rfl <;> rfl) h3 hi
    have e : Spec.received [Event.recvd (w.ctx.bufSize - w.ctx.index) none, .pre, .post] = [] := rfl
    rw [e, List.append_nil] at this
    exact this.close _
  · obtain ⟨n1, hn1, hn2⟩ := Spec.NetRun.split (a := [.recvd (w.ctx.bufSize - w.ctx.index) (some r)]) (b := ka ++ es2) hn
    have h5 : InLink i w.ctx.bufSize b n0 o0 R (decide (w.ctx.connectStatus ≠ .notConnected)) (s.inc.phase i) (w.ctx.buffered ++ r) n1 shelf := by
      have := h4.received hn1 (by intro e he; rw [List.mem_singleton.mp he]; rfl) h3 hi
      have e : Spec.received [.recvd (w.ctx.bufSize - w.ctx.index) (some r)] = r := by simp [Spec.received]
      rwa [e] at this
    have hkc : callbacks ka = [] := (callbacks_of_ack hka.1).1
    have hkr : Spec.received ka = [] := received_of_noRecv (callbacks_of_ack hka.1).2
    have hcb : callbacks (Event.recvd (w.ctx.bufSize - w.ctx.index) (some r) :: (ka ++ es2)) = callbacks es2 := by
      show callbacks ([Event.recvd (w.ctx.bufSize - w.ctx.index) (some r)] ++ (ka ++ es2)) = _
      rw [callbacks_append, callbacks_append, hkc]; rfl
    rw [← presented_callbacks, shelf_callbacks, hcb]
    have hid : decide (w.ctx.connectStatus ≠ .notConnected) = false → wire (ka ++ es2) = [] := hidle' (a := [_]) rfl
    -- nothing is taken
    have noPacket : es2 = [] → w'.ctx.buffered = w.ctx.buffered ++ r → w'.ctx.tables = w.ctx.tables →
        InReady i b n0 o0 (R ++ presented i (callbacks es2)) w'.ctx { n' with isOpen := n'.isOpen && !(decide (st = .sendFailed)) }
          ((callbacks es2).foldl Shelf.note shelf) := by
      rintro rfl hb ht
      rw [List.append_nil] at hn2 hid
      have : presented i (callbacks []) = [] := rfl
      rw [this, List.append_nil]
      refine fin (by rw [ht]; exact hrep) hb ?_
      obtain ⟨vs, p', e1, e2, e3, e4⟩ := Small.piece (u := ⟨0xC0, []⟩) (by simp [Small]) (x := wire ka) (by rw [pingreq_raw]; exact hka.2)
      have hv : vs.filterMap (inUp i) = [] := by
        rcases e4 with ⟨_, rfl, _⟩ | ⟨_, rfl, _⟩
        · have : inUp i ⟨0xC0, []⟩ = none := inUp_other (by decide) (by decide) (by decide)
          simp [this]
        · rfl
      refine h5.sends h3 hi hn2 hkr e1 e2 e3 hid hv h5.shelves ?_
      intro hp
      rcases e4 with ⟨_, _, rfl⟩ | ⟨f1, rfl, rfl⟩
      · exact absurd rfl hp
      · rcases hkw with h | h | ⟨h, _⟩
        · exact absurd h hp
        · exact absurd h f1
        · simp [h]
    cases hturn with
    | stopped _ _ hb ht => exact noPacket rfl hb ht
    | wait _ _ hb ht => exact noPacket rfl hb ht
    | drop hr hbig => exact absurd (h5.fits hr) (by omega)
    | packet hp hbuf hfit hw1 ht1 hre hmore hb ht2 =>
      rename_i st1 es3 p rest w1 w2 more
      have hmoreq : callbacks more = [] ∧ wire more = [] ∧ Spec.received more = [] := by
        rcases hmore with ⟨_, t, rfl⟩ | ⟨_, rfl⟩ <;> exact ⟨rfl, rfl, rfl⟩
      have hcb2 : callbacks (es3 ++ more) = (react w.ctx.retransmits m s p.first p.body).callbacks := by
        rw [callbacks_append, hmoreq.1, List.append_nil, hre.calls]
      rw [hcb2]
      have hw2 : wire (ka ++ (es3 ++ more)) = wire ka ++ wire es3 := by
        rw [wire_append, wire_append, hmoreq.2.1, List.append_nil]
      have hr2 : Spec.received (ka ++ (es3 ++ more)) = [] := by
        rw [received_append, received_append, hmoreq.2.2, hkr, received_of_noRecv hre.noRecv]; rfl
      obtain ⟨_, hsub⟩ := react_tells s w.ctx.retransmits m p i
      have hs' : ∀ j x, (react w.ctx.retransmits m s p.first p.body).callbacks.foldl Shelf.note shelf j = some x → ∃ m, Copy j m x :=
        fun j x hx => h5.shelves j x (hsub _ _ _ hx)
      obtain ⟨vs0, v1, v2, v3⟩ := ping_inUp hw1.2.2
      have hxs : [p] = [] ∨ ∃ q, [p] = [q] ∧ q.Valid := Or.inr ⟨p, rfl, hp⟩
      have hbuf' : w.ctx.buffered ++ r = [p].flatMap Raw.bytes ++ rest := by rw [hbuf]; simp
      have hx1 : [p].filterMap (inDown i) = (inDown i p).toList := by
        rw [List.filterMap_cons]
        cases inDown i p <;> rfl
      -- nothing, or only part of the answer, is sent
      have nosend : ∀ {closing : Bool}, readPacket (wire es3) = none → (wire es3 ≠ [] → closing = true) →
          Represents w2.ctx.tables (react w.ctx.retransmits m s p.first p.body).state →
          InReady i b n0 o0 (R ++ presented i (react w.ctx.retransmits m s p.first p.body).callbacks) w'.ctx
            { n' with isOpen := n'.isOpen && !closing } ((react w.ctx.retransmits m s p.first p.body).callbacks.foldl Shelf.note shelf) := by
        intro closing hw hcl hre2
        refine fin (by rw [ht2]; exact hre2) hb ?_
        refine h5.react (xs := [p]) (vs := vs0) (p' := wire es3) h3 hi hxs hbuf' hn2 hr2 (by rw [hw2, v1]) v2 hw hid ?_ ?_ hs' hcl
        · intro q O slot U D h
          rw [hx1] at h
          rw [v3, List.append_nil]
          exact (h.takes hi).1
        · intro q O slot U D h
          rw [hx1] at h
          exact (h.takes hi).1
      rcases hre.cases with ⟨_, hw, _, _, hre2⟩ | ⟨_, _, hw, _, _, hre2⟩ | ⟨hack, _, hpre, hne, hst1, hre2, _⟩ | ⟨ty, id, hack, _, hw, _, _, hre2⟩
      · exact nosend (by rw [hw]; rfl) (fun h => absurd hw h) hre2
      · exact nosend (by rw [hw]; rfl) (fun h => absurd hw h) hre2
      · refine nosend ?_ (fun _ => by rw [hst1]; rfl) hre2
        cases ha : (react w.ctx.retransmits m s p.first p.body).ack with
        | none => exact absurd ha hack
        | some a =>
          obtain ⟨ty, id⟩ := a
          rw [ha, ← ackWire_raw] at hpre hne
          exact (ack_small _ _).part hpre hne
      · refine fin (by rw [ht2]; exact hre2) hb ?_
        rw [hack, ← ackWire_raw] at hw
        have hup : (vs0 ++ [ackRaw (UInt8.ofNat (ackByte ty)) id.toNat]).filterMap (inUp i) = (inUp i (ackRaw (UInt8.ofNat (ackByte ty)) id.toNat)).toList := by
          rw [List.filterMap_append, v3, List.nil_append, List.filterMap_cons]
          cases inUp i (ackRaw (UInt8.ofNat (ackByte ty)) id.toNat) <;> rfl
        refine h5.react (xs := [p]) (vs := vs0 ++ [ackRaw (UInt8.ofNat (ackByte ty)) id.toNat]) (p' := []) h3 hi hxs hbuf' hn2 hr2
          (by rw [hw2, hw, v1]; simp) ?_ rfl hid ?_ ?_ hs' (fun h => absurd rfl h)
        · intro v hv
          rcases List.mem_append.mp hv with hv | hv
          · exact v2 v hv
          · rw [List.mem_singleton.mp hv]; exact ack_small _ _
        · intro q O slot U D h
          rw [hx1] at h
          rw [hup]
          exact (h.takes hi).2 ty id hack _ (Or.inr rfl)
        · intro q O slot U D h
          rw [hx1] at h
          have := (h.takes hi).2 ty id hack _ (Or.inl rfl)
          rwa [List.append_nil] at this

end

end Mqtt
