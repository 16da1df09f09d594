/-
The public functions of core_mqtt.c that send on an established connection, the receive loops, and the small ones.
-/
import Verif.Proof.EffectsLoop
import Verif.Spec.Accept

namespace Mqtt
open Spec
set_option linter.unusedSimpArgs false

/-- Hooks, clock readings, send calls and the store callback. -/
def isPubEvent : Event → Bool
  | .sent .. | .time _ | .pre | .post | .store .. => true
  | _ => false

/-- What the store callback gets is the packet with the DUP flag set. -/
def StoresOk (p : PublishInfo) (id : UInt16) (es : List Event) : Prop :=
  ∀ i v ok, Event.store i v ok ∈ es → i = id ∧ p.qos ≠ .qos0 ∧ VecBytes v (publishPacket { p.toSpec id with dup := true })

theorem StoresOk.nil (p : PublishInfo) (id : UInt16) : StoresOk p id [] := fun _ _ _ h => absurd h List.not_mem_nil
theorem StoresOk.cons {p : PublishInfo} {id : UInt16} {e : Event} {es : List Event} (he : ∀ i v ok, e ≠ .store i v ok) (h : StoresOk p id es) :
    StoresOk p id (e :: es) := by
  intro i v ok hm
  rcases List.mem_cons.mp hm with h1 | h1
  · exact absurd h1.symm (he i v ok)
  · exact h i v ok h1
theorem StoresOk.of_send {p : PublishInfo} {id : UInt16} {es : List Event} (h : ∀ e ∈ es, isSendOrTime e = true) : StoresOk p id es :=
  fun _ _ _ hm => absurd (h _ hm) (by simp [isSendOrTime])
theorem StoresOk.append {p : PublishInfo} {id : UInt16} {a b : List Event} (h : StoresOk p id a) (h' : StoresOk p id b) : StoresOk p id (a ++ b) := by
  intro i v ok hm
  rcases List.mem_append.mp hm with h1 | h1
  · exact h i v ok h1
  · exact h' i v ok h1

def PubX (p : PublishInfo) (id : UInt16) (es : List Event) : Prop :=
  (∀ e ∈ es, isPubEvent e = true) ∧ wire es <+: publishPacket (p.toSpec id) ∧ StoresOk p id es

theorem PubX.nil (p : PublishInfo) (id : UInt16) : PubX p id [] := ⟨by simp, List.nil_prefix, StoresOk.nil p id⟩
theorem PubX.consPre {p : PublishInfo} {id : UInt16} {es : List Event} (h : PubX p id es) : PubX p id (.pre :: es) := by
  refine ⟨?_, by rw [wire_cons_of_noSent _ _ rfl]; exact h.2.1, h.2.2.cons (by simp)⟩
  intro x hx
  rcases List.mem_cons.mp hx with h1 | h1
  · rw [h1]; rfl
  · exact h.1 x h1
theorem SendX.pub {p : PublishInfo} {id : UInt16} {es : List Event} (h : SendX (publishPacket (p.toSpec id)) es) : PubX p id es := by
  refine ⟨fun e he => ?_, h.2, StoresOk.of_send h.1⟩
  have := h.1 e he
  cases e <;> simp_all [isSendOrTime, isPubEvent]

/-- The header array of `MQTT_Publish` with the given DUP flag. -/
def pubHeader (p : PublishInfo) (zs : List UInt8) (d : Bool) : List UInt8 :=
  UInt8.ofNat (publishFirst d p.qos.toFin p.retain) :: (varInt (pubLen p) ++ be16 p.topicNameLength.toNat ++ zs)

/-- The vectors handed to the store callback. -/
def storedVectors (p : PublishInfo) (zs : List UInt8) (id : UInt16) : List IoVec :=
  publishVectors p (pubHeader p zs true) (1 + (varInt (pubLen p)).length + 2) id

/-- Sending a PUBLISH with its copy for retransmission: outcome. -/
def PubSent (p : PublishInfo) (id : UInt16) (zs : List UInt8) (w : World) (st : Status) (es : List Event) (w' : World) : Prop :=
  (∃ t, w'.ctx = { w.ctx with lastPacketTxTime := t, connectStatus := afterFail (hasFail es) w.ctx.connectStatus }) ∧ StoresOk p id es ∧
  ((¬ (p.qos ≠ .qos0 ∧ w.ctx.retransmits = true) ∧ (∀ e ∈ es, isSendOrTime e = true) ∧ SentResult (publishPacket (p.toSpec id)) st es) ∨
   (p.qos ≠ .qos0 ∧ w.ctx.retransmits = true ∧ es = [.store id (storedVectors p zs id) false] ∧ st = .publishStoreFailed) ∨
   (p.qos ≠ .qos0 ∧ w.ctx.retransmits = true ∧ ∃ snd, es = .store id (storedVectors p zs id) true :: snd ∧
      (∀ e ∈ snd, isSendOrTime e = true) ∧ SentResult (publishPacket (p.toSpec id)) st snd))

theorem sendPublish_tr {V : Prop} (g : Cfg) (p : PublishInfo) (id : UInt16) (zs : List UInt8) (w : World) (hv : p.Valid)
    (ht : p.pTopicName ≠ none) (hpl : p.pPayload ≠ none ∨ p.payloadLength = 0) (hc : w.ctx.connectStatus = .connected) :
    Tr V true (sendPublishWithoutCopy g p (pubHeader p zs p.dup) (1 + (varInt (pubLen p)).length + 2) id)
      (fun st es h' w' => h' = true ∧ PubSent p id zs w st es w') (fun es => PubX p id es ∧ ∀ e ∈ es, e ≠ .pre ∧ e ≠ .post) w := by
  have hk : ∀ {es : List Event}, (∀ e ∈ es, isSendOrTime e = true) → ∀ e ∈ es, e ≠ .pre ∧ e ≠ .post := by
    intro es h e he
    have := h e he
    cases e <;> simp_all [isSendOrTime]
  have hst : ∀ (ok : Bool) (rest : List Bool), w.env.stores = ok :: rest →
      Fx true w [.store id (storedVectors p zs id) ok] true (afterStore w id (storedVectors p zs id) ok rest) :=
    fun ok rest _ => Fx.plain rfl rfl rfl rfl
  have hone : ∀ ok, p.qos ≠ .qos0 → StoresOk p id [.store id (storedVectors p zs id) ok] := by
    intro ok hq i v ok' hm
    cases List.mem_singleton.mp hm
    exact ⟨rfl, hq, publishVectors_bytes (id := id) (zs := zs) (dup := true) hv ht hpl⟩
  refine wp_mono (sendPublishWithoutCopy_spec g p id zs w hv ht hpl) ?_ ?_ (fun _ h => h.elim)
  · rintro st w' (⟨h1, es, hd, hs⟩ | ⟨h1, h2, ok, rest, h3, ⟨rfl, rfl, rfl⟩ | ⟨rfl, es, hd, hs⟩⟩)
    · exact ⟨es, true, hd.fx hc, rfl, hd.ctx, StoresOk.of_send hd.kinds, Or.inl ⟨h1, hd.kinds, hs⟩⟩
    · refine ⟨_, true, hst false rest h3, rfl, ⟨w.ctx.lastPacketTxTime, ?_⟩, hone _ h1, Or.inr (Or.inl ⟨h1, h2, rfl, rfl⟩)⟩
      simp [hasFail, isFail, afterFail_false, afterStore]
    · obtain ⟨t, hctx⟩ := hd.ctx
      refine ⟨_, true, (hst true rest h3).trans (hd.fx hc), rfl, ⟨t, ?_⟩, (hone _ h1).append (.of_send hd.kinds), Or.inr (Or.inr ⟨h1, h2, es, rfl, hd.kinds, hs⟩)⟩
      rw [hctx]
      simp [afterStore, hasFail, isFail]
  · rintro w' (⟨es, hd, hs⟩ | ⟨hq, rest, h3, es, hd, hs⟩)
    · exact ⟨es, true, hd.fx hc, SendX.pub ⟨hd.kinds, hs⟩, hk hd.kinds⟩
    · have hx : PubX p id es := SendX.pub ⟨hd.kinds, hs⟩
      refine ⟨_, true, (hst true rest h3).trans (hd.fx hc), ⟨?_, by rw [List.singleton_append, wire_cons_of_noSent _ _ rfl]; exact hx.2.1,
        (hone true hq).append hx.2.2⟩, ?_⟩
      · intro e he
        rcases List.mem_cons.mp he with h1 | h1
        · rw [h1]; rfl
        · exact hx.1 e h1
      · intro e he
        rcases List.mem_cons.mp he with h1 | h1
        · rw [h1]; simp
        · exact hk hd.kinds e h1

/-- The reservation succeeded (or the publish is sent again and its id is already reserved); `s1` is in flight then. -/
def Reserved (s : InFlight) (p : PublishInfo) (id : UInt16) (s1 : InFlight) : Prop :=
  (p.qos = .qos0 ∧ s1 = s) ∨
  (p.qos ≠ .qos0 ∧ ((step s (.reserve id p.qos)).1.1 = .success ∨ (step s (.reserve id p.qos)).1.1 = .stateCollision ∧ p.dup = true) ∧
    s1 = (step s (.reserve id p.qos)).2)

/-- The answer of the in-flight state to a publish that was sent. -/
def noteSent (s : InFlight) (p : PublishInfo) (id : UInt16) : Status × InFlight :=
  if p.qos = .qos0 then (.success, s) else ((step s (.publish .send id p.qos)).1.1, (step s (.publish .send id p.qos)).2)

/-- What `MQTT_Publish` did. -/
structure PublishDone (p : PublishInfo) (id : UInt16) (s : InFlight) (w : World) (st : Status) (es : List Event) (w' : World) : Prop where
  ctx : ∃ t T, w'.ctx = { w.ctx with lastPacketTxTime := t, connectStatus := afterFail (hasFail es) w.ctx.connectStatus, tables := T }
  args : es ≠ [] → PublishArgsOk w.ctx p id
  cases :
    (st = .badParameter ∧ es = [] ∧ w' = w ∧ ¬ PublishArgsOk w.ctx p id) ∨
    (w.ctx.connectStatus ≠ .connected ∧ st = notConnectedStatus w.ctx.connectStatus ∧ es = [.pre, .post] ∧ w'.ctx = w.ctx) ∨
    (w.ctx.connectStatus = .connected ∧ p.qos ≠ .qos0 ∧ st ≠ .success ∧ st = (step s (.reserve id p.qos)).1.1 ∧
      es = [.pre, .post] ∧ Represents w'.ctx.tables s ∧ ¬ (st = .stateCollision ∧ p.dup = true)) ∨
    (w.ctx.connectStatus = .connected ∧ ∃ zs s1 st0 es0 w0 w1, Reserved s p id s1 ∧ w0.ctx = { w.ctx with tables := w0.ctx.tables } ∧
      PubSent p id zs w0 st0 es0 w1 ∧ es = .pre :: (es0 ++ [.post]) ∧
      ((st0 ≠ .success ∧ st = st0 ∧ Represents w'.ctx.tables s1) ∨
       (st0 = .success ∧ st = (noteSent s1 p id).1 ∧ Represents w'.ctx.tables (noteSent s1 p id).2)))

theorem reserve_bind {α : Type} (id : UInt16) (q : QoS) (k : Status → M α) :
    ((onTables fun t => reserveState t id q) >>= k) = ((onTables fun t => stateCall t (.reserve id q)) >>= fun a => k a.1) := by
  funext w
  show M.bind _ _ w = M.bind _ _ w
  simp only [M.bind, onTables, stateCall]
  cases reserveState w.ctx.tables id q with
  | ok a => obtain ⟨a, t⟩ := a; rfl
  | ub e => rfl

theorem updatePub_bind {α : Type} (id : UInt16) (op : Op) (q : QoS) (k : Status × Option PubState → M α) :
    (updateStatePublishM id op q >>= k) = ((onTables fun t => stateCall t (.publish op id q)) >>= k) := rfl

theorem step_reserve_fail {s : InFlight} {id : UInt16} {q : QoS} (h : (step s (.reserve id q)).1.1 ≠ .success) :
    (step s (.reserve id q)).2 = s := by
  cases q with
  | qos0 => simp [step] at h
  | _ =>
    simp only [step] at h ⊢
    split
    · rfl
    · rename_i hid
      rw [if_neg hid] at h
      simp only [Table.insert] at h ⊢
      split
      · rfl
      · split
        · rfl
        · simp_all

theorem reservePublish_tr (p : PublishInfo) (id : UInt16) (w : World) (s : InFlight) (hrep : Represents w.ctx.tables s)
    (hroom : p.qos ≠ .qos0 → 1 ≤ s.outCap) {X : List Event → Prop} :
    Tr True true (reservePublish p id)
      (fun st es h' w' => h' = true ∧ es = [] ∧ w'.ctx = { w.ctx with tables := w'.ctx.tables } ∧ w'.trace = w.trace ∧
        ((st = .success ∧ ∃ s1, Reserved s p id s1 ∧ Represents w'.ctx.tables s1) ∨
         (st ≠ .success ∧ p.qos ≠ .qos0 ∧ st = (step s (.reserve id p.qos)).1.1 ∧ Represents w'.ctx.tables s ∧
          ¬ (st = .stateCollision ∧ p.dup = true)))) X w := by
  unfold reservePublish
  refine Tr.ite ?_ ?_
  · intro hq
    rw [reserve_bind]
    refine Tr.state (.reserve id p.qos) trivial ?_ ?_
    · intro s' hs'
      have := represents_unique hs' hrep
      subst this
      exact hroom hq
    · rintro ⟨st, o⟩ w' ⟨⟨t', _, rfl⟩, hall⟩
      obtain ⟨h1, h2, _⟩ := hall s hrep
      have h1' : st = (step s (.reserve id p.qos)).1.1 := congrArg Prod.fst h1
      refine Tr.ite ?_ ?_
      · rintro ⟨h3, h4⟩
        refine Tr.pure ⟨rfl, rfl, rfl, rfl, Or.inl ⟨rfl, _, Or.inr ⟨hq, Or.inr ⟨by rw [← h1']; exact h3, h4⟩, rfl⟩, h2⟩⟩
      · intro h3
        by_cases hs : st = .success
        · exact Tr.pure ⟨rfl, rfl, rfl, rfl, Or.inl ⟨hs, _, Or.inr ⟨hq, Or.inl (by rw [← h1']; exact hs), rfl⟩, h2⟩⟩
        · refine Tr.pure ⟨rfl, rfl, rfl, rfl, Or.inr ⟨hs, hq, h1', ?_, h3⟩⟩
          have := step_reserve_fail (s := s) (id := id) (q := p.qos) (by rw [← h1']; exact hs)
          rw [this] at h2
          exact h2
  · intro hq
    exact Tr.pure ⟨rfl, rfl, rfl, rfl, Or.inl ⟨rfl, s, Or.inl ⟨Classical.not_not.mp hq, rfl⟩, hrep⟩⟩

theorem notePublishSent_tr (p : PublishInfo) (id : UInt16) (w : World) (s : InFlight) (hrep : Represents w.ctx.tables s)
    {X : List Event → Prop} :
    Tr True true (notePublishSent p id)
      (fun st es h' w' => h' = true ∧ es = [] ∧ w'.ctx = { w.ctx with tables := w'.ctx.tables } ∧
        st = (noteSent s p id).1 ∧ Represents w'.ctx.tables (noteSent s p id).2) X w := by
  unfold notePublishSent noteSent
  refine Tr.ite ?_ ?_
  · intro hq
    rw [updatePub_bind]
    refine Tr.state (.publish .send id p.qos) trivial (fun _ _ => trivial) ?_
    rintro ⟨st, o⟩ w' ⟨⟨t', _, rfl⟩, hall⟩
    obtain ⟨h1, h2, _⟩ := hall s hrep
    have h1' : st = (step s (.publish .send id p.qos)).1.1 := congrArg Prod.fst h1
    rw [if_neg hq]
    exact Tr.pure ⟨rfl, rfl, rfl, h1', h2⟩
  · intro hq
    rw [if_pos (Classical.not_not.mp hq)]
    exact Tr.pure ⟨rfl, rfl, rfl, rfl, hrep⟩

theorem pubSize_bad {W : Nat} {p : PublishInfo} (h : (getPublishPacketSize W (some p)).status ≠ .success) :
    (getPublishPacketSize W (some p)).status = .badParameter := by
  unfold getPublishPacketSize at *
  simp only at *
  split
  · rfl
  · rename_i hn
    rw [if_neg hn] at h
    cases hc : calculatePublishPacketSize W p with
    | none => rfl
    | some x => rw [hc] at h; simp at h

theorem publishArgs_iff {g : Cfg} (hW : 4294967296 ≤ g.W) {p : PublishInfo} (hp : p.payloadLength < g.W) (c : Ctx) (id : UInt16) :
    PublishArgsOk c p id ↔
      (validatePublishParams c (some p) id = .success ∧ (getPublishPacketSize g.W (some p)).status = .success) := by
  have hlen : publishLength p = pubLen p := by unfold publishLength pubLen; omega
  have hsz : 1 + (varInt (publishLength p)).length + publishLength p ≤ 268435455 ↔
      pubLen p + 1 + remainingLengthEncodedSize (pubLen p) ≤ maxRemaining := by
    rw [hlen]
    unfold maxRemaining
    by_cases h : pubLen p ≤ 268435455
    · rw [varInt_length h]; omega
    · omega
  unfold validatePublishParams getPublishPacketSize
  simp only
  rw [calculatePublishPacketSize_eq hW p hp]
  constructor
  · rintro ⟨⟨a1, a2⟩, b, c1, d, e⟩
    rw [if_neg (fun h => c1 h.1 h.2), if_neg (fun h => b (by omega) h.2), if_neg (fun h => d h.2 h.1), if_pos (hsz.mp e)]
    simp [a1, a2]
  · rintro ⟨h1, h2⟩
    split at h1
    · cases h1
    · rename_i k1
      split at h1
      · cases h1
      · rename_i k2
        split at h1
        · cases h1
        · rename_i k3
          split at h2
          · cases h2
          · rename_i k4
            simp only [not_or] at k4
            by_cases hm : pubLen p + 1 + remainingLengthEncodedSize (pubLen p) ≤ maxRemaining
            · exact ⟨k4, fun h h' => k2 ⟨by omega, h'⟩, fun h h' => k1 ⟨h, h'⟩, fun h h' => k3 ⟨h', h⟩, hsz.mpr hm⟩
            · rw [if_neg hm] at h2; cases h2

theorem mqttPublish_tr (g : Cfg) (p : PublishInfo) (id : UInt16) (w : World) (s : InFlight) (hW : 4294967296 ≤ g.W) (hv : p.Valid)
    (hp : p.payloadLength < g.W) (hrep : Represents w.ctx.tables s) :
    Tr True false (mqttPublish g (some p) id) (fun st es h' w' => h' = false ∧ PublishDone p id s w st es w')
      (fun es => (PublishArgsOk w.ctx p id ∧ w.ctx.connectStatus = .connected) ∧ PubX p id es) w := by
  have bad : ¬ PublishArgsOk w.ctx p id → PublishDone p id s w .badParameter [] w := fun h =>
    ⟨⟨w.ctx.lastPacketTxTime, w.ctx.tables, by simp [hasFail, afterFail_false]⟩, fun h' => absurd rfl h', Or.inl ⟨rfl, rfl, rfl, h⟩⟩
  unfold mqttPublish
  refine Tr.getCtx ?_
  have hvs : validatePublishParams w.ctx (some p) id = .success ∨ validatePublishParams w.ctx (some p) id = .badParameter := by
    unfold validatePublishParams
    simp only
    repeat' split
    all_goals simp
  refine Tr.ite ?_ ?_
  · intro h
    rcases hvs with h' | h'
    · exact absurd h' h
    · rw [h']; exact Tr.pure ⟨rfl, bad fun ha => h ((publishArgs_iff hW hp _ _).mp ha).1⟩
  intro hval
  have hval : validatePublishParams w.ctx (some p) id = .success := Classical.not_not.mp hval
  have hnopay : ¬ (p.payloadLength > 0 ∧ p.pPayload = none) := by
    intro h
    unfold validatePublishParams at hval
    simp only [h] at hval
    split at hval <;> simp at hval
  have hcap : p.qos ≠ .qos0 → 1 ≤ s.outCap := by
    intro hq
    unfold validatePublishParams at hval
    simp only [hnopay, if_false] at hval
    rw [← hrep.1.size]
    split at hval
    · simp at hval
    · split at hval
      · simp at hval
      · rename_i h
        rcases Nat.eq_zero_or_pos w.ctx.tables.outgoing.length with h0 | h0
        · exact absurd ⟨List.eq_nil_of_length_eq_zero h0, hq⟩ h
        · exact h0
  dsimp only
  refine Tr.ite ?_ ?_
  · intro h
    rw [pubSize_bad h]
    exact Tr.pure ⟨rfl, bad fun ha => h ((publishArgs_iff hW hp _ _).mp ha).2⟩
  intro hsz
  have hsz : (getPublishPacketSize g.W (some p)).status = .success := Classical.not_not.mp hsz
  have hok : PublishArgsOk w.ctx p id := (publishArgs_iff hW hp _ _).mpr ⟨hval, hsz⟩
  obtain ⟨ht, _, hr, _, hmax⟩ := getPublishPacketSize_ok hW hp (r := (getPublishPacketSize g.W (some p)).remainingLength)
    (s := (getPublishPacketSize g.W (some p)).packetSize) (by rw [← hsz])
  rw [hr]
  have hpl : p.pPayload ≠ none ∨ p.payloadLength = 0 := by
    by_cases h : p.pPayload = none
    · right
      rcases Nat.eq_zero_or_pos p.payloadLength with h0 | h0
      · exact h0
      · exact absurd ⟨h0, h⟩ hnopay
    · exact Or.inl h
  obtain ⟨zs, hh⟩ := publishHeader_eq (p := p) (n := pubLen p) (by unfold maxRemaining at hmax; omega)
  refine Tr.liftOk hh ?_
  refine Tr.preHook ?_
  dsimp only
  -- the part between the hooks
  refine Tr.bind (R' := fun st es h' w' => h' = true ∧ PublishDone p id s w st (.pre :: (es ++ [.post])) (w'.add .post))
    (X := fun es => (PublishArgsOk w.ctx p id ∧ w.ctx.connectStatus = .connected) ∧ PubX p id (.pre :: es)) ?_ ?_
  · unfold publishLocked
    refine Tr.getCtx ?_
    refine Tr.ite ?_ ?_
    · intro hc
      refine Tr.pure ⟨rfl, ⟨w.ctx.lastPacketTxTime, w.ctx.tables, ?_⟩, fun _ => hok, Or.inr (Or.inl ⟨hc, rfl, rfl, rfl⟩)⟩
      simp [hasFail, isFail, afterFail_false, World.add]
    · intro hc
      have hc : w.ctx.connectStatus = .connected := Classical.not_not.mp hc
      refine Tr.bind (reservePublish_tr p id (w.add .pre) s hrep hcap) ?_
      rintro st es h' w1 f1 ⟨rfl, rfl, hctx1, htr1, hcase⟩
      refine Tr.ite ?_ ?_
      · intro hst
        rcases hcase with ⟨h, _⟩ | ⟨h1, h2, h3, h4⟩
        · exact absurd h hst
        · refine Tr.pure ⟨rfl, ⟨w.ctx.lastPacketTxTime, w1.ctx.tables, ?_⟩, fun _ => hok, Or.inr (Or.inr (Or.inl ⟨hc, h2, h1, h3, rfl, h4⟩))⟩
          simp only [hasFail, isFail, List.any, List.append, List.nil_append, List.cons_append, Bool.or_false, afterFail_false, World.add]
          exact hctx1
      · intro hst
        have hst : st = .success := Classical.not_not.mp hst
        have hcase : ∃ s1, Reserved s p id s1 ∧ Represents w1.ctx.tables s1 := by
          rcases hcase with ⟨_, h⟩ | ⟨h1, _⟩
          · exact h
          · exact absurd hst h1
        obtain ⟨s1, hres, hrep1⟩ := hcase
        have hc1 : w1.ctx.connectStatus = .connected := by rw [hctx1]; exact hc
        refine Tr.bind (R' := fun st es h' w' => h' = true ∧ PubSent p id zs w1 st es w')
          (Tr.mono (sendPublish_tr g p id zs w1 hv ht hpl hc1) (fun _ _ _ _ _ h => h) (fun es hes => ⟨⟨hok, hc⟩, PubX.consPre (by simpa using hes.1)⟩)) ?_
        rintro st0 es0 h' w2 f2 ⟨rfl, hps⟩
        obtain ⟨t2, hctx2⟩ := hps.1
        have hrep2 : Represents w2.ctx.tables s1 := by rw [hctx2]; exact hrep1
        have hw1 : w1.ctx = { w.ctx with tables := w1.ctx.tables } := hctx1
        have hhf : hasFail (Event.pre :: (es0 ++ [.post])) = hasFail es0 := by simp [hasFail, isFail]
        refine Tr.ite ?_ ?_
        · intro hst0
          refine Tr.pure ⟨rfl, ⟨t2, w1.ctx.tables, ?_⟩, fun _ => hok, Or.inr (Or.inr (Or.inr ⟨hc, zs, s1, st0, es0, w1, w2, hres, hw1, hps, by simp,
            Or.inl ⟨hst0, rfl, hrep2⟩⟩))⟩
          simp only [List.append_nil, List.nil_append]
          rw [hhf]
          show w2.ctx = _
          rw [hctx2, hw1]
        · intro hst0
          have hst0 : st0 = .success := Classical.not_not.mp hst0
          refine Tr.mono (notePublishSent_tr p id w2 s1 hrep2 (X := fun _ => False)) ?_ (fun _ h => h.elim)
          · rintro st3 es3 h3 w3 f3 ⟨e1, e2, e3, e4, e5⟩
            subst e2
            refine ⟨e1, ⟨t2, w3.ctx.tables, ?_⟩, fun _ => hok, Or.inr (Or.inr (Or.inr ⟨hc, zs, s1, st0, es0, w1, w2, hres, hw1, hps, by simp,
              Or.inr ⟨hst0, e4, e5⟩⟩))⟩
            simp only [List.append_nil, List.nil_append]
            rw [hhf]
            show w3.ctx = _
            rw [e3, hctx2, hw1]
  · rintro st es h' w1 f1 ⟨rfl, hd⟩
    refine Tr.postHook (Tr.pure ⟨rfl, ?_⟩)
    simpa using hd

/-- What `MQTT_Subscribe` or `MQTT_Unsubscribe` did. -/
structure SubDone (ty : SubType) (subs : List SubscribeInfo) (id : UInt16) (w : World) (st : Status) (es : List Event) (w' : World) : Prop where
  ctx : ∃ t, w'.ctx = { w.ctx with lastPacketTxTime := t, connectStatus := afterFail (hasFail es) w.ctx.connectStatus }
  kinds : ∀ e ∈ es, isAckEvent e = true
  args : st ≠ .badParameter → FiltersOk w.ctx ty subs id
  cases :
    (st = .badParameter ∧ es = [] ∧ w' = w ∧ ¬ FiltersOk w.ctx ty subs id) ∨
    (w.ctx.connectStatus ≠ .connected ∧ st = notConnectedStatus w.ctx.connectStatus ∧ es = [.pre, .post] ∧ w'.ctx = w.ctx) ∨
    (w.ctx.connectStatus = .connected ∧ subs ≠ [] ∧ (subBody ty id subs).length ≤ maxRemaining ∧
      (∀ s ∈ subs, HasBytes s.pTopicFilter s.topicFilterLength.toNat ∧ s.topicFilterLength ≠ 0) ∧
      SentResult (subPacket ty id subs) st es)

theorem SentResult.hooked {bs : List UInt8} {st : Status} {es : List Event} (h : SentResult bs st es) :
    SentResult bs st (.pre :: (es ++ [.post])) := by
  unfold SentResult
  rw [wire_hooked, hasFail_hooked]
  exact h

theorem mqttSubUnsub_tr (g : Cfg) (ty : SubType) (subs : List SubscribeInfo) (id : UInt16) (w : World) (hW : 4294967296 ≤ g.W)
    (hv : ValidSubs subs) (hmax : 3 ≤ g.subUnsubMaxVectors) (hnw : 2 + filtersLen ty subs < g.W) :
    Tr True false (mqttSubUnsub g ty (some subs) id) (fun st es h' w' => h' = false ∧ SubDone ty subs id w st es w')
      (fun es => (FiltersOk w.ctx ty subs id ∧ w.ctx.connectStatus = .connected) ∧ AckX (subPacket ty id subs) es) w := by
  have bad : ¬ FiltersOk w.ctx ty subs id → SubDone ty subs id w .badParameter [] w := fun h =>
    ⟨⟨w.ctx.lastPacketTxTime, by simp [hasFail, afterFail_false]⟩, by simp, fun h' => absurd rfl h', Or.inl ⟨rfl, rfl, rfl, h⟩⟩
  have hiff : FiltersOk w.ctx ty subs id ↔ validateSubscribeUnsubscribeParams w.ctx (some subs) id = .success ∧
      ¬ (subs = [] ∨ (∃ s ∈ subs, s.bad) ∨ 2 + filtersLen ty subs > maxRemaining) := by
    unfold validateSubscribeUnsubscribeParams
    simp only
    constructor
    · rintro ⟨a, b, c, d, e⟩
      have h1 : ¬ subs.length = 0 := fun h => a (List.eq_nil_of_length_eq_zero h)
      have h2 : ¬ (w.ctx.tables.incoming = [] ∧ subs.any (fun s => decide (s.qos ≠ .qos0)) = true) := by
        rintro ⟨h, h'⟩
        obtain ⟨x, hx, hx'⟩ := List.any_eq_true.mp h'
        exact absurd (d h x hx) (by simpa using hx')
      rw [if_neg h1, if_neg b, if_neg h2]
      refine ⟨rfl, ?_⟩
      rintro (h | ⟨x, hx, h | h⟩ | h)
      · exact a h
      · exact (c x hx).2 h
      · exact (c x hx).1 h
      · unfold maxRemaining at h; omega
    · rintro ⟨h1, h2⟩
      split at h1
      · cases h1
      · split at h1
        · cases h1
        · rename_i k2
          split at h1
          · cases h1
          · rename_i k3
            refine ⟨fun h => h2 (Or.inl h), k2, fun x hx => ⟨fun h => h2 (Or.inr (Or.inl ⟨x, hx, Or.inr h⟩)), fun h => h2 (Or.inr (Or.inl ⟨x, hx, Or.inl h⟩))⟩, ?_, ?_⟩
            · intro hi x hx
              apply Classical.byContradiction
              intro hq
              exact k3 ⟨hi, List.any_eq_true.mpr ⟨x, hx, by simpa using hq⟩⟩
            · have : ¬ 2 + filtersLen ty subs > maxRemaining := fun h => h2 (Or.inr (Or.inr h))
              unfold maxRemaining at this; omega
  unfold mqttSubUnsub
  refine Tr.getCtx ?_
  dsimp only
  have hvs : validateSubscribeUnsubscribeParams w.ctx (some subs) id = .success ∨
      validateSubscribeUnsubscribeParams w.ctx (some subs) id = .badParameter := by
    unfold validateSubscribeUnsubscribeParams
    simp only
    repeat' split
    all_goals simp
  refine Tr.ite ?_ ?_
  · intro h
    rcases hvs with h' | h'
    · exact absurd h' h
    · rw [h']; exact Tr.pure ⟨rfl, bad fun ha => h (hiff.mp ha).1⟩
  intro hval
  have hval : validateSubscribeUnsubscribeParams w.ctx (some subs) id = .success := Classical.not_not.mp hval
  rw [getSubscriptionPacketSize_eq hW, Nat.mod_eq_of_lt hnw]
  by_cases hb : subs = [] ∨ (∃ s ∈ subs, s.bad) ∨ 2 + filtersLen ty subs > maxRemaining
  · rw [if_pos hb]
    refine Tr.ite (fun _ => Tr.pure ⟨rfl, bad fun ha => (hiff.mp ha).2 hb⟩) (fun h => absurd (by decide) h)
  rw [if_neg hb]
  have hok : FiltersOk w.ctx ty subs id := hiff.mpr ⟨hval, hb⟩
  refine Tr.ite (fun h => absurd rfl h) (fun _ => ?_)
  have hne : subs ≠ [] := fun h => hb (Or.inl h)
  have hall : ∀ s ∈ subs, HasBytes s.pTopicFilter s.topicFilterLength.toNat ∧ s.topicFilterLength ≠ 0 := by
    intro s hs
    have : ¬ s.bad := fun h => hb (Or.inr (Or.inl ⟨s, hs, h⟩))
    unfold SubscribeInfo.bad at this
    exact ⟨hv s hs (fun h => this (Or.inr h)), fun h => this (Or.inl h)⟩
  have hall' := fun s hs => (hall s hs).1
  have hbl : (subBody ty id subs).length = 2 + filtersLen ty subs := by
    rw [subBody_eq, List.length_append, be16_length, filters_length hall']
  have hlen : (subBody ty id subs).length ≤ maxRemaining := by
    rw [hbl]
    exact Nat.le_of_not_lt fun h => hb (Or.inr (Or.inr h))
  refine Tr.preHook (Tr.getCtx ?_)
  dsimp only
  rw [← hbl]
  refine Tr.bind (R' := fun st es h' w' => h' = true ∧ SubDone ty subs id w st (.pre :: (es ++ [.post])) (w'.add .post)) ?_ ?_
  · refine Tr.ite ?_ ?_
    · intro hc
      refine Tr.pure ⟨rfl, ⟨w.ctx.lastPacketTxTime, ?_⟩, by simp [isAckEvent], fun _ => hok, Or.inr (Or.inl ⟨hc, rfl, rfl, rfl⟩)⟩
      simp [hasFail, isFail, afterFail_false, World.add]
    · intro hc
      have hc : w.ctx.connectStatus = .connected := Classical.not_not.mp hc
      refine Tr.mono (Tr.sends (sendFiltersWithoutCopy_spec g ty subs id (w.add .pre) hall' ?_ hne hlen) hc) ?_ (fun _ h => ⟨⟨hok, hc⟩, h.hooked⟩)
      · cases ty <;> simp only [perTopicVectors] <;> omega
      · rintro st es h' w' f ⟨h1, hd, hs⟩
        obtain ⟨t, hctx⟩ := hd.ctx
        refine ⟨h1, ⟨t, ?_⟩, ?_, fun _ => hok, Or.inr (Or.inr ⟨hc, hne, hlen, hall, hs.hooked⟩)⟩
        · rw [hasFail_hooked]
          exact hctx
        · intro e he
          simp only [List.mem_cons, List.mem_append, List.not_mem_nil, or_false] at he
          rcases he with rfl | he | rfl
          · rfl
          · exact isAckEvent_of (hd.kinds e he)
          · rfl
  · rintro st es h' w1 f1 ⟨rfl, hd⟩
    refine Tr.postHook (Tr.pure ⟨rfl, ?_⟩)
    simpa using hd

/-! ### The loops -/

theorem mqttReceiveLoop_tr (g : Cfg) (w : World) (s : InFlight) (hW : maxRemaining < g.W) (hrep : Represents w.ctx.tables s) :
    Tr True false (mqttReceiveLoop g) (fun st es h' w' => h' = false ∧ Iterated g false s w st es w') (IterX false s w.ctx) w :=
  receiveSingleIteration_tr g false w s hW hrep

/-- `MQTT_ProcessLoop` starts by forgetting whether an acknowledgement was sent. -/
def World.fresh (w : World) : World := { w with ctx := { w.ctx with controlPacketSent := false } }

theorem mqttProcessLoop_tr (g : Cfg) (w : World) (s : InFlight) (hW : maxRemaining < g.W) (hrep : Represents w.ctx.tables s) :
    Tr True false (mqttProcessLoop g) (fun st es h' w' => h' = false ∧ Iterated g true s w.fresh st es w') (IterX true s w.ctx) w := by
  unfold mqttProcessLoop
  refine Tr.modifyCtx rfl rfl rfl rfl rfl rfl (fun h => h) rfl ?_
  exact receiveSingleIteration_tr g true w.fresh s hW hrep

/-! ### The small functions -/

/-- `MQTT_CancelCallback` never blocks: its exact outcome. -/
theorem mqttCancelCallback_eq (id : UInt16) (w : World) (s : InFlight) (hid : id ≠ 0) (hrep : Represents w.ctx.tables s) :
    if s.outCap = 0 then mqttCancelCallback id w = .done .badParameter w
    else ∃ T, mqttCancelCallback id w = .done (step s (.cancel id)).1.1
        { ctx := { w.ctx with tables := T }, env := w.env, trace := w.trace ++ [.pre, .post] } ∧
      Represents T (step s (.cancel id)).2 := by
  have hcap : w.ctx.tables.outgoing = [] ↔ s.outCap = 0 := by
    rw [← hrep.1.size]; exact List.length_eq_zero_iff.symm
  split
  · rename_i h
    show (if w.ctx.tables.outgoing = [] then _ else _ : M Status) w = _
    rw [if_pos (hcap.mpr h)]
    rfl
  · rename_i h
    obtain ⟨T, h1, h2, _⟩ := stateCall_refines' hrep (.cancel id) trivial (by simpa using hid)
    refine ⟨T, ?_, h2⟩
    show (if w.ctx.tables.outgoing = [] then _ else _ : M Status) w = _
    rw [if_neg (fun h' => h (hcap.mp h'))]
    simp only [stateCall] at h1
    obtain ⟨⟨st, T'⟩, h3, h4⟩ := Res.bind_eq_ok.mp h1
    simp only [Res.pure_eq, Res.ok.injEq, Prod.mk.injEq] at h4
    obtain ⟨h4, rfl⟩ := h4
    rw [← h4]
    show M.bind preHook _ w = _
    simp only [M.bind, preHook, emit]
    show M.bind (onTables _) _ _ = _
    simp only [M.bind, onTables, h3]
    show M.bind postHook _ _ = _
    simp [M.bind, postHook, emit]
    rfl

theorem mqttCheckConnectStatus_eq (w : World) :
    mqttCheckConnectStatus w = .done (connectStatusCode w.ctx.connectStatus) { w with trace := w.trace ++ [.pre, .post] } := by
  unfold mqttCheckConnectStatus
  simp [bind, M.bind, preHook, postHook, emit, Mqtt.getCtx, Pure.pure, M.pure]

theorem mqttGetPacketId_eq (w : World) :
    mqttGetPacketId w = .done (getPacketId w.ctx.nextPacketId).1
      { w with ctx := { w.ctx with nextPacketId := (getPacketId w.ctx.nextPacketId).2 }, trace := w.trace ++ [.pre, .post] } := by
  unfold mqttGetPacketId
  simp [bind, M.bind, preHook, postHook, emit, Mqtt.getCtx, Pure.pure, M.pure, Mqtt.modifyCtx]

end Mqtt
