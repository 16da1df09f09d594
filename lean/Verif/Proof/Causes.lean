/-
Failures have causes: what a computation that returned a failure has seen of its environment.
-/
import Verif.Spec.Causes
import Verif.Proof.EffectsConnect
import Verif.Proof.CallFacts
import Verif.Proof.Vectors

namespace Mqtt
open Spec

/-! ### Results of pure functions -/

/-- Whatever the function returns satisfies `P`. -/
def RSat {α : Type} (r : Res α) (P : α → Prop) : Prop := ∀ a, r = .ok a → P a

section
variable {α β : Type} {P : α → Prop}

theorem RSat.ok {a : α} (h : P a) : RSat (.ok a) P := fun _ e => by cases e; exact h
theorem RSat.pure {a : α} (h : P a) : RSat (Pure.pure a) P := RSat.ok h
theorem RSat.ub {e : UB} : RSat (.ub e : Res α) P := fun _ h => by cases h

theorem RSat.bind {m : Res β} {f : β → Res α} (Q : β → Prop) (h1 : RSat m Q) (h2 : ∀ b, Q b → RSat (f b) P) : RSat (m >>= f) P := by
  intro a h
  cases m with
  | ok b => exact h2 b (h1 b rfl) a h
  | ub e => cases h

theorem RSat.any {m : Res β} {f : β → Res α} (h2 : ∀ b, RSat (f b) P) : RSat (m >>= f) P :=
  RSat.bind (fun _ => True) (fun _ _ => trivial) (fun b _ => h2 b)

theorem RSat.ite {c : Prop} [Decidable c] {a b : Res α} (h1 : RSat a P) (h2 : RSat b P) : RSat (if c then a else b) P := by
  by_cases h : c
  · rw [if_pos h]; exact h1
  · rw [if_neg h]; exact h2

end

/-- The statuses that have no cause in the environment. -/
def calmStatus : Status → Bool
  | .sendFailed | .recvFailed | .publishStoreFailed | .publishRetrieveFailed => false
  | _ => true

def Calmly {α : Type} (r : Res (Status × α)) : Prop := RSat r fun a => calmStatus a.1 = true

theorem serializeAck_calm (fb : Option FixedBuffer) (t : UInt8) (id : UInt16) : Calmly (serializeAck fb t id) := by
  unfold Calmly serializeAck
  split
  · exact RSat.ok rfl
  split
  · exact RSat.ok rfl
  exact RSat.ite (RSat.ok rfl) (RSat.ite (RSat.ok rfl) (RSat.ite (RSat.any fun _ => RSat.any fun _ => RSat.any fun _ => RSat.any fun _ => RSat.pure rfl) (RSat.ok rfl)))

theorem serializeTwoBytes_calm (b : UInt8) (fb : Option FixedBuffer) : Calmly (serializeTwoBytes b fb) := by
  unfold Calmly serializeTwoBytes
  split
  · exact RSat.ok rfl
  split
  · exact RSat.ok rfl
  exact RSat.ite (RSat.ok rfl) (RSat.any fun _ => RSat.any fun _ => RSat.pure rfl)

theorem deserializePublish_calm (W : Nat) (pk : Option PacketInfo) (id : UInt16) : Calmly (mqttDeserializePublish W pk id) := by
  unfold Calmly mqttDeserializePublish
  split
  · exact RSat.ok rfl
  refine RSat.ite (RSat.ok rfl) (RSat.ite (RSat.ok rfl) ?_)
  unfold deserializePublish
  split
  · exact RSat.ub
  split
  · exact RSat.ok rfl
  refine RSat.ite (RSat.ok rfl) (RSat.any fun _ => RSat.any fun _ => RSat.ite (RSat.pure rfl) ?_)
  refine RSat.any fun x => ?_
  obtain ⟨i, b, s⟩ := x
  exact RSat.ite (RSat.pure rfl) (RSat.pure rfl)

theorem readSubackStatusLoop_calm (l : List UInt8) (n i : Nat) (st : Status) (h : calmStatus st = true) :
    RSat (readSubackStatusLoop l n i st) fun a => calmStatus a = true := by
  induction n generalizing i st with
  | zero => exact RSat.ok h
  | succ n ih =>
    unfold readSubackStatusLoop
    refine RSat.any fun b => ?_
    have hs : calmStatus (if b = 0x00 ∨ b = 0x01 ∨ b = 0x02 then st else if b = 0x80 then .serverRefused else .badResponse) = true := by
      split
      · exact h
      · split <;> rfl
    exact RSat.ite (RSat.pure hs) (ih _ _ hs)

theorem deserializeConnack_calm (pk : PacketInfo) (sp : Bool) : Calmly (deserializeConnack pk sp) := by
  unfold Calmly deserializeConnack
  refine RSat.ite (RSat.pure rfl) (RSat.any fun b0 => RSat.ite (RSat.pure rfl) (RSat.any fun b1 => ?_))
  dsimp only
  split
  · split
    · exact RSat.ite (RSat.ite (RSat.pure rfl) (RSat.any fun _ => RSat.ite (RSat.pure rfl) (RSat.pure rfl))) (RSat.pure rfl)
    · exact RSat.ite (RSat.ite (RSat.pure rfl) (RSat.any fun _ => RSat.ite (RSat.pure rfl) (RSat.pure rfl))) (RSat.pure rfl)
  · exact RSat.ite (RSat.ite (RSat.pure rfl) (RSat.any fun _ => RSat.ite (RSat.pure rfl) (RSat.pure rfl))) (RSat.pure rfl)

theorem deserializeSuback_calm (pk : PacketInfo) (id : UInt16) : Calmly (deserializeSuback pk id) := by
  unfold Calmly deserializeSuback
  refine RSat.ite (RSat.pure rfl) (RSat.any fun hi => RSat.any fun lo => RSat.ite (RSat.pure rfl) ?_)
  split
  · exact RSat.ub
  · exact RSat.bind _ (readSubackStatusLoop_calm _ _ _ _ rfl) (fun st h => RSat.pure h)

theorem deserializeSimpleAck_calm (pk : PacketInfo) (id : UInt16) : Calmly (deserializeSimpleAck pk id) := by
  unfold Calmly deserializeSimpleAck
  exact RSat.ite (RSat.pure rfl) (RSat.any fun hi => RSat.any fun lo => RSat.ite (RSat.pure rfl) (RSat.pure rfl))

theorem deserializeAck_calm (pk : Option PacketInfo) (id : Option UInt16) (sp : Option Bool) : Calmly (mqttDeserializeAck pk id sp) := by
  unfold Calmly mqttDeserializeAck
  split
  · exact RSat.ok rfl
  refine RSat.ite (RSat.ok rfl) (RSat.ite (RSat.ok rfl) (RSat.ite (RSat.ok rfl) (RSat.ite ?_ (RSat.ite ?_ (RSat.ite (RSat.ok ?_) (RSat.ite ?_ (RSat.ok rfl)))))))
  · split
    · exact RSat.ub
    · exact RSat.bind _ (deserializeConnack_calm _ _) (fun a h => RSat.pure h)
  · split
    · exact RSat.ub
    · exact RSat.bind _ (deserializeSuback_calm _ _) (fun a h => RSat.pure h)
  · unfold deserializePingresp
    dsimp only
    split <;> rfl
  · split
    · exact RSat.ub
    · exact RSat.bind _ (deserializeSimpleAck_calm _ _) (fun a h => RSat.pure h)

theorem processRemainingLengthLoop_calm (buf : List UInt8) (index acc m d : Nat) : Calmly (processRemainingLengthLoop buf index acc m d) := by
  unfold processRemainingLengthLoop
  refine RSat.ite (RSat.ok rfl) ?_
  split
  · refine RSat.any fun b => ?_
    exact RSat.ite (RSat.ok rfl) (RSat.ite (processRemainingLengthLoop_calm _ _ _ _ _) (RSat.ok rfl))
  · exact RSat.ok rfl
termination_by index - d

theorem processHeader_calm (buf : Ptr) (index : Nat) : RSat (processIncomingPacketTypeAndLength buf index) fun h => calmStatus h.status = true := by
  unfold processIncomingPacketTypeAndLength
  split
  · exact RSat.ok rfl
  refine RSat.ite (RSat.ok rfl) (RSat.any fun t => RSat.ite ?_ (RSat.pure rfl))
  refine RSat.bind (fun a => calmStatus a.1 = true) ?_ (fun a h => RSat.pure h)
  unfold processRemainingLength
  refine RSat.bind _ (processRemainingLengthLoop_calm _ _ _ _ _) (fun a h => ?_)
  exact RSat.ite (RSat.ite (RSat.pure rfl) (RSat.pure rfl)) (RSat.pure h)

theorem addRecord_calm (recs : Records) (id : UInt16) (q : QoS) (s : PubState) : Calmly (addRecord recs id q s) := by
  unfold Calmly addRecord
  refine RSat.any fun _ => RSat.any fun _ => RSat.ite RSat.ub (RSat.any fun _ => RSat.any fun _ => RSat.any fun x => ?_)
  cases x with
  | none => exact RSat.pure rfl
  | some i => exact RSat.ite (RSat.any fun _ => RSat.pure rfl) (RSat.pure rfl)

theorem reserveState_calm (t : Tables) (id : UInt16) (q : QoS) : Calmly (reserveState t id q) := by
  unfold Calmly reserveState
  exact RSat.ite (RSat.ok rfl) (RSat.ite (RSat.ok rfl) (RSat.bind _ (addRecord_calm _ _ _ _) (fun a h => RSat.pure h)))

theorem updateStatePublish_calm (t : Tables) (i : Nat) (id : UInt16) (op : Op) (q : QoS) (a b : PubState) : Calmly (updateStatePublish t i id op q a b) := by
  unfold Calmly updateStatePublish
  refine RSat.any fun _ => RSat.any fun _ => RSat.ite ?_ (RSat.pure rfl)
  cases op with
  | receive => exact RSat.bind _ (addRecord_calm _ _ _ _) (fun a h => RSat.pure h)
  | send => exact RSat.ite (RSat.any fun _ => RSat.pure rfl) (RSat.pure rfl)

theorem updateStatePublishApi_calm (t : Tables) (id : UInt16) (op : Op) (q : QoS) : Calmly (updateStatePublishApi t id op q) := by
  unfold Calmly updateStatePublishApi
  refine RSat.ite (RSat.ok rfl) (RSat.ite (RSat.ok rfl) ?_)
  cases op with
  | receive => exact RSat.bind _ (updateStatePublish_calm _ _ _ _ _ _ _) (fun a h => RSat.pure h)
  | send =>
    refine RSat.any fun x => ?_
    cases x with
    | none => exact RSat.pure rfl
    | some x => exact RSat.ite (RSat.pure rfl) (RSat.bind _ (updateStatePublish_calm _ _ _ _ _ _ _) (fun a h => RSat.pure h))

theorem updateStateAck_calm (recs : Records) (i : Nat) (id : UInt16) (a b : PubState) : Calmly (updateStateAck recs i id a b) := by
  unfold Calmly updateStateAck
  exact RSat.ite (RSat.ite (RSat.any fun _ => RSat.ite (addRecord_calm _ _ _ _) (RSat.pure rfl)) (RSat.pure rfl)) (RSat.pure rfl)

theorem updateStateAckApi_calm (t : Tables) (id : UInt16) (p : AckType) (op : Op) : Calmly (updateStateAckApi t id p op) := by
  unfold Calmly updateStateAckApi
  refine RSat.ite (RSat.ok rfl) (RSat.any fun x => ?_)
  cases x with
  | none => exact RSat.pure rfl
  | some x => exact RSat.bind _ (updateStateAck_calm _ _ _ _ _) (fun a h => RSat.pure h)

theorem removeStateRecord_calm (t : Tables) (id : UInt16) : Calmly (removeStateRecord t id) := by
  unfold Calmly removeStateRecord
  refine RSat.ite (RSat.ok rfl) (RSat.any fun x => ?_)
  cases x with
  | none => exact RSat.pure rfl
  | some x => exact RSat.ite (RSat.pure rfl) (RSat.ite (RSat.pure rfl) (RSat.any fun _ => RSat.pure rfl))

theorem subscriptionSizeLoop_calm (W : Nat) (ty : SubType) (subs : List SubscribeInfo) (n : Nat) (st : Status) (h : calmStatus st = true) :
    calmStatus (subscriptionSizeLoop W ty subs n st).2 = true := by
  induction subs generalizing n st with
  | nil => exact h
  | cons s rest ih =>
    unfold subscriptionSizeLoop
    refine ih _ _ ?_
    split
    · rfl
    · exact h

theorem getSubscriptionPacketSize_calm (W : Nat) (ty : SubType) (subs : Option (List SubscribeInfo)) :
    calmStatus (getSubscriptionPacketSize W ty subs).status = true := by
  unfold getSubscriptionPacketSize
  split
  · rfl
  split
  · rfl
  unfold calculateSubscriptionPacketSize
  rename_i l _
  have h := subscriptionSizeLoop_calm W ty l (2 % W) .success rfl
  dsimp only
  split
  · rfl
  · split
    · rfl
    · exact h

theorem getPublishPacketSize_calm (W : Nat) (p : Option PublishInfo) : calmStatus (getPublishPacketSize W p).status = true := by
  unfold getPublishPacketSize
  split
  · rfl
  split
  · rfl
  split <;> rfl

theorem getConnectPacketSize_calm (ci : Option ConnectInfo) (will : Option PublishInfo) : calmStatus (getConnectPacketSize ci will).status = true := by
  unfold getConnectPacketSize
  split
  · rfl
  split
  · rfl
  split
  · rfl
  split
  · rfl
  · rfl

theorem updateHeaderDup_calm (h : List UInt8) (b : Bool) : calmStatus (updateHeaderDup h b).1 = true := by
  unfold updateHeaderDup
  split
  · rfl
  · unfold updateDuplicatePublishFlag
    dsimp only
    split
    · rfl
    · split <;> rfl

theorem validateSub_calm (c : Ctx) (subs : Option (List SubscribeInfo)) (id : UInt16) : calmStatus (validateSubscribeUnsubscribeParams c subs id) = true := by
  unfold validateSubscribeUnsubscribeParams
  split
  · rfl
  split
  · rfl
  split
  · rfl
  split <;> rfl

theorem validatePublish_calm (c : Ctx) (p : Option PublishInfo) (id : UInt16) : calmStatus (validatePublishParams c p id) = true := by
  unfold validatePublishParams
  split
  · rfl
  split
  · rfl
  split
  · rfl
  split <;> rfl

theorem notConnectedStatus_calm (s : ConnStatus) : calmStatus (notConnectedStatus s) = true := by
  unfold notConnectedStatus
  split <;> rfl

/-! ### What a computation that returned has seen -/

/-- If `m` returns from `w`, then `B` holds of the result, the events and the final world. -/
def Ev {α : Type} (m : M α) (w : World) (B : α → List Event → World → Prop) : Prop :=
  wp m (fun a w' => ∃ es, w'.trace = w.trace ++ es ∧ B a es w') (fun _ => True) (fun _ => True) w

section
variable {α β : Type} {w : World} {B : α → List Event → World → Prop}

theorem Ev.done {m : M α} {a : α} {w' : World} (h : Ev m w B) (hd : m w = .done a w') : ∃ es, w'.trace = w.trace ++ es ∧ B a es w' := wp_done h hd

theorem Ev.pure {a : α} (h : B a [] w) : Ev (Pure.pure a) w B := ⟨[], (List.append_nil _).symm, h⟩

theorem Ev.mono {m : M α} {B' : α → List Event → World → Prop} (h : Ev m w B) (hb : ∀ a es w', B a es w' → B' a es w') : Ev m w B' :=
  wp_mono h (fun a w' ⟨es, h1, h2⟩ => ⟨es, h1, hb a es w' h2⟩) (fun _ h => h) (fun _ h => h)

theorem Ev.bind {m : M β} {f : β → M α} (R : β → List Event → World → Prop) (h1 : Ev m w R)
    (h2 : ∀ b es w1, R b es w1 → Ev (f b) w1 (fun a es2 w2 => B a (es ++ es2) w2)) : Ev (m >>= f) w B := by
  unfold Ev
  rw [wp_bind]
  refine wp_mono h1 ?_ (fun _ h => h) (fun _ h => h)
  rintro b w1 ⟨es, h3, h4⟩
  refine wp_mono (h2 b es w1 h4) ?_ (fun _ h => h) (fun _ h => h)
  rintro a w2 ⟨es2, h5, h6⟩
  exact ⟨es ++ es2, by rw [h5, h3, List.append_assoc], h6⟩

theorem Ev.ite {c : Prop} [Decidable c] {a b : M α} (h1 : c → Ev a w B) (h2 : ¬ c → Ev b w B) : Ev (if c then a else b) w B := by
  by_cases h : c
  · rw [if_pos h]; exact h1 h
  · rw [if_neg h]; exact h2 h

theorem Ev.stuck : Ev (stuckM : M α) w B := trivial
theorem Ev.ub {e : UB} : Ev (ubM e : M α) w B := trivial

theorem Ev.liftRes {r : Res β} {f : β → M α} (h : ∀ b, r = .ok b → Ev (f b) w B) : Ev (Mqtt.liftRes r >>= f) w B := by
  cases r with
  | ok b => exact h b rfl
  | ub e => exact trivial

theorem Ev.getCtx {f : Ctx → M α} (h : Ev (f w.ctx) w B) : Ev (Mqtt.getCtx >>= f) w B := h

theorem Ev.modifyCtx {f : Ctx → Ctx} {k : Unit → M α} (h : Ev (k ()) { w with ctx := f w.ctx } B) : Ev (Mqtt.modifyCtx f >>= k) w B := h

theorem Ev.emit {e : Event} {k : Unit → M α} (h : ∀ w1 : World, w1.ctx = w.ctx → Ev (k ()) w1 (fun a es w' => B a (e :: es) w')) : Ev (emit e >>= k) w B :=
  Ev.bind (fun _ es w' => es = [e] ∧ w'.ctx = w.ctx) ⟨[e], rfl, rfl, rfl⟩ (by rintro b es w1 ⟨rfl, h2⟩; exact h w1 h2)

theorem Ev.preHook {k : Unit → M α} (h : ∀ w1 : World, w1.ctx = w.ctx → Ev (k ()) w1 (fun a es w' => B a (.pre :: es) w')) : Ev (Mqtt.preHook >>= k) w B := Ev.emit h
theorem Ev.postHook {k : Unit → M α} (h : ∀ w1 : World, w1.ctx = w.ctx → Ev (k ()) w1 (fun a es w' => B a (.post :: es) w')) : Ev (Mqtt.postHook >>= k) w B := Ev.emit h

theorem Ev.getTime {k : UInt32 → M α} (h : ∀ t (w1 : World), w1.ctx = w.ctx → Ev (k t) w1 (fun a es w' => B a (.time t :: es) w')) : Ev (Mqtt.getTime >>= k) w B := by
  refine Ev.bind (fun t es w' => es = [.time t] ∧ w'.ctx = w.ctx) ?_ ?_
  · exact wp_getTime trivial (fun t rest _ => ⟨[.time t], rfl, rfl, rfl⟩)
  · rintro t es w1 ⟨rfl, h2⟩
    exact h t w1 h2

theorem Ev.sendFuel {k : Nat → M α} (h : ∀ n, Ev (k n) w B) : Ev (Mqtt.sendFuel >>= k) w B := h _
theorem Ev.recvFuel {k : Nat → M α} (h : ∀ n, Ev (k n) w B) : Ev (Mqtt.recvFuel >>= k) w B := h _
theorem Ev.clockFuel {k : Nat → M α} (h : ∀ n, Ev (k n) w B) : Ev (Mqtt.clockFuel >>= k) w B := h _

theorem Ev.transportSend {bytes : List UInt8} {k : Option Nat → M α}
    (h : ∀ r (w1 : World), (∀ n, r = some n → n ≤ bytes.length) → w1.ctx = w.ctx → Ev (k r) w1 (fun a es w' => B a (.sent bytes r :: es) w')) :
    Ev (Mqtt.transportSend bytes >>= k) w B := by
  refine Ev.bind (fun r es w' => es = [.sent bytes r] ∧ (∀ n, r = some n → n ≤ bytes.length) ∧ w'.ctx = w.ctx) ?_ ?_
  · exact wp_transportSend trivial (fun a rest r _ h => ⟨[.sent bytes r], rfl, rfl, h, rfl⟩)
  · rintro r es w1 ⟨rfl, h2, h3⟩
    exact h r w1 h2 h3

theorem Ev.transportRecv {n : Nat} {k : Option (List UInt8) → M α}
    (h : ∀ r (w1 : World), w1.ctx = w.ctx → Ev (k r) w1 (fun a es w' => B a (.recvd n r :: es) w')) :
    Ev (Mqtt.transportRecv n >>= k) w B := by
  refine Ev.bind (fun r es w' => es = [.recvd n r] ∧ w'.ctx = w.ctx) ?_ ?_
  · exact wp_transportRecv trivial (fun rest _ => ⟨[.recvd n none], rfl, rfl, rfl⟩) (fun k rest _ => ⟨[.recvd n _], rfl, rfl, rfl⟩)
  · rintro r es w1 ⟨rfl, h2⟩
    exact h r w1 h2

end

/-! ### Sending -/

/-- Sending started at `t0` ended without success. -/
def SendGaveUp (limit t0 : UInt32) (es : List Event) : Prop :=
  sendError es ∨ ∃ bytes r b t1 c, es = .sent bytes r :: (b ++ .time t1 :: c) ∧
    (∀ x ∈ b, (∃ bytes r, x = .sent bytes r) ∨ ∃ t, x = .time t) ∧ limit ≤ t1 - t0

theorem SendGaveUp.cons {limit t0 : UInt32} {bytes : List UInt8} {r : Option Nat} {ts : List Event} {now : UInt32} {es : List Event}
    (hts : ∀ x ∈ ts, ∃ t, x = .time t) (h : SendGaveUp limit t0 es) : SendGaveUp limit t0 (.sent bytes r :: (ts ++ .time now :: es)) := by
  rcases h with ⟨b, h⟩ | ⟨bs, r', b, t1, c, rfl, h1, h2⟩
  · exact Or.inl ⟨b, by simp [h]⟩
  · refine Or.inr ⟨bytes, r, ts ++ .time now :: .sent bs r' :: b, t1, c, by simp, ?_, h2⟩
    intro x hx
    simp only [List.mem_append, List.mem_cons] at hx
    rcases hx with hx | rfl | rfl | hx
    · exact Or.inr (hts x hx)
    · exact Or.inr ⟨_, rfl⟩
    · exact Or.inl ⟨_, _, rfl⟩
    · exact h1 x hx

theorem noteSendResult_ev (r : Option Nat) (w : World) :
    Ev (noteSendResult r) w (fun _ es w' => (∀ x ∈ es, ∃ t, x = .time t) ∧ w'.ctx.bufSize = w.ctx.bufSize) := by
  unfold noteSendResult
  cases r with
  | none =>
    refine ⟨[], (List.append_nil _).symm, by simp, ?_⟩
    show Ctx.bufSize (if w.ctx.connectStatus = .connected then { w.ctx with connectStatus := .disconnectPending } else w.ctx) = _
    split <;> rfl
  | some k =>
    refine Ev.ite (fun _ => Ev.getTime fun t w1 hc => ?_) (fun _ => Ev.pure ⟨by simp, rfl⟩)
    refine ⟨[], (List.append_nil _).symm, by simp, ?_⟩
    show w1.ctx.bufSize = _
    rw [hc]

theorem sendBufferLoop_ev (g : Cfg) (t0 : UInt32) (fuel : Nat) (rest : List UInt8) (sent : Nat) (w : World) :
    Ev (sendBufferLoop g t0 fuel rest sent) w (fun r es _ => r = some (sent + rest.length) ∨ SendGaveUp g.sendTimeoutMs t0 es) := by
  induction fuel generalizing rest sent w with
  | zero => exact Ev.stuck
  | succ fuel ih =>
    unfold sendBufferLoop
    refine Ev.ite (fun hp => ?_) (fun hp => Ev.pure (Or.inl (by rw [Nat.eq_zero_of_not_pos hp, Nat.add_zero])))
    refine Ev.transportSend fun r w1 hr _ => ?_
    refine Ev.bind _ (noteSendResult_ev r w1) fun _ ts w2 ⟨hts, hb⟩ => ?_
    refine Ev.getTime fun now w3 _ => ?_
    cases r with
    | none => exact Ev.pure (Or.inr (Or.inl ⟨_, List.mem_cons_self⟩))
    | some k =>
      refine Ev.ite (fun hto => Ev.pure (Or.inr (Or.inr ⟨_, _, ts, now, [], rfl, fun x hx => Or.inr (hts x hx), hto⟩))) (fun _ => ?_)
      refine Ev.mono (ih (rest.drop k) (sent + k) w3) ?_
      rintro a es w' (rfl | h)
      · left
        have := hr k rfl
        rw [List.length_drop]
        congr 1
        omega
      · exact Or.inr (h.cons hts)

theorem sendVecLoop_ev (g : Cfg) (t0 : UInt32) (total fuel : Nat) (vecs : List (List UInt8)) (sent : Nat) (hs : sent ≤ total) (w : World) :
    Ev (sendVecLoop g t0 total fuel vecs sent) w
      (fun r es w' => (r = some total ∨ SendGaveUp g.sendTimeoutMs t0 es) ∧ w'.ctx.bufSize = w.ctx.bufSize) := by
  induction fuel generalizing vecs sent w with
  | zero => exact Ev.stuck
  | succ fuel ih =>
    unfold sendVecLoop
    refine Ev.ite (fun hp => ?_) (fun hp => Ev.pure ⟨Or.inl (by rw [show sent = total from by omega]), rfl⟩)
    refine Ev.getCtx (Ev.liftRes fun bytes _ => Ev.transportSend fun r w1 hr hc1 => Ev.liftRes fun _ hk => ?_)
    have hk' : r.all (fun k => decide (k ≤ total - sent)) = true := by
      by_cases hb : r.all (fun k => decide (k ≤ total - sent)) = true
      · exact hb
      · rw [cassert, if_neg (by simpa using hb)] at hk
        cases hk
    refine Ev.bind _ (noteSendResult_ev r w1) fun _ ts w2 ⟨hts, hb⟩ => ?_
    refine Ev.getTime fun now w3 hc3 => ?_
    have hb3 : w3.ctx.bufSize = w.ctx.bufSize := by rw [hc3, hb, hc1]
    cases r with
    | none => exact Ev.pure ⟨Or.inr (Or.inl ⟨_, List.mem_cons_self⟩), hb3⟩
    | some k =>
      have hk2 : k ≤ total - sent := by simpa using hk'
      refine Ev.ite (fun hto => Ev.pure ⟨Or.inr (Or.inr ⟨_, _, ts, now, [], rfl, fun x hx => Or.inr (hts x hx), ?_⟩), hb3⟩) (fun _ => ?_)
      · exact UInt32.le_of_lt hto
      refine Ev.mono (ih (advanceVec k vecs) (sent + k) (by omega) w3) ?_
      rintro a es w' ⟨rfl | h, hb4⟩
      · exact ⟨Or.inl rfl, hb4.trans hb3⟩
      · exact ⟨Or.inr (h.cons hts), hb4.trans hb3⟩

/-- Why a send operation failed. -/
def SendCause (g : Cfg) (es : List Event) : Prop := sendError es ∨ sendTimeout g.sendTimeoutMs es

theorem SendGaveUp.cause {g : Cfg} {t0 : UInt32} {es : List Event} (h : SendGaveUp g.sendTimeoutMs t0 es) : SendCause g (.time t0 :: es) := by
  rcases h with ⟨b, h⟩ | ⟨bs, r', b, t1, c, rfl, h1, h2⟩
  · exact Or.inl ⟨b, List.mem_cons_of_mem _ h⟩
  · exact Or.inr ⟨[], t0, bs, r', b, t1, c, rfl, h1, h2⟩

theorem SendCause.grow {g : Cfg} {es : List Event} (a b : List Event) (h : SendCause g es) : SendCause g (a ++ es ++ b) := by
  rcases h with ⟨x, h⟩ | ⟨p, t0, bs, r, m, t1, c, rfl, h1, h2⟩
  · exact Or.inl ⟨x, by simp [h]⟩
  · exact Or.inr ⟨a ++ p, t0, bs, r, m, t1, c ++ b, by simp, h1, h2⟩

theorem sendBuffer_ev (g : Cfg) (bytes : List UInt8) (w : World) :
    Ev (sendBuffer g bytes) w (fun r es _ => r = some bytes.length ∨ SendCause g es) := by
  unfold sendBuffer
  refine Ev.getTime fun t0 w1 _ => Ev.sendFuel fun n => ?_
  refine Ev.mono (sendBufferLoop_ev g t0 n bytes 0 w1) ?_
  rintro r es w' (h | h)
  · exact Or.inl (by rw [h, Nat.zero_add])
  · exact Or.inr h.cause

theorem resolveVec_length (vec : List IoVec) (vecs : List (List UInt8)) (h : resolveVec vec = .ok vecs) : vecs.flatten.length = vecLength vec :=
  (VecBytes.length ⟨vecs, h, rfl⟩).symm

theorem sendWholeVector_ev (g : Cfg) (vec : List IoVec) (w : World) :
    Ev (sendWholeVector g vec) w (fun st es w' => (st = .success ∨ st = .sendFailed ∧ SendCause g es) ∧ w'.ctx.bufSize = w.ctx.bufSize) := by
  unfold sendWholeVector
  refine Ev.bind (fun r es w' => (r = some (vecLength vec) ∨ SendCause g es) ∧ w'.ctx.bufSize = w.ctx.bufSize) ?_ ?_
  · unfold sendMessageVector
    refine Ev.liftRes fun vecs hv => Ev.ite (fun _ => Ev.ub) fun _ => Ev.getTime fun t0 w1 hc => Ev.sendFuel fun n => ?_
    refine Ev.mono (sendVecLoop_ev g t0 _ n vecs 0 (Nat.zero_le _) w1) ?_
    rintro r es w' ⟨h | h, hb⟩
    · exact ⟨Or.inl (by rw [h, resolveVec_length vec vecs hv]), by rw [hb, hc]⟩
    · exact ⟨Or.inr h.cause, by rw [hb, hc]⟩
  · rintro r es w1 ⟨h, hb⟩
    refine Ev.ite (fun hne => Ev.pure ⟨Or.inr ⟨rfl, ?_⟩, hb⟩) (fun _ => Ev.pure ⟨Or.inl rfl, hb⟩)
    rw [List.append_nil]
    exact h.resolve_left hne

/-! ### Receiving -/

/-- Why receiving failed. -/
def RecvCause (g : Cfg) (es : List Event) : Prop := recvError es ∨ recvTimeout g.recvPollingTimeoutMs es

theorem RecvCause.grow {g : Cfg} {es : List Event} (a b : List Event) (h : RecvCause g es) : RecvCause g (a ++ es ++ b) := by
  rcases h with ⟨x, h⟩ | ⟨p, t0, n, m, t1, c, rfl, h1, h2⟩
  · exact Or.inl ⟨x, by simp [h]⟩
  · exact Or.inr ⟨a ++ p, t0, n, m, t1, c ++ b, by simp, h1, h2⟩

/-- Receiving, with the last byte at time `t0`, ended without success. -/
def RecvGaveUp (g : Cfg) (t0 : UInt32) (es : List Event) : Prop :=
  RecvCause g es ∨ ∃ n b t1 c, es = .recvd n (some []) :: (b ++ .time t1 :: c) ∧
    (∀ x ∈ b, (∃ n, x = .recvd n (some [])) ∨ ∃ t, x = .time t) ∧ g.recvPollingTimeoutMs ≤ t1 - t0

theorem RecvGaveUp.cause {g : Cfg} {t0 : UInt32} {es : List Event} (h : RecvGaveUp g t0 es) : RecvCause g (.time t0 :: es) := by
  rcases h with h | ⟨n, b, t1, c, rfl, h1, h2⟩
  · simpa using h.grow [.time t0] []
  · exact Or.inr ⟨[], t0, n, b, t1, c, rfl, h1, h2⟩

theorem recvExactLoop_ev (g : Cfg) (fuel pos n : Nat) (t0 : UInt32) (w : World) :
    Ev (recvExactLoop g fuel pos n t0) w (fun r es _ => r = some (pos + n) ∨ RecvGaveUp g t0 es) := by
  induction fuel generalizing pos n t0 w with
  | zero => exact Ev.stuck
  | succ fuel ih =>
    unfold recvExactLoop
    refine Ev.ite (fun hp => ?_) (fun hp => Ev.pure (Or.inl (by rw [Nat.eq_zero_of_not_pos hp, Nat.add_zero])))
    refine Ev.bind (fun r es _ => ∃ x, es = [.recvd n x] ∧ r = x.map (·.length)) ?_ ?_
    · unfold recvInto
      refine Ev.getCtx (Ev.ite (fun _ => Ev.transportRecv fun r w1 _ => ?_) (fun _ => Ev.ub))
      cases r with
      | none => exact Ev.pure ⟨none, rfl, rfl⟩
      | some bs => exact Ev.modifyCtx (Ev.pure ⟨some bs, rfl, rfl⟩)
    rintro r es w1 ⟨x, rfl, rfl⟩
    cases x with
    | none =>
      refine Ev.bind (fun _ _ _ => True) ⟨[.pre, .post], by simp, trivial⟩ ?_
      intro _ es w2 _
      exact Ev.pure (Or.inr (Or.inl (Or.inl ⟨n, by simp⟩)))
    | some bs =>
      dsimp only [Option.map]
      refine Ev.ite (fun hk => ?_) (fun hk => ?_)
      · refine Ev.getTime fun t w2 _ => Ev.liftRes fun _ hle => ?_
        have hle' : bs.length ≤ n := by
          by_cases hb : bs.length ≤ n
          · exact hb
          · rw [cassert, if_neg (by simpa using hb)] at hle
            cases hle
        refine Ev.mono (ih _ _ t w2) ?_
        rintro r es w' (h | h)
        · exact Or.inl (by rw [h]; congr 1; omega)
        · refine Or.inr (Or.inl ?_)
          simpa using h.cause.grow [.recvd n (some bs)] []
      · have hbs : bs = [] := List.eq_nil_of_length_eq_zero (by omega)
        subst hbs
        refine Ev.getTime fun t w2 _ => Ev.ite (fun hto => Ev.pure (Or.inr (Or.inr ⟨n, [], t, [], rfl, by simp, hto⟩))) (fun _ => ?_)
        refine Ev.mono (ih _ _ t0 w2) ?_
        rintro r es w' (h | h | ⟨n', b, t1, c, rfl, h1, h2⟩)
        · exact Or.inl h
        · refine Or.inr (Or.inl ?_)
          simpa using h.grow [.recvd n (some []), .time t] []
        · refine Or.inr (Or.inr ⟨n, .time t :: .recvd n' (some []) :: b, t1, c, rfl, ?_, h2⟩)
          intro x hx
          simp only [List.mem_cons] at hx
          rcases hx with rfl | rfl | hx
          · exact Or.inr ⟨_, rfl⟩
          · exact Or.inl ⟨_, rfl⟩
          · exact h1 x hx

theorem recvExact_ev (g : Cfg) (n : Nat) (w : World) : Ev (recvExact g n) w (fun r es _ => r = some n ∨ RecvCause g es) := by
  unfold recvExact
  refine Ev.getCtx (Ev.liftRes fun _ _ => Ev.getTime fun t w1 _ => Ev.recvFuel fun k => ?_)
  refine Ev.mono (recvExactLoop_ev g k 0 n t w1) ?_
  rintro r es w' (h | h)
  · exact Or.inl (by rw [h, Nat.zero_add])
  · exact Or.inr h.cause

theorem discardStoredLoop_ev (g : Cfg) (fuel left n : Nat) (w : World) :
    Ev (discardStoredLoop g fuel left n) w (fun r es _ => r = 0 ∨ RecvCause g es) := by
  induction fuel generalizing left n w with
  | zero => exact Ev.stuck
  | succ fuel ih =>
    unfold discardStoredLoop
    refine Ev.ite (fun _ => ?_) (fun _ => Ev.pure (Or.inl rfl))
    dsimp only
    refine Ev.bind _ (recvExact_ev g _ w) fun r es w1 h => ?_
    refine Ev.ite (fun hne => Ev.pure (Or.inr ?_)) (fun _ => ?_)
    · rw [List.append_nil]; exact h.resolve_left hne
    · refine Ev.mono (ih _ _ w1) ?_
      rintro r es2 w' (h | h)
      · exact Or.inl h
      · exact Or.inr (by simpa using h.grow es [])

/-! ### Statuses and their causes -/

/-- A failure status has a cause; `X` is another cause of `MQTTRecvFailed`. -/
structure Why (g : Cfg) (X : List Event → World → Prop) (st : Status) (es : List Event) (w : World) : Prop where
  send : st = .sendFailed → SendCause g es
  recv : st = .recvFailed → RecvCause g es ∨ X es w
  store : st = .publishStoreFailed → storeDeclined es
  retrieve : st = .publishRetrieveFailed → notRetrieved es

section
variable {g : Cfg} {X : List Event → World → Prop} {st : Status} {es : List Event} {w : World}

theorem Why.calm (h : calmStatus st = true) : Why g X st es w := by
  constructor <;> (rintro rfl; cases h)

theorem Why.grow (h : Why g X st es w) (a b : List Event) {w' : World} (hx : X es w → X (a ++ es ++ b) w') : Why g X st (a ++ es ++ b) w' := by
  refine ⟨fun e => (h.send e).grow a b, fun e => (h.recv e).imp (fun k => k.grow a b) hx, fun e => ?_, fun e => ?_⟩
  · obtain ⟨i, v, k⟩ := h.store e
    exact ⟨i, v, by simp [k]⟩
  · obtain ⟨i, k⟩ := h.retrieve e
    exact ⟨i, by simp [k]⟩

/-- More events before. -/
theorem Why.later (h : Why g X st es w) (a : List Event) (hx : X es w → X (a ++ es) w) : Why g X st (a ++ es) w := by
  simpa using h.grow a [] (w' := w) (by simpa using hx)

/-- More events after. -/
theorem Why.before (h : Why g X st es w) (b : List Event) {w' : World} (hx : X es w → X (es ++ b) w') : Why g X st (es ++ b) w' := by
  simpa using h.grow [] b (w' := w') (by simpa using hx)

theorem Why.weaken {X' : List Event → World → Prop} (h : Why g X st es w) (hx : X es w → X' es w) : Why g X' st es w :=
  ⟨h.send, fun e => (h.recv e).imp_right hx, h.store, h.retrieve⟩

end

/-- No other cause. -/
def NoX : List Event → World → Prop := fun _ _ => False

/-- Continue after a part that failed or not; events before do not matter. -/
theorem Ev.why {β : Type} {m : M β} {f : β → M Status} {w : World} {g : Cfg} (R : β → List Event → World → Prop) (h1 : Ev m w R)
    (h2 : ∀ b es w1, R b es w1 → Ev (f b) w1 (Why g NoX) ∨ Ev (f b) w1 (fun st es2 w2 => Why g NoX st (es ++ es2) w2)) :
    Ev (m >>= f) w (Why g NoX) :=
  Ev.bind R h1 fun b es w1 h => (h2 b es w1 h).elim (fun h => h.mono fun _ _ _ k => k.later es (fun x => x)) (fun h => h)

end Mqtt
