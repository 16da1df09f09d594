/-
The next packet id matters to `MQTT_GetPacketId` alone, the time of the last reception to `MQTT_ProcessLoop` alone, and the flag
`controlPacketSent` to nothing, and what happened before has none on
what happens next: a simulation through every function of core_mqtt.c.
-/
import Verif.Spec.Fresh

namespace Mqtt.Fresh
open Spec

/-- The context with another next packet id, another time of the last reception and another flag. -/
abbrev withId (c : Ctx) (id : UInt16) (rx : UInt32) (b : Bool) : Ctx :=
  { c with nextPacketId := id, lastPacketRxTime := rx, controlPacketSent := b }

/-- `c'` is `c` but for the next packet id (the same if `k`), the time of the last reception (the same if `r`) and the flag. -/
def OtherCtx (k ρ : Bool) (c c' : Ctx) : Prop :=
  ∃ id rx b, c' = withId c id rx b ∧ (k = true → id = c.nextPacketId) ∧ (ρ = true → rx = c.lastPacketRxTime)

/-- The worlds differ in these and in what happened before. -/
structure Other (a a' : List Event) (k ρ : Bool) (w w' : World) : Prop where
  ctx : OtherCtx k ρ w.ctx w'.ctx
  env : w'.env = w.env
  trace : ∃ es, w.trace = a ++ es ∧ w'.trace = a' ++ es

/-- Runs of `m` and `m'` from such worlds end alike, with results related by `R`. -/
def RelOut (a a' : List Event) (k ρ : Bool) {α β : Type} (R : α → β → Prop) : Out α → Out β → Prop
  | .done x w, .done x' w' => R x x' ∧ Other a a' k ρ w w'
  | .stuck w, .stuck w' => Other a a' k ρ w w'
  | .ub e w, .ub e' w' => e' = e ∧ Other a a' k ρ w w'
  | _, _ => False

def Sim (a a' : List Event) (k ρ : Bool) {α β : Type} (R : α → β → Prop) (m : M α) (m' : M β) : Prop :=
  ∀ w w', Other a a' k ρ w w' → RelOut a a' k ρ R (m w) (m' w')

/-- Equal results. -/
def SameRes {α : Type} (x x' : α) : Prop := x' = x

/-- The same with equal results. -/
abbrev SimE (a a' : List Event) (k ρ : Bool) {α : Type} (m m' : M α) : Prop := Sim a a' k ρ SameRes m m'

theorem Other.grow {a a' : List Event} {k ρ : Bool} {w w' : World} (h : Other a a' k ρ w w') (env : Env) (e : Event) :
    Other a a' k ρ { w with env := env, trace := w.trace ++ [e] } { w' with env := env, trace := w'.trace ++ [e] } := by
  obtain ⟨es, h1, h2⟩ := h.trace
  exact ⟨h.ctx, rfl, es ++ [e], by simp [h1], by simp [h2]⟩

section
variable {τ τ' : List Event} {k ρ : Bool} {α β γ ε : Type}

theorem sim_bind {R : α → β → Prop} {S : γ → ε → Prop} {m : M α} {m' : M β} {f : α → M γ} {f' : β → M ε}
    (hm : Sim τ τ' k ρ R m m') (hf : ∀ a a', R a a' → Sim τ τ' k ρ S (f a) (f' a')) : Sim τ τ' k ρ S (m >>= f) (m' >>= f') := by
  intro w w' h
  have h1 := hm w w' h
  show RelOut τ τ' k ρ S (M.bind m f w) (M.bind m' f' w')
  unfold M.bind
  cases he : m w <;> cases he' : m' w' <;> rw [he, he'] at h1 <;> simp only [RelOut] at h1
  · exact hf _ _ h1.1 _ _ h1.2
  · exact h1
  · exact h1

theorem simE_bind {S : γ → ε → Prop} {m m' : M α} {f : α → M γ} {f' : α → M ε}
    (hm : SimE τ τ' k ρ m m') (hf : ∀ a, Sim τ τ' k ρ S (f a) (f' a)) : Sim τ τ' k ρ S (m >>= f) (m' >>= f') :=
  sim_bind hm fun a a' h => by subst h; exact hf _

theorem simE_pure (a : α) : SimE τ τ' k ρ (pure a) (pure a) := fun _ _ h => ⟨rfl, h⟩
theorem simE_stuck : SimE τ τ' k ρ (stuckM : M α) stuckM := fun _ _ h => h
theorem simE_ub (e : UB) : SimE τ τ' k ρ (ubM e : M α) (ubM e) := fun _ _ h => ⟨rfl, h⟩
theorem simE_lift (r : Res α) : SimE τ τ' k ρ (liftRes r) (liftRes r) := fun w w' h => by
  unfold liftRes; cases r
  · exact ⟨rfl, h⟩
  · exact ⟨rfl, h⟩

theorem sim_getCtx : Sim τ τ' k ρ (OtherCtx k ρ) getCtx getCtx := fun _ _ h => ⟨h.ctx, h⟩

/-- Reading the context: what follows sees it with another id and flag. -/
theorem sim_ctx {S : γ → ε → Prop} {f : Ctx → M γ} {f' : Ctx → M ε}
    (hf : ∀ c id rx b, (k = true → id = c.nextPacketId) ∧ (ρ = true → rx = c.lastPacketRxTime) →
      Sim τ τ' k ρ S (f c) (f' (withId c id rx b))) :
    Sim τ τ' k ρ S (getCtx >>= f) (getCtx >>= f') :=
  sim_bind sim_getCtx fun c c' h => by
    obtain ⟨id, rx, b, rfl, h⟩ := h
    exact hf c id rx b h

theorem sim_modify {f f' : Ctx → Ctx} (hf : ∀ c c', OtherCtx k ρ c c' → OtherCtx k ρ (f c) (f' c')) :
    SimE τ τ' k ρ (modifyCtx f) (modifyCtx f') := fun _ _ h => ⟨rfl, hf _ _ h.ctx, h.env, h.trace⟩

/-- A change of the context that concerns neither the id nor the time. -/
theorem sim_modify_plain {f : Ctx → Ctx} (hf : ∀ c id rx b, ∃ b', f (withId c id rx b) = withId (f c) id rx b')
    (h1 : ∀ c, (f c).nextPacketId = c.nextPacketId) (h2 : ∀ c, (f c).lastPacketRxTime = c.lastPacketRxTime) : SimE τ τ' k ρ (modifyCtx f) (modifyCtx f) :=
  sim_modify fun c c' h => by
    obtain ⟨id, rx, b, rfl, h⟩ := h
    obtain ⟨b', hb⟩ := hf c id rx b
    exact ⟨id, rx, b', hb, by rw [h1]; exact h.1, by rw [h2]; exact h.2⟩

theorem sim_emit (e : Event) : SimE τ τ' k ρ (emit e) (emit e) := fun w w' h => by
  refine ⟨rfl, ?_⟩
  have := h.grow w.env e
  simp only [← h.env] at this
  exact ⟨h.ctx, h.env, this.trace⟩

theorem sim_pre : SimE τ τ' k ρ preHook preHook := sim_emit _
theorem sim_post : SimE τ τ' k ρ postHook postHook := sim_emit _
theorem sim_clear (id : UInt16) : SimE τ τ' k ρ (clearCallback id) (clearCallback id) := sim_emit _
theorem sim_app (pk : PacketInfo) (id : UInt16) (r : Status) (p : Option PublishInfo) :
    SimE τ τ' k ρ (appCallback pk id r p) (appCallback pk id r p) := sim_emit _

theorem sim_getTime : SimE τ τ' k ρ getTime getTime := fun w w' h => by
  unfold getTime
  rw [h.env]
  cases hc : w.env.clock with
  | nil => exact h
  | cons t r => exact ⟨rfl, h.grow _ _⟩

theorem sim_time {S : γ → ε → Prop} {f : UInt32 → M γ} {f' : UInt32 → M ε} (hf : ∀ t, Sim τ τ' k ρ S (f t) (f' t)) :
    Sim τ τ' k ρ S (getTime >>= f) (getTime >>= f') :=
  simE_bind sim_getTime hf

theorem sim_send (bs : List UInt8) : SimE τ τ' k ρ (transportSend bs) (transportSend bs) := fun w w' h => by
  unfold transportSend
  rw [h.env]
  cases w.env.sends with
  | nil => exact h
  | cons a r => cases a with
    | fail => exact ⟨rfl, h.grow _ _⟩
    | accept n => exact ⟨rfl, h.grow _ _⟩

theorem sim_recv (n : Nat) : SimE τ τ' k ρ (transportRecv n) (transportRecv n) := fun w w' h => by
  unfold transportRecv
  rw [h.env]
  cases w.env.recvs with
  | nil => exact h
  | cons a r => cases a with
    | fail => exact ⟨rfl, h.grow _ _⟩
    | deliver m => exact ⟨rfl, h.grow _ _⟩

theorem sim_store (id : UInt16) (v : List IoVec) : SimE τ τ' k ρ (storeCallback id v) (storeCallback id v) := fun w w' h => by
  unfold storeCallback
  rw [h.env]
  cases w.env.stores with
  | nil => exact h
  | cons a r => exact ⟨rfl, h.grow _ _⟩

theorem sim_retrieve (id : UInt16) : SimE τ τ' k ρ (retrieveCallback id) (retrieveCallback id) := fun w w' h => by
  unfold retrieveCallback
  rw [h.env]
  cases w.env.retrieves with
  | nil => exact h
  | cons a r => exact ⟨rfl, h.grow _ _⟩

theorem sim_sendFuel : SimE τ τ' k ρ sendFuel sendFuel := fun w w' h => ⟨by rw [h.env]; rfl, h⟩
theorem sim_recvFuel : SimE τ τ' k ρ recvFuel recvFuel := fun w w' h => ⟨by rw [h.env]; rfl, h⟩
theorem sim_clockFuel : SimE τ τ' k ρ clockFuel clockFuel := fun w w' h => ⟨by rw [h.env]; rfl, h⟩

theorem sim_tables (f : Tables → Res (α × Tables)) : SimE τ τ' k ρ (onTables f) (onTables f) := fun w w' h => by
  obtain ⟨id, rx, b, hc, hk⟩ := h.ctx
  unfold onTables
  have ht : w'.ctx.tables = w.ctx.tables := by rw [hc]
  rw [ht]
  cases f w.ctx.tables with
  | ok a => exact ⟨rfl, ⟨id, rx, b, by rw [hc], hk⟩, h.env, h.trace⟩
  | ub e => exact ⟨rfl, h⟩

theorem sim_ite {R : α → β → Prop} {c c' : Prop} {d : Decidable c} {d' : Decidable c'} {a b : M α} {a' b' : M β} (hc : c = c')
    (ha : c → Sim τ τ' k ρ R a a') (hb : ¬ c → Sim τ τ' k ρ R b b') :
    Sim τ τ' k ρ R (@ite _ c d a b) (@ite _ c' d' a' b') := by
  subst hc
  by_cases h : c
  · rw [if_pos h, if_pos h]; exact ha h
  · rw [if_neg h, if_neg h]; exact hb h

theorem sim_markPending : SimE τ τ' k ρ markPending markPending := by
  refine sim_modify_plain ?_ ?_ ?_ <;> intro c
  · intro id rx b
    refine ⟨b, ?_⟩
    show (if c.connectStatus = _ then _ else _) = _
    split <;> simp_all [withId]
  all_goals (by_cases h : c.connectStatus = .connected <;> simp [h])

syntax "simf" "[" term,* "]" : tactic
macro_rules
  | `(tactic| simf [$[$ts],*]) => `(tactic|
      repeat' (first
        | (with_reducible first
          | (first $[| exact $ts]*)
          | exact simE_pure _ | exact simE_stuck | exact simE_ub _ | exact simE_lift _ | exact sim_pre | exact sim_post
          | exact sim_clear _ | exact sim_app .. | exact sim_store .. | exact sim_retrieve _ | exact sim_send _ | exact sim_recv _
          | exact sim_tables _ | exact sim_sendFuel | exact sim_recvFuel | exact sim_clockFuel | exact sim_markPending
          | (intro _) | refine sim_ite (by with_reducible rfl) ?_ ?_ | apply sim_ctx | apply sim_time
          | apply simE_bind)
        | refine sim_ite rfl ?_ ?_ | exact simE_lift _ | exact simE_pure _ | (first $[| exact $ts]*)
        | (with_reducible split)))

theorem sim_noteSend (r : Option Nat) : SimE τ τ' k ρ (noteSendResult r) (noteSendResult r) := by
  unfold noteSendResult
  cases r with
  | none => exact sim_markPending
  | some n =>
    dsimp only
    simf [simE_pure _]
    refine sim_modify_plain ?_ ?_ ?_ <;> intros <;> first | exact ⟨_, rfl⟩ | rfl

theorem sim_sendBufferLoop (g : Cfg) (t0 : UInt32) : ∀ n rest sent,
    SimE τ τ' k ρ (sendBufferLoop g t0 n rest sent) (sendBufferLoop g t0 n rest sent)
  | 0, _, _ => simE_stuck
  | n + 1, rest, sent => by
    unfold sendBufferLoop
    simf [sim_noteSend _, sim_sendBufferLoop g t0 n _ _]

theorem sim_sendBuffer (g : Cfg) (bs : List UInt8) : SimE τ τ' k ρ (sendBuffer g bs) (sendBuffer g bs) := by
  unfold sendBuffer
  simf [sim_sendBufferLoop g _ _ _ _]

theorem sim_sendVecLoop (g : Cfg) (t0 : UInt32) (b : Nat) : ∀ n vecs sent,
    SimE τ τ' k ρ (sendVecLoop g t0 b n vecs sent) (sendVecLoop g t0 b n vecs sent)
  | 0, _, _ => simE_stuck
  | n + 1, vecs, sent => by
    unfold sendVecLoop
    simf [sim_noteSend _, sim_sendVecLoop g t0 b n _ _]

theorem sim_sendMessageVector (g : Cfg) (v : List IoVec) : SimE τ τ' k ρ (sendMessageVector g v) (sendMessageVector g v) := by
  unfold sendMessageVector
  simf [sim_sendVecLoop g _ _ _ _ _]

theorem sim_sendWholeVector (g : Cfg) (v : List IoVec) : SimE τ τ' k ρ (sendWholeVector g v) (sendWholeVector g v) := by
  unfold sendWholeVector
  simf [sim_sendMessageVector g v]

theorem sim_sendFiltersLoop (g : Cfg) (ty : SubType) : ∀ n vec subs,
    SimE τ τ' k ρ (sendFiltersLoop g ty n vec subs) (sendFiltersLoop g ty n vec subs)
  | 0, _, _ => simE_stuck
  | n + 1, vec, subs => by
    unfold sendFiltersLoop
    simf [sim_sendWholeVector g _, sim_sendFiltersLoop g ty n _ _]

theorem sim_sendFilters (g : Cfg) (ty : SubType) (subs : List SubscribeInfo) (id : UInt16) (n : Nat) :
    SimE τ τ' k ρ (sendFiltersWithoutCopy g ty subs id n) (sendFiltersWithoutCopy g ty subs id n) := by
  unfold sendFiltersWithoutCopy
  simf [sim_sendFiltersLoop g ty _ _ _]

theorem sim_storePublish (p : PublishInfo) (hd : List UInt8) (n : Nat) (id : UInt16) :
    SimE τ τ' k ρ (storePublish p hd n id) (storePublish p hd n id) := by
  unfold storePublish
  simf [simE_pure _]

theorem sim_sendPublish (g : Cfg) (p : PublishInfo) (hd : List UInt8) (n : Nat) (id : UInt16) :
    SimE τ τ' k ρ (sendPublishWithoutCopy g p hd n id) (sendPublishWithoutCopy g p hd n id) := by
  unfold sendPublishWithoutCopy
  simf [sim_storePublish p hd n id, sim_sendWholeVector g _]

theorem sim_sendConnect (g : Cfg) (ci : ConnectInfo) (will : Option PublishInfo) (n : Nat) :
    SimE τ τ' k ρ (sendConnectWithoutCopy g ci will n) (sendConnectWithoutCopy g ci will n) := by
  unfold sendConnectWithoutCopy
  simf [sim_sendWholeVector g _]

theorem sim_sendIfConnected (g : Cfg) (bs : List UInt8) : SimE τ τ' k ρ (sendIfConnected g bs) (sendIfConnected g bs) := by
  unfold sendIfConnected
  simf [sim_sendBuffer g bs]

theorem sim_ackM (id : UInt16) (a : AckType) (op : Op) : SimE τ τ' k ρ (updateStateAckM id a op) (updateStateAckM id a op) := sim_tables _
theorem sim_pubM (id : UInt16) (op : Op) (q : QoS) : SimE τ τ' k ρ (updateStatePublishM id op q) (updateStatePublishM id op q) := sim_tables _

theorem sim_sendPublishAcks (g : Cfg) (id : UInt16) (s : PubState) : SimE τ τ' k ρ (sendPublishAcks g id s) (sendPublishAcks g id s) := by
  unfold sendPublishAcks
  simf [sim_sendIfConnected g _, sim_ackM ..]
  refine sim_modify_plain ?_ ?_ ?_ <;> intros <;> first | exact ⟨_, rfl⟩ | rfl

theorem sim_ping (g : Cfg) : SimE τ τ' k ρ (mqttPing g) (mqttPing g) := by
  unfold mqttPing
  simf [sim_sendIfConnected g _]
  refine sim_modify_plain ?_ ?_ ?_ <;> intros <;> first | exact ⟨_, rfl⟩ | rfl

theorem sim_recvInto (pos n : Nat) : SimE τ τ' k ρ (recvInto pos n) (recvInto pos n) := by
  unfold recvInto
  simf [simE_pure _]
  refine sim_modify_plain ?_ ?_ ?_ <;> intros <;> first | exact ⟨_, rfl⟩ | rfl

theorem sim_markHooked : SimE τ τ' k ρ markPendingHooked markPendingHooked := by
  unfold markPendingHooked
  simf [sim_pre]

theorem sim_recvExactLoop (g : Cfg) : ∀ n pos m (t : UInt32),
    SimE τ τ' k ρ (recvExactLoop g n pos m t) (recvExactLoop g n pos m t)
  | 0, _, _, _ => simE_stuck
  | n + 1, pos, m, t => by
    unfold recvExactLoop
    simf [sim_recvInto _ _, sim_markHooked, sim_recvExactLoop g n _ _ _]

theorem sim_recvExact (g : Cfg) (n : Nat) : SimE τ τ' k ρ (recvExact g n) (recvExact g n) := by
  unfold recvExact
  simf [sim_recvExactLoop g _ _ _ _]

theorem sim_discardLoop (g : Cfg) (T t0 : UInt32) : ∀ n left b,
    SimE τ τ' k ρ (discardLoop g T t0 n left b) (discardLoop g T t0 n left b)
  | 0, _, _ => simE_stuck
  | n + 1, left, b => by
    unfold discardLoop
    simf [sim_recvExact g _, sim_discardLoop g T t0 n _ _]

theorem sim_discardPacket (g : Cfg) (n : Nat) (T : UInt32) : SimE τ τ' k ρ (discardPacket g n T) (discardPacket g n T) := by
  unfold discardPacket
  simf [sim_discardLoop g _ _ _ _ _]

theorem sim_discardStoredLoop (g : Cfg) : ∀ n left b, SimE τ τ' k ρ (discardStoredLoop g n left b) (discardStoredLoop g n left b)
  | 0, _, _ => simE_stuck
  | n + 1, left, b => by
    unfold discardStoredLoop
    simf [sim_recvExact g _, sim_discardStoredLoop g n _ _]

theorem sim_resetBuffer : SimE τ τ' k ρ resetBuffer resetBuffer := by
  refine sim_modify_plain ?_ ?_ ?_ <;> intros <;> first | exact ⟨_, rfl⟩ | rfl

theorem sim_discardStored (g : Cfg) (n : Nat) : SimE τ τ' k ρ (discardStoredPacket g n) (discardStoredPacket g n) := by
  unfold discardStoredPacket
  simf [sim_discardStoredLoop g _ _ _, sim_resetBuffer]

theorem sim_receivePacket (g : Cfg) (n : Nat) (T : UInt32) : SimE τ τ' k ρ (receivePacket g n T) (receivePacket g n T) := by
  unfold receivePacket
  simf [sim_discardPacket g _ _, sim_recvExact g _]

/-- Keep-alive looks at the time of the last reception. -/
theorem sim_handleKeepAlive (g : Cfg) (hr : ρ = true) : SimE τ τ' k ρ (handleKeepAlive g) (handleKeepAlive g) := by
  unfold handleKeepAlive
  refine sim_time fun t => sim_ctx fun c id rx b h => ?_
  dsimp only
  refine sim_ite rfl (fun hw => ?_) fun hw => ?_
  · simf [simE_pure _]
  · refine simE_bind sim_pre fun _ => sim_ctx fun c id rx b h => simE_bind sim_post fun _ => ?_
    have := h.2 hr
    subst this
    dsimp only
    simf [sim_ping g]

theorem sim_recordIncoming (id : UInt16) (q : QoS) : SimE τ τ' k ρ (recordIncomingPublish id q) (recordIncomingPublish id q) := by
  unfold recordIncomingPublish
  simf [sim_pubM ..]

theorem sim_handleIncomingPublish (g : Cfg) (pk : PacketInfo) : SimE τ τ' k ρ (handleIncomingPublish g pk) (handleIncomingPublish g pk) := by
  unfold handleIncomingPublish
  simf [sim_recordIncoming .., sim_sendPublishAcks g _ _]

theorem sim_handlePublishAcks (g : Cfg) (pk : PacketInfo) : SimE τ τ' k ρ (handlePublishAcks g pk) (handlePublishAcks g pk) := by
  unfold handlePublishAcks
  simf [sim_ackM .., sim_sendPublishAcks g _ _]

theorem sim_handleIncomingAck (g : Cfg) (pk : PacketInfo) (b : Bool) : SimE τ τ' k ρ (handleIncomingAck g pk b) (handleIncomingAck g pk b) := by
  unfold handleIncomingAck
  simf [sim_handlePublishAcks g pk]
  refine sim_modify_plain ?_ ?_ ?_ <;> intros <;> first | exact ⟨_, rfl⟩ | rfl

theorem sim_receiveHeader : SimE τ τ' k ρ receiveHeader receiveHeader := by
  unfold receiveHeader
  simf [sim_recvInto _ _, sim_markHooked]
  refine sim_modify_plain ?_ ?_ ?_ <;> intros <;> first | exact ⟨_, rfl⟩ | rfl

theorem sim_keepAliveCheck (g : Cfg) (n : Option Nat) (b : Bool) (st : Status) (hb : b = true → ρ = true) :
    SimE τ τ' k ρ (keepAliveCheck g n b st) (keepAliveCheck g n b st) := by
  unfold keepAliveCheck
  refine sim_ite rfl (fun h => ?_) fun _ => simE_pure _
  simf [sim_handleKeepAlive g (hb h.2)]

theorem sim_checkComplete (g : Cfg) (st : Status) (n : Nat) : SimE τ τ' k ρ (checkComplete g st n) (checkComplete g st n) := by
  unfold checkComplete
  simf [sim_discardStored g _]

theorem sim_handlePacket (g : Cfg) (b : Bool) (h : HeaderRes) : SimE τ τ' k ρ (handlePacket g b h) (handlePacket g b h) := by
  unfold handlePacket
  simf [sim_handleIncomingPublish g _, sim_handleIncomingAck g _ _]
  · refine sim_modify_plain ?_ ?_ ?_ <;> intros <;> first | exact ⟨_, rfl⟩ | rfl
  · refine sim_modify fun c c' h => ?_
    obtain ⟨id, rx, b, rfl, h⟩ := h
    exact ⟨id, _, b, rfl, h.1, fun _ => rfl⟩

theorem sim_iteration (g : Cfg) (b : Bool) (hb : b = true → ρ = true) :
    SimE τ τ' k ρ (receiveSingleIteration g b) (receiveSingleIteration g b) := by
  unfold receiveSingleIteration
  simf [sim_receiveHeader, sim_keepAliveCheck g _ _ _ hb, sim_checkComplete g _ _, sim_handlePacket g _ _]

theorem sim_processLoop (g : Cfg) (hr : ρ = true) : SimE τ τ' k ρ (mqttProcessLoop g) (mqttProcessLoop g) := by
  unfold mqttProcessLoop
  simf [sim_iteration g _ (fun _ => hr)]
  refine sim_modify_plain ?_ ?_ ?_ <;> intros <;> first | exact ⟨_, rfl⟩ | rfl

theorem sim_recvOne : SimE τ τ' k ρ recvOne recvOne := by
  unfold recvOne
  simf [simE_pure _]

theorem sim_remainingLoop : ∀ n a b c, SimE τ τ' k ρ (getRemainingLengthLoopM n a b c) (getRemainingLengthLoopM n a b c)
  | 0, _, _, _ => simE_stuck
  | n + 1, a, b, c => by
    unfold getRemainingLengthLoopM
    simf [sim_recvOne, sim_remainingLoop n _ _ _]

theorem sim_remaining : SimE τ τ' k ρ getRemainingLengthM getRemainingLengthM := by
  unfold getRemainingLengthM
  simf [sim_remainingLoop ..]

theorem sim_typeAndLength : SimE τ τ' k ρ getIncomingPacketTypeAndLengthM getIncomingPacketTypeAndLengthM := by
  unfold getIncomingPacketTypeAndLengthM
  simf [sim_recvOne, sim_remaining]

theorem sim_connackBreak (g : Cfg) (T t0 : UInt32) (n : Nat) : SimE τ τ' k ρ (connackBreak g T t0 n) (connackBreak g T t0 n) := by
  unfold connackBreak
  simf [simE_pure _]

theorem sim_connackLoop (g : Cfg) (T t0 : UInt32) : ∀ n c, SimE τ τ' k ρ (connackLoop g T t0 n c) (connackLoop g T t0 n c)
  | 0, _ => simE_stuck
  | n + 1, c => by
    unfold connackLoop
    simf [sim_typeAndLength, sim_connackBreak .., sim_connackLoop g T t0 n _]

theorem sim_finishConnack (g : Cfg) (T t0 : UInt32) (cs : Bool) (h : HeaderRes) (sp : Bool) :
    SimE τ τ' k ρ (finishConnack g T t0 cs h sp) (finishConnack g T t0 cs h sp) := by
  unfold finishConnack
  simf [sim_receivePacket g _ _]

theorem sim_receiveConnack (g : Cfg) (T : UInt32) (cs sp : Bool) : SimE τ τ' k ρ (receiveConnack g T cs sp) (receiveConnack g T cs sp) := by
  unfold receiveConnack
  simf [sim_connackLoop .., sim_finishConnack ..]

theorem sim_resendPubrels (g : Cfg) : ∀ n c, SimE τ τ' k ρ (resendPubrels g n c) (resendPubrels g n c)
  | 0, _ => simE_stuck
  | n + 1, c => by
    unfold resendPubrels
    simf [sim_sendPublishAcks g _ _, sim_resendPubrels g n _]

theorem sim_resendPublishes (g : Cfg) : ∀ n c, SimE τ τ' k ρ (resendPublishes g n c) (resendPublishes g n c)
  | 0, _ => simE_stuck
  | n + 1, c => by
    unfold resendPublishes
    simf [sim_sendBuffer g _, sim_resendPublishes g n _]

theorem sim_resume (g : Cfg) : SimE τ τ' k ρ (handleUncleanSessionResumption g) (handleUncleanSessionResumption g) := by
  unfold handleUncleanSessionResumption
  simf [sim_resendPubrels g _ _, sim_resendPublishes g _ _]

theorem sim_clearStored : ∀ n c, SimE τ τ' k ρ (clearStored n c) (clearStored n c)
  | 0, _ => simE_stuck
  | n + 1, c => by
    unfold clearStored
    simf [sim_clearStored n _]

theorem sim_cleanSession : SimE τ τ' k ρ handleCleanSession handleCleanSession := by
  unfold handleCleanSession
  simf [sim_resetBuffer, sim_clearStored _ _]
  all_goals (refine sim_modify_plain ?_ ?_ ?_ <;> intros <;> first | exact ⟨_, rfl⟩ | rfl)

theorem sim_connectLocked (g : Cfg) (ci : ConnectInfo) (will : Option PublishInfo) (n : Nat) (T : UInt32) (sp : Bool) :
    SimE τ τ' k ρ (connectLocked g ci will n T sp) (connectLocked g ci will n T sp) := by
  unfold connectLocked
  simf [sim_sendConnect .., sim_receiveConnack .., sim_cleanSession]
  refine sim_modify_plain ?_ ?_ ?_ <;> intros <;> first | exact ⟨_, rfl⟩ | rfl

theorem sim_connectFailed (st : Status) : SimE τ τ' k ρ (connectFailed st) (connectFailed st) := by
  unfold connectFailed
  simf [sim_markHooked]

theorem sim_connectCore (g : Cfg) (ci : ConnectInfo) (will : Option PublishInfo) (n : Nat) (T : UInt32) (sp : Bool) :
    SimE τ τ' k ρ (connectCore g ci will n T sp) (connectCore g ci will n T sp) := by
  unfold connectCore
  simf [sim_connectLocked .., sim_resume g]

theorem sim_connect (g : Cfg) (ci : Option ConnectInfo) (will : Option PublishInfo) (T : UInt32) (sp : Option Bool) :
    SimE τ τ' k ρ (mqttConnect g ci will T sp) (mqttConnect g ci will T sp) := by
  unfold mqttConnect
  simf [sim_connectCore .., sim_connectFailed _]

theorem validateSub_id (c : Ctx) (i : UInt16) (rx : UInt32) (b : Bool) (subs : Option (List SubscribeInfo)) (id : UInt16) :
    validateSubscribeUnsubscribeParams (withId c i rx b) subs id = validateSubscribeUnsubscribeParams c subs id := rfl
theorem validatePub_id (c : Ctx) (i : UInt16) (rx : UInt32) (b : Bool) (p : Option PublishInfo) (id : UInt16) :
    validatePublishParams (withId c i rx b) p id = validatePublishParams c p id := rfl

theorem sim_subUnsub (g : Cfg) (ty : SubType) (subs : Option (List SubscribeInfo)) (id : UInt16) :
    SimE τ τ' k ρ (mqttSubUnsub g ty subs id) (mqttSubUnsub g ty subs id) := by
  unfold mqttSubUnsub
  refine sim_ctx fun c i rx b _ => ?_
  rw [validateSub_id]
  simf [sim_sendFilters ..]

theorem sim_reserve (p : PublishInfo) (id : UInt16) : SimE τ τ' k ρ (reservePublish p id) (reservePublish p id) := by
  unfold reservePublish
  simf [simE_pure _]

theorem sim_notePublish (p : PublishInfo) (id : UInt16) : SimE τ τ' k ρ (notePublishSent p id) (notePublishSent p id) := by
  unfold notePublishSent
  simf [sim_pubM ..]

theorem sim_publishLocked (g : Cfg) (p : PublishInfo) (hd : List UInt8) (n : Nat) (id : UInt16) :
    SimE τ τ' k ρ (publishLocked g p hd n id) (publishLocked g p hd n id) := by
  unfold publishLocked
  simf [sim_reserve .., sim_sendPublish .., sim_notePublish ..]

theorem sim_publish (g : Cfg) (p : Option PublishInfo) (id : UInt16) : SimE τ τ' k ρ (mqttPublish g p id) (mqttPublish g p id) := by
  unfold mqttPublish
  refine sim_ctx fun c i rx b _ => ?_
  rw [validatePub_id]
  simf [sim_publishLocked ..]

theorem sim_disconnect (g : Cfg) : SimE τ τ' k ρ (mqttDisconnect g) (mqttDisconnect g) := by
  unfold mqttDisconnect
  simf [sim_resetBuffer, sim_sendBuffer g _]
  refine sim_modify_plain ?_ ?_ ?_ <;> intros <;> first | exact ⟨_, rfl⟩ | rfl

theorem sim_cancel (id : UInt16) : SimE τ τ' k ρ (mqttCancelCallback id) (mqttCancelCallback id) := by
  unfold mqttCancelCallback
  simf [simE_pure _]

theorem sim_check : SimE τ τ' k ρ mqttCheckConnectStatus mqttCheckConnectStatus := by
  unfold mqttCheckConnectStatus
  simf [simE_pure _]

theorem sim_getPacketId (hk : k = true) : SimE τ τ' k ρ mqttGetPacketId mqttGetPacketId := by
  unfold mqttGetPacketId
  refine simE_bind sim_pre fun _ => sim_ctx fun c id rx b h => ?_
  have := h.1 hk
  subst this
  refine simE_bind (sim_modify fun c' c'' h' => ?_) fun _ => simE_bind sim_post fun _ => simE_pure _
  obtain ⟨id, rx, b, rfl, h'⟩ := h'
  exact ⟨_, rx, b, rfl, fun _ => rfl, h'.2⟩

theorem sim_api (g : Cfg) (f : ApiCall) (hf : f = .getPacketId → k = true) (hp : f = .processLoop → ρ = true) :
     SimE τ τ' k ρ (apiCall g f) (apiCall g f) := by
  cases f with
  | getPacketId =>
    simp only [apiCall]
    simf [sim_getPacketId (hf rfl)]
  | processLoop =>
    simp only [apiCall]
    simf [sim_processLoop g (hp rfl)]
  | receiveLoop =>
    simp only [apiCall, mqttReceiveLoop]
    simf [sim_iteration g false (by simp)]
  | _ =>
    simp only [apiCall, mqttSubscribe, mqttUnsubscribe]
    simf [sim_connect .., sim_subUnsub .., sim_publish .., sim_ping g, sim_disconnect g, sim_cancel _, sim_check]
end

end Mqtt.Fresh
