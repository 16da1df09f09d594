/-
Clients with larger arrays for publishes in flight behave alike unless there is no room: a simulation through every function of core_mqtt.c.
-/
import Verif.Proof.RoomState
import Verif.Proof.EffectsResume

set_option autoImplicit true

namespace Mqtt.Room
open Spec

/-- The worlds differ in the arrays only, which are related by `K`. -/
structure Rel (K : Tables → Tables → Prop) (w w' : World) : Prop where
  ctx : w'.ctx = { w.ctx with tables := w'.ctx.tables }
  env : w'.env = w.env
  trace : w'.trace = w.trace
  tabs : K w.ctx.tables w'.ctx.tables

/-- If `m` returns, its result is exceptional or `m'` returns the same result in a related world. -/
def Sim (K : Tables → Tables → Prop) {α : Type} (X : α → Prop) (m m' : M α) : Prop :=
  ∀ w w', Rel K w w' → ∀ a w1, m w = .done a w1 → X a ∨ ∃ w1', m' w' = .done a w1' ∧ Rel K w1 w1'

/-- No exception. -/
def NoX {α : Type} (_ : α) : Prop := False

/-- There is no room. -/
def Full (st : Status) : Prop := st = .noMemory

section
variable {α γ : Type} {K : Tables → Tables → Prop}

theorem simX_bind {X : α → Prop} {Y : γ → Prop} {m m' : M α} {f f' : α → M γ} (hm : Sim K X m m') (hx : ∀ a, X a → ∀ w b w2, f a w = .done b w2 → Y b)
    (hf : ∀ a, Sim K Y (f a) (f' a)) : Sim K Y (m >>= f) (m' >>= f') := by
  intro w w' h c w2 hd
  replace hd : M.bind m f w = _ := hd
  unfold M.bind at hd
  cases he : m w with
  | done a w1 =>
    rw [he] at hd
    rcases hm w w' h a w1 he with h1 | ⟨w1', h1, h2⟩
    · exact .inl (hx a h1 _ _ _ hd)
    · rcases hf a w1 w1' h2 c w2 hd with h3 | ⟨w2', h3, h4⟩
      · exact .inl h3
      · refine .inr ⟨w2', ?_, h4⟩
        show M.bind m' f' w' = _
        unfold M.bind
        rw [h1]
        exact h3
  | stuck w1 => rw [he] at hd; cases hd
  | ub e w1 => rw [he] at hd; cases hd

theorem simE_bind {Y : γ → Prop} {m m' : M α} {f f' : α → M γ} (hm : Sim K NoX m m') (hf : ∀ a, Sim K Y (f a) (f' a)) : Sim K Y (m >>= f) (m' >>= f') :=
  simX_bind hm (fun _ h => h.elim) hf

theorem simE_pure {X : α → Prop} (a : α) : Sim K X (pure a) (pure a) := fun w w' h b w1 hd => by
  cases hd
  exact .inr ⟨w', rfl, h⟩
theorem simE_stuck {X : α → Prop} {m' : M α} : Sim K X (stuckM : M α) m' := fun _ _ _ _ _ hd => by cases hd
theorem simE_ub {X : α → Prop} (e : UB) : Sim K X (ubM e : M α) (ubM e) := fun _ _ _ _ _ hd => by cases hd
theorem simE_lift {X : α → Prop} (x : Res α) : Sim K X (liftRes x) (liftRes x) := by
  cases x with
  | ok a => exact simE_pure a
  | ub e => exact simE_ub e

theorem sim_ok {Y : γ → Prop} {a : α} {f f' : α → M γ} (h : Sim K Y (f a) (f' a)) : Sim K Y (liftRes (.ok a) >>= f) (liftRes (.ok a) >>= f') := h

/-- Reading the context: what follows sees the other arrays. -/
theorem sim_ctx {Y : γ → Prop} {f f' : Ctx → M γ} (hf : ∀ c t', K c.tables t' → Sim K Y (f c) (f' { c with tables := t' })) :
    Sim K Y (getCtx >>= f) (getCtx >>= f') := fun w w' h a w1 hd => by
  have hx := hf w.ctx w'.ctx.tables h.tabs w w' h a w1 hd
  rw [← h.ctx] at hx
  exact hx

theorem sim_modify {X : Unit → Prop} {f f' : Ctx → Ctx} (hf : ∀ c t', K c.tables t' → f' { c with tables := t' } = { f c with tables := (f' { c with tables := t' }).tables } ∧
    K (f c).tables (f' { c with tables := t' }).tables) : Sim K X (modifyCtx f) (modifyCtx f') :=
  fun w w' h a w1 hd => by
    cases hd
    obtain ⟨h1, h2⟩ := hf w.ctx w'.ctx.tables h.tabs
    rw [← h.ctx] at h1 h2
    exact .inr ⟨_, rfl, h1, h.env, h.trace, h2⟩

theorem sim_emit {X : Unit → Prop} (e : Event) : Sim K X (emit e) (emit e) := fun w w' h a w1 hd => by
  cases hd
  exact .inr ⟨_, rfl, h.ctx, h.env, congrArg (· ++ [e]) h.trace, h.tabs⟩

theorem sim_pre {X : Unit → Prop} : Sim K X preHook preHook := sim_emit _
theorem sim_post {X : Unit → Prop} : Sim K X postHook postHook := sim_emit _
theorem sim_clear {X : Unit → Prop} (id : UInt16) : Sim K X (clearCallback id) (clearCallback id) := sim_emit _
theorem sim_app {X : Unit → Prop} (pk : PacketInfo) (id : UInt16) (st : Status) (p : Option PublishInfo) :
    Sim K X (appCallback pk id st p) (appCallback pk id st p) := sim_emit _

/-- An operation on environment and trace. -/
theorem sim_env {X : α → Prop} {m : M α} (hm : ∀ w a w1, m w = .done a w1 → w1.ctx = w.ctx ∧
    ∀ c, m { w with ctx := c } = .done a { w1 with ctx := c }) : Sim K X m m := fun w w' h a w1 hd => by
  obtain ⟨h1, h2⟩ := hm w a w1 hd
  refine .inr ⟨{ w1 with ctx := w'.ctx }, ?_, ?_, rfl, rfl, ?_⟩
  · have := h2 w'.ctx
    rw [← this, ← h.env, ← h.trace]
  · rw [h1]; exact h.ctx
  · rw [h1]; exact h.tabs

theorem sim_getTime {X : UInt32 → Prop} : Sim K X getTime getTime := sim_env fun w a w1 hd => by
  unfold getTime at hd ⊢
  cases hc : w.env.clock with
  | nil => rw [hc] at hd; cases hd
  | cons t rest =>
    rw [hc] at hd
    cases hd
    exact ⟨rfl, fun c => by simp only [hc]⟩

theorem sim_time {Y : γ → Prop} {f f' : UInt32 → M γ} (hf : ∀ t, Sim K Y (f t) (f' t)) : Sim K Y (getTime >>= f) (getTime >>= f') :=
  simE_bind sim_getTime hf

theorem sim_send {X : Option Nat → Prop} (bs : List UInt8) : Sim K X (transportSend bs) (transportSend bs) := sim_env fun w a w1 hd => by
  unfold transportSend at hd ⊢
  cases hc : w.env.sends with
  | nil => rw [hc] at hd; cases hd
  | cons x rest =>
    rw [hc] at hd
    cases x <;> cases hd <;> exact ⟨rfl, fun c => by simp only [hc]⟩

theorem sim_recv {X : Option (List UInt8) → Prop} (n : Nat) : Sim K X (transportRecv n) (transportRecv n) := sim_env fun w a w1 hd => by
  unfold transportRecv at hd ⊢
  cases hc : w.env.recvs with
  | nil => rw [hc] at hd; cases hd
  | cons x rest =>
    rw [hc] at hd
    cases x <;> cases hd <;> exact ⟨rfl, fun c => by simp only [hc]⟩

theorem sim_retrieve {X : Option (List UInt8) → Prop} (id : UInt16) : Sim K X (retrieveCallback id) (retrieveCallback id) := sim_env fun w a w1 hd => by
  unfold retrieveCallback at hd ⊢
  cases hc : w.env.retrieves with
  | nil => rw [hc] at hd; cases hd
  | cons x rest =>
    rw [hc] at hd
    cases hd
    exact ⟨rfl, fun c => by simp only [hc]⟩

theorem sim_sendFuel {X : Nat → Prop} : Sim K X sendFuel sendFuel := sim_env fun w a w1 hd => by cases hd; exact ⟨rfl, fun _ => rfl⟩
theorem sim_recvFuel {X : Nat → Prop} : Sim K X recvFuel recvFuel := sim_env fun w a w1 hd => by cases hd; exact ⟨rfl, fun _ => rfl⟩
theorem sim_clockFuel {X : Nat → Prop} : Sim K X clockFuel clockFuel := sim_env fun w a w1 hd => by cases hd; exact ⟨rfl, fun _ => rfl⟩

theorem sim_tables {X : α → Prop} {f : Tables → Res (α × Tables)} (hf : ∀ t t' a t1, K t t' → f t = .ok (a, t1) → X a ∨ ∃ t1', f t' = .ok (a, t1') ∧ K t1 t1') :
    Sim K X (onTables f) (onTables f) := fun w w' h a w1 hd => by
  unfold onTables at hd
  cases hx : f w.ctx.tables with
  | ok x =>
    rw [hx] at hd
    cases hd
    rcases hf _ _ _ _ h.tabs hx with h1 | ⟨t1', h1, h2⟩
    · exact .inl h1
    · refine .inr ⟨{ w' with ctx := { w'.ctx with tables := t1' } }, ?_, ?_, h.env, h.trace, h2⟩
      · unfold onTables
        rw [h1]
      · show { w'.ctx with tables := t1' } = _
        rw [h.ctx]
  | ub e => rw [hx] at hd; cases hd

theorem sim_ite {X : α → Prop} {c c' : Prop} {d : Decidable c} {d' : Decidable c'} {a b a' b' : M α} (hc : c = c')
    (ha : c → Sim K X a a') (hb : ¬ c → Sim K X b b') : Sim K X (@ite _ c d a b) (@ite _ c' d' a' b') := by
  subst hc
  by_cases h : c
  · rw [if_pos h, if_pos h]; exact ha h
  · rw [if_neg h, if_neg h]; exact hb h

theorem sim_markPending {X : Unit → Prop} : Sim K X markPending markPending := by
  refine sim_modify fun c t' h => ?_
  dsimp only
  split <;> exact ⟨rfl, h⟩

syntax "sims" "[" term,* "]" : tactic
macro_rules
  | `(tactic| sims [$[$ts],*]) => `(tactic|
      repeat' (first
        | (with_reducible first
          | (first $[| exact $ts]*)
          | exact simE_pure _ | exact simE_stuck | exact simE_ub _ | exact simE_lift _ | exact sim_pre | exact sim_post
          | exact sim_app .. | exact sim_send _ | exact sim_recv _ | exact sim_clear _ | exact sim_retrieve _
          | exact sim_sendFuel | exact sim_recvFuel | exact sim_clockFuel | exact sim_markPending
          | (intro _) | refine sim_ite (by with_reducible rfl) ?_ ?_ | apply sim_ctx | apply sim_time
          | apply simE_bind)
        | refine sim_ite rfl ?_ ?_ | exact simE_lift _ | exact simE_pure _ | exact sim_modify (fun _ _ h => ⟨rfl, h⟩) | (first $[| exact $ts]*)
        | (with_reducible split)))

theorem sim_noteSend (x : Option Nat) : Sim K X (noteSendResult x) (noteSendResult x) := by
  unfold noteSendResult
  cases x with
  | none => exact sim_markPending
  | some n =>
    dsimp only
    sims [simE_pure _]
  
theorem sim_sendBufferLoop (g : Cfg) (t0 : UInt32) : ∀ n rest sent,
    Sim K X (sendBufferLoop g t0 n rest sent) (sendBufferLoop g t0 n rest sent)
  | 0, _, _ => simE_stuck
  | n + 1, rest, sent => by
    unfold sendBufferLoop
    sims [sim_noteSend _, sim_sendBufferLoop g t0 n _ _]

theorem sim_sendBuffer (g : Cfg) (bs : List UInt8) : Sim K X (sendBuffer g bs) (sendBuffer g bs) := by
  unfold sendBuffer
  sims [sim_sendBufferLoop g _ _ _ _]

theorem sim_sendVecLoop (g : Cfg) (t0 : UInt32) (b : Nat) : ∀ n vecs sent,
    Sim K X (sendVecLoop g t0 b n vecs sent) (sendVecLoop g t0 b n vecs sent)
  | 0, _, _ => simE_stuck
  | n + 1, vecs, sent => by
    unfold sendVecLoop
    sims [sim_noteSend _, sim_sendVecLoop g t0 b n _ _]

theorem sim_sendMessageVector (g : Cfg) (v : List IoVec) : Sim K X (sendMessageVector g v) (sendMessageVector g v) := by
  unfold sendMessageVector
  sims [sim_sendVecLoop g _ _ _ _ _]

theorem sim_sendWholeVector (g : Cfg) (v : List IoVec) : Sim K X (sendWholeVector g v) (sendWholeVector g v) := by
  unfold sendWholeVector
  sims [sim_sendMessageVector g v]

theorem sim_sendFiltersLoop (g : Cfg) (ty : SubType) : ∀ n vec subs,
    Sim K X (sendFiltersLoop g ty n vec subs) (sendFiltersLoop g ty n vec subs)
  | 0, _, _ => simE_stuck
  | n + 1, vec, subs => by
    unfold sendFiltersLoop
    sims [sim_sendWholeVector g _, sim_sendFiltersLoop g ty n _ _]

theorem sim_sendFilters (g : Cfg) (ty : SubType) (subs : List SubscribeInfo) (id : UInt16) (n : Nat) :
    Sim K X (sendFiltersWithoutCopy g ty subs id n) (sendFiltersWithoutCopy g ty subs id n) := by
  unfold sendFiltersWithoutCopy
  sims [sim_sendFiltersLoop g ty _ _ _]

theorem sim_store {X : Bool → Prop} (id : UInt16) (v : List IoVec) : Sim K X (storeCallback id v) (storeCallback id v) := sim_env fun w a w1 hd => by
  unfold storeCallback at hd ⊢
  cases hc : w.env.stores with
  | nil => rw [hc] at hd; cases hd
  | cons x rest =>
    rw [hc] at hd
    cases hd
    exact ⟨rfl, fun c => by simp only [hc]⟩

theorem sim_storePublish (p : PublishInfo) (hd : List UInt8) (n : Nat) (id : UInt16) : Sim K X (storePublish p hd n id) (storePublish p hd n id) := by
  unfold storePublish
  sims [sim_store ..]

theorem sim_sendPublish (g : Cfg) (p : PublishInfo) (hd : List UInt8) (n : Nat) (id : UInt16) :
    Sim K X (sendPublishWithoutCopy g p hd n id) (sendPublishWithoutCopy g p hd n id) := by
  unfold sendPublishWithoutCopy
  sims [sim_sendWholeVector g _, sim_storePublish ..]

theorem sim_sendConnect (g : Cfg) (ci : ConnectInfo) (will : Option PublishInfo) (n : Nat) :
    Sim K X (sendConnectWithoutCopy g ci will n) (sendConnectWithoutCopy g ci will n) := by
  unfold sendConnectWithoutCopy
  sims [sim_sendWholeVector g _]

theorem sim_sendIfConnected (g : Cfg) (bs : List UInt8) : Sim K X (sendIfConnected g bs) (sendIfConnected g bs) := by
  unfold sendIfConnected
  sims [sim_sendBuffer g bs]

theorem sim_ackM (id : UInt16) (a : AckType) (op : Op) : Sim Tab X (updateStateAckM id a op) (updateStateAckM id a op) :=
  sim_tables fun t t' x t1 h hd => by
    right
    cases hu : updateStateAckApi t id a op with
    | ub e => rw [hu] at hd; cases hd
    | ok y =>
      obtain ⟨y1, y2, y3⟩ := y
      rw [hu] at hd
      cases hd
      obtain ⟨t1', h1, h2, _⟩ := ackApi h id a op (x := (y1, y2)) hu
      exact ⟨t1', by rw [h1]; rfl, h2⟩

/-- The arrays are related, and the packet ids in the outgoing ones are these. -/
structure Pinned (p p' : List UInt16) (t t' : Tables) : Prop where
  tab : Tab t t'
  ids : t.outgoing.map (·.packetId) = p
  ids' : t'.outgoing.map (·.packetId) = p'

theorem sim_ackPubrel (id : UInt16) : Sim (Pinned p p') X (updateStateAckM id .pubrel .send) (updateStateAckM id .pubrel .send) :=
  sim_tables fun t t' x t1 h hd => by
    right
    cases hu : updateStateAckApi t id .pubrel .send with
    | ub e => rw [hu] at hd; cases hd
    | ok y =>
      obtain ⟨y1, y2, y3⟩ := y
      rw [hu] at hd
      cases hd
      obtain ⟨t1', h1, h2, h3⟩ := ackApi h.tab id .pubrel .send (x := (y1, y2)) hu
      exact ⟨t1', by rw [h1]; rfl, h2, (h3 rfl rfl).1.trans h.ids, (h3 rfl rfl).2.trans h.ids'⟩

theorem sim_pubM (id : UInt16) (op : Op) (q : QoS) : Sim Tab (fun x => x.1 = .noMemory ∧ op = .receive) (updateStatePublishM id op q) (updateStatePublishM id op q) :=
  sim_tables fun t t' x t1 h hd => by
    cases hu : updateStatePublishApi t id op q with
    | ub e => rw [hu] at hd; cases hd
    | ok y =>
      obtain ⟨y1, y2, y3⟩ := y
      rw [hu] at hd
      cases hd
      rcases publishApi h id op q (x := (y1, y2)) hu with h1 | ⟨t1', h1, h2⟩
      · exact .inl h1
      · exact .inr ⟨t1', by rw [h1]; rfl, h2⟩

theorem sim_weaken {X Y : α → Prop} {m m' : M α} (h : Sim K X m m') (hx : ∀ a, X a → Y a) : Sim K Y m m' := fun w w' hw a w1 hd =>
  (h w w' hw a w1 hd).imp_left (hx a)

theorem sim_pubSendM (id : UInt16) (q : QoS) : Sim Tab X (updateStatePublishM id .send q) (updateStatePublishM id .send q) :=
  sim_weaken (sim_pubM id .send q) fun _ h => by cases h.2

theorem sim_sendAcksWith (g : Cfg) (id : UInt16) (s : PubState) (hk : ∀ a, getAckFromPacketType (getAckTypeToSend s) = .ok a →
    Sim K NoX (updateStateAckM id a .send) (updateStateAckM id a .send)) : Sim K X (sendPublishAcks g id s) (sendPublishAcks g id s) := by
  unfold sendPublishAcks
  dsimp only
  refine sim_ite rfl (fun _ => simE_pure _) fun _ => ?_
  cases ha : getAckFromPacketType (getAckTypeToSend s) with
  | ub e => exact fun _ _ _ _ _ hd => by cases hd
  | ok a =>
    refine sim_ok ?_
    sims [sim_sendIfConnected g _, hk _ ha]

theorem sim_sendPublishAcks (g : Cfg) (id : UInt16) (p : PubState) : Sim Tab X (sendPublishAcks g id p) (sendPublishAcks g id p) :=
  sim_sendAcksWith g id p fun a _ => sim_ackM id a .send

theorem sim_sendPubrel (g : Cfg) (id : UInt16) : Sim (Pinned p p') X (sendPublishAcks g id .pubRelSend) (sendPublishAcks g id .pubRelSend) :=
  sim_sendAcksWith g id _ fun a ha => by
    have : a = .pubrel := by
      have h : getAckFromPacketType (getAckTypeToSend .pubRelSend) = .ok .pubrel := by decide +kernel
      rw [h] at ha
      cases ha
      rfl
    subst this
    exact sim_ackPubrel id

theorem sim_ping (g : Cfg) : Sim K X (mqttPing g) (mqttPing g) := by
  unfold mqttPing
  sims [sim_sendIfConnected g _]

theorem sim_recvInto (pos n : Nat) : Sim K X (recvInto pos n) (recvInto pos n) := by
  unfold recvInto
  sims [simE_pure _]

theorem sim_markHooked : Sim K X markPendingHooked markPendingHooked := by
  unfold markPendingHooked
  sims [sim_pre]

theorem sim_recvExactLoop (g : Cfg) : ∀ n pos m (t : UInt32),
    Sim K X (recvExactLoop g n pos m t) (recvExactLoop g n pos m t)
  | 0, _, _, _ => simE_stuck
  | n + 1, pos, m, t => by
    unfold recvExactLoop
    sims [sim_recvInto _ _, sim_markHooked, sim_recvExactLoop g n _ _ _]

theorem sim_recvExact (g : Cfg) (n : Nat) : Sim K X (recvExact g n) (recvExact g n) := by
  unfold recvExact
  sims [sim_recvExactLoop g _ _ _ _]

theorem sim_discardLoop (g : Cfg) (T t0 : UInt32) : ∀ n left b,
    Sim K X (discardLoop g T t0 n left b) (discardLoop g T t0 n left b)
  | 0, _, _ => simE_stuck
  | n + 1, left, b => by
    unfold discardLoop
    sims [sim_recvExact g _, sim_discardLoop g T t0 n _ _]

theorem sim_discardPacket (g : Cfg) (n : Nat) (T : UInt32) : Sim K X (discardPacket g n T) (discardPacket g n T) := by
  unfold discardPacket
  sims [sim_discardLoop g _ _ _ _ _]

theorem sim_discardStoredLoop (g : Cfg) : ∀ n left b, Sim K X (discardStoredLoop g n left b) (discardStoredLoop g n left b)
  | 0, _, _ => simE_stuck
  | n + 1, left, b => by
    unfold discardStoredLoop
    sims [sim_recvExact g _, sim_discardStoredLoop g n _ _]

theorem sim_resetBuffer : Sim K X resetBuffer resetBuffer := sim_modify fun _ _ h => ⟨rfl, h⟩

theorem sim_discardStored (g : Cfg) (n : Nat) : Sim K X (discardStoredPacket g n) (discardStoredPacket g n) := by
  unfold discardStoredPacket
  sims [sim_discardStoredLoop g _ _ _, sim_resetBuffer]

theorem sim_receivePacket (g : Cfg) (n : Nat) (T : UInt32) : Sim K X (receivePacket g n T) (receivePacket g n T) := by
  unfold receivePacket
  sims [sim_discardPacket g _ _, sim_recvExact g _]

theorem sim_handleKeepAlive (g : Cfg) : Sim K X (handleKeepAlive g) (handleKeepAlive g) := by
  unfold handleKeepAlive
  sims [sim_ping g]

theorem sim_recordIncoming (id : UInt16) (q : QoS) : Sim Tab (fun r => Full r.1) (recordIncomingPublish id q) (recordIncomingPublish id q) := by
  unfold recordIncomingPublish
  refine simE_bind sim_pre fun _ => simX_bind (sim_pubM id .receive q) (fun a ha w b w2 hd => ?_) fun a => ?_
  · obtain ⟨st, s⟩ := a
    obtain ⟨rfl, _⟩ := ha
    cases hd
    rfl
  · sims []

theorem sim_handleIncomingPublish (g : Cfg) (pk : PacketInfo) : Sim Tab Full (handleIncomingPublish g pk) (handleIncomingPublish g pk) := by
  unfold handleIncomingPublish
  refine simE_bind (simE_lift _) fun x => ?_
  obtain ⟨st, out⟩ := x
  cases out with
  | none => exact simE_pure _
  | some y =>
    obtain ⟨id, p⟩ := y
    refine sim_ctx fun c t' ht => sim_ite rfl (fun _ => simE_pure _) fun _ => sim_ite (congrArg (· ∧ _) ht.inc.nil_iff.symm) (fun _ => simE_pure _) fun _ => ?_
    refine simX_bind (sim_recordIncoming id p.qos) (fun a ha w b w2 hd => ?_) fun a => ?_
    · obtain ⟨st, s, dup⟩ := a
      cases ha
      cases hd
      rfl
    · sims [sim_sendPublishAcks g _ _]

theorem sim_handlePublishAcks (g : Cfg) (pk : PacketInfo) : Sim Tab X (handlePublishAcks g pk) (handlePublishAcks g pk) := by
  unfold handlePublishAcks
  sims [sim_ackM .., sim_sendPublishAcks g _ _]

theorem sim_handleIncomingAck (g : Cfg) (pk : PacketInfo) (b : Bool) : Sim Tab X (handleIncomingAck g pk b) (handleIncomingAck g pk b) := by
  unfold handleIncomingAck
  sims [sim_handlePublishAcks g pk]

theorem sim_receiveHeader : Sim K X receiveHeader receiveHeader := by
  unfold receiveHeader
  sims [sim_recvInto _ _, sim_markHooked]

theorem sim_keepAliveCheck (g : Cfg) (n : Option Nat) (b : Bool) (st : Status) :
    Sim K X (keepAliveCheck g n b st) (keepAliveCheck g n b st) := by
  unfold keepAliveCheck
  sims [sim_handleKeepAlive g]

theorem sim_checkComplete (g : Cfg) (st : Status) (n : Nat) : Sim K X (checkComplete g st n) (checkComplete g st n) := by
  unfold checkComplete
  sims [sim_discardStored g _]

theorem sim_handlePacket (g : Cfg) (b : Bool) (h : HeaderRes) : Sim Tab Full (handlePacket g b h) (handlePacket g b h) := by
  unfold handlePacket
  refine sim_ctx fun c t' ht => simX_bind (X := Full) (sim_ite rfl (fun _ => sim_handleIncomingPublish g _) fun _ => sim_handleIncomingAck g _ _)
    (fun a ha w b w2 hd => ?_) fun st => ?_
  · cases ha
    replace hd : (if h.remainingLength + h.headerLength ≤ w.ctx.index ∧ w.ctx.index ≤ w.ctx.bufSize then _ else _ : M Status) w = _ := hd
    split at hd
    · cases hd
      rfl
    · cases hd
  · sims []

theorem sim_iteration (g : Cfg) (b : Bool) : Sim Tab Full (receiveSingleIteration g b) (receiveSingleIteration g b) := by
  unfold receiveSingleIteration
  refine simE_bind sim_receiveHeader fun x => simE_bind (sim_keepAliveCheck g _ _ _) fun st => simE_bind (sim_checkComplete g _ _) fun st =>
    simX_bind (X := Full) (sim_ite rfl (fun _ => sim_handlePacket g _ _) fun _ => simE_pure _) (fun a ha w b w2 hd => ?_) fun st => ?_
  · cases ha
    cases hd
    rfl
  · sims []

theorem sim_processLoop (g : Cfg) : Sim Tab Full (mqttProcessLoop g) (mqttProcessLoop g) := by
  unfold mqttProcessLoop
  sims [sim_iteration g _]

theorem sim_recvOne : Sim K X recvOne recvOne := by
  unfold recvOne
  sims [simE_pure _]

theorem sim_remainingLoop : ∀ n a b c, Sim K X (getRemainingLengthLoopM n a b c) (getRemainingLengthLoopM n a b c)
  | 0, _, _, _ => simE_stuck
  | n + 1, a, b, c => by
    unfold getRemainingLengthLoopM
    sims [sim_recvOne, sim_remainingLoop n _ _ _]

theorem sim_remaining : Sim K X getRemainingLengthM getRemainingLengthM := by
  unfold getRemainingLengthM
  sims [sim_remainingLoop ..]

theorem sim_typeAndLength : Sim K X getIncomingPacketTypeAndLengthM getIncomingPacketTypeAndLengthM := by
  unfold getIncomingPacketTypeAndLengthM
  sims [sim_recvOne, sim_remaining]

theorem sim_connackBreak (g : Cfg) (T t0 : UInt32) (n : Nat) : Sim K X (connackBreak g T t0 n) (connackBreak g T t0 n) := by
  unfold connackBreak
  sims [simE_pure _]

theorem sim_connackLoop (g : Cfg) (T t0 : UInt32) : ∀ n c, Sim K X (connackLoop g T t0 n c) (connackLoop g T t0 n c)
  | 0, _ => simE_stuck
  | n + 1, c => by
    unfold connackLoop
    sims [sim_typeAndLength, sim_connackBreak .., sim_connackLoop g T t0 n _]

theorem sim_finishConnack (g : Cfg) (T t0 : UInt32) (cs : Bool) (h : HeaderRes) (sp : Bool) :
    Sim K X (finishConnack g T t0 cs h sp) (finishConnack g T t0 cs h sp) := by
  unfold finishConnack
  sims [sim_receivePacket g _ _]

theorem sim_receiveConnack (g : Cfg) (T : UInt32) (cs sp : Bool) : Sim K X (receiveConnack g T cs sp) (receiveConnack g T cs sp) := by
  unfold receiveConnack
  sims [sim_connackLoop .., sim_finishConnack ..]

/-- Packet ids in use. -/
def used (p : List UInt16) : List UInt16 := p.filter (· ≠ 0)

theorem used_ids (a : Records) : used (a.map (·.packetId)) = (live a).map (·.packetId) := by
  unfold used live
  rw [List.filter_map]
  rfl

theorem take_of_eq {l x y : List α} (h : l = x ++ y) : l.take x.length = x := by
  conv => lhs; rw [h]
  simp
theorem drop_of_eq {l x y : List α} (h : l = x ++ y) : l.drop x.length = y := by
  conv => lhs; rw [h]
  simp

theorem sim_ok2 {Y : γ → Prop} {a : α} {a' : α} {f f' : α → M γ} (h : Sim K Y (f a) (f' a')) :
    Sim K Y (liftRes (.ok a) >>= f) (liftRes (.ok a') >>= f') := h

/-- One step of the scans of the two clients. -/
theorem select_step {m : Nat} (hm : checkBitmap m .null = false) {a b a' b' : Records} (hc : Clean b) (hc' : Clean b') (hb : live b' = live b) :
    (∃ c c', stateSelectLoop (a ++ b) m a.length = .ok (0, c) ∧ stateSelectLoop (a' ++ b') m a'.length = .ok (0, c')) ∨
    ∃ b1 r b2 b1' b2', b = b1 ++ r :: b2 ∧ b' = b1' ++ r :: b2' ∧ r.packetId ≠ 0 ∧ live b1' = live b1 ∧ live b2' = live b2 ∧
      stateSelectLoop (a ++ b) m a.length = .ok (r.packetId, (a ++ b1 ++ [r]).length) ∧
      stateSelectLoop (a' ++ b') m a'.length = .ok (r.packetId, (a' ++ b1' ++ [r]).length) := by
  have hz : ∀ {l : Records}, Clean l → ∀ r ∈ l, checkBitmap m r.publishState = true → r.packetId ≠ 0 := fun hl r hr hh h0 => by
    rw [hl r hr h0] at hh
    exact absurd hh (by rw [show Rec.empty.publishState = .null from rfl, hm]; simp)
  have split : ∀ (l : Records), (∀ r ∈ l, checkBitmap m r.publishState = false) ∨
      ∃ l1 r l2, l = l1 ++ r :: l2 ∧ (∀ x ∈ l1, checkBitmap m x.publishState = false) ∧ checkBitmap m r.publishState = true := by
    intro l
    induction l with
    | nil => exact .inl fun _ h => absurd h List.not_mem_nil
    | cons x l ih =>
      cases hx : checkBitmap m x.publishState with
      | true => exact .inr ⟨[], x, l, rfl, fun _ h => absurd h List.not_mem_nil, hx⟩
      | false =>
        rcases ih with h | ⟨l1, r, l2, rfl, h2, h3⟩
        · exact .inl fun r hr => by
            rcases List.mem_cons.1 hr with rfl | hr
            · exact hx
            · exact h r hr
        · exact .inr ⟨x :: l1, r, l2, rfl, fun r hr => by
            rcases List.mem_cons.1 hr with rfl | hr
            · exact hx
            · exact h2 r hr, h3⟩
  rcases split b with h | ⟨b1, r, b2, e, h1, h2⟩
  · rcases split b' with h' | ⟨b1', r', b2', e', h1', h2'⟩
    · exact .inl ⟨_, _, stateSelectLoop_none m b a h, stateSelectLoop_none m b' a' h'⟩
    · have hr' : r' ∈ b' := by rw [e']; simp
      have : r' ∈ live b := hb ▸ mem_live.2 ⟨hr', hz hc' r' hr' h2'⟩
      exact absurd (h r' (mem_live.1 this).1) (by rw [h2']; simp)
  · have hr : r ∈ b := by rw [e]; simp
    have hr0 := hz hc r hr h2
    rcases split b' with h' | ⟨b1', r', b2', e', h1', h2'⟩
    · have : r ∈ live b' := hb ▸ mem_live.2 ⟨hr, hr0⟩
      exact absurd (h' r (mem_live.1 this).1) (by rw [h2]; simp)
    · have hr' : r' ∈ b' := by rw [e']; simp
      have hr0' := hz hc' r' hr' h2'
      rw [e, e'] at hb
      simp only [live_append, live_cons, hr0, hr0', ne_eq, not_false_eq_true, if_true] at hb
      obtain ⟨j1, rfl, j3⟩ := first_unique_of (P := fun x => checkBitmap m x.publishState = true) hb
        (fun x hx => by simp [h1' x (mem_live.1 hx).1]) (fun x hx => by simp [h1 x (mem_live.1 hx).1]) h2' h2
      refine .inr ⟨b1, r', b2, b1', b2', e, e', hr0, j1, j3, ?_, ?_⟩
      · have := stateSelectLoop_hit m r' b2 h2 b1 a h1
        rw [e, ← List.append_assoc, this]
        simp [Nat.add_assoc]
      · have := stateSelectLoop_hit m r' b2' h2' b1' a' h1'
        rw [e', ← List.append_assoc, this]
        simp [Nat.add_assoc]

/-- The cursors of the two clients stand after the same publishes. -/
structure Aligned (p p' : List UInt16) (c c' : Nat) : Prop where
  le : c ≤ p.length
  le' : c' ≤ p'.length
  same : used (p'.take c') = used (p.take c)

/-- One step of a loop over the records, for pinned packet ids. -/
theorem pinned_step {p p' : List UInt16} {t t' : Tables} (h : Pinned p p' t t') {c c' : Nat} (ha : Aligned p p' c c') {m : Nat} (hm : checkBitmap m .null = false) :
    (∃ k k', stateSelectLoop t.outgoing m c = .ok (0, k) ∧ stateSelectLoop t'.outgoing m c' = .ok (0, k')) ∨
    ∃ id k k', id ≠ 0 ∧ stateSelectLoop t.outgoing m c = .ok (id, k) ∧ stateSelectLoop t'.outgoing m c' = .ok (id, k') ∧ Aligned p p' k k' ∧
      (used (p'.drop k')).length + 1 ≤ (used (p'.drop c')).length := by
  obtain ⟨ht, rfl, rfl⟩ := h
  have l1 : c ≤ t.outgoing.length := by simpa using ha.le
  have l2 : c' ≤ t'.outgoing.length := by simpa using ha.le'
  have hs := ha.same
  rw [← List.map_take, ← List.map_take, used_ids, used_ids] at hs
  have e1 : t.outgoing.take c ++ t.outgoing.drop c = t.outgoing := List.take_append_drop ..
  have e2 : t'.outgoing.take c' ++ t'.outgoing.drop c' = t'.outgoing := List.take_append_drop ..
  have hl : live (t'.outgoing.take c') ++ live (t'.outgoing.drop c') = live (t.outgoing.take c) ++ live (t.outgoing.drop c) := by
    rw [← live_append, ← live_append, e1, e2, ht.out.same]
  have hlen : (live (t'.outgoing.take c')).length = (live (t.outgoing.take c)).length := by
    have := congrArg List.length hs
    simpa using this
  obtain ⟨hla, hlb⟩ := List.append_inj hl hlen
  have hc : Clean (t.outgoing.drop c) := fun r hr => ht.out.clean r (List.mem_of_mem_drop hr)
  have hc' : Clean (t'.outgoing.drop c') := fun r hr => ht.out.clean' r (List.mem_of_mem_drop hr)
  have n1 : (t.outgoing.take c).length = c := by simp; omega
  have n2 : (t'.outgoing.take c').length = c' := by simp; omega
  have := select_step hm (a := t.outgoing.take c) (a' := t'.outgoing.take c') hc hc' hlb
  rw [e1, e2, n1, n2] at this
  rcases this with h | ⟨b1, r, b2, b1', b2', d1, d2, h0, j1, j2, k1, k2⟩
  · exact .inl h
  · refine .inr ⟨_, _, _, h0, k1, k2, ?_, ?_⟩
    · have f1 : t.outgoing = (t.outgoing.take c ++ b1 ++ [r]) ++ b2 := by
        conv => lhs; rw [← e1, d1]
        simp
      have f2 : t'.outgoing = (t'.outgoing.take c' ++ b1' ++ [r]) ++ b2' := by
        conv => lhs; rw [← e2, d2]
        simp
      refine ⟨by rw [List.length_map]; conv => rhs; rw [f1]
                 simp, by rw [List.length_map]; conv => rhs; rw [f2]
                          simp, ?_⟩
      rw [← List.map_take, ← List.map_take, used_ids, used_ids, take_of_eq f1, take_of_eq f2]
      simp only [live_append, live_cons, hla, j1]
    · have f2 : t'.outgoing = (t'.outgoing.take c' ++ b1' ++ [r]) ++ b2' := by
        conv => lhs; rw [← e2, d2]
        simp
      rw [← List.map_drop, ← List.map_drop, used_ids, used_ids, drop_of_eq f2, d2]
      simp only [live_append, live_cons, ne_eq, h0, not_false_eq_true, if_true, List.length_map, List.length_append, List.length_cons]
      omega

theorem select_publish : checkBitmap (bitmap [.publishSend, .pubAckPending, .pubRecPending]) .null = false := by decide
theorem select_pubrel : checkBitmap (bitmap [.pubCompPending, .pubRelSend]) .null = false := by decide

theorem sim_resendPubrels (g : Cfg) {p p' : List UInt16} : ∀ n n' c c', Aligned p p' c c' → (used (p'.drop c')).length < n' →
    Sim (Pinned p p') X (resendPubrels g n c) (resendPubrels g n' c')
  | 0, _, _, _, _, _ => simE_stuck
  | n + 1, 0, _, _, _, h => absurd h (Nat.not_lt_zero _)
  | n + 1, n' + 1, c, c', ha, hn => by
    unfold resendPubrels
    refine sim_ctx fun x t' ht => ?_
    dsimp only [pubrelToResend]
    rw [stateSelect_pubrel, stateSelect_pubrel]
    rcases pinned_step ht ha select_pubrel with ⟨k, k', h1, h2⟩ | ⟨id, k, k', h0, h1, h2, h3, h4⟩
    · rw [h1, h2]
      exact simE_pure _
    · rw [h1, h2]
      simp only [Res.ok_bind, Res.pure_eq, h0, ne_eq, not_false_eq_true, if_true]
      refine sim_ok2 (a := (id, k, some PubState.pubRelSend)) (a' := (id, k', some PubState.pubRelSend)) ?_
      dsimp only
      rw [if_neg h0, if_neg h0]
      refine simE_bind (sim_sendPubrel g id) fun st => sim_ite rfl (fun _ => simE_pure _) fun _ => sim_resendPubrels g n n' k k' h3 (by omega)

theorem sim_resendPublishes (g : Cfg) {p p' : List UInt16} : ∀ n n' c c', Aligned p p' c c' → (used (p'.drop c')).length < n' →
    Sim (Pinned p p') X (resendPublishes g n c) (resendPublishes g n' c')
  | 0, _, _, _, _, _ => simE_stuck
  | n + 1, 0, _, _, _, h => absurd h (Nat.not_lt_zero _)
  | n + 1, n' + 1, c, c', ha, hn => by
    unfold resendPublishes
    refine sim_ctx fun x t' ht => ?_
    dsimp only [publishToResend]
    rw [stateSelect_publish, stateSelect_publish]
    rcases pinned_step ht ha select_publish with ⟨k, k', h1, h2⟩ | ⟨id, k, k', h0, h1, h2, h3, h4⟩
    · rw [h1, h2]
      exact simE_pure _
    · rw [h1, h2]
      refine sim_ok2 (a := (id, k)) (a' := (id, k')) ?_
      dsimp only
      rw [if_neg h0, if_neg h0]
      refine simE_bind (sim_retrieve id) fun r => ?_
      cases r with
      | none => exact simE_pure _
      | some bs =>
        refine simE_bind sim_pre fun _ => simE_bind (sim_sendBuffer g bs) fun x => simE_bind sim_post fun _ => ?_
        exact sim_ite rfl (fun _ => simE_pure _) fun _ => sim_resendPublishes g n n' k k' h3 (by omega)

theorem sim_clearStored {p p' : List UInt16} : ∀ n n' c c', Aligned p p' c c' → (used (p'.drop c')).length < n' →
    Sim (Pinned p p') X (clearStored n c) (clearStored n' c')
  | 0, _, _, _, _, _ => simE_stuck
  | n + 1, 0, _, _, _, h => absurd h (Nat.not_lt_zero _)
  | n + 1, n' + 1, c, c', ha, hn => by
    unfold clearStored
    refine sim_ctx fun x t' ht => ?_
    dsimp only [publishToResend]
    rw [stateSelect_publish, stateSelect_publish]
    rcases pinned_step ht ha select_publish with ⟨k, k', h1, h2⟩ | ⟨id, k, k', h0, h1, h2, h3, h4⟩
    · rw [h1, h2]
      exact simE_pure _
    · rw [h1, h2]
      refine sim_ok2 (a := (id, k)) (a' := (id, k')) ?_
      dsimp only
      rw [if_neg h0, if_neg h0]
      exact simE_bind (sim_clear id) fun _ => sim_clearStored n n' k k' h3 (by omega)

theorem aligned_start (p p' : List UInt16) : Aligned p p' 0 0 := ⟨Nat.zero_le _, Nat.zero_le _, rfl⟩

theorem fuel_start {p p' : List UInt16} {t t' : Tables} (h : Pinned p p' t t') : (used (p'.drop 0)).length < t'.outgoing.length + 1 := by
  have h1 : (used p').length ≤ p'.length := List.length_filter_le ..
  have h2 := congrArg List.length h.ids'
  rw [List.length_map] at h2
  rw [List.drop_zero]
  omega

/-- The packet ids of the moment. -/
theorem sim_pin {X : α → Prop} {m m' : M α} (h : ∀ p p', Sim (Pinned p p') X m m') : Sim Tab X m m' := fun w w' hw a w1 hd => by
  rcases h _ _ w w' ⟨hw.ctx, hw.env, hw.trace, hw.tabs, rfl, rfl⟩ a w1 hd with h1 | ⟨w1', h1, h2⟩
  · exact .inl h1
  · exact .inr ⟨w1', h1, h2.ctx, h2.env, h2.trace, h2.tabs.tab⟩

theorem sim_resume (g : Cfg) : Sim Tab X (handleUncleanSessionResumption g) (handleUncleanSessionResumption g) := by
  refine sim_pin fun p p' => ?_
  unfold handleUncleanSessionResumption
  refine sim_ctx fun c t' ht => simE_bind (sim_resendPubrels g _ _ _ _ (aligned_start p p') (fuel_start ht)) fun st => ?_
  exact sim_ite rfl (fun _ => sim_resendPublishes g _ _ _ _ (aligned_start p p') (fuel_start ht)) fun _ => simE_pure _

/-- The part of `handleCleanSession` that has copies dropped. -/
def clearAll : M Unit := do
  let c ← getCtx
  if c.retransmits then clearStored (c.tables.outgoing.length + 1) 0 else pure ()

theorem sim_clearAll : Sim Tab X clearAll clearAll := by
  refine sim_pin fun p p' => ?_
  unfold clearAll
  exact sim_ctx fun c t' ht => sim_ite rfl (fun _ => sim_clearStored _ _ _ _ (aligned_start p p') (fuel_start ht)) fun _ => simE_pure _

theorem cleanSession_eq : handleCleanSession = (do
    resetBuffer
    clearAll
    modifyCtx fun c => { c with tables := ⟨List.replicate c.tables.outgoing.length Rec.empty, List.replicate c.tables.incoming.length Rec.empty⟩ }
    pure .success) := by
  funext w
  simp only [handleCleanSession, clearAll, resetBuffer, bind, M.bind, getCtx, modifyCtx]
  split <;> rfl

theorem clean_replicate (n : Nat) : Clean (List.replicate n Rec.empty) := fun r hr _ => List.eq_of_mem_replicate hr

theorem arr_cleared {a a' : Records} (h : Arr a a') : Arr (List.replicate a.length Rec.empty) (List.replicate a'.length Rec.empty) := by
  refine ⟨by simp, by simpa using h.size, fun hn => ?_, clean_replicate _, clean_replicate _⟩
  have : a = [] := by simpa using hn
  rw [h.nil this]
  rfl

theorem sim_cleanSession : Sim Tab X handleCleanSession handleCleanSession := by
  rw [cleanSession_eq]
  refine simE_bind sim_resetBuffer fun _ => simE_bind sim_clearAll fun _ => simE_bind (sim_modify fun c t' ht => ⟨rfl, ?_⟩) fun _ => simE_pure _
  exact ⟨arr_cleared ht.out, arr_cleared ht.inc⟩

theorem sim_connectLocked (g : Cfg) (ci : ConnectInfo) (will : Option PublishInfo) (n : Nat) (T : UInt32) (sp : Bool) :
    Sim Tab X (connectLocked g ci will n T sp) (connectLocked g ci will n T sp) := by
  unfold connectLocked
  sims [sim_sendConnect .., sim_receiveConnack .., sim_cleanSession]

theorem sim_connectFailed (st : Status) : Sim K X (connectFailed st) (connectFailed st) := by
  unfold connectFailed
  sims [sim_markHooked]

theorem sim_connectCore (g : Cfg) (ci : ConnectInfo) (will : Option PublishInfo) (n : Nat) (T : UInt32) (sp : Bool) :
    Sim Tab X (connectCore g ci will n T sp) (connectCore g ci will n T sp) := by
  unfold connectCore
  sims [sim_connectLocked .., sim_resume g]

theorem sim_connect (g : Cfg) (ci : Option ConnectInfo) (will : Option PublishInfo) (T : UInt32) (sp : Option Bool) :
    Sim Tab X (mqttConnect g ci will T sp) (mqttConnect g ci will T sp) := by
  unfold mqttConnect
  sims [sim_connectCore .., sim_connectFailed _]

theorem validateSub_eq {c : Ctx} {t' : Tables} (ht : Tab c.tables t') (subs : Option (List SubscribeInfo)) (id : UInt16) :
    validateSubscribeUnsubscribeParams { c with tables := t' } subs id = validateSubscribeUnsubscribeParams c subs id := by
  cases subs with
  | none => rfl
  | some l =>
    have h := ht.inc.nil_iff
    unfold validateSubscribeUnsubscribeParams
    simp only [h]

theorem sim_subUnsub (g : Cfg) (ty : SubType) (subs : Option (List SubscribeInfo)) (id : UInt16) :
    Sim Tab X (mqttSubUnsub g ty subs id) (mqttSubUnsub g ty subs id) := by
  unfold mqttSubUnsub
  refine sim_ctx fun c t' ht => ?_
  rw [validateSub_eq ht]
  sims [sim_sendFilters ..]

theorem sim_reserve (p : PublishInfo) (id : UInt16) : Sim Tab Full (reservePublish p id) (reservePublish p id) := by
  unfold reservePublish
  refine sim_ite rfl (fun _ => simX_bind (X := Full) (sim_tables fun t t' a t1 h hd => reserve h id p.qos hd) (fun a ha w b w2 hd => ?_) fun st => ?_) fun _ => simE_pure _
  · cases ha
    cases hd
    rfl
  · sims []

theorem sim_notePublish (p : PublishInfo) (id : UInt16) : Sim Tab X (notePublishSent p id) (notePublishSent p id) := by
  unfold notePublishSent
  sims [sim_pubSendM ..]

theorem sim_publishLocked (g : Cfg) (p : PublishInfo) (hd : List UInt8) (n : Nat) (id : UInt16) :
    Sim Tab Full (publishLocked g p hd n id) (publishLocked g p hd n id) := by
  unfold publishLocked
  refine sim_ctx fun c t' ht => sim_ite rfl (fun _ => simE_pure _) fun _ => simX_bind (sim_reserve p id) (fun a ha w b w2 hd => ?_) fun st => ?_
  · cases ha
    cases hd
    rfl
  · sims [sim_sendPublish .., sim_notePublish ..]

theorem validatePublish_eq {c : Ctx} {t' : Tables} (ht : Tab c.tables t') (p : Option PublishInfo) (id : UInt16) :
    validatePublishParams { c with tables := t' } p id = validatePublishParams c p id := by
  cases p with
  | none => rfl
  | some l =>
    have h := ht.out.nil_iff
    unfold validatePublishParams
    simp only [h]

theorem sim_publish (g : Cfg) (p : Option PublishInfo) (id : UInt16) : Sim Tab Full (mqttPublish g p id) (mqttPublish g p id) := by
  unfold mqttPublish
  refine sim_ctx fun c t' ht => ?_
  rw [validatePublish_eq ht]
  refine sim_ite rfl (fun _ => simE_pure _) fun _ => ?_
  cases p with
  | none => exact simE_ub _
  | some p =>
    refine sim_ite rfl (fun _ => simE_pure _) fun _ => simE_bind (simE_lift _) fun x => simE_bind sim_pre fun _ => simX_bind (sim_publishLocked g p _ _ id) (fun a ha w b w2 hd => ?_) fun st => ?_
    · cases ha
      cases hd
      rfl
    · sims []

theorem sim_disconnect (g : Cfg) : Sim K X (mqttDisconnect g) (mqttDisconnect g) := by
  unfold mqttDisconnect
  sims [sim_resetBuffer, sim_sendBuffer g _]

theorem sim_cancel (id : UInt16) : Sim Tab X (mqttCancelCallback id) (mqttCancelCallback id) := by
  unfold mqttCancelCallback
  refine sim_ctx fun c t' ht => sim_ite ht.out.nil_iff.symm (fun _ => simE_pure _) fun _ => ?_
  sims [sim_tables fun t t' a t1 h hd => .inr (remove h id hd)]

theorem sim_check : Sim K X mqttCheckConnectStatus mqttCheckConnectStatus := by
  unfold mqttCheckConnectStatus
  sims [simE_pure _]

theorem sim_getPacketId : Sim K X mqttGetPacketId mqttGetPacketId := by
  unfold mqttGetPacketId
  sims [simE_pure _]

/-- The call reports that there is no room. -/
def FullRet (r : ApiRet) : Prop := r.code = some .noMemory

theorem sim_status {m m' : M Status} (h : Sim Tab Full m m') : Sim Tab FullRet (do let st ← m; pure (.status st)) (do let st ← m'; pure (.status st)) :=
  simX_bind h (fun a ha w b w2 hd => by cases ha; cases hd; rfl) fun _ => simE_pure _

theorem sim_api (g : Cfg) (f : ApiCall) : Sim Tab FullRet (apiCall g f) (apiCall g f) := by
  cases f with
  | publish p id =>
    simp only [apiCall]
    exact sim_status (sim_publish g p id)
  | processLoop =>
    simp only [apiCall]
    exact sim_status (sim_processLoop g)
  | receiveLoop =>
    simp only [apiCall, mqttReceiveLoop]
    exact sim_status (sim_iteration g _)
  | _ =>
    simp only [apiCall, mqttSubscribe, mqttUnsubscribe]
    sims [sim_connect .., sim_subUnsub .., sim_ping g, sim_disconnect g, sim_cancel _, sim_check, sim_getPacketId]
end

end Mqtt.Room
