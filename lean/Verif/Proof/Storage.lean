/-
The callbacks installed by `MQTT_InitRetransmits` change nothing but what is stored, as long as they accept every copy and none is asked for: a simulation
through every function of core_mqtt.c.
-/
import Verif.Spec.Storage
import Verif.Proof.Senders

namespace Mqtt.Storage
open Spec

/-- The worlds differ in the callbacks, in the answers of the callbacks and in what happened before. -/
structure Other (σ : List Bool) (ρ : List (Option (List UInt8))) (w w' : World) : Prop where
  ctx : w'.ctx = noRetransmits w.ctx
  env : w'.env = { w.env with stores := σ, retrieves := ρ }

/-- If `m` returns, some events were added; if these are fine, then `m'` returns as well, with a related result and the same events without storage. -/
def Sim (σ : List Bool) (ρ : List (Option (List UInt8))) {α β : Type} (R : α → β → Prop) (m : M α) (m' : M β) : Prop :=
  ∀ w w', Other σ ρ w w' → ∀ a w1, m w = .done a w1 → ∃ es, w1.trace = w.trace ++ es ∧
    (StoredOnly es → ∃ a' w1', m' w' = .done a' w1' ∧ R a a' ∧ Other σ ρ w1 w1' ∧ w1'.trace = w'.trace ++ noStorage es)

/-- Equal results. -/
def SameRes {α : Type} (x x' : α) : Prop := x' = x

/-- The same with equal results. -/
abbrev SimE (σ : List Bool) (ρ : List (Option (List UInt8))) {α : Type} (m m' : M α) : Prop := Sim σ ρ SameRes m m'

theorem noStorage_append (a b : List Event) : noStorage (a ++ b) = noStorage a ++ noStorage b := List.filter_append ..

theorem only_split {a b : List Event} (h : StoredOnly (a ++ b)) : StoredOnly a ∧ StoredOnly b :=
  ⟨fun e he => h e (List.mem_append_left _ he), fun e he => h e (List.mem_append_right _ he)⟩

section
variable {σ : List Bool} {ρ : List (Option (List UInt8))} {α β γ ε : Type}

theorem sim_bind {R : α → β → Prop} {S : γ → ε → Prop} {m : M α} {m' : M β} {f : α → M γ} {f' : β → M ε}
    (hm : Sim σ ρ R m m') (hg : ∀ a, ∃ b, Sim σ ρ S (f a) (f' b)) (hf : ∀ a a', R a a' → Sim σ ρ S (f a) (f' a')) : Sim σ ρ S (m >>= f) (m' >>= f') := by
  intro w w' h c w2 hd
  replace hd : M.bind m f w = _ := hd
  unfold M.bind at hd
  cases he : m w with
  | done a w1 =>
    rw [he] at hd
    obtain ⟨es, h1, h2⟩ := hm w w' h a w1 he
    obtain ⟨b, hb⟩ := hg a
    obtain ⟨es', h3, _⟩ := hb w1 { w1 with ctx := noRetransmits w1.ctx, env := { w1.env with stores := σ, retrieves := ρ } } ⟨rfl, rfl⟩ c w2 hd
    refine ⟨es ++ es', by rw [h3, h1, List.append_assoc], fun hgood => ?_⟩
    obtain ⟨k1, k2⟩ := only_split hgood
    obtain ⟨a', w1', h4, h5, h6, h7⟩ := h2 k1
    obtain ⟨es2, h8, h9⟩ := hf a a' h5 w1 w1' h6 c w2 hd
    have : es2 = es' := List.append_cancel_left (h8.symm.trans h3)
    subst this
    obtain ⟨c', w2', j1, j2, j3, j4⟩ := h9 k2
    refine ⟨c', w2', ?_, j2, j3, by rw [j4, h7, noStorage_append, List.append_assoc]⟩
    show M.bind m' f' w' = _
    unfold M.bind
    rw [h4]
    exact j1
  | stuck w1 => rw [he] at hd; cases hd
  | ub e w1 => rw [he] at hd; cases hd

theorem simE_bind {S : γ → ε → Prop} {m m' : M α} {f : α → M γ} {f' : α → M ε}
    (hm : SimE σ ρ m m') (hf : ∀ a, Sim σ ρ S (f a) (f' a)) : Sim σ ρ S (m >>= f) (m' >>= f') :=
  sim_bind hm (fun a => ⟨a, hf a⟩) fun a a' h => by subst h; exact hf _

theorem simE_pure (a : α) : SimE σ ρ (pure a) (pure a) := fun w w' h b w1 hd => by
  cases hd
  exact ⟨[], (List.append_nil _).symm, fun _ => ⟨_, w', rfl, rfl, h, (List.append_nil _).symm⟩⟩
theorem simE_stuck : SimE σ ρ (stuckM : M α) stuckM := fun _ _ _ _ _ hd => by cases hd
theorem simE_ub (e : UB) : SimE σ ρ (ubM e : M α) (ubM e) := fun _ _ _ _ _ hd => by cases hd
theorem simE_lift (x : Res α) : SimE σ ρ (liftRes x) (liftRes x) := by
  cases x with
  | ok a => exact simE_pure a
  | ub e => exact simE_ub e

theorem sim_ok {S : γ → ε → Prop} {a : α} {f : α → M γ} {f' : α → M ε} (h : Sim σ ρ S (f a) (f' a)) :
    Sim σ ρ S (liftRes (.ok a) >>= f) (liftRes (.ok a) >>= f') := h

/-- Reading the context: what follows sees it without the callbacks. -/
theorem sim_ctx {S : γ → ε → Prop} {f : Ctx → M γ} {f' : Ctx → M ε} (hf : ∀ c, Sim σ ρ S (f c) (f' (noRetransmits c))) :
    Sim σ ρ S (getCtx >>= f) (getCtx >>= f') := fun w w' h a w1 hd => by
  have hx := hf w.ctx w w' h a w1 hd
  rw [← h.ctx] at hx
  exact hx

theorem sim_modify {f f' : Ctx → Ctx} (hf : ∀ c, f' (noRetransmits c) = noRetransmits (f c)) : SimE σ ρ (modifyCtx f) (modifyCtx f') :=
  fun w w' h a w1 hd => by
    cases hd
    refine ⟨[], (List.append_nil _).symm, fun _ => ⟨_, _, rfl, rfl, ⟨?_, h.env⟩, (List.append_nil _).symm⟩⟩
    show f' w'.ctx = _
    rw [h.ctx, hf]

theorem sim_emit (e : Event) (he : isStorage e = false) : SimE σ ρ (emit e) (emit e) := fun w w' h a w1 hd => by
  cases hd
  refine ⟨[e], rfl, fun _ => ⟨_, _, rfl, rfl, ⟨h.ctx, h.env⟩, ?_⟩⟩
  show w'.trace ++ [e] = _
  simp [noStorage, he]

theorem sim_pre : SimE σ ρ preHook preHook := sim_emit _ rfl
theorem sim_post : SimE σ ρ postHook postHook := sim_emit _ rfl
theorem sim_app (pk : PacketInfo) (id : UInt16) (st : Status) (p : Option PublishInfo) :
    SimE σ ρ (appCallback pk id st p) (appCallback pk id st p) := sim_emit _ rfl

theorem sim_getTime : SimE σ ρ getTime getTime := fun w w' h a w1 hd => by
  unfold getTime at hd
  cases hc : w.env.clock with
  | nil => rw [hc] at hd; cases hd
  | cons t rest =>
    rw [hc] at hd
    cases hd
    refine ⟨[.time a], rfl, fun _ => ⟨a, { w' with env := { w'.env with clock := rest }, trace := w'.trace ++ [.time a] }, ?_, rfl, ⟨h.ctx, by rw [h.env]⟩, rfl⟩⟩
    unfold getTime
    rw [show w'.env.clock = a :: rest by rw [h.env]; exact hc]

theorem sim_time {S : γ → ε → Prop} {f : UInt32 → M γ} {f' : UInt32 → M ε} (hf : ∀ t, Sim σ ρ S (f t) (f' t)) :
    Sim σ ρ S (getTime >>= f) (getTime >>= f') :=
  simE_bind sim_getTime hf

theorem sim_send (bs : List UInt8) : SimE σ ρ (transportSend bs) (transportSend bs) := fun w w' h a w1 hd => by
  unfold transportSend at hd
  have hs : w'.env.sends = w.env.sends := by rw [h.env]
  cases hc : w.env.sends with
  | nil => rw [hc] at hd; cases hd
  | cons x rest =>
    rw [hc] at hd hs
    cases x with
    | fail =>
      cases hd
      refine ⟨_, rfl, fun _ => ⟨_, { w' with env := { w'.env with sends := rest }, trace := w'.trace ++ [.sent bs none] }, ?_, rfl, ⟨h.ctx, by rw [h.env]⟩, rfl⟩⟩
      unfold transportSend
      rw [hs]
    | accept n =>
      cases hd
      refine ⟨_, rfl, fun _ => ⟨_, { w' with env := { w'.env with sends := rest }, trace := w'.trace ++ [.sent bs (some (min n bs.length))] }, ?_, rfl, ⟨h.ctx, by rw [h.env]⟩, rfl⟩⟩
      unfold transportSend
      rw [hs]

theorem sim_recv (n : Nat) : SimE σ ρ (transportRecv n) (transportRecv n) := fun w w' h a w1 hd => by
  unfold transportRecv at hd
  have hs : w'.env.recvs = w.env.recvs := by rw [h.env]
  have hi : w'.env.input = w.env.input := by rw [h.env]
  cases hc : w.env.recvs with
  | nil => rw [hc] at hd; cases hd
  | cons x rest =>
    rw [hc] at hd hs
    cases x with
    | fail =>
      cases hd
      refine ⟨_, rfl, fun _ => ⟨_, { w' with env := { w'.env with recvs := rest }, trace := w'.trace ++ [.recvd n none] }, ?_, rfl, ⟨h.ctx, by rw [h.env]⟩, rfl⟩⟩
      unfold transportRecv
      rw [hs]
    | deliver m =>
      cases hd
      refine ⟨_, rfl, fun _ => ⟨_, { w' with env := { w'.env with recvs := rest, input := w.env.input.drop (min m n) }, trace := w'.trace ++ [.recvd n (some (w.env.input.take (min m n)))] }, ?_, rfl, ⟨h.ctx, by rw [h.env]⟩, rfl⟩⟩
      unfold transportRecv
      rw [hs, hi]

theorem sim_sendFuel : SimE σ ρ sendFuel sendFuel := fun w w' h a w1 hd => by
  cases hd
  exact ⟨[], (List.append_nil _).symm, fun _ => ⟨_, w', rfl, by rw [h.env]; rfl, h, (List.append_nil _).symm⟩⟩
theorem sim_recvFuel : SimE σ ρ recvFuel recvFuel := fun w w' h a w1 hd => by
  cases hd
  exact ⟨[], (List.append_nil _).symm, fun _ => ⟨_, w', rfl, by rw [h.env]; rfl, h, (List.append_nil _).symm⟩⟩
theorem sim_clockFuel : SimE σ ρ clockFuel clockFuel := fun w w' h a w1 hd => by
  cases hd
  exact ⟨[], (List.append_nil _).symm, fun _ => ⟨_, w', rfl, by rw [h.env]; rfl, h, (List.append_nil _).symm⟩⟩

theorem sim_tables (f : Tables → Res (α × Tables)) : SimE σ ρ (onTables f) (onTables f) := fun w w' h a w1 hd => by
  unfold onTables at hd
  have ht : w'.ctx.tables = w.ctx.tables := by rw [h.ctx]
  cases hf : f w.ctx.tables with
  | ok x =>
    rw [hf] at hd
    cases hd
    refine ⟨[], (List.append_nil _).symm, fun _ => ⟨x.1, { w' with ctx := { w'.ctx with tables := x.2 } }, ?_, rfl, ⟨by rw [h.ctx], h.env⟩, (List.append_nil _).symm⟩⟩
    unfold onTables
    rw [ht, hf]
  | ub e => rw [hf] at hd; cases hd

theorem sim_ite {R : α → β → Prop} {c c' : Prop} {d : Decidable c} {d' : Decidable c'} {a b : M α} {a' b' : M β} (hc : c = c')
    (ha : c → Sim σ ρ R a a') (hb : ¬ c → Sim σ ρ R b b') :
    Sim σ ρ R (@ite _ c d a b) (@ite _ c' d' a' b') := by
  subst hc
  by_cases h : c
  · rw [if_pos h, if_pos h]; exact ha h
  · rw [if_neg h, if_neg h]; exact hb h

theorem sim_markPending : SimE σ ρ markPending markPending := by
  refine sim_modify fun c => ?_
  show (if c.connectStatus = _ then _ else _) = _
  split <;> rfl

syntax "sims" "[" term,* "]" : tactic
macro_rules
  | `(tactic| sims [$[$ts],*]) => `(tactic|
      repeat' (first
        | (with_reducible first
          | (first $[| exact $ts]*)
          | exact simE_pure _ | exact simE_stuck | exact simE_ub _ | exact simE_lift _ | exact sim_pre | exact sim_post
          | exact sim_app .. | exact sim_send _ | exact sim_recv _
          | exact sim_tables _ | exact sim_sendFuel | exact sim_recvFuel | exact sim_clockFuel | exact sim_markPending
          | (intro _) | refine sim_ite (by with_reducible rfl) ?_ ?_ | apply sim_ctx | apply sim_time
          | apply simE_bind)
        | refine sim_ite rfl ?_ ?_ | exact simE_lift _ | exact simE_pure _ | (first $[| exact $ts]*)
        | (with_reducible split)))

theorem sim_noteSend (x : Option Nat) : SimE σ ρ (noteSendResult x) (noteSendResult x) := by
  unfold noteSendResult
  cases x with
  | none => exact sim_markPending
  | some n =>
    dsimp only
    sims [simE_pure _]
    exact sim_modify fun _ => rfl

theorem sim_sendBufferLoop (g : Cfg) (t0 : UInt32) : ∀ n rest sent,
    SimE σ ρ (sendBufferLoop g t0 n rest sent) (sendBufferLoop g t0 n rest sent)
  | 0, _, _ => simE_stuck
  | n + 1, rest, sent => by
    unfold sendBufferLoop
    sims [sim_noteSend _, sim_sendBufferLoop g t0 n _ _]

theorem sim_sendBuffer (g : Cfg) (bs : List UInt8) : SimE σ ρ (sendBuffer g bs) (sendBuffer g bs) := by
  unfold sendBuffer
  sims [sim_sendBufferLoop g _ _ _ _]

theorem sim_sendVecLoop (g : Cfg) (t0 : UInt32) (b : Nat) : ∀ n vecs sent,
    SimE σ ρ (sendVecLoop g t0 b n vecs sent) (sendVecLoop g t0 b n vecs sent)
  | 0, _, _ => simE_stuck
  | n + 1, vecs, sent => by
    unfold sendVecLoop
    sims [sim_noteSend _, sim_sendVecLoop g t0 b n _ _]

theorem sim_sendMessageVector (g : Cfg) (v : List IoVec) : SimE σ ρ (sendMessageVector g v) (sendMessageVector g v) := by
  unfold sendMessageVector
  sims [sim_sendVecLoop g _ _ _ _ _]

theorem sim_sendWholeVector (g : Cfg) (v : List IoVec) : SimE σ ρ (sendWholeVector g v) (sendWholeVector g v) := by
  unfold sendWholeVector
  sims [sim_sendMessageVector g v]

theorem sim_sendFiltersLoop (g : Cfg) (ty : SubType) : ∀ n vec subs,
    SimE σ ρ (sendFiltersLoop g ty n vec subs) (sendFiltersLoop g ty n vec subs)
  | 0, _, _ => simE_stuck
  | n + 1, vec, subs => by
    unfold sendFiltersLoop
    sims [sim_sendWholeVector g _, sim_sendFiltersLoop g ty n _ _]

theorem sim_sendFilters (g : Cfg) (ty : SubType) (subs : List SubscribeInfo) (id : UInt16) (n : Nat) :
    SimE σ ρ (sendFiltersWithoutCopy g ty subs id n) (sendFiltersWithoutCopy g ty subs id n) := by
  unfold sendFiltersWithoutCopy
  sims [sim_sendFiltersLoop g ty _ _ _]

/-- The header of a PUBLISH as the serializer writes it. -/
def Header (p : PublishInfo) (hd : List UInt8) : Prop := ∃ zs, hd = UInt8.ofNat (publishFirst p.dup p.qos.toFin p.retain) :: zs

/-- Storing a copy leaves the header as it was. -/
theorem sim_storePublish {p : PublishInfo} {hd : List UInt8} (n : Nat) (id : UInt16) (hq : p.qos ≠ .qos0) (hh : Header p hd) :
    SimE σ ρ (storePublish p hd n id) (pure (.success, hd)) := fun w w' h a w1 hd1 => by
  obtain ⟨zs, rfl⟩ := hh
  have hs := storePublish_spec p id zs n hq w
  simp only [wp, hd1] at hs
  obtain ⟨ok, rest, _, rfl, h1, h2⟩ := hs
  refine ⟨[_], rfl, fun hg => ?_⟩
  have hok : ok = true := by
    have := hg _ List.mem_cons_self
    simpa [stored] using this
  subst hok
  refine ⟨_, w', rfl, ?_, ⟨h.ctx, h.env⟩, (List.append_nil _).symm⟩
  rw [if_pos rfl] at h1
  exact Prod.ext h1.symm (h2 rfl).symm

theorem sim_sendPublish (g : Cfg) {p : PublishInfo} {hd : List UInt8} (n : Nat) (id : UInt16) (hh : Header p hd) :
    SimE σ ρ (sendPublishWithoutCopy g p hd n id) (sendPublishWithoutCopy g p hd n id) := by
  unfold sendPublishWithoutCopy
  refine sim_ctx fun c => simE_bind (m' := (if p.qos ≠ .qos0 ∧ (noRetransmits c).retransmits then storePublish p hd n id else pure (.success, hd))) ?_ fun x => ?_
  · rw [if_neg (by simp : ¬ (p.qos ≠ .qos0 ∧ (noRetransmits c).retransmits = true))]
    by_cases hc : p.qos ≠ .qos0 ∧ c.retransmits = true
    · rw [if_pos hc]
      exact sim_storePublish n id hc.1 hh
    · rw [if_neg hc]
      exact simE_pure _
  · sims [sim_sendWholeVector g _]

theorem sim_sendConnect (g : Cfg) (ci : ConnectInfo) (will : Option PublishInfo) (n : Nat) :
    SimE σ ρ (sendConnectWithoutCopy g ci will n) (sendConnectWithoutCopy g ci will n) := by
  unfold sendConnectWithoutCopy
  sims [sim_sendWholeVector g _]

theorem sim_sendIfConnected (g : Cfg) (bs : List UInt8) : SimE σ ρ (sendIfConnected g bs) (sendIfConnected g bs) := by
  unfold sendIfConnected
  sims [sim_sendBuffer g bs]

theorem sim_ackM (id : UInt16) (a : AckType) (op : Op) : SimE σ ρ (updateStateAckM id a op) (updateStateAckM id a op) := sim_tables _
theorem sim_pubM (id : UInt16) (op : Op) (q : QoS) : SimE σ ρ (updateStatePublishM id op q) (updateStatePublishM id op q) := sim_tables _

theorem sim_sendPublishAcks (g : Cfg) (id : UInt16) (p : PubState) : SimE σ ρ (sendPublishAcks g id p) (sendPublishAcks g id p) := by
  unfold sendPublishAcks
  sims [sim_sendIfConnected g _, sim_ackM ..]
  exact sim_modify fun _ => rfl

theorem sim_ping (g : Cfg) : SimE σ ρ (mqttPing g) (mqttPing g) := by
  unfold mqttPing
  sims [sim_sendIfConnected g _]
  exact sim_modify fun _ => rfl

theorem sim_recvInto (pos n : Nat) : SimE σ ρ (recvInto pos n) (recvInto pos n) := by
  unfold recvInto
  sims [simE_pure _]
  exact sim_modify fun _ => rfl

theorem sim_markHooked : SimE σ ρ markPendingHooked markPendingHooked := by
  unfold markPendingHooked
  sims [sim_pre]

theorem sim_recvExactLoop (g : Cfg) : ∀ n pos m (t : UInt32),
    SimE σ ρ (recvExactLoop g n pos m t) (recvExactLoop g n pos m t)
  | 0, _, _, _ => simE_stuck
  | n + 1, pos, m, t => by
    unfold recvExactLoop
    sims [sim_recvInto _ _, sim_markHooked, sim_recvExactLoop g n _ _ _]

theorem sim_recvExact (g : Cfg) (n : Nat) : SimE σ ρ (recvExact g n) (recvExact g n) := by
  unfold recvExact
  sims [sim_recvExactLoop g _ _ _ _]

theorem sim_discardLoop (g : Cfg) (T t0 : UInt32) : ∀ n left b,
    SimE σ ρ (discardLoop g T t0 n left b) (discardLoop g T t0 n left b)
  | 0, _, _ => simE_stuck
  | n + 1, left, b => by
    unfold discardLoop
    sims [sim_recvExact g _, sim_discardLoop g T t0 n _ _]

theorem sim_discardPacket (g : Cfg) (n : Nat) (T : UInt32) : SimE σ ρ (discardPacket g n T) (discardPacket g n T) := by
  unfold discardPacket
  sims [sim_discardLoop g _ _ _ _ _]

theorem sim_discardStoredLoop (g : Cfg) : ∀ n left b, SimE σ ρ (discardStoredLoop g n left b) (discardStoredLoop g n left b)
  | 0, _, _ => simE_stuck
  | n + 1, left, b => by
    unfold discardStoredLoop
    sims [sim_recvExact g _, sim_discardStoredLoop g n _ _]

theorem sim_resetBuffer : SimE σ ρ resetBuffer resetBuffer := by
  exact sim_modify fun _ => rfl

theorem sim_discardStored (g : Cfg) (n : Nat) : SimE σ ρ (discardStoredPacket g n) (discardStoredPacket g n) := by
  unfold discardStoredPacket
  sims [sim_discardStoredLoop g _ _ _, sim_resetBuffer]

theorem sim_receivePacket (g : Cfg) (n : Nat) (T : UInt32) : SimE σ ρ (receivePacket g n T) (receivePacket g n T) := by
  unfold receivePacket
  sims [sim_discardPacket g _ _, sim_recvExact g _]

theorem sim_handleKeepAlive (g : Cfg) : SimE σ ρ (handleKeepAlive g) (handleKeepAlive g) := by
  unfold handleKeepAlive
  sims [sim_ping g]

theorem sim_recordIncoming (id : UInt16) (q : QoS) : SimE σ ρ (recordIncomingPublish id q) (recordIncomingPublish id q) := by
  unfold recordIncomingPublish
  sims [sim_pubM ..]

theorem sim_handleIncomingPublish (g : Cfg) (pk : PacketInfo) : SimE σ ρ (handleIncomingPublish g pk) (handleIncomingPublish g pk) := by
  unfold handleIncomingPublish
  sims [sim_recordIncoming .., sim_sendPublishAcks g _ _]

/-- A call of the clear callback is the only difference. -/
theorem sim_clear (id : UInt16) : SimE σ ρ (clearCallback id) (pure ()) := fun w w' h a w1 hd => by
  cases hd
  exact ⟨[.clear id], rfl, fun _ => ⟨_, w', rfl, rfl, ⟨h.ctx, h.env⟩, (List.append_nil _).symm⟩⟩

theorem sim_clearIf {P : Prop} {c : Ctx} {d : Decidable (P ∧ c.retransmits = true)} {d' : Decidable (P ∧ (noRetransmits c).retransmits = true)} {id : UInt16}
    {m m' : M α} (h : SimE σ ρ m m') :
    SimE σ ρ (@ite _ (P ∧ c.retransmits = true) d (clearCallback id >>= fun _ => m) m)
      (@ite _ (P ∧ (noRetransmits c).retransmits = true) d' (clearCallback id >>= fun _ => m') m') := by
  rw [if_neg (by simp : ¬ (P ∧ (noRetransmits c).retransmits = true))]
  split
  · intro w w' hw a w1 hd
    have := simE_bind (S := SameRes) (f' := fun _ => m') (sim_clear id) (fun _ => h) w w' hw a w1 hd
    exact this
  · exact h

theorem sim_handlePublishAcks (g : Cfg) (pk : PacketInfo) : SimE σ ρ (handlePublishAcks g pk) (handlePublishAcks g pk) := by
  unfold handlePublishAcks
  sims [sim_ackM .., sim_sendPublishAcks g _ _, sim_clearIf (simE_bind (sim_app ..) fun _ => sim_sendPublishAcks g _ _)]

theorem sim_handleIncomingAck (g : Cfg) (pk : PacketInfo) (b : Bool) : SimE σ ρ (handleIncomingAck g pk b) (handleIncomingAck g pk b) := by
  unfold handleIncomingAck
  sims [sim_handlePublishAcks g pk]
  exact sim_modify fun _ => rfl

theorem sim_receiveHeader : SimE σ ρ receiveHeader receiveHeader := by
  unfold receiveHeader
  sims [sim_recvInto _ _, sim_markHooked]
  exact sim_modify fun _ => rfl

theorem sim_keepAliveCheck (g : Cfg) (n : Option Nat) (b : Bool) (st : Status) :
    SimE σ ρ (keepAliveCheck g n b st) (keepAliveCheck g n b st) := by
  unfold keepAliveCheck
  sims [sim_handleKeepAlive g]

theorem sim_checkComplete (g : Cfg) (st : Status) (n : Nat) : SimE σ ρ (checkComplete g st n) (checkComplete g st n) := by
  unfold checkComplete
  sims [sim_discardStored g _]

theorem sim_handlePacket (g : Cfg) (b : Bool) (h : HeaderRes) : SimE σ ρ (handlePacket g b h) (handlePacket g b h) := by
  unfold handlePacket
  sims [sim_handleIncomingPublish g _, sim_handleIncomingAck g _ _]
  all_goals exact sim_modify fun _ => rfl

theorem sim_iteration (g : Cfg) (b : Bool) :
    SimE σ ρ (receiveSingleIteration g b) (receiveSingleIteration g b) := by
  unfold receiveSingleIteration
  sims [sim_receiveHeader, sim_keepAliveCheck g _ _ _, sim_checkComplete g _ _, sim_handlePacket g _ _]

theorem sim_processLoop (g : Cfg) : SimE σ ρ (mqttProcessLoop g) (mqttProcessLoop g) := by
  unfold mqttProcessLoop
  sims [sim_iteration g _]
  exact sim_modify fun _ => rfl

theorem sim_recvOne : SimE σ ρ recvOne recvOne := by
  unfold recvOne
  sims [simE_pure _]

theorem sim_remainingLoop : ∀ n a b c, SimE σ ρ (getRemainingLengthLoopM n a b c) (getRemainingLengthLoopM n a b c)
  | 0, _, _, _ => simE_stuck
  | n + 1, a, b, c => by
    unfold getRemainingLengthLoopM
    sims [sim_recvOne, sim_remainingLoop n _ _ _]

theorem sim_remaining : SimE σ ρ getRemainingLengthM getRemainingLengthM := by
  unfold getRemainingLengthM
  sims [sim_remainingLoop ..]

theorem sim_typeAndLength : SimE σ ρ getIncomingPacketTypeAndLengthM getIncomingPacketTypeAndLengthM := by
  unfold getIncomingPacketTypeAndLengthM
  sims [sim_recvOne, sim_remaining]

theorem sim_connackBreak (g : Cfg) (T t0 : UInt32) (n : Nat) : SimE σ ρ (connackBreak g T t0 n) (connackBreak g T t0 n) := by
  unfold connackBreak
  sims [simE_pure _]

theorem sim_connackLoop (g : Cfg) (T t0 : UInt32) : ∀ n c, SimE σ ρ (connackLoop g T t0 n c) (connackLoop g T t0 n c)
  | 0, _ => simE_stuck
  | n + 1, c => by
    unfold connackLoop
    sims [sim_typeAndLength, sim_connackBreak .., sim_connackLoop g T t0 n _]

theorem sim_finishConnack (g : Cfg) (T t0 : UInt32) (cs : Bool) (h : HeaderRes) (sp : Bool) :
    SimE σ ρ (finishConnack g T t0 cs h sp) (finishConnack g T t0 cs h sp) := by
  unfold finishConnack
  sims [sim_receivePacket g _ _]

theorem sim_receiveConnack (g : Cfg) (T : UInt32) (cs sp : Bool) : SimE σ ρ (receiveConnack g T cs sp) (receiveConnack g T cs sp) := by
  unfold receiveConnack
  sims [sim_connackLoop .., sim_finishConnack ..]

theorem sim_resendPubrels (g : Cfg) : ∀ n c, SimE σ ρ (resendPubrels g n c) (resendPubrels g n c)
  | 0, _ => simE_stuck
  | n + 1, c => by
    unfold resendPubrels
    sims [sim_sendPublishAcks g _ _, sim_resendPubrels g n _]

/-- Something that asks for a copy is compared with nothing. -/
theorem sim_retrieve {f f' : Option (List UInt8) → M α} (id : UInt16) (m' : M α) (hf : ∀ x, SimE σ ρ (f x) (f' x)) :
    SimE σ ρ (retrieveCallback id >>= f) m' := fun w w' h a w1 hd => by
  replace hd : M.bind (retrieveCallback id) f w = _ := hd
  unfold M.bind retrieveCallback at hd
  cases hr : w.env.retrieves with
  | nil => rw [hr] at hd; cases hd
  | cons x rest =>
    rw [hr] at hd
    replace hd : f x { w with env := { w.env with retrieves := rest }, trace := w.trace ++ [.retrieve id x] } = _ := hd
    obtain ⟨es, h1, _⟩ := hf x { w with env := { w.env with retrieves := rest }, trace := w.trace ++ [.retrieve id x] } { w with ctx := noRetransmits w.ctx, env := { w.env with stores := σ, retrieves := ρ } } ⟨rfl, rfl⟩ a w1 hd
    refine ⟨.retrieve id x :: es, by rw [h1]; simp, fun hg => ?_⟩
    exact absurd (hg _ List.mem_cons_self) (by simp [stored])

/-- As long as no copy is asked for, nothing is resent. -/
theorem sim_resendPublishes (g : Cfg) : ∀ n c, SimE σ ρ (resendPublishes g n c) (pure .success)
  | 0, _ => fun _ _ _ _ _ hd => by cases hd
  | n + 1, c => by
    unfold resendPublishes
    intro w w' h a w1 hd
    replace hd : M.bind (liftRes (publishToResend w.ctx.tables c)) _ w = _ := hd
    unfold M.bind at hd
    cases hp : publishToResend w.ctx.tables c with
    | ub e => rw [hp] at hd; cases hd
    | ok x =>
      rw [hp] at hd
      obtain ⟨id, cur⟩ := x
      by_cases hid : id = 0
      · subst hid
        exact simE_pure _ w w' h a w1 hd
      · replace hd : (if id = 0 then pure .success else _ : M Status) w = _ := hd
        rw [if_neg hid] at hd
        refine sim_retrieve (f' := fun x => match x with
          | none => pure .publishRetrieveFailed
          | some bytes => do
            preHook
            let r ← sendBuffer g bytes
            postHook
            if r ≠ some bytes.length then pure .sendFailed else pure .success) id _ (fun x => ?_) w w' h a w1 hd
        cases x with
        | none => exact simE_pure _
        | some bs =>
          refine simE_bind sim_pre fun _ => simE_bind (sim_sendBuffer g bs) fun x => simE_bind sim_post fun _ => ?_
          exact sim_ite rfl (fun _ => simE_pure _) fun _ => sim_resendPublishes g n cur

theorem sim_resume (g : Cfg) : SimE σ ρ (handleUncleanSessionResumption g) (handleUncleanSessionResumption g) := by
  unfold handleUncleanSessionResumption
  refine sim_ctx fun c => simE_bind (sim_resendPubrels g _ _) fun st => ?_
  rw [if_neg (by simp : ¬ (st = .success ∧ (noRetransmits c).retransmits = true))]
  by_cases hc : st = .success ∧ c.retransmits = true
  · rw [if_pos hc, hc.1]
    exact sim_resendPublishes g _ _
  · rw [if_neg hc]
    exact simE_pure _

theorem sim_clearStored : ∀ n c, SimE σ ρ (clearStored n c) (pure ())
  | 0, _ => fun _ _ _ _ _ hd => by cases hd
  | n + 1, c => by
    unfold clearStored
    intro w w' h a w1 hd
    replace hd : M.bind (liftRes (publishToResend w.ctx.tables c)) _ w = _ := hd
    unfold M.bind at hd
    cases hp : publishToResend w.ctx.tables c with
    | ub e => rw [hp] at hd; cases hd
    | ok x =>
      rw [hp] at hd
      obtain ⟨id, cur⟩ := x
      by_cases hid : id = 0
      · subst hid
        exact simE_pure _ w w' h a w1 hd
      · replace hd : (if id = 0 then pure () else _ : M Unit) w = _ := hd
        rw [if_neg hid] at hd
        exact simE_bind (f' := fun _ => pure ()) (sim_clear id) (fun _ => sim_clearStored n cur) w w' h a w1 hd

theorem sim_cleanSession : SimE σ ρ handleCleanSession handleCleanSession := by
  unfold handleCleanSession
  refine simE_bind sim_resetBuffer fun _ => sim_ctx fun c => ?_
  have hr : SimE σ ρ (modifyCtx (fun c => { c with tables := ⟨List.replicate c.tables.outgoing.length Rec.empty,
      List.replicate c.tables.incoming.length Rec.empty⟩ }) >>= fun _ => (pure .success : M Status))
      (modifyCtx (fun c => { c with tables := ⟨List.replicate c.tables.outgoing.length Rec.empty,
      List.replicate c.tables.incoming.length Rec.empty⟩ }) >>= fun _ => (pure .success : M Status)) :=
    simE_bind (sim_modify fun _ => rfl) fun _ => simE_pure _
  dsimp only
  by_cases hc : c.retransmits = true
  · rw [if_pos hc, if_neg (by simp : ¬ false = true)]
    intro w w' hw a w1 hd
    exact simE_bind (S := SameRes) (f' := fun _ => _) (sim_clearStored _ _) (fun _ => hr) w w' hw a w1 hd
  · rw [if_neg hc, if_neg (by simp : ¬ false = true)]
    exact hr

theorem sim_connectLocked (g : Cfg) (ci : ConnectInfo) (will : Option PublishInfo) (n : Nat) (T : UInt32) (sp : Bool) :
    SimE σ ρ (connectLocked g ci will n T sp) (connectLocked g ci will n T sp) := by
  unfold connectLocked
  sims [sim_sendConnect .., sim_receiveConnack .., sim_cleanSession]
  exact sim_modify fun _ => rfl

theorem sim_connectFailed (st : Status) : SimE σ ρ (connectFailed st) (connectFailed st) := by
  unfold connectFailed
  sims [sim_markHooked]

theorem sim_connectCore (g : Cfg) (ci : ConnectInfo) (will : Option PublishInfo) (n : Nat) (T : UInt32) (sp : Bool) :
    SimE σ ρ (connectCore g ci will n T sp) (connectCore g ci will n T sp) := by
  unfold connectCore
  sims [sim_connectLocked .., sim_resume g]

theorem sim_connect (g : Cfg) (ci : Option ConnectInfo) (will : Option PublishInfo) (T : UInt32) (sp : Option Bool) :
    SimE σ ρ (mqttConnect g ci will T sp) (mqttConnect g ci will T sp) := by
  unfold mqttConnect
  sims [sim_connectCore .., sim_connectFailed _]

theorem sim_subUnsub (g : Cfg) (ty : SubType) (subs : Option (List SubscribeInfo)) (id : UInt16) :
    SimE σ ρ (mqttSubUnsub g ty subs id) (mqttSubUnsub g ty subs id) := by
  unfold mqttSubUnsub
  refine sim_ctx fun c => ?_
  rw [show validateSubscribeUnsubscribeParams (noRetransmits c) subs id = validateSubscribeUnsubscribeParams c subs id from rfl]
  sims [sim_sendFilters ..]

theorem sim_reserve (p : PublishInfo) (id : UInt16) : SimE σ ρ (reservePublish p id) (reservePublish p id) := by
  unfold reservePublish
  sims [simE_pure _]

theorem sim_notePublish (p : PublishInfo) (id : UInt16) : SimE σ ρ (notePublishSent p id) (notePublishSent p id) := by
  unfold notePublishSent
  sims [sim_pubM ..]

theorem sim_publishLocked (g : Cfg) {p : PublishInfo} {hd : List UInt8} (n : Nat) (id : UInt16) (hh : Header p hd) :
    SimE σ ρ (publishLocked g p hd n id) (publishLocked g p hd n id) := by
  unfold publishLocked
  sims [sim_reserve .., sim_sendPublish g n id hh, sim_notePublish ..]

theorem sim_publish (g : Cfg) (hW : 4294967296 ≤ g.W) (p : Option PublishInfo) (id : UInt16) (hv : ∀ q, p = some q → q.Valid ∧ q.payloadLength < g.W) :
    SimE σ ρ (mqttPublish g p id) (mqttPublish g p id) := by
  unfold mqttPublish
  refine sim_ctx fun c => ?_
  rw [show validatePublishParams (noRetransmits c) p id = validatePublishParams c p id from rfl]
  refine sim_ite rfl (fun _ => simE_pure _) fun _ => ?_
  cases p with
  | none => exact simE_ub _
  | some p =>
    refine sim_ite rfl (fun _ => simE_pure _) fun hsz => ?_
    have hsz : (getPublishPacketSize g.W (some p)).status = .success := Classical.not_not.mp hsz
    obtain ⟨_, _, hr, _, hmax⟩ := getPublishPacketSize_ok hW (hv p rfl).2 (r := (getPublishPacketSize g.W (some p)).remainingLength)
      (s := (getPublishPacketSize g.W (some p)).packetSize) (by rw [← hsz])
    rw [hr]
    obtain ⟨zs, hh⟩ := publishHeader_eq (p := p) (n := pubLen p) (by unfold maxRemaining at hmax; omega)
    rw [hh]
    refine sim_ok ?_
    sims [sim_publishLocked g _ _ ⟨_, rfl⟩]

theorem sim_disconnect (g : Cfg) : SimE σ ρ (mqttDisconnect g) (mqttDisconnect g) := by
  unfold mqttDisconnect
  sims [sim_resetBuffer, sim_sendBuffer g _]
  exact sim_modify fun _ => rfl

theorem sim_cancel (id : UInt16) : SimE σ ρ (mqttCancelCallback id) (mqttCancelCallback id) := by
  unfold mqttCancelCallback
  sims [simE_pure _]

theorem sim_check : SimE σ ρ mqttCheckConnectStatus mqttCheckConnectStatus := by
  unfold mqttCheckConnectStatus
  sims [simE_pure _]

theorem sim_getPacketId : SimE σ ρ mqttGetPacketId mqttGetPacketId := by
  unfold mqttGetPacketId
  sims [simE_pure _]
  exact sim_modify fun _ => rfl

theorem sim_api (g : Cfg) (hW : 4294967296 ≤ g.W) (f : ApiCall) (hv : ValidCall g f) : SimE σ ρ (apiCall g f) (apiCall g f) := by
  cases f with
  | publish p id =>
    simp only [apiCall]
    sims [sim_publish g hW p id hv]
  | _ =>
    simp only [apiCall, mqttSubscribe, mqttUnsubscribe, mqttReceiveLoop]
    sims [sim_connect .., sim_subUnsub .., sim_ping g, sim_disconnect g, sim_cancel _, sim_check, sim_getPacketId, sim_processLoop g, sim_iteration g _]
end

end Mqtt.Storage
