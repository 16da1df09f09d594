/-
Which parts of a session a function may change: a calculus over all functions of the model, whatever the outcome of the run.
-/
import Verif.Spec.Parts
import Verif.Proof.FastRecv

namespace Mqtt.Parts
open Mqtt Spec

/-- However a run of `m` ends, only parts in `P` have changed. -/
def Touch (P : Part → Prop) {α : Type} (m : M α) : Prop := ∀ w p, ¬ P p → Same p w.ctx (m w).world.ctx

theorem same_refl (p : Part) (c : Ctx) : Same p c c := by cases p <;> simp [Same]

theorem same_trans {p : Part} {a b c : Ctx} (h : Same p a b) (k : Same p b c) : Same p a c := by
  cases p <;> simp only [Same] at h k ⊢
  case ping => exact ⟨k.1.trans h.1, k.2.trans h.2⟩
  case buffer => exact ⟨k.1.trans h.1, k.2.trans h.2⟩
  case setup => exact ⟨k.1.trans h.1, k.2.1.trans h.2.1, k.2.2.1.trans h.2.2.1, k.2.2.2.1.trans h.2.2.2.1, k.2.2.2.2.trans h.2.2.2.2⟩
  all_goals exact k.trans h

section
variable {P : Part → Prop} {α β : Type}

theorem touch_keep {m : M α} (h : ∀ w, (m w).world.ctx = w.ctx) : Touch P m := fun w p _ => by rw [h w]; exact same_refl _ _

theorem touch_bind {m : M α} {f : α → M β} (hm : Touch P m) (hf : ∀ a, Touch P (f a)) : Touch P (m >>= f) := by
  intro w p hp
  have h1 := hm w p hp
  show Same p w.ctx (M.bind m f w).world.ctx
  unfold M.bind
  cases he : m w with
  | done a w' => rw [he] at h1; exact same_trans h1 (hf a w' p hp)
  | stuck w' => rw [he] at h1; exact h1
  | ub x w' => rw [he] at h1; exact h1

theorem touch_pure (a : α) : Touch P (pure a : M α) := touch_keep fun _ => rfl
theorem touch_stuck : Touch P (stuckM : M α) := touch_keep fun _ => rfl
theorem touch_ub (e : UB) : Touch P (ubM e : M α) := touch_keep fun _ => rfl
theorem touch_lift (r : Res α) : Touch P (liftRes r) := touch_keep fun _ => by unfold liftRes; cases r <;> rfl
theorem touch_getCtx : Touch P getCtx := touch_keep fun _ => rfl
theorem touch_sendFuel : Touch P sendFuel := touch_keep fun _ => rfl
theorem touch_recvFuel : Touch P recvFuel := touch_keep fun _ => rfl
theorem touch_clockFuel : Touch P clockFuel := touch_keep fun _ => rfl
theorem touch_pre : Touch P preHook := touch_keep fun _ => rfl
theorem touch_post : Touch P postHook := touch_keep fun _ => rfl
theorem touch_clear (id : UInt16) : Touch P (clearCallback id) := touch_keep fun _ => rfl
theorem touch_app (pk : PacketInfo) (id : UInt16) (r : Status) (p : Option PublishInfo) : Touch P (appCallback pk id r p) := touch_keep fun _ => rfl
theorem touch_getTime : Touch P getTime := touch_keep fun w => by cases h : w.env.clock <;> simp only [getTime, h] <;> rfl
theorem touch_store (id : UInt16) (v : List IoVec) : Touch P (storeCallback id v) :=
  touch_keep fun w => by cases h : w.env.stores <;> simp only [storeCallback, h] <;> rfl
theorem touch_retrieve (id : UInt16) : Touch P (retrieveCallback id) :=
  touch_keep fun w => by cases h : w.env.retrieves <;> simp only [retrieveCallback, h] <;> rfl
theorem touch_send (bs : List UInt8) : Touch P (transportSend bs) := touch_keep fun w => by
  cases h : w.env.sends with
  | nil => simp only [transportSend, h]; rfl
  | cons t r => cases t <;> simp only [transportSend, h] <;> rfl
theorem touch_recv (n : Nat) : Touch P (transportRecv n) := touch_keep fun w => by
  cases h : w.env.recvs with
  | nil => simp only [transportRecv, h]; rfl
  | cons t r => cases t <;> simp only [transportRecv, h] <;> rfl

theorem touch_modify {f : Ctx → Ctx} (h : ∀ c p, ¬ P p → Same p c (f c)) : Touch P (modifyCtx f) := fun w p hp => h w.ctx p hp

theorem touch_tables {f : Tables → Res (α × Tables)} (h : ∀ t a t', f t = .ok (a, t') →
    (t'.outgoing.length = t.outgoing.length ∧ t'.incoming.length = t.incoming.length) ∧ (¬ P .outgoing → t'.outgoing = t.outgoing) ∧
    (¬ P .incoming → t'.incoming = t.incoming)) : Touch P (onTables f) := by
  intro w p hp
  unfold onTables
  cases he : f w.ctx.tables with
  | ub e => exact same_refl _ _
  | ok x =>
    obtain ⟨a, t⟩ := x
    obtain ⟨h1, h2, h3⟩ := h _ _ _ he
    cases p
    case outgoing => exact h2 hp
    case incoming => exact h3 hp
    case setup => exact ⟨rfl, h1.1, h1.2, rfl, rfl⟩
    all_goals simp [Same, Out.world]

theorem touch_ite {c : Prop} [Decidable c] {a b : M α} (ha : c → Touch P a) (hb : ¬ c → Touch P b) : Touch P (if c then a else b) := by
  split
  · exact ha ‹_›
  · exact hb ‹_›

syntax "parts" "[" term,* "]" : tactic
macro_rules
  | `(tactic| parts [$[$ts],*]) => `(tactic|
      repeat' (with_reducible first
        | (first $[| exact $ts]*)
        | exact touch_pure _ | exact touch_stuck | exact touch_ub _ | exact touch_lift _ | exact touch_getCtx | exact touch_pre | exact touch_post
        | exact touch_clear _ | exact touch_app .. | exact touch_getTime | exact touch_store .. | exact touch_retrieve _
        | exact touch_sendFuel | exact touch_recvFuel | exact touch_clockFuel | exact touch_send _ | exact touch_recv _
        | (intro _) | apply touch_ite | apply touch_bind | split))

/-! ### The state engine -/

theorem updateStatePublish_sizes {t : Tables} {i : Nat} {id : UInt16} {op : Op} {q : QoS} {c n : PubState} {st : Status} {t' : Tables}
    (h : updateStatePublish t i id op q c n = .ok (st, t')) : t'.incoming.length = t.incoming.length ∧ (op = .send → t'.incoming = t.incoming) := by
  unfold updateStatePublish at h
  obtain ⟨_, _, h⟩ := Res.bind_ok h
  obtain ⟨_, _, h⟩ := Res.bind_ok h
  split at h
  · split at h
    · obtain ⟨x, h1, h⟩ := Res.bind_ok h
      cases h; exact ⟨addRecord_len h1, fun h => by cases h⟩
    · split at h
      · obtain ⟨x, h1, h⟩ := Res.bind_ok h
        cases h; exact ⟨rfl, fun _ => rfl⟩
      · cases h; exact ⟨rfl, fun _ => rfl⟩
  · cases h; exact ⟨rfl, fun _ => rfl⟩

theorem updateStatePublishApi_sizes {t : Tables} {id : UInt16} {op : Op} {q : QoS} {st : Status} {s : Option PubState} {t' : Tables}
    (h : updateStatePublishApi t id op q = .ok (st, s, t')) : t'.incoming.length = t.incoming.length ∧ (op = .send → t'.incoming = t.incoming) := by
  unfold updateStatePublishApi at h
  split at h
  · cases h; exact ⟨rfl, fun _ => rfl⟩
  · split at h
    · cases h; exact ⟨rfl, fun _ => rfl⟩
    · dsimp only at h
      split at h
      · obtain ⟨o, _, h⟩ := Res.bind_ok h
        split at h
        · cases h; exact ⟨rfl, fun _ => rfl⟩
        · split at h
          · cases h; exact ⟨rfl, fun _ => rfl⟩
          · obtain ⟨⟨st1, t1⟩, h1, h⟩ := Res.bind_ok h
            cases h
            exact updateStatePublish_sizes h1
      · obtain ⟨⟨st1, t1⟩, h1, h⟩ := Res.bind_ok h
        cases h
        exact updateStatePublish_sizes h1

theorem reserveState_incoming {t : Tables} {id : UInt16} {q : QoS} {st : Status} {t' : Tables} (h : reserveState t id q = .ok (st, t')) :
    t'.incoming = t.incoming := by
  unfold reserveState at h
  split at h
  · cases h; rfl
  · split at h
    · cases h; rfl
    · obtain ⟨⟨st1, o⟩, h1, h⟩ := Res.bind_ok h
      cases h
      rfl

theorem removeStateRecord_incoming {t : Tables} {id : UInt16} {st : Status} {t' : Tables} (h : removeStateRecord t id = .ok (st, t')) :
    t'.incoming = t.incoming := by
  unfold removeStateRecord at h
  split at h
  · cases h; rfl
  · obtain ⟨o, _, h⟩ := Res.bind_ok h
    split at h
    · cases h; rfl
    · split at h
      · cases h; rfl
      · split at h
        · cases h; rfl
        · obtain ⟨r1, h1, h⟩ := Res.bind_ok h
          cases h
          rfl

theorem updateStateAckApi_incoming {t : Tables} {id : UInt16} {a : AckType} {op : Op} {st : Status} {s : Option PubState} {t' : Tables}
    (h : updateStateAckApi t id a op = .ok (st, s, t')) : t'.incoming.length = t.incoming.length := by
  unfold updateStateAckApi at h
  split at h
  · cases h; rfl
  · dsimp only at h
    obtain ⟨o, _, h⟩ := Res.bind_ok h
    split at h
    · cases h; rfl
    · obtain ⟨⟨st1, r1⟩, h1, h⟩ := Res.bind_ok h
      have := updateStateAck_len h1
      dsimp only at h
      by_cases ho : isPublishOutgoing a op = true
      · rw [if_pos ho] at h this
        cases h; rfl
      · rw [if_neg ho] at h this
        cases h; exact this

theorem touch_stateAck (id : UInt16) (a : AckType) (op : Op) (ho : P .outgoing) (hi : P .incoming) : Touch P (updateStateAckM id a op) := by
  refine touch_tables ?_
  intro t x t' h
  obtain ⟨⟨st, s, t1⟩, h1, h⟩ := Res.bind_ok h
  cases h
  exact ⟨⟨updateStateAckApi_len h1, updateStateAckApi_incoming h1⟩, fun h => absurd ho h, fun h => absurd hi h⟩

theorem touch_statePublish (id : UInt16) (op : Op) (q : QoS) (ho : P .outgoing) (hi : op = .send ∨ P .incoming) : Touch P (updateStatePublishM id op q) := by
  refine touch_tables ?_
  intro t x t' h
  obtain ⟨⟨st, s, t1⟩, h1, h⟩ := Res.bind_ok h
  cases h
  have k := updateStatePublishApi_sizes h1
  exact ⟨⟨updateStatePublishApi_len h1, k.1⟩, fun h => absurd ho h, fun h => k.2 (hi.resolve_right h)⟩

theorem touch_reserve (id : UInt16) (q : QoS) (ho : P .outgoing) : Touch P (onTables fun t => reserveState t id q) := by
  refine touch_tables ?_
  intro t x t' h
  have k := reserveState_incoming h
  exact ⟨⟨reserveState_len h, by rw [k]⟩, fun h => absurd ho h, fun _ => k⟩

theorem touch_remove (id : UInt16) (ho : P .outgoing) : Touch P (onTables fun t => removeStateRecord t id) := by
  refine touch_tables ?_
  intro t x t' h
  have k := removeStateRecord_incoming h
  exact ⟨⟨removeStateRecord_len h, by rw [k]⟩, fun h => absurd ho h, fun _ => k⟩

/-! ### Sending -/

/-- Proves that an assignment changes only the permitted parts. -/
syntax "assigns" : tactic
macro_rules
  | `(tactic| assigns) => `(tactic|
      (refine touch_modify ?_; intro c p hp; cases p <;> first | (exfalso; apply hp; assumption) | simp [Same]))

theorem touch_markPending (h : P .status) : Touch P markPending := by
  refine touch_modify ?_
  intro c p hp
  split
  · cases p <;> first | exact absurd h hp | simp [Same]
  · exact same_refl _ _

theorem touch_noteSend (h : P .status) (h' : P .sentAt) (r : Option Nat) : Touch P (noteSendResult r) := by
  unfold noteSendResult; parts [touch_markPending h]; assigns

theorem touch_bufferLoop (h : P .status) (h' : P .sentAt) (g : Cfg) (t0 : UInt32) : ∀ n rest sent, Touch P (sendBufferLoop g t0 n rest sent)
  | 0, _, _ => touch_stuck
  | n + 1, rest, sent => by
    have ih := touch_bufferLoop h h' g t0 n
    unfold sendBufferLoop; parts [ih _ _, touch_noteSend h h' _]

theorem touch_sendBuffer (h : P .status) (h' : P .sentAt) (g : Cfg) (bs : List UInt8) : Touch P (sendBuffer g bs) := by
  unfold sendBuffer; parts [touch_bufferLoop h h' g _ _ _ _]

theorem touch_vecLoop (h : P .status) (h' : P .sentAt) (g : Cfg) (t0 : UInt32) (N : Nat) : ∀ n vecs sent, Touch P (sendVecLoop g t0 N n vecs sent)
  | 0, _, _ => touch_stuck
  | n + 1, rest, sent => by
    have ih := touch_vecLoop h h' g t0 N n
    unfold sendVecLoop; parts [ih _ _, touch_noteSend h h' _]

theorem touch_whole (h : P .status) (h' : P .sentAt) (g : Cfg) (v : List IoVec) : Touch P (sendWholeVector g v) := by
  unfold sendWholeVector sendMessageVector; parts [touch_vecLoop h h' g _ _ _ _ _]

theorem touch_filtersLoop (h : P .status) (h' : P .sentAt) (g : Cfg) (ty : SubType) : ∀ n v l, Touch P (sendFiltersLoop g ty n v l)
  | 0, _, _ => touch_stuck
  | n + 1, v, l => by
    have ih := touch_filtersLoop h h' g ty n
    unfold sendFiltersLoop; parts [ih _ _, touch_whole h h' g _]

theorem touch_filters (h : P .status) (h' : P .sentAt) (g : Cfg) (ty : SubType) (l : List SubscribeInfo) (id : UInt16) (n : Nat) :
    Touch P (sendFiltersWithoutCopy g ty l id n) := by
  unfold sendFiltersWithoutCopy; parts [touch_filtersLoop h h' g ty _ _ _]

theorem touch_sendPublish (h : P .status) (h' : P .sentAt) (g : Cfg) (p : PublishInfo) (hd : List UInt8) (n : Nat) (id : UInt16) :
    Touch P (sendPublishWithoutCopy g p hd n id) := by
  unfold sendPublishWithoutCopy storePublish; parts [touch_whole h h' g _]

theorem touch_sendConnect (h : P .status) (h' : P .sentAt) (g : Cfg) (ci : ConnectInfo) (will : Option PublishInfo) (n : Nat) :
    Touch P (sendConnectWithoutCopy g ci will n) := by
  unfold sendConnectWithoutCopy; parts [touch_whole h h' g _]

theorem touch_ifConnected (h : P .status) (h' : P .sentAt) (g : Cfg) (bs : List UInt8) : Touch P (sendIfConnected g bs) := by
  unfold sendIfConnected; parts [touch_sendBuffer h h' g _]

theorem touch_acks (h : P .status) (h' : P .sentAt) (ho : P .outgoing) (hi : P .incoming) (g : Cfg) (id : UInt16) (s : PubState) :
    Touch P (sendPublishAcks g id s) := by
  unfold sendPublishAcks; parts [touch_ifConnected h h' g _, touch_stateAck _ _ _ ho hi]; assigns

theorem touch_ping (h : P .status) (h' : P .sentAt) (hp : P .ping) (g : Cfg) : Touch P (mqttPing g) := by
  unfold mqttPing; parts [touch_ifConnected h h' g _]; assigns

/-! ### Receiving -/

theorem writeAt_len {mem : List UInt8} {pos : Nat} {bs : List UInt8} (h : pos + bs.length ≤ mem.length) : (writeAt mem pos bs).length = mem.length := by
  unfold writeAt
  simp only [List.length_append, List.length_take, List.length_drop]
  omega

theorem touch_recvInto (hb : P .buffer) (pos n : Nat) : Touch P (recvInto pos n) := by
  intro w p hp
  unfold recvInto
  show Same p w.ctx (M.bind getCtx _ w).world.ctx
  unfold M.bind getCtx
  dsimp only
  split
  · rename_i hf
    show Same p w.ctx (M.bind (transportRecv n) _ w).world.ctx
    unfold M.bind transportRecv
    cases hr : w.env.recvs with
    | nil => exact same_refl _ _
    | cons t r =>
      cases t with
      | fail => exact same_refl _ _
      | deliver k =>
        show Same p w.ctx { w.ctx with netBuf := writeAt w.ctx.netBuf pos (w.env.input.take (min k n)) }
        have hl : (writeAt w.ctx.netBuf pos (w.env.input.take (min k n))).length = w.ctx.netBuf.length := by
          refine writeAt_len ?_
          have : w.ctx.bufSize = w.ctx.netBuf.length := rfl
          rw [List.length_take]
          omega
        cases p
        case buffer => exact absurd hb hp
        case setup => exact ⟨hl, rfl, rfl, rfl, rfl⟩
        all_goals simp [Same]
  · exact same_refl _ _

theorem touch_hooked (h : P .status) : Touch P markPendingHooked := by
  unfold markPendingHooked; parts [touch_markPending h]

theorem touch_exactLoop (h : P .status) (hb : P .buffer) (g : Cfg) : ∀ n p k t, Touch P (recvExactLoop g n p k t)
  | 0, _, _, _ => touch_stuck
  | n + 1, p, k, t => by
    have ih := touch_exactLoop h hb g n
    unfold recvExactLoop; parts [ih _ _ _, touch_recvInto hb _ _, touch_hooked h]

theorem touch_exact (h : P .status) (hb : P .buffer) (g : Cfg) (n : Nat) : Touch P (recvExact g n) := by
  unfold recvExact; parts [touch_exactLoop h hb g _ _ _ _]

theorem touch_discardLoop (h : P .status) (hb : P .buffer) (g : Cfg) (a b : UInt32) : ∀ n l k, Touch P (discardLoop g a b n l k)
  | 0, _, _ => touch_stuck
  | n + 1, l, k => by
    have ih := touch_discardLoop h hb g a b n
    unfold discardLoop; parts [ih _ _, touch_exact h hb g _]

theorem touch_storedLoop (h : P .status) (hb : P .buffer) (g : Cfg) : ∀ n l k, Touch P (discardStoredLoop g n l k)
  | 0, _, _ => touch_stuck
  | n + 1, l, k => by
    have ih := touch_storedLoop h hb g n
    unfold discardStoredLoop; parts [ih _ _, touch_exact h hb g _]

theorem touch_reset (hb : P .buffer) : Touch P resetBuffer := by
  refine touch_modify ?_
  intro c p hp
  cases p
  case buffer => exact absurd hb hp
  case setup => exact ⟨by simp [Ctx.bufSize], rfl, rfl, rfl, rfl⟩
  all_goals simp [Same]

theorem touch_discardStored (h : P .status) (hb : P .buffer) (g : Cfg) (n : Nat) : Touch P (discardStoredPacket g n) := by
  unfold discardStoredPacket; parts [touch_storedLoop h hb g _ _ _, touch_reset hb]

theorem touch_receivePacket (h : P .status) (hb : P .buffer) (g : Cfg) (n : Nat) (t : UInt32) : Touch P (receivePacket g n t) := by
  unfold receivePacket discardPacket; parts [touch_discardLoop h hb g _ _ _ _ _, touch_exact h hb g _]

theorem touch_incomingPublish (h : P .status) (h' : P .sentAt) (ho : P .outgoing) (hi : P .incoming) (g : Cfg) (pk : PacketInfo) :
    Touch P (handleIncomingPublish g pk) := by
  unfold handleIncomingPublish recordIncomingPublish; parts [touch_acks h h' ho hi g _ _, touch_statePublish _ _ _ ho (.inr hi)]

theorem touch_publishAcks (h : P .status) (h' : P .sentAt) (ho : P .outgoing) (hi : P .incoming) (g : Cfg) (pk : PacketInfo) :
    Touch P (handlePublishAcks g pk) := by
  unfold handlePublishAcks; parts [touch_acks h h' ho hi g _ _, touch_stateAck _ _ _ ho hi]

theorem touch_incomingAck (h : P .status) (h' : P .sentAt) (ho : P .outgoing) (hi : P .incoming) (g : Cfg) (pk : PacketInfo) (m : Bool)
    (hm : m = true → P .ping) : Touch P (handleIncomingAck g pk m) := by
  unfold handleIncomingAck
  refine touch_ite (fun _ => touch_publishAcks h h' ho hi g _) fun _ => touch_ite (fun _ => ?_) fun _ => ?_
  · refine touch_bind (touch_lift _) fun x => ?_
    obtain ⟨st, id, _⟩ := x
    refine touch_ite (fun _ => touch_pure _) fun _ => touch_ite (fun hk => ?_) fun _ => ?_
    · have hp := hm hk
      refine touch_bind ?_ fun _ => touch_pure _
      assigns
    · parts [touch_pure _]
  · parts [touch_pure _]

theorem touch_header (h : P .status) (hb : P .buffer) : Touch P receiveHeader := by
  unfold receiveHeader; parts [touch_recvInto hb _ _, touch_hooked h]; assigns

theorem touch_keepAlive (h : P .status) (h' : P .sentAt) (hp : P .ping) (g : Cfg) : Touch P (handleKeepAlive g) := by
  unfold handleKeepAlive; parts [touch_ping h h' hp g]

theorem touch_modify_at {f : Ctx → Ctx} {k : Unit → M β} {w : World} {p : Part} (hp : ¬ P p) (h : Same p w.ctx (f w.ctx)) (hk : Touch P (k ())) :
    Same p w.ctx ((modifyCtx f >>= k) w).world.ctx := same_trans h (hk { w with ctx := f w.ctx } p hp)

theorem touch_handlePacket (h : P .status) (h' : P .sentAt) (ho : P .outgoing) (hi : P .incoming) (hb : P .buffer) (hr : P .receivedAt) (g : Cfg) (m : Bool)
    (hm : m = true → P .ping) (hd : HeaderRes) : Touch P (handlePacket g m hd) := by
  unfold handlePacket
  refine touch_bind touch_getCtx fun c => touch_bind ?_ fun st => ?_
  · exact touch_ite (fun _ => touch_incomingPublish h h' ho hi g _) fun _ => touch_incomingAck h h' ho hi g _ _ hm
  · intro w p hp
    show Same p w.ctx (M.bind getCtx _ w).world.ctx
    unfold M.bind getCtx
    dsimp only
    split
    · rename_i hf
      refine touch_modify_at hp ?_ ?_
      · cases p
        case buffer => exact absurd hb hp
        case setup =>
          refine ⟨writeAt_len ?_, rfl, rfl, rfl, rfl⟩
          rw [List.length_take, List.length_drop]
          have : w.ctx.bufSize = w.ctx.netBuf.length := rfl
          omega
        all_goals simp [Same]
      · parts [touch_pure _]
        assigns
    · exact same_refl _ _

theorem touch_iteration (h : P .status) (h' : P .sentAt) (ho : P .outgoing) (hi : P .incoming) (hb : P .buffer) (hr : P .receivedAt) (g : Cfg) (m : Bool)
    (hm : m = true → P .ping) : Touch P (receiveSingleIteration g m) := by
  unfold receiveSingleIteration checkComplete
  refine touch_bind (touch_header h hb) fun x => ?_
  obtain ⟨rb, hd⟩ := x
  refine touch_bind ?_ fun st => ?_
  · unfold keepAliveCheck
    refine touch_ite (fun hk => ?_) fun _ => touch_pure _
    parts [touch_keepAlive h h' (hm hk.2) g]
  · parts [touch_discardStored h hb g _, touch_handlePacket h h' ho hi hb hr g m hm _]

/-! ### Connecting -/

theorem touch_recvOne : Touch P recvOne := by unfold recvOne; parts [touch_pure _]

theorem touch_lengthLoop : ∀ n a b c, Touch P (getRemainingLengthLoopM n a b c)
  | 0, _, _, _ => touch_stuck
  | n + 1, a, b, c => by
    have ih := touch_lengthLoop n
    unfold getRemainingLengthLoopM; parts [ih _ _ _, touch_recvOne]

theorem touch_getIncoming : Touch P getIncomingPacketTypeAndLengthM := by
  unfold getIncomingPacketTypeAndLengthM getRemainingLengthM; parts [touch_lengthLoop _ _ _ _, touch_recvOne]

theorem touch_connackLoop (g : Cfg) (a b : UInt32) : ∀ n k, Touch P (connackLoop g a b n k)
  | 0, _ => touch_stuck
  | n + 1, k => by
    have ih := touch_connackLoop g a b n
    unfold connackLoop connackBreak; parts [ih _, touch_getIncoming]

theorem touch_connack (h : P .status) (hb : P .buffer) (g : Cfg) (t : UInt32) (a b : Bool) : Touch P (receiveConnack g t a b) := by
  unfold receiveConnack finishConnack; parts [touch_connackLoop g _ _ _ _, touch_receivePacket h hb g _ _]

theorem touch_pubrels (h : P .status) (h' : P .sentAt) (ho : P .outgoing) (hi : P .incoming) (g : Cfg) : ∀ n k, Touch P (resendPubrels g n k)
  | 0, _ => touch_stuck
  | n + 1, k => by
    have ih := touch_pubrels h h' ho hi g n
    unfold resendPubrels; parts [ih _, touch_acks h h' ho hi g _ _]

theorem touch_resend (h : P .status) (h' : P .sentAt) (g : Cfg) : ∀ n k, Touch P (resendPublishes g n k)
  | 0, _ => touch_stuck
  | n + 1, k => by
    have ih := touch_resend h h' g n
    unfold resendPublishes; parts [ih _, touch_sendBuffer h h' g _]

theorem touch_clearStored : ∀ n k, Touch P (clearStored n k)
  | 0, _ => touch_stuck
  | n + 1, k => by
    have ih := touch_clearStored n
    unfold clearStored; parts [ih _]

theorem touch_clean (ho : P .outgoing) (hi : P .incoming) (hb : P .buffer) : Touch P handleCleanSession := by
  unfold handleCleanSession; parts [touch_clearStored _ _, touch_reset hb] <;> assigns

theorem touch_connect (h : P .status) (h' : P .sentAt) (ho : P .outgoing) (hi : P .incoming) (hb : P .buffer) (hp : P .ping) (hk : P .interval)
    (g : Cfg) (ci : Option ConnectInfo) (will : Option PublishInfo) (t : UInt32) (sp : Option Bool) : Touch P (mqttConnect g ci will t sp) := by
  unfold mqttConnect connectCore connectFailed connectLocked handleUncleanSessionResumption
  parts [touch_sendConnect h h' g _ _ _, touch_connack h hb g _ _ _, touch_clean ho hi hb, touch_pubrels h h' ho hi g _ _, touch_resend h h' g _ _,
    touch_hooked h]
  assigns

/-- Every function changes only what the table says. -/
theorem touch_api (g : Cfg) (c : ApiCall) : Touch (fun p => p ∈ changes c) (apiCall g c) := by
  cases c <;> simp only [apiCall, changes]
  case connect ci will t sp =>
    parts [touch_connect (by simp) (by simp) (by simp) (by simp) (by simp) (by simp) (by simp) g _ _ _ _]
  case subscribe => unfold mqttSubscribe mqttSubUnsub; parts [touch_filters (by simp) (by simp) g _ _ _ _]
  case unsubscribe => unfold mqttUnsubscribe mqttSubUnsub; parts [touch_filters (by simp) (by simp) g _ _ _ _]
  case publish =>
    unfold mqttPublish publishLocked reservePublish notePublishSent
    parts [touch_sendPublish (by simp) (by simp) g _ _ _ _, touch_reserve _ _ (by simp), touch_statePublish _ _ _ (by simp) (.inl rfl)]
  case ping => parts [touch_ping (by simp) (by simp) (by simp) g]
  case disconnect =>
    unfold mqttDisconnect; parts [touch_sendBuffer (by simp) (by simp) g _, touch_reset (by simp)]
    refine touch_modify ?_
    intro c p hp
    cases p <;> first | (exfalso; apply hp; simp; done) | simp [Same]
  case processLoop =>
    unfold mqttProcessLoop; parts [touch_iteration (by simp) (by simp) (by simp) (by simp) (by simp) (by simp) g true (by simp)]
    refine touch_modify ?_
    intro c p hp
    cases p <;> simp [Same]
  case receiveLoop =>
    unfold mqttReceiveLoop; parts [touch_iteration (by simp) (by simp) (by simp) (by simp) (by simp) (by simp) g false (by simp)]
  case cancelCallback => unfold mqttCancelCallback; parts [touch_remove _ (by simp)]
  case checkConnectStatus => unfold mqttCheckConnectStatus; parts [touch_pure _]
  case getPacketId =>
    unfold mqttGetPacketId; parts [touch_pure _]
    refine touch_modify ?_
    intro c p hp
    cases p <;> first | (exfalso; apply hp; simp; done) | simp [Same]

end
end Mqtt.Parts
