/-
A property of every event of a run, whatever its outcome.
-/
import Verif.Proof.LastTx

namespace Mqtt
open Spec

/-- The run of `m` from `w` extends the trace by events that all satisfy `P`. -/
def EvAt (P : Event → Prop) {α : Type} (m : M α) (w : World) : Prop :=
  ∃ es, (m w).world.trace = w.trace ++ es ∧ ∀ e ∈ es, P e

/-- The same for every world. -/
def Evs (P : Event → Prop) {α : Type} (m : M α) : Prop := ∀ w, EvAt P m w

/-- Transport calls concern at least one byte. -/
def someBytes : Event → Prop
  | .sent bs _ => bs ≠ []
  | .recvd n _ => n ≠ 0
  | _ => True

section
variable {P : Event → Prop} {α β : Type}

theorem evAt_same {m : M α} {w : World} (h : (m w).world.trace = w.trace) : EvAt P m w := ⟨[], by simp [h], by simp⟩
theorem evAt_one {m : M α} {w : World} {e : Event} (h : (m w).world.trace = w.trace ++ [e]) (he : P e) : EvAt P m w :=
  ⟨[e], h, by simpa using he⟩

theorem evAt_bind {m : M α} {f : α → M β} {w : World} (hm : EvAt P m w) (hf : ∀ a w', m w = .done a w' → EvAt P (f a) w') :
    EvAt P (m >>= f) w := by
  obtain ⟨es, h1, h2⟩ := hm
  show EvAt P (M.bind m f) w
  unfold EvAt M.bind
  cases he : m w with
  | done a w' =>
    obtain ⟨es', h3, h4⟩ := hf a w' he
    rw [he] at h1
    refine ⟨es ++ es', ?_, ?_⟩
    · show (f a w').world.trace = _
      rw [h3, show w'.trace = _ from h1, List.append_assoc]
    · intro e h
      rcases List.mem_append.mp h with h | h
      · exact h2 e h
      · exact h4 e h
  | stuck w' => rw [he] at h1; exact ⟨es, h1, h2⟩
  | ub x w' => rw [he] at h1; exact ⟨es, h1, h2⟩

theorem evs_bind {m : M α} {f : α → M β} (hm : Evs P m) (hf : ∀ a, Evs P (f a)) : Evs P (m >>= f) :=
  fun w => evAt_bind (hm w) fun a w' _ => hf a w'

theorem evs_lift_bind {r : Res α} {f : α → M β} (hf : ∀ a, r = .ok a → Evs P (f a)) : Evs P (liftRes r >>= f) := by
  intro w
  refine evAt_bind (evAt_same ?_) ?_
  · unfold liftRes; cases r <;> rfl
  · intro a w' h
    unfold liftRes at h
    cases r with
    | ok b => cases h; exact hf a rfl w
    | ub x => cases h

theorem evs_pure (a : α) : Evs P (pure a : M α) := fun _ => evAt_same rfl
theorem evs_stuck : Evs P (stuckM : M α) := fun _ => evAt_same rfl
theorem evs_ub (e : UB) : Evs P (ubM e : M α) := fun _ => evAt_same rfl
theorem evs_lift (r : Res α) : Evs P (liftRes r) := fun _ => evAt_same (by unfold liftRes; cases r <;> rfl)
theorem evs_getCtx : Evs P getCtx := fun _ => evAt_same rfl
theorem evs_modify (f : Ctx → Ctx) : Evs P (modifyCtx f) := fun _ => evAt_same rfl
theorem evs_sendFuel : Evs P sendFuel := fun _ => evAt_same rfl
theorem evs_recvFuel : Evs P recvFuel := fun _ => evAt_same rfl
theorem evs_clockFuel : Evs P clockFuel := fun _ => evAt_same rfl
theorem evs_markPending : Evs P markPending := fun _ => evAt_same rfl
theorem evs_tables (f : Tables → Res (α × Tables)) : Evs P (onTables f) := fun w => evAt_same (by
  unfold onTables; cases f w.ctx.tables <;> rfl)
theorem evs_ite {c : Prop} [Decidable c] {a b : M α} (ha : c → Evs P a) (hb : ¬ c → Evs P b) : Evs P (if c then a else b) := by
  split
  · exact ha ‹_›
  · exact hb ‹_›
end

section
variable {α β : Type}
abbrev B1 {α : Type} (m : M α) : Prop := Evs someBytes m

theorem b1_pre : B1 preHook := fun _ => evAt_one rfl trivial
theorem b1_post : B1 postHook := fun _ => evAt_one rfl trivial
theorem b1_clear (id : UInt16) : B1 (clearCallback id) := fun _ => evAt_one rfl trivial
theorem b1_app (pk : PacketInfo) (id : UInt16) (r : Status) (p : Option PublishInfo) : B1 (appCallback pk id r p) := fun _ => evAt_one rfl trivial
theorem b1_getTime : B1 getTime := by
  intro w
  cases h : w.env.clock with
  | nil => exact evAt_same (by simp only [getTime, h]; rfl)
  | cons t r => exact evAt_one (e := .time t) (by simp only [getTime, h]; rfl) trivial
theorem b1_store (id : UInt16) (v : List IoVec) : B1 (storeCallback id v) := by
  intro w
  cases h : w.env.stores with
  | nil => exact evAt_same (by simp only [storeCallback, h]; rfl)
  | cons t r => exact evAt_one (e := .store id v t) (by simp only [storeCallback, h]; rfl) trivial
theorem b1_retrieve (id : UInt16) : B1 (retrieveCallback id) := by
  intro w
  cases h : w.env.retrieves with
  | nil => exact evAt_same (by simp only [retrieveCallback, h]; rfl)
  | cons t r => exact evAt_one (e := .retrieve id t) (by simp only [retrieveCallback, h]; rfl) trivial

theorem evAt_recv {P : Event → Prop} {n : Nat} (w : World) (hp : ∀ x, P (.recvd n x)) : EvAt P (transportRecv n) w := by
  cases h : w.env.recvs with
  | nil => exact evAt_same (by simp only [transportRecv, h]; rfl)
  | cons t r => cases t with
    | fail => exact evAt_one (e := .recvd n none) (by simp only [transportRecv, h]; rfl) (hp _)
    | deliver k => exact evAt_one (e := .recvd n (some (w.env.input.take (min k n)))) (by simp only [transportRecv, h]; rfl) (hp _)

theorem b1_recv {n : Nat} (hn : n ≠ 0) : B1 (transportRecv n) := fun w => evAt_recv w fun _ => hn

theorem b1_send {bs : List UInt8} (hn : bs ≠ []) : B1 (transportSend bs) := by
  intro w
  cases h : w.env.sends with
  | nil => exact evAt_same (by simp only [transportSend, h]; rfl)
  | cons t r => cases t with
    | fail => exact evAt_one (e := .sent bs none) (by simp only [transportSend, h]; rfl) hn
    | accept k => exact evAt_one (e := .sent bs (some (min k bs.length))) (by simp only [transportSend, h]; rfl) hn

syntax "evs" "[" term,* "]" : tactic
macro_rules
  | `(tactic| evs [$[$ts],*]) => `(tactic|
      repeat' (with_reducible first
        | (first $[| exact $ts]*)
        | exact evs_pure _ | exact evs_stuck | exact evs_ub _ | exact evs_lift _ | exact evs_getCtx | exact b1_pre | exact b1_post
        | exact b1_clear _ | exact b1_app .. | exact b1_getTime | exact b1_store .. | exact b1_retrieve _
        | exact evs_tables _ | exact evs_sendFuel | exact evs_recvFuel | exact evs_clockFuel | exact evs_markPending | exact evs_modify _
        | (intro _) | apply evs_ite | apply evs_bind | split))

theorem b1_noteSend (r : Option Nat) : B1 (noteSendResult r) := by
  unfold noteSendResult; evs [evs_ub _]

theorem b1_sendBufferLoop (g : Cfg) (t0 : UInt32) : ∀ n rest sent, B1 (sendBufferLoop g t0 n rest sent)
  | 0, _, _ => evs_stuck
  | n + 1, rest, sent => by
    have ih := b1_sendBufferLoop g t0 n
    unfold sendBufferLoop
    apply evs_ite
    · intro h
      have hne : rest ≠ [] := by intro h0; simp [h0] at h
      evs [ih _ _, b1_send hne, b1_noteSend _]
    · evs [ih _ _]

theorem b1_sendBuffer (g : Cfg) (bs : List UInt8) : B1 (sendBuffer g bs) := by
  unfold sendBuffer; evs [b1_sendBufferLoop g _ _ _ _]

/-- The vectors still to be sent: none is left over without bytes at the front. -/
def HeadPos (vecs : List (List UInt8)) : Prop := ∀ v vs, vecs = v :: vs → v ≠ []

theorem advance_spec : ∀ (vecs : List (List UInt8)) (k : Nat), HeadPos (advanceVec k vecs) ∧ (advanceVec k vecs).flatten = vecs.flatten.drop k
  | [], k => ⟨fun v vs h => by simp [advanceVec] at h, by simp [advanceVec]⟩
  | v :: vs, k => by
    unfold advanceVec
    split
    · rename_i h
      obtain ⟨h1, h2⟩ := advance_spec vs (k - v.length)
      refine ⟨h1, ?_⟩
      rw [h2, List.flatten_cons, List.drop_append, List.drop_eq_nil_of_le h]
      simp
    · rename_i h
      refine ⟨?_, ?_⟩
      · intro a b h'
        cases h'
        intro h0
        have := congrArg List.length h0
        simp at this
        omega
      · simp only [List.flatten_cons]
        rw [List.drop_append_of_le_length (by omega)]

theorem b1_sendVecLoop (g : Cfg) (t0 : UInt32) (N : Nat) : ∀ n vecs sent, HeadPos vecs → vecs.flatten.length + sent = N →
    B1 (sendVecLoop g t0 N n vecs sent)
  | 0, _, _, _, _ => evs_stuck
  | n + 1, vecs, sent, hp, hl => by
    have ih := b1_sendVecLoop g t0 N n
    unfold sendVecLoop
    apply evs_ite
    · intro h
      refine evs_bind evs_getCtx fun c => ?_
      refine evs_lift_bind fun bs hb => ?_
      have hpos : 0 < vecs.flatten.length := by omega
      have hne : bs ≠ [] := by
        unfold offeredBytes at hb
        split at hb
        · cases hb; intro h0; simp [h0] at hpos
        · cases vecs with
          | nil => simp at hpos
          | cons v vs => cases hb; exact hp _ _ rfl
      intro w
      refine evAt_bind (b1_send hne w) ?_
      intro r w1 hr
      refine evs_lift_bind (fun _ hc => ?_) w1
      refine evs_bind (b1_noteSend _) fun _ => evs_bind b1_getTime fun t => ?_
      cases r with
      | none => exact evs_pure _
      | some k =>
        refine evs_ite (fun _ => evs_pure _) fun _ => ?_
        obtain ⟨h1, h2⟩ := advance_spec vecs k
        have hk : k ≤ N - sent := by
          unfold cassert at hc
          split at hc
          · have := ‹Option.all _ _ = true›
            simpa using this
          · cases hc
        refine ih _ _ h1 ?_
        rw [h2, List.length_drop]
        omega
    · evs [evs_pure _]

theorem resolve_head {vec : List IoVec} {vecs : List (List UInt8)} (h : resolveVec vec = .ok vecs)
    (hp : ∀ v vs, vec = v :: vs → 0 < v.iov_len) : HeadPos vecs := by
  cases vec with
  | nil => cases h; intro v vs h; cases h
  | cons v vs =>
    unfold resolveVec at h
    cases hb : readMem v.iov_base v.iov_len with
    | ub e => rw [hb] at h; cases h
    | ok b =>
      rw [hb] at h
      change (resolveVec vs >>= fun bs => pure (b :: bs)) = Res.ok vecs at h
      cases hr : resolveVec vs with
      | ub e => rw [hr] at h; cases h
      | ok bs =>
        rw [hr] at h
        cases h
        intro a as ha
        cases ha
        have := hp v vs rfl
        intro h0
        subst h0
        cases hm : v.iov_base with
        | none => rw [hm] at hb; cases hb
        | some m =>
          rw [hm] at hb
          simp only [readMem] at hb
          split at hb
          · have h1 := congrArg List.length (Res.ok.inj hb)
            rw [List.length_take, List.length_nil] at h1
            omega
          · cases hb

theorem res_ok {r : Res α} {f : α → Res β} {b : β} (h : (r >>= f) = .ok b) : ∃ a, r = .ok a ∧ f a = .ok b := by
  cases r with
  | ok a => exact ⟨a, rfl, h⟩
  | ub e => cases h

theorem put_pos {c c' : Cur} {bs : List UInt8} (h : put c bs = .ok c') : c'.pos = c.pos + bs.length := by
  unfold put at h
  split at h
  · cases h; rfl
  · cases h

theorem b1_sendMessageVector (g : Cfg) (v : List IoVec) (hp : ∀ x xs, v = x :: xs → 0 < x.iov_len) : B1 (sendMessageVector g v) := by
  unfold sendMessageVector
  refine evs_lift_bind fun vecs hv => ?_
  refine evs_ite (fun _ => evs_ub _) fun _ => ?_
  refine evs_bind b1_getTime fun t => evs_bind evs_sendFuel fun n => ?_
  exact b1_sendVecLoop g t _ _ _ _ (resolve_head hv hp) (by simp)

theorem b1_sendWholeVector (g : Cfg) (v : List IoVec) (hp : ∀ x xs, v = x :: xs → 0 < x.iov_len) : B1 (sendWholeVector g v) := by
  unfold sendWholeVector; evs [b1_sendMessageVector g v hp]

theorem filterVectors_head {ty : SubType} {s : SubscribeInfo} {v : List IoVec} (h : filterVectors ty s = .ok v) :
    ∃ x xs, v = x :: xs ∧ x.iov_len = 2 := by
  unfold filterVectors at h
  obtain ⟨a, h1, h2⟩ := res_ok h
  unfold addEncodedStringToVector at h1
  obtain ⟨_, _, h3⟩ := res_ok h1
  have ha : ∃ x xs, a = x :: xs ∧ x.iov_len = 2 := by
    dsimp only at h3
    split at h3
    · cases h3; exact ⟨_, _, rfl, rfl⟩
    · cases h3; exact ⟨_, _, rfl, rfl⟩
  obtain ⟨x, xs, ha, hx⟩ := ha
  subst ha
  cases ty <;> cases h2
  · exact ⟨_, _, rfl, hx⟩
  · exact ⟨_, _, rfl, hx⟩

theorem fill_head (g : Cfg) (ty : SubType) : ∀ (subs : List SubscribeInfo) (vec : List IoVec) {v : List IoVec} {rest : List SubscribeInfo},
    fillVectors g ty vec subs = .ok (v, rest) → (∀ x xs, vec = x :: xs → 0 < x.iov_len) → ∀ x xs, v = x :: xs → 0 < x.iov_len
  | [], vec, v, rest, h, hp => by
    unfold fillVectors at h; cases h; exact hp
  | s :: subs, vec, v, rest, h, hp => by
    unfold fillVectors at h
    split at h
    · obtain ⟨a, h1, h2⟩ := res_ok h
      split at h2
      · refine fill_head g ty subs _ h2 ?_
        intro x xs hx
        cases vec with
        | nil =>
          obtain ⟨y, ys, hy, h2⟩ := filterVectors_head h1
          subst hy
          cases hx
          omega
        | cons z zs => cases hx; exact hp _ _ rfl
      · cases h2
    · cases h; exact hp

theorem b1_sendFiltersLoop (g : Cfg) (ty : SubType) : ∀ n v l, (∀ x xs, v = x :: xs → 0 < x.iov_len) → B1 (sendFiltersLoop g ty n v l)
  | 0, _, _, _ => evs_stuck
  | n + 1, v, l, hp => by
    have ih := b1_sendFiltersLoop g ty n
    unfold sendFiltersLoop
    refine evs_ite (fun _ => evs_pure _) fun _ => ?_
    refine evs_lift_bind fun r hr => ?_
    obtain ⟨vec, rest⟩ := r
    have h := fill_head g ty _ _ hr hp
    evs [b1_sendWholeVector g _ h, ih [] _ (fun _ _ h => nomatch h)]

theorem b1_sendFilters (g : Cfg) (ty : SubType) (l : List SubscribeInfo) (id : UInt16) (n : Nat) :
    B1 (sendFiltersWithoutCopy g ty l id n) := by
  unfold sendFiltersWithoutCopy
  refine evs_bind (evs_lift _) fun _ => ?_
  refine evs_lift_bind fun c hc => ?_
  refine b1_sendFiltersLoop g ty _ _ _ ?_
  intro x xs h
  cases h
  unfold serializeSubscriptionHeader at hc
  obtain ⟨_, _, hc⟩ := res_ok hc
  obtain ⟨_, _, hc⟩ := res_ok hc
  obtain ⟨_, _, hc⟩ := res_ok hc
  have := put_pos hc
  simp at this
  show 0 < c.pos
  omega

theorem b1_sendPublish (g : Cfg) (p : PublishInfo) (hd : List UInt8) (n : Nat) (hn : 0 < n) (id : UInt16) :
    B1 (sendPublishWithoutCopy g p hd n id) := by
  have h : ∀ hdr, B1 (sendWholeVector g (publishVectors p hdr n id)) := by
    intro hdr
    refine b1_sendWholeVector g _ ?_
    intro x xs hx
    unfold publishVectors at hx
    cases hx
    exact hn
  unfold sendPublishWithoutCopy storePublish; evs [h _]

theorem b1_sendConnect (g : Cfg) (ci : ConnectInfo) (will : Option PublishInfo) (n : Nat) : B1 (sendConnectWithoutCopy g ci will n) := by
  unfold sendConnectWithoutCopy
  refine evs_ite (fun _ => evs_pure _) fun _ => ?_
  refine evs_lift_bind fun v hv => ?_
  refine b1_sendWholeVector g v ?_
  intro x xs hx
  subst hx
  unfold connectVectors at hv
  obtain ⟨c, hc, hv⟩ := res_ok hv
  obtain ⟨_, _, hv⟩ := res_ok hv
  obtain ⟨_, _, hv⟩ := res_ok hv
  obtain ⟨_, _, hv⟩ := res_ok hv
  obtain ⟨_, _, hv⟩ := res_ok hv
  obtain ⟨_, _, hv⟩ := res_ok hv
  cases hv
  unfold serializeConnectFixedHeader at hc
  obtain ⟨_, _, hc⟩ := res_ok hc
  obtain ⟨_, _, hc⟩ := res_ok hc
  obtain ⟨_, _, hc⟩ := res_ok hc
  obtain ⟨_, _, hc⟩ := res_ok hc
  obtain ⟨_, _, hc⟩ := res_ok hc
  obtain ⟨_, _, hc⟩ := res_ok hc
  have := put_pos hc
  simp at this
  show 0 < c.pos
  omega

theorem b1_sendIfConnected (g : Cfg) (bs : List UInt8) : B1 (sendIfConnected g bs) := by
  unfold sendIfConnected; evs [b1_sendBuffer g _]

theorem b1_stateAck (id : UInt16) (a : AckType) (op : Op) : B1 (updateStateAckM id a op) := evs_tables _
theorem b1_statePublish (id : UInt16) (op : Op) (q : QoS) : B1 (updateStatePublishM id op q) := evs_tables _

theorem b1_acks (g : Cfg) (id : UInt16) (s : PubState) : B1 (sendPublishAcks g id s) := by
  unfold sendPublishAcks; evs [b1_sendIfConnected g _, b1_stateAck ..]

theorem b1_ping (g : Cfg) : B1 (mqttPing g) := by
  unfold mqttPing; evs [b1_sendIfConnected g _]

theorem b1_recvInto (p : Nat) {n : Nat} (hn : n ≠ 0) : B1 (recvInto p n) := by
  unfold recvInto; evs [b1_recv hn]

theorem b1_markHooked : B1 markPendingHooked := by
  unfold markPendingHooked; evs [evs_ub _]

theorem b1_recvExactLoop (g : Cfg) : ∀ n p k t, B1 (recvExactLoop g n p k t)
  | 0, _, _, _ => evs_stuck
  | n + 1, p, k, t => by
    have ih := b1_recvExactLoop g n
    unfold recvExactLoop
    refine evs_ite (fun h => ?_) fun _ => evs_pure _
    evs [ih _ _ _, b1_recvInto p (Nat.pos_iff_ne_zero.mp h), b1_markHooked]

theorem b1_recvExact (g : Cfg) (n : Nat) : B1 (recvExact g n) := by
  unfold recvExact; evs [b1_recvExactLoop g _ _ _ _]

theorem b1_discardLoop (g : Cfg) (a b : UInt32) : ∀ n l k, B1 (discardLoop g a b n l k)
  | 0, _, _ => evs_stuck
  | n + 1, l, k => by
    have ih := b1_discardLoop g a b n
    unfold discardLoop
    evs [ih _ _, b1_recvExact g _]

theorem b1_discardStoredLoop (g : Cfg) : ∀ n l k, B1 (discardStoredLoop g n l k)
  | 0, _, _ => evs_stuck
  | n + 1, l, k => by
    have ih := b1_discardStoredLoop g n
    unfold discardStoredLoop
    evs [ih _ _, b1_recvExact g _]

theorem b1_reset : B1 resetBuffer := evs_modify _

theorem b1_discardStored (g : Cfg) (n : Nat) : B1 (discardStoredPacket g n) := by
  unfold discardStoredPacket; evs [b1_discardStoredLoop g _ _ _, b1_reset]

theorem b1_receivePacket (g : Cfg) (n : Nat) (t : UInt32) : B1 (receivePacket g n t) := by
  unfold receivePacket discardPacket; evs [b1_discardLoop g _ _ _ _ _, b1_recvExact g _]

theorem b1_incomingPublish (g : Cfg) (pk : PacketInfo) : B1 (handleIncomingPublish g pk) := by
  unfold handleIncomingPublish recordIncomingPublish; evs [b1_acks g _ _, b1_statePublish ..]

theorem b1_publishAcks (g : Cfg) (pk : PacketInfo) : B1 (handlePublishAcks g pk) := by
  unfold handlePublishAcks; evs [b1_acks g _ _, b1_stateAck ..]

theorem b1_incomingAck (g : Cfg) (pk : PacketInfo) (m : Bool) : B1 (handleIncomingAck g pk m) := by
  unfold handleIncomingAck; evs [b1_publishAcks g _]

theorem b1_recvOne : B1 recvOne := by
  unfold recvOne; evs [b1_recv (n := 1) (by decide)]

theorem b1_lengthLoop : ∀ n a b c, B1 (getRemainingLengthLoopM n a b c)
  | 0, _, _, _ => evs_stuck
  | n + 1, a, b, c => by
    have ih := b1_lengthLoop n
    unfold getRemainingLengthLoopM
    evs [ih _ _ _, b1_recvOne]

theorem b1_getIncoming : B1 getIncomingPacketTypeAndLengthM := by
  unfold getIncomingPacketTypeAndLengthM getRemainingLengthM; evs [b1_lengthLoop _ _ _ _, b1_recvOne]

theorem b1_connackLoop (g : Cfg) (a b : UInt32) : ∀ n k, B1 (connackLoop g a b n k)
  | 0, _ => evs_stuck
  | n + 1, k => by
    have ih := b1_connackLoop g a b n
    unfold connackLoop connackBreak
    evs [ih _, b1_getIncoming]

theorem b1_receiveConnack (g : Cfg) (t : UInt32) (a b : Bool) : B1 (receiveConnack g t a b) := by
  unfold receiveConnack finishConnack; evs [b1_connackLoop g _ _ _ _, b1_receivePacket g _ _]

theorem b1_resendPubrels (g : Cfg) : ∀ n k, B1 (resendPubrels g n k)
  | 0, _ => evs_stuck
  | n + 1, k => by
    have ih := b1_resendPubrels g n
    unfold resendPubrels
    evs [ih _, b1_acks g _ _]

theorem b1_resendPublishes (g : Cfg) : ∀ n k, B1 (resendPublishes g n k)
  | 0, _ => evs_stuck
  | n + 1, k => by
    have ih := b1_resendPublishes g n
    unfold resendPublishes
    evs [ih _, b1_sendBuffer g _]

theorem b1_clearStored : ∀ n k, B1 (clearStored n k)
  | 0, _ => evs_stuck
  | n + 1, k => by
    have ih := b1_clearStored n
    unfold clearStored
    evs [ih _]

theorem b1_connect (g : Cfg) (ci : Option ConnectInfo) (will : Option PublishInfo) (t : UInt32) (sp : Option Bool) :
    B1 (mqttConnect g ci will t sp) := by
  unfold mqttConnect connectCore connectFailed connectLocked handleCleanSession handleUncleanSessionResumption
  evs [b1_sendConnect g _ _ _, b1_receiveConnack g _ _ _, b1_clearStored _ _, b1_resendPubrels g _ _, b1_resendPublishes g _ _,
    b1_reset, b1_markHooked]

theorem b1_sub (g : Cfg) (ty : SubType) (l : Option (List SubscribeInfo)) (id : UInt16) : B1 (mqttSubUnsub g ty l id) := by
  unfold mqttSubUnsub; evs [b1_sendFilters g ty _ _ _]

theorem b1_publish (g : Cfg) (p : Option PublishInfo) (id : UInt16) : B1 (mqttPublish g p id) := by
  unfold mqttPublish
  refine evs_bind evs_getCtx fun c => ?_
  refine evs_ite (fun _ => evs_pure _) fun _ => ?_
  cases p with
  | none => exact evs_ub _
  | some p =>
    refine evs_ite (fun _ => evs_pure _) fun _ => ?_
    refine evs_lift_bind fun r hr => ?_
    obtain ⟨hd, n⟩ := r
    have hn : 0 < n := by
      unfold serializePublishHeaderWithoutTopic at hr
      obtain ⟨_, _, hr⟩ := res_ok hr
      obtain ⟨_, _, hr⟩ := res_ok hr
      obtain ⟨_, _, hr⟩ := res_ok hr
      obtain ⟨_, _, hr⟩ := res_ok hr
      cases hr
      omega
    unfold publishLocked reservePublish notePublishSent; evs [b1_sendPublish g _ _ n hn _, b1_statePublish ..]

theorem b1_disconnect (g : Cfg) : B1 (mqttDisconnect g) := by
  unfold mqttDisconnect; evs [b1_sendBuffer g _, b1_reset]

theorem b1_cancel (id : UInt16) : B1 (mqttCancelCallback id) := by
  unfold mqttCancelCallback; evs [evs_ub _]

theorem b1_check : B1 mqttCheckConnectStatus := by
  unfold mqttCheckConnectStatus; evs [evs_ub _]

theorem b1_getId : B1 mqttGetPacketId := by
  unfold mqttGetPacketId; evs [evs_ub _]

theorem b1_handleKeepAlive (g : Cfg) : B1 (handleKeepAlive g) := by
  unfold handleKeepAlive; evs [b1_ping g]

/-- Everything a receive call does after its first request. -/
def receiveRest (g : Cfg) (m : Bool) (x : Option Nat × HeaderRes) : M Status := do
  let (recvBytes, h) := x
  let st ← keepAliveCheck g recvBytes m h.status
  let st ← checkComplete g st (h.remainingLength + h.headerLength)
  let st ← (if st = .success then handlePacket g m h else pure st)
  if st = .noDataAvailable then pure .success else pure st

theorem receiveSingleIteration_eq (g : Cfg) (m : Bool) : receiveSingleIteration g m = receiveHeader >>= receiveRest g m := rfl

theorem b1_receiveRest (g : Cfg) (m : Bool) (x : Option Nat × HeaderRes) : B1 (receiveRest g m x) := by
  unfold receiveRest keepAliveCheck checkComplete handlePacket
  evs [b1_handleKeepAlive g, b1_discardStored g _, b1_incomingPublish g _, b1_incomingAck g _ _]

/-- The first request of a receive call: the free part of the buffer. -/
theorem b1_receiveHeader {w : World} (h : w.ctx.bufSize - w.ctx.index ≠ 0) : EvAt someBytes receiveHeader w := by
  unfold receiveHeader
  refine evAt_bind (evAt_same rfl) ?_
  intro c w1 hc
  cases hc
  refine evAt_bind (b1_recvInto _ h w) ?_
  intro r w2 _
  cases r with
  | none =>
    refine evs_bind b1_markHooked (fun _ => evs_pure _) w2
  | some k =>
    refine evs_ite (fun _ => evs_pure _) (fun _ => ?_) w2
    evs [evs_pure _]

theorem b1_iteration (g : Cfg) (m : Bool) {w : World} (h : w.ctx.bufSize - w.ctx.index ≠ 0) :
    EvAt someBytes (receiveSingleIteration g m) w := by
  rw [receiveSingleIteration_eq]
  exact evAt_bind (b1_receiveHeader h) fun a w' _ => b1_receiveRest g m a w'

end
end Mqtt
