/-
C63: the application's callback may call the library.

A callback is any program of publish, subscribe, unsubscribe, ping, cancel, packet id and status calls (`Worker`), a different one each time; the receive loop that
called it waits meanwhile (`Nest.Steps`, Spec/Nested.lean).  Other threads may run at the same time.
-/
import Verif.Proof.Nested
import Verif.Props.ThreadQos

namespace Mqtt
open Spec
set_option linter.unusedSimpArgs false

section
variable {g : Cfg} {h : List (ApiCall × ApiRet)} {w : World} {e : Env} {P : Client → Prop} {first : Client} {others : List Client} {s : Nest}

/-- **C63** Whatever the callbacks call: the context, the environment and all events are those of an execution in which every callback is a thread of its own. -/
theorem C63_threads (hs : Nest.Steps g P (startNest g first others { w with env := e }) s) :
    ∃ cbs p, (∀ cl ∈ cbs, P cl) ∧ Pool.Steps (startPool g first (others ++ cbs) { w with env := e }) p ∧ p.world = s.world ∧
      p.threads[0]? = some s.main ∧ (∀ q, q = s.active ∨ q ∈ s.others → q ∈ p.threads) := by
  obtain ⟨cbs, ts, h1, h2, h3⟩ := hs.pool
  refine ⟨cbs, _, h1, h2, rfl, rfl, ?_⟩
  rintro q (rfl | hq)
  · unfold Nest.active
    cases hi : s.inner with
    | none => exact List.mem_cons_self
    | some q =>
      obtain ⟨ts', rfl⟩ := h3 q hi
      simp
  · simp [hq]

theorem workers_append (ho : ∀ cl ∈ others, Worker g cl) {cbs : List Client} (hc : ∀ cl ∈ cbs, Worker g cl) : ∀ cl ∈ others ++ cbs, Worker g cl := by
  intro cl hcl
  rcases List.mem_append.mp hcl with h | h
  · exact ho cl h
  · exact hc cl h

/-- **C63** The next step, of the receive loop, of the active callback or of another thread, has no undefined behaviour; the receive index lies within the buffer; the
record arrays keep their sizes and represent finite sets of in-flight publishes. -/
theorem C63_safe (hh : FromInit g h w) (hf : Receiver g first) (ho : ∀ cl ∈ others, Worker g cl)
    (hs : Nest.Steps g (Worker g) (startNest g first others { w with env := e }) s) :
    (∀ (β : Type) (m : M β) (k : β → Prog Unit), s.active = .step m k ∨ .step m k ∈ s.others → ∀ er w', m s.world ≠ .ub er w') ∧
    s.world.ctx.index ≤ s.world.ctx.bufSize ∧ s.world.ctx.tables.outgoing.length = w.ctx.tables.outgoing.length ∧
    s.world.ctx.tables.incoming.length = w.ctx.tables.incoming.length ∧ ∃ st, Represents s.world.ctx.tables st := by
  obtain ⟨cbs, p, h1, h2, h3, _, h5⟩ := C63_threads hs
  obtain ⟨k1, k2, k3, k4, k5⟩ := C47_safe hh hf (workers_append ho h1) h2
  rw [h3] at k1 k2 k3 k4 k5
  refine ⟨?_, k2, k3, k4, k5⟩
  intro β m k hq er w' hm
  obtain ⟨i, hi, hget⟩ := List.getElem_of_mem (h5 (.step m k) (hq.imp (fun h => h.symm) fun h => h))
  exact k1 i β m k (by rw [List.getElem?_eq_getElem hi, hget]) er w' hm

/-- **C63** Packets sent by callbacks are not mixed with others on the wire: the events are a sequence of steps of which each that transmits
is one critical section, with (a first part of) one control packet. -/
theorem C63_wire (hh : FromInit g h w) (hf : Receiver g first) (ho : ∀ cl ∈ others, Worker g cl)
    (hs : Nest.Steps g (Worker g) (startNest g first others { w with env := e }) s) : ∃ es, s.world.trace = w.trace ++ es ∧ Chunked w.trace es := by
  obtain ⟨cbs, p, h1, h2, h3, _, _⟩ := C63_threads hs
  rw [← h3]
  exact (C47_wire hh hf (workers_append ho h1) h2).1

/-- **C63** Without MQTT_Connect and MQTT_Disconnect: after a failed send nothing is sent any more, by callbacks neither. -/
theorem C63_quiet (hh : FromInit g h w) (hf : first.Uses fun c => ValidCall g c ∧ plainCall c = true) (ho : ∀ cl ∈ others, Worker g cl)
    (hs : Nest.Steps g (Worker g) (startNest g first others { w with env := e }) s) :
    ∃ es, s.world.trace = w.trace ++ es ∧ quietAfterSendFail es ∧ (w.ctx.connectStatus ≠ .connected → noSent es) := by
  obtain ⟨cbs, p, h1, h2, h3, _, _⟩ := C63_threads hs
  rw [← h3]
  exact C47_quiet hh hf (workers_append ho h1) h2

/-- **C63** An incoming QoS 2 publish is not presented again before a PUBREL with its id has been processed, whatever the callbacks call. -/
theorem C63_once (hh : FromInit g h w) (hf : Receiver g first) (h1 : OneSession first) (ho : ∀ cl ∈ others, Worker g cl)
    (hs : Nest.Steps g (Worker g) (startNest g first others { w with env := e }) s) {es : List Event} (hes : s.world.trace = w.trace ++ es)
    {id : UInt16} {a mid b : List Event} {t1 t2 : UInt8} {b1 b2 : List UInt8} {r1 r2 : Status} {v1 v2 : PubView}
    (hsplit : es = a ++ .app t1 b1 id r1 (some v1) :: (mid ++ .app t2 b2 id r2 (some v2) :: b))
    (q1 : v1.qos = .qos2) (q2 : v2.qos = .qos2) : ∃ body r, Event.app 0x62 body id r none ∈ mid := by
  obtain ⟨cbs, p, k1, k2, k3, _, _⟩ := C63_threads hs
  rw [← k3] at hes
  exact C62_once hh hf h1 (workers_append ho k1) k2 hes hsplit q1 q2

/-- **C63** An outgoing publish in flight stays in flight until a PUBACK or PUBCOMP for it is presented, whatever the callbacks call except
MQTT_CancelCallback for it, unless a new session is begun. -/
theorem C63_stays (hh : FromInit g h w) {id : UInt16} (hin : ∃ r ∈ inFlight w.ctx.tables.outgoing, r.packetId = id)
    (hf : first.Uses fun c => ValidCall g c ∧ c ≠ .cancelCallback id) (h1 : OneSession first)
    (ho : ∀ cl ∈ others, cl.Uses fun c => ValidCall g c ∧ sharedCall c = true ∧ c ≠ .cancelCallback id)
    (hs : Nest.Steps g (fun cl => cl.Uses fun c => ValidCall g c ∧ sharedCall c = true ∧ c ≠ .cancelCallback id)
      (startNest g first others { w with env := e }) s) (hd : s.main = .ret ()) {es : List Event} (hes : s.world.trace = w.trace ++ es) :
    (∃ r ∈ inFlight s.world.ctx.tables.outgoing, r.packetId = id) ∨
    (∃ t body r, (t = 0x40 ∨ t = 0x70) ∧ Event.app t body id r none ∈ es) ∨ newSession es := by
  obtain ⟨cbs, p, k1, k2, k3, k4, _⟩ := C63_threads hs
  rw [← k3] at hes ⊢
  refine C62_stays hh hin hf h1 (fun cl hcl => ?_) k2 (by rw [k4, hd]) hes
  rcases List.mem_append.mp hcl with h | h
  · exact ho cl h
  · exact k1 cl h

end

namespace Ex

/-- Execute a receive loop alone, with the same program in every callback. -/
def nest (g : Cfg) (cl : Client) : Nat → Nest → Option Nest
  | 0, s => some s
  | n + 1, s =>
    match s.inner with
    | some (.step m k) =>
      match m s.world with
      | .done b w' => nest g cl n ⟨s.main, some (k b), s.others, w'⟩
      | _ => none
    | some (.ret _) => nest g cl n ⟨s.main, none, s.others, s.world⟩
    | none =>
      match s.main with
      | .step m k =>
        match m s.world with
        | .done b w' =>
          if w'.trace = s.world.trace ++ w'.trace.drop s.world.trace.length then
            if (w'.trace.drop s.world.trace.length).any isCallback then nest g cl n ⟨k b, some (cl.prog g), s.others, w'⟩
            else nest g cl n ⟨k b, none, s.others, w'⟩
          else none
        | _ => none
      | .ret _ => none

theorem nest_head {g : Cfg} {P : Client → Prop} {a b c : Nest} (h : Nest.Step g P a b) (h' : Nest.Steps g P b c) : Nest.Steps g P a c := by
  induction h' with
  | refl => exact .step .refl h
  | step _ hs ih => exact .step ih hs

theorem nest_steps {g : Cfg} {P : Client → Prop} {cl : Client} (hp : P cl) : ∀ {n : Nat} {s t : Nest}, nest g cl n s = some t → Nest.Steps g P s t := by
  intro n
  induction n with
  | zero => intro s t h; cases h; exact .refl
  | succ n ih =>
    rintro ⟨main, inner, others, w⟩ t h
    unfold nest at h
    dsimp only at h
    split at h
    · split at h
      · exact nest_head (.inner ‹_›) (ih h)
      · cases h
    · exact nest_head .ret (ih h)
    · split at h
      · split at h
        · split at h
          · split at h
            · exact nest_head (.callback ‹_› ‹_› ‹_› hp) (ih h)
            · exact nest_head (.main ‹_› ‹_› (Bool.eq_false_iff.mpr ‹_›)) (ih h)
          · cases h
        · cases h
      · cases h

/-- A QoS 1 publish arrives; the callback answers it with a QoS 1 publish. -/
def answeringServer : Nest :=
  startNest g (once .processLoop) [] { conn with env := { env [0x32, 6, 0, 1, 98, 0, 5, 9] with recvs := List.replicate 40 (.deliver 8) } }

def nestSummary (s : Option Nest) : Option (List UInt8 × List UInt16 × Bool) :=
  s.map fun s => (wire (s.world.trace.drop conn.trace.length), s.world.ctx.tables.outgoing.map (·.packetId),
    match s.main, s.inner with | .ret _, none => true | _, _ => false)


/-- A QoS 0 publish arrives. -/
def oneMessage : World := { conn with env := { env [0x30, 4, 0, 1, 98, 9] with recvs := List.replicate 40 (.deliver 6) } }

def activeUb (s : Nest) : Bool :=
  match s.active with
  | .step m _ => match m s.world with | .ub _ _ => true | _ => false
  | _ => false

theorem activeUb_spec {s : Nest} (h : activeUb s = true) :
    ∃ (β : Type) (m : M β) (k : β → Prog Unit), s.active = .step m k ∧ ∃ er w', m s.world = .ub er w' := by
  unfold activeUb at h
  split at h
  · rename_i m k hth
    split at h
    · rename_i er w' hm
      exact ⟨_, m, k, hth, er, w', hm⟩
    · cases h
  · cases h

/-- The callback's publish is sent between the arrival of the message and its PUBACK, and recorded; the receive loop finishes. -/
example : Worker g (once (publishCall .qos1 1)) ∧
    nestSummary (nest g (once (publishCall .qos1 1)) 24 answeringServer) = some ([50, 9, 0, 2, 97, 98, 0, 1, 1, 2, 3, 64, 2, 0, 5], [1, 0], true) :=
  ⟨.call ⟨publishValid _ _, rfl⟩ fun _ => .stop, by decide +kernel⟩

/-- The callback, presented with the PUBACK for id 1, publishes the next message with the same id, which is free again; that one stays in flight. -/
example : (∃ r ∈ inFlight sent1.ctx.tables.outgoing, r.packetId = 1) ∧
    nestSummary (nest g (once (.publish (some later) 1)) 21 (startNest g (once .processLoop) [] { sent1 with env := ackEnv })) =
      some (publishPacket ((pub .qos1).toSpec 1) ++ publishPacket (later.toSpec 1), [1, 0], true) := ⟨by decide +kernel, by decide +kernel⟩

end Ex

/-- Why MQTT_Disconnect is not among the calls of the callback: it resets the receive index while the receive loop that called the callback still has to
remove the handled packet from the buffer.  A message arrives, the callback disconnects, and the next step of the receive loop reads outside the receive buffer. -/
theorem C63_disconnect_in_callback : ∃ (g : Cfg) (h : List (ApiCall × ApiRet)) (w : World) (e : Env) (s : Nest), FromInit g h w ∧
    w.ctx.connectStatus = .connected ∧ Nest.Steps g (fun cl => cl = Ex.once .disconnect) (startNest g (Ex.once .processLoop) [] { w with env := e }) s ∧
    ∃ (β : Type) (m : M β) (k : β → Prog Unit), s.active = .step m k ∧ ∃ er w', m s.world = .ub er w' := by
  have h : (Ex.nest Ex.g (Ex.once .disconnect) 15 (startNest Ex.g (Ex.once .processLoop) [] Ex.oneMessage)).any Ex.activeUb = true := by decide +kernel
  obtain ⟨s, hs, hu⟩ := Ex.any_some h
  exact ⟨_, _, _, _, s, Ex.conn_fromInit, by decide +kernel, Ex.nest_steps (P := fun cl => cl = Ex.once .disconnect) rfl hs, Ex.activeUb_spec hu⟩

/-- Why the callback must not receive: a nested MQTT_ProcessLoop finds the packet that is being handled still in the buffer, hands it to the application a
second time (a QoS 0 message here) and removes it; the outer loop then removes it again and reads outside the receive buffer. -/
theorem C63_receive_in_callback : ∃ (g : Cfg) (h : List (ApiCall × ApiRet)) (w : World) (e : Env) (s : Nest), FromInit g h w ∧
    w.ctx.connectStatus = .connected ∧ Nest.Steps g (fun cl => cl = Ex.once .processLoop) (startNest g (Ex.once .processLoop) [] { w with env := e }) s ∧
    ((s.world.trace.drop w.trace.length).filter isCallback).length = 2 ∧
    ∃ (β : Type) (m : M β) (k : β → Prog Unit), s.active = .step m k ∧ ∃ er w', m s.world = .ub er w' := by
  have h : (Ex.nest Ex.g (Ex.once .processLoop) 34 (startNest Ex.g (Ex.once .processLoop) [] Ex.oneMessage)).any (fun s => Ex.activeUb s &&
      decide (((s.world.trace.drop Ex.conn.trace.length).filter isCallback).length = 2)) = true := by decide +kernel
  obtain ⟨s, hs, hu⟩ := Ex.any_some h
  rw [Bool.and_eq_true] at hu
  exact ⟨_, _, _, _, s, Ex.conn_fromInit, by decide +kernel, Ex.nest_steps (P := fun cl => cl = Ex.once .processLoop) rfl hs, of_decide_eq_true hu.2,
    Ex.activeUb_spec hu.1⟩

end Mqtt
