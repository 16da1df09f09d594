/-
C62: the delivery guarantees C35 and C37 while several threads share the context.

As in C47 one thread receives (`first`) and any number of others (`others`) publish, subscribe, ping, cancel, …, each an arbitrary program
of calls; their steps are interleaved arbitrarily (`Pool.Steps`).
-/
import Verif.Proof.ThreadOnce
import Verif.Props.Threads
import Verif.Props.Delivery

namespace Mqtt
open Spec
set_option linter.unusedSimpArgs false

section
variable {g : Cfg} {h : List (ApiCall × ApiRet)} {w : World} {e : Env} {first : Client} {others : List Client} {p : Pool}

/-- **C62** In every interleaving, at every moment of it: an incoming QoS 2 publish is not presented again before a PUBREL with its id has been
processed.  (The thread that receives may reconnect; it stops where `MQTT_Connect` reports a new session.) -/
theorem C62_once (hh : FromInit g h w) (hf : Receiver g first) (h1 : OneSession first) (ho : ∀ cl ∈ others, Worker g cl)
    (hs : Pool.Steps (startPool g first others { w with env := e }) p) {es : List Event} (hes : p.world.trace = w.trace ++ es)
    {id : UInt16} {a mid b : List Event} {t1 t2 : UInt8} {b1 b2 : List UInt8} {r1 r2 : Status} {v1 v2 : PubView}
    (hsplit : es = a ++ .app t1 b1 id r1 (some v1) :: (mid ++ .app t2 b2 id r2 (some v2) :: b))
    (q1 : v1.qos = .qos2) (q2 : v2.qos = .qos2) : ∃ body r, Event.app 0x62 body id r none ∈ mid := by
  obtain ⟨oc, ic, hi⟩ := hh.inv
  have hi' : Inv oc ic { w with env := e }.ctx := hi
  have h0 : PoolOk true oc ic (startPool g first others { w with env := e }) :=
    startPool_ok hh.cfg hi' (hf.mono fun _ h => ⟨h, .inl rfl⟩) ho
  have nk : ∀ c, NoCancel (fun _ => False) c := fun _ _ _ h => h
  have hm : Mid w.trace ic (fun _ => False) none none { w with env := e } :=
    Mid.start (w := { w with env := e }) hi' fun _ _ _ h => h.elim
  obtain ⟨⟨fs, m, k1, k2⟩, _⟩ := PoolOk.par hh.cfg h0 (fun cl hcl => (ho cl hcl).mono fun c hc => ⟨hc, nk c⟩)
    (prog_once hh.cfg hi' (hf.mono fun c hc => ⟨hc, nk c⟩) h1 _ hm) (Mid.firm.good _ hm) hs
  have : es = fs := List.append_cancel_left (hes.symm.trans k1)
  subst this
  rw [hsplit] at k2
  exact monRun_twice k2 q1 q2

/-- **C62** In every interleaving in which no thread cancels it: an outgoing publish in flight at the start is, when the thread that receives has finished, still in flight,
or a PUBACK or PUBCOMP for it was presented, or a new session was begun.  (The thread that receives may reconnect; it stops where `MQTT_Connect` reports a new session.) -/
theorem C62_stays (hh : FromInit g h w) {id : UInt16} (hin : ∃ r ∈ inFlight w.ctx.tables.outgoing, r.packetId = id)
    (hf : first.Uses fun c => ValidCall g c ∧ c ≠ .cancelCallback id) (h1 : OneSession first)
    (ho : ∀ cl ∈ others, cl.Uses fun c => ValidCall g c ∧ sharedCall c = true ∧ c ≠ .cancelCallback id)
    (hs : Pool.Steps (startPool g first others { w with env := e }) p) (hd : p.threads[0]? = some (.ret ())) {es : List Event}
    (hes : p.world.trace = w.trace ++ es) :
    (∃ r ∈ inFlight p.world.ctx.tables.outgoing, r.packetId = id) ∨
    (∃ t body r, (t = 0x40 ∨ t = 0x70) ∧ Event.app t body id r none ∈ es) ∨ newSession es := by
  obtain ⟨oc, ic, hi⟩ := hh.inv
  have hi' : Inv oc ic { w with env := e }.ctx := hi
  have h0 : PoolOk true oc ic (startPool g first others { w with env := e }) :=
    startPool_ok hh.cfg hi' (hf.mono fun _ h => ⟨h.1, .inl rfl⟩) fun cl hcl => (ho cl hcl).mono fun _ h => ⟨h.1, h.2.1⟩
  have nk : ∀ c, c ≠ .cancelCallback id → NoCancel (fun x => x = id) c := fun c hc i hi hx => hc (by rw [hi, hx])
  have hm : Mid w.trace ic (fun x => x = id) none none { w with env := e } := by
    refine Mid.start (w := { w with env := e }) hi' fun s hrep x hx => ?_
    subst hx
    exact (mem_inFlight hrep.1 x).mp hin
  obtain ⟨_, k2⟩ := PoolOk.par hh.cfg h0 (fun cl hcl => (ho cl hcl).mono fun c hc => ⟨⟨hc.1, hc.2.1⟩, nk c hc.2.2⟩)
    (prog_stays hh.cfg hi' (hf.mono fun c hc => ⟨hc.1, nk c hc.2⟩) h1 _ hm) (Mid.firm.good _ hm) hs
  rcases k2 _ hd _ (Rk.refl _) with ⟨fs, m, s, k3, k4, k5, _, _, k6⟩ | ⟨_, _, fs, k3, k4⟩
  · have : es = fs := List.append_cancel_left (hes.symm.trans k3)
    subst this
    rcases k6 id rfl (by simp) with h | h
    · exact .inl ((mem_inFlight k5.1 id).mpr h)
    · exact .inr (.inl h)
  · have : es = fs := List.append_cancel_left (hes.symm.trans k3)
    subst this
    exact .inr (.inr k4)

end

namespace Ex

/-- Two rounds of the receive loop. -/
def twice (c : ApiCall) : Client := .call c fun _ => once c

/-- A QoS 2 publish with id 5 arrives twice while another thread publishes with ids 5 and 6. -/
def dupPool : Pool :=
  startPool g (twice .processLoop) [.call (publishCall .qos2 5) fun _ => once (publishCall .qos1 6)]
    { conn with env := { env [0x34, 6, 0, 1, 98, 0, 5, 9, 0x3c, 6, 0, 1, 98, 0, 5, 9] with recvs := List.replicate 40 (.deliver 8) } }

/-- The order of the steps. -/
def dupOrder : List Nat := List.replicate 9 0 ++ [1, 1, 0, 0, 1] ++ List.replicate 10 0 ++ [1, 1, 1] ++ List.replicate 18 0

example : Receiver g (twice .processLoop) ∧ OneSession (twice .processLoop) ∧
    Worker g (.call (publishCall .qos2 5) fun _ => once (publishCall .qos1 6)) :=
  ⟨.call trivial fun _ => .call trivial fun _ => .stop, .call (fun h => by cases h) fun _ => .call (fun h => by cases h) fun _ => .stop,
    .call ⟨publishValid _ _, rfl⟩ fun _ => .call ⟨publishValid _ _, rfl⟩ fun _ => .stop⟩

/-- The ids of the QoS 2 publishes presented. -/
def presented2 (es : List Event) : List UInt16 :=
  es.filterMap fun e => match e with | .app _ _ i _ (some v) => if v.qos = .qos2 then some i else none | _ => none

def finished (p : Pool) : List Bool := p.threads.map fun t => match t with | .ret _ => true | _ => false

/-- Both threads finish; PUBREC is sent twice, the publish is presented once. -/
example : (sched dupOrder dupPool).map (fun p => (finished p, presented2 p.world.trace, wire (p.world.trace.drop conn.trace.length))) =
    some ([true, true], [5], [52, 9, 0, 2, 97, 98, 0, 5, 1, 2, 3, 80, 2, 0, 5, 50, 9, 0, 2, 97, 98, 0, 6, 1, 2, 3, 80, 2, 0, 5]) := by decide +kernel

/-- A second message on topic "ab". -/
def later : PublishInfo := ⟨.qos1, false, false, some [97, 98], 2, some [4, 5, 6], 3⟩

theorem laterValid (id : UInt16) : ValidCall g (.publish (some later) id) :=
  fun c h => by cases h; exact ⟨⟨fun _ => ⟨_, rfl, by decide⟩, fun _ => ⟨_, rfl, by simp [later]⟩⟩, by simp [later, g]⟩

/-- A QoS 1 publish with id 1 is in flight. -/
def sent1Steps : List (Env × ApiCall) := [(env [0x20, 2, 0, 0], connectCall), (env [], publishCall .qos1 1)]
def sent1 : World := (played sent1Steps).2

theorem sent1_fromInit : FromInit g (played sent1Steps).1 sent1 :=
  played_fromInit (by simp [sent1Steps, connectValid, publishValid]) (by decide +kernel)

/-- Its PUBACK arrives. -/
def ackEnv : Env := { env [0x40, 2, 0, 1] with recvs := List.replicate 40 (.deliver 8) }

/-- The hypotheses of `C62_stays`, with an execution in which both alternatives occur one after the other. -/
example : (∃ r ∈ inFlight sent1.ctx.tables.outgoing, r.packetId = 1) ∧
    (once .processLoop).Uses (fun c => ValidCall g c ∧ c ≠ .cancelCallback 1) ∧ OneSession (once .processLoop) ∧
    (once (.publish (some later) 1)).Uses (fun c => ValidCall g c ∧ sharedCall c = true ∧ c ≠ .cancelCallback 1) ∧
    (sched (List.replicate 17 0) (startPool g (once .processLoop) [once (.publish (some later) 1)] { sent1 with env := ackEnv })).map
      (fun p => (finished p, (inFlight p.world.ctx.tables.outgoing).map (·.packetId))) = some ([true, false], []) :=
  ⟨by decide +kernel, .call ⟨trivial, by simp⟩ fun _ => .stop, .call (fun h => by cases h) fun _ => .stop, .call ⟨laterValid 1, rfl, by simp⟩ fun _ => .stop, by decide +kernel⟩

/-- The connection was closed. -/
def closedSteps : List (Env × ApiCall) := sent1Steps ++ [(env [], .disconnect)]
def closed : World := (played closedSteps).2

theorem closed_fromInit : FromInit g (played closedSteps).1 closed :=
  played_fromInit (by
    intro x hx
    simp only [closedSteps, sent1Steps, List.mem_append, List.mem_cons, List.not_mem_nil, or_false] at hx
    rcases hx with (rfl | rfl) | rfl
    · exact connectValid
    · exact publishValid _ _
    · trivial) (by decide +kernel)

/-- The session is resumed; the application returns its copies. -/
def resumeEnv : Env :=
  { env [0x20, 2, 1, 0] with retrieves := [some (publishPacket { (pub .qos1).toSpec 1 with dup := true }), some (publishPacket { later.toSpec 2 with dup := true })] }

/-- `C62_stays` with a receiving thread that reconnects: a resumed session keeps the publish in flight, a new one does not. -/
example : (∃ r ∈ inFlight closed.ctx.tables.outgoing, r.packetId = 1) ∧
    (once connectCall).Uses (fun c => ValidCall g c ∧ c ≠ .cancelCallback 1) ∧ OneSession (once connectCall) ∧
    (sched [0] (startPool g (once connectCall) [once (.publish (some later) 1)] { closed with env := env [0x20, 2, 0, 0] })).map
      (fun p => (finished p, (inFlight p.world.ctx.tables.outgoing).map (·.packetId))) = some ([true, false], []) ∧
    (sched (List.replicate 10 0) (startPool g (once connectCall) [once (.publish (some later) 1)] { closed with env := resumeEnv })).map
      (fun p => (finished p, (inFlight p.world.ctx.tables.outgoing).map (·.packetId))) = some ([true, false], [1]) :=
  ⟨by decide +kernel, .call ⟨connectValid, by simp [connectCall]⟩ fun _ => .stop, .call (fun _ => rfl) fun _ => .stop, by decide +kernel, by decide +kernel⟩

theorem any_some.{u} {α : Type u} {o : Option α} {f : α → Bool} (h : o.any f = true) : ∃ a, o = some a ∧ f a = true := by
  cases o with
  | none => cases h
  | some a => exact ⟨a, rfl, h⟩

end Ex

/-- The ids of the publishes of which the application holds a copy: stored and not cleared. -/
def copiesHeld : List Event → List UInt16 → List UInt16
  | [], l => l
  | .store id _ true :: es, l => copiesHeld es (id :: l)
  | .clear id :: es, l => copiesHeld es (l.filter fun x => x ≠ id)
  | _ :: es, l => copiesHeld es l

/-- What is not guaranteed, 1.  The copy of a message in flight may be erased: the record of an acknowledged publish is removed inside a critical section, but the clear
callback is called after it.  If another thread publishes with the same packet id in between, its publish is accepted, its copy is stored, and then cleared.
There is an execution after which both threads have finished, the new message is in flight, and the application holds no copy. -/
theorem C62_copy_race : ∃ (g : Cfg) (h : List (ApiCall × ApiRet)) (w : World) (e : Env) (first worker : Client) (p : Pool), FromInit g h w ∧
    Receiver g first ∧ Worker g worker ∧ Pool.Steps (startPool g first [worker] { w with env := e }) p ∧ Ex.finished p = [true, true] ∧
    w.ctx.retransmits = true ∧ (∃ r ∈ inFlight p.world.ctx.tables.outgoing, r.packetId = 1 ∧ r.publishState = .pubAckPending) ∧
    copiesHeld p.world.trace [] = [] := by
  have h : (Ex.sched (List.replicate 11 0 ++ [1, 1, 1, 0, 0, 0, 0, 0, 0])
      (startPool Ex.g (Ex.once .processLoop) [Ex.once (.publish (some Ex.later) 1)] { Ex.sent1 with env := Ex.ackEnv })).any
      (fun p => decide (Ex.finished p = [true, true] ∧ (∃ r ∈ inFlight p.world.ctx.tables.outgoing, r.packetId = 1 ∧ r.publishState = .pubAckPending) ∧
        copiesHeld p.world.trace [] = [])) = true := by decide +kernel
  obtain ⟨p, hp, hq⟩ := Ex.any_some h
  obtain ⟨q1, q2, q3⟩ := of_decide_eq_true hq
  exact ⟨_, _, _, _, _, _, p, Ex.sent1_fromInit, .call (show ValidCall Ex.g .processLoop from trivial) fun _ => .stop, .call ⟨Ex.laterValid 1, rfl⟩ fun _ => .stop, Ex.sched_steps hp, q1,
    by decide +kernel, q2, q3⟩

/-- What is not guaranteed, 2.  `MQTT_Connect` sets the status to connected in one critical section and resends afterwards, in others.  There is an execution
in which another thread publishes in between: its message (id 2) reaches the wire before the older one (id 1) that is resent, and is then
sent a second time, as duplicate, on the same connection. -/
theorem C62_overtaking : ∃ (g : Cfg) (h : List (ApiCall × ApiRet)) (w : World) (e : Env) (first worker : Client) (p : Pool), FromInit g h w ∧
    Receiver g first ∧ Worker g worker ∧ Pool.Steps (startPool g first [worker] { w with env := e }) p ∧ Ex.finished p = [true, true] ∧
    (inFlight w.ctx.tables.outgoing).map (·.packetId) = [1] ∧
    wire (p.world.trace.drop w.trace.length) = connectPacket (Ex.ci.toSpec none) ++ publishPacket (Ex.later.toSpec 2) ++
      publishPacket { (Ex.pub .qos1).toSpec 1 with dup := true } ++ publishPacket { Ex.later.toSpec 2 with dup := true } := by
  have h : (Ex.sched ([0, 1, 1, 1] ++ List.replicate 13 0)
      (startPool Ex.g (Ex.once Ex.connectCall) [Ex.once (.publish (some Ex.later) 2)] { Ex.closed with env := Ex.resumeEnv })).any
      (fun p => decide (Ex.finished p = [true, true] ∧ wire (p.world.trace.drop Ex.closed.trace.length) = connectPacket (Ex.ci.toSpec none) ++
        publishPacket (Ex.later.toSpec 2) ++ publishPacket { (Ex.pub .qos1).toSpec 1 with dup := true } ++
        publishPacket { Ex.later.toSpec 2 with dup := true })) = true := by decide +kernel
  obtain ⟨p, hp, hq⟩ := Ex.any_some h
  obtain ⟨q1, q2⟩ := of_decide_eq_true hq
  exact ⟨_, _, _, _, _, _, p, Ex.closed_fromInit, .call Ex.connectValid fun _ => .stop, .call ⟨Ex.laterValid 2, rfl⟩ fun _ => .stop, Ex.sched_steps hp, q1,
    by decide +kernel, q2⟩

end Mqtt

