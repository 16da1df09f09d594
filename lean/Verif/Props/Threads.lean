/-
C47: several threads that share one context.

One thread receives (it may call every function); any number of other threads publish, subscribe, unsubscribe, ping, cancel, ask
for packet ids and for the connection status.  Each thread is an arbitrary program of such calls (`Client`), deciding what to call next from the
results.  The steps of the threads are interleaved arbitrarily (`Pool.Steps`); a step is what lies between two hooks, or one access outside.
-/
import Verif.Proof.ThreadPool
import Verif.Props.Status

namespace Mqtt
open Spec
set_option linter.unusedSimpArgs false

/-- The thread that receives: any calls with valid arguments. -/
abbrev Receiver (g : Cfg) (cl : Client) : Prop := cl.Uses fun c => ValidCall g c
/-- Another thread. -/
abbrev Worker (g : Cfg) (cl : Client) : Prop := cl.Uses fun c => ValidCall g c ∧ sharedCall c = true

theorem Client.Uses.mono {P Q : ApiCall → Prop} {cl : Client} (h : cl.Uses P) (hpq : ∀ c, P c → Q c) : cl.Uses Q := by
  induction h with
  | stop => exact .stop
  | call h _ ih => exact .call (hpq _ h) ih

theorem Inv.env {oc ic : Nat} {w : World} {e : Env} (h : Inv oc ic w.ctx) : Inv oc ic { w with env := e }.ctx := h

section
variable {g : Cfg} {h : List (ApiCall × ApiRet)} {w : World} {e : Env} {first : Client} {others : List Client} {p : Pool}

theorem threads_ok (hh : FromInit g h w) (hf : Receiver g first) (ho : ∀ cl ∈ others, Worker g cl) :
    ∃ oc ic, w.ctx.tables.outgoing.length = oc ∧ w.ctx.tables.incoming.length = ic ∧ PoolOk true oc ic (startPool g first others { w with env := e }) := by
  obtain ⟨oc, ic, hi⟩ := hh.inv
  have hi' := hi
  obtain ⟨_, s, hrep, ho1, hi1⟩ := hi'
  exact ⟨oc, ic, by rw [hrep.1.size, ho1], by rw [hrep.2.size, hi1],
    startPool_ok hh.cfg (Inv.env hi) (hf.mono fun _ h => ⟨h, .inl rfl⟩) ho⟩

/-- **C47** The programs that are interleaved are the functions of the library: run without interruption, each is the sequential function. -/
theorem C47_programs (g : Cfg) (c : ApiCall) : (callP g c).run = apiCall g c := callP_run g c

/-- **C47** Whatever happened before and in whatever order the steps of the threads are executed: the next step of no thread has undefined
behaviour, the receive index lies within the buffer, and the record arrays are well formed: they keep their sizes and represent finite sets of
in-flight publishes, with distinct non-zero packet ids. -/
theorem C47_safe (hh : FromInit g h w) (hf : Receiver g first) (ho : ∀ cl ∈ others, Worker g cl)
    (hs : Pool.Steps (startPool g first others { w with env := e }) p) :
    (∀ (i : Nat) (β : Type) (m : M β) (k : β → Prog Unit), p.threads[i]? = some (.step m k) → ∀ er w', m p.world ≠ .ub er w') ∧
    p.world.ctx.index ≤ p.world.ctx.bufSize ∧ p.world.ctx.tables.outgoing.length = w.ctx.tables.outgoing.length ∧
    p.world.ctx.tables.incoming.length = w.ctx.tables.incoming.length ∧ ∃ s, Represents p.world.ctx.tables s := by
  obtain ⟨oc, ic, e1, e2, h0⟩ := threads_ok (e := e) hh hf ho
  have hp := h0.steps hs
  obtain ⟨hi, s, hrep, hoc, hic⟩ := hp.inv
  refine ⟨?_, hi, by rw [e1, hrep.1.size, hoc], by rw [e2, hrep.2.size, hic], s, hrep⟩
  intro i β m k hth er w' hm
  exact wp_ub (hp.next hth) hm

/-- **C47** Packets of different threads are not interleaved on the wire: the events of every execution are a sequence of steps, and
each step that transmits is one critical section, in which (a first part of) one control packet is transmitted and nothing else.  This includes
the step during which execution ended (`Begun`): a thread that does not return from the transport transmitted part of one packet. -/
theorem C47_wire (hh : FromInit g h w) (hf : Receiver g first) (ho : ∀ cl ∈ others, Worker g cl)
    (hs : Pool.Steps (startPool g first others { w with env := e }) p) :
    (∃ es, p.world.trace = w.trace ++ es ∧ Chunked w.trace es) ∧
    ∀ (i : Nat) (β : Type) (m : M β) (k : β → Prog Unit), p.threads[i]? = some (.step m k) → ∀ w', m p.world = .stuck w' →
      ∃ es, w'.trace = p.world.trace ++ es ∧ Begun p.world.trace es := by
  obtain ⟨oc, ic, _, _, h0⟩ := threads_ok (e := e) hh hf ho
  refine ⟨h0.chunked hs, ?_⟩
  intro i β m k hth w' hm
  exact wp_stuck ((h0.steps hs).next hth) hm

/-- **C47** As long as no thread calls MQTT_Connect or MQTT_Disconnect: once a transport send has failed in any thread, no thread
calls the transport's send function again; and nothing is sent at all unless the connection was established at the beginning. -/
theorem C47_quiet (hh : FromInit g h w) (hf : first.Uses fun c => ValidCall g c ∧ plainCall c = true) (ho : ∀ cl ∈ others, Worker g cl)
    (hs : Pool.Steps (startPool g first others { w with env := e }) p) :
    ∃ es, p.world.trace = w.trace ++ es ∧ quietAfterSendFail es ∧ (w.ctx.connectStatus ≠ .connected → noSent es) := by
  obtain ⟨oc, ic, hi⟩ := hh.inv
  have h0 : PoolOk false oc ic (startPool g first others { w with env := e }) :=
    startPool_ok hh.cfg (Inv.env hi) (hf.mono fun _ h => ⟨h.1, .inr h.2⟩) ho
  obtain ⟨es, h1, h2, _, h4⟩ := h0.quiet hs
  exact ⟨es, h1, h2, fun hn => (h4 hn).1⟩

/-- **C47** The calls of the threads that do not receive are atomic: every execution leads to a world (context, environment and the whole sequence
of events) that is also reached when each such call, in particular each publish with its reservation, is executed at once between two steps of the thread
that receives.  Threads that have finished there have finished here. -/
theorem C47_atomic (hh : FromInit g h w) (hf : Receiver g first) (ho : ∀ cl ∈ others, Worker g cl)
    (hs : Pool.Steps (startPool g first others { w with env := e }) p) :
    ∃ q cs, Coarse.Steps g ⟨first.prog g, others, { w with env := e }⟩ ⟨q, cs, p.world⟩ ∧ p.threads[0]? = some q ∧
      p.threads.length = cs.length + 1 ∧ ∀ i : Nat, p.threads[i + 1]? = some (.ret ()) ↔ cs[i]? = some .stop := by
  obtain ⟨oc, ic, _, _, h0⟩ := threads_ok (e := e) hh hf ho
  obtain ⟨q, cs, h1, ts, h2, h3, h4⟩ := h0.coarse hh.cfg ho hs
  refine ⟨q, cs, h1, by rw [h2]; rfl, by rw [h2]; simpa using h3, ?_⟩
  intro i
  rw [h2]
  show ts[i]? = _ ↔ _
  by_cases hi : i < ts.length
  · have a := List.getElem?_eq_getElem hi
    have b := List.getElem?_eq_getElem (l := cs) (i := i) (by omega)
    have hh := h4 i _ _ a b
    rw [a, b]
    generalize ts[i] = t at hh
    generalize cs[i] = cl at hh
    cases hh with
    | stop => simp
    | @call q c next hl hne hr hn =>
      cases q with
      | ret a => exact absurd rfl (hne a)
      | step m k =>
        constructor
        · intro h
          injection h with h
          cases h
        · intro h
          injection h with h
          cases h
  · rw [List.getElem?_eq_none (by omega), List.getElem?_eq_none (by omega)]
    simp

end

namespace Ex

/-- Execute steps of threads in the given order. -/
def sched : List Nat → Pool → Option Pool
  | [], p => some p
  | i :: is, p =>
    match p.threads[i]? with
    | some (.step m k) =>
      match m p.world with
      | .done b w' => sched is ⟨p.threads.set i (k b), w'⟩
      | _ => none
    | _ => none

theorem steps_head {p q r : Pool} {i : Nat} (h : Pool.Step i p q) (h' : Pool.Steps q r) : Pool.Steps p r := by
  induction h' with
  | refl => exact .step .refl h
  | step _ hs ih => exact .step ih hs

theorem sched_steps : ∀ {is : List Nat} {p q : Pool}, sched is p = some q → Pool.Steps p q := by
  intro is
  induction is with
  | nil => intro p q h; cases h; exact .refl
  | cons i is ih =>
    intro p q h
    unfold sched at h
    split at h
    · rename_i hth
      split at h
      · rename_i hm
        exact steps_head (.step hth hm) (ih h)
      · cases h
    · cases h

/-- One call and nothing more. -/
def once (c : ApiCall) : Client := .call c fun _ => .stop

/-- The world after the connection was established. -/
def conn : World := (played [(env [0x20, 2, 0, 0], connectCall)]).2

theorem conn_fromInit : FromInit g (played [(env [0x20, 2, 0, 0], connectCall)]).1 conn :=
  played_fromInit (by simp [connectValid]) (by decide +kernel)

/-- The receive loop while a QoS 1 publish arrives, and two threads that publish. -/
def three : Pool :=
  startPool g (once .processLoop) [once (publishCall .qos1 1), once (publishCall .qos2 2)]
    { conn with env := { env [0x32, 6, 0, 1, 98, 0, 5, 9] with recvs := List.replicate 40 (.deliver 8) } }

/-- The steps mixed: the publishing threads run between the steps of the receive loop. -/
def mixed : List Nat := [0, 0, 1, 2, 0, 1, 0, 2, 0, 0, 0, 0, 2, 0, 0, 1, 0, 0, 0, 0, 0]

def summary (p : Option Pool) : Option (List UInt8 × Nat × Records × List Bool) :=
  p.map fun p => (wire (p.world.trace.drop conn.trace.length), p.world.ctx.index, p.world.ctx.tables.outgoing,
    p.threads.map fun t => match t with | .ret _ => true | _ => false)


example : Receiver g (once .processLoop) := .call (by simp [ValidCall]) fun _ => .stop
example : ∀ cl ∈ [once (publishCall .qos1 1), once (publishCall .qos2 2)], Worker g cl := by
  intro cl hcl
  simp only [List.mem_cons, List.not_mem_nil, or_false] at hcl
  rcases hcl with rfl | rfl
  · exact .call ⟨publishValid _ _, rfl⟩ fun _ => .stop
  · exact .call ⟨publishValid _ _, rfl⟩ fun _ => .stop

/-- In the mixed order the second publish and then the first are sent, then the acknowledgement; both are recorded. -/
example : (summary (sched mixed three)).map (fun x => (x.1, x.2.2.1.map (·.packetId))) =
    some ([52, 9, 0, 2, 97, 98, 0, 2, 1, 2, 3, 50, 9, 0, 2, 97, 98, 0, 1, 1, 2, 3, 64, 2, 0, 5], [2, 1]) := by decide +kernel

/-- The thread whose next step has undefined behaviour. -/
def nextUb (p : Pool) (i : Nat) : Bool :=
  match p.threads[i]? with
  | some (.step m _) => match m p.world with | .ub _ _ => true | _ => false
  | _ => false

/-- A receive loop, and a thread that disconnects. -/
def racing : Pool :=
  startPool g (once .processLoop) [once .disconnect]
    { conn with env := { env [0x30, 4, 0, 1, 98, 9] with recvs := List.replicate 40 (.deliver 6) } }

theorem nextUb_spec {p : Pool} {i : Nat} (h : nextUb p i = true) :
    ∃ (β : Type) (m : M β) (k : β → Prog Unit), p.threads[i]? = some (.step m k) ∧ ∃ er w', m p.world = .ub er w' := by
  unfold nextUb at h
  split at h
  · rename_i m k hth
    split at h
    · rename_i er w' hm
      exact ⟨_, m, k, hth, er, w', hm⟩
    · cases h
  · cases h

end Ex

/-- **C47** Why MQTT_Disconnect is not among the calls of the other threads: it resets the receive index inside its critical section, while a
receive loop removes a handled packet from the buffer outside any.  There is an execution, from a connected context, of a receive
loop and one call of MQTT_Disconnect in another thread, after which the next step of the receive loop reads outside the receive buffer
(`index - totalMQTTPacketLength` wraps around and becomes the length of the memmove).  The same happens when the application's
callback calls MQTT_Disconnect. -/
theorem C47_disconnect_race : ∃ (g : Cfg) (h : List (ApiCall × ApiRet)) (w : World) (e : Env) (p : Pool), FromInit g h w ∧
    w.ctx.connectStatus = .connected ∧ Pool.Steps (startPool g (Ex.once .processLoop) [Ex.once .disconnect] { w with env := e }) p ∧
    ∃ (β : Type) (m : M β) (k : β → Prog Unit), p.threads[0]? = some (.step m k) ∧ ∃ er w', m p.world = .ub er w' := by
  have h : (Ex.sched (List.replicate 12 0 ++ [1, 1]) Ex.racing).any (fun p => Ex.nextUb p 0) = true := by decide +kernel
  obtain ⟨p, hp, hu⟩ : ∃ p, Ex.sched (List.replicate 12 0 ++ [1, 1]) Ex.racing = some p ∧ Ex.nextUb p 0 = true := by
    revert h
    generalize Ex.sched (List.replicate 12 0 ++ [1, 1]) Ex.racing = o
    intro h
    cases o with
    | none => cases h
    | some p => exact ⟨p, rfl, h⟩
  exact ⟨_, _, _, _, p, Ex.conn_fromInit, by decide +kernel, Ex.sched_steps hp, Ex.nextUb_spec hu⟩

end Mqtt
