/-
Observations on traces of environment interactions, used in the statements about core_mqtt.c.
-/
import Verif.Model.World

namespace Mqtt.Spec
open Mqtt

/-- The bytes handed over to the transport, in order: for each send call the accepted prefix of what it was offered. -/
def wire (es : List Event) : List UInt8 :=
  es.flatMap fun e => match e with
    | .sent bytes (some k) => bytes.take k
    | _ => []

/-- A transport call (send, writev or recv). -/
def isSent : Event → Bool
  | .sent _ _ => true
  | _ => false

/-- A transport call that returned an error. -/
def isFail : Event → Bool
  | .sent _ none => true
  | .recvd _ none => true
  | _ => false

/-- Some transport call failed. -/
def hasFail (es : List Event) : Bool := es.any isFail

/-- No call of the transport's send function. -/
def noSent (es : List Event) : Prop := ∀ e ∈ es, isSent e = false

/-- After a failed transport call the send function is not called any more. -/
def quietAfterFail : List Event → Prop
  | [] => True
  | e :: es => if isFail e then noSent es else quietAfterFail es

/-- The critical section opened by the pre hook and closed by the post hook, followed through a trace.  `held` says whether it is
open.  `none`: it was opened twice, closed when it was not open, or the send function was called outside of it. -/
def lockRun : Bool → List Event → Option Bool
  | held, [] => some held
  | held, .pre :: es => if held then none else lockRun true es
  | held, .post :: es => if held then lockRun false es else none
  | held, .sent _ _ :: es => if held then lockRun held es else none
  | held, _ :: es => lockRun held es

/-- The packets handed to the application callback. -/
def delivered (es : List Event) : List Event :=
  es.filter fun e => match e with
    | .app .. => true
    | _ => false

theorem wire_append (a b : List Event) : wire (a ++ b) = wire a ++ wire b := by simp [wire]
theorem hasFail_append (a b : List Event) : hasFail (a ++ b) = (hasFail a || hasFail b) := by simp [hasFail]

theorem noSent_append {a b : List Event} : noSent (a ++ b) ↔ noSent a ∧ noSent b := by
  constructor
  · exact fun h => ⟨fun e he => h e (List.mem_append_left _ he), fun e he => h e (List.mem_append_right _ he)⟩
  · intro ⟨h1, h2⟩ e he
    rcases List.mem_append.mp he with h | h
    · exact h1 e h
    · exact h2 e h

theorem noSent_nil : noSent [] := fun _ h => absurd h List.not_mem_nil

theorem wire_of_noSent {es : List Event} (h : noSent es) : wire es = [] := by
  induction es with
  | nil => rfl
  | cons e es ih =>
    have h1 := h e (List.mem_cons_self)
    have h2 := ih (fun x hx => h x (List.mem_cons_of_mem _ hx))
    have : wire (e :: es) = wire [e] ++ wire es := by rw [← wire_append]; rfl
    rw [this, h2]
    cases e <;> simp_all [isSent, wire]

theorem quietAfterFail_append {a b : List Event} (ha : quietAfterFail a) (hb : quietAfterFail b)
    (h : hasFail a = true → noSent b) : quietAfterFail (a ++ b) := by
  induction a with
  | nil => exact hb
  | cons e es ih =>
    show if isFail e then noSent (es ++ b) else quietAfterFail (es ++ b)
    unfold quietAfterFail at ha
    by_cases he : isFail e = true
    · rw [if_pos he] at ha ⊢
      exact noSent_append.mpr ⟨ha, h (by simp [hasFail, he])⟩
    · rw [if_neg he] at ha ⊢
      exact ih ha (fun hf => h (by simp only [hasFail, List.any_cons] at hf ⊢; simp [hf]))

theorem lockRun_append (h : Bool) (a b : List Event) : lockRun h (a ++ b) = (lockRun h a).bind fun h' => lockRun h' b := by
  induction a generalizing h with
  | nil => rfl
  | cons e es ih =>
    cases e <;> simp only [List.cons_append, lockRun, ih] <;> split <;> simp

end Mqtt.Spec

namespace Mqtt.Spec
open Mqtt

/-- Number of calls of the transport's send function. -/
def sendCalls (es : List Event) : Nat := (es.filter isSent).length

/-- A clock reading. -/
def isTime : Event → Bool
  | .time _ => true
  | _ => false

/-- Number of clock readings. -/
def clockReads (es : List Event) : Nat := (es.filter isTime).length

/-- The clock readings of a trace come from a real clock counting milliseconds without end, of which the library sees the low 32 bits.
`now` is the last value, `low` the least value allowed for the next reading: the clock does not run backwards, a call of the send function takes at
least a millisecond, and at most `gap` milliseconds pass between two readings. -/
def realClock (gap : Nat) : Nat → Nat → List Event → Prop
  | _, _, [] => True
  | now, low, .time t :: es => ∃ T, low ≤ T ∧ T ≤ now + gap ∧ t = UInt32.ofNat T ∧ realClock gap T T es
  | now, low, .sent _ _ :: es => realClock gap now (max low (now + 1)) es
  | now, low, _ :: es => realClock gap now low es

/-- Every call of the send function that offers at least one byte takes at least one byte (or fails). -/
def progress (es : List Event) : Prop :=
  ∀ bytes k, Event.sent bytes (some k) ∈ es → bytes ≠ [] → 1 ≤ k

theorem sendCalls_append (a b : List Event) : sendCalls (a ++ b) = sendCalls a + sendCalls b := by simp [sendCalls]
theorem clockReads_append (a b : List Event) : clockReads (a ++ b) = clockReads a + clockReads b := by simp [clockReads]

theorem sendCalls_nil : sendCalls [] = 0 := rfl
theorem sendCalls_cons (e : Event) (es : List Event) : sendCalls (e :: es) = (if isSent e then 1 else 0) + sendCalls es := by
  unfold sendCalls; rw [List.filter_cons]; split <;> simp [Nat.add_comm]
theorem clockReads_nil : clockReads [] = 0 := rfl
theorem clockReads_cons (e : Event) (es : List Event) : clockReads (e :: es) = (if isTime e then 1 else 0) + clockReads es := by
  unfold clockReads; rw [List.filter_cons]; split <;> simp [Nat.add_comm]

end Mqtt.Spec

namespace Mqtt.Spec
open Mqtt

/-- What happened in a call: the interactions added to the trace. -/
def newEvents {α : Type} (w : World) (o : Out α) : List Event := o.world.trace.drop w.trace.length

/-- The bytes the transport delivered, in order. -/
def received (es : List Event) : List UInt8 :=
  es.flatMap fun e => match e with
    | .recvd _ (some bs) => bs
    | _ => []

theorem received_time (t : UInt32) (es : List Event) : received (.time t :: es) = received es := by simp [received]
theorem received_nil : received [] = [] := rfl
theorem hasFail_time (t : UInt32) (es : List Event) : hasFail (.time t :: es) = hasFail es := by simp [hasFail, isFail]
theorem hasFail_nil : hasFail [] = false := rfl
theorem received_append (a b : List Event) : received (a ++ b) = received a ++ received b := by simp [received]

end Mqtt.Spec

namespace Mqtt.Spec
open Mqtt

/-- A call of the application callback or of one of the callbacks for stored publishes. -/
def isCallback : Event → Bool
  | .app .. | .store .. | .retrieve .. | .clear .. => true
  | _ => false

/-- The callbacks made. -/
def callbacks (es : List Event) : List Event := es.filter isCallback

/-- A call of the transport's receive function. -/
def isRecvd : Event → Bool
  | .recvd .. => true
  | _ => false

theorem callbacks_append (a b : List Event) : callbacks (a ++ b) = callbacks a ++ callbacks b := by simp [callbacks]
theorem callbacks_nil : callbacks [] = [] := rfl

/-- The calls of the callback that retrieves stored publishes: packet id and answer. -/
def retrieved (es : List Event) : List (UInt16 × Option (List UInt8)) :=
  es.filterMap fun e => match e with
    | .retrieve id p => some (id, p)
    | _ => none

theorem retrieved_append (a b : List Event) : retrieved (a ++ b) = retrieved a ++ retrieved b := by simp [retrieved]

end Mqtt.Spec

namespace Mqtt.Spec
open Mqtt

/-- How deep the critical section is nested after a trace that starts at depth `d`.  `none`: it was left more often than entered. -/
def hookDepth : Nat → List Event → Option Nat
  | d, [] => some d
  | d, .pre :: es => hookDepth (d + 1) es
  | d, .post :: es => if d = 0 then none else hookDepth (d - 1) es
  | d, _ :: es => hookDepth d es

end Mqtt.Spec

namespace Mqtt.Spec
open Mqtt

/-- A receive call that asked for one byte and got none. -/
def isEmptyPoll : Event → Bool
  | .recvd 1 (some []) => true
  | _ => false

/-- How often the transport was asked for the first byte: the receive calls up to the first one that delivers something or fails. -/
def polls : List Event → Nat
  | [] => 0
  | e :: es => if isRecvd e then (if isEmptyPoll e then 1 + polls es else 1) else polls es

/-- After each attempt to receive the first byte that found nothing the clock is read, and once `timeoutMs` milliseconds have passed since
`t0` (counted modulo 2^32) nothing is received any more.  An attempt that delivers a byte or fails ends the wait. -/
def waitsUntil (timeoutMs t0 : UInt32) : List Event → Prop
  | [] => True
  | e :: es => if isEmptyPoll e then
      match es with
      | [] => True
      | .time t :: es' => if t - t0 < timeoutMs then waitsUntil timeoutMs t0 es' else ∀ x ∈ es', isRecvd x = false
      | _ => False
    else isRecvd e = true ∨ ∀ x ∈ es, isRecvd x = false

end Mqtt.Spec

namespace Mqtt.Spec
open Mqtt

/-- Like `realClock`, for the receive function: a call of it takes at least a millisecond. -/
def recvClock (gap : Nat) : Nat → Nat → List Event → Prop
  | _, _, [] => True
  | now, low, .time t :: es => ∃ T, low ≤ T ∧ T ≤ now + gap ∧ t = UInt32.ofNat T ∧ recvClock gap T T es
  | now, low, .recvd _ _ :: es => recvClock gap now (max low (now + 1)) es
  | now, low, _ :: es => recvClock gap now low es

/-- The ids of the PUBRECs presented to the application. -/
def pubrecs (es : List Event) : List UInt16 :=
  es.filterMap fun e => match e with
    | .app 0x50 _ id _ none => some id
    | _ => none

end Mqtt.Spec

namespace Mqtt.Spec
open Mqtt

/-- At some point nothing was received for `polling` milliseconds (counted modulo 2^32): between clock readings `t0` and `t` the transport was asked and
delivered nothing, and that much time has passed. -/
def Starved (polling : UInt32) (es : List Event) : Prop :=
  ∃ before t0 wait t after, es = before ++ .time t0 :: (wait ++ .time t :: after) ∧ received wait = [] ∧ (∃ n, Event.recvd n (some []) ∈ wait) ∧
    polling ≤ t - t0

theorem Starved.append_left {p : UInt32} {es : List Event} (h : Starved p es) (a : List Event) : Starved p (a ++ es) := by
  obtain ⟨b, t0, x, t, c, rfl, h⟩ := h
  exact ⟨a ++ b, t0, x, t, c, by simp, h⟩

theorem Starved.append_right {p : UInt32} {es : List Event} (h : Starved p es) (a : List Event) : Starved p (es ++ a) := by
  obtain ⟨b, t0, x, t, c, rfl, h⟩ := h
  exact ⟨b, t0, x, t, c ++ a, by simp, h⟩

/-- A poll without result, inserted behind the first clock reading. -/
theorem Starved.poll {p t0 : UInt32} {es : List Event} (h : Starved p (.time t0 :: es)) (n : Nat) (t1 : UInt32) :
    Starved p (.time t0 :: ([.recvd n (some [])] ++ .time t1 :: es)) := by
  obtain ⟨b, t0', x, t, c, h1, h2, ⟨k, h3⟩, h4⟩ := h
  cases b with
  | nil =>
    cases h1
    exact ⟨[], t0, .recvd n (some []) :: .time t1 :: x, t, c, by simp, by simpa [received] using h2, ⟨k, by simp [h3]⟩, h4⟩
  | cons e b =>
    cases h1
    exact ⟨.time t0 :: .recvd n (some []) :: .time t1 :: b, t0', x, t, c, by simp, h2, ⟨k, h3⟩, h4⟩

end Mqtt.Spec

namespace Mqtt

/-- The bytes received and not yet consumed. -/
def Ctx.buffered (c : Ctx) : List UInt8 := c.netBuf.take c.index

end Mqtt
