/-
What every function of core_mqtt.c but `MQTT_Connect` and `MQTT_Disconnect` may do to the world: the relation `Fx`, and its calculus.
-/
import Verif.Proof.SendLoop
import Verif.Proof.InFlight

namespace Mqtt
open Spec
set_option linter.unusedSimpArgs false

/-- The invariant of a context: the index lies in the buffer, and the record arrays (of the given sizes) hold in-flight publishes. -/
def Inv (oc ic : Nat) (c : Ctx) : Prop :=
  c.index ≤ c.bufSize ∧ ∃ s, Represents c.tables s ∧ s.outCap = oc ∧ s.inCap = ic

/-- A monitor that follows the packets presented to the application: `opened` are the ids of incoming QoS 2 publishes presented and not yet
released by a PUBREL, `out` ids of outgoing publishes not yet acknowledged by PUBACK or PUBCOMP. -/
structure Mon where
  opened : List UInt16
  out : List UInt16

/-- `none`: a QoS 2 publish was presented a second time. -/
def monStep (m : Mon) : Event → Option Mon
  | .app _ _ id _ (some v) =>
    if v.qos = .qos2 then (if id ∈ m.opened then none else some { m with opened := id :: m.opened }) else some m
  | .app t _ id _ none =>
    if t = 0x62 then some { m with opened := m.opened.filter fun x => x ≠ id }
    else if t = 0x40 ∨ t = 0x70 then some { m with out := m.out.filter fun x => x ≠ id }
    else some m
  | _ => some m

def monRun (m : Mon) : List Event → Option Mon
  | [] => some m
  | e :: es => (monStep m e).bind fun m' => monRun m' es

theorem monRun_append (m : Mon) (a b : List Event) : monRun m (a ++ b) = (monRun m a).bind fun m' => monRun m' b := by
  induction a generalizing m with
  | nil => rfl
  | cons e es ih =>
    show (monStep m e).bind _ = ((monStep m e).bind _).bind _
    cases monStep m e with
    | none => rfl
    | some m' => exact ih m'

/-- The record arrays agree with the monitor. -/
def MonOk (m : Mon) (t : Tables) : Prop :=
  ∃ s, Represents t s ∧ (∀ id ∈ m.opened, s.inc.phase id = some .sendPubrec ∨ s.inc.phase id = some .awaitPubrel) ∧
    ∀ id ∈ m.out, s.out.phase id ≠ none

/-- The clear callback is called only right before a PUBACK or PUBREC for the same id is presented to the application. -/
def clearsOk : List Event → Prop
  | [] => True
  | .clear id :: es => (∃ t body r rest, es = .app t body id r none :: rest ∧ (t = 0x40 ∨ t = 0x50)) ∧ clearsOk es
  | _ :: es => clearsOk es

theorem clearsOk_append {a b : List Event} (ha : clearsOk a) (hb : clearsOk b) : clearsOk (a ++ b) := by
  induction a with
  | nil => exact hb
  | cons e es ih =>
    cases e with
    | clear id =>
      obtain ⟨⟨t, body, r, rest, he, ht⟩, h2⟩ := ha
      exact ⟨⟨t, body, r, rest ++ b, by rw [he]; rfl, ht⟩, ih h2⟩
    | _ => exact ih ha

/-- The events `es` were added, starting with the critical section held (`h`) or not, ending with `h'`. -/
structure Fx (h : Bool) (w : World) (es : List Event) (h' : Bool) (w' : World) : Prop where
  trace : w'.trace = w.trace ++ es
  status : w'.ctx.connectStatus = afterFail (hasFail es) w.ctx.connectStatus
  quiet : quietAfterFail es
  idle : w.ctx.connectStatus ≠ .connected → noSent es
  lock : lockRun h es = some h'
  writev : w'.ctx.hasWritev = w.ctx.hasWritev
  retransmits : w'.ctx.retransmits = w.ctx.retransmits
  bufSize : w'.ctx.bufSize = w.ctx.bufSize
  keepAlive : w'.ctx.keepAliveIntervalSec = w.ctx.keepAliveIntervalSec
  stream : w.env.input = received es ++ w'.env.input
  nextId : w'.ctx.nextPacketId = w.ctx.nextPacketId
  inv : ∀ oc ic, Inv oc ic w.ctx → Inv oc ic w'.ctx
  mon : ∀ m, MonOk m w.ctx.tables → ∃ m', monRun m es = some m' ∧ MonOk m' w'.ctx.tables
  clears : clearsOk es

/-- No new interaction, and only parts of the context changed that `Fx` does not mention. -/
theorem Fx.silent {h : Bool} {w w' : World} (ht : w'.trace = w.trace) (he : w'.env.input = w.env.input)
    (hs : w'.ctx.connectStatus = w.ctx.connectStatus) (hw : w'.ctx.hasWritev = w.ctx.hasWritev)
    (hr : w'.ctx.retransmits = w.ctx.retransmits) (hb : w'.ctx.bufSize = w.ctx.bufSize)
    (hk : w'.ctx.keepAliveIntervalSec = w.ctx.keepAliveIntervalSec) (hn : w'.ctx.nextPacketId = w.ctx.nextPacketId)
    (hi : w.ctx.index ≤ w.ctx.bufSize → w'.ctx.index ≤ w'.ctx.bufSize) (htab : w'.ctx.tables = w.ctx.tables) : Fx h w [] h w' :=
  ⟨by simp [ht], by simp [hs, hasFail, afterFail], trivial, fun _ => noSent_nil, rfl, hw, hr, hb, hk, by simp [received, he], hn,
    by rintro oc ic ⟨h1, h2⟩; exact ⟨hi h1, by rw [htab]; exact h2⟩, fun m hm => ⟨m, rfl, by rw [htab]; exact hm⟩, trivial⟩

theorem Fx.refl (h : Bool) (w : World) : Fx h w [] h w :=
  Fx.silent rfl rfl rfl rfl rfl rfl rfl rfl (fun h => h) rfl

theorem Fx.trans {h h1 h2 : Bool} {w w1 w2 : World} {a b : List Event} (f : Fx h w a h1 w1) (f' : Fx h1 w1 b h2 w2) :
    Fx h w (a ++ b) h2 w2 := by
  have hq : hasFail a = true → noSent b := by
    intro ha
    refine f'.idle ?_
    rw [f.status, ha]
    unfold afterFail
    cases w.ctx.connectStatus <;> simp
  refine ⟨by rw [f'.trace, f.trace, List.append_assoc], by rw [f'.status, f.status, hasFail_append, afterFail_or],
    quietAfterFail_append f.quiet f'.quiet hq, ?_, by rw [lockRun_append, f.lock]; exact f'.lock,
    f'.writev.trans f.writev, f'.retransmits.trans f.retransmits, f'.bufSize.trans f.bufSize, f'.keepAlive.trans f.keepAlive, ?_,
    f'.nextId.trans f.nextId, ?_, ?_, clearsOk_append f.clears f'.clears⟩
  · intro hc
    refine noSent_append.mpr ⟨f.idle hc, f'.idle ?_⟩
    rw [f.status]
    unfold afterFail
    cases hs : w.ctx.connectStatus <;> simp_all
  · rw [f.stream, f'.stream, received_append, List.append_assoc]
  · exact fun oc ic hi => f'.inv oc ic (f.inv oc ic hi)
  · intro m hm
    obtain ⟨m1, h1, hm1⟩ := f.mon m hm
    obtain ⟨m2, h2, hm2⟩ := f'.mon m1 hm1
    exact ⟨m2, by rw [monRun_append, h1]; exact h2, hm2⟩

/-- An interaction that is neither a transport call nor a hook, and that the monitors ignore. -/
def plainEvent : Event → Bool
  | .time _ | .store .. | .retrieve .. => true
  | .app t _ _ _ none => t ≠ 0x62 ∧ t ≠ 0x40 ∧ t ≠ 0x70
  | _ => false

/-- Events the monitors ignore. -/
theorem Fx.monRefl {w w' : World} {es : List Event} (hc : w'.ctx.tables = w.ctx.tables) (he : ∀ m, monRun m es = some m) :
    ∀ m, MonOk m w.ctx.tables → ∃ m', monRun m es = some m' ∧ MonOk m' w'.ctx.tables :=
  fun m hm => ⟨m, he m, by rw [hc]; exact hm⟩

theorem Fx.plain {h : Bool} {w w' : World} {e : Event} (he : plainEvent e = true) (ht : w'.trace = w.trace ++ [e])
    (hc : w'.ctx = w.ctx) (hi : w'.env.input = w.env.input) : Fx h w [e] h w' := by
  refine ⟨ht, ?_, ?_, ?_, ?_, by rw [hc], by rw [hc], by rw [hc], by rw [hc], ?_, by rw [hc], by rw [hc]; exact fun _ _ h => h,
    Fx.monRefl (by rw [hc]) ?_, ?_⟩
  case refine_6 =>
    intro m
    cases e with
    | app t b i r p => cases p <;> simp_all [plainEvent, monRun, monStep]
    | _ => simp_all [plainEvent, monRun, monStep]
  all_goals cases e <;> simp_all [plainEvent, hasFail, isFail, afterFail, quietAfterFail, noSent, isSent, lockRun, received, clearsOk]

theorem Fx.pre {w w' : World} (ht : w'.trace = w.trace ++ [.pre]) (hc : w'.ctx = w.ctx) (hi : w'.env.input = w.env.input) :
    Fx false w [.pre] true w' := by
  refine ⟨ht, ?_, ?_, ?_, ?_, by rw [hc], by rw [hc], by rw [hc], by rw [hc], ?_, by rw [hc], by rw [hc]; exact fun _ _ h => h,
    Fx.monRefl (by rw [hc]) ?_, ?_⟩ <;>
    simp_all [hasFail, isFail, afterFail, quietAfterFail, noSent, isSent, lockRun, received, monRun, monStep, clearsOk]

theorem Fx.post {w w' : World} (ht : w'.trace = w.trace ++ [.post]) (hc : w'.ctx = w.ctx) (hi : w'.env.input = w.env.input) :
    Fx true w [.post] false w' := by
  refine ⟨ht, ?_, ?_, ?_, ?_, by rw [hc], by rw [hc], by rw [hc], by rw [hc], ?_, by rw [hc], by rw [hc]; exact fun _ _ h => h,
    Fx.monRefl (by rw [hc]) ?_, ?_⟩ <;>
    simp_all [hasFail, isFail, afterFail, quietAfterFail, noSent, isSent, lockRun, received, monRun, monStep, clearsOk]

/-- A successful receive call. -/
theorem Fx.recv {h : Bool} {w w' : World} {n : Nat} {bs : List UInt8} (ht : w'.trace = w.trace ++ [.recvd n (some bs)])
    (hc : w'.ctx = w.ctx) (hi : w.env.input = bs ++ w'.env.input) : Fx h w [.recvd n (some bs)] h w' := by
  refine ⟨ht, ?_, ?_, ?_, ?_, by rw [hc], by rw [hc], by rw [hc], by rw [hc], ?_, by rw [hc], by rw [hc]; exact fun _ _ h => h,
    Fx.monRefl (by rw [hc]) ?_, ?_⟩ <;>
    simp_all [hasFail, isFail, afterFail, quietAfterFail, noSent, isSent, lockRun, received, monRun, monStep, clearsOk]

theorem received_of_kinds {es : List Event} (h : ∀ e ∈ es, isSendOrTime e = true) : received es = [] := by
  induction es with
  | nil => rfl
  | cons e es ih =>
    have h1 := h e List.mem_cons_self
    have h2 := ih (fun x hx => h x (List.mem_cons_of_mem _ hx))
    have : received (e :: es) = received [e] ++ received es := by rw [← received_append]; rfl
    rw [this, h2]
    cases e <;> simp_all [isSendOrTime, received]

theorem lockRun_of_kinds {es : List Event} (h : ∀ e ∈ es, isSendOrTime e = true) : lockRun true es = some true := by
  induction es with
  | nil => rfl
  | cons e es ih =>
    have h1 := h e List.mem_cons_self
    have h2 := ih (fun x hx => h x (List.mem_cons_of_mem _ hx))
    cases e <;> simp_all [isSendOrTime, lockRun]

theorem monRun_of_kinds {es : List Event} (h : ∀ e ∈ es, isSendOrTime e = true) (m : Mon) : monRun m es = some m := by
  induction es with
  | nil => rfl
  | cons e es ih =>
    have h1 := h e List.mem_cons_self
    have h2 := ih (fun x hx => h x (List.mem_cons_of_mem _ hx))
    cases e <;> simp_all [isSendOrTime, monRun, monStep]

theorem clearsOk_of_kinds {es : List Event} (h : ∀ e ∈ es, isSendOrTime e = true) : clearsOk es := by
  induction es with
  | nil => trivial
  | cons e es ih =>
    have h1 := h e List.mem_cons_self
    have h2 := ih (fun x hx => h x (List.mem_cons_of_mem _ hx))
    cases e <;> simp_all [isSendOrTime, clearsOk]

theorem Inv.send {oc ic : Nat} {c : Ctx} (t : UInt32) (s : ConnStatus) (h : Inv oc ic c) :
    Inv oc ic { c with lastPacketTxTime := t, connectStatus := s } := h

/-- A send operation inside the critical section on an established connection. -/
theorem SendDelta.fx {w w' : World} {es : List Event} (h : SendDelta w es w') (hc : w.ctx.connectStatus = .connected) :
    Fx true w es true w' := by
  obtain ⟨t, hctx⟩ := h.ctx
  obtain ⟨s, c, henv⟩ := h.env
  refine ⟨h.trace, by rw [hctx], h.quiet, fun h => absurd hc h, lockRun_of_kinds h.kinds, by rw [hctx], by rw [hctx],
    by rw [hctx]; rfl, by rw [hctx], by rw [received_of_kinds h.kinds, henv]; rfl, by rw [hctx], ?_,
    Fx.monRefl (by rw [hctx]) (monRun_of_kinds h.kinds), clearsOk_of_kinds h.kinds⟩
  rw [hctx]
  exact fun oc ic hi => hi

/-- Some events satisfying `X` were added. -/
def Fxs (X : List Event → Prop) (h : Bool) (w w' : World) : Prop := ∃ es h', Fx h w es h' w' ∧ X es

theorem Fxs.refl {X : List Event → Prop} (h : Bool) (w : World) (hx : X []) : Fxs X h w w := ⟨[], h, Fx.refl h w, hx⟩
theorem Fx.then {X : List Event → Prop} {h h1 : Bool} {w w1 w2 : World} {a : List Event} (f : Fx h w a h1 w1)
    (f' : Fxs (fun es => X (a ++ es)) h1 w1 w2) : Fxs X h w w2 := by
  obtain ⟨b, h2, f', hx⟩ := f'
  exact ⟨_, _, f.trans f', hx⟩

/-- Running `m` adds events according to `Fx`; if it returns, `R` holds of the result, the events and the final world; if it does not return, `X`
holds of the events; it has undefined behaviour only if `V` or the invariant of the context does not hold. -/
def Tr {α : Type} (V : Prop) (h : Bool) (m : M α) (R : α → List Event → Bool → World → Prop) (X : List Event → Prop) (w : World) : Prop :=
  wp m (fun a w' => ∃ es h', Fx h w es h' w' ∧ R a es h' w') (Fxs X h w)
    (fun w' => Fxs (fun _ => True) h w w' ∧ ¬ (V ∧ ∃ oc ic, Inv oc ic w.ctx)) w

section
variable {α β : Type} {V : Prop} {h : Bool} {w : World} {X : List Event → Prop}

theorem Tr.pure {a : α} {R : α → List Event → Bool → World → Prop} (hr : R a [] h w) : Tr V h (Pure.pure a : M α) R X w :=
  ⟨[], h, Fx.refl h w, hr⟩

theorem Tr.mono {m : M α} {R R' : α → List Event → Bool → World → Prop} {X' : List Event → Prop} (ht : Tr V h m R X w)
    (hr : ∀ a es h' w', Fx h w es h' w' → R a es h' w' → R' a es h' w') (hx : ∀ es, X es → X' es) : Tr V h m R' X' w := by
  refine wp_mono ht ?_ ?_ (fun _ h => h)
  · rintro a w' ⟨es, h', f, r⟩
    exact ⟨es, h', f, hr a es h' w' f r⟩
  · rintro w' ⟨es, h', f, x⟩
    exact ⟨es, h', f, hx es x⟩

theorem Tr.weaken {V' : Prop} {m : M α} {R : α → List Event → Bool → World → Prop} (ht : Tr V h m R X w) (hv : V' → V) : Tr V' h m R X w :=
  wp_mono ht (fun _ _ h => h) (fun _ h => h) (fun _ h => ⟨h.1, fun hn => h.2 ⟨hv hn.1, hn.2⟩⟩)

/-- Continue after events `a` that led to `w`. -/
theorem Tr.after {h0 : Bool} {w0 : World} {a : List Event} (f : Fx h0 w0 a h w) {m : M α} {R : α → List Event → Bool → World → Prop}
    (ht : Tr V h m (fun x es h' w' => R x (a ++ es) h' w') (fun es => X (a ++ es)) w) :
    wp m (fun x w' => ∃ es h', Fx h0 w0 es h' w' ∧ R x es h' w') (Fxs X h0 w0)
      (fun w' => Fxs (fun _ => True) h0 w0 w' ∧ ¬ (V ∧ ∃ oc ic, Inv oc ic w0.ctx)) w := by
  refine wp_mono ht ?_ ?_ ?_
  · rintro x w' ⟨es, h', f', r⟩
    exact ⟨a ++ es, h', f.trans f', r⟩
  · exact fun w' h' => f.then h'
  · rintro w' ⟨⟨es, h2, f', _⟩, hn⟩
    exact ⟨⟨_, _, f.trans f', trivial⟩, fun ⟨hv, oc, ic, hi⟩ => hn ⟨hv, oc, ic, f.inv oc ic hi⟩⟩

theorem Tr.bind {m : M β} {k : β → M α} {R : α → List Event → Bool → World → Prop} {R' : β → List Event → Bool → World → Prop}
    (h1 : Tr V h m R' X w)
    (h2 : ∀ b es h' w', Fx h w es h' w' → R' b es h' w' →
      Tr V h' (k b) (fun a es2 h2 w2 => R a (es ++ es2) h2 w2) (fun es2 => X (es ++ es2)) w') :
    Tr V h (m >>= k) R X w := by
  unfold Tr
  rw [wp_bind]
  refine wp_mono h1 ?_ (fun _ h => h) (fun _ h => h)
  rintro b w' ⟨es, h', f, r⟩
  exact Tr.after f (h2 b es h' w' f r)

theorem Tr.ite {c : Prop} [Decidable c] {a b : M α} {R : α → List Event → Bool → World → Prop} (h1 : c → Tr V h a R X w)
    (h2 : ¬ c → Tr V h b R X w) : Tr V h (if c then a else b) R X w := by
  by_cases hc : c
  · rw [if_pos hc]; exact h1 hc
  · rw [if_neg hc]; exact h2 hc

theorem Tr.stuck {R : α → List Event → Bool → World → Prop} (hx : X []) : Tr V h (stuckM : M α) R X w := Fxs.refl h w hx

theorem Tr.ub {R : α → List Event → Bool → World → Prop} {e : UB} (hn : ¬ (V ∧ ∃ oc ic, Inv oc ic w.ctx)) :
    Tr V h (ubM e : M α) R X w := ⟨Fxs.refl h w trivial, hn⟩

/-! A step that does not wait for anything, followed by the rest. -/

theorem Tr.getCtx {k : Ctx → M α} {R : α → List Event → Bool → World → Prop} (ht : Tr V h (k w.ctx) R X w) :
    Tr V h (getCtx >>= k) R X w := by
  unfold Tr
  rw [wp_bind, wp_getCtx]
  exact ht

theorem Tr.liftOk {r : Res β} {a : β} {k : β → M α} {R : α → List Event → Bool → World → Prop} (hr : r = .ok a)
    (ht : Tr V h (k a) R X w) : Tr V h (liftRes r >>= k) R X w := by
  subst hr
  unfold Tr
  rw [wp_bind]
  exact ht

theorem Tr.liftRes {r : Res β} {k : β → M α} {R : α → List Event → Bool → World → Prop} (h1 : ∀ a, r = .ok a → Tr V h (k a) R X w)
    (h2 : ∀ e, r = .ub e → ¬ (V ∧ ∃ oc ic, Inv oc ic w.ctx)) : Tr V h (Mqtt.liftRes r >>= k) R X w := by
  cases r with
  | ok a => exact Tr.liftOk rfl (h1 a rfl)
  | ub e => exact ⟨Fxs.refl h w trivial, h2 e rfl⟩

/-- Changing parts of the context that `Fx` does not mention. -/
theorem Tr.modifyCtx {k : Unit → M α} {R : α → List Event → Bool → World → Prop} {fn : Ctx → Ctx}
    (hs : (fn w.ctx).connectStatus = w.ctx.connectStatus) (hw : (fn w.ctx).hasWritev = w.ctx.hasWritev)
    (hr : (fn w.ctx).retransmits = w.ctx.retransmits) (hb : (fn w.ctx).bufSize = w.ctx.bufSize)
    (hk : (fn w.ctx).keepAliveIntervalSec = w.ctx.keepAliveIntervalSec) (hn : (fn w.ctx).nextPacketId = w.ctx.nextPacketId)
    (hi : w.ctx.index ≤ w.ctx.bufSize → (fn w.ctx).index ≤ (fn w.ctx).bufSize) (htab : (fn w.ctx).tables = w.ctx.tables)
    (hR : Tr V h (k ()) R X { w with ctx := fn w.ctx }) :
    Tr V h (modifyCtx fn >>= k) R X w := by
  unfold Tr
  rw [wp_bind, wp_modifyCtx]
  have f : Fx h w [] h { w with ctx := fn w.ctx } := Fx.silent rfl rfl hs hw hr hb hk hn hi htab
  exact Tr.after (R := R) (X := X) f hR

theorem Tr.emit {k : Unit → M α} {R : α → List Event → Bool → World → Prop} {e : Event} (he : plainEvent e = true)
    (hR : Tr V h (k ()) (fun a es h' w' => R a (e :: es) h' w') (fun es => X (e :: es)) { w with trace := w.trace ++ [e] }) :
    Tr V h (emit e >>= k) R X w := by
  unfold Tr
  rw [wp_bind, wp_emit]
  have f : Fx h w [e] h { w with trace := w.trace ++ [e] } := Fx.plain he rfl rfl rfl
  exact Tr.after (R := R) (X := X) f hR

/-- The world after an event that changes nothing else. -/
def World.add (w : World) (e : Event) : World := { w with trace := w.trace ++ [e] }

theorem Tr.preHook {k : Unit → M α} {R : α → List Event → Bool → World → Prop}
    (hR : Tr V true (k ()) (fun a es h' w' => R a (.pre :: es) h' w') (fun es => X (.pre :: es)) (w.add .pre)) :
    Tr V false (preHook >>= k) R X w := by
  unfold Tr
  rw [wp_bind, wp_preHook]
  have f : Fx false w [.pre] true (w.add .pre) := Fx.pre rfl rfl rfl
  exact Tr.after (R := R) (X := X) f hR

theorem Tr.postHook {k : Unit → M α} {R : α → List Event → Bool → World → Prop}
    (hR : Tr V false (k ()) (fun a es h' w' => R a (.post :: es) h' w') (fun es => X (.post :: es)) (w.add .post)) :
    Tr V true (postHook >>= k) R X w := by
  unfold Tr
  rw [wp_bind, wp_postHook]
  have f : Fx true w [.post] false (w.add .post) := Fx.post rfl rfl rfl
  exact Tr.after (R := R) (X := X) f hR

/-- The world after a clock reading. -/
def timeWorld (w : World) (t : UInt32) (rest : List UInt32) : World :=
  { w with env := { w.env with clock := rest }, trace := w.trace ++ [.time t] }

theorem Tr.getTime {k : UInt32 → M α} {R : α → List Event → Bool → World → Prop} (hx : X [])
    (hR : ∀ t rest, w.env.clock = t :: rest →
      Tr V h (k t) (fun a es h' w' => R a (.time t :: es) h' w') (fun es => X (.time t :: es)) (timeWorld w t rest)) :
    Tr V h (getTime >>= k) R X w := by
  unfold Tr
  rw [wp_bind]
  refine wp_getTime (Fxs.refl h w hx) ?_
  intro t rest hc
  have f : Fx h w [.time t] h (timeWorld w t rest) := Fx.plain rfl rfl rfl rfl
  exact Tr.after (R := R) (X := X) f (hR t rest hc)

theorem Tr.sendFuel {k : Nat → M α} {R : α → List Event → Bool → World → Prop} (hR : Tr V h (k (w.env.sends.length + 1)) R X w) :
    Tr V h (sendFuel >>= k) R X w := by
  unfold Tr
  rw [wp_bind, wp_sendFuel]
  exact hR
theorem Tr.recvFuel {k : Nat → M α} {R : α → List Event → Bool → World → Prop} (hR : Tr V h (k (w.env.recvs.length + 1)) R X w) :
    Tr V h (recvFuel >>= k) R X w := by
  unfold Tr
  rw [wp_bind, wp_recvFuel]
  exact hR
theorem Tr.clockFuel {k : Nat → M α} {R : α → List Event → Bool → World → Prop} (hR : Tr V h (k (w.env.clock.length + 1)) R X w) :
    Tr V h (clockFuel >>= k) R X w := by
  unfold Tr
  rw [wp_bind, wp_clockFuel]
  exact hR

/-- The world after the store callback. -/
def storeWorld (w : World) (id : UInt16) (vec : List IoVec) (b : Bool) (rest : List Bool) : World :=
  { w with env := { w.env with stores := rest }, trace := w.trace ++ [.store id vec b] }

/-- A successful receive call. -/
def recvWorld (w : World) (n k : Nat) (rest : List RecvAns) : World :=
  { w with env := { w.env with recvs := rest, input := w.env.input.drop (min k n) },
           trace := w.trace ++ [.recvd n (some (w.env.input.take (min k n)))] }

/-- A failed receive call. -/
def recvFailWorld (w : World) (n : Nat) (rest : List RecvAns) : World :=
  { w with env := { w.env with recvs := rest }, trace := w.trace ++ [.recvd n none] }

theorem Fx.recvWorld {h : Bool} {w : World} (n k : Nat) (rest : List RecvAns) :
    Fx h w [.recvd n (Option.some (w.env.input.take (min k n)))] h (recvWorld w n k rest) :=
  Fx.recv rfl rfl (List.take_append_drop _ _).symm

end

/-- The answer of the state engine to a call and the arrays afterwards. -/
def StateAnswer (c : Call) (w : World) (a : Answer) (w' : World) : Prop :=
  (∃ t', stateCall w.ctx.tables c = .ok (a, t') ∧ w' = { w with ctx := { w.ctx with tables := t' } }) ∧
  ∀ s, Represents w.ctx.tables s → a = (step s c).1 ∧ Represents w'.ctx.tables (step s c).2 ∧
    (step s c).2.outCap = s.outCap ∧ (step s c).2.inCap = s.inCap


section
variable {φ : Type}

theorem phase_nil (id : UInt16) : Table.phase ([] : Table φ) id = none := rfl

theorem phase_cons (e : UInt16 × φ) (l : Table φ) (id : UInt16) :
    Table.phase (e :: l) id = if e.1 = id then some e.2 else Table.phase l id := by
  unfold Table.phase
  rw [List.find?_cons]
  by_cases h : e.1 = id <;> simp [h]

theorem phase_set (l : Table φ) (id x : UInt16) (p : φ) :
    (l.set id p).phase x = if x = id then (l.phase id).map (fun _ => p) else l.phase x := by
  induction l with
  | nil => simp [Table.set, phase_nil]
  | cons e l ih =>
    have : Table.set (e :: l) id p = (if e.1 = id then (id, p) else e) :: Table.set l id p := rfl
    rw [this, phase_cons, ih, phase_cons, phase_cons]
    by_cases h1 : e.1 = id <;> by_cases h2 : x = id <;> by_cases h3 : e.1 = x <;> simp_all

theorem phase_remove (l : Table φ) (id x : UInt16) :
    (l.remove id).phase x = if x = id then none else l.phase x := by
  induction l with
  | nil => simp [Table.remove, phase_nil]
  | cons e l ih =>
    have : Table.remove (e :: l) id = if e.1 = id then Table.remove l id else e :: Table.remove l id := by
      unfold Table.remove
      rw [List.filter_cons]
      by_cases h : e.1 = id <;> simp [h]
    rw [this]
    by_cases h1 : e.1 = id
    · rw [if_pos h1, ih, phase_cons]
      by_cases h2 : x = id
      · simp [h2]
      · rw [if_neg h2, if_neg h2, if_neg (by intro h; exact h2 (h.symm.trans h1))]
    · rw [if_neg h1, phase_cons, phase_cons, ih]
      by_cases h2 : x = id
      · subst h2; simp [h1]
      · simp [h2]

theorem phase_append (l : Table φ) (id x : UInt16) (p : φ) :
    Table.phase (l ++ [(id, p)]) x = (l.phase x).or (if id = x then some p else none) := by
  induction l with
  | nil => simp [phase_cons, phase_nil]
  | cons e l ih =>
    rw [List.cons_append, phase_cons, phase_cons, ih]
    by_cases h : e.1 = x <;> simp [h]

theorem phase_insert (cap : Nat) (l : Table φ) (id x : UInt16) (p : φ) (q : φ) (h : l.phase x = some q) :
    (l.insert cap id p).2.phase x = some q := by
  unfold Table.insert
  split
  · exact h
  · split
    · exact h
    · show Table.phase (l ++ [(id, p)]) x = _
      rw [phase_append, h]; rfl

theorem phase_mem {l : Table φ} {id : UInt16} : id ∈ l.map (·.1) ↔ l.phase id ≠ none := by
  induction l with
  | nil => simp [phase_nil]
  | cons e l ih =>
    rw [List.map_cons, List.mem_cons, phase_cons, ih]
    by_cases h : e.1 = id
    · simp [h]
    · simp [h, Ne.symm h]
end

/-- Calls of the state engine that no monitor notices. -/
def monQuiet : Call → Prop
  | .ack .receive .pubrec _ => True
  | .ack .receive _ _ => False
  | .cancel _ => False
  | _ => True

theorem ackTable_out (type : AckType) (l : Table OutPhase) (id x : UInt16) (ht : type = .pubrec ∨ type = .pubrel) (h : l.phase x ≠ none) :
    (ackTable (outAck type) l id).2.phase x ≠ none := by
  unfold ackTable
  cases hp : l.phase id with
  | none => exact h
  | some p =>
    rcases ht with rfl | rfl <;> cases p <;> simp only [outAck] <;>
      first
        | exact h
        | (simp only [Effect.apply, phase_set, phase_append, phase_remove]
           by_cases hx : x = id
           · subst hx; simp [hp]
           · first | simpa [hx] using h | simpa [hx, Ne.symm hx] using h)

theorem ackTable_in (type : AckType) (l : Table InPhase) (id x : UInt16) (ht : type ≠ .pubrel)
    (h : l.phase x = some .sendPubrec ∨ l.phase x = some .awaitPubrel) :
    (ackTable (inAck type) l id).2.phase x = some .sendPubrec ∨ (ackTable (inAck type) l id).2.phase x = some .awaitPubrel := by
  unfold ackTable
  cases hp : l.phase id with
  | none => exact h
  | some p =>
    by_cases hx : x = id
    · subst hx
      cases type <;> cases p <;> simp_all [inAck, Effect.apply, phase_set, phase_remove]
    · cases type <;> cases p <;> simp_all [inAck, Effect.apply, phase_set, phase_remove]

theorem step_quiet {s : InFlight} {c : Call} (hc : monQuiet c) :
    (∀ x, s.inc.phase x = some .sendPubrec ∨ s.inc.phase x = some .awaitPubrel →
      (step s c).2.inc.phase x = some .sendPubrec ∨ (step s c).2.inc.phase x = some .awaitPubrel) ∧
    ∀ x, s.out.phase x ≠ none → (step s c).2.out.phase x ≠ none := by
  cases c with
  | reserve id q =>
    cases q with
    | qos0 => exact ⟨fun x h => h, fun x h => h⟩
    | _ =>
      simp only [step]
      split
      · exact ⟨fun x h => h, fun x h => h⟩
      · refine ⟨fun x h => h, fun x h => ?_⟩
        obtain ⟨q, hq⟩ := Option.ne_none_iff_exists'.mp h
        simp only
        rw [phase_insert _ _ _ _ _ q hq]
        simp
  | publish op id q =>
    cases q with
    | qos0 => exact ⟨fun x h => h, fun x h => h⟩
    | _ =>
      simp only [step]
      split
      · exact ⟨fun x h => h, fun x h => h⟩
      · cases op with
        | receive =>
          refine ⟨fun x h => ?_, fun x h => h⟩
          rcases h with h | h
          · exact Or.inl (phase_insert _ _ _ _ _ _ h)
          · exact Or.inr (phase_insert _ _ _ _ _ _ h)
        | send =>
          simp only
          split
          · exact ⟨fun x h => h, fun x h => h⟩
          · rename_i p hp
            split
            · exact ⟨fun x h => h, fun x h => h⟩
            · split
              · exact ⟨fun x h => h, fun x h => h⟩
              · refine ⟨fun x h => h, fun x h => ?_⟩
                simp only [phase_set]
                split
                · rw [hp]; simp
                · exact h
  | ack op type id =>
    simp only [step]
    split
    · exact ⟨fun x h => h, fun x h => h⟩
    · cases op with
      | send =>
        cases type with
        | pubrel =>
          simp only [forOutgoing, if_true]
          exact ⟨fun x h => h, fun x h => ackTable_out _ _ _ _ (Or.inr rfl) h⟩
        | _ =>
          simp only [forOutgoing, Bool.false_eq_true, if_false]
          exact ⟨fun x h => ackTable_in _ _ _ _ (by simp) h, fun x h => h⟩
      | receive =>
        cases type with
        | pubrec =>
          simp only [forOutgoing, if_true]
          exact ⟨fun x h => h, fun x h => ackTable_out _ _ _ _ (Or.inl rfl) h⟩
        | _ => exact absurd hc (by simp [monQuiet])
  | cancel id => exact absurd hc (by simp [monQuiet])

/-- A call of the state engine that no monitor notices. -/
theorem Tr.state {α : Type} {V : Prop} {h : Bool} {w : World} {X : List Event → Prop} {k : Answer → M α}
    {R : α → List Event → Bool → World → Prop} (c : Call) (hq : monQuiet c) (hroom : ∀ s, Represents w.ctx.tables s → Room s c)
    (hR : ∀ a w', StateAnswer c w a w' → Tr V h (k a) R X w') :
    Tr V h ((onTables fun t => stateCall t c) >>= k) R X w := by
  have hc : c ≠ .cancel 0 := by rintro rfl; exact hq
  unfold Tr
  rw [wp_bind, wp_onTables]
  cases hs : stateCall w.ctx.tables c with
  | ub e =>
    refine ⟨Fxs.refl h w trivial, ?_⟩
    rintro ⟨hv, oc, ic, hidx, s, hrep, _⟩
    obtain ⟨t', h1, _⟩ := stateCall_refines' hrep c (hroom s hrep) hc
    rw [hs] at h1
    cases h1
  | ok p =>
    obtain ⟨a, t'⟩ := p
    have key : ∀ s, Represents w.ctx.tables s → a = (step s c).1 ∧ Represents t' (step s c).2 ∧
        (step s c).2.outCap = s.outCap ∧ (step s c).2.inCap = s.inCap := by
      intro s hrep
      obtain ⟨t2, e1, e2, e3⟩ := stateCall_refines' hrep c (hroom s hrep) hc
      rw [hs] at e1
      cases e1
      exact ⟨rfl, e2, e3⟩
    have f : Fx h w [] h { w with ctx := { w.ctx with tables := t' } } := by
      refine ⟨by simp, by simp [hasFail, afterFail], trivial, fun _ => noSent_nil, rfl, rfl, rfl, rfl, rfl, rfl, rfl, ?_, ?_, trivial⟩
      · rintro oc ic ⟨hidx, s, hrep, h1, h2⟩
        obtain ⟨_, e2, e3, e4⟩ := key s hrep
        exact ⟨hidx, _, e2, e3.trans h1, e4.trans h2⟩
      · rintro m ⟨s, hrep, h1, h2⟩
        obtain ⟨_, e2, _⟩ := key s hrep
        have := step_quiet (s := s) hq
        exact ⟨m, rfl, _, e2, fun x hx => this.1 x (h1 x hx), fun x hx => this.2 x (h2 x hx)⟩
    exact Tr.after (R := R) (X := X) f (hR a _ ⟨⟨t', hs, rfl⟩, key⟩)

end Mqtt
