/-
C73: only differences of times matter, so the clock may start anywhere and may wrap around.
-/
import Verif.Proof.Clock
import Verif.Props.Status

namespace Mqtt
open Spec

theorem laterOut_of {δ : UInt32} {keep : Bool} {α : Type} {o o' : Out α} (h : RelOut δ keep SameRes o o') : LaterOut δ keep o o' := by
  cases o <;> cases o' <;> exact h

/-- **C73** (one call).  Take any public function, any state and any behaviour of the environment, and let the clock show `δ` milliseconds more
at each reading, modulo 2^32, with the remembered times `δ` later too.  The call ends in the same way with the same result, the same
bytes are sent and requested, the same callbacks are made in the same order, and the state afterwards is the same but for the times, which are `δ`
later.  For the functions other than `MQTT_ProcessLoop` the remembered times need not even agree (`keep = false`). -/
theorem C73_call (g : Cfg) (f : ApiCall) {δ : UInt32} {keep : Bool} {w w' : World} (hw : Later δ keep w w')
    (hf : f = .processLoop → keep = true) : LaterOut δ keep (apiCall g f w) (apiCall g f w') :=
  laterOut_of (sim_api g f hf w w' hw)

/-- **C73** (histories).  Any history can be repeated with a clock that shows `δ` more, from the same state with times `δ` later: the same calls
return the same results, and everything that happens is the same but for the clock readings. -/
theorem C73_history {g : Cfg} {δ : UInt32} {keep : Bool} {w w1 : World} {h : List (ApiCall × ApiRet)} (hh : Hist g w h w1)
    {w' : World} (hw : LaterCtx δ keep w.ctx w'.ctx) (ht : w'.trace = w.trace.map (laterEvent δ))
    (hf : keep = true ∨ ∀ x ∈ h, x.1 ≠ .processLoop) :
    ∃ w1', Hist g w' h w1' ∧ LaterCtx δ keep w1.ctx w1'.ctx ∧ w1'.trace = w1.trace.map (laterEvent δ) := by
  induction hh with
  | start => exact ⟨w', .start _, hw, ht⟩
  | @call v1 v2 h e c r h1 hv hc ih =>
    obtain ⟨w1', h2, h3, h4⟩ := ih (hf.imp id fun k x hx => k x (List.mem_append_left _ hx))
    have hl : Later δ keep { v1 with env := e } { w1' with env := laterEnv δ e } := ⟨h3, rfl, h4⟩
    have hn : c = .processLoop → keep = true := by
      intro hc
      rcases hf with h | h
      · exact h
      · exact absurd hc (h (c, r) (List.mem_append_right _ List.mem_cons_self))
    have h5 := C73_call g c hl hn
    rw [show apiCall g c { v1 with env := e } = .done r v2 from hc] at h5
    cases h6 : apiCall g c { w1' with env := laterEnv δ e } with
    | done r' w2' =>
      rw [h6] at h5
      obtain ⟨rfl, h7⟩ := h5
      exact ⟨w2', .call h2 hv h6, h7.ctx, h7.trace⟩
    | stuck w2' => rw [h6] at h5; exact h5.elim
    | ub x w2' => rw [h6] at h5; exact h5.elim

/-- **C73** (from initialisation).  An application that uses `MQTT_ReceiveLoop` may start at any time the clock shows: after initialisation a
clock that shows `δ` more leads to the same results and the same interactions. -/
theorem C73_init {g : Cfg} {h : List (ApiCall × ApiRet)} {w : World} (hi : FromInit g h w) (hf : ∀ x ∈ h, x.1 ≠ .processLoop) (δ : UInt32) :
    ∃ w', FromInit g h w' ∧ w'.trace = w.trace.map (laterEvent δ) ∧ LaterCtx δ false w.ctx w'.ctx := by
  obtain ⟨hg, w0, h0, ht, hh⟩ := hi
  obtain ⟨w', h1, h2, h3⟩ := C73_history hh (δ := δ) (keep := false) (w' := w0) ⟨_, _, _, rfl, fun h => by cases h⟩ (by rw [ht]; rfl) (.inr hf)
  exact ⟨w', ⟨hg, w0, h0, ht, h1⟩, h3, h2⟩

/-- The example's environment with a clock that stands still. -/
def Ex.still (t : UInt32) (input : List UInt8) : Env := { Ex.env input with clock := List.replicate 40 t }

/-- Connect (session present), then poll once with nothing to read. -/
def Ex.start (t : UInt32) : List (Env × ApiCall) := [(Ex.still t [0x20, 2, 1, 0], Ex.connectCall), (Ex.still t [], .processLoop)]

theorem Ex.start_fromInit (t : UInt32) (h : (Ex.play Ex.w0 (Ex.start t)).isSome = true) :
    FromInit Ex.g (Ex.played (Ex.start t)).1 (Ex.played (Ex.start t)).2 := by
  refine Ex.played_fromInit ?_ h
  intro x hx
  simp only [Ex.start, List.mem_cons, List.not_mem_nil, or_false] at hx
  rcases hx with rfl | rfl
  · exact Ex.connectValid
  · trivial

theorem Ex.played_calls {steps : List (Env × ApiCall)} : ∀ {w : World} {x : List (ApiCall × ApiRet) × World}, Ex.play w steps = some x →
    x.1.map (·.1) = steps.map (·.2) := by
  induction steps with
  | nil => intro w x h; cases h; rfl
  | cons s rest ih =>
    intro w x h
    obtain ⟨e, c⟩ := s
    simp only [Ex.play] at h
    split at h
    · rename_i r w1 _
      cases hp : Ex.play w1 rest with
      | none => rw [hp] at h; cases h
      | some y =>
        rw [hp] at h
        cases h
        simp [ih hp]
    · cases h

theorem Ex.ext_pairs {α β : Type} : ∀ {a b : List (α × β)}, a.map (·.1) = b.map (·.1) → a.map (·.2) = b.map (·.2) → a = b
  | [], [], _, _ => rfl
  | [], _ :: _, h, _ => by cases h
  | _ :: _, [], h, _ => by cases h
  | (a1, a2) :: as, (b1, b2) :: bs, h1, h2 => by
    simp only [List.map_cons, List.cons.injEq] at h1 h2
    rw [Ex.ext_pairs h1.2 h2.2, h1.1, h2.1]

/-- The same calls with the same results, whatever the clock shows. -/
theorem Ex.start_same : (Ex.played (Ex.start 5)).1 = (Ex.played (Ex.start 40005)).1 := by
  have h1 : (Ex.play Ex.w0 (Ex.start 5)).isSome = true := by decide +kernel
  have h2 : (Ex.play Ex.w0 (Ex.start 40005)).isSome = true := by decide +kernel
  refine Ex.ext_pairs ?_ (by decide +kernel)
  obtain ⟨x, hx⟩ := Option.isSome_iff_exists.mp h1
  obtain ⟨y, hy⟩ := Option.isSome_iff_exists.mp h2
  rw [Ex.played, Ex.played, hx, hy]
  exact (Ex.played_calls hx).trans (Ex.played_calls hy).symm

/-- **C73** (the exception: the time of the last reception before anything was received).  `MQTT_Init` sets it to 0 and `MQTT_Connect` leaves it, so
whether the first `MQTT_ProcessLoop` sends a PINGREQ depends on what the clock shows: nothing at 5 ms, PINGREQ at 40005 ms, with otherwise the
same history, from the same initialised context. -/
theorem C73_first_loop : ∃ h w1 w2, FromInit Ex.g h w1 ∧ FromInit Ex.g h w2 ∧
    wire w2.trace = wire w1.trace ++ pingreqPacket := by
  refine ⟨(Ex.played (Ex.start 5)).1, (Ex.played (Ex.start 5)).2, (Ex.played (Ex.start 40005)).2,
    Ex.start_fromInit 5 (by decide +kernel), ?_, by decide +kernel⟩
  rw [Ex.start_same]
  exact Ex.start_fromInit 40005 (by decide +kernel)

/-- 61 seconds after the last packet, nothing to read. -/
def Ex.idle : Env := Ex.still 61000 []

/-- The state of the example, 4294967200 ms later: the clock is about to wrap around. -/
def Ex.overflow : World :=
  ⟨withTimes Ex.after.ctx (Ex.after.ctx.lastPacketTxTime + 4294967200) (Ex.after.ctx.lastPacketRxTime + 4294967200)
    (Ex.after.ctx.pingReqSendTimeMs + 4294967200), laterEnv 4294967200 Ex.idle, Ex.after.trace.map (laterEvent 4294967200)⟩

/-- C73_call applies; the clock shows less at the call than when the last packet was sent. -/
example : Later 4294967200 true { Ex.after with env := Ex.idle } Ex.overflow ∧ Ex.overflow.ctx.lastPacketTxTime = 4294967203 ∧
    Ex.overflow.env.clock.head? = some 60904 :=
  ⟨⟨⟨_, _, _, rfl, fun _ => ⟨rfl, rfl, fun _ => rfl⟩⟩, rfl, rfl⟩, by decide +kernel⟩

/-- And the PINGREQ that is due after 61 s is sent in both. -/
example : (callEvents Ex.g Ex.after Ex.idle .processLoop).contains (.sent [192, 0] (some 2)) = true ∧
    (callEvents Ex.g Ex.overflow Ex.overflow.env .processLoop).contains (.sent [192, 0] (some 2)) = true := by decide +kernel

/-- C73_history applies to the history of the example (with `MQTT_ProcessLoop`, `keep = true`) and C73_init to one with `MQTT_ReceiveLoop`. -/
example : (∃ w, Hist Ex.g w (Ex.played Ex.session).1 Ex.after) ∧ (Ex.played Ex.session).1.length = 4 :=
  ⟨Ex.after_fromInit.run.elim fun w h => ⟨w, h.2.2⟩, by decide +kernel⟩

end Mqtt
