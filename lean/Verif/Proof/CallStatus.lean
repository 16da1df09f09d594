/-
The connection status, transport errors and the hooks in the calls other than `MQTT_Connect` and `MQTT_Disconnect`.
-/
import Verif.Proof.CallWire

namespace Mqtt
open Spec
set_option linter.unusedSimpArgs false

/-- What all calls but `MQTT_Connect` and `MQTT_Disconnect` have in common. -/
structure Usual (w : World) (es : List Event) (w' : World) : Prop where
  status : w'.ctx.connectStatus = afterFail (hasFail es) w.ctx.connectStatus
  quiet : quietAfterFail es
  idle : w.ctx.connectStatus ≠ .connected → noSent es
  lock : lockRun false es ≠ none

theorem Fx.usual {h' : Bool} {w w' : World} {es : List Event} (f : Fx false w es h' w') : Usual w es w' :=
  ⟨f.status, f.quiet, f.idle, by rw [f.lock]; simp⟩

theorem Usual.nil (w : World) : Usual w [] w := (Fx.refl false w).usual

theorem Usual.hooks {w w' : World} (h : w'.ctx.connectStatus = w.ctx.connectStatus) : Usual w [.pre, .post] w' := by
  refine ⟨by simp [h, hasFail, isFail, afterFail_false], by simp [quietAfterFail, isFail], fun _ => by simp [noSent, isSent], by simp [lockRun]⟩

theorem Did.usual {g : Cfg} {s : InFlight} {w w' : World} {c : ApiCall} {r : ApiRet} {es : List Event} (h : Did g s w c r es w')
    (hp : plainCall c = true) : Usual w es w' ∧ lockRun false es = some false := by
  cases h with
  | publish f _ => exact ⟨f.usual, f.lock⟩
  | publishNull => exact ⟨.nil w, rfl⟩
  | subscribe f _ => exact ⟨f.usual, f.lock⟩
  | subscribeNull => exact ⟨.nil w, rfl⟩
  | unsubscribe f _ => exact ⟨f.usual, f.lock⟩
  | unsubscribeNull => exact ⟨.nil w, rfl⟩
  | ping f _ => exact ⟨f.usual, f.lock⟩
  | disconnect h => cases hp
  | processLoop f _ => exact ⟨f.usual, f.lock⟩
  | receiveLoop f _ => exact ⟨f.usual, f.lock⟩
  | cancel h0 h =>
    cases h with
    | none => exact ⟨.nil w, rfl⟩
    | some h1 h2 h3 => exact ⟨.hooks (by rw [h2]), rfl⟩
  | check h => exact ⟨.hooks (by rw [h]), rfl⟩
  | getId h => exact ⟨.hooks (by rw [h]), rfl⟩
  | connect h => cases hp
  | connectNull _ h => cases hp

theorem Halted.usual {g : Cfg} {s : InFlight} {w w' : World} {c : ApiCall} {es : List Event} (h : Halted g s w c es w')
    (hp : plainCall c = true) : Usual w es w' := by
  cases h with
  | publish f _ => exact f.usual
  | subscribe f _ => exact f.usual
  | unsubscribe f _ => exact f.usual
  | ping f _ => exact f.usual
  | disconnect h => cases hp
  | processLoop f _ => exact f.usual
  | receiveLoop f _ => exact f.usual
  | connect h => cases hp

/-! ### What a call with a transport error returns -/

/-- The result after a transport error. -/
def FailRes (st : Status) (es : List Event) : Prop :=
  (∀ b, Event.sent b none ∈ es → st = .sendFailed) ∧ (∀ n, Event.recvd n none ∈ es → st = .recvFailed)

theorem hasFail_of_mem {es : List Event} {e : Event} (h : e ∈ es) (hf : isFail e = true) : hasFail es = true :=
  List.any_eq_true.mpr ⟨e, h, hf⟩

theorem FailRes.none {st : Status} {es : List Event} (h : hasFail es = false) : FailRes st es := by
  refine ⟨fun b hb => ?_, fun n hn => ?_⟩
  · rw [hasFail_of_mem hb rfl] at h; cases h
  · rw [hasFail_of_mem hn rfl] at h; cases h

theorem FailRes.send {st : Status} {es : List Event} (h : hasFail es = true → st = .sendFailed) (hr : ∀ e ∈ es, isRecvd e = false) :
    FailRes st es :=
  ⟨fun _ hb => h (hasFail_of_mem hb rfl), fun n hn => absurd (hr _ hn) (by simp [isRecvd])⟩

theorem FailRes.recv {st : Status} {es : List Event} (h : hasFail es = true → st = .recvFailed) (hr : noSent es) : FailRes st es :=
  ⟨fun b hb => absurd (hr _ hb) (by simp [isSent]), fun _ hn => h (hasFail_of_mem hn rfl)⟩

theorem FailRes.append {st st' : Status} {a b : List Event} (ha : FailRes st a) (hb : FailRes st' b) (hab : hasFail a = true → st' = st) :
    FailRes st' (a ++ b) := by
  refine ⟨fun x hx => ?_, fun n hn => ?_⟩
  · rcases List.mem_append.mp hx with h | h
    · rw [hab (hasFail_of_mem h rfl)]; exact ha.1 _ h
    · exact hb.1 _ h
  · rcases List.mem_append.mp hn with h | h
    · rw [hab (hasFail_of_mem h rfl)]; exact ha.2 _ h
    · exact hb.2 _ h

theorem SentResult.fails {bs : List UInt8} {st : Status} {es : List Event} (h : SentResult bs st es) : hasFail es = true → st = .sendFailed := by
  intro hf
  rcases h with ⟨_, h, _⟩ | ⟨h, _⟩
  · rw [hf] at h; cases h
  · exact h

theorem noRecv_of_ack {es : List Event} (h : ∀ e ∈ es, isAckEvent e = true) : ∀ e ∈ es, isRecvd e = false := by
  intro e he
  have := h e he
  cases e <;> simp_all [isAckEvent, isRecvd]

theorem noRecv_of_send {es : List Event} (h : ∀ e ∈ es, isSendOrTime e = true) : ∀ e ∈ es, isRecvd e = false := by
  intro e he
  have := h e he
  cases e <;> simp_all [isSendOrTime, isRecvd]

theorem PubSent.fails {p : PublishInfo} {id : UInt16} {zs : List UInt8} {w w' : World} {st : Status} {es : List Event}
    (h : PubSent p id zs w st es w') : (hasFail es = true → st = .sendFailed) ∧ (∀ e ∈ es, isRecvd e = false) := by
  rcases h.2.2 with ⟨_, h2, h3⟩ | ⟨_, _, rfl, _⟩ | ⟨_, _, snd, rfl, h2, h3⟩
  · exact ⟨h3.fails, noRecv_of_send h2⟩
  · exact ⟨by simp [hasFail, isFail], by simp [isRecvd]⟩
  · refine ⟨fun h => h3.fails (by simpa [hasFail, isFail] using h), ?_⟩
    intro e he
    rcases List.mem_cons.mp he with h | h
    · subst h; rfl
    · exact noRecv_of_send h2 e h

theorem PublishDone.fails {p : PublishInfo} {id : UInt16} {s : InFlight} {w w' : World} {st : Status} {es : List Event}
    (h : PublishDone p id s w st es w') : FailRes st es := by
  rcases h.cases with ⟨_, rfl, _⟩ | ⟨_, _, rfl, _⟩ | ⟨_, _, _, _, rfl, _⟩ | ⟨_, zs, s1, st0, es0, w0, w1, _, _, hp, rfl, hc⟩
  · exact .none rfl
  · exact .none rfl
  · exact .none rfl
  · obtain ⟨h1, h2⟩ := hp.fails
    refine .send ?_ ?_
    · rw [hasFail_hooked]
      intro hf
      rcases hc with ⟨_, h, _⟩ | ⟨h, _⟩
      · rw [h]; exact h1 hf
      · rw [h1 hf] at h; cases h
    · intro e he
      simp only [List.mem_cons, List.mem_append, List.not_mem_nil, or_false] at he
      rcases he with rfl | he | rfl
      · rfl
      · exact h2 e he
      · rfl

theorem SubDone.fails {ty : SubType} {l : List SubscribeInfo} {id : UInt16} {w w' : World} {st : Status} {es : List Event}
    (h : SubDone ty l id w st es w') : FailRes st es := by
  rcases h.cases with ⟨_, rfl, _⟩ | ⟨_, _, rfl, _⟩ | ⟨_, _, _, _, hs⟩
  · exact .none rfl
  · exact .none rfl
  · exact .send hs.fails (noRecv_of_ack h.kinds)

theorem PingDone.fails {w w' : World} {st : Status} {es : List Event} (h : PingDone w st es w') :
    (hasFail es = true → st = .sendFailed) ∧ (∀ e ∈ es, isRecvd e = false) := by
  refine ⟨fun hf => ?_, noRecv_of_ack h.kinds⟩
  rcases h.cases with ⟨_, _, h, _⟩ | ⟨_, _, _, h, _⟩ | ⟨_, _, h, _⟩
  · rw [hf] at h; cases h
  · exact h
  · rw [hf] at h; cases h

theorem KeepAliveDone.fails {g : Cfg} {now : UInt32} {w w' : World} {st : Status} {es : List Event} (h : KeepAliveDone g now w st es w') :
    (hasFail es = true → st = .sendFailed) ∧ (∀ e ∈ es, isRecvd e = false) := by
  rcases h with ⟨_, rfl, _⟩ | ⟨_, _, rfl, _⟩ | ⟨_, _, es', rfl, w1, _, hp⟩
  · exact ⟨by simp [hasFail, isFail], by simp [isRecvd]⟩
  · exact ⟨by simp [hasFail, isFail], by simp [isRecvd]⟩
  · obtain ⟨h1, h2⟩ := hp.fails
    refine ⟨fun h => h1 (by simpa [hasFail, isFail] using h), ?_⟩
    intro e he
    simp only [List.mem_cons] at he
    rcases he with rfl | rfl | rfl | h
    · rfl
    · rfl
    · rfl
    · exact h2 e h

theorem KeepStep.fails {g : Cfg} {m : Bool} {r : List UInt8} {w w' : World} {st : Status} {es : List Event} (h : KeepStep g m r w st es w') :
    (hasFail es = true → st = .sendFailed) ∧ (∀ e ∈ es, isRecvd e = false) := by
  rcases h with ⟨_, _, now, h⟩ | ⟨_, _, rfl, _⟩
  · exact h.fails
  · exact ⟨by simp [hasFail], by simp⟩

theorem Reacted.fails {r : Reaction} {w w' : World} {st : Status} {es : List Event} (h : Reacted r w st es w') :
    hasFail es = true → st = .sendFailed := by
  intro hf
  rcases h.cases with ⟨_, _, h, _⟩ | ⟨_, _, _, h, _⟩ | ⟨_, _, _, _, h, _⟩ | ⟨_, _, _, _, _, h, _⟩
  · rw [hf] at h; cases h
  · rw [hf] at h; cases h
  · exact h
  · rw [hf] at h; cases h

theorem Advance.fails {g : Cfg} {m : Bool} {s : InFlight} {w w' : World} {st : Status} {es : List Event} (h : Advance g m s w st es w') : FailRes st es := by
  unfold Advance at h
  split at h
  · obtain ⟨rfl, _⟩ := h; exact .none rfl
  · obtain ⟨rfl, _⟩ := h; exact .none rfl
  · split at h
    · obtain ⟨h1, _, _, h2⟩ := h
      refine .recv ?_ h1.noSent
      intro hf
      rcases h2 with ⟨_, _, h⟩ | h
      · rw [hf] at h; cases h
      · exact h.1
    · split at h
      · obtain ⟨rfl, _⟩ := h; exact .none rfl
      · obtain ⟨rst, re, w3, rx, hr, he, rfl, _⟩ := h
        rcases he with ⟨_, rfl, _⟩ | ⟨_, rfl⟩
        · exact .send (fun hf => by rw [hr.fails hf]; rfl) hr.noRecv
        · refine .send (fun hf => ?_) ?_
          · rw [hasFail_append] at hf
            simp [hasFail, isFail] at hf
            rw [hr.fails (by simp [hasFail]; exact hf)]; rfl
          · intro e he
            rcases List.mem_append.mp he with h | h
            · exact hr.noRecv e h
            · cases List.mem_singleton.mp h; rfl

theorem Iterated.fails {g : Cfg} {m : Bool} {s : InFlight} {w w' : World} {st : Status} {es : List Event} (h : Iterated g m s w st es w') :
    FailRes st es := by
  rcases h.2 with ⟨rfl, rfl, _⟩ | ⟨r, kst, ka, w1, w2, _, _, hk, h⟩
  · exact .recv (fun _ => rfl) (by simp [noSent, isSent])
  · obtain ⟨k1, k2⟩ := hk.fails
    have one : ∀ st n, FailRes st [.recvd n (some r)] := fun st n => .none (by simp [hasFail, isFail])
    rcases h with ⟨_, rfl, _, rfl⟩ | ⟨hk, es2, rfl, ha⟩
    · exact (one st _).append (.send k1 k2) (by simp [hasFail, isFail])
    · have hka : hasFail ka = false := by
        cases hf : hasFail ka with
        | false => rfl
        | true => rw [k1 hf] at hk; cases hk
      exact (one st _).append (FailRes.append (st := .success) (.none hka) ha.fails (by simp [hka])) (by simp [hasFail, isFail])

theorem Did.fails {g : Cfg} {s : InFlight} {w w' : World} {c : ApiCall} {r : ApiRet} {es : List Event} (h : Did g s w c r es w')
    (hp : plainCall c = true) : (∀ st, r.code = some st → FailRes st es) ∧ (hasFail es = true → r.code ≠ none) := by
  have st : ∀ {st : Status} {es : List Event}, FailRes st es →
      (∀ st', (ApiRet.status st).code = some st' → FailRes st' es) ∧ (hasFail es = true → (ApiRet.status st).code ≠ none) := by
    intro st es h
    exact ⟨fun st' e => by cases e; exact h, fun _ => by simp [ApiRet.code]⟩
  cases h with
  | publish _ h => exact st h.fails
  | publishNull => exact st (.none rfl)
  | subscribe _ h => exact st h.fails
  | subscribeNull => exact st (.none rfl)
  | unsubscribe _ h => exact st h.fails
  | unsubscribeNull => exact st (.none rfl)
  | ping _ h => exact st (.send h.fails.1 h.fails.2)
  | disconnect h => cases hp
  | processLoop _ h => exact st h.fails
  | receiveLoop _ h => exact st h.fails
  | cancel h0 h =>
    cases h with
    | none => exact st (.none rfl)
    | some h1 h2 h3 => exact st (.none rfl)
  | check h => exact st (.none rfl)
  | getId h => exact ⟨fun _ h => (by cases h), fun h => (by simp [hasFail, isFail] at h)⟩
  | connect h => cases hp
  | connectNull _ h => cases hp

end Mqtt
