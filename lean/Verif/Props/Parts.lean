/-
C83: which part of a session each function can change.

The parts and the table `changes` are in Spec/Parts.lean, `fnOf` in Spec/Codes.lean.
-/
import Verif.Spec.Parts
import Verif.Proof.Parts
import Verif.Props.Codes

namespace Mqtt
open Spec

/-- **C83**.  A part that is not in the list of a function is the same before and after every call of the function, in any world and environment, however the call
ends (also if it never returns). -/
theorem C83_unchanged (g : Cfg) (w : World) (e : Env) (c : ApiCall) {p : Part} (hp : p ∉ changes c) : Same p w.ctx (callIn g w e c).world.ctx :=
  Parts.touch_api g c { w with env := e } p hp

/-- **C83** for sequences of calls: what none of the functions can change stays as it is. -/
theorem C83_history {g : Cfg} {w w' : World} {h : List (ApiCall × ApiRet)} (hs : Hist g w h w') {p : Part} (hp : ∀ x ∈ h, p ∉ changes x.1) :
    Same p w.ctx w'.ctx := by
  induction hs with
  | start => exact Parts.same_refl _ _
  | @call w1 w2 h e c r _ _ hc ih =>
    have h2 := C83_unchanged g w1 e c (hp (c, r) (by simp))
    rw [hc] at h2
    exact Parts.same_trans (ih fun x hx => hp x (List.mem_append_left _ hx)) h2

/-- **C83** A publish of QoS 0 does not touch the publishes in flight. -/
theorem C83_qos0 (g : Cfg) (w : World) (e : Env) (p : PublishInfo) (id : UInt16) (h : p.qos = .qos0) :
    (callIn g w e (.publish (some p) id)).world.ctx.tables = w.ctx.tables := by
  have k : Parts.Touch (fun p => p = .status ∨ p = .sentAt) (apiCall g (.publish (some p) id)) := by
    simp only [apiCall]
    unfold mqttPublish publishLocked reservePublish notePublishSent
    simp only [h, ne_eq, not_true_eq_false, if_false]
    parts [Parts.touch_sendPublish (.inl rfl) (.inr rfl) g _ _ _ _]
  have h1 := k { w with env := e } .outgoing (by simp)
  have h2 := k { w with env := e } .incoming (by simp)
  have h3 : ∀ t t' : Tables, t'.outgoing = t.outgoing → t'.incoming = t.incoming → t' = t := by
    rintro ⟨_, _⟩ ⟨_, _⟩ rfl rfl; rfl
  exact h3 _ _ h1 h2

/-! ### The table is exact -/

/-- A session in which a PINGRESP is awaited and publishes are in flight in both directions, interrupted. -/
def Ex.busy : List (Env × Codes.Act) :=
  Codes.half ++ [(Codes.at 0 (Codes.incoming 2 1), .receiveLoop), (Codes.at 0 [], .ping), (Codes.at 0 [], .disconnect)]

/-- Runs in which each part of each list changes. -/
def Ex.trials : List (List (Env × Codes.Act) × Env × Codes.Act) :=
  let cut : Env := { Codes.at 9 [] with sends := [.accept 2, .fail] }
  let fails : Env := { Codes.at 9 [] with sends := [.fail] }
  [([], Codes.at 9 [0x20, 2, 1, 0], .connect), (Ex.busy, Codes.at 9 [0x20, 2, 0, 0], .connect),
   (Codes.linked, cut, .subscribe), (Codes.linked, cut, .unsubscribe), (Codes.linked, cut, .publish false .qos1 8),
   (Codes.linked, fails, .ping), (Codes.linked, Codes.at 9 [], .ping), (Codes.linked ++ [(Codes.at 0 [0x40, 2], .receiveLoop)], Codes.at 9 [], .disconnect)] ++
  [Codes.Act.processLoop, .receiveLoop].flatMap (fun a =>
    [(Codes.linked, { Codes.at 9 [] with recvs := [.fail] }, a), (Codes.linked, Codes.at 9 (Codes.incoming 2 1), a), (Codes.half, Codes.at 9 [0x70, 2, 0, 7], a),
     (Codes.linked, Codes.at 90000 [], a)]) ++
  [(Codes.half, Codes.at 0 [], .cancel 6)]

/-- A run changes a part, and is a call of the function. -/
def Ex.shows (c : ApiCall) (p : Part) (x : List (Env × Codes.Act) × Env × Codes.Act) : Bool :=
  match Ex.play Ex.w0 (Codes.steps x.1) with
  | none => false
  | some (_, w) => fnOf x.2.2.call == fnOf c && !decide (Same p w.ctx (callIn Ex.g w x.2.1 x.2.2.call).world.ctx)

def Ex.samples : List ApiCall :=
  [.connect none none 0 none, .subscribe none 0, .unsubscribe none 0, .publish none 0, .ping, .disconnect, .processLoop, .receiveLoop, .cancelCallback 0]

theorem Ex.shown : (Ex.samples.all fun c => (changes c).all fun p => Ex.trials.any (Ex.shows c p)) = true := by decide +kernel

theorem changes_congr {c c' : ApiCall} (h : fnOf c' = fnOf c) : changes c' = changes c := by
  cases c <;> cases c' <;> first | rfl | cases h

/-- **C83** The table is exact: a part is in the list of a function if and only if some call of the function, after some history, changes it. -/
theorem C83_exact (c : ApiCall) (p : Part) :
    p ∈ changes c ↔ ∃ g h w e c', FromInit g h w ∧ ValidCall g c' ∧ fnOf c' = fnOf c ∧ ¬ Same p w.ctx (callIn g w e c').world.ctx := by
  constructor
  · intro hp
    have main : ∀ c0 ∈ Ex.samples, fnOf c0 = fnOf c →
        ∃ g h w e c', FromInit g h w ∧ ValidCall g c' ∧ fnOf c' = fnOf c ∧ ¬ Same p w.ctx (callIn g w e c').world.ctx := by
      intro c0 hc hf
      rw [← changes_congr hf] at hp
      have h1 := List.all_eq_true.mp (List.all_eq_true.mp Ex.shown c0 hc) p hp
      obtain ⟨x, _, h2⟩ := List.any_eq_true.mp h1
      unfold Ex.shows at h2
      cases hw : Ex.play Ex.w0 (Codes.steps x.1) with
      | none => rw [hw] at h2; cases h2
      | some y =>
        obtain ⟨hist, w⟩ := y
        rw [hw] at h2
        simp only [Bool.and_eq_true, beq_iff_eq, Bool.not_eq_true', decide_eq_false_iff_not] at h2
        have hv : ∀ z ∈ Codes.steps x.1, ValidCall Ex.g z.2 := by
          intro z hz
          obtain ⟨y, _, rfl⟩ := List.mem_map.mp hz
          exact y.2.valid
        exact ⟨Ex.g, hist, w, x.2.1, x.2.2.call, ⟨Ex.gOk, Ex.w0, Ex.ctxInit true, rfl, Ex.play_hist hv hw⟩, x.2.2.valid, h2.1.trans hf, h2.2⟩
    cases c
    case getPacketId =>
      cases List.mem_singleton.mp hp
      exact ⟨Ex.g, _, Ex.after, Ex.env [], .getPacketId, Ex.after_fromInit, trivial, rfl, by decide +kernel⟩
    case checkConnectStatus => cases hp
    case connect => exact main (.connect none none 0 none) (by simp [Ex.samples]) rfl
    case subscribe => exact main (.subscribe none 0) (by simp [Ex.samples]) rfl
    case unsubscribe => exact main (.unsubscribe none 0) (by simp [Ex.samples]) rfl
    case publish => exact main (.publish none 0) (by simp [Ex.samples]) rfl
    case cancelCallback => exact main (.cancelCallback 0) (by simp [Ex.samples]) rfl
    all_goals exact main _ (by simp [Ex.samples]; done) rfl
  · rintro ⟨g, h, w, e, c', _, _, hf, hn⟩
    rw [← changes_congr hf]
    exact Classical.byContradiction fun hp => hn (C83_unchanged g w e c' hp)

/-! ### Examples -/

/-- Non-vacuity of `C83_unchanged`: subscribing leaves the publish with id 7 in flight, and connecting does not touch the time of the last reception. -/
example : Part.outgoing ∉ changes (.subscribe none 0) ∧ Part.receivedAt ∉ changes Ex.connectCall ∧ inFlight Ex.after.ctx.tables.outgoing ≠ [] := by decide +kernel

/-- Non-vacuity of `C83_history`: requests, a ping and new packet ids between two publishes. -/
example : let h := Ex.play Ex.after [(Ex.env [], .getPacketId), (Ex.env [], .ping), (Ex.env [], .subscribe (some [⟨.qos1, some [97], 1⟩]) 1)]
    h.isSome = true ∧ (h.all fun x => x.1.all fun y => decide (Part.outgoing ∉ changes y.1)) = true := by decide +kernel

/-- Non-vacuity of `C83_qos0`. -/
example : (Ex.pub .qos0).qos = .qos0 ∧ Ex.ret (callIn Ex.g Ex.after (Ex.env []) (Ex.publishCall .qos0 0)) = some (.status .success) := by decide +kernel

end Mqtt
