/-
C68: a request that can be carried out is carried out.
-/
import Verif.Props.Outcomes
import Verif.Props.Causes
import Verif.Proof.Codes

namespace Mqtt
open Spec
set_option linter.unusedSimpArgs false

/-- The publishes in flight do not stand in the way: the QoS is 0; or the id is not in flight and there is a free record; or it is a repetition (DUP) of a
publish that has this id and QoS and has not been answered. -/
def Spec.Sendable (t : Tables) (p : PublishInfo) (id : UInt16) : Prop :=
  p.qos = .qos0 ∨ (¬ Taken t id ∧ ¬ Full t) ∨
  (p.dup = true ∧ ∃ r ∈ inFlight t.outgoing, r.packetId = id ∧ r.qos = p.qos ∧
    (r.publishState = .publishSend ∨ r.publishState = .pubAckPending ∨ r.publishState = .pubRecPending))

/-- What a call needs of the context and of its arguments. -/
def Spec.Possible (c : Ctx) : ApiCall → Prop
  | .publish (some p) id => c.connectStatus = .connected ∧ PublishArgsOk c p id ∧ Sendable c.tables p id
  | .subscribe (some l) id => c.connectStatus = .connected ∧ FiltersOk c .subscribe l id
  | .unsubscribe (some l) id => c.connectStatus = .connected ∧ FiltersOk c .unsubscribe l id
  | .ping => c.connectStatus = .connected
  | .disconnect => c.connectStatus ≠ .notConnected
  | _ => False

theorem sendable_iff {t : Tables} {s s1 : InFlight} (hrep : Represents t s) {p : PublishInfo} {id : UInt16} (hid : p.qos ≠ .qos0 → id ≠ 0)
    (hr : Reserved s p id s1) : (noteSent s1 p id).1 = .success ↔ Sendable t p id := by
  unfold Sendable noteSent
  rcases hr with ⟨hq, rfl⟩ | ⟨hq, hres, rfl⟩
  · simp [hq]
  · have hid := hid hq
    simp only [hq, if_false, false_or]
    have hstep : ∀ (s2 : InFlight) (ph : OutPhase), s2.out.phase id = some ph →
        ((step s2 (.publish .send id p.qos)).1.1 = .success ↔ outQoS ph = p.qos ∧ sentPublish p.qos ph ≠ none) := by
      intro s2 ph hph
      cases hpq : p.qos with
      | qos0 => exact absurd hpq hq
      | _ => cases ph <;> simp [step, hid, hph, outQoS, sentPublish]
    rcases reserve_status hrep hid hq with ⟨h1, h2⟩ | ⟨h1, _⟩ | ⟨h1, h2, h3⟩
    · have hdup : p.dup = true := by
        rcases hres with h | h
        · rw [h1] at h; cases h
        · exact h.2
      have hsame : (step s (.reserve id p.qos)).2 = s := step_reserve_fail (by rw [h1]; simp)
      rw [hsame]
      have hph : s.out.phase id ≠ none := (mem_inFlight hrep.1 id).mp h2
      cases hp : s.out.phase id with
      | none => exact absurd hp hph
      | some ph =>
        rw [hstep s ph hp]
        simp only [h2, hdup, not_true_eq_false, false_and, false_or, true_and]
        constructor
        · rintro ⟨ha, hb⟩
          refine ⟨outRec (id, ph), inFlight_phase hrep.1 hp, keepsId_out _, ?_⟩
          cases hpq : p.qos <;> cases ph <;> simp_all [outQoS, sentPublish, outRec]
        · rintro ⟨r, hr, hri, hrq, hrs⟩
          unfold inFlight at hr
          rw [hrep.1.entries] at hr
          obtain ⟨⟨i, ph'⟩, hm, rfl⟩ := List.mem_map.mp hr
          rw [keepsId_out] at hri
          dsimp only at hri
          subst hri
          have := phase_of_entry hrep.1.distinct hm
          dsimp only at this
          rw [this] at hp
          cases hp
          cases hpq : p.qos <;> cases ph <;> simp_all [outQoS, sentPublish, outRec]
    · rcases hres with h | h
      · rw [h1] at h; cases h
      · rw [h1] at h; cases h.1
    · refine ⟨fun _ => Or.inl ⟨h2, h3⟩, fun _ => ?_⟩
      have hnone : s.out.phase id = none := by
        cases hp : s.out.phase id with
        | none => rfl
        | some ph => exact absurd ((mem_inFlight hrep.1 id).mpr (by rw [hp]; simp)) h2
      have hins : ∀ x, (s.out.insert s.outCap id x).1 = .success → (s.out.insert s.outCap id x).2.phase id = some x := by
        intro x hx
        unfold Table.insert at hx ⊢
        split
        · rename_i h; rw [if_pos h] at hx; cases hx
        · rename_i h
          rw [if_neg h] at hx
          split
          · rename_i h'; rw [if_pos h'] at hx; cases hx
          · exact phase_append_same hnone
      cases hpq : p.qos with
      | qos0 => exact absurd hpq hq
      | qos1 =>
        rw [hpq] at h1
        have : (step s (.reserve id .qos1)).2.out.phase id = some .toSend1 := by
          simp only [step, if_neg hid, if_true] at h1 ⊢
          exact hins _ h1
        have := hstep _ _ this
        rw [hpq] at this
        exact this.mpr (by simp [outQoS, sentPublish])
      | qos2 =>
        rw [hpq] at h1
        have : (step s (.reserve id .qos2)).2.out.phase id = some .toSend2 := by
          simp only [step, if_neg hid] at h1 ⊢
          exact hins _ h1
        have := hstep _ _ this
        rw [hpq] at this
        exact this.mpr (by simp [outQoS, sentPublish])

theorem reserve_fails {t : Tables} {s : InFlight} (hrep : Represents t s) {p : PublishInfo} {id : UInt16} (hid : id ≠ 0) (hq : p.qos ≠ .qos0)
    (h : (step s (.reserve id p.qos)).1.1 ≠ .success) (hd : ¬ ((step s (.reserve id p.qos)).1.1 = .stateCollision ∧ p.dup = true)) : ¬ Sendable t p id := by
  rcases reserve_status hrep hid hq with ⟨h1, h2⟩ | ⟨h1, h2, h3⟩ | ⟨h1, _⟩
  · rintro (h' | ⟨h', _⟩ | ⟨h', _⟩)
    · exact hq h'
    · exact h' h2
    · exact hd ⟨h1, h'⟩
  · rintro (h' | ⟨_, h'⟩ | ⟨_, r, hr, hri, _⟩)
    · exact hq h'
    · exact h' h3
    · exact h2 ⟨r, hr, hri⟩
  · exact absurd h1 h

/-- What the call returned, when it returned and the environment did nothing wrong. -/
theorem Did.possible {g : Cfg} {s : InFlight} {w w' : World} {c : ApiCall} {r : ApiRet} {es : List Event} {pk : List UInt8} (hrep : Represents w.ctx.tables s)
    (hd : Did g s w c r es w') (hpk : callPacket c = some pk) :
    (Possible w.ctx c → r = .status .success ∨ r = .status .sendFailed ∨ r = .status .publishStoreFailed) ∧
    (r = .status .success → Possible w.ctx c) := by
  have nc : ∀ {x : ConnStatus}, x ≠ .connected → notConnectedStatus x ≠ .success := by
    intro x hx
    rcases notConnectedStatus_mem hx with h | h <;> rw [h] <;> simp
  have sub : ∀ {ty : SubType} {l : List SubscribeInfo} {id : UInt16} {st : Status}, SubDone ty l id w st es w' →
      (w.ctx.connectStatus = .connected ∧ FiltersOk w.ctx ty l id → st = .success ∨ st = .sendFailed) ∧
      (st = .success → w.ctx.connectStatus = .connected ∧ FiltersOk w.ctx ty l id) := by
    intro ty l id st h
    rcases h.cases with ⟨rfl, _, _, h1⟩ | ⟨h1, rfl, _⟩ | ⟨h1, _, _, _, h2⟩
    · exact ⟨fun hp => absurd hp.2 h1, fun hh => (by cases hh)⟩
    · exact ⟨fun hp => absurd hp.1 h1, fun hh => absurd hh (nc h1)⟩
    · exact ⟨fun _ => h2.mem, fun hh => ⟨h1, h.args (by rw [hh]; simp)⟩⟩
  cases hd with
  | publish _ h =>
    rename_i p id st _
    suffices key : (w.ctx.connectStatus = .connected ∧ PublishArgsOk w.ctx p id ∧ Sendable w.ctx.tables p id →
        st = .success ∨ st = .sendFailed ∨ st = .publishStoreFailed) ∧
        (st = .success → w.ctx.connectStatus = .connected ∧ PublishArgsOk w.ctx p id ∧ Sendable w.ctx.tables p id) by
      refine ⟨fun hp => ?_, fun hr => key.2 (by cases hr; rfl)⟩
      rcases key.1 hp with h | h | h <;> simp [h]
    rcases h.cases with ⟨rfl, _, _, h1⟩ | ⟨h1, rfl, _⟩ | ⟨hc, hq, h1, h2, h3, _, h4⟩ | ⟨hc, zs, s1, st0, es0, w0, w1, hres, _, hsent, hes, h3⟩
    · exact ⟨fun hp => absurd hp.2.1 h1, fun hh => (by cases hh)⟩
    · exact ⟨fun hp => absurd hp.1 h1, fun hh => absurd hh (nc h1)⟩
    · have ha : PublishArgsOk w.ctx p id := h.args (by rw [h3]; simp)
      refine ⟨fun hp => ?_, fun hh => absurd hh h1⟩
      subst h2
      exact absurd hp.2.2 (reserve_fails hrep (ha.id hq) hq h1 h4)
    · have ha : PublishArgsOk w.ctx p id := h.args (by rw [hes]; simp)
      have hiff := sendable_iff hrep ha.id hres
      rcases h3 with ⟨h5, rfl, _⟩ | ⟨_, h6, _⟩
      · refine ⟨fun _ => ?_, fun hh => absurd hh h5⟩
        rcases hsent.2.2 with ⟨_, _, h⟩ | ⟨_, _, _, h⟩ | ⟨_, _, _, _, _, h⟩
        · rcases h.mem with h | h <;> simp [h]
        · simp [h]
        · rcases h.mem with h | h <;> simp [h]
      · rw [h6]
        exact ⟨fun hp => Or.inl (hiff.mpr hp.2.2), fun hh => ⟨hc, ha, hiff.mp hh⟩⟩
  | subscribe _ h =>
    refine ⟨fun hp => ?_, fun hr => (sub h).2 (by cases hr; rfl)⟩
    rcases (sub h).1 hp with h | h <;> simp [h]
  | unsubscribe _ h =>
    refine ⟨fun hp => ?_, fun hr => (sub h).2 (by cases hr; rfl)⟩
    rcases (sub h).1 hp with h | h <;> simp [h]
  | ping _ h =>
    rcases h.cases with ⟨h1, _, _, rfl, _⟩ | ⟨h1, _, _, rfl, _⟩ | ⟨h1, _, _, rfl, _⟩
    · exact ⟨fun hp => absurd hp h1, fun hr => absurd (ApiRet.status.inj hr) (nc h1)⟩
    · exact ⟨fun _ => by simp, fun hr => (by cases hr)⟩
    · exact ⟨fun _ => by simp, fun _ => h1⟩
  | disconnect h =>
    rcases h.cases with ⟨h1, rfl, _⟩ | ⟨h1, snd, _, _, _, h2, _⟩
    · exact ⟨fun hp => absurd h1 hp, fun hr => (by cases hr)⟩
    · refine ⟨fun _ => ?_, fun _ => h1⟩
      rcases h2.mem with h | h <;> simp [h]
  | _ => cases hpk

section
variable {g : Cfg} {h : List (ApiCall × ApiRet)} {w w' : World} {e : Env} {c : ApiCall} {r : ApiRet} {pk : List UInt8}

/-- **C68** A call that sends one packet, that is possible, and that returns without the transport failing or taking MQTT_SEND_TIMEOUT_MS and without the application
declining to store a copy, returns MQTTSuccess, and the transport has taken the whole packet. -/
theorem C68_carried_out (hh : FromInit g h w) (hv : ValidCall g c) (hpk : callPacket c = some pk) (hd : callIn g w e c = .done r w')
    (hp : Possible w.ctx c) (h1 : ¬ sendError (callEvents g w e c)) (h2 : ¬ sendTimeout g.sendTimeoutMs (callEvents g w e c))
    (h3 : ¬ storeDeclined (callEvents g w e c)) : r = .status .success ∧ wire (callEvents g w e c) = pk := by
  obtain ⟨_, _, hi, s, hrep, _, _⟩ := hh.inv
  obtain ⟨es, _, hdid⟩ := callIn_done hh.cfg hv hi hrep hd
  rcases (Did.possible (w := { w with env := e }) hrep hdid hpk).1 hp with rfl | rfl | rfl
  · exact ⟨rfl, (C27_sent_bytes_are_a_prefix hh e c hv hpk).2.1 _ hd⟩
  · rcases C64_send hh hv hd rfl with h | h
    · exact absurd h h1
    · exact absurd h h2
  · exact absurd (C64_store hh hv hd rfl) h3

/-- **C68** Only possible calls are reported as successful. -/
theorem C68_only (hh : FromInit g h w) (hv : ValidCall g c) (hpk : callPacket c = some pk) (hd : callIn g w e c = .done (.status .success) w') :
    Possible w.ctx c := by
  obtain ⟨_, _, hi, s, hrep, _, _⟩ := hh.inv
  obtain ⟨es, _, hdid⟩ := callIn_done hh.cfg hv hi hrep hd
  exact (Did.possible (w := { w with env := e }) hrep hdid hpk).2 rfl

end

/-! ### Non-vacuity -/

/-- The transport takes everything, copies are stored, the clock stands still. -/
def Ex.calmEnv : Env := { Ex.env [] with clock := List.replicate 40 77 }

/-- No send failed, no copy was declined, every reading of the clock was the same. -/
def Ex.nothingWrong (es : List Event) : Bool :=
  es.all fun
    | .sent _ none => false
    | .store _ _ false => false
    | .time t => t == 77
    | _ => true

theorem Ex.nothingWrong_ok {es : List Event} (h : Ex.nothingWrong es = true) : ¬ Spec.sendError es ∧ ¬ sendTimeout Ex.g.sendTimeoutMs es ∧ ¬ storeDeclined es := by
  have hall := List.all_eq_true.mp h
  refine ⟨?_, ?_, ?_⟩
  · rintro ⟨b, hb⟩; have := hall _ hb; cases this
  · rintro ⟨a, t0, b, r, l, t1, c, rfl, _, hle⟩
    have h0 := hall (.time t0) (by simp)
    have h1 := hall (.time t1) (by simp)
    simp only [beq_iff_eq] at h0 h1
    subst h0 h1
    exact absurd hle (by decide)
  · rintro ⟨i, v, hb⟩; have := hall _ hb; cases this

/-- In the session of Props/Example.lean publish 7 waits for its PUBCOMP and one record is free.  Publish 9 and a ping are possible and meet all the other conditions too;
publish 7 is not possible, not even as a repetition. -/
example : FromInit Ex.g (Ex.played Ex.session).1 (Ex.played Ex.session).2 ∧ ValidCall Ex.g (Ex.publishCall .qos1 9) ∧
    Possible (Ex.played Ex.session).2.ctx (Ex.publishCall .qos1 9) ∧ Possible (Ex.played Ex.session).2.ctx .ping ∧
    ¬ Possible (Ex.played Ex.session).2.ctx (Ex.publishCall .qos2 7) ∧
    (∃ w', callIn Ex.g (Ex.played Ex.session).2 Ex.calmEnv (Ex.publishCall .qos1 9) = .done (.status .success) w') ∧
    (∃ w', callIn Ex.g (Ex.played Ex.session).2 Ex.calmEnv .ping = .done (.status .success) w') ∧
    ¬ Spec.sendError (callEvents Ex.g (Ex.played Ex.session).2 Ex.calmEnv (Ex.publishCall .qos1 9)) ∧
    ¬ sendTimeout Ex.g.sendTimeoutMs (callEvents Ex.g (Ex.played Ex.session).2 Ex.calmEnv (Ex.publishCall .qos1 9)) ∧
    ¬ storeDeclined (callEvents Ex.g (Ex.played Ex.session).2 Ex.calmEnv (Ex.publishCall .qos1 9)) ∧
    ((callEvents Ex.g (Ex.played Ex.session).2 Ex.calmEnv (Ex.publishCall .qos1 9)).any fun e => e matches .store _ _ true) = true := by
  have ht : (Ex.played Ex.session).2.ctx.tables.outgoing = [⟨7, .qos2, .pubCompPending⟩, ⟨0, .qos0, .null⟩] := by decide +kernel
  have hc : (Ex.played Ex.session).2.ctx.connectStatus = .connected := by decide +kernel
  refine ⟨Ex.session_fromInit, Ex.publishValid _ _, ?_, hc, ?_, ⟨_, Ex.ret_done (by decide +kernel)⟩, ⟨_, Ex.ret_done (by decide +kernel)⟩, ?_⟩
  · refine ⟨hc, ⟨by decide, by decide, by decide, fun _ => by rw [ht]; simp, by decide +kernel⟩, Or.inr (Or.inl ⟨?_, ?_⟩)⟩
    · unfold Taken; rw [ht]; decide
    · unfold Full; rw [ht]; decide
  · rintro ⟨_, _, h | ⟨h, _⟩ | ⟨h, _⟩⟩
    · cases h
    · refine h ⟨⟨7, .qos2, .pubCompPending⟩, ?_, rfl⟩
      rw [ht]; decide
    · cases h
  · have := Ex.nothingWrong_ok (es := callEvents Ex.g (Ex.played Ex.session).2 Ex.calmEnv (Ex.publishCall .qos1 9)) (by decide +kernel)
    exact ⟨this.1, this.2.1, this.2.2, by decide +kernel⟩

/-- A repetition is possible while no PUBREC has arrived. -/
example : Possible (Ex.played Ex.crowded).2.ctx (.publish (some { Ex.pub .qos2 with dup := true }) 9) ∧
    ¬ Possible (Ex.played Ex.crowded).2.ctx (.publish (some { Ex.pub .qos2 with dup := true }) 7) ∧
    Ex.ret (callIn Ex.g (Ex.played Ex.crowded).2 Ex.calmEnv (.publish (some { Ex.pub .qos2 with dup := true }) 9)) = some (.status .success) := by
  have ht : (Ex.played Ex.crowded).2.ctx.tables.outgoing = [⟨7, .qos2, .pubCompPending⟩, ⟨9, .qos2, .pubRecPending⟩] := by decide +kernel
  refine ⟨⟨by decide +kernel, ⟨by decide, by decide, by decide, fun _ => by rw [ht]; simp, by decide +kernel⟩,
    Or.inr (Or.inr ⟨rfl, ⟨9, .qos2, .pubRecPending⟩, ?_, rfl, rfl, Or.inr (Or.inr rfl)⟩)⟩, ?_, by decide +kernel⟩
  · rw [ht]; decide
  · rintro ⟨_, _, h | ⟨h, _⟩ | ⟨_, r, hr, h1, h2, h3⟩⟩
    · cases h
    · refine h ⟨⟨7, .qos2, .pubCompPending⟩, ?_, rfl⟩
      rw [ht]; decide
    · rw [ht] at hr
      have : r = ⟨7, .qos2, .pubCompPending⟩ ∨ r = ⟨9, .qos2, .pubRecPending⟩ := by simpa [inFlight] using hr
      rcases this with rfl | rfl <;> simp at h1 h3

end Mqtt
