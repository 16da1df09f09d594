/-
What each public function did, in one relation, and the invariant that every history preserves.
-/
import Verif.Spec.Calls
import Verif.Proof.EffectsSession
import Verif.Proof.EffectsApi

namespace Mqtt
open Spec
set_option linter.unusedSimpArgs false

/-- What `MQTT_CancelCallback` did. -/
inductive CancelDone (s : InFlight) (w : World) (id : UInt16) : Status → List Event → World → Prop
  | none : s.outCap = 0 → CancelDone s w id .badParameter [] w
  | some {w' : World} {T : Tables} : s.outCap ≠ 0 → w'.ctx = { w.ctx with tables := T } → Represents T (step s (.cancel id)).2 →
      CancelDone s w id (step s (.cancel id)).1.1 [.pre, .post] w'

/-- What a public function that returned did.  `s` are the in-flight publishes before the call. -/
inductive Did (g : Cfg) (s : InFlight) (w : World) : ApiCall → ApiRet → List Event → World → Prop
  | publish {p : PublishInfo} {id : UInt16} {st : Status} {es : List Event} {w' : World} : Fx false w es false w' →
      PublishDone p id s w st es w' → Did g s w (.publish (some p) id) (.status st) es w'
  | publishNull {id : UInt16} : Did g s w (.publish none id) (.status .badParameter) [] w
  | subscribe {l : List SubscribeInfo} {id : UInt16} {st : Status} {es : List Event} {w' : World} : Fx false w es false w' →
      SubDone .subscribe l id w st es w' → Did g s w (.subscribe (some l) id) (.status st) es w'
  | subscribeNull {id : UInt16} : Did g s w (.subscribe none id) (.status .badParameter) [] w
  | unsubscribe {l : List SubscribeInfo} {id : UInt16} {st : Status} {es : List Event} {w' : World} : Fx false w es false w' →
      SubDone .unsubscribe l id w st es w' → Did g s w (.unsubscribe (some l) id) (.status st) es w'
  | unsubscribeNull {id : UInt16} : Did g s w (.unsubscribe none id) (.status .badParameter) [] w
  | ping {st : Status} {es : List Event} {w' : World} : Fx false w es false w' → PingDone w st es w' → Did g s w .ping (.status st) es w'
  | disconnect {st : Status} {es : List Event} {w' : World} : DisconnectDone w st es w' → Did g s w .disconnect (.status st) es w'
  | processLoop {st : Status} {es : List Event} {w' : World} : Fx false w es false w' → Iterated g true s w.fresh st es w' →
      Did g s w .processLoop (.status st) es w'
  | receiveLoop {st : Status} {es : List Event} {w' : World} : Fx false w es false w' → Iterated g false s w st es w' →
      Did g s w .receiveLoop (.status st) es w'
  | cancel {id : UInt16} {st : Status} {es : List Event} {w' : World} : id ≠ 0 → CancelDone s w id st es w' →
      Did g s w (.cancelCallback id) (.status st) es w'
  | check {w' : World} : w'.ctx = w.ctx → Did g s w .checkConnectStatus (.status (connectStatusCode w.ctx.connectStatus)) [.pre, .post] w'
  | getId {w' : World} : w'.ctx = { w.ctx with nextPacketId := (getPacketId w.ctx.nextPacketId).2 } →
      Did g s w .getPacketId (.packetId (getPacketId w.ctx.nextPacketId).1) [.pre, .post] w'
  | connect {ci : ConnectInfo} {will : Option PublishInfo} {t : UInt32} {sp0 sp : Bool} {st : Status} {es : List Event} {w' : World} :
      ConnectDone g ci will t sp0 s w st sp es w' → Did g s w (.connect (some ci) will t (some sp0)) (.connect st (some sp)) es w'
  | connectNull {ci : Option ConnectInfo} {will : Option PublishInfo} {t : UInt32} {sp0 : Option Bool} {w' : World} : (ci = none ∨ sp0 = none) →
      w'.ctx = { w.ctx with connectStatus := afterFail true w.ctx.connectStatus } →
      Did g s w (.connect ci will t sp0) (.connect .badParameter sp0) [.pre, .post] w'

/-- What a public function did that has not returned. -/
inductive Halted (g : Cfg) (s : InFlight) (w : World) : ApiCall → List Event → World → Prop
  | publish {p : PublishInfo} {id : UInt16} {es : List Event} {h : Bool} {w' : World} : Fx false w es h w' →
      PubX p id es → (PublishArgsOk w.ctx p id ∧ w.ctx.connectStatus = .connected) → Halted g s w (.publish (some p) id) es w'
  | subscribe {l : List SubscribeInfo} {id : UInt16} {es : List Event} {h : Bool} {w' : World} : Fx false w es h w' →
      AckX (subPacket .subscribe id l) es → (FiltersOk w.ctx .subscribe l id ∧ w.ctx.connectStatus = .connected) → Halted g s w (.subscribe (some l) id) es w'
  | unsubscribe {l : List SubscribeInfo} {id : UInt16} {es : List Event} {h : Bool} {w' : World} : Fx false w es h w' →
      AckX (subPacket .unsubscribe id l) es → (FiltersOk w.ctx .unsubscribe l id ∧ w.ctx.connectStatus = .connected) → Halted g s w (.unsubscribe (some l) id) es w'
  | ping {es : List Event} {h : Bool} {w' : World} : Fx false w es h w' → AckX pingreqPacket es → w.ctx.connectStatus = .connected → Halted g s w .ping es w'
  | disconnect {es : List Event} {w' : World} : Linked w es w' → DisconnectX w w' → Halted g s w .disconnect es w'
  | processLoop {es : List Event} {h : Bool} {w' : World} : Fx false w es h w' → IterX true s w.ctx es → Halted g s w .processLoop es w'
  | receiveLoop {es : List Event} {h : Bool} {w' : World} : Fx false w es h w' → IterX false s w.ctx es → Halted g s w .receiveLoop es w'
  | connect {ci : ConnectInfo} {will : Option PublishInfo} {t : UInt32} {sp0 : Bool} {es : List Event} {w' : World} :
      ConnectX g ci will t sp0 s w es → Halted g s w (.connect (some ci) will t (some sp0)) es w'

/-- What `apiCall` establishes. -/
def CallWp (g : Cfg) (s : InFlight) (w : World) (c : ApiCall) : Prop :=
  wp (apiCall g c) (fun r w' => ∃ es, Linked w es w' ∧ Did g s w c r es w') (fun w' => ∃ es, Linked w es w' ∧ Halted g s w c es w')
    (fun _ => False) w

theorem callWp_of_tr {m : M Status} {R : Status → List Event → Bool → World → Prop} {X : List Event → Prop} {g : Cfg} {s : InFlight} {w : World}
    {c : ApiCall} (hm : apiCall g c = (do pure (.status (← m)))) (ht : Tr True false m (fun a es h' w' => h' = false ∧ R a es h' w') X w)
    {oc ic : Nat} (hi : Inv oc ic w.ctx)
    (hd : ∀ st es w', Fx false w es false w' → R st es false w' → Did g s w c (.status st) es w')
    (hx : ∀ es h w', Fx false w es h w' → X es → Halted g s w c es w') : CallWp g s w c := by
  unfold CallWp
  rw [hm, wp_bind]
  refine wp_mono (ht.toWp trivial hi) ?_ ?_ (fun _ h => h)
  · rintro st w' ⟨es, h', f, rfl, hr⟩
    rw [wp_pure]
    exact ⟨es, f.linked, hd _ _ _ f hr⟩
  · rintro w' ⟨es, h', f, hx'⟩
    exact ⟨es, f.linked, hx _ _ _ f hx'⟩

theorem apiCall_wp (g : Cfg) (hg : CfgOk g) (s : InFlight) (w : World) (c : ApiCall) (hv : ValidCall g c) (hidx : w.ctx.index ≤ w.ctx.bufSize)
    (hrep : Represents w.ctx.tables s) : CallWp g s w c := by
  have hi : Inv s.outCap s.inCap w.ctx := ⟨hidx, s, hrep, rfl, rfl⟩
  have hmax : maxRemaining < g.W := Nat.lt_of_lt_of_le (by decide) hg.size
  cases c with
  | connect ci will t sp0 =>
    have null : ci = none ∨ sp0 = none → CallWp g s w (.connect ci will t sp0) := by
      intro hn
      have hm : mqttConnect g ci will t sp0 = (do connectFailed .badParameter; pure (.badParameter, sp0)) := by
        rcases hn with rfl | rfl
        · rfl
        · cases ci <;> rfl
      unfold CallWp
      show wp (do let r ← mqttConnect g ci will t sp0; pure (ApiRet.connect r.1 r.2)) _ _ _ _
      rw [hm, wp_bind, wp_bind]
      refine connectFailed_spec _ ?_
      intro w' hl hc
      rw [wp_pure, wp_pure]
      exact ⟨_, hl, .connectNull hn hc⟩
    cases ci with
    | none => exact null (Or.inl rfl)
    | some ci =>
      cases sp0 with
      | none => exact null (Or.inr rfl)
      | some sp0 =>
        unfold CallWp
        show wp (do let r ← mqttConnect g (some ci) will t (some sp0); pure (ApiRet.connect r.1 r.2)) _ _ _ _
        rw [wp_bind]
        refine wp_mono (mqttConnect_spec g ci will t sp0 s w (hv ci rfl) hidx hrep) ?_ ?_ (fun _ h => h)
        · rintro ⟨st, sp'⟩ w' ⟨es, sp, rfl, hl, hd⟩
          rw [wp_pure]
          exact ⟨es, hl, .connect hd⟩
        · rintro w' ⟨es, hl, hx⟩
          exact ⟨es, hl, .connect hx⟩
  | subscribe subs id =>
    cases subs with
    | none => exact ⟨[], Linked.silent rfl rfl, .subscribeNull⟩
    | some l =>
      exact callWp_of_tr rfl (mqttSubUnsub_tr g .subscribe l id w hg.size (hv l rfl).1 hg.vectors (hv l rfl).2) hi
        (fun _ _ _ f h => .subscribe f h) (fun _ _ _ f h => .subscribe f h.2 h.1)
  | unsubscribe subs id =>
    cases subs with
    | none => exact ⟨[], Linked.silent rfl rfl, .unsubscribeNull⟩
    | some l =>
      exact callWp_of_tr rfl (mqttSubUnsub_tr g .unsubscribe l id w hg.size (hv l rfl).1 hg.vectors (hv l rfl).2) hi
        (fun _ _ _ f h => .unsubscribe f h) (fun _ _ _ f h => .unsubscribe f h.2 h.1)
  | publish p id =>
    cases p with
    | none => exact ⟨[], Linked.silent rfl rfl, .publishNull⟩
    | some p =>
      exact callWp_of_tr rfl (mqttPublish_tr g p id w s hg.size (hv p rfl).1 (hv p rfl).2 hrep) hi
        (fun _ _ _ f h => .publish f h) (fun _ _ _ f h => .publish f h.2 h.1)
  | ping => exact callWp_of_tr rfl (mqttPing_tr g w) hi (fun _ _ _ f h => .ping f h) (fun _ _ _ f h => .ping f h.2 h.1)
  | disconnect =>
    unfold CallWp
    show wp (do pure (ApiRet.status (← mqttDisconnect g))) _ _ _ _
    rw [wp_bind]
    refine wp_mono (mqttDisconnect_spec g w) ?_ ?_ (fun _ h => h)
    · rintro st w' ⟨es, hd⟩
      rw [wp_pure]
      refine ⟨es, ⟨hd.trace, ?_⟩, .disconnect hd⟩
      rw [hd.input]
      rcases hd.cases with ⟨_, _, rfl, _⟩ | ⟨_, snd, rfl, hk, _⟩
      · rfl
      · have : received (Event.pre :: (snd ++ [.post])) = received snd := by
          show received ([.pre] ++ (snd ++ [.post])) = _
          rw [received_append, received_append]
          simp [received]
        rw [this, received_of_kinds hk]; rfl
    · rintro w' hx
      have hl : ∃ es, Linked w es w' := by
        obtain ⟨snd, h1, h2, _, _, h3, _⟩ := hx
        refine ⟨_, h1, ?_⟩
        rw [h3]
        have : received (Event.pre :: snd) = received snd := by
          show received ([.pre] ++ snd) = _
          rw [received_append]; simp [received]
        rw [this, received_of_kinds h2]; rfl
      obtain ⟨es, hl⟩ := hl
      exact ⟨es, hl, .disconnect hl hx⟩
  | processLoop =>
    exact callWp_of_tr rfl (mqttProcessLoop_tr g w s hmax hrep) hi (fun _ _ _ f h => .processLoop f h) (fun _ _ _ f h => .processLoop f h)
  | receiveLoop =>
    exact callWp_of_tr rfl (mqttReceiveLoop_tr g w s hmax hrep) hi (fun _ _ _ f h => .receiveLoop f h) (fun _ _ _ f h => .receiveLoop f h)
  | cancelCallback id =>
    have h := mqttCancelCallback_eq id w s hv hrep
    unfold CallWp
    show wp (do pure (ApiRet.status (← mqttCancelCallback id))) _ _ _ _
    rw [wp_bind]
    unfold wp
    split at h
    · rename_i h0
      rw [h]
      exact ⟨[], Linked.silent rfl rfl, .cancel hv (.none h0)⟩
    · rename_i h0
      obtain ⟨T, h, hT⟩ := h
      rw [h]
      exact ⟨_, ⟨rfl, rfl⟩, .cancel hv (.some h0 rfl hT)⟩
  | checkConnectStatus =>
    unfold CallWp
    show wp (do pure (ApiRet.status (← mqttCheckConnectStatus))) _ _ _ _
    rw [wp_bind]
    unfold wp
    rw [mqttCheckConnectStatus_eq]
    exact ⟨_, ⟨rfl, rfl⟩, .check rfl⟩
  | getPacketId =>
    unfold CallWp
    show wp (do pure (ApiRet.packetId (← mqttGetPacketId))) _ _ _ _
    rw [wp_bind]
    unfold wp
    rw [mqttGetPacketId_eq]
    exact ⟨_, ⟨rfl, rfl⟩, .getId rfl⟩

end Mqtt
