/-
The vectors handed to the store callback, and what calls that did something have accepted.
-/
import Verif.Proof.CallWire

namespace Mqtt
open Spec
set_option linter.unusedSimpArgs false

theorem getBytes_loop (W : Nat) (vec : List IoVec) : ∀ a, a < W → vec.foldl (fun acc v => (acc + v.iov_len) % W) a = (a + vecLength vec) % W := by
  induction vec with
  | nil => intro a ha; simp [vecLength, Nat.mod_eq_of_lt ha]
  | cons v vs ih =>
    intro a ha
    rw [List.foldl_cons, ih _ (Nat.mod_lt _ (by omega))]
    simp only [vecLength, List.map_cons, List.sum_cons]
    rw [Nat.mod_add_mod, Nat.add_assoc]

theorem VecBytes.getBytes {W : Nat} {vec : List IoVec} {bs : List UInt8} (h : VecBytes vec bs) (hW : bs.length < W) :
    getBytesInMQTTVec W vec = bs.length := by
  unfold getBytesInMQTTVec
  rw [getBytes_loop W vec 0 (by omega), h.length, Nat.zero_add, Nat.mod_eq_of_lt hW]

theorem serializeLoop_eq (vec : List IoVec) : ∀ (vecs : List (List UInt8)) (c : Cur), resolveVec vec = .ok vecs → c.pos ≤ c.mem.length →
    serializeMQTTVecLoop c vec = put c vecs.flatten := by
  induction vec with
  | nil =>
    intro vecs c h hc
    cases h
    rw [List.flatten_nil, put_nil hc]
    rfl
  | cons v vs ih =>
    intro vecs c h hc
    unfold resolveVec at h
    cases hr : readMem v.iov_base v.iov_len with
    | ub e => rw [hr] at h; cases h
    | ok b =>
      rw [hr] at h
      cases hv : resolveVec vs with
      | ub e => rw [hv] at h; cases h
      | ok bs =>
        rw [hv] at h
        cases h
        rw [List.flatten_cons, ← put_put]
        unfold serializeMQTTVecLoop
        rw [hr]
        simp only [Res.ok_bind]
        unfold put
        split
        · simp only [Res.ok_bind]
          have := ih bs ⟨c.mem.take c.pos ++ b ++ c.mem.drop (c.pos + b.length), c.pos + b.length⟩ hv (by simp; omega)
          rw [this]
          rfl
        · rfl

theorem VecBytes.serialize {vec : List IoVec} {bs mem : List UInt8} (h : VecBytes vec bs) (hm : bs.length ≤ mem.length) :
    serializeMQTTVec mem vec = .ok (bs ++ mem.drop bs.length) := by
  obtain ⟨vecs, h1, rfl⟩ := h
  unfold serializeMQTTVec
  rw [serializeLoop_eq vec vecs ⟨mem, 0⟩ h1 (Nat.zero_le _), put_ok (by simpa using hm)]
  simp

theorem VecBytes.of_contents {vec : List IoVec} (h : ∀ v ∈ vec, HasBytes v.iov_base v.iov_len) : VecBytes vec (vecContents vec) := by
  induction vec with
  | nil => exact VecBytes.nil
  | cons v vs ih =>
    have := VecBytes.append (VecBytes.one (h v List.mem_cons_self)) (ih fun x hx => h x (List.mem_cons_of_mem _ hx))
    simpa [vecContents] using this

/-- `MQTT_Publish` does nothing unless it accepts its parameters. -/
theorem mqttPublish_acts {g : Cfg} {p : PublishInfo} {id : UInt16} {w : World} (h : newEvents w (mqttPublish g (some p) id w) ≠ []) :
    validatePublishParams w.ctx (some p) id = .success ∧ (getPublishPacketSize g.W (some p)).status = .success := by
  unfold mqttPublish at h
  have h1 : validatePublishParams w.ctx (some p) id = .success := by
    apply Classical.byContradiction
    intro hn
    simp only [Bind.bind, M.bind, getCtx, if_pos hn, Pure.pure, M.pure, newEvents, Out.world, List.drop_length] at h
    exact h rfl
  refine ⟨h1, ?_⟩
  apply Classical.byContradiction
  intro hn
  simp only [Bind.bind, M.bind, getCtx, h1, ne_eq, not_true_eq_false, if_false, Pure.pure, M.pure] at h
  rw [if_pos hn] at h
  simp only [M.pure, newEvents, Out.world, List.drop_length] at h
  exact h trivial

theorem callIn_publish (g : Cfg) (w : World) (e : Env) (p : Option PublishInfo) (id : UInt16) :
    newEvents w (callIn g w e (.publish p id)) = newEvents { w with env := e } (mqttPublish g p id { w with env := e }) := by
  show newEvents w (M.bind _ _ _) = _
  unfold M.bind newEvents
  cases mqttPublish g p id { w with env := e } <;> rfl

theorem publish_length {W : Nat} (hW : 4294967296 ≤ W) {p : PublishInfo} {id : UInt16} {c : Ctx} {d : Bool} (hv : p.Valid) (hp : p.payloadLength < W)
    (h1 : validatePublishParams c (some p) id = .success) (h2 : (getPublishPacketSize W (some p)).status = .success) :
    (publishPacket { p.toSpec id with dup := d }).length = (getPublishPacketSize W (some p)).packetSize ∧
      (getPublishPacketSize W (some p)).packetSize ≤ maxRemaining ∧ ¬ (p.payloadLength > 0 ∧ p.pPayload = none) ∧ ¬ (p.qos ≠ .qos0 ∧ id = 0) := by
  have hb : ¬ (p.payloadLength > 0 ∧ p.pPayload = none) ∧ ¬ (p.qos ≠ .qos0 ∧ id = 0) := by
    unfold validatePublishParams at h1
    simp only at h1
    split at h1
    · cases h1
    · split at h1
      · cases h1
      · constructor <;> assumption
  obtain ⟨t1, t2, hr, hs, hm⟩ := getPublishPacketSize_ok hW hp (r := (getPublishPacketSize W (some p)).remainingLength)
    (s := (getPublishPacketSize W (some p)).packetSize) (by rw [← h2])
  have hpl : p.pPayload ≠ none ∨ p.payloadLength = 0 := by
    rcases Nat.eq_zero_or_pos p.payloadLength with h | h
    · exact .inr h
    · exact .inl fun h0 => hb.1 ⟨h, h0⟩
  have hl : (publishBody { p.toSpec id with dup := d }).length = pubLen p := publishBody_length (id := id) hv t1 hpl
  refine ⟨?_, hm, hb⟩
  simp only [maxRemaining] at hm
  rw [publishPacket, packet_length (by rw [hl]; omega), hl, hs]

theorem Did.stores {g : Cfg} {s : InFlight} {w w' : World} {p : PublishInfo} {id : UInt16} {r : ApiRet} {es : List Event}
    (h : Did g s w (.publish (some p) id) r es w') : StoresOk p id es := by
  cases h with
  | publish f h =>
    rcases h.cases with ⟨_, rfl, _⟩ | ⟨_, _, rfl, _⟩ | ⟨_, _, _, _, rfl, _⟩ | ⟨_, zs, s1, st0, es0, w0, w1, _, _, hps, rfl, _⟩
    · exact .nil _ _
    · exact ((StoresOk.nil _ _).cons (by simp)).cons (by simp)
    · exact ((StoresOk.nil _ _).cons (by simp)).cons (by simp)
    · exact (hps.2.1.append ((StoresOk.nil _ _).cons (by simp))).cons (by simp)

theorem Halted.stores {g : Cfg} {s : InFlight} {w w' : World} {p : PublishInfo} {id : UInt16} {es : List Event}
    (h : Halted g s w (.publish (some p) id) es w') : StoresOk p id es := by
  cases h with
  | publish f h => exact h.2.2

end Mqtt
