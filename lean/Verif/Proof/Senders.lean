/-
The zero-copy senders hand over the packet.
-/
import Verif.Proof.Vectors

namespace Mqtt
open Spec
set_option linter.unusedSimpArgs false

/-- Result of an operation that sends `bs`: on success exactly `bs` was handed over, otherwise a proper prefix. -/
def SentResult (bs : List UInt8) (st : Status) (es : List Event) : Prop :=
  (st = .success ∧ hasFail es = false ∧ wire es = bs) ∨ (st = .sendFailed ∧ wire es <+: bs ∧ wire es ≠ bs)

/-- Postcondition of a send operation of the bytes `bs` started in `w`. -/
def SendsQ (w : World) (bs : List UInt8) (st : Status) (w' : World) : Prop := ∃ es, SendDelta w es w' ∧ SentResult bs st es

/-- The world a send operation of the bytes `bs` leaves when it does not return. -/
def SendsE (w : World) (bs : List UInt8) (w' : World) : Prop := ∃ es, SendDelta w es w' ∧ wire es <+: bs

theorem SentResult.prefix {bs : List UInt8} {st : Status} {es : List Event} (h : SentResult bs st es) : wire es <+: bs := by
  rcases h with ⟨_, _, h⟩ | ⟨_, h, _⟩
  · rw [h]; exact List.prefix_refl _
  · exact h

theorem take_ne {bs : List UInt8} {n : Nat} (h : n < bs.length) : bs.take n ≠ bs := by
  intro he
  have := congrArg List.length he
  rw [List.length_take] at this
  omega

theorem sendWholeVector_spec (g : Cfg) (vec : List IoVec) (bs : List UInt8) (h : VecBytes vec bs) (hne : vec ≠ []) (w : World) :
    wp (sendWholeVector g vec) (SendsQ w bs) (SendsE w bs) (fun _ => False) w := by
  have hlen := h.length
  obtain ⟨vecs, hr, hf⟩ := h
  unfold sendWholeVector
  rw [wp_bind]
  have h1 := sendMessageVector_spec g vec vecs hr hne w
  rw [hf] at h1
  refine wp_mono h1 ?_ (fun _ h => h) (fun _ h => h)
  rintro r w' ⟨es, n, hd, hn, hw, hfl, hm, hm0⟩
  rw [wp_ite]
  constructor
  · intro hr
    refine ⟨es, hd, Or.inr ⟨rfl, by rw [hw]; exact List.take_prefix _ _, ?_⟩⟩
    rw [hw]
    refine take_ne ?_
    cases r with
    | none => exact hm0 rfl
    | some m =>
      have := hm m rfl
      subst this
      rw [hlen] at hr
      have : m ≠ bs.length := fun h => hr (by rw [h])
      omega
  · intro hr
    have hr := Classical.not_not.mp hr
    subst hr
    have := hm _ rfl
    refine ⟨es, hd, Or.inl ⟨rfl, by simpa using hfl, ?_⟩⟩
    rw [hw, ← this, hlen, List.take_length]

theorem prefix_append_ne {a b c : List UInt8} (h : c <+: b ∧ c ≠ b) : a ++ c <+: a ++ b ∧ a ++ c ≠ a ++ b :=
  ⟨(List.prefix_append_right_inj a).mpr h.1, fun he => h.2 (List.append_cancel_left he)⟩

theorem prefix_append_ne' {a b c : List UInt8} (h : c <+: a ∧ c ≠ a) : c <+: a ++ b ∧ c ≠ a ++ b := by
  refine ⟨h.1.trans (List.prefix_append _ _), fun he => h.2 ?_⟩
  have h1 := h.1.length_le
  rw [he, List.length_append] at h1
  have : b = [] := List.length_eq_zero_iff.mp (by omega)
  rw [he, this, List.append_nil]

theorem sendFiltersLoop_spec (g : Cfg) (ty : SubType) (n : Nat) (vec : List IoVec) (bs : List UInt8) (subs : List SubscribeInfo)
    (hall : ∀ s ∈ subs, HasBytes s.pTopicFilter s.topicFilterLength.toNat) (hmax : perTopicVectors ty ≤ g.subUnsubMaxVectors)
    (hv : VecBytes vec bs) (hn : subs.length + 1 + (if vec = [] then 0 else 1) ≤ n) (hsub : vec ≠ [] → subs ≠ []) (w : World) :
    wp (sendFiltersLoop g ty n vec subs) (SendsQ w (bs ++ subs.flatMap (filterBytes ty)))
      (SendsE w (bs ++ subs.flatMap (filterBytes ty))) (fun _ => False) w := by
  induction n generalizing vec bs subs w with
  | zero => omega
  | succ n ih =>
    unfold sendFiltersLoop
    rw [wp_ite]
    constructor
    · intro hs
      have hs : subs = [] := by simpa using hs
      have hvec : vec = [] := Classical.byContradiction fun h => hsub h hs
      subst hvec
      have : bs = [] := by obtain ⟨v, h1, rfl⟩ := hv; cases h1; rfl
      subst this
      exact ⟨[], SendDelta.refl w, Or.inl ⟨rfl, by simp [hasFail], by simp [hs, wire]⟩⟩
    · intro hs
      have hs : subs ≠ [] := by simpa using hs
      obtain ⟨vec', rest, taken, h1, h2, h3, h4, h5⟩ := fillVectors_bytes (g := g) (ty := ty) subs vec bs hall hmax hv
      rw [wp_bind, h1, wp_liftRes]
      show wp (do let st ← sendWholeVector g vec'; if st ≠ .success then pure st else sendFiltersLoop g ty n [] rest) _ _ _ w
      have hne : vec' ≠ [] := by
        by_cases h : vec = []
        · exact (h5 h hs).1
        · exact h4 h
      have hflat : bs ++ subs.flatMap (filterBytes ty) =
          (bs ++ taken.flatMap (filterBytes ty)) ++ rest.flatMap (filterBytes ty) := by rw [h2]; simp
      rw [hflat, wp_bind]
      refine wp_mono (sendWholeVector_spec g vec' _ h3 hne w) ?_ ?_ (fun _ h => h)
      · rintro st w1 ⟨es, hd, hres⟩
        rw [wp_ite]
        constructor
        · intro hst
          rcases hres with ⟨h, _⟩ | ⟨h, hp⟩
          · exact absurd h hst
          · exact ⟨es, hd, Or.inr ⟨h, prefix_append_ne' hp⟩⟩
        · intro hst
          have hst := Classical.not_not.mp hst
          subst hst
          rcases hres with ⟨_, hnf, hw⟩ | ⟨h, _⟩
          · have hlen : rest.length + 1 + (if ([] : List IoVec) = [] then 0 else 1) ≤ n := by
              have h6 : subs.length = taken.length + rest.length := by rw [h2]; simp
              by_cases h : vec = []
              · have h7 := (h5 h hs).2
                have : taken.length ≠ 0 := fun h0 => h7 (List.length_eq_zero_iff.mp h0)
                simp only [h, if_true] at hn ⊢
                omega
              · simp only [h, if_true, if_false] at hn ⊢
                omega
            have hall' : ∀ s ∈ rest, HasBytes s.pTopicFilter s.topicFilterLength.toNat :=
              fun s hs' => hall s (by rw [h2]; exact List.mem_append_right _ hs')
            refine wp_mono (ih [] [] rest hall' VecBytes.nil hlen (fun h => absurd rfl h) w1) ?_ ?_ (fun _ h => h)
            · rintro st w2 ⟨es2, hd2, hr2⟩
              refine ⟨es ++ es2, hd.trans hd2 (fun h => by rw [hnf] at h; cases h), ?_⟩
              rcases hr2 with ⟨h, h', h''⟩ | ⟨h, hp⟩
              · exact Or.inl ⟨h, by rw [hasFail_append, hnf, h']; rfl, by rw [wire_append, hw, h'']; simp⟩
              · refine Or.inr ⟨h, ?_⟩
                rw [wire_append, hw]
                exact prefix_append_ne (by simpa using hp)
            · rintro w2 ⟨es2, hd2, hp⟩
              refine ⟨es ++ es2, hd.trans hd2 (fun h => by rw [hnf] at h; cases h), ?_⟩
              rw [wire_append, hw]
              exact (List.prefix_append_right_inj _).mpr (by simpa using hp)
          · cases h
      · rintro w1 ⟨es, hd, hp⟩
        exact ⟨es, hd, hp.trans (List.prefix_append _ _)⟩

/-- SUBSCRIBE / UNSUBSCRIBE. -/
theorem sendFiltersWithoutCopy_spec (g : Cfg) (ty : SubType) (subs : List SubscribeInfo) (id : UInt16) (w : World)
    (hall : ∀ s ∈ subs, HasBytes s.pTopicFilter s.topicFilterLength.toNat) (hmax : perTopicVectors ty ≤ g.subUnsubMaxVectors)
    (hne : subs ≠ []) (hl : (subBody ty id subs).length ≤ 268435455) :
    wp (sendFiltersWithoutCopy g ty subs id (subBody ty id subs).length) (SendsQ w (subPacket ty id subs)) (SendsE w (subPacket ty id subs))
      (fun _ => False) w := by
  unfold sendFiltersWithoutCopy
  obtain ⟨c, h1, h2, h3⟩ := subscriptionHeader_eq (ty := ty) (id := id) hl
  rw [wp_bind, decide_eq_true hmax, cassert_true, wp_liftRes, wp_bind, h1, wp_liftRes]
  have hv := VecBytes.lit h2
  rw [h3] at hv
  have e : subPacket ty id subs = (subFirst ty ::
      (varInt (subBody ty id subs).length ++ be16 id.toNat)) ++ subs.flatMap (filterBytes ty) := by
    rw [subPacket_eq, packet]
    cases ty <;> simp [subFirst] <;> exact subBody_eq _ _ _
  rw [e]
  exact sendFiltersLoop_spec g ty _ _ _ subs hall hmax hv (by rw [if_neg (by simp)]; exact Nat.le_refl _) (fun _ => hne) w

/-- CONNECT. -/
theorem sendConnectWithoutCopy_spec (g : Cfg) (ci : ConnectInfo) (will : Option PublishInfo) (r s : Nat) (w : World)
    (hs : getConnectPacketSize (some ci) will = ⟨.success, r, s⟩) (hv : ci.Valid will) :
    wp (sendConnectWithoutCopy g ci will r)
      (fun st w' => (∃ x, will = some x ∧ x.pTopicName = none) ∧ st = .badParameter ∧ w' = w ∨
        (∀ x, will = some x → x.pTopicName ≠ none) ∧ SendsQ w (connectPacket (ci.toSpec will)) st w')
      (fun w' => (∀ x, will = some x → x.pTopicName ≠ none) ∧ SendsE w (connectPacket (ci.toSpec will)) w') (fun _ => False) w := by
  unfold sendConnectWithoutCopy
  rw [wp_ite]
  have hany : will.any (fun w => w.pTopicName.isNone) = true ↔ ∃ x, will = some x ∧ x.pTopicName = none := by
    cases will <;> simp
  constructor
  · intro h
    exact Or.inl ⟨hany.mp h, rfl, rfl⟩
  · intro h
    have hw : ∀ x, will = some x → x.pTopicName ≠ none := fun x hx hn => h (hany.mpr ⟨x, hx, hn⟩)
    obtain ⟨vec, h1, h2, h3⟩ := connectVectors_bytes hs hv hw
    rw [wp_bind, h1, wp_liftRes]
    exact wp_mono (sendWholeVector_spec g vec _ h2 h3 w) (fun _ _ h => Or.inr ⟨hw, h⟩) (fun _ h => ⟨hw, h⟩) (fun _ h => h)

theorem updateHeaderDup_set (h : UInt8) (rest : List UInt8) (f : Bool → UInt8)
    (hf : h = f false) (h1 : updateDuplicatePublishFlag (some (f false)) true = (.success, some (f true)))
    : updateHeaderDup (h :: rest) true = (.success, f true :: rest) := by
  subst hf
  simp [updateHeaderDup, h1]

/-- Setting and clearing the DUP flag in a PUBLISH header. -/
theorem dupFlag_set (q : QoS) (r : Bool) (hq : q ≠ .qos0) :
    updateDuplicatePublishFlag (some (UInt8.ofNat (publishFirst false q.toFin r))) true =
      (.success, some (UInt8.ofNat (publishFirst true q.toFin r))) ∧
    updateDuplicatePublishFlag (some (UInt8.ofNat (publishFirst true q.toFin r))) false =
      (.success, some (UInt8.ofNat (publishFirst false q.toFin r))) := by
  cases q with
  | qos0 => exact absurd rfl hq
  | qos1 => cases r <;> decide
  | qos2 => cases r <;> decide

/-- The world after a call of the store callback. -/
def afterStore (w : World) (id : UInt16) (vec : List IoVec) (ok : Bool) (rest : List Bool) : World :=
  { w with env := { w.env with stores := rest }, trace := w.trace ++ [.store id vec ok] }

/-- Storing a publish: the store callback gets the packet with DUP set, once; the header array is as before on success. -/
theorem storePublish_spec (p : PublishInfo) (id : UInt16) (zs : List UInt8) (n : Nat) (hq : p.qos ≠ .qos0) (w : World) :
    let hdr := fun d => UInt8.ofNat (publishFirst d p.qos.toFin p.retain) :: zs
    wp (storePublish p (hdr p.dup) n id)
      (fun r w' => ∃ ok rest, w.env.stores = ok :: rest ∧
        w' = afterStore w id (publishVectors p (hdr true) n id) ok rest ∧
        r.1 = (if ok then .success else .publishStoreFailed) ∧ (ok = true → r.2 = hdr p.dup))
      (fun w' => w' = w ∧ w.env.stores = []) (fun _ => False) w := by
  intro hdr
  unfold storePublish
  have hs := dupFlag_set p.qos p.retain hq
  have hu1 : updateHeaderDup (hdr false) true = (.success, hdr true) := by simp [updateHeaderDup, hdr, hs.1]
  have hu2 : updateHeaderDup (hdr true) false = (.success, hdr false) := by simp [updateHeaderDup, hdr, hs.2]
  have h1 : (if p.dup then (Status.success, hdr p.dup) else updateHeaderDup (hdr p.dup) true) = (.success, hdr true) := by
    cases hd : p.dup
    · simp [hu1]
    · simp
  rw [h1]
  show wp (if Status.success ≠ .success then _ else _) _ _ _ w
  rw [if_neg (by simp), wp_bind]
  unfold wp storeCallback
  cases hc : w.env.stores with
  | nil => exact ⟨rfl, rfl⟩
  | cons ok rest =>
    cases ok with
    | false => exact ⟨false, rest, rfl, rfl, rfl, by simp⟩
    | true =>
      show wp (if true = false then _ else _) _ _ _ _
      rw [if_neg (by simp)]
      cases hd : p.dup with
      | true => exact ⟨true, rest, rfl, rfl, rfl, fun _ => rfl⟩
      | false =>
        rw [if_neg (by simp), wp_pure, hu2]
        exact ⟨true, rest, rfl, rfl, rfl, fun _ => rfl⟩

/-- PUBLISH: if a copy is to be stored, the store callback gets the packet with DUP set before anything is sent; only if it accepts is the packet
sent. -/
theorem sendPublishWithoutCopy_spec (g : Cfg) (p : PublishInfo) (id : UInt16) (zs : List UInt8) (w : World) (hv : p.Valid)
    (ht : p.pTopicName ≠ none) (hpl : p.pPayload ≠ none ∨ p.payloadLength = 0) :
    let hdr := fun d => UInt8.ofNat (publishFirst d p.qos.toFin p.retain) :: (varInt (pubLen p) ++ be16 p.topicNameLength.toNat ++ zs)
    let n := 1 + (varInt (pubLen p)).length + 2
    wp (sendPublishWithoutCopy g p (hdr p.dup) n id)
      (fun st w' =>
        (¬ (p.qos ≠ .qos0 ∧ w.ctx.retransmits = true) ∧ SendsQ w (publishPacket (p.toSpec id)) st w') ∨
        (p.qos ≠ .qos0 ∧ w.ctx.retransmits = true ∧ ∃ ok rest, w.env.stores = ok :: rest ∧
          (ok = false ∧ st = .publishStoreFailed ∧ w' = afterStore w id (publishVectors p (hdr true) n id) ok rest ∨
           ok = true ∧ SendsQ (afterStore w id (publishVectors p (hdr true) n id) ok rest) (publishPacket (p.toSpec id)) st w')))
      (fun w' => SendsE w (publishPacket (p.toSpec id)) w' ∨
        (p.qos ≠ .qos0 ∧ ∃ rest, w.env.stores = true :: rest ∧
          SendsE (afterStore w id (publishVectors p (hdr true) n id) true rest) (publishPacket (p.toSpec id)) w'))
      (fun _ => False) w := by
  intro hdr n
  have hvec := publishVectors_bytes (id := id) (zs := zs) (dup := p.dup) hv ht hpl
  have hvec : VecBytes (publishVectors p (hdr p.dup) n id) (publishPacket (p.toSpec id)) := hvec
  have hne : publishVectors p (hdr p.dup) n id ≠ [] := by simp [publishVectors]
  unfold sendPublishWithoutCopy
  rw [wp_bind, wp_getCtx, wp_bind, wp_ite]
  constructor
  · intro hc
    have hss := storePublish_spec p id (varInt (pubLen p) ++ be16 p.topicNameLength.toNat ++ zs) n hc.1 w
    refine wp_mono hss ?_ ?_ (fun _ h => h)
    · rintro ⟨st, hd⟩ w' ⟨ok, rest, h1, h2, h3, h4⟩
      subst h2
      show wp (if st ≠ .success then pure st else _) _ _ _ _
      cases ok with
      | false =>
        have h3 : st = .publishStoreFailed := h3
        subst h3
        exact Or.inr ⟨hc.1, hc.2, false, rest, h1, Or.inl ⟨rfl, rfl, rfl⟩⟩
      | true =>
        have h3 : st = .success := h3
        have h5 : hd = hdr p.dup := h4 rfl
        rw [h3, h5]
        rw [if_neg (by simp)]
        refine wp_mono (sendWholeVector_spec g _ _ hvec hne _) ?_ ?_ (fun _ h => h)
        · intro st w' h
          exact Or.inr ⟨hc.1, hc.2, true, rest, h1, Or.inr ⟨rfl, h⟩⟩
        · intro w' h
          exact Or.inr ⟨hc.1, rest, h1, h⟩
    · rintro w' ⟨rfl, _⟩
      exact Or.inl ⟨[], SendDelta.refl w', List.nil_prefix⟩
  · intro hc
    rw [wp_pure]
    show wp (if Status.success ≠ .success then _ else _) _ _ _ _
    rw [if_neg (by simp)]
    exact wp_mono (sendWholeVector_spec g _ _ hvec hne _) (fun _ _ h => Or.inl ⟨hc, h⟩) (fun _ h => Or.inl h) (fun _ h => h)

end Mqtt
