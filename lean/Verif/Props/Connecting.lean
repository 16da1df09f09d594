/-
C85: a connection that can be made is made.
-/
import Verif.Spec.Connecting
import Verif.Props.Causes
import Verif.Props.Session

namespace Mqtt
open Spec

private theorem cut {g : Cfg} {ci : ConnectInfo} {will : Option PublishInfo} {t : UInt32} {sp0 sp : Bool} {s : InFlight} {w w' : World}
    {st : Status} {es : List Event} (h : ConnectDone g ci will t sp0 s w st sp es w') (hn : w.ctx.connectStatus = .notConnected) (ha : ConnectArgsOk ci will)
    (hb : 2 ≤ w.ctx.bufSize) (hf : hasFail es = false) {f c : UInt8} {more rest : List UInt8} (hs : received es ++ more = 0x20 :: 2 :: f :: c :: rest) :
    received es = [0x20, 2, f, c] ∨ st = .recvFailed ∨ st = .sendFailed ∨
    (received es = [] ∧ wire es = connectPacket (ci.toSpec will)) ∨ headerGap es := by
  have hk0 : ∀ l, hasFail (.pre :: l) = hasFail l := fun l => by simp [hasFail, isFail]
  have key : ∀ (snd ca tail : List Event) (w1 w2 : World) (st' : Status) (sp' : Bool), w1.ctx.bufSize = w.ctx.bufSize → (∀ e ∈ snd, isSendOrTime e = true) →
      (∀ e ∈ tail, isRecvd e = false) → es = .pre :: (snd ++ (ca ++ tail)) → ConnackDone g t ci.cleanSession sp0 w1 st' sp' ca w2 →
      received es = [0x20, 2, f, c] ∨ st' = .recvFailed ∨ received es = [] ∨ headerGap es := by
    intro snd ca tail w1 w2 st' sp' hbs h4 ht he hd
    have hca : hasFail ca = false := by
      rw [he, hk0, hasFail_append, hasFail_append] at hf
      simp only [Bool.or_eq_false_iff] at hf
      exact hf.2.1
    have hrec : received es = received ca := by
      rw [he, (received_hook _).1, received_append, received_of_noRecv (noRecv_of_send h4), received_append, received_of_noRecv ht]; simp
    rw [hrec] at hs ⊢
    rcases hd.cut more f c rest hs (by rw [hbs]; exact hb) hca with h | h | h | h
    · exact Or.inl h
    · exact Or.inr (Or.inl h)
    · exact Or.inr (Or.inr (Or.inl h))
    · refine Or.inr (Or.inr (Or.inr ?_))
      have := h.app (.pre :: snd) tail
      rw [he]
      simpa [headerGap, Gap] using this
  have whole : ∀ (snd ca tail : List Event) (w1 w2 : World) (sp' : Bool), (∀ e ∈ snd, isSendOrTime e = true) →
      (∀ e ∈ tail, isRecvd e = false) → es = .pre :: (snd ++ (ca ++ tail)) → ConnackDone g t ci.cleanSession sp0 w1 .success sp' ca w2 →
      received es = [0x20, 2, f, c] := by
    intro snd ca tail w1 w2 sp' h4 ht he hd
    have hrec : received es = received ca := by
      rw [he, (received_hook _).1, received_append, received_of_noRecv (noRecv_of_send h4), received_append, received_of_noRecv ht]; simp
    rw [hrec] at hs ⊢
    rcases (hd.accept.mp rfl).2.2 with h | ⟨h, _⟩
    all_goals
      rw [h] at hs ⊢
      simp only [List.cons_append, List.nil_append, List.cons.injEq, true_and] at hs
      rw [← hs.1, ← hs.2.1]
  have args : (getConnectPacketSize (some ci) will).status = .success := (connectSize_iff ci will).mpr ⟨ha.client, fun x hx => (ha.will x hx).2⟩
  cases h with
  | badSize h1 h2 h3 => exact absurd args (h2 ▸ h1)
  | already h1 h2 h3 h4 => exact absurd hn h2
  | noTopic h1 h2 h3 h4 =>
    obtain ⟨x, hx, hy⟩ := h3
    exact absurd hy (ha.will x hx).1
  | notSent h1 h2 h3 h4 h5 h6 h7 => exact Or.inr (Or.inr (Or.inl rfl))
  | @notAccepted _ _ snd ca w1 w2 _ _ h1 h2 h3 h4 h5 h6 h7 h8 h9 h10 =>
    rcases key snd ca _ w1 w2 _ _ (by rw [h7]; rfl) h4 (by decide) rfl h8 with h | h | h | h
    · exact Or.inl h
    · exact Or.inr (Or.inl h)
    · refine Or.inr (Or.inr (Or.inr (Or.inl ⟨h, ?_⟩)))
      rw [wire_cons_of_noSent _ _ rfl, wire_append, wire_append, wire_of_recv h8.recv]
      rcases h6 with ⟨_, _, h6⟩ | ⟨h6, _⟩
      · rw [h6]; simp [wire]
      · cases h6
    · exact Or.inr (Or.inr (Or.inr (Or.inr h)))
  | @fresh snd ca w1 w2 _ _ h1 h2 h3 h4 h5 h6 h7 h8 h9 =>
    have ht : ∀ e ∈ cleanClears w.ctx.retransmits s ++ [.post], isRecvd e = false := by
      intro e he
      rcases List.mem_append.mp he with he | he
      · exact noRecv_clears _ _ e he
      · rw [List.mem_singleton.mp he]; rfl
    exact Or.inl (whole snd ca _ w1 w2 _ h4 ht rfl h8)
  | @resumed st snd ca res w1 w2 w3 w4 _ _ h1 h2 h3 h4 h5 h6 h7 h8 h9 h10 h11 h12 =>
    have ht : ∀ e ∈ .post :: (res ++ if st = .success then [] else [.pre, .post]), isRecvd e = false := by
      intro e he
      rcases List.mem_cons.mp he with rfl | he
      · rfl
      rcases List.mem_append.mp he with he | he
      · have := h11.facts.1 e he
        cases e <;> simp_all [isResendEvent, isRecvd]
      · split at he
        · cases he
        · simp only [List.mem_cons, List.not_mem_nil, or_false] at he
          rcases he with rfl | rfl <;> rfl
    exact Or.inl (whole snd ca _ w1 w2 _ h4 ht rfl h8)

/-- The events of a call in which the transport did not fail. -/
private theorem noFail {es : List Event} (h1 : ¬ sendError es) (h2 : ¬ recvError es) : hasFail es = false := by
  unfold hasFail
  rw [List.any_eq_false]
  intro x hx
  cases x <;> simp only [isFail, Bool.false_eq_true, not_false_eq_true]
  case sent b a =>
    cases a with
    | none => exact absurd ⟨b, hx⟩ h1
    | some => simp
  case recvd n a =>
    cases a with
    | none => exact absurd ⟨n, hx⟩ h2
    | some => simp

private theorem arrives {g : Cfg} {h : List (ApiCall × ApiRet)} {w w' : World} (hh : FromInit g h w) {e : Env} {ci : ConnectInfo} {will : Option PublishInfo}
    {t : UInt32} {sp0 : Bool} {r : ApiRet} (hv : ci.Valid will) (hn : w.ctx.connectStatus = .notConnected) (ha : ConnectArgsOk ci will) (hb : 2 ≤ w.ctx.bufSize)
    (hc : callIn g w e (.connect (some ci) will t (some sp0)) = .done r w') {f c : UInt8} {rest : List UInt8} (hin : e.input = 0x20 :: 2 :: f :: c :: rest)
    (hno : ¬ connectHindered g t (callEvents g w e (.connect (some ci) will t (some sp0)))) :
    received (callEvents g w e (.connect (some ci) will t (some sp0))) = [0x20, 2, f, c] ∧ hasFail (callEvents g w e (.connect (some ci) will t (some sp0))) = false ∧
    r.code ≠ some .sendFailed := by
  have hv' : ValidCall g (.connect (some ci) will t (some sp0)) := fun c h => by cases h; exact hv
  unfold connectHindered at hno
  simp only [not_or] at hno
  obtain ⟨n1, n2, n3, n4, n5, n6⟩ := hno
  have hf := noFail n1 n3
  have hns : r.code ≠ some .sendFailed := fun h => by
    rcases C64_send hh hv' hc h with h | h
    · exact n1 h
    · exact n2 h
  refine ⟨?_, hf, hns⟩
  obtain ⟨hg, hidx, s0, hrep0⟩ := hh.good
  have hstream : received (callEvents g w e (.connect (some ci) will t (some sp0))) ++ w'.env.input = 0x20 :: 2 :: f :: c :: rest := by
    rcases call_cases hg hidx hrep0 e hv' with ⟨r', es, w1, h1, h2, hl, _⟩ | ⟨es, w1, h1, _⟩
    · rw [hc] at h1
      cases h1
      rw [h2, ← hl.stream]
      exact hin
    · rw [hc] at h1; cases h1
  have hnr : r.code ≠ some .recvFailed := fun h => by
    rcases C64_recv hh hv' hc h with h | h | ⟨n, rest', h1, h2, h3⟩
    · exact n3 h
    · exact n4 h
    · rw [h1] at hstream
      have := header_unique (t := 0x20) (t' := 0x20) (n := n) (n' := 2) (a := rest' ++ w'.env.input) (b := f :: c :: rest) h2 (by decide)
        (by rw [varInt_two]; simpa using hstream)
      omega
  obtain ⟨s, hrep, ⟨st, sp, es, w1, h1, h2, hd⟩ | ⟨es, w1, h1, h2, hd⟩⟩ := connect_cases hh e ci will t sp0 hv
  · rw [hc] at h1
    cases h1
    rw [h2] at hf hstream n5 n6 ⊢
    rcases cut hd hn ha hb hf hstream with h | h | h | ⟨h, h'⟩ | h
    · exact h
    · exact absurd (congrArg some h) hnr
    · exact absurd (congrArg some h) hns
    · exfalso
      obtain ⟨k1, k2, k3⟩ := (hd.silent hn h' h hf).2
      refine n5 ⟨h, k2, fun ht => ?_⟩
      obtain ⟨a, t0, b, t1, k4, k5, k6⟩ := k3 ht
      refine ⟨a, t0, b, t1, [.post, .pre, .post], k4, fun x hx => ?_, k6⟩
      rcases List.mem_append.mp hx with hx | hx
      · exact k5 x hx
      · simp only [List.mem_cons, List.not_mem_nil, or_false] at hx
        rcases hx with rfl | rfl | rfl <;> rfl
    · exact absurd h n6
  · rw [hc] at h1; cases h1

/-- **C85** The server accepts, with or without session.  `MQTT_Connect` connects unless the environment hindered it or, with a session to be resumed, the application did not find a
copy. -/
theorem C85_connects {g : Cfg} {h : List (ApiCall × ApiRet)} {w w' : World} (hh : FromInit g h w) {e : Env} {ci : ConnectInfo} {will : Option PublishInfo}
    {t : UInt32} {sp0 : Bool} {r : ApiRet} (hv : ci.Valid will) (hn : w.ctx.connectStatus = .notConnected) (ha : ConnectArgsOk ci will) (hb : 2 ≤ w.ctx.bufSize)
    (hc : callIn g w e (.connect (some ci) will t (some sp0)) = .done r w') {sp : Bool} {rest : List UInt8}
    (hin : e.input = [0x20, 2, if sp then 1 else 0, 0] ++ rest) (hcs : ci.cleanSession = true → sp = false)
    (h1 : ¬ connectHindered g t (callEvents g w e (.connect (some ci) will t (some sp0))))
    (h2 : ¬ (sp = true ∧ notRetrieved (callEvents g w e (.connect (some ci) will t (some sp0))))) :
    r = .connect .success (some sp) ∧ w'.ctx.connectStatus = .connected := by
  have hv' : ValidCall g (.connect (some ci) will t (some sp0)) := fun c h => by cases h; exact hv
  obtain ⟨k1, k2, k3⟩ := arrives hh hv hn ha hb hc hin h1
  obtain ⟨a1, a2⟩ := C41_accepted hh e ci will t sp0 r hv hc hb k2
  have hr : r = .connect .success (some sp) := by
    cases sp with
    | false => exact a1 k1
    | true =>
      rcases a2 k1 (by cases hs : ci.cleanSession; rfl; cases hcs hs) with h | ⟨h | h, _⟩
      · exact h
      · rw [h] at k3; exact absurd rfl k3
      · exact absurd ⟨rfl, C64_retrieve hh hv' hc (by rw [h]; rfl)⟩ h2
  refine ⟨hr, ?_⟩
  rw [hr] at hc
  obtain ⟨_, _, _, _, _, _, k, _⟩ := C41_success hh e (some ci) will t (some sp0) _ hv' hc
  exact k

/-- **C85** The server refuses: `MQTT_Connect` says so unless the environment hindered it. -/
theorem C85_refused {g : Cfg} {h : List (ApiCall × ApiRet)} {w w' : World} (hh : FromInit g h w) {e : Env} {ci : ConnectInfo} {will : Option PublishInfo}
    {t : UInt32} {sp0 : Bool} {r : ApiRet} (hv : ci.Valid will) (hn : w.ctx.connectStatus = .notConnected) (ha : ConnectArgsOk ci will) (hb : 2 ≤ w.ctx.bufSize)
    (hc : callIn g w e (.connect (some ci) will t (some sp0)) = .done r w') {code : UInt8} {rest : List UInt8} (hin : e.input = [0x20, 2, 0, code] ++ rest)
    (hcode : 1 ≤ code.toNat ∧ code.toNat ≤ 5) (h1 : ¬ connectHindered g t (callEvents g w e (.connect (some ci) will t (some sp0)))) :
    r.code = some .serverRefused := by
  obtain ⟨k1, k2, _⟩ := arrives hh hv hn ha hb hc hin h1
  exact (C41_refused hh e ci will t sp0 r hv hc).mpr ⟨k2, hb, code, hcode.1, hcode.2, k1⟩

/-! ### Non-vacuity -/

/-- Two clock readings at least `limit` milliseconds apart, the later one in the second place. -/
def Ex.apart (limit : UInt32) : List Event → Bool
  | [] => false
  | .time t0 :: es => es.any (fun | .time t1 => decide (limit ≤ t1 - t0) | _ => false) || Ex.apart limit es
  | _ :: es => Ex.apart limit es

theorem Ex.apart_of {limit t0 t1 : UInt32} {b c : List Event} (hl : limit ≤ t1 - t0) : ∀ a : List Event, Ex.apart limit (a ++ .time t0 :: (b ++ .time t1 :: c)) = true
  | [] => by simp [Ex.apart, hl]
  | x :: a => by
    have := Ex.apart_of (b := b) (c := c) hl a
    cases x <;> simp_all [Ex.apart]

/-- A run in which nothing hindered `MQTT_Connect`. -/
theorem Ex.unhindered {g : Cfg} {t : UInt32} {es : List Event} (h1 : Ex.apart g.sendTimeoutMs es = false)
    (h2 : es.all (fun | .sent _ none => false | .recvd _ none => false | .recvd _ (some []) => false | _ => true) = true) (h3 : received es ≠ []) :
    ¬ connectHindered g t es := by
  have hm : ∀ x ∈ es, (match x with | .sent _ none => false | .recvd _ none => false | .recvd _ (some []) => false | _ => true) = true := List.all_eq_true.mp h2
  rintro (⟨b, h⟩ | ⟨a, t0, b, r, c, t1, d, h, _, hl⟩ | ⟨n, h⟩ | ⟨a, t0, n, b, t1, c, h, _⟩ | ⟨h, _⟩ | ⟨a, x, b, h⟩)
  · cases hm _ h
  · rw [h] at h1
    have := Ex.apart_of (b := .sent b r :: c) (c := d) hl a
    rw [List.cons_append] at this
    rw [this] at h1
    cases h1
  · cases hm _ h
  · cases hm (.recvd n (some [])) (by rw [h]; simp)
  · exact h3 h
  · cases hm (.recvd 1 (some [])) (by rw [h]; simp)

/-- The server of Props/Example.lean accepts and has a session; all hypotheses hold. -/
example : ∃ w', callIn Ex.g Ex.w0 (Ex.env [0x20, 2, 1, 0]) Ex.connectCall = .done (.connect .success (some true)) w' := by
  have h0 : FromInit Ex.g [] Ex.w0 := Ex.played_fromInit (steps := []) (by simp) rfl
  have h1 : (Ex.ret (callIn Ex.g Ex.w0 (Ex.env [0x20, 2, 1, 0]) Ex.connectCall)).isSome = true := by decide +kernel
  obtain ⟨r, hr⟩ := Option.isSome_iff_exists.mp h1
  have hd := Ex.ret_done hr
  have h2 := C85_connects h0 Ex.ciValid rfl ⟨by decide, fun _ h => by cases h⟩ (by decide) hd (sp := true) (rest := []) rfl (by decide)
    (Ex.unhindered (by decide +kernel) (by decide +kernel) (by decide +kernel)) (by
      rintro ⟨_, id, h⟩
      have h3 : (callEvents Ex.g Ex.w0 (Ex.env [0x20, 2, 1, 0]) Ex.connectCall).all (fun | .retrieve _ none => false | _ => true) = true := by decide +kernel
      cases List.all_eq_true.mp h3 _ h)
  rw [h2.1] at hd
  exact ⟨_, hd⟩

/-- The server refuses with code 5. -/
example : ∀ r w', callIn Ex.g Ex.w0 (Ex.env [0x20, 2, 0, 5]) Ex.connectCall = .done r w' → r.code = some .serverRefused := fun r w' hd =>
  C85_refused (Ex.played_fromInit (steps := []) (by simp) rfl : FromInit Ex.g [] Ex.w0) Ex.ciValid rfl ⟨by decide, fun _ h => by cases h⟩ (by decide) hd (code := 5) (rest := []) rfl (by decide)
    (Ex.unhindered (by decide +kernel) (by decide +kernel) (by decide +kernel))

/-- **C85** The last kind of hindrance is needed.  The server accepts, the transport works and no time passes; but when the client asks for the second byte of the CONNACK it
has not arrived yet.  `MQTT_Connect` reports a malformed answer, although more than 900 ms of its timeout are left, and the rest of the CONNACK stays in the transport. -/
theorem C85_gap : ∃ (g : Cfg) (w w' : World) (e : Env), FromInit g [] w ∧ e.input = [0x20, 2, 0, 0] ∧
    callIn g w e Ex.connectCall = .done (.connect .badResponse (some true)) w' ∧ w'.env.input = [2, 0, 0] ∧ w'.ctx.connectStatus = .notConnected ∧
    ¬ sendError (callEvents g w e Ex.connectCall) ∧ ¬ recvError (callEvents g w e Ex.connectCall) ∧ Ex.apart 100 (callEvents g w e Ex.connectCall) = false := by
  refine ⟨Ex.g, Ex.w0, (callIn Ex.g Ex.w0 { Ex.env [0x20, 2, 0, 0] with recvs := [.deliver 2, .deliver 0, .deliver 4] } Ex.connectCall).world,
    { Ex.env [0x20, 2, 0, 0] with recvs := [.deliver 2, .deliver 0, .deliver 4] }, Ex.played_fromInit (steps := []) (by simp) rfl, rfl, ?_, by decide +kernel, by decide +kernel, ?_, ?_,
    by decide +kernel⟩
  · exact Ex.ret_done (by decide +kernel)
  all_goals
    rintro ⟨b, h⟩
    have h3 : (callEvents Ex.g Ex.w0 { Ex.env [0x20, 2, 0, 0] with recvs := [.deliver 2, .deliver 0, .deliver 4] } Ex.connectCall).all
      (fun | .sent _ none => false | .recvd _ none => false | _ => true) = true := by decide +kernel
    cases List.all_eq_true.mp h3 _ h

end Mqtt
