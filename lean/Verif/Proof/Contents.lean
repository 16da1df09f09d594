/-
What topics, messages, names and passwords consist of has no influence on anything but the bytes sent and stored: a simulation through every
function of core_mqtt.c.
-/
import Verif.Spec.Contents
import Verif.Proof.Senders

namespace Mqtt.Contents
open Spec

/-- Worlds that differ in contents only. -/
structure Alike (w w' : World) : Prop where
  ctx : w'.ctx = w.ctx
  env : blankEnv w'.env = blankEnv w.env
  trace : w'.trace.map blankEvent = w.trace.map blankEvent

/-- The same way of ending, with related results. -/
inductive OutRel {α β : Type} (R : α → β → Prop) : Out α → Out β → Prop
  | done {a : α} {b : β} {w w' : World} : R a b → Alike w w' → OutRel R (.done a w) (.done b w')
  | stuck {w w' : World} : Alike w w' → OutRel R (.stuck w) (.stuck w')
  | ub {e : UB} {w w' : World} : Alike w w' → OutRel R (.ub e w) (.ub e w')

def Sim {α β : Type} (R : α → β → Prop) (m : M α) (m' : M β) : Prop := ∀ w w', Alike w w' → OutRel R (m w) (m' w')

/-- Equal results. -/
def SameRes {α : Type} (x x' : α) : Prop := x' = x

abbrev SimE {α : Type} (m m' : M α) : Prop := Sim SameRes m m'

theorem blankBytes_length (bs : List UInt8) : (blankBytes bs).length = bs.length := List.length_replicate

theorem blankBytes_eq {a b : List UInt8} : blankBytes a = blankBytes b ↔ a.length = b.length := by
  refine ⟨fun h => ?_, fun h => by unfold blankBytes; rw [h]⟩
  have := congrArg List.length h
  rwa [blankBytes_length, blankBytes_length] at this

theorem blankBytes_twice (bs : List UInt8) : blankBytes (blankBytes bs) = blankBytes bs := blankBytes_eq.2 (blankBytes_length bs)

theorem blankPtr_twice (p : Ptr) : blankPtr (blankPtr p) = blankPtr p := by
  cases p with
  | none => rfl
  | some bs => exact congrArg some (blankBytes_twice bs)

theorem blankPtr_none {p : Ptr} : blankPtr p = none ↔ p = none := by cases p <;> simp [blankPtr]

theorem alike_emit {w w' : World} (h : Alike w w') {e e' : Event} (he : blankEvent e' = blankEvent e) :
    (w'.trace ++ [e']).map blankEvent = (w.trace ++ [e]).map blankEvent := by
  rw [List.map_append, List.map_append, h.trace]
  simp [he]

theorem env_parts {e e' : Env} (h : blankEnv e' = blankEnv e) : e'.sends = e.sends ∧ e'.recvs = e.recvs ∧ e'.input = e.input ∧ e'.clock = e.clock ∧
    e'.stores = e.stores ∧ e'.retrieves.map (Option.map blankBytes) = e.retrieves.map (Option.map blankBytes) := by
  cases e; cases e'
  simpa [blankEnv] using h

theorem env_join {e e' : Env} (h1 : e'.sends = e.sends) (h2 : e'.recvs = e.recvs) (h3 : e'.input = e.input) (h4 : e'.clock = e.clock)
    (h5 : e'.stores = e.stores) (h6 : e'.retrieves.map (Option.map blankBytes) = e.retrieves.map (Option.map blankBytes)) : blankEnv e' = blankEnv e := by
  cases e; cases e'
  simp only at h1 h2 h3 h4 h5 h6
  simp only [blankEnv, h1, h2, h3, h4, h5, h6]

section
variable {α β γ ε : Type}

theorem sim_bind {R : α → β → Prop} {S : γ → ε → Prop} {m : M α} {m' : M β} {f : α → M γ} {f' : β → M ε}
    (hm : Sim R m m') (hf : ∀ a a', R a a' → Sim S (f a) (f' a')) : Sim S (m >>= f) (m' >>= f') := by
  intro w w' h
  show OutRel S (M.bind m f w) (M.bind m' f' w')
  have hr := hm w w' h
  unfold M.bind
  generalize m w = x at hr
  generalize m' w' = y at hr
  cases hr with
  | done h1 h2 => exact hf _ _ h1 _ _ h2
  | stuck h1 => exact .stuck h1
  | ub h1 => exact .ub h1

theorem simE_bind {S : γ → ε → Prop} {m m' : M α} {f : α → M γ} {f' : α → M ε}
    (hm : SimE m m') (hf : ∀ a, Sim S (f a) (f' a)) : Sim S (m >>= f) (m' >>= f') :=
  sim_bind hm fun a a' h => by cases h; exact hf _

theorem simE_pure (a : α) : SimE (pure a) (pure a) := fun _ _ h => .done rfl h
theorem simE_stuck : SimE (stuckM : M α) stuckM := fun _ _ h => .stuck h
theorem simE_ub (e : UB) : SimE (ubM e : M α) (ubM e) := fun _ _ h => .ub h
theorem simE_lift (x : Res α) : SimE (liftRes x) (liftRes x) := by
  cases x with
  | ok a => exact simE_pure a
  | ub e => exact simE_ub e

/-- Computations that fail alike or have related results. -/
inductive ResRel (R : α → β → Prop) : Res α → Res β → Prop
  | ok {a : α} {b : β} : R a b → ResRel R (.ok a) (.ok b)
  | ub {e : UB} : ResRel R (.ub e) (.ub e)

theorem sim_lift {R : α → β → Prop} {x : Res α} {y : Res β} (h : ResRel R x y) : Sim R (liftRes x) (liftRes y) := by
  cases h with
  | ok h => exact fun _ _ hw => .done h hw
  | ub => exact fun _ _ hw => .ub hw

theorem res_bind {R : α → β → Prop} {S : γ → ε → Prop} {x : Res α} {y : Res β} {f : α → Res γ} {f' : β → Res ε} (h : ResRel R x y)
    (hf : ∀ a b, R a b → ResRel S (f a) (f' b)) : ResRel S (x >>= f) (y >>= f') := by
  cases h with
  | ok h => exact hf _ _ h
  | ub => exact .ub

theorem res_refl (x : Res α) : ResRel SameRes x x := by
  cases x with
  | ok a => exact .ok rfl
  | ub e => exact .ub

theorem sim_ctx {S : γ → ε → Prop} {f : Ctx → M γ} {f' : Ctx → M ε} (hf : ∀ c, Sim S (f c) (f' c)) :
    Sim S (getCtx >>= f) (getCtx >>= f') := fun w w' h => by
  have hx := hf w.ctx w w' h
  show OutRel S (f w.ctx w) (f' w'.ctx w')
  rw [h.ctx]
  exact hx

theorem sim_modify (f : Ctx → Ctx) : SimE (modifyCtx f) (modifyCtx f) := fun _ _ h => .done rfl ⟨congrArg f h.ctx, h.env, h.trace⟩

theorem sim_emit (e : Event) : SimE (emit e) (emit e) := fun _ _ h => .done rfl ⟨h.ctx, h.env, alike_emit h rfl⟩

theorem sim_pre : SimE preHook preHook := sim_emit _
theorem sim_post : SimE postHook postHook := sim_emit _
theorem sim_app (pk : PacketInfo) (id : UInt16) (st : Status) (p : Option PublishInfo) :
    SimE (appCallback pk id st p) (appCallback pk id st p) := sim_emit _
theorem sim_clear (id : UInt16) : SimE (clearCallback id) (clearCallback id) := sim_emit _

theorem sim_getTime : SimE getTime getTime := fun w w' h => by
  obtain ⟨h1, h2, h3, h4, h5, h6⟩ := env_parts h.env
  unfold getTime
  cases hc : w.env.clock with
  | nil => rw [h4, hc]; exact .stuck h
  | cons t rest =>
    rw [h4, hc]
    exact .done rfl ⟨h.ctx, env_join h1 h2 h3 rfl h5 h6, alike_emit h rfl⟩

theorem sim_time {S : γ → ε → Prop} {f : UInt32 → M γ} {f' : UInt32 → M ε} (hf : ∀ t, Sim S (f t) (f' t)) :
    Sim S (getTime >>= f) (getTime >>= f') :=
  simE_bind sim_getTime hf

/-- The transport's answer does not depend on the contents. -/
theorem sim_send {bs bs' : List UInt8} (hl : bs'.length = bs.length) : SimE (transportSend bs) (transportSend bs') := fun w w' h => by
  obtain ⟨h1, h2, h3, h4, h5, h6⟩ := env_parts h.env
  have hb : blankBytes bs' = blankBytes bs := blankBytes_eq.2 hl
  unfold transportSend
  cases hc : w.env.sends with
  | nil => rw [h1, hc]; exact .stuck h
  | cons x rest =>
    rw [h1, hc]
    cases x with
    | fail => exact .done rfl ⟨h.ctx, env_join rfl h2 h3 h4 h5 h6, alike_emit h (by simp only [blankEvent, hb])⟩
    | accept n =>
      rw [hl]
      exact .done rfl ⟨h.ctx, env_join rfl h2 h3 h4 h5 h6, alike_emit h (by simp only [blankEvent, hb])⟩

theorem sim_recv (n : Nat) : SimE (transportRecv n) (transportRecv n) := fun w w' h => by
  obtain ⟨h1, h2, h3, h4, h5, h6⟩ := env_parts h.env
  unfold transportRecv
  cases hc : w.env.recvs with
  | nil => rw [h2, hc]; exact .stuck h
  | cons x rest =>
    rw [h2, hc]
    cases x with
    | fail => exact .done rfl ⟨h.ctx, env_join h1 rfl h3 h4 h5 h6, alike_emit h rfl⟩
    | deliver m =>
      rw [h3]
      exact .done rfl ⟨h.ctx, env_join h1 rfl rfl h4 h5 h6, alike_emit h rfl⟩

theorem sim_store (id : UInt16) {v v' : List IoVec} (hv : v'.map blankVec = v.map blankVec) : SimE (storeCallback id v) (storeCallback id v') := fun w w' h => by
  obtain ⟨h1, h2, h3, h4, h5, h6⟩ := env_parts h.env
  unfold storeCallback
  cases hc : w.env.stores with
  | nil => rw [h5, hc]; exact .stuck h
  | cons x rest =>
    rw [h5, hc]
    exact .done rfl ⟨h.ctx, env_join h1 h2 h3 h4 rfl h6, alike_emit h (by simp only [blankEvent, hv])⟩

/-- The copies that are returned have the same lengths. -/
def SameSize (x x' : Option (List UInt8)) : Prop := x'.map blankBytes = x.map blankBytes

theorem sim_retrieve (id : UInt16) : Sim SameSize (retrieveCallback id) (retrieveCallback id) := fun w w' h => by
  obtain ⟨h1, h2, h3, h4, h5, h6⟩ := env_parts h.env
  unfold retrieveCallback
  cases hc : w.env.retrieves with
  | nil =>
    rw [hc] at h6
    rw [List.map_eq_nil_iff.1 h6]
    exact .stuck h
  | cons x rest =>
    rw [hc] at h6
    cases hc' : w'.env.retrieves with
    | nil => rw [hc'] at h6; cases h6
    | cons x' rest' =>
      rw [hc'] at h6
      have hx : x'.map blankBytes = x.map blankBytes := (List.cons.inj h6).1
      exact .done hx ⟨h.ctx, env_join h1 h2 h3 h4 h5 (List.cons.inj h6).2, alike_emit h (by simp only [blankEvent, hx])⟩

theorem sim_sendFuel : SimE sendFuel sendFuel := fun w w' h => .done (by rw [(env_parts h.env).1]; rfl) h
theorem sim_recvFuel : SimE recvFuel recvFuel := fun w w' h => .done (by rw [(env_parts h.env).2.1]; rfl) h
theorem sim_clockFuel : SimE clockFuel clockFuel := fun w w' h => .done (by rw [(env_parts h.env).2.2.2.1]; rfl) h

theorem sim_tables (f : Tables → Res (α × Tables)) : SimE (onTables f) (onTables f) := fun w w' h => by
  unfold onTables
  rw [h.ctx]
  cases hf : f w.ctx.tables with
  | ok x => exact .done rfl ⟨rfl, h.env, h.trace⟩
  | ub e => exact .ub h

theorem sim_ite {R : α → β → Prop} {c c' : Prop} {d : Decidable c} {d' : Decidable c'} {a b : M α} {a' b' : M β} (hc : c = c')
    (ha : c → Sim R a a') (hb : ¬ c → Sim R b b') :
    Sim R (@ite _ c d a b) (@ite _ c' d' a' b') := by
  subst hc
  by_cases h : c
  · rw [if_pos h, if_pos h]; exact ha h
  · rw [if_neg h, if_neg h]; exact hb h

theorem sim_markPending : SimE markPending markPending := sim_modify _

syntax "sims" "[" term,* "]" : tactic
macro_rules
  | `(tactic| sims [$[$ts],*]) => `(tactic|
      repeat' (first
        | (with_reducible first
          | (first $[| exact $ts]*)
          | exact simE_pure _ | exact simE_stuck | exact simE_ub _ | exact simE_lift _ | exact sim_pre | exact sim_post
          | exact sim_app .. | exact sim_recv _ | exact sim_modify _ | exact sim_clear _
          | exact sim_tables _ | exact sim_sendFuel | exact sim_recvFuel | exact sim_clockFuel | exact sim_markPending
          | (intro _) | refine sim_ite (by with_reducible rfl) ?_ ?_ | apply sim_ctx | apply sim_time
          | apply simE_bind)
        | refine sim_ite rfl ?_ ?_ | exact simE_lift _ | exact simE_pure _ | (first $[| exact $ts]*)
        | (with_reducible split)))

theorem sim_noteSend (x : Option Nat) : SimE (noteSendResult x) (noteSendResult x) := by
  unfold noteSendResult
  cases x with
  | none => exact sim_markPending
  | some n =>
    dsimp only
    sims [simE_pure _]

theorem sim_sendBufferLoop (g : Cfg) (t0 : UInt32) : ∀ n (rest rest' : List UInt8) sent, rest'.length = rest.length →
    SimE (sendBufferLoop g t0 n rest sent) (sendBufferLoop g t0 n rest' sent)
  | 0, _, _, _, _ => simE_stuck
  | n + 1, rest, rest', sent, hl => by
    unfold sendBufferLoop
    rw [hl]
    sims [sim_send hl, sim_noteSend _, sim_sendBufferLoop g t0 n _ _ _ (by rw [List.length_drop, List.length_drop, hl])]

theorem sim_sendBuffer (g : Cfg) {bs bs' : List UInt8} (hl : bs'.length = bs.length) : SimE (sendBuffer g bs) (sendBuffer g bs') := by
  unfold sendBuffer
  sims [sim_sendBufferLoop g _ _ _ _ _ hl]

/-- Pieces of the same lengths. -/
def SameLengths (v v' : List (List UInt8)) : Prop := v'.map List.length = v.map List.length

theorem SameLengths.flatten {v v' : List (List UInt8)} (h : SameLengths v v') : v'.flatten.length = v.flatten.length := by
  rw [List.length_flatten, List.length_flatten, h]

theorem sameLengths_advance : ∀ (k : Nat) {v v' : List (List UInt8)}, SameLengths v v' → SameLengths (advanceVec k v) (advanceVec k v')
  | _, [], [], _ => rfl
  | _, [], _ :: _, h => by cases h
  | _, _ :: _, [], h => by cases h
  | k, a :: v, a' :: v', h => by
    obtain ⟨h1, h2⟩ := List.cons.inj h
    replace h1 : a'.length = a.length := h1
    unfold advanceVec
    rw [h1]
    split
    · exact sameLengths_advance _ h2
    · show _ :: _ = _ :: _
      rw [List.length_drop, List.length_drop, h1]
      exact congrArg _ h2

theorem offered_rel (b : Bool) {v v' : List (List UInt8)} (h : SameLengths v v') :
    ResRel (fun x x' => x'.length = x.length) (offeredBytes b v) (offeredBytes b v') := by
  unfold offeredBytes
  cases b with
  | true => exact .ok h.flatten
  | false =>
    match v, v', h with
    | [], [], _ => exact .ub
    | a :: _, a' :: _, h => exact .ok (List.cons.inj h).1

theorem sim_sendVecLoop (g : Cfg) (t0 : UInt32) (b : Nat) : ∀ n (vecs vecs' : List (List UInt8)) sent, SameLengths vecs vecs' →
    SimE (sendVecLoop g t0 b n vecs sent) (sendVecLoop g t0 b n vecs' sent)
  | 0, _, _, _, _ => simE_stuck
  | n + 1, vecs, vecs', sent, hv => by
    unfold sendVecLoop
    refine sim_ite rfl (fun _ => ?_) fun _ => simE_pure _
    refine sim_ctx fun c => sim_bind (sim_lift (offered_rel _ hv)) fun bs bs' hl => simE_bind (sim_send hl) fun r => ?_
    sims [sim_noteSend _, sim_sendVecLoop g t0 b n _ _ _ (sameLengths_advance _ hv)]

/-- Vectors that differ in contents only. -/
def SameVec (v v' : List IoVec) : Prop := v'.map blankVec = v.map blankVec

theorem readMem_rel {v v' : IoVec} (h : blankVec v' = blankVec v) :
    ResRel (fun x x' => x'.length = x.length) (readMem v.iov_base v.iov_len) (readMem v'.iov_base v'.iov_len) := by
  obtain ⟨b, n⟩ := v
  obtain ⟨b', n'⟩ := v'
  have h1 : blankPtr b' = blankPtr b := congrArg IoVec.iov_base h
  have h2 : n' = n := congrArg IoVec.iov_len h
  subst h2
  cases b with
  | none =>
    cases b' with
    | none => exact .ub
    | some x => cases h1
  | some x =>
    cases b' with
    | none => cases h1
    | some x' =>
      have hl : x'.length = x.length := blankBytes_eq.1 (Option.some.inj h1)
      show ResRel _ (if n' ≤ x.length then .ok (x.take n') else .ub .oobRead) (if n' ≤ x'.length then .ok (x'.take n') else .ub .oobRead)
      rw [hl]
      split
      · exact .ok (by rw [List.length_take, List.length_take, hl])
      · exact .ub

theorem resolve_rel : ∀ {v v' : List IoVec}, SameVec v v' → ResRel SameLengths (resolveVec v) (resolveVec v')
  | [], [], _ => .ok rfl
  | [], _ :: _, h => by cases h
  | _ :: _, [], h => by cases h
  | a :: v, a' :: v', h => by
    obtain ⟨h1, h2⟩ := List.cons.inj h
    unfold resolveVec
    refine res_bind (readMem_rel h1) fun b b' hb => res_bind (resolve_rel h2) fun bs bs' hbs => .ok ?_
    show _ :: _ = _ :: _
    rw [hb]
    exact congrArg _ hbs

theorem sim_sendMessageVector (g : Cfg) {v v' : List IoVec} (h : SameVec v v') : SimE (sendMessageVector g v) (sendMessageVector g v') := by
  unfold sendMessageVector
  refine sim_bind (sim_lift (resolve_rel h)) fun vs vs' hs => sim_ite ?_ (fun _ => simE_ub _) fun _ => ?_
  · have hl : v'.length = v.length := by
      have := congrArg List.length h
      rwa [List.length_map, List.length_map] at this
    match v, v', hl with
    | [], [], _ => rfl
    | _ :: _, _ :: _, _ => rfl
  · rw [hs.flatten]
    sims [sim_sendVecLoop g _ _ _ _ _ _ hs]

theorem vecLength_same : ∀ {v v' : List IoVec}, SameVec v v' → vecLength v' = vecLength v
  | [], [], _ => rfl
  | [], _ :: _, h => by cases h
  | _ :: _, [], h => by cases h
  | a :: v, a' :: v', h => by
    obtain ⟨h1, h2⟩ := List.cons.inj h
    have h3 : (blankVec a').iov_len = (blankVec a).iov_len := congrArg IoVec.iov_len h1
    replace h3 : a'.iov_len = a.iov_len := h3
    have := vecLength_same h2
    unfold vecLength at this ⊢
    simp only [List.map_cons, List.sum_cons, h3, this]

theorem sim_sendWholeVector (g : Cfg) {v v' : List IoVec} (h : SameVec v v') : SimE (sendWholeVector g v) (sendWholeVector g v') := by
  unfold sendWholeVector
  rw [vecLength_same h]
  sims [sim_sendMessageVector g h]

theorem SameVec.append {a a' b b' : List IoVec} (h : SameVec a a') (k : SameVec b b') : SameVec (a ++ b) (a' ++ b') := by
  unfold SameVec
  rw [List.map_append, List.map_append, h, k]

theorem sameVec_refl (a : List IoVec) : SameVec a a := rfl

theorem sameVec_blank (p : Ptr) (n : Nat) : SameVec [⟨p, n⟩] [⟨blankPtr p, n⟩] := by
  show [_] = [_]
  unfold blankVec
  dsimp only
  rw [blankPtr_twice]

theorem SameVec.length {a a' : List IoVec} (h : SameVec a a') : a'.length = a.length := by
  have := congrArg List.length h
  rwa [List.length_map, List.length_map] at this

theorem encoded_rel (s : Ptr) (n : UInt16) : ResRel SameVec (addEncodedStringToVector s n) (addEncodedStringToVector (blankPtr s) n) := by
  unfold addEncodedStringToVector
  have h1 : (blankPtr s).isSome = s.isSome := by cases s <;> rfl
  rw [h1]
  refine res_bind (res_refl _) fun _ _ _ => ?_
  by_cases hc : s ≠ none ∧ n ≠ 0
  · rw [if_pos hc, if_pos (by rw [Ne, blankPtr_none]; exact hc)]
    exact .ok (SameVec.append (sameVec_refl [_]) (sameVec_blank s _))
  · rw [if_neg hc, if_neg (by rw [Ne, blankPtr_none]; exact hc)]
    exact .ok rfl

theorem filter_rel (ty : SubType) (s : SubscribeInfo) : ResRel SameVec (filterVectors ty s) (filterVectors ty (blankFilter s)) := by
  unfold filterVectors
  refine res_bind (encoded_rel s.pTopicFilter s.topicFilterLength) fun v v' hv => ?_
  cases ty with
  | subscribe => exact .ok (hv.append rfl)
  | unsubscribe => exact .ok hv

/-- The vectors filled so far and the filters left. -/
def SameFill (x x' : List IoVec × List SubscribeInfo) : Prop := SameVec x.1 x'.1 ∧ x'.2 = x.2.map blankFilter

theorem fill_rel (g : Cfg) (ty : SubType) : ∀ (subs : List SubscribeInfo) {v v' : List IoVec}, SameVec v v' →
    ResRel SameFill (fillVectors g ty v subs) (fillVectors g ty v' (subs.map blankFilter))
  | [], v, v', h => .ok ⟨h, rfl⟩
  | s :: rest, v, v', h => by
    rw [List.map_cons]
    unfold fillVectors
    rw [h.length]
    split
    · refine res_bind (filter_rel ty s) fun x x' hx => ?_
      rw [hx.length]
      split
      · exact fill_rel g ty rest (h.append hx)
      · exact .ub
    · exact .ok ⟨h, rfl⟩

theorem sim_sendFiltersLoop (g : Cfg) (ty : SubType) : ∀ n (vec vec' : List IoVec) (subs : List SubscribeInfo), SameVec vec vec' →
    SimE (sendFiltersLoop g ty n vec subs) (sendFiltersLoop g ty n vec' (subs.map blankFilter))
  | 0, _, _, _, _ => simE_stuck
  | n + 1, vec, vec', subs, hv => by
    unfold sendFiltersLoop
    refine sim_ite (by cases subs <;> rfl) (fun _ => simE_pure _) fun _ => ?_
    refine sim_bind (sim_lift (fill_rel g ty subs hv)) fun x x' hx => ?_
    obtain ⟨x1, x2⟩ := x
    obtain ⟨x1', x2'⟩ := x'
    obtain ⟨h1, h2⟩ := hx
    replace h2 : x2' = x2.map blankFilter := h2
    subst h2
    refine simE_bind (sim_sendWholeVector g h1) fun st => ?_
    exact sim_ite rfl (fun _ => simE_pure _) fun _ => sim_sendFiltersLoop g ty n [] [] x2 rfl

theorem sim_sendFilters (g : Cfg) (ty : SubType) (subs : List SubscribeInfo) (id : UInt16) (n : Nat) :
    SimE (sendFiltersWithoutCopy g ty subs id n) (sendFiltersWithoutCopy g ty (subs.map blankFilter) id n) := by
  unfold sendFiltersWithoutCopy
  rw [List.length_map]
  sims [sim_sendFiltersLoop g ty _ _ _ _ rfl]

theorem publishVectors_same (p : PublishInfo) (hd : List UInt8) (n : Nat) (id : UInt16) :
    SameVec (publishVectors p hd n id) (publishVectors (blankPublish p) hd n id) := by
  unfold publishVectors
  refine (SameVec.append (SameVec.append (SameVec.append (sameVec_refl [_]) (sameVec_blank p.pTopicName _)) (sameVec_refl _)) ?_)
  show SameVec (if p.payloadLength > 0 then _ else _) (if p.payloadLength > 0 then _ else _)
  split
  · exact sameVec_blank _ _
  · rfl

theorem sim_storePublish (p : PublishInfo) (hd : List UInt8) (n : Nat) (id : UInt16) :
    SimE (storePublish p hd n id) (storePublish (blankPublish p) hd n id) := by
  unfold storePublish
  rw [show (blankPublish p).dup = p.dup from rfl]
  generalize (if p.dup then (Status.success, hd) else updateHeaderDup hd true) = x
  obtain ⟨st, hdr⟩ := x
  refine sim_ite rfl (fun _ => simE_pure _) fun _ => simE_bind (sim_store id (publishVectors_same p hdr n id)) fun ok => ?_
  sims [simE_pure _]

theorem sim_sendPublish (g : Cfg) (p : PublishInfo) (hd : List UInt8) (n : Nat) (id : UInt16) :
    SimE (sendPublishWithoutCopy g p hd n id) (sendPublishWithoutCopy g (blankPublish p) hd n id) := by
  unfold sendPublishWithoutCopy
  refine sim_ctx fun c => simE_bind (sim_ite rfl (fun _ => sim_storePublish p hd n id) fun _ => simE_pure _) fun x => ?_
  exact sim_ite rfl (fun _ => simE_pure _) fun _ => sim_sendWholeVector g (publishVectors_same p _ n id)

theorem will_rel (will : Option PublishInfo) : ResRel SameVec (willVectors will) (willVectors (will.map blankPublish)) := by
  cases will with
  | none => exact .ok rfl
  | some w =>
    unfold willVectors
    exact res_bind (encoded_rel w.pTopicName w.topicNameLength) fun t t' ht =>
      res_bind (encoded_rel w.pPayload (UInt16.ofNat w.payloadLength)) fun m m' hm => .ok (ht.append hm)

theorem optional_rel (p : Ptr) (n : UInt16) : ResRel SameVec (optionalVectors p n) (optionalVectors (blankPtr p) n) := by
  cases p with
  | none => exact .ok rfl
  | some bs => exact encoded_rel (some bs) n

theorem connectFlags_blank (ci : ConnectInfo) (will : Option PublishInfo) :
    connectFlags (blankConnect ci) (will.map blankPublish) = connectFlags ci will := by
  have h1 : ((blankConnect ci).pUserName ≠ none) = (ci.pUserName ≠ none) := propext (not_congr blankPtr_none)
  have h2 : ((blankConnect ci).pPassword ≠ none) = (ci.pPassword ≠ none) := propext (not_congr blankPtr_none)
  unfold connectFlags
  simp only [h1, h2]
  cases will <;> rfl

theorem fixedHeader_blank (c : Cur) (ci : ConnectInfo) (will : Option PublishInfo) (n : Nat) :
    serializeConnectFixedHeader c (blankConnect ci) (will.map blankPublish) n = serializeConnectFixedHeader c ci will n := by
  unfold serializeConnectFixedHeader
  rw [connectFlags_blank]
  rfl

theorem connectVectors_rel (ci : ConnectInfo) (will : Option PublishInfo) (n : Nat) :
    ResRel SameVec (connectVectors ci will n) (connectVectors (blankConnect ci) (will.map blankPublish) n) := by
  unfold connectVectors
  rw [fixedHeader_blank]
  refine res_bind (res_refl _) fun c c' hc => ?_
  cases hc
  refine res_bind (res_refl _) fun _ _ _ => res_bind (encoded_rel _ _) fun i i' hi => res_bind (will_rel will) fun w w' hw =>
    res_bind (optional_rel _ _) fun u u' hu => res_bind (optional_rel _ _) fun p p' hp => .ok ?_
  exact (((SameVec.append rfl hi).append hw).append hu).append hp

theorem sim_sendConnect (g : Cfg) (ci : ConnectInfo) (will : Option PublishInfo) (n : Nat) :
    SimE (sendConnectWithoutCopy g ci will n) (sendConnectWithoutCopy g (blankConnect ci) (will.map blankPublish) n) := by
  unfold sendConnectWithoutCopy
  refine sim_ite ?_ (fun _ => simE_pure _) fun _ => sim_bind (sim_lift (connectVectors_rel ci will n)) fun v v' hv => sim_sendWholeVector g hv
  cases will with
  | none => rfl
  | some w =>
    have : (blankPtr w.pTopicName).isNone = w.pTopicName.isNone := by cases w.pTopicName <;> rfl
    simp [blankPublish, this]

theorem sim_sendIfConnected (g : Cfg) (bs : List UInt8) : SimE (sendIfConnected g bs) (sendIfConnected g bs) := by
  unfold sendIfConnected
  sims [sim_sendBuffer g rfl]

theorem sim_ackM (id : UInt16) (a : AckType) (op : Op) : SimE (updateStateAckM id a op) (updateStateAckM id a op) := sim_tables _
theorem sim_pubM (id : UInt16) (op : Op) (q : QoS) : SimE (updateStatePublishM id op q) (updateStatePublishM id op q) := sim_tables _

theorem sim_sendPublishAcks (g : Cfg) (id : UInt16) (p : PubState) : SimE (sendPublishAcks g id p) (sendPublishAcks g id p) := by
  unfold sendPublishAcks
  sims [sim_sendIfConnected g _, sim_ackM ..]

theorem sim_ping (g : Cfg) : SimE (mqttPing g) (mqttPing g) := by
  unfold mqttPing
  sims [sim_sendIfConnected g _]

theorem sim_recvInto (pos n : Nat) : SimE (recvInto pos n) (recvInto pos n) := by
  unfold recvInto
  sims [simE_pure _]

theorem sim_markHooked : SimE markPendingHooked markPendingHooked := by
  unfold markPendingHooked
  sims [sim_pre]

theorem sim_recvExactLoop (g : Cfg) : ∀ n pos m (t : UInt32),
    SimE (recvExactLoop g n pos m t) (recvExactLoop g n pos m t)
  | 0, _, _, _ => simE_stuck
  | n + 1, pos, m, t => by
    unfold recvExactLoop
    sims [sim_recvInto _ _, sim_markHooked, sim_recvExactLoop g n _ _ _]

theorem sim_recvExact (g : Cfg) (n : Nat) : SimE (recvExact g n) (recvExact g n) := by
  unfold recvExact
  sims [sim_recvExactLoop g _ _ _ _]

theorem sim_discardLoop (g : Cfg) (T t0 : UInt32) : ∀ n left b,
    SimE (discardLoop g T t0 n left b) (discardLoop g T t0 n left b)
  | 0, _, _ => simE_stuck
  | n + 1, left, b => by
    unfold discardLoop
    sims [sim_recvExact g _, sim_discardLoop g T t0 n _ _]

theorem sim_discardPacket (g : Cfg) (n : Nat) (T : UInt32) : SimE (discardPacket g n T) (discardPacket g n T) := by
  unfold discardPacket
  sims [sim_discardLoop g _ _ _ _ _]

theorem sim_discardStoredLoop (g : Cfg) : ∀ n left b, SimE (discardStoredLoop g n left b) (discardStoredLoop g n left b)
  | 0, _, _ => simE_stuck
  | n + 1, left, b => by
    unfold discardStoredLoop
    sims [sim_recvExact g _, sim_discardStoredLoop g n _ _]

theorem sim_resetBuffer : SimE resetBuffer resetBuffer := sim_modify _

theorem sim_discardStored (g : Cfg) (n : Nat) : SimE (discardStoredPacket g n) (discardStoredPacket g n) := by
  unfold discardStoredPacket
  sims [sim_discardStoredLoop g _ _ _, sim_resetBuffer]

theorem sim_receivePacket (g : Cfg) (n : Nat) (T : UInt32) : SimE (receivePacket g n T) (receivePacket g n T) := by
  unfold receivePacket
  sims [sim_discardPacket g _ _, sim_recvExact g _]

theorem sim_handleKeepAlive (g : Cfg) : SimE (handleKeepAlive g) (handleKeepAlive g) := by
  unfold handleKeepAlive
  sims [sim_ping g]

theorem sim_recordIncoming (id : UInt16) (q : QoS) : SimE (recordIncomingPublish id q) (recordIncomingPublish id q) := by
  unfold recordIncomingPublish
  sims [sim_pubM ..]

theorem sim_handleIncomingPublish (g : Cfg) (pk : PacketInfo) : SimE (handleIncomingPublish g pk) (handleIncomingPublish g pk) := by
  unfold handleIncomingPublish
  sims [sim_recordIncoming .., sim_sendPublishAcks g _ _]

theorem sim_handlePublishAcks (g : Cfg) (pk : PacketInfo) : SimE (handlePublishAcks g pk) (handlePublishAcks g pk) := by
  unfold handlePublishAcks
  sims [sim_ackM .., sim_sendPublishAcks g _ _]

theorem sim_handleIncomingAck (g : Cfg) (pk : PacketInfo) (b : Bool) : SimE (handleIncomingAck g pk b) (handleIncomingAck g pk b) := by
  unfold handleIncomingAck
  sims [sim_handlePublishAcks g pk]

theorem sim_receiveHeader : SimE receiveHeader receiveHeader := by
  unfold receiveHeader
  sims [sim_recvInto _ _, sim_markHooked]

theorem sim_keepAliveCheck (g : Cfg) (n : Option Nat) (b : Bool) (st : Status) :
    SimE (keepAliveCheck g n b st) (keepAliveCheck g n b st) := by
  unfold keepAliveCheck
  sims [sim_handleKeepAlive g]

theorem sim_checkComplete (g : Cfg) (st : Status) (n : Nat) : SimE (checkComplete g st n) (checkComplete g st n) := by
  unfold checkComplete
  sims [sim_discardStored g _]

theorem sim_handlePacket (g : Cfg) (b : Bool) (h : HeaderRes) : SimE (handlePacket g b h) (handlePacket g b h) := by
  unfold handlePacket
  sims [sim_handleIncomingPublish g _, sim_handleIncomingAck g _ _]

theorem sim_iteration (g : Cfg) (b : Bool) :
    SimE (receiveSingleIteration g b) (receiveSingleIteration g b) := by
  unfold receiveSingleIteration
  sims [sim_receiveHeader, sim_keepAliveCheck g _ _ _, sim_checkComplete g _ _, sim_handlePacket g _ _]

theorem sim_processLoop (g : Cfg) : SimE (mqttProcessLoop g) (mqttProcessLoop g) := by
  unfold mqttProcessLoop
  sims [sim_iteration g _]

theorem sim_recvOne : SimE recvOne recvOne := by
  unfold recvOne
  sims [simE_pure _]

theorem sim_remainingLoop : ∀ n a b c, SimE (getRemainingLengthLoopM n a b c) (getRemainingLengthLoopM n a b c)
  | 0, _, _, _ => simE_stuck
  | n + 1, a, b, c => by
    unfold getRemainingLengthLoopM
    sims [sim_recvOne, sim_remainingLoop n _ _ _]

theorem sim_remaining : SimE getRemainingLengthM getRemainingLengthM := by
  unfold getRemainingLengthM
  sims [sim_remainingLoop ..]

theorem sim_typeAndLength : SimE getIncomingPacketTypeAndLengthM getIncomingPacketTypeAndLengthM := by
  unfold getIncomingPacketTypeAndLengthM
  sims [sim_recvOne, sim_remaining]

theorem sim_connackBreak (g : Cfg) (T t0 : UInt32) (n : Nat) : SimE (connackBreak g T t0 n) (connackBreak g T t0 n) := by
  unfold connackBreak
  sims [simE_pure _]

theorem sim_connackLoop (g : Cfg) (T t0 : UInt32) : ∀ n c, SimE (connackLoop g T t0 n c) (connackLoop g T t0 n c)
  | 0, _ => simE_stuck
  | n + 1, c => by
    unfold connackLoop
    sims [sim_typeAndLength, sim_connackBreak .., sim_connackLoop g T t0 n _]

theorem sim_finishConnack (g : Cfg) (T t0 : UInt32) (cs : Bool) (h : HeaderRes) (sp : Bool) :
    SimE (finishConnack g T t0 cs h sp) (finishConnack g T t0 cs h sp) := by
  unfold finishConnack
  sims [sim_receivePacket g _ _]

theorem sim_receiveConnack (g : Cfg) (T : UInt32) (cs sp : Bool) : SimE (receiveConnack g T cs sp) (receiveConnack g T cs sp) := by
  unfold receiveConnack
  sims [sim_connackLoop .., sim_finishConnack ..]

theorem sim_resendPubrels (g : Cfg) : ∀ n c, SimE (resendPubrels g n c) (resendPubrels g n c)
  | 0, _ => simE_stuck
  | n + 1, c => by
    unfold resendPubrels
    sims [sim_sendPublishAcks g _ _, sim_resendPubrels g n _]

theorem sim_resendPublishes (g : Cfg) : ∀ n c, SimE (resendPublishes g n c) (resendPublishes g n c)
  | 0, _ => simE_stuck
  | n + 1, c => by
    unfold resendPublishes
    refine sim_ctx fun _ => simE_bind (simE_lift _) fun x => sim_ite rfl (fun _ => simE_pure _) fun _ => sim_bind (sim_retrieve _) fun y y' hy => ?_
    cases y with
    | none =>
      cases y' with
      | none => exact simE_pure _
      | some bs => cases hy
    | some bs =>
      cases y' with
      | none => cases hy
      | some bs' =>
        have hl : bs'.length = bs.length := blankBytes_eq.1 (Option.some.inj hy)
        dsimp only
        rw [hl]
        sims [sim_sendBuffer g hl, sim_resendPublishes g n _]

theorem sim_resume (g : Cfg) : SimE (handleUncleanSessionResumption g) (handleUncleanSessionResumption g) := by
  unfold handleUncleanSessionResumption
  sims [sim_resendPubrels g _ _, sim_resendPublishes g _ _]

theorem sim_clearStored : ∀ n c, SimE (clearStored n c) (clearStored n c)
  | 0, _ => simE_stuck
  | n + 1, c => by
    unfold clearStored
    sims [sim_clearStored n _]

theorem sim_cleanSession : SimE handleCleanSession handleCleanSession := by
  unfold handleCleanSession
  sims [sim_resetBuffer, sim_clearStored _ _]

theorem sim_connectLocked (g : Cfg) (ci : ConnectInfo) (will : Option PublishInfo) (n : Nat) (T : UInt32) (sp : Bool) :
    SimE (connectLocked g ci will n T sp) (connectLocked g (blankConnect ci) (will.map blankPublish) n T sp) := by
  unfold connectLocked
  rw [show (blankConnect ci).cleanSession = ci.cleanSession from rfl, show (blankConnect ci).keepAliveSeconds = ci.keepAliveSeconds from rfl]
  sims [sim_sendConnect .., sim_receiveConnack .., sim_cleanSession]

theorem sim_connectFailed (st : Status) : SimE (connectFailed st) (connectFailed st) := by
  unfold connectFailed
  sims [sim_markHooked]

theorem sim_connectCore (g : Cfg) (ci : ConnectInfo) (will : Option PublishInfo) (n : Nat) (T : UInt32) (sp : Bool) :
    SimE (connectCore g ci will n T sp) (connectCore g (blankConnect ci) (will.map blankPublish) n T sp) := by
  unfold connectCore
  sims [sim_connectLocked .., sim_resume g]

theorem connectSize_blank (ci : ConnectInfo) (will : Option PublishInfo) :
    getConnectPacketSize (some (blankConnect ci)) (will.map blankPublish) = getConnectPacketSize (some ci) will := by
  have h0 : ((blankConnect ci).pClientIdentifier = none) = (ci.pClientIdentifier = none) := propext blankPtr_none
  have h1 : ((blankConnect ci).pUserName ≠ none) = (ci.pUserName ≠ none) := propext (not_congr blankPtr_none)
  have h2 : ((blankConnect ci).pPassword ≠ none) = (ci.pPassword ≠ none) := propext (not_congr blankPtr_none)
  unfold getConnectPacketSize
  simp only [h0, h1, h2]
  cases will <;> rfl

theorem sim_connect (g : Cfg) (ci : Option ConnectInfo) (will : Option PublishInfo) (T : UInt32) (sp : Option Bool) :
    SimE (mqttConnect g ci will T sp) (mqttConnect g (ci.map blankConnect) (will.map blankPublish) T sp) := by
  unfold mqttConnect
  cases ci with
  | none =>
    cases sp <;>
    · dsimp only [Option.map_none]
      sims [sim_connectFailed _]
  | some ci =>
    cases sp with
    | none =>
      dsimp only [Option.map_some]
      sims [sim_connectFailed _]
    | some b =>
      dsimp only [Option.map_some]
      rw [connectSize_blank]
      sims [sim_connectCore .., sim_connectFailed _]

theorem sizeLoop_blank (W : Nat) (ty : SubType) : ∀ (subs : List SubscribeInfo) (n : Nat) (st : Status),
    subscriptionSizeLoop W ty (subs.map blankFilter) n st = subscriptionSizeLoop W ty subs n st
  | [], _, _ => rfl
  | s :: rest, n, st => by
    have h : ((blankFilter s).pTopicFilter = none) = (s.pTopicFilter = none) := propext blankPtr_none
    rw [List.map_cons]
    unfold subscriptionSizeLoop
    simp only [h]
    exact sizeLoop_blank W ty rest _ _

theorem subscriptionSize_blank (W : Nat) (ty : SubType) (subs : Option (List SubscribeInfo)) :
    getSubscriptionPacketSize W ty (subs.map (List.map blankFilter)) = getSubscriptionPacketSize W ty subs := by
  cases subs with
  | none => rfl
  | some l =>
    unfold getSubscriptionPacketSize calculateSubscriptionPacketSize
    dsimp only [Option.map_some]
    rw [List.length_map, sizeLoop_blank]

theorem validateSub_blank (c : Ctx) (subs : Option (List SubscribeInfo)) (id : UInt16) :
    validateSubscribeUnsubscribeParams c (subs.map (List.map blankFilter)) id = validateSubscribeUnsubscribeParams c subs id := by
  cases subs with
  | none => rfl
  | some l =>
    unfold validateSubscribeUnsubscribeParams
    dsimp only [Option.map_some]
    rw [List.length_map, List.any_map]
    rfl

theorem sim_subUnsub (g : Cfg) (ty : SubType) (subs : Option (List SubscribeInfo)) (id : UInt16) :
    SimE (mqttSubUnsub g ty subs id) (mqttSubUnsub g ty (subs.map (List.map blankFilter)) id) := by
  unfold mqttSubUnsub
  simp only [validateSub_blank, subscriptionSize_blank]
  have hs : (subs.map (List.map blankFilter)).getD [] = (subs.getD []).map blankFilter := by cases subs <;> rfl
  rw [hs]
  sims [sim_sendFilters ..]

theorem sim_reserve (p : PublishInfo) (id : UInt16) : SimE (reservePublish p id) (reservePublish (blankPublish p) id) := by
  show SimE (reservePublish p id) (reservePublish p id)
  unfold reservePublish
  sims [simE_pure _]

theorem sim_notePublish (p : PublishInfo) (id : UInt16) : SimE (notePublishSent p id) (notePublishSent (blankPublish p) id) := by
  show SimE (notePublishSent p id) (notePublishSent p id)
  unfold notePublishSent
  sims [sim_pubM ..]

theorem sim_publishLocked (g : Cfg) (p : PublishInfo) (hd : List UInt8) (n : Nat) (id : UInt16) :
    SimE (publishLocked g p hd n id) (publishLocked g (blankPublish p) hd n id) := by
  unfold publishLocked
  sims [sim_reserve .., sim_sendPublish .., sim_notePublish ..]

theorem publishSize_blank (W : Nat) (p : PublishInfo) : getPublishPacketSize W (some (blankPublish p)) = getPublishPacketSize W (some p) := by
  have h : ((blankPublish p).pTopicName = none) = (p.pTopicName = none) := propext blankPtr_none
  unfold getPublishPacketSize
  simp only [h]
  rfl

theorem validatePublish_blank (c : Ctx) (p : Option PublishInfo) (id : UInt16) :
    validatePublishParams c (p.map blankPublish) id = validatePublishParams c p id := by
  cases p with
  | none => rfl
  | some p =>
    have h : ((blankPublish p).pPayload = none) = (p.pPayload = none) := propext blankPtr_none
    unfold validatePublishParams
    simp only [Option.map_some, h]
    rfl

theorem sim_publish (g : Cfg) (p : Option PublishInfo) (id : UInt16) :
    SimE (mqttPublish g p id) (mqttPublish g (p.map blankPublish) id) := by
  unfold mqttPublish
  simp only [validatePublish_blank]
  refine sim_ctx fun c => sim_ite rfl (fun _ => simE_pure _) fun _ => ?_
  cases p with
  | none => exact simE_ub _
  | some p =>
    dsimp only [Option.map_some]
    rw [publishSize_blank]
    refine sim_ite rfl (fun _ => simE_pure _) fun _ => ?_
    refine simE_bind (simE_lift _) fun x => simE_bind sim_pre fun _ => simE_bind (sim_publishLocked g p _ _ id) fun _ => simE_bind sim_post fun _ => simE_pure _

theorem sim_disconnect (g : Cfg) : SimE (mqttDisconnect g) (mqttDisconnect g) := by
  unfold mqttDisconnect
  sims [sim_resetBuffer, sim_sendBuffer g rfl]

theorem sim_cancel (id : UInt16) : SimE (mqttCancelCallback id) (mqttCancelCallback id) := by
  unfold mqttCancelCallback
  sims [simE_pure _]

theorem sim_check : SimE mqttCheckConnectStatus mqttCheckConnectStatus := by
  unfold mqttCheckConnectStatus
  sims [simE_pure _]

theorem sim_getPacketId : SimE mqttGetPacketId mqttGetPacketId := by
  unfold mqttGetPacketId
  sims [simE_pure _]

/-- Every public function. -/
theorem sim_api (g : Cfg) (f : ApiCall) : SimE (apiCall g f) (apiCall g (blankCall f)) := by
  cases f <;>
  · simp only [blankCall, apiCall, mqttSubscribe, mqttUnsubscribe, mqttReceiveLoop]
    sims [sim_publish .., sim_connect .., sim_subUnsub .., sim_ping g, sim_disconnect g, sim_cancel _, sim_check, sim_getPacketId, sim_processLoop g, sim_iteration g _]
end

end Mqtt.Contents
