/-
Steps that neither call the application nor touch the record arrays, and programs made of them.
-/
import Verif.Proof.ThreadPool

namespace Mqtt
open Spec
set_option linter.unusedSimpArgs false

/-- A call of the application's callback. -/
def isApp : Event → Bool
  | .app .. => true
  | _ => false

/-- Whenever it returns, the application was not called and the record arrays are as before. -/
def Mild {α : Type} (m : M α) : Prop :=
  ∀ w a w', m w = .done a w' → (∃ es, w'.trace = w.trace ++ es ∧ ∀ e ∈ es, isApp e = false) ∧ w'.ctx.tables = w.ctx.tables

section
variable {α β : Type}

theorem Mild.pure (a : α) : Mild (pure a : M α) := by
  intro w b w' h
  cases h
  exact ⟨⟨[], by simp, by simp⟩, rfl⟩

theorem M.bind_done {m : M α} {f : α → M β} {w w' : World} {b : β} (h : (m >>= f) w = .done b w') :
    ∃ a w1, m w = .done a w1 ∧ f a w1 = .done b w' := by
  change M.bind m f w = _ at h
  unfold M.bind at h
  split at h
  · rename_i a w1 h1
    exact ⟨a, w1, h1, h⟩
  · cases h
  · cases h

theorem Mild.bind {m : M α} {f : α → M β} (h : Mild m) (hf : ∀ a, Mild (f a)) : Mild (m >>= f) := by
  intro w b w' hd
  obtain ⟨a, w1, h1, h2⟩ := M.bind_done hd
  obtain ⟨⟨es, e1, e2⟩, e3⟩ := h _ _ _ h1
  obtain ⟨⟨fs, f1, f2⟩, f3⟩ := hf a _ _ _ h2
  refine ⟨⟨es ++ fs, by rw [f1, e1, List.append_assoc], ?_⟩, f3.trans e3⟩
  intro e he
  rcases List.mem_append.mp he with he | he
  · exact e2 e he
  · exact f2 e he

theorem Mild.ite {c : Prop} [Decidable c] {m n : M α} (hm : Mild m) (hn : Mild n) : Mild (if c then m else n) := by
  split
  · exact hm
  · exact hn

theorem Mild.getCtx : Mild getCtx := by
  intro w a w' h
  cases h
  exact ⟨⟨[], by simp, by simp⟩, rfl⟩

theorem Mild.modifyCtx {f : Ctx → Ctx} (hf : ∀ c, (f c).tables = c.tables) : Mild (modifyCtx f) := by
  intro w a w' h
  cases h
  exact ⟨⟨[], by simp, by simp⟩, hf _⟩

theorem Mild.emit {e : Event} (he : isApp e = false) : Mild (emit e) := by
  intro w a w' h
  cases h
  exact ⟨⟨[e], rfl, by simp [he]⟩, rfl⟩

theorem Mild.stuck : Mild (stuckM : M α) := fun _ _ _ h => by cases h
theorem Mild.ub (e : UB) : Mild (ubM e : M α) := fun _ _ _ h => by cases h

theorem Mild.lift (r : Res α) : Mild (liftRes r) := by
  intro w a w' h
  unfold liftRes at h
  split at h
  · cases h; exact ⟨⟨[], by simp, by simp⟩, rfl⟩
  · cases h

theorem Mild.getTime : Mild getTime := by
  intro w a w' h
  unfold Mqtt.getTime at h
  split at h
  · cases h
  · cases h; exact ⟨⟨[_], rfl, by simp [isApp]⟩, rfl⟩

theorem Mild.transportSend (bs : List UInt8) : Mild (transportSend bs) := by
  intro w a w' h
  unfold Mqtt.transportSend at h
  split at h
  · cases h
  · cases h; exact ⟨⟨[_], rfl, by simp [isApp]⟩, rfl⟩
  · cases h; exact ⟨⟨[_], rfl, by simp [isApp]⟩, rfl⟩

theorem Mild.transportRecv (n : Nat) : Mild (transportRecv n) := by
  intro w a w' h
  unfold Mqtt.transportRecv at h
  split at h
  · cases h
  · cases h; exact ⟨⟨[_], rfl, by simp [isApp]⟩, rfl⟩
  · cases h; exact ⟨⟨[_], rfl, by simp [isApp]⟩, rfl⟩

theorem Mild.sendFuel : Mild sendFuel := by
  intro w a w' h
  cases h
  exact ⟨⟨[], by simp, by simp⟩, rfl⟩
theorem Mild.recvFuel : Mild recvFuel := by
  intro w a w' h
  cases h
  exact ⟨⟨[], by simp, by simp⟩, rfl⟩
theorem Mild.clockFuel : Mild clockFuel := by
  intro w a w' h
  cases h
  exact ⟨⟨[], by simp, by simp⟩, rfl⟩

theorem Mild.retrieve (id : UInt16) : Mild (retrieveCallback id) := by
  intro w a w' h
  unfold retrieveCallback at h
  split at h
  · cases h
  · cases h; exact ⟨⟨[_], rfl, by simp [isApp]⟩, rfl⟩

theorem Mild.clear (id : UInt16) : Mild (clearCallback id) := Mild.emit rfl

theorem Mild.locked {m : M α} (h : Mild m) : Mild (locked m) :=
  Mild.bind (Mild.emit rfl) fun _ => Mild.bind h fun a => Mild.bind (Mild.emit rfl) fun _ => Mild.pure a

theorem Mild.markPending : Mild markPending := by
  refine Mild.modifyCtx fun c => ?_
  split <;> rfl

theorem Mild.recvInto (pos n : Nat) : Mild (recvInto pos n) := by
  unfold Mqtt.recvInto
  refine Mild.bind Mild.getCtx fun c => Mild.ite ?_ (Mild.ub _)
  refine Mild.bind (Mild.transportRecv n) fun r => ?_
  cases r with
  | none => exact Mild.pure _
  | some bs => exact Mild.bind (Mild.modifyCtx fun _ => rfl) fun _ => Mild.pure _

theorem Mild.noteSendResult (r : Option Nat) : Mild (noteSendResult r) := by
  unfold Mqtt.noteSendResult
  cases r with
  | none => exact Mild.markPending
  | some k => exact Mild.ite (Mild.bind Mild.getTime fun t => Mild.modifyCtx fun _ => rfl) (Mild.pure _)

theorem Mild.sendBufferLoop (g : Cfg) (t : UInt32) (fuel : Nat) : ∀ rest sent, Mild (sendBufferLoop g t fuel rest sent) := by
  induction fuel with
  | zero => exact fun _ _ => Mild.stuck
  | succ fuel ih =>
    intro rest sent
    unfold Mqtt.sendBufferLoop
    refine Mild.ite ?_ (Mild.pure _)
    refine Mild.bind (Mild.transportSend _) fun r => Mild.bind (Mild.noteSendResult r) fun _ => Mild.bind Mild.getTime fun now => ?_
    cases r with
    | none => exact Mild.pure _
    | some k => exact Mild.ite (Mild.pure _) (ih _ _)

theorem Mild.sendBuffer (g : Cfg) (bs : List UInt8) : Mild (sendBuffer g bs) :=
  Mild.bind Mild.getTime fun _ => Mild.bind Mild.sendFuel fun _ => Mild.sendBufferLoop g _ _ _ _

theorem Mild.sendIfConnected (g : Cfg) (bs : List UInt8) : Mild (sendIfConnected g bs) := by
  unfold Mqtt.sendIfConnected
  refine Mild.bind Mild.getCtx fun c => Mild.ite (Mild.pure _) ?_
  refine Mild.bind (Mild.sendBuffer g bs) fun r => ?_
  exact Mild.ite (Mild.pure _) (Mild.pure _)

theorem Mild.resetBuffer : Mild resetBuffer := Mild.modifyCtx fun _ => rfl

theorem Mild.pingLocked (g : Cfg) (bs : List UInt8) : Mild (pingLocked g bs) := by
  unfold Mqtt.pingLocked
  refine Mild.bind (Mild.sendIfConnected g bs) fun st => ?_
  dsimp only
  exact Mild.ite (Mild.bind (Mild.modifyCtx fun _ => rfl) fun _ => Mild.pure _) (Mild.pure _)

theorem Mild.dropPacket (n : Nat) : Mild (dropPacket n) := by
  unfold Mqtt.dropPacket
  exact Mild.bind Mild.getCtx fun c => Mild.ite (Mild.modifyCtx fun _ => rfl) (Mild.ub _)

theorem Mild.disconnectLocked (g : Cfg) (bs : List UInt8) : Mild (disconnectLocked g bs) := by
  unfold Mqtt.disconnectLocked
  refine Mild.bind Mild.getCtx fun c => Mild.ite (Mild.pure _) ?_
  refine Mild.bind (Mild.modifyCtx fun _ => rfl) fun _ => Mild.bind Mild.resetBuffer fun _ => Mild.bind (Mild.sendBuffer g bs) fun r => ?_
  exact Mild.ite (Mild.pure _) (Mild.pure _)

/-- All steps are mild. -/
def Gentle {α : Type} : Prog α → Prop
  | .ret _ => True
  | .step m k => Mild m ∧ ∀ b, Gentle (k b)

theorem Gentle.pure (a : α) : Gentle (pure a : Prog α) := trivial

theorem Gentle.bind {p : Prog α} {f : α → Prog β} (h : Gentle p) (hf : ∀ a, Gentle (f a)) : Gentle (p >>= f) := by
  show Gentle (p.bind f)
  induction p with
  | ret a => exact hf a
  | step m k ih => exact ⟨h.1, fun b => ih b (h.2 b)⟩

theorem Gentle.act {m : M α} (h : Mild m) : Gentle (act m) := ⟨h, fun _ => trivial⟩
theorem Gentle.sect {m : M α} (h : Mild m) : Gentle (sect m) := ⟨h.locked, fun _ => trivial⟩

theorem Gentle.ite {c : Prop} [Decidable c] {p q : Prog α} (hp : Gentle p) (hq : Gentle q) : Gentle (if c then p else q) := by
  split
  · exact hp
  · exact hq

theorem recvExactLoop_calm (g : Cfg) (fuel : Nat) : ∀ pos n t, Gentle (recvExactLoopP g fuel pos n t) := by
  induction fuel with
  | zero => exact fun _ _ _ => Gentle.act Mild.stuck
  | succ fuel ih =>
    intro pos n t0
    unfold recvExactLoopP
    refine Gentle.ite ?_ (Gentle.pure _)
    refine Gentle.bind (Gentle.act (Mild.recvInto _ _)) fun r => ?_
    cases r with
    | none => exact Gentle.bind (Gentle.sect Mild.markPending) fun _ => Gentle.pure _
    | some k =>
      refine Gentle.ite ?_ ?_
      · exact Gentle.bind (Gentle.act Mild.getTime) fun t => Gentle.bind (Gentle.act (Mild.lift _)) fun _ => ih _ _ _
      · exact Gentle.bind (Gentle.act Mild.getTime) fun t => Gentle.ite (Gentle.pure _) (ih _ _ _)

theorem recvExact_calm (g : Cfg) (n : Nat) : Gentle (recvExactP g n) :=
  Gentle.bind (Gentle.act Mild.getCtx) fun _ => Gentle.bind (Gentle.act (Mild.lift _)) fun _ => Gentle.bind (Gentle.act Mild.getTime) fun _ =>
    Gentle.bind (Gentle.act Mild.recvFuel) fun _ => recvExactLoop_calm g _ _ _ _

theorem discardStoredLoop_calm (g : Cfg) (fuel : Nat) : ∀ left n, Gentle (discardStoredLoopP g fuel left n) := by
  induction fuel with
  | zero => exact fun _ _ => Gentle.act Mild.stuck
  | succ fuel ih =>
    intro left n
    unfold discardStoredLoopP
    refine Gentle.ite ?_ (Gentle.pure _)
    dsimp only
    exact Gentle.bind (recvExact_calm g _) fun r => Gentle.ite (Gentle.pure _) (ih _ _)

theorem discardStored_calm (g : Cfg) (n : Nat) : Gentle (discardStoredPacketP g n) :=
  Gentle.bind (Gentle.act Mild.getCtx) fun _ => Gentle.bind (Gentle.act (Mild.lift _)) fun _ => Gentle.bind (Gentle.act Mild.clockFuel) fun _ =>
    Gentle.bind (discardStoredLoop_calm g _ _ _) fun _ => Gentle.bind (Gentle.act Mild.resetBuffer) fun _ => Gentle.ite (Gentle.pure _) (Gentle.pure _)

theorem ping_calm (g : Cfg) : Gentle (pingP g) := by
  unfold pingP
  dsimp only
  refine Gentle.ite (Gentle.pure _) ?_
  exact Gentle.bind (Gentle.act (Mild.lift _)) fun _ => Gentle.bind (Gentle.act (Mild.lift _)) fun _ =>
    Gentle.ite (Gentle.pure _) (Gentle.sect (Mild.pingLocked g _))

theorem handleKeepAlive_calm (g : Cfg) : Gentle (handleKeepAliveP g) := by
  unfold handleKeepAliveP
  refine Gentle.bind (Gentle.act Mild.getTime) fun _ => Gentle.bind (Gentle.act Mild.getCtx) fun _ => ?_
  dsimp only
  refine Gentle.ite (Gentle.ite (Gentle.pure _) (Gentle.pure _)) ?_
  refine Gentle.bind (Gentle.sect Mild.getCtx) fun _ => Gentle.ite (ping_calm g) ?_
  exact Gentle.ite (ping_calm g) (Gentle.pure _)

theorem receiveHeader_calm : Gentle receiveHeaderP := by
  unfold receiveHeaderP
  refine Gentle.bind (Gentle.act Mild.getCtx) fun _ => Gentle.bind (Gentle.act (Mild.recvInto _ _)) fun r => ?_
  cases r with
  | none => exact Gentle.bind (Gentle.sect Mild.markPending) fun _ => Gentle.pure _
  | some k =>
    refine Gentle.ite (Gentle.pure _) ?_
    exact Gentle.bind (Gentle.act (Mild.modifyCtx fun _ => rfl)) fun _ => Gentle.bind (Gentle.act Mild.getCtx) fun _ =>
      Gentle.bind (Gentle.act (Mild.lift _)) fun _ => Gentle.pure _

theorem keepAliveCheck_calm (g : Cfg) (r : Option Nat) (manage : Bool) (st : Status) : Gentle (keepAliveCheckP g r manage st) := by
  unfold keepAliveCheckP
  refine Gentle.ite ?_ (Gentle.pure _)
  exact Gentle.bind (handleKeepAlive_calm g) fun _ => Gentle.ite (Gentle.pure _) (Gentle.pure _)

theorem checkComplete_calm (g : Cfg) (st : Status) (n : Nat) : Gentle (checkCompleteP g st n) := by
  unfold checkCompleteP
  refine Gentle.bind (Gentle.act Mild.getCtx) fun _ => Gentle.ite (Gentle.pure _) (Gentle.ite (discardStored_calm g _) ?_)
  exact Gentle.ite (Gentle.pure _) (Gentle.pure _)

theorem disconnect_calm (g : Cfg) : Gentle (disconnectP g) := by
  unfold disconnectP
  refine Gentle.bind (Gentle.act (Mild.lift _)) fun r => ?_
  exact Gentle.ite (Gentle.pure _) (Gentle.sect (Mild.disconnectLocked g _))

theorem connectFailed_calm (st : Status) : Gentle (connectFailedP st) := by
  unfold connectFailedP
  exact Gentle.ite (Gentle.pure _) (Gentle.sect Mild.markPending)

theorem resendPublishes_calm (g : Cfg) (n : Nat) : ∀ cursor, Gentle (resendPublishesP g n cursor) := by
  induction n with
  | zero => exact fun _ => Gentle.act Mild.stuck
  | succ n ih =>
    intro cursor
    unfold resendPublishesP
    refine Gentle.bind (Gentle.act Mild.getCtx) fun c => Gentle.bind (Gentle.act (Mild.lift _)) fun r => ?_
    refine Gentle.ite (Gentle.pure _) (Gentle.bind (Gentle.act (Mild.retrieve _)) fun r => ?_)
    cases r with
    | none => exact Gentle.pure _
    | some bytes => exact Gentle.bind (Gentle.sect (Mild.sendBuffer g _)) fun _ => Gentle.ite (Gentle.pure _) (ih _)

end

end Mqtt
