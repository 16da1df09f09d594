/-
C65: the status codes each function returns.

`returned` and `documented` are in Spec/Codes.lean.
-/
import Verif.Proof.Codes
import Verif.Props.Silence

namespace Mqtt
open Spec

/-! ### Runs that return each code -/

/-- The calls of the runs below. -/
inductive Codes.Act where
  | connect | connectNull | subscribe | subscribeNull | unsubscribe | unsubscribeNull
  | publish (dup : Bool) (q : QoS) (id : UInt16) | publishNull | ping | disconnect | processLoop | receiveLoop | cancel (n : Fin 100) | check
  deriving DecidableEq

def Codes.Act.call : Codes.Act → ApiCall
  | .connect => Ex.connectCall
  | .connectNull => .connect none none 0 none
  | .subscribe => .subscribe (some [⟨.qos1, some [97], 1⟩]) 3
  | .subscribeNull => .subscribe none 3
  | .unsubscribe => .unsubscribe (some [⟨.qos1, some [97], 1⟩]) 3
  | .unsubscribeNull => .unsubscribe none 3
  | .publish dup q id => .publish (some { Ex.pub q with dup := dup }) id
  | .publishNull => .publish none 3
  | .ping => .ping
  | .disconnect => .disconnect
  | .processLoop => .processLoop
  | .receiveLoop => .receiveLoop
  | .cancel n => .cancelCallback (UInt16.ofNat (n.val + 1))
  | .check => .checkConnectStatus

theorem Codes.Act.valid (a : Codes.Act) : ValidCall Ex.g a.call := by
  have hf : ValidSubs [⟨.qos1, some [97], 1⟩] := by
    intro s hs _
    cases List.mem_singleton.mp hs
    exact ⟨_, rfl, by decide⟩
  cases a with
  | connect => exact Ex.connectValid
  | connectNull => intro c h; cases h
  | subscribe => intro l h; cases h; exact ⟨hf, by decide⟩
  | subscribeNull => intro l h; cases h
  | unsubscribe => intro l h; cases h; exact ⟨hf, by decide⟩
  | unsubscribeNull => intro l h; cases h
  | publish d q id =>
    intro c h
    cases h
    exact ⟨⟨fun _ => ⟨_, rfl, by cases q <;> cases d <;> decide⟩, fun _ => ⟨_, rfl, by simp [Ex.pub]⟩⟩, by simp [Ex.pub, Ex.g]⟩
  | publishNull => intro c h; cases h
  | cancel n =>
    show UInt16.ofNat (n.val + 1) ≠ 0
    revert n
    decide
  | _ => trivial

/-- The transport delivers what there is; the clock counts milliseconds from `t`. -/
def Codes.at (t : Nat) (input : List UInt8) : Env :=
  ⟨List.replicate 40 (.accept 64), List.replicate 40 (.deliver 64), input, (List.range 100).map fun i => UInt32.ofNat (t + i),
    List.replicate 4 true, []⟩

/-- A PUBLISH of QoS 1 or 2 with topic "a" and no payload. -/
def Codes.incoming (q id : UInt8) : List UInt8 := [0x30 + 2 * q, 5, 0, 1, 97, 0, id]

/-- Connected with a new session. -/
def Codes.linked : List (Env × Codes.Act) := [(Codes.at 0 [0x20, 2, 0, 0], .connect)]
/-- The receive function failed. -/
def Codes.lost : List (Env × Codes.Act) := Codes.linked ++ [({ Codes.at 0 [] with recvs := [.fail] }, .receiveLoop)]
/-- Publish 7 with QoS 2 was sent, and its PUBREC received. -/
def Codes.half : List (Env × Codes.Act) := Codes.linked ++ [(Codes.at 0 [], .publish false .qos2 7), (Codes.at 0 [0x50, 2, 0, 7], .receiveLoop)]
/-- The records for incoming publishes are in use. -/
def Codes.full : List (Env × Codes.Act) := Codes.linked ++ [(Codes.at 0 (Codes.incoming 2 1), .receiveLoop), (Codes.at 0 (Codes.incoming 2 2), .receiveLoop)]

def Codes.sendFails : Env := { Codes.at 0 [] with sends := [.fail] }

/-- A run that receives or manages a connection and returns the code. -/
def Codes.loopRun (a : Codes.Act) : Status → List (Env × Codes.Act) × Env
  | .noMemory => (Codes.full, Codes.at 0 (Codes.incoming 2 3))
  | .sendFailed => (Codes.linked, { Codes.at 0 (Codes.incoming 1 3) with sends := [.fail] })
  | .recvFailed => (Codes.linked, { Codes.at 0 [] with recvs := [.fail] })
  | .badResponse => (Codes.linked, Codes.at 0 [0x40, 2, 0, 9])
  | .illegalState => (Codes.half, Codes.at 0 [0x40, 2, 0, 7])
  | .keepAliveTimeout => (Codes.linked ++ [(Codes.at 0 [], .ping)], Codes.at 6000 [])
  | .needMoreBytes => (Codes.linked ++ [(Codes.at 0 [0x40, 2], a)], Codes.at 0 [0])
  | .statusNotConnected => ([], Codes.at 0 (Codes.incoming 1 3))
  | .statusDisconnectPending => (Codes.lost, Codes.at 0 (Codes.incoming 1 3))
  | _ => (Codes.linked, Codes.at 0 (Codes.incoming 1 3))

/-- The calls that come before, the environment of the call and the call, for each code. -/
def Codes.run : Fn → Status → List (Env × Codes.Act) × Env × Codes.Act
  | .connect, .badParameter => ([], Codes.at 0 [], .connectNull)
  | .connect, .sendFailed => ([], Codes.sendFails, .connect)
  | .connect, .recvFailed => ([], { Codes.at 0 [] with recvs := [.fail] }, .connect)
  | .connect, .noDataAvailable => ([], { Codes.at 0 [] with clock := [0, 0, 0, 0, 2000, 2000, 2000] }, .connect)
  | .connect, .badResponse => ([], Codes.at 0 [0x20, 2, 0, 9], .connect)
  | .connect, .serverRefused => ([], Codes.at 0 [0x20, 2, 0, 5], .connect)
  | .connect, .statusConnected => (Codes.linked, Codes.at 0 [], .connect)
  | .connect, .statusDisconnectPending => (Codes.lost, Codes.at 0 [], .connect)
  | .connect, .publishRetrieveFailed =>
    (Codes.linked ++ [(Codes.at 0 [], .publish false .qos1 9), (Codes.at 0 [], .disconnect)], { Codes.at 0 [0x20, 2, 1, 0] with retrieves := [none] }, .connect)
  | .connect, _ => ([], Codes.at 0 [0x20, 2, 0, 0], .connect)
  | .subscribe, .badParameter => (Codes.linked, Codes.at 0 [], .subscribeNull)
  | .subscribe, .sendFailed => (Codes.linked, Codes.sendFails, .subscribe)
  | .subscribe, .statusNotConnected => ([], Codes.at 0 [], .subscribe)
  | .subscribe, .statusDisconnectPending => (Codes.lost, Codes.at 0 [], .subscribe)
  | .subscribe, _ => (Codes.linked, Codes.at 0 [], .subscribe)
  | .unsubscribe, .badParameter => (Codes.linked, Codes.at 0 [], .unsubscribeNull)
  | .unsubscribe, .sendFailed => (Codes.linked, Codes.sendFails, .unsubscribe)
  | .unsubscribe, .statusNotConnected => ([], Codes.at 0 [], .unsubscribe)
  | .unsubscribe, .statusDisconnectPending => (Codes.lost, Codes.at 0 [], .unsubscribe)
  | .unsubscribe, _ => (Codes.linked, Codes.at 0 [], .unsubscribe)
  | .publish, .badParameter => (Codes.linked, Codes.at 0 [], .publishNull)
  | .publish, .noMemory => (Codes.half ++ [(Codes.at 0 [], .publish false .qos1 8)], Codes.at 0 [], .publish false .qos1 9)
  | .publish, .sendFailed => (Codes.linked, Codes.sendFails, .publish false .qos1 9)
  | .publish, .illegalState => (Codes.half, Codes.at 0 [], .publish true .qos2 7)
  | .publish, .stateCollision => (Codes.half, Codes.at 0 [], .publish false .qos2 7)
  | .publish, .statusNotConnected => ([], Codes.at 0 [], .publish false .qos1 9)
  | .publish, .statusDisconnectPending => (Codes.lost, Codes.at 0 [], .publish false .qos1 9)
  | .publish, .publishStoreFailed => (Codes.linked, { Codes.at 0 [] with stores := [false] }, .publish false .qos1 9)
  | .publish, _ => (Codes.linked, Codes.at 0 [], .publish false .qos1 9)
  | .ping, .sendFailed => (Codes.linked, Codes.sendFails, .ping)
  | .ping, .statusNotConnected => ([], Codes.at 0 [], .ping)
  | .ping, .statusDisconnectPending => (Codes.lost, Codes.at 0 [], .ping)
  | .ping, _ => (Codes.linked, Codes.at 0 [], .ping)
  | .disconnect, .sendFailed => (Codes.linked, Codes.sendFails, .disconnect)
  | .disconnect, .statusNotConnected => ([], Codes.at 0 [], .disconnect)
  | .disconnect, _ => (Codes.linked, Codes.at 0 [], .disconnect)
  | .processLoop, st => ((Codes.loopRun .processLoop st).1, (Codes.loopRun .processLoop st).2, .processLoop)
  | .receiveLoop, st => ((Codes.loopRun .receiveLoop st).1, (Codes.loopRun .receiveLoop st).2, .receiveLoop)
  | .cancelCallback, .badParameter => (Codes.half, Codes.at 0 [], .cancel 7)
  | .cancelCallback, _ => (Codes.half, Codes.at 0 [], .cancel 6)
  | .checkConnectStatus, .statusNotConnected => ([], Codes.at 0 [], .check)
  | .checkConnectStatus, .statusDisconnectPending => (Codes.lost, Codes.at 0 [], .check)
  | .checkConnectStatus, _ => (Codes.linked, Codes.at 0 [], .check)

def Codes.steps (l : List (Env × Codes.Act)) : List (Env × ApiCall) := l.map fun x => (x.1, x.2.call)

/-- The code of a run. -/
def Codes.codeOf (x : List (Env × Codes.Act) × Env × Codes.Act) : Option Status :=
  match Ex.play Ex.w0 (Codes.steps x.1) with
  | none => none
  | some (_, w) => (Ex.ret (callIn Ex.g w x.2.1 x.2.2.call)).bind ApiRet.code

def Codes.allFns : List Fn :=
  [.connect, .subscribe, .unsubscribe, .publish, .ping, .disconnect, .processLoop, .receiveLoop, .cancelCallback, .checkConnectStatus]

theorem Codes.runs : (Codes.allFns.all fun f => (returned f).all fun st => Codes.codeOf (Codes.run f st) == some st && fnOf (Codes.run f st).2.2.call == some f) = true := by
  decide +kernel

/-! ### The theorems -/

/-- C65.  A function that is called in any world a history of calls can lead to and that returns, returns one of the codes of `returned`. -/
theorem C65_codes {g : Cfg} {h : List (ApiCall × ApiRet)} {w w' : World} {c : ApiCall} {e : Env} {r : ApiRet} {f : Fn}
    (hh : FromInit g h w) (hv : ValidCall g c) (hc : callIn g w e c = .done r w') (hf : fnOf c = some f) :
    ∃ st, r.code = some st ∧ st ∈ returned f := by
  obtain ⟨_, _, hi, s, hrep, _, _⟩ := hh.inv
  obtain ⟨es, _, hd⟩ := callIn_done hh.cfg hv hi hrep hc
  exact hd.codes hf

/-- C65.  `returned` is exact: a code is in the list of a function if and only if some call of the function, after some history, returns it. -/
theorem C65_exact (f : Fn) (st : Status) :
    st ∈ returned f ↔ ∃ g h w e c r w', FromInit g h w ∧ ValidCall g c ∧ fnOf c = some f ∧ callIn g w e c = .done r w' ∧ r.code = some st := by
  constructor
  · intro h
    have hf : f ∈ Codes.allFns := by cases f <;> decide
    have := List.all_eq_true.mp (List.all_eq_true.mp Codes.runs f hf) st h
    rw [Bool.and_eq_true] at this
    have h1 := beq_iff_eq.mp this.1
    have h2 := beq_iff_eq.mp this.2
    unfold Codes.codeOf at h1
    cases hp : Ex.play Ex.w0 (Codes.steps (Codes.run f st).1) with
    | none => rw [hp] at h1; cases h1
    | some x =>
      obtain ⟨hist, w⟩ := x
      rw [hp] at h1
      obtain ⟨r, h3, h4⟩ := Option.bind_eq_some_iff.mp h1
      have hv : ∀ x ∈ Codes.steps (Codes.run f st).1, ValidCall Ex.g x.2 := by
        intro x hx
        obtain ⟨y, _, rfl⟩ := List.mem_map.mp hx
        exact y.2.valid
      exact ⟨Ex.g, hist, w, _, _, r, _, ⟨Ex.gOk, Ex.w0, Ex.ctxInit true, rfl, Ex.play_hist hv hp⟩, Codes.Act.valid _, h2, Ex.ret_done h3, h4⟩
  · rintro ⟨g, h, w, e, c, r, w', h1, h2, h3, h4, h5⟩
    obtain ⟨st', h6, h7⟩ := C65_codes h1 h2 h4 h3
    rw [h5] at h6
    cases h6
    exact h7

/-- C65.  Compared with the header: the codes that are returned although they are not listed, and the codes that are listed but not returned, are these. -/
theorem C65_header (f : Fn) (st : Status) :
    ((st ∈ returned f ∧ st ∉ documented f) ↔ (f, st) ∈ unlisted) ∧ ((st ∈ documented f ∧ st ∉ returned f) ↔ (f, st) ∈ neverReturned) := by
  cases f <;> cases st <;> decide

end Mqtt
