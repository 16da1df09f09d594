/-
Specification of the in-flight publishes: two insertion-ordered lists (outgoing and incoming), each of bounded
capacity, whose entries go through the phases of the MQTT 3.1.1 QoS 1 and QoS 2 exchanges (4.3.2, 4.3.3).
No slots, no holes, no compaction.
-/
import Verif.Model.State

namespace Mqtt.Spec

/-- Sender side of a QoS 1 / QoS 2 exchange (4.3.2, 4.3.3). -/
inductive OutPhase where
  | toSend1      -- reserved with QoS 1, PUBLISH not yet sent
  | toSend2      -- reserved with QoS 2, PUBLISH not yet sent
  | awaitPuback  -- QoS 1, PUBLISH sent
  | awaitPubrec  -- QoS 2, PUBLISH sent
  | sendPubrel   -- QoS 2, PUBREC received, PUBREL not yet sent
  | awaitPubcomp -- QoS 2, PUBREL sent
  deriving DecidableEq, Repr

/-- Receiver side of a QoS 1 / QoS 2 exchange. -/
inductive InPhase where
  | sendPuback  -- QoS 1, PUBLISH received
  | sendPubrec  -- QoS 2, PUBLISH received
  | awaitPubrel -- QoS 2, PUBREC sent
  | sendPubcomp -- QoS 2, PUBREL received
  deriving DecidableEq, Repr

/-- Entries in insertion order. -/
abbrev Table (φ : Type) := List (UInt16 × φ)

namespace Table
variable {φ : Type}
def phase (l : Table φ) (id : UInt16) : Option φ := (l.find? fun e => e.1 = id).map (·.2)
def remove (l : Table φ) (id : UInt16) : Table φ := l.filter fun e => e.1 ≠ id
def set (l : Table φ) (id : UInt16) (p : φ) : Table φ := l.map fun e => if e.1 = id then (id, p) else e
/-- A new entry goes to the end; an id in use is a collision, a full table has no memory. -/
def insert (cap : Nat) (l : Table φ) (id : UInt16) (p : φ) : Status × Table φ :=
  if id ∈ l.map (·.1) then (.stateCollision, l)
  else if l.length = cap then (.noMemory, l)
  else (.success, l ++ [(id, p)])
end Table

structure InFlight where
  outCap : Nat
  inCap : Nat
  out : Table OutPhase
  inc : Table InPhase
  deriving DecidableEq, Repr

/-- A call of the state engine: `MQTT_ReserveState`, `MQTT_UpdateStatePublish`, `MQTT_UpdateStateAck`,
`MQTT_RemoveStateRecord`. -/
inductive Call where
  | reserve (id : UInt16) (qos : QoS)
  | publish (op : Op) (id : UInt16) (qos : QoS)
  | ack (op : Op) (type : AckType) (id : UInt16)
  | cancel (id : UInt16)
  deriving DecidableEq, Repr

/-- What a call returns: its status and the state it reports through its output parameter, if it writes it. -/
abbrev Answer := Status × Option PubState

/-- What an acknowledgement does to the entry it is for. -/
inductive Effect (φ : Type) where
  | goto (p : φ)      -- change phase in place
  | requeue (p : φ)   -- change phase and move behind all other entries
  | finish            -- the exchange is complete: forget the entry

def Effect.apply {φ : Type} (l : Table φ) (id : UInt16) : Effect φ → Table φ
  | .goto p => l.set id p
  | .requeue p => l.remove id ++ [(id, p)]
  | .finish => l.remove id

/-- Acknowledgements of outgoing publishes: PUBACK, PUBREC, PUBCOMP received, PUBREL sent.  `none`: not allowed in
this phase.  A PUBREL may be sent again while its PUBCOMP is awaited. -/
def outAck : AckType → OutPhase → Option (Effect OutPhase × PubState)
  | .puback, .awaitPuback => some (.finish, .publishDone)
  | .pubrec, .awaitPubrec => some (.requeue .sendPubrel, .pubRelSend)
  | .pubrel, .sendPubrel => some (.goto .awaitPubcomp, .pubCompPending)
  | .pubrel, .awaitPubcomp => some (.goto .awaitPubcomp, .pubCompPending)
  | .pubcomp, .awaitPubcomp => some (.finish, .publishDone)
  | _, _ => none

/-- Acknowledgements of incoming publishes: PUBACK, PUBREC, PUBCOMP sent, PUBREL received.  A PUBREC may be sent
again while its PUBREL is awaited, and a repeated PUBREL may arrive before the PUBCOMP is sent. -/
def inAck : AckType → InPhase → Option (Effect InPhase × PubState)
  | .puback, .sendPuback => some (.finish, .publishDone)
  | .pubrec, .sendPubrec => some (.goto .awaitPubrel, .pubRelPending)
  | .pubrec, .awaitPubrel => some (.goto .awaitPubrel, .pubRelPending)
  | .pubrel, .awaitPubrel => some (.goto .sendPubcomp, .pubCompSend)
  | .pubrel, .sendPubcomp => some (.goto .sendPubcomp, .pubCompSend)
  | .pubcomp, .sendPubcomp => some (.finish, .publishDone)
  | _, _ => none

/-- Handing the PUBLISH to the network, for the first time or again. -/
def sentPublish : QoS → OutPhase → Option OutPhase
  | .qos1, .toSend1 => some .awaitPuback
  | .qos1, .awaitPuback => some .awaitPuback
  | .qos2, .toSend2 => some .awaitPubrec
  | .qos2, .awaitPubrec => some .awaitPubrec
  | _, _ => none

def outQoS : OutPhase → QoS
  | .toSend1 | .awaitPuback => .qos1
  | _ => .qos2

/-- An acknowledgement for entry `id` of a table. -/
def ackTable {φ : Type} (rule : φ → Option (Effect φ × PubState)) (l : Table φ) (id : UInt16) : Answer × Table φ :=
  match l.phase id with
  | none => ((.badResponse, none), l)
  | some p =>
    match rule p with
    | none => ((.illegalState, none), l)
    | some (e, s) => ((.success, some s), e.apply l id)

/-- PUBACK, PUBREC and PUBCOMP travel from receiver to sender, PUBREL from sender to receiver. -/
def forOutgoing : Op → AckType → Bool
  | .send, .pubrel => true
  | .receive, .pubrel => false
  | .send, _ => false
  | .receive, _ => true

def step (s : InFlight) : Call → Answer × InFlight
  | .reserve id qos =>
    match qos with
    | .qos0 => ((.success, none), s)
    | .qos1 | .qos2 =>
      if id = 0 then ((.badParameter, none), s)
      else
        let r := s.out.insert s.outCap id (if qos = .qos1 then OutPhase.toSend1 else .toSend2)
        ((r.1, none), { s with out := r.2 })
  | .publish op id qos =>
    match qos with
    | .qos0 => ((.success, some .publishDone), s)
    | .qos1 | .qos2 =>
      if id = 0 then ((.badParameter, none), s)
      else match op with
      | .receive =>
        let r := s.inc.insert s.inCap id (if qos = .qos1 then InPhase.sendPuback else .sendPubrec)
        ((r.1, if r.1 = .success then some (if qos = .qos1 then .pubAckSend else .pubRecSend) else none),
          { s with inc := r.2 })
      | .send =>
        match s.out.phase id with
        | none => ((.badParameter, none), s)
        | some p =>
          if outQoS p ≠ qos then ((.badParameter, none), s)
          else match sentPublish qos p with
          | none => ((.illegalState, none), s)
          | some p' => ((.success, some (if qos = .qos1 then .pubAckPending else .pubRecPending)),
              { s with out := s.out.set id p' })
  | .ack op type id =>
    if id = 0 then ((.badParameter, none), s)
    else if forOutgoing op type then
      let r := ackTable (outAck type) s.out id
      (r.1, { s with out := r.2 })
    else
      let r := ackTable (inAck type) s.inc id
      (r.1, { s with inc := r.2 })
  | .cancel id =>
    match s.out.phase id with
    | none => ((.badParameter, none), s)
    | some _ => ((.success, none), { s with out := s.out.remove id })

/-- Answers and final state of a history. -/
def run (s : InFlight) : List Call → List Answer × InFlight
  | [] => ([], s)
  | c :: cs =>
    let r := step s c
    let r' := run r.2 cs
    (r.1 :: r'.1, r'.2)

/-! ### How an entry appears in the record arrays -/

def outRec : UInt16 × OutPhase → Rec
  | (id, .toSend1) => ⟨id, .qos1, .publishSend⟩
  | (id, .toSend2) => ⟨id, .qos2, .publishSend⟩
  | (id, .awaitPuback) => ⟨id, .qos1, .pubAckPending⟩
  | (id, .awaitPubrec) => ⟨id, .qos2, .pubRecPending⟩
  | (id, .sendPubrel) => ⟨id, .qos2, .pubRelSend⟩
  | (id, .awaitPubcomp) => ⟨id, .qos2, .pubCompPending⟩

def inRec : UInt16 × InPhase → Rec
  | (id, .sendPuback) => ⟨id, .qos1, .pubAckSend⟩
  | (id, .sendPubrec) => ⟨id, .qos2, .pubRecSend⟩
  | (id, .awaitPubrel) => ⟨id, .qos2, .pubRelPending⟩
  | (id, .sendPubcomp) => ⟨id, .qos2, .pubCompSend⟩

/-- The array holds exactly these entries in this order, all other slots being unused, and the ids are distinct. -/
structure Holds {φ : Type} (enc : UInt16 × φ → Rec) (recs : Records) (cap : Nat) (l : Table φ) : Prop where
  size : recs.length = cap
  entries : (recs.filter fun r => r.packetId ≠ 0) = l.map enc
  unused : ∀ r ∈ recs, r.packetId = 0 → r = Rec.empty
  distinct : l.Pairwise fun a b => a.1 ≠ b.1

/-- Both arrays. -/
def Represents (t : Tables) (s : InFlight) : Prop :=
  Holds outRec t.outgoing s.outCap s.out ∧ Holds inRec t.incoming s.inCap s.inc

end Mqtt.Spec

namespace Mqtt

/-- The publishes in flight in an array, in order. -/
def inFlight (recs : Records) : Records := recs.filter fun r => r.packetId ≠ 0

/-- The ids of the outgoing publishes for which neither PUBACK nor PUBREC has arrived, in order. -/
def unacked (t : Tables) : List UInt16 :=
  ((inFlight t.outgoing).filter fun r =>
    r.publishState = .publishSend ∨ r.publishState = .pubAckPending ∨ r.publishState = .pubRecPending).map (·.packetId)

/-- The ids of the outgoing publishes for which PUBREC has arrived and PUBCOMP has not, in order. -/
def unreleased (t : Tables) : List UInt16 :=
  ((inFlight t.outgoing).filter fun r => r.publishState = .pubRelSend ∨ r.publishState = .pubCompPending).map (·.packetId)

end Mqtt
