/-
Model of source/core_mqtt_state.c: the in-flight publish records.

A record array and its `...MaxCount` are one list (`[]` is the `NULL` pointer with count 0; `MQTT_InitStatefulQoS`,
core_mqtt.c 2755-2775, rejects any other combination).  Array accesses are checked: an index outside the list is `ub`.
-/
import Verif.Model.Base

namespace Mqtt

/-- `MQTTPublishState_t`, core_mqtt.h 176-189 -/
inductive PubState where
  | null | publishSend | pubAckSend | pubRecSend | pubRelSend | pubCompSend
  | pubAckPending | pubRecPending | pubRelPending | pubCompPending | publishDone
  deriving DecidableEq, Repr

/-- Numeric value of the enumerator, core_mqtt.h 176-189 (used for the bit maps). -/
def PubState.toNat : PubState → Nat
  | .null => 0 | .publishSend => 1 | .pubAckSend => 2 | .pubRecSend => 3 | .pubRelSend => 4 | .pubCompSend => 5
  | .pubAckPending => 6 | .pubRecPending => 7 | .pubRelPending => 8 | .pubCompPending => 9 | .publishDone => 10

/-- `MQTTPubAckType_t`, core_mqtt.h 195-201.  Simplification: only the four enumerators exist, so the check
`packetType > MQTTPubcomp` (core_mqtt_state.c 1029) is never taken. -/
inductive AckType where
  | puback | pubrec | pubrel | pubcomp
  deriving DecidableEq, Repr

/-- `MQTTStateOperation_t`, core_mqtt_state.h 56-60 -/
inductive Op where
  | send | receive
  deriving DecidableEq, Repr

/-- `MQTTPubAckInfo_t`, core_mqtt.h 219-224 -/
structure Rec where
  packetId : UInt16
  qos : QoS
  publishState : PubState
  deriving DecidableEq, Repr

/-- The contents written into a deleted record, core_mqtt_state.c 590-592 (also a zeroed record). -/
def Rec.empty : Rec := ⟨0, .qos0, .null⟩

abbrev Records := List Rec

/-- `records[ i ]` -/
def getRec (records : Records) (i : Nat) : Res Rec :=
  match records[i]? with
  | some r => .ok r
  | none => .ub .oobRead

/-- Assignment to all three members of `records[ i ]`. -/
def setRec (records : Records) (i : Nat) (r : Rec) : Res Records :=
  if i < records.length then .ok (records.set i r) else .ub .oobWrite

/-- `validateTransitionPublish`, core_mqtt_state.c 234-298 -/
def validateTransitionPublish (currentState newState : PubState) (opType : Op) (qos : QoS) : Bool :=
  match currentState with
  | .null => if opType = .receive then newState == .pubAckSend || newState == .pubRecSend else false
  | .publishSend =>
    match qos with
    | .qos1 => newState == .pubAckPending
    | .qos2 => newState == .pubRecPending
    | .qos0 => false
  | .pubAckPending => newState == .pubAckPending
  | .pubRecPending => newState == .pubRecPending
  | _ => false

/-- `validateTransitionAck`, core_mqtt_state.c 302-409 -/
def validateTransitionAck (currentState newState : PubState) : Bool :=
  match currentState with
  | .pubAckSend => newState == .publishDone
  | .pubAckPending => newState == .publishDone
  | .pubRecSend => newState == .pubRelPending
  | .pubRelPending => newState == .pubCompSend || newState == .pubRelPending
  | .pubCompSend => newState == .publishDone || newState == .pubCompSend
  | .pubRecPending => newState == .pubRelSend
  | .pubRelSend => newState == .pubCompPending
  | .pubCompPending => newState == .publishDone || newState == .pubCompPending
  | _ => false

/-- `isPublishOutgoing`, core_mqtt_state.c 413-436 -/
def isPublishOutgoing (packetType : AckType) (opType : Op) : Bool :=
  match packetType with
  | .puback | .pubrec | .pubcomp => opType == .receive
  | .pubrel => opType == .send

/-- The loop of `findInRecord`, core_mqtt_state.c 452-461. -/
def findInRecordLoop (records : Records) (packetId : UInt16) (index : Nat) : Res (Option (Nat × Rec)) :=
  if index < records.length then do
    let r ← getRec records index
    if r.packetId = packetId then pure (some (index, r))
    else findInRecordLoop records packetId (index + 1)
  else pure none
termination_by records.length - index

/-- `findInRecord`, core_mqtt_state.c 440-468.  `none` is `MQTT_INVALID_STATE_COUNT` (then `*pCurrentState` is
`MQTTStateNull` and `*pQos` unchanged). -/
def findInRecord (records : Records) (packetId : UInt16) : Res (Option (Nat × Rec)) := do
  cassert (packetId != 0)
  findInRecordLoop records packetId 0

/-- The loop of `compactRecords`, core_mqtt_state.c 481-509; `emptyIndex = none` is `MQTT_INVALID_STATE_COUNT`. -/
def compactLoop (records : Records) (index : Nat) (emptyIndex : Option Nat) (n : Nat) : Res Records :=
  match n with
  | 0 => pure records
  | n + 1 => do
    let r ← getRec records index
    if r.packetId = 0 then
      match emptyIndex with
      | none => compactLoop records (index + 1) (some index) n
      | some e => compactLoop records (index + 1) (some e) n
    else
      match emptyIndex with
      | none => compactLoop records (index + 1) none n
      | some e => do
        let records ← setRec records e r
        let records ← setRec records index Rec.empty
        compactLoop records (index + 1) (some (e + 1)) n

/-- `compactRecords`, core_mqtt_state.c 472-510 (`n` counts the remaining iterations). -/
def compactRecords (records : Records) : Res Records :=
  compactLoop records 0 none records.length

/-- The loop of `addRecord`, core_mqtt_state.c 540-567: the index runs down from `n - 1`.  `none` is the collision
exit, otherwise the resulting `availableIndex`. -/
def addRecordLoop (records : Records) (packetId : UInt16) : (n availableIndex : Nat) → (validEntryFound : Bool) → Res (Option Nat)
  | 0, availableIndex, _ => pure (some availableIndex)
  | n + 1, availableIndex, validEntryFound => do
    let r ← getRec records n
    if r.packetId = 0 then
      if validEntryFound = false then addRecordLoop records packetId n n validEntryFound
      else addRecordLoop records packetId n availableIndex validEntryFound
    else if r.packetId = packetId then pure none
    else addRecordLoop records packetId n availableIndex true

/-- `addRecord`, core_mqtt_state.c 514-577.  With an empty array `records[ recordCount - 1 ]` is outside the array.
Assumption: fewer than 2^31 records, since the C loop variable is an `int32_t`. -/
def addRecord (records : Records) (packetId : UInt16) (qos : QoS) (publishState : PubState) : Res (Status × Records) := do
  cassert (packetId != 0)
  cassert (qos != .qos0)
  if records.length = 0 then .ub .oobRead
  else
    let last ← getRec records (records.length - 1)
    let records ← (if last.packetId ≠ 0 then compactRecords records else pure records)
    match ← addRecordLoop records packetId records.length records.length false with
    | none => pure (.stateCollision, records)
    | some availableIndex =>
      if availableIndex < records.length then do
        let records ← setRec records availableIndex ⟨packetId, qos, publishState⟩
        pure (.success, records)
      else pure (.noMemory, records)

/-- `updateRecord`, core_mqtt_state.c 581-599 -/
def updateRecord (records : Records) (recordIndex : Nat) (newState : PubState) (shouldDelete : Bool) : Res Records := do
  if shouldDelete then setRec records recordIndex Rec.empty
  else do
    let r ← getRec records recordIndex
    setRec records recordIndex { r with publishState := newState }

/-- `UINT16_BITMAP_BIT_SET_AT` / `UINT16_SET_BIT` / `UINT16_CHECK_BIT`, core_mqtt_state.c 54-70, with bit maps as
natural numbers (positions are at most 10, so 16 bits suffice). -/
def bitmap (l : List PubState) : Nat := l.foldl (fun m s => m ||| (1 <<< s.toNat)) 0

def checkBitmap (m : Nat) (s : PubState) : Bool := (m &&& (1 <<< s.toNat)) == (1 <<< s.toNat)

/-- The loop of `stateSelect`, core_mqtt_state.c 630-644: packet id (0 if none) and the new cursor. -/
def stateSelectLoop (records : Records) (searchStates : Nat) (cursor : Nat) : Res (UInt16 × Nat) :=
  if cursor < records.length then do
    let r ← getRec records cursor
    if checkBitmap searchStates r.publishState then pure (r.packetId, cursor + 1)
    else stateSelectLoop records searchStates (cursor + 1)
  else pure (0, cursor)
termination_by records.length - cursor

/-- The bit map of all outgoing states, core_mqtt_state.c 617-622 -/
def outgoingStates : Nat := bitmap [.publishSend, .pubAckPending, .pubRecPending, .pubRelSend, .pubCompPending]

/-- `stateSelect`, core_mqtt_state.c 603-647, with the three assertions on the bit map. -/
def stateSelect (records : Records) (searchStates : Nat) (cursor : Nat) : Res (UInt16 × Nat) := do
  cassert (searchStates != 0)
  cassert ((outgoingStates &&& searchStates) > 0)
  cassert ((outgoingStates ||| searchStates) == outgoingStates)  -- ( ~outgoingStates & searchStates ) == 0
  stateSelectLoop records searchStates cursor

/-- `qosValid` of `MQTT_CalculateStateAck`, core_mqtt_state.c 657 and 664 -/
def ackQosValid (packetType : AckType) (qos : QoS) : Bool :=
  match packetType with
  | .puback => qos == .qos1
  | _ => qos == .qos2

/-- The switch of `MQTT_CalculateStateAck`, core_mqtt_state.c 659-686 -/
def ackCalculated (packetType : AckType) (opType : Op) : PubState :=
  match packetType with
  | .puback => .publishDone
  | .pubrec => if opType = .send then .pubRelPending else .pubRelSend
  | .pubrel => if opType = .send then .pubCompPending else .pubCompSend
  | .pubcomp => .publishDone

/-- `MQTT_CalculateStateAck`, core_mqtt_state.c 651-696 -/
def calculateStateAck (packetType : AckType) (opType : Op) (qos : QoS) : PubState :=
  if ackQosValid packetType qos = false then .null else ackCalculated packetType opType

/-- `updateStateAck`, core_mqtt_state.c 700-757 -/
def updateStateAck (records : Records) (recordIndex : Nat) (packetId : UInt16) (currentState newState : PubState) :
    Res (Status × Records) := do
  let shouldDeleteRecord := newState == .publishDone || newState == .pubRelSend
  if validateTransitionAck currentState newState then
    if currentState ≠ newState then do
      let records ← updateRecord records recordIndex newState shouldDeleteRecord
      if newState = .pubRelSend then addRecord records packetId .qos2 .pubRelSend
      else pure (.success, records)
    else pure (.success, records)
  else pure (.illegalState, records)

/-- The two record arrays of a context. -/
structure Tables where
  outgoing : Records
  incoming : Records
  deriving DecidableEq, Repr

/-- `updateStatePublish`, core_mqtt_state.c 761-815 -/
def updateStatePublish (t : Tables) (recordIndex : Nat) (packetId : UInt16) (opType : Op) (qos : QoS)
    (currentState newState : PubState) : Res (Status × Tables) := do
  cassert (packetId != 0)
  cassert (qos != .qos0)
  if validateTransitionPublish currentState newState opType qos then
    match opType with
    | .receive => do
      let (st, inc) ← addRecord t.incoming packetId qos newState
      pure (st, { t with incoming := inc })
    | .send =>
      if currentState ≠ newState then do
        let out ← updateRecord t.outgoing recordIndex newState false
        pure (.success, { t with outgoing := out })
      else pure (.success, t)
  else pure (.illegalState, t)

/-- `MQTT_ReserveState`, core_mqtt_state.c 819-844 (non-null context) -/
def reserveState (t : Tables) (packetId : UInt16) (qos : QoS) : Res (Status × Tables) :=
  if qos = .qos0 then .ok (.success, t)
  else if packetId = 0 then .ok (.badParameter, t)
  else do
    let (st, out) ← addRecord t.outgoing packetId qos .publishSend
    pure (st, { t with outgoing := out })

/-- `MQTT_CalculateStatePublish`, core_mqtt_state.c 848-873 -/
def calculateStatePublish (opType : Op) (qos : QoS) : PubState :=
  match qos with
  | .qos0 => .publishDone
  | .qos1 => if opType = .send then .pubAckPending else .pubAckSend
  | .qos2 => if opType = .send then .pubRecPending else .pubRecSend

/-- `MQTT_UpdateStatePublish`, core_mqtt_state.c 877-947 (non-null context and `pNewState`): status, value written to
`*pNewState` (if any), tables. -/
def updateStatePublishApi (t : Tables) (packetId : UInt16) (opType : Op) (qos : QoS) : Res (Status × Option PubState × Tables) :=
  if qos = .qos0 then .ok (.success, some .publishDone, t)
  else if packetId = 0 then .ok (.badParameter, none, t)
  else do
    let newState := calculateStatePublish opType qos
    match opType with
    | .send =>
      match ← findInRecord t.outgoing packetId with
      | none => pure (.badParameter, none, t)
      | some (recordIndex, r) =>
        if r.qos ≠ qos then pure (.badParameter, none, t)
        else do
          let (st, t) ← updateStatePublish t recordIndex packetId opType qos r.publishState newState
          pure (st, if st = .success then some newState else none, t)
    | .receive => do
      let (st, t) ← updateStatePublish t 0 packetId opType qos .null newState
      pure (st, if st = .success then some newState else none, t)

/-- `MQTT_RemoveStateRecord`, core_mqtt_state.c 951-995 (non-null context).  A packet id 0 runs into the assertion of
`findInRecord`. -/
def removeStateRecord (t : Tables) (packetId : UInt16) : Res (Status × Tables) :=
  if t.outgoing = [] then .ok (.badParameter, t)
  else do
    match ← findInRecord t.outgoing packetId with
    | none => pure (.badParameter, t)
    | some (recordIndex, r) =>
      if r.publishState = .null then pure (.badParameter, t)
      else if r.qos ≠ .qos1 ∧ r.qos ≠ .qos2 then pure (.badParameter, t)
      else do
        let out ← updateRecord t.outgoing recordIndex .null true
        pure (.success, { t with outgoing := out })

/-- `MQTT_UpdateStateAck`, core_mqtt_state.c 999-1077 (non-null context and `pNewState`) -/
def updateStateAckApi (t : Tables) (packetId : UInt16) (packetType : AckType) (opType : Op) :
    Res (Status × Option PubState × Tables) :=
  if packetId = 0 then .ok (.badParameter, none, t)
  else do
    let isOutgoing := isPublishOutgoing packetType opType
    let records := if isOutgoing then t.outgoing else t.incoming
    match ← findInRecord records packetId with
    | none => pure (.badResponse, none, t)
    | some (recordIndex, r) => do
      let newState := calculateStateAck packetType opType r.qos
      let (st, records) ← updateStateAck records recordIndex packetId r.publishState newState
      let t : Tables := if isOutgoing then { t with outgoing := records } else { t with incoming := records }
      pure (st, if st = .success then some newState else none, t)

/-- `MQTT_PubrelToResend`, core_mqtt_state.c 1081-1113 (non-null arguments): packet id, new cursor, and the value
written to `*pState` (if any). -/
def pubrelToResend (t : Tables) (cursor : Nat) : Res (UInt16 × Nat × Option PubState) := do
  let (id, cursor) ← stateSelect t.outgoing (bitmap [.pubCompPending, .pubRelSend]) cursor
  pure (id, cursor, if id ≠ 0 then some .pubRelSend else none)

/-- `MQTT_PublishToResend`, core_mqtt_state.c 1117-1143 (non-null arguments): packet id and new cursor. -/
def publishToResend (t : Tables) (cursor : Nat) : Res (UInt16 × Nat) :=
  stateSelect t.outgoing (bitmap [.publishSend, .pubAckPending, .pubRecPending]) cursor

end Mqtt
