/-
Base types of the model: outcomes with undefined behaviour as a distinct case,
checked memory access, status codes and constants.
-/
namespace Mqtt

/-- Reasons for which an execution of the C code has no defined meaning (or stops in
`assert`).  These are outcomes of the model, never totalised away. -/
inductive UB where
  /-- a failed `assert(...)` -/
  | assertFailed
  /-- dereference of a `NULL` pointer -/
  | nullDeref
  /-- read outside the object a pointer refers to -/
  | oobRead
  /-- write outside the object a pointer refers to -/
  | oobWrite
  deriving DecidableEq, Repr

/-- Result of a C function: a value, or undefined behaviour. -/
inductive Res (α : Type) where
  | ok (a : α)
  | ub (e : UB)
  deriving DecidableEq, Repr

namespace Res

def bind {α β : Type} (x : Res α) (f : α → Res β) : Res β :=
  match x with
  | ok a => f a
  | ub e => ub e

instance : Monad Res where
  pure := ok
  bind := bind

@[simp] theorem pure_eq {α : Type} (a : α) : (pure a : Res α) = ok a := rfl
@[simp] theorem ok_bind {α β : Type} (a : α) (f : α → Res β) : (ok a >>= f) = f a := rfl
@[simp] theorem ub_bind {α β : Type} (e : UB) (f : α → Res β) : ((ub e : Res α) >>= f) = ub e := rfl
@[simp] theorem ok_map {α β : Type} (a : α) (f : α → β) : (f <$> (ok a : Res α)) = ok (f a) := rfl
@[simp] theorem ub_map {α β : Type} (e : UB) (f : α → β) : (f <$> (ub e : Res α)) = ub e := rfl

theorem bind_assoc' {α β γ : Type} (x : Res α) (f : α → Res β) (g : β → Res γ) :
    (x >>= f) >>= g = x >>= fun a => f a >>= g := by
  cases x <;> rfl

instance : LawfulMonad Res := LawfulMonad.mk'
  (id_map := by intro α x; cases x <;> rfl)
  (pure_bind := by intros; rfl)
  (bind_assoc := by intro α β γ x f g; exact bind_assoc' x f g)

/-- Inversion of a sequence of two steps that returned a value. -/
theorem bind_eq_ok {α β : Type} {x : Res α} {f : α → Res β} {b : β} :
    (x >>= f) = ok b ↔ ∃ a, x = ok a ∧ f a = ok b := by
  cases x with
  | ok a => exact ⟨fun h => ⟨a, rfl, h⟩, fun ⟨a', h1, h2⟩ => by cases h1; exact h2⟩
  | ub e => exact ⟨fun h => (by cases h), fun ⟨a', h1, _⟩ => (by cases h1)⟩

/-- The execution is defined: no undefined behaviour, no failed assertion. -/
def Defined {α : Type} (x : Res α) : Prop := ∃ a, x = ok a

end Res

/-- A checked `assert(c)`. -/
def cassert (c : Bool) : Res Unit := if c then .ok () else .ub .assertFailed

@[simp] theorem cassert_true : cassert true = .ok () := rfl
@[simp] theorem cassert_false : cassert false = .ub .assertFailed := rfl

/-- `ptr[i]` for a pointer to the array `m`. -/
def readByte (m : List UInt8) (i : Nat) : Res UInt8 :=
  match m[i]? with
  | some b => .ok b
  | none => .ub .oobRead

/-- The source operand of `memcpy(dst, p, n)`: the first `n` bytes behind pointer `p`. -/
def readMem (p : Option (List UInt8)) (n : Nat) : Res (List UInt8) :=
  match p with
  | none => .ub .nullDeref
  | some m => if n ≤ m.length then .ok (m.take n) else .ub .oobRead

/-- A write cursor: a memory object and the position a C `uint8_t *` points to. -/
structure Cur where
  mem : List UInt8
  pos : Nat
  deriving DecidableEq, Repr

/-- Store the bytes `bs` at the cursor and advance (`*p = b; p++`, or `memcpy`). -/
def put (c : Cur) (bs : List UInt8) : Res Cur :=
  if c.pos + bs.length ≤ c.mem.length then
    .ok ⟨c.mem.take c.pos ++ bs ++ c.mem.drop (c.pos + bs.length), c.pos + bs.length⟩
  else .ub .oobWrite

/-- Advance the cursor by `n` bytes without writing (`p = &p[n]`); the resulting pointer
must stay within the object or one past its end. -/
def skip (c : Cur) (n : Nat) : Res Cur :=
  if c.pos + n ≤ c.mem.length then .ok ⟨c.mem, c.pos + n⟩ else .ub .oobWrite

/-- Every property of a byte can be decided by checking all 256 bytes. -/
instance decidableForallUInt8 (p : UInt8 → Prop) [DecidablePred p] : Decidable (∀ b, p b) :=
  decidable_of_iff (∀ n : Fin 256, p (UInt8.ofNat n.val))
    ⟨fun h b => by
      have := h ⟨b.toNat, UInt8.toNat_lt b⟩
      simpa using this,
     fun h n => h _⟩

/-- `MQTTStatus_t`, core_mqtt_serializer.h 86-109. -/
inductive Status where
  | success | badParameter | noMemory | sendFailed | recvFailed | badResponse
  | serverRefused | noDataAvailable | illegalState | stateCollision | keepAliveTimeout
  | needMoreBytes | statusConnected | statusNotConnected | statusDisconnectPending
  | publishStoreFailed | publishRetrieveFailed
  deriving DecidableEq, Repr

/-- `MQTTQoS_t`, core_mqtt_serializer.h 115-120.  Simplification: C enums may hold
values other than the enumerators; the model has exactly the three enumerators. -/
inductive QoS where
  | qos0 | qos1 | qos2
  deriving DecidableEq, Repr

/-- Numeric value of the enumerator, core_mqtt_serializer.h 115-120. -/
def QoS.toByte : QoS → UInt8
  | .qos0 => 0
  | .qos1 => 1
  | .qos2 => 2

/-! ### Packet type constants, core_mqtt_serializer.h 53-66 -/

def ptCONNECT : UInt8 := 0x10
def ptCONNACK : UInt8 := 0x20
def ptPUBLISH : UInt8 := 0x30
def ptPUBACK : UInt8 := 0x40
def ptPUBREC : UInt8 := 0x50
def ptPUBREL : UInt8 := 0x62
def ptPUBCOMP : UInt8 := 0x70
def ptSUBSCRIBE : UInt8 := 0x82
def ptSUBACK : UInt8 := 0x90
def ptUNSUBSCRIBE : UInt8 := 0xA2
def ptUNSUBACK : UInt8 := 0xB0
def ptPINGREQ : UInt8 := 0xC0
def ptPINGRESP : UInt8 := 0xD0
def ptDISCONNECT : UInt8 := 0xE0

/-- `MQTT_MAX_REMAINING_LENGTH`, core_mqtt_serializer.c 97 -/
def maxRemainingLength : Nat := 268435455
/-- `MQTT_REMAINING_LENGTH_INVALID`, core_mqtt_serializer.c 141 -/
def remainingLengthInvalid : Nat := 268435456

/-! ### Bit macros, core_mqtt_serializer.c 99-134 -/

/-- `UINT8_SET_BIT`, core_mqtt_serializer.c 102 -/
def setBit (x : UInt8) (position : UInt8) : UInt8 := x ||| ((1 : UInt8) <<< position)
/-- `UINT8_CLEAR_BIT`, core_mqtt_serializer.c 107 -/
def clearBit (x : UInt8) (position : UInt8) : UInt8 := x &&& ~~~((1 : UInt8) <<< position)
/-- `UINT8_CHECK_BIT`, core_mqtt_serializer.c 115 -/
def checkBit (x : UInt8) (position : UInt8) : Bool :=
  (x &&& ((1 : UInt8) <<< position)) == ((1 : UInt8) <<< position)
/-- `UINT16_HIGH_BYTE`, core_mqtt_serializer.c 120 -/
def highByte (x : UInt16) : UInt8 := (x >>> 8).toUInt8
/-- `UINT16_LOW_BYTE`, core_mqtt_serializer.c 125 -/
def lowByte (x : UInt16) : UInt8 := (x &&& 0x00ff).toUInt8
/-- `UINT16_DECODE` applied to the two bytes `ptr[0]`, `ptr[1]`, core_mqtt_serializer.c 132-134 -/
def decode16 (hi lo : UInt8) : UInt16 := (hi.toUInt16 <<< 8) ||| lo.toUInt16

/-! ### Parameter structures, core_mqtt_serializer.h 122-271 -/

/-- A pointer to caller-owned memory; `none` is `NULL`. -/
abbrev Ptr := Option (List UInt8)

/-- `MQTTFixedBuffer_t`, core_mqtt_serializer.h 129-133.  `size` is what the caller claims;
the list behind `pBuffer` is the memory that really exists. -/
structure FixedBuffer where
  pBuffer : Ptr
  size : Nat
  deriving DecidableEq, Repr

/-- `MQTTConnectInfo_t`, core_mqtt_serializer.h 139-180 -/
structure ConnectInfo where
  cleanSession : Bool
  keepAliveSeconds : UInt16
  pClientIdentifier : Ptr
  clientIdentifierLength : UInt16
  pUserName : Ptr
  userNameLength : UInt16
  pPassword : Ptr
  passwordLength : UInt16
  deriving DecidableEq, Repr

/-- `MQTTSubscribeInfo_t`, core_mqtt_serializer.h 186-202 -/
structure SubscribeInfo where
  qos : QoS
  pTopicFilter : Ptr
  topicFilterLength : UInt16
  deriving DecidableEq, Repr

/-- `MQTTPublishInfo_t`, core_mqtt_serializer.h 208-244.  `payloadLength` is a `size_t`. -/
structure PublishInfo where
  qos : QoS
  retain : Bool
  dup : Bool
  pTopicName : Ptr
  topicNameLength : UInt16
  pPayload : Ptr
  payloadLength : Nat
  deriving DecidableEq, Repr

/-- `MQTTPacketInfo_t`, core_mqtt_serializer.h 250-271.  `pRemainingData` is the memory
readable from that pointer on. -/
structure PacketInfo where
  type : UInt8
  pRemainingData : Ptr
  remainingLength : Nat
  headerLength : Nat
  deriving DecidableEq, Repr

end Mqtt
