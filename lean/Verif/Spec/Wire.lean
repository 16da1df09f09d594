/-
MQTT 3.1.1 wire format, written from the standard and independent of the code.
Section numbers refer to the OASIS MQTT 3.1.1 standard.
-/
namespace Mqtt.Spec

/-- Numeric value of a variable-length integer field (2.2.3): base-128 digits, least significant
first, the top bit of each byte being the continuation flag. -/
def varIntValue : List UInt8 → Nat
  | [] => 0
  | b :: rest => b.toNat % 128 + 128 * varIntValue rest

/-- A syntactically complete variable-length field: every byte but the last has the continuation
bit, the last one does not. -/
def VarIntShape : List UInt8 → Prop
  | [] => False
  | [b] => b.toNat < 128
  | b :: rest => 128 ≤ b.toNat ∧ VarIntShape rest

/-- `f` is a legal remaining-length field for `n` (2.2.3: at most four bytes). -/
def IsVarInt (f : List UInt8) (n : Nat) : Prop :=
  VarIntShape f ∧ f.length ≤ 4 ∧ varIntValue f = n

/-- `f` is the shortest legal field for `n`. -/
def CanonicalVarInt (f : List UInt8) (n : Nat) : Prop :=
  IsVarInt f n ∧ ∀ g, IsVarInt g n → f.length ≤ g.length

/-- The encoder given in pseudo code in section 2.2.3. -/
def varInt (n : Nat) : List UInt8 :=
  if n < 128 then [UInt8.ofNat n]
  else UInt8.ofNat (128 + n % 128) :: varInt (n / 128)
termination_by n
decreasing_by omega

/-- Two-byte big-endian integer (1.5.2). -/
def be16 (n : Nat) : List UInt8 := [UInt8.ofNat (n / 256), UInt8.ofNat (n % 256)]

/-- Length-prefixed string or binary field (1.5.3). -/
def str (s : List UInt8) : List UInt8 := be16 s.length ++ s

/-- A control packet: first byte, remaining length, body (2.1). -/
def packet (first : Nat) (body : List UInt8) : List UInt8 :=
  UInt8.ofNat first :: (varInt body.length ++ body)

/-- Largest remaining length (2.2.3). -/
def maxRemaining : Nat := 268435455

def b2n (b : Bool) : Nat := if b then 1 else 0

/-- PUBLISH (3.3).  `id` is present exactly for QoS 1 and 2. -/
structure Publish where
  dup : Bool
  qos : Fin 3
  retain : Bool
  topic : List UInt8
  id : Nat
  payload : List UInt8
  deriving DecidableEq

/-- First byte of a PUBLISH (3.3.1): type 3, DUP bit 3, QoS bits 2-1, RETAIN bit 0. -/
def publishFirst (dup : Bool) (qos : Fin 3) (retain : Bool) : Nat :=
  0x30 + 8 * b2n dup + 2 * qos.val + b2n retain

/-- Variable header and payload of a PUBLISH (3.3.2, 3.3.3). -/
def publishBody (p : Publish) : List UInt8 :=
  str p.topic ++ (if p.qos.val = 0 then [] else be16 p.id) ++ p.payload

def publishPacket (p : Publish) : List UInt8 :=
  packet (publishFirst p.dup p.qos p.retain) (publishBody p)

/-- Last will of a CONNECT. -/
structure Will where
  topic : List UInt8
  payload : List UInt8
  qos : Fin 3
  retain : Bool
  deriving DecidableEq

/-- CONNECT (3.1). -/
structure Connect where
  clean : Bool
  keepAlive : Nat
  clientId : List UInt8
  will : Option Will
  user : Option (List UInt8)
  pass : Option (List UInt8)
  deriving DecidableEq

/-- Connect flags (3.1.2.3): bit 7 user name, 6 password, 5 will retain, 4-3 will QoS, 2 will,
1 clean session, 0 reserved. -/
def connectFlagsByte (c : Connect) : Nat :=
  128 * b2n c.user.isSome + 64 * b2n c.pass.isSome
  + (match c.will with
     | none => 0
     | some w => 32 * b2n w.retain + 8 * w.qos.val + 4)
  + 2 * b2n c.clean

/-- An optional length-prefixed field: nothing when absent. -/
def optStr : Option (List UInt8) → List UInt8
  | none => []
  | some s => str s

/-- Will topic and will message (3.1.3.2, 3.1.3.3), when there is a will. -/
def willStr : Option Will → List UInt8
  | none => []
  | some w => str w.topic ++ str w.payload

/-- Variable header and payload of CONNECT (3.1.2, 3.1.3): protocol name, level 4, flags, keep alive, then the
client id, will topic, will message, user name, password in this order. -/
def connectBody (c : Connect) : List UInt8 :=
  str [0x4D, 0x51, 0x54, 0x54] ++ [4, UInt8.ofNat (connectFlagsByte c)] ++ be16 c.keepAlive
  ++ str c.clientId
  ++ willStr c.will ++ optStr c.user ++ optStr c.pass

def connectPacket (c : Connect) : List UInt8 := packet 0x10 (connectBody c)

/-- SUBSCRIBE (3.8): packet id, then (filter, requested QoS) pairs. -/
def subscribeBody (id : Nat) (fs : List (List UInt8 × Fin 3)) : List UInt8 :=
  be16 id ++ fs.flatMap fun f => str f.1 ++ [UInt8.ofNat f.2.val]

def subscribePacket (id : Nat) (fs : List (List UInt8 × Fin 3)) : List UInt8 :=
  packet 0x82 (subscribeBody id fs)

/-- UNSUBSCRIBE (3.10): packet id, then filters. -/
def unsubscribeBody (id : Nat) (fs : List (List UInt8)) : List UInt8 :=
  be16 id ++ fs.flatMap str

def unsubscribePacket (id : Nat) (fs : List (List UInt8)) : List UInt8 :=
  packet 0xA2 (unsubscribeBody id fs)

/-- Packets that carry only a packet id: PUBACK, PUBREC, PUBREL, PUBCOMP (3.4-3.7). -/
def idPacket (first : Nat) (id : Nat) : List UInt8 := packet first (be16 id)

def disconnectPacket : List UInt8 := packet 0xE0 []
def pingreqPacket : List UInt8 := packet 0xC0 []

/-! ### An independent decoder for client-to-server packets (the broker's view) -/

/-- Read a variable-length integer of at most `k` bytes. -/
def readVarInt : Nat → List UInt8 → Option (Nat × List UInt8)
  | 0, _ => none
  | _ + 1, [] => none
  | k + 1, b :: rest =>
    if b.toNat < 128 then some (b.toNat, rest)
    else match readVarInt k rest with
      | none => none
      | some (n, rest') => some (b.toNat - 128 + 128 * n, rest')

def read16 : List UInt8 → Option (Nat × List UInt8)
  | a :: b :: rest => some (256 * a.toNat + b.toNat, rest)
  | _ => none

def readStr (bs : List UInt8) : Option (List UInt8 × List UInt8) :=
  match read16 bs with
  | none => none
  | some (n, rest) => if n ≤ rest.length then some (rest.take n, rest.drop n) else none

/-- Split off one packet: first byte, body, rest of the stream. -/
def readPacket : List UInt8 → Option (Nat × List UInt8 × List UInt8)
  | [] => none
  | t :: rest =>
    match readVarInt 4 rest with
    | none => none
    | some (n, rest') =>
      if n ≤ rest'.length then some (t.toNat, rest'.take n, rest'.drop n) else none

def qosOfNat (n : Nat) : Option (Fin 3) := if h : n < 3 then some ⟨n, h⟩ else none

/-- PUBLISH body for a given first byte. -/
def parsePublish (t : Nat) (body : List UInt8) : Option Publish := do
  if t / 16 ≠ 3 then none
  let qos ← qosOfNat (t / 2 % 4)
  let (topic, rest) ← readStr body
  if qos.val = 0 then
    some ⟨decide (t / 8 % 2 = 1), qos, decide (t % 2 = 1), topic, 0, rest⟩
  else
    let (id, rest) ← read16 rest
    if id = 0 then none
    some ⟨decide (t / 8 % 2 = 1), qos, decide (t % 2 = 1), topic, id, rest⟩

/-- CONNECT body. -/
def parseConnect (body : List UInt8) : Option Connect := do
  let (name, rest) ← readStr body
  if name ≠ [0x4D, 0x51, 0x54, 0x54] then none
  match rest with
  | level :: flags :: rest =>
    if level ≠ 4 then none
    let f := flags.toNat
    if f % 2 = 1 then none
    let (ka, rest) ← read16 rest
    let (cid, rest) ← readStr rest
    let (will, rest) ← (if f / 4 % 2 = 1 then do
        let qos ← qosOfNat (f / 8 % 4)
        let (t, rest) ← readStr rest
        let (m, rest) ← readStr rest
        some (some (Will.mk t m qos (decide (f / 32 % 2 = 1))), rest)
      else if f / 8 % 8 = 0 then some (none, rest) else none)
    let (user, rest) ← (if f / 128 % 2 = 1 then do
        let (u, rest) ← readStr rest
        some (some u, rest)
      else some (none, rest))
    let (pass, rest) ← (if f / 64 % 2 = 1 then do
        let (u, rest) ← readStr rest
        some (some u, rest)
      else some (none, rest))
    if rest ≠ [] then none
    some ⟨decide (f / 2 % 2 = 1), ka, cid, will, user, pass⟩
  | _ => none

/-- List of (filter, QoS) pairs filling the rest of a SUBSCRIBE body; `fuel` bounds the number of entries. -/
def parseFilters : Nat → List UInt8 → Option (List (List UInt8 × Fin 3))
  | _, [] => some []
  | 0, _ => none
  | fuel + 1, bs => do
    let (f, rest) ← readStr bs
    match rest with
    | [] => none
    | q :: rest => do
      let q ← qosOfNat q.toNat
      let fs ← parseFilters fuel rest
      some ((f, q) :: fs)

def parseSubscribe (body : List UInt8) : Option (Nat × List (List UInt8 × Fin 3)) := do
  let (id, rest) ← read16 body
  if id = 0 then none
  let fs ← parseFilters rest.length rest
  if fs = [] then none
  some (id, fs)

def parseUnsubFilters : Nat → List UInt8 → Option (List (List UInt8))
  | _, [] => some []
  | 0, _ => none
  | fuel + 1, bs => do
    let (f, rest) ← readStr bs
    let fs ← parseUnsubFilters fuel rest
    some (f :: fs)

def parseUnsubscribe (body : List UInt8) : Option (Nat × List (List UInt8)) := do
  let (id, rest) ← read16 body
  if id = 0 then none
  let fs ← parseUnsubFilters rest.length rest
  if fs = [] then none
  some (id, fs)

end Mqtt.Spec
