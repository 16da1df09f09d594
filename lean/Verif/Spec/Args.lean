/-
What the arguments of a call stand for: the bytes behind their pointers and the packet they describe.  `Valid` says that the
caller's memory is what the description claims.
-/
import Verif.Model.Serializer
import Verif.Spec.Wire

namespace Mqtt
open Spec

/-- Bytes readable behind pointer `p`: at least `n`. -/
def HasBytes (p : Ptr) (n : Nat) : Prop := ∃ m, p = some m ∧ n ≤ m.length

/-- The first `n` bytes behind a pointer (for statements; only meaningful under `HasBytes`). -/
def bytesOf (p : Ptr) (n : Nat) : List UInt8 := (p.getD []).take n

/-- The QoS enumerator as a number below 3. -/
def QoS.toFin : QoS → Fin 3
  | .qos0 => 0
  | .qos1 => 1
  | .qos2 => 2

/-- The abstract PUBLISH a description stands for: the bytes behind its pointers. -/
def PublishInfo.toSpec (p : PublishInfo) (id : UInt16) : Spec.Publish :=
  { dup := p.dup, qos := p.qos.toFin, retain := p.retain,
    topic := bytesOf p.pTopicName p.topicNameLength.toNat, id := id.toNat,
    payload := bytesOf p.pPayload p.payloadLength }

/-- The caller's memory is what the description claims. -/
structure PublishInfo.Valid (p : PublishInfo) : Prop where
  topic : p.pTopicName ≠ none → HasBytes p.pTopicName p.topicNameLength.toNat
  payload : p.pPayload ≠ none → HasBytes p.pPayload p.payloadLength

/-- The abstract CONNECT a pair of descriptions stands for. -/
def ConnectInfo.toSpec (ci : ConnectInfo) (will : Option PublishInfo) : Spec.Connect :=
  { clean := ci.cleanSession, keepAlive := ci.keepAliveSeconds.toNat,
    clientId := bytesOf ci.pClientIdentifier ci.clientIdentifierLength.toNat,
    will := will.map fun w => ⟨bytesOf w.pTopicName w.topicNameLength.toNat, bytesOf w.pPayload w.payloadLength,
      w.qos.toFin, w.retain⟩,
    user := ci.pUserName.map fun (u : List UInt8) => u.take ci.userNameLength.toNat,
    pass := ci.pPassword.map fun (u : List UInt8) => u.take ci.passwordLength.toNat }

/-- The caller's memory is what the description claims. -/
structure ConnectInfo.Valid (ci : ConnectInfo) (will : Option PublishInfo) : Prop where
  cid : ci.pClientIdentifier ≠ none → HasBytes ci.pClientIdentifier ci.clientIdentifierLength.toNat
  user : ci.pUserName ≠ none → HasBytes ci.pUserName ci.userNameLength.toNat
  pass : ci.pPassword ≠ none → HasBytes ci.pPassword ci.passwordLength.toNat
  will : ∀ w, will = some w → w.Valid ∧ (w.pPayload = none → w.payloadLength = 0)

/-- True number of body bytes of a subscription list. -/
def filtersLen (ty : SubType) : List SubscribeInfo → Nat
  | [] => 0
  | s :: rest => (s.topicFilterLength.toNat + 2 + (if ty = .subscribe then 1 else 0)) + filtersLen ty rest

/-- The caller's memory is what the list claims. -/
def ValidSubs (subs : List SubscribeInfo) : Prop :=
  ∀ s ∈ subs, s.pTopicFilter ≠ none → HasBytes s.pTopicFilter s.topicFilterLength.toNat

/-- The filters a list stands for. -/
def subsSpec (subs : List SubscribeInfo) : List (List UInt8 × Fin 3) :=
  subs.map fun s => (bytesOf s.pTopicFilter s.topicFilterLength.toNat, s.qos.toFin)

/-- The packet a list stands for. -/
def subPacket (ty : SubType) (id : UInt16) (subs : List SubscribeInfo) : List UInt8 :=
  match ty with
  | .subscribe => subscribePacket id.toNat (subsSpec subs)
  | .unsubscribe => unsubscribePacket id.toNat ((subsSpec subs).map Prod.fst)

def subBody (ty : SubType) (id : UInt16) (subs : List SubscribeInfo) : List UInt8 :=
  match ty with
  | .subscribe => subscribeBody id.toNat (subsSpec subs)
  | .unsubscribe => unsubscribeBody id.toNat ((subsSpec subs).map Prod.fst)

end Mqtt
