/-
The enumerators of two enumerations of the header files, in the order in which they are declared.  Both enumerations start at 0 and give no
other value explicitly, so the value of an enumerator is its place in the list.
-/
namespace Mqtt.Spec

/-- core_mqtt_serializer.h 86-109 -/
def statusEnumerators : List String :=
  ["MQTTSuccess", "MQTTBadParameter", "MQTTNoMemory", "MQTTSendFailed", "MQTTRecvFailed", "MQTTBadResponse", "MQTTServerRefused",
   "MQTTNoDataAvailable", "MQTTIllegalState", "MQTTStateCollision", "MQTTKeepAliveTimeout", "MQTTNeedMoreBytes", "MQTTStatusConnected",
   "MQTTStatusNotConnected", "MQTTStatusDisconnectPending", "MQTTPublishStoreFailed", "MQTTPublishRetrieveFailed"]

/-- core_mqtt.h 176-189 -/
def stateEnumerators : List String :=
  ["MQTTStateNull", "MQTTPublishSend", "MQTTPubAckSend", "MQTTPubRecSend", "MQTTPubRelSend", "MQTTPubCompSend", "MQTTPubAckPending",
   "MQTTPubRecPending", "MQTTPubRelPending", "MQTTPubCompPending", "MQTTPublishDone"]

/-- The name at place `v` of a list, `other` if there is none. -/
def nameAt (names : List String) (other : String) (v : Int) : String :=
  if 0 ≤ v then names.getD v.toNat other else other

end Mqtt.Spec
