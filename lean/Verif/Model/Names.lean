/-
The two functions that turn an enumerator into text.  In C an enumeration object can hold an integer that is not an enumerator, so the argument
is any integer here.
-/
import Verif.Model.State

namespace Mqtt

/-- Numeric values of the enumerators of `MQTTStatus_t`, core_mqtt_serializer.h 86-109. -/
def Status.code : Status → Int
  | .success => 0 | .badParameter => 1 | .noMemory => 2 | .sendFailed => 3 | .recvFailed => 4 | .badResponse => 5 | .serverRefused => 6
  | .noDataAvailable => 7 | .illegalState => 8 | .stateCollision => 9 | .keepAliveTimeout => 10 | .needMoreBytes => 11 | .statusConnected => 12
  | .statusNotConnected => 13 | .statusDisconnectPending => 14 | .publishStoreFailed => 15 | .publishRetrieveFailed => 16

/-- `MQTT_Status_strerror`, core_mqtt.c 3648-3728.  A `switch` whose labels are distinct is a chain of comparisons.  The pointer returned is a
string literal; the model returns its characters. -/
def mqttStatusStrerror (v : Int) : String :=
  if v = Status.success.code then "MQTTSuccess"
  else if v = Status.badParameter.code then "MQTTBadParameter"
  else if v = Status.noMemory.code then "MQTTNoMemory"
  else if v = Status.sendFailed.code then "MQTTSendFailed"
  else if v = Status.recvFailed.code then "MQTTRecvFailed"
  else if v = Status.badResponse.code then "MQTTBadResponse"
  else if v = Status.serverRefused.code then "MQTTServerRefused"
  else if v = Status.noDataAvailable.code then "MQTTNoDataAvailable"
  else if v = Status.illegalState.code then "MQTTIllegalState"
  else if v = Status.stateCollision.code then "MQTTStateCollision"
  else if v = Status.keepAliveTimeout.code then "MQTTKeepAliveTimeout"
  else if v = Status.needMoreBytes.code then "MQTTNeedMoreBytes"
  else if v = Status.statusConnected.code then "MQTTStatusConnected"
  else if v = Status.statusNotConnected.code then "MQTTStatusNotConnected"
  else if v = Status.statusDisconnectPending.code then "MQTTStatusDisconnectPending"
  else if v = Status.publishStoreFailed.code then "MQTTPublishStoreFailed"
  else if v = Status.publishRetrieveFailed.code then "MQTTPublishRetrieveFailed"
  else "Invalid MQTT Status code"

/-- `MQTT_State_strerror`, core_mqtt_state.c 1147-1210 (the values of the enumerators are `PubState.toNat`). -/
def mqttStateStrerror (v : Int) : String :=
  if v = PubState.null.toNat then "MQTTStateNull"
  else if v = PubState.publishSend.toNat then "MQTTPublishSend"
  else if v = PubState.pubAckSend.toNat then "MQTTPubAckSend"
  else if v = PubState.pubRecSend.toNat then "MQTTPubRecSend"
  else if v = PubState.pubRelSend.toNat then "MQTTPubRelSend"
  else if v = PubState.pubCompSend.toNat then "MQTTPubCompSend"
  else if v = PubState.pubAckPending.toNat then "MQTTPubAckPending"
  else if v = PubState.pubRecPending.toNat then "MQTTPubRecPending"
  else if v = PubState.pubRelPending.toNat then "MQTTPubRelPending"
  else if v = PubState.pubCompPending.toNat then "MQTTPubCompPending"
  else if v = PubState.publishDone.toNat then "MQTTPublishDone"
  else "Invalid MQTT State"

end Mqtt
