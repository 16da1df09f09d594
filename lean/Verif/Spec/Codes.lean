/-
The status codes of the public functions: what the header documents and what the functions return.
-/
import Verif.Spec.Calls

namespace Mqtt.Spec
open Mqtt

/-- The functions that return a status, for a context (core_mqtt.h). -/
inductive Fn where
  | connect | subscribe | unsubscribe | publish | ping | disconnect | processLoop | receiveLoop | cancelCallback | checkConnectStatus
  deriving DecidableEq, Repr

/-- The function of a call (`MQTT_GetPacketId` returns no status). -/
def fnOf : ApiCall → Option Fn
  | .connect .. => some .connect
  | .subscribe .. => some .subscribe
  | .unsubscribe .. => some .unsubscribe
  | .publish .. => some .publish
  | .ping => some .ping
  | .disconnect => some .disconnect
  | .processLoop => some .processLoop
  | .receiveLoop => some .receiveLoop
  | .cancelCallback _ => some .cancelCallback
  | .checkConnectStatus => some .checkConnectStatus
  | .getPacketId => none

/-- The codes listed under `@return` in core_mqtt.h: 631-643 (MQTT_Connect), 727-734 (MQTT_Subscribe), 784-792 (MQTT_Publish), 843-844
(MQTT_CancelCallback), 856-862 (MQTT_Ping), 877-884 (MQTT_Unsubscribe), 931-936 (MQTT_Disconnect), 960-974 (MQTT_ProcessLoop), 1022-1030
(MQTT_ReceiveLoop), 587-590 (MQTT_CheckConnectStatus). -/
def documented : Fn → List Status
  | .connect => [.noMemory, .badParameter, .sendFailed, .recvFailed, .noDataAvailable, .statusConnected, .statusDisconnectPending,
      .publishRetrieveFailed, .success]
  | .subscribe | .unsubscribe | .ping => [.noMemory, .badParameter, .sendFailed, .statusNotConnected, .statusDisconnectPending, .success]
  | .publish => [.noMemory, .badParameter, .sendFailed, .statusNotConnected, .statusDisconnectPending, .publishStoreFailed, .success]
  | .cancelCallback => [.badParameter, .success]
  | .disconnect => [.noMemory, .badParameter, .sendFailed, .statusNotConnected, .success]
  | .processLoop => [.badParameter, .recvFailed, .sendFailed, .badResponse, .keepAliveTimeout, .illegalState, .needMoreBytes,
      .statusNotConnected, .statusDisconnectPending, .success]
  | .receiveLoop => [.badParameter, .recvFailed, .sendFailed, .badResponse, .illegalState, .needMoreBytes, .success]
  | .checkConnectStatus => [.badParameter, .statusConnected, .statusNotConnected, .statusDisconnectPending]

/-- The codes the functions return, for a context that is not null. -/
def returned : Fn → List Status
  | .connect => [.success, .badParameter, .sendFailed, .recvFailed, .noDataAvailable, .badResponse, .serverRefused, .statusConnected,
      .statusDisconnectPending, .publishRetrieveFailed]
  | .subscribe | .unsubscribe => [.success, .badParameter, .sendFailed, .statusNotConnected, .statusDisconnectPending]
  | .publish => [.success, .badParameter, .noMemory, .sendFailed, .illegalState, .stateCollision, .statusNotConnected,
      .statusDisconnectPending, .publishStoreFailed]
  | .ping => [.success, .sendFailed, .statusNotConnected, .statusDisconnectPending]
  | .disconnect => [.success, .sendFailed, .statusNotConnected]
  | .processLoop => [.success, .noMemory, .sendFailed, .recvFailed, .badResponse, .illegalState, .keepAliveTimeout, .needMoreBytes,
      .statusNotConnected, .statusDisconnectPending]
  | .receiveLoop => [.success, .noMemory, .sendFailed, .recvFailed, .badResponse, .illegalState, .needMoreBytes, .statusNotConnected,
      .statusDisconnectPending]
  | .cancelCallback => [.success, .badParameter]
  | .checkConnectStatus => [.statusConnected, .statusNotConnected, .statusDisconnectPending]

/-- The codes that are returned although the header does not list them. -/
def unlisted : List (Fn × Status) :=
  [(.connect, .badResponse), (.connect, .serverRefused), (.publish, .illegalState), (.publish, .stateCollision), (.processLoop, .noMemory),
   (.receiveLoop, .noMemory), (.receiveLoop, .statusNotConnected), (.receiveLoop, .statusDisconnectPending)]

/-- The codes that are listed but not returned for a context that is not null. -/
def neverReturned : List (Fn × Status) :=
  [(.connect, .noMemory), (.subscribe, .noMemory), (.unsubscribe, .noMemory), (.ping, .noMemory), (.ping, .badParameter),
   (.disconnect, .noMemory), (.disconnect, .badParameter), (.processLoop, .badParameter), (.receiveLoop, .badParameter),
   (.checkConnectStatus, .badParameter)]

end Mqtt.Spec
