/- Property C07: CONNECT packets. -/
import Verif.Proof.Connect

namespace Mqtt
set_option linter.unusedSimpArgs false
open Spec

/-- **C07** `ci` and `will` are any descriptions whose pointers refer to the memory they claim (`ci.Valid will`,
which includes that a will payload of non-zero length is not `NULL`) and that `MQTT_GetConnectPacketSize` accepts.
Then `MQTT_SerializeConnect` into any buffer of at least the reported size succeeds, the first `s` bytes of the
buffer are one packet for an independent MQTT 3.1.1 decoder, and that decoder reads back exactly the given client id, will,
user name, password, keep alive and clean-session flag. -/
theorem C07_connect_lossless {W : Nat} (hW : 2 ^ 32 ≤ W) (ci : ConnectInfo) (will : Option PublishInfo)
    (buf : List UInt8) (size r s : Nat) (hv : ci.Valid will)
    (hwt : ∀ w, will = some w → w.pTopicName ≠ none) (hbuf : size ≤ buf.length)
    (hsize : getConnectPacketSize (some ci) will = ⟨.success, r, s⟩) (hfit : s ≤ size) :
    ∃ out body, serializeConnect W (some ci) will r (some ⟨some buf, size⟩) = .ok (.success, some out) ∧
      out.length = buf.length ∧ out.drop s = buf.drop s ∧
      readPacket (out.take s) = some (0x10, body, []) ∧ body.length = r ∧
      parseConnect body = some
        { clean := ci.cleanSession
          keepAlive := ci.keepAliveSeconds.toNat
          clientId := bytesOf ci.pClientIdentifier ci.clientIdentifierLength.toNat
          will := will.map fun w => ⟨bytesOf w.pTopicName w.topicNameLength.toNat,
            bytesOf w.pPayload w.payloadLength, w.qos.toFin, w.retain⟩
          user := ci.pUserName.map fun (u : List UInt8) => u.take ci.userNameLength.toNat
          pass := ci.pPassword.map fun (u : List UInt8) => u.take ci.passwordLength.toNat } := by
  have hser := serializeConnect_eq hW hv hwt hbuf hsize
  rw [if_neg (by omega)] at hser
  obtain ⟨h1, h2, h3, h4, h5, h6, h7⟩ := getConnectPacketSize_ok hsize hv hwt
  have hle : (connectBody (ci.toSpec will)).length ≤ maxRemaining := by rw [← h4]; simp only [maxRemaining]; omega
  have hlen : s ≤ buf.length := by omega
  refine ⟨_, connectBody (ci.toSpec will), hser, ?_, ?_, ?_, h4.symm, ?_⟩
  · simp only [List.length_append, List.length_drop, ← h5]; omega
  · conv => lhs; rw [h5]
    rw [List.drop_left, ← h5]
  · conv => lhs; rw [h5]
    rw [List.take_left]
    have := readPacket_packet (t := 0x10) (by decide) hle []
    rwa [List.append_nil] at this
  · refine parseConnect_body (c := ci.toSpec will) ⟨ci.keepAliveSeconds.toNat_lt, ?_, ?_, ?_, ?_⟩
    · have := ci.clientIdentifierLength.toNat_lt
      simp only [ConnectInfo.toSpec, bytesOf, List.length_take]; omega
    · intro w hw
      simp only [ConnectInfo.toSpec, Option.map_eq_some_iff] at hw
      obtain ⟨w', hw', rfl⟩ := hw
      have := w'.topicNameLength.toNat_lt
      have := h3 w' hw'
      simp only [bytesOf, List.length_take]; omega
    · intro u hu
      simp only [ConnectInfo.toSpec, Option.map_eq_some_iff] at hu
      obtain ⟨u', hu', rfl⟩ := hu
      have := ci.userNameLength.toNat_lt
      simp only [List.length_take]; omega
    · intro u hu
      simp only [ConnectInfo.toSpec, Option.map_eq_some_iff] at hu
      obtain ⟨u', hu', rfl⟩ := hu
      have := ci.passwordLength.toNat_lt
      simp only [List.length_take]; omega

/-- Non-vacuity of C07: client id "c", a retained QoS 1 will, user name and empty password. -/
example :
    let w : PublishInfo := ⟨.qos1, true, false, some [0x74], 1, some [0x70, 0x71], 2⟩
    let ci : ConnectInfo := ⟨true, 300, some [0x63], 1, some [0x75], 1, some [], 0⟩
    ci.Valid (some w) ∧ getConnectPacketSize (some ci) (some w) = ⟨.success, 25, 27⟩ ∧
    serializeConnect (2 ^ 32) (some ci) (some w) 25 (some ⟨some (List.replicate 28 7), 28⟩) =
      .ok (.success, some [0x10, 25, 0, 4, 0x4D, 0x51, 0x54, 0x54, 4, 0xEE, 1, 44, 0, 1, 0x63, 0, 1, 0x74, 0, 2, 0x70, 0x71,
        0, 1, 0x75, 0, 0, 7]) := by
  refine ⟨⟨fun _ => ⟨_, rfl, by decide⟩, fun _ => ⟨_, rfl, by decide⟩, fun _ => ⟨_, rfl, by decide⟩, ?_⟩, by decide +kernel,
    by decide +kernel⟩
  rintro _ ⟨⟩
  exact ⟨⟨fun _ => ⟨_, rfl, by decide⟩, fun _ => ⟨_, rfl, by decide⟩⟩, by simp⟩

/-- The side condition on the will payload is needed: a will payload of length 3 without memory leaves three bytes
of the old buffer (here 7, 7, 7) in the packet that is sent. -/
theorem C07_null_will_payload_leaks_old_bytes :
    ∃ (ci : ConnectInfo) (w : PublishInfo),
      w.pPayload = none ∧ w.payloadLength = 3 ∧ getConnectPacketSize (some ci) (some w) = ⟨.success, 21, 23⟩ ∧
      serializeConnect (2 ^ 32) (some ci) (some w) 21 (some ⟨some (List.replicate 23 7), 23⟩) =
        .ok (.success, some [0x10, 21, 0, 4, 0x4D, 0x51, 0x54, 0x54, 4, 4, 0, 0, 0, 1, 0x63, 0, 1, 0x74, 0, 3, 7, 7, 7]) :=
  ⟨⟨false, 0, some [0x63], 1, none, 0, none, 0⟩, ⟨.qos0, false, false, some [0x74], 1, none, 3⟩, rfl, rfl,
    by decide +kernel, by decide +kernel⟩

end Mqtt
