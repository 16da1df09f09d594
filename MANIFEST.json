{
 "claims": [
  {
   "property": "C01",
   "status": "proved",
   "theorems": [
    "Mqtt.C01_remaining_length_roundtrip"
   ],
   "note": "every n up to 268435455, both parsers, any following stream"
  },
  {
   "property": "C02",
   "status": "proved",
   "theorems": [
    "Mqtt.C02_decoding_exact",
    "Mqtt.C02_parsers_agree"
   ],
   "note": ""
  },
  {
   "property": "C03",
   "status": "proved",
   "theorems": [
    "Mqtt.C03_packet_type_table"
   ],
   "note": ""
  },
  {
   "property": "C04",
   "status": "proved",
   "theorems": [
    "Mqtt.C04_publish_roundtrip"
   ],
   "note": ""
  },
  {
   "property": "C05",
   "status": "proved",
   "theorems": [
    "Mqtt.C05_publish_size_exact",
    "Mqtt.C05_publish_size_is_bytes_written"
   ],
   "note": ""
  },
  {
   "property": "C06",
   "status": "proved",
   "theorems": [
    "Mqtt.C06_publish_buffer",
    "Mqtt.C06_publish_header_buffer",
    "Mqtt.C06_connect_buffer",
    "Mqtt.C06_connect_will_without_topic",
    "Mqtt.C06_subscription_buffer",
    "Mqtt.C06_ack_buffer",
    "Mqtt.C06_two_byte_buffers",
    "Mqtt.C06_no_buffer",
    "Mqtt.C06_needs_matching_length"
   ],
   "note": "for remaining lengths obtained from the matching size function, as the API requires; C06_needs_matching_length is a witness that this precondition is needed"
  },
  {
   "property": "C07",
   "status": "proved",
   "theorems": [
    "Mqtt.C07_connect_lossless",
    "Mqtt.C07_null_will_payload_leaks_old_bytes"
   ],
   "note": "second theorem: witness that the side condition on the will payload is needed"
  },
  {
   "property": "C08",
   "status": "proved",
   "theorems": [
    "Mqtt.C08_subscribe_lossless",
    "Mqtt.C08_unsubscribe_lossless"
   ],
   "note": ""
  },
  {
   "property": "C09",
   "status": "partial",
   "theorems": [
    "Mqtt.C09_subscription_size_exact_partial",
    "Mqtt.C09_no_wrap_for_short_lists",
    "Mqtt.C09_exact",
    "Mqtt.C09_wrong_iff",
    "Mqtt.C09_wraps"
   ],
   "note": "false in full generality: C09_wraps is a 32-bit counterexample; proved for all lists whose true length is below the size_t range; C09_exact says what is reported for every list, C09_wrong_iff for which lists this is wrong"
  },
  {
   "property": "C10",
   "status": "proved",
   "theorems": [
    "Mqtt.C10_publish_parsing"
   ],
   "note": ""
  },
  {
   "property": "C11",
   "status": "proved",
   "theorems": [
    "Mqtt.C11_id_acks",
    "Mqtt.C11_other_types"
   ],
   "note": ""
  },
  {
   "property": "C12",
   "status": "proved",
   "theorems": [
    "Mqtt.C12_connack"
   ],
   "note": ""
  },
  {
   "property": "C13",
   "status": "proved",
   "theorems": [
    "Mqtt.C13_suback",
    "Mqtt.C13_status_codes"
   ],
   "note": ""
  },
  {
   "property": "C14",
   "status": "proved",
   "theorems": [
    "Mqtt.C14_ack_roundtrip"
   ],
   "note": ""
  },
  {
   "property": "C15",
   "status": "proved",
   "theorems": [
    "Mqtt.C15_dup_flag",
    "Mqtt.C49_stored_copy"
   ],
   "note": "the second theorem is the part about stored retransmission copies"
  },
  {
   "property": "C16",
   "status": "proved",
   "theorems": [
    "Mqtt.C16_packet_ids",
    "Mqtt.C16_consecutive_distinct",
    "Mqtt.C16_history",
    "Mqtt.C16_threads",
    "Mqtt.C16_threads_nonzero"
   ],
   "note": "In C16_threads any thread may call anything. The runs of Spec/Ids.lean are executions in the sense of C47 (C47_runs)."
  },
  {
   "property": "C17",
   "status": "proved",
   "theorems": [
    "Mqtt.C17_ordered_table"
   ],
   "note": ""
  },
  {
   "property": "C18",
   "status": "proved",
   "theorems": [
    "Mqtt.C18_reserve"
   ],
   "note": ""
  },
  {
   "property": "C19",
   "status": "proved",
   "theorems": [
    "Mqtt.C19_protocol_edges"
   ],
   "note": ""
  },
  {
   "property": "C20",
   "status": "proved",
   "theorems": [
    "Mqtt.C20_rejected_changes_nothing"
   ],
   "note": ""
  },
  {
   "property": "C21",
   "status": "proved",
   "theorems": [
    "Mqtt.C21_publish_enumeration",
    "Mqtt.C22_pubrel_enumeration",
    "Mqtt.C21_no_duplicates"
   ],
   "note": ""
  },
  {
   "property": "C22",
   "status": "proved",
   "theorems": [
    "Mqtt.C22_pubrel_enumeration"
   ],
   "note": ""
  },
  {
   "property": "C23",
   "status": "proved",
   "theorems": [
    "Mqtt.C23_pubrec_keeps_publish"
   ],
   "note": ""
  },
  {
   "property": "C24",
   "status": "proved",
   "theorems": [
    "Mqtt.C24_sound",
    "Mqtt.C24_null_character_witness"
   ],
   "note": "Names with a null character, which MQTT forbids, are excluded; the witness shows why."
  },
  {
   "property": "C25",
   "status": "partial",
   "theorems": [
    "Mqtt.C25_complete_partial",
    "Mqtt.C25_complete_everyday_partial",
    "Mqtt.C25_exact",
    "Mqtt.C25_incomplete",
    "Mqtt.C25_missed_witnesses"
   ],
   "note": "The property is false of the code: C25_incomplete proves the negation. C25_exact gives the exact class of missed pairs; C25_complete_partial proves completeness outside it."
  },
  {
   "property": "C26",
   "status": "proved",
   "theorems": [
    "Mqtt.C26_bounds_and_exact_match"
   ],
   "note": "Termination is totality of the model functions; reads are checked against the memory."
  },
  {
   "property": "C27",
   "status": "proved",
   "theorems": [
    "Mqtt.C27_sent_bytes_are_a_prefix",
    "Mqtt.C27_connect",
    "Mqtt.C27_any_partition",
    "Mqtt.C27_buffer"
   ],
   "note": ""
  },
  {
   "property": "C28",
   "status": "proved",
   "theorems": [
    "Mqtt.C28_publish",
    "Mqtt.C28_subscription",
    "Mqtt.C28_connect",
    "Mqtt.C28_dup_qos0"
   ],
   "note": "C28_publish excludes DUP with QoS 0, which no packet can carry; C28_dup_qos0 shows what the code sends then."
  },
  {
   "property": "C29",
   "status": "proved",
   "theorems": [
    "Mqtt.C29_pending_after_error",
    "Mqtt.C29_connect",
    "Mqtt.C29_pending_stays"
   ],
   "note": "All histories and environments, also calls that do not return."
  },
  {
   "property": "C30",
   "status": "proved",
   "theorems": [
    "Mqtt.C30_nothing_sent",
    "Mqtt.C30_nothing_sent_after_error",
    "Mqtt.C30_refused"
   ],
   "note": ""
  },
  {
   "property": "C31",
   "status": "proved",
   "theorems": [
    "Mqtt.C31_vector_send_terminates",
    "Mqtt.C31_buffer_send_terminates"
   ],
   "note": ""
  },
  {
   "property": "C32",
   "status": "proved",
   "theorems": [
    "Mqtt.C32_stream",
    "Mqtt.C32_exact",
    "Mqtt.C32_independent",
    "Mqtt.C32_complete",
    "Mqtt.C32_qos0",
    "Mqtt.C32_interrupted"
   ],
   "note": "Spec/Receiving.present is the fold of the reaction to single packets over the stream. C32_complete: under an eager, failure-free transport enough calls consume the whole stream."
  },
  {
   "property": "C33",
   "status": "proved",
   "theorems": [
    "Mqtt.C33_index",
    "Mqtt.C33_request",
    "Mqtt.C33_unread",
    "Mqtt.C33_other"
   ],
   "note": "A receive request beyond the buffer is an undefined outcome of the model, excluded for every call by C33_request. A fresh connect and a disconnect empty the buffer: C39_clean, C43_disconnect."
  },
  {
   "property": "C34",
   "status": "proved",
   "theorems": [
    "Mqtt.C34_dropped",
    "Mqtt.C34_stream",
    "Mqtt.present_filter",
    "Mqtt.C34_desync"
   ],
   "note": "C34_desync: after a drop that ended with MQTTRecvFailed by starvation the rest of the packet is taken for new packets while the status is still connected."
  },
  {
   "property": "C35",
   "status": "proved",
   "theorems": [
    "Mqtt.C35_once"
   ],
   "note": "Over every history with resumed sessions and failures; the last call may be interrupted at any point."
  },
  {
   "property": "C36",
   "status": "proved",
   "theorems": [
    "Mqtt.C36_only",
    "Mqtt.C36_whole",
    "Mqtt.C36_due"
   ],
   "note": "C36_only holds for interrupted calls too."
  },
  {
   "property": "C37",
   "status": "proved",
   "theorems": [
    "Mqtt.C37_stays",
    "Mqtt.C37_reserved",
    "Mqtt.C37_clear"
   ],
   "note": ""
  },
  {
   "property": "C38",
   "status": "proved",
   "theorems": [
    "Mqtt.C38_resumed",
    "Mqtt.C38_nothing_else",
    "Mqtt.C38_kept",
    "Mqtt.C38_order"
   ],
   "note": ""
  },
  {
   "property": "C39",
   "status": "proved",
   "theorems": [
    "Mqtt.C39_clean"
   ],
   "note": ""
  },
  {
   "property": "C40",
   "status": "proved",
   "theorems": [
    "Mqtt.C40_transitions",
    "Mqtt.C40_connect_again",
    "Mqtt.C45_connect_on_connected"
   ],
   "note": "The complete list of status changes; C45_connect_on_connected is the concrete run for the one that surprises."
  },
  {
   "property": "C41",
   "status": "proved",
   "theorems": [
    "Mqtt.C41_success",
    "Mqtt.C41_failure",
    "Mqtt.C41_refused",
    "Mqtt.C41_accepted"
   ],
   "note": ""
  },
  {
   "property": "C42",
   "status": "proved",
   "theorems": [
    "Mqtt.C42_polls",
    "Mqtt.C42_timeout",
    "Mqtt.C42_real_time",
    "Mqtt.C42_nothing_arrived"
   ],
   "note": ""
  },
  {
   "property": "C43",
   "status": "proved",
   "theorems": [
    "Mqtt.C43_disconnect"
   ],
   "note": ""
  },
  {
   "property": "C44",
   "status": "proved",
   "theorems": [
    "Mqtt.C44_outstanding",
    "Mqtt.C44_ping",
    "Mqtt.C44_no_ping",
    "Mqtt.C44_timeout_only",
    "Mqtt.C44_last_transmission",
    "Mqtt.C44_ping_time",
    "Mqtt.C44_last_reception",
    "Mqtt.C44_outstanding_changes",
    "Mqtt.C44_interval",
    "Mqtt.C44_elapsed"
   ],
   "note": "C44_ping also says what happens without a connection and when sending fails."
  },
  {
   "property": "C45",
   "status": "proved",
   "theorems": [
    "Mqtt.C45_no_effect",
    "Mqtt.C45_connect",
    "Mqtt.C45_only_invalid",
    "Mqtt.C45_init",
    "Mqtt.C45_init_records",
    "Mqtt.C45_init_retransmits",
    "Mqtt.C45_connect_on_connected",
    "Mqtt.C45_bad_parameter_after_sending"
   ],
   "note": "The statement names its exceptions; the last two theorems are concrete runs of the code showing them."
  },
  {
   "property": "C46",
   "status": "proved",
   "theorems": [
    "Mqtt.C46_balanced",
    "Mqtt.C46_never_nested",
    "Mqtt.C46_connect",
    "Mqtt.C46_connect_nests"
   ],
   "note": "C46_connect_nests: MQTT_Connect does nest when receiving the CONNACK fails."
  },
  {
   "property": "C47",
   "status": "proved",
   "theorems": [
    "Mqtt.C47_programs",
    "Mqtt.C47_safe",
    "Mqtt.C47_wire",
    "Mqtt.C47_quiet",
    "Mqtt.C47_atomic",
    "Mqtt.C47_disconnect_race",
    "Mqtt.C47_runs"
   ],
   "note": "Arbitrary many threads and schedules. The other threads may call Publish, Subscribe, Unsubscribe, Ping, CancelCallback, GetPacketId and CheckConnectStatus; one thread may call everything. C47_disconnect_race shows why MQTT_Disconnect is not among the shared calls. Mutual exclusion between the hooks is the documented contract of the hooks and built into the steps."
  },
  {
   "property": "C48",
   "status": "proved",
   "theorems": [
    "Mqtt.C48_cancel",
    "Mqtt.C48_remove",
    "Mqtt.C48_remove_zero_asserts",
    "Mqtt.C50_cancel_zero"
   ],
   "note": "Function level (C48_cancel) and record arrays (C48_remove)."
  },
  {
   "property": "C49",
   "status": "proved",
   "theorems": [
    "Mqtt.C49_stored_copy"
   ],
   "note": ""
  },
  {
   "property": "C50",
   "status": "proved",
   "theorems": [
    "Mqtt.C50_no_undefined_behaviour",
    "Mqtt.C50_cancel_zero"
   ],
   "note": "C50_cancel_zero shows the one excluded argument: identifier 0 given to MQTT_CancelCallback reaches an assertion."
  },
  {
   "property": "C51",
   "status": "partial",
   "theorems": [
    "Mqtt.C51_acknowledgement_partial",
    "Mqtt.C51_pubcomp_partial",
    "Mqtt.C51_pubcomp_resumed_partial",
    "Mqtt.C51_exact",
    "Mqtt.C51_refused"
   ],
   "note": "The property is false of the code for publishes whose first transmission failed and that are sent when the session is resumed (C51_refused is the witness); the partial theorems cover every publish for which MQTT_Publish reported success, and C51_exact says that PUBACK and PUBREC are presented for these only."
  },
  {
   "property": "C52",
   "status": "proved",
   "theorems": [
    "Mqtt.C52_acknowledged",
    "Mqtt.C52_one"
   ],
   "note": "For every history and also for calls that do not return."
  },
  {
   "property": "C53",
   "status": "proved",
   "theorems": [
    "Mqtt.C53_only_the_environment_blocks",
    "Mqtt.C53_bounded",
    "Mqtt.C53_returns"
   ],
   "note": "Number of interactions (callBound in Spec/Progress.lean) for every call; assumes a network buffer of at least one byte and a clock that advances a millisecond per transport call. With an empty buffer MQTT_Connect busy-waits on the clock when it discards a packet, until its timeout."
  },
  {
   "property": "C54",
   "status": "proved",
   "theorems": [
    "Mqtt.C54_refused",
    "Mqtt.C54_only"
   ],
   "note": ""
  },
  {
   "property": "C55",
   "status": "proved",
   "theorems": [
    "Mqtt.C55_silence_noticed",
    "Mqtt.C55_idle_noticed",
    "Mqtt.C55_ping_postpones"
   ],
   "note": "C55_ping_postpones shows why MQTT_Ping is excluded from the calls between the polls."
  },
  {
   "property": "C56",
   "status": "proved",
   "theorems": [
    "Mqtt.C56_delivery",
    "Mqtt.C56_at_rest",
    "Mqtt.C56_cancelled",
    "Mqtt.C56_not_closed"
   ],
   "note": "The server, the network and the application are specified in Spec/Broker.lean. C56_cancelled and C56_not_closed show why the application must not cancel and must close the transport after MQTTSendFailed."
  },
  {
   "property": "C57",
   "status": "proved",
   "theorems": [
    "Mqtt.C57_delivery",
    "Mqtt.C57_at_rest",
    "Mqtt.C57_pubcomp_lost"
   ],
   "note": "The server sends QoS 1 and QoS 2 messages as Spec/Broker.Offers and Settles say (strict). C57_pubcomp_lost shows that completion is not guaranteed."
  },
  {
   "property": "C58",
   "status": "proved",
   "theorems": [
    "Mqtt.C58_refines"
   ],
   "note": "The protocol, and how its state shows the state of the system (Proto.Shows), are in Spec/Packets.lean; server, network and application are those of Spec/Broker.lean."
  },
  {
   "property": "C59",
   "status": "proved",
   "theorems": [
    "Mqtt.C59_in_order"
   ],
   "note": "InOrder and accepted are in Spec/Packets.lean. Proved about the packet protocol of C58 and carried over by C58_refines."
  },
  {
   "property": "C60",
   "status": "proved",
   "theorems": [
    "Mqtt.C60_settled",
    "Mqtt.C60_arrived"
   ],
   "note": "Steady, Calm are in Spec/Packets.lean. The part about the server's messages is for a server that sends QoS 1 and QoS 2 messages as Spec/Broker.Offers and Settles say (strict)."
  },
  {
   "property": "C61",
   "status": "proved",
   "theorems": [
    "Mqtt.C61_completed",
    "Mqtt.C61_acknowledged",
    "Mqtt.C61_readable"
   ],
   "note": "Serving, Listening are in Spec/Rounds.lean; Steady is in Spec/Packets.lean. That the calls of the client in the rounds return success or MQTTNeedMoreBytes is part of Listening. C61_acknowledged is for a server that sends QoS 1 and QoS 2 messages as Spec/Broker.Offers and Settles say (strict)."
  },
  {
   "property": "C62",
   "status": "proved",
   "theorems": [
    "Mqtt.C62_once",
    "Mqtt.C62_stays",
    "Mqtt.C62_copy_race",
    "Mqtt.C62_overtaking"
   ],
   "note": "Threads as in C47. The receiving thread may reconnect (it stops where MQTT_Connect reports a new session: OneSession); C62_stays names the begin of a new session by the CONNECT sent and the CONNACK received (newSession). C62_copy_race and C62_overtaking prove the two negative statements by concrete executions."
  },
  {
   "property": "C63",
   "status": "proved",
   "theorems": [
    "Mqtt.C63_threads",
    "Mqtt.C63_safe",
    "Mqtt.C63_wire",
    "Mqtt.C63_quiet",
    "Mqtt.C63_once",
    "Mqtt.C63_stays",
    "Mqtt.C63_disconnect_in_callback",
    "Mqtt.C63_receive_in_callback"
   ],
   "note": "The semantics of callbacks that call the library is in Spec/Nested.lean: such a callback is any program of the calls that C47 allows other threads. The last two theorems are the negative statements, by concrete executions."
  },
  {
   "property": "C64",
   "status": "proved",
   "theorems": [
    "Mqtt.C64_send",
    "Mqtt.C64_recv",
    "Mqtt.C64_store",
    "Mqtt.C64_retrieve"
   ],
   "note": "The causes are predicates on the events of the call, in Spec/Causes.lean; the two exceptions of MQTTRecvFailed are otherCause there."
  },
  {
   "property": "C65",
   "status": "proved",
   "theorems": [
    "Mqtt.C65_codes",
    "Mqtt.C65_exact",
    "Mqtt.C65_header"
   ],
   "note": "returned and documented are tables in Spec/Codes.lean; documented is transcribed from core_mqtt.h."
  },
  {
   "property": "C66",
   "status": "proved",
   "theorems": [
    "Mqtt.C66_status",
    "Mqtt.C66_state",
    "Mqtt.C66_status_distinct",
    "Mqtt.C66_state_distinct"
   ],
   "note": "The names in header order are in Spec/Names.lean."
  },
  {
   "property": "C67",
   "status": "proved",
   "theorems": [
    "Mqtt.C67_fresh_id",
    "Mqtt.C67_recent_ids"
   ],
   "note": ""
  },
  {
   "property": "C68",
   "status": "proved",
   "theorems": [
    "Mqtt.C68_carried_out",
    "Mqtt.C68_only"
   ],
   "note": "Possible is in Props/Carried.lean, the failures of the environment are those of C64."
  },
  {
   "property": "C69",
   "status": "proved",
   "theorems": [
    "Mqtt.C69_publish",
    "Mqtt.C69_publish_header",
    "Mqtt.C69_connect",
    "Mqtt.C69_connect_size",
    "Mqtt.C69_filters",
    "Mqtt.C69_ack",
    "Mqtt.C69_deserialize_publish",
    "Mqtt.C69_deserialize_ack",
    "Mqtt.C69_status_codes",
    "Mqtt.C69_read_header",
    "Mqtt.C69_missing"
   ],
   "note": "The refused arguments are in Spec/Checks.lean."
  },
  {
   "property": "C70",
   "status": "proved",
   "theorems": [
    "Mqtt.C70_keeps_alive",
    "Mqtt.C70_from_connect",
    "Mqtt.C70_flood"
   ],
   "note": "C70_flood shows why only polls that find no data count (finding ff)."
  },
  {
   "property": "C71",
   "status": "proved",
   "theorems": [
    "Mqtt.C71_send",
    "Mqtt.C71_receive",
    "Mqtt.C71_stream",
    "Mqtt.C71_locked",
    "Mqtt.C71_malformed"
   ],
   "note": "send for every outcome of every call; receive exactly when the buffer is full; never for streams of packets; C71_malformed is the reachable witness for C71_locked"
  },
  {
   "property": "C72",
   "status": "proved",
   "theorems": [
    "Mqtt.C72_one",
    "Mqtt.C72_echo"
   ],
   "note": "per call for every outcome, and accumulated over histories of receive calls"
  },
  {
   "property": "C73",
   "status": "proved",
   "theorems": [
    "Mqtt.C73_call",
    "Mqtt.C73_history",
    "Mqtt.C73_init",
    "Mqtt.C73_first_loop"
   ],
   "note": "relational: two runs with clocks a constant apart; C73_first_loop is the reachable exception"
  },
  {
   "property": "C74",
   "status": "proved",
   "theorems": [
    "Mqtt.C74_null",
    "Mqtt.C74_null_init",
    "Mqtt.C74_zero",
    "Mqtt.C74_zero_history",
    "Mqtt.C74_zero_stateful",
    "Mqtt.C74_initialised",
    "Mqtt.C74_missing",
    "Mqtt.C74_missing_callback",
    "Mqtt.C74_zero_id",
    "Mqtt.C74_zero_connect"
   ],
   "note": "C74_zero_id and C74_zero_connect are the exceptions"
  },
  {
   "property": "C75",
   "status": "proved",
   "theorems": [
    "Mqtt.C75_call",
    "Mqtt.C75_history",
    "Mqtt.C75_init"
   ],
   "note": "relational: two runs from buffers with different unused bytes"
  },
  {
   "property": "C76",
   "status": "proved",
   "theorems": [
    "Mqtt.C76_attempt",
    "Mqtt.C76_history",
    "Mqtt.C76_exceptions"
   ],
   "note": "relational: an old and a freshly initialised client; C76_exceptions is a reachable witness for the two things carried over"
  },
  {
   "property": "C77",
   "status": "proved",
   "theorems": [
    "Mqtt.C77_call",
    "Mqtt.C77_history",
    "Mqtt.C77_needed"
   ],
   "note": "relational: with and without the callbacks of MQTT_InitRetransmits; C77_needed shows that the conditions are needed"
  },
  {
   "property": "C78",
   "status": "proved",
   "theorems": [
    "Mqtt.C78_where",
    "Mqtt.C78_callback_free",
    "Mqtt.C78_store_held"
   ],
   "note": "for every state, call and environment, also for calls that do not return"
  },
  {
   "property": "C79",
   "status": "proved",
   "theorems": [
    "Mqtt.C79_duration",
    "Mqtt.C79_connect",
    "Mqtt.C79_each_part",
    "Mqtt.C79_drip",
    "Mqtt.C79_connect_drip"
   ],
   "note": "real-time bound; C79_each_part, C79_drip and C79_connect_drip are witnesses that the number of filters and the awaited bytes have to count"
  },
  {
   "property": "C80",
   "status": "proved",
   "theorems": [
    "Mqtt.C80_silence",
    "Mqtt.C80_idle",
    "Mqtt.C80_reported",
    "Mqtt.C80_keeps_alive"
   ],
   "note": "real-time versions of C55 and C70, with the duration of the calls bounded by C79"
  },
  {
   "property": "C81",
   "status": "proved",
   "theorems": [
    "Mqtt.C81_data",
    "Mqtt.C81_pingresp",
    "Mqtt.C81_nothing",
    "Mqtt.C81_waiting"
   ],
   "note": "C81_pingresp describes the one packet for which they differ"
  },
  {
   "property": "C82",
   "status": "proved",
   "theorems": [
    "Mqtt.C82_pieces",
    "Mqtt.C82_calls",
    "Mqtt.C82_zero_timeout"
   ],
   "note": "for calls that return in both runs; C82_zero_timeout is a witness that the hypothesis on the send timeout is needed"
  },
  {
   "property": "C83",
   "status": "proved",
   "theorems": [
    "Mqtt.C83_unchanged",
    "Mqtt.C83_history",
    "Mqtt.C83_qos0",
    "Mqtt.C83_exact"
   ],
   "note": ""
  },
  {
   "property": "C84",
   "status": "proved",
   "theorems": [
    "Mqtt.C84_connect",
    "Mqtt.C84_two",
    "Mqtt.C84_stalls",
    "Mqtt.C84_four",
    "Mqtt.C84_five"
   ],
   "note": "C84_two and C84_four are the witnesses; that two bytes are enough to connect in general is C41_accepted"
  },
  {
   "property": "C85",
   "status": "proved",
   "theorems": [
    "Mqtt.C85_connects",
    "Mqtt.C85_refused",
    "Mqtt.C85_gap"
   ],
   "note": "C85_gap is the witness that the gap inside the header is a cause of its own (finding ll)"
  },
  {
   "property": "C86",
   "status": "proved",
   "theorems": [
    "Mqtt.C86_answered",
    "Mqtt.C86_refused",
    "Mqtt.C86_repeated"
   ],
   "note": "C86_repeated is the general form of finding aa"
  },
  {
   "property": "C87",
   "status": "proved",
   "theorems": [
    "Mqtt.C87_presented",
    "Mqtt.C87_refused",
    "Mqtt.C87_repeated",
    "Mqtt.C87_takes",
    "Mqtt.C87_blocked"
   ],
   "note": ""
  },
  {
   "property": "C88",
   "status": "proved",
   "theorems": [
    "Mqtt.C88_call",
    "Mqtt.C88_never",
    "Mqtt.C88_stream"
   ],
   "note": "general form of findings h and gg"
  },
  {
   "property": "C89",
   "status": "proved",
   "theorems": [
    "Mqtt.C89_call",
    "Mqtt.C89_exchange",
    "Mqtt.C89_connect"
   ],
   "note": "for calls that return"
  },
  {
   "property": "C90",
   "status": "proved",
   "theorems": [
    "Mqtt.C90_recovers",
    "Mqtt.C90_hears"
   ],
   "note": "for calls of MQTT_Disconnect and MQTT_Connect that return; the condition on bytes received while not connected is needed: F_h_stale_bytes (finding h)"
  },
  {
   "property": "C91",
   "status": "proved",
   "theorems": [
    "Mqtt.C91_call",
    "Mqtt.C91_calls"
   ],
   "note": "relational: two runs whose arguments differ in contents"
  },
  {
   "property": "C92",
   "status": "proved",
   "theorems": [
    "Mqtt.C92_call",
    "Mqtt.C92_history"
   ],
   "note": "relational: clients with arrays of different sizes; C92_needed and C92_none show that the conditions are needed"
  },
  {
   "property": "C93",
   "status": "proved",
   "theorems": [
    "Mqtt.C93_history",
    "Mqtt.C93_fresh",
    "Mqtt.C93_scan"
   ],
   "note": "equivariance under renaming; C93_needed shows that injectivity is needed"
  },
  {
   "property": "C94",
   "status": "proved",
   "theorems": [
    "Mqtt.C94_answers",
    "Mqtt.C94_exact",
    "Mqtt.C94_independent",
    "Mqtt.C94_broken",
    "Mqtt.C94_broken_loop"
   ],
   "note": "C94_broken and C94_broken_loop describe the first call that reports that it could not send"
  },
  {
   "property": "C95",
   "status": "proved",
   "theorems": [
    "Mqtt.C95_contents",
    "Mqtt.C95_process"
   ],
   "note": "for calls none of which reports a failed send"
  }
 ]
}