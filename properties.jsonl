{"id": "C01", "title": "Remaining-length field round trip and minimality", "statement": "For every length n from 0 to 268435455, the remaining-length field that the serializers write for n is between one and four bytes long, is the shortest MQTT variable-length encoding of n, and both public header parsers (MQTT_GetIncomingPacketTypeAndLength and MQTT_ProcessIncomingPacketTypeAndLength), when given a stream that starts with a server packet type byte and that field, return MQTTSuccess with remainingLength = n.", "quantifier": "every n in [0, 268435455], every packet type byte a server may send, and every suffix of the stream", "why_tests_cant": "2^28 lengths times all packet types times arbitrary trailing data cannot be enumerated.", "anchors": ["source/core_mqtt_serializer.c:encodeRemainingLength", "source/core_mqtt_serializer.c:remainingLengthEncodedSize", "source/core_mqtt_serializer.c:getRemainingLength", "source/core_mqtt_serializer.c:processRemainingLength", "source/core_mqtt_serializer.c:MQTT_ProcessIncomingPacketTypeAndLength", "source/core_mqtt_serializer.c:MQTT_GetIncomingPacketTypeAndLength"]}
{"id": "C02", "title": "Remaining-length decoding accepts exactly canonical fields", "statement": "For any byte string received after a valid packet type byte, MQTT_ProcessIncomingPacketTypeAndLength returns MQTTSuccess exactly when the string starts with a canonical (shortest) variable-length encoding of at most four bytes, and then it reports that number and its encoded length; it returns MQTTNeedMoreBytes exactly when the bytes are a proper prefix of some such field; otherwise it returns MQTTBadResponse. It never looks at bytes beyond the field, and the one-byte-at-a-time parser MQTT_GetIncomingPacketTypeAndLength agrees with it on every stream.", "quantifier": "every byte string and every value of the caller's byte count", "why_tests_cant": "Malformed inputs form an infinite set; agreement of two parsers must hold on every one of them.", "anchors": ["source/core_mqtt_serializer.c:processRemainingLength", "source/core_mqtt_serializer.c:getRemainingLength", "source/core_mqtt_serializer.c:MQTT_ProcessIncomingPacketTypeAndLength", "source/core_mqtt_serializer.c:MQTT_GetIncomingPacketTypeAndLength"]}
{"id": "C03", "title": "Accepted packet types are exactly the server-to-client types", "statement": "The header parsers accept a first byte exactly when it is CONNACK, PUBLISH with any flags, PUBACK, PUBREC, PUBREL with the reserved flag bits 0010, PUBCOMP, SUBACK, UNSUBACK or PINGRESP as far as the high nibble (and for PUBREL bit 1) goes, and reject every other byte with MQTTBadResponse without consuming a length.", "quantifier": "every first byte and every following stream", "why_tests_cant": "The decision must hold jointly with every possible continuation of the stream.", "anchors": ["source/core_mqtt_serializer.c:incomingPacketValid", "source/core_mqtt_serializer.c:MQTT_ProcessIncomingPacketTypeAndLength"]}
{"id": "C04", "title": "PUBLISH round trip", "statement": "For every publish description accepted by MQTT_GetPublishPacketSize and MQTT_SerializePublish, the bytes written are the MQTT 3.1.1 PUBLISH packet for it, and parsing them with MQTT_ProcessIncomingPacketTypeAndLength followed by MQTT_DeserializePublish returns the same QoS, DUP and RETAIN flags, topic, payload and (for QoS 1 and 2) packet identifier.", "quantifier": "every topic of 1..65535 bytes, every payload whose packet fits the MQTT size limit, every flag combination, every non-zero packet id, every buffer that is large enough", "why_tests_cant": "Topics and payloads of arbitrary length and content cannot be enumerated.", "anchors": ["source/core_mqtt_serializer.c:MQTT_GetPublishPacketSize", "source/core_mqtt_serializer.c:MQTT_SerializePublish", "source/core_mqtt_serializer.c:MQTT_DeserializePublish", "source/core_mqtt_serializer.c:serializePublishCommon", "source/core_mqtt_serializer.c:deserializePublish"]}
{"id": "C05", "title": "Reported PUBLISH size equals bytes written", "statement": "MQTT_GetPublishPacketSize succeeds exactly when topic is present and the packet fits the protocol limit it enforces, and then the packet size it reports is exactly the number of bytes MQTT_SerializePublish writes, and equals 1 + the remaining-length field size + the remaining length it reports. The size computation never wraps around on a platform whose size_t has at least 32 bits.", "quantifier": "every topic length, payload length (any size_t) and QoS", "why_tests_cant": "Overflow corners sit at lengths near SIZE_MAX that no test allocates.", "anchors": ["source/core_mqtt_serializer.c:calculatePublishPacketSize", "source/core_mqtt_serializer.c:MQTT_GetPublishPacketSize"]}
{"id": "C06", "title": "Serializers never write outside the caller's buffer", "statement": "Every MQTT_Serialize* function, for any buffer size, either returns a non-success status leaving the buffer unchanged, or returns MQTTSuccess having written exactly the packet at the start of the buffer and left every byte after the packet untouched; no execution writes at or past the end of the buffer. MQTTNoMemory is returned exactly when the buffer is smaller than the packet.", "quantifier": "every packet description and every buffer size and content", "why_tests_cant": "Absence of an out-of-bounds write has to hold for every length combination.", "anchors": ["source/core_mqtt_serializer.c:MQTT_SerializeConnect", "source/core_mqtt_serializer.c:MQTT_SerializeSubscribe", "source/core_mqtt_serializer.c:MQTT_SerializeUnsubscribe", "source/core_mqtt_serializer.c:MQTT_SerializePublish", "source/core_mqtt_serializer.c:MQTT_SerializePublishHeader", "source/core_mqtt_serializer.c:MQTT_SerializeAck", "source/core_mqtt_serializer.c:MQTT_SerializeDisconnect", "source/core_mqtt_serializer.c:MQTT_SerializePingreq"]}
{"id": "C07", "title": "CONNECT packets are well-formed and lossless", "statement": "For every connect description accepted by MQTT_GetConnectPacketSize (with a will whose payload pointer is present when its length is non-zero), the bytes written by MQTT_SerializeConnect form a CONNECT packet that an independent MQTT 3.1.1 grammar decoder reads back as exactly the client id, will (topic, payload, QoS, retain), user name, password, keep alive and clean-session flag that were given; the reported size is exact.", "quantifier": "every client id, will, user name, password (0..65535 bytes each), keep alive and flag combination", "why_tests_cant": "The optional fields and their lengths multiply to an unbounded input space.", "anchors": ["source/core_mqtt_serializer.c:MQTT_GetConnectPacketSize", "source/core_mqtt_serializer.c:MQTT_SerializeConnect", "source/core_mqtt_serializer.c:serializeConnectPacket", "source/core_mqtt_serializer.c:MQTT_SerializeConnectFixedHeader"]}
{"id": "C08", "title": "SUBSCRIBE and UNSUBSCRIBE packets are well-formed and lossless", "statement": "For every non-empty list of topic filters and non-zero packet id whose size computation does not wrap, the bytes written by MQTT_SerializeSubscribe (MQTT_SerializeUnsubscribe) form a packet that an independent MQTT 3.1.1 grammar decoder reads back as the same packet id and the same list of filters in the same order with the same requested QoS, and the size reported beforehand is exact.", "quantifier": "every list length, every filter content and length, every QoS assignment, every packet id", "why_tests_cant": "Lists of arbitrary length and content.", "anchors": ["source/core_mqtt_serializer.c:calculateSubscriptionPacketSize", "source/core_mqtt_serializer.c:MQTT_SerializeSubscribe", "source/core_mqtt_serializer.c:MQTT_SerializeUnsubscribe", "source/core_mqtt_serializer.c:MQTT_GetSubscribePacketSize", "source/core_mqtt_serializer.c:MQTT_GetUnsubscribePacketSize"]}
{"id": "C09", "title": "Subscription size is rejected when it exceeds the protocol limit", "statement": "MQTT_GetSubscribePacketSize and MQTT_GetUnsubscribePacketSize return MQTTBadParameter when the true packet would exceed 268435455 bytes of remaining length, and otherwise MQTTSuccess with the true sizes.", "quantifier": "every list of filters, every size_t width of at least 32 bits", "why_tests_cant": "The violation on 32-bit platforms needs tens of thousands of maximal filters; the guarantee on wide platforms ranges over all lists.", "anchors": ["source/core_mqtt_serializer.c:calculateSubscriptionPacketSize"]}
{"id": "C10", "title": "PUBLISH parsing is memory-safe and partitions the body", "statement": "For every incoming packet and every readable body of the declared remaining length, MQTT_DeserializePublish reads only bytes inside the body, and on MQTTSuccess the body is exactly: two length bytes, the topic, for QoS>0 a non-zero packet id, and the payload, with nothing lost or overlapping; otherwise it returns MQTTBadResponse. QoS 3, a zero packet id and a topic longer than the body are always rejected.", "quantifier": "every flags byte and every body", "why_tests_cant": "Malicious packets are unbounded in size and shape.", "anchors": ["source/core_mqtt_serializer.c:deserializePublish", "source/core_mqtt_serializer.c:processPublishFlags", "source/core_mqtt_serializer.c:checkPublishRemainingLength", "source/core_mqtt_serializer.c:MQTT_DeserializePublish"]}
{"id": "C11", "title": "Acknowledgement parsing accepts exactly well-formed acks", "statement": "For every packet type byte, remaining length and readable body of that length, MQTT_DeserializeAck never reads outside the body and returns success for PUBACK, PUBREC, PUBREL, PUBCOMP and UNSUBACK exactly when the remaining length is 2 and the packet id is non-zero (returning that id), for PINGRESP exactly when the remaining length is 0, and returns MQTTBadResponse for any other type.", "quantifier": "every packet type, length, body", "why_tests_cant": "All bodies of all lengths.", "anchors": ["source/core_mqtt_serializer.c:MQTT_DeserializeAck", "source/core_mqtt_serializer.c:deserializeSimpleAck", "source/core_mqtt_serializer.c:deserializePingresp"]}
{"id": "C12", "title": "CONNACK decision table", "statement": "A CONNACK body is accepted (MQTTSuccess) exactly when it has two bytes, the reserved flag bits are zero and the return code is 0; MQTTServerRefused is returned exactly for well-formed refusals with return code 1..5 and session-present 0; everything else is MQTTBadResponse; the session-present output is the flag's low bit whenever the flags are valid.", "quantifier": "every remaining length and every body", "why_tests_cant": "65536 bodies of the right size plus infinitely many of the wrong size.", "anchors": ["source/core_mqtt_serializer.c:deserializeConnack"]}
{"id": "C13", "title": "SUBACK status decision", "statement": "MQTT_DeserializeAck on a SUBACK of remaining length at least 3 with non-zero id returns MQTTSuccess exactly when every status byte is 0, 1 or 2; MQTTServerRefused exactly when every byte is in {0,1,2,0x80} and at least one is 0x80; MQTTBadResponse otherwise; it reads each of the remaining-length minus 2 status bytes and none beyond. MQTT_GetSubAckStatusCodes returns exactly those bytes.", "quantifier": "every number of status codes and every content", "why_tests_cant": "Status lists of arbitrary length.", "anchors": ["source/core_mqtt_serializer.c:readSubackStatus", "source/core_mqtt_serializer.c:deserializeSuback", "source/core_mqtt.c:MQTT_GetSubAckStatusCodes"]}
{"id": "C14", "title": "Ack serialization round trip", "statement": "For every non-zero packet id and each of PUBACK, PUBREC, PUBREL, PUBCOMP, MQTT_SerializeAck writes the four-byte MQTT packet that the header parser and MQTT_DeserializeAck read back as the same type and id; it rejects packet id 0 and any other packet type.", "quantifier": "every id, type and buffer", "why_tests_cant": "All ids with all types and all buffer sizes.", "anchors": ["source/core_mqtt_serializer.c:MQTT_SerializeAck", "source/core_mqtt_serializer.c:MQTT_DeserializeAck"]}
{"id": "C15", "title": "DUP flag update changes only the DUP bit", "statement": "MQTT_UpdateDuplicatePublishFlag on a PUBLISH header sets or clears exactly the DUP bit, so the rest of the packet parses to the same QoS, RETAIN, topic, id and payload; on any non-PUBLISH byte it returns MQTTBadParameter and changes nothing. Retransmitted copies handed to the store callback differ from the transmitted PUBLISH only in this bit.", "quantifier": "every header byte, every packet", "why_tests_cant": "All packets, not only those in a test corpus.", "anchors": ["source/core_mqtt_serializer.c:MQTT_UpdateDuplicatePublishFlag", "source/core_mqtt.c:sendPublishWithoutCopy"]}
{"id": "C16", "title": "Packet identifiers are valid and do not repeat early", "statement": "In every history of calls from an initialised context, whatever else is called in between, MQTT_GetPacketId never returns 0, any 65535 consecutive calls return pairwise distinct identifiers, and the sequence has period exactly 65535. When several threads call it concurrently, in any interleaving, no thread gets 0, and the identifiers returned between two moments are pairwise distinct if at most 65535 calls were begun in between (no call being in progress at the first moment).", "quantifier": "every history, every starting identifier, every number of calls, every set of threads and every schedule of their steps", "why_tests_cant": "65535 starting points, unbounded call counts and all interleavings.", "anchors": ["source/core_mqtt.c:MQTT_GetPacketId"]}
{"id": "C17", "title": "In-flight table behaves as an ordered set of packet ids", "statement": "For every history of MQTT_ReserveState, MQTT_UpdateStatePublish, MQTT_UpdateStateAck and MQTT_RemoveStateRecord calls starting from cleared record arrays, the outgoing and the incoming record arrays each represent an insertion-ordered list of in-flight publishes with pairwise distinct ids: compaction and slot reuse are invisible, i.e. every call returns the status and has the effect prescribed by a simple list-based specification.", "quantifier": "every history of calls with every argument and every record-array size of at least one", "why_tests_cant": "Histories are unbounded; compaction bugs need specific occupancy patterns.", "anchors": ["source/core_mqtt_state.c:addRecord", "source/core_mqtt_state.c:compactRecords", "source/core_mqtt_state.c:findInRecord", "source/core_mqtt_state.c:updateRecord", "source/core_mqtt_state.c:MQTT_ReserveState", "source/core_mqtt_state.c:MQTT_UpdateStatePublish", "source/core_mqtt_state.c:MQTT_UpdateStateAck", "source/core_mqtt_state.c:MQTT_RemoveStateRecord"]}
{"id": "C18", "title": "A free slot is always usable and the table never overflows", "statement": "Reserving state for a QoS>0 publish with a nonzero id fails with MQTTStateCollision exactly when the id is already in flight, fails with MQTTNoMemory exactly when the id is not in flight and as many publishes as the table has slots are in flight, and otherwise succeeds and adds exactly one in-flight entry, at the end of the order, disturbing no other.", "quantifier": "every reachable table of every size, every id and QoS", "why_tests_cant": "All occupancy patterns of tables of every size.", "anchors": ["source/core_mqtt_state.c:addRecord", "source/core_mqtt_state.c:compactRecords", "source/core_mqtt_state.c:MQTT_ReserveState"]}
{"id": "C19", "title": "Publish state transitions follow the MQTT QoS protocol", "statement": "In every history, the state of each in-flight publish only ever moves along the edges of the MQTT 3.1.1 QoS 1 / QoS 2 sender and receiver diagrams for its QoS and direction, and an entry disappears only when its final acknowledgement was processed or it was cancelled.", "quantifier": "every history of state-engine calls and every entry", "why_tests_cant": "Unbounded interleavings of acks for many ids.", "anchors": ["source/core_mqtt_state.c:validateTransitionPublish", "source/core_mqtt_state.c:validateTransitionAck", "source/core_mqtt_state.c:MQTT_CalculateStateAck", "source/core_mqtt_state.c:MQTT_CalculateStatePublish", "source/core_mqtt_state.c:MQTT_UpdateStateAck", "source/core_mqtt_state.c:MQTT_UpdateStatePublish"]}
{"id": "C20", "title": "Rejected acks change nothing", "statement": "Whenever MQTT_UpdateStateAck or MQTT_UpdateStatePublish returns MQTTIllegalState, MQTTBadResponse, MQTTBadParameter, MQTTNoMemory or MQTTStateCollision, no in-flight entry of either table is added, removed, reordered or changed (up to invisible compaction).", "quantifier": "every table state and every argument", "why_tests_cant": "All states, all erroneous inputs.", "anchors": ["source/core_mqtt_state.c:MQTT_UpdateStateAck", "source/core_mqtt_state.c:MQTT_UpdateStatePublish"]}
{"id": "C21", "title": "Resend enumeration is complete, ordered and duplicate free", "statement": "Iterating MQTT_PublishToResend with a fresh cursor returns exactly the ids of outgoing publishes that were handed over but whose PUBACK / PUBREC has not arrived, each exactly once, in the order they were first reserved, and then 0 forever; iterating the PUBREL enumeration used on reconnect returns exactly the outgoing QoS 2 ids whose PUBREC arrived and PUBCOMP did not.", "quantifier": "every reachable outgoing table of any size", "why_tests_cant": "Needs all table contents including holes and wrap of the cursor.", "anchors": ["source/core_mqtt_state.c:stateSelect", "source/core_mqtt_state.c:MQTT_PublishToResend", "source/core_mqtt_state.c:MQTT_PubrelToResend"]}
{"id": "C22", "title": "PUBREL order equals PUBREC arrival order", "statement": "In every history, outgoing QoS 2 publishes whose PUBREC has been received are enumerated for PUBREL retransmission in the order in which their first accepted PUBREC was processed, as MQTT 3.1.1 section 4.6 requires.", "quantifier": "every history", "why_tests_cant": "Order depends on the whole history of reserves, acks and compactions.", "anchors": ["source/core_mqtt_state.c:updateStateAck", "source/core_mqtt_state.c:addRecord", "source/core_mqtt_state.c:MQTT_PubrelToResend"]}
{"id": "C23", "title": "Processing an in-order PUBREC never loses the publish", "statement": "When a legal PUBREC is processed for an in-flight outgoing QoS 2 publish, the library's delete-and-re-add of the record always succeeds: the publish is still in flight afterwards, awaiting PUBREL, even if the table is completely full, and no other entry is lost.", "quantifier": "every reachable table, full or not", "why_tests_cant": "Failure would require a specific full-table layout.", "anchors": ["source/core_mqtt_state.c:updateStateAck"]}
{"id": "C24", "title": "Topic matching is sound", "statement": "For every topic name without wildcard characters and null characters (which MQTT forbids in topic names) and every topic filter, if MQTT_MatchTopic reports a match then the filter matches the name under the MQTT 3.1.1 level-by-level rules (single-level '+', multi-level '#' including the parent level, and wildcards not matching names that start with '$').", "quantifier": "every name and filter of 1..65535 bytes", "why_tests_cant": "Infinitely many strings; bugs hide at level boundaries.", "anchors": ["source/core_mqtt.c:MQTT_MatchTopic", "source/core_mqtt.c:matchTopicFilter", "source/core_mqtt.c:matchWildcards", "source/core_mqtt.c:matchEndWildcardsSpecialCases"]}
{"id": "C25", "title": "Topic matching is complete", "statement": "For every topic name and every valid topic filter that matches it under the MQTT 3.1.1 rules, MQTT_MatchTopic reports a match.", "quantifier": "every name and filter of 1..65535 bytes", "why_tests_cant": "Infinitely many strings; the violating ones need '+' next to an empty or final level.", "anchors": ["source/core_mqtt.c:MQTT_MatchTopic", "source/core_mqtt.c:matchTopicFilter", "source/core_mqtt.c:matchWildcards"]}
{"id": "C26", "title": "Topic matching terminates within bounds", "statement": "MQTT_MatchTopic terminates for every input and never reads at or past the stated length of either string, and treats exact equality as a match even for invalid filters.", "quantifier": "every pair of byte strings", "why_tests_cant": "Termination and in-bounds access of nested index loops for all inputs.", "anchors": ["source/core_mqtt.c:matchTopicFilter", "source/core_mqtt.c:matchWildcards", "source/core_mqtt.c:MQTT_MatchTopic"]}
{"id": "C27", "title": "Sent bytes are always a prefix of the packet, and the whole packet on success", "statement": "For every packet and every behaviour of the transport (partial writes of any size, zero-length writes, errors, any clock readings), the bytes that the library hands over for a packet are, concatenated, a prefix of that packet; if the send operation reports full success they are the entire packet, with no byte repeated, skipped or reordered.", "quantifier": "every packet, every partition into vectors, every sequence of transport results and clock readings, every crash point", "why_tests_cant": "All chunkings of all packets over all vector layouts.", "anchors": ["source/core_mqtt.c:sendBuffer", "source/core_mqtt.c:sendMessageVector"]}
{"id": "C28", "title": "Zero-copy sends equal the copying serializers", "statement": "When MQTT_Publish, MQTT_Subscribe, MQTT_Unsubscribe or MQTT_Connect hands its whole packet to the transport, the transmitted byte stream is byte-for-byte the packet that the corresponding MQTT_Serialize* function writes for the same arguments, for any number of filters and any batching into vectors.", "quantifier": "every argument and every transport behaviour", "why_tests_cant": "The vector batching varies with list length and transport behaviour.", "anchors": ["source/core_mqtt.c:sendPublishWithoutCopy", "source/core_mqtt.c:sendSubscribeWithoutCopy", "source/core_mqtt.c:sendUnsubscribeWithoutCopy", "source/core_mqtt.c:sendConnectWithoutCopy", "source/core_mqtt.c:addEncodedStringToVector"]}
{"id": "C29", "title": "Transport errors move the connection to disconnect-pending", "statement": "Whenever the transport send or receive function returns a negative value while the connection is established, the connection status becomes MQTTDisconnectPending, the API call reports MQTTSendFailed or MQTTRecvFailed, and it stays so until MQTT_Disconnect is called.", "quantifier": "every API call, every transport behaviour, every point at which the error occurs", "why_tests_cant": "The error may strike at any transport call of any operation.", "anchors": ["source/core_mqtt.c:sendBuffer", "source/core_mqtt.c:sendMessageVector", "source/core_mqtt.c:recvExact", "source/core_mqtt.c:receiveSingleIteration"]}
{"id": "C30", "title": "Nothing is sent unless connected", "statement": "In every history, MQTT_Publish, MQTT_Subscribe, MQTT_Unsubscribe, MQTT_Ping and the acknowledgements and pings generated by MQTT_ProcessLoop / MQTT_ReceiveLoop hand no byte to the transport unless the connection status is MQTTConnected when they start sending; MQTT_Publish, MQTT_Subscribe, MQTT_Unsubscribe and MQTT_Ping return MQTTStatusNotConnected or MQTTStatusDisconnectPending in the other cases.", "quantifier": "every history of API calls, every transport behaviour", "why_tests_cant": "Reachability over unbounded histories.", "anchors": ["source/core_mqtt.c:MQTT_Publish", "source/core_mqtt.c:MQTT_Subscribe", "source/core_mqtt.c:MQTT_Unsubscribe", "source/core_mqtt.c:MQTT_Ping", "source/core_mqtt.c:sendPublishAcks"]}
{"id": "C31", "title": "Send loops terminate", "statement": "If the clock read by the library advances at least one millisecond per transport call, or the transport accepts at least one byte per call, then every send operation returns after finitely many transport calls, bounded by packet length and MQTT_SEND_TIMEOUT_MS, also when the 32-bit clock wraps.", "quantifier": "every packet, transport behaviour and clock start value", "why_tests_cant": "Liveness over all infinite transport behaviours.", "anchors": ["source/core_mqtt.c:sendBuffer", "source/core_mqtt.c:sendMessageVector", "source/core_mqtt.c:calculateElapsedTime"]}
{"id": "C32", "title": "Incoming stream reassembly does not depend on fragmentation", "statement": "For every byte stream made of packets that fit the network buffer and every way the transport splits it over receive calls (including zero-byte reads), repeated MQTT_ReceiveLoop calls present to the application exactly the packets of the stream, in order, each once, independent of the split.", "quantifier": "every stream of packets and every fragmentation", "why_tests_cant": "All partitions of all streams.", "anchors": ["source/core_mqtt.c:receiveSingleIteration", "source/core_mqtt_serializer.c:MQTT_ProcessIncomingPacketTypeAndLength"]}
{"id": "C33", "title": "The receive path never overruns the network buffer", "statement": "For every byte stream and transport behaviour, receive calls only request bytes that fit in the free part of the network buffer, the buffered byte count never exceeds the buffer size, and after a packet is consumed exactly the unread bytes are kept, in order, at the front.", "quantifier": "every history, stream, fragmentation and buffer size", "why_tests_cant": "Index arithmetic over all histories.", "anchors": ["source/core_mqtt.c:receiveSingleIteration", "source/core_mqtt.c:receivePacket", "source/core_mqtt.c:discardPacket", "source/core_mqtt.c:discardStoredPacket"]}
{"id": "C34", "title": "Oversized packets are discarded exactly", "statement": "When a complete header announces a packet larger than the network buffer, exactly the bytes of that packet are consumed from the stream and dropped: nothing is delivered for it, the buffer is empty afterwards so that the following packet is parsed from its first byte, and the call reports MQTTSuccess. It reports MQTTRecvFailed only if the transport failed or delivered nothing for the polling timeout; then part of the packet may still be on its way.", "quantifier": "every oversized length, every fragmentation, every following stream", "why_tests_cant": "Resynchronisation must hold for every length and split.", "anchors": ["source/core_mqtt.c:discardStoredPacket", "source/core_mqtt.c:discardPacket", "source/core_mqtt.c:receiveSingleIteration"]}
{"id": "C35", "title": "Exactly-once delivery of incoming QoS 2 publishes", "statement": "In every history without session reset, after the application callback has been invoked for an incoming QoS 2 PUBLISH with some packet id, it is not invoked again for a QoS 2 PUBLISH with that id until a PUBREL for that id has been processed, no matter how often the broker retransmits, whether sends fail, or the client reconnects with the session preserved.", "quantifier": "every history of packets, failures and resumed reconnects", "why_tests_cant": "Retransmission and failure schedules are unbounded.", "anchors": ["source/core_mqtt.c:handleIncomingPublish", "source/core_mqtt.c:handlePublishAcks", "source/core_mqtt_state.c:MQTT_UpdateStatePublish"]}
{"id": "C36", "title": "Incoming publishes are acknowledged with the right packet", "statement": "Processing an incoming PUBLISH hands to the transport nothing for QoS 0, PUBACK with the same id for QoS 1 and PUBREC with the same id for QoS 2 (also for a duplicate); processing PUBREC sends PUBREL and processing PUBREL sends PUBCOMP with the same id; no other acknowledgement bytes are ever sent by the receive path.", "quantifier": "every incoming packet, table state and transport behaviour", "why_tests_cant": "All ids, states and transport behaviours.", "anchors": ["source/core_mqtt.c:handleIncomingPublish", "source/core_mqtt.c:handlePublishAcks", "source/core_mqtt.c:sendPublishAcks"]}
{"id": "C37", "title": "Outgoing QoS>0 publishes stay in flight until acknowledged", "statement": "Once MQTT_Publish has reserved a QoS 1 / QoS 2 publish, its id stays in flight across any further API calls, transport failures and resumed reconnects until its PUBACK / PUBCOMP is processed, the application cancels it, or a clean session is established; when retransmission callbacks are installed its stored copy is cleared only after PUBACK / PUBREC was processed or a clean session was established.", "quantifier": "every history", "why_tests_cant": "Unbounded histories with failures at every point.", "anchors": ["source/core_mqtt.c:MQTT_Publish", "source/core_mqtt.c:handlePublishAcks", "source/core_mqtt.c:MQTT_CancelCallback", "source/core_mqtt.c:handleCleanSession"]}
{"id": "C38", "title": "Session resumption retransmits exactly what is pending", "statement": "After MQTT_Connect succeeds with session present, the bytes sent after CONNECT are exactly: one PUBREL for each outgoing QoS 2 publish whose PUBREC was received but PUBCOMP was not, in order, followed (if retransmission callbacks are installed) by the stored copy of each publish still awaiting PUBACK / PUBREC, in the order of the original sends.", "quantifier": "every table state, store content and transport behaviour", "why_tests_cant": "All in-flight configurations.", "anchors": ["source/core_mqtt.c:handleUncleanSessionResumption", "source/core_mqtt_state.c:MQTT_PubrelToResend", "source/core_mqtt_state.c:MQTT_PublishToResend"]}
{"id": "C39", "title": "A clean session resets all session state", "statement": "After MQTT_Connect succeeds with session-present 0, no publish is in flight in either direction, the receive buffer is empty, and the clear callback was invoked for exactly the publishes that were awaiting PUBACK / PUBREC.", "quantifier": "every prior state", "why_tests_cant": "All in-flight configurations and buffer contents.", "anchors": ["source/core_mqtt.c:handleCleanSession", "source/core_mqtt.c:MQTT_Connect"]}
{"id": "C40", "title": "Connection status machine", "statement": "In every history the connection status changes only: NotConnected to Connected by MQTT_Connect that received an accepting CONNACK; NotConnected to DisconnectPending by MQTT_Connect that received an accepting CONNACK with session present but failed to retransmit; Connected to DisconnectPending by a transport error or by MQTT_Connect called with bad parameters; to NotConnected by MQTT_Disconnect. In particular a keep-alive timeout does not change it. MQTT_Connect (with acceptable parameters) on an established connection returns MQTTStatusConnected, in disconnect-pending returns MQTTStatusDisconnectPending, and sends nothing in these cases.", "quantifier": "every history and transport behaviour", "why_tests_cant": "Reachability over unbounded histories.", "anchors": ["source/core_mqtt.c:MQTT_Connect", "source/core_mqtt.c:MQTT_Disconnect", "source/core_mqtt.c:MQTT_CheckConnectStatus"]}
{"id": "C41", "title": "MQTT_Connect outcome", "statement": "MQTT_Connect returns MQTTSuccess only if the whole CONNECT packet was handed to the transport and the first packet received is a CONNACK with return code 0, and, if a clean session was requested, session-present 0; any refusal, malformed or other first packet makes it return an error and leaves the context not connected.", "quantifier": "every connect description and every transport behaviour", "why_tests_cant": "All server answers and fragmentations.", "anchors": ["source/core_mqtt.c:MQTT_Connect", "source/core_mqtt.c:receiveConnack", "source/core_mqtt.c:sendConnectWithoutCopy"]}
{"id": "C42", "title": "Waiting for CONNACK is bounded", "statement": "With timeout 0 MQTT_Connect polls for the first CONNACK byte at most MQTT_MAX_CONNACK_RECEIVE_RETRY_COUNT + 1 times; with a non-zero timeout and a clock that advances, it stops polling once the elapsed time reaches the timeout, also across clock wrap-around; in both cases it reports MQTTNoDataAvailable if nothing arrived.", "quantifier": "every timeout, clock sequence and transport behaviour", "why_tests_cant": "Unbounded waiting behaviours.", "anchors": ["source/core_mqtt.c:receiveConnack"]}
{"id": "C43", "title": "MQTT_Disconnect always ends the connection", "statement": "After MQTT_Disconnect returns, the connection status is NotConnected. If it was not NotConnected before, unread input is dropped and the two DISCONNECT bytes (or a prefix of them, with MQTTSendFailed) were handed to the transport; if it was NotConnected nothing is sent, nothing changes and MQTTStatusNotConnected is returned.", "quantifier": "every state and transport behaviour", "why_tests_cant": "All states with all transport behaviours.", "anchors": ["source/core_mqtt.c:MQTT_Disconnect"]}
{"id": "C44", "title": "Keep-alive decisions", "statement": "When MQTT_ProcessLoop finds no data, it sends PINGREQ exactly when no ping is outstanding and either the (capped) keep-alive interval is non-zero and has elapsed since the last transmission or MQTT's receive timeout has elapsed since the last reception; if a ping is outstanding it reports MQTTKeepAliveTimeout exactly when more than the configured response time has elapsed since the ping was sent; the elapsed-time arithmetic is exact modulo 2^32.", "quantifier": "every clock value, keep-alive interval and context state", "why_tests_cant": "2^32 clock values for each timestamp.", "anchors": ["source/core_mqtt.c:handleKeepAlive", "source/core_mqtt.c:calculateElapsedTime", "source/core_mqtt.c:MQTT_Ping"]}
{"id": "C45", "title": "Invalid parameters have no effect", "statement": "Every API function that is given arguments it does not accept (null pointers, empty topics, id 0, oversized packets, missing record arrays) returns MQTTBadParameter, leaves the context and the record tables unchanged and performs no transport, clock or callback call; conversely it returns MQTTBadParameter only for such arguments. Exceptions: MQTT_Connect with bad parameters on an established connection makes it disconnect-pending; MQTT_Publish of a duplicate whose id is in flight with another QoS returns MQTTBadParameter after sending; MQTT_CancelCallback returns it for an id that is not in flight.", "quantifier": "every API function, argument and context state", "why_tests_cant": "All combinations of invalid arguments and states.", "anchors": ["source/core_mqtt.c:MQTT_Publish", "source/core_mqtt.c:MQTT_Subscribe", "source/core_mqtt.c:MQTT_Unsubscribe", "source/core_mqtt.c:MQTT_Connect", "source/core_mqtt_serializer.c:MQTT_SerializePublish"]}
{"id": "C46", "title": "State-update hooks are balanced and never nested on established connections", "statement": "In every API call, on every return path, each entry into the state-update critical section is matched by an exit; the section is never entered twice without an exit, and the send function is never called outside of it, by MQTT_Publish, MQTT_Subscribe, MQTT_Unsubscribe, MQTT_Ping, MQTT_Disconnect, MQTT_ProcessLoop and MQTT_ReceiveLoop, so a plain mutex suffices for them. MQTT_Connect nests it only when the receive function reports an error while the CONNACK is awaited.", "quantifier": "every API call, path and transport behaviour", "why_tests_cant": "Every error path of every function.", "anchors": ["source/core_mqtt.c:MQTT_Connect", "source/core_mqtt.c:MQTT_Publish", "source/core_mqtt.c:sendPublishAcks", "source/core_mqtt.c:recvExact", "source/core_mqtt.c:receiveSingleIteration"]}
{"id": "C47", "title": "The context is modified only inside the critical section by concurrent senders", "statement": "One thread may call every API function (in particular the receive loops, MQTT_Connect and MQTT_Disconnect); any number of other threads may call MQTT_Publish, MQTT_Subscribe, MQTT_Unsubscribe, MQTT_Ping, MQTT_CancelCallback, MQTT_GetPacketId and MQTT_CheckConnectStatus. For every interleaving of their steps outside critical sections, no undefined behaviour occurs, the in-flight tables stay well formed, each publish is reserved and sent atomically with respect to others, and packets on the wire are never interleaved. (MQTT_Disconnect from another thread than the receiving one does not have this guarantee.)", "quantifier": "every number of threads and every schedule of their critical sections", "why_tests_cant": "All schedules.", "anchors": ["source/core_mqtt.c:MQTT_Publish", "source/core_mqtt.c:sendPublishAcks", "source/core_mqtt.c:handlePublishAcks", "source/core_mqtt.c:MQTT_Subscribe"]}
{"id": "C48", "title": "Cancelling removes exactly one in-flight publish", "statement": "MQTT_CancelCallback on a non-zero id in flight removes exactly that outgoing entry and returns MQTTSuccess; on an id not in flight it returns MQTTBadParameter and changes nothing. (Id 0 is outside the contract: it fails an assertion.)", "quantifier": "every table state and id", "why_tests_cant": "All tables of all sizes.", "anchors": ["source/core_mqtt.c:MQTT_CancelCallback", "source/core_mqtt_state.c:MQTT_RemoveStateRecord"]}
{"id": "C49", "title": "Stored retransmission copies are faithful", "statement": "MQTT_GetBytesInMQTTVec and MQTT_SerializeMQTTVec applied to the vector passed to the store callback of MQTT_Publish give exactly the length and bytes of the PUBLISH packet with the DUP bit set, for every publish with QoS>0.", "quantifier": "every publish description", "why_tests_cant": "Arbitrary topics and payloads.", "anchors": ["source/core_mqtt.c:MQTT_GetBytesInMQTTVec", "source/core_mqtt.c:MQTT_SerializeMQTTVec", "source/core_mqtt.c:sendPublishWithoutCopy"]}
{"id": "C50", "title": "No undefined behaviour or failed assertion on well-formed use", "statement": "Starting from MQTT_Init and MQTT_InitStatefulQoS with valid buffers, no history of API calls with valid pointers, whatever the broker sends and whatever the transport does, leads to an out-of-bounds access, a null dereference or a failed assertion.", "quantifier": "every history of API calls, network input and transport behaviour", "why_tests_cant": "Unbounded adversarial input.", "anchors": ["source/core_mqtt.c:MQTT_ProcessLoop", "source/core_mqtt.c:MQTT_Connect", "source/core_mqtt.c:MQTT_Publish", "source/core_mqtt_state.c:findInRecord"]}
{"id": "C51", "title": "A publish that was transmitted can be completed", "statement": "Once the whole packet of a QoS 1 or QoS 2 publish has been handed to the transport, by MQTT_Publish or by the retransmission when MQTT_Connect resumes a session, the acknowledgements the server owes for it (PUBACK; PUBREC and, after the PUBREL, PUBCOMP) are accepted whenever they arrive: the receive call that takes the acknowledgement from the stream presents it to the application, whatever failures, reconnections and resumptions happened in between, as long as the publish was not cancelled and no new session was started.", "quantifier": "every history of API calls, failures and session resumptions, every packet id, every later arrival of the acknowledgement", "why_tests_cant": "Combinations of failures and resumptions at every point.", "anchors": ["source/core_mqtt.c:MQTT_Publish", "source/core_mqtt.c:handlePublishAcks", "source/core_mqtt.c:handleUncleanSessionResumption", "source/core_mqtt_state.c:MQTT_PublishToResend", "source/core_mqtt_state.c:MQTT_UpdateStateAck"]}
{"id": "C52", "title": "Acknowledgements are presented only for publishes that were made, once, and in protocol order", "statement": "Whenever the application callback is presented with a PUBACK, PUBREC or PUBCOMP, the application has made a publish with this packet id and the matching QoS whose MQTT_Publish succeeded and whose whole packet was handed to the transport, which was not cancelled and since which no new session was started. A PUBACK or PUBREC is the first acknowledgement presented since that publish; before a PUBCOMP exactly the PUBREC was presented and a whole PUBREL was sent. One call presents at most one acknowledgement per packet id.", "quantifier": "every history of API calls, every byte stream from the server (also a misbehaving one), every transport behaviour, also calls that are interrupted", "why_tests_cant": "A server may send any acknowledgement at any time.", "anchors": ["source/core_mqtt.c:handlePublishAcks", "source/core_mqtt_state.c:MQTT_UpdateStateAck", "source/core_mqtt_state.c:validateTransitionAck"]}
{"id": "C53", "title": "Every call returns after a bounded number of interactions", "statement": "Every call of MQTT_Connect, MQTT_Subscribe, MQTT_Unsubscribe, MQTT_Publish, MQTT_Ping, MQTT_Disconnect, MQTT_ProcessLoop, MQTT_ReceiveLoop, MQTT_CancelCallback, MQTT_CheckConnectStatus and MQTT_GetPacketId returns if its environment keeps answering and the clock moves on (by at least a millisecond per transport call): the number of transport calls, clock readings, callbacks and hooks is at most a bound that depends on the configured timeouts, the number of outgoing records and the arguments, whatever the server sends and however slowly the transport sends and delivers, also when the 32 bit clock wraps around. A call that does not return is waiting for its environment.", "quantifier": "every history, every call, every byte stream from the server, every behaviour of the transport, every clock that moves on", "why_tests_cant": "Slow and partial transports in every combination; wrap-around; the worst case needs millions of calls.", "anchors": ["source/core_mqtt.c:recvExact", "source/core_mqtt.c:discardPacket", "source/core_mqtt.c:discardStoredPacket", "source/core_mqtt.c:receiveConnack", "source/core_mqtt.c:sendBuffer", "source/core_mqtt.c:sendMessageVector", "source/core_mqtt.c:handleUncleanSessionResumption", "source/core_mqtt.c:sendSubscribeWithoutCopy"]}
{"id": "C54", "title": "Exactly which publishes are refused because of the publishes in flight", "statement": "A publish with QoS 1 or 2 and valid arguments on an established connection is refused with MQTTStateCollision if a publish with the same packet id is in flight and it is not marked as a duplicate, and with MQTTNoMemory if its id is new and every record for outgoing publishes is in use; then nothing is sent, nothing is stored and nothing changes. MQTT_Publish reports MQTTStateCollision or MQTTNoMemory in no other situation.", "quantifier": "every history, every publish, every behaviour of transport and server before it", "why_tests_cant": "The tables may be in any state that a history can lead to: also with gaps and after resumed sessions.", "anchors": ["source/core_mqtt.c:MQTT_Publish", "source/core_mqtt_state.c:MQTT_ReserveState", "source/core_mqtt_state.c:addRecord"]}
{"id": "C55", "title": "A silent server is noticed", "statement": "If nothing arrives any more from the server while the application keeps calling MQTT_ProcessLoop (each call ending within some gap after the previous one began), then MQTT_ProcessLoop stops reporting success: the last call that reports MQTTSuccess or MQTTNeedMoreBytes begins at most PINGRESP timeout + gap after the time at which a ping was due (the receive timeout after the last reception; or the capped keep-alive interval after the last transmission, if the application sends nothing itself). This holds whatever other calls the application makes in between, except connecting, disconnecting and MQTT_Ping, and across the wrap-around of the clock.", "quantifier": "every history before and during the silence, every schedule of calls, every behaviour of the send side of the transport, every clock", "why_tests_cant": "Any interleaving of polls and other calls, any timing, also across the wrap-around, and partial packets left in the buffer.", "anchors": ["source/core_mqtt.c:handleKeepAlive", "source/core_mqtt.c:MQTT_Ping", "source/core_mqtt.c:receiveSingleIteration", "source/core_mqtt.c:MQTT_ProcessLoop"]}
{"id": "C56", "title": "End-to-end delivery: QoS 2 exactly once, QoS 1 at least once, in order, across lost connections", "statement": "Between a client and a standard-conforming server, over connections that may be lost at any moment together with everything under way: the messages the server takes over with a packet id are the messages that MQTT_Publish accepted with this id, in order, none missing, altered or added, each QoS 2 message exactly once and each QoS 1 message at least once, except that the last one may not have arrived yet while it is still in flight. When PUBACK or PUBREC is presented to the application, the message has arrived; PUBCOMP is presented only for messages acknowledged before. This requires that the server keeps the session, that the application gives stored packets back unchanged, closes the transport when a packet could not be sent, does not repeat publishes with DUP itself and does not cancel them.", "quantifier": "every history of API calls with the given packet id free at its beginning, every behaviour of the transport (partial sends, losses at any byte, timeouts), every interleaving of server and client, every number of reconnects and resumed sessions, all packets the server may send in between", "why_tests_cant": "The loss can happen after any byte of any packet in either direction, and the retransmissions, stored packets and state records of client and server have to fit together for every such history.", "anchors": ["source/core_mqtt.c:MQTT_Publish", "source/core_mqtt.c:MQTT_Connect", "source/core_mqtt.c:handleUncleanSessionResumption", "source/core_mqtt.c:handlePublishAcks", "source/core_mqtt.c:sendPublishAcks", "source/core_mqtt_state.c:MQTT_UpdateStateAck", "source/core_mqtt_state.c:MQTT_UpdateStatePublish", "source/core_mqtt_state.c:MQTT_PublishToResend", "source/core_mqtt_state.c:MQTT_PubrelToResend"]}
{"id": "C57", "title": "End-to-end delivery of incoming messages: QoS 2 exactly once, QoS 1 at least once, in order, across lost connections", "statement": "Between a client and a standard-conforming server, over connections that may be lost at any moment together with everything under way: the QoS 1 and QoS 2 messages presented to the application with a packet id are the messages the server sent under this id, in order, none missing, altered or added, each QoS 2 message exactly once and each QoS 1 message at least once, except that the last one may not have been presented yet while the server still keeps it unacknowledged. A message is therefore acknowledged only after it was presented. This holds as long as the server keeps the session, whatever the application calls in between. Completion is not guaranteed: after a lost PUBCOMP the repeated PUBREL is reported as MQTTBadResponse and not answered.", "quantifier": "every history of API calls, every packet id that is free on both sides at the beginning, every number of free incoming records, every behaviour of the transport (partial sends and receives, losses at any byte, timeouts), every interleaving of server and client, every number of reconnects and resumed sessions, every order in which the server sends new messages, repeats old ones and sends other packets", "why_tests_cant": "The loss can happen after any byte of any packet in either direction, before or after the message is presented, and the client's incoming records have to tell a repeated message from a new one for every such history.", "anchors": ["source/core_mqtt.c:handleIncomingPublish", "source/core_mqtt.c:handlePublishAcks", "source/core_mqtt.c:sendPublishAcks", "source/core_mqtt.c:receiveSingleIteration", "source/core_mqtt.c:MQTT_Connect", "source/core_mqtt_state.c:MQTT_UpdateStatePublish", "source/core_mqtt_state.c:MQTT_UpdateStateAck"]}
{"id": "C58", "title": "On the network the client speaks the packet-level protocol, whatever the transport does", "statement": "Seen from the server and the application's memory, every history of API calls is a history of a protocol of whole packets: each packet is sent completely or the connection is closed after a part of it; each received packet is dealt with exactly once, in the order of arrival, whatever pieces it arrived in; before a session exists nothing but CONNECT is sent and a connection starts with nothing received left over from the previous one; after CONNACK the client forgets or retransmits exactly what the protocol says; and the records of outgoing and incoming publishes, the packets kept by the application and the bytes under way always are those of the protocol's state. The messages the protocol sends are those that MQTT_Publish accepted, in the order of the calls.", "quantifier": "every history of API calls of an application that neither cancels publishes nor repeats them with DUP itself, every behaviour of transport, clock and callbacks, every interleaving with the server, every number of connections", "why_tests_cant": "Transport calls can split, fail or stall at every byte of every packet, and the claim is about the joint state of client, server and network after every such history.", "anchors": ["source/core_mqtt.c:receiveSingleIteration", "source/core_mqtt.c:sendMessageVector", "source/core_mqtt.c:sendBuffer", "source/core_mqtt.c:MQTT_Connect", "source/core_mqtt.c:handleUncleanSessionResumption", "source/core_mqtt.c:handleCleanSession", "source/core_mqtt.c:MQTT_Publish", "source/core_mqtt_state.c:MQTT_UpdateStateAck"]}
{"id": "C59", "title": "Messages arrive at the server in the order in which they were published", "statement": "Between a client and a standard-conforming server, over connections that may be lost at any moment together with everything under way: every message the server takes over, whatever its packet id and quality of service, is one that MQTT_Publish accepted, unaltered; each is either published after all the messages that arrived before it, or the repetition of a QoS 1 or QoS 2 message that has arrived before. So no message is overtaken by one published later, also when publishes with several packet ids and qualities of service are mixed and retransmitted after a reconnect, and a QoS 0 message arrives at most once.", "quantifier": "every history of API calls of an application that neither cancels publishes nor repeats them with DUP itself, every assignment of packet ids, every behaviour of transport, clock and callbacks, every interleaving with the server, every number of lost connections, resumed and lost sessions", "why_tests_cant": "The order depends on which of the messages were lost at which byte, in which order the records stand after acknowledgements arrived out of order and records were compacted and reused, and on where a retransmission was interrupted; there are unboundedly many such histories.", "anchors": ["source/core_mqtt.c:MQTT_Publish", "source/core_mqtt.c:handleUncleanSessionResumption", "source/core_mqtt.c:handleCleanSession", "source/core_mqtt_state.c:MQTT_PublishToResend", "source/core_mqtt_state.c:MQTT_PubrelToResend", "source/core_mqtt_state.c:addRecord", "source/core_mqtt_state.c:compactRecords"]}
{"id": "C60", "title": "No exchange is forgotten: when nothing is under way, nothing is in flight", "statement": "Between a client and a standard-conforming server: take an open connection on which, since it was established, MQTT_Publish could store every message, MQTT_ProcessLoop and MQTT_ReceiveLoop reported no error, and the session, if it was resumed, was resumed by a client that keeps copies for retransmission. If nothing is under way in either direction and nothing is buffered, then no outgoing publish is in flight, every QoS 1 or QoS 2 message published since a moment at which its packet id was free has been taken over by the server (QoS 2 exactly once), and every message that the server sent on this connection has been acknowledged in full. So client and server never wait for each other (there is no deadlock), neither after a lost connection nor with publishes in both directions.", "quantifier": "every history of API calls of an application that neither cancels publishes nor repeats them with DUP itself, with a calm part since the last successful MQTT_Connect and anything before it; every behaviour of transport, clock and callbacks; every interleaving with the server; every number of lost connections and resumed sessions", "why_tests_cant": "It is a statement about all states reachable by unboundedly long histories: that in none of them an acknowledgement was swallowed, a record left behind or a retransmission omitted.", "anchors": ["source/core_mqtt.c:MQTT_Publish", "source/core_mqtt.c:handleUncleanSessionResumption", "source/core_mqtt.c:handleCleanSession", "source/core_mqtt.c:handleIncomingPublish", "source/core_mqtt.c:handlePublishAcks", "source/core_mqtt.c:sendPublishAcks", "source/core_mqtt_state.c:MQTT_PublishToResend", "source/core_mqtt_state.c:MQTT_PubrelToResend", "source/core_mqtt_state.c:MQTT_UpdateStateAck"]}
{"id": "C61", "title": "Two round trips complete every exchange", "statement": "Between a client and a standard-conforming server, on an open connection on which, since it was established, MQTT_Publish could store every message, MQTT_ProcessLoop and MQTT_ReceiveLoop reported no error and a resumed session was resumed by a client that keeps copies: let the server read all that the client has sent, then let the application call MQTT_ProcessLoop or MQTT_ReceiveLoop until all that the server has sent is processed, and let both do so once more. Then no outgoing publish is in flight, whatever else the server sent meanwhile. If the server sent no new messages meanwhile, then once it has read the client's last answers every message that it sent on this connection is acknowledged in full. The server can always do its part: whatever the client has sent by then it can read.", "quantifier": "every history of API calls of an application that neither cancels publishes nor repeats them with DUP itself, with a calm part since the last successful MQTT_Connect and anything before it; every number of exchanges in flight in either direction and every stage they are in; every behaviour of transport, clock and callbacks in the rounds in which the calls return success; every chunking of the packets over the calls", "why_tests_cant": "The number of exchanges in flight and the stages they are in are unbounded; a test fixes one of them. That two rounds suffice for all of them together, in every reachable state, needs the invariant that a packet about each is under way.", "anchors": ["source/core_mqtt.c:MQTT_ProcessLoop", "source/core_mqtt.c:MQTT_ReceiveLoop", "source/core_mqtt.c:handleIncomingPublish", "source/core_mqtt.c:handlePublishAcks", "source/core_mqtt.c:sendPublishAcks", "source/core_mqtt.c:handleUncleanSessionResumption", "source/core_mqtt_state.c:MQTT_UpdateStateAck", "source/core_mqtt_state.c:MQTT_UpdateStatePublish"]}
{"id": "C62", "title": "The QoS guarantees hold while threads share the context", "statement": "One thread receives (MQTT_ProcessLoop, MQTT_ReceiveLoop, and any other function) while any number of other threads publish, subscribe, unsubscribe, ping, cancel and ask for packet ids and the connection status on the same context, with the hooks as the only synchronisation. Within one session an incoming QoS 2 publish is not handed to the application a second time before a PUBREL with its packet id has been handed over. An outgoing publish in flight stays in flight until the application is handed a PUBACK or PUBCOMP for it, unless a thread cancels it or the session is replaced. Not guaranteed: that the stored copy of a message in flight survives (a publish with the packet id of a message whose acknowledgement is just being processed loses its copy), and that messages published while MQTT_Connect resumes a session do not overtake the resent ones.", "quantifier": "every number of threads, every program of calls of each, every interleaving of the critical sections and of the accesses outside them, every behaviour of transport, clock and callbacks, every history before the threads start", "why_tests_cant": "The interleavings of unboundedly many calls of unboundedly many threads cannot be enumerated, and the windows (between the state update and the callback) are a few instructions wide.", "anchors": ["source/core_mqtt.c:handleIncomingPublish", "source/core_mqtt.c:handlePublishAcks", "source/core_mqtt.c:sendPublishAcks", "source/core_mqtt.c:MQTT_Publish", "source/core_mqtt.c:MQTT_Connect", "source/core_mqtt.c:handleUncleanSessionResumption", "source/core_mqtt.c:MQTT_CancelCallback", "source/core_mqtt_state.c:MQTT_UpdateStatePublish", "source/core_mqtt_state.c:MQTT_UpdateStateAck"]}
{"id": "C63", "title": "The application's callback may call the library", "statement": "While MQTT_ProcessLoop or MQTT_ReceiveLoop calls the application's callback, the callback may itself call MQTT_Publish, MQTT_Subscribe, MQTT_Unsubscribe, MQTT_Ping, MQTT_CancelCallback, MQTT_GetPacketId and MQTT_CheckConnectStatus, in any number and order and depending on anything, also while other threads use the context: there is no undefined behaviour, the receive buffer and the records stay well formed, packets are not mixed on the wire, after a failed send nothing is sent any more, an incoming QoS 2 publish is not handed over a second time before its PUBREL, and an outgoing publish stays in flight until its PUBACK or PUBCOMP is handed over. The callback must not call MQTT_Disconnect, MQTT_ProcessLoop or MQTT_ReceiveLoop: there are executions in which the receive loop then reads outside the receive buffer.", "quantifier": "every history before, every program of calls of the receiving thread, every program of calls in every single callback, every number of other threads and every interleaving with them, every behaviour of transport, clock and callbacks", "why_tests_cant": "Calls from within a callback run in a state in the middle of another function; the combinations of what is being received with what the callbacks call are unbounded.", "anchors": ["source/core_mqtt.c:handleIncomingPublish", "source/core_mqtt.c:handlePublishAcks", "source/core_mqtt.c:handleIncomingAck", "source/core_mqtt.c:receiveSingleIteration", "source/core_mqtt.c:MQTT_Disconnect", "source/core_mqtt.c:MQTT_Publish", "source/include/core_mqtt.h:MQTTEventCallback_t"]}
{"id": "C64", "title": "No failure without a cause", "statement": "A call returns MQTTSendFailed only if during this call the transport's send function returned an error or sending one packet took at least MQTT_SEND_TIMEOUT_MS, measured from just before its first byte. A call returns MQTTRecvFailed only if the transport's receive function returned an error, or nothing arrived for at least MQTT_RECV_POLLING_TIMEOUT_MS in the middle of a packet, with two exceptions: MQTT_ProcessLoop and MQTT_ReceiveLoop when the application gave no memory for the records of incoming publishes, and MQTT_Connect when the server's first packet has a CONNACK header that announces more bytes than the network buffer holds. MQTTPublishStoreFailed is returned only if the application declined to store a copy, MQTTPublishRetrieveFailed only if it did not find one. In particular a slow transport that takes or delivers a few bytes at a time, or none for a while, is not reported as failed while these times have not passed.", "quantifier": "every history of calls, every call and its arguments, every behaviour of transport (any partial sends and receives), clock (including wrap-around) and callbacks during the call", "why_tests_cant": "Tests provoke failures and see them reported; that no combination of partial transfers, clock readings and states produces a failure report without its cause ranges over all executions.", "anchors": ["source/core_mqtt.c:sendMessageVector", "source/core_mqtt.c:sendBuffer", "source/core_mqtt.c:recvExact", "source/core_mqtt.c:discardPacket", "source/core_mqtt.c:discardStoredPacket", "source/core_mqtt.c:receiveSingleIteration", "source/core_mqtt.c:receiveConnack", "source/core_mqtt.c:sendPublishWithoutCopy", "source/core_mqtt.c:handleUncleanSessionResumption", "source/include/core_mqtt_config_defaults.h:MQTT_SEND_TIMEOUT_MS"]}
{"id": "C65", "title": "Which return codes occur", "statement": "Each function that returns a status returns, for a context that is not null, only the codes of a fixed list, and each code of that list is returned by some call after some history. Compared with the lists in core_mqtt.h, exactly eight pairs of function and code are returned without being listed (MQTT_Connect: MQTTBadResponse, MQTTServerRefused; MQTT_Publish: MQTTIllegalState, MQTTStateCollision; MQTT_ProcessLoop: MQTTNoMemory; MQTT_ReceiveLoop: MQTTNoMemory, MQTTStatusNotConnected, MQTTStatusDisconnectPending) and ten are listed but not returned. So an application that handles the listed codes and these eight handles every outcome.", "quantifier": "every history of calls, every call and its arguments, every behaviour of transport, server, clock and callbacks", "why_tests_cant": "A test observes that a code is returned in the situation it sets up; that no situation makes a function return another code is a statement about all executions.", "anchors": ["source/include/core_mqtt.h:MQTT_Connect", "source/include/core_mqtt.h:MQTT_Publish", "source/include/core_mqtt.h:MQTT_ProcessLoop", "source/include/core_mqtt.h:MQTT_ReceiveLoop", "source/core_mqtt.c:receiveSingleIteration", "source/core_mqtt.c:MQTT_Connect", "source/core_mqtt.c:MQTT_Publish", "source/core_mqtt.c:MQTT_CancelCallback", "source/core_mqtt_state.c:MQTT_UpdateStateAck"]}
{"id": "C66", "title": "Names of codes and states", "statement": "For every integer, MQTT_Status_strerror returns the name of the status enumerator with that value and \"Invalid MQTT Status code\" if there is none; MQTT_State_strerror does the same for publish states with \"Invalid MQTT State\". Different enumerators have different texts, and none has the text for invalid values.", "quantifier": "every integer value of the argument", "why_tests_cant": "An enumeration object may hold any integer; tests try a few values, and a missing or duplicated case shows only for its value.", "anchors": ["source/core_mqtt.c:MQTT_Status_strerror", "source/core_mqtt_state.c:MQTT_State_strerror", "source/include/core_mqtt_serializer.h:MQTTStatus_t", "source/include/core_mqtt.h:MQTTPublishState_t"]}
{"id": "C67", "title": "Identifiers from MQTT_GetPacketId do not collide", "statement": "An application that takes the packet id of each QoS 1 or QoS 2 publish from MQTT_GetPacketId and uses each id for one publish never gets MQTTStateCollision from MQTT_Publish, as long as at most 65535 ids were drawn; beyond that it suffices that every publish in flight took its id from one of the preceding 65534 draws.", "quantifier": "every history of calls with such a discipline, every publish, every behaviour of transport, server, clock and callbacks", "why_tests_cant": "Whether an id is still in flight depends on the whole history of acknowledgements, failures and reconnections.", "anchors": ["source/core_mqtt.c:MQTT_GetPacketId", "source/core_mqtt.c:MQTT_Publish", "source/core_mqtt_state.c:MQTT_ReserveState"]}
{"id": "C68", "title": "A request that can be carried out is carried out", "statement": "MQTT_Publish, MQTT_Subscribe, MQTT_Unsubscribe and MQTT_Ping on a connection, and MQTT_Disconnect on a context that is connected or disconnect-pending, return MQTTSuccess with the whole packet handed to the transport whenever their arguments are acceptable and nothing in the environment goes wrong during the call: no send error, no send timeout, no refusal to store a copy. For a QoS 1 or QoS 2 publish the id must not be in flight and a record must be free, or it must be a repetition (DUP) of an unanswered publish with that id and QoS. Conversely these functions report MQTTSuccess only under these conditions.", "quantifier": "every call after every history, every behaviour of transport, clock and callbacks during the call", "why_tests_cant": "Spurious refusals can depend on anything in the history that left a trace in the context.", "anchors": ["source/core_mqtt.c:MQTT_Publish", "source/core_mqtt.c:MQTT_Subscribe", "source/core_mqtt.c:MQTT_Unsubscribe", "source/core_mqtt.c:MQTT_Ping", "source/core_mqtt.c:MQTT_Disconnect", "source/core_mqtt_state.c:MQTT_ReserveState"]}
{"id": "C69", "title": "The packet functions check their arguments", "statement": "Each function that only reads or writes packets (MQTT_Serialize*, MQTT_Deserialize*, the header readers, the size functions for CONNECT, PINGREQ and DISCONNECT, MQTT_UpdateDuplicatePublishFlag, MQTT_GetSubAckStatusCodes) returns MQTTBadParameter exactly for a documented set of arguments: missing pointers, empty topics and lists, packet id 0, DUP with QoS 0, wrong packet types. Then it leaves the caller's memory alone. The deserializers have no undefined behaviour whatever combination of output pointers is missing, as long as the bytes the packet claims to have can be read. A transport error at the first byte of a header is MQTTRecvFailed, silence is MQTTNoDataAvailable.", "quantifier": "every combination of arguments, including missing pointers", "why_tests_cant": "The combinations of missing pointers, types and lengths are too many to list.", "anchors": ["source/core_mqtt_serializer.c:MQTT_SerializePublish", "source/core_mqtt_serializer.c:MQTT_SerializePublishHeader", "source/core_mqtt_serializer.c:MQTT_SerializeConnect", "source/core_mqtt_serializer.c:MQTT_SerializeSubscribe", "source/core_mqtt_serializer.c:MQTT_SerializeAck", "source/core_mqtt_serializer.c:MQTT_DeserializeAck", "source/core_mqtt_serializer.c:MQTT_DeserializePublish", "source/core_mqtt_serializer.c:MQTT_GetIncomingPacketTypeAndLength", "source/core_mqtt.c:MQTT_GetSubAckStatusCodes"]}
{"id": "C70", "title": "The keep-alive promise is kept while the application polls", "statement": "A client that connected with a keep-alive interval and whose application calls MQTT_ProcessLoop again and again never stays silent for long: if a call of MQTT_ProcessLoop that finds no data and reports no error ends at most gap ms after the one before it began, then at every moment the last transmission is at most max(capped keep-alive interval, PINGRESP timeout) + gap ms ago. This holds whatever other calls are made (except MQTT_Connect and MQTT_Disconnect), whatever arrives and whatever the transport does, and across the wrap-around of the clock. Calls of MQTT_ProcessLoop that do find data do not count: while data arrives at every poll the client never pings.", "quantifier": "every history, every schedule of calls with such polls, every byte stream from the server, every transport and every clock that does not go back", "why_tests_cant": "The bound concerns the gaps between transmissions over arbitrarily long schedules of calls and clock values, including wrap-around; a test can only run a few schedules.", "anchors": ["source/core_mqtt.c: handleKeepAlive", "source/core_mqtt.c: receiveSingleIteration", "source/core_mqtt.c: MQTT_ProcessLoop", "source/core_mqtt.c: MQTT_Ping"]}
{"id": "C71", "title": "The transport is asked for at least one byte", "statement": "No API call, whatever its outcome, offers the transport's send or writev function zero bytes in total. The receive function is asked for zero bytes only by MQTT_ProcessLoop or MQTT_ReceiveLoop when the network buffer is full. As long as the bytes that arrive are MQTT packets, and they fit the buffer (or the buffer has at least 5 bytes and no call reports MQTTRecvFailed), this never happens, however the stream is cut and whatever other calls are made between. A buffer full of bytes that do not begin with a packet header stays full: every later receive call asks for zero bytes, presents nothing and returns an error.", "quantifier": "every call after every history, every behaviour of the transport; every stream of packets cut in any way", "why_tests_cant": "Zero-length transfers appear only at particular combinations of partial sends, empty fields and buffer fill levels; for a socket a zero-length read is indistinguishable from no data or a closed connection.", "anchors": ["source/core_mqtt.c:sendMessageVector", "source/core_mqtt.c:sendBuffer", "source/core_mqtt.c:receiveSingleIteration", "source/core_mqtt.c:recvExact", "source/interface/transport_interface.h:TransportRecv_t"]}
{"id": "C72", "title": "One packet per receive call, and no amplification", "statement": "One call of MQTT_ProcessLoop or MQTT_ReceiveLoop, whatever its outcome, invokes the application's callback at most once and sends at most 4 bytes (one acknowledgement), MQTT_ProcessLoop 2 bytes more (one PINGREQ). Over any history of receive calls the client sends at most as many bytes as it received, plus 2 for each call of MQTT_ProcessLoop, and invokes the callback at most once for every two bytes received: a server cannot make it send more than it sends itself.", "quantifier": "every call after every history, every byte stream from the server, every transport", "why_tests_cant": "The bound concerns all byte streams a hostile server may send, and all ways to cut them.", "anchors": ["source/core_mqtt.c:receiveSingleIteration", "source/core_mqtt.c:handleIncomingPublish", "source/core_mqtt.c:handleIncomingAck", "source/core_mqtt.c:sendPublishAcks", "source/core_mqtt.c:handleKeepAlive"]}
{"id": "C73", "title": "Only time differences matter: the clock may wrap around", "statement": "The application's clock may start anywhere and may overflow. If it shows d milliseconds more at every reading, modulo 2^32, and the times the context remembers are d later too, then every public function ends in the same way with the same result, sends and requests the same bytes and makes the same callbacks in the same order; so does every history of calls. For functions other than MQTT_ProcessLoop the remembered times do not matter at all, so from initialisation on a history without MQTT_ProcessLoop is the same whatever the clock shows at the start. The exception is the first MQTT_ProcessLoop: MQTT_Init sets the time of the last reception to 0 and MQTT_Connect leaves it, so a PINGREQ may be sent at once, depending on what the clock shows.", "quantifier": "every public function, every state, every behaviour of the environment, every shift of the clock, every history", "why_tests_cant": "A 32-bit millisecond clock overflows after 49.7 days; a test can place the overflow at a few points of a few runs, the claim is for every point of every run.", "anchors": ["source/include/core_mqtt.h:MQTTGetCurrentTimeFunc_t", "source/core_mqtt.c:calculateElapsedTime", "source/core_mqtt.c:handleKeepAlive", "source/core_mqtt.c:sendBuffer", "source/core_mqtt.c:sendMessageVector", "source/core_mqtt.c:recvExact", "source/core_mqtt.c:discardPacket", "source/core_mqtt.c:receiveConnack"]}
{"id": "C74", "title": "Missing and zeroed contexts", "statement": "With a null context every function refuses the call (MQTTBadParameter, or packet id 0) and does nothing at all. On a context whose bytes are all zero (a static variable that MQTT_Init has not filled yet), in any sequence of calls other than MQTT_Connect with acceptable arguments: each call returns MQTTBadParameter or MQTTStatusNotConnected, nothing but the lock hooks is called (so none of the null function pointers), and nothing but the next packet id changes; MQTT_InitStatefulQoS is refused. The exceptions: MQTT_GetPacketId returns the invalid id 0 first, and MQTT_Connect with acceptable arguments calls the clock through a null pointer.", "quantifier": "every function, all arguments, every sequence of calls before initialisation", "why_tests_cant": "Start-up order bugs occur in arbitrary sequences of calls with arbitrary arguments before initialisation; tests check single calls.", "anchors": ["source/core_mqtt.c:MQTT_Init", "source/core_mqtt.c:MQTT_ProcessLoop", "source/core_mqtt.c:MQTT_ReceiveLoop", "source/core_mqtt.c:MQTT_Publish", "source/core_mqtt.c:validatePublishParams", "source/core_mqtt.c:validateSubscribeUnsubscribeParams", "source/core_mqtt.c:MQTT_InitStatefulQoS", "source/core_mqtt.c:MQTT_GetPacketId", "source/core_mqtt.c:MQTT_Connect"]}
{"id": "C75", "title": "Old contents of the network buffer have no influence", "statement": "The network buffer holds received bytes that are not processed yet, and behind them whatever was in memory before. Nothing the library does depends on the latter: if these bytes are replaced by any others, every public function ends in the same way with the same result, sends and requests the same bytes and makes the same callbacks with the same arguments, and so does every history of calls. In particular what the buffer contains when it is handed to MQTT_Init is irrelevant, and bytes of earlier packets are never mistaken for a part of a later one, sent out or shown to the application.", "quantifier": "every public function, all arguments, every state, every behaviour of the environment, all contents of the unused part of the buffer, every history", "why_tests_cant": "A read of stale memory usually yields plausible values, so that a test passes by luck; excluding it means comparing all runs with all other contents of the buffer.", "anchors": ["source/core_mqtt.c:receiveSingleIteration", "source/core_mqtt.c:receivePacket", "source/core_mqtt.c:receiveConnack", "source/core_mqtt.c:discardStoredPacket", "source/core_mqtt_serializer.c:MQTT_ProcessIncomingPacketTypeAndLength", "source/core_mqtt_serializer.c:processRemainingLength", "source/core_mqtt_serializer.c:deserializePublish"]}
{"id": "C76", "title": "Connecting without a session is a fresh start", "statement": "When a client that is not connected calls MQTT_Connect and the server has no session for it, nothing of what happened before has an influence any more: the attempt takes the same course (same status, same bytes, same calls) as that of a client that was just initialised with the same buffer size, record arrays and callbacks, except that the old client calls the clear callback for publishes it had stored; and after a successful connection every sequence of calls has the same results and the same effects for both. Two things are carried over: MQTT_GetPacketId continues with the next packet id, and MQTT_ProcessLoop judges silence of the server by the time of the last reception even if that was in the old connection.", "quantifier": "every earlier history, every attempt to connect (successful or not) in every environment, every later history of calls", "why_tests_cant": "A remnant of an old session shows only for particular pairs of old and new histories; the claim compares all later histories after all earlier ones.", "anchors": ["source/core_mqtt.c:MQTT_Connect", "source/core_mqtt.c:handleCleanSession", "source/core_mqtt.c:receiveConnack", "source/core_mqtt.c:sendConnectWithoutCopy", "source/core_mqtt.c:MQTT_Init", "source/core_mqtt.c:handleKeepAlive", "source/core_mqtt.c:MQTT_GetPacketId"]}
{"id": "C77", "title": "Keeping copies of publishes changes nothing else", "statement": "Giving the library the callbacks of MQTT_InitRetransmits has no effect beyond calls of these callbacks, as long as every copy is accepted and no copy is asked for again: every call, and every history of calls, has the same results, leaves the client in the same state, and makes the same interactions with transport, clock, hooks and application in the same order as without the callbacks. In particular the packet that is sent for the first time is not marked as a duplicate although its stored copy is. The two conditions are needed: a refused copy makes MQTT_Publish fail, and on resuming a session only a client with copies sends its publishes again.", "quantifier": "every public function, all arguments, every state and environment, every history from initialisation", "why_tests_cant": "The claim compares every run with callbacks with the corresponding run without them; a side effect of storing (a flag left in a shared header buffer, a skipped update) shows only in particular combinations.", "anchors": ["source/core_mqtt.c:MQTT_InitRetransmits", "source/core_mqtt.c:sendPublishWithoutCopy", "source/core_mqtt.c:handlePublishAcks", "source/core_mqtt.c:handleUncleanSessionResumption", "source/core_mqtt.c:handleCleanSession", "source/core_mqtt_serializer.c:MQTT_UpdateDuplicatePublishFlag"]}
{"id": "C78", "title": "What is called inside the critical section", "statement": "In every API call, also one that never returns: the application's event callback and the retrieve callback are called while the state-update critical section is not held; the send function and the store callback are called while it is held, entered exactly once; the receive function and the clear callback are called while it is not held, except in MQTT_Connect, which holds it while it waits for the CONNACK and while it clears the copies of the old session. The section is never left when it was not entered. So the event callback may call the API although the section is guarded by a non-recursive mutex, and the store callback may not.", "quantifier": "every API call, state, transport and callback behaviour", "why_tests_cant": "Every path of every function up to every callback; a single forgotten exit before a callback deadlocks an application only on that path.", "anchors": ["source/core_mqtt.c:MQTT_Connect", "source/core_mqtt.c:sendPublishWithoutCopy", "source/core_mqtt.c:handlePublishAcks", "source/core_mqtt.c:handleIncomingPublish", "source/core_mqtt.c:handleCleanSession", "source/core_mqtt.c:handleUncleanSessionResumption", "source/core_mqtt.c:receiveConnack"]}
{"id": "C79", "title": "How long a call takes", "statement": "Suppose every call of the environment (transport, clock, callbacks, hooks), together with the computation before it, takes at most D milliseconds, the clock shows the low 32 bits of the real time, and the configured waits plus 8 D fit into 32 bits. Then every API call ends within a fixed time: MQTT_SEND_TIMEOUT_MS + 5 D for each transmission it may make (one for MQTT_Publish, MQTT_Ping, MQTT_Disconnect; one per topic filter and one more for MQTT_Subscribe and MQTT_Unsubscribe; at most two for MQTT_ProcessLoop, one for MQTT_ReceiveLoop; one and two per outgoing record for MQTT_Connect), the timeout given to MQTT_Connect (or the configured number of retries) while it waits for the CONNACK, and a small multiple of D. The only thing that extends this is bytes that are awaited one by one (a CONNACK, or the rest of a packet that does not fit into the buffer): at most MQTT_RECV_POLLING_TIMEOUT_MS + 6 D for each byte that arrives. Both terms are needed: the parts of a SUBSCRIBE have a send timeout each, and a server that drips an oversized packet keeps the receive loops busy for as long as it likes within the announced length. MQTT_Connect cannot be kept busy like that: whatever the server sends, it ends within the same time plus one buffer of bytes (MQTT_RECV_POLLING_TIMEOUT_MS + 6 D each) and 2 D.", "quantifier": "every call, state with a buffer, transport and callback behaviour, timing of every interaction, position of the clock, including wraparound and calls that do not return", "why_tests_cant": "Timeouts interact with every pattern of partial sends and receives and with the wraparound of the clock; tests use fixed mock clocks.", "anchors": ["source/core_mqtt.c:sendMessageVector", "source/core_mqtt.c:sendBuffer", "source/core_mqtt.c:recvExact", "source/core_mqtt.c:discardPacket", "source/core_mqtt.c:discardStoredPacket", "source/core_mqtt.c:receiveConnack", "source/core_mqtt.c:handleUncleanSessionResumption", "source/core_mqtt.c:MQTT_Connect"]}
{"id": "C80", "title": "Polling notices a dead server in bounded real time", "statement": "Suppose every call of the environment takes at most D milliseconds, and the application calls MQTT_ProcessLoop again and again, each time at most P milliseconds after the call before has returned. Let B be the time that a MQTT_ProcessLoop without data takes at most (C79; it depends on the configured timeouts and D only). If nothing arrives from the server any more and no ping is outstanding, then the last call that reports success begins at most P + 2 B plus the PINGRESP timeout after the ping was due (the receive timeout after the last packet, or the keep-alive interval after the last transmission if the application sends nothing), and the next call after that time reports an error and has returned at most P + 2 B later. And while the calls find no data at most P milliseconds after one another, the last transmission is never more than the keep-alive interval (or the PINGRESP timeout if that is longer) plus P + 2 B ago.", "quantifier": "every history, pattern of other calls in between (but not MQTT_Connect, MQTT_Disconnect; for the first part nor MQTT_Ping), pauses, durations of the transport's, clock's and callbacks' calls, and position of the clock including wraparound", "why_tests_cant": "The bound has to hold for every interleaving of polls, publishes and slow transport calls over minutes of real time; tests use a mock clock and single calls.", "anchors": ["source/core_mqtt.c:MQTT_ProcessLoop", "source/core_mqtt.c:handleKeepAlive", "source/core_mqtt.c:receiveSingleIteration", "source/core_mqtt.c:sendBuffer", "source/core_mqtt.c:recvExact", "source/core_mqtt.c:MQTT_Ping"]}
{"id": "C81", "title": "The two receive functions differ only in keep-alive", "statement": "Called in the same state with the same environment, MQTT_ProcessLoop and MQTT_ReceiveLoop do the same whenever data arrives or receiving fails and the packet at hand is not a PINGRESP: they return the same status after the same transport, clock, lock and callback calls in the same order, and leave the same session state. A PINGRESP is given to the application's callback by MQTT_ReceiveLoop, which does not stop waiting for it, whereas MQTT_ProcessLoop consumes it silently and stops waiting; they read and remember the same otherwise. MQTT_ReceiveLoop without any data, or with no more than the part of a packet it had before, has no effect but the attempt to receive.", "quantifier": "every state, configuration, environment answer and packet content, valid or not", "why_tests_cant": "Two functions are compared on every state and every byte stream, including malformed packets and failing transports; tests exercise each function separately.", "anchors": ["source/core_mqtt.c:MQTT_ProcessLoop", "source/core_mqtt.c:MQTT_ReceiveLoop", "source/core_mqtt.c:receiveSingleIteration", "source/core_mqtt.c:handleIncomingAck", "source/core_mqtt.c:handleKeepAlive"]}
{"id": "C82", "title": "It makes no difference in which pieces the transport takes the outgoing bytes", "statement": "Make the same API calls twice in the same state, with the same data arriving and the clock showing the same during each call, on transports that do not fail to send. Whether the transport offers a vectored write function or not, and however few bytes it accepts at a time (also none at some calls), the calls return the same, leave the same session state, and produce the same sequence of outgoing bytes, receive calls, locks, and callbacks. (The send timeout must be positive: with 0 a send in pieces fails.)", "quantifier": "every configuration with a positive send timeout, sequence of API calls, state, incoming data, and pair of ways to divide the outgoing bytes", "why_tests_cant": "The ways to divide a packet are unbounded and multiply over the packets of a session; tests use transports that accept everything or one fixed division.", "anchors": ["source/core_mqtt.c:sendMessageVector", "source/core_mqtt.c:sendBuffer", "source/interface/transport_interface.h:TransportWritev_t", "source/core_mqtt.c:MQTT_Publish", "source/core_mqtt.c:MQTT_Subscribe", "source/core_mqtt.c:MQTT_Connect"]}
{"id": "C83", "title": "Which part of the session each function can change", "statement": "The state of a session consists of the connection status, the keep-alive interval, what is known about an outstanding ping, the times of the last transmission and reception, the next packet identifier, the bytes in the network buffer, the outgoing and the incoming publishes in flight, and what the application set up. Each API function changes only the parts listed for it (for example: subscribing, unsubscribing, pinging and disconnecting never touch publishes in flight; only MQTT_GetPacketId advances the identifiers; connecting does not touch the time of the last reception; nothing changes the setup), in any state and however the call ends, also if it never returns. The list is exact: every listed part is changed by some call. A QoS 0 publish does not touch publishes in flight.", "quantifier": "every API call, state, environment and outcome; every sequence of calls", "why_tests_cant": "A test sees that one call with one transport behaviour left a field alone; the claim is about every failure path of every function.", "anchors": ["source/include/core_mqtt.h:MQTTContext_t", "source/core_mqtt.c:MQTT_Connect", "source/core_mqtt.c:MQTT_Subscribe", "source/core_mqtt.c:MQTT_Publish", "source/core_mqtt.c:MQTT_Ping", "source/core_mqtt.c:MQTT_Disconnect", "source/core_mqtt.c:MQTT_ProcessLoop", "source/core_mqtt.c:MQTT_CancelCallback", "source/core_mqtt.c:MQTT_GetPacketId"]}
{"id": "C84", "title": "How large the network buffer must be", "statement": "With a network buffer of fewer than two bytes MQTT_Connect never succeeds, whatever the server answers. With two to four bytes a client can connect, but a server that sends one long PUBLISH stops it from receiving for good: the buffer is full before the header of the packet is complete, and from then on, whatever arrives, no call of MQTT_ProcessLoop or MQTT_ReceiveLoop succeeds, the application gets nothing and the buffer stays as it is. With five bytes this cannot happen: as long as the server sends valid packets, however long, and no receive call fails, every receive call finds room in the buffer.", "quantifier": "every buffer size, state reachable from MQTT_Init, server answer, and sequence of receive calls", "why_tests_cant": "The three bounds are statements about every stream of bytes and every later history of calls; a test shows one stream with one buffer size.", "anchors": ["source/core_mqtt.c:MQTT_Init", "source/core_mqtt.c:MQTT_Connect", "source/core_mqtt.c:receivePacket", "source/core_mqtt.c:receiveSingleIteration", "source/core_mqtt.c:discardStoredPacket"]}
{"id": "C85", "title": "A connection that can be made is made", "statement": "If the server answers with a CONNACK that accepts the connection, MQTT_Connect on a client that is not connected, with valid arguments and a network buffer of at least two bytes, returns MQTTSuccess, reports whether the server has a session, and the client is connected; if the server refuses with one of the codes 1 to 5, it returns MQTTServerRefused. The only exceptions are: the transport's send or receive function failed; sending took MQTT_SEND_TIMEOUT_MS or more; no byte arrived for MQTT_RECV_POLLING_TIMEOUT_MS in the middle of the CONNACK; nothing arrived during the whole waiting time the application asked for; the application did not find a stored copy of a publish to be repeated; or the first byte of the CONNACK had arrived and the second had not when it was asked for. In the last case MQTT_Connect reports MQTTBadResponse although the server accepted and most of the timeout is left.", "quantifier": "every state reachable from MQTT_Init in which the client is not connected, valid arguments, timeout, clock, division of the answer into pieces by the transport, and bytes after the CONNACK", "why_tests_cant": "It says that nothing but the listed causes makes the call fail, for every way in which the CONNACK and time may arrive; tests try a few arrival patterns.", "anchors": ["source/core_mqtt.c:MQTT_Connect", "source/core_mqtt.c:receiveConnack", "source/core_mqtt.c:receivePacket", "source/core_mqtt_serializer.c:MQTT_GetIncomingPacketTypeAndLength", "source/core_mqtt_serializer.c:deserializeConnack"]}
{"id": "C86", "title": "PUBREL is answered exactly while the exchange is open", "statement": "An incoming QoS 2 exchange with some packet id is open once a call of MQTT_ProcessLoop or MQTT_ReceiveLoop that succeeded has sent PUBREC for it, until a call that was given the PUBREL succeeds or a new session is started. While it is open, a PUBREL that arrives is given to the application and, on a connection, answered with PUBCOMP; if the PUBCOMP could not be sent the exchange stays open, so that a repeated PUBREL will be answered. While it is not open, a PUBREL is refused: the application is not told, no PUBCOMP is sent, no record changes, and the call returns MQTTBadResponse, or MQTTIllegalState if the message has arrived but was not yet acknowledged. In particular, once PUBCOMP has been handed to the transport no repetition of this PUBREL is ever answered, on whatever later connection, until another message with this packet id has been given to the application.", "quantifier": "every state reachable from MQTT_Init, packet id, receive call and environment; every later history of calls", "why_tests_cant": "Whether a PUBREL is answered depends on the whole history of calls, failures and reconnections before it; tests replay a few histories.", "anchors": ["source/core_mqtt.c:handleIncomingAck", "source/core_mqtt.c:handlePublishAcks", "source/core_mqtt.c:sendPublishAcks", "source/core_mqtt_state.c:MQTT_UpdateStateAck"]}
{"id": "C87", "title": "Which incoming messages reach the application", "statement": "When MQTT_ProcessLoop or MQTT_ReceiveLoop takes a well-formed PUBLISH from the stream, the application is given it, exactly once and as it arrived, if and only if it has QoS 0, or no message with its packet id is being received and a record for incoming messages is free. A repetition of a message that is being received is not given to the application but acknowledged again. A new QoS 1 or QoS 2 message for which no record is free is dropped: no callback, no acknowledgement, no record changes, and the call returns MQTTNoMemory (MQTTRecvFailed if the application provided no records for incoming messages). A QoS 2 message that is accepted takes a record; a QoS 1 message takes one only if the call does not succeed in sending PUBACK. In particular a server that leaves as many QoS 2 exchanges open as there are records makes the client drop every message with QoS 1 or 2 and another packet id.", "quantifier": "every state reachable from MQTT_Init, every well-formed PUBLISH that fits the network buffer, every receive call and environment, every number of records", "why_tests_cant": "Whether a message gets through depends on every exchange still open from the whole earlier history, and on the number of records; tests fill small tables by hand.", "anchors": ["source/core_mqtt.c:handleIncomingPublish", "source/core_mqtt_state.c:MQTT_UpdateStatePublish", "source/core_mqtt_state.c:MQTT_ReserveState", "source/core_mqtt_state.c:addRecord"]}
{"id": "C88", "title": "Bytes that are no packet", "statement": "If the bytes at the front of the stream begin no packet (a first byte no server may send, or a length field with more than four bytes or not in its shortest form), the receive call presents nothing to the application, sends no acknowledgement, changes no record, consumes nothing, and reports MQTTBadResponse (unless the transport fails, or the keep-alive check of MQTT_ProcessLoop ends the call with its own error). From then on, until MQTT_Connect or MQTT_Disconnect is called, the client is deaf: the application is given no packet any more, every byte received is appended behind the malformed ones, and every receive call fails with one of these errors, although the connection status stays as it was and the application can still publish. A server that sends packets and then something that is no packet can only have its packets before that point presented, however the stream is cut into pieces and however long the client goes on receiving.", "quantifier": "every state reachable from MQTT_Init, every stream with a malformed position, every cutting of it into pieces, every sequence of later calls without MQTT_Connect and MQTT_Disconnect", "why_tests_cant": "Tests feed one malformed header to one call; that nothing behind it is ever taken for a packet concerns all streams, all ways to cut them and all later histories.", "anchors": ["source/core_mqtt.c:receiveSingleIteration", "source/core_mqtt_serializer.c:MQTT_ProcessIncomingPacketTypeAndLength", "source/core_mqtt_serializer.c:processRemainingLength"]}
{"id": "C89", "title": "Exchanges do not interfere", "statement": "A call other than MQTT_Connect touches at most one exchange in each direction: MQTT_Publish and MQTT_CancelCallback the outgoing publish with the packet id they are given, MQTT_ProcessLoop and MQTT_ReceiveLoop the outgoing publish to which the PUBACK, PUBREC or PUBCOMP at the front of the stream belongs, or the incoming publish to which the PUBLISH or PUBREL at the front of the stream belongs; every other function, and a QoS 0 publish, none. All other publishes in flight stay exactly as they are and keep their order, whatever the call returns. An outgoing and an incoming publish with the same packet id are different exchanges. MQTT_Connect either starts a new session and forgets all exchanges, or adds none, drops none, reorders none and leaves the incoming ones as they are.", "quantifier": "every state reachable from MQTT_Init, every call that returns, every environment, every packet id", "why_tests_cant": "That nothing else changes is a statement about all other records, in all table states (with gaps, full, compacted on the way); tests look at the record they expect to change.", "anchors": ["source/core_mqtt_state.c:updateRecord", "source/core_mqtt_state.c:addRecord", "source/core_mqtt_state.c:compactRecords", "source/core_mqtt.c:handleIncomingPublish", "source/core_mqtt.c:handlePublishAcks", "source/core_mqtt.c:MQTT_Publish", "source/core_mqtt.c:MQTT_CancelCallback"]}
{"id": "C90", "title": "Disconnecting and connecting again recovers the client", "statement": "Whatever happened before (transport failures, a stream with bytes that are no packet, half received packets, an unanswered ping, a keep-alive timeout): if the application calls MQTT_Disconnect, whatever that returns, and then MQTT_Connect, and the server accepts, then, unless the environment hinders this attempt as listed in C85, the client is connected, its receive buffer is empty and no ping response is awaited. In a new session no publish is in flight in either direction; in a resumed session exactly the publishes that were pending before are pending, and exactly their PUBRELs and stored copies have been sent again. The packets the server sends from then on are presented to the application one after the other, whatever was left of the old stream. One condition: to resume a session cleanly the client must not have received bytes while it was not connected.", "quantifier": "every state reachable from MQTT_Init, every result of MQTT_Disconnect that returns, every environment of both calls, valid arguments, every later stream of packets and its division into pieces", "why_tests_cant": "The states from which recovery is needed are those after arbitrary failures at arbitrary points; tests can only try some of them.", "anchors": ["source/core_mqtt.c:MQTT_Disconnect", "source/core_mqtt.c:MQTT_Connect", "source/core_mqtt.c:handleCleanSession", "source/core_mqtt.c:handleUncleanSessionResumption", "source/core_mqtt.c:receiveConnack", "source/core_mqtt.c:receiveSingleIteration"]}
{"id": "C91", "title": "The contents of topics, messages and credentials influence nothing but the bytes sent and stored", "statement": "Take two calls of the same API function whose arguments differ only in the bytes of topic names, topic filters, payloads, will, client identifier, user name and password, with the same lengths, made in the same state while the transport, the clock and the callbacks answer alike (copies retrieved for retransmission may differ in their contents too). Both end in the same way with the same return value, leave exactly the same context (so nothing of these texts is kept in it), and make the same calls of transport, clock, locks and callbacks with the same sizes and in the same order; only the bytes that are sent, stored or retrieved differ. The same holds for sequences of calls. In particular no topic, payload or password changes what the client does.", "quantifier": "every public function, all pairs of arguments that agree up to contents, every state, every behaviour of the environment, every sequence of calls", "why_tests_cant": "A relation between two executions for all pairs of texts; a test compares single texts.", "anchors": ["source/core_mqtt.c:sendPublishWithoutCopy", "source/core_mqtt.c:sendConnectWithoutCopy", "source/core_mqtt.c:sendSubscribeWithoutCopy", "source/core_mqtt.c:sendMessageVector", "source/core_mqtt.c:MQTT_Publish", "source/core_mqtt.c:MQTT_Connect", "source/core_mqtt_serializer.c:MQTT_GetPublishPacketSize"]}
{"id": "C92", "title": "Larger arrays for publishes in flight change nothing until there is no room", "statement": "Compare two clients that differ only in the sizes of the record arrays given to MQTT_InitStatefulQoS, the second having at least as many records in each direction (and none where the first has none). As long as no call of the first returns MQTTNoMemory, the second returns the same from every call, makes the same calls of transport, clock, locks and callbacks with the same bytes in the same order, and records the same publishes in flight in the same order; the contexts stay equal but for the arrays. This includes session resumption (the same packets are sent again in the same order) and clean sessions. It also does not matter at which positions of the arrays the records stand. So array sizes bound how many publishes can be in flight and have no other effect.", "quantifier": "every history of calls of the public functions, every behaviour of the environment, all sizes of the arrays, every arrangement of the records in them", "why_tests_cant": "A relation between two executions of arbitrary length for all pairs of sizes and arrangements.", "anchors": ["source/core_mqtt.c:MQTT_InitStatefulQoS", "source/core_mqtt_state.c:addRecord", "source/core_mqtt_state.c:findInRecord", "source/core_mqtt_state.c:compactRecords", "source/core_mqtt_state.c:updateRecord", "source/core_mqtt_state.c:stateSelect", "source/core_mqtt.c:handleUncleanSessionResumption", "source/core_mqtt.c:handleCleanSession"]}
{"id": "C93", "title": "Packet identifiers are only names", "statement": "The functions that track publishes in flight (MQTT_ReserveState, MQTT_UpdateStatePublish, MQTT_UpdateStateAck, MQTT_RemoveStateRecord, MQTT_PublishToResend, MQTT_PubrelToResend) treat packet identifiers only as names: if every non-zero identifier is replaced by another one, different identifiers staying different, every call of a history returns the same status and reports the same state, the records are the same under the new names in the same positions, and the scans for resending yield the renamed identifiers in the same order with the same cursors. So the protocol handling never depends on the value of an identifier (no special values besides 0, no ordering, no hashing, no wrap-around at 65535).", "quantifier": "every injective renaming of the 65535 identifiers, every history of calls, arrays of every size and every content", "why_tests_cant": "A relation between pairs of histories of arbitrary length over all permutations of the identifiers.", "anchors": ["source/core_mqtt_state.c:MQTT_ReserveState", "source/core_mqtt_state.c:MQTT_UpdateStatePublish", "source/core_mqtt_state.c:MQTT_UpdateStateAck", "source/core_mqtt_state.c:MQTT_RemoveStateRecord", "source/core_mqtt_state.c:MQTT_PublishToResend", "source/core_mqtt_state.c:MQTT_PubrelToResend"]}
{"id": "C94", "title": "What a receiving client sends and presents is a function of the packets it receives", "statement": "Consider calls of MQTT_ReceiveLoop or MQTT_ProcessLoop none of which reports that something could not be sent. The packets received determine everything observable: which callbacks are made, which publishes are in flight afterwards, and exactly which bytes are sent - the acknowledgements these packets call for, each complete, in the order of the packets, and nothing else (MQTT_ProcessLoop may put complete PINGREQs before, between and after them). It does not matter how the transport cuts the incoming stream into pieces or the outgoing packets into partial sends, how many calls are made, what the clock shows, or how large the network buffer is as long as the packets fit: two clients with the same publishes in flight that receive the same packets send the same bytes and make the same callbacks. If a call reports that it could not send, everything before it is as described; the packet it took is presented and recorded as usual, a proper part of its answer is the last that was sent, and the rest of the stream has not been touched.", "quantifier": "every history, every sequence of packets (well-formed or not), every way the transport fragments input and output, every clock, all buffer sizes, any number of calls", "why_tests_cant": "The ways to fragment a stream and to interleave it with calls are unbounded; a test fixes one.", "anchors": ["source/core_mqtt.c:MQTT_ReceiveLoop", "source/core_mqtt.c:MQTT_ProcessLoop", "source/core_mqtt.c:receiveSingleIteration", "source/core_mqtt.c:handleIncomingPublish", "source/core_mqtt.c:handlePublishAcks", "source/core_mqtt.c:sendPublishAcks", "source/core_mqtt.c:sendBuffer"]}
{"id": "C95", "title": "The contents of received messages influence nothing but what is presented to the application", "statement": "Two clients with the same publishes in flight receive streams of packets that differ only in the bytes of topic names and messages of PUBLISH packets (the lengths, quality of service, flags and packet identifiers being the same), cut by the transport in any way. As long as no call reports that something could not be sent, both send the same bytes, end with the same publishes in flight, and make the same callbacks in the same order, but for the topic and message bytes handed over. So no topic or message a server sends can change what the client does: neither a wildcard or zero byte in a topic, nor bytes in a message that look like packets.", "quantifier": "every history, all pairs of streams that agree up to contents, every fragmentation of input and output, any number of calls", "why_tests_cant": "A relation between pairs of executions for all contents and all ways to cut the stream.", "anchors": ["source/core_mqtt.c:MQTT_ReceiveLoop", "source/core_mqtt.c:MQTT_ProcessLoop", "source/core_mqtt.c:handleIncomingPublish", "source/core_mqtt_serializer.c:deserializePublish", "source/core_mqtt_serializer.c:MQTT_DeserializePublish"]}
