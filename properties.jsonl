{"id": "C01", "title": "Inside delivery only while ONLINE", "statement": "The inside_write callback is invoked only while he_conn_get_state() would report HE_STATE_ONLINE; no decrypted packet is handed to the host before authentication/configuration finished or after leaving ONLINE.", "quantifier": "every sequence of API calls on one connection (client or server, datagram or stream), every plaintext message sequence produced by the TLS layer, every callback and plugin behaviour", "why_tests_cant": "a test exercises a handful of message orders; the claim is about every interleaving of messages, API calls and callback results", "anchors": ["src/he/msg_handlers.c:internal_handle_data", "src/he/msg_handlers.c:he_handle_msg_data", "src/he/msg_handlers.c:he_handle_msg_data_with_frag", "src/he/msg_handlers.c:he_handle_msg_deprecated_13"]}
{"id": "C02", "title": "Server goes ONLINE only after the host approved the credentials", "statement": "On a server connection every transition to HE_STATE_ONLINE is preceded, since the most recent he_conn_server_connect, by an authentication callback that returned true and by a populate_network_config callback that returned HE_SUCCESS.", "quantifier": "every API/message history of a server connection, every adversarial peer message, every callback result", "why_tests_cant": "authentication bypass is a statement about all message sequences an attacker can send, not about sampled ones", "anchors": ["src/he/msg_handlers.c:he_handle_msg_auth", "src/he/conn.c:he_internal_change_conn_state"]}
{"id": "C03", "title": "Client goes ONLINE only after accepting a network config", "statement": "On a client connection every transition to ONLINE happens from CONFIGURING, immediately after a CONFIG_IPV4 message was received in AUTHENTICATING state, and (if a network-config callback is registered) after that callback returned HE_SUCCESS for that config.", "quantifier": "every API/message history of a client connection", "why_tests_cant": "orders of server messages and callback results are unbounded", "anchors": ["src/he/msg_handlers.c:he_handle_msg_config_ipv4"]}
{"id": "C04", "title": "Connection lifecycle graph and exact state notification", "statement": "he_conn_get_state moves only along the documented lifecycle edges, the state callback is called exactly once per change with the new state, never for a non-change, and the sequence of callbacks reproduces the state exactly.", "quantifier": "every history of API calls and received messages", "why_tests_cant": "all paths through the state machine, including error paths inside callbacks, must be covered", "anchors": ["src/he/conn.c:he_internal_change_conn_state", "src/he/conn.c:he_conn_disconnect", "src/he/conn.c:he_conn_nudge", "include/he.h:he_conn_state_t"]}
{"id": "C05", "title": "A denied login never comes ONLINE", "statement": "When the server's authentication of an AUTH message fails (callback false, handler missing, unknown auth type) the connection goes to DISCONNECTING, an ACCESS_DENIED-class error is returned, and no later call on that connection other than a fresh connect or disconnect makes it leave DISCONNECTING except to DISCONNECTED; in particular it never becomes ONLINE.", "quantifier": "every server history after a denied AUTH message", "why_tests_cant": "quantifies over every continuation after the denial, including further messages already buffered in the TLS layer", "anchors": ["src/he/msg_handlers.c:he_handle_msg_auth", "src/he/flow.c:he_conn_outside_data_received"]}
{"id": "C06", "title": "Silence after disconnect", "statement": "After he_conn_disconnect returned HE_SUCCESS, no inside_write, outside_write, network-config, server-config or authentication callback is ever invoked again on that connection unless the host calls connect again.", "quantifier": "every continuation of API calls after a successful disconnect", "why_tests_cant": "quantifies over every later call, timer and TLS-layer behaviour", "anchors": ["src/he/conn.c:he_conn_disconnect", "src/he/wolf.c:he_wolf_dtls_write_internal", "src/he/flow.c:he_conn_outside_data_received"]}
{"id": "C07", "title": "Inside packets are refused unless ONLINE, without side effects", "statement": "he_conn_inside_packet_received on a connection that is not ONLINE returns HE_ERR_INVALID_CONN_STATE, runs no callback or plugin, writes nothing to the TLS layer and changes no connection state; too small, too large and non-IPv4 packets are likewise refused with their documented code and no effect.", "quantifier": "every connection state and every packet", "why_tests_cant": "all states and all packets", "anchors": ["src/he/flow.c:he_conn_inside_packet_received"]}
{"id": "C08", "title": "Role separation of control messages", "statement": "A server never runs its network-config or server-config callbacks and never changes state because of CONFIG_IPV4, AUTH_RESPONSE or SERVER_CONFIG messages; a client never runs an authentication or populate callback whatever the peer sends.", "quantifier": "every message byte string and every history", "why_tests_cant": "adversarial peers may send any message in any state", "anchors": ["src/he/flow.c:he_internal_flow_process_message"]}
{"id": "C09", "title": "Tunnel data round-trip", "statement": "For every inside packet a peer accepts and sends unfragmented, the plaintext message it hands to the TLS layer, when received intact by an ONLINE peer with the same protocol version, causes exactly that packet (after inverse plugins) to be written inside, for every padding mode and for the 1.0 host-order length quirk as well as later versions.", "quantifier": "every IPv4 packet up to the accepted size, every padding type, every protocol version, every inverse plugin pair", "why_tests_cant": "round-trip over all packet contents and lengths", "anchors": ["src/he/flow.c:he_conn_inside_packet_received", "src/he/msg_handlers.c:he_handle_msg_data", "src/he/conn.c:he_internal_calculate_data_packet_length"]}
{"id": "C10", "title": "Padding hides length and never truncates", "statement": "The message length of an unfragmented data packet is never smaller than the payload plus header, fits the 1500-byte buffer, is constant under full padding and one of three values under 450-padding for payloads below 1350, and the padding bytes are zero.", "quantifier": "every payload length and padding type", "why_tests_cant": "boundary lengths over the whole range", "anchors": ["src/he/conn.c:he_internal_calculate_data_packet_length", "src/he/flow.c:he_conn_inside_packet_received"]}
{"id": "C11", "title": "Fragmentation partitions the packet", "statement": "When a packet exceeds the effective PMTU on a datagram connection, the fragments sent all carry the same identifier, have offsets that are multiples of 8, cover the packet contiguously without gap or overlap, have the more-fragments flag set on all but the last, each message is at most effective_pmtu+3 bytes, at least two are sent and the concatenation of payloads is the packet.", "quantifier": "every packet and every effective PMTU the library can hold", "why_tests_cant": "all lengths and PMTU values", "anchors": ["src/he/frag.c:he_internal_frag_and_send_message", "src/he/flow.c:he_conn_inside_packet_received"]}
{"id": "C12", "title": "In-order reassembly delivers the packet exactly", "statement": "If the fragments of one fragmented packet arrive each once in order (or, more generally, in any order in which every arriving fragment extends one contiguous received block), the receiver delivers exactly the original packet exactly when the last missing fragment arrives, and nothing before.", "quantifier": "every packet, every fragment size, every contiguous-growth arrival order", "why_tests_cant": "all packet sizes and arrival orders", "anchors": ["src/he/frag.c:he_fragment_entry_update", "src/he/msg_handlers.c:he_handle_msg_data_with_frag"]}
{"id": "C13", "title": "Reassembly for every arrival order", "statement": "If all fragments of a packet arrive within the TTL, in any order, the receiver delivers the packet. (The code does not satisfy this: a fragment filling a hole never merges the two neighbours.)", "quantifier": "every permutation of the fragments of every packet", "why_tests_cant": "the number of permutations is unbounded; the failing ones need three fragments with the middle one last", "anchors": ["src/he/frag.c:he_fragment_entry_update"]}
{"id": "C14", "title": "A reassembled packet is never corrupt", "statement": "If only fragments of a single packet (any order, duplicated, lost) reach one table entry since it was last reset, then whenever the receiver delivers a packet from that entry the delivered bytes are exactly the original packet.", "quantifier": "every packet, every multiset and order of its fragments", "why_tests_cant": "all duplicated/reordered/lossy delivery schedules", "anchors": ["src/he/frag.c:he_fragment_entry_update"]}
{"id": "C15", "title": "No stale data in reassembled packets", "statement": "Every byte of a packet delivered from the fragment table is either a byte carried by a fragment received for that table slot since the slot was last reset or a zero byte; bytes of packets completed or expired earlier never resurface.", "quantifier": "every sequence of fragment messages, including malformed and overlapping ones, and every clock", "why_tests_cant": "information leak across packets depends on unbounded histories", "anchors": ["src/he/frag.c:he_fragment_entry_reset", "src/he/frag.c:he_internal_fragment_table_delete", "src/he/frag.c:he_fragment_entry_update"]}
{"id": "C16", "title": "Fragments of different packets do not mix", "statement": "Fragments carrying different identifiers are never combined into one delivered packet. (True for a table with 65536 entries; false for smaller max_frag_entries because the slot is id modulo the table size and the identifier is not compared.)", "quantifier": "every sequence of fragment messages, every table size", "why_tests_cant": "requires identifier collisions across interleaved packets", "anchors": ["src/he/frag.c:he_internal_fragment_table_find", "src/he/ssl_ctx.c:he_ssl_ctx_set_max_frag_entries"]}
{"id": "C17", "title": "Fragments expire after 64 seconds", "statement": "A fragment that arrives more than 64 seconds after its table slot was created is never combined with the fragments held in that slot; the slot is cleared first.", "quantifier": "every history and every clock behaviour", "why_tests_cant": "timing histories are unbounded", "anchors": ["src/he/msg_handlers.c:he_handle_msg_data_with_frag", "src/he/he_internal.h:HE_FRAG_TTL"]}
{"id": "C18", "title": "No out-of-bounds access for any message", "statement": "Whatever plaintext bytes a peer sends and in whatever state, message processing reads only bytes inside the received message and writes only inside its fixed buffers (given that allocation does not fail).", "quantifier": "every message byte string, every length 0..1500, every connection state and history", "why_tests_cant": "memory safety over all attacker-controlled inputs", "anchors": ["src/he/msg_handlers.c", "src/he/flow.c:he_internal_flow_process_message", "src/he/frag.c"]}
{"id": "C19", "title": "MSS clamping touches only the MSS and the TCP checksum", "statement": "Clamping a packet keeps its length and changes no byte other than the two MSS value bytes of the first MSS option of a first-fragment TCP SYN and the two TCP checksum bytes; afterwards that MSS is at most the clamp value, an MSS not above the clamp is left untouched, and clamping again changes nothing.", "quantifier": "every packet byte string and every clamp value", "why_tests_cant": "all option layouts and malformed headers", "anchors": ["src/he/mss.c:he_internal_clamp_mss"]}
{"id": "C20", "title": "MSS clamping keeps the TCP checksum valid", "statement": "If the TCP checksum of a segment was valid before clamping it is valid after clamping. (True when the MSS value sits at an even offset in the TCP header; false for odd offsets.)", "quantifier": "every TCP SYN packet", "why_tests_cant": "ones-complement arithmetic over all packet contents", "anchors": ["src/he/mss.c:he_internal_clamp_mss", "src/he/network.c:he_internal_calculate_differential_checksum"]}
{"id": "C21", "title": "MSS clamping stays in bounds and terminates", "statement": "For every packet of every length the clamp reads and writes only inside the packet and finishes.", "quantifier": "every packet byte string, including hostile header lengths and option lists", "why_tests_cant": "all malformed packets", "anchors": ["src/he/mss.c:he_internal_clamp_mss"]}
{"id": "C22", "title": "Incremental checksum is ones-complement exact", "statement": "The incremental checksum update equals, modulo 65535, old checksum - sum(new words) + sum(old words), for any number of words for which the 32-bit accumulator does not overflow.", "quantifier": "every checksum and every list of words", "why_tests_cant": "arithmetic over the whole domain", "anchors": ["src/he/network.c:he_internal_calculate_differential_checksum"]}
{"id": "C23", "title": "Wire header round-trip", "statement": "Every datagram the library sends starts with a 16-byte header from which a peer recovers exactly the sender's protocol version, aggressive-mode flag and advertised session id (pending id while one is pending, otherwise the current one), and the rest is exactly the TLS record.", "quantifier": "every connection state and TLS record", "why_tests_cant": "all ids, versions and records", "anchors": ["src/he/wolf.c:he_internal_write_packet_header", "src/he/wolf.c:he_wolf_dtls_write_internal", "src/he/flow.c:he_internal_flow_outside_packet_received"]}
{"id": "C24", "title": "Unrecognised datagrams are dropped without effect", "statement": "A datagram that is shorter than 16 bytes, lacks the 'He' marker, carries another protocol version or the reject session id is refused with the documented code, nothing reaches the TLS layer, no callback runs and the connection is unchanged.", "quantifier": "every datagram and every connection state", "why_tests_cant": "all datagrams an off-path attacker can inject", "anchors": ["src/he/flow.c:he_internal_flow_outside_packet_received"]}
{"id": "C25", "title": "Outgoing datagrams are well-formed and bounded", "statement": "Every buffer passed to outside_write on a datagram connection without outside plugins is at most 1500 bytes and begins with 'H','e' and the negotiated version; with plugins it is at most 1500 bytes.", "quantifier": "every history and every TLS record size", "why_tests_cant": "all record sizes and histories", "anchors": ["src/he/wolf.c:he_wolf_dtls_write_internal"]}
{"id": "C26", "title": "A datagram is given to the TLS layer at most once and unmodified", "statement": "For each he_conn_outside_data_received call on a datagram connection the TLS layer obtains the payload (without the 16-byte header) at most once, whole and unmodified, or not at all if its buffer is too small; it never obtains bytes of an earlier datagram again once they were taken.", "quantifier": "every number and size of TLS read requests in every history", "why_tests_cant": "TLS read patterns are unbounded", "anchors": ["src/he/wolf.c:he_wolf_dtls_read", "src/he/flow.c:he_internal_set_packet"]}
{"id": "C27", "title": "Stream input fidelity", "statement": "On a stream connection the concatenation of the bytes the TLS layer reads is a prefix of the concatenation of the accepted buffers, in order, without loss or duplication; if the TLS layer leaves bytes unread, the next he_conn_outside_data_received is refused with HE_ERR_SSL_ERROR instead of losing data.", "quantifier": "every buffer sequence and every TLS read-size pattern", "why_tests_cant": "read sizes and buffer splits are unbounded", "anchors": ["src/he/core.c:he_internal_setup_stream_state", "src/he/wolf.c:he_wolf_tls_read"]}
{"id": "C28", "title": "Stream output fidelity", "statement": "On a stream connection without outside plugins, the bytes passed to outside_write are exactly the first min(size,1500) bytes of the TLS record offered and the reported count equals the number of bytes passed, so that the concatenation of outside writes is the TLS byte stream.", "quantifier": "every record and every sequence of partial writes", "why_tests_cant": "all record sizes", "anchors": ["src/he/wolf.c:he_wolf_tls_write_internal"]}
{"id": "C29", "title": "Triple transmission exactly when required", "statement": "Each datagram record is passed to outside_write once when ONLINE and not in aggressive mode, and otherwise three times with identical bytes, unless a write fails, after which no further copy is sent and the TLS layer is told of the failure.", "quantifier": "every state, mode, record and write-callback result", "why_tests_cant": "all combinations of state, mode and failure position", "anchors": ["src/he/wolf.c:he_wolf_dtls_write_internal"]}
{"id": "C30", "title": "Server session id changes only to the pending id", "statement": "While a server connection is up its session id changes only by adopting the pending id that he_conn_rotate_session_id returned, when a datagram carrying that id is received, with exactly one PENDING_SESSION_ACKNOWLEDGED event; any other non-zero id is refused with HE_ERR_UNKNOWN_SESSION and leaves ids unchanged.", "quantifier": "every history of a server connection", "why_tests_cant": "all ids and interleavings", "anchors": ["src/he/flow.c:he_internal_update_session_incoming", "src/he/conn.c:he_conn_rotate_session_id"]}
{"id": "C31", "title": "Client adopts a session id only from a verified datagram or config", "statement": "A client's session id changes only through he_conn_set_session_id, a CONFIG_IPV4 message, or a non-zero header id of a datagram whose processing by the TLS layer and message handlers returned success.", "quantifier": "every history of a client connection", "why_tests_cant": "all datagrams and TLS outcomes", "anchors": ["src/he/flow.c:he_internal_flow_outside_packet_received", "src/he/flow.c:he_internal_update_session_incoming", "src/he/msg_handlers.c:he_handle_msg_config_ipv4"]}
{"id": "C32", "title": "Session rotation converges over a lossy network", "statement": "Between one server and one client over a network that may lose, duplicate, delay and reorder datagrams, with any interleaving of calls by both hosts: every id the client uses and every id in a datagram is 0 or one the server had as current or pending; the server comes to use a new id only after one of its datagrams with that id reached the client; and if, with no further rotation, the client receives a datagram the server sent during the rotation, then before receiving anything else sends one which the server receives, then that datagram carries the new id and the server uses it with no rotation pending. (An older datagram that arrives late makes the client go back to the old id.)", "quantifier": "every schedule of sends, losses, duplications, reorderings and rotations", "why_tests_cant": "unbounded schedules", "anchors": ["src/he/flow.c:he_internal_update_session_incoming", "src/he/wolf.c:he_internal_write_packet_header", "src/he/conn.c:he_conn_rotate_session_id"]}
{"id": "C33", "title": "At most one rotation in flight", "statement": "he_conn_rotate_session_id succeeds only on a server with no rotation pending; after success the pending id equals the id returned, a second call is refused with HE_ERR_INVALID_CONN_STATE until the pending id was acknowledged. (Fails when the random generator yields 0.)", "quantifier": "every history and every random value", "why_tests_cant": "all random values and histories", "anchors": ["src/he/conn.c:he_conn_rotate_session_id"]}
{"id": "C34", "title": "Effective PMTU range", "statement": "he_conn_get_effective_pmtu always returns 1350 or a value between 512 and 1416, in every history in which no connect call follows the start of discovery; in every history whatsoever it returns a value between 506 and 1416, and both bounds are reached.", "quantifier": "every history of probes, acknowledgements (including forged ones), timeouts and send failures", "why_tests_cant": "all probe/ack/timeout histories", "anchors": ["src/he/conn.c:he_conn_get_effective_pmtu", "src/he/pmtud.c"]}
{"id": "C35", "title": "Probe discipline", "statement": "Every PMTU probe sent has a size between 512 and 1416 plus 3 header bytes, carries a fresh identifier, and at every point at most three probes of a size have been sent since the last accepted acknowledgement, announced discovery state or rest period (while the connection is not connected again after discovery started).", "quantifier": "every PMTUD history", "why_tests_cant": "all histories", "anchors": ["src/he/pmtud.c:he_internal_pmtud_send_probe", "src/he/pmtud.c:he_internal_pmtud_handle_probe_timeout"]}
{"id": "C36", "title": "Effective PMTU was acknowledged by the peer", "statement": "When discovery completes, the effective PMTU is at most a size for which a probe was sent and acknowledged by the peer. (False: after the base probe failed and 512 was acknowledged, discovery completes with 1250 unacknowledged; and a forged PONG with identifier 0 is taken for an acknowledgement when nothing is pending. True for every value other than 1250 if no PONG with identifier 0 arrives.)", "quantifier": "every PMTUD history with honest acknowledgements", "why_tests_cant": "needs a specific loss pattern over many timeouts", "anchors": ["src/he/pmtud.c:he_internal_pmtud_base_confirmed", "src/he/pmtud.c:he_internal_pmtud_handle_probe_timeout", "src/he/pmtud.c:he_internal_pmtud_search_completed"]}
{"id": "C37", "title": "PMTU search terminates", "statement": "While the connection stays ONLINE, from any state reached by starting discovery, every sequence of probe acknowledgements and timeouts leaves the BASE/SEARCHING phase (reaching SEARCH_COMPLETE or ERROR) within a fixed number of such events.", "quantifier": "every sequence of acknowledgements and timeouts", "why_tests_cant": "needs a ranking argument over all sequences", "anchors": ["src/he/pmtud.c"]}
{"id": "C38", "title": "PMTU discovery never stalls", "statement": "While discovery is active and the connection ONLINE, after every call the last timer request made to the host is a non-zero delay, so a timeout or an acknowledgement always drives it on (false after a second connect call during discovery).", "quantifier": "every PMTUD history", "why_tests_cant": "all histories", "anchors": ["src/he/pmtud.c:he_internal_pmtud_send_probe", "src/he/pmtud.c:he_internal_pmtud_retry_probe", "src/he/pmtud.c:he_internal_pmtud_handle_probe_ack"]}
{"id": "C39", "title": "Discovered PMTU leaves the tunnel usable", "statement": "Whatever the effective PMTU, a valid IPv4 packet of accepted size is not refused because of the PMTU. (False for effective PMTU 512..551, where the MSS clamp argument falls below its minimum and every inside packet is refused with HE_ERR_FAILED.)", "quantifier": "every effective PMTU and every packet", "why_tests_cant": "needs the exact PMTU range after a black hole", "anchors": ["src/he/flow.c:he_conn_inside_packet_received", "src/he/mss.c:he_internal_clamp_mss"]}
{"id": "C40", "title": "PONG events answer keepalives", "statement": "The PONG event is generated only for a pong whose identifier equals that of the most recent successfully sent keepalive (identifier 0 before any was sent); any other pong generates no event.", "quantifier": "every history and every pong", "why_tests_cant": "identifier wrap-around and mixed probe/keepalive histories", "anchors": ["src/he/msg_handlers.c:he_handle_msg_pong", "src/he/conn.c:he_conn_send_keepalive"]}
{"id": "C41", "title": "Keepalive round-trip", "statement": "A keepalive sent by one ONLINE peer and processed by another ONLINE peer produces a pong which, processed by the first before it sends another keepalive, generates exactly one PONG event; the ping payload never affects the answer.", "quantifier": "every pair of ONLINE connections, every identifier, every ping payload", "why_tests_cant": "all identifiers including wrap-around", "anchors": ["src/he/conn.c:he_conn_send_keepalive", "src/he/msg_handlers.c:he_handle_msg_ping", "src/he/msg_handlers.c:he_handle_msg_pong"]}
{"id": "C42", "title": "Credentials reach the server's callback unchanged", "statement": "The username/password, token or auth buffer configured on the client is exactly what the server's matching authentication callback receives when the client's AUTH message arrives, and no other callback is called.", "quantifier": "every credential string within the accepted lengths and every accepted token/buffer", "why_tests_cant": "round-trip over all credential contents and lengths", "anchors": ["src/he/conn.c:he_internal_send_auth", "src/he/msg_handlers.c:he_handle_msg_auth"]}
{"id": "C43", "title": "Accepted strings are stored exactly", "statement": "When a text setter (user name, password, server name) returns HE_SUCCESS the getter returns that string, otherwise the stored string is unchanged; and nothing but a setter ever changes a configured value of a client. (Fails for strings of exactly 50 characters, which are accepted and silently cut to 49.)", "quantifier": "every string", "why_tests_cant": "boundary length", "anchors": ["src/he/config.c:he_internal_set_config_string"]}
{"id": "C44", "title": "Config validity is exact", "statement": "he_conn_is_valid_client/server and he_ssl_ctx_is_valid_client/server return HE_SUCCESS exactly when the documented fields are set consistently, and connect never proceeds with an invalid configuration.", "quantifier": "every configuration history", "why_tests_cant": "all combinations of fields", "anchors": ["src/he/conn.c:he_conn_is_valid_client", "src/he/conn.c:he_conn_is_valid_server", "src/he/ssl_ctx.c:he_ssl_ctx_is_valid_client", "src/he/ssl_ctx.c:he_ssl_ctx_is_valid_server"]}
{"id": "C45", "title": "At most one nudge timer outstanding", "statement": "Between two calls of he_conn_nudge by the host the nudge-time callback is invoked at most once.", "quantifier": "every history", "why_tests_cant": "unbounded interleavings of data, connects and nudges", "anchors": ["src/he/conn.c:he_internal_update_timeout", "src/he/conn.c:he_conn_nudge"]}
{"id": "C46", "title": "A nudge timer is outstanding throughout the handshake", "statement": "With a nudge callback registered, from a connect call that returned HE_SUCCESS on, whatever other calls are made and whatever they return, as long as the connection is CONNECTING, LINK_UP, AUTHENTICATING or CONFIGURING a nudge timer is outstanding (requested, and he_conn_nudge not called since). (After a connect call that failed the state may be CONNECTING without a timer.)", "quantifier": "every history after a successful connect", "why_tests_cant": "a missed re-arm on one path would stall the handshake", "anchors": ["src/he/conn.c:he_internal_update_timeout", "src/he/flow.c:he_internal_flow_outside_data_verify_connection"]}
{"id": "C47", "title": "Nudging re-sends the same credentials", "statement": "While AUTHENTICATING on a client each nudge hands the TLS layer a byte-identical AUTH message, as long as the host does not change the credentials in between.", "quantifier": "every number of nudges and every credential", "why_tests_cant": "all credential values and histories", "anchors": ["src/he/conn.c:he_conn_nudge", "src/he/conn.c:he_internal_send_auth"]}
{"id": "C48", "title": "Renegotiation events alternate", "statement": "SECURE_RENEGOTIATION_STARTED and SECURE_RENEGOTIATION_COMPLETED events strictly alternate, starting with STARTED, and STARTED occurs only while ONLINE after he_conn_schedule_renegotiation.", "quantifier": "every history and every TLS-layer answer", "why_tests_cant": "unbounded histories", "anchors": ["src/he/conn.c:he_internal_renegotiate_ssl", "src/he/flow.c:he_internal_flow_outside_data_handle_messages"]}
{"id": "C49", "title": "First-message event at most once", "statement": "FIRST_MESSAGE_RECEIVED is generated at most once per connection object, and only by a call to he_conn_outside_data_received.", "quantifier": "every history; also every interleaving of concurrent receivers in the multithreaded build", "why_tests_cant": "races and unbounded histories", "anchors": ["src/he/flow.c:he_internal_flow_outside_data_verify_connection"]}
{"id": "C50", "title": "Network config handed to the host is sane", "statement": "Every config passed to the network-config callback has NUL-terminated strings of at most 23 characters and an MTU between 1 and 1350, and session id and strings are those in the message.", "quantifier": "every CONFIG_IPV4 message byte string", "why_tests_cant": "all malformed messages", "anchors": ["src/he/msg_handlers.c:he_handle_msg_config_ipv4"]}
{"id": "C51", "title": "Network config round-trip", "statement": "When the populate callback succeeds, the server hands out exactly one CONFIG_IPV4 message with the supplied addresses (each cut to 23 characters), MTU 1350 and its session id, and is ONLINE. A client that is AUTHENTICATING and receives it invokes its network-config callback exactly once with exactly those strings and MTU 1350, is ONLINE if the callback agrees (stays CONFIGURING and gets HE_ERR_CALLBACK_FAILED otherwise), and its session id is the server's unless the datagram's header carried another.", "quantifier": "every config the host can supply", "why_tests_cant": "all string contents", "anchors": ["src/he/msg_handlers.c:he_handle_msg_auth", "src/he/msg_handlers.c:he_handle_msg_config_ipv4"]}
{"id": "C52", "title": "Version support check is the lexicographic interval", "statement": "he_ssl_ctx_is_supported_version(v) holds exactly when min <= v <= max in lexicographic order of (major, minor); the setters accept exactly versions in [1.0,1.2] (or 0.0 meaning the default).", "quantifier": "all 65536 versions and all bounds", "why_tests_cant": "full cross product", "anchors": ["src/he/ssl_ctx.c:he_ssl_ctx_is_supported_version", "src/he/ssl_ctx.c:he_is_valid_wire_protocol_version"]}
{"id": "C53", "title": "Plugin chains run in order, mirror each other, and stop at the first refusal", "statement": "Ingress runs plugins in registration order and egress in reverse; the first FAIL or DROP stops the chain and decides the result; if each plugin's ingress inverts its egress then the ingress chain inverts the egress chain.", "quantifier": "every chain and every plugin behaviour", "why_tests_cant": "all chains", "anchors": ["src/he/plugin_chain.c"]}
{"id": "C54", "title": "Fatal error classification", "statement": "he_conn_is_error_fatal is false exactly for the documented non-fatal codes of the connection type, every code non-fatal on a stream is non-fatal on a datagram connection, and no datagram rejected by the header check other than a version or session rejection is fatal on a datagram connection.", "quantifier": "every return code and connection type", "why_tests_cant": "must agree with every code path that can return each code", "anchors": ["src/he/conn.c:he_conn_is_error_fatal", "src/he/flow.c:he_internal_flow_outside_packet_received"]}
{"id": "C55", "title": "Server config push round-trip", "statement": "A buffer of at most 1347 bytes sent with he_conn_send_server_config arrives byte-identical at the client's server-config callback; larger buffers are refused; only a server in LINK_UP/AUTHENTICATING/CONFIGURING/ONLINE may send.", "quantifier": "every buffer and state", "why_tests_cant": "all buffers", "anchors": ["src/he/conn.c:he_conn_send_server_config", "src/he/msg_handlers.c:he_handle_msg_server_config"]}
{"id": "C56", "title": "Name tables are faithful", "statement": "he_return_code_name, he_client_state_name, he_client_event_name, he_connection_protocol_name and he_pmtud_state_name return distinct names for distinct declared values and the unknown name otherwise. (False for HE_ERR_CANNOT_ENABLE_CH_FRAG.)", "quantifier": "every declared enum value", "why_tests_cant": "full table", "anchors": ["src/he/utils.c"]}
{"id": "C57", "title": "Fragment table capacity is honoured", "statement": "The number of fragment slots equals min(max_frag_entries, 65536), or 65536 if unset, and every identifier maps inside the table.", "quantifier": "every configured size and identifier", "why_tests_cant": "all sizes", "anchors": ["src/he/ssl_ctx.c:he_ssl_ctx_set_max_frag_entries", "src/he/frag.c:he_internal_fragment_table_create", "src/he/frag.c:he_internal_fragment_table_find"]}
{"id": "C58", "title": "Accepted inside packets can be reassembled by the peer", "statement": "Every packet accepted by he_conn_inside_packet_received on a datagram connection is within the size the peer's reassembly accepts. (False when outside_mtu exceeds 1614: the sender accepts and fragments packets larger than 1500 that the receiver always refuses.)", "quantifier": "every outside MTU and packet", "why_tests_cant": "needs MTU above the tested ones", "anchors": ["src/he/flow.c:he_conn_inside_packet_received", "src/he/msg_handlers.c:he_handle_msg_data_with_frag"]}
{"id": "C59", "title": "Disabling roaming keeps the connection working", "statement": "With roaming disabled on one side the peer still accepts its datagrams. (False: the header then carries the reject id and a lightway-core peer refuses every datagram with HE_ERR_REJECTED_SESSION.)", "quantifier": "every connection and record", "why_tests_cant": "end-to-end effect of a header value", "anchors": ["src/he/wolf.c:he_internal_write_packet_header", "src/he/flow.c:he_internal_flow_outside_packet_received"]}
{"id": "C60", "title": "Connecting twice restarts", "statement": "Contrary to its documentation, connect is never refused with HE_ERR_INVALID_CONN_STATE, in whatever state it is called; when it succeeds the connection is connecting again and any established session is gone.", "quantifier": "every state in which connect may be called", "why_tests_cant": "all states", "anchors": ["src/he/conn.c:he_conn_internal_connect", "include/he.h:HE_ERR_INVALID_CONN_STATE"]}
{"id": "C61", "title": "Starting a context resets the version bounds", "statement": "Version bounds set before he_ssl_ctx_start are not in force afterwards: a successful start sets them to 1.0 and 1.2 and keeps every other setting; bounds set after the start persist.", "quantifier": "every order of setter and start calls", "why_tests_cant": "call-order histories", "anchors": ["src/he/ssl_ctx.c:he_ssl_ctx_start_common"]}
{"id": "C62", "title": "Credentials given to the host are terminated strings", "statement": "When the AUTH message was produced by this library's client, the username and password passed to the authentication callback are NUL-terminated within the 50-byte fields. (For an arbitrary peer it is false: a peer may fill all 50 bytes of both fields, and the callback then gets unterminated buffers; the witness is proved.)", "quantifier": "every AUTH message", "why_tests_cant": "attacker-controlled bytes", "anchors": ["src/he/msg_handlers.c:he_handle_msg_auth"]}
{"id": "C63", "title": "Password is not retained by the server", "statement": "After an AUTH userpass message was processed, the password bytes are wiped from the message buffer and the stored username is the transmitted one, NUL-terminated.", "quantifier": "every AUTH message and callback result", "why_tests_cant": "all messages", "anchors": ["src/he/msg_handlers.c:he_handle_msg_auth"]}
{"id": "C64", "title": "Concurrent receivers", "statement": "In the multithreaded build, with any number of threads inside he_conn_outside_data_received, FIRST_MESSAGE_RECEIVED fires at most once, and exactly once when they have finished; the session id never becomes anything but the pending one; the nudge timer (check-then-set) and the pending-session acknowledgement can fire twice.", "quantifier": "every interleaving of any number of threads", "why_tests_cant": "interleavings", "anchors": ["src/he/flow.c:he_internal_flow_outside_data_verify_connection", "src/he/conn.c:he_internal_update_timeout", "src/he/flow.c:he_internal_update_session_incoming"]}
{"id": "C65", "title": "Statistics plugin is transparent", "statement": "The statistics plugin never changes, drops or fails a packet (given its data), and its count, sum, minimum and maximum equal those of the packet lengths seen, per direction.", "quantifier": "every packet sequence", "why_tests_cant": "unbounded sequences", "anchors": ["src/he/plugin_stats.c"]}
{"id": "C66", "title": "Rejected AUTH messages cannot skip the host", "statement": "An AUTH message that is too short for its type, or declares a token/buffer length beyond the message, never reaches an authentication callback, and a token or buffer callback only ever receives bytes that are inside the message.", "quantifier": "every AUTH message byte string", "why_tests_cant": "all malformed messages", "anchors": ["src/he/msg_handlers.c:he_handle_msg_auth"]}
{"id": "C67", "title": "Denied login tells the client so", "statement": "A denied login is answered by an AUTH_RESPONSE message, whose status byte is 0 (the success code, not the failure code: the code's own defect), the server connection moves to DISCONNECTING and the call returns HE_ERR_ACCESS_DENIED. A client receiving any AUTH_RESPONSE returns HE_ERR_ACCESS_DENIED without a state change, whatever status the message carries.", "quantifier": "every denied login", "why_tests_cant": "all denial paths", "anchors": ["src/he/msg_handlers.c:he_internal_send_auth_denied_response", "src/he/msg_handlers.c:he_handle_msg_auth_response"]}
{"id": "C68", "title": "Client object life cycle", "statement": "he_client_connect starts the context first, returns the first failing step's code and then leaves the connection alone; he_client_is_config_valid succeeds exactly when connect's own validation would (fails if a protocol version was chosen before the first start: the check compares it with bounds not yet set); creation is all or nothing.", "quantifier": "every configuration", "why_tests_cant": "all configurations", "anchors": ["src/he/client.c"]}
{"id": "C69", "title": "Delivered packets are valid IPv4 payloads of what arrived", "statement": "Every packet handed to the inside-write callback is a byte string that passes the IPv4 validity check and, when no inside plugin is registered, is exactly the payload of the data message being processed, or the reassembly of fragments that were received for that packet's slot.", "quantifier": "every configuration, every sequence of API calls, every sequence of decrypted messages, every callback and TLS-library outcome", "why_tests_cant": "the claim ranges over all histories and all message byte strings, including malformed and adversarial ones", "anchors": ["src/he/msg_handlers.c: he_handle_msg_data, he_handle_msg_data_with_frag, he_internal_handle_data", "src/he/frag.c"]}
{"id": "C70", "title": "Every message sent is well-formed and sent only in its circumstances", "statement": "Every message handed to the TLS layer for encryption has a known type, the layout that type prescribes, at most 1500 bytes, and is sent only in the circumstances its type is for: authentication by a client, IP configuration by a server after its callback accepted, PONG with the id of the PING being processed, data only while online, and so on.", "quantifier": "every configuration, every sequence of API calls, every sequence of decrypted messages, every callback and TLS-library outcome", "why_tests_cant": "ranges over all histories and all inputs the messages are built from", "anchors": ["src/he/conn.c: he_internal_send_message, he_internal_send_auth, he_internal_send_ping, he_conn_send_server_config", "src/he/msg_handlers.c", "src/he/flow.c", "src/he/pmtud.c"]}
{"id": "C71", "title": "A packet refused by a plugin goes nowhere", "statement": "When an inside or outside plugin answers 'drop' or 'fail' for a packet, the packet is not shown to a later plugin, not handed to the TLS library, not written to the inside or to the network. When the refusing plugin is an ingress plugin on he_conn_inside_packet_received or he_conn_outside_data_received (datagram), the call ends there with no other effect, returns success for a drop and failure for a fail, and the connection is otherwise unchanged.", "quantifier": "every history of API calls, every plugin behaviour, every packet, every call that gives the connection a packet", "why_tests_cant": "the number of plugins, their order, their answers and the state the connection is in when the packet arrives are unbounded", "anchors": ["src/he/plugin_chain.c: he_plugin_ingress, he_plugin_egress", "src/he/flow.c: he_conn_inside_packet_received, he_internal_flow_outside_data_received", "src/he/wolf.c: he_wolf_dtls_write"]}
{"id": "C72", "title": "Disconnect says goodbye, shuts down and goes silent", "statement": "he_conn_disconnect succeeds exactly when the connection has a TLS object and its state is one from LINK_UP to ONLINE (excluding DISCONNECTING and DISCONNECTED); otherwise it returns NEVER_CONNECTED / INVALID_CONN_STATE and changes nothing. On success the call's effects are exactly: the state callback with DISCONNECTING, a GOODBYE message given to TLS, TLS shut down, the inside and outside write callbacks forgotten, and the state callback with DISCONNECTED.", "quantifier": "every history of API calls before the disconnect, every TLS and network behaviour", "why_tests_cant": "ranges over every history leading to the call and every answer of TLS and of the callbacks during it", "anchors": ["src/he/conn.c: he_conn_disconnect, he_internal_send_goodbye, he_internal_change_conn_state"]}
{"id": "C73", "title": "Messages that are malformed or out of place are turned away", "statement": "Given the role, the connection state and the registered callbacks at the moment a message is taken from TLS, a message that is too short for its type, announces more bytes than it holds, or whose type is not handled in that role/state is either skipped (the very next observable effect is the next TLS read) or refused (the very next observable effect is the return of the call, with the return code of the table: INVALID_CONN_STATE, PACKET_TOO_SMALL, POINTER_WOULD_OVERFLOW, ACCESS_DENIED or SERVER_GOODBYE): no callback runs, nothing is written to the inside or the network.", "quantifier": "every history of API calls, every environment (TLS library, plugins, callbacks), every message content and every point of the history where a message is received", "why_tests_cant": "The table must hold for every byte string a peer can send in every reachable state; tests try a handful of malformed messages in states set up by hand.", "anchors": ["src/he/conn.c: he_internal_conn_process_message", "src/he/msg_handlers.c: he_handle_msg_*"]}
{"id": "C74", "title": "Messages are processed in order, none skipped", "statement": "The messages a single he_conn_outside_data_received call processes are a prefix, in order, of the messages TLS has to offer (each limited to the 1500-byte read buffer). If the call returns success then all of them were processed, unless none was because the data was dropped before or during the handshake step.", "quantifier": "every history before the call, every buffer, every sequence of TLS read results", "why_tests_cant": "Holds for reads of any number and content, interleaved with every handler's effects; a test only feeds a fixed sequence.", "anchors": ["src/he/flow.c: he_internal_flow_outside_data_handle_messages, he_internal_flow_fetch_message, he_internal_flow_outside_data_verify_connection"]}
{"id": "C75", "title": "No link without a handshake", "statement": "A connection reports LINK_UP only from CONNECTING and immediately after TLS reported a successful negotiation; messages are processed only inside a receive call and never in CONNECTING, DISCONNECTING or DISCONNECTED. A receive call in CONNECTING performs at most one handshake step before anything else: if TLS says it failed, the state stays CONNECTING, no message is processed and the result is success exactly for the errors that ask for more data and CONNECTION_FAILED-class codes as documented otherwise; if it succeeded the next state is LINK_UP.", "quantifier": "every history of API calls, every TLS behaviour, every received buffer", "why_tests_cant": "A claim about all interleavings of handshake results, received data and other API calls.", "anchors": ["src/he/flow.c: he_internal_flow_outside_data_verify_connection", "src/he/conn.c: he_internal_change_conn_state"]}
{"id": "C76", "title": "A client logs in when its link is up; nudging drives log-in and time-outs", "statement": "Whenever a client connection announces LINK_UP, the very next things that happen are the announcement of AUTHENTICATING and one AUTH message handed to TLS. Each he_conn_nudge while AUTHENTICATING sends the AUTH message again and returns success without a state change. A nudge in any other state tells TLS that its timer fired: if TLS gives up (an error other than want-read/want-write) the connection becomes DISCONNECTED and the call returns HE_ERR_CONNECTION_TIMED_OUT; otherwise it returns success and announces no state change.", "quantifier": "every history of API calls of a connection that never acted as a server, every behaviour of TLS and host callbacks", "why_tests_cant": "LINK_UP is reached from a connect call or any of arbitrarily many receive calls after arbitrary histories, and the TLS library's answers are arbitrary", "anchors": ["src/he/conn.c: he_conn_nudge, he_internal_change_conn_state, he_internal_send_auth", "src/he/flow.c: he_internal_outside_data_verify_connection"]}
{"id": "C77", "title": "The course of a connect call", "statement": "A connect call that passes validation allocates the fragment table, creates the TLS object and prepares it by exactly the calls the context and settings ask for (datagram: the MTU = outside MTU - 114 + 37, server: allow fragmented hello; stream client: SNI if set; domain-name check if a name is set; client with post-quantum: key share), in that order, stopping at the first failing one with the result that names it and without announcing a state. If all succeed CONNECTING is announced before the handshake starts; the result is success iff the handshake completed or waits for the peer (LINK_UP is announced iff it completed), otherwise HE_ERR_CONNECT_FAILED; a server then draws its session id or returns HE_ERR_RNG_FAILURE.", "quantifier": "every history of API calls before the connect, both roles, every context, all plugin chains, every outcome of allocation, RNG and each TLS call", "why_tests_cant": "the combinations of settings, failing call and earlier history are unbounded", "anchors": ["src/he/conn.c: he_conn_internal_connect, he_internal_conn_configure, he_conn_client_connect, he_conn_server_connect"]}
{"id": "C78", "title": "A connection works with the settings of its last connect call", "statement": "Once a connect call has passed validation, role, transport, padding, aggressive mode, roaming, post-quantum flag and both plugin chains are those given to that call, and the protocol version is the one chosen before or else the newest the context supports - whatever the call's outcome and whatever calls follow, until the next connect call (or a new choice of version).", "quantifier": "every history before the connect, every context and plugin chains, every sequence of later calls other than connect and set-protocol-version, every environment behaviour", "why_tests_cant": "later histories are unbounded and any handler could overwrite a setting", "anchors": ["src/he/conn.c: he_internal_conn_configure, he_conn_internal_connect, he_conn_set_protocol_version"]}
{"id": "C79", "title": "The order of arrival decides exactly whether a fragmented packet is delivered", "statement": "When all fragments of a packet (IPv4, at most 1500 bytes) arrive once each, within 64 seconds, in any order, at an ONLINE connection whose reassembly slot is empty, with any other calls in between that do not touch the slot, then the packet is delivered - by the last fragment and unchanged - exactly if at every moment the received fragments form one contiguous block; in every other order none of the fragments ever causes a delivery.", "quantifier": "every packet, every fragmentation, every permutation of its fragments, every reachable ONLINE state, every interleaving with other calls", "why_tests_cant": "unbounded numbers of fragments, permutations and interleaved calls", "anchors": ["src/he/frag.c: he_fragment_entry_update", "src/he/msg_handlers.c: he_handle_msg_data_with_frag"]}
{"id": "C80", "title": "The library never misuses memory", "statement": "Whatever the host calls, in whatever order, whatever fragments arrive, and whichever allocations fail - except the allocation of a fragment record - no object is used after its release, released twice, reached through NULL or accessed out of bounds, and no pointer-chasing loop runs forever. (The allocation of a fragment record is not checked: if it fails, a NULL pointer is dereferenced.)", "quantifier": "all sequences of create, start, connect, register, destroy calls and received fragments, and all allocators", "why_tests_cant": "the number of call sequences, fragment orders and allocation-failure points is unbounded", "anchors": ["src/he/frag.c:he_fragment_entry_update", "src/he/frag.c:he_internal_fragment_table_destroy", "src/he/client.c:he_client_create", "src/he/conn.c:he_conn_destroy", "src/he/plugin_chain.c:he_plugin_register_plugin", "src/he/memory.c"]}
{"id": "C81", "title": "Destroying everything releases everything", "statement": "Once the host has destroyed every context, connection, plugin chain and client it created, no memory allocated by the library remains allocated, whatever happened before. (True for histories in which no context is started twice, no connection is connected twice and no fragment joins a held range from behind while ending before another; false otherwise: reordered fragments, a second connect and a second start each leave blocks behind, and a peer that repeats an empty fragment makes the receiver grow without bound.)", "quantifier": "all sequences of calls and received fragments, all allocators", "why_tests_cant": "a leak may need a particular fragment order or call order among unboundedly many", "anchors": ["src/he/frag.c:he_fragment_entry_update", "src/he/conn.c:he_conn_destroy", "src/he/ssl_ctx.c:he_ssl_ctx_destroy", "src/he/client.c:he_client_destroy"]}
{"id": "C82", "title": "The linked lists and tables behave like lists", "statement": "The pointer-level reassembly code (linked nodes, table of entry pointers, allocation and release, in-place update) delivers for every sequence of fragments exactly the packets and return codes of the list model used for the other reassembly properties, after any history of calls.", "quantifier": "all call histories, all fragment sequences, all table sizes", "why_tests_cant": "pointer manipulation errors show only for particular list shapes; the sequences are unbounded", "anchors": ["src/he/frag.c", "src/he/msg_handlers.c:he_handle_msg_data_with_frag"]}
{"id": "C83", "title": "The nudge time the host reads is the one TLS asked for", "statement": "he_conn_get_nudge_time returns 0 when the connection is ONLINE and no renegotiation is under way; otherwise it returns the retransmission time last noted. Whenever a time is noted it is either 0, by he_conn_disconnect, or exactly what TLS last reported (100 ms times its current timeout, a quarter of that when TLS asks for a quick timeout), and never noted while online without renegotiation. The nudge time callback is only ever given the time just noted.", "quantifier": "every sequence of API calls, every input, every behaviour of TLS and of the host callbacks; every point in the history", "why_tests_cant": "The time depends on the whole history of TLS answers, state changes and renegotiations; a test pins only a few of the orders in which they occur.", "anchors": ["src/he/conn.c: he_conn_get_nudge_time, he_internal_update_timeout", "src/he/conn.c: he_conn_disconnect"]}
{"id": "C84", "title": "A context remembers exactly the last accepted value of each setting", "statement": "After any sequence of he_ssl_ctx_set_*, he_ssl_ctx_start, he_ssl_ctx_start_server and he_ssl_ctx_stop calls on a context, each setting (versions, server DN, cipher choice, CA buffer, certificate and key files, connection type, each of the thirteen callbacks, roaming, padding, aggressive mode, PQC, fragment table size) has the value last accepted for it, or its default; a refused value leaves the previous one and no call disturbs another setting, except that a start which gets as far as installing the I/O callbacks resets the version bounds to 1.0-1.2. Which values are accepted, and the code of each refusal, is exactly as documented.", "quantifier": "every sequence of context calls with every argument, and every behaviour of the TLS library", "why_tests_cant": "Interference between setters shows only in particular orders and combinations of calls; the number of sequences is unbounded.", "anchors": ["src/he/ssl_ctx.c: he_ssl_ctx_set_minimum_supported_version .. he_ssl_ctx_set_max_frag_entries", "src/he/ssl_ctx.c: he_ssl_ctx_start, he_ssl_ctx_start_server"]}
{"id": "C85", "title": "Starting a context configures TLS exactly from the settings", "statement": "he_ssl_ctx_start refuses a context without outside write callback or CA without touching TLS; otherwise it makes exactly this sequence of TLS calls with the current settings: new context for TLS 1.3 (stream) or DTLS (datagram), load the CA buffer, for datagrams minimum version DTLS 1.2, the cipher list of the chosen AEAD only, I/O callbacks, for datagrams secure renegotiation; it stops at the first failure and returns that failure's code, and succeeds exactly if none fails. he_ssl_ctx_start_server likewise with certificate file, key file, random generator, cipher list and key exchange groups, and also requires a credential callback.", "quantifier": "every history of context calls before the start, every setting, and every pattern of TLS call results", "why_tests_cant": "Tests exercise each failure once with one configuration; the property is about every combination of settings, earlier calls and failures.", "anchors": ["src/he/ssl_ctx.c: he_ssl_ctx_start, he_ssl_ctx_start_server, he_ssl_ctx_start_common, he_ssl_ctx_is_valid_client, he_ssl_ctx_is_valid_server"]}
{"id": "C86", "title": "The result of a receive call says what became of the data", "statement": "Unless a plugin or the transport header check kept the data from TLS, or the handshake is not over, he_conn_outside_data_received processes the messages TLS has to offer in order and returns: success or UNKNOWN_SESSION when all were processed and nothing is left; SSL_ERROR or SECURE_RENEGOTIATION_ERROR when all were processed and the renegotiation that followed failed (success is reported only if no renegotiation step failed); CONNECTION_WAS_CLOSED when all were processed and the peer closed the session; SSL_ERROR (stream) or SSL_ERROR_NONFATAL (datagram) when all were processed and reading failed; otherwise the last message processed ended the call, later ones were not looked at, and the code is the one that message calls for: the refusal code of the message table, a failed reply for PING, the denial code or the host's code for AUTH, CALLBACK_FAILED for a configuration the host refused, FAILED/BAD_PACKET for data the plugins spoilt or that is not IPv4, BAD_FRAGMENT/NO_MEMORY for fragments. Conversely, when TLS does not take the answer to a PING, the host denies credentials, refuses or cannot provide a configuration, or a plugin fails on a received packet, the call ends with the corresponding code and processes no further message.", "quantifier": "every history of API calls with a TLS object, every buffer, every answer of the TLS library and the host, both transports and roles", "why_tests_cant": "the code depends on the interleaving of arbitrarily many messages, states, callbacks, plugin verdicts and TLS outcomes in one call; tests cover single messages", "anchors": ["src/he/flow.c: he_internal_flow_fetch_message, he_internal_flow_outside_data_handle_messages, he_internal_flow_outside_data_verify_connection", "src/he/msg_handlers.c"]}
{"id": "C87", "title": "Path-MTU discovery finds the path's capacity", "statement": "On a path of capacity L (the peer answers exactly probes of at most L bytes, the host's timer fires on a waiting probe only if the probe did not fit): whenever discovery is at rest, the size in use is at most L and less than 8 bytes below min(L,1416); except that the first search on a path below 1250 ends with 1250, corrected by the next search. ERROR is announced only on paths below 512, and such a path never gets beyond BASE and ERROR.", "quantifier": "every capacity, every interleaving of API calls with one connect, every TLS/host behaviour", "why_tests_cant": "all capacities, all interleavings of answers, lost probes, refused writes and other traffic", "anchors": ["src/he/pmtud.c: he_internal_pmtud_handle_probe_ack, he_internal_pmtud_handle_probe_timeout, he_internal_pmtud_base_confirmed, he_internal_pmtud_search_completed", "src/he/conn.c: he_conn_start_pmtu_discovery, he_conn_pmtud_probe_timeout"]}
{"id": "C88", "title": "Log-in works end to end, also after losses", "statement": "Let a client process carry out any call in which it writes an AUTH message (during the connect, after the handshake or from a nudge) and let that very message reach a server connection of another process in its own outside-data call. If the server's host has the callback for the client's method and accepts the credentials the client's host last set, and can provide a configuration, then the server is ONLINE after the call, even if it was ONLINE already (the first answer may have been lost), and the last message it wrote is a configuration carrying its session id and the addresses the host provided. If that message reaches the authenticating client, the client is ONLINE, its host is given exactly the addresses the server's host provided and MTU 1350, and the client has adopted the server's session id.", "quantifier": "every two environments, every history on either side, every set of credentials and configuration, every datagram that delivers the two messages", "why_tests_cant": "composes two independent endpoints over all histories, credentials and losses of earlier copies; tests stub one side", "anchors": ["src/he/conn.c: he_internal_send_auth, he_internal_conn_send_message", "src/he/msg_handlers.c: he_handle_msg_auth, he_handle_msg_config_ipv4", "src/he/flow.c: he_conn_outside_data_received"]}
{"id": "C89", "title": "A stream of packets arrives complete and in order", "statement": "Two processes, one sending and one ONLINE and holding no fragments, with the same protocol version, no inside plugins, outside MTU at most 1614. Packets are given to the sender; of each accepted packet either all messages are lost, or all arrive, each in its own call and within 64 seconds, in the order sent, backwards or in any order that grows one block, one packet after the other; both sides may make any other calls in between (on the receiver, calls that process no fragment, deliver nothing and are no connect). Then the receiving host is given exactly the packets that made it through, each once, in order, byte for byte except for the clamped MSS, however many and however large they are and whether or not they were fragmented.", "quantifier": "every two environments and histories, every number, size and content of packets, every pattern of whole-packet loss, every interleaving of other calls, every datagram that delivers each message", "why_tests_cant": "unbounded streams over two endpoints with shared reassembly slots and wrapping identifiers; tests push single packets through a stubbed peer", "anchors": ["src/he/flow.c: he_conn_inside_packet_received, he_conn_outside_data_received", "src/he/frag.c", "src/he/msg_handlers.c: he_handle_msg_data, he_handle_msg_data_with_frag"]}
{"id": "C90", "title": "Getters report exactly what was set or presented", "statement": "After every call, the getters of a connection report exactly this: the user name is the last accepted one (cut to 49 characters), or on a server the one most recently shown to the credentials callback (even if it was denied); 'username set' holds exactly when it is non-empty; 'password set' after the first accepted password; 'auth token set' after an accepted token until another method is chosen; 'auth buffer set' after an accepted token or buffer; the outside MTU is the last one above 114; the protocol version is the one set, or the context's highest once a validated connect found it unset; the state is the one last entered. Nothing else changes any of them. A NULL connection and a new one report nothing.", "quantifier": "all histories of calls, all arguments, both roles, all behaviours of TLS, host and network", "why_tests_cant": "that no other call in any history changes a reported value is a universally quantified frame condition", "anchors": ["src/he/conn.c:he_conn_get_username", "src/he/conn.c:he_conn_is_auth_token_set", "src/he/conn.c:he_conn_get_outside_mtu", "src/he/conn.c:he_conn_get_protocol_version", "src/he/conn.c:he_conn_get_state", "src/he/msg_handlers.c:he_handle_msg_auth"]}
{"id": "C91", "title": "The result of a sending call says what became of the data", "statement": "he_conn_inside_packet_received, he_conn_send_keepalive and he_conn_send_server_config return the outcome of the last message they handed to TLS: success exactly if TLS took it, WANT_WRITE, WANT_READ, CONNECTION_WAS_CLOSED or SSL_ERROR otherwise, and of a packet sent in several fragments all the earlier ones were taken (after a failed one no further one is tried). If nothing was handed to TLS the result says why: a plugin dropped the packet (success), a plugin failed or made the packet too long, a stream connection has no room for a packet over 1497 bytes, or the discovered path MTU is too small (FAILED); a keepalive off line, a configuration pushed by a client or outside the states from LINK_UP to ONLINE (INVALID_CONN_STATE), or one over 1347 bytes (PACKET_TOO_LARGE).", "quantifier": "every history of API calls, every packet or configuration, every answer of TLS, the host and the plugins", "why_tests_cant": "the outcome depends on the answers of TLS to each of an arbitrary number of fragments and on arbitrary plugin chains; tests mock single answers", "anchors": ["src/he/conn.c: he_internal_send_message, he_conn_send_keepalive, he_conn_send_server_config", "src/he/flow.c: he_conn_inside_packet_received", "src/he/frag.c: he_internal_frag_and_send_message"]}
{"id": "C92", "title": "Blocks go back to the allocator they came from", "statement": "he_set_allocators installs the four functions given unless wolfSSL refuses them, in which case nothing changes; each later request of the library is served by the function last given for it, by the C library's if NULL was given, and by nothing else. If the host changes the functions only while the library holds no memory and gives functions of one allocator each time, every block is released with the allocator that handed it out. Both conditions are needed: leaving calloc NULL, or changing the functions while a block is in use, makes the library pass blocks of one allocator to the free function of another.", "quantifier": "every history of changes of the functions (accepted or refused) and of memory requests", "why_tests_cant": "the mixing depends on the history of changes and on which blocks are alive at each", "anchors": ["src/he/memory.c: he_set_allocators, he_malloc, he_calloc, he_realloc, he_free"]}
{"id": "C93", "title": "Guarantees that survive calls made from inside callbacks", "statement": "A host may call the library again from inside its state, event, data, configuration, authentication, nudge and PMTUD callbacks, to any depth. Whatever it does there: the inside write callback runs only while the last announced state is ONLINE and as the handling of a tunnel-data message; every callback that runs is installed at that moment; ONLINE is announced only after an AUTH message accepted by the host, which then supplied a network configuration, or after an announced and accepted CONFIG_IPV4 message that arrived while AUTHENTICATING, with nothing but the host's own nested calls in between; and once a disconnect call has succeeded, wherever it was made, neither write callback runs again before a later connect call takes effect.", "quantifier": "every host (any function from the history to a list of calls), every nesting depth, every history of calls, every environment", "why_tests_cant": "the space of callback points times calls times depths is unbounded, and each nested call may change any field the outer call has already checked", "anchors": ["src/he/conn.c: he_internal_change_conn_state, he_internal_generate_event, he_conn_disconnect, he_internal_update_timeout", "src/he/msg_handlers.c: he_handle_msg_auth, he_handle_msg_config_ipv4, internal_handle_data", "src/he/flow.c: he_internal_flow_fetch_message, he_internal_flow_outside_data_handle_messages", "src/he/pmtud.c"]}
{"id": "C94", "title": "A disconnect made from inside a callback is final", "statement": "After he_conn_disconnect returned success from inside a callback, the connection does not leave DISCONNECTED until a connect call is made; more generally the life cycle of the connection is the documented one whatever calls the host makes from its callbacks.", "quantifier": "every host, every nesting depth, every history", "why_tests_cant": "it ranges over every callback point and every continuation of the interrupted call", "anchors": ["src/he/msg_handlers.c: he_handle_msg_config_ipv4, he_handle_msg_auth", "src/he/conn.c: he_conn_disconnect, he_internal_change_conn_state, he_conn_internal_connect", "src/he/flow.c: he_internal_flow_outside_data_handle_messages"]}
{"id": "C95", "title": "Calls from callbacks do not corrupt memory", "statement": "Provided allocations and wolfSSL_new succeed, a host that calls the library from its callbacks in any way provokes no undefined behaviour, except the assertion of the PMTU search, and except when, inside the authentication callback that accepts a client, it connects the same connection with a context that has no populate callback: then the library calls a NULL pointer.", "quantifier": "every host, every nesting depth, every history, every peer", "why_tests_cant": "the interleavings of nested calls with the code after each callback are unbounded", "anchors": ["src/he/msg_handlers.c", "src/he/conn.c", "src/he/flow.c", "src/he/pmtud.c", "src/he/frag.c"]}
{"id": "C96", "title": "The receiving host gets only packets the sending host handed over", "statement": "Take the whole life of any sending connection and the whole life of any receiving one, without inside plugins, both or neither using protocol 1.0, and a network that loses, reorders, delays and repeats messages, of which TLS lets only genuine ones through. If the packets in fragments that can be in flight at the same time (ever, or within 64 seconds) are at most as many as the receiver has reassembly slots, then every packet given to the receiving host is, byte for byte, a packet the sending host handed over with a call to he_conn_inside_packet_received that reached TLS, except for the maximum segment size and checksum of a TCP SYN. No packet is damaged, truncated, extended, or made of pieces of two.", "quantifier": "every pair of histories, every order, loss, delay and repetition of messages, every clock", "why_tests_cant": "quantifies over all schedules of the network and all packet contents", "anchors": ["src/he/frag.c:he_internal_frag_and_send_message", "src/he/frag.c:he_internal_fragment_entry_update", "src/he/msg_handlers.c:he_handle_msg_data", "src/he/msg_handlers.c:he_handle_msg_data_with_frag", "src/he/flow.c:he_conn_inside_packet_received"]}
{"id": "C97", "title": "No packet is given to the receiving host more often than it was handed over", "statement": "In the situation of C96, if in addition no message comes out of TLS twice, every packet is given to the receiving host at most as often as the sending host handed it over.", "quantifier": "every pair of histories, every order, loss and delay of messages", "why_tests_cant": "quantifies over all schedules; a duplicate needs a particular order of fragments", "anchors": ["src/he/frag.c:he_internal_fragment_entry_update", "src/he/msg_handlers.c:he_handle_msg_data_with_frag", "src/he/flow.c:he_conn_inside_packet_received"]}
{"id": "C98", "title": "The detailed TLS error explains a TLS failure", "statement": "When an API call other than a connect returns HE_ERR_SSL_ERROR or HE_ERR_SSL_ERROR_NONFATAL, the value he_conn_get_ssl_error then returns is the error TLS reported for the last call made into it, which failed and was made during that same API call; the only exceptions are that a host callback returned the code itself, or that on a stream bytes of an earlier call were still unread, in which case TLS was not called and the detailed error is 0. A connect returns such a code only when TLS refuses the client's server name as a bad argument, and then the detailed error is left as it was.", "quantifier": "every history of API calls, every answer of TLS, of the plugins and of the callbacks, every call", "why_tests_cant": "the error is recorded at six places of the code and read by another function at an arbitrary later time; that it is never stale is a property of every path that can return the code", "anchors": ["src/he/conn.c: he_conn_get_ssl_error, he_conn_set_ssl_error, he_internal_send_message, he_internal_renegotiate_ssl, he_conn_internal_connect", "src/he/flow.c: he_internal_flow_outside_data_verify_connection, he_internal_flow_outside_data_handle_messages", "src/he/core.c: he_internal_setup_stream_state"]}
{"id": "C99", "title": "A scheduled renegotiation takes place exactly when it can", "statement": "After he_conn_schedule_renegotiation the next he_conn_outside_data_received call that reads what there is to read and returns success asks the TLS library to renew the keys, and reports RENEGOTIATION_STARTED, if and only if the connection is ONLINE after what it read, no renegotiation was open before the call, and the library did not answer that renegotiation is unsupported; other calls in between do not change this. The request is then used up whatever the outcome: nothing starts a renegotiation until the host schedules another one. Keys are never renewed otherwise: only within a receive call, ONLINE, with no renegotiation open, and with a request since the last start. he_conn_supports_renegotiation answers once the connection has a TLS object and is undefined before.", "quantifier": "all histories of API calls, all environments (TLS library answers, callbacks), all datagrams or stream chunks and read results", "why_tests_cant": "The request is a flag set in one call and consumed in another, arbitrarily many calls later; a test fixes the calls between and the answers of the TLS library.", "anchors": ["src/he/conn.c:he_conn_schedule_renegotiation", "src/he/conn.c:he_internal_renegotiate_ssl", "src/he/conn.c:he_conn_supports_renegotiation", "src/he/flow.c:he_internal_flow_outside_data_handle_messages"]}
{"id": "C100", "title": "A session outlives every harmless result", "statement": "If a call other than he_conn_disconnect and the connect calls finds the connection in a state other than DISCONNECTING and DISCONNECTED and leaves it in one of these, its result is one that he_conn_is_error_fatal reports as fatal for every connection type. Hence an established session stays ONLINE for as long as all results are harmless, whatever is received, and whatever the TLS library and the callbacks answer: nothing takes a session down behind the host's back.", "quantifier": "all histories of API calls, all environments, all received bytes and read results, both connection types", "why_tests_cant": "Every path that changes the state would have to be exercised with every TLS answer and callback answer; a missed one would take sessions down with a result the host ignores.", "anchors": ["src/he/flow.c:he_conn_outside_data_received", "src/he/conn.c:he_conn_nudge", "src/he/conn.c:he_conn_is_error_fatal", "src/he/msg_handlers.c:he_handle_msg_auth", "src/he/conn.c:he_internal_change_conn_state"]}
{"id": "C101", "title": "No call floods the network", "statement": "Apart from answers to messages that arrive during the call, a call sends at most: nothing for the setters, he_conn_schedule_renegotiation and he_conn_rotate_session_id; one message for connect, disconnect, nudge, keepalive, send_server_config, PMTUD start and PMTUD timeout; for he_conn_inside_packet_received one message per started 496 bytes of the room the outside MTU leaves (and at least one); for he_conn_outside_data_received nothing, or one message if the call finds the connection CONNECTING. A receive call sends at most one message for each message that arrives in it. No call but receive takes messages from the TLS layer. The outside-write callback gets at most three datagrams for each record of the TLS layer.", "quantifier": "every history of API calls, every environment, every further call", "why_tests_cant": "amplification could appear in any state, for any batch of messages and any plugin or callback behaviour", "anchors": ["src/he/flow.c: he_internal_flow_outside_data_handle_messages, he_conn_inside_packet_received", "src/he/msg_handlers.c", "src/he/pmtud.c: he_internal_pmtud_send_probe", "src/he/frag.c: he_internal_frag_and_send_message", "src/he/wolf.c: he_wolf_dtls_write_internal"]}
{"id": "C102", "title": "The TLS layer is told what became of each record", "statement": "When the TLS layer asks for a record to be sent, a record dropped by an outside plugin is reported as sent whole, one refused by a plugin as failed, one passed to outside_write as failed exactly if the last write was refused by the host; the count reported is the record's length, or 1500 for a longer stream record; and sending is reported as failed only for one of these reasons, because the plugins made it too large, or because it does not fit a datagram. When the TLS layer reads, it never gets more bytes than it asked for.", "quantifier": "every record and read request of the TLS layer in every history, every plugin and host behaviour", "why_tests_cant": "plugin answers, write failures, record and buffer sizes combine without bound; a too long read would be a buffer overflow in the TLS layer", "anchors": ["src/he/wolf.c: he_wolf_dtls_write_internal, he_wolf_tls_write_internal, he_wolf_dtls_read, he_wolf_tls_read"]}
{"id": "C103", "title": "A record crosses a pair of matching outside plugin chains", "statement": "Let two datagram connections of the same protocol version carry outside plugin chains such that the receiver's ingress undoes the sender's egress (and egress does not shorten). Every buffer any call on the sender passes to its outside-write callback carries one TLS record (the one whose transmission is then reported to the sender's TLS layer); when exactly that buffer is given to he_conn_outside_data_received on the receiver (not disconnecting or disconnected), all its plugins succeed and its TLS layer is offered exactly that record, under exactly the session id the sender advertised - or, if that id is the reserved value 0xFFFFFFFFFFFFFFFF (always so with roaming disabled), the call returns HE_ERR_REJECTED_SESSION and nothing else happens.", "quantifier": "all sender histories and calls, all records, all receiver states not closing, all pairs of plugin chains that undo each other, all environments on both sides", "why_tests_cant": "plugins are arbitrary host code with arbitrary state; the tests use stub plugins and check that they are called, not that two chains compose with header construction on one side and header parsing on the other for every record and history", "anchors": ["src/he/wolf.c: he_wolf_dtls_write", "src/he/flow.c: he_conn_outside_data_received, he_internal_flow_outside_packet_received", "src/he/plugin_chain.c: he_plugin_ingress, he_plugin_egress", "src/he/wolf.c: he_internal_write_packet_header"]}
{"id": "C104", "title": "NULL arguments are refused before anything happens, and leave no trace", "statement": "Every public function that acts on a connection or an SSL context and returns a code, called with NULL for the object or for any pointer it needs, returns HE_ERR_NULL_POINTER whatever its other arguments and whatever the state, calls no callback and no TLS function, and changes nothing; over any history the object behaves as if those calls had not been made, and he_conn_get_context returns the pointer most recently set successfully. Functions returning a value answer 'none / not set / 0 / default MTU / fatal' for NULL. Exceptions, stated and proved: he_ssl_ctx_is_server_cert_key_set(NULL) is true, he_ssl_ctx_get_padding_type(NULL) is not a padding type, he_conn_is_valid_client(NULL, conn) can succeed. With real pointers each call is the call on the object, with its effect and its answer; over any history of calls on a context, too, it is as if those with NULL arguments had not been made. he_init and he_cleanup succeed exactly when the TLS library's own start and stop do.", "quantifier": "all public functions, all combinations of NULL and other arguments, all states, all histories mixing NULL and real calls", "why_tests_cant": "tests call each function once with NULL on a fresh object; that a refused call leaves no trace must hold in every state and at every point of a history", "anchors": ["src/he/conn.c: he_conn_* NULL checks, he_conn_set_context, he_conn_get_context", "src/he/flow.c: he_conn_inside_packet_received, he_conn_outside_data_received", "src/he/ssl_ctx.c: he_ssl_ctx_* NULL checks", "src/he/config.c: he_internal_set_config_string", "src/he/client.c", "src/he/plugin_chain.c: he_plugin_register_plugin"]}
{"id": "C105", "title": "A client's credentials show nowhere but inside the AUTH message", "statement": "Let two clients make the same sequence of API calls, differing only in the values of user name, password, auth token or auth buffer (same lengths). If the TLS library, the callbacks and the plugins do not themselves look inside the AUTH message, then the two runs are indistinguishable from outside the TLS library: every call returns the same code, the states, events, timers and callbacks with their arguments are the same, the same packets are delivered and the same datagrams go to the network; and the messages given to the TLS library differ in nothing but the credential bytes of the AUTH message.", "quantifier": "all pairs of call sequences of a client that agree up to the credential bytes, all received data and TLS-library answers, all sealed environments and plugin chains", "why_tests_cant": "it compares two runs (noninterference): a leak may depend on a particular history, error path, retransmission or credential value; a test sees one run at a time", "anchors": ["src/he/conn.c: he_internal_send_auth, he_conn_set_username, he_conn_set_password, he_conn_set_auth_token, he_conn_set_auth_buffer", "src/he/flow.c", "src/he/msg_handlers.c", "src/he/wolf.c"]}
{"id": "C106", "title": "A server lets credentials out only to the authentication callback", "statement": "Let two connections (servers or clients) make the same calls and receive the same data, except that the bytes of the credentials - in the AUTH messages that arrive, or in the client's setters - differ (same lengths, same NUL positions). If the authentication callbacks give the same verdicts and neither the TLS library nor the other callbacks nor the plugins look at those bytes, then the two runs differ in nothing but those bytes in the decrypted AUTH message, in the AUTH message given to the TLS library, and in the arguments of the authentication callbacks: every return code, state, event, other callback, delivered packet and datagram on the network is the same.", "quantifier": "all pairs of call sequences (either role) that agree up to the credential bytes, all received data, TLS-library answers and callback verdicts, all sealed environments and plugin chains", "why_tests_cant": "it compares two runs (noninterference): a leak may depend on a particular history, error path or credential value; a test sees one run at a time", "anchors": ["src/he/msg_handlers.c: he_handle_msg_auth, he_handle_msg_config_ipv4", "src/he/conn.c: he_internal_send_auth", "src/he/flow.c", "src/he/wolf.c"]}
{"id": "C107", "title": "The contents of tunnelled packets show nowhere but inside DATA messages", "statement": "Let two connections make the same calls and receive the same data, except that the packets handed to he_conn_inside_packet_received differ in their bytes (same lengths, same first byte). If the TLS library, the callbacks and the outside plugins do not look inside the messages and there is no inside plugin, the two runs give the same results, states, events, callbacks and the same datagrams on the network; the messages given to the TLS library differ in the packets they carry only. Fragmentation, MSS clamping, identifiers, timers and path-MTU discovery do not depend on packet contents.", "quantifier": "all pairs of call sequences (either role) that agree up to packet contents, all received data, TLS-library answers and environments that do not look inside messages", "why_tests_cant": "it compares two runs (noninterference): contents could influence a branch only for particular headers, lengths or histories", "anchors": ["src/he/flow.c: he_conn_inside_packet_received", "src/he/mss.c: he_internal_clamp_mss", "src/he/frag.c: he_internal_frag_and_send_message"]}
{"id": "C108", "title": "Padding hides packet lengths from the network", "statement": "After a connect call with a context that asks for padding, two runs whose packets differ in contents and in lengths that are padded alike - under HE_PADDING_FULL any two lengths from 20 to n, under HE_PADDING_450 two lengths of the same class - are indistinguishable outside the TLS library: same results, states, events, callbacks and datagrams. Here n is below 1350, on datagram connections at most 506 (the least path MTU discovery can settle on, so that none of these packets is ever fragmented), and fits the configured outside MTU.", "quantifier": "all pairs of call sequences that agree up to contents and padded length of the packets, all contexts, received data, path-MTU outcomes, TLS-library answers", "why_tests_cant": "it compares two runs over all packet lengths and histories", "anchors": ["src/he/conn.c: he_internal_calculate_data_packet_length", "src/he/flow.c: he_conn_inside_packet_received"]}
{"id": "C109", "title": "Exact fate of every TLS record, with any outside plugins", "statement": "Whatever outside plugins are registered, every record TLS asks the connection to send meets exactly one fate. On a datagram connection a record over 1484 bytes is refused before any plugin sees it; otherwise the 16-byte header followed by the record - on a stream the first 1500 bytes of the record - goes through the plugins' egress functions, last registered first. If one drops it nothing is transmitted and TLS is told it was sent; if one fails, or the result exceeds 1500 bytes, nothing is transmitted and TLS is told it failed; otherwise the plugins' result is handed to the outside-write callback: once on a stream and once on an ONLINE non-aggressive datagram connection, else three times, stopping at the first refusal, which TLS is told.", "quantifier": "all histories, calls, TLS-library answers, plugins (arbitrary functions of the history), record contents and callback answers", "why_tests_cant": "plugins are arbitrary code and records arbitrary bytes; every combination of verdicts, lengths, state and transport must behave so", "anchors": ["src/he/wolf.c: he_wolf_dtls_write", "src/he/wolf.c: he_wolf_tls_write", "src/he/plugin_chain.c: he_plugin_egress"]}
{"id": "C110", "title": "The host is handed exactly what the inside plugins made of the received packet", "statement": "Whatever inside plugins are registered, every packet handed to the host through the inside-write callback is the result of running the plugins' egress functions, last registered first, all reporting success, with a capacity of exactly the inner packet, on the inner packet of the message being processed: the payload of a data message (length read in the byte order of the protocol version), or a packet of at most 1500 bytes put together from fragments that arrived for the slot since it was last emptied - the original packet if those fragments all belong to it. It is a valid IPv4 packet and not longer than the inner packet.", "quantifier": "all histories, calls, received bytes, plugins (arbitrary functions of the history), TLS-library and callback answers", "why_tests_cant": "plugins are arbitrary code and the delivered packet depends on the whole history of received fragments", "anchors": ["src/he/msg_handlers.c: internal_handle_data", "src/he/msg_handlers.c: he_handle_msg_data_with_frag", "src/he/plugin_chain.c: he_plugin_egress"]}
{"id": "C111", "title": "The contents of received packets show nowhere but at the host", "statement": "Let two connections make the same calls and receive the same messages, except that the tunnelled packets differ in their bytes, in either direction: packets handed to he_conn_inside_packet_received, and packets that arrive in DATA messages (both encodings) or in fragments (same lengths, same IP version, same fragment headers). If the TLS library, the callbacks and the outside plugins do not act on those bytes and there is no inside plugin, the two runs give the same results, states, events, callbacks and the same datagrams on the network, and the packets handed to the inside-write callback have the same lengths in the same places. So a received packet cannot influence what the library does or sends: its bytes come out in the inside-write callback and nowhere else.", "quantifier": "all pairs of histories (either role, any number of calls, any received data, reassembly state and TLS-library answers) that agree up to packet contents, and all environments that do not act on contents", "why_tests_cant": "it compares two runs (noninterference): contents could influence a branch, a timer or a reply only for particular headers, lengths, fragment orders or histories", "anchors": ["src/he/msg_handlers.c: he_handle_msg_data", "src/he/msg_handlers.c: he_handle_msg_data_with_frag", "src/he/msg_handlers.c: he_handle_msg_deprecated_13", "src/he/frag.c: he_internal_fragment_table", "src/he/flow.c: he_internal_flow_outside_data_handle_messages"]}
{"id": "C112", "title": "A receive buffer is read during its call, unless TLS left it unread", "statement": "he_conn_outside_data_received keeps a pointer to the host's buffer instead of copying it. On a datagram connection, whenever the TLS library obtains a datagram, the call that brought it has not returned, unless a call has returned since with the datagram still unfetched; so if TLS fetches (or is told to drop) every datagram within its call, no buffer is ever read late. On a stream connection, a call other than a receive call made when all bytes have been fetched fetches nothing. The exceptions are real on both transports: after a receive call that returned success without TLS having read, the next nudge reads the old buffer, which the host may have reused or freed.", "quantifier": "all histories on a datagram (stream) connection: every sequence of calls, received data and TLS-library behaviour", "why_tests_cant": "the late read needs a TLS library that stops before reading (a pending write, an error) and a later call; test doubles always read at once, and nothing crashes when the buffer still exists", "anchors": ["src/he/wolf.c: he_wolf_dtls_read", "src/he/wolf.c: he_wolf_tls_read", "src/he/flow.c: he_internal_flow_outside_packet_received", "src/he/core.c: he_internal_setup_stream_state"]}
{"id": "C113", "title": "In the multithreaded build every thread receives as if it were alone", "statement": "In the build with HE_ENABLE_MULTITHREADED, however the threads interleave, the TLS library running on a thread obtains only the datagram that this thread accepted last, at most once, whole or not at all; he_conn_get_ssl_error on a thread reports the error that thread recorded last; and every thread gets exactly the answers a connection of the ordinary build used by that thread alone would give. If a thread serves one connection only, what it fetches was accepted for that connection. With several connections on a thread this fails: a datagram accepted for one and left unfetched is given to the TLS object of another, and the error reported for one connection can be the other's.", "quantifier": "all numbers of threads and connections and all interleavings of accepting a datagram, reading, recording and reading the error", "why_tests_cant": "interleavings and the order of calls on several connections are chosen by the scheduler and the hosts; the unit tests run one thread and one connection", "anchors": ["src/he/flow.h: he_internal_set_packet", "src/he/flow.h: he_internal_is_pkt_available", "src/he/wolf.c: he_wolf_dtls_read", "src/he/conn.c: he_conn_set_ssl_error", "src/he/conn.c: he_conn_get_ssl_error"]}
{"id": "C114", "title": "Identifiers chosen by several threads", "statement": "In the multithreaded build, whatever threads send packets in fragments on a connection and however they interleave, the packets get consecutive 16-bit identifiers in the order the threads took them, so that no two of any 65536 packets in a row share one. For keepalives and MTU probes this holds only as long as no thread chooses an identifier while another does: two threads may send two pings with the same identifier, and a lagging thread sets the counter back over the pings sent meanwhile.", "quantifier": "all interleavings of the accesses of any number of threads, any initial counters", "why_tests_cant": "a test exercises the interleavings its machine happens to produce; a wrap or a lost increment is rare", "anchors": ["src/he/frag.c: he_internal_frag_and_send_message", "src/he/conn.c: he_conn_send_keepalive", "src/he/pmtud.c: he_internal_pmtud_send_probe", "src/he/he_internal.h: frag_next_id, ping_next_id"]}
{"id": "C115", "title": "Disconnecting from several threads", "statement": "In the multithreaded build, if any number of threads call he_conn_disconnect on a connection that is LINK_UP, AUTHENTICATING, CONFIGURING or ONLINE, and nothing else changes its state, then under every interleaving, once all calls have returned, at least one has returned success, the connection is DISCONNECTED and the host has been told so. More than that does not hold: both of two calls may succeed and report DISCONNECTED twice, the host may be told DISCONNECTING last, and a thread that is handling an accepted login or a configuration sets ONLINE after he_conn_disconnect has returned success.", "quantifier": "all interleavings of the accesses to the connection state and the callbacks, any number of threads", "why_tests_cant": "a test exercises the interleavings its machine happens to produce", "anchors": ["src/he/conn.c: he_conn_disconnect, he_internal_change_conn_state", "src/he/msg_handlers.c: he_handle_msg_config_ipv4, he_handle_msg_auth"]}
{"id": "C116", "title": "Callbacks that inform the host change nothing else", "statement": "The state-change, event and nudge-time callbacks return nothing, and whether a host registers them or not changes nothing else: the same calls return the same codes, the connection passes through the same states, the other callbacks are called with the same arguments in the same order, the same packets are delivered, the same datagrams are sent, and afterwards the connection differs in the callback pointers and the awaiting-nudge flag only.", "quantifier": "every client and server run, every list of API calls, every choice of the three callbacks for each connect, every behaviour of the TLS library, network, clock, random generator, allocator, other callbacks and plugins that does not itself react to the three callbacks", "why_tests_cant": "a missing null check or a step done only inside an if (callback) branch shows only for the callback left out, at one of many call sites, in one state; a test compares a few runs, not every run with its counterpart", "anchors": ["src/he/conn.c: he_internal_change_conn_state, he_internal_generate_event, he_internal_update_timeout, he_conn_nudge", "src/he/ssl_ctx.c: he_ssl_ctx_set_state_change_cb, he_ssl_ctx_set_event_cb, he_ssl_ctx_set_nudge_time_cb"]}
{"id": "C117", "title": "Write callbacks and a disconnect made by another thread", "statement": "In the multithreaded build a thread calls a write callback only after finding it registered. It calls a NULL pointer only if another thread's he_conn_disconnect cleared the pointer after it had found it set; without a disconnect, or when calls are made one after the other, that never happens in any schedule; a function that looks after the pointer was cleared makes no call. With a concurrent disconnect it does happen: between the test and the call that delivers a packet, and between the copies of a datagram sent three times.", "quantifier": "every number of threads delivering packets, sending datagrams or records and disconnecting, every schedule of their accesses, every answer of the host's callbacks", "why_tests_cant": "the window between the test and the call is a few instructions; a test cannot place another thread's disconnect there, and cannot show that no schedule without a disconnect is unsafe", "anchors": ["src/he/wolf.c: he_wolf_dtls_write, he_wolf_tls_write", "src/he/msg_handlers.c: internal_handle_data (from he_handle_msg_data, he_handle_msg_data_with_frag)", "src/he/conn.c: he_conn_disconnect"]}
{"id": "C118", "title": "Fragments handled by several threads at once", "statement": "In the multithreaded build, fragments of one connection may be handled by several threads at the same time provided no two of them fall into the same slot of the fragment table (identifier modulo the number of slots): then every thread leaves its slot, hands over its packet and ends exactly as it would alone, and as the single-threaded build would, whatever the schedule. Calls made one after the other by different threads give exactly the single-threaded table and packets, and no memory is used after it was freed. (Two fragments of one packet handled at once may lose the packet and leak an entry, or use and free an entry that was freed: witnesses.)", "quantifier": "every table size, table contents, set of fragments, number of threads and schedule of their accesses", "why_tests_cant": "the number of interleavings is unbounded and the bad ones need a switch between two adjacent instructions", "anchors": ["src/he/frag.c:he_internal_fragment_table_find", "src/he/frag.c:he_internal_fragment_table_delete", "src/he/frag.c:he_fragment_entry_update", "src/he/msg_handlers.c:he_handle_msg_data_with_frag"]}
{"id": "C119", "title": "Session identifiers of a server used by several threads", "statement": "In the multithreaded build, whatever threads send, receive and start rotations on one server connection at the same time, the identifier in use is always one the server had at the start or drew, a header carries one of those or the empty identifier, and the empty one only if a confirmation of the pending identifier falls between the sender's test and its copy - and a client that gets it keeps the identifier it has. With one receiving and one rotating thread (and any number of senders) identifiers are taken into use in the order the rotations succeeded, none is lost or taken twice, the connection never goes back to an older one and the host is told of each. A call that no other interrupts does what the single-threaded build does. (With two receivers a rotation reported as successful may be forgotten and the connection may go back to an identifier it left; two rotations at once may both succeed: witnesses.)", "quantifier": "every number of threads, every list of calls for each, every identifier arriving or drawn, every schedule of their accesses", "why_tests_cant": "the number of interleavings is unbounded and the bad ones need a switch between two adjacent instructions", "anchors": ["src/he/wolf.c:he_internal_write_packet_header", "src/he/flow.c:he_internal_update_session_incoming", "src/he/conn.c:he_conn_rotate_session_id"]}
{"id": "C120", "title": "Copying a text into a fixed buffer always leaves a terminated text and nothing behind the size changes", "statement": "he_safe_strncpy(dst, src, size), for any non-zero size not larger than the buffer: the buffer then holds the text of src if it is shorter than size, otherwise its first size-1 bytes; it is terminated within size bytes; all bytes between the text and size are zero (nothing of the old contents remains there) and every byte from size on is as before.", "quantifier": "all buffers, all texts (with NUL bytes anywhere), all sizes from 1 to the length of the buffer", "why_tests_cant": "tests try a handful of lengths; the claim is about every byte for every length, at and around the boundary", "anchors": ["src/he/utils.c:he_safe_strncpy", "src/he/utils.h:he_safe_strncpy"]}
{"id": "C121", "title": "The nudge time and the nudge timer under several threads", "statement": "In the multithreaded build, if one thread does all the calls that update the nudge time (receives and nudges) while any number of other threads read it with he_conn_get_nudge_time, every time the nudge callback is given is exactly the TLS library's last answer times 100 (divided by 4 when it asks for the quick time-out), the host is never told to start a timer while one is outstanding, and a reader gets the exact time or one that the update under way has not finished scaling; between updates the time is exact and a timer is outstanding. With n updating threads no time given or read exceeds the largest answer times 100^n. An uninterrupted update leaves and tells what the single-threaded build does. Otherwise, as shown by executions: the time may be multiplied twice, be read unscaled, two timers may be started, and a timer may be lost so that no update ever starts another.", "quantifier": "every schedule of the threads' accesses, every number of threads and calls, every sequence of answers of the TLS library", "why_tests_cant": "the outcome depends on the interleaving of single accesses, which a test cannot enumerate or force", "anchors": ["src/he/conn.c:he_internal_update_timeout", "src/he/conn.c:he_conn_nudge", "src/he/conn.c:he_conn_get_nudge_time"]}
{"id": "C122", "title": "The MTU text of a network configuration is read the same way whatever it contains", "statement": "For every CONFIG_IPV4 message a client accepts, the MTU given to the network configuration callback is determined by the first 23 characters of the message's MTU field: white space is skipped, an optional sign and the longest run of digits are read; if there are no digits the MTU is 1350; otherwise it is the low 32 bits of the number (capped at 2^64-1, negated in 64 bits) when these are from 1 to 1350, and 1350 otherwise. In particular a plain decimal number from 1 to 1350 is taken as it is and one from 1351 to 2^32 becomes 1350; but a number whose upper half is lost (4294968296) or a negative one (-4294966296) can be taken for an MTU of 1000.", "quantifier": "every execution, every configuration message and every text in its MTU field", "why_tests_cant": "all texts a server may send, including overlong, signed and overflowing numbers", "anchors": ["src/he/msg_handlers.c:he_handle_msg_config_ipv4"]}
{"id": "C123", "title": "Renegotiations under several threads", "statement": "In the multithreaded build, if one thread does all the receiving while any number of other threads ask for renegotiations with he_conn_schedule_renegotiation, SECURE_RENEGOTIATION_STARTED and SECURE_RENEGOTIATION_COMPLETED events alternate beginning with a start, the TLS library is never told to begin a renegotiation while another is announced and never more often than the host asked, and between receives a renegotiation counts as in progress exactly if it was announced and its end was not. With any number of receiving threads the library is told to begin only after a request, and the host is told of a start or an end only after the library was told to begin; but, as executions show, one request may begin two renegotiations, an end may be announced before its start or twice, and the end of a renegotiation may never be announced.", "quantifier": "every schedule of the threads' accesses, every number of threads and calls, every answer of the TLS library", "why_tests_cant": "the outcome depends on the interleaving of single accesses, which a test cannot enumerate or force", "anchors": ["src/he/conn.c:he_internal_renegotiate_ssl", "src/he/conn.c:he_conn_schedule_renegotiation", "src/he/flow.c:he_internal_flow_outside_data_handle_messages"]}
