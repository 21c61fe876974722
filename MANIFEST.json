{
 "claims": [
  {
   "property": "C01",
   "status": "proved",
   "theorems": [
    "Lightway.C01_inside_write_only_online"
   ],
   "note": ""
  },
  {
   "property": "C02",
   "status": "proved",
   "theorems": [
    "Lightway.C02_server_online_needs_approval"
   ],
   "note": ""
  },
  {
   "property": "C03",
   "status": "proved",
   "theorems": [
    "Lightway.C03_client_online_needs_config"
   ],
   "note": ""
  },
  {
   "property": "C04",
   "status": "proved",
   "theorems": [
    "Lightway.C04_lifecycle",
    "Lightway.C04_state_reported"
   ],
   "note": ""
  },
  {
   "property": "C05",
   "status": "proved",
   "theorems": [
    "Lightway.C05_denied_is_disconnecting",
    "Lightway.C05_no_return_from_disconnecting"
   ],
   "note": ""
  },
  {
   "property": "C06",
   "status": "proved",
   "theorems": [
    "Lightway.C06_silence_after_disconnect"
   ],
   "note": ""
  },
  {
   "property": "C07",
   "status": "proved",
   "theorems": [
    "Lightway.C07_refused_without_effect"
   ],
   "note": ""
  },
  {
   "property": "C08",
   "status": "proved",
   "theorems": [
    "Lightway.C08_callbacks_by_role",
    "Lightway.C08_foreign_messages_ignored"
   ],
   "note": ""
  },
  {
   "property": "C09",
   "status": "proved",
   "theorems": [
    "Lightway.C09_round_trip"
   ],
   "note": ""
  },
  {
   "property": "C10",
   "status": "proved",
   "theorems": [
    "Lightway.C10_padding"
   ],
   "note": ""
  },
  {
   "property": "C11",
   "status": "proved",
   "theorems": [
    "Lightway.C11_fragments_partition"
   ],
   "note": ""
  },
  {
   "property": "C12",
   "status": "proved",
   "theorems": [
    "Lightway.C12_end_to_end",
    "Lightway.C12_growth_order_delivers"
   ],
   "note": "In-order arrival. Other orders: C79."
  },
  {
   "property": "C13",
   "status": "partial",
   "theorems": [
    "Lightway.C13_gap_never_fills",
    "Lightway.C13_two_fragments_partial"
   ],
   "note": "The claim is false of the code: once a later fragment has left a hole, the packet is never delivered (C13_gap_never_fills). Proved: two fragments in either order when the second closes the list; C79 gives the exact set of arrival orders that deliver, for any number of fragments."
  },
  {
   "property": "C14",
   "status": "proved",
   "theorems": [
    "Lightway.C14_never_corrupt"
   ],
   "note": "Without inside plugins; with plugins C110 says the same of the packet they are given."
  },
  {
   "property": "C15",
   "status": "proved",
   "theorems": [
    "Lightway.C15_no_stale_data"
   ],
   "note": ""
  },
  {
   "property": "C16",
   "status": "partial",
   "theorems": [
    "Lightway.C16_no_mixing_partial",
    "Lightway.C16_small_table_mixes"
   ],
   "note": "True when the table has 65536 slots (C16_no_mixing_partial); false for smaller tables, witness C16_small_table_mixes."
  },
  {
   "property": "C17",
   "status": "proved",
   "theorems": [
    "Lightway.C17_expiry"
   ],
   "note": ""
  },
  {
   "property": "C18",
   "status": "proved",
   "theorems": [
    "Lightway.C18_memory_safe",
    "Lightway.C18_needs_allocation"
   ],
   "note": ""
  },
  {
   "property": "C19",
   "status": "proved",
   "theorems": [
    "Lightway.C19_only_mss_and_checksum"
   ],
   "note": ""
  },
  {
   "property": "C20",
   "status": "partial",
   "theorems": [
    "Lightway.C20_checksum_kept_partial",
    "Lightway.C20_odd_offset_breaks"
   ],
   "note": "True when the MSS value sits at an even offset of the TCP header (C20_checksum_kept_partial); false for odd offsets, witness C20_odd_offset_breaks."
  },
  {
   "property": "C21",
   "status": "proved",
   "theorems": [
    "Lightway.C21_in_bounds"
   ],
   "note": ""
  },
  {
   "property": "C22",
   "status": "proved",
   "theorems": [
    "Lightway.C22_checksum_exact"
   ],
   "note": ""
  },
  {
   "property": "C23",
   "status": "proved",
   "theorems": [
    "Lightway.C23_header_round_trip"
   ],
   "note": ""
  },
  {
   "property": "C24",
   "status": "proved",
   "theorems": [
    "Lightway.C24_unrecognised_dropped"
   ],
   "note": ""
  },
  {
   "property": "C25",
   "status": "proved",
   "theorems": [
    "Lightway.C25_datagrams_well_formed"
   ],
   "note": ""
  },
  {
   "property": "C26",
   "status": "proved",
   "theorems": [
    "Lightway.C26_at_most_once_per_call",
    "Lightway.C26_input_is_payload",
    "Lightway.C26_payload_taken_once",
    "Lightway.C26_too_large_dropped"
   ],
   "note": ""
  },
  {
   "property": "C27",
   "status": "proved",
   "theorems": [
    "Lightway.C27_read_prefix",
    "Lightway.C27_unread_refused"
   ],
   "note": ""
  },
  {
   "property": "C28",
   "status": "proved",
   "theorems": [
    "Lightway.C28_each_record",
    "Lightway.C28_stream_output"
   ],
   "note": ""
  },
  {
   "property": "C29",
   "status": "proved",
   "theorems": [
    "Lightway.C29_triple_transmission"
   ],
   "note": "Without outside plugins; with plugins see C109."
  },
  {
   "property": "C30",
   "status": "proved",
   "theorems": [
    "Lightway.C30_pending_adopted",
    "Lightway.C30_server_session_changes",
    "Lightway.C30_unknown_session_refused"
   ],
   "note": ""
  },
  {
   "property": "C31",
   "status": "proved",
   "theorems": [
    "Lightway.C31_client_session_changes"
   ],
   "note": ""
  },
  {
   "property": "C32",
   "status": "proved",
   "theorems": [
    "Lightway.C32_acknowledged_means_heard",
    "Lightway.C32_converges",
    "Lightway.C32_delayed_datagram_reverts",
    "Lightway.C32_ids_are_the_servers"
   ],
   "note": "C32_delayed_datagram_reverts is the limit of the claim: a delayed datagram with the old identifier makes the client go back to it."
  },
  {
   "property": "C33",
   "status": "partial",
   "theorems": [
    "Lightway.C33_refused_until_acknowledged_partial",
    "Lightway.C33_rotation_guarded",
    "Lightway.C33_second_rotation_refused",
    "Lightway.C33_zero_id_not_pending"
   ],
   "note": "Everything is proved for a generator that does not yield 0; with 0 the call reports success but nothing is pending (C33_zero_id_not_pending)."
  },
  {
   "property": "C34",
   "status": "proved",
   "theorems": [
    "Lightway.C34_range",
    "Lightway.C34_range_any",
    "Lightway.C34_range_any_sharp"
   ],
   "note": "C34_range: histories in which no connect call follows the start of discovery. C34_range_any: every history, bounds 506 and 1416, both reached (C34_range_any_sharp)."
  },
  {
   "property": "C35",
   "status": "proved",
   "theorems": [
    "Lightway.C35_bursts",
    "Lightway.C35_fresh",
    "Lightway.C35_identifiers",
    "Lightway.C35_probe_size"
   ],
   "note": "The burst bound assumes no connect call after discovery was started; identifiers, sizes and freshness hold in every history."
  },
  {
   "property": "C36",
   "status": "partial",
   "theorems": [
    "Lightway.C36_acknowledged_partial",
    "Lightway.C36_forged",
    "Lightway.C36_unacknowledged"
   ],
   "note": "False for the value 1250 (C36_unacknowledged) and after a forged PONG with identifier 0 (C36_forged). Proved for every other value when no PONG with identifier 0 arrived."
  },
  {
   "property": "C37",
   "status": "proved",
   "theorems": [
    "Lightway.C37_search_ends"
   ],
   "note": "Hypothesis ConnectedOnce: no connect call after discovery was started."
  },
  {
   "property": "C38",
   "status": "proved",
   "theorems": [
    "Lightway.C38_never_stalls",
    "Lightway.C38_stalls_after_reconnect"
   ],
   "note": "The hypothesis ConnectedOnce is needed: C38_stalls_after_reconnect."
  },
  {
   "property": "C39",
   "status": "partial",
   "theorems": [
    "Lightway.C39_small_pmtu_blocks",
    "Lightway.C39_small_pmtu_reachable",
    "Lightway.C39_usable_partial"
   ],
   "note": "False for every effective PMTU below 552 (C39_small_pmtu_blocks, reachable by C39_small_pmtu_reachable); proved for 552 and more."
  },
  {
   "property": "C40",
   "status": "proved",
   "theorems": [
    "Lightway.C40_pong_event"
   ],
   "note": ""
  },
  {
   "property": "C41",
   "status": "proved",
   "theorems": [
    "Lightway.C41_ping_answer",
    "Lightway.C41_round_trip"
   ],
   "note": ""
  },
  {
   "property": "C42",
   "status": "proved",
   "theorems": [
    "Lightway.C42_credentials_arrive"
   ],
   "note": ""
  },
  {
   "property": "C43",
   "status": "partial",
   "theorems": [
    "Lightway.C43_configured_values_partial",
    "Lightway.C43_fifty_characters",
    "Lightway.C43_server_dn_partial",
    "Lightway.C43_text_setters_partial"
   ],
   "note": "False for texts of exactly 50 characters (C43_fifty_characters); proved for all others, over every history."
  },
  {
   "property": "C44",
   "status": "proved",
   "theorems": [
    "Lightway.C44_client_validity",
    "Lightway.C44_context_validity",
    "Lightway.C44_invalid_refused",
    "Lightway.C44_server_validity"
   ],
   "note": ""
  },
  {
   "property": "C45",
   "status": "proved",
   "theorems": [
    "Lightway.C45_one_nudge_timer"
   ],
   "note": ""
  },
  {
   "property": "C46",
   "status": "proved",
   "theorems": [
    "Lightway.C46_timer_outstanding"
   ],
   "note": ""
  },
  {
   "property": "C47",
   "status": "proved",
   "theorems": [
    "Lightway.C47_same_credentials"
   ],
   "note": ""
  },
  {
   "property": "C48",
   "status": "proved",
   "theorems": [
    "Lightway.C48_completed",
    "Lightway.C48_started"
   ],
   "note": ""
  },
  {
   "property": "C49",
   "status": "proved",
   "theorems": [
    "Lightway.C49_first_message_once"
   ],
   "note": ""
  },
  {
   "property": "C50",
   "status": "proved",
   "theorems": [
    "Lightway.C50_config_sane"
   ],
   "note": ""
  },
  {
   "property": "C51",
   "status": "proved",
   "theorems": [
    "Lightway.C51_config_arrives",
    "Lightway.C51_config_sent"
   ],
   "note": ""
  },
  {
   "property": "C52",
   "status": "proved",
   "theorems": [
    "Lightway.C52_setters",
    "Lightway.C52_supported_interval"
   ],
   "note": ""
  },
  {
   "property": "C53",
   "status": "proved",
   "theorems": [
    "Lightway.C53_inverse",
    "Lightway.C53_order"
   ],
   "note": ""
  },
  {
   "property": "C54",
   "status": "proved",
   "theorems": [
    "Lightway.C54_classification",
    "Lightway.C54_refused_datagrams",
    "Lightway.C54_stream_stricter"
   ],
   "note": ""
  },
  {
   "property": "C55",
   "status": "proved",
   "theorems": [
    "Lightway.C55_arrives",
    "Lightway.C55_refused"
   ],
   "note": ""
  },
  {
   "property": "C56",
   "status": "partial",
   "theorems": [
    "Lightway.C56_ch_frag_unnamed",
    "Lightway.C56_names",
    "Lightway.C56_return_codes_partial"
   ],
   "note": "False for HE_ERR_CANNOT_ENABLE_CH_FRAG (C56_ch_frag_unnamed); proved for all other codes and for the other four tables in full."
  },
  {
   "property": "C57",
   "status": "proved",
   "theorems": [
    "Lightway.C57_table_size"
   ],
   "note": ""
  },
  {
   "property": "C58",
   "status": "partial",
   "theorems": [
    "Lightway.C58_fragments_fit_partial",
    "Lightway.C58_large_mtu_refused_by_peer"
   ],
   "note": "False for an outside MTU above 1614 (C58_large_mtu_refused_by_peer); proved up to 1614."
  },
  {
   "property": "C59",
   "status": "partial",
   "theorems": [
    "Lightway.C59_disabled_roaming_rejected",
    "Lightway.C59_enabled_roaming_accepted_partial"
   ],
   "note": "False: the header of a roaming-disabled sender carries the reject identifier and every peer running this code refuses it (C59_disabled_roaming_rejected). Proved with roaming enabled."
  },
  {
   "property": "C60",
   "status": "proved",
   "theorems": [
    "Lightway.C60_connect_restarts",
    "Lightway.C60_witness"
   ],
   "note": ""
  },
  {
   "property": "C61",
   "status": "proved",
   "theorems": [
    "Lightway.C61_set_after_start",
    "Lightway.C61_start_resets_bounds"
   ],
   "note": ""
  },
  {
   "property": "C62",
   "status": "partial",
   "theorems": [
    "Lightway.C62_terminated_partial",
    "Lightway.C62_unterminated_possible"
   ],
   "note": "Proved for AUTH messages made by this library's client; for an arbitrary peer it is false (C62_unterminated_possible)."
  },
  {
   "property": "C63",
   "status": "proved",
   "theorems": [
    "Lightway.C63_password_wiped",
    "Lightway.C63_username_stored"
   ],
   "note": ""
  },
  {
   "property": "C64",
   "status": "proved",
   "theorems": [
    "Lightway.C64_ack_race",
    "Lightway.C64_first_message_once",
    "Lightway.C64_nudge_race",
    "Lightway.C64_session_id"
   ],
   "note": "Model of interleavings of the multithreaded build's atomic accesses (Model/Conc.lean); the rest of the model is the single-threaded build."
  },
  {
   "property": "C65",
   "status": "proved",
   "theorems": [
    "Lightway.C65_figures",
    "Lightway.C65_in_chain",
    "Lightway.C65_stats_transparent"
   ],
   "note": ""
  },
  {
   "property": "C66",
   "status": "proved",
   "theorems": [
    "Lightway.C66_auth_callback_args",
    "Lightway.C66_short_auth_refused"
   ],
   "note": ""
  },
  {
   "property": "C67",
   "status": "proved",
   "theorems": [
    "Lightway.C67_denied_client",
    "Lightway.C67_denied_server"
   ],
   "note": ""
  },
  {
   "property": "C68",
   "status": "partial",
   "theorems": [
    "Lightway.C68_check_too_strict",
    "Lightway.C68_config_check_partial",
    "Lightway.C68_connect_order",
    "Lightway.C68_create"
   ],
   "note": "Creation and order of steps proved in full; the pre-check is exact unless a protocol version was chosen before the first start, where it is too strict (C68_check_too_strict)."
  },
  {
   "property": "C69",
   "status": "proved",
   "theorems": [
    "Lightway.C69_delivered_is_ipv4_payload"
   ],
   "note": "With inside plugins the last clause is given by C110."
  },
  {
   "property": "C70",
   "status": "proved",
   "theorems": [
    "Lightway.C70_sent_in_order"
   ],
   "note": ""
  },
  {
   "property": "C71",
   "status": "proved",
   "theorems": [
    "Lightway.C71_refusal_ends_the_call",
    "Lightway.C71_refused_goes_nowhere"
   ],
   "note": ""
  },
  {
   "property": "C72",
   "status": "proved",
   "theorems": [
    "Lightway.C72_disconnect"
   ],
   "note": ""
  },
  {
   "property": "C73",
   "status": "proved",
   "theorems": [
    "Lightway.C73_turned_away"
   ],
   "note": ""
  },
  {
   "property": "C74",
   "status": "proved",
   "theorems": [
    "Lightway.C74_in_order"
   ],
   "note": ""
  },
  {
   "property": "C75",
   "status": "proved",
   "theorems": [
    "Lightway.C75_handshake_step",
    "Lightway.C75_link_needs_handshake",
    "Lightway.C75_messages_need_link"
   ],
   "note": ""
  },
  {
   "property": "C76",
   "status": "proved",
   "theorems": [
    "Lightway.C76_logs_in",
    "Lightway.C76_nudge"
   ],
   "note": ""
  },
  {
   "property": "C77",
   "status": "proved",
   "theorems": [
    "Lightway.C77_connect_course"
   ],
   "note": ""
  },
  {
   "property": "C78",
   "status": "proved",
   "theorems": [
    "Lightway.C78_settings"
   ],
   "note": ""
  },
  {
   "property": "C79",
   "status": "proved",
   "theorems": [
    "Lightway.C79_order_decides"
   ],
   "note": "Exact: delivered if and only if the fragments arrive in an order whose placed part always grows contiguously as the specification says."
  },
  {
   "property": "C80",
   "status": "proved",
   "theorems": [
    "Lightway.C80_memory_safe",
    "Lightway.C80_record_allocation_unchecked"
   ],
   "note": "Pointer-level heap model. Any allocation may fail except that of a fragment record (src/he/frag.c does not check it; C80_record_allocation_unchecked proves the undefined behaviour)."
  },
  {
   "property": "C81",
   "status": "partial",
   "theorems": [
    "Lightway.C81_clean_case",
    "Lightway.C81_reconnect_leaks",
    "Lightway.C81_released_partial",
    "Lightway.C81_reordering_leaks",
    "Lightway.C81_unbounded_growth"
   ],
   "note": "Full statement is false: C81_reordering_leaks, C81_reconnect_leaks and C81_unbounded_growth are proved counterexamples; C81_released_partial proves it for histories without a second start, a second connect, or a fragment that joins a held range from behind and ends before another."
  },
  {
   "property": "C82",
   "status": "proved",
   "theorems": [
    "Lightway.C82_connection_uses_it",
    "Lightway.C82_lists_are_lists"
   ],
   "note": "Refinement of the pointer program to the list model, and of the list model's receive step to the connection model."
  },
  {
   "property": "C83",
   "status": "proved",
   "theorems": [
    "Lightway.C83_nudge_time"
   ],
   "note": "Value of he_conn_get_nudge_time after any history, value handed to the nudge time callback, and origin of every noted time."
  },
  {
   "property": "C84",
   "status": "proved",
   "theorems": [
    "Lightway.C84_accepts",
    "Lightway.C84_last_accepted",
    "Lightway.C84_questions"
   ],
   "note": "NULL context or NULL argument branches are not modelled (except clearing a callback)."
  },
  {
   "property": "C85",
   "status": "proved",
   "theorems": [
    "Lightway.C85_refines",
    "Lightway.C85_start_client",
    "Lightway.C85_start_server"
   ],
   "note": "Build with post-quantum groups. C85_refines shows the coarser start of the client object is the same function."
  },
  {
   "property": "C86",
   "status": "proved",
   "theorems": [
    "Lightway.C86_receive_result",
    "Lightway.C86_refusal_ends",
    "Lightway.C86_refusal_reported"
   ],
   "note": ""
  },
  {
   "property": "C87",
   "status": "proved",
   "theorems": [
    "Lightway.C87_accurate",
    "Lightway.C87_phases"
   ],
   "note": ""
  },
  {
   "property": "C88",
   "status": "proved",
   "theorems": [
    "Lightway.C88_login",
    "Lightway.C88_server_admits"
   ],
   "note": ""
  },
  {
   "property": "C89",
   "status": "proved",
   "theorems": [
    "Lightway.C89_stream"
   ],
   "note": ""
  },
  {
   "property": "C90",
   "status": "proved",
   "theorems": [
    "Lightway.C90_initial",
    "Lightway.C90_reports",
    "Lightway.C90_session_ids"
   ],
   "note": ""
  },
  {
   "property": "C91",
   "status": "proved",
   "theorems": [
    "Lightway.C91_inside_result",
    "Lightway.C91_keepalive_result",
    "Lightway.C91_server_config_result"
   ],
   "note": ""
  },
  {
   "property": "C92",
   "status": "proved",
   "theorems": [
    "Lightway.C92_incomplete_mixes",
    "Lightway.C92_not_mixed",
    "Lightway.C92_served_by"
   ],
   "note": ""
  },
  {
   "property": "C93",
   "status": "proved",
   "theorems": [
    "Lightway.C93_callbacks_installed",
    "Lightway.C93_disconnect_silences",
    "Lightway.C93_inside_only_online",
    "Lightway.C93_online_justified"
   ],
   "note": ""
  },
  {
   "property": "C94",
   "status": "partial",
   "theorems": [
    "Lightway.C94_life_cycle_partial",
    "Lightway.C94_undone_client",
    "Lightway.C94_undone_server"
   ],
   "note": "The full property is false: C94_undone_client and C94_undone_server are proved runs in which a successful disconnect made from a callback is followed by ONLINE without a new connect. Proved: the full life cycle for clients whose host makes no calls from the network configuration callback and the CONNECTING and CONFIGURING announcements (any calls elsewhere, any depth). Missing: servers, for which an AUTH message later in the same datagram already undoes a disconnect."
  },
  {
   "property": "C95",
   "status": "proved",
   "theorems": [
    "Lightway.C95_populate_removed",
    "Lightway.C95_reentrant_safe",
    "Lightway.C95_safe_if_populate"
   ],
   "note": ""
  },
  {
   "property": "C96",
   "status": "proved",
   "theorems": [
    "Lightway.C96_integrity",
    "Lightway.C96_shipped"
   ],
   "note": ""
  },
  {
   "property": "C97",
   "status": "proved",
   "theorems": [
    "Lightway.C97_at_most_once"
   ],
   "note": ""
  },
  {
   "property": "C98",
   "status": "proved",
   "theorems": [
    "Lightway.C98_connect_silent",
    "Lightway.C98_diagnosis"
   ],
   "note": "C98_diagnosis: every call but a connect; C98_connect_silent: a connect returns such a code only for a refused server name, and then leaves the detailed error as it was (a gap of the code). A NULL connection is not modelled for this getter."
  },
  {
   "property": "C99",
   "status": "proved",
   "theorems": [
    "Lightway.C99_next_receive",
    "Lightway.C99_only_when_asked",
    "Lightway.C99_supports",
    "Lightway.C99_used_up"
   ],
   "note": "C99_next_receive (iff), C99_used_up (request consumed even if it cannot be honoured), C99_only_when_asked (TLS renewal calls), C99_supports (getter; undefined before the first connect)."
  },
  {
   "property": "C100",
   "status": "proved",
   "theorems": [
    "Lightway.C100_down_is_fatal",
    "Lightway.C100_session_survives"
   ],
   "note": "C100_down_is_fatal (one call, any connection type), C100_session_survives (any list of calls)."
  },
  {
   "property": "C101",
   "status": "proved",
   "theorems": [
    "Lightway.C101_bounded_output"
   ],
   "note": "writes \u2264 arrivals + allowance for every call from every reachable state; allowance defined in Spec/Budget; bound shown to be reached by examples"
  },
  {
   "property": "C102",
   "status": "proved",
   "theorems": [
    "Lightway.C102_told_the_truth"
   ],
   "note": "history-level: the entry just before the answer fixes it. Found while reading: a stream record longer than 1500 bytes dropped by a plugin is reported sent whole although only its first 1500 bytes were shown to the plugin"
  },
  {
   "property": "C103",
   "status": "proved",
   "theorems": [
    "Lightway.C103_record_crosses"
   ],
   "note": "For every history of the sender, every call and every record. The receiver's chain must undo the sender's and the sender's must not shorten a datagram, because flow.c refuses a plugin result longer than the received buffer. undoesOut_mirrors: the same chain of mirroring plugins on both sides qualifies; concrete case with a byte-flipping plugin."
  },
  {
   "property": "C104",
   "status": "proved",
   "theorems": [
    "Lightway.C104_client_real_call",
    "Lightway.C104_ctx_null_calls_are_no_calls",
    "Lightway.C104_ctx_null_refused",
    "Lightway.C104_ctx_real_call",
    "Lightway.C104_exceptions",
    "Lightway.C104_init_cleanup",
    "Lightway.C104_null_calls_are_no_calls",
    "Lightway.C104_null_refused",
    "Lightway.C104_null_values",
    "Lightway.C104_padding_reported",
    "Lightway.C104_real_call",
    "Lightway.C104_real_values",
    "Lightway.C104_tls_getters",
    "Lightway.C104_valid_null_context"
   ],
   "note": "C104_null_refused/C104_ctx_null_refused: one call. C104_null_calls_are_no_calls: whole histories; the connection is runFrom on the calls without NULL, so every other theorem applies. C104_exceptions: is_server_cert_key_set(NULL) is true, get_padding_type(NULL) is -4, is_valid_client(NULL, conn) may succeed. he_conn_get/set_ssl_error(NULL) and stats_plugin_create(NULL) dereference NULL and are outside the model."
  },
  {
   "property": "C105",
   "status": "proved",
   "theorems": [
    "Lightway.C105_credentials_only_in_auth",
    "Lightway.C105_nothing_shows"
   ],
   "note": "Two-run noninterference for clients; hypothesis Sealed = the TLS library's records, callbacks and plugins depend on AUTH messages through header and length only. Demo.clear_shows: without it the claim fails."
  },
  {
   "property": "C106",
   "status": "proved",
   "theorems": [
    "Lightway.C106_credentials_only_to_the_callback",
    "Lightway.C106_nothing_shows"
   ],
   "note": "two-run noninterference for either role; verdicts of the authentication callbacks are taken as given; concrete: two servers given joe and ann, both ONLINE"
  },
  {
   "property": "C107",
   "status": "proved",
   "theorems": [
    "Lightway.C107_contents_do_not_show",
    "Lightway.C107_only_in_messages"
   ],
   "note": "two-run noninterference for packet contents; concrete: 500-byte packets with different contents give the same datagrams, and lengths do show without padding"
  },
  {
   "property": "C108",
   "status": "proved",
   "theorems": [
    "Lightway.C108_padding_hides_lengths"
   ],
   "note": "n at most 506 on datagram connections because path-MTU discovery may settle there; the general lemma traffic_hidden takes any n below the path MTU in force"
  },
  {
   "property": "C109",
   "status": "proved",
   "theorems": [
    "Lightway.C109_fate_of_a_record"
   ],
   "note": "RecordFate and Fate are a separate specification read without the model; runAll is the specification of a plugin sequence used by C53. The example has two plugins on both transports."
  },
  {
   "property": "C110",
   "status": "proved",
   "theorems": [
    "Lightway.C110_host_gets_what_plugins_made"
   ],
   "note": "Per call, with the plugin chain the connection had before the call; the fragment clause restates C14 and C15 for the packet before the plugins, so those hold with plugins too."
  },
  {
   "property": "C111",
   "status": "proved",
   "theorems": [
    "Lightway.C111_arrivals_do_not_show",
    "Lightway.C111_only_to_the_host"
   ],
   "note": "two-run noninterference for received packets, fragment table included; concrete: a client receiving a packet and two fragments and sending one, all made of 3s or all made of 4s, sends the same datagrams. The encrypted bytes that arrive are the same in both runs: only what the TLS library makes of them differs."
  },
  {
   "property": "C112",
   "status": "proved",
   "theorems": [
    "Lightway.C112_fetched_during_its_call",
    "Lightway.C112_late_datagram",
    "Lightway.C112_late_stream",
    "Lightway.C112_never_late",
    "Lightway.C112_stream_nothing_late"
   ],
   "note": "Exact: the two positive theorems per transport, and both exceptions happen (C112_late_datagram, C112_late_stream: the TLS library stops at a pending write in the receive call and reads in the next nudge). Finding: the library keeps a pointer into the host's buffer after he_conn_outside_data_received has returned."
  },
  {
   "property": "C113",
   "status": "proved",
   "theorems": [
    "Lightway.C113_as_if_alone",
    "Lightway.C113_at_most_once",
    "Lightway.C113_datagram_crosses",
    "Lightway.C113_error_crosses",
    "Lightway.C113_one_connection",
    "Lightway.C113_own_datagram",
    "Lightway.C113_own_error"
   ],
   "note": "All interleavings of any number of threads and connections. Finding: the variables are per thread, not per connection: a datagram left unfetched (C112) can be given to another connection's TLS object on the same thread, and he_conn_get_ssl_error can report another connection's error. The stream variables stay in the connection and are not part of this model."
  },
  {
   "property": "C114",
   "status": "proved",
   "theorems": [
    "Lightway.C114_fragments_apart",
    "Lightway.C114_fragments_numbered",
    "Lightway.C114_pings_alone",
    "Lightway.C114_pings_collide",
    "Lightway.C114_pings_numbered"
   ],
   "note": "sequentially consistent interleavings; for the plain field ping_next_id this is the mildest of what a data race may do"
  },
  {
   "property": "C115",
   "status": "proved",
   "theorems": [
    "Lightway.C115_alone",
    "Lightway.C115_back_online",
    "Lightway.C115_both_succeed",
    "Lightway.C115_disconnected",
    "Lightway.C115_someone_succeeds",
    "Lightway.C115_told_out_of_order"
   ],
   "note": "accesses to the state and calls of the state callback only; positive part for threads that only disconnect, witnesses for the rest"
  },
  {
   "property": "C116",
   "status": "proved",
   "theorems": [
    "Lightway.C116_any_choice",
    "Lightway.C116_same_connection",
    "Lightway.C116_same_history"
   ],
   "note": ""
  },
  {
   "property": "C117",
   "status": "proved",
   "theorems": [
    "Lightway.C117_looks_first",
    "Lightway.C117_null_called",
    "Lightway.C117_null_only_between",
    "Lightway.C117_one_by_one",
    "Lightway.C117_safe_without_disconnect",
    "Lightway.C117_silent_after_disconnect",
    "Lightway.C117_silent_later"
   ],
   "note": ""
  },
  {
   "property": "C118",
   "status": "proved",
   "theorems": [
    "Lightway.C118_alone_in_its_slot",
    "Lightway.C118_one_by_one",
    "Lightway.C118_one_by_one_gives_packet",
    "Lightway.C118_packet_lost",
    "Lightway.C118_same_as_single",
    "Lightway.C118_slots_apart",
    "Lightway.C118_use_after_free"
   ],
   "note": "A schedule of accesses to the fragment table (Model/ConcFrag): slots do not influence each other (simulation), a call alone in its slot and calls in sequence are the single-threaded ones; witnesses for a lost packet with a leaked entry and for use after free when two fragments of one packet are handled at once."
  },
  {
   "property": "C119",
   "status": "proved",
   "theorems": [
    "Lightway.C119_empty_header",
    "Lightway.C119_empty_only_between",
    "Lightway.C119_goes_back",
    "Lightway.C119_harmless_to_client",
    "Lightway.C119_ids_are_the_servers",
    "Lightway.C119_in_order",
    "Lightway.C119_never_back",
    "Lightway.C119_rotation_forgotten",
    "Lightway.C119_same_as_single",
    "Lightway.C119_two_rotations"
   ],
   "note": "Schedules of accesses to the two identifiers (Model/ConcSess): they are always the server's own, a header is empty only if a confirmation fell between test and copy, one receiver and one rotator take identifiers in order; an uninterrupted call is the single-threaded one; witnesses for the empty header, the forgotten rotation, the step back and two successful rotations."
  },
  {
   "property": "C120",
   "status": "proved",
   "theorems": [
    "Lightway.C120_every_byte",
    "Lightway.C120_text"
   ],
   "note": "Every byte of the buffer after the copy is given for every buffer, text and size; the caller must provide a buffer of the given size (the C function only asserts that the size is not 0)."
  },
  {
   "property": "C121",
   "status": "proved",
   "theorems": [
    "Lightway.C121_between_updates",
    "Lightway.C121_blown_up",
    "Lightway.C121_bounded",
    "Lightway.C121_one_updater",
    "Lightway.C121_same_as_single",
    "Lightway.C121_stuck",
    "Lightway.C121_timer_lost",
    "Lightway.C121_two_timers",
    "Lightway.C121_unscaled"
   ],
   "note": "multithreaded build, sequentially consistent accesses; the guarantee is for one updating thread with any readers, a bound for any number of updating threads; hazards shown as executions"
  },
  {
   "property": "C122",
   "status": "proved",
   "theorems": [
    "Lightway.C122_mtu_of_text",
    "Lightway.C122_negative",
    "Lightway.C122_no_number",
    "Lightway.C122_one_mtu",
    "Lightway.C122_plain",
    "Lightway.C122_too_large",
    "Lightway.C122_wraps"
   ],
   "note": "sscanf(\"%u\") as glibc implements it in the C locale; the standard leaves overflow undefined"
  },
  {
   "property": "C123",
   "status": "proved",
   "theorems": [
    "Lightway.C123_alone",
    "Lightway.C123_begun_twice",
    "Lightway.C123_between",
    "Lightway.C123_caused",
    "Lightway.C123_end_before_start",
    "Lightway.C123_end_forgotten",
    "Lightway.C123_end_twice",
    "Lightway.C123_one_receiver"
   ],
   "note": "multithreaded build, sequentially consistent accesses; the guarantee is for one receiving thread with any requesting threads, causality for any number; hazards shown as executions"
  }
 ]
}