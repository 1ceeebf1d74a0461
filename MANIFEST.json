{
 "claims": [
  {
   "property": "C01",
   "status": "proved",
   "theorems": [
    "Eupf.C01_no_association"
   ],
   "note": "all node states"
  },
  {
   "property": "C02",
   "status": "proved",
   "theorems": [
    "Eupf.C02_unknown_seid"
   ],
   "note": "all node states"
  },
  {
   "property": "C03",
   "status": "proved",
   "theorems": [
    "Eupf.C03_mandatory"
   ],
   "note": "all node states"
  },
  {
   "property": "C04",
   "status": "proved",
   "theorems": [
    "Eupf.C04_seid_fresh",
    "Eupf.C04_seid_new",
    "Eupf.C04_not_unique_across_peers"
   ],
   "note": "all histories with < 2^64-2 establishment requests; negation across peers"
  },
  {
   "property": "C05",
   "status": "proved",
   "theorems": [
    "Eupf.C05_isolation",
    "Eupf.C05_association_messages"
   ],
   "note": "all node states, all outcomes"
  },
  {
   "property": "C06",
   "status": "proved",
   "theorems": [
    "Eupf.C06_sequence",
    "Eupf.C06_on_the_wire",
    "Eupf.C06_header_seid"
   ],
   "note": "header SEID against a ledger kept from the messages only"
  },
  {
   "property": "C07",
   "status": "proved",
   "theorems": [
    "Eupf.IdTracker.C07_alloc",
    "Eupf.IdTracker.C07_held_nodup",
    "Eupf.IdTracker.C07_release_out_of_range"
   ],
   "note": "all call sequences"
  },
  {
   "property": "C08",
   "status": "partial",
   "theorems": [
    "Eupf.C08_exclusive_partial",
    "Eupf.C08_shared_slot"
   ],
   "note": "proved for all histories whose modifications only refer to known rules; false otherwise (witness)"
  },
  {
   "property": "C09",
   "status": "partial",
   "theorems": [
    "Eupf.C09_agrees_partial",
    "Eupf.C09_clobbered"
   ],
   "note": "proved for all histories whose modifications only refer to known rules; false otherwise (witness)"
  },
  {
   "property": "C10",
   "status": "partial",
   "theorems": [
    "Eupf.C10_removed_partial",
    "Eupf.C10_exact_partial",
    "Eupf.C10_stale",
    "Eupf.C10_stale_pdr"
   ],
   "note": "exact description of what an accepted deletion removes, for every state, session and iteration order; false whenever two installed uplink TEIDs of the session agree in the low octet (proved for every such state)"
  },
  {
   "property": "C100",
   "status": "partial",
   "theorems": [
    "Eupf.C100_said_partial",
    "Eupf.C100_sent_partial",
    "Eupf.C100_unknown_partial",
    "Eupf.C100_unfit_partial",
    "Eupf.C100_stopped_partial",
    "Eupf.C100_downlink_partial",
    "Eupf.C100_uplink_partial",
    "Eupf.C100_retunnelled_partial",
    "Eupf.C100_downlink_limited_partial",
    "Eupf.C100_uplink_limited_partial"
   ],
   "note": "true of clean histories (Spec/OwnRules.lean), whose excluded cases are shown to be false in C20, C56, C97, C98, C99; rate-limited frames are forwarded as told or dropped untouched (how much: C102); uplink for the header forms of C28; a G-PDU to be sent from tunnel to tunnel may still be dropped by the route lookup"
  },
  {
   "property": "C101",
   "status": "partial",
   "theorems": [
    "Eupf.C101_uplink_partial",
    "Eupf.C101_downlink_partial",
    "Eupf.C101_starved"
   ],
   "note": "true within a tolerance of 5 ms on a QER that was idle before; false of frames that take more than 5 ms at the rate (C101_starved, every state)"
  },
  {
   "property": "C102",
   "status": "partial",
   "theorems": [
    "Eupf.C102_uplink_at_most_partial",
    "Eupf.C102_downlink_at_most_partial",
    "Eupf.C102_uplink_at_least_partial",
    "Eupf.C102_downlink_at_least_partial"
   ],
   "note": "for clean histories (Spec/OwnRules.lean) and rates below 2^32 bit/s (C35_overflow shows that larger ones wrap); a bit is taken as floor(10^9/rate) ns (C34); full frames at low rates get less (C101_starved)"
  },
  {
   "property": "C103",
   "status": "partial",
   "theorems": [
    "Eupf.C103_node_messages",
    "Eupf.C103_refused",
    "Eupf.C103_updates_once_partial",
    "Eupf.C103_deleted_once_partial",
    "Eupf.C103_establish_new_answer",
    "Eupf.C103_establish_second_session",
    "Eupf.C103_establish_twice",
    "Eupf.C103_not_once",
    "Eupf.C103_far_taken_twice",
    "Eupf.C103_delete_answered_differently",
    "Eupf.C103_late_duplicate"
   ],
   "note": "true of node messages, refused requests and updates; false of establishments (every state), modifications that create rules and deletions (witnesses)"
  },
  {
   "property": "C104",
   "status": "proved",
   "theorems": [
    "Eupf.C104_teid_last",
    "Eupf.C104_address_last",
    "Eupf.C104_chosen_teid_last"
   ],
   "note": "for every history from every state; the example meets the bound exactly"
  },
  {
   "property": "C105",
   "status": "partial",
   "theorems": [
    "Eupf.C105_nothing_given_back",
    "Eupf.C105_refused_after_restart"
   ],
   "note": "false of the code: the negation is proved for every state, with a witness of the consequence"
  },
  {
   "property": "C106",
   "status": "proved",
   "theorems": [
    "Eupf.C106_interleaved",
    "Eupf.C106_as_a_whole",
    "Eupf.C106_request",
    "Eupf.C106_said_partial",
    "Eupf.C106_exact_partial"
   ],
   "note": "a table write is atomic (C76 for the tearing of array elements); a URR is read and cleared as one step (C75 has what may get lost in between); the last two theorems carry C100 and C98, with their hypotheses, over"
  },
  {
   "property": "C107",
   "status": "partial",
   "theorems": [
    "Eupf.C107_tables_partial",
    "Eupf.C107_downlink_partial",
    "Eupf.C107_uplink_partial",
    "Eupf.C107_stopped_partial",
    "Eupf.C107_downlink_limited_partial",
    "Eupf.C107_uplink_limited_partial"
   ],
   "note": "conditional on the hypotheses of C99/C100 (known references, no shared match keys) and of C64 (the event does not name the key, nor is it free in the pools); rate-limited frames are forwarded as told or dropped untouched"
  },
  {
   "property": "C108",
   "status": "partial",
   "theorems": [
    "Eupf.C108_downlink_partial",
    "Eupf.C108_uplink_partial",
    "Eupf.C108_stopped_partial",
    "Eupf.C108_leak",
    "Eupf.C108_downlink_limited_partial",
    "Eupf.C108_uplink_limited_partial"
   ],
   "note": "hypotheses as C107, for events about other sessions; false when the own session is deleted in between (C108_leak, witness); rate-limited frames are forwarded as told or dropped untouched"
  },
  {
   "property": "C109",
   "status": "proved",
   "theorems": [
    "Eupf.C109_establish",
    "Eupf.C109_modify",
    "Eupf.C109_delete",
    "Eupf.C109_shorter_establishment",
    "Eupf.C109_shorter_modification",
    "Eupf.C109_gap"
   ],
   "note": "for every state and request; C109_gap is the witness for the last sentence"
  },
  {
   "property": "C11",
   "status": "partial",
   "theorems": [
    "Eupf.C11_deletable_partial",
    "Eupf.C11_exact_partial",
    "Eupf.C11_undeletable"
   ],
   "note": "exact condition (iff) for every history and iteration order; false in general: two PDRs with the same UE address"
  },
  {
   "property": "C110",
   "status": "partial",
   "theorems": [
    "Eupf.C110_establish_partial",
    "Eupf.C110_delete_partial",
    "Eupf.C110_peer_lost",
    "Eupf.C110_ping"
   ],
   "note": "conditional on the hypotheses of C99 (orderly, tidy, own rules); the three look-ups of the packet happen at one moment; timers of the rate limiters are taken as they are; the two exceptions have witnesses (C110_peer_lost, C110_ping)"
  },
  {
   "property": "C111",
   "status": "partial",
   "theorems": [
    "Eupf.C111_establish",
    "Eupf.C111_modify_partial",
    "Eupf.C111_history_partial"
   ],
   "note": "the establishment part is complete; modifications that remove FARs, QERs or PDRs are excluded (a FAR is removed before the PDR that uses it is updated, C109_gap)"
  },
  {
   "property": "C112",
   "status": "partial",
   "theorems": [
    "Eupf.C112_modify_partial",
    "Eupf.C112_one_kind_partial",
    "Eupf.C112_two_changes"
   ],
   "note": "conditional on the hypotheses of C99; pings of the UPF excepted as in C110; the three look-ups of the packet happen at one moment here (C114: at three); the exception has a witness (C112_two_changes)"
  },
  {
   "property": "C113",
   "status": "partial",
   "theorems": [
    "Eupf.C113_accepted_partial",
    "Eupf.C113_needed",
    "Eupf.C113_exact_partial",
    "Eupf.C113_updates",
    "Eupf.C113_removals_partial",
    "Eupf.C113_accepted_orderly_partial",
    "Eupf.C113_exact_orderly_partial",
    "Eupf.C113_no_reuse"
   ],
   "note": "sufficient and necessary conditions agree, given places in the PDR tables and addresses for every PDR that asks for one; for modifications that remove PDRs this holds in orderly histories, if the modification without the removals is orderly (PDRs that share a match key cannot both be removed, C11)"
  },
  {
   "property": "C114",
   "status": "partial",
   "theorems": [
    "Eupf.C114_establish_partial",
    "Eupf.C114_modify_partial",
    "Eupf.C114_one_kind_partial",
    "Eupf.C114_delete_partial",
    "Eupf.C114_closed_gate",
    "Eupf.C114_dropped"
   ],
   "note": "conditional on the hypotheses of C99; pings of the UPF excepted as in C110; the deletion part is false as stated for the other requests, and what can happen instead is proved, with witnesses (C114_closed_gate, C114_dropped); the loss of a peer is not covered (C110_peer_lost)"
  },
  {
   "property": "C115",
   "status": "partial",
   "theorems": [
    "Eupf.C115_same_partial",
    "Eupf.C115_same_limited_partial",
    "Eupf.C115_sequence_partial",
    "Eupf.C115_orders_partial"
   ],
   "note": "conditional on the hypotheses of C99 (clean histories); with rate limits for single packets and limiters in the same state; pings of the UPF included"
  },
  {
   "property": "C116",
   "status": "partial",
   "theorems": [
    "Eupf.C116_uplink_partial",
    "Eupf.C116_downlink_partial",
    "Eupf.C116_still",
    "Eupf.C116_timers",
    "Eupf.C116_restart"
   ],
   "note": "conditional on the hypotheses of C99 (clean requests) and an MBR below 2^32 bit/s; the timers at the beginning must not lie 292 years ahead (C116_timers: they never do in the first 146 years of uptime); a packet is processed between two requests (C110, C114: during requests); that requests naming the QER let more through has a witness (C116_restart)"
  },
  {
   "property": "C117",
   "status": "partial",
   "theorems": [
    "Eupf.C117_one_report",
    "Eupf.C117_deletion",
    "Eupf.C117_one_of_two_partial",
    "Eupf.C117_nothing_or_everything_partial",
    "Eupf.C117_silence",
    "Eupf.C117_others_traffic"
   ],
   "note": "the property is false of the code, with a witness (C117_others_traffic: a session without PDRs is told of another peer's traffic, twice, and the session whose PDR names a URR is told of none); what is proved is what the counters do instead, for every timeline of packets and requests that only refer to known rules, as long as the 64-bit counters do not overflow"
  },
  {
   "property": "C118",
   "status": "partial",
   "theorems": [
    "Eupf.C118_uplink_partial",
    "Eupf.C118_downlink_partial",
    "Eupf.C118_n9_partial",
    "Eupf.C118_zero",
    "Eupf.C118_ring",
    "Eupf.C118_alone",
    "Eupf.C118_for_ever"
   ],
   "note": "the property is false of the code: the theorems say that every packet keeps its Time To Live (partial: under the hypotheses of C27, C28 and C31 about header lengths), that packets with nothing left are sent on, and that rings of UPFs - one alone included - pass a packet on for ever"
  },
  {
   "property": "C119",
   "status": "partial",
   "theorems": [
    "Eupf.C119_downlink_partial",
    "Eupf.C119_same_tunnel_partial",
    "Eupf.C119_uplink_partial",
    "Eupf.C119_not_looked_at",
    "Eupf.C119_torn",
    "Eupf.C119_cut_short",
    "Eupf.C119_forged"
   ],
   "note": "the rule is the same for all pieces if the filter does not look at ports; the rest is false of the code: C119_not_looked_at (for every G-PDU) and C119_cut_short (for every incomplete one) say what it does instead, C119_torn and C119_forged are witnesses"
  },
  {
   "property": "C12",
   "status": "partial",
   "theorems": [
    "Eupf.C12_rejected_establishment_partial",
    "Eupf.C12_no_rollback"
   ],
   "note": "sessions unchanged proved; \"installs nothing\" is false, witness proved"
  },
  {
   "property": "C120",
   "status": "partial",
   "theorems": [
    "Eupf.C120_nothing_carried",
    "Eupf.C120_sent_needs_request",
    "Eupf.C120_not_named_again",
    "Eupf.C120_served_until_restart",
    "Eupf.C120_taken_over"
   ],
   "note": "false of the code, proved for every restart; what holds (C120_sent_needs_request): nothing is carried without a request since the last start"
  },
  {
   "property": "C121",
   "status": "partial",
   "theorems": [
    "Eupf.C121_says_nothing",
    "Eupf.C121_no_reports",
    "Eupf.C121_dropped_partial",
    "Eupf.C121_stream_partial",
    "Eupf.C121_first_packet_lost"
   ],
   "note": "false of the code; the negations are proved for all executions (messages) and all clean histories (packets)"
  },
  {
   "property": "C122",
   "status": "partial",
   "theorems": [
    "Eupf.C122_not_carried",
    "Eupf.C122_end_marker_lost",
    "Eupf.C122_no_error_indication_partial",
    "Eupf.C122_answers_only_echo"
   ],
   "note": "false of the code; the negations are proved for all frames and tables"
  },
  {
   "property": "C123",
   "status": "partial",
   "theorems": [
    "Eupf.C123_ipv4_same",
    "Eupf.C123_ipv4_served_partial",
    "Eupf.C123_ipv6_refused",
    "Eupf.C123_ipv6_drained",
    "Eupf.C123_choose_ipv6_refused"
   ],
   "note": "false for IPv6 pools (for every state of such a pool); proved for IPv4 pools, together with the agreement, rule by rule, of the pool of octet slices with the IPv4 pool of the node model"
  },
  {
   "property": "C124",
   "status": "partial",
   "theorems": [
    "Eupf.C17_created",
    "Eupf.C17_modification",
    "Eupf.C124_updates_untold",
    "Eupf.C124_update_teid",
    "Eupf.C124_update_ip",
    "Eupf.C124_drain"
   ],
   "note": "true for Create PDR (C17); false for Update PDR, for every state and request of that kind"
  },
  {
   "property": "C13",
   "status": "partial",
   "theorems": [
    "Eupf.C13_no_double_handout",
    "Eupf.C13_conservation_partial",
    "Eupf.C13_leak"
   ],
   "note": "conservation only without overwriting (seid,pdr) entries; the leak is proved"
  },
  {
   "property": "C14",
   "status": "partial",
   "theorems": [
    "Eupf.C14_distinct_partial",
    "Eupf.C14_remove_pdr",
    "Eupf.C14_local_seid",
    "Eupf.C14_two_smfs",
    "Eupf.C14_failed_deletion"
   ],
   "note": "false in general (four witnesses); proved for all histories in which peers choose distinct SEIDs, remove no single PDRs, and no deletion fails"
  },
  {
   "property": "C15",
   "status": "partial",
   "theorems": [
    "Eupf.C15_pool",
    "Eupf.C15_prefix",
    "Eupf.C15_address_lost"
   ],
   "note": "the part about returning the address on deletion is false (witness)"
  },
  {
   "property": "C16",
   "status": "proved",
   "theorems": [
    "Eupf.C16_establishment",
    "Eupf.C16_modification",
    "Eupf.C16_pool"
   ],
   "note": ""
  },
  {
   "property": "C17",
   "status": "proved",
   "theorems": [
    "Eupf.C17_created",
    "Eupf.C17_modification",
    "Eupf.C17_feature"
   ],
   "note": ""
  },
  {
   "property": "C18",
   "status": "proved",
   "theorems": [
    "Eupf.C18_establish",
    "Eupf.C18_create",
    "Eupf.C18_update"
   ],
   "note": ""
  },
  {
   "property": "C19",
   "status": "partial",
   "theorems": [
    "Eupf.C19_default_first_partial",
    "Eupf.C19_order_matters"
   ],
   "note": "false in general; witness"
  },
  {
   "property": "C20",
   "status": "partial",
   "theorems": [
    "Eupf.C20_misclassified",
    "Eupf.C20_with_default_partial"
   ],
   "note": "false in general; proved when a default PDR exists"
  },
  {
   "property": "C21",
   "status": "proved",
   "theorems": [
    "Eupf.Sdf.C21_accepted",
    "Eupf.Sdf.C21_complete"
   ],
   "note": "the grammar is a separate specification (Spec/SdfGrammar)"
  },
  {
   "property": "C22",
   "status": "partial",
   "theorems": [
    "Eupf.C22_like_any",
    "Eupf.C22_accepted"
   ],
   "note": "false: the prefix length is accepted and the address behaves like any"
  },
  {
   "property": "C23",
   "status": "partial",
   "theorems": [
    "Eupf.C23_ipv4_partial",
    "Eupf.C23_ipv6_prefix_matches_ipv4",
    "Eupf.C23_ipv6_filter_ipv4_packet"
   ],
   "note": "proved for filters written with IPv4 addresses or any, and packets with unfragmented TCP/UDP or no ports; false for IPv6 prefixes against IPv4 packets (witnesses)"
  },
  {
   "property": "C24",
   "status": "partial",
   "theorems": [
    "Eupf.C24_any_partial",
    "Eupf.C24_exact",
    "Eupf.C24_host",
    "Eupf.C24_wrong_end",
    "Eupf.C24_prefix_wrong",
    "Eupf.C24_udp_ports",
    "Eupf.C24_icmp6_never"
   ],
   "note": "proved for any addresses; an exact description (iff) of the packets matched by every filter text with any ranges; false for IPv6 prefixes: no filter for one IPv6 source other than :: matches that source (for every filter), and witnesses"
  },
  {
   "property": "C25",
   "status": "proved",
   "theorems": [
    "Eupf.C25_unclassified_untouched",
    "Eupf.C25_unknown_teid",
    "Eupf.C25_unknown_ue4",
    "Eupf.C25_unknown_ue6",
    "Eupf.C25_not_ip"
   ],
   "note": ""
  },
  {
   "property": "C26",
   "status": "proved",
   "theorems": [
    "Eupf.C26_sent_needs_permission",
    "Eupf.C26_ping_reply_needs_permission",
    "Eupf.C26_not_permitted_dropped"
   ],
   "note": ""
  },
  {
   "property": "C27",
   "status": "proved",
   "theorems": [
    "Eupf.C27_downlink4",
    "Eupf.C27_downlink6",
    "Eupf.C27_lengths",
    "Eupf.C27_forwarded4"
   ],
   "note": ""
  },
  {
   "property": "C28",
   "status": "partial",
   "theorems": [
    "Eupf.C28_decapsulated_partial",
    "Eupf.C28_forwarded_partial",
    "Eupf.C28_sequence_number_only"
   ],
   "note": "false for other GTP header layouts (witness)"
  },
  {
   "property": "C29",
   "status": "proved",
   "theorems": [
    "Eupf.C29_encap_decap"
   ],
   "note": ""
  },
  {
   "property": "C30",
   "status": "proved",
   "theorems": [
    "Eupf.C30_outer_checksum",
    "Eupf.C30_sent_checksum"
   ],
   "note": ""
  },
  {
   "property": "C31",
   "status": "proved",
   "theorems": [
    "Eupf.C31_retunnelled",
    "Eupf.C31_options_bad_checksum"
   ],
   "note": ""
  },
  {
   "property": "C32",
   "status": "proved",
   "theorems": [
    "Eupf.C32_echo_answered"
   ],
   "note": ""
  },
  {
   "property": "C33",
   "status": "proved",
   "theorems": [
    "Eupf.C33_ping_answered",
    "Eupf.C33_zero_ping"
   ],
   "note": "the exception in the statement is witnessed by C33_zero_ping"
  },
  {
   "property": "C34",
   "status": "proved",
   "theorems": [
    "Eupf.C34_uplink",
    "Eupf.C34_downlink",
    "Eupf.C34_in_bits",
    "Eupf.C34_truncated",
    "Eupf.C34_unlimited"
   ],
   "note": "one packet at a time; the bound is in transmission time as the code computes it (whole ns per octet-octave), C34_in_bits converts it to bits, C34_truncated shows how far truncation goes"
  },
  {
   "property": "C35",
   "status": "partial",
   "theorems": [
    "Eupf.C35_conversion_partial",
    "Eupf.C35_overflow",
    "Eupf.C35_zero_unlimited"
   ],
   "note": "false for rates whose product with 1000 exceeds 32 bits (witness)"
  },
  {
   "property": "C36",
   "status": "proved",
   "theorems": [
    "Eupf.C36_update",
    "Eupf.C36_untouched",
    "Eupf.C36_create",
    "Eupf.C36_tables"
   ],
   "note": "the last one: as the packets see it, in histories without references to unknown rules (C09)"
  },
  {
   "property": "C37",
   "status": "proved",
   "theorems": [
    "Eupf.C37_update",
    "Eupf.C37_untouched",
    "Eupf.C37_rejected",
    "Eupf.C37_create",
    "Eupf.C37_tables"
   ],
   "note": "the last one: as the packets see it, in histories without references to unknown rules (C09)"
  },
  {
   "property": "C38",
   "status": "partial",
   "theorems": [
    "Eupf.C38_uplink_partial",
    "Eupf.C38_downlink_partial",
    "Eupf.C38_all_to_slot_zero",
    "Eupf.C38_recorded",
    "Eupf.C38_third_ignored"
   ],
   "note": "false: user space never stores URR ids, so everything is charged to slot 0 (for all histories); the forwarding plane alone charges the right slots"
  },
  {
   "property": "C39",
   "status": "partial",
   "theorems": [
    "Eupf.C39_deletion_partial",
    "Eupf.C39_removal_partial",
    "Eupf.C39_update_loses"
   ],
   "note": "proved for removals and deletions of URRs whose slot is the session's own; false after an Update URR (the count of the slot is lost, witness)"
  },
  {
   "property": "C40",
   "status": "proved",
   "theorems": [
    "Eupf.C40_action_counters"
   ],
   "note": "modulo 2^64"
  },
  {
   "property": "C41",
   "status": "partial",
   "theorems": [
    "Eupf.C41_totals_partial",
    "Eupf.C41_unexpected_never_reported",
    "Eupf.C41_action_totals",
    "Eupf.C41_route_totals",
    "Eupf.C41_report_counts_frames_partial",
    "Eupf.C41_unexpected_lost"
   ],
   "note": "proved for all counters except unexpected GTP messages, for which it is false (witness); C41_report_counts_frames_partial links the report to the frames processed on all CPUs"
  },
  {
   "property": "C42",
   "status": "partial",
   "theorems": [
    "Eupf.C42_exported",
    "Eupf.C42_double_counting",
    "Eupf.C42_single_partial",
    "Eupf.C42_kept"
   ],
   "note": "false: every scrape adds the full totals again (exact value of the exported counter proved for every sequence of scrapes); proved for a single scrape and for a collector that keeps its previous snapshot"
  },
  {
   "property": "C43",
   "status": "proved",
   "theorems": [
    "Eupf.C43_dropped",
    "Eupf.C43_only_dropped",
    "Eupf.C43_detected"
   ],
   "note": "all executions of the node with its heartbeat goroutines"
  },
  {
   "property": "C44",
   "status": "partial",
   "theorems": [
    "Eupf.C44_proceeds_iff",
    "Eupf.C44_wedged_forever",
    "Eupf.C44_any_peer_can_wedge",
    "Eupf.C44_heartbeats_off"
   ],
   "note": "false; the wedge is characterised exactly"
  },
  {
   "property": "C45",
   "status": "partial",
   "theorems": [
    "Eupf.C45_peer_lost",
    "Eupf.C45_keeps",
    "Eupf.C45_leaks"
   ],
   "note": "PDRs, FARs and QERs are removed; URR slots and UE addresses are never returned (proved for every state)"
  },
  {
   "property": "C46",
   "status": "partial",
   "theorems": [
    "Eupf.C46_far",
    "Eupf.C46_qer",
    "Eupf.C46_urr",
    "Eupf.C46_pdr_record",
    "Eupf.C46_pdr_write",
    "Eupf.C46_rest_put_pdr",
    "Eupf.C46_rest_put_pdr_wrong",
    "Eupf.C46_rest_get_pdr",
    "Eupf.C46_rest_pdr_overrun"
   ],
   "note": "proved for FAR, QER, URR under the C layout rule; false for the REST PDR endpoint (exact effect proved); PDR records written by PFCP: the generated Go type is not in the repository; its member list is written out as bpf2go generates it"
  },
  {
   "property": "C47",
   "status": "partial",
   "theorems": [
    "Eupf.C47_validate",
    "Eupf.C47_sizes_partial",
    "Eupf.C47_overflow",
    "Eupf.C47_timeout_zero",
    "Eupf.C47_starts",
    "Eupf.C47_capacity"
   ],
   "note": "exact effect of validation for every configuration; false corners characterised"
  },
  {
   "property": "C48",
   "status": "proved",
   "theorems": [
    "Eupf.C48_repeated_setup"
   ],
   "note": "all node states"
  },
  {
   "property": "C49",
   "status": "proved",
   "theorems": [
    "Eupf.C49_no_out_of_bounds"
   ],
   "note": "in the model an access outside of the frame is a panic"
  },
  {
   "property": "C50",
   "status": "proved",
   "theorems": [
    "Eupf.C50_packets_keep_rules",
    "Eupf.C50_sessions_untouched"
   ],
   "note": ""
  },
  {
   "property": "C51",
   "status": "partial",
   "theorems": [
    "Eupf.C51_all",
    "Eupf.C51_teid_partial",
    "Eupf.C51_ip4_partial",
    "Eupf.C51_teid_unique_partial",
    "Eupf.C51_second_missing",
    "Eupf.C51_ip6_never",
    "Eupf.C51_wraps",
    "Eupf.C51_both"
   ],
   "note": "all node states and iteration orders; false parts proved false for every state"
  },
  {
   "property": "C52",
   "status": "proved",
   "theorems": [
    "Eupf.C52_session_gauge"
   ],
   "note": "all histories with < 2^64-2 establishment requests"
  },
  {
   "property": "C53",
   "status": "partial",
   "theorems": [
    "Eupf.C53_sequence",
    "Eupf.C53_request",
    "Eupf.C53_any_answer",
    "Eupf.C53_between_upfs"
   ],
   "note": "all histories of ticks; the matching of answers is false"
  },
  {
   "property": "C54",
   "status": "partial",
   "theorems": [
    "Eupf.C54_bad_body_partial",
    "Eupf.C54_effect",
    "Eupf.C54_shows",
    "Eupf.C54_read_back",
    "Eupf.C54_not_atomic",
    "Eupf.C54_ueip_lost",
    "Eupf.C54_one_miss"
   ],
   "note": "false: exact effect of every POST; proved only for bodies that cannot be parsed"
  },
  {
   "property": "C55",
   "status": "partial",
   "theorems": [
    "Eupf.C55_terminates_partial",
    "Eupf.C55_diverges"
   ],
   "note": "false for range 2^32-1, non-termination proved"
  },
  {
   "property": "C56",
   "status": "partial",
   "theorems": [
    "Eupf.C56_stale_teid",
    "Eupf.C56_keys_kept"
   ],
   "note": "the property is false: no update removes a key (general), with a concrete witness"
  },
  {
   "property": "C57",
   "status": "partial",
   "theorems": [
    "Eupf.C57_no_key"
   ],
   "note": "the property is false: witness"
  },
  {
   "property": "C58",
   "status": "partial",
   "theorems": [
    "Eupf.C58_policed_by_other"
   ],
   "note": "the property is false: witness"
  },
  {
   "property": "C59",
   "status": "partial",
   "theorems": [
    "Eupf.C59_no_crash_partial",
    "Eupf.C59_crashes",
    "Eupf.C59_crash_without_pools",
    "Eupf.C59_peer_loss_safe"
   ],
   "note": "false as stated (three defects kill the process, witnesses); proved for every node state and every message without these defects, given the pools exist; the loss of a peer never panics in any execution of the timers"
  },
  {
   "property": "C60",
   "status": "proved",
   "theorems": [
    "Eupf.C60_never_configured",
    "Eupf.C60_outside_pool"
   ],
   "note": ""
  },
  {
   "property": "C61",
   "status": "partial",
   "theorems": [
    "Eupf.C61_stale_answers_keep_alive",
    "Eupf.C43_detected"
   ],
   "note": "false with stale answers; proved when nothing arrives"
  },
  {
   "property": "C62",
   "status": "proved",
   "theorems": [
    "Eupf.C62_rx_counters"
   ],
   "note": "all frames, all sequences"
  },
  {
   "property": "C63",
   "status": "proved",
   "theorems": [
    "Eupf.C63_far",
    "Eupf.C63_qer"
   ],
   "note": "all table contents"
  },
  {
   "property": "C64",
   "status": "partial",
   "theorems": [
    "Eupf.C64_event",
    "Eupf.C64_history_partial"
   ],
   "note": "the PDR entry and the session record: every event; FAR and QER slots: histories whose modifications refer to known rules (otherwise false, C08_shared_slot, C09_clobbered)"
  },
  {
   "property": "C65",
   "status": "proved",
   "theorems": [
    "Eupf.C65_downlink",
    "Eupf.C65_downlink_limited"
   ],
   "note": "from the request, over any history elsewhere, to the octets on the wire; histories whose modifications refer to known rules"
  },
  {
   "property": "C66",
   "status": "partial",
   "theorems": [
    "Eupf.C66_uplink_partial",
    "Eupf.C28_forwarded_partial"
   ],
   "note": "as C65; the GTP-U header forms of C28"
  },
  {
   "property": "C67",
   "status": "partial",
   "theorems": [
    "Eupf.C67_rx",
    "Eupf.C67_causes",
    "Eupf.C67_tx_partial",
    "Eupf.C67_requests_not_counted",
    "Eupf.C67_counted_unanswered"
   ],
   "note": "received: proved; sent: proved for all names but the two requests the UPF sends itself, never counted; causes: exact value proved, which is not the number of responses (witness)"
  },
  {
   "property": "C68",
   "status": "proved",
   "theorems": [
    "Eupf.C68_associated",
    "Eupf.C68_gauge",
    "Eupf.C68_refresh",
    "Eupf.C68_other_name"
   ],
   "note": "all executions of the endpoint"
  },
  {
   "property": "C69",
   "status": "partial",
   "theorems": [
    "Eupf.C69_request_destination_partial",
    "Eupf.C69_bracketed",
    "Eupf.C69_ipv6_unreachable",
    "Eupf.C69_never_probed",
    "Eupf.C69_live_peer_given_up"
   ],
   "note": "false for IPv6 peers, for every execution"
  },
  {
   "property": "C70",
   "status": "proved",
   "theorems": [
    "Eupf.C70_advertised",
    "Eupf.C70_ftup_off"
   ],
   "note": "all histories"
  },
  {
   "property": "C71",
   "status": "partial",
   "theorems": [
    "Eupf.C71_recognised_partial",
    "Eupf.C71_no_pause_after_wrap",
    "Eupf.C71_every_number_sent"
   ],
   "note": "proved below 2^24; false above for every execution; every number is reached"
  },
  {
   "property": "C72",
   "status": "partial",
   "theorems": [
    "Eupf.C72_next_hop",
    "Eupf.C72_ipv6_as_ipv4",
    "Eupf.C72_ipv6_routes_unused"
   ],
   "note": "the request the program makes is proved to be about the very frame sent; false for IPv6 (for every packet and routing table)"
  },
  {
   "property": "C73",
   "status": "partial",
   "theorems": [
    "Eupf.C73_frame",
    "Eupf.C73_lookups",
    "Eupf.C73_found",
    "Eupf.C73_counted_not_sent"
   ],
   "note": "the N3/N6 counters count attempts"
  },
  {
   "property": "C74",
   "status": "partial",
   "theorems": [
    "Eupf.Smp.C74_exclusive_partial",
    "Eupf.Smp.C74_one_cpu_partial",
    "Eupf.Smp.C74_multiplied"
   ],
   "note": "interleaving model of one timer, sequentially consistent"
  },
  {
   "property": "C75",
   "status": "partial",
   "theorems": [
    "Eupf.Smp.C75_exclusive_partial",
    "Eupf.Smp.C75_never_more_partial",
    "Eupf.Smp.C75_lost",
    "Eupf.Smp.C75_reported_twice",
    "Eupf.Smp.C75_lost_at_report"
   ],
   "note": "interleaving model of one volume, sequentially consistent"
  },
  {
   "property": "C76",
   "status": "partial",
   "theorems": [
    "Eupf.Smp.C76_stable_partial",
    "Eupf.Smp.C76_mixed"
   ],
   "note": "each replacement taken to be atomic"
  },
  {
   "property": "C77",
   "status": "partial",
   "theorems": [
    "Eupf.C77_first_gate_partial",
    "Eupf.C77_only_first",
    "Eupf.C77_second_gate_open"
   ],
   "note": "false for every request with several QER IDs; the first is enforced"
  },
  {
   "property": "C78",
   "status": "partial",
   "theorems": [
    "Eupf.C78_beside_partial",
    "Eupf.C78_in_forwarding_parameters",
    "Eupf.C78_unmarked"
   ],
   "note": "false for every request that has it in the Forwarding Parameters"
  },
  {
   "property": "C79",
   "status": "partial",
   "theorems": [
    "Eupf.C79_first_partial",
    "Eupf.C79_only_first",
    "Eupf.C79_second_filter_lost"
   ],
   "note": "false for every PDI with several SDF filters"
  },
  {
   "property": "C80",
   "status": "partial",
   "theorems": [
    "Eupf.C80_precedence_ignored",
    "Eupf.C80_lower_precedence_wins",
    "Eupf.C19_default_first_partial"
   ],
   "note": "false: no request is treated differently for its Precedence IEs"
  },
  {
   "property": "C81",
   "status": "partial",
   "theorems": [
    "Eupf.C81_ue_address_ignored",
    "Eupf.C81_spoofed_forwarded",
    "Eupf.C66_uplink_partial"
   ],
   "note": "false for every uplink PDR"
  },
  {
   "property": "C82",
   "status": "partial",
   "theorems": [
    "Eupf.C82_source_interface_ignored",
    "Eupf.C82_wrong_side",
    "Eupf.C25_unknown_teid",
    "Eupf.C25_unknown_ue4",
    "Eupf.C25_unknown_ue6"
   ],
   "note": "false for every PDR; tunnelled packets only use the TEID table, others only the address tables"
  },
  {
   "property": "C83",
   "status": "partial",
   "theorems": [
    "Eupf.C83_with_pdi_partial",
    "Eupf.C83_without_pdi",
    "Eupf.C83_handover_rejected"
   ],
   "note": "false for every state"
  },
  {
   "property": "C84",
   "status": "partial",
   "theorems": [
    "Eupf.C84_rules_stay",
    "Eupf.C84_rejected_but_applied",
    "Eupf.C05_isolation"
   ],
   "note": "false in general (what is applied before the failing IE stays) and by witness"
  },
  {
   "property": "C85",
   "status": "partial",
   "theorems": [
    "Eupf.C85_constant_partial",
    "Eupf.C85_next_hop",
    "Eupf.C85_never_refreshed",
    "Eupf.C85_entry_origin",
    "Eupf.C85_stale",
    "Eupf.C85_ignores_source"
   ],
   "note": "false: stale next hops and policy routing (witnesses); exact description of the next hop for all frames and states"
  },
  {
   "property": "C86",
   "status": "partial",
   "theorems": [
    "Eupf.C86_killed_iff",
    "Eupf.C86_query_kills",
    "Eupf.C86_pools_safe_partial",
    "Eupf.C86_alone_safe_partial",
    "Eupf.C86_no_deadlock",
    "Eupf.C86_establishment_writes",
    "Eupf.C86_modification_writes",
    "Eupf.C86_deletion_writes",
    "Eupf.C86_association_writes",
    "Eupf.C86_rule_change_writes",
    "Eupf.C86_refused_writes_nothing",
    "Eupf.C86_address_writes",
    "Eupf.C86_teid_writes",
    "Eupf.C86_teid_release_writes",
    "Eupf.C86_refs_read"
   ],
   "note": "false: any accepted establishment together with a query of the sessions, associations or metrics can end the process; exact condition proved (iff) for every history and every set of queries"
  },
  {
   "property": "C87",
   "status": "partial",
   "theorems": [
    "Eupf.C87_no_leak_partial",
    "Eupf.C87_all_back_partial",
    "Eupf.C87_deleted",
    "Eupf.C87_rejected_leaks",
    "Eupf.C87_exhausted",
    "Eupf.C87_empty_pool",
    "Eupf.C87_update_leaks",
    "Eupf.C87_new_cp_seid_leaks",
    "Eupf.C87_addresses_never_return",
    "Eupf.C15_address_lost"
   ],
   "note": "true of TEIDs for careful peers (every history); false in general: in every state a rejected request costs a TEID; addresses never come back (every history in which no deleted SEID is also a CP SEID)"
  },
  {
   "property": "C88",
   "status": "partial",
   "theorems": [
    "Eupf.C88_room",
    "Eupf.C88_associated_again",
    "Eupf.C88_told_partial",
    "Eupf.C88_session_again",
    "Eupf.C88_forwards_nothing",
    "Eupf.C88_stamps",
    "Eupf.C88_stamp_changes",
    "Eupf.C88_same_second",
    "Eupf.C88_seid_again",
    "Eupf.C88_late_answer",
    "Eupf.C88_unaware_peer"
   ],
   "note": "true of peers that associate on their own account; false of peers that answer an Association Setup Request late (witness, and for every state)"
  },
  {
   "property": "C89",
   "status": "partial",
   "theorems": [
    "Eupf.C89_sessions",
    "Eupf.C89_no_sessions",
    "Eupf.C89_query",
    "Eupf.C89_one_document_partial",
    "Eupf.C89_two_documents",
    "Eupf.C89_associations",
    "Eupf.C89_full_empty",
    "Eupf.C89_full_partial"
   ],
   "note": "false of /pfcp_associations/full in every state with an association, and of unreadable parameters; the rest for every state"
  },
  {
   "property": "C90",
   "status": "partial",
   "theorems": [
    "Eupf.C90_chosen_uplink_partial",
    "Eupf.C90_chosen_address_partial"
   ],
   "note": "for every history; uplink: disciplined peers (otherwise false: C14 negations) and G-PDUs without outer IP options as in C28; downlink: no deleted SEID is also a CP SEID (otherwise an address may be given twice)"
  },
  {
   "property": "C91",
   "status": "partial",
   "theorems": [
    "Eupf.C91_downlink",
    "Eupf.C91_downlink6_partial",
    "Eupf.C91_ipv6_source_never",
    "Eupf.C91_downlink_default_partial",
    "Eupf.C91_default_last",
    "Eupf.C91_two_filters",
    "Eupf.C91_anothers_tunnel",
    "Eupf.C91_uplink_partial",
    "Eupf.C91_uplink_default_partial",
    "Eupf.C91_uplink_not_exchanged"
   ],
   "note": "true of one filter, also after a PDR without filter, for every text with IPv4 ranges or any; false in the other order, with two filters (every text, every history; witness where packets leave in another session's tunnel), and uplink in the sense of the standard"
  },
  {
   "property": "C92",
   "status": "partial",
   "theorems": [
    "Eupf.C92_downlink_partial",
    "Eupf.C92_other_protocols",
    "Eupf.C92_only_exact_address",
    "Eupf.C92_ping_not_forwarded",
    "Eupf.C92_prefix_not_served",
    "Eupf.C92_dual_stack",
    "Eupf.C27_forwarded6"
   ],
   "note": "true of TCP and UDP to the address given (every history); false of other protocols (every state), of other addresses of the prefix and of dual-stack PDRs (every history; witnesses)"
  },
  {
   "property": "C93",
   "status": "partial",
   "theorems": [
    "Eupf.C93_downlink",
    "Eupf.C93_downlink6",
    "Eupf.C93_uplink_partial",
    "Eupf.C93_stopped",
    "Eupf.C93_stopped_uplink"
   ],
   "note": "for every history in which the modifications of the session are accepted and do not update the PDR itself; uplink: G-PDUs as in C28"
  },
  {
   "property": "C94",
   "status": "partial",
   "theorems": [
    "Eupf.C94_no_leak_partial",
    "Eupf.C94_no_leak_urr_partial",
    "Eupf.C94_all_back",
    "Eupf.C94_counted",
    "Eupf.C94_counted_urr",
    "Eupf.C94_rejected_leaks",
    "Eupf.C94_exhausted",
    "Eupf.C94_full",
    "Eupf.C94_peer_lost_keeps_urr_slots",
    "Eupf.C94_urr_lost",
    "Eupf.C94_same_id_leaks"
   ],
   "note": "true of tidy histories (new ids, known references, no establishment that fails half-way; for URRs no lost peer with URRs); false without each of these (every state, or witness)"
  },
  {
   "property": "C95",
   "status": "proved",
   "theorems": [
    "Eupf.C95_accepted",
    "Eupf.C95_needed",
    "Eupf.C95_exact",
    "Eupf.C95_room",
    "Eupf.C95_over"
   ],
   "note": "for every history; the counted forms for the tidy histories of C94 (elsewhere slots leak: C94)"
  },
  {
   "property": "C96",
   "status": "proved",
   "theorems": [
    "Eupf.C96_pdr_tables",
    "Eupf.C96_new_teids"
   ],
   "note": "for every history; the capacity of hash tables is the kernel's (trusted base), the theorem is about what the user space does with it"
  },
  {
   "property": "C97",
   "status": "partial",
   "theorems": [
    "Eupf.C97_deleted_partial",
    "Eupf.C97_peer_lost_partial",
    "Eupf.C97_removed_partial",
    "Eupf.C97_removal_skipped",
    "Eupf.C97_deleted_carried",
    "Eupf.C97_removed_carried"
   ],
   "note": "true if no other session has the key and no other TEID of the session has its low octet (and, for removals, the modification creates and updates no PDR); false without: TEIDs with equal low octets, or a CHOOSE ID equal to the low octet, make the removal be skipped, and the traffic is then even forwarded with the FAR of another session"
  },
  {
   "property": "C98",
   "status": "partial",
   "theorems": [
    "Eupf.C98_exact_partial",
    "Eupf.C98_foreign_passed_partial",
    "Eupf.C98_sent_partial",
    "Eupf.C98_not_exact"
   ],
   "note": "true of orderly histories (Spec/Exact.lean: no request fails half way, no two PDRs share a key, PDR ids are created once, updates keep the key of a PDR without filter, low octets of TEIDs in a session differ, no CHOOSE ID together with removals); false without: half-done establishments leave entries behind (C98_not_exact), changed TEIDs too (C56), re-installed filters widen (C20), skipped removals (C97)"
  },
  {
   "property": "C99",
   "status": "partial",
   "theorems": [
    "Eupf.C99_own_rules_partial",
    "Eupf.C99_sent_partial",
    "Eupf.C99_dangling",
    "Eupf.C99_unknown_far"
   ],
   "note": "true of clean histories (Spec/OwnRules.lean: orderly, tidy, PDRs name a FAR and a QER of their session and rules are removed only with their PDRs); false without: a Remove FAR of a FAR in use leaves the PDR pointing to the slot, which the next session of another peer takes (C99_dangling); a PDR that names an unknown FAR uses slot 0, which is another session's (C99_unknown_far); a PDR without QER uses QER slot 0 (C58)"
  }
 ]
}