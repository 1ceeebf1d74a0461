m('C08','partial','C08_exclusive_partial C08_shared_slot','proved for all histories whose modifications only refer to known rules; false otherwise (witness)')
m('C09','partial','C09_agrees_partial C09_clobbered','proved for all histories whose modifications only refer to known rules; false otherwise (witness)')
m('C10','partial','C10_removed_partial C10_exact_partial C10_stale C10_stale_pdr','exact description of what an accepted deletion removes, for every state, session and iteration order; false whenever two installed uplink TEIDs of the session agree in the low octet (proved for every such state)')
m('C11','partial','C11_deletable_partial C11_exact_partial C11_undeletable','exact condition (iff) for every history and iteration order; false in general: two PDRs with the same UE address')
m('C45','partial','C45_peer_lost C45_keeps C45_leaks','PDRs, FARs and QERs are removed; URR slots and UE addresses are never returned (proved for every state)')
m('C59','partial','C59_no_crash_partial C59_crashes C59_crash_without_pools C59_peer_loss_safe','false as stated (three defects kill the process, witnesses); proved for every node state and every message without these defects, given the pools exist; the loss of a peer never panics in any execution of the timers')
m('C39','partial','C39_deletion_partial C39_removal_partial C39_update_loses','proved for removals and deletions of URRs whose slot is the session\'s own; false after an Update URR (the count of the slot is lost, witness)')
m('C36','proved','C36_update C36_untouched C36_create C36_tables','the last one: as the packets see it, in histories without references to unknown rules (C09)')
m('C37','proved','C37_update C37_untouched C37_rejected C37_create C37_tables','the last one: as the packets see it, in histories without references to unknown rules (C09)')
m('C35','partial','C35_conversion_partial C35_overflow C35_zero_unlimited','false for rates whose product with 1000 exceeds 32 bits (witness)')
m('C18','proved','C18_establish C18_create C18_update','')
m('C19','partial','C19_default_first_partial C19_order_matters','false in general; witness')
m('C20','partial','C20_misclassified C20_with_default_partial','false in general; proved when a default PDR exists')
m('C56','partial','C56_stale_teid C56_keys_kept','the property is false: no update removes a key (general), with a concrete witness')
m('C57','partial','C57_no_key','the property is false: witness')
m('C58','partial','C58_policed_by_other','the property is false: witness')
m('C25','proved','C25_unclassified_untouched C25_unknown_teid C25_unknown_ue4 C25_unknown_ue6 C25_not_ip','')
m('C26','proved','C26_sent_needs_permission C26_ping_reply_needs_permission C26_not_permitted_dropped','')
m('C40','proved','C40_action_counters','modulo 2^64')
m('C49','proved','C49_no_out_of_bounds','in the model an access outside of the frame is a panic')
m('C50','proved','C50_packets_keep_rules C50_sessions_untouched','')
m('C27','proved','C27_downlink4 C27_downlink6 C27_lengths C27_forwarded4','')
m('C28','partial','C28_decapsulated_partial C28_forwarded_partial C28_sequence_number_only','false for other GTP header layouts (witness)')
m('C29','proved','C29_encap_decap','')
m('C30','proved','C30_outer_checksum C30_sent_checksum','')
m('C31','proved','C31_retunnelled C31_options_bad_checksum','')
m('C32','proved','C32_echo_answered','')
m('C33','proved','C33_ping_answered C33_zero_ping','the exception in the statement is witnessed by C33_zero_ping')
m('C34','proved','C34_uplink C34_downlink C34_in_bits C34_truncated C34_unlimited','one packet at a time; the bound is in transmission time as the code computes it (whole ns per octet-octave), C34_in_bits converts it to bits, C34_truncated shows how far truncation goes')
m('C38','partial','C38_uplink_partial C38_downlink_partial C38_all_to_slot_zero C38_recorded C38_third_ignored','false: user space never stores URR ids, so everything is charged to slot 0 (for all histories); the forwarding plane alone charges the right slots')
m('C60','proved','C60_never_configured C60_outside_pool','')
m('C16','proved','C16_establishment C16_modification C16_pool','')
m('C17','proved','C17_created C17_modification C17_feature','')
m('C14','partial','C14_distinct_partial C14_remove_pdr C14_local_seid C14_two_smfs C14_failed_deletion','false in general (four witnesses); proved for all histories in which peers choose distinct SEIDs, remove no single PDRs, and no deletion fails')
m('C15','partial','C15_pool C15_prefix C15_address_lost','the part about returning the address on deletion is false (witness)')
m('C21','proved','Sdf.C21_accepted Sdf.C21_complete','the grammar is a separate specification (Spec/SdfGrammar)')
m('C22','partial','C22_like_any C22_accepted','false: the prefix length is accepted and the address behaves like any')
m('C23','partial','C23_ipv4_partial C23_ipv6_prefix_matches_ipv4 C23_ipv6_filter_ipv4_packet','proved for filters written with IPv4 addresses or any, and packets with unfragmented TCP/UDP or no ports; false for IPv6 prefixes against IPv4 packets (witnesses)')
m('C24','partial','C24_any_partial C24_exact C24_host C24_wrong_end C24_prefix_wrong C24_udp_ports C24_icmp6_never','proved for any addresses; an exact description (iff) of the packets matched by every filter text with any ranges; false for IPv6 prefixes: no filter for one IPv6 source other than :: matches that source (for every filter), and witnesses')
m('C43','proved','C43_dropped C43_only_dropped C43_detected','all executions of the node with its heartbeat goroutines')
m('C44','partial','C44_proceeds_iff C44_wedged_forever C44_any_peer_can_wedge C44_heartbeats_off','false; the wedge is characterised exactly')
m('C61','partial','C61_stale_answers_keep_alive C43_detected','false with stale answers; proved when nothing arrives')
m('C41','partial','C41_totals_partial C41_unexpected_never_reported C41_action_totals C41_route_totals C41_report_counts_frames_partial C41_unexpected_lost','proved for all counters except unexpected GTP messages, for which it is false (witness); C41_report_counts_frames_partial links the report to the frames processed on all CPUs')
m('C42','partial','C42_exported C42_double_counting C42_single_partial C42_kept','false: every scrape adds the full totals again (exact value of the exported counter proved for every sequence of scrapes); proved for a single scrape and for a collector that keeps its previous snapshot')
m('C46','partial','C46_far C46_qer C46_urr C46_pdr_record C46_pdr_write C46_rest_put_pdr C46_rest_put_pdr_wrong C46_rest_get_pdr C46_rest_pdr_overrun','proved for FAR, QER, URR under the C layout rule; false for the REST PDR endpoint (exact effect proved); PDR records written by PFCP: the generated Go type is not in the repository; its member list is written out as bpf2go generates it')
m('C62','proved','C62_rx_counters','all frames, all sequences')
m('C47','partial','C47_validate C47_sizes_partial C47_overflow C47_timeout_zero C47_starts C47_capacity','exact effect of validation for every configuration; false corners characterised')
m('C51','partial','C51_all C51_teid_partial C51_ip4_partial C51_teid_unique_partial C51_second_missing C51_ip6_never C51_wraps C51_both','all node states and iteration orders; false parts proved false for every state')
m('C53','partial','C53_sequence C53_request C53_any_answer C53_between_upfs','all histories of ticks; the matching of answers is false')
m('C54','partial','C54_bad_body_partial C54_effect C54_shows C54_read_back C54_not_atomic C54_ueip_lost C54_one_miss','false: exact effect of every POST; proved only for bodies that cannot be parsed')
m('C63','proved','C63_far C63_qer','all table contents')
m('C64','partial','C64_event C64_history_partial','the PDR entry and the session record: every event; FAR and QER slots: histories whose modifications refer to known rules (otherwise false, C08_shared_slot, C09_clobbered)')
m('C65','proved','C65_downlink C65_downlink_limited','from the request, over any history elsewhere, to the octets on the wire; histories whose modifications refer to known rules')
m('C66','partial','C66_uplink_partial C28_forwarded_partial','as C65; the GTP-U header forms of C28')

m('C67','partial','C67_rx C67_causes C67_tx_partial C67_requests_not_counted C67_counted_unanswered','received: proved; sent: proved for all names but the two requests the UPF sends itself, never counted; causes: exact value proved, which is not the number of responses (witness)')
m('C68','proved','C68_associated C68_gauge C68_refresh C68_other_name','all executions of the endpoint')
m('C69','partial','C69_request_destination_partial C69_bracketed C69_ipv6_unreachable C69_never_probed C69_live_peer_given_up','false for IPv6 peers, for every execution')
m('C70','proved','C70_advertised C70_ftup_off','all histories')
m('C71','partial','C71_recognised_partial C71_no_pause_after_wrap C71_every_number_sent','proved below 2^24; false above for every execution; every number is reached')
m('C72','partial','C72_next_hop C72_ipv6_as_ipv4 C72_ipv6_routes_unused','the request the program makes is proved to be about the very frame sent; false for IPv6 (for every packet and routing table)')
m('C73','partial','C73_frame C73_lookups C73_found C73_counted_not_sent','the N3/N6 counters count attempts')
m('C74','partial','Smp.C74_exclusive_partial Smp.C74_one_cpu_partial Smp.C74_multiplied','interleaving model of one timer, sequentially consistent')
m('C75','partial','Smp.C75_exclusive_partial Smp.C75_never_more_partial Smp.C75_lost Smp.C75_reported_twice Smp.C75_lost_at_report','interleaving model of one volume, sequentially consistent')
m('C76','partial','Smp.C76_stable_partial Smp.C76_mixed','each replacement taken to be atomic')
m('C77','partial','C77_first_gate_partial C77_only_first C77_second_gate_open','false for every request with several QER IDs; the first is enforced')
m('C78','partial','C78_beside_partial C78_in_forwarding_parameters C78_unmarked','false for every request that has it in the Forwarding Parameters')
m('C79','partial','C79_first_partial C79_only_first C79_second_filter_lost','false for every PDI with several SDF filters')
m('C80','partial','C80_precedence_ignored C80_lower_precedence_wins C19_default_first_partial','false: no request is treated differently for its Precedence IEs')
m('C81','partial','C81_ue_address_ignored C81_spoofed_forwarded C66_uplink_partial','false for every uplink PDR')
m('C82','partial','C82_source_interface_ignored C82_wrong_side C25_unknown_teid C25_unknown_ue4 C25_unknown_ue6','false for every PDR; tunnelled packets only use the TEID table, others only the address tables')
m('C83','partial','C83_with_pdi_partial C83_without_pdi C83_handover_rejected','false for every state')
m('C84','partial','C84_rules_stay C84_rejected_but_applied C05_isolation','false in general (what is applied before the failing IE stays) and by witness')
m('C85','partial','C85_constant_partial C85_next_hop C85_never_refreshed C85_entry_origin C85_stale C85_ignores_source','false: stale next hops and policy routing (witnesses); exact description of the next hop for all frames and states')
m('C86','partial','C86_killed_iff C86_query_kills C86_pools_safe_partial C86_alone_safe_partial C86_no_deadlock C86_establishment_writes C86_modification_writes C86_deletion_writes C86_association_writes C86_rule_change_writes C86_refused_writes_nothing C86_address_writes C86_teid_writes C86_teid_release_writes C86_refs_read','false: any accepted establishment together with a query of the sessions, associations or metrics can end the process; exact condition proved (iff) for every history and every set of queries')
m('C87','partial','C87_no_leak_partial C87_all_back_partial C87_deleted C87_rejected_leaks C87_exhausted C87_empty_pool C87_update_leaks C87_new_cp_seid_leaks C87_addresses_never_return C15_address_lost','true of TEIDs for careful peers (every history); false in general: in every state a rejected request costs a TEID; addresses never come back (every history in which no deleted SEID is also a CP SEID)')
m('C88','partial','C88_room C88_associated_again C88_told_partial C88_session_again C88_forwards_nothing C88_stamps C88_stamp_changes C88_same_second C88_seid_again C88_late_answer C88_unaware_peer','true of peers that associate on their own account; false of peers that answer an Association Setup Request late (witness, and for every state)')
m('C89','partial','C89_sessions C89_no_sessions C89_query C89_one_document_partial C89_two_documents C89_associations C89_full_empty C89_full_partial','false of /pfcp_associations/full in every state with an association, and of unreadable parameters; the rest for every state')
m('C90','partial','C90_chosen_uplink_partial C90_chosen_address_partial','for every history; uplink: disciplined peers (otherwise false: C14 negations) and G-PDUs without outer IP options as in C28; downlink: no deleted SEID is also a CP SEID (otherwise an address may be given twice)')
m('C91','partial','C91_downlink C91_downlink6_partial C91_ipv6_source_never C91_downlink_default_partial C91_default_last C91_two_filters C91_anothers_tunnel C91_uplink_partial C91_uplink_default_partial C91_uplink_not_exchanged','true of one filter, also after a PDR without filter, for every text with IPv4 ranges or any; false in the other order, with two filters (every text, every history; witness where packets leave in another session\'s tunnel), and uplink in the sense of the standard')
m('C92','partial','C92_downlink_partial C92_other_protocols C92_only_exact_address C92_ping_not_forwarded C92_prefix_not_served C92_dual_stack C27_forwarded6','true of TCP and UDP to the address given (every history); false of other protocols (every state), of other addresses of the prefix and of dual-stack PDRs (every history; witnesses)')
m('C93','partial','C93_downlink C93_downlink6 C93_uplink_partial C93_stopped C93_stopped_uplink','for every history in which the modifications of the session are accepted and do not update the PDR itself; uplink: G-PDUs as in C28')
m('C94','partial','C94_no_leak_partial C94_no_leak_urr_partial C94_all_back C94_counted C94_counted_urr C94_rejected_leaks C94_exhausted C94_full C94_peer_lost_keeps_urr_slots C94_urr_lost C94_same_id_leaks','true of tidy histories (new ids, known references, no establishment that fails half-way; for URRs no lost peer with URRs); false without each of these (every state, or witness)')
m('C95','proved','C95_accepted C95_needed C95_exact C95_room C95_over','for every history; the counted forms for the tidy histories of C94 (elsewhere slots leak: C94)')
m('C96','proved','C96_pdr_tables C96_new_teids','for every history; the capacity of hash tables is the kernel\'s (trusted base), the theorem is about what the user space does with it')
m('C97','partial','C97_deleted_partial C97_peer_lost_partial C97_removed_partial C97_removal_skipped C97_deleted_carried C97_removed_carried','true if no other session has the key and no other TEID of the session has its low octet (and, for removals, the modification creates and updates no PDR); false without: TEIDs with equal low octets, or a CHOOSE ID equal to the low octet, make the removal be skipped, and the traffic is then even forwarded with the FAR of another session')
m('C98','partial','C98_exact_partial C98_foreign_passed_partial C98_sent_partial C98_not_exact','true of orderly histories (Spec/Exact.lean: no request fails half way, no two PDRs share a key, PDR ids are created once, updates keep the key of a PDR without filter, low octets of TEIDs in a session differ, no CHOOSE ID together with removals); false without: half-done establishments leave entries behind (C98_not_exact), changed TEIDs too (C56), re-installed filters widen (C20), skipped removals (C97)')
m('C99','partial','C99_own_rules_partial C99_sent_partial C99_dangling C99_unknown_far','true of clean histories (Spec/OwnRules.lean: orderly, tidy, PDRs name a FAR and a QER of their session and rules are removed only with their PDRs); false without: a Remove FAR of a FAR in use leaves the PDR pointing to the slot, which the next session of another peer takes (C99_dangling); a PDR that names an unknown FAR uses slot 0, which is another session\'s (C99_unknown_far); a PDR without QER uses QER slot 0 (C58)')
m('C100','partial','C100_said_partial C100_sent_partial C100_unknown_partial C100_unfit_partial C100_stopped_partial C100_downlink_partial C100_uplink_partial C100_retunnelled_partial C100_downlink_limited_partial C100_uplink_limited_partial','true of clean histories (Spec/OwnRules.lean), whose excluded cases are shown to be false in C20, C56, C97, C98, C99; rate-limited frames are forwarded as told or dropped untouched (how much: C102); uplink for the header forms of C28; a G-PDU to be sent from tunnel to tunnel may still be dropped by the route lookup')
m('C101','partial','C101_uplink_partial C101_downlink_partial C101_starved','true within a tolerance of 5 ms on a QER that was idle before; false of frames that take more than 5 ms at the rate (C101_starved, every state)')
m('C102','partial','C102_uplink_at_most_partial C102_downlink_at_most_partial C102_uplink_at_least_partial C102_downlink_at_least_partial','for clean histories (Spec/OwnRules.lean) and rates below 2^32 bit/s (C35_overflow shows that larger ones wrap); a bit is taken as floor(10^9/rate) ns (C34); full frames at low rates get less (C101_starved)')
m('C103','partial','C103_node_messages C103_refused C103_updates_once_partial C103_deleted_once_partial C103_establish_new_answer C103_establish_second_session C103_establish_twice C103_not_once C103_far_taken_twice C103_delete_answered_differently C103_late_duplicate','true of node messages, refused requests and updates; false of establishments (every state), modifications that create rules and deletions (witnesses)')
m('C104','proved','C104_teid_last C104_address_last C104_chosen_teid_last','for every history from every state; the example meets the bound exactly')
m('C105','partial','C105_nothing_given_back C105_refused_after_restart','false of the code: the negation is proved for every state, with a witness of the consequence')
m('C106','proved','C106_interleaved C106_as_a_whole C106_request C106_said_partial C106_exact_partial','a table write is atomic (C76 for the tearing of array elements); a URR is read and cleared as one step (C75 has what may get lost in between); the last two theorems carry C100 and C98, with their hypotheses, over')
m('C107','partial','C107_tables_partial C107_downlink_partial C107_uplink_partial C107_stopped_partial C107_downlink_limited_partial C107_uplink_limited_partial','conditional on the hypotheses of C99/C100 (known references, no shared match keys) and of C64 (the event does not name the key, nor is it free in the pools); rate-limited frames are forwarded as told or dropped untouched')
m('C108','partial','C108_downlink_partial C108_uplink_partial C108_stopped_partial C108_leak C108_downlink_limited_partial C108_uplink_limited_partial','hypotheses as C107, for events about other sessions; false when the own session is deleted in between (C108_leak, witness); rate-limited frames are forwarded as told or dropped untouched')
m('C109','proved','C109_establish C109_modify C109_delete C109_shorter_establishment C109_shorter_modification C109_gap','for every state and request; C109_gap is the witness for the last sentence')
m('C110','partial','C110_establish_partial C110_delete_partial C110_peer_lost C110_ping','conditional on the hypotheses of C99 (orderly, tidy, own rules); the three look-ups of the packet happen at one moment; timers of the rate limiters are taken as they are; the two exceptions have witnesses (C110_peer_lost, C110_ping)')
m('C111','partial','C111_establish C111_modify_partial C111_history_partial','the establishment part is complete; modifications that remove FARs, QERs or PDRs are excluded (a FAR is removed before the PDR that uses it is updated, C109_gap)')
m('C112','partial','C112_modify_partial C112_one_kind_partial C112_two_changes','conditional on the hypotheses of C99; pings of the UPF excepted as in C110; the three look-ups of the packet happen at one moment here (C114: at three); the exception has a witness (C112_two_changes)')
m('C113','partial','C113_accepted_partial C113_needed C113_exact_partial C113_updates C113_removals_partial C113_accepted_orderly_partial C113_exact_orderly_partial C113_no_reuse','sufficient and necessary conditions agree, given places in the PDR tables and addresses for every PDR that asks for one; for modifications that remove PDRs this holds in orderly histories, if the modification without the removals is orderly (PDRs that share a match key cannot both be removed, C11)')
m('C114','partial','C114_establish_partial C114_modify_partial C114_one_kind_partial C114_delete_partial C114_closed_gate C114_dropped','conditional on the hypotheses of C99; pings of the UPF excepted as in C110; the deletion part is false as stated for the other requests, and what can happen instead is proved, with witnesses (C114_closed_gate, C114_dropped); the loss of a peer is not covered (C110_peer_lost)')
m('C115','partial','C115_same_partial C115_same_limited_partial C115_sequence_partial C115_orders_partial','conditional on the hypotheses of C99 (clean histories); with rate limits for single packets and limiters in the same state; pings of the UPF included')
m('C116','partial','C116_uplink_partial C116_downlink_partial C116_still C116_timers C116_restart','conditional on the hypotheses of C99 (clean requests) and an MBR below 2^32 bit/s; the timers at the beginning must not lie 292 years ahead (C116_timers: they never do in the first 146 years of uptime); a packet is processed between two requests (C110, C114: during requests); that requests naming the QER let more through has a witness (C116_restart)')
m('C117','partial','C117_one_report C117_deletion C117_one_of_two_partial C117_nothing_or_everything_partial C117_silence C117_others_traffic','the property is false of the code, with a witness (C117_others_traffic: a session without PDRs is told of another peer\'s traffic, twice, and the session whose PDR names a URR is told of none); what is proved is what the counters do instead, for every timeline of packets and requests that only refer to known rules, as long as the 64-bit counters do not overflow')
m('C118','partial','C118_uplink_partial C118_downlink_partial C118_n9_partial C118_zero C118_ring C118_alone C118_for_ever','the property is false of the code: the theorems say that every packet keeps its Time To Live (partial: under the hypotheses of C27, C28 and C31 about header lengths), that packets with nothing left are sent on, and that rings of UPFs - one alone included - pass a packet on for ever')
m('C119','partial','C119_downlink_partial C119_same_tunnel_partial C119_uplink_partial C119_not_looked_at C119_torn C119_cut_short C119_forged','the rule is the same for all pieces if the filter does not look at ports; the rest is false of the code: C119_not_looked_at (for every G-PDU) and C119_cut_short (for every incomplete one) say what it does instead, C119_torn and C119_forged are witnesses')
m('C120','partial','C120_nothing_carried C120_sent_needs_request C120_not_named_again C120_served_until_restart C120_taken_over','false of the code, proved for every restart; what holds (C120_sent_needs_request): nothing is carried without a request since the last start')
m('C121','partial','C121_says_nothing C121_no_reports C121_dropped_partial C121_stream_partial C121_first_packet_lost','false of the code; the negations are proved for all executions (messages) and all clean histories (packets)')
m('C122','partial','C122_not_carried C122_end_marker_lost C122_no_error_indication_partial C122_answers_only_echo','false of the code; the negations are proved for all frames and tables')
m('C123','partial','C123_ipv4_same C123_ipv4_served_partial C123_ipv6_refused C123_ipv6_drained C123_choose_ipv6_refused','false for IPv6 pools (for every state of such a pool); proved for IPv4 pools, together with the agreement, rule by rule, of the pool of octet slices with the IPv4 pool of the node model')
m('C124','partial','C17_created C17_modification C124_updates_untold C124_update_teid C124_update_ip C124_drain','true for Create PDR (C17); false for Update PDR, for every state and request of that kind')
