{"id": "C01", "title": "Session requests need an association", "statement": "A session establishment, modification or deletion request from a peer that has no PFCP association is answered with cause 72 (no established association) and changes neither any session, nor any identifier pool, nor any forwarding table.", "quantifier": "every node state, every peer address without association, every request content (establishment: with the mandatory IEs present)", "why_tests_cant": "the set of states and requests is unbounded; a test only samples a few states", "anchors": ["cmd/core/pfcp_session_handlers.go: HandlePfcpSessionEstablishmentRequest, HandlePfcpSessionModificationRequest, HandlePfcpSessionDeletionRequest"]}
{"id": "C02", "title": "Unknown SEID is rejected without effect", "statement": "A modification or deletion request whose SEID is not a session of the sending peer (even if it is a session of another peer) is answered with cause 65 and has no effect.", "quantifier": "every node state, peer, SEID and request content", "why_tests_cant": "needs all states, including ones where another peer owns the SEID", "anchors": ["cmd/core/pfcp_session_handlers.go: HandlePfcpSessionModificationRequest, HandlePfcpSessionDeletionRequest"]}
{"id": "C03", "title": "Mandatory IEs are validated before any effect", "statement": "An establishment request without a decodable Node ID or CP F-SEID is answered with cause 66; an association setup request without Node ID / Recovery Time Stamp is answered 66, with an undecodable one 69; in all these cases the node state is unchanged.", "quantifier": "every node state and request content", "why_tests_cant": "all malformed-IE combinations in all states", "anchors": ["cmd/core/pfcp_session_handlers.go: validateRequest, convertErrorToIeCause", "cmd/core/pfcp_handlers.go: HandlePfcpAssociationSetupRequest"]}
{"id": "C04", "title": "Local SEIDs are fresh", "statement": "The SEID the node hands out in an accepted establishment was never handed out before by the same association (so it never names an existing session of that peer), and never 0 or 1, as long as fewer than 2^64-2 establishments were attempted. Across peers the same SEID can be handed out (negation proved).", "quantifier": "every history of PFCP messages", "why_tests_cant": "freshness is a statement about all histories", "anchors": ["cmd/core/node_association.go: NewLocalSEID", "cmd/core/pfcp_session_handlers.go: HandlePfcpSessionEstablishmentRequest"]}
{"id": "C05", "title": "Session records are isolated", "statement": "A session message for one (peer, SEID) leaves the record (rules, SEIDs) of every other session of every peer exactly as it was, whether the message is accepted, rejected or crashes half-way.", "quantifier": "every node state, every session message, every other session, every map iteration order", "why_tests_cant": "all pairs of sessions in all states, including failures at every intermediate point", "anchors": ["cmd/core/pfcp_session_handlers.go", "cmd/core/session.go", "cmd/core/node_association.go"]}
{"id": "C06", "title": "Responses are addressed correctly", "statement": "Every response carries the sequence number of its request; an accepted establishment/modification/deletion response carries in its header the control plane's SEID of that session (the one most recently given by the control plane).", "quantifier": "every node state and request", "why_tests_cant": "all histories of F-SEID changes", "anchors": ["cmd/core/pfcp_session_handlers.go: HandlePfcpSession*Request", "cmd/core/pfcp_handlers.go: Handle"]}
{"id": "C07", "title": "Rule slot allocator", "statement": "A slot identifier that has been handed out and not released is never handed out again; allocation fails exactly when all slots 0..size-1 are outstanding; a released slot becomes available again; releasing identifiers outside 0..size-1 has no effect.", "quantifier": "every size and every sequence of allocate/release calls", "why_tests_cant": "unbounded histories", "anchors": ["cmd/ebpf/objects.go: IdTracker, NewIdTracker, GetNext, Release"]}
{"id": "C08", "title": "Rule slots are owned exclusively", "statement": "No two live sessions (or two rules of one session) use the same FAR, QER or URR slot of the forwarding plane, and a slot in use by a live session is never in the free pool. (False when a request updates or removes a rule id that the session does not have; proved for all histories of requests that only update/remove known rules.)", "quantifier": "every history of PFCP messages, every pair of rules", "why_tests_cant": "a global invariant over all histories", "anchors": ["cmd/core/pfcp_session_handlers.go", "cmd/core/session.go: GetFar, UpdateFar, RemoveFar", "cmd/ebpf/pdr.go: NewFar, UpdateFar, DeleteFar"]}
{"id": "C09", "title": "Forwarding plane agrees with the session record", "statement": "At any time the forwarding plane's FAR slot of every FAR of every live session contains exactly the parameters recorded for that session, and the QER slot the gate status, QFI and bit rates recorded.", "quantifier": "every history of PFCP messages and packets", "why_tests_cant": "global invariant over all histories", "anchors": ["cmd/core/pfcp_session_handlers.go: composeFarInfo, updateQer", "cmd/ebpf/pdr.go: NewFar, UpdateFar, NewQer, UpdateQer"]}
{"id": "C10", "title": "An accepted deletion removes everything", "statement": "After an accepted session deletion no PDR key of the session is in the forwarding tables, all its FAR/QER/URR slots are zeroed and free again, and the session no longer exists. (False for uplink PDRs whose TEIDs agree modulo 256; proved when TEIDs that agree in the low byte are equal.)", "quantifier": "every state, every session, every iteration order", "why_tests_cant": "all sessions and iteration orders", "anchors": ["cmd/core/pfcp_session_handlers.go: HandlePfcpSessionDeletionRequest", "cmd/core/pdr_creation_context.go: deletePDR"]}
{"id": "C11", "title": "An existing session can be deleted", "statement": "A deletion request for an existing session is answered with cause 1 and the session is removed. (False: two PDRs with the same UE IP make the session permanently undeletable and the request unanswered; proved for sessions whose PDR keys are installed and whose UE IPs are distinct.)", "quantifier": "every state, every session, every iteration order", "why_tests_cant": "all sessions and iteration orders", "anchors": ["cmd/core/pfcp_session_handlers.go: HandlePfcpSessionDeletionRequest", "cmd/core/pfcp_handlers.go: Handle", "cmd/core/pdr_creation_context.go: deletePDR"]}
{"id": "C12", "title": "A rejected establishment has no effect", "statement": "A rejected session establishment leaves the set of sessions unchanged and installs nothing in the forwarding plane. (The second half is false: no rollback.)", "quantifier": "every state and request", "why_tests_cant": "failure at every intermediate step", "anchors": ["cmd/core/pfcp_session_handlers.go: HandlePfcpSessionEstablishmentRequest"]}
{"id": "C13", "title": "TEID pool", "statement": "TEIDs handed out by the pool are in 1..range, and two TEIDs outstanding at the same time are different; exhaustion is reported as an error; releasing a session's TEIDs makes exactly these available again.", "quantifier": "every range and every sequence of allocate/release calls, every map iteration order", "why_tests_cant": "unbounded histories", "anchors": ["cmd/core/service/resource_manager.go: NewResourceManager, AllocateTEID, ReleaseTEID"]}
{"id": "C14", "title": "No two live sessions share an allocated TEID", "statement": "At the PFCP level: the TEIDs the node allocated for PDRs of live sessions are pairwise different across sessions. (False: TEIDs are released under the wrong SEID; witnesses proved.)", "quantifier": "every history of PFCP messages", "why_tests_cant": "global invariant over all histories", "anchors": ["cmd/core/pdr_creation_context.go: extractPDR, deletePDR", "cmd/core/pfcp_connection.go: ReleaseResources", "cmd/core/service/resource_manager.go"]}
{"id": "C15", "title": "UE IP pool", "statement": "IP addresses handed out are members of the configured pool and not outstanding already; an exhausted pool yields an error; deleting a session returns its address. (Last part false at the PFCP level: allocated under the remote SEID, released under the local one.)", "quantifier": "every pool and every history", "why_tests_cant": "unbounded histories", "anchors": ["cmd/core/service/resource_manager.go: AllocateIP, ReleaseIP", "cmd/core/pfcp_connection.go: ReleaseResources", "cmd/core/pdr_creation_context.go: getIP"]}
{"id": "C16", "title": "CHOOSE ID", "statement": "Within one request, PDRs that ask for a TEID with the same CHOOSE ID get the same TEID, PDRs with different CHOOSE IDs or without CHOOSE ID get different TEIDs.", "quantifier": "every request and pool state", "why_tests_cant": "all requests", "anchors": ["cmd/core/pdr_creation_context.go: extractPDR, hasTEIDCache, setTEIDCache"]}
{"id": "C17", "title": "Created PDR IEs tell the truth", "statement": "An accepted establishment reports for exactly the PDRs whose TEID or IPv4 address was chosen by the node a Created PDR IE, with the PDR id and the value installed in the forwarding table (F-TEID with the N3 address); the Create PDRs of an accepted modification likewise. Addresses are chosen exactly while the feature is configured (as last posted).", "quantifier": "every state and request", "why_tests_cant": "all requests", "anchors": ["cmd/core/pfcp_session_handlers.go", "cmd/core/pdr.go: processCreatedPDRs", "cmd/core/pdr_creation_context.go: extractPDR"]}
{"id": "C18", "title": "An accepted PDR is installed", "statement": "When a PDR is accepted, the forwarding table has, under its UE IP or TEID, an entry whose FAR and QER are the slots of the FAR and QER of the same session that the PDR names and whose outer-header-removal is the one given.", "quantifier": "every state, every PDR", "why_tests_cant": "all PDRs in all table states", "anchors": ["cmd/core/pdr.go: applyPDR", "cmd/ebpf/pdr.go: PutPdrUplink, PutPdrDownlink, PutDownlinkPdrIp6, CombinePdrWithSdf, ToIpEntrypointPdrInfo"]}
{"id": "C19", "title": "PDR order independence", "statement": "Installing a default PDR and an SDF PDR for the same key in either order gives the same classification. (False: default after SDF erases the filter; proved for default first.)", "quantifier": "every pair of PDRs and every key", "why_tests_cant": "all pairs", "anchors": ["cmd/ebpf/pdr.go: CombinePdrWithSdf, ToIpEntrypointPdrInfo"]}
{"id": "C20", "title": "Re-installing an SDF-only PDR keeps non-matching traffic unclassified", "statement": "Updating a PDR that has an SDF filter, when no default PDR exists for the key, leaves packets not matching the filter unclassified. (False: the second installation turns the entry into mode 2 with default FAR 0.)", "quantifier": "every SDF PDR", "why_tests_cant": "all PDRs", "anchors": ["cmd/ebpf/pdr.go: PreprocessPdrWithSdf, CombinePdrWithSdf", "cmd/ebpf/xdp/n3n6_entrypoint.c: handle_gtp_packet"]}
{"id": "C21", "title": "SDF filter grammar", "statement": "The filters accepted are exactly the 'permit out PROTO from SRC to DST' descriptions of the documented grammar; omitted ports mean 0-65535; inverted or out-of-range port ranges are rejected; the parsed record has the protocol, addresses, masks and ports written in the text.", "quantifier": "every string", "why_tests_cant": "all strings", "anchors": ["cmd/core/sdf_filter_parser.go: ParseSdfFilter, ParseProtocol, ParsePortRange, ParsePort"]}
{"id": "C22", "title": "Out-of-range prefix lengths are rejected", "statement": "An address with a prefix length greater than the address length is rejected. (False: it is accepted and behaves like 'any'.)", "quantifier": "every address and prefix length", "why_tests_cant": "all inputs", "anchors": ["cmd/core/sdf_filter_parser.go: ParseCidrIp"]}
{"id": "C23", "title": "IPv4 SDF classification means what the filter says", "statement": "For an IPv4 packet the forwarding plane says 'match' exactly when the protocol equals (or the filter says ip), the source and destination are in the given prefixes and the ports in the given ranges.", "quantifier": "every filter and every packet", "why_tests_cant": "2^100+ combinations", "anchors": ["cmd/ebpf/xdp/sdf_filter.h: match_sdf_filter_ipv4", "cmd/ebpf/pdr.go: CombinePdrWithSdf, Copy16Ip"]}
{"id": "C24", "title": "IPv6 SDF classification means what the filter says", "statement": "Same for IPv6. (False; proved only for filters with any addresses.)", "quantifier": "every filter and packet", "why_tests_cant": "2^300 combinations", "anchors": ["cmd/ebpf/xdp/sdf_filter.h: match_sdf_filter_ipv6"]}
{"id": "C25", "title": "Unclassified packets are passed untouched", "statement": "A packet that matches no PDR (unknown TEID, unknown UE address, or SDF-only entry whose filter does not match), and a packet that is not IPv4/IPv6, is handed to the kernel (XDP_PASS) byte for byte and no QER timer or URR counter changes.", "quantifier": "every frame and every table content", "why_tests_cant": "all frames", "anchors": ["cmd/ebpf/xdp/n3n6_entrypoint.c: process_packet, handle_ip4, handle_gtp_packet, handle_n6_packet_ipv4"]}
{"id": "C26", "title": "Forwarding needs FORW action and open gate", "statement": "A frame is only sent on (TX or redirected) as user traffic if the FAR of the classified PDR has the FORW flag and the QER gate of that direction is open; downlink additionally needs the GTP outer header creation; otherwise it is dropped.", "quantifier": "every frame and every table content", "why_tests_cant": "all frames and tables", "anchors": ["cmd/ebpf/xdp/n3n6_entrypoint.c: handle_gtp_packet, handle_n6_packet_ipv4, handle_n6_packet_ipv6"]}
{"id": "C27", "title": "Downlink encapsulation", "statement": "A forwarded downlink packet is the original IP packet, unchanged, preceded by Ethernet, outer IPv4 (source N3 address, destination FAR remote address, TOS from transport level marking), UDP 2152/2152, GTP-U G-PDU with the FAR's TEID and the PDU session container with the QER's QFI, with consistent length fields.", "quantifier": "every downlink packet and every FAR/QER", "why_tests_cant": "all packets and parameters", "anchors": ["cmd/ebpf/xdp/utils/gtp_utils.h: add_gtp_over_ip4_headers, fill_ip_header, fill_udp_header, fill_gtp_header"]}
{"id": "C28", "title": "Uplink decapsulation", "statement": "A forwarded uplink packet with outer header removal is exactly the inner IP packet behind the Ethernet header. (Only for G-PDUs with no optional fields or with exactly 8 octets of optional fields behind an outer IP header without options; witness for other layouts.)", "quantifier": "every uplink G-PDU", "why_tests_cant": "all packets", "anchors": ["cmd/ebpf/xdp/utils/gtp_utils.h: remove_gtp_header", "cmd/ebpf/xdp/n3n6_entrypoint.c: handle_gtp_packet"]}
{"id": "C29", "title": "Encapsulation and decapsulation are inverse", "statement": "Removing the headers that downlink encapsulation added yields the original IP packet with its original EtherType.", "quantifier": "every IP packet", "why_tests_cant": "all packets", "anchors": ["cmd/ebpf/xdp/utils/gtp_utils.h: add_gtp_over_ip4_headers, remove_gtp_header"]}
{"id": "C30", "title": "Outer IPv4 header checksum", "statement": "The outer IPv4 header produced by encapsulation has a valid checksum (ones' complement sum of the header words is 0xffff).", "quantifier": "every FAR/QER and packet length", "why_tests_cant": "2^96 header contents", "anchors": ["cmd/ebpf/xdp/utils/gtp_utils.h: add_gtp_over_ip4_headers", "cmd/ebpf/xdp/utils/csum.h: ipv4_csum, csum_fold_helper"]}
{"id": "C31", "title": "N9 re-tunnelling", "statement": "Re-tunnelling an uplink G-PDU changes only the outer source/destination address, the outer IP checksum, the TEID, and clears the UDP checksum; all other octets of the frame, including the payload, are kept and the frame length is unchanged; the checksum is valid for headers without options.", "quantifier": "every uplink G-PDU", "why_tests_cant": "all packets", "anchors": ["cmd/ebpf/xdp/utils/gtp_utils.h: update_gtp_tunnel"]}
{"id": "C32", "title": "GTP-U echo", "statement": "A GTP-U echo request is answered with an echo response of the same sequence number with Ethernet, IP and UDP endpoints swapped.", "quantifier": "every echo request frame", "why_tests_cant": "all frames", "anchors": ["cmd/ebpf/xdp/utils/gtp_utils.h: handle_echo_request", "cmd/ebpf/xdp/utils/gtpu.h: insert_recovery"]}
{"id": "C33", "title": "ICMP echo to the UPF", "statement": "An uplink ICMP echo request to the UPF's address yields a reply with swapped addresses, type 0, unchanged identifier, sequence number and payload, and a checksum that is valid if the request's was (except in one corner of the incremental update: identifier, sequence number and payload all zero, witness).", "quantifier": "every echo request", "why_tests_cant": "all frames", "anchors": ["cmd/ebpf/xdp/utils/icmp.h: prepare_icmp_echo_reply", "cmd/ebpf/xdp/n3n6_entrypoint.c: handle_gtp_packet"]}
{"id": "C34", "title": "Rate limiting", "statement": "Over any time interval of length T the traffic of one direction of a QER that passes is at most MBR*T plus the burst tolerance (5 ms window plus one packet). (Exact for MBRs dividing 10^9; general bound with the integer-division error; unlimited above 10^9 bit/s.)", "quantifier": "every sequence of packet sizes and arrival times, every initial timer value", "why_tests_cant": "all arrival sequences", "anchors": ["cmd/ebpf/xdp/qer.h: limit_rate_sliding_window"]}
{"id": "C35", "title": "Maximum bit rate 0 means unlimited and MBR is converted exactly", "statement": "A QER with MBR 0 never drops; an MBR given in kbit/s is enforced as 1000 times that many bit/s. (Second part false above 4294967 kbit/s: 32-bit overflow; proved below.)", "quantifier": "every packet sequence, every MBR value", "why_tests_cant": "all values", "anchors": ["cmd/ebpf/xdp/qer.h", "cmd/core/pfcp_session_handlers.go: updateQer"]}
{"id": "C36", "title": "QER update merges", "statement": "Updating a QER changes exactly the fields present in the request.", "quantifier": "every QER and request", "why_tests_cant": "all subsets of optional IEs", "anchors": ["cmd/core/pfcp_session_handlers.go: updateQer"]}
{"id": "C37", "title": "FAR update merges", "statement": "Updating a FAR changes exactly the parameters present in the request; a rejected update leaves the FAR unchanged.", "quantifier": "every FAR and request", "why_tests_cant": "all subsets of optional IEs", "anchors": ["cmd/core/pfcp_session_handlers.go: composeFarInfo"]}
{"id": "C38", "title": "Usage is accounted to the right URR", "statement": "Every forwarded packet of n bytes of a PDR adds n to the uplink/downlink volume of the URRs named by that PDR and to nothing else. (False: URR ids never reach the forwarding plane, all traffic is added twice to slot 0.)", "quantifier": "every packet and table content", "why_tests_cant": "all histories", "anchors": ["cmd/ebpf/xdp/urr.h: update_urr", "cmd/ebpf/pdr.go: CombinePdrWithSdf, ToIpEntrypointPdrInfo"]}
{"id": "C39", "title": "Usage reports", "statement": "The usage report sent when a URR is removed, or the session deleted, contains the URR id, sequence number one, the accumulated uplink and downlink volume of the URR's slot and their sum, and the slot is cleared.", "quantifier": "every state and request", "why_tests_cant": "all accumulated volumes", "anchors": ["cmd/core/pfcp_session_handlers.go", "cmd/ebpf/pdr.go: DeleteUrr"]}
{"id": "C40", "title": "XDP action counters", "statement": "After any sequence of frames, the counter of each XDP action equals the number of frames for which the program returned that action.", "quantifier": "every sequence of frames", "why_tests_cant": "unbounded histories", "anchors": ["cmd/ebpf/xdp/n3n6_entrypoint.c: upf_ip_entrypoint_func", "cmd/ebpf/xdp/statistics.h"]}
{"id": "C41", "title": "Packet statistics totals", "statement": "The totals reported over all CPUs equal the sum of the per-CPU counters, for every counter. (False for unexpected GTP messages, which are never added.)", "quantifier": "every per-CPU content", "why_tests_cant": "all contents", "anchors": ["cmd/ebpf/stats.go: Add, GetUpfExtStatField"]}
{"id": "C42", "title": "Prometheus counters", "statement": "After any sequence of scrapes the exported counter equals the data plane's total. (False: every scrape adds the full total again; proved when the previous values were kept.)", "quantifier": "every sequence of scrapes", "why_tests_cant": "unbounded histories", "anchors": ["cmd/core/metrics.go", "cmd/ebpf/stats.go: GetUpfExtStatDelta", "cmd/api/rest/handler.go"]}
{"id": "C43", "title": "An association is only dropped after N consecutive unanswered heartbeats", "statement": "The heartbeat scheduler declares a peer failed only if its last HeartbeatRetries heartbeat periods all expired without a matching answer in between.", "quantifier": "every interleaving of timeouts and answers", "why_tests_cant": "all schedules", "anchors": ["cmd/core/node_association.go: ScheduleHeartbeat"]}
{"id": "C44", "title": "The control plane never wedges", "statement": "From every reachable state the main loop can eventually process further messages. (False: main loop and heartbeat scheduler can wait for each other forever.)", "quantifier": "every interleaving", "why_tests_cant": "all schedules", "anchors": ["cmd/core/node_association.go: ScheduleHeartbeat, HandleHeartbeat", "cmd/core/pfcp_hearbeat.go: HandlePfcpHeartbeatResponse", "cmd/core/pfcp_connection.go: Run"]}
{"id": "C45", "title": "Association removal removes its sessions", "statement": "When a peer's association is removed, all its sessions are gone, their PDR keys and FAR/QER slots are removed, other peers' sessions are untouched. (URR slots and UE IPs leak.)", "quantifier": "every state", "why_tests_cant": "all states and iteration orders", "anchors": ["cmd/core/pfcp_connection.go: DeleteAssociation, DeleteSession"]}
{"id": "C46", "title": "User space and kernel agree on table layouts", "statement": "Every field of FAR, QER, URR and PDR written by user space is read by the forwarding plane at the same offset with the same size and byte order. (The REST uplink PDR endpoint violates it.)", "quantifier": "every record value", "why_tests_cant": "all values", "anchors": ["cmd/ebpf/pdr.go: FarInfo, QerInfo, PdrInfo", "cmd/ebpf/xdp/pdr.h", "cmd/ebpf/xdp/qer.h", "cmd/api/rest/uplink_pdr.go"]}
{"id": "C47", "title": "Configuration validation", "statement": "After accepted validation the table sizes are the configured ones or, where none is configured, derived from max_sessions (PDR and FAR 2x, URR 2x, QER 1x), pools are cleared when their feature is off, and nothing else changes; the node starts with the accepted configuration and serves at least max_sessions sessions. (False corners: the product overflows 32 bits, zero sessions give zero tables, association_setup_timeout 0 crashes the start.)", "quantifier": "every configuration", "why_tests_cant": "all values", "anchors": ["cmd/config/config.go: Validate"]}
{"id": "C48", "title": "Repeated association setup keeps sessions", "statement": "An association setup request from a peer that already has an association is accepted and leaves all sessions and the SEID counter as they were.", "quantifier": "every state", "why_tests_cant": "all states", "anchors": ["cmd/core/pfcp_handlers.go: HandlePfcpAssociationSetupRequest"]}
{"id": "C49", "title": "No out-of-bounds packet access", "statement": "Every header field the forwarding plane reads or writes lies within the frame.", "quantifier": "every frame", "why_tests_cant": "all frames", "anchors": ["cmd/ebpf/xdp/utils/parsers.h", "cmd/ebpf/xdp/utils/gtp_utils.h"]}
{"id": "C50", "title": "Packets never change rules", "statement": "Processing any sequence of frames leaves PDR tables and FAR slots unchanged; of QER slots only the rate limiting timers and of URR slots only the volumes change; no session record changes.", "quantifier": "every sequence of frames", "why_tests_cant": "unbounded histories", "anchors": ["cmd/ebpf/xdp/n3n6_entrypoint.c", "cmd/ebpf/xdp/qer.h", "cmd/ebpf/xdp/urr.h"]}
{"id": "C51", "title": "REST session query", "statement": "The unfiltered session list contains exactly the live sessions of all peers; filtered by TEID or IP it contains only live sessions that have a PDR with that TEID or UE address, and it is empty exactly when there is none. (False parts: only one of several matching sessions is listed, IPv6 addresses are never found, TEIDs are taken modulo 2^32.)", "quantifier": "every state and query", "why_tests_cant": "all states", "anchors": ["cmd/api/rest/pfcp_sessions.go: GetAllSessions, ..."]}
{"id": "C52", "title": "Session gauge", "statement": "The reported number of sessions equals the number of sessions established and neither deleted nor lost with their association.", "quantifier": "every history", "why_tests_cant": "unbounded histories", "anchors": ["cmd/core/pfcp_connection.go: GetSessionCount"]}
{"id": "C53", "title": "GTP echo sequence numbers", "statement": "Each configured peer is sent exactly one echo request per interval; its sequence number is the number of answers taken from this peer so far modulo 2^16; the answer another eUPF sends to the request is taken. An answer is taken only if it carries the sequence number of the request. (The last part is false: any echo response is taken.)", "quantifier": "every history", "why_tests_cant": "unbounded histories", "anchors": ["cmd/core/gtp_path_manager.go"]}
{"id": "C54", "title": "Configuration POST is atomic", "statement": "A rejected configuration POST leaves the configuration unchanged. (False.)", "quantifier": "every request", "why_tests_cant": "all requests", "anchors": ["cmd/api/rest/config.go: editConfig"]}
{"id": "C55", "title": "TEID pool construction terminates", "statement": "Building the TEID pool terminates for every configured range and yields exactly the TEIDs 1..range. (False for 2^32-1.)", "quantifier": "every range", "why_tests_cant": "2^32 values", "anchors": ["cmd/core/service/resource_manager.go: NewResourceManager"]}
{"id": "C56", "title": "Changing a PDR's TEID moves it", "statement": "When an update gives a PDR another TEID, the old TEID no longer selects the PDR. (False.)", "quantifier": "every state and update", "why_tests_cant": "all states", "anchors": ["cmd/core/pfcp_session_handlers.go: HandlePfcpSessionModificationRequest"]}
{"id": "C57", "title": "A PDR without match key is rejected", "statement": "A PDR whose PDI has neither F-TEID nor UE IP is rejected. (False: installed as TEID 0.)", "quantifier": "every state and request", "why_tests_cant": "all states", "anchors": ["cmd/core/pdr_creation_context.go: extractPDR"]}
{"id": "C58", "title": "Sessions without QER are not policed by others", "statement": "Traffic of a PDR without QER is not affected by the QERs of other sessions. (False: it uses QER slot 0.)", "quantifier": "every state", "why_tests_cant": "all states", "anchors": ["cmd/core/pdr_creation_context.go: extractPDR", "cmd/ebpf/xdp/n3n6_entrypoint.c"]}
{"id": "C59", "title": "Malformed messages never crash the node", "statement": "No PFCP message makes the process panic. (False for heartbeats without Recovery Time Stamp, FARs with an empty Apply Action or an undecodable Outer Header Creation, and PDIs without Source Interface; proved for all messages without these defects.)", "quantifier": "every state and message", "why_tests_cant": "all messages in all states", "anchors": ["cmd/core/pfcp_session_handlers.go: composeFarInfo", "cmd/core/pfcp_hearbeat.go", "cmd/core/pdr_creation_context.go: deletePDR", "cmd/core/display_utils.go: displayPdr"]}
{"id": "C60", "title": "Never-configured TEIDs are never forwarded", "statement": "If no request ever named a TEID and the TEID is not in the pool, no uplink frame with this TEID is ever forwarded, dropped, rate limited or accounted, whatever else happens.", "quantifier": "every history of PFCP messages and frames", "why_tests_cant": "unbounded end-to-end histories", "anchors": ["cmd/core/pfcp_session_handlers.go", "cmd/core/pdr_creation_context.go", "cmd/ebpf/pdr.go", "cmd/ebpf/xdp/n3n6_entrypoint.c"]}
{"id": "C61", "title": "Dead peers are given up", "statement": "A peer that never answers a heartbeat is eventually given up and its association removed. (False when it keeps sending heartbeat responses with other sequence numbers: each restarts the wait; proved when nothing arrives.)", "quantifier": "every execution", "why_tests_cant": "unbounded executions, timers and interleavings", "anchors": ["cmd/core/node_association.go", "cmd/core/pfcp_connection.go: Run"]}
{"id": "C62", "title": "Receive counters count exactly the frames of their kind", "statement": "Each receive counter of the forwarding plane (ARP, ICMP, ICMPv6, IPv4, IPv6, TCP, UDP, other, GTP echo, G-PDU, ...) goes up by exactly one for every frame of its kind and stays unchanged for every other frame, for every frame content, table content and earlier history.", "quantifier": "every frame, every table content, every sequence of frames", "why_tests_cant": "all byte strings", "anchors": ["cmd/ebpf/xdp/n3n6_entrypoint.c: process_packet, handle_ip4, handle_ip6, handle_gtpu", "cmd/ebpf/xdp/parsers.h"]}
{"id": "C63", "title": "REST table access: what is written is what is read", "statement": "A FAR or QER written through the REST interface is what the interface returns for that id afterwards and is what the forwarding plane reads; no other slot and no other table changes; an id outside of the table is refused and changes nothing.", "quantifier": "every table content and every element", "why_tests_cant": "all states", "anchors": ["cmd/api/rest/far.go", "cmd/api/rest/qer.go", "cmd/ebpf/utils.go"]}
{"id": "C64", "title": "A session's forwarding is not disturbed by others", "statement": "While only one session has PDRs with some TEID or UE address, a message that is not about that session (and does not itself give that TEID or address, and the TEID or address is not free in the UPF's pools) leaves the forwarding of packets with that TEID or address as it is: the entry, the FARs and the QERs of the session, whatever the message is, whoever sends it, accepted or rejected. (The FAR and QER part is false if modifications refer to rules their session does not have, see C08, C09.)", "quantifier": "every history of messages and packets, every session, every TEID and UE address, every later message", "why_tests_cant": "histories are unbounded", "anchors": ["cmd/core/pfcp_session_handlers.go: HandlePfcpSessionEstablishmentRequest, HandlePfcpSessionModificationRequest, HandlePfcpSessionDeletionRequest", "cmd/core/pdr_creation_context.go: extractPDR", "cmd/core/pdr.go: applyPDR, deletePDR"]}
{"id": "C65", "title": "Downlink, end to end", "statement": "After an accepted Session Establishment Request asking for packets to a UE address to be forwarded in a GTP-U tunnel (FAR FORW with outer header creation, QER with open gate), every downlink IPv4 packet to that address that matches the PDR's filter leaves the UPF unchanged inside exactly that tunnel - peer address, TEID, QFI and traffic class of the request - no matter what the UPF did before and what messages about other sessions and packets it processed since, as long as modification requests only name rules their session has (C08 and C09 show what happens otherwise).", "quantifier": "every earlier history, every such request, every later history not about the session or address, every packet", "why_tests_cant": "quantifies over histories, requests and packet contents at once", "anchors": ["cmd/core/pfcp_session_handlers.go: HandlePfcpSessionEstablishmentRequest, HandlePfcpSessionModificationRequest, HandlePfcpSessionDeletionRequest", "cmd/core/pdr_creation_context.go: extractPDR", "cmd/ebpf/xdp/n3n6_entrypoint.c", "cmd/ebpf/xdp/utils/gtp_utils.h"]}
{"id": "C66", "title": "Uplink, end to end", "statement": "After an accepted Session Establishment Request asking for G-PDUs with some TEID to be decapsulated and forwarded (open gate, no rate limit), every such G-PDU whose payload matches the PDR's filter leaves the UPF as its payload, routed by the payload's destination address, no matter what the UPF did before and what messages about other sessions and packets it processed since. (Proved for G-PDUs without outer IP options and with no optional GTP-U fields or 8 octets of them; C28 shows the rest is false.)", "quantifier": "every earlier history, every such request, every later history not about the session or TEID, every packet", "why_tests_cant": "quantifies over histories, requests and packet contents at once", "anchors": ["cmd/core/pfcp_session_handlers.go: HandlePfcpSessionEstablishmentRequest, HandlePfcpSessionModificationRequest, HandlePfcpSessionDeletionRequest", "cmd/core/pdr_creation_context.go: extractPDR", "cmd/ebpf/xdp/n3n6_entrypoint.c", "cmd/ebpf/xdp/utils/gtp_utils.h"]}
{"id": "C67", "title": "PFCP message counters", "statement": "upf_pfcp_rx counts, per message name, the decodable messages received; upf_pfcp_tx counts, per message name, the messages sent; upf_pfcp_rx_errors counts, per message name and cause name, the messages answered with that cause. (The first holds. The second holds for responses only: heartbeat requests and association setup requests are never counted. The third holds with additions: a deletion that fails is counted although it is not answered, and a defective Association Setup Response is counted with its defect.)", "quantifier": "every sequence of datagrams, timer ticks and heartbeats", "why_tests_cant": "sequences are unbounded", "anchors": ["cmd/core/pfcp_handlers.go: Handle", "cmd/core/metrics.go: PfcpMessageRx, PfcpMessageTx, PfcpMessageRxErrors", "cmd/core/pfcp_session_handlers.go: causeToString"]}
{"id": "C68", "title": "Associations follow the messages, and configured peers are asked until associated", "statement": "The UPF has an association with a peer exactly if the peer sent an acceptable Association Setup Request or Response and was not given up since; the association gauge is their number. At every tick of the association timer an Association Setup Request goes to every configured peer without association whose address resolves, and to nobody else. (A peer configured under a name other than its address is asked forever.)", "quantifier": "every sequence of datagrams, timer ticks and heartbeats", "why_tests_cant": "sequences are unbounded", "anchors": ["cmd/core/pfcp_connection.go: RefreshAssociations, GetAssiciationCount, sendAssociationSetupRequest", "cmd/core/pfcp_handlers.go: HandlePfcpAssociationSetupRequest, HandlePfcpAssociationSetupResponse"]}
{"id": "C69", "title": "Every associated peer is probed", "statement": "Heartbeat requests and association setup requests are sent to the peer they are for. (False for peers with IPv6 addresses: the address is joined with the port without brackets and never resolves, so no request is ever sent to them, and an IPv6 peer that answers only what it receives is given up after the configured number of heartbeats although alive.)", "quantifier": "every peer address, every execution", "why_tests_cant": "executions are unbounded", "anchors": ["cmd/core/pfcp_hearbeat.go: SendHeartbeatRequest", "cmd/core/pfcp_connection.go: sendAssociationSetupRequest"]}
{"id": "C70", "title": "Advertised features", "statement": "An accepted Association Setup Response (and no other response) carries the UP function features, and they are: FTUP exactly if configured at start, UEIP exactly if configured at start, and EMPU; replacing the configuration does not change them. Without FTUP a request that asks for a TEID is refused.", "quantifier": "every history, every configuration", "why_tests_cant": "histories are unbounded", "anchors": ["cmd/core/pfcp_connection.go: NewPfcpConnection", "cmd/core/pfcp_handlers.go: setBit, HandlePfcpAssociationSetupRequest", "cmd/config/config.go: Validate", "cmd/core/pdr_creation_context.go: getFTEID"]}
{"id": "C71", "title": "Answers to heartbeats are recognised", "statement": "A heartbeat answered by the peer is recognised as answered, and the next one is sent only when it is due. (False once an association has sent 2^24 heartbeats: sequence numbers have three octets on the wire but are compared with a 32-bit counter, so no answer is ever recognised again and heartbeats are sent without pause.)", "quantifier": "every execution, every number of heartbeats", "why_tests_cant": "needs 2^24 heartbeats", "anchors": ["cmd/core/node_association.go: ScheduleHeartbeat, NewSequenceID", "cmd/core/pfcp_hearbeat.go: HandlePfcpHeartbeatResponse, SendHeartbeatRequest"]}
{"id": "C72", "title": "Next hops", "statement": "Every frame the UPF sends out, except an answer to a GTP-U echo request, leaves on the interface and with the MAC addresses that the kernel's routing gives for exactly that packet. (Holds for IPv4. IPv6 packets are looked up as IPv4: the packet leaves for the next hop of the IPv4 address formed by the first four octets of its IPv6 destination, and the kernel's IPv6 routes have no influence on any packet.)", "quantifier": "every frame, every table content, every routing table", "why_tests_cant": "all packets and all routing tables", "anchors": ["cmd/ebpf/xdp/utils/routing.h: route_ipv4, route_ipv6, do_fib_lookup_ip4, do_fib_lookup_ip6"]}
{"id": "C73", "title": "Routing and forwarding counters", "statement": "Route lookups are counted one per packet forwarded to N3 or N6 and by their result, and the successful ones are as many as the frames sent out that are no echo answers. (The counters of packets sent to N3 and N6 themselves are of packets about to be routed: they also count packets dropped for lack of a route.)", "quantifier": "every sequence of frames, tables and routing tables", "why_tests_cant": "sequences are unbounded", "anchors": ["cmd/ebpf/xdp/utils/routing.h: route_ipv4, route_ipv6", "cmd/ebpf/xdp/statistics.h"]}
{"id": "C74", "title": "Rate limits with several CPUs", "statement": "The bound of C34 on the traffic that passes a rate limit holds no matter how many CPUs handle the traffic and how their steps interleave. (False: n CPUs can pass n times the limit, for any time. It holds as long as never two CPUs are between reading and writing the timer, so if one CPU gets all traffic of the QER and direction.)", "quantifier": "every number of CPUs, every interleaving, every sequence of packets and times", "why_tests_cant": "races are not reproducible by tests", "anchors": ["cmd/ebpf/xdp/qer.h: limit_rate_sliding_window"]}
{"id": "C75", "title": "Usage volumes with several CPUs", "statement": "No octet is lost and none reported twice when packets are counted on several CPUs and usage is reported meanwhile. (False: packets counted at the same time on k CPUs count as one; a volume already reported can be reported again; what is counted while a report is made is lost. It holds if accesses do not overlap; and between reports the volume is never more than what was counted.)", "quantifier": "every number of CPUs, every interleaving of counting and reporting", "why_tests_cant": "races are not reproducible by tests", "anchors": ["cmd/ebpf/xdp/urr.h: update_urr", "cmd/ebpf/pdr.go: DeleteUrr"]}
{"id": "C76", "title": "Handover is atomic", "statement": "While the tunnel of a session is being changed, each packet goes into the old or the new tunnel. (False: the packet program reads the fields of the record one by one while it is replaced, so a packet can go to the old base station with the TEID of the new one. Packets during which the record is not replaced see one record.)", "quantifier": "every pair of tunnels, every moment of the change", "why_tests_cant": "races are not reproducible by tests", "anchors": ["cmd/ebpf/xdp/n3n6_entrypoint.c: handle_n6_packet_ipv4, handle_n6_packet_ipv6", "cmd/ebpf/pdr.go: UpdateFar"]}
{"id": "C77", "title": "All QERs of a PDR are enforced", "statement": "Every QER a Create PDR names is enforced on the packets the PDR applies to. (False: only the first QER ID of a PDR is read; a closed gate or a rate limit in any further one has no effect whatsoever. The first one is enforced.)", "quantifier": "every establishment request, history and packet", "why_tests_cant": "requests, histories and packets are unbounded", "anchors": ["cmd/core/pdr_creation_context.go: extractPDR", "cmd/core/pfcp_session_handlers.go: HandlePfcpSessionEstablishmentRequest"]}
{"id": "C78", "title": "Transport Level Marking", "statement": "The Transport Level Marking in the Forwarding Parameters of a FAR is the DSCP of the outer header. (False: it is looked for among the children of the FAR itself, where TS 29.244 does not have it; inside the Forwarding Parameters it has no effect. Beside them it has.)", "quantifier": "every establishment request, history and packet", "why_tests_cant": "requests, histories and packets are unbounded", "anchors": ["cmd/core/pfcp_session_handlers.go: GetTransportLevelMarking, composeFarInfo"]}
{"id": "C79", "title": "Several SDF filters in a PDI", "statement": "A PDR applies to the packets that fit any of the SDF filters of its PDI, including their ToS traffic class. (False: only the flow description of the first SDF filter is read. It applies to the packets that fit the first.)", "quantifier": "every establishment request, history and packet", "why_tests_cant": "requests, histories and packets are unbounded", "anchors": ["cmd/core/pdr_creation_context.go: extractPDR"]}
{"id": "C80", "title": "Precedence", "statement": "Of the PDRs that match a packet the one with the highest precedence (lowest value) is applied. (False: the Precedence IE is never read; removing all of them from any request changes nothing. A filter installed over a PDR without filter always goes first.)", "quantifier": "every establishment request and packet", "why_tests_cant": "requests and packets are unbounded", "anchors": ["cmd/core/pdr_creation_context.go: extractPDR", "cmd/core/pdr.go: applyPDR", "cmd/ebpf/pdr.go: CombinePdrWithSdf"]}
{"id": "C81", "title": "UE address of uplink packets", "statement": "An uplink PDR whose PDI has an F-TEID and a UE IP address applies only to packets in that tunnel that come from that address. (False: the UE IP address is not read when there is an F-TEID, so a UE can send with any source address. Packets in the tunnel from the UE's address are forwarded.)", "quantifier": "every establishment request and packet", "why_tests_cant": "requests and packets are unbounded", "anchors": ["cmd/core/pdr_creation_context.go: extractPDR"]}
{"id": "C82", "title": "Source Interface", "statement": "A PDR applies only to packets coming from the Source Interface of its PDI. (False: the value of the Source Interface is only printed; a PDR with a UE IP address and without F-TEID is applied to packets towards the UE whatever interface it names. PDRs with F-TEID are applied to tunnelled packets only and PDRs without to untunnelled ones only.)", "quantifier": "every establishment request and packet", "why_tests_cant": "requests and packets are unbounded", "anchors": ["cmd/core/pdr_creation_context.go: extractPDR", "cmd/core/display_utils.go: displayPdr"]}
{"id": "C83", "title": "Update PDR without PDI", "statement": "An Update PDR may leave out the PDI (it is conditional), to change only the FAR or QER of a PDR. (False: such a request is never accepted. With the PDI repeated the update is in effect.)", "quantifier": "every state, every request", "why_tests_cant": "states and requests are unbounded", "anchors": ["cmd/core/pdr_creation_context.go: extractPDR", "cmd/core/pfcp_session_handlers.go: HandlePfcpSessionModificationRequest"]}
{"id": "C84", "title": "A rejected modification has no effect", "statement": "A Session Modification Request answered with a cause other than accepted changes neither the session nor the forwarding of packets. (False: everything before the failing IE stays, and a new CP F-SEID always does. Other sessions' records are untouched.)", "quantifier": "every state, every request", "why_tests_cant": "states and requests are unbounded", "anchors": ["cmd/core/pfcp_session_handlers.go: HandlePfcpSessionModificationRequest"]}
{"id": "C85", "title": "The route cache does not change where packets go", "statement": "With the image built with the route cache (BPF_ENABLE_ROUTE_CACHE=1) packets still go to the next hop of the kernel's routes. (False: the first answer for a destination address is used for every later packet to it, whatever the routes are by then and whatever the packet's source, TOS or protocol. While the routes are constant and depend on the destination only, the cache makes no difference.)", "quantifier": "every sequence of frames, every sequence of kernel routes, every choice of evicted entries", "why_tests_cant": "sequences are unbounded, the kernel's routes are arbitrary", "anchors": ["cmd/ebpf/xdp/utils/routing.h: route_ipv4, update_route_cache_ipv4, upf_route_cache_ip4", "Dockerfile"]}
{"id": "C86", "title": "Queries do not disturb the UPF", "statement": "Asking the UPF for its sessions, its associations or its metrics at any time while it handles PFCP messages does not end the process. (False: queries are served by other goroutines which read the tables of associations and sessions without a lock; Go ends the process when it sees a concurrent map read and map write. The pools of addresses and TEIDs are never accessed concurrently and the mutexes never deadlock.)", "quantifier": "every history of PFCP messages, every set of queries and heartbeat schedulers, every interleaving of their accesses", "why_tests_cant": "races are not reproducible by tests; interleavings are unbounded", "anchors": ["cmd/api/rest/pfcp_sessions.go: listPfcpSessions, listPfcpSessionsFiltered", "cmd/api/rest/pfcp_associations.go: listPfcpAssociations", "cmd/core/metrics.go: RegisterMetrics", "cmd/core/pfcp_connection.go: Run, GetSessionCount", "cmd/core/service/resource_manager.go: AllocateIP, ReleaseIP, AllocateTEID, ReleaseTEID", "cmd/core/node_association.go: ScheduleHeartbeat"]}
{"id": "C87", "title": "TEIDs and addresses come back to the pools", "statement": "A TEID or address given to a session is available again once the session is gone: the UPF can serve new sessions for ever. (True of TEIDs if peers are careful: every TEID is free or on loan to a live session. False otherwise: each establishment request that is rejected after a TEID was chosen costs that TEID for good, so any associated peer can empty the pool without a session; so do Update PDRs that ask for a TEID and changes of the CP F-SEID. False of addresses: they are not released on deletion.)", "quantifier": "every history of messages and packets, every pool size", "why_tests_cant": "histories are unbounded; leaks show after many sessions", "anchors": ["cmd/core/service/resource_manager.go: AllocateTEID, ReleaseTEID, AllocateIP, ReleaseIP", "cmd/core/pdr_creation_context.go: extractPDR, deletePDR", "cmd/core/pfcp_session_handlers.go: HandlePfcpSessionEstablishmentRequest, HandlePfcpSessionDeletionRequest", "cmd/core/pfcp_connection.go: DeleteSession, ReleaseResources"]}
{"id": "C88", "title": "A restart does not go unnoticed", "statement": "Whenever and wherever the process stops and is started again, the new process knows nothing of the sessions before and does not pretend to: it accepts session requests only from peers that associated with it since its start, modifies and deletes only sessions established since, and forwards nothing for TEIDs and addresses of earlier sessions; heartbeats and association messages carry its own start time as Recovery Time Stamp, so that a peer whose session request is accepted has been told of the restart. (False for a peer that answers an Association Setup Request of the process before: it is associated without having seen the new stamp. Restarts within one second share a stamp, and SEIDs are used again from 2 after each start.)", "quantifier": "every number of starts, every point at which the process stops, every history of messages and packets in between", "why_tests_cant": "crash points and histories are unbounded", "anchors": ["cmd/core/pfcp_connection.go: NewPfcpConnection, sendAssociationSetupRequest", "cmd/core/pfcp_hearbeat.go: HandlePfcpHeartbeatRequest, SendHeartbeatRequest", "cmd/core/pfcp_handlers.go: HandlePfcpAssociationSetupRequest, HandlePfcpAssociationSetupResponse", "cmd/ebpf/objects.go: Load", "cmd/core/node_association.go: NewNodeAssociation, NewLocalSEID"]}
{"id": "C89", "title": "What the REST interface shows", "statement": "GET /pfcp_sessions answers with one JSON document that shows every live session once, with its SEIDs and exactly its PDRs, FARs, QERs and URRs, their values and their table slots; GET /pfcp_associations shows every associated peer once, with its SEID counter; GET /pfcp_associations/full shows the associations with their sessions. (The last is false: the answer is 200 with an empty body as soon as a peer is associated. Without sessions the first is null, not an empty list; with an unreadable parameter the body is two documents.)", "quantifier": "every node state, every iteration order of the maps", "why_tests_cant": "states are unbounded and map orders arbitrary", "anchors": ["cmd/api/rest/pfcp_sessions.go: listPfcpSessionsFiltered, GetAllSessions", "cmd/api/rest/pfcp_associations.go: listPfcpAssociations, listPfcpAssociationsFull", "cmd/core/node_association.go: NodeAssociation", "cmd/core/session.go: Session", "cmd/ebpf/pdr.go: MarshalJSON"]}
{"id": "C90", "title": "The tunnel and the address that the UPF chose are served", "statement": "If a PDR leaves its F-TEID (CHOOSE) or its UE IP address to the UPF and the request is accepted, then packets for exactly the TEID or address that the response reports for this PDR are treated by the PDR's FAR and QER - decapsulated and routed, or sent in the FAR's tunnel to the peer it names - whatever other sessions do later, as long as nobody gives this TEID or address explicitly to another PDR. (For TEIDs the peers must also be disciplined as in C14.)", "quantifier": "every history before and after, every request that asks for such a PDR, every pool, every packet", "why_tests_cant": "end to end over unbounded histories of other sessions which share the pools", "anchors": ["cmd/core/pdr_creation_context.go: extractPDR, getFTEID, getIP", "cmd/core/service/resource_manager.go: AllocateTEID, AllocateIP", "cmd/core/pfcp_session_handlers.go: HandlePfcpSessionEstablishmentRequest", "cmd/ebpf/xdp/n3n6_entrypoint.c: handle_gtp_packet, handle_n6_packet_ipv4"]}
{"id": "C91", "title": "A filter text does what it says, from the request to the packet", "statement": "If an accepted establishment gives a PDR an SDF filter text, then of the packets for the PDR's UE address or TEID exactly those that the text describes are treated by this PDR's FAR and QER, the others by the PDR without filter for the same address or TEID, if the request has one, else not at all - whatever other sessions do later. (True with one filter, after the PDR without filter. False if the PDR without filter comes last: the filter has no effect. False of two PDRs with filters: packets the later text does not describe get FAR and QER slot 0, which may be another session's, so that they leave in that session's tunnel. Uplink texts are compared as they are, although flow descriptions are in downlink sense: the flow that a text describes is not matched uplink. For UEs with IPv6 addresses the packets treated so are those that compare in the way C24 describes; if the text names one IPv6 source, no packet from it is ever forwarded.)", "quantifier": "every text of the grammar with IPv4 or any, every history before and after, every request, every packet", "why_tests_cant": "texts, packets and histories are unbounded", "anchors": ["cmd/core/pdr_creation_context.go: extractPDR", "cmd/core/sdf_parser.go: ParseSdfFilter", "cmd/ebpf/pdr.go: PutPdrUplink, PutPdrDownlink, CombinePdrWithSdf", "cmd/ebpf/xdp/sdf_filter.h: match_sdf_filter_ipv4", "cmd/ebpf/xdp/n3n6_entrypoint.c: handle_gtp_packet, handle_n6_packet_ipv4"]}
{"id": "C92", "title": "UEs with IPv6 addresses are served", "statement": "If an accepted establishment asks for packets to an IPv6 UE address to be forwarded in a tunnel, every packet to the UE leaves as the unchanged packet in exactly that tunnel, whatever other sessions do later. (True of TCP and UDP directly after the IPv6 header, to the address given. False of all other packets: ICMPv6, extension headers, other protocols; of other addresses in the UE's /64 prefix; and of PDRs that give an IPv4 and an IPv6 address, whose IPv6 address is not served at all.)", "quantifier": "every history before and after, every request, every packet", "why_tests_cant": "packets and histories are unbounded", "anchors": ["cmd/core/pdr_creation_context.go: extractPDR", "cmd/core/pdr.go: applyPDR", "cmd/ebpf/pdr.go: PutDownlinkPdrIp6", "cmd/ebpf/xdp/n3n6_entrypoint.c: handle_ip6, handle_n6_packet_ipv6"]}
{"id": "C93", "title": "What was last said is what happens (handover, idle, blocking)", "statement": "While a session lives and its modifications are accepted, packets of its UE are treated according to what was last said about the FAR and the QER of its PDR, field by field over the establishment and all modifications: they go into the tunnel last named (handover), are dropped after an Apply Action without FORW or after the gate was closed, and carry the QFI last given; whatever else the modifications change and whatever other sessions do. (Proved for PDRs that are themselves not updated; uplink for the header forms of C28.)", "quantifier": "every history before and after, every list of modifications, every packet", "why_tests_cant": "histories are unbounded; the field-wise merge over them is a fold that tests only sample", "anchors": ["cmd/core/pfcp_session_handlers.go: HandlePfcpSessionModificationRequest, composeFarInfo, updateQer", "cmd/core/session.go: UpdateFAR, UpdateQER", "cmd/ebpf/pdr.go: UpdateFar, UpdateQer", "cmd/ebpf/xdp/n3n6_entrypoint.c: handle_gtp_packet, handle_n6_packet_ipv4, handle_n6_packet_ipv6"]}
{"id": "C94", "title": "Rule slots come back", "statement": "The slots of the FAR, QER and URR tables are conserved: at every moment the free slots and the rules of the live sessions add up to the configured table sizes, so that when no session is live everything is free again. (True of FARs and QERs in every history in which rules are created under new ids, references are known and no establishment fails half-way; of URRs if moreover no peer with URRs is lost. False otherwise: each failed establishment, each duplicate id and each URR of a lost peer costs a slot until restart, and enough of them make every further establishment fail.)", "quantifier": "every history, every table size", "why_tests_cant": "leaks show only over long histories; the accounting is an invariant over all of them", "anchors": ["cmd/ebpf/objects.go: IdTracker", "cmd/ebpf/pdr.go: NewFar, DeleteFar, NewQer, DeleteQer, NewUrr, DeleteUrr", "cmd/core/pfcp_session_handlers.go: HandlePfcpSessionEstablishmentRequest, HandlePfcpSessionModificationRequest", "cmd/core/pfcp_connection.go: DeleteSession, DeleteAssociation"]}
{"id": "C95", "title": "Room means acceptance", "statement": "An establishment request is accepted exactly when the peer is associated, Node ID and CP F-SEID are there, every rule is usable (decodable, supported flow description, an address where one is needed) and there are enough free FAR, QER and URR slots and TEIDs (one per PDR that asks without CHOOSE ID, one per CHOOSE ID), provided that the PDR tables have places and the pool addresses for all who ask. So, as long as slots do not leak (C94), a usable request is accepted while the live sessions plus the request stay within the configured numbers, and refused beyond.", "quantifier": "every history, every request, every table size", "why_tests_cant": "acceptance depends on the whole history through free slots and pools; tests try a few requests on fresh tables", "anchors": ["cmd/core/pfcp_session_handlers.go: HandlePfcpSessionEstablishmentRequest, validateRequest, composeFarInfo", "cmd/core/pdr_creation_context.go: extractPDR", "cmd/ebpf/pdr.go: NewFar, NewQer, NewUrr, PutPdrUplink, PutPdrDownlink", "cmd/ebpf/objects.go: IdTracker"]}
{"id": "C96", "title": "PDR tables are never over-full", "statement": "In every history each of the three PDR tables has the configured size and holds at most that many keys; an establishment that gives more new TEIDs than there are places is not accepted.", "quantifier": "every history, every request, every table size", "why_tests_cant": "the number of entries depends on the whole history", "anchors": ["cmd/ebpf/pdr.go: PutPdrUplink, PutPdrDownlink, PutDownlinkPdrIp6", "cmd/core/pdr.go: applyPDR", "cmd/ebpf/objects.go: Load"]}
{"id": "C97", "title": "Traffic of a deleted session is no longer carried", "statement": "Once a session is deleted (or its peer given up, or the PDR removed), user traffic for its TEIDs and UE addresses is passed on untouched - never forwarded, counted or answered - after any further messages and packets, until a message gives the TEID or address to a session again.", "quantifier": "every node state, deletion, iteration order, later history, frame", "why_tests_cant": "it combines the removal, every later history and every frame; a single wrong removal only shows when another session reuses the FAR slot", "anchors": ["cmd/core/pfcp_session_handlers.go: HandlePfcpSessionDeletionRequest, HandlePfcpSessionModificationRequest", "cmd/core/pdr_creation_context.go: deletePDR, getFTEID", "cmd/core/pfcp_connection.go: DeleteSession, DeleteAssociation", "cmd/ebpf/xdp/n3n6_entrypoint.c"]}
{"id": "C98", "title": "The forwarding plane says what the live sessions say, and nothing else", "statement": "After any history of accepted requests, crashes of peers and packets, a packet for a TEID or UE address is classified by the PDR of the live session that has it (the packet gets the PDR's outer header removal, FAR and QER if it has no filter or the filter matches, and is left alone otherwise), and traffic for all other TEIDs and addresses is passed on untouched. User traffic is only sent on behalf of a PDR of a live session.", "quantifier": "every history, every key, every filter verdict, every frame", "why_tests_cant": "the tables are changed incrementally by many handlers; agreement is an invariant of all histories", "anchors": ["cmd/core/pfcp_session_handlers.go: HandlePfcpSessionEstablishmentRequest, HandlePfcpSessionModificationRequest, HandlePfcpSessionDeletionRequest", "cmd/core/pdr.go: applyPDR", "cmd/core/pdr_creation_context.go: extractPDR, deletePDR", "cmd/core/pfcp_connection.go: DeleteSession", "cmd/ebpf/pdr.go", "cmd/ebpf/xdp/n3n6_entrypoint.c"]}
{"id": "C99", "title": "Traffic is handled by the rules of the session it belongs to", "statement": "Every PDR of a live session uses a FAR and a QER of the same session, and no other session has these; so user traffic is only sent if the session it belongs to says so: its own FAR forwards and its own QER has the gate open. No message of another peer can change what happens to it.", "quantifier": "every history of requests whose PDRs name rules of their own session, every frame", "why_tests_cant": "slots are taken and given back by every message of every peer; a dangling reference shows only when someone else takes the slot", "anchors": ["cmd/core/pfcp_session_handlers.go: HandlePfcpSessionEstablishmentRequest, HandlePfcpSessionModificationRequest", "cmd/core/pdr_creation_context.go: extractPDR", "cmd/core/session.go", "cmd/ebpf/objects.go: IdTracker", "cmd/ebpf/xdp/n3n6_entrypoint.c"]}
{"id": "C100", "title": "The UPF does what it was told, no more and no less", "statement": "What the control plane has said - the accepted requests and their answers alone - determines what happens to every user packet. After any history, a downlink packet to a UE address that a session was given leaves unchanged in the tunnel last told for it, an uplink packet leaves as its payload, or with the N9 tunnel last told; if the FAR last told does not forward, the gate is closed or a downlink FAR has no tunnel, it is dropped; if it does not match the PDR's filter, or its TEID or address was given to no session, it is passed on untouched; and nothing else is ever sent. The records of the sessions are exactly what was said.", "quantifier": "every history of accepted and refused requests, every lost peer, every frame", "why_tests_cant": "it is a refinement: an abstract UPF without tables, slots and pools, driven by the same history, predicts every record and every packet", "anchors": ["cmd/core/pfcp_session_handlers.go: HandlePfcpSessionEstablishmentRequest, HandlePfcpSessionModificationRequest, HandlePfcpSessionDeletionRequest, composeFarInfo, updateQer", "cmd/core/pdr_creation_context.go: extractPDR, deletePDR", "cmd/core/session.go", "cmd/core/pfcp_connection.go: DeleteAssociation", "cmd/ebpf/pdr.go", "cmd/ebpf/xdp/n3n6_entrypoint.c"]}
{"id": "C101", "title": "Traffic within its bit rate is carried", "statement": "If the traffic of a QER keeps to its maximum bit rate (any consecutive frames fit, at that rate, in the time they take plus a tolerance of 5 ms), then no frame of it that its rule lets through is dropped, except by the route lookup, whatever other traffic there is. (False of frames that take more than 5 ms at the rate, such as full frames below 2.4 Mbit/s: these never get the rate they were given, whatever the state.)", "quantifier": "every state of the tables, every sequence of frames, sizes and arrival times", "why_tests_cant": "a limiter is a function of the whole history of arrivals; tests cannot try all interleavings of arrivals and rates", "anchors": ["cmd/ebpf/xdp/qer.h: limit_rate_sliding_window", "cmd/ebpf/xdp/n3n6_entrypoint.c", "cmd/core/pfcp_session_handlers.go: updateQer"]}
{"id": "C102", "title": "A session gets the bit rate it was told", "statement": "After any history, if a QER of a session was last told an MBR, then in every run of packets the traffic of the PDRs of this session that name it gets this rate: within any window of time no more of it is sent than takes, at the rate, the window plus 5 ms (or one frame), and if it keeps to the rate within a tolerance of 5 ms none of it is dropped except by the route lookup - whatever other sessions do, and whatever the history of slots, modifications and packets before.", "quantifier": "every history, every session and QER, every sequence of frames and arrival times", "why_tests_cant": "it combines the whole history of messages with all later sequences of packets", "anchors": ["cmd/core/pfcp_session_handlers.go: HandlePfcpSessionEstablishmentRequest, HandlePfcpSessionModificationRequest, updateQer", "cmd/ebpf/pdr.go: NewQer, UpdateQer", "cmd/ebpf/xdp/qer.h: limit_rate_sliding_window", "cmd/ebpf/xdp/n3n6_entrypoint.c"]}
{"id": "C103", "title": "A request that arrives twice is executed once", "statement": "A PFCP request that arrives again (retransmitted because the answer was late, or duplicated by the network) is answered exactly as the first time and has no further effect. (True of association and heartbeat messages, of refused requests, and of modifications that only update FARs and QERs. False of establishments: whatever the state, the second arrival is never answered like the first, and with room it makes a second session. False of modifications that create rules, which take further slots, and of deletions, which are executed once - as long as the association lasts - but answered 65 the second time; after the association was lost and set up again a late duplicate deletes another session.)", "quantifier": "every state and history, every request, any events between the two arrivals", "why_tests_cant": "retransmission can hit any state and any later moment; tests send each request once", "anchors": ["cmd/core/pfcp_handlers.go: Handle, HandlePfcpAssociationSetupRequest", "cmd/core/pfcp_session_handlers.go: HandlePfcpSessionEstablishmentRequest, HandlePfcpSessionModificationRequest, HandlePfcpSessionDeletionRequest", "cmd/core/node_association.go: NewLocalSEID"]}
{"id": "C104", "title": "Freed TEIDs and UE addresses are reused last", "statement": "A TEID (or UE address) that is in use, or was just given back, is not given to anyone before more TEIDs (addresses) have been asked for than are free now; so late packets of an ended session do not soon meet the rules of a new one.", "quantifier": "every history from every state, any sessions coming and going", "why_tests_cant": "it is about the order of all later grants, over histories of any length", "anchors": ["cmd/core/service/resource_manager.go: AllocateTEID, AllocateIP, ReleaseTEID, ReleaseIP", "cmd/core/pdr_creation_context.go: extractPDR, deletePDR", "cmd/core/pfcp_connection.go: ReleaseResources"]}
{"id": "C105", "title": "The sessions of a restarted peer are removed", "statement": "When a peer restarts and sets up its association again, the sessions of the old association are removed and their resources given back. (False in every state: the association setup request and heartbeats change nothing of the sessions, tables and pools; a restarted peer may be refused its sessions for want of the slots its old ones hold.)", "quantifier": "every state, every sequence of association and heartbeat messages", "why_tests_cant": "any state the UPF can be in when the peer restarts", "anchors": ["cmd/core/pfcp_handlers.go: HandlePfcpAssociationSetupRequest", "cmd/core/pfcp_hearbeat.go: HandlePfcpHeartbeatRequest"]}
{"id": "C106", "title": "Packets that arrive during a request do not disturb it", "statement": "Requests change several tables one entry at a time while packets are processed. Packets at any moment, also between two table writes of one request, change neither what the request does to records, tables and pools, nor its answer (but for the volumes in usage reports): a history with packets at any moment ends as a history in which the same requests are processed as a whole. So every property proved of such histories holds with packets at any moment.", "quantifier": "every history, every request, every interleaving of packets with the table writes of the requests", "why_tests_cant": "interleavings of the kernel program with the handlers are not under the control of a test", "anchors": ["cmd/core/pfcp_session_handlers.go: HandlePfcpSessionEstablishmentRequest, HandlePfcpSessionModificationRequest, HandlePfcpSessionDeletionRequest", "cmd/core/pfcp_connection.go: DeleteSession, DeleteAssociation", "cmd/ebpf/pdr.go", "cmd/ebpf/xdp/n3n6_entrypoint.c"]}
{"id": "C107", "title": "A request disturbs no other session's packets while it is processed", "statement": "While a request is processed (its table writes happen one by one) packets of sessions it is not about are treated exactly as those sessions were last told: forwarded into the tunnel told, decapsulated, or dropped. This also holds for a packet whose look-ups of PDR, FAR and QER happen at different moments of the request.", "quantifier": "every history, every request, every moment of it, every packet", "why_tests_cant": "intermediate states of a request are not visible to tests", "anchors": ["cmd/core/pfcp_session_handlers.go: HandlePfcpSessionEstablishmentRequest, HandlePfcpSessionModificationRequest, HandlePfcpSessionDeletionRequest", "cmd/core/pfcp_connection.go: DeleteSession, DeleteAssociation", "cmd/ebpf/pdr.go", "cmd/ebpf/xdp/n3n6_entrypoint.c"]}
{"id": "C108", "title": "A packet is treated as its session was told, even if requests are processed while it is", "statement": "A packet looks up its PDR, its FAR and its QER one after the other; any number of requests about other sessions may be processed between two of these look-ups. Still it is treated exactly as its own session was told. (False if the packet's own session is deleted in between: the slot of its FAR may have been given to a new session, and the packet leaves in the tunnel of that one.)", "quantifier": "every history, every request being processed at each of the three look-ups, every moment of it, any further requests in between, every packet", "why_tests_cant": "the scheduling of the kernel program against user space is not under the control of a test", "anchors": ["cmd/ebpf/xdp/n3n6_entrypoint.c", "cmd/core/pfcp_session_handlers.go: HandlePfcpSessionEstablishmentRequest, HandlePfcpSessionModificationRequest, HandlePfcpSessionDeletionRequest", "cmd/ebpf/objects.go: IdTracker", "cmd/ebpf/pdr.go"]}
{"id": "C109", "title": "Requests take effect in an order that packets can rely on", "statement": "At every moment of an establishment or modification the PDRs are still those before it, or FARs and QERs are already those after it; at every moment of a deletion FARs and QERs are still those before it, or the PDRs are already those after it; so no packet meets a PDR whose rules are not there yet, or no longer. At every moment the tables are those that a shorter request would have left, a first part of the IEs. (The order is not enough to make modifications seamless: a PDR that is given another FAR while its old one is removed loses packets in between.)", "quantifier": "every state, every request, every moment of it", "why_tests_cant": "intermediate states of a request are not visible to tests", "anchors": ["cmd/core/pfcp_session_handlers.go: HandlePfcpSessionEstablishmentRequest, HandlePfcpSessionModificationRequest, HandlePfcpSessionDeletionRequest"]}
{"id": "C110", "title": "Establishments and deletions take effect at once, as far as a packet can tell", "statement": "While a session is being established or deleted, table write by table write, every packet is treated as it is before the request, or as it is after it: same action, same bytes; never in a third way. (False of the loss of a peer: in the middle packets are dropped that are forwarded before and passed on to the host afterwards. And false of pings of the UPF itself, for which two PDRs are looked up.)", "quantifier": "every history of orderly requests, every further establishment or deletion, every moment of it, every packet", "why_tests_cant": "intermediate states of a request are not visible to tests", "anchors": ["cmd/core/pfcp_session_handlers.go: HandlePfcpSessionEstablishmentRequest, HandlePfcpSessionDeletionRequest", "cmd/core/pfcp_connection.go: DeleteSession", "cmd/ebpf/xdp/n3n6_entrypoint.c"]}
{"id": "C111", "title": "In the middle of a request the UPF is as after an orderly shorter request", "statement": "At every moment of an orderly establishment, or of an orderly modification that removes no FAR, QER or PDR, the tables are those after another orderly request, which has a first part of the IEs of the one in progress; so everything that holds of the tables and of packets after orderly histories (C98 to C102) holds at that moment too, for the IEs done so far.", "quantifier": "every history of orderly requests, every further establishment or modification without removals, every moment of it", "why_tests_cant": "intermediate states of a request are not visible to tests", "anchors": ["cmd/core/pfcp_session_handlers.go: HandlePfcpSessionEstablishmentRequest, HandlePfcpSessionModificationRequest"]}
{"id": "C112", "title": "A modification that changes one thing about a packet takes effect at once for it", "statement": "While a session is being modified, table write by table write, every packet is treated as it is before the modification or as it is after it, if the modification changes at most one of the PDR, the FAR and the QER that are for the packet, updates no rule twice and removes none; in particular if all its Update IEs are for FARs, all for QERs, or all for PDRs (and it may create anything). (False if it changes two of them: a FAR that starts to forward and a gate that is closed in the same request let packets through in between that are dropped before and afterwards.)", "quantifier": "every history of orderly requests, every further such modification, every moment of it, every packet", "why_tests_cant": "intermediate states of a request are not visible to tests", "anchors": ["cmd/core/pfcp_session_handlers.go: HandlePfcpSessionModificationRequest", "cmd/ebpf/xdp/n3n6_entrypoint.c"]}
{"id": "C113", "title": "A modification is accepted if there is room for it", "statement": "A modification of a live session, all parts of which can be used, is accepted if there are free slots for the FARs, QERs and URRs it creates, free TEIDs and addresses for the PDRs that ask for them, and places in the PDR tables; a modification that only updates FARs, QERs and URRs, or only removes things, is accepted however full the UPF is. An accepted modification had all of it. (What the request itself removes does not count: a request that would fit after its removals is rejected, and then its removals may have been done or not.)", "quantifier": "every history, every modification, every state of pools and tables", "why_tests_cant": "capacity depends on everything that happened before", "anchors": ["cmd/core/pfcp_session_handlers.go: HandlePfcpSessionModificationRequest, composeFarInfo, updateQer", "cmd/core/pdr_creation_context.go: extractPDR, deletePDR", "cmd/ebpf/pdr.go: NewFar, NewQer, NewUrr"]}
{"id": "C114", "title": "A packet that overlaps with a request sees the old or the new rules", "statement": "A packet looks up its PDR, then the FAR, then the QER, and a request can be processed meanwhile: the three look-ups then happen at three successive moments of the request. During an establishment the packet still meets the fate it meets before the request or the one it meets after it, and so it does during a modification that removes nothing, updates nothing twice and changes only one of the PDR, FAR and QER that apply to the packet. During a deletion it meets the fate before or after, or it is dropped, or it meets the fate it would meet with empty QERs (open gates, no limits, QFI 0): the code deletes PDRs, then FARs, then QERs, so a packet can be dropped because its FAR is gone, or pass a closed gate.", "quantifier": "every history whose requests are clean, every request, every packet, every three successive moments", "why_tests_cant": "a race between a packet and a request: three look-ups at arbitrary points of the request", "anchors": ["cmd/core/pfcp_session_handlers.go: HandlePfcpSessionEstablishmentRequest, HandlePfcpSessionModificationRequest, HandlePfcpSessionDeletionRequest", "cmd/ebpf/xdp/n3n6_entrypoint.c: handle_n6_packet_ipv4, handle_n6_packet_ipv6, handle_gtp_packet"]}
{"id": "C115", "title": "What happens to a packet depends on what was told, and on nothing else", "statement": "Two UPFs that were told the same rules (the same match keys, filters, outer header removals, and FARs and QERs with the same parameters) treat every packet alike: it gets the same action and leaves with the same contents. It makes no difference in which order and in how many requests the rules were told, by which peers, for which sessions and under which ids, what was told and taken back in between, how large the tables are, which slots the rules got, what was counted, and in which order Go went through its maps. Rules with a rate limit make a difference only through the state of the limiters.", "quantifier": "every pair of histories whose requests are clean, every packet and sequence of packets, every configuration and table size", "why_tests_cant": "a property of pairs of histories: a test compares two of them", "anchors": ["cmd/core/pfcp_session_handlers.go: HandlePfcpSessionEstablishmentRequest, HandlePfcpSessionModificationRequest, HandlePfcpSessionDeletionRequest", "cmd/ebpf/objects.go: IdTracker", "cmd/ebpf/xdp/n3n6_entrypoint.c: upf_ip_entrypoint_func"]}
{"id": "C116", "title": "A session keeps to its bit rate across requests", "statement": "Packets and requests come in any order. As long as a session has a QER with a certain MBR, the traffic of the PDRs that name it that is sent on in any time takes, at this rate, no longer than this time plus 5 ms (or one frame): requests about other sessions, lost peers, and modifications of the session that do not name the QER do not let more through, for they leave the state of its limiter exactly as it is. Every request that creates, updates or removes this very QER may let another 5 ms (or one frame) through, even if it repeats the same MBR: the code then sets the limiter back.", "quantifier": "every history of clean requests, every interleaving of packets and requests after it, every QER, rate and time window, both directions", "why_tests_cant": "a bound on every schedule of packets and requests", "anchors": ["cmd/core/pfcp_session_handlers.go: updateQer, HandlePfcpSessionModificationRequest", "cmd/ebpf/xdp/qer.h: limit_rate_sliding_window", "cmd/ebpf/pdr.go: NewQer, UpdateQer, DeleteQer"]}
{"id": "C117", "title": "What usage reports say, across requests and packets", "statement": "A usage report says how many octets the PDRs that name the URR have passed since it was created, uplink and downlink, and nothing of any other traffic. (The code does something else. The ids of URRs never reach the packet path, so one URR of all sessions of all peers, the one that happens to have slot 0, is charged for every octet of every session, twice, and every other URR for nothing: of the URRs that exist at a time one at most has counted anything, of the usage reports in one response one at most says anything, and a URR that no request touches counts either nothing at all or everything the UPF sends on; and if that one URR's peer is lost, no report says anything ever again.)", "quantifier": "every history, every interleaving of packets and requests, every session and URR", "why_tests_cant": "a property of every schedule of packets and requests of all peers: what one URR counts depends on all the others that were ever created", "anchors": ["cmd/ebpf/pdr.go: NewUrr, UpdateUrr, DeleteUrr, ToIpEntrypointPdrInfo", "cmd/core/pfcp_session_handlers.go: HandlePfcpSessionDeletionRequest, HandlePfcpSessionModificationRequest, updateUrr", "cmd/ebpf/xdp/urr.h: update_urr", "cmd/ebpf/xdp/n3n6_entrypoint.c: handle_gtp_packet, handle_n6_packet_ipv4, handle_n6_packet_ipv6"]}
{"id": "C118", "title": "Packets on a circular route die", "statement": "Whatever the UPF routes - into the data network, into a tunnel to the access network, or from tunnel to tunnel - leaves with a Time To Live (IPv6: Hop Limit) one lower than it came with, and a packet with nothing left is not sent on: a packet whose route leads round does not go round for ever. (False of the code: no path touches the field, nor looks at it. A packet with Time To Live 0 is sent on in both directions; UPFs whose FARs lead round pass every packet round for ever, one UPF with itself included.)", "quantifier": "every frame, every content of the tables, every ring of UPFs, every number of rounds", "why_tests_cant": "rounds are unbounded: the claim is about infinite sequences of forwarding steps, and the outer header, the inner header and all three paths have to be considered", "anchors": ["cmd/ebpf/xdp/utils/routing.h: do_route_ipv4, route_ipv4, route_ipv6", "cmd/ebpf/xdp/n3n6_entrypoint.c: handle_gtp_packet, handle_n6_packet_ipv4, handle_n6_packet_ipv6", "cmd/ebpf/xdp/utils/gtp_utils.h: fill_ip_header, update_gtp_tunnel"]}
{"id": "C119", "title": "Fragments", "statement": "The pieces of a fragmented datagram are treated alike: they get the same rule and, downlink, the same tunnel. Only a piece that holds a UDP header is taken for a tunnel packet, so that nothing a UE writes into its packets is ever taken for a tunnel header; and no user packet leaves a tunnel in part. (True for PDRs whose filter does not look at ports. Else false of the code, which does not look at fragmentation at all: with a port filter the first piece is carried and the others are not, and when a G-PDU is cut on its way to the UPF, its first piece is sent on as if it were the whole user packet, and a later piece, all of it octets that the UE wrote, is accepted as a G-PDU of another session.)", "quantifier": "every frame, every way to cut it, every content of the tables", "why_tests_cant": "cuts and contents are arbitrary; the claim relates different packets with each other and with what was written into the middle of another one", "anchors": ["cmd/ebpf/xdp/utils/parsers.h: parse_ip4, parse_udp, parse_gtp", "cmd/ebpf/xdp/n3n6_entrypoint.c: handle_ip4, handle_gtp_packet, handle_n6_packet_ipv4", "cmd/ebpf/xdp/sdf_filter.h: match_sdf_filter_ipv4"]}
{"id": "C120", "title": "The datapath works on across a restart", "statement": "While the UPF is restarted the datapath goes on serving the sessions there are (as README.md says: the eBPF resources persist across restarts so that the datapath can continue to operate while the eUPF is restarted or upgraded). At the least, packets of a session from before the restart are never treated by another session's rules. (False of the code: every start makes new, empty tables, so that until the first session request nothing is carried, and afterwards nothing for TEIDs that are not named again. And the TEIDs of the pool are handed out anew: the packets that an access network still sends with the TEID of a session from before the restart leave in the tunnel of another session.)", "quantifier": "every number of restarts, every point at which the process stops, every history of messages and packets, every frame", "why_tests_cant": "restarts and histories are unbounded, and a process under test is not stopped at every point", "anchors": ["cmd/ebpf/objects.go: Load", "cmd/main.go: main", "cmd/core/service/resource_manager.go: NewResourceManager, AllocateTEID", "README.md: Notes"]}
{"id": "C121", "title": "Idle UEs are paged", "statement": "While the FAR of a session says BUFF and NOCP (the UE is idle), the first packet for the UE makes the UPF tell its peer (Session Report Request, Downlink Data Report), and the packets are kept and sent once the FAR forwards again; in general the UPF reports what the control plane cannot know: downlink data, usage thresholds, error indications. (False of the code: such packets are dropped and leave no trace, and no packet ever makes the UPF send a message. What it sends is determined by the messages it receives and its timers: responses, heartbeats, Association Setup Requests, nothing else.)", "quantifier": "every execution of the endpoint with packets at any points, every clean history, every stream of packets", "why_tests_cant": "that something is never sent, whatever happens, is not testable; packets come at any point of any history", "anchors": ["cmd/core/pfcp_connection.go: Run, SendMessage", "cmd/core/pfcp_handlers.go: Handle", "cmd/ebpf/xdp/n3n6_entrypoint.c: handle_n6_packet_ipv4, handle_n6_packet_ipv6, handle_gtp_packet"]}
{"id": "C122", "title": "GTP-U messages between tunnel ends", "statement": "Besides G-PDUs and Echo Requests (C32) the UPF takes part in GTP-U as TS 29.281 asks: End Markers received in a session's tunnel go on in the session's next tunnel, a G-PDU with an unknown TEID is answered with an Error Indication, and Error Indications from the other end are taken notice of. (False of the code: every GTP-U message that is neither a G-PDU nor an Echo Request is left to the kernel as it came, whatever rules there are for its TEID, and so is every G-PDU with unknown TEID. All that the UPF answers are Echo Requests.)", "quantifier": "every frame, every content of the tables, every clean history", "why_tests_cant": "frames and tables are arbitrary", "anchors": ["cmd/ebpf/xdp/n3n6_entrypoint.c: handle_gtpu, handle_gtp_packet", "cmd/ebpf/xdp/utils/gtp_utils.h: handle_echo_request"]}
{"id": "C123", "title": "Address pools of either IP version", "statement": "Whatever prefix the UPF is started with as its UE address pool (the option accepts IPv4 and IPv6), a rule that asks the UPF to choose the UE's address is installed under a free address of that prefix while there is one, and a refused request does not use up an address. (False: with an IPv6 prefix every such rule is refused and takes one address out of the pool for good; choosing an IPv6 address, flag CHV6, is refused with every pool.)", "quantifier": "every prefix of either version, every sequence of allocations and releases, every rule, every content of the tables", "why_tests_cant": "prefixes, sequences and rules are arbitrary, and the tests use IPv4 pools", "anchors": ["cmd/core/service/resource_manager.go: NewResourceManager, AllocateIP, ReleaseIP", "cmd/core/pdr_creation_context.go: extractPDR, getIP", "cmd/core/pdr.go: applyPDR", "cmd/ebpf/pdr.go: PutPdrDownlink", "cmd/config/config.go: UEIPPool"]}
{"id": "C124", "title": "What the UPF chooses it tells", "statement": "Whenever an accepted request makes the UPF choose a TEID or a UE address for a rule, the response tells the peer which one. (True for Create PDR, C17; false for Update PDR: the choice is made, taken from the pool and installed, and no response ever mentions it; repeated, it empties the pool though the peer holds one rule.)", "quantifier": "every state of the node, every modification, every number of repetitions", "why_tests_cant": "states, requests and their number are arbitrary", "anchors": ["cmd/core/pfcp_session_handlers.go: HandlePfcpSessionModificationRequest", "cmd/core/pdr_creation_context.go: extractPDR", "cmd/core/pdr.go: processCreatedPDRs"]}
