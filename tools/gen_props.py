#!/usr/bin/env python3
"""Regenerates /verif/properties.jsonl (one JSON object per line)."""
import json
P=[]
def p(id,title,statement,quant,why,anchors):
    P.append(dict(id=id,title=title,statement=statement,quantifier=quant,why_tests_cant=why,anchors=anchors))
SH="cmd/core/pfcp_session_handlers.go"; PH="cmd/core/pfcp_handlers.go"; PC="cmd/core/pfcp_connection.go"
PCC="cmd/core/pdr_creation_context.go"; RM="cmd/core/service/resource_manager.go"; EP="cmd/ebpf/pdr.go"; EO="cmd/ebpf/objects.go"
NA="cmd/core/node_association.go"; HB="cmd/core/pfcp_hearbeat.go"; SP="cmd/core/sdf_filter_parser.go"; SE="cmd/core/session.go"
X="cmd/ebpf/xdp/n3n6_entrypoint.c"; XG="cmd/ebpf/xdp/utils/gtp_utils.h"; XQ="cmd/ebpf/xdp/qer.h"; XU="cmd/ebpf/xdp/urr.h"; XS="cmd/ebpf/xdp/sdf_filter.h"
p("C01","Session requests need an association",
  "A session establishment, modification or deletion request from a peer that has no PFCP association is answered with cause 72 (no established association) and changes neither any session, nor any identifier pool, nor any forwarding table.",
  "every node state, every peer address without association, every request content (establishment: with the mandatory IEs present)",
  "the set of states and requests is unbounded; a test only samples a few states",
  [SH+": HandlePfcpSessionEstablishmentRequest, HandlePfcpSessionModificationRequest, HandlePfcpSessionDeletionRequest"])
p("C02","Unknown SEID is rejected without effect",
  "A modification or deletion request whose SEID is not a session of the sending peer (even if it is a session of another peer) is answered with cause 65 and has no effect.",
  "every node state, peer, SEID and request content","needs all states, including ones where another peer owns the SEID",
  [SH+": HandlePfcpSessionModificationRequest, HandlePfcpSessionDeletionRequest"])
p("C03","Mandatory IEs are validated before any effect",
  "An establishment request without a decodable Node ID or CP F-SEID is answered with cause 66; an association setup request without Node ID / Recovery Time Stamp is answered 66, with an undecodable one 69; in all these cases the node state is unchanged.",
  "every node state and request content","all malformed-IE combinations in all states",
  [SH+": validateRequest, convertErrorToIeCause", PH+": HandlePfcpAssociationSetupRequest"])
p("C04","Local SEIDs are fresh",
  "The SEID the node hands out in an accepted establishment was never handed out before by the same association (so it never names an existing session of that peer), and never 0 or 1, as long as fewer than 2^64-2 establishments were attempted. Across peers the same SEID can be handed out (negation proved).",
  "every history of PFCP messages","freshness is a statement about all histories",
  [NA+": NewLocalSEID", SH+": HandlePfcpSessionEstablishmentRequest"])
p("C05","Session records are isolated",
  "A session message for one (peer, SEID) leaves the record (rules, SEIDs) of every other session of every peer exactly as it was, whether the message is accepted, rejected or crashes half-way.",
  "every node state, every session message, every other session, every map iteration order","all pairs of sessions in all states, including failures at every intermediate point",
  [SH, SE, NA])
p("C06","Responses are addressed correctly",
  "Every response carries the sequence number of its request; an accepted establishment/modification/deletion response carries in its header the control plane's SEID of that session (the one most recently given by the control plane).",
  "every node state and request","all histories of F-SEID changes",
  [SH+": HandlePfcpSession*Request", PH+": Handle"])
p("C07","Rule slot allocator",
  "A slot identifier that has been handed out and not released is never handed out again; allocation fails exactly when all slots 0..size-1 are outstanding; a released slot becomes available again; releasing identifiers outside 0..size-1 has no effect.",
  "every size and every sequence of allocate/release calls","unbounded histories",
  [EO+": IdTracker, NewIdTracker, GetNext, Release"])
p("C08","Rule slots are owned exclusively",
  "No two live sessions (or two rules of one session) use the same FAR, QER or URR slot of the forwarding plane, and a slot in use by a live session is never in the free pool. (False when a request updates or removes a rule id that the session does not have; proved for all histories of requests that only update/remove known rules.)",
  "every history of PFCP messages, every pair of rules","a global invariant over all histories",
  [SH, SE+": GetFar, UpdateFar, RemoveFar", EP+": NewFar, UpdateFar, DeleteFar"])
p("C09","Forwarding plane agrees with the session record",
  "At any time the forwarding plane's FAR slot of every FAR of every live session contains exactly the parameters recorded for that session, and the QER slot the gate status, QFI and bit rates recorded.",
  "every history of PFCP messages and packets","global invariant over all histories",
  [SH+": composeFarInfo, updateQer", EP+": NewFar, UpdateFar, NewQer, UpdateQer"])
p("C10","An accepted deletion removes everything",
  "After an accepted session deletion no PDR key of the session is in the forwarding tables, all its FAR/QER/URR slots are zeroed and free again, and the session no longer exists. (False for uplink PDRs whose TEIDs agree modulo 256; proved when TEIDs that agree in the low byte are equal.)",
  "every state, every session, every iteration order","all sessions and iteration orders",
  [SH+": HandlePfcpSessionDeletionRequest", PCC+": deletePDR"])
p("C11","An existing session can be deleted",
  "A deletion request for an existing session is answered with cause 1 and the session is removed. (False: two PDRs with the same UE IP make the session permanently undeletable and the request unanswered; proved for sessions whose PDR keys are installed and whose UE IPs are distinct.)",
  "every state, every session, every iteration order","all sessions and iteration orders",
  [SH+": HandlePfcpSessionDeletionRequest", PH+": Handle", PCC+": deletePDR"])
p("C12","A rejected establishment has no effect",
  "A rejected session establishment leaves the set of sessions unchanged and installs nothing in the forwarding plane. (The second half is false: no rollback.)",
  "every state and request","failure at every intermediate step",
  [SH+": HandlePfcpSessionEstablishmentRequest"])
p("C13","TEID pool",
  "TEIDs handed out by the pool are in 1..range, and two TEIDs outstanding at the same time are different; exhaustion is reported as an error; releasing a session's TEIDs makes exactly these available again.",
  "every range and every sequence of allocate/release calls, every map iteration order","unbounded histories",
  [RM+": NewResourceManager, AllocateTEID, ReleaseTEID"])
p("C14","No two live sessions share an allocated TEID",
  "At the PFCP level: the TEIDs the node allocated for PDRs of live sessions are pairwise different across sessions. (False: TEIDs are released under the wrong SEID; witnesses proved.)",
  "every history of PFCP messages","global invariant over all histories",
  [PCC+": extractPDR, deletePDR", PC+": ReleaseResources", RM])
p("C15","UE IP pool",
  "IP addresses handed out are members of the configured pool and not outstanding already; an exhausted pool yields an error; deleting a session returns its address. (Last part false at the PFCP level: allocated under the remote SEID, released under the local one.)",
  "every pool and every history","unbounded histories",
  [RM+": AllocateIP, ReleaseIP", PC+": ReleaseResources", PCC+": getIP"])
p("C16","CHOOSE ID",
  "Within one request, PDRs that ask for a TEID with the same CHOOSE ID get the same TEID, PDRs with different CHOOSE IDs or without CHOOSE ID get different TEIDs.",
  "every request and pool state","all requests",
  [PCC+": extractPDR, hasTEIDCache, setTEIDCache"])
p("C17","Created PDR IEs tell the truth",
  "An accepted establishment reports for exactly the PDRs whose TEID or IPv4 address was chosen by the node a Created PDR IE, with the PDR id and the value installed in the forwarding table (F-TEID with the N3 address); the Create PDRs of an accepted modification likewise. Addresses are chosen exactly while the feature is configured (as last posted).",
  "every state and request","all requests",
  [SH, "cmd/core/pdr.go: processCreatedPDRs", PCC+": extractPDR"])
p("C18","An accepted PDR is installed",
  "When a PDR is accepted, the forwarding table has, under its UE IP or TEID, an entry whose FAR and QER are the slots of the FAR and QER of the same session that the PDR names and whose outer-header-removal is the one given.",
  "every state, every PDR","all PDRs in all table states",
  ["cmd/core/pdr.go: applyPDR", EP+": PutPdrUplink, PutPdrDownlink, PutDownlinkPdrIp6, CombinePdrWithSdf, ToIpEntrypointPdrInfo"])
p("C19","PDR order independence",
  "Installing a default PDR and an SDF PDR for the same key in either order gives the same classification. (False: default after SDF erases the filter; proved for default first.)",
  "every pair of PDRs and every key","all pairs",
  [EP+": CombinePdrWithSdf, ToIpEntrypointPdrInfo"])
p("C20","Re-installing an SDF-only PDR keeps non-matching traffic unclassified",
  "Updating a PDR that has an SDF filter, when no default PDR exists for the key, leaves packets not matching the filter unclassified. (False: the second installation turns the entry into mode 2 with default FAR 0.)",
  "every SDF PDR","all PDRs", [EP+": PreprocessPdrWithSdf, CombinePdrWithSdf", X+": handle_gtp_packet"])
p("C21","SDF filter grammar",
  "The filters accepted are exactly the 'permit out PROTO from SRC to DST' descriptions of the documented grammar; omitted ports mean 0-65535; inverted or out-of-range port ranges are rejected; the parsed record has the protocol, addresses, masks and ports written in the text.",
  "every string","all strings", [SP+": ParseSdfFilter, ParseProtocol, ParsePortRange, ParsePort"])
p("C22","Out-of-range prefix lengths are rejected",
  "An address with a prefix length greater than the address length is rejected. (False: it is accepted and behaves like 'any'.)",
  "every address and prefix length","all inputs", [SP+": ParseCidrIp"])
p("C23","IPv4 SDF classification means what the filter says",
  "For an IPv4 packet the forwarding plane says 'match' exactly when the protocol equals (or the filter says ip), the source and destination are in the given prefixes and the ports in the given ranges.",
  "every filter and every packet","2^100+ combinations", [XS+": match_sdf_filter_ipv4", EP+": CombinePdrWithSdf, Copy16Ip"])
p("C24","IPv6 SDF classification means what the filter says",
  "Same for IPv6. (False; proved only for filters with any addresses.)",
  "every filter and packet","2^300 combinations", [XS+": match_sdf_filter_ipv6"])
p("C25","Unclassified packets are passed untouched",
  "A packet that matches no PDR (unknown TEID, unknown UE address, or SDF-only entry whose filter does not match), and a packet that is not IPv4/IPv6, is handed to the kernel (XDP_PASS) byte for byte and no QER timer or URR counter changes.",
  "every frame and every table content","all frames", [X+": process_packet, handle_ip4, handle_gtp_packet, handle_n6_packet_ipv4"])
p("C26","Forwarding needs FORW action and open gate",
  "A frame is only sent on (TX or redirected) as user traffic if the FAR of the classified PDR has the FORW flag and the QER gate of that direction is open; downlink additionally needs the GTP outer header creation; otherwise it is dropped.",
  "every frame and every table content","all frames and tables", [X+": handle_gtp_packet, handle_n6_packet_ipv4, handle_n6_packet_ipv6"])
p("C27","Downlink encapsulation",
  "A forwarded downlink packet is the original IP packet, unchanged, preceded by Ethernet, outer IPv4 (source N3 address, destination FAR remote address, TOS from transport level marking), UDP 2152/2152, GTP-U G-PDU with the FAR's TEID and the PDU session container with the QER's QFI, with consistent length fields.",
  "every downlink packet and every FAR/QER","all packets and parameters", [XG+": add_gtp_over_ip4_headers, fill_ip_header, fill_udp_header, fill_gtp_header"])
p("C28","Uplink decapsulation",
  "A forwarded uplink packet with outer header removal is exactly the inner IP packet behind the Ethernet header. (Only for G-PDUs with no optional fields or with exactly 8 octets of optional fields behind an outer IP header without options; witness for other layouts.)",
  "every uplink G-PDU","all packets", [XG+": remove_gtp_header", X+": handle_gtp_packet"])
p("C29","Encapsulation and decapsulation are inverse",
  "Removing the headers that downlink encapsulation added yields the original IP packet with its original EtherType.",
  "every IP packet","all packets", [XG+": add_gtp_over_ip4_headers, remove_gtp_header"])
p("C30","Outer IPv4 header checksum",
  "The outer IPv4 header produced by encapsulation has a valid checksum (ones' complement sum of the header words is 0xffff).",
  "every FAR/QER and packet length","2^96 header contents", [XG+": add_gtp_over_ip4_headers", "cmd/ebpf/xdp/utils/csum.h: ipv4_csum, csum_fold_helper"])
p("C31","N9 re-tunnelling",
  "Re-tunnelling an uplink G-PDU changes only the outer source/destination address, the outer IP checksum, the TEID, and clears the UDP checksum; all other octets of the frame, including the payload, are kept and the frame length is unchanged; the checksum is valid for headers without options.",
  "every uplink G-PDU","all packets", [XG+": update_gtp_tunnel"])
p("C32","GTP-U echo",
  "A GTP-U echo request is answered with an echo response of the same sequence number with Ethernet, IP and UDP endpoints swapped.",
  "every echo request frame","all frames", [XG+": handle_echo_request", "cmd/ebpf/xdp/utils/gtpu.h: insert_recovery"])
p("C33","ICMP echo to the UPF",
  "An uplink ICMP echo request to the UPF's address yields a reply with swapped addresses, type 0, unchanged identifier, sequence number and payload, and a checksum that is valid if the request's was (except in one corner of the incremental update: identifier, sequence number and payload all zero, witness).",
  "every echo request","all frames", ["cmd/ebpf/xdp/utils/icmp.h: prepare_icmp_echo_reply", X+": handle_gtp_packet"])
p("C34","Rate limiting",
  "Over any time interval of length T the traffic of one direction of a QER that passes is at most MBR*T plus the burst tolerance (5 ms window plus one packet). (Exact for MBRs dividing 10^9; general bound with the integer-division error; unlimited above 10^9 bit/s.)",
  "every sequence of packet sizes and arrival times, every initial timer value","all arrival sequences", [XQ+": limit_rate_sliding_window"])
p("C35","Maximum bit rate 0 means unlimited and MBR is converted exactly",
  "A QER with MBR 0 never drops; an MBR given in kbit/s is enforced as 1000 times that many bit/s. (Second part false above 4294967 kbit/s: 32-bit overflow; proved below.)",
  "every packet sequence, every MBR value","all values", [XQ, SH+": updateQer"])
p("C36","QER update merges",
  "Updating a QER changes exactly the fields present in the request.",
  "every QER and request","all subsets of optional IEs", [SH+": updateQer"])
p("C37","FAR update merges",
  "Updating a FAR changes exactly the parameters present in the request; a rejected update leaves the FAR unchanged.",
  "every FAR and request","all subsets of optional IEs", [SH+": composeFarInfo"])
p("C38","Usage is accounted to the right URR",
  "Every forwarded packet of n bytes of a PDR adds n to the uplink/downlink volume of the URRs named by that PDR and to nothing else. (False: URR ids never reach the forwarding plane, all traffic is added twice to slot 0.)",
  "every packet and table content","all histories", [XU+": update_urr", EP+": CombinePdrWithSdf, ToIpEntrypointPdrInfo"])
p("C39","Usage reports",
  "The usage report sent when a URR is removed, or the session deleted, contains the URR id, sequence number one, the accumulated uplink and downlink volume of the URR's slot and their sum, and the slot is cleared.",
  "every state and request","all accumulated volumes", [SH, EP+": DeleteUrr"])
p("C40","XDP action counters",
  "After any sequence of frames, the counter of each XDP action equals the number of frames for which the program returned that action.",
  "every sequence of frames","unbounded histories", [X+": upf_ip_entrypoint_func", "cmd/ebpf/xdp/statistics.h"])
p("C41","Packet statistics totals",
  "The totals reported over all CPUs equal the sum of the per-CPU counters, for every counter. (False for unexpected GTP messages, which are never added.)",
  "every per-CPU content","all contents", ["cmd/ebpf/stats.go: Add, GetUpfExtStatField"])
p("C42","Prometheus counters",
  "After any sequence of scrapes the exported counter equals the data plane's total. (False: every scrape adds the full total again; proved when the previous values were kept.)",
  "every sequence of scrapes","unbounded histories", ["cmd/core/metrics.go", "cmd/ebpf/stats.go: GetUpfExtStatDelta", "cmd/api/rest/handler.go"])
p("C43","An association is only dropped after N consecutive unanswered heartbeats",
  "The heartbeat scheduler declares a peer failed only if its last HeartbeatRetries heartbeat periods all expired without a matching answer in between.",
  "every interleaving of timeouts and answers","all schedules", [NA+": ScheduleHeartbeat"])
p("C44","The control plane never wedges",
  "From every reachable state the main loop can eventually process further messages. (False: main loop and heartbeat scheduler can wait for each other forever.)",
  "every interleaving","all schedules", [NA+": ScheduleHeartbeat, HandleHeartbeat", HB+": HandlePfcpHeartbeatResponse", PC+": Run"])
p("C45","Association removal removes its sessions",
  "When a peer's association is removed, all its sessions are gone, their PDR keys and FAR/QER slots are removed, other peers' sessions are untouched. (URR slots and UE IPs leak.)",
  "every state","all states and iteration orders", [PC+": DeleteAssociation, DeleteSession"])
p("C46","User space and kernel agree on table layouts",
  "Every field of FAR, QER, URR and PDR written by user space is read by the forwarding plane at the same offset with the same size and byte order. (The REST uplink PDR endpoint violates it.)",
  "every record value","all values", [EP+": FarInfo, QerInfo, PdrInfo", "cmd/ebpf/xdp/pdr.h", XQ, "cmd/api/rest/uplink_pdr.go"])
p("C47","Configuration validation",
  "After accepted validation the table sizes are the configured ones or, where none is configured, derived from max_sessions (PDR and FAR 2x, URR 2x, QER 1x), pools are cleared when their feature is off, and nothing else changes; the node starts with the accepted configuration and serves at least max_sessions sessions. (False corners: the product overflows 32 bits, zero sessions give zero tables, association_setup_timeout 0 crashes the start.)",
  "every configuration","all values", ["cmd/config/config.go: Validate"])
p("C48","Repeated association setup keeps sessions",
  "An association setup request from a peer that already has an association is accepted and leaves all sessions and the SEID counter as they were.",
  "every state","all states", [PH+": HandlePfcpAssociationSetupRequest"])
p("C49","No out-of-bounds packet access",
  "Every header field the forwarding plane reads or writes lies within the frame.",
  "every frame","all frames", ["cmd/ebpf/xdp/utils/parsers.h", XG])
p("C50","Packets never change rules",
  "Processing any sequence of frames leaves PDR tables and FAR slots unchanged; of QER slots only the rate limiting timers and of URR slots only the volumes change; no session record changes.",
  "every sequence of frames","unbounded histories", [X, XQ, XU])
p("C51","REST session query",
  "The unfiltered session list contains exactly the live sessions of all peers; filtered by TEID or IP it contains only live sessions that have a PDR with that TEID or UE address, and it is empty exactly when there is none. (False parts: only one of several matching sessions is listed, IPv6 addresses are never found, TEIDs are taken modulo 2^32.)",
  "every state and query","all states", ["cmd/api/rest/pfcp_sessions.go: GetAllSessions, ..."])
p("C52","Session gauge",
  "The reported number of sessions equals the number of sessions established and neither deleted nor lost with their association.",
  "every history","unbounded histories", [PC+": GetSessionCount"])
p("C53","GTP echo sequence numbers",
  "Each configured peer is sent exactly one echo request per interval; its sequence number is the number of answers taken from this peer so far modulo 2^16; the answer another eUPF sends to the request is taken. An answer is taken only if it carries the sequence number of the request. (The last part is false: any echo response is taken.)",
  "every history","unbounded histories", ["cmd/core/gtp_path_manager.go"])
p("C54","Configuration POST is atomic",
  "A rejected configuration POST leaves the configuration unchanged. (False.)",
  "every request","all requests", ["cmd/api/rest/config.go: editConfig"])
p("C55","TEID pool construction terminates",
  "Building the TEID pool terminates for every configured range and yields exactly the TEIDs 1..range. (False for 2^32-1.)",
  "every range","2^32 values", [RM+": NewResourceManager"])
p("C56","Changing a PDR's TEID moves it",
  "When an update gives a PDR another TEID, the old TEID no longer selects the PDR. (False.)",
  "every state and update","all states", [SH+": HandlePfcpSessionModificationRequest"])
p("C57","A PDR without match key is rejected",
  "A PDR whose PDI has neither F-TEID nor UE IP is rejected. (False: installed as TEID 0.)",
  "every state and request","all states", [PCC+": extractPDR"])
p("C58","Sessions without QER are not policed by others",
  "Traffic of a PDR without QER is not affected by the QERs of other sessions. (False: it uses QER slot 0.)",
  "every state","all states", [PCC+": extractPDR", X])
p("C59","Malformed messages never crash the node",
  "No PFCP message makes the process panic. (False for heartbeats without Recovery Time Stamp, FARs with an empty Apply Action or an undecodable Outer Header Creation, and PDIs without Source Interface; proved for all messages without these defects.)",
  "every state and message","all messages in all states", [SH+": composeFarInfo", HB, PCC+": deletePDR", "cmd/core/display_utils.go: displayPdr"])
p("C60","Never-configured TEIDs are never forwarded",
  "If no request ever named a TEID and the TEID is not in the pool, no uplink frame with this TEID is ever forwarded, dropped, rate limited or accounted, whatever else happens.",
  "every history of PFCP messages and frames","unbounded end-to-end histories", [SH, PCC, EP, X])
exec(open('/verif/tools/props_more.py').read()) if __import__('os').path.exists('/verif/tools/props_more.py') else None
with open('/verif/properties.jsonl','w') as f:
    for x in P: f.write(json.dumps(x)+'\n')
print(len(P))
