p("C61","Dead peers are given up",
  "A peer that never answers a heartbeat is eventually given up and its association removed. (False when it keeps sending heartbeat responses with other sequence numbers: each restarts the wait; proved when nothing arrives.)",
  "every execution","unbounded executions, timers and interleavings", [NA if 'NA' in globals() else "cmd/core/node_association.go: ScheduleHeartbeat", "cmd/core/pfcp_connection.go: Run"])
p("C62","Receive counters count exactly the frames of their kind",
  "Each receive counter of the forwarding plane (ARP, ICMP, ICMPv6, IPv4, IPv6, TCP, UDP, other, GTP echo, G-PDU, ...) goes up by exactly one for every frame of its kind and stays unchanged for every other frame, for every frame content, table content and earlier history.",
  "every frame, every table content, every sequence of frames","all byte strings", ["cmd/ebpf/xdp/n3n6_entrypoint.c: process_packet, handle_ip4, handle_ip6, handle_gtpu", "cmd/ebpf/xdp/parsers.h"])
p("C63","REST table access: what is written is what is read",
  "A FAR or QER written through the REST interface is what the interface returns for that id afterwards and is what the forwarding plane reads; no other slot and no other table changes; an id outside of the table is refused and changes nothing.",
  "every table content and every element","all states", ["cmd/api/rest/far.go", "cmd/api/rest/qer.go", "cmd/ebpf/utils.go"])
SH="cmd/core/pfcp_session_handlers.go: HandlePfcpSessionEstablishmentRequest, HandlePfcpSessionModificationRequest, HandlePfcpSessionDeletionRequest"
PC="cmd/core/pdr_creation_context.go: extractPDR"
XE="cmd/ebpf/xdp/n3n6_entrypoint.c"
p("C64","A session's forwarding is not disturbed by others",
  "While only one session has PDRs with some TEID or UE address, a message that is not about that session (and does not itself give that TEID or address, and the TEID or address is not free in the UPF's pools) leaves the forwarding of packets with that TEID or address as it is: the entry, the FARs and the QERs of the session, whatever the message is, whoever sends it, accepted or rejected. (The FAR and QER part is false if modifications refer to rules their session does not have, see C08, C09.)",
  "every history of messages and packets, every session, every TEID and UE address, every later message","histories are unbounded", [SH, PC, "cmd/core/pdr.go: applyPDR, deletePDR"])
p("C65","Downlink, end to end",
  "After an accepted Session Establishment Request asking for packets to a UE address to be forwarded in a GTP-U tunnel (FAR FORW with outer header creation, QER with open gate), every downlink IPv4 packet to that address that matches the PDR's filter leaves the UPF unchanged inside exactly that tunnel - peer address, TEID, QFI and traffic class of the request - no matter what the UPF did before and what messages about other sessions and packets it processed since, as long as modification requests only name rules their session has (C08 and C09 show what happens otherwise).",
  "every earlier history, every such request, every later history not about the session or address, every packet","quantifies over histories, requests and packet contents at once", [SH, PC, XE, "cmd/ebpf/xdp/utils/gtp_utils.h"])
p("C66","Uplink, end to end",
  "After an accepted Session Establishment Request asking for G-PDUs with some TEID to be decapsulated and forwarded (open gate, no rate limit), every such G-PDU whose payload matches the PDR's filter leaves the UPF as its payload, routed by the payload's destination address, no matter what the UPF did before and what messages about other sessions and packets it processed since. (Proved for G-PDUs without outer IP options and with no optional GTP-U fields or 8 octets of them; C28 shows the rest is false.)",
  "every earlier history, every such request, every later history not about the session or TEID, every packet","quantifies over histories, requests and packet contents at once", [SH, PC, XE, "cmd/ebpf/xdp/utils/gtp_utils.h"])

PH="cmd/core/pfcp_handlers.go: Handle"
p("C67","PFCP message counters",
  "upf_pfcp_rx counts, per message name, the decodable messages received; upf_pfcp_tx counts, per message name, the messages sent; upf_pfcp_rx_errors counts, per message name and cause name, the messages answered with that cause. (The first holds. The second holds for responses only: heartbeat requests and association setup requests are never counted. The third holds with additions: a deletion that fails is counted although it is not answered, and a defective Association Setup Response is counted with its defect.)",
  "every sequence of datagrams, timer ticks and heartbeats","sequences are unbounded", [PH,"cmd/core/metrics.go: PfcpMessageRx, PfcpMessageTx, PfcpMessageRxErrors","cmd/core/pfcp_session_handlers.go: causeToString"])
p("C68","Associations follow the messages, and configured peers are asked until associated",
  "The UPF has an association with a peer exactly if the peer sent an acceptable Association Setup Request or Response and was not given up since; the association gauge is their number. At every tick of the association timer an Association Setup Request goes to every configured peer without association whose address resolves, and to nobody else. (A peer configured under a name other than its address is asked forever.)",
  "every sequence of datagrams, timer ticks and heartbeats","sequences are unbounded", ["cmd/core/pfcp_connection.go: RefreshAssociations, GetAssiciationCount, sendAssociationSetupRequest","cmd/core/pfcp_handlers.go: HandlePfcpAssociationSetupRequest, HandlePfcpAssociationSetupResponse"])
p("C69","Every associated peer is probed",
  "Heartbeat requests and association setup requests are sent to the peer they are for. (False for peers with IPv6 addresses: the address is joined with the port without brackets and never resolves, so no request is ever sent to them, and an IPv6 peer that answers only what it receives is given up after the configured number of heartbeats although alive.)",
  "every peer address, every execution","executions are unbounded", ["cmd/core/pfcp_hearbeat.go: SendHeartbeatRequest","cmd/core/pfcp_connection.go: sendAssociationSetupRequest"])
p("C70","Advertised features",
  "An accepted Association Setup Response (and no other response) carries the UP function features, and they are: FTUP exactly if configured at start, UEIP exactly if configured at start, and EMPU; replacing the configuration does not change them. Without FTUP a request that asks for a TEID is refused.",
  "every history, every configuration","histories are unbounded", ["cmd/core/pfcp_connection.go: NewPfcpConnection","cmd/core/pfcp_handlers.go: setBit, HandlePfcpAssociationSetupRequest","cmd/config/config.go: Validate","cmd/core/pdr_creation_context.go: getFTEID"])
p("C71","Answers to heartbeats are recognised",
  "A heartbeat answered by the peer is recognised as answered, and the next one is sent only when it is due. (False once an association has sent 2^24 heartbeats: sequence numbers have three octets on the wire but are compared with a 32-bit counter, so no answer is ever recognised again and heartbeats are sent without pause.)",
  "every execution, every number of heartbeats","needs 2^24 heartbeats", ["cmd/core/node_association.go: ScheduleHeartbeat, NewSequenceID","cmd/core/pfcp_hearbeat.go: HandlePfcpHeartbeatResponse, SendHeartbeatRequest"])
p("C72","Next hops",
  "Every frame the UPF sends out, except an answer to a GTP-U echo request, leaves on the interface and with the MAC addresses that the kernel's routing gives for exactly that packet. (Holds for IPv4. IPv6 packets are looked up as IPv4: the packet leaves for the next hop of the IPv4 address formed by the first four octets of its IPv6 destination, and the kernel's IPv6 routes have no influence on any packet.)",
  "every frame, every table content, every routing table","all packets and all routing tables", ["cmd/ebpf/xdp/utils/routing.h: route_ipv4, route_ipv6, do_fib_lookup_ip4, do_fib_lookup_ip6"])
p("C73","Routing and forwarding counters",
  "Route lookups are counted one per packet forwarded to N3 or N6 and by their result, and the successful ones are as many as the frames sent out that are no echo answers. (The counters of packets sent to N3 and N6 themselves are of packets about to be routed: they also count packets dropped for lack of a route.)",
  "every sequence of frames, tables and routing tables","sequences are unbounded", ["cmd/ebpf/xdp/utils/routing.h: route_ipv4, route_ipv6","cmd/ebpf/xdp/statistics.h"])
p("C74","Rate limits with several CPUs",
  "The bound of C34 on the traffic that passes a rate limit holds no matter how many CPUs handle the traffic and how their steps interleave. (False: n CPUs can pass n times the limit, for any time. It holds as long as never two CPUs are between reading and writing the timer, so if one CPU gets all traffic of the QER and direction.)",
  "every number of CPUs, every interleaving, every sequence of packets and times","races are not reproducible by tests", ["cmd/ebpf/xdp/qer.h: limit_rate_sliding_window"])
p("C75","Usage volumes with several CPUs",
  "No octet is lost and none reported twice when packets are counted on several CPUs and usage is reported meanwhile. (False: packets counted at the same time on k CPUs count as one; a volume already reported can be reported again; what is counted while a report is made is lost. It holds if accesses do not overlap; and between reports the volume is never more than what was counted.)",
  "every number of CPUs, every interleaving of counting and reporting","races are not reproducible by tests", ["cmd/ebpf/xdp/urr.h: update_urr","cmd/ebpf/pdr.go: DeleteUrr"])
p("C76","Handover is atomic",
  "While the tunnel of a session is being changed, each packet goes into the old or the new tunnel. (False: the packet program reads the fields of the record one by one while it is replaced, so a packet can go to the old base station with the TEID of the new one. Packets during which the record is not replaced see one record.)",
  "every pair of tunnels, every moment of the change","races are not reproducible by tests", ["cmd/ebpf/xdp/n3n6_entrypoint.c: handle_n6_packet_ipv4, handle_n6_packet_ipv6","cmd/ebpf/pdr.go: UpdateFar"])
p("C77","All QERs of a PDR are enforced",
  "Every QER a Create PDR names is enforced on the packets the PDR applies to. (False: only the first QER ID of a PDR is read; a closed gate or a rate limit in any further one has no effect whatsoever. The first one is enforced.)",
  "every establishment request, history and packet","requests, histories and packets are unbounded", ["cmd/core/pdr_creation_context.go: extractPDR","cmd/core/pfcp_session_handlers.go: HandlePfcpSessionEstablishmentRequest"])
p("C78","Transport Level Marking",
  "The Transport Level Marking in the Forwarding Parameters of a FAR is the DSCP of the outer header. (False: it is looked for among the children of the FAR itself, where TS 29.244 does not have it; inside the Forwarding Parameters it has no effect. Beside them it has.)",
  "every establishment request, history and packet","requests, histories and packets are unbounded", ["cmd/core/pfcp_session_handlers.go: GetTransportLevelMarking, composeFarInfo"])
p("C79","Several SDF filters in a PDI",
  "A PDR applies to the packets that fit any of the SDF filters of its PDI, including their ToS traffic class. (False: only the flow description of the first SDF filter is read. It applies to the packets that fit the first.)",
  "every establishment request, history and packet","requests, histories and packets are unbounded", ["cmd/core/pdr_creation_context.go: extractPDR"])
p("C80","Precedence",
  "Of the PDRs that match a packet the one with the highest precedence (lowest value) is applied. (False: the Precedence IE is never read; removing all of them from any request changes nothing. A filter installed over a PDR without filter always goes first.)",
  "every establishment request and packet","requests and packets are unbounded", ["cmd/core/pdr_creation_context.go: extractPDR","cmd/core/pdr.go: applyPDR","cmd/ebpf/pdr.go: CombinePdrWithSdf"])
p("C81","UE address of uplink packets",
  "An uplink PDR whose PDI has an F-TEID and a UE IP address applies only to packets in that tunnel that come from that address. (False: the UE IP address is not read when there is an F-TEID, so a UE can send with any source address. Packets in the tunnel from the UE's address are forwarded.)",
  "every establishment request and packet","requests and packets are unbounded", ["cmd/core/pdr_creation_context.go: extractPDR"])
p("C82","Source Interface",
  "A PDR applies only to packets coming from the Source Interface of its PDI. (False: the value of the Source Interface is only printed; a PDR with a UE IP address and without F-TEID is applied to packets towards the UE whatever interface it names. PDRs with F-TEID are applied to tunnelled packets only and PDRs without to untunnelled ones only.)",
  "every establishment request and packet","requests and packets are unbounded", ["cmd/core/pdr_creation_context.go: extractPDR","cmd/core/display_utils.go: displayPdr"])
p("C83","Update PDR without PDI",
  "An Update PDR may leave out the PDI (it is conditional), to change only the FAR or QER of a PDR. (False: such a request is never accepted. With the PDI repeated the update is in effect.)",
  "every state, every request","states and requests are unbounded", ["cmd/core/pdr_creation_context.go: extractPDR","cmd/core/pfcp_session_handlers.go: HandlePfcpSessionModificationRequest"])
p("C84","A rejected modification has no effect",
  "A Session Modification Request answered with a cause other than accepted changes neither the session nor the forwarding of packets. (False: everything before the failing IE stays, and a new CP F-SEID always does. Other sessions' records are untouched.)",
  "every state, every request","states and requests are unbounded", ["cmd/core/pfcp_session_handlers.go: HandlePfcpSessionModificationRequest"])
p("C85","The route cache does not change where packets go",
  "With the image built with the route cache (BPF_ENABLE_ROUTE_CACHE=1) packets still go to the next hop of the kernel's routes. (False: the first answer for a destination address is used for every later packet to it, whatever the routes are by then and whatever the packet's source, TOS or protocol. While the routes are constant and depend on the destination only, the cache makes no difference.)",
  "every sequence of frames, every sequence of kernel routes, every choice of evicted entries","sequences are unbounded, the kernel's routes are arbitrary", ["cmd/ebpf/xdp/utils/routing.h: route_ipv4, update_route_cache_ipv4, upf_route_cache_ip4","Dockerfile"])
p("C86","Queries do not disturb the UPF",
  "Asking the UPF for its sessions, its associations or its metrics at any time while it handles PFCP messages does not end the process. (False: queries are served by other goroutines which read the tables of associations and sessions without a lock; Go ends the process when it sees a concurrent map read and map write. The pools of addresses and TEIDs are never accessed concurrently and the mutexes never deadlock.)",
  "every history of PFCP messages, every set of queries and heartbeat schedulers, every interleaving of their accesses","races are not reproducible by tests; interleavings are unbounded", ["cmd/api/rest/pfcp_sessions.go: listPfcpSessions, listPfcpSessionsFiltered","cmd/api/rest/pfcp_associations.go: listPfcpAssociations","cmd/core/metrics.go: RegisterMetrics","cmd/core/pfcp_connection.go: Run, GetSessionCount","cmd/core/service/resource_manager.go: AllocateIP, ReleaseIP, AllocateTEID, ReleaseTEID","cmd/core/node_association.go: ScheduleHeartbeat"])
p("C87","TEIDs and addresses come back to the pools",
  "A TEID or address given to a session is available again once the session is gone: the UPF can serve new sessions for ever. (True of TEIDs if peers are careful: every TEID is free or on loan to a live session. False otherwise: each establishment request that is rejected after a TEID was chosen costs that TEID for good, so any associated peer can empty the pool without a session; so do Update PDRs that ask for a TEID and changes of the CP F-SEID. False of addresses: they are not released on deletion.)",
  "every history of messages and packets, every pool size","histories are unbounded; leaks show after many sessions", ["cmd/core/service/resource_manager.go: AllocateTEID, ReleaseTEID, AllocateIP, ReleaseIP","cmd/core/pdr_creation_context.go: extractPDR, deletePDR","cmd/core/pfcp_session_handlers.go: HandlePfcpSessionEstablishmentRequest, HandlePfcpSessionDeletionRequest","cmd/core/pfcp_connection.go: DeleteSession, ReleaseResources"])
p("C88","A restart does not go unnoticed",
  "Whenever and wherever the process stops and is started again, the new process knows nothing of the sessions before and does not pretend to: it accepts session requests only from peers that associated with it since its start, modifies and deletes only sessions established since, and forwards nothing for TEIDs and addresses of earlier sessions; heartbeats and association messages carry its own start time as Recovery Time Stamp, so that a peer whose session request is accepted has been told of the restart. (False for a peer that answers an Association Setup Request of the process before: it is associated without having seen the new stamp. Restarts within one second share a stamp, and SEIDs are used again from 2 after each start.)",
  "every number of starts, every point at which the process stops, every history of messages and packets in between","crash points and histories are unbounded", ["cmd/core/pfcp_connection.go: NewPfcpConnection, sendAssociationSetupRequest","cmd/core/pfcp_hearbeat.go: HandlePfcpHeartbeatRequest, SendHeartbeatRequest","cmd/core/pfcp_handlers.go: HandlePfcpAssociationSetupRequest, HandlePfcpAssociationSetupResponse","cmd/ebpf/objects.go: Load","cmd/core/node_association.go: NewNodeAssociation, NewLocalSEID"])
p("C89","What the REST interface shows",
  "GET /pfcp_sessions answers with one JSON document that shows every live session once, with its SEIDs and exactly its PDRs, FARs, QERs and URRs, their values and their table slots; GET /pfcp_associations shows every associated peer once, with its SEID counter; GET /pfcp_associations/full shows the associations with their sessions. (The last is false: the answer is 200 with an empty body as soon as a peer is associated. Without sessions the first is null, not an empty list; with an unreadable parameter the body is two documents.)",
  "every node state, every iteration order of the maps","states are unbounded and map orders arbitrary", ["cmd/api/rest/pfcp_sessions.go: listPfcpSessionsFiltered, GetAllSessions","cmd/api/rest/pfcp_associations.go: listPfcpAssociations, listPfcpAssociationsFull","cmd/core/node_association.go: NodeAssociation","cmd/core/session.go: Session","cmd/ebpf/pdr.go: MarshalJSON"])
p("C90","The tunnel and the address that the UPF chose are served",
  "If a PDR leaves its F-TEID (CHOOSE) or its UE IP address to the UPF and the request is accepted, then packets for exactly the TEID or address that the response reports for this PDR are treated by the PDR's FAR and QER - decapsulated and routed, or sent in the FAR's tunnel to the peer it names - whatever other sessions do later, as long as nobody gives this TEID or address explicitly to another PDR. (For TEIDs the peers must also be disciplined as in C14.)",
  "every history before and after, every request that asks for such a PDR, every pool, every packet","end to end over unbounded histories of other sessions which share the pools", ["cmd/core/pdr_creation_context.go: extractPDR, getFTEID, getIP","cmd/core/service/resource_manager.go: AllocateTEID, AllocateIP","cmd/core/pfcp_session_handlers.go: HandlePfcpSessionEstablishmentRequest","cmd/ebpf/xdp/n3n6_entrypoint.c: handle_gtp_packet, handle_n6_packet_ipv4"])
p("C91","A filter text does what it says, from the request to the packet",
  "If an accepted establishment gives a PDR an SDF filter text, then of the packets for the PDR's UE address or TEID exactly those that the text describes are treated by this PDR's FAR and QER, the others by the PDR without filter for the same address or TEID, if the request has one, else not at all - whatever other sessions do later. (True with one filter, after the PDR without filter. False if the PDR without filter comes last: the filter has no effect. False of two PDRs with filters: packets the later text does not describe get FAR and QER slot 0, which may be another session's, so that they leave in that session's tunnel. Uplink texts are compared as they are, although flow descriptions are in downlink sense: the flow that a text describes is not matched uplink. For UEs with IPv6 addresses the packets treated so are those that compare in the way C24 describes; if the text names one IPv6 source, no packet from it is ever forwarded.)",
  "every text of the grammar with IPv4 or any, every history before and after, every request, every packet","texts, packets and histories are unbounded", ["cmd/core/pdr_creation_context.go: extractPDR","cmd/core/sdf_parser.go: ParseSdfFilter","cmd/ebpf/pdr.go: PutPdrUplink, PutPdrDownlink, CombinePdrWithSdf","cmd/ebpf/xdp/sdf_filter.h: match_sdf_filter_ipv4","cmd/ebpf/xdp/n3n6_entrypoint.c: handle_gtp_packet, handle_n6_packet_ipv4"])
p("C92","UEs with IPv6 addresses are served",
  "If an accepted establishment asks for packets to an IPv6 UE address to be forwarded in a tunnel, every packet to the UE leaves as the unchanged packet in exactly that tunnel, whatever other sessions do later. (True of TCP and UDP directly after the IPv6 header, to the address given. False of all other packets: ICMPv6, extension headers, other protocols; of other addresses in the UE's /64 prefix; and of PDRs that give an IPv4 and an IPv6 address, whose IPv6 address is not served at all.)",
  "every history before and after, every request, every packet","packets and histories are unbounded", ["cmd/core/pdr_creation_context.go: extractPDR","cmd/core/pdr.go: applyPDR","cmd/ebpf/pdr.go: PutDownlinkPdrIp6","cmd/ebpf/xdp/n3n6_entrypoint.c: handle_ip6, handle_n6_packet_ipv6"])
p("C93","What was last said is what happens (handover, idle, blocking)",
  "While a session lives and its modifications are accepted, packets of its UE are treated according to what was last said about the FAR and the QER of its PDR, field by field over the establishment and all modifications: they go into the tunnel last named (handover), are dropped after an Apply Action without FORW or after the gate was closed, and carry the QFI last given; whatever else the modifications change and whatever other sessions do. (Proved for PDRs that are themselves not updated; uplink for the header forms of C28.)",
  "every history before and after, every list of modifications, every packet","histories are unbounded; the field-wise merge over them is a fold that tests only sample", ["cmd/core/pfcp_session_handlers.go: HandlePfcpSessionModificationRequest, composeFarInfo, updateQer","cmd/core/session.go: UpdateFAR, UpdateQER","cmd/ebpf/pdr.go: UpdateFar, UpdateQer","cmd/ebpf/xdp/n3n6_entrypoint.c: handle_gtp_packet, handle_n6_packet_ipv4, handle_n6_packet_ipv6"])
p("C94","Rule slots come back",
  "The slots of the FAR, QER and URR tables are conserved: at every moment the free slots and the rules of the live sessions add up to the configured table sizes, so that when no session is live everything is free again. (True of FARs and QERs in every history in which rules are created under new ids, references are known and no establishment fails half-way; of URRs if moreover no peer with URRs is lost. False otherwise: each failed establishment, each duplicate id and each URR of a lost peer costs a slot until restart, and enough of them make every further establishment fail.)",
  "every history, every table size","leaks show only over long histories; the accounting is an invariant over all of them", ["cmd/ebpf/objects.go: IdTracker","cmd/ebpf/pdr.go: NewFar, DeleteFar, NewQer, DeleteQer, NewUrr, DeleteUrr","cmd/core/pfcp_session_handlers.go: HandlePfcpSessionEstablishmentRequest, HandlePfcpSessionModificationRequest","cmd/core/pfcp_connection.go: DeleteSession, DeleteAssociation"])
p("C95","Room means acceptance",
  "An establishment request is accepted exactly when the peer is associated, Node ID and CP F-SEID are there, every rule is usable (decodable, supported flow description, an address where one is needed) and there are enough free FAR, QER and URR slots and TEIDs (one per PDR that asks without CHOOSE ID, one per CHOOSE ID), provided that the PDR tables have places and the pool addresses for all who ask. So, as long as slots do not leak (C94), a usable request is accepted while the live sessions plus the request stay within the configured numbers, and refused beyond.",
  "every history, every request, every table size","acceptance depends on the whole history through free slots and pools; tests try a few requests on fresh tables", ["cmd/core/pfcp_session_handlers.go: HandlePfcpSessionEstablishmentRequest, validateRequest, composeFarInfo","cmd/core/pdr_creation_context.go: extractPDR","cmd/ebpf/pdr.go: NewFar, NewQer, NewUrr, PutPdrUplink, PutPdrDownlink","cmd/ebpf/objects.go: IdTracker"])
p("C96","PDR tables are never over-full",
  "In every history each of the three PDR tables has the configured size and holds at most that many keys; an establishment that gives more new TEIDs than there are places is not accepted.",
  "every history, every request, every table size","the number of entries depends on the whole history", ["cmd/ebpf/pdr.go: PutPdrUplink, PutPdrDownlink, PutDownlinkPdrIp6","cmd/core/pdr.go: applyPDR","cmd/ebpf/objects.go: Load"])
p("C97","Traffic of a deleted session is no longer carried",
  "Once a session is deleted (or its peer given up, or the PDR removed), user traffic for its TEIDs and UE addresses is passed on untouched - never forwarded, counted or answered - after any further messages and packets, until a message gives the TEID or address to a session again.",
  "every node state, deletion, iteration order, later history, frame","it combines the removal, every later history and every frame; a single wrong removal only shows when another session reuses the FAR slot", ["cmd/core/pfcp_session_handlers.go: HandlePfcpSessionDeletionRequest, HandlePfcpSessionModificationRequest","cmd/core/pdr_creation_context.go: deletePDR, getFTEID","cmd/core/pfcp_connection.go: DeleteSession, DeleteAssociation","cmd/ebpf/xdp/n3n6_entrypoint.c"])
p("C98","The forwarding plane says what the live sessions say, and nothing else",
  "After any history of accepted requests, crashes of peers and packets, a packet for a TEID or UE address is classified by the PDR of the live session that has it (the packet gets the PDR's outer header removal, FAR and QER if it has no filter or the filter matches, and is left alone otherwise), and traffic for all other TEIDs and addresses is passed on untouched. User traffic is only sent on behalf of a PDR of a live session.",
  "every history, every key, every filter verdict, every frame","the tables are changed incrementally by many handlers; agreement is an invariant of all histories", ["cmd/core/pfcp_session_handlers.go: HandlePfcpSessionEstablishmentRequest, HandlePfcpSessionModificationRequest, HandlePfcpSessionDeletionRequest","cmd/core/pdr.go: applyPDR","cmd/core/pdr_creation_context.go: extractPDR, deletePDR","cmd/core/pfcp_connection.go: DeleteSession","cmd/ebpf/pdr.go","cmd/ebpf/xdp/n3n6_entrypoint.c"])
p("C99","Traffic is handled by the rules of the session it belongs to",
  "Every PDR of a live session uses a FAR and a QER of the same session, and no other session has these; so user traffic is only sent if the session it belongs to says so: its own FAR forwards and its own QER has the gate open. No message of another peer can change what happens to it.",
  "every history of requests whose PDRs name rules of their own session, every frame","slots are taken and given back by every message of every peer; a dangling reference shows only when someone else takes the slot", ["cmd/core/pfcp_session_handlers.go: HandlePfcpSessionEstablishmentRequest, HandlePfcpSessionModificationRequest","cmd/core/pdr_creation_context.go: extractPDR","cmd/core/session.go","cmd/ebpf/objects.go: IdTracker","cmd/ebpf/xdp/n3n6_entrypoint.c"])
p("C100","The UPF does what it was told, no more and no less",
  "What the control plane has said - the accepted requests and their answers alone - determines what happens to every user packet. After any history, a downlink packet to a UE address that a session was given leaves unchanged in the tunnel last told for it, an uplink packet leaves as its payload, or with the N9 tunnel last told; if the FAR last told does not forward, the gate is closed or a downlink FAR has no tunnel, it is dropped; if it does not match the PDR's filter, or its TEID or address was given to no session, it is passed on untouched; and nothing else is ever sent. The records of the sessions are exactly what was said.",
  "every history of accepted and refused requests, every lost peer, every frame","it is a refinement: an abstract UPF without tables, slots and pools, driven by the same history, predicts every record and every packet", ["cmd/core/pfcp_session_handlers.go: HandlePfcpSessionEstablishmentRequest, HandlePfcpSessionModificationRequest, HandlePfcpSessionDeletionRequest, composeFarInfo, updateQer","cmd/core/pdr_creation_context.go: extractPDR, deletePDR","cmd/core/session.go","cmd/core/pfcp_connection.go: DeleteAssociation","cmd/ebpf/pdr.go","cmd/ebpf/xdp/n3n6_entrypoint.c"])
p("C101","Traffic within its bit rate is carried",
  "If the traffic of a QER keeps to its maximum bit rate (any consecutive frames fit, at that rate, in the time they take plus a tolerance of 5 ms), then no frame of it that its rule lets through is dropped, except by the route lookup, whatever other traffic there is. (False of frames that take more than 5 ms at the rate, such as full frames below 2.4 Mbit/s: these never get the rate they were given, whatever the state.)",
  "every state of the tables, every sequence of frames, sizes and arrival times","a limiter is a function of the whole history of arrivals; tests cannot try all interleavings of arrivals and rates", ["cmd/ebpf/xdp/qer.h: limit_rate_sliding_window","cmd/ebpf/xdp/n3n6_entrypoint.c","cmd/core/pfcp_session_handlers.go: updateQer"])
p("C102","A session gets the bit rate it was told",
  "After any history, if a QER of a session was last told an MBR, then in every run of packets the traffic of the PDRs of this session that name it gets this rate: within any window of time no more of it is sent than takes, at the rate, the window plus 5 ms (or one frame), and if it keeps to the rate within a tolerance of 5 ms none of it is dropped except by the route lookup - whatever other sessions do, and whatever the history of slots, modifications and packets before.",
  "every history, every session and QER, every sequence of frames and arrival times","it combines the whole history of messages with all later sequences of packets", ["cmd/core/pfcp_session_handlers.go: HandlePfcpSessionEstablishmentRequest, HandlePfcpSessionModificationRequest, updateQer","cmd/ebpf/pdr.go: NewQer, UpdateQer","cmd/ebpf/xdp/qer.h: limit_rate_sliding_window","cmd/ebpf/xdp/n3n6_entrypoint.c"])
p("C103","A request that arrives twice is executed once",
  "A PFCP request that arrives again (retransmitted because the answer was late, or duplicated by the network) is answered exactly as the first time and has no further effect. (True of association and heartbeat messages, of refused requests, and of modifications that only update FARs and QERs. False of establishments: whatever the state, the second arrival is never answered like the first, and with room it makes a second session. False of modifications that create rules, which take further slots, and of deletions, which are executed once - as long as the association lasts - but answered 65 the second time; after the association was lost and set up again a late duplicate deletes another session.)",
  "every state and history, every request, any events between the two arrivals","retransmission can hit any state and any later moment; tests send each request once", ["cmd/core/pfcp_handlers.go: Handle, HandlePfcpAssociationSetupRequest","cmd/core/pfcp_session_handlers.go: HandlePfcpSessionEstablishmentRequest, HandlePfcpSessionModificationRequest, HandlePfcpSessionDeletionRequest","cmd/core/node_association.go: NewLocalSEID"])
p("C104","Freed TEIDs and UE addresses are reused last",
  "A TEID (or UE address) that is in use, or was just given back, is not given to anyone before more TEIDs (addresses) have been asked for than are free now; so late packets of an ended session do not soon meet the rules of a new one.",
  "every history from every state, any sessions coming and going","it is about the order of all later grants, over histories of any length", ["cmd/core/service/resource_manager.go: AllocateTEID, AllocateIP, ReleaseTEID, ReleaseIP","cmd/core/pdr_creation_context.go: extractPDR, deletePDR","cmd/core/pfcp_connection.go: ReleaseResources"])
p("C105","The sessions of a restarted peer are removed",
  "When a peer restarts and sets up its association again, the sessions of the old association are removed and their resources given back. (False in every state: the association setup request and heartbeats change nothing of the sessions, tables and pools; a restarted peer may be refused its sessions for want of the slots its old ones hold.)",
  "every state, every sequence of association and heartbeat messages","any state the UPF can be in when the peer restarts", ["cmd/core/pfcp_handlers.go: HandlePfcpAssociationSetupRequest","cmd/core/pfcp_hearbeat.go: HandlePfcpHeartbeatRequest"])
p("C106","Packets that arrive during a request do not disturb it",
  "Requests change several tables one entry at a time while packets are processed. Packets at any moment, also between two table writes of one request, change neither what the request does to records, tables and pools, nor its answer (but for the volumes in usage reports): a history with packets at any moment ends as a history in which the same requests are processed as a whole. So every property proved of such histories holds with packets at any moment.",
  "every history, every request, every interleaving of packets with the table writes of the requests","interleavings of the kernel program with the handlers are not under the control of a test", ["cmd/core/pfcp_session_handlers.go: HandlePfcpSessionEstablishmentRequest, HandlePfcpSessionModificationRequest, HandlePfcpSessionDeletionRequest","cmd/core/pfcp_connection.go: DeleteSession, DeleteAssociation","cmd/ebpf/pdr.go","cmd/ebpf/xdp/n3n6_entrypoint.c"])
p("C107","A request disturbs no other session's packets while it is processed",
  "While a request is processed (its table writes happen one by one) packets of sessions it is not about are treated exactly as those sessions were last told: forwarded into the tunnel told, decapsulated, or dropped. This also holds for a packet whose look-ups of PDR, FAR and QER happen at different moments of the request.",
  "every history, every request, every moment of it, every packet","intermediate states of a request are not visible to tests", ["cmd/core/pfcp_session_handlers.go: HandlePfcpSessionEstablishmentRequest, HandlePfcpSessionModificationRequest, HandlePfcpSessionDeletionRequest","cmd/core/pfcp_connection.go: DeleteSession, DeleteAssociation","cmd/ebpf/pdr.go","cmd/ebpf/xdp/n3n6_entrypoint.c"])
p("C108","A packet is treated as its session was told, even if requests are processed while it is",
  "A packet looks up its PDR, its FAR and its QER one after the other; any number of requests about other sessions may be processed between two of these look-ups. Still it is treated exactly as its own session was told. (False if the packet's own session is deleted in between: the slot of its FAR may have been given to a new session, and the packet leaves in the tunnel of that one.)",
  "every history, every request being processed at each of the three look-ups, every moment of it, any further requests in between, every packet","the scheduling of the kernel program against user space is not under the control of a test", ["cmd/ebpf/xdp/n3n6_entrypoint.c","cmd/core/pfcp_session_handlers.go: HandlePfcpSessionEstablishmentRequest, HandlePfcpSessionModificationRequest, HandlePfcpSessionDeletionRequest","cmd/ebpf/objects.go: IdTracker","cmd/ebpf/pdr.go"])
p("C109","Requests take effect in an order that packets can rely on",
  "At every moment of an establishment or modification the PDRs are still those before it, or FARs and QERs are already those after it; at every moment of a deletion FARs and QERs are still those before it, or the PDRs are already those after it; so no packet meets a PDR whose rules are not there yet, or no longer. At every moment the tables are those that a shorter request would have left, a first part of the IEs. (The order is not enough to make modifications seamless: a PDR that is given another FAR while its old one is removed loses packets in between.)",
  "every state, every request, every moment of it","intermediate states of a request are not visible to tests", ["cmd/core/pfcp_session_handlers.go: HandlePfcpSessionEstablishmentRequest, HandlePfcpSessionModificationRequest, HandlePfcpSessionDeletionRequest"])
p("C110","Establishments and deletions take effect at once, as far as a packet can tell",
  "While a session is being established or deleted, table write by table write, every packet is treated as it is before the request, or as it is after it: same action, same bytes; never in a third way. (False of the loss of a peer: in the middle packets are dropped that are forwarded before and passed on to the host afterwards. And false of pings of the UPF itself, for which two PDRs are looked up.)",
  "every history of orderly requests, every further establishment or deletion, every moment of it, every packet","intermediate states of a request are not visible to tests", ["cmd/core/pfcp_session_handlers.go: HandlePfcpSessionEstablishmentRequest, HandlePfcpSessionDeletionRequest","cmd/core/pfcp_connection.go: DeleteSession","cmd/ebpf/xdp/n3n6_entrypoint.c"])
p("C111","In the middle of a request the UPF is as after an orderly shorter request",
  "At every moment of an orderly establishment, or of an orderly modification that removes no FAR, QER or PDR, the tables are those after another orderly request, which has a first part of the IEs of the one in progress; so everything that holds of the tables and of packets after orderly histories (C98 to C102) holds at that moment too, for the IEs done so far.",
  "every history of orderly requests, every further establishment or modification without removals, every moment of it","intermediate states of a request are not visible to tests", ["cmd/core/pfcp_session_handlers.go: HandlePfcpSessionEstablishmentRequest, HandlePfcpSessionModificationRequest"])
p("C112","A modification that changes one thing about a packet takes effect at once for it",
  "While a session is being modified, table write by table write, every packet is treated as it is before the modification or as it is after it, if the modification changes at most one of the PDR, the FAR and the QER that are for the packet, updates no rule twice and removes none; in particular if all its Update IEs are for FARs, all for QERs, or all for PDRs (and it may create anything). (False if it changes two of them: a FAR that starts to forward and a gate that is closed in the same request let packets through in between that are dropped before and afterwards.)",
  "every history of orderly requests, every further such modification, every moment of it, every packet","intermediate states of a request are not visible to tests", ["cmd/core/pfcp_session_handlers.go: HandlePfcpSessionModificationRequest","cmd/ebpf/xdp/n3n6_entrypoint.c"])
p("C113","A modification is accepted if there is room for it",
  "A modification of a live session, all parts of which can be used, is accepted if there are free slots for the FARs, QERs and URRs it creates, free TEIDs and addresses for the PDRs that ask for them, and places in the PDR tables; a modification that only updates FARs, QERs and URRs, or only removes things, is accepted however full the UPF is. An accepted modification had all of it. (What the request itself removes does not count: a request that would fit after its removals is rejected, and then its removals may have been done or not.)",
  "every history, every modification, every state of pools and tables","capacity depends on everything that happened before", ["cmd/core/pfcp_session_handlers.go: HandlePfcpSessionModificationRequest, composeFarInfo, updateQer","cmd/core/pdr_creation_context.go: extractPDR, deletePDR","cmd/ebpf/pdr.go: NewFar, NewQer, NewUrr"])
p("C114","A packet that overlaps with a request sees the old or the new rules",
  "A packet looks up its PDR, then the FAR, then the QER, and a request can be processed meanwhile: the three look-ups then happen at three successive moments of the request. During an establishment the packet still meets the fate it meets before the request or the one it meets after it, and so it does during a modification that removes nothing, updates nothing twice and changes only one of the PDR, FAR and QER that apply to the packet. During a deletion it meets the fate before or after, or it is dropped, or it meets the fate it would meet with empty QERs (open gates, no limits, QFI 0): the code deletes PDRs, then FARs, then QERs, so a packet can be dropped because its FAR is gone, or pass a closed gate.",
  "every history whose requests are clean, every request, every packet, every three successive moments","a race between a packet and a request: three look-ups at arbitrary points of the request", ["cmd/core/pfcp_session_handlers.go: HandlePfcpSessionEstablishmentRequest, HandlePfcpSessionModificationRequest, HandlePfcpSessionDeletionRequest","cmd/ebpf/xdp/n3n6_entrypoint.c: handle_n6_packet_ipv4, handle_n6_packet_ipv6, handle_gtp_packet"])
p("C115","What happens to a packet depends on what was told, and on nothing else",
  "Two UPFs that were told the same rules (the same match keys, filters, outer header removals, and FARs and QERs with the same parameters) treat every packet alike: it gets the same action and leaves with the same contents. It makes no difference in which order and in how many requests the rules were told, by which peers, for which sessions and under which ids, what was told and taken back in between, how large the tables are, which slots the rules got, what was counted, and in which order Go went through its maps. Rules with a rate limit make a difference only through the state of the limiters.",
  "every pair of histories whose requests are clean, every packet and sequence of packets, every configuration and table size","a property of pairs of histories: a test compares two of them", ["cmd/core/pfcp_session_handlers.go: HandlePfcpSessionEstablishmentRequest, HandlePfcpSessionModificationRequest, HandlePfcpSessionDeletionRequest","cmd/ebpf/objects.go: IdTracker","cmd/ebpf/xdp/n3n6_entrypoint.c: upf_ip_entrypoint_func"])
p("C116","A session keeps to its bit rate across requests",
  "Packets and requests come in any order. As long as a session has a QER with a certain MBR, the traffic of the PDRs that name it that is sent on in any time takes, at this rate, no longer than this time plus 5 ms (or one frame): requests about other sessions, lost peers, and modifications of the session that do not name the QER do not let more through, for they leave the state of its limiter exactly as it is. Every request that creates, updates or removes this very QER may let another 5 ms (or one frame) through, even if it repeats the same MBR: the code then sets the limiter back.",
  "every history of clean requests, every interleaving of packets and requests after it, every QER, rate and time window, both directions","a bound on every schedule of packets and requests", ["cmd/core/pfcp_session_handlers.go: updateQer, HandlePfcpSessionModificationRequest","cmd/ebpf/xdp/qer.h: limit_rate_sliding_window","cmd/ebpf/pdr.go: NewQer, UpdateQer, DeleteQer"])
p("C117","What usage reports say, across requests and packets",
  "A usage report says how many octets the PDRs that name the URR have passed since it was created, uplink and downlink, and nothing of any other traffic. (The code does something else. The ids of URRs never reach the packet path, so one URR of all sessions of all peers, the one that happens to have slot 0, is charged for every octet of every session, twice, and every other URR for nothing: of the URRs that exist at a time one at most has counted anything, of the usage reports in one response one at most says anything, and a URR that no request touches counts either nothing at all or everything the UPF sends on; and if that one URR's peer is lost, no report says anything ever again.)",
  "every history, every interleaving of packets and requests, every session and URR","a property of every schedule of packets and requests of all peers: what one URR counts depends on all the others that were ever created", ["cmd/ebpf/pdr.go: NewUrr, UpdateUrr, DeleteUrr, ToIpEntrypointPdrInfo","cmd/core/pfcp_session_handlers.go: HandlePfcpSessionDeletionRequest, HandlePfcpSessionModificationRequest, updateUrr","cmd/ebpf/xdp/urr.h: update_urr","cmd/ebpf/xdp/n3n6_entrypoint.c: handle_gtp_packet, handle_n6_packet_ipv4, handle_n6_packet_ipv6"])
p("C118","Packets on a circular route die",
  "Whatever the UPF routes - into the data network, into a tunnel to the access network, or from tunnel to tunnel - leaves with a Time To Live (IPv6: Hop Limit) one lower than it came with, and a packet with nothing left is not sent on: a packet whose route leads round does not go round for ever. (False of the code: no path touches the field, nor looks at it. A packet with Time To Live 0 is sent on in both directions; UPFs whose FARs lead round pass every packet round for ever, one UPF with itself included.)",
  "every frame, every content of the tables, every ring of UPFs, every number of rounds","rounds are unbounded: the claim is about infinite sequences of forwarding steps, and the outer header, the inner header and all three paths have to be considered", ["cmd/ebpf/xdp/utils/routing.h: do_route_ipv4, route_ipv4, route_ipv6","cmd/ebpf/xdp/n3n6_entrypoint.c: handle_gtp_packet, handle_n6_packet_ipv4, handle_n6_packet_ipv6","cmd/ebpf/xdp/utils/gtp_utils.h: fill_ip_header, update_gtp_tunnel"])
p("C119","Fragments",
  "The pieces of a fragmented datagram are treated alike: they get the same rule and, downlink, the same tunnel. Only a piece that holds a UDP header is taken for a tunnel packet, so that nothing a UE writes into its packets is ever taken for a tunnel header; and no user packet leaves a tunnel in part. (True for PDRs whose filter does not look at ports. Else false of the code, which does not look at fragmentation at all: with a port filter the first piece is carried and the others are not, and when a G-PDU is cut on its way to the UPF, its first piece is sent on as if it were the whole user packet, and a later piece, all of it octets that the UE wrote, is accepted as a G-PDU of another session.)",
  "every frame, every way to cut it, every content of the tables","cuts and contents are arbitrary; the claim relates different packets with each other and with what was written into the middle of another one", ["cmd/ebpf/xdp/utils/parsers.h: parse_ip4, parse_udp, parse_gtp","cmd/ebpf/xdp/n3n6_entrypoint.c: handle_ip4, handle_gtp_packet, handle_n6_packet_ipv4","cmd/ebpf/xdp/sdf_filter.h: match_sdf_filter_ipv4"])
p("C120","The datapath works on across a restart",
  "While the UPF is restarted the datapath goes on serving the sessions there are (as README.md says: the eBPF resources persist across restarts so that the datapath can continue to operate while the eUPF is restarted or upgraded). At the least, packets of a session from before the restart are never treated by another session's rules. (False of the code: every start makes new, empty tables, so that until the first session request nothing is carried, and afterwards nothing for TEIDs that are not named again. And the TEIDs of the pool are handed out anew: the packets that an access network still sends with the TEID of a session from before the restart leave in the tunnel of another session.)",
  "every number of restarts, every point at which the process stops, every history of messages and packets, every frame","restarts and histories are unbounded, and a process under test is not stopped at every point", ["cmd/ebpf/objects.go: Load","cmd/main.go: main","cmd/core/service/resource_manager.go: NewResourceManager, AllocateTEID","README.md: Notes"])
p("C121","Idle UEs are paged",
  "While the FAR of a session says BUFF and NOCP (the UE is idle), the first packet for the UE makes the UPF tell its peer (Session Report Request, Downlink Data Report), and the packets are kept and sent once the FAR forwards again; in general the UPF reports what the control plane cannot know: downlink data, usage thresholds, error indications. (False of the code: such packets are dropped and leave no trace, and no packet ever makes the UPF send a message. What it sends is determined by the messages it receives and its timers: responses, heartbeats, Association Setup Requests, nothing else.)",
  "every execution of the endpoint with packets at any points, every clean history, every stream of packets","that something is never sent, whatever happens, is not testable; packets come at any point of any history", ["cmd/core/pfcp_connection.go: Run, SendMessage","cmd/core/pfcp_handlers.go: Handle","cmd/ebpf/xdp/n3n6_entrypoint.c: handle_n6_packet_ipv4, handle_n6_packet_ipv6, handle_gtp_packet"])
p("C122","GTP-U messages between tunnel ends",
  "Besides G-PDUs and Echo Requests (C32) the UPF takes part in GTP-U as TS 29.281 asks: End Markers received in a session's tunnel go on in the session's next tunnel, a G-PDU with an unknown TEID is answered with an Error Indication, and Error Indications from the other end are taken notice of. (False of the code: every GTP-U message that is neither a G-PDU nor an Echo Request is left to the kernel as it came, whatever rules there are for its TEID, and so is every G-PDU with unknown TEID. All that the UPF answers are Echo Requests.)",
  "every frame, every content of the tables, every clean history","frames and tables are arbitrary", ["cmd/ebpf/xdp/n3n6_entrypoint.c: handle_gtpu, handle_gtp_packet","cmd/ebpf/xdp/utils/gtp_utils.h: handle_echo_request"])
p("C123","Address pools of either IP version",
  "Whatever prefix the UPF is started with as its UE address pool (the option accepts IPv4 and IPv6), a rule that asks the UPF to choose the UE's address is installed under a free address of that prefix while there is one, and a refused request does not use up an address. (False: with an IPv6 prefix every such rule is refused and takes one address out of the pool for good; choosing an IPv6 address, flag CHV6, is refused with every pool.)",
  "every prefix of either version, every sequence of allocations and releases, every rule, every content of the tables","prefixes, sequences and rules are arbitrary, and the tests use IPv4 pools", ["cmd/core/service/resource_manager.go: NewResourceManager, AllocateIP, ReleaseIP","cmd/core/pdr_creation_context.go: extractPDR, getIP","cmd/core/pdr.go: applyPDR","cmd/ebpf/pdr.go: PutPdrDownlink","cmd/config/config.go: UEIPPool"])
p("C124","What the UPF chooses it tells",
  "Whenever an accepted request makes the UPF choose a TEID or a UE address for a rule, the response tells the peer which one. (True for Create PDR, C17; false for Update PDR: the choice is made, taken from the pool and installed, and no response ever mentions it; repeated, it empties the pool though the peer holds one rule.)",
  "every state of the node, every modification, every number of repetitions","states, requests and their number are arbitrary", ["cmd/core/pfcp_session_handlers.go: HandlePfcpSessionModificationRequest","cmd/core/pdr_creation_context.go: extractPDR","cmd/core/pdr.go: processCreatedPDRs"])
