how.update(
C64="guard invariant on the handler bodies (`KeyGuard`), induction over histories, with C09 for the slots",
C65="composition of C18, C36, C37 (request to tables), C64 (tables stay) and C27 (tables to octets)",
C66="same with C28",
C67="endpoint model with counters (`Wire`), induction over turns, against counts taken from the observed turns (`Spec/Wire`)",
C68="induction over turns against `associated`, computed from the messages alone",
C69="model of Go's SplitHostPort; consequence in the goroutine model through C43",
C70="case analysis of every handler, induction over histories for the constant configuration; pool invariant for the refusal",
C72="case analysis of the packet result relation of C25 on, with the lookup answer as part of the environment",
C73="same, and induction over sequences of frames",
C74="interleaving model of one timer (`Xdp/Smp`); account invariant of C34 under exclusion; induction over rounds for the multiple",
C75="interleaving model of one volume; conservation invariant under exclusion, upper bound without",
C76="the reads of one packet at different times against a record that changes",
C71="invariant of the goroutine model: a pausing scheduler got exactly its last number back",
)
more="| PFCP datagrams, counters, periodic setup | metrics.go, pfcp_handlers.go 17-46, pfcp_connection.go 113-269 | Wire, Spec/Wire, Props/{Wire, Refresh, Features, HeartbeatWire} |\n"
more+="| several CPUs | qer.h 67-90, urr.h 41-49, pdr.go 244-255, n3n6_entrypoint.c 91-128 | Xdp/Smp, Props/Smp |\n"
how.update(
C77="grouped IEs as lists of children (`Ies`); congruence of the handlers for the negation, C64/C36/C26 for the first QER",
C78="same; C65 for the marking beside the Forwarding Parameters",
C79="same; C65 for the first filter",
C80="same: requests without Precedence IEs are read the same",
C81="same, and the extraction of a PDR with F-TEID does not read the UE IP address",
C82="same",
C83="case analysis of the modification's phases",
C84="the phases before the URR and PDR part are common to the request and its truncation; the later phases keep FAR and QER records",
)
more+="| child IEs of grouped IEs | pdr_creation_context.go 29-93, pfcp_session_handlers.go 516-521, 568-604, 632-639 | Ies, Props/{Grouped, Modification} |\n"
how.update(
C85="the program with the cache, function by function, over a state that includes the cache; simulation: one packet behaves as in the program without the cache under a kernel that answers from the cache; induction over the frames",
)
more+="| route cache (ENABLE_ROUTE_CACHE) | routing.h 49-154, n3n6_entrypoint.c | Xdp/RouteCache, Props/RouteCache |\n"
how.update(
C86="the accesses to Go maps and mutexes of every handler, as a list computed from the state; a machine that interleaves such lists and ends at a conflicting access; lock discipline invariant; exact characterisation of the fatal interleavings",
)
more+="| concurrent accesses to maps and mutexes | pfcp_connection.go, pfcp_session_handlers.go, pfcp_handlers.go, session.go, resource_manager.go, node_association.go, metrics.go, api/rest | Races, RaceLemmas, RaceCover, Props/Races |\n"
how.update(
C87="invariant of histories of careful requests: the pool is the disjoint union of the free TEIDs and those on loan to PDRs of live sessions; for other peers the negation, for every state; addresses: the free list is always a suffix of the configured list",
)
how.update(
C88="transition system of starts: a start may follow every state and makes a fresh endpoint; the turns since the last start are an execution of the endpoint (so C01, C02, C52, C68 apply to them); stamps by induction over executions",
)
more+="| starts of the process, Recovery Time Stamps | pfcp_connection.go 101, 251, pfcp_hearbeat.go 21, 43, pfcp_handlers.go 126, objects.go 71-150 | Restart, Spec/Restart, Props/Restart |\n"
how.update(
C89="encoding/json as a partial function on a universe of Go values (a channel has no encoding); the records as such values; a separate specification by field access says what a document shows; maps by induction over their entries",
)
more+="| JSON bodies of the REST answers | api/rest/pfcp_sessions.go, pfcp_associations.go, session.go 9-54, pdr.go 17-43, 153-172 | Json, Spec/Json, Props/Json |\n"
how.update(
C90="the record made for the PDR has the reported TEID (the created PDRs are matched with the askers), later Create PDRs of the request get other TEIDs; a free TEID nobody gave is unused (invariant: uplink records with it are chosen; C14's invariant: chosen TEIDs are not free); while the session lives its TEID is not free, so C64 applies to every later event; addresses: the free list only shrinks",
)
more+="| chosen TEIDs and addresses end to end | pdr_creation_context.go, resource_manager.go, n3n6_entrypoint.c | Props/ChosenService, Props/ChosenAddress |\n"
how.update(
C91="the key was never given (invariant over histories), so there is no entry before; the Create PDRs of the request are run one after the other and the entry is computed from one or two of them; C21/C23 give the meaning of the text, C64 keeps the entry, C25-C28 say what the packet program does",
)
more+="| filter texts end to end | pdr_creation_context.go 66-163, pdr.go 279-307, sdf_filter.h, n3n6_entrypoint.c | Spec/FilterText, Props/FilterText |\n"
how.update(
C92="as C65, with the IPv6 table; a key never given without an IPv4 address has no entry (invariant over histories), so its packets go to the host",
)
more+="| IPv6 UEs end to end | pdr_creation_context.go 136-158, pdr.go 13-31, n3n6_entrypoint.c | Props/Ipv6Service |\n"
how.update(
C93="an invariant over histories: the session's record of the FAR (QER) is the merge, field by field, of everything said so far, the PDR's record and table entry are unchanged (C64's guard, extended to modifications of the session that do not name the PDR), and the slots are in the tables (C08); then C26-C28 say what the packet program does",
)
more+="| the course of a session | pfcp_session_handlers.go 219-484, 568-630, n3n6_entrypoint.c | Spec/Service, Props/Service, Props/ServiceCases |\n"
how.update(
C94="an invariant over histories: every slot that is not free is the slot of a rule of a live session; with C08 (exclusive slots) this gives the exact count; the leaks are computed from every state and iterated",
)
more+="| table slots over histories | objects.go 268-336, pdr.go 174-255, pfcp_session_handlers.go, pfcp_connection.go 181-204 | Spec/Capacity, CapacityLemmas, CapacityNode, Props/Capacity |\n"
how.update(
C95="each step of the establishment succeeds iff its rule is usable and a slot is free (C21 gives the language of flow descriptions), and takes one; induction over the rules of the request; the sizes of the tables are an invariant over histories; C94 turns free slots into rules of live sessions",
C96="an invariant over histories; for new TEIDs also: creations never remove keys, so afterwards all old and new keys are there",
)
more+="| when establishments are accepted | pfcp_session_handlers.go 20-146, 498-514, 568-604, pdr_creation_context.go 66-163, pdr.go | Spec/Acceptance, SizeLemmas, AcceptLemmas, Props/Acceptance |\n"
how.update(
C97="the exact deletion theorem (C10) or the trace of a removal gives that the entry is gone; a key without entry and without user stays so along every history that cannot give it away (guard_step'); C25 for the packets; for the negation the cache of CHOOSE IDs is shown to suppress the removal in every state",
)
more+="| traffic of removed PDRs | pdr_creation_context.go 165-211, pfcp_session_handlers.go 148-217, 447-458, pfcp_connection.go 181-204 | Spec/Gone, Props/Gone, Props/GoneCases |\n"
how.update(
C98="a strengthened invariant (the entry of each live PDR is literally its installed form, and other keys have none) is preserved by every event of orderly histories; the modification is split into its twelve phases; C25/C26 carry it to packets",
)
more+="| tables and sessions agree | all of cmd/core's session handlers, ebpf/pdr.go | Spec/Exact, ExactLemmas, Props/Exact, Props/ExactPackets, Props/ExactCases |\n"
how.update(
C99="an invariant over clean histories (every PDR of a live session points to slots of its own session), the modification split into its phases; C08 gives exclusiveness, C09 the contents, C98 the packets; the negations are evaluated histories and packets",
)
more+="| PDRs and their own rules | pfcp_session_handlers.go 219-484, pdr_creation_context.go 66-163, session.go | Spec/OwnRules, OwnLemmas, Props/OwnRules, Props/OwnRulesCases |\n"
how.update(
C100="an abstract UPF (Spec/AbstractUpf.lean: what was said about each session, folded over the history) and a simulation: every clean step keeps the records of all sessions related to it; C98 and C09 carry the records to the tables, C25-C31 the tables to packets",
)
more+="| abstract UPF, refinement | all of cmd/core's session handlers, ebpf/pdr.go, n3n6_entrypoint.c | Spec/AbstractUpf, AbstractLemmas, Props/Abstract, Props/AbstractPackets, Props/AbstractCases |\n"
how.update(
C101="an invariant over runs of packets: the timer of the slot owes at most the last of the offered frames; the limiter's 64-bit arithmetic is related to natural numbers under bounds on uptime and frame size; the negation holds in every state",
)
more+="| conforming traffic | xdp/qer.h 67-90, n3n6_entrypoint.c | Props/Conforming |\n"
how.update(
C102="the refinement of C100 identifies the traffic of a QER slot with the traffic of the PDRs that were told to use the QER (exclusive slots, C08; exact tables, C98); then C34 from above and C101 from below",
)
more+="| told bit rates | as C100, and xdp/qer.h 67-90 | Props/ToldRate |\n"
how.update(
C103="the request is the same event twice; establishments by the ledger of SEIDs handed out (C04), deletions by an invariant over the exchanges in between, updates by idempotence of the merges and of sequences of slot writes",
C104="the pools are queues: since any moment, what was taken is a prefix of what was free then, followed by what came back; counted against the requests' CHOOSE flags over any history",
C105="node messages leave sessions, tables and pools alone (C05), by induction over the messages; a concrete full node for the consequence",
)
more+="| retransmissions, restarted peers | pfcp_handlers.go 17-46, 54-133, pfcp_session_handlers.go | Spec/Retransmit, Props/Retransmit, Props/RetransmitCases, Props/PeerRestart |\n"
more+="| reuse order of the pools | service/resource_manager.go 73-126, pdr_creation_context.go 103-158 | Spec/Fifo, Props/Fifo |\n"
how.update(
C106="requests are cut into pieces with one table write each (Moments.lean), whose sequence is proved to be the handler; every piece is blind to what packets change, so packets commute with pieces; induction over the interleaving and the history",
)
more+="| requests piece by piece, with packets in between | pfcp_session_handlers.go 20-484, pfcp_connection.go 181-204, ebpf/pdr.go 45-256 | Moments, Spec/Moments, MomentLemmas, CutLemmas, Props/Moments, Props/MomentCases |\n"
how.update(
C107="the pieces done so far are themselves a request (CutLemmas), so the invariants of slots (C08) and of untouched keys (C64) hold at the cut; what the session was told is in the tables then (C100)",
)
more+="| other sessions' packets during a request | as above | MomentSlots, MomentKeys, Props/MomentIsolation |\n"
how.update(
C108="the slots of the packet's PDR stay with its session over every event about other sessions (induction over the events in between), so at each look-up the entry is the one that was told (C107)",
C109="pieces are sorted: first those that write no PDR table, then those that write no FAR or QER table (deletion: the other way round); a cut of the list lies in the first part or in the second; and a cut of the pieces is the list of pieces of a shorter request",
)
more+="| packets overlapping with several requests; the order of writes | as above, n3n6_entrypoint.c look-ups | Spec/Cut, Props/Overlap, Props/OverlapCases, Props/WriteOrder, Props/WriteOrderCases |\n"
how.update(
C110="the fate of a frame is a function of the entry of its match key and of the FAR and QER that the entry refers to (Xdp/Fate.lean); at every cut of the pieces each entry is that before or that after (Own, C98), and the rules it refers to are there (C109) and belong to the same session (C99)",
)
more+="| packets in the middle of establishments and deletions | as above | Spec/Atomic, Xdp/Fate, Props/Atomic, Props/AtomicCases |\n"
how.update(
C111="the pieces done so far are those of a shorter request (C109); its PDRs are among those of the whole one, with the same keys (induction over the lists), so keys stay apart, and it refers to no rule that the cut has left out, as PDRs come last",
C112="by C111 the tables at the moment belong to a node with a clean history; each FAR, QER and PDR record of its session is the one before or the one after (a rule is updated once), and the fate of a frame depends on one PDR, its FAR and its QER (Xdp/Fate.lean)",
)
more+="| packets in the middle of modifications | as above | Spec/Atomic, Props/CleanCuts, Props/AtomicModify, Props/AtomicModifyCases |\n"
how.update(
C113="each of the fifteen loops of the modification is shown to succeed exactly if its IEs are usable and the counters suffice, and to leave the other counters alone; the conditions are chained through the loops (modBody_iff); PDR creation and update by induction over the lists with the pools and table places as measure",
)
more+="| which modifications are accepted | pfcp_session_handlers.go 219-484, pdr_creation_context.go | Spec/ModAcceptance, ModAcceptLemmas, Props/ModAcceptance |\n"
how.update(
C114="the look-ups are a dataplane composed of three moments (Spec/Moments: lookups); requests write rules before PDRs, so once the PDR found is not the old one all rules are the final ones and C110/C112 apply; before that each rule is the old or the new one, and for a deletion the old one or empty",
)
more+="| packets that overlap with requests | n3n6_entrypoint.c, pfcp_session_handlers.go | Spec/Overlap, Props/AtomicOverlap, Props/AtomicOverlapCases |\n"
more+="| rate-limited traffic during requests | qer.h 67-90, n3n6_entrypoint.c | Props/Limited, Props/LimitedCases |\n"
how.update(
C115="by C100 the tables hold, for every key, what was told, or nothing; the fate of a frame is a function of the rule's outer header removal and the values of its FAR and QER, not of the slots (Xdp/Twins.lean); the values are determined by what was told up to the limiters' state",
)
more+="| two UPFs told the same | all of the above | Spec/Twins, Xdp/Twins, Props/Twins, Props/TwinsCases |\n"
how.update(
C116="a timeline interleaves runPacket and Node.step; the table entry of a QER of a session is unchanged by requests that do not name it (the slot lemmas of C08 with exact comparison for one owner); between restarts the account of C34 holds, and at a restart a new account begins at the time of the last packet; the accounts add up",
)
more+="| bit rates across requests | qer.h 67-90, pfcp_session_handlers.go 606-630, pdr.go 204-222 | Spec/Timers, TimerLemmas, Props/Timers, Props/TimersCases |\n"
how.update(
C117="an invariant of timelines: the tables hold no URR ids (C38), so a packet charges slot 0 twice and no other slot; bodies write zeros, so slots other than 0 are zero; slots are exclusive (C08), so one live URR at most has slot 0; with the slot lemmas a URR that no request touches keeps its slot and its counter; a lost peer's URRs keep their slots: the slot invariant with one additional session that no request is about",
)
more+="| usage reports across requests | urr.h, pdr.go 225-255, pfcp_session_handlers.go 186-200, 351-404 | Spec/Billing, BillingLemmas, BillingLost, Props/Billing, Props/BillingCases |\n"
how.update(
C118="from C27, C28 and C31: what leaves is, behind the new headers, what came; C31 keeps the outer header's octet 22; rounds by induction: a re-tunnelled frame is again a G-PDU for the next UPF with the next TEID, and charging a packet leaves the rules as they are",
)
more+="| circular routes | routing.h 90-204, n3n6_entrypoint.c 336-343, gtp_utils.h | Spec/Loops, Props/Loops |\n"
how.update(
C119="the rule depends on the flow, the flow of a piece differs from that of another in the ports only; two frames that differ in identification, flags and offset have the same fate (upFateP of Xdp/Twins.lean), octet by octet; incomplete packets: C28",
)
more+="| fragments | parsers.h 45-60, n3n6_entrypoint.c | Spec/Fragments, Props/Fragments |\n"
how.update(C120="composition of the executions over restarts (C88) with the packet theorems: empty tables after a start by induction over the turns since (C88_forwards_nothing), TEIDs not named since by C60; concrete executions with two starts for the negations. The time between the end of one process and the start of the next is not modelled (no program is attached then)",)
more+="| across restarts | cmd/ebpf/objects.go 71-150, cmd/main.go | Props/RestartGap |\n"
how.update(C121="the messages sent are a function of the turns of the endpoint (induction over executions in which packets are processed at arbitrary points); packets by C100 and induction over streams; the wake-up is a concrete run",C122="case analysis of the packet program's outcomes (packet_outcome), unknown TEIDs by C100",)
more+="| idle UEs, GTP-U messages | cmd/core/pfcp_connection.go, cmd/ebpf/xdp/n3n6_entrypoint.c | Spec/Idle, Props/Idle |\n"
how.update(C123="a model of the pool with addresses as octet slices of either length (the node model has IPv4 pools only); simulation of the node model's Create PDR for IPv4 pools; for IPv6 pools an invariant (all addresses have 16 octets) over all allocations and releases, and induction over the requests",)
more+="| address pools of both IP versions | resource_manager.go 28-85, 107-114, pdr_creation_context.go 137-158, pdr.go 13-31 | AddressPool, Props/AddressPool |\n"
how.update(C124="phases of an accepted modification (C36) and the exact effect of extractPDR on the pools; the response's Created PDRs all come from Create PDRs (C17); induction over the requests for the drain",)
more+="| choices for Update PDR | pfcp_session_handlers.go 429-445, 460-470, pdr_creation_context.go 103-158 | Props/Untold |\n"
more+="| filters and IPv6 packets | sdf_filter.h 54-72, 113-150, pdr.go 279-307 | Props/SdfMatch6, Props/FilterText6 |\n"
more+="| table sizes of a start | cmd/ebpf/objects.go 71-150, cmd/main.go | Props/RestartRoom |\n"
