# Formal model of eUPF in Lean 4: design

## Trusted base
* Lean's kernel (4.33.0). Every property theorem depends on no axioms other than `propext`, `Classical.choice` and
  `Quot.sound` (many on fewer). There is no axiom of our own, no unfinished proof, no `native_decide`, no `bv_decide`. Concrete witnesses are
  evaluated by `decide +kernel`, i.e. by the kernel.
* The reading of the source that the model makes: each definition cites the file and lines it models, and says where it simplifies.
* The semantics given to what lies outside the repository, listed under "Not modelled / trusted" below.
* The statements: `Verif/Props/*.lean` (theorems `Cnn_*`), with the independent specifications in `Verif/Spec/*.lean`.

## What is modelled
| area | source | Lean modules |
|---|---|---|
| Go maps, iteration order, error/panic monad | Go language semantics | `Base`, `ResourceManager` (`Shuffle`) |
| slot allocator | cmd/ebpf/objects.go 303-336 | `IdTracker` |
| TEID / UE IP pools | cmd/core/service/resource_manager.go | `ResourceManager` |
| tables as seen from user space, PDR records | cmd/ebpf/pdr.go, objects.go 43-153 | `Bpf` |
| sessions, PFCP session handlers, PDR extraction | cmd/core/session.go, pfcp_session_handlers.go, pdr_creation_context.go, pdr.go | `Session`, `Handlers` |
| associations, message dispatch, responses, loss of a peer | pfcp_handlers.go, pfcp_hearbeat.go, pfcp_connection.go, node_association.go | `Node` |
| heartbeat schedulers and main loop, interleaved | node_association.go 50-82, pfcp_connection.go 113-139 | `Heartbeat` |
| SDF filter text parser, character by character | cmd/core/sdf_filter_parser.go (with net.ParseIP, CIDRMask, ParseUint) | `SdfParser` |
| XDP program, octet by octet | cmd/ebpf/xdp/** | `Xdp/Mem`, `Xdp/Parse`, `Xdp/Match`, `Xdp/Gtp`, `Xdp/Csum`, `Xdp/RateLimit`, `Xdp/Pipeline` |
| statistics and metrics | cmd/ebpf/stats.go, cmd/core/metrics.go, rest/stats.go | `Stats` |
| record layouts in memory | cmd/ebpf/pdr.go, xdp/pdr.h, qer.h, urr.h, rest/uplink_pdr.go | `Layout` |
| REST session queries, FAR/QER access | cmd/api/rest/pfcp_sessions.go, far_map.go, qer_map.go | `Rest` |
| configuration: validation, start, run-time change | cmd/config/config.go, rest/config.go, core/config_edit.go, logger.go | `Config`, `Node` (`setConfig`) |
| GTP path manager | cmd/core/gtp_path_manager.go | `GtpPath` |
| PFCP datagrams, counters, periodic setup | metrics.go, pfcp_handlers.go 17-46, pfcp_connection.go 113-269 | Wire, Spec/Wire, Props/{Wire, Refresh, Features, HeartbeatWire} |
| several CPUs | qer.h 67-90, urr.h 41-49, pdr.go 244-255, n3n6_entrypoint.c 91-128 | Xdp/Smp, Props/Smp |
| child IEs of grouped IEs | pdr_creation_context.go 29-93, pfcp_session_handlers.go 516-521, 568-604, 632-639 | Ies, Props/{Grouped, Modification} |
| route cache (ENABLE_ROUTE_CACHE) | routing.h 49-154, n3n6_entrypoint.c | Xdp/RouteCache, Props/RouteCache |
| concurrent accesses to maps and mutexes | pfcp_connection.go, pfcp_session_handlers.go, pfcp_handlers.go, session.go, resource_manager.go, node_association.go, metrics.go, api/rest | Races, RaceLemmas, RaceCover, Props/Races |
| starts of the process, Recovery Time Stamps | pfcp_connection.go 101, 251, pfcp_hearbeat.go 21, 43, pfcp_handlers.go 126, objects.go 71-150 | Restart, Spec/Restart, Props/Restart |
| JSON bodies of the REST answers | api/rest/pfcp_sessions.go, pfcp_associations.go, session.go 9-54, pdr.go 17-43, 153-172 | Json, Spec/Json, Props/Json |
| chosen TEIDs and addresses end to end | pdr_creation_context.go, resource_manager.go, n3n6_entrypoint.c | Props/ChosenService, Props/ChosenAddress |
| filter texts end to end | pdr_creation_context.go 66-163, pdr.go 279-307, sdf_filter.h, n3n6_entrypoint.c | Spec/FilterText, Props/FilterText |
| IPv6 UEs end to end | pdr_creation_context.go 136-158, pdr.go 13-31, n3n6_entrypoint.c | Props/Ipv6Service |
| the course of a session | pfcp_session_handlers.go 219-484, 568-630, n3n6_entrypoint.c | Spec/Service, Props/Service, Props/ServiceCases |
| table slots over histories | objects.go 268-336, pdr.go 174-255, pfcp_session_handlers.go, pfcp_connection.go 181-204 | Spec/Capacity, CapacityLemmas, CapacityNode, Props/Capacity |
| when establishments are accepted | pfcp_session_handlers.go 20-146, 498-514, 568-604, pdr_creation_context.go 66-163, pdr.go | Spec/Acceptance, SizeLemmas, AcceptLemmas, Props/Acceptance |
| traffic of removed PDRs | pdr_creation_context.go 165-211, pfcp_session_handlers.go 148-217, 447-458, pfcp_connection.go 181-204 | Spec/Gone, Props/Gone, Props/GoneCases |
| tables and sessions agree | all of cmd/core's session handlers, ebpf/pdr.go | Spec/Exact, ExactLemmas, Props/Exact, Props/ExactPackets, Props/ExactCases |
| PDRs and their own rules | pfcp_session_handlers.go 219-484, pdr_creation_context.go 66-163, session.go | Spec/OwnRules, OwnLemmas, Props/OwnRules, Props/OwnRulesCases |
| abstract UPF, refinement | all of cmd/core's session handlers, ebpf/pdr.go, n3n6_entrypoint.c | Spec/AbstractUpf, AbstractLemmas, Props/Abstract, Props/AbstractPackets, Props/AbstractCases |
| conforming traffic | xdp/qer.h 67-90, n3n6_entrypoint.c | Props/Conforming |
| told bit rates | as C100, and xdp/qer.h 67-90 | Props/ToldRate |
| retransmissions, restarted peers | pfcp_handlers.go 17-46, 54-133, pfcp_session_handlers.go | Spec/Retransmit, Props/Retransmit, Props/RetransmitCases, Props/PeerRestart |
| reuse order of the pools | service/resource_manager.go 73-126, pdr_creation_context.go 103-158 | Spec/Fifo, Props/Fifo |
| requests piece by piece, with packets in between | pfcp_session_handlers.go 20-484, pfcp_connection.go 181-204, ebpf/pdr.go 45-256 | Moments, Spec/Moments, MomentLemmas, CutLemmas, Props/Moments, Props/MomentCases |
| other sessions' packets during a request | as above | MomentSlots, MomentKeys, Props/MomentIsolation |
| packets overlapping with several requests; the order of writes | as above, n3n6_entrypoint.c look-ups | Spec/Cut, Props/Overlap, Props/OverlapCases, Props/WriteOrder, Props/WriteOrderCases |
| packets in the middle of establishments and deletions | as above | Spec/Atomic, Xdp/Fate, Props/Atomic, Props/AtomicCases |
| packets in the middle of modifications | as above | Spec/Atomic, Props/CleanCuts, Props/AtomicModify, Props/AtomicModifyCases |
| which modifications are accepted | pfcp_session_handlers.go 219-484, pdr_creation_context.go | Spec/ModAcceptance, ModAcceptLemmas, Props/ModAcceptance |
| packets that overlap with requests | n3n6_entrypoint.c, pfcp_session_handlers.go | Spec/Overlap, Props/AtomicOverlap, Props/AtomicOverlapCases |
| rate-limited traffic during requests | qer.h 67-90, n3n6_entrypoint.c | Props/Limited, Props/LimitedCases |
| two UPFs told the same | all of the above | Spec/Twins, Xdp/Twins, Props/Twins, Props/TwinsCases |
| bit rates across requests | qer.h 67-90, pfcp_session_handlers.go 606-630, pdr.go 204-222 | Spec/Timers, TimerLemmas, Props/Timers, Props/TimersCases |
| usage reports across requests | urr.h, pdr.go 225-255, pfcp_session_handlers.go 186-200, 351-404 | Spec/Billing, BillingLemmas, BillingLost, Props/Billing, Props/BillingCases |
| circular routes | routing.h 90-204, n3n6_entrypoint.c 336-343, gtp_utils.h | Spec/Loops, Props/Loops |
| fragments | parsers.h 45-60, n3n6_entrypoint.c | Spec/Fragments, Props/Fragments |
| across restarts | cmd/ebpf/objects.go 71-150, cmd/main.go | Props/RestartGap |
| idle UEs, GTP-U messages | cmd/core/pfcp_connection.go, cmd/ebpf/xdp/n3n6_entrypoint.c | Spec/Idle, Props/Idle |
| address pools of both IP versions | resource_manager.go 28-85, 107-114, pdr_creation_context.go 137-158, pdr.go 13-31 | AddressPool, Props/AddressPool |
| choices for Update PDR | pfcp_session_handlers.go 429-445, 460-470, pdr_creation_context.go 103-158 | Props/Untold |
| filters and IPv6 packets | sdf_filter.h 54-72, 113-150, pdr.go 279-307 | Props/SdfMatch6, Props/FilterText6 |
| table sizes of a start | cmd/ebpf/objects.go 71-150, cmd/main.go | Props/RestartRoom |

## Not modelled / trusted
* go-pfcp (octets to information elements and back; a field is "absent", "undecodable" or a value), gin, viper,
  go-playground/validator, zerolog, prometheus client (a counter is a natural number instead of a float64), gopacket, the Go runtime.
* The kernel: hash and array map semantics (`HMap`, `ArrMap`), `bpf_fib_lookup` (an arbitrary function), `bpf_xdp_adjust_head`,
  `bpf_csum_diff`, the clock (an arbitrary value per packet), per-CPU arrays. The compilation of the XDP program by clang; the bpf2go
  generated types are not in the repository (their fields are taken from the C declarations).
* The XDP program handles one packet at a time in the model of a frame (per-CPU statistics are kept apart; concurrent updates of shared
  QER timers and URR volumes are treated separately, see the properties about concurrency).
* Trace output is compiled out by default and left out. The program as built with the route cache (ENABLE_ROUTE_CACHE) is a second model (Xdp/RouteCache), used in C85 only.
* The REST interface's direct writes to tables are modelled (C46, C63), but are not events of the histories over which the
  invariants range (an operator can overwrite any slot). A configuration change is an event; one that falls within a handler is taken to
  happen before or after it.
* Sockets (a response that is produced is taken to be sent), logging, profiling, documentation endpoints, the command line.
* The effect of data races between the REST goroutine and the main loop on Go maps (C86 models where they occur, not what a racy access returns).

## Method
* Every handler is an executable function on an explicit state. Errors and panics are values and keep
  the state reached so far (no rollback), as in the Go code. A panic ends the history.
* Go map iteration order is an explicit argument (any permutation): theorems hold for all orders.
* Histories (`Reach`, `Hist`, `Sys.Exec`) are unbounded lists of arbitrary messages, packets, configuration changes and timer events;
  invariants are proved by induction over them.
* Frames are octet lists of any length; the XDP program is a function from tables, frame, time and kernel-helper
  answers to tables, frame, action. An access outside of the frame is a panic, and C49 shows there is none.
* A property that is false of the code is proved false by a concrete reachable witness (or for all states), and the strongest
  true part found is proved with the suffix `_partial`.
* Beside the theorems, `example`s show that concrete, non-trivial states meet their hypotheses.
* The theorems are tested against edited models; see `seeded/LOG.jsonl`.

## Per property
| id | property | status | how it is modelled and proved |
|---|---|---|---|
| C01 | Session requests need an association | proved | case analysis of the three handlers, all node states |
| C02 | Unknown SEID is rejected without effect | proved | same |
| C03 | Mandatory IEs are validated before any effect | proved | same |
| C04 | Local SEIDs are fresh | proved | invariant over all histories: every SEID handed out is at most the counter; ledger specification `Spec/Ledger` |
| C05 | Session records are isolated | proved | frame condition of every handler step, all states and outcomes |
| C06 | Responses are addressed correctly | proved | functional statement per step; header SEID against a ledger built from the messages only |
| C07 | Rule slot allocator | proved | invariant + abstract set of outstanding ids computed from the observations; induction over call sequences |
| C08 | Rule slots are owned exclusively | partial | ownership invariant (`Slots`) over all histories; witness for requests naming unknown rules |
| C09 | Forwarding plane agrees with the session record | partial | agreement invariant along with C08 |
| C10 | An accepted deletion removes everything | partial | deletion walked through loop by loop under the invariants of C08; witness for colliding TEIDs |
| C11 | An existing session can be deleted | partial | same; witnesses |
| C12 | A rejected establishment has no effect | partial | case analysis; witness |
| C13 | TEID pool | partial | multiset conservation invariant over all pool call sequences; witness of a leak |
| C14 | No two live sessions share an allocated TEID | partial | TEID ownership invariant over all histories meeting the conditions; four witnesses |
| C15 | UE IP pool | partial | as C13; witness |
| C16 | CHOOSE ID | proved | invariant over the PDR loop of a request relating chosen TEIDs, cache and pool |
| C17 | Created PDR IEs tell the truth | proved | the same invariant, relating the Created PDR list to table entries |
| C18 | An accepted PDR is installed | proved | walk through `createPdr`/`updatePdr`; entry compared with a specification of the rule (`Spec/Installed`) |
| C19 | PDR order independence | partial | algebra of `pdrToStore`; witness |
| C20 | Re-installing an SDF-only PDR keeps non-matching traffic unclassified | partial | witness and partial |
| C21 | SDF filter grammar | proved | soundness and completeness of the parser against a declarative grammar (`Spec/SdfGrammar`) |
| C22 | Out-of-range prefix lengths are rejected | partial | general: masks out of range give the matcher of `any` |
| C23 | IPv4 SDF classification means what the filter says | partial | bit-vector semantics of the matcher against `Spec/SdfMeaning` on packet octets; witnesses |
| C24 | IPv6 SDF classification means what the filter says | partial | same; for arbitrary ranges the exact condition, bit by bit, by the positions of the octets in the 128-bit numbers the program compares |
| C25 | Unclassified packets are passed untouched | proved | determinate outcome of the XDP program (`Xdp/Outcome`) compared with `Spec/Flow` |
| C26 | Forwarding needs FORW action and open gate | proved | same |
| C27 | Downlink encapsulation | proved | octet-level equality with `Spec/Tunnel` |
| C28 | Uplink decapsulation | partial | same; witness |
| C29 | Encapsulation and decapsulation are inverse | proved | composition of C27 and C28 |
| C30 | Outer IPv4 header checksum | proved | ones' complement arithmetic (`Xdp/CsumLemmas`), `Spec/Checksum` |
| C31 | N9 re-tunnelling | proved | octet-level equality |
| C32 | GTP-U echo | proved | octet-level equality |
| C33 | ICMP echo to the UPF | proved | octet-level equality; incremental checksum update proved valid modulo 2^16-1; witness |
| C34 | Rate limiting | proved | induction over arrival sequences with a potential function on the timer |
| C35 | Maximum bit rate 0 means unlimited and MBR is converted exactly | partial | arithmetic; witness |
| C36 | QER update merges | proved | walk through the modification body (`MergeLemmas`), `Spec/Merge` |
| C37 | FAR update merges | proved | same |
| C38 | Usage is accounted to the right URR | partial | walk through packet program; all histories keep URR ids 0 (witness of the general failure) |
| C39 | Usage reports | partial | walk through deletion and removal under the invariants of C08; witness |
| C40 | XDP action counters | proved | induction over frame sequences |
| C41 | Packet statistics totals | partial | induction over CPUs, linked to C40 and C62 |
| C42 | Prometheus counters | partial | induction over scrapes |
| C43 | An association is only dropped after N consecutive unanswered heartbeats | proved | invariant on the labelled transition system: miss counter = expiries since the last matching answer in the trace |
| C44 | The control plane never wedges | partial | invariants; closure of the wedged states; constructed executions |
| C45 | Association removal removes its sessions | partial | as C10 for the peer-loss path |
| C46 | User space and kernel agree on table layouts | partial | layout rule as a function (the complete PDR record with its embedded filter included, C46_pdr_record, C46_pdr_write), memory images computed and read back for all values |
| C47 | Configuration validation | partial | case analysis; slots via C07 |
| C48 | Repeated association setup keeps sessions | proved | case analysis |
| C49 | No out-of-bounds packet access | proved | outcome of the program is never a panic (checked memory) |
| C50 | Packets never change rules | proved | frame condition of each packet, induction over sequences, linked to `TrafficEffect` |
| C51 | REST session query | partial | permutation-invariant reasoning about the nested map loops |
| C52 | Session gauge | proved | ledger induction |
| C53 | GTP echo sequence numbers | partial | invariant over ticks; composition with the XDP echo responder |
| C54 | Configuration POST is atomic | partial | exact effect, witness |
| C55 | TEID pool construction terminates | partial | loop invariant; non-termination by showing every iterate is defined |
| C56 | Changing a PDR's TEID moves it | partial | general statement that no key is removed, witness |
| C57 | A PDR without match key is rejected | partial | witness |
| C58 | Sessions without QER are not policed by others | partial | witness |
| C59 | Malformed messages never crash the node | partial | crash-freedom invariant over all histories of well-formed messages; witnesses |
| C60 | Never-configured TEIDs are never forwarded | proved | invariant: keys of the uplink table come from messages or the pool |
| C61 | Dead peers are given up | partial | constructed infinite execution; C43 for silence |
| C62 | Receive counters count exactly the frames of their kind | proved | frame classes (`Spec/Counters`) against the program, induction over sequences |
| C63 | REST table access: what is written is what is read | proved | direct |
| C64 | A session's forwarding is not disturbed by others | partial | guard invariant on the handler bodies (`KeyGuard`), induction over histories, with C09 for the slots |
| C65 | Downlink, end to end | proved | composition of C18, C36, C37 (request to tables), C64 (tables stay) and C27 (tables to octets) |
| C66 | Uplink, end to end | partial | same with C28 |
| C67 | PFCP message counters | partial | endpoint model with counters (`Wire`), induction over turns, against counts taken from the observed turns (`Spec/Wire`) |
| C68 | Associations follow the messages, and configured peers are asked until associated | proved | induction over turns against `associated`, computed from the messages alone |
| C69 | Every associated peer is probed | partial | model of Go's SplitHostPort; consequence in the goroutine model through C43 |
| C70 | Advertised features | proved | case analysis of every handler, induction over histories for the constant configuration; pool invariant for the refusal |
| C71 | Answers to heartbeats are recognised | partial | invariant of the goroutine model: a pausing scheduler got exactly its last number back |
| C72 | Next hops | partial | case analysis of the packet result relation of C25 on, with the lookup answer as part of the environment |
| C73 | Routing and forwarding counters | partial | same, and induction over sequences of frames |
| C74 | Rate limits with several CPUs | partial | interleaving model of one timer (`Xdp/Smp`); account invariant of C34 under exclusion; induction over rounds for the multiple |
| C75 | Usage volumes with several CPUs | partial | interleaving model of one volume; conservation invariant under exclusion, upper bound without |
| C76 | Handover is atomic | partial | the reads of one packet at different times against a record that changes |
| C77 | All QERs of a PDR are enforced | partial | grouped IEs as lists of children (`Ies`); congruence of the handlers for the negation, C64/C36/C26 for the first QER |
| C78 | Transport Level Marking | partial | same; C65 for the marking beside the Forwarding Parameters |
| C79 | Several SDF filters in a PDI | partial | same; C65 for the first filter |
| C80 | Precedence | partial | same: requests without Precedence IEs are read the same |
| C81 | UE address of uplink packets | partial | same, and the extraction of a PDR with F-TEID does not read the UE IP address |
| C82 | Source Interface | partial | same |
| C83 | Update PDR without PDI | partial | case analysis of the modification's phases |
| C84 | A rejected modification has no effect | partial | the phases before the URR and PDR part are common to the request and its truncation; the later phases keep FAR and QER records |
| C85 | The route cache does not change where packets go | partial | the program with the cache, function by function, over a state that includes the cache; simulation: one packet behaves as in the program without the cache under a kernel that answers from the cache; induction over the frames |
| C86 | Queries do not disturb the UPF | partial | the accesses to Go maps and mutexes of every handler, as a list computed from the state; a machine that interleaves such lists and ends at a conflicting access; lock discipline invariant; exact characterisation of the fatal interleavings |
| C87 | TEIDs and addresses come back to the pools | partial | invariant of histories of careful requests: the pool is the disjoint union of the free TEIDs and those on loan to PDRs of live sessions; for other peers the negation, for every state; addresses: the free list is always a suffix of the configured list |
| C88 | A restart does not go unnoticed | partial | transition system of starts: a start may follow every state and makes a fresh endpoint; the turns since the last start are an execution of the endpoint (so C01, C02, C52, C68 apply to them); stamps by induction over executions |
| C89 | What the REST interface shows | partial | encoding/json as a partial function on a universe of Go values (a channel has no encoding); the records as such values; a separate specification by field access says what a document shows; maps by induction over their entries |
| C90 | The tunnel and the address that the UPF chose are served | partial | the record made for the PDR has the reported TEID (the created PDRs are matched with the askers), later Create PDRs of the request get other TEIDs; a free TEID nobody gave is unused (invariant: uplink records with it are chosen; C14's invariant: chosen TEIDs are not free); while the session lives its TEID is not free, so C64 applies to every later event; addresses: the free list only shrinks |
| C91 | A filter text does what it says, from the request to the packet | partial | the key was never given (invariant over histories), so there is no entry before; the Create PDRs of the request are run one after the other and the entry is computed from one or two of them; C21/C23 give the meaning of the text, C64 keeps the entry, C25-C28 say what the packet program does |
| C92 | UEs with IPv6 addresses are served | partial | as C65, with the IPv6 table; a key never given without an IPv4 address has no entry (invariant over histories), so its packets go to the host |
| C93 | What was last said is what happens (handover, idle, blocking) | partial | an invariant over histories: the session's record of the FAR (QER) is the merge, field by field, of everything said so far, the PDR's record and table entry are unchanged (C64's guard, extended to modifications of the session that do not name the PDR), and the slots are in the tables (C08); then C26-C28 say what the packet program does |
| C94 | Rule slots come back | partial | an invariant over histories: every slot that is not free is the slot of a rule of a live session; with C08 (exclusive slots) this gives the exact count; the leaks are computed from every state and iterated |
| C95 | Room means acceptance | proved | each step of the establishment succeeds iff its rule is usable and a slot is free (C21 gives the language of flow descriptions), and takes one; induction over the rules of the request; the sizes of the tables are an invariant over histories; C94 turns free slots into rules of live sessions |
| C96 | PDR tables are never over-full | proved | an invariant over histories; for new TEIDs also: creations never remove keys, so afterwards all old and new keys are there |
| C97 | Traffic of a deleted session is no longer carried | partial | the exact deletion theorem (C10) or the trace of a removal gives that the entry is gone; a key without entry and without user stays so along every history that cannot give it away (guard_step'); C25 for the packets; for the negation the cache of CHOOSE IDs is shown to suppress the removal in every state |
| C98 | The forwarding plane says what the live sessions say, and nothing else | partial | a strengthened invariant (the entry of each live PDR is literally its installed form, and other keys have none) is preserved by every event of orderly histories; the modification is split into its twelve phases; C25/C26 carry it to packets |
| C99 | Traffic is handled by the rules of the session it belongs to | partial | an invariant over clean histories (every PDR of a live session points to slots of its own session), the modification split into its phases; C08 gives exclusiveness, C09 the contents, C98 the packets; the negations are evaluated histories and packets |
| C100 | The UPF does what it was told, no more and no less | partial | an abstract UPF (Spec/AbstractUpf.lean: what was said about each session, folded over the history) and a simulation: every clean step keeps the records of all sessions related to it; C98 and C09 carry the records to the tables, C25-C31 the tables to packets |
| C101 | Traffic within its bit rate is carried | partial | an invariant over runs of packets: the timer of the slot owes at most the last of the offered frames; the limiter's 64-bit arithmetic is related to natural numbers under bounds on uptime and frame size; the negation holds in every state |
| C102 | A session gets the bit rate it was told | partial | the refinement of C100 identifies the traffic of a QER slot with the traffic of the PDRs that were told to use the QER (exclusive slots, C08; exact tables, C98); then C34 from above and C101 from below |
| C103 | A request that arrives twice is executed once | partial | the request is the same event twice; establishments by the ledger of SEIDs handed out (C04), deletions by an invariant over the exchanges in between, updates by idempotence of the merges and of sequences of slot writes |
| C104 | Freed TEIDs and UE addresses are reused last | proved | the pools are queues: since any moment, what was taken is a prefix of what was free then, followed by what came back; counted against the requests' CHOOSE flags over any history |
| C105 | The sessions of a restarted peer are removed | partial | node messages leave sessions, tables and pools alone (C05), by induction over the messages; a concrete full node for the consequence |
| C106 | Packets that arrive during a request do not disturb it | proved | requests are cut into pieces with one table write each (Moments.lean), whose sequence is proved to be the handler; every piece is blind to what packets change, so packets commute with pieces; induction over the interleaving and the history |
| C107 | A request disturbs no other session's packets while it is processed | partial | the pieces done so far are themselves a request (CutLemmas), so the invariants of slots (C08) and of untouched keys (C64) hold at the cut; what the session was told is in the tables then (C100) |
| C108 | A packet is treated as its session was told, even if requests are processed while it is | partial | the slots of the packet's PDR stay with its session over every event about other sessions (induction over the events in between), so at each look-up the entry is the one that was told (C107) |
| C109 | Requests take effect in an order that packets can rely on | proved | pieces are sorted: first those that write no PDR table, then those that write no FAR or QER table (deletion: the other way round); a cut of the list lies in the first part or in the second; and a cut of the pieces is the list of pieces of a shorter request |
| C110 | Establishments and deletions take effect at once, as far as a packet can tell | partial | the fate of a frame is a function of the entry of its match key and of the FAR and QER that the entry refers to (Xdp/Fate.lean); at every cut of the pieces each entry is that before or that after (Own, C98), and the rules it refers to are there (C109) and belong to the same session (C99) |
| C111 | In the middle of a request the UPF is as after an orderly shorter request | partial | the pieces done so far are those of a shorter request (C109); its PDRs are among those of the whole one, with the same keys (induction over the lists), so keys stay apart, and it refers to no rule that the cut has left out, as PDRs come last |
| C112 | A modification that changes one thing about a packet takes effect at once for it | partial | by C111 the tables at the moment belong to a node with a clean history; each FAR, QER and PDR record of its session is the one before or the one after (a rule is updated once), and the fate of a frame depends on one PDR, its FAR and its QER (Xdp/Fate.lean) |
| C113 | A modification is accepted if there is room for it | partial | each of the fifteen loops of the modification is shown to succeed exactly if its IEs are usable and the counters suffice, and to leave the other counters alone; the conditions are chained through the loops (modBody_iff); PDR creation and update by induction over the lists with the pools and table places as measure |
| C114 | A packet that overlaps with a request sees the old or the new rules | partial | the look-ups are a dataplane composed of three moments (Spec/Moments: lookups); requests write rules before PDRs, so once the PDR found is not the old one all rules are the final ones and C110/C112 apply; before that each rule is the old or the new one, and for a deletion the old one or empty |
| C115 | What happens to a packet depends on what was told, and on nothing else | partial | by C100 the tables hold, for every key, what was told, or nothing; the fate of a frame is a function of the rule's outer header removal and the values of its FAR and QER, not of the slots (Xdp/Twins.lean); the values are determined by what was told up to the limiters' state |
| C116 | A session keeps to its bit rate across requests | partial | a timeline interleaves runPacket and Node.step; the table entry of a QER of a session is unchanged by requests that do not name it (the slot lemmas of C08 with exact comparison for one owner); between restarts the account of C34 holds, and at a restart a new account begins at the time of the last packet; the accounts add up |
| C117 | What usage reports say, across requests and packets | partial | an invariant of timelines: the tables hold no URR ids (C38), so a packet charges slot 0 twice and no other slot; bodies write zeros, so slots other than 0 are zero; slots are exclusive (C08), so one live URR at most has slot 0; with the slot lemmas a URR that no request touches keeps its slot and its counter; a lost peer's URRs keep their slots: the slot invariant with one additional session that no request is about |
| C118 | Packets on a circular route die | partial | from C27, C28 and C31: what leaves is, behind the new headers, what came; C31 keeps the outer header's octet 22; rounds by induction: a re-tunnelled frame is again a G-PDU for the next UPF with the next TEID, and charging a packet leaves the rules as they are |
| C119 | Fragments | partial | the rule depends on the flow, the flow of a piece differs from that of another in the ports only; two frames that differ in identification, flags and offset have the same fate (upFateP of Xdp/Twins.lean), octet by octet; incomplete packets: C28 |
| C120 | The datapath works on across a restart | partial | composition of the executions over restarts (C88) with the packet theorems: empty tables after a start by induction over the turns since (C88_forwards_nothing), TEIDs not named since by C60; concrete executions with two starts for the negations. The time between the end of one process and the start of the next is not modelled (no program is attached then) |
| C121 | Idle UEs are paged | partial | the messages sent are a function of the turns of the endpoint (induction over executions in which packets are processed at arbitrary points); packets by C100 and induction over streams; the wake-up is a concrete run |
| C122 | GTP-U messages between tunnel ends | partial | case analysis of the packet program's outcomes (packet_outcome), unknown TEIDs by C100 |
| C123 | Address pools of either IP version | partial | a model of the pool with addresses as octet slices of either length (the node model has IPv4 pools only); simulation of the node model's Create PDR for IPv4 pools; for IPv6 pools an invariant (all addresses have 16 octets) over all allocations and releases, and induction over the requests |
| C124 | What the UPF chooses it tells | partial | phases of an accepted modification (C36) and the exact effect of extractPDR on the pools; the response's Created PDRs all come from Create PDRs (C17); induction over the requests for the drain |
