# Formal model of eUPF in Lean 4: design

## Trusted base
* Lean's kernel (4.33.0). Every property theorem depends on no axioms other than `propext`, `Classical.choice` and
  `Quot.sound` (many on fewer). There is no axiom of our own, no unfinished proof, no `native_decide`, no `bv_decide`. Concrete witnesses are
  evaluated by `decide +kernel`, i.e. by the kernel.
* The reading of the source that the model makes: each definition cites the file and lines it models, and says where it simplifies.
* The semantics given to what lies outside the repository, listed under "Not modelled / trusted" below.
* The statements: `Verif/Props/*.lean` (theorems `Cnn_*`), with the independent specifications in `Verif/Spec/*.lean`.

## What is modelled
| area | source | Lean modules |
|---|---|---|
| Go maps, iteration order, error/panic monad | Go language semantics | `Base`, `ResourceManager` (`Shuffle`) |
| slot allocator | cmd/ebpf/objects.go 303-336 | `IdTracker` |
| TEID / UE IP pools | cmd/core/service/resource_manager.go | `ResourceManager` |
| tables as seen from user space, PDR records | cmd/ebpf/pdr.go, objects.go 43-153 | `Bpf` |
| sessions, PFCP session handlers, PDR extraction | cmd/core/session.go, pfcp_session_handlers.go, pdr_creation_context.go, pdr.go | `Session`, `Handlers` |
| associations, message dispatch, responses, loss of a peer | pfcp_handlers.go, pfcp_hearbeat.go, pfcp_connection.go, node_association.go | `Node` |
| heartbeat schedulers and main loop, interleaved | node_association.go 50-82, pfcp_connection.go 113-139 | `Heartbeat` |
| SDF filter text parser, character by character | cmd/core/sdf_filter_parser.go (with net.ParseIP, CIDRMask, ParseUint) | `SdfParser` |
| XDP program, octet by octet | cmd/ebpf/xdp/** | `Xdp/Mem`, `Xdp/Parse`, `Xdp/Match`, `Xdp/Gtp`, `Xdp/Csum`, `Xdp/RateLimit`, `Xdp/Pipeline` |
| statistics and metrics | cmd/ebpf/stats.go, cmd/core/metrics.go, rest/stats.go | `Stats` |
| record layouts in memory | cmd/ebpf/pdr.go, xdp/pdr.h, qer.h, urr.h, rest/uplink_pdr.go | `Layout` |
| REST session queries, FAR/QER access | cmd/api/rest/pfcp_sessions.go, far_map.go, qer_map.go | `Rest` |
| configuration: validation, start, run-time change | cmd/config/config.go, rest/config.go, core/config_edit.go, logger.go | `Config`, `Node` (`setConfig`) |
| GTP path manager | cmd/core/gtp_path_manager.go | `GtpPath` |
MORE_MODELLED

## Not modelled / trusted
* go-pfcp (octets to information elements and back; a field is "absent", "undecodable" or a value), gin, viper,
  go-playground/validator, zerolog, prometheus client (a counter is a natural number instead of a float64), gopacket, the Go runtime.
* The kernel: hash and array map semantics (`HMap`, `ArrMap`), `bpf_fib_lookup` (an arbitrary function), `bpf_xdp_adjust_head`,
  `bpf_csum_diff`, the clock (an arbitrary value per packet), per-CPU arrays. The compilation of the XDP program by clang; the bpf2go
  generated types are not in the repository (their fields are taken from the C declarations).
* The XDP program handles one packet at a time in the model of a frame (per-CPU statistics are kept apart; concurrent updates of shared
  QER timers and URR volumes are treated separately, see the properties about concurrency).
* Trace output is compiled out by default and left out. The program as built with the route cache (ENABLE_ROUTE_CACHE) is a second model (Xdp/RouteCache), used in C85 only.
* The REST interface's direct writes to tables are modelled (C46, C63), but are not events of the histories over which the
  invariants range (an operator can overwrite any slot). A configuration change is an event; one that falls within a handler is taken to
  happen before or after it.
* Sockets (a response that is produced is taken to be sent), logging, profiling, documentation endpoints, the command line.
* The effect of data races between the REST goroutine and the main loop on Go maps (C86 models where they occur, not what a racy access returns).

## Method
* Every handler is an executable function on an explicit state. Errors and panics are values and keep
  the state reached so far (no rollback), as in the Go code. A panic ends the history.
* Go map iteration order is an explicit argument (any permutation): theorems hold for all orders.
* Histories (`Reach`, `Hist`, `Sys.Exec`) are unbounded lists of arbitrary messages, packets, configuration changes and timer events;
  invariants are proved by induction over them.
* Frames are octet lists of any length; the XDP program is a function from tables, frame, time and kernel-helper
  answers to tables, frame, action. An access outside of the frame is a panic, and C49 shows there is none.
* A property that is false of the code is proved false by a concrete reachable witness (or for all states), and the strongest
  true part found is proved with the suffix `_partial`.
* Beside the theorems, `example`s show that concrete, non-trivial states meet their hypotheses.
* The theorems are tested against edited models; see `seeded/LOG.jsonl`.

## Per property
TABLE
