import Verif.Props.Packets
/-
Statistics: cmd/ebpf/stats.go, cmd/core/metrics.go, cmd/api/rest/stats.go, cmd/api/rest/handler.go 107-123.

The per-CPU array `upf_ext_stat` (cmd/ebpf/xdp/statistics.h 51-57) is a function from CPU numbers below `n` to `UpfStat`;
`Lookup` into a slice gives the values of all CPUs in order. Simplifications: a Prometheus counter (a float64) is an
unbounded natural number; `Lookup` of key 0 in an array map never fails (the error branches return zeros).
-/
namespace Eupf

/-- cmd/ebpf/stats.go 13-26 `UpfCounters` -/
structure UpfCounters where
  rxArp : U64 := 0
  rxIcmp : U64 := 0
  rxIcmp6 : U64 := 0
  rxIp4 : U64 := 0
  rxIp6 : U64 := 0
  rxTcp : U64 := 0
  rxUdp : U64 := 0
  rxOther : U64 := 0
  rxGtpEcho : U64 := 0
  rxGtpPdu : U64 := 0
  rxGtpOther : U64 := 0
  rxGtpUnexp : U64 := 0
deriving DecidableEq, Repr

/-- the `UpfCounters` field of the generated `IpEntrypointUpfStatistic` (first member of `struct upf_statistic`,
cmd/ebpf/xdp/statistics.h 22-49; field by field in the same order) -/
def UpfStat.upfCounters (s : UpfStat) : UpfCounters :=
  { rxArp := s.rxArp, rxIcmp := s.rxIcmp, rxIcmp6 := s.rxIcmp6, rxIp4 := s.rxIp4, rxIp6 := s.rxIp6, rxTcp := s.rxTcp,
    rxUdp := s.rxUdp, rxOther := s.rxOther, rxGtpEcho := s.rxGtpEcho, rxGtpPdu := s.rxGtpPdu, rxGtpOther := s.rxGtpOther,
    rxGtpUnexp := s.rxGtpUnexp }

/-- cmd/ebpf/stats.go 33-45 `(*UpfCounters).Add` -/
def UpfCounters.add (c n : UpfCounters) : UpfCounters :=
  { c with
    rxArp := c.rxArp + n.rxArp
    rxIcmp := c.rxIcmp + n.rxIcmp
    rxIcmp6 := c.rxIcmp6 + n.rxIcmp6
    rxIp4 := c.rxIp4 + n.rxIp4
    rxIp6 := c.rxIp6 + n.rxIp6
    rxTcp := c.rxTcp + n.rxTcp
    rxUdp := c.rxUdp + n.rxUdp
    rxOther := c.rxOther + n.rxOther
    rxGtpEcho := c.rxGtpEcho + n.rxGtpEcho
    rxGtpPdu := c.rxGtpPdu + n.rxGtpPdu
    rxGtpOther := c.rxGtpOther + n.rxGtpOther }

/-- cmd/ebpf/stats.go 47-63 `(*UpfCounters).Delta`: `current.Delta(new)` -/
def UpfCounters.delta (c n : UpfCounters) : UpfCounters :=
  { rxArp := n.rxArp - c.rxArp
    rxIcmp := n.rxIcmp - c.rxIcmp
    rxIcmp6 := n.rxIcmp6 - c.rxIcmp6
    rxIp4 := n.rxIp4 - c.rxIp4
    rxIp6 := n.rxIp6 - c.rxIp6
    rxTcp := n.rxTcp - c.rxTcp
    rxUdp := n.rxUdp - c.rxUdp
    rxOther := n.rxOther - c.rxOther
    rxGtpEcho := n.rxGtpEcho - c.rxGtpEcho
    rxGtpPdu := n.rxGtpPdu - c.rxGtpPdu
    rxGtpOther := n.rxGtpOther - c.rxGtpOther }

/-- cmd/ebpf/stats.go 67-82 `getUpfXdpStatisticField` -/
def getUpfXdpStatisticField (cpus : List UpfStat) (field : Fin 8) : U64 := cpus.foldl (fun t s => t + s.actions field) 0

/-- cmd/ebpf/stats.go 105-120 `GetUpfExtStat` -/
def getUpfExtStat (cpus : List UpfStat) : UpfCounters := cpus.foldl (fun c s => c.add s.upfCounters) {}

/-- cmd/ebpf/xdp/utils/routing.h 30-39 and the generated `IpEntrypointRouteStat` -/
structure RouteCounters where
  ip4Cache : U64 := 0
  ip4Ok : U64 := 0
  ip4Drop : U64 := 0
  ip4Pass : U64 := 0
  ip6Cache : U64 := 0
  ip6Ok : U64 := 0
  ip6Drop : U64 := 0
  ip6Pass : U64 := 0
deriving DecidableEq, Repr

/-- the value of the per-CPU `upf_route_stat` as user space reads it (the cache counters are never touched: the route cache
is compiled out unless ENABLE_ROUTE_CACHE is defined) -/
def RouteStat.counters (s : RouteStat) : RouteCounters :=
  { ip4Ok := s.ip4Ok, ip4Drop := s.ip4Drop, ip4Pass := s.ip4Pass, ip6Ok := s.ip6Ok, ip6Drop := s.ip6Drop, ip6Pass := s.ip6Pass }

/-- cmd/ebpf/stats.go 142-152 `(*IpEntrypointRouteStat).Add` -/
def RouteCounters.add (c n : RouteCounters) : RouteCounters :=
  { ip4Cache := c.ip4Cache + n.ip4Cache, ip4Ok := c.ip4Ok + n.ip4Ok, ip4Drop := c.ip4Drop + n.ip4Drop, ip4Pass := c.ip4Pass + n.ip4Pass,
    ip6Cache := c.ip6Cache + n.ip6Cache, ip6Ok := c.ip6Ok + n.ip6Ok, ip6Drop := c.ip6Drop + n.ip6Drop, ip6Pass := c.ip6Pass + n.ip6Pass }

/-- cmd/ebpf/stats.go 154-168 `(*IpEntrypointRouteStat).Delta` -/
def RouteCounters.delta (c n : RouteCounters) : RouteCounters :=
  { ip4Cache := n.ip4Cache - c.ip4Cache, ip4Ok := n.ip4Ok - c.ip4Ok, ip4Drop := n.ip4Drop - c.ip4Drop, ip4Pass := n.ip4Pass - c.ip4Pass,
    ip6Cache := n.ip6Cache - c.ip6Cache, ip6Ok := n.ip6Ok - c.ip6Ok, ip6Drop := n.ip6Drop - c.ip6Drop, ip6Pass := n.ip6Pass - c.ip6Pass }

/-- cmd/ebpf/stats.go 171-186 `GetUpfRouteStat` -/
def getUpfRouteStat (cpus : List RouteStat) : RouteCounters := cpus.foldl (fun c s => c.add s.counters) {}

/-- cmd/ebpf/stats.go 7-11 `UpfXdpActionStatistic` (without the pointer to the tables) -/
structure StatObj where
  prev : UpfCounters := {}
  prevRoute : RouteCounters := {}

/-- cmd/ebpf/stats.go 123-140 `GetUpfExtStatDelta` -/
def StatObj.extDelta (o : StatObj) (cpus : List UpfStat) : StatObj × UpfCounters :=
  let counters := cpus.foldl (fun c s => c.add s.upfCounters) {}
  ({ o with prev := counters }, o.prev.delta counters)

/-- cmd/ebpf/stats.go 189-206 `GetUpfRouteStatDelta` -/
def StatObj.routeDelta (o : StatObj) (cpus : List RouteStat) : StatObj × RouteCounters :=
  let counters := cpus.foldl (fun c s => c.add s.counters) {}
  ({ o with prevRoute := counters }, o.prevRoute.delta counters)

/-- The Prometheus counter vectors `upf_rx` and `upf_route` (metrics.go 38-46): a natural number per label. -/
structure Exported where
  rx : String → Nat := fun _ => 0
  route : String → Nat := fun _ => 0

/-- prometheus `CounterVec.WithLabelValues(l).Add(v)` -/
def addLabel (m : String → Nat) (l : String) (v : U64) : String → Nat := fun x => if x = l then m x + v.toNat else m x

/-- metrics.go 124-135, the twelve `Add` calls -/
def addRx (m : String → Nat) (c : UpfCounters) : String → Nat :=
  [("arp", c.rxArp), ("icmp", c.rxIcmp), ("icmp6", c.rxIcmp6), ("ip4", c.rxIp4), ("ip6", c.rxIp6), ("tcp", c.rxTcp), ("udp", c.rxUdp),
   ("other", c.rxOther), ("gtp-echo", c.rxGtpEcho), ("gtp-pdu", c.rxGtpPdu), ("gtp-other", c.rxGtpOther),
   ("gtp-unexp", c.rxGtpUnexp)].foldl (fun m x => addLabel m x.1 x.2) m

/-- metrics.go 138-145, the eight `Add` calls -/
def addRoute (m : String → Nat) (c : RouteCounters) : String → Nat :=
  [("ip4-cache", c.ip4Cache), ("ip4-ok", c.ip4Ok), ("ip4-error-drop", c.ip4Drop), ("ip4-error-pass", c.ip4Pass),
   ("ip6-cache", c.ip6Cache), ("ip6-ok", c.ip6Ok), ("ip6-error-drop", c.ip6Drop),
   ("ip6-error-pass", c.ip6Pass)].foldl (fun m x => addLabel m x.1 x.2) m

/-- metrics.go 122-146 `GatherMetrics(stats)`: the object comes by value, so what it becomes is returned only for the
reader of this model -/
def gatherMetrics (o : StatObj) (cpus : List UpfStat) (rts : List RouteStat) (x : Exported) : StatObj × Exported :=
  let (o, d) := o.extDelta cpus
  let rx := addRx x.rx d
  let (o, r) := o.routeDelta rts
  (o, { rx := rx, route := addRoute x.route r })

/-- What the metrics endpoint works with: the handler's statistics object (rest/handler.go 30) and the exported counters. -/
structure MetricsState where
  obj : StatObj := {}
  exported : Exported := {}

/-- rest/handler.go 115-120, one GET /metrics: `core.GatherMetrics(*h.ForwardPlaneStats)` copies the object; the copy dies
with the call. -/
def MetricsState.scrape (m : MetricsState) (cpus : List UpfStat) (rts : List RouteStat) : MetricsState :=
  { m with exported := (gatherMetrics m.obj cpus rts m.exported).2 }

/-! ### several CPUs -/

/-- The forwarding plane with `n` CPUs: the tables are shared, the statistics are per CPU. -/
structure Multi (n : Nat) where
  dp : BpfObjects
  st : Fin n → UpfStat
  rt : Fin n → RouteStat

/-- one frame on one CPU -/
def Multi.packet {n : Nat} (d : Multi n) (i : Fin n) (e : Env) (f : List U8) : Multi n :=
  let s := (runPacket e ⟨f, d.dp, d.st i, d.rt i⟩).1
  { dp := s.dp, st := fun j => if j = i then s.st else d.st j, rt := fun j => if j = i then s.rt else d.rt j }

/-- frames arriving one after the other, each on some CPU. Simplification: packets are processed one at a time; statistics
are per CPU and unaffected by that. -/
def Multi.run {n : Nat} (d : Multi n) : List (Fin n × Env × List U8) → Multi n
  | [] => d
  | (i, e, f) :: l => (d.packet i e f).run l

/-- what `Lookup` on the per-CPU arrays returns -/
def Multi.upfExtStat {n : Nat} (d : Multi n) : List UpfStat := List.ofFn d.st
def Multi.upfRouteStat {n : Nat} (d : Multi n) : List RouteStat := List.ofFn d.rt

end Eupf
