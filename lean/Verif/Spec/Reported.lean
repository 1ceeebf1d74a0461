import Verif.Spec.Counters
import Verif.Stats
/-
Specification: what the reported statistics should be.
-/
namespace Eupf

/-- the kinds that the REST endpoint /packet_stats and the metric upf_rx report -/
def RxKind.reported : List RxKind :=
  [.arp, .icmp, .icmp6, .ip4, .ip6, .tcp, .udp, .other, .gtpEcho, .gtpPdu, .gtpOther, .gtpUnexp]

/-- the field of the report (REST) -/
def UpfCounters.val (c : UpfCounters) : RxKind → U64
  | .arp => c.rxArp
  | .icmp => c.rxIcmp
  | .icmp6 => c.rxIcmp6
  | .ip4 => c.rxIp4
  | .ip6 => c.rxIp6
  | .tcp => c.rxTcp
  | .udp => c.rxUdp
  | .other => c.rxOther
  | .gtpEcho => c.rxGtpEcho
  | .gtpPdu => c.rxGtpPdu
  | .gtpOther => c.rxGtpOther
  | .gtpUnexp => c.rxGtpUnexp
  | .n3 => 0
  | .n6 => 0

/-- the label of the metric (Prometheus) -/
def RxKind.label : RxKind → String
  | .arp => "arp"
  | .icmp => "icmp"
  | .icmp6 => "icmp6"
  | .ip4 => "ip4"
  | .ip6 => "ip6"
  | .tcp => "tcp"
  | .udp => "udp"
  | .other => "other"
  | .gtpEcho => "gtp-echo"
  | .gtpPdu => "gtp-pdu"
  | .gtpOther => "gtp-other"
  | .gtpUnexp => "gtp-unexp"
  | .n3 => "-n3"
  | .n6 => "-n6"

/-- the sum over all CPUs -/
def totalRx (cpus : List UpfStat) (k : RxKind) : Nat := (cpus.map fun s => (s.rx k).toNat).sum
def totalAction (cpus : List UpfStat) (i : Fin 8) : Nat := (cpus.map fun s => (s.actions i).toNat).sum

/-- the route lookups, by address family and result -/
inductive RtKind
  | ok4 | drop4 | pass4 | ok6 | drop6 | pass6
deriving DecidableEq, Repr
def RouteStat.get (s : RouteStat) : RtKind → U64
  | .ok4 => s.ip4Ok
  | .drop4 => s.ip4Drop
  | .pass4 => s.ip4Pass
  | .ok6 => s.ip6Ok
  | .drop6 => s.ip6Drop
  | .pass6 => s.ip6Pass
def RouteCounters.val (s : RouteCounters) : RtKind → U64
  | .ok4 => s.ip4Ok
  | .drop4 => s.ip4Drop
  | .pass4 => s.ip4Pass
  | .ok6 => s.ip6Ok
  | .drop6 => s.ip6Drop
  | .pass6 => s.ip6Pass
def RtKind.label : RtKind → String
  | .ok4 => "ip4-ok"
  | .drop4 => "ip4-error-drop"
  | .pass4 => "ip4-error-pass"
  | .ok6 => "ip6-ok"
  | .drop6 => "ip6-error-drop"
  | .pass6 => "ip6-error-pass"
def totalRt (cpus : List RouteStat) (k : RtKind) : Nat := (cpus.map fun s => (s.get k).toNat).sum

/-- a list of scrapes: what the CPUs' statistics are at each -/
def MetricsState.scrapes (m : MetricsState) : List (List UpfStat × List RouteStat) → MetricsState
  | [] => m
  | x :: l => (m.scrape x.1 x.2).scrapes l

end Eupf
