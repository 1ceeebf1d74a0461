import Verif.Wire
/-
The UPF over several starts of the process. A process that stopped, at whatever point and for whatever reason, leaves nothing behind: the
PFCP state is in its memory, and the maps of the forwarding plane belong to it (cmd/ebpf/objects.go 71-150 creates them at every start; the
only pinned map, `upf_pipeline`, xdp/program_array.h 36, is not used by the programs attached). A start makes all of it anew and takes the
time as the recovery time stamp (cmd/core/pfcp_connection.go 101).
Simplifications: a start either succeeds or is not a start; the endpoint has no datagram of the previous process waiting.
-/
namespace Eupf

/-- What a start of the process is given: the time, in nanoseconds since 1900, and the configuration (cmd/main.go 31-104), which may have
been edited since the last one. -/
structure Boot where
  time : Nat
  cfg : NodeCfg
  pools : Option (List Ip4 × U32)
  sizes : U32 × U32 × U32 × U32
  remotes : List Addr := []
  resolves : Addr → Bool := fun _ => true

/-- The endpoint right after a start: cmd/main.go 31-104, cmd/core/pfcp_connection.go 59-107, cmd/ebpf/objects.go 71-150. -/
def Boot.endpoint (b : Boot) : Endpoint :=
  { node := Node.init b.cfg (b.pools.map fun p => newResourceManager p.1 p.2)
      (BpfObjects.load b.sizes.1 b.sizes.2.1 b.sizes.2.2.1 b.sizes.2.2.2)
    remotes := b.remotes
    resolves := b.resolves }

/-- The recovery time stamp in the messages of this start: cmd/core/pfcp_connection.go 101 and `ie.NewRecoveryTimeStamp` of go-pfcp
(v0.0.23, ie/recovery-time-stamp.go): the whole seconds since 1900, as 32 bits. -/
def Boot.stamp (b : Boot) : U32 := BitVec.ofNat 32 (b.time / 1000000000)

/-- A message on the wire with its Recovery Time Stamp IE. cmd/core/pfcp_hearbeat.go 21, 43; pfcp_handlers.go 126 (only in the accepted
response, the one that has features); pfcp_connection.go 251. -/
def Boot.recovery (b : Boot) (s : Sent) : Option U32 :=
  match s.name with
  | .heartbeatRequest => some b.stamp
  | .heartbeatResponse => some b.stamp
  | .associationSetupRequest => some b.stamp
  | .associationSetupResponse => if s.features.isSome then some b.stamp else none
  | _ => none

/-- What is seen of the UPF: a start, or a turn of the running process with its outcome and the messages sent (newest first), each with
its Recovery Time Stamp IE. -/
inductive WEv
  | boot (b : Boot)
  | turn (t : Turn) (o : Outcome) (sent : List (Sent × Option U32))

/-- the outcome of a turn -/
def Endpoint.outcome (w : Endpoint) : Turn → Outcome
  | .event e => (w.node.step e).2
  | _ => .silent

/-- the messages of a turn -/
def Endpoint.says (w : Endpoint) (t : Turn) : List Sent := (w.turn t).sent.take ((w.turn t).sent.length - w.sent.length)

/-- The world: the current start and its endpoint. -/
structure World where
  boot : Boot
  w : Endpoint

/-- Executions over any number of starts, newest event first. The process can stop anywhere, also in the middle of a turn: nothing of that
turn remains, so that a start can follow every state. Time does not run backwards. -/
inductive World.Run : List WEv → World → Prop
  | first (b : Boot) : Run [.boot b] ⟨b, b.endpoint⟩
  | turn {h : List WEv} {x : World} (t : Turn) (ha : x.w.alive = true) : Run h x →
      Run (.turn t (x.w.outcome t) ((x.w.says t).map fun s => (s, x.boot.recovery s)) :: h) ⟨x.boot, x.w.turn t⟩
  | traffic {h : List WEv} {x : World} {dp : BpfObjects} : Run h x → TrafficEffect x.w.node.dp dp →
      Run h ⟨x.boot, { x.w with node := { x.w.node with dp := dp } }⟩
  | restart {h : List WEv} {x : World} (b : Boot) : Run h x → x.boot.time ≤ b.time → Run (.boot b :: h) ⟨b, b.endpoint⟩

end Eupf
