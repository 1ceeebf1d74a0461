import Verif.Node
/-
The goroutines of the control plane: the main loop (pfcp_connection.go 113-139) and one heartbeat scheduler per
association (node_association.go 50-78), which meet on unbuffered channels. A state machine whose steps are the
atomic actions of the goroutines, in any interleaving.

Simplifications: a handler of the main loop is one step (schedulers share with it only `NextSequenceID`, which has its
own lock and is used by nothing else; it is kept with the scheduler here); `RefreshAssociations` (173-179) only sends
messages and is left out; a socket error is left out; a timer may expire at any moment after it was started (time is
not modelled); sending a heartbeat request always succeeds (SendHeartbeatRequest ignores failures, pfcp_hearbeat.go
42-53). `config.Conf` may be replaced at any moment (api/rest/config.go 22-41), restricted here to the fields that the
heartbeat code and the session handlers read; a replacement while a handler runs is taken to happen before or after it.
-/
namespace Eupf

/-- config.go 31, 33: the heartbeat parameters (the interval only delays and is left out) -/
structure HbCfg where
  retries : U32
  timeout : U32
deriving DecidableEq, Repr

/-- Where `ScheduleHeartbeat` (node_association.go 50-78) stands. `next` is `NextSequenceID`, `fails` is
`failedHeartbeats`. -/
inductive Sched
  /-- line 54-56, top of the loop -/
  | ready (next fails : U32)
  /-- line 59, in the `select`; the request sent has sequence number `next` -/
  | waiting (next fails : U32)
  /-- line 71, waiting for the next heartbeat to be due; `failedHeartbeats` is 0 -/
  | pausing (next : U32)
  /-- line 64, sending on `heartbeatFailedC` -/
  | failed
deriving DecidableEq, Repr

/-- The control plane. `sched` has the running schedulers; `main` is `none` when the main loop is at its `select`
(pfcp_connection.go 119) and `some (a, q)` when it is sending `q` on the heartbeat channel of peer `a`
(node_association.go 81). -/
structure Sys where
  node : Node
  cfg : HbCfg
  sched : GoMap Addr Sched
  main : Option (Addr × U32)

/-- Everything that can be observed of a step. -/
inductive Lab
  /-- the main loop takes a PFCP message that is not a heartbeat response -/
  | msg (e : Ev)
  /-- the main loop takes a heartbeat response -/
  | hbResp (a : Addr) (seq : U32) (rts : Option (Option Unit))
  /-- a heartbeat request is sent to `a` -/
  | sent (a : Addr) (seq : U32)
  /-- the timer of the outstanding heartbeat request expires -/
  | expired (a : Addr)
  /-- the same, and the scheduler gives up the peer ("association deleted" in the log) -/
  | gaveUp (a : Addr)
  /-- a heartbeat response reaches the scheduler of its peer -/
  | answered (a : Addr) (seq : U32)
  /-- the next heartbeat is due -/
  | due (a : Addr)
  /-- the association and its sessions are removed -/
  | dropped (a : Addr)
  /-- the configuration is replaced -/
  | config (c : HbCfg)
  /-- packets are processed -/
  | traffic

/-- the peer whose association a message may create -/
def Ev.setupAddr : Ev → Option Addr
  | .assocSetup a .. => some a
  | .assocSetupResp a .. => some a
  | _ => none

/-- pfcp_handlers.go 106-119, 245-258: a scheduler is started when the association is new and heartbeats are on;
node_association.go 25-36: its sequence counter starts at 1 -/
def startSched (c : HbCfg) (n n' : Node) (sched : GoMap Addr Sched) : Option Addr → GoMap Addr Sched
  | none => sched
  | some a =>
    if (n.assocs.get? a).isNone && (n'.assocs.get? a).isSome && c.timeout != 0 then sched.set a (.ready 1 0) else sched

/-- messages of the main loop's default branch other than heartbeat responses -/
def Ev.plain : Ev → Prop
  | .heartbeatResp .. => False
  | .peerLost .. => False
  | .setConfig .. => False
  | _ => True

/-- One step of one goroutine (two, when they meet on a channel). A step in which the process dies is no step. -/
inductive Sys.Step : Sys → Lab → Sys → Prop
  /-- pfcp_connection.go 124-136 with pfcp_handlers.go 17-46 -/
  | msg {s : Sys} {e : Ev} (hm : s.main = none) (hp : e.plain) (hc : (s.node.step e).2 ≠ .crash) :
      Step s (.msg e)
        { s with node := (s.node.step e).1, sched := startSched s.cfg s.node (s.node.step e).1 s.sched e.setupAddr }
  /-- pfcp_hearbeat.go 26-40: without association, or with an undecodable time stamp, nothing happens -/
  | hbIgnored {s : Sys} {a : Addr} {q : U32} {rts : Option Unit} (hm : s.main = none)
      (h : rts = none ∨ s.node.assocs.get? a = none) : Step s (.hbResp a q (some rts)) s
  /-- pfcp_hearbeat.go 36-38, node_association.go 80-82: the main loop starts sending on the channel -/
  | hbResp {s : Sys} {a : Addr} {q : U32} (hm : s.main = none) (h : (s.node.assocs.get? a).isSome) :
      Step s (.hbResp a q (some (some ()))) { s with main := some (a, q) }
  /-- node_association.go 55-59, 43-48 -/
  | sent {s : Sys} {a : Addr} {next fails : U32} (h : s.sched.get? a = some (.ready next fails)) :
      Step s (.sent a (next + 1)) { s with sched := s.sched.set a (.waiting (next + 1) fails) }
  /-- node_association.go 60-61 -/
  | expired {s : Sys} {a : Addr} {next fails : U32} (h : s.sched.get? a = some (.waiting next fails))
      (hf : ¬ s.cfg.retries ≤ fails + 1) :
      Step s (.expired a) { s with sched := s.sched.set a (.ready next (fails + 1)) }
  /-- node_association.go 60-64 -/
  | gaveUp {s : Sys} {a : Addr} {next fails : U32} (h : s.sched.get? a = some (.waiting next fails))
      (hf : s.cfg.retries ≤ fails + 1) :
      Step s (.gaveUp a) { s with sched := s.sched.set a .failed }
  /-- node_association.go 67-72, 81 -/
  | answered {s : Sys} {a : Addr} {q next fails : U32} (hm : s.main = some (a, q))
      (h : s.sched.get? a = some (.waiting next fails)) :
      Step s (.answered a q)
        { s with main := none, sched := s.sched.set a (if next = q then .pausing next else .ready next fails) }
  /-- node_association.go 71 -/
  | due {s : Sys} {a : Addr} {next : U32} (h : s.sched.get? a = some (.pausing next)) :
      Step s (.due a) { s with sched := s.sched.set a (.ready next 0) }
  /-- node_association.go 64-65 with pfcp_connection.go 122-123, 181-190 -/
  | dropped {s : Sys} {a : Addr} {ord : Orders} (hm : s.main = none) (h : s.sched.get? a = some .failed)
      (hc : (s.node.step (.peerLost a ord)).2 ≠ .crash) :
      Step s (.dropped a) { s with node := (s.node.step (.peerLost a ord)).1, sched := s.sched.erase a }
  /-- api/rest/config.go 32 -/
  | config {s : Sys} {c : HbCfg} {u : Bool} : Step s (.config c) { s with cfg := c, node := { s.node with ueip := u } }
  | traffic {s : Sys} {dp : BpfObjects} (h : TrafficEffect s.node.dp dp) :
      Step s .traffic { s with node := { s.node with dp := dp } }

/-- Executions; the labels newest first. -/
inductive Sys.Exec (s0 : Sys) : List Lab → Sys → Prop
  | nil : Exec s0 [] s0
  | step {tr : List Lab} {s s' : Sys} {l : Lab} : Exec s0 tr s → Step s l s' → Exec s0 (l :: tr) s'

/-- main.go 83-104: a freshly started node -/
def Sys.init (n : Node) (c : HbCfg) : Sys := ⟨n, c, GoMap.empty, none⟩

end Eupf
