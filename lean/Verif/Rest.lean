import Verif.Node
/-
The REST interface: session queries and direct access to the FAR and QER tables.
cmd/api/rest/pfcp_sessions.go, far_map.go, qer_map.go, cmd/api/rest/pfcp_associations.go.
Trusted: gin (routing, JSON), `net.ParseIP`, `strconv.Atoi` (their results are parameters here). The REST goroutine
reads the associations without lock; a query is taken to see one state of the node.
-/
namespace Eupf

/-- The iteration orders of one pass over all associations, their sessions and their PDRs (Go maps). -/
structure QueryOrder where
  assocs : Shuffle (Addr × Assoc) := default
  sessions : Addr → Shuffle (U64 × Session) := fun _ => default
  pdrs : Addr → U64 → Shuffle (U32 × SPdr) := fun _ _ => default

instance : Inhabited QueryOrder := ⟨{}⟩

/-- the sessions in the order in which the two outer loops (pfcp_sessions.go 52-53, 61-62, 74-75) meet them -/
def Node.visit (n : Node) (o : QueryOrder) : List (Addr × U64 × Session) :=
  (o.assocs.run n.assocs.entries).flatMap fun a =>
    ((o.sessions a.1).run a.2.sessions.entries).map fun s => (a.1, s.1, s.2)

/-- pfcp_sessions.go 51-58 `GetAllSessions` -/
def Node.getAllSessions (n : Node) (o : QueryOrder) : List Session := (n.visit o).map fun x => x.2.2

/-- `net.IP.Equal` of a PDR's IPv4 address (nil: none) with a parsed address, which has 16 octets: an IPv4 address is
`::ffff:a.b.c.d` there -/
def ipEqual (a : Option Ip4) (q : Ip6) : Bool :=
  match a with
  | none => false
  | some x => (0xffff : BitVec 96) ++ x == q

/-- pfcp_sessions.go 60-71 `FilterSessionsByIP` -/
def Node.filterSessionsByIP (n : Node) (o : QueryOrder) (ip : Ip6) : Option Session :=
  ((n.visit o).find? fun x => ((o.pdrs x.1 x.2.1).run x.2.2.pdrs.entries).any fun p => ipEqual p.2.ipv4 ip).map fun x => x.2.2

/-- pfcp_sessions.go 73-84 `FilterSessionsByTeid` -/
def Node.filterSessionsByTeid (n : Node) (o : QueryOrder) (teid : U32) : Option Session :=
  ((n.visit o).find? fun x => ((o.pdrs x.1 x.2.1).run x.2.2.pdrs.entries).any fun p => p.2.teid == teid).map fun x => x.2.2

/-- A query parameter: absent (or empty), unreadable, or a value. `teid` is what `strconv.Atoi` returns. -/
structure SessionQuery where
  ip : Option (Option Ip6) := none
  teid : Option (Option Int) := none

/-- pfcp_sessions.go 19-49 `listPfcpSessionsFiltered`: the status code and the sessions in the (last) body. An unreadable
parameter sets the code to 400 and the function goes on. -/
def Node.listSessions (n : Node) (o1 o2 : QueryOrder) (q : SessionQuery) : Nat × List Session :=
  if q.ip.isNone && q.teid.isNone then (200, n.getAllSessions o1)
  else
    let byIp := match q.ip with
      | some (some ip) => (n.filterSessionsByIP o1 ip).toList
      | _ => []
    let byTeid := match q.teid with
      | some (some t) => (n.filterSessionsByTeid o2 (BitVec.ofInt 32 t)).toList
      | _ => []
    (if q.ip = some none ∨ q.teid = some none then 400 else 200, byIp ++ byTeid)

/-! ### tables -/

/-- far_map.go 13-20 `FarMapElement` -/
structure FarElem where
  id : U32
  action : U8
  ohc : U8
  teid : U32
  remoteIP : U32
  tlm : U16
deriving DecidableEq, Repr

/-- cmd/ebpf/utils.go 63-70 `QerMapElement` -/
structure QerElem where
  id : U32
  gateUL : U8
  gateDL : U8
  qfi : U8
  mbrUL : U32
  mbrDL : U32
deriving DecidableEq, Repr

/-- far_map.go 22-45 `getFarValue`; `id` is what `strconv.Atoi` returns -/
def BpfObjects.restGetFar (b : BpfObjects) (id : Int) : Option FarElem :=
  (b.far.lookup (BitVec.ofInt 32 id)).map fun v =>
    ⟨BitVec.ofInt 32 id, v.action, v.ohc, v.teid, v.remoteIP, v.tlm⟩

/-- far_map.go 47-70 `setFarValue`: the tables and whether it answered 201 -/
def BpfObjects.restSetFar (b : BpfObjects) (e : FarElem) : BpfObjects × Bool :=
  match b.far.update e.id ⟨e.action, e.ohc, e.teid, e.remoteIP, e.tlm⟩ with
  | some f => ({ b with far := f }, true)
  | none => (b, false)

/-- qer_map.go 36-59 `getQerValue` -/
def BpfObjects.restGetQer (b : BpfObjects) (id : Int) : Option QerElem :=
  (b.qer.lookup (BitVec.ofInt 32 id)).map fun v =>
    ⟨BitVec.ofInt 32 id, v.gateUL, v.gateDL, v.qfi, v.mbrUL, v.mbrDL⟩

/-- qer_map.go 61-86 `setQerValue`: also resets both rate limiting timers -/
def BpfObjects.restSetQer (b : BpfObjects) (e : QerElem) : BpfObjects × Bool :=
  match b.qer.update e.id ⟨e.gateUL, e.gateDL, e.qfi, e.mbrUL, e.mbrDL, 0, 0⟩ with
  | some f => ({ b with qer := f }, true)
  | none => (b, false)

/-- pfcp_associations.go 23-33 `listPfcpAssociations`: peers with their SEID counters -/
def Node.listAssociations (n : Node) (o : Shuffle (Addr × Assoc)) : List (Addr × U64) :=
  (o.run n.assocs.entries).map fun a => (a.1, a.2.nextSessionID)

end Eupf
