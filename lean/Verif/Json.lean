import Verif.Rest
/-
The bodies of the REST answers that list sessions and associations: encoding/json on the records the handlers pass to
`gin.Context.IndentedJSON` (cmd/api/rest/pfcp_sessions.go 19-58, pfcp_associations.go 9-46).
Modelled: which Go values the encoder accepts, the names of the fields, the order of map keys, the JSON values. Not modelled: white
space, escaping of strings (the strings here have nothing to escape) and the text forms of IPv6 addresses, base64, peer addresses and Node
IDs, which are parameters (`Texts`).
-/
namespace Eupf

/-- a JSON value (RFC 8259); all numbers here are natural numbers -/
inductive Json
  | null
  | bool (b : Bool)
  | num (n : Nat)
  | str (s : String)
  | arr (l : List Json)
  | obj (l : List (String × Json))

/-- A Go value as encoding/json (go 1.22, encode.go) sees it by reflection: the exported fields of a struct in order, a map with the texts
of its keys, a slice (`nil`: nil slice or pointer; a pointer that is not nil is the value it points to), a channel. -/
inductive GoVal
  | num (n : Nat)
  | bool (b : Bool)
  | text (s : String)
  | nil
  | chan
  | slice (l : List GoVal)
  | struct (l : List (String × GoVal))
  | map (l : List (String × GoVal))

/-- map keys come out sorted (encode.go `mapEncoder.encode`) -/
def sortFields (l : List (String × Json)) : List (String × Json) := l.mergeSort fun a b => decide (a.1 ≤ b.1)

mutual
/-- `json.Marshal`: `none` is an error. A channel has no encoding (encode.go `unsupportedTypeEncoder`), and an error anywhere is an error
of the whole. -/
def GoVal.marshal : GoVal → Option Json
  | .num n => some (.num n)
  | .bool b => some (.bool b)
  | .text s => some (.str s)
  | .nil => some .null
  | .chan => none
  | .slice l => (marshalList l).map .arr
  | .struct l => (marshalFields l).map .obj
  | .map l => (marshalFields l).map fun f => .obj (sortFields f)
/-- the elements of a slice -/
def marshalList : List GoVal → Option (List Json)
  | [] => some []
  | v :: l => match v.marshal, marshalList l with
    | some j, some js => some (j :: js)
    | _, _ => none
/-- the fields of a struct or the entries of a map -/
def marshalFields : List (String × GoVal) → Option (List (String × Json))
  | [] => some []
  | (k, v) :: l => match v.marshal, marshalFields l with
    | some j, some js => some ((k, j) :: js)
    | _, _ => none
end

/-- Text forms that are not modelled: peer addresses (`net.UDPAddr.IP.String()`), the Node ID a peer gave, `net.IP.String()` of 16 octets,
base64 of an octet string. -/
structure Texts where
  addr : Addr → String
  nodeId : Addr → String
  ip6 : List U8 → String
  base64 : List U8 → String

/-- the decimal form of a number: `strconv.FormatUint(n, 10)`, also the text of an integer map key -/
def dec {w : Nat} (x : BitVec w) : String := Nat.repr x.toNat

/-- `net.IP.MarshalText`: nothing for nil, dotted decimal for 4 octets -/
def Texts.ip (tx : Texts) : List U8 → String
  | [] => ""
  | [a, b, c, d] => dec a ++ "." ++ dec b ++ "." ++ dec c ++ "." ++ dec d
  | l => tx.ip6 l

/-- the octets of an IPv4 address, first octet first -/
def octets4 (a : Ip4) : List U8 := [a.extractLsb' 24 8, a.extractLsb' 16 8, a.extractLsb' 8 8, a.extractLsb' 0 8]
/-- the octets of an IPv6 address -/
def octets6 (a : Ip6) : List U8 := (List.range 16).map fun i => a.extractLsb' (8 * (15 - i)) 8
/-- `binary.LittleEndian.PutUint32` -/
def leOctets (x : U32) : List U8 := [x.extractLsb' 0 8, x.extractLsb' 8 8, x.extractLsb' 16 8, x.extractLsb' 24 8]

/-- a number of Go -/
def gnum {w : Nat} (x : BitVec w) : GoVal := .num x.toNat

/-- cmd/ebpf/pdr.go 34-38 `IpWMask`: `Ip` is a `net.IP` (text), `Mask` a `net.IPMask`, a `[]byte` (base64, null when nil) -/
def IpWMask.go (tx : Texts) (a : IpWMask) : GoVal :=
  .struct [("Type", gnum a.type), ("Ip", .text (tx.ip a.ip)),
    ("Mask", match a.mask with | [] => .nil | l => .text (tx.base64 l))]
/-- cmd/ebpf/pdr.go 40-43 `PortRange` -/
def PortRange.go (r : PortRange) : GoVal := .struct [("LowerBound", gnum r.lo), ("UpperBound", gnum r.hi)]
/-- cmd/ebpf/pdr.go 26-32 `SdfFilter` -/
def SdfFilter.go (tx : Texts) (f : SdfFilter) : GoVal :=
  .struct [("Protocol", gnum f.proto), ("SrcAddress", f.src.go tx), ("SrcPortRange", f.srcPort.go), ("DstAddress", f.dst.go tx),
    ("DstPortRange", f.dstPort.go)]
/-- cmd/ebpf/pdr.go 17-24 `PdrInfo` -/
def PdrInfo.go (tx : Texts) (p : PdrInfo) : GoVal :=
  .struct [("OuterHeaderRemoval", gnum p.ohr), ("FarId", gnum p.farId), ("QerId", gnum p.qerId), ("Urr1Id", gnum p.urr1),
    ("Urr2Id", gnum p.urr2), ("SdfFilter", match p.sdf with | none => .nil | some f => f.go tx)]
/-- cmd/core/session.go 31-38 `SPDRInfo` -/
def SPdr.go (tx : Texts) (p : SPdr) : GoVal :=
  .struct [("PdrID", gnum p.pdrId), ("PdrInfo", p.info.go tx), ("Teid", gnum p.teid),
    ("Ipv4", .text (tx.ip ((p.ipv4.map octets4).getD []))), ("Ipv6", .text (tx.ip ((p.ipv6.map octets6).getD []))),
    ("Allocated", .bool p.allocated)]
/-- cmd/ebpf/pdr.go 161-172 `FarInfo.MarshalJSON`: a map, the address in the octet order of the table -/
def FarInfo.go (tx : Texts) (f : FarInfo) : GoVal :=
  .map [("action", gnum f.action), ("outer_header_creation", gnum f.ohc), ("teid", gnum f.teid),
    ("remote_ip", .text (tx.ip (leOctets f.remoteIP))), ("transport_level_marking", gnum f.tlm)]
/-- cmd/core/session.go 40-43 `SFarInfo` -/
def SFar.go (tx : Texts) (f : SFar) : GoVal := .struct [("FarInfo", f.info.go tx), ("GlobalId", gnum f.gid)]
/-- cmd/ebpf/pdr.go 194-202 `QerInfo` -/
def QerInfo.go (q : QerInfo) : GoVal :=
  .struct [("GateStatusUL", gnum q.gateUL), ("GateStatusDL", gnum q.gateDL), ("Qfi", gnum q.qfi), ("MaxBitrateUL", gnum q.mbrUL),
    ("MaxBitrateDL", gnum q.mbrDL), ("StartUL", gnum q.startUL), ("StartDL", gnum q.startDL)]
/-- cmd/core/session.go 45-48 `SQerInfo` -/
def SQer.go (q : SQer) : GoVal := .struct [("QerInfo", q.info.go), ("GlobalId", gnum q.gid)]
/-- cmd/core/session.go 50-54 `SUrrInfo`, cmd/ebpf/pdr.go 225-228 `UrrInfo` -/
def SUrr.go (u : SUrr) : GoVal :=
  .struct [("UrrInfo", .struct [("UplinkVolume", gnum u.info.ul), ("DownlinkVolume", gnum u.info.dl)]), ("GlobalId", gnum u.gid),
    ("ReportSeqNumber", gnum u.seqn)]

/-- a Go map with integer keys -/
def goMap {w : Nat} {V : Type} (f : V → GoVal) (m : GoMap (BitVec w) V) : GoVal := .map (m.entries.map fun e => (dec e.1, f e.2))

/-- cmd/core/session.go 9-16 `Session` -/
def Session.go (tx : Texts) (s : Session) : GoVal :=
  .struct [("LocalSEID", gnum s.localSEID), ("RemoteSEID", gnum s.remoteSEID), ("PDRs", goMap (SPdr.go tx) s.pdrs),
    ("FARs", goMap (SFar.go tx) s.fars), ("QERs", goMap SQer.go s.qers), ("URRs", goMap SUrr.go s.urrs)]

/-- cmd/core/node_association.go 13-23 `NodeAssociation`. The embedded `sync.Mutex` has no exported field. -/
def Assoc.go (tx : Texts) (addr : Addr) (active : Bool) (a : Assoc) : GoVal :=
  .struct [("ID", .text (tx.nodeId addr)), ("Addr", .text (tx.addr addr)), ("NextSessionID", gnum a.nextSessionID),
    ("NextSequenceID", gnum a.nextSequenceID), ("Sessions", goMap (Session.go tx) a.sessions), ("HeartbeatChannel", .chan),
    ("HeartbeatsActive", .bool active)]

/-- A list that was built with `append` from a nil slice is nil when nothing was appended (cmd/api/rest/pfcp_sessions.go 20, 51). -/
def goAppended (l : List GoVal) : GoVal := match l with | [] => .nil | _ => .slice l

/-- An answer of the REST interface: the status code and the body; `none` is an empty body. gin (v1.9.1) context.go `Render` sets the
status before it encodes and writes nothing when `json.MarshalIndent` fails (render/json.go). -/
structure RestAnswer where
  code : Nat
  body : Option Json

/-- `gin.Context.IndentedJSON` -/
def indentedJSON (code : Nat) (v : GoVal) : RestAnswer := ⟨code, v.marshal⟩

/-- pfcp_sessions.go 19-27: GET /pfcp_sessions without parameters -/
def Node.getSessions (n : Node) (tx : Texts) (o : QueryOrder) : RestAnswer :=
  indentedJSON 200 (goAppended ((n.getAllSessions o).map (Session.go tx)))

/-- pfcp_sessions.go 19-49: GET /pfcp_sessions with parameters: the status code and the documents written to the body one after the other.
The function goes on after it answered 400 (lines 34-36, 44-46); gin keeps the first status code once a body was written. -/
def Node.querySessions (n : Node) (tx : Texts) (o1 o2 : QueryOrder) (q : SessionQuery) : Nat × List (Option Json) :=
  let r := n.listSessions o1 o2 q
  (r.1, (if q.ip = some none then [some (.str "Failed to parse IP")] else []) ++
    (if q.teid = some none then [some (.str "Failed to parse TEID")] else []) ++
    [(goAppended (r.2.map (Session.go tx))).marshal])

/-- pfcp_associations.go 23-33: GET /pfcp_associations -/
def Node.getAssociations (n : Node) (tx : Texts) : RestAnswer :=
  indentedJSON 200 (.map (n.assocs.entries.map fun e =>
    (tx.addr e.1, .struct [("ID", .text (tx.nodeId e.1)), ("Addr", .text (tx.addr e.1)), ("NextSessionID", gnum e.2.nextSessionID)])))

/-- pfcp_associations.go 35-46: GET /pfcp_associations/full; `active`: `HeartbeatsActive` of a peer -/
def Node.getAssociationsFull (n : Node) (tx : Texts) (active : Addr → Bool) : RestAnswer :=
  indentedJSON 200 (.map (n.assocs.entries.map fun e => (tx.addr e.1, Assoc.go tx e.1 (active e.1) e.2)))

end Eupf
