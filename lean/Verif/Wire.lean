import Verif.Heartbeat
/-
The PFCP endpoint at the level of datagrams: the message counters (cmd/core/metrics.go 13-28), the dispatcher
(cmd/core/pfcp_handlers.go 17-46), the periodic association setup (cmd/core/pfcp_connection.go 113-139, 173-179,
247-269) and the addresses requests are sent to (pfcp_connection.go 258, pfcp_hearbeat.go 45).
Simplifications: `message.Parse` of go-pfcp decides what is undecodable (a parameter of the turn); a prometheus counter
is a natural number; writing to the socket succeeds.
-/
namespace Eupf

/-- `MessageTypeName` of go-pfcp, for the types the UPF handles or sends -/
inductive MsgName
  | heartbeatRequest
  | heartbeatResponse
  | associationSetupRequest
  | associationSetupResponse
  | associationUpdateRequest
  | associationUpdateResponse
  | sessionEstablishmentRequest
  | sessionEstablishmentResponse
  | sessionModificationRequest
  | sessionModificationResponse
  | sessionDeletionRequest
  | sessionDeletionResponse
  | other (type : U8)
deriving DecidableEq, Repr

/-- the name of the message an event is about; pfcp_connection.go 24-33 -/
def Ev.msgName : Ev → Option MsgName
  | .assocSetup .. => some .associationSetupRequest
  | .assocSetupResp .. => some .associationSetupResponse
  | .assocUpdate .. => some .associationUpdateRequest
  | .heartbeatReq .. => some .heartbeatRequest
  | .heartbeatResp .. => some .heartbeatResponse
  | .establish .. => some .sessionEstablishmentRequest
  | .modify .. => some .sessionModificationRequest
  | .delete .. => some .sessionDeletionRequest
  | .peerLost .. => none
  | .setConfig .. => none

/-- the name of a response (the constructors used in the handlers) -/
def MsgType.respName : MsgType → MsgName
  | .heartbeat => .heartbeatResponse
  | .assocSetup => .associationSetupResponse
  | .assocUpdate => .associationUpdateResponse
  | .establishment => .sessionEstablishmentResponse
  | .modification => .sessionModificationResponse
  | .deletion => .sessionDeletionResponse

/-- cmd/core/metrics.go 13-28: `upf_pfcp_rx`, `upf_pfcp_tx`, `upf_pfcp_rx_errors` -/
structure Metrics where
  rx : MsgName → Nat := fun _ => 0
  tx : MsgName → Nat := fun _ => 0
  rxErrors : MsgName → String → Nat := fun _ _ => 0

/-- cmd/core/pfcp_session_handlers.go 523-560 `causeToString`, values of the ie package -/
def causeToString (c : U8) : String :=
  if c = 1 then "RequestAccepted"
  else if c = 64 then "RequestRejected"
  else if c = 65 then "SessionContextNotFound"
  else if c = 66 then "MandatoryIEMissing"
  else if c = 67 then "ConditionalIEMissing"
  else if c = 68 then "InvalidLength"
  else if c = 69 then "MandatoryIEIncorrect"
  else if c = 70 then "InvalidForwardingPolicy"
  else if c = 71 then "InvalidFTEIDAllocationOption"
  else if c = 72 then "NoEstablishedPFCPAssociation"
  else if c = 73 then "RuleCreationModificationFailure"
  else if c = 74 then "PFCPEntityInCongestion"
  else if c = 75 then "NoResourcesAvailable"
  else if c = 76 then "ServiceNotSupported"
  else if c = 77 then "SystemFailure"
  else if c = 78 then "RedirectionRequested"
  else "UnknownCause"

/-- the value of `CauseConditionalIEMissing` -/
def causeConditionalIEMissing : U8 := 67

/-- pfcp_session_handlers.go 26, 33, 124, 143: the increment of `upf_pfcp_rx_errors` in
`HandlePfcpSessionEstablishmentRequest` -/
def Node.establishErr (n : Node) (addr : Addr) (r : EstReq) : Option U8 :=
  match validateRequest r.nodeId r.cpFseid with
  | none => some causeMandatoryIEMissing
  | some remote =>
    match n.assocs.get? addr with
    | none => some causeNoAssociation
    | some a =>
      match (establishBody n.ueip r (n.hs (Session.new a.newLocalSEID.2 remote))).2 with
      | .ok () => some causeAccepted
      | .err => some causeRuleFailure
      | .panic => none

/-- pfcp_session_handlers.go 227, 235, 464, 482: the same in `HandlePfcpSessionModificationRequest` -/
def Node.modifyErr (n : Node) (addr : Addr) (r : ModReq) (ord : Orders) : Option U8 :=
  match n.assocs.get? addr with
  | none => some causeNoAssociation
  | some a => match a.sessions.get? r.seid with
    | none => some causeSessionNotFound
    | some sess =>
      match (modifyBody n.ueip ord r (n.hs (sess.setRemote r.cpFseid))).2 with
      | .ok () => some causeAccepted
      | .err => some causeRuleFailure
      | .panic => none

/-- pfcp_session_handlers.go 154, 162, 170, 176, 182, 214: the same in `HandlePfcpSessionDeletionRequest` -/
def Node.deleteErr (n : Node) (addr : Addr) (r : DelReq) (ord : Orders) : Option U8 :=
  match n.assocs.get? addr with
  | none => some causeNoAssociation
  | some a => match a.sessions.get? r.seid with
    | none => some causeSessionNotFound
    | some sess =>
      match (deleteBody ord sess (n.hs sess)).2 with
      | .ok () => some causeAccepted
      | .err => some causeRuleFailure
      | .panic => none

/-- pfcp_handlers.go 61, 72, 82, 91, 131: the same in `HandlePfcpAssociationSetupRequest` -/
def assocSetupErr (nodeId rts : Option (Option Unit)) : Option U8 :=
  match nodeId with
  | none => some causeMandatoryIEMissing
  | some none => some causeMandatoryIEIncorrect
  | some (some _) => match rts with
    | none => some causeMandatoryIEMissing
    | some none => some causeMandatoryIEIncorrect
    | some (some _) => some causeAccepted

/-- pfcp_handlers.go 142, 153, 164, 178: the same in `HandlePfcpAssociationUpdateRequest` -/
def Node.assocUpdateErr (n : Node) (addr : Addr) (nodeId : Option (Option Unit)) : Option U8 :=
  match nodeId with
  | none => some causeMandatoryIEMissing
  | some none => some causeMandatoryIEIncorrect
  | some (some _) => match n.assocs.get? addr with
    | none => some causeNoAssociation
    | some _ => some causeAccepted

/-- pfcp_handlers.go 200, 206, 213, 219, 224, 231, 237: the same in `HandlePfcpAssociationSetupResponse`; an accepted
response is not counted -/
def assocSetupRespErr (nodeId : Option (Option Unit)) (cause : Option (Option U8)) (cpFeatures : Option (Option Unit)) :
    Option U8 :=
  match nodeId with
  | none => some causeMandatoryIEMissing
  | some none => some causeMandatoryIEIncorrect
  | some (some _) => match cause with
    | none => some causeMandatoryIEMissing
    | some none => some causeMandatoryIEIncorrect
    | some (some c) =>
      if c ≠ causeAccepted then some c
      else match cpFeatures with
        | none => some causeConditionalIEMissing
        | some none => some causeConditionalIEMissing
        | some (some _) => none

/-- the increment of `upf_pfcp_rx_errors` by the handler of a message -/
def Node.errOf (n : Node) : Ev → Option U8
  | .assocSetup _ _ i t => assocSetupErr i t
  | .assocSetupResp _ i c f => assocSetupRespErr i c f
  | .assocUpdate a _ i => n.assocUpdateErr a i
  | .heartbeatReq .. => none
  | .heartbeatResp .. => none
  | .establish a r => n.establishErr a r
  | .modify a r o => n.modifyErr a r o
  | .delete a r o => n.deleteErr a r o
  | .peerLost .. => none
  | .setConfig .. => none

def Metrics.incRx (m : Metrics) (k : MsgName) : Metrics := { m with rx := fun x => if x = k then m.rx x + 1 else m.rx x }
def Metrics.incTx (m : Metrics) (k : MsgName) : Metrics := { m with tx := fun x => if x = k then m.tx x + 1 else m.tx x }
def Metrics.incErr (m : Metrics) (k : MsgName) (c : U8) : Metrics :=
  { m with rxErrors := fun x l => if x = k ∧ l = causeToString c then m.rxErrors x l + 1 else m.rxErrors x l }

/-- What happens at the PFCP endpoint. -/
inductive Turn
  /-- a datagram that go-pfcp cannot decode -/
  | undecodable
  /-- a message of a type without handler -/
  | unexpected (type : U8)
  /-- a message with a handler, or another event of the node (`Ev.msgName = none`) -/
  | event (e : Ev)
  /-- the association timer ticks (pfcp_connection.go 120-121) -/
  | tick
  /-- a scheduler sends a heartbeat request (node_association.go 55-56) -/
  | probe (addr : Addr) (seq : U32)

/-- A message that leaves the UPF: destination, name, sequence number, features. -/
structure Sent where
  dst : Addr
  name : MsgName
  seq : U32
  features : Option (List U8) := none
deriving DecidableEq, Repr

/-- Go's `net.SplitHostPort` (net/ipsock.go of the standard library), which `net.ResolveUDPAddr` applies first -/
def splitHostPort (s : List Char) : Option (List Char × List Char) :=
  match s.reverse.findIdx? (· = ':') with
  | none => none
  | some back =>
    let i := s.length - 1 - back
    if s.head? = some '[' then
      match s.findIdx? (· = ']') with
      | none => none
      | some e =>
        if e + 1 ≠ i then none
        else if '[' ∈ s.drop 1 then none
        else if ']' ∈ s.drop (e + 1) then none
        else some ((s.take e).drop 1, s.drop (i + 1))
    else
      if ':' ∈ s.take i then none
      else if '[' ∈ s then none
      else if ']' ∈ s then none
      else some (s.take i, s.drop (i + 1))

/-- pfcp_connection.go 258, pfcp_hearbeat.go 45: where a request to the peer with this address text goes;
`lookup` resolves host names and IP texts -/
def requestDst (lookup : List Char → Option Ip4) (addr : List Char) : Option Ip4 :=
  (splitHostPort (addr ++ [':', '8', '8', '0', '5'])).bind (fun hp => lookup hp.1)

/-- The endpoint: the node, its counters, the configured remote nodes (main.go 98-102), whether the address of a peer
resolves, and everything sent, newest first (a ghost). -/
structure Endpoint where
  node : Node
  m : Metrics := {}
  remotes : List Addr := []
  resolves : Addr → Bool := fun _ => true
  sent : List Sent := []
  alive : Bool := true

/-- the peer of an event -/
def Ev.from : Ev → Addr
  | .assocSetup a .. => a
  | .assocSetupResp a .. => a
  | .assocUpdate a .. => a
  | .heartbeatReq a .. => a
  | .heartbeatResp a .. => a
  | .establish a _ => a
  | .modify a _ _ => a
  | .delete a _ _ => a
  | .peerLost a _ => a
  | .setConfig _ => 0

/-- pfcp_connection.go 173-179 `RefreshAssociations` with 247-269 `sendAssociationSetupRequest` -/
def Endpoint.refresh (w : Endpoint) : List Sent :=
  ((w.remotes.filter (fun a => (w.node.assocs.get? a).isNone)).filter w.resolves).map
    (fun a => ⟨a, .associationSetupRequest, 0, some w.node.cfg.features⟩)

/-- pfcp_handlers.go 24: a decodable message is counted -/
def countRx (m : Metrics) : Option MsgName → Metrics
  | none => m
  | some k => m.incRx k

/-- the error counter of the handler -/
def countErr (m : Metrics) : Option MsgName → Option U8 → Metrics
  | some k, some c => m.incErr k c
  | _, _ => m

/-- One turn; pfcp_handlers.go 17-46 `Handle` and pfcp_connection.go 113-139 `Run`. -/
def Endpoint.turn (w : Endpoint) : Turn → Endpoint
  | .undecodable => w
  | .unexpected t => { w with m := w.m.incRx (.other t) }
  | .event e =>
    let m := countErr (countRx w.m e.msgName) e.msgName (w.node.errOf e)
    match w.node.step e with
    | (n, .crash) => { w with node := n, m := m, alive := false }
    | (n, .silent) => { w with node := n, m := m }
    | (n, .reply r) =>
      { w with node := n, m := m.incTx r.type.respName,
               sent := ⟨e.from, r.type.respName, r.seq, r.features⟩ :: w.sent }
  | .tick => { w with sent := w.refresh.reverse ++ w.sent }
  | .probe a q => if w.resolves a then { w with sent := ⟨a, .heartbeatRequest, q, none⟩ :: w.sent } else w

/-- Executions of the endpoint: the turns with the outcome of the events, newest first. A dead process does nothing. -/
inductive Endpoint.Run (w0 : Endpoint) : List (Turn × Outcome) → Endpoint → Prop
  | init : Run w0 [] w0
  | turn {h : List (Turn × Outcome)} {w : Endpoint} (t : Turn) (ha : w.alive = true) : Run w0 h w →
      Run w0 ((t, match t with | .event e => (w.node.step e).2 | _ => .silent) :: h) (w.turn t)
  | traffic {h : List (Turn × Outcome)} {w : Endpoint} {dp : BpfObjects} : Run w0 h w → TrafficEffect w.node.dp dp →
      Run w0 h { w with node := { w.node with dp := dp } }

end Eupf
