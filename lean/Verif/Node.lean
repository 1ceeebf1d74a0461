import Verif.Handlers
/-
The UPF's PFCP node: associations, message dispatch, responses.
cmd/core/pfcp_session_handlers.go, pfcp_handlers.go, pfcp_hearbeat.go, pfcp_connection.go,
node_association.go. The main loop (pfcp_connection.go 113-139) handles one event at a time, so one event
is one step.
Not modelled here: logging, metrics counters, time stamps, goroutines (see `Verif/Heartbeat.lean`), sockets
(every response is taken to be sent).
-/
namespace Eupf

/-- A peer, identified by the text of its IP address (pfcp_handlers.go 28); any injective coding. -/
abbrev Addr := Nat

/-- cmd/core/node_association.go 13-23 `NodeAssociation` -/
structure Assoc where
  nextSessionID : U64
  nextSequenceID : U32
  sessions : GoMap U64 Session

/-- cmd/core/node_association.go 25-36 `NewNodeAssociation` -/
def Assoc.new : Assoc := ⟨1, 1, GoMap.empty⟩

/-- Configuration read when the node starts (pfcp_connection.go 59-107). -/
structure NodeCfg where
  featFTUP : Bool
  featUEIP : Bool
  n3 : Ip4
deriving DecidableEq

/-- cmd/core/pfcp_connection.go 35-50 `PfcpConnection`, with the tables behind `mapOperations`. `ueip` is
`config.Conf.FeatureUEIP`, which the handlers read on every request (pdr_creation_context.go 142) and the REST interface
may replace at any moment. -/
structure Node where
  cfg : NodeCfg
  assocs : GoMap Addr Assoc
  rm : Option ResourceManager
  dp : BpfObjects
  ueip : Bool

inductive MsgType
  | heartbeat
  | assocSetup
  | assocUpdate
  | establishment
  | modification
  | deletion
deriving DecidableEq, Repr

/-- A response message. `cause` is 0 for heartbeat responses, which have no Cause IE. -/
structure Resp where
  type : MsgType
  seid : U64 := 0
  seq : U32
  cause : U8
  fseid : Option U64 := none
  created : List CreatedPdr := []
  reports : List UsageReport := []
  features : Option (List U8) := none
deriving DecidableEq, Repr

/-- What the peer observes: a response, nothing, or the process dies. -/
inductive Outcome
  | reply (r : Resp)
  | silent
  | crash
deriving DecidableEq, Repr

-- 3GPP TS 29.244 cause values (go-pfcp ie package)
def causeAccepted : U8 := 1
def causeSessionNotFound : U8 := 65
def causeMandatoryIEMissing : U8 := 66
def causeMandatoryIEIncorrect : U8 := 69
def causeNoAssociation : U8 := 72
def causeRuleFailure : U8 := 73

/-- pfcp_session_handlers.go 498-514 `validateRequest`: the remote SEID -/
def validateRequest (nodeId : Option (Option Unit)) (cpFseid : Option (Option U64)) : Option U64 :=
  match nodeId, cpFseid with
  | some (some _), some (some seid) => some seid
  | _, _ => none

/-- node_association.go 38-41 `NewLocalSEID` -/
def Assoc.newLocalSEID (a : Assoc) : Assoc × U64 :=
  ({ a with nextSessionID := a.nextSessionID + 1 }, a.nextSessionID + 1)

/-- initial handler state -/
def Node.hs (n : Node) (s : Session) : HS := ⟨s, GoMap.empty, n.rm, n.dp, [], []⟩

/-- pfcp_session_handlers.go 20-146 `HandlePfcpSessionEstablishmentRequest` -/
def Node.establish (n : Node) (addr : Addr) (r : EstReq) : Node × Outcome :=
  match validateRequest r.nodeId r.cpFseid with
  | none => (n, .reply { type := .establishment, seq := r.seq, cause := causeMandatoryIEMissing })
  | some remote =>
    match n.assocs.get? addr with
    | none => (n, .reply { type := .establishment, seq := r.seq, cause := causeNoAssociation })
    | some a =>
      let (a, localSEID) := a.newLocalSEID
      let x := establishBody n.ueip r (n.hs (Session.new localSEID remote))
      let hs := x.1
      match x.2 with
      | .ok () =>
        ({ n with rm := hs.rm, dp := hs.dp,
                  assocs := n.assocs.set addr { a with sessions := a.sessions.set localSEID hs.sess } },
         .reply { type := .establishment, seid := remote, seq := r.seq, cause := causeAccepted,
                  fseid := some localSEID, created := createdIEs n.cfg.n3 hs.created })
      | .err =>
        ({ n with rm := hs.rm, dp := hs.dp, assocs := n.assocs.set addr a },
         .reply { type := .establishment, seid := remote, seq := r.seq, cause := causeRuleFailure })
      | .panic => ({ n with rm := hs.rm, dp := hs.dp, assocs := n.assocs.set addr a }, .crash)

/-- pfcp_session_handlers.go 241-249 -/
def Session.setRemote (s : Session) : Option (Option U64) → Session
  | some (some r) => { s with remoteSEID := r }
  | _ => s

/-- pfcp_session_handlers.go 219-484 `HandlePfcpSessionModificationRequest` -/
def Node.modify (n : Node) (addr : Addr) (r : ModReq) (ord : Orders) : Node × Outcome :=
  match n.assocs.get? addr with
  | none =>
    (n, .reply { type := .modification, seid := r.seid, seq := r.seq, cause := causeNoAssociation })
  | some a => match a.sessions.get? r.seid with
    | none => (n, .reply { type := .modification, seq := r.seq, cause := causeSessionNotFound })
    | some sess =>
      let x := modifyBody n.ueip ord r (n.hs (sess.setRemote r.cpFseid))
      let hs := x.1
      let n' := { n with rm := hs.rm, dp := hs.dp,
                         assocs := n.assocs.set addr { a with sessions := a.sessions.set r.seid hs.sess } }
      match x.2 with
      | .ok () =>
        (n', .reply { type := .modification, seid := hs.sess.remoteSEID, seq := r.seq, cause := causeAccepted,
                      created := createdIEs n.cfg.n3 hs.created, reports := hs.reports })
      | .err =>
        (n', .reply { type := .modification, seid := hs.sess.remoteSEID, seq := r.seq,
                      cause := causeRuleFailure })
      | .panic => (n', .crash)

/-- pfcp_connection.go 218-230 `ReleaseResources` -/
def releaseResources (ord : Orders) (seid : U64) : Option ResourceManager → Option ResourceManager
  | none => none
  | some r => some { ipam := r.ipam.release seid, fteidm := r.fteidm.release ord.teids seid }

/-- pfcp_session_handlers.go 148-217 `HandlePfcpSessionDeletionRequest`. A failing loop returns a response
*and* an error, in which case `Handle` (pfcp_handlers.go 29-33) sends nothing. -/
def Node.delete (n : Node) (addr : Addr) (r : DelReq) (ord : Orders) : Node × Outcome :=
  match n.assocs.get? addr with
  | none => (n, .reply { type := .deletion, seq := r.seq, cause := causeNoAssociation })
  | some a => match a.sessions.get? r.seid with
    | none => (n, .reply { type := .deletion, seq := r.seq, cause := causeSessionNotFound })
    | some sess =>
      let x := deleteBody ord sess (n.hs sess)
      let hs := x.1
      match x.2 with
      | .ok () =>
        ({ n with rm := releaseResources ord r.seid hs.rm, dp := hs.dp,
                  assocs := n.assocs.set addr { a with sessions := a.sessions.erase r.seid } },
         .reply { type := .deletion, seid := sess.remoteSEID, seq := r.seq, cause := causeAccepted,
                  reports := hs.reports })
      | .err => ({ n with rm := hs.rm, dp := hs.dp }, .silent)
      | .panic => ({ n with rm := hs.rm, dp := hs.dp }, .crash)

/-- pfcp_connection.go 84-94, pfcp_handlers.go 48-51: advertised UP function features -/
def NodeCfg.features (c : NodeCfg) : List U8 :=
  [if c.featFTUP then 0x10 else 0, 0x01, if c.featUEIP then 0x04 else 0]

/-- pfcp_handlers.go 106-120, 245-259: create the association unless it exists -/
def Node.addAssoc (n : Node) (addr : Addr) : Node :=
  match n.assocs.get? addr with
  | some _ => n
  | none => { n with assocs := n.assocs.set addr Assoc.new }

/-- pfcp_handlers.go 54-133 `HandlePfcpAssociationSetupRequest` -/
def Node.assocSetup (n : Node) (addr : Addr) (seq : U32) (nodeId rts : Option (Option Unit)) :
    Node × Outcome :=
  match nodeId with
  | none => (n, .reply { type := .assocSetup, seq := seq, cause := causeMandatoryIEMissing })
  | some none => (n, .reply { type := .assocSetup, seq := seq, cause := causeMandatoryIEIncorrect })
  | some (some _) => match rts with
    | none => (n, .reply { type := .assocSetup, seq := seq, cause := causeMandatoryIEMissing })
    | some none => (n, .reply { type := .assocSetup, seq := seq, cause := causeMandatoryIEIncorrect })
    | some (some _) =>
      (n.addAssoc addr,
       .reply { type := .assocSetup, seq := seq, cause := causeAccepted, features := some n.cfg.features })

/-- pfcp_handlers.go 193-262 `HandlePfcpAssociationSetupResponse`; no message is sent in any case -/
def Node.assocSetupResp (n : Node) (addr : Addr) (nodeId : Option (Option Unit)) (cause : Option (Option U8))
    (cpFeatures : Option (Option Unit)) : Node × Outcome :=
  match nodeId, cause, cpFeatures with
  | some (some _), some (some c), some (some _) =>
    if c = causeAccepted then (n.addAssoc addr, .silent) else (n, .silent)
  | _, _, _ => (n, .silent)

/-- pfcp_handlers.go 135-180 `HandlePfcpAssociationUpdateRequest` -/
def Node.assocUpdate (n : Node) (addr : Addr) (seq : U32) (nodeId : Option (Option Unit)) : Node × Outcome :=
  match nodeId with
  | none => (n, .reply { type := .assocUpdate, seq := seq, cause := causeMandatoryIEMissing })
  | some none => (n, .reply { type := .assocUpdate, seq := seq, cause := causeMandatoryIEIncorrect })
  | some (some _) => match n.assocs.get? addr with
    | none => (n, .reply { type := .assocUpdate, seq := seq, cause := causeNoAssociation })
    | some _ => (n, .reply { type := .assocUpdate, seq := seq, cause := causeAccepted })

/-- pfcp_hearbeat.go 11-24 `HandlePfcpHeartbeatRequest`; the missing IE is a nil dereference -/
def Node.heartbeatReq (n : Node) (seq : U32) (rts : Option (Option Unit)) : Node × Outcome :=
  match rts with
  | none => (n, .crash)
  | some none => (n, .silent)
  | some (some _) => (n, .reply { type := .heartbeat, seq := seq, cause := 0 })

/-- pfcp_hearbeat.go 26-40 `HandlePfcpHeartbeatResponse` (the channel send is modelled in
`Verif/Heartbeat.lean`) -/
def Node.heartbeatResp (n : Node) (rts : Option (Option Unit)) : Node × Outcome :=
  match rts with
  | none => (n, .crash)
  | _ => (n, .silent)

/-- pfcp_connection.go 181-190 `DeleteAssociation`: sessions one after another; stops at a panic -/
def dropSessions (ord : Orders) : List (U64 × Session) → Option ResourceManager → BpfObjects →
    Option ResourceManager × BpfObjects × Bool
  | [], rm, dp => (rm, dp, true)
  | (_, sess) :: l, rm, dp =>
    let x := deleteSessionBody ord sess ⟨sess, GoMap.empty, rm, dp, [], []⟩
    match x.2 with
    | .panic => (x.1.rm, x.1.dp, false)
    | _ => dropSessions ord l x.1.rm x.1.dp

/-- pfcp_connection.go 181-190 `DeleteAssociation`; a missing association is a nil dereference -/
def Node.deleteAssociation (n : Node) (addr : Addr) (ord : Orders) : Node × Outcome :=
  match n.assocs.get? addr with
  | none => (n, .crash)
  | some a =>
    match dropSessions ord (ord.sessions.run a.sessions.entries) n.rm n.dp with
    | (rm, dp, true) => ({ n with rm := rm, dp := dp, assocs := n.assocs.erase addr }, .silent)
    | (rm, dp, false) => ({ n with rm := rm, dp := dp }, .crash)

/-- pfcp_connection.go 206-212 `GetSessionCount` -/
def Node.sessionCount (n : Node) : Nat := (n.assocs.values.map (fun a => a.sessions.size)).sum

/-- What packet processing may do to the tables (proved of the XDP program in C50): rate limiting timers and
volume counters only. -/
structure TrafficEffect (b b' : BpfObjects) : Prop where
  pdrUl : b'.pdrUl = b.pdrUl
  pdrDl4 : b'.pdrDl4 = b.pdrDl4
  pdrDl6 : b'.pdrDl6 = b.pdrDl6
  far : b'.far = b.far
  qerSize : b'.qer.size = b.qer.size
  qerVal : ∀ i, { b'.qer.val i with startUL := 0, startDL := 0 } = { b.qer.val i with startUL := 0, startDL := 0 }
  urrSize : b'.urr.size = b.urr.size
  farIds : b'.farIds = b.farIds
  qerIds : b'.qerIds = b.qerIds
  urrIds : b'.urrIds = b.urrIds

/-- Events of the node, in the order the main loop takes them. -/
inductive Ev
  | assocSetup (addr : Addr) (seq : U32) (nodeId rts : Option (Option Unit))
  | assocSetupResp (addr : Addr) (nodeId : Option (Option Unit)) (cause : Option (Option U8))
      (cpFeatures : Option (Option Unit))
  | assocUpdate (addr : Addr) (seq : U32) (nodeId : Option (Option Unit))
  | heartbeatReq (addr : Addr) (seq : U32) (rts : Option (Option Unit))
  | heartbeatResp (addr : Addr) (seq : U32) (rts : Option (Option Unit))
  | establish (addr : Addr) (r : EstReq)
  | modify (addr : Addr) (r : ModReq) (ord : Orders)
  | delete (addr : Addr) (r : DelReq) (ord : Orders)
  /-- the heartbeat scheduler of `addr` gave up (pfcp_connection.go 122-123) -/
  | peerLost (addr : Addr) (ord : Orders)
  /-- a configuration with this `feature_ueip` is posted (api/rest/config.go 32); the other fields the handlers read are
  in `Verif/Heartbeat.lean` -/
  | setConfig (ueip : Bool)

/-- pfcp_handlers.go 17-46 `Handle` with the handler table pfcp_connection.go 24-33, and the failure branch
of the main loop. -/
def Node.step (n : Node) : Ev → Node × Outcome
  | .assocSetup a s i t => n.assocSetup a s i t
  | .assocSetupResp a i c f => n.assocSetupResp a i c f
  | .assocUpdate a s i => n.assocUpdate a s i
  | .heartbeatReq _ s t => n.heartbeatReq s t
  | .heartbeatResp _ _ t => n.heartbeatResp t
  | .establish a r => n.establish a r
  | .modify a r o => n.modify a r o
  | .delete a r o => n.delete a r o
  | .peerLost a o => n.deleteAssociation a o
  | .setConfig u => ({ n with ueip := u }, .silent)

/-- A freshly started node: main.go 44-96. -/
def Node.init (cfg : NodeCfg) (rm : Option ResourceManager) (dp : BpfObjects) : Node :=
  ⟨cfg, GoMap.empty, rm, dp, cfg.featUEIP⟩

/-- Histories: events and arbitrary packet processing between them; a crash ends the history. -/
inductive Reach (n0 : Node) : Node → Prop
  | init : Reach n0 n0
  | step {n : Node} (e : Ev) : Reach n0 n → (n.step e).2 ≠ .crash → Reach n0 (n.step e).1
  | traffic {n : Node} {dp : BpfObjects} : Reach n0 n → TrafficEffect n.dp dp → Reach n0 { n with dp := dp }

/-- Run a list of events (no packets), stopping at a crash; outcomes oldest first. -/
def Node.run (n : Node) : List Ev → Node × List Outcome
  | [] => (n, [])
  | e :: es =>
    match n.step e with
    | (n', .crash) => (n', [.crash])
    | (n', o) =>
      let r := n'.run es
      (r.1, o :: r.2)

end Eupf
