import Verif.Rest
/-
Which Go maps the goroutines of the control plane access, under which locks, and what the Go runtime makes of concurrent accesses.

The Go runtime (1.22, runtime/map.go) keeps a flag in every map while it is being written. An access of a non-empty map whose flag is set
ends the process ("concurrent map read and map write", "concurrent map writes", "concurrent map iteration and map write"); this cannot be
recovered from. An access of an empty map returns before the flag is looked at (mapaccess1, mapiterinit, mapdelete: `h.count == 0`). A
write sets the flag when it begins and clears it when it ends (mapassign, mapdelete). `Mach` is this semantics together with `sync.Mutex`,
for any number of goroutines, in any interleaving (sequentially consistent).

Part two is the list of the map accesses of every handler, statement by statement, on the state the model of the handler has there
(`Verif/Handlers.lean`, `Verif/Node.lean`). Not listed: maps that only one goroutine can reach (`TEIDCache` of pdr_creation_context.go, the
inner map of a first TEID), the eBPF maps (kernel), `len` of a map (not checked by the runtime), and accesses that are no map accesses
(struct fields, slices), for which the runtime has no check.
-/
namespace Eupf

/-- The Go maps that more than one goroutine can reach. -/
inductive Loc
  /-- `PfcpConnection.NodeAssociations` (pfcp_connection.go 39) -/
  | assocs
  /-- `NodeAssociation.Sessions` of a peer (node_association.go 18) -/
  | sessions (a : Addr)
  /-- `Session.PDRs` of a session (session.go 12), identified by peer and local SEID -/
  | pdrs (a : Addr) (s : U64)
  /-- `Session.FARs` (session.go 13) -/
  | fars (a : Addr) (s : U64)
  /-- `Session.QERs` (session.go 14) -/
  | qers (a : Addr) (s : U64)
  /-- `Session.URRs` (session.go 15) -/
  | urrs (a : Addr) (s : U64)
  /-- `IPAM.busyIPs` (resource_manager.go 25) -/
  | busyIPs
  /-- `FTEIDM.busyTEIDs` (resource_manager.go 19) -/
  | busyTEIDs
  /-- the inner map of `busyTEIDs` of a session -/
  | teidsOf (s : U64)
deriving DecidableEq

/-- The mutexes. -/
inductive Mutex
  /-- `PfcpConnection.associationMutex` (pfcp_connection.go 37) -/
  | assoc
  /-- of the address pool (resource_manager.go 22-26) -/
  | ipam
  /-- of the TEID pool (resource_manager.go 16-20) -/
  | fteidm
  /-- of a peer's association (node_association.go 21) -/
  | peer (a : Addr)
deriving DecidableEq

/-- One atomic action of a goroutine. -/
inductive Op
  /-- a read of, or one iteration step over, a non-empty map -/
  | rd (x : Loc)
  /-- a write begins -/
  | wb (x : Loc)
  /-- the write ends -/
  | we (x : Loc)
  | lock (k : Mutex)
  | unlock (k : Mutex)
deriving DecidableEq

/-- Goroutines with the rest of their programs, the owners of the mutexes, the flags of the maps. -/
structure Mach where
  prog : Nat → List Op
  owner : Mutex → Option Nat
  writing : Loc → Bool

/-- What ends the process. -/
inductive Fatal
  /-- a concurrent map access (runtime/map.go `fatal`) -/
  | map (x : Loc)
  /-- unlock of an unlocked mutex (sync/mutex.go `fatal`) -/
  | mutex (k : Mutex)
deriving DecidableEq

inductive After
  /-- the goroutine has nothing to do, or waits for a mutex -/
  | stuck
  | fatal (f : Fatal)
  | next (m : Mach)

def upd {α β : Type} [DecidableEq α] (f : α → β) (a : α) (b : β) : α → β := fun x => if x = a then b else f x

/-- Goroutine `i` executes its next action (runtime/map.go 1.22: mapaccess1 392-465, mapassign 578-706, mapdelete 708-819, mapiternext
859-988; sync/mutex.go). -/
def Mach.step (m : Mach) (i : Nat) : After :=
  match m.prog i with
  | [] => .stuck
  | .rd x :: p => if m.writing x then .fatal (.map x) else .next { m with prog := upd m.prog i p }
  | .wb x :: p =>
    if m.writing x then .fatal (.map x)
    else .next { m with prog := upd m.prog i p, writing := upd m.writing x true }
  | .we x :: p =>
    if m.writing x then .next { m with prog := upd m.prog i p, writing := upd m.writing x false }
    else .fatal (.map x)
  | .lock k :: p =>
    if m.owner k = none then .next { m with prog := upd m.prog i p, owner := upd m.owner k (some i) } else .stuck
  | .unlock k :: p =>
    if m.owner k = none then .fatal (.mutex k) else .next { m with prog := upd m.prog i p, owner := upd m.owner k none }

/-- All goroutines are at their start; no map is being written, no mutex taken. -/
def Mach.start (prog : Nat → List Op) : Mach := ⟨prog, fun _ => none, fun _ => false⟩

/-- Interleavings. -/
inductive Mach.Runs (m0 : Mach) : Mach → Prop
  | init : Runs m0 m0
  | step {m m' : Mach} (i : Nat) : Runs m0 m → m.step i = .next m' → Runs m0 m'

/-- Some interleaving of the programs ends the process. -/
def CanDie (prog : Nat → List Op) (f : Fatal) : Prop :=
  ∃ m i, (Mach.start prog).Runs m ∧ m.step i = .fatal f

/-! ### the accesses -/

/-- `m[k]`, or one step of `for range m`, with `n` the number of entries -/
def rdOf (x : Loc) (n : Nat) : List Op := if n = 0 then [] else [.rd x]

/-- `m[k] = v` -/
def wrOf (x : Loc) : List Op := [.wb x, .we x]

/-- `delete(m, k)` -/
def delOf (x : Loc) (n : Nat) : List Op := if n = 0 then [] else wrOf x

/-- resource_manager.go 73-85 `AllocateIP` -/
def IPAM.allocateOps (m : IPAM) : List Op :=
  [.lock .ipam] ++ (if m.freeIPs = [] then [] else wrOf .busyIPs) ++ [.unlock .ipam]

/-- resource_manager.go 107-114 `ReleaseIP` -/
def IPAM.releaseOps (m : IPAM) (seid : U64) : List Op :=
  [.lock .ipam] ++ rdOf .busyIPs m.busyIPs.size ++
    (if (m.busyIPs.get? seid).isSome then delOf .busyIPs m.busyIPs.size else []) ++ [.unlock .ipam]

/-- resource_manager.go 87-105 `AllocateTEID` -/
def FTEIDM.allocateOps (m : FTEIDM) (seid : U64) : List Op :=
  [.lock .fteidm] ++
    (if m.freeTEIDs = [] then []
     else rdOf .busyTEIDs m.busyTEIDs.size ++
       (if (m.busyTEIDs.get? seid).isNone then wrOf .busyTEIDs
        else rdOf .busyTEIDs m.busyTEIDs.size ++ wrOf (.teidsOf seid))) ++
    [.unlock .fteidm]

/-- resource_manager.go 116-126 `ReleaseTEID` -/
def FTEIDM.releaseOps (m : FTEIDM) (seid : U64) : List Op :=
  [.lock .fteidm] ++ rdOf .busyTEIDs m.busyTEIDs.size ++
    (match m.busyTEIDs.get? seid with
     | some inner => List.replicate inner.size (.rd (.teidsOf seid)) ++ delOf .busyTEIDs m.busyTEIDs.size
     | none => []) ++
    [.unlock .fteidm]

/-- An action on the handler's state, with the accesses it makes from a given state. -/
structure Tr (S : Type) where
  act : Act S Unit
  ops : S → List Op

/-- one after the other; an error or a panic ends it -/
def Tr.seq {S : Type} (a b : Tr S) : Tr S where
  act := fun s => Act.bind a.act (fun _ => b.act) s
  ops := fun s => a.ops s ++ (match a.act s with
    | (s', .ok _) => b.ops s'
    | _ => [])

/-- a `for` loop over a list -/
def Tr.each {S α : Type} (f : α → Tr S) : List α → Tr S
  | [] => ⟨Act.pure (), fun _ => []⟩
  | x :: xs => (f x).seq (Tr.each f xs)

/-- no accesses -/
def Tr.quiet {S : Type} (m : Act S Unit) : Tr S := ⟨m, fun _ => []⟩

/-- a `for range` over a map with these entries: an iteration step before each entry and one at the end; none for an empty map -/
def Tr.range {S α : Type} (x : Loc) (f : α → Tr S) (l : List α) : Tr S :=
  (Tr.each (fun e => (⟨Act.pure (), fun _ => [.rd x]⟩ : Tr S).seq (f e)) l).seq
    ⟨Act.pure (), fun _ => if l = [] then [] else [.rd x]⟩

section
variable (a : Addr) (sid : U64)

/-- pfcp_session_handlers.go 48-63, 261-276 with session.go 54-59 -/
def trCreateFar (ie : FarIE) : Tr HS where
  act := createFar ie
  ops := fun s => match (createFar ie s).2 with
    | .ok _ => wrOf (.fars a sid)
    | _ => []

/-- pfcp_session_handlers.go 278-295 with session.go 61-69 -/
def trUpdateFar (ie : FarIE) : Tr HS where
  act := updateFar ie
  ops := fun s => match ie.farId with
    | none => []
    | some id => rdOf (.fars a sid) s.sess.fars.size ++ (match composeFarInfo ie (s.sess.getFar id).info with
      | .ok _ => rdOf (.fars a sid) s.sess.fars.size ++ wrOf (.fars a sid)
      | _ => [])

/-- pfcp_session_handlers.go 297-305 with session.go 71-75 -/
def trRemoveFar (id : Option U32) : Tr HS where
  act := removeFar id
  ops := fun s => rdOf (.fars a sid) s.sess.fars.size ++ delOf (.fars a sid) s.sess.fars.size

/-- pfcp_session_handlers.go 65-79, 307-321 with session.go 77-82 -/
def trCreateQer (ie : QerIE) : Tr HS where
  act := createQer ie
  ops := fun s => match (createQer ie s).2 with
    | .ok _ => wrOf (.qers a sid)
    | _ => []

/-- pfcp_session_handlers.go 323-336 with session.go 84-92 -/
def trUpdateQer (ie : QerIE) : Tr HS where
  act := updateQer ie
  ops := fun s => match ie.qerId with
    | none => []
    | some _ => rdOf (.qers a sid) s.sess.qers.size ++ rdOf (.qers a sid) s.sess.qers.size ++ wrOf (.qers a sid)

/-- pfcp_session_handlers.go 338-349 with session.go 94-98 -/
def trRemoveQer (id : Option U32) : Tr HS where
  act := removeQer id
  ops := fun s => match id with
    | none => []
    | some _ => rdOf (.qers a sid) s.sess.qers.size ++ delOf (.qers a sid) s.sess.qers.size

/-- pfcp_session_handlers.go 81-95, 351-365 with session.go 100-105 -/
def trCreateUrr (id : Option U32) : Tr HS where
  act := createUrr id
  ops := fun s => match (createUrr id s).2 with
    | .ok _ => wrOf (.urrs a sid)
    | _ => []

/-- pfcp_session_handlers.go 367-380 with session.go 107-115 -/
def trUpdateUrr (id : Option U32) : Tr HS where
  act := updateUrr id
  ops := fun s => match id with
    | none => []
    | some _ => rdOf (.urrs a sid) s.sess.urrs.size ++ rdOf (.urrs a sid) s.sess.urrs.size ++ wrOf (.urrs a sid)

/-- pfcp_session_handlers.go 382-404 with session.go 117-121 -/
def trRemoveUrr (id : Option U32) : Tr HS where
  act := removeUrr id
  ops := fun s => match id with
    | none => []
    | some _ => rdOf (.urrs a sid) s.sess.urrs.size ++ delOf (.urrs a sid) s.sess.urrs.size

/-- pdr_creation_context.go 67-85 with 188-198 -/
def pdrRefsOps (s : Session) (ie : PdrIE) : List Op :=
  (if ie.farId.isSome then rdOf (.fars a sid) s.fars.size else []) ++
  (if ie.qerId.isSome then rdOf (.qers a sid) s.qers.size else []) ++
  (match ie.urrIds with
   | some (_ :: _ :: _) => rdOf (.urrs a sid) s.urrs.size ++ rdOf (.urrs a sid) s.urrs.size
   | some [_] => rdOf (.urrs a sid) s.urrs.size
   | _ => [])

/-- pdr_creation_context.go 103-135 with 200-211 -/
def pdrFteidOps (f : Fteid) (s : HS) : List Op :=
  if f.ch then
    match f.chooseId.bind s.cache.get? with
    | some _ => []
    | none => match s.rm with
      | none => []
      | some r => r.fteidm.allocateOps s.sess.remoteSEID
  else []

/-- pdr_creation_context.go 137-158 with 213-222 -/
def pdrUeIpOps (featUEIP : Bool) (u : UeIp) (s : HS) : List Op :=
  if featUEIP && u.chv4 then
    match s.rm with
    | none => []
    | some r => r.ipam.allocateOps
  else []

/-- pdr_creation_context.go 66-163 `extractPDR` -/
def extractPdrOps (featUEIP : Bool) (ie : PdrIE) (p : SPdr) (s : HS) : List Op :=
  pdrRefsOps a sid s.sess ie ++
  (match ie.pdi with
   | none => []
   | some pdi => match pdrSdf ie (pdrRefs s.sess ie p.info) with
     | none => []
     | some _ => match pdi.fteid with
       | some none => []
       | some (some f) => pdrFteidOps f s
       | none => match pdi.ueip with
         | some (some u) => pdrUeIpOps featUEIP u s
         | _ => [])

/-- pfcp_session_handlers.go 97-117, 406-427 -/
def trCreatePdr (featUEIP : Bool) (ie : PdrIE) : Tr HS where
  act := createPdr featUEIP ie
  ops := fun s => match ie.pdrId with
    | none => []
    | some id => extractPdrOps a sid featUEIP ie { pdrId := id.zeroExtend 32 } s ++
      (match (extractPdr featUEIP ie { pdrId := id.zeroExtend 32 } s).2 with
       | .ok _ => wrOf (.pdrs a sid)
       | _ => [])

/-- pfcp_session_handlers.go 429-445 -/
def trUpdatePdr (featUEIP : Bool) (ie : PdrIE) : Tr HS where
  act := updatePdr featUEIP ie
  ops := fun s => match ie.pdrId with
    | none => []
    | some id => rdOf (.pdrs a sid) s.sess.pdrs.size ++
      extractPdrOps a sid featUEIP ie (s.sess.getPdr (id.zeroExtend 32)) s ++
      (match (extractPdr featUEIP ie (s.sess.getPdr (id.zeroExtend 32)) s).2 with
       | .ok _ => wrOf (.pdrs a sid)
       | _ => [])

/-- pdr_creation_context.go 165-186 `deletePDR` -/
def deletePdrOps (p : SPdr) (s : HS) : List Op :=
  match deletePdrEntry p s with
  | (s', .ok _) => if p.teid ≠ 0 then (match s'.rm with
      | none => []
      | some r => r.fteidm.releaseOps s'.sess.remoteSEID) else []
  | _ => []

/-- pfcp_session_handlers.go 447-458 -/
def trRemovePdr (ord : Orders) (id : Option U16) : Tr HS where
  act := removePdr ord id
  ops := fun s => rdOf (.pdrs a sid) s.sess.pdrs.size ++
    (match s.sess.pdrs.get? ((id.getD 0).zeroExtend 32) with
     | none => []
     | some p => rdOf (.pdrs a sid) s.sess.pdrs.size ++ delOf (.pdrs a sid) s.sess.pdrs.size ++
       deletePdrOps p { s with sess := s.sess.removePdr ((id.getD 0).zeroExtend 32) })

/-- pfcp_session_handlers.go 41-120 -/
def trEstablish (featUEIP : Bool) (r : EstReq) : Tr HS :=
  (Tr.each (fun p => Tr.quiet (displayPdr p)) r.createPdr).seq <|
  (Tr.each (trCreateFar a sid) r.createFar).seq <|
  (Tr.each (trCreateQer a sid) r.createQer).seq <|
  (Tr.each (trCreateUrr a sid) r.createUrr).seq <|
  Tr.each (trCreatePdr a sid featUEIP) r.createPdr

/-- pfcp_session_handlers.go 251-461 -/
def trModify (featUEIP : Bool) (ord : Orders) (r : ModReq) : Tr HS :=
  (Tr.each (fun p => Tr.quiet (displayPdr p)) r.createPdr).seq <|
  (Tr.each (fun p => Tr.quiet (displayPdr p)) r.updatePdr).seq <|
  (Tr.each (trCreateFar a sid) r.createFar).seq <|
  (Tr.each (trUpdateFar a sid) r.updateFar).seq <|
  (Tr.each (trRemoveFar a sid) r.removeFar).seq <|
  (Tr.each (trCreateQer a sid) r.createQer).seq <|
  (Tr.each (trUpdateQer a sid) r.updateQer).seq <|
  (Tr.each (trRemoveQer a sid) r.removeQer).seq <|
  (Tr.each (trCreateUrr a sid) r.createUrr).seq <|
  (Tr.each (trUpdateUrr a sid) r.updateUrr).seq <|
  (Tr.each (trRemoveUrr a sid) r.removeUrr).seq <|
  (Tr.each (trCreatePdr a sid featUEIP) r.createPdr).seq <|
  (Tr.each (trUpdatePdr a sid featUEIP) r.updatePdr).seq <|
  Tr.each (trRemovePdr a sid ord) r.removePdr

/-- pfcp_session_handlers.go 165-200 -/
def trDelete (ord : Orders) (sess : Session) : Tr HS :=
  (Tr.range (.pdrs a sid) (fun e => ⟨deletePdr ord e.2, deletePdrOps e.2⟩) (ord.pdrs.run sess.pdrs.entries)).seq <|
  (Tr.range (.fars a sid) (fun e => Tr.quiet (dropFar e)) (ord.fars.run sess.fars.entries)).seq <|
  (Tr.range (.qers a sid) (fun e => Tr.quiet (dropQer e)) (ord.qers.run sess.qers.entries)).seq <|
  Tr.range (.urrs a sid) (fun e => Tr.quiet (dropUrr e)) (ord.urrs.run sess.urrs.entries)

/-- pfcp_connection.go 192-204 `DeleteSession` -/
def trDropSession (ord : Orders) (sess : Session) : Tr HS :=
  (Tr.range (.fars a sid) (fun e => Tr.quiet (Act.ignore (dropFar e))) (ord.fars.run sess.fars.entries)).seq <|
  (Tr.range (.qers a sid) (fun e => Tr.quiet (Act.ignore (dropQer e))) (ord.qers.run sess.qers.entries)).seq <|
  Tr.range (.pdrs a sid) (fun e => ⟨Act.ignore (deletePdr ord e.2), deletePdrOps e.2⟩) (ord.pdrs.run sess.pdrs.entries)

end

/-- pfcp_session_handlers.go 20-146 -/
def Node.establishOps (n : Node) (a : Addr) (r : EstReq) : List Op :=
  match validateRequest r.nodeId r.cpFseid with
  | none => []
  | some remote =>
    rdOf .assocs n.assocs.size ++
    (match n.assocs.get? a with
     | none => []
     | some as =>
       let sid := as.newLocalSEID.2
       let s := n.hs (Session.new sid remote)
       (trEstablish a sid n.ueip r).ops s ++
       (match (establishBody n.ueip r s).2 with
        | .ok _ => wrOf (.sessions a) ++ wrOf .assocs
        | _ => []))

/-- pfcp_session_handlers.go 219-484 -/
def Node.modifyOps (n : Node) (a : Addr) (r : ModReq) (ord : Orders) : List Op :=
  rdOf .assocs n.assocs.size ++
  (match n.assocs.get? a with
   | none => []
   | some as => rdOf (.sessions a) as.sessions.size ++
     (match as.sessions.get? r.seid with
      | none => []
      | some sess =>
        let s := n.hs (sess.setRemote r.cpFseid)
        (match r.cpFseid with
         | some (some _) => wrOf (.sessions a) ++ wrOf .assocs
         | _ => []) ++
        (trModify a r.seid n.ueip ord r).ops s ++
        (match (modifyBody n.ueip ord r s).2 with
         | .ok _ => wrOf (.sessions a)
         | _ => [])))

/-- pfcp_connection.go 218-230 `ReleaseResources`: the addresses first -/
def releaseOps (seid : U64) : Option ResourceManager → List Op
  | none => []
  | some r => r.ipam.releaseOps seid ++ r.fteidm.releaseOps seid

/-- pfcp_session_handlers.go 148-217 -/
def Node.deleteOps (n : Node) (a : Addr) (r : DelReq) (ord : Orders) : List Op :=
  rdOf .assocs n.assocs.size ++
  (match n.assocs.get? a with
   | none => []
   | some as => rdOf (.sessions a) as.sessions.size ++
     (match as.sessions.get? r.seid with
      | none => []
      | some sess =>
        (trDelete a r.seid ord sess).ops (n.hs sess) ++
        (match deleteBody ord sess (n.hs sess) with
         | (hs, .ok _) => delOf (.sessions a) as.sessions.size ++ releaseOps r.seid hs.rm
         | _ => [])))

/-- pfcp_handlers.go 104-119, 243-258: under the association mutex -/
def Node.addAssocOps (n : Node) (a : Addr) : List Op :=
  [.lock .assoc] ++ rdOf .assocs n.assocs.size ++
    (if (n.assocs.get? a).isNone then wrOf .assocs else []) ++ [.unlock .assoc]

/-- pfcp_connection.go 181-190 `DeleteAssociation`: the sessions one after another; an iteration step before each and one at the end -/
def dropSessionsOps (a : Addr) (ord : Orders) : List (U64 × Session) → Option ResourceManager → BpfObjects → List Op
  | [], _, _ => []
  | (sid, sess) :: l, rm, dp =>
    let s : HS := ⟨sess, GoMap.empty, rm, dp, [], []⟩
    let x := deleteSessionBody ord sess s
    [.rd (.sessions a)] ++ (trDropSession a sid ord sess).ops s ++
    (match x.2 with
     | .panic => []
     | _ => dropSessionsOps a ord l x.1.rm x.1.dp)

/-- pfcp_connection.go 181-190 -/
def Node.peerLostOps (n : Node) (a : Addr) (ord : Orders) : List Op :=
  rdOf .assocs n.assocs.size ++
  (match n.assocs.get? a with
   | none => []
   | some as =>
     dropSessionsOps a ord (ord.sessions.run as.sessions.entries) n.rm n.dp ++
     (match dropSessions ord (ord.sessions.run as.sessions.entries) n.rm n.dp with
      | (_, _, true) => rdOf (.sessions a) as.sessions.size ++ delOf .assocs n.assocs.size
      | _ => []))

/-- The accesses of the main loop for one event: pfcp_handlers.go 17-46, pfcp_connection.go 113-139. -/
def Node.ops (n : Node) : Ev → List Op
  | .assocSetup a _ i t => match i, t with
    | some (some _), some (some _) => n.addAssocOps a
    | _, _ => []
  | .assocSetupResp a i c f => match i, c, f with
    | some (some _), some (some c), some (some _) => if c = causeAccepted then n.addAssocOps a else []
    | _, _, _ => []
  | .assocUpdate _ _ i => match i with
    | some (some _) => [.lock .assoc] ++ rdOf .assocs n.assocs.size ++ [.unlock .assoc]
    | _ => []
  | .heartbeatReq .. => []
  | .heartbeatResp _ _ t => match t with
    | some (some _) => rdOf .assocs n.assocs.size
    | _ => []
  | .establish a r => n.establishOps a r
  | .modify a r o => n.modifyOps a r o
  | .delete a r o => n.deleteOps a r o
  | .peerLost a o => n.peerLostOps a o
  | .setConfig _ => []

/-- The accesses of the main loop for a sequence of events; a crash ends it. -/
def Node.opsRun (n : Node) : List Ev → List Op
  | [] => []
  | e :: es => n.ops e ++ (match n.step e with
    | (_, .crash) => []
    | (n', _) => n'.opsRun es)

/-- node_association.go 43-48: one heartbeat of the scheduler of a peer -/
def heartbeatOps (a : Addr) : List Op := [.lock (.peer a), .unlock (.peer a)]

/-- pfcp_sessions.go 51-58 `GetAllSessions`, then the encoding of the answer (line 48), which iterates over the rule maps of every session,
which the copies share with the original -/
def Node.listSessionsOps (n : Node) (o : QueryOrder) : List Op :=
  (o.assocs.run n.assocs.entries).flatMap (fun a =>
    [.rd .assocs] ++ ((o.sessions a.1).run a.2.sessions.entries).map (fun _ => .rd (.sessions a.1)) ++
      rdOf (.sessions a.1) a.2.sessions.size) ++
  rdOf .assocs n.assocs.size ++
  (n.visit o).flatMap (fun x =>
    rdOf (.pdrs x.1 x.2.1) x.2.2.pdrs.size ++ rdOf (.fars x.1 x.2.1) x.2.2.fars.size ++
    rdOf (.qers x.1 x.2.1) x.2.2.qers.size ++ rdOf (.urrs x.1 x.2.1) x.2.2.urrs.size)

/-- pfcp_associations.go 23-33 `listPfcpAssociations`; pfcp_connection.go 206-212 `GetSessionCount`, called for the metrics (metrics.go 98-103) -/
def Node.walkAssocsOps (n : Node) : List Op :=
  List.replicate n.assocs.size (.rd .assocs) ++ rdOf .assocs n.assocs.size

end Eupf
