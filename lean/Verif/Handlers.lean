import Verif.Session
/-
Bodies of the PFCP session handlers, rule by rule: cmd/core/pfcp_session_handlers.go,
cmd/core/pdr_creation_context.go, cmd/core/pdr.go.
-/
namespace Eupf

/-- Iteration orders of the Go map loops executed while handling one message. -/
structure Orders where
  pdrs : Shuffle (U32 × SPdr) := default
  fars : Shuffle (U32 × SFar) := default
  qers : Shuffle (U32 × SQer) := default
  urrs : Shuffle (U32 × SUrr) := default
  teids : Shuffle (U32 × U32) := default
  sessions : Shuffle (U64 × Session) := default

instance : Inhabited Orders := ⟨{}⟩

/-- Shared state a handler body works on: the session being handled, the PDR creation context's TEID cache
(pdr_creation_context.go 14-18), the pools, the tables, and the lists collected for the response. -/
structure HS where
  sess : Session
  cache : GoMap U8 U32
  rm : Option ResourceManager
  dp : BpfObjects
  created : List SPdr
  reports : List UsageReport

/-- Byte swap; `binary.LittleEndian.Uint32(ip)` of the octets of an address (host integer in network
order value) is its byte swap. -/
def bswap32 (x : U32) : U32 :=
  (x.extractLsb' 0 8) ++ (x.extractLsb' 8 8) ++ (x.extractLsb' 16 8) ++ (x.extractLsb' 24 8)

/-- pfcp_session_handlers.go 569-571; indexing an empty Apply Action panics. -/
def composeAction (ie : FarIE) (f : FarInfo) : Res FarInfo :=
  match ie.applyAction with
  | none => .ok f
  | some [] => .panic
  | some (a :: _) => .ok { f with action := a }

/-- pfcp_session_handlers.go 572-598: Outer Header Creation. An undecodable one is a nil dereference. -/
def composeForward (ie : FarIE) (f : FarInfo) : Res FarInfo :=
  if ie.kind = .other then .err
  else match ie.forward with
    | none => .ok f
    | some none => .ok f
    | some (some none) => .panic
    | some (some (some o)) =>
      let f := { f with ohc := (o.desc >>> 8).truncate 8, teid := o.teid }
      let f := match o.ipv4 with
        | some ip => { f with remoteIP := bswap32 ip }
        | none => f
      if o.hasIPv6 then .err else .ok f

/-- pfcp_session_handlers.go 599-602 -/
def composeTlm (ie : FarIE) (f : FarInfo) : FarInfo :=
  match ie.tlm with
  | some t => { f with tlm := t }
  | none => f

/-- pfcp_session_handlers.go 568-604 `composeFarInfo` -/
def composeFarInfo (ie : FarIE) (f : FarInfo) : Res FarInfo :=
  match composeAction ie f with
  | .ok f => match composeForward ie f with
    | .ok f => .ok (composeTlm ie f)
    | .err => .err
    | .panic => .panic
  | .err => .err
  | .panic => .panic

/-- pfcp_session_handlers.go 606-630 `updateQer`; `uint32(x) * 1000` in 32-bit arithmetic. -/
def mergeQer (q : QerInfo) (ie : QerIE) : QerInfo :=
  { gateDL := ie.gateDL.getD q.gateDL
    gateUL := ie.gateUL.getD q.gateUL
    mbrDL := match ie.mbrDL with | some x => x.truncate 32 * 1000 | none => q.mbrDL
    mbrUL := match ie.mbrUL with | some x => x.truncate 32 * 1000 | none => q.mbrUL
    qfi := ie.qfi.getD q.qfi
    startUL := 0
    startDL := 0 }

/-! ### FARs -/

/-- pfcp_session_handlers.go 48-63, 261-276: one Create FAR -/
def createFar (ie : FarIE) : Act HS Unit := fun s =>
  match composeFarInfo ie {} with
  | .ok f => match s.dp.newFar f with
    | (dp, some gid) => ({ s with dp := dp, sess := s.sess.newFar (ie.farId.getD 0) gid f }, .ok ())
    | (dp, none) => ({ s with dp := dp }, .err)
  | .err => (s, .err)
  | .panic => (s, .panic)

/-- pfcp_session_handlers.go 278-295: one Update FAR -/
def updateFar (ie : FarIE) : Act HS Unit := fun s =>
  match ie.farId with
  | none => (s, .err)
  | some id => match composeFarInfo ie (s.sess.getFar id).info with
    | .ok f =>
      let gid := (s.sess.getFar id).gid
      let s := { s with sess := s.sess.updateFar id f }
      match s.dp.updateFar gid f with
      | some dp => ({ s with dp := dp }, .ok ())
      | none => (s, .err)
    | .err => (s, .err)
    | .panic => (s, .panic)

/-- pfcp_session_handlers.go 297-305: one Remove FAR; the id defaults to 0 -/
def removeFar (id : Option U32) : Act HS Unit := fun s =>
  let gid := (s.sess.getFar (id.getD 0)).gid
  let s := { s with sess := s.sess.removeFar (id.getD 0) }
  match s.dp.deleteFar gid with
  | (dp, true) => ({ s with dp := dp }, .ok ())
  | (dp, false) => ({ s with dp := dp }, .err)

/-! ### QERs -/

/-- pfcp_session_handlers.go 65-79, 307-321: one Create QER -/
def createQer (ie : QerIE) : Act HS Unit := fun s =>
  match ie.qerId with
  | none => (s, .err)
  | some id =>
    let q := mergeQer {} ie
    match s.dp.newQer q with
    | (dp, some gid) => ({ s with dp := dp, sess := s.sess.newQer id gid q }, .ok ())
    | (dp, none) => ({ s with dp := dp }, .err)

/-- pfcp_session_handlers.go 323-336: one Update QER -/
def updateQer (ie : QerIE) : Act HS Unit := fun s =>
  match ie.qerId with
  | none => (s, .err)
  | some id =>
    let q := mergeQer (s.sess.getQer id).info ie
    let gid := (s.sess.getQer id).gid
    let s := { s with sess := s.sess.updateQer id q }
    match s.dp.updateQer gid q with
    | some dp => ({ s with dp := dp }, .ok ())
    | none => (s, .err)

/-- pfcp_session_handlers.go 338-349: one Remove QER -/
def removeQer (id : Option U32) : Act HS Unit := fun s =>
  match id with
  | none => (s, .err)
  | some id =>
    let gid := (s.sess.getQer id).gid
    let s := { s with sess := s.sess.removeQer id }
    match s.dp.deleteQer gid with
    | (dp, true) => ({ s with dp := dp }, .ok ())
    | (dp, false) => ({ s with dp := dp }, .err)

/-! ### URRs (`updateUrr`, pfcp_session_handlers.go 641-649, changes nothing) -/

/-- pfcp_session_handlers.go 81-95, 351-365: one Create URR -/
def createUrr (id : Option U32) : Act HS Unit := fun s =>
  match id with
  | none => (s, .err)
  | some id => match s.dp.newUrr {} with
    | (dp, some gid) => ({ s with dp := dp, sess := s.sess.newUrr id gid {} }, .ok ())
    | (dp, none) => ({ s with dp := dp }, .err)

/-- pfcp_session_handlers.go 367-380: one Update URR: writes the recorded volumes to the slot -/
def updateUrr (id : Option U32) : Act HS Unit := fun s =>
  match id with
  | none => (s, .err)
  | some id =>
    let u := (s.sess.getUrr id).info
    let gid := (s.sess.getUrr id).gid
    let s := { s with sess := s.sess.updateUrr id u }
    match s.dp.updateUrr gid u with
    | some dp => ({ s with dp := dp }, .ok ())
    | none => (s, .err)

/-- pfcp_session_handlers.go 192-199, 396-403: the report for a removed URR -/
def mkReport (id : U32) (u : SUrr) (v : UrrInfo) : UsageReport :=
  ⟨id, u.seqn + 1, v.ul + v.dl, v.ul, v.dl⟩

/-- pfcp_session_handlers.go 382-404: one Remove URR -/
def removeUrr (id : Option U32) : Act HS Unit := fun s =>
  match id with
  | none => (s, .err)
  | some id =>
    let u := s.sess.getUrr id
    let s := { s with sess := s.sess.removeUrr id }
    match s.dp.deleteUrr u.gid with
    | (dp, some v) => ({ s with dp := dp, reports := s.reports ++ [mkReport id u v] }, .ok ())
    | (dp, none) => ({ s with dp := dp }, .err)

/-! ### PDRs -/

/-- pdr_creation_context.go 67-85: outer header removal and rule references. An unknown rule id
gives slot 0 (`GetFar(id).GlobalId` of the zero value). -/
def pdrRefs (sess : Session) (ie : PdrIE) (p : PdrInfo) : PdrInfo :=
  { p with
    ohr := ie.ohr.getD p.ohr
    farId := match ie.farId with | some id => (sess.getFar id).gid | none => p.farId
    qerId := match ie.qerId with | some id => (sess.getQer id).gid | none => p.qerId
    urr1 := match ie.urrIds with | some (a :: _) => (sess.getUrr a).gid | _ => p.urr1
    urr2 := match ie.urrIds with | some (_ :: b :: _) => (sess.getUrr b).gid | _ => p.urr2 }

/-- pdr_creation_context.go 92-101: SDF filter; an empty description is ignored, a bad one is an
error. -/
def pdrSdf (ie : PdrIE) (p : PdrInfo) : Option PdrInfo :=
  match ie.sdf with
  | none => some p
  | some [] => some p
  | some txt => (Sdf.parse txt).map (fun f => { p with sdf := some f })

/-- pdr_creation_context.go 200-211 `getFTEID` -/
def allocTeid (seid : U64) (pdr : U32) (rm : Option ResourceManager) :
    Option ResourceManager × Option U32 :=
  match rm with
  | none => (none, none)
  | some r =>
    let x := r.fteidm.allocate seid pdr
    (some { r with fteidm := x.1 }, x.2)

/-- pdr_creation_context.go 213-222 `getIP` -/
def allocIp (seid : U64) (rm : Option ResourceManager) : Option ResourceManager × Option Ip4 :=
  match rm with
  | none => (none, none)
  | some r =>
    let x := r.ipam.allocate seid
    (some { r with ipam := x.1 }, x.2)

/-- pdr_creation_context.go 103-135: F-TEID of the PDI -/
def pdrFteid (f : Fteid) (p : SPdr) : Act HS SPdr := fun s =>
  if f.ch then
    match f.chooseId.bind s.cache.get? with
    | some t => (s, .ok { p with teid := t, allocated := true })
    | none =>
      match allocTeid s.sess.remoteSEID p.pdrId s.rm with
      | (rm, none) => ({ s with rm := rm }, .err)
      | (rm, some t) =>
        let s := { s with rm := rm }
        let s := match f.chooseId with
          | some c => { s with cache := s.cache.set c t }
          | none => s
        (s, .ok { p with teid := t, allocated := true })
  else (s, .ok { p with teid := f.teid })

/-- pdr_creation_context.go 137-158: UE IP address of the PDI; a failed allocation is only logged -/
def pdrUeIp (featUEIP : Bool) (u : UeIp) (p : SPdr) : Act HS SPdr := fun s =>
  let r : Option ResourceManager × Option Ip4 × Bool :=
    if featUEIP && u.chv4 then
      match allocIp s.sess.remoteSEID s.rm with
      | (rm, some ip) => (rm, some ip, true)
      | (rm, none) => (rm, u.ipv4, p.allocated)
    else (s.rm, u.ipv4, p.allocated)
  let s := { s with rm := r.1 }
  let p := { p with allocated := r.2.2 }
  match r.2.1, u.ipv6 with
  | some ip, _ => (s, .ok { p with ipv4 := some ip })
  | none, some ip6 => (s, .ok { p with ipv6 := some ip6 })
  | none, none => (s, .err)

/-- pdr_creation_context.go 66-163 `extractPDR`: the new record. With neither F-TEID nor UE IP the record
is returned as it is (line 161-162 returns a nil error). -/
def extractPdr (featUEIP : Bool) (ie : PdrIE) (p : SPdr) : Act HS SPdr := fun s =>
  let p := { p with info := pdrRefs s.sess ie p.info }
  match ie.pdi with
  | none => (s, .err)
  | some pdi => match pdrSdf ie p.info with
    | none => (s, .err)
    | some info =>
      let p := { p with info := info }
      match pdi.fteid with
      | some none => (s, .err)
      | some (some f) => pdrFteid f p s
      | none => match pdi.ueip with
        | some none => (s, .err)
        | some (some u) => pdrUeIp featUEIP u p s
        | none => (s, .ok p)

/-- cmd/core/pdr.go 13-31 `applyPDR` -/
def applyPdr (p : SPdr) : Act HS Unit := fun s =>
  let r := match p.ipv4, p.ipv6 with
    | some ip, _ => s.dp.putPdrDownlink ip p.info
    | none, some ip6 => s.dp.putDownlinkPdrIp6 ip6 p.info
    | none, none => s.dp.putPdrUplink p.teid p.info
  match r with
  | some dp => ({ s with dp := dp }, .ok ())
  | none => (s, .err)

/-- pfcp_session_handlers.go 97-117, 406-427: one Create PDR -/
def createPdr (featUEIP : Bool) (ie : PdrIE) : Act HS Unit :=
  match ie.pdrId with
  | none => Act.fail
  | some id => do
    let p ← extractPdr featUEIP ie { pdrId := id.zeroExtend 32 }
    Act.modify (fun s => { s with sess := s.sess.putPdr p.pdrId p })
    applyPdr p
    Act.modify (fun s => { s with created := s.created ++ [p] })

/-- pfcp_session_handlers.go 429-445: one Update PDR -/
def updatePdr (featUEIP : Bool) (ie : PdrIE) : Act HS Unit :=
  match ie.pdrId with
  | none => Act.fail
  | some id => do
    let s ← Act.get
    let p ← extractPdr featUEIP ie (s.sess.getPdr (id.zeroExtend 32))
    Act.modify (fun s => { s with sess := s.sess.putPdr (id.zeroExtend 32) p })
    applyPdr p

/-- pdr_creation_context.go 182-184: `ReleaseTEID` through a possibly nil manager -/
def releaseTeids (ord : Orders) : Act HS Unit := fun s =>
  match s.rm with
  | none => (s, .panic)
  | some r => ({ s with rm := some { r with fteidm := r.fteidm.release ord.teids s.sess.remoteSEID } }, .ok ())

/-- pdr_creation_context.go 166-181: remove the table entry; for uplink PDRs only if no TEID with the same
low octet was removed before in this request. -/
def deletePdrEntry (p : SPdr) : Act HS Unit := fun s =>
  match p.ipv4, p.ipv6 with
  | some ip, _ => match s.dp.deletePdrDownlink ip with
    | some dp => ({ s with dp := dp }, .ok ())
    | none => (s, .err)
  | none, some ip6 => match s.dp.deleteDownlinkPdrIp6 ip6 with
    | some dp => ({ s with dp := dp }, .ok ())
    | none => (s, .err)
  | none, none =>
    if (s.cache.get? (p.teid.truncate 8)).isSome then (s, .ok ())
    else match s.dp.deletePdrUplink p.teid with
      | some dp => ({ s with dp := dp, cache := s.cache.set (p.teid.truncate 8) 0 }, .ok ())
      | none => (s, .err)

/-- pdr_creation_context.go 165-186 `deletePDR` -/
def deletePdr (ord : Orders) (p : SPdr) : Act HS Unit := do
  deletePdrEntry p
  if p.teid ≠ 0 then releaseTeids ord else pure ()

/-- pfcp_session_handlers.go 447-458: one Remove PDR; unknown ids are ignored -/
def removePdr (ord : Orders) (id : Option U16) : Act HS Unit := do
  let s ← Act.get
  let k : U32 := (id.getD 0).zeroExtend 32
  match s.sess.pdrs.get? k with
  | none => pure ()
  | some p => do
    Act.modify (fun s => { s with sess := s.sess.removePdr k })
    deletePdr ord p

/-! ### bodies -/

/-- cmd/core/display_utils.go 325-387 `displayPdr`, called for every Create PDR and Update PDR of a request before it is processed
(display_utils.go 52-55, 84-87, 109-112): a PDI without Source Interface IE is indexed with -1 (lines 356-357), which panics. (For the IE
Remove PDR `PDI()` fails.) The log output is left out. -/
def displayPdr (ie : PdrIE) : Act HS Unit := fun s =>
  match ie.pdi with
  | some p => if p.source then (s, .ok ()) else (s, .panic)
  | none => (s, .ok ())

/-- pfcp_session_handlers.go 41-120 -/
def establishBody (featUEIP : Bool) (r : EstReq) : Act HS Unit := do
  Act.each displayPdr r.createPdr
  Act.each createFar r.createFar
  Act.each createQer r.createQer
  Act.each createUrr r.createUrr
  Act.each (createPdr featUEIP) r.createPdr

/-- pfcp_session_handlers.go 251-461 -/
def modifyBody (featUEIP : Bool) (ord : Orders) (r : ModReq) : Act HS Unit := do
  Act.each displayPdr r.createPdr
  Act.each displayPdr r.updatePdr
  Act.each createFar r.createFar
  Act.each updateFar r.updateFar
  Act.each removeFar r.removeFar
  Act.each createQer r.createQer
  Act.each updateQer r.updateQer
  Act.each removeQer r.removeQer
  Act.each createUrr r.createUrr
  Act.each updateUrr r.updateUrr
  Act.each removeUrr r.removeUrr
  Act.each (createPdr featUEIP) r.createPdr
  Act.each (updatePdr featUEIP) r.updatePdr
  Act.each (removePdr ord) r.removePdr

/-- pfcp_session_handlers.go 174-179: one FAR of a deleted session -/
def dropFar (e : U32 × SFar) : Act HS Unit := fun s =>
  match s.dp.deleteFar e.2.gid with
  | (dp, true) => ({ s with dp := dp }, .ok ())
  | (dp, false) => ({ s with dp := dp }, .err)

/-- pfcp_session_handlers.go 180-185: one QER of a deleted session -/
def dropQer (e : U32 × SQer) : Act HS Unit := fun s =>
  match s.dp.deleteQer e.2.gid with
  | (dp, true) => ({ s with dp := dp }, .ok ())
  | (dp, false) => ({ s with dp := dp }, .err)

/-- pfcp_session_handlers.go 186-200: one URR of a deleted session; errors are skipped -/
def dropUrr (e : U32 × SUrr) : Act HS Unit := fun s =>
  match s.dp.deleteUrr e.2.gid with
  | (dp, some v) => ({ s with dp := dp, reports := s.reports ++ [mkReport e.1 e.2 v] }, .ok ())
  | (dp, none) => ({ s with dp := dp }, .ok ())

/-- pfcp_session_handlers.go 165-200: the loops of a session deletion; the session's rule maps are
read before and not modified by the loops. -/
def deleteBody (ord : Orders) (sess : Session) : Act HS Unit := do
  Act.each (fun e => deletePdr ord e.2) (ord.pdrs.run sess.pdrs.entries)
  Act.each dropFar (ord.fars.run sess.fars.entries)
  Act.each dropQer (ord.qers.run sess.qers.entries)
  Act.each dropUrr (ord.urrs.run sess.urrs.entries)

/-- An error that the caller discards (`_ = f()`); a panic still unwinds. -/
def Act.ignore {S : Type} (m : Act S Unit) : Act S Unit := fun s =>
  match m s with
  | (s', .err) => (s', .ok ())
  | r => r

/-- pfcp_connection.go 192-204 `DeleteSession` -/
def deleteSessionBody (ord : Orders) (sess : Session) : Act HS Unit := do
  Act.each (fun e => Act.ignore (dropFar e)) (ord.fars.run sess.fars.entries)
  Act.each (fun e => Act.ignore (dropQer e)) (ord.qers.run sess.qers.entries)
  Act.each (fun e => Act.ignore (deletePdr ord e.2)) (ord.pdrs.run sess.pdrs.entries)

/-- cmd/core/pdr.go 33-47 `processCreatedPDRs` -/
def createdIEs (n3 : Ip4) (l : List SPdr) : List CreatedPdr :=
  l.filterMap (fun p =>
    if p.allocated then
      match p.ipv4, p.ipv6 with
      | some ip, _ => some (.ueIp (p.pdrId.truncate 16) ip)
      | none, some _ => none
      | none, none => some (.fteid (p.pdrId.truncate 16) p.teid n3)
    else none)

end Eupf
