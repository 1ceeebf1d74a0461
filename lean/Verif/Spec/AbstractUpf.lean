import Verif.Spec.OwnRules
import Verif.Spec.Service
/-
Specification for C100: an abstract UPF. It has no tables, slots, pools or byte orders; it only keeps, for every session, what the control
plane has said about it (and what the UPF has answered: chosen TEIDs and addresses, SEIDs).
-/
namespace Eupf

/-- What has been said about a FAR: Apply Action, Outer Header Creation (description, TEID, address), Transport Level Marking. -/
structure AFar where
  action : U8 := 0
  desc : U16 := 0
  teid : U32 := 0
  peer : Ip4 := 0
  tlm : U16 := 0
deriving DecidableEq, Repr

/-- What has been said about a QER; bit rates in kbit/s, 0 for none. -/
structure AQer where
  gateUL : U8 := 0
  gateDL : U8 := 0
  mbrUL : U64 := 0
  mbrDL : U64 := 0
  qfi : U8 := 0
deriving DecidableEq, Repr

/-- What has been said about a PDR: match key, Outer Header Removal, filter, and the ids of its FAR and QER. -/
structure APdr where
  key : PdrKey
  ohr : U8
  sdf : Option SdfFilter
  far : U32
  qer : U32

/-- A session: its FARs, QERs and PDRs by id (PDR ids, which have 16 bits, are written with 32). -/
structure ASession where
  fars : U32 → Option AFar := fun _ => none
  qers : U32 → Option AQer := fun _ => none
  pdrs : U32 → Option APdr := fun _ => none

/-- `m` with `v` under `i` (`none`: with nothing under `i`). -/
def withAt {α : Type} (m : U32 → Option α) (i : U32) (v : Option α) : U32 → Option α := fun j => if j = i then v else m j

/-- A FAR after an Update FAR: what is said replaces what was said. -/
def AFar.told (o : AFar) (f : FarIE) : AFar :=
  { action := f.action?.getD o.action
    desc := (f.ohc?.map (·.desc)).getD o.desc
    teid := (f.ohc?.map (·.teid)).getD o.teid
    peer := (f.ohc?.bind (·.ipv4)).getD o.peer
    tlm := f.tlm.getD o.tlm }

/-- A QER after an Update QER. -/
def AQer.told (o : AQer) (q : QerIE) : AQer :=
  { gateUL := q.gateUL.getD o.gateUL
    gateDL := q.gateDL.getD o.gateDL
    mbrUL := q.mbrUL.getD o.mbrUL
    mbrDL := q.mbrDL.getD o.mbrDL
    qfi := q.qfi.getD o.qfi }

/-- The TEID that a response reports for PDR `i`. -/
def teidFor (created : List CreatedPdr) (i : U16) : Option U32 :=
  created.findSome? fun c => match c with
    | .fteid j t _ => if j = i then some t else none
    | .ueIp _ _ => none
/-- The UE address that a response reports for PDR `i`. -/
def addrFor (created : List CreatedPdr) (i : U16) : Option Ip4 :=
  created.findSome? fun c => match c with
    | .ueIp j ip => if j = i then some ip else none
    | .fteid _ _ _ => none

/-- What a Create PDR matches on: the TEID given, or if the UPF is to choose it, the TEID reported; without TEID the UE address reported or
given. (A PDI with neither is taken for TEID 0, C57.) -/
def PdrIE.keyIn (ie : PdrIE) (created : List CreatedPdr) : PdrKey :=
  match ie.pdi.bind (·.fteid), ie.pdi.bind (·.ueip) with
  | some (some f), _ => .ul (if f.ch then (teidFor created (ie.pdrId.getD 0)).getD 0 else f.teid)
  | _, some (some u) =>
    match (if u.chv4 then addrFor created (ie.pdrId.getD 0) else none), u.ipv4, u.ipv6 with
    | some ip, _, _ => .dl4 ip
    | none, some ip, _ => .dl4 ip
    | none, none, some ip => .dl6 ip
    | none, none, none => .ul 0
  | _, _ => .ul 0

/-- The filter of a Create PDR (an empty flow description is none). -/
def PdrIE.filter? (ie : PdrIE) : Option SdfFilter :=
  match ie.sdf with
  | none => none
  | some [] => none
  | some (c :: cs) => Sdf.parse (c :: cs)

namespace ASession
def createFar (x : ASession) (ie : FarIE) : ASession := { x with fars := withAt x.fars (ie.farId.getD 0) (some (AFar.told {} ie)) }
def updateFar (x : ASession) (ie : FarIE) : ASession :=
  match ie.farId with
  | none => x
  | some i => { x with fars := withAt x.fars i ((x.fars i).map (·.told ie)) }
def removeFar (x : ASession) (d : Option U32) : ASession := { x with fars := withAt x.fars (d.getD 0) none }
def createQer (x : ASession) (ie : QerIE) : ASession :=
  match ie.qerId with
  | none => x
  | some i => { x with qers := withAt x.qers i (some (AQer.told {} ie)) }
def updateQer (x : ASession) (ie : QerIE) : ASession :=
  match ie.qerId with
  | none => x
  | some i => { x with qers := withAt x.qers i ((x.qers i).map (·.told ie)) }
def removeQer (x : ASession) (d : Option U32) : ASession :=
  match d with
  | none => x
  | some i => { x with qers := withAt x.qers i none }
def createPdr (created : List CreatedPdr) (x : ASession) (ie : PdrIE) : ASession :=
  { x with pdrs := withAt x.pdrs ((ie.pdrId.getD 0).zeroExtend 32) (some ⟨ie.keyIn created, ie.ohr.getD 0, ie.filter?, ie.farId.getD 0, ie.qerId.getD 0⟩) }
/-- An Update PDR: outer header removal, FAR and QER (of clean requests, which give neither another key nor a filter). -/
def updatePdr (x : ASession) (ie : PdrIE) : ASession :=
  let i : U32 := (ie.pdrId.getD 0).zeroExtend 32
  { x with pdrs := withAt x.pdrs i ((x.pdrs i).map fun p => { p with ohr := ie.ohr.getD p.ohr, far := ie.farId.getD p.far, qer := ie.qerId.getD p.qer }) }
def removePdr (x : ASession) (d : Option U16) : ASession := { x with pdrs := withAt x.pdrs ((d.getD 0).zeroExtend 32) none }

/-- The session that an accepted establishment makes. -/
def established (r : EstReq) (created : List CreatedPdr) : ASession :=
  let x := r.createFar.foldl createFar {}
  let x := r.createQer.foldl createQer x
  r.createPdr.foldl (createPdr created) x

/-- The session after an accepted modification: of each kind of rule, first creations, then updates, then removals. -/
def modified (x : ASession) (r : ModReq) (created : List CreatedPdr) : ASession :=
  let x := r.createFar.foldl createFar x
  let x := r.updateFar.foldl updateFar x
  let x := r.removeFar.foldl removeFar x
  let x := r.createQer.foldl createQer x
  let x := r.updateQer.foldl updateQer x
  let x := r.removeQer.foldl removeQer x
  let x := r.createPdr.foldl (createPdr created) x
  let x := r.updatePdr.foldl updatePdr x
  r.removePdr.foldl removePdr x
end ASession

/-- What has been said about session `s` of peer `a` in a history (newest first), `none` if there is no such session: accepted requests
count, others do not; a peer that was lost has no sessions. -/
def said : List (Ev × Outcome) → Addr → U64 → Option ASession
  | [], _, _ => none
  | (.establish a r, .reply resp) :: h, b, s =>
    if resp.cause = 1 ∧ b = a ∧ resp.fseid = some s then some (ASession.established r resp.created) else said h b s
  | (.modify a r _, .reply resp) :: h, b, s =>
    if resp.cause = 1 ∧ b = a ∧ s = r.seid then (said h b s).map (·.modified r resp.created) else said h b s
  | (.delete a r _, .reply resp) :: h, b, s => if resp.cause = 1 ∧ b = a ∧ s = r.seid then none else said h b s
  | (.peerLost a _, _) :: h, b, s => if b = a then none else said h b s
  | _ :: h, b, s => said h b s

/-! What it means that the UPF's records say the same. -/

/-- Both are absent, or both are there and related. -/
def Both {α β : Type} (R : α → β → Prop) : Option α → Option β → Prop
  | none, none => True
  | some a, some b => R a b
  | _, _ => False

/-- The parameters of a FAR (the address in the byte order of the tables, the high octet of the description). -/
structure AFar.Is (a : AFar) (f : FarInfo) : Prop where
  action : f.action = a.action
  desc : f.ohc.toNat = a.desc.toNat / 256
  teid : f.teid = a.teid
  peer : ∀ k, k < 4 → (f.remoteIP.toNat / 256 ^ k) % 256 = (a.peer.toNat / 256 ^ (3 - k)) % 256
  tlm : f.tlm = a.tlm

/-- The parameters of a QER (bit rates in bit/s, with 32 bits). -/
structure AQer.Is (a : AQer) (q : QerInfo) : Prop where
  gateUL : q.gateUL = a.gateUL
  gateDL : q.gateDL = a.gateDL
  mbrUL : q.mbrUL.toNat = a.mbrUL.toNat * 1000 % 2 ^ 32
  mbrDL : q.mbrDL.toNat = a.mbrDL.toNat * 1000 % 2 ^ 32
  qfi : q.qfi = a.qfi

/-- A PDR of session `x`: its slots are those of the FAR and QER with these ids. -/
structure APdr.Is (x : Session) (a : APdr) (p : SPdr) : Prop where
  key : p.key = a.key
  ohr : p.info.ohr = a.ohr
  sdf : p.info.sdf = a.sdf
  far : ∃ f, x.fars.get? a.far = some f ∧ f.gid = p.info.farId
  qer : ∃ q, x.qers.get? a.qer = some q ∧ q.gid = p.info.qerId

/-- The record of the session is what was said. -/
structure ASession.Is (a : ASession) (x : Session) : Prop where
  fars : ∀ i, Both (fun (a : AFar) (f : SFar) => a.Is f.info) (a.fars i) (x.fars.get? i)
  qers : ∀ i, Both (fun (a : AQer) (q : SQer) => a.Is q.info) (a.qers i) (x.qers.get? i)
  pdrs : ∀ i, Both (APdr.Is x) (a.pdrs i) (x.pdrs.get? i)

/-! What it means for packets. -/

/-- It was said: session `s` of peer `a` has the PDR `p` under id `i`, with the FAR `f` and the QER `q`. -/
structure Said (h : List (Ev × Outcome)) (a : Addr) (s : U64) (i : U32) (p : APdr) (f : AFar) (q : AQer) : Prop where
  pdr : ∃ x, said h a s = some x ∧ x.pdrs i = some p ∧ x.fars p.far = some f ∧ x.qers p.qer = some q

/-- The PDR's filter, if it has one, matches the frame. -/
def APdr.fits (p : APdr) (f : List U8) : Prop := ∀ sdf, p.sdf = some sdf → ∃ fl, flowOf f p.key = some fl ∧ fl.sat (toKFilter sdf) = true

/-- FORW is set in Apply Action. -/
def AFar.forwards (f : AFar) : Prop := f.action.getLsbD 1 = true
/-- Outer Header Creation says GTP-U/UDP/IPv4. -/
def AFar.tunnels (f : AFar) : Prop := (f.desc.toNat / 256) % 2 = 1
/-- The traffic class of Transport Level Marking. -/
def AFar.tos (f : AFar) : U8 := BitVec.ofNat 8 (f.tlm.toNat / 256)
/-- The gate for the direction of the key is open. -/
def AQer.openFor (q : AQer) : PdrKey → Prop
  | .ul _ => q.gateUL = 0
  | .dl4 _ => q.gateDL = 0
  | .dl6 _ => q.gateDL = 0
/-- The frame may go on: FORW, gate open, and downlink frames have a tunnel. -/
structure Lets (p : APdr) (f : AFar) (q : AQer) : Prop where
  forw : f.forwards
  gate : q.openFor p.key
  tunnel : (∀ t, p.key ≠ .ul t) → f.tunnels

end Eupf
