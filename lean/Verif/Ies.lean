import Verif.Session
/-
Grouped information elements: how the handlers read the child IEs of Create/Update PDR, PDI, Create/Update FAR and (Update) Forwarding
Parameters. The accessors of go-pfcp (`QERID()`, `FARID()`, `PDI()`, `SDFFilter()`, ...) return the first child IE of their type, decoded
(trusted); an undecodable child carries `none`. Child IEs that no code reads are kept here so that statements can be made about them.
-/
namespace Eupf

/-- Children of a PDI. Source Interface (its value is only printed: display_utils.go 356-358), F-TEID, UE IP Address, SDF Filter (flow
description, ToS traffic class), anything else (Network Instance, QFI, Application ID, Ethernet filters, ...). -/
inductive PdiChild
  | source (iface : Option U8)
  | fteid (f : Option Fteid)
  | ueip (u : Option UeIp)
  | sdf (fd : Option (List Char)) (ttc : Option U16)
  | other (type : U16)
deriving DecidableEq, Repr

/-- Children of a Create PDR or Update PDR. -/
inductive PdrChild
  | pdrId (id : Option U16)
  | precedence (p : U32)
  | ohr (d : Option U8)
  | farId (id : Option U32)
  | qerId (id : Option U32)
  | urrId (id : Option U32)
  | pdi (cs : List PdiChild)
  | other (type : U16)
deriving DecidableEq, Repr

/-- Children of Forwarding Parameters and Update Forwarding Parameters. -/
inductive FwdChild
  | destination (iface : U8)
  | ohc (o : Option Ohc)
  | tlm (t : Option U16)
  | other (type : U16)
deriving DecidableEq, Repr

/-- Children of a Create FAR or Update FAR; `forward`: (Update) Forwarding Parameters, as the type of the FAR has it. -/
inductive FarChild
  | farId (id : Option U32)
  | applyAction (a : Option (List U8))
  | forward (cs : List FwdChild)
  | tlm (t : Option U16)
  | other (type : U16)
deriving DecidableEq, Repr

/-! Selectors: the value of a child IE of the type asked for. -/

/-- go-pfcp `x.Type == FTEID` -/
def PdiChild.fteid? : PdiChild → Option (Option Fteid)
  | .fteid f => some f
  | _ => none
/-- go-pfcp `x.Type == UEIPAddress` -/
def PdiChild.ueip? : PdiChild → Option (Option UeIp)
  | .ueip u => some u
  | _ => none
/-- go-pfcp `x.Type == SourceInterface` -/
def PdiChild.isSource : PdiChild → Bool
  | .source _ => true
  | _ => false
/-- go-pfcp `x.Type == SDFFilter` -/
def PdiChild.sdf? : PdiChild → Option (Option (List Char))
  | .sdf fd _ => some fd
  | _ => none
/-- go-pfcp `x.Type == PDRID` -/
def PdrChild.pdrId? : PdrChild → Option (Option U16)
  | .pdrId i => some i
  | _ => none
/-- go-pfcp `x.Type == OuterHeaderRemoval` -/
def PdrChild.ohr? : PdrChild → Option (Option U8)
  | .ohr i => some i
  | _ => none
/-- go-pfcp `x.Type == FARID` -/
def PdrChild.farId? : PdrChild → Option (Option U32)
  | .farId i => some i
  | _ => none
/-- go-pfcp `x.Type == QERID` -/
def PdrChild.qerId? : PdrChild → Option (Option U32)
  | .qerId i => some i
  | _ => none
/-- go-pfcp `x.Type == URRID` and decodable -/
def PdrChild.urrId? : PdrChild → Option U32
  | .urrId i => i
  | _ => none
/-- go-pfcp `x.Type == PDI` -/
def PdrChild.pdi? : PdrChild → Option (List PdiChild)
  | .pdi p => some p
  | _ => none
/-- go-pfcp `x.Type == OuterHeaderCreation` -/
def FwdChild.ohc? : FwdChild → Option (Option Ohc)
  | .ohc o => some o
  | _ => none
/-- go-pfcp `x.Type == FARID` -/
def FarChild.farId? : FarChild → Option (Option U32)
  | .farId i => some i
  | _ => none
/-- go-pfcp `x.Type == ApplyAction` -/
def FarChild.applyAction? : FarChild → Option (Option (List U8))
  | .applyAction a => some a
  | _ => none
/-- go-pfcp `x.Type == ForwardingParameters` (or `UpdateForwardingParameters`) -/
def FarChild.forward? : FarChild → Option (List FwdChild)
  | .forward f => some f
  | _ => none
/-- go-pfcp `x.Type == TransportLevelMarking` -/
def FarChild.tlm? : FarChild → Option (Option U16)
  | .tlm t => some t
  | _ => none

/-- cmd/core/pfcp_session_handlers.go 516-521 `findIEindex` on a PDI, then the accessor: pdr_creation_context.go 104-108 (F-TEID), 135-139
(UE IP Address); display_utils.go 356 (Source Interface). -/
def Pdi.ofChildren (cs : List PdiChild) : Pdi where
  fteid := cs.findSome? PdiChild.fteid?
  ueip := cs.findSome? PdiChild.ueip?
  source := cs.any PdiChild.isSource

/-- cmd/core/pdr_creation_context.go 91 `pdr.SDFFilter()` on a PDI: the first SDF Filter IE; its flow description is all that is read
(lines 92-94). -/
def sdfOfChildren (cs : List PdiChild) : Option (List Char) :=
  (cs.findSome? PdiChild.sdf?).join

/-- cmd/core/pdr_creation_context.go 29-64 `GetURRIDs`: all decodable URR ids, in order. -/
def urrIdsOfChildren (cs : List PdrChild) : List U32 :=
  cs.filterMap PdrChild.urrId?

/-- What the handlers read of a Create/Update PDR: cmd/core/pdr_creation_context.go 66-93, pfcp_session_handlers.go 88, 411, 434
(`PDRID()`). -/
def PdrIE.ofChildren (cs : List PdrChild) : PdrIE :=
  { pdrId := (cs.findSome? PdrChild.pdrId?).join
    ohr := (cs.findSome? PdrChild.ohr?).join
    farId := (cs.findSome? PdrChild.farId?).join
    qerId := (cs.findSome? PdrChild.qerId?).join
    urrIds := some (urrIdsOfChildren cs)
    pdi := (cs.findSome? PdrChild.pdi?).map Pdi.ofChildren
    sdf := (cs.findSome? PdrChild.pdi?).bind sdfOfChildren }

/-- cmd/core/pfcp_session_handlers.go 581 `findIEindex(forward, 84)`, 585 `OuterHeaderCreation()`. -/
def ohcOfChildren (cs : List FwdChild) : Option (Option Ohc) :=
  cs.findSome? FwdChild.ohc?

/-- cmd/core/pfcp_session_handlers.go 632-639 `GetTransportLevelMarking`: the first Transport Level Marking IE among the children of the
FAR itself. -/
def tlmOfChildren (cs : List FarChild) : Option U16 :=
  (cs.findSome? FarChild.tlm?).join

/-- What the handlers read of a Create FAR (`kind = create`) or Update FAR (`kind = update`): cmd/core/pfcp_session_handlers.go 568-604. -/
def FarIE.ofChildren (kind : FarKind) (cs : List FarChild) : FarIE where
  kind := kind
  farId := (cs.findSome? FarChild.farId?).join
  applyAction := (cs.findSome? FarChild.applyAction?).join
  forward := (cs.findSome? FarChild.forward?).map ohcOfChildren
  tlm := tlmOfChildren cs

/-- A Session Establishment Request with the grouped IEs spelled out. -/
structure RawEst where
  seq : U32
  nodeId : Option (Option Unit)
  cpFseid : Option (Option U64)
  createFar : List (List FarChild) := []
  createQer : List QerIE := []
  createUrr : List (Option U32) := []
  createPdr : List (List PdrChild) := []

/-- What the handler (cmd/core/pfcp_session_handlers.go 20-146) reads of it. -/
def RawEst.req (r : RawEst) : EstReq where
  seq := r.seq
  nodeId := r.nodeId
  cpFseid := r.cpFseid
  createFar := r.createFar.map (FarIE.ofChildren .create)
  createQer := r.createQer
  createUrr := r.createUrr
  createPdr := r.createPdr.map PdrIE.ofChildren

end Eupf
