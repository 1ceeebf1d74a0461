import Verif.Bpf
import Verif.ResourceManager
/-
PFCP session records and request contents: cmd/core/session.go, and the information elements the handlers
read. The go-pfcp library (octets to IEs) is trusted: an IE field is `none` when its accessor returns an
error. Where the code distinguishes a missing IE from an undecodable one, the field is
`Option (Option α)`: `none` = absent (nil), `some none` = undecodable, `some (some a)` = value.
-/
namespace Eupf

/-- cmd/core/session.go 31-38 `SPDRInfo` -/
structure SPdr where
  pdrId : U32 := 0
  info : PdrInfo := {}
  teid : U32 := 0
  ipv4 : Option Ip4 := none
  ipv6 : Option Ip6 := none
  allocated : Bool := false
deriving DecidableEq, Repr, Inhabited

/-- cmd/core/session.go 40-43 `SFarInfo` -/
structure SFar where
  info : FarInfo := {}
  gid : U32 := 0
deriving DecidableEq, Repr, Inhabited

/-- cmd/core/session.go 45-48 `SQerInfo` -/
structure SQer where
  info : QerInfo := {}
  gid : U32 := 0
deriving DecidableEq, Repr, Inhabited

/-- cmd/core/session.go 50-54 `SUrrInfo` -/
structure SUrr where
  info : UrrInfo := {}
  gid : U32 := 0
  seqn : U32 := 0
deriving DecidableEq, Repr, Inhabited

/-- cmd/core/session.go 9-16 `Session` -/
structure Session where
  localSEID : U64
  remoteSEID : U64
  pdrs : GoMap U32 SPdr
  fars : GoMap U32 SFar
  qers : GoMap U32 SQer
  urrs : GoMap U32 SUrr
deriving DecidableEq

namespace Session
/-- cmd/core/session.go 18-27 `NewSession` -/
def new (l r : U64) : Session := ⟨l, r, GoMap.empty, GoMap.empty, GoMap.empty, GoMap.empty⟩
/-- cmd/core/session.go 56-61 `NewFar` -/
def newFar (s : Session) (id gid : U32) (f : FarInfo) : Session := { s with fars := s.fars.set id ⟨f, gid⟩ }
/-- cmd/core/session.go 69-71 `GetFar`: the zero value for an unknown id -/
def getFar (s : Session) (id : U32) : SFar := (s.fars.get? id).getD {}
/-- cmd/core/session.go 63-67 `UpdateFar` -/
def updateFar (s : Session) (id : U32) (f : FarInfo) : Session :=
  { s with fars := s.fars.set id { s.getFar id with info := f } }
/-- cmd/core/session.go 73-77 `RemoveFar` (the removed value is `getFar`) -/
def removeFar (s : Session) (id : U32) : Session := { s with fars := s.fars.erase id }
/-- cmd/core/session.go 79-84 `NewQer` -/
def newQer (s : Session) (id gid : U32) (q : QerInfo) : Session := { s with qers := s.qers.set id ⟨q, gid⟩ }
/-- cmd/core/session.go 92-94 `GetQer` -/
def getQer (s : Session) (id : U32) : SQer := (s.qers.get? id).getD {}
/-- cmd/core/session.go 86-90 `UpdateQer` -/
def updateQer (s : Session) (id : U32) (q : QerInfo) : Session :=
  { s with qers := s.qers.set id { s.getQer id with info := q } }
/-- cmd/core/session.go 96-100 `RemoveQer` -/
def removeQer (s : Session) (id : U32) : Session := { s with qers := s.qers.erase id }
/-- cmd/core/session.go 102-107 `NewUrr` -/
def newUrr (s : Session) (id gid : U32) (u : UrrInfo) : Session := { s with urrs := s.urrs.set id ⟨u, gid, 0⟩ }
/-- cmd/core/session.go 115-117 `GetUrr` -/
def getUrr (s : Session) (id : U32) : SUrr := (s.urrs.get? id).getD {}
/-- cmd/core/session.go 109-113 `UpdateUrr` -/
def updateUrr (s : Session) (id : U32) (u : UrrInfo) : Session :=
  { s with urrs := s.urrs.set id { s.getUrr id with info := u } }
/-- cmd/core/session.go 119-123 `RemoveUrr` -/
def removeUrr (s : Session) (id : U32) : Session := { s with urrs := s.urrs.erase id }
/-- cmd/core/session.go 125-127 `PutPDR` -/
def putPdr (s : Session) (id : U32) (p : SPdr) : Session := { s with pdrs := s.pdrs.set id p }
/-- cmd/core/session.go 129-131 `GetPDR` -/
def getPdr (s : Session) (id : U32) : SPdr := (s.pdrs.get? id).getD {}
/-- cmd/core/session.go 133-137 `RemovePDR` -/
def removePdr (s : Session) (id : U32) : Session := { s with pdrs := s.pdrs.erase id }
end Session

/-! ### information elements -/

inductive FarKind
  | create
  | update
  | other
deriving DecidableEq, Repr

/-- Outer Header Creation: description, TEID, IPv4 address when `HasIPv4()`, `HasIPv6()`. -/
structure Ohc where
  desc : U16
  teid : U32
  ipv4 : Option Ip4
  hasIPv6 : Bool
deriving DecidableEq, Repr

/-- Create FAR / Update FAR. `forward`: `none` when the (Update) Forwarding Parameters are absent or
undecodable, else whether an Outer Header Creation IE is inside. -/
structure FarIE where
  kind : FarKind
  farId : Option U32
  applyAction : Option (List U8) := none
  forward : Option (Option (Option Ohc)) := none
  tlm : Option U16 := none
deriving DecidableEq, Repr

/-- Create QER / Update QER; MBRs in kbit/s. -/
structure QerIE where
  qerId : Option U32
  gateDL : Option U8 := none
  gateUL : Option U8 := none
  mbrDL : Option U64 := none
  mbrUL : Option U64 := none
  qfi : Option U8 := none
deriving DecidableEq, Repr

/-- F-TEID: `ch` is the CHOOSE flag, `chooseId` the CHOOSE ID when `HasChID()`. -/
structure Fteid where
  teid : U32
  ch : Bool := false
  chooseId : Option U8 := none
deriving DecidableEq, Repr

/-- UE IP Address: `chv4` is flag bit 5 (pdr_creation_context.go 233-235). -/
structure UeIp where
  chv4 : Bool := false
  ipv4 : Option Ip4 := none
  ipv6 : Option Ip6 := none
deriving DecidableEq, Repr

/-- PDI: whether it has a Source Interface IE, first F-TEID IE and first UE IP Address IE inside. -/
structure Pdi where
  fteid : Option (Option Fteid) := none
  ueip : Option (Option UeIp) := none
  source : Bool := true
deriving DecidableEq, Repr

/-- Create PDR / Update PDR. `urrIds`: the decodable URR ids in order (pdr_creation_context.go 29-64). -/
structure PdrIE where
  pdrId : Option U16
  ohr : Option U8 := none
  farId : Option U32 := none
  qerId : Option U32 := none
  urrIds : Option (List U32) := none
  pdi : Option Pdi := none
  sdf : Option (List Char) := none
deriving DecidableEq, Repr

/-- Session Establishment Request -/
structure EstReq where
  seq : U32
  nodeId : Option (Option Unit)
  cpFseid : Option (Option U64)
  createFar : List FarIE := []
  createQer : List QerIE := []
  createUrr : List (Option U32) := []
  createPdr : List PdrIE := []

/-- Session Modification Request. Create/Update/Remove URR and Remove FAR/QER/PDR only carry an id. -/
structure ModReq where
  seid : U64
  seq : U32
  cpFseid : Option (Option U64) := none
  createFar : List FarIE := []
  updateFar : List FarIE := []
  removeFar : List (Option U32) := []
  createQer : List QerIE := []
  updateQer : List QerIE := []
  removeQer : List (Option U32) := []
  createUrr : List (Option U32) := []
  updateUrr : List (Option U32) := []
  removeUrr : List (Option U32) := []
  createPdr : List PdrIE := []
  updatePdr : List PdrIE := []
  removePdr : List (Option U16) := []

/-- Session Deletion Request -/
structure DelReq where
  seid : U64
  seq : U32

/-- Usage Report IE (pfcp_session_handlers.go 193-199, 397-403); end time not modelled. -/
structure UsageReport where
  urrId : U32
  seqn : U32
  total : U64
  ul : U64
  dl : U64
deriving DecidableEq, Repr

/-- Created PDR IE (cmd/core/pdr.go 33-47) -/
inductive CreatedPdr
  | ueIp (pdrId : U16) (ip : Ip4)
  | fteid (pdrId : U16) (teid : U32) (n3 : Ip4)
deriving DecidableEq, Repr

end Eupf
