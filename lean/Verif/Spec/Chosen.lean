import Verif.Node
/-
Specification vocabulary for C14-C17: which PDRs ask the node to choose, what the node reports, what is in its pools.
-/
namespace Eupf

/-- The PDR asks for a TEID, with this CHOOSE ID (if any). -/
def PdrIE.asksTeid (ie : PdrIE) : Option (Option U8) :=
  match ie.pdi with
  | some { fteid := some (some f), .. } => if f.ch then some f.chooseId else none
  | _ => none
/-- The PDR has no F-TEID and asks for an IPv4 address. -/
def PdrIE.asksIp (ie : PdrIE) : Bool :=
  match ie.pdi with
  | some { fteid := none, ueip := some (some u), .. } => u.chv4
  | _ => false

/-- PDRs of a request that ask for a TEID: PDR id and CHOOSE ID, in order. -/
def teidAskers (l : List PdrIE) : List (Option U16 × Option U8) := l.filterMap fun ie => ie.asksTeid.map fun c => (ie.pdrId, c)
/-- The chosen TEIDs a response reports: PDR id and TEID, in order. -/
def reportedTeids (l : List CreatedPdr) : List (U16 × U32) := l.filterMap fun c => match c with
  | .fteid i t _ => some (i, t)
  | .ueIp _ _ => none

/-- Free TEIDs and addresses. -/
def freeTeids (rm : Option ResourceManager) : List U32 := rm.elim [] fun r => r.fteidm.freeTEIDs
def freeIps (rm : Option ResourceManager) : List Ip4 := rm.elim [] fun r => r.ipam.freeIPs

end Eupf
