import Verif.Spec.Capacity
import Verif.Spec.Chosen
import Verif.Spec.Leaks
import Verif.Spec.SdfGrammar
/-
Specification vocabulary for C95, C96: requests the node can understand, and what they need.
-/
namespace Eupf

/-- A Create FAR the node can use: the Apply Action, if present, is not empty; the Outer Header Creation, if present, can be decoded and has no IPv6 address. -/
structure FarIE.usable (ie : FarIE) : Prop where
  kind : ie.kind ≠ .other
  action : ie.applyAction ≠ some []
  header : ∀ o, ie.forward = some (some o) → ∃ h, o = some h ∧ h.hasIPv6 = false

/-- A UE IP Address IE the node can use: it gives an address, or asks for an IPv4 address and the node gives addresses. -/
def UeIp.usable (ueip : Bool) (u : UeIp) : Prop := u.ipv4.isSome ∨ u.ipv6.isSome ∨ (ueip = true ∧ u.chv4 = true)

/-- A Create PDR the node can use: it has a PDR ID, a PDI with Source Interface, F-TEID and UE IP Address IEs (if present) that can be decoded, and a flow
description (if present) of the supported language. -/
structure PdrIE.usable (ueip : Bool) (ie : PdrIE) : Prop where
  id : ie.pdrId.isSome
  pdi : ∃ d, ie.pdi = some d ∧ d.source = true ∧ d.fteid ≠ some none ∧ (d.fteid = none → ∀ u, d.ueip = some u → ∃ v, u = some v ∧ v.usable ueip)
  filter : ∀ t, ie.sdf = some t → t = [] ∨ ∃ r, SdfText t r

/-- A request all rules of which can be used. -/
structure EstReq.usable (ueip : Bool) (r : EstReq) : Prop where
  far : ∀ c ∈ r.createFar, c.usable
  qer : ∀ c ∈ r.createQer, c.qerId.isSome
  urr : ∀ c ∈ r.createUrr, c.isSome
  pdr : ∀ c ∈ r.createPdr, c.usable ueip

/-- The CHOOSE IDs of the PDRs that ask for a TEID. -/
def chooseIds (l : List PdrIE) : List (Option U8) := l.filterMap (·.asksTeid)
/-- How many TEIDs the PDRs need: one for each that gives no CHOOSE ID, and one for each CHOOSE ID. -/
def teidsNeeded (l : List PdrIE) : Nat := ((chooseIds l).filter (·.isNone)).length + ((chooseIds l).filterMap id).eraseDups.length

/-- The PDR asks for an IPv4 address and gives none it could have instead. -/
def PdrIE.mustGetIp (ie : PdrIE) : Bool :=
  match ie.pdi with
  | some { fteid := none, ueip := some (some u), .. } => u.chv4 && u.ipv4.isNone && u.ipv6.isNone
  | _ => false

/-- The PDR goes to the uplink table. -/
def PdrIE.uplink (ie : PdrIE) : Bool :=
  match ie.pdi with
  | some d => d.fteid.isSome || d.ueip.isNone
  | none => true

/-- There is room for the PDRs in the PDR tables. -/
structure PdrRoom (dp : BpfObjects) (l : List PdrIE) : Prop where
  ul : dp.pdrUl.m.size + (l.filter (·.uplink)).length ≤ dp.pdrUl.cap
  dl4 : dp.pdrDl4.m.size + (l.filter (!·.uplink)).length ≤ dp.pdrDl4.cap
  dl6 : dp.pdrDl6.m.size + (l.filter (!·.uplink)).length ≤ dp.pdrDl6.cap

end Eupf
