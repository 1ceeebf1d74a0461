import Verif.Spec.Acceptance
/-
Specification vocabulary for C113: modifications the node can understand, and what they need.
-/
namespace Eupf

/-- A modification all parts of which can be used: Create IEs as in an establishment, Update IEs name the rule they are about (FARs: with parameters that can
be used; PDRs: with a PDI), Remove IEs for QERs and URRs name one. (The rules named need not exist, see C08.) -/
structure ModReq.usable (ueip : Bool) (r : ModReq) : Prop where
  far : ∀ c ∈ r.createFar, c.usable
  qer : ∀ c ∈ r.createQer, c.qerId.isSome
  urr : ∀ c ∈ r.createUrr, c.isSome
  pdr : ∀ c ∈ r.createPdr, c.usable ueip
  updFar : ∀ c ∈ r.updateFar, c.farId.isSome ∧ c.usable
  updQer : ∀ c ∈ r.updateQer, c.qerId.isSome
  updUrr : ∀ c ∈ r.updateUrr, c.isSome
  updPdr : ∀ c ∈ r.updatePdr, c.usable ueip
  remQer : ∀ c ∈ r.removeQer, c.isSome
  remUrr : ∀ c ∈ r.removeUrr, c.isSome

/-- There is room in the PDR tables for the PDRs to be created and for the new keys of the PDRs to be updated. -/
structure ModRoom (dp : BpfObjects) (r : ModReq) : Prop where
  ul : dp.pdrUl.m.size + (r.createPdr.filter (·.uplink)).length + r.updatePdr.length ≤ dp.pdrUl.cap
  dl4 : dp.pdrDl4.m.size + (r.createPdr.filter (!·.uplink)).length + r.updatePdr.length ≤ dp.pdrDl4.cap
  dl6 : dp.pdrDl6.m.size + (r.createPdr.filter (!·.uplink)).length + r.updatePdr.length ≤ dp.pdrDl6.cap

/-- The PDRs of the session can be removed: each has an entry, no two share one. -/
structure Session.removable (x : Session) (dp : BpfObjects) : Prop where
  there : ∀ i p, x.pdrs.get? i = some p → (dp.entry? p.key).isSome
  apart : ∀ i j p q, x.pdrs.get? i = some p → x.pdrs.get? j = some q → p.key = q.key → i = j

end Eupf
