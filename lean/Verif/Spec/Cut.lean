import Verif.Session
/-
Specification vocabulary: what part of a request has been done at some moment (C109 and following). The order is that of
pfcp_session_handlers.go 41-120 (establishment) and 251-461 (modification).
-/
namespace Eupf

/-- The establishment `r'` is `r` up to some IE. -/
structure EstReq.Cut (r' r : EstReq) : Prop where
  seq : r'.seq = r.seq
  nodeId : r'.nodeId = r.nodeId
  cpFseid : r'.cpFseid = r.cpFseid
  far : r'.createFar <+: r.createFar
  qer : r'.createQer <+: r.createQer
  urr : r'.createUrr <+: r.createUrr
  pdr : r'.createPdr <+: r.createPdr
  qerAfter : r'.createQer ≠ [] → r'.createFar = r.createFar
  urrAfter : r'.createUrr ≠ [] → r'.createFar = r.createFar ∧ r'.createQer = r.createQer
  pdrAfter : r'.createPdr ≠ [] → r'.createFar = r.createFar ∧ r'.createQer = r.createQer ∧ r'.createUrr = r.createUrr

/-- The modification `r'` is `r` up to some IE, in the order in which they are processed. -/
structure ModReq.Cut (r' r : ModReq) : Prop where
  seq : r'.seq = r.seq
  seid : r'.seid = r.seid
  cpFseid : r'.cpFseid = r.cpFseid
  createFar : r'.createFar <+: r.createFar
  updateFar : r'.updateFar <+: r.updateFar
  removeFar : r'.removeFar <+: r.removeFar
  createQer : r'.createQer <+: r.createQer
  updateQer : r'.updateQer <+: r.updateQer
  removeQer : r'.removeQer <+: r.removeQer
  createUrr : r'.createUrr <+: r.createUrr
  updateUrr : r'.updateUrr <+: r.updateUrr
  removeUrr : r'.removeUrr <+: r.removeUrr
  createPdr : r'.createPdr <+: r.createPdr
  updatePdr : r'.updatePdr <+: r.updatePdr
  removePdr : r'.removePdr <+: r.removePdr
  far1 : r'.updateFar ≠ [] ∨ r'.removeFar ≠ [] → r'.createFar = r.createFar
  far2 : r'.removeFar ≠ [] → r'.updateFar = r.updateFar
  qer1 : r'.updateQer ≠ [] ∨ r'.removeQer ≠ [] → r'.createQer = r.createQer
  qer2 : r'.removeQer ≠ [] → r'.updateQer = r.updateQer
  urr1 : r'.updateUrr ≠ [] ∨ r'.removeUrr ≠ [] → r'.createUrr = r.createUrr
  urr2 : r'.removeUrr ≠ [] → r'.updateUrr = r.updateUrr
  qer0 : r'.createQer ≠ [] ∨ r'.updateQer ≠ [] ∨ r'.removeQer ≠ [] → r'.createFar = r.createFar ∧ r'.updateFar = r.updateFar ∧ r'.removeFar = r.removeFar
  urr0 : r'.createUrr ≠ [] ∨ r'.updateUrr ≠ [] ∨ r'.removeUrr ≠ [] → r'.createFar = r.createFar ∧ r'.updateFar = r.updateFar ∧ r'.removeFar = r.removeFar ∧
    r'.createQer = r.createQer ∧ r'.updateQer = r.updateQer ∧ r'.removeQer = r.removeQer
  rules : r'.createPdr ≠ [] ∨ r'.updatePdr ≠ [] ∨ r'.removePdr ≠ [] → r'.createFar = r.createFar ∧ r'.updateFar = r.updateFar ∧ r'.removeFar = r.removeFar ∧
    r'.createQer = r.createQer ∧ r'.updateQer = r.updateQer ∧ r'.removeQer = r.removeQer ∧
    r'.createUrr = r.createUrr ∧ r'.updateUrr = r.updateUrr ∧ r'.removeUrr = r.removeUrr
  pdr1 : r'.updatePdr ≠ [] ∨ r'.removePdr ≠ [] → r'.createPdr = r.createPdr
  pdr2 : r'.removePdr ≠ [] → r'.updatePdr = r.updatePdr

/-- The PDR tables are the same. -/
structure SamePdrs (b b' : BpfObjects) : Prop where
  ul : b'.pdrUl = b.pdrUl
  dl4 : b'.pdrDl4 = b.pdrDl4
  dl6 : b'.pdrDl6 = b.pdrDl6

/-- The FAR tables are the same, and the QER tables but for the timers that packets change. -/
structure SameRules (b b' : BpfObjects) : Prop where
  far : b'.far = b.far
  qer : b'.qer.size = b.qer.size ∧ ∀ i, { b'.qer.val i with startUL := 0, startDL := 0 } = { b.qer.val i with startUL := 0, startDL := 0 }

end Eupf
