import Verif.Node
/-
Specification vocabulary for C103: a request that arrives a second time (the peer did not see the answer in time and
sent it again, unchanged, or the network duplicated it).
-/
namespace Eupf

/-- The request `e` arrives at `n` and then, with nothing in between, once more. The second arrival is executed once with the first: it is answered
(or not) exactly as the first was and changes nothing any more. -/
def Node.once (n : Node) (e : Ev) : Prop :=
  ((n.step e).1.step e).2 = (n.step e).2 ∧ ((n.step e).1.step e).1 = (n.step e).1

/-- Two sessions have the same rules. -/
structure Session.same (s t : Session) : Prop where
  local_ : s.localSEID = t.localSEID
  remote : s.remoteSEID = t.remoteSEID
  fars : ∀ i, s.fars.get? i = t.fars.get? i
  qers : ∀ i, s.qers.get? i = t.qers.get? i
  urrs : s.urrs = t.urrs
  pdrs : s.pdrs = t.pdrs

/-- The request only updates FARs and QERs, each of them at most once. -/
structure ModReq.updatesOnly (r : ModReq) : Prop where
  createFar : r.createFar = []
  removeFar : r.removeFar = []
  createQer : r.createQer = []
  removeQer : r.removeQer = []
  createUrr : r.createUrr = []
  updateUrr : r.updateUrr = []
  removeUrr : r.removeUrr = []
  createPdr : r.createPdr = []
  updatePdr : r.updatePdr = []
  removePdr : r.removePdr = []
  fars : (r.updateFar.map (·.farId)).Nodup
  qers : (r.updateQer.map (·.qerId)).Nodup

end Eupf
