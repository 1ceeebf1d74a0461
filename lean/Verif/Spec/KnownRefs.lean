import Verif.NodeLemmas
/-
The assumption under which the slot properties C08, C09 hold: control planes only refer to rules that exist.
-/
namespace Eupf

/-- A modification refers only to rules the session has or gets in the same request, and removes each rule
at most once. -/
structure RefsKnown (r : ModReq) (s : Session) : Prop where
  updFar : ∀ ie ∈ r.updateFar, ∀ i, ie.farId = some i →
    (s.fars.get? i).isSome ∨ ∃ c ∈ r.createFar, c.farId.getD 0 = i
  remFar : ∀ id ∈ r.removeFar, (s.fars.get? (id.getD 0)).isSome ∨ ∃ c ∈ r.createFar, c.farId.getD 0 = id.getD 0
  remFarOnce : (r.removeFar.map (·.getD 0)).Nodup
  updQer : ∀ ie ∈ r.updateQer, ∀ i, ie.qerId = some i → (s.qers.get? i).isSome ∨ ∃ c ∈ r.createQer, c.qerId = some i
  remQer : ∀ i, some i ∈ r.removeQer → (s.qers.get? i).isSome ∨ ∃ c ∈ r.createQer, c.qerId = some i
  remQerOnce : r.removeQer.Nodup
  updUrr : ∀ i, some i ∈ r.updateUrr → (s.urrs.get? i).isSome ∨ some i ∈ r.createUrr
  remUrr : ∀ i, some i ∈ r.removeUrr → (s.urrs.get? i).isSome ∨ some i ∈ r.createUrr
  remUrrOnce : r.removeUrr.Nodup

/-- The event does not refer to unknown rules. -/
def Ev.refsKnown (n : Node) : Ev → Prop
  | .modify a r _ => ∀ sess, n.session? a r.seid = some sess → RefsKnown r sess
  | _ => True

/-- Histories in which every modification only refers to known rules. Packets may be processed at any time. -/
inductive GoodReach (n0 : Node) : Node → Prop
  | init : GoodReach n0 n0
  | step {n : Node} (e : Ev) : GoodReach n0 n → e.refsKnown n → (n.step e).2 ≠ .crash → GoodReach n0 (n.step e).1
  | traffic {n : Node} {dp : BpfObjects} : GoodReach n0 n → TrafficEffect n.dp dp → GoodReach n0 { n with dp := dp }

end Eupf
