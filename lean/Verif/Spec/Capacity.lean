import Verif.Spec.Footprint
/-
Specification vocabulary for C94, C95: how many rules the live sessions have, and requests that cost no table slots for good.
-/
namespace Eupf

/-- The live sessions. -/
def Node.live (n : Node) : List Session := n.assocs.values.flatMap (fun a => a.sessions.values)
/-- The number of FARs, QERs and URRs of live sessions. -/
def Node.fars (n : Node) : Nat := (n.live.map (·.fars.size)).sum
def Node.qers (n : Node) : Nat := (n.live.map (·.qers.size)).sum
def Node.urrs (n : Node) : Nat := (n.live.map (·.urrs.size)).sum

/-- Rules are created under ids that are new in the session `x`, different ones. -/
structure NewIds (fars : List FarIE) (qers : List QerIE) (urrs : List (Option U32)) (x : Session) : Prop where
  far : (fars.map (·.farId.getD 0)).Nodup
  farNew : ∀ c ∈ fars, x.fars.get? (c.farId.getD 0) = none
  qer : (qers.map (·.qerId)).Nodup
  qerNew : ∀ c ∈ qers, ∀ j, c.qerId = some j → x.qers.get? j = none
  urr : urrs.Nodup
  urrNew : ∀ j, some j ∈ urrs → x.urrs.get? j = none

/-- The answer does not have the cause "rule creation/modification failure" (73). -/
def Outcome.noFailure (o : Outcome) : Prop := ∀ resp, o = .reply resp → resp.cause ≠ 73

/-- the same as a test -/
def Outcome.noFailureB : Outcome → Bool
  | .reply resp => decide (resp.cause ≠ 73)
  | _ => true

/-- Requests that cost nothing for good: rules are created under new ids, modifications refer to known rules, and no establishment fails
half-way (it is accepted, or refused because of an unknown peer or a missing IE). -/
structure Tidy (n : Node) (e : Ev) : Prop where
  known : e.refsKnown n
  est : ∀ a r, e = .establish a r → NewIds r.createFar r.createQer r.createUrr (Session.new 0 0) ∧ (n.step e).2.noFailure
  modif : ∀ a r o x, e = .modify a r o → n.session? a r.seid = some x → NewIds r.createFar r.createQer r.createUrr x

/-- A lost peer has no session with URRs. -/
def LosesNoUrr (n : Node) (e : Ev) : Prop :=
  ∀ a o s x, e = .peerLost a o → n.session? a s = some x → ∀ i, x.urrs.get? i = none

/-- The number of free slots. -/
def slotsFree (t : IdTracker) : Nat := ((List.range t.maxSize.toNat).filter fun i => t.free (BitVec.ofNat 32 i)).length
def Node.freeFars (n : Node) : Nat := slotsFree n.dp.farIds
def Node.freeQers (n : Node) : Nat := slotsFree n.dp.qerIds
def Node.freeUrrs (n : Node) : Nat := slotsFree n.dp.urrIds

end Eupf
