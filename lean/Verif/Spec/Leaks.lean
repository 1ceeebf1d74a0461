import Verif.Spec.Footprint
import Verif.Props.NeverConfigured
/-
Specification vocabulary for C87: TEIDs and addresses come back to the pools.
-/
namespace Eupf

/-- TEID `t` is on loan to PDR `i` of the session with CP SEID `k` -/
def Lent (rm : Option ResourceManager) (k : U64) (i t : U32) : Prop :=
  ∃ r m, rm = some r ∧ r.fteidm.busyTEIDs.get? k = some m ∧ m.get? i = some t

/-- The answer says that the request was accepted. -/
def Outcome.ok (o : Outcome) : Prop := ∃ resp, o = .reply resp ∧ resp.cause = 1

/-- Requests as a careful peer sends them, in the state `n` in which they arrive:
* establishments: PDR IDs differ, no live session has the CP SEID, and if the UPF is to choose TEIDs the request is accepted;
* modifications do not change the CP SEID; new PDRs have new IDs, different ones; updated PDRs do not ask for a TEID and give none that is 0;
  requests that create, update or remove PDRs are accepted;
* when a peer is lost, each of its sessions that has a TEID has an uplink PDR which is installed and is not shared with another session of it. -/
def Careful (n : Node) : Ev → Prop
  | .establish a r => (r.createPdr.map (·.pdrId)).Nodup ∧ (∀ c b s x, r.cpFseid = some (some c) → n.session? b s = some x → x.remoteSEID ≠ c) ∧
      ((∃ ie ∈ r.createPdr, ie.asksTeid.isSome = true) → (n.step (.establish a r)).2.ok)
  | .modify a r o => (∀ c, r.cpFseid ≠ some (some c)) ∧ (r.createPdr.map (·.pdrId)).Nodup ∧
      (∀ x, n.session? a r.seid = some x → ∀ ie ∈ r.createPdr, ∀ id, ie.pdrId = some id → x.pdrs.get? (id.zeroExtend 32) = none) ∧
      (∀ ie ∈ r.updatePdr, ie.asksTeid = none ∧ ¬ ie.givesTeid 0) ∧
      (r.createPdr ≠ [] ∨ r.updatePdr ≠ [] ∨ r.removePdr ≠ [] → (n.step (.modify a r o)).2.ok)
  | .peerLost a _ => ∀ s x, n.session? a s = some x → (∃ i p, x.pdrs.get? i = some p ∧ p.teid ≠ 0) →
      ∃ i p, x.pdrs.get? i = some p ∧ p.teid ≠ 0 ∧ p.key = .ul p.teid ∧ (n.dp.entry? p.key).isSome ∧
        ∀ s' x' i' p', s' ≠ s → n.session? a s' = some x' → x'.pdrs.get? i' = some p' → p'.key ≠ p.key
  | _ => True

/-- The establishment or modification request gives this CP SEID. -/
def Ev.givesCpSeid (c : U64) : Ev → Prop
  | .establish _ r => r.cpFseid = some (some c)
  | .modify _ r _ => r.cpFseid = some (some c)
  | _ => False

end Eupf
