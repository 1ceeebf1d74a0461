import Verif.Spec.Ledger
import Verif.Spec.Keys
import Verif.Spec.Chosen
import Verif.Spec.KnownRefs
/-
Specification vocabulary for the isolation of sessions in the forwarding plane (C64) and for end-to-end statements (C65, C66):
which messages are about a session, which match keys a message names, which keys are free in the pools.
-/
namespace Eupf

/-- The Create/Update PDR gives the key explicitly: a TEID that is not to be chosen; without F-TEID an IPv4 address; without that an IPv6
address. -/
def PdrIE.names (ie : PdrIE) : PdrKey → Prop
  | .ul t => ∃ pdi f, ie.pdi = some pdi ∧ pdi.fteid = some (some f) ∧ f.ch = false ∧ f.teid = t
  | .dl4 ip => ∃ pdi u, ie.pdi = some pdi ∧ pdi.fteid = none ∧ pdi.ueip = some (some u) ∧ u.ipv4 = some ip
  | .dl6 ip => ∃ pdi u, ie.pdi = some pdi ∧ pdi.fteid = none ∧ pdi.ueip = some (some u) ∧ u.ipv4 = none ∧ u.ipv6 = some ip

/-- The Create PDR is to match on the key: a given (not to be chosen) TEID; without F-TEID a given IPv4 address; without that a given
IPv6 address. -/
def PdrIE.matchesOn (ie : PdrIE) : PdrKey → Prop
  | .ul t => ∃ pdi f, ie.pdi = some pdi ∧ pdi.fteid = some (some f) ∧ f.ch = false ∧ f.teid = t
  | .dl4 ip => ∃ pdi u, ie.pdi = some pdi ∧ pdi.fteid = none ∧ pdi.ueip = some (some u) ∧ u.chv4 = false ∧ u.ipv4 = some ip
  | .dl6 ip => ∃ pdi u, ie.pdi = some pdi ∧ pdi.fteid = none ∧ pdi.ueip = some (some u) ∧ u.chv4 = false ∧ u.ipv4 = none ∧ u.ipv6 = some ip

/-- A PDR in the message gives the key. -/
def Ev.names (k : PdrKey) : Ev → Prop
  | .establish _ r => ∃ ie ∈ r.createPdr, ie.names k
  | .modify _ r _ => ∃ ie ∈ r.createPdr ++ r.updatePdr, ie.names k
  | _ => False

/-- The event is about session `s` of peer `a`: a modification or deletion of it, or the loss of the peer. -/
def Ev.about (a : Addr) (s : U64) : Ev → Prop
  | .modify a' r _ => a' = a ∧ r.seid = s
  | .delete a' r _ => a' = a ∧ r.seid = s
  | .peerLost a' _ => a' = a
  | _ => False

/-- The pools may hand out the key. -/
def PdrKey.freeIn (rm : Option ResourceManager) : PdrKey → Prop
  | .ul t => t ∈ freeTeids rm
  | .dl4 ip => ip ∈ freeIps rm
  | .dl6 _ => False

/-- The Create/Update PDR leaves the choice of a key of this kind to the UPF. -/
def PdrIE.asksFor (ie : PdrIE) : PdrKey → Prop
  | .ul _ => ie.asksTeid ≠ none
  | .dl4 _ => ie.asksIp = true
  | .dl6 _ => False

/-- A PDR in the message leaves the choice of a key of this kind to the UPF. -/
def Ev.asksFor (k : PdrKey) : Ev → Prop
  | .establish _ r => ∃ ie ∈ r.createPdr, ie.asksFor k
  | .modify _ r _ => ∃ ie ∈ r.createPdr ++ r.updatePdr, ie.asksFor k
  | _ => False

/-- The event cannot give anybody the key: no PDR in it names the key, and if the UPF is to choose, the key is not free. -/
structure Untouched (k : PdrKey) (n : Node) (e : Ev) : Prop where
  unnamed : ¬ e.names k
  notChosen : e.asksFor k → ¬ k.freeIn n.rm

/-- Some session other than session `s` of `a` has a PDR with the key. -/
def Node.usedElsewhere (n : Node) (a : Addr) (s : U64) (k : PdrKey) : Prop :=
  ∃ a' s' x i p, (a', s') ≠ (a, s) ∧ n.session? a' s' = some x ∧ x.pdrs.get? i = some p ∧ p.key = k

/-- Some session has a PDR with the key. -/
def Node.used (n : Node) (k : PdrKey) : Prop :=
  ∃ a s x i p, n.session? a s = some x ∧ x.pdrs.get? i = some p ∧ p.key = k

/-- Events of later histories: modifications refer to known rules, the event is not about session `s` of `a`, no PDR in it gives the
key, and the key is not left to be handed out. -/
structure Elsewhere (a : Addr) (s : U64) (k : PdrKey) (n : Node) (e : Ev) : Prop where
  known : e.refsKnown n
  other : ¬ e.about a s
  unnamed : ¬ e.names k
  notFree : ¬ k.freeIn n.rm

/-- Histories from any node, in which every event satisfies `P` in the state in which it arrives. Packets may be processed at any time. -/
inductive HistP (P : Node → Ev → Prop) (n0 : Node) : List (Ev × Outcome) → Node → Prop
  | init : HistP P n0 [] n0
  | step {h : List (Ev × Outcome)} {n : Node} (e : Ev) : HistP P n0 h n → P n e → (n.step e).2 ≠ .crash →
      HistP P n0 ((e, (n.step e).2) :: h) (n.step e).1
  | traffic {h : List (Ev × Outcome)} {n : Node} {dp : BpfObjects} : HistP P n0 h n → TrafficEffect n.dp dp →
      HistP P n0 h { n with dp := dp }

end Eupf
