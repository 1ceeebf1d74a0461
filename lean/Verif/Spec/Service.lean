import Verif.Spec.Asked
/-
Specification vocabulary for C93: what the peer has said about a FAR and a QER in the course of a session.
-/
namespace Eupf

/-- The latest value given, of a list of instructions (oldest first) each of which may give one. -/
def latest {α β : Type} (sel : α → Option β) (l : List α) : Option β := l.reverse.findSome? sel

/-- The Update FARs for FAR `i` in the accepted modifications of session `s` of `a` in a history (newest event first), oldest first. -/
def farUpdates (a : Addr) (s : U64) (i : U32) : List (Ev × Outcome) → List FarIE
  | [] => []
  | (.modify a' r _, .reply resp) :: h =>
    farUpdates a s i h ++ if a' = a ∧ r.seid = s ∧ resp.cause = 1 then r.updateFar.filter (fun x => x.farId = some i) else []
  | _ :: h => farUpdates a s i h

/-- The same for the Update QERs for QER `j`. -/
def qerUpdates (a : Addr) (s : U64) (j : U32) : List (Ev × Outcome) → List QerIE
  | [] => []
  | (.modify a' r _, .reply resp) :: h =>
    qerUpdates a s j h ++ if a' = a ∧ r.seid = s ∧ resp.cause = 1 then r.updateQer.filter (fun x => x.qerId = some j) else []
  | _ :: h => qerUpdates a s j h

/-- The Outer Header Creation given. -/
def FarIE.ohc? (f : FarIE) : Option Ohc := match f.forward with
  | some (some x) => x
  | _ => none
/-- The first octet of the Apply Action given. -/
def FarIE.action? (f : FarIE) : Option U8 := f.applyAction.bind List.head?

/-- What was last said about the FAR is: forward, in a GTP-U/UDP/IPv4 tunnel to `peer`, TEID `teid`, with traffic class `tos`. -/
structure LastTunnel (l : List FarIE) (peer : Ip4) (teid : U32) (tos : U8) : Prop where
  forw : ∃ x, latest FarIE.action? l = some x ∧ x.getLsbD 1 = true
  ohc : ∃ o, latest FarIE.ohc? l = some o ∧ (o.desc.toNat / 256) % 2 = 1 ∧ o.teid = teid
  addr : latest (fun f => f.ohc?.bind (·.ipv4)) l = some peer
  tos : tos.toNat = ((latest FarIE.tlm l).getD 0).toNat / 256

/-- What was last said about the FAR is: forward; and no outer header was ever asked for. -/
structure LastPlain (l : List FarIE) : Prop where
  forw : ∃ x, latest FarIE.action? l = some x ∧ x.getLsbD 1 = true
  noOhc : latest FarIE.ohc? l = none

/-- A modification of the session that concerns neither the PDR with id `id` and key `k`, nor the existence of FAR `i` and QER `j`: it may
contain Update FARs and Update QERs for them, and whatever else about other rules. -/
structure ModReq.steers (r : ModReq) (k : PdrKey) (id : U16) (i j : U32) : Prop where
  pdr : ∀ x ∈ r.createPdr ++ r.updatePdr, x.pdrId ≠ some id ∧ ¬ x.names k
  noPdr : ∀ x ∈ r.removePdr, x.getD 0 ≠ id
  far : ∀ x ∈ r.createFar, x.farId.getD 0 ≠ i
  noFar : ∀ x ∈ r.removeFar, x.getD 0 ≠ i
  qer : ∀ x ∈ r.createQer, x.qerId ≠ some j
  noQer : some j ∉ r.removeQer

/-- Events of the later history of a service: modifications refer to known rules, the key is not left to be handed out; and the event is
not about session `s` of `a` and no PDR in it gives the key, or it is an accepted modification of the session as above. -/
structure Steered (a : Addr) (s : U64) (k : PdrKey) (id : U16) (i j : U32) (n : Node) (e : Ev) : Prop where
  known : e.refsKnown n
  notFree : ¬ k.freeIn n.rm
  what : (¬ e.about a s ∧ ¬ e.names k) ∨
    ∃ r ord resp, e = .modify a r ord ∧ r.seid = s ∧ r.steers k id i j ∧ (n.step e).2 = .reply resp ∧ resp.cause = 1

end Eupf
