import Verif.Spec.Gone
import Verif.Spec.Classify
import Verif.Spec.Flow
/-
Specification vocabulary for C98 and C99: the forwarding plane says exactly what the live sessions say.
-/
namespace Eupf

/-- `p` is PDR `i` of session `s` of peer `a`. -/
def Node.hasPdr (n : Node) (a : Addr) (s : U64) (i : U32) (p : SPdr) : Prop := ∃ x, n.session? a s = some x ∧ x.pdrs.get? i = some p

/-- What the PDR says about a packet with its match key of which `m` tells whether a filter matches it: its rule, if it has no filter or
the filter matches. -/
def PdrInfo.says (p : PdrInfo) (m : KFilter → Bool) : Option Rule :=
  match p.sdf with
  | none => some p.rule
  | some f => if m (toKFilter f) then some p.rule else none

/-- The flow of a frame with match key `k` (`none`: truncated headers inside a tunnel). -/
def flowOf (f : List U8) : PdrKey → Option Flow
  | .ul _ => innerFlow f
  | .dl4 _ => some (downFlow4 f)
  | .dl6 _ => some (downFlow6 f)

/-- The PDR's filter, if it has one, matches the frame. -/
def PdrInfo.fitsFrame (p : PdrInfo) (k : PdrKey) (f : List U8) : Prop := ∀ sdf, p.sdf = some sdf → ∃ fl, flowOf f k = some fl ∧ fl.sat (toKFilter sdf) = true

/-- The gate for the direction of the key is open. -/
def QerInfo.openFor (q : QerInfo) : PdrKey → Prop
  | .ul _ => q.gateUL = 0
  | .dl4 _ => q.gateDL = 0
  | .dl6 _ => q.gateDL = 0

/-- The PDR tables say what the PDRs of the live sessions say, and nothing else: under the key of a PDR packets get what the PDR says, and
under all other keys there is no entry. -/
structure Exact (n : Node) : Prop where
  live : ∀ a s i p, n.hasPdr a s i p → ∀ m, classify (n.dp.entry? p.key) m = p.info.says m
  only : ∀ k, (∀ a s i p, n.hasPdr a s i p → p.key ≠ k) → n.dp.entry? k = none

/-- No two PDRs share a match key, every PDR has one, and no two TEIDs of a session share the low octet. -/
structure Apart1 (n : Node) : Prop where
  keys : ∀ a s i p b t j q, n.hasPdr a s i p → n.hasPdr b t j q → p.key = q.key → a = b ∧ s = t ∧ i = j
  alone : ∀ a s i p x, n.session? a s = some x → x.pdrs.get? i = some p → x.alone p.key

/-- The Update PDR leaves the match key `k` as it is: it gives none, or this one again. -/
def PdrIE.keepsKey (ie : PdrIE) (k : PdrKey) : Prop := (∃ pdi, ie.pdi = some pdi ∧ pdi.fteid = none ∧ pdi.ueip = none) ∨ ie.matchesOn k

/-- A modification of session `x` that is orderly about PDRs: it creates PDRs under new ids, and does not remove them again; updates existing
PDRs without filter, giving neither a filter nor another key; and, if it removes PDRs, asks for no TEID with a CHOOSE ID. -/
structure ModReq.orderly (r : ModReq) (x : Session) : Prop where
  ids : (r.createPdr.map (·.pdrId)).Nodup
  new : ∀ ie ∈ r.createPdr, ∀ i, ie.pdrId = some i → x.pdrs.get? (i.zeroExtend 32) = none
  kept : ∀ ie ∈ r.createPdr, ∀ d ∈ r.removePdr, ie.pdrId.getD 0 ≠ d.getD 0
  upd : ∀ ie ∈ r.updatePdr, ∃ i p, ie.pdrId = some i ∧ x.pdrs.get? (i.zeroExtend 32) = some p ∧ ie.keepsKey p.key ∧ p.info.sdf = none ∧
    (ie.sdf = none ∨ ie.sdf = some [])
  choose : r.removePdr ≠ [] → ∀ ie ∈ r.createPdr ++ r.updatePdr, ∀ c, ie.asksTeid ≠ some (some c)

/-- The requests of orderly control planes: every request is answered, and not with the cause "rule creation/modification failure";
modifications are orderly, establishments do not repeat a PDR id; and the PDRs that are new after the event have keys that no PDR had
before. -/
structure Orderly (n : Node) (e : Ev) : Prop where
  answered : ∀ resp, (n.step e).2 = .reply resp → resp.cause ≠ 73
  deleted : ∀ a r o, e = .delete a r o → (n.step e).2 ≠ .silent
  est : ∀ a r, e = .establish a r → (r.createPdr.map (·.pdrId)).Nodup
  modif : ∀ a r o x, e = .modify a r o → n.session? a r.seid = some x → r.orderly x
  fresh : ∀ a s i p, (n.step e).1.hasPdr a s i p → (∀ q, ¬ n.hasPdr a s i q) → ∀ b t j q, n.hasPdr b t j q → q.key ≠ p.key
  apart : Apart1 (n.step e).1

end Eupf
