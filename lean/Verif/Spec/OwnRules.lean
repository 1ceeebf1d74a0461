import Verif.Spec.Exact
import Verif.Spec.Capacity
/-
Specification vocabulary for C99: PDRs use FARs and QERs of their own session.
-/
namespace Eupf

/-- Table slot `g` belongs to a FAR of the session. -/
def Session.hasFarSlot (x : Session) (g : U32) : Prop := ∃ j f, x.fars.get? j = some f ∧ f.gid = g
/-- Table slot `g` belongs to a QER of the session. -/
def Session.hasQerSlot (x : Session) (g : U32) : Prop := ∃ j q, x.qers.get? j = some q ∧ q.gid = g

/-- Every PDR of a live session points to slots of FARs and QERs of this session. -/
def OwnRules (n : Node) : Prop := ∀ a s x i p, n.session? a s = some x → x.pdrs.get? i = some p → x.hasFarSlot p.info.farId ∧ x.hasQerSlot p.info.qerId

/-- The session has FAR `i` or the modification creates it, and the modification does not remove it. -/
def ModReq.farStays (r : ModReq) (x : Session) (i : U32) : Prop :=
  ((x.fars.get? i).isSome ∨ ∃ c ∈ r.createFar, c.farId.getD 0 = i) ∧ ∀ d ∈ r.removeFar, d.getD 0 ≠ i
/-- The same for QERs. -/
def ModReq.qerStays (r : ModReq) (x : Session) (i : U32) : Prop :=
  ((x.qers.get? i).isSome ∨ ∃ c ∈ r.createQer, c.qerId = some i) ∧ some i ∉ r.removeQer

/-- The modification removes the PDR, or updates it, naming a rule of the kind `sel`. -/
def ModReq.rehomes (r : ModReq) (sel : PdrIE → Option U32) (i : U32) : Prop :=
  (∃ d ∈ r.removePdr, BitVec.zeroExtend 32 (d.getD 0) = i) ∨ ∃ ie ∈ r.updatePdr, ∃ id, ie.pdrId = some id ∧ id.zeroExtend 32 = i ∧ (sel ie).isSome

/-- A modification of session `x` whose PDRs name rules of the session that stay, and which removes rules only together with the PDRs that
use them (or gives these PDRs other rules). -/
structure ModReq.namesOwn (r : ModReq) (x : Session) : Prop where
  create : ∀ ie ∈ r.createPdr, (∃ i, ie.farId = some i ∧ r.farStays x i) ∧ ∃ i, ie.qerId = some i ∧ r.qerStays x i
  update : ∀ ie ∈ r.updatePdr, (∀ i, ie.farId = some i → r.farStays x i) ∧ ∀ i, ie.qerId = some i → r.qerStays x i
  remFar : ∀ d ∈ r.removeFar, ∀ f, x.fars.get? (d.getD 0) = some f → ∀ i p, x.pdrs.get? i = some p → p.info.farId = f.gid → r.rehomes (·.farId) i
  remQer : ∀ j, some j ∈ r.removeQer → ∀ q, x.qers.get? j = some q → ∀ i p, x.pdrs.get? i = some p → p.info.qerId = q.gid → r.rehomes (·.qerId) i

/-- Requests whose PDRs name FARs and QERs of their own session. -/
structure NamesOwn (n : Node) (e : Ev) : Prop where
  estab : ∀ a r, e = .establish a r → ∀ ie ∈ r.createPdr,
    (∃ i, ie.farId = some i ∧ ∃ c ∈ r.createFar, c.farId.getD 0 = i) ∧ ∃ i, ie.qerId = some i ∧ ∃ c ∈ r.createQer, c.qerId = some i
  mods : ∀ a r o x, e = .modify a r o → n.session? a r.seid = some x → r.namesOwn x

/-- All of it: orderly, tidy, and naming own rules. -/
structure Clean (n : Node) (e : Ev) : Prop where
  orderly : Orderly n e
  tidy : Tidy n e
  own : NamesOwn n e

end Eupf
