import Verif.Spec.Classify
/-
Specification of C18: what it means that a PDR record is the one given by a Create PDR, and that it is in effect.
-/
namespace Eupf

/-- The record `p` of session `sess` is what the Create PDR `ie` says: the outer header removal given (0 if none), the
slots of the FAR and QER of *this* session that it names, the SDF filter given, and it matches on the TEID or UE address
that the packet detection information gives (what is left to the UPF to choose is the subject of C16, C17). -/
structure PdrGiven (ie : PdrIE) (sess : Session) (p : SPdr) : Prop where
  ohr : p.info.ohr = ie.ohr.getD 0
  far : ∀ i f, ie.farId = some i → sess.fars.get? i = some f → p.info.farId = f.gid
  qer : ∀ i q, ie.qerId = some i → sess.qers.get? i = some q → p.info.qerId = q.gid
  noSdf : (ie.sdf = none ∨ ie.sdf = some []) → p.info.sdf = none
  sdf : ∀ c cs, ie.sdf = some (c :: cs) → ∃ f, Sdf.parse (c :: cs) = some f ∧ p.info.sdf = some f
  teid : ∀ pdi f, ie.pdi = some pdi → pdi.fteid = some (some f) → f.ch = false → p.key = .ul f.teid
  ue4 : ∀ pdi u ip, ie.pdi = some pdi → pdi.fteid = none → pdi.ueip = some (some u) → u.chv4 = false → u.ipv4 = some ip → p.key = .dl4 ip
  ue6 : ∀ pdi u ip, ie.pdi = some pdi → pdi.fteid = none → pdi.ueip = some (some u) → u.chv4 = false → u.ipv4 = none →
    u.ipv6 = some ip → p.key = .dl6 ip

/-- The same for an Update PDR of the record `old`: what is absent is kept. -/
structure PdrUpdated (ie : PdrIE) (sess : Session) (old p : SPdr) : Prop where
  ohr : p.info.ohr = ie.ohr.getD old.info.ohr
  far : ∀ i f, ie.farId = some i → sess.fars.get? i = some f → p.info.farId = f.gid
  noFar : ie.farId = none → p.info.farId = old.info.farId
  qer : ∀ i q, ie.qerId = some i → sess.qers.get? i = some q → p.info.qerId = q.gid
  noQer : ie.qerId = none → p.info.qerId = old.info.qerId
  noSdf : (ie.sdf = none ∨ ie.sdf = some []) → p.info.sdf = old.info.sdf
  sdf : ∀ c cs, ie.sdf = some (c :: cs) → ∃ f, Sdf.parse (c :: cs) = some f ∧ p.info.sdf = some f
  teid : ∀ pdi f, ie.pdi = some pdi → pdi.fteid = some (some f) → f.ch = false → old.key = .ul old.teid → p.key = .ul f.teid
  ue4 : ∀ pdi u ip, ie.pdi = some pdi → pdi.fteid = none → pdi.ueip = some (some u) → u.chv4 = false → u.ipv4 = some ip → p.key = .dl4 ip
  noKey : ∀ pdi, ie.pdi = some pdi → pdi.fteid = none → pdi.ueip = none → p.key = old.key

/-- `p` is in effect: the rule of `p` applies to every packet with its key, or, if it has a filter, to every packet
with its key that matches the filter. -/
def InEffect (dp : BpfObjects) (p : SPdr) : Prop :=
  ∀ m : KFilter → Bool, (∀ f, p.info.sdf = some f → m (toKFilter f) = true) →
    classify (dp.entry? p.key) m = some p.info.rule

end Eupf
