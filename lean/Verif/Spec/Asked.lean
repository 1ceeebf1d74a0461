import Verif.Spec.Footprint
/-
Specification vocabulary for the end-to-end properties C65, C66: what service a Session Establishment Request asks for.
-/
namespace Eupf

/-- The request contains the Create PDR `pie`, to match on `k`, with the Create FAR `fie` and the Create QER `qie`. (Where ids or the key
are given several times, these are the last ones.) -/
structure AsksRule (r : EstReq) (pie : PdrIE) (fie : FarIE) (qie : QerIE) (k : PdrKey) : Prop where
  ids : (r.createPdr.map (·.pdrId)).Nodup
  key : pie.matchesOn k
  pdr : ∃ l1 l2, r.createPdr = l1 ++ pie :: l2 ∧ ∀ x ∈ l2, ¬ x.names k
  far : ∃ i l1 l2, pie.farId = some i ∧ fie.farId = some i ∧ r.createFar = l1 ++ fie :: l2 ∧ ∀ x ∈ l2, x.farId.getD 0 ≠ i
  qer : ∃ j l1 l2, pie.qerId = some j ∧ qie.qerId = some j ∧ r.createQer = l1 ++ qie :: l2 ∧ ∀ x ∈ l2, x.qerId ≠ some j

/-- The request contains the Create PDR `pie` that leaves its TEID to the UPF, with CHOOSE ID `co` (if any), and no later Create PDR
has the same CHOOSE ID or gives the TEID `t`; with the Create FAR `fie` and the Create QER `qie` (if given several times, the last ones). -/
structure AsksChosen (r : EstReq) (pie : PdrIE) (fie : FarIE) (qie : QerIE) (co : Option U8) (t : U32) : Prop where
  ids : (r.createPdr.map (·.pdrId)).Nodup
  asks : pie.asksTeid = some co
  pdr : ∃ l1 l2, r.createPdr = l1 ++ pie :: l2 ∧ ∀ x ∈ l2, ¬ x.names (.ul t) ∧ ∀ c, co = some c → x.asksTeid ≠ some (some c)
  far : ∃ i l1 l2, pie.farId = some i ∧ fie.farId = some i ∧ r.createFar = l1 ++ fie :: l2 ∧ ∀ x ∈ l2, x.farId.getD 0 ≠ i
  qer : ∃ j l1 l2, pie.qerId = some j ∧ qie.qerId = some j ∧ r.createQer = l1 ++ qie :: l2 ∧ ∀ x ∈ l2, x.qerId ≠ some j

/-- The request contains the Create PDR `pie` that leaves its UE address to the UPF, and no later Create PDR gives the address `ip`; with
the Create FAR `fie` and the Create QER `qie` (if given several times, the last ones). -/
structure AsksAddress (r : EstReq) (pie : PdrIE) (fie : FarIE) (qie : QerIE) (ip : Ip4) : Prop where
  ids : (r.createPdr.map (·.pdrId)).Nodup
  asks : pie.asksIp = true
  pdr : ∃ l1 l2, r.createPdr = l1 ++ pie :: l2 ∧ ∀ x ∈ l2, ¬ x.names (.dl4 ip)
  far : ∃ i l1 l2, pie.farId = some i ∧ fie.farId = some i ∧ r.createFar = l1 ++ fie :: l2 ∧ ∀ x ∈ l2, x.farId.getD 0 ≠ i
  qer : ∃ j l1 l2, pie.qerId = some j ∧ qie.qerId = some j ∧ r.createQer = l1 ++ qie :: l2 ∧ ∀ x ∈ l2, x.qerId ≠ some j

/-- Events of histories in which the UPF alone hands out the key: modifications refer to known rules, the event is not about session `s`
of `a`, and no PDR in it gives the key. -/
structure NotGiving (a : Addr) (s : U64) (k : PdrKey) (n : Node) (e : Ev) : Prop where
  known : e.refsKnown n
  other : ¬ e.about a s
  unnamed : ¬ e.names k

/-- The FAR says: forward, in a GTP-U/UDP/IPv4 tunnel (bit 1 of octet 5 of Outer Header Creation) to `peer`, TEID `teid`, with traffic
class `tos` (0 without Transport Level Marking). -/
structure FarIE.intoTunnel (fie : FarIE) (peer : Ip4) (teid : U32) (tos : U8) : Prop where
  forw : ∃ a as, fie.applyAction = some (a :: as) ∧ a.getLsbD 1 = true
  ohc : ∃ o, fie.forward = some (some (some o)) ∧ (o.desc.toNat / 256) % 2 = 1 ∧ o.ipv4 = some peer ∧ o.teid = teid
  tos : tos.toNat = (fie.tlm.getD 0).toNat / 256

/-- The FAR says: forward, without outer header. -/
structure FarIE.plain (fie : FarIE) : Prop where
  forw : ∃ a as, fie.applyAction = some (a :: as) ∧ a.getLsbD 1 = true
  noOhc : ∀ o, fie.forward ≠ some (some (some o))

/-- A flow fits the filter of the PDR, if it has one. -/
def PdrIE.fits (pie : PdrIE) (sat : KFilter → Bool) : Prop :=
  ∀ c cs f, pie.sdf = some (c :: cs) → Sdf.parse (c :: cs) = some f → sat (toKFilter f) = true

end Eupf
