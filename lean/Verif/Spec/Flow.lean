import Verif.Spec.Frames
import Verif.Spec.Classify
import Verif.Xdp.Match
/-
Specification vocabulary: which rule applies to a frame, and what the rule's FAR and QER allow.
-/
namespace Eupf

/-- What a packet filter looks at. -/
inductive Flow
  | v4 (proto : U8) (src dst : Ip4) (sport dport : U16)
  | v6 (proto : U8) (src dst : List U8) (sport dport : U16)
  | other

/-- Does the forwarding plane's comparison (its meaning is the subject of C23, C24) accept the flow? The comparison takes
the addresses as they lie in memory. -/
def Flow.sat (fl : Flow) (k : KFilter) : Bool :=
  match fl with
  | .v4 p s d sp dp => sdfMatch4 k p (swap32 s) (swap32 d) sp dp
  | .v6 p s d sp dp => sdfMatch6 k p (le128 s) (le128 d) sp dp
  | .other => false

/-- Source and destination port of the UDP or TCP header at `o`; other protocols have ports 0; `none`: truncated. -/
def l4Ports (f : List U8) (o : Nat) (proto : U8) : Option (U16 × U16) :=
  if proto = 17 then if o + 8 ≤ f.length then some (be16 f o, be16 f (o + 2)) else none
  else if proto = 6 then if o + 20 ≤ f.length then some (be16 f o, be16 f (o + 2)) else none
  else some (0, 0)

/-- The flow of the IPv4 packet at `o`. -/
def flow4 (f : List U8) (o : Nat) (ports : U16 × U16) : Flow :=
  .v4 (oct f (o + 9)) (be32 f (o + 12)) (be32 f (o + 16)) ports.1 ports.2
/-- The flow of the IPv6 packet at `o`. -/
def flow6 (f : List U8) (o : Nat) (ports : U16 × U16) : Flow :=
  .v6 (oct f (o + 6)) (slice f (o + 8) 16) (slice f (o + 24) 16) ports.1 ports.2

/-- Where the payload of a G-PDU starts, as the program assumes: 8 octets of optional fields or none. -/
def innerOff (f : List U8) : Nat := gtpOff f + 8 + (if gtpHasOpt f then 8 else 0)

/-- The flow of the packet inside a G-PDU; `none`: truncated headers. -/
def innerFlow (f : List U8) : Option Flow :=
  if innerOff f + 1 > f.length then none
  else if (oct f (innerOff f)).toNat / 16 = 4 then
    if innerOff f + 20 > f.length then none
    else (l4Ports f (ip4End f (innerOff f)) (oct f (innerOff f + 9))).map (flow4 f (innerOff f))
  else if (oct f (innerOff f)).toNat / 16 = 6 then
    if innerOff f + 40 > f.length then none
    else (l4Ports f (innerOff f + 40) (oct f (innerOff f + 6))).map (flow6 f (innerOff f))
  else some .other

/-- The flow of a downlink IPv4 frame (ports 0 if the transport header is truncated). -/
def downFlow4 (f : List U8) : Flow := flow4 f 14 ((l4Ports f (l4Off f) (oct f 23)).getD (0, 0))
/-- The flow of a downlink IPv6 frame. The program does not parse UDP here (n3n6_entrypoint.c 438-441): ports 0. -/
def downFlow6 (f : List U8) : Flow :=
  flow6 f 14 (if oct f 20 = 17 then (0, 0) else (l4Ports f 54 (oct f 20)).getD (0, 0))

/-- The rule for a G-PDU: the entry of its TEID; a packet whose headers are truncated fits no entry with a filter. -/
def ulRule (b : BpfObjects) (f : List U8) : Option Rule :=
  match b.pdrUl.lookup (gtpTeid f) with
  | none => none
  | some p => if p.sdfMode = 0 then some ⟨p.ohr, p.farId, p.qerId⟩ else (innerFlow f).bind (fun fl => classify (some p) fl.sat)

/-- The rule for a downlink IPv4 frame: the entry of its destination address. -/
def dlRule4 (b : BpfObjects) (f : List U8) : Option Rule := classify (b.pdrDl4.lookup (be32 f 30)) (downFlow4 f).sat
/-- The rule for a downlink IPv6 frame. -/
def dlRule6 (b : BpfObjects) (f : List U8) : Option Rule := classify (b.pdrDl6.lookup (be128 (slice f 38 16))) (downFlow6 f).sat

/-- The FAR and QER of a rule let uplink packets through: both slots exist, the FAR says forward, the gate is open. -/
structure PermitsUl (b : BpfObjects) (r : Rule) (far : FarInfo) (qer : QerInfo) : Prop where
  hasFar : b.far.lookup r.far = some far
  forw : far.action.getLsbD 1 = true
  hasQer : b.qer.lookup r.qer = some qer
  gate : qer.gateUL = 0

/-- The same for downlink packets, which also need a GTP-U/UDP/IPv4 outer header to be created. -/
structure PermitsDl (b : BpfObjects) (r : Rule) (far : FarInfo) (qer : QerInfo) : Prop where
  hasFar : b.far.lookup r.far = some far
  forw : far.action.getLsbD 1 = true
  tunnel : far.ohc.getLsbD 0 = true
  hasQer : b.qer.lookup r.qer = some qer
  gate : qer.gateDL = 0

end Eupf
