import Verif.Spec.Asked
import Verif.Spec.SdfMeaning
import Verif.Spec.Frames
import Verif.Spec.Tunnel
/-
Specification vocabulary for C91: packet filters given as text, from the request to the packet.
-/
namespace Eupf

/-- The IPv4 packet at `o` in the frame has this protocol, these addresses and these ports (0 for protocols other than UDP and TCP); its
UDP or TCP header is complete. -/
structure Carries4 (f : List U8) (o : Nat) (proto : U8) (src dst : List U8) (sport dport : U16) : Prop where
  hproto : oct f (o + 9) = proto
  hsrc : src = [oct f (o + 12), oct f (o + 13), oct f (o + 14), oct f (o + 15)]
  hdst : dst = [oct f (o + 16), oct f (o + 17), oct f (o + 18), oct f (o + 19)]
  ports : (proto = 17 ∧ ip4End f o + 8 ≤ f.length ∧ sport = be16 f (ip4End f o) ∧ dport = be16 f (ip4End f o + 2)) ∨
    (proto = 6 ∧ ip4End f o + 20 ≤ f.length ∧ sport = be16 f (ip4End f o) ∧ dport = be16 f (ip4End f o + 2)) ∨
    (proto ≠ 17 ∧ proto ≠ 6 ∧ sport = 0 ∧ dport = 0)

/-- The text is a flow description that means `rule`, about any protocol but ICMPv6, with addresses `any` or IPv4 prefixes. -/
structure FilterText4 (text : List Char) (rule : SdfRule) : Prop where
  parses : SdfText text rule
  src : rule.src.IsV4
  dst : rule.dst.IsV4
  proto : rule.proto ≠ some 58

/-- The request names FAR and QER of the PDR (if their ids are given several times, the last ones). -/
structure HasRules (r : EstReq) (pie : PdrIE) (fie : FarIE) (qie : QerIE) : Prop where
  far : ∃ i l1 l2, pie.farId = some i ∧ fie.farId = some i ∧ r.createFar = l1 ++ fie :: l2 ∧ ∀ x ∈ l2, x.farId.getD 0 ≠ i
  qer : ∃ j l1 l2, pie.qerId = some j ∧ qie.qerId = some j ∧ r.createQer = l1 ++ qie :: l2 ∧ ∀ x ∈ l2, x.qerId ≠ some j

/-- The request has one Create PDR for `k`, with this filter. -/
structure AsksFilter (r : EstReq) (pie : PdrIE) (text : List Char) (k : PdrKey) : Prop where
  ids : (r.createPdr.map (·.pdrId)).Nodup
  key : pie.matchesOn k
  filter : pie.sdf = some text
  pdr : ∃ l1 l2, r.createPdr = l1 ++ pie :: l2 ∧ ∀ x ∈ l1 ++ l2, ¬ x.names k

/-- The request has two Create PDRs for `k`: `one`, and after it `two`. -/
structure AsksTwo (r : EstReq) (one two : PdrIE) (k : PdrKey) : Prop where
  ids : (r.createPdr.map (·.pdrId)).Nodup
  key1 : one.matchesOn k
  key2 : two.matchesOn k
  pdr : ∃ l1 l2 l3, r.createPdr = l1 ++ one :: (l2 ++ two :: l3) ∧ ∀ x ∈ l1 ++ l2 ++ l3, ¬ x.names k

/-- Events that do not give the key: modifications refer to known rules, no PDR in the message gives the key, and the key is not free in
the pools. -/
structure NeverGiven (k : PdrKey) (n : Node) (e : Ev) : Prop where
  known : e.refsKnown n
  unnamed : ¬ e.names k
  notFree : ¬ k.freeIn n.rm

/-- A G-PDU with TEID `t` in an IPv4 packet without options, whose payload, at `o`, is an IPv4 packet; its GTP-U header has no optional
octets or 8 of them, and the payload is not ICMP to the UPF itself. -/
structure UplinkIp4 (e : Env) (f : List U8) (t : U32) (o : Nat) : Prop where
  gpdu : IsGtpMsg e f 255
  teid : gtpTeid f = t
  noOptions : l4Off f = 34
  payload : PayloadAt f o
  header : o = gtpOff f + 8 ∨ o = gtpOff f + 16
  version : (oct f o).toNat / 16 = 4
  len : o + 20 ≤ f.length
  notUs : ¬ (oct f (o + 9) = 1 ∧ (be32 f (o + 16) = e.n3Ip ∨ be32 f (o + 16) = e.n9Ip))

end Eupf
