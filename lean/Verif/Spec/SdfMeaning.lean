import Verif.Spec.SdfGrammar
/-
Specification vocabulary for C22-C24: which packets a description covers.
-/
namespace Eupf

/-- The octets of an IPv4 address. -/
def ip4Octets (a : Ip4) : List U8 := [a.extractLsb' 24 8, a.extractLsb' 16 8, a.extractLsb' 8 8, a.extractLsb' 0 8]

/-- The address `x` (4 or 16 octets) is in the range: same kind of address, first `n` bits equal. -/
def SdfAddr.covers : SdfAddr → List U8 → Prop
  | .any, _ => True
  | .net o n, x => x.length = o.length ∧ ∀ i < n, bitAt x i = bitAt o i

/-- A packet of this protocol, with these addresses and ports (0 if the protocol has no ports), is covered. -/
structure SdfRule.Covers (r : SdfRule) (proto : U8) (src dst : List U8) (sport dport : U16) : Prop where
  proto : ∀ p, r.proto = some p → p = proto
  src : r.src.covers src
  dst : r.dst.covers dst
  sport : r.srcPort.1 ≤ sport.toNat ∧ sport.toNat ≤ r.srcPort.2
  dport : r.dstPort.1 ≤ dport.toNat ∧ dport.toNat ≤ r.dstPort.2

/-- An IPv4 range with a proper prefix length, or any. -/
def SdfAddr.IsV4 : SdfAddr → Prop
  | .any => True
  | .net o n => o.length = 4 ∧ n ≤ 32

end Eupf
