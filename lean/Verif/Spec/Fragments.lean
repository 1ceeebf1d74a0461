import Verif.Spec.Flow
import Verif.Spec.Route
/-
Specification vocabulary: IPv4 fragments (RFC 791).
-/
namespace Eupf

/-- The IPv4 packet `p` is not the first piece of its datagram: its fragment offset is not 0. It holds no transport header. -/
def LaterFragment (p : List U8) : Prop := be16 p 6 &&& 0x1FFF ≠ 0

/-- The IPv4 packets `p` and `q` are pieces of one datagram: same identification, protocol, source and destination. -/
structure SameDatagram (p q : List U8) : Prop where
  ident : be16 p 4 = be16 q 4
  proto : oct p 9 = oct q 9
  src : be32 p 12 = be32 q 12
  dst : be32 p 16 = be32 q 16

/-- The frames differ at most in the identification, the flags and the fragment offset of the IPv4 header. -/
structure SameButFragment (f g : List U8) : Prop where
  length : f.length = g.length
  same : ∀ i, i < 18 ∨ 22 ≤ i → oct f i = oct g i

/-- The PDR's entry has no filter, or one that allows all ports. -/
def PdrEntry.anyPorts (p : PdrEntry) : Prop :=
  p.sdfMode = 0 ∨ ((p.filter.srcPort.lo = 0 ∧ p.filter.srcPort.hi = 0xFFFF) ∧ (p.filter.dstPort.lo = 0 ∧ p.filter.dstPort.hi = 0xFFFF))

/-- The piece of `n` octets from octet `i` on (a multiple of 8) of the payload of the IPv4 packet without options in the Ethernet frame `f`; `more`: not
the last one. (The header checksum is left as it is: the UPF does not look at it.) -/
def pieceOf (f : List U8) (i n : Nat) (more : Bool) : List U8 :=
  f.take 16 ++ [BitVec.ofNat 8 ((20 + n) / 256), BitVec.ofNat 8 (20 + n)] ++ (f.drop 18).take 2 ++
    [BitVec.ofNat 8 (i / 8 / 256) ||| (if more then 0x20 else 0), BitVec.ofNat 8 (i / 8)] ++ (f.drop 22).take 12 ++ ((f.drop 34).drop i).take n

end Eupf
