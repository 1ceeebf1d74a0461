import Verif.Spec.Checksum
/-
Specification vocabulary: GTP-U tunnels as on the wire (TS 29.281, TS 38.415).
-/
namespace Eupf

/-- The parameters of a downlink tunnel. -/
structure TunnelPar where
  src : Ip4
  dst : Ip4
  tos : U8
  qfi : U8
  teid : U32

/-- `g` is an Ethernet frame carrying, in a GTP-U tunnel over IPv4 with a PDU session container, the packet `p` whose length is said
to be `n`. -/
structure IsTunnelled (t : TunnelPar) (n : U16) (p : List U8) (g : List U8) : Prop where
  /-- EtherType IPv4 -/
  ethType : be16 g 12 = 0x0800
  /-- IPv4, header of 20 octets -/
  version : oct g 14 = 0x45
  tos : oct g 15 = t.tos
  totalLength : be16 g 16 = n + 44
  /-- not a fragment, don't fragment -/
  ident : be16 g 18 = 0
  frag : be16 g 20 = 0x4000
  ttl : oct g 22 = 64
  udp : oct g 23 = 17
  ipCsum : CsumValid (slice g 14 20)
  src : be32 g 26 = t.src
  dst : be32 g 30 = t.dst
  /-- GTP-U port on both sides, no UDP checksum -/
  sport : be16 g 34 = 2152
  dport : be16 g 36 = 2152
  udpLength : be16 g 38 = n + 24
  udpCsum : be16 g 40 = 0
  /-- version 1, GTP, extension header present -/
  gtpFlags : oct g 42 = 0x34
  /-- G-PDU -/
  gtpType : oct g 43 = 255
  gtpLength : be16 g 44 = n + 8
  teid : be32 g 46 = t.teid
  /-- no sequence and N-PDU number, next: PDU session container -/
  seq : be16 g 50 = 0
  npdu : oct g 52 = 0
  next : oct g 53 = 0x85
  /-- PDU session container of 4 octets: DL PDU SESSION INFORMATION with the QFI, no further extension -/
  pscLength : oct g 54 = 1
  pscType : oct g 55 = 0
  pscQfi : oct g 56 = BitVec.ofNat 8 (t.qfi.toNat % 64)
  pscNext : oct g 57 = 0
  /-- then the packet, to the end of the frame -/
  payload : g.drop 58 = p

/-! The payload of a G-PDU (TS 29.281 section 5): behind the mandatory header of 8 octets come, if any of the flags E, S, PN is set, 4
octets: sequence number, N-PDU number, type of the first extension header; if E is set, a chain of extension headers, each with its
length in units of 4 octets first and the type of the next one last. -/

/-- The next-extension-header type field at `i` starts a chain that ends before `o`. -/
inductive ExtEnd (f : List U8) : Nat → Nat → Prop
  | stop {i : Nat} : oct f i = 0 → ExtEnd f i (i + 1)
  | more {i o : Nat} : oct f i ≠ 0 → oct f (i + 1) ≠ 0 → ExtEnd f (i + 4 * (oct f (i + 1)).toNat) o → ExtEnd f i o

/-- The payload of the G-PDU `f` starts at `o`. -/
inductive PayloadAt (f : List U8) : Nat → Prop
  | plain : (oct f (gtpOff f)).toNat % 8 = 0 → PayloadAt f (gtpOff f + 8)
  | noExt : (oct f (gtpOff f)).toNat % 8 ≠ 0 → (oct f (gtpOff f)).getLsbD 2 = false → PayloadAt f (gtpOff f + 12)
  | ext {o : Nat} : (oct f (gtpOff f)).getLsbD 2 = true → ExtEnd f (gtpOff f + 11) o → PayloadAt f o

/-- The EtherType for an IP packet. -/
def etherTypeOf (p : List U8) : Option (List U8) :=
  if (oct p 0).toNat / 16 = 4 then some [0x08, 0x00] else if (oct p 0).toNat / 16 = 6 then some [0x86, 0xDD] else none

end Eupf
