import Verif.SdfParser
import Mathlib.Data.List.Forall2
/-
Specification vocabulary for C21-C24: the grammar of SDF filter descriptions, what a description means, and what the parsed record must contain.
Independent of the parser. Texts are lists of characters.
-/
namespace Eupf

/-! ### texts -/

/-- `c` is the digit `d` of base `b` (at most 16). -/
def DigitOf (b : Nat) (c : Char) (d : Nat) : Prop :=
  d < b ∧ ("0123456789abcdef".toList[d]? = some c ∨ "0123456789ABCDEF".toList[d]? = some c)

/-- `s` is a numeral of base `b` (one digit or more, leading zeros allowed) for `n`. -/
inductive Numeral (b : Nat) : List Char → Nat → Prop
  | digit {c d} : DigitOf b c d → Numeral b [c] d
  | snoc {s n c d} : Numeral b s n → DigitOf b c d → Numeral b (s ++ [c]) (b * n + d)

/-- Texts joined by a separator. -/
abbrev joined (c : Char) (ws : List (List Char)) : List Char := [c].intercalate ws

/-- An octet of a dotted IPv4 address: decimal, at most 255, no leading zero. -/
structure OctetText (s : List Char) (o : U8) : Prop where
  num : Numeral 10 s o.toNat
  noZero : s.length > 1 → s.head? ≠ some '0'

/-- A dotted IPv4 address. -/
def V4Text (s : List Char) (o : List U8) : Prop :=
  ∃ ts, s = joined '.' ts ∧ o.length = 4 ∧ List.Forall₂ OctetText ts o

/-- A group of an IPv6 address: one to four hexadecimal digits. -/
structure GroupText (s : List Char) (g : Nat) : Prop where
  num : Numeral 16 s g
  len : s.length ≤ 4

/-- An IPv6 address (RFC 4291 2.2, forms 1 and 2): eight groups, or `::` once in place of one or more zero groups. -/
inductive V6Text : List Char → List Nat → Prop
  | full {ts gs} : List.Forall₂ GroupText ts gs → gs.length = 8 → V6Text (joined ':' ts) gs
  | gap {ls rs gl gr} : List.Forall₂ GroupText ls gl → List.Forall₂ GroupText rs gr → gl.length + gr.length ≤ 7 →
      V6Text (joined ':' ls ++ [':', ':'] ++ joined ':' rs) (gl ++ List.replicate (8 - (gl.length + gr.length)) 0 ++ gr)

/-- Octets of a group. -/
def groupOctets (g : Nat) : List U8 := [BitVec.ofNat 8 (g / 256), BitVec.ofNat 8 (g % 256)]

/-- IPv4-mapped IPv6 addresses (RFC 4291 2.5.5.2) stand for the IPv4 address. -/
def unmapped (o : List U8) : List U8 := if o.take 12 = [0, 0, 0, 0, 0, 0, 0, 0, 0, 0, 0xff, 0xff] then o.drop 12 else o

/-- The octets (4 or 16) of an address text. -/
inductive AddrText : List Char → List U8 → Prop
  | v4 {s o} : V4Text s o → AddrText s o
  | v6 {s gs} : V6Text s gs → AddrText s (unmapped (gs.map groupOctets).flatten)

/-! ### descriptions -/

/-- An address range: any, or the addresses whose first `n` bits are those of `octets`. -/
inductive SdfAddr
  | any
  | net (octets : List U8) (n : Nat)

/-- What a description says. `proto = none`: any protocol; otherwise the protocol number. Ports are lower and upper bound. -/
structure SdfRule where
  proto : Option U8
  src : SdfAddr
  srcPort : Nat × Nat
  dst : SdfAddr
  dstPort : Nat × Nat

/-- protocol -/
def ProtoText (s : List Char) (p : Option U8) : Prop :=
  (s = "icmp".toList ∧ p = some 1) ∨ (s = "ip".toList ∧ p = none) ∨ (s = "tcp".toList ∧ p = some 6) ∨ (s = "udp".toList ∧ p = some 17) ∨
    (s = "58".toList ∧ p = some 58)

/-- an address, possibly with a prefix length -/
inductive NetText : List Char → SdfAddr → Prop
  | host {s o} : AddrText s o → NetText s (.net o (8 * o.length))
  | net {s o m n} : AddrText s o → Numeral 10 m n → n < 2 ^ 64 → NetText (s ++ ['/'] ++ m) (.net o n)

/-- source: `any` or an address -/
def SrcText (s : List Char) (a : SdfAddr) : Prop := (s = "any".toList ∧ a = .any) ∨ NetText s a

/-- destination: `any`, `assigned` (a prefix length behind these is without effect), or an address -/
def DstText (s : List Char) (a : SdfAddr) : Prop :=
  (∃ w, (w = "any".toList ∨ w = "assigned".toList) ∧ a = .any ∧ (s = w ∨ ∃ m n, Numeral 10 m n ∧ s = w ++ ['/'] ++ m)) ∨ NetText s a

/-- ports: nothing, a port, or a range of ports -/
inductive PortsText : List (List Char) → Nat × Nat → Prop
  | none : PortsText [] (0, 65535)
  | one {s n} : Numeral 10 s n → n ≤ 65535 → PortsText [s] (n, n)
  | range {s t n m} : Numeral 10 s n → Numeral 10 t m → n ≤ m → m ≤ 65535 → PortsText [s ++ ['-'] ++ t] (n, m)

/-- The grammar: `permit out PROTO from SRC [PORTS] to DST [PORTS]`, words separated by single spaces. -/
def SdfText (s : List Char) (r : SdfRule) : Prop :=
  ∃ pt st sp dt dp, s = joined ' ' (["permit".toList, "out".toList, pt, "from".toList, st] ++ sp ++ ["to".toList, dt] ++ dp) ∧
    ProtoText pt r.proto ∧ SrcText st r.src ∧ PortsText sp r.srcPort ∧ DstText dt r.dst ∧ PortsText dp r.dstPort

/-! ### records -/

/-- Bit `i` of an octet string, most significant bit first. -/
def bitAt (l : List U8) (i : Nat) : Bool := (l.getD (i / 8) 0).getMsbD (i % 8)

/-- The address part of the record for an address range: mask and masked address, bit by bit. A prefix length that is too large leaves both empty (C22). -/
def AddrRecord : SdfAddr → IpWMask → Prop
  | .any, w => w = ⟨0, [], []⟩
  | .net o n, w => w.type = (if o.length = 4 then 1 else 2) ∧
    if n ≤ 8 * o.length then w.ip.length = o.length ∧ w.mask.length = o.length ∧
      ∀ i < 8 * o.length, bitAt w.mask i = decide (i < n) ∧ bitAt w.ip i = (decide (i < n) && bitAt o i)
    else w.ip = [] ∧ w.mask = []

/-- The number that stands for a protocol in the record. -/
def protoCode : Option U8 → Option U8
  | none => some 1
  | some p => if p = 1 then some 0 else if p = 6 then some 2 else if p = 17 then some 3 else if p = 58 then some 4 else none

/-- The record of a description. -/
structure SdfRecord (r : SdfRule) (f : SdfFilter) : Prop where
  proto : protoCode r.proto = some f.proto
  src : AddrRecord r.src f.src
  srcPort : (f.srcPort.lo.toNat, f.srcPort.hi.toNat) = r.srcPort
  dst : AddrRecord r.dst f.dst
  dstPort : (f.dstPort.lo.toNat, f.dstPort.hi.toNat) = r.dstPort

end Eupf
