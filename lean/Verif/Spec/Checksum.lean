import Verif.Spec.Frames
/-
Specification vocabulary: the Internet checksum as in RFC 1071: the 16-bit ones' complement sum of the big-endian words. Independent
of the code, which sums little-endian 32-bit words and folds.
-/
namespace Eupf

/-- 16-bit ones' complement addition (end-around carry) -/
def ocAdd (a b : Nat) : Nat := if a + b < 65536 then a + b else a + b - 65535

/-- The ones' complement sum of the big-endian 16-bit words of a buffer (an odd last octet is padded with 0). -/
def ocSum : List U8 → Nat
  | a :: b :: l => ocAdd (a.toNat * 256 + b.toNat) (ocSum l)
  | [a] => a.toNat * 256
  | [] => 0

/-- A receiver accepts the buffer: the sum over all of it, checksum field included, is all ones. -/
def CsumValid (bs : List U8) : Prop := ocSum bs = 0xFFFF

/-- The example of RFC 1071 section 3: 0001 f203 f4f5 f6f7 sum to ddf2. -/
example : ocSum [0x00, 0x01, 0xf2, 0x03, 0xf4, 0xf5, 0xf6, 0xf7] = 0xddf2 := by decide

end Eupf
