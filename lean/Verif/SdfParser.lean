import Verif.Base
/-
SDF flow description parser: cmd/core/sdf_filter_parser.go, together with the parts of the Go
standard library it relies on (net.ParseIP = netip.ParseAddr, net.CIDRMask, IP.Mask, IP.To4,
strconv.ParseUint). Texts are lists of characters (a Go string that is not valid UTF-8 cannot match the
regular expression, whose alphabet is ASCII).
-/
namespace Eupf

/-- cmd/ebpf/pdr.go 40-43 `PortRange` -/
structure PortRange where
  lo : U16
  hi : U16
deriving DecidableEq, Repr

/-- cmd/ebpf/pdr.go 34-38 `IpWMask`; `ip`/`mask` are byte slices, nil = `[]`. -/
structure IpWMask where
  type : U8
  ip : List U8
  mask : List U8
deriving DecidableEq, Repr

/-- cmd/ebpf/pdr.go 26-32 `SdfFilter` -/
structure SdfFilter where
  proto : U8
  src : IpWMask
  srcPort : PortRange
  dst : IpWMask
  dstPort : PortRange
deriving DecidableEq, Repr

namespace Sdf

def isDigit (c : Char) : Bool := decide ('0' ≤ c ∧ c ≤ '9')
def isHex (c : Char) : Bool :=
  decide ('0' ≤ c ∧ c ≤ '9') || decide ('a' ≤ c ∧ c ≤ 'f') || decide ('A' ≤ c ∧ c ≤ 'F')
def digitVal (c : Char) : Nat := c.toNat - '0'.toNat
def hexVal (c : Char) : Nat :=
  if 'a' ≤ c then c.toNat - 'a'.toNat + 10
  else if 'A' ≤ c then c.toNat - 'A'.toNat + 10
  else c.toNat - '0'.toNat
def decVal (ds : List Char) : Nat := ds.foldl (fun v c => v * 10 + digitVal c) 0
def hexVals (ds : List Char) : Nat := ds.foldl (fun v c => v * 16 + hexVal c) 0
/-- `\d+` -/
def isNum (ds : List Char) : Bool := !ds.isEmpty && ds.all isDigit

/-- Split a text at every occurrence of `c`. Used to express the regular expressions, whose groups
cannot contain the separator. -/
def splitC (c : Char) : List Char → List (List Char)
  | [] => [[]]
  | x :: xs =>
    if x = c then [] :: splitC c xs
    else match splitC c xs with
      | [] => [[x]]
      | t :: ts => (x :: t) :: ts

/-- strconv.ParseUint(s, 10, 64) on a text of digits: a range error at 2^64. -/
def parseUint64 (ds : List Char) : Option Nat := if decVal ds < 2 ^ 64 then some (decVal ds) else none

/-- One octet of netip.parseIPv4: digits, no leading zero, at most 255. -/
def parseOctet (ds : List Char) : Option U8 :=
  if isNum ds && !(ds.length > 1 && ds.head? == some '0') && decide (decVal ds ≤ 255) then
    some (BitVec.ofNat 8 (decVal ds)) else none

/-- netip.parseIPv4 (Go standard library) -/
def parseIPv4 (s : List Char) : Option (List U8) :=
  match splitC '.' s with
  | [a, b, c, d] => do
    let a ← parseOctet a
    let b ← parseOctet b
    let c ← parseOctet c
    let d ← parseOctet d
    pure [a, b, c, d]
  | _ => none

/-- Group loop of netip.parseIPv6 (Go standard library): `n` groups may still be read, `gs` are the groups
read so far, `e` the position of the ellipsis. Embedded dotted IPv4 is not modelled: the regular
expression excludes '.' in texts with ':'. -/
def v6Loop : Nat → List Char → List Nat → Option Nat → Option (List Nat × Option Nat × List Char)
  | 0, s, gs, e => some (gs, e, s)
  | n + 1, s, gs, e =>
    let h := s.takeWhile isHex
    let r := s.dropWhile isHex
    if h.length = 0 ∨ h.length > 4 then none
    else
      let gs' := gs ++ [hexVals h]
      match r with
      | [] => some (gs', e, [])
      | c :: r' =>
        if c ≠ ':' then none
        else match r' with
          | [] => none
          | c2 :: r2 =>
            if c2 = ':' then
              if e.isSome then none
              else if r2.isEmpty then some (gs', some gs'.length, [])
              else v6Loop n r2 gs' (some gs'.length)
            else v6Loop n (c2 :: r2) gs' e

/-- End of netip.parseIPv6: everything consumed, ellipsis expanded to at least one zero group. -/
def v6Finish : List Nat × Option Nat × List Char → Option (List Nat)
  | (gs, e, s) =>
    if !s.isEmpty then none
    else if gs.length < 8 then
      match e with
      | none => none
      | some k => some (gs.take k ++ List.replicate (8 - gs.length) 0 ++ gs.drop k)
    else if e.isSome then none else some gs

/-- netip.parseIPv6 -/
def parseIPv6 (s : List Char) : Option (List Nat) :=
  match s with
  | ':' :: ':' :: r =>
    if r.isEmpty then some (List.replicate 8 0) else (v6Loop 8 r [] (some 0)).bind v6Finish
  | _ => (v6Loop 8 s [] none).bind v6Finish

def groupBytes (g : Nat) : List U8 := [BitVec.ofNat 8 (g / 256), BitVec.ofNat 8 g]

/-- net.IP.To4 on a 16-byte address -/
def to4 (b : List U8) : Option (List U8) :=
  if b.take 10 = List.replicate 10 0 ∧ (b.drop 10).take 2 = [0xff, 0xff] then some (b.drop 12) else none

/-- net.ParseIP followed by To4 where possible (sdf_filter_parser.go 82-88): 4 or 16 octets. -/
def parseIP (s : List Char) : Option (List U8) :=
  if s.contains ':' then
    (parseIPv6 s).map (fun gs =>
      let b := (gs.map groupBytes).flatten
      (to4 b).getD b)
  else if s.contains '.' then parseIPv4 s
  else none

/-- net.CIDRMask(ones, bits) with `bits = 8*len`: nil when out of range. Octet i has the top
`ones - 8 i` bits set. -/
def cidrMask (ones len : Nat) : List U8 :=
  if ones > 8 * len then []
  else (List.range len).map (fun i =>
    if 8 * (i + 1) ≤ ones then 0xff else if ones ≤ 8 * i then 0
    else (BitVec.allOnes 8) <<< (8 - (ones - 8 * i)))

/-- net.IP.Mask: nil when lengths differ. -/
def ipMask (ip mask : List U8) : List U8 :=
  if ip.length = mask.length then List.zipWith (· &&& ·) ip mask else []

/-- sdf_filter_parser.go 80-106 `ParseCidrIp`; `mask = none` is the empty string. `int(maskUint)`
is negative from 2^63 on, which CIDRMask also answers with nil, so the natural number is kept. -/
def parseCidrIp (ipStr : List Char) (maskStr : Option (List Char)) : Option IpWMask := do
  let ip ← parseIP ipStr
  let type : U8 := if ip.length = 4 then 1 else 2
  match maskStr with
  | none => pure ⟨type, ip, cidrMask (8 * ip.length) ip.length⟩
  | some m =>
    let n ← parseUint64 m
    let mask := cidrMask n ip.length
    pure ⟨type, ipMask ip mask, mask⟩

/-- sdf_filter_parser.go 61-78 `ParseProtocol` -/
def parseProtocol (s : List Char) : Option U8 :=
  if s = "icmp".toList then some 0
  else if s = "ip".toList then some 1
  else if s = "tcp".toList then some 2
  else if s = "udp".toList then some 3
  else if s = "58".toList then some 4
  else none

/-- sdf_filter_parser.go 129-138 `ParsePort` -/
def parsePort (s : List Char) : Option U16 := do
  let n ← parseUint64 s
  if n > 65535 then none else pure (BitVec.ofNat 16 n)

/-- sdf_filter_parser.go 108-127 `ParsePortRange`, its regular expression included:
`^(\d+)(?:-(\d+))?$`. -/
def parsePortRange (s : List Char) : Option PortRange :=
  match splitC '-' s with
  | [a] => if isNum a then (parsePort a).map (fun p => ⟨p, p⟩) else none
  | [a, b] =>
    if isNum a && isNum b then do
      let lo ← parsePort a
      let hi ← parsePort b
      if lo > hi then none else pure ⟨lo, hi⟩
    else none
  | _ => none

/-- The address alternatives of the regular expression (sdf_filter_parser.go 14): digits and dots, or hex
digits and colons. -/
def isAddrText (s : List Char) : Bool :=
  !s.isEmpty && (s.all (fun c => isDigit c || c == '.') || s.all (fun c => isHex c || c == ':'))

/-- `ADDR(?:/(\d+))?` : address text and optional mask text. -/
def splitMask (s : List Char) : Option (List Char × Option (List Char)) :=
  match splitC '/' s with
  | [a] => some (a, none)
  | [a, m] => if isNum m then some (a, some m) else none
  | _ => none

/-- sdf_filter_parser.go 28-37: source address -/
def parseSrc (s : List Char) : Option IpWMask :=
  match splitMask s with
  | none => none
  | some (a, m) =>
    if a = "any".toList then (if m.isSome then none else some ⟨0, [], []⟩)
    else if isAddrText a then parseCidrIp a m else none

/-- sdf_filter_parser.go 44-50: destination address (a mask after any/assigned is ignored) -/
def parseDst (s : List Char) : Option IpWMask :=
  match splitMask s with
  | none => none
  | some (a, m) =>
    if a = "any".toList ∨ a = "assigned".toList then some ⟨0, [], []⟩
    else if isAddrText a then parseCidrIp a m else none

/-- sdf_filter_parser.go 38-43, 51-56: optional port group, default 0-65535. -/
def parsePorts : Option (List Char) → Option PortRange
  | none => some ⟨0, 65535⟩
  | some s => parsePortRange s

/-- The four shapes of the regular expression (sdf_filter_parser.go 14), as the list of texts between
single spaces. -/
def fields : List (List Char) →
    Option (List Char × List Char × Option (List Char) × List Char × Option (List Char))
  | [a, b, p, f, s, t, d] =>
    if a = "permit".toList ∧ b = "out".toList ∧ f = "from".toList ∧ t = "to".toList then
      some (p, s, none, d, none) else none
  | [a, b, p, f, s, x, y, z] =>
    if a = "permit".toList ∧ b = "out".toList ∧ f = "from".toList then
      if x = "to".toList then some (p, s, none, y, some z)
      else if y = "to".toList then some (p, s, some x, z, none)
      else none
    else none
  | [a, b, p, f, s, sp, t, d, dp] =>
    if a = "permit".toList ∧ b = "out".toList ∧ f = "from".toList ∧ t = "to".toList then
      some (p, s, some sp, d, some dp) else none
  | _ => none

/-- sdf_filter_parser.go 13-59 `ParseSdfFilter`. A protocol group `\d+` other than 58 is a match that
`ParseProtocol` then rejects, so the protocol group needs no separate check. -/
def parse (s : List Char) : Option SdfFilter := do
  let (p, src, sp, dst, dp) ← fields (splitC ' ' s)
  let proto ← parseProtocol p
  let src ← parseSrc src
  let srcPort ← parsePorts sp
  let dst ← parseDst dst
  let dstPort ← parsePorts dp
  pure ⟨proto, src, srcPort, dst, dstPort⟩

end Sdf
end Eupf
