import Verif.Xdp.Mem
/- Header parsers: cmd/ebpf/xdp/utils/parsers.h, parse_gtp of gtp_utils.h. `none` models the return value -1. -/
namespace Eupf

/-- parsers.h 33-43 `parse_ethernet`: the EtherType in host order -/
def parseEthernet (c : Ctx) : X (Ctx × Option U16) := do
  if c.data + 14 > (← frameLen) then return (c, none)
  let p ← ld16 (c.data + 12)
  return ({ c with data := c.data + 14, eth := some c.data }, some (swap16 p))

/-- parsers.h 48-60 `parse_ip4`: the protocol -/
def parseIp4 (c : Ctx) : X (Ctx × Option U8) := do
  if c.data + 20 > (← frameLen) then return (c, none)
  let b ← ld8 c.data
  let p ← ld8 (c.data + 9)
  return ({ c with data := c.data + (b &&& 0x0f).toNat * 4, ip4 := some c.data }, some p)

/-- parsers.h 62-72 `parse_ip6`: the next header -/
def parseIp6 (c : Ctx) : X (Ctx × Option U8) := do
  if c.data + 40 > (← frameLen) then return (c, none)
  let p ← ld8 (c.data + 6)
  return ({ c with data := c.data + 40, ip6 := some c.data }, some p)

/-- parsers.h 74-82 `parse_udp`: the destination port in host order -/
def parseUdp (c : Ctx) : X (Ctx × Option U16) := do
  if c.data + 8 > (← frameLen) then return (c, none)
  let p ← ld16 (c.data + 2)
  return ({ c with data := c.data + 8, udp := some c.data }, some (swap16 p))

/-- parsers.h 84-94 `parse_tcp` -/
def parseTcp (c : Ctx) : X (Ctx × Option U16) := do
  if c.data + 20 > (← frameLen) then return (c, none)
  let p ← ld16 (c.data + 2)
  return ({ c with data := c.data + 20, tcp := some c.data }, some (swap16 p))

/-- parsers.h 96-106 `parse_l4` -/
def parseL4 (proto : U8) (c : Ctx) : X (Ctx × Option U16) :=
  if proto = 17 then parseUdp c
  else if proto = 6 then parseTcp c
  else pure (c, some 0)

/-- gtpu.h 36-38: `gtp->e || gtp->s || gtp->pn` on the first octet -/
def gtpOpt (flags : U8) : Bool := decide (flags &&& 0x07 ≠ 0)

/-- gtp_utils.h 31-41 `parse_gtp`: the message type -/
def parseGtp (c : Ctx) : X (Ctx × Option U8) := do
  if c.data + 8 > (← frameLen) then return (c, none)
  let flags ← ld8 c.data
  let t ← ld8 (c.data + 1)
  return ({ c with data := c.data + 8 + (if gtpOpt flags then 8 else 0), gtp := some c.data }, some t)

/-- gtp_utils.h 74-88 `guess_eth_protocol` on the first octet of a packet: the EtherType in host order of its
big-endian image, i.e. ETH_P_IPV6_BE = 0xDD86 or ETH_P_IP_BE = 0x0008 -/
def guessEthProtocol (b : U8) : Option U16 :=
  if b >>> 4 = 6 then some 0xDD86 else if b >>> 4 = 4 then some 0x0008 else none

/-- parsers.h 145-181 `context_reset`, `context_reinit` at the start of the frame; true = 0 (success).
`tcp` is not reset. -/
def contextReinit (c : Ctx) : X (Ctx × Bool) := do
  let (c, t) ← parseEthernet { tcp := c.tcp }
  match t with
  | none => return (c, false)
  | some t =>
    if t = 0x86DD then
      let (c, r) ← parseIp6 c
      return (c, r.isSome)
    else if t = 0x0800 then
      let (c, r) ← parseIp4 c
      return (c, r.isSome)
    else return (c, false)

/-- parsers.h 108-113 `swap_mac` -/
def swapMac (eth : Nat) : X Unit := do
  let src ← ldBytes (eth + 6) 6
  let dst ← ldBytes eth 6
  store (eth + 6) dst
  store eth src

/-- parsers.h 115-124 `swap_port` -/
def swapPort (udp : Nat) : X Unit := do
  let dst ← ld16 (udp + 2)
  let src ← ld16 udp
  store (udp + 2) (bytes16 src)
  store udp (bytes16 dst)
  store (udp + 6) [0, 0]

/-- parsers.h 126-133 `swap_ip` -/
def swapIp (ip : Nat) : X Unit := do
  let dst ← ld32 (ip + 16)
  let src ← ld32 (ip + 12)
  store (ip + 16) (bytes32 src)
  store (ip + 12) (bytes32 dst)

end Eupf
