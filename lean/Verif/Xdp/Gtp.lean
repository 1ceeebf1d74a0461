import Verif.Xdp.Parse
import Verif.Xdp.Csum
/- GTP-U tunnel handling: cmd/ebpf/xdp/utils/gtp_utils.h, gtpu.h, and the ICMP echo reply of icmp.h. -/
namespace Eupf

/-- gtp_utils.h 90-139 `remove_gtp_header`; true = 0 (success). `bpf_xdp_adjust_head(n)` cuts the first `n` octets; the
kernel refuses it only if less than an Ethernet header would remain, which the checks exclude. -/
def removeGtpHeader (c : Ctx) : X (Ctx × Bool) := do
  match c.gtp with
  | none => return (c, false)
  | some gtp =>
    let flags ← ld8 gtp
    let encap := 36 + (if gtpOpt flags then 8 else 0)
    let len ← frameLen
    if 14 > len then return (c, false)
    if encap + 14 > len then return (c, false)
    if encap + 15 > len then return (c, false)
    match guessEthProtocol (← ld8 (encap + 14)) with
    | none => return (c, false)
    | some proto =>
      let eth ← ldBytes 0 14
      store encap eth
      store (encap + 12) (bytes16 proto)
      Act.modify (fun s => { s with frame := s.frame.drop encap })
      contextReinit c

/-- gtp_utils.h 141-153 `fill_ip_header`: all 20 octets, checksum 0 -/
def fillIpHeader (saddr daddr : U32) (tos : U8) (totLen : U16) : List U8 :=
  [0x45, tos] ++ bytes16 (swap16 totLen) ++ [0, 0] ++ bytes16 0x0040 ++ [64, 17, 0, 0] ++ bytes32 saddr ++ bytes32 daddr

/-- gtp_utils.h 155-160 `fill_udp_header` -/
def fillUdpHeader (port len : U16) : List U8 :=
  bytes16 (swap16 port) ++ bytes16 (swap16 port) ++ bytes16 (swap16 len) ++ [0, 0]

/-- gtp_utils.h 162-168 `fill_gtp_header`: flags 0x30 with E set -/
def fillGtpHeader (teid : U32) (len : U16) : List U8 :=
  [0x34, 255] ++ bytes16 (swap16 len) ++ bytes32 (swap32 teid)

/-- gtp_utils.h 170-174 `fill_gtp_ext_header` -/
def fillGtpExt : List U8 := [0, 0, 0, 0x85]

/-- gtp_utils.h 176-184 `fill_gtp_ext_header_psc` (gtpu.h 68-76: the QFI field has 6 bits) -/
def fillGtpPsc (qfi : U8) (pduType : U8) : List U8 := [1, pduType <<< 4, qfi &&& 0x3f, 0]

/-- gtp_utils.h 186-262 `add_gtp_over_ip4_headers`; true = 0 (success). Lengths are computed in wider integers and cut
to 16 bits by `bpf_htons`, which is addition modulo 2^16. -/
def addGtpHeaders (e : Env) (c : Ctx) (saddr daddr : U32) (tos qfi : U8) (teid : U32) : X (Ctx × Bool) := do
  let ipLen : Option U16 ← (match c.ip4, c.ip6 with
    | some ip, _ => do return some (swap16 (← ld16 (ip + 2)))
    | none, some ip => do return some (swap16 (← ld16 (ip + 4)) + 40)
    | none, none => pure none)
  match ipLen with
  | none => return (c, false)
  | some ipLen =>
    match e.headroom with
    | none => return (c, false)
    | some g =>
      Act.modify (fun s => { s with frame := g.toList ++ s.frame })
      if 44 + 14 > (← frameLen) then return (c, false)
      let eth ← ldBytes 44 14
      store 0 eth
      store 12 (bytes16 (swap16 0x0800))
      store 14 (fillIpHeader saddr daddr tos (ipLen + 44))
      store 34 (fillUdpHeader 2152 (ipLen + 24))
      store 42 (fillGtpHeader teid (ipLen + 8))
      store 50 fillGtpExt
      store 54 (fillGtpPsc qfi 0)
      let hdr ← ldBytes 14 20
      store 24 (bytes16 (ipv4Csum hdr))
      return ({ c with data := 0, eth := some 0, ip4 := some 14, ip6 := none, udp := some 34, gtp := some 42 }, true)

/-- gtp_utils.h 264-277 `update_gtp_tunnel` (the TOS argument is not used) -/
def updateGtpTunnel (c : Ctx) (saddr daddr : U32) (teid : U32) : X Unit := do
  let gtp ← ptr c.gtp
  store (gtp + 4) (bytes32 (swap32 teid))
  let ip ← ptr c.ip4
  store (ip + 12) (bytes32 saddr)
  store (ip + 16) (bytes32 daddr)
  store (ip + 10) [0, 0]
  let hdr ← ldBytes ip 20
  store (ip + 10) (bytes16 (ipv4Csum hdr))
  let udp ← ptr c.udp
  store (udp + 6) [0, 0]

/-- gtpu.h 83-101 `insert_recovery`: false = 0 (no room) -/
def insertRecovery (gtp : Nat) : X Bool := do
  let flags ← ld8 gtp
  let len ← frameLen
  if gtpOpt flags then
    if gtp + 12 > len then return false
    if gtp + 14 > len then return false
    store (gtp + 12) [14, 0]
    return true
  else
    if gtp + 10 > len then return false
    store (gtp + 8) [14, 0]
    return true

/-- add `n` to a 16-bit big-endian field: `x = bpf_htons(bpf_ntohs(x) + n)` -/
def addBe16 (o : Nat) (n : U16) : X Unit := do
  let x ← ld16 o
  store o (bytes16 (swap16 (swap16 x + n)))

/-- gtp_utils.h 43-72 `handle_echo_request` -/
def handleEchoRequest (c : Ctx) : X XAction := do
  let gtp ← ptr c.gtp
  let ip ← ptr c.ip4
  let udp ← ptr c.udp
  let eth ← ptr c.eth
  store (gtp + 1) [2]
  swapIp ip
  swapPort udp
  swapMac eth
  if ← insertRecovery gtp then
    addBe16 (gtp + 2) 2
    addBe16 (udp + 4) 2
    addBe16 (ip + 2) 2
    store (ip + 10) [0, 0]
    let hdr ← ldBytes ip 20
    store (ip + 10) (bytes16 (ipv4Csum hdr))
  return .tx

/-- icmp.h 81-109 `prepare_icmp_echo_reply`; true = 0 (success) -/
def prepareIcmpEchoReply (c : Ctx) : X Bool := do
  match c.ip4 with
  | none => return false
  | some ip =>
    let eth ← ptr c.eth
    swapMac eth
    let len ← frameLen
    if ip + 20 > len then return false
    swapIp ip
    if ip + 28 > len then return false
    let t ← ld8 (ip + 20)
    if t ≠ 8 then return false
    let old ← ld16 (ip + 20)
    store (ip + 20) [0]
    store (ip + 21) [0]
    let new ← ld16 (ip + 20)
    let sum ← ld16 (ip + 22)
    store (ip + 22) (bytes16 (csumReplace sum old new))
    return true

end Eupf
