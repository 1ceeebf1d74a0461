import Verif.Xdp.Mem
/- SDF matching: cmd/ebpf/xdp/sdf_filter.h. -/
namespace Eupf

/-- sdf_filter.h 58-66 `get_sdf_protocol` -/
def sdfProtocol (p : U8) : U8 := if p = 1 then 0 else if p = 6 then 2 else if p = 17 then 3 else 1

/-- sdf_filter.h 98-105: the comparison for IPv4; `saddr`, `daddr` are the raw 32-bit loads of the packet's addresses,
ports in host order. `bpf_htonl` truncates the 128-bit fields of the filter. -/
def sdfMatch4 (k : KFilter) (proto : U8) (saddr daddr : U32) (sport dport : U16) : Bool :=
  !((decide (k.proto ≠ 1) && decide (k.proto ≠ sdfProtocol proto))
    || decide (saddr &&& swap32 (k.src.mask.truncate 32) ≠ swap32 (k.src.ip.truncate 32))
    || decide (daddr &&& swap32 (k.dst.mask.truncate 32) ≠ swap32 (k.dst.ip.truncate 32))
    || (decide (sport < k.srcPort.lo) || decide (sport > k.srcPort.hi))
    || (decide (dport < k.dstPort.lo) || decide (dport > k.dstPort.hi)))

/-- sdf_filter.h 113-152: the comparison for IPv6; `saddr`, `daddr` are the raw 128-bit (little-endian) loads -/
def sdfMatch6 (k : KFilter) (proto : U8) (saddr daddr : BitVec 128) (sport dport : U16) : Bool :=
  !((decide (k.proto ≠ 1) && decide (k.proto ≠ sdfProtocol proto))
    || decide (saddr &&& k.src.mask ≠ (swap32 (k.src.ip.truncate 32)).zeroExtend 128)
    || decide (daddr &&& k.dst.mask ≠ (swap32 (k.dst.ip.truncate 32)).zeroExtend 128)
    || decide (sport < k.srcPort.lo) || decide (sport > k.srcPort.hi)
    || decide (dport < k.dstPort.lo) || decide (dport > k.dstPort.hi))

/-- sdf_filter.h 74-82, 120-126: the ports (0 without a parsed UDP or TCP header) -/
def packetPorts (c : Ctx) : X (U16 × U16) :=
  match c.udp with
  | some u => do return (swap16 (← ld16 u), swap16 (← ld16 (u + 2)))
  | none => match c.tcp with
    | some t => do return (swap16 (← ld16 t), swap16 (← ld16 (t + 2)))
    | none => return (0, 0)

/-- sdf_filter.h 68-111 `match_sdf_filter_ipv4` -/
def matchSdfIp4 (c : Ctx) (k : KFilter) : X Bool := do
  match c.ip4 with
  | none => return false
  | some ip =>
    let proto ← ld8 (ip + 9)
    let (sp, dp) ← packetPorts c
    return sdfMatch4 k proto (← ld32 (ip + 12)) (← ld32 (ip + 16)) sp dp

/-- sdf_filter.h 113-152 `match_sdf_filter_ipv6` -/
def matchSdfIp6 (c : Ctx) (k : KFilter) : X Bool := do
  let ip ← ptr c.ip6
  let proto ← ld8 (ip + 6)
  let src ← ldBytes (ip + 8) 16
  let dst ← ldBytes (ip + 24) 16
  let (sp, dp) ← packetPorts c
  return sdfMatch6 k proto (le128 src) (le128 dst) sp dp

end Eupf
