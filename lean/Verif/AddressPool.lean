import Verif.Handlers
/-
The UE address pool with addresses as Go keeps them: `net.IP` is a slice of 4 or 16 octets, and `NewResourceManager` makes a pool of either
kind, from whatever prefix passes the `cidr` tag of cmd/config/config.go 35. `Verif.ResourceManager` has IPv4 pools only; this module has both and is
compared with it in `Verif.Props.AddressPool`.
-/
namespace Eupf

/-- `net.IP` values that occur: a slice of 4 octets (from an IPv4 prefix, or the IPv4 address of a UE IP Address IE) or of 16. -/
inductive NetIP where
  | v4 (a : Ip4)
  | v6 (a : Ip6)
deriving DecidableEq, Repr

/-- cmd/config/config.go 35: `ueip_pool` is any prefix that passes the validator's tag `cidr`, of either IP version. -/
inductive Cidr where
  | v4 (base : Ip4) (len : Nat)
  | v6 (base : Ip6) (len : Nat)

/-- resource_manager.go 33-43 with ipnetgen: all addresses of the prefix except the first, as slices of the length of the prefix's own address. -/
def Cidr.addresses : Cidr → List NetIP
  | .v4 base len => (ipPool base len).map .v4
  | .v6 base len => ((List.range (2 ^ (128 - len))).tail).map
      (fun i => .v6 ((base &&& (BitVec.allOnes 128 <<< (128 - len))) + BitVec.ofNat 128 i))

/-- resource_manager.go 22-26 `IPAM` (the lock is left out: every method body is one critical section). -/
structure IpamB where
  freeIPs : List NetIP
  busyIPs : GoMap U64 NetIP

namespace IpamB
/-- resource_manager.go 45-48: the pool at start -/
def new (c : Cidr) : IpamB := ⟨c.addresses, GoMap.empty⟩

/-- resource_manager.go 73-85 `AllocateIP` -/
def allocate (m : IpamB) (key : U64) : IpamB × Option NetIP :=
  match m.freeIPs with
  | [] => (m, none)
  | ip :: rest => (⟨rest, m.busyIPs.set key ip⟩, some ip)

/-- resource_manager.go 107-114 `ReleaseIP` -/
def release (m : IpamB) (seid : U64) : IpamB :=
  match m.busyIPs.get? seid with
  | some ip => ⟨m.freeIPs ++ [ip], m.busyIPs.erase seid⟩
  | none => m
end IpamB

/-- The 4-octet key of the map `pdr_map_downlink_ip4` (cmd/ebpf/xdp/pdr.h 67-72) made from a `net.IP`: cilium/ebpf refuses a value whose marshalled
length is not the key size. -/
def NetIP.key4 : NetIP → Option Ip4
  | .v4 a => some a
  | .v6 _ => none

/-- cmd/ebpf/pdr.go 68-80 `PutPdrDownlink` with the address as the caller has it. (With an SDF filter the lookup of line 73 fails too, and the
entry of no table is combined: pdr.go 45-52; `Put` of line 79 fails in either case.) -/
def putPdrDownlinkB (b : BpfObjects) (ip : NetIP) (p : PdrInfo) : Option BpfObjects :=
  ip.key4.bind (fun a => b.putPdrDownlink a p)

/-- What one Create PDR for a UE address works on: the session under construction, the address pool and the tables. -/
structure AddrState where
  sess : Session
  pool : Option IpamB
  dp : BpfObjects

/-- pdr_creation_context.go 213-222 `getIP` -/
def allocIpB (seid : U64) (m : Option IpamB) : Option IpamB × Option NetIP :=
  match m with
  | none => (none, none)
  | some r =>
    let x := r.allocate seid
    (some x.1, x.2)

/-- pdr_creation_context.go 143-158: the address the rule gets, as (`Ipv4`, `Ipv6`) of the new record; whatever slice the pool hands out goes to
the field `Ipv4` (line 145, 152). -/
def ueAddress (featUEIP : Bool) (u : UeIp) (seid : U64) (m : Option IpamB) :
    Option IpamB × Option (NetIP ⊕ Ip6) :=
  let r : Option IpamB × Option NetIP :=
    if featUEIP && u.chv4 then
      match allocIpB seid m with
      | (m', some ip) => (m', some ip)
      | (m', none) => (m', u.ipv4.map .v4)
    else (m, u.ipv4.map .v4)
  match r.2, u.ipv6 with
  | some ip, _ => (r.1, some (.inl ip))
  | none, some ip6 => (r.1, some (.inr ip6))
  | none, none => (r.1, none)

/-- pfcp_session_handlers.go 97-117 with `extractPDR` (pdr_creation_context.go 66-101, 137-158) and `applyPDR` (cmd/core/pdr.go 13-24): one
Create PDR whose PDI has a UE IP Address and no F-TEID; `true` when it is installed, `false` when the loop breaks with an error. Left out: storing
the record in the session (line 105) and the list of created PDRs (line 115). -/
def createUe (featUEIP : Bool) (ie : PdrIE) (u : UeIp) (s : AddrState) : AddrState × Bool :=
  match pdrSdf ie (pdrRefs s.sess ie {}) with
  | none => (s, false)
  | some info =>
    match ueAddress featUEIP u s.sess.remoteSEID s.pool with
    | (m, none) => ({ s with pool := m }, false)
    | (m, some (.inl ip)) => match putPdrDownlinkB s.dp ip info with
      | some dp => ({ s with pool := m, dp := dp }, true)
      | none => ({ s with pool := m }, false)
    | (m, some (.inr ip6)) => match s.dp.putDownlinkPdrIp6 ip6 info with
      | some dp => ({ s with pool := m, dp := dp }, true)
      | none => ({ s with pool := m }, false)

end Eupf
