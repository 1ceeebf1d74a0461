import Verif.Xdp.Pipeline
/-
The packet program as built with ENABLE_ROUTE_CACHE (README.md 240, Dockerfile 16-19: BPF_ENABLE_ROUTE_CACHE=1): the same source
with another `route_ipv4` (routing.h 49-88, 107-114, 133-135). The functions of Xdp/Pipeline.lean on the way to `route_ipv4` are
written once more over the state that includes the cache; everything else is the same code (`up`).

The map is a BPF_MAP_TYPE_LRU_HASH: an update may throw out any other entries, and may fail. Which entries are lost in the update
is an arbitrary choice of the environment. The map for IPv6 (routing.h 71-78) is defined and never used.
-/
namespace Eupf

/-- routing.h 56-60 `struct route_record` -/
structure Hop where
  ifindex : U32
  smac : Vector U8 6
  dmac : Vector U8 6

def Hop.ans (h : Hop) : FibAns := .ok h.ifindex h.smac h.dmac

/-- routing.h 62-69 `upf_route_cache_ip4`: by the 4 octets of the destination address. -/
abbrev RouteCache := List U8 → Option Hop

/-- What the program works on; `hits` is `fib_lookup_ip4_cache` (routing.h 31). -/
structure CPS where
  ps : PS
  cache : RouteCache
  hits : U64

/-- What the program gets from outside while handling one packet; `lost` says which entries the LRU map gives up (or refuses to
take) in an update. -/
structure CEnv where
  env : Env
  lost : List U8 → Bool

abbrev XC := Act CPS

/-- code that does not touch the cache -/
def up {α : Type} (m : X α) : XC α := fun s => ({ s with ps := (m s.ps).1 }, (m s.ps).2)

/-- routing.h 90-98 `do_route_ipv4` -/
def doRoute (e : Env) (eth : Nat) (h : Hop) : X XAction := do
  store (eth + 6) h.smac.toList
  store eth h.dmac.toList
  return if h.ifindex = e.ifindex then .tx else .redirect h.ifindex

/-- routing.h 80-88 `update_route_cache_ipv4` -/
def RouteCache.update (c : RouteCache) (lost : List U8 → Bool) (dst : List U8) (h : Hop) : RouteCache :=
  fun d => if lost d then none else if d = dst then some h else c d

/-- routing.h 100-154 `route_ipv4` with ENABLE_ROUTE_CACHE (the Ethernet pointer is dereferenced earlier than in the C code; it is
never null) -/
def routeIp4C (e : CEnv) (eth ip : Option Nat) : XC XAction := do
  let ip ← up (ptr ip)
  let dst ← up (ldBytes (ip + 16) 4)
  let eth ← up (ptr eth)
  let s ← Act.get
  match s.cache dst with
  | some h =>
    Act.modify (fun s => { s with hits := s.hits + 1 })
    up (doRoute e.env eth h)
  | none =>
    let tos ← up (ld8 (ip + 1))
    let proto ← up (ld8 (ip + 9))
    let len ← up (ld16 (ip + 2))
    let src ← up (ldBytes (ip + 12) 4)
    let req : FibReq := { family := 2, tos := tos, proto := proto, totLen := swap16 len, src := src, dst := dst, ifindex := e.env.ifindex }
    match e.env.fib req with
    | .ok i smac dmac =>
      up (countRt (fun r => { r with ip4Ok := r.ip4Ok + 1 }))
      Act.modify (fun s => { s with cache := s.cache.update e.lost dst ⟨i, smac, dmac⟩ })
      up (doRoute e.env eth ⟨i, smac, dmac⟩)
    | .fail rc =>
      if rc = 1 ∨ rc = 2 ∨ rc = 3 then
        up (countRt (fun r => { r with ip4Drop := r.ip4Drop + 1 }))
        return .drop
      else
        up (countRt (fun r => { r with ip4Pass := r.ip4Pass + 1 }))
        return .pass

/-- n3n6_entrypoint.c 58-64 `send_to_gtp_tunnel` -/
def sendToGtpTunnelC (e : CEnv) (c : Ctx) (dst : U32) (tos qfi : U8) (teid : U32) : XC XAction := do
  let (c, ok) ← up (addGtpHeaders e.env c e.env.n3 dst tos qfi teid)
  if ok then
    up (count (fun st => { st with txN3 := st.txN3 + 1 }))
    routeIp4C e c.eth c.ip4
  else return .aborted

/-- n3n6_entrypoint.c 91-128 = 154-191 -/
def downlinkTailC (e : CEnv) (c : Ctx) (pdr : PdrEntry) (farId qerId : U32) : XC XAction := do
  let s ← up Act.get
  match s.dp.far.lookup farId with
  | none => return .drop
  | some far =>
    if far.action &&& 0x02 = 0 then return .drop
    else if far.ohc &&& 0x01 = 0 then return .drop
    else match s.dp.qer.lookup qerId with
      | none => return .drop
      | some qer =>
        if qer.gateDL ≠ 0 then return .drop
        else
          let size := BitVec.ofNat 64 s.frame.length
          match limitRate size qer.startDL (qer.mbrDL.zeroExtend 64) e.env.tDL with
          | none => return .drop
          | some start =>
            up (Act.modify (fun s => { s with dp := s.dp.setStart qerId (fun q => { q with startDL := start }) }))
            up (updUrr pdr.urr1 0 size)
            up (updUrr pdr.urr2 0 size)
            sendToGtpTunnelC e c far.remoteIP ((far.tlm >>> 8).truncate 8) qer.qfi far.teid

/-- n3n6_entrypoint.c 68-129 `handle_n6_packet_ipv4` -/
def handleN6Ip4C (e : CEnv) (c : Ctx) : XC XAction := do
  let ip ← up (ptr c.ip4)
  let a ← up (ld32 (ip + 16))
  let s ← up Act.get
  match s.dp.pdrDl4.lookup (swap32 a) with
  | none => return .pass
  | some pdr =>
    if pdr.sdfMode ≠ 0 then do
      let m ← up (matchSdfIp4 c pdr.filter)
      if m then downlinkTailC e c pdr pdr.sdfFar pdr.sdfQer
      else if pdr.sdfMode &&& 1 ≠ 0 then return .pass
      else downlinkTailC e c pdr pdr.farId pdr.qerId
    else downlinkTailC e c pdr pdr.farId pdr.qerId

/-- n3n6_entrypoint.c 131-192 `handle_n6_packet_ipv6` -/
def handleN6Ip6C (e : CEnv) (c : Ctx) : XC XAction := do
  let ip ← up (ptr c.ip6)
  let a ← up (ldBytes (ip + 24) 16)
  let s ← up Act.get
  match s.dp.pdrDl6.lookup (be128 a) with
  | none => return .pass
  | some pdr =>
    if pdr.sdfMode ≠ 0 then do
      let m ← up (matchSdfIp6 c pdr.filter)
      if m then downlinkTailC e c pdr pdr.sdfFar pdr.sdfQer
      else if pdr.sdfMode &&& 1 ≠ 0 then return .pass
      else downlinkTailC e c pdr pdr.farId pdr.qerId
    else downlinkTailC e c pdr pdr.farId pdr.qerId

/-- n3n6_entrypoint.c 350-371 -/
def uplinkOutC (e : CEnv) (c : Ctx) : XC XAction := do
  match c.ip4 with
  | some ip =>
    let dst ← up (ld32 (ip + 16))
    let proto ← up (ld8 (ip + 9))
    if isLocalIp e.env dst && decide (proto = 1) then do
      let r ← up (prepareIcmpEchoReply c)
      if r then handleN6Ip4C e c else return .aborted
    else
      up (count (fun st => { st with txN6 := st.txN6 + 1 }))
      routeIp4C e c.eth c.ip4
  | none =>
    if c.ip6.isSome then
      up (count (fun st => { st with txN6 := st.txN6 + 1 }))
      up (routeIp6 e.env c.eth c.ip6)
    else return .aborted

/-- n3n6_entrypoint.c 287-371 -/
def uplinkTailC (e : CEnv) (c : Ctx) (pdr : PdrEntry) (ohr : U8) (farId qerId : U32) : XC XAction := do
  let s ← up Act.get
  match s.dp.far.lookup farId with
  | none => return .drop
  | some far =>
    if far.action &&& 0x02 = 0 then return .drop
    else match s.dp.qer.lookup qerId with
      | none => return .drop
      | some qer =>
        if qer.gateUL ≠ 0 then return .drop
        else
          let size := BitVec.ofNat 64 s.frame.length
          match limitRate size qer.startUL (qer.mbrUL.zeroExtend 64) e.env.tUL with
          | none => return .drop
          | some start =>
            up (Act.modify (fun s => { s with dp := s.dp.setStart qerId (fun q => { q with startUL := start }) }))
            up (updUrr pdr.urr1 size 0)
            up (updUrr pdr.urr2 size 0)
            let (c, ok) ← up (uplinkHeaders e.env c far ohr)
            if ok then uplinkOutC e c else return .aborted

/-- n3n6_entrypoint.c 194-373 `handle_gtp_packet` -/
def handleGtpPacketC (e : CEnv) (c : Ctx) : XC XAction := do
  match c.gtp with
  | none => return .pass
  | some gtp =>
    let t ← up (ld32 (gtp + 4))
    let s ← up Act.get
    match s.dp.pdrUl.lookup (swap32 t) with
    | none => return .pass
    | some pdr =>
      match ← up (uplinkRule c pdr) with
      | none => return .pass
      | some (ohr, farId, qerId) => uplinkTailC e c pdr ohr farId qerId

/-- n3n6_entrypoint.c 375-399 `handle_gtpu` -/
def handleGtpuC (e : CEnv) (c : Ctx) : XC XAction := do
  let (c, t) ← up (parseGtp c)
  if t = some 255 then
    up (count (fun st => { st with rxGtpPdu := st.rxGtpPdu + 1 }))
    handleGtpPacketC e c
  else if t = some 1 then
    up (count (fun st => { st with rxGtpEcho := st.rxGtpEcho + 1 }))
    up (handleEchoRequest c)
  else if t = some 2 then return .pass
  else if t = some 26 ∨ t = some 31 ∨ t = some 254 then
    up (count (fun st => { st with rxGtpOther := st.rxGtpOther + 1 }))
    return .pass
  else
    up (count (fun st => { st with rxGtpUnexp := st.rxGtpUnexp + 1 }))
    return .pass

/-- n3n6_entrypoint.c 427-428 -/
def n6Ip4C (e : CEnv) (c : Ctx) : XC XAction := do
  up (count (fun st => { st with rxN6 := st.rxN6 + 1 }))
  handleN6Ip4C e c

/-- n3n6_entrypoint.c 401-429 `handle_ip4` -/
def handleIp4C (e : CEnv) (c : Ctx) : XC XAction := do
  let (c, p) ← up (parseIp4 c)
  if p = some 1 then
    up (count (fun st => { st with rxIcmp := st.rxIcmp + 1 }))
    n6Ip4C e c
  else if p = some 17 then
    up (count (fun st => { st with rxUdp := st.rxUdp + 1 }))
    let (c, port) ← up (parseUdp c)
    let ip ← up (ptr c.ip4)
    let dst ← up (ld32 (ip + 16))
    if port = some 2152 ∧ (dst = e.env.n3 ∨ dst = e.env.n9) then
      up (count (fun st => { st with rxN3 := st.rxN3 + 1 }))
      handleGtpuC e c
    else n6Ip4C e c
  else if p = some 6 then
    up (count (fun st => { st with rxTcp := st.rxTcp + 1 }))
    let (c, _) ← up (parseTcp c)
    n6Ip4C e c
  else
    up (count (fun st => { st with rxOther := st.rxOther + 1 }))
    return .pass

/-- n3n6_entrypoint.c 455-456 -/
def n6Ip6C (e : CEnv) (c : Ctx) : XC XAction := do
  up (count (fun st => { st with rxN6 := st.rxN6 + 1 }))
  handleN6Ip6C e c

/-- n3n6_entrypoint.c 431-457 `handle_ip6` -/
def handleIp6C (e : CEnv) (c : Ctx) : XC XAction := do
  let (c, p) ← up (parseIp6 c)
  if p = some 58 then
    up (count (fun st => { st with rxIcmp6 := st.rxIcmp6 + 1 }))
    return .pass
  else if p = some 17 then
    up (count (fun st => { st with rxUdp := st.rxUdp + 1 }))
    n6Ip6C e c
  else if p = some 6 then
    up (count (fun st => { st with rxTcp := st.rxTcp + 1 }))
    let (c, _) ← up (parseTcp c)
    n6Ip6C e c
  else
    up (count (fun st => { st with rxOther := st.rxOther + 1 }))
    return .pass

/-- n3n6_entrypoint.c 459-477 `process_packet` -/
def processPacketC (e : CEnv) : XC XAction := do
  let (c, t) ← up (parseEthernet {})
  if t = some 0x86DD then
    up (count (fun st => { st with rxIp6 := st.rxIp6 + 1 }))
    handleIp6C e c
  else if t = some 0x0800 then
    up (count (fun st => { st with rxIp4 := st.rxIp4 + 1 }))
    handleIp4C e c
  else if t = some 0x0806 then
    up (count (fun st => { st with rxArp := st.rxArp + 1 }))
    return .pass
  else return .pass

/-- n3n6_entrypoint.c 480-508 `upf_ip_entrypoint_func` -/
def entrypointC (e : CEnv) : XC XAction := do
  let a ← processPacketC e
  up (count (fun st => { st with actions := fun i => if i = a.code then st.actions i + 1 else st.actions i }))
  return a

/-- One packet. -/
def runPacketC (e : CEnv) (s : CPS) : CPS × Res XAction := entrypointC e s

end Eupf
