import Verif.Xdp.Gtp
import Verif.Xdp.Match
import Verif.Xdp.RateLimit
/-
The packet program: cmd/ebpf/xdp/n3n6_entrypoint.c, routing.h, update_urr of urr.h. Trace output (`upf_printk`, disabled by
default) is not modelled; the program with the optional route cache (ENABLE_ROUTE_CACHE) is in Xdp/RouteCache.lean.
-/
namespace Eupf

/-- routing.h 127-153, 174-203: what a lookup result leads to; the MAC addresses are written into the Ethernet header
(routing.h 90-98, 180-187) -/
def applyRoute (e : Env) (eth : Nat) (ans : FibAns) (ok drop pass : RouteStat → RouteStat) : X XAction :=
  match ans with
  | .ok ifindex smac dmac => do
    countRt ok
    store (eth + 6) smac.toList
    store eth dmac.toList
    return if ifindex = e.ifindex then .tx else .redirect ifindex
  | .fail rc => do
    if rc = 1 ∨ rc = 2 ∨ rc = 3 then
      countRt drop
      return .drop
    else
      countRt pass
      return .pass

/-- routing.h 100-154 `route_ipv4` (the per-CPU array lookup of key 0 always succeeds); AF_INET = 2 -/
def routeIp4 (e : Env) (eth ip : Option Nat) : X XAction := do
  let ip ← ptr ip
  let req : FibReq :=
    { family := 2, tos := ← ld8 (ip + 1), proto := ← ld8 (ip + 9), totLen := swap16 (← ld16 (ip + 2)),
      src := ← ldBytes (ip + 12) 4, dst := ← ldBytes (ip + 16) 4, ifindex := e.ifindex }
  let eth ← ptr eth
  applyRoute e eth (e.fib req) (fun r => { r with ip4Ok := r.ip4Ok + 1 }) (fun r => { r with ip4Drop := r.ip4Drop + 1 })
    (fun r => { r with ip4Pass := r.ip4Pass + 1 })

/-- routing.h 156-204 `route_ipv6`; line 164 says AF_INET. (In the success case the order of the two MAC copies is the other
way round, with the same result.) -/
def routeIp6 (e : Env) (eth ip : Option Nat) : X XAction := do
  let ip ← ptr ip
  let req : FibReq :=
    { family := 2, tos := 0, proto := ← ld8 (ip + 6), totLen := swap16 (← ld16 (ip + 4)),
      src := ← ldBytes (ip + 8) 16, dst := ← ldBytes (ip + 24) 16, ifindex := e.ifindex }
  let eth ← ptr eth
  applyRoute e eth (e.fib req) (fun r => { r with ip6Ok := r.ip6Ok + 1 }) (fun r => { r with ip6Drop := r.ip6Drop + 1 })
    (fun r => { r with ip6Pass := r.ip6Pass + 1 })

/-- urr.h 41-49 `update_urr` on the table -/
def BpfObjects.addUrr (b : BpfObjects) (id : U32) (ul dl : U64) : BpfObjects :=
  if id.toNat < b.urr.size.toNat then
    { b with urr := { b.urr with val := fun j => if j = id then ⟨(b.urr.val id).ul + ul, (b.urr.val id).dl + dl⟩ else b.urr.val j } }
  else b

/-- urr.h 41-49 `update_urr` -/
def updUrr (id : U32) (ul dl : U64) : X Unit := Act.modify (fun s => { s with dp := s.dp.addUrr id ul dl })

/-- the assignments to `*windows_start` in qer.h 83, 87: write one field of a QER slot -/
def BpfObjects.setStart (b : BpfObjects) (id : U32) (f : QerInfo → QerInfo) : BpfObjects :=
  { b with qer := { b.qer with val := fun j => if j = id then f (b.qer.val id) else b.qer.val j } }

/-- n3n6_entrypoint.c 58-64 `send_to_gtp_tunnel` -/
def sendToGtpTunnel (e : Env) (c : Ctx) (dst : U32) (tos qfi : U8) (teid : U32) : X XAction := do
  let (c, ok) ← addGtpHeaders e c e.n3 dst tos qfi teid
  if ok then
    count (fun st => { st with txN3 := st.txN3 + 1 })
    routeIp4 e c.eth c.ip4
  else return .aborted

/-- n3n6_entrypoint.c 91-128 = 154-191: FAR, QER, URR and forwarding of a downlink packet -/
def downlinkTail (e : Env) (c : Ctx) (pdr : PdrEntry) (farId qerId : U32) : X XAction := do
  let s ← Act.get
  match s.dp.far.lookup farId with
  | none => return .drop
  | some far =>
    if far.action &&& 0x02 = 0 then return .drop
    else if far.ohc &&& 0x01 = 0 then return .drop
    else match s.dp.qer.lookup qerId with
      | none => return .drop
      | some qer =>
        if qer.gateDL ≠ 0 then return .drop
        else
          let size := BitVec.ofNat 64 s.frame.length
          match limitRate size qer.startDL (qer.mbrDL.zeroExtend 64) e.tDL with
          | none => return .drop
          | some start =>
            Act.modify (fun s => { s with dp := s.dp.setStart qerId (fun q => { q with startDL := start }) })
            updUrr pdr.urr1 0 size
            updUrr pdr.urr2 0 size
            sendToGtpTunnel e c far.remoteIP ((far.tlm >>> 8).truncate 8) qer.qfi far.teid

/-- n3n6_entrypoint.c 68-129 `handle_n6_packet_ipv4`. The map key is the 4 octets of the destination. -/
def handleN6Ip4 (e : Env) (c : Ctx) : X XAction := do
  let ip ← ptr c.ip4
  let key := swap32 (← ld32 (ip + 16))
  let s ← Act.get
  match s.dp.pdrDl4.lookup key with
  | none => return .pass
  | some pdr =>
    if pdr.sdfMode ≠ 0 then
      if ← matchSdfIp4 c pdr.filter then downlinkTail e c pdr pdr.sdfFar pdr.sdfQer
      else if pdr.sdfMode &&& 1 ≠ 0 then return .pass
      else downlinkTail e c pdr pdr.farId pdr.qerId
    else downlinkTail e c pdr pdr.farId pdr.qerId

/-- n3n6_entrypoint.c 131-192 `handle_n6_packet_ipv6` -/
def handleN6Ip6 (e : Env) (c : Ctx) : X XAction := do
  let ip ← ptr c.ip6
  let key := be128 (← ldBytes (ip + 24) 16)
  let s ← Act.get
  match s.dp.pdrDl6.lookup key with
  | none => return .pass
  | some pdr =>
    if pdr.sdfMode ≠ 0 then
      if ← matchSdfIp6 c pdr.filter then downlinkTail e c pdr pdr.sdfFar pdr.sdfQer
      else if pdr.sdfMode &&& 1 ≠ 0 then return .pass
      else downlinkTail e c pdr pdr.farId pdr.qerId
    else downlinkTail e c pdr pdr.farId pdr.qerId

/-- n3n6_entrypoint.c 214-282: the rule for an uplink packet (outer header removal, FAR, QER); `none` = return
DEFAULT_XDP_ACTION -/
def uplinkRule (c : Ctx) (pdr : PdrEntry) : X (Option (U8 × U32 × U32)) := do
  let dflt := some (pdr.ohr, pdr.farId, pdr.qerId)
  let sdf := some (pdr.sdfOhr, pdr.sdfFar, pdr.sdfQer)
  let rest := if pdr.sdfMode &&& 1 ≠ 0 then none else dflt
  if pdr.sdfMode = 0 then return dflt
  let inner : Ctx := { data := c.data }
  if inner.data + 1 > (← frameLen) then return none
  match guessEthProtocol (← ld8 inner.data) with
  | some 0x0008 =>
    let (inner, p) ← parseIp4 inner
    match p with
    | none => return none
    | some p =>
      let (inner, r) ← parseL4 p inner
      if r = none then return none
      if ← matchSdfIp4 inner pdr.filter then return sdf else return rest
  | some 0xDD86 =>
    let (inner, p) ← parseIp6 inner
    match p with
    | none => return none
    | some p =>
      let (inner, r) ← parseL4 p inner
      if r = none then return none
      if ← matchSdfIp6 inner pdr.filter then return sdf else return rest
  | _ => return rest

/-- n3n6_entrypoint.c 322-333: new tunnel, or removal of the outer header; true = go on -/
def uplinkHeaders (e : Env) (c : Ctx) (far : FarInfo) (ohr : U8) : X (Ctx × Bool) := do
  if far.ohc &&& 0x01 ≠ 0 then
    updateGtpTunnel c e.n9 far.remoteIP far.teid
    return (c, true)
  else if ohr = 0 then removeGtpHeader c
  else return (c, true)

/-- n3n6_entrypoint.c 53-56 `is_local_ip` -/
def isLocalIp (e : Env) (ip : U32) : Bool := decide (ip = e.n3 ∨ ip = e.n9)

/-- n3n6_entrypoint.c 350-371: ping reply or routing -/
def uplinkOut (e : Env) (c : Ctx) : X XAction := do
  match c.ip4 with
  | some ip =>
    let dst ← ld32 (ip + 16)
    let proto ← ld8 (ip + 9)
    if isLocalIp e dst && decide (proto = 1) then
      if ← prepareIcmpEchoReply c then handleN6Ip4 e c else return .aborted
    else
      count (fun st => { st with txN6 := st.txN6 + 1 })
      routeIp4 e c.eth c.ip4
  | none =>
    if c.ip6.isSome then
      count (fun st => { st with txN6 := st.txN6 + 1 })
      routeIp6 e c.eth c.ip6
    else return .aborted

/-- n3n6_entrypoint.c 287-371: FAR, QER, URR and forwarding of an uplink packet -/
def uplinkTail (e : Env) (c : Ctx) (pdr : PdrEntry) (ohr : U8) (farId qerId : U32) : X XAction := do
  let s ← Act.get
  match s.dp.far.lookup farId with
  | none => return .drop
  | some far =>
    if far.action &&& 0x02 = 0 then return .drop
    else match s.dp.qer.lookup qerId with
      | none => return .drop
      | some qer =>
        if qer.gateUL ≠ 0 then return .drop
        else
          let size := BitVec.ofNat 64 s.frame.length
          match limitRate size qer.startUL (qer.mbrUL.zeroExtend 64) e.tUL with
          | none => return .drop
          | some start =>
            Act.modify (fun s => { s with dp := s.dp.setStart qerId (fun q => { q with startUL := start }) })
            updUrr pdr.urr1 size 0
            updUrr pdr.urr2 size 0
            let (c, ok) ← uplinkHeaders e c far ohr
            if ok then uplinkOut e c else return .aborted

/-- n3n6_entrypoint.c 194-373 `handle_gtp_packet` -/
def handleGtpPacket (e : Env) (c : Ctx) : X XAction := do
  match c.gtp with
  | none => return .pass
  | some gtp =>
    let teid := swap32 (← ld32 (gtp + 4))
    let s ← Act.get
    match s.dp.pdrUl.lookup teid with
    | none => return .pass
    | some pdr =>
      match ← uplinkRule c pdr with
      | none => return .pass
      | some (ohr, farId, qerId) => uplinkTail e c pdr ohr farId qerId

/-- n3n6_entrypoint.c 375-399 `handle_gtpu` -/
def handleGtpu (e : Env) (c : Ctx) : X XAction := do
  let (c, t) ← parseGtp c
  if t = some 255 then
    count (fun st => { st with rxGtpPdu := st.rxGtpPdu + 1 })
    handleGtpPacket e c
  else if t = some 1 then
    count (fun st => { st with rxGtpEcho := st.rxGtpEcho + 1 })
    handleEchoRequest c
  else if t = some 2 then return .pass
  else if t = some 26 ∨ t = some 31 ∨ t = some 254 then
    count (fun st => { st with rxGtpOther := st.rxGtpOther + 1 })
    return .pass
  else
    count (fun st => { st with rxGtpUnexp := st.rxGtpUnexp + 1 })
    return .pass

/-- n3n6_entrypoint.c 427-428 -/
def n6Ip4 (e : Env) (c : Ctx) : X XAction := do
  count (fun st => { st with rxN6 := st.rxN6 + 1 })
  handleN6Ip4 e c

/-- n3n6_entrypoint.c 401-429 `handle_ip4` -/
def handleIp4 (e : Env) (c : Ctx) : X XAction := do
  let (c, p) ← parseIp4 c
  if p = some 1 then
    count (fun st => { st with rxIcmp := st.rxIcmp + 1 })
    n6Ip4 e c
  else if p = some 17 then
    count (fun st => { st with rxUdp := st.rxUdp + 1 })
    let (c, port) ← parseUdp c
    let ip ← ptr c.ip4
    let dst ← ld32 (ip + 16)
    if port = some 2152 ∧ (dst = e.n3 ∨ dst = e.n9) then
      count (fun st => { st with rxN3 := st.rxN3 + 1 })
      handleGtpu e c
    else n6Ip4 e c
  else if p = some 6 then
    count (fun st => { st with rxTcp := st.rxTcp + 1 })
    let (c, _) ← parseTcp c
    n6Ip4 e c
  else
    count (fun st => { st with rxOther := st.rxOther + 1 })
    return .pass

/-- n3n6_entrypoint.c 455-456 -/
def n6Ip6 (e : Env) (c : Ctx) : X XAction := do
  count (fun st => { st with rxN6 := st.rxN6 + 1 })
  handleN6Ip6 e c

/-- n3n6_entrypoint.c 431-457 `handle_ip6` -/
def handleIp6 (e : Env) (c : Ctx) : X XAction := do
  let (c, p) ← parseIp6 c
  if p = some 58 then
    count (fun st => { st with rxIcmp6 := st.rxIcmp6 + 1 })
    return .pass
  else if p = some 17 then
    count (fun st => { st with rxUdp := st.rxUdp + 1 })
    n6Ip6 e c
  else if p = some 6 then
    count (fun st => { st with rxTcp := st.rxTcp + 1 })
    let (c, _) ← parseTcp c
    n6Ip6 e c
  else
    count (fun st => { st with rxOther := st.rxOther + 1 })
    return .pass

/-- n3n6_entrypoint.c 459-477 `process_packet` -/
def processPacket (e : Env) : X XAction := do
  let (c, t) ← parseEthernet {}
  if t = some 0x86DD then
    count (fun st => { st with rxIp6 := st.rxIp6 + 1 })
    handleIp6 e c
  else if t = some 0x0800 then
    count (fun st => { st with rxIp4 := st.rxIp4 + 1 })
    handleIp4 e c
  else if t = some 0x0806 then
    count (fun st => { st with rxArp := st.rxArp + 1 })
    return .pass
  else return .pass

/-- n3n6_entrypoint.c 480-508 `upf_ip_entrypoint_func` (the per-CPU array lookup of key 0 always succeeds) -/
def entrypoint (e : Env) : X XAction := do
  let a ← processPacket e
  count (fun st => { st with actions := fun i => if i = a.code then st.actions i + 1 else st.actions i })
  return a

/-- One packet: the state before, the outcome and the state after. -/
def runPacket (e : Env) (s : PS) : PS × Res XAction := entrypoint e s

end Eupf
